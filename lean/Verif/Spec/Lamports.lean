import Mathlib.Algebra.BigOperators.Group.Finset.Basic
import Verif.Spec.Treasury
/-!
# Specification vocabulary: who pays lamports for what
-/

namespace Solsab

/-- The signing account that pays for the accounts an instruction of the two programs creates (for
`collect_fees`: the fee collector, who pays nothing). -/
def Ix.payer : Ix → Option Addr
  | .lockup (.initialize c _ _ _) => some c.initializer
  | .lockup (.createWithTimestamps c _ _ _ _ _ _ _ _) => some c.creator
  | .lockup (.createWithDurations c _ _ _ _ _ _ _) => some c.creator
  | .lockup (.withdraw c _) => some c.signer
  | .lockup (.withdrawMax c) => some c.signer
  | .lockup (.cancel c) => some c.sender
  | .lockup (.renounce c) => some c.sender
  | .lockup (.collectFees c) => some c.feeCollector
  | .merkle (.initialize c _ _ _) => some c.initializer
  | .merkle (.createCampaign c _ _ _ _ _ _ _) => some c.creator
  | .merkle (.claim c _ _ _) => some c.claimer
  | .merkle (.clawback c _) => some c.campaignCreator
  | .merkle (.collectFees c) => some c.feeCollector
  | .env _ => none

namespace Spec

/-- Size of a token account of the token `m`: fixed for SPL-Token, depends on the extensions of the token for Token-2022
(NFTs of the program have none). -/
def tokenSize (rt : Runtime) (m : Addr) : TokenProgram → Nat
  | .token => 165
  | .token2022 => 170 + (if m.canSign then rt.extensionSpace m else 0)

/-- The account `a` for the token `m` and its size, if it does not exist yet. -/
def absent (rt : Runtime) (w : World) (a : Addr) (tp : TokenProgram) (m : Addr) : List (Addr × Nat) :=
  if w.bank.tokens a = none then [(a, tokenSize rt m tp)] else []

/-- The two Metaplex accounts of an NFT. -/
def nftAccounts (rt : Runtime) (m : Addr) : List (Addr × Nat) :=
  [(.metadata m, rt.metadataSpace), (.edition m, rt.editionSpace)]

/-- What is charged besides rent for creating the account at `a`: the fee of Metaplex for a metadata account. -/
def charge (rt : Runtime) : Addr → Nat
  | .metadata _ => rt.metaplexFee
  | _ => 0

/-- The accounts that a successful instruction of the two programs creates, with their sizes in bytes. -/
def opens (rt : Runtime) (w : World) : Ix → List (Addr × Nat)
  | .lockup (.initialize c _ _ _) =>
      [(.treasury .lockup, 105), (.nftCollectionData, 17), (.nftCollectionMint, 82),
       (.ata (.treasury .lockup) c.nftTokenProgram .nftCollectionMint,
         tokenSize rt .nftCollectionMint c.nftTokenProgram)] ++ nftAccounts rt .nftCollectionMint
  | .lockup (.createWithTimestamps c salt _ _ _ _ _ _ _) =>
      [(.streamNftMint c.sender salt.val, 82),
       (.ata c.recipient c.nftTokenProgram (.streamNftMint c.sender salt.val),
         tokenSize rt (.streamNftMint c.sender salt.val) c.nftTokenProgram),
       (streamAddr c.sender salt.val, 156),
       (.ata (streamAddr c.sender salt.val) c.depositTokenProgram c.depositTokenMint,
         tokenSize rt c.depositTokenMint c.depositTokenProgram)] ++ nftAccounts rt (.streamNftMint c.sender salt.val)
  | .lockup (.createWithDurations c salt _ _ _ _ _ _) =>
      [(.streamNftMint c.sender salt.val, 82),
       (.ata c.recipient c.nftTokenProgram (.streamNftMint c.sender salt.val),
         tokenSize rt (.streamNftMint c.sender salt.val) c.nftTokenProgram),
       (streamAddr c.sender salt.val, 156),
       (.ata (streamAddr c.sender salt.val) c.depositTokenProgram c.depositTokenMint,
         tokenSize rt c.depositTokenMint c.depositTokenProgram)] ++ nftAccounts rt (.streamNftMint c.sender salt.val)
  | .lockup (.withdraw c _) => absent rt w c.withdrawalRecipientAta c.depositedTokenProgram c.depositedTokenMint
  | .lockup (.withdrawMax c) => absent rt w c.withdrawalRecipientAta c.depositedTokenProgram c.depositedTokenMint
  | .lockup (.cancel c) => absent rt w c.senderAta c.depositedTokenProgram c.depositedTokenMint
  | .merkle (.initialize _ _ _ _) => [(.treasury .merkle, 105)]
  | .merkle (.createCampaign c root st ex name _ _ _) =>
      [(.campaign c.creator root st.toNat ex.toNat name c.airdropTokenMint, 228),
       (.ata (.campaign c.creator root st.toNat ex.toNat name c.airdropTokenMint) c.airdropTokenProgram
          c.airdropTokenMint, tokenSize rt c.airdropTokenMint c.airdropTokenProgram)]
  | .merkle (.claim c i _ _) =>
      absent rt w c.recipientAta c.airdropTokenProgram c.airdropTokenMint ++ [(.claimReceipt c.campaign i.toNat, 8)]
  | .merkle (.clawback c _) => absent rt w c.clawbackRecipientAta c.airdropTokenProgram c.airdropTokenMint
  | _ => []

/-- For each account of the list, in order, `payer` pays the charge for it, if any, and then tops it up to the rent minimum
of its size, and can afford it every time: `l` before, `l'` after. -/
inductive RentFlow (rt : Runtime) (payer : Addr) : List (Addr × Nat) → (Addr → Nat) → (Addr → Nat) → Prop
  | nil (l : Addr → Nat) : RentFlow rt payer [] l l
  | cons {a : Addr} {k : Nat} {xs : List (Addr × Nat)} {l l' : Addr → Nat}
      (affordCharge : charge rt a ≤ l payer)
      (afford : max (rt.rent k) 1 - moved l payer a (charge rt a) a ≤ moved l payer a (charge rt a) payer)
      (rest : RentFlow rt payer xs (rentPaid rt (moved l payer a (charge rt a)) payer a k) l') : RentFlow rt payer ((a, k) :: xs) l l'

/-- No lamports appear or disappear: outside a finite set of accounts nothing changes, inside it the sum stays. -/
def SameTotal (l l' : Addr → Nat) : Prop :=
  ∃ S : Finset Addr, (∀ a, a ∉ S → l' a = l a) ∧ S.sum l' = S.sum l

/-- Units of the token `m` held in account `a`. -/
def holding (w : World) (m a : Addr) : Nat :=
  match w.bank.tokens a with
  | some t => if t.mint = m then t.amount else 0
  | none => 0

/-- The NFT mint that a successful instruction creates. -/
def newNft : Ix → Option Addr
  | .lockup (.initialize _ _ _ _) => some .nftCollectionMint
  | .lockup (.createWithTimestamps c salt _ _ _ _ _ _ _) => some (.streamNftMint c.sender salt.val)
  | .lockup (.createWithDurations c salt _ _ _ _ _ _) => some (.streamNftMint c.sender salt.val)
  | _ => none

/-- There is an account of the two programs at `a`, allocated with `k` bytes. -/
inductive ProgramAccount (w : World) : Addr → Nat → Prop
  | stream {a : Addr} {sd : Lockup.StreamData} (h : w.lk.streams a = some sd) : ProgramAccount w a 156
  | collection {nd : Lockup.NftCollectionData} (h : w.lk.nftCollectionData = some nd) :
      ProgramAccount w .nftCollectionData 17
  | lockupTreasury {tr : Treasury} (h : w.lk.treasury = some tr) : ProgramAccount w (.treasury .lockup) 105
  | campaign {a : Addr} {cd : Merkle.Campaign} (h : w.mi.campaigns a = some cd) : ProgramAccount w a 228
  | receipt {a : Addr} (h : w.mi.receipts a = true) : ProgramAccount w a 8
  | merkleTreasury {tr : Treasury} (h : w.mi.treasury = some tr) : ProgramAccount w (.treasury .merkle) 105

end Spec
end Solsab
