import Verif.Spec.Api
import Verif.Spec.Metadata
/-!
# Specification vocabulary: the full effect of creating a stream
-/

namespace Solsab.Spec

open Lockup

/-- Everything that a successful creation of stream `(c.sender, n)` with the given terms does to the ledger:
`w` before, `w'` after; `md` is the deposited token, `nd` the collection record. -/
structure CreateEffect (rt : Runtime) (w w' : World) (c : CreateAccts) (n dep st cl en su cu : Nat) (ca : Bool)
    (md : MintData) (nd : NftCollectionData) : Prop where
  mint : w.bank.mints c.depositTokenMint = some md
  /-- new accounts of the token do not start frozen -/
  opensThawed : md.startsFrozen = false
  collection : w.lk.nftCollectionData = some nd
  /-- the creator signed -/
  signed : c.creator.canSign = true
  /-- the stream is new, stores exactly the arguments, nothing withdrawn or refunded, no flag but `is_cancelable` -/
  fresh : w.lk.streams (streamAddr c.sender n) = none
  streams : w'.lk.streams = upd w.lk.streams (streamAddr c.sender n) (some
    { amounts := { startUnlock := su, cliffUnlock := cu, deposited := dep, refunded := 0, withdrawn := 0 }
      depositedTokenMint := c.depositTokenMint
      bump := rt.bump (streamAddr c.sender n)
      salt := n
      isCancelable := ca
      isDepleted := false
      timestamps := { cliff := cl, «end» := en, start := st }
      sender := c.sender
      wasCanceled := false })
  /-- the creator's associated account pays exactly the deposit -/
  paid : ∃ t, w.bank.tokens (.ata c.creator md.program c.depositTokenMint) = some t ∧ t.owner = c.creator ∧
    dep ≤ t.amount ∧
    w'.bank.tokens (.ata c.creator md.program c.depositTokenMint) = some { t with amount := t.amount - dep }
  /-- the vault is new and receives the deposit less the token's own fee -/
  vaultFresh : w.bank.tokens (.ata (streamAddr c.sender n) md.program c.depositTokenMint) = none
  vault : w'.bank.tokens (.ata (streamAddr c.sender n) md.program c.depositTokenMint) =
    some ⟨md.program, c.depositTokenMint, streamAddr c.sender n, dep - md.fee dep, false⟩
  /-- the NFT is new, has supply 1 and no decimals, cannot be minted again, and is in the recipient's account -/
  nftFresh : w.bank.mints (.streamNftMint c.sender n) = none
  nft : ∃ m, w'.bank.mints (.streamNftMint c.sender n) = some m ∧ m.supply = 1 ∧ m.decimals = 0 ∧
    m.authority = some (.edition (.streamNftMint c.sender n))
  nftHeld : w'.bank.tokens (.ata c.recipient c.nftTokenProgram (.streamNftMint c.sender n)) =
    some ⟨c.nftTokenProgram, .streamNftMint c.sender n, c.recipient, 1, false⟩
  /-- it is a verified member of the collection -/
  nftMeta : ∃ text name, IsAddressText (rt.keyBytes (.streamNftMint c.sender n)) text ∧ IsNftName text name ∧
    w'.metas (.streamNftMint c.sender n) = some (nftData name)
  /-- nothing else moves -/
  tokens : ∀ a, a ≠ .ata c.creator md.program c.depositTokenMint →
    a ≠ .ata (streamAddr c.sender n) md.program c.depositTokenMint →
    a ≠ .ata c.recipient c.nftTokenProgram (.streamNftMint c.sender n) → w'.bank.tokens a = w.bank.tokens a
  mints : ∀ m, m ≠ .streamNftMint c.sender n → w'.bank.mints m = w.bank.mints m
  metas : ∀ m, m ≠ .streamNftMint c.sender n → m ≠ .nftCollectionMint → w'.metas m = w.metas m
  treasury : w'.lk.treasury = w.lk.treasury
  merkle : w'.mi = w.mi
  clock : w'.clock = w.clock
  /-- the counter goes up by one -/
  counter : w'.lk.nftCollectionData = some { nd with totalSupply := nd.totalSupply + 1 }
  /-- lamports are taken from no account but the creator's -/
  lamports : ∀ a, a ≠ c.creator → w.lamports a ≤ w'.lamports a
  /-- one event -/
  log : w'.log = ⟨w.now, .createLockupLinearStream md.decimals c.depositTokenMint c.recipient n
    (streamAddr c.sender n) (.streamNftMint c.sender n)⟩ :: w.log

end Solsab.Spec
