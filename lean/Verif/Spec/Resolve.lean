import Verif.Machine
/-!
# Specification vocabulary: what a user chooses, and what follows from it

Of the many accounts an instruction lists, a user chooses a few. Every other one can be worked out from those, from the
public configuration, the stream or campaign record and the token's mint.
-/

namespace Solsab.Spec

/-- What the caller of an instruction of the two programs chooses. -/
inductive Choice
  | initLockup (caller : Addr) (nftProgram : TokenProgram) (feeCollector oracleProgram feed : Addr)
  | createAt (creator sender recipient token : Addr) (nftProgram : TokenProgram) (salt : Fin (2 ^ 128))
      (deposit start cliff finish startUnlock cliffUnlock : UInt64) (cancelable : Bool)
  | createFor (creator sender recipient token : Addr) (nftProgram : TokenProgram) (salt : Fin (2 ^ 128))
      (deposit cliff total startUnlock cliffUnlock : UInt64) (cancelable : Bool)
  | withdraw (caller nft recipient to : Addr) (amount : UInt64)
  | withdrawMax (caller nft recipient to : Addr)
  | cancel (nft : Addr)
  | renounce (nft : Addr)
  | collect (program : Prog) (to : Addr)
  | initMerkle (caller feeCollector oracleProgram feed : Addr)
  | createCampaign (creator token : Addr) (root : Bytes32) (start expiration : UInt64) (name cid : List UInt8)
      (total : UInt64) (count : UInt32)
  | claim (caller campaign recipient : Addr) (index : UInt32) (amount : UInt64) (proof : List Bytes32)
  | clawback (campaign to : Addr) (amount : UInt64)

/-- The choices an instruction was built from. -/
def choiceOf : Ix → Option Choice
  | .lockup (.initialize c f o s) => some (.initLockup c.initializer c.nftTokenProgram f o s)
  | .lockup (.createWithTimestamps c salt d st cl en su cu ca) =>
      some (.createAt c.creator c.sender c.recipient c.depositTokenMint c.nftTokenProgram salt d st cl en su cu ca)
  | .lockup (.createWithDurations c salt d cl to su cu ca) =>
      some (.createFor c.creator c.sender c.recipient c.depositTokenMint c.nftTokenProgram salt d cl to su cu ca)
  | .lockup (.withdraw c a) => some (.withdraw c.signer c.streamNftMint c.streamRecipient c.withdrawalRecipient a)
  | .lockup (.withdrawMax c) => some (.withdrawMax c.signer c.streamNftMint c.streamRecipient c.withdrawalRecipient)
  | .lockup (.cancel c) => some (.cancel c.streamNftMint)
  | .lockup (.renounce c) => some (.renounce c.streamNftMint)
  | .lockup (.collectFees c) => some (.collect .lockup c.feeRecipient)
  | .merkle (.initialize c f o s) => some (.initMerkle c.initializer f o s)
  | .merkle (.createCampaign c root st ex name cid agg cnt) =>
      some (.createCampaign c.creator c.airdropTokenMint root st ex name cid agg cnt)
  | .merkle (.claim c i a proof) => some (.claim c.claimer c.campaign c.recipient i a proof)
  | .merkle (.clawback c a) => some (.clawback c.campaign c.clawbackRecipient a)
  | .merkle (.collectFees c) => some (.collect .merkle c.feeRecipient)
  | .env _ => none

/-- The token program of a mint. -/
def programOf (w : World) (mint : Addr) : Option TokenProgram := (w.bank.mints mint).map (·.program)

/-- The accounts of a creation. -/
def createAccounts (w : World) (creator sender recipient token : Addr) (np : TokenProgram) (salt : Nat) :
    Option Lockup.CreateAccts := do
  let tp ← programOf w token
  let nft := Addr.streamNftMint sender salt
  pure {
    creator, recipient, sender
    creatorAta := .ata creator tp token
    nftCollectionData := .nftCollectionData
    nftCollectionMint := .nftCollectionMint
    depositTokenMint := token
    streamNftMint := nft
    recipientStreamNftAta := .ata recipient np nft
    streamData := .streamData nft
    streamDataAta := .ata (.streamData nft) tp token
    depositTokenProgram := tp
    nftTokenProgram := np }

/-- The accounts of a withdrawal. -/
def withdrawAccounts (w : World) (signer nft recipient to : Addr) : Option Lockup.WithdrawAccts := do
  let sd ← w.lk.streams (.streamData nft)
  let tr ← w.lk.treasury
  let tp ← programOf w sd.depositedTokenMint
  let np ← programOf w nft
  pure {
    signer
    streamRecipient := recipient
    withdrawalRecipient := to
    withdrawalRecipientAta := .ata to tp sd.depositedTokenMint
    treasury := .treasury .lockup
    depositedTokenMint := sd.depositedTokenMint
    recipientStreamNftAta := .ata recipient np nft
    streamData := .streamData nft
    streamDataAta := .ata (.streamData nft) tp sd.depositedTokenMint
    streamNftMint := nft
    chainlinkProgram := tr.chainlinkProgram
    chainlinkSolUsdFeed := tr.chainlinkSolUsdFeed
    depositedTokenProgram := tp
    nftTokenProgram := np }

/-- The instruction with all its accounts, worked out from the choices and the public state. -/
def resolve (w : World) : Choice → Option Ix
  | .initLockup caller np f o s =>
      some (.lockup (.initialize ⟨caller, .treasury .lockup, .nftCollectionData, .nftCollectionMint,
        .ata (.treasury .lockup) np .nftCollectionMint, np⟩ f o s))
  | .createAt creator sender recipient token np salt d st cl en su cu ca => do
      let c ← createAccounts w creator sender recipient token np salt.val
      pure (.lockup (.createWithTimestamps c salt d st cl en su cu ca))
  | .createFor creator sender recipient token np salt d cl to su cu ca => do
      let c ← createAccounts w creator sender recipient token np salt.val
      pure (.lockup (.createWithDurations c salt d cl to su cu ca))
  | .withdraw caller nft recipient to a => do
      let c ← withdrawAccounts w caller nft recipient to
      pure (.lockup (.withdraw c a))
  | .withdrawMax caller nft recipient to => do
      let c ← withdrawAccounts w caller nft recipient to
      pure (.lockup (.withdrawMax c))
  | .cancel nft => do
      let sd ← w.lk.streams (.streamData nft)
      let tp ← programOf w sd.depositedTokenMint
      pure (.lockup (.cancel ⟨sd.sender, .ata sd.sender tp sd.depositedTokenMint, sd.depositedTokenMint,
        .streamData nft, .ata (.streamData nft) tp sd.depositedTokenMint, nft, tp⟩))
  | .renounce nft => do
      let sd ← w.lk.streams (.streamData nft)
      pure (.lockup (.renounce ⟨sd.sender, .streamData nft, nft⟩))
  | .collect .lockup to => do
      let tr ← w.lk.treasury
      pure (.lockup (.collectFees ⟨tr.feeCollector, to, .treasury .lockup⟩))
  | .initMerkle caller f o s => some (.merkle (.initialize ⟨caller, .treasury .merkle⟩ f o s))
  | .createCampaign creator token root st ex name cid agg cnt => do
      let tp ← programOf w token
      let x := Addr.campaign creator root st.toNat ex.toNat name token
      pure (.merkle (.createCampaign ⟨creator, token, x, .ata x tp token, tp⟩ root st ex name cid agg cnt))
  | .claim caller x recipient i a proof => do
      let cd ← w.mi.campaigns x
      let tr ← w.mi.treasury
      let tp ← programOf w cd.airdropTokenMint
      pure (.merkle (.claim ⟨caller, recipient, .ata recipient tp cd.airdropTokenMint, .treasury .merkle,
        cd.airdropTokenMint, x, .ata x tp cd.airdropTokenMint, .claimReceipt x i.toNat, tp, tr.chainlinkProgram,
        tr.chainlinkSolUsdFeed⟩ i a proof))
  | .clawback x to a => do
      let cd ← w.mi.campaigns x
      let tp ← programOf w cd.airdropTokenMint
      pure (.merkle (.clawback ⟨cd.creator, to, .ata to tp cd.airdropTokenMint, cd.airdropTokenMint, x,
        .ata x tp cd.airdropTokenMint, tp⟩ a))
  | .collect .merkle to => do
      let tr ← w.mi.treasury
      pure (.merkle (.collectFees ⟨tr.feeCollector, to, .treasury .merkle⟩))

end Solsab.Spec
