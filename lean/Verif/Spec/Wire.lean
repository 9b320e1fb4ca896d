import Verif.Bytes.Wire
import Verif.Spec.Abi
import Verif.Spec.Locality
import Verif.Spec.Signers
/-!
# Specification vocabulary: the messages a client builds

For every instruction, the list of account metas (address, must it sign, must it be writable) as the interface
description publishes it, written out once more from the client's side; and what it means that a transaction grants
these privileges.
-/

namespace Solsab.Spec

open Abi Wire

/-- `AccountMeta` of a client. -/
structure AccountMeta where
  addr : Addr
  isSigner : Bool
  isWritable : Bool

/-- Signs and may be changed. -/
def payer (a : Addr) : AccountMeta := ⟨a, true, true⟩
/-- Signs, is not changed. -/
def authority (a : Addr) : AccountMeta := ⟨a, true, false⟩
/-- May be changed. -/
def writable (a : Addr) : AccountMeta := ⟨a, false, true⟩
/-- Is only read. -/
def readonly (a : Addr) : AccountMeta := ⟨a, false, false⟩

/-- The address of a token program. -/
def tokenProgramId (ids : Ids) : TokenProgram → Addr
  | .token => ids.token
  | .token2022 => ids.token2022

def createMetas (ids : Ids) (c : Lockup.CreateAccts) : List AccountMeta :=
  [payer c.creator, writable c.creatorAta, readonly c.recipient, readonly c.sender, writable c.nftCollectionData,
   readonly (.edition c.nftCollectionMint), writable (.metadata c.nftCollectionMint), readonly c.nftCollectionMint,
   readonly c.depositTokenMint, writable c.streamNftMint, writable c.recipientStreamNftAta, writable c.streamData,
   writable c.streamDataAta, writable (.edition c.streamNftMint), writable (.metadata c.streamNftMint),
   readonly ids.associatedToken, readonly (tokenProgramId ids c.depositTokenProgram),
   readonly (tokenProgramId ids c.nftTokenProgram), readonly ids.tokenMetadata, readonly ids.system, readonly ids.rent]

def withdrawMetas (ids : Ids) (c : Lockup.WithdrawAccts) : List AccountMeta :=
  [payer c.signer, readonly c.streamRecipient, readonly c.withdrawalRecipient, writable c.withdrawalRecipientAta,
   writable c.treasury, readonly c.depositedTokenMint, readonly c.recipientStreamNftAta, writable c.streamData,
   writable c.streamDataAta, readonly c.streamNftMint, readonly ids.associatedToken, readonly c.chainlinkProgram,
   readonly c.chainlinkSolUsdFeed, readonly (tokenProgramId ids c.depositedTokenProgram),
   readonly (tokenProgramId ids c.nftTokenProgram), readonly ids.system]

/-- The accounts of an instruction of the lockup program, in the order of its interface. -/
def lockupMetas (ids : Ids) : LockupIx → List AccountMeta
  | .initialize c _ _ _ =>
      [payer c.initializer, writable c.treasury, writable c.nftCollectionData, writable (.edition c.nftCollectionMint),
       writable (.metadata c.nftCollectionMint), writable c.nftCollectionMint, writable c.nftCollectionAta,
       readonly ids.associatedToken, readonly (tokenProgramId ids c.nftTokenProgram), readonly ids.tokenMetadata,
       readonly ids.rent, readonly ids.system]
  | .createWithTimestamps c .. => createMetas ids c
  | .createWithDurations c .. => createMetas ids c
  | .withdraw c _ => withdrawMetas ids c
  | .withdrawMax c => withdrawMetas ids c
  | .cancel c =>
      [payer c.sender, writable c.senderAta, readonly c.depositedTokenMint, writable c.streamData,
       writable c.streamDataAta, readonly c.streamNftMint, readonly ids.associatedToken,
       readonly (tokenProgramId ids c.depositedTokenProgram), readonly ids.system]
  | .renounce c => [authority c.sender, writable c.streamData, readonly c.streamNftMint]
  | .collectFees c => [authority c.feeCollector, writable c.feeRecipient, writable c.treasury]

/-- The accounts of an instruction of the merkle_instant program, in the order of its interface. -/
def merkleMetas (ids : Ids) : MerkleIx → List AccountMeta
  | .initialize c _ _ _ => [payer c.initializer, writable c.treasury, readonly ids.system]
  | .createCampaign c .. =>
      [payer c.creator, readonly c.airdropTokenMint, writable c.campaign, writable c.campaignAta,
       readonly (tokenProgramId ids c.airdropTokenProgram), readonly ids.associatedToken, readonly ids.system]
  | .claim c .. =>
      [payer c.claimer, readonly c.recipient, writable c.recipientAta, writable c.treasury, readonly c.airdropTokenMint,
       writable c.campaign, writable c.campaignAta, writable c.claimReceipt,
       readonly (tokenProgramId ids c.airdropTokenProgram), readonly ids.associatedToken, readonly c.chainlinkProgram,
       readonly c.chainlinkSolUsdFeed, readonly ids.system]
  | .clawback c _ =>
      [payer c.campaignCreator, readonly c.clawbackRecipient, writable c.clawbackRecipientAta,
       readonly c.airdropTokenMint, readonly c.campaign, writable c.campaignAta,
       readonly (tokenProgramId ids c.airdropTokenProgram), readonly ids.associatedToken, readonly ids.system]
  | .collectFees c => [authority c.feeCollector, writable c.feeRecipient, writable c.treasury]

/-- The transaction grants what the metas ask for. -/
def Header.Grants (h : Header) (ms : List AccountMeta) : Prop :=
  ∀ m ∈ ms, (m.isSigner = true → m.addr ∈ h.signers) ∧ (m.isWritable = true → m.addr ∈ h.writable)

/-- The call carries the arguments of the instruction (an address argument as 32 bytes that are read as it). -/
def LockupCarries (ids : Ids) : LockupIx → LockupCall → Prop
  | .initialize _ f p s, .initialize f' p' s' => ids.addrOf f' = f ∧ ids.addrOf p' = p ∧ ids.addrOf s' = s
  | .createWithTimestamps _ salt dep st cl en su cu ca, call => call = .createWithTimestamps salt dep st cl en su cu ca
  | .createWithDurations _ salt dep cd td su cu ca, call => call = .createWithDurations salt dep cd td su cu ca
  | .withdraw _ amount, call => call = .withdraw amount
  | .withdrawMax _, call => call = .withdrawMax
  | .cancel _, call => call = .cancel
  | .renounce _, call => call = .renounce
  | .collectFees _, call => call = .collectFees
  | _, _ => False

/-- The same for the merkle_instant program. -/
def MerkleCarries (ids : Ids) : MerkleIx → MerkleCall → Prop
  | .initialize _ f p s, .initialize f' p' s' => ids.addrOf f' = f ∧ ids.addrOf p' = p ∧ ids.addrOf s' = s
  | .createCampaign _ root st ex name cid agg cnt, call => call = .createCampaign root st ex name cid agg cnt
  | .claim _ index amount proof, call => call = .claim index amount proof
  | .clawback _ amount, call => call = .clawback amount
  | .collectFees _, call => call = .collectFees
  | _, _ => False

/-- The message asks the lockup program for the instruction: its accounts in order, its arguments in order; whatever
follows either is ignored. -/
def AsksLockup (ids : Ids) (m : Message) (i : LockupIx) : Prop :=
  m.program = .lockup ∧ (∃ more, m.accounts = (lockupMetas ids i).map AccountMeta.addr ++ more) ∧
  ∃ call rest, LockupCarries ids i call ∧ m.data = lockupData call ++ rest

/-- The bytes are a text: the UTF-8 encoding of some characters. -/
def IsText (s : List UInt8) : Prop := ∃ cs : List Char, s = cs.flatMap String.utf8EncodeChar

/-- The name and the CID of a new campaign are texts. -/
def MerkleCall.Texts : MerkleCall → Prop
  | .createCampaign _ _ _ name cid _ _ => IsText name ∧ IsText cid
  | _ => True

/-- The message asks the merkle_instant program for the instruction. -/
def AsksMerkle (ids : Ids) (m : Message) (i : MerkleIx) : Prop :=
  m.program = .merkle ∧ (∃ more, m.accounts = (merkleMetas ids i).map AccountMeta.addr ++ more) ∧
  ∃ call rest, MerkleCarries ids i call ∧ MerkleCall.Sized call ∧ MerkleCall.Texts call ∧
    m.data = merkleData call ++ rest

/-- The published account list of an instruction of either program. -/
def metasOf (ids : Ids) : Ix → List AccountMeta
  | .lockup i => lockupMetas ids i
  | .merkle i => merkleMetas ids i
  | .env _ => []

/-- The privileges a client asks the wallets for: exactly those of the interface. -/
def headerOf (ms : List AccountMeta) : Header where
  signers := (ms.filter AccountMeta.isSigner).map AccountMeta.addr
  writable := (ms.filter AccountMeta.isWritable).map AccountMeta.addr

/-- The message a client builds. -/
def lockupMessage (ids : Ids) (i : LockupIx) (call : LockupCall) : Message where
  program := .lockup
  accounts := (lockupMetas ids i).map AccountMeta.addr
  data := lockupData call

def merkleMessage (ids : Ids) (i : MerkleIx) (call : MerkleCall) : Message where
  program := .merkle
  accounts := (merkleMetas ids i).map AccountMeta.addr
  data := merkleData call

/-- A history in which the two programs are reached by messages only. -/
inductive Messages (ids : Ids) (rt : Runtime) : World → World → Prop
  | refl (w : World) : Messages ids rt w w
  | message {w w₁ w₂ : World} (h : Header) (m : Message) (ret : List UInt8) (hs : Messages ids rt w w₁)
      (hx : exec ids rt w₁ h m = .ok (w₂, ret)) : Messages ids rt w w₂
  | env {w w₁ w₂ : World} (e : EnvIx) (hs : Messages ids rt w w₁) (hx : step rt w₁ (.env e) = .ok w₂) :
      Messages ids rt w w₂

/-- The same, and `p` signs none of the transactions. -/
inductive MessagesUnsignedBy (ids : Ids) (rt : Runtime) (p : Addr) : World → World → Prop
  | refl (w : World) : MessagesUnsignedBy ids rt p w w
  | message {w w₁ w₂ : World} (h : Header) (m : Message) (ret : List UInt8) (hs : MessagesUnsignedBy ids rt p w w₁)
      (hx : exec ids rt w₁ h m = .ok (w₂, ret)) (hn : p ∉ h.signers) : MessagesUnsignedBy ids rt p w w₂
  | env {w w₁ w₂ : World} (e : EnvIx) (hs : MessagesUnsignedBy ids rt p w w₁) (hx : step rt w₁ (.env e) = .ok w₂)
      (hn : signerOf (.env e) ≠ some p) : MessagesUnsignedBy ids rt p w w₂

/-- The result of an instruction as the result of a message: no return data. -/
def asMessage : Res World → Except WireErr (World × List UInt8)
  | .ok w => .ok (w, [])
  | .error e => .error (.program e)

/-! ## Questions -/

/-- The program a question is put to. -/
def viewProgram : View → Prog
  | .refundableAmountOf _ | .statusOf _ | .streamExists .. | .streamedAmountOf _ | .lockupTreasury _
  | .withdrawableAmountOf _ | .withdrawalFee .. => .lockup
  | .campaign _ | .claimFee .. | .hasClaimed .. | .hasExpired _ | .hasGracePeriodPassed _ | .hasCampaignStarted _
  | .merkleTreasury _ => .merkle

/-- The accounts of a question, all of them only read. -/
def viewAccounts : View → List Addr
  | .refundableAmountOf c | .statusOf c | .streamedAmountOf c | .withdrawableAmountOf c => [c.streamData, c.streamNftMint]
  | .streamExists nftMint _ _ => [nftMint]
  | .lockupTreasury t | .merkleTreasury t => [t]
  | .withdrawalFee t p f | .claimFee t p f => [t, p, f]
  | .campaign x | .hasExpired x | .hasGracePeriodPassed x | .hasCampaignStarted x => [x]
  | .hasClaimed x receipt _ => [x, receipt]

/-- The bytes of a question. -/
def ViewData (ids : Ids) (data : List UInt8) : View → Prop
  | .refundableAmountOf _ => data = lockupData .refundableAmountOf
  | .statusOf _ => data = lockupData .statusOf
  | .streamExists _ sender salt => ∃ k, ids.addrOf k = sender ∧ data = lockupData (.streamExists k salt)
  | .streamedAmountOf _ => data = lockupData .streamedAmountOf
  | .lockupTreasury _ => data = lockupData .treasuryView
  | .withdrawableAmountOf _ => data = lockupData .withdrawableAmountOf
  | .withdrawalFee .. => data = lockupData .withdrawalFeeInLamports
  | .campaign _ => data = merkleData .campaignView
  | .claimFee .. => data = merkleData .claimFeeInLamports
  | .hasClaimed _ _ i => data = merkleData (.hasClaimed i)
  | .hasExpired _ => data = merkleData .hasExpired
  | .hasGracePeriodPassed _ => data = merkleData .hasGracePeriodPassed
  | .hasCampaignStarted _ => data = merkleData .hasCampaignStarted
  | .merkleTreasury _ => data = merkleData .treasuryView

/-- The message asks the question. -/
def AsksView (ids : Ids) (m : Message) (v : View) : Prop :=
  m.program = viewProgram v ∧ (∃ more, m.accounts = viewAccounts v ++ more) ∧
  ∃ data rest, ViewData ids data v ∧ m.data = data ++ rest

/-- The position of a status in the published enum. -/
def statusNumber : Lockup.StreamStatus → Nat
  | .pending => 0
  | .streaming => 1
  | .settled => 2
  | .canceled => 3
  | .depleted => 4

/-- The published layout of the configuration of a program. -/
def treasuryBytes (rt : Runtime) (t : Treasury) : List UInt8 :=
  littleEndian 1 t.bump ++ (rt.keyBytes t.feeCollector).val ++ (rt.keyBytes t.chainlinkProgram).val ++
    (rt.keyBytes t.chainlinkSolUsdFeed).val

/-- The published layout of a campaign. -/
def campaignBytes (rt : Runtime) (c : Merkle.Campaign) : List UInt8 :=
  (rt.keyBytes c.airdropTokenMint).val ++ littleEndian 1 c.bump ++ littleEndian 8 c.campaignStartTime ++
    (rt.keyBytes c.creator).val ++ littleEndian 8 c.expirationTime ++ littleEndian 8 c.firstClaimTime ++
    text c.ipfsCid ++ c.merkleRoot.val ++ text c.name

/-- A number as eight bytes, without loss. -/
def IsU64 (n : Nat) (ret : List UInt8) : Prop := n < 2 ^ 64 ∧ ret = littleEndian 8 n

/-- `ret` is the answer to the question in the state `w`. -/
def Answers (rt : Runtime) (w : World) (ret : List UInt8) : View → Prop
  | .refundableAmountOf c => ∃ n, Lockup.refundableAmountOf rt w c = .ok n ∧ IsU64 n ret
  | .streamedAmountOf c => ∃ n, Lockup.streamedAmountOf rt w c = .ok n ∧ IsU64 n ret
  | .withdrawableAmountOf c => ∃ n, Lockup.withdrawableAmountOf rt w c = .ok n ∧ IsU64 n ret
  | .statusOf c => ∃ s, Lockup.statusOf rt w c = .ok s ∧ ret = littleEndian 1 (statusNumber s)
  | .streamExists nftMint sender salt =>
      nftMint = .streamNftMint sender salt.val ∧ ret = flag (Lockup.streamExists w sender salt.val)
  | .lockupTreasury a => ∃ t, Lockup.treasuryView rt w a = .ok t ∧ t.bump < 256 ∧ ret = treasuryBytes rt t
  | .merkleTreasury a => ∃ t, Merkle.treasuryView rt w a = .ok t ∧ t.bump < 256 ∧ ret = treasuryBytes rt t
  | .withdrawalFee t p f => ∃ n, Lockup.withdrawalFeeInLamports rt w t p f = .ok n ∧ IsU64 n ret
  | .claimFee t p f => ∃ n, Merkle.claimFeeInLamports rt w t p f = .ok n ∧ IsU64 n ret
  | .campaign x => ∃ c, Merkle.campaignView w x = .ok c ∧ c.bump < 256 ∧ c.campaignStartTime < 2 ^ 64 ∧
      c.expirationTime < 2 ^ 64 ∧ c.firstClaimTime < 2 ^ 64 ∧ c.ipfsCid.length < 2 ^ 32 ∧ c.name.length < 2 ^ 32 ∧
      ret = campaignBytes rt c
  | .hasClaimed x receipt i => receipt = .claimReceipt x i.toNat ∧
      ∃ b, Merkle.hasClaimedView w x i.toNat = .ok b ∧ ret = flag b
  | .hasExpired x => ∃ b, Merkle.hasExpiredView w x = .ok b ∧ ret = flag b
  | .hasGracePeriodPassed x => ∃ b, Merkle.hasGracePeriodPassedView w x = .ok b ∧ ret = flag b
  | .hasCampaignStarted x => ∃ b, Merkle.hasCampaignStartedView w x = .ok b ∧ ret = flag b

end Solsab.Spec
