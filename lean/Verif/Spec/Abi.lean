import Verif.Bytes.Abi
import Verif.Spec.Tree
/-!
# Specification vocabulary: the bytes of instructions and events

Written out with literal tags, independently of the codecs.
-/

namespace Solsab.Spec

open Abi

def flag (b : Bool) : List UInt8 := [if b then 1 else 0]
def le4 (x : UInt32) : List UInt8 := littleEndian 4 x.toNat
def le8 (x : UInt64) : List UInt8 := littleEndian 8 x.toNat
def le16 (x : Fin (2 ^ 128)) : List UInt8 := littleEndian 16 x.val
/-- A string: its length in four bytes, then its bytes. -/
def text (s : List UInt8) : List UInt8 := littleEndian 4 s.length ++ s

/-- Instruction data of the lockup program. -/
def lockupData : LockupCall → List UInt8
  | .cancel => [232, 219, 223, 41, 219, 236, 220, 190]
  | .collectFees => [164, 152, 207, 99, 30, 186, 19, 182]
  | .createWithDurations salt deposit cliffDuration totalDuration startUnlock cliffUnlock isCancelable =>
      [87, 17, 170, 167, 156, 152, 169, 61] ++ le16 salt ++ le8 deposit ++ le8 cliffDuration ++ le8 totalDuration ++
        le8 startUnlock ++ le8 cliffUnlock ++ flag isCancelable
  | .createWithTimestamps salt deposit start cliff «end» startUnlock cliffUnlock isCancelable =>
      [150, 165, 147, 28, 68, 41, 48, 41] ++ le16 salt ++ le8 deposit ++ le8 start ++ le8 cliff ++ le8 «end» ++
        le8 startUnlock ++ le8 cliffUnlock ++ flag isCancelable
  | .initialize feeCollector chainlinkProgram feed =>
      [175, 175, 109, 31, 13, 152, 155, 237] ++ feeCollector.val ++ chainlinkProgram.val ++ feed.val
  | .renounce => [241, 157, 138, 210, 8, 235, 187, 123]
  | .withdraw amount => [183, 18, 70, 156, 148, 109, 161, 34] ++ le8 amount
  | .withdrawMax => [32, 71, 46, 98, 105, 76, 85, 96]
  | .refundableAmountOf => [160, 136, 114, 120, 234, 178, 146, 58]
  | .statusOf => [90, 214, 253, 237, 126, 236, 132, 237]
  | .streamExists sender salt => [104, 209, 104, 97, 122, 35, 165, 195] ++ sender.val ++ le16 salt
  | .streamedAmountOf => [91, 69, 219, 48, 189, 26, 13, 33]
  | .treasuryView => [247, 160, 213, 237, 247, 121, 164, 82]
  | .withdrawableAmountOf => [30, 195, 140, 141, 173, 123, 253, 60]
  | .withdrawalFeeInLamports => [55, 255, 88, 224, 223, 23, 97, 140]

/-- Instruction data of the merkle_instant program. -/
def merkleData : MerkleCall → List UInt8
  | .claim index amount proof =>
      [62, 198, 214, 193, 213, 159, 108, 210] ++ le4 index ++ le8 amount ++ littleEndian 4 proof.length ++
        proof.flatMap (fun h => h.val)
  | .clawback amount => [111, 92, 142, 79, 33, 234, 82, 27] ++ le8 amount
  | .collectFees => [164, 152, 207, 99, 30, 186, 19, 182]
  | .createCampaign root start expiration name cid aggregate count =>
      [111, 131, 187, 98, 160, 193, 114, 244] ++ root.val ++ le8 start ++ le8 expiration ++ text name ++ text cid ++
        le8 aggregate ++ le4 count
  | .initialize feeCollector chainlinkProgram feed =>
      [175, 175, 109, 31, 13, 152, 155, 237] ++ feeCollector.val ++ chainlinkProgram.val ++ feed.val
  | .campaignView => [188, 126, 110, 5, 183, 113, 158, 3]
  | .claimFeeInLamports => [255, 199, 146, 222, 145, 180, 58, 231]
  | .hasClaimed index => [182, 195, 167, 56, 232, 3, 223, 102] ++ le4 index
  | .hasExpired => [24, 138, 30, 86, 92, 38, 143, 129]
  | .hasGracePeriodPassed => [223, 150, 181, 32, 240, 136, 73, 236]
  | .hasCampaignStarted => [135, 101, 171, 220, 86, 97, 104, 199]
  | .treasuryView => [247, 160, 213, 237, 247, 121, 164, 82]

/-- Lengths fit their four-byte prefixes (a transaction has far fewer bytes). -/
def MerkleCall.Sized : MerkleCall → Prop
  | .claim _ _ proof => proof.length < 2 ^ 32
  | .createCampaign _ _ _ name cid _ _ => name.length < 2 ^ 32 ∧ cid.length < 2 ^ 32
  | _ => True

/-- Event data of the lockup program. -/
def lockupEventData : LockupEvent → List UInt8
  | .cancelLockupStream mint recipientAmount senderAmount stream nft =>
      [82, 106, 117, 112, 153, 245, 190, 66] ++ mint.val ++ le8 recipientAmount ++ le8 senderAmount ++ stream.val ++ nft.val
  | .createLockupLinearStream decimals mint recipient salt stream nft =>
      [234, 181, 19, 52, 67, 64, 151, 173] ++ littleEndian 1 decimals.toNat ++ mint.val ++ recipient.val ++ le16 salt ++
        stream.val ++ nft.val
  | .feesCollected amount collector recipient =>
      [233, 23, 117, 225, 107, 178, 254, 8] ++ le8 amount ++ collector.val ++ recipient.val
  | .renounceLockupStream mint stream nft =>
      [28, 66, 144, 150, 118, 56, 81, 93] ++ mint.val ++ stream.val ++ nft.val
  | .withdrawFromLockupStream mint fee stream nft amount =>
      [232, 101, 27, 150, 85, 222, 243, 9] ++ mint.val ++ le8 fee ++ stream.val ++ nft.val ++ le8 amount

/-- Event data of the merkle_instant program. -/
def merkleEventData : MerkleEvent → List UInt8
  | .claim amount campaign claimer receipt fee index recipient =>
      [133, 98, 9, 238, 133, 207, 191, 113] ++ le8 amount ++ campaign.val ++ claimer.val ++ receipt.val ++ le8 fee ++
        le4 index ++ recipient.val
  | .clawback amount campaign creator recipient =>
      [239, 144, 30, 69, 80, 59, 142, 64] ++ le8 amount ++ campaign.val ++ creator.val ++ recipient.val
  | .createCampaign aggregate campaign name start creator expiration cid root count decimals mint =>
      [88, 178, 212, 72, 110, 4, 68, 143] ++ le8 aggregate ++ campaign.val ++ text name ++ le8 start ++ creator.val ++
        le8 expiration ++ text cid ++ root.val ++ le4 count ++ littleEndian 1 decimals.toNat ++ mint.val
  | .feesCollected amount collector recipient =>
      [233, 23, 117, 225, 107, 178, 254, 8] ++ le8 amount ++ collector.val ++ recipient.val

/-- Lengths fit their four-byte prefixes. -/
def MerkleEvent.Sized : MerkleEvent → Prop
  | .createCampaign _ _ name _ _ _ cid _ _ _ _ => name.length < 2 ^ 32 ∧ cid.length < 2 ^ 32
  | _ => True

end Solsab.Spec

namespace Solsab.Spec

open Abi

/-- The amounts, times, counts and salts of an event of the model.  (Not listed: token decimals, which are a `u8` of
the mint, and the lamports of `FeesCollected`, which are a `u64` balance of the runtime; the model keeps both as
unbounded numbers.) -/
def eventNumbers : Event → List Nat
  | .cancelLockupStream _ recipientAmount senderAmount _ _ => [recipientAmount, senderAmount]
  | .createLockupLinearStream _ _ _ salt _ _ => [salt]
  | .feesCollected _ _ _ _ => []
  | .renounceLockupStream _ _ _ => []
  | .withdrawFromLockupStream _ fee _ _ amount => [fee, amount]
  | .claim amount _ _ _ fee index _ => [amount, fee, index]
  | .clawback amount _ _ _ => [amount]
  | .createCampaign aggregate _ _ start _ expiration _ _ count _ _ => [aggregate, start, expiration, count]

/-- The same numbers as a reader of the bytes gets them. -/
def rawEventNumbers : LockupEvent ⊕ MerkleEvent → List Nat
  | .inl (.cancelLockupStream _ recipientAmount senderAmount _ _) => [recipientAmount.toNat, senderAmount.toNat]
  | .inl (.createLockupLinearStream _ _ _ salt _ _) => [salt.val]
  | .inl (.feesCollected _ _ _) => []
  | .inl (.renounceLockupStream _ _ _) => []
  | .inl (.withdrawFromLockupStream _ fee _ _ amount) => [fee.toNat, amount.toNat]
  | .inr (.claim amount _ _ _ fee index _) => [amount.toNat, fee.toNat, index.toNat]
  | .inr (.clawback amount _ _ _) => [amount.toNat]
  | .inr (.createCampaign aggregate _ _ start _ expiration _ _ count _ _) =>
      [aggregate.toNat, start.toNat, expiration.toNat, count.toNat]
  | .inr (.feesCollected _ _ _) => []

/-- The program, the name of the event and its accounts by field name, as the handlers emit them
(`programs/lockup/src/utils/events.rs`, `programs/merkle_instant/src/utils/events.rs`). -/
def eventAccounts : Event → Prog × String × List (String × Addr)
  | .cancelLockupStream mint _ _ stream nft =>
      (.lockup, "CancelLockupStream", [("deposited_token_mint", mint), ("stream_data", stream), ("stream_nft_mint", nft)])
  | .createLockupLinearStream _ mint recipient _ stream nft =>
      (.lockup, "CreateLockupLinearStream", [("deposit_token_mint", mint), ("recipient", recipient),
        ("stream_data", stream), ("stream_nft_mint", nft)])
  | .feesCollected prog _ collector recipient =>
      (prog, "FeesCollected", [("fee_collector", collector), ("fee_recipient", recipient)])
  | .renounceLockupStream mint stream nft =>
      (.lockup, "RenounceLockupStream", [("deposited_token_mint", mint), ("stream_data", stream), ("stream_nft_mint", nft)])
  | .withdrawFromLockupStream mint _ stream nft _ =>
      (.lockup, "WithdrawFromLockupStream",
        [("deposited_token_mint", mint), ("stream_data", stream), ("stream_nft_mint", nft)])
  | .claim _ campaign claimer receipt _ _ recipient =>
      (.merkle, "Claim", [("campaign", campaign), ("claimer", claimer), ("claim_receipt", receipt), ("recipient", recipient)])
  | .clawback _ campaign creator recipient =>
      (.merkle, "Clawback", [("campaign", campaign), ("campaign_creator", creator), ("clawback_recipient", recipient)])
  | .createCampaign _ campaign _ _ creator _ _ _ _ _ mint =>
      (.merkle, "CreateCampaign", [("campaign", campaign), ("creator", creator), ("token_mint", mint)])

/-- The same as a reader of the bytes gets it. -/
def rawEventAccounts : LockupEvent ⊕ MerkleEvent → Prog × String × List (String × Bytes32)
  | .inl (.cancelLockupStream mint _ _ stream nft) =>
      (.lockup, "CancelLockupStream", [("deposited_token_mint", mint), ("stream_data", stream), ("stream_nft_mint", nft)])
  | .inl (.createLockupLinearStream _ mint recipient _ stream nft) =>
      (.lockup, "CreateLockupLinearStream", [("deposit_token_mint", mint), ("recipient", recipient),
        ("stream_data", stream), ("stream_nft_mint", nft)])
  | .inl (.feesCollected _ collector recipient) =>
      (.lockup, "FeesCollected", [("fee_collector", collector), ("fee_recipient", recipient)])
  | .inl (.renounceLockupStream mint stream nft) =>
      (.lockup, "RenounceLockupStream", [("deposited_token_mint", mint), ("stream_data", stream), ("stream_nft_mint", nft)])
  | .inl (.withdrawFromLockupStream mint _ stream nft _) =>
      (.lockup, "WithdrawFromLockupStream",
        [("deposited_token_mint", mint), ("stream_data", stream), ("stream_nft_mint", nft)])
  | .inr (.claim _ campaign claimer receipt _ _ recipient) =>
      (.merkle, "Claim", [("campaign", campaign), ("claimer", claimer), ("claim_receipt", receipt), ("recipient", recipient)])
  | .inr (.clawback _ campaign creator recipient) =>
      (.merkle, "Clawback", [("campaign", campaign), ("campaign_creator", creator), ("clawback_recipient", recipient)])
  | .inr (.createCampaign _ campaign _ _ creator _ _ _ _ _ mint) =>
      (.merkle, "CreateCampaign", [("campaign", campaign), ("creator", creator), ("token_mint", mint)])
  | .inr (.feesCollected _ collector recipient) =>
      (.merkle, "FeesCollected", [("fee_collector", collector), ("fee_recipient", recipient)])

/-- The name, CID and Merkle root of a `CreateCampaign` event. -/
def eventTexts : Event → Option (List UInt8 × List UInt8 × Bytes32)
  | .createCampaign _ _ name _ _ _ cid root _ _ _ => some (name, cid, root)
  | _ => none

/-- The same as a reader of the bytes gets it. -/
def rawEventTexts : LockupEvent ⊕ MerkleEvent → Option (List UInt8 × List UInt8 × Bytes32)
  | .inr (.createCampaign _ _ name _ _ _ cid root _ _ _) => some (name, cid, root)
  | _ => none

end Solsab.Spec
