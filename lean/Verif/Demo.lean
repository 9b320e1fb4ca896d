import Verif.Proofs.Did
/-!
# A concrete history

Used only for the non-vacuity examples beside the theorems: every theorem is instantiated at a state
of this history (or at a prefix of it).  The history uses both programs: a cancelable stream with a
cliff, a second stream without one, an airdrop campaign with a two-leaf tree, withdrawals, a
cancellation, claims, a clawback, and fee collection.
-/

namespace Solsab.Demo

/-- 32 bytes of a number, for demo keys and hashes. -/
def bytes32 (n : Nat) : Bytes32 :=
  ⟨(List.range 32).map fun i => UInt8.ofNat (n / 256 ^ i), by simp⟩

/-- A runtime: rent as on mainnet, some bump, keys by number, and a toy hash function. -/
def rt : Runtime where
  rent n := (128 + n) * 6960
  bump _ := 255
  keyBytes
    | .key n => bytes32 (n + 1)
    | _ => bytes32 (2 ^ 255 + 12345)
  keccak l := bytes32 ((l.foldl (fun acc b => (acc * 1000003 + b.toNat + 1) % (2 ^ 256 - 189)) 17))
  extensionSpace _ := 12
  metadataSpace := 607
  editionSpace := 20
  metaplexFee := 10000000

def alice : Addr := .key 1
def bob : Addr := .key 2
def mint : Addr := .key 3
def collector : Addr := .key 4
def oracleProgram : Addr := .key 5
def feed : Addr := .key 6
def carol : Addr := .key 7
def feeMint : Addr := .key 8

/-- The state of an unused chain at unix time 1000; every wallet has 1000 SOL. -/
def world0 : World where
  clock := 1000
  lamports
    | .key _ => 1000000000000
    | _ => 0
  bank := ⟨fun _ => none, fun _ => none⟩
  metas _ := none
  approvals _ := none
  settings _ := .off
  lk := ⟨none, none, fun _ => none⟩
  mi := ⟨none, fun _ => none, fun _ => false⟩
  oracle _ _ := ⟨some ⟨900, 15000000000⟩, some 8⟩
  log := []

theorem genesis0 : Genesis world0 := by
  constructor <;> first | rfl | (intro; rfl) | decide

/-- The state after a list of instructions (unchanged if one fails; the proofs below show none does). -/
def after (w : World) (ixs : List Ix) : World := execTx rt w ixs

theorem steps_cons {rt : Runtime} {w w₁ w' : World} {i : Ix} (h1 : step rt w i = .ok w₁)
    (h : Steps rt w₁ w') : Steps rt w w' := by
  induction h with
  | refl => exact .tail i (.refl w) h1
  | tail ix _ hs ih => exact .tail ix ih hs

theorem steps_runAll {rt : Runtime} : ∀ (ixs : List Ix) {w w' : World}, runAll rt w ixs = .ok w' →
    Steps rt w w'
  | [], w, w', h => by cases h; exact .refl _
  | i :: is, w, w', h => by
    obtain ⟨w₁, h1, h2⟩ := bind_ok.1 h
    exact steps_cons h1 (steps_runAll is h2)

theorem steps_after {w : World} {ixs : List Ix} (h : (runAll rt w ixs).isOk = true) :
    Steps rt w (after w ixs) := by
  unfold after execTx
  cases hr : runAll rt w ixs with
  | error e => rw [hr] at h; cases h
  | ok w' => exact steps_runAll _ hr

theorem step_after {w : World} {ix : Ix} (h : (step rt w ix).isOk = true) :
    step rt w ix = .ok (after w [ix]) := by
  cases hr : step rt w ix with
  | error e => rw [hr] at h; cases h
  | ok w' =>
    have : runAll rt w [ix] = .ok w' := by
      show (step rt w ix >>= fun w => runAll rt w []) = _
      rw [hr]; rfl
    simp only [after, execTx, this]

def tok : TokenProgram := .token

def plainMint : MintData :=
  { program := tok, decimals := 6, authority := some alice, freezeAuthority := none, supply := 0,
    feeConfig := none, permanentDelegate := none, transferBlocked := false, startsFrozen := false }

def ataOf (o : Addr) : Addr := .ata o tok mint

/-- Mint a token, initialise both programs. -/
def setup : List Ix :=
  [ .env (.createMint 3 plainMint),
    .env (.createAta alice (ataOf alice) alice tok mint),
    .env (.mintTo mint (ataOf alice) alice tok 1000000),
    .lockup (.initialize ⟨alice, .treasury .lockup, .nftCollectionData, .nftCollectionMint,
      .ata (.treasury .lockup) tok .nftCollectionMint, tok⟩ collector oracleProgram feed),
    .merkle (.initialize ⟨alice, .treasury .merkle⟩ collector oracleProgram feed) ]

def nft (n : Nat) : Addr := .streamNftMint alice n
def str (n : Nat) : Addr := .streamData (nft n)
def vault (n : Nat) : Addr := .ata (str n) tok mint

def createAccts (n : Nat) : Lockup.CreateAccts :=
  { creator := alice, creatorAta := ataOf alice, recipient := bob, sender := alice,
    nftCollectionData := .nftCollectionData, nftCollectionMint := .nftCollectionMint,
    depositTokenMint := mint, streamNftMint := nft n,
    recipientStreamNftAta := .ata bob tok (nft n), streamData := str n, streamDataAta := vault n,
    depositTokenProgram := tok, nftTokenProgram := tok }

/-- Stream 1: deposit 1000, 2000 → (cliff 3000) → 6000, unlocks 100 and 200, cancelable.
Stream 2: deposit 700, from now (1000) for 9000 seconds, no cliff, no unlocks, cancelable. -/
def createStreams : List Ix :=
  [ .lockup (.createWithTimestamps (createAccts 1) 1 1000 2000 3000 6000 100 200 true),
    .lockup (.createWithDurations (createAccts 2) 2 700 0 9000 0 0 true) ]

def world1 : World := after world0 (setup ++ createStreams)

/-- The airdrop list: index 0 → bob 500, index 1 → carol 300. -/
def leaf0 : Bytes32 := Merkle.leafHash rt 0 bob 500
def leaf1 : Bytes32 := Merkle.leafHash rt 1 carol 300
def root : Bytes32 := Merkle.hashPair rt leaf0 leaf1

def campaignName : List UInt8 := [97, 98, 99]
def camp : Addr := .campaign alice root 1500 800000 campaignName mint
def campVault : Addr := .ata camp tok mint

/-- Create and fund the campaign; time passes to 4000. -/
def openCampaign : List Ix :=
  [ .merkle (.createCampaign ⟨alice, mint, camp, campVault, tok⟩ root 1500 800000 campaignName [81, 109] 800 2),
    .env (.transfer (ataOf alice) campVault alice mint tok 800 6),
    .env (.tick 4000) ]

def world2 : World := after world1 openCampaign

def withdrawAccts (signer : Addr) (n : Nat) : Lockup.WithdrawAccts :=
  { signer, streamRecipient := bob, withdrawalRecipient := bob, withdrawalRecipientAta := ataOf bob,
    treasury := .treasury .lockup, depositedTokenMint := mint,
    recipientStreamNftAta := .ata bob tok (nft n), streamData := str n, streamDataAta := vault n,
    streamNftMint := nft n, chainlinkProgram := oracleProgram, chainlinkSolUsdFeed := feed,
    depositedTokenProgram := tok, nftTokenProgram := tok }

def claimAccts (recipient : Addr) (i : Nat) : Merkle.ClaimAccts :=
  { claimer := carol, recipient, recipientAta := ataOf recipient, treasury := .treasury .merkle,
    airdropTokenMint := mint, campaign := camp, campaignAta := campVault,
    claimReceipt := .claimReceipt camp i, airdropTokenProgram := tok,
    chainlinkProgram := oracleProgram, chainlinkSolUsdFeed := feed }

def ixWithdraw : Ix := .lockup (.withdraw (withdrawAccts bob 1) 200)
def ixClaim : Ix := .merkle (.claim (claimAccts bob 0) 0 500 [leaf1])

/-- Bob withdraws 200 of stream 1; carol claims for bob. -/
def world3 : World := after world2 [ixWithdraw, ixClaim]

def cancelAccts (n : Nat) : Lockup.CancelAccts :=
  { sender := alice, senderAta := ataOf alice, depositedTokenMint := mint, streamData := str n,
    streamDataAta := vault n, streamNftMint := nft n, depositedTokenProgram := tok }

def ixCancel : Ix := .lockup (.cancel (cancelAccts 1))

/-- Alice cancels stream 1. -/
def world4 : World := after world3 [ixCancel]

def ixWithdrawMax : Ix := .lockup (.withdrawMax (withdrawAccts carol 1))
def ixRenounce : Ix := .lockup (.renounce ⟨alice, str 2, nft 2⟩)

/-- Carol triggers the rest of stream 1 for bob (depleted). -/
def world5 : World := after world4 [ixWithdrawMax]

/-- Alice renounces stream 2. -/
def world6 : World := after world5 [ixRenounce]

/-- Stream 2 has ended; the grace period of the campaign (first claim at 4000) is over. -/
def world7 : World := after world6 [.env (.tick 700000), .env (.sendLamports bob (.treasury .lockup) 2000000)]

def ixCollect : Ix := .lockup (.collectFees ⟨collector, bob, .treasury .lockup⟩)
def ixClawback : Ix := .merkle (.clawback ⟨alice, carol, ataOf carol, mint, camp, campVault, tok⟩ 100)

/-- Fees are collected; the campaign expires; alice claws back 100 to carol. -/
def world8 : World := after world7 [ixCollect, .env (.tick 900000), ixClawback]

theorem steps01 : Steps rt world0 world1 := steps_after (by decide +kernel)
theorem steps12 : Steps rt world1 world2 := steps_after (by decide +kernel)
theorem steps23 : Steps rt world2 world3 := steps_after (by decide +kernel)
theorem steps34 : Steps rt world3 world4 := steps_after (by decide +kernel)
theorem steps45 : Steps rt world4 world5 := steps_after (by decide +kernel)
theorem steps56 : Steps rt world5 world6 := steps_after (by decide +kernel)
theorem steps67 : Steps rt world6 world7 := steps_after (by decide +kernel)
theorem steps78 : Steps rt world7 world8 := steps_after (by decide +kernel)

theorem reach0 : Reachable rt world0 := ⟨world0, genesis0, .refl _⟩
theorem reach1 : Reachable rt world1 := ⟨world0, genesis0, steps01⟩
theorem reach2 : Reachable rt world2 := reach1.steps steps12
theorem reach3 : Reachable rt world3 := reach2.steps steps23
theorem reach4 : Reachable rt world4 := reach3.steps steps34
theorem reach5 : Reachable rt world5 := reach4.steps steps45
theorem reach6 : Reachable rt world6 := reach5.steps steps56
theorem reach7 : Reachable rt world7 := reach6.steps steps67
theorem reach8 : Reachable rt world8 := reach7.steps steps78

/-! A Token-2022 mint with a 1 % transfer fee (Token-2022 lets anybody create one). -/

def feeMintData : MintData :=
  { program := .token2022, decimals := 6, authority := some alice, freezeAuthority := none, supply := 0,
    feeConfig := some ⟨100, 1000000⟩, permanentDelegate := none, transferBlocked := false, startsFrozen := false }

def feeAta (o : Addr) : Addr := .ata o .token2022 feeMint

def feeCreateAccts : Lockup.CreateAccts :=
  { createAccts 3 with
    creatorAta := feeAta alice, depositTokenMint := feeMint, streamDataAta := feeAta (str 3),
    depositTokenProgram := .token2022 }

def ixFeeCreate : Ix := .lockup (.createWithTimestamps feeCreateAccts 3 1000 2000 0 6000 0 0 true)

/-- The fee mint exists and alice holds 10000 of it. -/
def worldF0 : World := after world1
  [ .env (.createMint 8 feeMintData), .env (.createAta alice (feeAta alice) alice .token2022 feeMint),
    .env (.mintTo feeMint (feeAta alice) alice .token2022 10000) ]

/-- Alice has created stream 3 with a deposit of 1000 of the fee mint. -/
def worldF1 : World := after worldF0 [ixFeeCreate]

/-- The stream has ended. -/
def worldF2 : World := after worldF1 [.env (.tick 6000)]

def feeWithdrawAccts : Lockup.WithdrawAccts :=
  { withdrawAccts bob 3 with
    withdrawalRecipientAta := feeAta bob, depositedTokenMint := feeMint, streamDataAta := feeAta (str 3),
    depositedTokenProgram := .token2022 }

theorem stepsF0 : Steps rt world1 worldF0 := steps_after (by decide +kernel)
theorem stepsF1 : Steps rt worldF0 worldF1 := steps_after (by decide +kernel)
theorem stepsF2 : Steps rt worldF1 worldF2 := steps_after (by decide +kernel)
theorem reachF0 : Reachable rt worldF0 := reach1.steps stepsF0
theorem reachF1 : Reachable rt worldF1 := reachF0.steps stepsF1
theorem reachF2 : Reachable rt worldF2 := reachF1.steps stepsF2

end Solsab.Demo
