import Verif.Props.Wire
import Verif.Props.Treasury
import Verif.Props.Bytes
/-!
# C89: questions and their answers, as messages
-/

namespace Solsab.Props

open Abi Borsh Spec Wire

theorem streamView_ok {as : List Addr} {c : Lockup.StreamViewAccts} (h : streamViewAccts as = .ok c) :
    ∃ more, as = [c.streamData, c.streamNftMint] ++ more := by
  match as, h with
  | a :: b :: r, h => cases h; exact ⟨r, rfl⟩

theorem first_ok {as : List Addr} {c : Addr} (h : firstAcct as = .ok c) : ∃ more, as = [c] ++ more := by
  match as, h with
  | a :: r, h => cases h; exact ⟨r, rfl⟩

theorem feeView_ok {as : List Addr} {c : Addr × Addr × Addr} (h : feeViewAccts as = .ok c) :
    ∃ more, as = [c.1, c.2.1, c.2.2] ++ more := by
  match as, h with
  | a :: b :: d :: r, h => cases h; exact ⟨r, rfl⟩

theorem hasClaimed_ok {as : List Addr} {c : Addr × Addr} (h : hasClaimedAccts as = .ok c) :
    ∃ more, as = [c.1, c.2] ++ more := by
  match as, h with
  | a :: b :: r, h => cases h; exact ⟨r, rfl⟩

/-- **C89**: which messages ask which question, exactly.  Neither signatures nor write privileges matter. -/
theorem C89_exact {ids : Ids} (h : Header) (m : Message) (v : View) :
    request ids h m = .ok (.view v) ↔ AsksView ids m v := by
  constructor
  · intro hq
    unfold request at hq
    split at hq
    · rename_i hp
      obtain ⟨call, h1, hq⟩ := ebind hq
      obtain ⟨u, h2, hq⟩ := ebind hq
      obtain ⟨rest, hdata⟩ := C64_lockup_canonical (liftAbi_ok h1)
      cases call <;> simp only [lockupRequest] at hq <;> obtain ⟨c, h3, hq⟩ := ebind hq <;> cases hq
      · exact ⟨hp, streamView_ok h3, _, rest, rfl, hdata⟩
      · exact ⟨hp, streamView_ok h3, _, rest, rfl, hdata⟩
      · exact ⟨hp, first_ok h3, _, rest, ⟨_, rfl, rfl⟩, hdata⟩
      · exact ⟨hp, streamView_ok h3, _, rest, rfl, hdata⟩
      · exact ⟨hp, first_ok h3, _, rest, rfl, hdata⟩
      · exact ⟨hp, streamView_ok h3, _, rest, rfl, hdata⟩
      · exact ⟨hp, feeView_ok h3, _, rest, rfl, hdata⟩
    · rename_i hp
      obtain ⟨call, h1, hq⟩ := ebind hq
      obtain ⟨_, _, hq⟩ := ebind hq
      obtain ⟨u, h2, hq⟩ := ebind hq
      obtain ⟨rest, hdata⟩ := C64_merkle_canonical (liftAbi_ok h1)
      cases call <;> simp only [merkleRequest] at hq <;> obtain ⟨c, h3, hq⟩ := ebind hq <;> cases hq
      · exact ⟨hp, first_ok h3, _, rest, rfl, hdata⟩
      · exact ⟨hp, feeView_ok h3, _, rest, rfl, hdata⟩
      · exact ⟨hp, hasClaimed_ok h3, _, rest, rfl, hdata⟩
      · exact ⟨hp, first_ok h3, _, rest, rfl, hdata⟩
      · exact ⟨hp, first_ok h3, _, rest, rfl, hdata⟩
      · exact ⟨hp, first_ok h3, _, rest, rfl, hdata⟩
      · exact ⟨hp, first_ok h3, _, rest, rfl, hdata⟩
  · rintro ⟨hp, ⟨more, hm⟩, data, rest, hv, hdata⟩
    have lk : ∀ call, m.program = .lockup → data = lockupData call → request ids h m =
        (checkSlots ids h (lockupSlots call) m.accounts >>= fun _ => lockupRequest ids m.accounts call) := by
      intro call hp hd
      have hx := C64_lockup call rest
      rw [← hd, ← hdata] at hx
      unfold request
      rw [hp]
      simp only [hx]
      rfl
    have mi : ∀ call, m.program = .merkle → data = merkleData call → MerkleCall.Sized call →
        checkTexts call = .ok () → request ids h m =
        (checkSlots ids h (merkleSlots call) m.accounts >>= fun _ => merkleRequest ids m.accounts call) := by
      intro call hp hd hz ht
      have hx := C64_merkle call hz rest
      rw [← hd, ← hdata] at hx
      unfold request
      rw [hp]
      simp only [hx, liftAbi]
      show (checkTexts call >>= _) = _
      rw [ht]
      rfl
    cases v with
    | streamExists a b c =>
      obtain ⟨k, rfl, hk⟩ := hv
      rw [lk _ hp hk]
      simp only [lockupSlots, streamExistsSlots, lockupRequest, hm]
      rfl
    | refundableAmountOf | statusOf | streamedAmountOf | withdrawableAmountOf =>
      rw [lk _ hp hv]
      simp only [lockupSlots, streamViewSlots, lockupRequest, hm]
      rfl
    | lockupTreasury =>
      rw [lk _ hp hv]
      simp only [lockupSlots, treasuryViewSlots, lockupRequest, hm]
      rfl
    | withdrawalFee =>
      rw [lk _ hp hv]
      simp only [lockupSlots, feeViewSlots, lockupRequest, hm]
      rfl
    | claimFee =>
      rw [mi _ hp hv trivial rfl]
      simp only [merkleSlots, feeViewSlots, merkleRequest, hm]
      rfl
    | hasClaimed =>
      rw [mi _ hp hv trivial rfl]
      simp only [merkleSlots, hasClaimedSlots, merkleRequest, hm]
      rfl
    | campaign | hasExpired | hasGracePeriodPassed | hasCampaignStarted =>
      rw [mi _ hp hv trivial rfl]
      simp only [merkleSlots, campaignViewSlots, merkleRequest, hm]
      rfl
    | merkleTreasury =>
      rw [mi _ hp hv trivial rfl]
      simp only [merkleSlots, treasuryViewSlots, merkleRequest, hm]
      rfl

theorem u64_enc {n : Nat} (h : n < 2 ^ 64) : u64.enc (.ofNat n) = littleEndian 8 n := by
  unfold u64 uint
  simp only [Merkle.leBytes_eq, UInt64.toNat_ofNat', Nat.mod_eq_of_lt h]

theorem u8_enc {n : Nat} (h : n < 256) : u8.enc (.ofNat n) = littleEndian 1 n := by
  unfold u8 uint
  simp only [Merkle.leBytes_eq, UInt8.toNat_ofNat', Nat.mod_eq_of_lt (show n < 2 ^ 8 from h)]

theorem status_enc (s : Lockup.StreamStatus) : u8.enc (statusByte s) = littleEndian 1 (statusNumber s) := by
  cases s <;> rfl

theorem treasury_enc {rt : Runtime} {t : Treasury} (h : t.bump < 256) :
    treasury.enc (rawTreasury rt t) = treasuryBytes rt t := by
  unfold treasuryBytes
  rw [← u8_enc h]
  simp only [treasury, struct, pair, rawTreasury, key, List.append_assoc]

theorem string_enc (s : List UInt8) : string.enc s = text s := by
  unfold string text
  simp only [Merkle.leBytes_eq]

theorem campaign_enc {rt : Runtime} {c : Merkle.Campaign} (h : c.bump < 256) (h1 : c.campaignStartTime < 2 ^ 64)
    (h2 : c.expirationTime < 2 ^ 64) (h3 : c.firstClaimTime < 2 ^ 64) :
    Borsh.campaign.enc (rawCampaign rt c) = campaignBytes rt c := by
  unfold campaignBytes
  rw [← u8_enc h, ← u64_enc h1, ← u64_enc h2, ← u64_enc h3, ← string_enc, ← string_enc]
  simp only [Borsh.campaign, struct, pair, rawCampaign, key, List.append_assoc]

theorem amounts_u64 {rt : Runtime} {w : World} (hr : Reachable rt w) {c : Lockup.StreamViewAccts} {n : Nat}
    (h : Lockup.streamedAmountOf rt w c = .ok n ∨ Lockup.withdrawableAmountOf rt w c = .ok n ∨
      Lockup.refundableAmountOf rt w c = .ok n) : n < 2 ^ 64 := by
  have go : ∀ sd, Lockup.loadStream rt w c.streamData c.streamNftMint = .ok sd →
      ∃ x, StreamOK rt w.now w.log x sd := fun sd hl => ⟨_, hr.streamOK (Lockup.loadStream_ok.1 hl).1⟩
  rcases h with h | h | h
  · obtain ⟨sd, hl, h⟩ := bind_ok.1 h
    obtain ⟨x, ok⟩ := go sd hl
    rw [ok.getStreamed] at h
    cases h
    have := ok.streamed
    have := ok.dep64
    omega
  · obtain ⟨sd, hl, h⟩ := bind_ok.1 h
    obtain ⟨x, ok⟩ := go sd hl
    rw [ok.getWithdrawable] at h
    cases h
    have := ok.streamed
    have := ok.dep64
    omega
  · obtain ⟨sd, hl, h⟩ := bind_ok.1 h
    obtain ⟨x, ok⟩ := go sd hl
    rw [ok.getRefundable] at h
    cases h
    have := ok.streamed
    have := ok.dep64
    split <;> omega

theorem lift_iff {α : Type} {x : Res α} {f : α → List UInt8} {ret : List UInt8} :
    (do return f (← liftErr x) : Except WireErr (List UInt8)) = .ok ret ↔ ∃ a, x = .ok a ∧ ret = f a := by
  cases x with
  | error e => exact ⟨fun h => (by cases h), fun ⟨a, h, _⟩ => (by cases h)⟩
  | ok a => exact ⟨fun h => (by cases h; exact ⟨a, rfl, rfl⟩), fun ⟨b, h, e⟩ => (by cases h; cases e; rfl)⟩

theorem fee_zero {rt : Runtime} {w : World} {t p f : Addr} {n : Nat} :
    (Lockup.withdrawalFeeInLamports rt w t p f = .ok n → n = 0) ∧
    (Merkle.claimFeeInLamports rt w t p f = .ok n → n = 0) := by
  constructor <;>
  · intro h
    obtain ⟨_, _, h⟩ := bind_ok.1 h
    obtain ⟨_, _, h⟩ := bind_ok.1 h
    obtain ⟨_, _, h⟩ := bind_ok.1 h
    exact (ok_inj.1 h).symm

/-- **C89**: whoever asks a question, with whatever privileges, in any state that can arise: the state is unchanged,
and the return data is the answer, in the published layout, without loss. -/
theorem C89_answers {ids : Ids} {rt : Runtime} {w w' : World} {h : Header} {m : Message} {v : View} {ret : List UInt8}
    (hr : Reachable rt w) (hb : ∀ a, rt.bump a < 256) (ha : AsksView ids m v) :
    exec ids rt w h m = .ok (w', ret) ↔ w' = w ∧ Answers rt w ret v := by
  have hq := (C89_exact h m v).2 ha
  have hx : exec ids rt w h m = (v.answer rt w).map fun r => (w, r) := by
    unfold exec
    rw [hq]
    show (do return (w, ← v.answer rt w)) = _
    cases v.answer rt w <;> rfl
  have he : exec ids rt w h m = .ok (w', ret) ↔ w' = w ∧ v.answer rt w = .ok ret := by
    rw [hx]
    cases v.answer rt w with
    | error e => exact ⟨fun h => (by cases h), fun ⟨_, h⟩ => (by cases h)⟩
    | ok r => exact ⟨fun h => (by cases h; exact ⟨rfl, rfl⟩), fun ⟨h1, h2⟩ => (by cases h1; cases h2; rfl)⟩
  rw [he]
  refine and_congr_right fun _ => ?_
  have num : ∀ {x : Res Nat}, (∀ n, x = .ok n → n < 2 ^ 64) →
      ((∃ n, x = .ok n ∧ ret = u64.enc (.ofNat n)) ↔ ∃ n, x = .ok n ∧ IsU64 n ret) := fun hn =>
    exists_congr fun n => and_congr_right fun h => by
      rw [u64_enc (hn n h)]
      exact ⟨fun e => ⟨hn n h, e⟩, fun e => e.2⟩
  cases v with
  | refundableAmountOf c => exact lift_iff.trans (num fun n h => amounts_u64 hr (.inr (.inr h)))
  | streamedAmountOf c => exact lift_iff.trans (num fun n h => amounts_u64 hr (.inl h))
  | withdrawableAmountOf c => exact lift_iff.trans (num fun n h => amounts_u64 hr (.inr (.inl h)))
  | withdrawalFee t p f => exact lift_iff.trans (num fun n h => by rw [fee_zero.1 h]; decide)
  | claimFee t p f => exact lift_iff.trans (num fun n h => by rw [fee_zero.2 h]; decide)
  | statusOf c =>
    refine lift_iff.trans (exists_congr fun s => ?_)
    rw [status_enc]
  | hasExpired x => exact lift_iff
  | hasGracePeriodPassed x => exact lift_iff
  | hasCampaignStarted x => exact lift_iff
  | lockupTreasury a =>
    refine lift_iff.trans (exists_congr fun t => and_congr_right fun h => ?_)
    have : t.bump < 256 := by rw [(Lockup.loadTreasury_ok.1 h).2.2]; exact hb _
    rw [treasury_enc this]
    exact ⟨fun e => ⟨this, e⟩, fun e => e.2⟩
  | merkleTreasury a =>
    refine lift_iff.trans (exists_congr fun t => and_congr_right fun h => ?_)
    have : t.bump < 256 := by rw [(Merkle.loadTreasury_ok.1 h).2.2]; exact hb _
    rw [treasury_enc this]
    exact ⟨fun e => ⟨this, e⟩, fun e => e.2⟩
  | campaign x =>
    refine lift_iff.trans (exists_congr fun c => and_congr_right fun h => ?_)
    have ok := hr.campaignOK (fetch_ok.1 h)
    have k1 : c.bump < 256 := by rw [ok.bump]; exact hb _
    have k2 := ok.start64
    have k3 := ok.exp64
    have k4 : c.firstClaimTime < 2 ^ 64 := Nat.lt_of_le_of_lt ok.first_le (now_lt w)
    have k5 := (C53_campaign_lossless hr (fetch_ok.1 h)).2.2.2.2.2
    have k6 : c.ipfsCid.length + c.name.length ≤ 91 := k5
    rw [campaign_enc k1 k2 k3 k4]
    exact ⟨fun e => ⟨k1, k2, k3, k4, by omega, by omega, e⟩, fun e => e.2.2.2.2.2.2⟩
  | streamExists a s n =>
    simp only [View.answer, Answers, seeds]
    by_cases hs : a = .streamNftMint s n.val
    · simp only [hs, decide_true, if_true, true_and]
      exact ⟨fun h => (by cases h; rfl), fun h => (by rw [h]; rfl)⟩
    · simp only [hs, decide_false, Bool.false_eq_true, if_false, false_and, iff_false]
      intro h; cases h
  | hasClaimed x r i =>
    simp only [View.answer, Answers, seeds]
    by_cases hs : r = .claimReceipt x i.toNat
    · simp only [hs, decide_true, if_true, true_and]
      cases Merkle.hasClaimedView w x i.toNat with
      | error e => exact ⟨fun h => (by cases h), fun ⟨b, h, _⟩ => (by cases h)⟩
      | ok b => exact ⟨fun h => (by cases h; exact ⟨b, rfl, rfl⟩), fun ⟨b', h, e⟩ => (by cases h; cases e; rfl)⟩
    · simp only [hs, decide_false, Bool.false_eq_true, if_false, false_and, iff_false]
      cases Merkle.hasClaimedView w x i.toNat <;> (intro h; cases h)

/-- **C89**: the answer can be read off the bytes: a client that reads eight bytes as a little-endian number gets the
number; the five statuses, and yes and no, have different bytes; reading a configuration or a campaign field by field
gives its fields. -/
theorem C89_readable :
    (∀ n n' ret, IsU64 n ret → IsU64 n' ret → n = n') ∧
    (∀ s s', littleEndian 1 (statusNumber s) = littleEndian 1 (statusNumber s') → s = s') ∧
    (∀ b b', flag b = flag b' → b = b') ∧
    (∀ rt t, t.bump < 256 → treasury.dec (treasuryBytes rt t) = some (rawTreasury rt t, [])) ∧
    (∀ rt w x c, Reachable rt w → Merkle.campaignView w x = .ok c → rt.bump x < 256 →
      Borsh.campaign.dec (campaignBytes rt c) = some (rawCampaign rt c, [])) := by
  refine ⟨fun n n' ret h h' => ?_, ?_, ?_, fun rt t h => ?_, fun rt w x c hr h hb => ?_⟩
  · exact Merkle.littleEndian_inj (n := 8) h.1 h'.1 (h.2.symm.trans h'.2)
  · intro s s'; cases s <;> cases s' <;> decide
  · intro b b'; cases b <;> cases b' <;> decide
  · rw [← treasury_enc h, ← treasury_reads (rawTreasury rt t) [], List.append_nil]
  · have ok := hr.campaignOK (fetch_ok.1 h)
    have k4 : c.firstClaimTime < 2 ^ 64 := Nat.lt_of_le_of_lt ok.first_le (now_lt w)
    have k5 := (C53_campaign_lossless hr (fetch_ok.1 h)).2.2.2.2.2
    rw [← campaign_enc (rt := rt) (by rw [ok.bump]; exact hb) ok.start64 ok.exp64 k4,
      ← campaign_reads (x := rawCampaign rt c) (by omega) (by omega) [], List.append_nil]

/-- The bytes of `withdrawable_amount_of` for stream 1, sent without any signature. -/
def demoQuestion : Message :=
  ⟨.lockup, [Demo.str 1, Demo.nft 1], [30, 195, 140, 141, 173, 123, 253, 60]⟩

theorem demo_asks : AsksView demoIds demoQuestion (.withdrawableAmountOf ⟨Demo.str 1, Demo.nft 1⟩) :=
  ⟨rfl, ⟨[], rfl⟩, _, [], rfl, rfl⟩

example := (C89_exact (ids := demoIds) ⟨[], []⟩ demoQuestion _).2 demo_asks

/-- At time 4000 stream 1 has streamed 533 of 1000; nothing is withdrawn yet. -/
example : exec demoIds Demo.rt Demo.world2 ⟨[], []⟩ demoQuestion =
    .ok (Demo.world2, [21, 2, 0, 0, 0, 0, 0, 0]) :=
  (C89_answers Demo.reach2 (fun _ => show (255 : Nat) < 256 by decide) demo_asks).2 ⟨rfl, 533, by decide +kernel, by decide, by decide +kernel⟩

example := C89_readable.2.2.2.2 Demo.rt Demo.world3 Demo.camp _ Demo.reach3
  (show Merkle.campaignView Demo.world3 Demo.camp =
    .ok ⟨Demo.mint, 255, 1500, Demo.alice, 800000, 4000, [81, 109], Demo.root, Demo.campaignName⟩ by decide +kernel)
  (by decide)

end Solsab.Props
