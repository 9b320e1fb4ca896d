import Verif.Props.Hazards
import Verif.Proofs.Count
import Verif.Spec.CreateFor
/-!
# C86: occupied salts: anyone can occupy one, nobody can occupy them all
-/

namespace Solsab.Props

open Lockup Spec Demo

/-- **C86**: after a history of fewer than `2^128 / 3` instructions, whoever sent them, every sender still has, for
every token, a salt at which neither the stream nor its vault account exists. -/
theorem C86_free_salt {rt : Runtime} {w₀ w : World} (hg : Genesis w₀) {ixs : List Ix}
    (h : runAll rt w₀ ixs = .ok w) (hl : 3 * ixs.length < 2 ^ 128) (s m : Addr) (tp : TokenProgram) :
    ∃ salt : Fin (2 ^ 128), streamExists w s salt.val = false ∧
      w.bank.tokens (.ata (streamAddr s salt.val) tp m) = none := by
  have hr : Reachable rt w := ⟨w₀, hg, steps_runAll ixs h⟩
  obtain ⟨xs, hxs, hnew⟩ := runAll_new ixs h
  obtain ⟨n, hn, h1, h2⟩ := free_salt (Nat.lt_of_le_of_lt hxs hl) s tp m
  refine ⟨⟨n, hn⟩, ?_, ?_⟩
  · cases he : streamExists w s n with
    | false => rfl
    | true =>
      obtain ⟨sd, hsd⟩ := hr.exists_iff.1 he
      rcases hnew (streamAddr s n) (.inr (by rw [hsd]; exact fun e => by cases e)) with h | h | h
      · exact absurd (hg.no_tokens _) h
      · exact absurd (hg.no_streams _) h
      · exact absurd h h1
  · by_contra hne
    rcases hnew _ (.inl hne) with h | h | h
    · exact absurd (hg.no_tokens _) h
    · exact absurd (hg.no_streams _) h
    · exact absurd h h2

theorem _root_.Solsab.Spec.FundedFor.ready {rt : Runtime} {w : World} {p m : Addr} {md : MintData} {ntp : TokenProgram} {dep : Nat}
    (hf : FundedFor rt w p m md ntp dep) {s : Addr} (r : Addr) {n : Nat} (hu : streamExists w s n = false)
    (hv : w.bank.tokens (.ata (streamAddr s n) md.program m) = none) :
    ∃ nd, CreateReady rt w (createFor p s r m md.program ntp n) n md nd := by
  obtain ⟨nd, h1, h2⟩ := hf.collection
  obtain ⟨t, h3, h4, _⟩ := hf.tokens
  exact ⟨nd, h1, h2, hf.mint, hf.signer, ⟨t, h3, h4⟩, hu, hv, hf.lamports, rfl, rfl, rfl, rfl, rfl, rfl, rfl, rfl⟩

/-- **C86**: so a funded creator is never shut out: whatever has been done before, by whomever, some salt opens the
stream it wants (any sender, recipient and valid terms). -/
theorem C86_never_shut_out {rt : Runtime} {w₀ w : World} (hg : Genesis w₀) {ixs : List Ix}
    (h : runAll rt w₀ ixs = .ok w) (hl : 3 * ixs.length < 2 ^ 128) {p m : Addr} {md : MintData} {ntp : TokenProgram}
    {dep st cl en su cu : UInt64} (hf : FundedFor rt w p m md ntp dep.toNat) (s r : Addr) (ca : Bool)
    (hv : ValidTerms ⟨cl.toNat, en.toNat, st.toNat⟩ ⟨su.toNat, cu.toNat, dep.toNat, 0, 0⟩) :
    ∃ (salt : Fin (2 ^ 128)) (w' : World),
      step rt w (.lockup (.createWithTimestamps (createFor p s r m md.program ntp salt.val) salt dep st cl en su cu ca))
        = .ok w' := by
  have hr : Reachable rt w := ⟨w₀, hg, steps_runAll ixs h⟩
  obtain ⟨salt, h1, h2⟩ := C86_free_salt hg h hl s m md.program
  obtain ⟨nd, hc⟩ := hf.ready r h1 h2
  obtain ⟨t, h3, h4, h5, h6⟩ := hf.tokens
  obtain ⟨w', hw⟩ := C56_create_succeeds hr hc ca hv h3 h5 h6 hf.unguarded hf.flows hf.thawed
  exact ⟨salt, w', hw⟩

/-- **C86**, the hazard: a salt nobody has used yet can be taken by a stranger. Whoever can fund a stream (one base
unit is enough) opens one in `s`'s name at that salt without `s` signing anything, with any recipient, and from then on no
creation with sender `s` and that salt succeeds, in any token, in either variant, ever. -/
theorem C86_stranger_can_take {rt : Runtime} {w : World} (hr : Reachable rt w) {p m : Addr} {md : MintData}
    {ntp : TokenProgram} {dep st cl en su cu : UInt64} (hf : FundedFor rt w p m md ntp dep.toNat) {s : Addr} (r : Addr)
    (ca : Bool) {salt : Fin (2 ^ 128)}
    (hu : streamExists w s salt.val = false) (hva : w.bank.tokens (.ata (streamAddr s salt.val) md.program m) = none)
    (hv : ValidTerms ⟨cl.toNat, en.toNat, st.toNat⟩ ⟨su.toNat, cu.toNat, dep.toNat, 0, 0⟩) :
    ∃ w' : World,
      step rt w (.lockup (.createWithTimestamps (createFor p s r m md.program ntp salt.val) salt dep st cl en su cu ca))
        = .ok w' ∧
      ∀ w'', Steps rt w' w'' → ∀ (c : CreateAccts), c.sender = s → ∀ (dep a b d su cu : UInt64) (ca : Bool),
        (∃ e, step rt w'' (.lockup (.createWithTimestamps c salt dep a b d su cu ca)) = .error e) ∧
        (∃ e, step rt w'' (.lockup (.createWithDurations c salt dep a b su cu ca)) = .error e) := by
  obtain ⟨nd, hc⟩ := hf.ready r hu hva
  obtain ⟨t, h3, h4, h5, h6⟩ := hf.tokens
  obtain ⟨w', hw⟩ := C56_create_succeeds hr hc ca hv h3 h5 h6 hf.unguarded hf.flows hf.thawed
  refine ⟨w', hw, fun w'' hs c e dep a b d su cu ca => ?_⟩
  have hx : streamExists w' s salt.val = true := by
    obtain ⟨nd, dm, md, cm, k, name, b₁, b₂, b₃, b₄, b₆, l, h⟩ := create_ok hw
    refine (hr.step hw).exists_iff.2 ?_
    rw [h.result]
    exact ⟨_, upd_same _ _ _⟩
  exact C29_no_second (e ▸ C29_exists_forever (hr.step hw) hs hx) dep a b d su cu ca

/-- Alice can fund a stream of one base unit. -/
theorem demoFund1 : FundedFor rt world1 alice mint { plainMint with supply := 1000000 } tok 1 where
  collection := ⟨⟨2, 255⟩, by decide +kernel, by decide⟩
  mint := by decide +kernel
  signer := by decide
  tokens := ⟨⟨tok, Demo.mint, alice, 998300, false⟩, by decide +kernel, rfl, by decide, rfl⟩
  unguarded := rfl
  flows := rfl
  thawed := rfl
  lamports := by decide +kernel

theorem run01 : runAll rt world0 (setup ++ createStreams) = .ok world1 := by
  have h : (runAll rt world0 (setup ++ createStreams)).isOk = true := by decide +kernel
  unfold world1 after
  cases hr : runAll rt world0 (setup ++ createStreams) with
  | error e => rw [hr] at h; cases h
  | ok w => rw [execTx, hr]

example := C86_free_salt (rt := rt) (w₀ := world0) (w := world1) (ixs := setup ++ createStreams) genesis0 run01 (by decide) bob mint tok

example := C86_never_shut_out (rt := rt) (w₀ := world0) (w := world1) (ixs := setup ++ createStreams) genesis0 run01 (by decide) (dep := 1) (st := 2000) (cl := 0) (en := 6000) (su := 0) (cu := 0) demoFund1 bob carol
  true (by unfold ValidTerms; decide)

/-- Alice takes Bob's salt 5. -/
example := C86_stranger_can_take (dep := 1) (st := 2000) (cl := 0) (en := 6000) (su := 0) (cu := 0) reach1 demoFund1
  (s := bob) carol false (salt := 5) (by decide +kernel) (by decide +kernel) (by unfold ValidTerms; decide)

end Solsab.Props
