import Mathlib.Data.Finset.Card
import Verif.Proofs.StreamSteps
/-!
# How many accounts a history can open
-/

namespace Solsab

open Spec Lockup

/-- Every token account of `b'` is one of `b` or in the list. -/
def NewIn (b b' : Bank) (xs : List Addr) : Prop := ∀ a, b'.tokens a ≠ none → b.tokens a ≠ none ∨ a ∈ xs

theorem NewIn.refl (b : Bank) : NewIn b b [] := fun _ h => .inl h

theorem NewIn.trans {b b' b'' : Bank} {xs ys : List Addr} (h : NewIn b b' xs) (h' : NewIn b' b'' ys) :
    NewIn b b'' (xs ++ ys) := by
  intro a ha
  rcases h' a ha with h1 | h1
  · rcases h a h1 with h2 | h2
    · exact .inl h2
    · exact .inr (List.mem_append_left _ h2)
  · exact .inr (List.mem_append_right _ h1)

theorem NewIn.of_tokens {b b' : Bank} (h : b'.tokens = b.tokens) : NewIn b b' [] := by
  intro a ha; rw [h] at ha; exact .inl ha

theorem NewIn.set {b : Bank} {x : Addr} {t : TokenData} (o : Option TokenData) (h : b.tokens x = some t) :
    NewIn b (b.setToken x o) [] := by
  intro a ha
  by_cases e : a = x
  · subst e; left; rw [h]; exact fun e => by cases e
  · left
    have ha : upd b.tokens x o a ≠ none := ha
    rw [upd_ne _ _ e] at ha; exact ha

theorem NewIn.openAccount {b b' : Bank} {a o m : Addr} {tp : TokenProgram} (h : b.openAccount a o m tp = .ok b') :
    NewIn b b' [a] := by
  obtain ⟨_, _, _, rfl⟩ := openAccount_ok h
  intro x hx
  by_cases e : x = a
  · right; simp [e]
  · left
    have hx : upd b.tokens a _ x ≠ none := hx
    rw [upd_ne _ _ e] at hx; exact hx

theorem NewIn.openMint {b b' : Bank} {a : Addr} {md : MintData} (h : b.openMint a md = .ok b') : NewIn b b' [] := by
  obtain ⟨_, _, rfl⟩ := openMint_ok h
  exact .of_tokens rfl

theorem NewIn.mintTo {b b' : Bank} {m d x : Addr} {tp : TokenProgram} {amt : Nat}
    (h : b.mintTo m d x tp amt = .ok b') : NewIn b b' [] := by
  obtain ⟨md, tt, _, h1, _, _, _, _, _, _, rfl⟩ := mintTo_ok h
  exact NewIn.trans (b' := b.setMint m (some { md with supply := md.supply + amt })) (.of_tokens rfl)
    (.set _ (by exact h1))

theorem NewIn.burn {b b' : Bank} {s : Addr} {amt : Nat} (h : b.burn s amt = .ok b') : NewIn b b' [] := by
  obtain ⟨tf, md, h1, _, _, _, rfl⟩ := burn_ok h
  exact NewIn.trans (b' := b.setMint tf.mint (some { md with supply := md.supply - amt })) (.of_tokens rfl)
    (.set _ (by exact h1))

theorem NewIn.transferCore {b b' : Bank} {s d m : Addr} {tp : TokenProgram} {amt : Nat}
    (h : b.transferCore s d m tp amt = .ok b') : NewIn b b' [] := by
  obtain ⟨tf, tt, md, hf⟩ := transferCore_ok h
  rcases hf.result with ⟨_, rfl⟩ | ⟨hne, _, rfl⟩
  · exact .refl _
  · refine NewIn.trans (b' := b.setToken s (some { tf with amount := tf.amount - amt })) (.set _ hf.src) (.set (t := tt) _ ?_)
    show upd _ _ _ _ = _
    rw [upd_ne _ _ (fun e => hne e.symm)]; exact hf.dst

theorem NewIn.transferChecked {b b' : Bank} {s d x m : Addr} {tp : TokenProgram} {amt dec : Nat}
    (h : b.transferChecked s d x m tp amt dec = .ok b') : NewIn b b' [] := by
  simp only [Bank.transferChecked, bind_ok, fetch_ok, require_ok] at h
  obtain ⟨tf, h1, md, h2, _, h3, _, h4, h5⟩ := h
  exact .transferCore h5

theorem NewIn.lock {b b' : Bank} {n s d x m : Addr} {md : MintData} {tp : TokenProgram} {amt dec : Nat}
    (h : (lockAuthority b n md).transferChecked s d x m tp amt dec = .ok b') : NewIn b b' [] :=
  NewIn.trans (b' := lockAuthority b n md) (.of_tokens rfl) (.transferChecked h)

theorem NewIn.ensure {b b' : Bank} {a o m : Addr} {tp : TokenProgram} (h : b.Ensure a o tp m b') : NewIn b b' [a] := by
  obtain ⟨_, ⟨rfl, _⟩ | ⟨_, h⟩⟩ := h
  · intro x hx; exact .inl hx
  · exact .openAccount h

theorem env_new {rt : Runtime} {w w' : World} {i : EnvIx} (h : i.run rt w = .ok w') :
    ∃ xs : List Addr, xs.length ≤ 1 ∧ NewIn w.bank w'.bank xs := by
  cases i with
  | tick t =>
    simp only [EnvIx.run, bind_ok, require_ok, pure_ok] at h
    obtain ⟨_, _, rfl⟩ := h; exact ⟨[], by simp, .refl _⟩
  | setOracle p f d =>
    simp only [EnvIx.run, pure_ok] at h
    subst h; exact ⟨[], by simp, .refl _⟩
  | setWallet n amount =>
    simp only [EnvIx.run, pure_ok] at h
    subst h; exact ⟨[], by simp, .refl _⟩
  | sendLamports src dst amount =>
    simp only [EnvIx.run, World.systemTransfer, bind_ok, require_ok, pure_ok] at h
    obtain ⟨_, h1, _, _, rfl⟩ := h; exact ⟨[], by simp, .refl _⟩
  | createMint n md =>
    simp only [EnvIx.run, bind_ok, require_ok, pure_ok] at h
    obtain ⟨_, h1, b, h2, rfl⟩ := h; exact ⟨[], by simp, .openMint h2⟩
  | setFee m f =>
    simp only [EnvIx.run, bind_ok, require_ok, fetch_ok, pure_ok] at h
    obtain ⟨md, h1, _, h2, rfl⟩ := h; exact ⟨[], by simp, .of_tokens rfl⟩
  | setBlocked n x y =>
    simp only [EnvIx.run, bind_ok, require_ok, fetch_ok, pure_ok] at h
    obtain ⟨md, h1, _, h2, rfl⟩ := h; exact ⟨[], by simp, .of_tokens rfl⟩
  | setMintAuthority m s a =>
    simp only [EnvIx.run, bind_ok, require_ok, fetch_ok, pure_ok] at h
    obtain ⟨md, h1, _, ⟨h2, h3⟩, rfl⟩ := h; exact ⟨[], by simp, .of_tokens rfl⟩
  | setFreezeAuthority m s a =>
    simp only [EnvIx.run, bind_ok, require_ok, fetch_ok, pure_ok] at h
    obtain ⟨md, h1, _, ⟨h2, h3⟩, rfl⟩ := h; exact ⟨[], by simp, .of_tokens rfl⟩
  | mintTo m d x tp amt =>
    simp only [EnvIx.run, bind_ok, require_ok, pure_ok] at h
    obtain ⟨_, h1, b, h2, rfl⟩ := h; exact ⟨[], by simp, .mintTo h2⟩
  | transfer s d x m tp amt dec =>
    simp only [EnvIx.run, bind_ok, require_ok, pure_ok] at h
    obtain ⟨_, h1, b, h2, rfl⟩ := h; exact ⟨[], by simp, .transferChecked h2⟩
  | delegateTransfer s d x m tp amt =>
    simp only [EnvIx.run, bind_ok, require_ok, fetch_ok, pure_ok] at h
    obtain ⟨md, h1, _, ⟨h2, _⟩, b, h3, rfl⟩ := h; exact ⟨[], by simp, .transferCore h3⟩
  | burn s o amt =>
    simp only [EnvIx.run, bind_ok, require_ok, fetch_ok, pure_ok] at h
    obtain ⟨t, h1, _, ⟨h2, h3⟩, b, h4, rfl⟩ := h; exact ⟨[], by simp, .burn h4⟩
  | delegateBurn s x amt =>
    simp only [EnvIx.run, bind_ok, require_ok, fetch_ok, pure_ok] at h
    obtain ⟨t, h1, md, h2, _, ⟨h3, _⟩, b, h4, rfl⟩ := h; exact ⟨[], by simp, .burn h4⟩
  | approve a' o d k =>
    simp only [EnvIx.run, bind_ok, require_ok, fetch_ok, pure_ok] at h
    obtain ⟨t, h1, _, h2, _, h3, rfl⟩ := h; exact ⟨[], by simp, .refl _⟩
  | changeSettings a' x s =>
    simp only [EnvIx.run, bind_ok, require_ok, fetch_ok, pure_ok] at h
    obtain ⟨t, h1, _, h2, _, h3, rfl⟩ := h; exact ⟨[], by simp, .refl _⟩
  | revoke a' x =>
    simp only [EnvIx.run, bind_ok, require_ok, fetch_ok, pure_ok] at h
    obtain ⟨t, h1, _, h2, rfl⟩ := h; exact ⟨[], by simp, .refl _⟩
  | approvedTransfer s d x m tp amt dec =>
    simp only [EnvIx.run, bind_ok, require_ok, fetch_ok, pure_ok] at h
    obtain ⟨t, h1, ap, h2, _, h3, _, h6, b, h7, rfl⟩ := h; exact ⟨[], by simp, .transferChecked h7⟩
  | approvedBurn s x amt =>
    simp only [EnvIx.run, bind_ok, require_ok, fetch_ok, pure_ok] at h
    obtain ⟨t, h1, ap, h2, _, h3, _, h6, b, h7, rfl⟩ := h; exact ⟨[], by simp, .burn h7⟩
  | metaplexFreeze a' x f =>
    simp only [EnvIx.run, bind_ok, require_ok, fetch_ok, pure_ok] at h
    obtain ⟨t, h1, md, h2, ap, h3, _, h4, _, h5, rfl⟩ := h; exact ⟨[], by simp, .set _ h1⟩
  | metaplexBurn acc o m =>
    simp only [EnvIx.run, bind_ok, require_ok, fetch_ok, pure_ok] at h
    obtain ⟨t, h1, _, ⟨h2, h3⟩, _, ⟨h4, h5⟩, md, h6, _, _, b, h7, rfl⟩ := h
    refine ⟨[], by simp, NewIn.trans (.burn h7) ?_⟩
    obtain ⟨tf, md', e1, e2, e3, e4, rfl⟩ := burn_ok h7
    exact .set (t := { tf with amount := tf.amount - 1 }) _ (by exact upd_same _ _ _)
  | metaplexCreate | metaplexUpdate | metaplexSign | metaplexVerify | metaplexUnverify =>
    obtain ⟨m, rfl, he⟩ := metaStep_ok rfl h
    exact ⟨[], by simp, .refl _⟩
  | createAta payer addr owner tp mint =>
    simp only [EnvIx.run, bind_ok, require_ok] at h
    obtain ⟨_, h1, h2⟩ := h
    obtain ⟨b, l, rfl, hb, hl, rfl⟩ := createAta_ok h2
    exact ⟨_, Nat.le_refl _, .openAccount hb⟩
  | createTokenAccount n o m tp =>
    simp only [EnvIx.run, bind_ok, pure_ok] at h
    obtain ⟨b, h1, rfl⟩ := h
    exact ⟨_, Nat.le_refl _, .openAccount h1⟩
  | setOwner a o o' =>
    simp only [EnvIx.run, bind_ok, require_ok, fetch_ok, pure_ok] at h
    obtain ⟨t, h1, _, ⟨h2, h3⟩, _, _, rfl⟩ := h; exact ⟨[], by simp, .set _ h1⟩
  | closeToken a o d =>
    simp only [EnvIx.run, bind_ok, require_ok, fetch_ok, pure_ok] at h
    obtain ⟨t, h1, _, ⟨h2, h3⟩, _, h4, rfl⟩ := h; exact ⟨[], by simp, .set _ h1⟩
  | setFrozen a x f =>
    simp only [EnvIx.run, bind_ok, require_ok, fetch_ok, pure_ok] at h
    obtain ⟨t, h1, md, h2, _, ⟨h3, h4⟩, rfl⟩ := h; exact ⟨[], by simp, .set _ h1⟩

/-- One step opens at most two token accounts. -/
theorem Did.new {rt : Runtime} {w w' : World} {ix : Ix} (h : Did rt w ix w') :
    ∃ xs : List Addr, xs.length ≤ 2 ∧ NewIn w.bank w'.bank xs := by
  cases h with
  | init hix h =>
    rw [h.result]
    exact ⟨_, by simp, ((NewIn.openMint h.openMint).trans (.openAccount h.openAta)).trans
      ((NewIn.mintTo h.mintTo).trans (.of_tokens rfl))⟩
  | create hix hp h =>
    rw [h.result]
    exact ⟨_, by simp, ((NewIn.openMint h.openMint).trans ((NewIn.openAccount h.openNftAta).trans
      (.openAccount h.openVault))).trans ((NewIn.mintTo h.mintTo).trans
        (.lock h.transfer))⟩
  | withdraw hix h =>
    rw [h.result]
    exact ⟨_, by simp, (NewIn.ensure h.accts.ensure).trans (.transferChecked h.transfer)⟩
  | cancel hix h =>
    rw [h.result]
    exact ⟨_, by simp, (NewIn.ensure h.accts.ensure).trans (.transferChecked h.transfer)⟩
  | renounce hix h => rw [h.result]; exact ⟨[], by simp, .refl _⟩
  | collect hix ht h => rw [h.result]; exact ⟨[], by simp, .refl _⟩
  | miInit hix hs hn hl h => rw [h]; exact ⟨[], by simp, .refl _⟩
  | campaign hp hix h => rw [h.result]; exact ⟨_, by simp, .openAccount h.openVault⟩
  | claim hix h =>
    rw [h.result]
    exact ⟨_, by simp, (NewIn.ensure h.accts.ensure).trans (.transferChecked h.transfer)⟩
  | clawback hix h =>
    rw [h.result]
    exact ⟨_, by simp, (NewIn.ensure h.accts.ensure).trans (.transferChecked h.transfer)⟩
  | miCollect hix ht h => rw [h.result]; exact ⟨[], by simp, .refl _⟩
  | env i hix h =>
    obtain ⟨xs, h1, h2⟩ := env_new h
    exact ⟨xs, by omega, h2⟩

/-- One step creates at most one stream. -/
theorem Did.new_stream {rt : Runtime} {w w' : World} {ix : Ix} (h : Did rt w ix w') :
    ∃ xs : List Addr, xs.length ≤ 1 ∧ ∀ a, w'.lk.streams a ≠ none → w.lk.streams a ≠ none ∨ a ∈ xs := by
  cases hc : ix.creates with
  | some x =>
    refine ⟨[x], by simp, fun a ha => ?_⟩
    by_cases e : a = x
    · right; simp [e]
    · left
      rcases h.stream a with ⟨hq, _⟩ |
        ⟨c, p, nd, dm, md, cm, k, name, b₁, b₂, b₃, b₄, b₆, l, he, hix, hp, hok⟩ |
        ⟨c, amount, sd₀, sd₁, dm, b₁, b₂, l, he, _, hok⟩ | ⟨c, sd₀, dm, streamed, b₁, b₂, l, he, _, hok⟩ |
        ⟨c, sd₀, streamed, he, _, hok⟩
      · rw [hq.data] at ha; exact ha
      · rw [hc] at hix; cases hix; exact absurd rfl (he ▸ e)
      · rw [← he, hok.accts.stream]; exact fun e => by cases e
      · rw [← he, hok.accts.stream]; exact fun e => by cases e
      · rw [← he, hok.stream]; exact fun e => by cases e
  | none =>
    refine ⟨[], by simp, fun a ha => ?_⟩
    left
    rcases h.stream a with ⟨hq, _⟩ |
      ⟨c, p, nd, dm, md, cm, k, name, b₁, b₂, b₃, b₄, b₆, l, he, hix, hp, hok⟩ |
      ⟨c, amount, sd₀, sd₁, dm, b₁, b₂, l, he, _, hok⟩ | ⟨c, sd₀, dm, streamed, b₁, b₂, l, he, _, hok⟩ |
      ⟨c, sd₀, streamed, he, _, hok⟩
    · rw [hq.data] at ha; exact ha
    · rw [hc] at hix; cases hix
    · rw [← he, hok.accts.stream]; exact fun e => by cases e
    · rw [← he, hok.accts.stream]; exact fun e => by cases e
    · rw [← he, hok.stream]; exact fun e => by cases e

/-- What exists after a run is what existed before it or one of at most three addresses per instruction. -/
theorem runAll_new {rt : Runtime} (ixs : List Ix) : ∀ {w w' : World}, runAll rt w ixs = .ok w' →
    ∃ xs : List Addr, xs.length ≤ 3 * ixs.length ∧
      (∀ a, w'.bank.tokens a ≠ none ∨ w'.lk.streams a ≠ none →
        w.bank.tokens a ≠ none ∨ w.lk.streams a ≠ none ∨ a ∈ xs) := by
  induction ixs with
  | nil => intro w w' h; cases h; exact ⟨[], by simp, fun a ha => by rcases ha with h | h <;> simp [h]⟩
  | cons i is ih =>
    intro w w' h
    simp only [runAll, bind_ok] at h
    obtain ⟨w₁, h1, h2⟩ := h
    obtain ⟨xs, l, hx⟩ := ih h2
    obtain ⟨ys, l1, h3⟩ := (step_did h1).new
    obtain ⟨zs, l2, h4⟩ := (step_did h1).new_stream
    refine ⟨xs ++ ys ++ zs, by simp only [List.length_append, List.length_cons]; omega, fun a ha => ?_⟩
    rcases hx a ha with h | h | h
    · rcases h3 a h with h | h
      · exact .inl h
      · exact .inr (.inr (by simp [h]))
    · rcases h4 a h with h | h
      · exact .inr (.inl h)
      · exact .inr (.inr (by simp [h]))
    · exact .inr (.inr (by simp [h]))

/-- If the list is shorter than the range, some number's two addresses avoid it. -/
theorem free_salt {xs : List Addr} {N : Nat} (h : xs.length < N) (s : Addr) (tp : TokenProgram) (m : Addr) :
    ∃ n, n < N ∧ streamAddr s n ∉ xs ∧ Addr.ata (streamAddr s n) tp m ∉ xs := by
  have inj : ∀ {n k : Nat}, streamAddr s n = streamAddr s k → n = k := by
    intro n k h
    unfold streamAddr at h
    injection h with h; injection h
  by_contra hc
  have hc : ∀ n, n < N → ∃ a ∈ xs, a = streamAddr s n ∨ a = Addr.ata (streamAddr s n) tp m := by
    intro n hn
    by_contra hno
    refine hc ⟨n, hn, fun h => hno ⟨_, h, .inl rfl⟩, fun h => hno ⟨_, h, .inr rfl⟩⟩
  let f : Nat → Addr := fun n => if hn : n < N then (hc n hn).choose else s
  have hf : ∀ n, n < N → f n ∈ xs ∧ (f n = streamAddr s n ∨ f n = Addr.ata (streamAddr s n) tp m) := by
    intro n hn
    have : f n = (hc n hn).choose := dif_pos hn
    rw [this]; exact (hc n hn).choose_spec
  have := Finset.card_le_card_of_injOn (s := Finset.range N) (t := xs.toFinset) f
    (fun n hn => by
      have := (hf n (Finset.mem_range.1 hn)).1
      simpa using this)
    (fun n hn k hk e => by
      have h1 := (hf n (by simpa using hn)).2
      have h2 := (hf k (by simpa using hk)).2
      rcases h1 with h1 | h1 <;> rcases h2 with h2 | h2 <;> rw [h1, h2] at e
      · exact inj e
      · cases e
      · cases e
      · injection e with e _ _; exact inj e)
  rw [Finset.card_range] at this
  have := List.toFinset_card_le xs
  omega

end Solsab
