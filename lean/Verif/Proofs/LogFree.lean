import Verif.Proofs.Did
import Verif.Props.Locality
/-!
# No instruction reads the log
-/

namespace Solsab

/-- The same world with another log. -/
def World.withLog (w : World) (l : List LogEntry) : World := { w with log := l }

theorem env_withLog {rt : Runtime} {w w' : World} {i : EnvIx} (h : i.run rt w = .ok w') (l : List LogEntry) :
    i.run rt (w.withLog l) = .ok (w'.withLog l) := by
  cases i <;>
    simp only [EnvIx.run, World.systemTransfer, World.createAta, World.payRent, Lockup.metaplexSign, bind_ok, require_ok,
      fetch_ok, pure_ok] at h ⊢
  all_goals first
    | (obtain ⟨x1, h1, x2, h2, x3, h3, x4, h4, x5, h5, x6, h6, rfl⟩ := h
       exact ⟨x1, h1, x2, h2, x3, h3, x4, h4, x5, h5, x6, h6, rfl⟩)
    | (obtain ⟨x1, h1, x2, h2, x3, h3, x4, h4, x5, h5, rfl⟩ := h
       exact ⟨x1, h1, x2, h2, x3, h3, x4, h4, x5, h5, rfl⟩)
    | (obtain ⟨x1, h1, x2, h2, x3, h3, x4, h4, rfl⟩ := h; exact ⟨x1, h1, x2, h2, x3, h3, x4, h4, rfl⟩)
    | (obtain ⟨x1, h1, x2, h2, x3, h3, rfl⟩ := h; exact ⟨x1, h1, x2, h2, x3, h3, rfl⟩)
    | (obtain ⟨x1, h1, x2, h2, rfl⟩ := h; exact ⟨x1, h1, x2, h2, rfl⟩)
    | (obtain ⟨x1, h1, rfl⟩ := h; exact ⟨x1, h1, rfl⟩)
    | (subst h; rfl)

/-- No instruction reads the log: with another log it does the same and adds the same events. -/
theorem step_withLog {rt : Runtime} {w w' : World} {ix : Ix} (h : step rt w ix = .ok w') (l : List LogEntry) :
    ∃ es, w'.log = es ++ w.log ∧ step rt (w.withLog l) ix = .ok (w'.withLog (es ++ l)) := by
  have key : ix.ofPrograms → ∃ es, w'.log = es ++ w.log ∧ step rt (w.withLog l) ix = .ok (w'.withLog (es ++ l)) := by
    intro hp
    obtain ⟨v', es, hv, hsame, h1, h2⟩ := (Props.C68_reads (w := w) (v := w.withLog l) hp rfl fun _ _ => rfl).2 w' h
    obtain ⟨a1, a2, a3⟩ := Props.C68_writes hp h
    obtain ⟨b1, b2, b3⟩ := Props.C68_writes hp hv
    refine ⟨es, h1, ?_⟩
    rw [hv]
    refine congrArg _ (Props.C68_accounts_complete (fun a => ?_) (b2.trans a2.symm) (b3.trans a3.symm) h2)
    by_cases ha : a ∈ ix.accounts
    · exact (hsame a ha).symm
    · have hw : a ∉ ix.writes := fun hw => ha (List.mem_append_left _ hw)
      exact (b1 a hw).trans (a1 a hw).symm
  cases ix with
  | lockup i => exact key trivial
  | merkle i => exact key trivial
  | env i =>
    refine ⟨[], (env_ok (h : i.run rt w = _)).log, ?_⟩
    exact env_withLog (h : i.run rt w = _) l

end Solsab
