import Verif.Machine
/-!
# Specification vocabulary: instructions racing each other
-/

namespace Solsab.Spec

/-- The two states differ at most in the order and contents of the event log. -/
def SameButLog (w w' : World) : Prop := { w with log := [] } = { w' with log := [] }

/-- If `i` then `j` succeeds at this moment, so does `j` then `i`, with the same result. -/
def Confluent (rt : Runtime) (w : World) (i j : Ix) : Prop :=
  ∀ u, runAll rt w [i, j] = .ok u → ∃ u', runAll rt w [j, i] = .ok u' ∧ SameButLog u u'

/-- The token account exists. -/
def Opened (w : World) (a : Addr) : Prop := ∃ t, w.bank.tokens a = some t

/-- `ix` is a claim from the campaign `camp`, to an existing account that is not the campaign's vault. -/
def ClaimFrom (w : World) (camp : Addr) (ix : Ix) : Prop :=
  ∃ c i a p, ix = .merkle (.claim c i a p) ∧ c.campaign = camp ∧ c.recipientAta ≠ c.campaignAta ∧
    Opened w c.recipientAta

end Solsab.Spec
