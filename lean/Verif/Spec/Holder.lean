import Verif.Machine
/-!
# Specification vocabulary: who holds the NFT of a stream
-/

namespace Solsab.Spec

/-- `p` holds the NFT of the stream of sender `s` and salt `n`: it is in `p`'s associated account (of the token program
`np`), which belongs to `p`. -/
def Holds (w : World) (s : Addr) (n : Nat) (np : TokenProgram) (p : Addr) : Prop :=
  ∃ t, w.bank.tokens (.ata p np (.streamNftMint s n)) = some t ∧ t.owner = p ∧ t.amount = 1

end Solsab.Spec
