import Verif.Spec.Accounts
/-!
# The accounts of a creation, spelled out

What a client passes to open a stream: everything follows from who pays (`p`), in whose name (`s`), for whom (`r`),
in which token (`m`, with token program `tp`) and under which salt (`n`).
-/

namespace Solsab.Spec

open Lockup

/-- The accounts of a creation paid by `p`, with sender `s`, recipient `r`, token `m` and salt `n`; the stream NFT is
made with token program `ntp`. -/
def createFor (p s r m : Addr) (tp ntp : TokenProgram) (n : Nat) : CreateAccts where
  creator := p
  creatorAta := .ata p tp m
  recipient := r
  sender := s
  nftCollectionData := .nftCollectionData
  nftCollectionMint := .nftCollectionMint
  depositTokenMint := m
  streamNftMint := .streamNftMint s n
  recipientStreamNftAta := .ata r ntp (.streamNftMint s n)
  streamData := streamAddr s n
  streamDataAta := .ata (streamAddr s n) tp m
  depositTokenProgram := tp
  nftTokenProgram := ntp

/-- `p` can pay for a new stream with deposit `dep` of token `m` on the initialised program: the program's stream
counter is not exhausted, `p` signs, holds the rent and holds the deposit in an associated token account that can
pay out (neither frozen nor guarded against programs). -/
structure FundedFor (rt : Runtime) (w : World) (p m : Addr) (md : MintData) (ntp : TokenProgram) (dep : Nat) : Prop where
  collection : ∃ nd, w.lk.nftCollectionData = some nd ∧ nd.totalSupply + 1 < 2 ^ 64
  mint : w.bank.mints m = some md
  signer : p.canSign = true
  tokens : ∃ t, w.bank.tokens (.ata p md.program m) = some t ∧ t.owner = p ∧ dep ≤ t.amount ∧ t.frozen = false
  unguarded : (w.settings (.ata p md.program m)).cpiGuard = false
  flows : md.transferBlocked = false
  thawed : md.startsFrozen = false
  lamports : createRent rt ntp m md.program ≤ w.lamports p

end Solsab.Spec
