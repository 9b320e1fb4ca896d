import Verif.Spec.Accounts
import Verif.Spec.Terms
/-!
# Specification vocabulary: collecting from many streams

What somebody who withdraws everything from a list of streams, for the holders of their NFTs, has to provide, and what the
result is. The streams may be in different tokens and belong to different people.
-/

namespace Solsab.Spec

open Lockup

/-- A stream, the wallet that holds its NFT (with the token program of the NFT), and the token it pays. -/
structure Holding where
  sender : Addr
  salt : Nat
  holder : Addr
  nftProgram : TokenProgram
  token : Addr
  program : TokenProgram

def Holding.stream (h : Holding) : Addr := streamAddr h.sender h.salt
/-- Where the stream's tokens are. -/
def Holding.vault (h : Holding) : Addr := .ata (streamAddr h.sender h.salt) h.program h.token
/-- Where they are paid. -/
def Holding.account (h : Holding) : Addr := .ata h.holder h.program h.token

/-- `withdraw_max` of the stream to the holder of its NFT, signed by `p`; `tr` is the configuration of the program. -/
def Holding.withdrawMax (tr : Treasury) (p : Addr) (h : Holding) : Ix :=
  .lockup (.withdrawMax
    { signer := p, streamRecipient := h.holder, withdrawalRecipient := h.holder, withdrawalRecipientAta := h.account,
      treasury := .treasury .lockup, depositedTokenMint := h.token,
      recipientStreamNftAta := .ata h.holder h.nftProgram (.streamNftMint h.sender h.salt),
      streamData := h.stream, streamDataAta := h.vault, streamNftMint := .streamNftMint h.sender h.salt,
      depositedTokenProgram := h.program, nftTokenProgram := h.nftProgram,
      chainlinkProgram := tr.chainlinkProgram, chainlinkSolUsdFeed := tr.chainlinkSolUsdFeed })

/-- What `withdrawable_amount_of` answers for the stream. -/
def Holding.due (rt : Runtime) (w : World) (h : Holding) : Nat :=
  match withdrawableAmountOf rt w (viewOf h.sender h.salt) with
  | .ok x => x
  | .error _ => 0

/-- The rent of the holder's token account. -/
def Holding.rent (rt : Runtime) (h : Holding) : Nat := max (rt.rent (World.tokenSpace rt h.token h.program)) 1

/-- The stream can pay its holder now: it exists, the holder's wallet (which is not itself a stream) has the NFT in its
associated account, something is withdrawable, the token is transferable without a fee and has no permanent delegate, and
the holder's associated token account does not exist yet or is theirs, not frozen, and not closed to transfers without memo.
-/
structure Holding.Payable (rt : Runtime) (w : World) (h : Holding) : Prop where
  stream : ∃ sd, w.lk.streams h.stream = some sd ∧ sd.depositedTokenMint = h.token
  mint : ∃ md, w.bank.mints h.token = some md ∧ md.program = h.program ∧ md.Plain ∧ md.transferBlocked = false ∧
    md.startsFrozen = false
  holds : ∃ t, w.bank.tokens (.ata h.holder h.nftProgram (.streamNftMint h.sender h.salt)) = some t ∧
    t.owner = h.holder ∧ t.amount = 1
  wallet : ∀ s n, h.holder ≠ streamAddr s n
  thawed : ∀ t, w.bank.tokens h.vault = some t → t.frozen = false
  account : ∀ t, w.bank.tokens h.account = some t → t.owner = h.holder ∧ t.frozen = false
  noMemo : (w.settings h.account).memoRequired = false
  positive : 0 < h.due rt w

/-- Everything withdrawable was paid out of the streams between `w` and `w'`, and nothing else happened. -/
structure Collected (rt : Runtime) (w w' : World) (p : Addr) (hs : List Holding) : Prop where
  /-- recorded -/
  recorded : ∀ h ∈ hs, ∃ sd sd', w.lk.streams h.stream = some sd ∧ w'.lk.streams h.stream = some sd' ∧
    sd'.amounts.withdrawn = sd.amounts.withdrawn + h.due rt w ∧ sd'.amounts.refunded = sd.amounts.refunded ∧
    sd'.wasCanceled = sd.wasCanceled ∧ SameTerms sd sd'
  nothingLeft : ∀ h ∈ hs, withdrawableAmountOf rt w' (viewOf h.sender h.salt) = .ok 0
  /-- paid, by the vaults -/
  paid : ∀ h ∈ hs, w.bank.balance h.vault = w'.bank.balance h.vault + h.due rt w
  /-- to the holders, in their own associated accounts -/
  received : ∀ a, (∀ h ∈ hs, a ≠ h.vault) → w'.bank.balance a =
    w.bank.balance a + ((hs.filter (·.account = a)).map (Holding.due rt w)).sum
  theirs : ∀ h ∈ hs, ∃ t, w'.bank.tokens h.account = some t ∧ t.owner = h.holder
  /-- `p` paid the rent of new accounts at most -/
  rent : w.lamports p ≤ w'.lamports p + (hs.map (Holding.rent rt)).sum
  /-- nothing else changes -/
  streams : ∀ x, (∀ h ∈ hs, x ≠ h.stream) → w'.lk.streams x = w.lk.streams x
  tokens : ∀ a, (∀ h ∈ hs, a ≠ h.vault ∧ a ≠ h.account) → w'.bank.tokens a = w.bank.tokens a
  mints : w'.bank.mints = w.bank.mints
  airdrops : w'.mi = w.mi
  treasury : w'.lk.treasury = w.lk.treasury
  collection : w'.lk.nftCollectionData = w.lk.nftCollectionData
  clock : w'.clock = w.clock

/-! ## Cancelling many streams -/

/-- A stream of the sender `s` (who is named separately), and the token it pays. -/
structure Position where
  salt : Nat
  token : Addr
  program : TokenProgram

def Position.stream (s : Addr) (q : Position) : Addr := streamAddr s q.salt
def Position.vault (s : Addr) (q : Position) : Addr := .ata (streamAddr s q.salt) q.program q.token
/-- Where the sender gets the refund. -/
def Position.account (s : Addr) (q : Position) : Addr := .ata s q.program q.token

/-- The sender cancels the stream. -/
def Position.cancel (s : Addr) (q : Position) : Ix :=
  .lockup (.cancel
    { sender := s, senderAta := q.account s, depositedTokenMint := q.token, streamData := q.stream s,
      streamDataAta := q.vault s, streamNftMint := .streamNftMint s q.salt, depositedTokenProgram := q.program })

/-- What `refundable_amount_of` answers for the stream. -/
def Position.refund (rt : Runtime) (w : World) (s : Addr) (q : Position) : Nat :=
  match refundableAmountOf rt w (viewOf s q.salt) with
  | .ok x => x
  | .error _ => 0

/-- The rent of the sender's token account. -/
def Position.rent (rt : Runtime) (q : Position) : Nat := max (rt.rent (World.tokenSpace rt q.token q.program)) 1

/-- The stream can be canceled now: it exists, something is refundable, the token is transferable without a fee and has no
permanent delegate, and the sender's associated token account does not exist yet or is theirs, not frozen, and not closed to
transfers without memo. -/
structure Position.Cancelable (rt : Runtime) (w : World) (s : Addr) (q : Position) : Prop where
  stream : ∃ sd, w.lk.streams (q.stream s) = some sd ∧ sd.depositedTokenMint = q.token
  mint : ∃ md, w.bank.mints q.token = some md ∧ md.program = q.program ∧ md.Plain ∧ md.transferBlocked = false ∧
    md.startsFrozen = false
  thawed : ∀ t, w.bank.tokens (q.vault s) = some t → t.frozen = false
  account : ∀ t, w.bank.tokens (q.account s) = some t → t.owner = s ∧ t.frozen = false
  noMemo : (w.settings (q.account s)).memoRequired = false
  positive : 0 < q.refund rt w s

/-- The streams were canceled between `w` and `w'`, and nothing else happened. -/
structure CanceledAll (rt : Runtime) (w w' : World) (s : Addr) (qs : List Position) : Prop where
  recorded : ∀ q ∈ qs, ∃ sd sd', w.lk.streams (q.stream s) = some sd ∧ w'.lk.streams (q.stream s) = some sd' ∧
    sd'.amounts.refunded = q.refund rt w s ∧ sd'.amounts.withdrawn = sd.amounts.withdrawn ∧
    sd'.wasCanceled = true ∧ sd'.isCancelable = false ∧ SameTerms sd sd'
  /-- the recipients keep what they could withdraw -/
  vested : ∀ q ∈ qs, withdrawableAmountOf rt w' (viewOf s q.salt) = withdrawableAmountOf rt w (viewOf s q.salt)
  paid : ∀ q ∈ qs, w.bank.balance (q.vault s) = w'.bank.balance (q.vault s) + q.refund rt w s
  received : ∀ a, (∀ q ∈ qs, a ≠ q.vault s) → w'.bank.balance a =
    w.bank.balance a + ((qs.filter (·.account s = a)).map (Position.refund rt w s)).sum
  rent : w.lamports s ≤ w'.lamports s + (qs.map (Position.rent rt)).sum
  streams : ∀ x, (∀ q ∈ qs, x ≠ q.stream s) → w'.lk.streams x = w.lk.streams x
  tokens : ∀ a, (∀ q ∈ qs, a ≠ q.vault s ∧ a ≠ q.account s) → w'.bank.tokens a = w.bank.tokens a
  mints : w'.bank.mints = w.bank.mints
  airdrops : w'.mi = w.mi
  treasury : w'.lk.treasury = w.lk.treasury
  collection : w'.lk.nftCollectionData = w.lk.nftCollectionData
  clock : w'.clock = w.clock

end Solsab.Spec
