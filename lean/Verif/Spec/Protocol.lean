import Verif.Machine
import Verif.Spec.Api
/-!
# The vesting protocol as a small state machine

Everything a stream *is*, without accounts, tokens, signatures, bytes or flags: its terms and three things that change,
the amount withdrawn, the amount refunded (0 means: not canceled) and whether the sender may still cancel.  The code
stores two more flags and derives amounts in several places; `Props/Protocol` proves that it implements this machine.
-/

namespace Solsab.Spec.Protocol

structure Stream where
  sender : Addr
  token : Addr
  start : Nat
  /-- 0: no cliff. -/
  cliff : Nat
  finish : Nat
  startUnlock : Nat
  cliffUnlock : Nat
  deposit : Nat
  withdrawn : Nat
  refunded : Nat
  cancelable : Bool
  deriving DecidableEq

namespace Stream

/-- The beginning of the linear part. -/
def linearFrom (p : Stream) : Nat := if p.cliff = 0 then p.start else p.cliff

/-- What belongs to the recipient at time `t`: after a cancellation everything that was not refunded, otherwise the
schedule. -/
def vested (p : Stream) (t : Nat) : Nat :=
  if p.refunded ≠ 0 then p.deposit - p.refunded
  else if t < p.start then 0
  else if p.cliff ≠ 0 ∧ t < p.cliff then p.startUnlock
  else if p.finish ≤ t then p.deposit
  else p.startUnlock + p.cliffUnlock +
    ((t - p.linearFrom) * 10 ^ 18 / (p.finish - p.linearFrom)) * (p.deposit - (p.startUnlock + p.cliffUnlock)) / 10 ^ 18

/-- Is everything paid out? -/
def empty (p : Stream) : Prop := p.withdrawn + p.refunded = p.deposit

instance (p : Stream) : Decidable p.empty := inferInstanceAs (Decidable (_ = _))

/-- What the sender would get back by canceling at time `t`. -/
def refundable (p : Stream) (t : Nat) : Nat := if p.cancelable then p.deposit - p.vested t else 0

def status (p : Stream) (t : Nat) : Lockup.StreamStatus :=
  if p.empty then .depleted
  else if p.refunded ≠ 0 then .canceled
  else if t < p.start then .pending
  else if p.vested t < p.deposit then .streaming
  else .settled

end Stream

/-- What can be done to a stream. -/
inductive Action
  | withdraw (amount : Nat)
  | cancel
  | renounce
  deriving DecidableEq

/-- The machine: the effect of an action at time `t`, or `none` if it is not allowed. -/
def act (t : Nat) (p : Stream) : Action → Option Stream
  | .withdraw a =>
    if 0 < a ∧ p.withdrawn + a ≤ p.vested t then
      let q := { p with withdrawn := p.withdrawn + a }
      some { q with cancelable := q.cancelable && !decide q.empty }
    else none
  | .cancel =>
    if p.cancelable = true ∧ p.vested t < p.deposit then
      some { p with refunded := p.deposit - p.vested t, cancelable := false }
    else none
  | .renounce =>
    if p.cancelable = true ∧ p.vested t < p.deposit then some { p with cancelable := false } else none

/-- A run of the machine: actions at non-decreasing times between `t` and `t'`. -/
inductive Run : Nat → Stream → List (Nat × Action) → Nat → Stream → Prop
  | nil {t t' : Nat} {p : Stream} (h : t ≤ t') : Run t p [] t' p
  | cons {t u t' : Nat} {p q r : Stream} {a : Action} {l : List (Nat × Action)} (h : t ≤ u) (ha : act u p a = some q)
      (hl : Run u q l t' r) : Run t p ((u, a) :: l) t' r

/-! ## Reading the chain -/

/-- The stream stored in an account: the flags `is_depleted` and `was_canceled`, the salt and the bump are left out. -/
def ofAccount (sd : Lockup.StreamData) : Stream :=
  { sender := sd.sender, token := sd.depositedTokenMint, start := sd.timestamps.start, cliff := sd.timestamps.cliff,
    finish := sd.timestamps.end, startUnlock := sd.amounts.startUnlock, cliffUnlock := sd.amounts.cliffUnlock,
    deposit := sd.amounts.deposited, withdrawn := sd.amounts.withdrawn, refunded := sd.amounts.refunded,
    cancelable := sd.isCancelable }

/-- The stream of `(sender, salt)`, if there is one. -/
def read (w : World) (sender : Addr) (salt : Nat) : Option Stream :=
  (w.lk.streams (streamAddr sender salt)).map ofAccount

/-- What an instruction asks of the stream at `x`, which is `p` at time `t`. -/
def asks (ix : Ix) (x : Addr) (t : Nat) (p : Stream) : Option Action :=
  match ix with
  | .lockup (.withdraw c a) => if c.streamData = x then some (.withdraw a.toNat) else none
  | .lockup (.withdrawMax c) => if c.streamData = x then some (.withdraw (p.vested t - p.withdrawn)) else none
  | .lockup (.cancel c) => if c.streamData = x then some .cancel else none
  | .lockup (.renounce c) => if c.streamData = x then some .renounce else none
  | _ => none

/-- The stream that an instruction executed at time `t` asks to create. -/
def opens (ix : Ix) (t : Nat) : Option (Addr × Stream) :=
  match ix with
  | .lockup (.createWithTimestamps c salt dep st cl en su cu ca) =>
    some (streamAddr c.sender salt.val, ⟨c.sender, c.depositTokenMint, st.toNat, cl.toNat, en.toNat, su.toNat, cu.toNat, dep.toNat, 0, 0, ca⟩)
  | .lockup (.createWithDurations c salt dep cd td su cu ca) =>
    some (streamAddr c.sender salt.val, ⟨c.sender, c.depositTokenMint, t, if cd = 0 then 0 else t + cd.toNat, t + td.toNat, su.toNat, cu.toNat, dep.toNat,
      0, 0, ca⟩)
  | _ => none

/-- The terms the protocol accepts. -/
def Stream.Fresh (p : Stream) : Prop :=
  0 < p.deposit ∧ 0 < p.start ∧ p.start < p.finish ∧
  ((p.cliff = 0 ∧ p.cliffUnlock = 0) ∨ (p.start < p.cliff ∧ p.cliff < p.finish)) ∧
  p.startUnlock + p.cliffUnlock ≤ p.deposit ∧ p.withdrawn = 0 ∧ p.refunded = 0

instance (p : Stream) : Decidable p.Fresh := inferInstanceAs (Decidable (_ ∧ _))

/-- What the protocol makes, at time `t`, of the stream at `x` (`none`: there is no stream there) when the instruction
`ix` is executed.  The outer `none` means: the protocol does not allow it, the instruction has to fail. -/
def next (ix : Ix) (x : Addr) (t : Nat) : Option Stream → Option (Option Stream)
  | none =>
    match opens ix t with
    | some (y, p) => if y = x then (if p.Fresh then some (some p) else none) else some none
    | none => if ix.withdrawsFrom = some x ∨ ix.cancels = some x ∨ ix.renounces = some x then none else some none
  | some p =>
    match opens ix t with
    | some (y, _) => if y = x then none else some (some p)
    | none =>
      match asks ix x t p with
      | some a => (act t p a).map some
      | none => some (some p)

end Solsab.Spec.Protocol
