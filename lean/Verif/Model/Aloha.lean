import Mathlib.Algebra.Group.Defs

/-!
# Model of `model/mac/aloha-mac-model.cc`

Time is a natural number of simulator ticks.  The received powers (already converted to milliwatts) live in a type `P` with zero
and addition; the comparison of the signal-to-interference ratio with the threshold is a function
`lost rx interference` (see `Verif.Props.Aloha` for its real-number instance).
-/

set_option autoImplicit false

namespace Icarus
namespace Aloha

/-! ## Sending -/

/-- High and low words of the 64.64 fixed-point quotient `now / m_slotDuration` of two `Time`s (ns-3 `int64x64_t`, not part of the
repository; contract: the quotient is truncated to 64 fractional bits). -/
def quotient (now slot : Nat) : Nat × Nat := (now / slot, (now % slot) * 2 ^ 64 / slot)

/-- `AlohaMacModel::Send`: delay until `DoSend` (model/mac/aloha-mac-model.cc:57-78).  `slot` is `m_slotDuration`; a non-positive slot
duration means unslotted operation.  Simplification: `Time` is a 64-bit signed integer; sums below 2^63 ticks are assumed. -/
def sendDelay (now slot : Nat) : Nat :=
  if slot > 0 then
    if (quotient now slot).2 > 0 then ((quotient now slot).1 + 1) * slot - now else 0
  else 0

/-- Instants of the two callbacks for a frame handed over at `now` whose transmission lasts `txTime`: `transmit_callback` is called from
`DoSend`, `finish_callback` `txTime` later (model/mac/aloha-mac-model.cc:75-96). -/
def sendCallbacks (now slot txTime : Nat) : Nat × Nat :=
  (now + sendDelay now slot, now + sendDelay now slot + txTime)

/-! ## Receiving -/

/-- A frame whose reception starts at `start`, lasts `dur` and has power `pow`. -/
structure Frame (P : Type) where
  uid : Nat
  start : Nat
  dur : Nat
  pow : P
  deriving DecidableEq, Repr

/-- End of the reception. -/
def Frame.fin {P : Type} (f : Frame P) : Nat := f.start + f.dur

/-- Receiver state: `m_busyPeriodPacketUid`, `m_busyPeriodFinishTime`, `m_busyPeriodCollision`, `m_busyPeriodInterferencePower`
(model/mac/aloha-mac-model.h:46-51).  `interf = none` : the `double` has not been assigned yet (the constructor does not
initialise it, model/mac/aloha-mac-model.cc:52-55). -/
structure Rx (P : Type) where
  uid : Option Nat
  finish : Nat
  collision : Bool
  interf : Option P
  deriving DecidableEq, Repr

/-- A new receiver (model/mac/aloha-mac-model.cc:52-55); `m_busyPeriodFinishTime` is a default-constructed `Time`, i.e. 0. -/
def Rx.init {P : Type} : Rx P := ⟨none, 0, false, none⟩

variable {P : Type} [Zero P] [Add P]

/-- State change of `AlohaMacModel::StartPacketRx` (model/mac/aloha-mac-model.cc:98-129) for a frame starting now (`f.start` = now).
Scheduling `FinishReception` is done by `step` below. -/
def startRx (s : Rx P) (f : Frame P) : Rx P :=
  let s := if s.uid.isSome ∧ f.start < s.finish then
      Rx.mk s.uid s.finish true (s.interf.map (· + f.pow))
    else s
  if s.uid.isNone ∨ f.fin ≥ s.finish then
    Rx.mk (some f.uid) f.fin s.collision (if s.uid.isNone then some f.pow else s.interf)
  else s

/-- `AlohaMacModel::FinishReception` (model/mac/aloha-mac-model.cc:131-168) of frame `f` at its end: new state and whether
`net_device_cb` is called.  `lost rx interference` is `10 * log10 (rx / (interference - rx)) < m_sirThreshold`.  An unassigned
interference power is never read (`C19_interference_assigned`); the branch below then keeps the frame. -/
def finishRx (lost : P → P → Bool) (s : Rx P) (f : Frame P) : Rx P × Bool :=
  let collided := s.collision && (match s.interf with | some i => lost f.pow i | none => false)
  let s := if s.uid = some f.uid then Rx.mk none f.fin false (some 0) else s
  (s, !collided)

/-! ## Event loop around the receiver -/

/-- Simulator view of one receiver: clock, receiver state, scheduled `FinishReception` events in execution order, and the calls of
`net_device_cb` made so far as (time, packet uid). -/
structure Sys (P : Type) where
  clock : Nat
  rx : Rx P
  pending : List (Frame P)
  delivered : List (Nat × Nat)

/-- Initially nothing is scheduled. -/
def Sys.init : Sys P := ⟨0, Rx.init, [], []⟩

/-- Scheduling in ns-3: by time, and after the events already scheduled for the same time. -/
def schedule (f : Frame P) : List (Frame P) → List (Frame P)
  | [] => [f]
  | g :: gs => if f.fin < g.fin then f :: g :: gs else g :: schedule f gs

/-- What can happen next: a frame starts to arrive (its `start` is the current time), or the next scheduled event runs. -/
inductive Op (P : Type) where
  | arrive (f : Frame P)
  | finish
  deriving DecidableEq

/-- One simulator step; `none` when the operation is not possible.  An arrival at time `t` may happen only if all scheduled events before
`t` have run.  Events scheduled for exactly `t` may come before or after the arrival; with `ties = false` they come before. -/
def step (ties : Bool) (lost : P → P → Bool) (s : Sys P) : Op P → Option (Sys P)
  | .arrive f =>
    if s.clock ≤ f.start ∧ ∀ g ∈ s.pending, f.start < g.fin ∨ ties = true ∧ f.start = g.fin then
      some ⟨f.start, startRx s.rx f, schedule f s.pending, s.delivered⟩
    else none
  | .finish =>
    match s.pending with
    | [] => none
    | f :: rest =>
      let (rx, up) := finishRx lost s.rx f
      some ⟨f.fin, rx, rest, s.delivered ++ (if up then [(f.fin, f.uid)] else [])⟩

/-- Executing a list of operations. -/
def execFrom (ties : Bool) (lost : P → P → Bool) : Sys P → List (Op P) → Option (Sys P)
  | s, [] => some s
  | s, o :: os => (step ties lost s o).bind (fun s' => execFrom ties lost s' os)

def exec (ties : Bool) (lost : P → P → Bool) (ops : List (Op P)) : Option (Sys P) := execFrom ties lost Sys.init ops

end Aloha
end Icarus
