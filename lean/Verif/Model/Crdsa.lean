import Verif.Model.Outcome
import Verif.Model.Aloha

/-!
# Model of `model/mac/crdsa-mac-model.{h,cc}` and `model/mac/private/busy-period.h`

Time is a natural number of ticks.  `frameLen` is `m_slotDuration * GetSlotsPerFrame ()`.
-/

set_option autoImplicit false

namespace Icarus
namespace Crdsa
open Aloha (Frame Rx schedule Op)

/-! ## Sending -/

/-- `SetSlotsPerFrame` (model/mac/crdsa-mac-model.cc:137-150): the slot table. -/
def slotTable (n : Nat) : List Nat := List.range n

/-- `GetSelectedSlots` (model/mac/crdsa-mac-model.cc:152-162): `shuffled` is the slot table after `std::shuffle` (it stays shuffled),
`k` the number of replicas.  Copying more elements than there are reads outside the vector. -/
def getSelectedSlots (shuffled : List Nat) (k : Nat) : Outcome (List Nat) :=
  if k ≤ shuffled.length then .ok (shuffled.take k) else .ub .outOfRange

/-- `Send` (model/mac/crdsa-mac-model.cc:164-190): delay until the next frame boundary.  The quotient is the 64.64 fixed-point quotient of
ns-3 (`Aloha.quotient`). -/
def frameDelay (now slotDur slots : Nat) : Nat :=
  if slots > 0 ∧ slotDur > 0 then
    if (Aloha.quotient now (slotDur * slots)).2 > 0 then
      ((Aloha.quotient now (slotDur * slots)).1 + 1) * slotDur * slots - now
    else 0
  else 0

/-- `Send`: delays after which `StartPacketTx` runs, in the order scheduled (model/mac/crdsa-mac-model.cc:182-189). -/
def sendDelays (now slotDur : Nat) (shuffled : List Nat) (k : Nat) : Outcome (List Nat) := do
  let selected ← getSelectedSlots shuffled k
  .ok (selected.map (fun slot => frameDelay now slotDur shuffled.length + slot * slotDur))

/-- `ReplicasDistroPolynomial::NumReplicasPerPacket` (model/mac/crdsa-mac-model.h:48-64): the loop from coefficient `n` on, `acc` being
`coeffSum`; `p` is the uniform sample. -/
def replicaLoop {K : Type} [Zero K] [Add K] [LT K] [DecidableLT K] (p : K) : Nat → K → List K → Outcome Nat
  | _, _, [] => .abort
  | n, acc, c :: cs => if 0 < c ∧ p < acc + c then .ok n else replicaLoop p (n + 1) (acc + c) cs

/-- `NumReplicasPerPacket` for the coefficient vector `coeffs` (entry 0 is skipped; the constructor asserts that there are at least two
entries and that entry 0 is zero, model/mac/crdsa-mac-model.h:41-46).  Simplification: exact arithmetic; at most 65536 coefficients
(the result is a `uint16_t`). -/
def numReplicas {K : Type} [Zero K] [Add K] [LT K] [DecidableLT K] [DecidableEq K] (debug : Bool) (coeffs : List K) (p : K) :
    Outcome Nat :=
  match coeffs with
  | [] => if debug then .assertFail else .abort
  | [_] => if debug then .assertFail else .abort
  | c0 :: cs => do
    Outcome.nsAssert debug (c0 == 0)
    replicaLoop p 1 0 cs

/-! ## Receiving -/

/-- `BusyPeriod` (model/mac/private/busy-period.h:35-69): finish time and the uids of the collided packets.  Simplification: the
`std::map` from uid to callback is the list of its keys; the callbacks of replicas of one packet are considered equal. -/
structure Period where
  finish : Nat
  pkts : List Nat
  deriving DecidableEq, Repr

/-- Receiver state (model/mac/crdsa-mac-model.h:92-104).  `rx` are the four busy-period members shared with the Aloha receiver, `collided`
is `m_busyPeriodCollidedPackets`, `periods` is `m_activeBusyPeriods`, `received` is `m_activeReceivedPackets` (uid, time). -/
structure St (P : Type) where
  rx : Rx P
  collided : List Nat
  periods : List Period
  received : List (Nat × Nat)
  deriving DecidableEq, Repr

/-- A new receiver (model/mac/crdsa-mac-model.cc:105-115). -/
def St.init {P : Type} : St P := ⟨Rx.init, [], [], []⟩

/-- `m_activeReceivedPackets.find (uid) != end ()` -/
def has (received : List (Nat × Nat)) (uid : Nat) : Bool := received.any (fun r => r.1 == uid)

/-- `std::map::insert` on the key list: no effect when the key is present. -/
def insertKey (u : Nat) (l : List Nat) : List Nat := if l.contains u then l else l ++ [u]

section
variable {P : Type} [Zero P] [Add P]

/-- `StartPacketRx` (model/mac/crdsa-mac-model.cc:319-351): lines 325-346 are the same as in the Aloha receiver. -/
def startRx (s : St P) (f : Frame P) : St P :=
  ⟨Aloha.startRx s.rx f, insertKey f.uid s.collided, s.periods, s.received⟩

end

/-- `CleanActiveBusyPeriods` (model/mac/crdsa-mac-model.cc:210-219): erase everything before the first period with a finish time after the
limit. -/
def cleanPeriods (limit : Int) (ps : List Period) : List Period := ps.dropWhile (fun p => !decide ((p.finish : Int) > limit))

/-- `CleanActiveReceivedPackets` (model/mac/crdsa-mac-model.cc:221-237). -/
def cleanReceived (limit : Int) (rs : List (Nat × Nat)) : List (Nat × Nat) := rs.filter (fun r => !decide ((r.2 : Int) < limit))

/-- First loop of `MakeInterferenceCancellation` (model/mac/crdsa-mac-model.cc:247-267): every period loses its received packets. -/
def prune (received : List (Nat × Nat)) (ps : List Period) : List Period :=
  ps.map (fun p => ⟨p.finish, p.pkts.filter (fun u => !has received u)⟩)

/-- The packets recovered in a pass: the only packet of each period with exactly one packet left. -/
def singles (ps : List Period) : List Nat :=
  ps.filterMap (fun p => match p.pkts with | [u] => some u | _ => none)

/-- Positions of the periods without packets, in increasing order (`emptyPeriods`); `i` is the position of the first list element. -/
def emptyPositions : Nat → List Period → List Nat
  | _, [] => []
  | i, p :: ps => if p.pkts.isEmpty then i :: emptyPositions (i + 1) ps else emptyPositions (i + 1) ps

/-- Second loop of `MakeInterferenceCancellation` (model/mac/crdsa-mac-model.cc:269-272): `std::vector::erase` at each remembered iterator.
Erasing at a position invalidates the iterators at and after it, and the positions are increasing, so a second erase uses an
invalidated iterator. -/
def eraseAt (ps : List Period) : List Nat → Outcome (List Period)
  | [] => .ok ps
  | [i] => .ok (ps.eraseIdx i)
  | _ :: _ :: _ => .ub .invalidIterator

/-- `MakeInterferenceCancellation` (model/mac/crdsa-mac-model.cc:239-278): remaining periods and recovered packets.  `strict = true` is the
code; `strict = false` is the same function with the second loop replaced by removal of all empty periods (what the code intends). -/
def mic (strict : Bool) (ps : List Period) (received : List (Nat × Nat)) : Outcome (List Period × List Nat) :=
  let ps' := prune received ps
  if strict then do
    let left ← eraseAt ps' (emptyPositions 0 ps')
    .ok (left, singles ps')
  else .ok (ps'.filter (fun p => !p.pkts.isEmpty), singles ps')

/-- Inner loop of `FinishReception` (model/mac/crdsa-mac-model.cc:401-410): recovered packets not yet received are recorded and passed up. -/
def passUp (now : Nat) : List Nat → List (Nat × Nat) → List (Nat × Nat) × List Nat
  | [], received => (received, [])
  | u :: us, received =>
    if has received u then passUp now us received
    else
      let r := passUp now us (received ++ [(u, now)])
      (r.1, u :: r.2)

/-- The `while` loop of `FinishReception` (model/mac/crdsa-mac-model.cc:397-412), at most `fuel` iterations; result: remaining periods,
received packets, packets passed up in order. -/
def cancel (strict : Bool) (now : Nat) : Nat → List Period → List (Nat × Nat) → Outcome (List Period × List (Nat × Nat) × List Nat)
  | 0, _, _ => .ub .diverged
  | fuel + 1, ps, received =>
    match mic strict ps received with
    | .ub f => .ub f
    | .abort => .abort
    | .assertFail => .assertFail
    | .ok (ps', recovered) =>
      if recovered.isEmpty then .ok (ps', received, [])
      else
        let (received', out) := passUp now recovered received
        match cancel strict now fuel ps' received' with
        | .ub f => .ub f
        | .abort => .abort
        | .assertFail => .assertFail
        | .ok (ps'', received'', out') => .ok (ps'', received'', out ++ out')

/-- Enough iterations for the `while` loop (`C24_terminates`). -/
def fuelFor (ps : List Period) : Nat := (ps.map (fun p => p.pkts.length)).sum + 1

section
variable {P : Type} [Zero P] [Add P]

/-- `has_collided` (model/mac/crdsa-mac-model.cc:358-366), as in the Aloha receiver. -/
def hasCollided (lost : P → P → Bool) (rx : Rx P) (f : Frame P) : Bool :=
  rx.collision && (match rx.interf with | some i => lost f.pow i | none => false)

/-- First part of `FinishReception` (model/mac/crdsa-mac-model.cc:368-386): a frame not lost in a collision is passed up unless its uid has
been received before. -/
def receiveOwn (now : Nat) (collided : Bool) (uid : Nat) (received : List (Nat × Nat)) : List (Nat × Nat) × List Nat :=
  if collided then (received, [])
  else if has received uid then (received, [])
  else (received ++ [(uid, now)], [uid])

/-- `FinishReception` (model/mac/crdsa-mac-model.cc:353-424) of frame `f`: new state and the uids passed up, in order. -/
def finishRx (strict : Bool) (lost : P → P → Bool) (frameLen : Nat) (s : St P) (f : Frame P) : Outcome (St P × List Nat) :=
  let now := f.fin
  let collided := hasCollided lost s.rx f
  let (received, own) := receiveOwn now collided f.uid s.received
  if s.rx.uid = some f.uid then
    let periods := if collided then s.periods ++ [⟨s.rx.finish, s.collided⟩] else s.periods
    let limit : Int := (now : Int) - 2 * (frameLen : Int)
    let periods := cleanPeriods limit periods
    let received := cleanReceived limit received
    match cancel strict now (fuelFor periods) periods received with
    | .ub e => .ub e
    | .abort => .abort
    | .assertFail => .assertFail
    | .ok (periods, received, out) => .ok (⟨⟨none, now, false, some 0⟩, [], periods, received⟩, own ++ out)
  else .ok (⟨s.rx, s.collided, s.periods, received⟩, own)

/-- Simulator view of one receiver, as for Aloha. -/
structure Sys (P : Type) where
  clock : Nat
  st : St P
  pending : List (Frame P)
  delivered : List (Nat × Nat)
  deriving DecidableEq

def Sys.init : Sys P := ⟨0, St.init, [], []⟩

/-- One simulator step (`none`: not possible); `ties` as in `Aloha.step`. -/
def step (strict ties : Bool) (lost : P → P → Bool) (frameLen : Nat) (s : Sys P) : Op P → Option (Outcome (Sys P))
  | .arrive f =>
    if s.clock ≤ f.start ∧ ∀ g ∈ s.pending, f.start < g.fin ∨ ties = true ∧ f.start = g.fin then
      some (.ok ⟨f.start, startRx s.st f, schedule f s.pending, s.delivered⟩)
    else none
  | .finish =>
    match s.pending with
    | [] => none
    | f :: rest =>
      match finishRx strict lost frameLen s.st f with
      | .ub e => some (.ub e)
      | .abort => some .abort
      | .assertFail => some .assertFail
      | .ok (st, out) => some (.ok ⟨f.fin, st, rest, s.delivered ++ out.map (fun u => (f.fin, u))⟩)

/-- Executing a list of operations; stops at the first abnormal outcome. -/
def execFrom (strict ties : Bool) (lost : P → P → Bool) (frameLen : Nat) : Sys P → List (Op P) → Option (Outcome (Sys P))
  | s, [] => some (.ok s)
  | s, o :: os =>
    match step strict ties lost frameLen s o with
    | none => none
    | some (.ok s') => execFrom strict ties lost frameLen s' os
    | some (.ub e) => some (.ub e)
    | some .abort => some .abort
    | some .assertFail => some .assertFail

def exec (strict ties : Bool) (lost : P → P → Bool) (frameLen : Nat) (ops : List (Op P)) : Option (Outcome (Sys P)) :=
  execFrom strict ties lost frameLen Sys.init ops

end

end Crdsa
end Icarus
