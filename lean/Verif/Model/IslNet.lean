import Verif.Model.SatDevices
import Verif.Model.Sat2SatChannel
import Verif.Model.Machine
import Mathlib.Logic.Function.Basic
import Mathlib.Data.Fintype.Defs
import Mathlib.Data.Fintype.Basic
import Mathlib.Data.Fintype.Prod

/-!
# Composition: inter-satellite devices and their channels

All inter-satellite devices (`SatNet` of `Verif.Model.SatDevices`) and the channels between them (`Verif.Model.Sat2SatChannel`) run in one simulator.
`D` are the devices.

Simplification, as for the uplink: events of *different* devices that are due at the same time may run in any order here.
-/

set_option autoImplicit false

namespace Icarus
namespace IslNet
open Sat2SatChannel

/-- Arguments of `SatNetDevice::Receive`: packet, its transmission time, protocol number. -/
structure Frame where
  pkt : Nat
  len : Nat
  proto : UInt16
  deriving DecidableEq, Repr

/-- The network: build mode; for each device its channel and its queue; the propagation delay model and the success model as functions of time
(`none`: null pointer), evaluated on the positions that the nodes of the two devices have at that time.  All links of one helper use models made by
the same factories (helper/isl-helper.cc:211-216). -/
structure Net (D : Type) where
  debug : Bool
  chan : D → Chan D
  accept : D → List SatNet.Entry → SatNet.Entry → Bool
  delay : Nat → Option (D → D → Nat)
  success : Nat → Option (D → D → Outcome Bool)

/-- Clock, sending sides, scheduled `Receive` events, receiving sides; then what has happened: all calls of `Receive` with their times, and the
reports of the `PhyTxDrop` traces of the channels (time, sending device, packet). -/
structure Sys (D : Type) where
  clock : Nat
  tx : D → SatNet.Sys
  flying : List (Nat × D × Frame)
  rx : D → SatNet.RxSys
  heard : List (Nat × D × Frame)
  dropped : List (Nat × D × Nat)

variable {D : Type}

def Sys.init : Sys D := ⟨0, fun _ => SatNet.Sys.init, [], fun _ => ⟨0, [], []⟩, [], []⟩

/-- What the channel did with a frame of `d`, at time `t`. -/
def applyEffect (t : Nat) (d : D) (a : List (Nat × D × Frame) × List (Nat × D × Nat)) : Effect D (Nat × Nat) →
    List (Nat × D × Frame) × List (Nat × D × Nat)
  | .drop f => (a.1, a.2 ++ [(t, d, f.1)])
  | .rx e after f proto => (insertEvent (t + after) (e, ⟨f.1, f.2, proto⟩) a.1, a.2)

/-- The calls of `Sat2SatChannel::TransmitStart` that a step of device `d` makes (model/sat-net-device.cc:156). -/
def transmitAll [DecidableEq D] (net : Net D) (d : D) : List (Nat × SatNet.Entry × UInt16) →
    List (Nat × D × Frame) × List (Nat × D × Nat) → Outcome (List (Nat × D × Frame) × List (Nat × D × Nat))
  | [], a => .ok a
  | (t, x, proto) :: xs, a => do
    let r ← transmit net.debug (net.chan d) (net.delay t) (net.success t) (x.pkt, x.len) x.len d proto
    transmitAll net d xs (applyEffect t d a r.1)

/-- What can happen: a call or an event at the sending side of a device, the next `Receive`, the next `ReceiveFinish` of a device. -/
inductive Op (D : Type) where
  | tx (d : D) (o : SatNet.Op)
  | arrive
  | finish (d : D)
  deriving DecidableEq

/-- Scheduled events, as opposed to calls of `Send`. -/
def Op.internal : Op D → Bool
  | .tx _ .run => true
  | .tx _ _ => false
  | .arrive => true
  | .finish _ => true

/-- When an operation of a sending side takes place. -/
def opTime (s : SatNet.Sys) : SatNet.Op → Option Nat
  | .send t _ _ _ => some t
  | .run => s.events.head?.map Prod.fst

/-- Nothing is scheduled before `t`. -/
def due (s : Sys D) (t : Nat) : Prop :=
  s.clock ≤ t ∧ (∀ d, ∀ e ∈ (s.tx d).events, t ≤ e.1) ∧ (∀ e ∈ s.flying, t ≤ e.1) ∧ ∀ d, ∀ e ∈ (s.rx d).pending, t ≤ e.1

instance [Fintype D] (s : Sys D) (t : Nat) : Decidable (due s t) := by
  unfold due; infer_instance

variable [Fintype D] [DecidableEq D]

/-- One simulator step. -/
def step (net : Net D) (s : Sys D) : Op D → Option (Outcome (Sys D))
  | .tx d o =>
    match opTime (s.tx d) o with
    | none => none
    | some t =>
      if due s t then
        match SatNet.step net.debug (net.accept d) (s.tx d) o with
        | none => none
        | some r => some (do
          let st ← r
          let a ← transmitAll net d (st.aired.drop (s.tx d).aired.length) (s.flying, s.dropped)
          .ok { s with clock := t, tx := Function.update s.tx d st, flying := a.1, dropped := a.2 })
      else none
  | .arrive =>
    match s.flying with
    | [] => none
    | (t, d, f) :: rest =>
      if due s t then
        match SatNet.rxStep (s.rx d) (.arrive t f.pkt f.len f.proto) with
        | none => none
        | some r => some (do
          let st ← r
          .ok { s with clock := t, flying := rest, rx := Function.update s.rx d st, heard := s.heard ++ [(t, d, f)] })
      else none
  | .finish d =>
    match (s.rx d).pending with
    | [] => none
    | (t, _) :: _ =>
      if due s t then
        match SatNet.rxStep (s.rx d) .run with
        | none => none
        | some r => some (do
          let st ← r
          .ok { s with clock := t, rx := Function.update s.rx d st })
      else none

def exec (net : Net D) (ops : List (Op D)) : Option (Outcome (Sys D)) := runFrom (step net) Sys.init ops

/-! ## The devices that `ISLHelper` makes -/

/-- The devices made for a list of links: two for each, `false` on the node that is named first (helper/isl-helper.cc:217-218). -/
abbrev End {N : Type} (links : List (N × N)) : Type := Fin links.length × Bool

/-- The node that carries a device (`node->AddDevice (device)`, helper/isl-helper.cc:228). -/
def owner {N : Type} (links : List (N × N)) (d : End links) : N := if d.2 then links[d.1].2 else links[d.1].1

/-- `ISLHelper::Install (a, b)` for the link of `d` (helper/isl-helper.cc:204-238): a new channel with its two models, to which the device on the
first node and then the one on the second node are attached.  `hasPos` and `hasOrbit` say which nodes carry a mobility model and whether it is
the circular orbit. -/
def makeChannel {N : Type} (debug : Bool) (hasPos hasOrbit : N → Bool) (links : List (N × N)) (k : Fin links.length) : Outcome (Chan (End links)) :=
  attachAll debug ⟨fun d => hasPos (owner links d), fun d => hasOrbit (owner links d), true⟩ Chan.init [(k, false), (k, true)]

end IslNet
end Icarus
