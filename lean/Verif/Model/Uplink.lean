import Verif.Model.GroundSta
import Verif.Model.GroundSatChannel
import Verif.Model.NoneMac
import Verif.Model.Crdsa
import Mathlib.Logic.Function.Basic
import Mathlib.Data.Fintype.Defs
import Mathlib.Data.Fintype.Basic

/-!
# Composition: ground stations, ground-satellite channel, satellites receiving

All stations (`Verif.Model.GroundSta`), the channel (`Verif.Model.GroundSatChannel`) and the MAC receivers of all satellites run in one simulator.
`G` are ground devices, `D` satellite devices, `V` positions, `W` powers in dBm, `P` powers in milliwatt, `R` receiver states.

Simplification: the simulator runs events in order of time; events of *different* devices that are due at the same time may run in any
order here (ns-3 runs them in the order they were scheduled, which is one of these orders).
-/

set_option autoImplicit false

namespace Icarus
namespace Uplink
open GroundSatChannel Aloha

/-- A MAC receiver (`MacModel::StartPacketRx` and the events it schedules): initial state, steps, due times of its scheduled events in order,
calls of `net_device_cb` so far (time, frame), and how it tells frames apart (position among all frames heard, packet uid). -/
structure Receiver (P R : Type) where
  init : R
  step : R → Aloha.Op P → Option (Outcome R)
  due : R → List Nat
  delivered : R → List (Nat × Nat)
  key : Nat → Nat → Nat

/-- `NoneMacModel` as a receiver: each frame has its own callback. -/
def noneReceiver (P : Type) : Receiver P (NoneMac.Sys P) :=
  ⟨⟨0, [], []⟩, fun r o => (NoneMac.step r o).map .ok, fun s => s.pending.map Frame.fin, NoneMac.Sys.delivered, fun i _ => i⟩

/-- `AlohaMacModel` as a receiver, with events and arrivals of the same instant in any order.  Simplification: it compares packet uids, so this is
the model if no packet arrives twice. -/
def alohaReceiver {P : Type} [Zero P] [Add P] (lost : P → P → Bool) : Receiver P (Aloha.Sys P) :=
  ⟨Aloha.Sys.init, fun r o => (Aloha.step true lost r o).map .ok, fun s => s.pending.map Frame.fin, Aloha.Sys.delivered, fun i _ => i⟩

/-- `CrdsaMacModel` as a receiver with frames of `frameLen` ticks; replicas are known by the uid of their packet. -/
def crdsaReceiver {P : Type} [Zero P] [Add P] (lost : P → P → Bool) (frameLen : Nat) : Receiver P (Crdsa.Sys P) :=
  ⟨Crdsa.Sys.init, Crdsa.step true true lost frameLen, fun s => s.pending.map Frame.fin, Crdsa.Sys.delivered, fun _ u => u⟩

/-- Arguments of `ReceiveFromGround`: packet, its transmission time, source address, protocol number, received power. -/
structure Flight (W : Type) where
  pkt : Nat
  len : Nat
  src : SatAddress.Address
  proto : UInt16
  power : W
  deriving DecidableEq, Repr

/-- The network: build mode, byte order, the channel and what it sees at each time, and for each station its address, MAC, queue, and the
initial tracked address and power; the satellites' MAC (all of one kind; the assertion of model/sat2ground-net-device.cc:198 that there is
one holds), and the conversion of powers done by it. -/
structure Net (D G V W P R : Type) where
  debug : Bool
  endian : Endian
  chan : Chan D G
  air : Nat → Air D G V W
  addr : G → SatAddress.Address
  mac : G → GroundSta.Mac
  accept : G → List (GroundSta.Entry W) → GroundSta.Entry W → Bool
  remote : G → SatAddress
  power : G → W
  rx : Receiver P R
  toP : W → P

/-- Clock, stations, scheduled `ReceiveFromGround` events, satellites' receivers; then what has happened: all calls of `ReceiveFromGround`
with their times, and reports of the `PhyTxDrop` trace of the channel (time, packet). -/
structure Sys (D G W R : Type) where
  clock : Nat
  stations : G → GroundSta.Sys W
  flying : List (Nat × D × Flight W)
  sats : D → R
  heard : List (Nat × D × Flight W)
  dropped : List (Nat × Nat)

variable {D G V W P R : Type}

def Sys.init (net : Net D G V W P R) : Sys D G W R :=
  ⟨0, fun g => GroundSta.Sys.init (net.remote g) (net.power g), [], fun _ => net.rx.init, [], []⟩

/-- What the channel did, at time `t`. -/
def applyEffect (t : Nat) (a : List (Nat × D × Flight W) × List (Nat × Nat)) : Effect D G W (Nat × Nat) →
    List (Nat × D × Flight W) × List (Nat × Nat)
  | .drop f => (a.1, a.2 ++ [(t, f.1)])
  | .toSat d after f src proto power => (insertEvent (t + after) (d, ⟨f.1, f.2, src, proto, power⟩) a.1, a.2)
  | .toGround _ _ _ _ _ _ => a

/-- The calls of `Transmit2Sat` that a step of station `g` makes (model/ground-sta-net-device.cc:409-410). -/
def transmitAll (net : Net D G V W P R) (g : G) : List (Nat × GroundSta.Entry W) → List (Nat × D × Flight W) × List (Nat × Nat) →
    Outcome (List (Nat × D × Flight W) × List (Nat × Nat))
  | [], a => .ok a
  | (t, x) :: xs, a => do
    let r ← transmit2Sat net.debug net.endian net.chan (net.air t) (x.pkt, x.len) x.len g (net.addr g) x.dst x.proto x.power
    transmitAll net g xs (r.1.foldl (applyEffect t) a)

/-- What can happen: a call or an event at a station, the next `ReceiveFromGround`, the next event of a satellite's receiver. -/
inductive Op (D G W : Type) where
  | station (g : G) (o : GroundSta.Op W)
  | arrive
  | finish (d : D)
  deriving DecidableEq

/-- Scheduled events, as opposed to calls of the devices from outside. -/
def Op.internal : Op D G W → Bool
  | .station _ .run => true
  | .station _ _ => false
  | .arrive => true
  | .finish _ => true

/-- When a station's operation takes place. -/
def opTime (s : GroundSta.Sys W) : GroundSta.Op W → Option Nat
  | .send t _ _ _ => some t
  | .setRemote t _ => some t
  | .setPower t _ => some t
  | .run => s.events.head?.map Prod.fst

/-- Nothing is scheduled before `t`. -/
def due (net : Net D G V W P R) (s : Sys D G W R) (t : Nat) : Prop :=
  s.clock ≤ t ∧ (∀ g, ∀ e ∈ (s.stations g).events, t ≤ e.1) ∧ (∀ e ∈ s.flying, t ≤ e.1) ∧ ∀ d, ∀ u ∈ net.rx.due (s.sats d), t ≤ u

instance [Fintype G] [Fintype D] (net : Net D G V W P R) (s : Sys D G W R) (t : Nat) : Decidable (due net s t) := by
  unfold due; infer_instance

variable [Fintype G] [Fintype D] [DecidableEq G] [DecidableEq D]

/-- One simulator step.  `arrive` is `ReceiveFromGround` (model/sat2ground-net-device.cc:193-205): it gives the packet, its duration and power to
`StartPacketRx`. -/
def step (net : Net D G V W P R) (s : Sys D G W R) : Op D G W → Option (Outcome (Sys D G W R))
  | .station g o =>
    match opTime (s.stations g) o with
    | none => none
    | some t =>
      if due net s t then
        match GroundSta.step net.debug (net.mac g) (net.accept g) (s.stations g) o with
        | none => none
        | some r => some (do
          let st ← r
          let a ← transmitAll net g (st.aired.drop (s.stations g).aired.length) (s.flying, s.dropped)
          .ok { s with clock := t, stations := Function.update s.stations g st, flying := a.1, dropped := a.2 })
      else none
  | .arrive =>
    match s.flying with
    | [] => none
    | (t, d, f) :: rest =>
      if due net s t then
        match net.rx.step (s.sats d) (.arrive ⟨net.rx.key s.heard.length f.pkt, t, f.len, net.toP f.power⟩) with
        | none => none
        | some r => some (do
          let r ← r
          .ok { s with clock := t, flying := rest, sats := Function.update s.sats d r, heard := s.heard ++ [(t, d, f)] })
      else none
  | .finish d =>
    match net.rx.due (s.sats d) with
    | [] => none
    | t :: _ =>
      if due net s t then
        match net.rx.step (s.sats d) .finish with
        | none => none
        | some r => some (do
          let r ← r
          .ok { s with clock := t, sats := Function.update s.sats d r })
      else none

def exec (net : Net D G V W P R) (ops : List (Op D G W)) : Option (Outcome (Sys D G W R)) := runFrom (step net) (Sys.init net) ops

omit [Fintype G] [Fintype D] [DecidableEq G] [DecidableEq D] in
/-- What satellite `d` passed to the protocols of its node (`ReceiveFromGroundFinish`, model/sat2ground-net-device.cc:207-223): the callback of
each delivered frame, with its time; for receivers that tell frames apart by position. -/
def passedUp (net : Net D G V W P R) (s : Sys D G W R) (d : D) : List (Nat × Flight W) :=
  (net.rx.delivered (s.sats d)).filterMap (fun y => (s.heard[y.2]?).map (fun h => (y.1, h.2.2)))

end Uplink
end Icarus
