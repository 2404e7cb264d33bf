import Verif.Model.SatDevices
import Verif.Model.GroundStaRx
import Verif.Model.GroundSatChannel
import Mathlib.Logic.Function.Basic
import Mathlib.Data.Fintype.Defs
import Mathlib.Data.Fintype.Basic

/-!
# Composition: satellites sending, ground-satellite channel, ground stations receiving

All ground-facing satellite devices (`Sat2Ground` of `Verif.Model.SatDevices`), the channel (`Verif.Model.GroundSatChannel`) and the receiving sides
of all stations (`Verif.Model.GroundStaRx`) run in one simulator.  `G` are ground devices, `D` satellite devices, `V` positions, `W` powers.

Simplification, as for the uplink: events of *different* devices that are due at the same time may run in any order here.
-/

set_option autoImplicit false

namespace Icarus
namespace Downlink
open GroundSatChannel

/-- Arguments of `ReceiveFromSat`: packet, its transmission time, source address, protocol number, received power (which the station ignores). -/
structure Flight (W : Type) where
  pkt : Nat
  len : Nat
  src : SatAddress.Address
  proto : UInt16
  power : W
  deriving DecidableEq, Repr

/-- The network: build mode, byte order, the type number of satellite addresses, the channel and what it sees at each time; for each satellite
its address, queue and initial power; for each station the address it tracks at first. -/
structure Net (D G V W : Type) where
  debug : Bool
  endian : Endian
  ty : UInt8
  chan : Chan D G
  air : Nat → Air D G V W
  addr : D → SatAddress
  accept : D → List (Sat2Ground.Entry W) → Sat2Ground.Entry W → Bool
  power : D → W
  remote : G → SatAddress

/-- Clock, satellites, scheduled `ReceiveFromSat` events, stations; then what has happened: all calls of `ReceiveFromSat` with their times, and
reports of the `PhyTxDrop` trace of the channel (time, packet). -/
structure Sys (D G W : Type) where
  clock : Nat
  sats : D → Sat2Ground.Sys W
  flying : List (Nat × G × Flight W)
  stations : G → GroundStaRx.Sys
  heard : List (Nat × G × Flight W)
  dropped : List (Nat × Nat)

variable {D G V W : Type}

def Sys.init (net : Net D G V W) : Sys D G W :=
  ⟨0, fun d => Sat2Ground.Sys.init (net.power d), [], fun g => GroundStaRx.Sys.init (net.remote g), [], []⟩

/-- What the channel did, at time `t`. -/
def applyEffect (t : Nat) (a : List (Nat × G × Flight W) × List (Nat × Nat)) : Effect D G W (Nat × Nat) →
    List (Nat × G × Flight W) × List (Nat × Nat)
  | .drop f => (a.1, a.2 ++ [(t, f.1)])
  | .toGround g after f src proto power => (insertEvent (t + after) (g, ⟨f.1, f.2, src, proto, power⟩) a.1, a.2)
  | .toSat _ _ _ _ _ _ => a

/-- The calls of `Transmit2Ground` that a step of satellite `d` makes (model/sat2ground-net-device.cc:344-345).  The source address is
`GetAddress ()` of the device (model/sat2ground-net-device.cc:243-249). -/
def transmitAll (net : Net D G V W) (d : D) : List (Nat × Sat2Ground.Entry W) → List (Nat × G × Flight W) × List (Nat × Nat) →
    Outcome (List (Nat × G × Flight W) × List (Nat × Nat))
  | [], a => .ok a
  | (t, x) :: xs, a => do
    let r ← transmit2Ground net.chan (net.air t) (x.pkt, x.len) d ((net.addr d).convertTo net.endian net.ty) x.proto x.power
    transmitAll net d xs (r.foldl (applyEffect t) a)

/-- What can happen: a call or an event at a satellite, a call of `SetRemoteAddress` at a station, the next `ReceiveFromSat`, the next
`ReceiveFromSatFinish` of a station. -/
inductive Op (D G W : Type) where
  | sat (d : D) (o : Sat2Ground.Op W)
  | track (g : G) (t : Nat) (a : SatAddress)
  | arrive
  | finish (g : G)
  deriving DecidableEq

/-- Scheduled events, as opposed to calls of the devices from outside. -/
def Op.internal : Op D G W → Bool
  | .sat _ .run => true
  | .sat _ _ => false
  | .track _ _ _ => false
  | .arrive => true
  | .finish _ => true

/-- When a satellite's operation takes place. -/
def opTime (s : Sat2Ground.Sys W) : Sat2Ground.Op W → Option Nat
  | .send t _ _ _ => some t
  | .setPower t _ => some t
  | .run => s.events.head?.map Prod.fst

/-- Nothing is scheduled before `t`. -/
def due (s : Sys D G W) (t : Nat) : Prop :=
  s.clock ≤ t ∧ (∀ d, ∀ e ∈ (s.sats d).events, t ≤ e.1) ∧ (∀ e ∈ s.flying, t ≤ e.1) ∧ ∀ g, ∀ e ∈ (s.stations g).pending, t ≤ e.1

instance [Fintype G] [Fintype D] (s : Sys D G W) (t : Nat) : Decidable (due s t) := by
  unfold due; infer_instance

variable [Fintype G] [Fintype D] [DecidableEq G] [DecidableEq D]

/-- One simulator step. -/
def step (net : Net D G V W) (s : Sys D G W) : Op D G W → Option (Outcome (Sys D G W))
  | .sat d o =>
    match opTime (s.sats d) o with
    | none => none
    | some t =>
      if due s t then
        match Sat2Ground.step net.debug (net.accept d) (s.sats d) o with
        | none => none
        | some r => some (do
          let st ← r
          let a ← transmitAll net d (st.aired.drop (s.sats d).aired.length) (s.flying, s.dropped)
          .ok { s with clock := t, sats := Function.update s.sats d st, flying := a.1, dropped := a.2 })
      else none
  | .track g t a =>
    if due s t then
      match GroundStaRx.step net.debug net.endian net.ty (s.stations g) (.setRemote t a) with
      | none => none
      | some r => some (do
        let st ← r
        .ok { s with clock := t, stations := Function.update s.stations g st })
    else none
  | .arrive =>
    match s.flying with
    | [] => none
    | (t, g, f) :: rest =>
      if due s t then
        match GroundStaRx.step net.debug net.endian net.ty (s.stations g) (.arrive t f.pkt f.len f.src f.proto) with
        | none => none
        | some r => some (do
          let st ← r
          .ok { s with clock := t, flying := rest, stations := Function.update s.stations g st, heard := s.heard ++ [(t, g, f)] })
      else none
  | .finish g =>
    match (s.stations g).pending with
    | [] => none
    | (t, _) :: _ =>
      if due s t then
        match GroundStaRx.step net.debug net.endian net.ty (s.stations g) .run with
        | none => none
        | some r => some (do
          let st ← r
          .ok { s with clock := t, stations := Function.update s.stations g st })
      else none

def exec (net : Net D G V W) (ops : List (Op D G W)) : Option (Outcome (Sys D G W)) := runFrom (step net) (Sys.init net) ops

end Downlink
end Icarus
