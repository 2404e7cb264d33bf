import Verif.Model.Uplink
import Verif.Model.Downlink
import Verif.Model.IslNet

/-!
# Composition: the whole network

Uplink (`Verif.Model.Uplink`), downlink (`Verif.Model.Downlink`) and inter-satellite links (`Verif.Model.IslNet`) in one simulator, with one
ground-satellite channel for both directions and one tracked address per station.  `G` are ground nodes (one ground device each), `D` satellites (one
ground-facing device each), `E` inter-satellite devices.

What the nodes do with received packets (applications, NDN forwarding) is arbitrary: calls of `Send` come from outside, at any node, at any time.

Simplification, as for the parts: events of *different* devices that are due at the same time may run in any order here.
-/

set_option autoImplicit false

namespace Icarus
namespace Network
open GroundSatChannel

/-- The network: what the parts have in common, then ground stations, satellites, and the inter-satellite devices with the satellite that carries
each of them. -/
structure Net (D G E V W P R : Type) where
  debug : Bool
  endian : Endian
  ty : UInt8
  chan : Chan D G
  air : Nat → Air D G V W
  addr : G → SatAddress.Address
  mac : G → GroundSta.Mac
  accept : G → List (GroundSta.Entry W) → GroundSta.Entry W → Bool
  remote : G → SatAddress
  power : G → W
  rx : Uplink.Receiver P R
  toP : W → P
  satAddr : D → SatAddress
  satAccept : D → List (Sat2Ground.Entry W) → Sat2Ground.Entry W → Bool
  satPower : D → W
  isl : IslNet.Net E
  own : E → D

variable {D G E V W P R : Type}

/-- The uplink: stations send, satellites receive. -/
def Net.up (net : Net D G E V W P R) : Uplink.Net D G V W P R :=
  ⟨net.debug, net.endian, net.chan, net.air, net.addr, net.mac, net.accept, net.remote, net.power, net.rx, net.toP⟩

/-- The downlink: satellites send, stations receive. -/
def Net.down (net : Net D G E V W P R) : Downlink.Net D G V W :=
  ⟨net.debug, net.endian, net.ty, net.chan, net.air, net.satAddr, net.satAccept, net.satPower, net.remote⟩

structure Sys (D G E W R : Type) where
  up : Uplink.Sys D G W R
  down : Downlink.Sys D G W
  isl : IslNet.Sys E

def Sys.init (net : Net D G E V W P R) : Sys D G E W R := ⟨Uplink.Sys.init net.up, Downlink.Sys.init net.down, IslNet.Sys.init⟩

/-- Calls and events of a station's sending side; `SetRemoteAddress`, which concerns both sides of a station
(model/ground-sta-net-device.cc:301-311); the next arrival at a satellite; the next event of a satellite's receiver; calls and events of a satellite's
sending side; the next arrival at a station; the next event of a station's receiving side; calls and events of inter-satellite devices. -/
inductive Op (D G E W : Type) where
  | send (g : G) (t pkt len : Nat) (proto : UInt16)
  | setPower (g : G) (t : Nat) (w : W)
  | run (g : G)
  | track (g : G) (t : Nat) (a : SatAddress)
  | upArrive
  | upFinish (d : D)
  | sat (d : D) (o : Sat2Ground.Op W)
  | downArrive
  | downFinish (g : G)
  | isl (o : IslNet.Op E)
  deriving DecidableEq

/-- What an operation is for the uplink. -/
def toUp : Op D G E W → Option (Uplink.Op D G W)
  | .send g t pkt len proto => some (.station g (.send t pkt len proto))
  | .setPower g t w => some (.station g (.setPower t w))
  | .run g => some (.station g .run)
  | .track g t a => some (.station g (.setRemote t a))
  | .upArrive => some .arrive
  | .upFinish d => some (.finish d)
  | _ => none

/-- What an operation is for the downlink. -/
def toDown : Op D G E W → Option (Downlink.Op D G W)
  | .track g t a => some (.track g t a)
  | .sat d o => some (.sat d o)
  | .downArrive => some .arrive
  | .downFinish g => some (.finish g)
  | _ => none

/-- What an operation is for the inter-satellite links. -/
def toIsl : Op D G E W → Option (IslNet.Op E)
  | .isl o => some o
  | _ => none

/-- When an operation takes place: the time of a call, or of the event it runs. -/
def time (net : Net D G E V W P R) (s : Sys D G E W R) : Op D G E W → Option Nat
  | .send _ t _ _ _ => some t
  | .setPower _ t _ => some t
  | .run g => (s.up.stations g).events.head?.map Prod.fst
  | .track _ t _ => some t
  | .upArrive => s.up.flying.head?.map Prod.fst
  | .upFinish d => (net.rx.due (s.up.sats d)).head?
  | .sat d o => Downlink.opTime (s.down.sats d) o
  | .downArrive => s.down.flying.head?.map Prod.fst
  | .downFinish g => (s.down.stations g).pending.head?.map Prod.fst
  | .isl (.tx e o) => IslNet.opTime (s.isl.tx e) o
  | .isl .arrive => s.isl.flying.head?.map Prod.fst
  | .isl (.finish e) => (s.isl.rx e).pending.head?.map Prod.fst

/-- A part of the network takes its part in an operation. -/
def part {S O : Type} (step : S → O → Option (Outcome S)) (s : S) : Option O → Option (Outcome S)
  | none => some (.ok s)
  | some o => step s o

variable [Fintype G] [Fintype D] [Fintype E] [DecidableEq G] [DecidableEq D] [DecidableEq E]

/-- One simulator step: nothing is scheduled earlier anywhere in the network, and every part that is concerned makes its step. -/
def step (net : Net D G E V W P R) (s : Sys D G E W R) (o : Op D G E W) : Option (Outcome (Sys D G E W R)) :=
  match time net s o with
  | none => none
  | some t =>
    if Uplink.due net.up s.up t ∧ Downlink.due s.down t ∧ IslNet.due s.isl t then
      match part (Uplink.step net.up) s.up (toUp o), part (Downlink.step net.down) s.down (toDown o), part (IslNet.step net.isl) s.isl (toIsl o) with
      | some a, some b, some c => some (do
        let a ← a
        let b ← b
        let c ← c
        .ok ⟨a, b, c⟩)
      | _, _, _ => none
    else none

def exec (net : Net D G E V W P R) (ops : List (Op D G E W)) : Option (Outcome (Sys D G E W R)) := runFrom (step net) (Sys.init net) ops

end Network
end Icarus
