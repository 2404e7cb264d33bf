import Verif.Model.GroundStaRx
import Verif.Model.SatDevices
import Verif.Model.Uplink
import Verif.Model.HelperConfig

/-!
# The receiving devices with trace sources and callbacks, and ASCII trace files

The models of `Verif.Model.GroundStaRx`, `Verif.Model.SatDevices` and `Verif.Model.Uplink` keep what is passed up.  Here every call of a trace source and
of a callback of the receiving side is recorded, in order.

ns-3 (not part of the repository): calling a null `Callback` dereferences a null pointer.  `Node::AddDevice` sets the receive callback.
-/

set_option autoImplicit false

namespace Icarus

/-- Trace sources of the receiving side (model/icarus-net-device.cc:80-113, model/sat-net-device.cc:83-116) and the two callbacks. -/
inductive RxTrace where
  | phyRxBegin
  | phyRxEnd
  | sniffer
  | macRx
  | promisc
  | receive
  deriving DecidableEq, Repr

namespace RxDetail

/-- A record of calls: time, which one, what was received. -/
abbrev Log (X : Type) := List (Nat × RxTrace × X)

/-- Which callbacks have been set (`SetPromiscReceiveCallback`, `SetReceiveCallback`; model/icarus-net-device.cc:230-244, model/sat-net-device.cc:432-446). -/
structure Callbacks where
  promisc : Bool
  receive : Bool
  deriving DecidableEq, Repr

/-- `ReceiveFromSatFinish` (model/ground-sta-net-device.cc:236-251), `ReceiveFromGroundFinish` (model/sat2ground-net-device.cc:207-223) and
`ReceiveFinish` (model/sat-net-device.cc:217-236) make the same calls. -/
def finish {X : Type} (cb : Callbacks) (now : Nat) (x : X) (log : Log X) : Outcome (Log X) := do
  let log := log ++ [(now, .phyRxEnd, x)]
  let log := log ++ [(now, .sniffer, x)]
  let log := log ++ [(now, .macRx, x)]
  let log := if cb.promisc then log ++ [(now, .promisc, x)] else log
  if cb.receive then .ok (log ++ [(now, .receive, x)]) else .ub .nullDeref

/-! ## Ground station -/

namespace Ground
open GroundStaRx (Op Up)

/-- As `GroundStaRx.Sys`, with the record of calls. -/
structure Sys where
  clock : Nat
  remote : SatAddress
  pending : List (Nat × Up)
  log : Log Up
  deriving DecidableEq, Repr

def possible (s : Sys) (t : Nat) : Prop := s.clock ≤ t ∧ ∀ e ∈ s.pending, t ≤ e.1

instance (s : Sys) (t : Nat) : Decidable (possible s t) := by unfold possible; infer_instance

/-- `ReceiveFromSat` (model/ground-sta-net-device.cc:218-234). -/
def receiveFromSat (debug : Bool) (e : Endian) (ty : UInt8) (s : Sys) (t pkt len : Nat) (src : SatAddress.Address) (proto : UInt16) :
    Outcome Sys := do
  let s := { s with clock := t }
  let a ← SatAddress.convertFrom debug e ty src
  if a.eq e s.remote = false then .ok s
  else
    let s := { s with log := s.log ++ [(t, RxTrace.phyRxBegin, (⟨pkt, src, proto⟩ : Up))] }
    .ok { s with pending := insertEvent (t + len) ⟨pkt, src, proto⟩ s.pending }

def step (debug : Bool) (e : Endian) (ty : UInt8) (cb : Callbacks) (s : Sys) : Op → Option (Outcome Sys)
  | .arrive t pkt len src proto => if possible s t then some (receiveFromSat debug e ty s t pkt len src proto) else none
  | .setRemote t a => if possible s t then some (.ok { s with clock := t, remote := a }) else none
  | .run =>
    match s.pending with
    | [] => none
    | (t, u) :: es => some (do
      let log ← finish cb t u s.log
      .ok { s with clock := t, pending := es, log := log })

def exec (debug : Bool) (e : Endian) (ty : UInt8) (cb : Callbacks) (remote : SatAddress) (ops : List Op) : Option (Outcome Sys) :=
  runFrom (step debug e ty cb) ⟨0, remote, [], []⟩ ops

end Ground

/-! ## Satellite, from the ground -/

namespace Sat
open Uplink (Receiver)

/-- The MAC receiver and the record of calls; a frame is known by the name its receiver uses. -/
structure Sys (R : Type) where
  rx : R
  log : Log Nat

variable {P R : Type}

/-- The closures called by the receiver in one step, in order (model/sat2ground-net-device.cc:203-204). -/
def finishAll (cb : Callbacks) : List (Nat × Nat) → Log Nat → Outcome (Log Nat)
  | [], log => .ok log
  | (t, k) :: ys, log => do
    let log ← finish cb t k log
    finishAll cb ys log

/-- The call of a trace source by `ReceiveFromGround`, before `StartPacketRx` (model/sat2ground-net-device.cc:200). -/
def begin (log : Log Nat) : Aloha.Op P → Log Nat
  | .arrive f => log ++ [(f.start, .phyRxBegin, f.uid)]
  | .finish => log

/-- `ReceiveFromGround` (model/sat2ground-net-device.cc:193-205) and the events of the MAC. -/
def step (cb : Callbacks) (m : Receiver P R) (s : Sys R) (o : Aloha.Op P) : Option (Outcome (Sys R)) :=
  let log := begin s.log o
  match m.step s.rx o with
  | none => none
  | some r => some (do
    let r ← r
    let log ← finishAll cb ((m.delivered r).drop (m.delivered s.rx).length) log
    .ok ⟨r, log⟩)

def exec (cb : Callbacks) (m : Receiver P R) (ops : List (Aloha.Op P)) : Option (Outcome (Sys R)) := runFrom (step cb m) ⟨m.init, []⟩ ops

end Sat

/-! ## Satellite, from another satellite -/

namespace Isl
open SatNet (RxOp)

/-- As `SatNet.RxSys`, with the record of calls. -/
structure Sys where
  clock : Nat
  pending : List (Nat × Nat × UInt16)
  log : Log (Nat × UInt16)
  deriving DecidableEq, Repr

/-- `Receive` (model/sat-net-device.cc:207-215) and `ReceiveFinish` (lines 217-236). -/
def step (cb : Callbacks) (s : Sys) : RxOp → Option (Outcome Sys)
  | .arrive t pkt len proto =>
    if s.clock ≤ t ∧ ∀ e ∈ s.pending, t ≤ e.1 then
      let s := { s with clock := t, log := s.log ++ [(t, RxTrace.phyRxBegin, (pkt, proto))] }
      some (.ok { s with pending := insertEvent (t + len) (pkt, proto) s.pending })
    else none
  | .run =>
    match s.pending with
    | [] => none
    | (t, u) :: es => some (do
      let log ← finish cb t u s.log
      .ok ⟨t, es, log⟩)

def exec (cb : Callbacks) (ops : List RxOp) : Option (Outcome Sys) := runFrom (step cb) ⟨0, [], []⟩ ops

end Isl

/-! ## ASCII trace files -/

namespace Ascii
open HelperConfig

/-- What a line of the file reports: a trace source of the device or of its queue. -/
inductive Source where
  | device (trace : String)
  | queue (trace : String)
  deriving DecidableEq, Repr

/-- The letter of the line and the trace source it is written for. -/
abbrev Hook := Char × Source

/-- `AsciiTraceHelper::HookDefault…SinkWithoutContext`: an assertion that the trace source exists; without assertions nothing is connected.  `c` is
the class of the object. -/
def hook {V : Type} (debug : Bool) (c : Cls V) (letter : Char) (src : String → Source) (trace : String) : Outcome (List Hook) := do
  Outcome.nsAssert debug (c.hasTrace trace)
  .ok (if c.hasTrace trace then [(letter, src trace)] else [])

/-- `Config::Connect` on a path that leads to `found`.  `strict`: the version of ns-3 stops when nothing matches; otherwise nothing is connected. -/
def connect {V : Type} (strict : Bool) (found : Option (Cls V)) (letter : Char) (src : String → Source) (trace : String) : Outcome (List Hook) :=
  match found with
  | some c => if c.hasTrace trace then .ok [(letter, src trace)] else if strict then .abort else .ok []
  | none => if strict then .abort else .ok []

/-- Without a stream (helper/icarus-helper.cc:388-427, helper/isl-helper.cc:311-350): hooks on the device and on the queue `GetQueue` returns. -/
def toFile {V : Type} (debug : Bool) (c : Cls V) (queue : Option (Cls V)) : Outcome (List Hook) := do
  let r ← hook debug c 'r' .device "MacRx"
  let q ← Outcome.deref queue
  let e ← hook debug q '+' .queue "Enqueue"
  let d ← hook debug q 'd' .queue "Drop"
  let u ← hook debug q '-' .queue "Dequeue"
  .ok (r ++ e ++ d ++ u)

/-- With a stream (helper/icarus-helper.cc:440-477, helper/isl-helper.cc:363-396): paths through `$ns3::name`, which lead on if the device is of that
class, and through the attribute `TxQueue`, the pointer that `SetQueue` assigns. -/
def toStream {V : Type} (strict : Bool) (c : Cls V) (queue : Option (Cls V)) (name : String) : Outcome (List Hook) := do
  let dev := if c.isA name then some c else none
  let q := dev.bind (fun d => if (d.attr "TxQueue").isSome then queue else none)
  let r ← connect strict dev 'r' .device "MacRx"
  let e ← connect strict q '+' .queue "Enqueue"
  let u ← connect strict q '-' .queue "Dequeue"
  let d ← connect strict q 'd' .queue "Drop"
  .ok (r ++ e ++ u ++ d)

/-- `IcarusHelper::EnableAsciiInternal` (helper/icarus-helper.cc:359-478): `none` when the device is not of this helper.  `c`: class of the device;
`queue`: class of its queue, `none` if it has none.  File names and the text of the lines are not modelled. -/
def icarusAscii {V : Type} (debug strict : Bool) (c : Cls V) (queue : Option (Cls V)) (stream : Bool) : Outcome (Option (List Hook)) :=
  if c.isA "ns3::icarus::IcarusNetDevice" = false then .ok none
  else if stream = false then do
    let h ← toFile debug c queue
    .ok (some h)
  else do
    let name ← if c.isA "ns3::icarus::GroundStaNetDevice" then Outcome.ok "ns3::icarus::GroundStaNetDevice"
      else do
        Outcome.nsAssert debug (c.isA "ns3::icarus::Sat2GroundNetDevice")
        Outcome.ok "ns3::icarus::Sat2GroundNetDevice"
    let h ← toStream strict c queue name
    .ok (some h)

/-- `ISLHelper::EnableAsciiInternal` (helper/isl-helper.cc:281-396). -/
def islAscii {V : Type} (debug strict : Bool) (c : Cls V) (queue : Option (Cls V)) (stream : Bool) : Outcome (Option (List Hook)) :=
  if c.isA "ns3::icarus::SatNetDevice" = false then .ok none
  else if stream = false then do
    let h ← toFile debug c queue
    .ok (some h)
  else do
    let h ← toStream strict c queue "ns3::icarus::SatNetDevice"
    .ok (some h)

end Ascii
end RxDetail
end Icarus
