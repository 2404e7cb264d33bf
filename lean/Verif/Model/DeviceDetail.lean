import Verif.Model.GroundSta
import Verif.Model.SatDevices

/-!
# The sending devices with packet objects, packet tags and trace sources

The models of `Verif.Model.GroundSta` and `Verif.Model.SatDevices` keep the tag of a packet with its queue entry.  Here a packet is an object
that callers may offer again; the queue holds packets, and the tags belong to the packet.  Calls of the trace sources are recorded.

ns-3 (not part of the repository): `Packet::AddPacketTag` puts the tag in front of the tags of the packet and asserts, in debug builds, that
there is none of the same type; `PeekPacketTag` reads the newest tag of the type and leaves its argument as it is if there is none;
`RemovePacketTag` removes the newest tag of the type, if any.

Simplifications: the packets are used by one device; the data rate is constant (`len p` is the transmission time of packet `p`).
-/

set_option autoImplicit false

namespace Icarus

/-- Trace sources of the sending side (model/icarus-net-device.cc:44-113, model/sat-net-device.cc:46-113). -/
inductive TxTrace where
  | macTx
  | macTxDrop
  | sniffer
  | phyTxBegin
  | phyTxEnd
  deriving DecidableEq, Repr

/-- Calls of one source: (time, packet). -/
def TxTrace.calls (k : TxTrace) (l : List (Nat × TxTrace × Nat)) : List (Nat × Nat) :=
  l.filterMap (fun e => if e.2.1 = k then some (e.1, e.2.2) else none)

/-- `packet->AddPacketTag (tag)` for the tags of one type. -/
def addTag {T : Type} (debug : Bool) (tags : Nat → List T) (p : Nat) (t : T) : Outcome (Nat → List T) := do
  Outcome.nsAssert debug (tags p).isEmpty
  .ok (fun q => if q = p then t :: tags p else tags q)

/-- `packet->RemovePacketTag (tag)`. -/
def removeTag {T : Type} (tags : Nat → List T) (p : Nat) : Nat → List T :=
  fun q => if q = p then (tags p).tail else tags q

/-- `packet->PeekPacketTag (tag)` followed by the use of the members; the protocol number and the power of a new tag object are not
initialised (model/ground-sta-net-device.cc:119-123, model/sat2ground-net-device.cc:100-104). -/
def peekTag {T : Type} (tags : Nat → List T) (p : Nat) : Outcome T :=
  match tags p with
  | [] => .ub .uninitialised
  | t :: _ => .ok t

namespace GroundStaDetail
open GroundSta (Entry Ev Mac scheduleStarts)

variable {W : Type}

/-- Contents of `GroundSatTag`. -/
structure Tag (W : Type) where
  dst : SatAddress
  proto : UInt16
  power : W
  deriving DecidableEq, Repr

/-- As `GroundSta.Sys`, but the queue holds packets, and `tags` are the `GroundSatTag`s of each packet. -/
structure Sys (W : Type) where
  clock : Nat
  remote : SatAddress
  power : W
  queue : List Nat
  busy : Bool
  events : List (Nat × Ev W)
  tags : Nat → List (Tag W)
  handed : List (Nat × Entry W)
  aired : List (Nat × Entry W)
  trace : List (Nat × TxTrace × Nat)

def Sys.init (remote : SatAddress) (power : W) : Sys W := ⟨0, remote, power, [], false, [], fun _ => [], [], [], []⟩

/-- The transmit lambda of `TransmitStart` (model/ground-sta-net-device.cc:406-411); the destination, protocol number and power were captured
when the lambda was made. -/
def air (s : Sys W) (now : Nat) (x : Entry W) : Sys W :=
  { s with
    trace := s.trace ++ [(now, TxTrace.sniffer, x.pkt), (now, TxTrace.phyTxBegin, x.pkt)]
    aired := s.aired ++ [(now, x)]
    events := insertEvent (now + x.len) (.finish x) s.events }

def macSend (mac : Mac) (s : Sys W) (now : Nat) (x : Entry W) : Sys W :=
  if mac.sync then air { s with handed := s.handed ++ [(now, x)] } now x
  else { s with handed := s.handed ++ [(now, x)], events := scheduleStarts now x (mac.delays s.handed.length now) s.events }

/-- `TransmitStart` (model/ground-sta-net-device.cc:388-416). -/
def transmitStart (debug : Bool) (mac : Mac) (len : Nat → Nat) (s : Sys W) (now : Nat) : Outcome (Sys W) := do
  Outcome.nsAssert debug (!s.busy)
  match s.queue with
  | [] => .ub .nullDeref
  | p :: rest =>
    let tag ← peekTag s.tags p
    .ok (macSend mac { s with busy := true, queue := rest } now ⟨p, len p, tag.dst, tag.proto, tag.power⟩)

/-- `Send` (model/ground-sta-net-device.cc:361-386). -/
def send (debug : Bool) (mac : Mac) (len : Nat → Nat) (accept : List Nat → Nat → Bool) (s : Sys W) (now p : Nat) (proto : UInt16) :
    Outcome (Sys W) := do
  let tags ← addTag debug s.tags p ⟨s.remote, proto, s.power⟩
  let s := { s with clock := now, tags := tags, trace := s.trace ++ [(now, TxTrace.macTx, p)] }
  if accept s.queue p = false then .ok { s with trace := s.trace ++ [(now, TxTrace.macTxDrop, p)] }
  else
    let s := { s with queue := s.queue ++ [p] }
    if s.busy then .ok s else transmitStart debug mac len s now

/-- The finish lambda and `TransmitComplete` (model/ground-sta-net-device.cc:412-415, 418-431). -/
def transmitComplete (debug : Bool) (mac : Mac) (len : Nat → Nat) (s : Sys W) (now p : Nat) : Outcome (Sys W) :=
  let s := { s with trace := s.trace ++ [(now, TxTrace.phyTxEnd, p)], tags := removeTag s.tags p, busy := false }
  if s.queue.isEmpty then .ok s else transmitStart debug mac len s now

inductive Op (W : Type) where
  | send (t p : Nat) (proto : UInt16)
  | setRemote (t : Nat) (a : SatAddress)
  | setPower (t : Nat) (w : W)
  | run
  deriving DecidableEq, Repr

def possible (s : Sys W) (t : Nat) : Prop := s.clock ≤ t ∧ ∀ e ∈ s.events, t ≤ e.1

instance (s : Sys W) (t : Nat) : Decidable (possible s t) := by unfold possible; infer_instance

def step (debug : Bool) (mac : Mac) (len : Nat → Nat) (accept : List Nat → Nat → Bool) (s : Sys W) : Op W → Option (Outcome (Sys W))
  | .send t p proto => if possible s t then some (send debug mac len accept s t p proto) else none
  | .setRemote t a => if possible s t then some (.ok { s with clock := t, remote := a }) else none
  | .setPower t w => if possible s t then some (.ok { s with clock := t, power := w }) else none
  | .run =>
    match s.events with
    | [] => none
    | (t, .start x) :: es => some (.ok (air { s with clock := t, events := es } t x))
    | (t, .finish x) :: es => some (transmitComplete debug mac len { s with clock := t, events := es } t x.pkt)

def exec (debug : Bool) (mac : Mac) (len : Nat → Nat) (accept : List Nat → Nat → Bool) (remote : SatAddress) (power : W) (ops : List (Op W)) :
    Option (Outcome (Sys W)) :=
  runFrom (step debug mac len accept) (Sys.init remote power) ops

end GroundStaDetail

namespace Sat2GroundDetail
open Sat2Ground (Entry)

variable {W : Type}

/-- Contents of `SatGroundTag` that are set. -/
structure Tag (W : Type) where
  proto : UInt16
  power : W
  deriving DecidableEq, Repr

/-- As `Sat2Ground.Sys`, with packets in the queue and in the scheduled `TransmitComplete` events. -/
structure Sys (W : Type) where
  clock : Nat
  power : W
  queue : List Nat
  busy : Bool
  events : List (Nat × Nat)
  tags : Nat → List (Tag W)
  aired : List (Nat × Entry W)
  trace : List (Nat × TxTrace × Nat)

def Sys.init (power : W) : Sys W := ⟨0, power, [], false, [], fun _ => [], [], []⟩

/-- `TransmitStart` (model/sat2ground-net-device.cc:330-350). -/
def transmitStart (debug : Bool) (len : Nat → Nat) (s : Sys W) (now : Nat) : Outcome (Sys W) := do
  Outcome.nsAssert debug s.busy
  match s.queue with
  | [] => .ub .nullDeref
  | p :: rest =>
    let tag ← peekTag s.tags p
    .ok { s with
      queue := rest
      trace := s.trace ++ [(now, TxTrace.sniffer, p), (now, TxTrace.phyTxBegin, p)]
      aired := s.aired ++ [(now, ⟨p, len p, tag.proto, tag.power⟩)]
      events := insertEvent (now + len p) p s.events }

/-- `Send` (model/sat2ground-net-device.cc:302-328). -/
def send (debug : Bool) (len : Nat → Nat) (accept : List Nat → Nat → Bool) (s : Sys W) (now p : Nat) (proto : UInt16) : Outcome (Sys W) := do
  let tags ← addTag debug s.tags p ⟨proto, s.power⟩
  let s := { s with clock := now, tags := tags, trace := s.trace ++ [(now, TxTrace.macTx, p)] }
  if accept s.queue p = false then .ok { s with trace := s.trace ++ [(now, TxTrace.macTxDrop, p)] }
  else
    let s := { s with queue := s.queue ++ [p] }
    if s.busy then .ok s else transmitStart debug len { s with busy := true } now

/-- `TransmitComplete` (model/sat2ground-net-device.cc:352-370). -/
def transmitComplete (debug : Bool) (len : Nat → Nat) (s : Sys W) (now p : Nat) : Outcome (Sys W) :=
  let s := { s with trace := s.trace ++ [(now, TxTrace.phyTxEnd, p)], tags := removeTag s.tags p }
  if s.queue.isEmpty then .ok { s with busy := false } else transmitStart debug len s now

inductive Op (W : Type) where
  | send (t p : Nat) (proto : UInt16)
  | setPower (t : Nat) (w : W)
  | run
  deriving DecidableEq, Repr

def possible (s : Sys W) (t : Nat) : Prop := s.clock ≤ t ∧ ∀ e ∈ s.events, t ≤ e.1

instance (s : Sys W) (t : Nat) : Decidable (possible s t) := by unfold possible; infer_instance

def step (debug : Bool) (len : Nat → Nat) (accept : List Nat → Nat → Bool) (s : Sys W) : Op W → Option (Outcome (Sys W))
  | .send t p proto => if possible s t then some (send debug len accept s t p proto) else none
  | .setPower t w => if possible s t then some (.ok { s with clock := t, power := w }) else none
  | .run =>
    match s.events with
    | [] => none
    | (t, p) :: es => some (transmitComplete debug len { s with clock := t, events := es } t p)

def exec (debug : Bool) (len : Nat → Nat) (accept : List Nat → Nat → Bool) (power : W) (ops : List (Op W)) : Option (Outcome (Sys W)) :=
  runFrom (step debug len accept) (Sys.init power) ops

end Sat2GroundDetail

namespace SatNetDetail
open SatNet (Entry)

/-- As `SatNet.Sys` without its logs, with the packet in the scheduled `TransmitComplete` events, and with the calls of the trace sources.
There are no tags. -/
structure Sys where
  clock : Nat
  queue : List Nat
  busy : Bool
  events : List (Nat × Nat × UInt16)
  aired : List (Nat × Nat × UInt16)
  trace : List (Nat × TxTrace × Nat)
  deriving DecidableEq, Repr

def Sys.init : Sys := ⟨0, [], false, [], [], []⟩

/-- `TransmitStart` (model/sat-net-device.cc:147-158). -/
def transmitStart (debug : Bool) (len : Nat → Nat) (s : Sys) (now p : Nat) (proto : UInt16) : Outcome Sys := do
  Outcome.nsAssert debug (!s.busy)
  .ok { s with
    busy := true
    trace := s.trace ++ [(now, TxTrace.phyTxBegin, p)]
    aired := s.aired ++ [(now, p, proto)]
    events := insertEvent (now + len p) (p, proto) s.events }

/-- `TransmitComplete` (model/sat-net-device.cc:160-174). -/
def transmitComplete (debug : Bool) (len : Nat → Nat) (s : Sys) (now p : Nat) (proto : UInt16) : Outcome Sys :=
  let s := { s with trace := s.trace ++ [(now, TxTrace.phyTxEnd, p)], busy := false }
  match s.queue with
  | [] => .ok s
  | q :: rest => transmitStart debug len { s with queue := rest, trace := s.trace ++ [(now, TxTrace.sniffer, q)] } now q proto

/-- `Send` (model/sat-net-device.cc:372-396). -/
def send (debug : Bool) (len : Nat → Nat) (accept : List Nat → Nat → Bool) (s : Sys) (now p : Nat) (proto : UInt16) : Outcome Sys :=
  let s := { s with clock := now, trace := s.trace ++ [(now, TxTrace.macTx, p)] }
  if accept s.queue p = false then .ok { s with trace := s.trace ++ [(now, TxTrace.macTxDrop, p)] }
  else
    let s := { s with queue := s.queue ++ [p] }
    if s.busy then .ok s
    else
      match s.queue with
      | [] => .ok s
      | q :: rest => transmitStart debug len { s with queue := rest, trace := s.trace ++ [(now, TxTrace.sniffer, q)] } now q proto

inductive Op where
  | send (t p : Nat) (proto : UInt16)
  | run
  deriving DecidableEq, Repr

def possible (s : Sys) (t : Nat) : Prop := s.clock ≤ t ∧ ∀ e ∈ s.events, t ≤ e.1

instance (s : Sys) (t : Nat) : Decidable (possible s t) := by unfold possible; infer_instance

def step (debug : Bool) (len : Nat → Nat) (accept : List Nat → Nat → Bool) (s : Sys) : Op → Option (Outcome Sys)
  | .send t p proto => if possible s t then some (send debug len accept s t p proto) else none
  | .run =>
    match s.events with
    | [] => none
    | (t, p, proto) :: es => some (transmitComplete debug len { s with clock := t, events := es } t p proto)

def exec (debug : Bool) (len : Nat → Nat) (accept : List Nat → Nat → Bool) (ops : List Op) : Option (Outcome Sys) :=
  runFrom (step debug len accept) Sys.init ops

end SatNetDetail
end Icarus
