import Verif.Model.Machine
import Verif.Model.SatAddress

/-!
# Model of `model/ndn/ground-sta-transport.cc` and `model/ndn/sat2ground-transport.cc`

The transports of one node, with what the node and the devices keep about them: protocol handlers and signal connections that hold a
reference to the transport.  ns-3's `Node` and NFD's base class `Transport` are not part of the repository; what the code uses of them is
modelled: a handler is called when its device, its protocol number and its promiscuous flag match; `Transport::send` hands a packet to `doSend`
unless the transport is closed; `Transport::close` calls `doClose` unless it is closed; `Transport::receive` has no test of the state.
-/

set_option autoImplicit false

namespace Icarus
namespace Transport

/-- The two types of device that get a transport of this repository, and any other. -/
inductive Kind where
  | groundSta | sat2ground | other
  deriving DecidableEq, Repr

/-- An entry of the protocol handlers of the node: `target` is the transport whose `receiveFromNetDevice` is called. -/
structure Handler (D : Type) where
  device : D
  proto : UInt16
  promisc : Bool
  target : Nat
  deriving DecidableEq, Repr

/-- A transport: its device, whether its state is CLOSED, whether the object still exists, and the packets given to `receive`. -/
structure Obj (D P : Type) where
  device : D
  closed : Bool
  alive : Bool
  got : List P
  deriving DecidableEq, Repr

/-- The node: transports created (in order), protocol handlers, connections to `remoteAddressChange` of the devices, tracked addresses,
and the calls of `NetDevice::Send`: the transport that makes it (ghost), device, packet, protocol number. -/
structure Sys (D P : Type) where
  objs : List (Obj D P)
  handlers : List (Handler D)
  slots : List (D × Nat)
  remote : D → SatAddress
  sent : List (Nat × D × P × UInt16)

def Sys.init {D P : Type} (remote : D → SatAddress) : Sys D P := ⟨[], [], [], remote, []⟩

/-- `L3Protocol::ETHERNET_FRAME_TYPE` of ndnSIM. -/
def frameType : UInt16 := 0x7777

variable {D P : Type} [DecidableEq D]

/-- The constructors (model/ndn/ground-sta-transport.cc:36-82, model/ndn/sat2ground-transport.cc:40-83), `k` says which.  `DynamicCast` gives a null pointer for
a device of another type; it is dereferenced (line 50) before it is tested (line 73).  Simplification: what is set for the base class
(URIs, MTU, ...) is left out; the queue capacity is in `capacity`. -/
def construct (kindOf : D → Kind) (s : Sys D P) (k : Kind) (d : D) : Outcome (Sys D P) :=
  if k = .other ∨ kindOf d ≠ k then .ub .nullDeref
  else
    let i := s.objs.length
    .ok { s with
      objs := s.objs ++ [⟨d, false, true, []⟩]
      slots := if k = .groundSta then s.slots ++ [(d, i)] else s.slots
      handlers := s.handlers ++ [⟨d, frameType, true, i⟩] }

/-- `receiveFromNetDevice` called on transport `i` (model/ndn/ground-sta-transport.cc:131-145, model/ndn/sat2ground-transport.cc:130-144): the packet is
taken out of the frame and given to `receive`. -/
def receiveFromNetDevice (i : Nat) (p : P) (objs : List (Obj D P)) : Outcome (List (Obj D P)) :=
  match objs[i]? with
  | none => .ub .useAfterFree
  | some o => if o.alive then .ok (objs.set i { o with got := o.got ++ [p] }) else .ub .useAfterFree

/-- `Node::ReceiveFromDevice` (ns-3): the handlers are looked at in order. -/
def receiveFromDevice (d : D) (proto : UInt16) (promisc : Bool) (p : P) : List (Handler D) → List (Obj D P) → Outcome (List (Obj D P))
  | [], objs => .ok objs
  | h :: hs, objs =>
    if h.device = d ∧ (h.proto = 0 ∨ h.proto = proto) ∧ h.promisc = promisc then
      match receiveFromNetDevice h.target p objs with
      | .ok objs => receiveFromDevice d proto promisc p hs objs
      | .ub f => .ub f
      | .abort => .abort
      | .assertFail => .assertFail
    else receiveFromDevice d proto promisc p hs objs

/-- The end of a reception (model/ground-sta-net-device.cc:246-250, model/sat2ground-net-device.cc:218-222): the promiscuous callback, then the other one.
ns-3's `Node` sets the latter in `AddDevice`, and the former when a promiscuous handler is registered. -/
def passUp (s : Sys D P) (d : D) (proto : UInt16) (p : P) : Outcome (Sys D P) := do
  let objs ← receiveFromDevice d proto true p s.handlers s.objs
  let objs ← receiveFromDevice d proto false p s.handlers objs
  .ok { s with objs }

/-- The handlers of `remoteAddressChange` (model/ndn/ground-sta-transport.cc:76-77): `updateRemoteUri` is called on each transport connected to `d`. -/
def notify (d : D) (objs : List (Obj D P)) : List (D × Nat) → Outcome Unit
  | [] => .ok ()
  | (d', i) :: rest =>
    if d' = d then
      match objs[i]? with
      | none => .ub .useAfterFree
      | some o => if o.alive then notify d objs rest else .ub .useAfterFree
    else notify d objs rest

/-- `SetRemoteAddress` (model/ground-sta-net-device.cc:301-311). -/
def setRemoteAddress (e : Endian) (s : Sys D P) (d : D) (a : SatAddress) : Outcome (Sys D P) :=
  if (s.remote d).eq e a then .ok { s with remote := fun x => if x = d then a else s.remote x }
  else do
    notify d s.objs s.slots
    .ok { s with remote := fun x => if x = d then a else s.remote x }

/-- What can happen: a face is created, closed or destroyed, NFD sends a packet on it, a device passes a frame up, a ground station tracks
another satellite. -/
inductive Op (D P : Type) where
  | create (k : Kind) (d : D)
  | close (i : Nat)
  | destroy (i : Nat)
  | send (i : Nat) (p : P)
  | frame (d : D) (proto : UInt16) (p : P)
  | track (d : D) (a : SatAddress)
  deriving DecidableEq, Repr

/-- One step.  NFD uses only transports that exist.  `doClose` (model/ndn/ground-sta-transport.cc:106-113, model/ndn/sat2ground-transport.cc:106-112) sets the state, the destructors
(84-87) do nothing, `doSend` (115-128; 114-127) gives the packet to the device and ignores the result. -/
def step (e : Endian) (kindOf : D → Kind) (s : Sys D P) : Op D P → Option (Outcome (Sys D P))
  | .create k d => some (construct kindOf s k d)
  | .close i =>
    match s.objs[i]? with
    | none => none
    | some o => if o.alive then some (.ok { s with objs := s.objs.set i { o with closed := true } }) else none
  | .destroy i =>
    match s.objs[i]? with
    | none => none
    | some o => if o.alive then some (.ok { s with objs := s.objs.set i { o with alive := false } }) else none
  | .send i p =>
    match s.objs[i]? with
    | none => none
    | some o =>
      if o.alive then some (.ok (if o.closed then s else { s with sent := s.sent ++ [(i, o.device, p, frameType)] })) else none
  | .frame d proto p => some (passUp s d proto p)
  | .track d a => some (setRemoteAddress e s d a)

def exec (e : Endian) (kindOf : D → Kind) (remote : D → SatAddress) (ops : List (Op D P)) : Option (Outcome (Sys D P)) :=
  runFrom (step e kindOf) (Sys.init remote) ops

/-! ## Queue capacity -/

/-- Unit of a queue's `MaxSize`. -/
inductive SizeUnit where
  | bytes | packets
  deriving DecidableEq, Repr

/-- The part of the constructors that tells NFD the capacity of the device's queue (model/ndn/ground-sta-transport.cc:52-69,
model/ndn/sat2ground-transport.cc:56-73): `QueueSize::GetValue` is a `uint32_t`, and so is its product with 1500.  The attribute `TxQueue` exists
in every device but its pointer may be null. -/
def capacity (queue : Option (SizeUnit × UInt32)) : Outcome Nat := do
  let (u, v) ← Outcome.deref queue
  match u with
  | .bytes => .ok v.toNat
  | .packets => .ok (v * 1500).toNat

end Transport
end Icarus
