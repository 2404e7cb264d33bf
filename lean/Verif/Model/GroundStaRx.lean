import Verif.Model.SatAddress
import Verif.Model.Machine

/-!
# Model of `model/ground-sta-net-device.cc` : receiving and the tracked address, and of the URI kept by `model/ndn/ground-sta-transport.cc`
-/

set_option autoImplicit false

namespace Icarus
namespace GroundStaRx

/-- A frame passed to the protocols of the node (arguments of `m_promiscReceiveCallback` and `m_receiveCallback`). -/
structure Up where
  pkt : Nat
  src : SatAddress.Address
  proto : UInt16
  deriving DecidableEq, Repr

/-- The receiving side: `m_remoteAddress`, the scheduled `ReceiveFromSatFinish` events, reports of the `PhyRxBegin` trace, and frames passed
up, with their times. -/
structure Sys where
  clock : Nat
  remote : SatAddress
  pending : List (Nat × Up)
  begun : List (Nat × Nat)
  delivered : List (Nat × Up)
  deriving DecidableEq, Repr

def Sys.init (remote : SatAddress) : Sys := ⟨0, remote, [], [], []⟩

/-- Calls from outside at time `t` (`ReceiveFromSat`, scheduled by the channel; `SetRemoteAddress`) and the next scheduled event.  `len`: the
transmission time of the frame. -/
inductive Op where
  | arrive (t pkt len : Nat) (src : SatAddress.Address) (proto : UInt16)
  | setRemote (t : Nat) (a : SatAddress)
  | run
  deriving DecidableEq, Repr

def possible (s : Sys) (t : Nat) : Prop := s.clock ≤ t ∧ ∀ e ∈ s.pending, t ≤ e.1

instance (s : Sys) (t : Nat) : Decidable (possible s t) := by unfold possible; infer_instance

/-- `ReceiveFromSat` (model/ground-sta-net-device.cc:218-234). -/
def receiveFromSat (debug : Bool) (e : Endian) (ty : UInt8) (s : Sys) (t pkt len : Nat) (src : SatAddress.Address) (proto : UInt16) :
    Outcome Sys := do
  let a ← SatAddress.convertFrom debug e ty src
  if a.eq e s.remote then
    .ok { s with clock := t, begun := s.begun ++ [(t, pkt)], pending := insertEvent (t + len) ⟨pkt, src, proto⟩ s.pending }
  else .ok { s with clock := t }

/-- The event at the head of the list is `ReceiveFromSatFinish` (model/ground-sta-net-device.cc:236-251). -/
def step (debug : Bool) (e : Endian) (ty : UInt8) (s : Sys) : Op → Option (Outcome Sys)
  | .arrive t pkt len src proto => if possible s t then some (receiveFromSat debug e ty s t pkt len src proto) else none
  | .setRemote t a => if possible s t then some (.ok { s with clock := t, remote := a }) else none
  | .run =>
    match s.pending with
    | [] => none
    | (t, u) :: es => some (.ok { s with clock := t, pending := es, delivered := s.delivered ++ [(t, u)] })

def exec (debug : Bool) (e : Endian) (ty : UInt8) (remote : SatAddress) (ops : List Op) : Option (Outcome Sys) :=
  runFrom (step debug e ty) (Sys.init remote) ops

/-! ## The tracked address and its observers -/

/-- A notification by the signal `remoteAddressChange`: what `GetRemoteAddress` returns during the call, and the two arguments. -/
structure Note where
  held : SatAddress
  old : SatAddress
  new : SatAddress
  deriving DecidableEq, Repr

/-- `m_remoteAddress`, all notifications so far, and the remote URI of the transport (`none`: not created yet).  Simplification: one
transport per device; it outlives the device's calls (its handler captures a reference to it). -/
structure Track where
  remote : SatAddress
  notes : List Note
  uri : Option (List Char)
  deriving DecidableEq, Repr

/-- A new device: the default of the attribute `RemoteAddress` is `SatAddress (0, 0, 0)` (model/ground-sta-net-device.cc:186-189). -/
def Track.init (e : Endian) : Track := ⟨SatAddress.mk3 e 0 0 0, [], none⟩

/-- The text given to the constructor of the transport (helper/icarus-helper.cc:516-517). -/
def defaultUri : List Char := "satdev://[0000:0000:0000]".toList

/-- `updateRemoteUri` (model/ndn/ground-sta-transport.cc:153-160).  `boost::lexical_cast` prints to a fresh stream. -/
def uriOf (e : Endian) (a : SatAddress) : List Char := "satdev://[".toList ++ (a.print e {}).1 ++ [']']

/-- `SetRemoteAddress (const SatAddress &)` (model/ground-sta-net-device.cc:301-311): the signal is emitted before the assignment.  The handler
of the transport is connected by its constructor (model/ndn/ground-sta-transport.cc:76-77). -/
def setRemoteAddress (e : Endian) (s : Track) (a : SatAddress) : Track :=
  let s := if s.remote.eq e a then s
    else { s with notes := s.notes ++ [⟨s.remote, s.remote, a⟩], uri := s.uri.map (fun _ => uriOf e a) }
  { s with remote := a }

/-- Calls: `SetRemoteAddress`, creation of the transport (helper/icarus-helper.cc:501-525), writing the attribute `RemoteAddress`, which
assigns the member directly (model/ground-sta-net-device.cc:186-189). -/
inductive Call where
  | set (a : SatAddress)
  | newTransport
  | writeAttr (a : SatAddress)
  deriving DecidableEq, Repr

def call (e : Endian) (s : Track) : Call → Track
  | .set a => setRemoteAddress e s a
  | .newTransport => { s with uri := some defaultUri }
  | .writeAttr a => { s with remote := a }

def calls (e : Endian) (s : Track) (cs : List Call) : Track := cs.foldl (call e) s

end GroundStaRx
end Icarus
