import Verif.Model.Machine

/-!
# Models of the sending sides of `model/sat2ground-net-device.cc` and `model/sat-net-device.cc`

`W` are powers.  As for the ground station, `len` is the transmission time of a packet (constant data rate), and `accept q x` is the
result of `Enqueue` of a queue that holds `q`.
-/

set_option autoImplicit false

namespace Icarus
namespace Sat2Ground

variable {W : Type}

/-- A queued packet with the protocol number and power of its `SatGroundTag` (model/sat2ground-net-device.cc:46-153). -/
structure Entry (W : Type) where
  pkt : Nat
  len : Nat
  proto : UInt16
  power : W
  deriving DecidableEq, Repr

/-- The device: transmission power, queue, `m_txMachineState == BUSY`, scheduled `TransmitComplete` events; then what has happened: packets
accepted and refused by `Send`, calls of `Transmit2Ground`. -/
structure Sys (W : Type) where
  clock : Nat
  power : W
  queue : List (Entry W)
  busy : Bool
  events : List (Nat × Entry W)
  accepted : List (Nat × Entry W)
  refused : List (Nat × Entry W)
  aired : List (Nat × Entry W)
  deriving DecidableEq, Repr

def Sys.init (power : W) : Sys W := ⟨0, power, [], false, [], [], [], []⟩

/-- `TransmitStart` (model/sat2ground-net-device.cc:330-350). -/
def transmitStart (debug : Bool) (s : Sys W) (now : Nat) : Outcome (Sys W) := do
  Outcome.nsAssert debug s.busy
  match s.queue with
  | [] => .ub .nullDeref
  | x :: rest =>
    .ok { s with queue := rest, aired := s.aired ++ [(now, x)], events := insertEvent (now + x.len) x s.events }

/-- `Send` (model/sat2ground-net-device.cc:302-328). -/
def send (debug : Bool) (accept : List (Entry W) → Entry W → Bool) (s : Sys W) (now pkt len : Nat) (proto : UInt16) : Outcome (Sys W) :=
  let x : Entry W := ⟨pkt, len, proto, s.power⟩
  if accept s.queue x = false then .ok { s with clock := now, refused := s.refused ++ [(now, x)] }
  else
    let s := { s with clock := now, queue := s.queue ++ [x], accepted := s.accepted ++ [(now, x)] }
    if s.busy then .ok s else transmitStart debug { s with busy := true } now

/-- `TransmitComplete` (model/sat2ground-net-device.cc:352-370). -/
def transmitComplete (debug : Bool) (s : Sys W) (now : Nat) : Outcome (Sys W) :=
  if s.queue.isEmpty then .ok { s with busy := false } else transmitStart debug s now

inductive Op (W : Type) where
  | send (t pkt len : Nat) (proto : UInt16)
  | setPower (t : Nat) (w : W)
  | run
  deriving DecidableEq, Repr

def possible (s : Sys W) (t : Nat) : Prop := s.clock ≤ t ∧ ∀ e ∈ s.events, t ≤ e.1

instance (s : Sys W) (t : Nat) : Decidable (possible s t) := by unfold possible; infer_instance

def step (debug : Bool) (accept : List (Entry W) → Entry W → Bool) (s : Sys W) : Op W → Option (Outcome (Sys W))
  | .send t pkt len proto => if possible s t then some (send debug accept s t pkt len proto) else none
  | .setPower t w => if possible s t then some (.ok { s with clock := t, power := w }) else none
  | .run =>
    match s.events with
    | [] => none
    | (t, _) :: es => some (transmitComplete debug { s with clock := t, events := es } t)

def exec (debug : Bool) (accept : List (Entry W) → Entry W → Bool) (power : W) (ops : List (Op W)) : Option (Outcome (Sys W)) :=
  runFrom (step debug accept) (Sys.init power) ops

end Sat2Ground

namespace SatNet

/-- A queued packet; `proto` is the protocol number it was given to `Send` with, which the device does not store. -/
structure Entry where
  pkt : Nat
  len : Nat
  proto : UInt16
  deriving DecidableEq, Repr

/-- The device: queue, `m_txMachineState == TRANSMITTING`, scheduled `TransmitComplete` events with their `protocolNumber` argument; packets
accepted by `Send` (with whether the device was transmitting at that moment) and refused; calls of `Sat2SatChannel::TransmitStart`
with the protocol number passed. -/
structure Sys where
  clock : Nat
  queue : List Entry
  busy : Bool
  events : List (Nat × UInt16)
  accepted : List (Nat × Entry × Bool)
  refused : List (Nat × Entry)
  aired : List (Nat × Entry × UInt16)
  deriving DecidableEq, Repr

def Sys.init : Sys := ⟨0, [], false, [], [], [], []⟩

/-- `TransmitStart` (model/sat-net-device.cc:147-158); the channel returns the transmission time. -/
def transmitStart (debug : Bool) (s : Sys) (now : Nat) (x : Entry) (proto : UInt16) : Outcome Sys := do
  Outcome.nsAssert debug (!s.busy)
  .ok { s with busy := true, aired := s.aired ++ [(now, x, proto)], events := insertEvent (now + x.len) proto s.events }

/-- `TransmitComplete` (model/sat-net-device.cc:160-174). -/
def transmitComplete (debug : Bool) (s : Sys) (now : Nat) (proto : UInt16) : Outcome Sys :=
  let s := { s with busy := false }
  match s.queue with
  | [] => .ok s
  | x :: rest => transmitStart debug { s with queue := rest } now x proto

/-- `Send` (model/sat-net-device.cc:372-396). -/
def send (debug : Bool) (accept : List Entry → Entry → Bool) (s : Sys) (now pkt len : Nat) (proto : UInt16) : Outcome Sys :=
  let x : Entry := ⟨pkt, len, proto⟩
  if accept s.queue x = false then .ok { s with clock := now, refused := s.refused ++ [(now, x)] }
  else
    let s := { s with clock := now, queue := s.queue ++ [x], accepted := s.accepted ++ [(now, x, s.busy)] }
    if s.busy then .ok s
    else
      match s.queue with
      | [] => .ok s
      | y :: rest => transmitStart debug { s with queue := rest } now y proto

inductive Op where
  | send (t pkt len : Nat) (proto : UInt16)
  | run
  deriving DecidableEq, Repr

def possible (s : Sys) (t : Nat) : Prop := s.clock ≤ t ∧ ∀ e ∈ s.events, t ≤ e.1

instance (s : Sys) (t : Nat) : Decidable (possible s t) := by unfold possible; infer_instance

def step (debug : Bool) (accept : List Entry → Entry → Bool) (s : Sys) : Op → Option (Outcome Sys)
  | .send t pkt len proto => if possible s t then some (send debug accept s t pkt len proto) else none
  | .run =>
    match s.events with
    | [] => none
    | (t, proto) :: es => some (transmitComplete debug { s with clock := t, events := es } t proto)

def exec (debug : Bool) (accept : List Entry → Entry → Bool) (ops : List Op) : Option (Outcome Sys) :=
  runFrom (step debug accept) Sys.init ops

/-! ## Receiving -/

/-- Receiving side (model/sat-net-device.cc:207-236): `Receive` schedules `ReceiveFinish` after the transmission time; there is no filter.
The source passed up is always the unspecified MAC address. -/
structure RxSys where
  clock : Nat
  pending : List (Nat × Nat × UInt16)
  delivered : List (Nat × Nat × UInt16)
  deriving DecidableEq, Repr

inductive RxOp where
  | arrive (t pkt len : Nat) (proto : UInt16)
  | run
  deriving DecidableEq, Repr

def rxStep (s : RxSys) : RxOp → Option (Outcome RxSys)
  | .arrive t pkt len proto =>
    if s.clock ≤ t ∧ ∀ e ∈ s.pending, t ≤ e.1 then
      some (.ok { s with clock := t, pending := insertEvent (t + len) (pkt, proto) s.pending })
    else none
  | .run =>
    match s.pending with
    | [] => none
    | (t, u) :: es => some (.ok ⟨t, es, s.delivered ++ [(t, u)]⟩)

def rxExec (ops : List RxOp) : Option (Outcome RxSys) := runFrom rxStep ⟨0, [], []⟩ ops

end SatNet
end Icarus
