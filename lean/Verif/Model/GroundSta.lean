import Verif.Model.SatAddress
import Verif.Model.Machine

/-!
# Model of `model/ground-sta-net-device.cc` : sending

The MAC model is reduced to when it calls `transmit_callback`.  `W` are powers.
-/

set_option autoImplicit false

namespace Icarus
namespace GroundSta

variable {W : Type}

/-- A queued packet with the contents of its `GroundSatTag` (destination, protocol number, power; model/ground-sta-net-device.cc:44-165, see
`Verif.Model.PacketTag` for the serialised form).  `len` is the transmission time of the packet.  Simplifications: the data rate is
constant; each packet object is sent once, so it carries one such tag. -/
structure Entry (W : Type) where
  pkt : Nat
  len : Nat
  dst : SatAddress
  proto : UInt16
  power : W
  deriving DecidableEq, Repr

/-- What `MacModel::Send` does with the `k`-th frame handed to it, at time `t`.  `sync`: `transmit_callback` is called immediately
(`NoneMacModel`, model/mac/none-mac-model.cc:44-52).  Otherwise it is called by events scheduled `delays k t` ticks later: one for Aloha
(model/mac/aloha-mac-model.cc:57-78), one per replica for CRDSA (model/mac/crdsa-mac-model.cc:164-190).  In all models
`finish_callback` is called the duration of the transmission after each `transmit_callback`. -/
structure Mac where
  sync : Bool
  delays : Nat → Nat → List Nat

/-- Scheduled calls of `transmit_callback` and `finish_callback`. -/
inductive Ev (W : Type) where
  | start (x : Entry W)
  | finish (x : Entry W)
  deriving DecidableEq, Repr

/-- The device (`m_remoteAddress`, transmission power, queue, `m_txMachineState == BUSY`), the events it and its MAC have scheduled, and what
has happened so far: packets accepted by `Send`, packets refused (`MacTxDrop`), packets handed to the MAC, frames given to the channel
(`Transmit2Sat`), each with its time. -/
structure Sys (W : Type) where
  clock : Nat
  remote : SatAddress
  power : W
  queue : List (Entry W)
  busy : Bool
  events : List (Nat × Ev W)
  accepted : List (Nat × Entry W)
  refused : List (Nat × Entry W)
  handed : List (Nat × Entry W)
  aired : List (Nat × Entry W)
  deriving DecidableEq, Repr

/-- A new device tracking `remote`. -/
def Sys.init (remote : SatAddress) (power : W) : Sys W := ⟨0, remote, power, [], false, [], [], [], [], []⟩

/-- The transmit lambda of `TransmitStart` (model/ground-sta-net-device.cc:407-412) at time `now`, and the MAC scheduling the finish
callback. -/
def air (s : Sys W) (now : Nat) (x : Entry W) : Sys W :=
  { s with aired := s.aired ++ [(now, x)], events := insertEvent (now + x.len) (.finish x) s.events }

/-- Schedule one start event per delay. -/
def scheduleStarts (now : Nat) (x : Entry W) (ds : List Nat) (events : List (Nat × Ev W)) : List (Nat × Ev W) :=
  ds.foldl (fun es d => insertEvent (now + d) (.start x) es) events

/-- `m_macModel->Send`. -/
def macSend (mac : Mac) (s : Sys W) (now : Nat) (x : Entry W) : Sys W :=
  if mac.sync then air { s with handed := s.handed ++ [(now, x)] } now x
  else { s with handed := s.handed ++ [(now, x)], events := scheduleStarts now x (mac.delays s.handed.length now) s.events }

/-- `TransmitStart` (model/ground-sta-net-device.cc:388-416).  `Dequeue` of an empty queue gives a null packet. -/
def transmitStart (debug : Bool) (mac : Mac) (s : Sys W) (now : Nat) : Outcome (Sys W) := do
  Outcome.nsAssert debug (!s.busy)
  match s.queue with
  | [] => .ub .nullDeref
  | x :: rest => .ok (macSend mac { s with busy := true, queue := rest } now x)

/-- `Send` (model/ground-sta-net-device.cc:361-386).  `accept q x` is the result of `Enqueue` when the queue holds `q` (any queue discipline that
drops arriving packets only). -/
def send (debug : Bool) (mac : Mac) (accept : List (Entry W) → Entry W → Bool) (s : Sys W) (now pkt len : Nat) (proto : UInt16) :
    Outcome (Sys W) :=
  let x : Entry W := ⟨pkt, len, s.remote, proto, s.power⟩
  if accept s.queue x = false then .ok { s with clock := now, refused := s.refused ++ [(now, x)] }
  else
    let s := { s with clock := now, queue := s.queue ++ [x], accepted := s.accepted ++ [(now, x)] }
    if s.busy then .ok s else transmitStart debug mac s now

/-- `TransmitComplete` (model/ground-sta-net-device.cc:418-431). -/
def transmitComplete (debug : Bool) (mac : Mac) (s : Sys W) (now : Nat) : Outcome (Sys W) :=
  let s := { s with busy := false }
  if s.queue.isEmpty then .ok s else transmitStart debug mac s now

/-- What can happen: calls from outside at time `t`, or the next scheduled event. -/
inductive Op (W : Type) where
  | send (t pkt len : Nat) (proto : UInt16)
  | setRemote (t : Nat) (a : SatAddress)
  | setPower (t : Nat) (w : W)
  | run
  deriving DecidableEq, Repr

/-- A call from outside is possible at `t` once all events scheduled before `t` have run (events at `t` may come before or after). -/
def possible (s : Sys W) (t : Nat) : Prop := s.clock ≤ t ∧ ∀ e ∈ s.events, t ≤ e.1

instance (s : Sys W) (t : Nat) : Decidable (possible s t) := by unfold possible; infer_instance

def step (debug : Bool) (mac : Mac) (accept : List (Entry W) → Entry W → Bool) (s : Sys W) : Op W → Option (Outcome (Sys W))
  | .send t pkt len proto => if possible s t then some (send debug mac accept s t pkt len proto) else none
  | .setRemote t a => if possible s t then some (.ok { s with clock := t, remote := a }) else none
  | .setPower t w => if possible s t then some (.ok { s with clock := t, power := w }) else none
  | .run =>
    match s.events with
    | [] => none
    | (t, .start x) :: es => some (.ok (air { s with clock := t, events := es } t x))
    | (t, .finish _) :: es => some (transmitComplete debug mac { s with clock := t, events := es } t)

/-- Execution from a new device. -/
def exec (debug : Bool) (mac : Mac) (accept : List (Entry W) → Entry W → Bool) (remote : SatAddress) (power : W) (ops : List (Op W)) :
    Option (Outcome (Sys W)) :=
  runFrom (step debug mac accept) (Sys.init remote power) ops

end GroundSta
end Icarus
