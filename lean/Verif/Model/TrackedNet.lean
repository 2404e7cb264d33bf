import Verif.Model.Network
import Verif.Model.Tracker

/-!
# Composition: the network and the trackers of its ground stations

Every ground node has a tracker (`Verif.Model.Tracker`) that assigns the tracked address of the node's ground device by `SetRemoteAddress`
(model/ground-node-sat-tracker-periodic.cc:103-115, model/ground-node-sat-tracker-elevation.cc:151-187).  Everything happens in one simulator: no operation takes place before anything that is
scheduled earlier, in the network or by a tracker.

Simplifications: what a tracker reads (positions, elevations, the constellation) is a function of time, as in `Verif.Model.Tracker`; trackers start at time 0; events of different
devices or trackers that are due at the same time may run in any order.
-/

set_option autoImplicit false

namespace Icarus
namespace TrackedNet

variable {D G E V W P R T : Type}

/-- State: of the network, of the trackers, and (ghost) all operations of the network so far. -/
structure Sys (D G E W R T : Type) where
  net : Network.Sys D G E W R
  trk : G → Tracker.Sys T
  made : List (Network.Op D G E W)

/-- An operation of the network, or the next scheduled call of the tracker at `g`. -/
inductive Op (D G E W : Type) where
  | net (o : Network.Op D G E W)
  | tick (g : G)
  deriving DecidableEq

/-- No tracker has anything scheduled before `t`. -/
def Waits (trk : G → Tracker.Sys T) (t : Nat) : Prop := ∀ g, ∀ e ∈ (trk g).pending, t ≤ e.1

instance [Fintype G] (trk : G → Tracker.Sys T) (t : Nat) : Decidable (Waits trk t) := by unfold Waits; infer_instance

/-- Somebody other than the tracker may assign the tracked address. -/
def noted [DecidableEq G] (trk : G → Tracker.Sys T) : Network.Op D G E W → G → Tracker.Sys T
  | .track g t a => Function.update trk g { trk g with clock := t, remote := a, log := (trk g).log ++ [(t, false, a)] }
  | _ => trk

variable [Fintype G] [Fintype D] [Fintype E] [DecidableEq G] [DecidableEq D] [DecidableEq E]

/-- The network makes its step `o`, after which the trackers are in the states `trk`. -/
def after (net : Network.Net D G E V W P R) (s : Sys D G E W R T) (trk : G → Tracker.Sys T) (o : Network.Op D G E W) : Option (Outcome (Sys D G E W R T)) :=
  match Network.step net s.net o with
  | none => none
  | some r => some (do
    let n ← r
    .ok ⟨n, trk, s.made ++ [o]⟩)

/-- One step.  `fire g`: what the tracker at `g` does (`Tracker.periodicFire`, `Tracker.elevationFire`). -/
def step (net : Network.Net D G E V W P R) (fire : G → Nat → T → Outcome (SatAddress × Option (Nat × T))) (s : Sys D G E W R T) : Op D G E W → Option (Outcome (Sys D G E W R T))
  | .net o =>
    match Network.time net s.net o with
    | none => none
    | some t => if Waits s.trk t then after net s (noted s.trk o) o else none
  | .tick g =>
    match Tracker.step (fire g) (s.trk g) .run with
    | none => none
    | some (.ok k) => if Waits s.trk k.clock then after net s (Function.update s.trk g k) (.track g k.clock k.remote) else none
    | some (.ub e) => some (.ub e)
    | some .abort => some .abort
    | some .assertFail => some .assertFail

def Sys.init (net : Network.Net D G E V W P R) (start : G → Tracker.Sys T) : Sys D G E W R T := ⟨Network.Sys.init net, start, []⟩

def exec (net : Network.Net D G E V W P R) (fire : G → Nat → T → Outcome (SatAddress × Option (Nat × T))) (start : G → Tracker.Sys T) (ops : List (Op D G E W)) :
    Option (Outcome (Sys D G E W R T)) :=
  runFrom (step net fire) (Sys.init net start) ops

end TrackedNet
end Icarus
