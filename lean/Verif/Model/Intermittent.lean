import Verif.Model.Orbit
import Verif.Model.Machine

/-!
# Model of `examples/intermittent-communication.cc`
-/

set_option autoImplicit false

namespace Icarus
namespace Intermittent

open Orbit

noncomputable section

/-- What the event queue of this program holds. -/
inductive Event where
  | stop
  | show
  deriving DecidableEq

/-- One line written by `showDistance`, in metres: when, the distance, the maximum and the minimum.  The division by 1000 and the printing are not modelled. -/
structure Line where
  time : Nat
  distance : ℝ
  maximum : WithBot ℝ
  minimum : WithTop ℝ

/-- The static variables of `showDistance` (`⊤` and `⊥` are the infinities), the simulator's queue and stop flag, and the lines written. -/
structure Sys where
  minimum : WithTop ℝ := ⊤
  maximum : WithBot ℝ := ⊥
  pending : List (Nat × Event) := []
  stopped : Bool := false
  lines : List Line := []

/-- `std::min (a, b)` -/
def stdMin (a b : WithTop ℝ) : WithTop ℝ := open Classical in if b < a then b else a

/-- `std::max (a, b)` -/
def stdMax (a b : WithBot ℝ) : WithBot ℝ := open Classical in if a < b then b else a

/-- A node: its mobility model, if it has one; that gives a position for every time in nanoseconds. -/
abbrev Node := Option (Nat → Outcome Vec)

/-- `node->GetObject<MobilityModel> ()->GetPosition ()` at time `t` -/
def position (n : Node) (t : Nat) : Outcome Vec :=
  match n with
  | none => .ub .nullDeref
  | some f => f t

/-- `showDistance` (examples/intermittent-communication.cc:49-69), called at time `t` in the state without its event; `period` is the `Seconds (1)`. -/
def showDistance (period : Nat) (node1 node2 : Node) (s : Sys) (t : Nat) : Outcome Sys := do
  let pos1 ← position node1 t
  let pos2 ← position node2 t
  let d := distance pos1 pos2
  let minimum := stdMin s.minimum d
  let maximum := stdMax s.maximum d
  .ok { s with
    minimum := minimum
    maximum := maximum
    lines := s.lines ++ [⟨t, d, maximum, minimum⟩]
    pending := insertEvent (t + period) .show s.pending }

/-- One round of the loop of `Simulator::Run` (ns-3): it ends when there are no events or the simulation has been stopped. -/
def step (period : Nat) (node1 node2 : Node) (s : Sys) (_ : Unit) : Option (Outcome Sys) :=
  if s.stopped then none
  else match s.pending with
    | [] => none
    | (_, .stop) :: es => some (.ok { s with stopped := true, pending := es })
    | (t, .show) :: es => some (showDistance period node1 node2 { s with pending := es } t)

/-- `main` up to `Simulator::Run` (examples/intermittent-communication.cc:104-106): `Stop` first, then the first `showDistance`. -/
def start (stopAt : Nat) : Sys := { pending := insertEvent 0 .show (insertEvent stopAt .stop []) }

/-- `n` rounds of the loop. -/
def exec (period stopAt : Nat) (node1 node2 : Node) (n : Nat) : Option (Outcome Sys) :=
  runFrom (step period node1 node2) (start stopAt) (List.replicate n ())

/-- `Seconds (1)` and `Days (7)`, in nanoseconds -/
def second : Nat := 10 ^ 9

def week : Nat := 7 * 24 * 3600 * 10 ^ 9

/-- The satellite (examples/intermittent-communication.cc:88-93); `debug` as in `Orbit.doGetPosition`. -/
def bird (debug : Bool) : Node := some fun t => doGetPosition debug (some (launchSat (toRadians 60) 0 250e3 0)) (t / 10 ^ 9)

/-- The node on the ground (examples/intermittent-communication.cc:95-102): `ConstantPositionMobilityModel` answers the position it was given. -/
def ground (place : Vec) : Node := some fun _ => .ok place

end

end Intermittent
end Icarus
