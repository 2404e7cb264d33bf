import Verif.Model.Search

/-!
# Queries of a satellite's mobility model (model/circular-orbit.cc)

`sat` is the orbit, null until `LaunchSat`.  `ground` is the position of the ground node, if it has a `ConstantPositionMobilityModel`; the node
itself is assumed to exist.  `now` is `t0` if given, else the current time.  The conversion of the answer into a `Time` (nanoseconds) is left out.
-/

set_option autoImplicit false

namespace Icarus
namespace Orbit

noncomputable section

/-- `LaunchSat` (model/circular-orbit.cc:144-152): the orbit is replaced. -/
def launch (inclination ascendingNode altitude phase : ℝ) (_ : Option Elements) : Option Elements :=
  some (launchSat inclination ascendingNode altitude phase)

/-- `getRadius` (model/circular-orbit.cc:207-214) -/
def queryRadius (sat : Option Elements) : Outcome ℝ :=
  match sat with
  | none => .abort
  | some o => .ok o.radius

/-- `getGroundDistanceAtElevation` (model/circular-orbit.cc:216-224) -/
def queryGroundDistance (sat : Option Elements) (elevation groundRadius : ℝ) : Outcome ℝ :=
  match sat with
  | none => .abort
  | some o => groundDistanceAtElevation o elevation groundRadius

/-- `getOrbitalPeriod` (model/circular-orbit.cc:226-232): no check of `sat`. -/
def queryPeriod (sat : Option Elements) : Outcome ℝ := do
  let o ← Outcome.deref sat
  orbitalPeriod o

/-- `DoGetVelocity` (model/circular-orbit.cc:167-174) -/
def queryVelocity (_ : Option Elements) : Vec := (0, 0, 0)

/-- `DoSetPosition` (model/circular-orbit.cc:159-165) -/
def setPosition (_ : Option Elements) (_ : Vec) : Outcome (Option Elements) := .abort

/-- `tryGetNextTimeAtDistance` (model/circular-orbit.cc:293-317) -/
def queryTryDistance (debug : Bool) (fuel : Nat) (rf : RootFinder) (sat : Option Elements) (target : ℝ) (ground : Option Vec) (now : ℝ) :
    Outcome (Option ℝ) :=
  match sat with
  | none => .abort
  | some o => do
    Outcome.nsAssert debug ground.isSome
    let pos ← Outcome.deref ground
    let ob ← observerOf debug fuel pos
    findNextCross debug rf o ob target now

/-- `getNextTimeAtDistance` (model/circular-orbit.cc:256-275).  `fuel`: bound on the iterations of either loop. -/
def queryDistance (debug : Bool) (fuel : Nat) (rf : RootFinder) (sat : Option Elements) (target : ℝ) (ground : Option Vec) (now : ℝ) :
    Outcome ℝ :=
  match sat with
  | none => .abort
  | some o => do
    Outcome.nsAssert debug ground.isSome
    let pos ← Outcome.deref ground
    let ob ← observerOf debug fuel pos
    getNextTimeAtDistance debug rf o ob target fuel now

/-- `getNextTimeAtElevation` (model/circular-orbit.cc:277-291) -/
def queryElevation (debug : Bool) (fuel : Nat) (rf : RootFinder) (sat : Option Elements) (elevation : ℝ) (ground : Option Vec) (now : ℝ) :
    Outcome ℝ :=
  match sat with
  | none => .abort
  | some o => do
    Outcome.nsAssert debug ground.isSome
    let pos ← Outcome.deref ground
    let d ← groundDistanceAtElevation o elevation (length pos)
    queryDistance debug fuel rf sat d ground now

end

end Orbit
end Icarus
