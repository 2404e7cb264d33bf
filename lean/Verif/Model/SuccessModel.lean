import Verif.Model.Orbit

/-!
# Model of `model/ground-sat-success-distance.cc` and `model/ground-sat-success-elevation.cc`
-/

set_option autoImplicit false

namespace Icarus
namespace SuccessModel

open Orbit

noncomputable section

/-- The `MobilityModel` of a node: a `CircularOrbitMobilityModel` or another one; with the position reported at the moment of the call. -/
inductive Mobility where
  | orbit (position : Vec)
  | other (position : Vec)

def Mobility.position : Mobility → Vec
  | .orbit p => p
  | .other p => p

/-- A node: its mobility model, if it has one. -/
abbrev Node := Option Mobility

/-- `GetObject<CircularOrbitMobilityModel> ()` : the reported position of that model. -/
def getOrbit : Node → Option Vec
  | some (.orbit p) => some p
  | _ => none

/-- `GetObject<MobilityModel> ()` -/
def getMobility (n : Node) : Option Vec := n.map Mobility.position

open Classical in
/-- `GroundSatSuccessDistance::TramsmitSuccess` (model/ground-sat-success-distance.cc:60-76) -/
def distanceSuccess (maxDistance : ℝ) (src dst : Node) : Outcome Bool :=
  match getMobility src with
  | none => .abort
  | some posSrc =>
    match getMobility dst with
    | none => .abort
    | some posDst => .ok (decide (distance posSrc posDst ≤ maxDistance))

/-- `SetMinimumElevationDegrees` (model/ground-sat-success-elevation.cc:74-80): degrees to radians. -/
def setMinimumElevation (degrees : ℝ) : ℝ := toRadians degrees

open Classical in
/-- `GroundSatSuccessElevation::TramsmitSuccess` (model/ground-sat-success-elevation.cc:82-109).  A comparison with NaN is false. -/
def elevationSuccess (minElevation : ℝ) (src dst : Node) : Outcome Bool :=
  let (sat, ground) := match getOrbit src with
    | some p => (some p, getMobility dst)
    | none => (getOrbit dst, getMobility src)
  match sat with
  | none => .abort
  | some s =>
    match ground with
    | none => .abort
    | some g =>
      match satElevation s g with
      | .ok elevation => .ok (decide (minElevation ≤ elevation))
      | .ub .notANumber => .ok false
      | .ub f => .ub f
      | .abort => .abort
      | .assertFail => .assertFail

end

end SuccessModel
end Icarus
