import Verif.Model.Orbit
import Mathlib.Algebra.Order.Floor.Ring

/-!
# Model of `model/orbit/search/distancesolver.cc`, and of the searches in `model/orbit/circular-orbit-impl.cc` and `model/circular-orbit.cc`

Real numbers instead of `double`.  The root finder of the GNU Scientific Library is a black box.
-/

set_option autoImplicit false

namespace Icarus
namespace Orbit

noncomputable section

open Classical

/-- `GroundObserver` (model/orbit/search/distancesolver.cc:53-79) -/
structure Observer where
  latitude : ℝ
  longitude : ℝ
  radius : ℝ

/-- `GroundObserver::operator()` (model/orbit/search/distancesolver.cc:62-74) -/
def Observer.position (ob : Observer) (t : ℝ) : Vec :=
  let apparentLongitude := ob.longitude + earthRotation * t
  (ob.radius * Real.cos apparentLongitude * Real.cos ob.latitude, ob.radius * Real.sin apparentLongitude * Real.cos ob.latitude,
    ob.radius * Real.sin ob.latitude)

/-- `sq_distance` (model/orbit/search/distancesolver.cc:81-92) -/
def sqDist (a b : Vec) : ℝ := (b.1 - a.1) ^ 2 + (b.2.1 - a.2.1) ^ 2 + (b.2.2 - a.2.2) ^ 2

/-- `distance_function` (model/orbit/search/distancesolver.cc:187-195) -/
def distanceFunction (debug : Bool) (o : Elements) (ob : Observer) (target x : ℝ) : Outcome ℝ := do
  let p ← rawPosition debug o x
  .ok (sqDist p (ob.position x) - target ^ 2)

/-- State of the root finder after an iteration: `gsl_root_fsolver_root`, `_x_lower`, `_x_upper`. -/
structure Bracket where
  root : ℝ
  lower : ℝ
  upper : ℝ

/-- `gsl_root_test_interval (x_lower, x_upper, 0, 1e-6)` of the GNU Scientific Library (not part of the repository): `none` is an error,
`some true` success, `some false` to be continued. -/
def testInterval (lower upper : ℝ) : Option Bool :=
  if upper < lower then none
  else
    let minAbs := if (0 < lower ∧ 0 < upper) ∨ (lower < 0 ∧ upper < 0) then min |lower| |upper| else 0
    some (decide (|upper - lower| < 0 + 0.000001 * minAbs))

/-- The loop in `solve` (model/orbit/search/distancesolver.cc:161-184), with `n` iterations left; `iter k` is the state of the root
finder after `k + 1` iterations. -/
def solveLoop (f : ℝ → Outcome ℝ) (iter : Nat → Bracket) : Nat → Nat → Outcome (Option ℝ)
  | 0, _ => .ok none
  | n + 1, k =>
    let b := iter k
    match testInterval b.lower b.upper with
    | some true => do
      let a ← f (b.root - 1)
      let c ← f (b.root + 1)
      if min a c < 0 then .ok (some b.root) else .ok none
    | some false => solveLoop f iter n (k + 1)
    | none => .ok none

/-- The black box: what the root finder does when started on the interval from `lo` to `hi`. -/
abbrev RootFinder := ℝ → ℝ → Nat → Bracket

/-- `DistanceSolver::operator()` (model/orbit/search/distancesolver.cc:119-125, 145-185) -/
def distanceSolver (debug : Bool) (rf : RootFinder) (o : Elements) (ob : Observer) (target lo hi : ℝ) : Outcome (Option ℝ) :=
  solveLoop (distanceFunction debug o ob target) (rf lo hi) 1000 0

/-- `findNextCross` (model/orbit/search/distancesolver.cc:200-223), which is also `tryGetNextTimeAtDistance`
(model/orbit/circular-orbit-impl.cc:125-132). -/
def findNextCross (debug : Bool) (rf : RootFinder) (o : Elements) (ob : Observer) (target now : ℝ) : Outcome (Option ℝ) := do
  let period ← orbitalPeriod o
  let sol ← distanceSolver debug rf o ob target now (now + period)
  match sol with
  | none => .ok none
  | some r =>
    if now < r - 1 then do
      let previous ← distanceSolver debug rf o ob target now (r - 1)
      match previous with
      | some q => .ok (some q)
      | none => .ok (some r)
    else .ok (some r)

/-- The loop of `getNextTimeAtDistance` (model/orbit/circular-orbit-impl.cc:134-148) with a bound on its iterations. -/
def getNextTimeAtDistance (debug : Bool) (rf : RootFinder) (o : Elements) (ob : Observer) (target : ℝ) : Nat → ℝ → Outcome ℝ
  | 0, _ => .ub .diverged
  | n + 1, now => do
    let sol ← findNextCross debug rf o ob target now
    let period ← orbitalPeriod o
    match sol with
    | some r => .ok r
    | none => getNextTimeAtDistance debug rf o ob target n (now + period / 2)

/-! ## Where the observer is put -/

/-- `EARTH_SEMIMAJOR_AXIS` and the square of `EARTH_WGS84_ECCENTRICITY` (model/circular-orbit.cc:63-65). -/
def semiMajorAxis : ℝ := 6378137
def wgs84Eccentricity : ℝ := 0.0818191908426215

/-- The loop in `CartesianToGeographicCoordinates` (model/circular-orbit.cc:97-106) for WGS84, with a bound on its iterations. -/
def latitudeLoop (z p : ℝ) : Nat → ℝ → Outcome ℝ
  | 0, _ => .ub .diverged
  | n + 1, tmp => do
    let e2 := wgs84Eccentricity * wgs84Eccentricity
    let root ← csqrt (1 - e2 * Real.sin tmp * Real.sin tmp)
    let N ← cdiv semiMajorAxis root
    let v ← cdiv p (Real.cos tmp)
    let q ← cdiv (e2 * N) v
    let latitude := atan2 z (p * (1 - q))
    if toRadians 9.26e-6 < |latitude - tmp| then latitudeLoop z p n latitude else .ok latitude

/-- The end of `CartesianToGeographicCoordinates` (model/circular-orbit.cc:108-135): canonical ranges, in degrees. -/
def canonicalize (debug : Bool) (latitude longitude : ℝ) : Outcome (ℝ × ℝ) := do
  let lat := toDegrees latitude
  let lon := toDegrees longitude
  let (lat, lon) :=
    if 90 < lat then (180 - lat, lon + if lon < 0 then 180 else -180)
    else if lat < -90 then (-180 - lat, lon + if lon < 0 then 180 else -180)
    else (lat, lon)
  let lon := if lon = 180 then -180 else lon
  Outcome.nsAssert debug (decide (-180 ≤ lon))
  Outcome.nsAssert debug (decide (lon < 180))
  Outcome.nsAssert debug (decide (-90 ≤ lat))
  Outcome.nsAssert debug (decide (lat ≤ 90))
  .ok (toRadians lat, toRadians lon)

/-- `CartesianToGeographicCoordinates (pos, WGS84)` (model/circular-orbit.cc:68-136): latitude and longitude.  `fuel`: bound on the iterations. -/
def cartesianToGeographic (debug : Bool) (fuel : Nat) (pos : Vec) : Outcome (ℝ × ℝ) := do
  let longitude := atan2 pos.2.1 pos.1
  let e2 := wgs84Eccentricity * wgs84Eccentricity
  let p := distance pos (0, 0, pos.2.2)
  let latitude ← latitudeLoop pos.2.2 p fuel (atan2 pos.2.2 (p * (1 - e2)))
  canonicalize debug latitude longitude

/-- The observer used for a ground node at `pos` (model/circular-orbit.cc:302-308). -/
def observerOf (debug : Bool) (fuel : Nat) (pos : Vec) : Outcome Observer := do
  let (lat, lon) ← cartesianToGeographic debug fuel pos
  .ok ⟨lat, lon, length pos⟩

/-- `tryGetNextTimeAtElevation` with `tryGetNextTimeAtDistance` (model/circular-orbit.cc:290-333).  `ground`: the position of the ground node, if
it has a `ConstantPositionMobilityModel`; `now`: `t0` or the current time. -/
def tryGetNextTimeAtElevation (debug : Bool) (fuel : Nat) (rf : RootFinder) (sat : Option Elements) (elevation : ℝ) (ground : Option Vec)
    (now : ℝ) : Outcome (Option ℝ) :=
  match sat with
  | none => .abort
  | some o => do
    Outcome.nsAssert debug ground.isSome
    let pos ← Outcome.deref ground
    let d ← groundDistanceAtElevation o elevation (length pos)
    let ob ← observerOf debug fuel pos
    findNextCross debug rf o ob d now

end

end Orbit
end Icarus
