import Verif.Model.Outcome
import Mathlib.Analysis.SpecialFunctions.Complex.Arg
import Mathlib.Analysis.SpecialFunctions.Trigonometric.Inverse
import Mathlib.Analysis.Real.Sqrt

/-!
# Model of `model/orbit/circular-orbit-impl.cc`, `model/orbit/satpos/planet.h` and `model/circular-orbit.cc`

`double` is replaced by the real numbers, so rounding errors, overflow and NaN are not modelled.
-/

set_option autoImplicit false

namespace Icarus
namespace Orbit

noncomputable section

abbrev Vec := ℝ × ℝ × ℝ

/-- C `atan2`: the angle of the point `(x, y)`, in `(-π, π]` and 0 for the origin. -/
def atan2 (y x : ℝ) : ℝ := Complex.arg ⟨x, y⟩

/-- C `round`: to the nearest integer, halfway cases away from zero. -/
def cround (x : ℝ) : ℤ := if 0 ≤ x then ⌊x + 1 / 2⌋ else ⌈x - 1 / 2⌉

/-- Division and square root where they have a real result. -/
def cdiv (a b : ℝ) : Outcome ℝ := open Classical in if b = 0 then .ub .notANumber else .ok (a / b)

def csqrt (a : ℝ) : Outcome ℝ := open Classical in if a < 0 then .ub .notANumber else .ok √a

/-- model/orbit/circular-orbit-impl.cc:41 -/
def G : ℝ := 6.67430e-11

/-- `Earth` (model/orbit/satpos/planet.h:69-70): mass, radius, rotation rate. -/
def earthMass : ℝ := 5.97e24
def earthRadius : ℝ := 6371009
def earthRotation : ℝ := 7.292115922e-5

/-- `CircularOrbitMobilityModelImpl`: its four members. -/
structure Elements where
  inclination : ℝ
  ascendingNode : ℝ
  radius : ℝ
  phase : ℝ

/-- `LaunchSat` (model/circular-orbit.cc:144-152) -/
def launchSat (inclination ascendingNode altitude phase : ℝ) : Elements :=
  ⟨inclination, ascendingNode, altitude + earthRadius, phase⟩

/-- `getN` (model/orbit/circular-orbit-impl.cc:43-47) -/
def getN (radius : ℝ) : Outcome ℝ := do
  let q ← cdiv (G * earthMass) (radius ^ 3)
  csqrt q

/-- The angle `theta` of `getCartesianPositionRightAscensionDeclination`, before and after the correction of full turns
(model/orbit/circular-orbit-impl.cc:65-76). -/
def theta0 (E : ℝ) : ℝ := 2 * atan2 (Real.sin (E / 2)) (Real.cos (E / 2))

def theta (E : ℝ) : ℝ :=
  if theta0 E < E then theta0 E + cround ((E - theta0 E) / (2 * Real.pi)) * (2 * Real.pi)
  else theta0 E - cround ((theta0 E - E) / (2 * Real.pi)) * (2 * Real.pi)

open Classical in
/-- `getCartesianPositionRightAscensionDeclination` (model/orbit/circular-orbit-impl.cc:55-103) -/
def rawPosition (debug : Bool) (o : Elements) (t : ℝ) : Outcome Vec := do
  let n ← getN o.radius
  let E := n * t + o.phase
  let cosTheta := (Real.cos E - 0) / (1 - 0 * Real.cos E)
  let th := theta E
  Outcome.nsAssert debug (decide (|E - th| < Real.pi))
  let sinTheta := Real.sin th
  let x := o.radius * cosTheta
  let y := o.radius * sinTheta
  let z : ℝ := 0
  let (x, y, z) := (x, y * Real.cos o.inclination - z * Real.sin o.inclination, y * Real.sin o.inclination + z * Real.cos o.inclination)
  let (x, y, z) := (x * Real.cos o.ascendingNode - y * Real.sin o.ascendingNode,
    x * Real.sin o.ascendingNode + y * Real.cos o.ascendingNode, z)
  .ok (x, y, z)

/-- `getOrbitalPeriod` (model/orbit/circular-orbit-impl.cc:150-156) -/
def orbitalPeriod (o : Elements) : Outcome ℝ := do
  let n ← getN o.radius
  cdiv (2 * Real.pi) n

/-- `getSatAltitude` (model/orbit/circular-orbit-impl.cc:105-109) -/
def satAltitude (o : Elements) : ℝ := o.radius - earthRadius

/-- `getGroundDistanceAtElevation` (model/orbit/circular-orbit-impl.cc:111-123) -/
def groundDistanceAtElevation (o : Elements) (elevation groundRadius : ℝ) : Outcome ℝ := do
  let satAlt := satAltitude o
  let inner ← csqrt ((groundRadius * Real.sin elevation) ^ 2 + 2 * groundRadius * satAlt + satAlt ^ 2)
  csqrt (2 * (groundRadius * Real.sin elevation) ^ 2 - 2 * groundRadius * Real.sin elevation * inner + 2 * groundRadius * satAlt + satAlt ^ 2)

/-! ## `model/circular-orbit.cc` -/

/-- `Vector::GetLength` (ns-3) -/
def length (v : Vec) : ℝ := √(v.1 ^ 2 + v.2.1 ^ 2 + v.2.2 ^ 2)

def sub (a b : Vec) : Vec := (a.1 - b.1, a.2.1 - b.2.1, a.2.2 - b.2.2)

/-- `CalculateDistance` (ns-3) -/
def distance (a b : Vec) : ℝ := length (sub b a)

/-- Conversions of Boost.Units between degrees and radians. -/
def toDegrees (a : ℝ) : ℝ := a * (180 / Real.pi)
def toRadians (a : ℝ) : ℝ := a * (Real.pi / 180)

/-- Radius of the ns-3 sphere. -/
def ns3Radius : ℝ := 6371000

/-- `GeographicPositions::GeographicToCartesianCoordinates` of ns-3 (not part of the repository) for `SPHERE`, angles in degrees. -/
def geographicToCartesian (latitude longitude altitude : ℝ) : Vec :=
  let lat := toRadians latitude
  let lon := toRadians longitude
  ((ns3Radius + altitude) * Real.cos lat * Real.cos lon, (ns3Radius + altitude) * Real.cos lat * Real.sin lon,
    (ns3Radius + altitude) * Real.sin lat)

/-- `getRawPosition` (model/circular-orbit.cc:176-187): `none` is a null `sat` (no launch yet). -/
def getRawPosition (debug : Bool) (sat : Option Elements) (now : ℝ) : Outcome Vec :=
  match sat with
  | none => .abort
  | some o => rawPosition debug o now

/-- `DoGetPosition` (model/circular-orbit.cc:189-205) -/
def doGetPosition (debug : Bool) (sat : Option Elements) (now : ℝ) : Outcome Vec := do
  let raw ← getRawPosition debug sat now
  let radius := length raw
  let sinLatitude ← cdiv raw.2.2 radius
  let latitude := Real.arcsin sinLatitude
  let primeMeridianAscension := 0 + now * earthRotation
  let satAscension := atan2 raw.2.1 raw.1
  .ok (geographicToCartesian (toDegrees latitude) (toDegrees (satAscension - primeMeridianAscension)) (radius - earthRadius))

/-- `getSatElevation` (model/circular-orbit.cc:234-254), for a satellite reported at `sat`.  `arcsin` outside [-1, 1] would be NaN: this
never happens in exact arithmetic (`C48_sin`). -/
def satElevation (sat ground : Vec) : Outcome ℝ := do
  let g2s := sub sat ground
  let dot := ground.1 * g2s.1 + ground.2.1 * g2s.2.1 + ground.2.2 * g2s.2.2
  let cosZenith ← cdiv dot (length ground * length g2s)
  .ok (Real.arcsin cosZenith)

end

end Orbit
end Icarus
