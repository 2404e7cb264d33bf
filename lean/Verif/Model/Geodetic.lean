import Verif.Model.Outcome
import Mathlib.Analysis.SpecialFunctions.Complex.Arg

/-!
# Model of `CartesianToGeographicCoordinates`

examples/constellation-positions.cc:42-115 and, word for word, examples/single-bird-orbit.cc:59-132.  Exact real arithmetic.
-/

set_option autoImplicit false

namespace Icarus
namespace Geodetic
open Real

/-- `std::atan2`; zeros have no sign. -/
noncomputable def atan2 (y x : ℝ) : ℝ := Complex.arg ⟨x, y⟩

/-- ns-3's `EarthSpheroidType`. -/
inductive Spheroid where
  | sphere
  | grs80
  | wgs84
  deriving DecidableEq

/-- `a` (examples/constellation-positions.cc:53-69). -/
noncomputable def semiMajor : Spheroid → ℝ
  | .sphere => 6371009
  | .grs80 => 6378137
  | .wgs84 => 6378137

/-- `e` (examples/constellation-positions.cc:53-69). -/
noncomputable def eccentricity : Spheroid → ℝ
  | .sphere => 0
  | .grs80 => 0.0818191910428158
  | .wgs84 => 0.0818191908426215

/-- `0.00000926 * DEG2RAD` -/
noncomputable def tolerance : ℝ := 0.00000926 * (π / 180)

/-- The loop (examples/constellation-positions.cc:79-87), entered with latitude `lat`, for at most so many iterations; latitude and altitude.  If `p` is
zero, a division by zero makes the latitude NaN: outcome `notANumber` (the program then returns NaN, in debug builds the assertion on the latitude fails).  `cos (tmp.x)`
is zero for no latitude that a program can represent. -/
noncomputable def latLoop (a e2 p z : ℝ) : ℕ → ℝ → Outcome (ℝ × ℝ)
  | 0, _ => .ub .diverged
  | fuel + 1, lat =>
    if p = 0 ∨ cos lat = 0 then .ub .notANumber
    else
      let N := a / √(1 - e2 * sin lat * sin lat)
      let v := p / cos lat
      let lat' := atan2 z (p * (1 - e2 * N / v))
      if |lat' - lat| > tolerance then latLoop a e2 p z fuel lat' else .ok (lat', v - N)

/-- The canonical range (examples/constellation-positions.cc:89-106): latitude and longitude in degrees. -/
noncomputable def canonical (lat lon : ℝ) : ℝ × ℝ :=
  let r := if lat > 90 then (180 - lat, lon + if lon < 0 then 180 else -180)
    else if lat < -90 then (-180 - lat, lon + if lon < 0 then 180 else -180)
    else (lat, lon)
  (r.1, if r.2 = 180 then -180 else r.2)

/-- `CartesianToGeographicCoordinates` (examples/constellation-positions.cc:50-115): latitude, longitude (degrees) and altitude of a position, the loop running at
most `fuel` times. -/
noncomputable def toGeographic (debug : Bool) (sph : Spheroid) (fuel : ℕ) (pos : ℝ × ℝ × ℝ) : Outcome (ℝ × ℝ × ℝ) := do
  let a := semiMajor sph
  let e2 := eccentricity sph * eccentricity sph
  let lon := atan2 pos.2.1 pos.1
  let p := √((0 - pos.1) * (0 - pos.1) + (0 - pos.2.1) * (0 - pos.2.1) + (pos.2.2 - pos.2.2) * (pos.2.2 - pos.2.2))
  let r ← latLoop a e2 p pos.2.2 fuel (atan2 pos.2.2 (p * (1 - e2)))
  let c := canonical (r.1 * (180 / π)) (lon * (180 / π))
  Outcome.nsAssert debug (decide (-180 ≤ c.2))
  Outcome.nsAssert debug (decide (180 > c.2))
  Outcome.nsAssert debug (decide (-90 ≤ c.1))
  Outcome.nsAssert debug (decide (90 ≥ c.1))
  .ok (c.1, c.2, r.2)

end Geodetic
end Icarus
