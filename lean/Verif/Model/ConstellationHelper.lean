import Verif.Model.Constellation
import Mathlib.Algebra.Order.Field.Rat

/-!
# Model of `helper/constellation-helper.{h,cc}`

Angles in degrees are exact rational numbers instead of `double`.
-/

set_option autoImplicit false

namespace Icarus

/-- Orbital elements handed to `CircularOrbitMobilityModel::LaunchSat` (degrees; altitude in metres). -/
structure OrbitElements where
  inclination : ℚ
  ascendingNode : ℚ
  altitude : ℚ
  phase : ℚ
  deriving DecidableEq, Repr

/-- `class ConstellationHelper` (helper/constellation-helper.h). -/
structure ConstellationHelper (D : Type) where
  constellation : Constellation D
  offsetIncrement : ℚ
  altitude : ℚ
  inclination : ℚ
  ascendingNode : ℚ
  phase : ℚ
  offset : ℚ
  planeIndex : Nat
  orbitIndex : Nat

namespace ConstellationHelper

variable {D : Type}

/-- Constructor (helper/constellation-helper.cc:52-69).  With zero planes or positions the C++ quotient is an infinity
or NaN, here 0; no launch succeeds in that case. -/
def create (id : Nat) (altitude inclination : ℚ) (nPlanes perPlane nPhases : Nat) : ConstellationHelper D :=
  { constellation := Constellation.create id nPlanes perPlane
    offsetIncrement := nPhases * 360 / (1 * perPlane * nPlanes)
    altitude, inclination, ascendingNode := 0, phase := 0, offset := 0, planeIndex := 0, orbitIndex := 0 }

/-- `LaunchSatellite` (helper/constellation-helper.cc:79-109).  Aggregating the freshly created orbit to the node makes the
orbit check of `AddSatellite` succeed (the node is assumed not to carry one already). -/
def launch (debug : Bool) (e : Endian) (h : ConstellationHelper D) (sat : D) :
    Outcome (SatAddress × OrbitElements × ConstellationHelper D) :=
  if h.planeIndex ≥ h.constellation.nPlanes ∧ h.orbitIndex > 0 then .abort
  else if debug = true ∧ ¬ h.phase < 360 then .assertFail
  else if debug = true ∧ ¬ h.ascendingNode < 360 then .assertFail
  else
    let orbit : OrbitElements :=
      { inclination := h.inclination, ascendingNode := h.ascendingNode, altitude := h.altitude,
        phase := h.phase + h.offset }
    match h.constellation.addSatellite e (fun _ => true) h.planeIndex h.orbitIndex sat with
    | .ok (a, c) =>
      let h1 := { h with constellation := c, orbitIndex := h.orbitIndex + 1,
                         phase := h.phase + 360 / (c.planeSize : ℚ) }
      let h2 := if h1.orbitIndex = c.planeSize then
          { h1 with orbitIndex := 0, phase := 0, planeIndex := h1.planeIndex + 1,
                    ascendingNode := h1.ascendingNode + 360 / (c.nPlanes : ℚ),
                    offset := h1.offset + h1.offsetIncrement }
        else h1
      .ok (a, orbit, h2)
    | .ub f => .ub f
    | .abort => .abort
    | .assertFail => .assertFail

/-- Launch a list of satellites one after the other. -/
def launchAll (debug : Bool) (e : Endian) (h : ConstellationHelper D) :
    List D → Outcome (List (SatAddress × OrbitElements) × ConstellationHelper D)
  | [] => .ok ([], h)
  | d :: ds =>
    match h.launch debug e d with
    | .ok (a, o, h') =>
      match launchAll debug e h' ds with
      | .ok (out, h'') => .ok ((a, o) :: out, h'')
      | .ub f => .ub f
      | .abort => .abort
      | .assertFail => .assertFail
    | .ub f => .ub f
    | .abort => .abort
    | .assertFail => .assertFail

end ConstellationHelper
end Icarus
