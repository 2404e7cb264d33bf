import Verif.Model.Orbit

/-!
# Moving ends of a link

What the channels and trackers read about positions and delays when satellites follow the orbits of this repository and ground stations rest: `model/circular-orbit.cc:189-205`
for satellites, ns-3's `ConstantPositionMobilityModel` for stations, and ns-3's `ConstantSpeedPropagationDelayModel`, which both helpers install
(helper/icarus-helper.cc:66, helper/isl-helper.cc:57).  Time is counted in nanoseconds.
-/

set_option autoImplicit false

namespace Icarus
namespace Orbit

noncomputable section

/-- An end of a link: a launched satellite or a point at rest on the rotating Earth. -/
inductive Place where
  | sat (o : Elements)
  | fixed (p : Vec)

/-- `MobilityModel::GetPosition` at tick `t`. -/
def Place.position (debug : Bool) (t : Nat) : Place → Outcome Vec
  | .sat o => doGetPosition debug (some o) (t / 10 ^ 9)
  | .fixed p => .ok p

/-- `ConstantSpeedPropagationDelayModel::GetDelay` (ns-3): distance over 299792458 m/s.  `rnd`: the conversion of `Seconds (double)` to whole
nanoseconds (releases of ns-3 truncate or round). -/
def propDelay (rnd : ℝ → ℤ) (a b : Vec) : Nat := (rnd (distance a b / 299792458 * 10 ^ 9)).toNat

/-- The delay that the channels ask for at tick `t` (model/ground-sat-channel.cc:118-121, 148-151; model/sat2sat-channel.cc:122-125). -/
def linkDelay (debug : Bool) (rnd : ℝ → ℤ) (a b : Place) (t : Nat) : Outcome Nat := do
  let p ← a.position debug t
  let q ← b.position debug t
  .ok (propDelay rnd p q)

end

end Orbit
end Icarus
