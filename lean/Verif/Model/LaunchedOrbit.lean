import Verif.Model.ConstellationHelper
import Verif.Model.Orbit

/-!
# The orbit of a launched satellite

`LaunchSatellite` hands its angles in degrees to `LaunchSat`, which takes radians; the conversion is that of Boost.Units.
-/

set_option autoImplicit false

namespace Icarus

/-- The call of `LaunchSat` in `LaunchSatellite` (helper/constellation-helper.cc:89-91, model/circular-orbit.cc:143-152). -/
noncomputable def OrbitElements.launched (o : OrbitElements) : Orbit.Elements :=
  Orbit.launchSat (Orbit.toRadians (o.inclination : ℝ)) (Orbit.toRadians (o.ascendingNode : ℝ)) (o.altitude : ℝ) (Orbit.toRadians (o.phase : ℝ))

end Icarus
