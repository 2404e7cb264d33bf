import Verif.Model.Aloha
import Mathlib.Analysis.SpecialFunctions.Log.Base
import Mathlib.Analysis.SpecialFunctions.Pow.Real

/-!
# The signal-to-interference test of `model/mac/aloha-mac-model.cc` over the reals
-/

set_option autoImplicit false

namespace Icarus
namespace Aloha

/-- `pow (10, rx_power / 10.0)` (model/mac/aloha-mac-model.cc:104): dBm to milliwatt. -/
noncomputable def milliwatt (dbm : ℝ) : ℝ := (10 : ℝ) ^ (dbm / 10)

open Classical in
/-- `10.0 * log10 (rx / (interference - rx)) < m_sirThreshold` (model/mac/aloha-mac-model.cc:139-143).  `threshold = none` is the
default value `DBL_MAX`, which every finite ratio is below.  `interference - rx = 0` gives an infinite ratio and a negative
difference the logarithm of a negative number (NaN): both compare as "not less".  Simplification: exact real arithmetic. -/
noncomputable def sirLost (threshold : Option ℝ) (rx interference : ℝ) : Bool :=
  if 0 < interference - rx then
    match threshold with
    | none => true
    | some t => decide (10 * Real.logb 10 (rx / (interference - rx)) < t)
  else false

end Aloha
end Icarus
