import Mathlib.Data.Real.Basic
import Mathlib.Data.Int.Log

/-!
# Floating-point numbers

`double` is the binary64 format of IEEE 754, and a sum is the exact sum rounded to the nearest number of the format.  How ties are broken is left
open.  Simplification: the exponent is unbounded, so that nothing overflows and small numbers are not rounded more coarsely.
-/

set_option autoImplicit false

namespace Icarus

/-- The numbers with a significand of 53 bits. -/
def Representable (x : ℝ) : Prop := ∃ m e : ℤ, |m| ≤ 2 ^ 53 ∧ x = (m : ℝ) * (2 : ℝ) ^ e

/-- `fl` rounds to the nearest number of the format. -/
structure Rounding (fl : ℝ → ℝ) : Prop where
  rep : ∀ x, Representable (fl x)
  nearest : ∀ x y, Representable y → |fl x - x| ≤ |y - x|

/-- A `double`, as an argument of the models of the MAC layers. -/
@[ext] structure Dbl (fl : ℝ → ℝ) where
  val : ℝ

namespace Dbl

variable {fl : ℝ → ℝ}

instance : Zero (Dbl fl) := ⟨⟨0⟩⟩
noncomputable instance : Add (Dbl fl) := ⟨fun a b => ⟨fl (a.val + b.val)⟩⟩
instance : LT (Dbl fl) := ⟨fun a b => a.val < b.val⟩
noncomputable instance : DecidableLT (Dbl fl) := fun _ _ => Classical.propDecidable _
noncomputable instance : DecidableEq (Dbl fl) := fun _ _ => Classical.propDecidable _

@[simp] theorem zero_val : (0 : Dbl fl).val = 0 := rfl
@[simp] theorem add_val (a b : Dbl fl) : (a + b).val = fl (a.val + b.val) := rfl
theorem lt_def (a b : Dbl fl) : a < b ↔ a.val < b.val := Iff.rfl

end Dbl

open Classical in
/-- `10.0 * log10 (rx / (interference - rx)) < m_sirThreshold` (model/mac/aloha-mac-model.cc:139-143, model/mac/crdsa-mac-model.cc:358-366) with
every operation rounded; `log10` is the function of the C library.  As in `Aloha.sirLost`, `none` is the default threshold `DBL_MAX`, and a
difference that is not positive gives an infinite ratio or NaN, neither of which is below a threshold. -/
noncomputable def doubleLost (fl log10 : ℝ → ℝ) (threshold : Option ℝ) (rx interference : Dbl fl) : Bool :=
  if 0 < fl (interference.val - rx.val) then
    match threshold with
    | none => true
    | some t => decide (fl (10 * log10 (fl (rx.val / fl (interference.val - rx.val)))) < t)
  else false

end Icarus
