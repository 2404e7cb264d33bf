import Verif.Model.Double
import Mathlib.Algebra.Order.Round
import Mathlib.Algebra.Order.Archimedean.Real.Basic
import Mathlib.Tactic.Linarith
import Mathlib.Tactic.Positivity

/-!
# Rounding to nearest: existence, monotonicity, relative error
-/

set_option autoImplicit false

namespace Icarus

theorem two_zpow_pos (e : ℤ) : (0 : ℝ) < (2 : ℝ) ^ e := zpow_pos (by norm_num) e

theorem representable_zero : Representable 0 := ⟨0, 0, by norm_num, by simp⟩

theorem representable_neg {x : ℝ} (h : Representable x) : Representable (-x) := by
  obtain ⟨m, e, hm, rfl⟩ := h
  exact ⟨-m, e, by rwa [abs_neg], by push_cast; ring⟩

/-- The candidate: the nearest multiple of the unit in the last place. -/
noncomputable def candidate (x : ℝ) : ℝ := round (x / (2 : ℝ) ^ (Int.log 2 |x| - 52)) * (2 : ℝ) ^ (Int.log 2 |x| - 52)

theorem candidate_rep {x : ℝ} (hx : x ≠ 0) : Representable (candidate x) := by
  refine ⟨_, _, ?_, rfl⟩
  have hpos : 0 < |x| := abs_pos.mpr hx
  have h1 : |x| < (2 : ℝ) ^ (Int.log 2 |x| + 1) := by exact_mod_cast Int.lt_zpow_succ_log_self (b := 2) (by norm_num) |x|
  have hu := two_zpow_pos (Int.log 2 |x| - 52)
  have h2 : |x / (2 : ℝ) ^ (Int.log 2 |x| - 52)| < 2 ^ 53 := by
    rw [abs_div, abs_of_pos hu, div_lt_iff₀ hu]
    refine lt_of_lt_of_le h1 (le_of_eq ?_)
    rw [← zpow_natCast, ← zpow_add₀ (by norm_num)]
    congr 1
    push_cast
    ring
  generalize x / (2 : ℝ) ^ (Int.log 2 |x| - 52) = y at h2
  have h3 := abs_sub_round y
  rw [abs_lt] at h2
  rw [abs_le] at h3
  have h4 : ((round y : ℤ) : ℝ) < 2 ^ 53 + 1 := by linarith
  have h5 : -(2 ^ 53 + 1 : ℝ) < ((round y : ℤ) : ℝ) := by linarith
  have h6 : (round y : ℤ) < 2 ^ 53 + 1 := by exact_mod_cast h4
  have h7 : -(2 ^ 53 + 1 : ℤ) < round y := by exact_mod_cast h5
  rw [abs_le]
  omega

theorem candidate_err {x : ℝ} (hx : x ≠ 0) : |candidate x - x| ≤ (2 : ℝ) ^ (Int.log 2 |x| - 53) ∧ (2 : ℝ) ^ (Int.log 2 |x| - 53) ≤ 2⁻¹ ^ 53 * |x| := by
  have hpos : 0 < |x| := abs_pos.mpr hx
  have hu := two_zpow_pos (Int.log 2 |x| - 52)
  have e53 : (2 : ℝ) ^ (Int.log 2 |x| - 53) = 1 / 2 * (2 : ℝ) ^ (Int.log 2 |x| - 52) := by
    rw [show Int.log 2 |x| - 52 = (Int.log 2 |x| - 53) + 1 by ring, zpow_add_one₀ (by norm_num)]
    ring
  constructor
  · have h := abs_sub_round (x / (2 : ℝ) ^ (Int.log 2 |x| - 52))
    have : candidate x - x = -((x / (2 : ℝ) ^ (Int.log 2 |x| - 52) - round (x / (2 : ℝ) ^ (Int.log 2 |x| - 52))) * (2 : ℝ) ^ (Int.log 2 |x| - 52)) := by
      unfold candidate
      rw [sub_mul, div_mul_cancel₀ _ hu.ne']
      ring
    rw [this, abs_neg, abs_mul, abs_of_pos hu, e53]
    exact mul_le_mul_of_nonneg_right h hu.le
  · have h1 : (2 : ℝ) ^ Int.log 2 |x| ≤ |x| := by exact_mod_cast Int.zpow_log_le_self (b := 2) (by norm_num) hpos
    have : (2 : ℝ) ^ (Int.log 2 |x| - 53) = 2⁻¹ ^ 53 * (2 : ℝ) ^ Int.log 2 |x| := by
      rw [zpow_sub₀ (by norm_num), inv_pow, div_eq_inv_mul]
      norm_cast
    rw [this]
    gcongr

namespace Rounding

variable {fl : ℝ → ℝ}

/-- Relative error of a sum. -/
theorem err (h : Rounding fl) (x : ℝ) : |fl x - x| ≤ 2⁻¹ ^ 53 * |x| := by
  rcases eq_or_ne x 0 with rfl | hx
  · simpa using h.nearest 0 0 representable_zero
  · exact le_trans (h.nearest x _ (candidate_rep hx)) (le_trans (candidate_err hx).1 (candidate_err hx).2)

theorem fixed (h : Rounding fl) {x : ℝ} (hx : Representable x) : fl x = x := by
  have := h.nearest x x hx
  rw [sub_self, abs_zero] at this
  linarith [abs_nonpos_iff.mp this]

theorem mono (h : Rounding fl) {x y : ℝ} (hxy : x ≤ y) : fl x ≤ fl y := by
  rcases hxy.eq_or_lt with rfl | hxy
  · exact le_refl _
  by_contra hcon
  have h1 := h.nearest x (fl y) (h.rep y)
  have h2 := h.nearest y (fl x) (h.rep x)
  have hlt := not_le.mp hcon
  have q1 := sq_le_sq.mpr h1
  have q2 := sq_le_sq.mpr h2
  nlinarith [mul_pos (sub_pos.mpr hlt) (sub_pos.mpr hxy)]

end Rounding

theorem candidate_nearest {x : ℝ} (hx : x ≠ 0) {y : ℝ} (hy : Representable y) : |candidate x - x| ≤ |y - x| := by
  have hpos : 0 < |x| := abs_pos.mpr hx
  have hu := two_zpow_pos (Int.log 2 |x| - 52)
  have key : ∀ z : ℤ, |candidate x - x| ≤ |(z : ℝ) * (2 : ℝ) ^ (Int.log 2 |x| - 52) - x| := by
    intro z
    have h := round_le (x / (2 : ℝ) ^ (Int.log 2 |x| - 52)) z
    have e : ∀ w : ℝ, |w * (2 : ℝ) ^ (Int.log 2 |x| - 52) - x| =
        |x / (2 : ℝ) ^ (Int.log 2 |x| - 52) - w| * (2 : ℝ) ^ (Int.log 2 |x| - 52) := by
      intro w
      rw [← abs_of_pos hu, ← abs_mul, abs_of_pos hu, sub_mul, div_mul_cancel₀ _ hu.ne', abs_sub_comm]
    unfold candidate
    rw [e, e]
    exact mul_le_mul_of_nonneg_right h hu.le
  obtain ⟨m, e, hm, rfl⟩ := hy
  rcases le_or_gt (Int.log 2 |x| - 52) e with he | he
  · obtain ⟨k, hk⟩ := Int.le.dest he
    have h := key (m * 2 ^ k)
    have e1 : ((m * 2 ^ k : ℤ) : ℝ) * (2 : ℝ) ^ (Int.log 2 |x| - 52) = m * (2 : ℝ) ^ e := by
      rw [← hk, zpow_add₀ (by norm_num), zpow_natCast]
      push_cast
      ring
    rwa [e1] at h
  · have hlog : (2 : ℝ) ^ Int.log 2 |x| ≤ |x| := by exact_mod_cast Int.zpow_log_le_self (b := 2) (by norm_num) hpos
    have hp52 : (2 : ℝ) ^ Int.log 2 |x| = 2 ^ 52 * (2 : ℝ) ^ (Int.log 2 |x| - 52) := by
      rw [← zpow_natCast, ← zpow_add₀ (by norm_num)]
      congr 1
      push_cast
      ring
    have hsmall : |(m : ℝ) * (2 : ℝ) ^ e| ≤ (2 : ℝ) ^ Int.log 2 |x| := by
      rw [abs_mul, abs_of_pos (two_zpow_pos e)]
      have h1 : |(m : ℝ)| ≤ 2 ^ 53 := by exact_mod_cast hm
      have h2 : (2 : ℝ) ^ e ≤ (2 : ℝ) ^ (Int.log 2 |x| - 53) := zpow_le_zpow_right₀ (by norm_num) (by omega)
      calc |(m : ℝ)| * (2 : ℝ) ^ e ≤ 2 ^ 53 * (2 : ℝ) ^ (Int.log 2 |x| - 53) :=
            mul_le_mul h1 h2 (two_zpow_pos e).le (by positivity)
        _ = (2 : ℝ) ^ Int.log 2 |x| := by
            rw [← zpow_natCast, ← zpow_add₀ (by norm_num)]
            congr 1
            push_cast
            ring
    have hdist : |x| - (2 : ℝ) ^ Int.log 2 |x| ≤ |(m : ℝ) * (2 : ℝ) ^ e - x| := by
      have := abs_sub_abs_le_abs_sub x ((m : ℝ) * (2 : ℝ) ^ e)
      rw [abs_sub_comm] at this
      linarith
    rcases lt_or_gt_of_ne hx with hneg | hp
    · have h := key (-2 ^ 52)
      have e1 : (((-2 ^ 52 : ℤ)) : ℝ) * (2 : ℝ) ^ (Int.log 2 |x| - 52) - x = |x| - (2 : ℝ) ^ Int.log 2 |x| := by
        rw [hp52, abs_of_neg hneg]
        push_cast
        ring
      rw [e1] at h
      exact le_trans h (le_trans (le_of_eq (abs_of_nonneg (sub_nonneg.mpr hlog))) hdist)
    · have h := key (2 ^ 52)
      have e1 : (((2 ^ 52 : ℤ)) : ℝ) * (2 : ℝ) ^ (Int.log 2 |x| - 52) - x = -(|x| - (2 : ℝ) ^ Int.log 2 |x|) := by
        rw [hp52, abs_of_pos hp]
        push_cast
        ring
      rw [e1, abs_neg] at h
      exact le_trans h (le_trans (le_of_eq (abs_of_nonneg (sub_nonneg.mpr hlog))) hdist)

/-- Rounding to nearest exists. -/
theorem exists_rounding : ∃ fl, Rounding fl := by
  classical
  refine ⟨fun x => if x = 0 then 0 else candidate x, fun x => ?_, fun x y hy => ?_⟩
  · by_cases hx : x = 0
    · simp only [hx, if_true]; exact representable_zero
    · simp only [hx, if_false]; exact candidate_rep hx
  · by_cases hx : x = 0
    · simp [hx]
    · simp only [hx, if_false]; exact candidate_nearest hx hy

/-- A number of the format is a multiple of the unit in its last place. -/
theorem representable_eq {x : ℝ} (hx : x ≠ 0) (h : Representable x) : x = candidate x := by
  have := candidate_nearest hx h
  rw [sub_self, abs_zero] at this
  linarith [abs_nonpos_iff.mp this]

/-- Adding something not below the 2^-52th part changes a positive number. -/
theorem Rounding.grows {fl : ℝ → ℝ} (hfl : Rounding fl) {x y : ℝ} (hx : 0 < x) (hr : Representable x) (hy : x ≤ 2 ^ 52 * y) :
    x < fl (x + y) := by
  have habs : |x| = x := abs_of_pos hx
  have hu := two_zpow_pos (Int.log 2 |x| - 52)
  have hlog : (2 : ℝ) ^ Int.log 2 |x| ≤ |x| := by exact_mod_cast Int.zpow_log_le_self (b := 2) (by norm_num) (abs_pos.mpr hx.ne')
  have hlt : |x| < (2 : ℝ) ^ (Int.log 2 |x| + 1) := by exact_mod_cast Int.lt_zpow_succ_log_self (b := 2) (by norm_num) |x|
  have hp52 : (2 : ℝ) ^ Int.log 2 |x| = 2 ^ 52 * (2 : ℝ) ^ (Int.log 2 |x| - 52) := by
    rw [← zpow_natCast, ← zpow_add₀ (by norm_num)]
    congr 1
    push_cast
    ring
  have hp53 : (2 : ℝ) ^ (Int.log 2 |x| + 1) = 2 ^ 53 * (2 : ℝ) ^ (Int.log 2 |x| - 52) := by
    rw [← zpow_natCast, ← zpow_add₀ (by norm_num)]
    congr 1
    push_cast
    ring
  have hm := representable_eq hx.ne' hr
  unfold candidate at hm
  generalize round (x / (2 : ℝ) ^ (Int.log 2 |x| - 52)) = r at hm
  rw [hp52, habs] at hlog
  rw [hp53, habs] at hlt
  rw [habs] at hm hu
  have hrlt : (r : ℝ) < 2 ^ 53 := by
    by_contra hcon
    have := mul_le_mul_of_nonneg_right (not_lt.mp hcon) hu.le
    linarith
  have hrlt' : r < 2 ^ 53 := by exact_mod_cast hrlt
  have hr0 : 0 < r := by
    have : (0 : ℝ) < r := by
      by_contra hcon
      have := mul_le_mul_of_nonneg_right (not_lt.mp hcon) hu.le
      linarith
    exact_mod_cast this
  have hnext : Representable (((r + 1 : ℤ) : ℝ) * (2 : ℝ) ^ (Int.log 2 x - 52)) := ⟨r + 1, _, by rw [abs_le]; omega, rfl⟩
  have hval : ((r + 1 : ℤ) : ℝ) * (2 : ℝ) ^ (Int.log 2 x - 52) = x + (2 : ℝ) ^ (Int.log 2 x - 52) := by
    push_cast
    rw [add_mul, ← hm, one_mul]
  rw [hval] at hnext
  have huy : (2 : ℝ) ^ (Int.log 2 x - 52) ≤ y := by
    generalize (2 : ℝ) ^ (Int.log 2 x - 52) = u at hlog
    linarith
  calc x < x + (2 : ℝ) ^ (Int.log 2 x - 52) := by linarith
    _ = fl (x + (2 : ℝ) ^ (Int.log 2 x - 52)) := (hfl.fixed hnext).symm
    _ ≤ fl (x + y) := hfl.mono (by linarith)

/-- Adding at most the 2^-54th part does not change a positive number. -/
theorem Rounding.absorbs {fl : ℝ → ℝ} (hfl : Rounding fl) {x y : ℝ} (hx : 0 < x) (hr : Representable x) (hy0 : 0 ≤ y)
    (hy : 2 ^ 54 * y ≤ x) : fl (x + y) = x := by
  have hge : x ≤ fl (x + y) := by
    have := hfl.mono (show x ≤ x + y by linarith)
    rwa [hfl.fixed hr] at this
  have hnear : fl (x + y) ≤ x + 2 * y := by
    have h := hfl.nearest (x + y) x hr
    rw [show x - (x + y) = -y by ring, abs_neg, abs_of_nonneg hy0] at h
    linarith [(abs_le.mp h).2]
  have hrep := hfl.rep (x + y)
  generalize fl (x + y) = v at *
  by_contra hne
  have hlt : x < v := lt_of_le_of_ne hge (Ne.symm hne)
  have hv : 0 < v := lt_trans hx hlt
  have hmx := representable_eq hx.ne' hr
  have hmv := representable_eq hv.ne' hrep
  unfold candidate at hmx hmv
  rw [abs_of_pos hx] at hmx
  rw [abs_of_pos hv] at hmv
  generalize round (x / (2 : ℝ) ^ (Int.log 2 x - 52)) = a at hmx
  generalize round (v / (2 : ℝ) ^ (Int.log 2 v - 52)) = b at hmv
  have hlog : Int.log 2 x ≤ Int.log 2 v := Int.log_mono_right hx hge
  obtain ⟨k, hk⟩ := Int.le.dest hlog
  have hu := two_zpow_pos (Int.log 2 x - 52)
  have hmv' : v = ((b * 2 ^ k : ℤ) : ℝ) * (2 : ℝ) ^ (Int.log 2 x - 52) := by
    rw [hmv]
    conv_lhs => rw [show Int.log 2 v - 52 = (Int.log 2 x - 52) + k by omega, zpow_add₀ (by norm_num : (2 : ℝ) ≠ 0), zpow_natCast]
    push_cast
    ring
  have hup : x < (2 : ℝ) ^ (Int.log 2 x + 1) := by exact_mod_cast Int.lt_zpow_succ_log_self (b := 2) (by norm_num) x
  have hp53 : (2 : ℝ) ^ (Int.log 2 x + 1) = 2 ^ 53 * (2 : ℝ) ^ (Int.log 2 x - 52) := by
    rw [← zpow_natCast, ← zpow_add₀ (by norm_num)]
    congr 1
    push_cast
    ring
  rw [hp53] at hup
  generalize b * 2 ^ k = c at hmv'
  generalize (2 : ℝ) ^ (Int.log 2 x - 52) = w at *
  have hac : (a : ℝ) < c := by
    by_contra hcon
    have := mul_le_mul_of_nonneg_right (not_lt.mp hcon) hu.le
    linarith
  have hac' : a + 1 ≤ c := by exact_mod_cast hac
  have hac2 : (a : ℝ) + 1 ≤ c := by exact_mod_cast hac'
  have := mul_le_mul_of_nonneg_right hac2 hu.le
  have h2 : x + w ≤ v := by
    rw [hmv']
    calc x + w = (a + 1) * w := by rw [add_mul, ← hmx, one_mul]
      _ ≤ c * w := this
  linarith

theorem Rounding.pos {fl : ℝ → ℝ} (hfl : Rounding fl) {x : ℝ} (hx : 0 < x) : 0 < fl x := by
  have h := hfl.err x
  rw [abs_of_pos hx] at h
  have := (abs_le.mp h).1
  have h2 : (2⁻¹ : ℝ) ^ 53 * x ≤ 2⁻¹ * x := by
    apply mul_le_mul_of_nonneg_right _ hx.le
    norm_num
  linarith

theorem Rounding.zero {fl : ℝ → ℝ} (hfl : Rounding fl) : fl 0 = 0 := hfl.fixed representable_zero

end Icarus
