import Verif.Props.Brent
import Verif.Props.Elevation
import Mathlib.Analysis.SpecialFunctions.Trigonometric.Deriv
import Mathlib.Analysis.Calculus.MeanValue
import Mathlib.Analysis.Calculus.Deriv.MeanValue
import Mathlib.Analysis.Calculus.LocalExtr.Basic

/-!
# Passes of a satellite: when it is closer than a distance (exact real arithmetic)
-/

set_option autoImplicit false

namespace Icarus
namespace Orbit

open Real

/-! ## The cosine of the angle between satellite and observer -/

/-- The cosine of the angle between satellite and observer at the Earth's centre. -/
noncomputable def overhead (o : Elements) (ob : Observer) (t : ℝ) : ℝ :=
  cos ob.latitude * ((1 + cos o.inclination) / 2) * cos ((meanMotion o.radius - earthRotation) * t + (o.phase - ob.longitude + o.ascendingNode)) +
  cos ob.latitude * ((1 - cos o.inclination) / 2) * cos ((meanMotion o.radius + earthRotation) * t + (o.phase + ob.longitude - o.ascendingNode)) +
  sin ob.latitude * sin o.inclination * sin (meanMotion o.radius * t + o.phase)

theorem gap_overhead (o : Elements) (ob : Observer) (t : ℝ) :
    gap o ob t ^ 2 = o.radius ^ 2 + ob.radius ^ 2 - 2 * o.radius * ob.radius * overhead o ob t := by
  unfold gap distance
  rw [length_sq]
  have hs : (circlePoint o (meanMotion o.radius * t + o.phase)).1 ^ 2 + (circlePoint o (meanMotion o.radius * t + o.phase)).2.1 ^ 2 +
      (circlePoint o (meanMotion o.radius * t + o.phase)).2.2 ^ 2 = o.radius ^ 2 := by
    unfold circlePoint
    rw [normSq_rotZ, normSq_rotX, normSq_rotZ]
    ring
  have hg : (ob.position t).1 ^ 2 + (ob.position t).2.1 ^ 2 + (ob.position t).2.2 ^ 2 = ob.radius ^ 2 := by
    simp only [Observer.position]
    linear_combination ob.radius ^ 2 * cos ob.latitude ^ 2 * sin_sq_add_cos_sq (ob.longitude + earthRotation * t) +
      ob.radius ^ 2 * sin_sq_add_cos_sq ob.latitude
  have hd : (circlePoint o (meanMotion o.radius * t + o.phase)).1 * (ob.position t).1 +
      (circlePoint o (meanMotion o.radius * t + o.phase)).2.1 * (ob.position t).2.1 +
      (circlePoint o (meanMotion o.radius * t + o.phase)).2.2 * (ob.position t).2.2 = o.radius * ob.radius * overhead o ob t := by
    unfold overhead
    rw [show (meanMotion o.radius - earthRotation) * t + (o.phase - ob.longitude + o.ascendingNode) =
        (meanMotion o.radius * t + o.phase) - (ob.longitude + earthRotation * t - o.ascendingNode) by ring,
      show (meanMotion o.radius + earthRotation) * t + (o.phase + ob.longitude - o.ascendingNode) =
        (meanMotion o.radius * t + o.phase) + (ob.longitude + earthRotation * t - o.ascendingNode) by ring,
      cos_sub _ (_ - _), cos_add _ (_ - _), cos_sub, sin_sub]
    simp only [circlePoint, rotZ, rotX, Observer.position]
    ring
  simp only [sub]
  linear_combination hs + hg - 2 * hd

/-- First derivative of `overhead`. -/
noncomputable def speed (o : Elements) (ob : Observer) (t : ℝ) : ℝ :=
  -(cos ob.latitude * ((1 + cos o.inclination) / 2) * (meanMotion o.radius - earthRotation) *
    sin ((meanMotion o.radius - earthRotation) * t + (o.phase - ob.longitude + o.ascendingNode))) -
  cos ob.latitude * ((1 - cos o.inclination) / 2) * (meanMotion o.radius + earthRotation) *
    sin ((meanMotion o.radius + earthRotation) * t + (o.phase + ob.longitude - o.ascendingNode)) +
  sin ob.latitude * sin o.inclination * meanMotion o.radius * cos (meanMotion o.radius * t + o.phase)

/-- Second derivative of `overhead`. -/
noncomputable def acceleration (o : Elements) (ob : Observer) (t : ℝ) : ℝ :=
  -(cos ob.latitude * ((1 + cos o.inclination) / 2) * (meanMotion o.radius - earthRotation) ^ 2 *
    cos ((meanMotion o.radius - earthRotation) * t + (o.phase - ob.longitude + o.ascendingNode))) -
  cos ob.latitude * ((1 - cos o.inclination) / 2) * (meanMotion o.radius + earthRotation) ^ 2 *
    cos ((meanMotion o.radius + earthRotation) * t + (o.phase + ob.longitude - o.ascendingNode)) -
  sin ob.latitude * sin o.inclination * meanMotion o.radius ^ 2 * sin (meanMotion o.radius * t + o.phase)

theorem linear_deriv (a b t : ℝ) : HasDerivAt (fun t => a * t + b) a t := by
  simpa using ((hasDerivAt_id t).const_mul a).add_const b

theorem overhead_deriv (o : Elements) (ob : Observer) (t : ℝ) : HasDerivAt (overhead o ob) (speed o ob t) t := by
  have h1 := ((linear_deriv (meanMotion o.radius - earthRotation) (o.phase - ob.longitude + o.ascendingNode) t).cos).const_mul
    (cos ob.latitude * ((1 + cos o.inclination) / 2))
  have h2 := ((linear_deriv (meanMotion o.radius + earthRotation) (o.phase + ob.longitude - o.ascendingNode) t).cos).const_mul
    (cos ob.latitude * ((1 - cos o.inclination) / 2))
  have h3 := ((linear_deriv (meanMotion o.radius) o.phase t).sin).const_mul (sin ob.latitude * sin o.inclination)
  exact ((h1.add h2).add h3).congr_deriv (by unfold speed; ring)

theorem speed_deriv (o : Elements) (ob : Observer) (t : ℝ) : HasDerivAt (speed o ob) (acceleration o ob t) t := by
  have h1 := ((linear_deriv (meanMotion o.radius - earthRotation) (o.phase - ob.longitude + o.ascendingNode) t).sin).const_mul
    (cos ob.latitude * ((1 + cos o.inclination) / 2) * (meanMotion o.radius - earthRotation))
  have h2 := ((linear_deriv (meanMotion o.radius + earthRotation) (o.phase + ob.longitude - o.ascendingNode) t).sin).const_mul
    (cos ob.latitude * ((1 - cos o.inclination) / 2) * (meanMotion o.radius + earthRotation))
  have h3 := ((linear_deriv (meanMotion o.radius) o.phase t).cos).const_mul (sin ob.latitude * sin o.inclination * meanMotion o.radius)
  exact ((h1.neg.sub h2).add h3).congr_deriv (by unfold acceleration; ring)

/-- How far the motion is from an oscillation with the frequency of the orbit, because the Earth turns. -/
noncomputable def drift (o : Elements) : ℝ := 2 * (earthRotation / meanMotion o.radius) + (earthRotation / meanMotion o.radius) ^ 2

theorem rotation_pos : 0 < earthRotation := by unfold earthRotation; norm_num

theorem acceleration_le (o : Elements) (hr : 0 < o.radius) (ob : Observer) (t : ℝ) :
    acceleration o ob t + meanMotion o.radius ^ 2 * (overhead o ob t - drift o) ≤ 0 := by
  have hn := meanMotion_pos hr
  have hω := rotation_pos
  unfold acceleration overhead drift
  generalize meanMotion o.radius = n at *
  generalize earthRotation = ω at *
  generalize (n - ω) * t + (o.phase - ob.longitude + o.ascendingNode) = x
  generalize (n + ω) * t + (o.phase + ob.longitude - o.ascendingNode) = y
  generalize n * t + o.phase = z
  have e : n ^ 2 * (2 * (ω / n) + (ω / n) ^ 2) = 2 * n * ω + ω ^ 2 := by field_simp
  have hi := abs_le.mp (abs_cos_le_one o.inclination)
  have hprod : ∀ u, |cos ob.latitude * cos u| ≤ 1 := fun u => by
    rw [abs_mul]
    exact mul_le_one₀ (abs_cos_le_one _) (abs_nonneg _) (abs_cos_le_one _)
  have hA : |cos ob.latitude * ((1 + cos o.inclination) / 2) * cos x * (2 * n * ω - ω ^ 2)| ≤ (1 + cos o.inclination) / 2 * (2 * n * ω + ω ^ 2) := by
    rw [show cos ob.latitude * ((1 + cos o.inclination) / 2) * cos x * (2 * n * ω - ω ^ 2) =
      (cos ob.latitude * cos x) * ((1 + cos o.inclination) / 2 * (2 * n * ω - ω ^ 2)) by ring, abs_mul, abs_mul ((1 + _) / 2),
      abs_of_nonneg (by linarith : 0 ≤ (1 + cos o.inclination) / 2)]
    have : |2 * n * ω - ω ^ 2| ≤ 2 * n * ω + ω ^ 2 := abs_le.mpr ⟨by nlinarith [mul_pos hn hω], by nlinarith [sq_nonneg ω]⟩
    calc _ ≤ 1 * ((1 + cos o.inclination) / 2 * |2 * n * ω - ω ^ 2|) :=
          mul_le_mul_of_nonneg_right (hprod x) (mul_nonneg (by linarith) (abs_nonneg _))
      _ ≤ _ := by rw [one_mul]; exact mul_le_mul_of_nonneg_left this (by linarith)
  have hB : |cos ob.latitude * ((1 - cos o.inclination) / 2) * cos y * (2 * n * ω + ω ^ 2)| ≤ (1 - cos o.inclination) / 2 * (2 * n * ω + ω ^ 2) := by
    have h0 : 0 ≤ (1 - cos o.inclination) / 2 * (2 * n * ω + ω ^ 2) := mul_nonneg (by linarith) (by positivity)
    rw [show cos ob.latitude * ((1 - cos o.inclination) / 2) * cos y * (2 * n * ω + ω ^ 2) =
      (cos ob.latitude * cos y) * ((1 - cos o.inclination) / 2 * (2 * n * ω + ω ^ 2)) by ring, abs_mul, abs_of_nonneg h0]
    exact mul_le_of_le_one_left h0 (hprod y)
  have h1 := (abs_le.mp hA).2
  have h2 := (abs_le.mp hB).1
  linear_combination h1 + h2 - e

/-! ## Comparison with an oscillation -/

section Comparison

variable {y y' y'' : ℝ → ℝ} {n : ℝ}

/-- As long as `y'' ≤ -n² y`, for at most half a period, `y` stays below the oscillation that starts like it. -/
theorem compare_after (hn : 0 < n) (h1 : ∀ t, HasDerivAt y (y' t) t) (h2 : ∀ t, HasDerivAt y' (y'' t) t) (h : ∀ t, y'' t + n ^ 2 * y t ≤ 0)
    {a b : ℝ} (hab : a ≤ b) (hhalf : n * (b - a) ≤ π) : y b ≤ y a * cos (n * (b - a)) + y' a / n * sin (n * (b - a)) := by
  have hd : ∀ u, HasDerivAt (fun u => y' u * sin (n * (b - u)) / n + y u * cos (n * (b - u)))
      ((y'' u + n ^ 2 * y u) * sin (n * (b - u)) / n) u := by
    intro u
    have hl : HasDerivAt (fun u => n * (b - u)) (-n) u := by
      have := ((hasDerivAt_id u).const_sub b).const_mul n
      simpa using this
    refine ((((h2 u).mul hl.sin).div_const n).add ((h1 u).mul hl.cos)).congr_deriv ?_
    field_simp
    ring
  have hanti : AntitoneOn (fun u => y' u * sin (n * (b - u)) / n + y u * cos (n * (b - u))) (Set.Icc a b) := by
    refine antitoneOn_of_deriv_nonpos (convex_Icc a b) (fun u _ => (hd u).continuousAt.continuousWithinAt)
      (fun u _ => (hd u).differentiableAt.differentiableWithinAt) ?_
    intro u hu
    rw [interior_Icc] at hu
    rw [(hd u).deriv]
    refine div_nonpos_of_nonpos_of_nonneg (mul_nonpos_of_nonpos_of_nonneg (h u) (sin_nonneg_of_nonneg_of_le_pi ?_ ?_)) hn.le
    · exact mul_nonneg hn.le (by linarith [hu.2])
    · exact le_trans (mul_le_mul_of_nonneg_left (by linarith [hu.1]) hn.le) hhalf
  have := hanti ⟨le_refl a, hab⟩ ⟨hab, le_refl b⟩ hab
  simp only [sub_self, mul_zero, sin_zero, zero_div, cos_zero, mul_one, zero_add] at this
  rw [show y' a / n * sin (n * (b - a)) = y' a * sin (n * (b - a)) / n by ring]
  linarith

theorem compare_before (hn : 0 < n) (h1 : ∀ t, HasDerivAt y (y' t) t) (h2 : ∀ t, HasDerivAt y' (y'' t) t) (h : ∀ t, y'' t + n ^ 2 * y t ≤ 0)
    {a b : ℝ} (hab : a ≤ b) (hhalf : n * (b - a) ≤ π) : y a ≤ y b * cos (n * (b - a)) - y' b / n * sin (n * (b - a)) := by
  have r1 : ∀ t, HasDerivAt (fun t => y (-t)) (-y' (-t)) t := fun t =>
    ((h1 (-t)).comp t (hasDerivAt_neg t)).congr_deriv (by ring)
  have r2 : ∀ t, HasDerivAt (fun t => -y' (-t)) (y'' (-t)) t := fun t =>
    ((h2 (-t)).comp t (hasDerivAt_neg t)).neg.congr_deriv (by ring)
  have := compare_after hn r1 r2 (fun t => h (-t)) (a := -b) (b := -a) (by linarith) (by linarith)
  simp only [neg_neg] at this
  rw [show -a - -b = b - a by ring] at this
  linarith [show -y' b / n * sin (n * (b - a)) = -(y' b / n * sin (n * (b - a))) by ring]

/-- Half a period after a positive value there is a negative one. -/
theorem half_after (hn : 0 < n) (h1 : ∀ t, HasDerivAt y (y' t) t) (h2 : ∀ t, HasDerivAt y' (y'' t) t) (h : ∀ t, y'' t + n ^ 2 * y t ≤ 0) (a : ℝ) :
    y (a + π / n) ≤ -y a := by
  have hp : 0 < π / n := by positivity
  have e : n * (a + π / n - a) = π := by field_simp; ring
  have := compare_after hn h1 h2 h (a := a) (b := a + π / n) (by linarith) (by rw [e])
  rw [e, cos_pi, sin_pi] at this
  linarith

/-- Between two values that are at least `c > 0` and at most half a period apart all values are greater than `c`. -/
theorem no_dip (hn : 0 < n) (h1 : ∀ t, HasDerivAt y (y' t) t) (h2 : ∀ t, HasDerivAt y' (y'' t) t) (h : ∀ t, y'' t + n ^ 2 * y t ≤ 0)
    {a b c t : ℝ} (hc : 0 < c) (ha : c ≤ y a) (hb : c ≤ y b) (hat : a < t) (htb : t < b) (hhalf : n * (b - a) ≤ π) : c < y t := by
  by_contra hcon
  push Not at hcon
  have hcont : Continuous y := continuous_iff_continuousAt.mpr fun u => (h1 u).continuousAt
  obtain ⟨m, ⟨m1, m2⟩, hmin⟩ : ∃ m ∈ Set.Ioo a b, ∀ u ∈ Set.Icc a b, y m ≤ y u := by
    obtain ⟨m, hm, hmin⟩ := isCompact_Icc.exists_isMinOn (Set.nonempty_Icc.mpr (by linarith : a ≤ b)) hcont.continuousOn
    have hmt : y m ≤ y t := hmin ⟨hat.le, htb.le⟩
    by_cases hma : m = a
    · subst hma
      exact ⟨t, ⟨hat, htb⟩, fun u hu => le_trans (by linarith) (hmin hu)⟩
    · by_cases hmb : m = b
      · subst hmb
        exact ⟨t, ⟨hat, htb⟩, fun u hu => le_trans (by linarith) (hmin hu)⟩
      · exact ⟨m, ⟨lt_of_le_of_ne hm.1 (Ne.symm hma), lt_of_le_of_ne hm.2 hmb⟩, fun u hu => hmin hu⟩
  have hloc : IsLocalMin y m := by
    filter_upwards [Icc_mem_nhds m1 m2] with u hu using hmin u hu
  have hy' : y' m = 0 := hloc.hasDerivAt_eq_zero (h1 m)
  have hneg : y m ≤ 0 := by
    by_contra hpos
    push Not at hpos
    have h3 := compare_after hn h1 h2 h m2.le (le_trans (mul_le_mul_of_nonneg_left (by linarith) hn.le) hhalf)
    rw [hy', zero_div, zero_mul, add_zero] at h3
    have h4 : cos (n * (b - m)) < cos 0 := cos_lt_cos_of_nonneg_of_le_pi (le_refl _)
      (le_trans (mul_le_mul_of_nonneg_left (by linarith) hn.le) hhalf) (mul_pos hn (sub_pos.mpr m2))
    rw [cos_zero] at h4
    have := mul_lt_mul_of_pos_left h4 hpos
    linarith [hmin b ⟨by linarith, le_refl b⟩]
  have hq : n * (m - a) ≤ π / 2 ∨ n * (b - m) ≤ π / 2 := by
    by_contra hcon
    push Not at hcon
    have : n * (b - a) = n * (m - a) + n * (b - m) := by ring
    linarith [hcon.1, hcon.2]
  rcases hq with hq | hq
  · have := compare_before hn h1 h2 h m1.le (by linarith [pi_pos])
    rw [hy', zero_div, zero_mul, sub_zero] at this
    have hcos : 0 ≤ cos (n * (m - a)) := cos_nonneg_of_mem_Icc ⟨by linarith [mul_pos hn (sub_pos.mpr m1), pi_pos], hq⟩
    have := mul_nonpos_of_nonpos_of_nonneg hneg hcos
    linarith
  · have := compare_after hn h1 h2 h m2.le (by linarith [pi_pos])
    rw [hy', zero_div, zero_mul, add_zero] at this
    have hcos : 0 ≤ cos (n * (b - m)) := cos_nonneg_of_mem_Icc ⟨by linarith [mul_pos hn (sub_pos.mpr m2), pi_pos], hq⟩
    have := mul_nonpos_of_nonpos_of_nonneg hneg hcos
    linarith

end Comparison

/-! ## Passes -/

/-- The distance is reached well before the satellite is a quarter of a turn away from the observer: the cosine of the angle at which it is
reached exceeds the drift. -/
def WithinReach (o : Elements) (ob : Observer) (target : ℝ) : Prop :=
  target ^ 2 + 2 * o.radius * ob.radius * drift o < o.radius ^ 2 + ob.radius ^ 2

section Passes

variable {o : Elements} {ob : Observer} {target T : ℝ}

/-- The cosine of the angle at which the distance is `target`, less the drift. -/
noncomputable def level (o : Elements) (ob : Observer) (target : ℝ) : ℝ :=
  (o.radius ^ 2 + ob.radius ^ 2 - target ^ 2) / (2 * o.radius * ob.radius) - drift o

theorem level_pos (hr : 0 < o.radius) (hR : 0 < ob.radius) (hw : WithinReach o ob target) : 0 < level o ob target := by
  unfold level
  rw [sub_pos, lt_div_iff₀ (by positivity)]
  unfold WithinReach at hw
  linarith

theorem gap_le_iff (hr : 0 < o.radius) (hR : 0 < ob.radius) (ht : 0 ≤ target) (t : ℝ) :
    gap o ob t ≤ target ↔ level o ob target ≤ overhead o ob t - drift o := by
  rw [← sq_le_sq₀ (gap_nonneg _ _ _) ht, gap_overhead]
  unfold level
  rw [sub_le_sub_iff_right, div_le_iff₀ (by positivity)]
  constructor <;> intro h <;> linarith

theorem gap_lt_iff (hr : 0 < o.radius) (hR : 0 < ob.radius) (ht : 0 ≤ target) (t : ℝ) :
    gap o ob t < target ↔ level o ob target < overhead o ob t - drift o := by
  rw [← sq_lt_sq₀ (gap_nonneg _ _ _) ht, gap_overhead]
  unfold level
  rw [sub_lt_sub_iff_right, div_lt_iff₀ (by positivity)]
  constructor <;> intro h <;> linarith

theorem period_eq (hr : 0 < o.radius) (hT : orbitalPeriod o = .ok T) : T = 2 * π / meanMotion o.radius := by
  unfold orbitalPeriod at hT
  simp only [getN_eq hr, Outcome.bind_ok, cdiv, (meanMotion_pos hr).ne', if_false, Outcome.ok.injEq] at hT
  exact hT.symm

/-- Between two moments at most half an orbit apart at which the satellite is not further than the distance it is always closer. -/
theorem C82_no_gap (hr : 0 < o.radius) (hR : 0 < ob.radius) (ht : 0 ≤ target) (hw : WithinReach o ob target) (hT : orbitalPeriod o = .ok T)
    {a b t : ℝ} (ha : gap o ob a ≤ target) (hb : gap o ob b ≤ target) (hat : a < t) (htb : t < b) (hhalf : b - a ≤ T / 2) :
    gap o ob t < target := by
  rw [gap_lt_iff hr hR ht]
  refine no_dip (meanMotion_pos hr) (fun t => (overhead_deriv o ob t).sub_const (drift o)) (speed_deriv o ob) (acceleration_le o hr ob)
    (level_pos hr hR hw) ((gap_le_iff hr hR ht a).mp ha) ((gap_le_iff hr hR ht b).mp hb) hat htb ?_
  have hn := meanMotion_pos hr
  rw [period_eq hr hT] at hhalf
  have := mul_le_mul_of_nonneg_left hhalf hn.le
  rwa [show meanMotion o.radius * (2 * π / meanMotion o.radius / 2) = π by field_simp] at this

/-- Half an orbit after it was not further than the distance the satellite is further. -/
theorem C82_half (hr : 0 < o.radius) (hR : 0 < ob.radius) (ht : 0 ≤ target) (hw : WithinReach o ob target) (hT : orbitalPeriod o = .ok T)
    {a : ℝ} (ha : gap o ob a ≤ target) : target < gap o ob (a + T / 2) := by
  rw [← not_le, gap_le_iff hr hR ht, not_le]
  have h1 := half_after (meanMotion_pos hr) (fun t => (overhead_deriv o ob t).sub_const (drift o)) (speed_deriv o ob) (acceleration_le o hr ob) a
  rw [period_eq hr hT, show 2 * π / meanMotion o.radius / 2 = π / meanMotion o.radius by ring]
  have h2 := (gap_le_iff hr hR ht a).mp ha
  have h3 := level_pos hr hR hw
  linarith

/-- A satellite that is closer than the distance leaves it within half an orbit, and then stays further for more than half an orbit. -/
theorem C82_sets (hr : 0 < o.radius) (hR : 0 < ob.radius) (ht : 0 ≤ target) (hw : WithinReach o ob target) (hT : orbitalPeriod o = .ok T)
    {now : ℝ} (hnow : gap o ob now < target) :
    ∃ τ, now < τ ∧ τ < now + T / 2 ∧ gap o ob τ = target ∧ (∀ t, now ≤ t → t < τ → gap o ob t < target) ∧
      ∀ t, τ < t → t ≤ τ + T / 2 → target < gap o ob t := by
  have hT0 : 0 < T := by
    rw [period_eq hr hT]
    have := meanMotion_pos hr
    positivity
  have hend := C82_half hr hR ht hw hT hnow.le
  have hcont : ContinuousOn (gap o ob) (Set.Icc now (now + T / 2)) := (continuous_gap o ob).continuousOn
  obtain ⟨τ, ⟨t1, t2⟩, hτ⟩ := intermediate_value_Icc (by linarith : now ≤ now + T / 2) hcont ⟨hnow.le, hend.le⟩
  have t1' : now < τ := lt_of_le_of_ne t1 (fun h => by rw [h, hτ] at hnow; exact lt_irrefl _ hnow)
  have t2' : τ < now + T / 2 := lt_of_le_of_ne t2 (fun h => by rw [← h, hτ] at hend; exact lt_irrefl _ hend)
  have hnear : ∀ t, τ < t → t ≤ now + T / 2 → target < gap o ob t := by
    intro t h1 h2
    by_contra hcon
    have := C82_no_gap hr hR ht hw hT hnow.le (not_lt.mp hcon) t1' h1 (by linarith)
    exact absurd hτ this.ne
  refine ⟨τ, t1', t2', hτ, ?_, ?_⟩
  · intro t h1 h2
    rcases h1.eq_or_lt with rfl | h1
    · exact hnow
    · exact C82_no_gap hr hR ht hw hT hnow.le hτ.le h1 h2 (by linarith)
  · intro t h1 h2
    by_contra hcon
    rcases le_total t (now + T / 2) with h | h
    · exact hcon (hnear t h1 h)
    · have := C82_no_gap hr hR ht hw hT hτ.le (not_lt.mp hcon) (t := (τ + (now + T / 2)) / 2) (by linarith) (by linarith) (by linarith)
      exact absurd this (not_lt.mpr (hnear _ (by linarith) (by linarith)).le)

/-- The distance that belongs to an elevation above the horizon is within reach for every orbit up to 7000 km high and every ground node close to
sea level. -/
theorem C82_reach {e D : ℝ} (hlow : 6371009 ≤ o.radius) (hhigh : o.radius ≤ 13371009) (hR : 6371000 ≤ ob.radius) (hR' : ob.radius ≤ 6400000)
    (he : 0 ≤ e) (he' : e ≤ π / 2) (hD : groundDistanceAtElevation o e ob.radius = .ok D) : 0 ≤ D ∧ WithinReach o ob D := by
  obtain ⟨A, hA, habs, hD'⟩ := groundDistance_eq o e ob.radius (by linarith) (by linarith)
  rw [hD] at hD'
  simp only [Outcome.ok.injEq] at hD'
  have hs : 0 ≤ ob.radius * sin e := mul_nonneg (by linarith) (sin_nonneg_of_nonneg_of_le_pi he (by linarith [pi_pos]))
  have hA0 : 0 ≤ A := by
    rw [hA]
    have : 0 ≤ ob.radius * (o.radius - 6371009) := mul_nonneg (by linarith) (by linarith)
    nlinarith [sq_nonneg (ob.radius * sin e), sq_nonneg (o.radius - 6371009)]
  have hsq := sq_sqrt hA0
  have hle : ob.radius * sin e ≤ √A := le_trans (le_abs_self _) habs
  have hD0 : 0 ≤ D := by rw [hD']; linarith
  have hD2 : D ^ 2 ≤ 2 * ob.radius * (o.radius - 6371009) + (o.radius - 6371009) ^ 2 := by
    rw [hD']
    nlinarith
  refine ⟨hD0, ?_⟩
  have hn : 0.000408 ≤ meanMotion o.radius := by
    unfold meanMotion
    refine le_sqrt_of_sq_le ?_
    have hpos : 0 < o.radius ^ 3 := by have : 0 < o.radius := by linarith
                                       positivity
    rw [le_div_iff₀ hpos]
    have : o.radius ^ 3 ≤ 13371009 ^ 3 := pow_le_pow_left₀ (by linarith) hhigh 3
    nlinarith
  have hd : drift o ≤ 0.39 := by
    unfold drift
    have h1 : earthRotation / meanMotion o.radius ≤ 0.1788 := by
      rw [div_le_iff₀ (by linarith), show earthRotation = 7.292115922e-5 from rfl]
      linarith
    have h0 : 0 ≤ earthRotation / meanMotion o.radius :=
      div_nonneg (by rw [show earthRotation = 7.292115922e-5 from rfl]; norm_num) (by linarith)
    nlinarith
  unfold WithinReach
  have h1 : 2 * o.radius * ob.radius * drift o ≤ 2 * o.radius * ob.radius * 0.39 :=
    mul_le_mul_of_nonneg_left hd (mul_nonneg (by linarith) (by linarith))
  nlinarith [mul_nonneg (sub_nonneg.mpr hhigh) (sub_nonneg.mpr hR), mul_nonneg (sub_nonneg.mpr hR) (sub_nonneg.mpr hR'),
    mul_nonneg (sub_nonneg.mpr hlow) (sub_nonneg.mpr hR)]

/-- Nodes at sea level, an orbit 629 km high and an elevation of 45 degrees. -/
example : ∃ D, groundDistanceAtElevation ⟨1, 2, 7000000, 3⟩ (π / 4) 6371000 = .ok D ∧ 0 ≤ D ∧ WithinReach ⟨1, 2, 7000000, 3⟩ ⟨0.5, 1, 6371000⟩ D := by
  obtain ⟨A, -, -, hD⟩ := groundDistance_eq ⟨1, 2, 7000000, 3⟩ (π / 4) 6371000 (by norm_num) (by norm_num)
  exact ⟨_, hD, C82_reach (ob := ⟨0.5, 1, 6371000⟩) (by norm_num) (by norm_num) (by norm_num) (by norm_num) (by positivity) (by linarith [pi_pos]) hD⟩

end Passes

/-! ## Answers of the search -/

section Search

variable {o : Elements} {ob : Observer} {target : ℝ} {rf : RootFinder}

theorem solveLoop_answer {f : ℝ → Outcome ℝ} {iter : Nat → Bracket} {q : ℝ} :
    ∀ {n k : Nat}, solveLoop f iter n k = .ok (some q) → ∃ j, testInterval (iter j).lower (iter j).upper = some true ∧ q = (iter j).root := by
  intro n
  induction n with
  | zero => intro k h; simp [solveLoop] at h
  | succ n ih =>
    intro k h
    unfold solveLoop at h
    dsimp only at h
    split at h
    · rename_i htest
      refine ⟨k, htest, ?_⟩
      cases h1 : f ((iter k).root - 1) with
      | ok a =>
        cases h2 : f ((iter k).root + 1) with
        | ok c =>
          simp only [h1, h2, Outcome.bind_ok] at h
          split at h <;> simp_all
        | _ => simp [h1, h2] at h
      | _ => simp [h1] at h
    · exact ih h
    · simp at h

theorem excess_zero (ht : 0 ≤ target) {t : ℝ} (h : excess o ob target t = 0) : gap o ob t = target := by
  unfold excess at h
  exact (pow_left_inj₀ (gap_nonneg _ _ _) ht two_ne_zero).mp (by linarith)

/-- Every bracket of a search with a bracketed root contains a change of sign. -/
theorem sign_change (hb : IsBrent o ob target rf) {lo hi : ℝ} (h : lo ≤ hi) (hs : Bracketed (excess o ob target) lo hi) (j : Nat) :
    ¬ SameSign (excess o ob target (rf lo hi j).lower) (excess o ob target (rf lo hi j).upper) := by
  obtain ⟨s, h1⟩ := hb lo hi j h
  rcases hs with hs | ⟨hs, hm, hwide⟩
  · obtain ⟨s', br, h2, -, -, -, h4⟩ := run_split h (show Split (.start (excess o ob target) lo hi) from fun _ h2 => hs h2) j
    rw [h1] at h2
    simp only [Outcome.ok.injEq, Prod.mk.injEq] at h2
    rw [h2.2]
    exact h4
  · obtain ⟨s', br, h2, h4⟩ := run_flip h hs hm hwide j
    rw [h1] at h2
    simp only [Outcome.ok.injEq, Prod.mk.injEq] at h2
    rw [h2.2]
    exact h4

/-- Every answer of the solver is close to a moment at which the satellite is at the distance. -/
theorem solver_answer {debug : Bool} (hb : IsBrent o ob target rf) (ht : 0 ≤ target) {lo hi r : ℝ} (hlo : 0 ≤ lo) (h : lo ≤ hi)
    (hs : Bracketed (excess o ob target) lo hi) (hans : distanceSolver debug rf o ob target lo hi = .ok (some r)) :
    ∃ σ, lo ≤ σ ∧ σ ≤ hi ∧ gap o ob σ = target ∧ |r - σ| < 0.000001 * σ := by
  obtain ⟨j, htest, rfl⟩ := solveLoop_answer hans
  obtain ⟨σ, t1, t2, t3, t4⟩ := bracket_root continuous_excess hlo (hb.within h j) (sign_change hb h hs j) htest
  exact ⟨σ, t1, t2, excess_zero ht t3, t4⟩

/-- If the satellite is closer at both ends and further in the middle, and at the first end not further than at the last, the solver looks in the
first half. -/
theorem solver_half {debug : Bool} (hb : IsBrent o ob target rf) (hr : 0 < o.radius) (ht : 0 ≤ target) {lo hi : ℝ} (hlo : 0 ≤ lo) (h : lo + 1 ≤ hi)
    (hmax : hi ≤ 1000000) (hc : Converges rf lo hi) (h2 : gap o ob hi < target) (h12 : gap o ob lo ≤ gap o ob hi)
    (hm : target < gap o ob ((lo + hi) / 2)) :
    ∃ r σ, lo ≤ r ∧ r ≤ hi ∧ lo ≤ σ ∧ σ ≤ (lo + hi) / 2 ∧ gap o ob σ = target ∧ |r - σ| < 0.000001 * σ ∧
      (Accepted o ob target r → distanceSolver debug rf o ob target lo hi = .ok (some r)) := by
  have hle : lo ≤ hi := by linarith
  obtain ⟨j, hj, hbef, htest⟩ := first_success hb hle hc
  have hw := hb.within hle j
  obtain ⟨s, h1⟩ := hb lo hi j hle
  have e1 : excess o ob target lo < 0 := (excess_neg ht).mpr (lt_of_le_of_lt h12 h2)
  have e2 : excess o ob target hi < 0 := (excess_neg ht).mpr h2
  have e3 : 0 < excess o ob target ((lo + hi) / 2) := (excess_pos ht).mpr hm
  have e4 : |excess o ob target hi| ≤ |excess o ob target lo| := by
    rw [abs_of_neg e1, abs_of_neg e2, neg_le_neg_iff]
    unfold excess
    have := pow_le_pow_left₀ (gap_nonneg _ _ _) h12 2
    linarith
  obtain ⟨s', br, g1, -, g2, -, g3⟩ := run_half (f := excess o ob target) hle (.inl ⟨e1, e2⟩)
    (by rintro (⟨a, -⟩ | ⟨-, a⟩) <;> linarith)
    ⟨by rw [abs_of_nonneg hlo]; linarith, by rw [abs_of_nonneg (by linarith)]; linarith⟩ (.inr ⟨e4, rfl⟩) j
  rw [h1] at g1
  simp only [Outcome.ok.injEq, Prod.mk.injEq] at g1
  rw [min_eq_left (by linarith), max_eq_right (by linarith), ← g1.2] at g2
  rw [← g1.2] at g3
  obtain ⟨σ, t1, t2, t3, t4⟩ := bracket_root continuous_excess hlo g2 g3 htest
  exact ⟨(rf lo hi j).root, σ, le_trans hw.lower hw.root.1, le_trans hw.root.2 hw.upper, t1, t2, excess_zero ht t3, t4,
    (solver_at hr ht hj hbef htest).1⟩

theorem never_late {debug : Bool} (hb : IsBrent o ob target rf) (hr : 0 < o.radius) (hR : 0 < ob.radius) (ht : 0 ≤ target)
    (hw : WithinReach o ob target) {now T τ : ℝ} (hT : orbitalPeriod o = .ok T) (hT6 : 6 ≤ T) (h0 : 0 ≤ now) (hlong : now + T ≤ 1000000)
    (hvis : gap o ob now < target) (hstay : gap o ob (now - 1) < target ∨ gap o ob (now + 2) < target)
    (t1 : now < τ) (t2 : τ < now + T / 2) (hτ : gap o ob τ = target) (hbefore : ∀ t, now ≤ t → t < τ → gap o ob t < target)
    (hafter : ∀ t, τ < t → t ≤ τ + T / 2 → target < gap o ob t)
    (hthird : ∀ r σ, distanceSolver debug rf o ob target now (now + T) = .ok (some r) → τ + T / 2 < σ → σ ≤ now + T → gap o ob σ = target →
      |r - σ| < 0.000001 * σ → gap o ob (r - 1) ≤ target →
      gap o ob now ≤ gap o ob (r - 1) ∧ gap o ob (r - 1) < target ∧ target < gap o ob (now + T / 2 - 2))
    (hc : ∀ r, distanceSolver debug rf o ob target now (now + T) = .ok (some r) → now + T / 2 - 1 < r → Converges rf now (r - 1))
    {q : ℝ} (hq : findNextCross debug rf o ob target now = .ok (some q)) : now ≤ q ∧ q < τ + 0.000001 * τ := by
  have hhalf := C82_half hr hR ht hw hT hvis.le
  obtain ⟨T', res, hT', hres, hin, hnone, hfst⟩ := C51_accepted (debug := debug) (C81_stays hb) hr (ob := ob) ht now
  rw [hT] at hT'
  simp only [Outcome.ok.injEq] at hT'
  subst hT'
  rw [hq] at hres
  simp only [Outcome.ok.injEq] at hres
  subst hres
  obtain ⟨res1, hfirst, -⟩ := solver_ok (debug := debug) (C81_stays hb) hr (ob := ob) ht now (now + T) (by linarith)
  obtain ⟨r, rfl⟩ : ∃ r, res1 = some r := by
    cases res1 with
    | none => exact absurd (hnone.mpr hfirst) (by simp)
    | some r => exact ⟨r, rfl⟩
  obtain ⟨q', hq', hqr, -, hsecond⟩ := hfst r hfirst
  simp only [Option.some.injEq] at hq'
  subst hq'
  refine ⟨(hin q rfl).1, ?_⟩
  have hn : excess o ob target now < 0 := (excess_neg ht).mpr hvis
  have hbr : Bracketed (excess o ob target) now (now + T) := by
    have hm : 0 < excess o ob target ((now + (now + T)) / 2) := (excess_pos ht).mpr (by
      rwa [show (now + (now + T)) / 2 = now + T / 2 by ring])
    by_cases hs : SameSign (excess o ob target now) (excess o ob target (now + T))
    · refine .inr ⟨hs, ?_, ?_, ?_⟩
      · rintro (⟨a, -⟩ | ⟨-, a⟩) <;> linarith
      · rw [abs_of_nonneg h0]; linarith
      · rw [abs_of_nonneg (by linarith)]; linarith
    · exact .inl hs
  obtain ⟨σ, s1, s2, hσ, hrσ⟩ := solver_answer hb ht h0 (by linarith) hbr hfirst
  obtain ⟨a1, a2⟩ := abs_lt.mp hrσ
  have hroot : ∀ x, now ≤ x → gap o ob x = target → x = τ ∨ τ + T / 2 < x := by
    intro x hx hgx
    rcases lt_trichotomy x τ with h | h | h
    · exact absurd hgx (hbefore x hx h).ne
    · exact .inl h
    · right
      by_contra hcon
      exact absurd hgx (hafter x h (not_lt.mp hcon)).ne'
  have haccept : ∀ x, now ≤ x → |x - τ| < 0.000001 * τ → Accepted o ob target x := by
    intro x hx hxτ
    obtain ⟨b1, b2⟩ := abs_lt.mp hxτ
    left
    rcases le_or_gt now (x - 1) with h | h
    · exact hbefore _ h (by linarith)
    · rcases hstay with h' | h'
      · rcases hx.eq_or_lt with rfl | hx
        · exact h'
        · exact C82_no_gap hr hR ht hw hT h'.le hvis.le (by linarith) h (by linarith)
      · exfalso
        exact absurd h' (not_lt.mpr (hafter (now + 2) (by linarith) (by linarith)).le)
  rcases hroot σ s1 hσ with rfl | hfar
  · linarith
  have hlate : now + T / 2 - 1 < r := by linarith
  have hlt : now < r - 1 := by linarith
  have hfinish : ∀ x ξ, now ≤ x → now ≤ ξ → gap o ob ξ = target → |x - ξ| < 0.000001 * ξ → ξ ≤ τ + T / 2 →
      (Accepted o ob target x → distanceSolver debug rf o ob target now (r - 1) = .ok (some x)) → q < τ + 0.000001 * τ := by
    intro x ξ hx hξ hgξ hxξ hnear hans
    rcases hroot ξ hξ hgξ with rfl | h
    · rw [hsecond x hlt (hans (haccept x hx hxξ))]
      linarith [(abs_lt.mp hxξ).2]
    · linarith
  rcases lt_or_ge target (gap o ob (r - 1)) with hfurther | hcloser
  · have hp : 0 < excess o ob target (r - 1) := (excess_pos ht).mpr hfurther
    obtain ⟨x, ξ, x1, x2, y1, y2, hξ, hxξ, hans⟩ := solver_root (debug := debug) hb hr ht h0 hlt.le (hc r hfirst hlate)
      (.inl (by rintro (⟨-, a⟩ | ⟨a, -⟩) <;> linarith))
    refine hfinish x ξ x1 y1 hξ hxξ ?_ hans
    by_contra hcon
    have hne : ξ ≠ r - 1 := fun h => by rw [h] at hξ; linarith
    have := C82_no_gap hr hR ht hw hT hξ.le hσ.le (t := r - 1) (lt_of_le_of_ne y2 hne) (by linarith) (by linarith)
    linarith
  · obtain ⟨c1, c2, c3⟩ := hthird r σ hfirst hfar s2 hσ hrσ hcloser
    have hτ2 : τ < now + T / 2 - 2 := by
      by_contra hcon
      rcases (not_lt.mp hcon).eq_or_lt with h | h
      · rw [h, hτ] at c3; exact lt_irrefl _ c3
      · linarith [hbefore _ (by linarith) h]
    obtain ⟨x, ξ, x1, x2, y1, y2, hξ, hxξ, hans⟩ := solver_half (debug := debug) hb hr ht h0 (by linarith) (by linarith) (hc r hfirst hlate) c2 c1
      (hafter _ (by linarith) (by linarith))
    exact hfinish x ξ x1 y1 hξ hxξ (by linarith) hans

/-- For every orbit and observer with the distance within reach: the time that the search answers for a satellite that is closer now is not past, and
not later than the end of this pass by a millionth of the time.  The hypothesis `hthird` is for a first answer that is close to the end of
the next pass: then the satellite must be at least as close now as a second before that answer. -/
theorem C82_never_late {debug : Bool} (hb : IsBrent o ob target rf) (hr : 0 < o.radius) (hR : 0 < ob.radius) (ht : 0 ≤ target)
    (hw : WithinReach o ob target) {now T : ℝ} (hT : orbitalPeriod o = .ok T) (hT6 : 6 ≤ T) (h0 : 0 ≤ now) (hlong : now + T ≤ 1000000)
    (hvis : gap o ob now < target) (hstay : gap o ob (now - 1) < target ∨ gap o ob (now + 2) < target)
    (hthird : ∀ r, distanceSolver debug rf o ob target now (now + T) = .ok (some r) → now + T / 2 - 1 < r → gap o ob (r - 1) ≤ target →
      gap o ob now ≤ gap o ob (r - 1) ∧ gap o ob (r - 1) < target ∧ target < gap o ob (now + T / 2 - 2))
    (hc : ∀ r, distanceSolver debug rf o ob target now (now + T) = .ok (some r) → now + T / 2 - 1 < r → Converges rf now (r - 1))
    {q : ℝ} (hq : findNextCross debug rf o ob target now = .ok (some q)) :
    ∃ τ, now < τ ∧ τ < now + T / 2 ∧ gap o ob τ = target ∧ (∀ t, now ≤ t → t < τ → gap o ob t < target) ∧ now ≤ q ∧ q < τ + 0.000001 * τ := by
  obtain ⟨τ, t1, t2, hτ, hbefore, hafter⟩ := C82_sets hr hR ht hw hT hvis
  refine ⟨τ, t1, t2, hτ, hbefore, never_late hb hr hR ht hw hT hT6 h0 hlong hvis hstay t1 t2 hτ hbefore hafter ?_ hc hq⟩
  intro r σ hfirst hfar s2 _ hrσ hcloser
  exact hthird r hfirst (by linarith [(abs_lt.mp hrσ).1]) hcloser

/-- In particular if the satellite is also closer one period from now, or is not in the second half of that period: then there is no second end of
a pass in the interval searched. -/
theorem C82_no_third {debug : Bool} (hb : IsBrent o ob target rf) (hr : 0 < o.radius) (hR : 0 < ob.radius) (ht : 0 ≤ target)
    (hw : WithinReach o ob target) {now T : ℝ} (hT : orbitalPeriod o = .ok T) (hT6 : 6 ≤ T) (h0 : 0 ≤ now) (hlong : now + T ≤ 1000000)
    (hvis : gap o ob now < target) (hstay : gap o ob (now - 1) < target ∨ gap o ob (now + 2) < target)
    (hnext : gap o ob (now + T) < target ∨ ∀ t, now + T / 2 < t → t ≤ now + T → target < gap o ob t)
    (hc : ∀ r, distanceSolver debug rf o ob target now (now + T) = .ok (some r) → now + T / 2 - 1 < r → Converges rf now (r - 1))
    {q : ℝ} (hq : findNextCross debug rf o ob target now = .ok (some q)) :
    ∃ τ, now < τ ∧ τ < now + T / 2 ∧ gap o ob τ = target ∧ (∀ t, now ≤ t → t < τ → gap o ob t < target) ∧ now ≤ q ∧ q < τ + 0.000001 * τ := by
  obtain ⟨τ, t1, t2, hτ, hbefore, hafter⟩ := C82_sets hr hR ht hw hT hvis
  refine ⟨τ, t1, t2, hτ, hbefore, never_late hb hr hR ht hw hT hT6 h0 hlong hvis hstay t1 t2 hτ hbefore hafter ?_ hc hq⟩
  intro r σ hfirst hfar s2 hσ hrσ hcloser
  obtain ⟨a1, a2⟩ := abs_lt.mp hrσ
  exfalso
  rcases hnext with h | h
  · rcases le_or_gt (r - 1) (τ + T / 2) with h' | h'
    · linarith [hafter (r - 1) (by linarith) h']
    · have hlt : σ < now + T := lt_of_le_of_ne s2 (fun e => by rw [e] at hσ; linarith)
      linarith [C82_no_gap hr hR ht hw hT hcloser h.le (t := σ) (by linarith) hlt (by linarith)]
  · linarith [h σ (by linarith) s2]

/-- Every hypothesis of the theorems above is met by a satellite 629 km above the equator, straight over the observer at time 1000. -/
example : ∃ (o : Elements) (ob : Observer) (target now T : ℝ) (rf : RootFinder), IsBrent o ob target rf ∧ 0 < o.radius ∧ 0 < ob.radius ∧
    0 ≤ target ∧ WithinReach o ob target ∧ orbitalPeriod o = .ok T ∧ 6 ≤ T ∧ 0 ≤ now ∧ now + T ≤ 1000000 ∧ gap o ob now < target ∧
    gap o ob (now + 2) < target ∧ (∀ t, now + T / 2 < t → t ≤ now + T → target < gap o ob t) ∧
    (∀ r, distanceSolver true rf o ob target now (now + T) = .ok (some r) → now + T / 2 - 1 < r → Converges rf now (r - 1)) ∧
    ∃ q, findNextCross true rf o ob target now = .ok (some q) := by
  obtain ⟨lon, target, T, τ, τ', rf, hrf, ht, htarget, hT, hT1, hlong, hpass, honce, hlater, -, hconv, hc⟩ := equator7000
  obtain ⟨n1, n2⟩ := motion7000
  have hTn := period_eq (o := ⟨0, 0, 7000000, 0⟩) (by norm_num) hT
  have hT6 : 6 ≤ T := by
    rw [hTn, le_div_iff₀ (by linarith)]
    linarith [pi_gt_three]
  obtain ⟨q, hq, -⟩ := C81_not_late (debug := true) hrf (by norm_num) ht hT hT1 hlong (by norm_num) hpass hconv (fun r h1 h2 => hc r h1 (by linarith))
  refine ⟨_, _, target, 1000, T, rf, hrf, by norm_num, by norm_num, ht, ?_, hT, hT6, by norm_num, hlong,
    hpass.before _ (le_refl _) hpass.future, hpass.before _ (by norm_num) hlater, ?_, hc, q, hq⟩
  · have hd : drift ⟨0, 0, 7000000, 0⟩ ≤ 0.15 := by
      unfold drift
      have h1 : earthRotation / meanMotion 7000000 ≤ 0.07 := by
        rw [div_le_iff₀ (by linarith), show earthRotation = 7.292115922e-5 from rfl]
        linarith
      have h0 : 0 ≤ earthRotation / meanMotion 7000000 :=
        div_nonneg (by rw [show earthRotation = 7.292115922e-5 from rfl]; norm_num) (by linarith)
      nlinarith
    unfold WithinReach
    linarith
  · intro t h1 h2
    exact hpass.between t (by linarith [hpass.half.1]) (by linarith) (by linarith)

end Search

end Orbit
end Icarus
