import Verif.Model.Geodetic
import Mathlib.Analysis.SpecialFunctions.Trigonometric.ArctanDeriv
import Mathlib.Analysis.SpecialFunctions.Trigonometric.Bounds
import Mathlib.Analysis.SpecialFunctions.Sqrt
import Mathlib.Analysis.Calculus.MeanValue
import Mathlib.Analysis.Real.Pi.Bounds
import Mathlib.Tactic.Linarith
import Mathlib.Tactic.FieldSimp
import Mathlib.Tactic.Ring
import Mathlib.Tactic.NormNum

/-!
# Geographic coordinates of a position (C88)
-/

set_option autoImplicit false

namespace Icarus
namespace Geodetic
open Real

theorem atan2_of_pos {x : ℝ} (hx : 0 < x) (y : ℝ) : atan2 y x = arctan (y / x) := by
  have h1 : |Complex.arg ⟨x, y⟩| < π / 2 := Complex.abs_arg_lt_pi_div_two_iff.mpr (.inl hx)
  have h2 := Complex.tan_arg ⟨x, y⟩
  rw [abs_lt] at h1
  rw [atan2, ← arctan_tan (by linarith) h1.2, h2]

/-- Radius of curvature times `cos`: `N * cos lat`. -/
noncomputable def foot (a e2 lat : ℝ) : ℝ := a * cos lat / √(1 - e2 * sin lat * sin lat)

/-- Standing assumptions on the spheroid. -/
structure Sph (a e2 : ℝ) : Prop where
  a_pos : 0 < a
  e2_nonneg : 0 ≤ e2
  e2_small : e2 ≤ 1 / 100

theorem rad_ge {a e2 : ℝ} (h : Sph a e2) (lat : ℝ) : 1 - e2 ≤ 1 - e2 * sin lat * sin lat ∧ 1 - e2 * sin lat * sin lat ≤ 1 := by
  have := h.e2_nonneg
  have := sin_sq_le_one lat
  constructor <;> nlinarith [sq_nonneg (sin lat)]

theorem sqrt_rad {a e2 : ℝ} (h : Sph a e2) (lat : ℝ) : 1 - e2 ≤ √(1 - e2 * sin lat * sin lat) ∧ √(1 - e2 * sin lat * sin lat) ≤ 1 := by
  obtain ⟨h1, h2⟩ := rad_ge h lat
  have := h.e2_small
  have := h.e2_nonneg
  constructor
  · apply Real.le_sqrt_of_sq_le
    nlinarith
  · exact Real.sqrt_le_iff.mpr ⟨by norm_num, by linarith⟩

theorem foot_abs_le {a e2 : ℝ} (h : Sph a e2) (lat : ℝ) : |foot a e2 lat| ≤ a := by
  obtain ⟨h1, h2⟩ := rad_ge h lat
  obtain ⟨s1, s2⟩ := sqrt_rad h lat
  have := h.e2_small
  have hs : 0 < √(1 - e2 * sin lat * sin lat) := by linarith
  rw [foot, abs_div, abs_mul, abs_of_pos h.a_pos, abs_of_pos hs, div_le_iff₀ hs]
  apply mul_le_mul_of_nonneg_left _ h.a_pos.le
  apply Real.abs_le_sqrt
  have := sin_sq_add_cos_sq lat
  have := h.e2_nonneg
  nlinarith [sq_nonneg (sin lat)]

theorem foot_hasDerivAt {a e2 : ℝ} (h : Sph a e2) (lat : ℝ) :
    HasDerivAt (foot a e2) (-(a * sin lat * (1 - e2) / ((1 - e2 * sin lat * sin lat) * √(1 - e2 * sin lat * sin lat)))) lat := by
  obtain ⟨h1, -⟩ := rad_ge h lat
  have := h.e2_small
  have hw : 0 < 1 - e2 * sin lat * sin lat := by linarith
  have hs : 0 < √(1 - e2 * sin lat * sin lat) := Real.sqrt_pos.mpr hw
  have d1 : HasDerivAt (fun x => 1 - e2 * sin x * sin x) (-(e2 * cos lat * sin lat + e2 * sin lat * cos lat)) lat := by
    have := (((hasDerivAt_sin lat).const_mul e2).mul (hasDerivAt_sin lat)).const_sub 1
    exact this
  have d2 := d1.sqrt hw.ne'
  have d3 := ((hasDerivAt_cos lat).const_mul a).div d2 hs.ne'
  refine d3.congr_deriv ?_
  have hsq : √(1 - e2 * sin lat * sin lat) ^ 2 = 1 - e2 * sin lat * sin lat := Real.sq_sqrt hw.le
  generalize √(1 - e2 * sin lat * sin lat) = w at *
  have hc : cos lat ^ 2 = 1 - sin lat ^ 2 := by have := sin_sq_add_cos_sq lat; linarith
  rw [← hsq]
  field_simp
  rw [hsq]
  ring_nf
  rw [hc]
  ring

/-- `foot` varies at most `a / (1 - e2)` per radian. -/
theorem foot_lipschitz {a e2 : ℝ} (h : Sph a e2) (x y : ℝ) : |foot a e2 x - foot a e2 y| ≤ a / (1 - e2) * |x - y| := by
  have key := Convex.norm_image_sub_le_of_norm_hasDerivWithin_le (f := foot a e2) (s := Set.univ) (C := a / (1 - e2))
    (fun z _ => (foot_hasDerivAt h z).hasDerivWithinAt) (by
      intro z _
      obtain ⟨h1, -⟩ := rad_ge h z
      obtain ⟨s1, -⟩ := sqrt_rad h z
      have := h.e2_small
      have ha := h.a_pos
      have hw : 0 < 1 - e2 * sin z * sin z := by linarith
      have hs : 0 < √(1 - e2 * sin z * sin z) := by linarith
      rw [norm_neg, Real.norm_eq_abs, abs_div, abs_of_pos (mul_pos hw hs), abs_mul, abs_mul, abs_of_pos ha, abs_of_pos (by linarith : 0 < 1 - e2),
        div_le_div_iff₀ (mul_pos hw hs) (by linarith)]
      have hsin := abs_sin_le_one z
      have e1 : a * |sin z| * (1 - e2) ≤ a * (1 - e2) := by nlinarith [mul_nonneg ha.le (by linarith : 0 ≤ 1 - e2)]
      have e2' : (1 - e2) * (1 - e2) ≤ (1 - e2 * sin z * sin z) * √(1 - e2 * sin z * sin z) := mul_le_mul h1 s1 (by linarith) hw.le
      calc a * |sin z| * (1 - e2) * (1 - e2) ≤ a * (1 - e2) * (1 - e2) := mul_le_mul_of_nonneg_right e1 (by linarith)
        _ = a * ((1 - e2) * (1 - e2)) := by ring
        _ ≤ a * ((1 - e2 * sin z * sin z) * √(1 - e2 * sin z * sin z)) := mul_le_mul_of_nonneg_left e2' ha.le)
    convex_univ (Set.mem_univ y) (Set.mem_univ x)
  simpa [Real.norm_eq_abs] using key

/-- The direction of `(D, z)` varies at most `1 / ρ` per metre of `D`, at distance at least `ρ`. -/
theorem arctan_lipschitz {z m ρ : ℝ} (hm : 0 < m) (hρ : 0 < ρ) (hdist : ∀ D, m ≤ D → ρ ^ 2 ≤ D ^ 2 + z ^ 2) {x y : ℝ} (hx : m ≤ x) (hy : m ≤ y) :
    |arctan (z / x) - arctan (z / y)| ≤ 1 / ρ * |x - y| := by
  have key := Convex.norm_image_sub_le_of_norm_hasDerivWithin_le (f := fun D => arctan (z / D)) (f' := fun D => -(z / (D ^ 2 + z ^ 2))) (s := Set.Ici m)
    (C := 1 / ρ) (by
      intro D hD
      have hD0 : 0 < D := lt_of_lt_of_le hm hD
      have d1 : HasDerivAt (fun D => z / D) (-z / D ^ 2) D := by
        refine ((hasDerivAt_const D z).div (hasDerivAt_id D) hD0.ne').congr_deriv ?_
        simp
      have d2 := d1.arctan
      refine (d2.congr_deriv ?_).hasDerivWithinAt
      field_simp) (by
      intro D hD
      have h1 := hdist D hD
      have hpos : 0 < D ^ 2 + z ^ 2 := lt_of_lt_of_le (by positivity) h1
      rw [norm_neg, Real.norm_eq_abs, abs_div, abs_of_pos hpos, div_le_div_iff₀ hpos hρ, one_mul]
      rcases le_total |z| ρ with h | h
      · nlinarith [abs_nonneg z]
      · have : |z| ^ 2 = z ^ 2 := sq_abs z
        nlinarith [sq_nonneg D])
    (convex_Ici m) (Set.mem_Ici.mpr hy) (Set.mem_Ici.mpr hx)
  simpa [Real.norm_eq_abs] using key

/-- Distance from the axis at which the latitude is that of the normal through the position. -/
noncomputable def dd (a e2 p lat : ℝ) : ℝ := p - e2 * foot a e2 lat

/-- The next latitude. -/
noncomputable def next (a e2 p z lat : ℝ) : ℝ := arctan (z / dd a e2 p lat)

/-- A position off the axis, at most a tenth of the radius below the surface. -/
structure Far (a e2 p z : ℝ) : Prop extends Sph a e2 where
  p_pos : 0 < p
  far : (9 / 10 * a) ^ 2 ≤ p ^ 2 + z ^ 2

theorem dist_ge {a e2 p z : ℝ} (h : Far a e2 p z) {D : ℝ} (hD : 0 < D) (hD' : p - e2 * a ≤ D) : (89 / 100 * a) ^ 2 ≤ D ^ 2 + z ^ 2 := by
  have ha := h.a_pos
  have hp := h.p_pos
  have hfar := h.far
  have he : e2 * a ≤ a / 100 := by have := mul_le_mul_of_nonneg_right h.e2_small ha.le; linarith
  rcases le_total p (a / 100) with hlt | hge
  · nlinarith [sq_nonneg D]
  · obtain ⟨R, hR⟩ : ∃ R, R = √(p ^ 2 + z ^ 2) := ⟨_, rfl⟩
    have hR2 : R ^ 2 = p ^ 2 + z ^ 2 := by rw [hR]; exact Real.sq_sqrt (by positivity)
    have hR0 : 0 ≤ R := by rw [hR]; positivity
    have hRa : 9 / 10 * a ≤ R := by nlinarith
    have hpR : p ≤ R := by nlinarith [sq_nonneg z]
    have h1 : (p - a / 100) ^ 2 ≤ D ^ 2 := by
      apply pow_le_pow_left₀ (by linarith) (by linarith)
    nlinarith

theorem dd_ge {a e2 p : ℝ} (h : Sph a e2) (lat : ℝ) : p - e2 * a ≤ dd a e2 p lat := by
  have := (abs_le.mp (foot_abs_le h lat)).2
  have := h.e2_nonneg
  rw [dd]
  nlinarith

/-- The iteration is a contraction: every step divides the error by more than eighty. -/
theorem next_contracts {a e2 p z : ℝ} (h : Far a e2 p z) {x y : ℝ} (hx : 0 < dd a e2 p x) (hy : 0 < dd a e2 p y) :
    |next a e2 p z x - next a e2 p z y| ≤ 3 / 250 * |x - y| := by
  have ha := h.a_pos
  have he := h.e2_small
  have he0 := h.e2_nonneg
  have hρ : 0 < 89 / 100 * a := by positivity
  have h1 := arctan_lipschitz (z := z) (m := min (dd a e2 p x) (dd a e2 p y)) (lt_min hx hy) hρ
    (fun D hD => dist_ge h (lt_of_lt_of_le (lt_min hx hy) hD) (le_trans (le_min (dd_ge h.toSph x) (dd_ge h.toSph y)) hD))
    (min_le_left _ _) (min_le_right _ _)
  have h2 := foot_lipschitz h.toSph x y
  have h3 : |dd a e2 p x - dd a e2 p y| = e2 * |foot a e2 x - foot a e2 y| := by
    rw [dd, dd, show p - e2 * foot a e2 x - (p - e2 * foot a e2 y) = -(e2 * (foot a e2 x - foot a e2 y)) by ring, abs_neg, abs_mul, abs_of_nonneg he0]
  have h4 : 1 / (89 / 100 * a) * (e2 * (a / (1 - e2))) ≤ 3 / 250 := by
    rw [show 1 / (89 / 100 * a) * (e2 * (a / (1 - e2))) = e2 / (89 / 100 * (1 - e2)) by field_simp]
    rw [div_le_iff₀ (by nlinarith)]
    linarith
  calc |next a e2 p z x - next a e2 p z y| ≤ 1 / (89 / 100 * a) * |dd a e2 p x - dd a e2 p y| := h1
    _ = 1 / (89 / 100 * a) * (e2 * |foot a e2 x - foot a e2 y|) := by rw [h3]
    _ ≤ 1 / (89 / 100 * a) * (e2 * (a / (1 - e2) * |x - y|)) := by gcongr
    _ = 1 / (89 / 100 * a) * (e2 * (a / (1 - e2))) * |x - y| := by ring
    _ ≤ 3 / 250 * |x - y| := by gcongr

/-- The latitudes that the loop goes through. -/
def Good (p z lat : ℝ) : Prop := ∃ D, 0 < D ∧ D ≤ p ∧ lat = arctan (z / D)

theorem Good.cos_pos {p z lat : ℝ} (h : Good p z lat) : 0 < cos lat := by
  obtain ⟨D, -, -, rfl⟩ := h
  exact cos_arctan_pos _

theorem foot_le_cos {a e2 : ℝ} (h : Sph a e2) {lat : ℝ} (hc : 0 < cos lat) : 0 < foot a e2 lat ∧ foot a e2 lat ≤ a * cos lat / (99 / 100) := by
  have := h.e2_small
  have ha := h.a_pos
  obtain ⟨s1, -⟩ := sqrt_rad h lat
  have hs : 99 / 100 ≤ √(1 - e2 * sin lat * sin lat) := by linarith
  constructor
  · rw [foot]; positivity
  · rw [foot]; gcongr

theorem Good.dd_pos {a e2 p z lat : ℝ} (h : Far a e2 p z) (hg : Good p z lat) : 0 < dd a e2 p lat ∧ dd a e2 p lat ≤ p := by
  have ha := h.a_pos
  have hp := h.p_pos
  have he := h.e2_small
  have he0 := h.e2_nonneg
  obtain ⟨f1, f2⟩ := foot_le_cos h.toSph hg.cos_pos
  refine ⟨?_, by rw [dd]; nlinarith⟩
  rcases le_total |z| (a / 50) with hz | hz
  · have hz2 : z ^ 2 ≤ (a / 50) ^ 2 := by rw [← sq_abs]; exact pow_le_pow_left₀ (abs_nonneg z) hz 2
    have hfar := h.far
    have hpa : a / 100 < p := by nlinarith
    have := dd_ge (p := p) h.toSph lat
    have he : e2 * a ≤ a / 100 := by have := mul_le_mul_of_nonneg_right h.e2_small ha.le; linarith
    linarith
  · obtain ⟨D, d1, d2, rfl⟩ := hg
    have hz0 : 0 < |z| := lt_of_lt_of_le (by positivity) hz
    have hcos : cos (arctan (z / D)) * |z| ≤ p := by
      rw [cos_arctan]
      have h1 : |z| / D ≤ √(1 + (z / D) ^ 2) := by
        apply Real.le_sqrt_of_sq_le
        rw [div_pow, div_pow, sq_abs]; linarith
      have h2 : 0 < √(1 + (z / D) ^ 2) := by positivity
      rw [div_mul_eq_mul_div, div_le_iff₀ h2, one_mul]
      have h3 : |z| ≤ D * √(1 + (z / D) ^ 2) := by rw [div_le_iff₀ d1] at h1; linarith
      nlinarith
    have h4 : e2 * foot a e2 (arctan (z / D)) * |z| < p * |z| := by
      have : e2 * foot a e2 (arctan (z / D)) ≤ 1 / 100 * (a * cos (arctan (z / D)) / (99 / 100)) := by gcongr
      have h5 : e2 * foot a e2 (arctan (z / D)) * |z| ≤ 1 / 99 * a * (cos (arctan (z / D)) * |z|) := by nlinarith
      have h6 : 1 / 99 * a * (cos (arctan (z / D)) * |z|) ≤ 1 / 99 * a * p := by gcongr
      nlinarith
    have := lt_of_mul_lt_mul_right h4 hz0.le
    rw [dd]; linarith

theorem Good.next {a e2 p z lat : ℝ} (h : Far a e2 p z) (hg : Good p z lat) : Good p z (next a e2 p z lat) :=
  ⟨dd a e2 p lat, (hg.dd_pos h).1, (hg.dd_pos h).2, rfl⟩

/-- One pass through the loop. -/
theorem latLoop_succ {a e2 p z lat : ℝ} (h : Far a e2 p z) (hg : Good p z lat) (fuel : ℕ) :
    latLoop a e2 p z (fuel + 1) lat = if |Geodetic.next a e2 p z lat - lat| > tolerance then latLoop a e2 p z fuel (Geodetic.next a e2 p z lat)
      else .ok (Geodetic.next a e2 p z lat, p / cos lat - a / √(1 - e2 * sin lat * sin lat)) := by
  have hc := hg.cos_pos
  have hp := h.p_pos
  have he := h.e2_small
  obtain ⟨s1, -⟩ := sqrt_rad h.toSph lat
  have hs : 0 < √(1 - e2 * sin lat * sin lat) := by linarith
  have harg : p * (1 - e2 * (a / √(1 - e2 * sin lat * sin lat)) / (p / cos lat)) = dd a e2 p lat := by
    rw [dd, foot]
    field_simp
  rw [latLoop, if_neg (by simp [hp.ne', hc.ne'])]
  simp only [harg, atan2_of_pos (hg.dd_pos h).1]
  rfl

/-- The loop ends, with the successor of a latitude that it moves by no more than the tolerance. -/
theorem latLoop_ends {a e2 p z : ℝ} (h : Far a e2 p z) (k : ℕ) : ∀ lat B : ℝ, Good p z lat → |Geodetic.next a e2 p z lat - lat| ≤ B →
    (3 / 250) ^ k * B ≤ tolerance →
    ∃ ψ, Good p z ψ ∧ |Geodetic.next a e2 p z ψ - ψ| ≤ tolerance ∧ ∀ fuel, k + 1 ≤ fuel →
      latLoop a e2 p z fuel lat = .ok (Geodetic.next a e2 p z ψ, p / cos ψ - a / √(1 - e2 * sin ψ * sin ψ)) := by
  induction k with
  | zero =>
    intro lat B hg hB hk
    refine ⟨lat, hg, by linarith, ?_⟩
    rintro (- | fuel) hf
    · omega
    · rw [latLoop_succ h hg, if_neg (by linarith)]
  | succ k ih =>
    intro lat B hg hB hk
    by_cases hstop : |Geodetic.next a e2 p z lat - lat| > tolerance
    · obtain ⟨ψ, p1, p2, p3⟩ := ih (Geodetic.next a e2 p z lat) (3 / 250 * B) (hg.next h)
        (le_trans (next_contracts h ((hg.next h).dd_pos h).1 (hg.dd_pos h).1) (by gcongr)) (by rw [← mul_assoc, ← pow_succ]; exact hk)
      refine ⟨ψ, p1, p2, ?_⟩
      rintro (- | fuel) hf
      · omega
      · rw [latLoop_succ h hg, if_pos hstop]
        exact p3 fuel (by omega)
    · refine ⟨lat, hg, not_lt.mp hstop, ?_⟩
      rintro (- | fuel) hf
      · omega
      · rw [latLoop_succ h hg, if_neg hstop]

theorem tolerance_ge : 1615 / 10 ^ 10 ≤ tolerance := by
  have := pi_gt_d2
  rw [tolerance]
  norm_num
  linarith

theorem tolerance_le : tolerance ≤ 1617 / 10 ^ 10 := by
  have := pi_lt_d4
  rw [tolerance]
  norm_num
  linarith

/-- Started as in the code, the loop ends within five iterations. -/
theorem latLoop_five {a e2 p z : ℝ} (h : Far a e2 p z) :
    ∃ ψ, Good p z ψ ∧ |Geodetic.next a e2 p z ψ - ψ| ≤ tolerance ∧ ∀ fuel, 5 ≤ fuel →
      latLoop a e2 p z fuel (atan2 z (p * (1 - e2))) = .ok (Geodetic.next a e2 p z ψ, p / cos ψ - a / √(1 - e2 * sin ψ * sin ψ)) := by
  have hp := h.p_pos
  have he := h.e2_small
  have he0 := h.e2_nonneg
  have hD : 0 < p * (1 - e2) := mul_pos hp (by linarith)
  rw [atan2_of_pos hD]
  have hg : Good p z (arctan (z / (p * (1 - e2)))) := ⟨_, hD, by nlinarith, rfl⟩
  refine latLoop_ends h 4 _ (8 / 5) hg ?_ ?_
  · have hd := (hg.dd_pos h).1
    rw [Geodetic.next]
    generalize dd a e2 p (arctan (z / (p * (1 - e2)))) = D at *
    have hpi := pi_lt_d4
    have b1 := arctan_lt_pi_div_two (z / D)
    have b2 := arctan_lt_pi_div_two (z / (p * (1 - e2)))
    have b3 := neg_pi_div_two_lt_arctan (z / D)
    have b4 := neg_pi_div_two_lt_arctan (z / (p * (1 - e2)))
    rw [abs_le]
    rcases le_total 0 z with hz | hz
    · have c1 : 0 ≤ arctan (z / D) := arctan_nonneg.mpr (by positivity)
      have c2 : 0 ≤ arctan (z / (p * (1 - e2))) := arctan_nonneg.mpr (by positivity)
      constructor <;> linarith
    · have c1 : arctan (z / D) ≤ 0 := by
        rw [← arctan_zero]; exact arctan_strictMono.monotone (div_nonpos_of_nonpos_of_nonneg hz hd.le)
      have c2 : arctan (z / (p * (1 - e2))) ≤ 0 := by
        rw [← arctan_zero]; exact arctan_strictMono.monotone (div_nonpos_of_nonpos_of_nonneg hz hD.le)
      constructor <;> linarith
  · have := tolerance_ge
    norm_num at this ⊢
    linarith

/-! ## From the loop to the function -/

theorem sph_of (sph : Spheroid) : Sph (semiMajor sph) (eccentricity sph * eccentricity sph) := by
  cases sph <;> constructor <;> norm_num [semiMajor, eccentricity]

/-- Distance from the axis. -/
noncomputable def axisDist (pos : ℝ × ℝ × ℝ) : ℝ := √(pos.1 ^ 2 + pos.2.1 ^ 2)

theorem canonical_of_range {lat : ℝ} (lon : ℝ) (h1 : |lat| < 90) :
    canonical lat lon = (lat, if lon = 180 then -180 else lon) := by
  rw [abs_lt] at h1
  simp only [canonical]
  rw [if_neg (by linarith), if_neg (by linarith)]

/-- What the function returns once its loop has ended with a latitude between the poles. -/
theorem toGeographic_of_loop (debug : Bool) (sph : Spheroid) (fuel : ℕ) (pos : ℝ × ℝ × ℝ) (lat alt : ℝ) (hlat : |lat| < π / 2)
    (hloop : latLoop (semiMajor sph) (eccentricity sph * eccentricity sph) (axisDist pos) pos.2.2 fuel
      (atan2 pos.2.2 (axisDist pos * (1 - eccentricity sph * eccentricity sph))) = .ok (lat, alt)) :
    toGeographic debug sph fuel pos = .ok (lat * (180 / π),
      if atan2 pos.2.1 pos.1 * (180 / π) = 180 then -180 else atan2 pos.2.1 pos.1 * (180 / π), alt) ∧
    |lat * (180 / π)| < 90 ∧ -180 < atan2 pos.2.1 pos.1 * (180 / π) ∧ atan2 pos.2.1 pos.1 * (180 / π) ≤ 180 := by
  have hpi := pi_pos
  have hp : √((0 - pos.1) * (0 - pos.1) + (0 - pos.2.1) * (0 - pos.2.1) + (pos.2.2 - pos.2.2) * (pos.2.2 - pos.2.2)) = axisDist pos := by
    rw [axisDist]; congr 1; ring
  have r1 : |lat * (180 / π)| < 90 := by
    rw [abs_mul, abs_of_pos (by positivity : 0 < 180 / π)]
    calc |lat| * (180 / π) < π / 2 * (180 / π) := by gcongr
      _ = 90 := by field_simp; norm_num
  have r2 : -180 < atan2 pos.2.1 pos.1 * (180 / π) := by
    have := Complex.neg_pi_lt_arg ⟨pos.1, pos.2.1⟩
    rw [atan2]
    calc -180 = -π * (180 / π) := by field_simp
      _ < _ := by gcongr
  have r3 : atan2 pos.2.1 pos.1 * (180 / π) ≤ 180 := by
    have := Complex.arg_le_pi ⟨pos.1, pos.2.1⟩
    rw [atan2]
    calc _ ≤ π * (180 / π) := by gcongr
      _ = 180 := by field_simp
  refine ⟨?_, r1, r2, r3⟩
  simp only [toGeographic, hp, hloop, Outcome.bind_ok, canonical_of_range _ r1]
  rw [abs_lt] at r1
  generalize hl : atan2 pos.2.1 pos.1 * (180 / π) = l at *
  have l1 : -180 ≤ if l = 180 then (-180 : ℝ) else l := by split <;> linarith
  have l2 : (if l = 180 then (-180 : ℝ) else l) < 180 := by
    split
    · norm_num
    · rename_i hne; exact lt_of_le_of_ne r3 hne
  simp [Outcome.nsAssert, l1, l2, r1.1.le, r1.2.le]

/-- The position of the given latitude, longitude (degrees) and altitude over the spheroid: along the normal of the ellipsoid
(ns-3's `GeographicPositions::GeographicToCartesianCoordinates`). -/
noncomputable def specPosition (sph : Spheroid) (lat lon h : ℝ) : ℝ × ℝ × ℝ :=
  let φ := lat * (π / 180)
  let l := lon * (π / 180)
  let N := semiMajor sph / √(1 - eccentricity sph ^ 2 * sin φ ^ 2)
  ((N + h) * cos φ * cos l, (N + h) * cos φ * sin l, ((1 - eccentricity sph ^ 2) * N + h) * sin φ)

/-! ## C88 -/

/-- **The conversion ends.**  For every position off the axis that is at most a tenth of the Earth's radius under ground, the loop ends within five iterations, no
assertion fails, and the coordinates are in their range. -/
theorem C88_converges (sph : Spheroid) (pos : ℝ × ℝ × ℝ) (haxis : pos.1 ≠ 0 ∨ pos.2.1 ≠ 0)
    (hfar : 9 / 10 * semiMajor sph ≤ √(pos.1 ^ 2 + pos.2.1 ^ 2 + pos.2.2 ^ 2)) :
    ∃ lat lon h, (∀ debug fuel, 5 ≤ fuel → toGeographic debug sph fuel pos = .ok (lat, lon, h)) ∧
      -90 < lat ∧ lat < 90 ∧ -180 ≤ lon ∧ lon < 180 := by
  have hp : 0 < axisDist pos := by
    rw [axisDist]
    apply Real.sqrt_pos.mpr
    rcases haxis with h | h
    · positivity
    · positivity
  have hS := sph_of sph
  have hF : Far (semiMajor sph) (eccentricity sph * eccentricity sph) (axisDist pos) pos.2.2 := by
    refine ⟨hS, hp, ?_⟩
    have := pow_le_pow_left₀ (by have := hS.a_pos; positivity) hfar 2
    rw [Real.sq_sqrt (by positivity)] at this
    rw [axisDist, Real.sq_sqrt (by positivity)]
    exact this
  obtain ⟨ψ, -, -, hloop⟩ := latLoop_five hF
  have hlat : |Geodetic.next (semiMajor sph) (eccentricity sph * eccentricity sph) (axisDist pos) pos.2.2 ψ| < π / 2 :=
    abs_lt.mpr ⟨by have := neg_pi_div_two_lt_arctan (pos.2.2 / dd (semiMajor sph) (eccentricity sph * eccentricity sph) (axisDist pos) ψ); rw [Geodetic.next]; linarith,
      arctan_lt_pi_div_two _⟩
  have key := fun debug fuel hf => toGeographic_of_loop debug sph fuel pos _ _ hlat (hloop fuel hf)
  obtain ⟨-, r1, r2, r3⟩ := key true 5 (le_refl _)
  rw [abs_lt] at r1
  refine ⟨_, _, _, fun debug fuel hf => (key debug fuel hf).1, r1.1, r1.2, ?_, ?_⟩
  · split <;> linarith
  · split
    · norm_num
    · rename_i hne; exact lt_of_le_of_ne r3 hne

/-- The radius of curvature varies little. -/
theorem radius_lipschitz {a e2 : ℝ} (h : Sph a e2) (x y : ℝ) :
    |a / √(1 - e2 * sin x * sin x) - a / √(1 - e2 * sin y * sin y)| ≤ 11 / 1000 * a * |x - y| := by
  have ha := h.a_pos
  have he := h.e2_small
  have he0 := h.e2_nonneg
  obtain ⟨x1, x2⟩ := sqrt_rad h x
  obtain ⟨y1, y2⟩ := sqrt_rad h y
  obtain ⟨wx, -⟩ := rad_ge h x
  obtain ⟨wy, -⟩ := rad_ge h y
  have hx2 := Real.sq_sqrt (by linarith : 0 ≤ 1 - e2 * sin x * sin x)
  have hy2 := Real.sq_sqrt (by linarith : 0 ≤ 1 - e2 * sin y * sin y)
  generalize √(1 - e2 * sin x * sin x) = u at *
  generalize √(1 - e2 * sin y * sin y) = w at *
  have hu : 0 < u := by linarith
  have hw : 0 < w := by linarith
  have e1 : a / u - a / w = a * ((w ^ 2 - u ^ 2) / (u * w * (u + w))) := by field_simp; ring
  have e3 : w ^ 2 - u ^ 2 = e2 * ((sin x - sin y) * (sin x + sin y)) := by rw [hx2, hy2]; ring
  have e4 : |w ^ 2 - u ^ 2| ≤ 1 / 100 * (|x - y| * 2) := by
    rw [e3, abs_mul, abs_mul, abs_of_nonneg he0]
    have hs : |sin x + sin y| ≤ 2 := (abs_add_le _ _).trans (by have := abs_sin_le_one x; have := abs_sin_le_one y; linarith)
    have := abs_sin_sub_sin_le x y
    gcongr
  have e5 : 19 / 10 ≤ u * w * (u + w) := by
    have : (99 / 100 : ℝ) * (99 / 100) ≤ u * w := mul_le_mul (by linarith) (by linarith) (by norm_num) hu.le
    have : (99 / 100 : ℝ) * (99 / 100) * (99 / 50) ≤ u * w * (u + w) := mul_le_mul this (by linarith) (by norm_num) (by positivity)
    linarith
  have hpos : 0 < u * w * (u + w) := by positivity
  rw [e1, abs_mul, abs_of_pos ha, abs_div, abs_of_pos hpos]
  have : |w ^ 2 - u ^ 2| / (u * w * (u + w)) ≤ 11 / 1000 * |x - y| := by
    rw [div_le_iff₀ hpos]
    nlinarith [abs_nonneg (x - y)]
  nlinarith

theorem longitude {P l lon : ℝ} (hp0 : 0 < P) (hl : l = lon * (π / 180)) (hlon : -180 ≤ lon) (hlon' : lon < 180) :
    (if atan2 (P * sin l) (P * cos l) * (180 / π) = 180 then -180 else atan2 (P * sin l) (P * cos l) * (180 / π)) = lon := by
  have hpi := pi_pos
  have harg : ∀ θ, θ ∈ Set.Ioc (-π) π → atan2 (P * sin θ) (P * cos θ) = θ := by
    intro θ hθ
    have h1 := Complex.arg_mul_cos_add_sin_mul_I hp0 hθ
    rw [atan2, show (⟨P * cos θ, P * sin θ⟩ : ℂ) = (P : ℂ) * (Complex.cos θ + Complex.sin θ * Complex.I) by
      rw [← Complex.ofReal_cos, ← Complex.ofReal_sin]
      generalize cos θ = u
      generalize sin θ = w
      apply Complex.ext <;> simp, h1]
  rcases eq_or_lt_of_le hlon with heq | hlt
  · have hlp : l = -π := by rw [hl, ← heq]; ring
    have := harg π ⟨by linarith, le_refl _⟩
    rw [hlp, sin_neg, cos_neg, show P * -sin π = P * sin π by rw [sin_pi]; ring, this]
    rw [if_pos (by field_simp), ← heq]
  · have hlr : l ∈ Set.Ioc (-π) π := by
      rw [hl]
      constructor
      · calc -π = -180 * (π / 180) := by ring
          _ < _ := by gcongr
      · calc lon * (π / 180) ≤ 180 * (π / 180) := by gcongr
          _ = π := by ring
    rw [harg l hlr, show l * (180 / π) = lon by rw [hl]; field_simp, if_neg hlon'.ne]

theorem spec_facts (sph : Spheroid) (lat lon h : ℝ) (hlat : |lat| < 90) (hh : -(semiMajor sph / 20) ≤ h) {φ : ℝ} (hφ : φ = lat * (π / 180)) {a e2 N : ℝ}
    (ha : a = semiMajor sph) (he2 : e2 = eccentricity sph * eccentricity sph) (hN : N = a / √(1 - e2 * sin φ * sin φ)) :
    Sph a e2 ∧ 0 < N + h ∧ 0 < cos φ ∧
    specPosition sph lat lon h = ((N + h) * cos φ * cos (lon * (π / 180)), (N + h) * cos φ * sin (lon * (π / 180)), ((1 - e2) * N + h) * sin φ) ∧
    axisDist (specPosition sph lat lon h) = (N + h) * cos φ ∧ Far a e2 ((N + h) * cos φ) (((1 - e2) * N + h) * sin φ) := by
  have hpi := pi_pos
  have hS' : Sph a e2 := by rw [ha, he2]; exact sph_of sph
  have ha0 := hS'.a_pos
  have he := hS'.e2_small
  have he0 := hS'.e2_nonneg
  rw [← ha] at hh
  have hφr : |φ| < π / 2 := by
    rw [hφ, abs_mul, abs_of_pos (by positivity : 0 < π / 180)]
    calc |lat| * (π / 180) < 90 * (π / 180) := by gcongr
      _ = π / 2 := by ring
  rw [abs_lt] at hφr
  have hc : 0 < cos φ := cos_pos_of_mem_Ioo ⟨by linarith, hφr.2⟩
  obtain ⟨s1, s2⟩ := sqrt_rad hS' φ
  have hs : 0 < √(1 - e2 * sin φ * sin φ) := by linarith
  have hN1 : a ≤ N := by rw [hN, le_div_iff₀ hs]; nlinarith
  have hB : 9 / 10 * a ≤ (1 - e2) * N + h := by nlinarith
  have hB0 : 0 < (1 - e2) * N + h := by linarith
  have hAB : (1 - e2) * N + h ≤ N + h := by nlinarith
  have hA0 : 0 < N + h := by linarith
  have hpos : specPosition sph lat lon h = ((N + h) * cos φ * cos (lon * (π / 180)), (N + h) * cos φ * sin (lon * (π / 180)), ((1 - e2) * N + h) * sin φ) := by
    simp only [specPosition, ← hφ, hN, ha, he2]
    ring_nf
  have hp0 : 0 < (N + h) * cos φ := mul_pos hA0 hc
  refine ⟨hS', hA0, hc, hpos, ?_, hS', hp0, ?_⟩
  · rw [axisDist, hpos]
    generalize lon * (π / 180) = l
    rw [show ((N + h) * cos φ * cos l) ^ 2 + ((N + h) * cos φ * sin l) ^ 2 = ((N + h) * cos φ) ^ 2 * (sin l ^ 2 + cos l ^ 2) by ring,
      sin_sq_add_cos_sq, mul_one, Real.sqrt_sq hp0.le]
  · have h1 : ((1 - e2) * N + h) ^ 2 ≤ (N + h) ^ 2 := pow_le_pow_left₀ hB0.le hAB 2
    have h2 : (9 / 10 * a) ^ 2 ≤ ((1 - e2) * N + h) ^ 2 := pow_le_pow_left₀ (by positivity) hB 2
    have h3 := sin_sq_add_cos_sq φ
    calc (9 / 10 * a) ^ 2 ≤ ((1 - e2) * N + h) ^ 2 * (sin φ ^ 2 + cos φ ^ 2) := by rw [h3, mul_one]; exact h2
      _ ≤ ((N + h) * cos φ) ^ 2 + (((1 - e2) * N + h) * sin φ) ^ 2 := by nlinarith [sq_nonneg (cos φ)]

theorem altitude_numbers {a h N c : ℝ} (ha0 : 0 < a) (hh : -(a / 20) ≤ h) (hN2 : N ≤ a / (99 / 100)) (hc : 0 < c) (hc1 : c ≤ 1) :
    (N + h) * (1637 / 10 ^ 10) / (99 / 100 * c) + 11 / 1000 * a * (1637 / 10 ^ 10) ≤ 2 / 10 ^ 7 * (a + h) / c := by
  have hA : N + h ≤ 51 / 50 * (a + h) := by linarith
  have hah : 19 / 20 * a ≤ a + h := by linarith
  have e5 : (N + h) * (1637 / 10 ^ 10) / (99 / 100 * c) ≤ 19 / 10 ^ 8 * (a + h) / c := by
    rw [div_mul_eq_div_div]
    gcongr
    rw [div_le_iff₀ (by norm_num)]
    norm_num at hA ⊢
    linarith
  have e6 : 11 / 1000 * a * (1637 / 10 ^ 10) ≤ 1 / 10 ^ 8 * (a + h) / c := by
    rw [le_div_iff₀ hc]
    have : 11 / 1000 * a * (1637 / 10 ^ 10) ≤ 1 / 10 ^ 8 * (a + h) := by
      norm_num at hah ⊢
      linarith
    exact (mul_le_of_le_one_right (by positivity) hc1).trans this
  calc _ ≤ 19 / 10 ^ 8 * (a + h) / c + 1 / 10 ^ 8 * (a + h) / c := add_le_add e5 e6
    _ = 2 / 10 ^ 7 * (a + h) / c := by ring

/-- **The conversion inverts the placing of a station.**  Take the position of any latitude strictly between the poles, any longitude and any altitude, down to a
twentieth of the Earth's radius under ground.  The function returns the longitude exactly and the latitude with an error of at most 1.2e-7 degrees (about a centimetre on
the ground).  The altitude is off by at most `2e-7 * (a + h) / cos lat`, that is a few metres unless the position is close to a pole. -/
theorem C88_inverse (sph : Spheroid) (lat lon h : ℝ) (hlat : |lat| < 90) (hlon : -180 ≤ lon) (hlon' : lon < 180) (hh : -(semiMajor sph / 20) ≤ h) :
    ∃ lat' h', (∀ debug fuel, 5 ≤ fuel → toGeographic debug sph fuel (specPosition sph lat lon h) = .ok (lat', lon, h')) ∧
      |lat' - lat| ≤ 12 / 10 ^ 8 ∧
      (1 / 1000 ≤ cos (lat * (π / 180)) → |h' - h| ≤ 2 / 10 ^ 7 * (semiMajor sph + h) / cos (lat * (π / 180))) := by
  have hpi := pi_pos
  obtain ⟨φ, hφ⟩ : ∃ φ, φ = lat * (π / 180) := ⟨_, rfl⟩
  obtain ⟨l, hl⟩ : ∃ l, l = lon * (π / 180) := ⟨_, rfl⟩
  have hS := sph_of sph
  obtain ⟨a, ha⟩ : ∃ a, a = semiMajor sph := ⟨_, rfl⟩
  obtain ⟨e2, he2⟩ : ∃ e2, e2 = eccentricity sph * eccentricity sph := ⟨_, rfl⟩
  have hS' : Sph a e2 := by rw [ha, he2]; exact hS
  have ha0 := hS'.a_pos
  have he := hS'.e2_small
  have he0 := hS'.e2_nonneg
  rw [← ha] at hh
  have hφr : |φ| < π / 2 := by
    rw [hφ, abs_mul, abs_of_pos (by positivity : 0 < π / 180)]
    calc |lat| * (π / 180) < 90 * (π / 180) := by gcongr
      _ = π / 2 := by ring
  rw [abs_lt] at hφr
  obtain ⟨N, hN⟩ : ∃ N, N = a / √(1 - e2 * sin φ * sin φ) := ⟨_, rfl⟩
  obtain ⟨-, hA0, hc, hpos, haxis, hF⟩ := spec_facts sph lat lon h hlat (by rw [← ha]; exact hh) hφ ha he2 hN
  rw [← hl] at hpos
  have hp0 := hF.p_pos
  obtain ⟨s1, s2⟩ := sqrt_rad hS' φ
  have hs : 0 < √(1 - e2 * sin φ * sin φ) := by linarith
  have hN1 : a ≤ N := by rw [hN, le_div_iff₀ hs]; nlinarith
  have hN2 : N ≤ a / (99 / 100) := by rw [hN]; gcongr; linarith
  have hB0 : 0 < (1 - e2) * N + h := by nlinarith
  -- the true latitude is a fixed point
  have hddφ : dd a e2 ((N + h) * cos φ) φ = ((1 - e2) * N + h) * cos φ := by
    rw [dd, foot, mul_div_right_comm, ← hN]; ring
  have hfix : Geodetic.next a e2 ((N + h) * cos φ) (((1 - e2) * N + h) * sin φ) φ = φ := by
    rw [Geodetic.next, hddφ, mul_div_mul_left _ _ hB0.ne', ← tan_eq_sin_div_cos, arctan_tan (by linarith) hφr.2]
  obtain ⟨ψ, hψ, hstop, hloop⟩ := latLoop_five hF
  have hcontr := next_contracts hF (hψ.dd_pos hF).1 (by rw [hddφ]; exact mul_pos hB0 hc : 0 < dd a e2 ((N + h) * cos φ) φ)
  rw [hfix] at hcontr
  have hψφ : |ψ - φ| ≤ tolerance / (247 / 250) := by
    have : |ψ - φ| ≤ |Geodetic.next a e2 ((N + h) * cos φ) (((1 - e2) * N + h) * sin φ) ψ - ψ| +
        |Geodetic.next a e2 ((N + h) * cos φ) (((1 - e2) * N + h) * sin φ) ψ - φ| := by
      rw [abs_sub_comm _ ψ]; exact abs_sub_le _ _ _
    rw [le_div_iff₀ (by norm_num)]
    linarith
  have hlat' : |Geodetic.next a e2 ((N + h) * cos φ) (((1 - e2) * N + h) * sin φ) ψ| < π / 2 := by
    rw [abs_lt, Geodetic.next]
    exact ⟨by have := neg_pi_div_two_lt_arctan (((1 - e2) * N + h) * sin φ / dd a e2 ((N + h) * cos φ) ψ); linarith, arctan_lt_pi_div_two _⟩
  have hlong := longitude hp0 hl hlon hlon'
  refine ⟨Geodetic.next a e2 ((N + h) * cos φ) (((1 - e2) * N + h) * sin φ) ψ * (180 / π),
    (N + h) * cos φ / cos ψ - a / √(1 - e2 * sin ψ * sin ψ), ?_, ?_, ?_⟩
  · intro debug fuel hf
    have := (toGeographic_of_loop debug sph fuel (specPosition sph lat lon h) _ _ hlat' (by
      rw [haxis, ← ha, ← he2, hpos]; exact hloop fuel hf)).1
    rw [this, hpos]
    simp only [hlong]
  · have h1 : Geodetic.next a e2 ((N + h) * cos φ) (((1 - e2) * N + h) * sin φ) ψ * (180 / π) - lat =
        (Geodetic.next a e2 ((N + h) * cos φ) (((1 - e2) * N + h) * sin φ) ψ - φ) * (180 / π) := by
      rw [hφ]; field_simp
    rw [h1, abs_mul, abs_of_pos (by positivity : 0 < 180 / π)]
    calc _ ≤ 3 / 250 * (tolerance / (247 / 250)) * (180 / π) := by gcongr; exact hcontr.trans (by gcongr)
      _ ≤ 12 / 10 ^ 8 := by rw [tolerance]; field_simp; norm_num
  · rw [← hφ, ← ha]
    intro hcos
    have htol := tolerance_le
    have hδ : |ψ - φ| ≤ 1637 / 10 ^ 10 := by
      refine hψφ.trans ?_
      rw [div_le_iff₀ (by norm_num)]
      norm_num at htol ⊢
      linarith
    have hcψ := hψ.cos_pos
    have hcl := abs_cos_sub_cos_le ψ φ
    have hcψ' : 99 / 100 * cos φ ≤ cos ψ := by
      have := (abs_le.mp hcl).1
      norm_num at hδ
      linarith
    have hr := radius_lipschitz hS' ψ φ
    have e1 : (N + h) * cos φ / cos ψ - a / √(1 - e2 * sin ψ * sin ψ) - h =
        (N + h) * (cos φ - cos ψ) / cos ψ - (a / √(1 - e2 * sin ψ * sin ψ) - a / √(1 - e2 * sin φ * sin φ)) := by
      rw [← hN]; field_simp; ring
    have e3 : |(N + h) * (cos φ - cos ψ) / cos ψ| ≤ (N + h) * (1637 / 10 ^ 10) / (99 / 100 * cos φ) := by
      rw [abs_div, abs_mul, abs_of_pos hA0, abs_of_pos hcψ, abs_sub_comm]
      gcongr
      exact hcl.trans hδ
    have e4 : |a / √(1 - e2 * sin ψ * sin ψ) - a / √(1 - e2 * sin φ * sin φ)| ≤ 11 / 1000 * a * (1637 / 10 ^ 10) := hr.trans (by gcongr)
    have hc1 := cos_le_one φ
    rw [e1]
    refine (abs_sub _ _).trans ?_
    exact (add_le_add e3 e4).trans (altitude_numbers ha0 hh hN2 hc hc1)

/-- Exactly above a pole, or at the centre, the conversion divides by zero; the latitude is not a number. -/
theorem C88_axis (debug : Bool) (sph : Spheroid) (fuel : ℕ) (z : ℝ) : toGeographic debug sph (fuel + 1) (0, 0, z) = .ub .notANumber := by
  simp [toGeographic, latLoop]

/-- **The sphere.**  On the spherical Earth the conversion is the exact inverse, after one iteration, for every altitude down to the centre. -/
theorem C88_sphere (debug : Bool) (fuel : ℕ) (lat lon h : ℝ) (hlat : |lat| < 90) (hlon : -180 ≤ lon) (hlon' : lon < 180) (hh : -semiMajor .sphere < h) :
    toGeographic debug .sphere (fuel + 1) (specPosition .sphere lat lon h) = .ok (lat, lon, h) := by
  have hpi := pi_pos
  obtain ⟨φ, hφ⟩ : ∃ φ, φ = lat * (π / 180) := ⟨_, rfl⟩
  obtain ⟨l, hl⟩ : ∃ l, l = lon * (π / 180) := ⟨_, rfl⟩
  obtain ⟨R, hR⟩ : ∃ R, R = semiMajor .sphere + h := ⟨_, rfl⟩
  have hR0 : 0 < R := by linarith
  have hφr : |φ| < π / 2 := by
    rw [hφ, abs_mul, abs_of_pos (by positivity : 0 < π / 180)]
    calc |lat| * (π / 180) < 90 * (π / 180) := by gcongr
      _ = π / 2 := by ring
  have hφr' := hφr
  rw [abs_lt] at hφr
  have hc : 0 < cos φ := cos_pos_of_mem_Ioo ⟨by linarith, hφr.2⟩
  have hp0 : 0 < R * cos φ := mul_pos hR0 hc
  have hpos : specPosition .sphere lat lon h = (R * cos φ * cos l, R * cos φ * sin l, R * sin φ) := by
    simp [specPosition, eccentricity, ← hφ, ← hl, ← hR]
  have haxis : axisDist (specPosition .sphere lat lon h) = R * cos φ := by
    rw [axisDist, hpos]
    rw [show (R * cos φ * cos l) ^ 2 + (R * cos φ * sin l) ^ 2 = (R * cos φ) ^ 2 * (sin l ^ 2 + cos l ^ 2) by ring,
      sin_sq_add_cos_sq, mul_one, Real.sqrt_sq hp0.le]
  have hatan : atan2 (R * sin φ) (R * cos φ) = φ := by
    rw [atan2_of_pos hp0, mul_div_mul_left _ _ hR0.ne', ← tan_eq_sin_div_cos, arctan_tan (by linarith) hφr.2]
  have hloop : latLoop (semiMajor .sphere) (eccentricity .sphere * eccentricity .sphere) (R * cos φ) (R * sin φ) (fuel + 1)
      (atan2 (R * sin φ) (R * cos φ * (1 - eccentricity .sphere * eccentricity .sphere))) = .ok (φ, h) := by
    have ht := tolerance_ge
    have ht' : 0 ≤ tolerance := le_trans (by positivity) ht
    simp only [eccentricity, mul_zero, sub_zero, mul_one, hatan]
    rw [latLoop, if_neg (by simp [hR0.ne', hc.ne'])]
    simp only [zero_mul, zero_div, sub_zero, mul_one, hatan, sub_self, abs_zero, Real.sqrt_one, div_one]
    rw [if_neg (by linarith), mul_div_assoc, div_self hc.ne', mul_one, hR]
    congr 2
    ring
  rw [← haxis] at hloop
  have key := (toGeographic_of_loop debug .sphere (fuel + 1) (specPosition .sphere lat lon h) φ h hφr' (by
    rw [show (specPosition .sphere lat lon h).2.2 = R * sin φ by rw [hpos]]; exact hloop)).1
  rw [key, hpos]
  simp only [longitude hp0 hl hlon hlon']
  rw [show φ * (180 / π) = lat by rw [hφ]; field_simp]

theorem pole_height {a e2 s c N h : ℝ} (hS : Sph a e2) (hs : 0 ≤ s) (hc : 0 ≤ c) (hsc : s ^ 2 + c ^ 2 = 1) (hN : N = a / √(1 - e2 * s * s)) (hh : 0 ≤ h) :
    h - (N + h) * c ≤ ((1 - e2) * N + h) * s - a * √(1 - e2) := by
  have he := hS.e2_small
  have he0 := hS.e2_nonneg
  have ha := hS.a_pos
  have hs1 : s ^ 2 ≤ 1 := by nlinarith [sq_nonneg c]
  have hw : 0 < 1 - e2 * s * s := by nlinarith
  have h1 : √(1 - e2) * √(1 - e2 * s * s) ≤ (1 - e2) * s + c := by
    rw [← Real.sqrt_mul (by linarith)]
    apply Real.sqrt_le_iff.mpr
    refine ⟨by nlinarith, ?_⟩
    have : 0 ≤ 2 * (1 - e2) * (s * c) := by have := mul_nonneg hs hc; nlinarith
    have hc2 : c ^ 2 = 1 - s ^ 2 := by linarith
    have : 0 ≤ e2 * c ^ 2 := by positivity
    nlinarith
  have h2 : a * √(1 - e2) ≤ N * ((1 - e2) * s + c) := by
    have hw' : 0 < √(1 - e2 * s * s) := Real.sqrt_pos.mpr hw
    rw [hN, div_mul_eq_mul_div, le_div_iff₀ hw', mul_assoc]
    gcongr
  have h3 : 1 ≤ s + c := by nlinarith [mul_nonneg hs hc]
  nlinarith

theorem near_first {a e2 P z : ℝ} (hF : Far a e2 P z) (hnear : P ≤ a / 100000) (hz0 : 0 ≤ z) {ψ : ℝ} (hψ : ψ = arctan (z / (P * (1 - e2)))) :
    Good P z ψ ∧ z / (1 - e2) ≤ P / cos ψ ∧ foot a e2 ψ ≤ 2 * P ∧ 0 ≤ foot a e2 ψ := by
  have hS' := hF.toSph
  have ha0 := hS'.a_pos
  have he := hS'.e2_small
  have he0 := hS'.e2_nonneg
  have hp0 := hF.p_pos
  have hfar := hF.far
  have hz1 : 89 / 100 * a ≤ z := by
    have h1 : P ^ 2 ≤ (a / 100000) ^ 2 := pow_le_pow_left₀ hp0.le hnear 2
    have h2 : (89 / 100 * a) ^ 2 ≤ z ^ 2 := by nlinarith [sq_nonneg a]
    exact (pow_le_pow_iff_left₀ (by positivity) hz0 two_ne_zero).mp h2
  have hD : 0 < P * (1 - e2) := mul_pos hp0 (by linarith)
  have hg : Good P z ψ := ⟨_, hD, by nlinarith, hψ⟩
  have hcψ := hg.cos_pos
  have hroot : z / (P * (1 - e2)) ≤ √(1 + (z / (P * (1 - e2))) ^ 2) := by
    apply Real.le_sqrt_of_sq_le
    linarith
  have hcos : cos ψ = 1 / √(1 + (z / (P * (1 - e2))) ^ 2) := by rw [hψ, cos_arctan]
  have hv : z / (1 - e2) ≤ P / cos ψ := by
    rw [hcos, div_div_eq_mul_div, div_one]
    calc z / (1 - e2) = P * (z / (P * (1 - e2))) := by
          have : 1 - e2 ≠ 0 := by linarith
          field_simp
      _ ≤ _ := by gcongr
  have hcz : cos ψ * z ≤ P := by
    have h1 : z ≤ P / cos ψ * (1 - e2) := by rwa [div_le_iff₀ (by linarith)] at hv
    rw [div_mul_eq_mul_div, le_div_iff₀ hcψ] at h1
    nlinarith
  obtain ⟨f1, f2⟩ := foot_le_cos hS' hcψ
  have hfoot : foot a e2 ψ ≤ 2 * P := by
    have : cos ψ * (89 / 100 * a) ≤ P := by nlinarith
    rw [le_div_iff₀ (by norm_num)] at f2
    linarith
  exact ⟨hg, hv, hfoot, f1.le⟩

theorem near_stop {a e2 P z : ℝ} (hF : Far a e2 P z) (hnear : P ≤ a / 100000) (hz0 : 0 ≤ z) {ψ : ℝ} (hψ : ψ = arctan (z / (P * (1 - e2)))) :
    |Geodetic.next a e2 P z ψ - ψ| ≤ tolerance := by
  obtain ⟨hg, -, hfoot, f1⟩ := near_first hF hnear hz0 hψ
  have hS' := hF.toSph
  have ha0 := hS'.a_pos
  have he := hS'.e2_small
  have he0 := hS'.e2_nonneg
  have hp0 := hF.p_pos
  have hD : 0 < P * (1 - e2) := mul_pos hp0 (by linarith)
  obtain ⟨d1, d2⟩ := hg.dd_pos hF
  have hL := arctan_lipschitz (z := z) (m := min (dd a e2 P ψ) (P * (1 - e2))) (ρ := 89 / 100 * a) (lt_min d1 hD) (by positivity)
    (fun D hD' => dist_ge hF (lt_of_lt_of_le (lt_min d1 hD) hD') (le_trans (le_min (dd_ge hS' ψ) (by nlinarith)) hD'))
    (min_le_left _ _) (min_le_right _ _)
  rw [← hψ] at hL
  have hdiff : |dd a e2 P ψ - P * (1 - e2)| ≤ 1 / 100 * (a / 100000) := by
    rw [dd, show P - e2 * foot a e2 ψ - P * (1 - e2) = e2 * (P - foot a e2 ψ) by ring, abs_mul, abs_of_nonneg he0]
    have : |P - foot a e2 ψ| ≤ a / 100000 := by rw [abs_le]; constructor <;> linarith
    gcongr
  calc |Geodetic.next a e2 P z ψ - ψ| ≤ 1 / (89 / 100 * a) * |dd a e2 P ψ - P * (1 - e2)| := hL
    _ ≤ 1 / (89 / 100 * a) * (1 / 100 * (a / 100000)) := by gcongr
    _ = 1 / 8900000 := by field_simp; norm_num
    _ ≤ tolerance := by have := tolerance_ge; norm_num at this ⊢; linarith

/-- **Close to a pole the altitude is wrong.**  Within `a / 100000` (63 m) of the axis, over the northern half, the loop ends after one iteration, and the altitude it
reports is too large by a factor of `1 / (1 - e²)` (but for those 63 m). -/
theorem C88_near_pole (sph : Spheroid) (lat lon h : ℝ) (hlat : 0 ≤ lat) (hlat' : lat < 90) (hlon : -180 ≤ lon) (hlon' : lon < 180) (hh : 0 ≤ h)
    (hnear : √((specPosition sph lat lon h).1 ^ 2 + (specPosition sph lat lon h).2.1 ^ 2) ≤ semiMajor sph / 100000) :
    ∃ lat' h', (∀ debug fuel, 1 ≤ fuel → toGeographic debug sph fuel (specPosition sph lat lon h) = .ok (lat', lon, h')) ∧
      (h - semiMajor sph / 100000) / (1 - eccentricity sph ^ 2) ≤ h' := by
  obtain ⟨φ, hφ⟩ : ∃ φ, φ = lat * (π / 180) := ⟨_, rfl⟩
  obtain ⟨a, ha⟩ : ∃ a, a = semiMajor sph := ⟨_, rfl⟩
  obtain ⟨e2, he2⟩ : ∃ e2, e2 = eccentricity sph * eccentricity sph := ⟨_, rfl⟩
  obtain ⟨N, hN⟩ : ∃ N, N = a / √(1 - e2 * sin φ * sin φ) := ⟨_, rfl⟩
  have hS := sph_of sph
  have hpi := pi_pos
  obtain ⟨hS', hA0, hc, hpos, haxis, hF⟩ := spec_facts sph lat lon h (by rw [abs_lt]; constructor <;> linarith) (by have := hS.a_pos; linarith) hφ ha he2 hN
  have hs0 : 0 ≤ sin φ := by
    apply sin_nonneg_of_nonneg_of_le_pi
    · rw [hφ]; positivity
    · rw [hφ]
      calc lat * (π / 180) ≤ 180 * (π / 180) := by gcongr; linarith
        _ = π := by ring
  have hpole := pole_height hS' hs0 hc.le (sin_sq_add_cos_sq φ) hN hh
  have ha0 := hS'.a_pos
  have he := hS'.e2_small
  have he0 := hS'.e2_nonneg
  change axisDist _ ≤ _ at hnear
  rw [haxis, ← ha] at hnear
  obtain ⟨P, hP⟩ : ∃ P, P = (N + h) * cos φ := ⟨_, rfl⟩
  obtain ⟨z, hz⟩ : ∃ z, z = ((1 - e2) * N + h) * sin φ := ⟨_, rfl⟩
  rw [← hP] at hnear hpole haxis hF hpos
  rw [← hz] at hpole hF hpos
  have hp0 := hF.p_pos
  have hfar := hF.far
  have hz0 : 0 ≤ z := by
    have : a * √(1 - e2) ≥ 0 := by positivity
    by_contra hneg
    push Not at hneg
    have hN0 : 0 ≤ N := by rw [hN]; positivity
    rw [hz] at hneg
    have : 0 ≤ ((1 - e2) * N + h) * sin φ := by
      have : 0 ≤ (1 - e2) * N := mul_nonneg (by linarith) hN0
      positivity
    linarith
  -- the first latitude
  have hD : 0 < P * (1 - e2) := mul_pos hp0 (by linarith)
  obtain ⟨ψ, hψ⟩ : ∃ ψ, ψ = arctan (z / (P * (1 - e2))) := ⟨_, rfl⟩
  obtain ⟨hg, hv, -, -⟩ := near_first hF hnear hz0 hψ
  have hstop := near_stop hF hnear hz0 hψ
  have hlat2 : |Geodetic.next a e2 P z ψ| < π / 2 := by
    rw [abs_lt, Geodetic.next]
    exact ⟨by have := neg_pi_div_two_lt_arctan (z / dd a e2 P ψ); linarith, arctan_lt_pi_div_two _⟩
  refine ⟨Geodetic.next a e2 P z ψ * (180 / π), P / cos ψ - a / √(1 - e2 * sin ψ * sin ψ), ?_, ?_⟩
  · rintro debug (- | fuel) hf
    · omega
    · have := (toGeographic_of_loop debug sph (fuel + 1) (specPosition sph lat lon h) (Geodetic.next a e2 P z ψ) (P / cos ψ - a / √(1 - e2 * sin ψ * sin ψ)) hlat2 (by
        rw [haxis, ← ha, ← he2, hpos]
        simp only
        rw [atan2_of_pos hD, ← hψ, latLoop_succ hF hg, if_neg (by linarith)])).1
      rw [this, hpos]
      simp only [longitude hp0 rfl hlon hlon']
  · rw [← ha, show eccentricity sph ^ 2 = e2 by rw [he2]; ring]
    have hb : a / √(1 - e2 * sin ψ * sin ψ) ≤ a * √(1 - e2) / (1 - e2) := by
      have h1 : 0 < 1 - e2 := by linarith
      have h2 : √(1 - e2) ≤ √(1 - e2 * sin ψ * sin ψ) := Real.sqrt_le_sqrt (rad_ge hS' ψ).1
      have h3 : 0 < √(1 - e2) := Real.sqrt_pos.mpr h1
      calc a / √(1 - e2 * sin ψ * sin ψ) ≤ a / √(1 - e2) := by gcongr
        _ = a * √(1 - e2) / (1 - e2) := by
          rw [div_eq_div_iff h3.ne' h1.ne', mul_assoc, Real.mul_self_sqrt h1.le]
    calc (h - a / 100000) / (1 - e2) ≤ (z - a * √(1 - e2)) / (1 - e2) := by
          have h1 : 0 < 1 - e2 := by linarith
          exact div_le_div_of_nonneg_right (by linarith) h1.le
      _ = z / (1 - e2) - a * √(1 - e2) / (1 - e2) := by ring
      _ ≤ _ := by linarith

/-- The comment in the code speaks of one metre; here the altitude may be off by a thousand of them. -/
def C88_altitude_claim : Prop :=
  ∀ sph lat lon h, |lat| < 90 → -180 ≤ lon → lon < 180 → 0 ≤ h → ∃ lat' h',
    toGeographic false sph 5 (specPosition sph lat lon h) = .ok (lat', lon, h') ∧ |h' - h| ≤ 1000

/-- Not so: 0.0001 degrees from the pole, an altitude of 250 km is reported more than a kilometre too large. -/
theorem C88_altitude_claim_false : ¬ C88_altitude_claim := by
  intro hclaim
  have hpi := pi_pos
  have hpi2 := pi_lt_d2
  have hcos : cos ((90 - 1 / 10000) * (π / 180)) ≤ 18 / 10 ^ 7 := by
    rw [show (90 - 1 / 10000) * (π / 180) = π / 2 - 1 / 10000 * (π / 180) by ring, cos_pi_div_two_sub]
    have := sin_le (by positivity : 0 ≤ 1 / 10000 * (π / 180))
    norm_num at this ⊢
    linarith
  obtain ⟨-, hA0, hc, -, haxis, -⟩ := spec_facts .wgs84 (90 - 1 / 10000) 0 250000 (by rw [abs_lt]; norm_num) (by norm_num [semiMajor]) rfl rfl rfl rfl
  have hnear : axisDist (specPosition .wgs84 (90 - 1 / 10000) 0 250000) ≤ semiMajor .wgs84 / 100000 := by
    rw [haxis]
    have hS := sph_of .wgs84
    obtain ⟨s1, -⟩ := sqrt_rad hS ((90 - 1 / 10000) * (π / 180))
    have he := hS.e2_small
    have hN : semiMajor .wgs84 / √(1 - eccentricity .wgs84 * eccentricity .wgs84 * sin ((90 - 1 / 10000) * (π / 180)) * sin ((90 - 1 / 10000) * (π / 180))) ≤
        semiMajor .wgs84 / (99 / 100) := by
      have := hS.a_pos
      gcongr
      linarith
    have := hS.a_pos
    calc _ ≤ (semiMajor .wgs84 / (99 / 100) + 250000) * (18 / 10 ^ 7) := by gcongr
      _ ≤ _ := by norm_num [semiMajor]
  obtain ⟨lat', h', hres, hbig⟩ := C88_near_pole .wgs84 (90 - 1 / 10000) 0 250000 (by norm_num) (by norm_num) (by norm_num) (by norm_num) (by norm_num) hnear
  obtain ⟨lat2, h2, hres2, hsmall⟩ := hclaim .wgs84 (90 - 1 / 10000) 0 250000 (by rw [abs_lt]; norm_num) (by norm_num) (by norm_num) (by norm_num)
  rw [hres false 5 (by norm_num)] at hres2
  simp only [Outcome.ok.injEq, Prod.mk.injEq, true_and] at hres2
  obtain ⟨-, rfl⟩ := hres2
  rw [abs_le] at hsmall
  norm_num [semiMajor, eccentricity] at hbig
  linarith

theorem on_ellipsoid (sph : Spheroid) (lat lon : ℝ) :
    ((specPosition sph lat lon 0).1 ^ 2 + (specPosition sph lat lon 0).2.1 ^ 2) / semiMajor sph ^ 2 +
      (specPosition sph lat lon 0).2.2 ^ 2 / (semiMajor sph ^ 2 * (1 - eccentricity sph ^ 2)) = 1 := by
  obtain ⟨a, ha⟩ : ∃ a, a = semiMajor sph := ⟨_, rfl⟩
  obtain ⟨e2, he⟩ : ∃ e2, e2 = eccentricity sph ^ 2 := ⟨_, rfl⟩
  obtain ⟨φ, hφ⟩ : ∃ φ, φ = lat * (π / 180) := ⟨_, rfl⟩
  obtain ⟨l, hl⟩ : ∃ l, l = lon * (π / 180) := ⟨_, rfl⟩
  have hS := sph_of sph
  have ha0 : 0 < a := ha ▸ hS.a_pos
  have he1 : e2 ≤ 1 / 100 := by have := hS.e2_small; rw [he, pow_two]; linarith
  have he0 : 0 ≤ e2 := by rw [he]; positivity
  have hw : 0 < 1 - e2 * sin φ ^ 2 := by nlinarith [sin_sq_le_one φ, sq_nonneg (sin φ)]
  have hroot : √(1 - e2 * sin φ ^ 2) ^ 2 = 1 - e2 * sin φ ^ 2 := Real.sq_sqrt hw.le
  have hr0 : √(1 - e2 * sin φ ^ 2) ≠ 0 := (Real.sqrt_pos.mpr hw).ne'
  have h1 : 1 - e2 ≠ 0 := by linarith
  simp only [specPosition, ← ha, ← he, ← hφ, ← hl, add_zero]
  obtain ⟨w, hw'⟩ : ∃ w, w = √(1 - e2 * sin φ ^ 2) := ⟨_, rfl⟩
  rw [← hw'] at hroot hr0 ⊢
  have e1 : (a / w * cos φ * cos l) ^ 2 + (a / w * cos φ * sin l) ^ 2 = (a / w) ^ 2 * cos φ ^ 2 := by
    rw [show (a / w * cos φ * cos l) ^ 2 + (a / w * cos φ * sin l) ^ 2 = (a / w) ^ 2 * cos φ ^ 2 * (sin l ^ 2 + cos l ^ 2) by ring,
      sin_sq_add_cos_sq, mul_one]
  rw [e1]
  field_simp
  rw [hroot, cos_sq']
  ring

theorem ellipsoid_error {x z a b u c t : ℝ} (ha : 0 < a) (hb : 0 < b) (hc : 0 < c) (h : x / a ^ 2 + z ^ 2 / (a ^ 2 * c) = 1) (hx : 0 ≤ x)
    (hu : u = c / (b / a) ^ 2 - 1) (ht : |u| ≤ t) : |x / a ^ 2 + z ^ 2 / b ^ 2 - 1| ≤ t := by
  have h1 : x / a ^ 2 + z ^ 2 / b ^ 2 - 1 = z ^ 2 / (a ^ 2 * c) * u := by
    rw [← h, hu]; field_simp; ring
  have h2 : 0 ≤ x / a ^ 2 := by positivity
  have h3 : 0 ≤ z ^ 2 / (a ^ 2 * c) := by positivity
  rw [h1, abs_mul, abs_of_nonneg h3]
  nlinarith [abs_nonneg u]

/-- **The Earth meant.**  The positions of altitude 0 are those of the sphere of the mean radius 6371.009 km, and, up to 2 parts in 10^18, of the ellipsoids of GRS80 and
WGS84 as they are defined: equatorial radius 6378137 m, flattening 1/298.257222101 and 1/298.257223563. -/
theorem C88_ellipsoid (lat lon : ℝ) :
    (specPosition .sphere lat lon 0).1 ^ 2 + (specPosition .sphere lat lon 0).2.1 ^ 2 + (specPosition .sphere lat lon 0).2.2 ^ 2 = 6371009 ^ 2 ∧
    |((specPosition .grs80 lat lon 0).1 ^ 2 + (specPosition .grs80 lat lon 0).2.1 ^ 2) / 6378137 ^ 2 +
      (specPosition .grs80 lat lon 0).2.2 ^ 2 / (6378137 * (1 - 1 / 298.257222101)) ^ 2 - 1| ≤ 2 / 10 ^ 18 ∧
    |((specPosition .wgs84 lat lon 0).1 ^ 2 + (specPosition .wgs84 lat lon 0).2.1 ^ 2) / 6378137 ^ 2 +
      (specPosition .wgs84 lat lon 0).2.2 ^ 2 / (6378137 * (1 - 1 / 298.257223563)) ^ 2 - 1| ≤ 2 / 10 ^ 18 := by
  refine ⟨?_, ?_, ?_⟩
  · have h := on_ellipsoid .sphere lat lon
    norm_num [semiMajor, eccentricity] at h
    norm_num
    linarith
  · refine ellipsoid_error (c := 1 - 0.0818191910428158 ^ 2) (by norm_num) (by norm_num) (by norm_num) ?_ (by positivity) rfl (by rw [abs_le]; norm_num)
    have h := on_ellipsoid .grs80 lat lon
    simpa only [semiMajor, eccentricity] using h
  · refine ellipsoid_error (c := 1 - 0.0818191908426215 ^ 2) (by norm_num) (by norm_num) (by norm_num) ?_ (by positivity) rfl (by rw [abs_le]; norm_num)
    have h := on_ellipsoid .wgs84 lat lon
    simpa only [semiMajor, eccentricity] using h

/-! Concrete cases: the ground stations and a satellite of the examples. -/

example : (6621009 : ℝ) ≠ 0 ∨ (0 : ℝ) ≠ 0 := by norm_num
example : 9 / 10 * semiMajor .wgs84 ≤ √((6621009 : ℝ) ^ 2 + 0 ^ 2 + 0 ^ 2) := by
  apply Real.le_sqrt_of_sq_le
  norm_num [semiMajor]
example : |(42.1704632 : ℝ)| < 90 ∧ -180 ≤ (-8.6877909 : ℝ) ∧ (-8.6877909 : ℝ) < 180 ∧ -(semiMajor .wgs84 / 20) ≤ 450 := by
  rw [abs_lt]; norm_num [semiMajor]
example : |(40.712742 : ℝ)| < 90 ∧ -(semiMajor .wgs84 / 20) ≤ (-17 : ℝ) := by
  rw [abs_lt]; norm_num [semiMajor]
example : 1 / 1000 ≤ cos (60 * (π / 180)) := by
  rw [show 60 * (π / 180) = π / 3 by ring, cos_pi_div_three]; norm_num

end Geodetic
end Icarus
