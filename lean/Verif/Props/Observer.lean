import Verif.Props.Search
import Mathlib.Analysis.Calculus.MeanValue
import Mathlib.Analysis.SpecialFunctions.Trigonometric.ArctanDeriv
import Mathlib.Analysis.SpecialFunctions.Sqrt
import Mathlib.Analysis.SpecificLimits.Basic

/-!
# Where the search for crossings puts the ground node (exact real arithmetic)
-/

set_option autoImplicit false

namespace Icarus
namespace Orbit

open Real

/-- Squared eccentricity. -/
noncomputable def e2 : ℝ := wgs84Eccentricity * wgs84Eccentricity

theorem e2_pos : 0 < e2 := by unfold e2 wgs84Eccentricity; norm_num
theorem e2_lt : e2 < 0.0067 := by unfold e2 wgs84Eccentricity; norm_num

/-- Distance from the axis times the correction of the loop: `p - e² N cos`. -/
noncomputable def corrected (p tmp : ℝ) : ℝ := p - e2 * semiMajorAxis * (cos tmp / √(1 - e2 * sin tmp * sin tmp))

theorem inner_pos (tmp : ℝ) : 0.9933 < 1 - e2 * sin tmp * sin tmp := by
  have h1 := sin_sq_le_one tmp
  have h2 := e2_pos
  have h3 := e2_lt
  have : e2 * sin tmp * sin tmp ≤ e2 := by nlinarith [sq_nonneg (sin tmp)]
  linarith

theorem root_bound (tmp : ℝ) : 0.99 < √(1 - e2 * sin tmp * sin tmp) := by
  rw [lt_sqrt (by norm_num)]
  have := inner_pos tmp
  norm_num at this ⊢
  linarith

theorem corrected_bounds {p tmp : ℝ} (hc : 0 < cos tmp) : corrected p tmp < p ∧ p - 43200 < corrected p tmp := by
  have h1 := root_bound tmp
  have h2 : 0 < √(1 - e2 * sin tmp * sin tmp) := by linarith
  have h3 : 0 < cos tmp / √(1 - e2 * sin tmp * sin tmp) := by positivity
  have h4 : cos tmp / √(1 - e2 * sin tmp * sin tmp) < 1 / 0.99 := by
    rw [div_lt_div_iff₀ h2 (by norm_num)]
    have := cos_le_one tmp
    nlinarith
  have h5 : 0 < e2 * semiMajorAxis := mul_pos e2_pos (by unfold semiMajorAxis; norm_num)
  have h6 : e2 * semiMajorAxis < 0.0067 * 6378137 := by
    unfold semiMajorAxis
    exact mul_lt_mul_of_pos_right e2_lt (by norm_num)
  unfold corrected
  constructor
  · have : 0 < e2 * semiMajorAxis * (cos tmp / √(1 - e2 * sin tmp * sin tmp)) := by positivity
    linarith
  · have : e2 * semiMajorAxis * (cos tmp / √(1 - e2 * sin tmp * sin tmp)) < 0.0067 * 6378137 * (1 / 0.99) :=
      mul_lt_mul'' h6 h4 h5.le h3.le
    norm_num at this
    linarith

theorem atan2_eq_arctan {z q : ℝ} (hq : 0 < q) : atan2 z q = arctan (z / q) := by
  unfold atan2
  have h := Complex.abs_arg_lt_pi_div_two_iff.mpr (.inl hq : 0 < (⟨q, z⟩ : ℂ).re ∨ _)
  have h2 := Complex.tan_arg (⟨q, z⟩ : ℂ)
  simp only at h2
  rw [← h2, arctan_tan (abs_lt.mp h).1 (abs_lt.mp h).2]

/-- One iteration of the loop of the conversion. -/
noncomputable def nextLat (z p tmp : ℝ) : ℝ := arctan (z / corrected p tmp)

theorem nextLat_range (z p tmp : ℝ) : 0 < cos (nextLat z p tmp) := cos_arctan_pos _

theorem latitudeLoop_succ {z p tmp : ℝ} (hp : 50000 < p) (hc : 0 < cos tmp) (n : Nat) :
    latitudeLoop z p (n + 1) tmp =
      if toRadians 9.26e-6 < |nextLat z p tmp - tmp| then latitudeLoop z p n (nextLat z p tmp) else .ok (nextLat z p tmp) := by
  have h1 := inner_pos tmp
  have h2 := root_bound tmp
  have h3 : √(1 - e2 * sin tmp * sin tmp) ≠ 0 := by linarith
  have hb := corrected_bounds (p := p) hc
  have e1 : csqrt (1 - e2 * sin tmp * sin tmp) = .ok √(1 - e2 * sin tmp * sin tmp) := by
    unfold csqrt; rw [if_neg (by linarith)]
  have e3 : cdiv semiMajorAxis √(1 - e2 * sin tmp * sin tmp) = .ok (semiMajorAxis / √(1 - e2 * sin tmp * sin tmp)) := by
    unfold cdiv; rw [if_neg h3]
  have e4 : cdiv p (cos tmp) = .ok (p / cos tmp) := by unfold cdiv; rw [if_neg hc.ne']
  have hv : p / cos tmp ≠ 0 := by positivity
  have e5 : cdiv (e2 * (semiMajorAxis / √(1 - e2 * sin tmp * sin tmp))) (p / cos tmp) =
      .ok (e2 * (semiMajorAxis / √(1 - e2 * sin tmp * sin tmp)) / (p / cos tmp)) := by unfold cdiv; rw [if_neg hv]
  have hq : p * (1 - e2 * (semiMajorAxis / √(1 - e2 * sin tmp * sin tmp)) / (p / cos tmp)) = corrected p tmp := by
    unfold corrected
    have : p ≠ 0 := by linarith
    field_simp
  rw [latitudeLoop]
  change (csqrt (1 - e2 * sin tmp * sin tmp) >>= fun root => cdiv semiMajorAxis root >>= fun N => cdiv p (cos tmp) >>= fun v =>
    cdiv (e2 * N) v >>= fun q => if toRadians 9.26e-6 < |atan2 z (p * (1 - q)) - tmp| then latitudeLoop z p n (atan2 z (p * (1 - q)))
      else .ok (atan2 z (p * (1 - q)))) = _
  rw [e1, Outcome.bind_ok, e3, Outcome.bind_ok, e4, Outcome.bind_ok, e5, Outcome.bind_ok, hq, atan2_eq_arctan (by linarith [hb.2])]
  rfl

/-- The latitude returned is one step of the iteration. -/
theorem latitudeLoop_ok {z p : ℝ} (hp : 50000 < p) {fuel : Nat} {tmp lat : ℝ} (hc : 0 < cos tmp) (h : latitudeLoop z p fuel tmp = .ok lat) :
    ∃ q, lat = arctan (z / q) ∧ 0 < q ∧ q < p ∧ p - 43200 < q := by
  induction fuel generalizing tmp with
  | zero => simp [latitudeLoop] at h
  | succ n ih =>
    rw [latitudeLoop_succ hp hc] at h
    split at h
    · exact ih (nextLat_range z p tmp) h
    · simp only [Outcome.ok.injEq] at h
      have hb := corrected_bounds (p := p) hc
      exact ⟨corrected p tmp, h.symm, by linarith [hb.2], hb.1, hb.2⟩

/-! ## The loop ends -/

theorem deriv_g (t : ℝ) : HasDerivAt (fun t => cos t / √(1 - e2 * sin t * sin t))
    (-sin t * (1 - e2) / √(1 - e2 * sin t * sin t) ^ 3) t := by
  have hpos := inner_pos t
  have h0 : 1 - e2 * sin t * sin t ≠ 0 := by linarith
  have hr := root_bound t
  have hrsq : √(1 - e2 * sin t * sin t) ^ 2 = 1 - e2 * sin t * sin t := sq_sqrt (by linarith)
  have h1 : HasDerivAt (fun t => 1 - e2 * sin t * sin t) (-(e2 * cos t * sin t + e2 * sin t * cos t)) t := by
    have := (((hasDerivAt_sin t).const_mul e2).mul (hasDerivAt_sin t)).const_sub 1
    exact this
  have h2 := h1.sqrt h0
  have h3 := (hasDerivAt_cos t).div h2 (by linarith)
  refine h3.congr_deriv ?_
  set R := √(1 - e2 * sin t * sin t) with hR
  have hR0 : R ≠ 0 := by linarith
  have hcs := sin_sq_add_cos_sq t
  field_simp
  have : R ^ 2 = 1 - e2 * sin t ^ 2 := by rw [hrsq]; ring
  rw [this]
  have hc2 : cos t ^ 2 = 1 - sin t ^ 2 := by linarith
  linear_combination (2 * e2 * sin t) * hc2

theorem g_lipschitz (s t : ℝ) : |cos s / √(1 - e2 * sin s * sin s) - cos t / √(1 - e2 * sin t * sin t)| ≤ 2 * |s - t| := by
  have := Convex.norm_image_sub_le_of_norm_hasDerivWithin_le (f := fun t => cos t / √(1 - e2 * sin t * sin t))
    (f' := fun t => -sin t * (1 - e2) / √(1 - e2 * sin t * sin t) ^ 3) (s := Set.univ) (C := 2) (x := t) (y := s)
    (fun x _ => (deriv_g x).hasDerivWithinAt) ?_ convex_univ trivial trivial
  · simpa [Real.norm_eq_abs] using this
  · intro x _
    rw [Real.norm_eq_abs, abs_div, abs_mul, abs_neg]
    have h1 := root_bound x
    have h2 : 0 < √(1 - e2 * sin x * sin x) := by linarith
    have h3 : |1 - e2| ≤ 1 := by
      rw [abs_le]; have := e2_pos; have := e2_lt; constructor <;> linarith
    have h4 := abs_sin_le_one x
    have h5 : |√(1 - e2 * sin x * sin x) ^ 3| = √(1 - e2 * sin x * sin x) ^ 3 := abs_of_pos (by positivity)
    rw [h5, div_le_iff₀ (by positivity)]
    have h6 : (0.99 : ℝ) ^ 3 ≤ √(1 - e2 * sin x * sin x) ^ 3 := pow_le_pow_left₀ (by norm_num) h1.le 3
    have h7 : |sin x| * |1 - e2| ≤ 1 * 1 := mul_le_mul h4 h3 (abs_nonneg _) (by norm_num)
    norm_num at h6
    linarith

theorem arctan_lipschitz (z m : ℝ) (hm : 0 < m) (q q' : ℝ) (hq : m ≤ q) (hq' : m ≤ q') :
    |arctan (z / q) - arctan (z / q')| ≤ 1 / (2 * m) * |q - q'| := by
  have := Convex.norm_image_sub_le_of_norm_hasDerivWithin_le (f := fun q => arctan (z / q))
    (f' := fun q => -z / (q ^ 2 + z ^ 2)) (s := Set.Ici m) (C := 1 / (2 * m)) (x := q') (y := q)
    ?_ ?_ (convex_Ici m) hq' hq
  · simpa [Real.norm_eq_abs] using this
  · intro x hx
    have hx0 : 0 < x := lt_of_lt_of_le hm hx
    have h1 : HasDerivAt (fun q : ℝ => z / q) (-z / x ^ 2) x := by
      have := (hasDerivAt_id x).inv hx0.ne'
      have := this.const_mul z
      refine (this.congr_deriv ?_).congr_of_eventuallyEq ?_
      · simp; ring
      · filter_upwards with y
        simp [div_eq_mul_inv]
    have h2 := h1.arctan
    refine (h2.congr_deriv ?_).hasDerivWithinAt
    field_simp
  · intro x hx
    have hx0 : 0 < x := lt_of_lt_of_le hm hx
    have hx1 : m ≤ x := hx
    rw [Real.norm_eq_abs, abs_div, abs_neg, abs_of_pos (by positivity : 0 < x ^ 2 + z ^ 2), div_le_div_iff₀ (by positivity) (by positivity)]
    have h1 : 2 * x * |z| ≤ x ^ 2 + z ^ 2 := by
      have := sq_nonneg (x - |z|)
      have h3 := sq_abs z
      nlinarith
    have h2 : |z| * (2 * m) ≤ 2 * x * |z| := by nlinarith [abs_nonneg z]
    linarith

theorem nextLat_contract (z p : ℝ) (hp : 100000 < p) (s t : ℝ) (hs : 0 < cos s) (ht : 0 < cos t) :
    |nextLat z p s - nextLat z p t| ≤ 0.8 * |s - t| := by
  have bs := corrected_bounds (p := p) hs
  have bt := corrected_bounds (p := p) ht
  have h1 := arctan_lipschitz z 56800 (by norm_num) (corrected p s) (corrected p t) (by linarith [bs.2]) (by linarith [bt.2])
  have h2 : |corrected p s - corrected p t| ≤ 0.0067 * 6378137 * (2 * |s - t|) := by
    have h3 := g_lipschitz t s
    have h4 : 0 < e2 * semiMajorAxis := mul_pos e2_pos (by unfold semiMajorAxis; norm_num)
    have h5 : e2 * semiMajorAxis ≤ 0.0067 * 6378137 := by
      unfold semiMajorAxis
      exact mul_le_mul_of_nonneg_right e2_lt.le (by norm_num)
    have h6 : corrected p s - corrected p t =
        e2 * semiMajorAxis * (cos t / √(1 - e2 * sin t * sin t) - cos s / √(1 - e2 * sin s * sin s)) := by
      unfold corrected; ring
    rw [h6, abs_mul, abs_of_pos h4]
    have h7 : |t - s| = |s - t| := abs_sub_comm t s
    rw [h7] at h3
    exact mul_le_mul h5 h3 (abs_nonneg _) (by norm_num)
  unfold nextLat
  have h8 : (0 : ℝ) ≤ |s - t| := abs_nonneg _
  calc _ ≤ 1 / (2 * 56800) * |corrected p s - corrected p t| := h1
    _ ≤ 1 / (2 * 56800) * (0.0067 * 6378137 * (2 * |s - t|)) := by
      apply mul_le_mul_of_nonneg_left h2; norm_num
    _ ≤ 0.8 * |s - t| := by nlinarith

/-- For a point more than 100 km from the Earth's axis the loop of the conversion ends. -/
theorem latitudeLoop_ends (z p : ℝ) (hp : 100000 < p) (tmp : ℝ) (hc : 0 < cos tmp) :
    ∃ n0, ∀ fuel ≥ n0, ∃ lat, latitudeLoop z p fuel tmp = .ok lat := by
  -- some iterate moves by less than the tolerance
  have htol : 0 < toRadians 9.26e-6 := by unfold toRadians; have := pi_pos; positivity
  have key : ∀ n : Nat, ∀ tmp, 0 < cos tmp → 0.8 ^ n * |nextLat z p tmp - tmp| ≤ toRadians 9.26e-6 →
      ∀ fuel ≥ n + 1, ∃ lat, latitudeLoop z p fuel tmp = .ok lat := by
    intro n
    induction n with
    | zero =>
      intro tmp hc hle fuel hf
      obtain ⟨f, rfl⟩ : ∃ f, fuel = f + 1 := ⟨fuel - 1, by omega⟩
      rw [latitudeLoop_succ (by linarith) hc, if_neg (by simpa using hle)]
      exact ⟨_, rfl⟩
    | succ n ih =>
      intro tmp hc hle fuel hf
      obtain ⟨f, rfl⟩ : ∃ f, fuel = f + 1 := ⟨fuel - 1, by omega⟩
      rw [latitudeLoop_succ (by linarith) hc]
      split
      · apply ih _ (nextLat_range z p tmp) _ f (by omega)
        have h1 := nextLat_contract z p hp (nextLat z p tmp) tmp (nextLat_range z p tmp) hc
        calc 0.8 ^ n * |nextLat z p (nextLat z p tmp) - nextLat z p tmp| ≤ 0.8 ^ n * (0.8 * |nextLat z p tmp - tmp|) :=
              mul_le_mul_of_nonneg_left h1 (by positivity)
          _ = 0.8 ^ (n + 1) * |nextLat z p tmp - tmp| := by ring
          _ ≤ _ := hle
      · exact ⟨_, rfl⟩
  have hlim : ∃ n : Nat, (0.8 : ℝ) ^ n * |nextLat z p tmp - tmp| ≤ toRadians 9.26e-6 := by
    have h1 : Filter.Tendsto (fun n : Nat => (0.8 : ℝ) ^ n * |nextLat z p tmp - tmp|) Filter.atTop (nhds (0 * |nextLat z p tmp - tmp|)) :=
      (tendsto_pow_atTop_nhds_zero_of_lt_one (by norm_num) (by norm_num)).mul_const _
    rw [zero_mul] at h1
    have h2 := h1.eventually (gt_mem_nhds htol)
    obtain ⟨n, hn⟩ := h2.exists
    exact ⟨n, hn.le⟩
  obtain ⟨n, hn⟩ := hlim
  exact ⟨n + 1, key n tmp hc hn⟩

/-! ## C57 -/

/-- Distance from the Earth's axis. -/
noncomputable def axisDistance (pos : Vec) : ℝ := √(pos.1 ^ 2 + pos.2.1 ^ 2)

theorem distance_axis (pos : Vec) : distance pos (0, 0, pos.2.2) = axisDistance pos := by
  unfold distance length sub axisDistance
  congr 1
  ring

theorem canonicalize_ok (debug : Bool) (lat lon : ℝ) (h1 : -(π / 2) < lat) (h2 : lat < π / 2) (h3 : -π < lon) (h4 : lon ≤ π) :
    canonicalize debug lat lon = .ok (lat, if lon = π then -π else lon) := by
  have hpi := pi_pos
  have conv : ∀ a, toRadians (toDegrees a) = a := by
    intro a; unfold toRadians toDegrees; field_simp
  have hd : ∀ a b : ℝ, a < b → toDegrees a < toDegrees b := by
    intro a b h; unfold toDegrees; exact mul_lt_mul_of_pos_right h (by positivity)
  have hval : toDegrees (π / 2) = 90 ∧ toDegrees π = 180 ∧ toDegrees (-(π / 2)) = -90 ∧ toDegrees (-π) = -180 := by
    unfold toDegrees; refine ⟨?_, ?_, ?_, ?_⟩ <;> field_simp <;> norm_num
  obtain ⟨v1, v2, v3, v4⟩ := hval
  have l1 := hd _ _ h1
  have l2 := hd _ _ h2
  have l3 := hd _ _ h3
  rw [v3] at l1; rw [v1] at l2; rw [v4] at l3
  have l4 : toDegrees lon ≤ 180 := by
    rcases h4.lt_or_eq with h | h
    · rw [← v2]; exact (hd _ _ h).le
    · rw [h, v2]
  have liff : toDegrees lon = 180 ↔ lon = π := by
    constructor
    · intro h
      rw [← conv lon, h, ← v2, conv]
    · rintro rfl; exact v2
  unfold canonicalize
  simp only [not_lt.mpr l2.le, not_lt.mpr l1.le, if_false]
  by_cases hlon : lon = π
  · have := liff.mpr hlon
    simp only [this, if_true]
    rw [if_pos hlon]
    have a1 : decide ((-180 : ℝ) ≤ -180) = true := by simp
    have a2 : decide ((-180 : ℝ) < 180) = true := by norm_num
    have a3 : decide ((-90 : ℝ) ≤ toDegrees lat) = true := by simpa using l1.le
    have a4 : decide (toDegrees lat ≤ (90 : ℝ)) = true := by simpa using l2.le
    rw [a1, a2, a3, a4]
    simp only [Outcome.nsAssert_true, Outcome.bind_ok, conv]
    rw [← v4, conv]
  · have hne : ¬ toDegrees lon = 180 := fun h => hlon (liff.mp h)
    simp only [hne, if_false, hlon]
    have a1 : decide ((-180 : ℝ) ≤ toDegrees lon) = true := by simpa using l3.le
    have a2 : decide (toDegrees lon < (180 : ℝ)) = true := by simpa using lt_of_le_of_ne l4 hne
    have a3 : decide ((-90 : ℝ) ≤ toDegrees lat) = true := by simpa using l1.le
    have a4 : decide (toDegrees lat ≤ (90 : ℝ)) = true := by simpa using l2.le
    rw [a1, a2, a3, a4]
    simp only [Outcome.nsAssert_true, Outcome.bind_ok, conv]

/-- What the observer of a ground node more than 100 km from the axis is: the true longitude, the latitude computed by the loop. -/
theorem observerOf_eq (debug : Bool) (fuel : Nat) (pos : Vec) (hp : 50000 < axisDistance pos) (lat : ℝ)
    (hl : latitudeLoop pos.2.2 (axisDistance pos) fuel (atan2 pos.2.2 (axisDistance pos * (1 - e2))) = .ok lat) :
    observerOf debug fuel pos = .ok ⟨lat, if atan2 pos.2.1 pos.1 = π then -π else atan2 pos.2.1 pos.1, length pos⟩ := by
  have hpos : 0 < axisDistance pos * (1 - e2) := by
    have := e2_lt
    apply mul_pos <;> linarith
  obtain ⟨q, rfl, -⟩ := latitudeLoop_ok hp (by rw [atan2_eq_arctan hpos]; exact cos_arctan_pos _) hl
  unfold observerOf cartesianToGeographic
  simp only [distance_axis]
  rw [show axisDistance pos * (1 - wgs84Eccentricity * wgs84Eccentricity) = axisDistance pos * (1 - e2) from rfl, hl]
  simp only [Outcome.bind_ok]
  rw [canonicalize_ok debug _ _ (neg_pi_div_two_lt_arctan _) (arctan_lt_pi_div_two _) (show -π < atan2 pos.2.1 pos.1 from Complex.neg_pi_lt_arg _)
    (show atan2 pos.2.1 pos.1 ≤ π from Complex.arg_le_pi _)]
  simp only [Outcome.bind_ok]

/-- The full claim: the search observes a ground node (more than 100 km from the axis) where it is, turning with the Earth. -/
def C57_claim : Prop := ∀ (debug : Bool) (fuel : Nat) (pos : Vec) (ob : Observer), 100000 < axisDistance pos →
  observerOf debug fuel pos = .ok ob → ∀ t, ob.position t = rotZ (7.292115922e-5 * t) pos

/-- It holds for nodes on the equator (missing: all others). -/
theorem C57_equator_partial (debug : Bool) (fuel : Nat) (pos : Vec) (ob : Observer) (hp : 50000 < axisDistance pos) (hz : pos.2.2 = 0)
    (h : observerOf debug (fuel + 1) pos = .ok ob) (t : ℝ) : ob.position t = rotZ (7.292115922e-5 * t) pos := by
  have hpos : 0 < axisDistance pos * (1 - e2) := by
    have := e2_lt
    apply mul_pos <;> linarith
  have hl : latitudeLoop pos.2.2 (axisDistance pos) (fuel + 1) (atan2 pos.2.2 (axisDistance pos * (1 - e2))) = .ok 0 := by
    have h0 : atan2 0 (axisDistance pos * (1 - e2)) = 0 := by rw [atan2_eq_arctan hpos]; simp
    rw [hz, h0, latitudeLoop_succ hp (by simp)]
    have h1 : nextLat 0 (axisDistance pos) 0 = 0 := by simp [nextLat]
    rw [h1]
    have htol : ¬ toRadians 9.26e-6 < |(0 : ℝ) - 0| := by
      rw [sub_self, abs_zero, not_lt]; unfold toRadians; have := pi_pos; positivity
    rw [if_neg htol]
  rw [observerOf_eq debug _ pos hp 0 hl] at h
  simp only [Outcome.ok.injEq] at h
  subst h
  have hlen : length pos = axisDistance pos := by simp [length, axisDistance, hz]
  have hnorm : ‖(⟨pos.1, pos.2.1⟩ : ℂ)‖ = axisDistance pos := by
    rw [Complex.norm_eq_sqrt_sq_add_sq]; rfl
  have hca : axisDistance pos * cos (atan2 pos.2.1 pos.1) = pos.1 := by
    have := Complex.norm_mul_cos_arg (⟨pos.1, pos.2.1⟩ : ℂ)
    rwa [hnorm] at this
  have hsa : axisDistance pos * sin (atan2 pos.2.1 pos.1) = pos.2.1 := by
    have := Complex.norm_mul_sin_arg (⟨pos.1, pos.2.1⟩ : ℂ)
    rwa [hnorm] at this
  have hcos : cos (if atan2 pos.2.1 pos.1 = π then -π else atan2 pos.2.1 pos.1) = cos (atan2 pos.2.1 pos.1) := by
    split
    · rename_i heq; rw [heq, cos_neg]
    · rfl
  have hsin : sin (if atan2 pos.2.1 pos.1 = π then -π else atan2 pos.2.1 pos.1) = sin (atan2 pos.2.1 pos.1) := by
    split
    · rename_i heq; rw [heq, sin_neg, sin_pi, neg_zero]
    · rfl
  unfold Observer.position rotZ
  simp only [cos_zero, mul_one, sin_zero, mul_zero, cos_add, sin_add, hcos, hsin, hlen, hz, Prod.mk.injEq, and_true]
  have hrot : earthRotation * t = 7.292115922e-5 * t := rfl
  rw [hrot]
  constructor
  · linear_combination cos (7.292115922e-5 * t) * hca - sin (7.292115922e-5 * t) * hsa
  · linear_combination cos (7.292115922e-5 * t) * hsa + sin (7.292115922e-5 * t) * hca

/-- It fails for every node off the equator: the conversion computes the geodetic latitude, while the observer is placed by geocentric
latitude.  The observer is further from the equatorial plane than the node. -/
theorem C57_misplaced (debug : Bool) (fuel : Nat) (pos : Vec) (ob : Observer) (hp : 50000 < axisDistance pos) (hz : pos.2.2 ≠ 0)
    (h : observerOf debug fuel pos = .ok ob) (t : ℝ) :
    |pos.2.2| < |(ob.position t).2.2| ∧ ob.position t ≠ rotZ (7.292115922e-5 * t) pos := by
  suffices hlt : |pos.2.2| < |(ob.position t).2.2| by
    refine ⟨hlt, ?_⟩
    intro heq
    rw [heq] at hlt
    simp [rotZ] at hlt
  have hpos : 0 < axisDistance pos * (1 - e2) := by
    have := e2_lt
    apply mul_pos <;> linarith
  have hc0 : 0 < cos (atan2 pos.2.2 (axisDistance pos * (1 - e2))) := by rw [atan2_eq_arctan hpos]; exact cos_arctan_pos _
  -- the loop ended
  have hl : ∃ lat, latitudeLoop pos.2.2 (axisDistance pos) fuel (atan2 pos.2.2 (axisDistance pos * (1 - e2))) = .ok lat := by
    unfold observerOf cartesianToGeographic at h
    simp only [distance_axis] at h
    rw [show axisDistance pos * (1 - wgs84Eccentricity * wgs84Eccentricity) = axisDistance pos * (1 - e2) from rfl] at h
    cases hlat : latitudeLoop pos.2.2 (axisDistance pos) fuel (atan2 pos.2.2 (axisDistance pos * (1 - e2))) with
    | ok lat => exact ⟨lat, rfl⟩
    | ub f => simp [hlat] at h
    | abort => simp [hlat] at h
    | assertFail => simp [hlat] at h
  obtain ⟨lat, hl⟩ := hl
  rw [observerOf_eq debug fuel pos hp lat hl] at h
  simp only [Outcome.ok.injEq] at h
  subst h
  obtain ⟨q, rfl, hq0, hqp, -⟩ := latitudeLoop_ok hp hc0 hl
  have hlen : length pos ^ 2 = axisDistance pos ^ 2 + pos.2.2 ^ 2 := by
    rw [length_sq]
    unfold axisDistance
    rw [sq_sqrt (by positivity)]
  simp only [Observer.position]
  set z := pos.2.2
  set P := axisDistance pos
  have hs : sin (arctan (z / q)) = z / √(q ^ 2 + z ^ 2) := by
    rw [sin_arctan]
    have h1 : √(1 + (z / q) ^ 2) = √(q ^ 2 + z ^ 2) / q := by
      have : 1 + (z / q) ^ 2 = (q ^ 2 + z ^ 2) / q ^ 2 := by field_simp
      rw [this, sqrt_div (by positivity), sqrt_sq hq0.le]
    rw [h1]
    have : √(q ^ 2 + z ^ 2) ≠ 0 := by positivity
    field_simp
  rw [hs, abs_mul, abs_of_nonneg (length_nonneg pos), abs_div, abs_of_nonneg (sqrt_nonneg _)]
  have hden : 0 < √(q ^ 2 + z ^ 2) := by positivity
  rw [mul_div_assoc', lt_div_iff₀ hden]
  have hz0 : 0 < |z| := abs_pos.mpr hz
  rw [mul_comm]
  apply mul_lt_mul_of_pos_right _ hz0
  rw [sqrt_lt' (lt_of_lt_of_le (by linarith : 0 < P) (by
    apply le_of_sq_le_sq _ (length_nonneg pos)
    nlinarith [sq_nonneg z]))]
  rw [hlen]
  nlinarith

/-- The conversion always ends for nodes more than 100 km from the axis. -/
theorem C57_conversion_ends (debug : Bool) (pos : Vec) (hp : 100000 < axisDistance pos) :
    ∃ n0, ∀ fuel ≥ n0, ∃ ob, observerOf debug fuel pos = .ok ob ∧ ob.radius = length pos := by
  have hpos : 0 < axisDistance pos * (1 - e2) := by
    have := e2_lt
    apply mul_pos <;> linarith
  have hc0 : 0 < cos (atan2 pos.2.2 (axisDistance pos * (1 - e2))) := by rw [atan2_eq_arctan hpos]; exact cos_arctan_pos _
  obtain ⟨n0, hn⟩ := latitudeLoop_ends pos.2.2 (axisDistance pos) hp _ hc0
  refine ⟨n0, ?_⟩
  intro fuel hf
  obtain ⟨lat, hl⟩ := hn fuel hf
  exact ⟨_, observerOf_eq debug fuel pos (by linarith) lat hl, rfl⟩

theorem C57_claim_false : ¬ C57_claim := by
  intro hclaim
  have hp : 100000 < axisDistance (5000000, 0, 4000000) := by
    unfold axisDistance
    rw [lt_sqrt (by norm_num)]
    norm_num
  obtain ⟨n0, hn⟩ := C57_conversion_ends true (5000000, 0, 4000000) hp
  obtain ⟨ob, hob, -⟩ := hn n0 (le_refl _)
  exact (C57_misplaced true n0 _ ob (by linarith) (by norm_num) hob 0).2 (hclaim true n0 _ ob hp hob 0)

theorem latitude_exists {debug : Bool} {fuel : Nat} {pos : Vec} {ob : Observer} (hp : 50000 < axisDistance pos)
    (h : observerOf debug fuel pos = .ok ob) : ∃ q, 0 < q ∧ q < axisDistance pos ∧ axisDistance pos - 43200 < q ∧
      ob = ⟨arctan (pos.2.2 / q), if atan2 pos.2.1 pos.1 = π then -π else atan2 pos.2.1 pos.1, length pos⟩ := by
  have hpos : 0 < axisDistance pos * (1 - e2) := by
    have := e2_lt
    apply mul_pos <;> linarith
  have hc0 : 0 < cos (atan2 pos.2.2 (axisDistance pos * (1 - e2))) := by rw [atan2_eq_arctan hpos]; exact cos_arctan_pos _
  have hl : ∃ lat, latitudeLoop pos.2.2 (axisDistance pos) fuel (atan2 pos.2.2 (axisDistance pos * (1 - e2))) = .ok lat := by
    unfold observerOf cartesianToGeographic at h
    simp only [distance_axis] at h
    rw [show axisDistance pos * (1 - wgs84Eccentricity * wgs84Eccentricity) = axisDistance pos * (1 - e2) from rfl] at h
    cases hlat : latitudeLoop pos.2.2 (axisDistance pos) fuel (atan2 pos.2.2 (axisDistance pos * (1 - e2))) with
    | ok lat => exact ⟨lat, rfl⟩
    | ub f => simp [hlat] at h
    | abort => simp [hlat] at h
    | assertFail => simp [hlat] at h
  obtain ⟨lat, hl⟩ := hl
  rw [observerOf_eq debug fuel pos hp lat hl] at h
  simp only [Outcome.ok.injEq] at h
  obtain ⟨q, rfl, hq0, hqp, hqm⟩ := latitudeLoop_ok hp hc0 hl
  exact ⟨q, hq0, hqp, hqm, h.symm⟩

/-- Pulling `(q, z)` out to the length of `(P, z)` moves it by at most `43200 * g / (g - 43200)` when `P - 43200 < q < P`. -/
theorem stretched {P z q g : ℝ} (hg : 0 < g) (hg2 : g ^ 2 = P ^ 2 + z ^ 2) (hP : 50000 < P) (hq : 0 < q) (hqp : q < P) (hqm : P - 43200 < q) :
    (g * (q / √(q ^ 2 + z ^ 2)) - P) ^ 2 + (g * (z / √(q ^ 2 + z ^ 2)) - z) ^ 2 ≤ (43200 * g / (g - 43200)) ^ 2 := by
  set A := √(q ^ 2 + z ^ 2) with hA
  have hA2 : A ^ 2 = q ^ 2 + z ^ 2 := sq_sqrt (by positivity)
  have hA0 : 0 < A := by rw [hA]; positivity
  have hgP : P ≤ g := by
    apply le_of_sq_le_sq _ hg.le
    nlinarith [sq_nonneg z]
  have hAg : A ≤ g := by
    apply le_of_sq_le_sq _ hg.le
    nlinarith
  have hAl : g - 43200 ≤ A := by
    apply le_of_sq_le_sq _ hA0.le
    have : (P - 43200) ^ 2 ≤ q ^ 2 := by
      apply pow_le_pow_left₀ <;> linarith
    nlinarith
  have hD : q * P + z ^ 2 ≤ g * A := by
    apply le_of_sq_le_sq _ (by positivity)
    rw [mul_pow, hg2, hA2]
    nlinarith [sq_nonneg (q * z - P * z)]
  have e1 : (g * (q / A) - P) ^ 2 + (g * (z / A) - z) ^ 2 = 2 * g ^ 2 - 2 * g * (q * P + z ^ 2) / A := by
    have h1 : (g * (q / A) - P) ^ 2 + (g * (z / A) - z) ^ 2 = g ^ 2 * ((q ^ 2 + z ^ 2) / A ^ 2) + (P ^ 2 + z ^ 2) - 2 * g * (q * P + z ^ 2) / A := by
      field_simp
      ring
    rw [h1, ← hA2, ← hg2, div_self (by positivity)]
    ring
  have e2' : (g * (q / A) - P) ^ 2 + (g * (z / A) - z) ^ 2 ≤ (P - q) ^ 2 * g ^ 2 / A ^ 2 := by
    rw [e1, le_div_iff₀ (by positivity)]
    have h3 : (2 * g ^ 2 - 2 * g * (q * P + z ^ 2) / A) * A ^ 2 = 2 * g ^ 2 * A ^ 2 - 2 * g * A * (q * P + z ^ 2) := by
      field_simp
    rw [h3]
    have h4 : (P - q) ^ 2 = A ^ 2 + g ^ 2 - 2 * (q * P + z ^ 2) := by rw [hA2, hg2]; ring
    rw [h4]
    have h5 : 0 ≤ g * (g - A) * (g * (g + A) - 2 * (q * P + z ^ 2)) := by
      apply mul_nonneg (mul_nonneg hg.le (by linarith))
      nlinarith
    nlinarith
  refine e2'.trans ?_
  rw [div_pow, mul_pow, div_le_div_iff₀ (by positivity) (by apply pow_pos; linarith)]
  have h6 : (P - q) ^ 2 ≤ 43200 ^ 2 := by apply pow_le_pow_left₀ <;> linarith
  have h7 : (g - 43200) ^ 2 ≤ A ^ 2 := by apply pow_le_pow_left₀ <;> linarith
  have h8 : (P - q) ^ 2 * (g - 43200) ^ 2 ≤ 43200 ^ 2 * A ^ 2 := mul_le_mul h6 h7 (by positivity) (by positivity)
  nlinarith [mul_le_mul_of_nonneg_right h8 (sq_nonneg g)]

/-- What remains of the claim for all nodes: the search observes from a point less than 43.5 km from the node, at every instant (missing: it is the
node's place). -/
theorem C57_close_partial (debug : Bool) (fuel : Nat) (pos : Vec) (ob : Observer) (hp : 50000 < axisDistance pos) (hg : 6300000 ≤ length pos)
    (h : observerOf debug fuel pos = .ok ob) (t : ℝ) : distance (ob.position t) (rotZ (7.292115922e-5 * t) pos) < 43500 := by
  obtain ⟨q, hq0, hqp, hqm, rfl⟩ := latitude_exists hp h
  have hlen : length pos ^ 2 = axisDistance pos ^ 2 + pos.2.2 ^ 2 := by
    rw [length_sq]
    unfold axisDistance
    rw [sq_sqrt (by positivity)]
  have hP : 0 < axisDistance pos := by linarith
  have hnorm : ‖(⟨pos.1, pos.2.1⟩ : ℂ)‖ = axisDistance pos := by
    rw [Complex.norm_eq_sqrt_sq_add_sq]; rfl
  have hca : axisDistance pos * cos (atan2 pos.2.1 pos.1) = pos.1 := by
    have := Complex.norm_mul_cos_arg (⟨pos.1, pos.2.1⟩ : ℂ)
    rwa [hnorm] at this
  have hsa : axisDistance pos * sin (atan2 pos.2.1 pos.1) = pos.2.1 := by
    have := Complex.norm_mul_sin_arg (⟨pos.1, pos.2.1⟩ : ℂ)
    rwa [hnorm] at this
  have hcos : cos (if atan2 pos.2.1 pos.1 = π then -π else atan2 pos.2.1 pos.1) = cos (atan2 pos.2.1 pos.1) := by
    split
    · rename_i heq; rw [heq, cos_neg]
    · rfl
  have hsin : sin (if atan2 pos.2.1 pos.1 = π then -π else atan2 pos.2.1 pos.1) = sin (atan2 pos.2.1 pos.1) := by
    split
    · rename_i heq; rw [heq, sin_neg, sin_pi, neg_zero]
    · rfl
  have hst := stretched (by linarith) hlen hp hq0 hqp hqm
  have h1 : √(1 + (pos.2.2 / q) ^ 2) = √(q ^ 2 + pos.2.2 ^ 2) / q := by
    have : 1 + (pos.2.2 / q) ^ 2 = (q ^ 2 + pos.2.2 ^ 2) / q ^ 2 := by field_simp
    rw [this, sqrt_div (by positivity), sqrt_sq hq0.le]
  have hA : √(q ^ 2 + pos.2.2 ^ 2) ≠ 0 := by positivity
  have hs : sin (arctan (pos.2.2 / q)) = pos.2.2 / √(q ^ 2 + pos.2.2 ^ 2) := by
    rw [sin_arctan, h1]
    field_simp
  have hc : cos (arctan (pos.2.2 / q)) = q / √(q ^ 2 + pos.2.2 ^ 2) := by
    rw [cos_arctan, h1]
    field_simp
  have hrot : earthRotation * t = 7.292115922e-5 * t := rfl
  have hd : distance ((⟨arctan (pos.2.2 / q), if atan2 pos.2.1 pos.1 = π then -π else atan2 pos.2.1 pos.1, length pos⟩ : Observer).position t)
      (rotZ (7.292115922e-5 * t) pos) ^ 2 ≤ (43200 * length pos / (length pos - 43200)) ^ 2 := by
    unfold distance
    rw [length_sq]
    refine le_of_eq_of_le ?_ hst
    unfold Observer.position rotZ sub
    simp only [cos_add, sin_add, hcos, hsin, hs, hc, hrot]
    have k1 := sin_sq_add_cos_sq (7.292115922e-5 * t)
    have k2 := sin_sq_add_cos_sq (atan2 pos.2.1 pos.1)
    generalize atan2 pos.2.1 pos.1 = a at hca hsa k2
    rw [← hca, ← hsa]
    generalize sin (7.292115922e-5 * t) = s at k1
    generalize cos (7.292115922e-5 * t) = c at k1
    generalize sin a = sa at k2
    generalize cos a = ca at k2
    generalize q / √(q ^ 2 + pos.2.2 ^ 2) = u
    generalize pos.2.2 / √(q ^ 2 + pos.2.2 ^ 2) = v
    generalize axisDistance pos = P
    generalize length pos = g
    linear_combination (g * u - P) ^ 2 * k2 + (g * u - P) ^ 2 * (sa ^ 2 + ca ^ 2) * k1
  have hb : 43200 * length pos / (length pos - 43200) < 43500 := by
    rw [div_lt_iff₀ (by linarith)]
    linarith
  have h0 : 0 ≤ 43200 * length pos / (length pos - 43200) := by
    apply div_nonneg <;> linarith
  exact lt_of_le_of_lt (abs_le_of_sq_le_sq' hd h0).2 hb

/-- How it is misplaced: a station at geodetic latitude `φ` on the ellipsoid is observed from the geocentric latitude `φ`. -/
theorem C57_surface (debug : Bool) (fuel : Nat) (φ l N : ℝ) (hφ : -(π / 2) < φ) (hφ' : φ < π / 2) (hl : -π < l) (hl' : l < π)
    (hN : N = 6378137 / √(1 - e2 * sin φ ^ 2)) (hp : 50000 < N * cos φ) :
    observerOf debug (fuel + 1) (N * cos φ * cos l, N * cos φ * sin l, N * (1 - e2) * sin φ) =
      .ok ⟨φ, l, length (N * cos φ * cos l, N * cos φ * sin l, N * (1 - e2) * sin φ)⟩ := by
  have hc : 0 < cos φ := cos_pos_of_mem_Ioo ⟨hφ, hφ'⟩
  have hP : axisDistance (N * cos φ * cos l, N * cos φ * sin l, N * (1 - e2) * sin φ) = N * cos φ := by
    unfold axisDistance
    have : (N * cos φ * cos l) ^ 2 + (N * cos φ * sin l) ^ 2 = (N * cos φ) ^ 2 := by
      linear_combination (N * cos φ) ^ 2 * sin_sq_add_cos_sq l
    simp only [this]
    exact sqrt_sq (by linarith)
  have he := e2_lt
  have h1e : 0 < 1 - e2 := by linarith
  have hN0 : 0 < N := by
    by_contra hn
    push Not at hn
    nlinarith
  have harc : arctan (N * (1 - e2) * sin φ / (N * cos φ * (1 - e2))) = φ := by
    rw [show N * (1 - e2) * sin φ / (N * cos φ * (1 - e2)) = sin φ / cos φ by field_simp, ← tan_eq_sin_div_cos, arctan_tan hφ hφ']
  have hcor : corrected (N * cos φ) φ = N * cos φ * (1 - e2) := by
    unfold corrected
    have hN' : semiMajorAxis / √(1 - e2 * sin φ * sin φ) = N := by
      rw [hN, show e2 * sin φ * sin φ = e2 * sin φ ^ 2 by ring]
      rfl
    have : e2 * semiMajorAxis * (cos φ / √(1 - e2 * sin φ * sin φ)) = e2 * cos φ * (semiMajorAxis / √(1 - e2 * sin φ * sin φ)) := by ring
    rw [this, hN']
    ring
  have hloop : latitudeLoop (N * (1 - e2) * sin φ) (N * cos φ) (fuel + 1) φ = .ok φ := by
    rw [latitudeLoop_succ hp hc]
    have h1 : nextLat (N * (1 - e2) * sin φ) (N * cos φ) φ = φ := by unfold nextLat; rw [hcor, harc]
    rw [h1]
    have htol : ¬ toRadians 9.26e-6 < |φ - φ| := by
      rw [sub_self, abs_zero, not_lt]; unfold toRadians; have := pi_pos; positivity
    rw [if_neg htol]
  have hlon : atan2 (N * cos φ * sin l) (N * cos φ * cos l) = l := by
    unfold atan2
    have : (⟨N * cos φ * cos l, N * cos φ * sin l⟩ : ℂ) = ((N * cos φ : ℝ) : ℂ) * (Complex.cos l + Complex.sin l * Complex.I) := by
      apply Complex.ext <;> simp [Complex.cos_ofReal_re, Complex.sin_ofReal_re, Complex.cos_ofReal_im, Complex.sin_ofReal_im]
    rw [this, Complex.arg_mul_cos_add_sin_mul_I (by linarith) ⟨hl, hl'.le⟩]
  have hat : atan2 (N * (1 - e2) * sin φ) (N * cos φ * (1 - e2)) = φ := by
    rw [atan2_eq_arctan (mul_pos (by linarith) h1e), harc]
  rw [observerOf_eq debug (fuel + 1) _ (by rw [hP]; exact hp) φ (by rw [hP]; simp only; rw [hat]; exact hloop)]
  simp only [hlon]
  rw [if_neg hl'.ne]

/-! ### Non-vacuity -/

example : 6300000 ≤ length (5000000, 0, 4000000) := by
  unfold length
  refine le_sqrt_of_sq_le ?_
  norm_num
example : 50000 < 6378137 / √(1 - e2 * sin 0 ^ 2) * cos 0 := by norm_num

example : 50000 < axisDistance (6371009, 0, 0) := by
  unfold axisDistance
  rw [lt_sqrt (by norm_num)]
  norm_num

end Orbit
end Icarus
