import Verif.Props.MissedSetting

/-!
# Stations on the equator, where the search is right

The observer of C57 is where the station is if the station is on the equator.  A station well above the radius 6371009 m that the distance formula
works with is then never in the situation of C104.
-/

set_option autoImplicit false

namespace Icarus
namespace Orbit

open Real

/-! ## Elevation and distance as cosines -/

/-- A station on the equator, up to 12 km above the ellipsoid and not more than 2 km below, and orbits between 160 and 2000 km high. -/
structure Equatorial (o : Elements) (g : Vec) : Prop where
  flat : g.2.2 = 0
  high : 6376009 ≤ length g
  low : length g ≤ 6390000
  above : 6531009 ≤ o.radius
  below : o.radius ≤ 8371009

section Cosines

variable {o : Elements} {g : Vec} {ob : Observer} {debug : Bool} {fuel : Nat}

theorem Equatorial.axis (h : Equatorial o g) : axisDistance g = length g := by
  unfold axisDistance length
  rw [h.flat]
  norm_num

theorem observer_radius (hob : observerOf debug (fuel + 1) g = .ok ob) : ob.radius = length g := by
  unfold observerOf at hob
  simp only [Outcome.bind_eq_ok] at hob
  obtain ⟨⟨lat, lon⟩, -, h2⟩ := hob
  simp only [Outcome.ok.injEq] at h2
  rw [← h2]

theorem Equatorial.motion (h : Equatorial o g) : 0.000824 ≤ meanMotion o.radius ∧ meanMotion o.radius ≤ 0.0012 := by
  have hr : 0 < o.radius := by linarith [h.above]
  have hn := meanMotion_pos hr
  have hsq := meanMotion_sq hr
  rw [eq_div_iff (by positivity)] at hsq
  have h1 : o.radius ^ 3 ≤ 8371009 ^ 3 := pow_le_pow_left₀ hr.le h.below 3
  have h2 : (6531009 : ℝ) ^ 3 ≤ o.radius ^ 3 := pow_le_pow_left₀ (by norm_num) h.above 3
  constructor
  · refine le_of_sq_le_sq ?_ hn.le
    by_contra hcon
    push Not at hcon
    have := mul_lt_mul_of_pos_right hcon (by positivity : 0 < o.radius ^ 3)
    rw [hsq] at this
    norm_num at this h1
    linarith
  · by_contra hcon
    push Not at hcon
    have h3 : 0.0012 ^ 2 < meanMotion o.radius ^ 2 := pow_lt_pow_left₀ hcon (by norm_num) (by norm_num)
    have := mul_lt_mul_of_pos_right h3 (by positivity : 0 < o.radius ^ 3)
    rw [hsq] at this
    norm_num at this h2
    linarith

theorem dot_sub_sq (a b : Vec) : length (sub a b) ^ 2 = length a ^ 2 + length b ^ 2 - 2 * dot a b := by
  rw [length_sq, length_sq, length_sq]
  unfold sub dot
  ring

/-- The cosine of the angle between the satellite and the station. -/
theorem Equatorial.cosine (h : Equatorial o g) (hob : observerOf debug (fuel + 1) g = .ok ob) (t : ℝ) :
    o.radius * length g * overhead o ob t = dot g (rotZ (-(7.292115922e-5 * t)) (circlePoint o (meanMotion o.radius * t + o.phase))) := by
  have hr : 0 < o.radius := by linarith [h.above]
  have hpos := C57_equator_partial debug fuel g ob (by rw [h.axis]; linarith [h.high]) h.flat hob t
  have h1 := gap_overhead o ob t
  rw [observer_radius hob] at h1
  have h2 : gap o ob t ^ 2 = length (sub (rotZ (7.292115922e-5 * t) g) (circlePoint o (meanMotion o.radius * t + o.phase))) ^ 2 := by
    unfold gap distance
    rw [hpos]
  rw [h2, dot_sub_sq, length_circlePoint _ _ hr.le] at h1
  have h3 : length (rotZ (7.292115922e-5 * t) g) = length g := by
    unfold length
    rw [normSq_rotZ]
  rw [h3] at h1
  have h4 := dot_rotZ (-(7.292115922e-5 * t)) (rotZ (7.292115922e-5 * t) g) (circlePoint o (meanMotion o.radius * t + o.phase))
  rw [rotZ_rotZ, neg_add_cancel, rotZ_zero] at h4
  rw [h4]
  linarith

/-- The elevation is at least `e` if the cosine is at least that of the reach, and more than `e` if the cosine is more. -/
theorem Equatorial.elevation (h : Equatorial o g) (hob : observerOf debug (fuel + 1) g = .ok ob) {e : ℝ} (h0 : 0 ≤ e) (h1 : e < π / 2) (t : ℝ) :
    (e ≤ elevationAt o g t ↔ cos (reach (length g) (o.radius - 9) e) ≤ overhead o ob t) ∧
      (cos (reach (length g) (o.radius - 9) e) < overhead o ob t → e < elevationAt o g t) := by
  have hR : 0 < length g := by linarith [h.high]
  have hρ : length g < o.radius - 9 := by linarith [h.low, h.above]
  have hr : 0 < o.radius := by linarith [h.above]
  have key : ∀ e', 0 ≤ e' → e' ≤ π / 2 → (e' ≤ elevationAt o g t ↔ cos (reach (length g) (o.radius - 9) e') ≤ overhead o ob t) := by
    intro e' h0' h1'
    set s := smul ((o.radius - 9) / o.radius) (rotZ (-(7.292115922e-5 * t)) (circlePoint o (meanMotion o.radius * t + o.phase))) with hs
    have hls : length s = o.radius - 9 := by
      rw [hs, length_smul _ (div_nonneg (by linarith) hr.le), length_rotZ, length_circlePoint _ _ hr.le]
      field_simp
    obtain ⟨x, hx, hiff⟩ := C71_reach s g hR (by rw [hls]; exact hρ) e' h0' h1'
    have hel : elevationAt o g t = x := by
      have hne : length g * length (sub s g) ≠ 0 := by
        refine mul_ne_zero hR.ne' (length_pos fun h => ?_).ne'
        rw [sub_eq_zero'.mp h] at hls
        linarith
      have : satElevation s g = .ok (elevationAt o g t) := by
        unfold satElevation elevationAt cdiv
        simp only []
        rw [if_neg hne]
        rfl
      rw [this] at hx
      simpa using hx
    have hdot : dot g s = (o.radius - 9) * length g * overhead o ob t := by
      rw [hs, dot_smul, ← h.cosine hob t]
      field_simp
    rw [hel, hiff, hls]
    unfold angle
    rw [hls, hdot, show (o.radius - 9) * length g * overhead o ob t / (length g * (o.radius - 9)) = overhead o ob t by
      have : o.radius - 9 ≠ 0 := by linarith
      field_simp]
    have hb : |overhead o ob t| ≤ 1 := by
      have h1 := abs_dot_le g s
      rw [hdot, hls, abs_mul, abs_of_pos (mul_pos (by linarith) hR), mul_comm (length g)] at h1
      exact le_of_mul_le_mul_left (by linarith) (mul_pos (by linarith) hR : 0 < (o.radius - 9) * length g)
    rw [← strictAntiOn_cos.le_iff_ge ⟨reach_nonneg hR hρ h0' h1', by linarith [reach_le hR hρ h0' h1', pi_pos]⟩ ⟨arccos_nonneg _, arccos_le_pi _⟩,
      cos_arccos (abs_le.mp hb).1 (abs_le.mp hb).2]
  refine ⟨key e h0 h1.le, fun hlt => ?_⟩
  have hcont : Continuous fun x => cos (reach (length g) (o.radius - 9) x) := by
    unfold reach
    exact continuous_cos.comp ((continuous_arccos.comp (by fun_prop)).sub continuous_id)
  have hopen : IsOpen {x | cos (reach (length g) (o.radius - 9) x) < overhead o ob t} := isOpen_lt hcont continuous_const
  obtain ⟨ε, hε, hball⟩ := Metric.isOpen_iff.mp hopen e hlt
  have hm : min (ε / 2) (π / 2 - e) ≤ ε / 2 := min_le_left _ _
  have hm' : min (ε / 2) (π / 2 - e) ≤ π / 2 - e := min_le_right _ _
  have hp : 0 < min (ε / 2) (π / 2 - e) := lt_min (by linarith) (by linarith)
  have := hball (show e + min (ε / 2) (π / 2 - e) ∈ Metric.ball e ε by
    rw [Metric.mem_ball, Real.dist_eq, add_sub_cancel_left, abs_of_pos hp]
    linarith)
  have := (key _ (by linarith) (by linarith)).mpr (le_of_lt this)
  linarith

theorem margin_sides {r R S a : ℝ} (hS0 : 0 ≤ S) (hS1 : S ≤ 1) (hR : 0 ≤ R) (hr : R ≤ r) (ha : a ^ 2 = r ^ 2 - R ^ 2 * (1 - S ^ 2)) (ha0 : 0 ≤ a) :
    r * S ≤ a ∧ a ≤ r := by
  have hS2 : S ^ 2 ≤ 1 := by nlinarith
  have h1 : R ^ 2 ≤ r ^ 2 := pow_le_pow_left₀ hR hr 2
  constructor
  · refine (abs_le_of_sq_le_sq' ?_ ha0).2
    have := mul_nonneg (by linarith : 0 ≤ 1 - S ^ 2) (by linarith : 0 ≤ r ^ 2 - R ^ 2)
    rw [ha, mul_pow]
    linarith
  · refine (abs_le_of_sq_le_sq' ?_ (by linarith)).2
    have := mul_nonneg (sq_nonneg R) (by linarith : 0 ≤ 1 - S ^ 2)
    rw [ha]
    linarith

theorem margin_core {ρ d S a b c : ℝ} (hd0 : 5000 ≤ d) (hd1 : d ≤ 18991) (ρ1 : 6531009 ≤ ρ) (ρ2 : ρ ≤ 8371009) (hS0 : 0 ≤ S) (hS1 : S ≤ 1)
    (ha0 : 0 ≤ a) (hb0 : 0 ≤ b) (ha : a ^ 2 = (ρ + d) ^ 2 - (6371009 + d) ^ 2 * (1 - S ^ 2)) (hb : b ^ 2 = (ρ - 9) ^ 2 - (6371009 + d) ^ 2 * (1 - S ^ 2))
    (hc : (ρ - 9) * c = (6371009 + d) * (1 - S ^ 2) + S * b) :
    0.000008 ≤ c - (ρ ^ 2 + (6371009 + d) ^ 2 - (a - (6371009 + d) * S) ^ 2) / (2 * ρ * (6371009 + d)) ∧
      c - (ρ ^ 2 + (6371009 + d) ^ 2 - (a - (6371009 + d) * S) ^ 2) / (2 * ρ * (6371009 + d)) ≤ 0.004 ∧ 0.76 ≤ c := by
  obtain ⟨haS, -⟩ := margin_sides hS0 hS1 (by linarith) (by linarith) ha ha0
  obtain ⟨hbS, hbr⟩ := margin_sides hS0 hS1 (by linarith) (by linarith) hb hb0
  have hab2 : a ^ 2 - b ^ 2 = (d + 9) * ((ρ + d) + (ρ - 9)) := by rw [ha, hb]; ring
  have hba : b ≤ a := by
    refine (abs_le_of_sq_le_sq' ?_ ha0).2
    have := mul_nonneg (by linarith : 0 ≤ d + 9) (by linarith : 0 ≤ (ρ + d) + (ρ - 9))
    linarith
  have hapos : 0 < a + b := by
    by_contra hcon
    have h1 : a = 0 := by linarith
    have h2 : b = 0 := by linarith
    rw [h1, h2] at hab2
    have := mul_pos (by linarith : 0 < d + 9) (by linarith : 0 < (ρ + d) + (ρ - 9))
    linarith
  -- the step from `b` to `a`
  have hstep : S * (a - b) ≤ d + 9 := by
    refine le_of_mul_le_mul_right ?_ hapos
    have : S * (a - b) * (a + b) = (d + 9) * ((ρ + d) * S + (ρ - 9) * S) := by linear_combination S * hab2
    rw [this]
    exact mul_le_mul_of_nonneg_left (by linarith) (by linarith)
  have hstep0 : 0 ≤ S * (a - b) := mul_nonneg hS0 (by linarith)
  have hρ0 : 0 < ρ := by linarith
  have hR0 : 0 < 6371009 + d := by linarith
  have hS2 : S ^ 2 ≤ 1 := by nlinarith
  have hc1 : c ≤ 1 := by
    have h1 : S * b ≤ S * (ρ - 9) := mul_le_mul_of_nonneg_left hbr hS0
    have h2 : S * b ≤ S ^ 2 * (ρ - 9) + (S - S ^ 2) * (ρ - 9) := by linarith
    by_contra hcon
    push Not at hcon
    have h3 := mul_lt_mul_of_pos_left hcon (by linarith : 0 < ρ - 9)
    have hb2 : b ^ 2 = (ρ - 9) ^ 2 - (6371009 + d) ^ 2 * (1 - S ^ 2) := hb
    -- otherwise `S * b > (ρ - 9) - R (1 - S²) ≥ 0`, and the squares give `(ρ - 9 - R)² (1 - S²) ≤ 0`
    have h4 : (ρ - 9) - (6371009 + d) * (1 - S ^ 2) < S * b := by linarith
    have h5 : 0 ≤ (ρ - 9) - (6371009 + d) * (1 - S ^ 2) := by nlinarith
    have h6 := mul_self_lt_mul_self h5 h4
    have h7 : S * b * (S * b) = S ^ 2 * ((ρ - 9) ^ 2 - (6371009 + d) ^ 2 * (1 - S ^ 2)) := by rw [← hb]; ring
    rw [h7] at h6
    have h8 := mul_nonneg (by linarith : 0 ≤ 1 - S ^ 2) (sq_nonneg (ρ - 9 - (6371009 + d)))
    nlinarith
  have hclow : 0.76 ≤ c := by
    have h1 : S * ((ρ - 9) * S) ≤ S * b := mul_le_mul_of_nonneg_left hbS hS0
    have h2 : (6371009 + d) * S ^ 2 ≤ (ρ - 9) * S ^ 2 := mul_le_mul_of_nonneg_right (by linarith) (sq_nonneg S)
    by_contra hcon
    push Not at hcon
    have h3 := mul_lt_mul_of_pos_left hcon (by linarith : 0 < ρ - 9)
    linarith
  have hdiff : c - (ρ ^ 2 + (6371009 + d) ^ 2 - (a - (6371009 + d) * S) ^ 2) / (2 * ρ * (6371009 + d)) =
      9 * c / ρ - S * (a - b) / ρ + d * (2 * ρ + d) / (2 * ρ * (6371009 + d)) := by
    have hbe : S * b = (ρ - 9) * c - (6371009 + d) * (1 - S ^ 2) := by linarith
    have := hR0.ne'
    field_simp
    linear_combination (-2 * (6371009 + d)) * hbe + ha
  rw [hdiff]
  refine ⟨?_, ?_, hclow⟩
  · have k1 : S * (a - b) / ρ ≤ (d + 9) / ρ := div_le_div_of_nonneg_right hstep hρ0.le
    have k2 : 0 ≤ 9 * c / ρ := by positivity
    have k3 : d / (6371009 + d) ≤ d * (2 * ρ + d) / (2 * ρ * (6371009 + d)) := by
      rw [div_le_div_iff₀ hR0 (by positivity)]
      have := mul_nonneg (mul_nonneg (by linarith : 0 ≤ d) (by linarith : 0 ≤ d)) hR0.le
      linarith
    have k4 : 0.000008 ≤ d / (6371009 + d) - (d + 9) / ρ := by
      rw [div_sub_div _ _ hR0.ne' hρ0.ne', le_div_iff₀ (mul_pos hR0 hρ0)]
      have m1 := mul_nonneg (by linarith : 0 ≤ d - 0.000008 * (6371009 + d)) (by linarith : 0 ≤ ρ - 6531009)
      have m2 := mul_nonneg (by linarith : 0 ≤ d - 5000) (by linarith : 0 ≤ 18991 - d)
      linarith
    linarith
  · have k1 : 0 ≤ S * (a - b) / ρ := div_nonneg hstep0 hρ0.le
    have k2 : 9 * c / ρ ≤ 0.00001 := by rw [div_le_iff₀ hρ0]; linarith
    have k3 : d * (2 * ρ + d) / (2 * ρ * (6371009 + d)) ≤ 0.0035 := by
      rw [div_le_iff₀ (mul_pos (by linarith) hR0)]
      have m1 := mul_nonneg (by linarith : 0 ≤ 18991 - d) hρ0.le
      have m2 := mul_nonneg (by linarith : 0 ≤ 18991 - d) (by linarith : 0 ≤ d)
      have m3 := mul_nonneg (by linarith : 0 ≤ d) hρ0.le
      linarith
    linarith

/-- The distance that belongs to an elevation is reached later than the elevation, but not much. -/
theorem margin {R ρ e D : ℝ} (r1 : 6376009 ≤ R) (r2 : R ≤ 6390000) (ρ1 : 6531009 ≤ ρ) (ρ2 : ρ ≤ 8371009) (h0 : 0 ≤ e) (h1 : e ≤ π / 2)
    (hD : groundDistanceAtElevation o e R = .ok D) (ho : o.radius = ρ) :
    0.000008 ≤ cos (reach R (ρ - 9) e) - (ρ ^ 2 + R ^ 2 - D ^ 2) / (2 * ρ * R) ∧
      cos (reach R (ρ - 9) e) - (ρ ^ 2 + R ^ 2 - D ^ 2) / (2 * ρ * R) ≤ 0.004 ∧ 0.76 ≤ cos (reach R (ρ - 9) e) := by
  obtain ⟨A, hA, -, hD'⟩ := groundDistance_eq o e R (by linarith) (by rw [ho]; linarith)
  rw [ho] at hA
  rw [hD] at hD'
  simp only [Outcome.ok.injEq] at hD'
  have hS0 : 0 ≤ sin e := sin_nonneg_of_nonneg_of_le_pi h0 (by linarith [pi_pos])
  have hS1 : sin e ≤ 1 := sin_le_one e
  have hcs : cos e ^ 2 = 1 - sin e ^ 2 := by linarith [sin_sq_add_cos_sq e]
  have hc := cos_reach (R := R) (ρ := ρ - 9) (e := e) (by linarith) (by linarith) (abs_cos_le_one e)
  rw [hcs] at hc
  obtain ⟨d, rfl⟩ : ∃ d, R = 6371009 + d := ⟨R - 6371009, by ring⟩
  generalize cos (reach (6371009 + d) (ρ - 9) e) = c at *
  generalize sin e = S at *
  have hA' : A = (ρ + d) ^ 2 - (6371009 + d) ^ 2 * (1 - S ^ 2) := by rw [hA]; ring
  have hp : 0 ≤ (6371009 + d) * (ρ - 6371009) := mul_nonneg (by linarith) (by linarith)
  have hA0 : 0 ≤ A := by
    rw [hA]
    have := sq_nonneg ((6371009 + d) * S)
    have := sq_nonneg (ρ - 6371009)
    linarith
  have hB0 : 0 ≤ (ρ - 9) ^ 2 - (6371009 + d) ^ 2 * (1 - S ^ 2) := by
    have h2 : (6371009 + d) ^ 2 ≤ (ρ - 9) ^ 2 := pow_le_pow_left₀ (by linarith) (by linarith) 2
    have := sq_nonneg ((6371009 + d) * S)
    nlinarith
  rw [hD']
  exact margin_core (by linarith) (by linarith) ρ1 ρ2 hS0 hS1 (sqrt_nonneg A) (sqrt_nonneg _) (by rw [sq_sqrt hA0, hA']) (sq_sqrt hB0) hc

theorem acceleration_ge (o : Elements) (hr : 0 < o.radius) (ob : Observer) (t : ℝ) :
    -(2 * (meanMotion o.radius + earthRotation) ^ 2) ≤ acceleration o ob t := by
  have hn := meanMotion_pos hr
  have hω := rotation_pos
  unfold acceleration
  generalize meanMotion o.radius = n at *
  generalize earthRotation = ω at *
  generalize (n - ω) * t + (o.phase - ob.longitude + o.ascendingNode) = x
  generalize (n + ω) * t + (o.phase + ob.longitude - o.ascendingNode) = y
  generalize n * t + o.phase = z
  have c1 : |cos ob.latitude| ≤ 1 := abs_cos_le_one _
  have c2 : |sin ob.latitude| ≤ 1 := abs_sin_le_one _
  have c3 := abs_le.mp (abs_cos_le_one o.inclination)
  have q1 : (n - ω) ^ 2 ≤ (n + ω) ^ 2 := by nlinarith
  have q2 : n ^ 2 ≤ (n + ω) ^ 2 := by nlinarith
  have k0 : ∀ u v w : ℝ, |u| ≤ 1 → |v| ≤ 1 → 0 ≤ w → u * v * w ≤ w := by
    intro u v w hu hv hw
    have : |u * v| ≤ 1 := by rw [abs_mul]; exact mul_le_one₀ hu (abs_nonneg _) hv
    have := (abs_le.mp this).2
    nlinarith
  have k1 := k0 (cos ob.latitude) (cos x) ((1 + cos o.inclination) / 2 * (n - ω) ^ 2) c1 (abs_cos_le_one _) (mul_nonneg (by linarith) (sq_nonneg _))
  have k2 := k0 (cos ob.latitude) (cos y) ((1 - cos o.inclination) / 2 * (n + ω) ^ 2) c1 (abs_cos_le_one _) (mul_nonneg (by linarith) (sq_nonneg _))
  have k3 := k0 (sin ob.latitude * sin o.inclination) (sin z) (n ^ 2) (by rw [abs_mul]; exact mul_le_one₀ c2 (abs_nonneg _) (abs_sin_le_one _))
    (abs_sin_le_one _) (sq_nonneg _)
  have k4 : (1 + cos o.inclination) / 2 * (n - ω) ^ 2 ≤ (1 + cos o.inclination) / 2 * (n + ω) ^ 2 := mul_le_mul_of_nonneg_left q1 (by linarith)
  nlinarith

/-- A function falling off faster than a parabola. -/
theorem falls {f f' f'' : ℝ → ℝ} {a b K : ℝ} (hab : a ≤ b) (h1 : ∀ t, HasDerivAt f (f' t) t) (h2 : ∀ t, HasDerivAt f' (f'' t) t)
    (h0 : f' a ≤ 0) (hK : ∀ t, a < t → t < b → f'' t ≤ -K) : f b ≤ f a - K * (b - a) ^ 2 / 2 := by
  have hslope : AntitoneOn (fun t => f' t + K * (t - a)) (Set.Icc a b) := by
    have hd : ∀ t, HasDerivAt (fun t => f' t + K * (t - a)) (f'' t + K) t := fun t => by
      refine ((h2 t).add (((hasDerivAt_id t).sub_const a).const_mul K)).congr_deriv ?_
      simp
    refine antitoneOn_of_deriv_nonpos (convex_Icc a b) (fun t _ => (hd t).continuousAt.continuousWithinAt)
      (fun t _ => (hd t).differentiableAt.differentiableWithinAt) fun t ht => ?_
    rw [interior_Icc] at ht
    rw [(hd t).deriv]
    linarith [hK t ht.1 ht.2]
  have hd : ∀ t, HasDerivAt (fun t => f t + K * (t - a) ^ 2 / 2) (f' t + K * (t - a)) t := fun t => by
    have h3 := ((((hasDerivAt_id t).sub_const a).pow 2).const_mul K).div_const 2
    refine ((h1 t).add h3).congr_deriv ?_
    simp
    ring
  have hanti : AntitoneOn (fun t => f t + K * (t - a) ^ 2 / 2) (Set.Icc a b) := by
    refine antitoneOn_of_deriv_nonpos (convex_Icc a b) (fun t _ => (hd t).continuousAt.continuousWithinAt)
      (fun t _ => (hd t).differentiableAt.differentiableWithinAt) fun t ht => ?_
    rw [interior_Icc] at ht
    rw [(hd t).deriv]
    have := hslope ⟨le_refl a, hab⟩ ⟨ht.1.le, ht.2.le⟩ ht.1.le
    simp only [sub_self, mul_zero, add_zero] at this
    linarith
  have := hanti ⟨le_refl a, hab⟩ ⟨hab, le_refl b⟩ hab
  simp only [sub_self] at this
  linarith

/-- A function that does not fall faster than a parabola. -/
theorem holds {f f' f'' : ℝ → ℝ} {a b K : ℝ} (hab : a ≤ b) (h1 : ∀ t, HasDerivAt f (f' t) t) (h2 : ∀ t, HasDerivAt f' (f'' t) t)
    (h0 : 0 ≤ f' a) (hK : ∀ t, -K ≤ f'' t) : f a - K * (b - a) ^ 2 / 2 ≤ f b := by
  have := falls (f := fun t => -f t) (f' := fun t => -f' t) (f'' := fun t => -f'' t) (K := -K) hab (fun t => (h1 t).neg) (fun t => (h2 t).neg)
    (by linarith) (fun t _ _ => by linarith [hK t])
  linarith

end Cosines

/-! ## The search -/

section Search

variable {o : Elements} {g : Vec} {ob : Observer} {debug : Bool} {fuel : Nat} {e D T now : ℝ} {rf : RootFinder}

/-- A satellite that is within the distance some time in the second half of the coming period is closer for the rest of the period: no second pass
ends within the period. -/
def Lingers (o : Elements) (ob : Observer) (D T now : ℝ) : Prop :=
  ∀ t u, now + T / 2 < t → t < u → u ≤ now + T → gap o ob t ≤ D → gap o ob u < D

theorem Equatorial.drift_le (h : Equatorial o g) : drift o ≤ 0.19 := by
  obtain ⟨n1, n2⟩ := h.motion
  have hn : 0 < meanMotion o.radius := by linarith
  have hq : earthRotation / meanMotion o.radius ≤ 0.0886 := by
    rw [div_le_iff₀ hn, show earthRotation = 7.292115922e-5 from rfl]; linarith
  have hq0 : 0 ≤ earthRotation / meanMotion o.radius := div_nonneg rotation_pos.le hn.le
  unfold drift
  nlinarith

/-- What a satellite visible from the station does: for the search it is visible, too, and has been for a second or will be for two; it sinks to the minimum
elevation at some `τ`, long before half a period is over, and if `d` seconds suffice to fall by the difference of the two cosines, it leaves the distance at most
`d` seconds later. -/
theorem Equatorial.settles (h : Equatorial o g) (hob : observerOf debug (fuel + 1) g = .ok ob) (h0 : 0 ≤ e) (h1 : e < π / 2)
    (hD : groundDistanceAtElevation o e (length g) = .ok D) (hT : orbitalPeriod o = .ok T) {x : ℝ} (hx : e < x) (hsee : Sees debug o g now x) :
    gap o ob now < D ∧ (gap o ob (now - 1) < D ∨ gap o ob (now + 2) < D) ∧ ∃ τ, FirstSet debug o g e now τ ∧ τ + 900 < now + T / 2 ∧
      ∀ σ, gap o ob σ = D → (∀ t, now ≤ t → t < σ → gap o ob t < D) → ∀ d, 0 ≤ d →
        cos (reach (length g) (o.radius - 9) e) - (o.radius ^ 2 + length g ^ 2 - D ^ 2) / (2 * o.radius * length g) <
          meanMotion o.radius ^ 2 * level o ob D * d ^ 2 / 2 → σ ≤ τ + d := by
  have hg : 0 < length g := by linarith [h.high]
  have hρ : length g < o.radius - 9 := by linarith [h.low, h.above]
  have hr : 0 < o.radius := by linarith [h.above]
  have hrad := observer_radius hob
  have hR : 0 < ob.radius := by rw [hrad]; exact hg
  obtain ⟨n1, n2⟩ := h.motion
  have hn : 0 < meanMotion o.radius := by linarith
  obtain ⟨k1, k2⟩ := C71_leo_2000 o g (by linarith [h.high]) hρ (by linarith [h.below]) e h0 h1.le
  obtain ⟨τ, hset, hτ900⟩ := C71_sets debug o g hg hρ k1 e h0 h1.le (by linarith) now x hsee hx
  have hTe := period_eq hr hT
  have hT6 : 6 ≤ T := by rw [hTe, le_div_iff₀ hn]; linarith [pi_gt_three]
  obtain ⟨hD0, hw⟩ := C82_reach (ob := ob) (by linarith [h.above]) (by linarith [h.below]) (by rw [hrad]; linarith [h.high])
    (by rw [hrad]; linarith [h.low]) h0 h1.le (by rw [hrad]; exact hD)
  obtain ⟨m1, m2, m3⟩ := margin (o := o) h.high h.low h.above h.below h0 h1.le hD rfl
  have hlev : level o ob D = (o.radius ^ 2 + length g ^ 2 - D ^ 2) / (2 * o.radius * length g) - drift o := by unfold level; rw [hrad]
  set c := cos (reach (length g) (o.radius - 9) e) with hcdef
  have hel := fun t => h.elevation hob h0 h1 t
  have hels : ∀ t y, Sees debug o g t y → y = elevationAt o g t := fun t y hy => hy.unique (sees_elevationAt debug o g hg hρ t)
  have hup : ∀ t y, Sees debug o g t y → e ≤ y → c ≤ overhead o ob t := fun t y hy hle => by
    rw [hels t y hy] at hle
    exact (hel t).1.mp hle
  have hvis : c ≤ overhead o ob now := hup _ _ hsee hx.le
  have hdrift := h.drift_le
  have hcloser : gap o ob now < D := by
    rw [gap_lt_iff hr hR hD0, hlev]
    linarith
  have hK : 2 * (meanMotion o.radius + earthRotation) ^ 2 ≤ 0.0000035 := by
    have : meanMotion o.radius + earthRotation ≤ 0.00128 := by rw [show earthRotation = 7.292115922e-5 from rfl]; linarith
    have := pow_le_pow_left₀ (by linarith [rotation_pos] : 0 ≤ meanMotion o.radius + earthRotation) this 2
    norm_num at this ⊢
    linarith
  have hstay : gap o ob (now - 1) < D ∨ gap o ob (now + 2) < D := by
    rcases le_or_gt 0 (speed o ob now) with hs | hs
    · right
      have := holds (a := now) (b := now + 2) (by linarith) (overhead_deriv o ob) (speed_deriv o ob) hs (acceleration_ge o hr ob)
      rw [gap_lt_iff hr hR hD0, hlev]
      rw [add_sub_cancel_left] at this
      norm_num at this hK m1 ⊢
      linarith
    · left
      have := holds (f := fun t => overhead o ob (-t)) (f' := fun t => -speed o ob (-t)) (f'' := fun t => acceleration o ob (-t)) (a := -now)
        (b := -(now - 1)) (by linarith) (fun t => ((overhead_deriv o ob (-t)).comp t (hasDerivAt_neg t)).congr_deriv (by ring))
        (fun t => (((speed_deriv o ob (-t)).comp t (hasDerivAt_neg t)).neg).congr_deriv (by ring)) (by rw [neg_neg]; linarith)
        (fun t => acceleration_ge o hr ob (-t))
      rw [gap_lt_iff hr hR hD0, hlev]
      rw [neg_neg, neg_neg, show -(now - 1) - -now = 1 by ring] at this
      norm_num at this hK m1 ⊢
      linarith
  refine ⟨hcloser, hstay, τ, hset, by rw [hTe, show 2 * π / meanMotion o.radius / 2 = π / meanMotion o.radius by ring]; linarith, ?_⟩
  intro σ hσ hbefore d hd hfast
  rcases le_or_gt σ τ with hle | hgt
  · linarith
  -- from `τ` to `σ` the cosine falls like a parabola
  have hτe : overhead o ob τ = c := by
    refine le_antisymm ?_ (hup _ _ hset.2.1 (le_refl _))
    by_contra hcon
    push Not at hcon
    have := (hel τ).2 hcon
    rw [← hels _ _ hset.2.1] at this
    linarith
  have hslope : speed o ob τ ≤ 0 := by
    have hlim := hasDerivAt_iff_tendsto_slope.mp (overhead_deriv o ob τ)
    refine le_of_tendsto (hlim.mono_left (nhdsWithin_mono τ (s := Set.Iio τ) fun y hy => ne_of_lt hy)) ?_
    filter_upwards [Ioo_mem_nhdsLT hset.1] with u hu
    obtain ⟨y, hy, hsy⟩ := hset.2.2 u hu.1.le hu.2
    have hcu := hup _ _ hsy hy.le
    rw [slope_def_field, hτe]
    exact div_nonpos_of_nonneg_of_nonpos (by linarith) (by linarith [hu.2])
  have hfall := falls (K := meanMotion o.radius ^ 2 * level o ob D) hgt.le (overhead_deriv o ob) (speed_deriv o ob) hslope (fun t h3 h4 => by
    have h5 := acceleration_le o hr ob t
    have h6 := (gap_lt_iff hr hR hD0 t).mp (hbefore t (by linarith [hset.1]) h4)
    have := mul_le_mul_of_nonneg_left h6.le (sq_nonneg (meanMotion o.radius))
    linarith)
  have hσc := (gap_le_iff hr hR hD0 σ).mp hσ.le
  by_contra hcon
  push Not at hcon
  have h8 : d ^ 2 ≤ (σ - τ) ^ 2 := pow_le_pow_left₀ hd (by linarith) 2
  have h9 := mul_le_mul_of_nonneg_left h8 (mul_nonneg (sq_nonneg (meanMotion o.radius)) (level_pos hr hR hw).le)
  rw [hlev] at hσc h9 hfast hfall
  linarith

/-- The answer of the search for a satellite that is visible from the station is not past, and at most 150 seconds after the satellite has sunk to the
minimum elevation. -/
theorem C105_search (h : Equatorial o g) (hob : observerOf debug (fuel + 1) g = .ok ob) (h0 : 0 ≤ e) (h1 : e < π / 2)
    (hD : groundDistanceAtElevation o e (length g) = .ok D) (hb : IsBrent o ob D rf) (hT : orbitalPeriod o = .ok T) (hnow : 0 ≤ now)
    (hlong : now + T ≤ 1000000) {x : ℝ} (hx : e < x) (hsee : Sees debug o g now x) (hl : Lingers o ob D T now)
    (hc : ∀ r, distanceSolver debug rf o ob D now (now + T) = .ok (some r) → now + T / 2 - 1 < r → Converges rf now (r - 1)) {q : ℝ}
    (hq : findNextCross debug rf o ob D now = .ok (some q)) :
    ∃ τ, FirstSet debug o g e now τ ∧ τ + 900 < now + T / 2 ∧ now ≤ q ∧ q ≤ τ + 150 := by
  have hr : 0 < o.radius := by linarith [h.above]
  have hrad := observer_radius hob
  have hR : 0 < ob.radius := by rw [hrad]; linarith [h.high]
  obtain ⟨n1, n2⟩ := h.motion
  have hn : 0 < meanMotion o.radius := by linarith
  have hT6 : 6 ≤ T := by rw [period_eq hr hT, le_div_iff₀ hn]; linarith [pi_gt_three]
  obtain ⟨hD0, hw⟩ := C82_reach (ob := ob) (by linarith [h.above]) (by linarith [h.below]) (by rw [hrad]; linarith [h.high])
    (by rw [hrad]; linarith [h.low]) h0 h1.le (by rw [hrad]; exact hD)
  obtain ⟨hcloser, hstay, τ, hset, hτ900, hlate⟩ := h.settles hob h0 h1 hD hT hx hsee
  refine ⟨τ, hset, hτ900, ?_⟩
  obtain ⟨σ, t1, t2, hσ, hbefore, hafter⟩ := C82_sets hr hR hD0 hw hT hcloser
  obtain ⟨q1, q2⟩ := never_late hb hr hR hD0 hw hT hT6 hnow hlong hcloser hstay t1 t2 hσ hbefore hafter (by
    intro r σ' hfirst hfar s2 hσ' hrσ hclose
    exfalso
    obtain ⟨a1, a2⟩ := abs_lt.mp hrσ
    have hr1 : σ + T / 2 < r - 1 := by
      by_contra hcon
      push Not at hcon
      have := hafter (r - 1) (by linarith) hcon
      linarith
    have := hl (r - 1) σ' (by linarith) (by linarith) s2 hclose
    linarith) hc hq
  refine ⟨q1, ?_⟩
  have hσ6 : 0.000001 * σ ≤ 1 := by linarith
  obtain ⟨m1, m2, m3⟩ := margin (o := o) h.high h.low h.above h.below h0 h1.le hD rfl
  have := hlate σ hσ hbefore 148 (by norm_num) (by
    have h9 : (0.000824 : ℝ) ^ 2 ≤ meanMotion o.radius ^ 2 := pow_le_pow_left₀ (by norm_num) n1 2
    have h7 : 0.56 ≤ level o ob D := by
      have := h.drift_le
      unfold level
      rw [hrad]
      linarith
    have := mul_le_mul h9 h7 (by norm_num) (sq_nonneg _)
    norm_num at this m2 ⊢
    linarith)
  linarith


/-! ## Satellites over the equator, eastwards -/

theorem overhead_equator (ρ φ lon R t : ℝ) :
    overhead ⟨0, 0, ρ, φ⟩ ⟨0, lon, R⟩ t = cos ((meanMotion ρ - earthRotation) * t + (φ - lon)) := by
  unfold overhead
  simp only [cos_zero, sin_zero]
  rw [add_zero]
  ring

theorem cos_lt_of_between {x θ : ℝ} (h0 : 0 ≤ θ) (h1 : θ < x) (h2 : x < 2 * π - θ) : cos x < cos θ := by
  rcases le_or_gt x π with h | h
  · exact cos_lt_cos_of_nonneg_of_le_pi h0 h h1
  · rw [← cos_two_pi_sub x]
    exact cos_lt_cos_of_nonneg_of_le_pi h0 (by linarith) (by linarith)

/-- They come back later than one period, so the second pass does not end within it. -/
theorem C105_lingers {ρ φ lon R : ℝ} (hρ : 0 < ρ) (hR : 0 < R) (hD : 0 ≤ D) (hfast : earthRotation < meanMotion ρ)
    (hT : orbitalPeriod ⟨0, 0, ρ, φ⟩ = .ok T) (hw : WithinReach ⟨0, 0, ρ, φ⟩ ⟨0, lon, R⟩ D)
    (hvis : gap ⟨0, 0, ρ, φ⟩ ⟨0, lon, R⟩ now < D) : Lingers ⟨0, 0, ρ, φ⟩ ⟨0, lon, R⟩ D T now := by
  have hT0 := period_pos (o := ⟨0, 0, ρ, φ⟩) hρ hT
  have hhalf := C82_half (o := ⟨0, 0, ρ, φ⟩) (ob := ⟨0, lon, R⟩) hρ hR hD hw hT hvis.le
  have hv0 : 0 < meanMotion ρ - earthRotation := by linarith
  have hn : 0 < meanMotion ρ := meanMotion_pos hρ
  have hvT : (meanMotion ρ - earthRotation) * T < 2 * π := by
    have := period_eq (o := ⟨0, 0, ρ, φ⟩) hρ hT
    dsimp only at this
    rw [this, ← mul_div_assoc, div_lt_iff₀ hn]
    nlinarith [mul_pos rotation_pos pi_pos]
  set v := meanMotion ρ - earthRotation with hv
  set c := level ⟨0, 0, ρ, φ⟩ ⟨0, lon, R⟩ D + drift ⟨0, 0, ρ, φ⟩ with hc
  have hle : ∀ t, gap ⟨0, 0, ρ, φ⟩ ⟨0, lon, R⟩ t ≤ D ↔ c ≤ cos (v * t + (φ - lon)) := fun t => by
    rw [gap_le_iff hρ hR hD, overhead_equator, hc, le_sub_iff_add_le]
  have hlt : ∀ t, gap ⟨0, 0, ρ, φ⟩ ⟨0, lon, R⟩ t < D ↔ c < cos (v * t + (φ - lon)) := fun t => by
    rw [gap_lt_iff hρ hR hD, overhead_equator, hc, lt_sub_iff_add_lt]
  have hc1 : c < 1 := lt_of_lt_of_le ((hlt now).mp hvis) (cos_le_one _)
  have hc0 : 0 < c := by
    have h1 := level_pos (o := ⟨0, 0, ρ, φ⟩) (ob := ⟨0, lon, R⟩) hρ hR hw
    have h2 : 0 ≤ drift ⟨0, 0, ρ, φ⟩ := by
      have : 0 ≤ earthRotation / meanMotion ρ := div_nonneg rotation_pos.le hn.le
      unfold drift
      positivity
    linarith
  obtain ⟨θ, hθ0, hθ1, hθ⟩ : ∃ θ, 0 ≤ θ ∧ θ ≤ π / 2 ∧ cos θ = c :=
    ⟨arccos c, arccos_nonneg c, arccos_le_pi_div_two.mpr hc0.le, cos_arccos (by linarith) hc1.le⟩
  obtain ⟨k, ⟨k1, k2⟩, -⟩ := existsUnique_add_zsmul_mem_Ioc two_pi_pos (v * now + (φ - lon)) (-π)
  rw [zsmul_eq_mul] at k1 k2
  set α := v * now + (φ - lon) + k * (2 * π) with hα
  have hangle : ∀ t, cos (v * t + (φ - lon)) = cos (α + v * (t - now)) := fun t => by
    rw [← cos_add_int_mul_two_pi _ k, hα]
    congr 1
    ring
  have hin : |α| < θ := by
    by_contra hcon
    push Not at hcon
    have h1 := (hlt now).mp hvis
    rw [hangle, sub_self, mul_zero, add_zero, ← hθ, ← cos_abs α] at h1
    have := cos_le_cos_of_nonneg_of_le_pi hθ0 (abs_le.mpr ⟨by linarith, by linarith⟩) hcon
    linarith
  obtain ⟨a1, a2⟩ := abs_lt.mp hin
  intro t u h1 h2 h3 hclose
  rw [hle, hangle, ← hθ] at hclose
  rw [hlt, hangle, ← hθ]
  have m1 : v * (T / 2) < v * (t - now) := mul_lt_mul_of_pos_left (by linarith) hv0
  have m2 : v * (t - now) < v * (u - now) := mul_lt_mul_of_pos_left (by linarith) hv0
  have m3 : v * (u - now) ≤ v * T := mul_le_mul_of_nonneg_left (by linarith) hv0.le
  have m4 : 0 < v * (T / 2) := by positivity
  have hx1 : θ < α + v * (t - now) := by
    by_contra hcon
    push Not at hcon
    refine absurd ((hle _).mpr ?_) (not_le.mpr hhalf)
    rw [hangle, ← hθ, add_sub_cancel_left, ← cos_abs (α + _)]
    exact cos_le_cos_of_nonneg_of_le_pi (abs_nonneg _) (by linarith [pi_pos]) (abs_le.mpr ⟨by linarith, by linarith⟩)
  have hx2 : 2 * π - θ ≤ α + v * (t - now) := by
    by_contra hcon
    push Not at hcon
    have := cos_lt_of_between hθ0 hx1 hcon
    linarith
  have hu : cos (α + v * (u - now)) = cos |α + v * (u - now) - 2 * π| := by rw [cos_abs, cos_sub_two_pi]
  rw [hu]
  exact cos_lt_cos_of_nonneg_of_le_pi (abs_nonneg _) (by linarith [pi_pos]) (abs_lt.mpr ⟨by linarith, by linarith⟩)

end Search

/-! ## What the elevation tracker makes of it -/

open Tracker

/-- The search for satellite `o` at time `now` runs as it should: its root finder is GSL's Brent, and if the satellite is visible, no second pass ends
within the coming period and the second call of the root finder converges when there is one. -/
structure Searched (debug : Bool) (fuel : Nat) (rf : RootFinder) (o : Elements) (g : Vec) (e now : ℝ) (ob : Observer) (D T : ℝ) : Prop where
  observer : observerOf debug (fuel + 1) g = .ok ob
  distance : groundDistanceAtElevation o e (length g) = .ok D
  period : orbitalPeriod o = .ok T
  brent : IsBrent o ob D rf
  recent : now + T ≤ 1000000
  lingers : e < elevationAt o g now → Lingers o ob D T now
  converges : e < elevationAt o g now →
    ∀ r, distanceSolver debug rf o ob D now (now + T) = .ok (some r) → now + T / 2 - 1 < r → Converges rf now (r - 1)

section Tracking

variable {D : Type} {debug : Bool} {fuel : Nat} {rf : D → RootFinder} {orb : D → Elements} {g : Vec} {minE : ℝ} {v : Nat → View D ℝ} {t : Nat}

/-- What the update needs of the search for satellite `o` at time `now`: it does not answer the past, and for a visible satellite not later than `late`
seconds after the satellite has sunk to the minimum elevation. -/
structure Answers (debug : Bool) (fuel : Nat) (rf : RootFinder) (o : Elements) (g : Vec) (e now : ℝ) (late : ℝ) (ob : Observer) (D T : ℝ) : Prop where
  observer : observerOf debug (fuel + 1) g = .ok ob
  distance : groundDistanceAtElevation o e (length g) = .ok D
  period : orbitalPeriod o = .ok T
  stays : Stays rf
  good : e < elevationAt o g now → ∀ q, findNextCross debug rf o ob D now = .ok (some q) →
    ∃ τ, FirstSet debug o g e now τ ∧ τ + 900 < now + T / 2 ∧ q ≤ τ + late

/-- With such answers the update does not fail its assertion. -/
theorem update_answers {e : Endian} {hasOrbit : D → Bool} {cid n sz : Nat} {hist : List (Nat × Nat × D)} {as : List SatAddress}
    {c : Nat → Constellation D} (hc : Built e hasOrbit cid n sz hist as (c t)) (hfull : Full n sz hist) (addr : D → SatAddress)
    (hsat : ∀ p i d, (p, i, d) ∈ hist → Equatorial (orb d) g) (h0 : 0 ≤ minE) (h1 : minE < π / 2)
    {late : ℝ} (hlate : late ≤ 150) (hv : Told debug (fuel + 1) rf orb g minE v)
    (hs : ∀ p i d, (p, i, d) ∈ hist → ∃ ob E T, Answers debug fuel (rf d) (orb d) g minE (t / 10 ^ 9) late ob E T) :
    ((∃ p i d b, (p, i, d) ∈ hist ∧ Candidate (v t) minE d b) →
      ∃ a delay, elevationFire debug addr true v minE c t () = .ok (a, some (delay, ())) ∧
        ∃ p i d, (p, i, d) ∈ hist ∧ a = addr d ∧ (∃ x, minE < x ∧ Sees debug (orb d) g (t / 10 ^ 9) x) ∧
          ∃ τ, FirstSet debug (orb d) g minE (t / 10 ^ 9) τ ∧ (t + delay : ℝ) ≤ (τ + late) * 10 ^ 9 + 1) ∧
    ((¬ ∃ p i d b, (p, i, d) ∈ hist ∧ Candidate (v t) minE d b) → elevationFire debug addr true v minE c t () = .abort) := by
  have ht0 : (0 : ℝ) ≤ t / 10 ^ 9 := by positivity
  have htt : (t : ℝ) / 10 ^ 9 * 10 ^ 9 = t := by field_simp
  have hsearch : ∀ p i d, (p, i, d) ∈ hist → ∃ ob E T, Answers debug fuel (rf d) (orb d) g minE (t / 10 ^ 9) late ob E T ∧
      ∀ b, (v t).setting d = some b → ∃ q, findNextCross debug (rf d) (orb d) ob E (t / 10 ^ 9) = .ok (some q) ∧ ⌊q * 10 ^ 9⌋₊ ≤ b ∧
        b ≤ ⌈q * 10 ^ 9⌉₊ := by
    intro p i d hd
    obtain ⟨ob, E, T, hS⟩ := hs p i d hd
    refine ⟨ob, E, T, hS, fun b hb => ?_⟩
    obtain ⟨res, hres, hm⟩ := hv.setting t d
    cases res with
    | none => rw [hm] at hb; simp at hb
    | some q =>
      obtain ⟨b', k1, k2, k3⟩ := hm
      rw [hb] at k1
      simp only [Option.some.injEq] at k1
      subst k1
      refine ⟨q, ?_, k2, k3⟩
      rw [← hres]
      simp [tryGetNextTimeAtElevation, hS.observer, hS.distance]
  have hgood : ∀ p i d b, (p, i, d) ∈ hist → Candidate (v t) minE d b → ∃ T τ, orbitalPeriod (orb d) = .ok T ∧
      FirstSet debug (orb d) g minE (t / 10 ^ 9) τ ∧ τ + 900 < t / 10 ^ 9 + T / 2 ∧ (b : ℝ) ≤ (τ + late) * 10 ^ 9 + 1 := by
    intro p i d b hd hb
    obtain ⟨ob, E, T, hS, hq⟩ := hsearch p i d hd
    obtain ⟨q, hq, -, q2⟩ := hq b hb.2
    have hE := hsat p i d hd
    have hel := hv.elevation t d
    have hel' := hel.unique (sees_elevationAt debug (orb d) g (by linarith [hE.high]) (by linarith [hE.low, hE.above]) (t / 10 ^ 9))
    obtain ⟨τ, s1, s2, s4⟩ := hS.good (hel' ▸ hb.1) q hq
    refine ⟨T, τ, hS.period, s1, s2, ?_⟩
    have e1 : (b : ℝ) ≤ ⌈q * 10 ^ 9⌉₊ := by exact_mod_cast q2
    have hrad := observer_radius hS.observer
    obtain ⟨hE0, -⟩ := C82_reach (ob := ob) (by linarith [hE.above]) (by linarith [hE.below]) (by rw [hrad]; linarith [hE.high])
      (by rw [hrad]; linarith [hE.low]) h0 h1.le (by rw [hrad]; exact hS.distance)
    obtain ⟨T', res, -, k3, k4, -⟩ := C51_accepted (debug := debug) hS.stays (by linarith [hE.above] : 0 < (orb d).radius) (ob := ob) hE0 (t / 10 ^ 9)
    rw [hq] at k3
    simp only [Outcome.ok.injEq] at k3
    have hle := (k4 q k3.symm).1
    have e2 := Nat.ceil_lt_add_one (a := q * 10 ^ 9) (by have := le_trans ht0 hle; positivity)
    have e3 : q * 10 ^ 9 ≤ (τ + late) * 10 ^ 9 := mul_le_mul_of_nonneg_right s4 (by positivity)
    linarith
  have hsoon : Soon (v t) minE t hist := by
    rintro ⟨p, i, d⟩ hd b hb
    obtain ⟨T, τ, hT, -, s2, s3⟩ := hgood p i d b hd hb
    obtain ⟨T', hT', hp⟩ := hv.period t d
    rw [hT] at hT'
    simp only [Outcome.ok.injEq] at hT'
    subst hT'
    have hp1 := (abs_le.mp hp).1
    have h3 : (2 * b + 2 : ℝ) < 2 * t + (v t).period d := by nlinarith
    have h4 : 2 * b + 2 < 2 * t + (v t).period d := by exact_mod_cast h3
    dsimp only
    omega
  have hlater : ∀ x ∈ hist, ∀ b, (v t).setting x.2.2 = some b → t ≤ b := by
    rintro ⟨p, i, d⟩ hd b hb
    obtain ⟨ob, E, T, hS, hq⟩ := hsearch p i d hd
    obtain ⟨q, hq, q1, -⟩ := hq b hb
    have hE := hsat p i d hd
    have hrad := observer_radius hS.observer
    obtain ⟨hE0, -⟩ := C82_reach (ob := ob) (by linarith [hE.above]) (by linarith [hE.below]) (by rw [hrad]; linarith [hE.high])
      (by rw [hrad]; linarith [hE.low]) h0 h1.le (by rw [hrad]; exact hS.distance)
    obtain ⟨T', res, -, k3, k4, -⟩ := C51_accepted (debug := debug) hS.stays (by linarith [hE.above] : 0 < (orb d).radius) (ob := ob) hE0
      (t / 10 ^ 9)
    rw [hq] at k3
    simp only [Outcome.ok.injEq] at k3
    have hle := (k4 q k3.symm).1
    rw [div_le_iff₀ (by positivity)] at hle
    exact le_trans (Nat.le_floor hle) q1
  obtain ⟨u1, u2⟩ := C43_update hc hfull debug addr (v t) minE t (fun _ => hsoon) hlater
  constructor
  · rintro ⟨p, i, d, b, hd, hb⟩
    obtain ⟨vis, a, delay, hu, ⟨p', i', d', hd', ha, hc'⟩, -⟩ := u1 ⟨_, hd, b, hb⟩
    refine ⟨a, delay, by simp [elevationFire, hu], p', i', d', hd', ha, ⟨_, hc'.1, hv.elevation t d'⟩, ?_⟩
    obtain ⟨T, τ, -, s1, -, s3⟩ := hgood p' i' d' _ hd' hc'
    exact ⟨τ, s1, by exact_mod_cast s3⟩
  · intro hno
    have := u2 (by rintro ⟨⟨p, i, d⟩, hd, b, hb⟩; exact hno ⟨p, i, d, b, hd, hb⟩)
    simp [elevationFire, this]

/-- With such searches the update does not fail its assertion.  When it finds a satellite, that one is visible, and the next update comes at most 150
seconds after it has sunk to the minimum elevation; else the update gives up (`NS_ABORT`). -/
theorem C105_update {e : Endian} {hasOrbit : D → Bool} {cid n sz : Nat} {hist : List (Nat × Nat × D)} {as : List SatAddress}
    {c : Nat → Constellation D} (hc : Built e hasOrbit cid n sz hist as (c t)) (hfull : Full n sz hist) (addr : D → SatAddress)
    (hsat : ∀ p i d, (p, i, d) ∈ hist → Equatorial (orb d) g) (h0 : 0 ≤ minE) (h1 : minE < π / 2)
    (hv : Told debug (fuel + 1) rf orb g minE v)
    (hs : ∀ p i d, (p, i, d) ∈ hist → ∃ ob E T, Searched debug fuel (rf d) (orb d) g minE (t / 10 ^ 9) ob E T) :
    ((∃ p i d b, (p, i, d) ∈ hist ∧ Candidate (v t) minE d b) →
      ∃ a delay, elevationFire debug addr true v minE c t () = .ok (a, some (delay, ())) ∧
        ∃ p i d, (p, i, d) ∈ hist ∧ a = addr d ∧ (∃ x, minE < x ∧ Sees debug (orb d) g (t / 10 ^ 9) x) ∧
          ∃ τ, FirstSet debug (orb d) g minE (t / 10 ^ 9) τ ∧ (t + delay : ℝ) ≤ (τ + 150) * 10 ^ 9 + 1) ∧
    ((¬ ∃ p i d b, (p, i, d) ∈ hist ∧ Candidate (v t) minE d b) → elevationFire debug addr true v minE c t () = .abort) := by
  refine update_answers hc hfull addr hsat h0 h1 le_rfl hv fun p i d hd => ?_
  obtain ⟨ob, E, T, hS⟩ := hs p i d hd
  have hE := hsat p i d hd
  refine ⟨ob, E, T, hS.observer, hS.distance, hS.period, C81_stays hS.brent, fun hup q hq => ?_⟩
  obtain ⟨τ, s1, s2, -, s4⟩ := C105_search hE hS.observer h0 h1 hS.distance hS.brent hS.period (by positivity) hS.recent hup
    (sees_elevationAt debug (orb d) g (by linarith [hE.high]) (by linarith [hE.low, hE.above]) (t / 10 ^ 9)) (hS.lingers hup) (hS.converges hup) hq
  exact ⟨τ, s1, s2, s4⟩

end Tracking

/-! ## A concrete case: 622 km above a station on the equator -/

section Example

/-- On the WGS84 ellipsoid, at latitude and longitude 0. -/
def seaside : Vec := (6378137, 0, 0)

theorem seaside_length : length seaside = 6378137 := by
  unfold length seaside
  rw [show ((6378137 : ℝ) ^ 2 + 0 ^ 2 + 0 ^ 2) = 6378137 ^ 2 by norm_num, sqrt_sq (by norm_num)]

theorem seaside_observer (debug : Bool) (fuel : Nat) : observerOf debug (fuel + 1) seaside = .ok ⟨0, 0, 6378137⟩ := by
  have h := C57_surface debug fuel 0 0 6378137 (by linarith [pi_pos]) (by linarith [pi_pos]) (by linarith [pi_pos]) pi_pos (by simp) (by norm_num)
  simp only [cos_zero, sin_zero, mul_one, mul_zero] at h
  rw [show ((6378137 : ℝ), (0 : ℝ), (0 : ℝ)) = seaside from rfl, seaside_length] at h
  exact h

theorem seaside_equatorial (φ : ℝ) : Equatorial ⟨0, 0, 7000000, φ⟩ seaside :=
  ⟨rfl, by rw [seaside_length]; norm_num, by rw [seaside_length]; norm_num, by norm_num, by norm_num⟩

theorem reach_pos {R ρ e : ℝ} (hR : 0 < R) (hρ : R < ρ) (h0 : 0 ≤ e) (h1 : e < π / 2) : 0 < reach R ρ e := by
  have hc : 0 < cos e := cos_pos_of_mem_Ioo ⟨by linarith [pi_pos], h1⟩
  have h2 : R * cos e / ρ < cos e := by
    rw [div_lt_iff₀ (by linarith)]
    nlinarith
  unfold reach
  have h3 : 0 ≤ R * cos e / ρ := div_nonneg (by positivity) (by linarith)
  have := arccos_lt_arccos (by linarith) h2 (cos_le_one e)
  rw [arccos_cos h0 (by linarith [pi_pos])] at this
  linarith

theorem rate7000 : 0.00099 < meanMotion 7000000 - earthRotation ∧ meanMotion 7000000 - earthRotation < 0.00101 := by
  obtain ⟨n1, n2⟩ := motion7000
  rw [show earthRotation = 7.292115922e-5 from rfl]
  constructor <;> linarith

/-- The angle of setting for which Brent's method needs two steps only, straight over the station. -/
theorem chord7000 : ∃ T D θ : ℝ, T = 2 * π / meanMotion 7000000 ∧ 5800 < T ∧ T < 5900 ∧
    (meanMotion 7000000 - earthRotation) * T = 2 * π - D ∧ 0.42 < D ∧ D < 0.431 ∧
    cos (0 + (meanMotion 7000000 - earthRotation) * T) ≤ 0.92 ∧ 0.02 ≤ θ ∧ θ ≤ 0.1 ∧
    (cos 0 - cos θ) * ((meanMotion 7000000 - earthRotation) * T) = (cos 0 - cos (0 + (meanMotion 7000000 - earthRotation) * T)) * (θ - 0) := by
  obtain ⟨n1, n2⟩ := motion7000
  have p1 := pi_gt_d6
  have p2 := pi_lt_d6
  have hω : earthRotation = 7.292115922e-5 := rfl
  have hn0 : 0 < meanMotion 7000000 := by linarith
  obtain ⟨T, hT⟩ : ∃ T, T = 2 * π / meanMotion 7000000 := ⟨_, rfl⟩
  have hTn : T * meanMotion 7000000 = 2 * π := by rw [hT]; field_simp
  have hT1 : 5800 < T := by rw [hT, lt_div_iff₀ hn0]; linarith
  have hT2 : T < 5900 := by rw [hT, div_lt_iff₀ hn0]; linarith
  obtain ⟨D, hD⟩ : ∃ D, D = earthRotation * T := ⟨_, rfl⟩
  have hL : (meanMotion 7000000 - earthRotation) * T = 2 * π - D := by rw [hD, ← hTn]; ring
  have hD1 : 0.42 < D := by rw [hD, hω]; linarith
  have hD2 : D < 0.431 := by rw [hD, hω]; linarith
  have hcosL : cos (0 + (meanMotion 7000000 - earthRotation) * T) = cos D := by rw [zero_add, hL, cos_two_pi_sub]
  have c1 : cos D ≤ 1 - 0.08 := by
    have := cos_le_poly (x := D) (by rw [abs_of_pos (by linarith)]; linarith)
    have h4 : D ^ 4 ≤ 0.431 ^ 4 := pow_le_pow_left₀ (by linarith) hD2.le 4
    nlinarith
  have c2 : 1 - 0.093 ≤ cos D := by nlinarith [one_sub_sq_div_two_le_cos (x := D)]
  obtain ⟨θ, t1, t2, hθ⟩ := exists_chord (L := (meanMotion 7000000 - earthRotation) * T) (x1 := 0.02) (x2 := 0.1) (α := 0) (by norm_num)
    (by
      rw [hcosL, cos_zero, hL, zero_add]
      have := one_sub_sq_div_two_le_cos (x := 0.02)
      have h2 : (1 - cos 0.02) * (2 * π - D) ≤ 0.0002 * 6 := mul_le_mul (by linarith) (by linarith) (by linarith) (by norm_num)
      linarith)
    (by
      rw [hcosL, cos_zero, hL, zero_add]
      have := cos_le_poly (x := 0.1) (by rw [abs_of_pos] <;> norm_num)
      have h2 : 0.004 * 5 ≤ (1 - cos 0.1) * (2 * π - D) := mul_le_mul (by linarith) (by linarith) (by norm_num) (by linarith)
      linarith)
  rw [zero_add] at t1 t2
  exact ⟨T, D, θ, hT, hT1, hT2, hL, hD1, hD2, by rw [hcosL]; linarith, t1, t2, hθ⟩

/-- The elevation at which the satellite has this distance. -/
theorem elevation7000 (φ : ℝ) {E : ℝ} (hE1 : 629000 < E) (hE2 : E < 920000) :
    ∃ e, 0 ≤ e ∧ e < π / 2 ∧ groundDistanceAtElevation ⟨0, 0, 7000000, φ⟩ e 6378137 = .ok E := by
  obtain ⟨s, hs⟩ : ∃ s : ℝ, s = (2 * 6378137 * 628991 + 628991 ^ 2 - E ^ 2) / (2 * 6378137 * E) := ⟨_, rfl⟩
  have hs0 : 0 ≤ s := by
    rw [hs]
    have : E ^ 2 ≤ 920000 ^ 2 := pow_le_pow_left₀ (by linarith) hE2.le 2
    exact div_nonneg (by linarith) (by linarith)
  have hs1 : s < 1 := by
    rw [hs, div_lt_one (by linarith)]
    have : (629000 : ℝ) ^ 2 < E ^ 2 := pow_lt_pow_left₀ hE1 (by norm_num) two_ne_zero
    linarith
  have hsE : E ^ 2 + 2 * 6378137 * s * E = 2 * 6378137 * 628991 + 628991 ^ 2 := by
    have : E ≠ 0 := by linarith
    have h : s * (2 * 6378137 * E) = 2 * 6378137 * 628991 + 628991 ^ 2 - E ^ 2 := by rw [hs, div_mul_cancel₀]; positivity
    linarith
  have hsin : sin (arcsin s) = s := sin_arcsin (by linarith) hs1.le
  refine ⟨arcsin s, arcsin_nonneg.mpr hs0, arcsin_lt_pi_div_two.mpr hs1, ?_⟩
  obtain ⟨A, hA, -, h⟩ := groundDistance_eq ⟨0, 0, 7000000, φ⟩ (arcsin s) 6378137 (by norm_num) (by norm_num)
  rw [h, hsin]
  rw [hsin] at hA
  have : A = (E + 6378137 * s) ^ 2 := by
    rw [hA]
    norm_num at hsE ⊢
    linarith
  rw [this, sqrt_sq (by linarith), add_sub_cancel_right]

/-- Straight over the station at time 1000, for a minimum elevation at which Brent's method needs two steps only. -/
theorem seaside7000 (debug : Bool) : ∃ φ e E T : ℝ, ∃ rf : RootFinder, 0 ≤ e ∧ e < π / 2 ∧ groundDistanceAtElevation ⟨0, 0, 7000000, φ⟩ e 6378137 = .ok E ∧
    (meanMotion 7000000 - earthRotation) * 1000 + (φ - 0) = 0 ∧ IsBrent ⟨0, 0, 7000000, φ⟩ ⟨0, 0, 6378137⟩ E rf ∧
    orbitalPeriod ⟨0, 0, 7000000, φ⟩ = .ok T ∧ 1000 + T ≤ 1000000 ∧ gap ⟨0, 0, 7000000, φ⟩ ⟨0, 0, 6378137⟩ 1000 < E ∧
    (∃ q, findNextCross debug rf ⟨0, 0, 7000000, φ⟩ ⟨0, 0, 6378137⟩ E 1000 = .ok (some q)) ∧
    ∀ r, distanceSolver debug rf ⟨0, 0, 7000000, φ⟩ ⟨0, 0, 6378137⟩ E 1000 (1000 + T) = .ok (some r) → 1000 + T / 2 - 1 < r →
      Converges rf 1000 (r - 1) := by
  have p1 := pi_gt_d6
  have p2 := pi_lt_d6
  obtain ⟨hv2, hv1⟩ := rate7000
  have hv0 : 0 < meanMotion 7000000 - earthRotation := by linarith
  have hfast : earthRotation < meanMotion 7000000 := by linarith
  obtain ⟨T, D, θ, hT, hT1, hT2, hL, hD1, hD2, hcosL, t1, t2, hθ⟩ := chord7000
  have hθ1 : 1 - 0.005 ≤ cos θ := by nlinarith [one_sub_sq_div_two_le_cos (x := θ)]
  have hθ2 : cos θ < cos 0 := cos_lt_cos_of_nonneg_of_le_pi (le_refl _) (by linarith) (by linarith)
  have hθ3 : cos θ ≤ 1 - 0.00019 := by
    have h1 := cos_le_cos_of_nonneg_of_le_pi (by norm_num) (by linarith) t1
    have h2 := cos_le_poly (x := 0.02) (by rw [abs_of_pos] <;> norm_num)
    linarith
  have hK : 0 ≤ (7000000 : ℝ) ^ 2 + 6378137 ^ 2 - 2 * 7000000 * 6378137 * cos θ := by linarith
  obtain ⟨E, hE, htarget⟩ : ∃ E : ℝ, 0 ≤ E ∧ E ^ 2 = 7000000 ^ 2 + 6378137 ^ 2 - 2 * 7000000 * 6378137 * cos θ :=
    ⟨_, sqrt_nonneg _, sq_sqrt hK⟩
  have hE1 : 629000 < E := lt_of_pow_lt_pow_left₀ 2 hE (by rw [htarget]; norm_num; linarith)
  have hE2 : E < 920000 := lt_of_pow_lt_pow_left₀ 2 (by norm_num) (by rw [htarget]; norm_num; linarith)
  obtain ⟨φ, hφ⟩ : ∃ φ, φ = -((meanMotion 7000000 - earthRotation) * 1000) := ⟨_, rfl⟩
  obtain ⟨e, he0, he1, hdist⟩ := elevation7000 φ hE1 hE2
  obtain ⟨rf, hrf⟩ := exists_brent ⟨0, 0, 7000000, φ⟩ ⟨0, 0, 6378137⟩ E
  have hα : (meanMotion 7000000 - earthRotation) * 1000 + (φ - 0) = 0 := by rw [hφ]; ring
  have hpass := C81_equator (T := T) (by norm_num) (by norm_num) hE htarget hfast hα (by linarith) (by linarith) (by linarith)
    (.inl (by linarith)) (by linarith) (by linarith) (by linarith)
  have hconv := equator_converges hrf (by norm_num) (by norm_num) htarget hfast hα (by norm_num) (by linarith : 0 < T) hθ hθ2
    (by rw [cos_zero]; linarith) (by linarith)
  have h200 : (θ - 0) / (meanMotion 7000000 - earthRotation) < 200 := by
    rw [div_lt_iff₀ hv0]
    linarith
  have honce : 1000 + T < 1000 + (2 * π - θ - 0) / (meanMotion 7000000 - earthRotation) := by
    rw [add_lt_add_iff_left, lt_div_iff₀ hv0]
    linarith
  have hper : orbitalPeriod ⟨0, 0, 7000000, φ⟩ = .ok T := hT ▸ period7000 φ
  have hcc : ∀ r, distanceSolver debug rf ⟨0, 0, 7000000, φ⟩ ⟨0, 0, 6378137⟩ E 1000 (1000 + T) = .ok (some r) → 1000 + T / 2 - 1 < r →
      Converges rf 1000 (r - 1) := by
    intro r hr hlate
    obtain ⟨r', hr', -, -, hcase⟩ := first_search (debug := debug) hrf (by norm_num) hE (by linarith) (by linarith) (by norm_num) hpass hconv
    rw [hr] at hr'
    simp only [Outcome.ok.injEq, Option.some.injEq] at hr'
    subst hr'
    rcases hcase with h | ⟨-, h⟩
    · have := (abs_lt.mp h).2
      linarith
    · linarith
  obtain ⟨q, hq, -⟩ := C81_not_late (debug := debug) hrf (by norm_num) hE hper (by linarith) (by linarith) (by norm_num) hpass hconv
    (fun r h1 h2 => hcc r h1 (by linarith))
  exact ⟨φ, e, E, T, rf, he0, he1, hdist, hα, hrf, hper, by linarith, hpass.before _ (le_refl _) hpass.future, ⟨q, hq⟩, hcc⟩

theorem seaside_within {φ e E : ℝ} (h0 : 0 ≤ e) (h1 : e ≤ π / 2) (hE : groundDistanceAtElevation ⟨0, 0, 7000000, φ⟩ e 6378137 = .ok E) :
    0 ≤ E ∧ WithinReach ⟨0, 0, 7000000, φ⟩ ⟨0, 0, 6378137⟩ E :=
  C82_reach (o := ⟨0, 0, 7000000, φ⟩) (ob := ⟨0, 0, 6378137⟩) (by norm_num) (by norm_num) (by norm_num) (by norm_num) h0 h1 hE

/-- Straight over the station the satellite is above every minimum elevation, on the other side of the Earth it is below. -/
theorem seaside_elevation {φ e t : ℝ} (h0 : 0 ≤ e) (h1 : e < π / 2) :
    (cos ((meanMotion 7000000 - earthRotation) * t + (φ - 0)) = 1 → e < elevationAt ⟨0, 0, 7000000, φ⟩ seaside t) ∧
    (cos ((meanMotion 7000000 - earthRotation) * t + (φ - 0)) = -1 → elevationAt ⟨0, 0, 7000000, φ⟩ seaside t < e) := by
  obtain ⟨e1, e2⟩ := (seaside_equatorial φ).elevation (seaside_observer true 0) h0 h1 t
  rw [overhead_equator, seaside_length] at e1 e2
  dsimp only at e1 e2
  have hp := reach_pos (R := 6378137) (ρ := 7000000 - 9) (e := e) (by norm_num) (by norm_num) h0 h1
  have hl := reach_le (R := 6378137) (ρ := 7000000 - 9) (e := e) (by norm_num) (by norm_num) h0 h1.le
  constructor
  · intro h
    refine e2 ?_
    rw [h, ← cos_zero]
    exact cos_lt_cos_of_nonneg_of_le_pi (le_refl _) (le_trans hl (by linarith [pi_pos])) hp
  · intro h
    by_contra hcon
    have := e1.mp (not_lt.mp hcon)
    rw [h] at this
    linarith [cos_nonneg_of_neg_pi_div_two_le_of_le (le_trans (by linarith [pi_pos]) hp.le) hl]

/-- All hypotheses of `C105_search`. -/
example (debug : Bool) : ∃ (o : Elements) (g : Vec) (ob : Observer) (fuel : Nat) (e D T now x q : ℝ) (rf : RootFinder), Equatorial o g ∧
    observerOf debug (fuel + 1) g = .ok ob ∧ 0 ≤ e ∧ e < π / 2 ∧ groundDistanceAtElevation o e (length g) = .ok D ∧ IsBrent o ob D rf ∧
    orbitalPeriod o = .ok T ∧ 0 ≤ now ∧ now + T ≤ 1000000 ∧ e < x ∧ Sees debug o g now x ∧ Lingers o ob D T now ∧
    (∀ r, distanceSolver debug rf o ob D now (now + T) = .ok (some r) → now + T / 2 - 1 < r → Converges rf now (r - 1)) ∧
    findNextCross debug rf o ob D now = .ok (some q) := by
  obtain ⟨φ, e, E, T, rf, h0, h1, hE, hα, hrf, hT, hlong, hclose, ⟨q, hq⟩, hc⟩ := seaside7000 debug
  obtain ⟨hE0, hw⟩ := seaside_within h0 h1.le hE
  refine ⟨⟨0, 0, 7000000, φ⟩, seaside, ⟨0, 0, 6378137⟩, 0, e, E, T, 1000, elevationAt ⟨0, 0, 7000000, φ⟩ seaside 1000, q, rf, seaside_equatorial φ,
    seaside_observer debug 0, h0, h1, by rw [seaside_length]; exact hE, hrf, hT, by norm_num, hlong,
    (seaside_elevation h0 h1).1 (by rw [hα, cos_zero]),
    sees_elevationAt debug _ seaside (by rw [seaside_length]; norm_num) (by rw [seaside_length]; norm_num) 1000,
    C105_lingers (by norm_num) (by norm_num) hE0 (by linarith [rate7000.1]) hT hw hclose, hc, hq⟩

/-- What the tracker at the station is told. -/
theorem seaside_told {D : Type} (debug : Bool) (fuel : Nat) (orb : D → Elements) (horb : ∀ d, 6378146 < (orb d).radius) (rf : D → RootFinder)
    (hstay : ∀ d, Stays (rf d)) {e E : ℝ} (hdist : ∀ d, groundDistanceAtElevation (orb d) e (length seaside) = .ok E) (hE : 0 ≤ E) :
    ∃ v, Told debug (fuel + 1) rf orb seaside e v ∧ ∀ (t : Nat) d q,
      tryGetNextTimeAtElevation debug (fuel + 1) (rf d) (some (orb d)) e (some seaside) (t / 10 ^ 9) = .ok (some q) →
      (v t).setting d = some ⌊q * 10 ^ 9⌋₊ := by
  have hr : ∀ d, 0 < (orb d).radius := fun d => by linarith [horb d]
  have hs : ∀ (t : Nat) d, ∃ res, tryGetNextTimeAtElevation debug (fuel + 1) (rf d) (some (orb d)) e (some seaside) (t / 10 ^ 9) = .ok res := by
    intro t d
    obtain ⟨T, res, -, h1, -⟩ := C51_accepted (debug := debug) (hstay d) (hr d) (ob := ⟨0, 0, 6378137⟩) (target := E) hE (t / 10 ^ 9)
    exact ⟨res, by simp [tryGetNextTimeAtElevation, hdist d, seaside_observer, h1]⟩
  choose res hres using hs
  have hp : ∀ d, ∃ T, orbitalPeriod (orb d) = .ok T ∧ 0 < T := fun d => by
    obtain ⟨T, h1, h2, -⟩ := C45_kepler (orb d) (hr d)
    exact ⟨T, h1, h2⟩
  choose T hT hT0 using hp
  refine ⟨fun t => ⟨fun d => elevationAt (orb d) seaside (t / 10 ^ 9), fun d => (res t d).map fun q => ⌊q * 10 ^ 9⌋₊, fun d => ⌊T d * 10 ^ 9⌋₊⟩,
    ⟨?_, ?_, ?_⟩, ?_⟩
  · intro t d
    exact sees_elevationAt debug (orb d) seaside (by rw [seaside_length]; norm_num) (by rw [seaside_length]; linarith [horb d]) _
  · intro t d
    refine ⟨T d, hT d, ?_⟩
    have h0 : 0 ≤ T d * 10 ^ 9 := mul_nonneg (hT0 d).le (by norm_num)
    have h1 := Nat.floor_le h0
    have h2 := Nat.sub_one_lt_floor (T d * 10 ^ 9)
    show |((⌊T d * 10 ^ 9⌋₊ : ℕ) : ℝ) - T d * 10 ^ 9| ≤ 1
    rw [abs_le]
    constructor <;> linarith
  · intro t d
    refine ⟨res t d, hres t d, ?_⟩
    cases h : res t d with
    | none => simp [h]
    | some q => exact ⟨_, by simp [h], le_refl _, Nat.floor_le_ceil _⟩
  · intro t d q hq
    rw [hres] at hq
    simp only [Outcome.ok.injEq] at hq
    simp [hq]

/-- All hypotheses of `C105_update`, with one satellite over the station, whose setting is found, and one on the other side of the Earth. -/
theorem C105_witness (debug : Bool) : ∃ (orb : Nat → Elements) (rf : Nat → RootFinder) (minE : ℝ) (v : Nat → View Nat ℝ),
    (∀ p i d, (p, i, d) ∈ exampleSats → Equatorial (orb d) seaside) ∧ 0 ≤ minE ∧ minE < π / 2 ∧ Told debug 1 rf orb seaside minE v ∧
    (∀ p i d, (p, i, d) ∈ exampleSats → ∃ ob E T, Searched debug 0 (rf d) (orb d) seaside minE ((1000 * 10 ^ 9 : Nat) / 10 ^ 9) ob E T) ∧
    (∃ b, Candidate (v (1000 * 10 ^ 9)) minE 10 b) ∧ orb 10 ≠ orb 20 := by
  obtain ⟨φ, e, E, T, rf, h0, h1, hE, hα, hrf, hT, hlong, hclose, ⟨q, hq⟩, hc⟩ := seaside7000 debug
  obtain ⟨hE0, hw⟩ := seaside_within h0 h1.le hE
  obtain ⟨rf', hrf'⟩ := exists_brent ⟨0, 0, 7000000, φ + π⟩ ⟨0, 0, 6378137⟩ E
  have hnow : (((1000 * 10 ^ 9 : Nat) : ℝ)) / 10 ^ 9 = 1000 := by norm_num
  let orb : Nat → Elements := fun d => if d = 10 then ⟨0, 0, 7000000, φ⟩ else ⟨0, 0, 7000000, φ + π⟩
  let rfs : Nat → RootFinder := fun d => if d = 10 then rf else rf'
  have hcase : ∀ d, orb d = ⟨0, 0, 7000000, φ⟩ ∧ rfs d = rf ∨ orb d = ⟨0, 0, 7000000, φ + π⟩ ∧ rfs d = rf' := fun d => by
    by_cases h : d = 10
    · exact .inl ⟨if_pos h, if_pos h⟩
    · exact .inr ⟨if_neg h, if_neg h⟩
  have hdist : ∀ d, groundDistanceAtElevation (orb d) e (length seaside) = .ok E := fun d => by
    rw [seaside_length, ← hE]
    rcases hcase d with ⟨h, -⟩ | ⟨h, -⟩ <;> rw [h] <;> rfl
  obtain ⟨v, hv, hset⟩ := seaside_told debug 0 orb (fun d => by rcases hcase d with ⟨h, -⟩ | ⟨h, -⟩ <;> rw [h] <;> norm_num) rfs
    (fun d => by
      rcases hcase d with ⟨-, h⟩ | ⟨-, h⟩ <;> rw [h]
      · exact C81_stays hrf
      · exact C81_stays hrf') hdist hE0
  have h10 : orb 10 = ⟨0, 0, 7000000, φ⟩ := if_pos rfl
  have hup : e < elevationAt ⟨0, 0, 7000000, φ⟩ seaside 1000 := (seaside_elevation h0 h1).1 (by rw [hα, cos_zero])
  have hdown : elevationAt ⟨0, 0, 7000000, φ + π⟩ seaside 1000 < e := (seaside_elevation h0 h1).2 (by
    rw [show (meanMotion 7000000 - earthRotation) * 1000 + (φ + π - 0) = (meanMotion 7000000 - earthRotation) * 1000 + (φ - 0) + π by ring, hα, zero_add,
      cos_pi])
  refine ⟨orb, rfs, e, v, ?_, h0, h1, hv, ?_, ⟨⌊q * 10 ^ 9⌋₊, ?_, ?_⟩, ?_⟩
  · intro p i d _
    rcases hcase d with ⟨h, -⟩ | ⟨h, -⟩ <;> rw [h] <;> exact seaside_equatorial _
  · intro p i d _
    rw [hnow]
    refine ⟨⟨0, 0, 6378137⟩, E, T, ?_⟩
    have hd := hdist d
    rcases hcase d with ⟨h, h'⟩ | ⟨h, h'⟩ <;> rw [h] at hd <;> rw [h, h']
    · exact ⟨seaside_observer debug 0, hd, hT, hrf, hlong,
        fun _ => C105_lingers (by norm_num) (by norm_num) hE0 (by linarith [rate7000.1]) hT hw hclose, fun _ => hc⟩
    · exact ⟨seaside_observer debug 0, hd, hT, hrf', hlong, fun h => absurd h (not_lt.mpr hdown.le), fun h => absurd h (not_lt.mpr hdown.le)⟩
  · have h2 := hv.elevation (1000 * 10 ^ 9) 10
    rw [hnow, h10] at h2
    rw [h2.unique (sees_elevationAt debug _ seaside (by rw [seaside_length]; norm_num) (by rw [seaside_length]; norm_num) 1000)]
    exact hup
  · refine hset _ _ _ ?_
    have hrf10 : rfs 10 = rf := if_pos rfl
    have hd := hdist 10
    rw [h10] at hd
    rw [hnow, h10, hrf10]
    simp [tryGetNextTimeAtElevation, hd, seaside_observer, hq]
  · rw [h10, show orb 20 = (⟨0, 0, 7000000, φ + π⟩ : Elements) from if_neg (by norm_num)]
    intro h
    have := congrArg Elements.phase h
    simp only at this
    linarith [pi_pos]

end Example

end Orbit
end Icarus
