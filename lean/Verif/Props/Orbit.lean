import Verif.Model.Orbit
import Mathlib.Tactic.Ring
import Mathlib.Tactic.Linarith
import Mathlib.Tactic.LinearCombination
import Mathlib.Tactic.Positivity
import Mathlib.Tactic.FieldSimp

/-!
# Properties of circular orbits (exact real arithmetic)
-/

set_option autoImplicit false

namespace Icarus
namespace Orbit

open Real

/-! ## Specification: rotations in space -/

/-- Rotation about the x axis. -/
noncomputable def rotX (a : ℝ) (v : Vec) : Vec := (v.1, v.2.1 * cos a - v.2.2 * sin a, v.2.1 * sin a + v.2.2 * cos a)

/-- Rotation about the z axis. -/
noncomputable def rotZ (a : ℝ) (v : Vec) : Vec := (v.1 * cos a - v.2.1 * sin a, v.1 * sin a + v.2.1 * cos a, v.2.2)

noncomputable def smul (k : ℝ) (v : Vec) : Vec := (k * v.1, k * v.2.1, k * v.2.2)

/-- The point of a circle in the equatorial plane at angle `E`, tilted by the inclination and turned to the ascending node. -/
noncomputable def circlePoint (o : Elements) (E : ℝ) : Vec :=
  rotZ o.ascendingNode (rotX o.inclination (rotZ E (o.radius, 0, 0)))

theorem normSq_rotX (a : ℝ) (v : Vec) : (rotX a v).1 ^ 2 + (rotX a v).2.1 ^ 2 + (rotX a v).2.2 ^ 2 = v.1 ^ 2 + v.2.1 ^ 2 + v.2.2 ^ 2 := by
  simp only [rotX]
  linear_combination (v.2.1 ^ 2 + v.2.2 ^ 2) * sin_sq_add_cos_sq a

theorem normSq_rotZ (a : ℝ) (v : Vec) : (rotZ a v).1 ^ 2 + (rotZ a v).2.1 ^ 2 + (rotZ a v).2.2 ^ 2 = v.1 ^ 2 + v.2.1 ^ 2 + v.2.2 ^ 2 := by
  simp only [rotZ]
  linear_combination (v.1 ^ 2 + v.2.1 ^ 2) * sin_sq_add_cos_sq a

theorem length_rotX (a : ℝ) (v : Vec) : length (rotX a v) = length v := by unfold length; rw [normSq_rotX]
theorem length_rotZ (a : ℝ) (v : Vec) : length (rotZ a v) = length v := by unfold length; rw [normSq_rotZ]

theorem sub_rotX (a : ℝ) (u v : Vec) : sub (rotX a u) (rotX a v) = rotX a (sub u v) := by
  simp only [sub, rotX, Prod.mk.injEq]
  exact ⟨trivial, by ring, by ring⟩

theorem sub_rotZ (a : ℝ) (u v : Vec) : sub (rotZ a u) (rotZ a v) = rotZ a (sub u v) := by
  simp only [sub, rotZ, Prod.mk.injEq]
  exact ⟨by ring, by ring, trivial⟩

/-! ## C45: the angle -/

theorem theta0_eq (E : ℝ) : ∃ k : ℤ, theta0 E = E - k * (4 * π) := by
  have h : atan2 (sin (E / 2)) (cos (E / 2)) = toIocMod two_pi_pos (-π) (E / 2) := by
    unfold atan2
    rw [← Complex.arg_exp_mul_I]
    congr 1
    rw [Complex.exp_mul_I, ← Complex.ofReal_cos, ← Complex.ofReal_sin]
    apply Complex.ext
    · simp [-Complex.ofReal_cos, -Complex.ofReal_sin]
    · simp [-Complex.ofReal_cos, -Complex.ofReal_sin]
  refine ⟨toIocDiv two_pi_pos (-π) (E / 2), ?_⟩
  unfold theta0
  rw [h]
  have := toIocMod_add_toIocDiv_zsmul two_pi_pos (-π) (E / 2)
  rw [zsmul_eq_mul] at this
  linarith

theorem cround_int (n : ℤ) : cround (n : ℝ) = n := by
  unfold cround
  split
  · rw [Int.floor_eq_iff]; constructor <;> linarith
  · rw [Int.ceil_eq_iff]; constructor <;> linarith

theorem theta_eq (E : ℝ) : theta E = E := by
  obtain ⟨k, hk⟩ := theta0_eq E
  have hpi := pi_pos
  unfold theta
  split
  · have e1 : (E - theta0 E) / (2 * π) = ((2 * k : ℤ) : ℝ) := by
      rw [hk]; push_cast; field_simp; ring
    rw [e1, cround_int, hk]; push_cast; ring
  · have e1 : (theta0 E - E) / (2 * π) = ((-2 * k : ℤ) : ℝ) := by
      rw [hk]; push_cast; field_simp; ring
    rw [e1, cround_int, hk]; push_cast; ring

/-- Angular velocity of a circular orbit. -/
noncomputable def meanMotion (r : ℝ) : ℝ := √(6.67430e-11 * 5.97e24 / r ^ 3)

theorem meanMotion_sq {r : ℝ} (hr : 0 < r) : meanMotion r ^ 2 = 6.67430e-11 * 5.97e24 / r ^ 3 := sq_sqrt (by positivity)

theorem meanMotion_pos {r : ℝ} (hr : 0 < r) : 0 < meanMotion r := sqrt_pos.mpr (by positivity)

theorem getN_eq {r : ℝ} (hr : 0 < r) : getN r = .ok (meanMotion r) := by
  have h1 : r ^ 3 ≠ 0 := by positivity
  have h2 : ¬ G * earthMass / r ^ 3 < 0 := by
    have : 0 < G * earthMass := by unfold G earthMass; norm_num
    have : 0 < G * earthMass / r ^ 3 := by positivity
    linarith
  unfold getN cdiv csqrt
  rw [if_neg h1]
  simp only [Outcome.bind_ok]
  rw [if_neg h2]
  rfl

/-- The correction of the angle never changes the position and its sanity check never fails, in any build: the position is the point of
the tilted circle at the angle `n t + phase`. -/
theorem C45_position (debug : Bool) (o : Elements) (hr : 0 < o.radius) (t : ℝ) :
    rawPosition debug o t = .ok (circlePoint o (meanMotion o.radius * t + o.phase)) := by
  unfold rawPosition
  rw [getN_eq hr]
  simp only [Outcome.bind_ok, theta_eq, sub_self, abs_zero, pi_pos, decide_true, Outcome.nsAssert_true, Outcome.bind_ok]
  congr 1
  simp [circlePoint, rotX, rotZ, meanMotion]

/-- Squared distance of two points of one circle. -/
theorem distance_circle (o : Elements) (E F : ℝ) (hr : 0 ≤ o.radius) :
    distance (circlePoint o E) (circlePoint o F) = 2 * o.radius * |sin ((E - F) / 2)| := by
  unfold distance circlePoint
  rw [sub_rotZ, length_rotZ, sub_rotX, length_rotX]
  have key : (sub (rotZ F (o.radius, 0, 0)) (rotZ E (o.radius, 0, 0))).1 ^ 2 + (sub (rotZ F (o.radius, 0, 0)) (rotZ E (o.radius, 0, 0))).2.1 ^ 2 +
      (sub (rotZ F (o.radius, 0, 0)) (rotZ E (o.radius, 0, 0))).2.2 ^ 2 = (2 * o.radius * |sin ((E - F) / 2)|) ^ 2 := by
    have h1 : cos (E - F) = 1 - 2 * sin ((E - F) / 2) ^ 2 := by
      have h2 := cos_two_mul ((E - F) / 2)
      have h3 : 2 * ((E - F) / 2) = E - F := by ring
      rw [h3] at h2
      have h4 := sin_sq_add_cos_sq ((E - F) / 2)
      linarith
    rw [mul_pow, sq_abs]
    simp only [sub, rotZ]
    rw [cos_sub] at h1
    have hE := sin_sq_add_cos_sq E
    have hF := sin_sq_add_cos_sq F
    linear_combination o.radius ^ 2 * hE + o.radius ^ 2 * hF - 2 * o.radius ^ 2 * h1
  unfold length
  rw [key, sqrt_sq (by positivity)]

/-- The motion is uniform: the distance between the positions at two instants depends on the time between them only. -/
theorem C45_uniform (debug : Bool) (o : Elements) (hr : 0 < o.radius) (t u : ℝ) :
    ∃ p q, rawPosition debug o t = .ok p ∧ rawPosition debug o u = .ok q ∧
      distance p q = 2 * o.radius * |sin (meanMotion o.radius * (t - u) / 2)| := by
  refine ⟨_, _, C45_position debug o hr t, C45_position debug o hr u, ?_⟩
  rw [distance_circle _ _ _ hr.le]
  congr 3
  ring

/-- Two satellites of one plane keep their distance. -/
theorem C45_same_plane (debug : Bool) (i Ω r φ ψ : ℝ) (hr : 0 < r) (t : ℝ) :
    ∃ p q, rawPosition debug ⟨i, Ω, r, φ⟩ t = .ok p ∧ rawPosition debug ⟨i, Ω, r, ψ⟩ t = .ok q ∧
      distance p q = 2 * r * |sin ((φ - ψ) / 2)| := by
  refine ⟨_, _, C45_position debug _ hr t, C45_position debug _ hr t, ?_⟩
  have : circlePoint ⟨i, Ω, r, ψ⟩ = circlePoint ⟨i, Ω, r, φ⟩ := by
    funext E; simp [circlePoint]
  rw [this, distance_circle _ _ _ hr.le]
  congr 3
  simp

/-- Kepler's third law. -/
theorem C45_kepler (o : Elements) (hr : 0 < o.radius) :
    ∃ T, orbitalPeriod o = .ok T ∧ 0 < T ∧ T * meanMotion o.radius = 2 * π ∧
      T ^ 2 * (6.67430e-11 * 5.97e24) = 4 * π ^ 2 * o.radius ^ 3 := by
  have hn := meanMotion_pos hr
  have hsq := meanMotion_sq hr
  refine ⟨2 * π / meanMotion o.radius, ?_, div_pos two_pi_pos hn, div_mul_cancel₀ _ hn.ne', ?_⟩
  · simp [orbitalPeriod, getN_eq hr, cdiv, hn.ne']
  · rw [div_pow, hsq]
    field_simp
    ring

/-- The orbit closes after one period, and after no shorter time. -/
theorem C45_periodic (debug : Bool) (o : Elements) (hr : 0 < o.radius) :
    ∃ T, orbitalPeriod o = .ok T ∧ (∀ t, rawPosition debug o (t + T) = rawPosition debug o t) ∧
      ∀ d, 0 < d → d < T → ∀ t, rawPosition debug o (t + d) ≠ rawPosition debug o t := by
  have hn := meanMotion_pos hr
  obtain ⟨T, hT, hT0, hT1, -⟩ := C45_kepler o hr
  refine ⟨T, hT, ?_, ?_⟩
  · intro t
    rw [C45_position debug o hr, C45_position debug o hr]
    congr 1
    have h1 : meanMotion o.radius * (t + T) + o.phase = meanMotion o.radius * t + o.phase + 2 * π := by
      linarith
    rw [h1]
    simp [circlePoint, rotZ]
  · intro d hd0 hd t heq
    obtain ⟨p, q, hp, hq, hdist⟩ := C45_uniform debug o hr (t + d) t
    rw [hp, hq] at heq
    simp only [Outcome.ok.injEq] at heq
    subst heq
    have h0 : distance p p = 0 := by simp [distance, sub, length]
    rw [h0] at hdist
    have harg : meanMotion o.radius * (t + d - t) / 2 = meanMotion o.radius * d / 2 := by ring
    rw [harg] at hdist
    have hlt : meanMotion o.radius * d / 2 < π := by
      have := mul_lt_mul_of_pos_right hd hn
      linarith
    have hs := sin_pos_of_pos_of_lt_pi (by positivity : 0 < meanMotion o.radius * d / 2) hlt
    rw [abs_of_pos hs] at hdist
    have : 0 < 2 * o.radius * sin (meanMotion o.radius * d / 2) := by positivity
    linarith

/-! ## C44 -/

theorem length_circlePoint (o : Elements) (E : ℝ) (hr : 0 ≤ o.radius) : length (circlePoint o E) = o.radius := by
  unfold circlePoint
  rw [length_rotZ, length_rotX, length_rotZ]
  simp [length, sqrt_sq hr]

/-- A launched satellite is always at Earth radius plus altitude from the centre, and never further from the equatorial plane than its
inclination allows. -/
theorem C44_sphere (debug : Bool) (i Ω altitude φ : ℝ) (ha : 0 < altitude + 6371009) (t : ℝ) :
    ∃ p, rawPosition debug (launchSat i Ω altitude φ) t = .ok p ∧ √(p.1 ^ 2 + p.2.1 ^ 2 + p.2.2 ^ 2) = 6371009 + altitude ∧
      |p.2.2| ≤ (6371009 + altitude) * |sin i| := by
  have hr : 0 < (launchSat i Ω altitude φ).radius := by simpa [launchSat, earthRadius] using ha
  refine ⟨_, C45_position debug _ hr t, ?_, ?_⟩
  · have := length_circlePoint (launchSat i Ω altitude φ) (meanMotion (launchSat i Ω altitude φ).radius * t + φ) hr.le
    unfold length at this
    refine Eq.trans this ?_
    simp [launchSat, earthRadius, add_comm]
  · simp only [circlePoint, rotZ, rotX, launchSat, earthRadius]
    simp only [zero_mul, add_zero]
    rw [abs_mul, abs_mul]
    have h1 : |altitude + 6371009| = 6371009 + altitude := by rw [abs_of_pos ha]; ring
    rw [h1]
    apply mul_le_mul_of_nonneg_right _ (abs_nonneg _)
    calc (6371009 + altitude) * |sin _| ≤ (6371009 + altitude) * 1 :=
          mul_le_mul_of_nonneg_left (abs_sin_le_one _) (by linarith)
      _ = 6371009 + altitude := mul_one _

/-- The bound on the latitude is reached: a quarter turn after the ascending node. -/
theorem C44_sharp (i Ω altitude : ℝ) (ha : 0 < altitude + 6371009) :
    ∃ p, rawPosition true (launchSat i Ω altitude (π / 2)) 0 = .ok p ∧ |p.2.2| = (6371009 + altitude) * |sin i| := by
  refine ⟨_, C45_position true _ ha 0, ?_⟩
  simp only [circlePoint, rotZ, rotX, launchSat, earthRadius]
  simp only [mul_zero, zero_add, sin_pi_div_two, mul_one, zero_mul, add_zero]
  rw [abs_mul, abs_of_pos ha]
  ring

/-! ## C46 -/

/-- The reported position is the inertial one turned back by the rotation of the Earth, and drawn 9 m towards the centre. -/
theorem C46_rotated (debug : Bool) (o : Elements) (hr : 0 < o.radius) (t : ℝ) :
    ∃ p, rawPosition debug o t = .ok p ∧
      doGetPosition debug (some o) t = .ok (smul ((o.radius - 9) / o.radius) (rotZ (-(7.292115922e-5 * t)) p)) := by
  refine ⟨_, C45_position debug o hr t, ?_⟩
  simp only [doGetPosition, getRawPosition, C45_position debug o hr, Outcome.bind_ok]
  set p := circlePoint o (meanMotion o.radius * t + o.phase) with hp
  have hlen : length p = o.radius := length_circlePoint o _ hr.le
  have hsq : p.1 ^ 2 + p.2.1 ^ 2 + p.2.2 ^ 2 = o.radius ^ 2 := by
    have h1 : length p ^ 2 = p.1 ^ 2 + p.2.1 ^ 2 + p.2.2 ^ 2 := by unfold length; exact sq_sqrt (by positivity)
    rw [← h1, hlen]
  clear_value p
  rw [hlen]
  unfold cdiv
  rw [if_neg hr.ne']
  simp only [Outcome.bind_ok]
  congr 1
  have hpi := pi_ne_zero
  have conv : ∀ a, toRadians (toDegrees a) = a := by
    intro a; unfold toRadians toDegrees; field_simp
  unfold geographicToCartesian
  simp only [conv]
  have hz : |p.2.2 / o.radius| ≤ 1 := by
    rw [abs_div, abs_of_pos hr, div_le_one hr]
    apply abs_le_of_sq_le_sq _ hr.le
    nlinarith [sq_nonneg p.1, sq_nonneg p.2.1]
  have hsin : sin (arcsin (p.2.2 / o.radius)) = p.2.2 / o.radius :=
    sin_arcsin (abs_le.mp hz).1 (abs_le.mp hz).2
  have hcos : cos (arcsin (p.2.2 / o.radius)) = √(p.1 ^ 2 + p.2.1 ^ 2) / o.radius := by
    rw [cos_arcsin]
    have : 1 - (p.2.2 / o.radius) ^ 2 = (p.1 ^ 2 + p.2.1 ^ 2) / o.radius ^ 2 := by
      field_simp
      linarith
    rw [this, sqrt_div (by positivity), sqrt_sq hr.le]
  have hnorm : ‖(⟨p.1, p.2.1⟩ : ℂ)‖ = √(p.1 ^ 2 + p.2.1 ^ 2) := by
    rw [Complex.norm_eq_sqrt_sq_add_sq]
  have hca : √(p.1 ^ 2 + p.2.1 ^ 2) * cos (atan2 p.2.1 p.1) = p.1 := by
    have := Complex.norm_mul_cos_arg (⟨p.1, p.2.1⟩ : ℂ)
    rwa [hnorm] at this
  have hsa : √(p.1 ^ 2 + p.2.1 ^ 2) * sin (atan2 p.2.1 p.1) = p.2.1 := by
    have := Complex.norm_mul_sin_arg (⟨p.1, p.2.1⟩ : ℂ)
    rwa [hnorm] at this
  have halt : ns3Radius + (o.radius - earthRadius) = o.radius - 9 := by unfold ns3Radius earthRadius; ring
  rw [halt, hsin, hcos, cos_sub, sin_sub]
  have hrot : (0 : ℝ) + t * earthRotation = 7.292115922e-5 * t := by unfold earthRotation; ring
  rw [hrot]
  simp only [smul, rotZ, Prod.mk.injEq, cos_neg, sin_neg]
  set s := √(p.1 ^ 2 + p.2.1 ^ 2)
  set A := atan2 p.2.1 p.1
  set W := (7.292115922e-5 * t : ℝ)
  refine ⟨?_, ?_, ?_⟩
  · calc (o.radius - 9) * (s / o.radius) * (cos A * cos W + sin A * sin W)
        = (o.radius - 9) / o.radius * ((s * cos A) * cos W + (s * sin A) * sin W) := by ring
      _ = _ := by rw [hca, hsa]; ring
  · calc (o.radius - 9) * (s / o.radius) * (sin A * cos W - cos A * sin W)
        = (o.radius - 9) / o.radius * ((s * sin A) * cos W - (s * cos A) * sin W) := by ring
      _ = _ := by rw [hca, hsa]; ring
  · ring

theorem length_smul (k : ℝ) (hk : 0 ≤ k) (v : Vec) : length (smul k v) = k * length v := by
  unfold length smul
  have : (k * v.1) ^ 2 + (k * v.2.1) ^ 2 + (k * v.2.2) ^ 2 = k ^ 2 * (v.1 ^ 2 + v.2.1 ^ 2 + v.2.2 ^ 2) := by ring
  simp only [this]
  rw [sqrt_mul (sq_nonneg k), sqrt_sq hk]

/-- The reported height above the sphere of ns-3 is the orbit's altitude. -/
theorem C46_height (debug : Bool) (i Ω altitude φ : ℝ) (ha : 9 ≤ altitude + 6371009) (t : ℝ) :
    ∃ p, doGetPosition debug (some (launchSat i Ω altitude φ)) t = .ok p ∧ length p = 6371000 + altitude := by
  have hr : 0 < (launchSat i Ω altitude φ).radius := by simp [launchSat, earthRadius]; linarith
  obtain ⟨p, h1, h2⟩ := C46_rotated debug _ hr t
  refine ⟨_, h2, ?_⟩
  rw [C45_position debug _ hr] at h1
  simp only [Outcome.ok.injEq] at h1
  have hrad : (launchSat i Ω altitude φ).radius = altitude + 6371009 := rfl
  rw [length_smul _ (div_nonneg (by rw [hrad]; linarith) hr.le), length_rotZ, ← h1, length_circlePoint _ _ hr.le]
  rw [div_mul_cancel₀ _ hr.ne', hrad]
  ring

/-- Distances between satellites of equal altitude are preserved up to the common factor `(r - 9) / r`. -/
theorem C46_distances (debug : Bool) (o o' : Elements) (hr : 9 ≤ o.radius) (heq : o'.radius = o.radius) (t : ℝ) :
    ∃ p q p' q', rawPosition debug o t = .ok p ∧ rawPosition debug o' t = .ok q ∧ doGetPosition debug (some o) t = .ok p' ∧
      doGetPosition debug (some o') t = .ok q' ∧ distance p' q' = (o.radius - 9) / o.radius * distance p q := by
  have hpos : 0 < o.radius := by linarith
  obtain ⟨p, h1, h2⟩ := C46_rotated debug o hpos t
  obtain ⟨q, h3, h4⟩ := C46_rotated debug o' (by rw [heq]; exact hpos) t
  refine ⟨p, q, _, _, h1, h3, h2, h4, ?_⟩
  rw [heq]
  have hk : 0 ≤ (o.radius - 9) / o.radius := div_nonneg (by linarith) hpos.le
  have : ∀ (k : ℝ) (u v : Vec), sub (smul k u) (smul k v) = smul k (sub u v) := by
    intro k u v
    simp only [sub, smul, Prod.mk.injEq]
    exact ⟨by ring, by ring, by ring⟩
  unfold distance
  rw [this, length_smul _ hk, sub_rotZ, length_rotZ]

/-- An orbit of radius zero or less has no position. -/
theorem C45_no_orbit (debug : Bool) (o : Elements) (hr : o.radius ≤ 0) (t : ℝ) : rawPosition debug o t = .ub .notANumber := by
  have : getN o.radius = .ub .notANumber := by
    unfold getN cdiv csqrt
    split
    · rfl
    · rename_i h0
      simp only [Outcome.bind_ok]
      have hneg : o.radius ^ 3 < 0 := by
        have h1 : o.radius < 0 := lt_of_le_of_ne hr (fun h => h0 (by rw [h]; norm_num))
        exact Odd.pow_neg ⟨1, by norm_num⟩ h1
      have : G * earthMass / o.radius ^ 3 < 0 := div_neg_of_pos_of_neg (by unfold G earthMass; norm_num) hneg
      rw [if_pos this]
  simp [rawPosition, this]

/-- Before the launch a position cannot be asked for. -/
theorem C46_before_launch (debug : Bool) (t : ℝ) : doGetPosition debug none t = .abort := rfl

/-! ### Non-vacuity -/

example : (0 : ℝ) < 550000 + 6371009 := by norm_num
example : (0 : ℝ) < (launchSat 1 0 550000 0).radius := by simp [launchSat, earthRadius]; norm_num
example : (9 : ℝ) ≤ (launchSat 1 2 550000 0).radius ∧ (launchSat 1 0 550000 1).radius = (launchSat 1 2 550000 0).radius := by
  simp [launchSat, earthRadius]; norm_num

end Orbit
end Icarus
