import Verif.Model.SuccessModel
import Verif.Props.Orbit

/-!
# Properties of elevations, ground distances and the success models (exact real arithmetic)
-/

set_option autoImplicit false

namespace Icarus
namespace Orbit

open Real

/-- Inner product. -/
def dot (a b : Vec) : ℝ := a.1 * b.1 + a.2.1 * b.2.1 + a.2.2 * b.2.2

theorem length_sq (v : Vec) : length v ^ 2 = v.1 ^ 2 + v.2.1 ^ 2 + v.2.2 ^ 2 := sq_sqrt (by positivity)

theorem length_nonneg (v : Vec) : 0 ≤ length v := sqrt_nonneg _

theorem length_eq_zero {v : Vec} : length v = 0 ↔ v = (0, 0, 0) := by
  constructor
  · intro h
    have := length_sq v
    rw [h] at this
    have h1 : v.1 = 0 := by nlinarith [sq_nonneg v.1, sq_nonneg v.2.1, sq_nonneg v.2.2]
    have h2 : v.2.1 = 0 := by nlinarith [sq_nonneg v.1, sq_nonneg v.2.1, sq_nonneg v.2.2]
    have h3 : v.2.2 = 0 := by nlinarith [sq_nonneg v.1, sq_nonneg v.2.1, sq_nonneg v.2.2]
    rw [show v = (v.1, v.2.1, v.2.2) from rfl, h1, h2, h3]
  · rintro rfl; simp [length]

theorem length_pos {v : Vec} (h : v ≠ (0, 0, 0)) : 0 < length v :=
  lt_of_le_of_ne (length_nonneg v) (fun h0 => h (length_eq_zero.mp h0.symm))

theorem sub_eq_zero' {a b : Vec} : sub a b = (0, 0, 0) ↔ a = b := by
  obtain ⟨a1, a2, a3⟩ := a
  obtain ⟨b1, b2, b3⟩ := b
  simp [sub, sub_eq_zero]

/-- Lagrange's identity: the defect in the Cauchy-Schwarz inequality is the squared length of the vector product. -/
theorem lagrange (a b : Vec) : (length a * length b) ^ 2 - dot a b ^ 2 =
    (a.2.1 * b.2.2 - a.2.2 * b.2.1) ^ 2 + (a.2.2 * b.1 - a.1 * b.2.2) ^ 2 + (a.1 * b.2.1 - a.2.1 * b.1) ^ 2 := by
  rw [mul_pow, length_sq, length_sq]
  unfold dot
  ring

theorem abs_dot_le (a b : Vec) : |dot a b| ≤ length a * length b := by
  apply abs_le_of_sq_le_sq _ (mul_nonneg (length_nonneg a) (length_nonneg b))
  have := lagrange a b
  nlinarith [sq_nonneg (a.2.1 * b.2.2 - a.2.2 * b.2.1), sq_nonneg (a.2.2 * b.1 - a.1 * b.2.2), sq_nonneg (a.1 * b.2.1 - a.2.1 * b.1)]

/-! ## C48 -/

/-- For a ground point other than the centre and a satellite elsewhere, the elevation is an angle in [-90°, 90°] whose sine is the cosine of
the angle between the outward vertical and the direction to the satellite. -/
theorem C48_sin (s g : Vec) (hg : g ≠ (0, 0, 0)) (hs : s ≠ g) :
    ∃ e, satElevation s g = .ok e ∧ -(π / 2) ≤ e ∧ e ≤ π / 2 ∧ sin e * (length g * length (sub s g)) = dot g (sub s g) := by
  have h1 := length_pos hg
  have h2 : 0 < length (sub s g) := length_pos (fun h => hs (sub_eq_zero'.mp h))
  have h3 : length g * length (sub s g) ≠ 0 := by positivity
  refine ⟨arcsin (dot g (sub s g) / (length g * length (sub s g))), ?_, neg_pi_div_two_le_arcsin _, arcsin_le_pi_div_two _, ?_⟩
  · unfold satElevation cdiv
    simp only []
    rw [if_neg h3]
    rfl
  · have hb : |dot g (sub s g) / (length g * length (sub s g))| ≤ 1 := by
      rw [abs_div, abs_of_pos (by positivity : 0 < length g * length (sub s g)), div_le_one (by positivity)]
      exact abs_dot_le _ _
    rw [sin_arcsin (abs_le.mp hb).1 (abs_le.mp hb).2]
    exact div_mul_cancel₀ _ h3

/-- The elevation is 90° exactly on the outward radial through the ground point. -/
theorem C48_zenith (s g : Vec) (hg : g ≠ (0, 0, 0)) (hs : s ≠ g) :
    satElevation s g = .ok (π / 2) ↔ ∃ k > 1, s = smul k g := by
  obtain ⟨e, he, h1, h2, h3⟩ := C48_sin s g hg hs
  have p1 := length_pos hg
  have p2 : 0 < length (sub s g) := length_pos (fun h => hs (sub_eq_zero'.mp h))
  rw [he]
  simp only [Outcome.ok.injEq]
  constructor
  · intro heq
    rw [heq, sin_pi_div_two, one_mul] at h3
    have hl := lagrange g (sub s g)
    rw [h3] at hl
    rw [sub_self] at hl
    set d := sub s g with hd
    have c1 : g.2.1 * d.2.2 - g.2.2 * d.2.1 = 0 := by
      nlinarith [sq_nonneg (g.2.1 * d.2.2 - g.2.2 * d.2.1), sq_nonneg (g.2.2 * d.1 - g.1 * d.2.2), sq_nonneg (g.1 * d.2.1 - g.2.1 * d.1)]
    have c2 : g.2.2 * d.1 - g.1 * d.2.2 = 0 := by
      nlinarith [sq_nonneg (g.2.1 * d.2.2 - g.2.2 * d.2.1), sq_nonneg (g.2.2 * d.1 - g.1 * d.2.2), sq_nonneg (g.1 * d.2.1 - g.2.1 * d.1)]
    have c3 : g.1 * d.2.1 - g.2.1 * d.1 = 0 := by
      nlinarith [sq_nonneg (g.2.1 * d.2.2 - g.2.2 * d.2.1), sq_nonneg (g.2.2 * d.1 - g.1 * d.2.2), sq_nonneg (g.1 * d.2.1 - g.2.1 * d.1)]
    have hdpos : 0 < dot g d := by rw [← h3]; positivity
    have hgsq := length_sq g
    have hG : 0 < length g ^ 2 := by positivity
    refine ⟨1 + dot g d / length g ^ 2, by have := div_pos hdpos hG; linarith, ?_⟩
    have hs1 : s = (g.1 + d.1, g.2.1 + d.2.1, g.2.2 + d.2.2) := by rw [hd]; simp [sub]
    rw [hs1]
    simp only [smul, Prod.mk.injEq]
    have key : ∀ x y : ℝ, x * length g ^ 2 = dot g d * y → y + x = (1 + dot g d / length g ^ 2) * y := by
      intro x y hxy
      field_simp
      linarith
    refine ⟨key _ _ ?_, key _ _ ?_, key _ _ ?_⟩
    · rw [hgsq]; unfold dot; linear_combination g.2.2 * c2 - g.2.1 * c3
    · rw [hgsq]; unfold dot; linear_combination g.1 * c3 - g.2.2 * c1
    · rw [hgsq]; unfold dot; linear_combination g.2.1 * c1 - g.1 * c2
  · rintro ⟨k, hk, rfl⟩
    have hd : sub (smul k g) g = smul (k - 1) g := by
      simp only [sub, smul, Prod.mk.injEq]
      exact ⟨by ring, by ring, by ring⟩
    rw [hd, length_smul _ (by linarith)] at h3
    have hdot : dot g (smul (k - 1) g) = (k - 1) * length g ^ 2 := by
      rw [length_sq]; unfold dot smul; ring
    rw [hdot] at h3
    have hpos : 0 < (k - 1) * length g ^ 2 := by have : 0 < k - 1 := by linarith
                                                 positivity
    have hsin : sin e = 1 := by
      have : sin e * ((k - 1) * length g ^ 2) = 1 * ((k - 1) * length g ^ 2) := by linarith
      exact mul_right_cancel₀ hpos.ne' this
    have := arcsin_sin h1 h2
    rw [hsin, arcsin_one] at this
    exact this.symm

/-- The elevation is non-negative exactly on or above the horizontal plane of the ground point. -/
theorem C48_horizon (s g : Vec) (hg : g ≠ (0, 0, 0)) (hs : s ≠ g) :
    ∃ e, satElevation s g = .ok e ∧ (0 ≤ e ↔ 0 ≤ dot g (sub s g)) := by
  obtain ⟨e, he, h1, h2, h3⟩ := C48_sin s g hg hs
  have p1 := length_pos hg
  have p2 : 0 < length (sub s g) := length_pos (fun h => hs (sub_eq_zero'.mp h))
  have hpos : 0 < length g * length (sub s g) := by positivity
  refine ⟨e, he, ?_⟩
  rw [← h3, mul_nonneg_iff_of_pos_right hpos]
  have hpi := pi_pos
  constructor
  · intro h0
    exact sin_nonneg_of_nonneg_of_le_pi h0 (by linarith)
  · intro h0
    by_contra hcon
    have := sin_neg_of_neg_of_neg_pi_lt (not_le.mp hcon) (by linarith)
    linarith

/-- Turning both points about the Earth's axis changes nothing. -/
theorem C48_rotation (a : ℝ) (s g : Vec) : satElevation (rotZ a s) (rotZ a g) = satElevation s g := by
  unfold satElevation
  have h1 : ∀ u v : Vec, (rotZ a u).1 * (rotZ a v).1 + (rotZ a u).2.1 * (rotZ a v).2.1 + (rotZ a u).2.2 * (rotZ a v).2.2 =
      u.1 * v.1 + u.2.1 * v.2.1 + u.2.2 * v.2.2 := by
    intro u v
    simp only [rotZ]
    linear_combination (u.1 * v.1 + u.2.1 * v.2.1) * sin_sq_add_cos_sq a
  simp only [sub_rotZ, length_rotZ, h1]

/-- There is no elevation for a satellite at the place of the ground node or a ground node at the centre. -/
theorem C48_undefined (s g : Vec) : satElevation s g = .ub .notANumber ↔ g = (0, 0, 0) ∨ s = g := by
  constructor
  · intro h
    by_contra hcon
    push Not at hcon
    obtain ⟨e, he, -⟩ := C48_sin s g hcon.1 hcon.2
    rw [he] at h
    simp at h
  · intro h
    have : length g * length (sub s g) = 0 := by
      rcases h with rfl | rfl
      · simp [length]
      · simp [sub, length]
    unfold satElevation cdiv
    simp only []
    rw [if_pos this]
    rfl

/-! ## C47 -/

/-- The distance computed: the larger root of the quadratic equation of the triangle Earth centre, ground node, satellite. -/
theorem groundDistance_eq (o : Elements) (e g : ℝ) (hg : 0 ≤ g) (hh : 0 ≤ o.radius - 6371009) :
    ∃ A, A = (g * sin e) ^ 2 + 2 * g * (o.radius - 6371009) + (o.radius - 6371009) ^ 2 ∧ |g * sin e| ≤ √A ∧
      groundDistanceAtElevation o e g = .ok (√A - g * sin e) := by
  refine ⟨_, rfl, ?_, ?_⟩
  · set h := o.radius - 6371009
    rw [← sqrt_sq_eq_abs]
    apply sqrt_le_sqrt
    nlinarith [mul_nonneg hg hh, sq_nonneg h]
  · have hsa : satAltitude o = o.radius - 6371009 := rfl
    unfold groundDistanceAtElevation
    simp only [hsa]
    set h := o.radius - 6371009 with hdef
    have hA : 0 ≤ (g * sin e) ^ 2 + 2 * g * h + h ^ 2 := by
      nlinarith [mul_nonneg hg hh, sq_nonneg h, sq_nonneg (g * sin e)]
    have e1 : csqrt ((g * sin e) ^ 2 + 2 * g * h + h ^ 2) = .ok √((g * sin e) ^ 2 + 2 * g * h + h ^ 2) := by
      unfold csqrt; rw [if_neg (not_lt.mpr hA)]
    rw [e1]
    simp only [Outcome.bind_ok]
    have hsq := sq_sqrt hA
    set R := √((g * sin e) ^ 2 + 2 * g * h + h ^ 2) with hR
    have e2 : 2 * (g * sin e) ^ 2 - 2 * g * sin e * R + 2 * g * h + h ^ 2 = (R - g * sin e) ^ 2 := by
      linear_combination -hsq
    rw [e2]
    unfold csqrt
    rw [if_neg (not_lt.mpr (sq_nonneg _)), sqrt_sq]
    have : |g * sin e| ≤ R := by
      rw [hR, ← sqrt_sq_eq_abs]
      apply sqrt_le_sqrt
      nlinarith [mul_nonneg hg hh, sq_nonneg h]
    have := le_abs_self (g * sin e)
    linarith

/-- Geometry of the triangle: for a ground point at radius `length g` and a satellite `o.radius - 6371009` higher. -/
theorem threshold (o : Elements) (g s : Vec) (e : ℝ) (hg : g ≠ (0, 0, 0)) (hh : 6371009 < o.radius)
    (hs : length s = length g + (o.radius - 6371009)) (he : -(π / 2) ≤ e) (he' : e ≤ π / 2) :
    ∃ D el, groundDistanceAtElevation o e (length g) = .ok D ∧ satElevation s g = .ok el ∧
      (distance g s ≤ D ↔ e ≤ el) ∧ (distance g s = D ↔ el = e) := by
  have pg := length_pos hg
  have hsg : s ≠ g := by rintro rfl; linarith
  obtain ⟨A, hA, hR, hD⟩ := groundDistance_eq o e (length g) pg.le (by linarith)
  obtain ⟨el, hel, b1, b2, hsin⟩ := C48_sin s g hg hsg
  refine ⟨_, el, hD, hel, ?_⟩
  set h := o.radius - 6371009 with hh'
  have hh0 : 0 < h := by linarith
  set G := length g with hG
  set d := length (sub s g) with hd
  have pd : 0 < d := length_pos (fun h => hsg (sub_eq_zero'.mp h))
  have hdist : distance g s = d := rfl
  rw [hdist]
  -- law of cosines
  have hcos : (G + h) ^ 2 = G ^ 2 + d ^ 2 + 2 * (sin el * (G * d)) := by
    rw [hsin, ← hs, hG, hd, length_sq, length_sq, length_sq]
    unfold dot sub
    ring
  have hA0 : 0 ≤ A := by
    rw [hA]
    have := sq_nonneg (G * sin e)
    positivity
  have hRsq := sq_sqrt hA0
  set R := √A with hRdef
  have hRn : 0 ≤ R := sqrt_nonneg _
  have hge := neg_le_of_abs_le hR
  have hle := le_of_abs_le hR
  -- in terms of sines
  have hs1 : d ≤ R - G * sin e ↔ sin e ≤ sin el := by
    have key : R ^ 2 - (d + G * sin e) ^ 2 = 2 * G * d * (sin el - sin e) := by
      rw [hRsq, hA]
      linear_combination hcos
    constructor
    · intro hle2
      have h1 : (d + G * sin e) ^ 2 ≤ R ^ 2 := by
        apply sq_le_sq'
        · linarith
        · linarith
      have h2 : 0 ≤ 2 * G * d * (sin el - sin e) := by linarith
      have h3 : 0 < 2 * G * d := by positivity
      have := nonneg_of_mul_nonneg_right h2 h3
      linarith
    · intro hle2
      have h2 : 0 ≤ 2 * G * d * (sin el - sin e) := by
        have : 0 ≤ sin el - sin e := by linarith
        positivity
      have h1 : (d + G * sin e) ^ 2 ≤ R ^ 2 := by linarith
      have := abs_le_of_sq_le_sq h1 hRn
      have := le_of_abs_le this
      linarith
  have hs2 : d = R - G * sin e ↔ sin el = sin e := by
    have key : R ^ 2 - (d + G * sin e) ^ 2 = 2 * G * d * (sin el - sin e) := by
      rw [hRsq, hA]
      linear_combination hcos
    constructor
    · intro heq
      have h1 : d + G * sin e = R := by linarith
      rw [h1, sub_self] at key
      have h3 : 2 * G * d ≠ 0 := by positivity
      have := (mul_eq_zero.mp key.symm).resolve_left h3
      linarith
    · intro heq
      rw [heq, sub_self, mul_zero] at key
      have h1 : (R - (d + G * sin e)) * (R + (d + G * sin e)) = 0 := by linear_combination key
      rcases mul_eq_zero.mp h1 with h2 | h2
      · linarith
      · exfalso
        linarith
  have mono : ∀ a b : ℝ, -(π / 2) ≤ a → a ≤ π / 2 → -(π / 2) ≤ b → b ≤ π / 2 → (sin a ≤ sin b ↔ a ≤ b) :=
    fun a b h1 h2 h3 h4 => strictMonoOn_sin.le_iff_le ⟨h1, h2⟩ ⟨h3, h4⟩
  constructor
  · rw [hs1, mono e el he he' b1 b2]
  · rw [hs2]
    exact strictMonoOn_sin.injOn.eq_iff ⟨b1, b2⟩ ⟨he, he'⟩

/-- For a ground point at Earth radius (6371009 m) and the inertial position of the satellite (the positions used by the search for
crossings): the satellite is seen at elevation `e` or more exactly when it is not further than the computed distance. -/
theorem C47_raw (debug : Bool) (o : Elements) (ho : 6371009 < o.radius) (t : ℝ) (g : Vec) (hg : length g = 6371009) (e : ℝ)
    (he : -(π / 2) ≤ e) (he' : e ≤ π / 2) :
    ∃ s D el, rawPosition debug o t = .ok s ∧ groundDistanceAtElevation o e (length g) = .ok D ∧ satElevation s g = .ok el ∧
      (distance g s ≤ D ↔ e ≤ el) ∧ (distance g s = D ↔ el = e) := by
  have hr : 0 < o.radius := by linarith
  have hlen := length_circlePoint o (meanMotion o.radius * t + o.phase) hr.le
  have hg0 : g ≠ (0, 0, 0) := by rintro rfl; rw [length_eq_zero.mpr rfl] at hg; norm_num at hg
  obtain ⟨D, el, h1, h2, h3, h4⟩ := threshold o g (circlePoint o (meanMotion o.radius * t + o.phase)) e hg0 ho (by rw [hlen, hg]; ring) he he'
  exact ⟨_, D, el, C45_position debug o hr t, h1, h2, h3, h4⟩

/-- The same for the positions reported to the rest of the simulation and a ground point on the sphere of ns-3 (6371000 m). -/
theorem C47_reported (debug : Bool) (o : Elements) (ho : 6371009 < o.radius) (t : ℝ) (g : Vec) (hg : length g = 6371000) (e : ℝ)
    (he : -(π / 2) ≤ e) (he' : e ≤ π / 2) :
    ∃ s D el, doGetPosition debug (some o) t = .ok s ∧ groundDistanceAtElevation o e (length g) = .ok D ∧ satElevation s g = .ok el ∧
      (distance g s ≤ D ↔ e ≤ el) ∧ (distance g s = D ↔ el = e) := by
  have hr : 0 < o.radius := by linarith
  have hg0 : g ≠ (0, 0, 0) := by rintro rfl; rw [length_eq_zero.mpr rfl] at hg; norm_num at hg
  obtain ⟨p, hp, hs⟩ := C46_rotated debug o hr t
  have hlen : length p = o.radius := by
    rw [C45_position debug o hr] at hp
    simp only [Outcome.ok.injEq] at hp
    rw [← hp, length_circlePoint o _ hr.le]
  have hl : length (smul ((o.radius - 9) / o.radius) (rotZ (-(7.292115922e-5 * t)) p)) = length g + (o.radius - 6371009) := by
    rw [length_smul _ (div_nonneg (by linarith) hr.le), length_rotZ, hlen, div_mul_cancel₀ _ hr.ne', hg]
    ring
  obtain ⟨D, el, h1, h2, h3, h4⟩ := threshold o g _ e hg0 ho hl he he'
  exact ⟨_, D, el, hs, h1, h2, h3, h4⟩

/-- For a ground point at any other radius the computed distance is wrong: for a satellite in the zenith it is short or long by the
difference of the radii. -/
theorem C47_other_radius (o : Elements) (g : Vec) (hg : g ≠ (0, 0, 0)) (hne : length g ≠ 6371009) (ho : 6371009 < o.radius)
    (hgo : length g < o.radius) :
    ∃ s D, length s = o.radius ∧ satElevation s g = .ok (π / 2) ∧ groundDistanceAtElevation o (π / 2) (length g) = .ok D ∧
      D = o.radius - 6371009 ∧ distance g s = o.radius - length g ∧ D ≠ distance g s := by
  have pg := length_pos hg
  have hk : 1 < o.radius / length g := (one_lt_div pg).mpr hgo
  have hlen : length (smul (o.radius / length g) g) = o.radius := by
    rw [length_smul _ (by linarith), div_mul_cancel₀ _ pg.ne']
  have hsg : smul (o.radius / length g) g ≠ g := by
    intro h; rw [h] at hlen; linarith
  have hd : distance g (smul (o.radius / length g) g) = o.radius - length g := by
    have hd : sub (smul (o.radius / length g) g) g = smul (o.radius / length g - 1) g := by
      simp only [sub, smul, Prod.mk.injEq]
      exact ⟨by ring, by ring, by ring⟩
    unfold distance
    rw [hd, length_smul _ (by linarith), sub_mul, div_mul_cancel₀ _ pg.ne', one_mul]
  obtain ⟨A, hA, -, hD⟩ := groundDistance_eq o (π / 2) (length g) pg.le (by linarith)
  have hval : √A - length g * sin (π / 2) = o.radius - 6371009 := by
    have : A = (length g + (o.radius - 6371009)) ^ 2 := by rw [hA, sin_pi_div_two]; ring
    rw [this, sqrt_sq (by linarith), sin_pi_div_two]
    ring
  refine ⟨_, _, hlen, (C48_zenith _ g hg hsg).mpr ⟨_, hk, rfl⟩, hD, hval, hd, ?_⟩
  rw [hval, hd]
  intro h
  apply hne
  linarith

end Orbit

/-! ## C49 -/

namespace SuccessModel

open Orbit Real

/-- Both nodes have positions: success iff the distance is at most the maximum. -/
theorem C49_threshold (m : ℝ) (a b : Mobility) :
    ∃ r, distanceSuccess m (some a) (some b) = .ok r ∧
      (r = true ↔ √((b.position.1 - a.position.1) ^ 2 + (b.position.2.1 - a.position.2.1) ^ 2 + (b.position.2.2 - a.position.2.2) ^ 2) ≤ m) := by
  refine ⟨_, rfl, ?_⟩
  simp only [decide_eq_true_eq]
  rfl

/-- The direction does not matter. -/
theorem C49_symmetric (m : ℝ) (a b : Node) : distanceSuccess m a b = distanceSuccess m b a := by
  cases a with
  | none => cases b <;> rfl
  | some a =>
    cases b with
    | none => rfl
    | some b =>
      have : distance a.position b.position = distance b.position a.position := by
        unfold distance length sub
        congr 1
        ring
      simp [distanceSuccess, getMobility, this]

/-- Raising the maximum never turns success into failure. -/
theorem C49_monotone (m m' : ℝ) (h : m ≤ m') (a b : Node) (hs : distanceSuccess m a b = .ok true) : distanceSuccess m' a b = .ok true := by
  cases a with
  | none => simp [distanceSuccess, getMobility] at hs
  | some a =>
    cases b with
    | none => simp [distanceSuccess, getMobility] at hs
    | some b =>
      simp only [distanceSuccess, getMobility, Option.map_some, Outcome.ok.injEq, decide_eq_true_eq] at hs ⊢
      linarith

/-- A node without position aborts the simulation. -/
theorem C49_abort (m : ℝ) (a b : Node) (h : a = none ∨ b = none) : distanceSuccess m a b = .abort := by
  rcases h with rfl | rfl
  · rfl
  · cases a <;> rfl

/-! ## C50 -/

/-- With one satellite and one ground node with a position, in either order: success iff the satellite is seen at the minimum elevation or
higher (failure when the elevation is undefined). -/
theorem C50_threshold (minDegrees : ℝ) (s g : Vec) :
    elevationSuccess (setMinimumElevation minDegrees) (some (.orbit s)) (some (.other g)) =
        elevationSuccess (setMinimumElevation minDegrees) (some (.other g)) (some (.orbit s)) ∧
      ∃ r, elevationSuccess (setMinimumElevation minDegrees) (some (.orbit s)) (some (.other g)) = .ok r ∧
        (r = true ↔ ∃ e, satElevation s g = .ok e ∧ minDegrees ≤ e * 180 / π) := by
  refine ⟨rfl, ?_⟩
  have hpi := pi_pos
  by_cases hdef : g = (0, 0, 0) ∨ s = g
  · have hn := (C48_undefined s g).mpr hdef
    refine ⟨false, by simp [elevationSuccess, getOrbit, getMobility, Mobility.position, hn], ?_⟩
    simp [hn]
  · push Not at hdef
    obtain ⟨e, he, -⟩ := C48_sin s g hdef.1 hdef.2
    refine ⟨decide (setMinimumElevation minDegrees ≤ e), by simp [elevationSuccess, getOrbit, getMobility, Mobility.position, he], ?_⟩
    rw [decide_eq_true_eq]
    have : setMinimumElevation minDegrees ≤ e ↔ minDegrees ≤ e * 180 / π := by
      unfold setMinimumElevation toRadians
      rw [le_div_iff₀ hpi]
      constructor <;> intro h <;> linarith
    rw [this]
    constructor
    · intro h; exact ⟨e, he, h⟩
    · rintro ⟨e', he', h⟩
      rw [he] at he'
      simp only [Outcome.ok.injEq] at he'
      rw [he']; exact h

/-- The simulation aborts when neither node is a satellite, or when the other one has no position. -/
theorem C50_abort (m : ℝ) (a b : Node) :
    elevationSuccess m a b = .abort ↔ (getOrbit a = none ∧ getOrbit b = none) ∨ a = none ∨ b = none := by
  have hne : ∀ s g : Vec, elevationSuccess m (some (.orbit s)) (some (.other g)) ≠ .abort ∧
      elevationSuccess m (some (.orbit s)) (some (.orbit g)) ≠ .abort := by
    intro s g
    by_cases hdef : g = (0, 0, 0) ∨ s = g
    · have hn := (C48_undefined s g).mpr hdef
      simp [elevationSuccess, getOrbit, getMobility, Mobility.position, hn]
    · push Not at hdef
      obtain ⟨e, he, -⟩ := C48_sin s g hdef.1 hdef.2
      simp [elevationSuccess, getOrbit, getMobility, Mobility.position, he]
  match a, b with
  | none, none => simp [elevationSuccess, getOrbit, getMobility]
  | none, some (.orbit s) => simp [elevationSuccess, getOrbit, getMobility]
  | none, some (.other s) => simp [elevationSuccess, getOrbit, getMobility]
  | some (.orbit s), none => simp [elevationSuccess, getOrbit, getMobility]
  | some (.other s), none => simp [elevationSuccess, getOrbit, getMobility]
  | some (.other s), some (.other g) => simp [elevationSuccess, getOrbit, getMobility]
  | some (.orbit s), some (.other g) => simpa [getOrbit] using (hne s g).1
  | some (.other g), some (.orbit s) => simpa [getOrbit, (C50_threshold 0 s g).1, elevationSuccess] using (hne s g).1
  | some (.orbit s), some (.orbit g) => simpa [getOrbit] using (hne s g).2

/-- The full claim: the order of the two nodes never matters. -/
def C50_claim : Prop := ∀ (m : ℝ) (a b : Node), elevationSuccess m a b = elevationSuccess m b a

/-- It holds unless both nodes are satellites (missing in this partial result: two satellites). -/
theorem C50_symmetric_partial (m : ℝ) (a b : Node) (h : getOrbit a = none ∨ getOrbit b = none) :
    elevationSuccess m a b = elevationSuccess m b a := by
  match a, b with
  | none, none => rfl
  | none, some (.orbit s) => simp [elevationSuccess, getOrbit, getMobility]
  | none, some (.other s) => rfl
  | some (.orbit s), none => simp [elevationSuccess, getOrbit, getMobility]
  | some (.other s), none => rfl
  | some (.other s), some (.other g) => rfl
  | some (.orbit s), some (.other g) => rfl
  | some (.other g), some (.orbit s) => rfl
  | some (.orbit s), some (.orbit g) => simp [getOrbit] at h

/-- With two satellites the order matters: the outer one is in the zenith of the inner one, but the inner one is below the horizon of the
outer one. -/
theorem C50_claim_false : ¬ C50_claim := by
  intro h
  have h1 := h 0 (some (.orbit (2, 0, 0))) (some (.orbit (1, 0, 0)))
  obtain ⟨e1, he1, i1⟩ := C48_horizon (2, 0, 0) (1, 0, 0) (by simp) (by simp)
  obtain ⟨e2, he2, i2⟩ := C48_horizon (1, 0, 0) (2, 0, 0) (by simp) (by simp)
  simp only [elevationSuccess, getOrbit, getMobility, Mobility.position, Option.map_some, he1, he2, Outcome.ok.injEq, decide_eq_decide] at h1
  rw [i1, i2] at h1
  norm_num [dot, sub] at h1

/-! ### Non-vacuity -/

example : ((0 : ℝ), (0 : ℝ), (6371009 : ℝ)) ≠ (0, 0, 0) := by norm_num
example : length (0, 0, 6371000) = 6371000 := by simp [length]
example : (6371009 : ℝ) < (launchSat 1 0 550000 0).radius := by simp [launchSat, earthRadius]

end SuccessModel
end Icarus
