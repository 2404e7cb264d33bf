import Verif.Model.LaunchedOrbit
import Verif.Props.Orbit
import Verif.Props.Elevation
import Verif.Props.ConstellationHelper
import Verif.Props.Sat2SatChannel
import Mathlib.Analysis.Real.Pi.Bounds

/-!
# Geometry of the inter-satellite links (C67)

Exact real arithmetic.
-/

set_option autoImplicit false

namespace Icarus
namespace Orbit

open Real

/-! ## Distance of two satellites -/

/-- The part of the cosine of the angle between two satellites that does not change: inclination `i`, nodes `δ` apart, phases `d` apart. -/
noncomputable def meanCos (i δ d : ℝ) : ℝ := (cos δ * (1 + cos i ^ 2) + sin i ^ 2) / 2 * cos d - cos i * sin δ * sin d

theorem dot_circles (i Ω Ω' r φ φ' E F : ℝ) :
    dot (circlePoint ⟨i, Ω, r, φ⟩ E) (circlePoint ⟨i, Ω', r, φ'⟩ F) =
      r ^ 2 * (meanCos i (Ω' - Ω) (F - E) - (sin i * sin ((Ω' - Ω) / 2)) ^ 2 * cos (E + F)) := by
  have h1 : sin ((Ω' - Ω) / 2) ^ 2 = (1 - cos (Ω' - Ω)) / 2 := by
    have h2 := cos_two_mul' ((Ω' - Ω) / 2)
    have h3 := sin_sq_add_cos_sq ((Ω' - Ω) / 2)
    rw [mul_div_cancel₀ _ (two_ne_zero)] at h2
    linarith
  have e3 := sin_sq_add_cos_sq i
  simp only [dot, circlePoint, rotZ, rotX, meanCos, mul_pow, h1, cos_sub, sin_sub, cos_add]
  linear_combination r ^ 2 * ((cos Ω' * cos Ω + sin Ω' * sin Ω) / 2 * (sin E * sin F - cos E * cos F)) * e3

theorem normSq_circle (o : Elements) (E : ℝ) : length (circlePoint o E) ^ 2 = o.radius ^ 2 := by
  unfold circlePoint
  rw [length_rotZ, length_rotX, length_rotZ, length_sq]
  ring

theorem distance_sq (a b : Vec) : distance a b ^ 2 = length a ^ 2 + length b ^ 2 - 2 * dot a b := by
  unfold distance
  simp only [length_sq, sub, dot]
  ring

/-- Squared distance of the reported positions, at any time. -/
theorem C67_distance (debug : Bool) (i Ω Ω' r φ φ' : ℝ) (hr : 9 ≤ r) (t : ℝ) :
    ∃ p q, doGetPosition debug (some ⟨i, Ω, r, φ⟩) t = .ok p ∧ doGetPosition debug (some ⟨i, Ω', r, φ'⟩) t = .ok q ∧
      distance p q ^ 2 = 2 * (r - 9) ^ 2 *
        (1 - meanCos i (Ω' - Ω) (φ' - φ) + (sin i * sin ((Ω' - Ω) / 2)) ^ 2 * cos (2 * meanMotion r * t + (φ + φ'))) := by
  have hpos : 0 < r := by linarith
  obtain ⟨p, q, p', q', h1, h2, h3, h4, h5⟩ := C46_distances debug ⟨i, Ω, r, φ⟩ ⟨i, Ω', r, φ'⟩ hr rfl t
  refine ⟨p', q', h3, h4, ?_⟩
  rw [C45_position debug _ hpos] at h1 h2
  simp only [Outcome.ok.injEq] at h1 h2
  rw [h5, mul_pow, distance_sq, ← h1, ← h2, normSq_circle, normSq_circle, dot_circles]
  have e1 : meanMotion r * t + φ' - (meanMotion r * t + φ) = φ' - φ := by ring
  have e2 : meanMotion r * t + φ + (meanMotion r * t + φ') = 2 * meanMotion r * t + (φ + φ') := by ring
  simp only [e1, e2]
  field_simp
  ring

/-! ## When the link is up -/

/-- The success model, set up for the orbit radius as the channel does, admits a transmission at time `t`. -/
def Up (debug : Bool) (o o' : Elements) (t : ℝ) : Prop :=
  ∃ p q, doGetPosition debug (some o) t = .ok p ∧ doGetPosition debug (some o') t = .ok q ∧
    Sat2SatSuccess.transmitSuccess (Sat2SatSuccess.calcMaxDistance o.radius) (some p) (some q) = .ok true

theorem success_iff (h : ℝ) (p q : Vec) :
    Sat2SatSuccess.transmitSuccess (Sat2SatSuccess.calcMaxDistance h) (some p) (some q) = .ok true ↔
      distance p q ^ 2 ≤ 4 * (h ^ 2 - (80000 + 6371009) ^ 2) := by
  have hd : Sat2SatSuccess.distance p q = distance p q := rfl
  have hr : (Sat2SatSuccess.minAltitude + Sat2SatSuccess.earthRadius : ℝ) = 80000 + 6371009 := by
    unfold Sat2SatSuccess.minAltitude Sat2SatSuccess.earthRadius; rfl
  have h0 : 0 ≤ distance p q := length_nonneg _
  unfold Sat2SatSuccess.calcMaxDistance
  simp only [hr]
  split
  · rename_i hlt
    simp only [Sat2SatSuccess.transmitSuccess, Outcome.ok.injEq, Bool.false_eq_true, false_iff, not_le]
    have := sq_nonneg (distance p q)
    nlinarith
  · rename_i hlt
    simp only [Sat2SatSuccess.transmitSuccess, Outcome.ok.injEq, decide_eq_true_eq, hd]
    have hnn : 0 ≤ h * h - (80000 + 6371009) * (80000 + 6371009) := not_lt.mp hlt
    have hs := sq_sqrt hnn
    have hs0 := sqrt_nonneg (h * h - (80000 + 6371009) * (80000 + 6371009))
    constructor
    · intro H
      have := pow_le_pow_left₀ h0 H 2
      rw [mul_pow, hs] at this
      linarith
    · intro H
      apply (pow_le_pow_iff_left₀ h0 (by positivity) two_ne_zero).mp
      rw [mul_pow, hs]
      linarith

/-- `Up` in closed form. -/
theorem C67_up (debug : Bool) (i Ω Ω' r φ φ' : ℝ) (hr : 9 ≤ r) (t : ℝ) :
    Up debug ⟨i, Ω, r, φ⟩ ⟨i, Ω', r, φ'⟩ t ↔
      (r - 9) ^ 2 * (1 - meanCos i (Ω' - Ω) (φ' - φ) + (sin i * sin ((Ω' - Ω) / 2)) ^ 2 * cos (2 * meanMotion r * t + (φ + φ'))) ≤
        2 * (r ^ 2 - (80000 + 6371009) ^ 2) := by
  obtain ⟨p, q, h1, h2, h3⟩ := C67_distance debug i Ω Ω' r φ φ' hr t
  have : Up debug ⟨i, Ω, r, φ⟩ ⟨i, Ω', r, φ'⟩ t ↔
      Sat2SatSuccess.transmitSuccess (Sat2SatSuccess.calcMaxDistance r) (some p) (some q) = .ok true := by
    constructor
    · rintro ⟨p', q', e1, e2, e3⟩
      rw [h1] at e1; rw [h2] at e2
      simp only [Outcome.ok.injEq] at e1 e2
      subst e1 e2
      exact e3
    · intro H
      exact ⟨p, q, h1, h2, H⟩
  rw [this, success_iff r p q, h3]
  constructor <;> intro H <;> linarith

/-- A time from now on at which the cosine takes a given extreme value. -/
theorem exists_time {n : ℝ} (hn : 0 < n) (a b : ℝ) : ∃ t ≥ 0, ∃ k : ℤ, 2 * n * t + a = b + k * (2 * π) := by
  obtain ⟨k, hk⟩ := exists_nat_ge ((a - b) / (2 * π))
  refine ⟨(b - a + k * (2 * π)) / (2 * n), ?_, k, ?_⟩
  · apply div_nonneg _ (by positivity)
    rw [div_le_iff₀ two_pi_pos] at hk
    linarith
  · push_cast
    field_simp
    ring

/-- The link is up for ever iff it is up when the satellites are furthest apart, and down for ever iff it is down when they are closest. -/
theorem C67_always_never (debug : Bool) (i Ω Ω' r φ φ' : ℝ) (hr : 9 ≤ r) :
    ((∀ t ≥ 0, Up debug ⟨i, Ω, r, φ⟩ ⟨i, Ω', r, φ'⟩ t) ↔
      (r - 9) ^ 2 * (1 - meanCos i (Ω' - Ω) (φ' - φ) + (sin i * sin ((Ω' - Ω) / 2)) ^ 2) ≤ 2 * (r ^ 2 - (80000 + 6371009) ^ 2)) ∧
    ((∀ t ≥ 0, ¬ Up debug ⟨i, Ω, r, φ⟩ ⟨i, Ω', r, φ'⟩ t) ↔
      2 * (r ^ 2 - (80000 + 6371009) ^ 2) < (r - 9) ^ 2 * (1 - meanCos i (Ω' - Ω) (φ' - φ) - (sin i * sin ((Ω' - Ω) / 2)) ^ 2)) := by
  have hn := meanMotion_pos (r := r) (by linarith)
  simp only [C67_up debug i Ω Ω' r φ φ' hr]
  set B := (sin i * sin ((Ω' - Ω) / 2)) ^ 2
  have hB : 0 ≤ B := sq_nonneg _
  have hq : 0 ≤ (r - 9) ^ 2 := sq_nonneg _
  refine ⟨⟨fun H => ?_, fun H t _ => ?_⟩, ⟨fun H => ?_, fun H t _ => ?_⟩⟩
  · obtain ⟨t, ht, k, hk⟩ := exists_time hn (φ + φ') 0
    have := H t ht
    rw [hk, cos_add_int_mul_two_pi, cos_zero, mul_one] at this
    exact this
  · have hc := cos_le_one (2 * meanMotion r * t + (φ + φ'))
    have h1 := mul_le_mul_of_nonneg_left hc hB
    have h2 := mul_le_mul_of_nonneg_left (show 1 - meanCos i (Ω' - Ω) (φ' - φ) + B * cos (2 * meanMotion r * t + (φ + φ')) ≤
      1 - meanCos i (Ω' - Ω) (φ' - φ) + B by linarith) hq
    linarith
  · obtain ⟨t, ht, k, hk⟩ := exists_time hn (φ + φ') π
    have := H t ht
    rw [hk, cos_add_int_mul_two_pi, cos_pi, not_le] at this
    rw [mul_neg_one, ← sub_eq_add_neg] at this
    exact this
  · rw [not_le]
    have hc := neg_one_le_cos (2 * meanMotion r * t + (φ + φ'))
    have h1 := mul_le_mul_of_nonneg_left hc hB
    have h2 := mul_le_mul_of_nonneg_left (show 1 - meanCos i (Ω' - Ω) (φ' - φ) - B ≤
      1 - meanCos i (Ω' - Ω) (φ' - φ) + B * cos (2 * meanMotion r * t + (φ + φ')) by linarith) hq
    linarith

/-! ## The seats of a constellation -/

/-- Orbit of plane `i`, position `j`: see `C67_launched`. -/
noncomputable def seat (n s ph : Nat) (alt inc : ℚ) (i j : Nat) : Elements :=
  ⟨π / 180 * inc, 2 * π * i / n, 6371009 + alt, 2 * π * j / s + i * (ph * (2 * π / (n * s)))⟩

/-- The helper puts its satellites on these orbits. -/
theorem C67_launched {D : Type} (debug : Bool) (e : Endian) (cid n s ph : Nat) (alt inc : ℚ) (ds : List D)
    (out : List (SatAddress × OrbitElements)) (h : ConstellationHelper D)
    (hl : (ConstellationHelper.create cid alt inc n s ph).launchAll debug e ds = .ok (out, h))
    (i j : Nat) (hj : j < s) (hk : i * s + j < ds.length) :
    ∃ a o, out[i * s + j]? = some (a, o) ∧ o.launched = seat n s ph alt inc i j := by
  obtain ⟨a, ha⟩ := C10_orbital_elements debug e cid n s ph alt inc ds out h hl i j hj hk
  refine ⟨a, _, ha, ?_⟩
  unfold OrbitElements.launched launchSat seat toRadians specElements earthRadius
  simp only [Elements.mk.injEq]
  push_cast
  refine ⟨by ring, ?_, by ring, ?_⟩
  · ring
  · ring

theorem meanCos_period (i δ d : ℝ) (y z : ℤ) : meanCos i (δ + y * (2 * π)) (d + z * (2 * π)) = meanCos i δ d := by
  unfold meanCos
  simp only [cos_add_int_mul_two_pi, sin_add_int_mul_two_pi]

theorem sin_half_period (δ : ℝ) (y : ℤ) : sin ((δ + y * (2 * π)) / 2) ^ 2 = sin (δ / 2) ^ 2 := by
  have : (δ + y * (2 * π)) / 2 = δ / 2 + y * π := by ring
  rw [this, sin_sq, sin_sq]
  congr 1
  rw [cos_add_int_mul_pi]
  rcases Int.even_or_odd y with h | h
  · rw [h.neg_one_zpow, one_mul]
  · rw [h.neg_one_zpow]; ring

/-- Links inside a plane: neighbours are always equally far apart, and the link is up for ever or down for ever. -/
theorem C67_in_plane (debug : Bool) (n s ph : Nat) (alt inc : ℚ) (hs : 0 < s) (halt : (9 : ℝ) ≤ 6371009 + alt) (i j : Nat) (t : ℝ) :
    (∃ p q, doGetPosition debug (some (seat n s ph alt inc i j)) t = .ok p ∧
      doGetPosition debug (some (seat n s ph alt inc i ((j + 1) % s))) t = .ok q ∧ distance p q = 2 * (6371000 + alt) * |sin (π / s)|) ∧
    (Up debug (seat n s ph alt inc i j) (seat n s ph alt inc i ((j + 1) % s)) t ↔
      (6371000 + alt : ℝ) ^ 2 * sin (π / s) ^ 2 ≤ (6371009 + alt : ℝ) ^ 2 - (6371009 + 80000) ^ 2) := by
  have hs' : (s : ℝ) ≠ 0 := by positivity
  have hmod : ∃ z : ℤ, (((j + 1) % s : ℕ) : ℝ) = j + 1 - z * s := by
    refine ⟨((j + 1) / s : ℕ), ?_⟩
    have := Nat.mod_add_div (j + 1) s
    have h2 : (((j + 1) % s : ℕ) : ℝ) + s * ((j + 1) / s : ℕ) = j + 1 := by exact_mod_cast this
    rw [Int.cast_natCast]
    linarith
  obtain ⟨z, hz⟩ := hmod
  have hd : (2 * π * (((j + 1) % s : ℕ) : ℝ) / s + i * (ph * (2 * π / (n * s)))) - (2 * π * j / s + i * (ph * (2 * π / (n * s)))) =
      2 * π / s + ((-z : ℤ) : ℝ) * (2 * π) := by
    rw [hz]; push_cast; field_simp; ring
  have hm : 1 - meanCos (π / 180 * inc) (2 * π * i / n - 2 * π * i / n)
      ((2 * π * (((j + 1) % s : ℕ) : ℝ) / s + i * (ph * (2 * π / (n * s)))) - (2 * π * j / s + i * (ph * (2 * π / (n * s))))) +
      (sin (π / 180 * inc) * sin ((2 * π * i / n - 2 * π * i / n) / 2)) ^ 2 *
        cos (2 * meanMotion (6371009 + alt) * t + ((2 * π * j / s + i * (ph * (2 * π / (n * s)))) +
          (2 * π * (((j + 1) % s : ℕ) : ℝ) / s + i * (ph * (2 * π / (n * s)))))) = 2 * sin (π / s) ^ 2 := by
    rw [hd]
    have h0 : (2 * π * i / n - 2 * π * i / n : ℝ) = 0 + ((0 : ℤ) : ℝ) * (2 * π) := by push_cast; ring
    rw [h0, meanCos_period]
    have h1 := cos_two_mul' (π / s)
    have h2 := sin_sq_add_cos_sq (π / s)
    have h3 := sin_sq_add_cos_sq (π / 180 * inc)
    rw [show 2 * (π / s) = 2 * π / s by ring] at h1
    unfold meanCos
    simp only [cos_zero, sin_zero, mul_zero, zero_mul, Int.cast_zero, add_zero, zero_div, sub_zero]
    linear_combination (-1 : ℝ) * h1 - h2 - (cos (2 * π / s)) / 2 * h3
  refine ⟨?_, ?_⟩
  · obtain ⟨p, q, h1, h2, h3⟩ := C67_distance debug (π / 180 * inc) (2 * π * i / n) (2 * π * i / n) (6371009 + alt)
      (2 * π * j / s + i * (ph * (2 * π / (n * s)))) (2 * π * (((j + 1) % s : ℕ) : ℝ) / s + i * (ph * (2 * π / (n * s)))) halt t
    refine ⟨p, q, h1, h2, ?_⟩
    rw [hm] at h3
    have h0 : 0 ≤ distance p q := length_nonneg _
    have h6 : (0 : ℝ) ≤ 6371000 + alt := by linarith
    have : distance p q ^ 2 = (2 * (6371000 + alt) * |sin (π / s)|) ^ 2 := by
      rw [h3, mul_pow, mul_pow, sq_abs]; ring
    exact (pow_left_inj₀ h0 (by positivity) two_ne_zero).mp this
  · have := C67_up debug (π / 180 * inc) (2 * π * i / n) (2 * π * i / n) (6371009 + alt)
      (2 * π * j / s + i * (ph * (2 * π / (n * s)))) (2 * π * (((j + 1) % s : ℕ) : ℝ) / s + i * (ph * (2 * π / (n * s)))) halt t
    rw [hm] at this
    unfold seat
    rw [this]
    constructor <;> intro H <;> linarith

/-! ## Links between planes -/

/-- At all times `c` and `d` are as far apart as `a` and `b` are a fixed time later. -/
def Alike (debug : Bool) (a b c d : Elements) : Prop :=
  ∃ τ, ∀ t, ∃ pa pb pc pd, doGetPosition debug (some a) (t + τ) = .ok pa ∧ doGetPosition debug (some b) (t + τ) = .ok pb ∧
    doGetPosition debug (some c) t = .ok pc ∧ doGetPosition debug (some d) t = .ok pd ∧ distance pc pd = distance pa pb

theorem alike (debug : Bool) (i r : ℝ) (hr : 9 ≤ r) (Ω₁ Ω₂ Ω₃ Ω₄ φ₁ φ₂ φ₃ φ₄ : ℝ) (y z : ℤ) (hy : Ω₄ - Ω₃ = Ω₂ - Ω₁ + y * (2 * π))
    (hz : φ₄ - φ₃ = φ₂ - φ₁ + z * (2 * π)) :
    Alike debug ⟨i, Ω₁, r, φ₁⟩ ⟨i, Ω₂, r, φ₂⟩ ⟨i, Ω₃, r, φ₃⟩ ⟨i, Ω₄, r, φ₄⟩ := by
  have hn := meanMotion_pos (r := r) (by linarith)
  refine ⟨(φ₃ + φ₄ - (φ₁ + φ₂)) / (2 * meanMotion r), fun t => ?_⟩
  obtain ⟨pa, pb, h1, h2, h3⟩ := C67_distance debug i Ω₁ Ω₂ r φ₁ φ₂ hr (t + (φ₃ + φ₄ - (φ₁ + φ₂)) / (2 * meanMotion r))
  obtain ⟨pc, pd, h4, h5, h6⟩ := C67_distance debug i Ω₃ Ω₄ r φ₃ φ₄ hr t
  refine ⟨pa, pb, pc, pd, h1, h2, h4, h5, ?_⟩
  apply (pow_left_inj₀ (length_nonneg _) (length_nonneg _) two_ne_zero).mp
  have e1 : 2 * meanMotion r * (t + (φ₃ + φ₄ - (φ₁ + φ₂)) / (2 * meanMotion r)) + (φ₁ + φ₂) = 2 * meanMotion r * t + (φ₃ + φ₄) := by
    field_simp; ring
  rw [e1] at h3
  refine h6.trans (Eq.trans ?_ h3.symm)
  rw [hy, hz, meanCos_period, mul_pow, sin_half_period, ← mul_pow]

/-- Two pairs of satellites in consecutive planes with the same difference of positions (cyclically) move alike. -/
theorem C67_regular (debug : Bool) (n s ph : Nat) (alt inc : ℚ) (hs : 0 < s) (halt : (9 : ℝ) ≤ 6371009 + alt)
    (i j k i' j' k' : Nat) (h : (k : ℤ) - j ≡ k' - j' [ZMOD s]) :
    Alike debug (seat n s ph alt inc i j) (seat n s ph alt inc (i + 1) k) (seat n s ph alt inc i' j') (seat n s ph alt inc (i' + 1) k') := by
  obtain ⟨z, hz⟩ := h.dvd
  have hz' : ((k' : ℝ) - j') - (k - j) = s * z := by exact_mod_cast hz
  have hs' : (s : ℝ) ≠ 0 := by positivity
  refine alike debug _ _ halt _ _ _ _ _ _ _ _ 0 z ?_ ?_
  · push_cast; ring
  · have e : (k' : ℝ) = k - j + j' + s * z := by linarith
    rw [e]
    push_cast
    field_simp
    ring

/-- A pair across the seam, between the last and the first plane, moves like a pair of consecutive planes whose difference of positions
is less by the number of phases.  In particular the installed link (`k = j`) moves like a pair that is `ph` positions apart. -/
theorem C67_seam (debug : Bool) (n s ph : Nat) (alt inc : ℚ) (hn : 0 < n) (hs : 0 < s) (halt : (9 : ℝ) ≤ 6371009 + alt)
    (i j k j' k' : Nat) (h : (k : ℤ) - j - ph ≡ k' - j' [ZMOD s]) :
    Alike debug (seat n s ph alt inc i j') (seat n s ph alt inc (i + 1) k') (seat n s ph alt inc (n - 1) j) (seat n s ph alt inc 0 k) := by
  obtain ⟨z, hz⟩ := h.symm.dvd
  have hz' : ((k : ℝ) - j - ph) - (k' - j') = s * z := by exact_mod_cast hz
  have hs' : (s : ℝ) ≠ 0 := by positivity
  have hn' : (n : ℝ) ≠ 0 := by positivity
  have hc : ((n - 1 : ℕ) : ℝ) = n - 1 := by rw [Nat.cast_sub hn, Nat.cast_one]
  refine alike debug _ _ halt _ _ _ _ _ _ _ _ (-1) z ?_ ?_
  · rw [hc]; push_cast; field_simp; ring
  · have e : (k : ℝ) = s * z + k' - j' + j + ph := by linarith
    rw [e, hc]
    push_cast
    field_simp
    ring

/-- All installed links between planes move alike: wrong at the seam. -/
def C67_claim : Prop :=
  ∀ (n s ph : Nat) (alt inc : ℚ), 3 ≤ n → 0 < s → ph < s → (9 : ℝ) ≤ 6371009 + alt → ∀ i j, i + 1 < n → j < s →
    Alike true (seat n s ph alt inc i j) (seat n s ph alt inc (i + 1) j) (seat n s ph alt inc (n - 1) j) (seat n s ph alt inc 0 j)

/-- It is right when the number of phases is a multiple of the plane size. -/
theorem C67_all_alike (debug : Bool) (n s ph : Nat) (alt inc : ℚ) (hn : 0 < n) (hs : 0 < s) (hph : s ∣ ph) (halt : (9 : ℝ) ≤ 6371009 + alt)
    (i j j' : Nat) :
    Alike debug (seat n s ph alt inc i j') (seat n s ph alt inc (i + 1) j') (seat n s ph alt inc (n - 1) j) (seat n s ph alt inc 0 j) := by
  apply C67_seam debug n s ph alt inc hn hs halt
  obtain ⟨c, rfl⟩ := hph
  rw [Int.modEq_iff_dvd]
  exact ⟨c, by push_cast; ring⟩

theorem meanCos_zero (δ d : ℝ) : meanCos 0 δ d = cos (δ + d) := by
  unfold meanCos
  rw [cos_add, cos_zero, sin_zero]
  ring

theorem C67_claim_false : ¬ C67_claim := by
  intro h
  have h := h 3 4 1 250000 0 (by norm_num) (by norm_num) (by norm_num) (by norm_num) 0 0 (by norm_num) (by norm_num)
  have s1 : seat 3 4 1 250000 0 0 0 = ⟨0, 0, 6621009, 0⟩ := by simp [seat]; norm_num
  have s2 : seat 3 4 1 250000 0 (0 + 1) 0 = ⟨0, 2 * π / 3, 6621009, π / 6⟩ := by
    simp only [seat, Elements.mk.injEq]; refine ⟨by simp, by push_cast; ring, by norm_num, by push_cast; ring⟩
  have s3 : seat 3 4 1 250000 0 (3 - 1) 0 = ⟨0, 4 * π / 3, 6621009, π / 3⟩ := by
    simp only [seat, Elements.mk.injEq]; refine ⟨by simp, by push_cast; ring, by norm_num, by push_cast; ring⟩
  rw [s1, s2, s3] at h
  obtain ⟨τ, h⟩ := h
  obtain ⟨pa, pb, pc, pd, h1, h2, h3, h4, h5⟩ := h 0
  obtain ⟨qa, qb, e1, e2, e3⟩ := C67_distance true 0 0 (2 * π / 3) 6621009 0 (π / 6) (by norm_num) (0 + τ)
  obtain ⟨qc, qd, e4, e5, e6⟩ := C67_distance true 0 (4 * π / 3) 0 6621009 (π / 3) 0 (by norm_num) 0
  rw [h1] at e1; rw [h2] at e2; rw [h3] at e4; rw [h4] at e5
  simp only [Outcome.ok.injEq] at e1 e2 e4 e5
  subst e1 e2 e4 e5
  rw [h5, e3, meanCos_zero, meanCos_zero, sin_zero] at e6
  have a1 : cos (2 * π / 3 - 0 + (π / 6 - 0)) < 0 := by
    apply cos_neg_of_pi_div_two_lt_of_lt <;> linarith [pi_pos]
  have a2 : cos (0 - 4 * π / 3 + (0 - π / 3)) = 1 / 2 := by
    rw [show 0 - 4 * π / 3 + (0 - π / 3) = π / 3 - 2 * π by ring, cos_sub_two_pi, cos_pi_div_three]
  rw [a2] at e6
  norm_num at e6
  norm_num at a1
  linarith

/-! ## The examples of the repository -/

/-- At an altitude of 250 km, as in all examples, the links inside a plane are up for ever if there are at least 14 satellites in a plane,
and down for ever with 2 to 13. -/
theorem C67_250km (debug : Bool) (n s ph : Nat) (inc : ℚ) (hs : 2 ≤ s) (i j : Nat) (t : ℝ) :
    Up debug (seat n s ph 250000 inc i j) (seat n s ph 250000 inc i ((j + 1) % s)) t ↔ 14 ≤ s := by
  rw [(C67_in_plane debug n s ph 250000 inc (by omega) (by norm_num) i j t).2]
  have hs0 : (0 : ℝ) < s := by positivity
  have hx : 0 < π / s := div_pos pi_pos hs0
  have hp1 := pi_gt_d4
  have hp2 := pi_lt_d4
  constructor
  · intro h
    by_contra hlt
    have h13 : (s : ℝ) ≤ 13 := by exact_mod_cast (by omega : s ≤ 13)
    have h2 : (2 : ℝ) ≤ s := by exact_mod_cast hs
    have hle : π / 13 ≤ π / s := div_le_div_of_nonneg_left pi_pos.le hs0 h13
    have hle2 : π / s ≤ π / 2 := div_le_div_of_nonneg_left pi_pos.le (by norm_num) h2
    have hmono : sin (π / 13) ≤ sin (π / s) := sin_le_sin_of_le_of_le_pi_div_two (by linarith) hle2 hle
    have hlow : 0.238 < sin (π / 13) := by
      have := sin_gt_sub_cube (x := π / 13) (by positivity)
      have hc : (π / 13) ^ 3 ≤ (3.1416 / 13) ^ 3 := by gcongr
      have : π / 13 - (3.1416 / 13) ^ 3 / 6 < sin (π / 13) := by linarith
      have h3 : 3.1415 / 13 < π / 13 := by gcongr
      norm_num at *
      linarith
    have : (0.238 : ℝ) ^ 2 < sin (π / s) ^ 2 := by
      apply pow_lt_pow_left₀ (by linarith) (by norm_num) two_ne_zero
    norm_num at *
    linarith
  · intro h
    have h14 : (14 : ℝ) ≤ s := by exact_mod_cast h
    have h1 : sin (π / s) < π / s := sin_lt hx
    have h0 : 0 ≤ sin (π / s) := sin_nonneg_of_nonneg_of_le_pi hx.le (div_le_self pi_pos.le (by linarith))
    have h2 : π / s ≤ 3.1416 / 14 := by gcongr
    have : sin (π / s) ^ 2 ≤ (3.1416 / 14) ^ 2 := pow_le_pow_left₀ h0 (by linarith) 2
    norm_num at *
    linarith

/-- `C67_always_never` for two seats, with the angles up to full turns. -/
theorem seats_always_never (debug : Bool) (n s ph : Nat) (alt inc : ℚ) (halt : (9 : ℝ) ≤ 6371009 + alt) (i j i' k : Nat) (δ d : ℝ) (y z : ℤ)
    (hy : 2 * π * (i' : ℝ) / n - 2 * π * i / n = δ + y * (2 * π))
    (hz : 2 * π * (k : ℝ) / s + i' * (ph * (2 * π / (n * s))) - (2 * π * j / s + i * (ph * (2 * π / (n * s)))) = d + z * (2 * π)) :
    ((∀ t ≥ 0, Up debug (seat n s ph alt inc i j) (seat n s ph alt inc i' k) t) ↔
      (6371009 + alt - 9 : ℝ) ^ 2 * (1 - meanCos (π / 180 * inc) δ d + sin (π / 180 * inc) ^ 2 * sin (δ / 2) ^ 2) ≤
        2 * ((6371009 + alt) ^ 2 - (80000 + 6371009) ^ 2)) ∧
    ((∀ t ≥ 0, ¬ Up debug (seat n s ph alt inc i j) (seat n s ph alt inc i' k) t) ↔
      2 * ((6371009 + alt) ^ 2 - (80000 + 6371009) ^ 2) <
        (6371009 + alt - 9 : ℝ) ^ 2 * (1 - meanCos (π / 180 * inc) δ d - sin (π / 180 * inc) ^ 2 * sin (δ / 2) ^ 2)) := by
  have := C67_always_never debug (π / 180 * inc) (2 * π * i / n) (2 * π * i' / n) (6371009 + alt)
    (2 * π * j / s + i * (ph * (2 * π / (n * s)))) (2 * π * k / s + i' * (ph * (2 * π / (n * s)))) halt
  rw [hy, hz, meanCos_period, mul_pow, sin_half_period] at this
  exact this

/-- The same for 250 km and 60 degrees. -/
theorem seats_250km (debug : Bool) (n s ph : Nat) (i j i' k : Nat) (δ d : ℝ) (y z : ℤ)
    (hy : 2 * π * (i' : ℝ) / n - 2 * π * i / n = δ + y * (2 * π))
    (hz : 2 * π * (k : ℝ) / s + i' * (ph * (2 * π / (n * s))) - (2 * π * j / s + i * (ph * (2 * π / (n * s)))) = d + z * (2 * π)) :
    ((∀ t ≥ 0, Up debug (seat n s ph 250000 60 i j) (seat n s ph 250000 60 i' k) t) ↔
      6621000 ^ 2 * (1 - ((5 * cos δ + 3) / 8 * cos d - 1 / 2 * sin δ * sin d) + 3 / 8 * (1 - cos δ)) ≤ 2 * 2222243060000) ∧
    ((∀ t ≥ 0, ¬ Up debug (seat n s ph 250000 60 i j) (seat n s ph 250000 60 i' k) t) ↔
      2 * 2222243060000 < 6621000 ^ 2 * (1 - ((5 * cos δ + 3) / 8 * cos d - 1 / 2 * sin δ * sin d) - 3 / 8 * (1 - cos δ))) := by
  have := seats_always_never debug n s ph 250000 60 (by norm_num) i j i' k δ d y z hy hz
  have h60 : π / 180 * ((60 : ℚ) : ℝ) = π / 3 := by push_cast; ring
  have h1 : sin (δ / 2) ^ 2 = (1 - cos δ) / 2 := by
    have h2 := cos_two_mul' (δ / 2)
    have h3 := sin_sq_add_cos_sq (δ / 2)
    rw [mul_div_cancel₀ _ (two_ne_zero)] at h2
    linarith
  have hs3 : (√3 / 2) ^ 2 = (3 / 4 : ℝ) := by rw [div_pow, sq_sqrt (by norm_num)]; norm_num
  rw [h60, h1, sin_pi_div_three, hs3] at this
  have hm : meanCos (π / 3) δ d = (5 * cos δ + 3) / 8 * cos d - 1 / 2 * sin δ * sin d := by
    unfold meanCos
    rw [cos_pi_div_three, sin_pi_div_three, hs3]
    ring
  rw [hm] at this
  obtain ⟨t1, t2⟩ := this
  refine ⟨t1.trans ?_, t2.trans ?_⟩
  · push_cast
    constructor <;> intro H <;> norm_num at H ⊢ <;> linarith
  · push_cast
    constructor <;> intro H <;> norm_num at H ⊢ <;> linarith

theorem not_forall_nonneg {P : ℝ → Prop} (h : ¬ ∀ t ≥ 0, P t) : ∃ t ≥ 0, ¬ P t := by
  push Not at h
  exact h

/-- examples/isl-grid.cc:78-79: the links between consecutive planes are never up; those across the seam sometimes are. -/
theorem C67_isl_grid (debug : Bool) (j : Nat) :
    (∀ i, ∀ t ≥ 0, ¬ Up debug (seat 6 20 1 250000 60 i j) (seat 6 20 1 250000 60 (i + 1) j) t) ∧
    (∃ t ≥ 0, Up debug (seat 6 20 1 250000 60 5 j) (seat 6 20 1 250000 60 0 j) t) ∧
    ∃ t ≥ 0, ¬ Up debug (seat 6 20 1 250000 60 5 j) (seat 6 20 1 250000 60 0 j) t := by
  have hp1 := pi_gt_d4
  have hp2 := pi_lt_d4
  have seam := seats_250km debug 6 20 1 5 j 0 j (π / 3) (-(π / 12)) (-1) 0 (by push_cast; ring) (by push_cast; ring)
  have hs := sin_pi_div_three
  have h3 : (1.7 : ℝ) < √3 ∧ √3 < 1.75 := by
    constructor
    · rw [lt_sqrt (by norm_num)]; norm_num
    · rw [sqrt_lt' (by norm_num)]; norm_num
  have hs12 : π / 12 - (π / 12) ^ 3 / 6 < sin (π / 12) := sin_gt_sub_cube (by positivity)
  have hc12 : 1 - (π / 12) ^ 2 / 2 ≤ cos (π / 12) := one_sub_sq_div_two_le_cos
  have hq : (π / 12) ^ 2 ≤ (3.1416 / 12) ^ 2 := by gcongr
  have hq3 : (π / 12) ^ 3 ≤ (3.1416 / 12) ^ 3 := by gcongr
  have hsl : sin (π / 12) < π / 12 := sin_lt (by positivity)
  refine ⟨fun i => ?_, ?_, ?_⟩
  · refine (seats_250km debug 6 20 1 i j (i + 1) j (π / 3) (π / 60) 0 0 (by push_cast; ring) (by push_cast; ring)).2.mpr ?_
    have h1 := cos_le_one (π / 60)
    have h2 : 0 ≤ sin (π / 60) := sin_nonneg_of_nonneg_of_le_pi (by positivity) (by linarith)
    have h5 : 0 ≤ √3 * sin (π / 60) := mul_nonneg (sqrt_nonneg _) h2
    rw [cos_pi_div_three, hs]
    norm_num
    linarith
  · have : ¬ ∀ t ≥ 0, ¬ Up debug (seat 6 20 1 250000 60 5 j) (seat 6 20 1 250000 60 0 j) t := by
      rw [seam.2, cos_neg, sin_neg, cos_pi_div_three, hs]
      have h5 : 1.7 * (π / 12 - (π / 12) ^ 3 / 6) < √3 * sin (π / 12) := by
        have a : 0 < π / 12 - (π / 12) ^ 3 / 6 := by nlinarith
        nlinarith
      norm_num at *
      linarith
    obtain ⟨t, ht, h⟩ := not_forall_nonneg this
    exact ⟨t, ht, not_not.mp h⟩
  · apply not_forall_nonneg
    rw [seam.1, cos_neg, sin_neg, cos_pi_div_three, hs]
    have h1 := cos_le_one (π / 12)
    have h5 : √3 * sin (π / 12) ≤ 1.75 * (3.1416 / 12) := by
      have h0 : 0 ≤ sin (π / 12) := sin_nonneg_of_nonneg_of_le_pi (by positivity) (by linarith)
      have : sin (π / 12) ≤ 3.1416 / 12 := by linarith
      nlinarith
    norm_num at *
    linarith

/-- examples/ground2groundping.cc:109-110: the links between consecutive planes are sometimes up and sometimes down; those across the seam are
always up. -/
theorem C67_ground2groundping (debug : Bool) (i j : Nat) :
    (∃ t ≥ 0, Up debug (seat 14 20 1 250000 60 i j) (seat 14 20 1 250000 60 (i + 1) j) t) ∧
    (∃ t ≥ 0, ¬ Up debug (seat 14 20 1 250000 60 i j) (seat 14 20 1 250000 60 (i + 1) j) t) ∧
    ∀ t ≥ 0, Up debug (seat 14 20 1 250000 60 13 j) (seat 14 20 1 250000 60 0 j) t := by
  have hp1 := pi_gt_d4
  have hp2 := pi_lt_d4
  have reg := seats_250km debug 14 20 1 i j (i + 1) j (π / 7) (π / 140) 0 0 (by push_cast; ring) (by push_cast; ring)
  have seam := seats_250km debug 14 20 1 13 j 0 j (π / 7) (-(13 * π / 140)) (-1) 0 (by push_cast; ring) (by push_cast; ring)
  have hδ1 : 0.44878 < π / 7 := by linarith
  have hδ2 : π / 7 < 0.4488 := by linarith
  have hd1 : 0.02243 < π / 140 := by linarith
  have hd2 : π / 140 < 0.02245 := by linarith
  have he1 : 0.2917 < 13 * π / 140 := by linarith
  have he2 : 13 * π / 140 < 0.29173 := by linarith
  have c1 : 1 - (π / 7) ^ 2 / 2 ≤ cos (π / 7) := one_sub_sq_div_two_le_cos
  have c2 : cos (π / 7) ≤ 1 - (π / 7) ^ 2 / 2 + (π / 7) ^ 4 * (5 / 96) := by
    have := cos_bound (x := π / 7) (by rw [abs_of_pos (by positivity)]; linarith)
    rw [abs_of_pos (by positivity : 0 < π / 7)] at this
    have := (abs_le.mp this).2
    linarith
  have c3 : 1 - (π / 140) ^ 2 / 2 ≤ cos (π / 140) := one_sub_sq_div_two_le_cos
  have c4 := cos_le_one (π / 140)
  have c5 : 1 - (13 * π / 140) ^ 2 / 2 ≤ cos (13 * π / 140) := one_sub_sq_div_two_le_cos
  have s1 : π / 7 - (π / 7) ^ 3 / 6 < sin (π / 7) := sin_gt_sub_cube (by positivity)
  have s2 : sin (π / 7) < π / 7 := sin_lt (by positivity)
  have s3 : π / 140 - (π / 140) ^ 3 / 6 < sin (π / 140) := sin_gt_sub_cube (by positivity)
  have s4 : sin (π / 140) < π / 140 := sin_lt (by positivity)
  have s5 : 13 * π / 140 - (13 * π / 140) ^ 3 / 6 < sin (13 * π / 140) := sin_gt_sub_cube (by positivity)
  have q1 : (π / 7) ^ 2 ≤ 0.4488 ^ 2 := by gcongr
  have q2 : 0.44878 ^ 2 ≤ (π / 7) ^ 2 := by gcongr
  have q3 : (π / 7) ^ 4 ≤ 0.4488 ^ 4 := by gcongr
  have q4 : (π / 7) ^ 3 ≤ 0.4488 ^ 3 := by gcongr
  have q5 : (π / 140) ^ 2 ≤ 0.02245 ^ 2 := by gcongr
  have q6 : (π / 140) ^ 3 ≤ 0.02245 ^ 3 := by gcongr
  have q7 : (13 * π / 140) ^ 2 ≤ 0.29173 ^ 2 := by gcongr
  have q8 : (13 * π / 140) ^ 3 ≤ 0.29173 ^ 3 := by gcongr
  generalize cos (π / 7) = C at *
  generalize sin (π / 7) = S at *
  generalize cos (π / 140) = c at *
  generalize sin (π / 140) = s at *
  rw [cos_neg, sin_neg] at seam
  generalize cos (13 * π / 140) = c' at *
  generalize sin (13 * π / 140) = s' at *
  have C1 : 0.8992 ≤ C := by norm_num at *; linarith
  have C2 : C ≤ 0.90145 := by norm_num at *; linarith
  have S1 : 0.4337 ≤ S := by norm_num at *; linarith
  have S2 : S ≤ 0.4488 := by linarith
  have D1 : 0.9997 ≤ c := by norm_num at *; linarith
  have D2 : 0.0224 ≤ s := by norm_num at *; linarith
  have D3 : s ≤ 0.02245 := by linarith
  have E1 : 0.9574 ≤ c' := by norm_num at *; linarith
  have E2 : 0.2875 ≤ s' := by norm_num at *; linarith
  have p1 : S * s ≤ 0.4488 * 0.02245 := mul_le_mul S2 D3 (by linarith) (by norm_num)
  have p2 : 0.4337 * 0.0224 ≤ S * s := mul_le_mul S1 D2 (by norm_num) (by linarith)
  have p3 : 0.4337 * 0.2875 ≤ S * s' := mul_le_mul S1 E2 (by norm_num) (by linarith)
  have p4 : (5 * C + 3) / 8 * 0.9997 ≤ (5 * C + 3) / 8 * c := mul_le_mul_of_nonneg_left D1 (by linarith)
  have p5 : (5 * C + 3) / 8 * c ≤ (5 * C + 3) / 8 * 1 := mul_le_mul_of_nonneg_left c4 (by linarith)
  have p6 : (5 * C + 3) / 8 * 0.9574 ≤ (5 * C + 3) / 8 * c' := mul_le_mul_of_nonneg_left E1 (by linarith)
  clear c1 c2 c3 c4 c5 s1 s2 s3 s4 s5 q1 q2 q3 q4 q5 q6 q7 q8
  refine ⟨?_, ?_, ?_⟩
  · have : ¬ ∀ t ≥ 0, ¬ Up debug (seat 14 20 1 250000 60 i j) (seat 14 20 1 250000 60 (i + 1) j) t := by
      rw [reg.2]
      norm_num at *
      linarith
    obtain ⟨t, ht, h⟩ := not_forall_nonneg this
    exact ⟨t, ht, not_not.mp h⟩
  · apply not_forall_nonneg
    rw [reg.1]
    norm_num at *
    linarith
  · rw [seam.1]
    norm_num at *
    linarith

/-! ## Non-vacuity -/

example : (9 : ℝ) ≤ 6371009 + ((250000 : ℚ) : ℝ) := by norm_num
example : ((3 : ℕ) : ℤ) - (2 : ℕ) ≡ (0 : ℕ) - (19 : ℕ) [ZMOD (20 : ℕ)] := by decide
example : ((2 : ℕ) : ℤ) - (2 : ℕ) - (1 : ℕ) ≡ (19 : ℕ) - (0 : ℕ) [ZMOD (20 : ℕ)] := by decide
example : ∃ out h, (ConstellationHelper.create 0 250000 60 2 2 1 : ConstellationHelper Nat).launchAll true .little [5, 6, 7, 8] = .ok (out, h) ∧
    1 * 2 + 1 < [5, 6, 7, 8].length := by
  obtain ⟨out, h, hl, -⟩ := C08_launch_order true .little 0 2 2 1 250000 60 [5, 6, 7, 8] (by unfold Fits16; decide) (by decide)
  exact ⟨out, h, hl, by decide⟩

end Orbit
end Icarus
