import Verif.Props.LinkGeometry
import Verif.Props.Tracker
import Mathlib.Geometry.Euclidean.Angle.Unoriented.TriangleInequality
import Mathlib.Analysis.InnerProductSpace.PiL2

/-!
# How long a satellite stays visible (C71)

Exact real arithmetic.  The ground point turns with the Earth, the satellite follows its circle, and the elevation is the one the trackers and the
devices compute from the reported position.
-/

set_option autoImplicit false

namespace Icarus
namespace Orbit

open Real

/-! ## Angles at the centre of the Earth -/

/-- Angle between two vectors. -/
noncomputable def angle (a b : Vec) : ℝ := arccos (dot a b / (length a * length b))

noncomputable def toE (v : Vec) : EuclideanSpace ℝ (Fin 3) := !₂[v.1, v.2.1, v.2.2]

theorem inner_toE (a b : Vec) : inner ℝ (toE a) (toE b) = dot a b := by
  simp [toE, PiLp.inner_apply, Fin.sum_univ_three, dot]
  ring

theorem norm_toE (a : Vec) : ‖toE a‖ = length a := by
  simp [toE, EuclideanSpace.norm_eq, Fin.sum_univ_three, length]

theorem angle_eq (a b : Vec) : angle a b = InnerProductGeometry.angle (toE a) (toE b) := by
  unfold angle InnerProductGeometry.angle
  rw [inner_toE, norm_toE, norm_toE]

theorem angle_triangle (a b c : Vec) : angle a c ≤ angle a b + angle b c := by
  simp only [angle_eq]
  exact InnerProductGeometry.angle_le_angle_add_angle _ _ _

theorem angle_comm (a b : Vec) : angle a b = angle b a := by
  simp only [angle_eq]
  exact InnerProductGeometry.angle_comm _ _

theorem dot_self (a : Vec) : dot a a = length a ^ 2 := by
  rw [length_sq]; unfold dot; ring

theorem dot_rotZ (x : ℝ) (a b : Vec) : dot (rotZ x a) (rotZ x b) = dot a b := by
  have := sin_sq_add_cos_sq x
  simp only [dot, rotZ]
  linear_combination (a.1 * b.1 + a.2.1 * b.2.1) * this

/-- Along its circle the satellite advances by the mean motion. -/
theorem angle_circle (o : Elements) (hr : 0 < o.radius) (E F : ℝ) (h0 : 0 ≤ F - E) (h1 : F - E ≤ π) :
    angle (circlePoint o E) (circlePoint o F) = F - E := by
  obtain ⟨i, Ω, r, φ⟩ := o
  have h := dot_circles i Ω Ω r φ φ E F
  simp only [sub_self, meanCos, cos_zero, sin_zero, zero_div, mul_zero, zero_mul] at h
  have e3 := sin_sq_add_cos_sq i
  unfold angle
  rw [length_circlePoint _ _ hr.le, length_circlePoint _ _ hr.le, h]
  simp only at hr ⊢
  rw [show r ^ 2 * ((1 * (1 + cos i ^ 2) + sin i ^ 2) / 2 * cos (F - E) - 0 - 0 ^ 2 * cos (E + F)) / (r * r) = cos (F - E) by
    rw [div_eq_iff (by positivity)]
    linear_combination r ^ 2 * cos (F - E) / 2 * e3]
  exact arccos_cos h0 h1

/-- A point of the Earth moves by at most the angle of the rotation. -/
theorem angle_ground (g : Vec) (hp : 0 < length g) (x y : ℝ) (h0 : 0 ≤ y - x) (h1 : y - x ≤ π) :
    angle (rotZ x g) (rotZ y g) ≤ y - x := by
  unfold angle
  rw [length_rotZ, length_rotZ]
  rw [← arccos_cos h0 h1]
  apply arccos_le_arccos
  rw [le_div_iff₀ (by positivity)]
  have e1 : dot (rotZ x g) (rotZ y g) = (g.1 ^ 2 + g.2.1 ^ 2) * cos (y - x) + g.2.2 ^ 2 := by
    simp only [dot, rotZ, cos_sub]; ring
  have e2 := length_sq g
  have e3 : g.2.2 ^ 2 * cos (y - x) ≤ g.2.2 ^ 2 := mul_le_of_le_one_right (by positivity) (cos_le_one _)
  rw [e1, ← sq, e2]
  linarith

/-! ## Elevation and central angle -/

/-- The angle at the centre of the Earth between a ground point at radius `R` and a satellite at radius `ρ` seen at elevation `e`. -/
noncomputable def reach (R ρ e : ℝ) : ℝ := arccos (R * cos e / ρ) - e

theorem reach_nonneg {R ρ e : ℝ} (hR : 0 < R) (hρ : R < ρ) (h0 : 0 ≤ e) (h1 : e ≤ π / 2) : 0 ≤ reach R ρ e := by
  have hc : 0 ≤ cos e := cos_nonneg_of_neg_pi_div_two_le_of_le (by linarith [pi_pos]) h1
  have h2 : R * cos e / ρ ≤ cos e := by
    rw [div_le_iff₀ (by linarith)]
    nlinarith
  have h3 := arccos_le_arccos h2
  rw [arccos_cos h0 (by linarith [pi_pos])] at h3
  unfold reach
  linarith

theorem reach_le {R ρ e : ℝ} (hR : 0 < R) (hρ : R < ρ) (h0 : 0 ≤ e) (h1 : e ≤ π / 2) : reach R ρ e ≤ π / 2 := by
  have hc : 0 ≤ cos e := cos_nonneg_of_neg_pi_div_two_le_of_le (by linarith [pi_pos]) h1
  have h2 : arccos (R * cos e / ρ) ≤ π / 2 := arccos_le_pi_div_two.mpr (div_nonneg (by positivity) (by linarith))
  unfold reach
  linarith

theorem cos_reach {R ρ e : ℝ} (hR : 0 < R) (hρ : R < ρ) (h1 : |cos e| ≤ 1) :
    ρ * cos (reach R ρ e) = R * cos e ^ 2 + sin e * √(ρ ^ 2 - R ^ 2 * cos e ^ 2) := by
  have hp : 0 < ρ := by linarith
  have hb := abs_le.mp h1
  have k1 : R * cos e / ρ ≤ 1 := by rw [div_le_one hp]; nlinarith
  have k2 : -1 ≤ R * cos e / ρ := by rw [le_div_iff₀ hp]; nlinarith
  unfold reach
  rw [cos_sub, cos_arccos k2 k1, sin_arccos]
  have e1 : √(1 - (R * cos e / ρ) ^ 2) = √(ρ ^ 2 - R ^ 2 * cos e ^ 2) / ρ := by
    have e2 := sqrt_div' (ρ ^ 2 - R ^ 2 * cos e ^ 2) (sq_nonneg ρ)
    rw [sqrt_sq hp.le] at e2
    rw [← e2]
    congr 1
    field_simp
  rw [e1]
  field_simp

/-- A satellite is seen at elevation `e` or more exactly if the angle at the centre of the Earth is at most `reach`. -/
theorem C71_reach (s g : Vec) (hg : 0 < length g) (hs : length g < length s) (e : ℝ) (h0 : 0 ≤ e) (h1 : e ≤ π / 2) :
    ∃ x, satElevation s g = .ok x ∧ (e ≤ x ↔ angle g s ≤ reach (length g) (length s) e) := by
  have hg0 : g ≠ (0, 0, 0) := fun h => by rw [length_eq_zero.mpr h] at hg; exact lt_irrefl _ hg
  have hne : s ≠ g := fun h => by rw [h] at hs; exact lt_irrefl _ hs
  obtain ⟨x, hx, x1, x2, x3⟩ := C48_sin s g hg0 hne
  refine ⟨x, hx, ?_⟩
  have hd : 0 < length (sub s g) := length_pos (fun h => hne (sub_eq_zero'.mp h))
  have hρ : 0 < length s := hg.trans hs
  have hpi := pi_pos
  have hsin : 0 ≤ sin e := sin_nonneg_of_nonneg_of_le_pi h0 (by linarith)
  rw [← strictMonoOn_sin.le_iff_le (a := e) (b := x) ⟨by linarith, h1⟩ ⟨x1, x2⟩]
  have ha : angle g s ≤ reach (length g) (length s) e ↔
      length s * cos (reach (length g) (length s) e) * length g ≤ dot g s := by
    have hq : |dot g s / (length g * length s)| ≤ 1 := by
      rw [abs_div, abs_of_pos (mul_pos hg hρ), div_le_one (mul_pos hg hρ)]
      exact abs_dot_le _ _
    have r1 := reach_nonneg hg hs h0 h1
    have r2 := reach_le hg hs h0 h1
    rw [← strictAntiOn_cos.le_iff_ge (a := reach (length g) (length s) e) (b := angle g s) ⟨r1, by linarith⟩
      ⟨arccos_nonneg _, arccos_le_pi _⟩]
    unfold angle
    rw [cos_arccos (abs_le.mp hq).1 (abs_le.mp hq).2, le_div_iff₀ (mul_pos hg hρ)]
    rw [show cos (reach (length g) (length s) e) * (length g * length s) = length s * cos (reach (length g) (length s) e) * length g by ring]
  rw [ha, cos_reach hg hs (abs_cos_le_one e)]
  have hdot : dot g (sub s g) = dot g s - length g ^ 2 := by
    rw [length_sq]; simp only [dot, sub]; ring
  have hdsq : length (sub s g) ^ 2 = length s ^ 2 + length g ^ 2 - 2 * dot g s := by
    simp only [length_sq, dot, sub]; ring
  have hcs := sin_sq_add_cos_sq e
  set R := length g
  set ρ := length s
  set d := length (sub s g)
  set c := cos e
  set k := sin e
  have hw0 : 0 ≤ ρ ^ 2 - R ^ 2 * c ^ 2 := by nlinarith [sq_nonneg k]
  have hw := sq_sqrt hw0
  have hwn := sqrt_nonneg (ρ ^ 2 - R ^ 2 * c ^ 2)
  set w := √(ρ ^ 2 - R ^ 2 * c ^ 2)
  have hwk : R * k ≤ w := by
    apply abs_le_of_sq_le_sq' _ hwn |>.2
    nlinarith
  -- `X` is the component of the direction to the satellite along the vertical
  obtain ⟨X, hX⟩ : ∃ X, dot g s = R * X + R ^ 2 := ⟨(dot g s - R ^ 2) / R, by field_simp; ring⟩
  have hx3 : sin x * d = X := by
    have : R * (sin x * d) = R * X := by rw [hdot, hX] at x3; linarith
    exact mul_left_cancel₀ hg.ne' this
  have hd2 : d ^ 2 = ρ ^ 2 - R ^ 2 - 2 * R * X := by rw [hdsq, hX]; ring
  have step1 : k ≤ sin x ↔ k * d ≤ X := by
    rw [← hx3]
    exact (mul_le_mul_iff_left₀ hd).symm
  have step2 : (R * c ^ 2 + k * w) * R ≤ dot g s ↔ k * w ≤ X + R * k ^ 2 := by
    rw [hX, show R * X + R ^ 2 = (X + R) * R by ring, mul_le_mul_iff_left₀ hg]
    constructor <;> intro h <;> nlinarith
  rw [step1, step2]
  have key : (X + R * k ^ 2) ^ 2 - (k * w) ^ 2 = X ^ 2 - (k * d) ^ 2 := by
    rw [mul_pow, mul_pow, hw, hd2]
    linear_combination (R ^ 2 * k ^ 2) * hcs
  constructor
  · intro h
    have hkd : 0 ≤ k * d := by positivity
    have : (k * d) ^ 2 ≤ X ^ 2 := by gcongr
    have hX0 : 0 ≤ X := hkd.trans h
    apply abs_le_of_sq_le_sq' _ (by positivity) |>.2
    linarith
  · intro h
    have hkw : 0 ≤ k * w := by positivity
    have h2 : (k * w) ^ 2 ≤ (X + R * k ^ 2) ^ 2 := by gcongr
    have hX0 : 0 ≤ X := by nlinarith
    apply abs_le_of_sq_le_sq' _ hX0 |>.2
    linarith

/-! ## Elevation as a function of time -/

/-- At time `t` the satellite `o` is seen from `g` at elevation `x`. -/
def Sees (debug : Bool) (o : Elements) (g : Vec) (t x : ℝ) : Prop :=
  ∃ s, doGetPosition debug (some o) t = .ok s ∧ satElevation s g = .ok x

theorem Sees.unique {debug : Bool} {o : Elements} {g : Vec} {t x y : ℝ} (h : Sees debug o g t x) (h' : Sees debug o g t y) : x = y := by
  obtain ⟨s, h1, h2⟩ := h
  obtain ⟨s', h1', h2'⟩ := h'
  rw [h1] at h1'
  simp only [Outcome.ok.injEq] at h1'
  subst h1'
  rw [h2] at h2'
  simpa using h2'

theorem dot_smul (k : ℝ) (a b : Vec) : dot a (smul k b) = k * dot a b := by simp only [dot, smul]; ring

theorem rotZ_rotZ (x y : ℝ) (v : Vec) : rotZ x (rotZ y v) = rotZ (x + y) v := by
  simp only [rotZ, cos_add, sin_add, Prod.mk.injEq]
  exact ⟨by ring, by ring, trivial⟩

theorem rotZ_zero (v : Vec) : rotZ 0 v = v := by simp [rotZ]

/-- The satellite in the frame that turns with the Earth. -/
theorem sees_position (debug : Bool) (o : Elements) (hr : 9 < o.radius) (t : ℝ) :
    ∃ s, doGetPosition debug (some o) t = .ok s ∧ length s = o.radius - 9 ∧
      ∀ g, 0 < length g → angle g s = angle (rotZ (7.292115922e-5 * t) g) (circlePoint o (meanMotion o.radius * t + o.phase)) := by
  have hr0 : 0 < o.radius := by linarith
  obtain ⟨p, h1, h2⟩ := C46_rotated debug o hr0 t
  rw [C45_position debug o hr0] at h1
  simp only [Outcome.ok.injEq] at h1
  subst h1
  have hk : 0 < (o.radius - 9) / o.radius := div_pos (by linarith) hr0
  have hl : length (smul ((o.radius - 9) / o.radius) (rotZ (-(7.292115922e-5 * t)) (circlePoint o (meanMotion o.radius * t + o.phase)))) =
      o.radius - 9 := by
    rw [length_smul _ hk.le, length_rotZ, length_circlePoint _ _ hr0.le, div_mul_cancel₀ _ hr0.ne']
  refine ⟨_, h2, hl, ?_⟩
  intro g hg
  unfold angle
  rw [hl, dot_smul, length_rotZ, length_circlePoint _ _ hr0.le]
  congr 1
  rw [← dot_rotZ (7.292115922e-5 * t) g, rotZ_rotZ, add_neg_cancel, rotZ_zero]
  have : o.radius - 9 ≠ 0 := by linarith
  field_simp

/-- At every time the elevation is defined, in both builds. -/
theorem sees_exists (debug : Bool) (o : Elements) (hr : 9 < o.radius) (g : Vec) (hg : 0 < length g) (hρ : length g < o.radius - 9) (t : ℝ) :
    ∃ x, Sees debug o g t x ∧ ∀ e, 0 ≤ e → e ≤ π / 2 → (e ≤ x ↔
      angle (rotZ (7.292115922e-5 * t) g) (circlePoint o (meanMotion o.radius * t + o.phase)) ≤ reach (length g) (o.radius - 9) e) := by
  obtain ⟨s, h1, h2, h3⟩ := sees_position debug o hr t
  obtain ⟨x, hx, -⟩ := C71_reach s g hg (by rw [h2]; exact hρ) 0 (le_refl _) (by positivity)
  refine ⟨x, ⟨s, h1, hx⟩, ?_⟩
  intro e h0 he
  obtain ⟨y, hy, h4⟩ := C71_reach s g hg (by rw [h2]; exact hρ) e h0 he
  rw [hx] at hy
  simp only [Outcome.ok.injEq] at hy
  subst hy
  rw [h4, h3 g hg, h2]

/-- A satellite that is seen at elevation `e` or more at two moments less than half an orbit apart has travelled, relative to the turning Earth, at
most twice the reach. -/
theorem C71_pass (debug : Bool) (o : Elements) (g : Vec) (hg : 0 < length g) (hρ : length g < o.radius - 9)
    (hn : 7.292115922e-5 ≤ meanMotion o.radius) (e : ℝ) (h0 : 0 ≤ e) (h1 : e ≤ π / 2) (t h x y : ℝ) (hh : 0 ≤ h)
    (hhalf : meanMotion o.radius * h ≤ π) (hx : Sees debug o g t x) (hy : Sees debug o g (t + h) y) (hxe : e ≤ x) (hye : e ≤ y) :
    (meanMotion o.radius - 7.292115922e-5) * h ≤ 2 * reach (length g) (o.radius - 9) e := by
  have hr : 9 < o.radius := by linarith
  obtain ⟨x', hx', kx⟩ := sees_exists debug o hr g hg hρ t
  obtain ⟨y', hy', ky⟩ := sees_exists debug o hr g hg hρ (t + h)
  rw [hx'.unique hx] at kx
  rw [hy'.unique hy] at ky
  have a1 := (kx e h0 h1).mp hxe
  have a2 := (ky e h0 h1).mp hye
  have hω : 7.292115922e-5 * h ≤ meanMotion o.radius * h := by gcongr
  have hω0 : 0 ≤ 7.292115922e-5 * h := by positivity
  set n := meanMotion o.radius
  have a3 := angle_circle o (by linarith) (n * t + o.phase) (n * (t + h) + o.phase) (by nlinarith) (by nlinarith)
  have a4 := angle_ground g hg (7.292115922e-5 * t) (7.292115922e-5 * (t + h)) (by nlinarith) (by nlinarith)
  have t1 := angle_triangle (circlePoint o (n * t + o.phase)) (rotZ (7.292115922e-5 * t) g) (circlePoint o (n * (t + h) + o.phase))
  have t2 := angle_triangle (rotZ (7.292115922e-5 * t) g) (rotZ (7.292115922e-5 * (t + h)) g) (circlePoint o (n * (t + h) + o.phase))
  rw [a3, angle_comm (circlePoint o (n * t + o.phase)) (rotZ (7.292115922e-5 * t) g)] at t1
  nlinarith

/-- The elevation as a function of time. -/
noncomputable def elevationAt (o : Elements) (g : Vec) (t : ℝ) : ℝ :=
  let s := smul ((o.radius - 9) / o.radius) (rotZ (-(7.292115922e-5 * t)) (circlePoint o (meanMotion o.radius * t + o.phase)))
  arcsin (dot g (sub s g) / (length g * length (sub s g)))

theorem sees_elevationAt (debug : Bool) (o : Elements) (g : Vec) (hg : 0 < length g) (hρ : length g < o.radius - 9) (t : ℝ) :
    Sees debug o g t (elevationAt o g t) := by
  have hr0 : 0 < o.radius := by linarith
  obtain ⟨p, h1, h2⟩ := C46_rotated debug o hr0 t
  rw [C45_position debug o hr0] at h1
  simp only [Outcome.ok.injEq] at h1
  subst h1
  refine ⟨_, h2, ?_⟩
  unfold satElevation elevationAt cdiv
  simp only []
  rw [if_neg]
  · rfl
  · have hl : length (smul ((o.radius - 9) / o.radius) (rotZ (-(7.292115922e-5 * t)) (circlePoint o (meanMotion o.radius * t + o.phase)))) =
        o.radius - 9 := by
      rw [length_smul _ (div_pos (by linarith) hr0).le, length_rotZ, length_circlePoint _ _ hr0.le, div_mul_cancel₀ _ hr0.ne']
    refine mul_ne_zero hg.ne' (length_pos ?_).ne'
    intro h
    rw [sub_eq_zero'.mp h] at hl
    linarith

theorem continuous_elevationAt (o : Elements) (g : Vec) (hg : 0 < length g) (hρ : length g < o.radius - 9) : Continuous (elevationAt o g) := by
  have hr0 : 0 < o.radius := by linarith
  unfold elevationAt
  refine continuous_arcsin.comp (Continuous.div ?_ ?_ ?_)
  · simp only [dot, sub, smul, rotZ, circlePoint, rotX]; fun_prop
  · simp only [length, sub, smul, rotZ, circlePoint, rotX]; fun_prop
  · intro t
    have hl : length (smul ((o.radius - 9) / o.radius) (rotZ (-(7.292115922e-5 * t)) (circlePoint o (meanMotion o.radius * t + o.phase)))) =
        o.radius - 9 := by
      rw [length_smul _ (div_pos (by linarith) hr0).le, length_rotZ, length_circlePoint _ _ hr0.le, div_mul_cancel₀ _ hr0.ne']
    refine mul_ne_zero hg.ne' (length_pos ?_).ne'
    intro h
    rw [sub_eq_zero'.mp h] at hl
    linarith

/-- Seen from `g`, the satellite sinks to elevation `e` at time `τ` for the first time since `t`. -/
def FirstSet (debug : Bool) (o : Elements) (g : Vec) (e t τ : ℝ) : Prop :=
  t < τ ∧ Sees debug o g τ e ∧ ∀ u, t ≤ u → u < τ → ∃ y, e < y ∧ Sees debug o g u y

/-- Every satellite above the elevation `e` sinks to it, after at most the time it takes to cover twice the reach relative to the turning Earth. -/
theorem C71_sets (debug : Bool) (o : Elements) (g : Vec) (hg : 0 < length g) (hρ : length g < o.radius - 9)
    (hn : 7.292115922e-5 < meanMotion o.radius) (e : ℝ) (h0 : 0 ≤ e) (h1 : e ≤ π / 2)
    (hlow : 2 * reach (length g) (o.radius - 9) e / (meanMotion o.radius - 7.292115922e-5) < π / meanMotion o.radius)
    (t x : ℝ) (hx : Sees debug o g t x) (hxe : e < x) :
    ∃ τ, FirstSet debug o g e t τ ∧ τ ≤ t + 2 * reach (length g) (o.radius - 9) e / (meanMotion o.radius - 7.292115922e-5) := by
  have hsee := sees_elevationAt debug o g hg hρ
  have hcont := continuous_elevationAt o g hg hρ
  have hft : e < elevationAt o g t := by rw [(hsee t).unique hx]; exact hxe
  set n := meanMotion o.radius with hndef
  have hnpos : 0 < n := lt_trans (by norm_num) hn
  have hrel : 0 < n - 7.292115922e-5 := by linarith
  have hH : 0 < π / n := div_pos pi_pos hnpos
  have hend : elevationAt o g (t + π / n) < e := by
    by_contra hcon
    have := C71_pass debug o g hg hρ hn.le e h0 h1 t (π / n) _ _ hH.le (by rw [mul_div_cancel₀ _ hnpos.ne']) (hsee t) (hsee _) hft.le
      (not_lt.mp hcon)
    rw [div_lt_iff₀ hrel] at hlow
    rw [← hndef] at this
    linarith
  set S := Set.Icc t (t + π / n) ∩ {u | elevationAt o g u ≤ e} with hS
  have hScomp : IsCompact S := isCompact_Icc.inter_right (isClosed_le hcont continuous_const)
  have hSne : S.Nonempty := ⟨t + π / n, ⟨⟨by linarith, le_refl _⟩, hend.le⟩⟩
  obtain ⟨τ, ⟨⟨⟨m1, m2⟩, m3⟩, m4⟩⟩ := hScomp.exists_isLeast hSne
  have m3' : elevationAt o g τ ≤ e := m3
  have hlt : t < τ := by
    rcases eq_or_lt_of_le m1 with h | h
    · rw [← h] at m3'; linarith
    · exact h
  have heq : elevationAt o g τ = e := by
    refine le_antisymm m3' ?_
    by_contra hcon
    obtain ⟨c, ⟨c1, c2⟩, c3⟩ := intermediate_value_Icc' hlt.le hcont.continuousOn ⟨m3', hft.le⟩
    have c4 := m4 ⟨⟨c1, by linarith⟩, (by rw [Set.mem_ofPred_eq, c3])⟩
    have : c = τ := le_antisymm c2 c4
    rw [this] at c3
    exact hcon c3.ge
  have hs : Sees debug o g τ e := heq ▸ hsee τ
  refine ⟨τ, ⟨hlt, hs, ?_⟩, ?_⟩
  · intro u hu1 hu2
    refine ⟨_, ?_, hsee u⟩
    by_contra hcon
    have := m4 ⟨⟨hu1, by linarith⟩, not_lt.mp hcon⟩
    linarith
  · have := C71_pass debug o g hg hρ hn.le e h0 h1 t (τ - t) _ e (by linarith) (by
      rw [← hndef]
      calc n * (τ - t) ≤ n * (π / n) := by gcongr; linarith
        _ = π := by rw [mul_div_cancel₀ _ hnpos.ne']) (hsee t) (by rw [add_sub_cancel]; exact hs) hft.le (le_refl _)
    have : τ - t ≤ 2 * reach (length g) (o.radius - 9) e / (n - 7.292115922e-5) := by
      rw [le_div_iff₀ hrel]; linarith
    linarith

/-- For altitudes up to 10000 km and ground points outside the sphere of radius 6371 km, a pass is shorter than half an orbit by more than a second. -/
theorem C71_leo (o : Elements) (g : Vec) (hg : 6371000 ≤ length g) (hρ : length g < o.radius - 9) (halt : o.radius ≤ 6371009 + 10000000)
    (e : ℝ) (h0 : 0 ≤ e) (h1 : e ≤ π / 2) :
    7.292115922e-5 < meanMotion o.radius ∧
      2 * reach (length g) (o.radius - 9) e / (meanMotion o.radius - 7.292115922e-5) + 1.1 < π / meanMotion o.radius := by
  have hr0 : 0 < o.radius := by linarith
  have hgp : 0 < length g := by linarith
  have hsq := meanMotion_sq hr0
  have hnp := meanMotion_pos hr0
  set n := meanMotion o.radius
  set r := o.radius
  set R := length g
  have hr3 : 0 < r ^ 3 := by positivity
  rw [eq_div_iff hr3.ne'] at hsq
  have hn1 : 7.292115922e-5 < n := by
    apply lt_of_pow_lt_pow_left₀ 2 hnp.le
    have : r ^ 3 ≤ (6371009 + 10000000) ^ 3 := by gcongr
    nlinarith
  have hn2 : n < 1.3e-3 := by
    apply lt_of_pow_lt_pow_left₀ 2 (by norm_num)
    have : (6371009 : ℝ) ^ 3 ≤ r ^ 3 := by gcongr; linarith
    nlinarith
  refine ⟨hn1, ?_⟩
  -- the reach is at most that of the horizon
  have hreach : reach R (r - 9) e ≤ π / 2 - R / (r - 9) := by
    have hsin : 0 ≤ sin e := sin_nonneg_of_nonneg_of_le_pi h0 (by linarith [pi_pos])
    have hc := cos_reach hgp hρ (abs_cos_le_one e)
    have hcs := sin_sq_add_cos_sq e
    have hw : R * sin e ≤ √((r - 9) ^ 2 - R ^ 2 * cos e ^ 2) := by
      apply le_sqrt_of_sq_le
      nlinarith
    have h2 : R ≤ (r - 9) * cos (reach R (r - 9) e) := by
      rw [hc]
      nlinarith
    have h3 : R / (r - 9) ≤ sin (π / 2 - reach R (r - 9) e) := by
      rw [sin_pi_div_two_sub, div_le_iff₀ (by linarith)]
      linarith
    have h4 := sin_le (x := π / 2 - reach R (r - 9) e) (by linarith [reach_le hgp hρ h0 h1])
    linarith
  have hA : π * 7.292115922e-5 * (r - 9) < n * 12718000 := by
    apply lt_of_pow_lt_pow_left₀ 2 (by positivity)
    have hpi : π * 7.292115922e-5 ≤ 3.1416 * 7.292115922e-5 := by gcongr; exact pi_lt_d4.le
    have l1 : (π * 7.292115922e-5 * (r - 9)) ^ 2 ≤ (3.1416 * 7.292115922e-5 * (6371009 + 10000000)) ^ 2 := by
      apply pow_le_pow_left₀ (mul_nonneg (by positivity) (by linarith))
      apply mul_le_mul hpi (by linarith) (by linarith) (by norm_num)
    have l2 : r ^ 3 ≤ (6371009 + 10000000) ^ 3 := by gcongr
    nlinarith
  have hq : 2 * (R / (r - 9)) * (r - 9) = 2 * R := by
    have : r - 9 ≠ 0 := by linarith
    field_simp
  have hrel : 0 < n - 7.292115922e-5 := by linarith
  have hlast : 1.1 * (n * (n - 7.292115922e-5)) + π * 7.292115922e-5 < 2 * (R / (r - 9)) * n := by
    have hρ0 : 0 < r - 9 := by linarith
    apply lt_of_mul_lt_mul_right _ hρ0.le
    have k1 : n * (n - 7.292115922e-5) ≤ n * n := by gcongr; linarith
    have k2 : n * n * (r - 9) ≤ n * (1.3e-3 * (6371009 + 10000000)) := by
      rw [mul_assoc]
      gcongr
      linarith
    have k3 : n * (n - 7.292115922e-5) * (r - 9) ≤ n * n * (r - 9) := by gcongr
    have k4 : n * 6371000 ≤ n * R := by gcongr
    nlinarith
  rw [lt_div_iff₀ hnp, add_mul, div_mul_eq_mul_div, ← lt_sub_iff_add_lt, div_lt_iff₀ hrel]
  nlinarith

/-- For altitudes up to 2000 km a pass is shorter than half an orbit by more than 900 seconds. -/
theorem C71_leo_2000 (o : Elements) (g : Vec) (hg : 6371000 ≤ length g) (hρ : length g < o.radius - 9) (halt : o.radius ≤ 6371009 + 2000000)
    (e : ℝ) (h0 : 0 ≤ e) (h1 : e ≤ π / 2) :
    7.292115922e-5 < meanMotion o.radius ∧
      2 * reach (length g) (o.radius - 9) e / (meanMotion o.radius - 7.292115922e-5) + 900.1 < π / meanMotion o.radius := by
  have hr0 : 0 < o.radius := by linarith
  have hgp : 0 < length g := by linarith
  have hsq := meanMotion_sq hr0
  have hnp := meanMotion_pos hr0
  set n := meanMotion o.radius
  set r := o.radius
  set R := length g
  have hr3 : 0 < r ^ 3 := by positivity
  rw [eq_div_iff hr3.ne'] at hsq
  have hn1 : 7.292115922e-5 < n := by
    apply lt_of_pow_lt_pow_left₀ 2 hnp.le
    have : r ^ 3 ≤ (6371009 + 2000000) ^ 3 := by gcongr
    nlinarith
  have hn2 : n < 1.3e-3 := by
    apply lt_of_pow_lt_pow_left₀ 2 (by norm_num)
    have : (6371009 : ℝ) ^ 3 ≤ r ^ 3 := by gcongr; linarith
    nlinarith
  refine ⟨hn1, ?_⟩
  -- the reach is at most that of the horizon
  have hreach : reach R (r - 9) e ≤ π / 2 - R / (r - 9) := by
    have hsin : 0 ≤ sin e := sin_nonneg_of_nonneg_of_le_pi h0 (by linarith [pi_pos])
    have hc := cos_reach hgp hρ (abs_cos_le_one e)
    have hcs := sin_sq_add_cos_sq e
    have hw : R * sin e ≤ √((r - 9) ^ 2 - R ^ 2 * cos e ^ 2) := by
      apply le_sqrt_of_sq_le
      nlinarith
    have h2 : R ≤ (r - 9) * cos (reach R (r - 9) e) := by
      rw [hc]
      nlinarith
    have h3 : R / (r - 9) ≤ sin (π / 2 - reach R (r - 9) e) := by
      rw [sin_pi_div_two_sub, div_le_iff₀ (by linarith)]
      linarith
    have h4 := sin_le (x := π / 2 - reach R (r - 9) e) (by linarith [reach_le hgp hρ h0 h1])
    linarith
  have hA : π * 7.292115922e-5 * (r - 9) < n * 2900000 := by
    apply lt_of_pow_lt_pow_left₀ 2 (by positivity)
    have hpi : π * 7.292115922e-5 ≤ 3.1416 * 7.292115922e-5 := by gcongr; exact pi_lt_d4.le
    have l1 : (π * 7.292115922e-5 * (r - 9)) ^ 2 ≤ (3.1416 * 7.292115922e-5 * (6371009 + 2000000)) ^ 2 := by
      apply pow_le_pow_left₀ (mul_nonneg (by positivity) (by linarith))
      apply mul_le_mul hpi (by linarith) (by linarith) (by norm_num)
    have l2 : r ^ 3 ≤ (6371009 + 2000000) ^ 3 := by gcongr
    nlinarith
  have hq : 2 * (R / (r - 9)) * (r - 9) = 2 * R := by
    have : r - 9 ≠ 0 := by linarith
    field_simp
  have hrel : 0 < n - 7.292115922e-5 := by linarith
  have hlast : 900.1 * (n * (n - 7.292115922e-5)) + π * 7.292115922e-5 < 2 * (R / (r - 9)) * n := by
    have hρ0 : 0 < r - 9 := by linarith
    apply lt_of_mul_lt_mul_right _ hρ0.le
    have k1 : n * (n - 7.292115922e-5) ≤ n * n := by gcongr; linarith
    have k2 : n * n * (r - 9) ≤ n * (1.3e-3 * (6371009 + 2000000)) := by
      rw [mul_assoc]
      gcongr
      linarith
    have k3 : n * (n - 7.292115922e-5) * (r - 9) ≤ n * n * (r - 9) := by gcongr
    have k4 : n * 6371000 ≤ n * R := by gcongr
    nlinarith
  rw [lt_div_iff₀ hnp, add_mul, div_mul_eq_mul_div, ← lt_sub_iff_add_lt, div_lt_iff₀ hrel]
  nlinarith

/-! ## The elevation tracker -/

open Tracker

/-- What an elevation tracker at `g` is told about the satellites: the elevations are those of the orbits; the periods are right to the
nanosecond; a reported setting time is not in the past and at most `δ` nanoseconds after the satellite has sunk to the minimum elevation. -/
structure Faithful {D : Type} (debug : Bool) (orb : D → Elements) (g : Vec) (minE : ℝ) (δ : Nat) (v : Nat → View D ℝ) : Prop where
  elevation : ∀ (t : Nat) d, Sees debug (orb d) g (t / 10 ^ 9) ((v t).elevation d)
  period : ∀ (t : Nat) d, ∃ T, orbitalPeriod (orb d) = .ok T ∧ |((v t).period d : ℝ) - T * 10 ^ 9| ≤ 1
  later : ∀ (t : Nat) d b, (v t).setting d = some b → t ≤ b
  setting : ∀ (t : Nat) d b, minE < (v t).elevation d → (v t).setting d = some b →
    ∃ τ, FirstSet debug (orb d) g minE (t / 10 ^ 9) τ ∧ (b : ℝ) ≤ τ * 10 ^ 9 + δ

/-- A ground point and orbits above it for which a pass above `minE`, prolonged by `δ` nanoseconds, is shorter than half an orbit (by two nanoseconds). -/
structure Low {D : Type} (orb : D → Elements) (g : Vec) (minE : ℝ) (δ : Nat) : Prop where
  ground : 0 < length g
  above : ∀ d, length g < (orb d).radius - 9
  faster : ∀ d, 7.292115922e-5 < meanMotion (orb d).radius
  short : ∀ d, 2 * reach (length g) ((orb d).radius - 9) minE / (meanMotion (orb d).radius - 7.292115922e-5) + (δ + 2) / 10 ^ 9 <
    π / meanMotion (orb d).radius

/-- Altitudes up to 10000 km allow a search that is one second late, altitudes up to 2000 km one that is 900 seconds late. -/
theorem C71_low {D : Type} (orb : D → Elements) (g : Vec) (hg : 6371000 ≤ length g) (habove : ∀ d, length g < (orb d).radius - 9)
    (minE : ℝ) (h0 : 0 ≤ minE) (h1 : minE ≤ π / 2) (δ : Nat)
    (halt : (δ ≤ 10 ^ 9 ∧ ∀ d, (orb d).radius ≤ 6371009 + 10000000) ∨ (δ ≤ 900 * 10 ^ 9 ∧ ∀ d, (orb d).radius ≤ 6371009 + 2000000)) :
    Low orb g minE δ := by
  rcases halt with ⟨hδ, hr⟩ | ⟨hδ, hr⟩
  · have hδ' : (δ : ℝ) ≤ 10 ^ 9 := by exact_mod_cast hδ
    have k := fun d => C71_leo (orb d) g hg (habove d) (hr d) minE h0 h1
    refine ⟨by linarith, habove, fun d => (k d).1, fun d => lt_trans ?_ (k d).2⟩
    have : ((δ : ℝ) + 2) / 10 ^ 9 < 1.1 := by rw [div_lt_iff₀ (by positivity)]; linarith
    linarith
  · have hδ' : (δ : ℝ) ≤ 900 * 10 ^ 9 := by exact_mod_cast hδ
    have k := fun d => C71_leo_2000 (orb d) g hg (habove d) (hr d) minE h0 h1
    refine ⟨by linarith, habove, fun d => (k d).1, fun d => lt_trans ?_ (k d).2⟩
    have : ((δ : ℝ) + 2) / 10 ^ 9 < 900.1 := by rw [div_lt_iff₀ (by positivity)]; linarith
    linarith

theorem FirstSet.unique {debug : Bool} {o : Elements} {g : Vec} {e t τ τ' : ℝ} (h : FirstSet debug o g e t τ)
    (h' : FirstSet debug o g e t τ') : τ = τ' := by
  rcases lt_trichotomy τ τ' with hlt | heq | hgt
  · obtain ⟨y, hy, hs⟩ := h'.2.2 τ h.1.le hlt
    rw [hs.unique h.2.1] at hy
    exact absurd hy (lt_irrefl _)
  · exact heq
  · obtain ⟨y, hy, hs⟩ := h.2.2 τ' h'.1.le hgt
    rw [hs.unique h'.2.1] at hy
    exact absurd hy (lt_irrefl _)

/-- The assertion in `getVisibleSats`: every visible satellite sets within half an orbit. -/
theorem C71_soon {D : Type} (debug : Bool) (orb : D → Elements) (g : Vec) (minE : ℝ) (h0 : 0 ≤ minE) (h1 : minE ≤ π / 2)
    (δ : Nat) (hlow : Low orb g minE δ) (v : Nat → View D ℝ) (hv : Faithful debug orb g minE δ v) (t : Nat) (hist : List (Nat × Nat × D)) :
    Soon (v t) minE t hist := by
  rintro ⟨p, i, d⟩ - b ⟨hc1, hc2⟩
  simp only at hc1 hc2 ⊢
  have hgp := hlow.ground
  have k1 := hlow.faster d
  have k2 := hlow.short d
  obtain ⟨τ, hτ, hb⟩ := hv.setting t d b hc1 hc2
  obtain ⟨τ', hτ', hle⟩ := C71_sets debug (orb d) g hgp (hlow.above d) k1 minE h0 h1
    (lt_trans (lt_add_of_pos_right _ (by positivity)) k2) (t / 10 ^ 9) _ (hv.elevation t d) hc1
  rw [← hτ.unique hτ'] at hle
  obtain ⟨T, hT, hP⟩ := hv.period t d
  have hr0 : 0 < (orb d).radius := by have := hlow.above d; linarith
  obtain ⟨T', hT', hTpos, hTn, -⟩ := C45_kepler (orb d) hr0
  rw [hT] at hT'
  simp only [Outcome.ok.injEq] at hT'
  subst hT'
  have hn := meanMotion_pos hr0
  have hhalf : π / meanMotion (orb d).radius = T / 2 := by
    rw [div_eq_div_iff hn.ne' two_ne_zero]; linarith
  rw [hhalf] at k2
  have hP1 := (abs_le.mp hP).1
  have k3 : ((δ : ℝ) + 2) / 10 ^ 9 * 10 ^ 9 = δ + 2 := by field_simp
  have hlt : (b : ℝ) < t + (((v t).period d : ℝ) / 2 - 1) := by
    have e1 : (t : ℝ) / 10 ^ 9 * 10 ^ 9 = t := by field_simp
    have e2 : τ * 10 ^ 9 ≤ t + 2 * reach (length g) ((orb d).radius - 9) minE / (meanMotion (orb d).radius - 7.292115922e-5) * 10 ^ 9 := by
      have := mul_le_mul_of_nonneg_right hle (by positivity : (0 : ℝ) ≤ 10 ^ 9)
      rw [add_mul, e1] at this
      exact this
    linarith
  have h3 : (((v t).period d : ℝ) / 2 - 1) < ((v t).period d / 2 : Nat) := by
    have : (v t).period d < 2 * ((v t).period d / 2) + 2 := by omega
    have h4 : ((v t).period d : ℝ) < 2 * (((v t).period d / 2 : Nat) : ℝ) + 2 := by exact_mod_cast this
    linarith
  have : (b : ℝ) < ((t + (v t).period d / 2 : Nat) : ℝ) := by push_cast at h3 ⊢; linarith
  exact_mod_cast this

/-- As long as the search finds a visible satellite whenever it is asked, no execution of the tracker fails, in either build; and between two
updates the tracked satellite stays above the minimum elevation, except perhaps for the last `δ` nanoseconds. -/
theorem C71_tracker {D : Type} {e : Endian} {hasOrbit : D → Bool} {cid n sz : Nat} {hist : Nat → List (Nat × Nat × D)} {as : Nat → List SatAddress}
    {c : Nat → Constellation D} (hc : ∀ t, Built e hasOrbit cid n sz (hist t) (as t) (c t)) (hfull : ∀ t, Full n sz (hist t)) (debug : Bool)
    (addr : D → SatAddress) (orb : D → Elements) (g : Vec) (minE : ℝ) (h0 : 0 ≤ minE) (h1 : minE ≤ π / 2)
    (δ : Nat) (hlow : Low orb g minE δ) (v : Nat → View D ℝ) (hv : Faithful debug orb g minE δ v)
    (hcover : ∀ t, ∃ x ∈ hist t, ∃ b, Candidate (v t) minE x.2.2 b) {t0 : Nat} {r : SatAddress} {ops : List Tracker.Op} {res : Outcome (Sys Unit)}
    (h : runFrom (Tracker.step (elevationFire debug addr true v minE c)) (elevationInit t0 r) ops = some res) :
    ∃ s, res = .ok s ∧ ∀ (k t : Nat) (a : SatAddress), (updates s)[k]? = some (t, a) →
      ∃ p i d b, (p, i, d) ∈ hist t ∧ a = addr d ∧ t ≤ b ∧
        (match (updates s)[k + 1]? with | some x => x.1 = b | none => s.pending = [(b, ())] ∧ s.clock ≤ b) ∧
        ∀ u : ℝ, (t : ℝ) ≤ u * 10 ^ 9 → u * 10 ^ 9 + δ < b → ∃ y, minE < y ∧ Sees debug (orb d) g u y := by
  have hsoon : debug = true → ∀ t, Soon (v t) minE t (hist t) := fun _ t => C71_soon debug orb g minE h0 h1 δ hlow v hv t (hist t)
  have hlater : ∀ t, ∀ x ∈ hist t, ∀ b, (v t).setting x.2.2 = some b → t ≤ b := fun t x _ b hb => hv.later t x.2.2 b hb
  have hok : ∃ s, res = .ok s := by
    revert h
    apply run_no_fault
    intro ops o s res _ hs
    cases o with
    | outside t a =>
      simp only [Tracker.step] at hs
      split at hs
      · simp only [Option.some.injEq] at hs; exact ⟨_, hs.symm⟩
      · simp at hs
    | run =>
      unfold Tracker.step at hs
      match hp : s.pending with
      | [] => simp [hp] at hs
      | (t, call) :: es =>
        simp only [hp, Option.some.injEq] at hs
        obtain ⟨u1, -⟩ := C43_update (hc t) (hfull t) debug addr (v t) minE t (fun hd => hsoon hd t) (hlater t)
        obtain ⟨vis, a, delay, hu, -⟩ := u1 (hcover t)
        simp only [elevationFire, hu, Outcome.bind_ok] at hs
        exact ⟨_, hs.symm⟩
  obtain ⟨s, rfl⟩ := hok
  refine ⟨s, rfl, ?_⟩
  obtain ⟨-, -, hch, -⟩ := C43_chain hc hfull debug addr v minE hsoon hlater h
  intro k t a hk
  obtain ⟨b, ⟨⟨p, i, d, hd, rfl, hcand⟩, -⟩, hnext⟩ := hch k t a hk
  refine ⟨p, i, d, b, hd, rfl, hv.later t d b hcand.2, hnext, ?_⟩
  intro u hu1 hu2
  obtain ⟨τ, hτ, hb⟩ := hv.setting t d b hcand.1 hcand.2
  refine hτ.2.2 u ?_ ?_
  · rw [div_le_iff₀ (by positivity)]; exact hu1
  · have : u * 10 ^ 9 < τ * 10 ^ 9 := by linarith
    exact lt_of_mul_lt_mul_right this (by positivity)

/-- If every visible satellite is reported to set at this very nanosecond, the tracker updates for ever without time passing. -/
theorem C71_stuck {D : Type} {e : Endian} {hasOrbit : D → Bool} {cid n sz : Nat} {hist : List (Nat × Nat × D)} {as : List SatAddress}
    {c : Nat → Constellation D} {t0 : Nat} (hc : Built e hasOrbit cid n sz hist as (c t0)) (hfull : Full n sz hist) (debug : Bool)
    (addr : D → SatAddress) (v : Nat → View D ℝ) (minE : ℝ) (hper : ∀ x ∈ hist, 2 ≤ (v t0).period x.2.2)
    (hsome : ∃ x ∈ hist, minE < (v t0).elevation x.2.2)
    (hnow : ∀ x ∈ hist, minE < (v t0).elevation x.2.2 → (v t0).setting x.2.2 = some t0)
    (hlater : ∀ x ∈ hist, ∀ b, (v t0).setting x.2.2 = some b → t0 ≤ b) (r : SatAddress) (k : Nat) :
    ∃ s, runFrom (Tracker.step (elevationFire debug addr true v minE c)) (elevationInit t0 r) (List.replicate k .run) = some (.ok s) ∧
      s.clock = t0 ∧ s.pending = [(t0, ())] ∧ (updates s).length = k := by
  have hsoon : Soon (v t0) minE t0 hist := by
    intro x hx b hb
    have h1 := hnow x hx hb.1
    rw [hb.2] at h1
    simp only [Option.some.injEq] at h1
    have := hper x hx
    omega
  obtain ⟨u1, -⟩ := C43_update hc hfull debug addr (v t0) minE t0 (fun _ => hsoon) hlater
  obtain ⟨x, hx, hxe⟩ := hsome
  obtain ⟨vis, a, delay, hu, ⟨⟨p, i, d, hd, -, hcand⟩, -⟩⟩ := u1 ⟨x, hx, t0, hxe, hnow x hx hxe⟩
  have hdel : delay = 0 := by
    have h1 := hnow _ hd hcand.1
    rw [hcand.2] at h1
    simp only [Option.some.injEq] at h1
    omega
  subst hdel
  induction k with
  | zero => exact ⟨_, rfl, rfl, rfl, rfl⟩
  | succ k ih =>
    obtain ⟨s, h1, h2, h3, h4⟩ := ih
    refine ⟨{ clock := t0, remote := a, pending := [(t0, ())], log := s.log ++ [(t0, true, a)] }, ?_, rfl, rfl, ?_⟩
    · rw [List.replicate_succ', runFrom_append, h1]
      simp [runFrom, Tracker.step, h3, elevationFire, hu, insertEvent]
    · simp only [updates, List.filter_append, List.map_append, List.length_append]
      have : (List.map (fun x : Nat × Bool × SatAddress => (x.1, x.2.2)) (List.filter (fun x => x.2.1) s.log)).length = k := h4
      rw [this]
      rfl

/-- That happens with a perfect search: the satellite tracked sinks to the minimum elevation in the middle of a nanosecond, and when that
nanosecond begins no other satellite is visible. -/
theorem C71_stuck_exact (debug : Bool) (o : Elements) (g : Vec) (minE : ℝ) (t : Nat) (τ : ℝ) (h : FirstSet debug o g minE (t / 10 ^ 9) τ)
    (hfrac : ((⌊τ * 10 ^ 9⌋₊ : ℕ) : ℝ) < τ * 10 ^ 9) (τ' : ℝ)
    (h' : FirstSet debug o g minE (⌊τ * 10 ^ 9⌋₊ / 10 ^ 9) τ') :
    ⌊τ' * 10 ^ 9⌋₊ = ⌊τ * 10 ^ 9⌋₊ ∧ ∃ y, minE < y ∧ Sees debug o g (⌊τ * 10 ^ 9⌋₊ / 10 ^ 9) y := by
  have hτ : (t : ℝ) ≤ τ * 10 ^ 9 := by
    have := h.1
    rw [div_lt_iff₀ (by positivity)] at this
    exact this.le
  have hb1 : (⌊τ * 10 ^ 9⌋₊ / 10 ^ 9 : ℝ) < τ := by rw [div_lt_iff₀ (by positivity)]; exact hfrac
  have hb0 : (t : ℝ) / 10 ^ 9 ≤ ⌊τ * 10 ^ 9⌋₊ / 10 ^ 9 := by
    have : t ≤ ⌊τ * 10 ^ 9⌋₊ := Nat.le_floor hτ
    gcongr
  have h2 : FirstSet debug o g minE (⌊τ * 10 ^ 9⌋₊ / 10 ^ 9) τ := ⟨hb1, h.2.1, fun u hu1 hu2 => h.2.2 u (hb0.trans hu1) hu2⟩
  exact ⟨by rw [h2.unique h'], h2.2.2 _ (le_refl _) h2.1⟩

/-- Not every visible satellite sets: there is a circular orbit on which a satellite stays in the zenith of a ground point for ever. -/
theorem C71_geostationary : ∃ r, 6371009 < r ∧ meanMotion r = 7.292115922e-5 ∧
    ∀ (debug : Bool) (t : ℝ), Sees debug ⟨0, 0, r, 0⟩ (6371000, 0, 0) t (π / 2) ∧
      ∀ e < π / 2, ¬ ∃ τ, FirstSet debug ⟨0, 0, r, 0⟩ (6371000, 0, 0) e t τ := by
  obtain ⟨r, hr0, hr3⟩ : ∃ r : ℝ, 0 ≤ r ∧ r ^ 3 = 6.67430e-11 * 5.97e24 / 7.292115922e-5 ^ 2 := by
    refine ⟨(6.67430e-11 * 5.97e24 / 7.292115922e-5 ^ 2) ^ ((3 : ℝ)⁻¹), by positivity, ?_⟩
    rw [← rpow_natCast, ← rpow_mul (by positivity)]
    norm_num
  have hbig : 6371009 < r := by
    apply lt_of_pow_lt_pow_left₀ 3 hr0
    rw [hr3]
    norm_num
  have hn : meanMotion r = 7.292115922e-5 := by
    unfold meanMotion
    rw [hr3, div_div_cancel₀ (by norm_num)]
    exact sqrt_sq (by norm_num)
  have hall : ∀ (debug : Bool) (t : ℝ), Sees debug ⟨0, 0, r, 0⟩ (6371000, 0, 0) t (π / 2) := by
    intro debug t
    obtain ⟨p, h1, h2⟩ := C46_rotated debug ⟨0, 0, r, 0⟩ (by simp only; linarith) t
    rw [C45_position debug _ (by simp only; linarith)] at h1
    simp only [Outcome.ok.injEq] at h1
    subst h1
    refine ⟨_, h2, ?_⟩
    have hpos : smul ((r - 9) / r) (rotZ (-(7.292115922e-5 * t)) (circlePoint ⟨0, 0, r, 0⟩ (meanMotion r * t + 0))) = (r - 9, 0, 0) := by
      have hr : r ≠ 0 := by linarith
      have e3 := sin_sq_add_cos_sq (7.292115922e-5 * t)
      rw [hn]
      simp only [smul, rotZ, circlePoint, rotX, cos_neg, sin_neg, sin_zero, cos_zero, Prod.mk.injEq, add_zero]
      refine ⟨?_, ?_, ?_⟩
      · field_simp
        linear_combination r * (r - 9) * e3
      · ring
      · ring
    simp only at hpos ⊢
    rw [hpos, C48_zenith _ _ (by simp) (by simp only [ne_eq, Prod.mk.injEq, and_true]; linarith)]
    refine ⟨(r - 9) / 6371000, ?_, ?_⟩
    · rw [gt_iff_lt, lt_div_iff₀ (by norm_num)]; linarith
    · simp only [smul, mul_zero, Prod.mk.injEq, and_true]
      field_simp
  refine ⟨r, hbig, hn, ?_⟩
  intro debug t
  refine ⟨hall debug t, ?_⟩
  rintro e he ⟨τ, -, hs, -⟩
  have := hs.unique (hall debug τ)
  linarith

/-! ### Non-vacuity -/

section Examples

/-- Low orbits have a view that fulfils the conditions, with a perfect search. -/
theorem faithful_exists {D : Type} (debug : Bool) (orb : D → Elements) (g : Vec) (minE : ℝ) (h0 : 0 ≤ minE)
    (h1 : minE ≤ π / 2) (hlow : Low orb g minE 0) : ∃ v : Nat → View D ℝ, Faithful debug orb g minE 0 v ∧
      ∀ t d, minE < (v t).elevation d → ∃ b, (v t).setting d = some b := by
  classical
  have hgp := hlow.ground
  have hsee : ∀ d, _ := fun d => sees_elevationAt debug (orb d) g hgp (hlow.above d)
  have hset : ∀ (t : Nat) (d : D), ∃ τ, minE < elevationAt (orb d) g (t / 10 ^ 9) → FirstSet debug (orb d) g minE (t / 10 ^ 9) τ := by
    intro t d
    by_cases hv : minE < elevationAt (orb d) g (t / 10 ^ 9)
    · obtain ⟨τ, hτ, -⟩ := C71_sets debug (orb d) g hgp (hlow.above d) (hlow.faster d) minE h0 h1
        (lt_trans (lt_add_of_pos_right _ (by positivity)) (hlow.short d)) (t / 10 ^ 9) _ (hsee d _) hv
      exact ⟨τ, fun _ => hτ⟩
    · exact ⟨0, fun h => absurd h hv⟩
  choose τ hτ using hset
  have hper : ∀ d, ∃ T, orbitalPeriod (orb d) = .ok T ∧ 0 < T := by
    intro d
    obtain ⟨T, hT, hpos, -⟩ := C45_kepler (orb d) (by have := hlow.above d; linarith)
    exact ⟨T, hT, hpos⟩
  choose T hT hTpos using hper
  refine ⟨fun t => ⟨fun d => elevationAt (orb d) g (t / 10 ^ 9),
    fun d => if minE < elevationAt (orb d) g (t / 10 ^ 9) then some ⌊τ t d * 10 ^ 9⌋₊ else none, fun d => ⌊T d * 10 ^ 9⌋₊⟩, ⟨?_, ?_, ?_, ?_⟩, ?_⟩
  · intro t d; exact hsee d _
  · intro t d
    refine ⟨T d, hT d, ?_⟩
    have p := hTpos d
    have l1 := Nat.floor_le (a := T d * 10 ^ 9) (by positivity)
    have l2 := Nat.lt_floor_add_one (T d * 10 ^ 9)
    rw [abs_le]
    simp only
    constructor <;> linarith
  · intro t d b hb
    simp only at hb
    split at hb
    · rename_i hv
      simp only [Option.some.injEq] at hb
      subst hb
      have := (hτ t d hv).1
      rw [div_lt_iff₀ (by positivity)] at this
      exact Nat.le_floor this.le
    · simp at hb
  · intro t d b hv hb
    simp only at hv hb
    rw [if_pos hv] at hb
    simp only [Option.some.injEq] at hb
    subst hb
    refine ⟨τ t d, hτ t d hv, ?_⟩
    have h2 := (hτ t d hv).1
    rw [div_lt_iff₀ (by positivity)] at h2
    have := Nat.floor_le (a := τ t d * 10 ^ 9) (le_trans (Nat.cast_nonneg t) h2.le)
    simpa using this
  · intro t d hv
    exact ⟨_, if_pos hv⟩

/-- Four satellites 10000 km above the equator, a quarter of a turn apart. -/
noncomputable def ringOrbit (d : Fin 4) : Elements := ⟨0, 0, 16371009, d * (π / 2)⟩

def ringSats : List (Nat × Nat × Fin 4) := [(0, 0, 0), (0, 1, 1), (0, 2, 2), (0, 3, 3)]

def ring : Constellation (Fin 4) :=
  { constellationId := 3, nPlanes := 1, planeSize := 4, planes := [[some 0, some 1, some 2, some 3]], size := 4 }

theorem ring_built : ∃ as, Built .big (fun _ => true) 3 1 4 ringSats as ring := ⟨_, by unfold Built; rfl⟩

theorem ring_full : Full 1 4 ringSats := by
  intro p i hp hi
  have : p = 0 := by omega
  subst this
  match i, hi with
  | 0, _ => exact ⟨0, by decide⟩
  | 1, _ => exact ⟨1, by decide⟩
  | 2, _ => exact ⟨2, by decide⟩
  | 3, _ => exact ⟨3, by decide⟩

theorem ring_low : Low ringOrbit (6371000, 0, 0) 0 0 := by
  have hl : length (6371000, 0, 0) = 6371000 := by
    unfold length
    simp
  refine C71_low _ _ (by rw [hl]) ?_ 0 (le_refl _) (by positivity) 0 (.inl ⟨by norm_num, ?_⟩)
  · intro d; rw [hl]; simp only [ringOrbit]; norm_num
  · intro d; simp only [ringOrbit]; norm_num

/-- A station on the equator always sees one of them above the horizon. -/
theorem ring_covers (debug : Bool) (t : ℝ) : ∃ d x, Sees debug (ringOrbit d) (6371000, 0, 0) t x ∧ 0 < x := by
  have hl : length (6371000, 0, 0) = 6371000 := by
    unfold length
    simp
  have key : ∀ d : Fin 4, 0.5 < cos (meanMotion 16371009 * t + d * (π / 2) - 7.292115922e-5 * t) →
      ∃ x, Sees debug (ringOrbit d) (6371000, 0, 0) t x ∧ 0 < x := by
    intro d hd
    have hsee := sees_elevationAt debug (ringOrbit d) (6371000, 0, 0) (by rw [hl]; norm_num) (ring_low.above d) t
    refine ⟨_, hsee, ?_⟩
    unfold elevationAt
    rw [arcsin_pos]
    have hdot : 0 < dot (6371000, 0, 0) (sub (smul (((ringOrbit d).radius - 9) / (ringOrbit d).radius) (rotZ (-(7.292115922e-5 * t))
        (circlePoint (ringOrbit d) (meanMotion (ringOrbit d).radius * t + (ringOrbit d).phase)))) (6371000, 0, 0)) := by
      rw [cos_sub] at hd
      simp only [ringOrbit, dot, sub, smul, rotZ, circlePoint, rotX, cos_neg, sin_neg, sin_zero, cos_zero]
      nlinarith
    refine div_pos hdot (mul_pos (by rw [hl]; norm_num) (length_pos ?_))
    intro h
    rw [h] at hdot
    simp [dot] at hdot
  set a := (meanMotion 16371009 - 7.292115922e-5) * t with ha
  have hcs := sin_sq_add_cos_sq a
  have pick : ∀ d : Fin 4, 0.5 < cos (a + d * (π / 2)) → ∃ d x, Sees debug (ringOrbit d) (6371000, 0, 0) t x ∧ 0 < x := by
    intro d hd
    exact ⟨d, key d (by rw [show meanMotion 16371009 * t + d * (π / 2) - 7.292115922e-5 * t = a + d * (π / 2) by rw [ha]; ring]; exact hd)⟩
  by_cases h0 : 0.5 < cos a
  · exact pick 0 (by simpa using h0)
  by_cases h1 : 0.5 < -sin a
  · refine pick 1 ?_
    rw [show a + ((1 : Fin 4) : ℕ) * (π / 2) = a + π / 2 by simp, cos_add_pi_div_two]
    exact h1
  by_cases h2 : 0.5 < -cos a
  · refine pick 2 ?_
    rw [show a + ((2 : Fin 4) : ℕ) * (π / 2) = a + π by simp; ring, cos_add_pi]
    exact h2
  · refine pick 3 ?_
    rw [show a + ((3 : Fin 4) : ℕ) * (π / 2) = (a + π / 2) + π by simp; ring, cos_add_pi, cos_add_pi_div_two, neg_neg]
    nlinarith

/-- The conditions of `C71_tracker` can be met for ever. -/
example (debug : Bool) : ∃ v : Nat → View (Fin 4) ℝ, Faithful debug ringOrbit (6371000, 0, 0) 0 0 v ∧
    ∀ t, ∃ x ∈ ringSats, ∃ b, Candidate (v t) 0 x.2.2 b := by
  obtain ⟨v, hv, hs⟩ := faithful_exists debug ringOrbit _ 0 (le_refl _) (by positivity) ring_low
  refine ⟨v, hv, ?_⟩
  intro t
  obtain ⟨d, x, hd, hx⟩ := ring_covers debug (t / 10 ^ 9)
  rw [hd.unique (hv.elevation t d)] at hx
  obtain ⟨b, hb⟩ := hs t d hx
  refine ⟨(0, d, d), ?_, b, hx, hb⟩
  fin_cases d <;> simp [ringSats]

/-- The conditions of `C71_stuck` can be met: all four satellites visible and about to set. -/
example (k : Nat) : ∃ s, runFrom (Tracker.step (elevationFire true (fun d : Fin 4 => SatAddress.mk3 .big 3 0 (UInt16.ofNat d)) true
      (fun t => (⟨fun _ => 0.5, fun _ => some t, fun _ => 100⟩ : View (Fin 4) ℝ)) (0.4 : ℝ) (fun _ => ring))) (elevationInit 7 ⟨0, 0, 0⟩) (List.replicate k .run) =
      some (.ok s) ∧ s.clock = 7 ∧ s.pending = [(7, ())] ∧ (updates s).length = k := by
  obtain ⟨as, hb⟩ := ring_built
  refine C71_stuck (c := fun _ => ring) hb ring_full true _ _ _ ?_ ⟨(0, 0, 0), by simp [ringSats], by norm_num⟩ ?_ ?_ _ _
  · intro x _; norm_num
  · intro x _ _; rfl
  · intro x _ b hb; simp only [Option.some.injEq] at hb; omega

end Examples

end Orbit
end Icarus
