import Verif.Model.Queries
import Verif.Props.Passes
import Verif.Props.Observer

/-!
# C83: queries of a satellite's mobility model
-/

set_option autoImplicit false

namespace Icarus
namespace Orbit

open Real

/-! ## Before the launch -/

/-- Before the launch every query aborts in every build, except two: the orbital period dereferences a null pointer, and the velocity is zero as
ever. -/
theorem C83_before_launch (debug : Bool) (fuel : Nat) (rf : RootFinder) (x r now : ℝ) (ground : Option Vec) :
    queryRadius none = .abort ∧ queryGroundDistance none x r = .abort ∧ getRawPosition debug none now = .abort ∧
    doGetPosition debug none now = .abort ∧ queryTryDistance debug fuel rf none x ground now = .abort ∧
    queryDistance debug fuel rf none x ground now = .abort ∧ queryElevation debug fuel rf none x ground now = .abort ∧
    tryGetNextTimeAtElevation debug fuel rf none x ground now = .abort ∧ queryPeriod none = .ub .nullDeref ∧
    queryVelocity none = (0, 0, 0) :=
  ⟨rfl, rfl, rfl, rfl, rfl, rfl, rfl, rfl, rfl, rfl⟩

/-- After a launch, at whatever altitude above the ground, the radius, the period and the position are defined, and only the last launch counts. -/
theorem C83_launched (debug : Bool) (i Ω h φ i' Ω' h' φ' now : ℝ) (hh : 0 ≤ h) (sat : Option Elements) :
    launch i Ω h φ (launch i' Ω' h' φ' sat) = launch i Ω h φ sat ∧ queryRadius (launch i Ω h φ sat) = .ok (h + 6371009) ∧
    (∃ T, queryPeriod (launch i Ω h φ sat) = .ok T ∧ 0 < T ∧ T ^ 2 * (6.67430e-11 * 5.97e24) = 4 * π ^ 2 * (h + 6371009) ^ 3) ∧
    ∃ p, getRawPosition debug (launch i Ω h φ sat) now = .ok p ∧ length p = h + 6371009 := by
  have hr : 0 < (launchSat i Ω h φ).radius := by
    show 0 < h + 6371009
    linarith
  refine ⟨rfl, rfl, ?_, ?_⟩
  · obtain ⟨T, hT, h0, -, h1⟩ := C45_kepler _ hr
    exact ⟨T, hT, h0, h1⟩
  · exact ⟨_, C45_position debug _ hr now, length_circlePoint _ _ hr.le⟩

example : (0 : ℝ) ≤ 400000 := by norm_num

/-- A ground node without a constant position fails an assertion in debug builds and dereferences a null pointer in others. -/
theorem C83_not_static (fuel : Nat) (rf : RootFinder) (o : Elements) (x now : ℝ) :
    queryTryDistance true fuel rf (some o) x none now = .assertFail ∧ queryTryDistance false fuel rf (some o) x none now = .ub .nullDeref ∧
    queryDistance true fuel rf (some o) x none now = .assertFail ∧ queryDistance false fuel rf (some o) x none now = .ub .nullDeref ∧
    queryElevation true fuel rf (some o) x none now = .assertFail ∧ queryElevation false fuel rf (some o) x none now = .ub .nullDeref ∧
    tryGetNextTimeAtElevation true fuel rf (some o) x none now = .assertFail ∧
    tryGetNextTimeAtElevation false fuel rf (some o) x none now = .ub .nullDeref :=
  ⟨rfl, rfl, rfl, rfl, rfl, rfl, rfl, rfl⟩

/-- The velocity reported is not the one with which the satellite moves: half a period later it is on the other side of the Earth. -/
theorem C83_velocity (debug : Bool) (o : Elements) (hr : 0 < o.radius) (now : ℝ) :
    queryVelocity (some o) = (0, 0, 0) ∧ ∃ T p q, queryPeriod (some o) = .ok T ∧ getRawPosition debug (some o) now = .ok p ∧
      getRawPosition debug (some o) (now + T / 2) = .ok q ∧ q = (-p.1, -p.2.1, -p.2.2) ∧ distance p q = 2 * o.radius := by
  obtain ⟨T, hT, h0, h1, -⟩ := C45_kepler o hr
  refine ⟨rfl, T, _, _, hT, C45_position debug o hr now, C45_position debug o hr _, ?_, ?_⟩
  all_goals
    have e : meanMotion o.radius * (now + T / 2) + o.phase = meanMotion o.radius * now + o.phase + π := by linear_combination h1 / 2
    rw [e]
  · simp only [circlePoint, rotZ, rotX, cos_add_pi, sin_add_pi]
    refine Prod.ext ?_ (Prod.ext ?_ ?_) <;> simp <;> ring
  · have hopp : circlePoint o (meanMotion o.radius * now + o.phase + π) = (-(circlePoint o (meanMotion o.radius * now + o.phase)).1,
        -(circlePoint o (meanMotion o.radius * now + o.phase)).2.1, -(circlePoint o (meanMotion o.radius * now + o.phase)).2.2) := by
      simp only [circlePoint, rotZ, rotX, cos_add_pi, sin_add_pi]
      refine Prod.ext ?_ (Prod.ext ?_ ?_) <;> simp <;> ring
    have hl := length_circlePoint o (meanMotion o.radius * now + o.phase) hr.le
    rw [hopp]
    unfold distance
    refine (pow_left_inj₀ (sqrt_nonneg _) (by linarith) two_ne_zero).mp ?_
    have h2 := length_sq (circlePoint o (meanMotion o.radius * now + o.phase))
    rw [hl] at h2
    rw [show √((sub _ _).1 ^ 2 + _ ^ 2 + _ ^ 2) ^ 2 = _ from length_sq _]
    simp only [sub]
    linear_combination -4 * h2

/-! ## The two kinds of query -/

/-- The elevation queries are the distance queries for the distance that belongs to the elevation. -/
theorem C83_elevation (debug : Bool) (fuel : Nat) (rf : RootFinder) (sat : Option Elements) (e D now : ℝ) (pos : Vec)
    (hD : queryGroundDistance sat e (length pos) = .ok D) :
    queryElevation debug fuel rf sat e (some pos) now = queryDistance debug fuel rf sat D (some pos) now ∧
    tryGetNextTimeAtElevation debug fuel rf sat e (some pos) now = queryTryDistance debug fuel rf sat D (some pos) now := by
  cases sat with
  | none => exact ⟨rfl, rfl⟩
  | some o =>
    have hD' : groundDistanceAtElevation o e (length pos) = .ok D := hD
    simp [queryElevation, tryGetNextTimeAtElevation, queryTryDistance, hD']

/-- The query that waits answers what the other one answers first, asked every half period: exactly then. -/
theorem C83_first_answer (debug : Bool) (fuel : Nat) (rf : RootFinder) (o : Elements) (T : ℝ) (hT : queryPeriod (some o) = .ok T)
    (target now r : ℝ) (pos : Vec) :
    queryDistance debug fuel rf (some o) target (some pos) now = .ok r ↔
      ∃ k < fuel, queryTryDistance debug fuel rf (some o) target (some pos) (now + k * (T / 2)) = .ok (some r) ∧
        ∀ j < k, queryTryDistance debug fuel rf (some o) target (some pos) (now + j * (T / 2)) = .ok none := by
  have hT' : orbitalPeriod o = .ok T := hT
  have hobs : ∀ {ob : Observer}, observerOf debug fuel pos = .ok ob → ∀ t,
      queryTryDistance debug fuel rf (some o) target (some pos) t = findNextCross debug rf o ob target t := by
    intro ob h t
    simp [queryTryDistance, h]
  have hloop : ∀ (ob : Observer) (n : Nat) (now : ℝ), getNextTimeAtDistance debug rf o ob target n now = .ok r →
      ∃ k < n, findNextCross debug rf o ob target (now + k * (T / 2)) = .ok (some r) ∧
        ∀ j < k, findNextCross debug rf o ob target (now + (j : ℕ) * (T / 2)) = .ok none := by
    intro ob n
    induction n with
    | zero => intro now h; simp [getNextTimeAtDistance] at h
    | succ n ih =>
      intro now h
      unfold getNextTimeAtDistance at h
      cases hf : findNextCross debug rf o ob target now with
      | ok sol =>
        simp only [hf, hT', Outcome.bind_ok] at h
        cases sol with
        | some r' =>
          simp only [Outcome.ok.injEq] at h
          subst h
          exact ⟨0, by omega, by simpa using hf, by simp⟩
        | none =>
          obtain ⟨k, hk, h1, h2⟩ := ih _ h
          refine ⟨k + 1, by omega, ?_, ?_⟩
          · rw [← h1]; congr 1; push_cast; ring
          · intro j hj
            cases j with
            | zero => simpa using hf
            | succ j =>
              rw [← h2 j (by omega)]; congr 1; push_cast; ring
      | _ => simp [hf] at h
  cases hob : observerOf debug fuel pos with
  | ok ob =>
    have hq : queryDistance debug fuel rf (some o) target (some pos) now = getNextTimeAtDistance debug rf o ob target fuel now := by
      simp [queryDistance, hob]
    simp only [hq, hobs hob]
    constructor
    · exact hloop ob fuel now
    · rintro ⟨k, hk, h1, h2⟩
      exact C51_first_window hT' now r k h2 h1 fuel hk
  | _ =>
    constructor
    · intro h; simp [queryDistance, hob] at h
    · rintro ⟨k, -, h1, -⟩; simp [queryTryDistance, hob] at h1

/-! ## Latitudes out of reach -/

/-- A satellite whose orbit reaches the latitude `j` at most is never closer to an observer at a higher latitude than along the meridian. -/
theorem C83_latitude (o : Elements) (ob : Observer) (hr : 0 ≤ o.radius) (hR : 0 ≤ ob.radius) {j : ℝ} (hj0 : 0 ≤ j) (hj : |sin o.inclination| = sin j)
    (hlat : j ≤ |ob.latitude|) (hlat' : |ob.latitude| ≤ π / 2) (t : ℝ) :
    o.radius ^ 2 + ob.radius ^ 2 - 2 * o.radius * ob.radius * cos (|ob.latitude| - j) ≤ gap o ob t ^ 2 := by
  rw [gap_overhead]
  have key : overhead o ob t ≤ cos (|ob.latitude| - j) := by
    unfold overhead
    rw [show (meanMotion o.radius - earthRotation) * t + (o.phase - ob.longitude + o.ascendingNode) =
        (meanMotion o.radius * t + o.phase) - (ob.longitude + earthRotation * t - o.ascendingNode) by ring,
      show (meanMotion o.radius + earthRotation) * t + (o.phase + ob.longitude - o.ascendingNode) =
        (meanMotion o.radius * t + o.phase) + (ob.longitude + earthRotation * t - o.ascendingNode) by ring,
      cos_sub _ (_ - _), cos_add _ (_ - _)]
    generalize meanMotion o.radius * t + o.phase = u
    generalize ob.longitude + earthRotation * t - o.ascendingNode = v
    have hc : 0 ≤ cos ob.latitude := cos_nonneg_of_neg_pi_div_two_le_of_le (by linarith [neg_abs_le ob.latitude]) (le_trans (le_abs_self _) hlat')
    obtain ⟨X, hX⟩ : ∃ X, X = cos u * cos v + cos o.inclination * sin u * sin v := ⟨_, rfl⟩
    obtain ⟨s, hs⟩ : ∃ s, s = |sin o.inclination * sin u| := ⟨_, rfl⟩
    have hs0 : 0 ≤ s := by rw [hs]; positivity
    have hsj : s ≤ sin j := by
      rw [hs, abs_mul, hj]
      exact mul_le_of_le_one_right (hj ▸ abs_nonneg _) (abs_sin_le_one u)
    have hs1 : s ≤ 1 := le_trans hsj (sin_le_one j)
    have hXs : X ^ 2 ≤ 1 - s ^ 2 := by
      rw [hX, hs, sq_abs]
      have h1 := sin_sq_add_cos_sq u
      have h2 := sin_sq_add_cos_sq v
      have h3 := sin_sq_add_cos_sq o.inclination
      have : 1 - (sin o.inclination * sin u) ^ 2 - (cos u * cos v + cos o.inclination * sin u * sin v) ^ 2 =
          (cos u * sin v - cos o.inclination * sin u * cos v) ^ 2 := by
        linear_combination -h1 - (cos u ^ 2 + cos o.inclination ^ 2 * sin u ^ 2) * h2 - sin u ^ 2 * h3
      linarith [sq_nonneg (cos u * sin v - cos o.inclination * sin u * cos v)]
    have hX1 : X ≤ cos (arcsin s) := by
      rw [cos_arcsin]
      exact le_sqrt_of_sq_le hXs
    have hsin : sin (arcsin s) = s := sin_arcsin (by linarith) hs1
    have hδj : arcsin s ≤ j := by
      rcases le_or_gt j (π / 2) with h | h
      · rw [← arcsin_sin (by linarith [pi_pos]) h]
        exact monotone_arcsin hsj
      · linarith [arcsin_le_pi_div_two s]
    have hδ0 : 0 ≤ arcsin s := arcsin_nonneg.mpr hs0
    have hterm : sin ob.latitude * sin o.inclination * sin u ≤ sin |ob.latitude| * s := by
      have h1 : |sin ob.latitude| = sin |ob.latitude| := by
        rcases le_total 0 ob.latitude with h | h
        · rw [abs_of_nonneg h, abs_of_nonneg (sin_nonneg_of_nonneg_of_le_pi h (by linarith [le_abs_self ob.latitude, pi_pos]))]
        · rw [abs_of_nonpos h, sin_neg, abs_of_nonpos (sin_nonpos_of_nonpos_of_neg_pi_le h (by linarith [neg_abs_le ob.latitude, pi_pos]))]
      calc sin ob.latitude * sin o.inclination * sin u ≤ |sin ob.latitude * sin o.inclination * sin u| := le_abs_self _
        _ = sin |ob.latitude| * s := by rw [mul_assoc, abs_mul, h1, hs]
    calc _ = cos ob.latitude * X + sin ob.latitude * sin o.inclination * sin u := by rw [hX]; ring
      _ ≤ cos ob.latitude * cos (arcsin s) + sin |ob.latitude| * sin (arcsin s) := by
        rw [hsin]
        exact add_le_add (mul_le_mul_of_nonneg_left hX1 hc) hterm
      _ = cos (|ob.latitude| - arcsin s) := by rw [cos_sub, cos_abs]
      _ ≤ cos (|ob.latitude| - j) := by
        refine cos_le_cos_of_nonneg_of_le_pi ?_ ?_ ?_ <;> linarith [pi_pos]
  have := mul_le_mul_of_nonneg_left key (by positivity : 0 ≤ 2 * o.radius * ob.radius)
  linarith

/-- A ground node at such a latitude from which the satellite is never within the distance: the query that tries answers that there is no such time,
whatever the root finder does, and the query that waits never returns. -/
theorem C83_out_of_reach (debug : Bool) (fuel : Nat) (rf : RootFinder) (o : Elements) (ob : Observer) (hr : 0 < o.radius) (pos : Vec)
    (hob : observerOf debug fuel pos = .ok ob) {j target : ℝ} (hj0 : 0 ≤ j) (hj : |sin o.inclination| = sin j) (hlat : j ≤ |ob.latitude|)
    (hlat' : |ob.latitude| ≤ π / 2) (ht : 0 ≤ target)
    (hfar : target ^ 2 ≤ o.radius ^ 2 + ob.radius ^ 2 - 2 * o.radius * ob.radius * cos (|ob.latitude| - j)) (now : ℝ) :
    queryTryDistance debug fuel rf (some o) target (some pos) now = .ok none ∧
    queryDistance debug fuel rf (some o) target (some pos) now = .ub .diverged := by
  have hR : 0 ≤ ob.radius := by
    unfold observerOf at hob
    cases h : cartesianToGeographic debug fuel pos with
    | ok v =>
      simp only [h, Outcome.bind_ok, Outcome.ok.injEq] at hob
      rw [← hob]
      exact sqrt_nonneg _
    | _ => simp [h] at hob
  have hgap : ∀ t, target ≤ gap o ob t := fun t =>
    (pow_le_pow_iff_left₀ ht (gap_nonneg _ _ _) two_ne_zero).mp (le_trans hfar (C83_latitude o ob hr.le hR hj0 hj hlat hlat' t))
  constructor
  · obtain ⟨T, hT, -⟩ := C45_kepler o hr
    obtain ⟨res, h1, h2⟩ := solveLoop_some (debug := debug) hr (ob := ob) ht (iter := rf now (now + T)) (n := 1000) (k := 0)
    cases res with
    | none => simp [queryTryDistance, hob, findNextCross, hT, distanceSolver, h1]
    | some r =>
      obtain ⟨-, -, -, -, -, hacc⟩ := h2 r rfl
      rcases hacc with h | h <;> exact absurd h (not_lt.mpr (hgap _))
  · have := C51_never_close (debug := debug) (rf := rf) hr ht hgap now fuel
    simp [queryDistance, hob, this]

/-- An orbit above the equator, 629 km high, and a station on the ellipsoid at 60 degrees north: never within 6000 km. -/
example : ∃ (o : Elements) (ob : Observer) (pos : Vec), 0 < o.radius ∧ observerOf true 1 pos = .ok ob ∧ |sin o.inclination| = sin 0 ∧
    0 ≤ |ob.latitude| ∧ |ob.latitude| ≤ π / 2 ∧
    (6000000 : ℝ) ^ 2 ≤ o.radius ^ 2 + ob.radius ^ 2 - 2 * o.radius * ob.radius * cos (|ob.latitude| - 0) := by
  have hp := pi_pos
  obtain ⟨N, hN⟩ : ∃ N, N = 6378137 / √(1 - e2 * sin (π / 3) ^ 2) := ⟨_, rfl⟩
  have he : 0 ≤ e2 := mul_self_nonneg _
  have he' := e2_lt
  have hsq : sin (π / 3) ^ 2 ≤ 1 := sin_sq_le_one _
  have hroot : 0 < √(1 - e2 * sin (π / 3) ^ 2) := sqrt_pos.mpr (by nlinarith)
  have hroot1 : √(1 - e2 * sin (π / 3) ^ 2) ≤ 1 := sqrt_le_one.mpr (by nlinarith [sq_nonneg (sin (π / 3))])
  have hN1 : 6378137 ≤ N := by
    rw [hN, le_div_iff₀ hroot]
    linarith
  have hsurf := C57_surface true 0 (π / 3) 0 N (by linarith) (by linarith) (by linarith) hp hN (by rw [cos_pi_div_three]; linarith)
  refine ⟨⟨0, 0, 7000000, 0⟩, _, _, by norm_num, hsurf, by simp, abs_nonneg _, ?_, ?_⟩
  · simp only [abs_of_pos (by positivity : 0 < π / 3)]
    linarith
  · simp only [abs_of_pos (by positivity : 0 < π / 3), sub_zero, cos_pi_div_three]
    generalize length _ = R
    nlinarith [sq_nonneg (R - 3500000)]

/-- The period that `C83_first_answer` asks for. -/
example : queryPeriod (some ⟨0, 0, 7000000, 0⟩) = .ok (2 * π / meanMotion 7000000) := period7000 0

end Orbit
end Icarus
