import Verif.Model.Search
import Verif.Props.Elevation
import Mathlib.Topology.Order.IntermediateValue
import Mathlib.Analysis.SpecialFunctions.Trigonometric.Basic

/-!
# Properties of the search for crossings (exact real arithmetic)
-/

set_option autoImplicit false

namespace Icarus
namespace Orbit

open Real

/-! ## Specification -/

/-- Distance between the satellite (inertial position) and the observer turning with the Earth, at time `t`. -/
noncomputable def gap (o : Elements) (ob : Observer) (t : ℝ) : ℝ :=
  distance (circlePoint o (meanMotion o.radius * t + o.phase)) (ob.position t)

/-- The only thing assumed of the root finder: started on an interval it stays in that interval. -/
def Stays (rf : RootFinder) : Prop :=
  ∀ lo hi k, lo ≤ hi → lo ≤ (rf lo hi k).root ∧ (rf lo hi k).root ≤ hi

theorem sqDist_eq (a b : Vec) : sqDist a b = distance a b ^ 2 := by
  unfold distance sqDist
  rw [length_sq]
  rfl

theorem distanceFunction_eq (debug : Bool) (o : Elements) (hr : 0 < o.radius) (ob : Observer) (target x : ℝ) :
    distanceFunction debug o ob target x = .ok (gap o ob x ^ 2 - target ^ 2) := by
  simp [distanceFunction, C45_position debug o hr, sqDist_eq, gap]

theorem gap_nonneg (o : Elements) (ob : Observer) (t : ℝ) : 0 ≤ gap o ob t := length_nonneg _

theorem sq_sub_neg_iff {a b : ℝ} (ha : 0 ≤ a) (hb : 0 ≤ b) : a ^ 2 - b ^ 2 < 0 ↔ a < b := by
  rw [sub_neg]
  constructor
  · intro h; exact lt_of_pow_lt_pow_left₀ 2 hb h
  · intro h; exact pow_lt_pow_left₀ h ha (by norm_num)

/-- What an answer of the solver means. -/
theorem solveLoop_some {debug : Bool} {o : Elements} (hr : 0 < o.radius) {ob : Observer} {target : ℝ} (ht : 0 ≤ target) {iter : Nat → Bracket} :
    ∀ {n k : Nat}, ∃ res, solveLoop (distanceFunction debug o ob target) iter n k = .ok res ∧
      ∀ r, res = some r → ∃ j, k ≤ j ∧ j < k + n ∧ r = (iter j).root ∧ testInterval (iter j).lower (iter j).upper = some true ∧
        (gap o ob (r - 1) < target ∨ gap o ob (r + 1) < target) := by
  intro n
  induction n with
  | zero => intro k; exact ⟨none, rfl, by simp⟩
  | succ n ih =>
    intro k
    unfold solveLoop
    cases hti : testInterval (iter k).lower (iter k).upper with
    | none => exact ⟨none, by simp [hti], by simp⟩
    | some b =>
      cases b with
      | false =>
        obtain ⟨res, h1, h2⟩ := @ih (k + 1)
        refine ⟨res, by simpa [hti] using h1, ?_⟩
        intro r hres
        obtain ⟨j, j1, j2, j3⟩ := h2 r hres
        exact ⟨j, by omega, by omega, j3⟩
      | true =>
        simp only [hti, distanceFunction_eq debug o hr, Outcome.bind_ok]
        split
        · rename_i hmin
          refine ⟨_, rfl, ?_⟩
          intro r hres
          simp only [Option.some.injEq] at hres
          subst hres
          refine ⟨k, by omega, by omega, rfl, hti, ?_⟩
          rw [min_lt_iff] at hmin
          rcases hmin with h | h
          · exact .inl ((sq_sub_neg_iff (gap_nonneg _ _ _) ht).mp h)
          · exact .inr ((sq_sub_neg_iff (gap_nonneg _ _ _) ht).mp h)
        · exact ⟨none, rfl, by simp⟩

/-- Accepted by the check of the solver: closer than the target one second before or after. -/
def Accepted (o : Elements) (ob : Observer) (target r : ℝ) : Prop :=
  gap o ob (r - 1) < target ∨ gap o ob (r + 1) < target

theorem solver_ok {debug : Bool} {rf : RootFinder} (hrf : Stays rf) {o : Elements} (hr : 0 < o.radius) {ob : Observer} {target : ℝ}
    (ht : 0 ≤ target) (lo hi : ℝ) (hle : lo ≤ hi) :
    ∃ res, distanceSolver debug rf o ob target lo hi = .ok res ∧
      ∀ r, res = some r → lo ≤ r ∧ r ≤ hi ∧ Accepted o ob target r := by
  obtain ⟨res, h1, h2⟩ := solveLoop_some (debug := debug) hr (ob := ob) ht (iter := rf lo hi) (n := 1000) (k := 0)
  refine ⟨res, h1, ?_⟩
  intro r hres
  obtain ⟨j, -, -, rfl, -, hacc⟩ := h2 r hres
  exact ⟨(hrf lo hi j hle).1, (hrf lo hi j hle).2, hacc⟩

/-- The search always ends normally.  A time it returns lies within one period from now and was accepted; and it is the result of the second,
earlier search if that one has a result. -/
theorem C51_accepted {debug : Bool} {rf : RootFinder} (hrf : Stays rf) {o : Elements} (hr : 0 < o.radius) {ob : Observer} {target : ℝ}
    (ht : 0 ≤ target) (now : ℝ) :
    ∃ T res, orbitalPeriod o = .ok T ∧ findNextCross debug rf o ob target now = .ok res ∧
      (∀ r, res = some r → now ≤ r ∧ r ≤ now + T ∧ Accepted o ob target r) ∧
      (res = none ↔ distanceSolver debug rf o ob target now (now + T) = .ok none) ∧
      (∀ r0, distanceSolver debug rf o ob target now (now + T) = .ok (some r0) → ∃ r, res = some r ∧ r ≤ r0 ∧
        (r ≠ r0 → r ≤ r0 - 1) ∧
        ∀ q, now < r0 - 1 → distanceSolver debug rf o ob target now (r0 - 1) = .ok (some q) → r = q) := by
  obtain ⟨T, hT, hT0, -⟩ := C45_kepler o hr
  obtain ⟨res1, h1, h2⟩ := solver_ok (debug := debug) hrf hr (ob := ob) ht now (now + T) (by linarith)
  cases res1 with
  | none =>
    refine ⟨T, none, hT, ?_, by simp, by simp [h1], by simp [h1]⟩
    simp [findNextCross, hT, h1]
  | some r0 =>
    obtain ⟨a1, a2, a3⟩ := h2 r0 rfl
    by_cases hlt : now < r0 - 1
    · obtain ⟨res2, h3, h4⟩ := solver_ok (debug := debug) hrf hr (ob := ob) ht now (r0 - 1) hlt.le
      cases res2 with
      | none =>
        refine ⟨T, some r0, hT, by simp [findNextCross, hT, h1, hlt, h3], ?_, by simp [h1], ?_⟩
        · intro r hres
          simp only [Option.some.injEq] at hres
          subst hres
          exact ⟨a1, a2, a3⟩
        · intro r0' hr0
          rw [h1] at hr0
          simp only [Outcome.ok.injEq, Option.some.injEq] at hr0
          subst hr0
          exact ⟨r0, rfl, le_refl _, by simp, by intro q _ hq; rw [h3] at hq; simp at hq⟩
      | some q =>
        obtain ⟨b1, b2, b3⟩ := h4 q rfl
        refine ⟨T, some q, hT, by simp [findNextCross, hT, h1, hlt, h3], ?_, by simp [h1], ?_⟩
        · intro r hres
          simp only [Option.some.injEq] at hres
          subst hres
          exact ⟨b1, by linarith, b3⟩
        · intro r0' hr0
          rw [h1] at hr0
          simp only [Outcome.ok.injEq, Option.some.injEq] at hr0
          subst hr0
          refine ⟨q, rfl, by linarith, fun _ => b2, ?_⟩
          intro q' _ hq
          rw [h3] at hq
          simpa using hq
    · refine ⟨T, some r0, hT, by simp [findNextCross, hT, h1, hlt], ?_, by simp [h1], ?_⟩
      · intro r hres
        simp only [Option.some.injEq] at hres
        subst hres
        exact ⟨a1, a2, a3⟩
      · intro r0' hr0
        rw [h1] at hr0
        simp only [Outcome.ok.injEq, Option.some.injEq] at hr0
        subst hr0
        exact ⟨r0, rfl, le_refl _, by simp, fun q hq => absurd hq hlt⟩

theorem continuous_gap (o : Elements) (ob : Observer) : Continuous (gap o ob) := by
  unfold gap distance length sub circlePoint rotZ rotX Observer.position
  fun_prop

/-- An accepted time at which the satellite is not closer than the target has a true crossing within one second. -/
theorem C51_crossing_near (o : Elements) (ob : Observer) (target r : ℝ) (hacc : Accepted o ob target r) (hfar : target ≤ gap o ob r) :
    ∃ τ, |τ - r| ≤ 1 ∧ gap o ob τ = target := by
  have hc := continuous_gap o ob
  rcases hacc with h | h
  · have := intermediate_value_Icc (show r - 1 ≤ r by linarith) hc.continuousOn
    obtain ⟨τ, ⟨t1, t2⟩, h3⟩ := this ⟨h.le, hfar⟩
    exact ⟨τ, by rw [abs_le]; constructor <;> linarith, h3⟩
  · have := intermediate_value_Icc' (show r ≤ r + 1 by linarith) hc.continuousOn
    obtain ⟨τ, ⟨t1, t2⟩, h3⟩ := this ⟨h.le, hfar⟩
    exact ⟨τ, by rw [abs_le]; constructor <;> linarith, h3⟩

/-- A root finder that keeps a change of sign in its bracket, with the root in it. -/
def Straddles (o : Elements) (ob : Observer) (target : ℝ) (rf : RootFinder) (lo hi : ℝ) : Prop :=
  ∀ k, (rf lo hi k).lower ≤ (rf lo hi k).root ∧ (rf lo hi k).root ≤ (rf lo hi k).upper ∧
    ((gap o ob (rf lo hi k).lower ≤ target ∧ target ≤ gap o ob (rf lo hi k).upper) ∨
      (target ≤ gap o ob (rf lo hi k).lower ∧ gap o ob (rf lo hi k).upper ≤ target))

/-- With such a root finder an answer of the solver is a true crossing to a relative precision of one millionth. -/
theorem C51_precision {debug : Bool} {rf : RootFinder} {o : Elements} (hr : 0 < o.radius) {ob : Observer} {target : ℝ}
    (ht : 0 ≤ target) (lo hi r : ℝ) (hrf : Straddles o ob target rf lo hi)
    (h : distanceSolver debug rf o ob target lo hi = .ok (some r)) :
    ∃ τ, gap o ob τ = target ∧ |τ - r| < 0.000001 * |τ| := by
  obtain ⟨res, h1, h2⟩ := solveLoop_some (debug := debug) hr (ob := ob) ht (iter := rf lo hi) (n := 1000) (k := 0)
  unfold distanceSolver at h
  rw [h1] at h
  simp only [Outcome.ok.injEq] at h
  obtain ⟨j, -, -, rfl, htest, -⟩ := h2 r h
  obtain ⟨b1, b2, b3⟩ := hrf j
  set L := (rf lo hi j).lower
  set U := (rf lo hi j).upper
  set R := (rf lo hi j).root
  have hLU : L ≤ U := by linarith
  have hc := continuous_gap o ob
  obtain ⟨τ, ⟨t1, t2⟩, h3⟩ : ∃ τ ∈ Set.Icc L U, gap o ob τ = target := by
    rcases b3 with b3 | b3
    · exact intermediate_value_Icc hLU hc.continuousOn ⟨b3.1, b3.2⟩
    · exact intermediate_value_Icc' hLU hc.continuousOn ⟨b3.2, b3.1⟩
  refine ⟨τ, h3, ?_⟩
  unfold testInterval at htest
  rw [if_neg (by linarith)] at htest
  simp only [Option.some.injEq, decide_eq_true_eq, zero_add] at htest
  have hw : |τ - R| ≤ U - L := by rw [abs_le]; constructor <;> linarith
  have hUL : |U - L| = U - L := abs_of_nonneg (by linarith)
  rw [hUL] at htest
  split at htest
  · rename_i hsign
    have hmin : min |L| |U| ≤ |τ| := by
      rcases hsign with ⟨s1, s2⟩ | ⟨s1, s2⟩
      · rw [abs_of_pos s1, abs_of_pos s2, abs_of_pos (by linarith : 0 < τ)]
        exact le_trans (min_le_left _ _) t1
      · rw [abs_of_neg s1, abs_of_neg s2, abs_of_neg (by linarith : τ < 0)]
        exact le_trans (min_le_right _ _) (by linarith)
    have : (0.000001 : ℝ) * min |L| |U| ≤ 0.000001 * |τ| := by
      apply mul_le_mul_of_nonneg_left hmin; norm_num
    linarith
  · linarith

/-- `getNextTimeAtDistance` returns the result of the first window containing one, advancing by half periods. -/
theorem C51_first_window {debug : Bool} {rf : RootFinder} {o : Elements} {T : ℝ} (hT : orbitalPeriod o = .ok T) {ob : Observer} {target : ℝ}
    (now r : ℝ) (k : Nat)
    (hno : ∀ j < k, findNextCross debug rf o ob target (now + j * (T / 2)) = .ok none)
    (hyes : findNextCross debug rf o ob target (now + k * (T / 2)) = .ok (some r)) (fuel : Nat) (hf : k < fuel) :
    getNextTimeAtDistance debug rf o ob target fuel now = .ok r := by
  induction k generalizing now fuel with
  | zero =>
    obtain ⟨f, rfl⟩ : ∃ f, fuel = f + 1 := ⟨fuel - 1, by omega⟩
    simp only [Nat.cast_zero, zero_mul, add_zero] at hyes
    simp [getNextTimeAtDistance, hyes, hT]
  | succ k ih =>
    obtain ⟨f, rfl⟩ : ∃ f, fuel = f + 1 := ⟨fuel - 1, by omega⟩
    have h0 := hno 0 (by omega)
    simp only [Nat.cast_zero, zero_mul, add_zero] at h0
    simp only [getNextTimeAtDistance, h0, hT, Outcome.bind_ok]
    apply ih
    · intro j hj
      have := hno (j + 1) (by omega)
      rw [← this]
      congr 1
      push_cast
      ring
    · rw [← hyes]
      congr 1
      push_cast
      ring
    · omega

/-- If no window contains a crossing the loop never ends. -/
theorem C51_endless {debug : Bool} {rf : RootFinder} {o : Elements} {T : ℝ} (hT : orbitalPeriod o = .ok T) {ob : Observer} {target : ℝ}
    (now : ℝ) (hno : ∀ j : Nat, findNextCross debug rf o ob target (now + j * (T / 2)) = .ok none) (fuel : Nat) :
    getNextTimeAtDistance debug rf o ob target fuel now = .ub .diverged := by
  induction fuel generalizing now with
  | zero => rfl
  | succ f ih =>
    have h0 := hno 0
    simp only [Nat.cast_zero, zero_mul, add_zero] at h0
    simp only [getNextTimeAtDistance, h0, hT, Outcome.bind_ok]
    apply ih
    intro j
    rw [← hno (j + 1)]
    congr 1
    push_cast
    ring

/-- Such a case: a satellite always further away than the target is never found, whatever the root finder does. -/
theorem C51_never_close {debug : Bool} {rf : RootFinder} {o : Elements} (hr : 0 < o.radius) {ob : Observer} {target : ℝ}
    (ht : 0 ≤ target) (hfar : ∀ t, target ≤ gap o ob t) (now : ℝ) (fuel : Nat) :
    getNextTimeAtDistance debug rf o ob target fuel now = .ub .diverged := by
  obtain ⟨T, hT, -⟩ := C45_kepler o hr
  apply C51_endless hT
  intro j
  obtain ⟨res, h1, h2⟩ := solveLoop_some (debug := debug) hr (ob := ob) ht
    (iter := rf (now + j * (T / 2)) (now + j * (T / 2) + T)) (n := 1000) (k := 0)
  cases res with
  | none => simp [findNextCross, hT, distanceSolver, h1]
  | some r =>
    obtain ⟨-, -, -, -, -, hacc⟩ := h2 r rfl
    rcases hacc with h | h
    · exact absurd h (not_lt.mpr (hfar _))
    · exact absurd h (not_lt.mpr (hfar _))

/-! ### Non-vacuity -/

/-- A root finder that answers the middle of the interval. -/
noncomputable def middle : RootFinder := fun lo hi _ => ⟨(lo + hi) / 2, (lo + hi) / 2, (lo + hi) / 2⟩

example : Stays middle := by
  intro lo hi k h
  simp only [middle]
  constructor <;> linarith

/-- A satellite at 7000 km and an observer at 6371 km from the centre are always less than 14000 km apart. -/
example : Accepted ⟨0, 0, 7000000, 0⟩ ⟨0, 0, 6371009⟩ 14000000 0 := by
  left
  unfold gap distance
  set p := circlePoint ⟨0, 0, 7000000, 0⟩ (meanMotion 7000000 * (0 - 1) + 0)
  have hp : length p = 7000000 := length_circlePoint _ _ (by norm_num)
  have hq : length (Observer.position ⟨0, 0, 6371009⟩ (0 - 1)) = 6371009 := by
    have h1 := sin_sq_add_cos_sq (0 + earthRotation * (0 - 1))
    unfold length Observer.position
    simp only [cos_zero, mul_one, sin_zero, mul_zero]
    have : (6371009 * cos (0 + earthRotation * (0 - 1))) ^ 2 + (6371009 * sin (0 + earthRotation * (0 - 1))) ^ 2 + (0 : ℝ) ^ 2 = 6371009 ^ 2 := by
      linear_combination 6371009 ^ 2 * h1
    rw [this, sqrt_sq (by norm_num)]
  set q := Observer.position ⟨0, 0, 6371009⟩ (0 - 1)
  have h2 := abs_dot_le q p
  have h3 : length (sub q p) ^ 2 = length q ^ 2 + length p ^ 2 - 2 * dot q p := by
    rw [length_sq, length_sq, length_sq]; unfold sub dot; ring
  have h4 := neg_le_of_abs_le h2
  rw [hp, hq] at h3 h4
  apply lt_of_pow_lt_pow_left₀ 2 (by norm_num)
  rw [h3]
  nlinarith

end Orbit
end Icarus
