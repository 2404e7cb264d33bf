import Verif.Model.Gsl
import Verif.Props.Brent

/-!
# Property C86: the search for crossings leaves the GNU Scientific Library as it found it
-/

set_option autoImplicit false

namespace Icarus
namespace Orbit

open Classical

theorem gslError_off {g : Gsl} (h : g.handler = some .off) : gslError g = .ok g := by
  unfold gslError; rw [h]

theorem fsolverSet_off {f : ℝ → Outcome ℝ} (hf : ∀ x, ∃ y, f x = .ok y) {lo hi : ℝ} {g : Gsl} (h : g.handler = some .off) : fsolverSet f lo hi g = .ok g := by
  unfold fsolverSet
  split
  · exact gslError_off h
  · obtain ⟨y, hy⟩ := hf lo
    obtain ⟨z, hz⟩ := hf hi
    rw [hy, hz]
    simp only [Outcome.bind_ok]
    split
    · exact gslError_off h
    · rfl

theorem solveLoopGsl_off {f : ℝ → Outcome ℝ} {iter : Nat → Bracket} {id : Nat} {g : Gsl} (h : g.handler = some .off) (hl : id ∈ g.live) :
    ∀ n k, solveLoopGsl f iter (some id) n k g = (solveLoop f iter n k >>= fun r => .ok (r, g)) := by
  intro n
  induction n with
  | zero => intro k; rfl
  | succ n ih =>
    intro k
    simp only [solveLoopGsl, solveLoop, useSolver, if_pos hl, Outcome.bind_ok]
    cases testInterval (iter k).lower (iter k).upper with
    | none => simp only [gslError_off h, Outcome.bind_ok]
    | some b =>
      cases b with
      | false => exact ih (k + 1)
      | true =>
        simp only
        cases f ((iter k).root - 1) with
        | ok a =>
          simp only [Outcome.bind_ok]
          cases f ((iter k).root + 1) with
          | ok c =>
            simp only [Outcome.bind_ok]
            split <;> rfl
          | ub e => rfl
          | abort => rfl
          | assertFail => rfl
        | ub e => rfl
        | abort => rfl
        | assertFail => rfl

/-- A temporary solver for which there is memory. -/
theorem temporarySolver_eq {debug : Bool} {rf : RootFinder} {o : Elements} (hr : 0 < o.radius) {ob : Observer} {target lo hi : ℝ} (g : Gsl) :
    ∃ r, distanceSolver debug rf o ob target lo hi = .ok r ∧
      temporarySolver debug rf o ob target lo hi true g = .ok (r, { g with next := g.next + 1 }) := by
  have hf : ∀ x, ∃ y, distanceFunction debug o ob target x = .ok y := fun x => ⟨_, distanceFunction_eq debug o hr ob target x⟩
  have hd : ∃ r, distanceSolver debug rf o ob target lo hi = .ok r := by
    unfold distanceSolver
    generalize 1000 = n
    generalize 0 = k
    induction n generalizing k with
    | zero => exact ⟨none, rfl⟩
    | succ n ih =>
      simp only [solveLoop]
      split
      · simp only [distanceFunction_eq debug o hr, Outcome.bind_ok]
        split
        · exact ⟨_, rfl⟩
        · exact ⟨_, rfl⟩
      · exact ih _
      · exact ⟨none, rfl⟩
  obtain ⟨r, hd⟩ := hd
  refine ⟨r, hd, ?_⟩
  unfold temporarySolver SolverObject.construct fsolverAlloc SolverObject.call SolverObject.destruct
  unfold distanceSolver at hd
  simp only [if_true, Outcome.bind_ok, Bool.false_eq_true, if_false, useSolver, List.mem_cons, true_or]
  rw [fsolverSet_off hf rfl]
  simp only [Outcome.bind_ok]
  rw [solveLoopGsl_off rfl (by simp), hd]
  simp [fsolverFree]

theorem temporarySolver_none {debug : Bool} {rf : RootFinder} {o : Elements} {ob : Observer} {target lo hi : ℝ} (g : Gsl) :
    temporarySolver debug rf o ob target lo hi false g = if g.handler = none then .abort else .ub .nullDeref := by
  unfold temporarySolver SolverObject.construct fsolverAlloc gslError SolverObject.call useSolver
  rcases h : g.handler with _ | h' | u <;> simp

/-- If there is memory for its solvers, the search gives the answer of the model without the library's state (C51, C81, C82), and afterwards the error handler
is the one in force before, no solver is left allocated, and no handler of the user was called, whatever errors the library raised meanwhile. -/
theorem C86_restores {debug : Bool} {rf : RootFinder} {o : Elements} (hr : 0 < o.radius) {ob : Observer} {target now : ℝ} (g : Gsl) :
    ∃ r g', findNextCrossGsl debug rf o ob target now (fun _ => true) g = .ok (r, g') ∧ findNextCross debug rf o ob target now = .ok r ∧
      g'.handler = g.handler ∧ g'.live = g.live ∧ g'.reports = g.reports := by
  unfold findNextCrossGsl findNextCross
  obtain ⟨T, hT, -⟩ := C45_kepler o hr
  rw [hT]
  simp only [Outcome.bind_ok]
  obtain ⟨r, h1, h2⟩ := temporarySolver_eq (debug := debug) (rf := rf) hr (ob := ob) (target := target) (lo := now) (hi := now + T) g
  rw [h1, h2]
  simp only [Outcome.bind_ok]
  cases r with
  | none => exact ⟨none, _, rfl, rfl, rfl, rfl, rfl⟩
  | some r =>
    simp only
    split
    · obtain ⟨q, h3, h4⟩ := temporarySolver_eq (debug := debug) (rf := rf) hr (ob := ob) (target := target) (lo := now) (hi := r - 1) { g with next := g.next + 1 }
      rw [h3, h4]
      simp only [Outcome.bind_ok]
      cases q with
      | none => exact ⟨_, _, rfl, rfl, rfl, rfl, rfl⟩
      | some q => exact ⟨_, _, rfl, rfl, rfl, rfl, rfl⟩
    · exact ⟨_, _, rfl, rfl, rfl, rfl, rfl⟩

/-- Without memory for the solver the program aborts under the default handler; under any other one, also one that ignores errors, the null pointer is used. -/
theorem C86_no_memory {debug : Bool} {rf : RootFinder} {o : Elements} (hr : 0 < o.radius) {ob : Observer} {target now : ℝ} {memory : Nat → Bool}
    (hm : memory 0 = false) (g : Gsl) :
    findNextCrossGsl debug rf o ob target now memory g = if g.handler = none then .abort else .ub .nullDeref := by
  unfold findNextCrossGsl
  obtain ⟨T, hT, -⟩ := C45_kepler o hr
  rw [hT]
  simp only [Outcome.bind_ok, hm]
  rw [temporarySolver_none]
  split <;> rfl

/-- The same for the second solver, if the answer of the first is more than a second ahead. -/
theorem C86_no_memory_again {debug : Bool} {rf : RootFinder} {o : Elements} (hr : 0 < o.radius) {ob : Observer} {target now T r : ℝ} {memory : Nat → Bool}
    (hm : memory 0 = true) (hm' : memory 1 = false) (hT : orbitalPeriod o = .ok T) (hfirst : distanceSolver debug rf o ob target now (now + T) = .ok (some r))
    (hlate : now + 1 < r) (g : Gsl) :
    findNextCrossGsl debug rf o ob target now memory g = if g.handler = none then .abort else .ub .nullDeref := by
  unfold findNextCrossGsl
  rw [hT]
  simp only [Outcome.bind_ok, hm, hm']
  obtain ⟨r', h1, h2⟩ := temporarySolver_eq (debug := debug) (rf := rf) hr (ob := ob) (target := target) (lo := now) (hi := now + T) g
  rw [hfirst] at h1
  cases h1
  rw [h2]
  simp only [Outcome.bind_ok]
  rw [if_pos (by linarith), temporarySolver_none]
  split <;> rfl

/-- Why the handler is switched off: starting the solver is an error, which aborts the program under the default handler, exactly if the satellite is on the same
side of the target distance at both ends of the interval. -/
theorem C86_error {debug : Bool} {o : Elements} (hr : 0 < o.radius) {ob : Observer} {target lo hi : ℝ} (ht : 0 ≤ target) (h : lo ≤ hi) {g : Gsl}
    (hg : g.handler = none) :
    fsolverSet (distanceFunction debug o ob target) lo hi g =
      if (gap o ob lo < target ∧ gap o ob hi < target) ∨ (target < gap o ob lo ∧ target < gap o ob hi) then .abort else .ok g := by
  unfold fsolverSet
  rw [if_neg (not_lt.mpr h)]
  simp only [distanceFunction_eq debug o hr, Outcome.bind_ok]
  have e1 := fun t => sq_sub_neg_iff (gap_nonneg o ob t) ht
  have e2 : ∀ t, 0 < gap o ob t ^ 2 - target ^ 2 ↔ target < gap o ob t := by
    intro t
    rw [← neg_lt_zero, neg_sub]
    exact sq_sub_neg_iff ht (gap_nonneg o ob t)
  have : SameSign (gap o ob lo ^ 2 - target ^ 2) (gap o ob hi ^ 2 - target ^ 2) ↔
      (gap o ob lo < target ∧ gap o ob hi < target) ∨ (target < gap o ob lo ∧ target < gap o ob hi) := by
    unfold SameSign
    rw [e1, e1, e2, e2]
  by_cases hs : SameSign (gap o ob lo ^ 2 - target ^ 2) (gap o ob hi ^ 2 - target ^ 2)
  · rw [if_pos hs, if_pos (this.mp hs)]
    unfold gslError
    rw [hg]
  · rw [if_neg hs, if_neg (fun h => hs (this.mpr h))]

/-- A solver called again repeats its answer without another search. -/
theorem C86_once {debug : Bool} {rf : RootFinder} {o : Elements} {ob : Observer} {target lo hi : ℝ} {d d' : SolverObject} {g g' : Gsl}
    (h : d.call debug rf o ob target lo hi g = .ok (d', g')) : d'.call debug rf o ob target lo hi g' = .ok (d', g') := by
  unfold SolverObject.call at h ⊢
  split at h
  · rename_i hrun
    cases h
    rw [if_pos hrun]
  · simp only [Outcome.bind_eq_ok] at h
    obtain ⟨_, _, g1, _, ⟨sol, g2⟩, _, h3⟩ := h
    cases h3
    rw [if_pos rfl]

/-! ## Examples -/

/-- The library in the state a user may have left it in: own handler, a solver of their own allocated. -/
example : ∃ g : Gsl, g.handler = some (.user 3) ∧ g.live = [0] ∧ g.next = 1 := ⟨⟨some (.user 3), [0], 1, []⟩, rfl, rfl, rfl⟩

/-- The hypotheses of C86_error in the case of an error: a target beyond the satellite. -/
example (o : Elements) (ob : Observer) (lo hi : ℝ) : ∃ target, 0 ≤ target ∧ gap o ob lo < target ∧ gap o ob hi < target := by
  have h1 := gap_nonneg o ob lo
  have h2 := gap_nonneg o ob hi
  exact ⟨gap o ob lo + gap o ob hi + 1, by linarith, by linarith, by linarith⟩

/-- The hypotheses of C86_no_memory_again: a solver that ends at 100 seconds, where the satellite is closer than the target. -/
example (debug : Bool) (o : Elements) (hr : 0 < o.radius) (ob : Observer) : ∃ (rf : RootFinder) (target : ℝ), 0 ≤ target ∧ ∀ lo hi,
    distanceSolver debug rf o ob target lo hi = .ok (some 100) := by
  refine ⟨fun _ _ _ => ⟨100, 100, 100⟩, gap o ob 99 + 1, by linarith [gap_nonneg o ob 99], ?_⟩
  intro lo hi
  unfold distanceSolver solveLoop
  have ht : testInterval 100 100 = some true := by
    unfold testInterval
    norm_num
  simp only [ht, distanceFunction_eq debug o hr, Outcome.bind_ok]
  rw [if_pos]
  rw [min_lt_iff]
  left
  rw [sq_sub_neg_iff (gap_nonneg _ _ _) (by linarith [gap_nonneg o ob 99])]
  norm_num

end Orbit
end Icarus
