import Verif.Model.Machine
import Mathlib.Data.List.Induction
import Mathlib.Data.List.Perm.Basic

/-!
# Lemmas about step machines
-/

set_option autoImplicit false

namespace Icarus

variable {S O : Type} {step : S → O → Option (Outcome S)}

theorem runFrom_append (s : S) (a b : List O) :
    runFrom step s (a ++ b) =
      match runFrom step s a with
      | some (.ok s') => runFrom step s' b
      | r => r := by
  induction a generalizing s with
  | nil => simp [runFrom]
  | cons o os ih =>
    simp only [List.cons_append, runFrom]
    cases step s o with
    | none => rfl
    | some r => cases r <;> simp [ih]

theorem runFrom_single (s : S) (o : O) : runFrom step s [o] = step s o := by
  simp only [runFrom]
  cases step s o with
  | none => rfl
  | some r => cases r <;> rfl

theorem runFrom_snoc {s s2 : S} {ops : List O} {o : O} :
    runFrom step s (ops ++ [o]) = some (.ok s2) ↔
      ∃ s1, runFrom step s ops = some (.ok s1) ∧ step s1 o = some (.ok s2) := by
  rw [runFrom_append]
  cases runFrom step s ops with
  | none => simp
  | some r =>
    cases r with
    | ok s1 => simp [runFrom_single]
    | ub e => simp
    | abort => simp
    | assertFail => simp

/-- Induction along an execution: a predicate on (operations so far, state). -/
theorem run_induction {P : List O → S → Prop} {s0 : S} (h0 : P [] s0)
    (hstep : ∀ ops o s s', runFrom step s0 ops = some (.ok s) → P ops s → step s o = some (.ok s') → P (ops ++ [o]) s')
    {ops : List O} {s : S} (h : runFrom step s0 ops = some (.ok s)) : P ops s := by
  induction ops using List.reverseRecOn generalizing s with
  | nil =>
    simp only [runFrom, Option.some.injEq, Outcome.ok.injEq] at h
    subst h; exact h0
  | append_singleton os o ih =>
    obtain ⟨s1, h1, h2⟩ := runFrom_snoc.mp h
    exact hstep os o s1 s h1 (ih h1) h2

/-- If no step from a reachable state fails, no execution fails. -/
theorem run_no_fault {s0 : S}
    (hstep : ∀ ops o s r, runFrom step s0 ops = some (.ok s) → step s o = some r → ∃ s', r = .ok s')
    {ops : List O} {r : Outcome S} (h : runFrom step s0 ops = some r) : ∃ s, r = .ok s := by
  induction ops using List.reverseRecOn generalizing r with
  | nil =>
    simp only [runFrom, Option.some.injEq] at h
    exact ⟨s0, h.symm⟩
  | append_singleton os o ih =>
    rw [runFrom_append] at h
    cases h1 : runFrom step s0 os with
    | none => simp [h1] at h
    | some r1 =>
      obtain ⟨s1, rfl⟩ := ih h1
      simp only [h1, runFrom_single] at h
      exact hstep os o s1 r h1 h

theorem insertEvent_perm {E : Type} (t : Nat) (e : E) (l : List (Nat × E)) : (insertEvent t e l).Perm ((t, e) :: l) := by
  induction l with
  | nil => exact List.Perm.refl _
  | cons g gs ih =>
    unfold insertEvent
    split
    · exact List.Perm.refl _
    · exact ((List.Perm.cons g ih).trans (List.Perm.swap _ _ _))

theorem mem_insertEvent {E : Type} {t : Nat} {e : E} {l : List (Nat × E)} {x : Nat × E} :
    x ∈ insertEvent t e l ↔ x = (t, e) ∨ x ∈ l := by
  rw [(insertEvent_perm t e l).mem_iff, List.mem_cons]

theorem sorted_insertEvent {E : Type} {t : Nat} {e : E} {l : List (Nat × E)} (h : l.Pairwise (fun a b => a.1 ≤ b.1)) :
    (insertEvent t e l).Pairwise (fun a b => a.1 ≤ b.1) := by
  induction l with
  | nil => simp [insertEvent]
  | cons g gs ih =>
    rw [List.pairwise_cons] at h
    unfold insertEvent
    split
    · rename_i hlt
      rw [List.pairwise_cons, List.pairwise_cons]
      refine ⟨?_, h.1, h.2⟩
      intro x hx
      rcases List.mem_cons.mp hx with rfl | hx
      · exact Nat.le_of_lt hlt
      · exact Nat.le_trans (Nat.le_of_lt hlt) (h.1 x hx)
    · rename_i hlt
      rw [List.pairwise_cons]
      refine ⟨?_, ih h.2⟩
      intro x hx
      rcases mem_insertEvent.mp hx with rfl | hx
      · exact Nat.le_of_not_lt hlt
      · exact h.1 x hx

end Icarus
