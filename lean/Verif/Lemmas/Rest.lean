import Verif.Lemmas.Machine
import Mathlib.Algebra.BigOperators.Fin
import Mathlib.Algebra.BigOperators.Group.Finset.Piecewise

/-!
# Machines that come to rest
-/

set_option autoImplicit false

namespace Icarus

section
variable {S O : Type} {step : S → O → Option (Outcome S)} {s0 : S} {I : O → Bool} {μ : S → Nat}

/-- If every internal step makes `μ` smaller, `μ` bounds the number of internal steps. -/
theorem internal_bounded (hdec : ∀ ops o s s', runFrom step s0 ops = some (.ok s) → I o = true → step s o = some (.ok s') → μ s' < μ s)
    {ops more : List O} {s s' : S} (h : runFrom step s0 ops = some (.ok s)) (hi : ∀ o ∈ more, I o = true)
    (h' : runFrom step s0 (ops ++ more) = some (.ok s')) : more.length + μ s' ≤ μ s := by
  induction more using List.reverseRecOn generalizing s' with
  | nil =>
    rw [List.append_nil, h] at h'
    simp only [Option.some.injEq, Outcome.ok.injEq] at h'
    simp [h']
  | append_singleton more o ih =>
    rw [← List.append_assoc] at h'
    obtain ⟨s1, h1, h2⟩ := runFrom_snoc.mp h'
    have := ih (fun o ho => hi o (by simp [ho])) h1
    have := hdec _ o s1 s' h1 (hi o (by simp)) h2
    rw [List.length_append, List.length_singleton]
    omega

/-- If moreover some internal step is possible until `Q` holds, `Q` is reached by internal steps, unless one of them fails. -/
theorem internal_rests {Q : S → Prop} {C : List O → Prop}
    (hdec : ∀ ops o s s', runFrom step s0 ops = some (.ok s) → I o = true → step s o = some (.ok s') → μ s' < μ s)
    (hC : ∀ ops o, C ops → I o = true → C (ops ++ [o]))
    (hprog : ∀ ops s, C ops → runFrom step s0 ops = some (.ok s) → ¬ Q s → ∃ o, I o = true ∧ ∃ r, step s o = some r)
    {ops : List O} {s : S} (hc : C ops) (h : runFrom step s0 ops = some (.ok s)) :
    ∃ more r, (∀ o ∈ more, I o = true) ∧ runFrom step s0 (ops ++ more) = some r ∧ ∀ s', r = .ok s' → Q s' := by
  induction hn : μ s using Nat.strong_induction_on generalizing ops s with
  | _ n ih =>
    by_cases hq : Q s
    · refine ⟨[], .ok s, by simp, by simpa using h, ?_⟩
      intro s' e
      simp only [Outcome.ok.injEq] at e
      exact e ▸ hq
    · obtain ⟨o, ho, r, hr⟩ := hprog ops s hc h hq
      have hsnoc : runFrom step s0 (ops ++ [o]) = some r := by
        rw [runFrom_append, h]
        simp only [runFrom, hr]
        cases r <;> rfl
      by_cases hok : ∃ s', r = .ok s'
      · obtain ⟨s', rfl⟩ := hok
        obtain ⟨more, r, h1, h2, h3⟩ := ih _ (hn ▸ hdec _ _ _ _ h ho hr) (hC _ _ hc ho) hsnoc rfl
        refine ⟨o :: more, r, ?_, ?_, h3⟩
        · intro x hx
          rcases List.mem_cons.mp hx with rfl | hx
          · exact ho
          · exact h1 x hx
        · rw [← h2, List.append_assoc, List.singleton_append]
      · refine ⟨[o], r, by simpa using ho, hsnoc, fun s' e => absurd ⟨s', e⟩ hok⟩

/-- Internal steps lead to a state with `Q`, and `Inv` holds all the way. -/
theorem internal_until {Q : S → Prop} {Inv : List O → S → Prop}
    (hdec : ∀ ops o s s', runFrom step s0 ops = some (.ok s) → I o = true → step s o = some (.ok s') → μ s' < μ s)
    (hinv : ∀ ops o s s', Inv ops s → ¬ Q s → I o = true → step s o = some (.ok s') → Inv (ops ++ [o]) s')
    (hprog : ∀ ops s, Inv ops s → runFrom step s0 ops = some (.ok s) → ¬ Q s → ∃ o, I o = true ∧ ∃ s', step s o = some (.ok s'))
    {ops : List O} {s : S} (hi : Inv ops s) (h : runFrom step s0 ops = some (.ok s)) :
    ∃ more s', (∀ o ∈ more, I o = true) ∧ runFrom step s0 (ops ++ more) = some (.ok s') ∧ Inv (ops ++ more) s' ∧ Q s' := by
  induction hn : μ s using Nat.strong_induction_on generalizing ops s with
  | _ n ih =>
    by_cases hq : Q s
    · exact ⟨[], s, by simp, by simpa using h, by simpa using hi, hq⟩
    · obtain ⟨o, ho, s1, hs⟩ := hprog ops s hi h hq
      obtain ⟨more, s', h1, h2, h3, h4⟩ := ih _ (hn ▸ hdec _ _ _ _ h ho hs) (hinv _ _ _ _ hi hq ho hs) (runFrom_snoc.mpr ⟨_, h, hs⟩) rfl
      refine ⟨o :: more, s', ?_, ?_, ?_, h4⟩
      · intro x hx
        rcases List.mem_cons.mp hx with rfl | hx
        · exact ho
        · exact h1 x hx
      · rw [← h2, List.append_assoc, List.singleton_append]
      · rw [List.append_assoc, List.singleton_append] at h3
        exact h3

/-- What is needed to carry out calls at given times: internal steps are possible until `Q`; they happen at times that are `Due`; calls are possible at
such times. -/
structure Runs (step : S → O → Option (Outcome S)) (s0 : S) (I : O → Bool) (μ : S → Nat) (time : O → Nat) (clock : S → Nat) (Due : S → Nat → Prop)
    (Q : S → Prop) (C : List O → Prop) : Prop where
  start : clock s0 = 0
  less : ∀ ops o s s', runFrom step s0 ops = some (.ok s) → I o = true → step s o = some (.ok s') → μ s' < μ s
  okay : ∀ ops r, C ops → runFrom step s0 ops = some r → ∃ s, r = .ok s
  free : ∀ ops, C (ops.filter (fun o => !I o)) → C ops
  internal : ∀ ops o, C ops → I o = true → C (ops ++ [o])
  left : ∀ a b, C (a ++ b) → C a
  more : ∀ ops s, C ops → runFrom step s0 ops = some (.ok s) → ¬ Q s → ∃ o, I o = true ∧ ∃ r, step s o = some r
  when : ∀ s o s', I o = true → step s o = some (.ok s') → Due s (clock s')
  late : ∀ s t, clock s ≤ t → ¬ Due s t → ¬ Q s ∧ ∀ u, Due s u → u ≤ t
  call : ∀ ops s o, C ops → runFrom step s0 ops = some (.ok s) → I o = false → Due s (time o) → ∃ r, step s o = some r
  then_ : ∀ s o s', I o = false → step s o = some (.ok s') → clock s' = time o

/-- Every sequence of calls in the order of their times is carried out by some execution that ends with `Q`. -/
theorem Runs.realize {time : O → Nat} {clock : S → Nat} {Due : S → Nat → Prop} {Q : S → Prop} {C : List O → Prop}
    (hr : Runs step s0 I μ time clock Due Q C) {calls : List O} (hC : C calls) (hext : ∀ o ∈ calls, I o = false)
    (hsorted : calls.Pairwise (fun a b => time a ≤ time b)) :
    ∃ ops s, runFrom step s0 ops = some (.ok s) ∧ ops.filter (fun o => !I o) = calls ∧ Q s := by
  have hint : ∀ more : List O, (∀ o ∈ more, I o = true) → more.filter (fun o => !I o) = [] := by
    intro more h
    rw [List.filter_eq_nil_iff]
    intro o ho
    simp [h o ho]
  have snoc : ∀ {ops : List O} {s : S} {o : O} {r : Outcome S}, runFrom step s0 ops = some (.ok s) → step s o = some r →
      runFrom step s0 (ops ++ [o]) = some r := by
    intro ops s o r h1 h2
    rw [runFrom_append, h1]
    simp only [runFrom, h2]
    cases r <;> rfl
  have go : ∀ ops s, C ops → runFrom step s0 ops = some (.ok s) → ¬ Q s → ∃ o, I o = true ∧ ∃ s', step s o = some (.ok s') := by
    intro ops s hc hs hq
    obtain ⟨o, ho, r, hst⟩ := hr.more ops s hc hs hq
    obtain ⟨s', rfl⟩ := hr.okay _ _ (hr.internal _ _ hc ho) (snoc hs hst)
    exact ⟨o, ho, s', hst⟩
  have key : ∃ ops s, runFrom step s0 ops = some (.ok s) ∧ ops.filter (fun o => !I o) = calls ∧ ∀ t, (∀ o ∈ calls, time o ≤ t) → clock s ≤ t := by
    induction calls using List.reverseRecOn with
    | nil => exact ⟨[], s0, rfl, rfl, fun t _ => by rw [hr.start]; omega⟩
    | append_singleton cs o ih =>
      rw [List.pairwise_append] at hsorted
      obtain ⟨ops, s, h1, h2, h3⟩ := ih (hr.left _ _ hC) (fun o ho => hext o (by simp [ho])) hsorted.1
      have hC' : C cs := hr.left _ _ hC
      obtain ⟨more, s', k1, k2, ⟨k3, k4⟩, k5⟩ := internal_until (I := I) (μ := μ) (Q := fun s => Due s (time o))
        (Inv := fun ops s => clock s ≤ time o ∧ ops.filter (fun o => !I o) = cs) hr.less
        (fun ops o' s s' hi hq ho hs => ⟨(hr.late s _ hi.1 hq).2 _ (hr.when _ _ _ ho hs), by
          rw [List.filter_append, hint [o'] (by simpa using ho), List.append_nil, hi.2]⟩)
        (fun ops s hi hs hq => go ops s (hr.free _ (hi.2.symm ▸ hC')) hs (hr.late s _ hi.1 hq).1)
        ⟨h3 _ (fun c hc => hsorted.2.2 c hc o (by simp)), h2⟩ h1
      have ho : I o = false := hext o (by simp)
      obtain ⟨r, hstep⟩ := hr.call _ s' o (hr.free _ (k4.symm ▸ hC')) k2 ho k5
      have hfil : (ops ++ more ++ [o]).filter (fun o => !I o) = cs ++ [o] := by
        rw [List.filter_append, k4]
        simp [ho]
      have hrun : runFrom step s0 (ops ++ more ++ [o]) = some r := snoc k2 hstep
      obtain ⟨s2, rfl⟩ := hr.okay _ _ (hr.free _ (hfil.symm ▸ hC)) hrun
      exact ⟨_, s2, hrun, hfil, fun t ht => by rw [hr.then_ _ _ _ ho hstep]; exact ht o (by simp)⟩
  obtain ⟨ops, s, h1, h2, -⟩ := key
  obtain ⟨more, s', k1, k2, k3, k4⟩ := internal_until (I := I) (μ := μ) (Q := Q) (Inv := fun ops _ => ops.filter (fun o => !I o) = calls) hr.less
    (fun ops o' s s' hi _ ho _ => by rw [List.filter_append, hint [o'] (by simpa using ho), List.append_nil, hi])
    (fun ops s hi hs hq => go ops s (hr.free _ (hi.symm ▸ hC)) hs hq) h2 h1
  exact ⟨_, s', k2, k3, k4⟩

end

theorem sum_update_nat {ι α : Type} [Fintype ι] [DecidableEq ι] (F : α → Nat) (g : ι → α) (i : ι) (v : α) :
    ∑ d, F (Function.update g i v d) + F (g i) = ∑ d, F (g d) + F v := by
  have h : ∀ f : ι → Nat, ∑ d, f d = f i + ∑ d ∈ Finset.univ.erase i, f d := fun f => (Finset.add_sum_erase _ f (Finset.mem_univ i)).symm
  rw [h (fun d => F (Function.update g i v d)), h (fun d => F (g d))]
  have : ∑ d ∈ Finset.univ.erase i, F (Function.update g i v d) = ∑ d ∈ Finset.univ.erase i, F (g d) :=
    Finset.sum_congr rfl (fun d hd => by rw [Function.update_of_ne (Finset.ne_of_mem_erase hd)])
  rw [this]
  simp only [Function.update_self]
  omega

end Icarus
