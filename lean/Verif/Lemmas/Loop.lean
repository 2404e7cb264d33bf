import Verif.Lemmas.Rest

/-!
# Machines whose surroundings react
-/

set_option autoImplicit false

namespace Icarus

section
variable {S O : Type}

/-- An execution in a world that answers at once.  `Owes ops s o`: after `ops`, in state `s`, the call `o` is owed.  As long as a call is owed nothing else happens than an owed
call; otherwise an internal step takes place or somebody makes a call of their own.  Last, the calls that were not owed. -/
inductive Loop (step : S → O → Option (Outcome S)) (s0 : S) (I : O → Bool) (Owes : List O → S → O → Prop) : List O → S → List O → Prop
  | start : Loop step s0 I Owes [] s0 []
  | answer {ops cs : List O} {s s' : S} {o : O} (before : Loop step s0 I Owes ops s cs) (owed : Owes ops s o) (does : step s o = some (.ok s')) :
      Loop step s0 I Owes (ops ++ [o]) s' cs
  | event {ops cs : List O} {s s' : S} {o : O} (before : Loop step s0 I Owes ops s cs) (free : ∀ c, ¬ Owes ops s c) (inside : I o = true)
      (does : step s o = some (.ok s')) : Loop step s0 I Owes (ops ++ [o]) s' cs
  | call {ops cs : List O} {s s' : S} {o : O} (before : Loop step s0 I Owes ops s cs) (free : ∀ c, ¬ Owes ops s c) (outside : I o = false)
      (does : step s o = some (.ok s')) : Loop step s0 I Owes (ops ++ [o]) s' (cs ++ [o])

variable {step : S → O → Option (Outcome S)} {s0 : S} {I : O → Bool} {Owes : List O → S → O → Prop} {μ : S → Nat} {time : O → Nat} {clock : S → Nat}
  {Due : S → Nat → Prop} {Q : S → Prop} {C : List O → Prop}

theorem Loop.run {ops cs : List O} {s : S} (h : Loop step s0 I Owes ops s cs) : runFrom step s0 ops = some (.ok s) := by
  induction h with
  | start => rfl
  | answer _ _ hd ih => exact runFrom_snoc.mpr ⟨_, ih, hd⟩
  | event _ _ _ hd ih => exact runFrom_snoc.mpr ⟨_, ih, hd⟩
  | call _ _ _ hd ih => exact runFrom_snoc.mpr ⟨_, ih, hd⟩

/-- An execution in which every operation is an answer or takes place when none is owed.  `keep`: the calls. -/
theorem Loop.of {keep : O → Bool} {ops : List O} {s : S} (hx : runFrom step s0 ops = some (.ok s))
    (hok : ∀ pre o post s1, ops = pre ++ o :: post → runFrom step s0 pre = some (.ok s1) → (Owes pre s1 o ∧ keep o = false) ∨ ((∀ c, ¬ Owes pre s1 c) ∧ keep o = !I o)) :
    Loop step s0 I Owes ops s (ops.filter keep) := by
  induction ops using List.reverseRecOn generalizing s with
  | nil =>
    simp only [runFrom, Option.some.injEq, Outcome.ok.injEq] at hx
    subst hx
    exact .start
  | append_singleton os o ih =>
    obtain ⟨s1, h1, h2⟩ := runFrom_snoc.mp hx
    have ih' := ih h1 (fun pre o' post s1 e => hok pre o' (post ++ [o]) s1 (by rw [e]; simp))
    rw [List.filter_append]
    rcases hok os o [] s1 rfl h1 with ⟨h3, h4⟩ | ⟨h3, h4⟩
    · simp only [List.filter_cons, h4, Bool.false_eq_true, if_false, List.filter_nil, List.append_nil]
      exact .answer ih' h3 h2
    · cases hi : I o with
      | true =>
        simp only [List.filter_cons, h4, hi, Bool.not_true, Bool.false_eq_true, if_false, List.filter_nil, List.append_nil]
        exact .event ih' h3 hi h2
      | false =>
        simp only [List.filter_cons, h4, hi, Bool.not_false, if_true, List.filter_nil]
        exact .call ih' h3 hi h2

theorem Loop.snoc {ops cs : List O} {o : O} {s' : S} (h : Loop step s0 I Owes (ops ++ [o]) s' cs) :
    ∃ s cs', Loop step s0 I Owes ops s cs' ∧ step s o = some (.ok s') ∧
      ((Owes ops s o ∧ cs = cs') ∨ ((∀ c, ¬ Owes ops s c) ∧ I o = true ∧ cs = cs') ∨ ((∀ c, ¬ Owes ops s c) ∧ I o = false ∧ cs = cs' ++ [o])) := by
  generalize hl : ops ++ [o] = l at h
  cases h with
  | start => simp at hl
  | answer hb ho hd =>
    obtain ⟨rfl, rfl⟩ : _ ∧ _ := by simpa using List.append_inj' hl rfl
    exact ⟨_, _, hb, hd, Or.inl ⟨ho, rfl⟩⟩
  | event hb ho hi hd =>
    obtain ⟨rfl, rfl⟩ : _ ∧ _ := by simpa using List.append_inj' hl rfl
    exact ⟨_, _, hb, hd, Or.inr (Or.inl ⟨ho, hi, rfl⟩)⟩
  | call hb ho hi hd =>
    obtain ⟨rfl, rfl⟩ : _ ∧ _ := by simpa using List.append_inj' hl rfl
    exact ⟨_, _, hb, hd, Or.inr (Or.inr ⟨ho, hi, rfl⟩)⟩

/-- What was done before. -/
theorem Loop.left {a b cs : List O} {s : S} (h : Loop step s0 I Owes (a ++ b) s cs) : ∃ s' cs', Loop step s0 I Owes a s' cs' ∧ cs' <+: cs := by
  induction b using List.reverseRecOn generalizing s cs with
  | nil => exact ⟨s, cs, by simpa using h, List.prefix_refl _⟩
  | append_singleton b o ih =>
    rw [← List.append_assoc] at h
    obtain ⟨s1, cs1, h1, -, h2⟩ := h.snoc
    obtain ⟨s', cs', h3, h4⟩ := ih h1
    refine ⟨s', cs', h3, ?_⟩
    rcases h2 with ⟨-, rfl⟩ | ⟨-, -, rfl⟩ | ⟨-, -, rfl⟩
    · exact h4
    · exact h4
    · exact h4.trans (List.prefix_append _ _)

/-- The calls of an execution are determined by it. -/
theorem Loop.calls_eq {ops cs cs' : List O} {s s' : S} (h : Loop step s0 I Owes ops s cs) (h' : Loop step s0 I Owes ops s' cs') : cs = cs' := by
  induction ops using List.reverseRecOn generalizing s s' cs cs' with
  | nil =>
    have e : ∀ {s : S} {cs : List O}, Loop step s0 I Owes [] s cs → cs = [] := by
      intro s cs h
      generalize hl : ([] : List O) = l at h
      cases h with
      | start => rfl
      | _ => simp at hl
    rw [e h, e h']
  | append_singleton ops o ih =>
    obtain ⟨s1, c1, l1, d1, e1⟩ := h.snoc
    obtain ⟨s2, c2, l2, d2, e2⟩ := h'.snoc
    have hs : s1 = s2 := by
      have := l1.run
      rw [l2.run] at this
      simpa using this.symm
    subst hs
    have hc := ih l1 l2
    subst hc
    rcases e1 with ⟨a, rfl⟩ | ⟨a, b, rfl⟩ | ⟨a, b, rfl⟩ <;> rcases e2 with ⟨a', rfl⟩ | ⟨a', b', rfl⟩ | ⟨a', b', rfl⟩ <;> first | rfl | skip
    · exact absurd a (a' _)
    · rw [b] at b'; simp at b'
    · exact absurd a' (a _)
    · rw [b] at b'; simp at b'

/-- What the world that answers has to be like: answers are calls, made at once; `ν` bounds their number. -/
structure Answers (step : S → O → Option (Outcome S)) (s0 : S) (I : O → Bool) (time : O → Nat) (clock : S → Nat) (Due : S → Nat → Prop) (C : List O → Prop)
    (Owes : List O → S → O → Prop) (ν : List O → Nat) : Prop where
  outside : ∀ ops s o, Owes ops s o → I o = false
  now : ∀ ops s o, Owes ops s o → time o = clock s
  allowed : ∀ ops s o, C ops → Owes ops s o → C (ops ++ [o])
  fewer : ∀ ops s o, Owes ops s o → ν (ops ++ [o]) < ν ops
  mono : ∀ ops o, ν (ops ++ [o]) ≤ ν ops
  due : ∀ ops s, C ops → runFrom step s0 ops = some (.ok s) → Due s (clock s)

variable {ν : List O → Nat}

theorem Runs.did (hr : Runs step s0 I μ time clock Due Q C) {ops : List O} {s : S} {o : O} (h : runFrom step s0 ops = some (.ok s)) (hC : C (ops ++ [o]))
    (hd : ∃ r, step s o = some r) : ∃ s', step s o = some (.ok s') := by
  obtain ⟨r, hd⟩ := hd
  have : runFrom step s0 (ops ++ [o]) = some r := by
    rw [runFrom_append, h]
    simp only [runFrom, hd]
    cases r <;> rfl
  obtain ⟨s', rfl⟩ := hr.okay _ _ hC this
  exact ⟨s', hd⟩

/-- All that is owed is answered and internal steps are made, until there is nothing to answer and `Goal` holds. -/
theorem Runs.settle (hr : Runs step s0 I μ time clock Due Q C) (ha : Answers step s0 I time clock Due C Owes ν) {Goal Inv : S → Prop}
    (hgo : ∀ s, Inv s → ¬ Goal s → ¬ Q s) (hI : ∀ s o s', Inv s → ¬ Goal s → I o = true → step s o = some (.ok s') → Inv s')
    (hR : ∀ s o s', Inv s → I o = false → time o = clock s → step s o = some (.ok s') → Inv s') {ops cs : List O} {s : S}
    (h : Loop step s0 I Owes ops s cs) (hC : C ops) (hinv : Inv s) :
    ∃ ops' s', Loop step s0 I Owes ops' s' cs ∧ C ops' ∧ Inv s' ∧ Goal s' ∧ ∀ c, ¬ Owes ops' s' c := by
  induction hn : ν ops using Nat.strong_induction_on generalizing ops s with
  | _ n ih =>
    subst hn
    induction hm : μ s using Nat.strong_induction_on generalizing ops s with
    | _ m ih2 =>
      subst hm
      by_cases ho : ∃ c, Owes ops s c
      · obtain ⟨c, hc⟩ := ho
        have hout := ha.outside _ _ _ hc
        have htime := ha.now _ _ _ hc
        have hC' := ha.allowed _ _ _ hC hc
        obtain ⟨s', hs'⟩ := hr.did h.run hC' (hr.call ops s c hC h.run hout (by rw [htime]; exact ha.due _ _ hC h.run))
        exact ih _ (ha.fewer _ _ _ hc) (h.answer hc hs') hC' (hR _ _ _ hinv hout htime hs') rfl
      · have ho' : ∀ c, ¬ Owes ops s c := fun c hc => ho ⟨c, hc⟩
        by_cases hg : Goal s
        · exact ⟨ops, s, h, hC, hinv, hg, ho'⟩
        · obtain ⟨o, hi, hd⟩ := hr.more ops s hC h.run (hgo _ hinv hg)
          have hC' := hr.internal _ _ hC hi
          obtain ⟨s', hs'⟩ := hr.did h.run hC' hd
          have hle := ha.mono ops o
          rcases hle.lt_or_eq with hlt | heq
          · exact ih _ hlt (h.event ho' hi hs') hC' (hI _ _ _ hinv hg hi hs') rfl
          · refine ih2 _ (hr.less _ _ _ _ h.run hi hs') (h.event ho' hi hs') hC' (hI _ _ _ hinv hg hi hs') (fun k hk => ?_) rfl
            intro ops s h1 h2 h3 h4
            exact ih k (by omega) h1 h2 h3 h4

/-- Every sequence of calls in the order of their times is carried out by an execution in which the world answers, and which ends with `Q` and everything answered. -/
theorem Runs.loop (hr : Runs step s0 I μ time clock Due Q C) (ha : Answers step s0 I time clock Due C Owes ν) {calls : List O} (hC0 : C [])
    (hC1 : ∀ ops c, C ops → c ∈ calls → C (ops ++ [c])) (hext : ∀ o ∈ calls, I o = false) (hsorted : calls.Pairwise (fun a b => time a ≤ time b)) :
    ∃ ops s, Loop step s0 I Owes ops s calls ∧ C ops ∧ Q s ∧ ∀ c, ¬ Owes ops s c := by
  have key : ∃ ops s, Loop step s0 I Owes ops s calls ∧ C ops ∧ ∀ t, (∀ o ∈ calls, time o ≤ t) → clock s ≤ t := by
    induction calls using List.reverseRecOn with
    | nil => exact ⟨[], s0, .start, hC0, fun t _ => by rw [hr.start]; omega⟩
    | append_singleton cs o ih =>
      rw [List.pairwise_append] at hsorted
      obtain ⟨ops, s, h1, h2, h3⟩ := ih (fun ops c hc hm => hC1 ops c hc (by simp [hm])) (fun o ho => hext o (by simp [ho])) hsorted.1
      obtain ⟨ops', s', k1, k2, k3, k4, k5⟩ := hr.settle ha (Goal := fun s => Due s (time o)) (Inv := fun s => clock s ≤ time o)
        (fun s hi hg => (hr.late s _ hi hg).1) (fun s o' s' hi hg ho hs => (hr.late s _ hi hg).2 _ (hr.when _ _ _ ho hs))
        (fun s o' s' hi ho ht hs => by rw [hr.then_ _ _ _ ho hs, ht]; exact hi) h1 h2 (h3 _ (fun c hc => hsorted.2.2 c hc o (by simp)))
      have ho : I o = false := hext o (by simp)
      have hC' := hC1 ops' o k2 (by simp)
      obtain ⟨s2, hs2⟩ := hr.did k1.run hC' (hr.call _ _ _ k2 k1.run ho k4)
      exact ⟨_, s2, k1.call k5 ho hs2, hC', fun t ht => by rw [hr.then_ _ _ _ ho hs2]; exact ht o (by simp)⟩
  obtain ⟨ops, s, h1, h2, -⟩ := key
  obtain ⟨ops', s', k1, k2, -, k4, k5⟩ := hr.settle ha (Goal := Q) (Inv := fun _ => True) (fun _ _ h => h) (fun _ _ _ _ _ _ _ => trivial)
    (fun _ _ _ _ _ _ _ => trivial) h1 h2 trivial
  exact ⟨ops', s', k1, k2, k4, k5⟩

/-- Unless somebody calls, nothing goes on for ever. -/
theorem Runs.stops (hr : Runs step s0 I μ time clock Due Q C) (ha : Answers step s0 I time clock Due C Owes ν) {ops cs : List O} {s : S}
    (h : Loop step s0 I Owes ops s cs) : ¬ ∃ f : Nat → O, ∀ k, ∃ s', Loop step s0 I Owes (ops ++ (List.range k).map f) s' cs := by
  induction hn : ν ops using Nat.strong_induction_on generalizing ops s with
  | _ n ih =>
    subst hn
    induction hm : μ s using Nat.strong_induction_on generalizing ops s with
    | _ m ih2 =>
      subst hm
      rintro ⟨f, hf⟩
      have hshift : ∀ k, ops ++ (List.range (k + 1)).map f = (ops ++ [f 0]) ++ (List.range k).map (fun i => f (i + 1)) := by
        intro k
        rw [List.range_succ_eq_map, List.map_cons, List.map_map, List.append_assoc, List.singleton_append]
        rfl
      have hf' : ∃ f' : Nat → O, ∀ k, ∃ s', Loop step s0 I Owes ((ops ++ [f 0]) ++ (List.range k).map f') s' cs :=
        ⟨fun i => f (i + 1), fun k => by rw [← hshift]; exact hf (k + 1)⟩
      obtain ⟨s', h'⟩ := hf 1
      have h1 : Loop step s0 I Owes (ops ++ [f 0]) s' cs := h'
      obtain ⟨s1, cs1, l1, d1, e1⟩ := h1.snoc
      obtain rfl : s1 = s := by
        have := l1.run
        rw [h.run] at this
        simpa using this.symm
      have hcs := l1.calls_eq h
      subst hcs
      rcases e1 with ⟨ho, -⟩ | ⟨ho, hi, -⟩ | ⟨-, -, e⟩
      · exact ih _ (ha.fewer _ _ _ ho) h1 rfl hf'
      · rcases (ha.mono ops (f 0)).lt_or_eq with hlt | heq
        · exact ih _ hlt h1 rfl hf'
        · exact ih2 _ (hr.less _ _ _ _ h.run hi d1) h1 (fun k hk => by
            intro ops s h1 h2
            exact ih k (by omega) h1 h2) rfl hf'
      · have := congrArg List.length e
        simp at this

end

end Icarus
