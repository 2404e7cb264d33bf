import Verif.Lemmas.Crdsa
import Verif.Props.Aloha
import Mathlib.MeasureTheory.Measure.Lebesgue.Basic
import Mathlib.Algebra.Order.Field.Basic
import Mathlib.Algebra.Order.Field.Rat

/-!
# Properties C21 – C26: CRDSA

`Peel known collisions` (in `Verif.Lemmas.Crdsa`, without reference to the receiver) is the set of packets obtained from the known packets
by the rule "if all other packets of a collision are known, so is the remaining one".
-/

set_option autoImplicit false

namespace Icarus
open Aloha (Frame Op frames Apart)
open Crdsa

/-! ## C21 -/

/-- Whatever the shuffle, the replicas are sent in pairwise distinct slots of the frame that starts at the first frame boundary not before
now; there are as many as requested. -/
theorem C21_replicas (now slotDur n k : Nat) (shuffled : List Nat) (hperm : shuffled.Perm (slotTable n)) (hk : k ≤ n)
    (hd : 0 < slotDur) (hn : 0 < n) (hb : slotDur * n < 2 ^ 63) :
    ∃ (delays : List Nat) (boundary : Nat) (slots : List Nat), sendDelays now slotDur shuffled k = .ok delays ∧
      slotDur * n ∣ boundary ∧ now ≤ boundary ∧ (∀ t, slotDur * n ∣ t → now ≤ t → boundary ≤ t) ∧
      slots.length = k ∧ slots.Nodup ∧ (∀ s ∈ slots, s < n) ∧
      delays.map (fun d => now + d) = slots.map (fun s => boundary + s * slotDur) := by
  have hlen : shuffled.length = n := by rw [hperm.length_eq]; simp [slotTable]
  have hF : 0 < slotDur * n := Nat.mul_pos hd hn
  have hdelay : frameDelay now slotDur n = Aloha.sendDelay now (slotDur * n) := by
    unfold frameDelay Aloha.sendDelay
    rw [if_pos ⟨hn, hd⟩, if_pos hF]
    simp only [Nat.mul_assoc]
  obtain ⟨c1, c2, c3, -, -, -⟩ := C17_slotted now (slotDur * n) 0 hF (by omega)
  simp only [Aloha.sendCallbacks] at c1 c2 c3
  refine ⟨(shuffled.take k).map (fun slot => frameDelay now slotDur n + slot * slotDur), now + Aloha.sendDelay now (slotDur * n),
    shuffled.take k, ?_, c1, c2, c3, ?_, ?_, ?_, ?_⟩
  · unfold sendDelays getSelectedSlots
    rw [if_pos (by omega), hlen]
    rfl
  · rw [List.length_take]; omega
  · exact (List.take_sublist k shuffled).nodup (hperm.nodup_iff.mpr (by simp [slotTable, List.nodup_range]))
  · intro s hs
    have := hperm.subset (List.mem_of_mem_take hs)
    simpa [slotTable] using this
  · rw [List.map_map, hdelay]
    apply List.map_congr_left
    intro s _
    simp only [Function.comp]
    omega

/-- Every set of slots can be chosen: for any `k` distinct slots, in any order, some shuffle selects them. -/
theorem C21_every_choice (n : Nat) (slots : List Nat) (hnd : slots.Nodup) (hs : ∀ s ∈ slots, s < n) :
    ∃ shuffled, shuffled.Perm (slotTable n) ∧ getSelectedSlots shuffled slots.length = .ok slots := by
  refine ⟨slots ++ (slotTable n).filter (fun s => !slots.contains s), ?_, ?_⟩
  · apply (List.perm_ext_iff_of_nodup ?_ ?_).mpr
    · intro a
      simp only [List.mem_append, List.mem_filter, slotTable, List.mem_range, Bool.not_eq_true', List.contains_eq_mem,
        decide_eq_false_iff_not]
      constructor
      · rintro (h | h)
        · exact hs a h
        · exact h.1
      · intro h
        by_cases ha : a ∈ slots
        · exact Or.inl ha
        · exact Or.inr ⟨h, ha⟩
    · rw [List.nodup_append]
      refine ⟨hnd, (List.nodup_range (n := n)).filter _, ?_⟩
      intro a ha b hb hab
      subst hab
      simp only [List.mem_filter, Bool.not_eq_true', List.contains_eq_mem, decide_eq_false_iff_not] at hb
      exact hb.2 ha
    · simp [slotTable, List.nodup_range]
  · unfold getSelectedSlots
    rw [if_pos (by simp)]
    simp

/-- With more replicas than slots the selection reads outside the slot table. -/
theorem C21_too_many (now slotDur n k : Nat) (shuffled : List Nat) (hperm : shuffled.Perm (slotTable n)) (hk : n < k) :
    sendDelays now slotDur shuffled k = .ub .outOfRange := by
  have hlen : shuffled.length = n := by rw [hperm.length_eq]; simp [slotTable]
  unfold sendDelays getSelectedSlots
  rw [if_neg (by omega)]
  rfl

example : [3, 0, 2, 1].Perm (slotTable 4) ∧ sendDelays 2500 1000 [3, 0, 2, 1] 2 = .ok [1500 + 3000, 1500] := by decide

/-! ## C22 -/

section
variable {K : Type} [Field K] [LinearOrder K] [IsStrictOrderedRing K]

omit [IsStrictOrderedRing K] in
theorem replicaLoop_never_zero {p : K} {n : Nat} {acc : K} {cs : List K} {m : Nat} (h : replicaLoop p n acc cs = .ok m) :
    n ≤ m ∧ ∃ c, cs[m - n]? = some c ∧ 0 < c := by
  induction cs generalizing n acc with
  | nil => simp [replicaLoop] at h
  | cons c cs ih =>
    unfold replicaLoop at h
    split at h
    · rename_i hc
      simp only [Outcome.ok.injEq] at h
      subst h
      exact ⟨Nat.le_refl _, c, by simp, hc.1⟩
    · obtain ⟨h1, c', h2, h3⟩ := ih h
      refine ⟨by omega, c', ?_, h3⟩
      rw [show m - n = (m - (n + 1)) + 1 by omega, List.getElem?_cons_succ]
      exact h2

theorem replicaLoop_interval {p : K} {n : Nat} {acc : K} {cs : List K} (hnn : ∀ c ∈ cs, 0 ≤ c) (hp : acc ≤ p) (m : Nat) :
    replicaLoop p n acc cs = .ok m ↔
      n ≤ m ∧ m - n < cs.length ∧ acc + (cs.take (m - n)).sum ≤ p ∧ p < acc + (cs.take (m - n + 1)).sum := by
  induction cs generalizing n acc with
  | nil => simp [replicaLoop]
  | cons c cs ih =>
    have hc0 : 0 ≤ c := hnn c (by simp)
    have hsum : ∀ l : List K, (∀ x ∈ l, 0 ≤ x) → 0 ≤ l.sum := fun l hl => List.sum_nonneg hl
    unfold replicaLoop
    by_cases hc : 0 < c ∧ p < acc + c
    · rw [if_pos hc]
      simp only [Outcome.ok.injEq]
      constructor
      · rintro rfl
        refine ⟨Nat.le_refl _, by simp, ?_, ?_⟩
        · simpa using hp
        · simpa using hc.2
      · rintro ⟨h1, h2, h3, h4⟩
        by_contra hne
        have hge : n + 1 ≤ m := by omega
        rw [show m - n = (m - (n + 1)) + 1 by omega, List.take_succ_cons, List.sum_cons] at h3
        have := hsum (cs.take (m - (n + 1))) (fun x hx => hnn x (List.mem_cons_of_mem _ (List.mem_of_mem_take hx)))
        have := hc.2
        linarith
    · rw [if_neg hc]
      have hle : acc + c ≤ p := by
        by_contra hlt
        have hlt : p < acc + c := not_le.mp hlt
        have : 0 < c := by linarith
        exact hc ⟨this, hlt⟩
      rw [ih (fun x hx => hnn x (List.mem_cons_of_mem _ hx)) hle]
      constructor
      · rintro ⟨h1, h2, h3, h4⟩
        refine ⟨by omega, by simp only [List.length_cons]; omega, ?_, ?_⟩
        · rw [show m - n = (m - (n + 1)) + 1 by omega, List.take_succ_cons, List.sum_cons]; linarith
        · rw [show m - n = (m - (n + 1)) + 1 by omega, List.take_succ_cons, List.sum_cons]; linarith
      · rintro ⟨h1, h2, h3, h4⟩
        have hne : n ≠ m := by
          rintro rfl
          simp at h4
          linarith
        rw [show m - n = (m - (n + 1)) + 1 by omega, List.take_succ_cons, List.sum_cons] at h3 h4
        simp only [List.length_cons] at h2
        exact ⟨by omega, by omega, by linarith, by linarith⟩

omit [IsStrictOrderedRing K] in
/-- A replica count of probability zero (or the count 0) is never drawn, whatever the coefficients. -/
theorem C22_never_zero_probability (debug : Bool) (coeffs : List K) (p : K) (n : Nat) (h : numReplicas debug coeffs p = .ok n) :
    1 ≤ n ∧ ∃ c, coeffs[n]? = some c ∧ 0 < c := by
  match coeffs with
  | [] => cases debug <;> simp [numReplicas] at h
  | [c0] => cases debug <;> simp [numReplicas] at h
  | c0 :: c1 :: cs =>
    simp only [numReplicas] at h
    have h' : replicaLoop p 1 0 (c1 :: cs) = .ok n := by
      cases debug <;> simp [Outcome.nsAssert] at h
      · exact h
      · split at h <;> simp at h
        exact h
    obtain ⟨h1, c, h2, h3⟩ := replicaLoop_never_zero h'
    refine ⟨h1, c, ?_, h3⟩
    rw [show n = (n - 1) + 1 by omega, List.getElem?_cons_succ]
    exact h2

/-- For non-negative coefficients the drawn count `n` is the one whose cumulative interval contains the sample: the probabilities of the counts
below `n` sum to at most `p`, those up to `n` to more. -/
theorem C22_interval (debug : Bool) (cs : List K) (hsz : cs ≠ []) (hnn : ∀ c ∈ cs, 0 ≤ c) (p : K) (hp : 0 ≤ p) (n : Nat) :
    numReplicas debug (0 :: cs) p = .ok n ↔
      1 ≤ n ∧ n ≤ cs.length ∧ (cs.take (n - 1)).sum ≤ p ∧ p < (cs.take n).sum := by
  obtain ⟨c, cs', rfl⟩ := List.exists_cons_of_ne_nil hsz
  have : numReplicas debug (0 :: c :: cs') p = replicaLoop p 1 0 (c :: cs') := by
    simp [numReplicas, Outcome.nsAssert]
  rw [this, replicaLoop_interval hnn hp]
  simp only [zero_add]
  constructor
  · rintro ⟨h1, h2, h3, h4⟩
    rw [show n - 1 + 1 = n by omega] at h4
    exact ⟨h1, by omega, h3, h4⟩
  · rintro ⟨h1, h2, h3, h4⟩
    rw [show n - 1 + 1 = n by omega]
    exact ⟨h1, by omega, h3, h4⟩

/-- Non-negative coefficients summing to 1 yield a count for every sample in [0, 1). -/
theorem C22_total (debug : Bool) (cs : List K) (hnn : ∀ c ∈ cs, 0 ≤ c) (hs : cs.sum = 1) (p : K) (hp : 0 ≤ p) (hp1 : p < 1) :
    ∃ n, numReplicas debug (0 :: cs) p = .ok n := by
  have hsz : cs ≠ [] := by rintro rfl; simp at hs
  have hex : ∃ n, p < (cs.take n).sum := ⟨cs.length, by rw [List.take_length, hs]; exact hp1⟩
  classical
  have hmin := Nat.find_spec hex
  have hlt := fun m => Nat.find_min hex (m := m)
  generalize Nat.find hex = n at hmin hlt
  have hn1 : 1 ≤ n := by
    rcases Nat.eq_zero_or_pos n with rfl | h
    · simp at hmin; linarith
    · exact h
  have hnl : n ≤ cs.length := by
    by_contra h
    have := hlt cs.length (by omega)
    rw [List.take_length, hs] at this
    exact this hp1
  refine ⟨n, (C22_interval debug cs hsz hnn p hp n).mpr ⟨hn1, hnl, ?_, hmin⟩⟩
  exact not_lt.mp (hlt (n - 1) (by omega))

/-- The draw aborts the simulation exactly when the sample is not below the total probability. -/
theorem C22_abort_iff (debug : Bool) (cs : List K) (hsz : cs ≠ []) (hnn : ∀ c ∈ cs, 0 ≤ c) (p : K) (hp : 0 ≤ p) :
    numReplicas debug (0 :: cs) p = .abort ↔ cs.sum ≤ p := by
  obtain ⟨c, cs', rfl⟩ := List.exists_cons_of_ne_nil hsz
  have : numReplicas debug (0 :: c :: cs') p = replicaLoop p 1 0 (c :: cs') := by
    simp [numReplicas, Outcome.nsAssert]
  rw [this]
  have key : ∀ (l : List K) (n : Nat) (acc : K), (∀ c ∈ l, 0 ≤ c) → (replicaLoop p n acc l = .abort ↔ acc + l.sum ≤ p ∨ l.sum = 0) := by
    intro l
    induction l with
    | nil => intro n acc _; simp [replicaLoop]
    | cons x xs ih =>
      intro n acc hl
      have hx := hl x (by simp)
      have hxs := fun c hc => hl c (List.mem_cons_of_mem _ hc)
      have hsx := List.sum_nonneg hxs
      unfold replicaLoop
      rw [List.sum_cons]
      split
      · rename_i hc
        simp only [reduceCtorEq, false_iff, not_or, not_le]
        exact ⟨by linarith [hc.2], by have := hc.1; intro h; linarith⟩
      · rename_i hc
        rw [ih _ _ hxs]
        constructor
        · rintro (h | h)
          · left; linarith
          · by_cases hx0 : 0 < x
            · left
              have : ¬ p < acc + x := fun h' => hc ⟨hx0, h'⟩
              rw [not_lt] at this
              linarith
            · right; have : x = 0 := le_antisymm (not_lt.mp hx0) hx
              rw [this, h, add_zero]
        · rintro (h | h)
          · left; linarith
          · right; linarith
  rw [key _ _ _ hnn, zero_add]
  exact ⟨fun h => h.elim id (fun h => h ▸ hp), Or.inl⟩

end

/-- The probability of drawing `n` replicas (uniform sample in [0, 1)) is the configured coefficient. -/
theorem C22_distribution (debug : Bool) (cs : List ℝ) (hnn : ∀ c ∈ cs, 0 ≤ c) (hs : cs.sum = 1) (n : Nat) (hn : n < cs.length) :
    MeasureTheory.volume {p : ℝ | 0 ≤ p ∧ p < 1 ∧ numReplicas debug (0 :: cs) p = .ok (n + 1)} = ENNReal.ofReal cs[n] := by
  have hsz : cs ≠ [] := by rintro rfl; simp at hs
  have hle : ∀ m, 0 ≤ (cs.take m).sum ∧ (cs.take m).sum ≤ 1 := by
    intro m
    have h1 := List.sum_nonneg (fun c hc => hnn c (List.mem_of_mem_take hc) : ∀ c ∈ cs.take m, 0 ≤ c)
    have h2 := List.sum_nonneg (fun c hc => hnn c (List.mem_of_mem_drop hc) : ∀ c ∈ cs.drop m, 0 ≤ c)
    have h3 := List.sum_take_add_sum_drop cs m
    exact ⟨h1, by linarith⟩
  have hset : {p : ℝ | 0 ≤ p ∧ p < 1 ∧ numReplicas debug (0 :: cs) p = .ok (n + 1)} =
      Set.Ico ((cs.take n).sum) ((cs.take (n + 1)).sum) := by
    ext p
    simp only [Set.mem_ofPred_eq, Set.mem_Ico]
    constructor
    · rintro ⟨h0, -, h⟩
      have := (C22_interval debug cs hsz hnn p h0 (n + 1)).mp h
      exact ⟨this.2.2.1, this.2.2.2⟩
    · rintro ⟨h1, h2⟩
      have h0 := (hle n).1.trans h1
      exact ⟨h0, lt_of_lt_of_le h2 (hle (n + 1)).2,
        (C22_interval debug cs hsz hnn p h0 (n + 1)).mpr ⟨by omega, by omega, h1, h2⟩⟩
  rw [hset, Real.volume_Ico, List.sum_take_succ _ _ hn]
  congr 1
  ring

example : ∃ n, numReplicas true [0, 0, (1 / 2 : ℚ), 1 / 4, 1 / 4] (3 / 5) = .ok n ∧ n = 3 :=
  ⟨3, by simp [numReplicas, replicaLoop, Outcome.nsAssert]; norm_num, rfl⟩
example : ([0, 1 / 2, 1 / 4, 1 / 4] : List ℝ).sum = 1 ∧ ∀ c ∈ ([0, 1 / 2, 1 / 4, 1 / 4] : List ℝ), 0 ≤ c := by
  constructor
  · norm_num
  · intro c hc; simp at hc; rcases hc with rfl | rfl | rfl <;> norm_num

/-! ## C24 -/

/-- The cancellation loop ends for every set of recorded collisions and received packets: its outcome is not the model's non-termination
outcome; it is a result or (only in the code as written) the iterator error of C25. -/
theorem C24_terminates (strict : Bool) (now : Nat) (ps : List Period) (rs : List (Nat × Nat)) :
    (∃ r, cancel strict now (fuelFor ps) ps rs = .ok r) ∨
    (cancel strict now (fuelFor ps) ps rs = .ub .invalidIterator ∧ strict = true) :=
  (cancel_not_diverged (fuelFor_enough rs ps)).symm

/-- Whenever the loop gives a result: the packets passed up are exactly the packets recoverable by the peeling rule and not received before, each
once; they are recorded as received now; what remains of each collision are its unrecoverable packets, at least two of them. -/
theorem C24_cancellation (strict : Bool) (now : Nat) (ps ps' : List Period) (rs rs' : List (Nat × Nat)) (out : List Nat)
    (hnd : ∀ p ∈ ps, p.pkts.Nodup) (h : cancel strict now (fuelFor ps) ps rs = .ok (ps', rs', out)) :
    let known := Peel (fun u => u ∈ rs.map Prod.fst) (ps.map Period.pkts)
    (∀ u, u ∈ out ↔ known u ∧ u ∉ rs.map Prod.fst) ∧ out.Nodup ∧
    rs' = rs ++ out.map (fun u => (u, now)) ∧
    (∀ p' ∈ ps', 2 ≤ p'.pkts.length) ∧
    (∀ p ∈ ps, (∃ u ∈ p.pkts, ¬ known u) →
      ∃ p' ∈ ps', p'.finish = p.finish ∧ ∀ u, u ∈ p'.pkts ↔ u ∈ p.pkts ∧ ¬ known u) ∧
    (∀ p' ∈ ps', ∃ p ∈ ps, p'.finish = p.finish ∧ ∀ u, u ∈ p'.pkts ↔ u ∈ p.pkts ∧ ¬ known u) := by
  intro known
  obtain ⟨h1, h2, h3, h4, h5, h6⟩ := cancel_spec h
  have hknown : known = Peel (fun u => has rs u = true) (ps.map Period.pkts) := by
    simp only [known, has_iff]
  rw [hknown]
  have hiff : ∀ u, has rs' u = true ↔ Peel (fun u => has rs u = true) (ps.map Period.pkts) u := by
    intro u
    constructor
    · intro hu
      rw [h1, has_append, Bool.or_eq_true] at hu
      rcases hu with hu | hu
      · exact Peel.base hu
      · exact h4 u (has_map.mp hu)
    · intro hu
      induction hu with
      | base hk => rw [h1, has_append, hk]; rfl
      | @recover c u hc hu _ ih =>
        by_contra hno
        obtain ⟨p, hp, rfl⟩ := List.mem_map.mp hc
        have hpk : p.pkts.filter (fun x => !has rs' x) = [u] := by
          apply List.perm_singleton.mp
          refine (List.perm_ext_iff_of_nodup ((hnd p hp).filter _) (by simp)).mpr ?_
          intro a
          simp only [List.mem_filter, Bool.not_eq_true', List.mem_singleton]
          constructor
          · rintro ⟨ha, hna⟩
            by_contra hau
            rw [ih a ha hau] at hna; simp at hna
          · rintro rfl; exact ⟨hu, by simpa using hno⟩
        have hmem : (⟨p.finish, p.pkts.filter (fun x => !has rs' x)⟩ : Period) ∈ ps' := by
          rw [h5]
          exact List.mem_filter.mpr ⟨mem_prune.mpr ⟨p, hp, rfl, rfl⟩, by simp [hpk]⟩
        have : u ∈ singles ps' := mem_singles.mpr ⟨_, hmem, hpk⟩
        rw [h6] at this
        simp at this
  have hmem : ∀ p' ∈ ps', ∃ p ∈ ps, p'.finish = p.finish ∧ p'.pkts = p.pkts.filter (fun u => !has rs' u) ∧ p'.pkts ≠ [] := by
    intro p' hp'
    rw [h5] at hp'
    obtain ⟨hm, hne⟩ := List.mem_filter.mp hp'
    obtain ⟨p, hp, e1, e2⟩ := mem_prune.mp hm
    exact ⟨p, hp, e1, e2, by simpa using hne⟩
  refine ⟨?_, h2, h1, ?_, ?_, ?_⟩
  · intro u
    rw [← has_iff, ← hiff u]
    constructor
    · intro hu
      refine ⟨by rw [h1, has_append, has_map.mpr hu, Bool.or_true], ?_⟩
      rw [h3 u hu]; simp
    · rintro ⟨hu, hno⟩
      rw [h1, has_append, Bool.or_eq_true] at hu
      rcases hu with hu | hu
      · exact absurd hu hno
      · exact has_map.mp hu
  · intro p' hp'
    obtain ⟨p, hp, e1, e2, hne⟩ := hmem p' hp'
    match hpk : p'.pkts with
    | [] => exact absurd hpk hne
    | [u] =>
      have : u ∈ singles ps' := mem_singles.mpr ⟨p', hp', hpk⟩
      rw [h6] at this; simp at this
    | a :: b :: l => simp
  · rintro p hp ⟨u, hu, hnu⟩
    rw [← hiff] at hnu
    refine ⟨⟨p.finish, p.pkts.filter (fun x => !has rs' x)⟩, ?_, rfl, ?_⟩
    · rw [h5]
      refine List.mem_filter.mpr ⟨mem_prune.mpr ⟨p, hp, rfl, rfl⟩, ?_⟩
      have : u ∈ p.pkts.filter (fun x => !has rs' x) := List.mem_filter.mpr ⟨hu, by simpa using hnu⟩
      simp only [Bool.not_eq_true', List.isEmpty_eq_false_iff]
      exact List.ne_nil_of_mem this
    · intro v
      rw [← hiff]
      simp
  · intro p' hp'
    obtain ⟨p, hp, e1, e2, -⟩ := hmem p' hp'
    refine ⟨p, hp, e1, ?_⟩
    intro v
    rw [← hiff, e2]
    simp

/-- Undoing the iterator error changes nothing else: whenever the code as written gives a result, it is the result of the version that removes
all empty collisions, which always gives one. -/
theorem C24_repaired (now : Nat) (ps : List Period) (rs : List (Nat × Nat)) :
    (∃ r, cancel false now (fuelFor ps) ps rs = .ok r) ∧
    (∀ r, cancel true now (fuelFor ps) ps rs = .ok r → cancel false now (fuelFor ps) ps rs = .ok r) := by
  constructor
  · rcases C24_terminates false now ps rs with h | ⟨-, h⟩
    · exact h
    · simp at h
  · intro r h
    rcases cancel_strict now (fuelFor ps) ps rs with h' | h'
    · rw [h'] at h; simp at h
    · rw [← h']; exact h

/-- Packet 1 received; collisions {1,2}, {2,3}, {4,5,3}, {6,7}: 2, then 3 are recovered. -/
example : cancel true 50 (fuelFor [⟨10, [1, 2]⟩, ⟨20, [2, 3]⟩, ⟨30, [4, 5, 3]⟩, ⟨40, [6, 7]⟩])
    [⟨10, [1, 2]⟩, ⟨20, [2, 3]⟩, ⟨30, [4, 5, 3]⟩, ⟨40, [6, 7]⟩] [(1, 45)] =
    .ok ([⟨30, [4, 5]⟩, ⟨40, [6, 7]⟩], [(1, 45), (2, 50), (3, 50)], [2, 3]) := by decide

section
variable {P : Type} [Zero P] [Add P]

omit [Add P] in
/-- The cancellation is what the end of a busy period does: with `collisions` the recorded collisions (this busy period included if its last
frame was lost) and `received` the received packets (that frame included if it was not lost), both without expired entries, the packets
passed up are the last frame's packet, if received for the first time, followed by exactly the packets recoverable by peeling. -/
theorem C24_busy_period_end (strict : Bool) (lost : P → P → Bool) (F : Nat) (s s' : St P) (f : Frame P) (out : List Nat)
    (hlast : s.rx.uid = some f.uid) (hndp : ∀ p ∈ s.periods, p.pkts.Nodup) (hndc : s.collided.Nodup)
    (h : finishRx strict lost F s f = .ok (s', out)) :
    let limit : Int := (f.fin : Int) - 2 * (F : Int)
    let lostFrame := hasCollided lost s.rx f
    let collisions := cleanPeriods limit (s.periods ++ (if lostFrame then [⟨s.rx.finish, s.collided⟩] else []))
    let own := if lostFrame ∨ f.uid ∈ s.received.map Prod.fst then [] else [f.uid]
    let received := cleanReceived limit (s.received ++ own.map (fun u => (u, f.fin)))
    ∃ recovered, out = own ++ recovered ∧ recovered.Nodup ∧
      ∀ u, u ∈ recovered ↔ Peel (fun u => u ∈ received.map Prod.fst) (collisions.map Period.pkts) u ∧ u ∉ received.map Prod.fst := by
  intro limit lostFrame collisions own received
  have hown : (receiveOwn f.fin lostFrame f.uid s.received).2 = own ∧
      (receiveOwn f.fin lostFrame f.uid s.received).1 = s.received ++ own.map (fun u => (u, f.fin)) := by
    unfold receiveOwn
    simp only [own, has_iff]
    cases lostFrame
    · by_cases hm : f.uid ∈ s.received.map Prod.fst
      · simp only [Bool.false_eq_true, if_false, false_or, if_pos hm]; simp
      · simp only [Bool.false_eq_true, if_false, false_or, if_neg hm]; simp
    · simp
  have hcoll : collisionsAt lost F s f = collisions := by
    simp only [collisionsAt, collisions, lostFrame, limit]
    congr 1
    split <;> simp
  have hrec : receivedAt lost F s f = received := by
    simp only [receivedAt, received, limit]
    rw [show hasCollided lost s.rx f = lostFrame from rfl, hown.2]
  have hnd : ∀ p ∈ collisions, p.pkts.Nodup := by
    intro p hp
    have hp' := List.dropWhile_subset _ hp
    rcases List.mem_append.mp hp' with hp' | hp'
    · exact hndp p hp'
    · split at hp'
      · simp at hp'; subst hp'; exact hndc
      · simp at hp'
  rcases finishRx_last (strict := strict) (lost := lost) (frameLen := F) hlast with ⟨hb, -⟩ | ⟨ps, rs, rec, hc, hk⟩
  · rw [hb] at h; simp at h
  · rw [hk] at h
    simp only [Outcome.ok.injEq, Prod.mk.injEq] at h
    rw [hcoll, hrec] at hc
    obtain ⟨c1, c2, -⟩ := C24_cancellation strict f.fin collisions ps received rs rec hnd hc
    refine ⟨rec, ?_, c2, c1⟩
    rw [← h.2]
    rw [show hasCollided lost s.rx f = lostFrame from rfl, hown.1]

/-! ## C23 -/

theorem delivered_recent {strict ties : Bool} {lost : P → P → Bool} {F : Nat} {ops : List (Op P)} {s : Sys P}
    (h : exec strict ties lost F ops = some (.ok s)) :
    s.delivered.Pairwise (fun a b => a.2 = b.2 → a.1 + 2 * F < b.1) ∧
    (∀ d ∈ s.delivered, (∃ t, d.1 ≤ t ∧ (d.2, t) ∈ s.st.received) ∨ d.1 + 2 * F < s.clock) ∧
    (∀ d ∈ s.delivered, d.1 ≤ s.clock) := by
  induction ops using List.reverseRecOn generalizing s with
  | nil =>
    simp only [exec, execFrom, Option.some.injEq, Outcome.ok.injEq] at h
    subst h
    simp [Sys.init]
  | append_singleton os o ih =>
    rw [exec_snoc] at h
    obtain ⟨s0, h0, h1⟩ := h
    obtain ⟨i1, i2, i3⟩ := ih h0
    cases o with
    | arrive f =>
      obtain ⟨hc, rfl⟩ := step_arrive_ok.mp h1
      refine ⟨i1, ?_, fun d hd => Nat.le_trans (i3 d hd) hc.1⟩
      intro d hd
      rcases i2 d hd with h | h
      · exact Or.inl h
      · right; show _ < f.start; omega
    | finish =>
      obtain ⟨f, rest, st, out, hp, hf, rfl⟩ := step_finish_ok.mp h1
      obtain ⟨r1, r2, r3, r4, -⟩ := finishRx_received hf
      have hclk := (crdsa_clock h0).2 f (by simp [hp])
      refine ⟨?_, ?_, ?_⟩
      · rw [List.pairwise_append]
        refine ⟨i1, ?_, ?_⟩
        · rw [List.pairwise_map]
          exact r1.imp (fun hne he => absurd he hne)
        · intro a ha b hb he
          obtain ⟨u, hu, rfl⟩ := List.mem_map.mp hb
          simp only at he ⊢
          rcases i2 a ha with ⟨t, ht, hm⟩ | hlt
          · have := r3 u hu _ hm he
            simp only at this
            omega
          · omega
      · intro d hd
        rcases List.mem_append.mp hd with hd | hd
        · rcases i2 d hd with ⟨t, ht, hm⟩ | hlt
          · rcases r4 _ hm with h | h
            · exact Or.inl ⟨t, ht, h⟩
            · right; simp only at h ⊢; omega
          · right; show _ < f.fin; omega
        · obtain ⟨u, hu, rfl⟩ := List.mem_map.mp hd
          exact Or.inl ⟨f.fin, Nat.le_refl _, r2 u hu⟩
      · intro d hd
        rcases List.mem_append.mp hd with hd | hd
        · exact Nat.le_trans (i3 d hd) hclk
        · obtain ⟨u, hu, rfl⟩ := List.mem_map.mp hd
          exact Nat.le_refl _

/-- In every history, under every event order and every collision test: two deliveries of the same packet uid are more than two frame durations
apart. -/
theorem C23_at_most_once {strict ties : Bool} {lost : P → P → Bool} {F : Nat} {ops : List (Op P)} {s : Sys P}
    (h : exec strict ties lost F ops = some (.ok s)) :
    s.delivered.Pairwise (fun a b => a.2 = b.2 → a.1 + 2 * F < b.1) := (delivered_recent h).1

/-- How often `u` has been passed up. -/
def timesDelivered (u : Nat) (s : Sys P) : Nat := (s.delivered.filter (fun d => d.2 = u)).length

omit [Zero P] [Add P] in
theorem timesDelivered_append (u : Nat) (clock : Nat) (st : St P) (pending : List (Frame P)) (d : List (Nat × Nat)) (out : List Nat) (t : Nat)
    (hnd : out.Nodup) :
    timesDelivered u ⟨clock, st, pending, d ++ out.map (fun x => (t, x))⟩ =
      (d.filter (fun x => x.2 = u)).length + (if u ∈ out then 1 else 0) := by
  unfold timesDelivered
  simp only [List.filter_append, List.length_append]
  congr 1
  rw [List.filter_map, List.length_map]
  induction out with
  | nil => simp
  | cons x xs ih =>
    rw [List.nodup_cons] at hnd
    have := ih hnd.2
    by_cases hx : x = u
    · subst hx
      rw [if_neg hnd.1] at this
      rw [List.filter_cons_of_pos (by simp), List.length_cons, this]
      simp
    · rw [List.filter_cons_of_neg (by simpa using hx), this]
      simp [Ne.symm hx]

theorem delivered_tail {strict ties : Bool} {lost : P → P → Bool} {F : Nat} (u : Nat) {a post : List (Op P)} {s1 s : Sys P}
    (h1 : exec strict ties lost F a = some (.ok s1)) (hidle : s1.pending = []) (h : exec strict ties lost F (a ++ post) = some (.ok s))
    (hap : Apart ties (frames (a ++ post))) (hpost : ∀ f ∈ frames post, f.uid ≠ u) :
    u ∉ s.st.collided ∧ (∀ f ∈ s.pending, f.uid ≠ u) ∧ timesDelivered u s ≤ timesDelivered u s1 + 1 ∧
    (timesDelivered u s1 < timesDelivered u s → ∀ p ∈ s.st.periods, u ∉ p.pkts) ∧
    (u ∈ s1.st.received.map Prod.fst → timesDelivered u s = timesDelivered u s1 ∧ ∀ p ∈ s.st.periods, u ∉ p.pkts) := by
  induction post using List.reverseRecOn generalizing s with
  | nil =>
    rw [List.append_nil] at h hap
    rw [h1] at h
    simp only [Option.some.injEq, Outcome.ok.injEq] at h
    subst h
    have c := inv_exec h1 hap
    refine ⟨?_, by simp [hidle], by omega, fun h => absurd h (Nat.lt_irrefl _), ?_⟩
    · intro hu; exact ((c.busy u).mp hu).1 hidle
    · intro hr
      refine ⟨rfl, fun p hp hu => ?_⟩
      have := (c.idle hidle p hp).2 u hu
      rw [has_iff.mpr hr] at this; simp at this
  | append_singleton os o ih =>
    have hfull := h
    rw [← List.append_assoc] at h
    rw [exec_snoc] at h
    obtain ⟨s0, h0, hstep⟩ := h
    have hap0 : Apart ties (frames (a ++ os)) := by
      unfold Apart at hap ⊢
      rw [← List.append_assoc, Aloha.frames_append, List.pairwise_append] at hap; exact hap.1
    obtain ⟨i1, i2, i3, i4, i5⟩ := ih h0 hap0 (fun f hf => hpost f (by rw [Aloha.frames_append]; simp [hf]))
    cases o with
    | arrive f =>
      obtain ⟨hc, rfl⟩ := step_arrive_ok.mp hstep
      have hfu : f.uid ≠ u := hpost f (by rw [Aloha.frames_append]; simp [frames])
      refine ⟨?_, ?_, i3, i4, i5⟩
      · simp only [startRx, mem_insertKey, not_or]
        exact ⟨Ne.symm hfu, i1⟩
      · intro g hg
        rcases Aloha.mem_schedule.mp hg with rfl | hg
        · exact hfu
        · exact i2 g hg
    | finish =>
      obtain ⟨f, rest, st, out, hp, hf, rfl⟩ := step_finish_ok.mp hstep
      have hfu : f.uid ≠ u := i2 f (by simp [hp])
      have hnd := (finishRx_received hf).1
      rw [timesDelivered_append _ _ _ _ _ _ _ hnd]
      have hpr : ∀ g ∈ rest, g.uid ≠ u := fun g hg => i2 g (by simp [hp, hg])
      have hownu : u ∉ (receiveOwn f.fin (hasCollided lost s0.st.rx f) f.uid s0.st.received).2 := by
        intro hu
        have := ((receiveOwn_spec f.fin (hasCollided lost s0.st.rx f) f.uid s0.st.received).2.2.1 u hu).1
        exact hfu this.symm
      change _ ∧ _ ∧ timesDelivered u s0 + _ ≤ _ ∧ (_ < timesDelivered u s0 + _ → _) ∧ (_ → timesDelivered u s0 + _ = _ ∧ _)
      by_cases hu : s0.st.rx.uid = some f.uid
      · rcases finishRx_last (strict := strict) (lost := lost) (frameLen := F) hu with ⟨hb, -⟩ | ⟨ps, rs, rec, hcan, hk⟩
        · rw [hb] at hf; simp at hf
        · rw [hk] at hf
          simp only [Outcome.ok.injEq, Prod.mk.injEq] at hf
          obtain ⟨rfl, rfl⟩ := hf
          obtain ⟨c1, c2, c3, c4, c5, -⟩ := cancel_spec hcan
          have hat : ∀ p ∈ collisionsAt lost F s0.st f, p ∈ s0.st.periods ∨ p = ⟨s0.st.rx.finish, s0.st.collided⟩ := by
            intro p hpm
            have := List.dropWhile_subset _ hpm
            split at this
            · simp at this; exact this
            · exact Or.inl this
          have hgone : (∀ p ∈ s0.st.periods, u ∉ p.pkts) → u ∉ rec ∧ ∀ p ∈ ps, u ∉ p.pkts := by
            intro hg
            have hg' : ∀ p ∈ collisionsAt lost F s0.st f, u ∉ p.pkts := by
              intro p hpm
              rcases hat p hpm with h | rfl
              · exact hg p h
              · exact i1
            constructor
            · intro hur
              rcases peel_or (c4 u hur) with hk | ⟨cc, hcc, huc⟩
              · rw [c3 u hur] at hk; simp at hk
              · obtain ⟨p, hpm, rfl⟩ := List.mem_map.mp hcc
                exact hg' p hpm huc
            · intro p' hp' hup
              obtain ⟨⟨p, hpm, -, e⟩, -, -⟩ := mem_after_cancel hcan hp'
              rw [e] at hup
              exact hg' p hpm (List.mem_of_mem_filter hup)
          have hafter : u ∈ rec → ∀ p ∈ ps, u ∉ p.pkts := by
            intro hur p hpm hup
            obtain ⟨-, -, hno⟩ := mem_after_cancel hcan hpm
            have := hno u hup
            rw [c1, has_append, has_map.mpr hur, Bool.or_true] at this
            simp at this
          have hmem : (u ∈ (receiveOwn f.fin (hasCollided lost s0.st.rx f) f.uid s0.st.received).2 ++ rec) ↔ u ∈ rec := by
            simp [hownu]
          simp only [hmem]
          refine ⟨by simp, hpr, ?_, ?_, ?_⟩
          · by_cases hur : u ∈ rec
            · have : ¬ timesDelivered u s1 < timesDelivered u s0 := fun hlt => (hgone (i4 hlt)).1 hur
              rw [if_pos hur]; omega
            · rw [if_neg hur]; omega
          · intro hlt
            by_cases hur : u ∈ rec
            · exact hafter hur
            · rw [if_neg hur] at hlt
              exact (hgone (i4 hlt)).2
          · intro hr
            obtain ⟨j1, j2⟩ := i5 hr
            obtain ⟨g1, g2⟩ := hgone j2
            rw [if_neg g1]
            exact ⟨j1, g2⟩
      · rw [finishRx_inner hu] at hf
        simp only [Outcome.ok.injEq, Prod.mk.injEq] at hf
        obtain ⟨rfl, rfl⟩ := hf
        rw [if_neg hownu]
        exact ⟨i1, hpr, i3, i4, i5⟩

/-- If all receptions of packet `u` lie between two instants at most two frame durations apart, at the second of which nothing is being received,
the packet is passed up at most once in the whole history - before, between and after - however many replicas arrive, are received or
are recovered from collisions. -/
theorem C23_once_per_transmission {strict ties : Bool} {lost : P → P → Bool} {F : Nat} (u t0 : Nat) {pre mid post : List (Op P)} {s1 s : Sys P}
    (h1 : exec strict ties lost F (pre ++ mid) = some (.ok s1)) (h : exec strict ties lost F (pre ++ mid ++ post) = some (.ok s))
    (hap : Apart ties (frames (pre ++ mid ++ post)))
    (hpre : ∀ f ∈ frames pre, f.uid ≠ u) (hpost : ∀ f ∈ frames post, f.uid ≠ u) (hmid : ∀ f ∈ frames mid, f.uid = u → t0 ≤ f.start)
    (hidle : s1.pending = []) (hend : s1.clock ≤ t0 + 2 * F) :
    (s.delivered.filter (fun d => d.2 = u)).length ≤ 1 := by
  have hap1 : Apart ties (frames (pre ++ mid)) := by
    unfold Apart at hap ⊢
    rw [Aloha.frames_append, List.pairwise_append] at hap; exact hap.1
  have c := inv_exec h1 hap1
  obtain ⟨d1, d2, d3⟩ := delivered_recent h1
  have hstart : ∀ d ∈ s1.delivered, d.2 = u → t0 ≤ d.1 ∧ d.1 ≤ t0 + 2 * F := by
    intro d hd hdu
    obtain ⟨f, hf, e, hs⟩ := c.delivered d hd
    have := d3 d hd
    rw [Aloha.frames_append, List.mem_append] at hf
    rcases hf with hf | hf
    · exact absurd (e.trans hdu) (hpre f hf)
    · have := hmid f hf (e.trans hdu)
      omega
  have hone : timesDelivered u s1 ≤ 1 := by
    unfold timesDelivered
    have hp := d1.filter (fun d => d.2 = u)
    match hl : s1.delivered.filter (fun d => d.2 = u) with
    | [] => simp [hl]
    | [_] => simp [hl]
    | a :: b :: l =>
      rw [hl] at hp
      have ha : a ∈ s1.delivered.filter (fun d => d.2 = u) := by rw [hl]; simp
      have hb : b ∈ s1.delivered.filter (fun d => d.2 = u) := by rw [hl]; simp
      rw [List.mem_filter, decide_eq_true_eq] at ha hb
      have := (List.pairwise_cons.mp hp).1 b (by simp) (by rw [ha.2, hb.2])
      have h1 := hstart a ha.1 ha.2
      have h2 := hstart b hb.1 hb.2
      omega
  obtain ⟨-, -, t1, -, t3⟩ := delivered_tail u h1 hidle h hap hpost
  change timesDelivered u s ≤ 1
  by_cases h0 : timesDelivered u s1 = 0
  · omega
  · have h0' : 0 < timesDelivered u s1 := Nat.pos_of_ne_zero h0
    unfold timesDelivered at h0'
    obtain ⟨d, hd⟩ := List.exists_mem_of_length_pos h0'
    rw [List.mem_filter, decide_eq_true_eq] at hd
    have hs := hstart d hd.1 hd.2
    rcases d2 d hd.1 with ⟨t, -, hm⟩ | hlt
    · have := t3 (List.mem_map.mpr ⟨_, hm, hd.2⟩)
      omega
    · omega

/-! ## C26 -/

omit [Zero P] [Add P] in
theorem cleanPeriods_filter {limit : Int} {ps : List Period} (hs : ps.Pairwise (fun p q => p.finish ≤ q.finish)) :
    cleanPeriods limit ps = ps.filter (fun p => decide ((p.finish : Int) > limit)) := by
  unfold cleanPeriods
  induction ps with
  | nil => rfl
  | cons p ps ih =>
    rw [List.pairwise_cons] at hs
    by_cases hp : (p.finish : Int) > limit
    · rw [List.dropWhile_cons_of_neg (by simpa using hp), List.filter_cons_of_pos (by simpa using hp)]
      congr 1
      symm
      rw [List.filter_eq_self]
      intro q hq
      have := hs.1 q hq
      simp only [decide_eq_true_eq]
      omega
    · rw [List.dropWhile_cons_of_pos (by simpa using hp), List.filter_cons_of_neg (by simpa using hp)]
      exact ih hs.2

/-- When a busy period ends (at the end of frame `f`), in every history in which receptions of one uid do not coincide: afterwards every
recorded collision is younger than two frame durations and every received-packet entry is not older than that; every entry that young
is kept; and every collision that young is kept as long as it has unknown packets. -/
theorem C26_bounded_memory {strict ties : Bool} {lost : P → P → Bool} {F : Nat} {ops : List (Op P)} {s s' : Sys P} {f : Frame P}
    (h : exec strict ties lost F ops = some (.ok s)) (hap : Apart ties (frames ops)) (hp : s.pending = [f])
    (hstep : step strict ties lost F s .finish = some (.ok s')) :
    (∀ p ∈ s'.st.periods, s'.clock < p.finish + 2 * F) ∧
    (∀ r ∈ s'.st.received, s'.clock ≤ r.2 + 2 * F) ∧
    (∀ r ∈ s.st.received, s'.clock ≤ r.2 + 2 * F → r ∈ s'.st.received) ∧
    (∀ p ∈ s.st.periods, s'.clock < p.finish + 2 * F → (∃ u ∈ p.pkts, u ∉ s'.st.received.map Prod.fst) →
      ∃ p' ∈ s'.st.periods, p'.finish = p.finish ∧ ∀ u, u ∈ p'.pkts ↔ u ∈ p.pkts ∧ u ∉ s'.st.received.map Prod.fst) := by
  have c := inv_exec h hap
  obtain ⟨d0, hd0⟩ := exec_aloha h
  have b := Aloha.base_exec hd0 hap
  obtain ⟨f', rest, st, out, hp', hf, rfl⟩ := step_finish_ok.mp hstep
  rw [hp] at hp'
  simp only [List.cons.injEq] at hp'
  obtain ⟨rfl, rfl⟩ := hp'
  have hu : s.st.rx.uid = some f.uid := (closes_iff b hp).mpr rfl
  have hfin : s.st.rx.finish = f.fin := b.finish_eq f (by show s.pending.getLast? = some f; simp [hp])
  have hclk : s.clock ≤ f.fin := b.future f (by show f ∈ s.pending; simp [hp])
  have hf0 := hf
  rcases finishRx_last (strict := strict) (lost := lost) (frameLen := F) hu with ⟨hb, -⟩ | ⟨ps, rs, rec, hcan, hk⟩
  · rw [hb] at hf; simp at hf
  · rw [hk] at hf
    simp only [Outcome.ok.injEq, Prod.mk.injEq] at hf
    obtain ⟨rfl, rfl⟩ := hf
    obtain ⟨c1, c2, c3, c4, c5, -⟩ := cancel_spec hcan
    simp only
    have hsort : (if hasCollided lost s.st.rx f = true then s.st.periods ++ [⟨s.st.rx.finish, s.st.collided⟩] else s.st.periods).Pairwise
        (fun p q => p.finish ≤ q.finish) := by
      split
      · rw [List.pairwise_append]
        refine ⟨c.sorted, by simp, ?_⟩
        intro p hpm q hq
        simp at hq
        subst hq
        have := c.past p hpm
        simp only
        omega
      · exact c.sorted
    have hat : collisionsAt lost F s.st f = _ := cleanPeriods_filter hsort
    refine ⟨?_, ?_, ?_, ?_⟩
    · intro p' hp'
      obtain ⟨⟨p, hpm, e, -⟩, -, -⟩ := mem_after_cancel hcan hp'
      rw [hat] at hpm
      have := (List.mem_filter.mp hpm).2
      simp only [decide_eq_true_eq] at this
      omega
    · intro r hr
      rw [c1, List.mem_append] at hr
      rcases hr with hr | hr
      · have := (List.mem_filter.mp hr).2
        simp only [Bool.not_eq_true', decide_eq_false_iff_not] at this
        omega
      · obtain ⟨u, -, rfl⟩ := List.mem_map.mp hr
        simp only; omega
    · intro r hr hle
      rcases (finishRx_received hf0).2.2.2.1 r hr with h | h
      · exact h
      · omega
    · rintro p hpm hlt ⟨u, hup, hun⟩
      refine ⟨⟨p.finish, p.pkts.filter (fun x => !has rs x)⟩, ?_, rfl, ?_⟩
      · rw [c5]
        refine List.mem_filter.mpr ⟨mem_prune.mpr ⟨p, ?_, rfl, rfl⟩, ?_⟩
        · rw [hat]
          refine List.mem_filter.mpr ⟨?_, ?_⟩
          · split
            · simp [hpm]
            · exact hpm
          · simp only [decide_eq_true_eq]; omega
        · have : u ∈ p.pkts.filter (fun x => !has rs x) := List.mem_filter.mpr ⟨hup, by
            rw [← has_iff] at hun; simpa using hun⟩
          simp only [Bool.not_eq_true', List.isEmpty_eq_false_iff]
          exact List.ne_nil_of_mem this
      · intro v
        rw [← has_iff]
        simp

end

/-! ## C25 -/

/-- Claim of C25: from no state of a receiver does the end of a reception use an invalidated iterator. -/
def C25_claim : Prop :=
  ∀ (lost : Int → Int → Bool) (F : Nat) (ops : List (Op Int)), ((frames ops).map Frame.pow).all (fun p => decide (0 < p)) →
    Apart true (frames ops) → exec true true lost F ops ≠ some (.ub .invalidIterator)

/-- Slots of 10 ticks.  Slot 0: packets 1 and 2 collide; slot 1: packets 1 and 3 collide; slot 5: packet 1 alone.  Its reception makes 2 and 3
recoverable at once, which empties two collisions in the next pass. -/
def iteratorOps : List (Op Int) :=
  [.arrive ⟨1, 0, 8, 1⟩, .arrive ⟨2, 1, 8, 1⟩, .finish, .finish,
   .arrive ⟨1, 10, 8, 1⟩, .arrive ⟨3, 11, 8, 1⟩, .finish, .finish,
   .arrive ⟨1, 50, 8, 1⟩, .finish]

/-- The code runs into undefined behaviour. -/
theorem C25_invalidated_iterator : exec true true intLost 60 iteratorOps = some (.ub .invalidIterator) := by decide

theorem C25_claim_false : ¬ C25_claim := by
  intro h
  exact h intLost 60 iteratorOps (by decide) (by unfold Apart; decide) C25_invalidated_iterator

/-- The version that removes all empty collisions delivers all three packets. -/
example : (match exec false true intLost 60 iteratorOps with | some (.ok s) => some s.delivered | _ => none) =
    some [(58, 1), (58, 2), (58, 3)] := by decide

/-- A history for C23: packet 2 is received in two replicas, both colliding, and is recovered; other packets come before and after. -/
example :
    let pre : List (Op Int) := [.arrive ⟨9, 0, 4, 1⟩, .finish]
    let mid : List (Op Int) := [.arrive ⟨1, 10, 8, 1⟩, .arrive ⟨2, 11, 8, 1⟩, .finish, .finish,
      .arrive ⟨2, 20, 8, 1⟩, .arrive ⟨3, 21, 8, 1⟩, .finish, .finish, .arrive ⟨1, 40, 8, 1⟩, .finish]
    let post : List (Op Int) := [.arrive ⟨3, 60, 8, 1⟩, .finish]
    (∃ s1, exec true false (fun _ _ => true) 30 (pre ++ mid) = some (.ok s1) ∧ s1.pending = [] ∧ s1.clock ≤ 10 + 2 * 30) ∧
    (∃ s, exec true false (fun _ _ => true) 30 (pre ++ mid ++ post) = some (.ok s) ∧
      s.delivered = [(4, 9), (48, 1), (48, 2), (48, 3)]) ∧
    Apart false (frames (pre ++ mid ++ post)) ∧ (∀ f ∈ frames pre, f.uid ≠ 2) ∧ (∀ f ∈ frames post, f.uid ≠ 2) ∧
    (∀ f ∈ frames mid, f.uid = 2 → 10 ≤ f.start) := by
  refine ⟨⟨_, rfl, by decide, by decide⟩, ⟨_, rfl, by decide⟩, by unfold Apart; decide, by decide, by decide, by decide⟩

/-- A history for C24 and C26: the last frame of a collision ends, with an earlier collision and an earlier received packet on record; the
old received packet is dropped, the young collision is kept. -/
example :
    let ops : List (Op Int) := [.arrive ⟨9, 0, 4, 1⟩, .finish, .arrive ⟨1, 10, 8, 1⟩, .arrive ⟨2, 11, 8, 1⟩, .finish, .finish,
      .arrive ⟨3, 40, 8, 1⟩, .arrive ⟨4, 41, 8, 1⟩, .finish]
    Apart false (frames ops) ∧
    ∃ s s', exec true false (fun _ _ => true) 20 ops = some (.ok s) ∧ s.pending = [⟨4, 41, 8, 1⟩] ∧ s.st.rx.uid = some 4 ∧
      step true false (fun _ _ => true) 20 s .finish = some (.ok s') ∧
      s.st.received = [(9, 4)] ∧ s'.st.received = [] ∧ s'.st.periods = [⟨19, [1, 2]⟩, ⟨49, [3, 4]⟩] := by
  refine ⟨by unfold Apart; decide, _, _, rfl, by decide, by decide, rfl, by decide, by decide, by decide⟩

/-- One pass of the cancellation is undefined exactly when two recorded collisions consist of received packets only. -/
theorem C25_undefined_iff (ps : List Period) (rs : List (Nat × Nat)) :
    mic true ps rs = .ub .invalidIterator ↔
      2 ≤ ps.countP (fun p => p.pkts.all (fun u => decide (u ∈ rs.map Prod.fst))) := by
  rw [mic_true]
  have : (prune rs ps).countP (fun p => p.pkts.isEmpty) = ps.countP (fun p => p.pkts.all (fun u => decide (u ∈ rs.map Prod.fst))) := by
    unfold prune
    rw [List.countP_map]
    apply List.countP_congr
    intro p _
    simp only [Function.comp, List.isEmpty_iff, List.filter_eq_nil_iff, List.all_eq_true, decide_eq_true_eq, ← has_iff]
    simp
  rw [this]
  split <;> simp [*]

section
variable {P : Type} [Zero P] [Add P]

omit [Add P] in
/-- The iterator error is the only way in which the end of a reception can fail. -/
theorem C25_only_failure (strict : Bool) (lost : P → P → Bool) (F : Nat) (s : St P) (f : Frame P) :
    (∃ r, finishRx strict lost F s f = .ok r) ∨ (finishRx strict lost F s f = .ub .invalidIterator ∧ strict = true) := by
  by_cases hu : s.rx.uid = some f.uid
  · rcases finishRx_last (strict := strict) (lost := lost) (frameLen := F) hu with ⟨h, hs, -⟩ | ⟨ps, rs, o, -, hk⟩
    · exact Or.inr ⟨h, hs⟩
    · exact Or.inl ⟨_, hk⟩
  · exact Or.inl ⟨_, finishRx_inner hu⟩

end

end Icarus
