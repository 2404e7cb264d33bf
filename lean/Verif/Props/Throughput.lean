import Verif.Props.Aloha
import Verif.Props.SlottedUplink
import Mathlib.Data.Fintype.BigOperators
import Mathlib.Data.Fintype.Card
import Mathlib.Order.Interval.Finset.Fin
import Mathlib.Analysis.SpecialFunctions.Log.Basic
import Mathlib.Analysis.SpecificLimits.Basic

/-!
# Property C77: throughput of the Aloha access protocols

`N` stations hand one frame each to their MAC at ticks chosen freely from `L` ticks.  All `L ^ N` choices are counted (i.e. choices that are
independent and uniform), and the frames that the receiver passes up are added over all of them.
-/

set_option autoImplicit false

namespace Icarus
open Aloha

/-! ## Executions of the receiver on a given set of frames -/

section
variable {P : Type} [Zero P] [Add P]

/-- The receiver has seen exactly the frames `fs`, and nothing is scheduled any more.  With `ties` in any order of events of the same tick. -/
def Complete (ties : Bool) (lost : P → P → Bool) (fs : List (Frame P)) (s : Sys P) : Prop :=
  ∃ ops, exec ties lost ops = some s ∧ (frames ops).Perm fs ∧ s.pending = []

/-- Running scheduled ends until `t`. -/
theorem drain (lost : P → P → Bool) (t : Nat) : ∀ (n : Nat) (ops : List (Op P)) (s : Sys P), s.pending.length = n → exec false lost ops = some s →
    s.clock ≤ t → s.pending.Pairwise (fun a b => a.fin ≤ b.fin) →
    ∃ ops' s', exec false lost ops' = some s' ∧ frames ops' = frames ops ∧ s'.clock ≤ t ∧ (∀ g ∈ s'.pending, t < g.fin) ∧
      s'.pending.Pairwise (fun a b => a.fin ≤ b.fin) ∧ ∀ g ∈ s'.pending, g ∈ s.pending := by
  intro n
  induction n with
  | zero =>
    intro ops s hn h hc hp
    exact ⟨ops, s, h, rfl, hc, by rw [List.length_eq_zero_iff.mp hn]; simp, hp, fun _ h => h⟩
  | succ n ih =>
    intro ops s hn h hc hp
    match hpend : s.pending with
    | [] => rw [hpend] at hn; simp at hn
    | f :: rest =>
      by_cases hf : f.fin ≤ t
      · obtain ⟨ops', s', h1, h2, h3, h4, h5, h6⟩ := ih (ops ++ [.finish])
          ⟨f.fin, (finishRx lost s.rx f).1, rest, s.delivered ++ (if (finishRx lost s.rx f).2 then [(f.fin, f.uid)] else [])⟩
          (by simp [hpend] at hn; exact hn) (by rw [exec_snoc]; exact ⟨s, h, by simp [step, hpend]⟩) hf
          (by rw [hpend, List.pairwise_cons] at hp; exact hp.2)
        exact ⟨ops', s', h1, by rw [h2, frames_append]; simp [frames], h3, h4, h5, fun g hg => by
          exact List.mem_cons_of_mem _ (h6 g hg)⟩
      · refine ⟨ops, s, h, rfl, hc, ?_, hp, fun g hg => by rw [hpend] at hg; exact hg⟩
        rw [hpend] at hp ⊢
        rw [List.pairwise_cons] at hp
        intro g hg
        rcases List.mem_cons.mp hg with rfl | hg
        · omega
        · have := hp.1 g hg; omega

/-- With ends first is one of the orders. -/
theorem exec_ties {lost : P → P → Bool} {ops : List (Op P)} {s : Sys P} (h : exec false lost ops = some s) (ties : Bool) :
    exec ties lost ops = some s := by
  induction ops using List.reverseRecOn generalizing s with
  | nil => exact h
  | append_singleton os o ih =>
    rw [exec_snoc] at h ⊢
    obtain ⟨s0, h0, h1⟩ := h
    refine ⟨s0, ih h0, ?_⟩
    cases o with
    | finish => exact h1
    | arrive f =>
      simp only [step] at h1 ⊢
      split at h1
      · rename_i hc
        rw [if_pos, h1]
        refine ⟨hc.1, fun g hg => Or.inl ?_⟩
        rcases hc.2 g hg with h | h
        · exact h
        · simp at h
      · simp at h1

/-- Every set of frames can be received. -/
theorem complete_exists (ties : Bool) (lost : P → P → Bool) (fs : List (Frame P)) : ∃ s, Complete ties lost fs s := by
  have key : ∀ l : List (Frame P), l.Pairwise (fun a b => a.start ≤ b.start) → ∀ (ops : List (Op P)) (s : Sys P),
      exec false lost ops = some s → (∀ f ∈ l, s.clock ≤ f.start) → s.pending.Pairwise (fun a b => a.fin ≤ b.fin) →
      ∃ ops' s', exec false lost ops' = some s' ∧ frames ops' = frames ops ++ l ∧
        s'.pending.Pairwise (fun a b => a.fin ≤ b.fin) := by
    intro l
    induction l with
    | nil => intro _ ops s h _ hp; exact ⟨ops, s, h, by simp, hp⟩
    | cons f l ih =>
      intro hs ops s h hc hp
      rw [List.pairwise_cons] at hs
      obtain ⟨o1, s1, a1, a2, a3, a4, a5, -⟩ := drain lost f.start _ ops s rfl h (hc f (by simp)) hp
      obtain ⟨o2, s2, b1, b2, b3⟩ := ih hs.2 (o1 ++ [.arrive f]) ⟨f.start, startRx s1.rx f, schedule f s1.pending, s1.delivered⟩
        (by rw [exec_snoc]; exact ⟨s1, a1, by simp only [step]; rw [if_pos ⟨a3, fun g hg => .inl (a4 g hg)⟩]⟩)
        (fun g hg => hs.1 g hg) (schedule_sorted a5)
      exact ⟨o2, s2, b1, by rw [b2, frames_append, a2]; simp [frames], b3⟩
  obtain ⟨o1, s1, a1, a2, a3⟩ := key (fs.mergeSort (fun a b => decide (a.start ≤ b.start)))
    (by
      have := List.pairwise_mergeSort (le := fun a b : Frame P => decide (a.start ≤ b.start))
        (by intro a b c; simp only [decide_eq_true_eq]; omega) (by intro a b; simp; omega) fs
      exact this.imp (fun h => by simpa using h))
    [] Sys.init rfl (by intro f _; exact Nat.zero_le _) List.Pairwise.nil
  set T := s1.clock + (s1.pending.map Frame.fin).sum with hT
  obtain ⟨o2, s2, b1, b2, b3, b4, -, b6⟩ := drain lost T _ o1 s1 rfl a1 (by omega) a3
  refine ⟨s2, o2, exec_ties b1 ties, ?_, ?_⟩
  · rw [b2, a2]; simpa [frames] using List.mergeSort_perm fs _
  · rw [List.eq_nil_iff_forall_not_mem]
    intro g hg
    have h1 := b4 g hg
    have h2 : g.fin ≤ (s1.pending.map Frame.fin).sum := List.single_le_sum (by simp) _ (List.mem_map_of_mem (b6 g hg))
    omega

end

/-! ## Counting -/

/-- Choices of one element per index in which the choice of index `i` conflicts with none of the others. -/
theorem count_isolated {X : Type} [Fintype X] [DecidableEq X] (R : X → X → Prop) [DecidableRel R] {N : Nat} (i : Fin N) :
    (Finset.univ.filter (fun h : Fin N → X => ∀ j, j ≠ i → ¬ R (h i) (h j))).card =
      ∑ x, (Finset.univ.filter (fun y => ¬ R x y)).card ^ (N - 1) := by
  rw [Finset.card_eq_sum_card_fiberwise (f := fun h => h i) (t := Finset.univ) (fun _ _ => Finset.mem_coe.mpr (Finset.mem_univ _))]
  apply Finset.sum_congr rfl
  intro x _
  have : (Finset.univ.filter (fun h : Fin N → X => ∀ j, j ≠ i → ¬ R (h i) (h j))).filter (fun h => h i = x) =
      Fintype.piFinset (fun j => if j = i then {x} else Finset.univ.filter (fun y => ¬ R x y)) := by
    ext h
    simp only [Finset.mem_filter, Finset.mem_univ, true_and, Fintype.mem_piFinset]
    constructor
    · rintro ⟨h1, rfl⟩ j
      by_cases hj : j = i
      · subst hj; simp
      · rw [if_neg hj]; simpa using h1 j hj
    · intro h1
      have hx : h i = x := by simpa using h1 i
      refine ⟨fun j hj => ?_, hx⟩
      have := h1 j
      rw [if_neg hj] at this
      rw [hx]; simpa using this
  rw [this, Fintype.card_piFinset, ← Finset.mul_prod_erase _ _ (Finset.mem_univ i)]
  rw [if_pos rfl, Finset.card_singleton, one_mul, Finset.prod_congr rfl (g := fun _ => (Finset.univ.filter (fun y => ¬ R x y)).card)]
  · rw [Finset.prod_const, Finset.card_erase_of_mem (Finset.mem_univ i), Finset.card_univ, Fintype.card_fin]
  · intro j hj
    rw [if_neg (Finset.ne_of_mem_erase hj)]

section
variable {P : Type} [Zero P] [Add P]

omit [Zero P] [Add P] in
/-- Number of frames passed up, when these are exactly the frames that do not overlap another one. -/
theorem delivered_count {N : Nat} {fr : Fin N → Frame P} (huid : ∀ i, (fr i).uid = i.val) {fs : List (Frame P)} (hfs : fs.Perm (List.ofFn fr))
    {delivered : List (Nat × Nat)} (h : DeliversExactlyNonOverlapping fs delivered) :
    delivered.length = (Finset.univ.filter (fun i : Fin N => ∀ j, j ≠ i → ¬ Overlap (fr i) (fr j))).card := by
  obtain ⟨h1, h2, h3⟩ := h
  have hmem : ∀ f, f ∈ fs ↔ ∃ i, fr i = f := by intro f; rw [hfs.mem_iff, List.mem_ofFn]
  have hnd : delivered.Nodup := List.Nodup.of_map _ h2
  rw [← List.toFinset_card_of_nodup hnd]
  symm
  apply Finset.card_bij (fun i _ => ((fr i).fin, (fr i).uid))
  · intro i hi
    simp only [Finset.mem_filter, Finset.mem_univ, true_and] at hi
    rw [List.mem_toFinset]
    rw [h1 _ ((hmem _).mpr ⟨i, rfl⟩)]
    intro g hg hne
    obtain ⟨j, rfl⟩ := (hmem g).mp hg
    apply hi j
    rintro rfl; exact hne rfl
  · intro i _ j _ hij
    have := (Prod.mk.inj hij).2
    rw [huid, huid] at this
    exact Fin.ext this
  · intro d hd
    rw [List.mem_toFinset] at hd
    obtain ⟨f, hf, rfl⟩ := h3 d hd
    obtain ⟨i, rfl⟩ := (hmem f).mp hf
    refine ⟨i, ?_, rfl⟩
    simp only [Finset.mem_filter, Finset.mem_univ, true_and]
    intro j hj
    apply (h1 _ hf).mp hd _ ((hmem _).mpr ⟨j, rfl⟩)
    rw [huid, huid]
    intro e; exact hj (Fin.ext e)

omit [Zero P] [Add P] in
/-- Adding over all choices. -/
theorem delivered_sum {X : Type} [Fintype X] [DecidableEq X] (R : X → X → Prop) [DecidableRel R] {N : Nat} {fr : (Fin N → X) → Fin N → Frame P}
    (hov : ∀ h i j, j ≠ i → (Overlap (fr h i) (fr h j) ↔ R (h i) (h j))) {count : (Fin N → X) → Nat}
    (hc : ∀ h, count h = (Finset.univ.filter (fun i : Fin N => ∀ j, j ≠ i → ¬ Overlap (fr h i) (fr h j))).card) :
    ∑ h, count h = N * ∑ x, (Finset.univ.filter (fun y => ¬ R x y)).card ^ (N - 1) := by
  have : ∀ h, count h = ∑ i : Fin N, if (∀ j, j ≠ i → ¬ R (h i) (h j)) then 1 else 0 := by
    intro h
    rw [hc h, Finset.card_filter]
    apply Finset.sum_congr rfl
    intro i _
    congr 1
    apply propext
    constructor
    · intro a j hj; rw [← hov h i j hj]; exact a j hj
    · intro a j hj; rw [hov h i j hj]; exact a j hj
  rw [Finset.sum_congr rfl (fun h _ => this h), Finset.sum_comm]
  rw [Finset.sum_congr rfl (g := fun _ => ∑ x, (Finset.univ.filter (fun y => ¬ R x y)).card ^ (N - 1))]
  · rw [Finset.sum_const, Finset.card_univ, Fintype.card_fin, smul_eq_mul]
  · intro i _
    rw [← Finset.card_filter, count_isolated]

/-! ## Slotted Aloha -/

/-- Frame of station `i` at the receiver: handed to the MAC at tick `h i + 1`, sent by it in slots of length `slot` (0: at once), heard `δ i` later. -/
def heardFrame (slot : Nat) {N L : Nat} (δ len : Fin N → Nat) (pow : Fin N → P) (h : Fin N → Fin L) (i : Fin N) : Frame P :=
  ⟨i, (sendCallbacks (h i + 1) slot (len i)).1 + δ i, len i, pow i⟩

/-- `N` stations send one frame each in one of `M` slots.  Their powers exclude capture.  The delays lie between `lo` and `hi`, every frame is longer than this spread and leaves
more than the spread of its slot empty.  `s h` is the receiver after all frames of the choice `h`, with any order of simultaneous events. -/
structure SlottedRun (lost : P → P → Bool) (N M slot lo hi : Nat) (δ len : Fin N → Nat) (pow : Fin N → P)
    (s : (Fin N → Fin (M * slot)) → Sys P) : Prop where
  all_lost : Drops lost (fun p => ∃ i, pow i = p)
  slot_pos : 0 < slot
  slot_small : slot < 2 ^ 64
  delay : ∀ i, lo ≤ δ i ∧ δ i ≤ hi
  fits : ∀ i, hi - lo < len i ∧ len i + (hi - lo) < slot
  run : ∀ h, Complete true lost (List.ofFn (heardFrame slot δ len pow h)) (s h)

/-- A frame handed over at tick `x + 1` is sent at the end of slot `x / slot`. -/
theorem sent_slot (x slot len : Nat) (hs : 0 < slot) (hb : slot < 2 ^ 64) : (sendCallbacks (x + 1) slot len).1 = (x / slot + 1) * slot := by
  obtain ⟨h1, h2, h3, h4, -⟩ := C17_slotted (x + 1) slot len hs hb
  have e := Nat.div_add_mod x slot
  have l := Nat.mod_lt x hs
  have c : slot * (x / slot) = x / slot * slot := Nat.mul_comm _ _
  have c2 : (x / slot + 1) * slot = x / slot * slot + slot := Nat.succ_mul _ _
  apply Nat.le_antisymm
  · exact h3 _ (Nat.dvd_mul_left _ _) (by omega)
  · obtain ⟨k, hk⟩ := h1
    rw [hk] at h2 ⊢
    rw [Nat.mul_comm]
    apply Nat.mul_le_mul_left
    by_contra hlt
    have : k ≤ x / slot := by omega
    have := Nat.mul_le_mul_left slot this
    omega

theorem card_slot (M slot a : Nat) (ha : a < M) :
    (Finset.univ.filter (fun y : Fin (M * slot) => y.val / slot = a)).card = slot := by
  rcases Nat.eq_zero_or_pos slot with rfl | hs
  · simp
  have : ((Finset.univ.filter (fun y : Fin (M * slot) => y.val / slot = a)).map Fin.valEmbedding) = Finset.Ico (a * slot) (a * slot + slot) := by
    ext y
    simp only [Finset.mem_map, Finset.mem_filter, Finset.mem_univ, true_and, Fin.valEmbedding_apply, Finset.mem_Ico]
    have hM : (a + 1) * slot ≤ M * slot := Nat.mul_le_mul_right _ ha
    have c2 : (a + 1) * slot = a * slot + slot := Nat.succ_mul _ _
    constructor
    · rintro ⟨x, rfl, rfl⟩
      have e := Nat.div_add_mod x.val slot
      have l := Nat.mod_lt x.val hs
      have c : slot * (x.val / slot) = x.val / slot * slot := Nat.mul_comm _ _
      omega
    · rintro ⟨h1, h2⟩
      refine ⟨⟨y, by omega⟩, ?_, rfl⟩
      simp only
      exact Nat.div_eq_of_lt_le h1 (by omega)
  rw [← Finset.card_map Fin.valEmbedding, this, Nat.card_Ico]
  omega

/-- Frames passed up, added over all choices. -/
theorem C77_slotted {lost : P → P → Bool} {N M slot lo hi : Nat} {δ len : Fin N → Nat} {pow : Fin N → P} {s : (Fin N → Fin (M * slot)) → Sys P}
    (hr : SlottedRun lost N M slot lo hi δ len pow s) :
    ∑ h, (s h).delivered.length = N * ((M * slot) * (M * slot - slot) ^ (N - 1)) := by
  have hov : ∀ (h : Fin N → Fin (M * slot)) (i j : Fin N),
      (Overlap (heardFrame slot δ len pow h i) (heardFrame slot δ len pow h j) ↔ (h j).val / slot = (h i).val / slot) ∧
      (heardFrame slot δ len pow h i).start ≠ (heardFrame slot δ len pow h j).fin := by
    intro h i j
    simp only [Overlap, heardFrame, Frame.fin, sent_slot _ _ _ hr.slot_pos hr.slot_small]
    obtain ⟨h1, h2⟩ := Uplink.overlap_iff_slot (t := ((h i).val / slot + 1) * slot) (t' := ((h j).val / slot + 1) * slot) (Nat.dvd_mul_left _ _)
      (Nat.dvd_mul_left _ _) (hr.delay i) (hr.delay j) ⟨(hr.fits i).1, (hr.fits i).2.le⟩ ⟨(hr.fits j).1, (hr.fits j).2.le⟩
    refine ⟨h1.trans ?_, h2 (hr.fits j).2⟩
    constructor
    · intro e
      have := Nat.eq_of_mul_eq_mul_right hr.slot_pos e
      omega
    · intro e; rw [e]
  have hcount : ∀ h, (s h).delivered.length = (Finset.univ.filter (fun i : Fin N => ∀ j, j ≠ i →
      ¬ Overlap (heardFrame slot δ len pow h i) (heardFrame slot δ len pow h j))).card := by
    intro h
    obtain ⟨ops, h1, h2, h3⟩ := hr.run h
    have hm : ∀ f, f ∈ frames ops ↔ ∃ i, heardFrame slot δ len pow h i = f := by intro f; rw [h2.mem_iff, List.mem_ofFn]
    apply delivered_count (fun i => rfl) h2
    apply C18_no_coincidence_partial hr.all_lost h1 _ _ _ _ h3
    · rw [(h2.map _).nodup_iff, List.map_ofFn, List.nodup_ofFn]
      intro i j hij
      exact Fin.ext hij
    · intro f hf
      obtain ⟨i, rfl⟩ := (hm f).mp hf
      have := (hr.fits i).1
      simp only [heardFrame]; omega
    · intro f hf
      obtain ⟨i, rfl⟩ := (hm f).mp hf
      exact ⟨i, rfl⟩
    · intro f hf g hg
      obtain ⟨i, rfl⟩ := (hm f).mp hf
      obtain ⟨j, rfl⟩ := (hm g).mp hg
      exact (hov h i j).2
  rw [delivered_sum (fun x y : Fin (M * slot) => y.val / slot = x.val / slot) (fun h i j _ => (hov h i j).1) hcount]
  congr 1
  rw [Finset.sum_congr rfl (g := fun _ => (M * slot - slot) ^ (N - 1))]
  · simp
  · intro x _
    congr 1
    have hc := Finset.card_filter_add_card_filter_not (s := (Finset.univ : Finset (Fin (M * slot)))) (fun y => y.val / slot = x.val / slot)
    rw [card_slot M slot _ (Nat.div_lt_of_lt_mul (lt_of_lt_of_eq x.2 (Nat.mul_comm _ _))), Finset.card_univ, Fintype.card_fin] at hc
    omega

open Filter Topology in
/-- `(1 - x) ^ n` tends to `exp (-g)` when `x` tends to zero and `n x` to `g`. -/
theorem pow_tendsto {x : ℕ → ℝ} {n : ℕ → ℕ} {g : ℝ} (hx : Tendsto x atTop (𝓝 0))
    (hn : Tendsto (fun k => (n k : ℝ) * x k) atTop (𝓝 g)) : Tendsto (fun k => (1 - x k) ^ n k) atTop (𝓝 (Real.exp (-g))) := by
  have h1 : ∀ᶠ k in atTop, x k < 1 := hx.eventually_lt_const (by norm_num)
  have hup : Tendsto (fun k => Real.exp (-((n k : ℝ) * x k))) atTop (𝓝 (Real.exp (-g))) :=
    (Real.continuous_exp.tendsto _).comp hn.neg
  have hlo : Tendsto (fun k => Real.exp (-((n k : ℝ) * x k / (1 - x k)))) atTop (𝓝 (Real.exp (-g))) := by
    apply (Real.continuous_exp.tendsto _).comp
    apply Tendsto.neg
    have : Tendsto (fun k => 1 - x k) atTop (𝓝 1) := by simpa using hx.const_sub 1
    have h := hn.div this one_ne_zero
    rw [div_one] at h
    exact h
  refine tendsto_of_tendsto_of_tendsto_of_le_of_le' hlo hup ?_ ?_
  · filter_upwards [h1] with k hk
    have hpos : 0 < 1 - x k := by linarith
    rw [show -((n k : ℝ) * x k / (1 - x k)) = (n k : ℝ) * (-(x k / (1 - x k))) by ring, Real.exp_nat_mul]
    apply pow_le_pow_left₀ (Real.exp_pos _).le
    rw [Real.exp_neg, inv_le_comm₀ (Real.exp_pos _) hpos]
    have := Real.add_one_le_exp (x k / (1 - x k))
    have e : (1 - x k)⁻¹ = x k / (1 - x k) + 1 := by field_simp; ring
    rw [e]; exact this
  · filter_upwards [h1] with k hk
    rw [show -((n k : ℝ) * x k) = (n k : ℝ) * (-(x k)) by ring, Real.exp_nat_mul]
    apply pow_le_pow_left₀ (by linarith)
    have := Real.add_one_le_exp (-(x k))
    linarith

omit [Zero P] [Add P] in
theorem slotted_mean {N M slot X : Nat} (hX : X = N * ((M * slot) * (M * slot - slot) ^ (N - 1))) (hs0 : 0 < slot) (hM : 0 < M) :
    (X : ℝ) / (Fintype.card (Fin N → Fin (M * slot)) : ℝ) = N * (1 - 1 / (M : ℝ)) ^ (N - 1) := by
  rw [hX]
  rcases N with _ | n
  · simp
  have hs : (slot : ℝ) ≠ 0 := by positivity
  have hM' : (M : ℝ) ≠ 0 := by positivity
  have hle : slot ≤ M * slot := Nat.le_mul_of_pos_left _ hM
  simp only [Fintype.card_fun, Fintype.card_fin, Nat.add_sub_cancel]
  push_cast [Nat.cast_sub hle]
  have : (M : ℝ) * slot - slot = (M * slot) * (1 - 1 / (M : ℝ)) := by field_simp
  rw [this, mul_pow (_ * _), pow_succ]
  field_simp

/-- Mean number of frames passed up. -/
theorem C77_slotted_mean {lost : P → P → Bool} {N M slot lo hi : Nat} {δ len : Fin N → Nat} {pow : Fin N → P}
    {s : (Fin N → Fin (M * slot)) → Sys P} (hr : SlottedRun lost N M slot lo hi δ len pow s) (hM : 0 < M) :
    ((∑ h, (s h).delivered.length : ℕ) : ℝ) / (Fintype.card (Fin N → Fin (M * slot)) : ℝ) = N * (1 - 1 / (M : ℝ)) ^ (N - 1) :=
  slotted_mean (C77_slotted hr) hr.slot_pos hM

omit [Zero P] [Add P] in
open Filter Topology in
theorem slotted_limit {N M slot X : ℕ → ℕ} (hX : ∀ k, X k = N k * ((M k * slot k) * (M k * slot k - slot k) ^ (N k - 1))) (hs0 : ∀ k, 0 < slot k)
    {g : ℝ} (hM : Tendsto M atTop atTop) (hg : Tendsto (fun k => (N k : ℝ) / M k) atTop (𝓝 g)) :
    Tendsto (fun k => (X k : ℝ) / (Fintype.card (Fin (N k) → Fin (M k * slot k)) : ℝ) / M k) atTop (𝓝 (g * Real.exp (-g))) := by
  have hinv : Tendsto (fun k => 1 / (M k : ℝ)) atTop (𝓝 0) := tendsto_one_div_atTop_nhds_zero_nat.comp hM
  have hpow : Tendsto (fun k => (1 - 1 / (M k : ℝ)) ^ (N k - 1)) atTop (𝓝 (Real.exp (-g))) := by
    apply pow_tendsto hinv
    have h1 : Tendsto (fun k => (N k : ℝ) / M k - 1 / (M k : ℝ)) atTop (𝓝 g) := by simpa using hg.sub hinv
    have h2 : Tendsto (fun k => (N k : ℝ) / M k) atTop (𝓝 g) := hg
    refine tendsto_of_tendsto_of_tendsto_of_le_of_le h1 h2 ?_ ?_
    · intro k
      have : (N k : ℝ) - 1 ≤ ((N k - 1 : ℕ) : ℝ) := by
        have : N k ≤ (N k - 1) + 1 := by omega
        have : (N k : ℝ) ≤ ((N k - 1 : ℕ) : ℝ) + 1 := by exact_mod_cast this
        linarith
      simp only
      rw [← sub_div, mul_one_div]
      gcongr
    · intro k
      simp only
      rw [mul_one_div]
      gcongr
      omega
  refine (hg.mul hpow).congr' ?_
  filter_upwards [hM.eventually_gt_atTop 0] with k hk
  rw [slotted_mean (hX k) (hs0 k) hk]
  ring

open Filter Topology in
/-- With many slots and `g` frames per slot, `g * exp (-g)` frames per slot are passed up on average. -/
theorem C77_slotted_limit {lost : P → P → Bool} {N M slot lo hi : ℕ → ℕ} {δ len : ∀ k, Fin (N k) → Nat} {pow : ∀ k, Fin (N k) → P}
    {s : ∀ k, (Fin (N k) → Fin (M k * slot k)) → Sys P}
    (hr : ∀ k, SlottedRun lost (N k) (M k) (slot k) (lo k) (hi k) (δ k) (len k) (pow k) (s k)) {g : ℝ}
    (hM : Tendsto M atTop atTop) (hg : Tendsto (fun k => (N k : ℝ) / M k) atTop (𝓝 g)) :
    Tendsto (fun k => ((∑ h, (s k h).delivered.length : ℕ) : ℝ) / (Fintype.card (Fin (N k) → Fin (M k * slot k)) : ℝ) / M k) atTop
      (𝓝 (g * Real.exp (-g))) :=
  slotted_limit (fun k => C77_slotted (hr k)) (fun k => (hr k).slot_pos) hM hg

/-! ## Pure Aloha -/

/-- `N` stations send one frame of `len` ticks each at once at one of `L` ticks; their powers exclude capture; all delays are `δ`; ends come before starts of the same tick. -/
structure PureRun (lost : P → P → Bool) (N L len δ : Nat) (pow : Fin N → P) (s : (Fin N → Fin L) → Sys P) : Prop where
  all_lost : Drops lost (fun p => ∃ i, pow i = p)
  len_pos : 0 < len
  run : ∀ h, Complete false lost (List.ofFn (heardFrame 0 (fun _ => δ) (fun _ => len) pow h)) (s h)

/-- Ticks at which a frame does not disturb one of tick `x`. -/
def harmless (L len : Nat) (x : Fin L) : Nat := (Finset.univ.filter (fun y : Fin L => y.val + len ≤ x.val ∨ x.val + len ≤ y.val)).card

/-- Frames passed up, added over all choices. -/
theorem C77_pure {lost : P → P → Bool} {N L len δ : Nat} {pow : Fin N → P} {s : (Fin N → Fin L) → Sys P} (hr : PureRun lost N L len δ pow s) :
    ∑ h, (s h).delivered.length = N * ∑ x, harmless L len x ^ (N - 1) := by
  have hov : ∀ (h : Fin N → Fin L) (i j : Fin N),
      Overlap (heardFrame 0 (fun _ => δ) (fun _ => len) pow h i) (heardFrame 0 (fun _ => δ) (fun _ => len) pow h j) ↔
        ¬ ((h j).val + len ≤ (h i).val ∨ (h i).val + len ≤ (h j).val) := by
    intro h i j
    simp only [Overlap, heardFrame, Frame.fin, C17_unslotted]
    omega
  have hcount : ∀ h, (s h).delivered.length = (Finset.univ.filter (fun i : Fin N => ∀ j, j ≠ i →
      ¬ Overlap (heardFrame 0 (fun _ => δ) (fun _ => len) pow h i) (heardFrame 0 (fun _ => δ) (fun _ => len) pow h j))).card := by
    intro h
    obtain ⟨ops, h1, h2, h3⟩ := hr.run h
    have hm : ∀ f, f ∈ frames ops ↔ ∃ i, heardFrame 0 (fun _ => δ) (fun _ => len) pow h i = f := by intro f; rw [h2.mem_iff, List.mem_ofFn]
    apply delivered_count (fun i => rfl) h2
    apply C18_ends_first_partial hr.all_lost h1 _ _ _ h3
    · rw [(h2.map _).nodup_iff, List.map_ofFn, List.nodup_ofFn]
      intro i j hij
      exact Fin.ext hij
    · intro f hf
      obtain ⟨i, rfl⟩ := (hm f).mp hf
      exact hr.len_pos
    · intro f hf
      obtain ⟨i, rfl⟩ := (hm f).mp hf
      exact ⟨i, rfl⟩
  rw [delivered_sum (fun x y : Fin L => ¬ (y.val + len ≤ x.val ∨ x.val + len ≤ y.val)) (fun h i j _ => hov h i j) hcount]
  simp only [not_not, harmless]

/-- Away from the ends exactly `2 len - 1` ticks are harmful, elsewhere fewer. -/
theorem harmless_eq (L len : Nat) (hl : 0 < len) (x : Fin L) :
    L ≤ harmless L len x + (2 * len - 1) ∧ harmless L len x ≤ L ∧
      (len ≤ x.val + 1 → x.val + len ≤ L → harmless L len x + (2 * len - 1) = L) := by
  have hc := Finset.card_filter_add_card_filter_not (s := (Finset.univ : Finset (Fin L))) (fun y => y.val + len ≤ x.val ∨ x.val + len ≤ y.val)
  have hm : ((Finset.univ.filter (fun y : Fin L => ¬ (y.val + len ≤ x.val ∨ x.val + len ≤ y.val))).map Fin.valEmbedding) =
      Finset.Ico (x.val + 1 - len) (min L (x.val + len)) := by
    ext y
    simp only [Finset.mem_map, Finset.mem_filter, Finset.mem_univ, true_and, Fin.valEmbedding_apply, Finset.mem_Ico]
    constructor
    · rintro ⟨y, h, rfl⟩
      have := y.2
      omega
    · rintro ⟨h1, h2⟩
      exact ⟨⟨y, by omega⟩, by simp only; omega, rfl⟩
  have hk := congrArg Finset.card hm
  rw [Finset.card_map, Nat.card_Ico] at hk
  rw [hk, Finset.card_univ, Fintype.card_fin] at hc
  have hx := x.2
  unfold harmless
  omega

omit [Zero P] [Add P] in
theorem pure_bounds {N L len X : Nat} (hX : X = N * ∑ x, harmless L len x ^ (N - 1)) (hl : 0 < len) :
    N * (L * (L - (2 * len - 1)) ^ (N - 1)) ≤ X ∧ X ≤ N * (L * (L - (2 * len - 1)) ^ (N - 1) + 2 * len * L ^ (N - 1)) := by
  rw [hX]
  constructor
  · apply Nat.mul_le_mul_left
    calc L * (L - (2 * len - 1)) ^ (N - 1) = ∑ _x : Fin L, (L - (2 * len - 1)) ^ (N - 1) := by simp
      _ ≤ _ := by
        apply Finset.sum_le_sum
        intro x _
        apply Nat.pow_le_pow_left
        have := (harmless_eq L len hl x).1
        omega
  · apply Nat.mul_le_mul_left
    calc ∑ x, harmless L len x ^ (N - 1)
        ≤ ∑ x : Fin L, ((L - (2 * len - 1)) ^ (N - 1) + if x.val + 1 < len ∨ L < x.val + len then L ^ (N - 1) else 0) := by
          apply Finset.sum_le_sum
          intro x _
          obtain ⟨h1, h2, h3⟩ := harmless_eq L len hl x
          split
          · exact le_trans (Nat.pow_le_pow_left h2 _) (Nat.le_add_left _ _)
          · rename_i hn
            rw [add_zero]
            apply Nat.pow_le_pow_left
            have := h3 (by omega) (by omega)
            omega
      _ = L * (L - (2 * len - 1)) ^ (N - 1) +
          (Finset.univ.filter (fun x : Fin L => x.val + 1 < len ∨ L < x.val + len)).card * L ^ (N - 1) := by
          rw [Finset.sum_add_distrib, ← Finset.sum_filter]; simp
      _ ≤ _ := by
          apply Nat.add_le_add_left
          apply Nat.mul_le_mul_right
          have : ((Finset.univ.filter (fun x : Fin L => x.val + 1 < len ∨ L < x.val + len)).map Fin.valEmbedding) ⊆
              Finset.range len ∪ Finset.Ico (L - len) L := by
            intro y
            simp only [Finset.mem_map, Finset.mem_filter, Finset.mem_univ, true_and, Fin.valEmbedding_apply, Finset.mem_union, Finset.mem_range,
              Finset.mem_Ico]
            rintro ⟨y, h, rfl⟩
            have := y.2
            omega
          have hk := le_trans (Finset.card_le_card this) (Finset.card_union_le _ _)
          rw [Finset.card_map, Finset.card_range, Nat.card_Ico] at hk
          omega

/-- Bounds of the total. -/
theorem C77_pure_bounds {lost : P → P → Bool} {N L len δ : Nat} {pow : Fin N → P} {s : (Fin N → Fin L) → Sys P}
    (hr : PureRun lost N L len δ pow s) :
    N * (L * (L - (2 * len - 1)) ^ (N - 1)) ≤ ∑ h, (s h).delivered.length ∧
    ∑ h, (s h).delivered.length ≤ N * (L * (L - (2 * len - 1)) ^ (N - 1) + 2 * len * L ^ (N - 1)) :=
  pure_bounds (C77_pure hr) hr.len_pos

omit [Zero P] [Add P] in
open Filter Topology in
theorem pure_limit {N L len X : ℕ → ℕ} (hX : ∀ k, X k = N k * ∑ x, harmless (L k) (len k) x ^ (N k - 1)) (hl : ∀ k, 0 < len k)
    {g : ℝ} (hN : Tendsto N atTop atTop) (hlen : Tendsto len atTop atTop)
    (hg : Tendsto (fun k => (N k : ℝ) * len k / L k) atTop (𝓝 g)) (hL : ∀ k, 2 * len k ≤ L k) :
    Tendsto (fun k => (X k : ℝ) / (Fintype.card (Fin (N k) → Fin (L k)) : ℝ) * (len k / L k)) atTop (𝓝 (g * Real.exp (-(2 * g)))) := by
  have hNinv : Tendsto (fun k => 1 / (N k : ℝ)) atTop (𝓝 0) := tendsto_one_div_atTop_nhds_zero_nat.comp hN
  have hlinv : Tendsto (fun k => 1 / (len k : ℝ)) atTop (𝓝 0) := tendsto_one_div_atTop_nhds_zero_nat.comp hlen
  have hl0 : ∀ k, (0 : ℝ) < len k := fun k => by exact_mod_cast hl k
  have hL0 : ∀ k, (0 : ℝ) < L k := fun k => by have := hl k; have := hL k; exact_mod_cast (by omega : 0 < L k)
  have hN0 : ∀ᶠ k in atTop, (0 : ℝ) < N k := by
    filter_upwards [hN.eventually_gt_atTop 0] with k hk
    exact_mod_cast hk
  have hfrac : Tendsto (fun k => (len k : ℝ) / L k) atTop (𝓝 0) := by
    have := hg.mul hNinv
    rw [mul_zero] at this
    refine this.congr' ?_
    filter_upwards [hN0] with k hk
    field_simp
  set x : ℕ → ℝ := fun k => ((2 * len k - 1 : ℕ) : ℝ) / L k with hxdef
  have hxeq : ∀ k, x k = (len k : ℝ) / L k * (2 - 1 / (len k : ℝ)) := by
    intro k
    have h1 := hl k
    have h2 := hl0 k
    simp only [hxdef]
    rw [Nat.cast_sub (by omega)]
    push_cast
    field_simp
  have htwo : Tendsto (fun k => 2 - 1 / (len k : ℝ)) atTop (𝓝 2) := by simpa using hlinv.const_sub 2
  have hx0 : Tendsto x atTop (𝓝 0) := by
    have := hfrac.mul htwo
    rw [zero_mul] at this
    exact this.congr (fun k => (hxeq k).symm)
  have hnx : Tendsto (fun k => ((N k - 1 : ℕ) : ℝ) * x k) atTop (𝓝 (2 * g)) := by
    have h1 := (hg.mul htwo).sub hx0
    rw [sub_zero, mul_comm g 2] at h1
    refine h1.congr' ?_
    filter_upwards [hN.eventually_gt_atTop 0] with k hk
    rw [Nat.cast_sub (by omega), hxeq k]
    push_cast
    ring
  have hpow := pow_tendsto hx0 hnx
  have hlo : Tendsto (fun k => (N k : ℝ) * len k / L k * (1 - x k) ^ (N k - 1)) atTop (𝓝 (g * Real.exp (-(2 * g)))) := hg.mul hpow
  have hup : Tendsto (fun k => (N k : ℝ) * len k / L k * ((1 - x k) ^ (N k - 1) + 2 * (len k / L k))) atTop (𝓝 (g * Real.exp (-(2 * g)))) := by
    have := hg.mul (hpow.add (hfrac.const_mul 2))
    simpa using this
  have hpw : ∀ k, 0 < N k → (L k : ℝ) ^ N k = L k * (L k : ℝ) ^ (N k - 1) := by
    intro k hk
    obtain ⟨n, hn⟩ : ∃ n, N k = n + 1 := ⟨N k - 1, by omega⟩
    rw [hn, Nat.add_sub_cancel, pow_succ]; ring
  have hbase : ∀ k, ((L k - (2 * len k - 1) : ℕ) : ℝ) = L k * (1 - x k) := by
    intro k
    have := hL k
    rw [Nat.cast_sub (by omega)]
    simp only [hxdef]
    have := hL0 k
    field_simp
  refine tendsto_of_tendsto_of_tendsto_of_le_of_le' hlo hup ?_ ?_
  · filter_upwards [hN.eventually_gt_atTop 0] with k hk
    have hb : ((N k * (L k * (L k - (2 * len k - 1)) ^ (N k - 1)) : ℕ) : ℝ) ≤ (X k : ℝ) := by
      exact_mod_cast (pure_bounds (hX k) (hl k)).1
    rw [Nat.cast_mul, Nat.cast_mul, Nat.cast_pow, hbase k, mul_pow] at hb
    simp only [Fintype.card_fun, Fintype.card_fin, Nat.cast_pow]
    rw [hpw k hk]
    have h1 := hL0 k
    have h2 := hl0 k
    have h3 : (0 : ℝ) < (L k : ℝ) ^ (N k - 1) := by positivity
    calc (N k : ℝ) * len k / L k * (1 - x k) ^ (N k - 1)
        = ((N k : ℝ) * (L k * ((L k : ℝ) ^ (N k - 1) * (1 - x k) ^ (N k - 1)))) / (L k * (L k : ℝ) ^ (N k - 1)) * (len k / L k) := by field_simp
      _ ≤ _ := by gcongr
  · filter_upwards [hN.eventually_gt_atTop 0] with k hk
    have hb : (X k : ℝ) ≤
        ((N k * (L k * (L k - (2 * len k - 1)) ^ (N k - 1) + 2 * len k * L k ^ (N k - 1)) : ℕ) : ℝ) := by
      exact_mod_cast (pure_bounds (hX k) (hl k)).2
    rw [Nat.cast_mul, Nat.cast_add, Nat.cast_mul, Nat.cast_mul, Nat.cast_mul, Nat.cast_pow, Nat.cast_pow, hbase k, mul_pow] at hb
    simp only [Fintype.card_fun, Fintype.card_fin, Nat.cast_pow]
    rw [hpw k hk]
    have h1 := hL0 k
    have h2 := hl0 k
    have h3 : (0 : ℝ) < (L k : ℝ) ^ (N k - 1) := by positivity
    calc _ ≤ ((N k : ℝ) * (L k * ((L k : ℝ) ^ (N k - 1) * (1 - x k) ^ (N k - 1)) + (2 : ℕ) * len k * (L k : ℝ) ^ (N k - 1))) /
          (L k * (L k : ℝ) ^ (N k - 1)) * (len k / L k) := by gcongr
      _ = _ := by push_cast; field_simp

open Filter Topology in
/-- With many stations, frames of many ticks and `g` frames per duration of a frame, `g * exp (-2 g)` frames are passed up per duration of a frame on
average. -/
theorem C77_pure_limit {lost : P → P → Bool} {N L len δ : ℕ → ℕ} {pow : ∀ k, Fin (N k) → P} {s : ∀ k, (Fin (N k) → Fin (L k)) → Sys P}
    (hr : ∀ k, PureRun lost (N k) (L k) (len k) (δ k) (pow k) (s k)) {g : ℝ} (hN : Tendsto N atTop atTop) (hlen : Tendsto len atTop atTop)
    (hg : Tendsto (fun k => (N k : ℝ) * len k / L k) atTop (𝓝 g)) (hL : ∀ k, 2 * len k ≤ L k) :
    Tendsto (fun k => ((∑ h, (s k h).delivered.length : ℕ) : ℝ) / (Fintype.card (Fin (N k) → Fin (L k)) : ℝ) * (len k / L k)) atTop
      (𝓝 (g * Real.exp (-(2 * g)))) :=
  pure_limit (fun k => C77_pure (hr k)) (fun k => (hr k).len_pos) hN hlen hg hL

end

/-- The limits are largest at one frame per slot and at half a frame per duration of a frame (the values in test/icarus-mac-model-test-suite.cc:306-308). -/
theorem C77_maximum (g : ℝ) :
    g * Real.exp (-g) ≤ 1 / Real.exp 1 ∧ g * Real.exp (-(2 * g)) ≤ 1 / (2 * Real.exp 1) ∧
    1 * Real.exp (-1) = 1 / Real.exp 1 ∧ (1 / 2) * Real.exp (-(2 * (1 / 2))) = 1 / (2 * Real.exp 1) := by
  have key : ∀ y : ℝ, y * Real.exp (-y) ≤ 1 / Real.exp 1 := by
    intro y
    have h := Real.add_one_le_exp (y - 1)
    rw [Real.exp_neg, ← div_eq_mul_inv, div_le_div_iff₀ (Real.exp_pos _) (Real.exp_pos _), one_mul]
    rw [Real.exp_sub, le_div_iff₀ (Real.exp_pos _)] at h
    linarith
  refine ⟨key g, ?_, ?_, ?_⟩
  · have h := key (2 * g)
    have e : 1 / (2 * Real.exp 1) = (1 / Real.exp 1) / 2 := by rw [div_div, mul_comm]
    rw [e]
    linarith
  · rw [Real.exp_neg]; simp
  · rw [show (2 : ℝ) * (1 / 2) = 1 by norm_num, Real.exp_neg]; field_simp

/-! ### Non-vacuity -/

section
variable {P : Type} [Zero P] [Add P]

/-- There are receivers as in `C77_slotted` for every number of stations and slots, … -/
theorem slottedRun_exists {lost : P → P → Bool} {Q : P → Prop} (hlost : Drops lost Q) (N M slot lo hi : Nat) (hs : hi - lo + (hi - lo) + 2 ≤ slot)
    (hb : slot < 2 ^ 64) (δ : Fin N → Nat) (hδ : ∀ i, lo ≤ δ i ∧ δ i ≤ hi) (pow : Fin N → P) (hp : ∀ i, Q (pow i)) :
    ∃ s, SlottedRun lost N M slot lo hi δ (fun _ => hi - lo + 1) pow s := by
  choose s hs' using fun h : Fin N → Fin (M * slot) => complete_exists true lost (List.ofFn (heardFrame slot δ (fun _ => hi - lo + 1) pow h))
  exact ⟨s, hlost.mono (by rintro _ ⟨i, rfl⟩; exact hp i), by omega, hb, hδ, fun i => by omega, hs'⟩

/-- … and as in `C77_pure` for every number of stations and ticks. -/
theorem pureRun_exists {lost : P → P → Bool} {Q : P → Prop} (hlost : Drops lost Q) (N L len δ : Nat) (hl : 0 < len) (pow : Fin N → P)
    (hp : ∀ i, Q (pow i)) : ∃ s, PureRun lost N L len δ pow s := by
  choose s hs' using fun h : Fin N → Fin L => complete_exists false lost (List.ofFn (heardFrame 0 (fun _ => δ) (fun _ => len) pow h))
  exact ⟨s, hlost.mono (by rintro _ ⟨i, rfl⟩; exact hp i), hl, hs'⟩

end

example : ∃ s, SlottedRun intLost 250 1000 672 2 3 (fun _ => 3) (fun _ => 2) (fun _ => 1) s :=
  slottedRun_exists intLost_drops 250 1000 672 2 3 (by omega) (by omega) _ (fun _ => by omega) _ (fun _ => by decide)

/-- With the test of the code: the default threshold, and powers of 1 and 2 W with a threshold of 4 dB. -/
example : ∃ s, SlottedRun (sirLost none) 250 1000 672 2 3 (fun _ => 3) (fun _ => 2) (fun _ => (1 : ℝ)) s :=
  slottedRun_exists C18_default_threshold 250 1000 672 2 3 (by omega) (by omega) _ (fun _ => by omega) _ (fun _ => by norm_num)
example : ∃ s, PureRun (sirLost (some 4)) 250 100000 672 3 (fun i => if i.val = 0 then (2 : ℝ) else 1) s :=
  pureRun_exists (C18_finite_threshold 4 1 2 (by norm_num) (by norm_num) (by
    have h : Real.logb 10 2 < 2 / 5 := by
      rw [Real.logb_lt_iff_lt_rpow (by norm_num) (by norm_num)]
      have h5 : (2 : ℝ) ^ (5 : ℝ) < ((10 : ℝ) ^ ((2 : ℝ) / 5)) ^ (5 : ℝ) := by
        rw [← Real.rpow_mul (by norm_num)]; norm_num
      exact (Real.rpow_lt_rpow_iff (by norm_num) (by positivity) (by norm_num)).mp h5
    linarith)) 250 100000 672 3 (by omega) _ (fun i => by split <;> norm_num)

/-- Two stations, two slots of three ticks: in half of the 36 choices both frames get through, in the other half none. -/
example : ∃ s, SlottedRun intLost 2 2 3 0 0 (fun _ => 0) (fun _ => 1) (fun _ => 1) s ∧ ∑ h, (s h).delivered.length = 36 := by
  obtain ⟨s, hs⟩ := slottedRun_exists (lost := intLost) intLost_drops 2 2 3 0 0 (by omega) (by omega) (fun _ => 0)
    (fun _ => by omega) (fun _ => 1) (fun _ => by decide)
  exact ⟨s, hs, by rw [C77_slotted hs]; norm_num⟩

/-- The sequences of the limits: `k` stations and slots; `k` stations with frames of `k` ticks in `2 k²` ticks. -/
example : Filter.Tendsto (fun k : ℕ => ((k + 1 : ℕ) : ℝ) / ((k + 1 : ℕ) : ℝ)) Filter.atTop (nhds 1) := by
  refine tendsto_const_nhds.congr (fun k => ?_)
  rw [div_self]; positivity
example : Filter.Tendsto (fun k : ℕ => ((k + 1 : ℕ) : ℝ) * ((k + 1 : ℕ) : ℝ) / ((2 * (k + 1) ^ 2 : ℕ) : ℝ)) Filter.atTop (nhds (1 / 2)) := by
  refine tendsto_const_nhds.congr (fun k => ?_)
  push_cast
  field_simp
example (k : ℕ) : 2 * (k + 1) ≤ 2 * (k + 1) ^ 2 := by nlinarith

end Icarus
