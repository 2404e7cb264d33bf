import Verif.Props.CrdsaUplink
import Verif.Props.Throughput
import Mathlib.Logic.Equiv.Fintype
import Mathlib.Data.Fintype.CardEmbedding
import Mathlib.Data.Nat.Factorial.BigOperators

/-!
# Property C79: slot choice and throughput of CRDSA

`N` stations send two replicas of one packet each in a frame of `n` slots.  `std::shuffle` of the slot table of a station gives one of its `n!`
orders; all `(n!) ^ N` choices are counted (i.e. shuffles that are independent and uniform), and the packets that the receiver passes up are added
over all of them.
-/

set_option autoImplicit false

namespace Icarus
open Aloha (Frame Op frames)
open Crdsa

/-! ## Slot choice -/

/-- The slot table in the order `σ`. -/
def order {n : Nat} (σ : Equiv.Perm (Fin n)) : List Nat := List.ofFn (fun j => (σ j).val)

theorem order_perm {n : Nat} (σ : Equiv.Perm (Fin n)) : (order σ).Perm (slotTable n) := by
  have h1 : (order σ).Nodup := by
    unfold order
    rw [List.nodup_ofFn]
    intro i j h
    exact σ.injective (Fin.ext h)
  refine (List.perm_ext_iff_of_nodup h1 List.nodup_range).mpr ?_
  intro a
  unfold order
  rw [List.mem_ofFn, List.mem_range]
  constructor
  · rintro ⟨i, rfl⟩; exact (σ i).2
  · intro h; exact ⟨σ.symm ⟨a, h⟩, by simp⟩

/-- Every order of the slot table is counted once. -/
theorem order_unique {n : Nat} {l : List Nat} (h : l.Perm (slotTable n)) : ∃! σ : Equiv.Perm (Fin n), order σ = l := by
  have hlen : l.length = n := by rw [h.length_eq]; simp [slotTable]
  have hlt : ∀ j (hj : j < l.length), l[j] < n := fun j hj => by
    have := h.subset (List.getElem_mem hj)
    simpa [slotTable] using this
  have hnd : l.Nodup := h.nodup_iff.mpr (by simp [slotTable, List.nodup_range])
  have hinj : Function.Injective (fun j : Fin n => (⟨l[j.val]'(by omega), hlt _ _⟩ : Fin n)) := by
    intro i j hij
    have := Fin.mk.inj hij
    exact Fin.ext ((hnd.getElem_inj_iff).mp this)
  refine ⟨Equiv.ofBijective _ (Finite.injective_iff_bijective.mp hinj), ?_, ?_⟩
  · apply List.ext_getElem
    · simp [order, hlen]
    · intro j h1 h2
      simp [order]
  · intro τ hτ
    apply Equiv.ext
    intro j
    apply Fin.ext
    simp only [Equiv.ofBijective_apply]
    subst hτ
    simp [order]

/-- All arrangements of `k` slots are the beginning of equally many orders. -/
theorem card_prefix {n k : Nat} (hk : k ≤ n) (e : Fin k ↪ Fin n) :
    (Finset.univ.filter (fun σ : Equiv.Perm (Fin n) => ∀ j, σ (Fin.castLE hk j) = e j)).card = (n - k).factorial := by
  set F : (Fin k ↪ Fin n) → Finset (Equiv.Perm (Fin n)) :=
    fun e => Finset.univ.filter (fun σ => ∀ j, σ (Fin.castLE hk j) = e j) with hF
  have hle : ∀ e e', (F e).card ≤ (F e').card := by
    intro e e'
    set p : {x // x ∈ Set.range e} ≃ {x // x ∈ Set.range e'} :=
      (Equiv.ofInjective e e.injective).symm.trans (Equiv.ofInjective e' e'.injective) with hp
    have hpe : ∀ j, p ⟨e j, j, rfl⟩ = ⟨e' j, j, rfl⟩ := by
      intro j
      rw [hp, Equiv.trans_apply]
      have : (Equiv.ofInjective e e.injective).symm ⟨e j, j, rfl⟩ = j := by
        rw [Equiv.symm_apply_eq]; rfl
      rw [this]; rfl
    classical
    apply Finset.card_le_card_of_injOn (fun σ => σ.trans p.extendSubtype)
    · intro σ hσ
      simp only [hF, Finset.coe_filter, Finset.mem_univ, true_and, Set.mem_ofPred_eq] at hσ ⊢
      intro j
      rw [Equiv.trans_apply, hσ j, Equiv.extendSubtype_apply_of_mem p _ ⟨j, rfl⟩, hpe j]
    · intro σ _ τ _ h
      apply Equiv.ext
      intro x
      have := congrArg (fun f : Equiv.Perm (Fin n) => f x) h
      simpa using this
  have hsum : ∑ e', (F e').card = n.factorial := by
    have := Finset.card_eq_sum_card_fiberwise (s := (Finset.univ : Finset (Equiv.Perm (Fin n)))) (t := (Finset.univ : Finset (Fin k ↪ Fin n)))
      (f := fun σ => (Fin.castLEEmb hk).trans σ.toEmbedding) (fun _ _ => Finset.mem_coe.mpr (Finset.mem_univ _))
    rw [Finset.card_univ, Fintype.card_perm, Fintype.card_fin] at this
    rw [this]
    apply Finset.sum_congr rfl
    intro e' _
    congr 1
    apply Finset.filter_congr
    intro σ _
    constructor
    · intro h; ext j; simp [h j]
    · intro h j
      have := congrArg (fun f : Fin k ↪ Fin n => f j) h
      simpa using this
  have hconst : ∑ e', (F e').card = n.descFactorial k * (F e).card := by
    rw [Finset.sum_congr rfl (fun e' _ => Nat.le_antisymm (hle e' e) (hle e e')), Finset.sum_const, Finset.card_univ,
      Fintype.card_embedding_eq, Fintype.card_fin, Fintype.card_fin, smul_eq_mul]
  have h3 := Nat.factorial_mul_descFactorial hk
  have hpos : 0 < n.descFactorial k := Nat.descFactorial_pos.mpr hk
  apply Nat.eq_of_mul_eq_mul_left hpos
  rw [← hconst, hsum, ← h3, Nat.mul_comm]

/-- With uniform shuffles every sequence of `k` different slots is selected equally often. -/
theorem C79_uniform {n : Nat} (slots : List Nat) (hnd : slots.Nodup) (hs : ∀ s ∈ slots, s < n) :
    (Finset.univ.filter (fun σ : Equiv.Perm (Fin n) => getSelectedSlots (order σ) slots.length = .ok slots)).card =
      (n - slots.length).factorial := by
  have hk : slots.length ≤ n := by
    have : slots.toFinset ⊆ Finset.range n := by intro a ha; simpa using hs a (by simpa using ha)
    have := Finset.card_le_card this
    rwa [List.toFinset_card_of_nodup hnd, Finset.card_range] at this
  let e : Fin slots.length ↪ Fin n := ⟨fun j => ⟨slots[j], hs _ (List.getElem_mem j.2)⟩, by
    intro i j hij
    exact Fin.ext ((hnd.getElem_inj_iff).mp (Fin.mk.inj hij))⟩
  rw [← card_prefix hk e]
  congr 1
  apply Finset.filter_congr
  intro σ _
  unfold getSelectedSlots
  rw [if_pos (by simpa [order] using hk), Outcome.ok.injEq]
  constructor
  · intro h j
    apply Fin.ext
    have : ((order σ).take slots.length)[j.val]? = slots[j.val]? := by rw [h]
    rw [List.getElem?_take_of_lt j.2, List.getElem?_eq_getElem j.2, List.getElem?_eq_getElem (by simp [order]; omega), Option.some.injEq] at this
    simpa [order, e, Fin.castLE] using this
  · intro h
    apply List.ext_getElem
    · simp [order]; omega
    · intro j h1 h2
      rw [List.getElem_take]
      have := congrArg Fin.val (h ⟨j, h2⟩)
      simpa [order, e, Fin.castLE] using this

example : (Finset.univ.filter (fun σ : Equiv.Perm (Fin 100) => getSelectedSlots (order σ) 2 = .ok [17, 4])).card = Nat.factorial 98 :=
  C79_uniform (n := 100) [17, 4] (by decide) (by decide)

/-- Orders by their first two slots. -/
theorem card_first_two {m : Nat} (Q : Fin (m + 2) → Fin (m + 2) → Prop) [DecidableRel Q] :
    (Finset.univ.filter (fun σ : Equiv.Perm (Fin (m + 2)) => Q (σ 0) (σ 1))).card =
      (Finset.univ.filter (fun p : Fin (m + 2) × Fin (m + 2) => p.1 ≠ p.2 ∧ Q p.1 p.2)).card * m.factorial := by
  rw [Finset.card_eq_sum_card_fiberwise (f := fun σ => (σ 0, σ 1))
    (t := Finset.univ.filter (fun p : Fin (m + 2) × Fin (m + 2) => p.1 ≠ p.2 ∧ Q p.1 p.2)), Finset.sum_const_nat]
  · rintro ⟨a, b⟩ hp
    simp only [Finset.mem_filter, Finset.mem_univ, true_and] at hp
    let e : Fin 2 ↪ Fin (m + 2) := ⟨![a, b], by
      intro i j hij
      fin_cases i <;> fin_cases j <;> simp_all⟩
    have := card_prefix (n := m + 2) (k := 2) (by omega) e
    rw [Nat.add_sub_cancel] at this
    rw [← this]
    congr 1
    ext σ
    simp only [Finset.mem_filter, Finset.mem_univ, true_and, Prod.mk.injEq, Fin.forall_fin_two]
    have e0 : Fin.castLE (show 2 ≤ m + 2 by omega) 0 = 0 := rfl
    have e1 : Fin.castLE (show 2 ≤ m + 2 by omega) 1 = 1 := rfl
    rw [e0, e1]
    constructor
    · rintro ⟨-, h0, h1⟩; exact ⟨h0, h1⟩
    · rintro ⟨h0, h1⟩
      have h0 : σ 0 = a := h0
      have h1 : σ 1 = b := h1
      exact ⟨by rw [h0, h1]; exact hp.2, h0, h1⟩
  · intro σ hσ
    simp only [Finset.coe_filter, Finset.mem_univ, true_and, Set.mem_ofPred_eq] at hσ ⊢
    refine ⟨fun h => ?_, hσ⟩
    have := σ.injective h
    simp at this

/-! ## What the receiver decodes -/

/-- Station `i` can be recovered when the stations choose the first two slots of the orders `h`. -/
def Recovered {N m : Nat} (h : Fin N → Equiv.Perm (Fin (m + 2))) (i : Fin N) : Prop :=
  Decodable (fun T v => ∃ j : Fin N, j.val = v ∧ (T = (h j 0).val ∨ T = (h j 1).val)) i

/-- A packet with a slot for itself is recovered. -/
theorem recovered_of_alone {N m : Nat} {h : Fin N → Equiv.Perm (Fin (m + 2))} {i : Fin N} {k : Fin (m + 2)} (hk : k = 0 ∨ k = 1)
    (ha : ∀ j, j ≠ i → ¬ (h j 0 = h i k ∨ h j 1 = h i k)) : Recovered h i := by
  refine Decodable.mk (T := (h i k).val) ⟨i, rfl, by rcases hk with rfl | rfl <;> simp⟩ ?_
  rintro v ⟨j, rfl, hj⟩ hne
  refine absurd ?_ (ha j (fun e => hne (by rw [e])))
  rcases hj with hj | hj
  · exact .inl (Fin.ext hj.symm)
  · exact .inr (Fin.ext hj.symm)

/-- Two packets in the same two slots are not recovered. -/
theorem not_recovered_of_same {N m : Nat} {h : Fin N → Equiv.Perm (Fin (m + 2))} {i j : Fin N} (hij : j ≠ i)
    (hs : (h j 0 = h i 0 ∧ h j 1 = h i 1) ∨ (h j 0 = h i 1 ∧ h j 1 = h i 0)) : ¬ Recovered h i := by
  have key : ∀ u, Decodable (fun T v => ∃ j : Fin N, j.val = v ∧ (T = (h j 0).val ∨ T = (h j 1).val)) u → u ≠ i.val ∧ u ≠ j.val := by
    intro u hd
    induction hd with
    | @mk T u h1 _ ih =>
      obtain ⟨a, rfl, ha⟩ := h1
      constructor
      · intro e
        have e : a = i := Fin.ext e
        subst e
        refine (ih j.val ⟨j, rfl, ?_⟩ (fun e => hij (Fin.ext e))).2 rfl
        rcases hs with ⟨h0, h1⟩ | ⟨h0, h1⟩ <;> rw [h0, h1] <;> tauto
      · intro e
        have e : a = j := Fin.ext e
        subst e
        refine (ih i.val ⟨i, rfl, ?_⟩ (fun e => hij (Fin.ext e).symm)).1 rfl
        rcases hs with ⟨h0, h1⟩ | ⟨h0, h1⟩ <;> rw [h0, h1] at ha <;> tauto
  exact fun hr => (key _ hr).1 rfl

/-! ## Executions -/

section
variable {P : Type} [Zero P] [Add P]

/-- The receiver has seen exactly the frames `fs`, in any order of events of the same tick, and nothing is scheduled any more. -/
def CrdsaComplete (lost : P → P → Bool) (F : Nat) (fs : List (Frame P)) (s : Crdsa.Sys P) : Prop :=
  ∃ ops, exec true true lost F ops = some (.ok s) ∧ (frames ops).Perm fs ∧ s.pending = []

omit [Zero P] [Add P] in
/-- Copies of the packet of station `i` at the receiver, which hears them `δ i` after they are sent: handed to the MAC at `now i`, with delays `ds`. -/
def heardCopies {N : Nat} (now δ len : Fin N → Nat) (pow : Fin N → P) (ds : List Nat) (i : Fin N) : List (Frame P) :=
  ds.map (fun d => ⟨i, now i + d + δ i, len i, pow i⟩)

/-- `N` stations send two replicas of one packet each in a frame of `m + 2` slots; `ds i σ` are the delays computed by the MAC of station `i` when its slot
table is in the order `σ`.  The delays of the channel lie between `lo` and `hi`; transmissions are longer than this spread and leave more than the spread of
their slots empty; their powers exclude capture.  `s h` is the receiver after all transmissions of the choice `h`. -/
structure CrdsaRun (lost : P → P → Bool) (N m slot lo hi : Nat) (now δ len : Fin N → Nat) (pow : Fin N → P)
    (ds : Fin N → Equiv.Perm (Fin (m + 2)) → List Nat) (s : (Fin N → Equiv.Perm (Fin (m + 2))) → Crdsa.Sys P) : Prop where
  all_lost : Aloha.Drops lost (fun p => ∃ i, pow i = p)
  slot_pos : 0 < slot
  small : slot * (m + 2) < 2 ^ 63
  frame : ∃ B, slot * (m + 2) ∣ B ∧ ∀ i, now i ≤ B ∧ B < now i + slot * (m + 2)
  delay : ∀ i, lo ≤ δ i ∧ δ i ≤ hi
  fits : ∀ i, hi - lo < len i ∧ len i + (hi - lo) < slot
  sent : ∀ i σ, sendDelays (now i) slot (order σ) 2 = .ok (ds i σ)
  run : ∀ h, CrdsaComplete lost (slot * (m + 2)) (List.ofFn (fun i => heardCopies now δ len pow (ds i (h i)) i)).flatten (s h)

omit [Zero P] [Add P] in
/-- The two transmissions of a station. -/
theorem copies_eq {N m slot : Nat} {now δ len : Fin N → Nat} {pow : Fin N → P} {ds : List Nat} {σ : Equiv.Perm (Fin (m + 2))} {i : Fin N} {b : Nat}
    (hs : 0 < slot) (hsm : slot * (m + 2) < 2 ^ 63) (hB : now i ≤ slot * (m + 2) * b ∧ slot * (m + 2) * b < now i + slot * (m + 2))
    (hd : sendDelays (now i) slot (order σ) 2 = .ok ds) :
    heardCopies now δ len pow ds i = [⟨i, slot * ((m + 2) * b + (σ 0).val) + δ i, len i, pow i⟩,
      ⟨i, slot * ((m + 2) * b + (σ 1).val) + δ i, len i, pow i⟩] := by
  obtain ⟨ds', B', sl, h1, h2, h3, h4, h5, h6, h7, h8⟩ := C21_replicas (now i) slot (m + 2) 2 (order σ) (order_perm σ) (by omega) hs (by omega) hsm
  rw [hd, Outcome.ok.injEq] at h1
  subst h1
  have hB' : B' = slot * (m + 2) * b := by
    apply Nat.le_antisymm (h4 _ (Nat.dvd_mul_right _ _) hB.1)
    obtain ⟨c, rfl⟩ := h2
    apply Nat.mul_le_mul_left
    by_contra hc
    have h9 : slot * (m + 2) * (c + 1) ≤ slot * (m + 2) * b := Nat.mul_le_mul_left _ (by omega)
    rw [Nat.mul_succ] at h9
    omega
  have hds : ds = [Crdsa.frameDelay (now i) slot (m + 2) + (σ 0).val * slot, Crdsa.frameDelay (now i) slot (m + 2) + (σ 1).val * slot] := by
    have hlen : (order σ).length = m + 2 := by simp [order]
    unfold sendDelays getSelectedSlots at hd
    rw [if_pos (by omega), hlen] at hd
    have ht : (order σ).take 2 = [(σ 0).val, (σ 1).val] := by
      unfold order
      rw [List.ofFn_succ, List.ofFn_succ]
      rfl
    rw [ht] at hd
    simp only [bind, Outcome.bind, Outcome.ok.injEq] at hd
    rw [← hd]; rfl
  have hdelay : now i + Crdsa.frameDelay (now i) slot (m + 2) = slot * (m + 2) * b := by
    have hF : 0 < slot * (m + 2) := Nat.mul_pos hs (by omega)
    have e : frameDelay (now i) slot (m + 2) = Aloha.sendDelay (now i) (slot * (m + 2)) := by
      unfold frameDelay Aloha.sendDelay
      rw [if_pos ⟨by omega, hs⟩, if_pos hF]
      simp only [Nat.mul_assoc]
    obtain ⟨c1, c2, c3, -, -, -⟩ := C17_slotted (now i) (slot * (m + 2)) 0 hF (by omega)
    simp only [Aloha.sendCallbacks] at c1 c2 c3
    rw [e]
    apply Nat.le_antisymm (c3 _ (Nat.dvd_mul_right _ _) hB.1)
    rw [← hB']
    exact h4 _ c1 c2
  rw [hds]
  have e1 : ∀ c : Nat, now i + (frameDelay (now i) slot (m + 2) + c * slot) + δ i = slot * ((m + 2) * b + c) + δ i := by
    intro c
    rw [← Nat.add_assoc, hdelay]
    ring
  simp only [heardCopies, List.map_cons, List.map_nil, e1]

omit [Zero P] [Add P] in
/-- The traffic of a choice. -/
theorem crdsaRun_traffic {N m slot lo hi : Nat} {now δ len : Fin N → Nat} {pow : Fin N → P} {ds : Fin N → Equiv.Perm (Fin (m + 2)) → List Nat}
    {h : Fin N → Equiv.Perm (Fin (m + 2))} {b : Nat} (hs : 0 < slot) (hsm : slot * (m + 2) < 2 ^ 63)
    (hB : ∀ i, now i ≤ slot * (m + 2) * b ∧ slot * (m + 2) * b < now i + slot * (m + 2)) (hdel : ∀ i, lo ≤ δ i ∧ δ i ≤ hi)
    (hfit : ∀ i, hi - lo < len i ∧ len i + (hi - lo) < slot) (hd : ∀ i σ, sendDelays (now i) slot (order σ) 2 = .ok (ds i σ)) {fs : List (Frame P)}
    (hfs : fs.Perm (List.ofFn (fun i => heardCopies now δ len pow (ds i (h i)) i)).flatten) :
    CrdsaTraffic slot (m + 2) lo (hi - lo) fs ∧ (∀ f ∈ fs, f.dur + (hi - lo) < slot) ∧
      ∀ T v, (∃ f ∈ fs, slotOf slot lo f = T ∧ f.uid = v) ↔
        ∃ j : Fin N, j.val = v ∧ (T = (m + 2) * b + (h j 0).val ∨ T = (m + 2) * b + (h j 1).val) := by
  have hmem : ∀ f, f ∈ fs ↔ ∃ i : Fin N, ∃ k : Fin (m + 2), (k = 0 ∨ k = 1) ∧
      f = ⟨i, slot * ((m + 2) * b + (h i k).val) + δ i, len i, pow i⟩ := by
    intro f
    rw [hfs.mem_iff, List.mem_flatten]
    constructor
    · rintro ⟨l, hl, hf⟩
      obtain ⟨i, rfl⟩ := List.mem_ofFn.mp hl
      rw [copies_eq hs hsm (hB i) (hd i (h i))] at hf
      simp only [List.mem_cons, List.not_mem_nil, or_false] at hf
      rcases hf with rfl | rfl
      · exact ⟨i, 0, .inl rfl, rfl⟩
      · exact ⟨i, 1, .inr rfl, rfl⟩
    · rintro ⟨i, k, hk, rfl⟩
      refine ⟨_, List.mem_ofFn.mpr ⟨i, rfl⟩, ?_⟩
      rw [copies_eq hs hsm (hB i) (hd i (h i))]
      rcases hk with rfl | rfl <;> simp
  have hslot : ∀ (i : Fin N) (k : Fin (m + 2)),
      slotOf slot lo (⟨i, slot * ((m + 2) * b + (h i k).val) + δ i, len i, pow i⟩ : Frame P) = (m + 2) * b + (h i k).val := by
    intro i k
    have h1 := hdel i
    have h2 := hfit i
    unfold slotOf
    simp only
    rw [show slot * ((m + 2) * b + (h i k).val) + δ i - lo = slot * ((m + 2) * b + (h i k).val) + (δ i - lo) by omega, Nat.mul_add_div hs,
      Nat.div_eq_of_lt (by omega), Nat.add_zero]
  refine ⟨⟨by omega, ?_, ?_, ?_, ?_⟩, ?_, ?_⟩
  · intro f hf
    obtain ⟨i, k, -, rfl⟩ := (hmem f).mp hf
    have h1 := hdel i
    have h2 := hfit i
    exact ⟨(m + 2) * b + (h i k).val, δ i - lo, by simp only; omega, by omega, h2.1, h2.2.le⟩
  · intro f hf g hg _
    obtain ⟨i, k, -, rfl⟩ := (hmem f).mp hf
    obtain ⟨j, l, -, rfl⟩ := (hmem g).mp hg
    rw [hslot, hslot, Nat.mul_add_div (by omega), Nat.mul_add_div (by omega), Nat.div_eq_of_lt (h i k).2, Nat.div_eq_of_lt (h j l).2]
  · rw [hfs.pairwise_iff (fun hxy e => (hxy e.symm).symm), List.pairwise_flatten]
    constructor
    · intro l hl
      obtain ⟨i, rfl⟩ := List.mem_ofFn.mp hl
      rw [copies_eq hs hsm (hB i) (hd i (h i))]
      simp only [List.pairwise_cons, List.mem_cons, List.not_mem_nil, or_false, forall_eq, false_implies, implies_true, List.Pairwise.nil, and_true]
      intro _
      rw [hslot, hslot]
      intro e
      have := (h i).injective (Fin.ext (Nat.add_left_cancel e))
      simp at this
    · rw [List.pairwise_ofFn]
      intro i j hij f hf g hg e
      have huid : ∀ (i : Fin N) (f : Frame P), f ∈ heardCopies now δ len pow (ds i (h i)) i → f.uid = i.val := by
        intro i f hf
        unfold heardCopies at hf
        obtain ⟨_, -, rfl⟩ := List.mem_map.mp hf
        rfl
      rw [huid i f hf, huid j g hg] at e
      have : i.val < j.val := hij
      omega
  · intro u
    rw [hfs.countP_eq, List.countP_flatten, List.map_ofFn, List.sum_ofFn]
    calc _ = ∑ i : Fin N, if i.val = u then 2 else 0 := by
          apply Finset.sum_congr rfl
          intro i _
          simp only [Function.comp]
          rw [copies_eq hs hsm (hB i) (hd i (h i))]
          by_cases e : i.val = u <;> simp [e]
      _ ≤ 2 := by
          by_cases hu : u < N
          · have : ∀ i : Fin N, (if i.val = u then 2 else 0) = if i = ⟨u, hu⟩ then 2 else 0 := by
              intro i; congr 1; simp [Fin.ext_iff]
            rw [Finset.sum_congr rfl (fun i _ => this i)]
            simp
          · rw [Finset.sum_eq_zero]
            · omega
            · intro i _; rw [if_neg]; have := i.2; omega
  · intro f hf
    obtain ⟨i, k, -, rfl⟩ := (hmem f).mp hf
    exact (hfit i).2
  · intro T v
    constructor
    · rintro ⟨f, hf, rfl, rfl⟩
      obtain ⟨i, k, hk, rfl⟩ := (hmem f).mp hf
      rw [hslot]
      exact ⟨i, rfl, by rcases hk with rfl | rfl <;> simp⟩
    · rintro ⟨j, rfl, hT⟩
      rcases hT with rfl | rfl
      · exact ⟨_, (hmem _).mpr ⟨j, 0, .inl rfl, rfl⟩, hslot j 0, rfl⟩
      · exact ⟨_, (hmem _).mpr ⟨j, 1, .inr rfl, rfl⟩, hslot j 1, rfl⟩

omit [Zero P] [Add P] in
theorem copies_pow {N : Nat} {now δ len : Fin N → Nat} {pow : Fin N → P} {ds : Fin N → List Nat} {fs : List (Frame P)}
    (h : fs.Perm (List.ofFn (fun i => heardCopies now δ len pow (ds i) i)).flatten) : ∀ f ∈ fs, ∃ i, pow i = f.pow := by
  intro f hf
  obtain ⟨l, hl, hfl⟩ := List.mem_flatten.mp (h.mem_iff.mp hf)
  obtain ⟨i, rfl⟩ := List.mem_ofFn.mp hl
  obtain ⟨d, -, rfl⟩ := List.mem_map.mp hfl
  exact ⟨i, rfl⟩

open Classical in
/-- What is passed up for a choice. -/
theorem crdsaRun_count {lost : P → P → Bool} {N m slot lo hi : Nat} {now δ len : Fin N → Nat} {pow : Fin N → P}
    {ds : Fin N → Equiv.Perm (Fin (m + 2)) → List Nat} {s : (Fin N → Equiv.Perm (Fin (m + 2))) → Crdsa.Sys P}
    (hr : CrdsaRun lost N m slot lo hi now δ len pow ds s) (h : Fin N → Equiv.Perm (Fin (m + 2))) :
    (s h).delivered.length = (Finset.univ.filter (fun i : Fin N => Recovered h i)).card := by
  obtain ⟨B, ⟨b, rfl⟩, hB⟩ := hr.frame
  obtain ⟨ops, h1, h2, h3⟩ := hr.run h
  obtain ⟨ht, hsp, hin⟩ := crdsaRun_traffic hr.slot_pos hr.small hB hr.delay hr.fits hr.sent h2
  obtain ⟨s', e, hrec⟩ := C70_receiver hr.all_lost h1 ht (copies_pow h2) hsp
  rw [Outcome.ok.injEq] at e
  subst e
  obtain ⟨hdec, hnd⟩ := hrec h3
  rw [← List.length_map (f := Prod.snd), ← List.toFinset_card_of_nodup hnd]
  symm
  have hiff : ∀ u, u ∈ (s h).delivered.map Prod.snd ↔
      Decodable (fun T v => ∃ j : Fin N, j.val = v ∧ (T = (h j 0).val ∨ T = (h j 1).val)) u := by
    intro u
    rw [hdec u]
    constructor
    · intro hd
      refine Uplink.Decodable.congr (fun T => T - (m + 2) * b) ?_ ?_ hd
      · intro T v hv
        obtain ⟨j, rfl, hT⟩ := (hin T v).mp hv
        exact ⟨j, rfl, by rcases hT with rfl | rfl <;> simp⟩
      · intro T u v hu hv
        obtain ⟨j, rfl, hT⟩ := (hin T u).mp hu
        obtain ⟨j', rfl, hT'⟩ := hv
        refine (hin T _).mpr ⟨j', rfl, ?_⟩
        rcases hT with rfl | rfl <;> rcases hT' with hT' | hT' <;> omega
    · intro hd
      refine Uplink.Decodable.congr (fun T => (m + 2) * b + T) ?_ ?_ hd
      · rintro T v ⟨j, rfl, hT⟩
        exact (hin _ _).mpr ⟨j, rfl, by rcases hT with rfl | rfl <;> simp⟩
      · intro T u v hu hv
        obtain ⟨j, rfl, hT⟩ := (hin _ v).mp hv
        refine ⟨j, rfl, by omega⟩
  apply Finset.card_bij (fun i _ => i.val)
  · intro i hi
    simp only [Finset.mem_filter, Finset.mem_univ, true_and] at hi
    rw [List.mem_toFinset, hiff]
    exact hi
  · intro i _ j _ hij; exact Fin.ext hij
  · intro u hu
    rw [List.mem_toFinset, hiff] at hu
    have hu' := hu
    cases hu' with
    | mk h1 _ =>
      obtain ⟨i, rfl, -⟩ := h1
      exact ⟨i, by rw [Finset.mem_filter]; exact ⟨Finset.mem_univ _, hu⟩, rfl⟩

end

/-! ## Counting -/

/-- Pairs of different slots without a given one. -/
theorem card_avoid_one {m : Nat} (a : Fin (m + 2)) :
    (Finset.univ.filter (fun p : Fin (m + 2) × Fin (m + 2) => p.1 ≠ p.2 ∧ ¬ (p.1 = a ∨ p.2 = a))).card = (m + 1) * m := by
  have : Finset.univ.filter (fun p : Fin (m + 2) × Fin (m + 2) => p.1 ≠ p.2 ∧ ¬ (p.1 = a ∨ p.2 = a)) = (Finset.univ.erase a).offDiag := by
    ext ⟨x, y⟩
    simp only [Finset.mem_filter, Finset.mem_univ, true_and, Finset.mem_offDiag, Finset.mem_erase, and_true]
    tauto
  rw [this, Finset.offDiag_card, Finset.card_erase_of_mem (Finset.mem_univ _), Finset.card_univ, Fintype.card_fin, Nat.add_sub_assoc (by omega)]
  norm_num
  rw [Nat.mul_succ, Nat.add_sub_cancel]

/-- Pairs of different slots without two given ones. -/
theorem card_avoid_two {m : Nat} {a b : Fin (m + 2)} (hab : a ≠ b) :
    (Finset.univ.filter (fun p : Fin (m + 2) × Fin (m + 2) => p.1 ≠ p.2 ∧ ¬ ((p.1 = a ∨ p.2 = a) ∨ (p.1 = b ∨ p.2 = b)))).card = m * (m - 1) := by
  have : Finset.univ.filter (fun p : Fin (m + 2) × Fin (m + 2) => p.1 ≠ p.2 ∧ ¬ ((p.1 = a ∨ p.2 = a) ∨ (p.1 = b ∨ p.2 = b))) =
      ((Finset.univ.erase a).erase b).offDiag := by
    ext ⟨x, y⟩
    simp only [Finset.mem_filter, Finset.mem_univ, true_and, Finset.mem_offDiag, Finset.mem_erase, and_true]
    tauto
  rw [this, Finset.offDiag_card, Finset.card_erase_of_mem (Finset.mem_erase.mpr ⟨hab.symm, Finset.mem_univ _⟩),
    Finset.card_erase_of_mem (Finset.mem_univ _), Finset.card_univ, Fintype.card_fin]
  rw [show m + 2 - 1 - 1 = m by omega, Nat.mul_sub_one]

/-- Pairs of different slots other than a given one, in any order. -/
theorem card_other {m : Nat} {a b : Fin (m + 2)} (hab : a ≠ b) :
    (Finset.univ.filter (fun p : Fin (m + 2) × Fin (m + 2) => p.1 ≠ p.2 ∧ ¬ ((p.1 = a ∧ p.2 = b) ∨ (p.1 = b ∧ p.2 = a)))).card =
      (m + 2) * (m + 1) - 2 := by
  have : Finset.univ.filter (fun p : Fin (m + 2) × Fin (m + 2) => p.1 ≠ p.2 ∧ ¬ ((p.1 = a ∧ p.2 = b) ∨ (p.1 = b ∧ p.2 = a))) =
      Finset.univ.offDiag \ {(a, b), (b, a)} := by
    ext ⟨x, y⟩
    simp only [Finset.mem_filter, Finset.mem_univ, true_and, Finset.mem_offDiag, Finset.mem_sdiff, Finset.mem_insert, Finset.mem_singleton, Prod.mk.injEq]
  rw [this, Finset.card_sdiff_of_subset, Finset.offDiag_card, Finset.card_pair, Finset.card_univ, Fintype.card_fin]
  · rw [Nat.mul_succ, Nat.add_sub_cancel]
  · simp [hab]
  · intro p hp
    simp only [Finset.mem_insert, Finset.mem_singleton] at hp
    rcases hp with rfl | rfl <;> simp [hab, hab.symm]

section
variable {P : Type} [Zero P] [Add P]
variable {lost : P → P → Bool} {N m slot lo hi : Nat} {now δ len : Fin N → Nat} {pow : Fin N → P} {ds : Fin N → Equiv.Perm (Fin (m + 2)) → List Nat}
  {s : (Fin N → Equiv.Perm (Fin (m + 2))) → Crdsa.Sys P}

open Classical in
theorem crdsaRun_sum (hr : CrdsaRun lost N m slot lo hi now δ len pow ds s) :
    ∑ h, (s h).delivered.length = ∑ i : Fin N, (Finset.univ.filter (fun h : Fin N → Equiv.Perm (Fin (m + 2)) => Recovered h i)).card := by
  simp only [crdsaRun_count hr, Finset.card_filter]
  rw [Finset.sum_comm]

omit [Zero P] [Add P] in
open Classical in
theorem recovered_lower {X : Nat} (hX : X = ∑ i : Fin N, (Finset.univ.filter (fun h : Fin N → Equiv.Perm (Fin (m + 2)) => Recovered h i)).card) :
    N * ((m + 2).factorial * (2 * ((m + 1) * m * m.factorial) ^ (N - 1))) ≤
      X + N * ((m + 2).factorial * (m * (m - 1) * m.factorial) ^ (N - 1)) := by
  classical
  have hc : ∀ i : Fin N, (m + 2).factorial * (2 * ((m + 1) * m * m.factorial) ^ (N - 1)) ≤
      (Finset.univ.filter (fun h : Fin N → Equiv.Perm (Fin (m + 2)) => Recovered h i)).card +
        (m + 2).factorial * (m * (m - 1) * m.factorial) ^ (N - 1) := by
    intro i
    have h1 : ∀ k : Fin (m + 2), (Finset.univ.filter (fun h : Fin N → Equiv.Perm (Fin (m + 2)) => ∀ j, j ≠ i →
        ¬ (h j 0 = h i k ∨ h j 1 = h i k))).card = (m + 2).factorial * ((m + 1) * m * m.factorial) ^ (N - 1) := by
      intro k
      rw [count_isolated (fun x y : Equiv.Perm (Fin (m + 2)) => y 0 = x k ∨ y 1 = x k) i, Finset.sum_congr rfl
        (g := fun _ => ((m + 1) * m * m.factorial) ^ (N - 1))]
      · rw [Finset.sum_const, Finset.card_univ, Fintype.card_perm, Fintype.card_fin, smul_eq_mul]
      · intro x _
        rw [card_first_two (fun a b => ¬ (a = x k ∨ b = x k)), card_avoid_one]
    have h2 : (Finset.univ.filter (fun h : Fin N → Equiv.Perm (Fin (m + 2)) => ∀ j, j ≠ i →
        ¬ ((h j 0 = h i 0 ∨ h j 1 = h i 0) ∨ (h j 0 = h i 1 ∨ h j 1 = h i 1)))).card =
        (m + 2).factorial * (m * (m - 1) * m.factorial) ^ (N - 1) := by
      rw [count_isolated (fun x y : Equiv.Perm (Fin (m + 2)) => (y 0 = x 0 ∨ y 1 = x 0) ∨ (y 0 = x 1 ∨ y 1 = x 1)) i, Finset.sum_congr rfl
        (g := fun _ => (m * (m - 1) * m.factorial) ^ (N - 1))]
      · rw [Finset.sum_const, Finset.card_univ, Fintype.card_perm, Fintype.card_fin, smul_eq_mul]
      · intro x _
        rw [card_first_two (fun a b => ¬ ((a = x 0 ∨ b = x 0) ∨ (a = x 1 ∨ b = x 1))), card_avoid_two]
        intro e
        have := x.injective e
        simp at this
    have h3 := Finset.card_union_add_card_inter
      (Finset.univ.filter (fun h : Fin N → Equiv.Perm (Fin (m + 2)) => ∀ j, j ≠ i → ¬ (h j 0 = h i 0 ∨ h j 1 = h i 0)))
      (Finset.univ.filter (fun h : Fin N → Equiv.Perm (Fin (m + 2)) => ∀ j, j ≠ i → ¬ (h j 0 = h i 1 ∨ h j 1 = h i 1)))
    rw [h1, h1, ← Finset.filter_or, ← Finset.filter_and] at h3
    have h4 : (Finset.univ.filter (fun h : Fin N → Equiv.Perm (Fin (m + 2)) => (∀ j, j ≠ i → ¬ (h j 0 = h i 0 ∨ h j 1 = h i 0)) ∧
        (∀ j, j ≠ i → ¬ (h j 0 = h i 1 ∨ h j 1 = h i 1)))).card = (m + 2).factorial * (m * (m - 1) * m.factorial) ^ (N - 1) := by
      rw [← h2]
      congr 1
      apply Finset.filter_congr
      intro h _
      constructor
      · rintro ⟨a, b⟩ j hj (c | c)
        · exact a j hj c
        · exact b j hj c
      · intro a
        exact ⟨fun j hj c => a j hj (.inl c), fun j hj c => a j hj (.inr c)⟩
    have h5 : (Finset.univ.filter (fun h : Fin N → Equiv.Perm (Fin (m + 2)) => (∀ j, j ≠ i → ¬ (h j 0 = h i 0 ∨ h j 1 = h i 0)) ∨
        (∀ j, j ≠ i → ¬ (h j 0 = h i 1 ∨ h j 1 = h i 1)))).card ≤
        (Finset.univ.filter (fun h : Fin N → Equiv.Perm (Fin (m + 2)) => Recovered h i)).card := by
      apply Finset.card_le_card
      intro h hh
      simp only [Finset.mem_filter, Finset.mem_univ, true_and] at hh ⊢
      rcases hh with hh | hh
      · exact recovered_of_alone (.inl rfl) hh
      · exact recovered_of_alone (.inr rfl) hh
    rw [h4] at h3
    calc _ = (m + 2).factorial * ((m + 1) * m * m.factorial) ^ (N - 1) + (m + 2).factorial * ((m + 1) * m * m.factorial) ^ (N - 1) := by ring
      _ = _ := h3.symm
      _ ≤ _ := Nat.add_le_add_right h5 _
  rw [hX]
  have := Finset.sum_le_sum (fun (i : Fin N) (_ : i ∈ Finset.univ) => hc i)
  rw [Finset.sum_add_distrib] at this
  simpa only [Finset.sum_const, Finset.card_univ, Fintype.card_fin, smul_eq_mul] using this

omit [Zero P] [Add P] in
open Classical in
theorem recovered_upper {X : Nat} (hX : X = ∑ i : Fin N, (Finset.univ.filter (fun h : Fin N → Equiv.Perm (Fin (m + 2)) => Recovered h i)).card) :
    X ≤ N * ((m + 2).factorial * (((m + 2) * (m + 1) - 2) * m.factorial) ^ (N - 1)) := by
  classical
  rw [hX]
  calc _ ≤ ∑ _i : Fin N, (m + 2).factorial * (((m + 2) * (m + 1) - 2) * m.factorial) ^ (N - 1) := by
        apply Finset.sum_le_sum
        intro i _
        have h1 : (Finset.univ.filter (fun h : Fin N → Equiv.Perm (Fin (m + 2)) => ∀ j, j ≠ i →
            ¬ ((h j 0 = h i 0 ∧ h j 1 = h i 1) ∨ (h j 0 = h i 1 ∧ h j 1 = h i 0)))).card =
            (m + 2).factorial * (((m + 2) * (m + 1) - 2) * m.factorial) ^ (N - 1) := by
          rw [count_isolated (fun x y : Equiv.Perm (Fin (m + 2)) => (y 0 = x 0 ∧ y 1 = x 1) ∨ (y 0 = x 1 ∧ y 1 = x 0)) i, Finset.sum_congr rfl
            (g := fun _ => (((m + 2) * (m + 1) - 2) * m.factorial) ^ (N - 1))]
          · rw [Finset.sum_const, Finset.card_univ, Fintype.card_perm, Fintype.card_fin, smul_eq_mul]
          · intro x _
            rw [card_first_two (fun a b => ¬ ((a = x 0 ∧ b = x 1) ∨ (a = x 1 ∧ b = x 0))), card_other]
            intro e
            have := x.injective e
            simp at this
        rw [← h1]
        apply Finset.card_le_card
        intro h hh
        simp only [Finset.mem_filter, Finset.mem_univ, true_and] at hh ⊢
        intro j hj hs
        exact not_recovered_of_same hj hs hh
    _ = _ := by rw [Finset.sum_const, Finset.card_univ, Fintype.card_fin, smul_eq_mul]

omit [Zero P] [Add P] in
open Classical in
theorem recovered_mean {X : Nat} (hX : X = ∑ i : Fin N, (Finset.univ.filter (fun h : Fin N → Equiv.Perm (Fin (m + 2)) => Recovered h i)).card) {n : ℝ} (hn : n = m + 2) :
    N * (2 * (1 - 2 / n) ^ (N - 1) - ((1 - 2 / n) * (1 - 2 / (n - 1))) ^ (N - 1)) ≤
      (X : ℝ) / (Fintype.card (Fin N → Equiv.Perm (Fin (m + 2))) : ℝ) ∧
    (X : ℝ) / (Fintype.card (Fin N → Equiv.Perm (Fin (m + 2))) : ℝ) ≤ N * (1 - 2 / (n * (n - 1))) ^ (N - 1) := by
  have hl := recovered_lower hX
  have hu := recovered_upper hX
  have hcard : (Fintype.card (Fin N → Equiv.Perm (Fin (m + 2))) : ℝ) = ((m + 2).factorial : ℝ) ^ N := by
    rw [Fintype.card_fun, Fintype.card_perm, Fintype.card_fin, Fintype.card_fin]; push_cast; rfl
  have hf : ((m + 2).factorial : ℝ) = (m + 2) * ((m + 1) * m.factorial) := by
    rw [Nat.factorial_succ, Nat.factorial_succ]; push_cast; ring
  have hf0 : (0 : ℝ) < m.factorial := by exact_mod_cast Nat.factorial_pos m
  have hF0 : (0 : ℝ) < (m + 2).factorial := by exact_mod_cast Nat.factorial_pos (m + 2)
  have hm0 : (0 : ℝ) ≤ m := Nat.cast_nonneg m
  rcases Nat.eq_zero_or_pos N with h0 | hN
  · subst h0
    simp only [Nat.zero_mul, Nat.le_zero] at hu
    rw [hu]; simp
  have hpw : ((m + 2).factorial : ℝ) ^ N = (m + 2).factorial * ((m + 2).factorial : ℝ) ^ (N - 1) := by
    rw [← pow_succ', Nat.sub_add_cancel hN]
  rw [hcard, hpw]
  have ea : ((((m + 1) * m * m.factorial : ℕ)) : ℝ) = (m + 2).factorial * (1 - 2 / n) := by
    rw [hf, hn]; push_cast; field_simp; ring
  have eb : (((m * (m - 1) * m.factorial : ℕ)) : ℝ) = (m + 2).factorial * ((1 - 2 / n) * (1 - 2 / (n - 1))) := by
    have : ((m * (m - 1) : ℕ) : ℝ) = m * (m - 1) := by
      rcases m with _ | k
      · simp
      · simp
    rw [Nat.cast_mul, this, hf, hn, show (m : ℝ) + 2 - 1 = m + 1 by ring]
    field_simp
    ring
  have ec : (((((m + 2) * (m + 1) - 2) * m.factorial : ℕ)) : ℝ) = (m + 2).factorial * (1 - 2 / (n * (n - 1))) := by
    have h2 : 2 ≤ (m + 2) * (m + 1) := by nlinarith
    rw [Nat.cast_mul, Nat.cast_sub h2, hf, hn, show (m : ℝ) + 2 - 1 = m + 1 by ring]
    push_cast
    field_simp
  have hP : (0 : ℝ) < (m + 2).factorial * ((m + 2).factorial : ℝ) ^ (N - 1) := by positivity
  constructor
  · rw [le_div_iff₀ hP]
    have hl' : ((N * ((m + 2).factorial * (2 * ((m + 1) * m * m.factorial) ^ (N - 1))) : ℕ) : ℝ) ≤
      ((X + N * ((m + 2).factorial * (m * (m - 1) * m.factorial) ^ (N - 1)) : ℕ) : ℝ) := by exact_mod_cast hl
    rw [Nat.cast_add, Nat.cast_mul, Nat.cast_mul, Nat.cast_mul 2, Nat.cast_pow, ea, Nat.cast_mul N, Nat.cast_mul (m + 2).factorial, Nat.cast_pow, eb,
      mul_pow, mul_pow ((m + 2).factorial : ℝ) (_ * _)] at hl'
    push_cast at hl' ⊢
    linarith
  · rw [div_le_iff₀ hP]
    have hu' : (X : ℝ) ≤
      ((N * ((m + 2).factorial * (((m + 2) * (m + 1) - 2) * m.factorial) ^ (N - 1)) : ℕ) : ℝ) := by exact_mod_cast hu
    rw [Nat.cast_mul, Nat.cast_mul, Nat.cast_pow, ec, mul_pow] at hu'
    linarith

/-- Packets passed up, added over all choices: at least those with a slot for themselves. -/
theorem C79_lower (hr : CrdsaRun lost N m slot lo hi now δ len pow ds s) :
    N * ((m + 2).factorial * (2 * ((m + 1) * m * m.factorial) ^ (N - 1))) ≤
      ∑ h, (s h).delivered.length + N * ((m + 2).factorial * (m * (m - 1) * m.factorial) ^ (N - 1)) :=
  recovered_lower (crdsaRun_sum hr)

/-- Packets passed up, added over all choices: none of them was sent in the same two slots as another one. -/
theorem C79_upper (hr : CrdsaRun lost N m slot lo hi now δ len pow ds s) :
    ∑ h, (s h).delivered.length ≤ N * ((m + 2).factorial * (((m + 2) * (m + 1) - 2) * m.factorial) ^ (N - 1)) :=
  recovered_upper (crdsaRun_sum hr)

/-- Bounds of the mean number of packets passed up, with `n = m + 2` slots per frame. -/
theorem C79_mean (hr : CrdsaRun lost N m slot lo hi now δ len pow ds s) {n : ℝ} (hn : n = m + 2) :
    N * (2 * (1 - 2 / n) ^ (N - 1) - ((1 - 2 / n) * (1 - 2 / (n - 1))) ^ (N - 1)) ≤
      ((∑ h, (s h).delivered.length : ℕ) : ℝ) / (Fintype.card (Fin N → Equiv.Perm (Fin (m + 2))) : ℝ) ∧
    ((∑ h, (s h).delivered.length : ℕ) : ℝ) / (Fintype.card (Fin N → Equiv.Perm (Fin (m + 2))) : ℝ) ≤ N * (1 - 2 / (n * (n - 1))) ^ (N - 1) :=
  recovered_mean (crdsaRun_sum hr) hn

/-- Two stations: a packet is passed up unless both use the same two slots. -/
theorem C79_two_stations {now δ len : Fin 2 → Nat} {pow : Fin 2 → P} {ds : Fin 2 → Equiv.Perm (Fin (m + 2)) → List Nat}
    {s : (Fin 2 → Equiv.Perm (Fin (m + 2))) → Crdsa.Sys P} (hr : CrdsaRun lost 2 m slot lo hi now δ len pow ds s) :
    ∑ h, (s h).delivered.length = 2 * ((m + 2).factorial * ((m + 2).factorial - 2 * m.factorial)) := by
  have h1 := C79_lower hr
  have h2 := C79_upper hr
  have hf : (m + 2).factorial = (m + 2) * (m + 1) * m.factorial := by
    rw [Nat.factorial_succ, Nat.factorial_succ]; ring
  have e : ((m + 2) * (m + 1) - 2) * m.factorial = (m + 2).factorial - 2 * m.factorial := by rw [hf, Nat.sub_mul]
  simp only [Nat.add_one_sub_one, pow_one] at h1 h2
  rw [e] at h2
  apply Nat.le_antisymm h2
  have e2 : (m + 2).factorial - 2 * m.factorial + m * (m - 1) * m.factorial = 2 * ((m + 1) * m * m.factorial) := by
    rw [← e, ← Nat.add_mul, ← Nat.mul_assoc]
    congr 1
    rcases m with _ | k
    · rfl
    · have : (k + 1 + 2) * (k + 1 + 1) - 2 = (k + 1) * (k + 4) := by
        rw [show (k + 1 + 2) * (k + 1 + 1) = (k + 1) * (k + 4) + 2 by ring, Nat.add_sub_cancel]
      rw [this, Nat.add_sub_cancel]; ring
  rw [← e2, Nat.mul_add, Nat.mul_add] at h1
  omega

end

open Filter Topology Classical in
theorem recovered_limit {N m X : ℕ → ℕ}
    (hX : ∀ k, X k = ∑ i : Fin (N k), (Finset.univ.filter (fun h : Fin (N k) → Equiv.Perm (Fin (m k + 2)) => Recovered h i)).card) {g ε : ℝ} (hε : 0 < ε)
    (hm : Tendsto m atTop atTop) (hg : Tendsto (fun k => (N k : ℝ) / (m k + 2 : ℕ)) atTop (𝓝 g)) :
    ∀ᶠ k in atTop, g * (2 * Real.exp (-(2 * g)) - Real.exp (-(4 * g))) - ε <
      (X k : ℝ) / (Fintype.card (Fin (N k) → Equiv.Perm (Fin (m k + 2))) : ℝ) / (m k + 2 : ℕ) := by
  have hn1 : Tendsto (fun k => m k + 2) atTop atTop := tendsto_atTop_mono (fun k => by omega) hm
  have hn2 : Tendsto (fun k => m k + 1) atTop atTop := tendsto_atTop_mono (fun k => by omega) hm
  have i1 : Tendsto (fun k => 1 / ((m k + 2 : ℕ) : ℝ)) atTop (𝓝 0) := tendsto_one_div_atTop_nhds_zero_nat.comp hn1
  have i2 : Tendsto (fun k => 1 / ((m k + 1 : ℕ) : ℝ)) atTop (𝓝 0) := tendsto_one_div_atTop_nhds_zero_nat.comp hn2
  -- stations other than one, per slot
  have hg' : Tendsto (fun k => ((N k - 1 : ℕ) : ℝ) * (1 / ((m k + 2 : ℕ) : ℝ))) atTop (𝓝 g) := by
    have h1 : Tendsto (fun k => (N k : ℝ) / (m k + 2 : ℕ) - 1 / ((m k + 2 : ℕ) : ℝ)) atTop (𝓝 g) := by simpa only [sub_zero] using hg.sub i1
    refine tendsto_of_tendsto_of_tendsto_of_le_of_le h1 hg ?_ ?_
    · intro k
      have : (N k : ℝ) - 1 ≤ ((N k - 1 : ℕ) : ℝ) := by
        have : N k ≤ (N k - 1) + 1 := by omega
        have : (N k : ℝ) ≤ ((N k - 1 : ℕ) : ℝ) + 1 := by exact_mod_cast this
        linarith
      simp only
      rw [← sub_div, mul_one_div]
      gcongr
    · intro k
      simp only
      rw [mul_one_div]
      gcongr
      omega
  have p1 : Tendsto (fun k => (1 - 2 / ((m k : ℝ) + 2)) ^ (N k - 1)) atTop (𝓝 (Real.exp (-(2 * g)))) := by
    apply pow_tendsto
    · have := i1.const_mul 2
      rw [mul_zero] at this
      refine this.congr (fun k => ?_)
      push_cast; ring
    · refine (hg'.const_mul 2).congr (fun k => ?_)
      push_cast; ring
  -- both slots free
  have p2 : Tendsto (fun k => ((1 - 2 / ((m k : ℝ) + 2)) * (1 - 2 / ((m k : ℝ) + 2 - 1))) ^ (N k - 1)) atTop (𝓝 (Real.exp (-(4 * g)))) := by
    have h2 : Tendsto (fun k => (1 - 2 / ((m k : ℝ) + 1)) ^ (N k - 1)) atTop (𝓝 (Real.exp (-(2 * g)))) := by
      apply pow_tendsto
      · have := i2.const_mul 2
        rw [mul_zero] at this
        refine this.congr (fun k => ?_)
        push_cast; ring
      · have : Tendsto (fun k => 1 + 1 / ((m k + 1 : ℕ) : ℝ)) atTop (𝓝 1) := by simpa only [add_zero] using i2.const_add 1
        have h := (hg'.const_mul 2).mul this
        rw [mul_one] at h
        refine h.congr (fun k => ?_)
        push_cast
        field_simp
        ring
    have h := p1.mul h2
    rw [← Real.exp_add, show -(2 * g) + -(2 * g) = -(4 * g) by ring] at h
    refine h.congr (fun k => ?_)
    rw [mul_pow, show (m k : ℝ) + 2 - 1 = m k + 1 by ring]
  have hlim := hg.mul ((p1.const_mul 2).sub p2)
  filter_upwards [hlim.eventually_const_lt (sub_lt_self _ hε)] with k hk
  refine lt_of_lt_of_le hk ?_
  have h1 := (recovered_mean (hX k) rfl).1
  have hpos : (0 : ℝ) < (m k + 2 : ℕ) := by positivity
  rw [le_div_iff₀ hpos]
  refine le_trans (le_of_eq ?_) h1
  rw [div_mul_eq_mul_div, div_mul_cancel₀ _ hpos.ne']

open Filter Topology in
/-- With long frames and `g` packets per slot, at least `g * (2 * exp (-2 g) - exp (-4 g))` packets per slot are passed up on average, up to any margin. -/
theorem C79_limit {P : Type} [Zero P] [Add P] {lost : P → P → Bool} {N m slot lo hi : ℕ → ℕ} {now δ len : ∀ k, Fin (N k) → Nat}
    {pow : ∀ k, Fin (N k) → P} {ds : ∀ k, Fin (N k) → Equiv.Perm (Fin (m k + 2)) → List Nat}
    {s : ∀ k, (Fin (N k) → Equiv.Perm (Fin (m k + 2))) → Crdsa.Sys P}
    (hr : ∀ k, CrdsaRun lost (N k) (m k) (slot k) (lo k) (hi k) (now k) (δ k) (len k) (pow k) (ds k) (s k)) {g ε : ℝ} (hε : 0 < ε)
    (hm : Tendsto m atTop atTop) (hg : Tendsto (fun k => (N k : ℝ) / (m k + 2 : ℕ)) atTop (𝓝 g)) :
    ∀ᶠ k in atTop, g * (2 * Real.exp (-(2 * g)) - Real.exp (-(4 * g))) - ε <
      ((∑ h, (s k h).delivered.length : ℕ) : ℝ) / (Fintype.card (Fin (N k) → Equiv.Perm (Fin (m k + 2))) : ℝ) / (m k + 2 : ℕ) :=
  recovered_limit (fun k => crdsaRun_sum (hr k)) hε hm hg

/-- Below `log φ ≈ 0.48` packets per slot (φ the golden ratio) two replicas are better than one, whatever else is recovered. -/
theorem C79_better {g : ℝ} (h0 : 0 < g) (h1 : g < Real.log ((1 + Real.sqrt 5) / 2)) :
    g * Real.exp (-g) < g * (2 * Real.exp (-(2 * g)) - Real.exp (-(4 * g))) := by
  set x := Real.exp (-g) with hx
  have e2 : Real.exp (-(2 * g)) = x ^ 2 := by rw [hx, ← Real.exp_nat_mul]; congr 1; push_cast; ring
  have e4 : Real.exp (-(4 * g)) = x ^ 4 := by rw [hx, ← Real.exp_nat_mul]; congr 1; push_cast; ring
  rw [e2, e4]
  apply mul_lt_mul_of_pos_left _ h0
  have hx0 : 0 < x := Real.exp_pos _
  have hx1 : x < 1 := by rw [hx, Real.exp_lt_one_iff]; linarith
  have h5 : Real.sqrt 5 ^ 2 = 5 := Real.sq_sqrt (by norm_num)
  have h5' : 0 ≤ Real.sqrt 5 := Real.sqrt_nonneg 5
  have hφ : (0 : ℝ) < (1 + Real.sqrt 5) / 2 := by positivity
  have hlow : (Real.sqrt 5 - 1) / 2 < x := by
    have : Real.exp (-Real.log ((1 + Real.sqrt 5) / 2)) < x := by rw [hx, Real.exp_lt_exp]; linarith
    rw [Real.exp_neg, Real.exp_log hφ] at this
    have e : ((1 + Real.sqrt 5) / 2)⁻¹ = (Real.sqrt 5 - 1) / 2 := by
      rw [inv_eq_iff_eq_inv, eq_comm, inv_eq_iff_eq_inv, eq_comm]
      rw [inv_eq_one_div, eq_comm, eq_div_iff hφ.ne']
      nlinarith
    rwa [e] at this
  have hq : 0 < x ^ 2 + x - 1 := by nlinarith
  have : 0 < x * ((1 - x) * (x ^ 2 + x - 1)) := mul_pos hx0 (mul_pos (by linarith) hq)
  nlinarith

/-! ### Non-vacuity -/

section
variable {P : Type} [Zero P] [Add P]

/-- A CRDSA receiver can do what an Aloha receiver does, until something goes wrong. -/
theorem exec_of_aloha {strict ties : Bool} {lost : P → P → Bool} {F : Nat} {ops : List (Op P)} {a : Aloha.Sys P} (h : Aloha.exec ties lost ops = some a) :
    ∃ o, exec strict ties lost F ops = some o := by
  induction ops using List.reverseRecOn generalizing a with
  | nil => exact ⟨_, rfl⟩
  | append_singleton os x ih =>
    obtain ⟨a0, h0, h1⟩ := Aloha.exec_snoc.mp h
    obtain ⟨o, ho⟩ := ih h0
    unfold exec at ho ⊢
    rw [execFrom_append, ho]
    cases o with
    | abort => exact ⟨_, rfl⟩
    | assertFail => exact ⟨_, rfl⟩
    | ub e => exact ⟨_, rfl⟩
    | ok s0 =>
      obtain ⟨d, hd⟩ := exec_aloha ho
      rw [h0, Option.some.injEq] at hd
      subst hd
      simp only [execFrom]
      cases x with
      | arrive f =>
        simp only [Aloha.step] at h1
        split at h1
        · rename_i hc
          simp only [step]
          rw [if_pos hc]
          exact ⟨_, rfl⟩
        · simp at h1
      | finish =>
        simp only [Aloha.step] at h1
        simp only [step]
        split at h1
        · simp at h1
        · rename_i hp
          rw [hp]
          simp only
          cases finishRx strict lost F s0.st _ with
          | ok r => exact ⟨_, rfl⟩
          | ub e => exact ⟨_, rfl⟩
          | abort => exact ⟨_, rfl⟩
          | assertFail => exact ⟨_, rfl⟩

/-- There are receivers as in `C79_lower` for every number of stations and slots. -/
theorem crdsaRun_exists {lost : P → P → Bool} {Q : P → Prop} (hlost : Aloha.Drops lost Q) (N m slot lo hi b : Nat) (hs : hi - lo + (hi - lo) + 2 ≤ slot)
    (hsm : slot * (m + 2) < 2 ^ 63) (now δ : Fin N → Nat)
    (hB : ∀ i, now i ≤ slot * (m + 2) * b ∧ slot * (m + 2) * b < now i + slot * (m + 2)) (hδ : ∀ i, lo ≤ δ i ∧ δ i ≤ hi) (pow : Fin N → P)
    (hp : ∀ i, Q (pow i)) :
    ∃ ds s, CrdsaRun lost N m slot lo hi now δ (fun _ => hi - lo + 1) pow ds s := by
  have hlost' : Aloha.Drops lost (fun p => ∃ i, pow i = p) := hlost.mono (by rintro _ ⟨i, rfl⟩; exact hp i)
  have hd : ∀ (i : Fin N) (σ : Equiv.Perm (Fin (m + 2))), ∃ ds, sendDelays (now i) slot (order σ) 2 = .ok ds := by
    intro i σ
    obtain ⟨ds, _, _, h, -⟩ := C21_replicas (now i) slot (m + 2) 2 (order σ) (order_perm σ) (by omega) (by omega) (by omega) hsm
    exact ⟨ds, h⟩
  choose ds hds using hd
  have hex : ∀ h : Fin N → Equiv.Perm (Fin (m + 2)), ∃ s, CrdsaComplete lost (slot * (m + 2))
      (List.ofFn (fun i => heardCopies now δ (fun _ => hi - lo + 1) pow (ds i (h i)) i)).flatten s := by
    intro h
    obtain ⟨a, ops, h1, h2, h3⟩ := complete_exists true lost
      (List.ofFn (fun i => heardCopies now δ (fun _ => hi - lo + 1) pow (ds i (h i)) i)).flatten
    obtain ⟨o, ho⟩ := exec_of_aloha (strict := true) (F := slot * (m + 2)) h1
    obtain ⟨ht, hsp, -⟩ := crdsaRun_traffic (by omega) hsm hB hδ (fun i => by omega) hds h2
    obtain ⟨s, rfl, -⟩ := C70_receiver hlost' ho ht (copies_pow h2) hsp
    refine ⟨s, ops, ho, h2, ?_⟩
    obtain ⟨d, hd⟩ := exec_aloha ho
    rw [h1, Option.some.injEq] at hd
    rw [hd] at h3
    exact h3
  choose s hs' using hex
  exact ⟨ds, s, hlost', by omega, hsm, ⟨_, ⟨b, rfl⟩, hB⟩, hδ, fun i => by omega, hds, hs'⟩

end

/-- Ten stations, frames of 100 slots. -/
example : ∃ ds s, CrdsaRun (fun _ _ => true) 10 98 672 2 3 (fun i => 5 + i.val) (fun _ => 3) (fun _ => 2) (fun _ => (1 : Int)) ds s :=
  crdsaRun_exists (Aloha.Drops.always (fun _ _ => rfl) (fun _ => True)) 10 98 672 2 3 1 (by omega) (by omega) _ _ (fun i => by have := i.2; omega)
    (fun _ => by omega) _ (fun _ => trivial)

/-- With the test of the code and its default threshold. -/
example : ∃ ds s, CrdsaRun (Aloha.sirLost none) 10 98 672 2 3 (fun i => 5 + i.val) (fun _ => 3) (fun _ => 2) (fun _ => (1 : ℝ)) ds s :=
  crdsaRun_exists C18_default_threshold 10 98 672 2 3 1 (by omega) (by omega) _ _ (fun i => by have := i.2; omega) (fun _ => by omega) _
    (fun _ => by norm_num)

/-- Two stations, three slots: of the 36 choices, both packets get through in 24, none in the other 12. -/
example : ∃ ds s, CrdsaRun (fun _ _ => true) 2 1 5 2 3 (fun _ => 0) (fun _ => 3) (fun _ => 2) (fun _ => (1 : Int)) ds s ∧
    ∑ h, (s h).delivered.length = 48 := by
  obtain ⟨ds, s, h⟩ := crdsaRun_exists (lost := fun _ _ : Int => true) (Aloha.Drops.always (fun _ _ => rfl) (fun _ => True)) 2 1 5 2 3 0 (by omega) (by omega) (fun _ => 0) (fun _ => 3)
    (fun i => by omega) (fun _ => by omega) (fun _ => 1) (fun _ => trivial)
  exact ⟨ds, s, h, by rw [C79_two_stations h]; rfl⟩

/-- A third of a packet per slot. -/
example : (0 : ℝ) < 1 / 3 ∧ 1 / 3 < Real.log ((1 + Real.sqrt 5) / 2) := by
  refine ⟨by norm_num, ?_⟩
  rw [Real.lt_log_iff_exp_lt (by positivity)]
  have h5 : (2.2 : ℝ) < Real.sqrt 5 := by rw [Real.lt_sqrt (by norm_num)]; norm_num
  have he : Real.exp (1 / 3) < 3 / 2 := by
    have h := Real.exp_bound_div_one_sub_of_interval' (x := 1 / 3) (by norm_num) (by norm_num)
    norm_num at h ⊢
    exact h
  linarith

end Icarus
