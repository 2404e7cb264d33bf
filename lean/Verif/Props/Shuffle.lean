import Verif.Lemmas.Shuffle
import Verif.Props.CrdsaThroughput

/-!
# Property C85: the shuffle of the slot table

The generator's values are counted: a sequence of `L` values of 32 bits each has `(2^32) ^ L` possibilities.
-/

set_option autoImplicit false

namespace Icarus
open Crdsa

theorem draw_done {α : Type} {o : Option (α × List UInt32)} {a : α} {rest : List UInt32} : toDraw o = .done a rest ↔ o = some (a, rest) := by
  rcases o with _ | ⟨b, r⟩ <;> simp [toDraw]

/-- One draw from `ρ` values: each is the result of equally many values of the generator, and at most half of the generator's values are drawn again. -/
theorem C85_draw (m : Method) {ρ : Nat} (h0 : 0 < ρ) (hρ : ρ < 2 ^ 32) :
    (∀ r, r < ρ → (Finset.univ.filter (fun x : UInt32 => uniformInt m (ρ - 1) [x] = .done r [])).card =
      match m with
      | .multiply => 2 ^ 32 / ρ
      | .divide => (2 ^ 32 - 1) / ρ) ∧
    (∀ x : UInt32, (∃ r, r < ρ ∧ ∀ xs, uniformInt m (ρ - 1) (x :: xs) = .done r xs) ∨ ∀ xs, uniformInt m (ρ - 1) (x :: xs) = uniformInt m (ρ - 1) xs) ∧
    2 * (Finset.univ.filter (fun x : UInt32 => uniformInt m (ρ - 1) [x] = .more)).card ≤ 2 ^ 32 := by
  refine ⟨?_, ?_, ?_⟩
  · intro r hr
    have := accept_fair m hρ hr
    have e : (Finset.univ.filter (fun x : UInt32 => uniformInt m (ρ - 1) [x] = .done r [])) =
        Finset.univ.filter (fun x : UInt32 => accept m ρ x = some r) := by
      apply Finset.filter_congr
      intro x _
      rw [uniformInt_eq m h0 hρ, draw_done]
      simp only [drawOne]
      cases accept m ρ x <;> simp
    rw [e, this]
    cases m <;> rfl
  · intro x
    cases hx : accept m ρ x with
    | none =>
      refine Or.inr (fun xs => ?_)
      rw [uniformInt_eq m h0 hρ, uniformInt_eq m h0 hρ]
      simp only [drawOne, hx]
    | some r =>
      refine Or.inl ⟨r, accept_lt m h0 hx, fun xs => ?_⟩
      rw [uniformInt_eq m h0 hρ]
      simp only [drawOne, hx, toDraw]
  · have h := rejected_le m h0 hρ
    rw [card_gen] at h
    refine le_trans (le_of_eq ?_) h
    unfold rejected
    refine congrArg (fun F : Finset UInt32 => 2 * F.card) (Finset.filter_congr ?_)
    intro x _
    rw [uniformInt_eq m h0 hρ]
    simp only [drawOne]
    cases accept m ρ x <;> simp [toDraw]

/-- A table of less than 65536 entries (their number is a `uint16_t`): the shuffle neither leaves the table nor the modelled part of the library; it asks for
more values or ends with a rearrangement, having used at least one value for every two entries and left the rest alone. -/
theorem C85_permutes (m : Method) {v : List Nat} (hb : v.length < 2 ^ 16) (xs : List UInt32) :
    (shuffle m v xs = .more ∧ ∀ pre, pre <+: xs → shuffle m v pre = .more) ∨
    ∃ w used rest, shuffle m v xs = .done w rest ∧ w.Perm v ∧ xs = used ++ rest ∧ v.length / 2 ≤ used.length ∧
      ∀ rest', shuffle m v (used ++ rest') = .done w rest' := by
  have hlt := fun ρ (hρ : ρ ∈ ranges v.length) x r hx => accept_lt m (ranges_bounds hb ρ hρ).1 (x := x) (r := r) hx
  rcases hd : drawAll (accept m) (ranges v.length) xs with _ | ⟨rs, rest⟩
  · refine Or.inl ⟨by rw [shuffle_eq m hb, hd]; rfl, ?_⟩
    rintro pre ⟨suf, rfl⟩
    rw [shuffle_eq m hb]
    rcases hp : drawAll (accept m) (ranges v.length) pre with _ | ⟨rs, rest⟩
    · rfl
    · rw [drawAll_append _ hp] at hd; cases hd
  · refine Or.inr ?_
    obtain ⟨used, rfl, hl, -⟩ := drawAll_suffix _ _ hd
    have hv := drawAll_valid (accept m) _ hlt hd
    refine ⟨applySwaps v 1 (decode v.length rs), used, rest, by rw [shuffle_eq m hb, hd]; rfl, ?_, rfl, by rw [← ranges_length]; exact hl, ?_⟩
    · rcases Nat.eq_zero_or_pos v.length with h0 | h0
      · have : v = [] := List.length_eq_zero_iff.mp h0
        subst this
        cases hv
        exact List.Perm.refl _
      · obtain ⟨d1, d2⟩ := decode_valid h0 hv
        exact (applySwaps_facts _ v 1 d2 (by omega)).1
    · intro rest'
      rw [shuffle_eq m hb, drawAll_exchange _ hd]; rfl

open Classical in
/-- Of all sequences of `L` values of the generator equally many lead to any two orders of the table, whatever order it has before. -/
theorem C85_uniform (m : Method) {v : List Nat} (hnd : v.Nodup) (hb : v.length < 2 ^ 16) (L : Nat) {w w' : List Nat} (hw : w.Perm v) (hw' : w'.Perm v) :
    (Finset.univ.filter (fun xs : Fin L → UInt32 => ∃ rest, shuffle m v (List.ofFn xs) = .done w rest)).card =
    (Finset.univ.filter (fun xs : Fin L → UInt32 => ∃ rest, shuffle m v (List.ofFn xs) = .done w' rest)).card :=
  (count_shuffle m hnd hb hw L).trans (count_shuffle m hnd hb hw' L).symm

open Classical in
/-- Every order is the result of some sequence of one value for every two entries. -/
theorem C85_every_order (m : Method) {v w : List Nat} (hnd : v.Nodup) (hb : v.length < 2 ^ 16) (hw : w.Perm v) :
    ∃ xs, xs.length = v.length / 2 ∧ shuffle m v xs = .done w [] := by
  have h := count_shuffle m hnd hb hw (v.length / 2)
  have hp : 0 < ways (accept m) (share m) (ranges v.length) (v.length / 2) :=
    ways_pos _ _ _ _ (fun ρ hρ => share_pos m (ranges_bounds hb ρ hρ).1 (ranges_bounds hb ρ hρ).2) (by rw [ranges_length])
  rw [← h] at hp
  unfold count at hp
  obtain ⟨xs, hxs⟩ := Finset.card_pos.mp hp
  obtain ⟨rest, hr⟩ := (Finset.mem_filter.mp hxs).2
  refine ⟨List.ofFn xs, by simp, ?_⟩
  rcases C85_permutes m hb (List.ofFn xs) with h1 | ⟨w1, used, rest1, h1, -, h3, h4, -⟩
  · rw [h1.1] at hr; cases hr
  · rw [h1] at hr
    simp only [Draw.done.injEq] at hr
    obtain ⟨rfl, rfl⟩ := hr
    have := congrArg List.length h3
    rw [List.length_ofFn, List.length_append] at this
    have : rest1 = [] := List.length_eq_zero_iff.mp (by omega)
    rw [h1, this]

open Classical in
/-- The shuffle ends: the part of the sequences of `L` values that do not suffice is at most `4 ^ (n / 2) * (3 / 4) ^ L`. -/
theorem C85_ends (m : Method) {v : List Nat} (hb : v.length < 2 ^ 16) (L : Nat) :
    (Finset.univ.filter (fun xs : Fin L → UInt32 => shuffle m v (List.ofFn xs) = .more)).card * 4 ^ L ≤ 4 ^ (v.length / 2) * 3 ^ L * (2 ^ 32) ^ L := by
  have := count_unfinished m hb L
  rw [Nat.mul_pow, ← Nat.mul_assoc] at this
  unfold count at this
  convert this

/-! ## Slots selected -/

theorem slotIds_facts {n : Nat} {v : List Nat} (hv : v.Perm (slotTable n)) : v.Nodup ∧ v.length = n :=
  ⟨hv.nodup_iff.mpr (by simp [slotTable, List.nodup_range]), by rw [hv.length_eq]; simp [slotTable]⟩

/-- The orders in which the shuffle leaves a slot table. -/
theorem shuffle_order (m : Method) {n : Nat} (hn : n < 2 ^ 16) {v : List Nat} (hv : v.Perm (slotTable n)) {xs : List UInt32} {w : List Nat} {rest : List UInt32}
    (h : shuffle m v xs = .done w rest) : ∃! σ : Equiv.Perm (Fin n), order σ = w := by
  obtain ⟨-, hl⟩ := slotIds_facts hv
  rcases C85_permutes m (v := v) (by omega) xs with h1 | ⟨w1, used, rest1, h1, h2, -⟩
  · rw [h1.1] at h; cases h
  · rw [h1] at h
    simp only [Draw.done.injEq] at h
    obtain ⟨rfl, rfl⟩ := h
    exact order_unique (h2.trans hv)

open Classical in
theorem card_order (m : Method) {n : Nat} (hn : n < 2 ^ 16) {v : List Nat} (hv : v.Perm (slotTable n)) (L : Nat) (σ : Equiv.Perm (Fin n)) :
    (Finset.univ.filter (fun xs : Fin L → UInt32 => ∃ rest, shuffle m v (List.ofFn xs) = .done (order σ) rest)).card =
      ways (accept m) (share m) (ranges n) L := by
  obtain ⟨hnd, hl⟩ := slotIds_facts hv
  have := count_shuffle m hnd (by omega) ((order_perm σ).trans hv.symm) L
  rw [hl] at this
  exact this

open Classical in
/-- `GetSelectedSlots` selects any two sequences of `k` different slots with equally many sequences of generator values, whatever the slot table looks like
after earlier packets. -/
theorem C85_selected (m : Method) {n : Nat} (hn : n < 2 ^ 16) {v : List Nat} (hv : v.Perm (slotTable n)) (L : Nat) {slots slots' : List Nat}
    (hnd : slots.Nodup) (hs : ∀ s ∈ slots, s < n) (hnd' : slots'.Nodup) (hs' : ∀ s ∈ slots', s < n) (hk : slots.length = slots'.length) :
    (Finset.univ.filter (fun xs : Fin L → UInt32 => ∃ w rest, selectSlots m v slots.length (List.ofFn xs) = .done (.ok slots, w) rest)).card =
    (Finset.univ.filter (fun xs : Fin L → UInt32 => ∃ w rest, selectSlots m v slots.length (List.ofFn xs) = .done (.ok slots', w) rest)).card := by
  have key : ∀ sl : List Nat, sl.Nodup → (∀ s ∈ sl, s < n) → sl.length = slots.length →
      (Finset.univ.filter (fun xs : Fin L → UInt32 => ∃ w rest, selectSlots m v slots.length (List.ofFn xs) = .done (.ok sl, w) rest)).card =
        (n - slots.length).factorial * ways (accept m) (share m) (ranges n) L := by
    intro sl h1 h2 h3
    have hbi : (Finset.univ.filter (fun xs : Fin L → UInt32 => ∃ w rest, selectSlots m v slots.length (List.ofFn xs) = .done (.ok sl, w) rest)) =
        (Finset.univ.filter (fun σ : Equiv.Perm (Fin n) => getSelectedSlots (order σ) sl.length = .ok sl)).biUnion
          (fun σ => Finset.univ.filter (fun xs : Fin L → UInt32 => ∃ rest, shuffle m v (List.ofFn xs) = .done (order σ) rest)) := by
      ext xs
      simp only [Finset.mem_filter, Finset.mem_univ, true_and, Finset.mem_biUnion]
      constructor
      · rintro ⟨w, rest, h⟩
        unfold selectSlots at h
        cases hsh : shuffle m v (List.ofFn xs) with
        | done w' r' =>
          rw [hsh] at h
          simp only [Draw.bind, Draw.done.injEq, Prod.mk.injEq] at h
          obtain ⟨⟨h4, rfl⟩, rfl⟩ := h
          obtain ⟨σ, rfl, -⟩ := shuffle_order m hn hv hsh
          exact ⟨σ, by rw [h3]; exact h4, r', rfl⟩
        | more => rw [hsh] at h; cases h
        | ub f => rw [hsh] at h; cases h
        | upscale => rw [hsh] at h; cases h
      · rintro ⟨σ, h4, rest, h5⟩
        refine ⟨order σ, rest, ?_⟩
        unfold selectSlots
        rw [h5]
        simp only [Draw.bind]
        rw [← h3, h4]
    rw [hbi, Finset.card_biUnion]
    · rw [Finset.sum_congr rfl (fun σ _ => card_order m hn hv L σ), Finset.sum_const, C79_uniform sl h1 h2, smul_eq_mul, h3]
    · intro σ _ τ _ hne
      simp only [Function.onFun]
      rw [Finset.disjoint_left]
      intro xs h4 h5
      obtain ⟨r1, h4⟩ := (Finset.mem_filter.mp h4).2
      obtain ⟨r2, h5⟩ := (Finset.mem_filter.mp h5).2
      rw [h4] at h5
      simp only [Draw.done.injEq] at h5
      exact hne ((order_unique (order_perm τ)).unique h5.1 rfl)
  rw [key slots hnd hs rfl, key slots' hnd' hs' hk.symm]

/-! ## Means -/

open Classical in
/-- `N` stations shuffle their slot tables with `L` values of the generator each: the mean of a quantity over the sequences of values that suffice is its mean
over the orders of the tables. -/
theorem C85_mean (m : Method) {N n L : Nat} (hn : n < 2 ^ 16) (hL : n / 2 ≤ L) {v : Fin N → List Nat} (hv : ∀ i, (v i).Perm (slotTable n))
    {f : (Fin N → Equiv.Perm (Fin n)) → ℝ} {g : (Fin N → Fin L → UInt32) → ℝ}
    (hg : ∀ xs h, (∀ i, ∃ rest, shuffle m (v i) (List.ofFn (xs i)) = .done (order (h i)) rest) → g xs = f h) :
    (∑ xs ∈ Finset.univ.filter (fun xs : Fin N → Fin L → UInt32 => ∀ i, ∃ w rest, shuffle m (v i) (List.ofFn (xs i)) = .done w rest), g xs) /
      ((Finset.univ.filter (fun xs : Fin N → Fin L → UInt32 => ∀ i, ∃ w rest, shuffle m (v i) (List.ofFn (xs i)) = .done w rest)).card : ℝ) =
    (∑ h, f h) / (Fintype.card (Fin N → Equiv.Perm (Fin n)) : ℝ) := by
  set W := ways (accept m) (share m) (ranges n) L with hW
  have hWpos : 0 < W := ways_pos _ _ _ _ (fun ρ hρ => share_pos m (ranges_bounds hn ρ hρ).1 (ranges_bounds hn ρ hρ).2) (by rw [ranges_length]; exact hL)
  -- the sequences that lead to the orders `h`
  let S : (Fin N → Equiv.Perm (Fin n)) → Finset (Fin N → Fin L → UInt32) :=
    fun h => Fintype.piFinset (fun i => Finset.univ.filter (fun xs : Fin L → UInt32 => ∃ rest, shuffle m (v i) (List.ofFn xs) = .done (order (h i)) rest))
  have hmem : ∀ h xs, xs ∈ S h ↔ ∀ i, ∃ rest, shuffle m (v i) (List.ofFn (xs i)) = .done (order (h i)) rest := by
    intro h xs
    simp [S, Fintype.mem_piFinset]
  have hcard : ∀ h, (S h).card = W ^ N := by
    intro h
    rw [Fintype.card_piFinset, Finset.prod_congr rfl (fun i _ => card_order m hn (hv i) L (h i)), Finset.prod_const, Finset.card_univ, Fintype.card_fin]
  have hdisj : ∀ h ∈ (Finset.univ : Finset (Fin N → Equiv.Perm (Fin n))), ∀ h' ∈ (Finset.univ : Finset (Fin N → Equiv.Perm (Fin n))), h ≠ h' → Disjoint (S h) (S h') := by
    intro h _ h' _ hne
    rw [Finset.disjoint_left]
    intro xs h4 h5
    rw [hmem] at h4 h5
    apply hne
    funext i
    obtain ⟨r1, h4⟩ := h4 i
    obtain ⟨r2, h5⟩ := h5 i
    rw [h4] at h5
    simp only [Draw.done.injEq] at h5
    exact (order_unique (order_perm (h' i))).unique h5.1 rfl
  have hfin : (Finset.univ.filter (fun xs : Fin N → Fin L → UInt32 => ∀ i, ∃ w rest, shuffle m (v i) (List.ofFn (xs i)) = .done w rest)) =
      (Finset.univ : Finset (Fin N → Equiv.Perm (Fin n))).biUnion S := by
    ext xs
    simp only [Finset.mem_filter, Finset.mem_univ, true_and, Finset.mem_biUnion, hmem]
    constructor
    · intro h
      choose w rest hwr using h
      choose σ hσ _ using fun i => shuffle_order m hn (hv i) (hwr i)
      exact ⟨σ, fun i => ⟨rest i, by rw [hσ i]; exact hwr i⟩⟩
    · rintro ⟨h, hh⟩ i
      obtain ⟨rest, hr⟩ := hh i
      exact ⟨_, rest, hr⟩
  rw [hfin, Finset.card_biUnion hdisj, Finset.sum_biUnion hdisj, Finset.sum_congr rfl (fun h _ => hcard h), Finset.sum_const, Finset.card_univ, smul_eq_mul]
  have hsum : ∀ h ∈ (Finset.univ : Finset (Fin N → Equiv.Perm (Fin n))), ∑ xs ∈ S h, g xs = (W : ℝ) ^ N * f h := by
    intro h _
    rw [Finset.sum_congr rfl (fun xs hxs => hg xs h ((hmem h xs).mp hxs)), Finset.sum_const, hcard h, nsmul_eq_mul]
    push_cast; ring
  rw [Finset.sum_congr rfl hsum, ← Finset.mul_sum]
  have hW0 : ((W : ℝ) ^ N) ≠ 0 := pow_ne_zero _ (by exact_mod_cast hWpos.ne')
  push_cast
  rw [mul_comm ((Fintype.card (Fin N → Equiv.Perm (Fin n)) : ℝ)), mul_div_mul_left _ _ hW0]

open Classical in
/-- Throughput of CRDSA (C79) with the shuffles of the library: bounds of the mean number of packets passed up, over all values of the generator. -/
theorem C85_throughput {P : Type} [Zero P] [Add P] {lost : P → P → Bool} {N k slot lo hi : Nat} {now δ len : Fin N → Nat} {pow : Fin N → P}
    {ds : Fin N → Equiv.Perm (Fin (k + 2)) → List Nat} {s : (Fin N → Equiv.Perm (Fin (k + 2))) → Crdsa.Sys P}
    (hr : CrdsaRun lost N k slot lo hi now δ len pow ds s) (m : Method) {L : Nat} (hn : k + 2 < 2 ^ 16) (hL : (k + 2) / 2 ≤ L)
    {v : Fin N → List Nat} (hv : ∀ i, (v i).Perm (slotTable (k + 2))) {received : (Fin N → Fin L → UInt32) → Nat}
    (hrec : ∀ xs h, (∀ i, ∃ rest, shuffle m (v i) (List.ofFn (xs i)) = .done (order (h i)) rest) → received xs = (s h).delivered.length)
    {mean n : ℝ} (hn' : n = k + 2)
    (hmean : mean = (∑ xs ∈ Finset.univ.filter (fun xs : Fin N → Fin L → UInt32 => ∀ i, ∃ w rest, shuffle m (v i) (List.ofFn (xs i)) = .done w rest),
        (received xs : ℝ)) /
      ((Finset.univ.filter (fun xs : Fin N → Fin L → UInt32 => ∀ i, ∃ w rest, shuffle m (v i) (List.ofFn (xs i)) = .done w rest)).card : ℝ)) :
    N * (2 * (1 - 2 / n) ^ (N - 1) - ((1 - 2 / n) * (1 - 2 / (n - 1))) ^ (N - 1)) ≤ mean ∧
    mean ≤ N * (1 - 2 / (n * (n - 1))) ^ (N - 1) := by
  have h := C79_mean hr hn'
  rw [hmean, C85_mean m hn hL hv (f := fun h => ((s h).delivered.length : ℝ)) (g := fun xs => (received xs : ℝ))
    (fun xs h hh => by simp only [hrec xs h hh])]
  push_cast at h
  exact h

/-! ## The generator of ns-3 -/

open Classical in
/-- ns-3's generator has 4294967087 values.  Truncation to 32 bits keeps them apart, so 209 of the values that the adaptor promises never occur, among
them zero; a result of a draw may lack at most 209 of the values that lead to it. -/
theorem C85_generator (m : Method) {ρ : Nat} (h0 : 0 < ρ) (hρ : ρ < 2 ^ 32) :
    (∀ k k', 0 < k → k < 4294967088 → 0 < k' → k' < 4294967088 → adaptor k = adaptor k' → k = k') ∧
    (∀ k, 0 < k → k < 4294967088 → adaptor k ≠ 0) ∧
    (Finset.univ.filter (fun x : UInt32 => ∀ k, 0 < k → k < 4294967088 → adaptor k ≠ x)).card = 209 ∧
    ∀ r, r < ρ →
      ((Finset.Ioo 0 4294967088).filter (fun k => uniformInt m (ρ - 1) [adaptor k] = .done r [])).card ≤
        (match m with
        | .multiply => 2 ^ 32 / ρ
        | .divide => (2 ^ 32 - 1) / ρ) ∧
      (match m with
        | .multiply => 2 ^ 32 / ρ
        | .divide => (2 ^ 32 - 1) / ρ) ≤
        ((Finset.Ioo 0 4294967088).filter (fun k => uniformInt m (ρ - 1) [adaptor k] = .done r [])).card + 209 := by
  have hval : ∀ k, k < 4294967088 → (adaptor k).toNat = k * 2 ^ 32 / 4294967088 := by
    intro k hk
    unfold adaptor
    rw [UInt32.toNat_ofNat', Nat.mod_eq_of_lt]
    omega
  have hinj : ∀ k k', 0 < k → k < 4294967088 → 0 < k' → k' < 4294967088 → adaptor k = adaptor k' → k = k' := by
    intro k k' _ hk _ hk' h
    have := congrArg UInt32.toNat h
    rw [hval k hk, hval k' hk'] at this
    omega
  have hnz : ∀ k, 0 < k → k < 4294967088 → adaptor k ≠ 0 := by
    intro k hk0 hk h
    have := congrArg UInt32.toNat h
    rw [hval k hk] at this
    have e : UInt32.toNat 0 = 0 := rfl
    rw [e] at this
    omega
  set I : Finset UInt32 := (Finset.Ioo 0 4294967088).image adaptor with hI
  have hinjOn : Set.InjOn adaptor (Finset.Ioo 0 4294967088 : Finset ℕ) := by
    intro a ha b hb h
    rw [Finset.mem_coe, Finset.mem_Ioo] at ha hb
    exact hinj a b ha.1 ha.2 hb.1 hb.2 h
  have hIcard : I.card = 4294967087 := by
    rw [hI, Finset.card_image_of_injOn hinjOn, Nat.card_Ioo]
  have hmiss : (Finset.univ.filter (fun x : UInt32 => ∀ k, 0 < k → k < 4294967088 → adaptor k ≠ x)) = Iᶜ := by
    ext x
    rw [Finset.mem_filter, Finset.mem_compl, hI, Finset.mem_image]
    constructor
    · rintro ⟨-, h⟩ ⟨k, hk, rfl⟩
      rw [Finset.mem_Ioo] at hk
      exact h k hk.1 hk.2 rfl
    · intro h
      refine ⟨Finset.mem_univ _, fun k h1 h2 h3 => h ⟨k, Finset.mem_Ioo.mpr ⟨h1, h2⟩, h3⟩⟩
  have hmc : (Iᶜ).card = 209 := by
    rw [Finset.card_compl, hIcard, card_gen]
    rfl
  refine ⟨hinj, hnz, by rw [hmiss, hmc], ?_⟩
  intro r hr
  rw [← (C85_draw m h0 hρ).1 r hr]
  have him : ((Finset.Ioo 0 4294967088).filter (fun k => uniformInt m (ρ - 1) [adaptor k] = .done r [])).card =
      (Finset.univ.filter (fun x : UInt32 => uniformInt m (ρ - 1) [x] = .done r []) ∩ I).card := by
    have : Finset.univ.filter (fun x : UInt32 => uniformInt m (ρ - 1) [x] = .done r []) ∩ I =
        ((Finset.Ioo 0 4294967088).filter (fun k => uniformInt m (ρ - 1) [adaptor k] = .done r [])).image adaptor := by
      ext x
      simp only [hI, Finset.mem_inter, Finset.mem_filter, Finset.mem_univ, true_and, Finset.mem_image]
      constructor
      · rintro ⟨h1, k, hk, rfl⟩; exact ⟨k, ⟨hk, h1⟩, rfl⟩
      · rintro ⟨k, ⟨hk, h1⟩, rfl⟩; exact ⟨h1, k, hk, rfl⟩
    rw [this, Finset.card_image_of_injOn (hinjOn.mono (Finset.coe_subset.mpr (Finset.filter_subset _ _)))]
  rw [him]
  constructor
  · exact Finset.card_le_card Finset.inter_subset_left
  · have h1 := Finset.card_inter_add_card_sdiff (Finset.univ.filter (fun x : UInt32 => uniformInt m (ρ - 1) [x] = .done r [])) I
    have h2 : (Finset.univ.filter (fun x : UInt32 => uniformInt m (ρ - 1) [x] = .done r []) \ I).card ≤ (Iᶜ).card := by
      apply Finset.card_le_card
      intro x hx
      rw [Finset.mem_compl]
      exact (Finset.mem_sdiff.mp hx).2
    omega

/-! ## Examples -/

/-- Four slots: two values of the generator; the first swaps or not, the second chooses from twelve pairs of positions. -/
example : shuffle .multiply (slotTable 4) [0x80000000, 0x20000000, 7] = .done [2, 3, 0, 1] [7] := by rfl

example : shuffle .divide (slotTable 4) [0x80000000, 0x20000000, 7] = .done [2, 3, 0, 1] [7] := by rfl

/-- A value that is drawn again: zero, in a draw from 12 values. -/
example : uniformInt .multiply 11 [0, 0xffffffff] = .done 11 [] ∧ uniformInt .divide 11 [0xffffffff, 0] = .done 0 [] := by
  constructor <;> rfl

example : selectSlots .multiply (slotTable 4) 2 [0x80000000, 0x20000000] = .done (.ok [2, 3], [2, 3, 0, 1]) [] := by rfl

example : (2 : Nat) ^ 32 / 12 = 357913941 := by norm_num

/-- The hypotheses of C85_uniform, C85_every_order and C85_selected with a table of 100 slots. -/
example : (slotTable 100).Nodup ∧ (slotTable 100).length < 2 ^ 16 ∧ [3, 17].Nodup ∧ ∀ s ∈ [3, 17], s < 100 :=
  ⟨List.nodup_range, by simp [slotTable], by decide, by decide⟩

/-- The hypothesis of C85_mean: the mean position of slot 0 after the shuffles of two stations. -/
example (m : Method) : ∃ (f : (Fin 2 → Equiv.Perm (Fin 10)) → ℝ) (g : (Fin 2 → Fin 8 → UInt32) → ℝ),
    (∀ xs h, (∀ i, ∃ rest, shuffle m (slotTable 10) (List.ofFn (xs i)) = .done (order (h i)) rest) → g xs = f h) ∧ ∃ h h', f h ≠ f h' := by
  refine ⟨fun h => ((order (h 0)).idxOf 0 : ℕ), fun xs => match shuffle m (slotTable 10) (List.ofFn (xs 0)) with
    | .done w _ => (w.idxOf 0 : ℕ)
    | _ => 0, ?_, 1, fun _ => Equiv.swap 0 1, ?_⟩
  · intro xs h hh
    obtain ⟨rest, hr⟩ := hh 0
    simp only [hr]
  · simp [order, List.ofFn_succ, Equiv.swap_apply_def]

end Icarus
