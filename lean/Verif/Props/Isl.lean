import Verif.Lemmas.Isl
import Verif.Props.Constellation

/-!
# Properties C11, C12: the inter-satellite grid

`n` planes of `s` satellites; a position is `(plane, index)`.
-/

set_option autoImplicit false

namespace Icarus
open Isl

/-- `x` and `y` are consecutive on a ring of `m` places `0 … m-1` (in either direction) and different. -/
def RingNbr (m x y : Nat) : Prop := x < m ∧ y < m ∧ x ≠ y ∧ ((x + 1) % m = y ∨ (y + 1) % m = x)

instance (m x y : Nat) : Decidable (RingNbr m x y) := by unfold RingNbr; infer_instance

/-- Grid neighbours: consecutive positions of one plane, or equal positions of consecutive planes. -/
def TorusAdj (n s : Nat) (a b : Nat × Nat) : Prop :=
  a.1 < n ∧ a.2 < s ∧ (a.1 = b.1 ∧ RingNbr s a.2 b.2 ∨ a.2 = b.2 ∧ RingNbr n a.1 b.1)

instance (n s : Nat) (a b : Nat × Nat) : Decidable (TorusAdj n s a b) := by unfold TorusAdj; infer_instance

/-- Does the link `l` connect `a` and `b` (in either orientation)? -/
def joins (a b : Nat × Nat) (l : (Nat × Nat) × (Nat × Nat)) : Bool := l = (a, b) ∨ l = (b, a)

theorem ring_succ_mod {m x : Nat} (h : x < m) : (x + 1) % m = if x + 1 = m then 0 else x + 1 := by
  split
  · rename_i h1; rw [h1, Nat.mod_self]
  · exact Nat.mod_eq_of_lt (by omega)

theorem ringNbr_iff {m x y : Nat} : RingNbr m x y ↔ x < m ∧ y < m ∧
    (y = x + 1 ∨ x = y + 1 ∨ 3 ≤ m ∧ (x + 1 = m ∧ y = 0 ∨ y + 1 = m ∧ x = 0)) := by
  unfold RingNbr
  constructor
  · rintro ⟨hx, hy, hne, h⟩
    rw [ring_succ_mod hx, ring_succ_mod hy] at h
    refine ⟨hx, hy, ?_⟩
    rcases h with h | h <;> split at h <;> omega
  · rintro ⟨hx, hy, h⟩
    rw [ring_succ_mod hx, ring_succ_mod hy]
    refine ⟨hx, hy, by omega, ?_⟩
    rcases h with h | h | ⟨hm, h | h⟩
    · left; rw [if_neg (by omega)]; omega
    · right; rw [if_neg (by omega)]; omega
    · left; rw [if_pos (by omega)]; omega
    · right; rw [if_pos (by omega)]; omega

theorem torusAdj_iff {n s : Nat} {a b : Nat × Nat} :
    TorusAdj n s a b ↔ (a, b) ∈ gridLinks n s ∨ (b, a) ∈ gridLinks n s := by
  obtain ⟨a1, a2⟩ := a
  obtain ⟨b1, b2⟩ := b
  unfold TorusAdj
  rw [ringNbr_iff, ringNbr_iff, mem_gridLinks, mem_gridLinks]
  simp only
  constructor
  · rintro ⟨h1, h2, ⟨h3, h4, h5, h6⟩ | ⟨h3, h4, h5, h6⟩⟩
    · rcases h6 with h6 | h6 | ⟨h7, h6 | h6⟩
      · left; omega
      · right; omega
      · left; omega
      · right; omega
    · rcases h6 with h6 | h6 | ⟨h7, h6 | h6⟩
      · left; omega
      · right; omega
      · left; omega
      · right; omega
  · rintro (⟨h1, h2, ⟨h3, h4 | h4⟩ | ⟨h3, h4 | h4⟩⟩ | ⟨h1, h2, ⟨h3, h4 | h4⟩ | ⟨h3, h4 | h4⟩⟩) <;>
      refine ⟨by omega, by omega, ?_⟩ <;> first | (left; omega) | (right; omega)

/-! ## C11 -/

/-- Between any two positions there is exactly one link if they are grid neighbours and none otherwise; in particular no
self-loops and no double links, also for one or two planes or positions. -/
theorem C11_links_are_torus_grid (n s : Nat) (a b : Nat × Nat) :
    (gridLinks n s).countP (joins a b) = if TorusAdj n s a b then 1 else 0 := by
  have hone : (gridLinks n s).countP (joins a b) ≤ 1 := by
    by_contra hgt
    -- a list without duplicates matching at most (a,b) and (b,a); both cannot be present
    have hboth : ¬ ((a, b) ∈ gridLinks n s ∧ (b, a) ∈ gridLinks n s) := by
      rintro ⟨h1, h2⟩
      rw [mem_gridLinks] at h1 h2
      obtain ⟨a1, a2⟩ := a
      obtain ⟨b1, b2⟩ := b
      simp only at h1 h2
      obtain ⟨-, -, h1⟩ := h1
      obtain ⟨-, -, h2⟩ := h2
      rcases h1 with ⟨_, h1⟩ | ⟨_, h1⟩ <;> rcases h2 with ⟨_, h2⟩ | ⟨_, h2⟩ <;> omega
    have key : ∀ l : List ((Nat × Nat) × (Nat × Nat)), l.Nodup → ¬((a, b) ∈ l ∧ (b, a) ∈ l) →
        l.countP (joins a b) ≤ 1 := by
      intro l
      induction l with
      | nil => simp
      | cons x xs ih =>
        intro hnd hnb
        rw [List.nodup_cons] at hnd
        rw [List.countP_cons]
        by_cases hx : joins a b x = true
        · have h0 : xs.countP (joins a b) = 0 := by
            rw [List.countP_eq_zero]
            intro y hy hj
            simp only [joins, Bool.decide_or, Bool.or_eq_true, decide_eq_true_eq] at hx hj
            rcases hx with rfl | rfl <;> rcases hj with rfl | rfl
            · exact hnd.1 hy
            · exact hnb ⟨by simp, by simp [hy]⟩
            · exact hnb ⟨by simp [hy], by simp⟩
            · exact hnd.1 hy
          simp [h0, hx]
        · have := ih hnd.2 (fun h => hnb ⟨by simp [h.1], by simp [h.2]⟩)
          simp [hx, this]
    have := key _ (gridLinks_nodup n s) hboth
    omega
  have hpos : 0 < (gridLinks n s).countP (joins a b) ↔ TorusAdj n s a b := by
    rw [torusAdj_iff, List.countP_pos_iff]
    constructor
    · rintro ⟨l, hl, hj⟩
      simp only [joins, Bool.decide_or, Bool.or_eq_true, decide_eq_true_eq] at hj
      rcases hj with rfl | rfl
      · exact Or.inl hl
      · exact Or.inr hl
    · rintro (h | h)
      · exact ⟨_, h, by simp [joins]⟩
      · exact ⟨_, h, by simp [joins]⟩
  split
  · rename_i h; have := hpos.mpr h; omega
  · rename_i h
    by_contra hne
    exact h (hpos.mp (by omega))

variable {D : Type}

theorem install_of_inv {cid n s : Nat} {hist : List (Nat × Nat × D)} {c : Constellation D} (inv : Constellation.Inv cid n s c hist)
    (dev : Nat × Nat → D) (hdev : ∀ p i, p < n → i < s → (p, i, dev (p, i)) ∈ hist)
    (debug : Bool) (hsize : c.getSize debug = .ok hist.length) (ids : List UInt16) (hlen : ids.length = hist.length)
    (hids : ∀ x ∈ ids, ∀ y ∈ ids, x = y) : install debug c ids = .ok ((gridLinks n s).map (fun l => (dev l.1, dev l.2))) := by
  have hsame : ∀ (l : List UInt16) (cur : UInt16), (∀ x ∈ l, ∀ y ∈ l, x = y) → (cur ≠ 0 → ∀ x ∈ l, x = cur) →
      sameConstellation cur l = true := by
    intro l
    induction l with
    | nil => intros; rfl
    | cons x xs ih =>
      intro cur hall hcur
      unfold sameConstellation
      split
      · rename_i hc
        have hx := hcur hc x (by simp)
        rw [hx]
        simp only [BEq.rfl, Bool.true_and]
        exact ih cur (fun a ha b hb => hall a (by simp [ha]) b (by simp [hb])) (fun _ a ha => hcur hc a (by simp [ha]))
      · exact ih x (fun a ha b hb => hall a (by simp [ha]) b (by simp [hb]))
          (fun _ a ha => hall a (by simp [ha]) x (by simp))
  have hnode : ∀ p i, p < n → i < s → nodeAt debug c (p, i) = .ok (dev (p, i)) := by
    intro p i hp hi
    have hm := hdev p i hp hi
    have hl : Constellation.lookup hist p i = some (dev (p, i)) := by
      unfold Constellation.lookup
      cases hf : hist.find? (fun x => x.1 == p && x.2.1 == i) with
      | none => rw [List.find?_eq_none] at hf; simpa using hf _ hm
      | some y =>
        have hy := List.mem_of_find?_eq_some hf
        have hyp := List.find?_some hf
        simp at hyp
        have : y = (p, i, dev (p, i)) := List.inj_on_of_nodup_map inv.nodup hy hm (by simp [hyp.1, hyp.2])
        simp [this]
    have hcell := inv.cells p i hp hi
    rw [hl] at hcell
    simp [nodeAt, Constellation.getSatellite, inv.nPlanes_eq, inv.planeSize_eq, Nat.le_of_lt hp, Nat.le_of_lt hi,
      Constellation.cell_eq_ok.mpr hcell]
  unfold install
  rw [hsame ids 0 hids (by simp), hsize, inv.nPlanes_eq, inv.planeSize_eq]
  rw [resolve_ok debug c dev _ (by
    intro l hl
    simp only [List.mem_flatMap, List.mem_map, List.mem_range] at hl
    obtain ⟨i, hi, j, hj, rfl⟩ := hl
    exact ⟨hnode i j hi hj, hnode i j hi hj⟩)]
  rw [resolve_ok debug c dev (gridLinks n s) (by
    rintro ⟨⟨p, i⟩, ⟨q, k⟩⟩ hl
    rw [mem_gridLinks] at hl
    simp only at hl
    exact ⟨hnode p i (by omega) (by omega), hnode q k (by omega) (by omega)⟩)]
  simp [hlen]

/-- Installing on a complete constellation (every position filled, container of matching size, one constellation number)
succeeds, and connects the devices at exactly the grid positions above. -/
theorem C11_install {e : Endian} {hasOrbit : D → Bool} {cid n s : Nat} {hist : List (Nat × Nat × D)}
    {as : List SatAddress} {c : Constellation D} (h : Built e hasOrbit cid n s hist as c)
    (dev : Nat × Nat → D) (hdev : ∀ p i, p < n → i < s → (p, i, dev (p, i)) ∈ hist)
    (debug : Bool) (ids : List UInt16) (hlen : ids.length = hist.length) (hids : ∀ x ∈ ids, ∀ y ∈ ids, x = y) :
    install debug c ids = .ok ((gridLinks n s).map (fun l => (dev l.1, dev l.2))) :=
  install_of_inv h.inv.1 dev hdev debug (C04_size_and_listing h debug).1 ids hlen hids

/-- The assertion "we need a complete constellation" only compares the number of nodes with the number of registered
satellites: with every registered satellite in the container but positions left empty it passes, and a null pointer is
dereferenced. -/
theorem C11_incomplete_is_ub :
    install true sparseExample [1] = .ub .nullDeref ∧ sparseExample.getSize true = .ok 1 := by decide

/-! ## C12 -/

/-- Expected number of neighbours on a ring of `m` places. -/
def specRingDegree (m : Nat) : Nat := if m ≤ 1 then 0 else if m = 2 then 1 else 2

/-- Neighbours of a position on a ring, listed. -/
def ringNbrs (m x : Nat) : List Nat :=
  if m ≤ 1 then [] else if m = 2 then [1 - x] else [(x + 1) % m, (x + m - 1) % m]

theorem ringNbrs_spec {m x : Nat} (hx : x < m) :
    (ringNbrs m x).length = specRingDegree m ∧ (ringNbrs m x).Nodup ∧ ∀ y, y ∈ ringNbrs m x ↔ RingNbr m x y := by
  have hpred : (x + m - 1) % m = if x = 0 then m - 1 else x - 1 := by
    split
    · rename_i h; subst h; rw [Nat.zero_add]; exact Nat.mod_eq_of_lt (by omega)
    · rw [show x + m - 1 = (x - 1) + m by omega, Nat.add_mod_right, Nat.mod_eq_of_lt (by omega)]
  have hsucc := ring_succ_mod hx
  unfold ringNbrs specRingDegree
  split
  · refine ⟨rfl, by simp, fun y => ?_⟩
    rw [ringNbr_iff]; simp; omega
  · split
    · refine ⟨rfl, by simp, fun y => ?_⟩
      rw [ringNbr_iff]; simp; omega
    · rw [hsucc, hpred]
      refine ⟨rfl, ?_, fun y => ?_⟩
      · simp only [List.nodup_cons, List.mem_singleton, List.not_mem_nil, not_false_eq_true, List.nodup_nil, and_true]
        split <;> split <;> omega
      · rw [ringNbr_iff]
        simp only [List.mem_cons, List.not_mem_nil, or_false]
        split <;> split <;> omega

/-- Every satellite receives the same number of inter-satellite devices: the ring degree of its plane plus the ring degree
across planes; the total number of devices is twice the number of links. -/
theorem C12_devices_per_satellite (n s : Nat) :
    (∀ p i, p < n → i < s →
      (deviceOwners (gridLinks n s)).count (p, i) = specRingDegree s + specRingDegree n) ∧
    (deviceOwners (gridLinks n s)).length = 2 * (gridLinks n s).length ∧
    (∀ v ∈ deviceOwners (gridLinks n s), v.1 < n ∧ v.2 < s) := by
  refine ⟨?_, ?_, ?_⟩
  · intro p i hp hi
    -- neighbours of (p, i)
    obtain ⟨ls, ns, ms⟩ := ringNbrs_spec hi
    obtain ⟨ln, nn, mn⟩ := ringNbrs_spec hp
    let nbrs : List (Nat × Nat) := (ringNbrs s i).map (fun k => (p, k)) ++ (ringNbrs n p).map (fun q => (q, i))
    have hadj : ∀ w, w ∈ nbrs ↔ TorusAdj n s (p, i) w := by
      rintro ⟨q, k⟩
      simp only [nbrs, List.mem_append, List.mem_map, Prod.mk.injEq]
      constructor
      · rintro (⟨k', hk', rfl, rfl⟩ | ⟨q', hq', rfl, rfl⟩)
        · exact ⟨hp, hi, Or.inl ⟨rfl, (ms _).mp hk'⟩⟩
        · exact ⟨hp, hi, Or.inr ⟨rfl, (mn _).mp hq'⟩⟩
      · rintro ⟨-, -, ⟨h1, h2⟩ | ⟨h1, h2⟩⟩
        · exact Or.inl ⟨k, (ms _).mpr h2, h1, rfl⟩
        · exact Or.inr ⟨q, (mn _).mpr h2, rfl, h1⟩
    have hnd : nbrs.Nodup := by
      simp only [nbrs]
      rw [List.nodup_append]
      refine ⟨?_, ?_, ?_⟩
      · exact (List.nodup_map_iff (fun a b h => by simpa using h)).mpr ns
      · exact (List.nodup_map_iff (fun a b h => by simpa using h)).mpr nn
      · rintro ⟨q, k⟩ h1 ⟨q', k'⟩ h2 heq
        simp only [List.mem_map, Prod.mk.injEq] at h1 h2
        obtain ⟨k1, hk1, rfl, rfl⟩ := h1
        obtain ⟨q1, hq1, rfl, rfl⟩ := h2
        have a1 := (ms _).mp hk1
        have a2 := (mn _).mp hq1
        simp at heq
        unfold RingNbr at a1 a2
        omega
    have hlen : nbrs.length = specRingDegree s + specRingDegree n := by
      simp only [nbrs, List.length_append, List.length_map, ls, ln]
    rw [count_owners, ← hlen]
    -- each link contributes 1 exactly when it joins (p, i) to one of its neighbours
    have hsum : ∀ L : List ((Nat × Nat) × (Nat × Nat)), (∀ l ∈ L, l ∈ gridLinks n s) →
        (L.map (fun l => (if l.1 = (p, i) then 1 else 0) + (if l.2 = (p, i) then 1 else 0))).sum =
          (nbrs.map (fun w => L.countP (joins (p, i) w))).sum := by
      intro L
      induction L with
      | nil =>
        intro _
        simp
      | cons l L ih =>
        intro hL
        have ih' := ih (fun x hx => hL x (by simp [hx]))
        simp only [List.map_cons, List.sum_cons, List.countP_cons]
        rw [ih']
        have hadd : (nbrs.map (fun w => L.countP (joins (p, i) w) + if joins (p, i) w l = true then 1 else 0)).sum =
            (nbrs.map (fun w => L.countP (joins (p, i) w))).sum +
              (nbrs.map (fun w => if joins (p, i) w l = true then 1 else 0)).sum := by
          clear hadj hnd hlen
          induction nbrs with
          | nil => rfl
          | cons w ws ihw => simp only [List.map_cons, List.sum_cons]; rw [ihw]; omega
        rw [hadd, Nat.add_comm]
        congr 1
        -- contribution of one link
        have hl := hL l (by simp)
        have hcnt : (nbrs.map (fun w => if joins (p, i) w l = true then 1 else 0)).sum =
            nbrs.countP (fun w => joins (p, i) w l) := by
          clear hadj hnd hlen hadd
          induction nbrs with
          | nil => rfl
          | cons w ws ihw => simp only [List.map_cons, List.sum_cons, List.countP_cons]; rw [ihw]; omega
        rw [hcnt]
        obtain ⟨a, b⟩ := l
        have hab : TorusAdj n s a b ∧ TorusAdj n s b a := ⟨torusAdj_iff.mpr (Or.inl hl), torusAdj_iff.mpr (Or.inr hl)⟩
        have hne : a ≠ b := by
          intro hh
          subst hh
          have := hab.1
          unfold TorusAdj RingNbr at this
          omega
        by_cases h1 : a = (p, i)
        · subst h1
          have : nbrs.countP (fun w => joins (p, i) w ((p, i), b)) = nbrs.count b := by
            unfold List.count
            congr 1
            funext w
            rw [Bool.eq_iff_iff]
            simp only [joins, Bool.decide_or, Bool.or_eq_true, decide_eq_true_eq, Prod.mk.injEq, true_and, beq_iff_eq]
            constructor
            · rintro (h | ⟨h, h'⟩)
              · exact h.symm
              · exact absurd h'.symm hne
            · intro h; exact Or.inl h.symm
          rw [this, List.count_eq_one_of_mem hnd ((hadj b).mpr hab.1)]
          simp [Ne.symm hne]
        · by_cases h2 : b = (p, i)
          · subst h2
            have : nbrs.countP (fun w => joins (p, i) w (a, (p, i))) = nbrs.count a := by
              unfold List.count
              congr 1
              funext w
              rw [Bool.eq_iff_iff]
              simp only [joins, Bool.decide_or, Bool.or_eq_true, decide_eq_true_eq, Prod.mk.injEq, and_true, beq_iff_eq]
              constructor
              · rintro (⟨h, h'⟩ | h)
                · exact absurd h h1
                · exact h.symm
              · intro h; exact Or.inr h.symm
            rw [this, List.count_eq_one_of_mem hnd ((hadj a).mpr hab.2)]
            simp [h1]
          · rw [if_neg h1, if_neg h2, List.countP_eq_zero.mpr]
            intro w _ hj
            simp only [joins, Bool.decide_or, Bool.or_eq_true, decide_eq_true_eq, Prod.mk.injEq] at hj
            rcases hj with ⟨h, -⟩ | ⟨-, h⟩
            · exact h1 h
            · exact h2 h
    rw [hsum _ (fun _ h => h)]
    have hall : ∀ w ∈ nbrs, (gridLinks n s).countP (joins (p, i) w) = 1 := by
      intro w hw
      rw [C11_links_are_torus_grid, if_pos ((hadj w).mp hw)]
    rw [List.map_congr_left hall]
    simp
  · generalize gridLinks n s = L
    induction L with
    | nil => rfl
    | cons l L ih =>
      unfold deviceOwners at ih ⊢
      rw [List.flatMap_cons, List.length_append, ih]
      simp only [List.length_cons, List.length_nil]
      omega
  · intro v hv
    simp only [deviceOwners, List.mem_flatMap, List.mem_cons, List.not_mem_nil, or_false] at hv
    obtain ⟨⟨a, b⟩, hl, hv⟩ := hv
    rw [mem_gridLinks] at hl
    rcases hv with rfl | rfl
    · exact ⟨hl.1, hl.2.1⟩
    · omega

/-! ### Non-vacuity -/

example : TorusAdj 6 11 (5, 3) (0, 3) ∧ TorusAdj 6 11 (2, 10) (2, 0) ∧ ¬ TorusAdj 6 11 (2, 10) (3, 0) ∧
    TorusAdj 2 1 (0, 0) (1, 0) ∧ ¬ TorusAdj 1 1 (0, 0) (0, 0) := by decide
example : (gridLinks 2 3).length = 9 ∧ (gridLinks 1 1).length = 0 ∧ (gridLinks 3 3).length = 18 := by decide
example : ∀ p i, p < 2 → i < 1 → (p, i, (fun x : Nat × Nat => if x = (0, 0) then 20 else 10) (p, i)) ∈
    [(1, 0, 10), (0, 0, 20)] := by
  intro p i hp hi
  have : i = 0 := by omega
  subst this
  have : p = 0 ∨ p = 1 := by omega
  rcases this with rfl | rfl <;> decide

end Icarus
