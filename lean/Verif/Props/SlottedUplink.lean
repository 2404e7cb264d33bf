import Verif.Props.Uplink

/-!
# Slotted Aloha, end to end (C68)

All stations use the Aloha MAC with one slot duration, all satellites Aloha receivers.
-/

set_option autoImplicit false

namespace Icarus
namespace Uplink
open GroundSatChannel
open GroundSta (Entry Once)

variable {D G V W P : Type}

/-! ## Specification -/

/-- The frame `y.2`, sent by `g` at `y.1`, is addressed to satellite `d` and let through by the success model. -/
def Reaches (w : World D G W) (tgt : SatAddress → Option D) (g : G) (d : D) (y : Nat × Entry W) : Prop :=
  tgt y.2.dst = some d ∧ w.admit y.1 g d = true

instance [DecidableEq D] (w : World D G W) (tgt : SatAddress → Option D) (g : G) (d : D) (y : Nat × Entry W) : Decidable (Reaches w tgt g d y) := by
  unfold Reaches; infer_instance

/-- No other station sends a frame that reaches satellite `d` in the slot starting at `t`. -/
def Alone (w : World D G W) (tgt : SatAddress → Option D) (sent : G → List (Nat × Entry W)) (g : G) (d : D) (t : Nat) : Prop :=
  ∀ h, h ≠ g → ∀ z ∈ sent h, Reaches w tgt h d z → z.1 ≠ t

instance [Fintype G] [DecidableEq G] [DecidableEq D] (w : World D G W) (tgt : SatAddress → Option D) (sent : G → List (Nat × Entry W)) (g : G) (d : D)
    (t : Nat) : Decidable (Alone w tgt sent g d t) := by
  unfold Alone; infer_instance

/-- The waiting time of slotted Aloha: until the next multiple of `slot`, none at a multiple. -/
def toNextSlot (slot t : Nat) : Nat := (slot - t % slot) % slot

/-! ## Counting -/

theorem countP_eq_one_iff {X : Type} (p : X → Bool) (l : List X) (i : Nat) (x : X) (hi : l[i]? = some x) (hp : p x = true) :
    l.countP p = 1 ↔ ∀ (j : Nat) (z : X), l[j]? = some z → j ≠ i → p z = false := by
  induction l generalizing i with
  | nil => simp at hi
  | cons a l ih =>
    cases i with
    | zero =>
      simp only [List.getElem?_cons_zero, Option.some.injEq] at hi
      subst hi
      rw [List.countP_cons_of_pos hp]
      constructor
      · intro h j z hj hne
        cases j with
        | zero => exact absurd rfl hne
        | succ j =>
          have h0 : l.countP p = 0 := by omega
          rw [List.countP_eq_zero] at h0
          rw [← Bool.not_eq_true]
          exact h0 z (List.mem_of_getElem? hj)
      · intro h
        have : l.countP p = 0 := by
          rw [List.countP_eq_zero]
          intro z hz
          obtain ⟨j, hj⟩ := List.mem_iff_getElem?.mp hz
          rw [Bool.not_eq_true]
          exact h (j + 1) z (by simpa using hj) (by omega)
        omega
    | succ i =>
      simp only [List.getElem?_cons_succ] at hi
      have hpos : 0 < l.countP p := List.countP_pos_iff.mpr ⟨x, List.mem_of_getElem? hi, hp⟩
      by_cases ha : p a = true
      · rw [List.countP_cons_of_pos ha]
        constructor
        · intro h; omega
        · intro h
          have := h 0 a rfl (by omega)
          rw [ha] at this; exact absurd this (by simp)
      · rw [List.countP_cons_of_neg ha, ih i hi]
        constructor
        · intro h j z hj hne
          cases j with
          | zero => simp only [List.getElem?_cons_zero, Option.some.injEq] at hj; subst hj; simpa using ha
          | succ j => exact h j z (by simpa using hj) (by omega)
        · intro h j z hj hne
          exact h (j + 1) z (by simpa using hj) (by omega)

variable [DecidableEq D]

/-- Which frames are undisturbed depends only on which frames were heard, not on their order. -/
theorem undisturbed_count (d : D) (heard : List (Nat × D × Flight W)) (hlen : ∀ y ∈ heard, 0 < y.2.2.len) :
    undisturbed d heard = heard.filterMap (fun y => if y.2.1 = d ∧ heard.countP (fun z => decide (Clash y z)) = 1 then
      some (y.1 + y.2.2.len, y.2.2) else none) := by
  have h1 : heard.filterMap (fun y => if y.2.1 = d ∧ heard.countP (fun z => decide (Clash y z)) = 1 then
      some (y.1 + y.2.2.len, y.2.2) else none) = heard.zipIdx.filterMap ((fun y => if y.2.1 = d ∧ heard.countP (fun z => decide (Clash y z)) = 1 then
      some (y.1 + y.2.2.len, y.2.2) else none) ∘ Prod.fst) := by
    rw [← List.filterMap_map, List.zipIdx_map_fst]
  rw [h1]
  unfold undisturbed
  refine List.filterMap_congr (fun y hy => ?_)
  have hy2 : heard[y.2]? = some y.1 := by
    have := List.mem_zipIdx' hy
    rw [List.getElem?_eq_getElem this.1, ← this.2]
  have hself : decide (Clash y.1 y.1) = true := by
    have := hlen y.1 (List.mem_of_getElem? hy2)
    simp only [decide_eq_true_eq]
    exact ⟨rfl, by omega, by omega⟩
  have := countP_eq_one_iff (fun z => decide (Clash y.1 z)) heard y.2 y.1 hy2 hself
  simp only [Function.comp]
  congr 1
  rw [this]
  refine propext (and_congr_right (fun _ => ?_))
  constructor
  · intro h j z hj hne
    rw [decide_eq_false_iff_not]
    exact h (z, j) (List.mem_zipIdx_iff_getElem?.mpr hj) hne
  · intro h z hz hne
    have := h z.2 z.1 (List.mem_zipIdx_iff_getElem?.mp hz) hne
    rwa [decide_eq_false_iff_not] at this

/-! ## Slots -/

omit [DecidableEq D] in
theorem dvd_toNextSlot (slot t : Nat) (hs : 0 < slot) : slot ∣ t + toNextSlot slot t := by
  unfold toNextSlot
  have h1 := Nat.div_add_mod t slot
  have h2 := Nat.mod_lt t hs
  by_cases h0 : t % slot = 0
  · rw [h0, Nat.sub_zero, Nat.mod_self, Nat.add_zero]; exact Nat.dvd_of_mod_eq_zero h0
  · rw [Nat.mod_eq_of_lt (by omega)]
    exact ⟨t / slot + 1, by rw [Nat.mul_add]; omega⟩

/-- The Aloha MAC with slots sends each frame once, at the start of the next slot. -/
theorem aloha_toNextSlot (slot : Nat) (hs : 0 < slot) (hb : slot < 2 ^ 64) : Once (alohaMac slot) (fun _ => toNextSlot slot) := by
  refine Or.inr ⟨rfl, fun _ t => ?_⟩
  obtain ⟨h1, h2, h3, h4, -⟩ := C17_slotted t slot 0 hs hb
  simp only [Aloha.sendCallbacks] at h1 h2 h3 h4
  have h5 := dvd_toNextSlot slot t hs
  have h6 := h3 _ h5 (by omega)
  have h7 : toNextSlot slot t < slot := Nat.mod_lt _ hs
  have h8 : t + toNextSlot slot t = t + Aloha.sendDelay t slot := by
    obtain ⟨a, ha⟩ := h1
    obtain ⟨b, hb⟩ := h5
    rw [ha, hb] at h6 ⊢
    have : b < a + 1 := by
      by_contra hc
      have : slot * (a + 1) ≤ slot * b := Nat.mul_le_mul_left _ (by omega)
      rw [Nat.mul_add] at this
      omega
    have : a ≤ b := Nat.le_of_mul_le_mul_left h6 hs
    have : a = b := by omega
    rw [this]
  have : toNextSlot slot t = Aloha.sendDelay t slot := by omega
  simp only [alohaMac, this]

omit [DecidableEq D] in
theorem serve_slots (slot : Nat) (hs : 0 < slot) (k free : Nat) (l : List (Nat × Entry W)) :
    ∀ y ∈ Fifo.serve Entry.len (fun _ => toNextSlot slot) k free l, slot ∣ y.1 := by
  induction l generalizing k free with
  | nil => simp [Fifo.serve]
  | cons y l ih =>
    obtain ⟨a, x⟩ := y
    intro z hz
    simp only [Fifo.serve, List.mem_cons] at hz
    rcases hz with rfl | hz
    · exact dvd_toNextSlot slot _ hs
    · exact ih _ _ z hz

/-- Frames sent in slots of length `slot`, longer than the spread of the delays but not longer than what is left of the slot after it: they overlap
exactly when they were sent in the same slot, and none that is shorter than what is left ends when another one starts. -/
theorem overlap_iff_slot {slot lo hi t t' δ δ' len len' : Nat} (h1 : slot ∣ t) (h2 : slot ∣ t') (hδ : lo ≤ δ ∧ δ ≤ hi) (hδ' : lo ≤ δ' ∧ δ' ≤ hi)
    (hl : hi - lo < len ∧ len + (hi - lo) ≤ slot) (hl' : hi - lo < len' ∧ len' + (hi - lo) ≤ slot) :
    ((t + δ < t' + δ' + len' ∧ t' + δ' < t + δ + len) ↔ t = t') ∧ (len' + (hi - lo) < slot → t + δ ≠ t' + δ' + len') := by
  rcases Nat.lt_trichotomy t t' with h | h | h
  · have : t + slot ≤ t' := by
      obtain ⟨a, rfl⟩ := h1
      obtain ⟨b, rfl⟩ := h2
      have hab : a < b := Nat.lt_of_mul_lt_mul_left h
      have := Nat.mul_le_mul_left slot (Nat.succ_le_of_lt hab)
      rw [Nat.mul_succ] at this
      exact this
    omega
  · omega
  · have : t' + slot ≤ t := by
      obtain ⟨a, rfl⟩ := h1
      obtain ⟨b, rfl⟩ := h2
      have hab : b < a := Nat.lt_of_mul_lt_mul_left h
      have := Nat.mul_le_mul_left slot (Nat.succ_le_of_lt hab)
      rw [Nat.mul_succ] at this
      exact this
    omega

/-! ## End to end -/

variable [Fintype G] [Fintype D] [DecidableEq G]

omit [DecidableEq D] [Fintype D] [DecidableEq G] in
theorem countP_sum {X : Type} (p : X → Bool) (F : G → List X) (l : List X) (h : (l : Multiset X) = ∑ g, (F g : Multiset X)) :
    l.countP p = ∑ g, (F g).countP p := by
  classical
  have h1 : Multiset.countP (fun x => p x = true) (l : Multiset X) = ∑ g, Multiset.countP (fun x => p x = true) (F g : Multiset X) := by
    rw [h]
    induction (Finset.univ : Finset G) using Finset.induction_on with
    | empty => simp
    | insert a s ha ih => rw [Finset.sum_insert ha, Finset.sum_insert ha, Multiset.countP_add, ih]
  simpa using h1

omit [Fintype G] [Fintype D] [DecidableEq G] in
/-- How many frames of one station, sent at different times, reach `d` in a slot. -/
theorem countP_one_le (w : World D G W) (tgt : SatAddress → Option D) (h : G) (d : D) (t : Nat) (l : List (Nat × Entry W))
    (hp : l.Pairwise (fun y z => y.1 < z.1)) : l.countP (fun z => decide (Reaches w tgt h d z ∧ z.1 = t)) ≤ 1 := by
  induction l with
  | nil => simp
  | cons a l ih =>
    rw [List.pairwise_cons] at hp
    rw [List.countP_cons]
    split
    · rename_i ha
      simp only [decide_eq_true_eq] at ha
      have : l.countP (fun z => decide (Reaches w tgt h d z ∧ z.1 = t)) = 0 := by
        rw [List.countP_eq_zero]
        intro z hz
        simp only [decide_eq_true_eq]
        have := hp.1 z hz
        omega
      omega
    · exact ih hp.2

section
variable {hasOrbit : D → Bool} {cid n m : Nat} {hist : List (Nat × Nat × D)} {as : List SatAddress} {k : Constellation D}
  {w : World D G W} [Zero P] [Add P]

/-- The frames of a station that go on the air, given the packets accepted by its queue: one at a time, in order, each at the start of a slot. -/
def inSlots (slot : Nat) (accepted : List (Nat × Entry W)) : List (Nat × Entry W) :=
  Fifo.serve Entry.len (fun _ => toNextSlot slot) 0 0 accepted

omit [Fintype D] [Zero P] [Add P] in
/-- From the frames that overlap no other to the frames that were alone in their slot. -/
theorem slotted_sum {R : Type} {net : Net D G V W P R} {slot : Nat} (hs : 0 < slot) {lo hi : D → Nat}
    (hdelay : ∀ t g d, lo d ≤ w.delay t g d ∧ w.delay t g d ≤ hi d) {s : Sys D G W R}
    (hheard : (s.heard : Multiset (Nat × D × Flight W)) = ∑ g, (((inSlots slot (s.stations g).accepted).filterMap
      (lands net.addr w (target hist as) g) : List _) : Multiset (Nat × D × Flight W)))
    (hlen : ∀ g d, ∀ y ∈ (s.stations g).accepted, hi d - lo d < y.2.len ∧ y.2.len + (hi d - lo d) ≤ slot) (d : D) :
    (∀ y ∈ s.heard, 0 < y.2.2.len) ∧
    ((∀ g d, ∀ y ∈ (s.stations g).accepted, y.2.len + (hi d - lo d) < slot) →
      ∀ y ∈ s.heard, ∀ z ∈ s.heard, y.2.1 = z.2.1 → y.1 ≠ z.1 + z.2.2.len) ∧
    ((passedUp net s d).Perm (undisturbed d s.heard) → (passedUp net s d : Multiset (Nat × Flight W)) =
      ∑ g, ((((inSlots slot (s.stations g).accepted).filter (fun y => decide
        (Alone w (target hist as) (fun h => inSlots slot (s.stations h).accepted) g d y.1))).filterMap
          (receipt net.addr w (target hist as) g d) : List _) : Multiset (Nat × Flight W))) := by
  set sent : G → List (Nat × Entry W) := fun g => inSlots slot (s.stations g).accepted with hsent
  have hslot : ∀ g, ∀ y ∈ sent g, slot ∣ y.1 := fun g => serve_slots slot hs 0 0 _
  have hacc : ∀ g, ∀ y ∈ sent g, ∃ z ∈ (s.stations g).accepted, z.2 = y.2 := by
    intro g y hy
    have : y.2 ∈ (sent g).map Prod.snd := List.mem_map_of_mem hy
    rw [hsent] at this
    simp only [inSlots, Fifo.serve_packets, List.mem_map] at this
    exact this
  have hsl : ∀ g d, ∀ y ∈ sent g, hi d - lo d < y.2.len ∧ y.2.len + (hi d - lo d) ≤ slot := by
    intro g d y hy
    obtain ⟨z, hz, e⟩ := hacc g y hy
    rw [← e]; exact hlen g d z hz
  have hstrict : ∀ g, (sent g).Pairwise (fun y z => y.1 < z.1) := by
    intro g
    have := Fifo.serve_disjoint (len := Entry.len) (wait := fun _ => toNextSlot slot) 0 0 (s.stations g).accepted
    refine List.Pairwise.imp_of_mem ?_ this
    intro y z hy _ hyz
    have := (hsl g d y hy).1
    omega
  -- a heard frame comes from a sent one
  have hlands : ∀ (g : G) (y : Nat × Entry W) (u : Nat × D × Flight W), lands net.addr w (target hist as) g y = some u →
      Reaches w (target hist as) g u.2.1 y ∧ u.1 = y.1 + w.delay y.1 g u.2.1 ∧ u.2.2.len = y.2.len ∧
        receipt net.addr w (target hist as) g u.2.1 y = some (u.1 + u.2.2.len, u.2.2) := by
    intro g y u hu
    unfold lands at hu
    split at hu
    · simp at hu
    · rename_i d' hd'
      split at hu
      · rename_i ha
        simp only [Option.some.injEq] at hu
        subst hu
        refine ⟨⟨hd', ha⟩, rfl, rfl, ?_⟩
        unfold receipt
        rw [if_pos ⟨hd', ha⟩]
      · simp at hu
  have hreach : ∀ (g : G) (d : D) (y : Nat × Entry W), Reaches w (target hist as) g d y →
      ∃ u, lands net.addr w (target hist as) g y = some u ∧ u.2.1 = d := by
    rintro g d y ⟨h1, h2⟩
    unfold lands
    rw [h1]
    simp only [h2, if_true]
    exact ⟨_, rfl, rfl⟩
  have hsrc : ∀ u ∈ s.heard, ∃ g, ∃ y ∈ sent g, lands net.addr w (target hist as) g y = some u := by
    intro u hu
    have : u ∈ (s.heard : Multiset (Nat × D × Flight W)) := hu
    rw [hheard, Multiset.mem_sum] at this
    obtain ⟨g, -, hg⟩ := this
    rw [Multiset.mem_coe, List.mem_filterMap] at hg
    obtain ⟨y, hy, e⟩ := hg
    exact ⟨g, y, hy, e⟩
  -- overlaps are slots
  have hpair : ∀ (g h : G) (y z : Nat × Entry W) (u v : Nat × D × Flight W), y ∈ sent g → z ∈ sent h →
      lands net.addr w (target hist as) g y = some u → lands net.addr w (target hist as) h z = some v → u.2.1 = v.2.1 →
      (Clash u v ↔ y.1 = z.1) ∧ (v.2.2.len + (hi u.2.1 - lo u.2.1) < slot → u.1 ≠ v.1 + v.2.2.len) := by
    intro g h y z u v hy hz hu hv huv
    obtain ⟨-, u1, u2, -⟩ := hlands g y u hu
    obtain ⟨-, v1, v2, -⟩ := hlands h z v hv
    have := overlap_iff_slot (hslot g y hy) (hslot h z hz) (hdelay y.1 g u.2.1) (hdelay z.1 h v.2.1 |> fun q => by rw [← huv] at q; exact q)
      (hsl g u.2.1 y hy) (hsl h u.2.1 z hz)
    unfold Clash
    rw [u1, v1, u2, v2, ← huv]
    refine ⟨?_, this.2⟩
    rw [← this.1]
    simp only [true_and]
  have hlenpos : ∀ y ∈ s.heard, 0 < y.2.2.len := by
    intro u hu
    obtain ⟨g, y, hy, e⟩ := hsrc u hu
    obtain ⟨-, -, u2, -⟩ := hlands g y u e
    rw [u2]
    have := (hsl g d y hy).1
    omega
  refine ⟨hlenpos, ?_, ?_⟩
  · intro hshort u hu v hv huv
    obtain ⟨g, y, hy, e⟩ := hsrc u hu
    obtain ⟨g', z, hz, e'⟩ := hsrc v hv
    refine (hpair g g' y z u v hy hz e e' huv).2 ?_
    obtain ⟨x, hx, e2⟩ := hacc g' z hz
    rw [(hlands g' z v e').2.2.1, ← e2]
    exact hshort g' u.2.1 x hx
  intro hp
  rw [Multiset.coe_eq_coe.mpr hp, undisturbed_count d s.heard hlenpos]
  have h1 := congrArg (Multiset.filterMap (fun y : Nat × D × Flight W =>
    if y.2.1 = d ∧ s.heard.countP (fun z => decide (Clash y z)) = 1 then some (y.1 + y.2.2.len, y.2.2) else none)) hheard
  rw [filterMap_sum] at h1
  refine (Multiset.filterMap_coe _ _).symm.trans (h1.trans ?_)
  refine Finset.sum_congr rfl (fun g _ => ?_)
  refine congrArg _ ?_
  rw [List.filterMap_filterMap, List.filterMap_filter]
  refine List.filterMap_congr (fun y hy => ?_)
  simp only [decide_eq_true_eq]
  cases hu : lands net.addr w (target hist as) g y with
  | none =>
    have : receipt net.addr w (target hist as) g d y = none := by
      unfold receipt
      rw [if_neg]
      intro hr
      obtain ⟨u, e, -⟩ := hreach g d y hr
      rw [hu] at e; simp at e
    simp [this]
  | some u =>
    obtain ⟨hr, -, -, hrec⟩ := hlands g y u hu
    simp only [Option.bind_some]
    by_cases hd : u.2.1 = d
    · subst hd
      have hcount : s.heard.countP (fun z => decide (Clash u z)) =
          ∑ h, (sent h).countP (fun z => decide (Reaches w (target hist as) h u.2.1 z ∧ z.1 = y.1)) := by
        rw [countP_sum _ _ _ hheard]
        refine Finset.sum_congr rfl (fun h _ => ?_)
        rw [List.countP_filterMap]
        refine List.countP_congr (fun z hz => ?_)
        cases hv : lands net.addr w (target hist as) h z with
        | none =>
          simp only [Option.map_none, Option.getD_none, Bool.false_eq_true, decide_eq_true_eq, false_iff]
          rintro ⟨hr2, -⟩
          obtain ⟨v, e, -⟩ := hreach h u.2.1 z hr2
          rw [hv] at e; simp at e
        | some v =>
          simp only [Option.map_some, Option.getD_some, decide_eq_true_eq]
          constructor
          · intro hc
            have huv : u.2.1 = v.2.1 := hc.1
            refine ⟨?_, (((hpair g h y z u v hy hz hu hv huv).1).mp hc).symm⟩
            rw [huv]; exact (hlands h z v hv).1
          · rintro ⟨hr2, ht⟩
            have huv : u.2.1 = v.2.1 := by
              obtain ⟨v', e, e2⟩ := hreach h u.2.1 z hr2
              rw [hv, Option.some.injEq] at e
              rw [e]; exact e2.symm
            exact ((hpair g h y z u v hy hz hu hv huv).1).mpr ht.symm
      have hown : (sent g).countP (fun z => decide (Reaches w (target hist as) g u.2.1 z ∧ z.1 = y.1)) = 1 := by
        refine Nat.le_antisymm (countP_one_le w (target hist as) g u.2.1 y.1 (sent g) (hstrict g)) ?_
        exact List.countP_pos_iff.mpr ⟨y, hy, by simp [hr]⟩
      have hiff : s.heard.countP (fun z => decide (Clash u z)) = 1 ↔ Alone w (target hist as) sent g u.2.1 y.1 := by
        rw [hcount, ← Finset.add_sum_erase _ _ (Finset.mem_univ g), hown]
        constructor
        · intro e h hne z hz hr2 ht
          have e0 : ∑ h ∈ Finset.univ.erase g, (sent h).countP (fun z => decide (Reaches w (target hist as) h u.2.1 z ∧ z.1 = y.1)) = 0 := by omega
          rw [Finset.sum_eq_zero_iff] at e0
          have := e0 h (Finset.mem_erase.mpr ⟨hne, Finset.mem_univ _⟩)
          rw [List.countP_eq_zero] at this
          exact this z hz (by simp [hr2, ht])
        · intro ha
          have e0 : ∑ h ∈ Finset.univ.erase g, (sent h).countP (fun z => decide (Reaches w (target hist as) h u.2.1 z ∧ z.1 = y.1)) = 0 := by
            rw [Finset.sum_eq_zero_iff]
            intro h hh
            rw [List.countP_eq_zero]
            intro z hz
            simp only [decide_eq_true_eq]
            rintro ⟨hr2, ht⟩
            exact ha h (Finset.mem_erase.mp hh).1 z hz hr2 ht
          omega
      simp only [true_and]
      by_cases ha : Alone w (target hist as) sent g u.2.1 y.1
      · rw [if_pos (hiff.mpr ha), if_pos ha, hrec]
      · rw [if_neg (fun e => ha (hiff.mp e)), if_neg ha]
    · rw [if_neg (fun e => hd e.1)]
      have : receipt net.addr w (target hist as) g d y = none := by
        unfold receipt
        rw [if_neg]
        intro hr
        obtain ⟨v, e, e2⟩ := hreach g d y hr
        rw [hu, Option.some.injEq] at e
        subst e
        exact hd e2
      simp [this]

/-- Slotted Aloha with a threshold that prevents capture.  The delays to satellite `d` are between `lo d` and `hi d`; every frame is longer than this spread and
leaves more than the spread of its slot empty.  When nothing is scheduled any more, each satellite has passed up exactly the
frames that reached it and were the only ones to do so among those sent in the same slot, each once, at its end. -/
theorem C68_slotted {net : Net D G V W P (Aloha.Sys P)} {lost : P → P → Bool} (hrx : net.rx = alohaReceiver lost)
    {Q : P → Prop} (hlost : Aloha.Drops lost Q)
    (hb : Built net.endian hasOrbit cid n m hist as k) (hfit : Fits16 cid n m)
    (hk : net.chan.constellation = some k) (hsky : Sky net w)
    {slot : Nat} (hs : 0 < slot) (hs64 : slot < 2 ^ 64) (hm : ∀ g, net.mac g = alohaMac slot)
    {lo hi : D → Nat} (hdelay : ∀ t g d, lo d ≤ w.delay t g d ∧ w.delay t g d ≤ hi d) {ops : List (Op D G W)}
    (hl : Launched net hist as ops) {r : Outcome (Sys D G W (Aloha.Sys P))} (h : exec net ops = some r) :
    ∃ s, r = .ok s ∧ (Quiet net s → (∀ y ∈ s.heard, Q (net.toP y.2.2.power)) → (∀ g d, ∀ y ∈ (s.stations g).accepted, hi d - lo d < y.2.len ∧ y.2.len + (hi d - lo d) < slot) →
      ∀ d, (passedUp net s d : Multiset (Nat × Flight W)) =
        ∑ g, ((((inSlots slot (s.stations g).accepted).filter (fun y => decide
          (Alone w (target hist as) (fun h => inSlots slot (s.stations h).accepted) g d y.1))).filterMap
            (receipt net.addr w (target hist as) g d) : List _) : Multiset (Nat × Flight W))) := by
  have honce : ∀ g, Once (net.mac g) (fun _ => toNextSlot slot) := fun g => by rw [hm g]; exact aloha_toNextSlot slot hs hs64
  obtain ⟨s, rfl, hq⟩ := C58_aloha_uplink_partial hrx hlost hb hfit hk hsky honce hl h
  refine ⟨s, rfl, ?_⟩
  intro q hpow hlen d
  obtain ⟨hheard, hpass⟩ := hq q
  obtain ⟨h1, h2, h3⟩ := slotted_sum hs hdelay hheard (fun g d y hy => ⟨(hlen g d y hy).1, (hlen g d y hy).2.le⟩) d
  exact h3 (hpass h1 hpow (h2 (fun g d y hy => (hlen g d y hy).2)) d)

end

/-! ## Frames that fill their slot -/

/-- The same claim with frames that may fill what the spread leaves of the slot: slots as long as frames when all delays are equal. -/
def C68_claim : Prop :=
  ∀ (n : Nat) (net : Net (Fin 2) (Fin n) Nat Int Int (Aloha.Sys Int)) (hist : List (Nat × Nat × Fin 2)) (as : List SatAddress) (k : Constellation (Fin 2))
    (w : World (Fin 2) (Fin n) Int) (slot : Nat) (lo hi : Fin 2 → Nat) (ops : List (Op (Fin 2) (Fin n) Int)) (s : Sys (Fin 2) (Fin n) Int (Aloha.Sys Int)),
    net.rx = alohaReceiver intLost → (∀ p, 0 < net.toP p) → Built net.endian (fun _ => true) 1 1 2 hist as k → net.chan.constellation = some k →
    Sky net w → 0 < slot → slot < 2 ^ 64 → (∀ g, net.mac g = alohaMac slot) → (∀ t g d, lo d ≤ w.delay t g d ∧ w.delay t g d ≤ hi d) →
    Launched net hist as ops → exec net ops = some (.ok s) → Quiet net s →
    (∀ g d, ∀ y ∈ (s.stations g).accepted, hi d - lo d < y.2.len ∧ y.2.len + (hi d - lo d) ≤ slot) →
    ∀ d, (passedUp net s d : Multiset (Nat × Flight Int)) =
      ∑ g, ((((inSlots slot (s.stations g).accepted).filter (fun y => decide
        (Alone w (target hist as) (fun h => inSlots slot (s.stations h).accepted) g d y.1))).filterMap
          (receipt net.addr w (target hist as) g d) : List _) : Multiset (Nat × Flight Int))

/-- Three stations with the same delay of 25 ticks to all satellites. -/
def fullWorld : World (Fin 2) (Fin 3) Int := ⟨fun _ _ _ => 25, fun _ _ _ p => p, fun _ _ _ => true⟩

/-- Slots of `slot` ticks. -/
def fullNet (slot : Nat) : Net (Fin 2) (Fin 3) Nat Int Int (Aloha.Sys Int) :=
  ⟨true, .little, ⟨some exConstellation, [0, 1, 2]⟩,
    fun _ => ⟨fun g => some g.val, fun d => some d.val, some (fun _ _ => 25), some (fun p _ _ => p), some (fun _ _ => .ok true)⟩,
    fun g => ⟨1, [UInt8.ofNat g.val]⟩, fun _ => alohaMac slot, fun _ _ _ => true,
    fun _ => SatAddress.mk3 .little 1 0 0, fun _ => 30, alohaReceiver intLost, fun p => p.natAbs + 1⟩

theorem fullSky (slot : Nat) : Sky (fullNet slot) fullWorld :=
  fun _ g d => ⟨g.val, d.val, fun _ _ => 25, fun p _ _ => p, ⟨rfl, rfl, rfl, rfl⟩, rfl, fun _ => rfl, Or.inr ⟨_, rfl, rfl⟩⟩

/-- Stations 0 and 1 send in the first slot, station 2 in the second.  The frame of station 2 is sent at 10 and arrives at 35; the ends of the
other receptions are scheduled for 35 only at 25, so that the simulator runs them after that arrival. -/
def fullOps : List (Op (Fin 2) (Fin 3) Int) :=
  [.station 0 (.send 0 11 10 7), .station 1 (.send 0 12 10 7), .station 0 .run, .station 1 .run, .station 0 .run, .station 1 .run,
   .station 2 (.send 10 13 10 7), .station 2 .run, .station 2 .run, .arrive, .arrive, .arrive, .finish 0, .finish 0, .finish 0]

/-- The frame of station 2 was alone in its slot, and is lost. -/
theorem C68_full_slot_lost : ∃ s, exec (fullNet 10) fullOps = some (.ok s) ∧ Quiet (fullNet 10) s ∧
    s.heard.map (fun y => (y.1, y.2.1, y.2.2.pkt)) = [(25, 0, 11), (25, 0, 12), (35, 0, 13)] ∧ passedUp (fullNet 10) s 0 = [] := by
  refine ⟨_, rfl, ?_⟩; unfold Quiet; decide

/-- The claim is false. -/
theorem C68_claim_false : ¬ C68_claim := by
  intro hc
  obtain ⟨s, h1, h2, h3, h4⟩ : ∃ s, exec (fullNet 10) fullOps = some (.ok s) ∧ Quiet (fullNet 10) s ∧
      (∀ g, ∀ y ∈ (s.stations g).accepted, y.2.len = 10) ∧ passedUp (fullNet 10) s 0 = [] ∧
      (inSlots 10 (s.stations 2).accepted).filter (fun y => decide
        (Alone fullWorld (target [(0, 1, (1 : Fin 2)), (0, 0, 0)] [SatAddress.mk3 .little 1 0 1, SatAddress.mk3 .little 1 0 0])
          (fun h => inSlots 10 (s.stations h).accepted) 2 0 y.1)) = [(10, ⟨13, 10, SatAddress.mk3 .little 1 0 0, 7, 30⟩)] := by
    refine ⟨_, rfl, ?_⟩; unfold Quiet; decide
  have := hc 3 (fullNet 10) _ _ exConstellation fullWorld 10 (fun _ => 25) (fun _ => 25) fullOps s rfl (fun p => by simp only [fullNet]; omega)
    exBuilt rfl (fullSky 10) (by omega) (by omega) (fun _ => rfl) (fun _ _ _ => ⟨le_refl _, le_refl _⟩) (by unfold Launched; decide) h1 h2
    (fun g d y hy => by rw [h3 g y hy]; decide) 0
  rw [h4.1, Multiset.coe_nil] at this
  have h0 := (Finset.sum_eq_zero_iff.mp this.symm) 2 (Finset.mem_univ _)
  rw [h4.2] at h0
  exact absurd h0 (by decide)

/-- With slots longer by one tick the theorem applies: the collided frames are lost, that of station 2 is passed up. -/
def spareOps : List (Op (Fin 2) (Fin 3) Int) :=
  [.station 0 (.send 0 11 10 7), .station 1 (.send 0 12 10 7), .station 0 .run, .station 1 .run, .station 0 .run, .station 1 .run,
   .station 2 (.send 10 13 10 7), .station 2 .run, .station 2 .run, .arrive, .arrive, .finish 0, .finish 0, .arrive, .finish 0]

example : Launched (fullNet 11) [(0, 1, (1 : Fin 2)), (0, 0, 0)] [SatAddress.mk3 .little 1 0 1, SatAddress.mk3 .little 1 0 0] spareOps := by
  unfold Launched; decide

example : ∃ s, exec (fullNet 11) spareOps = some (.ok s) ∧ Quiet (fullNet 11) s ∧
    (∀ g, ∀ y ∈ (s.stations g).accepted, 0 < y.2.len ∧ y.2.len < 11) ∧
    (passedUp (fullNet 11) s 0).map (fun y => (y.1, y.2.pkt)) = [(46, 13)] := by
  refine ⟨_, rfl, ?_⟩; unfold Quiet; decide

end Uplink
end Icarus
