import Verif.Model.Constellation
import Verif.Lemmas.SatAddress
import Mathlib.Order.Defs.LinearOrder

/-! Helper lemmas for `Verif.Props.Constellation`. -/

set_option autoImplicit false

namespace Icarus
namespace Constellation

variable {D : Type}

/-- The table read without undefined behaviour. -/
def cell? (c : Constellation D) (p i : Nat) : Option (Option D) := (c.planes[p]?).bind (fun r => r[i]?)

theorem cell_eq_ok {c : Constellation D} {p i : Nat} {v : Option D} :
    c.cell p i = .ok v ↔ c.cell? p i = some v := by
  unfold cell cell?
  rw [Outcome.bind_eq_ok]
  simp only [Outcome.index_eq_ok, Option.bind_eq_some_iff]

theorem cell_eq_ub {c : Constellation D} {p i : Nat} (h : c.cell? p i = none) :
    c.cell p i = .ub .outOfRange := by
  unfold cell
  unfold cell? at h
  cases hp : c.planes[p]? with
  | none => simp [Outcome.index, hp]
  | some r =>
    simp [hp] at h
    have : r[i]? = none := by simp [h]
    simp [Outcome.index, hp, this]

/-- Shape invariant of the table. -/
structure Shape (c : Constellation D) : Prop where
  rows : c.planes.length = c.nPlanes
  cols : ∀ r ∈ c.planes, r.length = c.planeSize

theorem Shape.cell_isSome {c : Constellation D} (h : c.Shape) {p i : Nat} :
    (c.cell? p i).isSome = true ↔ p < c.nPlanes ∧ i < c.planeSize := by
  unfold cell?
  constructor
  · intro hs
    rw [Option.isSome_iff_exists] at hs
    obtain ⟨v, hv⟩ := hs
    rw [Option.bind_eq_some_iff] at hv
    obtain ⟨r, hr, hi⟩ := hv
    rw [List.getElem?_eq_some_iff] at hr hi
    obtain ⟨hp, rfl⟩ := hr
    obtain ⟨hi, _⟩ := hi
    rw [h.cols _ (List.getElem_mem hp)] at hi
    exact ⟨h.rows ▸ hp, hi⟩
  · rintro ⟨hp, hi⟩
    rw [← h.rows] at hp
    rw [List.getElem?_eq_getElem hp]
    have := h.cols _ (List.getElem_mem hp)
    simp [this, hi]

theorem shape_create (id n s : Nat) : (create id n s : Constellation D).Shape where
  rows := by simp [create]
  cols := by
    intro r hr
    simp only [create, List.mem_replicate] at hr
    simp [hr.2, create]

theorem cell?_create (id n s p i : Nat) (hp : p < n) (hi : i < s) :
    (create id n s : Constellation D).cell? p i = some none := by
  simp [cell?, create, hp, hi]

theorem shape_setCell {c : Constellation D} (h : c.Shape) (p i : Nat) (v : Option D) (k : Nat) :
    ({ c with planes := c.setCell p i v, size := k } : Constellation D).Shape where
  rows := by simp [setCell, h.rows]
  cols := by
    intro r hr
    simp only [setCell] at hr
    rw [List.mem_iff_getElem?] at hr
    obtain ⟨j, hj⟩ := hr
    rw [List.getElem?_modify] at hj
    simp only [Option.map_eq_map, Option.map_eq_some_iff] at hj
    obtain ⟨r', hr', rfl⟩ := hj
    have := h.cols r' (List.mem_of_getElem? hr')
    split <;> simp [this]

theorem cell?_setCell (c : Constellation D) (p i : Nat) (v : Option D) (k : Nat) (p' i' : Nat) :
    ({ c with planes := c.setCell p i v, size := k } : Constellation D).cell? p' i' =
      if p = p' ∧ i = i' then (c.cell? p' i').map (fun _ => v) else c.cell? p' i' := by
  simp only [cell?, setCell, List.getElem?_modify]
  cases h : c.planes[p']? with
  | none => simp
  | some r =>
    by_cases hp : p = p'
    · subst hp
      simp [List.getElem?_set]
      by_cases hi : i = i'
      · subst hi
        simp
        split <;> simp_all
      · simp [hi]
    · simp [hp]

theorem container_eq (c : Constellation D) :
    c.createNetDeviceContainer = c.planes.flatten.filterMap id := by
  unfold createNetDeviceContainer
  have row : ∀ (r : List (Option D)) (acc : List D),
      r.foldl containerStep acc = acc ++ r.filterMap id := by
    intro r
    induction r with
    | nil => simp
    | cons x xs ih =>
      intro acc
      cases x with
      | none => simp [ih, containerStep]
      | some d => simp [ih, containerStep]
  have all : ∀ (ps : List (List (Option D))) (acc : List D),
      ps.foldl (fun acc plane => plane.foldl containerStep acc) acc = acc ++ ps.flatten.filterMap id := by
    intro ps
    induction ps with
    | nil => simp
    | cons p ps ih => intro acc; rw [List.foldl_cons, row, ih]; simp
  rw [all]; simp

theorem perm_set (r : List (Option D)) (i : Nat) (d : D) (h : r[i]? = some none) :
    ((r.set i (some d)).filterMap id).Perm (d :: r.filterMap id) := by
  induction r generalizing i with
  | nil => simp at h
  | cons x xs ih =>
    cases i with
    | zero => simp at h; subst h; simp
    | succ i =>
      simp at h
      cases x with
      | none => simpa using ih i h
      | some y =>
        simp only [List.set_cons_succ, List.filterMap_cons_some (f := id) (b := y) rfl]
        exact ((ih i h).cons y).trans (List.Perm.swap d y _)

theorem perm_modify (ps : List (List (Option D))) (p i : Nat) (d : D)
    (h : (ps[p]?).bind (fun r => r[i]?) = some none) :
    ((ps.modify p (fun row => row.set i (some d))).flatten.filterMap id).Perm
      (d :: ps.flatten.filterMap id) := by
  induction ps generalizing p with
  | nil => simp at h
  | cons r rs ih =>
    cases p with
    | zero =>
      simp at h
      simp only [List.modify_zero_cons, List.flatten_cons, List.filterMap_append]
      exact (perm_set r i d h).append_right _
    | succ p =>
      simp at h
      simp only [List.modify_succ_cons, List.flatten_cons, List.filterMap_append]
      refine ((ih p (by simpa using h)).append_left _).trans ?_
      exact List.perm_middle

/-- What a table position holds after a history of additions. -/
def lookup (hist : List (Nat × Nat × D)) (p i : Nat) : Option D :=
  (hist.find? (fun x => x.1 == p && x.2.1 == i)).map (·.2.2)

/-- Invariant relating the object to the history of additions. -/
structure Inv (cid n s : Nat) (c : Constellation D) (hist : List (Nat × Nat × D)) : Prop where
  shape : c.Shape
  id_eq : c.constellationId = cid
  nPlanes_eq : c.nPlanes = n
  planeSize_eq : c.planeSize = s
  size_eq : c.size = hist.length
  bounds : ∀ x ∈ hist, x.1 < n ∧ x.2.1 < s
  nodup : (hist.map (fun x => (x.1, x.2.1))).Nodup
  cells : ∀ p i, p < n → i < s → c.cell? p i = some (lookup hist p i)
  perm : c.createNetDeviceContainer.Perm (hist.map (·.2.2))

theorem inv_create (cid n s : Nat) : Inv cid n s (create cid n s : Constellation D) [] where
  shape := shape_create _ _ _
  id_eq := rfl
  nPlanes_eq := rfl
  planeSize_eq := rfl
  size_eq := rfl
  bounds := by simp
  nodup := by simp
  cells := by intro p i hp hi; simp [cell?_create _ _ _ _ _ hp hi, lookup]
  perm := by
    rw [container_eq]
    simp [create]

theorem lookup_eq_none {hist : List (Nat × Nat × D)} {p i : Nat} :
    lookup hist p i = none ↔ (p, i) ∉ hist.map (fun x => (x.1, x.2.1)) := by
  simp only [lookup, Option.map_eq_none_iff, List.find?_eq_none, List.mem_map, not_exists, not_and]
  constructor
  · rintro h ⟨a, b, d⟩ hx heq
    simp at heq
    exact h _ hx (by simp [heq.1, heq.2])
  · rintro h ⟨a, b, d⟩ hx heq
    simp at heq
    exact h _ hx (by simp [heq.1, heq.2])

theorem lookup_append (hist : List (Nat × Nat × D)) (p i : Nat) (d : D) (p' i' : Nat)
    (h : lookup hist p i = none) :
    lookup (hist ++ [(p, i, d)]) p' i' = if p = p' ∧ i = i' then some d else lookup hist p' i' := by
  unfold lookup at *
  rw [List.find?_append]
  split
  · rename_i hh
    obtain ⟨rfl, rfl⟩ := hh
    simp at h
    rw [List.find?_eq_none.mpr]
    · simp
    · rintro ⟨a, b, c⟩ hx; simpa using h a b c hx
  · rename_i hh
    cases hf : List.find? (fun x => x.1 == p' && x.2.1 == i') hist with
    | some v => simp
    | none =>
      have : (p == p' && i == i') = false := by simpa using hh
      simp [this]

theorem inv_addSatellite_cases {cid n s : Nat} {c : Constellation D} {hist : List (Nat × Nat × D)}
    (e : Endian) (hasOrbit : D → Bool) (h : Inv cid n s c hist) (p o : Nat) (d : D) :
    c.addSatellite e hasOrbit p o d =
      if p < n ∧ o < s then
        if (p, o) ∈ hist.map (fun x => (x.1, x.2.1)) then .abort
        else if hasOrbit d then
          .ok (SatAddress.mk3 e (UInt16.ofNat cid) (UInt16.ofNat p) (UInt16.ofNat o),
            { c with planes := c.setCell p o (some d), size := hist.length + 1 })
        else .abort
      else .ub .outOfRange := by
  split
  · rename_i hb
    have hc := h.cells p o hb.1 hb.2
    have hc' := cell_eq_ok.mpr hc
    unfold addSatellite
    rw [hc', h.id_eq, h.size_eq]
    split
    · rename_i hm
      have : lookup hist p o ≠ none := fun hh => lookup_eq_none.mp hh hm
      cases hl : lookup hist p o with
      | none => exact absurd hl this
      | some v => simp
    · rename_i hm
      have : lookup hist p o = none := lookup_eq_none.mpr hm
      rw [this]
      cases hasOrbit d <;> simp
  · rename_i hb
    have : c.cell? p o = none := by
      rw [← Option.not_isSome_iff_eq_none, h.shape.cell_isSome, h.nPlanes_eq, h.planeSize_eq]
      exact hb
    unfold addSatellite
    rw [cell_eq_ub this]
    rfl

theorem inv_addSatellite {cid n s : Nat} {c : Constellation D} {hist : List (Nat × Nat × D)}
    (e : Endian) (hasOrbit : D → Bool) (h : Inv cid n s c hist) {p o : Nat} {d : D} {a : SatAddress}
    {c' : Constellation D} (hadd : c.addSatellite e hasOrbit p o d = .ok (a, c')) :
    Inv cid n s c' (hist ++ [(p, o, d)]) ∧ p < n ∧ o < s ∧
      (p, o) ∉ hist.map (fun x => (x.1, x.2.1)) ∧ hasOrbit d = true ∧
      a = SatAddress.mk3 e (UInt16.ofNat cid) (UInt16.ofNat p) (UInt16.ofNat o) := by
  rw [inv_addSatellite_cases e hasOrbit h] at hadd
  split at hadd
  · rename_i hb
    split at hadd
    · simp at hadd
    · rename_i hm
      split at hadd
      · rename_i ho
        simp only [Outcome.ok.injEq, Prod.mk.injEq] at hadd
        obtain ⟨rfl, rfl⟩ := hadd
        refine ⟨?_, hb.1, hb.2, hm, ho, rfl⟩
        have hl : lookup hist p o = none := lookup_eq_none.mpr hm
        exact {
          shape := shape_setCell h.shape p o _ _
          id_eq := h.id_eq
          nPlanes_eq := h.nPlanes_eq
          planeSize_eq := h.planeSize_eq
          size_eq := by simp
          bounds := by
            intro x hx
            simp only [List.mem_append, List.mem_singleton] at hx
            rcases hx with hx | rfl
            · exact h.bounds x hx
            · exact hb
          nodup := by
            rw [List.map_append, List.nodup_append]
            refine ⟨h.nodup, by simp, ?_⟩
            intro x hx y hy
            simp at hy
            subst hy
            rintro rfl
            exact hm hx
          cells := by
            intro p' i' hp' hi'
            rw [cell?_setCell, lookup_append hist p o d p' i' hl, h.cells p' i' hp' hi']
            split <;> simp
          perm := by
            rw [container_eq]
            simp only [setCell]
            refine (perm_modify c.planes p o d ?_).trans ?_
            · have := h.cells p o hb.1 hb.2
              rw [hl] at this
              exact this
            · rw [← container_eq, List.map_append]
              exact (h.perm.cons d).trans (List.perm_append_singleton d _).symm }
      · simp at hadd
  · simp at hadd

theorem inv_addAll {cid n s : Nat} (e : Endian) (hasOrbit : D → Bool) (ops : List (Nat × Nat × D)) :
    ∀ {c : Constellation D} {hist : List (Nat × Nat × D)}, Inv cid n s c hist →
      ∀ {as : List SatAddress} {c' : Constellation D}, c.addAll e hasOrbit ops = .ok (as, c') →
      Inv cid n s c' (hist ++ ops) ∧
        as = ops.map (fun x => SatAddress.mk3 e (UInt16.ofNat cid) (UInt16.ofNat x.1) (UInt16.ofNat x.2.1)) := by
  induction ops with
  | nil =>
    intro c hist h as c' hr
    simp only [addAll, Outcome.ok.injEq, Prod.mk.injEq] at hr
    obtain ⟨rfl, rfl⟩ := hr
    simpa using h
  | cons op ops ih =>
    obtain ⟨p, o, d⟩ := op
    intro c hist h as c' hr
    simp only [addAll] at hr
    split at hr
    · rename_i a c1 hadd
      split at hr
      · rename_i as' c2 hrest
        simp only [Outcome.ok.injEq, Prod.mk.injEq] at hr
        obtain ⟨rfl, rfl⟩ := hr
        obtain ⟨h1, -, -, -, -, rfl⟩ := inv_addSatellite e hasOrbit h hadd
        obtain ⟨h2, rfl⟩ := ih h1 hrest
        refine ⟨by simpa using h2, by simp⟩
      all_goals simp at hr
    all_goals simp at hr

/-! ### `GetClosest` -/

theorem closest_foldl {K : Type} [LinearOrder K] (dist : D → K) (cells : List (Option D))
    (best : Option (K × D)) (hbest : ∀ m b, best = some (m, b) → m = dist b) :
    (∀ m b, cells.foldl (closestStep dist) best = some (m, b) →
        m = dist b ∧ (some b ∈ cells ∨ best = some (m, b)) ∧
        (∀ d, some d ∈ cells → m ≤ dist d) ∧ (∀ m' b', best = some (m', b') → m ≤ m')) ∧
    (cells.foldl (closestStep dist) best = none ↔ best = none ∧ ∀ d, some d ∉ cells) := by
  induction cells generalizing best with
  | nil =>
    constructor
    · intro m b h
      simp at h
      refine ⟨hbest m b h, Or.inr h, by simp, ?_⟩
      intro m' b' h'
      rw [h'] at h
      simp at h
      exact h.1 ▸ le_refl _
    · simp
  | cons x xs ih =>
    have hstep : ∀ m b, closestStep dist best x = some (m, b) → m = dist b := by
      intro m b h
      unfold closestStep at h
      split at h
      · exact hbest m b h
      · split at h
        · simp at h; rw [← h.1, ← h.2]
        · rename_i m0 b0
          split at h <;> simp at h
          · rw [← h.1, ← h.2]
          · rw [← h.1, ← h.2]; exact hbest _ _ rfl
    obtain ⟨ih1, ih2⟩ := ih (closestStep dist best x) hstep
    constructor
    · intro m b h
      rw [List.foldl_cons] at h
      obtain ⟨h1, h2, h3, h4⟩ := ih1 m b h
      cases x with
      | none =>
        simp only [closestStep] at h2 h4
        exact ⟨h1, by simpa using h2, by simpa using h3, h4⟩
      | some d =>
        cases hb : best with
        | none =>
          simp only [closestStep, hb] at h2 h4
          refine ⟨h1, ?_, ?_, by simp⟩
          · rcases h2 with h2 | h2
            · left; simp [h2]
            · simp at h2; left; simp [h2.2]
          · intro d' hd'
            simp at hd'
            rcases hd' with rfl | hd'
            · exact h4 _ _ rfl
            · exact h3 d' hd'
        | some mb =>
          obtain ⟨m0, b0⟩ := mb
          simp only [closestStep, hb] at h2 h4
          split at h2
          · rename_i hle
            simp only [if_pos hle] at h4
            refine ⟨h1, ?_, ?_, ?_⟩
            · rcases h2 with h2 | h2
              · left; simp [h2]
              · simp at h2; left; simp [h2.2]
            · intro d' hd'
              simp at hd'
              rcases hd' with rfl | hd'
              · exact h4 _ _ rfl
              · exact h3 d' hd'
            · intro m' b' hmb
              simp at hmb
              exact le_trans (h4 _ _ rfl) (hmb.1 ▸ hle)
          · rename_i hle
            simp only [if_neg hle] at h4
            refine ⟨h1, ?_, ?_, ?_⟩
            · rcases h2 with h2 | h2
              · left; simp [h2]
              · right; exact h2
            · intro d' hd'
              simp at hd'
              rcases hd' with rfl | hd'
              · exact le_trans (h4 _ _ rfl) (le_of_lt (not_le.mp hle))
              · exact h3 d' hd'
            · intro m' b' hmb
              exact h4 m' b' hmb
    · rw [List.foldl_cons, ih2]
      cases x with
      | none => simp [closestStep]
      | some d =>
        have : closestStep dist best (some d) ≠ none := by
          unfold closestStep
          cases best with
          | none => simp
          | some mb => simp only; split <;> simp
        constructor
        · rintro ⟨h1, -⟩; exact absurd h1 this
        · rintro ⟨-, hh⟩; exact absurd (List.mem_cons_self) (hh d)

theorem getClosest_flatten {K : Type} [LE K] [DecidableLE K] (dist : D → K) (c : Constellation D) :
    c.getClosest dist = (c.planes.flatten.foldl (closestStep dist) none).map (·.2) := by
  unfold getClosest
  rw [List.foldl_flatten]

theorem some_mem_flatten {c : Constellation D} {d : D} :
    some d ∈ c.planes.flatten ↔ d ∈ c.createNetDeviceContainer := by
  rw [container_eq, List.mem_filterMap]; simp

end Constellation
end Icarus
