import Verif.Model.Isl
import Verif.Lemmas.Constellation
import Mathlib.Data.List.Flatten
import Mathlib.Data.List.Basic
import Mathlib.Data.List.Nodup

/-! Helper lemmas for `Verif.Props.Isl`. -/

set_option autoImplicit false

namespace Icarus
namespace Isl

theorem mem_gridLinks {n s : Nat} {a b : Nat × Nat} :
    (a, b) ∈ gridLinks n s ↔ a.1 < n ∧ a.2 < s ∧
      (b.1 = a.1 ∧ (a.2 + 1 < s ∧ b.2 = a.2 + 1 ∨ a.2 + 1 = s ∧ 3 ≤ s ∧ b.2 = 0) ∨
       b.2 = a.2 ∧ (a.1 + 1 < n ∧ b.1 = a.1 + 1 ∨ a.1 + 1 = n ∧ 3 ≤ n ∧ b.1 = 0)) := by
  obtain ⟨p, i⟩ := a
  obtain ⟨q, k⟩ := b
  simp only [gridLinks, List.mem_flatMap, List.mem_range, linksAt, List.mem_append]
  constructor
  · rintro ⟨i', hi', j', hj', h⟩
    rcases h with h | h
    · split at h
      · simp at h; omega
      · split at h
        · simp at h; omega
        · simp at h
    · split at h
      · simp at h; omega
      · split at h
        · simp at h; omega
        · simp at h
  · rintro ⟨hp, hi, h⟩
    refine ⟨p, hp, i, hi, ?_⟩
    rcases h with ⟨rfl, h⟩ | ⟨rfl, h⟩
    · left
      rcases h with ⟨h1, rfl⟩ | ⟨h1, h2, rfl⟩
      · rw [if_pos (by omega)]; simp
      · rw [if_neg (by omega), if_pos (by omega)]; simp
    · right
      rcases h with ⟨h1, rfl⟩ | ⟨h1, h2, rfl⟩
      · rw [if_pos (by omega)]; simp
      · rw [if_neg (by omega), if_pos (by omega)]; simp

theorem linksAt_fst {n s i j : Nat} {l : (Nat × Nat) × (Nat × Nat)} (h : l ∈ linksAt n s i j) : l.1 = (i, j) := by
  simp only [linksAt, List.mem_append] at h
  rcases h with h | h
  · split at h
    · simp at h; simp [h]
    · split at h
      · simp at h; simp [h]
      · simp at h
  · split at h
    · simp at h; simp [h]
    · split at h
      · simp at h; simp [h]
      · simp at h

theorem linksAt_nodup {n s i j : Nat} : (linksAt n s i j).Nodup := by
  unfold linksAt
  split
  · split
    · simp
    · split
      · simp
      · simp
  · split
    · split
      · simp
      · split
        · simp; omega
        · simp
    · split
      · simp
      · split <;> simp

theorem gridLinks_nodup (n s : Nat) : (gridLinks n s).Nodup := by
  unfold gridLinks
  rw [List.nodup_flatMap]
  constructor
  · intro i hi
    rw [List.nodup_flatMap]
    constructor
    · intro j _; exact linksAt_nodup
    · refine List.Nodup.pairwise_of_forall_ne List.nodup_range ?_
      intro j _ j' _ hne
      simp only [Function.onFun]
      intro l h1 h2
      have a := linksAt_fst h1
      have b := linksAt_fst h2
      rw [a] at b
      simp at b
      exact hne b
  · refine List.Nodup.pairwise_of_forall_ne List.nodup_range ?_
    intro i _ i' _ hne
    simp only [Function.onFun]
    intro l h1 h2
    simp only [List.mem_flatMap] at h1 h2
    obtain ⟨j, -, h1⟩ := h1
    obtain ⟨j', -, h2⟩ := h2
    have a := linksAt_fst h1
    have b := linksAt_fst h2
    rw [a] at b
    simp at b
    exact hne b.1

variable {D : Type}

theorem resolve_ok (debug : Bool) (c : Constellation D) (f : Nat × Nat → D)
    (ls : List ((Nat × Nat) × (Nat × Nat)))
    (h : ∀ l ∈ ls, nodeAt debug c l.1 = .ok (f l.1) ∧ nodeAt debug c l.2 = .ok (f l.2)) :
    resolve debug c ls = .ok (ls.map (fun l => (f l.1, f l.2))) := by
  induction ls with
  | nil => rfl
  | cons l ls ih =>
    obtain ⟨a, b⟩ := l
    have h1 := h (a, b) (by simp)
    have ih' := ih (fun l hl => h l (by simp [hl]))
    simp only at h1
    simp [resolve, h1.1, h1.2, ih']

theorem count_owners {α : Type} [BEq α] [LawfulBEq α] [DecidableEq α] (links : List (α × α)) (v : α) :
    (deviceOwners links).count v =
      (links.map (fun l => (if l.1 = v then 1 else 0) + (if l.2 = v then 1 else 0))).sum := by
  induction links with
  | nil => rfl
  | cons l ls ih =>
    simp only [deviceOwners, List.flatMap_cons, List.count_append, List.map_cons, List.sum_cons] at ih ⊢
    rw [ih]
    congr 1
    simp [List.count_cons]
    omega

end Isl
end Icarus
