import Verif.Props.Isl
import Mathlib.Logic.Relation

/-!
# Property C74: ways through the inter-satellite grid

`n` planes of `s` satellites, linked by `ISLHelper::Install`.  Numbers of links between satellites, and what the loss of a link or a satellite does.
-/

set_option autoImplicit false

namespace Icarus
namespace Grid
open Isl

/-- Some link made by the helper joins the two positions. -/
def Linked (n s : Nat) (a b : Nat × Nat) : Prop := (a, b) ∈ gridLinks n s ∨ (b, a) ∈ gridLinks n s

/-- A way of `k` links from one position to another. -/
inductive Way (n s : Nat) : Nat → Nat × Nat → Nat × Nat → Prop
  | here (a : Nat × Nat) : Way n s 0 a a
  | link {k : Nat} {a b c : Nat × Nat} (first : Linked n s a b) (rest : Way n s k b c) : Way n s (k + 1) a c

/-- Steps between two places of a ring of `m`. -/
def ringDist (m x y : Nat) : Nat := min (max x y - min x y) (m - (max x y - min x y))

/-- Steps between two positions: planes and places within the plane. -/
def dist (n s : Nat) (a b : Nat × Nat) : Nat := ringDist n a.1 b.1 + ringDist s a.2 b.2

/-- The position exists. -/
def Inside (n s : Nat) (a : Nat × Nat) : Prop := a.1 < n ∧ a.2 < s

theorem linked_iff {n s : Nat} {a b : Nat × Nat} : Linked n s a b ↔ TorusAdj n s a b := torusAdj_iff.symm

theorem linked_inside {n s : Nat} {a b : Nat × Nat} (h : Linked n s a b) : Inside n s a ∧ Inside n s b := by
  rw [linked_iff] at h
  unfold TorusAdj RingNbr at h
  unfold Inside
  omega

theorem linked_symm {n s : Nat} {a b : Nat × Nat} (h : Linked n s a b) : Linked n s b a := Or.symm h

theorem ringDist_step {m x y z : Nat} (hx : x < m) (h : RingNbr m y z) : ringDist m x z ≤ ringDist m x y + 1 ∧ ringDist m y x ≤ ringDist m z x + 1 := by
  rw [ringNbr_iff] at h
  unfold ringDist
  omega

theorem dist_link {n s : Nat} {a b c : Nat × Nat} (h : Linked n s a b) (hc : Inside n s c) : dist n s a c ≤ dist n s b c + 1 := by
  rw [linked_iff] at h
  obtain ⟨-, -, ⟨h1, h2⟩ | ⟨h1, h2⟩⟩ := h
  · have := (ringDist_step hc.2 h2).2
    unfold dist
    rw [h1]
    omega
  · have := (ringDist_step hc.1 h2).2
    unfold dist
    rw [h1]
    omega

theorem dist_self (n s : Nat) (a : Nat × Nat) : dist n s a a = 0 := by unfold dist ringDist; omega

/-- No way is shorter than the distance. -/
theorem C74_no_shorter {n s k : Nat} {a b : Nat × Nat} (hb : Inside n s b) (h : Way n s k a b) : dist n s a b ≤ k := by
  induction h with
  | here a => rw [dist_self]
  | link first rest ih =>
    have := dist_link first hb
    have := ih hb
    omega

theorem ring_towards {m x y : Nat} (hx : x < m) (hy : y < m) (hne : x ≠ y) : ∃ z, RingNbr m x z ∧ ringDist m z y + 1 = ringDist m x y := by
  by_cases h1 : x < y
  · by_cases h2 : y - x ≤ m - (y - x)
    · exact ⟨x + 1, by rw [ringNbr_iff]; omega, by unfold ringDist; omega⟩
    · by_cases h3 : x = 0
      · exact ⟨m - 1, by rw [ringNbr_iff]; omega, by unfold ringDist; omega⟩
      · exact ⟨x - 1, by rw [ringNbr_iff]; omega, by unfold ringDist; omega⟩
  · by_cases h2 : x - y ≤ m - (x - y)
    · exact ⟨x - 1, by rw [ringNbr_iff]; omega, by unfold ringDist; omega⟩
    · by_cases h3 : x + 1 = m
      · exact ⟨0, by rw [ringNbr_iff]; omega, by unfold ringDist; omega⟩
      · exact ⟨x + 1, by rw [ringNbr_iff]; omega, by unfold ringDist; omega⟩

theorem towards {n s : Nat} {a b : Nat × Nat} (ha : Inside n s a) (hb : Inside n s b) (hne : a ≠ b) :
    ∃ c, Linked n s a c ∧ dist n s c b + 1 = dist n s a b := by
  by_cases h : a.1 = b.1
  · have h2 : a.2 ≠ b.2 := fun h2 => hne (Prod.ext h h2)
    obtain ⟨z, h3, h4⟩ := ring_towards ha.2 hb.2 h2
    refine ⟨(a.1, z), linked_iff.mpr ⟨ha.1, ha.2, Or.inl ⟨rfl, h3⟩⟩, ?_⟩
    unfold dist
    simp only
    omega
  · obtain ⟨z, h3, h4⟩ := ring_towards ha.1 hb.1 h
    refine ⟨(z, a.2), linked_iff.mpr ⟨ha.1, ha.2, Or.inr ⟨rfl, h3⟩⟩, ?_⟩
    unfold dist
    simp only
    omega

/-- There is a way as long as the distance: the number of links that packets must cross between two satellites is the number of planes between them
plus the number of places between them, each counted the shorter way round. -/
theorem C74_distance {n s : Nat} {a b : Nat × Nat} (ha : Inside n s a) (hb : Inside n s b) :
    Way n s (dist n s a b) a b ∧ ∀ k, Way n s k a b → dist n s a b ≤ k := by
  refine ⟨?_, fun k h => C74_no_shorter hb h⟩
  induction hd : dist n s a b generalizing a with
  | zero =>
    have : a = b := by
      by_contra hne
      obtain ⟨c, -, h⟩ := towards ha hb hne
      omega
    rw [this]
    exact .here b
  | succ k ih =>
    have hne : a ≠ b := by
      intro e
      rw [e, dist_self] at hd
      omega
    obtain ⟨c, h1, h2⟩ := towards ha hb hne
    exact .link h1 (ih (linked_inside h1).2 (by omega))

/-- No two satellites are further apart than half the planes plus half the places of a plane, and two are that far apart. -/
theorem C74_diameter (n s : Nat) : (∀ a b, Inside n s a → Inside n s b → dist n s a b ≤ n / 2 + s / 2) ∧
    (0 < n → 0 < s → Inside n s (n / 2, s / 2) ∧ dist n s (0, 0) (n / 2, s / 2) = n / 2 + s / 2) := by
  refine ⟨fun a b ha hb => ?_, fun hn hs => ⟨⟨?_, ?_⟩, ?_⟩⟩
  · unfold Inside at ha hb
    unfold dist ringDist
    omega
  · exact Nat.div_lt_self hn (by omega)
  · exact Nat.div_lt_self hs (by omega)
  · unfold dist ringDist
    simp only
    omega

example : dist 10 20 (0, 0) (9, 19) = 2 ∧ dist 10 20 (0, 0) (5, 10) = 15 ∧ dist 1 2 (0, 0) (0, 1) = 1 := by decide

/-! ## Losses -/

theorem reach_symm {α : Type} {R : α → α → Prop} (hsymm : ∀ a b, R a b → R b a) {a b : α} (h : Relation.ReflTransGen R a b) :
    Relation.ReflTransGen R b a := by
  induction h with
  | refl => exact .refl
  | tail _ h ih => exact .head (hsymm _ _ h) ih

theorem reach_lift {α β : Type} {R : α → α → Prop} {S : β → β → Prop} (f : α → β) {a b : α} (h : Relation.ReflTransGen R a b)
    (hf : ∀ a b, R a b → S (f a) (f b)) : Relation.ReflTransGen S (f a) (f b) := by
  induction h with
  | refl => exact .refl
  | tail _ h ih => exact .tail ih (hf _ _ h)

/-- A chain of places, each joined to the next. -/
theorem chain_reach {α : Type} {R : α → α → Prop} (hsymm : ∀ a b, R a b → R b a) {f : Nat → α} {K : Nat} (h : ∀ k, k < K → R (f k) (f (k + 1)))
    {i j : Nat} (hi : i ≤ K) (hj : j ≤ K) : Relation.ReflTransGen R (f i) (f j) := by
  have up : ∀ d i, i + d ≤ K → Relation.ReflTransGen R (f i) (f (i + d)) := by
    intro d
    induction d with
    | zero => intro i _; exact .refl
    | succ d ih => intro i hi; exact (ih i (by omega)).tail (h _ (by omega))
  by_cases hij : i ≤ j
  · have := up (j - i) i (by omega)
    rwa [show i + (j - i) = j by omega] at this
  · have := up (i - j) j (by omega)
    rw [show j + (i - j) = i by omega] at this
    exact reach_symm hsymm this

/-- Place number `k` after `v` on a ring of `m`. -/
def after (m v k : Nat) : Nat := if v + 1 + k < m then v + 1 + k else v + 1 + k - m

theorem after_lt {m v k : Nat} (hv : v < m) (hk : k < m) : after m v k < m := by unfold after; split <;> omega

theorem after_nbr {m v k : Nat} (hv : v < m) (hk : k + 1 < m) : RingNbr m (after m v k) (after m v (k + 1)) := by
  rw [ringNbr_iff]
  unfold after
  split <;> split <;> omega

theorem after_ne {m v k : Nat} (hk : k + 1 < m) : after m v k ≠ v := by unfold after; split <;> omega

theorem after_surj {m v x : Nat} (hv : v < m) (hx : x < m) : ∃ k, k < m ∧ after m v k = x ∧ (x ≠ v → k + 1 < m) := by
  by_cases h : v < x
  · exact ⟨x - v - 1, by omega, by unfold after; split <;> omega, by omega⟩
  · exact ⟨x + m - v - 1, by omega, by unfold after; split <;> omega, by omega⟩

theorem ringNbr_symm {m x y : Nat} (h : RingNbr m x y) : RingNbr m y x := by rw [ringNbr_iff] at *; omega

/-- The places of a ring other than `v` are joined to each other without it. -/
theorem ring_without_place {m v x y : Nat} (hv : v < m) (hx : x < m) (hy : y < m) (hxv : x ≠ v) (hyv : y ≠ v) :
    Relation.ReflTransGen (fun a b => RingNbr m a b ∧ a ≠ v ∧ b ≠ v) x y := by
  obtain ⟨i, -, rfl, hi⟩ := after_surj hv hx
  obtain ⟨j, -, rfl, hj⟩ := after_surj hv hy
  have hi := hi hxv
  have hj := hj hyv
  refine chain_reach (K := m - 2) (fun a b h => ⟨ringNbr_symm h.1, h.2.2, h.2.1⟩) (fun k hk => ?_) (by omega) (by omega)
  exact ⟨after_nbr hv (by omega), after_ne (by omega), after_ne (by omega)⟩

/-- All places of a ring are joined. -/
theorem ring_whole {m x y : Nat} (hx : x < m) (hy : y < m) : Relation.ReflTransGen (RingNbr m) x y := by
  obtain ⟨i, hi, e1, -⟩ := after_surj hx hx
  obtain ⟨j, hj, e2, -⟩ := after_surj hx hy
  have : Relation.ReflTransGen (RingNbr m) (after m x i) (after m x j) :=
    chain_reach (K := m - 1) (fun a b h => ringNbr_symm h) (fun k hk => after_nbr hx (by omega)) (by omega) (by omega)
  rwa [e1, e2] at this

/-- The satellites other than `v` are joined to each other by links among them: the loss of one satellite never cuts the others off. -/
theorem C74_satellite_lost {n s : Nat} {v a b : Nat × Nat} (hv : Inside n s v) (ha : Inside n s a) (hb : Inside n s b) (hav : a ≠ v) (hbv : b ≠ v) :
    Relation.ReflTransGen (fun x y => Linked n s x y ∧ x ≠ v ∧ y ≠ v) a b := by
  -- along a plane
  have plane : ∀ i x y, i < n → x < s → y < s → (i, x) ≠ v → (i, y) ≠ v →
      Relation.ReflTransGen (fun x y => Linked n s x y ∧ x ≠ v ∧ y ≠ v) (i, x) (i, y) := by
    intro i x y hi hx hy hxv hyv
    by_cases hiv : i = v.1
    · have h1 : x ≠ v.2 := fun h => hxv (Prod.ext hiv h)
      have h2 : y ≠ v.2 := fun h => hyv (Prod.ext hiv h)
      refine reach_lift (fun x => (i, x)) (ring_without_place hv.2 hx hy h1 h2) ?_
      rintro p q ⟨h, hp, hq⟩
      exact ⟨linked_iff.mpr ⟨hi, h.1, Or.inl ⟨rfl, h⟩⟩, fun e => hp (congrArg Prod.snd e), fun e => hq (congrArg Prod.snd e)⟩
    · refine reach_lift (fun x => (i, x)) (ring_whole hx hy) ?_
      rintro p q h
      exact ⟨linked_iff.mpr ⟨hi, h.1, Or.inl ⟨rfl, h⟩⟩, fun e => hiv (congrArg Prod.fst e), fun e => hiv (congrArg Prod.fst e)⟩
  have column : ∀ j x y, j < s → x < n → y < n → (x, j) ≠ v → (y, j) ≠ v →
      Relation.ReflTransGen (fun x y => Linked n s x y ∧ x ≠ v ∧ y ≠ v) (x, j) (y, j) := by
    intro j x y hj hx hy hxv hyv
    by_cases hjv : j = v.2
    · have h1 : x ≠ v.1 := fun h => hxv (Prod.ext h hjv)
      have h2 : y ≠ v.1 := fun h => hyv (Prod.ext h hjv)
      refine reach_lift (fun x => (x, j)) (ring_without_place hv.1 hx hy h1 h2) ?_
      rintro p q ⟨h, hp, hq⟩
      exact ⟨linked_iff.mpr ⟨h.1, hj, Or.inr ⟨rfl, h⟩⟩, fun e => hp (congrArg Prod.fst e), fun e => hq (congrArg Prod.fst e)⟩
    · refine reach_lift (fun x => (x, j)) (ring_whole hx hy) ?_
      rintro p q h
      exact ⟨linked_iff.mpr ⟨h.1, hj, Or.inr ⟨rfl, h⟩⟩, fun e => hjv (congrArg Prod.snd e), fun e => hjv (congrArg Prod.snd e)⟩
  obtain ⟨a1, a2⟩ := a
  obtain ⟨b1, b2⟩ := b
  obtain ⟨v1, v2⟩ := v
  unfold Inside at ha hb hv
  simp only at ha hb hv
  by_cases hs : s = 1
  · have e1 : a2 = 0 := by omega
    have e2 : b2 = 0 := by omega
    subst e1 e2
    exact column 0 a1 b1 (by omega) ha.1 hb.1 hav hbv
  · -- a place other than that of `v`
    obtain ⟨j, hj, hjv⟩ : ∃ j, j < s ∧ j ≠ v2 := by
      by_cases h : v2 = 0
      · exact ⟨1, by omega, by omega⟩
      · exact ⟨0, by omega, by omega⟩
    have free : ∀ x, ((x, j) : Nat × Nat) ≠ (v1, v2) := fun x e => hjv (congrArg Prod.snd e)
    exact ((plane a1 a2 j ha.1 ha.2 hj hav (free _)).trans (column j a1 b1 hj ha.1 hb.1 (free _) (free _))).trans
      (plane b1 j b2 hb.1 hj hb.2 (free _) hbv)

/-- The links other than that between `p` and `q`. -/
def Without (n s : Nat) (p q a b : Nat × Nat) : Prop := Linked n s a b ∧ ¬ (a = p ∧ b = q) ∧ ¬ (a = q ∧ b = p)

theorem without_symm {n s : Nat} {p q : Nat × Nat} : ∀ a b, Without n s p q a b → Without n s p q b a :=
  fun _ _ h => ⟨linked_symm h.1, fun e => h.2.2 ⟨e.2, e.1⟩, fun e => h.2.1 ⟨e.2, e.1⟩⟩

/-- Round a ring the other way. -/
theorem ring_without_step {m x y : Nat} (hm : 3 ≤ m) (h : RingNbr m x y) :
    Relation.ReflTransGen (fun a b => RingNbr m a b ∧ ¬ (a = x ∧ b = y) ∧ ¬ (a = y ∧ b = x)) x y := by
  have one : ∀ {x y}, x < m → after m x 0 = y →
      Relation.ReflTransGen (fun a b => RingNbr m a b ∧ ¬ (a = x ∧ b = y) ∧ ¬ (a = y ∧ b = x)) x y := by
    intro x y hx h0
    have h1 : after m x (m - 1) = x := by unfold after; split <;> omega
    have : Relation.ReflTransGen (fun a b => RingNbr m a b ∧ ¬ (a = x ∧ b = y) ∧ ¬ (a = y ∧ b = x)) (after m x (m - 1)) (after m x 0) := by
      refine chain_reach (K := m - 1) (fun a b h => ⟨ringNbr_symm h.1, fun e => h.2.2 ⟨e.2, e.1⟩, fun e => h.2.1 ⟨e.2, e.1⟩⟩) (fun k hk => ?_)
        (by omega) (by omega)
      refine ⟨after_nbr hx (by omega), fun e => after_ne (by omega) e.1, ?_⟩
      rintro ⟨e1, e2⟩
      rw [← h0] at e1
      unfold after at e1 e2
      split at e1 <;> split at e1 <;> split at e2 <;> omega
    rwa [h1, h0] at this
  have h' := ringNbr_iff.mp h
  by_cases hxy : after m x 0 = y
  · exact one h.1 hxy
  · have : after m y 0 = x := by
      unfold after at hxy ⊢
      split at hxy <;> split <;> omega
    have := reach_symm (fun a b h => ⟨ringNbr_symm h.1, fun e => h.2.2 ⟨e.2, e.1⟩, fun e => h.2.1 ⟨e.2, e.1⟩⟩) (one h.2.1 this)
    exact reach_lift id this (fun a b h => ⟨h.1, h.2.2, h.2.1⟩)

/-- Round a link within a plane. -/
theorem round_plane {n s i x y : Nat} (hi : i < n) (h : RingNbr s x y) (hns : n * s ≠ 2) :
    Relation.ReflTransGen (Without n s (i, x) (i, y)) (i, x) (i, y) := by
  have h' := ringNbr_iff.mp h
  by_cases hs : 3 ≤ s
  · refine reach_lift (fun x => (i, x)) (ring_without_step hs h) ?_
    rintro a b ⟨h1, h2, h3⟩
    exact ⟨linked_iff.mpr ⟨hi, h1.1, Or.inl ⟨rfl, h1⟩⟩, by simpa using h2, by simpa using h3⟩
  · have hs2 : s = 2 := by omega
    subst hs2
    obtain ⟨z, hz⟩ : ∃ z, RingNbr n i z := by
      by_cases hp : i = 0
      · exact ⟨1, by rw [ringNbr_iff]; omega⟩
      · exact ⟨i - 1, by rw [ringNbr_iff]; omega⟩
    have hz' := ringNbr_iff.mp hz
    have hzp : z ≠ i := by omega
    have e1 : Without n 2 (i, x) (i, y) (i, x) (z, x) :=
      ⟨linked_iff.mpr ⟨hi, h.1, Or.inr ⟨rfl, hz⟩⟩, by simp [hzp], by simp [hzp]⟩
    have e2 : Without n 2 (i, x) (i, y) (z, x) (z, y) :=
      ⟨linked_iff.mpr ⟨hz.2.1, h.1, Or.inl ⟨rfl, h⟩⟩, by simp [hzp], by simp [hzp]⟩
    have e3 : Without n 2 (i, x) (i, y) (z, y) (i, y) :=
      ⟨linked_iff.mpr ⟨hz.2.1, h.2.1, Or.inr ⟨rfl, ringNbr_symm hz⟩⟩, by simp [hzp], by simp [hzp]⟩
    exact ((Relation.ReflTransGen.single e1).tail e2).tail e3

theorem linked_swap {n s : Nat} {a b : Nat × Nat} (h : Linked n s a b) : Linked s n a.swap b.swap := by
  obtain ⟨h1, h2, h3⟩ := linked_iff.mp h
  exact linked_iff.mpr ⟨h2, h1, h3.symm⟩

theorem round_link {n s : Nat} (hns : n * s ≠ 2) {p q : Nat × Nat} (h : Linked n s p q) : Relation.ReflTransGen (Without n s p q) p q := by
  obtain ⟨p1, p2⟩ := p
  obtain ⟨q1, q2⟩ := q
  obtain ⟨h1, h2, ⟨h3, h4⟩ | ⟨h3, h4⟩⟩ := linked_iff.mp h
  · simp only at h1 h3 h4
    subst h3
    exact round_plane h1 h4 hns
  · simp only at h2 h3 h4
    subst h3
    refine reach_lift Prod.swap (round_plane h2 h4 (by rwa [Nat.mul_comm])) ?_
    rintro ⟨a1, a2⟩ ⟨b1, b2⟩ ⟨e1, e2, e3⟩
    refine ⟨linked_swap e1, ?_, ?_⟩
    · simp only [Prod.swap, Prod.mk.injEq] at e2 ⊢
      tauto
    · simp only [Prod.swap, Prod.mk.injEq] at e3 ⊢
      tauto

/-- The loss of one link never cuts any satellite off, unless there are only two satellites. -/
theorem C74_link_lost {n s : Nat} (hns : n * s ≠ 2) (p q : Nat × Nat) {a b : Nat × Nat} (ha : Inside n s a) (hb : Inside n s b) :
    Relation.ReflTransGen (fun x y => Linked n s x y ∧ ¬ (x = p ∧ y = q) ∧ ¬ (x = q ∧ y = p)) a b := by
  show Relation.ReflTransGen (Without n s p q) a b
  have way : ∀ {k a}, Way n s k a b → Relation.ReflTransGen (Without n s p q) a b := by
    intro k a h
    induction h with
    | here => exact .refl
    | @link k a c d first rest ih =>
      refine Relation.ReflTransGen.trans ?_ (ih hb)
      by_cases e1 : a = p ∧ c = q
      · obtain ⟨rfl, rfl⟩ := e1
        exact round_link hns first
      · by_cases e2 : a = q ∧ c = p
        · obtain ⟨rfl, rfl⟩ := e2
          exact (reach_symm without_symm (round_link hns (linked_symm first)))
        · exact .single ⟨first, e1, e2⟩
  exact way (C74_distance ha hb).1

/-- With two satellites there is one link, and its loss separates them. -/
theorem C74_two_satellites : ¬ Relation.ReflTransGen (fun x y => Linked 1 2 x y ∧ ¬ (x = (0, 0) ∧ y = (0, 1)) ∧ ¬ (x = (0, 1) ∧ y = (0, 0))) (0, 0) (0, 1) := by
  intro h
  have : ∀ b, Relation.ReflTransGen (fun x y => Linked 1 2 x y ∧ ¬ (x = (0, 0) ∧ y = (0, 1)) ∧ ¬ (x = (0, 1) ∧ y = (0, 0))) (0, 0) b → b = (0, 0) := by
    intro b h
    induction h with
    | refl => rfl
    | @tail b c _ h ih =>
      subst ih
      obtain ⟨h1, h2, -⟩ := h
      have : gridLinks 1 2 = [((0, 0), (0, 1))] := by decide
      unfold Linked at h1
      rw [this] at h1
      simp only [List.mem_singleton, Prod.mk.injEq] at h1
      rcases h1 with h1 | h1
      · exact absurd ⟨rfl, h1.2⟩ h2
      · simp at h1
  have := this _ h
  simp at this

example : Inside 3 4 (2, 3) ∧ Inside 3 4 (0, 0) ∧ (0, 0) ≠ ((2, 3) : Nat × Nat) ∧ 3 * 4 ≠ 2 ∧ ((0, 3), (0, 0)) ∈ gridLinks 3 4 := by
  refine ⟨by unfold Inside; decide, by unfold Inside; decide, by decide, by decide, by decide⟩

end Grid
end Icarus
