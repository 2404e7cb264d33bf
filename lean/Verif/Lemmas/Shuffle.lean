import Verif.Model.Shuffle
import Mathlib.Data.FinEnum
import Mathlib.Data.Fintype.BigOperators
import Mathlib.Data.Fin.Tuple.Basic
import Mathlib.Algebra.Group.Action.Defs
import Mathlib.Tactic.Ring
import Mathlib.Tactic.Linarith
import Mathlib.Data.Nat.ModEq
import Mathlib.Order.Interval.Finset.Nat

/-! Lemmas about the shuffle of the slot table. -/

set_option autoImplicit false

namespace Icarus
namespace Crdsa

/-! ## One draw -/

/-- The result of a draw from `ρ` values if the generator gives `x`; `none`: the value is rejected and another one is drawn. -/
def accept (m : Method) (ρ : Nat) (x : UInt32) : Option Nat :=
  match m with
  | .multiply => if x.toNat * ρ % 2 ^ 32 < 2 ^ 32 % ρ then none else some (x.toNat * ρ / 2 ^ 32)
  | .divide => if ρ * ((2 ^ 32 - 1) / ρ) ≤ x.toNat then none else some (x.toNat / ((2 ^ 32 - 1) / ρ))

def drawOne {G : Type} (acc : G → Option Nat) : List G → Option (Nat × List G)
  | [] => none
  | x :: xs => match acc x with
    | none => drawOne acc xs
    | some r => some (r, xs)

/-- The `Draw` belonging to a result of `drawOne`. -/
def toDraw {α : Type} : Option (α × List UInt32) → Draw α
  | none => .more
  | some (a, rest) => .done a rest

theorem product_facts {x ρ : UInt32} :
    (x.toUInt64 * ρ.toUInt64).toUInt32.toNat = x.toNat * ρ.toNat % 2 ^ 32 ∧
    ((x.toUInt64 * ρ.toUInt64) >>> 32).toUInt32.toNat = x.toNat * ρ.toNat / 2 ^ 32 := by
  have hx : x.toNat < 2 ^ 32 := x.toNat_lt
  have hρ : ρ.toNat < 2 ^ 32 := ρ.toNat_lt
  have hp : (x.toUInt64 * ρ.toUInt64).toNat = x.toNat * ρ.toNat := by
    rw [UInt64.toNat_mul, UInt32.toNat_toUInt64, UInt32.toNat_toUInt64]
    apply Nat.mod_eq_of_lt
    calc x.toNat * ρ.toNat < 2 ^ 32 * 2 ^ 32 := Nat.mul_lt_mul'' hx hρ
      _ = 2 ^ 64 := by norm_num
  constructor
  · rw [UInt64.toNat_toUInt32, hp]
  · rw [UInt64.toNat_toUInt32, UInt64.toNat_shiftRight, hp]
    have h32 : (32 : UInt64).toNat % 64 = 32 := by decide
    rw [h32, Nat.shiftRight_eq_div_pow]
    apply Nat.mod_eq_of_lt
    rw [Nat.div_lt_iff_lt_mul (by norm_num)]
    exact Nat.mul_lt_mul'' hx hρ

theorem threshold_fact {ρ : UInt32} (h : 0 < ρ.toNat) : ((0 - ρ) % ρ).toNat = 2 ^ 32 % ρ.toNat := by
  have hρ : ρ.toNat < 2 ^ 32 := ρ.toNat_lt
  rw [UInt32.toNat_mod, UInt32.toNat_sub]
  have : (UInt32.toNat 0) = 0 := rfl
  rw [this, Nat.add_zero, Nat.mod_eq_of_lt (by omega : 2 ^ 32 - ρ.toNat < 2 ^ 32)]
  conv_rhs => rw [show 2 ^ 32 = (2 ^ 32 - ρ.toNat) + ρ.toNat by omega]
  rw [Nat.add_mod_right]

theorem ndLoop_eq {ρ : UInt32} (h : 0 < ρ.toNat) (xs : List UInt32) : ∀ x,
    ndLoop ρ ((0 - ρ) % ρ) (x.toUInt64 * ρ.toUInt64) xs = toDraw (drawOne (accept .multiply ρ.toNat) (x :: xs)) := by
  induction xs with
  | nil =>
    intro x
    rw [ndLoop]
    simp only [UInt32.lt_iff_toNat_lt, threshold_fact h, product_facts.1, product_facts.2, drawOne, accept]
    split <;> simp_all [toDraw]
  | cons y ys ih =>
    intro x
    rw [ndLoop]
    simp only [UInt32.lt_iff_toNat_lt, threshold_fact h, product_facts.1, product_facts.2, drawOne, accept]
    split
    · rw [ih]; rfl
    · rfl

theorem nd_eq {ρ : UInt32} (h : 0 < ρ.toNat) (xs : List UInt32) : nd ρ xs = toDraw (drawOne (accept .multiply ρ.toNat) xs) := by
  cases xs with
  | nil => rfl
  | cons x xs =>
    have h0 : ρ ≠ 0 := by rintro rfl; simp at h
    simp only [nd]
    rw [if_neg h0]
    split
    · exact ndLoop_eq h xs x
    · rename_i hlow
      simp only [UInt32.lt_iff_toNat_lt, product_facts.1] at hlow
      have : 2 ^ 32 % ρ.toNat < ρ.toNat := Nat.mod_lt _ h
      simp only [drawOne, accept]
      rw [if_neg (by omega), product_facts.2]
      rfl

theorem divLoop_eq (ρ : Nat) (xs : List UInt32) :
    divLoop ((2 ^ 32 - 1) / ρ) (ρ * ((2 ^ 32 - 1) / ρ)) xs = toDraw (drawOne (accept .divide ρ) xs) := by
  induction xs with
  | nil => rfl
  | cons x xs ih =>
    have e : x.toNat - genMin = x.toNat := rfl
    simp only [divLoop, drawOne, accept]
    rw [e]
    by_cases h : ρ * ((2 ^ 32 - 1) / ρ) ≤ x.toNat
    · rw [if_pos h, if_pos h, ih]
    · rw [if_neg h, if_neg h]; rfl

theorem uniformInt_eq (m : Method) {ρ : Nat} (h0 : 0 < ρ) (h : ρ < 2 ^ 32) (xs : List UInt32) :
    uniformInt m (ρ - 1) xs = toDraw (drawOne (accept m ρ) xs) := by
  have hG : genMax - genMin = 2 ^ 32 - 1 := rfl
  simp only [uniformInt]
  rw [if_pos (by rw [hG]; omega), Nat.sub_add_cancel h0, hG]
  cases m with
  | multiply =>
    have : (UInt32.ofNat ρ).toNat = ρ := by
      rw [UInt32.toNat_ofNat']; exact Nat.mod_eq_of_lt h
    simp only
    rw [nd_eq (by omega), this]
  | divide => exact divLoop_eq ρ xs

/-! ## A draw is fair -/

theorem card_uint32 (p : Nat → Prop) [DecidablePred p] :
    (Finset.univ.filter (fun x : UInt32 => p x.toNat)).card = ((Finset.range (2 ^ 32)).filter p).card := by
  apply Finset.card_bij (fun x _ => x.toNat)
  · intro x hx
    rw [Finset.mem_filter] at hx ⊢
    exact ⟨Finset.mem_range.mpr x.toNat_lt, hx.2⟩
  · intro x _ y _ h; exact UInt32.toNat_inj.mp h
  · intro n hn
    rw [Finset.mem_filter, Finset.mem_range] at hn
    have e : (UInt32.ofNat n).toNat = n := by rw [UInt32.toNat_ofNat']; exact Nat.mod_eq_of_lt hn.1
    exact ⟨UInt32.ofNat n, Finset.mem_filter.mpr ⟨Finset.mem_univ _, by rw [e]; exact hn.2⟩, e⟩

/-- Numbers below `M` whose product with `ρ` divided by `M` is `r` with a remainder that is not among the first `M % ρ`. -/
theorem card_multiply {M ρ r : Nat} (hM : ρ ≤ M) (hr : r < ρ) :
    ((Finset.range M).filter (fun x => ¬ x * ρ % M < M % ρ ∧ x * ρ / M = r)).card = M / ρ := by
  have hρ : 0 < ρ := by omega
  have hMp : 0 < M := by omega
  have hdm := Nat.div_add_mod M ρ
  generalize hq : M / ρ = q at hdm ⊢
  generalize ht : M % ρ = t at hdm ⊢
  -- the first accepted number
  have hc := Nat.div_add_mod (r * M + t + (ρ - 1)) ρ
  have hcl := Nat.mod_lt (r * M + t + (ρ - 1)) hρ
  generalize hcdef : (r * M + t + (ρ - 1)) / ρ = c at hc
  generalize (r * M + t + (ρ - 1)) % ρ = e at hc hcl
  have : (Finset.range M).filter (fun x => ¬ x * ρ % M < t ∧ x * ρ / M = r) = Finset.Ico c (c + q) := by
    ext x
    rw [Finset.mem_filter, Finset.mem_range, Finset.mem_Ico]
    have hx := Nat.div_add_mod (x * ρ) M
    have hxl := Nat.mod_lt (x * ρ) hMp
    constructor
    · rintro ⟨hxM, h1, h2⟩
      rw [h2] at hx
      generalize x * ρ % M = y at hx hxl h1
      constructor
      · by_contra hlt
        have : x + 1 ≤ c := by omega
        have := Nat.mul_le_mul_left ρ this
        have e1 : ρ * (x + 1) = x * ρ + ρ := by ring
        have e2 : M * r = r * M := Nat.mul_comm _ _
        omega
      · by_contra hlt
        have : c + q ≤ x := by omega
        have := Nat.mul_le_mul_left ρ this
        have e1 : ρ * (c + q) = ρ * c + ρ * q := by ring
        have e2 : M * r = r * M := Nat.mul_comm _ _
        have e3 : ρ * x = x * ρ := Nat.mul_comm _ _
        omega
    · rintro ⟨h1, h2⟩
      have a1 := Nat.mul_le_mul_left ρ h1
      have a2 := Nat.mul_le_mul_left ρ (by omega : x + 1 ≤ c + q)
      have e1 : ρ * (c + q) = ρ * c + ρ * q := by ring
      have e3 : ρ * x = x * ρ := Nat.mul_comm _ _
      have e4 : ρ * (x + 1) = x * ρ + ρ := by ring
      have lo : r * M + t ≤ x * ρ := by omega
      have hi : x * ρ < (r + 1) * M := by
        have : (r + 1) * M = r * M + M := by ring
        omega
      have hdiv : x * ρ / M = r := Nat.div_eq_of_lt_le (by omega) hi
      refine ⟨?_, ?_, hdiv⟩
      · have : (r + 1) * M ≤ ρ * M := Nat.mul_le_mul_right M hr
        have : x * ρ < M * ρ := by rw [Nat.mul_comm M ρ]; omega
        exact lt_of_mul_lt_mul_right this (Nat.zero_le _)
      · rw [hdiv] at hx
        have e2 : M * r = r * M := Nat.mul_comm _ _
        omega
  rw [this, Nat.card_Ico]; omega

theorem card_divide {M ρ r : Nat} (hM : ρ ≤ M - 1) (hr : r < ρ) :
    ((Finset.range M).filter (fun x => ¬ ρ * ((M - 1) / ρ) ≤ x ∧ x / ((M - 1) / ρ) = r)).card = (M - 1) / ρ := by
  have hρ : 0 < ρ := by omega
  have hs : 0 < (M - 1) / ρ := Nat.div_pos hM hρ
  have hle := Nat.mul_div_le (M - 1) ρ
  generalize (M - 1) / ρ = s at hs hle ⊢
  have : (Finset.range M).filter (fun x => ¬ ρ * s ≤ x ∧ x / s = r) = Finset.Ico (r * s) (r * s + s) := by
    ext x
    rw [Finset.mem_filter, Finset.mem_range, Finset.mem_Ico]
    have e : (r + 1) * s = r * s + s := by ring
    constructor
    · rintro ⟨_, _, h⟩
      rw [Nat.div_eq_iff hs] at h
      omega
    · rintro ⟨h1, h2⟩
      have : (r + 1) * s ≤ ρ * s := Nat.mul_le_mul_right s hr
      refine ⟨by omega, by omega, Nat.div_eq_of_lt_le h1 (by omega)⟩
  rw [this, Nat.card_Ico]; omega

/-- Number of values of the generator for each result. -/
def share : Method → Nat → Nat
  | .multiply, ρ => 2 ^ 32 / ρ
  | .divide, ρ => (2 ^ 32 - 1) / ρ

theorem accept_fair (m : Method) {ρ r : Nat} (hρ : ρ < 2 ^ 32) (hr : r < ρ) :
    (Finset.univ.filter (fun x : UInt32 => accept m ρ x = some r)).card = share m ρ := by
  cases m with
  | multiply =>
    have := card_uint32 (fun x => ¬ x * ρ % 2 ^ 32 < 2 ^ 32 % ρ ∧ x * ρ / 2 ^ 32 = r)
    rw [card_multiply (by omega) hr] at this
    rw [share, ← this]
    refine congrArg Finset.card (Finset.filter_congr ?_)
    intro x _
    simp only [accept]
    by_cases h : x.toNat * ρ % 2 ^ 32 < 2 ^ 32 % ρ
    · rw [if_pos h]; exact ⟨fun e => (Option.some_ne_none _ e.symm).elim, fun e => (e.1 h).elim⟩
    · rw [if_neg h, Option.some.injEq]; exact ⟨fun e => ⟨h, e⟩, fun e => e.2⟩
  | divide =>
    have := card_uint32 (fun x => ¬ ρ * ((2 ^ 32 - 1) / ρ) ≤ x ∧ x / ((2 ^ 32 - 1) / ρ) = r)
    rw [card_divide (by omega) hr] at this
    rw [share, ← this]
    refine congrArg Finset.card (Finset.filter_congr ?_)
    intro x _
    simp only [accept]
    by_cases h : ρ * ((2 ^ 32 - 1) / ρ) ≤ x.toNat
    · rw [if_pos h]; exact ⟨fun e => (Option.some_ne_none _ e.symm).elim, fun e => (e.1 h).elim⟩
    · rw [if_neg h, Option.some.injEq]; exact ⟨fun e => ⟨h, e⟩, fun e => e.2⟩

theorem accept_lt (m : Method) {ρ r : Nat} (h0 : 0 < ρ) {x : UInt32} (h : accept m ρ x = some r) : r < ρ := by
  cases m with
  | multiply =>
    simp only [accept] at h
    split at h
    · cases h
    · simp only [Option.some.injEq] at h
      rw [← h, Nat.div_lt_iff_lt_mul (by norm_num), Nat.mul_comm]
      exact Nat.mul_lt_mul_of_pos_left x.toNat_lt h0
  | divide =>
    simp only [accept] at h
    split at h
    · cases h
    · rename_i hx
      simp only [Option.some.injEq] at h
      rw [← h]
      exact Nat.div_lt_of_lt_mul (by rw [Nat.mul_comm]; omega)

/-! ## Several draws -/

section
variable {G : Type}

def drawAll (acc : Nat → G → Option Nat) : List Nat → List G → Option (List Nat × List G)
  | [], xs => some ([], xs)
  | ρ :: ρs, xs =>
    match drawOne (acc ρ) xs with
    | none => none
    | some (r, rest) =>
      match drawAll acc ρs rest with
      | none => none
      | some (rs, rest) => some (r :: rs, rest)

theorem drawAll_nil (acc : Nat → G → Option Nat) (ρ : Nat) (ρs : List Nat) : drawAll acc (ρ :: ρs) [] = none := rfl

theorem drawAll_cons (acc : Nat → G → Option Nat) (ρ : Nat) (ρs : List Nat) (x : G) (xs : List G) :
    drawAll acc (ρ :: ρs) (x :: xs) =
      match acc ρ x with
      | none => drawAll acc (ρ :: ρs) xs
      | some r =>
        match drawAll acc ρs xs with
        | none => none
        | some (rs, rest) => some (r :: rs, rest) := by
  simp only [drawAll, drawOne]
  cases acc ρ x <;> rfl

/-- What is left is the end of what was given. -/
theorem drawOne_suffix (acc : G → Option Nat) {xs : List G} : ∀ {r : Nat} {rest : List G}, drawOne acc xs = some (r, rest) →
    ∃ pre x, xs = pre ++ x :: rest ∧ acc x = some r ∧ ∀ y ∈ pre, acc y = none := by
  induction xs with
  | nil => intro r rest h; cases h
  | cons x xs ih =>
    intro r rest h
    simp only [drawOne] at h
    cases hx : acc x with
    | none =>
      rw [hx] at h
      obtain ⟨pre, y, rfl, h1, h2⟩ := ih h
      refine ⟨x :: pre, y, rfl, h1, ?_⟩
      intro z hz
      rcases List.mem_cons.mp hz with rfl | hz
      · exact hx
      · exact h2 z hz
    | some r' =>
      rw [hx] at h
      simp only [Option.some.injEq, Prod.mk.injEq] at h
      obtain ⟨rfl, rfl⟩ := h
      exact ⟨[], x, rfl, hx, by simp⟩

theorem drawAll_suffix (acc : Nat → G → Option Nat) (ρs : List Nat) : ∀ {xs : List G} {rs : List Nat} {rest : List G},
    drawAll acc ρs xs = some (rs, rest) → ∃ used, xs = used ++ rest ∧ ρs.length ≤ used.length ∧
      ((∀ x ∈ used, ∀ ρ ∈ ρs, acc ρ x ≠ none) → used.length = ρs.length) := by
  induction ρs with
  | nil =>
    intro xs rs rest h
    simp only [drawAll, Option.some.injEq, Prod.mk.injEq] at h
    exact ⟨[], by simp [h.2]⟩
  | cons ρ ρs ih =>
    intro xs rs rest h
    simp only [drawAll] at h
    split at h
    · cases h
    · rename_i r mid h1
      split at h
      · cases h
      · rename_i rs' rest' h2
        simp only [Option.some.injEq, Prod.mk.injEq] at h
        obtain ⟨-, rfl⟩ := h
        obtain ⟨pre, x, rfl, hx, hpre⟩ := drawOne_suffix _ h1
        obtain ⟨used, rfl, hle, heq⟩ := ih h2
        refine ⟨pre ++ x :: used, by simp, by simp; omega, ?_⟩
        intro hall
        have hnil : pre = [] := by
          cases pre with
          | nil => rfl
          | cons y ys => exact absurd (hpre y (by simp)) (hall y (by simp) ρ (by simp))
        subst hnil
        have := heq (fun x hx ρ hρ => hall x (by simp [hx]) ρ (by simp [hρ]))
        simp [this]

theorem drawOne_append (acc : G → Option Nat) {xs : List G} (ys : List G) : ∀ {r : Nat} {rest : List G}, drawOne acc xs = some (r, rest) →
    drawOne acc (xs ++ ys) = some (r, rest ++ ys) := by
  induction xs with
  | nil => intro r rest h; cases h
  | cons x xs ih =>
    intro r rest h
    simp only [drawOne, List.cons_append] at h ⊢
    cases hx : acc x with
    | none => rw [hx] at h; exact ih h
    | some r' =>
      rw [hx] at h
      simp only [Option.some.injEq, Prod.mk.injEq] at h ⊢
      exact ⟨h.1, by rw [h.2]⟩

/-- Further values are left over. -/
theorem drawAll_append (acc : Nat → G → Option Nat) {ρs : List Nat} {ys : List G} : ∀ {xs : List G} {rs : List Nat} {rest : List G},
    drawAll acc ρs xs = some (rs, rest) → drawAll acc ρs (xs ++ ys) = some (rs, rest ++ ys) := by
  induction ρs with
  | nil =>
    intro xs rs rest h
    simp only [drawAll, Option.some.injEq, Prod.mk.injEq] at h ⊢
    exact ⟨h.1, by rw [h.2]⟩
  | cons ρ ρs ih =>
    intro xs rs rest h
    simp only [drawAll] at h ⊢
    split at h
    · cases h
    · rename_i r mid h1
      split at h
      · cases h
      · rename_i rs' rest' h2
        simp only [Option.some.injEq, Prod.mk.injEq] at h
        obtain ⟨rfl, rfl⟩ := h
        rw [drawOne_append _ ys h1]
        simp only [ih h2]

theorem drawOne_exchange (acc : G → Option Nat) {pre rest : List G} {r : Nat} (h : drawOne acc (pre ++ rest) = some (r, rest)) :
    drawOne acc pre = some (r, []) := by
  induction pre with
  | nil =>
    obtain ⟨pre, x, h1, -, -⟩ := drawOne_suffix _ h
    have := congrArg List.length h1
    simp only [List.nil_append, List.length_append, List.length_cons] at this
    omega
  | cons x xs ih =>
    simp only [drawOne, List.cons_append] at h ⊢
    cases hx : acc x with
    | none => rw [hx] at h; exact ih h
    | some r' =>
      rw [hx] at h
      simp only [Option.some.injEq, Prod.mk.injEq] at h ⊢
      exact ⟨h.1, by simpa using h.2⟩

/-- The values left over have no influence. -/
theorem drawAll_exchange (acc : Nat → G → Option Nat) {ρs : List Nat} {rest rest' : List G} : ∀ {used : List G} {rs : List Nat},
    drawAll acc ρs (used ++ rest) = some (rs, rest) → drawAll acc ρs (used ++ rest') = some (rs, rest') := by
  induction ρs with
  | nil =>
    intro used rs h
    simp only [drawAll, Option.some.injEq, Prod.mk.injEq] at h ⊢
    have : used = [] := by simpa using h.2
    exact ⟨h.1, by simp [this]⟩
  | cons ρ ρs ih =>
    intro used rs h
    simp only [drawAll] at h
    split at h
    · cases h
    · rename_i r mid h1
      split at h
      · cases h
      · rename_i rs' rest'' h2
        simp only [Option.some.injEq, Prod.mk.injEq] at h
        obtain ⟨rfl, rfl⟩ := h
        obtain ⟨pre, x, he, hx, hpre⟩ := drawOne_suffix _ h1
        obtain ⟨used2, rfl, -, -⟩ := drawAll_suffix _ _ h2
        have hu : used = pre ++ x :: used2 := by
          have : used ++ rest'' = (pre ++ x :: used2) ++ rest'' := by rw [he]; simp
          exact List.append_cancel_right this
        subst hu
        have h3 : drawOne (acc ρ) (pre ++ [x]) = some (r, []) := by
          apply drawOne_exchange (rest := used2 ++ rest'')
          rw [← h1]; congr 1; simp
        have h4 := drawOne_append _ (used2 ++ rest') h3
        simp only [drawAll]
        rw [show pre ++ x :: used2 ++ rest' = pre ++ [x] ++ (used2 ++ rest') by simp, h4]
        simp only [List.nil_append, ih h2]

/-- Results lie in their ranges. -/
theorem drawAll_valid (acc : Nat → G → Option Nat) (ρs : List Nat) (hlt : ∀ ρ ∈ ρs, ∀ x r, acc ρ x = some r → r < ρ) :
    ∀ {xs : List G} {rs : List Nat} {rest : List G}, drawAll acc ρs xs = some (rs, rest) → List.Forall₂ (· < ·) rs ρs := by
  induction ρs with
  | nil =>
    intro xs rs rest h
    simp only [drawAll, Option.some.injEq, Prod.mk.injEq] at h
    rw [← h.1]; exact .nil
  | cons ρ ρs ih =>
    intro xs rs rest h
    simp only [drawAll] at h
    split at h
    · cases h
    · rename_i r mid h1
      split at h
      · cases h
      · rename_i rs' rest' h2
        simp only [Option.some.injEq, Prod.mk.injEq] at h
        obtain ⟨rfl, -⟩ := h
        obtain ⟨pre, x, -, hx, -⟩ := drawOne_suffix _ h1
        exact .cons (hlt ρ (by simp) x r hx) (ih (fun ρ hρ => hlt ρ (by simp [hρ])) h2)

variable [Fintype G]

open Classical in
/-- Number of sequences of `L` values with a property. -/
noncomputable def count (L : Nat) (Q : List G → Prop) : Nat := (Finset.univ.filter (fun xs : Fin L → G => Q (List.ofFn xs))).card

theorem count_zero (Q : List G → Prop) : count 0 Q ≤ 1 := by
  classical
  unfold count
  refine (Finset.card_filter_le _ _).trans ?_
  simp

theorem count_succ (L : Nat) (Q : List G → Prop) : count (L + 1) Q = ∑ x : G, count L (fun xs => Q (x :: xs)) := by
  classical
  unfold count
  simp only [Finset.card_filter]
  rw [← (Fin.consEquiv (fun _ : Fin (L + 1) => G)).sum_comp, Fintype.sum_prod_type]
  refine Finset.sum_congr rfl (fun x _ => Finset.sum_congr rfl (fun ys _ => ?_))
  have : List.ofFn (Fin.consEquiv (fun _ : Fin (L + 1) => G) (x, ys)) = x :: List.ofFn ys := by
    rw [List.ofFn_succ]; simp [Fin.consEquiv]
  rw [this]

theorem count_congr {L : Nat} {Q R : List G → Prop} (h : ∀ xs, Q xs ↔ R xs) : count L Q = count L R := by
  have : Q = R := funext (fun xs => propext (h xs))
  rw [this]

theorem count_false {L : Nat} {Q : List G → Prop} (h : ∀ xs, ¬ Q xs) : count L Q = 0 := by
  classical
  unfold count
  rw [Finset.card_eq_zero, Finset.filter_eq_empty_iff]
  intro xs _; exact h _

theorem count_true (L : Nat) : count (G := G) L (fun _ => True) = Fintype.card G ^ L := by
  unfold count
  simp

theorem count_le (L : Nat) (Q : List G → Prop) : count L Q ≤ Fintype.card G ^ L := by
  classical
  unfold count
  refine (Finset.card_filter_le _ _).trans ?_
  simp

open Classical in
/-- Number of values rejected. -/
noncomputable def rejected (acc : Nat → G → Option Nat) (ρ : Nat) : Nat := (Finset.univ.filter (fun x => acc ρ x = none)).card

/-- Number of sequences of `L` values that give each result. -/
noncomputable def ways (acc : Nat → G → Option Nat) (q : Nat → Nat) : List Nat → Nat → Nat
  | [], L => Fintype.card G ^ L
  | _ :: _, 0 => 0
  | ρ :: ρs, L + 1 => rejected acc ρ * ways acc q (ρ :: ρs) L + q ρ * ways acc q ρs L
  termination_by ρs L => (L, ρs.length)

open Classical in
theorem count_draws (acc : Nat → G → Option Nat) (q : Nat → Nat) (L : Nat) : ∀ (ρs : List Nat),
    (∀ ρ ∈ ρs, ∀ r, r < ρ → (Finset.univ.filter (fun x : G => acc ρ x = some r)).card = q ρ) →
    ∀ rs, List.Forall₂ (· < ·) rs ρs → count L (fun xs => ∃ rest, drawAll acc ρs xs = some (rs, rest)) = ways acc q ρs L := by
  induction L with
  | zero =>
    intro ρs hq rs hv
    cases hv with
    | nil =>
      rw [ways, ← count_true]
      apply count_congr
      intro xs; simp [drawAll]
    | cons hr hv =>
      rw [ways]
      unfold count
      rw [Finset.card_eq_zero, Finset.filter_eq_empty_iff]
      intro xs _
      rintro ⟨rest, h⟩
      rw [List.ofFn_zero, drawAll_nil] at h
      cases h
  | succ L ih =>
    intro ρs hq rs hv
    cases hv with
    | nil =>
      rw [ways, ← count_true]
      apply count_congr
      intro xs; simp [drawAll]
    | @cons r ρ rs ρs hr hv =>
      rw [ways, count_succ]
      have hA := ih (ρ :: ρs) hq (r :: rs) (.cons hr hv)
      have hB := ih ρs (fun ρ hρ => hq ρ (by simp [hρ])) rs hv
      have key : ∀ x : G, count L (fun xs => ∃ rest, drawAll acc (ρ :: ρs) (x :: xs) = some (r :: rs, rest)) =
          (if acc ρ x = none then ways acc q (ρ :: ρs) L else 0) + (if acc ρ x = some r then ways acc q ρs L else 0) := by
        intro x
        cases hx : acc ρ x with
        | none =>
          simp only [drawAll_cons, hx, if_true, reduceCtorEq, if_false, Nat.add_zero]
          exact hA
        | some r' =>
          simp only [drawAll_cons, hx, reduceCtorEq, if_false, Nat.zero_add, Option.some.injEq]
          by_cases e : r' = r
          · subst e
            rw [if_pos rfl, ← hB]
            apply count_congr
            intro xs
            rcases drawAll acc ρs xs with _ | ⟨a, b⟩ <;> simp
          · rw [if_neg e]
            apply count_false
            rintro xs ⟨rest, h⟩
            cases hd : drawAll acc ρs xs <;> rw [hd] at h <;> simp at h
            exact e h.1.1
      rw [Finset.sum_congr rfl (fun x _ => key x), Finset.sum_add_distrib, ← Finset.sum_filter, ← Finset.sum_filter, Finset.sum_const, Finset.sum_const,
        smul_eq_mul, smul_eq_mul, hq ρ (by simp) r hr]
      rfl

/-- Sequences that are too short: they become rare. -/
theorem count_more (acc : Nat → G → Option Nat) (L : Nat) : ∀ (ρs : List Nat), (∀ ρ ∈ ρs, 2 * rejected acc ρ ≤ Fintype.card G) →
    count L (fun xs => drawAll acc ρs xs = none) * 4 ^ L ≤ 4 ^ ρs.length * (3 * Fintype.card G) ^ L := by
  classical
  induction L with
  | zero =>
    intro ρs _
    have := count_zero (G := G) (fun xs => drawAll acc ρs xs = none)
    have h4 : 1 ≤ 4 ^ ρs.length := Nat.one_le_pow _ _ (by norm_num)
    simp only [Nat.pow_zero, Nat.mul_one]
    omega
  | succ L ih =>
    intro ρs hq
    cases ρs with
    | nil =>
      rw [count_false (fun xs => by simp [drawAll])]
      simp
    | cons ρ ρs =>
      have hA := ih (ρ :: ρs) hq
      have hB := ih ρs (fun ρ hρ => hq ρ (by simp [hρ]))
      rw [count_succ]
      have key : ∀ x : G, count L (fun xs => drawAll acc (ρ :: ρs) (x :: xs) = none) =
          (if acc ρ x = none then count L (fun xs => drawAll acc (ρ :: ρs) xs = none) else 0) +
          (if ¬ acc ρ x = none then count L (fun xs => drawAll acc ρs xs = none) else 0) := by
        intro x
        cases hx : acc ρ x with
        | none => simp only [drawAll_cons, hx, if_true, not_true, if_false, Nat.add_zero]
        | some r' =>
          simp only [drawAll_cons, hx, reduceCtorEq, if_false, Nat.zero_add, not_false_eq_true, if_true]
          apply count_congr
          intro xs
          cases drawAll acc ρs xs <;> simp
      rw [Finset.sum_congr rfl (fun x _ => key x), Finset.sum_add_distrib, ← Finset.sum_filter, ← Finset.sum_filter, Finset.sum_const, Finset.sum_const,
        smul_eq_mul, smul_eq_mul]
      have hr : (Finset.univ.filter (fun x => acc ρ x = none)).card = rejected acc ρ := by
        unfold rejected; congr
      have hs : (Finset.univ.filter (fun x => ¬ acc ρ x = none)).card ≤ Fintype.card G := by
        refine (Finset.card_filter_le _ _).trans ?_
        rw [Finset.card_univ]
      rw [hr]
      have h2 := hq ρ (by simp)
      generalize count L (fun xs => drawAll acc (ρ :: ρs) xs = none) = a at *
      generalize count L (fun xs => drawAll acc ρs xs = none) = b at *
      generalize (Finset.univ.filter (fun x => ¬ acc ρ x = none)).card = c at *
      generalize rejected acc ρ = d at *
      generalize Fintype.card G = M at *
      simp only [List.length_cons] at hA ⊢
      have e1 : (d * a + c * b) * 4 ^ (L + 1) = 2 * (2 * d) * (a * 4 ^ L) + 4 * c * (b * 4 ^ L) := by ring
      have e2 : 4 ^ (ρs.length + 1) * (3 * M) ^ (L + 1) = 2 * M * (4 ^ (ρs.length + 1) * (3 * M) ^ L) + 4 * M * (4 ^ ρs.length * (3 * M) ^ L) := by ring
      rw [e1, e2]
      apply Nat.add_le_add
      · exact Nat.mul_le_mul (by omega) hA
      · exact Nat.mul_le_mul (by omega) hB

end

/-! ## Swaps -/

def swp (v : List Nat) (i j : Nat) : List Nat := (v.set i (v.getD j 0)).set j (v.getD i 0)

theorem iterSwap_eq {v : List Nat} {i j : Nat} (hi : i < v.length) (hj : j < v.length) : iterSwap v i j = .ok (swp v i j) := by
  simp [iterSwap, swp, hi, hj]

theorem swp_length (v : List Nat) (i j : Nat) : (swp v i j).length = v.length := by simp [swp]

theorem swp_getElem? {v : List Nat} {i j : Nat} (hi : i < v.length) (hj : j < v.length) (k : Nat) :
    (swp v i j)[k]? = if k = j then v[i]? else if k = i then v[j]? else v[k]? := by
  unfold swp
  rw [List.getElem?_set, List.getElem?_set]
  by_cases h1 : j = k
  · subst h1; simp [hi, hj]
  · by_cases h2 : i = k
    · subst h2; simp [hi, hj, h1, Ne.symm h1]
    · simp [h1, h2, Ne.symm h1, Ne.symm h2]

theorem swp_perm {v : List Nat} {i j : Nat} (hi : i < v.length) (hj : j < v.length) : (swp v i j).Perm v := by
  have := List.set_set_perm hi hj
  simpa [swp, hi, hj] using this

theorem swp_swp {v : List Nat} {i j : Nat} (hi : i < v.length) (hj : j < v.length) : swp (swp v i j) i j = v := by
  apply List.ext_getElem?
  intro k
  have l := swp_length v i j
  rw [swp_getElem? (by omega) (by omega), swp_getElem? hi hj, swp_getElem? hi hj, swp_getElem? hi hj]
  by_cases h1 : k = j
  · subst h1
    by_cases h2 : i = k <;> simp [h2]
  · by_cases h2 : k = i
    · subst h2; simp [h1]
    · simp [h1, h2]

/-- Swaps of the positions `i`, `i + 1`, ... with the positions `cs`. -/
def applySwaps (v : List Nat) : Nat → List Nat → List Nat
  | _, [] => v
  | i, c :: cs => applySwaps (swp v i c) (i + 1) cs

/-- The positions are not beyond the one they are swapped with. -/
def ValidFrom : Nat → List Nat → Prop
  | _, [] => True
  | i, c :: cs => c ≤ i ∧ ValidFrom (i + 1) cs

theorem validFrom_append (cs : List Nat) : ∀ (i : Nat) (ds : List Nat), ValidFrom i (cs ++ ds) ↔ ValidFrom i cs ∧ ValidFrom (i + cs.length) ds := by
  induction cs with
  | nil => intro i ds; simp [ValidFrom]
  | cons c cs ih =>
    intro i ds
    simp only [List.cons_append, ValidFrom, ih, List.length_cons, and_assoc]
    rw [show i + 1 + cs.length = i + (cs.length + 1) by omega]

theorem applySwaps_append (cs : List Nat) : ∀ (v : List Nat) (i : Nat) (ds : List Nat),
    applySwaps v i (cs ++ ds) = applySwaps (applySwaps v i cs) (i + cs.length) ds := by
  induction cs with
  | nil => intro v i ds; rfl
  | cons c cs ih =>
    intro v i ds
    simp only [List.cons_append, applySwaps, ih, List.length_cons]
    rw [show i + 1 + cs.length = i + (cs.length + 1) by omega]

theorem applySwaps_facts (cs : List Nat) : ∀ (v : List Nat) (i : Nat), ValidFrom i cs → i + cs.length ≤ v.length →
    (applySwaps v i cs).Perm v ∧ ∀ k, i + cs.length ≤ k → (applySwaps v i cs)[k]? = v[k]? := by
  induction cs with
  | nil => intro v i _ _; exact ⟨List.Perm.refl _, fun _ _ => rfl⟩
  | cons c cs ih =>
    intro v i hv hl
    simp only [List.length_cons] at hl ⊢
    obtain ⟨h1, h2⟩ := hv
    obtain ⟨a, b⟩ := ih (swp v i c) (i + 1) h2 (by rw [swp_length]; omega)
    refine ⟨a.trans (swp_perm (by omega) (by omega)), ?_⟩
    intro k hk
    simp only [applySwaps]
    rw [b k (by omega), swp_getElem? (by omega) (by omega), if_neg (by omega), if_neg (by omega)]

/-- Every order of a list without repetitions is reached by exactly one choice of positions. -/
theorem swaps_unique {v : List Nat} (hnd : v.Nodup) : ∀ (t : Nat), t + 1 ≤ v.length → ∀ w : List Nat, w.Perm v → (∀ k, t + 1 ≤ k → w[k]? = v[k]?) →
    ∃! cs : List Nat, cs.length = t ∧ ValidFrom 1 cs ∧ applySwaps v 1 cs = w := by
  intro t
  induction t with
  | zero =>
    intro ht w hp hw
    have hwv : w = v := by
      cases v with
      | nil => exact hp.eq_nil
      | cons a v =>
        cases w with
        | nil => exact absurd hp.length_eq (by simp)
        | cons b w =>
          have hwt : w = v := by
            apply List.ext_getElem?
            intro k
            have := hw (k + 1) (by omega)
            simpa using this
          subst hwt
          have : ([b] ++ w).Perm ([a] ++ w) := hp
          rw [List.perm_append_right_iff] at this
          rw [List.singleton_perm_singleton.mp this]
    refine ⟨[], ⟨rfl, trivial, hwv.symm⟩, ?_⟩
    rintro cs ⟨h, -, -⟩
    exact List.length_eq_zero_iff.mp h
  | succ t ih =>
    intro ht w hp hw
    have hlen := hp.length_eq
    have hwnd : w.Nodup := hp.nodup_iff.mpr hnd
    -- where the element of position `t + 1` went
    have hmem : v[t + 1]'(by omega) ∈ w := hp.symm.subset (List.getElem_mem _)
    obtain ⟨c, hcl, hc⟩ := List.getElem_of_mem hmem
    have hct : c ≤ t + 1 := by
      by_contra hlt
      have h1 := hw c (by omega)
      rw [List.getElem?_eq_getElem hcl, List.getElem?_eq_getElem (by omega), Option.some.injEq, hc] at h1
      have := (hnd.getElem_inj_iff).mp h1
      omega
    have hu : (swp w (t + 1) c).Perm v := (swp_perm (by omega) (by omega)).trans hp
    have hagree : ∀ k, t + 1 ≤ k → (swp w (t + 1) c)[k]? = v[k]? := by
      intro k hk
      rw [swp_getElem? (by omega) (by omega)]
      have hvk : w[c]? = v[t + 1]? := by
        rw [List.getElem?_eq_getElem hcl, List.getElem?_eq_getElem (by omega), hc]
      by_cases h1 : k = c
      · have : c = t + 1 := by omega
        subst h1 this
        rw [if_pos rfl, hvk]
      · rw [if_neg h1]
        by_cases h2 : k = t + 1
        · subst h2; rw [if_pos rfl, hvk]
        · rw [if_neg h2, hw k (by omega)]
    obtain ⟨cs, ⟨hcs1, hcs2, hcs3⟩, huniq⟩ := ih (by omega) _ hu hagree
    refine ⟨cs ++ [c], ⟨by simp [hcs1], ?_, ?_⟩, ?_⟩
    · rw [validFrom_append]
      refine ⟨hcs2, ?_, trivial⟩
      omega
    · rw [applySwaps_append, hcs3, hcs1]
      simp only [applySwaps]
      rw [Nat.add_comm 1 t]
      exact swp_swp (by omega) (by omega)
    · rintro es ⟨he1, he2, he3⟩
      obtain ⟨ds, d, rfl⟩ : ∃ ds d, es = ds ++ [d] := by
        rcases List.eq_nil_or_concat es with h | ⟨ds, d, h⟩
        · subst h; simp at he1
        · exact ⟨ds, d, by simpa using h⟩
      have hdl : ds.length = t := by simpa using he1
      rw [validFrom_append] at he2
      obtain ⟨hd1, hd2, -⟩ := he2
      rw [hdl] at hd2
      rw [applySwaps_append, hdl] at he3
      simp only [applySwaps] at he3
      obtain ⟨hp', hfar⟩ := applySwaps_facts ds v 1 hd1 (by omega)
      rw [hdl] at hfar
      have hl' := hp'.length_eq
      generalize hrun : applySwaps v 1 ds = u at *
      rw [Nat.add_comm 1 t] at *
      -- the position is determined
      have hd : d = c := by
        have h1 : w[d]? = v[t + 1]? := by
          rw [← he3, swp_getElem? (by omega) (by omega), if_pos rfl, hfar _ (le_refl _)]
        rw [List.getElem?_eq_getElem (by omega), List.getElem?_eq_getElem (by omega), Option.some.injEq, ← hc] at h1
        exact (hwnd.getElem_inj_iff).mp h1
      subst hd
      have : u = swp w (t + 1) d := by rw [← he3]; exact (swp_swp (by omega) (by omega)).symm
      rw [huniq ds ⟨hdl, hd1, hrun.trans this⟩]

/-! ## The draws of the shuffle -/

/-- Numbers of values drawn from, for `k` pairs from position `i` on. -/
def pairRanges : Nat → Nat → List Nat
  | 0, _ => []
  | k + 1, i => (i + 1) * (i + 2) :: pairRanges k (i + 2)

/-- Positions chosen by these draws. -/
def pairDecode : Nat → List Nat → List Nat
  | _, [] => []
  | i, x :: xs => x / (i + 2) :: x % (i + 2) :: pairDecode (i + 2) xs

/-- Numbers of values drawn from when a table of `n` entries is shuffled. -/
def ranges (n : Nat) : List Nat := if n % 2 = 0 then (if n = 0 then [] else 2 :: pairRanges (n / 2 - 1) 2) else pairRanges (n / 2) 1

def decode (n : Nat) (rs : List Nat) : List Nat :=
  if n % 2 = 0 then
    match rs with
    | [] => []
    | r :: rs => r :: pairDecode 2 rs
  else pairDecode 1 rs

theorem pairRanges_length (k : Nat) : ∀ i, (pairRanges k i).length = k := by
  induction k with
  | zero => intro i; rfl
  | succ k ih => intro i; simp [pairRanges, ih]

theorem ranges_length (n : Nat) : (ranges n).length = n / 2 := by
  unfold ranges
  split
  · split
    · subst_vars; rfl
    · simp [pairRanges_length]; omega
  · exact pairRanges_length _ _

theorem pairRanges_bounds (k : Nat) : ∀ i N, i + 2 * k ≤ N → ∀ ρ ∈ pairRanges k i, 0 < ρ ∧ ρ ≤ (N - 1) * N := by
  induction k with
  | zero => intro i N _ ρ h; cases h
  | succ k ih =>
    intro i N h ρ hρ
    rcases List.mem_cons.mp hρ with rfl | hρ
    · exact ⟨Nat.mul_pos (by omega) (by omega), Nat.mul_le_mul (by omega) (by omega)⟩
    · exact ih (i + 2) N (by omega) ρ hρ

theorem ranges_bounds {n : Nat} (h : n < 2 ^ 16) : ∀ ρ ∈ ranges n, 0 < ρ ∧ ρ < 2 ^ 32 := by
  have hb : (n - 1) * n < 2 ^ 32 := by
    calc (n - 1) * n ≤ (2 ^ 16 - 1) * (2 ^ 16 - 1) := Nat.mul_le_mul (by omega) (by omega)
      _ < 2 ^ 32 := by norm_num
  intro ρ hρ
  unfold ranges at hρ
  split at hρ
  · split at hρ
    · cases hρ
    · rcases List.mem_cons.mp hρ with rfl | hρ
      · norm_num
      · have := pairRanges_bounds _ 2 n (by omega) ρ hρ
        omega
  · have := pairRanges_bounds _ 1 n (by omega) ρ hρ
    omega

theorem pairDecode_valid (k : Nat) : ∀ (i : Nat) (rs : List Nat), List.Forall₂ (· < ·) rs (pairRanges k i) →
    (pairDecode i rs).length = 2 * k ∧ ValidFrom i (pairDecode i rs) := by
  induction k with
  | zero => intro i rs h; cases h; exact ⟨rfl, trivial⟩
  | succ k ih =>
    intro i rs h
    cases h with
    | @cons r _ rs _ hr hv =>
      obtain ⟨h1, h2⟩ := ih (i + 2) rs hv
      refine ⟨by simp [pairDecode, h1]; omega, ?_, ?_, h2⟩
      · have : r / (i + 2) < i + 1 := by
          rw [Nat.div_lt_iff_lt_mul (by omega)]; exact hr
        omega
      · have : r % (i + 2) < i + 2 := Nat.mod_lt _ (by omega)
        omega

theorem pairDecode_unique (k : Nat) : ∀ (i : Nat) (cs : List Nat), cs.length = 2 * k → ValidFrom i cs →
    ∃! rs : List Nat, List.Forall₂ (· < ·) rs (pairRanges k i) ∧ pairDecode i rs = cs := by
  induction k with
  | zero =>
    intro i cs hl _
    have : cs = [] := List.length_eq_zero_iff.mp hl
    subst this
    refine ⟨[], ⟨.nil, rfl⟩, ?_⟩
    rintro rs ⟨h, -⟩
    cases h; rfl
  | succ k ih =>
    intro i cs hl hv
    match cs, hl, hv with
    | a :: b :: cs, hl, hv =>
      obtain ⟨ha, hb, hv⟩ := hv
      obtain ⟨rs, ⟨h1, h2⟩, hu⟩ := ih (i + 2) cs (by simp only [List.length_cons] at hl; omega) hv
      have hdiv : (a * (i + 2) + b) / (i + 2) = a := by
        rw [Nat.mul_comm, Nat.mul_add_div (by omega), Nat.div_eq_of_lt (by omega), Nat.add_zero]
      have hmod : (a * (i + 2) + b) % (i + 2) = b := by
        rw [Nat.mul_comm, Nat.mul_add_mod, Nat.mod_eq_of_lt (by omega)]
      refine ⟨(a * (i + 2) + b) :: rs, ⟨.cons ?_ h1, ?_⟩, ?_⟩
      · have : (a + 1) * (i + 2) ≤ (i + 1) * (i + 2) := Nat.mul_le_mul_right _ (by omega)
        have e : (a + 1) * (i + 2) = a * (i + 2) + (i + 2) := by ring
        omega
      · simp only [pairDecode, hdiv, hmod, h2]
      · rintro es ⟨h3, h4⟩
        cases h3 with
        | @cons x _ es _ hx hes =>
          simp only [pairDecode, List.cons.injEq] at h4
          obtain ⟨e1, e2, e3⟩ := h4
          rw [hu es ⟨hes, e3⟩]
          have := Nat.div_add_mod x (i + 2)
          rw [e1, e2] at this
          rw [← this, Nat.mul_comm]

theorem decode_valid {n : Nat} (hn : 0 < n) {rs : List Nat} (h : List.Forall₂ (· < ·) rs (ranges n)) :
    (decode n rs).length = n - 1 ∧ ValidFrom 1 (decode n rs) := by
  unfold ranges at h
  unfold decode
  split at h
  · rw [if_neg (by omega)] at h
    rename_i he
    rw [if_pos he]
    cases h with
    | @cons r _ rs _ hr hv =>
      obtain ⟨h1, h2⟩ := pairDecode_valid _ _ _ hv
      exact ⟨by simp [h1]; omega, by omega, h2⟩
  · rename_i he
    rw [if_neg he]
    obtain ⟨h1, h2⟩ := pairDecode_valid _ _ _ h
    exact ⟨by rw [h1]; omega, h2⟩

theorem decode_unique {n : Nat} (hn : 0 < n) {cs : List Nat} (hl : cs.length = n - 1) (hv : ValidFrom 1 cs) :
    ∃! rs : List Nat, List.Forall₂ (· < ·) rs (ranges n) ∧ decode n rs = cs := by
  unfold ranges decode
  by_cases he : n % 2 = 0
  · simp only [if_pos he]
    rw [if_neg (by omega)]
    match cs, hl, hv with
    | c :: cs, hl, hv =>
      obtain ⟨hc, hv⟩ := hv
      obtain ⟨rs, ⟨h1, h2⟩, hu⟩ := pairDecode_unique (n / 2 - 1) 2 cs (by simp only [List.length_cons] at hl; omega) hv
      refine ⟨c :: rs, ⟨.cons (by omega) h1, by simp [h2]⟩, ?_⟩
      rintro es ⟨h3, h4⟩
      cases h3 with
      | @cons x _ es _ hx hes =>
        simp only [List.cons.injEq] at h4
        rw [hu es ⟨hes, h4.2⟩, h4.1]
    | [], hl, hv => simp only [List.length_nil] at hl; omega
  · simp only [if_neg he]
    exact pairDecode_unique (n / 2) 1 cs (by omega) hv

/-- The draw belonging to a list of draws, with the table they lead to. -/
def finish (v : List Nat) (i : Nat) (dec : List Nat → List Nat) : Option (List Nat × List UInt32) → Draw (List Nat)
  | none => .more
  | some (rs, rest) => .done (applySwaps v i (dec rs)) rest

theorem pairLoop_eq (m : Method) (k : Nat) : ∀ (i : Nat) (v : List Nat) (xs : List UInt32), i + 2 * k = v.length → v.length < 2 ^ 16 →
    pairLoop m (2 * k) i v xs = finish v i (pairDecode i) (drawAll (accept m) (pairRanges k i) xs) := by
  induction k with
  | zero => intro i v xs _ _; rfl
  | succ k ih =>
    intro i v xs hl hb
    have hρ : 0 < (i + 1) * (i + 2) := Nat.mul_pos (by omega) (by omega)
    have hρ' : (i + 1) * (i + 2) < 2 ^ 32 := by
      calc (i + 1) * (i + 2) ≤ (2 ^ 16 - 1) * (2 ^ 16 - 1) := Nat.mul_le_mul (by omega) (by omega)
        _ < 2 ^ 32 := by norm_num
    rw [show 2 * (k + 1) = 2 * k + 2 by ring]
    simp only [pairLoop, pairRanges, drawAll]
    rw [show i + 1 + 1 = i + 2 by omega, uniformInt_eq m hρ hρ']
    cases hd : drawOne (accept m ((i + 1) * (i + 2))) xs with
    | none => rfl
    | some p =>
      obtain ⟨r, rest⟩ := p
      obtain ⟨_, x, -, hx, -⟩ := drawOne_suffix _ hd
      have hr := accept_lt m hρ hx
      have h1 : r / (i + 2) < i + 1 := by
        rw [Nat.div_lt_iff_lt_mul (by omega)]; exact hr
      have h2 : r % (i + 2) < i + 2 := Nat.mod_lt _ (by omega)
      simp only [toDraw, Draw.bind]
      rw [iterSwap_eq (by omega) (by omega)]
      simp only [afterSwap]
      rw [iterSwap_eq (by rw [swp_length]; omega) (by rw [swp_length]; omega)]
      simp only
      rw [ih (i + 2) _ rest (by simp only [swp_length]; omega) (by simp only [swp_length]; omega)]
      cases drawAll (accept m) (pairRanges k (i + 2)) rest with
      | none => rfl
      | some p => rfl

/-- What the shuffle of a table of less than 65536 entries does. -/
theorem shuffle_eq (m : Method) {v : List Nat} (hb : v.length < 2 ^ 16) (xs : List UInt32) :
    shuffle m v xs = finish v 1 (decode v.length) (drawAll (accept m) (ranges v.length) xs) := by
  unfold shuffle
  by_cases h0 : v.length = 0
  · have : v = [] := List.length_eq_zero_iff.mp h0
    subst this
    rfl
  rw [if_neg h0]
  have hG : genMax - genMin = 2 ^ 32 - 1 := rfl
  have hbig : (genMax - genMin) / v.length ≥ v.length := by
    rw [hG, ge_iff_le, Nat.le_div_iff_mul_le (by omega)]
    calc v.length * v.length ≤ (2 ^ 16 - 1) * (2 ^ 16 - 1) := Nat.mul_le_mul (by omega) (by omega)
      _ ≤ 2 ^ 32 - 1 := by norm_num
  rw [if_pos hbig]
  unfold ranges
  have hdec : decode v.length = fun rs => decode v.length rs := rfl
  rw [hdec]
  unfold decode
  by_cases he : v.length % 2 = 0
  · simp only [if_pos he, if_neg h0, drawAll]
    rw [show (1 : Nat) = 2 - 1 by rfl, uniformInt_eq m (by norm_num : 0 < 2) (by norm_num)]
    cases hd : drawOne (accept m 2) xs with
    | none => rfl
    | some p =>
      obtain ⟨r, rest⟩ := p
      obtain ⟨_, x, -, hx, -⟩ := drawOne_suffix _ hd
      have hr := accept_lt m (by norm_num) hx
      simp only [toDraw, Draw.bind]
      rw [iterSwap_eq (by omega) (by omega)]
      simp only [afterSwap, swp_length]
      rw [show v.length - 2 = 2 * (v.length / 2 - 1) by omega, pairLoop_eq m _ 2 _ rest (by simp only [swp_length]; omega) (by simp only [swp_length]; omega)]
      cases drawAll (accept m) (pairRanges (v.length / 2 - 1) 2) rest with
      | none => rfl
      | some p => rfl
  · simp only [if_neg he]
    rw [show v.length - 1 = 2 * (v.length / 2) by omega, pairLoop_eq m _ 1 _ xs (by omega) hb]

/-! ## Counting sequences of values -/

theorem card_gen : Fintype.card UInt32 = 2 ^ 32 := by
  have := card_uint32 (fun _ => True)
  rw [Finset.filter_true_of_mem (fun _ _ => trivial), Finset.filter_true_of_mem (fun _ _ => trivial), Finset.card_range, Finset.card_univ] at this
  exact this

theorem rejected_add (m : Method) {ρ : Nat} (h0 : 0 < ρ) (hρ : ρ < 2 ^ 32) : rejected (accept m) ρ + ρ * share m ρ = 2 ^ 32 := by
  classical
  have h := Finset.card_eq_sum_card_fiberwise (s := (Finset.univ : Finset UInt32)) (t := insert none ((Finset.range ρ).image some))
    (f := fun x => accept m ρ x) (by
      intro x _
      simp only [Finset.coe_insert, Set.mem_insert_iff, Finset.coe_image, Set.mem_image, Finset.coe_range, Set.mem_Iio]
      cases hx : accept m ρ x with
      | none => exact Or.inl rfl
      | some r => exact Or.inr ⟨r, accept_lt m h0 hx, rfl⟩)
  rw [Finset.card_univ, card_gen, Finset.sum_insert (by simp), Finset.sum_image (by intro a _ b _ h; exact Option.some.inj h)] at h
  rw [h]
  have : ∀ r ∈ Finset.range ρ, (Finset.univ.filter (fun x : UInt32 => accept m ρ x = some r)).card = share m ρ :=
    fun r hr => accept_fair m hρ (Finset.mem_range.mp hr)
  rw [Finset.sum_congr rfl this, Finset.sum_const, Finset.card_range, smul_eq_mul]
  unfold rejected
  congr

theorem share_pos (m : Method) {ρ : Nat} (h0 : 0 < ρ) (hρ : ρ < 2 ^ 32) : 0 < share m ρ := by
  cases m with
  | multiply => exact Nat.div_pos (by omega) h0
  | divide => exact Nat.div_pos (by omega) h0

theorem rejected_le (m : Method) {ρ : Nat} (h0 : 0 < ρ) (hρ : ρ < 2 ^ 32) : 2 * rejected (accept m) ρ ≤ Fintype.card UInt32 := by
  have h := rejected_add m h0 hρ
  have hp := share_pos m h0 hρ
  rw [card_gen]
  have hle : ρ ≤ ρ * share m ρ := Nat.le_mul_of_pos_right _ hp
  have hrej : rejected (accept m) ρ ≤ ρ := by
    cases m with
    | multiply =>
      have := Nat.div_add_mod (2 ^ 32) ρ
      have := Nat.mod_lt (2 ^ 32) h0
      simp only [share] at h
      omega
    | divide =>
      have := Nat.div_add_mod (2 ^ 32 - 1) ρ
      have := Nat.mod_lt (2 ^ 32 - 1) h0
      simp only [share] at h
      omega
  omega

theorem ways_pos {G : Type} [Fintype G] [Nonempty G] (acc : Nat → G → Option Nat) (q : Nat → Nat) (L : Nat) : ∀ (ρs : List Nat), (∀ ρ ∈ ρs, 0 < q ρ) →
    ρs.length ≤ L → 0 < ways acc q ρs L := by
  induction L with
  | zero =>
    intro ρs _ h
    have : ρs = [] := List.length_eq_zero_iff.mp (by omega)
    subst this
    rw [ways]; simp
  | succ L ih =>
    intro ρs hq h
    cases ρs with
    | nil => rw [ways]; exact Nat.pow_pos Fintype.card_pos
    | cons ρ ρs =>
      rw [ways]
      have h1 := ih ρs (fun ρ hρ => hq ρ (by simp [hρ])) (by simpa using h)
      have h2 := Nat.mul_pos (hq ρ (by simp)) h1
      omega

/-- Every order is the result of equally many sequences. -/
theorem count_shuffle (m : Method) {v w : List Nat} (hnd : v.Nodup) (hb : v.length < 2 ^ 16) (hw : w.Perm v) (L : Nat) :
    count L (fun xs => ∃ rest, shuffle m v xs = .done w rest) = ways (accept m) (share m) (ranges v.length) L := by
  classical
  rcases Nat.eq_zero_or_pos v.length with h0 | h0
  · have : v = [] := List.length_eq_zero_iff.mp h0
    subst this
    have : w = [] := hw.eq_nil
    subst this
    have e : ranges ([] : List Nat).length = [] := rfl
    rw [e, ways, ← count_true]
    apply count_congr
    intro xs
    simp [shuffle]
  · obtain ⟨cs, ⟨c1, c2, c3⟩, cu⟩ := swaps_unique hnd (v.length - 1) (by omega) w hw (fun k hk => by
      rw [List.getElem?_eq_none (by rw [hw.length_eq]; omega), List.getElem?_eq_none (by omega)])
    obtain ⟨rs, ⟨r1, r2⟩, ru⟩ := decode_unique h0 c1 c2
    rw [← count_draws (accept m) (share m) L (ranges v.length) (fun ρ hρ r hr => by
      rw [← accept_fair m (ranges_bounds hb ρ hρ).2 hr]) rs r1]
    apply count_congr
    intro xs
    rw [shuffle_eq m hb]
    rcases hd : drawAll (accept m) (ranges v.length) xs with _ | ⟨rs', rest'⟩
    · simp [finish]
    · simp only [finish, Draw.done.injEq, Option.some.injEq, Prod.mk.injEq]
      constructor
      · rintro ⟨rest, h1, rfl⟩
        have hv := drawAll_valid (accept m) _ (fun ρ hρ x r hx => accept_lt m (ranges_bounds hb ρ hρ).1 hx) hd
        obtain ⟨d1, d2⟩ := decode_valid h0 hv
        have := cu _ ⟨d1, d2, h1⟩
        exact ⟨_, ru rs' ⟨hv, this⟩, rfl⟩
      · rintro ⟨rest, rfl, rfl⟩
        exact ⟨_, by rw [r2, c3], rfl⟩

theorem count_unfinished (m : Method) {v : List Nat} (hb : v.length < 2 ^ 16) (L : Nat) :
    count L (fun xs => shuffle m v xs = .more) * 4 ^ L ≤ 4 ^ (v.length / 2) * (3 * 2 ^ 32) ^ L := by
  have := count_more (accept m) L (ranges v.length) (fun ρ hρ => rejected_le m (ranges_bounds hb ρ hρ).1 (ranges_bounds hb ρ hρ).2)
  rw [ranges_length, card_gen] at this
  refine le_trans (le_of_eq ?_) this
  congr 1
  apply count_congr
  intro xs
  rw [shuffle_eq m hb]
  rcases drawAll (accept m) (ranges v.length) xs with _ | ⟨rs', rest'⟩ <;> simp [finish]

end Crdsa
end Icarus
