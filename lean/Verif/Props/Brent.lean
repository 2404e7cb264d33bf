import Verif.Model.Brent
import Verif.Props.Search
import Mathlib.Analysis.Real.Pi.Bounds
import Mathlib.Analysis.SpecialFunctions.Trigonometric.Bounds

/-!
# What the search finds with Brent's method (exact real arithmetic)
-/

set_option autoImplicit false

namespace Icarus
namespace Orbit

open Real

/-! ## One iteration -/

theorem sameSign_comm {x y : ℝ} : SameSign x y ↔ SameSign y x := by unfold SameSign; tauto

theorem sameSign_trans {x y z : ℝ} (h1 : SameSign x y) (h2 : SameSign y z) : SameSign x z := by
  unfold SameSign at *
  rcases h1 with ⟨a, b⟩ | ⟨a, b⟩ <;> rcases h2 with ⟨c, d⟩ | ⟨c, d⟩
  · exact .inl ⟨a, d⟩
  · linarith
  · linarith
  · exact .inr ⟨a, d⟩

theorem not_sameSign {x y : ℝ} : ¬ SameSign x y ↔ (x ≤ 0 ∧ 0 ≤ y) ∨ (0 ≤ x ∧ y ≤ 0) := by
  unfold SameSign
  constructor
  · intro h
    push Not at h
    rcases lt_trichotomy x 0 with hx | hx | hx
    · exact .inl ⟨hx.le, h.1 hx⟩
    · rcases le_total y 0 with hy | hy
      · exact .inr ⟨hx.ge, hy⟩
      · exact .inl ⟨hx.le, hy⟩
    · exact .inr ⟨hx.le, h.2 hx⟩
  · rintro h (⟨a, b⟩ | ⟨a, b⟩) <;> rcases h with ⟨c, d⟩ | ⟨c, d⟩ <;> linarith

/-- The points of the state lie in the interval (`a` only if it may be taken for `c`), and the stored values are those of the function. -/
structure Inside (f : ℝ → ℝ) (lo hi : ℝ) (s : Brent) : Prop where
  a : SameSign s.fb s.fc → lo ≤ s.a ∧ s.a ≤ hi
  b : lo ≤ s.b ∧ s.b ≤ hi
  c : lo ≤ s.c ∧ s.c ≤ hi
  fa : s.fa = f s.a
  fb : s.fb = f s.b
  fc : s.fc = f s.c

theorem Inside.start {f : ℝ → ℝ} {lo hi : ℝ} (h : lo ≤ hi) : Inside f lo hi (.start f lo hi) :=
  ⟨fun _ => ⟨le_refl _, h⟩, ⟨h, le_refl _⟩, ⟨h, le_refl _⟩, rfl, rfl, rfl⟩

theorem Inside.sides {f : ℝ → ℝ} {lo hi : ℝ} {s : Brent} (h : Inside f lo hi s) : Inside f lo hi s.sides.1 := by
  unfold Brent.sides
  split
  · rename_i hs
    exact ⟨fun _ => h.a hs, h.b, h.a hs, h.fa, h.fb, h.fa⟩
  · exact h

theorem Inside.better {f : ℝ → ℝ} {lo hi : ℝ} {s : Brent × Bool} (h : Inside f lo hi s.1) : Inside f lo hi (Brent.better s).1 := by
  unfold Brent.better
  split
  · exact ⟨fun _ => h.b, h.c, h.b, h.fb, h.fc, h.fb⟩
  · exact h

theorem better_le (s : Brent × Bool) : |(Brent.better s).1.fb| ≤ |(Brent.better s).1.fc| := by
  unfold Brent.better
  split
  · rename_i h; exact h.le
  · rename_i h; exact not_lt.mp h

theorem tol_nonneg (s : Brent) : 0 ≤ s.tol := by unfold Brent.tol; positivity

/-- The step is taken towards `c` and covers at most three quarters of the way; nothing is divided by zero. -/
theorem choose_ok {n : Brent} (acEqual : Bool) (hle : |n.fb| ≤ |n.fc|) (h0 : n.fb ≠ 0) :
    ∃ d e, n.choose acEqual = .ok (d, e) ∧ ∃ l, 0 ≤ l ∧ l ≤ 3 / 2 ∧ d = l * n.mid := by
  unfold Brent.choose
  by_cases hb : |n.e| < n.tol ∨ |n.fa| ≤ |n.fb|
  · rw [if_pos hb]
    exact ⟨_, _, rfl, 1, by norm_num, by norm_num, by ring⟩
  · rw [if_neg hb]
    push Not at hb
    have hfb : 0 < |n.fb| := abs_pos.mpr h0
    have hfa : n.fa ≠ 0 := by
      intro h
      rw [h, abs_zero] at hb
      linarith [hb.2]
    have hfc : n.fc ≠ 0 := by
      intro h
      rw [h, abs_zero] at hle
      linarith
    obtain ⟨⟨p, q⟩, hr⟩ : ∃ pq, n.ratio acEqual = .ok pq := by
      unfold Brent.ratio
      cases acEqual <;> simp [cdiv, hfa, hfc]
    rw [hr]
    simp only [Outcome.bind_ok]
    obtain ⟨p', q', hpq, hp⟩ : ∃ p' q', (if 0 < p then (p, -q) else (-p, q)) = (p', q') ∧ 0 ≤ p' := by
      split
      · rename_i h; exact ⟨_, _, rfl, h.le⟩
      · rename_i h; exact ⟨_, _, rfl, by linarith⟩
    rw [hpq]
    simp only
    by_cases hlt : 2 * p' < min (3 * n.mid * q' - |n.tol * q'|) |n.e * q'|
    · rw [if_pos hlt]
      have h3 : 2 * p' < 3 * (n.mid * q') := by
        have := lt_of_lt_of_le hlt (min_le_left _ _)
        have := abs_nonneg (n.tol * q')
        linarith
      have hq : q' ≠ 0 := by
        rintro rfl
        simp at h3
        linarith
      refine ⟨p' / q', n.d, by simp [cdiv, hq], p' / (n.mid * q'), ?_, ?_, ?_⟩
      · exact div_nonneg hp (by linarith)
      · rw [div_le_iff₀ (by linarith)]; linarith
      · have hm : n.mid ≠ 0 := by
          intro h
          rw [h] at h3
          simp at h3
          linarith
        field_simp
    · rw [if_neg hlt]
      exact ⟨_, _, rfl, 1, by norm_num, by norm_num, by ring⟩

theorem bracket_spec (b c : ℝ) : (bracket b c).root = b ∧ (bracket b c).lower = min b c ∧ (bracket b c).upper = max b c := by
  unfold bracket
  split
  · rename_i h; exact ⟨rfl, (min_eq_left h.le).symm, (max_eq_right h.le).symm⟩
  · rename_i h; exact ⟨rfl, (min_eq_right (not_lt.mp h)).symm, (max_eq_left (not_lt.mp h)).symm⟩

/-- The bracket has the root among its ends and lies in the interval. -/
structure Within (lo hi : ℝ) (b : Bracket) : Prop where
  lower : lo ≤ b.lower
  root : b.lower ≤ b.root ∧ b.root ≤ b.upper
  upper : b.upper ≤ hi

theorem within_bracket {lo hi b c : ℝ} (hb : lo ≤ b ∧ b ≤ hi) (hc : lo ≤ c ∧ c ≤ hi) : Within lo hi (bracket b c) := by
  obtain ⟨h1, h2, h3⟩ := bracket_spec b c
  exact ⟨by rw [h2]; exact le_min hb.1 hc.1, by rw [h1, h2, h3]; exact ⟨min_le_left _ _, le_max_left _ _⟩, by rw [h3]; exact max_le hb.2 hc.2⟩

theorem iterate_ok {f : ℝ → ℝ} {lo hi : ℝ} {s : Brent} (h : Inside f lo hi s) :
    ∃ s' br, s.iterate f = .ok (s', br) ∧ Inside f lo hi s' ∧ Within lo hi br := by
  have hn : Inside f lo hi (Brent.better s.sides).1 := h.sides.better
  have hle := better_le s.sides
  unfold Brent.iterate
  generalize Brent.better s.sides = w at hn hle
  obtain ⟨n, acEqual⟩ := w
  simp only at hn hle ⊢
  split
  · exact ⟨_, _, rfl, h, hn.b.1, ⟨le_refl _, le_refl _⟩, hn.b.2⟩
  · rename_i h0
    split
    · exact ⟨_, _, rfl, h, within_bracket hn.b hn.c⟩
    · rename_i hm
      obtain ⟨d, e, hch, l, l0, l1, rfl⟩ := choose_ok acEqual hle h0
      rw [hch]
      simp only [Outcome.bind_ok]
      set b := if n.tol < |l * n.mid| then n.b + l * n.mid else n.b + (if 0 < n.mid then n.tol else -n.tol) with hb
      have hbet : ∃ k, 0 ≤ k ∧ k ≤ 3 / 2 ∧ b = n.b + k * n.mid := by
        rw [hb]
        split
        · exact ⟨l, l0, l1, rfl⟩
        · push Not at hm
          have ht := tol_nonneg n
          have hm0 : 0 < |n.mid| := by linarith
          refine ⟨n.tol / |n.mid|, by positivity, ?_, ?_⟩
          · rw [div_le_iff₀ hm0]; linarith
          · split
            · rename_i hp
              rw [abs_of_pos hp, div_mul_cancel₀ _ hp.ne']
            · rename_i hp
              have hneg : n.mid < 0 := lt_of_le_of_ne (not_lt.mp hp) (fun h => by rw [h] at hm0; simp at hm0)
              rw [abs_of_neg hneg, div_neg, neg_mul, div_mul_cancel₀ _ hneg.ne]
      have hbin : lo ≤ b ∧ b ≤ hi := by
        obtain ⟨k, k0, k1, hk⟩ := hbet
        rw [hk]
        unfold Brent.mid
        obtain ⟨b1, b2⟩ := hn.b
        obtain ⟨c1, c2⟩ := hn.c
        constructor <;> nlinarith
      refine ⟨_, _, rfl, ⟨fun _ => hn.b, hbin, hn.c, hn.fb, rfl, hn.fc⟩, ?_⟩
      split
      · exact within_bracket hbin hn.b
      · exact within_bracket hbin hn.c

theorem run_ok {f : ℝ → ℝ} {lo hi : ℝ} (h : lo ≤ hi) (k : Nat) :
    ∃ s br, brentRun f lo hi k = .ok (s, br) ∧ Inside f lo hi s ∧ Within lo hi br := by
  induction k with
  | zero => exact iterate_ok (Inside.start h)
  | succ k ih =>
    obtain ⟨s, br, h1, h2, -⟩ := ih
    obtain ⟨s', br', h3, h4⟩ := iterate_ok h2
    exact ⟨s', br', by simp [brentRun, h1, h3], h4⟩

/-! ## Changes of sign -/

/-- `c`, or else `a`, is on the other side of the root than `b`. -/
def Split (s : Brent) : Prop := SameSign s.fb s.fc → ¬ SameSign s.fa s.fb

theorem split_normal {s : Brent} (h : Split s) : ¬ SameSign (Brent.better s.sides).1.fb (Brent.better s.sides).1.fc := by
  have h1 : ¬ SameSign s.sides.1.fb s.sides.1.fc := by
    unfold Brent.sides
    split
    · rename_i hs; rw [sameSign_comm]; exact h hs
    · assumption
  unfold Brent.better
  split
  · rwa [sameSign_comm]
  · exact h1

theorem iterate_split {f : ℝ → ℝ} {lo hi : ℝ} {s s' : Brent} {br : Bracket} (hin : Inside f lo hi s) (h : Split s)
    (hi' : s.iterate f = .ok (s', br)) : Split s' ∧ ¬ SameSign (f br.lower) (f br.upper) := by
  have hn : Inside f lo hi (Brent.better s.sides).1 := hin.sides.better
  have hsp := split_normal h
  have hle := better_le s.sides
  have hbr : ∀ b c, ¬ SameSign (f b) (f c) → ¬ SameSign (f (bracket b c).lower) (f (bracket b c).upper) := by
    intro b c hbc
    obtain ⟨-, h2, h3⟩ := bracket_spec b c
    rw [h2, h3]
    rcases le_total b c with hle | hle
    · rwa [min_eq_left hle, max_eq_right hle]
    · rwa [min_eq_right hle, max_eq_left hle, sameSign_comm]
  unfold Brent.iterate at hi'
  generalize Brent.better s.sides = w at hn hsp hle hi'
  obtain ⟨n, acEqual⟩ := w
  simp only at hn hsp hle hi'
  split at hi'
  · rename_i h0
    simp only [Outcome.ok.injEq, Prod.mk.injEq] at hi'
    obtain ⟨rfl, rfl⟩ := hi'
    refine ⟨h, ?_⟩
    simp only
    rw [← hn.fb, h0]
    unfold SameSign
    rintro (⟨a, -⟩ | ⟨a, -⟩) <;> exact lt_irrefl _ a
  · rename_i h0
    split at hi'
    · simp only [Outcome.ok.injEq, Prod.mk.injEq] at hi'
      obtain ⟨rfl, rfl⟩ := hi'
      refine ⟨h, hbr _ _ ?_⟩
      rw [← hn.fb, ← hn.fc]
      exact hsp
    · obtain ⟨d, e, hch, -⟩ := choose_ok acEqual hle h0
      rw [hch] at hi'
      simp only [Outcome.bind_ok, Outcome.ok.injEq, Prod.mk.injEq] at hi'
      obtain ⟨rfl, rfl⟩ := hi'
      generalize (if n.tol < |d| then n.b + d else n.b + (if 0 < n.mid then n.tol else -n.tol)) = b
      refine ⟨?_, ?_⟩
      · intro h1 h2
        exact hsp (sameSign_trans h2 h1)
      · apply hbr
        split
        · rename_i hs
          rw [← hn.fb, sameSign_comm]
          intro h2
          exact hsp (sameSign_trans h2 hs)
        · rename_i hs
          rwa [← hn.fc]

/-- What a bracket says about the function if the state splits. -/
theorem run_split {f : ℝ → ℝ} {lo hi : ℝ} (h : lo ≤ hi) (h0 : Split (.start f lo hi)) (k : Nat) :
    ∃ s br, brentRun f lo hi k = .ok (s, br) ∧ Inside f lo hi s ∧ Within lo hi br ∧ Split s ∧ ¬ SameSign (f br.lower) (f br.upper) := by
  induction k with
  | zero =>
    obtain ⟨s', br, h1, h2, h3⟩ := iterate_ok (Inside.start (f := f) h)
    exact ⟨s', br, h1, h2, h3, iterate_split (Inside.start h) h0 h1⟩
  | succ k ih =>
    obtain ⟨s, br, h1, h2, -, h3, -⟩ := ih
    obtain ⟨s', br', h4, h5, h6⟩ := iterate_ok h2
    exact ⟨s', br', by simp [brentRun, h1, h4], h5, h6, iterate_split h2 h3 h4⟩

/-! ## No change of sign: bisection towards the better end -/

open Classical in
/-- If all three values have the same sign, the interval between `a` and `b` is halved, whatever the values are. -/
theorem iterate_same {f : ℝ → ℝ} {s : Brent} {x0 x1 f0 f1 : ℝ} (hbc : SameSign s.fb s.fc) (hab : SameSign s.fa s.fb)
    (hx : (|s.fa| < |s.fb| ∧ x0 = s.a ∧ x1 = s.b ∧ f0 = s.fa ∧ f1 = s.fb) ∨ (|s.fb| ≤ |s.fa| ∧ x0 = s.b ∧ x1 = s.a ∧ f0 = s.fb ∧ f1 = s.fa)) :
    (|0.5 * (x1 - x0)| ≤ 0.5 * 2.2204460492503131e-16 * |x0| ∧ s.iterate f = .ok (s, bracket x0 x1)) ∨
    (∃ s', s.iterate f = .ok (s', bracket (x0 + 0.5 * (x1 - x0)) (if SameSign (f (x0 + 0.5 * (x1 - x0))) f1 then x0 else x1)) ∧
      s'.a = x0 ∧ s'.b = x0 + 0.5 * (x1 - x0) ∧ s'.c = x1 ∧ s'.fa = f0 ∧ s'.fb = f (x0 + 0.5 * (x1 - x0)) ∧ s'.fc = f1) := by
  obtain ⟨n, hn, na, nb, nc, nfa, nfb, nfc⟩ : ∃ n, Brent.better s.sides = (n, true) ∧ n.a = x1 ∧ n.b = x0 ∧ n.c = x1 ∧ n.fa = f1 ∧ n.fb = f0 ∧ n.fc = f1 := by
    unfold Brent.sides
    rw [if_pos hbc]
    unfold Brent.better
    simp only
    rcases hx with ⟨h, rfl, rfl, rfl, rfl⟩ | ⟨h, rfl, rfl, rfl, rfl⟩
    · rw [if_pos h]; exact ⟨_, rfl, rfl, rfl, rfl, rfl, rfl, rfl⟩
    · rw [if_neg (not_lt.mpr h)]; exact ⟨_, rfl, rfl, rfl, rfl, rfl, rfl, rfl⟩
  have hs : SameSign f0 f1 := by
    rcases hx with ⟨-, -, -, rfl, rfl⟩ | ⟨-, -, -, rfl, rfl⟩
    · exact hab
    · exact sameSign_comm.mp hab
  have h0 : n.fb ≠ 0 := by
    rw [nfb]; rintro rfl
    rcases hs with ⟨a, -⟩ | ⟨a, -⟩ <;> exact lt_irrefl _ a
  have hmid : n.mid = 0.5 * (x1 - x0) := by unfold Brent.mid; rw [nb, nc]
  have htol : n.tol = 0.5 * 2.2204460492503131e-16 * |x0| := by unfold Brent.tol; rw [nb]
  unfold Brent.iterate
  rw [hn]
  simp only
  rw [if_neg h0]
  by_cases hm : |n.mid| ≤ n.tol
  · rw [if_pos hm]
    left
    rw [nb, nc]
    rw [hmid, htol] at hm
    exact ⟨hm, rfl⟩
  · rw [if_neg hm]
    right
    have hch : n.choose true = .ok (n.mid, n.mid) := by
      unfold Brent.choose
      by_cases hb : |n.e| < n.tol ∨ |n.fa| ≤ |n.fb|
      · rw [if_pos hb]
      · rw [if_neg hb]
        push Not at hb
        have hlt : |f0| < |f1| := by rw [← nfa, ← nfb]; exact hb.2
        have hf1 : f1 ≠ 0 := by rintro rfl; simp at hlt; linarith [abs_nonneg f0]
        have ht0 : 0 < f0 / f1 := by
          rcases hs with ⟨a, b⟩ | ⟨a, b⟩
          · exact div_pos_of_neg_of_neg a b
          · exact div_pos a b
        have ht1 : f0 / f1 < 1 := by
          have : |f0 / f1| < 1 := by rw [abs_div, div_lt_one (abs_pos.mpr hf1)]; exact hlt
          exact (abs_lt.mp this).2
        have hr : n.ratio true = .ok (2 * n.mid * (f0 / f1), 1 - f0 / f1) := by
          unfold Brent.ratio
          rw [nfa, nfb]
          simp [cdiv, hf1]
        rw [hr]
        simp only [Outcome.bind_ok]
        generalize f0 / f1 = t at ht0 ht1
        by_cases hp : 0 < 2 * n.mid * t
        · simp only [if_pos hp]
          rw [if_neg]
          have hmpos : 0 < n.mid := by
            by_contra hneg
            push Not at hneg
            nlinarith
          intro hlt2
          have := lt_of_lt_of_le hlt2 (min_le_left _ _)
          have := abs_nonneg (n.tol * -(1 - t))
          have : 0 < n.mid * (1 - t) := mul_pos hmpos (by linarith)
          linarith
        · simp only [if_neg hp]
          rw [if_neg]
          have hmneg : n.mid ≤ 0 := by
            by_contra hpos
            push Not at hpos
            exact hp (by positivity)
          intro hlt2
          have := lt_of_lt_of_le hlt2 (min_le_left _ _)
          have := abs_nonneg (n.tol * (1 - t))
          have : n.mid * (1 - t) ≤ 0 := mul_nonpos_of_nonpos_of_nonneg hmneg (by linarith)
          have : n.mid * t ≤ 0 := mul_nonpos_of_nonpos_of_nonneg hmneg ht0.le
          linarith
    rw [hch]
    simp only [Outcome.bind_ok]
    rw [if_pos (not_le.mp hm), nb, nc, hmid, nfb, nfc]
    exact ⟨_, rfl, rfl, rfl, rfl, rfl, rfl, rfl⟩

/-- The test of the interval between two positive numbers. -/
theorem test_bracket {b c : ℝ} (hb : 0 < b) (hc : 0 < c) :
    testInterval (bracket b c).lower (bracket b c).upper = some (decide (|b - c| < 0.000001 * min b c)) := by
  obtain ⟨-, h2, h3⟩ := bracket_spec b c
  have hm : 0 < min b c := lt_min hb hc
  have hM : 0 < max b c := lt_max_of_lt_left hb
  rw [h2, h3]
  unfold testInterval
  rw [if_neg (by linarith [min_le_max (a := b) (b := c)])]
  simp only
  rw [if_pos (.inl ⟨hm, hM⟩), abs_of_pos hm, abs_of_pos hM, min_eq_left min_le_max, zero_add]
  congr 2
  have : |max b c - min b c| = |b - c| := by
    rw [max_sub_min_eq_abs]
    rw [abs_abs, abs_sub_comm]
  rw [this]

/-- On an interval without a change of sign the solver converges to the end where the function is closest to zero, if there is none closer inside. -/
theorem run_same {f : ℝ → ℝ} {lo hi x0 x1 : ℝ} (hlo : 0 < lo) (hlt : lo < hi) (hsign : (∀ x, lo ≤ x → x ≤ hi → f x < 0) ∨ ∀ x, lo ≤ x → x ≤ hi → 0 < f x)
    (hx : (x0 = lo ∧ x1 = hi) ∨ (x0 = hi ∧ x1 = lo)) (hbest : ∀ x, lo ≤ x → x ≤ hi → x ≠ x0 → |f x0| < |f x|)
    {br : Nat → Bracket} (hbr : ∀ k, ∃ s, brentRun f lo hi k = .ok (s, br k)) {K : Nat} (hK : (hi - lo) / 2 ^ (K + 1) < 0.000001 * lo) :
    ∃ j ≤ K, (∀ i < j, testInterval (br i).lower (br i).upper = some false) ∧ testInterval (br j).lower (br j).upper = some true ∧
      |(br j).root - x0| < 0.000001 * x0 := by
  have hlh : ∀ x, (x = lo ∨ x = hi) → lo ≤ x ∧ x ≤ hi := by rintro x (rfl | rfl) <;> constructor <;> linarith
  have h0 : lo ≤ x0 ∧ x0 ≤ hi := hlh x0 (by tauto)
  have h1 : lo ≤ x1 ∧ x1 ≤ hi := hlh x1 (by tauto)
  have hne : x1 ≠ x0 := by rcases hx with ⟨rfl, rfl⟩ | ⟨rfl, rfl⟩ <;> first | exact hlt.ne' | exact hlt.ne
  have hx0 : 0 < x0 := by linarith
  have hpq : ∀ x y, lo ≤ x ∧ x ≤ hi → lo ≤ y ∧ y ≤ hi → SameSign (f x) (f y) := by
    intro x y hx hy
    rcases hsign with h | h
    · exact .inl ⟨h x hx.1 hx.2, h y hy.1 hy.2⟩
    · exact .inr ⟨h x hx.1 hx.2, h y hy.1 hy.2⟩
  set X : Nat → ℝ := fun k => x0 + (x1 - x0) / 2 ^ k with hX
  have hXin : ∀ k, lo ≤ X k ∧ X k ≤ hi := by
    intro k
    have hp : (1 : ℝ) ≤ 2 ^ k := one_le_pow₀ (by norm_num)
    have hi0 : 0 ≤ ((2 : ℝ) ^ k)⁻¹ := by positivity
    have hi1 : ((2 : ℝ) ^ k)⁻¹ ≤ 1 := inv_le_one_of_one_le₀ hp
    simp only [hX, div_eq_mul_inv]
    constructor <;> nlinarith
  have hXne : ∀ k, X k ≠ x0 := by
    intro k h
    simp only [hX, add_eq_left, div_eq_zero_iff, sub_eq_zero] at h
    rcases h with h | h
    · exact hne h
    · exact absurd h (by positivity)
  have hXs : ∀ k, x0 + 0.5 * (X k - x0) = X (k + 1) := by
    intro k
    simp only [hX, pow_succ]
    field_simp
    ring
  have hX0 : X 0 = x1 := by simp [hX]
  have hpos : ∀ k, 0 < X k := fun k => lt_of_lt_of_le hlo (hXin k).1
  have key : ∀ k, (∃ j ≤ k, (∀ i < j, testInterval (br i).lower (br i).upper = some false) ∧
        testInterval (br j).lower (br j).upper = some true ∧ |(br j).root - x0| < 0.000001 * x0) ∨
      ((∀ i ≤ k, testInterval (br i).lower (br i).upper = some false) ∧ br k = bracket (X (k + 1)) x0 ∧
        ∃ s, brentRun f lo hi k = .ok (s, br k) ∧ s.a = x0 ∧ s.b = X (k + 1) ∧ s.c = X k ∧ s.fa = f x0 ∧ s.fb = f (X (k + 1)) ∧ s.fc = f (X k)) := by
    have hdecide : ∀ k s, (∀ i < k, testInterval (br i).lower (br i).upper = some false) → br k = bracket (X (k + 1)) x0 →
        brentRun f lo hi k = .ok (s, br k) → s.a = x0 ∧ s.b = X (k + 1) ∧ s.c = X k ∧ s.fa = f x0 ∧ s.fb = f (X (k + 1)) ∧ s.fc = f (X k) →
        (∃ j ≤ k, (∀ i < j, testInterval (br i).lower (br i).upper = some false) ∧
          testInterval (br j).lower (br j).upper = some true ∧ |(br j).root - x0| < 0.000001 * x0) ∨
        ((∀ i ≤ k, testInterval (br i).lower (br i).upper = some false) ∧ br k = bracket (X (k + 1)) x0 ∧
          ∃ s, brentRun f lo hi k = .ok (s, br k) ∧ s.a = x0 ∧ s.b = X (k + 1) ∧ s.c = X k ∧ s.fa = f x0 ∧ s.fb = f (X (k + 1)) ∧ s.fc = f (X k)) := by
      intro k s hbefore hb hrun hs
      have ht := test_bracket (hpos (k + 1)) hx0
      rw [← hb] at ht
      by_cases hd : |X (k + 1) - x0| < 0.000001 * min (X (k + 1)) x0
      · rw [decide_eq_true hd] at ht
        refine .inl ⟨k, le_refl _, hbefore, ht, ?_⟩
        rw [hb, (bracket_spec _ _).1]
        refine lt_of_lt_of_le hd ?_
        gcongr
        exact min_le_right _ _
      · rw [decide_eq_false hd] at ht
        refine .inr ⟨?_, hb, s, hrun, hs⟩
        intro i hi
        rcases Nat.lt_or_ge i k with h | h
        · exact hbefore i h
        · rw [le_antisymm hi h]; exact ht
    intro k
    induction k with
    | zero =>
      obtain ⟨s0, hs0⟩ := hbr 0
      have hst : (|(Brent.start f lo hi).fa| < |(Brent.start f lo hi).fb| ∧ x0 = (Brent.start f lo hi).a ∧ x1 = (Brent.start f lo hi).b ∧
            f x0 = (Brent.start f lo hi).fa ∧ f x1 = (Brent.start f lo hi).fb) ∨
          (|(Brent.start f lo hi).fb| ≤ |(Brent.start f lo hi).fa| ∧ x0 = (Brent.start f lo hi).b ∧ x1 = (Brent.start f lo hi).a ∧
            f x0 = (Brent.start f lo hi).fb ∧ f x1 = (Brent.start f lo hi).fa) := by
        simp only [Brent.start]
        have := hbest x1 h1.1 h1.2 hne
        rcases hx with ⟨rfl, rfl⟩ | ⟨rfl, rfl⟩
        · exact .inl ⟨this, rfl, rfl, rfl, rfl⟩
        · exact .inr ⟨this.le, rfl, rfl, rfl, rfl⟩
      have hh : SameSign (Brent.start f lo hi).fb (Brent.start f lo hi).fc := hpq hi hi ⟨hlt.le, le_refl _⟩ ⟨hlt.le, le_refl _⟩
      have hh2 : SameSign (Brent.start f lo hi).fa (Brent.start f lo hi).fb := hpq lo hi ⟨le_refl _, hlt.le⟩ ⟨hlt.le, le_refl _⟩
      rcases iterate_same (f := f) hh hh2 hst with ⟨ht, hit⟩ | ⟨s', hit, e1, e2, e3, e4, e5, e6⟩
      · have hrun : brentRun f lo hi 0 = _ := hit
        rw [hs0] at hrun
        simp only [Outcome.ok.injEq, Prod.mk.injEq] at hrun
        left
        refine ⟨0, le_refl _, by simp, ?_, ?_⟩
        · rw [hrun.2, test_bracket hx0 (by linarith)]
          congr 1
          rw [decide_eq_true_eq]
          rw [abs_mul, abs_of_pos (by norm_num : (0 : ℝ) < 0.5), abs_of_pos hx0] at ht
          rw [abs_sub_comm]
          rcases min_choice x0 x1 with h | h <;> rw [h]
          · linarith
          · have := neg_abs_le (x1 - x0)
            linarith
        · rw [hrun.2, (bracket_spec _ _).1]
          simp only [sub_self, abs_zero]
          positivity
      · have hrun : brentRun f lo hi 0 = _ := hit
        rw [hs0] at hrun
        simp only [Outcome.ok.injEq, Prod.mk.injEq] at hrun
        have hm := hXs 0
        rw [hX0] at hm
        rw [hm] at e2 e5
        refine hdecide 0 s0 (by simp) ?_ hs0 ?_
        · rw [hrun.2, hm, if_pos (hpq _ _ (hXin 1) h1)]
        · rw [hrun.1]
          exact ⟨e1, e2, by rw [hX0]; exact e3, e4, e5, by rw [hX0]; exact e6⟩
    | succ k ih =>
      rcases ih with ⟨j, hj, h⟩ | ⟨hall, hb, s, hrun, e1, e2, e3, e4, e5, e6⟩
      · exact .inl ⟨j, by omega, h⟩
      · obtain ⟨s0, hs0⟩ := hbr (k + 1)
        have hnext : brentRun f lo hi (k + 1) = s.iterate f := by simp [brentRun, hrun]
        have hh : SameSign s.fb s.fc := by rw [e5, e6]; exact hpq _ _ (hXin _) (hXin _)
        have hh2 : SameSign s.fa s.fb := by rw [e4, e5]; exact hpq _ _ h0 (hXin _)
        have hst : |s.fa| < |s.fb| := by rw [e4, e5]; exact hbest _ (hXin _).1 (hXin _).2 (hXne _)
        rcases iterate_same (f := f) (x0 := x0) (x1 := X (k + 1)) (f0 := f x0) (f1 := f (X (k + 1))) hh hh2
          (.inl ⟨hst, e1.symm, e2.symm, e4.symm, e5.symm⟩) with ⟨ht, hit⟩ | ⟨s', hit, g1, g2, g3, g4, g5, g6⟩
        · exfalso
          have htest := hall k (le_refl _)
          rw [hb, test_bracket (hpos _) hx0] at htest
          simp only [Option.some.injEq, decide_eq_false_iff_not, not_lt] at htest
          rw [abs_mul, abs_of_pos (by norm_num : (0 : ℝ) < 0.5), abs_of_pos hx0] at ht
          have := neg_abs_le (X (k + 1) - x0)
          rcases min_choice (X (k + 1)) x0 with h | h <;> rw [h] at htest <;> linarith
        · rw [hnext, hit] at hs0
          simp only [Outcome.ok.injEq, Prod.mk.injEq] at hs0
          rw [hXs (k + 1)] at hit g2 g5
          have hbk : br (k + 1) = bracket (X (k + 1 + 1)) x0 := by
            rw [← hs0.2, hXs (k + 1), if_pos (hpq _ _ (hXin _) (hXin _))]
          refine hdecide (k + 1) s0 (fun i hi => hall i (by omega)) hbk ?_ ?_
          · rw [hnext, hit, ← hs0.1, hbk, if_pos (hpq _ _ (hXin _) (hXin _))]
          · rw [← hs0.1]
            exact ⟨g1, g2, g3, g4, g5, g6⟩
  rcases key K with ⟨j, hj, h⟩ | ⟨hall, hb, -⟩
  · exact ⟨j, hj, h⟩
  · exfalso
    have htest := hall K (le_refl _)
    rw [hb, test_bracket (hpos _) hx0] at htest
    simp only [Option.some.injEq, decide_eq_false_iff_not, not_lt] at htest
    have hw : |X (K + 1) - x0| = (hi - lo) / 2 ^ (K + 1) := by
      simp only [hX, add_sub_cancel_left]
      rw [abs_div, abs_of_pos (by positivity : (0 : ℝ) < 2 ^ (K + 1))]
      congr 1
      rcases hx with ⟨rfl, rfl⟩ | ⟨rfl, rfl⟩
      · exact abs_of_pos (by linarith)
      · rw [abs_sub_comm]; exact abs_of_pos (by linarith)
    have hmin : lo ≤ min (X (K + 1)) x0 := le_min (hXin _).1 h0.1
    rw [hw] at htest
    linarith

/-- If the ends have the same sign and the middle the other one, the method goes on between the middle and the end with the greater value, where
every bracket contains a change of sign. -/
theorem run_half {f : ℝ → ℝ} {lo hi x1 : ℝ} (hle : lo ≤ hi) (hends : SameSign (f lo) (f hi)) (hmid : ¬ SameSign (f ((lo + hi) / 2)) (f lo))
    (hwide : 2.2204460492503131e-16 * |lo| < hi - lo ∧ 2.2204460492503131e-16 * |hi| < hi - lo)
    (hworse : (|f lo| < |f hi| ∧ x1 = hi) ∨ (|f hi| ≤ |f lo| ∧ x1 = lo)) (k : Nat) :
    ∃ s br, brentRun f lo hi k = .ok (s, br) ∧ Inside f (min x1 ((lo + hi) / 2)) (max x1 ((lo + hi) / 2)) s ∧
      Within (min x1 ((lo + hi) / 2)) (max x1 ((lo + hi) / 2)) br ∧ Split s ∧ ¬ SameSign (f br.lower) (f br.upper) := by
  induction k with
  | zero =>
    obtain ⟨x0, hst, hx⟩ : ∃ x0, ((|(Brent.start f lo hi).fa| < |(Brent.start f lo hi).fb| ∧ x0 = (Brent.start f lo hi).a ∧
            x1 = (Brent.start f lo hi).b ∧ f x0 = (Brent.start f lo hi).fa ∧ f x1 = (Brent.start f lo hi).fb) ∨
          (|(Brent.start f lo hi).fb| ≤ |(Brent.start f lo hi).fa| ∧ x0 = (Brent.start f lo hi).b ∧ x1 = (Brent.start f lo hi).a ∧
            f x0 = (Brent.start f lo hi).fb ∧ f x1 = (Brent.start f lo hi).fa)) ∧ ((x0 = lo ∧ x1 = hi) ∨ (x0 = hi ∧ x1 = lo)) := by
      rcases hworse with ⟨h, rfl⟩ | ⟨h, rfl⟩
      · exact ⟨lo, .inl ⟨h, rfl, rfl, rfl, rfl⟩, .inl ⟨rfl, rfl⟩⟩
      · exact ⟨hi, .inr ⟨h, rfl, rfl, rfl, rfl⟩, .inr ⟨rfl, rfl⟩⟩
    have hmx : x0 + 0.5 * (x1 - x0) = (lo + hi) / 2 := by rcases hx with ⟨rfl, rfl⟩ | ⟨rfl, rfl⟩ <;> ring
    have hself : SameSign (f hi) (f hi) := sameSign_trans (sameSign_comm.mp hends) hends
    have hx1 : ¬ SameSign (f ((lo + hi) / 2)) (f x1) := by
      rcases hx with ⟨rfl, rfl⟩ | ⟨rfl, rfl⟩
      · intro h; exact hmid (sameSign_trans h (sameSign_comm.mp hends))
      · exact hmid
    rcases iterate_same (f := f) (s := .start f lo hi) hself hends hst with ⟨ht, -⟩ | ⟨s'', hit, e1, e2, e3, e4, e5, e6⟩
    · exfalso
      rw [abs_mul, abs_of_pos (by norm_num : (0 : ℝ) < 0.5)] at ht
      rcases hx with ⟨rfl, rfl⟩ | ⟨rfl, rfl⟩
      · rw [abs_of_nonneg (by linarith)] at ht; linarith [hwide.1]
      · rw [abs_sub_comm, abs_of_nonneg (by linarith)] at ht; linarith [hwide.2]
    · rw [hmx] at e2 e5 hit
      rw [if_neg hx1] at hit
      have i1 : min x1 ((lo + hi) / 2) ≤ x1 ∧ x1 ≤ max x1 ((lo + hi) / 2) := ⟨min_le_left _ _, le_max_left _ _⟩
      have i2 : min x1 ((lo + hi) / 2) ≤ (lo + hi) / 2 ∧ (lo + hi) / 2 ≤ max x1 ((lo + hi) / 2) := ⟨min_le_right _ _, le_max_right _ _⟩
      refine ⟨s'', _, hit, ⟨?_, ?_, ?_, ?_, ?_, ?_⟩, within_bracket i2 i1, ?_, ?_⟩
      · intro h
        rw [e5, e6] at h
        exact absurd h hx1
      · rw [e2]; exact i2
      · rw [e3]; exact i1
      · rw [e4, e1]
      · rw [e5, e2]
      · rw [e6, e3]
      · intro h
        rw [e5, e6] at h
        exact absurd h hx1
      · obtain ⟨-, g2, g3⟩ := bracket_spec ((lo + hi) / 2) x1
        rw [g2, g3]
        rcases le_total ((lo + hi) / 2) x1 with hle | hle
        · rwa [min_eq_left hle, max_eq_right hle]
        · rwa [min_eq_right hle, max_eq_left hle, sameSign_comm]
  | succ k ih =>
    obtain ⟨s, br, h1, h2, -, h3, -⟩ := ih
    obtain ⟨s', br', h4, h5, h6⟩ := iterate_ok h2
    exact ⟨s', br', by simp [brentRun, h1, h4], h5, h6, iterate_split h2 h3 h4⟩

theorem run_flip {f : ℝ → ℝ} {lo hi : ℝ} (hle : lo ≤ hi) (hends : SameSign (f lo) (f hi)) (hmid : ¬ SameSign (f ((lo + hi) / 2)) (f lo))
    (hwide : 2.2204460492503131e-16 * |lo| < hi - lo ∧ 2.2204460492503131e-16 * |hi| < hi - lo) (k : Nat) :
    ∃ s br, brentRun f lo hi k = .ok (s, br) ∧ ¬ SameSign (f br.lower) (f br.upper) := by
  rcases lt_or_ge |f lo| |f hi| with h | h
  · obtain ⟨s, br, h1, -, -, -, h2⟩ := run_half hle hends hmid hwide (.inl ⟨h, rfl⟩) k
    exact ⟨s, br, h1, h2⟩
  · obtain ⟨s, br, h1, -, -, -, h2⟩ := run_half hle hends hmid hwide (.inr ⟨h, rfl⟩) k
    exact ⟨s, br, h1, h2⟩

/-- A bracket that passed the test and contains a change of sign is close to a root. -/
theorem bracket_root {f : ℝ → ℝ} (hf : Continuous f) {lo hi : ℝ} (hlo : 0 ≤ lo) {br : Bracket} (hw : Within lo hi br)
    (hs : ¬ SameSign (f br.lower) (f br.upper)) (ht : testInterval br.lower br.upper = some true) :
    ∃ τ, lo ≤ τ ∧ τ ≤ hi ∧ f τ = 0 ∧ |br.root - τ| < 0.000001 * τ := by
  obtain ⟨h1, ⟨h2, h3⟩, h4⟩ := hw
  obtain ⟨τ, ⟨t1, t2⟩, h5⟩ : ∃ τ ∈ Set.Icc br.lower br.upper, f τ = 0 := by
    rcases not_sameSign.mp hs with h | h
    · exact intermediate_value_Icc (by linarith) hf.continuousOn ⟨h.1, h.2⟩
    · exact intermediate_value_Icc' (by linarith) hf.continuousOn ⟨h.2, h.1⟩
  refine ⟨τ, by linarith, by linarith, h5, ?_⟩
  unfold testInterval at ht
  rw [if_neg (by linarith)] at ht
  simp only [Option.some.injEq, decide_eq_true_eq, zero_add] at ht
  have hw : |br.root - τ| ≤ br.upper - br.lower := by rw [abs_le]; constructor <;> linarith
  rw [abs_of_nonneg (by linarith : 0 ≤ br.upper - br.lower)] at ht
  split at ht
  · rename_i hsign
    have hmin : min |br.lower| |br.upper| ≤ τ := by
      rcases hsign with ⟨s1, s2⟩ | ⟨s1, s2⟩
      · rw [abs_of_pos s1]; exact le_trans (min_le_left _ _) t1
      · linarith
    have : (0.000001 : ℝ) * min |br.lower| |br.upper| ≤ 0.000001 * τ := by gcongr
    linarith
  · linarith

/-! ## Specification -/

/-- The difference of the squares of distance and target, whose roots are looked for. -/
noncomputable def excess (o : Elements) (ob : Observer) (target t : ℝ) : ℝ := gap o ob t ^ 2 - target ^ 2

/-- The root finder is Brent's method for the function of this satellite, observer and target. -/
def IsBrent (o : Elements) (ob : Observer) (target : ℝ) (rf : RootFinder) : Prop :=
  ∀ lo hi k, lo ≤ hi → ∃ s, brentRun (excess o ob target) lo hi k = .ok (s, rf lo hi k)

/-- The root finder reaches the precision asked for within the thousand iterations allowed. -/
def Converges (rf : RootFinder) (lo hi : ℝ) : Prop := ∃ k < 1000, testInterval (rf lo hi k).lower (rf lo hi k).upper = some true

/-- From `now` on the satellite is closer than the target until `τ`, and if that is within two seconds it has been closer for a second; then it is
further away until `τ'`, and then again closer.  `τ` is within half a period and `τ'` more than half a period and two seconds from `now`; what is
after the next period does not matter. -/
structure Pass (o : Elements) (ob : Observer) (target now T τ τ' : ℝ) : Prop where
  future : now < τ
  before : ∀ t, now ≤ t → t < τ → gap o ob t < target
  soon : τ ≤ now + 2 → ∀ t, now - 1 ≤ t → t ≤ now → gap o ob t < target
  between : ∀ t, τ < t → t < τ' → t ≤ now + T + 2 → target < gap o ob t
  after : ∀ t, τ' < t → t ≤ now + T + 2 → gap o ob t < target
  half : τ < now + T / 2 ∧ now + T / 2 + 2 < τ'

/-! ## The method meets the contract of the search -/

variable {o : Elements} {ob : Observer} {target : ℝ} {rf : RootFinder}

theorem excess_neg (ht : 0 ≤ target) {t : ℝ} : excess o ob target t < 0 ↔ gap o ob t < target := sq_sub_neg_iff (gap_nonneg _ _ _) ht

theorem excess_pos (ht : 0 ≤ target) {t : ℝ} : 0 < excess o ob target t ↔ target < gap o ob t := by
  have := sq_sub_neg_iff ht (gap_nonneg o ob t)
  unfold excess
  rw [sub_pos, ← sub_neg]
  exact this

theorem continuous_excess : Continuous (excess o ob target) := by
  have := continuous_gap o ob
  unfold excess
  fun_prop

/-- No division by zero, and all brackets lie in the interval, whatever the function. -/
theorem C81_defined (f : ℝ → ℝ) {lo hi : ℝ} (h : lo ≤ hi) (k : Nat) :
    ∃ s br, brentRun f lo hi k = .ok (s, br) ∧ lo ≤ br.lower ∧ br.lower ≤ br.root ∧ br.root ≤ br.upper ∧ br.upper ≤ hi := by
  obtain ⟨s, br, h1, -, h2⟩ := run_ok (f := f) h k
  exact ⟨s, br, h1, h2.lower, h2.root.1, h2.root.2, h2.upper⟩

/-- There is such a root finder for every satellite, observer and target (the hypothesis of the theorems below). -/
theorem exists_brent (o : Elements) (ob : Observer) (target : ℝ) : ∃ rf, IsBrent o ob target rf := by
  classical
  refine ⟨fun lo hi k => if h : lo ≤ hi then (C81_defined (excess o ob target) h k).choose_spec.choose else ⟨0, 0, 0⟩, fun lo hi k h => ?_⟩
  refine ⟨(C81_defined (excess o ob target) h k).choose, ?_⟩
  simp only [h, dif_pos]
  exact (C81_defined (excess o ob target) h k).choose_spec.choose_spec.1

theorem IsBrent.within (hb : IsBrent o ob target rf) {lo hi : ℝ} (h : lo ≤ hi) (k : Nat) : Within lo hi (rf lo hi k) := by
  obtain ⟨s, h1⟩ := hb lo hi k h
  obtain ⟨s', br, h2, -, h3⟩ := run_ok (f := excess o ob target) h k
  rw [h1] at h2
  simp only [Outcome.ok.injEq, Prod.mk.injEq] at h2
  rw [h2.2]
  exact h3

theorem C81_stays (hb : IsBrent o ob target rf) : Stays rf := by
  intro lo hi k h
  have := hb.within h k
  exact ⟨le_trans this.lower this.root.1, le_trans this.root.2 this.upper⟩

/-- Started with the satellite on different sides of the target at the two ends, the method keeps it so (the hypothesis of `C51_precision`). -/
theorem C81_straddles (hb : IsBrent o ob target rf) (ht : 0 ≤ target) {lo hi : ℝ} (h : lo ≤ hi)
    (hs : (gap o ob lo ≤ target ∧ target ≤ gap o ob hi) ∨ (target ≤ gap o ob lo ∧ gap o ob hi ≤ target)) : Straddles o ob target rf lo hi := by
  have hpos : ∀ t, 0 ≤ excess o ob target t ↔ target ≤ gap o ob t := fun t => by rw [← not_lt, excess_neg ht, not_lt]
  have hneg : ∀ t, excess o ob target t ≤ 0 ↔ gap o ob t ≤ target := fun t => by rw [← not_lt, excess_pos ht, not_lt]
  intro k
  obtain ⟨s, h1⟩ := hb lo hi k h
  have hsp : Split (.start (excess o ob target) lo hi) := by
    intro _ h2
    refine not_sameSign.mpr ?_ h2
    simp only [Brent.start, hpos, hneg]
    exact hs
  obtain ⟨s', br, h2, -, h3, -, h4⟩ := run_split h hsp k
  rw [h1] at h2
  simp only [Outcome.ok.injEq, Prod.mk.injEq] at h2
  rw [h2.2]
  refine ⟨h3.root.1, h3.root.2, ?_⟩
  have := not_sameSign.mp h4
  simp only [hpos, hneg] at this
  exact this

/-- Any two times, with a target between the distances at them. -/
example (o : Elements) (ob : Observer) {lo hi : ℝ} (h : lo ≤ hi) : ∃ target rf, IsBrent o ob target rf ∧ 0 ≤ target ∧
    ((gap o ob lo ≤ target ∧ target ≤ gap o ob hi) ∨ (target ≤ gap o ob lo ∧ gap o ob hi ≤ target)) ∧ Straddles o ob target rf lo hi := by
  have h0 : 0 ≤ (gap o ob lo + gap o ob hi) / 2 := by linarith [gap_nonneg o ob lo, gap_nonneg o ob hi]
  have hs : (gap o ob lo ≤ (gap o ob lo + gap o ob hi) / 2 ∧ (gap o ob lo + gap o ob hi) / 2 ≤ gap o ob hi) ∨
      ((gap o ob lo + gap o ob hi) / 2 ≤ gap o ob lo ∧ gap o ob hi ≤ (gap o ob lo + gap o ob hi) / 2) := by
    rcases le_total (gap o ob lo) (gap o ob hi) with h | h
    · exact .inl ⟨by linarith, by linarith⟩
    · exact .inr ⟨by linarith, by linarith⟩
  obtain ⟨rf, hrf⟩ := exists_brent o ob ((gap o ob lo + gap o ob hi) / 2)
  exact ⟨_, rf, hrf, h0, hs, C81_straddles hrf h0 h hs⟩

/-! ## Answers of the solver -/

theorem solveLoop_at {f : ℝ → Outcome ℝ} {iter : Nat → Bracket} {j : Nat} :
    ∀ {n k : Nat}, j < n → (∀ i < j, testInterval (iter (k + i)).lower (iter (k + i)).upper = some false) →
      testInterval (iter (k + j)).lower (iter (k + j)).upper = some true →
      solveLoop f iter n k = (do
        let a ← f ((iter (k + j)).root - 1)
        let c ← f ((iter (k + j)).root + 1)
        if min a c < 0 then .ok (some (iter (k + j)).root) else .ok none) := by
  induction j with
  | zero =>
    intro n k hn _ ht
    obtain ⟨n, rfl⟩ : ∃ m, n = m + 1 := ⟨n - 1, by omega⟩
    unfold solveLoop
    rw [Nat.add_zero] at ht
    simp only [ht]
    rfl
  | succ j ih =>
    intro n k hn hb ht
    obtain ⟨n, rfl⟩ : ∃ m, n = m + 1 := ⟨n - 1, by omega⟩
    have h0 := hb 0 (by omega)
    rw [Nat.add_zero] at h0
    have := @ih n (k + 1) (by omega) (fun i hi => by have := hb (i + 1) (by omega); rwa [show k + 1 + i = k + (i + 1) by omega])
      (by rwa [show k + 1 + j = k + (j + 1) by omega])
    rw [show k + 1 + j = k + (j + 1) by omega] at this
    conv_lhs => unfold solveLoop
    simp only [h0]
    exact this

/-- The answer of the solver, given the iteration at which the test succeeds first. -/
theorem solver_at {debug : Bool} (hr : 0 < o.radius) (ht : 0 ≤ target) {lo hi : ℝ} {j : Nat} (hj : j < 1000)
    (hb : ∀ i < j, testInterval (rf lo hi i).lower (rf lo hi i).upper = some false)
    (hs : testInterval (rf lo hi j).lower (rf lo hi j).upper = some true) :
    (Accepted o ob target (rf lo hi j).root → distanceSolver debug rf o ob target lo hi = .ok (some (rf lo hi j).root)) ∧
    (¬ Accepted o ob target (rf lo hi j).root → distanceSolver debug rf o ob target lo hi = .ok none) := by
  have := solveLoop_at (f := distanceFunction debug o ob target) (iter := rf lo hi) (k := 0) hj (by simpa using hb) (by simpa using hs)
  simp only [Nat.zero_add, distanceFunction_eq debug o hr, Outcome.bind_ok] at this
  have hacc : Accepted o ob target (rf lo hi j).root ↔
      min (gap o ob ((rf lo hi j).root - 1) ^ 2 - target ^ 2) (gap o ob ((rf lo hi j).root + 1) ^ 2 - target ^ 2) < 0 := by
    rw [min_lt_iff, sq_sub_neg_iff (gap_nonneg _ _ _) ht, sq_sub_neg_iff (gap_nonneg _ _ _) ht]
    rfl
  unfold distanceSolver
  rw [hacc]
  exact ⟨fun h => by rw [this, if_pos h], fun h => by rw [this, if_neg h]⟩

theorem first_success (hb : IsBrent o ob target rf) {lo hi : ℝ} (h : lo ≤ hi) (hc : Converges rf lo hi) :
    ∃ j < 1000, (∀ i < j, testInterval (rf lo hi i).lower (rf lo hi i).upper = some false) ∧
      testInterval (rf lo hi j).lower (rf lo hi j).upper = some true := by
  classical
  obtain ⟨k, hk, hs⟩ := hc
  have hex : ∃ j, testInterval (rf lo hi j).lower (rf lo hi j).upper = some true := ⟨k, hs⟩
  refine ⟨Nat.find hex, lt_of_le_of_lt (Nat.find_min' hex hs) hk, ?_, Nat.find_spec hex⟩
  intro i hi'
  have h1 := Nat.find_min hex hi'
  have hw := hb.within h i
  unfold testInterval at h1 ⊢
  rw [if_neg (by linarith [hw.root.1, hw.root.2])] at h1 ⊢
  simp only [Option.some.injEq, decide_eq_true_eq] at h1
  simp only [Option.some.injEq, decide_eq_false_iff_not]
  exact h1

/-- A root is bracketed: the ends differ in sign, or the middle differs from both. -/
def Bracketed (f : ℝ → ℝ) (lo hi : ℝ) : Prop :=
  ¬ SameSign (f lo) (f hi) ∨ (SameSign (f lo) (f hi) ∧ ¬ SameSign (f ((lo + hi) / 2)) (f lo) ∧
    2.2204460492503131e-16 * |lo| < hi - lo ∧ 2.2204460492503131e-16 * |hi| < hi - lo)

theorem solver_root {debug : Bool} (hb : IsBrent o ob target rf) (hr : 0 < o.radius) (ht : 0 ≤ target) {lo hi : ℝ} (hlo : 0 ≤ lo) (h : lo ≤ hi)
    (hc : Converges rf lo hi) (hs : Bracketed (excess o ob target) lo hi) :
    ∃ r τ, lo ≤ r ∧ r ≤ hi ∧ lo ≤ τ ∧ τ ≤ hi ∧ gap o ob τ = target ∧ |r - τ| < 0.000001 * τ ∧
      (Accepted o ob target r → distanceSolver debug rf o ob target lo hi = .ok (some r)) := by
  obtain ⟨j, hj, hbef, htest⟩ := first_success hb h hc
  have hw := hb.within h j
  obtain ⟨s, h1⟩ := hb lo hi j h
  have hsign : ¬ SameSign (excess o ob target (rf lo hi j).lower) (excess o ob target (rf lo hi j).upper) := by
    rcases hs with hs | ⟨hs, hm, hwide⟩
    · obtain ⟨s', br, h2, -, -, -, h4⟩ := run_split h (show Split (.start (excess o ob target) lo hi) from fun _ h2 => hs h2) j
      rw [h1] at h2
      simp only [Outcome.ok.injEq, Prod.mk.injEq] at h2
      rw [h2.2]
      exact h4
    · obtain ⟨s', br, h2, h4⟩ := run_flip h hs hm hwide j
      rw [h1] at h2
      simp only [Outcome.ok.injEq, Prod.mk.injEq] at h2
      rw [h2.2]
      exact h4
  obtain ⟨τ, t1, t2, t3, t4⟩ := bracket_root continuous_excess hlo hw hsign htest
  refine ⟨(rf lo hi j).root, τ, le_trans hw.lower hw.root.1, le_trans hw.root.2 hw.upper, t1, t2, ?_, t4, (solver_at hr ht hj hbef htest).1⟩
  unfold excess at t3
  exact (pow_left_inj₀ (gap_nonneg _ _ _) ht two_ne_zero).mp (by linarith)

/-! ## The setting time -/

theorem findNextCross_second {debug : Bool} {T : ℝ} (hT : orbitalPeriod o = .ok T) {now r q : ℝ}
    (h1 : distanceSolver debug rf o ob target now (now + T) = .ok (some r)) (hlt : now < r - 1)
    (h2 : distanceSolver debug rf o ob target now (r - 1) = .ok (some q)) : findNextCross debug rf o ob target now = .ok (some q) := by
  simp [findNextCross, hT, h1, hlt, h2]

theorem Pass.earlier {now T τ τ' t : ℝ} (hp : Pass o ob target now T τ τ') (h1 : now - 1 ≤ t) (h2 : t < τ) (h3 : τ ≤ t + 2 := by linarith) :
    gap o ob t < target := by
  rcases le_total now t with h | h
  · exact hp.before t h h2
  · exact hp.soon (by linarith) t h1 h

/-- The first search of a pass answers a time close to the setting, or close to the next rising. -/
theorem first_search {debug : Bool} (hb : IsBrent o ob target rf) (hr : 0 < o.radius) (ht : 0 ≤ target) {now T τ τ' : ℝ} (hT1 : 1 ≤ T)
    (hlong : now + T ≤ 1000000) (h0 : 0 ≤ now) (hp : Pass o ob target now T τ τ') (hc : Converges rf now (now + T)) :
    ∃ r, distanceSolver debug rf o ob target now (now + T) = .ok (some r) ∧ now ≤ r ∧ r ≤ now + T ∧
      (|r - τ| < 0.000001 * τ ∨ |r - τ'| < 0.000001 * τ' ∧ τ' ≤ now + T) := by
  have hn : excess o ob target now < 0 := (excess_neg ht).mpr (hp.before now (by linarith) hp.future)
  have hm : 0 < excess o ob target ((now + (now + T)) / 2) :=
    (excess_pos ht).mpr (hp.between _ (by linarith [hp.half.1]) (by linarith [hp.half.2]) (by linarith))
  have hbr : Bracketed (excess o ob target) now (now + T) := by
    by_cases hs : SameSign (excess o ob target now) (excess o ob target (now + T))
    · refine .inr ⟨hs, ?_, ?_, ?_⟩
      · rintro (⟨a, -⟩ | ⟨-, a⟩) <;> linarith
      · rw [abs_of_nonneg h0]; linarith
      · rw [abs_of_nonneg (by linarith)]; linarith
    · exact .inl hs
  obtain ⟨r, σ, r1, r2, s1, s2, s3, s4, hans⟩ := solver_root (debug := debug) hb hr ht h0 (by linarith : now ≤ now + T) hc hbr
  have hσ : σ = τ ∨ σ = τ' := by
    rcases lt_trichotomy σ τ with h | h | h
    · exact absurd s3 (hp.before σ (by linarith) h).ne
    · exact .inl h
    · rcases lt_trichotomy σ τ' with h' | h' | h'
      · exact absurd s3 (hp.between σ h h' (by linarith)).ne'
      · exact .inr h'
      · exact absurd s3 (hp.after σ h' (by linarith)).ne
  have hsmall : 0.000001 * σ ≤ 1 := by linarith
  obtain ⟨a1, a2⟩ := abs_lt.mp s4
  refine ⟨r, hans ?_, r1, r2, ?_⟩
  · rcases hσ with rfl | rfl
    · exact .inl (hp.earlier (by linarith) (by linarith))
    · exact .inr (hp.after _ (by linarith) (by linarith))
  · rcases hσ with rfl | rfl
    · exact .inl s4
    · exact .inr ⟨s4, s2⟩

/-- The search finds the setting of a visible satellite and never reports it late: the answer is not in the past and exceeds the setting by less
than one millionth of the time, although the two ends of the interval searched may well be on the same side of the target. -/
theorem C81_not_late {debug : Bool} (hb : IsBrent o ob target rf) (hr : 0 < o.radius) (ht : 0 ≤ target) {now T τ τ' : ℝ}
    (hT : orbitalPeriod o = .ok T) (hT1 : 1 ≤ T) (hlong : now + T ≤ 1000000) (h0 : 0 ≤ now) (hp : Pass o ob target now T τ τ')
    (hc : Converges rf now (now + T))
    (hc' : ∀ r, distanceSolver debug rf o ob target now (now + T) = .ok (some r) → now + T / 2 < r → Converges rf now (r - 1)) :
    ∃ q, findNextCross debug rf o ob target now = .ok (some q) ∧ now ≤ q ∧ q < τ + 0.000001 * τ := by
  obtain ⟨r, hr1, r1, r2, hcase⟩ := first_search (debug := debug) hb hr ht hT1 hlong h0 hp hc
  obtain ⟨T', res, hT', hres, hin, -, hfst⟩ := C51_accepted (debug := debug) (C81_stays hb) hr (ob := ob) ht now
  rw [hT] at hT'
  simp only [Outcome.ok.injEq] at hT'
  subst hT'
  obtain ⟨q, rfl, hq1, -, hq2⟩ := hfst r hr1
  refine ⟨q, hres, (hin q rfl).1, ?_⟩
  rcases hcase with h | ⟨h, hle⟩
  · linarith [(abs_lt.mp h).2]
  · obtain ⟨a1, a2⟩ := abs_lt.mp h
    have hsmall : 0.000001 * τ' ≤ 1 := by linarith
    have hlt : now < r - 1 := by linarith [hp.half.2]
    have hn : excess o ob target now < 0 := (excess_neg ht).mpr (hp.before now (by linarith) hp.future)
    have hm : 0 < excess o ob target (r - 1) :=
      (excess_pos ht).mpr (hp.between _ (by linarith [hp.half.1, hp.half.2]) (by linarith) (by linarith))
    have hbr : Bracketed (excess o ob target) now (r - 1) := .inl (by rintro (⟨-, a⟩ | ⟨a, -⟩) <;> linarith)
    obtain ⟨q', σ, b1, b2, s1, s2, s3, s4, hans⟩ := solver_root (debug := debug) hb hr ht h0 hlt.le (hc' r hr1 (by linarith [hp.half.2])) hbr
    have hσ : σ = τ := by
      rcases lt_trichotomy σ τ with h | h | h
      · exact absurd s3 (hp.before σ (by linarith) h).ne
      · exact h
      · exact absurd s3 (hp.between σ h (by linarith) (by linarith)).ne'
    subst hσ
    obtain ⟨c1, c2⟩ := abs_lt.mp s4
    have : q = q' := hq2 q' hlt (hans (.inl (hp.earlier (by linarith) (by linarith))))
    rw [this]
    linarith

/-- The second search when the satellite is closer than the target in the whole interval: it answers the end at which the satellite is furthest. -/
theorem second_search {debug : Bool} (hb : IsBrent o ob target rf) (hr : 0 < o.radius) (ht : 0 ≤ target) {now T τ τ' hi x0 x1 : ℝ} (h1 : 1 ≤ now)
    (hlt : now < hi) (hlong : hi ≤ 1000000) (hp : Pass o ob target now T τ τ') (hlater : now + 2 < τ) (hhi : hi < τ)
    (hx : (x0 = now ∧ x1 = hi) ∨ (x0 = hi ∧ x1 = now)) (hbest : ∀ x, now ≤ x → x ≤ hi → x ≠ x0 → gap o ob x < gap o ob x0) :
    ∃ q, distanceSolver debug rf o ob target now hi = .ok (some q) ∧ now ≤ q ∧ q ≤ hi ∧ |q - x0| < 0.000001 * x0 := by
  have hneg : ∀ x, now ≤ x → x ≤ hi → excess o ob target x < 0 := fun x h1 h2 => (excess_neg ht).mpr (hp.before x (by linarith) (by linarith))
  have hx0 : now ≤ x0 ∧ x0 ≤ hi := by rcases hx with ⟨rfl, -⟩ | ⟨rfl, -⟩ <;> constructor <;> linarith
  obtain ⟨j, hj, hbef, htest, hroot⟩ := run_same (f := excess o ob target) (by linarith : 0 < now) hlt (.inl hneg) hx
    (by
      intro x a b c
      rw [abs_of_neg (hneg x a b), abs_of_neg (hneg x0 hx0.1 hx0.2), neg_lt_neg_iff]
      unfold excess
      have := pow_lt_pow_left₀ (hbest x a b c) (gap_nonneg _ _ _) two_ne_zero
      linarith)
    (br := rf now hi) (fun k => hb now hi k hlt.le) (K := 999)
    (by
      rw [div_lt_iff₀ (by positivity)]
      have h2 : (2 : ℝ) ^ 40 ≤ 2 ^ (999 + 1) := pow_le_pow_right₀ (by norm_num) (by norm_num)
      have h3 : (0.000001 : ℝ) * 1 * 2 ^ 40 ≤ 0.000001 * now * 2 ^ (999 + 1) := by gcongr
      have h4 : (1000000 : ℝ) ≤ 0.000001 * 1 * 2 ^ 40 := by norm_num
      exact lt_of_lt_of_le (by linarith) (le_trans h4 h3))
  have hw := hb.within hlt.le j
  refine ⟨_, (solver_at hr ht (by omega) hbef htest).1 ?_, le_trans hw.lower hw.root.1, le_trans hw.root.2 hw.upper, hroot⟩
  have hq := le_trans hw.root.2 hw.upper
  rcases lt_or_ge ((rf now hi j).root + 1) τ with h | h
  · exact .inr (hp.before _ (by linarith [hw.lower, hw.root.1]) h)
  · exact .inl (hp.before _ (by linarith) (by linarith))

/-- A satellite that recedes and sets once in the coming period is reported to set one second early. -/
theorem C81_one_second_early {debug : Bool} (hb : IsBrent o ob target rf) (hr : 0 < o.radius) (ht : 0 ≤ target) {now T τ τ' : ℝ}
    (hT : orbitalPeriod o = .ok T) (hlong : now + T ≤ 1000000) (h1 : 1 ≤ now) (hp : Pass o ob target now T τ τ')
    (honce : now + T < τ') (hlater : now + 2 < τ) (hmono : StrictMonoOn (gap o ob) (Set.Icc now τ)) (hc : Converges rf now (now + T)) :
    ∃ q, findNextCross debug rf o ob target now = .ok (some q) ∧ |q - (τ - 1)| < 0.0000021 * τ := by
  obtain ⟨r, hr1, r1, r2, hcase⟩ := first_search (debug := debug) hb hr ht (by linarith [hp.half.1]) hlong (by linarith) hp hc
  have hclose : |r - τ| < 0.000001 * τ := by
    rcases hcase with h | ⟨-, h⟩
    · exact h
    · linarith
  obtain ⟨a1, a2⟩ := abs_lt.mp hclose
  have hτ : τ ≤ 1000000 := by linarith [hp.half.1]
  have hlt : now < r - 1 := by linarith
  obtain ⟨q, hq, q1, q2, q3⟩ := second_search (debug := debug) hb hr ht h1 hlt (by linarith) hp hlater (by linarith) (.inr ⟨rfl, rfl⟩)
    (by
      intro x b1 b2 b3
      exact hmono ⟨b1, by linarith⟩ ⟨by linarith, by linarith⟩ (lt_of_le_of_ne b2 b3))
  refine ⟨q, ?_, ?_⟩
  · exact findNextCross_second hT hr1 hlt hq
  · obtain ⟨c1, c2⟩ := abs_lt.mp q3
    rw [abs_lt]
    constructor <;> linarith

/-- A satellite that has just risen, and stays closer than it is now until a second before it sets, is reported to set now. -/
theorem C81_just_risen {debug : Bool} (hb : IsBrent o ob target rf) (hr : 0 < o.radius) (ht : 0 ≤ target) {now T τ τ' : ℝ}
    (hT : orbitalPeriod o = .ok T) (hlong : now + T ≤ 1000000) (h1 : 1 ≤ now) (hp : Pass o ob target now T τ τ')
    (honce : now + T < τ') (hlater : now + 2 < τ) (hcloser : ∀ t, now < t → t ≤ τ - 1 + 0.000001 * τ → gap o ob t < gap o ob now)
    (hc : Converges rf now (now + T)) :
    ∃ q, findNextCross debug rf o ob target now = .ok (some q) ∧ now ≤ q ∧ q < now + 0.000001 * now := by
  obtain ⟨r, hr1, r1, r2, hcase⟩ := first_search (debug := debug) hb hr ht (by linarith [hp.half.1]) hlong (by linarith) hp hc
  have hclose : |r - τ| < 0.000001 * τ := by
    rcases hcase with h | ⟨-, h⟩
    · exact h
    · linarith
  obtain ⟨a1, a2⟩ := abs_lt.mp hclose
  have hτ : τ ≤ 1000000 := by linarith [hp.half.1]
  have hlt : now < r - 1 := by linarith
  obtain ⟨q, hq, q1, q2, q3⟩ := second_search (debug := debug) hb hr ht h1 hlt (by linarith) hp hlater (by linarith) (.inl ⟨rfl, rfl⟩)
    (by
      intro x b1 b2 b3
      exact hcloser x (lt_of_le_of_ne b1 (Ne.symm b3)) (by linarith))
  exact ⟨q, findNextCross_second hT hr1 hlt hq, q1, by linarith [(abs_lt.mp q3).2]⟩

/-! ## Satellites above the equator -/

/-- Satellite and observer in the plane of the equator. -/
theorem gap_equator (ρ φ lon R t : ℝ) :
    gap ⟨0, 0, ρ, φ⟩ ⟨0, lon, R⟩ t ^ 2 = ρ ^ 2 + R ^ 2 - 2 * ρ * R * cos ((meanMotion ρ - earthRotation) * t + (φ - lon)) := by
  have e : (meanMotion ρ - earthRotation) * t + (φ - lon) = (meanMotion ρ * t + φ) - (lon + earthRotation * t) := by ring
  rw [e, cos_sub]
  have h1 := sin_sq_add_cos_sq (meanMotion ρ * t + φ)
  have h2 := sin_sq_add_cos_sq (lon + earthRotation * t)
  unfold gap distance
  rw [length_sq]
  simp only [sub, circlePoint, rotZ, rotX, Observer.position, cos_zero, sin_zero]
  linear_combination ρ ^ 2 * h1 + R ^ 2 * h2

/-- Every pass of a satellite over the equator is as `Pass` asks, for an observer on the equator: `α` is the angle between satellite and observer at
time `now`, and `θ` the angle at which the satellite rises and sets. -/
theorem C81_equator {ρ φ lon R target now T α θ : ℝ} (hρ : 0 < ρ) (hR : 0 < R) (ht : 0 ≤ target)
    (htarget : target ^ 2 = ρ ^ 2 + R ^ 2 - 2 * ρ * R * cos θ) (hfast : earthRotation < meanMotion ρ)
    (hα : (meanMotion ρ - earthRotation) * now + (φ - lon) = α) (hθ : 0 < θ) (hrise : -θ < α) (hset : α < θ)
    (hsoon : 2 * (meanMotion ρ - earthRotation) < θ - α ∨ -θ < α - (meanMotion ρ - earthRotation))
    (hhalf : θ - α < (meanMotion ρ - earthRotation) * (T / 2)) (hhalf' : (meanMotion ρ - earthRotation) * (T / 2 + 2) < 2 * π - θ - α)
    (hturn : (meanMotion ρ - earthRotation) * (T + 2) < 2 * π + θ - α) :
    Pass ⟨0, 0, ρ, φ⟩ ⟨0, lon, R⟩ target now T (now + (θ - α) / (meanMotion ρ - earthRotation))
      (now + (2 * π - θ - α) / (meanMotion ρ - earthRotation)) := by
  set v := meanMotion ρ - earthRotation with hv
  have hv0 : 0 < v := by rw [hv]; linarith
  have hθπ : θ < π := by linarith [mul_pos hv0 (by norm_num : (0 : ℝ) < 2)]
  have hangle : ∀ t, v * t + (φ - lon) = α + v * (t - now) := fun t => by rw [← hα]; ring
  have hlt : ∀ t, gap ⟨0, 0, ρ, φ⟩ ⟨0, lon, R⟩ t < target ↔ cos θ < cos (α + v * (t - now)) := by
    intro t
    rw [← sq_sub_neg_iff (gap_nonneg _ _ _) ht, gap_equator, htarget, hangle]
    constructor
    · intro h
      have : ρ * R * cos θ < ρ * R * cos (α + v * (t - now)) := by linarith
      exact lt_of_mul_lt_mul_left this (by positivity)
    · intro h
      have := mul_lt_mul_of_pos_left h (by positivity : 0 < ρ * R)
      linarith
  have hgt : ∀ t, target < gap ⟨0, 0, ρ, φ⟩ ⟨0, lon, R⟩ t ↔ cos (α + v * (t - now)) < cos θ := by
    intro t
    rw [← sq_sub_neg_iff ht (gap_nonneg _ _ _), gap_equator, htarget, hangle]
    constructor
    · intro h
      have : ρ * R * cos (α + v * (t - now)) < ρ * R * cos θ := by linarith
      exact lt_of_mul_lt_mul_left this (by positivity)
    · intro h
      have := mul_lt_mul_of_pos_left h (by positivity : 0 < ρ * R)
      linarith
  have hin : ∀ x, |x| < θ → cos θ < cos x := by
    intro x hx
    rw [← cos_abs x]
    exact cos_lt_cos_of_nonneg_of_le_pi (abs_nonneg x) hθπ.le hx
  refine ⟨?_, ?_, ?_, ?_, ?_, ?_, ?_⟩
  · have : 0 < (θ - α) / v := div_pos (by linarith) hv0
    linarith
  · intro t t1 t2
    rw [hlt]
    have h2 : v * (t - now) < θ - α := by
      have : t - now < (θ - α) / v := by linarith
      rw [lt_div_iff₀ hv0] at this
      linarith
    have h1 : 0 ≤ v * (t - now) := mul_nonneg hv0.le (by linarith)
    exact hin _ (abs_lt.mpr ⟨by linarith, by linarith⟩)
  · intro hs t t1 t2
    have hα' : -θ < α - v := by
      refine hsoon.resolve_left fun h => ?_
      have : 2 < (θ - α) / v := by rw [lt_div_iff₀ hv0]; exact h
      linarith
    rw [hlt]
    have h1 : -v ≤ v * (t - now) := by nlinarith
    have h2 : v * (t - now) ≤ 0 := mul_nonpos_of_nonneg_of_nonpos hv0.le (by linarith)
    exact hin _ (abs_lt.mpr ⟨by linarith, by linarith⟩)
  · intro t t1 t2 _
    rw [hgt]
    have h1 : θ - α < v * (t - now) := by
      have : (θ - α) / v < t - now := by linarith
      rw [div_lt_iff₀ hv0] at this
      linarith
    have h2 : v * (t - now) < 2 * π - θ - α := by
      have : t - now < (2 * π - θ - α) / v := by linarith
      rw [lt_div_iff₀ hv0] at this
      linarith
    rcases le_total (α + v * (t - now)) π with hle | hle
    · exact cos_lt_cos_of_nonneg_of_le_pi hθ.le hle (by linarith)
    · rw [← cos_two_pi_sub]
      exact cos_lt_cos_of_nonneg_of_le_pi hθ.le (by linarith) (by linarith)
  · intro t t1 t2
    rw [hlt]
    have h1 : 2 * π - θ - α < v * (t - now) := by
      have : (2 * π - θ - α) / v < t - now := by linarith
      rw [div_lt_iff₀ hv0] at this
      linarith
    have h2 : v * (t - now) ≤ v * (T + 2) := by
      have : t - now ≤ T + 2 := by linarith
      gcongr
    rw [← cos_sub_two_pi (α + v * (t - now))]
    exact hin _ (abs_lt.mpr ⟨by linarith, by linarith⟩)
  · have : (θ - α) / v < T / 2 := by rw [div_lt_iff₀ hv0]; linarith
    linarith
  · have : T / 2 + 2 < (2 * π - θ - α) / v := by rw [lt_div_iff₀ hv0]; linarith
    linarith

/-! ## Two passes on which the method needs two steps only -/

/-- When the secant through the two ends meets the axis in the root, the method stops there. -/
theorem secant_hit {f : ℝ → ℝ} {lo hi x : ℝ} (hlo : 0 < lo) (h : lo < hi) (hn : f lo < 0) (hp : -f lo < f hi)
    (hx : (x - lo) * (f hi - f lo) = (hi - lo) * -f lo) (hfar : 2.2204460492503131e-16 * lo < x - lo) (hroot : f x = 0) :
    ∃ s, brentRun f lo hi 1 = .ok (s, ⟨x, x, x⟩) := by
  have hF : 0 < f hi := by linarith
  have hD : 0 < f hi - f lo := by linarith
  have hxT : x - lo < hi - lo := by
    by_contra hcon
    have := mul_le_mul_of_nonneg_right (not_lt.mp hcon) hD.le
    nlinarith
  have hx0 : 0 < x - lo := lt_of_le_of_lt (by positivity) hfar
  have e1 : Brent.better (Brent.start f lo hi).sides = (⟨hi, lo, hi, hi - lo, hi - lo, f hi, f lo, f hi⟩, true) := by
    have hs : (Brent.start f lo hi).sides = (⟨lo, hi, lo, hi - lo, hi - lo, f lo, f hi, f lo⟩, true) := if_pos (.inr ⟨hF, hF⟩)
    rw [hs]
    exact if_pos (by rw [abs_of_neg hn, abs_of_pos hF]; exact hp)
  have htol : ∀ a b c d e f : ℝ, (⟨a, lo, b, c, d, e, f, e⟩ : Brent).tol = 0.5 * 2.2204460492503131e-16 * lo := fun _ _ _ _ _ _ => by
    simp [Brent.tol, abs_of_pos hlo]
  have hmid : ∀ a c d e f g : ℝ, (⟨a, lo, hi, c, d, e, f, g⟩ : Brent).mid = 0.5 * (hi - lo) := fun _ _ _ _ _ _ => rfl
  set ε : ℝ := 0.5 * 2.2204460492503131e-16 * lo with hε
  have hε0 : 0 < ε := by positivity
  have hε1 : ε < 0.5 * (x - lo) := by rw [hε]; linarith
  have e2 : (⟨hi, lo, hi, hi - lo, hi - lo, f hi, f lo, f hi⟩ : Brent).choose true = .ok (x - lo, hi - lo) := by
    have hq : 0 < 1 - f lo / f hi := by
      have : f lo / f hi < 0 := div_neg_of_neg_of_pos hn hF
      linarith
    have hlt1 : -(f lo / f hi) < 1 := by rw [← neg_div, div_lt_one hF]; exact hp
    unfold Brent.choose
    rw [if_neg (by
      rw [htol, abs_of_pos (by linarith : 0 < hi - lo), abs_of_neg hn, abs_of_pos hF]
      rintro (h | h) <;> linarith)]
    have hp0 : ¬ 0 < 2 * (0.5 * (hi - lo)) * (f lo / f hi) := by
      have : f lo / f hi < 0 := div_neg_of_neg_of_pos hn hF
      nlinarith
    have hc : 2 * -(2 * (0.5 * (hi - lo)) * (f lo / f hi)) <
        min (3 * (0.5 * (hi - lo)) * (1 - f lo / f hi) - |ε * (1 - f lo / f hi)|) |(hi - lo) * (1 - f lo / f hi)| := by
      have hT : 0 < hi - lo := by linarith
      rw [abs_of_pos (mul_pos hε0 hq), abs_of_pos (mul_pos hT hq), lt_min_iff]
      have h1 : ε * (1 - f lo / f hi) ≤ 0.5 * (hi - lo) * (1 - f lo / f hi) := mul_le_mul_of_nonneg_right (by linarith) hq.le
      have h2 : (hi - lo) * -(f lo / f hi) < (hi - lo) * 1 := mul_lt_mul_of_pos_left hlt1 hT
      constructor <;> nlinarith
    have hd : -(2 * (0.5 * (hi - lo)) * (f lo / f hi)) / (1 - f lo / f hi) = x - lo := by
      rw [div_eq_iff hq.ne']
      field_simp
      linarith
    simp only [Brent.ratio, cdiv, hF.ne', if_false, if_true, Outcome.bind_ok, hmid, htol, hp0, hc, hq.ne', hd]
  have e3 : (Brent.start f lo hi).iterate f = .ok (⟨lo, x, hi, x - lo, hi - lo, f lo, 0, f hi⟩, bracket x hi) := by
    unfold Brent.iterate
    rw [e1]
    have hstep : ε < |x - lo| := by rw [abs_of_pos hx0]; linarith
    simp only [hmid, htol, e2, hn.ne, if_false, Outcome.bind_ok, hstep]
    have hns : ¬ SameSign (0 : ℝ) (f hi) := by rintro (⟨h, -⟩ | ⟨h, -⟩) <;> exact lt_irrefl _ h
    rw [if_neg (by rw [abs_of_pos (by linarith)]; linarith)]
    simp only [add_sub_cancel, hroot, if_true]
    rw [if_neg]
    rwa [if_pos (by rw [htol]; exact hstep), add_sub_cancel, hroot]
  refine ⟨⟨lo, x, hi, x - lo, hi - lo, f lo, 0, f hi⟩, ?_⟩
  · simp only [brentRun, e3, Outcome.bind_ok]
    have hs : (⟨lo, x, hi, x - lo, hi - lo, f lo, 0, f hi⟩ : Brent).sides = (⟨lo, x, hi, x - lo, hi - lo, f lo, 0, f hi⟩, false) :=
      if_neg (by rintro (⟨h, -⟩ | ⟨h, -⟩) <;> exact lt_irrefl _ h)
    have hb : Brent.better (⟨lo, x, hi, x - lo, hi - lo, f lo, 0, f hi⟩, false) = (⟨lo, x, hi, x - lo, hi - lo, f lo, 0, f hi⟩, false) :=
      if_neg (by simp)
    unfold Brent.iterate
    rw [hs, hb]
    exact if_pos rfl

theorem secant_converges {o : Elements} {ob : Observer} {target : ℝ} {rf : RootFinder} (hb : IsBrent o ob target rf) {lo hi x : ℝ} (hlo : 0 < lo)
    (h : lo < hi) (hn : excess o ob target lo < 0) (hp : -excess o ob target lo < excess o ob target hi)
    (hx : (x - lo) * (excess o ob target hi - excess o ob target lo) = (hi - lo) * -excess o ob target lo)
    (hfar : 2.2204460492503131e-16 * lo < x - lo) (hroot : excess o ob target x = 0) : Converges rf lo hi := by
  obtain ⟨s, hs⟩ := secant_hit hlo h hn hp hx hfar hroot
  obtain ⟨s', hs'⟩ := hb lo hi 1 h.le
  rw [hs] at hs'
  simp only [Outcome.ok.injEq, Prod.mk.injEq] at hs'
  have hx0 : 0 < x := by
    have : 0 ≤ 2.2204460492503131e-16 * lo := by positivity
    linarith
  refine ⟨1, by norm_num, ?_⟩
  rw [← hs'.2]
  simp [testInterval, hx0, hx0.ne']
  norm_num

theorem equator_converges {ρ φ lon R target now T α θ : ℝ} {rf : RootFinder} (hb : IsBrent ⟨0, 0, ρ, φ⟩ ⟨0, lon, R⟩ target rf) (hρ : 0 < ρ)
    (hR : 0 < R) (htarget : target ^ 2 = ρ ^ 2 + R ^ 2 - 2 * ρ * R * cos θ) (hfast : earthRotation < meanMotion ρ)
    (hα : (meanMotion ρ - earthRotation) * now + (φ - lon) = α) (hnow : 0 < now) (hT : 0 < T)
    (hchord : (cos α - cos θ) * ((meanMotion ρ - earthRotation) * T) = (cos α - cos (α + (meanMotion ρ - earthRotation) * T)) * (θ - α))
    (hlt : cos θ < cos α) (hhi : cos α + cos (α + (meanMotion ρ - earthRotation) * T) < 2 * cos θ)
    (hfar : 2.2204460492503131e-16 * now * (meanMotion ρ - earthRotation) < θ - α) : Converges rf now (now + T) := by
  have hv0 : 0 < meanMotion ρ - earthRotation := by linarith
  set v := meanMotion ρ - earthRotation with hv
  have hex : ∀ t, excess ⟨0, 0, ρ, φ⟩ ⟨0, lon, R⟩ target t = 2 * ρ * R * (cos θ - cos (α + v * (t - now))) := by
    intro t
    unfold excess
    rw [gap_equator, htarget, show (meanMotion ρ - earthRotation) * t + (φ - lon) = α + v * (t - now) by rw [← hα, hv]; ring]
    ring
  have hK : 0 < 2 * ρ * R := by positivity
  have e1 : α + v * (now - now) = α := by ring
  have e2 : α + v * (now + T - now) = α + v * T := by ring
  have e3 : α + v * (now + (θ - α) / v - now) = θ := by field_simp; ring
  refine secant_converges hb (x := now + (θ - α) / v) hnow (by linarith) ?_ ?_ ?_ ?_ ?_
  · rw [hex, e1]; exact mul_neg_of_pos_of_neg hK (by linarith)
  · rw [hex, hex, e1, e2, ← mul_neg]; exact mul_lt_mul_of_pos_left (by linarith) hK
  · rw [hex, hex, e1, e2]
    field_simp
    ring_nf
    ring_nf at hchord
    linarith
  · rw [add_sub_cancel_left, lt_div_iff₀ hv0]; exact hfar
  · rw [hex, e3]; ring

/-- There is a rising angle at which the secant through the two ends of a full period meets the distance. -/
theorem exists_chord {L x1 x2 α : ℝ} (h : x1 ≤ x2)
    (h1 : (cos α - cos (α + x1)) * L ≤ (cos α - cos (α + L)) * x1) (h2 : (cos α - cos (α + L)) * x2 ≤ (cos α - cos (α + x2)) * L) :
    ∃ θ, α + x1 ≤ θ ∧ θ ≤ α + x2 ∧ (cos α - cos θ) * L = (cos α - cos (α + L)) * (θ - α) := by
  have hcont : Continuous fun x => (cos α - cos (α + x)) * L - (cos α - cos (α + L)) * x := by fun_prop
  obtain ⟨x, ⟨a, b⟩, hx⟩ := intermediate_value_Icc h hcont.continuousOn ⟨sub_nonpos.mpr h1, sub_nonneg.mpr h2⟩
  refine ⟨α + x, by linarith, by linarith, ?_⟩
  dsimp only at hx
  rw [add_sub_cancel_left]
  linarith

theorem motion7000 : 0.00107 ≤ meanMotion 7000000 ∧ meanMotion 7000000 ≤ 0.00108 := by
  unfold meanMotion
  exact ⟨le_sqrt_of_sq_le (by norm_num), (sqrt_le_left (by norm_num)).mpr (by norm_num)⟩

theorem period7000 (φ : ℝ) : orbitalPeriod ⟨0, 0, 7000000, φ⟩ = .ok (2 * π / meanMotion 7000000) := by
  unfold orbitalPeriod
  simp [getN_eq (by norm_num : (0 : ℝ) < 7000000), cdiv, (meanMotion_pos (by norm_num : (0 : ℝ) < 7000000)).ne']

theorem strictMono_equator {ρ φ lon R now α θ : ℝ} (hρ : 0 < ρ) (hR : 0 < R) (hfast : earthRotation < meanMotion ρ)
    (hα : (meanMotion ρ - earthRotation) * now + (φ - lon) = α) (hα0 : 0 ≤ α) (hθ : θ ≤ π) :
    StrictMonoOn (gap ⟨0, 0, ρ, φ⟩ ⟨0, lon, R⟩) (Set.Icc now (now + (θ - α) / (meanMotion ρ - earthRotation))) := by
  have hv0 : 0 < meanMotion ρ - earthRotation := by linarith
  set v := meanMotion ρ - earthRotation with hv
  rintro s ⟨s1, s2⟩ t ⟨t1, t2⟩ hst
  refine lt_of_pow_lt_pow_left₀ 2 (gap_nonneg _ _ _) ?_
  rw [gap_equator, gap_equator, ← hv]
  have h1 : v * s < v * t := mul_lt_mul_of_pos_left hst hv0
  have h2 : v * now ≤ v * s := mul_le_mul_of_nonneg_left s1 hv0.le
  have h3 : v * t ≤ v * now + (θ - α) := by
    have := mul_le_mul_of_nonneg_left t2 hv0.le
    rwa [mul_add, mul_div_cancel₀ _ hv0.ne'] at this
  have := cos_lt_cos_of_nonneg_of_le_pi (x := v * s + (φ - lon)) (y := v * t + (φ - lon)) (by linarith) (by linarith) (by linarith)
  have := mul_lt_mul_of_pos_left this (by positivity : 0 < 2 * ρ * R)
  linarith

theorem cos_le_poly {x : ℝ} (h : |x| ≤ 1) : cos x ≤ 1 - x ^ 2 / 2 + x ^ 4 * (5 / 96) := by
  have h1 := (abs_le.mp (cos_bound h)).2
  have h2 : |x| ^ 4 = x ^ 4 := by rw [← abs_pow, abs_of_nonneg (by positivity)]
  rw [h2] at h1
  linarith

/-- All that `C81_not_late` and `C81_one_second_early` ask for: 629 km above the equator, straight over the observer at time 1000. -/
theorem equator7000 : ∃ (lon target T τ τ' : ℝ) (rf : RootFinder), IsBrent ⟨0, 0, 7000000, 0⟩ ⟨0, lon, 6371000⟩ target rf ∧ 0 ≤ target ∧
    target ^ 2 ≤ 629000 ^ 2 + 0.01 * 7000000 * 6371000 ∧ orbitalPeriod ⟨0, 0, 7000000, 0⟩ = .ok T ∧ 1 ≤ T ∧ 1000 + T ≤ 1000000 ∧ Pass ⟨0, 0, 7000000, 0⟩ ⟨0, lon, 6371000⟩ target 1000 T τ τ' ∧
    1000 + T < τ' ∧ 1000 + 2 < τ ∧ StrictMonoOn (gap ⟨0, 0, 7000000, 0⟩ ⟨0, lon, 6371000⟩) (Set.Icc 1000 τ) ∧ Converges rf 1000 (1000 + T) ∧
    ∀ r, distanceSolver true rf ⟨0, 0, 7000000, 0⟩ ⟨0, lon, 6371000⟩ target 1000 (1000 + T) = .ok (some r) → 1000 + T / 2 - 1 < r →
      Converges rf 1000 (r - 1) := by
  obtain ⟨n1, n2⟩ := motion7000
  have p1 := pi_gt_d6
  have p2 := pi_lt_d6
  have hω : earthRotation = 7.292115922e-5 := rfl
  have hn0 : 0 < meanMotion 7000000 := by linarith
  have hfast : earthRotation < meanMotion 7000000 := by rw [hω]; linarith
  have hv0 : 0 < meanMotion 7000000 - earthRotation := by linarith
  have hv1 : meanMotion 7000000 - earthRotation < 0.00101 := by rw [hω]; linarith
  have hv2 : 0.00099 < meanMotion 7000000 - earthRotation := by rw [hω]; linarith
  obtain ⟨T, hT⟩ : ∃ T, T = 2 * π / meanMotion 7000000 := ⟨_, rfl⟩
  have hTn : T * meanMotion 7000000 = 2 * π := by rw [hT]; field_simp
  have hT1 : 5800 < T := by rw [hT, lt_div_iff₀ hn0]; linarith
  have hT2 : T < 5900 := by rw [hT, div_lt_iff₀ hn0]; linarith
  obtain ⟨D, hD⟩ : ∃ D, D = earthRotation * T := ⟨_, rfl⟩
  have hL : (meanMotion 7000000 - earthRotation) * T = 2 * π - D := by rw [hD, ← hTn]; ring
  have hD1 : 0.42 < D := by rw [hD, hω]; linarith
  have hD2 : D < 0.431 := by rw [hD, hω]; linarith
  have hcosL : cos (0 + (meanMotion 7000000 - earthRotation) * T) = cos D := by rw [zero_add, hL, cos_two_pi_sub]
  have c1 : cos D ≤ 1 - 0.08 := by
    have := cos_le_poly (x := D) (by rw [abs_of_pos (by linarith)]; linarith)
    have h4 : D ^ 4 ≤ 0.431 ^ 4 := pow_le_pow_left₀ (by linarith) hD2.le 4
    nlinarith
  have c2 : 1 - 0.093 ≤ cos D := by nlinarith [one_sub_sq_div_two_le_cos (x := D)]
  obtain ⟨θ, t1, t2, hθ⟩ := exists_chord (L := (meanMotion 7000000 - earthRotation) * T) (x1 := 0.02) (x2 := 0.1) (α := 0) (by norm_num)
    (by
      rw [hcosL, cos_zero, hL, zero_add]
      have := one_sub_sq_div_two_le_cos (x := 0.02)
      have h2 : (1 - cos 0.02) * (2 * π - D) ≤ 0.0002 * 6 := mul_le_mul (by linarith) (by linarith) (by linarith) (by norm_num)
      linarith)
    (by
      rw [hcosL, cos_zero, hL, zero_add]
      have := cos_le_poly (x := 0.1) (by rw [abs_of_pos] <;> norm_num)
      have h2 : 0.004 * 5 ≤ (1 - cos 0.1) * (2 * π - D) := mul_le_mul (by linarith) (by linarith) (by norm_num) (by linarith)
      linarith)
  rw [zero_add] at t1 t2
  have hθ1 : 1 - 0.005 ≤ cos θ := by nlinarith [one_sub_sq_div_two_le_cos (x := θ)]
  have hθ2 : cos θ < cos 0 := cos_lt_cos_of_nonneg_of_le_pi (le_refl _) (by linarith) (by linarith)
  have hK : 0 ≤ (7000000 : ℝ) ^ 2 + 6371000 ^ 2 - 2 * 7000000 * 6371000 * cos θ := by nlinarith [cos_le_one θ]
  obtain ⟨target, ht, htarget⟩ : ∃ target : ℝ, 0 ≤ target ∧ target ^ 2 = 7000000 ^ 2 + 6371000 ^ 2 - 2 * 7000000 * 6371000 * cos θ :=
    ⟨_, sqrt_nonneg _, sq_sqrt hK⟩
  obtain ⟨rf, hrf⟩ := exists_brent ⟨0, 0, 7000000, 0⟩ ⟨0, (meanMotion 7000000 - earthRotation) * 1000, 6371000⟩ target
  have hα : (meanMotion 7000000 - earthRotation) * 1000 + (0 - (meanMotion 7000000 - earthRotation) * 1000) = 0 := by ring
  have hpass := C81_equator (T := T) (by norm_num) (by norm_num) ht htarget hfast hα (by linarith) (by linarith) (by linarith)
    (.inl (by linarith)) (by linarith) (by linarith) (by linarith)
  have hconv := equator_converges hrf (by norm_num) (by norm_num) htarget hfast hα (by norm_num) (by linarith : 0 < T) hθ hθ2
    (by rw [hcosL, cos_zero]; linarith) (by linarith)
  have honce : 1000 + T < 1000 + (2 * π - θ - 0) / (meanMotion 7000000 - earthRotation) := by
    rw [add_lt_add_iff_left, lt_div_iff₀ hv0]
    linarith
  refine ⟨_, target, T, _, _, rf, hrf, ht, by linarith, hT ▸ period7000 0, by linarith, by linarith, hpass, honce, ?_,
    strictMono_equator (by norm_num) (by norm_num) hfast hα (le_refl _) (by linarith), hconv, ?_⟩
  · rw [add_lt_add_iff_left, lt_div_iff₀ hv0]
    linarith
  · intro r hr hlate
    obtain ⟨r', hr', -, -, hcase⟩ := first_search (debug := true) hrf (by norm_num) ht (by linarith) (by linarith) (by norm_num) hpass hconv
    rw [hr] at hr'
    simp only [Outcome.ok.injEq, Option.some.injEq] at hr'
    subst hr'
    have h1 : (θ - 0) / (meanMotion 7000000 - earthRotation) < 200 := by
      rw [div_lt_iff₀ hv0]
      linarith
    rcases hcase with h | ⟨-, h⟩
    · have := (abs_lt.mp h).2
      linarith
    · linarith

theorem motion1000 : 0.01996 ≤ meanMotion 1000000 ∧ meanMotion 1000000 ≤ 0.01997 := by
  unfold meanMotion
  exact ⟨le_sqrt_of_sq_le (by norm_num), (sqrt_le_left (by norm_num)).mpr (by norm_num)⟩

/-- All that `C81_just_risen` asks for; the orbit is a small one, so that the method hits the setting exactly. -/
example : ∃ (lon target T τ τ' : ℝ) (rf : RootFinder), IsBrent ⟨0, 0, 1000000, 0⟩ ⟨0, lon, 900000⟩ target rf ∧ 0 ≤ target ∧
    orbitalPeriod ⟨0, 0, 1000000, 0⟩ = .ok T ∧ 1000 + T ≤ 1000000 ∧ Pass ⟨0, 0, 1000000, 0⟩ ⟨0, lon, 900000⟩ target 1000 T τ τ' ∧
    1000 + T < τ' ∧ 1000 + 2 < τ ∧ Converges rf 1000 (1000 + T) ∧
    ∀ t, 1000 < t → t ≤ τ - 1 + 0.000001 * τ → gap ⟨0, 0, 1000000, 0⟩ ⟨0, lon, 900000⟩ t < gap ⟨0, 0, 1000000, 0⟩ ⟨0, lon, 900000⟩ 1000 := by
  obtain ⟨n1, n2⟩ := motion1000
  have p1 := pi_gt_d6
  have p2 := pi_lt_d6
  have hω : earthRotation = 7.292115922e-5 := rfl
  have hn0 : 0 < meanMotion 1000000 := by linarith
  have hfast : earthRotation < meanMotion 1000000 := by rw [hω]; linarith
  have hv0 : 0 < meanMotion 1000000 - earthRotation := by linarith
  have hv1 : meanMotion 1000000 - earthRotation < 0.0199 := by rw [hω]; linarith
  have hv2 : 0.0198 < meanMotion 1000000 - earthRotation := by rw [hω]; linarith
  obtain ⟨T, hT⟩ : ∃ T, T = 2 * π / meanMotion 1000000 := ⟨_, rfl⟩
  have hTn : T * meanMotion 1000000 = 2 * π := by rw [hT]; field_simp
  have hT1 : 314 < T := by rw [hT, lt_div_iff₀ hn0]; linarith
  have hT2 : T < 315 := by rw [hT, div_lt_iff₀ hn0]; linarith
  obtain ⟨D, hD⟩ : ∃ D, D = earthRotation * T := ⟨_, rfl⟩
  have hL : (meanMotion 1000000 - earthRotation) * T = 2 * π - D := by rw [hD, ← hTn]; ring
  have hD1 : 0.022 < D := by rw [hD, hω]; linarith
  have hD2 : D < 0.023 := by rw [hD, hω]; linarith
  have hcosL : cos (-0.3 + (meanMotion 1000000 - earthRotation) * T) = cos (0.3 + D) := by
    rw [hL, show (-0.3 : ℝ) + (2 * π - D) = 2 * π - (0.3 + D) by ring, cos_two_pi_sub]
  have hcosα : cos (-0.3) = cos 0.3 := cos_neg _
  have c1 : cos (0.3 + D) < cos 0.3 := cos_lt_cos_of_nonneg_of_le_pi (by norm_num) (by linarith) (by linarith)
  have c2 : cos 0.3 - cos (0.3 + D) ≤ 0.023 := by
    have h1 := le_trans (le_abs_self _) (abs_cos_sub_cos_le 0.3 (0.3 + D))
    rw [show (0.3 : ℝ) - (0.3 + D) = -D by ring, abs_neg, abs_of_pos (by linarith)] at h1
    linarith
  have hLpos : 6.2 < 2 * π - D := by linarith
  obtain ⟨θ, t1, t2, hθ⟩ := exists_chord (L := (meanMotion 1000000 - earthRotation) * T) (x1 := 0.6) (x2 := 0.61) (α := -0.3) (by norm_num)
    (by
      rw [hcosL, hcosα, show (-0.3 : ℝ) + 0.6 = 0.3 by norm_num, sub_self, zero_mul]
      exact mul_nonneg (by linarith) (by norm_num))
    (by
      rw [hcosL, hcosα, hL, show (-0.3 : ℝ) + 0.61 = 0.31 by norm_num]
      have h1 : 0.0029 ≤ cos 0.3 - cos 0.31 := by
        rw [cos_sub_cos, show ((0.3 : ℝ) + 0.31) / 2 = 0.305 by norm_num, show ((0.3 : ℝ) - 0.31) / 2 = -0.005 by norm_num, sin_neg]
        have h2 := sin_gt_sub_cube (x := 0.305) (by norm_num)
        have h3 := sin_gt_sub_cube (x := 0.005) (by norm_num)
        have h4 : (0.297 : ℝ) * 0.0049 ≤ sin 0.305 * sin 0.005 := mul_le_mul (by linarith) (by linarith) (by norm_num) (by linarith)
        linarith
      have h2 : (0.0029 : ℝ) * 6.2 ≤ (cos 0.3 - cos 0.31) * (2 * π - D) := mul_le_mul h1 hLpos.le (by norm_num) (by linarith)
      linarith)
  have hθα : 0 < cos (-0.3) - cos θ := by
    have h1 : 0 < (cos (-0.3) - cos θ) * ((meanMotion 1000000 - earthRotation) * T) := by
      rw [hθ, hcosL, hcosα]
      exact mul_pos (by linarith) (by linarith)
    rw [hL] at h1
    exact pos_of_mul_pos_left h1 (by linarith)
  have hθ3 : 0.3 < θ := by
    refine lt_of_le_of_ne (by linarith) fun h => ?_
    rw [← h, hcosα, sub_self] at hθα
    exact lt_irrefl _ hθα
  have hhi : cos (-0.3) + cos (-0.3 + (meanMotion 1000000 - earthRotation) * T) < 2 * cos θ := by
    rw [hcosL, hcosα]
    rw [hcosL, hL, hcosα] at hθ
    rw [hcosα] at hθα
    have h1 : (cos 0.3 - cos (0.3 + D)) * (θ - -0.3) ≤ (cos 0.3 - cos (0.3 + D)) * 1 := mul_le_mul_of_nonneg_left (by linarith) (by linarith)
    have h2 : (cos 0.3 - cos θ) * 6.2 ≤ (cos 0.3 - cos θ) * (2 * π - D) := mul_le_mul_of_nonneg_left hLpos.le hθα.le
    linarith
  have hK : 0 ≤ (1000000 : ℝ) ^ 2 + 900000 ^ 2 - 2 * 1000000 * 900000 * cos θ := by nlinarith [cos_le_one θ]
  obtain ⟨target, ht, htarget⟩ : ∃ target : ℝ, 0 ≤ target ∧ target ^ 2 = 1000000 ^ 2 + 900000 ^ 2 - 2 * 1000000 * 900000 * cos θ :=
    ⟨_, sqrt_nonneg _, sq_sqrt hK⟩
  obtain ⟨rf, hrf⟩ := exists_brent ⟨0, 0, 1000000, 0⟩ ⟨0, (meanMotion 1000000 - earthRotation) * 1000 + 0.3, 900000⟩ target
  have hα : (meanMotion 1000000 - earthRotation) * 1000 + (0 - ((meanMotion 1000000 - earthRotation) * 1000 + 0.3)) = -0.3 := by ring
  have hpass := C81_equator (T := T) (by norm_num) (by norm_num) ht htarget hfast hα (by linarith) (by linarith) (by linarith)
    (.inl (by linarith)) (by linarith) (by linarith) (by linarith)
  have hconv := equator_converges hrf (by norm_num) (by norm_num) htarget hfast hα (by norm_num) (by linarith : 0 < T) hθ (by linarith) hhi
    (by linarith)
  refine ⟨_, target, T, _, _, rf, hrf, ht, ?_, by linarith, hpass, ?_, ?_, hconv, ?_⟩
  · rw [hT, orbitalPeriod]
    simp [getN_eq (by norm_num : (0 : ℝ) < 1000000), cdiv, hn0.ne']
  · rw [add_lt_add_iff_left, lt_div_iff₀ hv0]
    linarith
  · rw [add_lt_add_iff_left, lt_div_iff₀ hv0]
    linarith
  · intro t a b
    refine lt_of_pow_lt_pow_left₀ 2 (gap_nonneg _ _ _) ?_
    rw [gap_equator, gap_equator, hα]
    have hτ : (θ - -0.3) / (meanMotion 1000000 - earthRotation) < 100 := by
      rw [div_lt_iff₀ hv0]
      linarith
    have h1 : (meanMotion 1000000 - earthRotation) * (t - 1000) ≤ (θ - -0.3) - (meanMotion 1000000 - earthRotation) * 0.99 := by
      have h2 : t - 1000 ≤ (θ - -0.3) / (meanMotion 1000000 - earthRotation) - 0.99 := by linarith
      have h3 := mul_le_mul_of_nonneg_left h2 hv0.le
      rwa [mul_sub _ (_ / _), mul_div_cancel₀ _ hv0.ne'] at h3
    have h2 : 0 < (meanMotion 1000000 - earthRotation) * (t - 1000) := mul_pos hv0 (by linarith)
    have h3 : (meanMotion 1000000 - earthRotation) * t + (0 - ((meanMotion 1000000 - earthRotation) * 1000 + 0.3)) =
        -0.3 + (meanMotion 1000000 - earthRotation) * (t - 1000) := by ring
    have h4 : cos (-0.3) < cos (-0.3 + (meanMotion 1000000 - earthRotation) * (t - 1000)) := by
      rw [hcosα, ← cos_abs (-0.3 + _)]
      exact cos_lt_cos_of_nonneg_of_le_pi (abs_nonneg _) (by linarith) (abs_lt.mpr ⟨by linarith, by linarith⟩)
    rw [h3]
    linarith

end Orbit
end Icarus
