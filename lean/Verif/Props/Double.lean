import Verif.Lemmas.Double
import Verif.Props.Aloha
import Verif.Props.CrdsaSlots
import Mathlib.Analysis.Complex.ExponentialBounds

/-!
# C84: the decisions of the MAC layers in floating-point arithmetic

The models of the receivers and of the draw of the number of replicas are those of C18 – C26; their numbers are now `Dbl fl`.
-/

set_option autoImplicit false

namespace Icarus
namespace Double

variable {fl : ℝ → ℝ}

/-! ## Number of replicas -/

/-- Adding up from the left in floating-point arithmetic. -/
def roundedSum (fl : ℝ → ℝ) (xs : List ℝ) : ℝ := xs.foldl (fun a x => fl (a + x)) 0

theorem foldl_ge (hfl : Rounding fl) (xs : List ℝ) (a : ℝ) (ha : Representable a) (hnn : ∀ x ∈ xs, 0 ≤ x) :
    a ≤ xs.foldl (fun a x => fl (a + x)) a := by
  induction xs generalizing a with
  | nil => exact le_refl _
  | cons x xs ih =>
    have h1 : a ≤ fl (a + x) := by
      have := hfl.mono (show a ≤ a + x by linarith [hnn x (by simp)])
      rwa [hfl.fixed ha] at this
    exact le_trans h1 (ih _ (hfl.rep _) (fun y hy => hnn y (by simp [hy])))

theorem loop_interval (hfl : Rounding fl) (p : Dbl fl) (cs : List (Dbl fl)) (n : Nat) (acc : Dbl fl) (hacc : Representable acc.val)
    (hnn : ∀ c ∈ cs, 0 ≤ c.val) (hp : acc.val ≤ p.val) (m : Nat) :
    Crdsa.replicaLoop p n acc cs = .ok m ↔
      n ≤ m ∧ m < n + cs.length ∧ ((cs.take (m - n)).map Dbl.val).foldl (fun a x => fl (a + x)) acc.val ≤ p.val ∧
        p.val < ((cs.take (m - n + 1)).map Dbl.val).foldl (fun a x => fl (a + x)) acc.val := by
  induction cs generalizing n acc with
  | nil => simp [Crdsa.replicaLoop]
  | cons c cs ih =>
    unfold Crdsa.replicaLoop
    have hc0 : 0 ≤ c.val := hnn c (by simp)
    by_cases hlt : p < acc + c
    · have hlt' : p.val < fl (acc.val + c.val) := hlt
      have hpos : 0 < c := by
        rw [Dbl.lt_def, Dbl.zero_val]
        rcases hc0.eq_or_lt with h | h
        · rw [← h, add_zero, hfl.fixed hacc] at hlt'
          linarith
        · exact h
      rw [if_pos ⟨hpos, hlt⟩]
      constructor
      · intro h
        simp only [Outcome.ok.injEq] at h
        subst h
        simpa using ⟨hp, hlt'⟩
      · rintro ⟨h1, h2, h3, h4⟩
        rcases h1.eq_or_lt with h | h
        · rw [h]
        · exfalso
          obtain ⟨k, rfl⟩ : ∃ k, m = n + (k + 1) := ⟨m - n - 1, by omega⟩
          rw [show n + (k + 1) - n = k + 1 by omega, List.take_succ_cons, List.map_cons, List.foldl_cons] at h3
          have := foldl_ge hfl ((cs.take k).map Dbl.val) (fl (acc.val + c.val)) (hfl.rep _) (by
            intro x hx
            obtain ⟨d, hd, rfl⟩ := List.mem_map.mp hx
            exact hnn d (by simp [List.mem_of_mem_take hd]))
          linarith
    · rw [if_neg (fun h => hlt h.2), ih (n + 1) (acc + c) (hfl.rep _) (fun d hd => hnn d (by simp [hd])) (not_lt.mp hlt)]
      constructor
      · rintro ⟨h1, h2, h3, h4⟩
        obtain ⟨k, rfl⟩ : ∃ k, m = n + 1 + k := ⟨m - (n + 1), by omega⟩
        rw [show n + 1 + k - (n + 1) = k by omega] at h3 h4
        refine ⟨by omega, by simp only [List.length_cons]; omega, ?_, ?_⟩
        · rw [show n + 1 + k - n = k + 1 by omega]
          exact h3
        · rw [show n + 1 + k - n + 1 = (k + 1) + 1 by omega]
          exact h4
      · rintro ⟨h1, h2, h3, h4⟩
        rcases h1.eq_or_lt with h | h
        · exfalso
          subst h
          simp only [Nat.sub_self, Nat.zero_add, List.take_succ_cons, List.take_zero, List.map_cons, List.map_nil, List.foldl_cons,
            List.foldl_nil] at h4
          exact hlt h4
        · obtain ⟨k, rfl⟩ : ∃ k, m = n + 1 + k := ⟨m - (n + 1), by omega⟩
          rw [show n + 1 + k - n = k + 1 by omega] at h3 h4
          rw [show n + 1 + k - (n + 1) = k by omega]
          exact ⟨by omega, by simp only [List.length_cons] at h2; omega, h3, h4⟩

/-- The drawn count is the one between whose rounded partial sums the sample lies. -/
theorem C84_interval (hfl : Rounding fl) (debug : Bool) (cs : List (Dbl fl)) (hsz : cs ≠ []) (hnn : ∀ c ∈ cs, 0 ≤ c.val) (p : Dbl fl)
    (hp : 0 ≤ p.val) (n : Nat) :
    Crdsa.numReplicas debug (0 :: cs) p = .ok n ↔
      1 ≤ n ∧ n ≤ cs.length ∧ roundedSum fl ((cs.take (n - 1)).map Dbl.val) ≤ p.val ∧
        p.val < roundedSum fl ((cs.take n).map Dbl.val) := by
  obtain ⟨c, cs', rfl⟩ := List.exists_cons_of_ne_nil hsz
  have : Crdsa.numReplicas debug (0 :: c :: cs') p = Crdsa.replicaLoop p 1 0 (c :: cs') := by
    simp [Crdsa.numReplicas, Outcome.nsAssert]
  rw [this, loop_interval hfl p (c :: cs') 1 0 representable_zero hnn hp]
  unfold roundedSum
  constructor
  · rintro ⟨h1, h2, h3, h4⟩
    rw [show n - 1 + 1 = n by omega] at h4
    exact ⟨h1, by omega, h3, h4⟩
  · rintro ⟨h1, h2, h3, h4⟩
    rw [show n - 1 + 1 = n by omega]
    exact ⟨h1, by omega, h3, h4⟩

theorem sum_nonneg' {xs : List ℝ} (hnn : ∀ x ∈ xs, 0 ≤ x) : 0 ≤ xs.sum := List.sum_nonneg hnn

theorem roundedSum_err (hfl : Rounding fl) (xs : List ℝ) (hnn : ∀ x ∈ xs, 0 ≤ x) :
    |roundedSum fl xs - xs.sum| ≤ ((1 + 2⁻¹ ^ 53) ^ xs.length - 1) * xs.sum := by
  induction xs using List.reverseRecOn with
  | nil => simp [roundedSum]
  | append_singleton xs x ih =>
    have hx : 0 ≤ x := hnn x (by simp)
    have hnn' : ∀ y ∈ xs, 0 ≤ y := fun y hy => hnn y (by simp [hy])
    have ih := ih hnn'
    have hs := sum_nonneg' hnn'
    have e : roundedSum fl (xs ++ [x]) = fl (roundedSum fl xs + x) := by simp [roundedSum]
    rw [e, List.sum_append, List.sum_singleton, List.length_append, List.length_singleton, pow_succ]
    have hu : (0 : ℝ) ≤ 2⁻¹ ^ 53 := by positivity
    have herr := hfl.err (roundedSum fl xs + x)
    generalize (2⁻¹ : ℝ) ^ 53 = u at *
    generalize roundedSum fl xs = S at *
    generalize xs.sum = E at *
    have hone : 1 ≤ (1 + u) ^ xs.length := one_le_pow₀ (by linarith)
    generalize (1 + u) ^ xs.length = q at *
    have h1 : |S + x| ≤ |S - E| + (E + x) := by
      calc |S + x| = |(S - E) + (E + x)| := by ring_nf
        _ ≤ |S - E| + |E + x| := abs_add_le _ _
        _ = |S - E| + (E + x) := by rw [abs_of_nonneg (by linarith : 0 ≤ E + x)]
    have h2 : |fl (S + x) - (E + x)| ≤ |fl (S + x) - (S + x)| + |S - E| := by
      calc |fl (S + x) - (E + x)| = |(fl (S + x) - (S + x)) + (S - E)| := by ring_nf
        _ ≤ _ := abs_add_le _ _
    have h3 : u * |S + x| ≤ u * (|S - E| + (E + x)) := mul_le_mul_of_nonneg_left h1 hu
    have h4 : u * |S - E| ≤ u * ((q - 1) * E) := mul_le_mul_of_nonneg_left ih hu
    have h5 : 0 ≤ (q - 1) * x * (1 + u) := by
      have : 0 ≤ q - 1 := by linarith
      positivity
    nlinarith

theorem pow_bound (n : Nat) (hn : n ≤ 65536) : (1 + (2⁻¹ : ℝ) ^ 53) ^ n - 1 ≤ 2⁻¹ ^ 36 := by
  have hb := one_add_mul_le_pow (a := -(2⁻¹ : ℝ) ^ 53) (by norm_num) n
  have hn' : (n : ℝ) ≤ 65536 := by exact_mod_cast hn
  have hprod : (1 + (2⁻¹ : ℝ) ^ 53) ^ n * (1 + -(2⁻¹ : ℝ) ^ 53) ^ n ≤ 1 := by
    rw [← mul_pow]
    exact pow_le_one₀ (by norm_num) (by norm_num)
  have hpos : 0 < (1 + (2⁻¹ : ℝ) ^ 53) ^ n := by positivity
  generalize (1 + (2⁻¹ : ℝ) ^ 53) ^ n = q at *
  generalize (1 + -(2⁻¹ : ℝ) ^ 53) ^ n = r at *
  have hr : 1 - (2⁻¹ : ℝ) ^ 37 ≤ r := by
    have : (n : ℝ) * (2⁻¹ : ℝ) ^ 53 ≤ 65536 * 2⁻¹ ^ 53 := mul_le_mul_of_nonneg_right hn' (by positivity)
    have e : (65536 : ℝ) * 2⁻¹ ^ 53 = 2⁻¹ ^ 37 := by norm_num
    rw [e] at this
    linarith
  have h1 : q * (1 - (2⁻¹ : ℝ) ^ 37) ≤ 1 := le_trans (mul_le_mul_of_nonneg_left hr hpos.le) hprod
  norm_num at h1 ⊢
  linarith

/-- The sum of at most 65536 non-negative numbers is off by less than one part in 2^36. -/
theorem C84_error (hfl : Rounding fl) (xs : List ℝ) (hnn : ∀ x ∈ xs, 0 ≤ x) (hlen : xs.length ≤ 65536) :
    |roundedSum fl xs - xs.sum| ≤ 2⁻¹ ^ 36 * xs.sum :=
  le_trans (roundedSum_err hfl xs hnn) (mul_le_mul_of_nonneg_right (pow_bound _ hlen) (sum_nonneg' hnn))

theorem sum_take_le {xs : List ℝ} (hnn : ∀ x ∈ xs, 0 ≤ x) (n : Nat) : (xs.take n).sum ≤ xs.sum := by
  conv_rhs => rw [← List.take_append_drop n xs, List.sum_append]
  have := sum_nonneg' (xs := xs.drop n) (fun x hx => hnn x (List.mem_of_mem_drop hx))
  linarith

theorem loop_ok_or_abort {K : Type} [Zero K] [Add K] [LT K] [DecidableLT K] (p : K) (n : Nat) (acc : K) (cs : List K) :
    (∃ m, Crdsa.replicaLoop p n acc cs = .ok m) ∨ Crdsa.replicaLoop p n acc cs = .abort := by
  induction cs generalizing n acc with
  | nil => exact Or.inr rfl
  | cons c cs ih =>
    unfold Crdsa.replicaLoop
    split
    · exact Or.inl ⟨n, rfl⟩
    · exact ih _ _

/-- The draw gives what it gives in exact arithmetic, unless the sample lies within one part in 2^36 of a partial sum of the coefficients. -/
theorem C84_same_count (hfl : Rounding fl) (debug : Bool) (cs : List (Dbl fl)) (hlen : cs.length ≤ 65535) (hnn : ∀ c ∈ cs, 0 ≤ c.val)
    (p : Dbl fl) (hp : 0 ≤ p.val)
    (hfar : ∀ k, 1 ≤ k → k ≤ cs.length → 2⁻¹ ^ 36 * (cs.map Dbl.val).sum < |p.val - ((cs.take k).map Dbl.val).sum|) :
    Crdsa.numReplicas debug (0 :: cs) p = Crdsa.numReplicas debug (0 :: cs.map Dbl.val) p.val := by
  rcases eq_or_ne cs [] with rfl | hsz
  · rfl
  have hnn' : ∀ x ∈ cs.map Dbl.val, 0 ≤ x := by
    intro x hx
    obtain ⟨c, hc, rfl⟩ := List.mem_map.mp hx
    exact hnn c hc
  have hside : ∀ k, k ≤ cs.length →
      (roundedSum fl ((cs.take k).map Dbl.val) ≤ p.val ↔ ((cs.take k).map Dbl.val).sum ≤ p.val) := by
    intro k hk
    rcases Nat.eq_zero_or_pos k with rfl | hk0
    · simp [roundedSum]
    have hnnk : ∀ x ∈ (cs.take k).map Dbl.val, 0 ≤ x := by
      intro x hx
      obtain ⟨c, hc, rfl⟩ := List.mem_map.mp hx
      exact hnn c (List.mem_of_mem_take hc)
    have h1 := C84_error hfl _ hnnk (by rw [List.length_map, List.length_take]; omega)
    have h2 := hfar k hk0 hk
    have h3 : ((cs.take k).map Dbl.val).sum ≤ (cs.map Dbl.val).sum := by
      rw [List.map_take]
      exact sum_take_le hnn' k
    have h4 : (2⁻¹ : ℝ) ^ 36 * ((cs.take k).map Dbl.val).sum ≤ 2⁻¹ ^ 36 * (cs.map Dbl.val).sum :=
      mul_le_mul_of_nonneg_left h3 (by positivity)
    have h5 := lt_of_le_of_lt (le_trans h1 h4) h2
    have h6 := (abs_le.mp (le_refl |roundedSum fl ((cs.take k).map Dbl.val) - ((cs.take k).map Dbl.val).sum|))
    constructor
    · intro h
      by_contra hcon
      rw [abs_of_neg (a := p.val - _) (by linarith [not_le.mp hcon])] at h5
      linarith
    · intro h
      rw [abs_of_nonneg (a := p.val - _) (by linarith)] at h5
      linarith
  have hiff : ∀ n, Crdsa.numReplicas debug (0 :: cs) p = .ok n ↔ Crdsa.numReplicas debug (0 :: cs.map Dbl.val) p.val = .ok n := by
    intro n
    rw [C84_interval hfl debug cs hsz hnn p hp n, C22_interval debug (cs.map Dbl.val) (by simpa using hsz) hnn' p.val hp n, List.length_map,
      ← List.map_take, ← List.map_take]
    constructor
    · rintro ⟨h1, h2, h3, h4⟩
      refine ⟨h1, h2, (hside _ (by omega)).mp h3, ?_⟩
      rw [← not_le] at h4 ⊢
      exact fun h => h4 ((hside n h2).mpr h)
    · rintro ⟨h1, h2, h3, h4⟩
      refine ⟨h1, h2, (hside _ (by omega)).mpr h3, ?_⟩
      rw [← not_le] at h4 ⊢
      exact fun h => h4 ((hside n h2).mp h)
  obtain ⟨c, cs', rfl⟩ := List.exists_cons_of_ne_nil hsz
  have e1 : Crdsa.numReplicas debug (0 :: c :: cs') p = Crdsa.replicaLoop p 1 0 (c :: cs') := by
    simp [Crdsa.numReplicas, Outcome.nsAssert]
  have e2 : Crdsa.numReplicas debug (0 :: (c :: cs').map Dbl.val) p.val = Crdsa.replicaLoop p.val 1 0 ((c :: cs').map Dbl.val) := by
    simp [Crdsa.numReplicas, Outcome.nsAssert]
  rcases loop_ok_or_abort p 1 0 (c :: cs') with ⟨m, hm⟩ | hm
  · rw [(hiff m).mp (e1.trans hm), e1, hm]
  · rcases loop_ok_or_abort p.val 1 0 ((c :: cs').map Dbl.val) with ⟨m', hm'⟩ | hm'
    · have := (hiff m').mpr (e2.trans hm')
      rw [e1, hm] at this
      simp at this
    · rw [e1, e2, hm, hm']

/-- Coefficients written as decimals that sum to 1 yield a count for every sample up to 1 - 2^-33, although they are rounded themselves.  The
largest sample of the generator of ns-3 is 4294967087 / 4294967088. -/
theorem C84_total (hfl : Rounding fl) (debug : Bool) (ds : List ℝ) (hlen : ds.length ≤ 65535) (hnn : ∀ d ∈ ds, 0 ≤ d) (hs : ds.sum = 1)
    (p : Dbl fl) (hp : 0 ≤ p.val) (hp1 : p.val ≤ 1 - 2⁻¹ ^ 33) :
    ∃ n, Crdsa.numReplicas debug (0 :: ds.map (fun d => (⟨fl d⟩ : Dbl fl))) p = .ok n := by
  set cs : List (Dbl fl) := ds.map (fun d => ⟨fl d⟩) with hcs
  have hval : cs.map Dbl.val = ds.map fl := by simp [hcs]
  have hlenc : cs.length = ds.length := by simp [hcs]
  have hsz : cs ≠ [] := by
    intro h
    have : ds = [] := by simpa [hcs] using h
    simp [this] at hs
  have hflnn : ∀ d, 0 ≤ d → 0 ≤ fl d := fun d hd => by
    have := hfl.mono hd
    rwa [hfl.zero] at this
  have hnnc : ∀ c ∈ cs, 0 ≤ c.val := by
    intro c hc
    obtain ⟨d, hd, rfl⟩ := List.mem_map.mp hc
    exact hflnn d (hnn d hd)
  have hnnf : ∀ x ∈ ds.map fl, 0 ≤ x := by
    intro x hx
    obtain ⟨d, hd, rfl⟩ := List.mem_map.mp hx
    exact hflnn d (hnn d hd)
  have hsum : ∀ l : List ℝ, (∀ d ∈ l, 0 ≤ d) → (1 - 2⁻¹ ^ 53) * l.sum ≤ (l.map fl).sum := by
    intro l hl
    induction l with
    | nil => simp
    | cons d l ih =>
      have h1 := hfl.err d
      rw [abs_of_nonneg (hl d (by simp))] at h1
      have h2 := (abs_le.mp h1).1
      have h3 := ih (fun x hx => hl x (by simp [hx]))
      rw [List.sum_cons, List.map_cons, List.sum_cons]
      linarith
  have h1 := hsum ds hnn
  rw [hs, mul_one] at h1
  have h2 := C84_error hfl (ds.map fl) hnnf (by rw [List.length_map]; omega)
  have h3 := (abs_le.mp h2).1
  have hlast : p.val < roundedSum fl (cs.map Dbl.val) := by
    rw [hval]
    norm_num at h1 h3 hp1
    linarith
  have hex : ∃ n, p.val < roundedSum fl ((cs.take n).map Dbl.val) := ⟨cs.length, by rw [List.take_length]; exact hlast⟩
  classical
  have hle : Nat.find hex ≤ cs.length := Nat.find_min' hex (by rw [List.take_length]; exact hlast)
  have hpos : 1 ≤ Nat.find hex := by
    rw [Nat.one_le_iff_ne_zero]
    intro h0
    have := Nat.find_spec hex
    rw [h0] at this
    simp only [List.take_zero, List.map_nil, roundedSum, List.foldl_nil] at this
    linarith
  refine ⟨Nat.find hex, (C84_interval hfl debug cs hsz hnnc p hp _).mpr ⟨hpos, hle, ?_, Nat.find_spec hex⟩⟩
  exact not_lt.mp (Nat.find_min hex (by omega))

/-- A finer generator would not do: with these five coefficients, numbers of the format that sum to exactly 1, a sample below 1 ends the
simulation. -/
theorem C84_total_fails (hfl : Rounding fl) (debug : Bool) :
    ∃ (cs : List (Dbl fl)) (p : Dbl fl), (∀ c ∈ cs, Representable c.val ∧ 0 < c.val) ∧ (cs.map Dbl.val).sum = 1 ∧ Representable p.val ∧
      0 ≤ p.val ∧ p.val < 1 ∧ Crdsa.numReplicas debug (0 :: cs) p = .abort := by
  have hra : Representable (1 - (2⁻¹ : ℝ) ^ 53) := ⟨2 ^ 53 - 1, -53, by norm_num, by norm_num⟩
  have hrb : Representable ((2⁻¹ : ℝ) ^ 55) := ⟨1, -55, by norm_num, by norm_num⟩
  have habs : fl (1 - (2⁻¹ : ℝ) ^ 53 + 2⁻¹ ^ 55) = 1 - 2⁻¹ ^ 53 :=
    hfl.absorbs (by norm_num) hra (by norm_num) (by norm_num)
  have hfix : fl (1 - (2⁻¹ : ℝ) ^ 53) = 1 - 2⁻¹ ^ 53 := hfl.fixed hra
  refine ⟨⟨1 - 2⁻¹ ^ 53⟩ :: List.replicate 4 ⟨2⁻¹ ^ 55⟩, ⟨1 - 2⁻¹ ^ 53⟩, ?_, ?_, hra, by norm_num, by norm_num, ?_⟩
  · intro c hc
    rcases List.mem_cons.mp hc with rfl | hc
    · exact ⟨hra, by norm_num⟩
    · rw [List.eq_of_mem_replicate hc]
      exact ⟨hrb, by norm_num⟩
  · simp only [List.replicate, List.map_cons, List.map_nil, List.sum_cons, List.sum_nil]
    norm_num
  · have h0 : (0 : Dbl fl) + ⟨1 - 2⁻¹ ^ 53⟩ = ⟨1 - 2⁻¹ ^ 53⟩ := by
      ext
      rw [Dbl.add_val, Dbl.zero_val, zero_add, hfix]
    have h1 : (⟨1 - 2⁻¹ ^ 53⟩ : Dbl fl) + ⟨2⁻¹ ^ 55⟩ = ⟨1 - 2⁻¹ ^ 53⟩ := by
      ext
      rw [Dbl.add_val, habs]
    have hn : ¬ ((⟨1 - 2⁻¹ ^ 53⟩ : Dbl fl) < ⟨1 - 2⁻¹ ^ 53⟩) := by
      rw [Dbl.lt_def]
      exact lt_irrefl _
    clear hra hrb habs hfix
    generalize (⟨1 - 2⁻¹ ^ 53⟩ : Dbl fl) = a at *
    generalize (⟨2⁻¹ ^ 55⟩ : Dbl fl) = b at *
    simp [Crdsa.numReplicas, Crdsa.replicaLoop, Outcome.nsAssert, List.replicate, h0, h1, hn]

/-! ## Interference -/

open Aloha

theorem foldl_val (l : List (Dbl fl)) (x : Dbl fl) : (l.foldl (· + ·) x).val = (l.map Dbl.val).foldl (fun a y => fl (a + y)) x.val := by
  induction l generalizing x with
  | nil => rfl
  | cons y l ih => simp only [List.foldl_cons, List.map_cons, ih, Dbl.add_val]

/-- The interference of a busy period. -/
theorem total_val (hfl : Rounding fl) (l : List (Dbl fl)) (hrep : ∀ x ∈ l, Representable x.val) : (total l).val = roundedSum fl (l.map Dbl.val) := by
  cases l with
  | nil => rfl
  | cons x l =>
    simp only [total, roundedSum, List.map_cons, List.foldl_cons, zero_add]
    rw [hfl.fixed (hrep x (by simp)), foldl_val]

theorem roundedSum_snoc (xs : List ℝ) (x : ℝ) : roundedSum fl (xs ++ [x]) = fl (roundedSum fl xs + x) := by simp [roundedSum]

/-- Rounding never brings the sum of powers below one of them, and a sum of several powers of similar size is above each of them. -/
theorem roundedSum_above (hfl : Rounding fl) (w : ℝ) (hw : 0 < w) (xs : List ℝ) (hne : xs ≠ [])
    (hx : ∀ x ∈ xs, Representable x ∧ w ≤ x ∧ x ≤ 2 ^ 52 * w) :
    (∀ x ∈ xs, x ≤ roundedSum fl xs) ∧ (2 ≤ xs.length → ∀ x ∈ xs, x < roundedSum fl xs) := by
  induction xs using List.reverseRecOn with
  | nil => exact absurd rfl hne
  | append_singleton xs y ih =>
    have hy := hx y (by simp)
    rcases eq_or_ne xs [] with rfl | hne'
    · have : roundedSum fl ([] ++ [y]) = y := by simp [roundedSum, hfl.fixed hy.1]
      rw [this]
      simp
    · obtain ⟨h1, -⟩ := ih hne' (fun x hx' => hx x (by simp [hx']))
      obtain ⟨z, hz⟩ := List.exists_mem_of_ne_nil _ hne'
      have hSw : w ≤ roundedSum fl xs := le_trans (hx z (by simp [hz])).2.1 (h1 z hz)
      have hlt : ∀ x ∈ xs ++ [y], x < roundedSum fl (xs ++ [y]) := by
        intro x hx'
        rw [roundedSum_snoc]
        have hxx := hx x hx'
        refine lt_of_lt_of_le (hfl.grows (lt_of_lt_of_le hw hxx.2.1) hxx.1 hxx.2.2) (hfl.mono ?_)
        rcases List.mem_append.mp hx' with hm | hm
        · have := h1 x hm
          linarith [hy.2.1]
        · rw [List.mem_singleton.mp hm]
          linarith
      exact ⟨fun x hx' => (hlt x hx').le, fun _ => hlt⟩

/-- A test that drops frames weaker than the sum drops frames whose powers differ by at most a factor of 2^52 (156 dB): with this, C18, C25, C56, C58,
C68 – C70, C77, C79 and C80 hold in floating-point arithmetic. -/
theorem C84_drops (hfl : Rounding fl) {lost : Dbl fl → Dbl fl → Bool} (hlost : ∀ rx i : Dbl fl, rx.val < i.val → lost rx i = true) (w : ℝ) (hw : 0 < w) :
    Drops lost (fun p => Representable p.val ∧ w ≤ p.val ∧ p.val ≤ 2 ^ 52 * w) := by
  intro l hl h2 p hp
  apply hlost
  rw [total_val hfl l (fun x hx => (hl x hx).1)]
  refine (roundedSum_above hfl w hw (l.map Dbl.val) ?_ ?_).2 (by simpa using h2) _ (List.mem_map_of_mem hp)
  · intro hnil
    rw [List.map_eq_nil_iff] at hnil
    simp [hnil] at h2
  · intro x hx
    obtain ⟨y, hy, rfl⟩ := List.mem_map.mp hx
    exact hl y hy

/-- The test with the default threshold does so, whatever the logarithm of the C library. -/
theorem C84_default_threshold (hfl : Rounding fl) (log10 : ℝ → ℝ) (rx i : Dbl fl) (h : rx.val < i.val) :
    doubleLost fl log10 none rx i = true := by
  unfold doubleLost
  rw [if_pos (hfl.pos (sub_pos.mpr h))]

/-- An Aloha receiver with doubles: if the received powers differ by at most 156 dB, a frame is passed up iff nothing overlaps it. -/
theorem C84_aloha (hfl : Rounding fl) (log10 : ℝ → ℝ) {ops : List (Op (Dbl fl))} {s : Sys (Dbl fl)}
    (h : exec false (doubleLost fl log10 none) ops = some s) (hnd : ((frames ops).map Frame.uid).Nodup)
    (hd : ∀ f ∈ frames ops, 0 < f.dur) (w : ℝ) (hw : 0 < w)
    (hpow : ∀ f ∈ frames ops, Representable f.pow.val ∧ w ≤ f.pow.val ∧ f.pow.val ≤ 2 ^ 52 * w) (hdone : s.pending = []) :
    DeliversExactlyNonOverlapping (frames ops) s.delivered :=
  C18_ends_first_partial (C84_drops hfl (C84_default_threshold hfl log10) w hw) h hnd hd hpow hdone

/-- A CRDSA receiver with doubles: under the same condition on the powers, with traffic as in C70, it always comes to a defined result and passes up
exactly the decodable packets, each once. -/
theorem C84_crdsa (hfl : Rounding fl) (log10 : ℝ → ℝ) {slot slots lo spread : Nat} {ops : List (Op (Dbl fl))} {o : Outcome (Crdsa.Sys (Dbl fl))}
    (h : Crdsa.exec true true (doubleLost fl log10 none) (slot * slots) ops = some o) (ht : CrdsaTraffic slot slots lo spread (frames ops))
    (w : ℝ) (hw : 0 < w) (hpow : ∀ f ∈ frames ops, Representable f.pow.val ∧ w ≤ f.pow.val ∧ f.pow.val ≤ 2 ^ 52 * w)
    (hspare : ∀ f ∈ frames ops, f.dur + spread < slot) :
    ∃ s, o = .ok s ∧ (s.pending = [] →
      (∀ u, u ∈ s.delivered.map Prod.snd ↔ Decodable (fun T v => ∃ f ∈ frames ops, slotOf slot lo f = T ∧ f.uid = v) u) ∧
      (s.delivered.map Prod.snd).Nodup) :=
  C70_receiver (C84_drops hfl (C84_default_threshold hfl log10) w hw) h ht hpow hspare

/-- An interferer weaker by a factor of 2^54 (163 dB) goes unnoticed: both frames of the history overlap, the stronger one is passed up,
although in exact arithmetic the default threshold drops it. -/
theorem C84_absorbed (hfl : Rounding fl) (log10 : ℝ → ℝ) (p q : ℝ) (hp : Representable p) (hq : 0 < q) (hpq : 2 ^ 54 * q ≤ p) :
    let ops : List (Op (Dbl fl)) := [.arrive ⟨1, 0, 10, ⟨p⟩⟩, .arrive ⟨2, 5, 10, ⟨q⟩⟩, .finish, .finish]
    let exact : List (Op ℝ) := [.arrive ⟨1, 0, 10, p⟩, .arrive ⟨2, 5, 10, q⟩, .finish, .finish]
    (exec false (doubleLost fl log10 none) ops).map Sys.delivered = some [(10, 1)] ∧
    (exec false (sirLost none) exact).map Sys.delivered = some [] ∧ ¬ DeliversExactlyNonOverlapping (frames ops) [(10, 1)] := by
  intro ops exact
  have hp0 : 0 < p := by
    have : 0 < 2 ^ 54 * q := by positivity
    linarith
  have habs : fl (p + q) = p := hfl.absorbs hp0 hp hq.le hpq
  have hqp : q < p := by
    have : q < 2 ^ 54 * q := by linarith
    linarith
  have hadd : (⟨p⟩ : Dbl fl) + ⟨q⟩ = ⟨p⟩ := by ext; exact habs
  have l1 : doubleLost fl log10 none (⟨p⟩ : Dbl fl) ⟨p⟩ = false := by
    unfold doubleLost
    rw [if_neg]
    rw [sub_self, hfl.zero]
    exact lt_irrefl 0
  have l2 : doubleLost fl log10 none (⟨q⟩ : Dbl fl) ⟨p⟩ = true := C84_default_threshold hfl log10 _ _ hqp
  have r1 : sirLost none p (p + q) = true := sirLost_none _ _ (by linarith)
  have r2 : sirLost none q (p + q) = true := sirLost_none _ _ (by linarith)
  refine ⟨?_, ?_, ?_⟩
  · simp [ops, exec, execFrom, step, Sys.init, Rx.init, schedule, Frame.fin, startRx, finishRx, hadd, l1, l2]
  · simp [exact, exec, execFrom, step, Sys.init, Rx.init, schedule, Frame.fin, startRx, finishRx, r1, r2]
  · rintro ⟨h1, -, -⟩
    have := (h1 ⟨1, 0, 10, ⟨p⟩⟩ (by simp [ops, frames])).mp (by simp [Frame.fin]) ⟨2, 5, 10, ⟨q⟩⟩ (by simp [ops, frames]) (by simp)
    exact this (by simp [Overlap, Frame.fin])

/-! ## Capture -/

theorem mul_err {x y z a b : ℝ} (hz : 0 < z) (h1 : |x - y| ≤ a * |y|) (h2 : |y - z| ≤ b * z) (ha : 0 ≤ a) (ha1 : a ≤ 1) :
    |x - z| ≤ (a + 2 * b) * z := by
  have hy : |y| ≤ (1 + b) * z := by
    have := abs_sub_abs_le_abs_sub y z
    rw [abs_of_pos hz] at this
    linarith
  have hb : 0 ≤ b * z := le_trans (abs_nonneg _) h2
  have h3 : a * |y| ≤ a * ((1 + b) * z) := mul_le_mul_of_nonneg_left hy ha
  have h4 : |x - z| ≤ |x - y| + |y - z| := abs_sub_le x y z
  have h5 : a * (b * z) ≤ 1 * (b * z) := mul_le_mul_of_nonneg_right ha1 hb
  linarith

theorem sir_close (hfl : Rounding fl) (log10 : ℝ → ℝ) (hlog : ∀ x, 0 < x → |log10 x - Real.logb 10 x| ≤ 2⁻¹ ^ 50 * |Real.logb 10 x|)
    {rx J I : ℝ} (hrx : 0 < rx) (hJ : 0 < J) (hI : |I - (rx + J)| ≤ 2⁻¹ ^ 36 * (rx + J)) (h1 : rx ≤ 2 ^ 20 * J) (h2 : J ≤ 2 ^ 70 * rx) :
    0 < fl (I - rx) ∧ |fl (10 * log10 (fl (rx / fl (I - rx)))) - 10 * Real.logb 10 (rx / J)| < 1 / 100 := by
  have hd1 : |(I - rx) - J| ≤ 2⁻¹ ^ 15 * J := by
    rw [show I - rx - J = I - (rx + J) by ring]
    refine le_trans hI ?_
    norm_num at h1 ⊢
    linarith
  have hd2 : |fl (I - rx) - J| ≤ 1 / 10000 * J := by
    refine le_trans (mul_err hJ (hfl.err (I - rx)) hd1 (by norm_num) (by norm_num)) ?_
    apply mul_le_mul_of_nonneg_right _ hJ.le
    norm_num
  generalize fl (I - rx) = d at hd2 ⊢
  have hd3 := abs_le.mp hd2
  have hd : 0 < d := by linarith
  refine ⟨hd, ?_⟩
  have hz : 0 < rx / J := div_pos hrx hJ
  have hq1 : |rx / d - rx / J| ≤ 2 / 10000 * (rx / J) := by
    have e : rx / d - rx / J = (J - d) / d * (rx / J) := by
      field_simp
    rw [e, abs_mul, abs_of_pos hz]
    apply mul_le_mul_of_nonneg_right _ hz.le
    rw [abs_div, abs_of_pos hd, div_le_iff₀ hd, abs_sub_comm]
    refine le_trans hd2 ?_
    linarith
  have hq2 : |fl (rx / d) - rx / J| ≤ 5 / 10000 * (rx / J) := by
    refine le_trans (mul_err hz (hfl.err (rx / d)) hq1 (by norm_num) (by norm_num)) ?_
    apply mul_le_mul_of_nonneg_right _ hz.le
    norm_num
  generalize fl (rx / d) = q at hq2 ⊢
  have hzu : rx / J ≤ 2 ^ 20 := by rw [div_le_iff₀ hJ]; exact h1
  have hzl : (2 ^ 70)⁻¹ ≤ rx / J := by
    rw [le_div_iff₀ hJ, inv_mul_le_iff₀ (by positivity)]
    exact h2
  generalize rx / J = z at *
  have hq3 := abs_le.mp hq2
  have hq : 0 < q := by linarith
  have hl10 : 2 < Real.log 10 := by
    rw [Real.lt_log_iff_exp_lt (by norm_num)]
    have : Real.exp 2 = Real.exp 1 * Real.exp 1 := by rw [← Real.exp_add]; norm_num
    rw [this]
    have := Real.exp_one_lt_d9
    have h0 := Real.exp_pos 1
    nlinarith
  have hclose : |Real.logb 10 q - Real.logb 10 z| ≤ 1 / 2000 := by
    rw [← Real.logb_div hq.ne' hz.ne']
    have hr1 : q / z ≤ 1 + 5 / 10000 := by rw [div_le_iff₀ hz]; linarith
    have hr2 : 1 - 5 / 10000 ≤ q / z := by rw [le_div_iff₀ hz]; linarith
    have hr : 0 < q / z := div_pos hq hz
    generalize q / z = r at *
    have u1 : Real.log r ≤ 1 / 1000 := by linarith [Real.log_le_sub_one_of_pos hr]
    have u2 : -(1 / 1000) ≤ Real.log r := by
      have := Real.one_sub_inv_le_log_of_pos hr
      have hi : r⁻¹ ≤ 1 + 1 / 1000 := by
        rw [inv_le_comm₀ hr (by norm_num)]
        refine le_trans ?_ hr2
        norm_num
      linarith
    have hl0 : 0 < Real.log 10 := by linarith
    unfold Real.logb
    rw [abs_le]
    constructor
    · rw [le_div_iff₀ hl0]
      linarith
    · rw [div_le_iff₀ hl0]
      linarith
  have hbound : |Real.logb 10 z| ≤ 70 := by
    rw [abs_le]
    constructor
    · rw [Real.le_logb_iff_rpow_le (by norm_num) hz, Real.rpow_neg (by norm_num)]
      refine le_trans ?_ hzl
      rw [inv_le_inv₀ (by positivity) (by positivity)]
      have : (10 : ℝ) ^ (70 : ℝ) = 10 ^ (70 : ℕ) := by norm_cast
      rw [this]
      exact pow_le_pow_left₀ (by norm_num) (by norm_num) 70
    · rw [Real.logb_le_iff_le_rpow (by norm_num) hz]
      have : (10 : ℝ) ^ (70 : ℝ) = 10 ^ (70 : ℕ) := by norm_cast
      rw [this]
      exact le_trans hzu (by norm_num)
  have hL := hlog q hq
  generalize Real.logb 10 q = a at *
  generalize Real.logb 10 z = b at *
  generalize log10 q = c at *
  have hF := hfl.err (10 * c)
  generalize fl (10 * c) = e at *
  have ha : |a| ≤ 71 := by
    have := abs_sub_abs_le_abs_sub a b
    linarith
  have hc1 : |c - a| ≤ 1 / 10000 := by
    refine le_trans hL ?_
    norm_num
    linarith
  have hc : |c| ≤ 72 := by
    have := abs_sub_abs_le_abs_sub c a
    linarith
  have he : |e - 10 * c| ≤ 1 / 10000 := by
    refine le_trans hF ?_
    rw [abs_mul]
    norm_num
    linarith
  rw [abs_le] at hclose hc1 he
  rw [abs_lt]
  constructor <;> linarith

/-- C20 in floating-point arithmetic: the capture decision is the one of exact arithmetic, unless the signal-to-interference ratio is within a
hundredth of a decibel of the threshold.  The ratio is supposed to be between -210 dB and 60 dB, the logarithm of the C library to be
accurate to one part in 2^50. -/
theorem C84_capture (hfl : Rounding fl) (log10 : ℝ → ℝ)
    (hlog : ∀ x, 0 < x → |log10 x - Real.logb 10 x| ≤ 2⁻¹ ^ 50 * |Real.logb 10 x|) (t : ℝ)
    {ops : List (Op (Dbl fl))} {s : Sys (Dbl fl)} (h : exec false (doubleLost fl log10 (some t)) ops = some s)
    (hnd : ((frames ops).map Frame.uid).Nodup) (hd : ∀ f ∈ frames ops, 0 < f.dur)
    (hpow : ∀ f ∈ frames ops, Representable f.pow.val ∧ 0 < f.pow.val) {f : Frame (Dbl fl)} {rest : List (Frame (Dbl fl))}
    (hp : s.pending = f :: rest) (hlen : (busyPeriod ops).length ≤ 65536) :
    let others := (busyPeriod ops).filter (fun g => g.uid ≠ f.uid)
    let J := (others.map (fun g => g.pow.val)).sum
    ∃ s', step false (doubleLost fl log10 (some t)) s .finish = some s' ∧
      (others = [] → s'.delivered = s.delivered ++ [(f.fin, f.uid)]) ∧
      (others ≠ [] → f.pow.val ≤ 2 ^ 20 * J → J ≤ 2 ^ 70 * f.pow.val →
        (t + 1 / 100 ≤ 10 * Real.logb 10 (f.pow.val / J) → s'.delivered = s.delivered ++ [(f.fin, f.uid)]) ∧
        (10 * Real.logb 10 (f.pow.val / J) + 1 / 100 ≤ t → s'.delivered = s.delivered)) := by
  intro others J
  obtain ⟨hf, hndb, s', hs, hdl⟩ := finish_total h hnd hd hp
  have hsub : ∀ g ∈ busyPeriod ops, g ∈ frames ops := fun g hg => (busy_exec h (apart_of_nodup hnd) hd).suffix.subset hg
  have htot := total_val hfl ((busyPeriod ops).map Frame.pow) (by
    intro x hx
    obtain ⟨g, hg, rfl⟩ := List.mem_map.mp hx
    exact (hpow g (hsub g hg)).1)
  rw [List.map_map] at htot
  refine ⟨s', hs, ?_, ?_⟩
  · intro he
    rw [hdl, if_neg]
    rintro ⟨h2, -⟩
    have hall : ∀ g ∈ busyPeriod ops, g.uid = f.uid := by
      intro g hg
      have := List.filter_eq_nil_iff.mp he g hg
      simpa using this
    match hb : busyPeriod ops, h2 with
    | a :: b :: l, _ =>
      rw [hb] at hall hndb
      have e1 := hall a (by simp)
      have e2 := hall b (by simp)
      simp [e1, e2] at hndb
  · intro hne h1 h2
    have hlen2 : 2 ≤ (busyPeriod ops).length := by
      obtain ⟨g, hg⟩ := List.exists_mem_of_ne_nil _ hne
      have hg' := List.mem_filter.mp hg
      have hgf : g ≠ f := by rintro rfl; simp at hg'
      by_contra hlt
      have : (busyPeriod ops).length = 1 := by have := List.length_pos_of_mem hf; omega
      obtain ⟨z, hz⟩ := List.length_eq_one_iff.mp this
      rw [hz] at hf hg'
      simp at hf hg'
      exact hgf (by rw [hf, hg'.1])
    have hJ : 0 < J := by
      apply List.sum_pos
      · intro x hx
        obtain ⟨g, hg, rfl⟩ := List.mem_map.mp hx
        exact (hpow g (hsub g (List.mem_of_mem_filter hg))).2
      · simpa using hne
    have hsum : ((busyPeriod ops).map (fun g => g.pow.val)).sum = f.pow.val + J := by
      have key := sum_split ((busyPeriod ops).map (fun g : Frame (Dbl fl) => (⟨g.uid, g.start, g.dur, g.pow.val⟩ : Frame ℝ)))
        ⟨f.uid, f.start, f.dur, f.pow.val⟩ (List.mem_map.mpr ⟨f, hf, rfl⟩) (by rw [List.map_map]; exact hndb)
      rw [List.map_map, List.filter_map, List.map_map] at key
      exact key
    have herr := C84_error hfl ((busyPeriod ops).map (fun g => g.pow.val)) (by
      intro x hx
      obtain ⟨g, hg, rfl⟩ := List.mem_map.mp hx
      exact (hpow g (hsub g hg)).2.le) (by rwa [List.length_map])
    rw [hsum, show (fun g : Frame (Dbl fl) => g.pow.val) = Dbl.val ∘ Frame.pow from rfl, ← htot] at herr
    obtain ⟨k1, k2⟩ := sir_close hfl log10 hlog (hpow f (hsub f hf)).2 hJ herr h1 h2
    rw [abs_lt] at k2
    constructor
    · intro ht
      rw [hdl, if_neg]
      rintro ⟨-, hl⟩
      unfold doubleLost at hl
      rw [if_pos k1] at hl
      simp only [decide_eq_true_eq] at hl
      linarith
    · intro ht
      rw [hdl, if_pos, List.append_nil]
      refine ⟨hlen2, ?_⟩
      unfold doubleLost
      rw [if_pos k1]
      simp only [decide_eq_true_eq]
      linarith

/-! ### The hypotheses can be met -/

example : ∃ fl, Rounding fl := exists_rounding
example : Representable 1 ∧ Representable (1 / 2) ∧ Representable 3 ∧ ¬ Representable (1 / 3) := by
  refine ⟨⟨1, 0, by norm_num, by norm_num⟩, ⟨1, -1, by norm_num, by norm_num⟩, ⟨3, 0, by norm_num, by norm_num⟩, ?_⟩
  rintro ⟨m, e, -, h⟩
  have key : ∀ (n : ℕ) (m : ℤ), 3 * m ≠ 2 ^ n := by
    intro n m h
    have hp : (2 : ℤ) ^ n % 3 ≠ 0 := by
      clear h
      induction n with
      | zero => norm_num
      | succ n ih => rw [pow_succ]; omega
    omega
  rcases le_total 0 e with he | he
  · obtain ⟨n, rfl⟩ := Int.eq_ofNat_of_zero_le he
    rw [zpow_natCast] at h
    have h' : (3 * (m * 2 ^ n) : ℤ) = 1 := by exact_mod_cast (by linarith : (3 * (m * 2 ^ n) : ℝ) = 1)
    exact key 0 _ (by simpa using h')
  · obtain ⟨n, hn⟩ := Int.eq_ofNat_of_zero_le (neg_nonneg.mpr he)
    obtain rfl : e = -(n : ℤ) := by omega
    rw [zpow_neg, zpow_natCast] at h
    have h2 : (0 : ℝ) < 2 ^ n := by positivity
    field_simp at h
    exact key n m (by exact_mod_cast (by linarith : (3 * m : ℝ) = 2 ^ n))

/-- Thirds: for a sample of 1/2, hypotheses of `C84_total` and `C84_same_count`. -/
example : (([1 / 3, 2 / 3] : List ℝ).sum = 1 ∧ ∀ d ∈ ([1 / 3, 2 / 3] : List ℝ), 0 ≤ d) ∧ (1 / 2 : ℝ) ≤ 1 - 2⁻¹ ^ 33 := by
  refine ⟨⟨by norm_num, ?_⟩, by norm_num⟩
  intro d hd
  simp only [List.mem_cons, List.not_mem_nil, or_false] at hd
  rcases hd with rfl | rfl <;> norm_num
example : ∀ k, 1 ≤ k → k ≤ 2 → 2⁻¹ ^ 36 * (([⟨1 / 2⟩, ⟨1 / 2⟩] : List (Dbl fl)).map Dbl.val).sum <
    |(1 / 4 : ℝ) - ((([⟨1 / 2⟩, ⟨1 / 2⟩] : List (Dbl fl)).take k).map Dbl.val).sum| := by
  intro k h1 h2
  obtain rfl | rfl : k = 1 ∨ k = 2 := by omega
  · rw [lt_abs]; right; norm_num
  · rw [lt_abs]; right; norm_num

/-- Powers of 1 mW and 3 mW, two overlapping frames and one alone. -/
example (hfl : Rounding fl) (log10 : ℝ → ℝ) : ∃ s, exec false (doubleLost fl log10 none)
      [.arrive ⟨1, 0, 10, ⟨1⟩⟩, .arrive ⟨2, 5, 10, ⟨3⟩⟩, .finish, .finish, .arrive ⟨3, 20, 10, ⟨1⟩⟩, .finish] = some s ∧
    s.pending = [] ∧ s.delivered = [(30, 3)] := by
  have e : ((⟨1⟩ : Dbl fl) + ⟨3⟩).val = 4 := by
    rw [Dbl.add_val]
    norm_num
    exact hfl.fixed ⟨4, 0, by norm_num, by norm_num⟩
  have l1 : doubleLost fl log10 none (⟨1⟩ : Dbl fl) (⟨1⟩ + ⟨3⟩) = true := C84_default_threshold hfl log10 _ _ (by rw [e]; norm_num)
  have l2 : doubleLost fl log10 none (⟨3⟩ : Dbl fl) (⟨1⟩ + ⟨3⟩) = true := C84_default_threshold hfl log10 _ _ (by rw [e]; norm_num)
  refine ⟨_, rfl, ?_, ?_⟩
  · rfl
  · simp [Sys.init, Rx.init, Frame.fin, startRx, finishRx, l1, l2]

/-- An exact logarithm, and powers with a ratio of 3 in the history of `C84_capture`. -/
example : ∀ x, 0 < x → |Real.logb 10 x - Real.logb 10 x| ≤ 2⁻¹ ^ 50 * |Real.logb 10 x| := by
  intro x _
  rw [sub_self, abs_zero]
  positivity
example (t : ℝ) : ∃ s, exec false (doubleLost fl (Real.logb 10) (some t)) [.arrive ⟨1, 0, 10, ⟨1⟩⟩, .arrive ⟨2, 5, 10, ⟨3⟩⟩] = some s ∧
    s.pending = [⟨1, 0, 10, ⟨1⟩⟩, ⟨2, 5, 10, ⟨3⟩⟩] := by
  refine ⟨_, rfl, ?_⟩
  simp [Sys.init, schedule, Frame.fin]

/-- The history `slotOps` with doubles. -/
def slotOpsDbl (fl : ℝ → ℝ) : List (Op (Dbl fl)) :=
  [.arrive ⟨1, 3, 6, ⟨5⟩⟩, .arrive ⟨2, 4, 6, ⟨5⟩⟩, .finish, .finish, .arrive ⟨1, 13, 6, ⟨5⟩⟩, .finish, .arrive ⟨2, 24, 6, ⟨5⟩⟩, .finish]

example : CrdsaTraffic 10 4 3 1 (frames (slotOpsDbl fl)) where
  pos := by decide
  timing := by
    intro f hf
    refine ⟨(f.start - 3) / 10, (f.start - 3) % 10, ?_⟩
    revert f
    simp [slotOpsDbl, frames]
  oneFrame := by simp [slotOpsDbl, frames, slotOf]
  distinct := by simp [slotOpsDbl, frames, slotOf]
  two := by
    intro u
    simp only [slotOpsDbl, frames, List.countP_cons, List.countP_nil, beq_iff_eq]
    split <;> split <;> omega

end Double
end Icarus
