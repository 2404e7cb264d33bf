import Verif.Model.Intermittent
import Verif.Props.Silence
import Verif.Props.RepoTests

/-!
# The program examples/intermittent-communication.cc (C110)

Exact real arithmetic.
-/

set_option autoImplicit false

namespace Icarus
namespace Intermittent

open Orbit Real

/-! ## What it writes -/

/-- The line that belongs to the `k`-th call: the distance then, and the extremes of the distances so far. -/
structure Good (period : Nat) (d : Nat → ℝ) (k : Nat) (l : Line) : Prop where
  time : l.time = k * period
  distance : l.distance = d (k * period)
  least : ∃ m : ℝ, l.minimum = m ∧ (∃ j ≤ k, d (j * period) = m) ∧ ∀ j ≤ k, m ≤ d (j * period)
  greatest : ∃ m : ℝ, l.maximum = m ∧ (∃ j ≤ k, d (j * period) = m) ∧ ∀ j ≤ k, d (j * period) ≤ m

/-- The state after `k` calls before the end. -/
structure Running (period stopAt : Nat) (d : Nat → ℝ) (k : Nat) (s : Sys) : Prop where
  going : s.stopped = false
  pending : s.pending = insertEvent (k * period) .show [(stopAt, .stop)]
  count : s.lines.length = k
  lines : ∀ j l, s.lines[j]? = some l → Good period d j l
  least : (k = 0 ∧ s.minimum = ⊤) ∨ ∃ m : ℝ, s.minimum = m ∧ (∃ j < k, d (j * period) = m) ∧ ∀ j < k, m ≤ d (j * period)
  greatest : (k = 0 ∧ s.maximum = ⊥) ∨ ∃ m : ℝ, s.maximum = m ∧ (∃ j < k, d (j * period) = m) ∧ ∀ j < k, d (j * period) ≤ m

section

variable {period stopAt : Nat} {node1 node2 : Node} {d : Nat → ℝ}

/-- Both nodes have positions at all times, and `d` is the distance between them. -/
def Placed (node1 node2 : Node) (d : Nat → ℝ) : Prop :=
  ∃ p q : Nat → Vec, (∀ t, position node1 t = .ok (p t)) ∧ (∀ t, position node2 t = .ok (q t)) ∧ ∀ t, d t = distance (p t) (q t)

theorem running_start : Running period stopAt d 0 (start stopAt) where
  going := rfl
  pending := by simp [start, insertEvent]
  count := rfl
  lines := by simp [start]
  least := .inl ⟨rfl, rfl⟩
  greatest := .inl ⟨rfl, rfl⟩

theorem stdMin_least {k : Nat} {m : WithTop ℝ} {f : Nat → ℝ} (h : (k = 0 ∧ m = ⊤) ∨ ∃ x : ℝ, m = x ∧ (∃ j < k, f j = x) ∧ ∀ j < k, x ≤ f j) :
    ∃ x : ℝ, stdMin m (f k) = x ∧ (∃ j ≤ k, f j = x) ∧ ∀ j ≤ k, x ≤ f j := by
  rcases h with ⟨rfl, rfl⟩ | ⟨x, rfl, ⟨j, hj, e⟩, hl⟩
  · refine ⟨f 0, ?_, ⟨0, le_rfl, rfl⟩, ?_⟩
    · rw [stdMin, if_pos (WithTop.coe_lt_top _)]
    · intro j hj
      rw [Nat.le_zero.mp hj]
  · unfold stdMin
    split
    · rename_i hlt
      have hlt' : f k < x := by exact_mod_cast hlt
      refine ⟨f k, rfl, ⟨k, le_rfl, rfl⟩, fun i hi => ?_⟩
      rcases hi.lt_or_eq with h | rfl
      · exact hlt'.le.trans (hl i h)
      · exact le_rfl
    · rename_i hlt
      have hlt' : x ≤ f k := by
        rw [not_lt] at hlt
        exact_mod_cast hlt
      refine ⟨x, rfl, ⟨j, hj.le, e⟩, fun i hi => ?_⟩
      rcases hi.lt_or_eq with h | rfl
      · exact hl i h
      · exact hlt'

theorem stdMax_greatest {k : Nat} {m : WithBot ℝ} {f : Nat → ℝ} (h : (k = 0 ∧ m = ⊥) ∨ ∃ x : ℝ, m = x ∧ (∃ j < k, f j = x) ∧ ∀ j < k, f j ≤ x) :
    ∃ x : ℝ, stdMax m (f k) = x ∧ (∃ j ≤ k, f j = x) ∧ ∀ j ≤ k, f j ≤ x := by
  rcases h with ⟨rfl, rfl⟩ | ⟨x, rfl, ⟨j, hj, e⟩, hl⟩
  · refine ⟨f 0, ?_, ⟨0, le_rfl, rfl⟩, ?_⟩
    · rw [stdMax, if_pos (WithBot.bot_lt_coe _)]
    · intro j hj
      rw [Nat.le_zero.mp hj]
  · unfold stdMax
    split
    · rename_i hlt
      have hlt' : x < f k := by exact_mod_cast hlt
      refine ⟨f k, rfl, ⟨k, le_rfl, rfl⟩, fun i hi => ?_⟩
      rcases hi.lt_or_eq with h | rfl
      · exact (hl i h).trans hlt'.le
      · exact le_rfl
    · rename_i hlt
      have hlt' : f k ≤ x := by
        rw [not_lt] at hlt
        exact_mod_cast hlt
      refine ⟨x, rfl, ⟨j, hj.le, e⟩, fun i hi => ?_⟩
      rcases hi.lt_or_eq with h | rfl
      · exact hl i h
      · exact hlt'

theorem running_step (hd : Placed node1 node2 d) {k : Nat} {s : Sys} (h : Running period stopAt d k s) (hk : k * period < stopAt) :
    ∃ s', step period node1 node2 s () = some (.ok s') ∧ Running period stopAt d (k + 1) s' := by
  obtain ⟨p, q, hp, hq, hdist⟩ := hd
  have hpend : s.pending = [(k * period, .show), (stopAt, .stop)] := by
    rw [h.pending]
    simp [insertEvent, hk]
  have e : step period node1 node2 s () = some (showDistance period node1 node2 { s with pending := [(stopAt, .stop)] } (k * period)) := by
    simp [step, h.going, hpend]
  have e2 : showDistance period node1 node2 { s with pending := [(stopAt, .stop)] } (k * period) = .ok
      { s with
        minimum := stdMin s.minimum (d (k * period))
        maximum := stdMax s.maximum (d (k * period))
        lines := s.lines ++ [⟨k * period, d (k * period), stdMax s.maximum (d (k * period)), stdMin s.minimum (d (k * period))⟩]
        pending := insertEvent (k * period + period) .show [(stopAt, .stop)] } := by
    simp only [showDistance, hp, hq, hdist]
    rfl
  have l1 := stdMin_least (f := fun j => d (j * period)) h.least
  have l2 := stdMax_greatest (f := fun j => d (j * period)) h.greatest
  rw [e2] at e
  refine ⟨_, e, ⟨h.going, ?_, ?_, ?_, .inr ?_, .inr ?_⟩⟩
  · rw [Nat.succ_mul]
  · simp [h.count]
  · intro j l hl
    rcases Nat.lt_trichotomy j k with hj | hj | hj
    · simp only at hl
      rw [List.getElem?_append_left (by rw [h.count]; exact hj)] at hl
      exact h.lines j l hl
    · subst hj
      simp only at hl
      rw [List.getElem?_append_right (by rw [h.count]), h.count, Nat.sub_self] at hl
      simp only [List.getElem?_cons_zero, Option.some.injEq] at hl
      subst hl
      exact ⟨rfl, rfl, l1, l2⟩
    · simp only at hl
      rw [List.getElem?_eq_none (by simp [h.count]; omega)] at hl
      exact absurd hl (by simp)
  · obtain ⟨m, m1, ⟨j, j1, j2⟩, m3⟩ := l1
    exact ⟨m, m1, ⟨j, by omega, j2⟩, fun i hi => m3 i (by omega)⟩
  · obtain ⟨m, m1, ⟨j, j1, j2⟩, m3⟩ := l2
    exact ⟨m, m1, ⟨j, by omega, j2⟩, fun i hi => m3 i (by omega)⟩

theorem runFrom_snoc {S O : Type} {f : S → O → Option (Outcome S)} {s s' : S} {os : List O} {o : O} (h : runFrom f s os = some (.ok s')) :
    runFrom f s (os ++ [o]) = f s' o := by
  induction os generalizing s with
  | nil =>
    simp only [runFrom, Option.some.injEq, Outcome.ok.injEq] at h
    subst h
    simp only [List.nil_append, runFrom]
    cases f s o with
    | none => rfl
    | some r => cases r <;> rfl
  | cons a os ih =>
    simp only [runFrom, List.cons_append] at h ⊢
    cases hf : f s a with
    | none => simp [hf] at h
    | some r =>
      cases r with
      | ok s1 => simp only [hf] at h ⊢; exact ih h
      | ub e => simp [hf] at h
      | abort => simp [hf] at h
      | assertFail => simp [hf] at h

theorem exec_succ {n : Nat} {s : Sys} (h : exec period stopAt node1 node2 n = some (.ok s)) :
    exec period stopAt node1 node2 (n + 1) = step period node1 node2 s () := by
  unfold exec at h ⊢
  rw [List.replicate_succ']
  exact runFrom_snoc h

theorem exec_running (hd : Placed node1 node2 d) (n : Nat) (hn : ∀ k < n, k * period < stopAt) :
    ∃ s, exec period stopAt node1 node2 n = some (.ok s) ∧ Running period stopAt d n s := by
  induction n with
  | zero => exact ⟨_, rfl, running_start⟩
  | succ n ih =>
    obtain ⟨s, h1, h2⟩ := ih fun k hk => hn k (by omega)
    obtain ⟨s', h3, h4⟩ := running_step hd h2 (hn n (by omega))
    exact ⟨s', by rw [exec_succ h1, h3], h4⟩

/-- **What the program writes.**  If `N` is the number of the multiples of the period before the time of the stop, the run ends after `N + 1` events with `N` lines: one for each of these multiples,
with the distance at that moment and the greatest and the least of the distances shown so far. -/
theorem C110_lines (hd : Placed node1 node2 d) {N : Nat} (hN : ∀ k, k < N ↔ k * period < stopAt) :
    ∃ s, exec period stopAt node1 node2 (N + 1) = some (.ok s) ∧ s.stopped = true ∧ exec period stopAt node1 node2 (N + 2) = none ∧
      s.lines.length = N ∧ ∀ k l, s.lines[k]? = some l → Good period d k l := by
  obtain ⟨s, h1, h2⟩ := exec_running (stopAt := stopAt) (period := period) hd N fun k hk => (hN k).mp hk
  have hstop : ¬ N * period < stopAt := fun h => lt_irrefl _ ((hN N).mpr h)
  have hpend : s.pending = [(stopAt, .stop), (N * period, .show)] := by
    rw [h2.pending]
    simp [insertEvent, hstop]
  have e : step period node1 node2 s () = some (.ok { s with stopped := true, pending := [(N * period, .show)] }) := by
    simp [step, h2.going, hpend]
  have e1 := exec_succ h1
  rw [e] at e1
  refine ⟨_, e1, rfl, ?_, h2.count, h2.lines⟩
  rw [exec_succ e1]
  simp [step]

/-- A node without a mobility model: the very first call dereferences a null pointer. -/
theorem C110_no_model (hT : 0 < stopAt) (n : Nat) : exec period stopAt none node2 (n + 1) = some (.ub .nullDeref) := by
  simp [exec, List.replicate_succ, runFrom, step, start, insertEvent, hT, showDistance, position, bind, Outcome.bind]

end

/-! ## The satellite and the school -/

theorem bird_orbit : launchSat (toRadians 60) 0 250e3 0 = (specElements 2 1 0 250000 60 0 0).launched := by
  rw [ping_launched]
  unfold launchSat toRadians earthRadius
  congr 1 <;> (push_cast; ring)

theorem school_length : length school ≤ 6400400 := by
  unfold school
  obtain ⟨φ, hφ⟩ : ∃ φ, φ = (42.1704632 : ℝ) * (π / 180) := ⟨_, rfl⟩
  obtain ⟨e2, he2⟩ : ∃ e2, e2 = (0.0818191908426215 : ℝ) ^ 2 := ⟨_, rfl⟩
  have e0 : 0 ≤ e2 := by rw [he2]; positivity
  have e1 : e2 ≤ 0.0067 := by rw [he2]; norm_num
  have hsq : 0.9933 ≤ 1 - e2 * sin φ ^ 2 := by
    have := mul_le_mul e1 (sin_sq_le_one φ) (sq_nonneg _) (by norm_num)
    linarith
  obtain ⟨N, hN'⟩ : ∃ N, N = 6378137 / √(1 - e2 * sin φ ^ 2) := ⟨_, rfl⟩
  have hs : 0.9966 ≤ √(1 - e2 * sin φ ^ 2) := le_sqrt_of_sq_le (by linarith)
  have hN0 : 0 ≤ N := by rw [hN']; positivity
  have hN : N ≤ 6399897 := by
    rw [hN', div_le_iff₀ (by linarith)]
    linarith
  have hpos : Geodetic.specPosition .wgs84 42.1704632 (-8.6877909) 450 =
      ((N + 450) * cos φ * cos (-8.6877909 * (π / 180)), (N + 450) * cos φ * sin (-8.6877909 * (π / 180)), ((1 - e2) * N + 450) * sin φ) := by
    rw [hN', hφ, he2]
    rfl
  rw [hpos]
  unfold length
  refine (sqrt_le_left (by norm_num)).mpr ?_
  simp only
  generalize (-8.6877909 : ℝ) * (π / 180) = l
  have h4 : (1 - e2) * N + 450 ≤ N + 450 := by nlinarith
  have h40 : 0 ≤ (1 - e2) * N + 450 := by nlinarith
  have h5 : ((1 - e2) * N + 450) ^ 2 ≤ (N + 450) ^ 2 := pow_le_pow_left₀ h40 h4 2
  have h7 := mul_le_mul_of_nonneg_right h5 (sq_nonneg (sin φ))
  have c1 := cos_sq_add_sin_sq φ
  have c2 := cos_sq_add_sin_sq l
  have h8 : (N + 450) ^ 2 ≤ (6400347 : ℝ) ^ 2 := pow_le_pow_left₀ (by linarith) (by linarith) 2
  calc ((N + 450) * cos φ * cos l) ^ 2 + ((N + 450) * cos φ * sin l) ^ 2 + (((1 - e2) * N + 450) * sin φ) ^ 2
      = (N + 450) ^ 2 * cos φ ^ 2 * (cos l ^ 2 + sin l ^ 2) + ((1 - e2) * N + 450) ^ 2 * sin φ ^ 2 := by ring
    _ ≤ (N + 450) ^ 2 * cos φ ^ 2 + (N + 450) ^ 2 * sin φ ^ 2 := by rw [c2]; linarith
    _ = (N + 450) ^ 2 := by rw [← mul_add, c1, mul_one]
    _ ≤ _ := by linarith

theorem distance_origin (v : Vec) : distance (0, 0, 0) v = length v := by simp [distance, sub]

/-- The distance between the satellite and the school. -/
theorem bird_distance (debug : Bool) (t : ℝ) :
    ∃ p, doGetPosition debug (some (launchSat (toRadians 60) 0 250e3 0)) t = .ok p ∧ 220000 ≤ distance p school ∧ distance p school ≤ 13022000 := by
  obtain ⟨p, h1, h2⟩ := RepoTests.test_altitude debug t
  have hs := school_length
  have t1 := distance_triangle (0, 0, 0) school p
  have t2 := distance_triangle p (0, 0, 0) school
  rw [distance_comm p (0, 0, 0)] at t2
  simp only [distance_origin, h2] at t1 t2
  rw [distance_comm] at t1
  exact ⟨p, h1, by rw [distance_comm]; linarith [distance_comm school p], by linarith⟩

/-- 4022 seconds after the start the satellite is over the south of the Earth. -/
theorem bird_south (debug : Bool) {p : Vec} (h : doGetPosition debug (some (launchSat (toRadians 60) 0 250e3 0)) 4022 = .ok p) : 9700000 < distance p school := by
  rw [bird_orbit, ping_launched] at h
  obtain ⟨p', h1, h2⟩ := reported_height debug ⟨π / 3, π * (0 : Nat), 6621009, 0⟩ (by norm_num) 4022
  rw [h] at h1
  simp only [Outcome.ok.injEq] at h1
  subst h1
  have hh := height_le_distance school p
  rw [distance_comm] at hh
  refine lt_of_lt_of_le ?_ hh
  have hq := school_height
  suffices hz : p.2.2 ≤ -5700000 by linarith
  have hm : 0.0011716 ≤ meanMotion 6621009 ∧ meanMotion 6621009 ≤ 0.0011718 := by
    unfold meanMotion
    exact ⟨le_sqrt_of_sq_le (by norm_num), (sqrt_le_left (by norm_num)).mpr (by norm_num)⟩
  obtain ⟨x, hx⟩ : ∃ x, x = meanMotion 6621009 * 4022 - 3 * π / 2 := ⟨_, rfl⟩
  have p1 := pi_gt_d6
  have p2 := pi_lt_d6
  have x1 : -0.001 ≤ x := by rw [hx]; linarith
  have x2 : x ≤ 0.001 := by rw [hx]; linarith
  have hc : 0.999 ≤ cos x := by
    have := one_sub_sq_div_two_le_cos (x := x)
    nlinarith
  have hsin : sin (meanMotion 6621009 * 4022) = - cos x := by
    have : meanMotion 6621009 * 4022 = x + π / 2 + π := by rw [hx]; ring
    rw [this, sin_add_pi, sin_add_pi_div_two]
  have h3 : (1.7320 : ℝ) ≤ √3 := le_sqrt_of_sq_le (by norm_num)
  simp only [add_zero] at h2
  rw [h2, hsin, sin_pi_div_three]
  have := mul_le_mul hc h3 (by norm_num) (by linarith)
  nlinarith

/-- The coordinates of the school, to some hundred metres. -/
theorem school_coordinates : (4679600 ≤ school.1 ∧ school.1 ≤ 4682400) ∧ (-715600 ≤ school.2.1 ∧ school.2.1 ≤ -714900) ∧ (4259300 ≤ school.2.2 ∧ school.2.2 ≤ 4260800) := by
  have p1 := pi_gt_d6
  have p2 := pi_lt_d6
  obtain ⟨φ, hφ⟩ : ∃ φ, φ = (42.1704632 : ℝ) * (π / 180) := ⟨_, rfl⟩
  obtain ⟨l, hl⟩ : ∃ l, l = (8.6877909 : ℝ) * (π / 180) := ⟨_, rfl⟩
  obtain ⟨e2, he2⟩ : ∃ e2, e2 = (0.0818191908426215 : ℝ) ^ 2 := ⟨_, rfl⟩
  have e0 : 0.006694 ≤ e2 := by rw [he2]; norm_num
  have e1 : e2 ≤ 0.006695 := by rw [he2]; norm_num
  have sf := RepoTests.sin_between (x := φ) (a := 0.73600) (b := 0.73603) (by norm_num) (by rw [hφ]; linarith) (by rw [hφ]; linarith) (by norm_num)
  have cf := RepoTests.cos_between (x := φ) (a := 0.73600) (b := 0.73603) (by norm_num) (by rw [hφ]; linarith) (by rw [hφ]; linarith) (by norm_num)
  have sl := RepoTests.sin_between (x := l) (a := 0.15162) (b := 0.15165) (by norm_num) (by rw [hl]; linarith) (by rw [hl]; linarith) (by norm_num)
  have cl := RepoTests.cos_between (x := l) (a := 0.15162) (b := 0.15165) (by norm_num) (by rw [hl]; linarith) (by rw [hl]; linarith) (by norm_num)
  have sf' : 0.67132 ≤ sin φ ∧ sin φ ≤ 0.67138 := by norm_num at sf ⊢; constructor <;> linarith [sf.1, sf.2]
  have cf' : 0.74113 ≤ cos φ ∧ cos φ ≤ 0.74138 := by norm_num at cf ⊢; constructor <;> linarith [cf.1, cf.2]
  have sl' : 0.15103 ≤ sin l ∧ sin l ≤ 0.15107 := by norm_num at sl ⊢; constructor <;> linarith [sl.1, sl.2]
  have cl' : 0.98852 ≤ cos l ∧ cos l ≤ 0.98853 := by norm_num at cl ⊢; constructor <;> linarith [cl.1, cl.2]
  obtain ⟨N, hN'⟩ : ∃ N, N = 6378137 / √(1 - e2 * sin φ ^ 2) := ⟨_, rfl⟩
  have q : 0.45067 ≤ sin φ ^ 2 ∧ sin φ ^ 2 ≤ 0.45076 := by constructor <;> nlinarith [sf'.1, sf'.2]
  have m := RepoTests.mul_between (x := e2) (y := sin φ ^ 2) (by norm_num) (by norm_num) ⟨e0, e1⟩ q
  norm_num at m
  have hs1 : 0.99848 ≤ √(1 - e2 * sin φ ^ 2) := le_sqrt_of_sq_le (by norm_num; linarith [m.2])
  have hs2 : √(1 - e2 * sin φ ^ 2) ≤ 0.9985 := (sqrt_le_left (by norm_num)).mpr (by norm_num; linarith [m.1])
  have hN : 6387700 ≤ N ∧ N ≤ 6387850 := by
    rw [hN', le_div_iff₀ (by linarith), div_le_iff₀ (by linarith)]
    constructor <;> linarith
  have hM : 6345300 ≤ (1 - e2) * N + 450 ∧ (1 - e2) * N + 450 ≤ 6345600 := by
    have := RepoTests.mul_between (x := e2) (y := N) (by norm_num) (by norm_num) ⟨e0, e1⟩ hN
    norm_num at this
    constructor <;> linarith [this.1, this.2, hN.1, hN.2]
  have hpos : school = ((N + 450) * cos φ * cos (-8.6877909 * (π / 180)), (N + 450) * cos φ * sin (-8.6877909 * (π / 180)), ((1 - e2) * N + 450) * sin φ) := by
    rw [hN', hφ, he2]
    rfl
  rw [hpos, show (-8.6877909 : ℝ) * (π / 180) = -l by rw [hl]; ring, cos_neg, sin_neg]
  have hA : 6388150 ≤ N + 450 ∧ N + 450 ≤ 6388300 := by constructor <;> linarith [hN.1, hN.2]
  have g := RepoTests.mul_between (by norm_num) (by norm_num) hA cf'
  have g1 := RepoTests.mul_between (by norm_num) (by norm_num) g cl'
  have g2 := RepoTests.mul_between (by norm_num) (by norm_num) g sl'
  have g3 := RepoTests.mul_between (by norm_num) (by norm_num) hM sf'
  norm_num at g1 g2 g3
  refine ⟨⟨?_, ?_⟩, ⟨?_, ?_⟩, ⟨?_, ?_⟩⟩ <;> simp only <;> linarith [g1.1, g1.2, g2.1, g2.2, g3.1, g3.2]

/-- 11541 seconds after the start, on its third revolution, the satellite passes the school. -/
theorem bird_near (debug : Bool) {p : Vec} (h : doGetPosition debug (some (launchSat (toRadians 60) 0 250e3 0)) 11541 = .ok p) : distance p school < 560000 := by
  have hrad : (launchSat (toRadians 60) 0 250e3 0).radius = 6621009 := by simp [launchSat, earthRadius]; norm_num
  have hr : 0 < (launchSat (toRadians 60) 0 250e3 0).radius := by rw [hrad]; norm_num
  obtain ⟨q, h1, h2⟩ := C46_rotated debug _ hr 11541
  rw [h2] at h
  rw [C45_position debug _ hr] at h1
  simp only [Outcome.ok.injEq] at h1 h
  have hm := RepoTests.motion250
  have p1 := pi_gt_d6
  have p2 := pi_lt_d6
  obtain ⟨δ, hδ⟩ : ∃ δ, δ = meanMotion 6621009 * 11541 - 2 * (2 * π) := ⟨_, rfl⟩
  obtain ⟨w, hw⟩ : ∃ w : ℝ, w = 7.292115922e-5 * 11541 := ⟨_, rfl⟩
  have hθ : meanMotion 6621009 * 11541 = δ + (2 : ℕ) * (2 * π) := by rw [hδ]; push_cast; ring
  have hph : (launchSat (toRadians 60) 0 250e3 0).phase = 0 := rfl
  rw [← h1, hrad, hph, add_zero, ← hw, hθ] at h
  have hp : p = (6621000 * (cos δ * cos w + sin δ * sin w / 2), 6621000 * (-(cos δ * sin w) + sin δ * cos w / 2), 6621000 * (sin δ * √3 / 2)) := by
    rw [← h]
    simp only [smul, rotZ, circlePoint, rotX, launchSat, earthRadius, RepoTests.rad60, cos_pi_div_three, sin_pi_div_three, cos_zero, sin_zero, cos_neg, sin_neg,
      cos_add_nat_mul_two_pi, sin_add_nat_mul_two_pi]
    refine Prod.ext ?_ (Prod.ext ?_ ?_) <;> simp only <;> ring
  have sd := RepoTests.sin_between (x := δ) (a := 0.95581) (b := 0.95584) (by norm_num) (by rw [hδ]; linarith [hm.1]) (by rw [hδ]; linarith [hm.2]) (by norm_num)
  have cd := RepoTests.cos_between (x := δ) (a := 0.95581) (b := 0.95584) (by norm_num) (by rw [hδ]; linarith [hm.1]) (by rw [hδ]; linarith [hm.2]) (by norm_num)
  have sw := RepoTests.sin_between (x := w) (a := 0.84157) (b := 0.84160) (by norm_num) (by rw [hw]; norm_num) (by rw [hw]; norm_num) (by norm_num)
  have cw := RepoTests.cos_between (x := w) (a := 0.84157) (b := 0.84160) (by norm_num) (by rw [hw]; norm_num) (by rw [hw]; norm_num) (by norm_num)
  have sd' : 0.81677 ≤ sin δ ∧ sin δ ≤ 0.81695 := by norm_num at sd ⊢; constructor <;> linarith [sd.1, sd.2]
  have cd' : 0.5769 ≤ cos δ ∧ cos δ ≤ 0.57799 := by norm_num at cd ⊢; constructor <;> linarith [cd.1, cd.2]
  have sw' : 0.74568 ≤ sin w ∧ sin w ≤ 0.74577 := by norm_num at sw ⊢; constructor <;> linarith [sw.1, sw.2]
  have cw' : 0.66626 ≤ cos w ∧ cos w ≤ 0.66679 := by norm_num at cw ⊢; constructor <;> linarith [cw.1, cw.2]
  have h3 : 1.73205 ≤ √3 ∧ √3 ≤ 1.73206 := ⟨le_sqrt_of_sq_le (by norm_num), (sqrt_le_left (by norm_num)).mpr (by norm_num)⟩
  have m1 := RepoTests.mul_between (by norm_num) (by norm_num) cd' cw'
  have m2 := RepoTests.mul_between (by norm_num) (by norm_num) sd' sw'
  have m3 := RepoTests.mul_between (by norm_num) (by norm_num) cd' sw'
  have m4 := RepoTests.mul_between (by norm_num) (by norm_num) sd' cw'
  have m5 := RepoTests.mul_between (by norm_num) (by norm_num) sd' h3
  norm_num at m1 m2 m3 m4 m5
  obtain ⟨⟨a1, a2⟩, ⟨a3, a4⟩, a5, a6⟩ := school_coordinates
  have key : ∀ {x c : ℝ}, -c ≤ x → x ≤ c → x ^ 2 ≤ c ^ 2 := fun h1 h2 => sq_le_sq' h1 h2
  unfold distance length sub
  rw [sqrt_lt' (by norm_num)]
  rw [hp]
  simp only
  have d1 : (school.1 - 6621000 * (cos δ * cos w + sin δ * sin w / 2)) ^ 2 ≤ 122000 ^ 2 := key (by linarith [m1.1, m1.2, m2.1, m2.2]) (by linarith [m1.1, m1.2, m2.1, m2.2])
  have d2 : (school.2.1 - 6621000 * (-(cos δ * sin w) + sin δ * cos w / 2)) ^ 2 ≤ 338000 ^ 2 := key (by linarith [m3.1, m3.2, m4.1, m4.2]) (by linarith [m3.1, m3.2, m4.1, m4.2])
  have d3 : (school.2.2 - 6621000 * (sin δ * √3 / 2)) ^ 2 ≤ 426000 ^ 2 := key (by linarith [m5.1, m5.2]) (by linarith [m5.1, m5.2])
  norm_num at d1 d2 d3 ⊢
  linarith

theorem seconds_in_a_week (k : Nat) : k < 604800 ↔ k * second < week := by
  unfold second week
  constructor <;> intro h <;> omega

/-- **The program.**  It writes 604800 lines, one for every second before the end of the week; each shows the distance at that second and distances between 220 and 13022 kilometres.  The minimum is more than
1000 kilometres in the first 450 seconds, the maximum always; after 4022 seconds the maximum is more than 9700 kilometres, after 11541 seconds the minimum less than 560. -/
theorem C110_program (debug : Bool) :
    ∃ s, exec second week (bird debug) (ground school) 604801 = some (.ok s) ∧ s.stopped = true ∧ s.lines.length = 604800 ∧
      ∀ (k : Nat) l, s.lines[k]? = some l → l.time = k * 10 ^ 9 ∧
        (∃ p, doGetPosition debug (some (launchSat (toRadians 60) 0 250e3 0)) k = .ok p ∧ l.distance = distance p school) ∧
        ∃ lo hi : ℝ, l.minimum = lo ∧ l.maximum = hi ∧ 220000 ≤ lo ∧ lo ≤ l.distance ∧ l.distance ≤ hi ∧ hi ≤ 13022000 ∧
          1000000 < hi ∧ (k ≤ 450 → 1000000 < lo) ∧ (4022 ≤ k → 9700000 < hi) ∧ (11541 ≤ k → lo < 560000) := by
  choose f f1 f2 f3 using bird_distance debug
  have hd : Placed (bird debug) (ground school) fun t => distance (f (t / 10 ^ 9)) school :=
    ⟨fun t => f (t / 10 ^ 9), fun _ => school, fun t => f1 _, fun _ => rfl, fun _ => rfl⟩
  obtain ⟨s, h1, h2, -, h4, h5⟩ := C110_lines (period := second) (stopAt := week) hd seconds_in_a_week
  have hsec : ∀ k : Nat, ((k * second : Nat) : ℝ) / 10 ^ 9 = k := by
    intro k
    unfold second
    push_cast
    field_simp
    norm_num
  have far : ∀ k : Nat, k ≤ 450 → 1000000 < distance (f k) school := by
    intro k hk
    obtain ⟨p, e1, e2⟩ := C107_far debug 0 (t := (k : ℝ)) (by
      have := TrackedNet.silent_first (z := k * second) (by unfold second; omega)
      rwa [hsec] at this)
    rw [← bird_orbit, f1] at e1
    simp only [Outcome.ok.injEq] at e1
    rw [e1, distance_comm]
    exact e2
  refine ⟨s, h1, h2, h4, fun k l hl => ?_⟩
  obtain ⟨g1, g2, ⟨lo, g3, ⟨j, j1, j2⟩, g4⟩, hi, g5, ⟨i, i1, i2⟩, g6⟩ := h5 k l hl
  simp only [hsec] at g2 j2 g4 i2 g6
  refine ⟨g1, ⟨f k, f1 k, g2⟩, lo, hi, g3, g5, by rw [← j2]; exact f2 _, by rw [g2]; exact g4 k le_rfl, by rw [g2]; exact g6 k le_rfl, by rw [← i2]; exact f3 _, ?_, ?_, ?_, ?_⟩
  · exact (far 0 (by omega)).trans_le (g6 0 (by omega))
  · intro hk
    rw [← j2]
    exact far j (by omega)
  · intro hk
    have := g6 4022 hk
    exact (bird_south debug (f1 _)).trans_le (by exact_mod_cast this)
  · intro hk
    have := g4 11541 hk
    exact lt_of_le_of_lt (by exact_mod_cast this) (bird_near debug (f1 _))

/-- **Contact.**  The first satellite of examples/vostping.cc flies the same orbit: 11541 seconds after the start the distance model with its default of 1000 km lets frames through in both directions. -/
theorem C110_contact (debug : Bool) : ∃ p, doGetPosition debug (some (specElements 2 1 0 250000 60 0 0).launched) 11541 = .ok p ∧
    SuccessModel.distanceSuccess 1000000 (some (.orbit p)) (some (.other school)) = .ok true ∧
    SuccessModel.distanceSuccess 1000000 (some (.other school)) (some (.orbit p)) = .ok true := by
  obtain ⟨p, h1, -, -⟩ := bird_distance debug 11541
  have h2 := bird_near debug h1
  refine ⟨p, by rw [← bird_orbit]; exact h1, ?_, ?_⟩
  · simp only [SuccessModel.distanceSuccess, SuccessModel.getMobility, Option.map_some, SuccessModel.Mobility.position, Outcome.ok.injEq, decide_eq_true_eq]
    linarith
  · simp only [SuccessModel.distanceSuccess, SuccessModel.getMobility, Option.map_some, SuccessModel.Mobility.position, Outcome.ok.injEq, decide_eq_true_eq]
    rw [distance_comm]
    linarith

/-! ## Examples -/

/-- The nodes of the program are placed. -/
example (debug : Bool) : ∃ d, Placed (bird debug) (ground school) d := by
  choose f f1 f2 f3 using bird_distance debug
  exact ⟨fun t => distance (f (t / 10 ^ 9)) school, fun t => f (t / 10 ^ 9), fun _ => school, fun t => f1 _, fun _ => rfl, fun _ => rfl⟩

/-- Whatever the period and the time of the stop, there is a number of lines. -/
example (period stopAt : Nat) (hp : 0 < period) : ∃ N, ∀ k, k < N ↔ k * period < stopAt :=
  ⟨(stopAt + period - 1) / period, fun k => by
    rw [Nat.lt_div_iff_mul_lt hp]
    constructor <;> intro h <;> omega⟩

/-- A point that goes to and fro, shown every 2 ticks until 7: four lines. -/
example : ∃ s, exec 2 7 (some fun t => .ok ((if t = 2 then 5 else t : ℝ), 0, 0)) (ground (0, 0, 0)) 5 = some (.ok s) ∧ s.lines.length = 4 := by
  obtain ⟨s, h1, -, -, h2, -⟩ := C110_lines (period := 2) (stopAt := 7) (node1 := some fun t => .ok ((if t = 2 then 5 else t : ℝ), 0, 0)) (node2 := ground (0, 0, 0))
    (d := fun t => distance ((if t = 2 then 5 else t : ℝ), 0, 0) (0, 0, 0)) ⟨_, _, fun _ => rfl, fun _ => rfl, fun _ => rfl⟩ (N := 4) (by intro k; omega)
  exact ⟨s, h1, h2⟩

end Intermittent
end Icarus
