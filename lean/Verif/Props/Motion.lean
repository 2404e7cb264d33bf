import Verif.Model.Motion
import Verif.Props.Visibility
import Mathlib.Algebra.Order.Round
import Mathlib.Algebra.Order.Archimedean.Real.Basic
import Mathlib.Analysis.SpecialFunctions.Trigonometric.Bounds

/-!
# Motion between two instants (C89, C90)

Exact real arithmetic.
-/

set_option autoImplicit false

namespace Icarus
namespace Orbit

open Real

/-! ## Distances -/

theorem distance_eq_norm (a b : Vec) : distance a b = ‖toE b - toE a‖ := by
  rw [distance, ← norm_toE]
  congr 1
  ext i
  fin_cases i <;> simp [toE, sub]

theorem distance_triangle (a b c : Vec) : distance a c ≤ distance a b + distance b c := by
  simp only [distance_eq_norm]
  calc ‖toE c - toE a‖ = ‖(toE b - toE a) + (toE c - toE b)‖ := by congr 1; abel
    _ ≤ _ := norm_add_le _ _

theorem distance_comm (a b : Vec) : distance a b = distance b a := by
  simp only [distance_eq_norm]
  exact norm_sub_rev _ _

theorem distance_nonneg (a b : Vec) : 0 ≤ distance a b := Real.sqrt_nonneg _

theorem distance_lipschitz (a b a' b' : Vec) : |distance a b - distance a' b'| ≤ distance a a' + distance b b' := by
  rw [abs_le]
  have h1 := distance_triangle a a' b
  have h2 := distance_triangle a' b' b
  have h3 := distance_triangle a' a b'
  have h4 := distance_triangle a b b'
  rw [distance_comm b' b] at h2
  rw [distance_comm a' a] at h3
  constructor <;> linarith

/-! ## Speed -/

/-- The speed that bounds the motion of an end of a link relative to the Earth: that of the orbit plus that of the Earth's rotation at the height of the orbit.  The
reported position is 9 m lower than the orbit. -/
noncomputable def Place.speed : Place → ℝ
  | .sat o => (o.radius - 9) * (√(6.67430e-11 * 5.97e24 / o.radius ^ 3) + 7.292115922e-5)
  | .fixed _ => 0

/-- Satellites are above the point where the reported position makes no sense. -/
def Place.Proper : Place → Prop
  | .sat o => 9 ≤ o.radius
  | .fixed _ => True

theorem abs_sin_le (x : ℝ) : |sin x| ≤ |x| := by
  have := Real.abs_sin_sub_sin_le x 0
  simpa using this

theorem distance_rotZ (a b : ℝ) (v : Vec) : distance (rotZ a v) (rotZ b v) ≤ length v * |a - b| := by
  have key : (sub (rotZ b v) (rotZ a v)).1 ^ 2 + (sub (rotZ b v) (rotZ a v)).2.1 ^ 2 + (sub (rotZ b v) (rotZ a v)).2.2 ^ 2 =
      (v.1 ^ 2 + v.2.1 ^ 2) * (2 * |sin ((a - b) / 2)|) ^ 2 := by
    have h1 : cos (a - b) = 1 - 2 * sin ((a - b) / 2) ^ 2 := by
      have h2 := cos_two_mul ((a - b) / 2)
      rw [show 2 * ((a - b) / 2) = a - b by ring] at h2
      have h4 := sin_sq_add_cos_sq ((a - b) / 2)
      linarith
    rw [mul_pow, sq_abs]
    simp only [sub, rotZ]
    rw [cos_sub] at h1
    have hE := sin_sq_add_cos_sq a
    have hF := sin_sq_add_cos_sq b
    linear_combination (v.1 ^ 2 + v.2.1 ^ 2) * hE + (v.1 ^ 2 + v.2.1 ^ 2) * hF - 2 * (v.1 ^ 2 + v.2.1 ^ 2) * h1
  rw [distance, length, key]
  have hs : 2 * |sin ((a - b) / 2)| ≤ |a - b| := by
    have := abs_sin_le ((a - b) / 2)
    rw [abs_div, abs_two] at this
    linarith
  calc √((v.1 ^ 2 + v.2.1 ^ 2) * (2 * |sin ((a - b) / 2)|) ^ 2) ≤ √((v.1 ^ 2 + v.2.1 ^ 2 + v.2.2 ^ 2) * |a - b| ^ 2) := by
        apply Real.sqrt_le_sqrt
        have : (2 * |sin ((a - b) / 2)|) ^ 2 ≤ |a - b| ^ 2 := pow_le_pow_left₀ (by positivity) hs 2
        have h2 : v.1 ^ 2 + v.2.1 ^ 2 ≤ v.1 ^ 2 + v.2.1 ^ 2 + v.2.2 ^ 2 := by nlinarith [sq_nonneg v.2.2]
        gcongr
    _ = length v * |a - b| := by rw [sqrt_mul (by positivity), sqrt_sq (abs_nonneg _), length]

theorem distance_smul (k : ℝ) (hk : 0 ≤ k) (u v : Vec) : distance (smul k u) (smul k v) = k * distance u v := by
  have : sub (smul k v) (smul k u) = smul k (sub v u) := by
    simp only [sub, smul, Prod.mk.injEq]
    exact ⟨by ring, by ring, by ring⟩
  rw [distance, this, length_smul _ hk, distance]

theorem distance_rotZ_rotZ (a : ℝ) (u v : Vec) : distance (rotZ a u) (rotZ a v) = distance u v := by
  rw [distance, sub_rotZ, length_rotZ, distance]

/-- **Speed limit.**  Between any two instants, the reported position of a satellite moves no faster than the speed of its orbit plus the speed of the Earth's rotation at
its height. -/
theorem C89_speed (debug : Bool) (p : Place) (hp : p.Proper) (t u : ℕ) :
    ∃ a b, p.position debug t = .ok a ∧ p.position debug u = .ok b ∧ distance a b ≤ p.speed * |(t : ℝ) - u| / 10 ^ 9 := by
  cases p with
  | fixed q =>
    refine ⟨q, q, rfl, rfl, ?_⟩
    simp [distance, sub, length, Place.speed]
  | sat o =>
    have hr9 : 9 ≤ o.radius := hp
    have hr : 0 < o.radius := by linarith
    have hpos : ∀ t : ℕ, Place.position debug t (.sat o) = .ok (smul ((o.radius - 9) / o.radius) (rotZ (-(7.292115922e-5 * ((t : ℝ) / 10 ^ 9)))
        (circlePoint o (meanMotion o.radius * ((t : ℝ) / 10 ^ 9) + o.phase)))) := by
      intro t
      obtain ⟨q, h1, h2⟩ := C46_rotated debug o hr ((t : ℝ) / 10 ^ 9)
      rw [C45_position debug o hr] at h1
      simp only [Outcome.ok.injEq] at h1
      subst h1
      exact h2
    refine ⟨_, _, hpos t, hpos u, ?_⟩
    have hk : 0 ≤ (o.radius - 9) / o.radius := div_nonneg (by linarith) hr.le
    rw [distance_smul _ hk]
    set n := meanMotion o.radius with hn
    have hn0 : 0 < n := meanMotion_pos hr
    have h1 : distance (circlePoint o (n * ((t : ℝ) / 10 ^ 9) + o.phase)) (circlePoint o (n * ((u : ℝ) / 10 ^ 9) + o.phase)) ≤
        o.radius * (n * (|(t : ℝ) - u| / 10 ^ 9)) := by
      rw [distance_circle _ _ _ hr.le]
      have e1 : (n * ((t : ℝ) / 10 ^ 9) + o.phase - (n * ((u : ℝ) / 10 ^ 9) + o.phase)) / 2 = n / 2 / 10 ^ 9 * ((t : ℝ) - u) := by ring
      rw [e1]
      have := abs_sin_le (n / 2 / 10 ^ 9 * ((t : ℝ) - u))
      rw [abs_mul, abs_of_pos (by positivity : 0 < n / 2 / 10 ^ 9)] at this
      calc 2 * o.radius * |sin (n / 2 / 10 ^ 9 * ((t : ℝ) - u))| ≤ 2 * o.radius * (n / 2 / 10 ^ 9 * |(t : ℝ) - u|) := by gcongr
        _ = _ := by ring
    have h2 := distance_rotZ (-(7.292115922e-5 * ((t : ℝ) / 10 ^ 9))) (-(7.292115922e-5 * ((u : ℝ) / 10 ^ 9)))
      (circlePoint o (n * ((u : ℝ) / 10 ^ 9) + o.phase))
    rw [length_circlePoint o _ hr.le] at h2
    have e2 : |-(7.292115922e-5 * ((t : ℝ) / 10 ^ 9)) - -(7.292115922e-5 * ((u : ℝ) / 10 ^ 9))| = 7.292115922e-5 * (|(t : ℝ) - u| / 10 ^ 9) := by
      rw [show -(7.292115922e-5 * ((t : ℝ) / 10 ^ 9)) - -(7.292115922e-5 * ((u : ℝ) / 10 ^ 9)) = -(7.292115922e-5 / 10 ^ 9 * ((t : ℝ) - u)) by ring,
        abs_neg, abs_mul, abs_of_pos (by positivity)]
      ring
    rw [e2] at h2
    have h3 := distance_triangle (rotZ (-(7.292115922e-5 * ((t : ℝ) / 10 ^ 9))) (circlePoint o (n * ((t : ℝ) / 10 ^ 9) + o.phase)))
      (rotZ (-(7.292115922e-5 * ((t : ℝ) / 10 ^ 9))) (circlePoint o (n * ((u : ℝ) / 10 ^ 9) + o.phase)))
      (rotZ (-(7.292115922e-5 * ((u : ℝ) / 10 ^ 9))) (circlePoint o (n * ((u : ℝ) / 10 ^ 9) + o.phase)))
    rw [distance_rotZ_rotZ] at h3
    have h4 := h3.trans (add_le_add h1 h2)
    calc _ ≤ (o.radius - 9) / o.radius * (o.radius * (n * (|(t : ℝ) - u| / 10 ^ 9)) + o.radius * (7.292115922e-5 * (|(t : ℝ) - u| / 10 ^ 9))) := by gcongr
      _ = (o.radius - 9) * (n + 7.292115922e-5) * |(t : ℝ) - u| / 10 ^ 9 := by field_simp
      _ = _ := by simp only [Place.speed, hn, meanMotion]

/-- For orbits between the ground and 43 000 km above it, that is less than 11.6 km/s. -/
theorem C89_speed_bound (o : Elements) (h1 : 6371009 ≤ o.radius) (h2 : o.radius ≤ 50000000) : (Place.sat o).speed ≤ 11600 := by
  have hr : 0 < o.radius := by linarith
  have hn := meanMotion_sq hr
  have hn0 := meanMotion_pos hr
  have h3 : o.radius * meanMotion o.radius ≤ 7910 := by
    refine abs_le_of_sq_le_sq' ?_ (by norm_num) |>.2
    rw [mul_pow, hn]
    have e : o.radius ^ 2 * (6.67430e-11 * 5.97e24 / o.radius ^ 3) = 6.67430e-11 * 5.97e24 / o.radius := by field_simp
    rw [e, div_le_iff₀ hr]
    norm_num
    linarith
  simp only [Place.speed]
  change (o.radius - 9) * (meanMotion o.radius + 7.292115922e-5) ≤ _
  nlinarith

theorem specDist_eq (a b : Vec) : specDist a b = distance a b := by
  unfold specDist distance length sub
  congr 1
  ring

/-! ## The periodic tracker between its updates -/

open Tracker Constellation in
theorem log_le_clock {D : Type} {addr : D → SatAddress} {c : Nat → Constellation D} {t0 interval offset : Nat} {r : SatAddress}
    {K : Type} [LE K] [DecidableLE K] {dist : Nat → D → K} (hi : 0 < interval) {ops : List Op} {s : Sys Call}
    (h : runFrom (step (periodicFire addr dist c interval)) (periodicInit t0 interval offset r) ops = some (.ok s)) :
    ∀ x ∈ s.log, x.1 ≤ s.clock := by
  refine run_induction (P := fun _ s => ∀ x ∈ s.log, x.1 ≤ s.clock) ?_ ?_ h
  · unfold periodicInit; split <;> simp
  · intro ops o s s' hrun ih hs x hx
    cases o with
    | outside t a =>
      obtain ⟨⟨h1, -⟩, rfl⟩ := step_outside hs
      simp only [List.mem_append, List.mem_singleton] at hx
      rcases hx with hx | rfl
      · exact (ih x hx).trans h1
      · exact le_rfl
    | run =>
      obtain ⟨t, e, es, a, next, h1, -, h3, -, h5, -⟩ := step_run hs
      obtain ⟨-, -, hclock, -⟩ := periodic_inv hi hrun
      obtain ⟨call, rest, hpend⟩ := C42_goes_on hi hrun
      rw [hpend] at h1
      simp only [List.cons.injEq, Prod.mk.injEq] at h1
      rw [h5] at hx
      rw [h3, ← h1.1.1]
      simp only [List.mem_append, List.mem_singleton] at hx
      rcases hx with hx | rfl
      · exact (ih x hx).trans hclock
      · exact h1.1.1.ge

open Tracker Constellation in
/-- **Between two updates.**  At any instant between an update of the periodic tracker and the next event of the simulation that concerns it, as long as nobody else has
assigned the tracked address, the tracked satellite is at most `2 * v * interval` farther away than any other one, where `v` bounds the speeds of the satellites. -/
theorem C89_nearly_nearest {D : Type} {addr : D → SatAddress} {c : Nat → Constellation D} {t0 interval offset : Nat} {r : SatAddress}
    {e : Endian} {hasOrbit : D → Bool} {cid n sz : Nat} {hist : List (Nat × Nat × D)} {as : List SatAddress}
    (hc : ∀ t, Built e hasOrbit cid n sz hist as (c t)) (debug : Bool) (orbit : D → Elements) (hr : ∀ d, 9 ≤ (orbit d).radius)
    {v : ℝ} (hv : ∀ d, (Place.sat (orbit d)).speed ≤ v) (pos : Nat → D → ℝ × ℝ × ℝ)
    (hpos : ∀ t d, (Place.sat (orbit d)).position debug t = .ok (pos t d)) (q : ℝ × ℝ × ℝ)
    (hi : 0 < interval) (ho : offset ≤ interval) {ops : List Op} {s : Sys Call}
    (h : runFrom (step (periodicFire addr (fun t d => sqDistance (pos t d) q) c interval)) (periodicInit t0 interval offset r) ops = some (.ok s))
    {t : Nat} {a : SatAddress} (hlast : s.log.getLast? = some (t, true, a)) {τ : Nat} (hτ : possible s τ) :
    t ≤ τ ∧ τ ≤ t + interval ∧ ∃ d ∈ hist.map (·.2.2), s.remote = addr d ∧
      ∀ d' ∈ hist.map (·.2.2), distance (pos τ d) q ≤ distance (pos τ d') q + 2 * v * ((interval : ℝ) / 10 ^ 9) := by
  obtain ⟨hn, hrem⟩ := C42_nearest (fun t => hc t) pos (fun _ => q) hi h
  obtain ⟨h1, -⟩ := C42_times hi h
  obtain ⟨call, rest, hpend⟩ := C42_goes_on hi h
  -- the last update
  obtain ⟨l, hl⟩ : ∃ l, s.log = l ++ [(t, true, a)] := by
    rcases List.eq_nil_or_concat s.log with h0 | ⟨l, b, hb⟩
    · rw [h0] at hlast; simp at hlast
    · rw [List.concat_eq_append] at hb
      rw [hb, List.getLast?_append] at hlast
      simp at hlast
      exact ⟨l, by rw [hb, hlast]⟩
  have hup : updates s = (l.filter (·.2.1)).map (fun x => (x.1, x.2.2)) ++ [(t, a)] := by
    simp [updates, hl]
  obtain ⟨k, hk⟩ : ∃ k, k = ((l.filter (·.2.1)).map (fun x => (x.1, x.2.2))).length := ⟨_, rfl⟩
  have hlen : (updates s).length = k + 1 := by rw [hup, List.length_append, ← hk]; rfl
  have ht : t = dueTime t0 offset interval k := by
    rw [hlen, List.range_succ, List.map_append, hup, List.map_append] at h1
    have := List.append_inj' h1 rfl
    simpa using this.2
  have hnext : dueTime t0 offset interval (k + 1) ≤ t + interval := by
    rw [ht]
    cases k with
    | zero => simp [dueTime]; exact ho
    | succ k => simp [dueTime, Nat.succ_mul]; omega
  have hτ2 : τ ≤ t + interval := by
    have := hτ.2 _ (by rw [hpend]; exact List.mem_cons_self)
    rw [hlen] at this
    exact this.trans hnext
  have hτ1 : t ≤ τ := by
    refine le_trans ?_ hτ.1
    exact log_le_clock hi h (t, true, a) (by rw [hl]; simp)
  refine ⟨hτ1, hτ2, ?_⟩
  obtain ⟨d, hd, had, hmin⟩ := hn t a (by rw [hup]; simp)
  refine ⟨d, hd, ?_, ?_⟩
  · rw [hrem, hl]; simp [had]
  · intro d' hd'
    have hm := hmin d' hd'
    rw [specDist_eq, specDist_eq] at hm
    have move : ∀ x, |distance (pos τ x) q - distance (pos t x) q| ≤ v * ((interval : ℝ) / 10 ^ 9) := by
      intro x
      obtain ⟨p1, p2, e1, e2, hd⟩ := C89_speed debug (.sat (orbit x)) (hr x) τ t
      rw [hpos, Outcome.ok.injEq] at e1 e2
      subst e1 e2
      have h3 := distance_lipschitz (pos τ x) q (pos t x) q
      have h4 : distance q q = 0 := by simp [distance, sub, length]
      have hv0 : 0 ≤ (Place.sat (orbit x)).speed := by
        have := hr x
        simp only [Place.speed]
        have : 0 ≤ (orbit x).radius - 9 := by linarith
        positivity
      have h5 : |(τ : ℝ) - t| ≤ interval := by
        have b1 : (t : ℝ) ≤ τ := by exact_mod_cast hτ1
        have b2 : (τ : ℝ) ≤ t + interval := by exact_mod_cast hτ2
        rw [abs_of_nonneg (by linarith)]
        linarith
      have h6 := hv x
      calc _ ≤ (Place.sat (orbit x)).speed * |(τ : ℝ) - t| / 10 ^ 9 := by linarith
        _ ≤ v * interval / 10 ^ 9 := by gcongr; exact hv0.trans h6
        _ = _ := by ring
    have m1 := abs_le.mp (move d)
    have m2 := abs_le.mp (move d')
    linarith [m1.2, m2.1]

/-- What one might expect of a tracker that picks the nearest satellite: that the tracked satellite is the nearest one. -/
def C89_always_nearest_claim : Prop :=
  ∀ {addr : Nat → SatAddress} {c : Nat → Constellation Nat} {t0 interval offset : Nat} {r : SatAddress}
    {e : Endian} {hasOrbit : Nat → Bool} {cid n sz : Nat} {hist : List (Nat × Nat × Nat)} {as : List SatAddress},
    (∀ t, Built e hasOrbit cid n sz hist as (c t)) → ∀ (debug : Bool) (orbit : Nat → Elements), (∀ d, 9 ≤ (orbit d).radius) →
    ∀ (pos : Nat → Nat → ℝ × ℝ × ℝ), (∀ t d, (Place.sat (orbit d)).position debug t = .ok (pos t d)) → ∀ q : ℝ × ℝ × ℝ,
    0 < interval → offset ≤ interval → ∀ (ops : List Tracker.Op) (s : Tracker.Sys Tracker.Call),
    runFrom (Tracker.step (Tracker.periodicFire addr (fun t d => Constellation.sqDistance (pos t d) q) c interval))
      (Tracker.periodicInit t0 interval offset r) ops = some (.ok s) →
    ∀ t a, s.log.getLast? = some (t, true, a) → ∀ τ, Tracker.possible s τ →
    ∃ d ∈ hist.map (·.2.2), s.remote = addr d ∧ ∀ d' ∈ hist.map (·.2.2), distance (pos τ d) q ≤ distance (pos τ d') q

/-- A satellite in an equatorial orbit. -/
theorem equatorial (debug : Bool) (r φ : ℝ) (hr : 0 < r) (t : ℕ) :
    (Place.sat ⟨0, 0, r, φ⟩).position debug t = .ok ((r - 9) * cos ((meanMotion r - 7.292115922e-5) * (t / 10 ^ 9) + φ),
      (r - 9) * sin ((meanMotion r - 7.292115922e-5) * (t / 10 ^ 9) + φ), 0) := by
  obtain ⟨q, h1, h2⟩ := C46_rotated debug ⟨0, 0, r, φ⟩ hr ((t : ℝ) / 10 ^ 9)
  rw [C45_position debug _ hr] at h1
  simp only [Outcome.ok.injEq] at h1
  subst h1
  rw [Place.position, h2]
  congr 1
  rw [show (meanMotion r - 7.292115922e-5) * ((t : ℝ) / 10 ^ 9) + φ = (meanMotion r * (t / 10 ^ 9) + φ) + -(7.292115922e-5 * (t / 10 ^ 9)) by ring]
  generalize meanMotion r * (t / 10 ^ 9) + φ = A
  generalize -(7.292115922e-5 * ((t : ℝ) / 10 ^ 9)) = B
  rw [cos_add A B, sin_add A B]
  simp only [circlePoint, rotZ, rotX, smul, cos_zero, sin_zero, Prod.mk.injEq]
  refine ⟨?_, ?_, ?_⟩
  · field_simp; ring
  · field_simp; ring
  · ring

theorem equatorial_nearer {ρ R θ θ' : ℝ} (hρ : 0 < ρ) (hR : 0 < R) (h : cos θ' < cos θ) :
    distance (ρ * cos θ, ρ * sin θ, 0) (R, 0, 0) < distance (ρ * cos θ', ρ * sin θ', 0) (R, 0, 0) := by
  unfold distance length sub
  apply Real.sqrt_lt_sqrt (by positivity)
  have h1 := sin_sq_add_cos_sq θ
  have h2 := sin_sq_add_cos_sq θ'
  have h3 : 0 < ρ * R * (cos θ - cos θ') := by have : 0 < cos θ - cos θ' := by linarith
                                               positivity
  have e1 : ∀ ψ : ℝ, (R - ρ * cos ψ) ^ 2 + (0 - ρ * sin ψ) ^ 2 + (0 - 0) ^ 2 = R ^ 2 + ρ ^ 2 * (sin ψ ^ 2 + cos ψ ^ 2) - 2 * (ρ * R * cos ψ) := by
    intro ψ; ring
  rw [e1, e1, h1, h2]
  linarith

open Tracker in
/-- Two satellites that follow each other over a station: after 1000 seconds without an update the second one is the nearest. -/
theorem C89_always_nearest_claim_false : ¬ C89_always_nearest_claim := by
  intro h
  obtain ⟨ν, hν⟩ : ∃ ν, ν = meanMotion 7000009 - 7.292115922e-5 := ⟨_, rfl⟩
  have n1 : 1e-3 ≤ meanMotion 7000009 := by apply Real.le_sqrt_of_sq_le; norm_num
  have n2 : meanMotion 7000009 ≤ 1.1e-3 := by rw [meanMotion, Real.sqrt_le_left (by norm_num)]; norm_num
  have v1 : 0.9 < ν * 1000 := by rw [hν]; norm_num at n1 ⊢; linarith
  have v2 : ν * 1000 < 1.1 := by rw [hν]; norm_num at n2 ⊢; linarith
  have hcos : cos (ν * 1000) < cos 0 := by
    apply Real.cos_lt_cos_of_nonneg_of_le_pi le_rfl _ (by linarith)
    have := Real.pi_gt_three
    linarith
  obtain ⟨orbit, ho⟩ : ∃ orbit : Nat → Elements, orbit = fun d => ⟨0, 0, 7000009, if d = 10 then 0 else -(ν * 1000)⟩ := ⟨_, rfl⟩
  obtain ⟨pos, hp⟩ : ∃ pos : Nat → Nat → ℝ × ℝ × ℝ, pos = fun (t d : Nat) => ((7000009 - 9) * cos (ν * (t / 10 ^ 9) + (if d = 10 then 0 else -(ν * 1000))),
      (7000009 - 9) * sin (ν * (t / 10 ^ 9) + (if d = 10 then 0 else -(ν * 1000))), 0) := ⟨_, rfl⟩
  have hpos : ∀ t d, (Place.sat (orbit d)).position false t = .ok (pos t d) := by
    intro t d
    rw [ho, hp, hν]
    exact equatorial false 7000009 _ (by norm_num) t
  have hrun : ∃ s, runFrom (step (periodicFire exampleAddr (fun t d => Constellation.sqDistance (pos t d) (6371000, 0, 0)) (fun _ => exampleConstellation) (10 ^ 12)))
      (periodicInit 0 (10 ^ 12) (10 ^ 12) ⟨0, 0, 0⟩) [.run] = some (.ok s) ∧ s.clock = 0 ∧ s.pending = [(10 ^ 12, .periodic)] ∧
      ∃ a, s.log = [(0, true, a)] := by
    cases hg : exampleConstellation.getClosest (fun d => Constellation.sqDistance (pos 0 d) (6371000, 0, 0)) with
    | none => exact absurd ((C05_closest exampleConstellation_built (pos 0) (6371000, 0, 0)).2.mp hg) (by simp [exampleSats])
    | some d =>
      refine ⟨⟨0, exampleAddr d, [(10 ^ 12, .periodic)], [(0, true, exampleAddr d)]⟩, ?_, rfl, rfl, _, rfl⟩
      simp [runFrom, step, periodicInit, insertEvent, periodicFire, updateOnce, hg]
  obtain ⟨s, hs, hclock, hpend, a, hlog⟩ := hrun
  have key := h (fun _ => exampleConstellation_built) false orbit (by intro d; rw [ho]; norm_num) pos hpos (6371000, 0, 0) (by norm_num) le_rfl _ s hs 0 a
    (by rw [hlog]; rfl)
  obtain ⟨d, hd, hr, hmin⟩ := key 0 ⟨by omega, by simp [hpend]⟩
  obtain ⟨d', hd', hr', hmin'⟩ := key (10 ^ 12) ⟨by omega, by simp [hpend]⟩
  simp only [exampleSats, List.map_cons, List.map_nil, List.mem_cons, List.not_mem_nil, or_false] at hd hd'
  have e1 : d = 10 := by
    rcases hd with rfl | rfl
    · rfl
    · have := hmin 10 (by simp [exampleSats])
      have hlt := equatorial_nearer (ρ := 7000009 - 9) (R := 6371000) (θ := 0) (θ' := -(ν * 1000)) (by norm_num) (by norm_num) (by rwa [cos_neg])
      rw [hp] at this
      norm_num at this hlt
      linarith
  have e2 : d' = 20 := by
    rcases hd' with rfl | rfl
    · have := hmin' 20 (by simp [exampleSats])
      have hlt := equatorial_nearer (ρ := 7000009 - 9) (R := 6371000) (θ := 0) (θ' := ν * 1000) (by norm_num) (by norm_num) hcos
      rw [hp] at this
      norm_num at this hlt
      linarith
    · rfl
  rw [hr, e1, e2] at hr'
  revert hr'
  decide

/-- A satellite 550 km above the ground is proper and slower than 11.6 km/s; with an update every second the tracked one is at most 23.2 km farther than another one. -/
example : (Place.sat ⟨0.9, 0.1, 6921009, 0.3⟩).Proper ∧ (Place.sat ⟨0.9, 0.1, 6921009, 0.3⟩).speed ≤ 11600 ∧
    2 * (11600 : ℝ) * (((10 ^ 9 : ℕ) : ℝ) / 10 ^ 9) ≤ 23200 :=
  ⟨by norm_num [Place.Proper], C89_speed_bound _ (by norm_num) (by norm_num), by norm_num⟩

/-- Positions always exist. -/
example (orbit : Nat → Elements) (hr : ∀ d, 9 ≤ (orbit d).radius) :
    ∃ pos : Nat → Nat → ℝ × ℝ × ℝ, ∀ t d, (Place.sat (orbit d)).position true t = .ok (pos t d) := by
  have : ∀ t d, ∃ p, (Place.sat (orbit d)).position true t = .ok p := by
    intro t d
    obtain ⟨p, -, h, -⟩ := C89_speed true (.sat (orbit d)) (hr d) t t
    exact ⟨p, h⟩
  choose pos hpos using this
  exact ⟨pos, hpos⟩

end Orbit
end Icarus
