import Verif.Props.Passes
import Verif.Props.Visibility
import Verif.Props.Observer

/-!
# Satellites the tracker takes for visible and the search for set

`getVisibleSats` decides by the elevation over the node which satellites are visible, and asks the search, which observes from the point of C57, when
they will set.  Near the end of a pass the two may disagree.
-/

set_option autoImplicit false

namespace Icarus
namespace Orbit

open Real

/-! ## The answer of the search for a satellite that has just set -/

section Search

variable {o : Elements} {ob : Observer} {target T now : ℝ} {rf : RootFinder}

/-- At `now` the satellite has been further than the distance for more than a second, after having been closer; one period from now, and two
seconds after that, it is closer again. -/
structure JustSet (o : Elements) (ob : Observer) (target T now : ℝ) : Prop where
  was : ∃ b, now - T / 2 ≤ b ∧ b < now - 1 ∧ gap o ob b < target
  left : target < gap o ob (now - 1)
  near : WithinReach o ob (gap o ob now)
  again : gap o ob (now + T) < target
  still : gap o ob (now + T + 2) < target

theorem period_pos (hr : 0 < o.radius) (hT : orbitalPeriod o = .ok T) : 0 < T := by
  rw [period_eq hr hT]
  have := meanMotion_pos hr
  positivity

/-- The mirror image of `C82_sets`: a satellite that is closer has risen less than half an orbit ago, and before it was further for half an orbit. -/
theorem rises (hr : 0 < o.radius) (hR : 0 < ob.radius) (ht : 0 ≤ target) (hw : WithinReach o ob target) (hT : orbitalPeriod o = .ok T)
    {w : ℝ} (hc : gap o ob w < target) :
    ∃ σ, w - T / 2 < σ ∧ σ < w ∧ gap o ob σ = target ∧ (∀ t, σ < t → t ≤ w → gap o ob t < target) ∧
      ∀ t, σ - T / 2 ≤ t → t < σ → target < gap o ob t := by
  have hT0 := period_pos hr hT
  have hfar : target < gap o ob (w - T / 2) := by
    by_contra hcon
    push Not at hcon
    have := C82_half hr hR ht hw hT hcon
    rw [sub_add_cancel] at this
    linarith
  have hcont : ContinuousOn (gap o ob) (Set.Icc (w - T / 2) w) := (continuous_gap o ob).continuousOn
  obtain ⟨σ, ⟨t1, t2⟩, hσ⟩ := intermediate_value_Icc' (by linarith : w - T / 2 ≤ w) hcont ⟨hc.le, hfar.le⟩
  have t1' : w - T / 2 < σ := lt_of_le_of_ne t1 (fun h => by rw [h, hσ] at hfar; exact lt_irrefl _ hfar)
  have t2' : σ < w := lt_of_le_of_ne t2 (fun h => by rw [← h, hσ] at hc; exact lt_irrefl _ hc)
  refine ⟨σ, t1', t2', hσ, ?_, ?_⟩
  · intro t h1 h2
    rcases h2.eq_or_lt with rfl | h2
    · exact hc
    · exact C82_no_gap hr hR ht hw hT hσ.le hc.le h1 h2 (by linarith)
  · intro t h1 h2
    by_contra hcon
    push Not at hcon
    rcases h1.eq_or_lt with rfl | h1
    · have := C82_half hr hR ht hw hT hcon
      rw [sub_add_cancel, hσ] at this
      exact lt_irrefl _ this
    · -- between `t` and a moment shortly after `σ` it would be closer, also at `σ`
      obtain ⟨u, hu1, hu2⟩ : ∃ u, σ < u ∧ u ≤ min w (t + T / 2) := ⟨min w (t + T / 2), lt_min t2' (by linarith), le_refl _⟩
      have hu3 := le_trans hu2 (min_le_left _ _)
      have hu4 := le_trans hu2 (min_le_right _ _)
      have hcu : gap o ob u ≤ target := by
        rcases hu3.eq_or_lt with rfl | h3
        · exact hc.le
        · exact (C82_no_gap hr hR ht hw hT hσ.le hc.le hu1 h3 (by linarith)).le
      have := C82_no_gap hr hR ht hw hT hcon hcu h2 hu1 (by linarith)
      linarith

/-- From a second ago until it rises again, more than half an orbit from now, such a satellite is further away. -/
theorem JustSet.away (hr : 0 < o.radius) (hR : 0 < ob.radius) (ht : 0 ≤ target) (hw : WithinReach o ob target) (hT : orbitalPeriod o = .ok T)
    (hT6 : 6 ≤ T) (h : JustSet o ob target T now) :
    ∃ σ, now + T / 2 + 2 < σ ∧ σ < now + T ∧ gap o ob σ = target ∧ (∀ t, now - 1 ≤ t → t < σ → target < gap o ob t) ∧
      ∀ t, σ < t → t ≤ now + T + 2 → gap o ob t < target := by
  have hT0 := period_pos hr hT
  have hn := meanMotion_pos hr
  have hhalf : π / meanMotion o.radius = T / 2 := by rw [period_eq hr hT]; ring
  obtain ⟨b, b1, b2, b3⟩ := h.was
  obtain ⟨τ, t1, t2, hτ, hbefore, hafter⟩ := C82_sets hr hR ht hw hT b3
  have hτ1 : τ ≤ now - 1 := by
    by_contra hcon
    push Not at hcon
    have := hbefore (now - 1) b2.le hcon
    linarith [h.left]
  obtain ⟨σ, s1, s2, hσ, hcloser, hfurther⟩ := rises hr hR ht hw hT h.still
  have hτ2 : τ < now - 1 := lt_of_le_of_ne hτ1 (fun he => by have := h.left; rw [← he, hτ] at this; exact lt_irrefl _ this)
  -- the cosine exceeds the drift from `τ` until now
  have hpos : ∀ t, τ ≤ t → t ≤ now → 0 < overhead o ob t - drift o := by
    have p1 : 0 < level o ob target := level_pos hr hR hw
    have p2 : 0 < level o ob (gap o ob now) := level_pos hr hR h.near
    have q1 := (gap_le_iff hr hR ht τ).mp hτ.le
    have q2 := (gap_le_iff hr hR (gap_nonneg o ob now) now).mp (le_refl _)
    intro t h1 h2
    rcases h1.eq_or_lt with rfl | h1
    · linarith
    rcases h2.eq_or_lt with rfl | h2
    · linarith
    have hc : 0 < min (level o ob target) (level o ob (gap o ob now)) := lt_min p1 p2
    refine lt_trans hc (no_dip hn (fun t => (overhead_deriv o ob t).sub_const (drift o)) (speed_deriv o ob) (acceleration_le o hr ob) hc
      (le_trans (min_le_left _ _) q1) (le_trans (min_le_right _ _) q2) h1 h2 ?_)
    have : now - τ ≤ π / meanMotion o.radius := by rw [hhalf]; linarith
    rwa [le_div_iff₀ hn, mul_comm] at this
  have hall : ∀ t, now - 1 ≤ t → t < σ → target < gap o ob t := by
    intro t h1 h2
    rcases le_or_gt t (τ + T / 2) with h3 | h3
    · exact hafter t (by linarith) h3
    rcases le_or_gt t (now + T / 2) with h4 | h4
    · have h5 := hpos (t - T / 2) (by linarith) (by linarith)
      have h6 := half_after hn (fun t => (overhead_deriv o ob t).sub_const (drift o)) (speed_deriv o ob) (acceleration_le o hr ob) (t - T / 2)
      rw [hhalf, sub_add_cancel] at h6
      by_contra hcon
      push Not at hcon
      have h7 := (gap_le_iff hr hR ht t).mp hcon
      have h8 := level_pos hr hR hw
      linarith
    · by_cases h5 : σ - T / 2 ≤ t
      · exact hfurther t h5 h2
      · push Not at h5
        exfalso
        have : σ < now + T + 2 := s2
        -- `σ - T / 2 ≤ now + T / 2` because the satellite is closer at `now + T`
        have h6 : σ < now + T := by
          by_contra hcon
          push Not at hcon
          have h7 : now + T < σ := lt_of_le_of_ne hcon (fun he => by have := h.again; rw [he, hσ] at this; exact lt_irrefl _ this)
          have := hfurther (now + T) (by linarith) h7
          linarith [h.again]
        linarith
  have h6 : σ < now + T := by
    by_contra hcon
    push Not at hcon
    have h7 : now + T < σ := lt_of_le_of_ne hcon (fun he => by have := h.again; rw [he, hσ] at this; exact lt_irrefl _ this)
    have := hall (now + T) (by linarith) h7
    linarith [h.again]
  exact ⟨σ, by linarith, h6, hσ, hall, hcloser⟩

/-- Whatever the root finder does: an answer for a satellite that has just set is more than half an orbit (and a second) in the future. -/
theorem C104_skips {debug : Bool} (hrf : Stays rf) (hr : 0 < o.radius) (hR : 0 < ob.radius) (ht : 0 ≤ target) (hw : WithinReach o ob target)
    (hT : orbitalPeriod o = .ok T) (hT6 : 6 ≤ T) (h : JustSet o ob target T now) {q : ℝ} (hq : findNextCross debug rf o ob target now = .ok (some q)) :
    now + T / 2 + 1 < q := by
  obtain ⟨T', res, hT', h1, h2, -⟩ := C51_accepted (debug := debug) hrf hr (ob := ob) ht now
  rw [hT] at hT'
  simp only [Outcome.ok.injEq] at hT'
  subst hT'
  rw [hq] at h1
  simp only [Outcome.ok.injEq] at h1
  subst h1
  obtain ⟨q1, q2, hacc⟩ := h2 q rfl
  obtain ⟨σ, s1, -, -, hall, -⟩ := h.away hr hR ht hw hT hT6
  by_contra hcon
  push Not at hcon
  rcases hacc with ha | ha
  · have := hall (q - 1) (by linarith) (by linarith)
    linarith
  · have := hall (q + 1) (by linarith) (by linarith)
    linarith

/-- With Brent's method, if it converges, there is an answer. -/
theorem C104_answers {debug : Bool} (hb : IsBrent o ob target rf) (hr : 0 < o.radius) (hR : 0 < ob.radius) (ht : 0 ≤ target)
    (hw : WithinReach o ob target) (hT : orbitalPeriod o = .ok T) (hT6 : 6 ≤ T) (h0 : 0 ≤ now) (hlong : now + T ≤ 1000000)
    (h : JustSet o ob target T now) (hc : Converges rf now (now + T)) :
    ∃ q, findNextCross debug rf o ob target now = .ok (some q) ∧ now + T / 2 + 1 < q := by
  have hT0 := period_pos hr hT
  obtain ⟨σ, s1, s2, hσ, hall, hcloser⟩ := h.away hr hR ht hw hT hT6
  have hnow := hall now (by linarith) (by linarith)
  have e1 : 0 < excess o ob target now := (excess_pos ht).mpr hnow
  have e2 : excess o ob target (now + T) < 0 := (excess_neg ht).mpr h.again
  obtain ⟨r, τ, r1, r2, t1, t2, hτ, hrτ, hans⟩ := solver_root (debug := debug) hb hr ht h0 (by linarith : now ≤ now + T) hc
    (.inl (by rintro (⟨a, -⟩ | ⟨-, a⟩) <;> linarith))
  have hτσ : τ = σ := by
    rcases lt_trichotomy τ σ with hlt | heq | hgt
    · have := hall τ (by linarith) hlt; linarith
    · exact heq
    · have := hcloser τ hgt (by linarith); linarith
  subst hτσ
  obtain ⟨a1, a2⟩ := abs_lt.mp hrτ
  have hsol := hans (.inr (hcloser (r + 1) (by linarith) (by linarith)))
  obtain ⟨T', res, hT', k1, -, -, k2⟩ := C51_accepted (debug := debug) (C81_stays hb) hr (ob := ob) ht now
  rw [hT] at hT'
  simp only [Outcome.ok.injEq] at hT'
  subst hT'
  obtain ⟨q, rfl, -⟩ := k2 r hsol
  exact ⟨q, k1, C104_skips (C81_stays hb) hr hR ht hw hT hT6 h k1⟩

end Search

/-! ## What the elevation tracker makes of it -/

open Tracker

/-- What the code tells an elevation tracker at `g` about the satellites: the elevations of the reported positions, the periods to the nanosecond,
and the answers of `tryGetNextTimeAtElevation`, made whole nanoseconds.  `rf d`: the root finder when it works for satellite `d`. -/
structure Told {D : Type} (debug : Bool) (fuel : Nat) (rf : D → RootFinder) (orb : D → Elements) (g : Vec) (minE : ℝ) (v : Nat → View D ℝ) :
    Prop where
  elevation : ∀ (t : Nat) d, Sees debug (orb d) g (t / 10 ^ 9) ((v t).elevation d)
  period : ∀ (t : Nat) d, ∃ T, orbitalPeriod (orb d) = .ok T ∧ |((v t).period d : ℝ) - T * 10 ^ 9| ≤ 1
  setting : ∀ (t : Nat) d, ∃ res, tryGetNextTimeAtElevation debug fuel (rf d) (some (orb d)) minE (some g) (t / 10 ^ 9) = .ok res ∧
    match res with
    | none => (v t).setting d = none
    | some q => ∃ b, (v t).setting d = some b ∧ ⌊q * 10 ^ 9⌋₊ ≤ b ∧ b ≤ ⌈q * 10 ^ 9⌉₊

/-- At `now` satellite `o` is above the minimum elevation, but for the search (which works) it has just set. -/
structure Missed (debug : Bool) (fuel : Nat) (rf : RootFinder) (o : Elements) (g : Vec) (minE now T : ℝ) : Prop where
  period : orbitalPeriod o = .ok T
  long : 6 ≤ T
  visible : ∃ x, minE < x ∧ Sees debug o g now x
  search : ∃ ob D, observerOf debug fuel g = .ok ob ∧ groundDistanceAtElevation o minE (length g) = .ok D ∧ 0 < ob.radius ∧ 0 ≤ D ∧
    WithinReach o ob D ∧ JustSet o ob D T now ∧ Stays rf ∧ ∃ q, findNextCross debug rf o ob D now = .ok (some q)

section Tracking

variable {D : Type} {fuel : Nat} {rf : D → RootFinder} {orb : D → Elements} {g : Vec} {minE : ℝ} {v : Nat → View D ℝ} {t : Nat} {d : D} {T : ℝ}

/-- The tracker takes a missed satellite for one that is visible for more than another half orbit. -/
theorem Missed.candidate {debug : Bool} (hr : 0 < (orb d).radius) (hv : Told debug fuel rf orb g minE v)
    (h : Missed debug fuel (rf d) (orb d) g minE (t / 10 ^ 9) T) :
    ∃ b, Candidate (v t) minE d b ∧ (t : ℝ) + (T / 2 + 1) * 10 ^ 9 - 1 < b := by
  obtain ⟨x, hx, hsee⟩ := h.visible
  obtain ⟨ob, E, h1, h2, h3, h4, h5, h6, h7, q, h8⟩ := h.search
  obtain ⟨res, hres, hm⟩ := hv.setting t d
  have hq : tryGetNextTimeAtElevation debug fuel (rf d) (some (orb d)) minE (some g) (t / 10 ^ 9) = .ok (some q) := by
    simp [tryGetNextTimeAtElevation, h2, h1, h8]
  rw [hq] at hres
  simp only [Outcome.ok.injEq] at hres
  subst hres
  obtain ⟨b, hb, hb1, -⟩ := hm
  have hlate := C104_skips h7 hr h3 h4 h5 h.period h.long h6 h8
  refine ⟨b, ⟨?_, hb⟩, ?_⟩
  · rw [(hv.elevation t d).unique hsee]; exact hx
  · have e1 : (t : ℝ) / 10 ^ 9 * 10 ^ 9 = t := by field_simp
    have e2 := Nat.sub_one_lt_floor (q * 10 ^ 9)
    have e3 : ((⌊q * 10 ^ 9⌋₊ : ℕ) : ℝ) ≤ b := by exact_mod_cast hb1
    nlinarith

/-- So the search does not meet the assumption of C71, however late it may be there. -/
theorem C104_unfaithful {debug : Bool} {δ : Nat} (hlow : Low orb g minE δ) (h0 : 0 ≤ minE) (h1 : minE ≤ π / 2) (hv : Told debug fuel rf orb g minE v)
    (h : Missed debug fuel (rf d) (orb d) g minE (t / 10 ^ 9) T) : ¬ Faithful debug orb g minE δ v := by
  intro hf
  have hr : 0 < (orb d).radius := by have := hlow.above d; have := hlow.ground; linarith
  obtain ⟨b, hcand, hb⟩ := h.candidate hr hv
  have hs := C71_soon debug orb g minE h0 h1 δ hlow v hf t [(0, 0, d)] (0, 0, d) (by simp) b hcand
  obtain ⟨T', hT', hp⟩ := hv.period t d
  rw [h.period] at hT'
  simp only [Outcome.ok.injEq] at hT'
  subst hT'
  have h2 := (abs_le.mp hp).2
  have h3 : (((v t).period d : ℕ) : ℝ) + 2 * t < 2 * b := by linarith
  have h4 : (v t).period d + 2 * t < 2 * b := by exact_mod_cast h3
  dsimp only at hs
  omega

theorem loop_assert {α β : Type} {f : β → α → Outcome β} {cs : List α} (hf : ∀ x ∈ cs, ∀ b, (∃ b', f b x = .ok b') ∨ f b x = .assertFail)
    (hx : ∃ x ∈ cs, ∀ b, f b x = .assertFail) (b : β) : loop f b cs = .assertFail := by
  induction cs generalizing b with
  | nil => simp at hx
  | cons y ys ih =>
    obtain ⟨x, hx, hbad⟩ := hx
    unfold loop
    rcases hf y (by simp) b with ⟨b', h1⟩ | h1
    · rw [h1, Outcome.bind_ok]
      rcases List.mem_cons.mp hx with rfl | hx
      · rw [hbad] at h1; simp at h1
      · exact ih (fun z hz => hf z (by simp [hz])) ⟨x, hx, hbad⟩ b'
    · rw [h1]; rfl

/-- Debug builds: an update in such a moment ends the program by a failed assertion, whatever the other satellites do. -/
theorem C104_debug {e : Endian} {hasOrbit : D → Bool} {cid n sz p i : Nat} {hist : List (Nat × Nat × D)} {as : List SatAddress}
    {c : Nat → Constellation D} (hc : Built e hasOrbit cid n sz hist as (c t)) (hfull : Full n sz hist) (addr : D → SatAddress)
    (hr : 0 < (orb d).radius) (hv : Told true fuel rf orb g minE v) (hd : (p, i, d) ∈ hist)
    (h : Missed true fuel (rf d) (orb d) g minE (t / 10 ^ 9) T) :
    elevationFire true addr true v minE c t () = .assertFail := by
  obtain ⟨b, hcand, hb⟩ := h.candidate hr hv
  obtain ⟨inv, -⟩ := hc.inv
  have hper : (v t).period d / 2 ≤ b - t := by
    obtain ⟨T', hT', hp⟩ := hv.period t d
    rw [h.period] at hT'
    simp only [Outcome.ok.injEq] at hT'
    subst hT'
    have h1 := (abs_le.mp hp).2
    have h2 : (((v t).period d : ℕ) : ℝ) + 2 * t < 2 * b := by linarith
    have h3 : (v t).period d + 2 * t < 2 * b := by exact_mod_cast h2
    omega
  have htb : t ≤ b := by
    have hT := h.long
    have : (t : ℝ) < b := by nlinarith
    exact_mod_cast this.le
  have hloop : getVisibleSats true true (v t) minE t (c t) = .assertFail := by
    unfold getVisibleSats
    simp only [Outcome.abortUnless_true, Outcome.bind_ok]
    rw [inv.nPlanes_eq, inv.planeSize_eq]
    refine loop_assert ?_ ⟨(p, i), mem_cells.mpr (inv.bounds _ hd), ?_⟩ []
    · rintro ⟨p', i'⟩ hm acc
      obtain ⟨d', hd'⟩ := hfull p' i' (mem_cells.mp hm).1 (mem_cells.mp hm).2
      unfold visibleStep
      simp only [(getSatellite_mem hc true p' i' d').mpr hd', Outcome.bind_ok, Outcome.deref_some]
      by_cases he : minE < (v t).elevation d'
      · rw [if_pos he]
        cases (v t).setting d' with
        | none => exact .inl ⟨_, rfl⟩
        | some b' =>
          by_cases hs : (b' : Int) - t < (((v t).period d' / 2 : Nat) : Int)
          · left
            simp only [decide_eq_true hs]
            exact ⟨acc ++ [((b' : Int) - t, p', i')], by simp⟩
          · right
            simp only [decide_eq_false hs]
            simp [Outcome.nsAssert]
      · rw [if_neg he]; exact .inl ⟨_, rfl⟩
    · intro acc
      unfold visibleStep
      simp only [(getSatellite_mem hc true p i d).mpr hd, Outcome.bind_ok, Outcome.deref_some]
      rw [if_pos hcand.1, hcand.2]
      have hs : ¬ (b : Int) - t < (((v t).period d / 2 : Nat) : Int) := by omega
      simp only [decide_eq_false hs]
      simp [Outcome.nsAssert]
  simp [elevationFire, update, hloop]

/-- Other builds, all satellites at the same altitude: the satellite that gets tracked is kept for more than half an orbit, though (like every
satellite) it sinks below the minimum elevation much earlier and is still below it half an orbit later. -/
theorem C104_release {e : Endian} {hasOrbit : D → Bool} {cid n sz p i : Nat} {hist : List (Nat × Nat × D)} {as : List SatAddress}
    {c : Nat → Constellation D} (hc : Built e hasOrbit cid n sz hist as (c t)) (hfull : Full n sz hist) (addr : D → SatAddress)
    (hlow : Low orb g minE 0) (h0 : 0 ≤ minE) (h1 : minE ≤ π / 2) (hsame : ∀ d', (orb d').radius = (orb d).radius)
    (hv : Told false fuel rf orb g minE v) (hstay : ∀ d', Stays (rf d')) (hd : (p, i, d) ∈ hist)
    (h : Missed false fuel (rf d) (orb d) g minE (t / 10 ^ 9) T) :
    ∃ a delay, elevationFire false addr true v minE c t () = .ok (a, some (delay, ())) ∧ (T / 2 + 1) * 10 ^ 9 - 1 < (delay : ℝ) ∧
      ∃ p' i' d', (p', i', d') ∈ hist ∧ a = addr d' ∧
        ∀ u : ℝ, t / 10 ^ 9 + 2 * reach (length g) ((orb d).radius - 9) minE / (meanMotion (orb d).radius - 7.292115922e-5) < u →
          u ≤ t / 10 ^ 9 + T / 2 → ∃ y, y < minE ∧ Sees false (orb d') g u y := by
  have hr : 0 < (orb d).radius := by have := hlow.above d; have := hlow.ground; linarith
  obtain ⟨b, hcand, hb⟩ := h.candidate hr hv
  have hlater : ∀ x ∈ hist, ∀ b, (v t).setting x.2.2 = some b → t ≤ b := by
    rintro ⟨p', i', d'⟩ - b' hb'
    obtain ⟨res, hres, hm⟩ := hv.setting t d'
    cases res with
    | none => rw [hm] at hb'; simp at hb'
    | some q =>
      obtain ⟨b'', k1, k2, -⟩ := hm
      rw [hb'] at k1
      simp only [Option.some.injEq] at k1
      subst k1
      have hr' : 0 < (orb d').radius := by rw [hsame d']; exact hr
      have hq : (t : ℝ) / 10 ^ 9 ≤ q := by
        obtain ⟨ob, E, g1, g2, -⟩ := h.search
        obtain ⟨E', g3⟩ : ∃ E', groundDistanceAtElevation (orb d') minE (length g) = .ok E' := by
          refine ⟨E, ?_⟩
          unfold groundDistanceAtElevation satAltitude at g2 ⊢
          rw [hsame d']
          exact g2
        have hE : 0 ≤ E' := by
          unfold groundDistanceAtElevation at g3
          simp only [Outcome.bind_eq_ok] at g3
          obtain ⟨z, -, g3⟩ := g3
          unfold csqrt at g3
          split at g3
          · simp at g3
          · simp only [Outcome.ok.injEq] at g3
            rw [← g3]
            exact sqrt_nonneg _
        have g4 : tryGetNextTimeAtElevation false fuel (rf d') (some (orb d')) minE (some g) (t / 10 ^ 9) =
            findNextCross false (rf d') (orb d') ob E' (t / 10 ^ 9) := by
          simp [tryGetNextTimeAtElevation, g1, g3]
        rw [g4] at hres
        obtain ⟨T', res, -, k3, k4, -⟩ := C51_accepted (debug := false) (hstay d') hr' (ob := ob) hE (t / 10 ^ 9)
        rw [hres] at k3
        simp only [Outcome.ok.injEq] at k3
        exact (k4 q k3.symm).1
      rw [div_le_iff₀ (by positivity)] at hq
      exact le_trans (Nat.le_floor hq) k2
  obtain ⟨u1, -⟩ := C43_update hc hfull false addr (v t) minE t (by simp) hlater
  obtain ⟨vis, a, delay, hu, ⟨p', i', d', hd', ha, hc'⟩, hmax⟩ := u1 ⟨_, hd, b, hcand⟩
  refine ⟨a, delay, by simp [elevationFire, hu], ?_, p', i', d', hd', ha, ?_⟩
  · have := hmax p i d b hd hcand
    have : (b : ℝ) ≤ t + delay := by exact_mod_cast this
    linarith
  · intro u hu1 hu2
    have hn := meanMotion_pos hr
    have hrel : 0 < meanMotion (orb d).radius - 7.292115922e-5 := by linarith [hlow.faster d]
    refine ⟨elevationAt (orb d') g u, ?_, sees_elevationAt false (orb d') g hlow.ground (hlow.above d') u⟩
    by_contra hcon
    push Not at hcon
    have hh : (0 : ℝ) ≤ u - t / 10 ^ 9 := by
      have := reach_nonneg hlow.ground (hlow.above d) h0 h1
      have := div_nonneg (mul_nonneg (by norm_num : (0 : ℝ) ≤ 2) this) hrel.le
      linarith
    have hpass := C71_pass false (orb d') g hlow.ground (hlow.above d') (hlow.faster d').le minE h0 h1 (t / 10 ^ 9) (u - t / 10 ^ 9) _ _ hh
      (by
        rw [hsame d']
        have e1 : u - t / 10 ^ 9 ≤ π / meanMotion (orb d).radius := by
          have := period_eq hr h.period
          have : T / 2 = π / meanMotion (orb d).radius := by rw [this]; ring
          linarith
        rwa [le_div_iff₀ hn, mul_comm] at e1)
      (hv.elevation t d') (by rw [add_sub_cancel]; exact sees_elevationAt false (orb d') g hlow.ground (hlow.above d') u) hc'.1.le hcon
    rw [hsame d'] at hpass
    have : u - t / 10 ^ 9 ≤ 2 * reach (length g) ((orb d).radius - 9) minE / (meanMotion (orb d).radius - 7.292115922e-5) := by
      rw [le_div_iff₀ hrel]; linarith
    linarith

end Tracking

/-! ## A concrete case: a polar orbit 2000 km high, seen from 36.9 degrees south -/

section Example

/-- Sine and cosine of the angle below the equator at which the satellite is at time 0. -/
noncomputable def lowSin : ℝ := 14660000 / 100537289
noncomputable def lowCos : ℝ := 99462711 / 100537289

noncomputable def polar : Elements := ⟨π / 2, 0, 8371009, -arcsin lowSin⟩

noncomputable def stationN : ℝ := 6378137 / √(1 - e2 * (3 / 5) ^ 2)

/-- On the WGS84 ellipsoid at geodetic latitude -arcsin (3/5), longitude -arccos 0.85. -/
noncomputable def station : Vec :=
  (stationN * cos (-arcsin (3 / 5)) * cos (-arccos 0.85), stationN * cos (-arcsin (3 / 5)) * sin (-arccos 0.85),
    stationN * (1 - e2) * sin (-arcsin (3 / 5)))

noncomputable def watcher : Observer := ⟨-arcsin (3 / 5), -arccos 0.85, length station⟩

theorem sin_lat : sin (-arcsin (3 / 5 : ℝ)) = -(3 / 5) := by
  rw [sin_neg, sin_arcsin (by norm_num) (by norm_num)]

theorem cos_lat : cos (-arcsin (3 / 5 : ℝ)) = 4 / 5 := by
  rw [cos_neg, cos_arcsin, show (1 : ℝ) - (3 / 5) ^ 2 = (4 / 5) ^ 2 by norm_num, sqrt_sq (by norm_num)]

theorem sin_phase : sin (-arcsin lowSin) = -lowSin := by
  rw [sin_neg, sin_arcsin (by unfold lowSin; norm_num) (by unfold lowSin; norm_num)]

theorem cos_phase : cos (-arcsin lowSin) = lowCos := by
  rw [cos_neg, cos_arcsin, show (1 : ℝ) - lowSin ^ 2 = lowCos ^ 2 by unfold lowSin lowCos; norm_num, sqrt_sq (by unfold lowCos; norm_num)]

theorem cos_lon : cos (-arccos (0.85 : ℝ)) = 0.85 := by
  rw [cos_neg, cos_arccos (by norm_num) (by norm_num)]

theorem sin_lon : -0.53 ≤ sin (-arccos (0.85 : ℝ)) ∧ sin (-arccos (0.85 : ℝ)) ≤ 0 := by
  rw [sin_neg, sin_arccos]
  refine ⟨?_, by linarith [sqrt_nonneg (1 - (0.85 : ℝ) ^ 2)]⟩
  rw [neg_le_neg_iff]
  exact sqrt_le_iff.mpr ⟨by norm_num, by norm_num⟩

theorem stationN_bounds : 6385836 < stationN ∧ stationN < 6385837 := by
  have h0 : 0 < 1 - e2 * (3 / 5 : ℝ) ^ 2 := by unfold e2 wgs84Eccentricity; norm_num
  unfold stationN
  constructor
  · rw [lt_div_iff₀ (sqrt_pos.mpr h0)]
    have : √(1 - e2 * (3 / 5 : ℝ) ^ 2) < 6378137 / 6385836 := by
      rw [sqrt_lt' (by norm_num)]
      unfold e2 wgs84Eccentricity
      norm_num
    linarith
  · rw [div_lt_iff₀ (sqrt_pos.mpr h0)]
    have : 6378137 / 6385837 < √(1 - e2 * (3 / 5 : ℝ) ^ 2) := by
      rw [lt_sqrt (by norm_num)]
      unfold e2 wgs84Eccentricity
      norm_num
    linarith

theorem station_sq : length station ^ 2 = stationN ^ 2 * (16 / 25 + 9 / 25 * (1 - e2) ^ 2) := by
  rw [length_sq]
  unfold station
  simp only [cos_lat, sin_lat]
  linear_combination (stationN ^ 2 * (16 / 25)) * sin_sq_add_cos_sq (-arccos (0.85 : ℝ))

theorem station_bounds : 6370479 < length station ∧ length station < 6370481 := by
  obtain ⟨n1, n2⟩ := stationN_bounds
  have hk : 0.995196179 < (16 / 25 + 9 / 25 * (1 - e2) ^ 2) ∧ (16 / 25 + 9 / 25 * (1 - e2) ^ 2) < 0.995196181 := by
    unfold e2 wgs84Eccentricity
    norm_num
  have hsq := station_sq
  have hN1 : (6385836 : ℝ) ^ 2 < stationN ^ 2 := pow_lt_pow_left₀ n1 (by norm_num) two_ne_zero
  have hN2 : stationN ^ 2 < 6385837 ^ 2 := pow_lt_pow_left₀ n2 (by linarith) two_ne_zero
  constructor
  · refine lt_of_pow_lt_pow_left₀ 2 (length_nonneg _) ?_
    rw [hsq]
    have := mul_lt_mul hN1 hk.1.le (by norm_num) (sq_nonneg _)
    linarith
  · refine lt_of_pow_lt_pow_left₀ 2 (by norm_num) ?_
    rw [hsq]
    have := mul_lt_mul hN2 hk.2.le (by linarith) (by norm_num)
    linarith

theorem polar_motion : 0.00082418 < meanMotion 8371009 ∧ meanMotion 8371009 < 0.00082419 := by
  have h := meanMotion_sq (r := 8371009) (by norm_num)
  have h0 := meanMotion_pos (r := 8371009) (by norm_num)
  constructor
  · refine lt_of_pow_lt_pow_left₀ 2 h0.le ?_
    rw [h]; norm_num
  · refine lt_of_pow_lt_pow_left₀ 2 (by norm_num) ?_
    rw [h]; norm_num

theorem polar_overhead (t : ℝ) : overhead polar watcher t = 4 / 5 * cos (meanMotion 8371009 * t + -arcsin lowSin) *
    cos (earthRotation * t + -arccos 0.85) - 3 / 5 * sin (meanMotion 8371009 * t + -arcsin lowSin) := by
  unfold overhead polar watcher
  simp only [cos_lat, sin_lat, cos_pi_div_two, sin_pi_div_two]
  rw [show (meanMotion 8371009 - earthRotation) * t + (-arcsin lowSin - -arccos 0.85 + 0) =
    (meanMotion 8371009 * t + -arcsin lowSin) - (earthRotation * t + -arccos 0.85) by ring,
    show (meanMotion 8371009 + earthRotation) * t + (-arcsin lowSin + -arccos 0.85 - 0) =
    (meanMotion 8371009 * t + -arcsin lowSin) + (earthRotation * t + -arccos 0.85) by ring]
  generalize meanMotion 8371009 * t + -arcsin lowSin = x
  generalize earthRotation * t + -arccos 0.85 = y
  rw [cos_sub, cos_add]
  ring

theorem polar_drift : drift polar < 0.19 := by
  obtain ⟨n1, n2⟩ := polar_motion
  have h1 : earthRotation / meanMotion 8371009 < 0.0886 := by
    rw [div_lt_iff₀ (by linarith), show earthRotation = 7.292115922e-5 from rfl]
    linarith
  have h0 : 0 ≤ earthRotation / meanMotion 8371009 :=
    div_nonneg (by rw [show earthRotation = 7.292115922e-5 from rfl]; norm_num) (by linarith)
  show 2 * (earthRotation / meanMotion 8371009) + (earthRotation / meanMotion 8371009) ^ 2 < 0.19
  nlinarith

/-- The distance that belongs to the horizon. -/
noncomputable def horizon : ℝ := √(4000000 * length station + 4000000000000)

theorem horizon_eq : groundDistanceAtElevation polar 0 (length station) = .ok horizon := by
  have hR := station_bounds.1
  have ha : satAltitude polar = 2000000 := by unfold satAltitude polar earthRadius; norm_num
  unfold groundDistanceAtElevation csqrt
  simp only [ha, sin_zero, mul_zero, zero_mul]
  rw [if_neg (by nlinarith)]
  simp only [Outcome.bind_ok]
  rw [if_neg (by nlinarith)]
  unfold horizon
  congr 2
  ring

theorem horizon_sq : horizon ^ 2 = 4000000 * length station + 4000000000000 := by
  have hR := station_bounds.1
  exact sq_sqrt (by linarith)

theorem polar_gap (t : ℝ) : gap polar watcher t ^ 2 = 8371009 ^ 2 + length station ^ 2 - 2 * 8371009 * length station * overhead polar watcher t :=
  gap_overhead polar watcher t

theorem polar_closer {t : ℝ} (h : 0.8 ≤ overhead polar watcher t) : gap polar watcher t < horizon := by
  obtain ⟨r1, r2⟩ := station_bounds
  refine (sq_lt_sq₀ (gap_nonneg _ _ _) (sqrt_nonneg _)).mp ?_
  rw [polar_gap]
  show _ < horizon ^ 2
  rw [horizon_sq]
  have := mul_le_mul_of_nonneg_left h (by linarith : 0 ≤ 2 * 8371009 * length station)
  nlinarith

theorem polar_further {t : ℝ} (h : overhead polar watcher t ≤ 0.76075) : horizon < gap polar watcher t := by
  obtain ⟨r1, r2⟩ := station_bounds
  refine (sq_lt_sq₀ (sqrt_nonneg _) (gap_nonneg _ _ _)).mp ?_
  rw [polar_gap]
  show horizon ^ 2 < _
  rw [horizon_sq]
  have := mul_le_mul_of_nonneg_left h (by linarith : 0 ≤ 2 * 8371009 * length station)
  nlinarith

theorem polar_reach {d : ℝ} (h : d ^ 2 ≤ 8371009 ^ 2 + length station ^ 2 - 2 * 8371009 * length station * 0.5) : WithinReach polar watcher d := by
  obtain ⟨r1, r2⟩ := station_bounds
  show d ^ 2 + 2 * 8371009 * length station * drift polar < 8371009 ^ 2 + length station ^ 2
  have := mul_lt_mul_of_pos_left polar_drift (by linarith : 0 < 2 * 8371009 * length station)
  nlinarith

theorem overhead_left : overhead polar watcher (0 - 1) ≤ 0.76075 := by
  obtain ⟨n1, n2⟩ := polar_motion
  rw [polar_overhead]
  generalize meanMotion 8371009 = n at *
  rw [show n * (0 - 1) + -arcsin lowSin = -arcsin lowSin - n by ring, show earthRotation * (0 - 1) + -arccos 0.85 = -arccos 0.85 - earthRotation by ring,
    cos_sub, sin_sub, cos_sub, sin_phase, cos_phase, cos_lon]
  obtain ⟨s1, s2⟩ := sin_lon
  generalize sin (-arccos (0.85 : ℝ)) = z at *
  have hw : 0 ≤ sin earthRotation := sin_nonneg_of_nonneg_of_le_pi (by unfold earthRotation; norm_num)
    (by unfold earthRotation; linarith [pi_gt_three])
  have hw' : cos earthRotation ≤ 1 := cos_le_one _
  have hn0 : 0 ≤ sin n := sin_nonneg_of_nonneg_of_le_pi (by linarith) (by linarith [pi_gt_three])
  have hn1 : sin n ≤ n := sin_le (by linarith)
  have hn2 : cos n ≤ 1 := cos_le_one _
  have hn3 : 0 ≤ cos n := cos_nonneg_of_mem_Icc ⟨by linarith [pi_gt_three], by linarith [pi_gt_three]⟩
  have hm : 0.85 * cos earthRotation + z * sin earthRotation ≤ 0.85 := by nlinarith
  have hx : lowCos * cos n + -lowSin * sin n ≤ lowCos := by unfold lowCos lowSin; nlinarith
  have hx0 : 0 ≤ lowCos * cos n + -lowSin * sin n := by
    have := cos_sq_add_sin_sq n
    have : 1 - n ^ 2 / 2 ≤ cos n := one_sub_sq_div_two_le_cos
    unfold lowCos lowSin
    nlinarith
  have hp : (lowCos * cos n + -lowSin * sin n) * (0.85 * cos earthRotation + z * sin earthRotation) ≤ lowCos * 0.85 :=
    le_trans (mul_le_mul_of_nonneg_left hm hx0) (mul_le_mul_of_nonneg_right hx (by norm_num))
  have hy : -(-lowSin * cos n - lowCos * sin n) ≤ lowSin + lowCos * 0.00082419 := by unfold lowCos lowSin; nlinarith
  have : lowCos * 0.85 * (4 / 5) + 3 / 5 * (lowSin + lowCos * 0.00082419) ≤ 0.76075 := by unfold lowCos lowSin; norm_num
  nlinarith

theorem overhead_now : 0.5 ≤ overhead polar watcher 0 := by
  rw [polar_overhead, mul_zero, mul_zero, zero_add, zero_add, sin_phase, cos_phase, cos_lon]
  unfold lowSin lowCos
  norm_num

theorem overhead_before : 0.8 ≤ overhead polar watcher (-500) := by
  obtain ⟨n1, n2⟩ := polar_motion
  rw [polar_overhead]
  generalize meanMotion 8371009 = n at *
  rw [show n * (-500) + -arcsin lowSin = -arcsin lowSin - 500 * n by ring,
    show earthRotation * (-500) + -arccos 0.85 = -arccos 0.85 - 500 * earthRotation by ring,
    cos_sub, sin_sub, cos_sub, sin_phase, cos_phase, cos_lon]
  obtain ⟨s1, s2⟩ := sin_lon
  generalize sin (-arccos (0.85 : ℝ)) = z at *
  have c1 : 1 - (500 * n) ^ 2 / 2 ≤ cos (500 * n) := one_sub_sq_div_two_le_cos
  have c2 : 0.91 ≤ cos (500 * n) := by nlinarith
  have d1 : sin (500 * n) ≤ 500 * n := sin_le (by linarith)
  have d2 : 500 * n - (500 * n) ^ 3 / 6 < sin (500 * n) := sin_gt_sub_cube (by linarith)
  have d3 : 0.39 ≤ sin (500 * n) := by
    have : (500 * n) ^ 3 ≤ 0.4121 ^ 3 := pow_le_pow_left₀ (by linarith) (by linarith) 3
    have e : (0.4121 : ℝ) ^ 3 ≤ 0.07 := by norm_num
    linarith
  have e1 : 1 - (500 * earthRotation) ^ 2 / 2 ≤ cos (500 * earthRotation) := one_sub_sq_div_two_le_cos
  have e2 : 0.99 ≤ cos (500 * earthRotation) := by
    refine le_trans ?_ e1
    unfold earthRotation; norm_num
  have f1 : sin (500 * earthRotation) ≤ 0.04 := le_trans (sin_le (by unfold earthRotation; norm_num)) (by unfold earthRotation; norm_num)
  have f2 : 0 ≤ sin (500 * earthRotation) := sin_nonneg_of_nonneg_of_le_pi (by unfold earthRotation; norm_num)
    (by unfold earthRotation; linarith [pi_gt_three])
  have hm : 0.82 ≤ 0.85 * cos (500 * earthRotation) + z * sin (500 * earthRotation) := by nlinarith
  have hx : 0.83 ≤ lowCos * cos (500 * n) + -lowSin * sin (500 * n) := by unfold lowCos lowSin; nlinarith
  have hy : 0.5 ≤ -(-lowSin * cos (500 * n) - lowCos * sin (500 * n)) := by unfold lowCos lowSin; nlinarith
  have := mul_le_mul hx hm (by norm_num) (by linarith)
  linarith

theorem arccos_bounds : 0.5 ≤ arccos (0.85 : ℝ) ∧ arccos (0.85 : ℝ) ≤ 0.62 := by
  constructor
  · rw [← arccos_cos (x := (0.5 : ℝ)) (by norm_num) (by linarith [pi_gt_three])]
    refine arccos_le_arccos ?_
    have : 1 - (0.5 : ℝ) ^ 2 / 2 ≤ cos 0.5 := one_sub_sq_div_two_le_cos
    linarith
  · rw [← arccos_cos (x := (0.62 : ℝ)) (by norm_num) (by linarith [pi_gt_three])]
    refine arccos_le_arccos ?_
    have := cos_bound (x := (0.62 : ℝ)) (by rw [abs_of_pos] <;> norm_num)
    have := (abs_le.mp this).2
    rw [abs_of_pos (by norm_num)] at this
    norm_num at this ⊢
    linarith

theorem overhead_again {δ : ℝ} (h0 : 0 ≤ δ) (h2 : δ ≤ 2) : 0.8 ≤ overhead polar watcher (2 * π / meanMotion 8371009 + δ) := by
  obtain ⟨n1, n2⟩ := polar_motion
  rw [polar_overhead]
  have hn : 0 < meanMotion 8371009 := by linarith
  generalize meanMotion 8371009 = n at *
  have hturn : n * (2 * π / n + δ) + -arcsin lowSin = (-arcsin lowSin + n * δ) + 2 * π := by field_simp; ring
  rw [hturn, cos_add_two_pi, sin_add_two_pi, cos_add, sin_add, sin_phase, cos_phase]
  have hy : |earthRotation * (2 * π / n + δ) + -arccos 0.85| ≤ 0.2 := by
    obtain ⟨a1, a2⟩ := arccos_bounds
    have p1 : 2 * π / n ≤ 7700 := by rw [div_le_iff₀ hn]; nlinarith [pi_lt_d4]
    have p2 : 7600 ≤ 2 * π / n := by rw [le_div_iff₀ hn]; nlinarith [pi_gt_d4]
    unfold earthRotation
    rw [abs_le]
    constructor <;> nlinarith
  generalize earthRotation * (2 * π / n + δ) + -arccos 0.85 = y at *
  have hc : 0.98 ≤ cos y := by
    have : 1 - y ^ 2 / 2 ≤ cos y := one_sub_sq_div_two_le_cos
    have : y ^ 2 ≤ 0.2 ^ 2 := sq_le_sq' (abs_le.mp hy).1 (abs_le.mp hy).2
    nlinarith
  have x0 : 0 ≤ n * δ := by positivity
  have x1 : n * δ ≤ 0.002 := by nlinarith
  have c1 : 0.99 ≤ cos (n * δ) := by
    have : 1 - (n * δ) ^ 2 / 2 ≤ cos (n * δ) := one_sub_sq_div_two_le_cos
    nlinarith
  have d1 : sin (n * δ) ≤ 0.002 := le_trans (sin_le x0) x1
  have d2 : 0 ≤ sin (n * δ) := sin_nonneg_of_nonneg_of_le_pi x0 (by linarith [pi_gt_three])
  have hx : 0.97 ≤ lowCos * cos (n * δ) - -lowSin * sin (n * δ) := by unfold lowCos lowSin; nlinarith
  have hz : 0.13 ≤ -(-lowSin * cos (n * δ) + lowCos * sin (n * δ)) := by unfold lowCos lowSin; nlinarith
  have := mul_le_mul hx hc (by norm_num) (by linarith)
  linarith

theorem polar_justSet : JustSet polar watcher horizon (2 * π / meanMotion 8371009) 0 where
  was := by
    obtain ⟨n1, n2⟩ := polar_motion
    have p2 : 7600 ≤ 2 * π / meanMotion 8371009 := by rw [le_div_iff₀ (by linarith)]; nlinarith [pi_gt_d4]
    exact ⟨-500, by linarith, by norm_num, polar_closer overhead_before⟩
  left := polar_further overhead_left
  near := polar_reach (by
    rw [polar_gap]
    have := station_bounds.1
    have := mul_le_mul_of_nonneg_left overhead_now (by linarith : 0 ≤ 2 * 8371009 * length station)
    linarith)
  again := by
    have := polar_closer (overhead_again (le_refl 0) (by norm_num))
    rwa [add_zero, ← zero_add (2 * π / meanMotion 8371009)] at this
  still := by
    have := polar_closer (overhead_again (δ := 2) (by norm_num) (le_refl _))
    rwa [← zero_add (2 * π / meanMotion 8371009)] at this

theorem polar_period : orbitalPeriod polar = .ok (2 * π / meanMotion 8371009) := by
  have hr : (0 : ℝ) < polar.radius := by unfold polar; norm_num
  obtain ⟨T, hT, -⟩ := C45_kepler polar hr
  rw [hT, period_eq hr hT]
  rfl

theorem polar_long : 7600 ≤ 2 * π / meanMotion 8371009 := by
  obtain ⟨n1, n2⟩ := polar_motion
  rw [le_div_iff₀ (by linarith)]
  nlinarith [pi_gt_d4]

theorem station_observer (debug : Bool) (fuel : Nat) : observerOf debug (fuel + 1) station = .ok watcher := by
  have hN := stationN_bounds.1
  obtain ⟨a1, a2⟩ := arccos_bounds
  refine C57_surface debug fuel (-arcsin (3 / 5)) (-arccos 0.85) stationN ?_ ?_ (by linarith [pi_gt_three]) (by linarith [pi_gt_three]) ?_ ?_
  · rw [neg_lt_neg_iff, ← arcsin_one]
    exact arcsin_lt_arcsin (by norm_num) (by norm_num) (le_refl _)
  · have : 0 ≤ arcsin (3 / 5 : ℝ) := arcsin_nonneg.mpr (by norm_num)
    linarith [pi_pos]
  · rw [sin_lat, neg_sq]; rfl
  · rw [cos_lat]; linarith

theorem polar_visible : 0 < elevationAt polar station 0 := by
  have hg : 0 < length station := by linarith [station_bounds.1]
  have hρ : length station < polar.radius - 9 := by
    show _ < (8371009 : ℝ) - 9
    linarith [station_bounds.2]
  obtain ⟨b1, b2⟩ := stationN_bounds
  unfold elevationAt
  rw [arcsin_pos]
  have hd : 0 < dot station (sub (smul ((polar.radius - 9) / polar.radius) (rotZ (-(7.292115922e-5 * 0)) (circlePoint polar (meanMotion polar.radius * 0 + polar.phase)))) station) := by
    simp only [mul_zero, neg_zero, zero_add]
    unfold dot sub smul circlePoint rotX rotZ polar station
    simp only [cos_zero, sin_zero, cos_pi_div_two, sin_pi_div_two, sin_phase, cos_phase, sin_lat, cos_lat, cos_lon]
    have hz : sin (-arccos (0.85 : ℝ)) ^ 2 = 1 - 0.85 ^ 2 := by rw [sin_sq, cos_lon]
    generalize sin (-arccos (0.85 : ℝ)) = z at *
    have key : stationN * (0.64 + 0.36 * (1 - e2) ^ 2) < 8371000 * (0.68 * lowCos + 0.6 * (1 - e2) * lowSin) := by
      refine lt_trans (mul_lt_mul_of_pos_right b2 (by positivity)) ?_
      unfold lowCos lowSin e2 wgs84Eccentricity
      norm_num
    have := mul_lt_mul_of_pos_left key (by linarith : 0 < stationN)
    have hz2 : stationN ^ 2 * z ^ 2 = stationN ^ 2 * (1 - 0.85 ^ 2) := by rw [hz]
    norm_num at this ⊢
    linarith
  refine div_pos hd (mul_pos hg ?_)
  refine lt_of_le_of_ne (length_nonneg _) fun h0 => ?_
  have := length_sq (sub (smul ((polar.radius - 9) / polar.radius) (rotZ (-(7.292115922e-5 * 0)) (circlePoint polar (meanMotion polar.radius * 0 + polar.phase)))) station)
  rw [← h0] at this
  generalize sub (smul ((polar.radius - 9) / polar.radius) (rotZ (-(7.292115922e-5 * 0)) (circlePoint polar (meanMotion polar.radius * 0 + polar.phase)))) station = w at *
  have w1 : w.1 = 0 := by nlinarith [sq_nonneg w.1, sq_nonneg w.2.1, sq_nonneg w.2.2]
  have w2 : w.2.1 = 0 := by nlinarith [sq_nonneg w.1, sq_nonneg w.2.1, sq_nonneg w.2.2]
  have w3 : w.2.2 = 0 := by nlinarith [sq_nonneg w.1, sq_nonneg w.2.1, sq_nonneg w.2.2]
  unfold dot at hd
  rw [w1, w2, w3] at hd
  linarith

theorem polar_within : WithinReach polar watcher horizon := polar_reach (by
  rw [horizon_sq]
  obtain ⟨r1, r2⟩ := station_bounds
  nlinarith)

/-- A root finder that finds the rising of `polar` whenever it is in the interval. -/
theorem polar_search : ∃ rf, Stays rf ∧ ∀ debug, ∃ q, findNextCross debug rf polar watcher horizon 0 = .ok (some q) := by
  have hr : (0 : ℝ) < polar.radius := by unfold polar; norm_num
  have hR : 0 < watcher.radius := by show 0 < length station; linarith [station_bounds.1]
  have hlong := polar_long
  obtain ⟨σ, s1, s2, -, -, hcloser⟩ := polar_justSet.away hr hR (sqrt_nonneg _) polar_within polar_period (by linarith)
  classical
  have hstay : Stays (fun lo hi _ => if lo ≤ σ ∧ σ ≤ hi then (⟨σ, σ, σ⟩ : Bracket) else ⟨lo, lo, lo⟩) := by
    intro lo hi k hle
    dsimp only
    split
    · next h => exact h
    · exact ⟨le_refl _, hle⟩
  refine ⟨_, hstay, fun debug => ?_⟩
  obtain ⟨T, res, hT, h1, -, -, h2⟩ := C51_accepted (debug := debug) hstay hr (ob := watcher) (target := horizon) (sqrt_nonneg _) 0
  rw [polar_period] at hT
  simp only [Outcome.ok.injEq] at hT
  subst hT
  have hin : (0 : ℝ) ≤ σ ∧ σ ≤ 0 + 2 * π / meanMotion 8371009 := ⟨by linarith, s2.le⟩
  have hσ : 0 < σ := by linarith
  have hsol := (solver_at (debug := debug) (rf := fun lo hi _ => if lo ≤ σ ∧ σ ≤ hi then (⟨σ, σ, σ⟩ : Bracket) else ⟨lo, lo, lo⟩) (o := polar)
    (ob := watcher) (target := horizon) hr (sqrt_nonneg _) (lo := 0) (hi := 0 + 2 * π / meanMotion 8371009) (j := 0) (by norm_num) (by simp)
    (by rw [if_pos hin]; simp [testInterval, hσ, hσ.ne']; norm_num)).1 (by
      rw [if_pos hin]
      exact .inr (hcloser (σ + 1) (by linarith) (by linarith)))
  obtain ⟨q, rfl, -⟩ := h2 _ hsol
  exact ⟨q, h1⟩

/-- All that `C104_skips` and (but for the convergence) `C104_answers` ask for. -/
example : ∃ rf, IsBrent polar watcher horizon rf ∧ Stays rf ∧ 0 < polar.radius ∧ 0 < watcher.radius ∧ 0 ≤ horizon ∧ WithinReach polar watcher horizon ∧
    orbitalPeriod polar = .ok (2 * π / meanMotion 8371009) ∧ 6 ≤ 2 * π / meanMotion 8371009 ∧ 0 + 2 * π / meanMotion 8371009 ≤ 1000000 ∧
    JustSet polar watcher horizon (2 * π / meanMotion 8371009) 0 := by
  obtain ⟨rf, hrf⟩ := exists_brent polar watcher horizon
  obtain ⟨n1, n2⟩ := polar_motion
  refine ⟨rf, hrf, C81_stays hrf, by unfold polar; norm_num, by show 0 < length station; linarith [station_bounds.1], sqrt_nonneg _, polar_within,
    polar_period, by linarith [polar_long], ?_, polar_justSet⟩
  rw [zero_add, div_le_iff₀ (by linarith)]
  nlinarith [pi_lt_d4]

theorem polar_missed (fuel : Nat) :
    ∃ rf, Stays rf ∧ ∀ debug, Missed debug (fuel + 1) rf polar station 0 ((0 : Nat) / 10 ^ 9) (2 * π / meanMotion 8371009) := by
  obtain ⟨rf, hstay, hq⟩ := polar_search
  have hlong := polar_long
  obtain ⟨r1, r2⟩ := station_bounds
  refine ⟨rf, hstay, fun debug => ⟨polar_period, by linarith, ⟨elevationAt polar station ((0 : Nat) / 10 ^ 9), ?_, ?_⟩, watcher, horizon, station_observer debug fuel,
    horizon_eq, ?_, sqrt_nonneg _, polar_within, ?_, hstay, ?_⟩⟩
  · rw [Nat.cast_zero, zero_div]; exact polar_visible
  · exact sees_elevationAt debug polar station (by linarith) (by show _ < (8371009 : ℝ) - 9; linarith) _
  · show 0 < length station; linarith
  · rw [Nat.cast_zero, zero_div]; exact polar_justSet
  · rw [Nat.cast_zero, zero_div]; exact hq debug

/-- What the tracker at the station is told about two satellites, one of them `polar`. -/
theorem polar_told (debug : Bool) (fuel : Nat) (orb : Nat → Elements) (horb : ∀ d, (orb d).radius = 8371009) (rf : RootFinder) (hstay : Stays rf) :
    ∃ v, Told debug (fuel + 1) (fun _ => rf) orb station 0 v := by
  obtain ⟨r1, r2⟩ := station_bounds
  have hr : ∀ d, 0 < (orb d).radius := fun d => by rw [horb d]; norm_num
  have hdist : ∀ d, groundDistanceAtElevation (orb d) 0 (length station) = .ok horizon := by
    intro d
    rw [← horizon_eq]
    unfold groundDistanceAtElevation satAltitude
    rw [horb d]
    rfl
  have hs : ∀ (t : Nat) d, ∃ res, tryGetNextTimeAtElevation debug (fuel + 1) rf (some (orb d)) 0 (some station) (t / 10 ^ 9) = .ok res := by
    intro t d
    obtain ⟨T, res, -, h1, -⟩ := C51_accepted (debug := debug) hstay (hr d) (ob := watcher) (target := horizon) (sqrt_nonneg _) (t / 10 ^ 9)
    exact ⟨res, by simp [tryGetNextTimeAtElevation, hdist d, station_observer, h1]⟩
  choose res hres using hs
  have hp : ∀ d, ∃ T, orbitalPeriod (orb d) = .ok T ∧ 0 < T := fun d => by
    obtain ⟨T, h1, h2, -⟩ := C45_kepler (orb d) (hr d)
    exact ⟨T, h1, h2⟩
  choose T hT hT0 using hp
  refine ⟨fun t => ⟨fun d => elevationAt (orb d) station (t / 10 ^ 9), fun d => (res t d).map fun q => ⌊q * 10 ^ 9⌋₊, fun d => ⌊T d * 10 ^ 9⌋₊⟩, ?_, ?_, ?_⟩
  · intro t d
    exact sees_elevationAt debug (orb d) station (by linarith) (by rw [horb d]; linarith) _
  · intro t d
    refine ⟨T d, hT d, ?_⟩
    have h0 : 0 ≤ T d * 10 ^ 9 := mul_nonneg (hT0 d).le (by norm_num)
    have h1 := Nat.floor_le h0
    have h2 := Nat.sub_one_lt_floor (T d * 10 ^ 9)
    show |((⌊T d * 10 ^ 9⌋₊ : ℕ) : ℝ) - T d * 10 ^ 9| ≤ 1
    rw [abs_le]
    constructor <;> linarith
  · intro t d
    refine ⟨res t d, hres t d, ?_⟩
    cases h : res t d with
    | none => simp [h]
    | some q => exact ⟨_, by simp [h], le_refl _, Nat.floor_le_ceil _⟩

theorem station_low (orb : Nat → Elements) (horb : ∀ d, (orb d).radius = 8371009) : Low orb station 0 0 := by
  obtain ⟨r1, r2⟩ := station_bounds
  obtain ⟨n1, n2⟩ := polar_motion
  refine ⟨by linarith, fun d => by rw [horb d]; linarith, fun d => by rw [horb d]; linarith, fun d => ?_⟩
  rw [horb d]
  have hreach : reach (length station) (8371009 - 9) 0 ≤ 1.2 := by
    unfold reach
    rw [cos_zero, mul_one, sub_zero, ← arccos_cos (x := (1.2 : ℝ)) (by norm_num) (by linarith [pi_gt_three])]
    refine arccos_le_arccos ?_
    have h1 : cos (1.2 : ℝ) ≤ 0.5 := by
      rw [← cos_pi_div_three.trans (by norm_num : (1 / 2 : ℝ) = 0.5)]
      exact cos_le_cos_of_nonneg_of_le_pi (by positivity) (by linarith [pi_gt_three]) (by linarith [pi_lt_d4])
    have h2 : (0.5 : ℝ) ≤ length station / (8371009 - 9) := by rw [le_div_iff₀ (by norm_num)]; linarith
    linarith
  have h1 : 2 * reach (length station) (8371009 - 9) 0 / (meanMotion 8371009 - 7.292115922e-5) ≤ 3300 := by
    rw [div_le_iff₀ (by linarith)]; linarith
  have h2 : 3800 ≤ π / meanMotion 8371009 := by rw [le_div_iff₀ (by linarith)]; nlinarith [pi_gt_d4]
  norm_num at h1 h2 ⊢
  linarith

/-- All hypotheses of `C104_debug` and `C104_release`: a satellite 2000 km high that the tracker at the station (on the ellipsoid, 36.9 degrees south)
takes for visible at time 0, and the search for one that has just set.  The program fails, or the tracker keeps a satellite for more than 3800 seconds. -/
theorem C104_witness : ∃ (orb : Nat → Elements) (rf : RootFinder) (v v' : Nat → View Nat ℝ), Stays rf ∧ Told true 5 (fun _ => rf) orb station 0 v ∧
    Missed true 5 rf (orb 10) station 0 ((0 : Nat) / 10 ^ 9) (2 * π / meanMotion 8371009) ∧ Told false 5 (fun _ => rf) orb station 0 v' ∧
    Low orb station 0 0 ∧ orb 10 ≠ orb 20 ∧
    elevationFire true (fun d => SatAddress.mk3 .big 3 (UInt16.ofNat d) 0) true v 0 (fun _ => exampleConstellation) 0 () = .assertFail ∧
    ∃ a delay, elevationFire false (fun d => SatAddress.mk3 .big 3 (UInt16.ofNat d) 0) true v' 0 (fun _ => exampleConstellation) 0 () =
      .ok (a, some (delay, ())) ∧ 3800 * 10 ^ 9 < (delay : ℝ) := by
  obtain ⟨rf, hstay, hm⟩ := polar_missed 4
  let orb : Nat → Elements := fun d => if d = 10 then polar else ⟨π / 2, π / 2, 8371009, 0⟩
  have horb : ∀ d, (orb d).radius = 8371009 := fun d => by
    show (if d = 10 then polar else ⟨π / 2, π / 2, 8371009, 0⟩ : Elements).radius = _
    split <;> rfl
  have h10 : orb 10 = polar := if_pos rfl
  have hne : orb 10 ≠ orb 20 := by
    rw [h10, show orb 20 = (⟨π / 2, π / 2, 8371009, 0⟩ : Elements) from if_neg (by norm_num)]
    intro h
    have := congrArg Elements.ascendingNode h
    simp only [polar] at this
    linarith [pi_pos]
  obtain ⟨v, hv⟩ := polar_told true 4 orb horb rf hstay
  obtain ⟨v', hv'⟩ := polar_told false 4 orb horb rf hstay
  have hlow := station_low orb horb
  have hlong := polar_long
  rw [← h10] at hm
  refine ⟨orb, rf, v, v', hstay, hv, hm true, hv', hlow, hne, ?_, ?_⟩
  · exact C104_debug (c := fun _ => exampleConstellation) exampleConstellation_built exampleConstellation_full _ (by rw [horb]; norm_num) hv
      (p := 0) (i := 0) (d := 10) (by decide) (hm true)
  · obtain ⟨a, delay, h1, h2, -⟩ := C104_release (c := fun _ => exampleConstellation) exampleConstellation_built exampleConstellation_full
      (fun d => SatAddress.mk3 .big 3 (UInt16.ofNat d) 0) hlow (le_refl _) (by positivity) (fun d' => by rw [horb, horb]) hv' (fun _ => hstay)
      (p := 0) (i := 0) (d := 10) (by decide) (hm false)
    exact ⟨a, delay, h1, by linarith⟩

end Example

end Orbit
end Icarus
