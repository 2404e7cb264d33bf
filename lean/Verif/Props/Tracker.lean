import Verif.Model.Tracker
import Verif.Lemmas.Machine
import Verif.Props.Constellation
import Mathlib.Algebra.Order.Floor.Semiring
import Mathlib.Algebra.Order.Archimedean.Real.Basic

/-!
# Properties of the trackers of ground nodes
-/

set_option autoImplicit false

namespace Icarus
namespace Tracker

open Constellation (sqDistance)

/-- Assignments made by the tracker itself. -/
def updates {E : Type} (s : Sys E) : List (Nat × SatAddress) := (s.log.filter (·.2.1)).map (fun x => (x.1, x.2.2))

theorem step_run {E : Type} {fire : Nat → E → Outcome (SatAddress × Option (Nat × E))} {s s' : Sys E}
    (h : step fire s .run = some (.ok s')) :
    ∃ t e es a next, s.pending = (t, e) :: es ∧ fire t e = .ok (a, next) ∧ s'.clock = t ∧ s'.remote = a ∧
      s'.log = s.log ++ [(t, true, a)] ∧
      s'.pending = (match next with | some (delay, e') => insertEvent (t + delay) e' es | none => es) := by
  unfold step at h
  match hp : s.pending with
  | [] => simp [hp] at h
  | (t, e) :: es =>
    simp only [hp, Option.some.injEq] at h
    rw [Outcome.bind_eq_ok] at h
    obtain ⟨⟨a, next⟩, hf, h2⟩ := h
    simp only [Outcome.ok.injEq] at h2
    subst h2
    exact ⟨t, e, es, a, next, rfl, hf, rfl, rfl, rfl, rfl⟩

theorem step_outside {E : Type} {fire : Nat → E → Outcome (SatAddress × Option (Nat × E))} {s s' : Sys E} {t : Nat} {a : SatAddress}
    (h : step fire s (.outside t a) = some (.ok s')) :
    possible s t ∧ s' = { s with clock := t, remote := a, log := s.log ++ [(t, false, a)] } := by
  simp only [step] at h
  split at h
  · rename_i hp
    simp only [Option.some.injEq, Outcome.ok.injEq] at h
    exact ⟨hp, h.symm⟩
  · simp at h

/-- The tracked address is the last one assigned, by the tracker or by somebody else. -/
theorem tracked_is_last {E : Type} {fire : Nat → E → Outcome (SatAddress × Option (Nat × E))} {s0 s : Sys E} {ops : List Op}
    (h0 : s0.log = []) (h : runFrom (step fire) s0 ops = some (.ok s)) :
    s.remote = ((s.log.map (·.2.2)).getLast?).getD s0.remote := by
  refine run_induction (P := fun _ s => s.remote = ((s.log.map (·.2.2)).getLast?).getD s0.remote) ?_ ?_ h
  · simp [h0]
  · intro ops o s s' _ _ hs
    cases o with
    | outside t a => obtain ⟨-, rfl⟩ := step_outside hs; simp
    | run =>
      obtain ⟨t, e, es, a, next, -, -, -, hr, hl, -⟩ := step_run hs
      rw [hr, hl]; simp

/-! ## C42 -/

/-- When the `k`-th update is due: one at once, then one at a point in the first interval and one every interval from then on. -/
def dueTime (t0 offset interval : Nat) : Nat → Nat
  | 0 => t0
  | k + 1 => t0 + offset + k * interval

/-- What is scheduled after `k` updates. -/
def scheduled (t0 offset interval : Nat) : Nat → List (Nat × Call)
  | 0 => [(t0, .once), (t0 + offset, .periodic)]
  | k + 1 => [(t0 + offset + k * interval, .periodic)]

section Periodic

variable {D : Type} {addr : D → SatAddress} {c : Nat → Constellation D} {t0 interval offset : Nat} {r : SatAddress}
  {K : Type} [LE K] [DecidableLE K] {dist : Nat → D → K}

theorem periodicInit_pending (hi : 0 < interval) :
    (periodicInit t0 interval offset r).pending = scheduled t0 offset interval 0 := by
  unfold periodicInit
  rw [if_neg (by omega)]
  simp [insertEvent, scheduled]

theorem periodic_inv (hi : 0 < interval) {ops : List Op} {s : Sys Call}
    (h : runFrom (step (periodicFire addr dist c interval)) (periodicInit t0 interval offset r) ops = some (.ok s)) :
    s.pending = scheduled t0 offset interval (updates s).length ∧
      (updates s).map (·.1) = (List.range (updates s).length).map (dueTime t0 offset interval) ∧
      s.clock ≤ dueTime t0 offset interval (updates s).length ∧
      (∀ x ∈ updates s, ∃ d, (c x.1).getClosest (dist x.1) = some d ∧ x.2 = addr d) := by
  revert h
  apply run_induction (P := fun _ s => s.pending = scheduled t0 offset interval (updates s).length ∧
      (updates s).map (·.1) = (List.range (updates s).length).map (dueTime t0 offset interval) ∧
      s.clock ≤ dueTime t0 offset interval (updates s).length ∧
      (∀ x ∈ updates s, ∃ d, (c x.1).getClosest (dist x.1) = some d ∧ x.2 = addr d))
  · have e1 : updates (periodicInit t0 interval offset r) = [] := by
      unfold periodicInit updates; split <;> rfl
    rw [e1, periodicInit_pending hi]
    refine ⟨rfl, rfl, ?_, by simp⟩
    unfold periodicInit
    rw [if_neg (by omega)]
    exact Nat.le_refl _
  · rintro ops o s s' - ⟨hp, ht, hc, hn⟩ hs
    cases o with
    | outside t a =>
      obtain ⟨⟨h1, h2⟩, rfl⟩ := step_outside hs
      have e1 : updates { s with clock := t, remote := a, log := s.log ++ [(t, false, a)] } = updates s := by
        simp [updates]
      rw [e1]
      refine ⟨hp, ht, ?_, hn⟩
      simp only
      cases hk : (updates s).length with
      | zero =>
        rw [hk] at hp
        exact h2 (t0, .once) (by rw [hp]; simp [scheduled])
      | succ k =>
        rw [hk] at hp
        exact h2 (t0 + offset + k * interval, .periodic) (by rw [hp]; simp [scheduled])
    | run =>
      obtain ⟨t, e, es, a, next, h1, h2, h3, h4, h5, h6⟩ := step_run hs
      have e1 : updates s' = updates s ++ [(t, a)] := by simp [updates, h5]
      have hclose : ∃ d, (c t).getClosest (dist t) = some d ∧ a = addr d := by
        cases e <;>
        · simp only [periodicFire, updateOnce] at h2
          cases hg : (c t).getClosest (dist t) with
          | none => simp [hg] at h2
          | some d =>
            simp only [hg, Outcome.deref_some, Outcome.bind_ok, Outcome.ok.injEq, Prod.mk.injEq] at h2
            exact ⟨d, rfl, h2.1.symm⟩
      have hnext : next = if e = .periodic then some (interval, .periodic) else none := by
        cases e <;>
        · simp only [periodicFire, updateOnce] at h2
          cases hg : (c t).getClosest (dist t) with
          | none => simp [hg] at h2
          | some d =>
            simp only [hg, Outcome.deref_some, Outcome.bind_ok, Outcome.ok.injEq, Prod.mk.injEq] at h2
            simp [← h2.2]
      have ht1 : t = dueTime t0 offset interval (updates s).length ∧ s'.pending = scheduled t0 offset interval ((updates s).length + 1) := by
        cases hk : (updates s).length with
        | zero =>
          rw [hk, h1] at hp
          simp only [scheduled, List.cons.injEq, Prod.mk.injEq] at hp
          obtain ⟨⟨rfl, rfl⟩, rfl⟩ := hp
          simp [hnext] at h6
          simp [dueTime, h6, scheduled]
        | succ k =>
          rw [hk, h1] at hp
          simp only [scheduled, List.cons.injEq, Prod.mk.injEq] at hp
          obtain ⟨⟨rfl, rfl⟩, rfl⟩ := hp
          simp [hnext, insertEvent] at h6
          refine ⟨rfl, ?_⟩
          rw [h6]
          simp [scheduled, Nat.succ_mul, Nat.add_assoc]
      have hlen : (updates s').length = (updates s).length + 1 := by simp [e1]
      rw [hlen, e1]
      refine ⟨ht1.2, ?_, ?_, ?_⟩
      · rw [List.map_append, ht, List.range_succ, List.map_append, ht1.1]; rfl
      · rw [h3, ht1.1]
        cases (updates s).length with
        | zero => simp [dueTime]
        | succ k => simp [dueTime, Nat.succ_mul]
      · intro x hx
        rcases List.mem_append.mp hx with hx | hx
        · exact hn x hx
        · simp only [List.mem_singleton] at hx
          subst hx
          exact hclose

/-- The updates made so far happened exactly at the first due times, and none is overdue: all updates due before the present have been
made. -/
theorem C42_times (hi : 0 < interval) {ops : List Op} {s : Sys Call}
    (h : runFrom (step (periodicFire addr dist c interval)) (periodicInit t0 interval offset r) ops = some (.ok s)) :
    (updates s).map (·.1) = (List.range (updates s).length).map (dueTime t0 offset interval) ∧
      (∀ k, dueTime t0 offset interval k < s.clock → k < (updates s).length) := by
  obtain ⟨-, h2, h3, -⟩ := periodic_inv hi h
  refine ⟨h2, ?_⟩
  intro k hk
  by_contra hcon
  have mono : ∀ j, dueTime t0 offset interval j ≤ dueTime t0 offset interval (j + 1) := by
    intro j
    cases j with
    | zero => simp [dueTime]
    | succ k => simp [dueTime, Nat.succ_mul]
  have hle : dueTime t0 offset interval (updates s).length ≤ dueTime t0 offset interval k :=
    monotone_nat_of_le_succ mono (by omega)
  omega

/-- Tracking never ends: another update is always scheduled, at its due time. -/
theorem C42_goes_on (hi : 0 < interval) {ops : List Op} {s : Sys Call}
    (h : runFrom (step (periodicFire addr dist c interval)) (periodicInit t0 interval offset r) ops = some (.ok s)) :
    ∃ call rest, s.pending = (dueTime t0 offset interval (updates s).length, call) :: rest := by
  obtain ⟨h1, -⟩ := periodic_inv hi h
  rw [h1]
  cases (updates s).length with
  | zero => exact ⟨_, _, rfl⟩
  | succ k => exact ⟨_, _, rfl⟩

/-- With interval zero the tracker does nothing, ever: only others assign the tracked address. -/
theorem C42_disabled {ops : List Op} {s : Sys Call}
    (h : runFrom (step (periodicFire addr dist c 0)) (periodicInit t0 0 offset r) ops = some (.ok s)) :
    updates s = [] ∧ s.pending = [] := by
  revert h
  apply run_induction (P := fun _ s => updates s = [] ∧ s.pending = [])
  · simp [periodicInit, updates]
  · rintro ops o s s' - ⟨hu, hp⟩ hs
    cases o with
    | outside t a => obtain ⟨-, rfl⟩ := step_outside hs; exact ⟨by simpa [updates] using hu, hp⟩
    | run =>
      obtain ⟨t, e, es, a, next, h1, -⟩ := step_run hs
      simp [hp] at h1

end Periodic

/-- Every update assigns the address of a satellite of the constellation to which no other one is nearer at that moment. -/
theorem C42_nearest {D : Type} {addr : D → SatAddress} {c : Nat → Constellation D} {t0 interval offset : Nat} {r : SatAddress}
    {e : Endian} {hasOrbit : D → Bool} {cid n sz : Nat} {hist : Nat → List (Nat × Nat × D)} {as : Nat → List SatAddress}
    (hc : ∀ t, Built e hasOrbit cid n sz (hist t) (as t) (c t)) (pos : Nat → D → ℝ × ℝ × ℝ) (q : Nat → ℝ × ℝ × ℝ)
    (hi : 0 < interval) {ops : List Op} {s : Sys Call}
    (h : runFrom (step (periodicFire addr (fun t d => sqDistance (pos t d) (q t)) c interval)) (periodicInit t0 interval offset r) ops =
      some (.ok s)) :
    (∀ t a, (t, a) ∈ updates s → ∃ d ∈ (hist t).map (·.2.2), a = addr d ∧
      ∀ d' ∈ (hist t).map (·.2.2), specDist (pos t d) (q t) ≤ specDist (pos t d') (q t)) ∧
    s.remote = ((s.log.map (·.2.2)).getLast?).getD r := by
  refine ⟨?_, ?_⟩
  · intro t a hm
    obtain ⟨-, -, -, hn⟩ := periodic_inv hi h
    obtain ⟨d, hd, ha⟩ := hn (t, a) hm
    obtain ⟨m, hmin⟩ := (C05_closest (hc t) (pos t) (q t)).1 d hd
    exact ⟨d, m, ha, hmin⟩
  · have h0 : (periodicInit t0 interval offset r).log = [] ∧ (periodicInit t0 interval offset r).remote = r := by
      unfold periodicInit; split <;> simp
    have := tracked_is_last h0.1 h
    rwa [h0.2] at this

/-- No execution fails as long as the constellation is not empty, and an update with an empty constellation dereferences a null pointer. -/
theorem C42_no_failure {D : Type} {addr : D → SatAddress} {c : Nat → Constellation D} {t0 interval offset : Nat} {r : SatAddress}
    {e : Endian} {hasOrbit : D → Bool} {cid n sz : Nat} {hist : Nat → List (Nat × Nat × D)} {as : Nat → List SatAddress}
    (hc : ∀ t, Built e hasOrbit cid n sz (hist t) (as t) (c t)) (pos : Nat → D → ℝ × ℝ × ℝ) (q : Nat → ℝ × ℝ × ℝ) :
    ((∀ t, hist t ≠ []) → ∀ ops res,
      runFrom (step (periodicFire addr (fun t d => sqDistance (pos t d) (q t)) c interval)) (periodicInit t0 interval offset r) ops =
        some res → ∃ s, res = .ok s) ∧
    (∀ t, hist t = [] → ∀ call,
      periodicFire addr (fun t d => sqDistance (pos t d) (q t)) c interval t call = .ub .nullDeref) := by
  constructor
  · intro hne ops res h
    revert h
    apply run_no_fault
    intro ops o s res _ hs
    cases o with
    | outside t a =>
      simp only [step] at hs
      split at hs
      · simp only [Option.some.injEq] at hs; exact ⟨_, hs.symm⟩
      · simp at hs
    | run =>
      unfold step at hs
      match hp : s.pending with
      | [] => simp [hp] at hs
      | (t, call) :: es =>
        simp only [hp, Option.some.injEq] at hs
        cases hg : (c t).getClosest (fun d => sqDistance (pos t d) (q t)) with
        | none => exact absurd ((C05_closest (hc t) (pos t) (q t)).2.mp hg) (hne t)
        | some d =>
          cases call <;>
          · simp only [periodicFire, updateOnce, hg, Outcome.deref_some, Outcome.bind_ok] at hs
            exact ⟨_, hs.symm⟩
  · intro t ht call
    have := (C05_closest (hc t) (pos t) (q t)).2.mpr ht
    cases call <;> simp [periodicFire, updateOnce, this]

/-- The first delay (model/ground-node-sat-tracker-periodic.cc:75-77): a random number of seconds `x` from `[0, interval)`, cut to nanoseconds,
lies inside the first interval. -/
theorem C42_offset (interval : Nat) (x : ℝ) (h0 : 0 ≤ x) (h1 : x < interval / 10 ^ 9) : ⌊x * 10 ^ 9⌋₊ < interval := by
  have h2 : x * 10 ^ 9 < interval := by
    have := (lt_div_iff₀ (by positivity : (0 : ℝ) < 10 ^ 9)).mp h1
    exact this
  exact (Nat.floor_lt (by positivity)).mpr h2

/-! ## C43 -/

section Elevation

variable {D : Type} {K : Type} [LinearOrder K]

theorem getSatellite_mem {e : Endian} {hasOrbit : D → Bool} {cid n sz : Nat} {hist : List (Nat × Nat × D)}
    {as : List SatAddress} {c : Constellation D} (h : Built e hasOrbit cid n sz hist as c) (debug : Bool) (p i : Nat) (d : D) :
    c.getSatellite debug p i = .ok (some d) ↔ (p, i, d) ∈ hist := by
  obtain ⟨inv, -⟩ := h.inv
  constructor
  · intro hg
    unfold Constellation.getSatellite at hg
    rw [Outcome.bind_eq_ok] at hg
    obtain ⟨-, -, hg⟩ := hg
    rw [Outcome.bind_eq_ok] at hg
    obtain ⟨-, -, hg⟩ := hg
    rw [Constellation.cell_eq_ok] at hg
    have hb := inv.shape.cell_isSome.mp (by rw [hg]; rfl)
    rw [inv.nPlanes_eq, inv.planeSize_eq] at hb
    rw [inv.cells p i hb.1 hb.2, Option.some.injEq] at hg
    unfold Constellation.lookup at hg
    rw [Option.map_eq_some_iff] at hg
    obtain ⟨x, hx, rfl⟩ := hg
    have hm := List.mem_of_find?_eq_some hx
    have hpred := List.find?_some hx
    obtain ⟨a, b, d⟩ := x
    simp at hpred
    obtain ⟨rfl, rfl⟩ := hpred
    exact hm
  · intro hm
    obtain ⟨b1, b2⟩ : p < n ∧ i < sz := inv.bounds _ hm
    have hl : Constellation.lookup hist p i = some d := by
      cases hl : Constellation.lookup hist p i with
      | none => exact absurd (List.mem_map.mpr ⟨(p, i, d), hm, rfl⟩) (Constellation.lookup_eq_none.mp hl)
      | some d' =>
        unfold Constellation.lookup at hl
        rw [Option.map_eq_some_iff] at hl
        obtain ⟨x, hx, rfl⟩ := hl
        have hm2 := List.mem_of_find?_eq_some hx
        have hpred := List.find?_some hx
        obtain ⟨a, b, d2⟩ := x
        simp at hpred
        obtain ⟨rfl, rfl⟩ := hpred
        have := List.inj_on_of_nodup_map inv.nodup hm2 hm rfl
        simp at this
        simp [this]
    have := inv.cells p i b1 b2
    rw [hl, ← Constellation.cell_eq_ok] at this
    unfold Constellation.getSatellite
    rw [inv.nPlanes_eq, inv.planeSize_eq, this]
    have e1 : decide (p ≤ n) = true := by simp; omega
    have e2 : decide (i ≤ sz) = true := by simp; omega
    simp [e1, e2]

theorem mem_cells {n sz p i : Nat} : (p, i) ∈ cells n sz ↔ p < n ∧ i < sz := by
  simp [cells]

theorem nodup_cells (n sz : Nat) : (cells n sz).Nodup := by
  unfold cells
  rw [List.nodup_flatMap]
  refine ⟨?_, ?_⟩
  · intro p _
    exact List.nodup_range.map (fun a b hab => by simpa using hab)
  · refine List.nodup_range.imp ?_
    intro a b hab
    simp only [Function.onFun, List.disjoint_left, List.mem_map, not_exists, not_and]
    rintro x ⟨i, -, rfl⟩ j - hj
    exact hab (by simpa using (congrArg Prod.fst hj).symm)

/-- Every cell of the constellation is occupied. -/
def Full (n sz : Nat) (hist : List (Nat × Nat × D)) : Prop := ∀ p i, p < n → i < sz → ∃ d, (p, i, d) ∈ hist

/-- A satellite that may be tracked, setting at time `b`: above the minimum elevation and with a known setting time. -/
def Candidate (v : View D K) (minElevation : K) (d : D) (b : Nat) : Prop :=
  minElevation < v.elevation d ∧ v.setting d = some b

/-- All candidates set within half an orbit (what the assertion in `getVisibleSats` checks). -/
def Soon (v : View D K) (minElevation : K) (now : Nat) (hist : List (Nat × Nat × D)) : Prop :=
  ∀ x ∈ hist, ∀ b, Candidate v minElevation x.2.2 b → b < now + v.period x.2.2 / 2

theorem visibleStep_ok {e : Endian} {hasOrbit : D → Bool} {cid n sz : Nat} {hist : List (Nat × Nat × D)}
    {as : List SatAddress} {c : Constellation D} (h : Built e hasOrbit cid n sz hist as c) (debug : Bool) (v : View D K)
    (minE : K) (now : Nat) (hsoon : debug = true → Soon v minE now hist) (p i : Nat) (d : D) (hd : (p, i, d) ∈ hist)
    (acc : List (Int × Nat × Nat)) :
    ∃ l, visibleStep debug v minE now c acc (p, i) = .ok (acc ++ l) ∧
      ∀ x, x ∈ l ↔ ∃ b, Candidate v minE d b ∧ x = ((b : Int) - now, p, i) := by
  unfold visibleStep
  simp only [(getSatellite_mem h debug p i d).mpr hd, Outcome.bind_ok, Outcome.deref_some]
  by_cases he : minE < v.elevation d
  · rw [if_pos he]
    cases hs : v.setting d with
    | none =>
      refine ⟨[], by simp, ?_⟩
      intro x
      simp [Candidate, hs]
    | some b =>
      have ha : Outcome.nsAssert debug (decide ((b : Int) - now < ((v.period d / 2 : Nat) : Int))) = .ok () := by
        cases debug with
        | false => simp
        | true =>
          have := hsoon rfl _ hd b ⟨he, hs⟩
          have e1 : decide ((b : Int) - now < ((v.period d / 2 : Nat) : Int)) = true := by
            rw [decide_eq_true_eq]
            simp only at this
            omega
          rw [e1]; simp
      refine ⟨[((b : Int) - now, p, i)], by simp only [ha, Outcome.bind_ok], ?_⟩
      intro x
      simp [Candidate, hs, he]
  · rw [if_neg he]
    refine ⟨[], by simp, ?_⟩
    intro x
    simp [Candidate, he]

theorem visible_loop {e : Endian} {hasOrbit : D → Bool} {cid n sz : Nat} {hist : List (Nat × Nat × D)}
    {as : List SatAddress} {c : Constellation D} (h : Built e hasOrbit cid n sz hist as c) (debug : Bool) (v : View D K)
    (minE : K) (now : Nat) (hsoon : debug = true → Soon v minE now hist) (cs : List (Nat × Nat))
    (hcs : ∀ x ∈ cs, ∃ d, (x.1, x.2, d) ∈ hist) (acc : List (Int × Nat × Nat)) :
    ∃ l, loop (visibleStep debug v minE now c) acc cs = .ok (acc ++ l) ∧
      ∀ x, x ∈ l ↔ ∃ p i d b, (p, i) ∈ cs ∧ (p, i, d) ∈ hist ∧ Candidate v minE d b ∧ x = ((b : Int) - now, p, i) := by
  induction cs generalizing acc with
  | nil => exact ⟨[], by simp [loop], by simp⟩
  | cons x xs ih =>
    obtain ⟨p, i⟩ := x
    obtain ⟨d, hd⟩ := hcs (p, i) (by simp)
    obtain ⟨l1, h1, m1⟩ := visibleStep_ok h debug v minE now hsoon p i d hd acc
    obtain ⟨l2, h2, m2⟩ := ih (fun x hx => hcs x (by simp [hx])) (acc ++ l1)
    refine ⟨l1 ++ l2, ?_, ?_⟩
    · unfold loop
      rw [h1, Outcome.bind_ok, h2, List.append_assoc]
    · intro x
      rw [List.mem_append, m1, m2]
      constructor
      · rintro (⟨b, hb, rfl⟩ | ⟨p', i', d', b, hm, hd', hb, rfl⟩)
        · exact ⟨p, i, d, b, by simp, hd, hb, rfl⟩
        · exact ⟨p', i', d', b, by simp [hm], hd', hb, rfl⟩
      · rintro ⟨p', i', d', b, hm, hd', hb, rfl⟩
        rcases List.mem_cons.mp hm with heq | hm
        · left
          simp only [Prod.mk.injEq] at heq
          obtain ⟨rfl, rfl⟩ := heq
          have g1 := (getSatellite_mem h debug p' i' d).mpr hd
          have g2 := (getSatellite_mem h debug p' i' d').mpr hd'
          rw [g1] at g2
          simp only [Outcome.ok.injEq, Option.some.injEq] at g2
          subst g2
          exact ⟨b, hb, rfl⟩
        · exact .inr ⟨p', i', d', b, hm, hd', hb, rfl⟩

/-- The list reported by the signal `satsAvailable`: exactly the candidates, with their remaining times. -/
theorem C43_visible {e : Endian} {hasOrbit : D → Bool} {cid n sz : Nat} {hist : List (Nat × Nat × D)}
    {as : List SatAddress} {c : Constellation D} (h : Built e hasOrbit cid n sz hist as c) (hfull : Full n sz hist) (debug : Bool)
    (v : View D K) (minE : K) (now : Nat) (hsoon : debug = true → Soon v minE now hist) :
    ∃ l, getVisibleSats debug true v minE now c = .ok l ∧
      ∀ rem p i, (rem, p, i) ∈ l ↔ ∃ d b, (p, i, d) ∈ hist ∧ Candidate v minE d b ∧ rem = (b : Int) - now := by
  obtain ⟨inv, -⟩ := h.inv
  obtain ⟨l, h1, h2⟩ := visible_loop h debug v minE now hsoon (cells n sz)
    (fun x hx => hfull x.1 x.2 (mem_cells.mp hx).1 (mem_cells.mp hx).2) []
  refine ⟨l, ?_, ?_⟩
  · unfold getVisibleSats
    rw [inv.nPlanes_eq, inv.planeSize_eq]
    simpa using h1
  · intro rem p i
    rw [h2]
    constructor
    · rintro ⟨p', i', d, b, -, hd, hb, heq⟩
      simp only [Prod.mk.injEq] at heq
      obtain ⟨rfl, rfl, rfl⟩ := heq
      exact ⟨d, b, hd, hb, rfl⟩
    · rintro ⟨d, b, hd, hb, rfl⟩
      exact ⟨p, i, d, b, mem_cells.mpr (inv.bounds _ hd), hd, hb, rfl⟩

theorem maxElement_spec (l : List (Int × Nat × Nat)) :
    (maxElement l = none ↔ l = []) ∧ ∀ m, maxElement l = some m → m ∈ l ∧ ∀ x ∈ l, x.1 ≤ m.1 := by
  cases l with
  | nil => simp [maxElement]
  | cons x xs =>
    refine ⟨by simp [maxElement], ?_⟩
    intro m hm
    simp only [maxElement, Option.some.injEq] at hm
    subst hm
    have key : ∀ (xs : List (Int × Nat × Nat)) (b : Int × Nat × Nat),
        (xs.foldl (fun best y => if best.1 < y.1 then y else best) b = b ∨
          xs.foldl (fun best y => if best.1 < y.1 then y else best) b ∈ xs) ∧
        b.1 ≤ (xs.foldl (fun best y => if best.1 < y.1 then y else best) b).1 ∧
        ∀ y ∈ xs, y.1 ≤ (xs.foldl (fun best y => if best.1 < y.1 then y else best) b).1 := by
      intro xs
      induction xs with
      | nil => intro b; simp
      | cons y ys ih =>
        intro b
        simp only [List.foldl_cons]
        obtain ⟨i1, i2, i3⟩ := ih (if b.1 < y.1 then y else b)
        have hb : b.1 ≤ (if b.1 < y.1 then y else b).1 ∧ y.1 ≤ (if b.1 < y.1 then y else b).1 := by
          split <;> constructor <;> omega
        refine ⟨?_, by omega, ?_⟩
        · rcases i1 with i1 | i1
          · rw [i1]
            split
            · right; simp
            · left; rfl
          · right; simp [i1]
        · intro z hz
          rcases List.mem_cons.mp hz with rfl | hz
          · omega
          · exact i3 z hz
    obtain ⟨k1, k2, k3⟩ := key xs x
    refine ⟨?_, ?_⟩
    · rcases k1 with k1 | k1
      · rw [k1]; simp
      · exact List.mem_cons_of_mem _ k1
    · intro z hz
      rcases List.mem_cons.mp hz with rfl | hz
      · exact k2
      · exact k3 z hz

/-- `a` is the address of a candidate setting at `b`, and no candidate sets later. -/
def Best (addr : D → SatAddress) (v : View D K) (minE : K) (hist : List (Nat × Nat × D)) (a : SatAddress) (b : Nat) : Prop :=
  (∃ p i d, (p, i, d) ∈ hist ∧ a = addr d ∧ Candidate v minE d b) ∧
    ∀ p i d b', (p, i, d) ∈ hist → Candidate v minE d b' → b' ≤ b

/-- An update: with at least one candidate it tracks one with the longest remaining visibility and schedules the next update for the
instant at which that one sets; without candidates the simulation aborts. -/
theorem C43_update {e : Endian} {hasOrbit : D → Bool} {cid n sz : Nat} {hist : List (Nat × Nat × D)}
    {as : List SatAddress} {c : Constellation D} (h : Built e hasOrbit cid n sz hist as c) (hfull : Full n sz hist) (debug : Bool)
    (addr : D → SatAddress) (v : View D K) (minE : K) (now : Nat) (hsoon : debug = true → Soon v minE now hist)
    (hlater : ∀ x ∈ hist, ∀ b, v.setting x.2.2 = some b → now ≤ b) :
    ((∃ x ∈ hist, ∃ b, Candidate v minE x.2.2 b) →
      ∃ vis a delay, update debug addr true v minE now c = .ok (vis, a, delay) ∧ Best addr v minE hist a (now + delay)) ∧
    ((¬ ∃ x ∈ hist, ∃ b, Candidate v minE x.2.2 b) → update debug addr true v minE now c = .abort) := by
  obtain ⟨l, h1, h2⟩ := C43_visible h hfull debug v minE now hsoon
  obtain ⟨m1, m2⟩ := maxElement_spec l
  unfold update
  simp only [h1, Outcome.bind_ok]
  constructor
  · rintro ⟨⟨p0, i0, d0⟩, hx, b0, hb0⟩
    have hmem := (h2 _ p0 i0).mpr ⟨d0, b0, hx, hb0, rfl⟩
    cases hm : maxElement l with
    | none => rw [m1.mp hm] at hmem; simp at hmem
    | some m =>
      obtain ⟨rem, p, i⟩ := m
      obtain ⟨m3, m4⟩ := m2 _ hm
      obtain ⟨d, b, hd, hb, rfl⟩ := (h2 rem p i).mp m3
      have hge := hlater _ hd b hb.2
      simp only [(getSatellite_mem h debug p i d).mpr hd, Outcome.bind_ok, Outcome.deref_some]
      rw [if_pos (by omega)]
      refine ⟨l, addr d, ((b : Int) - now).toNat, rfl, ?_⟩
      have hb2 : now + ((b : Int) - now).toNat = b := by omega
      rw [hb2]
      refine ⟨⟨p, i, d, hd, rfl, hb⟩, ?_⟩
      intro p' i' d' b' hd' hb'
      have := m4 _ ((h2 _ p' i').mpr ⟨d', b', hd', hb', rfl⟩)
      simp only at this
      omega
  · intro hno
    have hl : l = [] := by
      rw [List.eq_nil_iff_forall_not_mem]
      rintro ⟨rem, p, i⟩ hm
      obtain ⟨d, b, hd, hb, -⟩ := (h2 rem p i).mp hm
      exact hno ⟨(p, i, d), hd, b, hb⟩
    rw [m1.mpr hl]

/-- A node without a position aborts. -/
theorem C43_no_position (debug : Bool) (addr : D → SatAddress) (v : View D K) (minE : K) (now : Nat) (c : Constellation D) :
    update debug addr false v minE now c = .abort := by
  simp [update, getVisibleSats]

theorem loop_stops {α β : Type} {f : β → α → Outcome β} (pre : List α) (x : α) (rest : List α) (b b' : β) (flt : Fault)
    (h1 : loop f b pre = .ok b') (h2 : f b' x = .ub flt) : loop f b (pre ++ x :: rest) = .ub flt := by
  induction pre generalizing b with
  | nil =>
    simp only [loop, Outcome.ok.injEq] at h1
    subst h1
    simp [loop, h2]
  | cons y ys ih =>
    simp only [loop] at h1
    rw [Outcome.bind_eq_ok] at h1
    obtain ⟨b1, h3, h4⟩ := h1
    simp only [List.cons_append, loop, h3, Outcome.bind_ok]
    exact ih b1 h4

/-- The tracker works only with constellations without holes: with an unoccupied cell every update dereferences a null pointer. -/
theorem C43_hole_is_ub {e : Endian} {hasOrbit : D → Bool} {cid n sz : Nat} {hist : List (Nat × Nat × D)}
    {as : List SatAddress} {c : Constellation D} (h : Built e hasOrbit cid n sz hist as c) (hhole : ¬ Full n sz hist) (debug : Bool)
    (addr : D → SatAddress) (v : View D K) (minE : K) (now : Nat) (hsoon : debug = true → Soon v minE now hist) :
    update debug addr true v minE now c = .ub .nullDeref := by
  classical
  obtain ⟨inv, -⟩ := h.inv
  have hex : ∃ x ∈ cells n sz, ¬ ∃ d, (x.1, x.2, d) ∈ hist := by
    unfold Full at hhole
    push Not at hhole
    obtain ⟨p, i, hp, hi, hd⟩ := hhole
    exact ⟨(p, i), mem_cells.mpr ⟨hp, hi⟩, by rintro ⟨d, hd'⟩; exact hd d hd'⟩
  -- the first hole
  have hsplit : ∀ cs : List (Nat × Nat), (∃ x ∈ cs, ¬ ∃ d, (x.1, x.2, d) ∈ hist) →
      ∃ pre x rest, cs = pre ++ x :: rest ∧ (∀ y ∈ pre, ∃ d, (y.1, y.2, d) ∈ hist) ∧ ¬ ∃ d, (x.1, x.2, d) ∈ hist := by
    intro cs
    induction cs with
    | nil => simp
    | cons y ys ih =>
      intro hh
      by_cases hy : ∃ d, (y.1, y.2, d) ∈ hist
      · obtain ⟨x, hx, hxd⟩ := hh
        have hx2 : x ∈ ys := by
          rcases List.mem_cons.mp hx with rfl | hx
          · exact absurd hy hxd
          · exact hx
        obtain ⟨pre, z, rest, rfl, h3, h4⟩ := ih ⟨x, hx2, hxd⟩
        refine ⟨y :: pre, z, rest, rfl, ?_, h4⟩
        intro w hw
        rcases List.mem_cons.mp hw with rfl | hw
        · exact hy
        · exact h3 w hw
      · exact ⟨[], y, ys, rfl, by simp, hy⟩
  obtain ⟨pre, x, rest, hcs, hpre, hx⟩ := hsplit _ hex
  obtain ⟨l, hl, -⟩ := visible_loop h debug v minE now hsoon pre hpre []
  have hxin := mem_cells.mp (show (x.1, x.2) ∈ cells n sz by rw [hcs]; simp)
  have hnone := C03_empty_position h debug x.1 x.2 hxin.1 hxin.2 (fun d hd => hx ⟨d, hd⟩)
  have hbad : visibleStep debug v minE now c ([] ++ l) x = .ub .nullDeref := by
    unfold visibleStep
    simp [hnone]
  unfold update getVisibleSats
  rw [inv.nPlanes_eq, inv.planeSize_eq, hcs]
  simp [loop_stops pre x rest [] _ .nullDeref hl hbad]

/-- Whole executions: the first update happens when the tracker is initialised; each update assigns the address of the candidate that sets
last, and the next update happens exactly when that one sets (and is scheduled for then as long as it has not happened). -/
theorem C43_chain {e : Endian} {hasOrbit : D → Bool} {cid n sz : Nat} {hist : Nat → List (Nat × Nat × D)} {as : Nat → List SatAddress}
    {c : Nat → Constellation D} (hc : ∀ t, Built e hasOrbit cid n sz (hist t) (as t) (c t)) (hfull : ∀ t, Full n sz (hist t)) (debug : Bool)
    (addr : D → SatAddress) (v : Nat → View D K) (minE : K) (hsoon : debug = true → ∀ t, Soon (v t) minE t (hist t))
    (hlater : ∀ t, ∀ x ∈ hist t, ∀ b, (v t).setting x.2.2 = some b → t ≤ b) {t0 : Nat} {r : SatAddress} {ops : List Op} {s : Sys Unit}
    (h : runFrom (step (elevationFire debug addr true v minE c)) (elevationInit t0 r) ops = some (.ok s)) :
    (updates s = [] → s.pending = [(t0, ())] ∧ s.clock = t0) ∧ (∀ x, (updates s)[0]? = some x → x.1 = t0) ∧
      (∀ (k t : Nat) (a : SatAddress), (updates s)[k]? = some (t, a) → ∃ b, Best addr (v t) minE (hist t) a b ∧
        match (updates s)[k + 1]? with
        | some x => x.1 = b
        | none => s.pending = [(b, ())] ∧ s.clock ≤ b) ∧
      s.remote = ((s.log.map (·.2.2)).getLast?).getD r := by
  have hrem := tracked_is_last (s0 := elevationInit t0 r) rfl h
  suffices hs : (updates s = [] → s.pending = [(t0, ())] ∧ s.clock = t0) ∧ (∀ x, (updates s)[0]? = some x → x.1 = t0) ∧
      (∀ (k t : Nat) (a : SatAddress), (updates s)[k]? = some (t, a) → ∃ b, Best addr (v t) minE (hist t) a b ∧
        match (updates s)[k + 1]? with
        | some x => x.1 = b
        | none => s.pending = [(b, ())] ∧ s.clock ≤ b) from ⟨hs.1, hs.2.1, hs.2.2, hrem⟩
  clear hrem
  revert h
  apply run_induction (P := fun _ s => (updates s = [] → s.pending = [(t0, ())] ∧ s.clock = t0) ∧ (∀ x, (updates s)[0]? = some x → x.1 = t0) ∧
      (∀ (k t : Nat) (a : SatAddress), (updates s)[k]? = some (t, a) → ∃ b, Best addr (v t) minE (hist t) a b ∧
        match (updates s)[k + 1]? with
        | some x => x.1 = b
        | none => s.pending = [(b, ())] ∧ s.clock ≤ b))
  · simp [elevationInit, updates, insertEvent]
  · rintro ops o s s' - ⟨p1, p2, p3⟩ hs
    cases o with
    | outside t a =>
      obtain ⟨⟨h1, h2⟩, rfl⟩ := step_outside hs
      have e1 : updates { s with clock := t, remote := a, log := s.log ++ [(t, false, a)] } = updates s := by
        simp [updates]
      rw [e1]
      refine ⟨?_, p2, ?_⟩
      · intro hu
        obtain ⟨q1, q2⟩ := p1 hu
        refine ⟨q1, ?_⟩
        have := h2 (t0, ()) (by rw [q1]; simp)
        simp only at this ⊢
        omega
      · intro k t' a' hk
        obtain ⟨b, hb, hm⟩ := p3 k t' a' hk
        refine ⟨b, hb, ?_⟩
        cases hk1 : (updates s)[k + 1]? with
        | some x => rw [hk1] at hm; exact hm
        | none =>
          rw [hk1] at hm
          refine ⟨hm.1, ?_⟩
          exact h2 (b, ()) (by rw [hm.1]; simp)
    | run =>
      obtain ⟨t, ev, es, a, next, h1, h2, h3, h4, h5, h6⟩ := step_run hs
      have e1 : updates s' = updates s ++ [(t, a)] := by simp [updates, h5]
      -- the update itself
      have hupd : ∃ delay, next = some (delay, ()) ∧ Best addr (v t) minE (hist t) a (t + delay) := by
        obtain ⟨u1, u2⟩ := C43_update (hc t) (hfull t) debug addr (v t) minE t (fun hd => hsoon hd t) (hlater t)
        unfold elevationFire at h2
        by_cases hex : ∃ x ∈ hist t, ∃ b, Candidate (v t) minE x.2.2 b
        · obtain ⟨vis, a', delay, hu, hb⟩ := u1 hex
          simp only [hu, Outcome.bind_ok, Outcome.ok.injEq, Prod.mk.injEq] at h2
          obtain ⟨rfl, rfl⟩ := h2
          exact ⟨delay, rfl, hb⟩
        · simp [u2 hex] at h2
      obtain ⟨delay, rfl, hbest⟩ := hupd
      have hes : es = [] ∧ (updates s = [] → t = t0) ∧ ∀ (k t' : Nat) (a' : SatAddress), (updates s)[k]? = some (t', a') → (updates s)[k + 1]? = none →
          Best addr (v t') minE (hist t') a' t := by
        cases hu : updates s with
        | nil =>
          obtain ⟨q1, -⟩ := p1 hu
          rw [h1] at q1
          simp only [List.cons.injEq, Prod.mk.injEq, and_true] at q1
          exact ⟨q1.2, fun _ => q1.1, by simp⟩
        | cons y ys =>
          obtain ⟨⟨tl, al⟩, hlast⟩ : ∃ z, (updates s)[ys.length]? = some z :=
            ⟨(updates s)[ys.length]'(by rw [hu]; simp), List.getElem?_eq_getElem _⟩
          have hend : (updates s)[ys.length + 1]? = none := by rw [hu]; simp
          obtain ⟨b, hb, hm⟩ := p3 ys.length _ _ hlast
          rw [hend] at hm
          obtain ⟨q1, -⟩ := hm
          rw [h1] at q1
          simp only [List.cons.injEq, Prod.mk.injEq, and_true] at q1
          obtain ⟨rfl, rfl⟩ := q1
          refine ⟨rfl, by simp, ?_⟩
          intro k t' a' hk hk1
          have hk2 : k = ys.length := by
            have l1 := (List.getElem?_eq_some_iff.mp hk).1
            have l2 := List.getElem?_eq_none_iff.mp hk1
            simp at l1 l2
            omega
          subst hk2
          rw [← hu, hlast] at hk
          simp only [Option.some.injEq, Prod.mk.injEq] at hk
          obtain ⟨rfl, rfl⟩ := hk
          exact hb
      obtain ⟨rfl, hfirst, hprev⟩ := hes
      have hpend : s'.pending = [(t + delay, ())] := by rw [h6]; rfl
      rw [e1]
      refine ⟨by simp, ?_, ?_⟩
      · intro x hx
        cases hu : updates s with
        | nil =>
          rw [hu] at hx
          simp at hx
          subst hx
          exact hfirst hu
        | cons y ys =>
          rw [hu] at hx
          exact p2 x (by rw [hu]; simpa using hx)
      · intro k t' a' hk
        rcases Nat.lt_trichotomy k (updates s).length with hlt | heq | hgt
        · rw [List.getElem?_append_left hlt] at hk
          by_cases hk1 : k + 1 < (updates s).length
          · rw [List.getElem?_append_left hk1]
            obtain ⟨b, hb, hm⟩ := p3 k t' a' hk
            refine ⟨b, hb, ?_⟩
            rw [List.getElem?_eq_getElem hk1] at hm ⊢
            exact hm
          · have hk2 : k + 1 = (updates s).length := by omega
            refine ⟨t, hprev k t' a' hk (by rw [List.getElem?_eq_none_iff]; omega), ?_⟩
            rw [hk2]
            simp
        · subst heq
          simp at hk
          obtain ⟨rfl, rfl⟩ := hk
          refine ⟨t + delay, hbest, ?_⟩
          have : (updates s ++ [(t, a)])[(updates s).length + 1]? = none := by simp
          rw [this]
          exact ⟨hpend, by rw [h3]; omega⟩
        · rw [List.getElem?_append_right (by omega)] at hk
          have : k - (updates s).length ≠ 0 := by omega
          obtain ⟨m, hm⟩ := Nat.exists_eq_succ_of_ne_zero this
          rw [hm] at hk
          simp at hk

end Elevation

/-! ## The device and constellation used -/

/-- `GetNetDevice` picks the last ground device of the node; without one the assertion fires. -/
theorem C42_device {C : Type} (debug : Bool) (devs : List (Dev C)) :
    (∀ pre id k post, devs = pre ++ .ground id k :: post → (∀ d ∈ post, d = .other) → getNetDevice debug none devs = .ok (id, k)) ∧
    ((∀ d ∈ devs, d = .other) → getNetDevice true none devs = .assertFail ∧ getNetDevice false none devs = .ub .nullDeref) := by
  have skip : ∀ (post : List (Dev C)) (f : Option (Nat × Option C)), (∀ d ∈ post, d = .other) → netDeviceLoop f post = f := by
    intro post
    induction post with
    | nil => intro f _; rfl
    | cons d ds ih =>
      intro f h
      have := h d (by simp)
      subst this
      exact ih f (fun d hd => h d (by simp [hd]))
  constructor
  · rintro pre id k post rfl hpost
    have : ∀ (pre : List (Dev C)) (f : Option (Nat × Option C)),
        netDeviceLoop f (pre ++ .ground id k :: post) = some (id, k) := by
      intro pre
      induction pre with
      | nil => intro f; exact skip post _ hpost
      | cons d ds ih =>
        intro f
        cases d with
        | ground i c => exact ih _
        | other => exact ih _
    simp [getNetDevice, this]
  · intro h
    have := skip devs none h
    simp [getNetDevice, this]

/-! ### Non-vacuity -/

section Examples

def exampleSats : List (Nat × Nat × Nat) := [(0, 0, 10), (1, 0, 20)]

def exampleConstellation : Constellation Nat :=
  { constellationId := 3, nPlanes := 2, planeSize := 1, planes := [[some 10], [some 20]], size := 2 }

theorem exampleConstellation_built : Built .big (fun _ => true) 3 2 1 exampleSats
    [SatAddress.mk3 .big 3 0 0, SatAddress.mk3 .big 3 1 0] exampleConstellation := by unfold Built; decide

theorem exampleConstellation_full : Full 2 1 exampleSats := by
  intro p i hp hi
  have : i = 0 := by omega
  subst this
  match p, hp with
  | 0, _ => exact ⟨10, by decide⟩
  | 1, _ => exact ⟨20, by decide⟩

/-- Satellite 10 is nearest until time 7, satellite 20 afterwards. -/
def exampleDist (t d : Nat) : Nat := if d = 10 then t else 7

def exampleAddr (d : Nat) : SatAddress := SatAddress.mk3 .big 3 (if d = 10 then 0 else 1) 0

example : ∃ s, runFrom (step (periodicFire exampleAddr exampleDist (fun _ => exampleConstellation) 5)) (periodicInit 0 5 3 ⟨0, 0, 0⟩)
    [.run, .run, .outside 6 ⟨1, 2, 3⟩, .run] = some (.ok s) ∧ updates s = [(0, exampleAddr 10), (3, exampleAddr 10), (8, exampleAddr 20)] := by
  refine ⟨_, rfl, ?_⟩
  decide

/-- Both satellites are visible; the second one longer. -/
def exampleView (t : Nat) : View Nat Nat := ⟨fun _ => 30, fun d => some (t + d), fun _ => 100⟩

example : Soon (exampleView 4) 25 4 exampleSats := by
  intro x hx b hb
  simp [exampleSats] at hx
  rcases hx with rfl | rfl <;>
  · simp [Candidate, exampleView] at hb
    simp [exampleView]
    omega

example : ∃ s, runFrom (step (elevationFire true exampleAddr true exampleView 25 (fun _ => exampleConstellation))) (elevationInit 1 ⟨0, 0, 0⟩)
    [.run, .outside 6 ⟨1, 2, 3⟩, .run] = some (.ok s) ∧ updates s = [(1, exampleAddr 20), (21, exampleAddr 20)] ∧ s.pending = [(41, ())] := by
  refine ⟨_, rfl, ?_⟩
  decide

example : ¬ Full 2 2 [(1, 1, 7)] := by
  intro h
  obtain ⟨d, hd⟩ := h 0 0 (by omega) (by omega)
  simp at hd

end Examples

end Tracker
end Icarus
