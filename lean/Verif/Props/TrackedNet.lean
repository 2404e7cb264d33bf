import Verif.Model.TrackedNet
import Verif.Props.Ping
import Verif.Props.Motion

/-!
# The network with trackers at its ground stations (C100)
-/

set_option autoImplicit false

namespace Icarus
namespace TrackedNet
open Network (Net World Setup Launched)
open Orbit (Elements Place distance)
open Constellation (sqDistance)

variable {D G E V W P R T : Type}

section
variable [Fintype G] [Fintype D] [Fintype E] [DecidableEq G] [DecidableEq D] [DecidableEq E]
  {net : Net D G E V W P R} {fire : G → Nat → T → Outcome (SatAddress × Option (Nat × T))} {start : G → Tracker.Sys T}

theorem after_ok {s s' : Sys D G E W R T} {trk : G → Tracker.Sys T} {o : Network.Op D G E W} (h : after net s trk o = some (.ok s')) :
    Network.step net s.net o = some (.ok s'.net) ∧ s'.trk = trk ∧ s'.made = s.made ++ [o] := by
  unfold after at h
  split at h
  · simp at h
  · rename_i r hr
    simp only [Option.some.injEq] at h
    rw [Outcome.bind_eq_ok] at h
    obtain ⟨n, rfl, h2⟩ := h
    simp only [Outcome.ok.injEq] at h2
    subst h2
    exact ⟨hr, rfl, rfl⟩

/-- A step of the network, or a call of a tracker that assigns the tracked address. -/
theorem step_ok {s s' : Sys D G E W R T} {o : Op D G E W} (h : step net fire s o = some (.ok s')) :
    (∃ p t, o = .net p ∧ Network.time net s.net p = some t ∧ Waits s.trk t ∧ Network.step net s.net p = some (.ok s'.net) ∧
      s'.trk = noted s.trk p ∧ s'.made = s.made ++ [p]) ∨
    ∃ g k, o = .tick g ∧ Tracker.step (fire g) (s.trk g) .run = some (.ok k) ∧ Waits s.trk k.clock ∧
      Network.step net s.net (.track g k.clock k.remote) = some (.ok s'.net) ∧ s'.trk = Function.update s.trk g k ∧
      s'.made = s.made ++ [.track g k.clock k.remote] := by
  cases o with
  | net p =>
    simp only [step] at h
    split at h
    · simp at h
    · rename_i t ht
      split at h
      · rename_i hw
        obtain ⟨h1, h2, h3⟩ := after_ok h
        exact Or.inl ⟨p, t, rfl, ht, hw, h1, h2, h3⟩
      · simp at h
  | tick g =>
    simp only [step] at h
    split at h
    · simp at h
    · rename_i k hk
      split at h
      · rename_i hw
        obtain ⟨h1, h2, h3⟩ := after_ok h
        exact Or.inr ⟨g, k, rfl, hk, hw, h1, h2, h3⟩
      · simp at h
    · simp at h
    · simp at h
    · simp at h

/-- The address changes of station `g`. -/
abbrev changes (g : G) (ops : List (Network.Op D G E W)) : List (Nat × SatAddress) := Downlink.tracks g (ops.filterMap Network.toDown)

omit [Fintype G] [Fintype D] [Fintype E] [DecidableEq D] [DecidableEq E] in
theorem changes_snoc (g : G) (ops : List (Network.Op D G E W)) (o : Network.Op D G E W) :
    changes g (ops ++ [o]) = changes g ops ++ changes g [o] := by
  unfold changes
  rw [List.filterMap_append, Downlink.tracks_append]

omit [Fintype G] [Fintype D] [Fintype E] [DecidableEq D] [DecidableEq E] in
theorem changes_track (g g' : G) (t : Nat) (a : SatAddress) :
    changes g [(.track g' t a : Network.Op D G E W)] = if g' = g then [(t, a)] else [] := by
  unfold changes Downlink.tracks
  simp only [Network.toDown, List.filterMap_cons, List.filterMap_nil]
  split <;> simp_all

omit [Fintype G] [Fintype D] [Fintype E] [DecidableEq D] [DecidableEq E] in
theorem changes_other (g : G) {o : Network.Op D G E W} (h : ∀ t a, o ≠ .track g t a) : changes g [o] = [] := by
  cases o with
  | track g' t a =>
    rw [changes_track, if_neg]
    rintro rfl
    exact h t a rfl
  | _ => simp [changes, Downlink.tracks, Network.toDown]

omit [Fintype G] [Fintype D] [Fintype E] [DecidableEq D] [DecidableEq E] in
theorem noted_other {trk : G → Tracker.Sys T} {g : G} {o : Network.Op D G E W} (h : ∀ t a, o ≠ .track g t a) : noted trk o g = trk g := by
  cases o with
  | track g' t a =>
    simp only [noted]
    rw [Function.update_of_ne]
    rintro rfl
    exact h t a rfl
  | _ => rfl

omit [Fintype G] [Fintype D] [Fintype E] [DecidableEq D] [DecidableEq E] in
theorem noted_pending (trk : G → Tracker.Sys T) (o : Network.Op D G E W) (g : G) : (noted trk o g).pending = (trk g).pending := by
  by_cases h : ∃ t a, o = .track g t a
  · obtain ⟨t, a, rfl⟩ := h
    simp [noted]
  · rw [noted_other (fun t a e => h ⟨t, a, e⟩)]

/-- Not an assignment of the tracked address. -/
def plain : Network.Op D G E W → Bool
  | .track _ _ _ => false
  | _ => true

/-- What is done by others than the trackers. -/
def Op.net? : Op D G E W → Option (Network.Op D G E W)
  | .net o => some o
  | .tick _ => none

/-- What a run of the composition is for its parts. -/
structure Parts (net : Net D G E V W P R) (fire : G → Nat → T → Outcome (SatAddress × Option (Nat × T))) (start : G → Tracker.Sys T)
    (ops : List (Op D G E W)) (s : Sys D G E W R T) : Prop where
  net : Network.exec net s.made = some (.ok s.net)
  trk : ∀ g, ∃ kops, runFrom (Tracker.step (fire g)) (start g) kops = some (.ok (s.trk g))
  log : ∀ g, (s.trk g).log.map (fun x => (x.1, x.2.2)) = changes g s.made
  clock : ∀ g, (s.trk g).clock ≤ s.net.clock
  ahead : Waits s.trk s.net.clock
  outside : ∀ g t a, (t, false, a) ∈ (s.trk g).log → Op.net (.track g t a) ∈ ops
  calls : ∀ o, o ∈ s.made → Op.net o ∈ ops ∨ ∃ g t a, o = .track g t a ∧ (t, true, a) ∈ (s.trk g).log
  length : s.made.length = ops.length
  made : ∀ (i : Nat) o, ops[i]? = some (Op.net o) → s.made[i]? = some o
  rest : s.made.filter plain = (ops.filterMap Op.net?).filter plain

theorem insertEvent_mem {A : Type} {t : Nat} {e : A} {l : List (Nat × A)} {x : Nat × A} : x ∈ insertEvent t e l ↔ x = (t, e) ∨ x ∈ l := by
  rw [(insertEvent_perm t e l).mem_iff]
  simp

/-- **Projection.**  Every execution of the network with trackers is an execution of the network and one of each tracker; the tracked address is changed by exactly those whom
the trackers know about. -/
theorem parts (h0 : ∀ g, (start g).clock = 0) (h1 : ∀ g, (start g).log = []) {ops : List (Op D G E W)} {s : Sys D G E W R T}
    (h : exec net fire start ops = some (.ok s)) : Parts net fire start ops s := by
  refine run_induction (P := Parts net fire start) ?_ ?_ h
  · refine ⟨rfl, fun g => ⟨[], rfl⟩, fun g => ?_, fun g => ?_, fun g e _ => ?_, fun g t a ha => ?_, by simp [Sys.init], rfl, by simp, rfl⟩
    · simp [Sys.init, h1, changes, Downlink.tracks]
    · simp [Sys.init, h0]
    · exact Nat.zero_le _
    · simp [Sys.init, h1] at ha
  · rintro os o s s' _ ih hs
    rcases step_ok hs with ⟨p, t, rfl, ht, hw, hn, e1, e2⟩ | ⟨g, k, rfl, hk, hw, hn, e1, e2⟩
    · obtain ⟨c1, c2⟩ := Network.step_clock hn
      rw [ht, Option.some.injEq] at c1
      have cmono := c2.clock
      have hposs : ∀ g, Tracker.possible (s.trk g) t := fun g => ⟨(ih.clock g).trans (c1 ▸ cmono), hw g⟩
      refine ⟨?_, fun g => ?_, fun g => ?_, fun g => ?_, fun g e he => ?_, fun g u a ha => ?_, fun q hq => ?_, ?_, fun i q hq => ?_, ?_⟩
      · rw [e2]; exact runFrom_snoc.mpr ⟨_, ih.net, hn⟩
      · rw [e1]
        by_cases hp : ∃ u a, p = .track g u a
        · obtain ⟨u, a, rfl⟩ := hp
          obtain ⟨kops, hk⟩ := ih.trk g
          simp only [Network.time, Option.some.injEq] at ht
          refine ⟨kops ++ [.outside u a], runFrom_snoc.mpr ⟨_, hk, ?_⟩⟩
          simp [Tracker.step, ht, hposs g, noted]
        · rw [noted_other (fun u a e => hp ⟨u, a, e⟩)]
          exact ih.trk g
      · rw [e1, e2, changes_snoc]
        by_cases hp : ∃ u a, p = .track g u a
        · obtain ⟨u, a, rfl⟩ := hp
          rw [changes_track, if_pos rfl, ← ih.log g]
          simp [noted]
        · rw [noted_other (fun u a e => hp ⟨u, a, e⟩), changes_other g (fun u a e => hp ⟨u, a, e⟩), List.append_nil]
          exact ih.log g
      · rw [e1]
        by_cases hp : ∃ u a, p = .track g u a
        · obtain ⟨u, a, rfl⟩ := hp
          simp only [Network.time, Option.some.injEq] at ht
          simp [noted, ht, c1]
        · rw [noted_other (fun u a e => hp ⟨u, a, e⟩)]
          exact (ih.clock g).trans cmono
      · rw [e1, noted_pending] at he
        rw [← c1]
        exact hw g e he
      · rw [e1] at ha
        by_cases hp : ∃ u a, p = .track g u a
        · obtain ⟨v, b, rfl⟩ := hp
          simp only [noted, Function.update_self, List.mem_append, List.mem_singleton, Prod.mk.injEq, true_and] at ha
          rcases ha with ha | ⟨rfl, rfl⟩
          · exact List.mem_append_left _ (ih.outside g u a ha)
          · simp
        · rw [noted_other (fun u a e => hp ⟨u, a, e⟩)] at ha
          exact List.mem_append_left _ (ih.outside g u a ha)
      · rw [e2] at hq
        rcases List.mem_append.mp hq with hq | hq
        · rcases ih.calls q hq with h2 | ⟨g, u, a, rfl, h2⟩
          · exact Or.inl (List.mem_append_left _ h2)
          · refine Or.inr ⟨g, u, a, rfl, ?_⟩
            rw [e1]
            by_cases hp : ∃ u a, p = .track g u a
            · obtain ⟨v, b, rfl⟩ := hp
              simp [noted, h2]
            · rw [noted_other (fun u a e => hp ⟨u, a, e⟩)]
              exact h2
        · simp only [List.mem_singleton] at hq
          subst hq
          exact Or.inl (by simp)
      · rw [e2]; simp [ih.length]
      · rw [e2]
        by_cases hi : i < os.length
        · rw [List.getElem?_append_left hi] at hq
          rw [List.getElem?_append_left (by rw [ih.length]; exact hi)]
          exact ih.made i q hq
        · rw [List.getElem?_append_right (by omega)] at hq
          rw [List.getElem?_append_right (by rw [ih.length]; omega), ih.length]
          cases hj : i - os.length with
          | zero => rw [hj] at hq; simpa using hq
          | succ j => rw [hj] at hq; simp at hq
      · rw [e2, List.filter_append, ih.rest, List.filterMap_append, List.filter_append]
        rfl
    · obtain ⟨t, e, es, a, next, k1, k2, k3, k4, k5, k6⟩ := Tracker.step_run hk
      obtain ⟨c1, c2⟩ := Network.step_clock hn
      simp only [Network.time, Option.some.injEq] at c1
      have cmono := c2.clock
      refine ⟨?_, fun g' => ?_, fun g' => ?_, fun g' => ?_, fun g' x hx => ?_, fun g' u b hb => ?_, fun q hq => ?_, ?_, fun i q hq => ?_, ?_⟩
      · rw [e2]; exact runFrom_snoc.mpr ⟨_, ih.net, hn⟩
      · rw [e1]
        by_cases hg : g' = g
        · subst hg
          obtain ⟨kops, hk'⟩ := ih.trk g'
          rw [Function.update_self]
          exact ⟨kops ++ [.run], runFrom_snoc.mpr ⟨_, hk', hk⟩⟩
        · rw [Function.update_of_ne hg]; exact ih.trk g'
      · rw [e1, e2, changes_snoc, changes_track]
        by_cases hg : g' = g
        · subst hg
          rw [Function.update_self, if_pos rfl, k5, ← ih.log g', k3, k4]
          simp
        · rw [Function.update_of_ne hg, if_neg (fun e => hg e.symm), List.append_nil]; exact ih.log g'
      · rw [e1]
        by_cases hg : g' = g
        · subst hg
          rw [Function.update_self, c1]
        · rw [Function.update_of_ne hg]; exact (ih.clock g').trans cmono
      · rw [e1] at hx
        rw [← c1]
        by_cases hg : g' = g
        · subst hg
          rw [Function.update_self, k6] at hx
          have hes : ∀ y ∈ es, k.clock ≤ y.1 := fun y hy => hw g' y (by rw [k1]; simp [hy])
          cases next with
          | none => exact hes x hx
          | some n =>
            simp only at hx
            rcases insertEvent_mem.mp hx with rfl | hx
            · rw [k3]; exact Nat.le_add_right _ _
            · exact hes x hx
        · rw [Function.update_of_ne hg] at hx
          exact hw g' x hx
      · rw [e1] at hb
        by_cases hg : g' = g
        · subst hg
          rw [Function.update_self, k5] at hb
          simp only [List.mem_append, List.mem_singleton, Prod.mk.injEq, Bool.false_eq_true, false_and, and_false, or_false] at hb
          exact List.mem_append_left _ (ih.outside g' u b hb)
        · rw [Function.update_of_ne hg] at hb
          exact List.mem_append_left _ (ih.outside g' u b hb)
      · rw [e2] at hq
        rcases List.mem_append.mp hq with hq | hq
        · rcases ih.calls q hq with h2 | ⟨g', u, a', rfl, h2⟩
          · exact Or.inl (List.mem_append_left _ h2)
          · refine Or.inr ⟨g', u, a', rfl, ?_⟩
            rw [e1]
            by_cases hg : g' = g
            · subst hg
              rw [Function.update_self, k5]
              exact List.mem_append_left _ h2
            · rw [Function.update_of_ne hg]; exact h2
        · simp only [List.mem_singleton] at hq
          subst hq
          refine Or.inr ⟨g, _, _, rfl, ?_⟩
          rw [e1, Function.update_self, k5, k3, k4]
          simp
      · rw [e2]; simp [ih.length]
      · rw [e2]
        by_cases hi : i < os.length
        · rw [List.getElem?_append_left hi] at hq
          rw [List.getElem?_append_left (by rw [ih.length]; exact hi)]
          exact ih.made i q hq
        · rw [List.getElem?_append_right (by omega)] at hq
          cases hj : i - os.length with
          | zero => rw [hj] at hq; simp at hq
          | succ j => rw [hj] at hq; simp at hq
      · rw [e2, List.filter_append, ih.rest, List.filterMap_append, List.filter_append]
        simp [plain, Op.net?]

/-- The tracker and the device hold the same tracked address. -/
theorem tracked (h0 : ∀ g, (start g).clock = 0) (h1 : ∀ g, (start g).log = []) (h2 : ∀ g, (start g).remote = net.remote g) {ops : List (Op D G E W)}
    {s : Sys D G E W R T} (h : exec net fire start ops = some (.ok s)) (g : G) :
    (s.trk g).remote = trackedAfter (net.remote g) (Uplink.opsOf g (s.made.filterMap Network.toUp)) := by
  have hp := parts h0 h1 h
  obtain ⟨kops, hk⟩ := hp.trk g
  rw [Tracker.tracked_is_last (h1 g) hk, Network.last_tracked, show Downlink.tracks g (s.made.filterMap Network.toDown) = _ from (hp.log g).symm, h2 g]
  rw [← List.getLast?_map, List.map_map]
  rfl

/-- **One simulation of network and trackers.**  Whatever happens, the execution is one of the network alone (with the trackers' assignments as calls from outside) and one of each
tracker alone; the devices hold the addresses the trackers know of; nothing a tracker has scheduled is overdue. -/
theorem C100_parts (h0 : ∀ g, (start g).clock = 0) (h1 : ∀ g, (start g).log = []) (h2 : ∀ g, (start g).remote = net.remote g) {ops : List (Op D G E W)}
    {s : Sys D G E W R T} (h : exec net fire start ops = some (.ok s)) :
    Parts net fire start ops s ∧ ∀ g, (s.net.up.stations g).remote = (s.trk g).remote := by
  have hp := parts h0 h1 h
  refine ⟨hp, fun g => ?_⟩
  obtain ⟨r1, -, -⟩ := Network.C73_parts hp.net
  rw [tracked h0 h1 h2 h g]
  exact (stamped_exec (Uplink.C55_station r1 g)).tracked

/-! ## Periodic trackers -/

/-- Satellites on circular orbits: where they are, and a bound of their speeds relative to the Earth (in metres per second). -/
structure Moving (orbit : D → Elements) (pos : Nat → D → ℝ × ℝ × ℝ) (speed : ℝ) : Prop where
  high : ∀ d, 9 ≤ (orbit d).radius
  slow : ∀ d, (Place.sat (orbit d)).speed ≤ speed
  where_ : ∀ debug t d, (Place.sat (orbit d)).position debug t = .ok (pos t d)

/-- Each station `g`, at `q g`, has a periodic tracker with interval `iv g`. -/
noncomputable def periodicFires (net : Net D G E V W P R) (k : Constellation D) (pos : Nat → D → ℝ × ℝ × ℝ) (q : G → ℝ × ℝ × ℝ) (iv : G → Nat) (g : G) :
    Nat → Tracker.Call → Outcome (SatAddress × Option (Nat × Tracker.Call)) :=
  Tracker.periodicFire net.satAddr (fun t d => sqDistance (pos t d) (q g)) (fun _ => k) (iv g)

/-- They are initialised at time 0. -/
def periodicStart (net : Net D G E V W P R) (iv offset : G → Nat) (g : G) : Tracker.Sys Tracker.Call :=
  Tracker.periodicInit 0 (iv g) (offset g) (net.remote g)

omit [Fintype G] [Fintype D] [Fintype E] [DecidableEq G] [DecidableEq D] [DecidableEq E] in
theorem periodicStart_facts (iv offset : G → Nat) (g : G) :
    (periodicStart net iv offset g).clock = 0 ∧ (periodicStart net iv offset g).log = [] ∧ (periodicStart net iv offset g).remote = net.remote g := by
  unfold periodicStart Tracker.periodicInit
  split <;> exact ⟨rfl, rfl, rfl⟩

variable {e : Endian} {hasOrbit : D → Bool} {cid n m : Nat} {hist : List (Nat × Nat × D)} {as : List SatAddress} {k : Constellation D}
  {orbit : D → Elements} {pos : Nat → D → ℝ × ℝ × ℝ} {speed : ℝ} {q : G → ℝ × ℝ × ℝ} {iv offset : G → Nat}

/-- No other satellite is much nearer to `g` at time `t`: what can be gained is less than what two satellites can move in one interval. -/
def Near (hist : List (Nat × Nat × D)) (pos : Nat → D → ℝ × ℝ × ℝ) (speed : ℝ) (q : ℝ × ℝ × ℝ) (interval t : Nat) (d : D) : Prop :=
  ∀ d' ∈ hist.map (·.2.2), distance (pos t d) q ≤ distance (pos t d') q + 2 * speed * ((interval : ℝ) / 10 ^ 9)

/-- What a station with a periodic tracker tracks at any instant after the start of the simulation. -/
theorem tracked_near (hb : Built e hasOrbit cid n m hist as k) (hm : Moving orbit pos speed) {g : G} (hi : 0 < iv g) (ho : offset g ≤ iv g)
    {ops : List (Op D G E W)} {s : Sys D G E W R Tracker.Call}
    (h : exec net (periodicFires net k pos q iv) (periodicStart net iv offset) ops = some (.ok s)) (hno : ∀ t a, .net (.track g t a) ∉ ops)
    {τ : Nat} (h0 : 0 < τ) (h1 : s.net.clock ≤ τ) (h2 : Waits s.trk τ) :
    ∃ d ∈ hist.map (·.2.2), (s.trk g).remote = net.satAddr d ∧ Near hist pos speed (q g) (iv g) τ d := by
  have hp := parts (fun g => (periodicStart_facts iv offset g).1) (fun g => (periodicStart_facts iv offset g).2.1) h
  obtain ⟨kops, hk⟩ := hp.trk g
  have hposs : Tracker.possible (s.trk g) τ := ⟨(hp.clock g).trans h1, h2 g⟩
  have hlast : ∃ t a, (s.trk g).log.getLast? = some (t, true, a) := by
    rcases List.eq_nil_or_concat (s.trk g).log with hnil | ⟨l, ⟨t, b, a⟩, hb⟩
    · obtain ⟨h3, -⟩ := Tracker.periodic_inv hi hk
      have : (Tracker.updates (s.trk g)).length = 0 := by simp [Tracker.updates, hnil]
      rw [this] at h3
      have := h2 g (0, .once) (by rw [h3]; simp [Tracker.scheduled])
      simp only at this
      omega
    · rw [List.concat_eq_append] at hb
      cases b with
      | true => exact ⟨t, a, by rw [hb]; simp⟩
      | false => exact absurd (hp.outside g t a (by rw [hb]; simp)) (hno t a)
  obtain ⟨t, a, hlast⟩ := hlast
  obtain ⟨-, -, d, hd, hr, hn⟩ := Orbit.C89_nearly_nearest (fun _ => hb) true orbit hm.high hm.slow pos (hm.where_ true) (q g) hi ho hk hlast hposs
  exact ⟨d, hd, hr, hn⟩

/-- **Packets go to a near satellite.**  Stations have periodic trackers.  Whatever else happens in the network, every packet that is given to a station after the start
of the simulation is addressed to a satellite such that no other one is nearer to the station by more than two satellites can move in one interval. -/
theorem C100_nearest (hb : Built e hasOrbit cid n m hist as k) (hm : Moving orbit pos speed) {g : G} (hi : 0 < iv g) (ho : offset g ≤ iv g)
    {ops : List (Op D G E W)} {s : Sys D G E W R Tracker.Call}
    (h : exec net (periodicFires net k pos q iv) (periodicStart net iv offset) ops = some (.ok s)) (hno : ∀ t a, .net (.track g t a) ∉ ops) :
    ∀ y ∈ requests (net.remote g) (net.power g) (Uplink.opsOf g (s.made.filterMap Network.toUp)), 0 < y.1 →
      ∃ d ∈ hist.map (·.2.2), y.2.dst = net.satAddr d ∧ Near hist pos speed (q g) (iv g) y.1 d := by
  refine run_induction (P := fun ops s => (∀ t a, .net (.track g t a) ∉ ops) →
    ∀ y ∈ requests (net.remote g) (net.power g) (Uplink.opsOf g (s.made.filterMap Network.toUp)), 0 < y.1 →
      ∃ d ∈ hist.map (·.2.2), y.2.dst = net.satAddr d ∧ Near hist pos speed (q g) (iv g) y.1 d) ?_ ?_ h hno
  · simp [Sys.init, Uplink.opsOf, requests]
  · intro os o s s' hx ih hs hno y hy
    have hno' : ∀ t a, .net (.track g t a) ∉ os := fun t a hta => hno t a (List.mem_append_left _ hta)
    have other : ∀ p : Network.Op D G E W, s'.made = s.made ++ [p] → (∀ t pkt len pr, p ≠ .send g t pkt len pr) →
        y ∈ requests (net.remote g) (net.power g) (Uplink.opsOf g (s.made.filterMap Network.toUp)) := by
      intro p hp hne
      rw [hp, List.filterMap_append, Uplink.opsOf_append, requests_append] at hy
      rcases List.mem_append.mp hy with hy | hy
      · exact hy
      · exfalso
        cases p with
        | send g' t pkt len pr =>
          by_cases hg : g' = g
          · exact hne t pkt len pr (by rw [hg])
          · simp [Network.toUp, Uplink.opsOf, requests, hg] at hy
        | setPower g' t v => by_cases hg : g' = g <;> simp [Network.toUp, Uplink.opsOf, requests, hg] at hy
        | track g' t v => by_cases hg : g' = g <;> simp [Network.toUp, Uplink.opsOf, requests, hg] at hy
        | run g' => by_cases hg : g' = g <;> simp [Network.toUp, Uplink.opsOf, requests, hg] at hy
        | _ => exact absurd hy List.not_mem_nil
    rcases step_ok hs with ⟨p, t, rfl, ht, hw, hn, e1, e2⟩ | ⟨g', k', rfl, hk, hw, hn, e1, e2⟩
    · by_cases hp : ∃ u pkt len pr, p = .send g u pkt len pr
      · obtain ⟨u, pkt, len, pr, rfl⟩ := hp
        simp only [Network.time, Option.some.injEq] at ht
        subst ht
        rw [e2, List.filterMap_append, Uplink.opsOf_append, requests_append] at hy
        rcases List.mem_append.mp hy with hy | hy
        · exact ih hno' y hy
        · simp only [Network.toUp, List.filterMap_cons, List.filterMap_nil, Uplink.opsOf, if_true, requests, List.mem_singleton] at hy
          subst hy
          intro h0
          obtain ⟨c1, c2⟩ := Network.step_clock hn
          simp only [Network.time, Option.some.injEq] at c1
          obtain ⟨d, hd, hr, hn⟩ := tracked_near hb hm hi ho hx hno' h0 (by rw [c1]; exact c2.clock) hw
          refine ⟨d, hd, ?_, hn⟩
          rw [← hr, tracked (fun g => (periodicStart_facts iv offset g).1) (fun g => (periodicStart_facts iv offset g).2.1)
            (fun g => (periodicStart_facts iv offset g).2.2) hx g]
          rfl
      · exact ih hno' y (other p e2 (fun u pkt len pr e => hp ⟨u, pkt, len, pr, e⟩))
    · exact ih hno' y (other _ e2 (fun _ _ _ _ e => by simp at e))

/-! ## Delivery -/

/-- Satellite devices know the addresses they were launched with. -/
def Named (net : Net D G E V W P R) (hist : List (Nat × Nat × D)) (as : List SatAddress) : Prop := ∀ y ∈ as.zip hist, net.satAddr y.2.2.2 = y.1

omit [Fintype G] [Fintype D] [Fintype E] [DecidableEq G] [DecidableEq D] [DecidableEq E] in
theorem Named.target (hn : Named net hist as) (hb : Built e hasOrbit cid n m hist as k) (hfit : Fits16 cid n m) {d : D} (hd : d ∈ hist.map (·.2.2)) :
    Uplink.target hist as (net.satAddr d) = some d := by
  obtain ⟨h1, h2⟩ := C03_addresses_distinct hb hfit
  obtain ⟨y, hy, rfl⟩ := List.mem_map.mp hd
  obtain ⟨i, hi⟩ := List.getElem?_of_mem hy
  obtain ⟨hlt, -⟩ := List.getElem?_eq_some_iff.mp hi
  have hz : (as.zip hist)[i]? = some (as[i]'(by omega), y) := List.getElem?_zip_eq_some.mpr ⟨List.getElem?_eq_getElem _, hi⟩
  have ha := hn _ (List.mem_of_getElem? hz)
  simp only at ha
  cases hf : Uplink.target hist as (net.satAddr y.2.2) with
  | none =>
    unfold Uplink.target at hf
    rw [Option.map_eq_none_iff, List.find?_eq_none] at hf
    exact absurd (by simp [ha]) (hf _ (List.mem_of_getElem? hz))
  | some d' =>
    obtain ⟨j, p, o, j1, j2⟩ := Uplink.target_some hf
    obtain ⟨hj, j2⟩ := List.getElem?_eq_some_iff.mp j2
    have : j = i := (h2.getElem_inj_iff (hi := hj) (hj := by omega)).mp (by rw [j2, ha])
    rw [this, hi, Option.some.injEq] at j1
    rw [j1]

/-- Every address assigned by a tracker is that of a launched satellite. -/
theorem launched (hn : Named net hist as) (hb : Built e hasOrbit cid n m hist as k) (hfit : Fits16 cid n m) (hi : ∀ g, 0 < iv g)
    {ops : List (Op D G E W)} {s : Sys D G E W R Tracker.Call}
    (h : exec net (periodicFires net k pos q iv) (periodicStart net iv offset) ops = some (.ok s)) (h0 : ∀ g, (Uplink.target hist as (net.remote g)).isSome)
    (hout : ∀ g t a, .net (.track g t a) ∈ ops → (Uplink.target hist as a).isSome) : Launched net hist as s.made := by
  have hp := parts (fun g => (periodicStart_facts iv offset g).1) (fun g => (periodicStart_facts iv offset g).2.1) h
  refine ⟨h0, fun g t a ha => ?_⟩
  rcases hp.calls _ ha with h1 | ⟨g', t', a', e1, h1⟩
  · exact hout g t a h1
  · simp only [Network.Op.track.injEq] at e1
    obtain ⟨rfl, rfl, rfl⟩ := e1
    obtain ⟨kops, hk⟩ := hp.trk g
    obtain ⟨h2, -⟩ := Tracker.C42_nearest (fun _ => hb) pos (fun _ => q g) (hi g) hk
    obtain ⟨d, hd, rfl, -⟩ := h2 t a (by
      unfold Tracker.updates
      exact List.mem_map.mpr ⟨_, List.mem_filter.mpr ⟨h1, rfl⟩, rfl⟩)
    rw [hn.target hb hfit hd]
    rfl

omit [Fintype G] [Fintype D] [Fintype E] [DecidableEq G] [DecidableEq D] [DecidableEq E] in
/-- How far a satellite can get. -/
theorem Moving.reach (hm : Moving orbit pos speed) (d : D) (q : ℝ × ℝ × ℝ) {t u c : Nat} (h1 : t ≤ u) (h2 : u ≤ t + c) :
    distance (pos u d) q ≤ distance (pos t d) q + speed * ((c : ℝ) / 10 ^ 9) := by
  obtain ⟨p1, p2, e1, e2, hd⟩ := Orbit.C89_speed true (.sat (orbit d)) (hm.high d) u t
  rw [hm.where_, Outcome.ok.injEq] at e1 e2
  subst e1 e2
  have h3 := Orbit.distance_triangle (pos u d) (pos t d) q
  have hv0 : 0 ≤ (Place.sat (orbit d)).speed := by
    have := hm.high d
    simp only [Place.speed]
    have : 0 ≤ (orbit d).radius - 9 := by linarith
    positivity
  have h5 : |(u : ℝ) - t| ≤ c := by
    have b1 : (t : ℝ) ≤ u := by exact_mod_cast h1
    have b2 : (u : ℝ) ≤ t + c := by exact_mod_cast h2
    rw [abs_of_nonneg (by linarith)]
    linarith
  have h6 := hm.slow d
  have : (Place.sat (orbit d)).speed * |(u : ℝ) - t| / 10 ^ 9 ≤ speed * ((c : ℝ) / 10 ^ 9) := by
    calc _ ≤ speed * c / 10 ^ 9 := by gcongr; exact hv0.trans h6
      _ = _ := by ring
  linarith

end

/-- **Coverage is enough.**  Satellites without collisions; stations with periodic trackers; links within distance `range` of a station are open.  If at the time a packet is
accepted some satellite, near or far from being the tracked one, is within `range` minus the distance of two satellites in one tracking interval and one during the longest stay of a packet in the
device, the packet is passed up by a satellite before the deadline, whatever else happens in the network. -/
theorem C100_covered [Fintype G] [Fintype D] [Fintype E] [DecidableEq G] [DecidableEq D] [DecidableEq E] {net : Net D G E V W P (NoneMac.Sys P)}
    {w : World D G E W} {peer : E → E} {hist : List (Nat × Nat × D)} {as : List SatAddress} {k : Constellation D} {orbit : D → Elements} {pos : Nat → D → ℝ × ℝ × ℝ}
    {speed : ℝ} {q : G → ℝ × ℝ × ℝ} {iv offset : G → Nat} {hasOrbit : D → Bool} {cid n m : Nat}
    (hrx : net.rx = Uplink.noneReceiver P) (hs : Setup net w peer hist as) {B L C M : Nat} (hlim : Network.Limits net w peer B L C M)
    (hb : Built net.endian hasOrbit cid n m hist as k) (hfit : Fits16 cid n m) (hn : Named net hist as) (hm : Moving orbit pos speed)
    (hi : ∀ g, 0 < iv g) (ho : ∀ g, offset g ≤ iv g) {ops : List (Op D G E W)} {s : Sys D G E W (NoneMac.Sys P) Tracker.Call}
    (h : exec net (periodicFires net k pos q iv) (periodicStart net iv offset) ops = some (.ok s)) (h0 : ∀ g, (Uplink.target hist as (net.remote g)).isSome)
    (hno : ∀ g t a, .net (.track g t a) ∉ ops) (hsh : ∀ o, .net o ∈ ops → ∀ len ∈ Network.lasts o, len ≤ L)
    {g : G} {range : ℝ} (hreach : ∀ u d, distance (pos u d) (q g) ≤ range → w.ground.admit u g d = true)
    {a : Nat} {x : GroundSta.Entry W} (hacc : (a, x) ∈ (s.net.up.stations g).accepted) (ha : 0 < a)
    (hcov : ∃ d ∈ hist.map (·.2.2), distance (pos a d) (q g) + 2 * speed * ((iv g : ℝ) / 10 ^ 9) + speed * (((C + (B + L) + B : Nat) : ℝ) / 10 ^ 9) ≤ range)
    {now : Nat} (hnow : Network.due net s.net now) (hlate : a + Network.deadline B L C M < now) :
    ∃ d ∈ hist.map (·.2.2), x.dst = net.satAddr d ∧ Near hist pos speed (q g) (iv g) a d ∧
      ∃ t, Network.FromGround net s.net d t x.pkt ∧ a ≤ t ∧ t ≤ a + Network.deadline B L C M := by
  have hp := parts (fun g => (periodicStart_facts iv offset g).1) (fun g => (periodicStart_facts iv offset g).2.1) h
  obtain ⟨r1, -, -⟩ := Network.C73_parts hp.net
  have hst := Uplink.C55_station r1 g
  obtain ⟨d, hd, hdst, hnear⟩ := C100_nearest hb hm (hi g) (ho g) h (hno g) (a, x) ((C34_accepted_or_dropped hst).2.subset hacc) ha
  refine ⟨d, hd, hdst, hnear, ?_⟩
  obtain ⟨dc, hdc, hcov⟩ := hcov
  have hl : Launched net hist as s.made := launched hn hb hfit hi h h0 (fun g t a ha => absurd ha (hno g t a))
  have hshort : Network.Short s.made L := by
    intro o ho' len hlen
    rcases hp.calls o ho' with h1 | ⟨g', t', a', rfl, -⟩
    · exact hsh o h1 len hlen
    · simp [Network.lasts] at hlen
  refine Network.up_delivered hrx hs hlim hl hshort hp.net hacc (by simp only at hdst; rw [hdst]; exact hn.target hb hfit hd) (fun u u1 u2 => hreach u d ?_) hnow.1 hlate
  have h3 := hm.reach d (q g) (c := C + (B + L) + B) u1 (by omega)
  have h4 := hnear dc hdc
  simp only at h4
  linarith

/-! ## Every traffic can be simulated up to any time -/

section
variable [Fintype G] [Fintype D] [Fintype E] [DecidableEq G] [DecidableEq D] [DecidableEq E]
  {net : Net D G E V W P R} {fire : G → Nat → T → Outcome (SatAddress × Option (Nat × T))} {start : G → Tracker.Sys T}
  {w : World D G E W} {peer : E → E} {hist : List (Nat × Nat × D)} {as : List SatAddress} {clock : R → Nat} {K : Nat}

/-- Trackers that never fail, track launched satellites, and wait before they look again. -/
structure Sane (hist : List (Nat × Nat × D)) (as : List SatAddress) (fire : G → Nat → T → Outcome (SatAddress × Option (Nat × T))) : Prop where
  fine : ∀ g t c, ∃ a next, fire g t c = .ok (a, next) ∧ (Uplink.target hist as a).isSome ∧ ∀ delay c', next = some (delay, c') → 0 < delay

/-- Scheduled events, as opposed to calls from outside. -/
def Op.internal : Op D G E W → Bool
  | .net o => o.internal
  | .tick _ => true

omit [Fintype G] [Fintype D] [Fintype E] [DecidableEq G] [DecidableEq D] [DecidableEq E] in
theorem Op.internal_net (o : Network.Op D G E W) : (Op.net o : Op D G E W).internal = o.internal := rfl

/-- How many more calls of a tracker can be due before `t`. -/
def left (t : Nat) (k : Tracker.Sys T) : Nat := (k.pending.map (fun x => t - x.1)).sum

theorem track_work {s s' : Network.Sys D G E W R} {g : G} {t : Nat} {a : SatAddress} (h : Network.step net s (.track g t a) = some (.ok s')) :
    Network.work net K s' = Network.work net K s := by
  obtain ⟨u, -, -, -, -, p1, p2, p3⟩ := Network.step_ok h
  simp only [Network.toUp, Network.toDown, Network.toIsl, Network.part, Option.some.injEq, Outcome.ok.injEq] at p1 p2 p3
  obtain ⟨u, st, l, -, -, h3, h4, e1⟩ := Uplink.step_station p1
  obtain ⟨st', -, h5, e2⟩ := Downlink.step_track p2
  simp only [GroundSta.step] at h3
  split at h3
  · simp only [Option.some.injEq, Outcome.ok.injEq] at h3
    simp only [GroundStaRx.step] at h5
    split at h5
    · simp only [Option.some.injEq, Outcome.ok.injEq] at h5
      have h6 := sum_update_nat (Uplink.staWork K) s.up.stations g st
      have h7 := sum_update_nat (fun s : GroundStaRx.Sys => s.pending.length) s.down.stations g st'
      have h8 : Uplink.staWork K st = Uplink.staWork K (s.up.stations g) := by rw [← h3]; rfl
      have h9 : st'.pending.length = (s.down.stations g).pending.length := by rw [← h5]
      have hl : l = (s.up.flying, s.up.dropped) := by
        rw [← h3] at h4
        simp only [List.drop_length, Uplink.transmitAll, Outcome.ok.injEq] at h4
        exact h4.symm
      unfold Network.work
      rw [← p3, e1, e2, hl]
      simp only [Uplink.work, Downlink.work]
      omega
    · simp at h5
  · simp at h3

/-- What holds at every moment of a simulation that has not got beyond `t`. -/
structure Fine (net : Net D G E V W P R) (fire : G → Nat → T → Outcome (SatAddress × Option (Nat × T))) (start : G → Tracker.Sys T)
    (hist : List (Nat × Nat × D)) (as : List SatAddress) (ops : List (Op D G E W)) (s : Sys D G E W R T) : Prop where
  run : exec net fire start ops = some (.ok s)
  launched : Launched net hist as s.made
  sorted : ∀ g, (s.trk g).pending.Pairwise (fun a b => a.1 ≤ b.1)

omit [Fintype G] [Fintype D] [Fintype E] [DecidableEq G] [DecidableEq D] [DecidableEq E] in
theorem Launched.snoc {os : List (Network.Op D G E W)} {o : Network.Op D G E W} (h : Launched net hist as os)
    (ho : ∀ g t a, o = .track g t a → (Uplink.target hist as a).isSome) : Launched net hist as (os ++ [o]) := by
  refine ⟨h.1, fun g t a ha => ?_⟩
  rcases List.mem_append.mp ha with ha | ha
  · exact h.2 g t a ha
  · exact ho g t a (List.mem_singleton.mp ha).symm

variable (h0 : ∀ g, (start g).clock = 0) (h1 : ∀ g, (start g).log = []) (hr : Network.Runnable net w peer hist as clock K) (hsane : Sane hist as fire)
include h0 h1 hr

/-- A step of the network in the composition. -/
theorem net_step {ops : List (Op D G E W)} {s : Sys D G E W R T} (hf : Fine net fire start hist as ops s) {o : Network.Op D G E W} {r : Outcome (Network.Sys D G E W R)}
    (hst : Network.step net s.net o = some r) (ho : ∀ g t a, o = .track g t a → (Uplink.target hist as a).isSome)
    (hw : ∀ t, Network.time net s.net o = some t → Waits s.trk t) :
    ∃ s', step net fire s (.net o) = some (.ok s') ∧ Fine net fire start hist as (ops ++ [.net o]) s' ∧ r = .ok s'.net ∧
      ∀ g, (s'.trk g).pending = (s.trk g).pending := by
  have hp := parts h0 h1 hf.run
  have hl := Launched.snoc hf.launched ho
  have hsnoc : Network.exec net (s.made ++ [o]) = some r := by
    unfold Network.exec
    rw [runFrom_append, show runFrom _ _ s.made = _ from hp.net]
    simp only [runFrom, hst]
    cases r <;> rfl
  obtain ⟨n', rfl⟩ := Network.C73_safe hr.setup hr.safe hl hsnoc
  obtain ⟨c1, -⟩ := Network.step_clock hst
  have hstep : step net fire s (.net o) = some (.ok ⟨n', noted s.trk o, s.made ++ [o]⟩) := by
    simp only [step, c1, if_pos (hw _ c1), after, hst]
    rfl
  refine ⟨_, hstep, ⟨runFrom_snoc.mpr ⟨_, hf.run, hstep⟩, hl, fun g => ?_⟩, rfl, fun g => noted_pending _ _ _⟩
  simp only [noted_pending]
  exact hf.sorted g

include hsane in
/-- A call of a tracker. -/
theorem tick_step {ops : List (Op D G E W)} {s : Sys D G E W R T} (hf : Fine net fire start hist as ops s) {g : G} {t : Nat} {c : T} {rest : List (Nat × T)}
    (hpend : (s.trk g).pending = (t, c) :: rest) (hw : Waits s.trk t) (hd : Network.due net s.net t) :
    ∃ s', step net fire s (.tick g) = some (.ok s') ∧ Fine net fire start hist as (ops ++ [.tick g]) s' ∧ s'.net.clock = t ∧
      Network.work net K s'.net = Network.work net K s.net ∧ (∀ g', g' ≠ g → s'.trk g' = s.trk g') ∧
      ((s'.trk g).pending = rest ∨ ∃ delay c', 0 < delay ∧ (s'.trk g).pending = insertEvent (t + delay) c' rest) := by
  have hp := parts h0 h1 hf.run
  obtain ⟨a, next, f1, f2, f3⟩ := hsane.fine g t c
  obtain ⟨k, hk⟩ : ∃ k, Tracker.step (fire g) (s.trk g) .run = some (.ok k) := by
    simp only [Tracker.step, hpend, f1, Outcome.bind_ok]
    exact ⟨_, rfl⟩
  obtain ⟨t', c', es, a', next', k1, k2, k3, k4, k5, k6⟩ := Tracker.step_run hk
  rw [hpend, List.cons.injEq, Prod.mk.injEq] at k1
  obtain ⟨⟨rfl, rfl⟩, rfl⟩ := k1
  rw [f1, Outcome.ok.injEq, Prod.mk.injEq] at k2
  obtain ⟨rfl, rfl⟩ := k2
  have hl : Launched net hist as (s.made ++ [.track g t a]) := Launched.snoc hf.launched (fun g' t' a' e => by
    simp only [Network.Op.track.injEq] at e
    rw [← e.2.2]; exact f2)
  obtain ⟨r, hst⟩ := (Network.runs hr).call _ _ (.track g t a) hf.launched hp.net rfl hd
  have hsnoc : Network.exec net (s.made ++ [.track g t a]) = some r := by
    unfold Network.exec
    rw [runFrom_append, show runFrom _ _ s.made = _ from hp.net]
    simp only [runFrom, hst]
    cases r <;> rfl
  obtain ⟨n', rfl⟩ := Network.C73_safe hr.setup hr.safe hl hsnoc
  have hstep : step net fire s (.tick g) = some (.ok ⟨n', Function.update s.trk g k, s.made ++ [.track g t a]⟩) := by
    simp only [step, hk, k3, k4, if_pos hw, after, hst]
    rfl
  obtain ⟨c1, -⟩ := Network.step_clock hst
  simp only [Network.time, Option.some.injEq] at c1
  have hsort : rest.Pairwise (fun a b => a.1 ≤ b.1) := by
    have := hf.sorted g
    rw [hpend] at this
    exact this.of_cons
  refine ⟨_, hstep, ⟨runFrom_snoc.mpr ⟨_, hf.run, hstep⟩, hl, fun g' => ?_⟩, c1.symm, track_work hst, fun g' hg => Function.update_of_ne hg _ _, ?_⟩
  · by_cases hg : g' = g
    · subst hg
      simp only [Function.update_self, k6]
      cases next with
      | none => exact hsort
      | some x => exact sorted_insertEvent hsort
    · simp only [Function.update_of_ne hg]
      exact hf.sorted g'
  · simp only [Function.update_self, k6]
    cases next with
    | none => exact Or.inl rfl
    | some x => exact Or.inr ⟨x.1, x.2, f3 _ _ rfl, rfl⟩

include hsane in
/-- Events run until nothing is due before `t`. -/
theorem advance {ops : List (Op D G E W)} {s : Sys D G E W R T} (hf : Fine net fire start hist as ops s) {t : Nat} (ht : s.net.clock ≤ t) :
    ∃ more s', (∀ o ∈ more, o.internal = true) ∧ Fine net fire start hist as (ops ++ more) s' ∧ s'.net.clock ≤ t ∧ Network.due net s'.net t ∧ Waits s'.trk t := by
  classical
  induction hμ : Network.work net K s.net + ∑ g, left t (s.trk g) using Nat.strong_induction_on generalizing ops s with
  | _ μ ih =>
    have hp := parts h0 h1 hf.run
    have hruns := Network.runs hr
    -- one more event
    have more : ∀ o s1, o.internal = true → step net fire s o = some (.ok s1) → Fine net fire start hist as (ops ++ [o]) s1 → s1.net.clock ≤ t →
        Network.work net K s1.net + ∑ g, left t (s1.trk g) < μ →
        ∃ more s', (∀ o ∈ more, o.internal = true) ∧ Fine net fire start hist as (ops ++ more) s' ∧ s'.net.clock ≤ t ∧ Network.due net s'.net t ∧ Waits s'.trk t := by
      intro o s1 hi hst hf1 hc hless
      obtain ⟨more, s', m1, m2, m3⟩ := ih _ hless hf1 hc rfl
      refine ⟨o :: more, s', ?_, ?_, m3⟩
      · intro x hx
        rcases List.mem_cons.mp hx with rfl | hx
        · exact hi
        · exact m1 x hx
      · rw [List.append_assoc, List.singleton_append] at m2
        exact m2
    -- an event of the network at most at `u`, before which no tracker does anything
    have event : ∀ u, u ≤ t → s.net.clock ≤ u → Waits s.trk u → ¬ Network.due net s.net u →
        ∃ more s', (∀ o ∈ more, o.internal = true) ∧ Fine net fire start hist as (ops ++ more) s' ∧ s'.net.clock ≤ t ∧ Network.due net s'.net t ∧ Waits s'.trk t := by
      intro u hu hc hw hnd
      obtain ⟨l1, l2⟩ := hruns.late s.net u hc hnd
      obtain ⟨o, ho, r, hst⟩ := Network.progress hr hf.launched hp.net l1
      have hno : ∀ g v a, o = .track g v a → (Uplink.target hist as a).isSome := by
        rintro g v a rfl
        simp [Network.Op.internal] at ho
      have hok : ∃ n', r = .ok n' := by
        have hsnoc : Network.exec net (s.made ++ [o]) = some r := by
          unfold Network.exec
          rw [runFrom_append, show runFrom _ _ s.made = _ from hp.net]
          simp only [runFrom, hst]
          cases r <;> rfl
        exact Network.C73_safe hr.setup hr.safe (Launched.snoc hf.launched hno) hsnoc
      obtain ⟨n', rfl⟩ := hok
      obtain ⟨c1, c2⟩ := Network.step_clock hst
      have hle := l2 _ c2
      obtain ⟨s1, s2, s3, s4, s5⟩ := net_step h0 h1 hr hf hst hno (fun v hv => by
        rw [c1, Option.some.injEq] at hv
        subst hv
        exact fun g e he => hle.trans (hw g e he))
      simp only [Outcome.ok.injEq] at s4
      subst s4
      refine more (.net o) s1 ho s2 s3 (hle.trans hu) ?_
      have hless := Network.step_work hr ho hst
      have hsame : ∑ g, left t (s1.trk g) = ∑ g, left t (s.trk g) := Finset.sum_congr rfl (fun g _ => by unfold left; rw [s5 g])
      omega
    by_cases hw : Waits s.trk t
    · by_cases hd : Network.due net s.net t
      · exact ⟨[], s, by simp, by simpa using hf, ht, hd, hw⟩
      · exact event t le_rfl ht hw hd
    · -- the earliest call of a tracker
      have hex : ∃ u, ∃ g, ∃ e ∈ (s.trk g).pending, e.1 = u := by
        unfold Waits at hw
        push Not at hw
        obtain ⟨g, e, he, -⟩ := hw
        exact ⟨_, g, e, he, rfl⟩
      obtain ⟨g, e, he, hu⟩ := Nat.find_spec hex
      have hmin : Waits s.trk (Nat.find hex) := fun g' e' he' => Nat.find_min' hex ⟨g', e', he', rfl⟩
      have hlt : Nat.find hex < t := by
        by_contra hcon
        exact hw (fun g' e' he' => (not_lt.mp hcon).trans (hmin g' e' he'))
      by_cases hd : Network.due net s.net (Nat.find hex)
      · cases hpend : (s.trk g).pending with
        | nil => rw [hpend] at he; simp at he
        | cons x rest =>
          obtain ⟨v, c⟩ := x
          have hv : v = Nat.find hex := by
            apply le_antisymm
            · rw [← hu]
              rw [hpend] at he
              rcases List.mem_cons.mp he with rfl | he
              · exact le_rfl
              · have := hf.sorted g
                rw [hpend, List.pairwise_cons] at this
                exact this.1 e he
            · exact hmin g (v, c) (by rw [hpend]; simp)
          rw [← hv] at hmin hlt hd
          obtain ⟨s1, t1, t2, t3, t4, t5, t6⟩ := tick_step h0 h1 hr hsane hf hpend hmin hd
          refine more (.tick g) s1 rfl t1 t2 (by omega) ?_
          have hsum := sum_update_nat (left t) s.trk g (s1.trk g)
          have hfun : s1.trk = Function.update s.trk g (s1.trk g) := by
            funext g'
            by_cases hg : g' = g
            · subst hg; rw [Function.update_self]
            · rw [Function.update_of_ne hg, t5 g' hg]
          rw [← hfun] at hsum
          have hl1 : left t (s.trk g) = (t - v) + (rest.map (fun x => t - x.1)).sum := by unfold left; rw [hpend]; simp
          have hl2 : left t (s1.trk g) < left t (s.trk g) := by
            rw [hl1]
            unfold left
            rcases t6 with t6 | ⟨delay, c', d1, t6⟩
            · rw [t6]; omega
            · rw [t6, ((insertEvent_perm (v + delay) c' rest).map _).sum_eq, List.map_cons, List.sum_cons]
              omega
          omega
      · exact event _ hlt.le ((hp.ahead g e he).trans hu.le) hmin hd

include hsane in
/-- **Simulations.**  Every sequence of calls from outside in the order of their times, up to `until_`, is carried out by some execution, with all that trackers and devices do up to then. -/
theorem C100_runs (hsorted : ∀ g, (start g).pending.Pairwise (fun a b => a.1 ≤ b.1)) {calls : List (Network.Op D G E W)} (hl : Launched net hist as calls)
    (hext : ∀ o ∈ calls, o.internal = false) (hord : calls.Pairwise (fun a b => a.when ≤ b.when)) {until_ : Nat} (hu : ∀ o ∈ calls, o.when ≤ until_) :
    ∃ ops s, exec net fire start ops = some (.ok s) ∧ ops.filter (fun o => !o.internal) = calls.map Op.net ∧ Launched net hist as s.made ∧ s.net.clock ≤ until_ ∧
      Network.due net s.net until_ ∧ Waits s.trk until_ := by
  have hint : ∀ more : List (Op D G E W), (∀ o ∈ more, o.internal = true) → more.filter (fun o => !o.internal) = [] := by
    intro more h
    rw [List.filter_eq_nil_iff]
    intro o ho
    simp [h o ho]
  have key : ∃ ops s, Fine net fire start hist as ops s ∧ ops.filter (fun o => !o.internal) = calls.map Op.net ∧ ∀ t, (∀ o ∈ calls, o.when ≤ t) → s.net.clock ≤ t := by
    clear hu
    induction calls using List.reverseRecOn with
    | nil => exact ⟨[], Sys.init net start, ⟨rfl, ⟨hl.1, by simp [Sys.init]⟩, hsorted⟩, rfl, fun t _ => Nat.zero_le _⟩
    | append_singleton cs o ih =>
      rw [List.pairwise_append] at hord
      obtain ⟨ops, s, k1, k2, k3⟩ := ih hl.left (fun o ho => hext o (by simp [ho])) hord.1
      obtain ⟨more, s', m1, m2, m3, m4, m5⟩ := advance h0 h1 hr hsane k1 (k3 o.when (fun c hc => hord.2.2 c hc o (by simp)))
      have ho : o.internal = false := hext o (by simp)
      obtain ⟨r, hst⟩ := (Network.runs hr).call _ _ o m2.launched (parts h0 h1 m2.run).net ho m4
      have hno : ∀ g v a, o = .track g v a → (Uplink.target hist as a).isSome := fun g v a e => hl.2 g v a (by rw [e]; simp)
      have hok : ∃ n', r = .ok n' := by
        have hsnoc : Network.exec net (s'.made ++ [o]) = some r := by
          unfold Network.exec
          rw [runFrom_append, show runFrom _ _ s'.made = _ from (parts h0 h1 m2.run).net]
          simp only [runFrom, hst]
          cases r <;> rfl
        exact Network.C73_safe hr.setup hr.safe (Launched.snoc m2.launched hno) hsnoc
      obtain ⟨n', rfl⟩ := hok
      have hc := (Network.runs hr).then_ _ _ _ ho hst
      obtain ⟨s1, s2, s3, s4, s5⟩ := net_step h0 h1 hr m2 hst hno (fun v hv => by
        obtain ⟨c1, -⟩ := Network.step_clock hst
        rw [c1, Option.some.injEq, hc] at hv
        rw [← hv]; exact m5)
      simp only [Outcome.ok.injEq] at s4
      subst s4
      refine ⟨_, s1, s3, ?_, fun t ht => by rw [hc]; exact ht o (by simp)⟩
      rw [List.filter_append, List.filter_append, hint more m1, List.append_nil, k2, List.map_append]
      simp [Op.internal_net, ho]
  obtain ⟨ops, s, k1, k2, k3⟩ := key
  obtain ⟨more, s', m1, m2, m3, m4, m5⟩ := advance h0 h1 hr hsane k1 (k3 _ hu)
  refine ⟨_, s', m2.run, ?_, m2.launched, m3, m4, m5⟩
  rw [List.filter_append, hint more m1, List.append_nil, k2]

end

section
variable [Fintype G] [Fintype D] [Fintype E] [DecidableEq G] [DecidableEq D] [DecidableEq E]
  {hist : List (Nat × Nat × D)} {as : List SatAddress} {k : Constellation D} {orbit : D → Elements} {pos : Nat → D → ℝ × ℝ × ℝ}
  {speed : ℝ} {q : G → ℝ × ℝ × ℝ} {iv offset : G → Nat} {hasOrbit : D → Bool} {cid n m : Nat}

omit [Fintype G] [Fintype D] [Fintype E] [DecidableEq G] [DecidableEq D] [DecidableEq E] in
/-- Periodic trackers of a constellation with satellites. -/
theorem periodic_sane {net : Net D G E V W P R} {e : Endian} (hn : Named net hist as) (hb : Built e hasOrbit cid n m hist as k) (hfit : Fits16 cid n m)
    (hne : hist ≠ []) (hi : ∀ g, 0 < iv g) : Sane hist as (periodicFires net k pos q iv) := by
  refine ⟨fun g t c => ?_⟩
  obtain ⟨c1, c2⟩ := C05_closest hb (pos t) (q g)
  cases hg : k.getClosest (fun d => sqDistance (pos t d) (q g)) with
  | none => exact absurd (c2.mp hg) hne
  | some d =>
    have hd : d ∈ hist.map (·.2.2) := (c1 d hg).1
    have ht : (Uplink.target hist as (net.satAddr d)).isSome := by rw [hn.target hb hfit hd]; rfl
    cases c with
    | once =>
      refine ⟨net.satAddr d, none, ?_, ht, by simp⟩
      simp [periodicFires, Tracker.periodicFire, Tracker.updateOnce, hg]
    | periodic =>
      refine ⟨net.satAddr d, some (iv g, .periodic), ?_, ht, fun delay c' e => ?_⟩
      · simp [periodicFires, Tracker.periodicFire, Tracker.updateOnce, hg]
      · simp only [Option.some.injEq, Prod.mk.injEq] at e
        rw [← e.1]; exact hi g

/-- **Service.**  Stations with periodic trackers, covered whenever they are given a packet; satellites without collisions.  Every traffic offered in the order of its times, up to a time
`until_`, can be simulated up to then; and in every simulation of it, each packet given to a station after the start and more than a deadline before the end, and not dropped by the station's queue, is passed up by a satellite within the
deadline. -/
theorem C100_service {net : Net D G E V W P (NoneMac.Sys P)} {w : World D G E W} {peer : E → E}
    (hrx : net.rx = Uplink.noneReceiver P) {clock : NoneMac.Sys P → Nat} {K : Nat} (hr : Network.Runnable net w peer hist as clock K)
    {B L C M : Nat} (hlim : Network.Limits net w peer B L C M)
    (hb : Built net.endian hasOrbit cid n m hist as k) (hfit : Fits16 cid n m) (hne : hist ≠ []) (hn : Named net hist as) (hm : Moving orbit pos speed)
    (hi : ∀ g, 0 < iv g) (ho : ∀ g, offset g ≤ iv g) (h0 : ∀ g, (Uplink.target hist as (net.remote g)).isSome) {range : ℝ}
    (hreach : ∀ u g d, distance (pos u d) (q g) ≤ range → w.ground.admit u g d = true)
    {calls : List (Network.Op D G E W)}
    (hcov : ∀ g v p l pr, .send g v p l pr ∈ calls →
      ∃ d ∈ hist.map (·.2.2), distance (pos v d) (q g) + 2 * speed * ((iv g : ℝ) / 10 ^ 9) + speed * (((C + (B + L) + B : Nat) : ℝ) / 10 ^ 9) ≤ range)
    (hno : ∀ g t a, .track g t a ∉ calls) (hsh : Network.Short calls L)
    (hext : ∀ o ∈ calls, o.internal = false) (hord : calls.Pairwise (fun a b => a.when ≤ b.when)) {until_ : Nat} (hu : ∀ o ∈ calls, o.when ≤ until_) :
    (∃ ops s, exec net (periodicFires net k pos q iv) (periodicStart net iv offset) ops = some (.ok s) ∧ ops.filter (fun o => !o.internal) = calls.map Op.net ∧
      Network.due net s.net until_) ∧
    ∀ ops s, exec net (periodicFires net k pos q iv) (periodicStart net iv offset) ops = some (.ok s) → ops.filter (fun o => !o.internal) = calls.map Op.net →
      Network.due net s.net until_ → ∀ g v p l pr, .send g v p l pr ∈ calls → 0 < v → v + Network.deadline B L C M < until_ →
      (∀ y ∈ (s.net.up.stations g).refused, y.2.pkt ≠ p) →
      ∃ d ∈ hist.map (·.2.2), Near hist pos speed (q g) (iv g) v d ∧ ∃ t, Network.FromGround net s.net d t p ∧ v ≤ t ∧ t ≤ v + Network.deadline B L C M := by
  constructor
  · obtain ⟨ops, s, r1, r2, -, -, r3, -⟩ := C100_runs (fun g => (periodicStart_facts iv offset g).1) (fun g => (periodicStart_facts iv offset g).2.1) hr
      (periodic_sane (pos := pos) (q := q) hn hb hfit hne hi) (fun g => by
        unfold periodicStart
        rw [Tracker.periodicInit_pending (hi g)]
        simp [Tracker.scheduled]) ⟨h0, fun g t a ha => absurd ha (hno g t a)⟩ hext hord hu
    exact ⟨ops, s, r1, r2, r3⟩
  · intro ops s hx hcalls hdue g v p l pr hsend hv hlate hkept
    have mem : ∀ o : Network.Op D G E W, o.internal = false → (Op.net o ∈ ops ↔ o ∈ calls) := by
      intro o hoi
      have : Op.net o ∈ ops.filter (fun o => !o.internal) ↔ Op.net o ∈ calls.map Op.net := by rw [hcalls]
      rw [List.mem_filter, Op.internal_net, hoi, List.mem_map] at this
      simpa using this
    have hp := parts (fun g => (periodicStart_facts iv offset g).1) (fun g => (periodicStart_facts iv offset g).2.1) hx
    have hmade : Network.Op.send g v p l pr ∈ s.made := by
      obtain ⟨i, hi'⟩ := List.getElem?_of_mem ((mem _ rfl).mpr hsend)
      exact List.mem_of_getElem? (hp.made i _ hi')
    obtain ⟨x, hacc, rfl⟩ := Network.given hp.net hmade hkept
    obtain ⟨d, hd, -, hnear, t, ht⟩ := C100_covered hrx hr.setup hlim hb hfit hn hm hi ho hx h0 (fun g t a ha => hno g t a ((mem _ rfl).mp ha)) (fun o ho' len hlen => by
        refine hsh o ((mem o ?_).mp ho') len hlen
        cases o with
        | sat d o => cases o <;> simp_all [Network.lasts, Network.Op.internal]
        | isl o =>
          cases o with
          | tx e o => cases o <;> simp_all [Network.lasts, Network.Op.internal, IslNet.Op.internal]
          | _ => simp [Network.lasts] at hlen
        | send => rfl
        | _ => simp [Network.lasts] at hlen)
      (fun u d => hreach u g d) hacc hv (hcov g v _ l pr hsend) hdue hlate
    exact ⟨d, hd, hnear, t, ht⟩

end

/-! ## Room in the queues -/

/-- A queue for `K` packets has room for `K` packets. -/
theorem sta_room {debug : Bool} {mac : GroundSta.Mac} {K : UInt32} {bytes : GroundSta.Entry W → Nat} {remote : SatAddress} {power : W} {ops : List (GroundSta.Op W)}
    {s : GroundSta.Sys W} (hx : GroundSta.exec debug mac (Queue.dropTail .packets K bytes) remote power ops = some (.ok s))
    (hK : (requests remote power ops).length ≤ K.toNat) : s.refused = [] := by
  have key : s.refused ≠ [] → K.toNat ≤ s.accepted.length := by
    refine run_induction (P := fun _ s => s.refused ≠ [] → K.toNat ≤ s.accepted.length) (fun h => absurd rfl h) ?_ hx
    intro os o s s' hrun ih hs
    have start : ∀ {s1 s2 : GroundSta.Sys W} {now : Nat}, GroundSta.transmitStart debug mac s1 now = .ok s2 → s2.refused = s1.refused ∧ s2.accepted = s1.accepted := by
      intro s1 s2 now h
      unfold GroundSta.transmitStart at h
      obtain ⟨-, -, h⟩ := Outcome.bind_eq_ok.mp h
      split at h
      · cases h
      · cases h
        unfold GroundSta.macSend
        split <;> exact ⟨rfl, rfl⟩
    cases o with
    | send t p l pr =>
      simp only [GroundSta.step] at hs
      split at hs
      · simp only [Option.some.injEq] at hs
        rcases C34_send_result hs with ⟨-, e1, e2⟩ | ⟨hno, e1, -⟩
        · intro h
          rw [e2] at h
          rw [e1, List.length_append]
          exact (ih h).trans (Nat.le_add_right _ _)
        · intro _
          simp only [Queue.dropTail, decide_eq_false_iff_not] at hno
          have := congrArg List.length (C34_handed_in_order hrun)
          rw [List.length_map, List.length_append] at this
          rw [e1]
          omega
      · cases hs
    | setRemote t a =>
      simp only [GroundSta.step] at hs
      split at hs
      · cases hs; exact ih
      · cases hs
    | setPower t a =>
      simp only [GroundSta.step] at hs
      split at hs
      · cases hs; exact ih
      · cases hs
    | run =>
      simp only [GroundSta.step] at hs
      split at hs
      · cases hs
      · cases hs; exact ih
      · simp only [Option.some.injEq] at hs
        unfold GroundSta.transmitComplete at hs
        dsimp only at hs
        split at hs
        · cases hs; exact ih
        · obtain ⟨j1, j2⟩ := start hs
          rw [j1, j2]; exact ih
  by_contra hne
  have h1 := key hne
  have h2 := (C34_accepted_or_dropped hx).1.length_eq
  rw [List.length_append] at h2
  have h3 : 0 < s.refused.length := List.length_pos_of_ne_nil hne
  omega

/-- Calls of `Send` at station `g`. -/
def sendsAt [DecidableEq G] (g : G) : Network.Op D G E W → Bool
  | .send g' _ _ _ _ => decide (g' = g)
  | _ => false

theorem requests_length [DecidableEq G] (g : G) (a : SatAddress) (p : W) (ops : List (Network.Op D G E W)) :
    (requests a p (Uplink.opsOf g (ops.filterMap Network.toUp))).length = (ops.filter (sendsAt g)).length := by
  induction ops generalizing a p with
  | nil => rfl
  | cons o os ih =>
    have e : Uplink.opsOf g ((o :: os).filterMap Network.toUp) = Uplink.opsOf g ([o].filterMap Network.toUp) ++ Uplink.opsOf g (os.filterMap Network.toUp) := by
      rw [show o :: os = [o] ++ os from rfl, List.filterMap_append, Uplink.opsOf_append]
    rw [e, requests_append, List.length_append, ih, show o :: os = [o] ++ os from rfl, List.filter_append, List.length_append]
    congr 1
    cases o with
    | send g' => by_cases hg : g' = g <;> simp [Network.toUp, Uplink.opsOf, requests, sendsAt, hg]
    | setPower g' => by_cases hg : g' = g <;> simp [Network.toUp, Uplink.opsOf, requests, sendsAt, hg]
    | track g' => by_cases hg : g' = g <;> simp [Network.toUp, Uplink.opsOf, requests, sendsAt, hg]
    | run g' => by_cases hg : g' = g <;> simp [Network.toUp, Uplink.opsOf, requests, sendsAt, hg]
    | _ => rfl

theorem sends_calls [DecidableEq G] (g : G) {ops : List (Op D G E W)} {calls : List (Network.Op D G E W)} (h : ops.filter (fun o => !o.internal) = calls.map Op.net) :
    (ops.filterMap Op.net?).filter (sendsAt g) = calls.filter (sendsAt g) := by
  have h1 : (ops.filterMap Op.net?).filter (sendsAt g) = ((ops.filter (fun o => !o.internal)).filterMap Op.net?).filter (sendsAt g) := by
    clear h
    induction ops with
    | nil => rfl
    | cons o os ih =>
      cases o with
      | tick g' => exact ih
      | net o =>
        have e1 : (Op.net o :: os).filterMap Op.net? = o :: os.filterMap Op.net? := rfl
        cases hi : o.internal with
        | false =>
          have e2 : (Op.net o :: os).filter (fun o => !o.internal) = Op.net o :: os.filter (fun o => !o.internal) := List.filter_cons_of_pos (by rw [Op.internal_net, hi]; rfl)
          have e3 : (Op.net o :: os.filter (fun o => !o.internal)).filterMap Op.net? = o :: (os.filter (fun o => !o.internal)).filterMap Op.net? := rfl
          rw [e1, e2, e3, List.filter_cons, List.filter_cons, ih]
        | true =>
          have e2 : (Op.net o :: os).filter (fun o => !o.internal) = os.filter (fun o => !o.internal) := List.filter_cons_of_neg (by rw [Op.internal_net, hi]; simp)
          have e3 : sendsAt g o = false := by
            cases o with
            | send => simp [Network.Op.internal] at hi
            | _ => rfl
          rw [e1, e2, List.filter_cons, e3, ih]
          rfl
  rw [h1, h, List.filterMap_map]
  congr 1
  exact List.filterMap_some

/-- **Room.**  A station whose queue holds at least as many packets as it is ever given drops none. -/
theorem C100_room [Fintype G] [Fintype D] [Fintype E] [DecidableEq G] [DecidableEq D] [DecidableEq E] {net : Net D G E V W P R}
    {fire : G → Nat → T → Outcome (SatAddress × Option (Nat × T))} {start : G → Tracker.Sys T} (h0 : ∀ g, (start g).clock = 0) (h1 : ∀ g, (start g).log = [])
    {ops : List (Op D G E W)} {s : Sys D G E W R T} (h : exec net fire start ops = some (.ok s)) {calls : List (Network.Op D G E W)}
    (hcalls : ops.filter (fun o => !o.internal) = calls.map Op.net) {g : G} {K : UInt32} {bytes : GroundSta.Entry W → Nat}
    (hq : net.accept g = Queue.dropTail .packets K bytes) (hK : (calls.filter (sendsAt g)).length ≤ K.toNat) :
    (s.net.up.stations g).refused = [] := by
  have hp := parts h0 h1 h
  obtain ⟨r1, -, -⟩ := Network.C73_parts hp.net
  have hst := Uplink.C55_station r1 g
  have hq' : net.up.accept g = Queue.dropTail .packets K bytes := hq
  rw [hq'] at hst
  refine sta_room hst ?_
  rw [requests_length]
  have e : ∀ l : List (Network.Op D G E W), l.filter (sendsAt g) = (l.filter plain).filter (sendsAt g) := by
    intro l
    rw [List.filter_filter]
    apply List.filter_congr
    intro o _
    cases o <;> simp [sendsAt, plain]
  rw [e, hp.rest, ← e, sends_calls g hcalls]
  exact hK

/-! ## Examples -/

/-- At time 0 a packet can be given to a station before the first call of its tracker.  It is addressed to the satellite that the station tracks at first, whatever the tracker would choose. -/
example (fire : Fin 2 → Nat → Tracker.Call → Outcome (SatAddress × Option (Nat × Tracker.Call))) :
    ∃ s, exec (Network.smallNet (Uplink.noneReceiver Int)) fire (periodicStart (Network.smallNet (Uplink.noneReceiver Int)) (fun _ => 10) (fun _ => 4)) [.net (.send 1 0 11 10 7)] = some (.ok s) ∧
      (s.net.up.stations 1).accepted = [(0, ⟨11, 10, SatAddress.mk3 .little 1 0 1, 7, 30⟩)] ∧ (s.trk 1).log = [] := ⟨_, rfl, rfl, rfl⟩

section
open Classical Real

/-- Two satellites on opposite sides of the Earth, in the plane of the equator. -/
noncomputable def exOrbit (d : Fin 2) : Elements := ⟨0, 0, 7000009, if d = 0 then 0 else π⟩

noncomputable def exPos (t : Nat) (d : Fin 2) : ℝ × ℝ × ℝ :=
  ((7000009 - 9) * cos ((Orbit.meanMotion 7000009 - 7.292115922e-5) * (t / 10 ^ 9) + (exOrbit d).phase),
    (7000009 - 9) * sin ((Orbit.meanMotion 7000009 - 7.292115922e-5) * (t / 10 ^ 9) + (exOrbit d).phase), 0)

theorem exMoving : Moving exOrbit exPos 11600 where
  high := fun d => by norm_num [exOrbit]
  slow := fun d => Orbit.C89_speed_bound _ (by norm_num [exOrbit]) (by norm_num [exOrbit])
  where_ := fun debug t d => Orbit.equatorial debug 7000009 _ (by norm_num) t

/-- Both stations below the initial place of satellite 0. -/
noncomputable def exQ (_ : Fin 2) : ℝ × ℝ × ℝ := (6371000, 0, 0)

/-- Links are open within 1000 km. -/
noncomputable def exOpen (t : Nat) (g d : Fin 2) : Bool := decide (distance (exPos t d) (exQ g) ≤ 1000000)

noncomputable def exWorld : World (Fin 2) (Fin 2) (Fin 2) Int :=
  ⟨⟨fun _ _ d => 3 + 2 * d.val, fun _ _ _ p => p - 10, exOpen⟩, ⟨fun _ _ _ => 5, fun _ _ _ => true⟩⟩

/-- Station 1 tracks satellite 1 at first, which is on the other side of the Earth. -/
noncomputable def exNet : Net (Fin 2) (Fin 2) (Fin 2) Nat Int Int (NoneMac.Sys Int) :=
  { Network.smallNet (Uplink.noneReceiver Int) with
    air := fun t => ⟨fun g => some g.val, fun d => some d.val, some (fun _ ps => 3 + 2 * ps), some (fun p _ _ => p - 10), some (fun g d => .ok (exOpen t g d))⟩ }

theorem exSetup : Setup exNet exWorld Network.exPeer Network.exHist Network.exAddrs where
  built := ⟨_, _, _, _, _, Uplink.exBuilt, by unfold Fits16; decide, rfl⟩
  sky := fun _ g d => ⟨g.val, d.val, fun _ ps => 3 + 2 * ps, fun p _ _ => p - 10, ⟨rfl, rfl, rfl, rfl⟩, rfl, fun _ => rfl, Or.inr ⟨_, rfl, rfl⟩⟩
  islSky := fun _ => ⟨rfl, Or.inl ⟨rfl, fun _ _ => rfl⟩⟩
  wired := fun d => ⟨true, ⟨fun _ => true, fun _ => true, true⟩, 0, 1, by decide, rfl, by decide +revert⟩

theorem exRunnable : Network.Runnable exNet exWorld Network.exPeer Network.exHist Network.exAddrs (fun r => r.clock) 1 :=
  ⟨exSetup, Uplink.safe_map rfl, Uplink.none_orderly, Uplink.none_oneEach, fun _ => ⟨Nat.le_refl _, by simp [exNet, Network.smallNet, Network.exNet, noneMac]⟩⟩

theorem exLimits : Network.Limits exNet exWorld Network.exPeer 0 10 10 5 :=
  (Network.C95_packets (K := 2) (by decide) (b1 := fun _ _ => 100) (b2 := fun _ _ => 100) (b3 := fun _ _ => 100) (fun _ => rfl) (fun _ => rfl) (fun _ => rfl)
    (fun _ => QueueDelay.none_prompt) (fun u g d _ => by show 3 + 2 * d.val ≤ 5; omega) (fun u e _ => Nat.le_refl _)).1

theorem exNamed : Named exNet Network.exHist Network.exAddrs := by
  show ∀ y ∈ Network.exAddrs.zip Network.exHist, SatAddress.mk3 .little 1 0 (UInt16.ofNat y.2.2.2.val) = y.1
  decide

/-- Satellite 0 is above the stations in the beginning. -/
theorem exNearby (a : Nat) (h : a ≤ 1000) : distance (exPos a 0) (exQ 1) ≤ 629001 := by
  have h1 := exMoving.reach 0 (exQ 1) (t := 0) (u := a) (c := 1000) (by omega) (by omega)
  have h2 : distance (exPos 0 0) (exQ 1) = 629000 := by
    have : exPos 0 0 = (7000000, 0, 0) := by simp [exPos, exOrbit]; norm_num
    rw [this]
    unfold distance Orbit.length Orbit.sub exQ
    rw [Real.sqrt_eq_iff_mul_self_eq (by positivity) (by norm_num)]
    norm_num
  rw [h2] at h1
  norm_num at h1
  linarith

/-- A packet is given to station 1 five nanoseconds after the start.  Its tracker looks every ten seconds, first at the very start. -/
example : ∃ ops s, exec exNet (periodicFires exNet Uplink.exConstellation exPos exQ (fun _ => 10000000000)) (periodicStart exNet (fun _ => 10000000000) (fun _ => 4000000000)) ops = some (.ok s) ∧
    ops.filter (fun o => !o.internal) = [.net (.send 1 5 11 10 7)] ∧
    ∃ d t, Network.FromGround exNet s.net d t 11 ∧ 5 ≤ t ∧ t ≤ 40 ∧ Near Network.exHist exPos 11600 (exQ 1) 10000000000 5 d := by
  obtain ⟨⟨ops, s, h1, h2, h3⟩, hall⟩ := C100_service (net := exNet) (w := exWorld) (iv := fun _ => 10000000000) (offset := fun _ => 4000000000) (q := exQ) rfl exRunnable exLimits
    Uplink.exBuilt (by unfold Fits16; decide) (by simp) exNamed exMoving (fun _ => by norm_num) (fun _ => by norm_num)
    (by show ∀ g : Fin 2, (Uplink.target Network.exHist Network.exAddrs (SatAddress.mk3 .little 1 0 (UInt16.ofNat g.val))).isSome
        decide)
    (range := 1000000) (fun u g d h => by show exOpen u g d = true; simpa [exOpen] using h)
    (calls := [.send 1 5 11 10 7]) (fun g v p l pr h => by
      simp only [List.mem_singleton, Network.Op.send.injEq] at h
      obtain ⟨rfl, rfl, -⟩ := h
      refine ⟨0, by decide, ?_⟩
      have := exNearby 5 (by norm_num)
      norm_num
      linarith) (by simp) (by unfold Network.Short; decide) (by simp [Network.Op.internal]) (by simp) (until_ := 1000) (by simp [Network.Op.when])
  have hroom := C100_room (fun g => (periodicStart_facts _ _ g).1) (fun g => (periodicStart_facts _ _ g).2.1) h1 h2 (g := 1) (K := 2) (bytes := fun _ => 100) rfl (by decide)
  obtain ⟨d, -, hn, t, t1, t2, t3⟩ := hall ops s h1 h2 h3 1 5 11 10 7 (by simp) (by norm_num) (by decide) (by rw [hroom]; simp)
  exact ⟨ops, s, h1, h2, d, t, t1, t2, t3, hn⟩

end

end TrackedNet
end Icarus
