import Verif.Props.TrackedNet
import Verif.Props.Visibility

/-!
# The network with elevation trackers at its ground stations (C101)
-/

set_option autoImplicit false

namespace Icarus
namespace TrackedNet
open Network (Net World Setup Launched)
open Orbit (Elements Vec Sees FirstSet Faithful Low)
open Tracker (View Candidate Best Full Soon updates)

variable {D G E V W P R T : Type}

section
variable [Fintype G] [Fintype D] [Fintype E] [DecidableEq G] [DecidableEq D] [DecidableEq E]
  {net : Net D G E V W P R} {fire : G → Nat → T → Outcome (SatAddress × Option (Nat × T))} {start : G → Tracker.Sys T}
  {w : World D G E W} {peer : E → E} {hist : List (Nat × Nat × D)} {as : List SatAddress}

/-- What holds of every tracked address while it is tracked, and cannot become false later, holds of the addresses of all packets given to the station after the start. -/
theorem requests_all (h0 : ∀ g, (start g).clock = 0) (h1 : ∀ g, (start g).log = []) (h2 : ∀ g, (start g).remote = net.remote g) {g : G}
    {good : Sys D G E W R T → Nat → SatAddress → Prop}
    (hgood : ∀ os s τ, exec net fire start os = some (.ok s) → (∀ t a, .net (.track g t a) ∉ os) → s.net.clock ≤ τ → Waits s.trk τ → 0 < τ → good s τ (s.trk g).remote)
    (hkeep : ∀ s s' o τ a, step net fire s o = some (.ok s') → good s τ a → good s' τ a)
    {ops : List (Op D G E W)} {s : Sys D G E W R T} (h : exec net fire start ops = some (.ok s)) (hno : ∀ t a, .net (.track g t a) ∉ ops) :
    ∀ y ∈ requests (net.remote g) (net.power g) (Uplink.opsOf g (s.made.filterMap Network.toUp)), 0 < y.1 → good s y.1 y.2.dst := by
  refine run_induction (P := fun ops s => (∀ t a, .net (.track g t a) ∉ ops) →
    ∀ y ∈ requests (net.remote g) (net.power g) (Uplink.opsOf g (s.made.filterMap Network.toUp)), 0 < y.1 → good s y.1 y.2.dst) ?_ ?_ h hno
  · simp [Sys.init, Uplink.opsOf, requests]
  · intro os o s s' hx ih hs hno y hy hpos
    have hno' : ∀ t a, .net (.track g t a) ∉ os := fun t a hta => hno t a (List.mem_append_left _ hta)
    have other : ∀ p : Network.Op D G E W, s'.made = s.made ++ [p] → (∀ t pkt len pr, p ≠ .send g t pkt len pr) →
        y ∈ requests (net.remote g) (net.power g) (Uplink.opsOf g (s.made.filterMap Network.toUp)) := by
      intro p hp hne
      rw [hp, List.filterMap_append, Uplink.opsOf_append, requests_append] at hy
      rcases List.mem_append.mp hy with hy | hy
      · exact hy
      · exfalso
        cases p with
        | send g' t pkt len pr =>
          by_cases hg : g' = g
          · exact hne t pkt len pr (by rw [hg])
          · simp [Network.toUp, Uplink.opsOf, requests, hg] at hy
        | setPower g' t v => by_cases hg : g' = g <;> simp [Network.toUp, Uplink.opsOf, requests, hg] at hy
        | track g' t v => by_cases hg : g' = g <;> simp [Network.toUp, Uplink.opsOf, requests, hg] at hy
        | run g' => by_cases hg : g' = g <;> simp [Network.toUp, Uplink.opsOf, requests, hg] at hy
        | _ => exact absurd hy List.not_mem_nil
    rcases step_ok hs with ⟨p, t, rfl, ht, hw, hn, e1, e2⟩ | ⟨g', k', rfl, hk, hw, hn, e1, e2⟩
    · by_cases hp : ∃ u pkt len pr, p = .send g u pkt len pr
      · obtain ⟨u, pkt, len, pr, rfl⟩ := hp
        simp only [Network.time, Option.some.injEq] at ht
        subst ht
        rw [e2, List.filterMap_append, Uplink.opsOf_append, requests_append] at hy
        rcases List.mem_append.mp hy with hy | hy
        · exact hkeep _ _ _ _ _ hs (ih hno' y hy hpos)
        · simp only [Network.toUp, List.filterMap_cons, List.filterMap_nil, Uplink.opsOf, if_true, requests, List.mem_singleton] at hy
          subst hy
          obtain ⟨c1, c2⟩ := Network.step_clock hn
          simp only [Network.time, Option.some.injEq] at c1
          have := hgood os s u hx hno' (by rw [c1]; exact c2.clock) hw hpos
          rw [tracked h0 h1 h2 hx g] at this
          exact hkeep _ _ _ _ _ hs this
      · exact hkeep _ _ _ _ _ hs (ih hno' y (other p e2 (fun u pkt len pr e => hp ⟨u, pkt, len, pr, e⟩)) hpos)
    · exact hkeep _ _ _ _ _ hs (ih hno' y (other _ e2 (fun _ _ _ _ e => by simp at e)) hpos)

/-- The calls of a tracker made so far remain where they are. -/
theorem updates_keep {s s' : Sys D G E W R T} {o : Op D G E W} (h : step net fire s o = some (.ok s')) (g : G) :
    ∃ l, updates (s'.trk g) = updates (s.trk g) ++ l := by
  rcases step_ok h with ⟨p, t, rfl, -, -, -, e1, -⟩ | ⟨g', k', rfl, hk, -, -, e1, -⟩
  · rw [e1]
    by_cases hp : ∃ t a, p = .track g t a
    · obtain ⟨t, a, rfl⟩ := hp
      refine ⟨[], ?_⟩
      simp [noted, updates]
    · rw [noted_other (fun t a e => hp ⟨t, a, e⟩)]
      exact ⟨[], (List.append_nil _).symm⟩
  · rw [e1]
    by_cases hg : g = g'
    · subst hg
      rw [Function.update_self]
      obtain ⟨t, ev, es, a, next, -, -, -, -, h5, -⟩ := Tracker.step_run hk
      exact ⟨[(t, a)], by simp [updates, h5]⟩
    · rw [Function.update_of_ne hg]
      exact ⟨[], (List.append_nil _).symm⟩

/-- Assignments lie in the past. -/
theorem log_times {ops : List (Op D G E W)} {s : Sys D G E W R T} (h1 : ∀ g, (start g).log = []) (h : exec net fire start ops = some (.ok s)) (g : G) :
    ∀ x ∈ (s.trk g).log, x.1 ≤ s.net.clock := by
  refine run_induction (P := fun _ s => ∀ x ∈ (s.trk g).log, x.1 ≤ s.net.clock) (by simp [Sys.init, h1]) ?_ h
  intro os o s s' hx ih hs x hxl
  rcases step_ok hs with ⟨p, t, rfl, -, -, hn, e1, -⟩ | ⟨g', k', rfl, hk, -, hn, e1, -⟩
  · obtain ⟨c1, c2⟩ := Network.step_clock hn
    have hc : s.net.clock ≤ s'.net.clock := c2.clock
    rw [e1] at hxl
    by_cases hp : ∃ t a, p = .track g t a
    · obtain ⟨u, a, rfl⟩ := hp
      simp only [noted, Function.update_self, List.mem_append, List.mem_singleton] at hxl
      simp only [Network.time, Option.some.injEq] at c1
      rcases hxl with hxl | rfl
      · exact (ih x hxl).trans hc
      · exact c1.le
    · rw [noted_other (fun t a e => hp ⟨t, a, e⟩)] at hxl
      exact (ih x hxl).trans hc
  · obtain ⟨c1, c2⟩ := Network.step_clock hn
    have hc : s.net.clock ≤ s'.net.clock := c2.clock
    rw [e1] at hxl
    by_cases hg : g = g'
    · subst hg
      rw [Function.update_self] at hxl
      obtain ⟨t, ev, es, a, next, -, -, k3, -, k5, -⟩ := Tracker.step_run hk
      simp only [Network.time, Option.some.injEq] at c1
      rw [k5, List.mem_append, List.mem_singleton] at hxl
      rcases hxl with hxl | rfl
      · exact (ih x hxl).trans hc
      · exact (k3.symm.trans c1).le
    · rw [Function.update_of_ne hg] at hxl
      exact (ih x hxl).trans hc

/-- Trackers assign launched satellites only. -/
theorem launched_sane (hsane : Sane hist as fire)
    (hr : ∀ g, (Uplink.target hist as (net.remote g)).isSome) {ops : List (Op D G E W)} {s : Sys D G E W R T} (h : exec net fire start ops = some (.ok s))
    (hout : ∀ g t a, .net (.track g t a) ∈ ops → (Uplink.target hist as a).isSome) : Launched net hist as s.made := by
  refine ⟨hr, ?_⟩
  refine run_induction (P := fun ops s => (∀ g t a, .net (.track g t a) ∈ ops → (Uplink.target hist as a).isSome) →
    ∀ g t a, .track g t a ∈ s.made → (Uplink.target hist as a).isSome) ?_ ?_ h hout
  · simp [Sys.init]
  · intro os o s s' hx ih hs hout g t a ha
    have hout' : ∀ g t a, .net (.track g t a) ∈ os → (Uplink.target hist as a).isSome := fun g t a hta => hout g t a (List.mem_append_left _ hta)
    rcases step_ok hs with ⟨p, u, rfl, -, -, -, -, e2⟩ | ⟨g', k', rfl, hk, -, -, -, e2⟩
    · rw [e2, List.mem_append, List.mem_singleton] at ha
      rcases ha with ha | rfl
      · exact ih hout' g _ a ha
      · exact hout g t a (by simp)
    · rw [e2, List.mem_append, List.mem_singleton] at ha
      rcases ha with ha | ha
      · exact ih hout' g _ a ha
      · simp only [Network.Op.track.injEq] at ha
        obtain ⟨rfl, rfl, rfl⟩ := ha
        obtain ⟨t, ev, es, a, next, -, f2, -, f4, -, -⟩ := Tracker.step_run hk
        obtain ⟨a', next', f, f', -⟩ := hsane.fine g t ev
        rw [f] at f2
        simp only [Outcome.ok.injEq, Prod.mk.injEq] at f2
        rw [f4, ← f2.1]
        exact f'

/-- **Nothing fails.**  With trackers that always find a launched satellite, no execution of the network with its trackers ends in a failed assertion, an abort or undefined behaviour. -/
theorem C101_safe (hs : Setup net w peer hist as) (hsafe : Uplink.Safe net.rx) (h0 : ∀ g, (start g).clock = 0) (h1 : ∀ g, (start g).log = [])
    (hsane : Sane hist as fire) (hr : ∀ g, (Uplink.target hist as (net.remote g)).isSome) {ops : List (Op D G E W)} {r : Outcome (Sys D G E W R T)}
    (h : exec net fire start ops = some r) (hout : ∀ g t a, .net (.track g t a) ∈ ops → (Uplink.target hist as a).isSome) : ∃ s, r = .ok s := by
  unfold exec at h
  induction ops using List.reverseRecOn generalizing r with
  | nil =>
    simp only [runFrom, Option.some.injEq] at h
    exact ⟨_, h.symm⟩
  | append_singleton os o ih =>
    rw [runFrom_append] at h
    cases hx : runFrom (step net fire) (Sys.init net start) os with
    | none => simp [hx] at h
    | some r1 =>
      have hout' : ∀ g t a, .net (.track g t a) ∈ os → (Uplink.target hist as a).isSome := fun g t a hta => hout g t a (List.mem_append_left _ hta)
      obtain ⟨s, rfl⟩ := ih hx hout'
      simp only [hx, runFrom_single] at h
      have hl := launched_sane hsane hr hx hout'
      have hp := parts h0 h1 hx
      have key : ∀ (trk : G → Tracker.Sys T) (p : Network.Op D G E W), (∀ g t a, p = .track g t a → (Uplink.target hist as a).isSome) →
          after net s trk p = some r → ∃ s, r = .ok s := by
        intro trk p hpt ha
        unfold after at ha
        split at ha
        · simp at ha
        · rename_i r' hr'
          obtain ⟨n, rfl⟩ := Network.C73_safe hs hsafe (Launched.snoc hl hpt) (r := r') (by
            unfold Network.exec
            rw [runFrom_append, show runFrom _ _ s.made = _ from hp.net]
            show runFrom _ _ [p] = _
            rw [runFrom_single]
            exact hr')
          simp only [Outcome.bind_ok, Option.some.injEq] at ha
          exact ⟨_, ha.symm⟩
      cases o with
      | net p =>
        simp only [step] at h
        split at h
        · simp at h
        · split at h
          · exact key _ p (fun g t a e => hout g t a (by rw [e]; simp)) h
          · simp at h
      | tick g =>
        simp only [step] at h
        have hk : ∀ r', Tracker.step (fire g) (s.trk g) .run = some r' → ∃ k, r' = .ok k ∧ (Uplink.target hist as k.remote).isSome := by
          intro r' hr'
          unfold Tracker.step at hr'
          dsimp only at hr'
          split at hr'
          · simp at hr'
          · rename_i t c es hpend
            obtain ⟨a, next, f1, f2, -⟩ := hsane.fine g t c
            rw [f1] at hr'
            simp only [Outcome.bind_ok, Option.some.injEq] at hr'
            exact ⟨_, hr'.symm, f2⟩
        cases hq : Tracker.step (fire g) (s.trk g) .run with
        | none => simp [hq] at h
        | some r' =>
          obtain ⟨k, rfl, hk2⟩ := hk r' hq
          simp only [hq] at h
          split at h
          · refine key _ _ (fun g' t a e => ?_) h
            simp only [Network.Op.track.injEq] at e
            rw [← e.2.2]
            exact hk2
          · simp at h

end

/-! ## Elevation trackers -/

/-- Each station `g` has an elevation tracker that reads `v g` and wants satellites above `minE g`. -/
noncomputable def elevationFires (debug : Bool) (net : Net D G E V W P R) (k : Constellation D) (v : G → Nat → View D ℝ) (minE : G → ℝ) (g : G) :
    Nat → Unit → Outcome (SatAddress × Option (Nat × Unit)) :=
  Tracker.elevationFire debug net.satAddr true (v g) (minE g) (fun _ => k)

/-- They are initialised at time 0. -/
def elevationStart (net : Net D G E V W P R) (g : G) : Tracker.Sys Unit := Tracker.elevationInit 0 (net.remote g)

theorem elevationStart_facts (net : Net D G E V W P R) (g : G) :
    (elevationStart net g).clock = 0 ∧ (elevationStart net g).log = [] ∧ (elevationStart net g).remote = net.remote g := ⟨rfl, rfl, rfl⟩

/-- What the trackers read: true elevations, setting times that are at most `δ g` nanoseconds late (C71), of orbits low enough; and always a satellite that can be tracked for
a while. -/
structure Watching (debug : Bool) (hist : List (Nat × Nat × D)) (orb : D → Elements) (q : G → Vec) (minE : G → ℝ) (δ : G → Nat) (v : G → Nat → View D ℝ) : Prop where
  angle : ∀ g, 0 ≤ minE g ∧ minE g ≤ Real.pi / 2
  low : ∀ g, Low orb (q g) (minE g) (δ g)
  faithful : ∀ g, Faithful debug orb (q g) (minE g) (δ g) (v g)
  covered : ∀ g t, ∃ x ∈ hist, ∃ b, Candidate (v g t) (minE g) x.2.2 b ∧ t < b

/-- At time `t` the tracker at `g` chose satellite `d`, known to set at `b`, and none of those it could have chosen sets later. -/
def Chosen (hist : List (Nat × Nat × D)) (v : Nat → View D ℝ) (minE : ℝ) (t : Nat) (d : D) (b : Nat) : Prop :=
  d ∈ hist.map (·.2.2) ∧ Candidate (v t) minE d b ∧ ∀ x ∈ hist, ∀ b', Candidate (v t) minE x.2.2 b' → b' ≤ b

section
variable [Fintype G] [Fintype D] [Fintype E] [DecidableEq G] [DecidableEq D] [DecidableEq E]
  {net : Net D G E V W P R} {debug : Bool} {e : Endian} {hasOrbit : D → Bool} {cid n m : Nat} {hist : List (Nat × Nat × D)} {as : List SatAddress} {k : Constellation D}
  {orb : D → Elements} {q : G → Vec} {minE : G → ℝ} {δ : G → Nat} {v : G → Nat → View D ℝ}

omit [Fintype G] [Fintype D] [Fintype E] [DecidableEq G] [DecidableEq D] [DecidableEq E] in
theorem elevation_sane (hn : Named net hist as) (hb : Built e hasOrbit cid n m hist as k) (hfit : Fits16 cid n m) (hfull : Full n m hist)
    (hw : Watching debug hist orb q minE δ v) : Sane hist as (elevationFires debug net k v minE) := by
  refine ⟨fun g t c => ?_⟩
  have hsoon : debug = true → Soon (v g t) (minE g) t hist :=
    fun _ => Orbit.C71_soon debug orb (q g) (minE g) (hw.angle g).1 (hw.angle g).2 (δ g) (hw.low g) (v g) (hw.faithful g) t hist
  obtain ⟨u1, -⟩ := Tracker.C43_update hb hfull debug net.satAddr (v g t) (minE g) t hsoon (fun x _ b hx => (hw.faithful g).later t x.2.2 b hx)
  obtain ⟨x, hx, b, hc, hlt⟩ := hw.covered g t
  obtain ⟨vis, a, delay, hu, ⟨p, i, d, hd, rfl, hcd⟩, hmax⟩ := u1 ⟨x, hx, b, hc⟩
  refine ⟨net.satAddr d, some (delay, ()), ?_, ?_, fun delay' c' e => ?_⟩
  · simp [elevationFires, Tracker.elevationFire, hu]
  · rw [hn.target hb hfit (List.mem_map.mpr ⟨_, hd, rfl⟩)]; rfl
  · simp only [Option.some.injEq, Prod.mk.injEq] at e
    have := hmax x.1 x.2.1 x.2.2 b hx hc
    omega

/-- C43 for the trackers of a network. -/
theorem elevation_chain (hb : Built e hasOrbit cid n m hist as k) (hfull : Full n m hist) (hw : Watching debug hist orb q minE δ v)
    {ops : List (Op D G E W)} {s : Sys D G E W R Unit} (h : exec net (elevationFires debug net k v minE) (elevationStart net) ops = some (.ok s)) (g : G) :
    (updates (s.trk g) = [] → (s.trk g).pending = [(0, ())]) ∧
      (∀ (i t : Nat) (a : SatAddress), (updates (s.trk g))[i]? = some (t, a) → ∃ b, Best net.satAddr (v g t) (minE g) hist a b ∧
        match (updates (s.trk g))[i + 1]? with
        | some x => x.1 = b
        | none => (s.trk g).pending = [(b, ())]) ∧
      (s.trk g).remote = (((s.trk g).log.map (·.2.2)).getLast?).getD (net.remote g) := by
  have hsoon : debug = true → ∀ t, Soon (v g t) (minE g) t hist :=
    fun _ t => Orbit.C71_soon debug orb (q g) (minE g) (hw.angle g).1 (hw.angle g).2 (δ g) (hw.low g) (v g) (hw.faithful g) t hist
  obtain ⟨kops, hk⟩ := (parts (fun g => rfl) (fun g => rfl) h).trk g
  obtain ⟨c1, -, c3, c4⟩ := Tracker.C43_chain (fun _ => hb) (fun _ => hfull) debug net.satAddr (v g) (minE g) hsoon (fun t x _ b hx => (hw.faithful g).later t x.2.2 b hx) hk
  refine ⟨fun hnil => (c1 hnil).1, fun i t a hi => ?_, c4⟩
  obtain ⟨b, hbest, hnext⟩ := c3 i t a hi
  refine ⟨b, hbest, ?_⟩
  cases hn : (updates (s.trk g))[i + 1]? with
  | none => rw [hn] at hnext; exact hnext.1
  | some x => rw [hn] at hnext; exact hnext

/-- **Packets go to a visible satellite.**  Stations have elevation trackers.  Every packet given to a station after the start of the simulation is addressed to a satellite that its tracker
chose at a time `t` before as one that would set last, at `b`; the packet is given before `b`, when the next call of the tracker takes place; and from `t` until `δ` nanoseconds before `b` the satellite is above the minimum elevation. -/
theorem C101_visible (hb : Built e hasOrbit cid n m hist as k) (hfull : Full n m hist) (hw : Watching debug hist orb q minE δ v) {g : G}
    {ops : List (Op D G E W)} {s : Sys D G E W R Unit} (h : exec net (elevationFires debug net k v minE) (elevationStart net) ops = some (.ok s))
    (hno : ∀ t a, .net (.track g t a) ∉ ops) :
    ∀ y ∈ requests (net.remote g) (net.power g) (Uplink.opsOf g (s.made.filterMap Network.toUp)), 0 < y.1 →
      ∃ (d : D) (i t b : Nat), y.2.dst = net.satAddr d ∧ Chosen hist (v g) (minE g) t d b ∧ t ≤ y.1 ∧ y.1 ≤ b ∧ (updates (s.trk g))[i]? = some (t, net.satAddr d) ∧
        (match (updates (s.trk g))[i + 1]? with | some x => x.1 = b | none => (s.trk g).pending = [(b, ())]) ∧
        ∀ u : ℝ, (t : ℝ) ≤ u * 10 ^ 9 → u * 10 ^ 9 + δ g < b → ∃ x, minE g < x ∧ Sees debug (orb d) (q g) u x := by
  have key := requests_all (fun _ => rfl) (fun _ => rfl) (fun _ => rfl) (g := g)
    (good := fun s τ a => ∃ (i t b : Nat), (updates (s.trk g))[i]? = some (t, a) ∧ t ≤ τ ∧ τ ≤ b ∧ Best net.satAddr (v g t) (minE g) hist a b)
    (fun os s τ hx hno hclk hwt hpos => by
      have hp := parts (fun g => rfl) (fun g => rfl) hx
      obtain ⟨c1, c3, c4⟩ := elevation_chain hb hfull hw hx g
      rcases List.eq_nil_or_concat (updates (s.trk g)) with hnil | ⟨l, ⟨t, a⟩, hl⟩
      · have := hwt g (0, ()) (by rw [c1 hnil]; simp)
        simp only at this
        omega
      · rw [List.concat_eq_append] at hl
        have hi : (updates (s.trk g))[l.length]? = some (t, a) := by rw [hl]; simp
        obtain ⟨b, hbest, hnext⟩ := c3 _ t a hi
        have hend : (updates (s.trk g))[l.length + 1]? = none := by rw [hl]; simp
        rw [hend] at hnext
        have hall : ∀ x ∈ (s.trk g).log, x.2.1 = true := by
          rintro ⟨t', b', a'⟩ hx'
          cases b' with
          | true => rfl
          | false => exact absurd (hp.outside g t' a' hx') (hno t' a')
        have hup : updates (s.trk g) = (s.trk g).log.map (fun x => (x.1, x.2.2)) := by
          unfold updates
          rw [List.filter_eq_self.mpr (fun x hx => hall x hx)]
        have hrem : (s.trk g).remote = a := by
          rw [c4, show (s.trk g).log.map (·.2.2) = (updates (s.trk g)).map (·.2) by rw [hup, List.map_map]; rfl, hl]
          simp
        have hmem : (t, a) ∈ (s.trk g).log.map (fun x => (x.1, x.2.2)) := by rw [← hup, hl]; simp
        refine ⟨l.length, t, b, by rw [hrem]; exact hi, ?_, ?_, by rw [hrem]; exact hbest⟩
        · obtain ⟨x, hx', he⟩ := List.mem_map.mp hmem
          have := log_times (fun _ => rfl) hx g x hx'
          simp only [Prod.mk.injEq] at he
          rw [← he.1]
          exact this.trans hclk
        · exact hwt g (b, ()) (by rw [hnext]; simp))
    (fun s s' o τ a hs hgood => by
      obtain ⟨i, t, b, g1, g2⟩ := hgood
      obtain ⟨l, hl⟩ := updates_keep hs g
      exact ⟨i, t, b, by rw [hl, List.getElem?_append_left (List.getElem?_eq_some_iff.mp g1).1]; exact g1, g2⟩)
    h hno
  intro y hy hpos
  obtain ⟨i, t, b, g1, g2, g3, hbest⟩ := key y hy hpos
  obtain ⟨-, c3, -⟩ := elevation_chain hb hfull hw h g
  obtain ⟨b', hbest', hnext⟩ := c3 i t _ g1
  have hbb : b' = b := by
    obtain ⟨⟨p, j, d, hd, -, hc⟩, hmax⟩ := hbest
    obtain ⟨⟨p', j', d', hd', -, hc'⟩, hmax'⟩ := hbest'
    exact Nat.le_antisymm (hmax p' j' d' b' hd' hc') (hmax' p j d b hd hc)
  subst hbb
  obtain ⟨⟨p, j, d, hd, hdst, hc⟩, hmax⟩ := hbest
  refine ⟨d, i, t, b', hdst, ⟨List.mem_map.mpr ⟨_, hd, rfl⟩, hc, fun x hx b'' hb'' => hmax x.1 x.2.1 x.2.2 b'' hx hb''⟩, g2, g3, by rw [← hdst]; exact g1, ?_, ?_⟩
  · exact hnext
  · intro u u1 u2
    obtain ⟨τ, hτ, hle⟩ := (hw.faithful g).setting t d b' hc.1 hc.2
    exact hτ.2.2 u (by rw [div_le_iff₀ (by positivity)]; exact u1) (by
      have : u * 10 ^ 9 < τ * 10 ^ 9 := by linarith
      exact lt_of_mul_lt_mul_right this (by positivity))

end
/-! ## Delivery -/

/-- The link between `g` and every satellite is open whenever the satellite is above the elevation, and remains so for `extra` nanoseconds. -/
def OpenAbove (debug : Bool) (orb : D → Elements) (q : Vec) (minE : ℝ) (extra : Nat) (admit : Nat → D → Bool) : Prop :=
  ∀ d (u w : Nat) (x : ℝ), Sees debug (orb d) q (u / 10 ^ 9) x → minE < x → u ≤ w → w ≤ u + extra → admit w d = true

/-- **Losses only at handovers.**  Satellites without collisions; stations with elevation trackers; links are open to satellites above the minimum elevation and for `extra` nanoseconds longer.  A packet
accepted by the station's queue after the start is passed up before the deadline by the satellite tracked when it was given to the station, unless the tracker looks for another satellite soon afterwards: during the longest stay of a
packet in the device and the error of the setting times, less `extra`. -/
theorem C101_delivered [Fintype G] [Fintype D] [Fintype E] [DecidableEq G] [DecidableEq D] [DecidableEq E] {net : Net D G E V W P (NoneMac.Sys P)}
    {w : World D G E W} {peer : E → E} {hist : List (Nat × Nat × D)} {as : List SatAddress} {k : Constellation D} {debug : Bool} {orb : D → Elements} {q : G → Vec} {minE : G → ℝ}
    {δ : G → Nat} {v : G → Nat → View D ℝ} {hasOrbit : D → Bool} {cid n m : Nat}
    (hrx : net.rx = Uplink.noneReceiver P) (hs : Setup net w peer hist as) {B L C M : Nat} (hlim : Network.Limits net w peer B L C M)
    (hb : Built net.endian hasOrbit cid n m hist as k) (hfit : Fits16 cid n m) (hfull : Full n m hist) (hn : Named net hist as)
    (hw : Watching debug hist orb q minE δ v) {ops : List (Op D G E W)} {s : Sys D G E W (NoneMac.Sys P) Unit}
    (h : exec net (elevationFires debug net k v minE) (elevationStart net) ops = some (.ok s)) (h0 : ∀ g, (Uplink.target hist as (net.remote g)).isSome)
    (hno : ∀ g t a, .net (.track g t a) ∉ ops) (hsh : ∀ o, .net o ∈ ops → ∀ len ∈ Network.lasts o, len ≤ L)
    {g : G} {extra : Nat} (hopen : OpenAbove debug orb (q g) (minE g) extra (fun u d => w.ground.admit u g d)) (hextra : δ g ≤ extra)
    {a : Nat} {x : GroundSta.Entry W} (hacc : (a, x) ∈ (s.net.up.stations g).accepted) (ha : 0 < a)
    (hquiet : ∀ y ∈ updates (s.trk g), a ≤ y.1 → a + (C + (B + L) + B) + δ g < y.1 + extra)
    {now : Nat} (hnow : Network.due net s.net now) (hwait : Waits s.trk now) (hlate : a + Network.deadline B L C M < now) :
    ∃ d ∈ hist.map (·.2.2), x.dst = net.satAddr d ∧ ∃ t, Network.FromGround net s.net d t x.pkt ∧ a ≤ t ∧ t ≤ a + Network.deadline B L C M := by
  have hp := parts (fun g => (elevationStart_facts net g).1) (fun g => (elevationStart_facts net g).2.1) h
  obtain ⟨r1, -, -⟩ := Network.C73_parts hp.net
  have hst := Uplink.C55_station r1 g
  obtain ⟨d, i, t, b, hdst, hch, ht, hab, hi, hnext, hvis⟩ := C101_visible hb hfull hw h (hno g) (a, x) ((C34_accepted_or_dropped hst).2.subset hacc) ha
  simp only at hdst ht hab
  refine ⟨d, hch.1, hdst, ?_⟩
  have hl : Launched net hist as s.made := launched_sane (elevation_sane hn hb hfit hfull hw) h0 h (fun g t a ha => absurd ha (hno g t a))
  have hshort : Network.Short s.made L := by
    intro o ho' len hlen
    rcases hp.calls o ho' with h1 | ⟨g', t', a', rfl, -⟩
    · exact hsh o h1 len hlen
    · simp [Network.lasts] at hlen
  have hend : a + (C + (B + L) + B) + δ g < b + extra := by
    cases hx : (updates (s.trk g))[i + 1]? with
    | some y =>
      rw [hx] at hnext
      simp only at hnext
      rw [← hnext]
      exact hquiet y (List.mem_of_getElem? hx) (by rw [hnext]; exact hab)
    | none =>
      rw [hx] at hnext
      simp only at hnext
      have := hwait g (b, ()) (by rw [hnext]; simp)
      simp only at this
      unfold Network.deadline at hlate
      omega
  refine Network.up_delivered hrx hs hlim hl hshort hp.net hacc (by rw [hdst]; exact hn.target hb hfit hch.1) (fun u u1 u2 => ?_) hnow.1 hlate
  by_cases hu : u ≤ t + extra
  · exact hopen d t u _ ((hw.faithful g).elevation t d) hch.2.1.1 (ht.trans u1) hu
  · have hsub : ((u - extra : Nat) : ℝ) / 10 ^ 9 * 10 ^ 9 = ((u - extra : Nat) : ℝ) := div_mul_cancel₀ _ (by positivity)
    obtain ⟨y, y1, y2⟩ := hvis (((u - extra : Nat) : ℝ) / 10 ^ 9) (by rw [hsub]; exact_mod_cast (by omega : t ≤ u - extra)) (by
      rw [hsub]; exact_mod_cast (by omega : u - extra + δ g < b))
    exact hopen d (u - extra) u y y2 y1 (by omega) (by omega)

section
variable [Fintype G] [Fintype D] [Fintype E] [DecidableEq G] [DecidableEq D] [DecidableEq E]
  {hist : List (Nat × Nat × D)} {as : List SatAddress} {k : Constellation D} {debug : Bool} {orb : D → Elements} {q : G → Vec} {minE : G → ℝ}
  {δ : G → Nat} {v : G → Nat → View D ℝ} {hasOrbit : D → Bool} {cid n m : Nat}

/-- **Service.**  Stations with elevation trackers that can always find a satellite; links that remain open long enough after a satellite has sunk below the trackers' minimum elevation; satellites without collisions.  Every traffic
offered in the order of its times can be simulated up to any later time, no execution fails, and in every simulation each packet given to a station after the start and more than a deadline before the end, and not dropped by the
station's queue, is passed up by a satellite within the deadline. -/
theorem C101_service {net : Net D G E V W P (NoneMac.Sys P)} {w : World D G E W} {peer : E → E}
    (hrx : net.rx = Uplink.noneReceiver P) {clock : NoneMac.Sys P → Nat} {K : Nat} (hr : Network.Runnable net w peer hist as clock K)
    {B L C M : Nat} (hlim : Network.Limits net w peer B L C M)
    (hb : Built net.endian hasOrbit cid n m hist as k) (hfit : Fits16 cid n m) (hfull : Full n m hist) (hn : Named net hist as)
    (hw : Watching debug hist orb q minE δ v) (h0 : ∀ g, (Uplink.target hist as (net.remote g)).isSome) {extra : G → Nat}
    (hopen : ∀ g, OpenAbove debug orb (q g) (minE g) (extra g) (fun u d => w.ground.admit u g d)) (hextra : ∀ g, C + (B + L) + B + δ g < extra g)
    {calls : List (Network.Op D G E W)} (hno : ∀ g t a, .track g t a ∉ calls) (hsh : Network.Short calls L)
    (hext : ∀ o ∈ calls, o.internal = false) (hord : calls.Pairwise (fun a b => a.when ≤ b.when)) {until_ : Nat} (hu : ∀ o ∈ calls, o.when ≤ until_) :
    (∃ ops s, exec net (elevationFires debug net k v minE) (elevationStart net) ops = some (.ok s) ∧ ops.filter (fun o => !o.internal) = calls.map Op.net ∧
      Network.due net s.net until_ ∧ Waits s.trk until_) ∧
    ∀ ops r, exec net (elevationFires debug net k v minE) (elevationStart net) ops = some r → ops.filter (fun o => !o.internal) = calls.map Op.net →
      ∃ s, r = .ok s ∧ (Network.due net s.net until_ → Waits s.trk until_ → ∀ g v p l pr, .send g v p l pr ∈ calls → 0 < v → v + Network.deadline B L C M < until_ →
      (∀ y ∈ (s.net.up.stations g).refused, y.2.pkt ≠ p) →
      ∃ d ∈ hist.map (·.2.2), ∃ t, Network.FromGround net s.net d t p ∧ v ≤ t ∧ t ≤ v + Network.deadline B L C M) := by
  have hsane := elevation_sane hn hb hfit hfull hw
  constructor
  · obtain ⟨ops, s, r1, r2, -, -, r3, r4⟩ := C100_runs (fun g => (elevationStart_facts net g).1) (fun g => (elevationStart_facts net g).2.1) hr hsane
      (fun g => by simp [elevationStart, Tracker.elevationInit, insertEvent]) ⟨h0, fun g t a ha => absurd ha (hno g t a)⟩ hext hord hu
    exact ⟨ops, s, r1, r2, r3, r4⟩
  · intro ops r hx hcalls
    have mem : ∀ o : Network.Op D G E W, o.internal = false → (Op.net o ∈ ops ↔ o ∈ calls) := by
      intro o hoi
      have : Op.net o ∈ ops.filter (fun o => !o.internal) ↔ Op.net o ∈ calls.map Op.net := by rw [hcalls]
      rw [List.mem_filter, Op.internal_net, hoi, List.mem_map] at this
      simpa using this
    have hno' : ∀ g t a, Op.net (.track g t a) ∉ ops := fun g t a ha => hno g t a ((mem _ rfl).mp ha)
    obtain ⟨s, rfl⟩ := C101_safe hr.setup hr.safe (fun g => (elevationStart_facts net g).1) (fun g => (elevationStart_facts net g).2.1) hsane h0 hx
      (fun g t a ha => absurd ha (hno' g t a))
    refine ⟨s, rfl, fun hdue hwait g v p l pr hsend hv hlate hkept => ?_⟩
    have hp := parts (fun g => (elevationStart_facts net g).1) (fun g => (elevationStart_facts net g).2.1) hx
    have hmade : Network.Op.send g v p l pr ∈ s.made := by
      obtain ⟨i, hi'⟩ := List.getElem?_of_mem ((mem _ rfl).mpr hsend)
      exact List.mem_of_getElem? (hp.made i _ hi')
    obtain ⟨x, hacc, rfl⟩ := Network.given hp.net hmade hkept
    obtain ⟨d, hd, -, t, ht⟩ := C101_delivered hrx hr.setup hlim hb hfit hfull hn hw hx h0 hno' (fun o ho' len hlen => by
        refine hsh o ((mem o ?_).mp ho') len hlen
        cases o with
        | sat d o => cases o <;> simp_all [Network.lasts, Network.Op.internal]
        | isl o =>
          cases o with
          | tx e o => cases o <;> simp_all [Network.lasts, Network.Op.internal, IslNet.Op.internal]
          | _ => simp [Network.lasts] at hlen
        | send => rfl
        | _ => simp [Network.lasts] at hlen)
      (hopen g) (by have := hextra g; omega) hacc hv (fun y _ hy => by have := hextra g; omega) hdue hwait hlate
    exact ⟨d, hd, t, ht⟩

end

/-! ## The simulation that does not get on -/

/-- **Stuck.**  If at time `t0`, when the tracker at `g` looks, every satellite above the minimum elevation is said to set at `t0`, the time of the whole simulation never gets beyond `t0`: packets
and timers due later are never served, although nothing fails.  (This happens with perfect setting times that are rounded down: `C71_stuck_exact`.) -/
theorem C101_stuck [Fintype G] [Fintype D] [Fintype E] [DecidableEq G] [DecidableEq D] [DecidableEq E] {net : Net D G E V W P R}
    {e : Endian} {hasOrbit : D → Bool} {cid n m : Nat} {hist : List (Nat × Nat × D)} {as : List SatAddress} {k : Constellation D} {debug : Bool} {minE : G → ℝ} {v : G → Nat → View D ℝ}
    (hb : Built e hasOrbit cid n m hist as k) (hfull : Full n m hist) {g : G} {t0 : Nat} (hper : ∀ x ∈ hist, 2 ≤ (v g t0).period x.2.2)
    (hnow : ∀ x ∈ hist, minE g < (v g t0).elevation x.2.2 → (v g t0).setting x.2.2 = some t0)
    (hlater : ∀ x ∈ hist, ∀ b, (v g t0).setting x.2.2 = some b → t0 ≤ b)
    {ops more : List (Op D G E W)} {s s' : Sys D G E W R Unit} (h : exec net (elevationFires debug net k v minE) (elevationStart net) ops = some (.ok s))
    (hp : (t0, ()) ∈ (s.trk g).pending) (h' : exec net (elevationFires debug net k v minE) (elevationStart net) (ops ++ more) = some (.ok s')) : s'.net.clock ≤ t0 := by
  have next_some : ∀ {t : Nat} {a : SatAddress} {next : Option (Nat × Unit)}, elevationFires debug net k v minE g t () = .ok (a, next) →
      ∃ vis delay, Tracker.update debug net.satAddr true (v g t) (minE g) t k = .ok (vis, a, delay) ∧ next = some (delay, ()) := by
    intro t a next hf
    unfold elevationFires Tracker.elevationFire at hf
    obtain ⟨⟨vis, a', delay⟩, h1, h2⟩ := Outcome.bind_eq_ok.mp hf
    simp only [Outcome.ok.injEq, Prod.mk.injEq] at h2
    obtain ⟨rfl, rfl⟩ := h2
    exact ⟨vis, delay, h1, rfl⟩
  have hone : (s.trk g).pending = [(t0, ())] := by
    obtain ⟨kops, hk⟩ := (parts (fun g => (elevationStart_facts net g).1) (fun g => (elevationStart_facts net g).2.1) h).trk g
    have hlen : (s.trk g).pending.length = 1 := by
      refine run_induction (P := fun _ s => s.pending.length = 1) (by simp [elevationStart, Tracker.elevationInit, insertEvent]) ?_ hk
      intro os o s s' _ ih hs
      cases o with
      | outside t a =>
        simp only [Tracker.step] at hs
        split at hs
        · simp only [Option.some.injEq, Outcome.ok.injEq] at hs
          rw [← hs]; exact ih
        · simp at hs
      | run =>
        obtain ⟨t, ev, es, a, next, k1, k2, -, -, -, k6⟩ := Tracker.step_run hs
        obtain ⟨-, delay, -, rfl⟩ := next_some k2
        rw [k6]
        simp only
        rw [(insertEvent_perm _ _ _).length_eq]
        rw [k1] at ih
        exact ih
    obtain ⟨x, hx⟩ := List.length_eq_one_iff.mp hlen
    rw [hx, List.mem_singleton] at hp
    rw [hx, hp]
  have hzero : ∀ {a : SatAddress} {next : Option (Nat × Unit)}, elevationFires debug net k v minE g t0 () = .ok (a, next) → next = some (0, ()) := by
    intro a next hf
    obtain ⟨vis, delay, hu, rfl⟩ := next_some hf
    have hsoon : debug = true → Soon (v g t0) (minE g) t0 hist := by
      intro _ x hx b hc
      have h1 := hnow x hx hc.1
      rw [hc.2, Option.some.injEq] at h1
      have := hper x hx
      omega
    obtain ⟨u1, u2⟩ := Tracker.C43_update hb hfull debug net.satAddr (v g t0) (minE g) t0 hsoon hlater
    by_cases hex : ∃ x ∈ hist, ∃ b, Candidate (v g t0) (minE g) x.2.2 b
    · obtain ⟨vis', a', delay', hu', ⟨p, i, d, hd, -, hc⟩, -⟩ := u1 hex
      rw [hu] at hu'
      simp only [Outcome.ok.injEq, Prod.mk.injEq] at hu'
      have h1 := hnow _ hd hc.1
      simp only at h1
      rw [hc.2, Option.some.injEq] at h1
      have : delay = 0 := by omega
      rw [this]
    · rw [u2 hex] at hu
      simp at hu
  unfold exec at h h'
  rw [runFrom_append, h] at h'
  have hclk := (parts (fun g => (elevationStart_facts net g).1) (fun g => (elevationStart_facts net g).2.1) h).ahead g (t0, ()) hp
  refine (run_induction (P := fun _ s => (s.trk g).pending = [(t0, ())] ∧ s.net.clock ≤ t0) ⟨hone, hclk⟩ ?_ h').2
  rintro os o s s' - ⟨ih1, ih2⟩ hs
  rcases step_ok hs with ⟨p, t, rfl, ht, hwt, hn, e1, -⟩ | ⟨g', k', rfl, hk, hwt, hn, e1, -⟩
  · obtain ⟨c1, -⟩ := Network.step_clock hn
    rw [ht, Option.some.injEq] at c1
    refine ⟨by rw [e1, noted_pending, ih1], ?_⟩
    rw [← c1]
    exact hwt g (t0, ()) (by rw [ih1]; simp)
  · obtain ⟨c1, -⟩ := Network.step_clock hn
    simp only [Network.time, Option.some.injEq] at c1
    refine ⟨?_, by rw [← c1]; exact hwt g (t0, ()) (by rw [ih1]; simp)⟩
    rw [e1]
    by_cases hg : g = g'
    · subst hg
      rw [Function.update_self]
      obtain ⟨t, ev, es, a, next, k1, k2, -, -, -, k6⟩ := Tracker.step_run hk
      rw [ih1] at k1
      simp only [List.cons.injEq, Prod.mk.injEq] at k1
      obtain ⟨⟨rfl, -⟩, rfl⟩ := k1
      rw [k6, hzero k2]
      simp [insertEvent]
    · rw [Function.update_of_ne hg]
      exact ih1

/-! ## Examples -/

section
open Classical Real
open Orbit (ringOrbit ringSats ring)

/-- Setting times rounded up are at most one nanosecond late, and always later than now. -/
theorem watching_exists (debug : Bool) (orb : D → Elements) (q : Vec) (minE : ℝ) (h0 : 0 ≤ minE) (h1 : minE ≤ π / 2) (hlow : Low orb q minE 1) :
    ∃ v : Nat → View D ℝ, Faithful debug orb q minE 1 v ∧ ∀ t d, minE < (v t).elevation d →
      ∃ b, (v t).setting d = some b ∧ t < b ∧ ∃ τ, FirstSet debug (orb d) q minE (t / 10 ^ 9) τ ∧ τ * 10 ^ 9 ≤ b := by
  have hgp := hlow.ground
  have hsee : ∀ d, _ := fun d => Orbit.sees_elevationAt debug (orb d) q hgp (hlow.above d)
  have hset : ∀ (t : Nat) (d : D), ∃ τ, minE < Orbit.elevationAt (orb d) q (t / 10 ^ 9) → FirstSet debug (orb d) q minE (t / 10 ^ 9) τ := by
    intro t d
    by_cases hv : minE < Orbit.elevationAt (orb d) q (t / 10 ^ 9)
    · obtain ⟨τ, hτ, -⟩ := Orbit.C71_sets debug (orb d) q hgp (hlow.above d) (hlow.faster d) minE h0 h1
        (lt_trans (lt_add_of_pos_right _ (by positivity)) (hlow.short d)) (t / 10 ^ 9) _ (hsee d _) hv
      exact ⟨τ, fun _ => hτ⟩
    · exact ⟨0, fun h => absurd h hv⟩
  choose τ hτ using hset
  have hper : ∀ d, ∃ T, Orbit.orbitalPeriod (orb d) = .ok T ∧ 0 < T := by
    intro d
    obtain ⟨T, hT, hpos, -⟩ := Orbit.C45_kepler (orb d) (by have := hlow.above d; linarith)
    exact ⟨T, hT, hpos⟩
  choose T hT hTpos using hper
  have later : ∀ t d, minE < Orbit.elevationAt (orb d) q ((t : ℕ) / 10 ^ 9) → (t : ℝ) < τ t d * 10 ^ 9 := by
    intro t d hv
    have := (hτ t d hv).1
    rwa [div_lt_iff₀ (by positivity)] at this
  refine ⟨fun t => ⟨fun d => Orbit.elevationAt (orb d) q (t / 10 ^ 9),
    fun d => if minE < Orbit.elevationAt (orb d) q (t / 10 ^ 9) then some ⌈τ t d * 10 ^ 9⌉₊ else none, fun d => ⌊T d * 10 ^ 9⌋₊⟩, ⟨?_, ?_, ?_, ?_⟩, ?_⟩
  · intro t d; exact hsee d _
  · intro t d
    refine ⟨T d, hT d, ?_⟩
    have p := hTpos d
    have l1 := Nat.floor_le (a := T d * 10 ^ 9) (by positivity)
    have l2 := Nat.lt_floor_add_one (T d * 10 ^ 9)
    rw [abs_le]
    simp only
    constructor <;> linarith
  · intro t d b hb
    simp only at hb
    split at hb
    · rename_i hv
      simp only [Option.some.injEq] at hb
      subst hb
      exact (Nat.lt_ceil.mpr (later t d hv)).le
    · simp at hb
  · intro t d b hv hb
    simp only at hv hb
    rw [if_pos hv] at hb
    simp only [Option.some.injEq] at hb
    subst hb
    refine ⟨τ t d, hτ t d hv, ?_⟩
    have := Nat.ceil_lt_add_one (a := τ t d * 10 ^ 9) (le_trans (Nat.cast_nonneg t) (later t d hv).le)
    push_cast
    exact this.le
  · intro t d hv
    exact ⟨_, if_pos hv, Nat.lt_ceil.mpr (later t d hv), τ t d, hτ t d hv, Nat.le_ceil _⟩

/-- The station below the initial place of satellite 0 of the ring. -/
noncomputable def ringQ (_ : Fin 1) : Vec := (6371000, 0, 0)

/-- Links are open above the horizon, and 100 nanoseconds longer. -/
noncomputable def ringOpen (t : Nat) (g : Fin 1) (d : Fin 4) : Bool :=
  decide (∃ (u : Nat) (x : ℝ), Sees true (ringOrbit d) (ringQ g) (u / 10 ^ 9) x ∧ 0 < x ∧ u ≤ t ∧ t ≤ u + 100)

noncomputable def ringWorld : World (Fin 4) (Fin 1) (Fin 0) Int :=
  ⟨⟨fun _ _ d => 3 + 2 * d.val, fun _ _ _ p => p - 10, ringOpen⟩, ⟨fun _ _ _ => 5, fun _ _ _ => true⟩⟩

/-- Four satellites, one station. -/
noncomputable def ringNet : Net (Fin 4) (Fin 1) (Fin 0) Nat Int Int (NoneMac.Sys Int) where
  debug := true
  endian := .big
  ty := 7
  chan := ⟨some ring, [0]⟩
  air := fun t => ⟨fun g => some g.val, fun d => some d.val, some (fun _ ps => 3 + 2 * ps), some (fun p _ _ => p - 10), some (fun g d => .ok (ringOpen t g d))⟩
  addr := fun g => ⟨1, [UInt8.ofNat g.val]⟩
  mac := fun _ => noneMac
  accept := fun _ => Queue.dropTail .packets 2 (fun _ => 100)
  remote := fun _ => SatAddress.mk3 .big 3 0 2
  power := fun _ => 30
  rx := Uplink.noneReceiver Int
  toP := fun p => p.natAbs + 1
  satAddr := fun d => SatAddress.mk3 .big 3 0 (UInt16.ofNat d.val)
  satAccept := fun _ => Queue.dropTail .packets 2 (fun _ => 100)
  satPower := fun _ => 30
  isl := ⟨true, fun e => e.elim0, fun _ => Queue.dropTail .packets 2 (fun _ => 100), fun _ => some (fun _ _ => 5), fun _ => none⟩
  own := fun e => e.elim0

abbrev ringAddrs : List SatAddress := [SatAddress.mk3 .big 3 0 0, SatAddress.mk3 .big 3 0 1, SatAddress.mk3 .big 3 0 2, SatAddress.mk3 .big 3 0 3]

theorem ringBuilt : Built .big (fun _ => true) 3 1 4 ringSats ringAddrs ring := by unfold Built; decide

theorem ringSetup : Setup ringNet ringWorld (fun e => e) ringSats ringAddrs where
  built := ⟨_, _, _, _, _, ringBuilt, by unfold Fits16; decide, rfl⟩
  sky := fun _ g d => ⟨g.val, d.val, fun _ ps => 3 + 2 * ps, fun p _ _ => p - 10, ⟨rfl, rfl, rfl, rfl⟩, rfl, fun _ => rfl, Or.inr ⟨_, rfl, rfl⟩⟩
  islSky := fun _ => ⟨rfl, Or.inl ⟨rfl, fun _ _ => rfl⟩⟩
  wired := fun e => e.elim0

theorem ringRunnable : Network.Runnable ringNet ringWorld (fun e => e) ringSats ringAddrs (fun r => r.clock) 1 :=
  ⟨ringSetup, Uplink.safe_map rfl, Uplink.none_orderly, Uplink.none_oneEach, fun _ => ⟨Nat.le_refl _, by simp [ringNet, noneMac]⟩⟩

theorem ringLimits : Network.Limits ringNet ringWorld (fun e => e) 0 10 10 9 :=
  (Network.C95_packets (K := 2) (by decide) (b1 := fun _ _ => 100) (b2 := fun _ _ => 100) (b3 := fun _ _ => 100) (fun _ => rfl) (fun _ => rfl) (fun _ => rfl)
    (fun _ => QueueDelay.none_prompt) (fun u g d _ => by show 3 + 2 * d.val ≤ 9; omega) (fun u e _ => e.elim0)).1

theorem ringNamed : Named ringNet ringSats ringAddrs := by
  show ∀ y ∈ ringAddrs.zip ringSats, SatAddress.mk3 .big 3 0 (UInt16.ofNat y.2.2.2.val) = y.1
  decide

theorem ringLow : Low ringOrbit (6371000, 0, 0) 0 1 := by
  have hl : Orbit.length (6371000, 0, 0) = 6371000 := by
    unfold Orbit.length
    simp
  refine Orbit.C71_low _ _ (by rw [hl]) ?_ 0 (le_refl _) (by positivity) 1 (.inl ⟨by norm_num, ?_⟩)
  · intro d; rw [hl]; simp only [ringOrbit]; norm_num
  · intro d; simp only [ringOrbit]; norm_num

theorem ringWatching : ∃ v : Fin 1 → Nat → View (Fin 4) ℝ, Watching true ringSats ringOrbit ringQ (fun _ => 0) (fun _ => 1) v := by
  obtain ⟨v, hv, hset⟩ := watching_exists true ringOrbit (6371000, 0, 0) 0 (le_refl _) (by positivity) ringLow
  refine ⟨fun _ => v, fun _ => ⟨le_refl _, by positivity⟩, fun _ => ringLow, fun _ => hv, fun _ t => ?_⟩
  obtain ⟨d, x, hd, hx⟩ := Orbit.ring_covers true (t / 10 ^ 9)
  rw [hd.unique (hv.elevation t d)] at hx
  obtain ⟨b, hb, hlt, -⟩ := hset t d hx
  refine ⟨(0, d, d), ?_, b, ⟨hx, hb⟩, hlt⟩
  fin_cases d <;> simp [ringSats]

/-- A packet given to the station 2000 seconds after the start. -/
example : ∃ v ops s, exec ringNet (elevationFires true ringNet ring v (fun _ => 0)) (elevationStart ringNet) ops = some (.ok s) ∧
    ops.filter (fun o => !o.internal) = [.net (.send 0 2000000000000 11 10 7)] ∧
    ∃ d t, Network.FromGround ringNet s.net d t 11 ∧ 2000000000000 ≤ t ∧ t ≤ 2000000000039 := by
  obtain ⟨v, hw⟩ := ringWatching
  obtain ⟨⟨ops, s, h1, h2, h3, h4⟩, hall⟩ := C101_service (net := ringNet) (w := ringWorld) rfl ringRunnable ringLimits ringBuilt (by unfold Fits16; decide) Orbit.ring_full ringNamed hw
    (by show ∀ g : Fin 1, (Uplink.target ringSats ringAddrs (SatAddress.mk3 .big 3 0 2)).isSome
        decide)
    (extra := fun _ => 100) (fun g d u w x hs hx h1 h2 => by
      show ringOpen w g d = true
      simp only [ringOpen, decide_eq_true_eq]
      exact ⟨u, x, hs, hx, h1, h2⟩) (fun _ => by norm_num)
    (calls := [.send 0 2000000000000 11 10 7]) (by simp) (by unfold Network.Short; decide) (by simp [Network.Op.internal]) (by simp) (until_ := 2000000001000) (by simp [Network.Op.when])
  have hroom := C100_room (fun g => (elevationStart_facts ringNet g).1) (fun g => (elevationStart_facts ringNet g).2.1) h1 h2 (g := 0) (K := 2) (bytes := fun _ => 100) rfl (by decide)
  obtain ⟨s', hs', hd⟩ := hall ops _ h1 h2
  simp only [Outcome.ok.injEq] at hs'
  subst hs'
  obtain ⟨d, -, t, t1, t2, t3⟩ := hd h3 h4 0 2000000000000 11 10 7 (by simp) (by norm_num) (by decide) (by rw [hroom]; simp)
  exact ⟨v, ops, s, h1, h2, d, t, t1, t2, t3⟩

/-- With four satellites that are said to set at once, at the very start, the simulation never gets beyond time 0. -/
example {more : List (Op (Fin 4) (Fin 1) (Fin 0) Int)} {s : Sys (Fin 4) (Fin 1) (Fin 0) Int (NoneMac.Sys Int) Unit}
    (h : exec ringNet (elevationFires true ringNet ring (fun _ t => (⟨fun _ => 0.5, fun _ => some t, fun _ => 100⟩ : View (Fin 4) ℝ)) (fun _ => 0.4)) (elevationStart ringNet) more = some (.ok s)) :
    s.net.clock = 0 :=
  Nat.le_zero.mp (C101_stuck (g := 0) (t0 := 0) ringBuilt Orbit.ring_full (by simp) (by simp) (by simp) (ops := []) (more := more) rfl
    (by simp [Sys.init, elevationStart, Tracker.elevationInit, insertEvent]) h)

end

end TrackedNet
end Icarus
