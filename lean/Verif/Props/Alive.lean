import Verif.Props.Realize
import Verif.Props.LinkDelay

/-!
# The whole network runs every traffic to its end (C97)
-/

set_option autoImplicit false

namespace Icarus
namespace Network
open GroundSatChannel

variable {D G E V W P R : Type}

/-- Scheduled events, as opposed to calls from outside. -/
def Op.internal : Op D G E W → Bool
  | .run _ => true
  | .upArrive => true
  | .upFinish _ => true
  | .sat _ .run => true
  | .downArrive => true
  | .downFinish _ => true
  | .isl o => o.internal
  | _ => false

/-- When a call is made. -/
def Op.when : Op D G E W → Nat
  | .send _ t _ _ _ => t
  | .setPower _ t _ => t
  | .track _ t _ => t
  | .sat _ (.send t _ _ _) => t
  | .sat _ (.setPower t _) => t
  | .isl (.tx _ (.send t _ _ _)) => t
  | _ => 0

/-- Nothing is scheduled in the whole network. -/
def Quiet (net : Net D G E V W P R) (s : Sys D G E W R) : Prop := Uplink.Quiet net.up s.up ∧ Downlink.Quiet s.down ∧ IslNet.Quiet s.isl

/-- The time of the simulation: of the last operation. -/
def Sys.clock (s : Sys D G E W R) : Nat := max s.up.clock (max s.down.clock s.isl.clock)

/-- Nothing in the network is scheduled before `t`. -/
def due (net : Net D G E V W P R) (s : Sys D G E W R) (t : Nat) : Prop := Uplink.due net.up s.up t ∧ Downlink.due s.down t ∧ IslNet.due s.isl t

theorem due.clock {net : Net D G E V W P R} {s : Sys D G E W R} {t : Nat} (h : due net s t) : s.clock ≤ t :=
  Nat.max_le.mpr ⟨h.1.1, Nat.max_le.mpr ⟨h.2.1.1, h.2.2.1⟩⟩

/-- How many events can still take place if nobody calls a device. -/
def work [Fintype D] [Fintype G] [Fintype E] (net : Net D G E V W P R) (K : Nat) (s : Sys D G E W R) : Nat :=
  Uplink.work net.up K s.up + Downlink.work net.chan.ground.length s.down + IslNet.work s.isl

variable [Fintype G] [Fintype D] [Fintype E] [DecidableEq G] [DecidableEq D] [DecidableEq E]
  {net : Net D G E V W P R} {w : World D G E W} {peer : E → E} {hist : List (Nat × Nat × D)} {as : List SatAddress}

/-! ## Times -/

omit [Fintype E] [DecidableEq E] in
theorem up_when {s : Sys D G E W R} {s' : Uplink.Sys D G W R} {o : Op D G E W} {u : Uplink.Op D G W} {t : Nat} (hu : toUp o = some u)
    (ht : time net s o = some t) (h : Uplink.step net.up s.up u = some (.ok s')) : s'.clock = t := by
  cases o with
  | send g a pkt len proto =>
    simp only [toUp, Option.some.injEq] at hu; subst hu
    obtain ⟨t', st, x, h1, -, -, -, rfl⟩ := Uplink.step_station h
    simp only [Uplink.opTime, time, Option.some.injEq] at h1 ht; subst h1; exact ht
  | setPower g a v =>
    simp only [toUp, Option.some.injEq] at hu; subst hu
    obtain ⟨t', st, x, h1, -, -, -, rfl⟩ := Uplink.step_station h
    simp only [Uplink.opTime, time, Option.some.injEq] at h1 ht; subst h1; exact ht
  | track g a b =>
    simp only [toUp, Option.some.injEq] at hu; subst hu
    obtain ⟨t', st, x, h1, -, -, -, rfl⟩ := Uplink.step_station h
    simp only [Uplink.opTime, time, Option.some.injEq] at h1 ht; subst h1; exact ht
  | run g =>
    simp only [toUp, Option.some.injEq] at hu; subst hu
    obtain ⟨t', st, x, h1, -, -, -, rfl⟩ := Uplink.step_station h
    simp only [Uplink.opTime, time] at h1 ht; rw [h1] at ht; exact Option.some.inj ht
  | upArrive =>
    simp only [toUp, Option.some.injEq] at hu; subst hu
    obtain ⟨t', d, f, rest, st, h1, -, -, rfl⟩ := Uplink.step_arrive h
    simp only [time, h1, List.head?_cons, Option.map_some, Option.some.injEq] at ht; exact ht
  | upFinish d =>
    simp only [toUp, Option.some.injEq] at hu; subst hu
    obtain ⟨t', ts, st, h1, -, -, rfl⟩ := Uplink.step_finish h
    have h1' : net.rx.due (s.up.sats d) = t' :: ts := h1
    simp only [time, h1', List.head?_cons, Option.some.injEq] at ht; exact ht
  | _ => simp [toUp] at hu

omit [Fintype E] [DecidableEq E] in
theorem down_when {s : Sys D G E W R} {s' : Downlink.Sys D G W} {o : Op D G E W} {u : Downlink.Op D G W} {t : Nat} (hu : toDown o = some u)
    (ht : time net s o = some t) (h : Downlink.step net.down s.down u = some (.ok s')) : s'.clock = t := by
  cases o with
  | track g a b =>
    simp only [toDown, Option.some.injEq] at hu; subst hu
    obtain ⟨st, -, -, rfl⟩ := Downlink.step_track h
    simp only [time, Option.some.injEq] at ht; exact ht
  | sat d o =>
    simp only [toDown, Option.some.injEq] at hu; subst hu
    obtain ⟨t', st, x, h1, -, -, -, rfl⟩ := Downlink.step_sat h
    simp only [time] at ht; rw [h1] at ht; exact Option.some.inj ht
  | downArrive =>
    simp only [toDown, Option.some.injEq] at hu; subst hu
    obtain ⟨t', d, f, rest, st, h1, -, -, rfl⟩ := Downlink.step_arrive h
    simp only [time, h1, List.head?_cons, Option.map_some, Option.some.injEq] at ht; exact ht
  | downFinish d =>
    simp only [toDown, Option.some.injEq] at hu; subst hu
    obtain ⟨t', u, ts, st, h1, -, -, rfl⟩ := Downlink.step_finish h
    simp only [time, h1, List.head?_cons, Option.map_some, Option.some.injEq] at ht; exact ht
  | _ => simp [toDown] at hu

omit [Fintype G] [Fintype D] [DecidableEq G] [DecidableEq D] in
theorem isl_when {s : Sys D G E W R} {s' : IslNet.Sys E} {o : Op D G E W} {u : IslNet.Op E} {t : Nat} (hu : toIsl o = some u)
    (ht : time net s o = some t) (h : IslNet.step net.isl s.isl u = some (.ok s')) : s'.clock = t := by
  cases o with
  | isl o =>
    simp only [toIsl, Option.some.injEq] at hu; subst hu
    cases o with
    | tx e o =>
      obtain ⟨t', st, x, h1, -, -, -, rfl⟩ := IslNet.step_tx h
      simp only [time] at ht; rw [h1] at ht; exact Option.some.inj ht
    | arrive =>
      obtain ⟨t', d, f, rest, st, h1, -, -, rfl⟩ := IslNet.step_arrive h
      simp only [time, h1, List.head?_cons, Option.map_some, Option.some.injEq] at ht; exact ht
    | finish d =>
      obtain ⟨t', u, ts, st, h1, -, -, rfl⟩ := IslNet.step_finish h
      simp only [time, h1, List.head?_cons, Option.map_some, Option.some.injEq] at ht; exact ht
  | _ => simp [toIsl] at hu

omit [Fintype G] [Fintype D] [Fintype E] [DecidableEq G] [DecidableEq D] [DecidableEq E] in
theorem part_cases {S O : Type} {st : S → O → Option (Outcome S)} {s s' : S} {u : Option O} (h : part st s u = some (.ok s')) :
    (u = none ∧ s' = s) ∨ ∃ o, u = some o ∧ st s o = some (.ok s') := by
  cases u with
  | none =>
    simp only [part, Option.some.injEq, Outcome.ok.injEq] at h
    exact Or.inl ⟨rfl, h.symm⟩
  | some o => exact Or.inr ⟨o, rfl, h⟩

/-- An operation takes place at the time of the simulation after it. -/
theorem step_clock {s s' : Sys D G E W R} {o : Op D G E W} (h : step net s o = some (.ok s')) : time net s o = some s'.clock ∧ due net s s'.clock := by
  obtain ⟨t, ht, d1, d2, d3, p1, p2, p3⟩ := step_ok h
  have e : s'.clock = t := by
    have b1 : s'.up.clock = t ∨ (toUp o = none ∧ s'.up.clock ≤ t) := by
      rcases part_cases p1 with ⟨hn, e⟩ | ⟨u, hu, hs⟩
      · rw [e]; exact Or.inr ⟨hn, d1.1⟩
      · exact Or.inl (up_when hu ht hs)
    have b2 : s'.down.clock = t ∨ (toDown o = none ∧ s'.down.clock ≤ t) := by
      rcases part_cases p2 with ⟨hn, e⟩ | ⟨u, hu, hs⟩
      · rw [e]; exact Or.inr ⟨hn, d2.1⟩
      · exact Or.inl (down_when hu ht hs)
    have b3 : s'.isl.clock = t ∨ (toIsl o = none ∧ s'.isl.clock ≤ t) := by
      rcases part_cases p3 with ⟨hn, e⟩ | ⟨u, hu, hs⟩
      · rw [e]; exact Or.inr ⟨hn, d3.1⟩
      · exact Or.inl (isl_when hu ht hs)
    have hsome : toUp o ≠ none ∨ toDown o ≠ none ∨ toIsl o ≠ none := by cases o <;> simp [toUp, toDown, toIsl]
    unfold Sys.clock
    rcases b1 with b1 | ⟨n1, b1⟩ <;> rcases b2 with b2 | ⟨n2, b2⟩ <;> rcases b3 with b3 | ⟨n3, b3⟩ <;> try omega
    exact absurd hsome (by simp [n1, n2, n3])
  rw [e]
  exact ⟨ht, d1, d2, d3⟩

variable {clock : R → Nat}

/-- Nothing is scheduled in the past. -/
theorem on_time (hs : Setup net w peer hist as) (ho : Uplink.Orderly net.rx clock) {ops : List (Op D G E W)} (hl : Launched net hist as ops)
    {s : Sys D G E W R} (h : exec net ops = some (.ok s)) : due net s s.clock := by
  obtain ⟨hasOrbit, cid, n, m, k, hb, hfit, hk⟩ := hs.built
  cases ops using List.reverseRecOn with
  | nil =>
    simp only [exec, runFrom, Option.some.injEq, Outcome.ok.injEq] at h
    subst h
    refine ⟨⟨by simp [Sys.clock], ?_, ?_, ?_⟩, ⟨by simp [Sys.clock], ?_, ?_, ?_⟩, by simp [Sys.clock], ?_, ?_, ?_⟩ <;>
      simp [Sys.init, Uplink.Sys.init, Downlink.Sys.init, IslNet.Sys.init, GroundSta.Sys.init, Sat2Ground.Sys.init, GroundStaRx.Sys.init, SatNet.Sys.init,
        Net.up, ho.init.2]
  | append_singleton os o =>
    have hall := h
    obtain ⟨s1, h1, h2⟩ := runFrom_snoc.mp h
    obtain ⟨q1, q2, q3⟩ := C73_parts hall
    obtain ⟨hc, d1, d2, d3⟩ := step_clock h2
    obtain ⟨t, ht, -, -, -, p1, p2, p3⟩ := step_ok h2
    obtain rfl : t = s.clock := by rw [hc] at ht; exact (Option.some.inj ht).symm
    refine ⟨?_, ?_, ?_⟩
    · rcases part_cases p1 with ⟨-, e⟩ | ⟨u, hu, hst⟩
      · rw [e]; exact d1
      · have := (Uplink.onTime ho hb hfit hk hs.sky hl.up q1).1
        rwa [up_when hu ht hst] at this
    · rcases part_cases p2 with ⟨-, e⟩ | ⟨u, hu, hst⟩
      · rw [e]; exact d2
      · have := (Downlink.onTime hs.downSky q2).1
        rwa [down_when hu ht hst] at this
    · rcases part_cases p3 with ⟨-, e⟩ | ⟨u, hu, hst⟩
      · rw [e]; exact d3
      · have := (IslNet.onTime hs.islSky hs.wired q3).1
        rwa [isl_when hu ht hst] at this

/-! ## Progress -/

omit [Fintype E] [DecidableEq E] in
theorem up_lift {s : Sys D G E W R} {u : Uplink.Op D G W} {s' : Uplink.Sys D G W R} (hi : u.internal = true) (h : Uplink.step net.up s.up u = some (.ok s')) :
    ∃ (o : Op D G E W) (t : Nat), o.internal = true ∧ toUp o = some u ∧ toDown o = none ∧ toIsl o = none ∧ time net s o = some t ∧
      Uplink.due net.up s.up t ∧ ∀ c, Uplink.due net.up s.up c → c ≤ t := by
  cases u with
  | station g o =>
    cases o with
    | run =>
      obtain ⟨t, st, x, h1, h2, -, -, -⟩ := Uplink.step_station h
      refine ⟨.run g, t, rfl, rfl, rfl, rfl, h1, h2, fun c hc => ?_⟩
      simp only [Uplink.opTime, Option.map_eq_some_iff] at h1
      obtain ⟨e, e1, e2⟩ := h1
      rw [← e2]
      exact hc.2.1 g e (List.mem_of_head? e1)
    | _ => simp [Uplink.Op.internal] at hi
  | arrive =>
    obtain ⟨t, d, f, rest, st, h1, h2, -, -⟩ := Uplink.step_arrive h
    exact ⟨.upArrive, t, rfl, rfl, rfl, rfl, by simp [time, h1], h2, fun c hc => hc.2.2.1 (t, d, f) (by simp [h1])⟩
  | finish d =>
    obtain ⟨t, ts, st, h1, h2, -, -⟩ := Uplink.step_finish h
    have h1' : net.rx.due (s.up.sats d) = t :: ts := h1
    exact ⟨.upFinish d, t, rfl, rfl, rfl, rfl, by simp [time, h1'], h2, fun c hc => hc.2.2.2 d t (by rw [h1]; simp)⟩

omit [Fintype E] [DecidableEq E] in
theorem down_lift {s : Sys D G E W R} {u : Downlink.Op D G W} {s' : Downlink.Sys D G W} (hi : u.internal = true) (h : Downlink.step net.down s.down u = some (.ok s')) :
    ∃ (o : Op D G E W) (t : Nat), o.internal = true ∧ toUp o = none ∧ toDown o = some u ∧ toIsl o = none ∧ time net s o = some t ∧
      Downlink.due s.down t ∧ ∀ c, Downlink.due s.down c → c ≤ t := by
  cases u with
  | sat d o =>
    cases o with
    | run =>
      obtain ⟨t, st, x, h1, h2, -, -, -⟩ := Downlink.step_sat h
      refine ⟨.sat d .run, t, rfl, rfl, rfl, rfl, h1, h2, fun c hc => ?_⟩
      simp only [Downlink.opTime, Option.map_eq_some_iff] at h1
      obtain ⟨e, e1, e2⟩ := h1
      rw [← e2]
      exact hc.2.1 d e (List.mem_of_head? e1)
    | _ => simp [Downlink.Op.internal] at hi
  | track g t a => simp [Downlink.Op.internal] at hi
  | arrive =>
    obtain ⟨t, d, f, rest, st, h1, h2, -, -⟩ := Downlink.step_arrive h
    exact ⟨.downArrive, t, rfl, rfl, rfl, rfl, by simp [time, h1], h2, fun c hc => hc.2.2.1 (t, d, f) (by simp [h1])⟩
  | finish g =>
    obtain ⟨t, u, ts, st, h1, h2, -, -⟩ := Downlink.step_finish h
    exact ⟨.downFinish g, t, rfl, rfl, rfl, rfl, by simp [time, h1], h2, fun c hc => hc.2.2.2 g (t, u) (by simp [h1])⟩

omit [Fintype G] [Fintype D] [DecidableEq G] [DecidableEq D] in
theorem isl_lift {s : Sys D G E W R} {u : IslNet.Op E} {s' : IslNet.Sys E} (hi : u.internal = true) (h : IslNet.step net.isl s.isl u = some (.ok s')) :
    ∃ (o : Op D G E W) (t : Nat), o.internal = true ∧ toUp o = none ∧ toDown o = none ∧ toIsl o = some u ∧ time net s o = some t ∧
      IslNet.due s.isl t ∧ ∀ c, IslNet.due s.isl c → c ≤ t := by
  cases u with
  | tx e o =>
    cases o with
    | run =>
      obtain ⟨t, st, x, h1, h2, -, -, -⟩ := IslNet.step_tx h
      refine ⟨.isl (.tx e .run), t, rfl, rfl, rfl, rfl, h1, h2, fun c hc => ?_⟩
      simp only [IslNet.opTime, Option.map_eq_some_iff] at h1
      obtain ⟨x, e1, e2⟩ := h1
      rw [← e2]
      exact hc.2.1 e x (List.mem_of_head? e1)
    | _ => simp [IslNet.Op.internal] at hi
  | arrive =>
    obtain ⟨t, d, f, rest, st, h1, h2, -, -⟩ := IslNet.step_arrive h
    exact ⟨.isl .arrive, t, rfl, rfl, rfl, rfl, by simp [time, h1], h2, fun c hc => hc.2.2.1 (t, d, f) (by simp [h1])⟩
  | finish e =>
    obtain ⟨t, u, ts, st, h1, h2, -, -⟩ := IslNet.step_finish h
    exact ⟨.isl (.finish e), t, rfl, rfl, rfl, rfl, by simp [time, h1], h2, fun c hc => hc.2.2.2 e (t, u) (by simp [h1])⟩

omit [Fintype G] [Fintype D] [Fintype E] [DecidableEq G] [DecidableEq D] [DecidableEq E] in
theorem Launched.free {ops : List (Op D G E W)} (h : Launched net hist as (ops.filter (fun o => !o.internal))) : Launched net hist as ops :=
  ⟨h.1, fun g t a ha => h.2 g t a (List.mem_filter.mpr ⟨ha, rfl⟩)⟩

omit [Fintype G] [Fintype D] [Fintype E] [DecidableEq G] [DecidableEq D] [DecidableEq E] in
theorem Launched.snoc_internal {ops : List (Op D G E W)} (h : Launched net hist as ops) {o : Op D G E W} (ho : o.internal = true) : Launched net hist as (ops ++ [o]) := by
  refine ⟨h.1, fun g t a ha => ?_⟩
  rcases List.mem_append.mp ha with ha | ha
  · exact h.2 g t a ha
  · rw [List.mem_singleton] at ha
    subst ha
    simp [Op.internal] at ho

/-- The setting in which the network runs: receivers that never fail, and MACs that send each packet at least once and at most `K` times. -/
structure Runnable (net : Net D G E V W P R) (w : World D G E W) (peer : E → E) (hist : List (Nat × Nat × D)) (as : List SatAddress) (clock : R → Nat)
    (K : Nat) : Prop where
  setup : Setup net w peer hist as
  safe : Uplink.Safe net.rx
  orderly : Uplink.Orderly net.rx clock
  oneEach : Uplink.OneEach net.rx
  copies : ∀ g, Uplink.Copies (net.mac g) K

variable {K : Nat}

omit [Fintype E] in
theorem Runnable.up (hr : Runnable net w peer hist as clock K) :
    Runs (Uplink.step net.up) (Uplink.Sys.init net.up) Uplink.Op.internal (Uplink.work net.up K) Uplink.Op.time Uplink.Sys.clock (Uplink.due net.up)
      (Uplink.Quiet net.up) (Uplink.Launched net.up hist as) := by
  obtain ⟨hasOrbit, cid, n, m, k, hb, hfit, hk⟩ := hr.setup.built
  exact Uplink.runs hr.safe hr.orderly hr.oneEach hr.copies hb hfit hk hr.setup.sky

omit [Fintype E] in
theorem Runnable.down (hr : Runnable net w peer hist as clock K) :
    Runs (Downlink.step net.down) (Downlink.Sys.init net.down) Downlink.Op.internal (Downlink.work net.chan.ground.length) Downlink.Op.time Downlink.Sys.clock
      Downlink.due Downlink.Quiet (fun _ => True) := Downlink.runs hr.setup.downSky

omit [Fintype G] [Fintype D] [DecidableEq G] [DecidableEq D] in
theorem Runnable.isl (hr : Runnable net w peer hist as clock K) :
    Runs (IslNet.step net.isl) IslNet.Sys.init IslNet.Op.internal IslNet.work IslNet.Op.time IslNet.Sys.clock IslNet.due IslNet.Quiet (fun _ => True) :=
  IslNet.runs hr.setup.islSky hr.setup.wired

/-- What a part can do, the whole network can. -/
theorem part_step {s : Sys D G E W R} {o : Op D G E W} {t : Nat} (ht : time net s o = some t) (hd : due net s t)
    (h1 : ∃ r, part (Uplink.step net.up) s.up (toUp o) = some r) (h2 : ∃ r, part (Downlink.step net.down) s.down (toDown o) = some r)
    (h3 : ∃ r, part (IslNet.step net.isl) s.isl (toIsl o) = some r) : ∃ r, step net s o = some r := by
  obtain ⟨a, ha⟩ := h1
  obtain ⟨b, hb⟩ := h2
  obtain ⟨c, hc⟩ := h3
  have hd' : Uplink.due net.up s.up t ∧ Downlink.due s.down t ∧ IslNet.due s.isl t := hd
  unfold step
  simp only [ht, if_pos hd', ha, hb, hc]
  exact ⟨_, rfl⟩

/-- A part that is not at rest has a next event. -/
theorem next {S O : Type} {st : S → O → Option (Outcome S)} {s0 : S} {I : O → Bool} {μ : S → Nat} {time : O → Nat} {clk : S → Nat} {Due : S → Nat → Prop}
    {Q : S → Prop} {C : List O → Prop} (hr : Runs st s0 I μ time clk Due Q C) {ops : List O} (hc : C ops) {s : S} (h : runFrom st s0 ops = some (.ok s))
    (hq : ¬ Q s) : ∃ o s', I o = true ∧ st s o = some (.ok s') := by
  obtain ⟨o, ho, r, hst⟩ := hr.more ops s hc h hq
  have hsnoc : runFrom st s0 (ops ++ [o]) = some r := by
    rw [runFrom_append, h]
    simp only [runFrom, hst]
    cases r <;> rfl
  obtain ⟨s', rfl⟩ := hr.okay _ _ (hr.internal _ _ hc ho) hsnoc
  exact ⟨o, s', ho, hst⟩

/-- As long as anything is scheduled anywhere, the next event can run: the earliest in the whole network. -/
theorem progress (hr : Runnable net w peer hist as clock K) {ops : List (Op D G E W)} (hl : Launched net hist as ops) {s : Sys D G E W R}
    (h : exec net ops = some (.ok s)) (hq : ¬ Quiet net s) : ∃ o, o.internal = true ∧ ∃ r, step net s o = some r := by
  classical
  obtain ⟨q1, q2, q3⟩ := C73_parts h
  have hnow := on_time hr.setup hr.orderly hl h
  let Cand : Nat → Prop := fun t => ∃ o : Op D G E W, o.internal = true ∧ time net s o = some t ∧ s.clock ≤ t ∧
    (∃ r, part (Uplink.step net.up) s.up (toUp o) = some r) ∧ (∃ r, part (Downlink.step net.down) s.down (toDown o) = some r) ∧
    ∃ r, part (IslNet.step net.isl) s.isl (toIsl o) = some r
  have c1 : Uplink.Quiet net.up s.up ∨ ∃ t, Cand t ∧ Uplink.due net.up s.up t := by
    by_cases hq1 : Uplink.Quiet net.up s.up
    · exact Or.inl hq1
    · obtain ⟨u, s', hu, hst⟩ := next hr.up hl.up q1 hq1
      obtain ⟨o, t, o1, o2, o3, o4, o5, o6, o7⟩ := up_lift (net := net) hu hst
      exact Or.inr ⟨t, ⟨o, o1, o5, o7 _ hnow.1, by rw [o2]; exact ⟨_, hst⟩, by rw [o3]; exact ⟨_, rfl⟩, by rw [o4]; exact ⟨_, rfl⟩⟩, o6⟩
  have c2 : Downlink.Quiet s.down ∨ ∃ t, Cand t ∧ Downlink.due s.down t := by
    by_cases hq1 : Downlink.Quiet s.down
    · exact Or.inl hq1
    · obtain ⟨u, s', hu, hst⟩ := next hr.down trivial q2 hq1
      obtain ⟨o, t, o1, o2, o3, o4, o5, o6, o7⟩ := down_lift (net := net) hu hst
      exact Or.inr ⟨t, ⟨o, o1, o5, o7 _ hnow.2.1, by rw [o2]; exact ⟨_, rfl⟩, by rw [o3]; exact ⟨_, hst⟩, by rw [o4]; exact ⟨_, rfl⟩⟩, o6⟩
  have c3 : IslNet.Quiet s.isl ∨ ∃ t, Cand t ∧ IslNet.due s.isl t := by
    by_cases hq1 : IslNet.Quiet s.isl
    · exact Or.inl hq1
    · obtain ⟨u, s', hu, hst⟩ := next hr.isl trivial q3 hq1
      obtain ⟨o, t, o1, o2, o3, o4, o5, o6, o7⟩ := isl_lift (net := net) hu hst
      exact Or.inr ⟨t, ⟨o, o1, o5, o7 _ hnow.2.2, by rw [o2]; exact ⟨_, rfl⟩, by rw [o3]; exact ⟨_, rfl⟩, by rw [o4]; exact ⟨_, hst⟩⟩, o6⟩
  have hex : ∃ t, Cand t := by
    rcases c1 with c1 | ⟨t, ht, -⟩
    · rcases c2 with c2 | ⟨t, ht, -⟩
      · rcases c3 with c3 | ⟨t, ht, -⟩
        · exact absurd ⟨c1, c2, c3⟩ hq
        · exact ⟨t, ht⟩
      · exact ⟨t, ht⟩
    · exact ⟨t, ht⟩
  obtain ⟨o, o1, o2, o3, o4, o5, o6⟩ := Nat.find_spec hex
  have hle := Nat.max_le.mp o3
  have hle' := Nat.max_le.mp hle.2
  refine ⟨o, o1, part_step o2 ⟨?_, ?_, ?_⟩ o4 o5 o6⟩
  · rcases c1 with c1 | ⟨t, ht, hd⟩
    · exact ⟨hle.1, fun g e he => by simp [c1.1 g] at he, fun e he => by simp [c1.2.1] at he, fun d e he => by simp [c1.2.2 d] at he⟩
    · have := Nat.find_min' hex ht
      exact ⟨hle.1, fun g e he => this.trans (hd.2.1 g e he), fun e he => this.trans (hd.2.2.1 e he), fun d e he => this.trans (hd.2.2.2 d e he)⟩
  · rcases c2 with c2 | ⟨t, ht, hd⟩
    · exact ⟨hle'.1, fun g e he => by simp [c2.1 g] at he, fun e he => by simp [c2.2.1] at he, fun d e he => by simp [c2.2.2 d] at he⟩
    · have := Nat.find_min' hex ht
      exact ⟨hle'.1, fun g e he => this.trans (hd.2.1 g e he), fun e he => this.trans (hd.2.2.1 e he), fun d e he => this.trans (hd.2.2.2 d e he)⟩
  · rcases c3 with c3 | ⟨t, ht, hd⟩
    · exact ⟨hle'.2, fun g e he => by simp [c3.1 g] at he, fun e he => by simp [c3.2.1] at he, fun d e he => by simp [c3.2.2 d] at he⟩
    · have := Nat.find_min' hex ht
      exact ⟨hle'.2, fun g e he => this.trans (hd.2.1 g e he), fun e he => this.trans (hd.2.2.1 e he), fun d e he => this.trans (hd.2.2.2 d e he)⟩

/-- Every event leaves less work. -/
theorem step_work (hr : Runnable net w peer hist as clock K) {s s' : Sys D G E W R} {o : Op D G E W} (hi : o.internal = true)
    (h : step net s o = some (.ok s')) : work net K s' < work net K s := by
  obtain ⟨t, -, -, -, -, p1, p2, p3⟩ := step_ok h
  have u1 : ∀ u, toUp o = some u → u.internal = true := by
    intro u hu
    cases o <;> simp only [toUp, Option.some.injEq, reduceCtorEq] at hu <;> subst hu <;> first | rfl | simp [Op.internal] at hi
  have u2 : ∀ u, toDown o = some u → u.internal = true := by
    intro u hu
    cases o with
    | sat d o =>
      simp only [toDown, Option.some.injEq] at hu
      subst hu
      cases o <;> first | rfl | simp [Op.internal] at hi
    | _ => simp only [toDown, Option.some.injEq, reduceCtorEq] at hu <;> subst hu <;> first | rfl | simp [Op.internal] at hi
  have u3 : ∀ u, toIsl o = some u → u.internal = true := by
    intro u hu
    cases o with
    | isl o =>
      simp only [toIsl, Option.some.injEq] at hu
      subst hu
      exact hi
    | _ => simp [toIsl] at hu
  have b1 : (toUp o = none ∧ s'.up = s.up) ∨ Uplink.work net.up K s'.up < Uplink.work net.up K s.up := by
    rcases part_cases p1 with ⟨hn, e⟩ | ⟨u, hu, hst⟩
    · exact Or.inl ⟨hn, e⟩
    · exact Or.inr (Uplink.step_work hr.orderly hr.oneEach hr.copies (u1 u hu) hst).1
  have b2 : (toDown o = none ∧ s'.down = s.down) ∨ Downlink.work net.chan.ground.length s'.down < Downlink.work net.chan.ground.length s.down := by
    rcases part_cases p2 with ⟨hn, e⟩ | ⟨u, hu, hst⟩
    · exact Or.inl ⟨hn, e⟩
    · exact Or.inr (Downlink.step_work (net := net.down) (u2 u hu) hst).1
  have b3 : (toIsl o = none ∧ s'.isl = s.isl) ∨ IslNet.work s'.isl < IslNet.work s.isl := by
    rcases part_cases p3 with ⟨hn, e⟩ | ⟨u, hu, hst⟩
    · exact Or.inl ⟨hn, e⟩
    · exact Or.inr (IslNet.step_work (u3 u hu) hst).1
  have hsome : toUp o ≠ none ∨ toDown o ≠ none ∨ toIsl o ≠ none := by cases o <;> simp [toUp, toDown, toIsl]
  unfold work
  rcases b1 with ⟨n1, b1⟩ | b1 <;> rcases b2 with ⟨n2, b2⟩ | b2 <;> rcases b3 with ⟨n3, b3⟩ | b3 <;> (try rw [b1]) <;> (try rw [b2]) <;> (try rw [b3]) <;> try omega
  exact absurd hsome (by simp [n1, n2, n3])

theorem runs (hr : Runnable net w peer hist as clock K) :
    Runs (step net) (Sys.init net) Op.internal (work net K) Op.when Sys.clock (due net) (Quiet net) (Launched net hist as) where
  start := rfl
  less := fun _ _ _ _ _ hi hs => step_work hr hi hs
  okay := fun ops r hl h => C73_safe hr.setup hr.safe hl h
  free := fun _ h => h.free
  internal := fun _ _ hc hi => hc.snoc_internal hi
  left := fun _ _ h => h.left
  more := fun ops s hl h hq => progress hr hl h hq
  when := fun _ _ _ _ h => (step_clock h).2
  late := by
    intro s t hc hn
    have hc1 : s.up.clock ≤ t := (Nat.le_max_left _ _).trans hc
    have hc2 : s.down.clock ≤ t := ((Nat.le_max_left _ _).trans (Nat.le_max_right _ _)).trans hc
    have hc3 : s.isl.clock ≤ t := ((Nat.le_max_right _ _).trans (Nat.le_max_right _ _)).trans hc
    by_cases h1 : Uplink.due net.up s.up t
    · by_cases h2 : Downlink.due s.down t
      · by_cases h3 : IslNet.due s.isl t
        · exact absurd ⟨h1, h2, h3⟩ hn
        · obtain ⟨l1, l2⟩ := hr.isl.late _ _ hc3 h3
          exact ⟨fun hq => l1 hq.2.2, fun u hu => l2 u hu.2.2⟩
      · obtain ⟨l1, l2⟩ := hr.down.late _ _ hc2 h2
        exact ⟨fun hq => l1 hq.2.1, fun u hu => l2 u hu.2.1⟩
    · obtain ⟨l1, l2⟩ := hr.up.late _ _ hc1 h1
      exact ⟨fun hq => l1 hq.1, fun u hu => l2 u hu.1⟩
  call := by
    intro ops s o hl h hi hd
    obtain ⟨q1, q2, q3⟩ := C73_parts h
    have hnone : ∀ {S O : Type} (st : S → O → Option (Outcome S)) (s : S), ∃ r, part st s none = some r := fun _ _ => ⟨_, rfl⟩
    cases o with
    | send g t pkt len proto => exact part_step (t := t) rfl hd (hr.up.call _ _ (.station g (.send t pkt len proto)) hl.up q1 rfl hd.1) (hnone _ _) (hnone _ _)
    | setPower g t v => exact part_step (t := t) rfl hd (hr.up.call _ _ (.station g (.setPower t v)) hl.up q1 rfl hd.1) (hnone _ _) (hnone _ _)
    | track g t a =>
      exact part_step (t := t) rfl hd (hr.up.call _ _ (.station g (.setRemote t a)) hl.up q1 rfl hd.1) (hr.down.call _ _ (.track g t a) trivial q2 rfl hd.2.1) (hnone _ _)
    | sat d o =>
      cases o with
      | send t pkt len proto => exact part_step (t := t) rfl hd (hnone _ _) (hr.down.call _ _ (.sat d (.send t pkt len proto)) trivial q2 rfl hd.2.1) (hnone _ _)
      | setPower t v => exact part_step (t := t) rfl hd (hnone _ _) (hr.down.call _ _ (.sat d (.setPower t v)) trivial q2 rfl hd.2.1) (hnone _ _)
      | run => simp [Op.internal] at hi
    | isl o =>
      cases o with
      | tx e o =>
        cases o with
        | send t pkt len proto => exact part_step (t := t) rfl hd (hnone _ _) (hnone _ _) (hr.isl.call _ _ (.tx e (.send t pkt len proto)) trivial q3 rfl hd.2.2)
        | run => simp [Op.internal, IslNet.Op.internal] at hi
      | _ => simp [Op.internal, IslNet.Op.internal] at hi
    | _ => simp [Op.internal] at hi
  then_ := by
    intro s o s' hi h
    obtain ⟨ht, -⟩ := step_clock h
    cases o with
    | sat d o =>
      cases o with
      | run => simp [Op.internal] at hi
      | _ => simp only [time, Downlink.opTime, Option.some.injEq] at ht; exact ht.symm
    | isl o =>
      cases o with
      | tx e o =>
        cases o with
        | run => simp [Op.internal, IslNet.Op.internal] at hi
        | _ => simp only [time, IslNet.opTime, Option.some.injEq] at ht; exact ht.symm
      | _ => simp [Op.internal, IslNet.Op.internal] at hi
    | send g t pkt len proto => simp only [time, Option.some.injEq] at ht; exact ht.symm
    | setPower g t v => simp only [time, Option.some.injEq] at ht; exact ht.symm
    | track g t a => simp only [time, Option.some.injEq] at ht; exact ht.symm
    | _ => simp [Op.internal] at hi

/-- At rest no event takes place. -/
theorem quiet_stops {s : Sys D G E W R} (hq : Quiet net s) {o : Op D G E W} (ho : o.internal = true) : step net s o = none := by
  have hnone : part (Uplink.step net.up) s.up (toUp o) = none ∨ part (Downlink.step net.down) s.down (toDown o) = none ∨
      part (IslNet.step net.isl) s.isl (toIsl o) = none := by
    cases o with
    | run g => exact Or.inl (Uplink.quiet_stops hq.1 (o := .station g .run) rfl)
    | upArrive => exact Or.inl (Uplink.quiet_stops hq.1 (o := .arrive) rfl)
    | upFinish d => exact Or.inl (Uplink.quiet_stops hq.1 (o := .finish d) rfl)
    | sat d o =>
      cases o with
      | run => exact Or.inr (Or.inl (Downlink.quiet_stops hq.2.1 (o := .sat d .run) rfl))
      | _ => simp [Op.internal] at ho
    | downArrive => exact Or.inr (Or.inl (Downlink.quiet_stops hq.2.1 (o := .arrive) rfl))
    | downFinish g => exact Or.inr (Or.inl (Downlink.quiet_stops hq.2.1 (o := .finish g) rfl))
    | isl o => exact Or.inr (Or.inr (IslNet.quiet_stops hq.2.2 ho))
    | _ => simp [Op.internal] at ho
  unfold step
  split
  · rfl
  · split
    · split
      · rename_i e1 e2 e3
        rcases hnone with h | h | h <;> simp_all
      · rfl
    · rfl

/-! ## The theorems -/

/-- A network that nobody calls comes to rest: from every state that can be reached, at most `work` events take place, in whatever order events of the same time run;
some event can run as long as anything is scheduled; and running events until none is left always succeeds. -/
theorem C97_rest (hr : Runnable net w peer hist as clock K) {ops : List (Op D G E W)} (hl : Launched net hist as ops) {s : Sys D G E W R}
    (h : exec net ops = some (.ok s)) :
    (∀ more, (∀ o ∈ more, o.internal = true) → ∀ s', exec net (ops ++ more) = some (.ok s') → more.length ≤ work net K s ∧
      (Quiet net s' ↔ ∀ o, o.internal = true → step net s' o = none)) ∧
    ∃ more s', (∀ o ∈ more, o.internal = true) ∧ exec net (ops ++ more) = some (.ok s') ∧ Quiet net s' := by
  have hint : ∀ more : List (Op D G E W), (∀ o ∈ more, o.internal = true) → Launched net hist as (ops ++ more) := by
    intro more hi
    refine ⟨hl.1, fun g t a ha => ?_⟩
    rcases List.mem_append.mp ha with ha | ha
    · exact hl.2 g t a ha
    · have := hi _ ha
      simp [Op.internal] at this
  constructor
  · intro more hi s' hs'
    have := internal_bounded (μ := work net K) (I := Op.internal) (fun _ o s s' _ hi hs => step_work hr hi hs) h hi hs'
    refine ⟨by omega, fun hq o ho => quiet_stops hq ho, fun hno => ?_⟩
    by_contra hq
    obtain ⟨o, ho, r, hst⟩ := progress hr (hint more hi) hs' hq
    rw [hno o ho] at hst
    simp at hst
  · obtain ⟨more, r, h1, h2, h3⟩ := internal_rests (μ := work net K) (I := Op.internal) (Q := Quiet net) (C := Launched net hist as)
      (fun _ o s s' _ hi hs => step_work hr hi hs) (fun _ _ hc hi => hc.snoc_internal hi) (fun ops s hc hs hq => progress hr hc hs hq) hl h
    obtain ⟨s', rfl⟩ := C73_safe hr.setup hr.safe (hint more h1) h2
    exact ⟨more, s', h1, h2, h3 s' rfl⟩

/-- Filtering and mapping commute if the map keeps what is filtered for. -/
theorem filter_filterMap {A B : Type} {f : A → Option B} {p : A → Bool} {q : B → Bool} (h : ∀ a b, f a = some b → q b = p a) (l : List A) :
    (l.filter p).filterMap f = (l.filterMap f).filter q := by
  induction l with
  | nil => rfl
  | cons a as ih =>
    cases hf : f a with
    | none =>
      rw [List.filterMap_cons_none hf, ← ih, List.filter_cons]
      split
      · rw [List.filterMap_cons_none hf]
      · rfl
    | some b =>
      rw [List.filterMap_cons_some hf, List.filter_cons, List.filter_cons, h a b hf, ← ih]
      split
      · rw [List.filterMap_cons_some hf]
      · rfl

omit [Fintype G] [Fintype D] [Fintype E] [DecidableEq G] [DecidableEq D] [DecidableEq E] in
/-- The calls of a part are its part of the calls. -/
theorem calls_up (ops : List (Op D G E W)) : (ops.filter (fun o => !o.internal)).filterMap toUp = (ops.filterMap toUp).filter (fun o => !o.internal) := by
  refine filter_filterMap (fun o u h => ?_) ops
  cases o <;> simp only [toUp, reduceCtorEq, Option.some.injEq] at h <;> subst h <;> rfl

omit [Fintype G] [Fintype D] [Fintype E] [DecidableEq G] [DecidableEq D] [DecidableEq E] in
theorem calls_down (ops : List (Op D G E W)) :
    (ops.filter (fun o => !o.internal)).filterMap toDown = (ops.filterMap toDown).filter (fun o => !o.internal) := by
  refine filter_filterMap (fun o u h => ?_) ops
  cases o with
  | sat d o => cases o <;> simp only [toDown, Option.some.injEq] at h <;> subst h <;> rfl
  | _ => all_goals (simp only [toDown, reduceCtorEq, Option.some.injEq] at h; try (subst h; rfl))

omit [Fintype G] [Fintype D] [Fintype E] [DecidableEq G] [DecidableEq D] [DecidableEq E] in
theorem calls_isl (ops : List (Op D G E W)) : (ops.filter (fun o => !o.internal)).filterMap toIsl = (ops.filterMap toIsl).filter (fun o => !o.internal) := by
  refine filter_filterMap (fun o u h => ?_) ops
  cases o with
  | isl o =>
    simp only [toIsl, Option.some.injEq] at h
    subst h
    rfl
  | _ => simp [toIsl] at h

/-- Every traffic in the whole network can be simulated: for every list of calls of `Send`, `SetRemoteAddress` and `SetTxPower` of any devices, in the order of their
times, that only track launched satellites, there is an execution that makes these calls and no others and runs until nothing is scheduled any more.  If a
device's queue never drops a packet, the device accepts exactly what it is asked to send. -/
theorem C97_traffic (hr : Runnable net w peer hist as clock K) {calls : List (Op D G E W)} (hl : Launched net hist as calls)
    (hext : ∀ o ∈ calls, o.internal = false) (hsorted : calls.Pairwise (fun a b => a.when ≤ b.when)) :
    ∃ ops s, exec net ops = some (.ok s) ∧ ops.filter (fun o => !o.internal) = calls ∧ Launched net hist as ops ∧ Quiet net s ∧
      (∀ g, (∀ q x, net.accept g q x = true) →
        (s.up.stations g).accepted = requests (net.remote g) (net.power g) (Uplink.opsOf g (calls.filterMap toUp))) ∧
      (∀ d, (∀ q x, net.satAccept d q x = true) →
        (s.down.sats d).accepted = Downlink.offered (net.satPower d) (Downlink.opsOf d (calls.filterMap toDown))) ∧
      ∀ e, (∀ q x, net.isl.accept e q x = true) →
        (s.isl.tx e).accepted.map (fun y => (y.1, y.2.1)) = IslNet.offered (IslNet.opsOf e (calls.filterMap toIsl)) := by
  obtain ⟨ops, s, h1, h2, h3⟩ := (runs hr).realize hl hext hsorted
  obtain ⟨q1, q2, q3⟩ := C73_parts h1
  refine ⟨ops, s, h1, h2, Launched.free (h2.symm ▸ hl), h3, fun g hg => ?_, fun d hd => ?_, fun e he => ?_⟩
  · rw [Uplink.accepted_requests hg (Uplink.C55_station q1 g), ← h2, calls_up, Uplink.requests_filter]
    rfl
  · rw [Downlink.accepted_offered hd (Downlink.C59_satellite q2 d), ← h2, calls_down, Downlink.offered_filter]
    rfl
  · rw [IslNet.accepted_offered he (IslNet.C60_sender q3 e), ← h2, calls_isl, IslNet.offered_filter]

theorem exRunnable {R : Type} {rx : Uplink.Receiver Int R} {clock : R → Nat} (hs : Uplink.Safe rx) (ho : Uplink.Orderly rx clock) (h1 : Uplink.OneEach rx) :
    Runnable (exNet rx) exWorld exPeer exHist exAddrs clock 1 :=
  ⟨exSetup rx, hs, ho, h1, fun _ => ⟨Nat.le_refl _, by simp [exNet, noneMac]⟩⟩

/-- The network of C73 with each packet's way taken from its reports: nothing is left to do at the end, and something in the middle. -/
example : ∃ s s', exec (exNet (Uplink.noneReceiver Int)) exOps = some (.ok s) ∧ exec (exNet (Uplink.noneReceiver Int)) (exOps.take 5) = some (.ok s') ∧
    work (exNet (Uplink.noneReceiver Int)) 1 s = 0 ∧ work (exNet (Uplink.noneReceiver Int)) 1 s' = 3 := by
  refine ⟨_, _, rfl, rfl, ?_⟩; decide

/-- From the middle of that execution, the packet reaches the end of the link between the satellites by itself. -/
example : ∃ s, exec (exNet (Uplink.noneReceiver Int)) (exOps.take 5) = some (.ok s) ∧ ∃ more s', (∀ o ∈ more, o.internal = true) ∧
    exec (exNet (Uplink.noneReceiver Int)) (exOps.take 5 ++ more) = some (.ok s') ∧ Quiet (exNet (Uplink.noneReceiver Int)) s' := by
  have h : ∃ s, exec (exNet (Uplink.noneReceiver Int)) (exOps.take 5) = some (.ok s) := ⟨_, rfl⟩
  obtain ⟨s, hs⟩ := h
  exact ⟨s, hs, (C97_rest (exRunnable (Uplink.safe_map rfl) Uplink.none_orderly Uplink.none_oneEach)
    (Launched.left (b := exOps.drop 5) (by rw [List.take_append_drop]; exact exLaunched _)) hs).2⟩

/-- Calls of all kinds: both stations send at the same time, a satellite sends to the ground and over its link, and station 0 changes its satellite. -/
def exCalls : List (Op (Fin 2) (Fin 2) (Fin 2) Int) :=
  [.send 0 0 1 10 7, .send 1 0 2 10 7, .sat 0 (.send 4 3 10 7), .isl (.tx 1 (.send 4 4 6 7)), .track 0 5 (SatAddress.mk3 .little 1 0 1), .setPower 1 6 20,
   .sat 1 (.setPower 6 20), .send 0 8 5 10 7]

theorem exCallsLaunched {R : Type} (rx : Uplink.Receiver Int R) : Launched (exNet rx) exHist exAddrs exCalls := by
  refine ⟨?_, ?_⟩
  · show ∀ g : Fin 2, (Uplink.target exHist exAddrs (SatAddress.mk3 .little 1 0 (UInt16.ofNat g.val))).isSome
    decide
  · intro g t a h
    simp only [exCalls, List.mem_cons, reduceCtorEq, Op.track.injEq, List.not_mem_nil, false_or, or_false] at h
    obtain ⟨-, -, rfl⟩ := h
    decide

example : ∃ ops s, exec (exNet (Uplink.noneReceiver Int)) ops = some (.ok s) ∧ ops.filter (fun o => !o.internal) = exCalls ∧
    Quiet (exNet (Uplink.noneReceiver Int)) s ∧ (s.isl.tx 1).accepted.map (fun y => (y.1, y.2.1)) = [(4, ⟨4, 6, 7⟩)] := by
  obtain ⟨ops, s, h1, h2, -, h4, -, -, h5⟩ := C97_traffic (exRunnable (Uplink.safe_map rfl) Uplink.none_orderly Uplink.none_oneEach)
    (exCallsLaunched (Uplink.noneReceiver Int)) (by decide) (by decide)
  exact ⟨ops, s, h1, h2, h4, by rw [h5 1 (fun _ _ => rfl)]; rfl⟩

/-- Also with the receiver of `AlohaMacModel`. -/
example : ∃ ops s, exec (exNet (Uplink.alohaReceiver intLost)) ops = some (.ok s) ∧ ops.filter (fun o => !o.internal) = exCalls ∧
    Quiet (exNet (Uplink.alohaReceiver intLost)) s := by
  obtain ⟨ops, s, h1, h2, -, h4, -⟩ := C97_traffic (exRunnable (Uplink.safe_map rfl) (Uplink.aloha_orderly _) (Uplink.Ends.oneEach (net := (exNet _).up) (Uplink.aloha_ends _)))
    (exCallsLaunched (Uplink.alohaReceiver intLost)) (by decide) (by decide)
  exact ⟨ops, s, h1, h2, h4⟩

end Network
end Icarus
