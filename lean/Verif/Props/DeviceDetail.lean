import Verif.Model.DeviceDetail
import Verif.Props.GroundSta
import Verif.Props.Sat2GroundDevice
import Verif.Props.SatNetDevice

/-!
# Packet tags and trace sources of the sending devices (C65, C66)
-/

set_option autoImplicit false

namespace Icarus

theorem addTag_eq {T : Type} {debug : Bool} {tags tags' : Nat → List T} {p : Nat} {t : T} (h : addTag debug tags p t = .ok tags') :
    tags' = fun q => if q = p then t :: tags p else tags q := by
  unfold addTag at h
  rw [Outcome.bind_eq_ok] at h
  obtain ⟨_, -, h⟩ := h
  simpa using h.symm

theorem addTag_ok {T : Type} {debug : Bool} {tags : Nat → List T} {p : Nat} {t : T} (h : debug = true → tags p = []) :
    addTag debug tags p t = .ok (fun q => if q = p then t :: tags p else tags q) := by
  unfold addTag
  cases debug with
  | false => simp
  | true => simp [h rfl]

namespace GroundStaDetail
open GroundSta (Entry Ev Mac scheduleStarts)

variable {W : Type} {debug : Bool} {mac : Mac} {len : Nat → Nat} {accept : List Nat → Nat → Bool}

/-- The same call on the model with entries. -/
def plainOp (len : Nat → Nat) : Op W → GroundSta.Op W
  | .send t p proto => .send t p (len p) proto
  | .setRemote t a => .setRemote t a
  | .setPower t w => .setPower t w
  | .run => .run

def plainAccept (accept : List Nat → Nat → Bool) (q : List (Entry W)) (x : Entry W) : Bool := accept (q.map Entry.pkt) x.pkt

def evPkt : Ev W → Nat
  | .start x => x.pkt
  | .finish x => x.pkt

/-- The packet is in use by the device: queued, or a transmission or the end of one is scheduled. -/
def InUse (s : Sys W) (p : Nat) : Prop := p ∈ s.queue ∨ ∃ e ∈ s.events, evPkt e.2 = p

structure Rel (len : Nat → Nat) (t : Sys W) (s : GroundSta.Sys W) : Prop where
  clock : t.clock = s.clock
  remote : t.remote = s.remote
  power : t.power = s.power
  busy : t.busy = s.busy
  events : t.events = s.events
  handed : t.handed = s.handed
  aired : t.aired = s.aired
  queue : t.queue = s.queue.map Entry.pkt
  tagged : ∀ x ∈ s.queue, x.len = len x.pkt ∧ ∃ r, t.tags x.pkt = ⟨x.dst, x.proto, x.power⟩ :: r
  nodup : t.queue.Nodup
  apart : ∀ e ∈ t.events, evPkt e.2 ∉ t.queue

theorem mem_scheduleStarts {now : Nat} {x : Entry W} {ds : List Nat} {es : List (Nat × Ev W)} {e : Nat × Ev W}
    (h : e ∈ scheduleStarts now x ds es) : e ∈ es ∨ e.2 = .start x := by
  induction ds generalizing es with
  | nil => exact Or.inl h
  | cons d ds ih =>
    rcases ih (show e ∈ scheduleStarts now x ds (insertEvent (now + d) (.start x) es) from h) with h | h
    · rcases mem_insertEvent.mp h with rfl | h
      · exact Or.inr rfl
      · exact Or.inl h
    · exact Or.inr h

/-- Airing keeps the relation. -/
theorem Rel.air {t : Sys W} {s : GroundSta.Sys W} (h : Rel len t s) (now : Nat) (x : Entry W) (hx : x.pkt ∉ t.queue) :
    Rel len (air t now x) (GroundSta.air s now x) := by
  refine ⟨h.clock, h.remote, h.power, h.busy, ?_, h.handed, ?_, h.queue, h.tagged, h.nodup, ?_⟩
  · simp only [GroundStaDetail.air, GroundSta.air, h.events]
  · simp only [GroundStaDetail.air, GroundSta.air, h.aired]
  · intro e he
    rcases mem_insertEvent.mp (show e ∈ insertEvent _ _ _ from he) with rfl | he
    · exact hx
    · exact h.apart e he

theorem Rel.macSend {t : Sys W} {s : GroundSta.Sys W} (h : Rel len t s) (now : Nat) (x : Entry W) (hx : x.pkt ∉ t.queue) :
    Rel len (macSend mac t now x) (GroundSta.macSend mac s now x) := by
  have h' : Rel len { t with handed := t.handed ++ [(now, x)] } { s with handed := s.handed ++ [(now, x)] } :=
    ⟨h.clock, h.remote, h.power, h.busy, h.events, by simp [h.handed], h.aired, h.queue, h.tagged, h.nodup, h.apart⟩
  unfold GroundStaDetail.macSend GroundSta.macSend
  split
  · exact h'.air now x hx
  · refine ⟨h.clock, h.remote, h.power, h.busy, ?_, h'.handed, h.aired, h.queue, h.tagged, h.nodup, ?_⟩
    · simp only [h.events, h.handed]
    · intro e he
      rcases mem_scheduleStarts he with he | he
      · exact h.apart e he
      · rw [he]; exact hx

/-- `TransmitStart` on an idle device with a packet waiting. -/
theorem Rel.start {t : Sys W} {s : GroundSta.Sys W} (h : Rel len t s) (hb : t.busy = false) (hq : t.queue ≠ []) (now : Nat) :
    ∃ t' s', transmitStart debug mac len t now = .ok t' ∧ GroundSta.transmitStart debug mac s now = .ok s' ∧ Rel len t' s' := by
  have hb' := h.busy ▸ hb
  cases hs : s.queue with
  | nil => rw [h.queue, hs] at hq; simp at hq
  | cons x rest =>
    have hq' := h.queue
    rw [hs, List.map_cons] at hq'
    obtain ⟨hl, r, ht⟩ := h.tagged x (by rw [hs]; exact List.mem_cons_self)
    have hnd := h.nodup
    rw [hq', List.nodup_cons] at hnd
    have hrel : Rel len { t with busy := true, queue := rest.map Entry.pkt } { s with busy := true, queue := rest } :=
      ⟨h.clock, h.remote, h.power, rfl, h.events, h.handed, h.aired, rfl,
        fun y hy => h.tagged y (by rw [hs]; exact List.mem_cons_of_mem _ hy), hnd.2,
        fun e he hm => h.apart e he (by rw [hq']; exact List.mem_cons_of_mem _ hm)⟩
    refine ⟨_, _, ?_, ?_, hrel.macSend (mac := mac) now x hnd.1⟩
    · simp only [transmitStart, hb, hq', peekTag, ht, Bool.not_false, Outcome.nsAssert_true, Outcome.bind_ok]
      rw [← hl]
    · simp only [GroundSta.transmitStart, hb', hs, Bool.not_false, Outcome.nsAssert_true, Outcome.bind_ok]

theorem Rel.possible {t : Sys W} {s : GroundSta.Sys W} (h : Rel len t s) (τ : Nat) : possible t τ ↔ GroundSta.possible s τ := by
  unfold GroundStaDetail.possible GroundSta.possible
  rw [h.clock, h.events]

theorem Rel.step {t : Sys W} {s : GroundSta.Sys W} (h : Rel len t s) {o : Op W} {r : Outcome (Sys W)}
    (hf : ∀ τ p proto, o = .send τ p proto → ¬ InUse t p ∧ (debug = true → t.tags p = []))
    (hs : step debug mac len accept t o = some r) :
    ∃ t' s', r = .ok t' ∧ GroundSta.step debug mac (plainAccept accept) s (plainOp len o) = some (.ok s') ∧ Rel len t' s' := by
  cases o with
  | setRemote τ a =>
    simp only [GroundStaDetail.step, Option.ite_none_right_eq_some, Option.some.injEq] at hs
    obtain ⟨hp, rfl⟩ := hs
    refine ⟨_, { s with clock := τ, remote := a }, rfl, ?_, ⟨rfl, rfl, h.power, h.busy, h.events, h.handed, h.aired, h.queue, h.tagged,
      h.nodup, h.apart⟩⟩
    simp only [plainOp, GroundSta.step, if_pos ((h.possible τ).mp hp)]
  | setPower τ w =>
    simp only [GroundStaDetail.step, Option.ite_none_right_eq_some, Option.some.injEq] at hs
    obtain ⟨hp, rfl⟩ := hs
    refine ⟨_, { s with clock := τ, power := w }, rfl, ?_, ⟨rfl, h.remote, rfl, h.busy, h.events, h.handed, h.aired, h.queue, h.tagged,
      h.nodup, h.apart⟩⟩
    simp only [plainOp, GroundSta.step, if_pos ((h.possible τ).mp hp)]
  | send τ p proto =>
    simp only [GroundStaDetail.step, Option.ite_none_right_eq_some, Option.some.injEq] at hs
    obtain ⟨hp, hs⟩ := hs
    obtain ⟨hu, hd⟩ := hf τ p proto rfl
    have hpq : p ∉ t.queue := fun hm => hu (Or.inl hm)
    simp only [plainOp, GroundSta.step, if_pos ((h.possible τ).mp hp), Option.some.injEq]
    simp only [send, addTag_ok hd, Outcome.bind_ok] at hs
    have hacc : plainAccept accept s.queue (⟨p, len p, s.remote, proto, s.power⟩ : Entry W) = accept t.queue p := by
      simp only [plainAccept, h.queue]
    unfold GroundSta.send
    simp only [hacc]
    have htag : ∀ x ∈ s.queue, x.len = len x.pkt ∧
        ∃ r, (if x.pkt = p then (⟨t.remote, proto, t.power⟩ : Tag W) :: t.tags p else t.tags x.pkt) = ⟨x.dst, x.proto, x.power⟩ :: r := by
      intro x hx
      have hne : x.pkt ≠ p := by
        intro he
        exact hpq (by rw [h.queue]; exact List.mem_map.mpr ⟨x, hx, he⟩)
      simp only [if_neg hne]
      exact h.tagged x hx
    cases hc : accept t.queue p with
    | false =>
      simp only [hc, if_true] at hs ⊢
      subst hs
      exact ⟨_, _, rfl, rfl, ⟨rfl, h.remote, h.power, h.busy, h.events, h.handed, h.aired, h.queue, htag, h.nodup, h.apart⟩⟩
    | true =>
      simp only [hc, Bool.true_eq_false, if_false] at hs ⊢
      have hrel : Rel len
          { t with
            clock := τ
            tags := fun q => if q = p then (⟨t.remote, proto, t.power⟩ : Tag W) :: t.tags p else t.tags q
            trace := t.trace ++ [(τ, TxTrace.macTx, p)]
            queue := t.queue ++ [p] }
          { s with
            clock := τ
            queue := s.queue ++ [⟨p, len p, s.remote, proto, s.power⟩]
            accepted := s.accepted ++ [(τ, ⟨p, len p, s.remote, proto, s.power⟩)] } := by
        refine ⟨rfl, h.remote, h.power, h.busy, h.events, h.handed, h.aired, by simp [h.queue], ?_, ?_, ?_⟩
        · intro x hx
          rcases List.mem_append.mp hx with hx | hx
          · exact htag x hx
          · rw [List.mem_singleton] at hx
            subst hx
            refine ⟨rfl, t.tags p, ?_⟩
            simp [h.remote, h.power]
        · exact List.nodup_append.mpr ⟨h.nodup, by simp, by
            intro a ha b hb hab
            rw [List.mem_singleton] at hb
            exact hpq (by rw [← hb, ← hab]; exact ha)⟩
        · intro e he hm
          rcases List.mem_append.mp hm with hm | hm
          · exact h.apart e he hm
          · rw [List.mem_singleton] at hm
            exact hu (Or.inr ⟨e, he, hm⟩)
      cases hb : t.busy with
      | true =>
        have hb' : s.busy = true := h.busy ▸ hb
        simp only [hb, if_true] at hs
        simp only [hb', if_true]
        subst hs
        exact ⟨_, _, rfl, rfl, by simpa only [hb, hb'] using hrel⟩
      | false =>
        have hb' : s.busy = false := h.busy ▸ hb
        simp only [hb, Bool.false_eq_true, if_false] at hs
        simp only [hb', Bool.false_eq_true, if_false]
        simp only [hb, hb'] at hrel
        obtain ⟨t', s', h1, h2, h3⟩ := hrel.start (debug := debug) (mac := mac) rfl (by simp) τ
        exact ⟨t', s', by rw [← hs, h1], h2, h3⟩
  | run =>
    simp only [GroundStaDetail.step] at hs
    have hev := h.events
    split at hs
    · simp at hs
    · rename_i τ x es he
      simp only [Option.some.injEq] at hs
      subst hs
      have hrel : Rel len { t with clock := τ, events := es } { s with clock := τ, events := es } :=
        ⟨rfl, h.remote, h.power, h.busy, rfl, h.handed, h.aired, h.queue, h.tagged, h.nodup,
          fun e hm => h.apart e (by rw [he]; exact List.mem_cons_of_mem _ hm)⟩
      refine ⟨_, _, rfl, ?_, hrel.air τ x ?_⟩
      · simp only [plainOp, GroundSta.step, ← hev, he]
      · exact h.apart (τ, .start x) (by rw [he]; exact List.mem_cons_self)
    · rename_i τ x es he
      simp only [Option.some.injEq] at hs
      have hx : x.pkt ∉ t.queue := h.apart (τ, .finish x) (by rw [he]; exact List.mem_cons_self)
      have hrel : Rel len
          { t with
            clock := τ
            events := es
            trace := t.trace ++ [(τ, TxTrace.phyTxEnd, x.pkt)]
            tags := removeTag t.tags x.pkt
            busy := false } { s with clock := τ, events := es, busy := false } := by
        refine ⟨rfl, h.remote, h.power, rfl, rfl, h.handed, h.aired, h.queue, ?_, h.nodup,
          fun e hm => h.apart e (by rw [he]; exact List.mem_cons_of_mem _ hm)⟩
        intro y hy
        have hne : y.pkt ≠ x.pkt := by
          intro hh
          exact hx (by rw [h.queue, ← hh]; exact List.mem_map.mpr ⟨y, hy, rfl⟩)
        simp only [removeTag, if_neg hne]
        exact h.tagged y hy
      simp only [plainOp, GroundSta.step, ← hev, he, Option.some.injEq]
      unfold transmitComplete at hs
      unfold GroundSta.transmitComplete
      simp only at hs ⊢
      have hemp : t.queue.isEmpty = s.queue.isEmpty := by rw [h.queue, List.isEmpty_map]
      cases hq : s.queue.isEmpty with
      | true =>
        simp only [hemp, hq, if_true] at hs
        simp only [if_true]
        subst hs
        exact ⟨_, _, rfl, rfl, hrel⟩
      | false =>
        simp only [hemp, hq, Bool.false_eq_true, if_false] at hs
        simp only [Bool.false_eq_true, if_false]
        obtain ⟨t', s', h1, h2, h3⟩ := hrel.start (debug := debug) (mac := mac) rfl (by
          intro hh
          rw [show t.queue = [] from hh, hq] at hemp
          simp at hemp) τ
        exact ⟨t', s', by rw [← hs, h1], h2, h3⟩

/-! ## Executions step by step -/

/-- A step up to the point where the next transmission may be started: `now`, and the state then. -/
inductive Base (debug : Bool) (accept : List Nat → Nat → Bool) (t : Sys W) : Op W → Nat → Sys W → Prop where
  | dropped (τ p : Nat) (proto : UInt16) (hp : possible t τ) (hd : debug = true → t.tags p = []) (ha : accept t.queue p = false) :
      Base debug accept t (.send τ p proto) τ
        { t with
          clock := τ
          tags := fun q => if q = p then ⟨t.remote, proto, t.power⟩ :: t.tags p else t.tags q
          trace := t.trace ++ [(τ, TxTrace.macTx, p)] ++ [(τ, TxTrace.macTxDrop, p)] }
  | queued (τ p : Nat) (proto : UInt16) (hp : possible t τ) (hd : debug = true → t.tags p = []) (ha : accept t.queue p = true) :
      Base debug accept t (.send τ p proto) τ
        { t with
          clock := τ
          tags := fun q => if q = p then ⟨t.remote, proto, t.power⟩ :: t.tags p else t.tags q
          trace := t.trace ++ [(τ, TxTrace.macTx, p)]
          queue := t.queue ++ [p] }
  | remote (τ : Nat) (a : SatAddress) (hp : possible t τ) : Base debug accept t (.setRemote τ a) τ { t with clock := τ, remote := a }
  | power (τ : Nat) (w : W) (hp : possible t τ) : Base debug accept t (.setPower τ w) τ { t with clock := τ, power := w }
  | aired (τ : Nat) (x : Entry W) (es : List (Nat × Ev W)) (he : t.events = (τ, .start x) :: es) :
      Base debug accept t .run τ (GroundStaDetail.air { t with clock := τ, events := es } τ x)
  | finished (τ : Nat) (x : Entry W) (es : List (Nat × Ev W)) (he : t.events = (τ, .finish x) :: es) :
      Base debug accept t .run τ
        { t with
          clock := τ
          events := es
          trace := t.trace ++ [(τ, TxTrace.phyTxEnd, x.pkt)]
          tags := removeTag t.tags x.pkt
          busy := false }

/-- The next transmission is started. -/
inductive Start (mac : Mac) (len : Nat → Nat) (now : Nat) (u : Sys W) : Sys W → Prop where
  | intro (p : Nat) (rest : List Nat) (tag : Tag W) (r : List (Tag W)) (hq : u.queue = p :: rest) (ht : u.tags p = tag :: r) :
      Start mac len now u (macSend mac { u with busy := true, queue := rest } now ⟨p, len p, tag.dst, tag.proto, tag.power⟩)

theorem transmitStart_ok {u t' : Sys W} {now : Nat} (h : transmitStart debug mac len u now = .ok t') : Start mac len now u t' := by
  unfold transmitStart at h
  rw [Outcome.bind_eq_ok] at h
  obtain ⟨_, -, h⟩ := h
  cases hq : u.queue with
  | nil => simp [hq] at h
  | cons p rest =>
    cases ht : u.tags p with
    | nil => simp [hq, peekTag, ht] at h
    | cons tag r =>
      simp only [hq, peekTag, ht, Outcome.bind_ok, Outcome.ok.injEq] at h
      subst h
      exact ⟨p, rest, tag, r, hq, ht⟩

theorem addTag_debug {T : Type} {tags tags' : Nat → List T} {p : Nat} {t : T} (h : addTag debug tags p t = .ok tags') :
    debug = true → tags p = [] := by
  intro hd
  subst hd
  unfold addTag at h
  cases hp : tags p with
  | nil => rfl
  | cons a b => simp [hp] at h

theorem step_ok {t t' : Sys W} {o : Op W} (h : step debug mac len accept t o = some (.ok t')) :
    ∃ now u, Base debug accept t o now u ∧ (t' = u ∨ Start mac len now u t') := by
  cases o with
  | setRemote τ a =>
    simp only [GroundStaDetail.step, Option.ite_none_right_eq_some, Option.some.injEq, Outcome.ok.injEq] at h
    exact ⟨_, _, .remote τ a h.1, Or.inl h.2.symm⟩
  | setPower τ a =>
    simp only [GroundStaDetail.step, Option.ite_none_right_eq_some, Option.some.injEq, Outcome.ok.injEq] at h
    exact ⟨_, _, .power τ a h.1, Or.inl h.2.symm⟩
  | send τ p proto =>
    simp only [GroundStaDetail.step, Option.ite_none_right_eq_some, Option.some.injEq] at h
    obtain ⟨hp, h⟩ := h
    unfold send at h
    rw [Outcome.bind_eq_ok] at h
    obtain ⟨tags, ht, h⟩ := h
    have hd := addTag_debug ht
    have ht := addTag_eq ht
    subst ht
    simp only at h
    split at h
    · rename_i ha
      simp only [Outcome.ok.injEq] at h
      exact ⟨_, _, .dropped τ p proto hp hd ha, Or.inl h.symm⟩
    · rename_i ha
      have ha : accept t.queue p = true := by simpa using ha
      refine ⟨_, _, .queued τ p proto hp hd ha, ?_⟩
      split at h
      · simp only [Outcome.ok.injEq] at h
        exact Or.inl h.symm
      · exact Or.inr (transmitStart_ok h)
  | run =>
    simp only [GroundStaDetail.step] at h
    split at h
    · simp at h
    · rename_i τ x es he
      simp only [Option.some.injEq, Outcome.ok.injEq] at h
      exact ⟨_, _, .aired τ x es he, Or.inl h.symm⟩
    · rename_i τ x es he
      simp only [Option.some.injEq] at h
      refine ⟨_, _, .finished τ x es he, ?_⟩
      unfold transmitComplete at h
      simp only at h
      split at h
      · simp only [Outcome.ok.injEq] at h
        exact Or.inl h.symm
      · exact Or.inr (transmitStart_ok h)

/-- Induction along an execution with these steps. -/
theorem exec_induction {remote : SatAddress} {power : W} {P : List (Op W) → Sys W → Prop} (h0 : P [] (Sys.init remote power))
    (hb : ∀ ops o t now u, exec debug mac len accept remote power ops = some (.ok t) → P ops t → Base debug accept t o now u → P (ops ++ [o]) u)
    (hs : ∀ ops u t', P ops u → Start mac len u.clock u t' → P ops t')
    {ops : List (Op W)} {t : Sys W} (h : exec debug mac len accept remote power ops = some (.ok t)) : P ops t := by
  refine run_induction (P := P) h0 ?_ h
  intro ops o s s' hr hp hst
  obtain ⟨now, u, h1, h2⟩ := step_ok hst
  have := hb ops o s now u hr hp h1
  rcases h2 with rfl | h2
  · exact this
  · have hc : u.clock = now := by cases h1 <;> rfl
    exact hs _ _ _ this (hc ▸ h2)

/-! ## Tags -/

variable {remote : SatAddress} {power : W}

/-- Callers offer a packet only when the device is not using it.  Debug builds: and only if no earlier `Send` of it has failed. -/
def Fresh (debug : Bool) (mac : Mac) (len : Nat → Nat) (accept : List Nat → Nat → Bool) (remote : SatAddress) (power : W) (ops : List (Op W)) :
    Prop :=
  ∀ (a b : List (Op W)) (τ p : Nat) (proto : UInt16) (u : Sys W), ops = a ++ .send τ p proto :: b →
    exec debug mac len accept remote power a = some (.ok u) →
    ¬ InUse u p ∧ (debug = true → ∀ τ', (τ', p) ∉ TxTrace.macTxDrop.calls u.trace)

theorem Fresh.prefix {a b : List (Op W)} (h : Fresh debug mac len accept remote power (a ++ b)) : Fresh debug mac len accept remote power a := by
  intro c d τ p proto u hc hu
  exact h c (d ++ b) τ p proto u (by rw [hc]; simp) hu

theorem calls_append (k : TxTrace) (l m : List (Nat × TxTrace × Nat)) : k.calls (l ++ m) = k.calls l ++ k.calls m := by
  simp [TxTrace.calls]

/-- In debug builds a packet has at most one tag, and only while it is in use or after a failed `Send`. -/
structure TagInv (t : Sys W) : Prop where
  one : ∀ p, (t.tags p).length ≤ 1
  used : ∀ p, t.tags p ≠ [] → InUse t p ∨ ∃ τ, (τ, p) ∈ TxTrace.macTxDrop.calls t.trace

theorem tagInv (hm : mac.sync = true ∨ ∀ k t, mac.delays k t ≠ []) {ops : List (Op W)} {t : Sys W}
    (h : exec true mac len accept remote power ops = some (.ok t)) : TagInv t := by
  refine exec_induction (P := fun _ t => TagInv t) ⟨by simp [Sys.init], by simp [Sys.init]⟩ ?_ ?_ h
  · intro ops o t now u _ hi hb
    cases hb with
    | remote τ a hp => exact ⟨hi.one, hi.used⟩
    | power τ w hp => exact ⟨hi.one, hi.used⟩
    | dropped τ p proto hp hd ha =>
      have hd := hd rfl
      refine ⟨?_, ?_⟩
      · intro q
        by_cases hq : q = p
        · simp [hq, hd]
        · simpa [hq] using hi.one q
      · intro q hne
        by_cases hq : q = p
        · subst hq
          exact Or.inr ⟨now, by simp [TxTrace.calls]⟩
        · simp only [hq, if_false] at hne
          rcases hi.used q hne with h | ⟨τ', h⟩
          · exact Or.inl h
          · exact Or.inr ⟨τ', by simp only [calls_append, List.mem_append]; exact Or.inl (Or.inl h)⟩
    | queued τ p proto hp hd ha =>
      have hd := hd rfl
      refine ⟨?_, ?_⟩
      · intro q
        by_cases hq : q = p
        · simp [hq, hd]
        · simpa [hq] using hi.one q
      · intro q hne
        by_cases hq : q = p
        · subst hq
          exact Or.inl (Or.inl (by simp))
        · simp only [hq, if_false] at hne
          rcases hi.used q hne with h | ⟨τ', h⟩
          · refine Or.inl ?_
            rcases h with h | h
            · exact Or.inl (List.mem_append_left _ h)
            · exact Or.inr h
          · exact Or.inr ⟨τ', by simp only [calls_append, List.mem_append]; exact Or.inl h⟩
    | aired τ x es he =>
      refine ⟨hi.one, ?_⟩
      intro q hne
      rcases hi.used q hne with h | ⟨τ', h⟩
      · refine Or.inl ?_
        rcases h with h | ⟨e, h, hq⟩
        · exact Or.inl h
        · rw [he, List.mem_cons] at h
          rcases h with rfl | h
          · exact Or.inr ⟨(now + x.len, .finish x), mem_insertEvent.mpr (Or.inl rfl), hq⟩
          · exact Or.inr ⟨e, mem_insertEvent.mpr (Or.inr h), hq⟩
      · exact Or.inr ⟨τ', by simp only [GroundStaDetail.air, calls_append, List.mem_append]; exact Or.inl h⟩
    | finished τ x es he =>
      refine ⟨?_, ?_⟩
      · intro q
        have := hi.one q
        by_cases hq : q = x.pkt
        · simp only [removeTag, hq, if_true, List.length_tail]
          have := hi.one x.pkt
          omega
        · simpa [removeTag, hq] using this
      · intro q hne
        by_cases hq : q = x.pkt
        · simp only [removeTag, hq, if_true] at hne
          have := hi.one x.pkt
          exact absurd (List.eq_nil_of_length_eq_zero (by rw [List.length_tail]; omega)) hne
        · simp only [removeTag, hq, if_false] at hne
          rcases hi.used q hne with h | ⟨τ', h⟩
          · refine Or.inl ?_
            rcases h with h | ⟨e, h, hq'⟩
            · exact Or.inl h
            · rw [he, List.mem_cons] at h
              rcases h with rfl | h
              · exact absurd hq'.symm hq
              · exact Or.inr ⟨e, h, hq'⟩
          · exact Or.inr ⟨τ', by simp only [calls_append, List.mem_append]; exact Or.inl h⟩
  · intro ops u t' hi hs
    generalize u.clock = now at hs
    cases hs with
    | intro p rest tag r hq ht =>
      have hkey : InUse (macSend mac { u with busy := true, queue := rest } now ⟨p, len p, tag.dst, tag.proto, tag.power⟩) p := by
        refine Or.inr ?_
        unfold macSend
        split
        · exact ⟨_, mem_insertEvent.mpr (Or.inl rfl), rfl⟩
        · rename_i hsync
          have hds := hm.resolve_left hsync u.handed.length now
          obtain ⟨d, ds, hds⟩ := List.exists_cons_of_ne_nil hds
          refine ⟨(now + d, .start ⟨p, len p, tag.dst, tag.proto, tag.power⟩), ?_, rfl⟩
          simp only [hds]
          have hmem : ∀ (ds : List Nat) (x : Entry W) (es : List (Nat × Ev W)) (e : Nat × Ev W), e ∈ es →
              e ∈ scheduleStarts now x ds es := by
            intro ds
            induction ds with
            | nil => intro x es e he; exact he
            | cons d ds ih => intro x es e he; exact ih x _ e (mem_insertEvent.mpr (Or.inr he))
          exact hmem ds _ _ _ (mem_insertEvent.mpr (Or.inl rfl))
      have hmono : ∀ q, InUse u q → InUse (macSend mac { u with busy := true, queue := rest } now ⟨p, len p, tag.dst, tag.proto, tag.power⟩) q := by
        intro q hu
        rcases hu with hu | ⟨e, he, hu⟩
        · rw [hq, List.mem_cons] at hu
          rcases hu with rfl | hu
          · exact hkey
          · refine Or.inl ?_
            unfold macSend
            split <;> exact hu
        · refine Or.inr ⟨e, ?_, hu⟩
          unfold macSend
          split
          · exact mem_insertEvent.mpr (Or.inr he)
          · have hmem : ∀ (ds : List Nat) (x : Entry W) (es : List (Nat × Ev W)) (e : Nat × Ev W), e ∈ es →
                e ∈ scheduleStarts now x ds es := by
              intro ds
              induction ds with
              | nil => intro x es e he; exact he
              | cons d ds ih => intro x es e he; exact ih x _ e (mem_insertEvent.mpr (Or.inr he))
            exact hmem _ _ _ _ he
      have htags : (macSend mac { u with busy := true, queue := rest } now ⟨p, len p, tag.dst, tag.proto, tag.power⟩).tags = u.tags := by
        unfold macSend; split <;> rfl
      have htrace : ∃ l, (macSend mac { u with busy := true, queue := rest } now ⟨p, len p, tag.dst, tag.proto, tag.power⟩).trace =
          u.trace ++ l := by
        unfold macSend
        split
        · exact ⟨_, rfl⟩
        · exact ⟨[], by simp⟩
      refine ⟨by rw [htags]; exact hi.one, ?_⟩
      intro q hne
      rw [htags] at hne
      rcases hi.used q hne with h | ⟨τ', h⟩
      · exact Or.inl (hmono q h)
      · obtain ⟨l, hl⟩ := htrace
        exact Or.inr ⟨τ', by rw [hl, calls_append, List.mem_append]; exact Or.inl h⟩

/-- With fresh packets nothing goes wrong, and the device behaves as in the model in which each queue entry keeps its own tag
(`GroundSta.exec`), for which C34 and C35 are proved. -/
theorem C65_ground_refines (hm : mac.sync = true ∨ ∀ k t, mac.delays k t ≠ []) {ops : List (Op W)} {r : Outcome (Sys W)}
    (hf : Fresh debug mac len accept remote power ops) (h : exec debug mac len accept remote power ops = some r) :
    ∃ t s, r = .ok t ∧ GroundSta.exec debug mac (plainAccept accept) remote power (ops.map (plainOp len)) = some (.ok s) ∧ Rel len t s := by
  induction ops using List.reverseRecOn generalizing r with
  | nil =>
    simp only [exec, runFrom, Option.some.injEq] at h
    exact ⟨_, _, h.symm, rfl, ⟨rfl, rfl, rfl, rfl, rfl, rfl, rfl, rfl, by simp [GroundSta.Sys.init], by simp [Sys.init], by simp [Sys.init]⟩⟩
  | append_singleton os o ih =>
    unfold exec at h
    rw [runFrom_append] at h
    cases h1 : runFrom (step debug mac len accept) (Sys.init remote power) os with
    | none => simp [h1] at h
    | some r1 =>
      obtain ⟨t, s, rfl, hs, hr⟩ := ih hf.prefix h1
      simp only [h1, runFrom_single] at h
      obtain ⟨t', s', h2, h3, h4⟩ := hr.step (debug := debug) (mac := mac) (accept := accept) (o := o) (by
        intro τ p proto ho
        obtain ⟨f1, f2⟩ := hf os [] τ p proto t (by rw [ho]) h1
        refine ⟨f1, fun hd => ?_⟩
        by_contra hne
        subst hd
        rcases (tagInv hm h1).used p hne with h | ⟨τ', h⟩
        · exact f1 h
        · exact f2 rfl τ' h) h
      refine ⟨t', s', h2, ?_, h4⟩
      rw [List.map_append, List.map_singleton]
      exact runFrom_snoc.mpr ⟨s, hs, h3⟩

/-- `x` is what the last `Send` of its packet asked for: the satellite tracked and the power at the moment of that call, and its protocol
number. -/
def Latest (len : Nat → Nat) (remote : SatAddress) (power : W) (ops : List (Op W)) (x : Entry W) : Prop :=
  ∃ (a b : List (Op W)) (τ : Nat) (proto : UInt16), ops = a ++ .send τ x.pkt proto :: b ∧
    (∀ (τ' : Nat) (proto' : UInt16), .send τ' x.pkt proto' ∉ b) ∧ x.len = len x.pkt ∧ x.proto = proto ∧
    x.dst = trackedAfter remote (a.map (plainOp len)) ∧ x.power = powerAfter power (a.map (plainOp len))

theorem Latest.snoc {ops : List (Op W)} {x : Entry W} (h : Latest len remote power ops x) {o : Op W}
    (ho : ∀ (τ : Nat) (proto : UInt16), o ≠ .send τ x.pkt proto) : Latest len remote power (ops ++ [o]) x := by
  obtain ⟨a, b, τ, proto, h1, h2, h3⟩ := h
  refine ⟨a, b ++ [o], τ, proto, by rw [h1]; simp, ?_, h3⟩
  intro τ' proto' hm
  rcases List.mem_append.mp hm with hm | hm
  · exact h2 τ' proto' hm
  · rw [List.mem_singleton] at hm
    exact ho τ' proto' hm.symm

structure Own (len : Nat → Nat) (remote : SatAddress) (power : W) (ops : List (Op W)) (t : Sys W) : Prop where
  dst : t.remote = trackedAfter remote (ops.map (plainOp len))
  pow : t.power = powerAfter power (ops.map (plainOp len))
  nodup : t.queue.Nodup
  apart : ∀ e ∈ t.events, evPkt e.2 ∉ t.queue
  queued : ∀ p ∈ t.queue, ∀ tag r, t.tags p = tag :: r → Latest len remote power ops ⟨p, len p, tag.dst, tag.proto, tag.power⟩
  started : ∀ e ∈ t.events, ∀ x, e.2 = .start x → Latest len remote power ops x

theorem Own.start {ops : List (Op W)} {u t' : Sys W} {now : Nat} (h : Own len remote power ops u) (hs : Start mac len now u t') :
    Own len remote power ops t' ∧ ∃ l, t'.aired = u.aired ++ l ∧ ∀ f ∈ l, Latest len remote power ops f.2 := by
  cases hs with
  | intro p rest tag r hq ht =>
    have hl := h.queued p (by rw [hq]; exact List.mem_cons_self) tag r ht
    have hnd := h.nodup
    rw [hq, List.nodup_cons] at hnd
    have hap : ∀ e ∈ u.events, evPkt e.2 ∉ rest := fun e he hm => h.apart e he (by rw [hq]; exact List.mem_cons_of_mem _ hm)
    have hqu : ∀ q ∈ rest, ∀ tag r, u.tags q = tag :: r → Latest len remote power ops ⟨q, len q, tag.dst, tag.proto, tag.power⟩ :=
      fun q hm => h.queued q (by rw [hq]; exact List.mem_cons_of_mem _ hm)
    unfold macSend
    split
    · refine ⟨⟨h.dst, h.pow, hnd.2, ?_, hqu, ?_⟩, [(now, ⟨p, len p, tag.dst, tag.proto, tag.power⟩)], rfl, by simpa using hl⟩
      · intro e he
        rcases mem_insertEvent.mp (show e ∈ insertEvent _ _ _ from he) with rfl | he
        · exact hnd.1
        · exact hap e he
      · intro e he x hx
        rcases mem_insertEvent.mp (show e ∈ insertEvent _ _ _ from he) with rfl | he
        · simp at hx
        · exact h.started e he x hx
    · refine ⟨⟨h.dst, h.pow, hnd.2, ?_, hqu, ?_⟩, [], by simp, by simp⟩
      · intro e he
        rcases mem_scheduleStarts he with he | he
        · exact hap e he
        · rw [he]; exact hnd.1
      · intro e he x hx
        rcases mem_scheduleStarts he with he | he
        · exact h.started e he x hx
        · rw [he] at hx
          simp only [Ev.start.injEq] at hx
          subst hx
          exact hl

theorem Own.base {ops : List (Op W)} {t u : Sys W} {o : Op W} {now : Nat} (h : Own len remote power ops t) (hb : Base debug accept t o now u)
    (hf : ∀ τ p proto, o = .send τ p proto → ¬ InUse t p) :
    Own len remote power (ops ++ [o]) u ∧ ∃ l, u.aired = t.aired ++ l ∧ ∀ f ∈ l, Latest len remote power (ops ++ [o]) f.2 := by
  have hev : ∀ τ a, o = .setRemote τ a ∨ (∃ w, o = .setPower τ w) ∨ o = .run → ∀ x, Latest len remote power ops x →
      Latest len remote power (ops ++ [o]) x := by
    intro τ a ho x hx
    refine hx.snoc ?_
    rcases ho with rfl | ⟨w, rfl⟩ | rfl <;> simp
  cases hb with
  | remote τ a hp =>
    refine ⟨⟨?_, ?_, h.nodup, h.apart, ?_, ?_⟩, [], by simp, by simp⟩
    · simp [trackedAfter_append, trackedAfter, plainOp]
    · simp [powerAfter_append, powerAfter, plainOp, h.pow]
    · exact fun p hp tag r ht => hev _ a (Or.inl rfl) _ (h.queued p hp tag r ht)
    · exact fun e he x hx => hev _ a (Or.inl rfl) _ (h.started e he x hx)
  | power τ w hp =>
    refine ⟨⟨?_, ?_, h.nodup, h.apart, ?_, ?_⟩, [], by simp, by simp⟩
    · simp [trackedAfter_append, trackedAfter, plainOp, h.dst]
    · simp [powerAfter_append, powerAfter, plainOp]
    · exact fun p hp tag r ht => hev now t.remote (Or.inr (Or.inl ⟨_, rfl⟩)) _ (h.queued p hp tag r ht)
    · exact fun e he x hx => hev now t.remote (Or.inr (Or.inl ⟨_, rfl⟩)) _ (h.started e he x hx)
  | aired τ x es he =>
    refine ⟨⟨?_, ?_, h.nodup, ?_, ?_, ?_⟩, [(now, x)], rfl, ?_⟩
    · simp [trackedAfter_append, trackedAfter, plainOp, GroundStaDetail.air, h.dst]
    · simp [powerAfter_append, powerAfter, plainOp, GroundStaDetail.air, h.pow]
    · intro e hm
      rcases mem_insertEvent.mp (show e ∈ insertEvent _ _ _ from hm) with rfl | hm
      · exact h.apart (now, .start x) (by rw [he]; exact List.mem_cons_self)
      · exact h.apart e (by rw [he]; exact List.mem_cons_of_mem _ hm)
    · exact fun p hp tag r ht => hev now t.remote (Or.inr (Or.inr rfl)) _ (h.queued p hp tag r ht)
    · intro e hm y hy
      rcases mem_insertEvent.mp (show e ∈ insertEvent _ _ _ from hm) with rfl | hm
      · simp at hy
      · exact hev now t.remote (Or.inr (Or.inr rfl)) _ (h.started e (by rw [he]; exact List.mem_cons_of_mem _ hm) y hy)
    · intro f hm
      rw [List.mem_singleton] at hm
      subst hm
      exact hev now t.remote (Or.inr (Or.inr rfl)) _ (h.started (now, .start x) (by rw [he]; exact List.mem_cons_self) x rfl)
  | finished τ x es he =>
    have hx : x.pkt ∉ t.queue := h.apart (now, .finish x) (by rw [he]; exact List.mem_cons_self)
    refine ⟨⟨?_, ?_, h.nodup, ?_, ?_, ?_⟩, [], by simp, by simp⟩
    · simp [trackedAfter_append, trackedAfter, plainOp, h.dst]
    · simp [powerAfter_append, powerAfter, plainOp, h.pow]
    · exact fun e hm => h.apart e (by rw [he]; exact List.mem_cons_of_mem _ hm)
    · intro p hp tag r ht
      have hne : p ≠ x.pkt := fun hh => hx (by rw [← hh]; exact hp)
      simp only [removeTag, if_neg hne] at ht
      exact hev now t.remote (Or.inr (Or.inr rfl)) _ (h.queued p hp tag r ht)
    · exact fun e hm y hy => hev now t.remote (Or.inr (Or.inr rfl)) _ (h.started e (by rw [he]; exact List.mem_cons_of_mem _ hm) y hy)
  | dropped τ p proto hp hd ha =>
    have hu := hf now p proto rfl
    refine ⟨⟨?_, ?_, h.nodup, h.apart, ?_, ?_⟩, [], by simp, by simp⟩
    · simp [trackedAfter_append, trackedAfter, plainOp, h.dst]
    · simp [powerAfter_append, powerAfter, plainOp, h.pow]
    · intro q hq tag r ht
      have hne : q ≠ p := fun hh => hu (Or.inl (by rw [← hh]; exact hq))
      simp only [if_neg hne] at ht
      exact (h.queued q hq tag r ht).snoc (by intro _ _ hh; simp only [Op.send.injEq] at hh; exact hne hh.2.1.symm)
    · intro e he x hx
      refine (h.started e he x hx).snoc ?_
      intro _ _ hh
      simp only [Op.send.injEq] at hh
      exact hu (Or.inr ⟨e, he, by rw [hx, hh.2.1]; rfl⟩)
  | queued τ p proto hp hd ha =>
    have hu := hf now p proto rfl
    have hpq : p ∉ t.queue := fun hm => hu (Or.inl hm)
    refine ⟨⟨?_, ?_, ?_, ?_, ?_, ?_⟩, [], by simp, by simp⟩
    · simp [trackedAfter_append, trackedAfter, plainOp, h.dst]
    · simp [powerAfter_append, powerAfter, plainOp, h.pow]
    · exact List.nodup_append.mpr ⟨h.nodup, by simp, by
        intro a ha b hb hab
        rw [List.mem_singleton] at hb
        exact hpq (by rw [← hb, ← hab]; exact ha)⟩
    · intro e he hm
      rcases List.mem_append.mp hm with hm | hm
      · exact h.apart e he hm
      · rw [List.mem_singleton] at hm
        exact hu (Or.inr ⟨e, he, hm⟩)
    · intro q hq tag r ht
      by_cases hqp : q = p
      · subst hqp
        simp only [if_true, List.cons.injEq] at ht
        obtain ⟨rfl, -⟩ := ht
        exact ⟨ops, [], now, proto, rfl, by simp, rfl, rfl, h.dst, h.pow⟩
      · simp only [if_neg hqp] at ht
        have hq : q ∈ t.queue := by
          rcases List.mem_append.mp hq with hq | hq
          · exact hq
          · rw [List.mem_singleton] at hq; exact absurd hq hqp
        exact (h.queued q hq tag r ht).snoc (by intro _ _ hh; simp only [Op.send.injEq] at hh; exact hqp hh.2.1.symm)
    · intro e he x hx
      refine (h.started e he x hx).snoc ?_
      intro _ _ hh
      simp only [Op.send.injEq] at hh
      exact hu (Or.inr ⟨e, he, by rw [hx, hh.2.1]; rfl⟩)

theorem own_exec {ops : List (Op W)} {t : Sys W} (hf : Fresh debug mac len accept remote power ops)
    (h : exec debug mac len accept remote power ops = some (.ok t)) : Own len remote power ops t := by
  refine exec_induction (P := fun ops t => Fresh debug mac len accept remote power ops → Own len remote power ops t) ?_ ?_ ?_ h hf
  · intro _
    exact ⟨rfl, rfl, by simp [Sys.init], by simp [Sys.init], by simp [Sys.init], by simp [Sys.init]⟩
  · intro ops o t now u hr hp hb hf
    refine ((hp hf.prefix).base hb ?_).1
    intro τ p proto ho
    exact (hf ops [] τ p proto t (by rw [ho]) hr).1
  · intro ops u t' hp hs hf
    exact ((hp hf).start hs).1

/-- Every frame goes on the air with the destination, protocol number and power of the last `Send` of its packet, whatever was sent or
refused before, for any MAC. -/
theorem C65_ground_own_send {ops : List (Op W)} {o : Op W} {u t : Sys W} (hf : Fresh debug mac len accept remote power (ops ++ [o]))
    (hu : exec debug mac len accept remote power ops = some (.ok u))
    (ht : exec debug mac len accept remote power (ops ++ [o]) = some (.ok t)) :
    ∃ l, t.aired = u.aired ++ l ∧ ∀ f ∈ l, Latest len remote power (ops ++ [o]) f.2 := by
  obtain ⟨u', hu', hst⟩ := runFrom_snoc.mp ht
  have huu : u' = u := by
    have := hu'.symm.trans hu
    simpa using this
  subst huu
  obtain ⟨now, v, hb, hs⟩ := step_ok hst
  obtain ⟨h1, l, h2, h3⟩ := (own_exec hf.prefix hu).base hb (fun τ p proto ho => (hf ops [] τ p proto u' (by rw [ho]) hu).1)
  rcases hs with rfl | hs
  · exact ⟨l, h2, h3⟩
  · obtain ⟨-, l', h4, h5⟩ := h1.start hs
    refine ⟨l ++ l', by rw [h4, h2, List.append_assoc], ?_⟩
    intro f hm
    rcases List.mem_append.mp hm with hm | hm
    · exact h3 f hm
    · exact h5 f hm

/-- The packet keeps the tag of a failed `Send`. -/
theorem tag_stays {p : Nat} {u : Sys W} {ops : List (Op W)} {v : Sys W} (hu : u.tags p ≠ [] ∧ ¬ InUse u p)
    (h : runFrom (step true mac len accept) u ops = some (.ok v)) : v.tags p ≠ [] ∧ ¬ InUse v p := by
  refine run_induction (P := fun _ v => v.tags p ≠ [] ∧ ¬ InUse v p) hu ?_ h
  intro ops o t t' _ hp hst
  obtain ⟨now, w, hb, hs⟩ := step_ok hst
  have hw : w.tags p ≠ [] ∧ ¬ InUse w p := by
    cases hb with
    | remote τ a hp' => exact hp
    | power τ a hp' => exact hp
    | dropped τ q proto hp' hd ha =>
      have hne : p ≠ q := fun hh => hp.1 (by rw [hh]; exact hd rfl)
      refine ⟨?_, hp.2⟩
      simpa only [if_neg hne] using hp.1
    | queued τ q proto hp' hd ha =>
      have hne : p ≠ q := fun hh => hp.1 (by rw [hh]; exact hd rfl)
      refine ⟨by simpa only [if_neg hne] using hp.1, ?_⟩
      intro hu
      rcases hu with hm | hm
      · rcases List.mem_append.mp hm with hm | hm
        · exact hp.2 (Or.inl hm)
        · exact hne (List.mem_singleton.mp hm)
      · exact hp.2 (Or.inr hm)
    | aired τ x es he =>
      refine ⟨hp.1, ?_⟩
      intro hu
      rcases hu with hm | ⟨e, hm, hx⟩
      · exact hp.2 (Or.inl hm)
      · rcases mem_insertEvent.mp (show e ∈ insertEvent _ _ _ from hm) with rfl | hm
        · exact hp.2 (Or.inr ⟨(now, .start x), by rw [he]; exact List.mem_cons_self, hx⟩)
        · exact hp.2 (Or.inr ⟨e, by rw [he]; exact List.mem_cons_of_mem _ hm, hx⟩)
    | finished τ x es he =>
      have hne : p ≠ x.pkt := fun hh => hp.2 (Or.inr ⟨(now, .finish x), by rw [he]; exact List.mem_cons_self, hh.symm⟩)
      refine ⟨by simpa only [removeTag, if_neg hne] using hp.1, ?_⟩
      intro hu
      rcases hu with hm | ⟨e, hm, hx⟩
      · exact hp.2 (Or.inl hm)
      · exact hp.2 (Or.inr ⟨e, by rw [he]; exact List.mem_cons_of_mem _ hm, hx⟩)
  rcases hs with rfl | hs
  · exact hw
  · cases hs with
    | intro q rest tag r hq ht =>
      have hne : p ≠ q := fun hh => hw.2 (Or.inl (by rw [hq, hh]; exact List.mem_cons_self))
      have hrest : p ∉ rest := fun hm => hw.2 (Or.inl (by rw [hq]; exact List.mem_cons_of_mem _ hm))
      unfold macSend
      split
      · refine ⟨hw.1, ?_⟩
        intro hu
        rcases hu with hm | ⟨e, hm, hx⟩
        · exact hrest hm
        · rcases mem_insertEvent.mp (show e ∈ insertEvent _ _ _ from hm) with rfl | hm
          · exact hne hx.symm
          · exact hw.2 (Or.inr ⟨e, hm, hx⟩)
      · refine ⟨hw.1, ?_⟩
        intro hu
        rcases hu with hm | ⟨e, hm, hx⟩
        · exact hrest hm
        · rcases mem_scheduleStarts hm with hm | hm
          · exact hw.2 (Or.inr ⟨e, hm, hx⟩)
          · rw [hm] at hx; exact hne hx.symm

/-- Debug builds: once `Send` has refused a packet that was not in use, every later `Send` of it ends in a failed assertion, whatever happens
in between. -/
theorem C65_retry_asserts {a b : List (Op W)} {τ τ' p : Nat} {proto proto' : UInt16} {u v : Sys W} {r : Outcome (Sys W)}
    (hu : exec true mac len accept remote power a = some (.ok u)) (hfree : ¬ InUse u p) (href : accept u.queue p = false)
    (hv : exec true mac len accept remote power (a ++ .send τ p proto :: b) = some (.ok v))
    (hr : step true mac len accept v (.send τ' p proto') = some r) : r = .assertFail := by
  unfold exec at hu hv
  rw [runFrom_append, hu] at hv
  simp only [runFrom] at hv
  split at hv
  · simp at hv
  · rename_i u1 h1
    obtain ⟨now, w, hb, hs⟩ := step_ok h1
    have hw : w.tags p ≠ [] ∧ ¬ InUse w p ∧ w.queue = u.queue ∧ w.events = u.events ∧ u1 = w := by
      simp only [GroundStaDetail.step, Option.ite_none_right_eq_some, Option.some.injEq] at h1
      obtain ⟨hp, h1⟩ := h1
      unfold send at h1
      rw [Outcome.bind_eq_ok] at h1
      obtain ⟨tags, ht, h1⟩ := h1
      simp only [href, if_true, Outcome.ok.injEq] at h1
      cases hb with
      | dropped τ q proto hp' hd ha =>
        refine ⟨by simp, hfree, rfl, rfl, ?_⟩
        rw [← h1, addTag_eq ht]
      | queued τ q proto hp' hd ha => rw [href] at ha; simp at ha
    obtain ⟨w1, w2, -, -, rfl⟩ := hw
    have := tag_stays ⟨w1, w2⟩ hv
    simp only [GroundStaDetail.step, Option.ite_none_right_eq_some, Option.some.injEq] at hr
    obtain ⟨-, rfl⟩ := hr
    unfold send addTag
    cases hp : v.tags p with
    | nil => exact absurd hp this.1
    | cons x y => simp
  · simp at hv
  · simp at hv
  · simp at hv

/-! ## Trace sources -/

/-- The calls of `Send`: (time, packet). -/
def sends : List (Op W) → List (Nat × Nat)
  | [] => []
  | .send t p _ :: os => (t, p) :: sends os
  | _ :: os => sends os

theorem sends_append (l m : List (Op W)) : sends (l ++ m) = sends l ++ sends m := by
  induction l with
  | nil => rfl
  | cons o l ih => cases o <;> simp [sends, ih]

/-- Scheduled ends of transmissions: (time, packet). -/
def pendingEnds (events : List (Nat × Ev W)) : List (Nat × Nat) :=
  events.filterMap (fun e => match e with | (t, .finish x) => some (t, x.pkt) | _ => none)

theorem pendingEnds_insert_finish (t : Nat) (x : Entry W) (es : List (Nat × Ev W)) :
    (pendingEnds (insertEvent t (.finish x) es)).Perm ((t, x.pkt) :: pendingEnds es) := by
  unfold pendingEnds
  have := (insertEvent_perm t (.finish x) es).filterMap (fun e => match e with | (t, Ev.finish x) => some (t, x.pkt) | _ => none)
  simpa using this

theorem pendingEnds_insert_start (t : Nat) (x : Entry W) (es : List (Nat × Ev W)) :
    (pendingEnds (insertEvent t (.start x) es)).Perm (pendingEnds es) := by
  unfold pendingEnds
  have := (insertEvent_perm t (.start x) es).filterMap (fun e => match e with | (t, Ev.finish x) => some (t, x.pkt) | _ => none)
  simpa using this

theorem pendingEnds_schedule (now : Nat) (x : Entry W) (ds : List Nat) (es : List (Nat × Ev W)) :
    (pendingEnds (scheduleStarts now x ds es)).Perm (pendingEnds es) := by
  induction ds generalizing es with
  | nil => exact List.Perm.refl _
  | cons d ds ih => exact (ih (insertEvent (now + d) (.start x) es)).trans (pendingEnds_insert_start _ _ _)

theorem sorted_schedule {now : Nat} {x : Entry W} {ds : List Nat} {es : List (Nat × Ev W)} (h : es.Pairwise (fun a b => a.1 ≤ b.1)) :
    (scheduleStarts now x ds es).Pairwise (fun a b => a.1 ≤ b.1) := by
  induction ds generalizing es with
  | nil => exact h
  | cons d ds ih => exact ih (sorted_insertEvent h)

theorem later_schedule {now c : Nat} {x : Entry W} {ds : List Nat} {es : List (Nat × Ev W)} (hc : c ≤ now) (h : ∀ e ∈ es, c ≤ e.1) :
    ∀ e ∈ scheduleStarts now x ds es, c ≤ e.1 := by
  induction ds generalizing es with
  | nil => exact h
  | cons d ds ih =>
    refine ih (es := insertEvent (now + d) (.start x) es) ?_
    intro e he
    rcases mem_insertEvent.mp he with rfl | he
    · exact Nat.le_trans hc (Nat.le_add_right _ _)
    · exact h e he

/-- What the trace sources have reported, in terms of the calls made and the frames given to the channel. -/
structure Reports (mac : Mac) (ops : List (Op W)) (t : Sys W) : Prop where
  begun : TxTrace.phyTxBegin.calls t.trace = t.aired.map (fun f => (f.1, f.2.pkt))
  sniffed : TxTrace.sniffer.calls t.trace = t.aired.map (fun f => (f.1, f.2.pkt))
  ended : (TxTrace.phyTxEnd.calls t.trace ++ pendingEnds t.events).Perm (t.aired.map (fun f => (f.1 + f.2.len, f.2.pkt)))
  offered : TxTrace.macTx.calls t.trace = sends ops
  dropped : (TxTrace.macTxDrop.calls t.trace).Sublist (TxTrace.macTx.calls t.trace)
  split : ((TxTrace.macTx.calls t.trace).map Prod.snd).Perm
    ((TxTrace.macTxDrop.calls t.trace).map Prod.snd ++ (t.handed.map (fun y => y.2.pkt) ++ t.queue))
  planned : (t.aired ++ GroundSta.pendingStarts t.events).Perm (GroundSta.attempts mac 0 t.handed)
  inOrder : t.trace.Pairwise (fun a b => a.1 ≤ b.1)
  past : ∀ e ∈ t.trace, e.1 ≤ t.clock
  sorted : t.events.Pairwise (fun a b => a.1 ≤ b.1)
  future : ∀ e ∈ t.events, t.clock ≤ e.1

theorem Reports.air {ops : List (Op W)} {t : Sys W} (x : Entry W)
    (begun : TxTrace.phyTxBegin.calls t.trace = t.aired.map (fun f => (f.1, f.2.pkt)))
    (sniffed : TxTrace.sniffer.calls t.trace = t.aired.map (fun f => (f.1, f.2.pkt)))
    (ended : (TxTrace.phyTxEnd.calls t.trace ++ pendingEnds t.events).Perm (t.aired.map (fun f => (f.1 + f.2.len, f.2.pkt))))
    (offered : TxTrace.macTx.calls t.trace = sends ops)
    (dropped : (TxTrace.macTxDrop.calls t.trace).Sublist (TxTrace.macTx.calls t.trace))
    (split : ((TxTrace.macTx.calls t.trace).map Prod.snd).Perm
      ((TxTrace.macTxDrop.calls t.trace).map Prod.snd ++ (t.handed.map (fun y => y.2.pkt) ++ t.queue)))
    (planned : ((t.clock, x) :: (t.aired ++ GroundSta.pendingStarts t.events)).Perm (GroundSta.attempts mac 0 t.handed))
    (inOrder : t.trace.Pairwise (fun a b => a.1 ≤ b.1))
    (past : ∀ e ∈ t.trace, e.1 ≤ t.clock)
    (sorted : t.events.Pairwise (fun a b => a.1 ≤ b.1))
    (future : ∀ e ∈ t.events, t.clock ≤ e.1) :
    Reports mac ops (GroundStaDetail.air t t.clock x) := by
  have hk : ∀ k : TxTrace, k ≠ .sniffer → k ≠ .phyTxBegin → k.calls (GroundStaDetail.air t t.clock x).trace = k.calls t.trace := by
    intro k h1 h2
    simp [GroundStaDetail.air, TxTrace.calls, h1.symm, h2.symm]
  refine ⟨?_, ?_, ?_, ?_, ?_, ?_, ?_, ?_, ?_, ?_, ?_⟩
  · simp only [GroundStaDetail.air, calls_append, begun]; simp [TxTrace.calls]
  · simp only [GroundStaDetail.air, calls_append, sniffed]; simp [TxTrace.calls]
  · rw [hk _ (by simp) (by simp)]
    simp only [GroundStaDetail.air, List.map_append, List.map_cons, List.map_nil]
    refine (List.Perm.append_left _ (pendingEnds_insert_finish _ _ _)).trans ?_
    refine List.perm_middle.trans ?_
    exact (List.Perm.cons _ ended).trans (List.perm_append_singleton _ _).symm
  · rw [hk _ (by simp) (by simp)]; exact offered
  · rw [hk _ (by simp) (by simp), hk _ (by simp) (by simp)]; exact dropped
  · rw [hk _ (by simp) (by simp), hk _ (by simp) (by simp)]; exact split
  · simp only [GroundStaDetail.air, List.append_assoc, List.cons_append, List.nil_append]
    refine List.Perm.trans ?_ planned
    refine List.perm_middle.trans (List.Perm.cons _ ?_)
    exact List.Perm.append_left _ (GroundSta.pendingStarts_insert_finish _ _ _)
  · simp only [GroundStaDetail.air]
    rw [List.pairwise_append]
    refine ⟨inOrder, by simp, ?_⟩
    intro a ha b hb
    have := past a ha
    rcases List.mem_cons.mp hb with rfl | hb
    · exact this
    · rw [List.mem_singleton] at hb; subst hb; exact this
  · intro e he
    simp only [GroundStaDetail.air] at he
    rcases List.mem_append.mp he with he | he
    · exact past e he
    · rcases List.mem_cons.mp he with rfl | he
      · exact Nat.le_refl _
      · rw [List.mem_singleton] at he; subst he; exact Nat.le_refl _
  · exact sorted_insertEvent sorted
  · intro e he
    rcases mem_insertEvent.mp (show e ∈ insertEvent _ _ _ from he) with rfl | he
    · exact Nat.le_add_right _ _
    · exact future e he

theorem Reports.start {ops : List (Op W)} {u t' : Sys W} (h : Reports mac ops u) (hs : Start mac len u.clock u t') : Reports mac ops t' := by
  cases hs with
  | intro p rest tag r hq ht =>
    have hsplit : ((TxTrace.macTx.calls u.trace).map Prod.snd).Perm ((TxTrace.macTxDrop.calls u.trace).map Prod.snd ++
        ((u.handed ++ [(u.clock, (⟨p, len p, tag.dst, tag.proto, tag.power⟩ : Entry W))]).map (fun y => y.2.pkt) ++ rest)) := by
      have := h.split
      rw [hq] at this
      simpa using this
    unfold macSend
    split
    · rename_i hsync
      refine Reports.air (t := { u with
        busy := true, queue := rest, handed := u.handed ++ [(u.clock, ⟨p, len p, tag.dst, tag.proto, tag.power⟩)] })
        ⟨p, len p, tag.dst, tag.proto, tag.power⟩ h.begun h.sniffed h.ended h.offered h.dropped hsplit ?_ h.inOrder h.past h.sorted h.future
      simp only [GroundSta.attempts_append, GroundSta.attempts, hsync, if_true, List.append_nil]
      exact (List.Perm.cons _ h.planned).trans (List.perm_append_singleton _ _).symm
    · rename_i hsync
      refine ⟨h.begun, h.sniffed, ?_, h.offered, h.dropped, hsplit, ?_, h.inOrder, h.past, sorted_schedule h.sorted, ?_⟩
      · exact (List.Perm.append_left _ (pendingEnds_schedule _ _ _ _)).trans h.ended
      · simp only [GroundSta.attempts_append, GroundSta.attempts, hsync, Bool.false_eq_true, if_false, List.append_nil, Nat.zero_add]
        refine (List.Perm.append_left _ (GroundSta.pendingStarts_schedule _ _ _ _)).trans ?_
        rw [← List.append_assoc]
        exact h.planned.append_right _
      · exact later_schedule (Nat.le_refl _) h.future

theorem reports {ops : List (Op W)} {t : Sys W} (h : exec debug mac len accept remote power ops = some (.ok t)) : Reports mac ops t := by
  refine exec_induction (P := fun ops t => Reports mac ops t) ?_ ?_ (fun ops u t' hp hs => hp.start hs) h
  · exact ⟨rfl, rfl, List.Perm.refl _, rfl, List.Sublist.refl _, List.Perm.refl _, List.Perm.refl _, by simp [Sys.init], by simp [Sys.init],
      by simp [Sys.init], by simp [Sys.init]⟩
  · intro ops o t now u _ h hb
    have hnil : ∀ o : Op W, (∀ τ p proto, o ≠ .send τ p proto) → sends (ops ++ [o]) = sends ops := by
      intro o ho
      cases o with
      | send τ p proto => exact absurd rfl (ho τ p proto)
      | setRemote τ a => simp [sends_append, sends]
      | setPower τ a => simp [sends_append, sends]
      | run => simp [sends_append, sends]
    cases hb with
    | remote τ a hp =>
      exact ⟨h.begun, h.sniffed, h.ended, h.offered.trans (hnil _ (by simp)).symm, h.dropped, h.split, h.planned, h.inOrder,
        fun e he => Nat.le_trans (h.past e he) hp.1, h.sorted, hp.2⟩
    | power τ a hp =>
      exact ⟨h.begun, h.sniffed, h.ended, h.offered.trans (hnil _ (by simp)).symm, h.dropped, h.split, h.planned, h.inOrder,
        fun e he => Nat.le_trans (h.past e he) hp.1, h.sorted, hp.2⟩
    | dropped τ p proto hp hd ha =>
      have hk : ∀ k : TxTrace, k ≠ .macTx → k ≠ .macTxDrop →
          k.calls (t.trace ++ [(now, TxTrace.macTx, p)] ++ [(now, TxTrace.macTxDrop, p)]) = k.calls t.trace := by
        intro k h1 h2
        simp [TxTrace.calls, h1.symm, h2.symm]
      have hm : TxTrace.macTx.calls (t.trace ++ [(now, TxTrace.macTx, p)] ++ [(now, TxTrace.macTxDrop, p)]) =
          TxTrace.macTx.calls t.trace ++ [(now, p)] := by simp [TxTrace.calls]
      have hdr : TxTrace.macTxDrop.calls (t.trace ++ [(now, TxTrace.macTx, p)] ++ [(now, TxTrace.macTxDrop, p)]) =
          TxTrace.macTxDrop.calls t.trace ++ [(now, p)] := by simp [TxTrace.calls]
      refine ⟨?_, ?_, ?_, ?_, ?_, ?_, h.planned, ?_, ?_, h.sorted, hp.2⟩
      · rw [hk _ (by simp) (by simp)]; exact h.begun
      · rw [hk _ (by simp) (by simp)]; exact h.sniffed
      · rw [hk _ (by simp) (by simp)]; exact h.ended
      · rw [hm, h.offered]; simp [sends_append, sends]
      · rw [hm, hdr]; exact h.dropped.append (List.Sublist.refl _)
      · rw [hm, hdr, List.map_append, List.map_append, List.append_assoc]
        simp only [List.map_cons, List.map_nil, List.cons_append, List.nil_append]
        exact (List.perm_append_singleton _ _).trans ((List.Perm.cons _ h.split).trans List.perm_middle.symm)
      · rw [List.append_assoc, List.pairwise_append]
        refine ⟨h.inOrder, by simp, ?_⟩
        intro a ha b hb
        have := Nat.le_trans (h.past a ha) hp.1
        rcases List.mem_cons.mp hb with rfl | hb
        · exact this
        · have hb : b = _ := List.mem_singleton.mp hb
          subst hb; exact this
      · intro e he
        rw [List.append_assoc] at he
        rcases List.mem_append.mp he with he | he
        · exact Nat.le_trans (h.past e he) hp.1
        · rcases List.mem_cons.mp he with rfl | he
          · exact Nat.le_refl _
          · have he : e = _ := List.mem_singleton.mp he
            subst he; exact Nat.le_refl _
    | queued τ p proto hp hd ha =>
      have hk : ∀ k : TxTrace, k ≠ .macTx → k.calls (t.trace ++ [(now, TxTrace.macTx, p)]) = k.calls t.trace := by
        intro k h1
        simp [TxTrace.calls, h1.symm]
      have hm : TxTrace.macTx.calls (t.trace ++ [(now, TxTrace.macTx, p)]) = TxTrace.macTx.calls t.trace ++ [(now, p)] := by
        simp [TxTrace.calls]
      refine ⟨?_, ?_, ?_, ?_, ?_, ?_, h.planned, ?_, ?_, h.sorted, hp.2⟩
      · rw [hk _ (by simp)]; exact h.begun
      · rw [hk _ (by simp)]; exact h.sniffed
      · rw [hk _ (by simp)]; exact h.ended
      · rw [hm, h.offered]; simp [sends_append, sends]
      · rw [hm, hk _ (by simp)]; exact h.dropped.trans (List.sublist_append_left _ _)
      · rw [hm, hk _ (by simp), List.map_append]
        simp only [List.map_cons, List.map_nil]
        rw [← List.append_assoc, ← List.append_assoc, List.append_assoc (_ ++ _)]
        have := h.split.append_right [p]
        simpa using this
      · rw [List.pairwise_append]
        refine ⟨h.inOrder, by simp, ?_⟩
        intro a ha b hb
        rw [List.mem_singleton] at hb; subst hb
        exact Nat.le_trans (h.past a ha) hp.1
      · intro e he
        rcases List.mem_append.mp he with he | he
        · exact Nat.le_trans (h.past e he) hp.1
        · rw [List.mem_singleton] at he; subst he; exact Nat.le_refl _
    | aired τ x es he =>
      have hle : t.clock ≤ now := h.future (now, .start x) (by rw [he]; exact List.mem_cons_self)
      have hso := h.sorted
      rw [he, List.pairwise_cons] at hso
      refine Reports.air (t := { t with clock := now, events := es }) x h.begun h.sniffed ?_ (h.offered.trans (hnil _ (by simp)).symm) h.dropped
        h.split ?_ h.inOrder (fun e hm => Nat.le_trans (h.past e hm) hle) hso.2 hso.1
      · have := h.ended
        rw [he] at this
        simpa [pendingEnds] using this
      · have := h.planned
        rw [he] at this
        exact List.perm_middle.symm.trans (by simpa [GroundSta.pendingStarts] using this)
    | finished τ x es he =>
      have hle : t.clock ≤ now := h.future (now, .finish x) (by rw [he]; exact List.mem_cons_self)
      have hso := h.sorted
      rw [he, List.pairwise_cons] at hso
      have hk : ∀ k : TxTrace, k ≠ .phyTxEnd → k.calls (t.trace ++ [(now, TxTrace.phyTxEnd, x.pkt)]) = k.calls t.trace := by
        intro k h1
        simp [TxTrace.calls, h1.symm]
      refine ⟨?_, ?_, ?_, ?_, ?_, ?_, ?_, ?_, ?_, hso.2, hso.1⟩
      · rw [hk _ (by simp)]; exact h.begun
      · rw [hk _ (by simp)]; exact h.sniffed
      · have := h.ended
        rw [he] at this
        rw [calls_append]
        simpa [pendingEnds, TxTrace.calls] using this
      · rw [hk _ (by simp)]; exact h.offered.trans (hnil _ (by simp)).symm
      · rw [hk _ (by simp), hk _ (by simp)]; exact h.dropped
      · rw [hk _ (by simp), hk _ (by simp)]; exact h.split
      · have := h.planned
        rw [he] at this
        simpa [GroundSta.pendingStarts] using this
      · rw [List.pairwise_append]
        refine ⟨h.inOrder, by simp, ?_⟩
        intro a ha b hb
        rw [List.mem_singleton] at hb; subst hb
        exact Nat.le_trans (h.past a ha) hle
      · intro e hm
        rcases List.mem_append.mp hm with hm | hm
        · exact Nat.le_trans (h.past e hm) hle
        · rw [List.mem_singleton] at hm; subst hm; exact Nat.le_refl _

/-- A waiting packet means that the device is busy, and then an event is scheduled. -/
theorem waits (hm : mac.sync = true ∨ ∀ k t, mac.delays k t ≠ []) {ops : List (Op W)} {t : Sys W}
    (h : exec debug mac len accept remote power ops = some (.ok t)) :
    (t.queue ≠ [] → t.busy = true) ∧ (t.busy = true → t.events ≠ []) := by
  have hins : ∀ (τ : Nat) (e : Ev W) (es : List (Nat × Ev W)), insertEvent τ e es ≠ [] := by
    intro τ e es hh
    have : (τ, e) ∈ insertEvent τ e es := mem_insertEvent.mpr (Or.inl rfl)
    rw [hh] at this
    simp at this
  have hsch : ∀ (now : Nat) (x : Entry W) (ds : List Nat) (es : List (Nat × Ev W)), (ds ≠ [] ∨ es ≠ []) → scheduleStarts now x ds es ≠ [] := by
    intro now x ds
    induction ds with
    | nil => intro es hh; exact hh.resolve_left (by simp)
    | cons d ds ih => intro es _; exact ih _ (Or.inr (hins _ _ _))
  have hmac : ∀ (u : Sys W) (now : Nat) (x : Entry W), (macSend mac u now x).events ≠ [] ∧ (macSend mac u now x).busy = u.busy := by
    intro u now x
    unfold macSend
    split
    · exact ⟨hins _ _ _, rfl⟩
    · rename_i hs
      exact ⟨hsch _ _ _ _ (Or.inl (hm.resolve_left hs _ _)), rfl⟩
  have hst : ∀ (u t' : Sys W) (now : Nat), transmitStart debug mac len u now = .ok t' → t'.busy = true ∧ t'.events ≠ [] := by
    intro u t' now hh
    cases transmitStart_ok hh with
    | intro p rest tag r hq ht => exact ⟨(hmac _ _ _).2, (hmac _ _ _).1⟩
  refine run_induction (P := fun _ (t : Sys W) => (t.queue ≠ [] → t.busy = true) ∧ (t.busy = true → t.events ≠ [])) (by simp [Sys.init]) ?_ h
  intro ops o s s' _ hi h
  cases o with
  | setRemote τ a =>
    simp only [GroundStaDetail.step, Option.ite_none_right_eq_some, Option.some.injEq, Outcome.ok.injEq] at h
    obtain ⟨-, rfl⟩ := h
    exact hi
  | setPower τ a =>
    simp only [GroundStaDetail.step, Option.ite_none_right_eq_some, Option.some.injEq, Outcome.ok.injEq] at h
    obtain ⟨-, rfl⟩ := h
    exact hi
  | send τ p proto =>
    simp only [GroundStaDetail.step, Option.ite_none_right_eq_some, Option.some.injEq] at h
    obtain ⟨hp, h⟩ := h
    unfold send at h
    rw [Outcome.bind_eq_ok] at h
    obtain ⟨tags, ht, h⟩ := h
    simp only at h
    split at h
    · simp only [Outcome.ok.injEq] at h
      subst h
      exact hi
    · split at h
      · rename_i hb
        simp only [Outcome.ok.injEq] at h
        subst h
        exact ⟨fun _ => hb, hi.2⟩
      · obtain ⟨h1, h2⟩ := hst _ _ _ h
        exact ⟨fun _ => h1, fun _ => h2⟩
  | run =>
    simp only [GroundStaDetail.step] at h
    split at h
    · simp at h
    · rename_i τ x es he
      simp only [Option.some.injEq, Outcome.ok.injEq] at h
      subst h
      exact ⟨hi.1, fun _ => hins _ _ _⟩
    · rename_i τ x es he
      simp only [Option.some.injEq] at h
      unfold transmitComplete at h
      simp only at h
      split at h
      · rename_i hq
        simp only [Outcome.ok.injEq] at h
        subst h
        refine ⟨fun hh => absurd (List.isEmpty_iff.mp hq) hh, by simp⟩
      · obtain ⟨h1, h2⟩ := hst _ _ _ h
        exact ⟨fun _ => h1, fun _ => h2⟩

/-- For every MAC and every use of the device.  `MacTx` reports each `Send`, `MacTxDrop` some of them.  `Sniffer` and `PhyTxBegin` report
exactly the frames given to the channel, in order, `PhyTxEnd` each of them its length later (those not reported yet are scheduled).  The
reports come in the order of time. -/
theorem C66_ground {ops : List (Op W)} {t : Sys W} (h : exec debug mac len accept remote power ops = some (.ok t)) :
    TxTrace.macTx.calls t.trace = sends ops ∧
    (TxTrace.macTxDrop.calls t.trace).Sublist (sends ops) ∧
    TxTrace.sniffer.calls t.trace = t.aired.map (fun f => (f.1, f.2.pkt)) ∧
    TxTrace.phyTxBegin.calls t.trace = t.aired.map (fun f => (f.1, f.2.pkt)) ∧
    (TxTrace.phyTxEnd.calls t.trace ++ pendingEnds t.events).Perm (t.aired.map (fun f => (f.1 + f.2.len, f.2.pkt))) ∧
    t.trace.Pairwise (fun a b => a.1 ≤ b.1) := by
  have hr := reports h
  exact ⟨hr.offered, hr.offered ▸ hr.dropped, hr.sniffed, hr.begun, hr.ended, hr.inOrder⟩

/-- For MACs that send each frame at least once, when no event is left: every packet offered was reported dropped or was handed to the MAC
(`attempts`: the transmissions it plans for it), every planned transmission was reported by `Sniffer` and `PhyTxBegin`, and every one has
ended. -/
theorem C66_ground_complete (hm : mac.sync = true ∨ ∀ k t, mac.delays k t ≠ []) {ops : List (Op W)} {t : Sys W}
    (h : exec debug mac len accept remote power ops = some (.ok t)) (he : t.events = []) :
    ((sends ops).map Prod.snd).Perm ((TxTrace.macTxDrop.calls t.trace).map Prod.snd ++ t.handed.map (fun y => y.2.pkt)) ∧
    (TxTrace.phyTxBegin.calls t.trace).Perm ((GroundSta.attempts mac 0 t.handed).map (fun f => (f.1, f.2.pkt))) ∧
    (TxTrace.phyTxEnd.calls t.trace).Perm ((GroundSta.attempts mac 0 t.handed).map (fun f => (f.1 + f.2.len, f.2.pkt))) := by
  have hr := reports h
  obtain ⟨w1, w2⟩ := waits hm h
  have hq : t.queue = [] := by
    by_contra hq
    exact w2 (w1 hq) he
  have hpl : t.aired.Perm (GroundSta.attempts mac 0 t.handed) := by
    have := hr.planned
    rw [he] at this
    simpa [GroundSta.pendingStarts] using this
  refine ⟨?_, ?_, ?_⟩
  · have := hr.split
    rw [hr.offered, hq] at this
    simpa using this
  · rw [hr.begun]; exact hpl.map _
  · have := hr.ended
    rw [he] at this
    simp only [pendingEnds, List.filterMap_nil, List.append_nil] at this
    exact this.trans (hpl.map _)

theorem used_sent {ops : List (Op W)} {u : Sys W} {p : Nat} (h : exec debug mac len accept remote power ops = some (.ok u))
    (hp : InUse u p ∨ ∃ τ, (τ, p) ∈ TxTrace.macTxDrop.calls u.trace) : p ∈ (sends ops).map Prod.snd := by
  have hr := reports h
  have hmem : ∀ q, q ∈ (TxTrace.macTxDrop.calls u.trace).map Prod.snd ++ (u.handed.map (fun y => y.2.pkt) ++ u.queue) →
      q ∈ (sends ops).map Prod.snd := by
    intro q hq
    rw [← hr.offered]
    exact hr.split.mem_iff.mpr hq
  have hatt : ∀ f, f ∈ GroundSta.attempts mac 0 u.handed → f.2.pkt ∈ (sends ops).map Prod.snd := by
    intro f hf
    obtain ⟨y, hy, hy2, -⟩ := mem_attempts hf
    exact hmem _ (List.mem_append.mpr (Or.inr (List.mem_append.mpr (Or.inl (List.mem_map.mpr ⟨y, hy, by rw [hy2]⟩)))))
  rcases hp with (hq | ⟨e, he, hp⟩) | ⟨τ, hd⟩
  · exact hmem _ (List.mem_append.mpr (Or.inr (List.mem_append.mpr (Or.inr hq))))
  · obtain ⟨τ, ev⟩ := e
    cases ev with
    | start x =>
      have : (τ, x) ∈ GroundSta.pendingStarts u.events := List.mem_filterMap.mpr ⟨_, he, rfl⟩
      have := hatt _ (hr.planned.mem_iff.mp (List.mem_append.mpr (Or.inr this)))
      rw [← hp]; exact this
    | finish x =>
      have : (τ, x.pkt) ∈ pendingEnds u.events := List.mem_filterMap.mpr ⟨_, he, rfl⟩
      have := hr.ended.mem_iff.mp (List.mem_append.mpr (Or.inr this))
      obtain ⟨f, hf, hfe⟩ := List.mem_map.mp this
      simp only [Prod.mk.injEq] at hfe
      have := hatt _ (hr.planned.mem_iff.mp (List.mem_append.mpr (Or.inl hf)))
      rw [← hp]
      show x.pkt ∈ _
      rw [← hfe.2]; exact this
  · exact hmem _ (List.mem_append.mpr (Or.inl (List.mem_map.mpr ⟨_, hd, rfl⟩)))

/-- Callers that make a new packet for each `Send`, as the transport does (model/ndn/ground-sta-transport.cc:123-125), meet the condition. -/
theorem C65_ground_new_packets {ops : List (Op W)} (hn : ((sends ops).map Prod.snd).Nodup) : Fresh debug mac len accept remote power ops := by
  intro a b τ p proto u hops hu
  subst hops
  have hp : p ∉ (sends a).map Prod.snd := by
    rw [sends_append, List.map_append, List.nodup_append] at hn
    intro hm
    exact hn.2.2 p hm p (by simp [sends]) rfl
  exact ⟨fun h => hp (used_sent hu (Or.inl h)), fun _ τ' h => hp (used_sent hu (Or.inr ⟨τ', h⟩))⟩

example : ((sends ([.send 0 1 7, .setPower 1 5, .run, .send 20 2 7] : List (Op Nat))).map Prod.snd).Nodup := by decide

/-! ## Examples -/

def inUse (s : Sys W) (p : Nat) : Bool := s.queue.contains p || s.events.any (fun e => evPkt e.2 == p)

theorem inUse_iff (s : Sys W) (p : Nat) : inUse s p = true ↔ InUse s p := by
  simp [inUse, InUse]

/-- `Fresh`, computed along the execution. -/
def freshRun (debug : Bool) (mac : Mac) (len : Nat → Nat) (accept : List Nat → Nat → Bool) : Sys W → List (Op W) → Bool
  | _, [] => true
  | s, o :: os =>
    (match o with
      | .send _ p _ => !inUse s p && (!debug || (TxTrace.macTxDrop.calls s.trace).all (fun e => e.2 != p))
      | _ => true) &&
    (match step debug mac len accept s o with
      | some (.ok s') => freshRun debug mac len accept s' os
      | _ => true)

theorem fresh_of_run {ops : List (Op W)} (h : freshRun debug mac len accept (Sys.init remote power) ops = true) :
    Fresh debug mac len accept remote power ops := by
  unfold Fresh exec
  generalize Sys.init remote power = s at h
  induction ops generalizing s with
  | nil => intro a b τ p proto u h; simp at h
  | cons o os ih =>
    intro a b τ p proto u hops hu
    simp only [freshRun, Bool.and_eq_true] at h
    cases a with
    | nil =>
      simp only [List.nil_append, List.cons.injEq] at hops
      obtain ⟨rfl, -⟩ := hops
      simp only [runFrom, Option.some.injEq, Outcome.ok.injEq] at hu
      subst hu
      have h1 := h.1
      simp only [Bool.and_eq_true, Bool.not_eq_true', Bool.or_eq_true, List.all_eq_true, bne_iff_ne] at h1
      refine ⟨fun hh => ?_, fun hd τ' hm => ?_⟩
      · rw [(inUse_iff _ _).mpr hh] at h1; simp at h1
      · rcases h1.2 with h2 | h2
        · rw [hd] at h2; simp at h2
        · exact h2 _ hm rfl
    | cons o' a =>
      simp only [List.cons_append, List.cons.injEq] at hops
      obtain ⟨rfl, rfl⟩ := hops
      simp only [runFrom] at hu
      split at hu
      · simp at hu
      · rename_i s' hs
        rw [hs] at h
        exact ih s' h.2 a b τ p proto u rfl hu
      · simp at hu
      · simp at hu
      · simp at hu

/-- Two packets, the second offered while the first is on the air; the queue holds one packet, so a third is refused; later packet 1 is used
again. -/
def detailOps : List (Op Nat) :=
  [.send 0 1 7, .send 1 2 8, .send 2 3 9, .setRemote 3 (SatAddress.mk3 .little 1 2 3), .run, .run, .send 30 1 5, .run]

def oneWaiting (q : List Nat) (_ : Nat) : Bool := decide (q.length < 1)

example : ∃ t, exec true noneMac (fun _ => 10) oneWaiting (SatAddress.mk3 .little 0 0 0) 4 detailOps = some (.ok t) ∧
    t.aired.map (fun f => (f.1, f.2.pkt, f.2.proto, f.2.dst == SatAddress.mk3 .little 1 2 3)) =
      [(0, 1, 7, false), (10, 2, 8, false), (30, 1, 5, true)] ∧
    TxTrace.macTxDrop.calls t.trace = [(2, 3)] ∧ t.events = [] := by
  refine ⟨_, rfl, ?_⟩; decide

example : Fresh true noneMac (fun _ => 10) oneWaiting (SatAddress.mk3 .little 0 0 0) 4 detailOps := fresh_of_run (by decide)

/-- The same without the requirement on callers. -/
def C65_claim : Prop :=
  ∀ (debug : Bool) (mac : Mac) (len : Nat → Nat) (accept : List Nat → Nat → Bool) (remote : SatAddress) (power : Nat) (ops : List (Op Nat))
    (o : Op Nat) (u t : Sys Nat), exec debug mac len accept remote power ops = some (.ok u) →
    exec debug mac len accept remote power (ops ++ [o]) = some (.ok t) →
    ∃ l, t.aired = u.aired ++ l ∧ ∀ f ∈ l, ∃ (τ : Nat), .send τ f.2.pkt f.2.proto ∈ ops ++ [o] ∧
      ∀ (τ' : Nat) (proto : UInt16), .send τ' f.2.pkt proto ∈ ops ++ [o] → τ' ≤ τ

/-- Release builds: a packet that is offered twice while it waits is first sent with the protocol number of the second call and then with that of
the first.  (Debug builds stop at the second call.) -/
theorem C65_twice : ∃ t, exec false noneMac (fun _ => 10) (fun _ _ => true) (SatAddress.mk3 .little 0 0 0) 4
      ([.send 0 1 7, .send 1 2 8, .send 2 2 9, .run, .run] : List (Op Nat)) = some (.ok t) ∧
    t.aired.map (fun f => (f.1, f.2.pkt, f.2.proto)) = [(0, 1, 7), (10, 2, 9), (20, 2, 8)] := by
  refine ⟨_, rfl, ?_⟩; decide

theorem C65_claim_false : ¬ C65_claim := by
  intro h
  obtain ⟨u, hu, hu2⟩ : ∃ u, exec false noneMac (fun _ => 10) (fun _ _ => true) (SatAddress.mk3 .little 0 0 0) 4
      ([.send 0 1 7, .send 1 2 8, .send 2 2 9, .run] : List (Op Nat)) = some (.ok u) ∧
      u.aired.map (fun f => (f.1, f.2.pkt, f.2.proto)) = [(0, 1, 7), (10, 2, 9)] := by
    refine ⟨_, rfl, ?_⟩; decide
  obtain ⟨t, ht, ht2⟩ := C65_twice
  obtain ⟨l, hl, hf⟩ := h false noneMac (fun _ => 10) (fun _ _ => true) (SatAddress.mk3 .little 0 0 0) 4
    [.send 0 1 7, .send 1 2 8, .send 2 2 9, .run] .run u t hu ht
  rw [hl, List.map_append, hu2] at ht2
  have hlast : l.map (fun f => (f.1, f.2.pkt, f.2.proto)) = [(20, 2, 8)] := by simpa using ht2
  cases l with
  | nil => simp at hlast
  | cons f l =>
    simp only [List.map_cons, List.cons.injEq, Prod.mk.injEq] at hlast
    obtain ⟨τ, h1, h2⟩ := hf f List.mem_cons_self
    rw [hlast.1.2.1, hlast.1.2.2] at h1
    rw [hlast.1.2.1] at h2
    have h3 := h2 2 9 (by simp)
    simp at h1
    omega

example : ∃ u, exec true noneMac (fun _ => 10) oneWaiting (SatAddress.mk3 .little 0 0 0) 4 (detailOps.take 2) = some (.ok u) ∧
    inUse u 3 = false ∧ oneWaiting u.queue 3 = false ∧
    ∃ v, exec true noneMac (fun _ => 10) oneWaiting (SatAddress.mk3 .little 0 0 0) 4 (detailOps.take 2 ++ .send 2 3 9 :: [.run, .run]) =
      some (.ok v) ∧ step true noneMac (fun _ => 10) oneWaiting v (.send 40 3 9) = some .assertFail := by
  refine ⟨_, rfl, by decide, by decide, _, rfl, rfl⟩

end GroundStaDetail
end Icarus
