import Verif.Props.DeviceDetail

/-!
# Packet tags and trace sources of the satellite devices (C65, C66)

The downlink device is related to a ground station with the transparent MAC and a fixed remote address, so that the results of
`Verif.Props.DeviceDetail` carry over.
-/

set_option autoImplicit false

namespace Icarus

theorem insertEvent_map {E F : Type} (f : E → F) (t : Nat) (e : E) (l : List (Nat × E)) :
    (insertEvent t e l).map (fun x => (x.1, f x.2)) = insertEvent t (f e) (l.map (fun x => (x.1, f x.2))) := by
  induction l with
  | nil => rfl
  | cons g gs ih =>
    simp only [insertEvent, List.map_cons]
    split <;> simp [ih]

namespace Sat2GroundDetail
open Sat2Ground (Entry)
open GroundStaDetail (evPkt)

variable {W : Type} {debug : Bool} {len : Nat → Nat} {accept : List Nat → Nat → Bool}

/-- The same call on a ground station. -/
def groundOp : Op W → GroundStaDetail.Op W
  | .send t p proto => .send t p proto
  | .setPower t w => .setPower t w
  | .run => .run

def downEntry (x : GroundSta.Entry W) : Entry W := ⟨x.pkt, x.len, x.proto, x.power⟩

structure Sim (t : Sys W) (g : GroundStaDetail.Sys W) : Prop where
  clock : t.clock = g.clock
  power : t.power = g.power
  queue : t.queue = g.queue
  busy : t.busy = g.busy
  trace : t.trace = g.trace
  events : t.events = g.events.map (fun e => (e.1, evPkt e.2))
  ends : ∀ e ∈ g.events, ∃ x, e.2 = .finish x
  tags : ∀ p, t.tags p = (g.tags p).map (fun x => ⟨x.proto, x.power⟩)
  aired : t.aired = g.aired.map (fun f => (f.1, downEntry f.2))
  idle : t.busy = false → t.events = []
  single : t.events.length ≤ 1

/-- The same outcome, and related states if it is a normal one. -/
inductive Same : Outcome (Sys W) → Outcome (GroundStaDetail.Sys W) → Prop where
  | ok (t : Sys W) (g : GroundStaDetail.Sys W) (h : Sim t g) : Same (.ok t) (.ok g)
  | assertFail : Same .assertFail .assertFail
  | ub (f : Fault) : Same (.ub f) (.ub f)

theorem Sim.start {t : Sys W} {g : GroundStaDetail.Sys W} (hc : t.clock = g.clock) (hpow : t.power = g.power) (hq : t.queue = g.queue)
    (hb : t.busy = true) (hgb : g.busy = false) (htr : t.trace = g.trace) (hev : t.events = []) (hgev : g.events = [])
    (htags : ∀ p, t.tags p = (g.tags p).map (fun x => ⟨x.proto, x.power⟩))
    (hair : t.aired = g.aired.map (fun f => (f.1, downEntry f.2))) (now : Nat) :
    Same (transmitStart debug len t now) (GroundStaDetail.transmitStart debug noneMac len g now) := by
  unfold transmitStart GroundStaDetail.transmitStart
  simp only [hb, hgb, Bool.not_false, Outcome.nsAssert_true, Outcome.bind_ok]
  rw [hq]
  cases hgq : g.queue with
  | nil => exact .ub _
  | cons p rest =>
    simp only [peekTag]
    have := htags p
    cases hgt : g.tags p with
    | nil =>
      rw [hgt] at this
      simp only [this, List.map_nil]
      exact .ub _
    | cons tag r =>
      rw [hgt] at this
      simp only [this, List.map_cons, Outcome.bind_ok]
      refine .ok _ _ ?_
      refine ⟨hc, hpow, rfl, rfl, ?_, ?_, ?_, htags, ?_, ?_, ?_⟩
      · simp [GroundStaDetail.macSend, noneMac, GroundStaDetail.air, htr]
      · simp [GroundStaDetail.macSend, noneMac, GroundStaDetail.air, hev, hgev, insertEvent, evPkt]
      · simp [GroundStaDetail.macSend, noneMac, GroundStaDetail.air, hgev, insertEvent]
      · simp [GroundStaDetail.macSend, noneMac, GroundStaDetail.air, hair, downEntry]
      · simp
      · simp [hev, insertEvent]

theorem Sim.step {t : Sys W} {g : GroundStaDetail.Sys W} (h : Sim t g) {o : Op W} {r : Outcome (Sys W)}
    (hs : step debug len accept t o = some r) :
    ∃ r', GroundStaDetail.step debug noneMac len accept g (groundOp o) = some r' ∧ Same r r' := by
  have hpos : ∀ τ, possible t τ → GroundStaDetail.possible g τ := by
    intro τ hp
    refine ⟨h.clock ▸ hp.1, ?_⟩
    intro e he
    exact hp.2 (e.1, evPkt e.2) (by rw [h.events]; exact List.mem_map.mpr ⟨e, he, rfl⟩)
  have hgev : t.events = [] → g.events = [] := by
    intro he
    have := h.events
    rw [he] at this
    exact List.map_eq_nil_iff.mp this.symm
  cases o with
  | setPower τ w =>
    simp only [Sat2GroundDetail.step, Option.ite_none_right_eq_some, Option.some.injEq] at hs
    obtain ⟨hp, rfl⟩ := hs
    refine ⟨_, if_pos (hpos τ hp), .ok _ _ ?_⟩
    exact ⟨rfl, rfl, h.queue, h.busy, h.trace, h.events, h.ends, h.tags, h.aired, h.idle, h.single⟩
  | send τ p proto =>
    simp only [Sat2GroundDetail.step, Option.ite_none_right_eq_some, Option.some.injEq] at hs
    obtain ⟨hp, rfl⟩ := hs
    refine ⟨_, if_pos (hpos τ hp), ?_⟩
    unfold send GroundStaDetail.send addTag
    have hem : (t.tags p).isEmpty = (g.tags p).isEmpty := by rw [h.tags p, List.isEmpty_map]
    rw [hem]
    cases ha : Outcome.nsAssert debug (g.tags p).isEmpty with
    | ub f => simp only [Outcome.bind_ub]; exact .ub f
    | abort => unfold Outcome.nsAssert at ha; split at ha <;> simp at ha
    | assertFail => simp only [Outcome.bind_assertFail]; exact .assertFail
    | ok u =>
      simp only [Outcome.bind_ok, h.queue]
      have htags : ∀ q, (if q = p then (⟨proto, t.power⟩ : Tag W) :: t.tags p else t.tags q) =
          (if q = p then (⟨g.remote, proto, g.power⟩ : GroundStaDetail.Tag W) :: g.tags p else g.tags q).map (fun x => ⟨x.proto, x.power⟩) := by
        intro q
        split
        · simp [h.tags p, h.power]
        · exact h.tags q
      split
      · refine .ok _ _ ?_
        exact ⟨rfl, h.power, rfl, h.busy, by simp [h.trace], h.events, h.ends, htags, h.aired, h.idle, h.single⟩
      · cases hb : t.busy with
        | true =>
          have hgb : g.busy = true := h.busy ▸ hb
          simp only [hgb, if_true]
          refine .ok _ _ ?_
          exact ⟨rfl, h.power, rfl, rfl, by simp [h.trace], h.events, h.ends, htags, h.aired, by simp, h.single⟩
        | false =>
          have hgb : g.busy = false := h.busy ▸ hb
          simp only [hgb, Bool.false_eq_true, if_false]
          have := Sim.start (debug := debug) (len := len)
            (t := { t with
              clock := τ
              tags := fun q => if q = p then (⟨proto, t.power⟩ : Tag W) :: t.tags p else t.tags q
              trace := t.trace ++ [(τ, TxTrace.macTx, p)]
              queue := g.queue ++ [p]
              busy := true })
            (g := { g with
              clock := τ
              tags := fun q => if q = p then (⟨g.remote, proto, g.power⟩ : GroundStaDetail.Tag W) :: g.tags p else g.tags q
              trace := g.trace ++ [(τ, TxTrace.macTx, p)]
              queue := g.queue ++ [p]
              busy := false })
            rfl h.power rfl rfl rfl (by simp [h.trace]) (h.idle hb) (hgev (h.idle hb)) htags h.aired τ
          simpa only [hgb] using this
  | run =>
    simp only [Sat2GroundDetail.step] at hs
    cases hte : t.events with
    | nil => simp [hte] at hs
    | cons e es =>
      obtain ⟨τ, p⟩ := e
      simp only [hte, Option.some.injEq] at hs
      have hes : es = [] := by
        have := h.single
        rw [hte] at this
        simpa using this
      subst hes
      have hbusy : t.busy = true := by
        by_contra hb
        have := h.idle (by simpa using hb)
        rw [hte] at this
        simp at this
      have hge := h.events
      rw [hte] at hge
      cases hg : g.events with
      | nil => rw [hg] at hge; simp at hge
      | cons ge ges =>
        rw [hg] at hge
        obtain ⟨τ', ev⟩ := ge
        simp only [List.map_cons, List.cons.injEq, Prod.mk.injEq] at hge
        obtain ⟨⟨rfl, hpk⟩, hnil⟩ := hge
        have hges : ges = [] := List.map_eq_nil_iff.mp hnil.symm
        subst hges
        obtain ⟨x, hx⟩ := h.ends (τ, ev) (by rw [hg]; exact List.mem_cons_self)
        simp only at hx
        subst hx
        simp only [evPkt] at hpk
        subst hpk
        refine ⟨GroundStaDetail.transmitComplete debug noneMac len { g with clock := τ, events := [] } τ x.pkt,
          by simp only [groundOp, GroundStaDetail.step, hg], ?_⟩
        subst hs
        have htags : ∀ q, (removeTag t.tags x.pkt) q = ((removeTag g.tags x.pkt) q).map (fun x => ⟨x.proto, x.power⟩) := by
          intro q
          simp only [removeTag]
          split
          · rw [h.tags x.pkt, List.map_tail]
          · exact h.tags q
        unfold transmitComplete GroundStaDetail.transmitComplete
        simp only [h.queue]
        split
        · refine .ok _ _ ?_
          exact ⟨rfl, h.power, rfl, rfl, by simp [h.trace], rfl, by simp, htags, h.aired, by simp, by simp⟩
        · have := Sim.start (debug := debug) (len := len)
            (t := { t with
              clock := τ
              events := []
              tags := removeTag t.tags x.pkt
              trace := t.trace ++ [(τ, TxTrace.phyTxEnd, x.pkt)]
              queue := g.queue })
            (g := { g with
              clock := τ
              events := []
              tags := removeTag g.tags x.pkt
              trace := g.trace ++ [(τ, TxTrace.phyTxEnd, x.pkt)]
              busy := false })
            rfl h.power rfl hbusy rfl (by simp [h.trace]) rfl rfl htags h.aired τ
          exact this

theorem Sim.exec {power : W} (remote : SatAddress) {ops : List (Op W)} {r : Outcome (Sys W)} (h : exec debug len accept power ops = some r) :
    ∃ r', GroundStaDetail.exec debug noneMac len accept remote power (ops.map groundOp) = some r' ∧ Same r r' := by
  induction ops using List.reverseRecOn generalizing r with
  | nil =>
    simp only [Sat2GroundDetail.exec, runFrom, Option.some.injEq] at h
    subst h
    refine ⟨_, rfl, .ok _ _ ?_⟩
    exact ⟨rfl, rfl, rfl, rfl, rfl, rfl, by simp [GroundStaDetail.Sys.init], by simp [GroundStaDetail.Sys.init, Sys.init], rfl, by simp [Sys.init],
      by simp [Sys.init]⟩
  | append_singleton os o ih =>
    unfold Sat2GroundDetail.exec at h
    rw [runFrom_append] at h
    unfold GroundStaDetail.exec
    rw [List.map_append, List.map_singleton, runFrom_append]
    cases h1 : runFrom (Sat2GroundDetail.step debug len accept) (Sys.init power) os with
    | none => simp [h1] at h
    | some r1 =>
      obtain ⟨r', h2, h3⟩ := ih h1
      unfold GroundStaDetail.exec at h2
      rw [h2]
      rw [h1] at h
      cases h3 with
      | ok t g hs =>
        simp only [runFrom_single] at h ⊢
        exact hs.step h
      | assertFail => simp only [Option.some.injEq] at h; subst h; exact ⟨_, rfl, .assertFail⟩
      | ub f => simp only [Option.some.injEq] at h; subst h; exact ⟨_, rfl, .ub f⟩

/-- Callers offer a packet only when the device is not using it.  Debug builds: and only if no earlier `Send` of it has failed. -/
def Fresh (debug : Bool) (len : Nat → Nat) (accept : List Nat → Nat → Bool) (power : W) (ops : List (Op W)) : Prop :=
  ∀ (a b : List (Op W)) (τ p : Nat) (proto : UInt16) (u : Sys W), ops = a ++ .send τ p proto :: b →
    exec debug len accept power a = some (.ok u) →
    p ∉ u.queue ∧ (∀ e ∈ u.events, e.2 ≠ p) ∧ (debug = true → ∀ τ', (τ', p) ∉ TxTrace.macTxDrop.calls u.trace)

/-- The packets given to `Send` and the power after some calls. -/
def sends : List (Op W) → List (Nat × Nat)
  | [] => []
  | .send t p _ :: os => (t, p) :: sends os
  | _ :: os => sends os

def powerAfter (w : W) : List (Op W) → W
  | [] => w
  | .setPower _ v :: os => powerAfter v os
  | _ :: os => powerAfter w os

theorem sends_map (ops : List (Op W)) : GroundStaDetail.sends (ops.map groundOp) = sends ops := by
  induction ops with
  | nil => rfl
  | cons o ops ih => cases o <;> simp [sends, GroundStaDetail.sends, groundOp, ih]

theorem powerAfter_map (w : W) (ops : List (Op W)) :
    Icarus.powerAfter w ((ops.map groundOp).map (GroundStaDetail.plainOp len)) = powerAfter w ops := by
  induction ops generalizing w with
  | nil => rfl
  | cons o ops ih =>
    simp only [List.map_map] at ih
    cases o <;> simp [powerAfter, Icarus.powerAfter, GroundStaDetail.plainOp, groundOp, ih]

theorem groundOp_send {o : Op W} {τ p : Nat} {proto : UInt16} (h : groundOp o = .send τ p proto) : o = .send τ p proto := by
  cases o <;> simp_all [groundOp]

variable {power : W}

theorem Fresh.ground (remote : SatAddress) {ops : List (Op W)} (hf : Fresh debug len accept power ops) (hr : exec debug len accept power ops ≠ none) :
    GroundStaDetail.Fresh debug noneMac len accept remote power (ops.map groundOp) := by
  intro a' b' τ p proto g hops hg
  obtain ⟨a, c, rfl, rfl, hc⟩ := List.map_eq_append_iff.mp hops
  obtain ⟨o, b, rfl, ho, rfl⟩ := List.map_eq_cons_iff.mp hc
  have ho := groundOp_send ho
  subst ho
  have hpre : exec debug len accept power a ≠ none := by
    intro hn
    apply hr
    unfold exec at hn ⊢
    rw [runFrom_append, hn]
  obtain ⟨r, hr'⟩ := Option.ne_none_iff_exists'.mp hpre
  obtain ⟨r', h1, h2⟩ := Sim.exec remote hr'
  rw [hg] at h1
  simp only [Option.some.injEq] at h1
  subst h1
  cases h2 with
  | ok t g hs =>
    obtain ⟨f1, f2, f3⟩ := hf a b τ p proto t rfl hr'
    refine ⟨?_, ?_⟩
    · rintro (hm | ⟨e, he, hp⟩)
      · exact f1 (hs.queue ▸ hm)
      · exact f2 (e.1, evPkt e.2) (by rw [hs.events]; exact List.mem_map.mpr ⟨e, he, rfl⟩) hp
    · intro hd τ' hm
      exact f3 hd τ' (by rw [hs.trace]; exact hm)

/-- Callers that make a new packet for each `Send`, as the transport does (model/ndn/sat2ground-transport.cc:122-124), meet the condition. -/
theorem C65_down_new_packets {ops : List (Op W)} (hn : ((sends ops).map Prod.snd).Nodup) : Fresh debug len accept power ops := by
  intro a b τ p proto u hops hu
  subst hops
  obtain ⟨_, h1, h2⟩ := Sim.exec (SatAddress.mk3 .little 0 0 0) hu
  cases h2 with
  | ok _ g hs =>
    have hn' := hn
    rw [← sends_map, List.map_append, GroundStaDetail.sends_append, List.map_append, List.nodup_append] at hn'
    have hp : p ∉ (GroundStaDetail.sends (a.map groundOp)).map Prod.snd := by
      intro hm
      exact hn'.2.2 p hm p (by simp [GroundStaDetail.sends, groundOp]) rfl
    refine ⟨fun h => hp (GroundStaDetail.used_sent h1 (Or.inl (Or.inl (hs.queue ▸ h)))), ?_, ?_⟩
    · intro e he hp'
      rw [hs.events] at he
      obtain ⟨e', he', rfl⟩ := List.mem_map.mp he
      exact hp (GroundStaDetail.used_sent h1 (Or.inl (Or.inr ⟨e', he', hp'⟩)))
    · intro _ τ' h
      exact hp (GroundStaDetail.used_sent h1 (Or.inr ⟨τ', by rw [← hs.trace]; exact h⟩))

/-- With fresh packets nothing goes wrong. -/
theorem C65_down_no_fault {ops : List (Op W)} {r : Outcome (Sys W)} (hf : Fresh debug len accept power ops)
    (h : exec debug len accept power ops = some r) : ∃ t, r = .ok t := by
  let remote : SatAddress := SatAddress.mk3 .little 0 0 0
  obtain ⟨r', h1, h2⟩ := Sim.exec remote h
  obtain ⟨g, s, rfl, -, -⟩ := GroundStaDetail.C65_ground_refines (Or.inl rfl) (hf.ground remote (by rw [h]; simp)) h1
  cases h2 with
  | ok t g hs => exact ⟨t, rfl⟩

/-- `x` is what the last `Send` of its packet asked for: the power at the moment of that call, and its protocol number. -/
def Latest (len : Nat → Nat) (power : W) (ops : List (Op W)) (x : Entry W) : Prop :=
  ∃ (a b : List (Op W)) (τ : Nat) (proto : UInt16), ops = a ++ .send τ x.pkt proto :: b ∧
    (∀ (τ' : Nat) (proto' : UInt16), .send τ' x.pkt proto' ∉ b) ∧ x = ⟨x.pkt, len x.pkt, proto, powerAfter power a⟩

/-- Every frame is broadcast with the protocol number and power of the last `Send` of its packet. -/
theorem C65_down_own_send {ops : List (Op W)} {o : Op W} {u t : Sys W} (hf : Fresh debug len accept power (ops ++ [o]))
    (hu : exec debug len accept power ops = some (.ok u)) (ht : exec debug len accept power (ops ++ [o]) = some (.ok t)) :
    ∃ l, t.aired = u.aired ++ l ∧ ∀ f ∈ l, Latest len power (ops ++ [o]) f.2 := by
  let remote : SatAddress := SatAddress.mk3 .little 0 0 0
  obtain ⟨_, h1, h2⟩ := Sim.exec remote hu
  obtain ⟨_, h3, h4⟩ := Sim.exec remote ht
  cases h2 with
  | ok _ gu su =>
    cases h4 with
    | ok _ gt st =>
      have hfr := hf.ground remote (by rw [ht]; simp)
      rw [List.map_append, List.map_singleton] at hfr h3
      obtain ⟨l, h5, h6⟩ := GroundStaDetail.C65_ground_own_send hfr h1 h3
      refine ⟨l.map (fun f => (f.1, downEntry f.2)), by rw [st.aired, su.aired, h5, List.map_append], ?_⟩
      intro f hm
      obtain ⟨f', hm', rfl⟩ := List.mem_map.mp hm
      obtain ⟨a', b', τ, proto, e1, e2, e3, e4, -, e6⟩ := h6 f' hm'
      have e1' : (ops ++ [o]).map groundOp = a' ++ GroundStaDetail.Op.send τ f'.2.pkt proto :: b' := by
        rw [List.map_append, List.map_singleton]; exact e1
      obtain ⟨a, c, hac, rfl, hc⟩ := List.map_eq_append_iff.mp e1'
      obtain ⟨o', b, rfl, ho, rfl⟩ := List.map_eq_cons_iff.mp hc
      have ho := groundOp_send ho
      subst ho
      refine ⟨a, b, τ, proto, hac, ?_, ?_⟩
      · intro τ' proto' hm
        exact e2 τ' proto' (List.mem_map.mpr ⟨_, hm, rfl⟩)
      · rw [powerAfter_map] at e6
        simp only [downEntry, Entry.mk.injEq, true_and]
        exact ⟨e3, e4, e6⟩

/-- Debug builds: once `Send` has refused a packet that was not in use, every later `Send` of it ends in a failed assertion. -/
theorem C65_down_retry_asserts {a b : List (Op W)} {τ τ' p : Nat} {proto proto' : UInt16} {u v : Sys W} {r : Outcome (Sys W)}
    (hu : exec true len accept power a = some (.ok u)) (hq : p ∉ u.queue) (he : ∀ e ∈ u.events, e.2 ≠ p) (href : accept u.queue p = false)
    (hv : exec true len accept power (a ++ .send τ p proto :: b) = some (.ok v))
    (hr : step true len accept v (.send τ' p proto') = some r) : r = .assertFail := by
  let remote : SatAddress := SatAddress.mk3 .little 0 0 0
  obtain ⟨_, h1, h2⟩ := Sim.exec remote hu
  obtain ⟨_, h3, h4⟩ := Sim.exec remote hv
  cases h2 with
  | ok _ gu su =>
    cases h4 with
    | ok _ gv sv =>
      obtain ⟨r', h5, h6⟩ := sv.step hr
      rw [List.map_append, List.map_cons] at h3
      have := GroundStaDetail.C65_retry_asserts h1 (by
        rintro (hm | ⟨e, hm, hp⟩)
        · exact hq (su.queue ▸ hm)
        · exact he (e.1, evPkt e.2) (by rw [su.events]; exact List.mem_map.mpr ⟨e, hm, rfl⟩) hp) (by rw [← su.queue]; exact href) h3 h5
      subst this
      cases h6
      rfl

/-- `MacTx` reports each `Send`, `MacTxDrop` some of them; `Sniffer` and `PhyTxBegin` report exactly the broadcasts, in order, `PhyTxEnd` each of
them its length later (those not reported yet are scheduled); the reports come in the order of time.  When no event is left, every
packet offered has been reported dropped or broadcast. -/
theorem C66_down {ops : List (Op W)} {t : Sys W} (h : exec debug len accept power ops = some (.ok t)) :
    TxTrace.macTx.calls t.trace = sends ops ∧
    (TxTrace.macTxDrop.calls t.trace).Sublist (sends ops) ∧
    TxTrace.sniffer.calls t.trace = t.aired.map (fun f => (f.1, f.2.pkt)) ∧
    TxTrace.phyTxBegin.calls t.trace = t.aired.map (fun f => (f.1, f.2.pkt)) ∧
    (TxTrace.phyTxEnd.calls t.trace ++ t.events).Perm (t.aired.map (fun f => (f.1 + f.2.len, f.2.pkt))) ∧
    t.trace.Pairwise (fun a b => a.1 ≤ b.1) ∧
    (t.events = [] → ((sends ops).map Prod.snd).Perm
      ((TxTrace.macTxDrop.calls t.trace).map Prod.snd ++ (TxTrace.phyTxBegin.calls t.trace).map Prod.snd)) := by
  let remote : SatAddress := SatAddress.mk3 .little 0 0 0
  obtain ⟨_, h1, h2⟩ := Sim.exec remote h
  cases h2 with
  | ok _ g s =>
    obtain ⟨c1, c2, c3, c4, c5, c6⟩ := GroundStaDetail.C66_ground h1
    rw [sends_map, ← s.trace] at c1 c2
    rw [← s.trace] at c3 c4 c5 c6
    have hends : GroundStaDetail.pendingEnds g.events = t.events := by
      rw [s.events]
      have := s.ends
      generalize g.events = ge at this
      induction ge with
      | nil => rfl
      | cons e es ih =>
        obtain ⟨τ, ev⟩ := e
        obtain ⟨x, hx⟩ := this (τ, ev) List.mem_cons_self
        simp only at hx
        subst hx
        have := ih (fun e he => this e (List.mem_cons_of_mem _ he))
        unfold GroundStaDetail.pendingEnds at this ⊢
        simp [this, evPkt]
    refine ⟨c1, c2, ?_, ?_, ?_, c6, ?_⟩
    · rw [c3, s.aired, List.map_map]; rfl
    · rw [c4, s.aired, List.map_map]; rfl
    · rw [hends] at c5
      rw [s.aired, List.map_map]
      exact c5
    · intro he
      have hge : g.events = [] := by
        have := s.events
        rw [he] at this
        exact List.map_eq_nil_iff.mp this.symm
      obtain ⟨d1, d2, -⟩ := GroundStaDetail.C66_ground_complete (Or.inl rfl) h1 hge
      rw [sends_map, ← s.trace] at d1
      rw [← s.trace] at d2
      refine d1.trans (List.Perm.append_left _ ?_)
      have hat : ∀ (k : Nat) (l : List (Nat × GroundSta.Entry W)), GroundSta.attempts noneMac k l = l := by
        intro k l
        induction l generalizing k with
        | nil => rfl
        | cons y l ih => obtain ⟨h, x⟩ := y; simp [GroundSta.attempts, noneMac]; exact ih _
      rw [hat] at d2
      have := (d2.map Prod.snd).symm
      rwa [List.map_map] at this

/-- Packet 3 is refused, packet 1 is used again with another power. -/
def detailOps : List (Op Nat) := [.send 0 1 7, .send 1 2 8, .send 2 3 9, .setPower 3 6, .run, .run, .send 30 1 5, .run]

example : ∃ t, exec true (fun _ => 10) GroundStaDetail.oneWaiting 4 detailOps = some (.ok t) ∧
    t.aired.map (fun f => (f.1, f.2.pkt, f.2.proto, f.2.power)) = [(0, 1, 7, 4), (10, 2, 8, 4), (30, 1, 5, 6)] ∧
    TxTrace.macTxDrop.calls t.trace = [(2, 3)] ∧ t.events = [] := by
  refine ⟨_, rfl, ?_⟩; decide

/-- `Fresh`, computed along the execution. -/
def freshRun (debug : Bool) (len : Nat → Nat) (accept : List Nat → Nat → Bool) : Sys W → List (Op W) → Bool
  | _, [] => true
  | s, o :: os =>
    (match o with
      | .send _ p _ => !s.queue.contains p && s.events.all (fun e => e.2 != p) &&
          (!debug || (TxTrace.macTxDrop.calls s.trace).all (fun e => e.2 != p))
      | _ => true) &&
    (match step debug len accept s o with
      | some (.ok s') => freshRun debug len accept s' os
      | _ => true)

theorem fresh_of_run {ops : List (Op W)} (h : freshRun debug len accept (Sys.init power) ops = true) :
    Fresh debug len accept power ops := by
  unfold Fresh exec
  generalize Sys.init power = s at h
  induction ops generalizing s with
  | nil => intro a b τ p proto u h; simp at h
  | cons o os ih =>
    intro a b τ p proto u hops hu
    simp only [freshRun, Bool.and_eq_true] at h
    cases a with
    | nil =>
      simp only [List.nil_append, List.cons.injEq] at hops
      obtain ⟨rfl, -⟩ := hops
      simp only [runFrom, Option.some.injEq, Outcome.ok.injEq] at hu
      subst hu
      have h1 := h.1
      simp only [Bool.and_eq_true, Bool.not_eq_true', Bool.or_eq_true, List.all_eq_true, bne_iff_ne] at h1
      refine ⟨by simpa using h1.1.1, h1.1.2, fun hd τ' hm => ?_⟩
      rcases h1.2 with h2 | h2
      · rw [hd] at h2; simp at h2
      · exact h2 _ hm rfl
    | cons o' a =>
      simp only [List.cons_append, List.cons.injEq] at hops
      obtain ⟨rfl, rfl⟩ := hops
      simp only [runFrom] at hu
      split at hu
      · simp at hu
      · rename_i s' hs
        rw [hs] at h
        exact ih s' h.2 a b τ p proto u rfl hu
      · simp at hu
      · simp at hu
      · simp at hu

example : Fresh true (fun _ => 10) GroundStaDetail.oneWaiting 4 detailOps := fresh_of_run (by decide)

example : ∃ u, exec true (fun _ => 10) GroundStaDetail.oneWaiting 4 (detailOps.take 2) = some (.ok u) ∧
    3 ∉ u.queue ∧ (∀ e ∈ u.events, e.2 ≠ 3) ∧ GroundStaDetail.oneWaiting u.queue 3 = false ∧
    ∃ v, exec true (fun _ => 10) GroundStaDetail.oneWaiting 4 (detailOps.take 2 ++ .send 2 3 9 :: [.run, .run]) = some (.ok v) ∧
      step true (fun _ => 10) GroundStaDetail.oneWaiting v (.send 40 3 9) = some .assertFail := by
  refine ⟨_, rfl, by decide, by decide, by decide, _, rfl, rfl⟩

end Sat2GroundDetail

namespace SatNetDetail

variable {debug : Bool} {len : Nat → Nat} {accept : List Nat → Nat → Bool}

/-- The packets given to `Send`. -/
def sends : List Op → List (Nat × Nat)
  | [] => []
  | .send t p _ :: os => (t, p) :: sends os
  | _ :: os => sends os

theorem sends_append (l m : List Op) : sends (l ++ m) = sends l ++ sends m := by
  induction l with
  | nil => rfl
  | cons o l ih => cases o <;> simp [sends, ih]

structure Reports (len : Nat → Nat) (ops : List Op) (t : Sys) : Prop where
  begun : TxTrace.phyTxBegin.calls t.trace = t.aired.map (fun f => (f.1, f.2.1))
  sniffed : TxTrace.sniffer.calls t.trace = t.aired.map (fun f => (f.1, f.2.1))
  ended : (TxTrace.phyTxEnd.calls t.trace ++ t.events.map (fun e => (e.1, e.2.1))).Perm (t.aired.map (fun f => (f.1 + len f.2.1, f.2.1)))
  offered : TxTrace.macTx.calls t.trace = sends ops
  dropped : (TxTrace.macTxDrop.calls t.trace).Sublist (TxTrace.macTx.calls t.trace)
  split : ((TxTrace.macTx.calls t.trace).map Prod.snd).Perm
    ((TxTrace.macTxDrop.calls t.trace).map Prod.snd ++ (t.aired.map (fun f => f.2.1) ++ t.queue))
  inOrder : t.trace.Pairwise (fun a b => a.1 ≤ b.1)
  past : ∀ e ∈ t.trace, e.1 ≤ t.clock
  sorted : t.events.Pairwise (fun a b => a.1 ≤ b.1)
  future : ∀ e ∈ t.events, t.clock ≤ e.1
  waits : (t.queue ≠ [] → t.busy = true) ∧ (t.busy = true → t.events ≠ [])

/-- What holds when the next packet `q` is about to be started. -/
theorem Reports.start {ops : List Op} {t t' : Sys} {q : Nat} {rest : List Nat} {proto : UInt16}
    (begun : TxTrace.phyTxBegin.calls t.trace = t.aired.map (fun f => (f.1, f.2.1)))
    (sniffed : TxTrace.sniffer.calls t.trace = t.aired.map (fun f => (f.1, f.2.1)))
    (ended : (TxTrace.phyTxEnd.calls t.trace ++ t.events.map (fun e => (e.1, e.2.1))).Perm (t.aired.map (fun f => (f.1 + len f.2.1, f.2.1))))
    (offered : TxTrace.macTx.calls t.trace = sends ops)
    (dropped : (TxTrace.macTxDrop.calls t.trace).Sublist (TxTrace.macTx.calls t.trace))
    (split : ((TxTrace.macTx.calls t.trace).map Prod.snd).Perm
      ((TxTrace.macTxDrop.calls t.trace).map Prod.snd ++ (t.aired.map (fun f => f.2.1) ++ q :: rest)))
    (inOrder : t.trace.Pairwise (fun a b => a.1 ≤ b.1))
    (past : ∀ e ∈ t.trace, e.1 ≤ t.clock)
    (sorted : t.events.Pairwise (fun a b => a.1 ≤ b.1))
    (future : ∀ e ∈ t.events, t.clock ≤ e.1)
    (h : transmitStart debug len { t with queue := rest, trace := t.trace ++ [(t.clock, TxTrace.sniffer, q)] } t.clock q proto = .ok t') :
    Reports len ops t' := by
  unfold transmitStart at h
  rw [Outcome.bind_eq_ok] at h
  obtain ⟨_, -, h⟩ := h
  simp only [Outcome.ok.injEq] at h
  subst h
  have hk : ∀ k : TxTrace, k ≠ .sniffer → k ≠ .phyTxBegin →
      k.calls (t.trace ++ [(t.clock, TxTrace.sniffer, q)] ++ [(t.clock, TxTrace.phyTxBegin, q)]) = k.calls t.trace := by
    intro k h1 h2
    simp [TxTrace.calls, h1.symm, h2.symm]
  refine ⟨?_, ?_, ?_, ?_, ?_, ?_, ?_, ?_, sorted_insertEvent sorted, ?_, ?_⟩
  · simp only [GroundStaDetail.calls_append, begun]; simp [TxTrace.calls]
  · simp only [GroundStaDetail.calls_append, sniffed]; simp [TxTrace.calls]
  · simp only
    rw [hk _ (by simp) (by simp), List.map_append]
    refine (List.Perm.append_left _ ((insertEvent_perm _ _ _).map _)).trans ?_
    simp only [List.map_cons, List.map_nil]
    exact List.perm_middle.trans ((List.Perm.cons _ ended).trans (List.perm_append_singleton _ _).symm)
  · rw [hk _ (by simp) (by simp)]; exact offered
  · rw [hk _ (by simp) (by simp), hk _ (by simp) (by simp)]; exact dropped
  · rw [hk _ (by simp) (by simp), hk _ (by simp) (by simp)]
    simpa using split
  · simp only
    rw [List.append_assoc, List.pairwise_append]
    refine ⟨inOrder, by simp, ?_⟩
    intro a ha b hb
    have := past a ha
    rcases List.mem_append.mp hb with hb | hb
    · rw [List.mem_singleton] at hb; subst hb; exact this
    · rw [List.mem_singleton] at hb; subst hb; exact this
  · intro e he
    simp only [List.mem_append, List.mem_singleton] at he
    rcases he with (he | rfl) | rfl
    · exact past e he
    · exact Nat.le_refl _
    · exact Nat.le_refl _
  · intro e he
    rcases mem_insertEvent.mp (show e ∈ insertEvent _ _ _ from he) with rfl | he
    · exact Nat.le_add_right _ _
    · exact future e he
  · refine ⟨fun _ => rfl, fun _ hn => ?_⟩
    have : (t.clock + len q, (q, proto)) ∈ insertEvent (t.clock + len q) (q, proto) t.events := mem_insertEvent.mpr (Or.inl rfl)
    rw [show insertEvent (t.clock + len q) (q, proto) t.events = [] from hn] at this
    simp at this

theorem reports {ops : List Op} {t : Sys} (h : exec debug len accept ops = some (.ok t)) : Reports len ops t := by
  refine run_induction (P := fun ops t => Reports len ops t) ?_ ?_ h
  · exact ⟨rfl, rfl, List.Perm.refl _, rfl, List.Sublist.refl _, List.Perm.refl _, by simp [Sys.init], by simp [Sys.init], by simp [Sys.init],
      by simp [Sys.init], by simp [Sys.init]⟩
  · intro ops o t t' _ h hs
    cases o with
    | send τ p proto =>
      simp only [step, Option.ite_none_right_eq_some, Option.some.injEq] at hs
      obtain ⟨hp, hs⟩ := hs
      unfold send at hs
      simp only at hs
      have hk : ∀ k : TxTrace, k ≠ .macTx → k.calls (t.trace ++ [(τ, TxTrace.macTx, p)]) = k.calls t.trace := by
        intro k h1
        simp [TxTrace.calls, h1.symm]
      have hm : TxTrace.macTx.calls (t.trace ++ [(τ, TxTrace.macTx, p)]) = TxTrace.macTx.calls t.trace ++ [(τ, p)] := by
        simp [TxTrace.calls]
      have hso : sends (ops ++ [.send τ p proto]) = sends ops ++ [(τ, p)] := by simp [sends_append, sends]
      have hord : (t.trace ++ [(τ, TxTrace.macTx, p)]).Pairwise (fun a b => a.1 ≤ b.1) := by
        rw [List.pairwise_append]
        refine ⟨h.inOrder, by simp, ?_⟩
        intro a ha b hb
        rw [List.mem_singleton] at hb; subst hb
        exact Nat.le_trans (h.past a ha) hp.1
      have hpast : ∀ e ∈ t.trace ++ [(τ, TxTrace.macTx, p)], e.1 ≤ τ := by
        intro e he
        rcases List.mem_append.mp he with he | he
        · exact Nat.le_trans (h.past e he) hp.1
        · rw [List.mem_singleton] at he; subst he; exact Nat.le_refl _
      split at hs
      · simp only [Outcome.ok.injEq] at hs
        subst hs
        have hk2 : ∀ k : TxTrace, k ≠ .macTxDrop → k.calls (t.trace ++ [(τ, TxTrace.macTx, p)] ++ [(τ, TxTrace.macTxDrop, p)]) =
            k.calls (t.trace ++ [(τ, TxTrace.macTx, p)]) := by
          intro k h1
          rw [GroundStaDetail.calls_append]
          simp [TxTrace.calls, h1.symm]
        have hd : TxTrace.macTxDrop.calls (t.trace ++ [(τ, TxTrace.macTx, p)] ++ [(τ, TxTrace.macTxDrop, p)]) =
            TxTrace.macTxDrop.calls t.trace ++ [(τ, p)] := by simp [TxTrace.calls]
        refine ⟨?_, ?_, ?_, ?_, ?_, ?_, ?_, ?_, h.sorted, hp.2, h.waits⟩
        · rw [hk2 _ (by simp), hk _ (by simp)]; exact h.begun
        · rw [hk2 _ (by simp), hk _ (by simp)]; exact h.sniffed
        · rw [hk2 _ (by simp), hk _ (by simp)]; exact h.ended
        · rw [hk2 _ (by simp), hm, hso, h.offered]
        · rw [hd, hk2 .macTx (by simp), hm]; exact h.dropped.append (List.Sublist.refl _)
        · rw [hk2 .macTx (by simp), hm, hd, List.map_append, List.map_append, List.append_assoc]
          simp only [List.map_cons, List.map_nil, List.cons_append, List.nil_append]
          exact (List.perm_append_singleton _ _).trans ((List.Perm.cons _ h.split).trans List.perm_middle.symm)
        · rw [List.pairwise_append]
          refine ⟨hord, by simp, ?_⟩
          intro a ha b hb
          rw [List.mem_singleton] at hb; subst hb
          exact hpast a ha
        · intro e he
          rcases List.mem_append.mp he with he | he
          · exact hpast e he
          · rw [List.mem_singleton] at he; subst he; exact Nat.le_refl _
      · have hsplit : ((TxTrace.macTx.calls (t.trace ++ [(τ, TxTrace.macTx, p)])).map Prod.snd).Perm
            ((TxTrace.macTxDrop.calls (t.trace ++ [(τ, TxTrace.macTx, p)])).map Prod.snd ++ (t.aired.map (fun f => f.2.1) ++ (t.queue ++ [p]))) := by
          rw [hm, hk _ (by simp), List.map_append]
          have := h.split.append_right [p]
          simpa using this
        have hbe : TxTrace.phyTxBegin.calls (t.trace ++ [(τ, TxTrace.macTx, p)]) = t.aired.map (fun f => (f.1, f.2.1)) := by
          rw [hk _ (by simp)]; exact h.begun
        have hsn : TxTrace.sniffer.calls (t.trace ++ [(τ, TxTrace.macTx, p)]) = t.aired.map (fun f => (f.1, f.2.1)) := by
          rw [hk _ (by simp)]; exact h.sniffed
        have hen : (TxTrace.phyTxEnd.calls (t.trace ++ [(τ, TxTrace.macTx, p)]) ++ t.events.map (fun e => (e.1, e.2.1))).Perm
            (t.aired.map (fun f => (f.1 + len f.2.1, f.2.1))) := by
          rw [hk _ (by simp)]; exact h.ended
        have hof : TxTrace.macTx.calls (t.trace ++ [(τ, TxTrace.macTx, p)]) = sends (ops ++ [.send τ p proto]) := by
          rw [hm, hso, h.offered]
        have hdr : (TxTrace.macTxDrop.calls (t.trace ++ [(τ, TxTrace.macTx, p)])).Sublist
            (TxTrace.macTx.calls (t.trace ++ [(τ, TxTrace.macTx, p)])) := by
          rw [hm, hk _ (by simp)]; exact h.dropped.trans (List.sublist_append_left _ _)
        split at hs
        · rename_i hb
          simp only [Outcome.ok.injEq] at hs
          subst hs
          exact ⟨hbe, hsn, hen, hof, hdr, hsplit, hord, hpast, h.sorted, hp.2, fun _ => hb, h.waits.2⟩
        · split at hs
          · rename_i hq
            simp at hq
          · rename_i q rest hq
            rw [hq] at hsplit
            exact Reports.start (t := { t with clock := τ, trace := t.trace ++ [(τ, TxTrace.macTx, p)] }) hbe hsn hen hof hdr hsplit hord hpast
              h.sorted hp.2 hs
    | run =>
      simp only [step] at hs
      split at hs
      · simp at hs
      · rename_i τ p proto es he
        simp only [Option.some.injEq] at hs
        unfold transmitComplete at hs
        simp only at hs
        have hle : t.clock ≤ τ := h.future (τ, p, proto) (by rw [he]; exact List.mem_cons_self)
        have hsrt := h.sorted
        rw [he, List.pairwise_cons] at hsrt
        have hk : ∀ k : TxTrace, k ≠ .phyTxEnd → k.calls (t.trace ++ [(τ, TxTrace.phyTxEnd, p)]) = k.calls t.trace := by
          intro k h1
          simp [TxTrace.calls, h1.symm]
        have hso : sends (ops ++ [.run]) = sends ops := by simp [sends_append, sends]
        have hord : (t.trace ++ [(τ, TxTrace.phyTxEnd, p)]).Pairwise (fun a b => a.1 ≤ b.1) := by
          rw [List.pairwise_append]
          refine ⟨h.inOrder, by simp, ?_⟩
          intro a ha b hb
          rw [List.mem_singleton] at hb; subst hb
          exact Nat.le_trans (h.past a ha) hle
        have hpast : ∀ e ∈ t.trace ++ [(τ, TxTrace.phyTxEnd, p)], e.1 ≤ τ := by
          intro e he
          rcases List.mem_append.mp he with he | he
          · exact Nat.le_trans (h.past e he) hle
          · rw [List.mem_singleton] at he; subst he; exact Nat.le_refl _
        have hbe : TxTrace.phyTxBegin.calls (t.trace ++ [(τ, TxTrace.phyTxEnd, p)]) = t.aired.map (fun f => (f.1, f.2.1)) := by
          rw [hk _ (by simp)]; exact h.begun
        have hsn : TxTrace.sniffer.calls (t.trace ++ [(τ, TxTrace.phyTxEnd, p)]) = t.aired.map (fun f => (f.1, f.2.1)) := by
          rw [hk _ (by simp)]; exact h.sniffed
        have hen : (TxTrace.phyTxEnd.calls (t.trace ++ [(τ, TxTrace.phyTxEnd, p)]) ++ es.map (fun e => (e.1, e.2.1))).Perm
            (t.aired.map (fun f => (f.1 + len f.2.1, f.2.1))) := by
          have := h.ended
          rw [he] at this
          rw [GroundStaDetail.calls_append]
          simpa [TxTrace.calls] using this
        have hof : TxTrace.macTx.calls (t.trace ++ [(τ, TxTrace.phyTxEnd, p)]) = sends (ops ++ [.run]) := by
          rw [hk _ (by simp), hso, h.offered]
        have hdr : (TxTrace.macTxDrop.calls (t.trace ++ [(τ, TxTrace.phyTxEnd, p)])).Sublist
            (TxTrace.macTx.calls (t.trace ++ [(τ, TxTrace.phyTxEnd, p)])) := by
          rw [hk _ (by simp), hk _ (by simp)]; exact h.dropped
        have hsplit : ((TxTrace.macTx.calls (t.trace ++ [(τ, TxTrace.phyTxEnd, p)])).map Prod.snd).Perm
            ((TxTrace.macTxDrop.calls (t.trace ++ [(τ, TxTrace.phyTxEnd, p)])).map Prod.snd ++ (t.aired.map (fun f => f.2.1) ++ t.queue)) := by
          rw [hk _ (by simp), hk _ (by simp)]; exact h.split
        split at hs
        · rename_i hq
          simp only [Outcome.ok.injEq] at hs
          subst hs
          exact ⟨hbe, hsn, hen, hof, hdr, hsplit, hord, hpast, hsrt.2, hsrt.1, fun hn => absurd hq hn, by simp⟩
        · rename_i q rest hq
          rw [hq] at hsplit
          exact Reports.start (t := { t with clock := τ, events := es, busy := false, trace := t.trace ++ [(τ, TxTrace.phyTxEnd, p)] })
            hbe hsn hen hof hdr hsplit hord hpast hsrt.2 hsrt.1 hs

/-- As `C66_down`, for the inter-satellite device. -/
theorem C66_isl {ops : List Op} {t : Sys} (h : exec debug len accept ops = some (.ok t)) :
    TxTrace.macTx.calls t.trace = sends ops ∧
    (TxTrace.macTxDrop.calls t.trace).Sublist (sends ops) ∧
    TxTrace.sniffer.calls t.trace = t.aired.map (fun f => (f.1, f.2.1)) ∧
    TxTrace.phyTxBegin.calls t.trace = t.aired.map (fun f => (f.1, f.2.1)) ∧
    (TxTrace.phyTxEnd.calls t.trace ++ t.events.map (fun e => (e.1, e.2.1))).Perm (t.aired.map (fun f => (f.1 + len f.2.1, f.2.1))) ∧
    t.trace.Pairwise (fun a b => a.1 ≤ b.1) ∧
    (t.events = [] → ((sends ops).map Prod.snd).Perm
      ((TxTrace.macTxDrop.calls t.trace).map Prod.snd ++ (TxTrace.phyTxBegin.calls t.trace).map Prod.snd)) := by
  have hr := reports h
  refine ⟨hr.offered, hr.offered ▸ hr.dropped, hr.sniffed, hr.begun, hr.ended, hr.inOrder, ?_⟩
  intro he
  have hq : t.queue = [] := by
    by_contra hq
    exact hr.waits.2 (hr.waits.1 hq) he
  have := hr.split
  rw [hr.offered, hq, List.append_nil] at this
  rw [hr.begun, List.map_map]
  exact this

example : ∃ t, exec true (fun _ => 10) GroundStaDetail.oneWaiting [.send 0 1 7, .send 1 2 7, .send 2 3 7, .run, .run, .send 30 1 7, .run] =
      some (.ok t) ∧
    TxTrace.phyTxBegin.calls t.trace = [(0, 1), (10, 2), (30, 1)] ∧ TxTrace.phyTxEnd.calls t.trace = [(10, 1), (20, 2), (40, 1)] ∧
    TxTrace.macTxDrop.calls t.trace = [(2, 3)] ∧ t.events = [] := by
  refine ⟨_, rfl, ?_⟩; decide

end SatNetDetail
end Icarus
