import Verif.Props.ClosedLoop

/-!
# Interests and the Data that answer them (C99)

On top of `ClosedLoop`: what NFD at the satellites does with Data, and producers at the stations.  NFD is not part of the repository; what is assumed of its pending-Interest table is in
`Record` and `Returns`.  That Data may leave by the face on which they came in, if this is the face to the ground, is because ICARUS makes these faces ad-hoc links
(model/ndn/sat2ground-transport.h:50, model/ndn/ground-sta-transport.h:49).
-/

set_option autoImplicit false

namespace Icarus
namespace Network
open GroundSatChannel GroundSta

section
variable {D G E V W P R : Type} [Fintype G] [Fintype D] [Fintype E] [DecidableEq G] [DecidableEq D] [DecidableEq E]
  {net : Net D G E V W P R} {w : World D G E W} {peer : E → E}

omit [Fintype G] [Fintype D] [Fintype E] [DecidableEq G] [DecidableEq D] [DecidableEq E] in
theorem receive_delivered {debug : Bool} {e : Endian} {ty : UInt8} {s s' : GroundStaRx.Sys} {t pkt len : Nat} {src : SatAddress.Address} {proto : UInt16}
    (h : GroundStaRx.receiveFromSat debug e ty s t pkt len src proto = .ok s') : s'.delivered = s.delivered := by
  unfold GroundStaRx.receiveFromSat at h
  obtain ⟨a, -, h⟩ := Outcome.bind_eq_ok.mp h
  split at h <;> cases h <;> rfl

/-- A station passes packets up in events only, at the time of the event. -/
theorem ground_new {s s' : Sys D G E W R} {o : Op D G E W} (hst : step net s o = some (.ok s')) {g : G} {y : Nat × GroundStaRx.Up}
    (h : y ∈ (s'.down.stations g).delivered) : y ∈ (s.down.stations g).delivered ∨ o.internal = true ∧ y.1 = s'.clock := by
  obtain ⟨t, ht, -, -, -, -, p2, -⟩ := step_ok hst
  have hc := (step_clock hst).1
  rw [ht, Option.some.injEq] at hc
  rcases part_cases p2 with ⟨-, e1⟩ | ⟨v, hv, hst'⟩
  · rw [e1] at h
    exact Or.inl h
  · cases v with
    | sat d o' =>
      obtain ⟨t', st, a, -, -, -, -, e1⟩ := Downlink.step_sat hst'
      rw [e1] at h
      exact Or.inl h
    | track g' t' a =>
      obtain ⟨st, -, hr, e1⟩ := Downlink.step_track hst'
      rw [e1] at h
      left
      by_cases e' : g = g'
      · subst e'
        simp only [Function.update_self] at h
        have : st.delivered = (s.down.stations g).delivered := by
          simp only [GroundStaRx.step] at hr
          split at hr
          · simp only [Option.some.injEq, Outcome.ok.injEq] at hr; rw [← hr]
          · simp at hr
        rw [this] at h
        exact h
      · simp only [Function.update_of_ne e'] at h
        exact h
    | arrive =>
      obtain ⟨t', g', f, rest, st, -, -, hr, e1⟩ := Downlink.step_arrive hst'
      rw [e1] at h
      left
      by_cases e' : g = g'
      · subst e'
        simp only [Function.update_self] at h
        have : st.delivered = (s.down.stations g).delivered := by
          simp only [GroundStaRx.step] at hr
          split at hr
          · simp only [Option.some.injEq] at hr
            exact receive_delivered hr
          · simp at hr
        rw [this] at h
        exact h
      · simp only [Function.update_of_ne e'] at h
        exact h
    | finish g' =>
      obtain ⟨t', u, es, st, hp, -, hr, e1⟩ := Downlink.step_finish hst'
      have hi : o.internal = true := by
        cases o <;> simp only [toDown, Option.some.injEq, reduceCtorEq] at hv
        rfl
      have hw := down_when hv ht hst'
      rw [e1] at h hw
      by_cases e' : g = g'
      · subst e'
        simp only [Function.update_self] at h
        simp only [GroundStaRx.step, hp, Option.some.injEq, Outcome.ok.injEq] at hr
        rw [← hr] at h
        simp only [List.mem_append, List.mem_singleton] at h
        rcases h with h | rfl
        · exact Or.inl h
        · exact Or.inr ⟨hi, by simp only at hw ⊢; omega⟩
      · simp only [Function.update_of_ne e'] at h
        exact Or.inl h

omit [Fintype G] [Fintype D] [Fintype E] [DecidableEq D] [DecidableEq E] in
theorem last_tracked (ops : List (Op D G E W)) (g : G) (a : SatAddress) :
    trackedAfter a (Uplink.opsOf g (ops.filterMap toUp)) = ((Downlink.tracks g (ops.filterMap toDown)).getLast?.map Prod.snd).getD a := by
  induction ops using List.reverseRecOn with
  | nil => rfl
  | append_singleton os o ih =>
    have e1 : Uplink.opsOf g ((os ++ [o]).filterMap toUp) = Uplink.opsOf g (os.filterMap toUp) ++ Uplink.opsOf g ([o].filterMap toUp) := by
      rw [List.filterMap_append, Uplink.opsOf_append]
    have e2 : Downlink.tracks g ((os ++ [o]).filterMap toDown) = Downlink.tracks g (os.filterMap toDown) ++ Downlink.tracks g ([o].filterMap toDown) := by
      rw [List.filterMap_append]
      unfold Downlink.tracks
      rw [List.filterMap_append]
    rw [e1, e2, trackedAfter_append, ih]
    have other : (∀ t b, o ≠ .track g t b) → Downlink.tracks g ([o].filterMap toDown) = [] ∧ ∀ b, trackedAfter b (Uplink.opsOf g ([o].filterMap toUp)) = b := by
      intro hno
      cases o with
      | track g' t b =>
        have hg : g' ≠ g := fun hg => hno t b (by rw [hg])
        simp [toUp, toDown, Downlink.tracks, Uplink.opsOf, trackedAfter, hg]
      | send g' =>
        refine ⟨by simp [toDown, Downlink.tracks], fun b => ?_⟩
        by_cases hg : g' = g <;> simp [toUp, Uplink.opsOf, trackedAfter, hg]
      | setPower g' =>
        refine ⟨by simp [toDown, Downlink.tracks], fun b => ?_⟩
        by_cases hg : g' = g <;> simp [toUp, Uplink.opsOf, trackedAfter, hg]
      | run g' =>
        refine ⟨by simp [toDown, Downlink.tracks], fun b => ?_⟩
        by_cases hg : g' = g <;> simp [toUp, Uplink.opsOf, trackedAfter, hg]
      | _ => exact ⟨by simp [toDown, Downlink.tracks], fun b => rfl⟩
    by_cases h : ∃ t b, o = .track g t b
    · obtain ⟨t, b, rfl⟩ := h
      have z1 : Downlink.tracks g ([Op.track g t b].filterMap (toDown (D := D) (E := E) (W := W))) = [(t, b)] := by simp [toDown, Downlink.tracks]
      have z2 : ∀ c, trackedAfter c (Uplink.opsOf g ([Op.track g t b].filterMap (toUp (D := D) (E := E) (W := W)))) = b := by
        intro c
        simp [toUp, Uplink.opsOf, trackedAfter]
      rw [z1, z2, List.getLast?_append_of_ne_nil _ (by simp)]
      rfl
    · obtain ⟨z1, z2⟩ := other (fun t b hb => h ⟨t, b, hb⟩)
      rw [z1, z2, List.append_nil]

/-- A packet given to a station is addressed to the satellite that the station tracks then. -/
theorem addressed {ops : List (Op D G E W)} {s : Sys D G E W R} (hx : exec net ops = some (.ok s)) {g : G} :
    (∀ c ∈ Downlink.tracks g (ops.filterMap toDown), c.1 ≤ s.clock) ∧
    ∀ y ∈ requests (net.remote g) (net.power g) (Uplink.opsOf g (ops.filterMap toUp)), y.1 ≤ s.clock ∧
      ((∀ b, .track g y.1 b ∉ ops) → y.2.dst = Downlink.trackedAt (net.remote g) (Downlink.tracks g (ops.filterMap toDown)) y.1) := by
  refine run_induction (P := fun ops s => (∀ c ∈ Downlink.tracks g (ops.filterMap toDown), c.1 ≤ s.clock) ∧
    ∀ y ∈ requests (net.remote g) (net.power g) (Uplink.opsOf g (ops.filterMap toUp)), y.1 ≤ s.clock ∧
      ((∀ b, .track g y.1 b ∉ ops) → y.2.dst = Downlink.trackedAt (net.remote g) (Downlink.tracks g (ops.filterMap toDown)) y.1)) ?_ ?_ hx
  · simp [Downlink.tracks, Uplink.opsOf, requests]
  · rintro os o s s' _ ⟨i1, i2⟩ hst
    have ht := (step_clock hst).1
    have hm := clock_mono hst
    have e1 : Uplink.opsOf g ((os ++ [o]).filterMap toUp) = Uplink.opsOf g (os.filterMap toUp) ++ Uplink.opsOf g ([o].filterMap toUp) := by
      rw [List.filterMap_append, Uplink.opsOf_append]
    have e2 : Downlink.tracks g ((os ++ [o]).filterMap toDown) = Downlink.tracks g (os.filterMap toDown) ++ Downlink.tracks g ([o].filterMap toDown) := by
      rw [List.filterMap_append]
      unfold Downlink.tracks
      rw [List.filterMap_append]
    have hnew : ∀ c ∈ Downlink.tracks g ([o].filterMap toDown), o = .track g c.1 c.2 ∧ c.1 = s'.clock := by
      intro c hc
      have := mem_tracks hc
      rw [List.mem_singleton] at this
      subst this
      simp only [time, Option.some.injEq] at ht
      exact ⟨rfl, ht⟩
    refine ⟨fun c hc => ?_, fun y hy => ?_⟩
    · rw [e2] at hc
      rcases List.mem_append.mp hc with hc | hc
      · exact (i1 c hc).trans hm
      · exact (hnew c hc).2.le
    · rw [e1, requests_append] at hy
      rcases List.mem_append.mp hy with hy | hy
      · obtain ⟨j1, j2⟩ := i2 y hy
        refine ⟨j1.trans hm, fun hno => ?_⟩
        rw [j2 (fun b hb => hno b (List.mem_append_left _ hb)), e2]
        unfold Downlink.trackedAt
        rw [List.filter_append]
        have : (Downlink.tracks g ([o].filterMap toDown)).filter (fun z => decide (z.1 ≤ y.1)) = [] := by
          rw [List.filter_eq_nil_iff]
          intro c hc
          obtain ⟨k1, k2⟩ := hnew c hc
          have hne : c.1 ≠ y.1 := by
            intro he
            refine hno c.2 ?_
            rw [← he, ← k1]
            simp
          simp only [decide_eq_true_eq]
          omega
        rw [this, List.append_nil]
      · have hsend := mem_requests hy
        obtain ⟨o', ho', k1⟩ := List.mem_filterMap.mp hsend
        obtain ⟨o'', ho'', k2⟩ := List.mem_filterMap.mp ho'
        rw [List.mem_singleton] at ho''
        subst ho''
        have hform : o'' = .send g y.1 y.2.pkt y.2.len y.2.proto := by
          cases o' with
          | station g' o3 =>
            simp only at k1
            split at k1
            · rename_i hg
              subst hg
              simp only [Option.some.injEq] at k1
              subst k1
              cases o'' with
              | send => simpa [toUp] using k2
              | _ => simp [toUp] at k2
            · simp at k1
          | _ => simp at k1
        subst hform
        simp only [time, Option.some.injEq] at ht
        refine ⟨ht.le, fun hno => ?_⟩
        have e3 : Downlink.tracks g ((os ++ [Op.send g y.1 y.2.pkt y.2.len y.2.proto]).filterMap toDown) = Downlink.tracks g (os.filterMap toDown) := by
          rw [e2]
          simp [toDown, Downlink.tracks]
        rw [e3]
        have e4 : (Downlink.tracks g (os.filterMap toDown)).filter (fun z => decide (z.1 ≤ y.1)) = Downlink.tracks g (os.filterMap toDown) := by
          rw [List.filter_eq_self]
          intro c hc
          have := i1 c hc
          simp only [decide_eq_true_eq]
          omega
        unfold Downlink.trackedAt
        rw [e4, ← last_tracked]
        simp only [toUp, List.filterMap_cons, List.filterMap_nil, Uplink.opsOf, if_true, requests, List.mem_singleton] at hy
        rw [hy]
        rfl

/-- A packet given to a station is accepted, if the queue does not drop it. -/
theorem given {ops : List (Op D G E W)} {s : Sys D G E W R} (hx : exec net ops = some (.ok s)) {g : G} {v p l : Nat} {pr : UInt16}
    (hm : .send g v p l pr ∈ ops) (hk : ∀ y ∈ (s.up.stations g).refused, y.2.pkt ≠ p) :
    ∃ x, (v, x) ∈ (s.up.stations g).accepted ∧ x.pkt = p := by
  obtain ⟨h1, -, -⟩ := C73_parts hx
  have hst := Uplink.C55_station h1 g
  have h3 : GroundSta.Op.send v p l pr ∈ Uplink.opsOf g (ops.filterMap toUp) :=
    List.mem_filterMap.mpr ⟨.station g (.send v p l pr), List.mem_filterMap.mpr ⟨_, hm, rfl⟩, by simp⟩
  have h4 : ∀ (a0 : SatAddress) (w0 : W) (os : List (GroundSta.Op W)), GroundSta.Op.send v p l pr ∈ os → ∃ x, (v, x) ∈ requests a0 w0 os ∧ x.pkt = p := by
    intro a0 w0 os hm
    induction os generalizing a0 w0 with
    | nil => simp at hm
    | cons o os ih =>
      rcases List.mem_cons.mp hm with rfl | hm1
      · exact ⟨_, List.mem_cons_self, rfl⟩
      · cases o with
        | send => obtain ⟨x, h, e⟩ := ih a0 w0 hm1; exact ⟨x, List.mem_cons_of_mem _ h, e⟩
        | setRemote t b => exact ih b w0 hm1
        | setPower t w1 => exact ih a0 w1 hm1
        | run => exact ih a0 w0 hm1
  obtain ⟨x, h5, h6⟩ := h4 (net.remote g) (net.power g) _ h3
  rcases List.mem_append.mp ((C34_accepted_or_dropped hst).1.symm.subset h5) with h | h
  · exact ⟨x, h, h6⟩
  · exact absurd h6 (hk _ h)

/-- The way of a packet begins with a hop. -/
theorem Trip.enters {tgt : SatAddress → Option D} {full : Bool} {ops : List (Op D G E W)} {p Δ t t' kept : Nat} {path : List (Node D G)}
    (h : Trip net w peer tgt full ops p Δ path t t' kept) {n n' : Node D G} (hn : path.head? = some n) (hn' : path[1]? = some n') :
    ∃ t1 c, Hop net w peer tgt full ops p n t n' t1 c := by
  induction h with
  | one hop soon =>
    simp only [List.head?_cons, Option.some.injEq] at hn
    simp only [List.getElem?_cons_succ, List.getElem?_cons_zero, Option.some.injEq] at hn'
    subst hn hn'
    exact ⟨_, _, hop⟩
  | @more path n n' t0 t1 t2 t' c' kept trip last relay hop soon ih =>
    have h2 := trip.two
    refine ih ?_ ?_
    · rw [List.head?_append] at hn
      cases path with
      | nil => simp at h2
      | cons a l => simpa using hn
    · rwa [List.getElem?_append_left (by omega)] at hn'

end

end Network

namespace Geocast
open GroundSatChannel GeoTag
open IslNet (End owner otherEnd)
open Scenario (Host Nfd receive devices Carried satLinks Facts place placeOf)
open Network (Op Setup Launched Limits Short deadline Gets Hop Trip Relay sends World FromGround)

section
variable {N U D G V W P R : Type} [DecidableEq N]

/-- The entry of satellite `d` in its PIT: Interest `p` was sent at time `v`, when it had come in on face `i`. -/
def Record (sc : Scenario.Net N U) [Fintype G] [Fintype D] [DecidableEq G] [DecidableEq D] (net : Network.Net D G (End sc.links) V W P R) (node : D → N)
    (ops : List (Op D G (End sc.links) W)) (p : Nat) (d : D) (i v : Nat) : Prop :=
  ∃ pre c post s1 u, ops = pre ++ c :: post ∧ Network.exec net pre = some (.ok s1) ∧ ComesIn sc net node s1 p d i u ∧ sends net c = some (.sat d, v, p)

/-- Calls owed for the Data.  A station that is a producer of the name of Interest `p` (`prod`) and has got `p` sends Data `reply p` now, once.  A satellite at which Data has come in on
face `j`, that has not sent it yet and has an entry for the Interest, not older than the lifetime `life`, sends it now to the face `i` on which the Interest had come in, unless this
is the face of the Data (unless it is face 0, which is an ad-hoc link). -/
def Returns (sc : Scenario.Net N U) [Fintype G] [Fintype D] [DecidableEq G] [DecidableEq D] (net : Network.Net D G (End sc.links) V W P R) (node : D → N) (Pk : Finset Nat)
    (prod : Nat → G → Prop) (reply : Nat → Nat) (size : Nat → Nat) (proto : UInt16) (life : Nat) (ops : List (Op D G (End sc.links) W)) (s : Network.Sys D G (End sc.links) W R)
    (o : Op D G (End sc.links) W) : Prop :=
  ∃ p ∈ Pk, (∃ g u, prod p g ∧ Gets net s (.ground g) u p ∧ (∀ c ∈ ops, ∀ v, sends net c ≠ some (.ground g, v, reply p)) ∧ o = .send g s.clock (reply p) (size p) proto) ∨
    ∃ d j u i v, ComesIn sc net node s (reply p) d j u ∧ (∀ c ∈ ops, ∀ v, sends net c ≠ some (.sat d, v, reply p)) ∧ Record sc net node ops p d i v ∧ s.clock < v + life ∧
      (j = i → i = 0) ∧ ((∃ dv ad, (devices sc (node d))[i]? = some (.icarus (.sat dv ad)) ∧ o = .sat d (.send s.clock (reply p) (size p) proto)) ∨
      ∃ e, (devices sc (node d))[i]? = some (.isl e) ∧ net.own e = d ∧ o = .isl (.tx e (.send s.clock (reply p) (size p) proto)))

/-- All calls owed.  Every event hands up one packet, which is dealt with before the next event; should both an Interest and Data wait, the Interest comes first. -/
def Owed (h : Host) (sc : Scenario.Net N U) [Fintype G] [Fintype D] [DecidableEq G] [DecidableEq D] (nodes : List N) (nfd : N → Nat → Nfd)
    (net : Network.Net D G (End sc.links) V W P R) (node : D → N) (Pk : Finset Nat)
    (tag : Nat → Nat × Nat) (dur : Nat → Nat) (proto : UInt16) (prod : Nat → G → Prop) (reply : Nat → Nat) (size : Nat → Nat) (life : Nat) (ops : List (Op D G (End sc.links) W))
    (s : Network.Sys D G (End sc.links) W R) (o : Op D G (End sc.links) W) : Prop :=
  Owes h sc nodes nfd net node Pk tag dur proto ops s o ∨
    (∀ c, ¬ Owes h sc nodes nfd net node Pk tag dur proto ops s c) ∧ Returns sc net node Pk prod reply size proto life ops s o

open Classical in
/-- How many answers are left. -/
noncomputable def answersLeft [Fintype D] [Fintype G] {sc : Scenario.Net N U} (net : Network.Net D G (End sc.links) V W P R) (Pk : Finset Nat) (reply : Nat → Nat)
    (ops : List (Op D G (End sc.links) W)) : Nat :=
  left net Pk ops + ((Finset.univ ×ˢ Pk).filter (fun y : (D ⊕ G) × Nat => ∀ c ∈ ops, ∀ v, sends net c ≠ some (Sum.elim Network.Node.sat Network.Node.ground y.1, v, reply y.2))).card

variable {h : Host} {sc : Scenario.Net N U} {nodes : List N} {nfd : N → Nat → Nfd} {net : Network.Net D G (End sc.links) V W P R} {node : D → N} {Pk : Finset Nat}
    {tag : Nat → Nat × Nat} {dur : Nat → Nat} {proto : UInt16} {ops : List (Op D G (End sc.links) W)} {s : Network.Sys D G (End sc.links) W R}
    {o : Op D G (End sc.links) W} {prod : Nat → G → Prop} {reply : Nat → Nat} {size : Nat → Nat} {life : Nat} [Fintype G] [Fintype D] [DecidableEq G] [DecidableEq D]

theorem Returns.sends (ho : Returns sc net node Pk prod reply size proto life ops s o) :
    ∃ p ∈ Pk, ∃ x : D ⊕ G, Network.sends net o = some (Sum.elim Network.Node.sat Network.Node.ground x, s.clock, reply p) ∧
      (∀ c ∈ ops, ∀ v, Network.sends net c ≠ some (Sum.elim Network.Node.sat Network.Node.ground x, v, reply p)) := by
  obtain ⟨p, hp, ⟨g, u, -, -, h1, rfl⟩ | ⟨d, j, u, i, v, -, h1, -, -, -, h2⟩⟩ := ho
  · exact ⟨p, hp, .inr g, rfl, h1⟩
  · refine ⟨p, hp, .inl d, ?_, h1⟩
    rcases h2 with ⟨-, -, -, rfl⟩ | ⟨e, -, rfl, rfl⟩ <;> rfl

theorem Owed.sends (ho : Owed h sc nodes nfd net node Pk tag dur proto prod reply size life ops s o) : ∃ y, Network.sends net o = some y := by
  rcases ho with ho | ⟨-, ho⟩
  · obtain ⟨p, -, d, h1, -⟩ := ho.sends
    exact ⟨_, h1⟩
  · obtain ⟨p, -, d, h1, -⟩ := ho.sends
    exact ⟨_, h1⟩

theorem Owed.outside (ho : Owed h sc nodes nfd net node Pk tag dur proto prod reply size life ops s o) : o.internal = false := by
  obtain ⟨y, hy⟩ := ho.sends
  exact Network.sends_outside hy

theorem Owed.untracked (ho : Owed h sc nodes nfd net node Pk tag dur proto prod reply size life ops s o) : ∀ g t a, o ≠ .track g t a := by
  obtain ⟨y, hy⟩ := ho.sends
  rintro g t a rfl
  simp [Network.sends] at hy

theorem Owed.now (ho : Owed h sc nodes nfd net node Pk tag dur proto prod reply size life ops s o) : o.when = s.clock := by
  rcases ho with ho | ⟨-, ho⟩
  · exact ho.now
  · obtain ⟨p, -, d, h1, -⟩ := ho.sends
    exact Network.sends_when h1

omit [DecidableEq N] [DecidableEq G] [DecidableEq D] in
theorem answersLeft_mono (ops : List (Op D G (End sc.links) W)) (o : Op D G (End sc.links) W) : answersLeft net Pk reply (ops ++ [o]) ≤ answersLeft net Pk reply ops := by
  classical
  unfold answersLeft
  refine Nat.add_le_add (left_mono ops o) (Finset.card_le_card (fun y hy => ?_))
  rw [Finset.mem_filter] at hy ⊢
  exact ⟨hy.1, fun c hc => hy.2 c (List.mem_append_left _ hc)⟩

theorem Owed.fewer (ho : Owed h sc nodes nfd net node Pk tag dur proto prod reply size life ops s o) : answersLeft net Pk reply (ops ++ [o]) < answersLeft net Pk reply ops := by
  classical
  have sub : ∀ y ∈ (Finset.univ ×ˢ Pk).filter (fun y : (D ⊕ G) × Nat => ∀ c ∈ ops ++ [o], ∀ v, Network.sends net c ≠ some (Sum.elim Network.Node.sat Network.Node.ground y.1, v, reply y.2)),
      y ∈ (Finset.univ ×ˢ Pk).filter (fun y : (D ⊕ G) × Nat => ∀ c ∈ ops, ∀ v, Network.sends net c ≠ some (Sum.elim Network.Node.sat Network.Node.ground y.1, v, reply y.2)) := by
    intro y hy
    rw [Finset.mem_filter] at hy ⊢
    exact ⟨hy.1, fun c hc => hy.2 c (List.mem_append_left _ hc)⟩
  unfold answersLeft
  rcases ho with ho | ⟨-, ho⟩
  · exact Nat.add_lt_add_of_lt_of_le ho.fewer (Finset.card_le_card sub)
  · obtain ⟨p, hp, x, h1, h2⟩ := ho.sends
    refine Nat.add_lt_add_of_le_of_lt (left_mono ops o) (Finset.card_lt_card ⟨sub, fun hsub => ?_⟩)
    have hm : (x, p) ∈ (Finset.univ ×ˢ Pk).filter (fun y : (D ⊕ G) × Nat => ∀ c ∈ ops, ∀ v, Network.sends net c ≠ some (Sum.elim Network.Node.sat Network.Node.ground y.1, v, reply y.2)) := by
      rw [Finset.mem_filter]
      exact ⟨by simp [hp], h2⟩
    have := hsub hm
    rw [Finset.mem_filter] at this
    exact this.2 o (by simp) _ h1

variable {w : World D G (End sc.links) W} {peer : End sc.links → End sc.links} {hist : List (Nat × Nat × D)} {as : List SatAddress} {clock : R → Nat} {K : Nat}

theorem pings (hs : Setup net w peer hist as) (ho : Uplink.Orderly net.rx clock) :
    Answers (Network.step net) (Network.Sys.init net) Op.internal Op.when Network.Sys.clock (Network.due net) (Launched net hist as)
      (Owed h sc nodes nfd net node Pk tag dur proto prod reply size life) (answersLeft net Pk reply) where
  outside := fun _ _ _ h => h.outside
  now := fun _ _ _ h => h.now
  allowed := fun ops s o hl ho => ⟨hl.1, fun g t a hm => by
    rcases List.mem_append.mp hm with hm | hm
    · exact hl.2 g t a hm
    · rw [List.mem_singleton] at hm
      exact absurd hm.symm (ho.untracked g t a)⟩
  fewer := fun _ _ _ h => h.fewer
  mono := fun ops o => answersLeft_mono ops o
  due := fun _ _ hl hx => Network.on_time hs ho hl hx

/-- An execution in which satellites forward the Interests `Pk`, producers answer them, and satellites send the Data back. -/
abbrev Pings (h : Host) (sc : Scenario.Net N U) (nodes : List N) (nfd : N → Nat → Nfd) (net : Network.Net D G (End sc.links) V W P R) (node : D → N) (Pk : Finset Nat)
    (tag : Nat → Nat × Nat) (dur : Nat → Nat) (proto : UInt16) (prod : Nat → G → Prop) (reply : Nat → Nat) (size : Nat → Nat) (life : Nat) :=
  Loop (Network.step net) (Network.Sys.init net) Op.internal (Owed h sc nodes nfd net node Pk tag dur proto prod reply size life)

/-- **It can always be simulated.** -/
theorem C99_runs (hr : Network.Runnable net w peer hist as clock K) {calls : List (Op D G (End sc.links) W)} (hl : Launched net hist as calls)
    (hext : ∀ o ∈ calls, o.internal = false) (hsorted : calls.Pairwise (fun a b => a.when ≤ b.when)) :
    (∃ ops s, Pings h sc nodes nfd net node Pk tag dur proto prod reply size life ops s calls ∧ Launched net hist as ops ∧ Network.Quiet net s ∧
      ∀ c, ¬ Owed h sc nodes nfd net node Pk tag dur proto prod reply size life ops s c) ∧
    ∀ ops s cs, Pings h sc nodes nfd net node Pk tag dur proto prod reply size life ops s cs →
      ¬ ∃ f : Nat → Op D G (End sc.links) W, ∀ k, ∃ s', Pings h sc nodes nfd net node Pk tag dur proto prod reply size life (ops ++ (List.range k).map f) s' cs := by
  have ha := pings (h := h) (nodes := nodes) (nfd := nfd) (node := node) (Pk := Pk) (tag := tag) (dur := dur) (proto := proto) (prod := prod) (reply := reply) (size := size)
    (life := life) hr.setup hr.orderly
  refine ⟨(Network.runs hr).loop ha ⟨hl.1, by simp⟩ (fun ops c hc hm => ⟨hc.1, fun g t a hx => ?_⟩) hext hsorted, fun ops s cs hrun => (Network.runs hr).stops ha hrun⟩
  rcases List.mem_append.mp hx with hx | hx
  · exact hc.2 g t a hx
  · rw [List.mem_singleton] at hx
    exact hl.2 g t a (hx ▸ hm)

/-! ## What such an execution consists of -/

variable {n m B L C M : Nat} {sat : Nat × Nat → N} {cs : List (Op D G (End sc.links) W)}

theorem Pings.mem (hr : Pings h sc nodes nfd net node Pk tag dur proto prod reply size life ops s cs) {c : Op D G (End sc.links) W} (hc : c ∈ ops) :
    c.internal = true ∨ c ∈ cs ∨ ∃ pre s1 cs1, Pings h sc nodes nfd net node Pk tag dur proto prod reply size life pre s1 cs1 ∧ cs1 <+: cs ∧ (∃ post, ops = pre ++ c :: post) ∧
      Owed h sc nodes nfd net node Pk tag dur proto prod reply size life pre s1 c := by
  induction hr with
  | start => simp at hc
  | @answer ops cs s s' o hb ho hd ih =>
    rcases List.mem_append.mp hc with hc | hc
    · rcases ih hc with h1 | h1 | ⟨pre, s1, cs1, h1, h2, ⟨post, rfl⟩, h3⟩
      · exact Or.inl h1
      · exact Or.inr (Or.inl h1)
      · exact Or.inr (Or.inr ⟨pre, s1, cs1, h1, h2, ⟨post ++ [o], by simp⟩, h3⟩)
    · rw [List.mem_singleton] at hc
      subst hc
      exact Or.inr (Or.inr ⟨_, _, _, hb, List.prefix_refl _, ⟨[], rfl⟩, ho⟩)
  | @event ops cs s s' o hb ho hi hd ih =>
    rcases List.mem_append.mp hc with hc | hc
    · rcases ih hc with h1 | h1 | ⟨pre, s1, cs1, h1, h2, ⟨post, rfl⟩, h3⟩
      · exact Or.inl h1
      · exact Or.inr (Or.inl h1)
      · exact Or.inr (Or.inr ⟨pre, s1, cs1, h1, h2, ⟨post ++ [o], by simp⟩, h3⟩)
    · rw [List.mem_singleton] at hc
      subst hc
      exact Or.inl hi
  | @call ops cs s s' o hb ho hi hd ih =>
    rcases List.mem_append.mp hc with hc | hc
    · rcases ih hc with h1 | h1 | ⟨pre, s1, cs1, h1, h2, ⟨post, rfl⟩, h3⟩
      · exact Or.inl h1
      · exact Or.inr (Or.inl (List.mem_append_left _ h1))
      · exact Or.inr (Or.inr ⟨pre, s1, cs1, h1, h2.trans (List.prefix_append _ _), ⟨post ++ [o], by simp⟩, h3⟩)
    · exact Or.inr (Or.inl (List.mem_append_right _ hc))

/-- As far as the Interests are concerned, what is done with Data is what others do. -/
theorem Pings.run' (hr : Pings h sc nodes nfd net node Pk tag dur proto prod reply size life ops s cs) :
    ∃ cs', Run h sc nodes nfd net node Pk tag dur proto ops s cs' ∧
      ∀ c ∈ cs', c ∈ cs ∨ ∃ pre s1, Returns sc net node Pk prod reply size proto life pre s1 c := by
  induction hr with
  | start => exact ⟨[], .start, by simp⟩
  | @answer ops cs s s' o hb ho hd ih =>
    obtain ⟨cs', h1, h2⟩ := ih
    have hout := ho.outside
    rcases ho with ho | ⟨ho, hret⟩
    · exact ⟨cs', .answer h1 ho hd, h2⟩
    · refine ⟨cs' ++ [o], .call h1 ho hout hd, fun c hc => ?_⟩
      rcases List.mem_append.mp hc with hc | hc
      · exact h2 c hc
      · rw [List.mem_singleton] at hc
        subst hc
        exact Or.inr ⟨_, _, hret⟩
  | @event ops cs s s' o hb ho hi hd ih =>
    obtain ⟨cs', h1, h2⟩ := ih
    exact ⟨cs', .event h1 (fun c hc => ho c (Or.inl hc)) hi hd, h2⟩
  | @call ops cs s s' o hb ho hi hd ih =>
    obtain ⟨cs', h1, h2⟩ := ih
    refine ⟨cs' ++ [o], .call h1 (fun c hc => ho c (Or.inl hc)) hi hd, fun c hc => ?_⟩
    rcases List.mem_append.mp hc with hc | hc
    · rcases h2 c hc with h3 | h3
      · exact Or.inl (List.mem_append_left _ h3)
      · exact Or.inr h3
    · exact Or.inl (List.mem_append_right _ hc)

theorem Pings.tracks (hr : Pings h sc nodes nfd net node Pk tag dur proto prod reply size life ops s cs) (g : G) :
    Downlink.tracks g (ops.filterMap Network.toDown) = Downlink.tracks g (cs.filterMap Network.toDown) := by
  have snoc : ∀ (l : List (Op D G (End sc.links) W)) (o : Op D G (End sc.links) W), Downlink.tracks g ((l ++ [o]).filterMap Network.toDown) =
      Downlink.tracks g (l.filterMap Network.toDown) ++ Downlink.tracks g ([o].filterMap Network.toDown) := by
    intro l o
    rw [List.filterMap_append]
    unfold Downlink.tracks
    rw [List.filterMap_append]
  have none : ∀ o : Op D G (End sc.links) W, (∀ g t a, o ≠ .track g t a) → Downlink.tracks g ([o].filterMap Network.toDown) = [] := by
    intro o ho
    cases o with
    | track g t a => exact absurd rfl (ho g t a)
    | _ => simp [Network.toDown, Downlink.tracks]
  induction hr with
  | start => rfl
  | answer hb ho hd ih => rw [snoc, none _ ho.untracked, List.append_nil, ih]
  | event hb ho hi hd ih =>
    rw [snoc, none _ ?_, List.append_nil, ih]
    rintro g t a rfl
    simp [Op.internal] at hi
  | call hb ho hi hd ih => rw [snoc, snoc, ih]

theorem Pings.track (hr : Pings h sc nodes nfd net node Pk tag dur proto prod reply size life ops s cs) {g : G} {t : Nat} {a : SatAddress} (hm : .track g t a ∈ ops) :
    .track g t a ∈ cs := by
  rcases hr.mem hm with h1 | h1 | ⟨_, _, _, _, _, _, h1⟩
  · simp [Op.internal] at h1
  · exact h1
  · exact absurd rfl (h1.untracked g t a)

/-- Data are not Interests, and every Interest has its own. -/
structure Apart (Pk : Finset Nat) (reply : Nat → Nat) : Prop where
  data : ∀ p ∈ Pk, reply p ∉ Pk
  own : ∀ p ∈ Pk, ∀ q ∈ Pk, reply p = reply q → p = q

/-- Who sends Data. -/
theorem Pings.data (hr : Pings h sc nodes nfd net node Pk tag dur proto prod reply size life ops s cs) (hap : Apart Pk reply) {p : Nat} (hp : p ∈ Pk)
    (hcalls : ∀ c ∈ cs, ∀ x v, sends net c ≠ some (x, v, reply p)) {c : Op D G (End sc.links) W} (hc : c ∈ ops) {x : Network.Node D G} {v : Nat}
    (hs : sends net c = some (x, v, reply p)) :
    ∃ pre s1 cs1, Pings h sc nodes nfd net node Pk tag dur proto prod reply size life pre s1 cs1 ∧ cs1 <+: cs ∧ (∃ post, ops = pre ++ c :: post) ∧ v = s1.clock ∧
      ((∃ g u, x = .ground g ∧ prod p g ∧ Gets net s1 (.ground g) u p ∧ ∃ l pr, c = .send g v (reply p) l pr) ∨
        ∃ d j u i v0, x = .sat d ∧ ComesIn sc net node s1 (reply p) d j u ∧ Record sc net node pre p d i v0 ∧
          ((∃ dv ad, (devices sc (node d))[i]? = some (.icarus (.sat dv ad)) ∧ ∃ l pr, c = .sat d (.send v (reply p) l pr)) ∨
            ∃ e, (devices sc (node d))[i]? = some (.isl e) ∧ net.own e = d ∧ ∃ l pr, c = .isl (.tx e (.send v (reply p) l pr)))) := by
  rcases hr.mem hc with h1 | h1 | ⟨pre, s1, cs1, h1, h2, h3, h4 | ⟨-, q, hq, h4⟩⟩
  · rw [Network.sends_outside hs] at h1
    simp at h1
  · exact absurd hs (hcalls c h1 x v)
  · obtain ⟨q, hq, d, e1, -⟩ := h4.sends
    rw [hs] at e1
    simp only [Option.some.injEq, Prod.mk.injEq] at e1
    exact absurd (e1.2.2 ▸ hq) (hap.data p hp)
  · refine ⟨pre, s1, cs1, h1, h2, h3, ?_⟩
    rcases h4 with ⟨g, u, a1, a2, a3, rfl⟩ | ⟨d, j, u, i, v0, a1, a2, a3, a4, a5, ⟨dv, ad, a6, rfl⟩ | ⟨e, a6, rfl, rfl⟩⟩
    · simp only [sends, Option.some.injEq, Prod.mk.injEq] at hs
      obtain ⟨rfl, rfl, e1⟩ := hs
      obtain rfl := hap.own q hq p hp e1
      exact ⟨rfl, Or.inl ⟨g, u, rfl, a1, a2, _, _, rfl⟩⟩
    · simp only [sends, Option.some.injEq, Prod.mk.injEq] at hs
      obtain ⟨rfl, rfl, e1⟩ := hs
      obtain rfl := hap.own q hq p hp e1
      exact ⟨rfl, Or.inr ⟨d, j, u, i, v0, rfl, a1, a3, Or.inl ⟨dv, ad, a6, _, _, rfl⟩⟩⟩
    · simp only [sends, Option.some.injEq, Prod.mk.injEq] at hs
      obtain ⟨rfl, rfl, e1⟩ := hs
      obtain rfl := hap.own q hq p hp e1
      exact ⟨rfl, Or.inr ⟨_, j, u, i, v0, rfl, a1, a3, Or.inr ⟨e, a6, rfl, _, _, rfl⟩⟩⟩

theorem comesIn_clock {full : Bool} (hh : Network.Honest full net.rx) (hx : Network.exec net ops = some (.ok s)) {p : Nat} {d : D} {i u : Nat} (hc : ComesIn sc net node s p d i u) :
    u ≤ s.clock := by
  induction ops using List.reverseRecOn generalizing s with
  | nil =>
    simp only [Network.exec, runFrom, Option.some.injEq, Outcome.ok.injEq] at hx
    subst hx
    rcases hc with ⟨-, k, j, ta, f, k1, k2, -⟩ | ⟨e, pr, -, -, k1⟩
    · simp [Network.Sys.init, Uplink.Sys.init] at k2
    · simp [Network.Sys.init, IslNet.Sys.init] at k1
  | append_singleton os o ih =>
    obtain ⟨s1, h1, h2⟩ := runFrom_snoc.mp hx
    rcases comesIn_new hh h1 h2 hc with h3 | ⟨-, rfl⟩
    · exact (ih h1 h3).trans (Network.clock_mono h2)
    · exact Nat.le_refl _

theorem Record.mono {a b : List (Op D G (End sc.links) W)} {p : Nat} {d : D} {i v : Nat} (hr : Record sc net node a p d i v) : Record sc net node (a ++ b) p d i v := by
  obtain ⟨pre, c, post, s1, u, rfl, h1⟩ := hr
  exact ⟨pre, c, post ++ b, s1, u, by simp, h1⟩

theorem Record.snoc {a : List (Op D G (End sc.links) W)} {p : Nat} {d : D} {i v : Nat} (hr : Record sc net node (a ++ [o]) p d i v) :
    Record sc net node a p d i v ∨ sends net o = some (.sat d, v, p) := by
  obtain ⟨pre, c, post, s1, u, e, h1, h2, h3⟩ := hr
  rcases List.eq_nil_or_concat post with rfl | ⟨post', y, rfl⟩
  · right
    obtain ⟨rfl, e2⟩ := List.append_inj' e rfl
    simp only [List.cons.injEq, and_true] at e2
    rw [e2]
    exact h3
  · left
    rw [List.concat_eq_append, show pre ++ c :: (post' ++ [y]) = (pre ++ c :: post') ++ [y] by simp] at e
    obtain ⟨rfl, -⟩ := List.append_inj' e rfl
    exact ⟨pre, c, post', s1, u, rfl, h1, h2, h3⟩

theorem Record.sent {p : Nat} {d : D} {i v : Nat} (hr : Record sc net node ops p d i v) : ∃ c ∈ ops, sends net c = some (.sat d, v, p) := by
  obtain ⟨pre, c, post, s1, u, rfl, h1, h2, h3⟩ := hr
  exact ⟨c, by simp, h3⟩

omit [DecidableEq N] in
/-- An operation that sends takes place at the time it says. -/
theorem sent_now {s' : Network.Sys D G (End sc.links) W R} (hst : Network.step net s o = some (.ok s')) {x : Network.Node D G} {v p : Nat} (hs : sends net o = some (x, v, p)) :
    s'.clock = v := by
  have ht := (Network.step_clock hst).1
  have hw := Network.sends_when hs
  cases o with
  | sat d o =>
    cases o with
    | send => simp only [Network.time, Downlink.opTime, Option.some.injEq] at ht; simp only [Op.when] at hw; omega
    | _ => simp [sends] at hs
  | isl o =>
    cases o with
    | tx e o =>
      cases o with
      | send => simp only [Network.time, IslNet.opTime, Option.some.injEq] at ht; simp only [Op.when] at hw; omega
      | _ => simp [sends] at hs
    | _ => simp [sends] at hs
  | send => simp only [Network.time, Option.some.injEq] at ht; simp only [Op.when] at hw; omega
  | _ => simp [sends] at hs

/-- Data that wait at a satellite with an entry are owed. -/
theorem waiting (hre : Realizes sc net node) {p : Nat} (hp : p ∈ Pk) {d : D} {j u i v : Nat} (hin : ComesIn sc net node s (reply p) d j u)
    (hnot : ∀ c ∈ ops, ∀ v, sends net c ≠ some (.sat d, v, reply p)) (hrec : Record sc net node ops p d i v) (hlife : s.clock < v + life) (hface : j = i → i = 0) :
    ∃ c, Owed h sc nodes nfd net node Pk tag dur proto prod reply size life ops s c := by
  by_cases ho : ∃ c, Owes h sc nodes nfd net node Pk tag dur proto ops s c
  · obtain ⟨c, hc⟩ := ho
    exact ⟨c, Or.inl hc⟩
  · have hno : ∀ c, ¬ Owes h sc nodes nfd net node Pk tag dur proto ops s c := fun c hc => ho ⟨c, hc⟩
    have hrec' := hrec
    obtain ⟨pre, c, post, s1, u1, e, h1, h2, h3⟩ := hrec'
    rcases h2 with ⟨rfl, -⟩ | ⟨e', pr, h4, h5, -⟩
    · obtain ⟨dv, hdv⟩ := hre.addr d
      exact ⟨_, Or.inr ⟨hno, p, hp, Or.inr ⟨d, j, u, 0, v, hin, hnot, hrec, hlife, hface, Or.inl ⟨_, _, hdv, rfl⟩⟩⟩⟩
    · exact ⟨_, Or.inr ⟨hno, p, hp, Or.inr ⟨d, j, u, i, v, hin, hnot, hrec, hlife, hface, Or.inr ⟨e', h5, h4, rfl⟩⟩⟩⟩

/-- Data are sent back at once. -/
theorem sent_back {full : Bool} (hh : Network.Honest full net.rx) (hre : Realizes sc net node)
    (hr : Pings h sc nodes nfd net node Pk tag dur proto prod reply size life ops s cs) {p : Nat} (hp : p ∈ Pk) {d : D} :
    ∀ j u i v, ComesIn sc net node s (reply p) d j u → Record sc net node ops p d i v → (j = i → i = 0) → max u v < v + life →
      (∃ c ∈ ops, ∃ v', v' ≤ max u v ∧ sends net c = some (.sat d, v', reply p)) ∨
        max u v = s.clock ∧ ∀ c ∈ ops, ∀ v', sends net c ≠ some (.sat d, v', reply p) := by
  have key : ∀ {ops cs : List (Op D G (End sc.links) W)} {s s' : Network.Sys D G (End sc.links) W R} {o : Op D G (End sc.links) W},
      Pings h sc nodes nfd net node Pk tag dur proto prod reply size life ops s cs → Network.step net s o = some (.ok s') →
      ((∃ c, Owed h sc nodes nfd net node Pk tag dur proto prod reply size life ops s c) → Owed h sc nodes nfd net node Pk tag dur proto prod reply size life ops s o) →
      (∀ j u i v, ComesIn sc net node s (reply p) d j u → Record sc net node ops p d i v → (j = i → i = 0) → max u v < v + life →
        (∃ c ∈ ops, ∃ v', v' ≤ max u v ∧ sends net c = some (.sat d, v', reply p)) ∨
          max u v = s.clock ∧ ∀ c ∈ ops, ∀ v', sends net c ≠ some (.sat d, v', reply p)) →
      ∀ j u i v, ComesIn sc net node s' (reply p) d j u → Record sc net node (ops ++ [o]) p d i v → (j = i → i = 0) → max u v < v + life →
        (∃ c ∈ ops ++ [o], ∃ v', v' ≤ max u v ∧ sends net c = some (.sat d, v', reply p)) ∨
          max u v = s'.clock ∧ ∀ c ∈ ops ++ [o], ∀ v', sends net c ≠ some (.sat d, v', reply p) := by
    intro ops cs s s' o hr hst howe ih j u i v hin hrec hface hlife
    have hx' : Network.exec net (ops ++ [o]) = some (.ok s') := runFrom_snoc.mpr ⟨_, hr.run, hst⟩
    have finish : max u v = s'.clock → (∃ c ∈ ops ++ [o], ∃ v', v' ≤ max u v ∧ sends net c = some (.sat d, v', reply p)) ∨
          max u v = s'.clock ∧ ∀ c ∈ ops ++ [o], ∀ v', sends net c ≠ some (.sat d, v', reply p) := by
      intro he
      by_cases hs : ∃ c ∈ ops ++ [o], ∃ v', sends net c = some (.sat d, v', reply p)
      · obtain ⟨c, hc, v', hv'⟩ := hs
        exact Or.inl ⟨c, hc, v', by rw [he]; exact Network.sends_before hx' hc hv', hv'⟩
      · exact Or.inr ⟨he, fun c hc v' hv' => hs ⟨c, hc, v', hv'⟩⟩
    have hu : u ≤ s'.clock := comesIn_clock hh hx' hin
    have hv : v ≤ s'.clock := by
      obtain ⟨c, hc, h1⟩ := hrec.sent
      exact Network.sends_before hx' hc h1
    rcases comesIn_new hh hr.run hst hin with hin' | ⟨-, rfl⟩
    · rcases hrec.snoc with hrec' | hrec'
      · rcases ih j u i v hin' hrec' hface hlife with ⟨c, hc, h1⟩ | ⟨h1, h2⟩
        · exact Or.inl ⟨c, List.mem_append_left _ hc, h1⟩
        · have hw := howe (waiting hre hp hin' h2 hrec' (by omega) hface)
          refine finish ?_
          obtain ⟨⟨x, v', q⟩, hy⟩ := hw.sends
          have := sent_now hst hy
          have := Network.sends_when hy
          have := hw.now
          omega
      · have hc := sent_now hst hrec'
        rw [hc] at hu
        exact finish (by rw [hc]; exact max_eq_right hu)
    · exact finish (max_eq_left hv)
  induction hr with
  | start =>
    rintro j u i v (⟨-, k, j, ta, f, k1, k2, -⟩ | ⟨e, pr, -, -, k1⟩)
    · simp [Network.Sys.init, Uplink.Sys.init] at k2
    · simp [Network.Sys.init, IslNet.Sys.init] at k1
  | answer hb ho hd ih => exact key hb hd (fun _ => ho) ih
  | event hb ho hi hd ih => exact key hb hd (fun ⟨c, hc⟩ => absurd hc (ho c)) ih
  | call hb ho hi hd ih => exact key hb hd (fun ⟨c, hc⟩ => absurd hc (ho c)) ih

/-- Producers answer at once. -/
theorem replied (hr : Pings h sc nodes nfd net node Pk tag dur proto prod reply size life ops s cs) {p : Nat} (hp : p ∈ Pk) {g : G} (hg : prod p g) :
    ∀ u, Gets net s (.ground g) u p → (∃ c ∈ ops, ∃ v, v ≤ u ∧ sends net c = some (.ground g, v, reply p)) ∨
      u = s.clock ∧ ∀ c ∈ ops, ∀ v, sends net c ≠ some (.ground g, v, reply p) := by
  have owed : ∀ {ops : List (Op D G (End sc.links) W)} {s : Network.Sys D G (End sc.links) W R} {u : Nat}, Gets net s (.ground g) u p →
      (∀ c ∈ ops, ∀ v, sends net c ≠ some (.ground g, v, reply p)) → ∃ c, Owed h sc nodes nfd net node Pk tag dur proto prod reply size life ops s c := by
    intro ops s u h1 h2
    by_cases ho : ∃ c, Owes h sc nodes nfd net node Pk tag dur proto ops s c
    · obtain ⟨c, hc⟩ := ho
      exact ⟨c, Or.inl hc⟩
    · exact ⟨_, Or.inr ⟨fun c hc => ho ⟨c, hc⟩, p, hp, Or.inl ⟨g, u, hg, h1, h2, rfl⟩⟩⟩
  have key : ∀ {ops cs : List (Op D G (End sc.links) W)} {s s' : Network.Sys D G (End sc.links) W R} {o : Op D G (End sc.links) W},
      Pings h sc nodes nfd net node Pk tag dur proto prod reply size life ops s cs → Network.step net s o = some (.ok s') →
      ((∃ c, Owed h sc nodes nfd net node Pk tag dur proto prod reply size life ops s c) → Owed h sc nodes nfd net node Pk tag dur proto prod reply size life ops s o) →
      (∀ u, Gets net s (.ground g) u p → (∃ c ∈ ops, ∃ v, v ≤ u ∧ sends net c = some (.ground g, v, reply p)) ∨
        u = s.clock ∧ ∀ c ∈ ops, ∀ v, sends net c ≠ some (.ground g, v, reply p)) →
      ∀ u, Gets net s' (.ground g) u p → (∃ c ∈ ops ++ [o], ∃ v, v ≤ u ∧ sends net c = some (.ground g, v, reply p)) ∨
        u = s'.clock ∧ ∀ c ∈ ops ++ [o], ∀ v, sends net c ≠ some (.ground g, v, reply p) := by
    intro ops cs s s' o hr hst howe ih u hget
    have hx' : Network.exec net (ops ++ [o]) = some (.ok s') := runFrom_snoc.mpr ⟨_, hr.run, hst⟩
    have finish : u = s'.clock → (∃ c ∈ ops ++ [o], ∃ v, v ≤ u ∧ sends net c = some (.ground g, v, reply p)) ∨
        u = s'.clock ∧ ∀ c ∈ ops ++ [o], ∀ v, sends net c ≠ some (.ground g, v, reply p) := by
      intro he
      by_cases hs : ∃ c ∈ ops ++ [o], ∃ v', sends net c = some (.ground g, v', reply p)
      · obtain ⟨c, hc, v', hv'⟩ := hs
        exact Or.inl ⟨c, hc, v', by rw [he]; exact Network.sends_before hx' hc hv', hv'⟩
      · exact Or.inr ⟨he, fun c hc v' hv' => hs ⟨c, hc, v', hv'⟩⟩
    obtain ⟨y, hy, hyp⟩ := hget
    rcases Network.ground_new hst hy with hy' | ⟨-, e⟩
    · rcases ih u ⟨y, hy', hyp⟩ with ⟨c, hc, h1⟩ | ⟨h1, h2⟩
      · exact Or.inl ⟨c, List.mem_append_left _ hc, h1⟩
      · have hw := howe (owed ⟨y, hy', hyp⟩ h2)
        refine finish ?_
        obtain ⟨⟨x, v', q⟩, hy⟩ := hw.sends
        have := sent_now hst hy
        have := Network.sends_when hy
        have := hw.now
        omega
    · exact finish e
  induction hr with
  | start =>
    rintro u ⟨y, hy, -⟩
    simp [Network.Sys.init, Downlink.Sys.init, GroundStaRx.Sys.init] at hy
  | answer hb ho hd ih => exact key hb hd (fun _ => ho) ih
  | event hb ho hi hd ih => exact key hb hd (fun ⟨c, hc⟩ => absurd hc (ho c)) ih
  | call hb ho hi hd ih => exact key hb hd (fun ⟨c, hc⟩ => absurd hc (ho c)) ih

/-! ## There and back -/

/-- The set-up, and a consumer at station `g0`, to whose device Interest `p` is given at time `a` (and to no other device), when it tracks satellite `d0`. -/
structure Ask (h : Host) (n m : Nat) (sat : Nat × Nat → N) (nodes : List N) (sc : Scenario.Net N U) (nfd : N → Nat → Nfd) (net : Network.Net D G (End sc.links) V W P R)
    (node : D → N) (w : World D G (End sc.links) W) (hist : List (Nat × Nat × D)) (as : List SatAddress) (B L C M : Nat) (Pk : Finset Nat) (tag : Nat → Nat × Nat)
    (dur : Nat → Nat) (reply : Nat → Nat) (size : Nat → Nat) (cs : List (Op D G (End sc.links) W)) (p a : Nat) (g0 : G) (d0 : D) : Prop where
  stage : Stage h n m sat nodes sc nfd net node w hist as B L C M
  apart : Apart Pk reply
  interest : p ∈ Pk
  tagged : (tag p).1 < n ∧ (tag p).2 < m
  launched : Launched net hist as cs
  short : Short cs L
  dur : ∀ p ∈ Pk, dur p ≤ L
  size : ∀ p ∈ Pk, size p ≤ L
  /-- Only satellites that forward send the Interest, and only who owes it sends the Data. -/
  noSat : ∀ c ∈ cs, ∀ d v, sends net c ≠ some (.sat d, v, p)
  noData : ∀ c ∈ cs, ∀ x v, sends net c ≠ some (x, v, reply p)
  asked : ∀ c ∈ cs, ∀ g v, sends net c = some (.ground g, v, p) → g = g0 ∧ v = a
  tracks : Downlink.trackedAt (net.remote g0) (Downlink.tracks g0 (cs.filterMap Network.toDown)) a = net.satAddr d0
  stays : ∀ b, .track g0 a b ∉ cs
  target : Uplink.target hist as (net.satAddr d0) = some d0

section
variable {p a : Nat} {g0 : G} {d0 : D}

/-- The part of the execution that concerns Interests. -/
theorem Ask.run (hk : Ask h n m sat nodes sc nfd net node w hist as B L C M Pk tag dur reply size cs p a g0 d0)
    (hr : Pings h sc nodes nfd net node Pk tag dur proto prod reply size life ops s cs) :
    ∃ cs', Run h sc nodes nfd net node Pk tag dur proto ops s cs' ∧ Launched net hist as cs' ∧ Short cs' L ∧ (∀ c ∈ cs', ∀ d v, sends net c ≠ some (.sat d, v, p)) ∧
      (∀ c ∈ cs', ∀ g v, sends net c = some (.ground g, v, p) → g = g0 ∧ v = a) ∧ ∀ g t b, .track g t b ∈ cs' → .track g t b ∈ cs := by
  obtain ⟨cs', h1, h2⟩ := hr.run'
  have htrack : ∀ g t b, .track g t b ∈ cs' → .track g t b ∈ cs := by
    intro g t b hm
    rcases h2 _ hm with h3 | ⟨pre, s1, h3⟩
    · exact h3
    · obtain ⟨q, -, x, e1, -⟩ := h3.sends
      simp [sends] at e1
  have hdata : ∀ {c : Op D G (End sc.links) W} {x : Network.Node D G} {v : Nat}, sends net c = some (x, v, p) →
      (∃ pre s1, Returns sc net node Pk prod reply size proto life pre s1 c) → False := by
    rintro c x v hs ⟨pre, s1, h3⟩
    obtain ⟨q, hq, y, e1, -⟩ := h3.sends
    rw [hs] at e1
    simp only [Option.some.injEq, Prod.mk.injEq] at e1
    exact hk.apart.data q hq (e1.2.2 ▸ hk.interest)
  refine ⟨cs', h1, ⟨hk.launched.1, fun g t b hm => hk.launched.2 g t b (htrack g t b hm)⟩, ?_, ?_, ?_, htrack⟩
  · intro o ho len hlen
    rcases h2 o ho with h3 | ⟨pre, s1, q, hq, h3⟩
    · exact hk.short o h3 len hlen
    · have := hk.size q hq
      rcases h3 with ⟨g, u, -, -, -, rfl⟩ | ⟨d, j, u, i, v, -, -, -, -, -, ⟨-, -, -, rfl⟩ | ⟨e, -, rfl, rfl⟩⟩ <;>
        simp only [Network.lasts, Option.mem_some_iff] at hlen <;> omega
  · intro c hc d v hs
    rcases h2 c hc with h3 | h3
    · exact hk.noSat c h3 d v hs
    · exact hdata hs h3
  · intro c hc g v hs
    rcases h2 c hc with h3 | h3
    · exact hk.asked c h3 g v hs
    · exact absurd h3 (fun h3 => hdata hs h3)

/-- The Interest enters the sky at `d0`. -/
theorem Ask.entry (hk : Ask h n m sat nodes sc nfd net node w hist as B L C M Pk tag dur reply size cs p a g0 d0)
    (hr : Pings h sc nodes nfd net node Pk tag dur proto prod reply size life ops s cs) {full : Bool} {g : G} {d : D} {t t' c : Nat}
    (hop : Hop net w (otherEnd sc.links) (Uplink.target hist as) full ops p (.ground g) t (.sat d) t' c) : d = d0 ∧ g = g0 ∧ t = a := by
  obtain ⟨cs', h1, -, -, -, h5, -⟩ := hk.run hr
  obtain ⟨o, ho, hs⟩ := hop.sends
  have hcs : o ∈ cs' := by
    rcases h1.mem ho with h3 | h3 | ⟨_, _, h3⟩
    · rw [Network.sends_outside hs] at h3
      simp at h3
    · exact h3
    · obtain ⟨q, -, d', e2, -⟩ := h3.sends
      rw [hs] at e2
      simp at e2
  obtain ⟨rfl, rfl⟩ := h5 o hcs g t hs
  cases hop with
  | @up _ _ _ _ _ x given pkt addressed later admitted arrived =>
    have hd := ((Network.addressed h1.run (g := g)).2 _ given).2 (fun b hb => hk.stays b (hr.track hb))
    rw [hd, hr.tracks, hk.tracks, hk.target, Option.some.injEq] at addressed
    exact ⟨addressed.symm, rfl, rfl⟩

omit [Fintype G] [Fintype D] [DecidableEq G] [DecidableEq D] in
/-- Every end of a link is a device of its satellite. -/
theorem end_index (hst : Stage h n m sat nodes sc nfd net node w hist as B L C M) {t : Nat × Nat} (ht : t.1 < n ∧ t.2 < m) (e : End sc.links) :
    ∃ j : Nat, (devices sc (node (net.own e)))[j]? = some (Scenario.NetDev.isl e) := by
  obtain ⟨st, rfl, -⟩ := hst.made.facts ht
  obtain ⟨j, hj⟩ := Scenario.end_device st e
  exact ⟨j, by rw [hst.realizes.own]; exact hj⟩

/-- Where the Interest of an entry had come from. -/
theorem Ask.origin (hk : Ask h n m sat nodes sc nfd net node w hist as B L C M Pk tag dur reply size cs p a g0 d0)
    (hr : Pings h sc nodes nfd net node Pk tag dur proto prod reply size life ops s cs) {d : D} {i v : Nat} (hrec : Record sc net node ops p d i v) :
    (i = 0 ∧ d = d0) ∨ ∃ (e : End sc.links) (v1 l : Nat) (pr : UInt16), net.own e = d ∧ (devices sc (node d))[i]? = some (.isl e) ∧
      .isl (.tx (otherEnd sc.links e) (.send v1 p l pr)) ∈ ops ∧ v1 ≤ v ∧
      torusDist n m (placeOf h.endian (net.satAddr d)) (tag p) + 1 = torusDist n m (placeOf h.endian (net.satAddr (net.own (otherEnd sc.links e)))) (tag p) := by
  obtain ⟨cs', h1, h2, h3, h4, h5, h6⟩ := hk.run hr
  have hst := hk.stage
  have hl := h1.launched h2
  have hsh := h1.short h3 hk.dur
  obtain ⟨pre, c, post, s1, u, rfl, x0, hin, hs⟩ := hrec
  rcases hin with ⟨rfl, k, i', ta, f, k1, k2, k3, k4⟩ | ⟨e, pr, rfl, k1, k2⟩
  · obtain ⟨g, t, c', hop, -⟩ := Network.up_by hst.setup hst.honest hst.punctual hst.limits hl.left hsh.left x0 k1 k2 k3 k4
    exact Or.inl ⟨rfl, (hk.entry hr (hop.mono (b := c :: post))).1⟩
  · right
    obtain ⟨e', v1, l, pr', c', rfl, hmem, hop, -⟩ := Network.isl_by hst.setup hst.limits hsh.left x0 k2
    have hback : otherEnd sc.links (otherEnd sc.links e') = e' := by simp [otherEnd]
    obtain ⟨s1', s2, y0, y1⟩ := split_at h1.run
    obtain rfl : s1' = s1 := by
      have := y0
      rw [x0] at this
      simpa using this.symm
    have hu := Network.gets_before hst.honest x0 y1 hs (n := .sat (net.own (otherEnd sc.links e'))) (t := u) (p := p) (Or.inr ⟨_, pr, rfl, k2⟩)
    have ht := hop.time
    have hm : .isl (.tx e' (.send v1 p l pr')) ∈ pre ++ c :: post := List.mem_append_left _ hmem
    refine ⟨_, v1, l, pr', rfl, k1, by rw [hback]; exact hm, by omega, ?_⟩
    obtain ⟨-, ⟨e1, l', pr1, e2⟩ | ⟨e1, l', pr1, j, e2, -, e3⟩⟩ := forwarded hst hk.tagged h1 h2 h3 hk.dur h4 hm (d := net.own e') (v := v1) rfl
    · cases e2
    · simp only [Op.isl.injEq, IslNet.Op.tx.injEq] at e2
      obtain ⟨rfl, -⟩ := e2
      rw [hback]
      exact e3

/-- Satellites that have sent the Interest are not farther from the tagged place than `d0`. -/
theorem Ask.nearer (hk : Ask h n m sat nodes sc nfd net node w hist as B L C M Pk tag dur reply size cs p a g0 d0)
    (hr : Pings h sc nodes nfd net node Pk tag dur proto prod reply size life ops s cs) {c : Op D G (End sc.links) W} (hc : c ∈ ops) {d : D} {v : Nat}
    (hs : sends net c = some (.sat d, v, p)) :
    a ≤ v ∧ torusDist n m (placeOf h.endian (net.satAddr d)) (tag p) ≤ torusDist n m (placeOf h.endian (net.satAddr d0)) (tag p) := by
  obtain ⟨cs', h1, h2, h3, h4, h5, h6⟩ := hk.run hr
  have hst := hk.stage
  have ht := hk.tagged
  have hspot := hst.spot ht
  obtain ⟨⟨pre, s1, cs1, i, u, r1, ⟨post, rfl⟩, r2, r3, r4⟩, -⟩ := forwarded hst ht h1 h2 h3 hk.dur h4 hc hs
  obtain ⟨rest, rfl⟩ := r2
  have hsat1 : ∀ c ∈ cs1, ∀ d v, sends net c ≠ some (.sat d, v, p) := fun c hc => h4 c (List.mem_append_left _ hc)
  have hearly := early hst ht r1 h2.left h3.left hk.dur hsat1 (a := a) (fun c hc g v hv => (h5 c (List.mem_append_left _ hc) g v hv).2.ge) r3
  refine ⟨by omega, ?_⟩
  have entry : ∀ {g : G} {d : D} {t t' c : Nat}, Hop net w (otherEnd sc.links) (Uplink.target hist as) true pre p (.ground g) t (.sat d) t' c → d = d0 :=
    fun hop => (hk.entry hr (hop.mono (b := post))).1
  have hdur := hk.dur
  clear hk hr
  obtain ⟨st, rfl, F⟩ := hst.made.facts ht
  obtain ⟨⟨g1, d1, path, t0, kept, j1, j2, j3, -, j5, -⟩, -⟩ := came_from F hst.sup hst.ord ht hst.realizes hspot hst.setup hst.honest hst.punctual hst.limits (r1.launched h2.left)
    (r1.short h3.left hdur) (r1.loyal hsat1) r1.run r3
  obtain ⟨t1, c1, hop⟩ := j1.enters j2 j3
  obtain rfl := entry hop
  have := j1.two
  omega

/-- **There and back.**  A consumer at station `g0`, which tracks satellite `d0`, asks at time `a` with an Interest tagged with a place of the grid; a producer is at station `g`, which
tracks the satellite there.  Satellites forward the Interest at once as the strategy decides, the producer answers at once, and satellites send the Data back at once where the Interest
came from.  When everything is at rest, the consumer has got the Data, within twice as many deadlines as the grid needs links between the two satellites, and four more: if for so long both
stations stay with their satellites, the links are open and the Interest lives, and no queue drops Interest or Data. -/
theorem C99_ping {net : Network.Net D G (End sc.links) V W P (NoneMac.Sys P)} {s : Network.Sys D G (End sc.links) W (NoneMac.Sys P)} (hrx : net.rx = Uplink.noneReceiver P)
    (hk : Ask h n m sat nodes sc nfd net node w hist as B L C M Pk tag dur reply size cs p a g0 d0)
    (hr : Pings h sc nodes nfd net node Pk tag dur proto prod reply size life ops s cs) (hquiet : Network.Quiet net s)
    (hdone : ∀ c, ¬ Owed h sc nodes nfd net node Pk tag dur proto prod reply size life ops s c) {x : GroundSta.Entry W} (hacc : (a, x) ∈ (s.up.stations g0).accepted)
    (hpkt : x.pkt = p) {dt : D} (hdt : placeOf h.endian (net.satAddr dt) = tag p) (htgt : Uplink.target hist as (net.satAddr dt) = some dt) {g : G} (hprod : prod p g)
    {F : Nat} (hF : F = a + 2 * (torusDist n m (placeOf h.endian (net.satAddr d0)) (tag p) + 2) * deadline B L C M) (hlife : F < a + life)
    (hon : g ∈ net.chan.ground) (hon0 : g0 ∈ net.chan.ground) (hopen0 : ∀ u, a ≤ u → u ≤ F → w.ground.admit u g0 d0 = true)
    (hopen : ∀ u, a ≤ u → u ≤ F → w.ground.admit u g dt = true) (hisl : ∀ e u, a ≤ u → u ≤ F → w.isl.admit u e (otherEnd sc.links e) = true)
    (hkept : Network.Kept s p) (hkept' : Network.Kept s (reply p)) (hroom : ∀ y ∈ (s.up.stations g).refused, y.2.pkt ≠ reply p)
    (htr : Downlink.trackedAt (net.remote g) (Downlink.tracks g (cs.filterMap Network.toDown)) a = net.satAddr dt) (hstay : ∀ u b, .track g u b ∈ cs → u < a ∨ F < u)
    (hstay0 : ∀ u b, .track g0 u b ∈ cs → u < a ∨ F < u) : ∃ τ, Gets net s (.ground g0) τ (reply p) ∧ a ≤ τ ∧ τ ≤ F := by
  have hst := hk.stage
  obtain ⟨cs', h1, h2, h3, h4, h5, h6⟩ := hk.run hr
  have hl := h1.launched h2
  have hsh := h1.short h3 hk.dur
  have hdl : C + (B + L) + B ≤ deadline B L C M := by unfold deadline; omega
  have hdl2 : C + L + M + L ≤ deadline B L C M := by unfold deadline; omega
  have hspot := hst.spot hk.tagged
  have hdinj : ∀ d, placeOf h.endian (net.satAddr d) = tag p → d = dt := by
    intro d hd
    apply hst.realizes.inj
    rw [(hspot d).2, (hspot dt).2, hd, hdt]
  obtain ⟨F1, hF1⟩ : ∃ F1, F1 = a + (torusDist n m (placeOf h.endian (net.satAddr d0)) (tag p) + 2) * deadline B L C M := ⟨_, rfl⟩
  have hF2 : F = F1 + deadline B L C M + (torusDist n m (placeOf h.endian (net.satAddr d0)) (tag p) + 1) * deadline B L C M := by rw [hF, hF1]; ring
  have hF3 : F1 + deadline B L C M ≤ F := by omega
  have hF4 : a ≤ F1 := by omega
  obtain ⟨T, hT1, hT2⟩ : ∃ T, s.clock ≤ T ∧ F + deadline B L C M < T := ⟨max s.clock (F + deadline B L C M + 1), by omega, by omega⟩
  obtain ⟨T3, T4, T5⟩ := hquiet.due hT1
  have htracks : ∀ g, Downlink.tracks g (ops.filterMap Network.toDown) = Downlink.tracks g (cs.filterMap Network.toDown) := hr.tracks
  -- the Interest
  have hdst : x.dst = net.satAddr d0 := by
    have hst' := Uplink.C55_station (Network.C73_parts h1.run).1 g0
    have := ((Network.addressed h1.run (g := g0)).2 (a, x) ((C34_accepted_or_dropped hst').2.subset hacc)).2 (fun b hb => hk.stays b (hr.track hb))
    rw [this, htracks, hk.tracks]
  obtain ⟨τ, t1, t2, t3⟩ := C98_delivered hrx hst hk.interest hk.tagged h1 h2 h3 hk.dur h4 hquiet (fun c hc => hdone c (Or.inl hc)) (fun c hc g v hv => (h5 c hc g v hv).2.ge)
    hacc hpkt (by rw [hdst]; exact hk.target) hdt hF1 (fun u u1 u2 => hopen0 u u1 (by omega)) (fun e u u1 u2 => hisl e u u1 (by omega)) hkept hon
    (fun u u1 u2 => hopen u u1 (by omega)) (by rw [← h1.tracks, htracks]; exact htr) (fun u c hc => by
      have := hstay u c (h6 _ _ _ hc)
      omega)
  -- the producer
  obtain ⟨c, hc, v, hv, hs⟩ : ∃ c ∈ ops, ∃ v, v ≤ τ ∧ sends net c = some (.ground g, v, reply p) := by
    rcases replied hr hk.interest hprod τ t1 with h7 | ⟨-, h7⟩
    · exact h7
    · exfalso
      by_cases ho : ∃ c, Owes h sc nodes nfd net node Pk tag dur proto ops s c
      · obtain ⟨c, hc⟩ := ho
        exact hdone c (Or.inl hc)
      · exact hdone _ (Or.inr ⟨fun c hc => ho ⟨c, hc⟩, p, hk.interest, Or.inl ⟨g, τ, hprod, t1, h7, rfl⟩⟩)
  obtain ⟨y, hy, hyp⟩ := t1
  obtain ⟨dt', v2, len2, pr2, c2, hm2, -, hop2, -⟩ := Network.down_by hst.setup hst.limits hsh h1.run hy
  rw [hyp] at hm2 hop2
  have hv2 := hop2.time
  have hs2 : sends net (.sat dt' (.send v2 p len2 pr2) : Op D G (End sc.links) W) = some (.sat dt', v2, p) := rfl
  obtain rfl : dt' = dt := by
    obtain ⟨-, ⟨e1, -⟩ | ⟨e1, l', pr1, j, e2, -⟩⟩ := forwarded hst hk.tagged h1 h2 h3 hk.dur h4 hm2 hs2
    · exact hdinj _ e1
    · cases e2
  -- entries of satellites that have sent the Interest
  have record : ∀ {c : Op D G (End sc.links) W} {d : D} {v : Nat}, c ∈ ops → sends net c = some (.sat d, v, p) → ∃ i, Record sc net node ops p d i v := by
    intro c d v hc hs
    obtain ⟨pre, post, e⟩ := List.append_of_mem hc
    have hx := h1.run
    rw [e] at hx
    obtain ⟨s1, s2, y0, -⟩ := split_at hx
    obtain ⟨i, u, k, k1, -⟩ := h1.loyal h4 pre c post s1 d v e y0 hs
    exact ⟨i, pre, c, post, s1, u, e, y0, k1, hs⟩
  -- when Data come in
  have back : ∀ {d : D} {j u i v : Nat}, ComesIn sc net node s (reply p) d j u → Record sc net node ops p d i v → (j = i → i = 0) → u ≤ F → a ≤ v →
      ∃ c ∈ ops, ∃ v', v' ≤ max u v ∧ sends net c = some (.sat d, v', reply p) := by
    intro d j u i v hin hrec hface huF hav
    have hmax : max u v < v + life := max_lt (by omega) (by omega)
    rcases sent_back hst.honest hst.realizes hr hk.interest j u i v hin hrec hface hmax with h7 | ⟨h7, h8⟩
    · exact h7
    · obtain ⟨c, hc⟩ := waiting hst.realizes hk.interest hin h8 hrec (by rw [← h7]; exact hmax) hface
      exact absurd hc (hdone c)
  have main : ∀ k d c v, c ∈ ops → sends net c = some (.sat d, v, reply p) →
      torusDist n m (placeOf h.endian (net.satAddr d)) (tag p) + k = torusDist n m (placeOf h.endian (net.satAddr d0)) (tag p) →
      v + (k + 1) * deadline B L C M ≤ F → ∃ τ, Gets net s (.ground g0) τ (reply p) ∧ a ≤ τ ∧ τ ≤ F := by
    intro k
    induction k with
    | zero =>
      intro d c v hc hs hk0 hlate
      rw [Nat.zero_add, Nat.one_mul] at hlate
      obtain ⟨pre, s1, cs1, r1, r2, ⟨post, e⟩, r3, ⟨g', u, r4, -⟩ | ⟨d', j, u, i, v0, r4, r5, r6, r7⟩⟩ := hr.data hk.apart hk.interest hk.noData hc hs
      · cases r4
      · cases r4
        have hrec : Record sc net node ops p d i v0 := by rw [e]; exact r6.mono
        obtain ⟨c0, hc0, hs0⟩ := hrec.sent
        have hav0 := (hk.nearer hr hc0 hs0).1
        have hv0 : v0 ≤ v := by
          obtain ⟨c1, hc1, hs1⟩ := r6.sent
          rw [r3]
          exact Network.sends_before r1.run hc1 hs1
        rcases hk.origin hr hrec with ⟨rfl, rfl⟩ | ⟨e1, v1, l, pr, o1, o2, o3, o4, o5⟩
        · rcases r7 with ⟨dv, ad, q1, l, pr, rfl⟩ | ⟨e1, q1, -⟩
          · obtain ⟨y, y1, y2⟩ := hkept'.down h1.run hc
            obtain ⟨τ, z1, z2, z3⟩ := Network.C95_down hst.setup hst.limits hsh h1.run y1 hon0 (fun u' w1 w2 => hopen0 u' (by omega) (by omega)) (by
              rw [Network.trackedAt_stays (t := a) (by omega), htracks]
              · exact hk.tracks
              · intro c hc hle
                have := hstay0 _ _ (hr.track (Network.mem_tracks hc))
                omega) (fun u' b hb => by
              have := hstay0 u' b (hr.track hb)
              omega) T4 (by omega)
            rw [y2] at z1
            exact ⟨τ, z1, by omega, by omega⟩
          · obtain ⟨dv, hdv⟩ := hst.realizes.addr d
            rw [hdv] at q1
            simp at q1
        · have := (hk.nearer hr o3 (d := net.own (otherEnd sc.links e1)) (v := v1) rfl).2
          omega
    | succ k ih =>
      intro d c v hc hs hk0 hlate
      rw [Nat.add_mul (k + 1), Nat.one_mul] at hlate
      obtain ⟨pre, s1, cs1, r1, r2, ⟨post, e⟩, r3, ⟨g', u, r4, -⟩ | ⟨d', j, u, i, v0, r4, r5, r6, r7⟩⟩ := hr.data hk.apart hk.interest hk.noData hc hs
      · cases r4
      · cases r4
        have hrec : Record sc net node ops p d i v0 := by rw [e]; exact r6.mono
        obtain ⟨c0, hc0, hs0⟩ := hrec.sent
        have hav0 := (hk.nearer hr hc0 hs0).1
        have hv0 : v0 ≤ v := by
          obtain ⟨c1, hc1, hs1⟩ := r6.sent
          rw [r3]
          exact Network.sends_before r1.run hc1 hs1
        rcases hk.origin hr hrec with ⟨rfl, rfl⟩ | ⟨e1, v1, l, pr, rfl, o2, o3, o4, o5⟩
        · omega
        · rcases r7 with ⟨dv, ad, q1, -⟩ | ⟨e2, q1, -, l2, pr2, rfl⟩
          · rw [o2] at q1
            simp at q1
          · rw [o2] at q1
            simp only [Option.some.injEq, Scenario.NetDev.isl.injEq] at q1
            subst q1
            obtain ⟨y, y1, y2, y3⟩ := hkept'.isl h1.run hc
            obtain ⟨τ', pr', z1, z2, z3⟩ := Network.isl_delivered hst.setup hst.limits hsh h1.run y1 (fun u' w1 w2 => hisl _ u' (by omega) (by omega)) T5 (by omega)
            rw [y3] at z1
            have hav1 := (hk.nearer hr o3 (d := net.own (otherEnd sc.links e1)) (v := v1) rfl).1
            obtain ⟨i1, hrec1⟩ := record o3 (d := net.own (otherEnd sc.links e1)) (v := v1) rfl
            obtain ⟨j1, hj1⟩ : ∃ j1, (devices sc (node (net.own (otherEnd sc.links e1))))[j1]? = some (Scenario.NetDev.isl (otherEnd sc.links e1)) := end_index hst hk.tagged _
            have hin1 : ComesIn sc net node s (reply p) (net.own (otherEnd sc.links e1)) j1 τ' := Or.inr ⟨_, pr', rfl, hj1, z1⟩
            have hface : j1 = i1 → i1 = 0 := by
              rintro rfl
              rcases hk.origin hr hrec1 with ⟨e3, -⟩ | ⟨e3, v3, l3, pr3, p1, p2, p3, p4, p5⟩
              · exact e3
              · rw [hj1] at p2
                simp only [Option.some.injEq, Scenario.NetDev.isl.injEq] at p2
                subst p2
                have hback : otherEnd sc.links (otherEnd sc.links e1) = e1 := by simp [otherEnd]
                rw [hback] at p5
                omega
            obtain ⟨c', hc', v', hv', hs'⟩ := back hin1 hrec1 hface (by omega) hav1
            exact ih _ c' v' hc' hs' (by omega) (by omega)
  -- the Data set out
  obtain ⟨pre, s1, cs1, r1, ⟨rest, r2⟩, ⟨post, e⟩, r3, ⟨g', u, r4, r5, r6, l, pr, rfl⟩ | ⟨d', j, u, i, v0, r4, -⟩⟩ := hr.data hk.apart hk.interest hk.noData hc hs
  · cases r4
    have hav : a ≤ v := by
      have hx := h1.run
      rw [e] at hx hsh
      obtain ⟨s1', s2, y0, y1⟩ := split_at hx
      obtain rfl : s1' = s1 := by
        have := r1.run
        rw [show runFrom _ _ pre = _ from y0] at this
        simpa using this
      have hu := Network.gets_before hst.honest y0 y1 hs r6
      obtain ⟨y', hy', hyp'⟩ := r6
      obtain ⟨d3, v3, len3, pr3, c3, hm3, -, hop3, -⟩ := Network.down_by hst.setup hst.limits hsh.left y0 hy'
      rw [hyp'] at hm3 hop3
      have h3 := (hk.nearer hr (e ▸ List.mem_append_left _ hm3) (d := d3) (v := v3) rfl).1
      have := hop3.time
      omega
    obtain ⟨x', x1, x2⟩ := Network.given h1.run hc hroom
    have hdst' : x'.dst = net.satAddr dt' := by
      have hst' := Uplink.C55_station (Network.C73_parts h1.run).1 g
      have := ((Network.addressed h1.run (g := g)).2 (v, x') ((C34_accepted_or_dropped hst').2.subset x1)).2 (fun b hb => by
        have := hstay v b (hr.track hb)
        omega)
      rw [this, Network.trackedAt_stays (t := a) hav, htracks]
      · exact htr
      · intro c hc hle
        have := hstay _ _ (hr.track (Network.mem_tracks hc))
        omega
    obtain ⟨u', w1, w2, w3⟩ := Network.up_delivered hrx hst.setup hst.limits hl hsh h1.run x1 (by rw [hdst']; exact htgt) (fun u u1 u2 => hopen u (by omega) (by omega)) T3 (by omega)
    rw [x2] at w1
    obtain ⟨i2, hrec2⟩ := record hm2 hs2
    have hav2 := hk.nearer hr hm2 hs2
    obtain ⟨c', hc', v', hv', hs'⟩ := back (j := 0) (Or.inl ⟨rfl, w1⟩) hrec2 (fun e => e.symm) (by omega) hav2.1
    exact main (torusDist n m (placeOf h.endian (net.satAddr d0)) (tag p)) dt' c' v' hc' hs' (by rw [hdt, torusDist_self]; omega) (by omega)
  · cases r4

/-- Who sends the Data, or passes them on, does so after a producer has answered. -/
theorem Ask.source (hk : Ask h n m sat nodes sc nfd net node w hist as B L C M Pk tag dur reply size cs p a g0 d0) {all : List (Op D G (End sc.links) W)}
    (hl : Launched net hist as all) (hsh : Short all L) : ∀ (k : Nat) {ops cs1 : List (Op D G (End sc.links) W)}
    {s : Network.Sys D G (End sc.links) W R}, ops.length ≤ k → ops <+: all → Pings h sc nodes nfd net node Pk tag dur proto prod reply size life ops s cs1 → cs1 <+: cs →
    ∀ {c : Op D G (End sc.links) W} {x : Network.Node D G} {v : Nat}, c ∈ ops → sends net c = some (x, v, reply p) →
      ∃ pre s1 cs2 g1 u v1 l pr, Pings h sc nodes nfd net node Pk tag dur proto prod reply size life pre s1 cs2 ∧ cs2 <+: cs ∧
        pre ++ [.send g1 v1 (reply p) l pr] <+: ops ∧ v1 = s1.clock ∧ v1 ≤ v ∧ prod p g1 ∧ Gets net s1 (.ground g1) u p := by
  intro k
  induction k with
  | zero =>
    intro ops cs1 s hlen _ hr hpre c x v hc hs
    rw [List.length_eq_zero_iff.mp (Nat.le_zero.mp hlen)] at hc
    simp at hc
  | succ k ih =>
    intro ops cs1 s hlen hall hr hpre c x v hc hs
    have hst := hk.stage
    obtain ⟨pre, s1, cs2, r1, r2, ⟨post, e⟩, r3, ⟨g1, u, r4, r5, r6, l, pr, rfl⟩ | ⟨d, j, u, i, v0, r4, r5, r6, r7⟩⟩ :=
      hr.data hk.apart hk.interest (fun c hc => hk.noData c (hpre.subset hc)) hc hs
    · exact ⟨pre, s1, cs2, g1, u, v, l, pr, r1, r2.trans hpre, ⟨post, by rw [e]; simp⟩, r3, Nat.le_refl _, r5, r6⟩
    · have hlen1 : pre.length ≤ k := by
        rw [e, List.length_append, List.length_cons] at hlen
        omega
      have hpo : pre <+: ops := ⟨c :: post, e.symm⟩
      have hall1 := hpo.trans hall
      obtain ⟨rest, hrest⟩ := hall1
      have hl1 : Launched net hist as pre := by rw [← hrest] at hl; exact hl.left
      have hsh1 : Short pre L := by rw [← hrest] at hsh; exact hsh.left
      have huv : u ≤ v := by
        rw [r3]
        exact comesIn_clock hst.honest r1.run r5
      obtain ⟨c', y, v', hc', hs', hv'⟩ : ∃ c' y v', c' ∈ pre ∧ sends net c' = some (y, v', reply p) ∧ v' ≤ u := by
        rcases r5 with ⟨rfl, k, i', ta, f, k1, k2, k3, k4⟩ | ⟨e, pr, rfl, k1, k2⟩
        · obtain ⟨g, t, c', hop, -⟩ := Network.up_by hst.setup hst.honest hst.punctual hst.limits hl1 hsh1 r1.run k1 k2 k3 k4
          obtain ⟨o, ho, hso⟩ := hop.sends
          have := hop.time
          exact ⟨o, _, _, ho, hso, by omega⟩
        · obtain ⟨e', v1, l, pr', c', rfl, hmem, hop, -⟩ := Network.isl_by hst.setup hst.limits hsh1 r1.run k2
          have := hop.time
          exact ⟨_, _, v1, hmem, rfl, by omega⟩
      obtain ⟨pre', s2, cs3, g1, u1, v1, l, pr, q1, q2, q3, q4, q5, q6⟩ := ih hlen1 ⟨rest, hrest⟩ r1 (r2.trans hpre) hc' hs'
      exact ⟨pre', s2, cs3, g1, u1, v1, l, pr, q1, q2, q3.trans hpo, q4, by omega, q6⟩

/-- **Only to who asked.**  A station that gets the Data is tuned, at some time, to the satellite of the station that asked.  And the Data come from a producer who had got the Interest, after
it was asked, at a station tuned to the satellite at the tagged place. -/
theorem C99_only (hk : Ask h n m sat nodes sc nfd net node w hist as B L C M Pk tag dur reply size cs p a g0 d0)
    (hr : Pings h sc nodes nfd net node Pk tag dur proto prod reply size life ops s cs) {g : G} {τ : Nat} (hg : Gets net s (.ground g) τ (reply p)) :
    (net.satAddr d0 = net.remote g ∨ ∃ v, .track g v (net.satAddr d0) ∈ cs) ∧
      ∃ pre s1 g1 u v l pr, Network.exec net pre = some (.ok s1) ∧ pre ++ [.send g1 v (reply p) l pr] <+: ops ∧ prod p g1 ∧ Gets net s1 (.ground g1) u p ∧
        a ≤ u ∧ u ≤ v ∧ v ≤ τ ∧
        ∃ dt, placeOf h.endian (net.satAddr dt) = tag p ∧ (net.satAddr dt = net.remote g1 ∨ ∃ v, .track g1 v (net.satAddr dt) ∈ cs) := by
  obtain ⟨cs', h1, h2, h3, h4, h5, h6⟩ := hk.run hr
  have hst := hk.stage
  have hl := h1.launched h2
  have hsh := h1.short h3 hk.dur
  obtain ⟨y, hy, hyp⟩ := hg
  obtain ⟨d, v2, len2, pr2, c2, hm2, htr, hop2, -⟩ := Network.down_by hst.setup hst.limits hsh h1.run hy
  rw [hyp] at hm2 hop2
  have hv2 := hop2.time
  have hs2 : sends net (.sat d (.send v2 (reply p) len2 pr2) : Op D G (End sc.links) W) = some (.sat d, v2, reply p) := rfl
  constructor
  · obtain ⟨pre, s1, cs1, r1, r2, ⟨post, e⟩, r3, ⟨g', u, r4, -⟩ | ⟨d', j, u, i, v0, r4, r5, r6, r7⟩⟩ := hr.data hk.apart hk.interest hk.noData hm2 hs2
    · cases r4
    · cases r4
      have hrec : Record sc net node ops p d i v0 := by rw [e]; exact r6.mono
      obtain rfl : d = d0 := by
        rcases hk.origin hr hrec with ⟨-, e1⟩ | ⟨e1, v1, l, pr, o1, o2, -⟩
        · exact e1
        · rcases r7 with ⟨dv, ad, q1, -⟩ | ⟨e2, -, -, l2, pr2, q2⟩
          · rw [o2] at q1
            simp at q1
          · cases q2
      rcases htr with htr | ⟨v, htr⟩
      · exact Or.inl htr
      · exact Or.inr ⟨v, hr.track htr⟩
  · obtain ⟨pre, s1, cs2, g1, u, v, l, pr, q1, q2, q3, q4, q5, q6, q7⟩ := hk.source hl hsh _ (Nat.le_refl _) (List.prefix_refl _) hr (List.prefix_refl _) hm2 hs2
    obtain ⟨post, e⟩ := q3
    have hx := h1.run
    rw [← e, List.append_assoc, List.singleton_append] at hx
    obtain ⟨s1', s2, y0, y1⟩ := split_at hx
    obtain rfl : s1' = s1 := by
      have := q1.run
      rw [show runFrom _ _ pre = _ from y0] at this
      simpa using this
    have huv := Network.gets_before hst.honest y0 y1 (q := reply p) (m := .ground g1) (t' := v) rfl q7
    have hr1 := h1
    rw [← e, List.append_assoc] at hr1
    obtain ⟨s3, cs3, h7, ⟨rest, rfl⟩⟩ := hr1.left
    obtain rfl : s3 = s1' := by
      have := h7.run
      rw [show runFrom _ _ pre = _ from y0] at this
      simpa using this.symm
    obtain ⟨dt, w1, w2, -⟩ := C98_only hst hk.interest hk.tagged h7 h2.left h3.left hk.dur (fun c hc => h4 c (List.mem_append_left _ hc)) q7
    have hau : a ≤ u := by
      rw [← e, List.append_assoc] at hsh
      obtain ⟨y', hy', hyp'⟩ := q7
      obtain ⟨d3, v3, len3, pr3, c3, hm3, -, hop3, -⟩ := Network.down_by hst.setup hst.limits hsh.left y0 hy'
      rw [hyp'] at hm3 hop3
      have := (hk.nearer hr (e ▸ List.mem_append_left _ (List.mem_append_left _ hm3)) (d := d3) (v := v3) rfl).1
      have := hop3.time
      omega
    refine ⟨pre, s3, g1, u, v, l, pr, y0, ⟨post, e⟩, q6, q7, hau, huv, by omega, dt, w1, ?_⟩
    rcases w2 with w2 | ⟨b, w2⟩
    · exact Or.inl w2
    · exact Or.inr ⟨b, h6 _ _ _ (List.mem_append_left _ w2)⟩

end

/-- What the devices of a satellite are asked to send, if only NFD makes them send: each Interest and each Data once. -/
theorem Pings.collects (hr : Pings h sc nodes nfd net node Pk tag dur proto prod reply size life ops s cs) {d : D} {f : Op D G (End sc.links) W → List Nat}
    {F : List (Op D G (End sc.links) W) → List Nat} (hsat : ∀ c ∈ cs, ∀ v q, sends net c ≠ some (.sat d, v, q)) (h0 : F [] = []) (hF : ∀ l o, F (l ++ [o]) = F l ++ f o)
    (hf : ∀ o, f o = [] ∨ ∃ v q, f o = [q] ∧ sends net o = some (.sat d, v, q)) : (F ops).Nodup ∧ ∀ q ∈ F ops, q ∈ Pk ∪ Pk.image reply := by
  suffices hsuff : (F ops).Nodup ∧ ∀ q ∈ F ops, q ∈ Pk ∪ Pk.image reply ∧ ∃ c ∈ ops, ∃ v, sends net c = some (.sat d, v, q) from ⟨hsuff.1, fun q hq => (hsuff.2 q hq).1⟩
  have same : ∀ {l : List (Op D G (End sc.links) W)} {o : Op D G (End sc.links) W},
      ((F l).Nodup ∧ ∀ q ∈ F l, q ∈ Pk ∪ Pk.image reply ∧ ∃ c ∈ l, ∃ v, sends net c = some (.sat d, v, q)) → f o = [] →
      (F (l ++ [o])).Nodup ∧ ∀ q ∈ F (l ++ [o]), q ∈ Pk ∪ Pk.image reply ∧ ∃ c ∈ l ++ [o], ∃ v, sends net c = some (.sat d, v, q) := by
    intro l o ⟨i1, i2⟩ he
    rw [hF, he, List.append_nil]
    refine ⟨i1, fun q hq => ?_⟩
    obtain ⟨j1, c, hc, j2⟩ := i2 q hq
    exact ⟨j1, c, List.mem_append_left _ hc, j2⟩
  induction hr with
  | start => rw [h0]; simp
  | @answer ops cs s s' o hb ho hd ih =>
    have ih' := ih hsat
    rcases hf o with he | ⟨v, q, he, hs⟩
    · exact same ih' he
    · obtain ⟨hq, hnew⟩ : q ∈ Pk ∪ Pk.image reply ∧ ∀ c ∈ ops, ∀ v, sends net c ≠ some (.sat d, v, q) := by
        rcases ho with ho | ⟨-, ho⟩
        · obtain ⟨p, hp, d', e1, e2⟩ := ho.sends
          rw [hs] at e1
          simp only [Option.some.injEq, Prod.mk.injEq, Network.Node.sat.injEq] at e1
          obtain ⟨rfl, -, rfl⟩ := e1
          exact ⟨Finset.mem_union_left _ hp, e2⟩
        · obtain ⟨p, hp, x, e1, e2⟩ := ho.sends
          rw [hs] at e1
          simp only [Option.some.injEq, Prod.mk.injEq] at e1
          obtain ⟨e3, -, rfl⟩ := e1
          rw [← e3] at e2
          exact ⟨Finset.mem_union_right _ (Finset.mem_image_of_mem _ hp), e2⟩
      obtain ⟨i1, i2⟩ := ih'
      rw [hF, he]
      refine ⟨List.Nodup.append i1 (List.nodup_singleton _) ?_, fun x hx => ?_⟩
      · intro x hx hy
        rw [List.mem_singleton.mp hy] at hx
        obtain ⟨-, c, hc, u, hu⟩ := i2 _ hx
        exact hnew c hc u hu
      · rcases List.mem_append.mp hx with hx | hx
        · obtain ⟨j1, c, hc, j2⟩ := i2 x hx
          exact ⟨j1, c, List.mem_append_left _ hc, j2⟩
        · rw [List.mem_singleton.mp hx]
          exact ⟨hq, o, by simp, _, hs⟩
  | @event ops cs s s' o hb ho hi hd ih =>
    refine same (ih hsat) ?_
    rcases hf o with he | ⟨v, q, he, hs⟩
    · exact he
    · rw [Network.sends_outside hs] at hi
      simp at hi
  | @call ops cs s s' o hb ho hi hd ih =>
    refine same (ih (fun c hc => hsat c (List.mem_append_left _ hc))) ?_
    rcases hf o with he | ⟨v, q, he, hs⟩
    · exact he
    · exact absurd hs (hsat o (by simp) v q)

/-- **Room.**  If nobody but NFD makes satellites send, and the queues of the satellites (drop-tail, counting packets) have room for twice as many packets as there are Interests, no
satellite ever drops an Interest or Data. -/
theorem C99_room (hr : Pings h sc nodes nfd net node Pk tag dur proto prod reply size life ops s cs) (hsat : ∀ c ∈ cs, ∀ d v q, sends net c ≠ some (.sat d, v, q))
    {b1 : D → Sat2Ground.Entry W → Nat} {b2 : End sc.links → SatNet.Entry → Nat} {K1 : D → UInt32} {K2 : End sc.links → UInt32}
    (h1 : ∀ d, net.satAccept d = Queue.dropTail .packets (K1 d) (b1 d)) (h2 : ∀ e, net.isl.accept e = Queue.dropTail .packets (K2 e) (b2 e))
    (hK1 : ∀ d, 2 * Pk.card ≤ (K1 d).toNat) (hK2 : ∀ e, 2 * Pk.card ≤ (K2 e).toNat) : ∀ p, Network.Kept s p := by
  have key1 : ∀ d, (Network.downPkts (Downlink.opsOf d (ops.filterMap Network.toDown))).Nodup ∧
      ∀ q ∈ Network.downPkts (Downlink.opsOf d (ops.filterMap Network.toDown)), q ∈ Pk ∪ Pk.image reply := by
    intro d
    refine hr.collects (F := fun ops => Network.downPkts (Downlink.opsOf d (ops.filterMap Network.toDown)))
      (f := fun o => Network.downPkts (Downlink.opsOf d ([o].filterMap Network.toDown))) (fun c hc v q => hsat c hc d v q) (by simp [Network.downPkts, Downlink.opsOf])
      (fun l o => by simp only [Network.downPkts, Downlink.opsOf, List.filterMap_append]) (fun o => ?_)
    cases o with
    | sat d' o =>
      by_cases hd : d' = d
      · subst hd
        cases o <;> simp [Network.downPkts, Downlink.opsOf, Network.toDown, sends]
      · simp [Network.downPkts, Downlink.opsOf, Network.toDown, hd]
    | _ => simp [Network.downPkts, Downlink.opsOf, Network.toDown]
  have key2 : ∀ e, (Network.islPkts (IslNet.opsOf e (ops.filterMap Network.toIsl))).Nodup ∧
      ∀ q ∈ Network.islPkts (IslNet.opsOf e (ops.filterMap Network.toIsl)), q ∈ Pk ∪ Pk.image reply := by
    intro e
    refine hr.collects (F := fun ops => Network.islPkts (IslNet.opsOf e (ops.filterMap Network.toIsl)))
      (f := fun o => Network.islPkts (IslNet.opsOf e ([o].filterMap Network.toIsl))) (d := net.own e) (fun c hc v q => hsat c hc _ v q)
      (by simp [Network.islPkts, IslNet.opsOf]) (fun l o => by simp only [Network.islPkts, IslNet.opsOf, List.filterMap_append]) (fun o => ?_)
    cases o with
    | isl o =>
      cases o with
      | tx e' o =>
        by_cases he : e' = e
        · subst he
          cases o <;> simp [Network.islPkts, IslNet.opsOf, Network.toIsl, sends]
        · simp [Network.islPkts, IslNet.opsOf, Network.toIsl, he]
      | _ => simp [Network.islPkts, IslNet.opsOf, Network.toIsl]
    | _ => simp [Network.islPkts, IslNet.opsOf, Network.toIsl]
  have hlen : ∀ l : List Nat, l.Nodup → (∀ q ∈ l, q ∈ Pk ∪ Pk.image reply) → l.length ≤ 2 * Pk.card := by
    intro l hn hm
    rw [← List.toFinset_card_of_nodup hn]
    have h3 := Finset.card_le_card (s := l.toFinset) (t := Pk ∪ Pk.image reply) (fun q hq => hm q (List.mem_toFinset.mp hq))
    have h4 := Finset.card_union_le Pk (Pk.image reply)
    have h5 := Finset.card_image_le (s := Pk) (f := reply)
    omega
  obtain ⟨-, x2, x3⟩ := Network.C73_parts hr.run
  intro p
  constructor
  · intro d y hy
    have := Downlink.C59_satellite x2 d
    rw [show net.down.accept d = _ from h1 d] at this
    rw [(Network.down_room this ((hlen _ (key1 d).1 (key1 d).2).trans (hK1 d))).1] at hy
    simp at hy
  · intro e y hy
    have := IslNet.C60_sender x3 e
    rw [h2 e] at this
    rw [(Network.isl_room this ((hlen _ (key2 e).1 (key2 e).2).trans (hK2 e))).1] at hy
    simp at hy

end

/-! ## A concrete case -/

section Example

/-- The execution of C98 goes on: station 1 answers Interest 11 with Data 12, which go back over both satellites to station 0. -/
def pingOps : List (Op (Fin 2) (Fin 2) (End exLinks) Int) :=
  loopOps ++ [.send 1 43 12 10 7, .upArrive, .run 1, .upFinish 1, .isl (.tx (exEnd true) (.send 58 12 10 7)), .isl .arrive, .isl (.tx (exEnd true) .run),
   .isl (.finish (exEnd false)), .sat 0 (.send 73 12 10 7), .downArrive, .sat 0 .run, .downFinish 0]

abbrev pingRun (st : IcarusHelper.St Nat Unit) :=
  Pings exHost ⟨st, exLinks⟩ [0, 1, 2, 3] exNfd loopNet (fun d : Fin 2 => d.val) {11} (fun _ => (0, 1)) (fun _ => 10) 7 (fun _ g => g = 1) (fun _ => 12) (fun _ => 10) 1000

abbrev pingOwed (st : IcarusHelper.St Nat Unit) :=
  Owed exHost ⟨st, exLinks⟩ [0, 1, 2, 3] exNfd loopNet (fun d : Fin 2 => d.val) {11} (fun _ => (0, 1)) (fun _ => 10) 7 (fun _ g => g = 1) (fun _ => 12) (fun _ => 10) 1000

abbrev pingReturns (st : IcarusHelper.St Nat Unit) :=
  Returns ⟨st, exLinks⟩ loopNet (fun d : Fin 2 => d.val) {11} (fun _ g => g = 1) (fun _ => 12) (fun _ => 10) 7 1000

/-- Nobody has Data to send. -/
def Rested (ops : List (Op (Fin 2) (Fin 2) (End exLinks) Int)) (s : Network.Sys (Fin 2) (Fin 2) (End exLinks) Int (NoneMac.Sys Int)) : Prop :=
  ((s.down.stations 1).delivered = [] ∨ ∃ c ∈ ops, (sends loopNet c).map (fun y => (y.1, y.2.2)) = some (.ground 1, 12)) ∧
    ∀ d : Fin 2, ((∀ x ∈ (s.up.sats d).delivered, (s.up.heard[x.2]?).map (fun y => y.2.2.pkt) ≠ some 12) ∧
        ∀ b, loopNet.own (exEnd b) = d → ∀ x ∈ (s.isl.rx (exEnd b)).delivered, x.2.1 ≠ 12) ∨
      ∃ c ∈ ops, (sends loopNet c).map (fun y => (y.1, y.2.2)) = some (.sat d, 12)

theorem sends_of_map {c : Op (Fin 2) (Fin 2) (End exLinks) Int} {x : Network.Node (Fin 2) (Fin 2)} {q : Nat}
    (h : (sends loopNet c).map (fun y => (y.1, y.2.2)) = some (x, q)) : ∃ v, sends loopNet c = some (x, v, q) := by
  cases hs : sends loopNet c with
  | none => rw [hs] at h; simp at h
  | some y =>
    obtain ⟨a, v, q'⟩ := y
    rw [hs] at h
    simp only [Option.map_some, Option.some.injEq, Prod.mk.injEq] at h
    obtain ⟨rfl, rfl⟩ := h
    exact ⟨v, rfl⟩

theorem Rested.free {st : IcarusHelper.St Nat Unit} {ops : List (Op (Fin 2) (Fin 2) (End exLinks) Int)} {s : Network.Sys (Fin 2) (Fin 2) (End exLinks) Int (NoneMac.Sys Int)}
    (h : Rested ops s) : ∀ c, ¬ pingReturns st ops s c := by
  rintro c ⟨p, hp, ⟨g, u, rfl, ⟨y, hg, -⟩, hnot, -⟩ | ⟨d, j, u, i, v, hin, hnot, -⟩⟩
  · rcases h.1 with h1 | ⟨c, hc, h1⟩
    · rw [h1] at hg
      simp at hg
    · obtain ⟨v, hv⟩ := sends_of_map h1
      exact hnot c hc v hv
  · rcases h.2 d with ⟨h1, h2⟩ | ⟨c, hc, h1⟩
    · rcases hin with ⟨-, k, j, ta, f, k1, k2, k3, k4⟩ | ⟨e, pr, rfl, -, k1⟩
      · obtain rfl : j = k := k3
        have := h1 _ k1
        rw [k2] at this
        simp [k4] at this
      · rcases end_cases e with rfl | rfl <;> exact h2 _ rfl _ k1 rfl
    · obtain ⟨v, hv⟩ := sends_of_map h1
      exact hnot c hc v hv

theorem pingIdle (k : Nat) (hk : k < 25) (h4 : k ≠ 4) (h8 : k ≠ 8) : ∃ s, Network.exec loopNet (pingOps.take k) = some (.ok s) ∧ Idle (pingOps.take k) s := by
  interval_cases k <;> first | contradiction | (refine ⟨_, rfl, ?_⟩; unfold Idle; decide)

theorem pingRested (k : Nat) (hk : k < 25) (h1 : k ≠ 12) (h2 : k ≠ 16) (h3 : k ≠ 20) : ∃ s, Network.exec loopNet (pingOps.take k) = some (.ok s) ∧ Rested (pingOps.take k) s := by
  interval_cases k <;> first | contradiction | (refine ⟨_, rfl, ?_⟩; unfold Rested; decide)

theorem pingMid : (∃ s, Network.exec loopNet (pingOps.take 12) = some (.ok s) ∧ (43, ⟨11, (SatAddress.mk3 .little 1 0 1).convertTo .little 7, 7⟩) ∈ (s.down.stations 1).delivered ∧
      s.clock = 43) ∧
    (∃ s, Network.exec loopNet (pingOps.take 16) = some (.ok s) ∧ (58, 1) ∈ (s.up.sats 1).delivered ∧ s.up.heard[1]? = some (48, 1, ⟨12, 10, ⟨1, [1]⟩, 7, 20⟩) ∧ s.clock = 58) ∧
    ∃ s, Network.exec loopNet (pingOps.take 20) = some (.ok s) ∧ (73, 12, 7) ∈ (s.isl.rx (exEnd false)).delivered ∧ s.clock = 73 := by
  refine ⟨?_, ?_, ?_⟩ <;> (refine ⟨_, rfl, ?_⟩; unfold Network.Sys.clock; decide)

theorem pingEnd : ∃ s, Network.exec loopNet pingOps = some (.ok s) ∧ Network.Quiet loopNet s ∧ Network.Kept s 11 ∧ Network.Kept s 12 ∧
    (0, ⟨11, 10, SatAddress.mk3 .little 1 0 0, 7, 30⟩) ∈ (s.up.stations 0).accepted ∧ (s.up.stations 1).refused = [] ∧
    (s.down.stations 0).delivered = [(86, ⟨12, (SatAddress.mk3 .little 1 0 0).convertTo .little 7, 7⟩)] := by
  refine ⟨_, rfl, ?_⟩
  unfold Network.Quiet Uplink.Quiet Downlink.Quiet IslNet.Quiet Network.Kept
  decide

theorem pingDone {st : IcarusHelper.St Nat Unit} {k : Nat} (hk : k < 25) (h4 : k ≠ 4) (h8 : k ≠ 8) (h1 : k ≠ 12) (h2 : k ≠ 16) (h3 : k ≠ 20)
    {s : Network.Sys (Fin 2) (Fin 2) (End exLinks) Int (NoneMac.Sys Int)} (hx : Network.exec loopNet (pingOps.take k) = some (.ok s)) : ∀ c, ¬ pingOwed st (pingOps.take k) s c := by
  obtain ⟨s1, x1, x2⟩ := pingIdle k hk h4 h8
  obtain ⟨s2, y1, y2⟩ := pingRested k hk h1 h2 h3
  have e1 := x1.symm.trans hx
  have e2 := y1.symm.trans hx
  simp only [Option.some.injEq, Outcome.ok.injEq] at e1 e2
  subst e1
  subst e2
  rintro c (hc | ⟨-, hc⟩)
  · exact x2.free c hc
  · exact y2.free c hc

theorem pingRuns {st : IcarusHelper.St Nat Unit} (F : Facts exHost 1 2 exSat st [0, 1, 2, 3]) {s : Network.Sys (Fin 2) (Fin 2) (End exLinks) Int (NoneMac.Sys Int)}
    (hx : Network.exec loopNet pingOps = some (.ok s)) : pingRun st pingOps s [.send 0 0 11 10 7] := by
  refine Loop.of (keep := fun o => match o with | .send g .. => g == 0 | _ => false) hx ?_
  intro pre o post s1 e hx1
  obtain ⟨⟨k1, r1, r2⟩, r3⟩ := exDecides F
  obtain ⟨j, hj⟩ := Scenario.end_device st (exEnd true)
  obtain ⟨j', hj'⟩ := Scenario.end_device st (exEnd false)
  obtain ⟨dv0, ad0, -, -, hdev⟩ := Scenario.devices_sat F (a := (0, 0)) (by decide)
  obtain ⟨⟨sa, a1, a2, a3, a4⟩, sb, b1, b2, b3⟩ := loopMid
  obtain ⟨⟨sc, c1, c2, c3⟩, ⟨sd, d1, d2, d3, d4⟩, se, e1, e2, e3⟩ := pingMid
  have hpre : pre = pingOps.take pre.length := by rw [e]; simp
  have hone : pingOps[pre.length]? = some o := by rw [e]; simp
  have hlt : pre.length < 24 := by
    have : pingOps.length = 24 := rfl
    rw [e, List.length_append, List.length_cons] at this
    omega
  generalize hn : pre.length = n at hpre hone hlt
  clear e hn
  subst hpre
  have hina : ComesIn ⟨st, exLinks⟩ loopNet (fun d : Fin 2 => d.val) sa 11 0 0 13 := Or.inl ⟨rfl, 0, 0, _, _, a2, by rw [a3]; rfl, rfl, rfl⟩
  have hinb : ComesIn ⟨st, exLinks⟩ loopNet (fun d : Fin 2 => d.val) sb 11 1 j 28 := Or.inr ⟨_, _, rfl, hj, b2⟩
  obtain ⟨k2, dv, ad, r4, r5⟩ := r3 j hj
  have same : ∀ {n : Nat} {s' : Network.Sys (Fin 2) (Fin 2) (End exLinks) Int (NoneMac.Sys Int)}, Network.exec loopNet (pingOps.take n) = some (.ok s') →
      Network.exec loopNet (pingOps.take n) = some (.ok s1) → s' = s1 := by
    intro n s' h1 h2
    have es := h1.symm.trans h2
    simpa using es
  by_cases h4 : n = 4
  · subst h4
    obtain rfl := same a1 hx1
    obtain rfl : _ = o := by simpa [pingOps, loopOps] using hone
    refine Or.inl ⟨Or.inl ⟨11, by simp, 0, 0, 13, k1, hina, ?_, r1, Or.inr ⟨_, r2, rfl, by rw [a4]⟩⟩, rfl⟩
    intro c hc v
    simp only [pingOps, loopOps, List.cons_append, List.take_succ_cons, List.take_zero, List.mem_cons, List.not_mem_nil, or_false] at hc
    rcases hc with rfl | rfl | rfl | rfl <;> simp [sends]
  by_cases h8 : n = 8
  · subst h8
    obtain rfl := same b1 hx1
    obtain rfl : _ = o := by simpa [pingOps, loopOps] using hone
    refine Or.inl ⟨Or.inl ⟨11, by simp, 1, j, 28, k2, hinb, ?_, r4, Or.inl ⟨dv, ad, r5, by rw [b3]⟩⟩, rfl⟩
    intro c hc v
    simp only [pingOps, loopOps, List.cons_append, List.take_succ_cons, List.take_zero, List.mem_cons, List.not_mem_nil, or_false] at hc
    rcases hc with rfl | rfl | rfl | rfl | rfl | rfl | rfl | rfl <;> simp [sends, exNet, exEnd]
  have hidle : ∀ c, ¬ loopOwes st (pingOps.take n) s1 c := by
    obtain ⟨s2, x1, x2⟩ := pingIdle n (by omega) h4 h8
    obtain rfl := same x1 hx1
    exact x2.free
  by_cases h12 : n = 12
  · subst h12
    obtain rfl := same c1 hx1
    obtain rfl : _ = o := by simpa [pingOps, loopOps] using hone
    refine Or.inl ⟨Or.inr ⟨hidle, 11, by simp, Or.inl ⟨1, 43, rfl, ⟨_, c2, rfl⟩, ?_, by rw [c3]⟩⟩, rfl⟩
    intro c hc v
    simp only [pingOps, loopOps, List.cons_append, List.take_succ_cons, List.take_zero, List.mem_cons, List.not_mem_nil, or_false] at hc
    rcases hc with rfl | rfl | rfl | rfl | rfl | rfl | rfl | rfl | rfl | rfl | rfl | rfl <;> simp [sends]
  by_cases h16 : n = 16
  · subst h16
    obtain rfl := same d1 hx1
    obtain rfl : _ = o := by simpa [pingOps, loopOps] using hone
    refine Or.inl ⟨Or.inr ⟨hidle, 11, by simp, Or.inr ⟨1, 0, 58, j, 28, Or.inl ⟨rfl, 1, 1, _, _, d2, d3, rfl, rfl⟩, ?_, ?_, by rw [d4]; decide, fun h => h.symm,
      Or.inr ⟨_, hj, rfl, by rw [d4]⟩⟩⟩, rfl⟩
    · intro c hc v
      simp only [pingOps, loopOps, List.cons_append, List.nil_append, List.take_succ_cons, List.take_zero, List.mem_cons, List.not_mem_nil, or_false] at hc
      rcases hc with rfl | rfl | rfl | rfl | rfl | rfl | rfl | rfl | rfl | rfl | rfl | rfl | rfl | rfl | rfl | rfl <;> simp [sends]
    · exact ⟨pingOps.take 8, _, (pingOps.take 16).drop 9, sb, 28, rfl, b1, hinb, rfl⟩
  by_cases h20 : n = 20
  · subst h20
    obtain rfl := same e1 hx1
    obtain rfl : _ = o := by simpa [pingOps, loopOps] using hone
    refine Or.inl ⟨Or.inr ⟨hidle, 11, by simp, Or.inr ⟨0, j', 73, 0, 13, Or.inr ⟨_, _, rfl, hj', e2⟩, ?_, ?_, by rw [e3]; decide, fun _ => rfl,
      Or.inl ⟨dv0, ad0, ?_, by rw [e3]⟩⟩⟩, rfl⟩
    · intro c hc v
      simp only [pingOps, loopOps, List.cons_append, List.nil_append, List.take_succ_cons, List.take_zero, List.mem_cons, List.not_mem_nil, or_false] at hc
      rcases hc with rfl | rfl | rfl | rfl | rfl | rfl | rfl | rfl | rfl | rfl | rfl | rfl | rfl | rfl | rfl | rfl | rfl | rfl | rfl | rfl <;> simp [sends, exNet, exEnd]
    · exact ⟨pingOps.take 4, _, (pingOps.take 20).drop 5, sa, 13, rfl, a1, hina, rfl⟩
    · exact (congrArg (fun l => l[0]?) hdev).trans rfl
  refine Or.inr ⟨pingDone (by omega) h4 h8 h12 h16 h20 hx1, ?_⟩
  interval_cases n <;> first | contradiction | (simp only [pingOps, loopOps, List.cons_append, List.nil_append, List.getElem?_cons_zero, List.getElem?_cons_succ, Option.some.injEq] at hone; subst hone; rfl)

theorem pingTarget : Uplink.target Network.exHist Network.exAddrs (loopNet.satAddr 0) = some 0 := by decide

theorem pingAsk : ∃ st : IcarusHelper.St Nat Unit, Facts exHost 1 2 exSat st [0, 1, 2, 3] ∧
    Ask exHost 1 2 exSat [0, 1, 2, 3] ⟨st, exLinks⟩ exNfd loopNet (fun d : Fin 2 => d.val) exWorld Network.exHist Network.exAddrs 0 10 10 5 {11} (fun _ => (0, 1)) (fun _ => 10)
      (fun _ => 12) (fun _ => 10) [.send 0 0 11 10 7] 11 0 0 0 := by
  obtain ⟨st, F, hst⟩ := loopStage
  refine ⟨st, F, hst, ⟨by simp, by simp⟩, by simp, by simp, loopLaunched, loopShort, by simp, by simp, by simp [sends], by simp [sends], by simp [sends], rfl, by simp, pingTarget⟩

/-- The concrete execution meets all hypotheses of `C99_ping` … -/
example : ∃ (st : IcarusHelper.St Nat Unit) (s : _), pingRun st pingOps s [.send 0 0 11 10 7] ∧
    ∃ τ, Gets loopNet s (.ground 0) τ 12 ∧ 0 ≤ τ ∧ τ ≤ 0 + 2 * (torusDist 1 2 (0, 0) (0, 1) + 2) * deadline 0 10 10 5 := by
  obtain ⟨st, F, hk⟩ := pingAsk
  obtain ⟨s, x1, x2, x3, x4, x5, x6, -⟩ := pingEnd
  have hF : (0 : Nat) + 2 * (torusDist 1 2 (0, 0) (0, 1) + 2) * deadline 0 10 10 5 =
      0 + 2 * (torusDist 1 2 (placeOf exHost.endian (loopNet.satAddr 0)) (0, 1) + 2) * deadline 0 10 10 5 := by decide
  have hdt : placeOf exHost.endian (loopNet.satAddr 1) = (0, 1) := by clear hk F; decide
  have htg : Uplink.target Network.exHist Network.exAddrs (loopNet.satAddr 1) = some 1 := by clear hk F; decide
  refine ⟨st, s, pingRuns F x1, C99_ping (prod := fun _ g => g = 1) rfl hk (pingRuns F x1) x2 (pingDone (k := 24) (by decide) (by decide) (by decide) (by decide) (by decide) (by decide) x1)
    x5 rfl (dt := 1) hdt htg (g := 1) rfl hF (by decide) (by simp [exNet]) (by simp [exNet]) (fun _ _ _ => rfl) (fun _ _ _ => rfl) (fun _ _ _ _ => rfl) x3 x4 (by rw [x6]; simp) rfl (by simp) (by simp)⟩

/-- … and of `C99_only`: the Data came to station 0 at time 86. -/
example : ∃ (st : IcarusHelper.St Nat Unit) (s : _), pingRun st pingOps s [.send 0 0 11 10 7] ∧ Gets loopNet s (.ground 0) 86 12 ∧ ∃ pre s1 u, Network.exec loopNet pre = some (.ok s1) ∧
    Gets loopNet s1 (.ground 1) u 11 := by
  obtain ⟨st, F, hk⟩ := pingAsk
  obtain ⟨s, x1, -, -, -, -, -, x6⟩ := pingEnd
  have hg : Gets loopNet s (.ground 0) 86 12 := ⟨_, by rw [x6]; exact List.mem_singleton.mpr rfl, rfl⟩
  obtain ⟨-, pre, s1, g1, u, v, l, pr, h1, -, rfl, h2, -⟩ := C99_only hk (pingRuns F x1) hg
  exact ⟨st, s, pingRuns F x1, hg, pre, s1, u, h1, h2⟩

/-- `C99_room`: queues for two packets have room for one Interest and its Data. -/
example : ∃ (st : IcarusHelper.St Nat Unit) (s : _), pingRun st pingOps s [.send 0 0 11 10 7] ∧ Network.Kept s 12 := by
  obtain ⟨st, F, -⟩ := pingAsk
  obtain ⟨s, x1, -⟩ := pingEnd
  exact ⟨st, s, pingRuns F x1, C99_room (pingRuns F x1) (by simp [sends]) (b1 := fun _ _ => 100) (b2 := fun _ _ => 100) (K1 := fun _ => 2) (K2 := fun _ => 2) (fun _ => rfl) (fun _ => rfl)
    (fun _ => by simp) (fun _ => by simp) 12⟩

/-- And `C99_runs` applies to it. -/
example (st : IcarusHelper.St Nat Unit) : ∃ ops s, pingRun st ops s [.send 0 0 11 10 7, .send 1 4 13 10 7] ∧ Network.Quiet loopNet s := by
  obtain ⟨ops, s, h1, -, h2, -⟩ := (C99_runs (h := exHost) (sc := ⟨st, exLinks⟩) (nodes := [0, 1, 2, 3]) (nfd := exNfd) (net := loopNet) (node := fun d : Fin 2 => d.val)
    (Pk := {11}) (tag := fun _ => (0, 1)) (dur := fun _ => 10) (proto := 7) (prod := fun _ g => g = 1) (reply := fun _ => 12) (size := fun _ => 10) (life := 1000)
    (w := exWorld) (peer := otherEnd exLinks) (hist := Network.exHist) (as := Network.exAddrs) (clock := NoneMac.Sys.clock)
    (K := 1) ⟨exSetup _, Uplink.safe_map rfl, Uplink.none_orderly, Uplink.none_oneEach, fun _ => ⟨Nat.le_refl _, by simp [exNet, noneMac]⟩⟩
    (calls := [.send 0 0 11 10 7, .send 1 4 13 10 7]) ⟨(exLaunched _).1, by simp⟩ (by simp [Op.internal]) (by simp [Op.when])).1
  exact ⟨ops, s, h1, h2⟩

end Example

end Geocast
end Icarus
