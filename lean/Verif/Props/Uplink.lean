import Verif.Model.Uplink
import Verif.Props.GroundSta
import Verif.Props.GroundSatChannel
import Verif.Props.Aloha
import Verif.Lemmas.Multi
import Mathlib.Algebra.Order.BigOperators.Group.Finset
import Mathlib.Data.Multiset.Basic
import Mathlib.Algebra.Order.Group.Multiset

/-!
# Uplink, end to end (C55)
-/

set_option autoImplicit false

namespace Icarus
namespace Uplink
open GroundSatChannel
open GroundSta (Entry Once Phase)

variable {D G V W P R : Type}

/-! ## Specification -/

/-- What happens between a ground device and a satellite at a given time: propagation delay, received power, whether the success model lets the
frame through. -/
structure World (D G W : Type) where
  delay : Nat → G → D → Nat
  power : Nat → G → D → W → W
  admit : Nat → G → D → Bool

/-- All positions and models exist and behave as described by `w`. -/
def Sky (net : Net D G V W P R) (w : World D G W) : Prop :=
  ∀ t g d, ∃ pg ps delay loss, Equipped (net.air t) g d pg ps delay loss ∧ w.delay t g d = delay pg ps ∧
    (∀ p, w.power t g d p = loss p pg ps) ∧
    (((net.air t).success = none ∧ w.admit t g d = true) ∨ ∃ m, (net.air t).success = some m ∧ m g d = .ok (w.admit t g d))

/-- The device that was launched with this address. -/
def target (hist : List (Nat × Nat × D)) (as : List SatAddress) (a : SatAddress) : Option D :=
  ((as.zip hist).find? (fun y => y.1 == a)).map (fun y => y.2.2.2)

/-- When, where and how a frame sent by `g` at `y.1` arrives, if it does. -/
def lands (addr : G → SatAddress.Address) (w : World D G W) (tgt : SatAddress → Option D) (g : G) (y : Nat × Entry W) :
    Option (Nat × D × Flight W) :=
  match tgt y.2.dst with
  | none => none
  | some d =>
    if w.admit y.1 g d then
      some (y.1 + w.delay y.1 g d, d, ⟨y.2.pkt, y.2.len, addr g, y.2.proto, w.power y.1 g d y.2.power⟩)
    else none

/-- The operations of one station. -/
def opsOf [DecidableEq G] (g : G) (ops : List (Op D G W)) : List (GroundSta.Op W) :=
  ops.filterMap (fun o => match o with | .station h o => if h = g then some o else none | _ => none)

/-- The addresses that one station is told to track. -/
def tracked : List (GroundSta.Op W) → List SatAddress
  | [] => []
  | .setRemote _ a :: os => a :: tracked os
  | _ :: os => tracked os

/-! ## The stations -/

variable [Fintype G] [Fintype D] [DecidableEq G] [DecidableEq D]

theorem step_station {net : Net D G V W P R} {s s' : Sys D G W R} {g : G} {o : GroundSta.Op W}
    (h : step net s (.station g o) = some (.ok s')) :
    ∃ t st a, opTime (s.stations g) o = some t ∧ due net s t ∧
      GroundSta.step net.debug (net.mac g) (net.accept g) (s.stations g) o = some (.ok st) ∧
      transmitAll net g (st.aired.drop (s.stations g).aired.length) (s.flying, s.dropped) = .ok a ∧
      s' = { s with clock := t, stations := Function.update s.stations g st, flying := a.1, dropped := a.2 } := by
  simp only [step] at h
  split at h
  · simp at h
  · rename_i t ht
    split at h
    · rename_i hd
      split at h
      · simp at h
      · rename_i r hr
        simp only [Option.some.injEq] at h
        rw [Outcome.bind_eq_ok] at h
        obtain ⟨st, rfl, h⟩ := h
        rw [Outcome.bind_eq_ok] at h
        obtain ⟨a, ha, h⟩ := h
        simp only [Outcome.ok.injEq] at h
        exact ⟨t, st, a, ht, hd, hr, ha, h.symm⟩
    · simp at h

theorem step_arrive {net : Net D G V W P R} {s s' : Sys D G W R} (h : step net s .arrive = some (.ok s')) :
    ∃ t d f rest r, s.flying = (t, d, f) :: rest ∧ due net s t ∧
      net.rx.step (s.sats d) (.arrive ⟨net.rx.key s.heard.length f.pkt, t, f.len, net.toP f.power⟩) = some (.ok r) ∧
      s' = { s with clock := t, flying := rest, sats := Function.update s.sats d r, heard := s.heard ++ [(t, d, f)] } := by
  simp only [step] at h
  split at h
  · simp at h
  · rename_i t d f rest hf
    split at h
    · rename_i hd
      split at h
      · simp at h
      · rename_i r hr
        simp only [Option.some.injEq] at h
        rw [Outcome.bind_eq_ok] at h
        obtain ⟨r', rfl, h⟩ := h
        simp only [Outcome.ok.injEq] at h
        exact ⟨t, d, f, rest, r', hf, hd, hr, h.symm⟩
    · simp at h

theorem step_finish {net : Net D G V W P R} {s s' : Sys D G W R} {d : D} (h : step net s (.finish d) = some (.ok s')) :
    ∃ t ts r, net.rx.due (s.sats d) = t :: ts ∧ due net s t ∧ net.rx.step (s.sats d) .finish = some (.ok r) ∧
      s' = { s with clock := t, sats := Function.update s.sats d r } := by
  simp only [step] at h
  split at h
  · simp at h
  · rename_i t ts hf
    split at h
    · rename_i hd
      split at h
      · simp at h
      · rename_i r hr
        simp only [Option.some.injEq] at h
        rw [Outcome.bind_eq_ok] at h
        obtain ⟨r', rfl, h⟩ := h
        simp only [Outcome.ok.injEq] at h
        exact ⟨t, ts, r', hf, hd, hr, h.symm⟩
    · simp at h

omit [Fintype G] [Fintype D] [DecidableEq D] in
theorem opsOf_append (g : G) (a b : List (Op D G W)) : opsOf g (a ++ b) = opsOf g a ++ opsOf g b := by
  simp [opsOf]

/-- Every station, seen alone, does what the model of a single station does with the calls and events that concern it: the theorems about
single stations (C34, C35) hold for each station of the network. -/
theorem C55_station {net : Net D G V W P R} {ops : List (Op D G W)} {s : Sys D G W R} (h : exec net ops = some (.ok s)) (g : G) :
    GroundSta.exec net.debug (net.mac g) (net.accept g) (net.remote g) (net.power g) (opsOf g ops) = some (.ok (s.stations g)) := by
  refine run_induction (P := fun ops s => GroundSta.exec net.debug (net.mac g) (net.accept g) (net.remote g) (net.power g) (opsOf g ops) =
    some (.ok (s.stations g))) rfl ?_ h
  intro ops o s s' _ hp hst
  rw [opsOf_append]
  cases o with
  | station g' o =>
    obtain ⟨t, st, a, -, -, h3, -, rfl⟩ := step_station hst
    by_cases hg : g' = g
    · subst hg
      simp only [opsOf, List.filterMap_cons, List.filterMap_nil, if_true, Function.update_self]
      exact runFrom_snoc.mpr ⟨_, hp, h3⟩
    · simp only [opsOf, List.filterMap_cons, List.filterMap_nil, if_neg hg, List.append_nil]
      rw [Function.update_of_ne (Ne.symm hg)]
      exact hp
  | arrive =>
    obtain ⟨t, d, f, rest, r, -, -, -, rfl⟩ := step_arrive hst
    simpa [opsOf] using hp
  | finish d =>
    obtain ⟨t, ts, r, -, -, -, rfl⟩ := step_finish hst
    simpa [opsOf] using hp

/-! ## The channel -/

omit [Fintype G] [Fintype D] [DecidableEq G] [DecidableEq D] in
theorem target_some {hist : List (Nat × Nat × D)} {as : List SatAddress} {a : SatAddress} {d : D} (h : target hist as a = some d) :
    ∃ (i p o : Nat), hist[i]? = some (p, o, d) ∧ as[i]? = some a := by
  unfold target at h
  rw [Option.map_eq_some_iff] at h
  obtain ⟨⟨b, p, o, d'⟩, h1, h2⟩ := h
  simp only at h2
  subst h2
  have h3 := List.find?_some h1
  simp only [beq_iff_eq] at h3
  subst h3
  obtain ⟨i, hi⟩ := List.mem_iff_getElem?.mp (List.mem_of_find?_eq_some h1)
  rw [List.getElem?_zip_eq_some] at hi
  exact ⟨i, p, o, hi.2, hi.1⟩

section
variable {e : Endian} {hasOrbit : D → Bool} {cid n m : Nat} {hist : List (Nat × Nat × D)} {as : List SatAddress} {k : Constellation D}
  {net : Net D G V W P R} {w : World D G W}

omit [Fintype G] [Fintype D] [DecidableEq G] [DecidableEq D] in
theorem transmit_lands (hb : Built net.endian hasOrbit cid n m hist as k) (hfit : Fits16 cid n m)
    (hk : net.chan.constellation = some k) (hsky : Sky net w) (g : G) (t : Nat) (x : Entry W) (d : D) (hd : target hist as x.dst = some d)
    (a : List (Nat × D × Flight W) × List (Nat × Nat)) :
    ∃ effs, transmit2Sat net.debug net.endian net.chan (net.air t) (x.pkt, x.len) x.len g (net.addr g) x.dst x.proto x.power = .ok (effs, x.len) ∧
      effs.foldl (applyEffect t) a =
        match lands net.addr w (target hist as) g (t, x) with
        | none => (a.1, a.2 ++ [(t, x.pkt)])
        | some (u, y) => (insertEvent u y a.1, a.2) := by
  obtain ⟨i, p, o, hi, hai⟩ := target_some hd
  obtain ⟨b, hb1, hb2, -⟩ := C03_lookup hb hfit net.debug i p o d hi
  rw [hai] at hb1
  simp only [Option.some.injEq] at hb1
  subst hb1
  obtain ⟨pg, ps, delay, loss, heq, hw1, hw2, hs⟩ := hsky t g d
  have hadm : admitted (net.air t) g d = .ok (w.admit t g d) := by
    unfold admitted
    rcases hs with ⟨h1, h2⟩ | ⟨m, h1, h2⟩
    · rw [h1, h2]
    · rw [h1]; exact h2
  unfold transmit2Sat lands
  simp only [hk, hb2, heq.delay, heq.ground, heq.sat, heq.loss, hadm, Outcome.deref_some, Outcome.bind_ok, hd]
  cases hwa : w.admit t g d with
  | true => exact ⟨_, rfl, by simp [applyEffect, hw1, hw2]⟩
  | false => exact ⟨_, rfl, by simp [applyEffect]⟩

/-- A frame reported dropped by the channel. -/
def lostAt (addr : G → SatAddress.Address) (w : World D G W) (tgt : SatAddress → Option D) (g : G) (y : Nat × Entry W) : Option (Nat × Nat) :=
  if (lands addr w tgt g y).isNone then some (y.1, y.2.pkt) else none

omit [Fintype G] [Fintype D] [DecidableEq G] [DecidableEq D] in
theorem transmitAll_lands (hb : Built net.endian hasOrbit cid n m hist as k) (hfit : Fits16 cid n m)
    (hk : net.chan.constellation = some k) (hsky : Sky net w) (g : G) (l : List (Nat × Entry W))
    (hl : ∀ y ∈ l, (target hist as y.2.dst).isSome) (a : List (Nat × D × Flight W) × List (Nat × Nat)) :
    ∃ a', transmitAll net g l a = .ok a' ∧ a'.1.Perm (a.1 ++ l.filterMap (lands net.addr w (target hist as) g)) ∧
      a'.2 = a.2 ++ l.filterMap (lostAt net.addr w (target hist as) g) ∧
      (a.1.Pairwise (fun x y => x.1 ≤ y.1) → a'.1.Pairwise (fun x y => x.1 ≤ y.1)) := by
  induction l generalizing a with
  | nil => exact ⟨a, rfl, by simp, by simp, id⟩
  | cons y l ih =>
    obtain ⟨t, x⟩ := y
    obtain ⟨d, hd⟩ := Option.isSome_iff_exists.mp (hl (t, x) (by simp))
    obtain ⟨effs, h1, h2⟩ := transmit_lands hb hfit hk hsky g t x d hd a
    obtain ⟨a', h3, h4, h5, h6⟩ := ih (fun y hy => hl y (by simp [hy])) (effs.foldl (applyEffect t) a)
    refine ⟨a', by simp only [transmitAll, h1, Outcome.bind_ok]; exact h3, ?_, ?_, ?_⟩
    · refine h4.trans ?_
      rw [h2]
      cases hx : lands net.addr w (target hist as) g (t, x) with
      | none => simp [hx]
      | some z =>
        obtain ⟨u, z⟩ := z
        simp only [List.filterMap_cons, hx]
        exact ((insertEvent_perm u z a.1).append_right _).trans List.perm_middle.symm
    · rw [h5, h2]
      cases hx : lands net.addr w (target hist as) g (t, x) with
      | none => simp [hx, lostAt]
      | some z => simp [hx, lostAt]
    · intro hs
      apply h6
      rw [h2]
      cases lands net.addr w (target hist as) g (t, x) with
      | none => exact hs
      | some z => exact sorted_insertEvent hs

omit [Fintype G] [Fintype D] [DecidableEq G] [DecidableEq D] in
theorem macSend_aired (mac : GroundSta.Mac) (s : GroundSta.Sys W) (t : Nat) (x : Entry W) (l : List (Nat × Entry W)) (h : s.aired = l)
    (ht : s.clock = t) :
    ∃ new, l ++ new = (GroundSta.macSend mac s t x).aired ∧ (∀ y ∈ new, y.1 = t) ∧ (GroundSta.macSend mac s t x).clock = t := by
  subst h
  unfold GroundSta.macSend GroundSta.air
  split
  · exact ⟨_, rfl, by simp, ht⟩
  · exact ⟨[], by simp, by simp, ht⟩

omit [Fintype G] [Fintype D] [DecidableEq G] [DecidableEq D] in
theorem aired_grows {debug : Bool} {mac : GroundSta.Mac} {accept : List (Entry W) → Entry W → Bool} {s s' : GroundSta.Sys W}
    {o : GroundSta.Op W} {t : Nat} (ht : opTime s o = some t) (h : GroundSta.step debug mac accept s o = some (.ok s')) :
    ∃ new, s.aired ++ new = s'.aired ∧ (∀ y ∈ new, y.1 = t) ∧ s'.clock = t := by
  cases o with
  | setRemote u a =>
    simp only [opTime, Option.some.injEq] at ht
    obtain ⟨-, rfl⟩ := GroundSta.step_setRemote.mp h; exact ⟨[], by simp, by simp, ht⟩
  | setPower u a =>
    simp only [opTime, Option.some.injEq] at ht
    obtain ⟨-, rfl⟩ := GroundSta.step_setPower.mp h; exact ⟨[], by simp, by simp, ht⟩
  | send u pkt len proto =>
    simp only [opTime, Option.some.injEq] at ht
    subst ht
    obtain ⟨-, h⟩ := GroundSta.step_send.mp h
    unfold GroundSta.send at h
    simp only at h
    split at h
    · simp only [Outcome.ok.injEq] at h; subst h; exact ⟨[], by simp, by simp, rfl⟩
    · split at h
      · simp only [Outcome.ok.injEq] at h; subst h; exact ⟨[], by simp, by simp, rfl⟩
      · obtain ⟨x, rest, -, rfl⟩ := GroundSta.transmitStart_eq h
        exact macSend_aired mac _ u x _ rfl rfl
  | run =>
    simp only [GroundSta.step] at h
    split at h
    · simp at h
    · rename_i hev
      simp only [opTime, hev, List.head?_cons, Option.map_some, Option.some.injEq] at ht
      subst ht
      simp only [Option.some.injEq, Outcome.ok.injEq] at h
      subst h
      exact ⟨_, rfl, by simp, rfl⟩
    · rename_i u x es hev
      simp only [opTime, hev, List.head?_cons, Option.map_some, Option.some.injEq] at ht
      subst ht
      simp only [Option.some.injEq] at h
      unfold GroundSta.transmitComplete at h
      simp only at h
      split at h
      · simp only [Outcome.ok.injEq] at h
        subst h
        exact ⟨[], by simp, by simp, rfl⟩
      · obtain ⟨x, rest, -, rfl⟩ := GroundSta.transmitStart_eq h
        exact macSend_aired mac _ u x _ rfl rfl

/-- Every frame on the air has been dropped, is flying, or has arrived, as specified by `lands`. -/
structure Account (net : Net D G V W P R) (w : World D G W) (tgt : SatAddress → Option D) (s : Sys D G W R) : Prop where
  flights : (↑s.heard + ↑s.flying : Multiset (Nat × D × Flight W)) =
    ∑ g, (((s.stations g).aired.filterMap (lands net.addr w tgt g) : List _) : Multiset (Nat × D × Flight W))
  drops : (s.dropped : Multiset (Nat × Nat)) =
    ∑ g, (((s.stations g).aired.filterMap (lostAt net.addr w tgt g) : List _) : Multiset (Nat × Nat))
  sorted : s.flying.Pairwise (fun x y => x.1 ≤ y.1)

omit [Fintype G] [Fintype D] [DecidableEq G] [DecidableEq D] in
theorem requests_dst (a : SatAddress) (p : W) (ops : List (GroundSta.Op W)) :
    ∀ y ∈ requests a p ops, y.2.dst = a ∨ y.2.dst ∈ tracked ops := by
  induction ops generalizing a p with
  | nil => simp [requests]
  | cons o os ih =>
    intro y hy
    cases o with
    | send t pkt len proto =>
      simp only [requests, List.mem_cons] at hy
      rcases hy with rfl | hy
      · exact Or.inl rfl
      · exact ih a p y hy
    | setRemote t b =>
      simp only [tracked, List.mem_cons]
      exact Or.inr (ih b p y hy)
    | setPower t v => exact ih a v y hy
    | run => exact ih a p y hy

omit [Fintype G] [Fintype D] [DecidableEq G] [DecidableEq D] in
theorem tracked_append (a b : List (GroundSta.Op W)) : tracked (a ++ b) = tracked a ++ tracked b := by
  induction a with
  | nil => rfl
  | cons o os ih => cases o <;> simp [tracked, ih]

/-- Every address that a station ever tracks is the address of a launched satellite. -/
def Launched (net : Net D G V W P R) (hist : List (Nat × Nat × D)) (as : List SatAddress) (ops : List (Op D G W)) : Prop :=
  ∀ g, ∀ a ∈ net.remote g :: tracked (opsOf g ops), (target hist as a).isSome

omit [Fintype G] [Fintype D] [DecidableEq D] in
theorem Launched.left {ops ops' : List (Op D G W)} (h : Launched net hist as (ops ++ ops')) : Launched net hist as ops := by
  intro g a ha
  refine h g a ?_
  rw [opsOf_append, tracked_append]
  simp only [List.mem_cons, List.mem_append] at ha ⊢
  tauto

omit [Fintype G] [Fintype D] [DecidableEq G] [DecidableEq D] in
/-- A station never fails, whatever its MAC. -/
theorem station_ok {debug : Bool} {mac : GroundSta.Mac} {accept : List (Entry W) → Entry W → Bool} {s : GroundSta.Sys W} {o : GroundSta.Op W}
    {r : Outcome (GroundSta.Sys W)} (h : GroundSta.step debug mac accept s o = some r) : ∃ s', r = .ok s' := by
  have hstart : ∀ (s : GroundSta.Sys W) (t : Nat), s.busy = false → s.queue ≠ [] → ∃ s', GroundSta.transmitStart debug mac s t = .ok s' := by
    intro s t hb hq
    unfold GroundSta.transmitStart
    cases hs : s.queue with
    | nil => exact absurd hs hq
    | cons x rest => cases debug <;> exact ⟨_, by simp [hb, Outcome.nsAssert, Outcome.bind_ok]; rfl⟩
  cases o with
  | setRemote t a =>
    simp only [GroundSta.step] at h
    split at h
    · simp only [Option.some.injEq] at h; exact ⟨_, h.symm⟩
    · simp at h
  | setPower t a =>
    simp only [GroundSta.step] at h
    split at h
    · simp only [Option.some.injEq] at h; exact ⟨_, h.symm⟩
    · simp at h
  | send t pkt len proto =>
    simp only [GroundSta.step] at h
    split at h
    · simp only [Option.some.injEq] at h
      unfold GroundSta.send at h
      simp only at h
      split at h
      · exact ⟨_, h.symm⟩
      · split at h
        · exact ⟨_, h.symm⟩
        · rename_i hb
          rw [← h]
          exact hstart _ t (by simpa using hb) (by simp)
    · simp at h
  | run =>
    simp only [GroundSta.step] at h
    split at h
    · simp at h
    · simp only [Option.some.injEq] at h; exact ⟨_, h.symm⟩
    · simp only [Option.some.injEq] at h
      unfold GroundSta.transmitComplete at h
      simp only at h
      split at h
      · exact ⟨_, h.symm⟩
      · rename_i hq
        rw [← h]
        exact hstart _ _ rfl (by simpa using hq)

/-- One call or event of a station: it goes well, and what goes on the air is added to the account. -/
theorem step_station_ok (hb : Built net.endian hasOrbit cid n m hist as k) (hfit : Fits16 cid n m)
    (hk : net.chan.constellation = some k) (hsky : Sky net w) {ops : List (Op D G W)} {g : G} {o : GroundSta.Op W}
    (hl : Launched net hist as (ops ++ [.station g o])) {s : Sys D G W R} (h1 : exec net ops = some (.ok s))
    (hacc : Account net w (target hist as) s) {r : Outcome (Sys D G W R)} (h : step net s (.station g o) = some r) :
    ∃ s', r = .ok s' ∧ Account net w (target hist as) s' := by
  simp only [step] at h
  split at h
  · simp at h
  · rename_i t ht
    split at h
    · split at h
      · simp at h
      · rename_i r2 hr2
        have hp := C55_station h1 g
        obtain ⟨st, rfl⟩ := station_ok hr2
        have hst : GroundSta.exec net.debug (net.mac g) (net.accept g) (net.remote g) (net.power g) (opsOf g (ops ++ [.station g o])) =
            some (.ok st) := by
          rw [opsOf_append]
          simp only [opsOf, List.filterMap_cons, List.filterMap_nil, if_true]
          exact runFrom_snoc.mpr ⟨_, hp, hr2⟩
        obtain ⟨new, hnew, -⟩ := aired_grows ht hr2
        have hdrop : st.aired.drop (s.stations g).aired.length = new := by rw [← hnew]; simp
        have hnewok : ∀ y ∈ new, (target hist as y.2.dst).isSome := by
          intro y hy
          have hy2 : y ∈ st.aired := by rw [← hnew]; simp [hy]
          obtain ⟨z, hz, hz2⟩ := List.mem_map.mp (aired_accepted hst hy2)
          have hz3 := (C34_accepted_or_dropped hst).2.subset hz
          have hz4 := requests_dst _ _ _ z hz3
          rw [← hz2]
          refine hl g _ ?_
          rw [List.mem_cons]
          exact hz4
        obtain ⟨a, h3, h4, h5, h6⟩ := transmitAll_lands (net := net) hb hfit hk hsky g new hnewok (s.flying, s.dropped)
        simp only [hdrop, Outcome.bind_ok, h3, Option.some.injEq] at h
        refine ⟨_, h.symm, ⟨?_, ?_, h6 hacc.sorted⟩⟩
        · simp only
          refine Eq.trans ?_ (sum_update (fun g' (x : GroundSta.Sys W) =>
            ((x.aired.filterMap (lands net.addr w (target hist as) g') : List _) : Multiset (Nat × D × Flight W))) s.stations g st
            (new.filterMap (lands net.addr w (target hist as) g) : List _) ?_).symm
          · rw [← hacc.flights, add_assoc]
            congr 1
            rw [Multiset.coe_add, Multiset.coe_eq_coe]
            exact h4
          · rw [← hnew]; simp
        · simp only
          refine Eq.trans ?_ (sum_update (fun g' (x : GroundSta.Sys W) =>
            ((x.aired.filterMap (lostAt net.addr w (target hist as) g') : List _) : Multiset (Nat × Nat))) s.stations g st
            (new.filterMap (lostAt net.addr w (target hist as) g) : List _) ?_).symm
          · rw [← hacc.drops, h5, Multiset.coe_add]
          · rw [← hnew]; simp
    · simp at h

/-- The account holds at every time, for all MACs and receivers. -/
theorem account (hb : Built net.endian hasOrbit cid n m hist as k) (hfit : Fits16 cid n m)
    (hk : net.chan.constellation = some k) (hsky : Sky net w) {ops : List (Op D G W)}
    (hl : Launched net hist as ops) {s : Sys D G W R} (h : exec net ops = some (.ok s)) : Account net w (target hist as) s := by
  induction ops using List.reverseRecOn generalizing s with
  | nil =>
    simp only [exec, runFrom, Option.some.injEq, Outcome.ok.injEq] at h
    subst h
    refine ⟨?_, ?_, ?_⟩
    · simp [Sys.init, GroundSta.Sys.init]
    · simp [Sys.init, GroundSta.Sys.init]
    · simp [Sys.init]
  | append_singleton os o ih =>
    obtain ⟨s1, h1, h2⟩ := runFrom_snoc.mp h
    have hacc := ih hl.left h1
    cases o with
    | arrive =>
      obtain ⟨t, d, f, rest, r, hf, -, -, rfl⟩ := step_arrive h2
      refine ⟨?_, hacc.drops, ?_⟩
      · rw [← hacc.flights, hf]
        simp only [Multiset.coe_add]
        rw [Multiset.coe_eq_coe, List.append_assoc]
        rfl
      · have := hacc.sorted
        rw [hf, List.pairwise_cons] at this
        exact this.2
    | finish d =>
      obtain ⟨t, ts, r, -, -, -, rfl⟩ := step_finish h2
      exact ⟨hacc.flights, hacc.drops, hacc.sorted⟩
    | station g o =>
      obtain ⟨s', e, h'⟩ := step_station_ok hb hfit hk hsky hl h1 hacc h2
      simp only [Outcome.ok.injEq] at e
      subst e; exact h'

/-- A receiver that never fails. -/
def Safe (rx : Receiver P R) : Prop := ∀ r o x, rx.step r o = some x → ∃ r', x = .ok r'

/-- If the receivers do not fail, nothing does. -/
theorem run_ok (hsafe : Safe net.rx) (hb : Built net.endian hasOrbit cid n m hist as k) (hfit : Fits16 cid n m)
    (hk : net.chan.constellation = some k) (hsky : Sky net w) {ops : List (Op D G W)}
    (hl : Launched net hist as ops) {r : Outcome (Sys D G W R)} (h : exec net ops = some r) :
    ∃ s, r = .ok s ∧ Account net w (target hist as) s := by
  suffices hok : ∃ s, r = .ok s by
    obtain ⟨s, rfl⟩ := hok
    exact ⟨s, rfl, account hb hfit hk hsky hl h⟩
  induction ops using List.reverseRecOn generalizing r with
  | nil =>
    simp only [exec, runFrom, Option.some.injEq] at h
    exact ⟨_, h.symm⟩
  | append_singleton os o ih =>
    unfold exec at h
    rw [runFrom_append] at h
    cases h1 : runFrom (step net) (Sys.init net) os with
    | none => simp [h1] at h
    | some r1 =>
      obtain ⟨s, rfl⟩ := ih hl.left h1
      simp only [h1, runFrom_single] at h
      cases o with
      | arrive =>
        simp only [step] at h
        split at h
        · simp at h
        · split at h
          · split at h
            · simp at h
            · rename_i x hx
              obtain ⟨r', rfl⟩ := hsafe _ _ _ hx
              simp only [Option.some.injEq] at h
              exact ⟨_, h.symm⟩
          · simp at h
      | finish d =>
        simp only [step] at h
        split at h
        · simp at h
        · split at h
          · split at h
            · simp at h
            · rename_i x hx
              obtain ⟨r', rfl⟩ := hsafe _ _ _ hx
              simp only [Option.some.injEq] at h
              exact ⟨_, h.symm⟩
          · simp at h
      | station g o =>
        obtain ⟨s', e, -⟩ := step_station_ok hb hfit hk hsky hl h1 (account hb hfit hk hsky hl.left h1) h
        exact ⟨s', e⟩

end

/-! ## The receivers -/

/-- The frames satellite `d` has heard, as seen by its receiver. -/
def framesAt (net : Net D G V W P R) (d : D) (heard : List (Nat × D × Flight W)) : List (Aloha.Frame P) :=
  heard.zipIdx.filterMap (fun y => if y.1.2.1 = d then some ⟨net.rx.key y.2 y.1.2.2.pkt, y.1.1, y.1.2.2.len, net.toP y.1.2.2.power⟩ else none)

/-- Every receiver, seen alone, has been given exactly the frames that its satellite heard, in that order. -/
theorem C55_receiver {net : Net D G V W P R} {ops : List (Op D G W)} {s : Sys D G W R} (h : exec net ops = some (.ok s)) (d : D) :
    ∃ rops, runFrom net.rx.step net.rx.init rops = some (.ok (s.sats d)) ∧ Aloha.frames rops = framesAt net d s.heard := by
  refine run_induction (P := fun _ s => ∃ rops, runFrom net.rx.step net.rx.init rops = some (.ok (s.sats d)) ∧
    Aloha.frames rops = framesAt net d s.heard) ⟨[], rfl, rfl⟩ ?_ h
  rintro ops o s s' - ⟨rops, h1, h2⟩ hst
  cases o with
  | station g o => obtain ⟨t, st, a, -, -, -, -, rfl⟩ := step_station hst; exact ⟨rops, h1, h2⟩
  | arrive =>
    obtain ⟨t, d', f, rest, r, -, -, hr, rfl⟩ := step_arrive hst
    simp only
    by_cases hd : d' = d
    · subst hd
      refine ⟨rops ++ [.arrive ⟨net.rx.key s.heard.length f.pkt, t, f.len, net.toP f.power⟩], ?_, ?_⟩
      · rw [Function.update_self]; exact runFrom_snoc.mpr ⟨_, h1, hr⟩
      · rw [Aloha.frames_append, h2]
        simp [framesAt, List.zipIdx_append, Aloha.frames]
    · refine ⟨rops, by rw [Function.update_of_ne (Ne.symm hd)]; exact h1, ?_⟩
      rw [h2]
      simp [framesAt, List.zipIdx_append, hd]
  | finish d' =>
    obtain ⟨t, ts, r, -, -, hr, rfl⟩ := step_finish hst
    simp only
    by_cases hd : d' = d
    · subst hd
      refine ⟨rops ++ [.finish], ?_, ?_⟩
      · rw [Function.update_self]; exact runFrom_snoc.mpr ⟨_, h1, hr⟩
      · rw [Aloha.frames_append, h2]; simp [Aloha.frames]
    · exact ⟨rops, by rw [Function.update_of_ne (Ne.symm hd)]; exact h1, h2⟩

/-- What satellite `d` would pass up if every frame it heard were received. -/
def allHeard (d : D) (heard : List (Nat × D × Flight W)) : List (Nat × Flight W) :=
  heard.filterMap (fun y => if y.2.1 = d then some (y.1 + y.2.2.len, y.2.2) else none)

omit [Fintype G] [Fintype D] [DecidableEq G] in
/-- Looking up the callbacks of frames by their position. -/
theorem lookup_frames (net : Net D G V W P R) (hkey : ∀ i u, net.rx.key i u = i) (d : D) (heard : List (Nat × D × Flight W)) :
    ((framesAt net d heard).map (fun f => (f.fin, f.uid))).filterMap (fun y => (heard[y.2]?).map (fun h => (y.1, h.2.2))) = allHeard d heard := by
  unfold framesAt
  simp only [hkey]
  have key : ∀ (pre l : List (Nat × D × Flight W)), pre ++ l = heard →
      (((l.zipIdx pre.length).filterMap (fun y => if y.1.2.1 = d then
          some (⟨y.2, y.1.1, y.1.2.2.len, net.toP y.1.2.2.power⟩ : Aloha.Frame P) else none)).map (fun f => (f.fin, f.uid))).filterMap
        (fun y => (heard[y.2]?).map (fun h => (y.1, h.2.2))) = allHeard d l := by
    intro pre l
    induction l generalizing pre with
    | nil => intro _; rfl
    | cons y l ih =>
      intro hl
      have hy : heard[pre.length]? = some y := by rw [← hl]; simp
      have := ih (pre ++ [y]) (by simpa using hl)
      simp only [List.length_append, List.length_singleton] at this
      simp only [List.zipIdx_cons, allHeard, List.filterMap_cons] at this ⊢
      by_cases hd : y.2.1 = d
      · simp only [hd, if_true, List.map_cons, List.filterMap_cons, hy, Option.map_some, Aloha.Frame.fin]
        rw [← this]
        rfl
      · simp only [hd, if_false]
        exact this
  exact key [] heard rfl

/-- When, and with which arguments, satellite `d` passes up the frame `y.2` sent by `g` at time `y.1`: if the satellite is the addressed one
and the success model lets the frame through, at the start of transmission plus propagation delay plus transmission time. -/
def receipt (addr : G → SatAddress.Address) (w : World D G W) (tgt : SatAddress → Option D) (g : G) (d : D) (y : Nat × Entry W) :
    Option (Nat × Flight W) :=
  if tgt y.2.dst = some d ∧ w.admit y.1 g d = true then
    some (y.1 + w.delay y.1 g d + y.2.len, ⟨y.2.pkt, y.2.len, addr g, y.2.proto, w.power y.1 g d y.2.power⟩)
  else none

omit [Fintype G] [Fintype D] [DecidableEq G] in
theorem allHeard_lands (addr : G → SatAddress.Address) (w : World D G W) (tgt : SatAddress → Option D) (g : G) (d : D) (l : List (Nat × Entry W)) :
    allHeard d (l.filterMap (lands addr w tgt g)) = l.filterMap (receipt addr w tgt g d) := by
  unfold allHeard
  rw [List.filterMap_filterMap]
  congr 1
  funext y
  unfold lands receipt
  cases ht : tgt y.2.dst with
  | none => simp
  | some d' =>
    simp only
    by_cases hd : d' = d
    · subst hd
      by_cases ha : w.admit y.1 g d' = true <;> simp [ha]
    · by_cases ha : w.admit y.1 g d' = true <;> simp [ha, hd]

/-- Nothing is scheduled any more. -/
def Quiet (net : Net D G V W P R) (s : Sys D G W R) : Prop :=
  (∀ g, (s.stations g).events = []) ∧ s.flying = [] ∧ ∀ d, net.rx.due (s.sats d) = []

theorem none_run (r : NoneMac.Sys P) (os : List (Aloha.Op P)) :
    runFrom (noneReceiver P).step r os = (NoneMac.execFrom r os).map .ok := by
  induction os generalizing r with
  | nil => rfl
  | cons o os ih =>
    simp only [runFrom, NoneMac.execFrom]
    simp only [noneReceiver] at ih ⊢
    cases NoneMac.step r o with
    | none => rfl
    | some r' => exact ih r'

theorem safe_map {rx : Receiver P R} {f : R → Aloha.Op P → Option R} (h : rx.step = fun r o => (f r o).map .ok) : Safe rx := by
  intro r o x hx
  rw [h] at hx
  obtain ⟨r', -, e⟩ := Option.map_eq_some_iff.mp hx
  exact ⟨r', e.symm⟩

section
variable {hasOrbit : D → Bool} {cid n m : Nat} {hist : List (Nat × Nat × D)} {as : List SatAddress} {k : Constellation D}
  {w : World D G W} {wait : G → Nat → Nat → Nat}

/-- Satellites with the pass-through MAC, stations with any MAC that sends every frame once (pass-through: no waiting), tracking launched
satellites.  Nothing ever goes wrong.  At any time, what a satellite has passed up is among the receipts due for the packets accepted so far: each
packet goes on the air when the stations' queues say (`Fifo.serve`), and is passed up at most once by the satellite that its station was tracking
when it was accepted, at the right time, with its station's address, protocol number and power.  When nothing is scheduled any more, all of
these receipts have taken place, each exactly once, and nothing else has. -/
theorem C55_uplink {net : Net D G V W P (NoneMac.Sys P)} (hrx : net.rx = noneReceiver P)
    (hb : Built net.endian hasOrbit cid n m hist as k) (hfit : Fits16 cid n m)
    (hk : net.chan.constellation = some k) (hsky : Sky net w) (hm : ∀ g, Once (net.mac g) (wait g)) {ops : List (Op D G W)}
    (hl : Launched net hist as ops) {r : Outcome (Sys D G W (NoneMac.Sys P))} (h : exec net ops = some r) :
    ∃ s, r = .ok s ∧
      (∀ d, (passedUp net s d : Multiset (Nat × Flight W)) ≤
        ∑ g, (((Fifo.serve Entry.len (wait g) 0 0 (s.stations g).accepted).filterMap (receipt net.addr w (target hist as) g d) : List _) :
          Multiset (Nat × Flight W))) ∧
      (Quiet net s → ∀ d, (passedUp net s d : Multiset (Nat × Flight W)) =
        ∑ g, (((Fifo.serve Entry.len (wait g) 0 0 (s.stations g).accepted).filterMap (receipt net.addr w (target hist as) g d) : List _) :
          Multiset (Nat × Flight W))) := by
  obtain ⟨s, rfl, hacc⟩ := run_ok (by rw [hrx]; exact safe_map rfl) hb hfit hk hsky hl h
  have hserve : ∀ g, (s.stations g).aired <+: Fifo.serve Entry.len (wait g) 0 0 (s.stations g).accepted ∧
      ((s.stations g).events = [] → (s.stations g).aired = Fifo.serve Entry.len (wait g) 0 0 (s.stations g).accepted) := by
    intro g
    obtain ⟨s', h1, h2, h3, -⟩ := C34_refines (hm g) (C55_station h g)
    simp only [Outcome.ok.injEq] at h1
    subst h1
    exact ⟨h2, h3⟩
  have hheard : ∀ d, (allHeard d s.heard : Multiset (Nat × Flight W)) + (allHeard d s.flying : Multiset (Nat × Flight W)) =
      ∑ g, (((s.stations g).aired.filterMap (receipt net.addr w (target hist as) g d) : List _) : Multiset (Nat × Flight W)) := by
    intro d
    have h1 := congrArg (Multiset.filterMap (fun y : Nat × D × Flight W => if y.2.1 = d then some (y.1 + y.2.2.len, y.2.2) else none)) hacc.flights
    rw [Multiset.filterMap_add, filterMap_sum] at h1
    refine h1.trans ?_
    refine Finset.sum_congr rfl (fun g _ => ?_)
    rw [← allHeard_lands]; rfl
  have hup : ∀ d, (passedUp net s d : Multiset (Nat × Flight W)) ≤ allHeard d s.heard ∧
      (net.rx.due (s.sats d) = [] → (passedUp net s d : Multiset (Nat × Flight W)) = allHeard d s.heard) := by
    intro d
    obtain ⟨rops, h1, h2⟩ := C55_receiver h d
    rw [hrx, none_run, Option.map_eq_some_iff] at h1
    obtain ⟨r1, h1, e⟩ := h1
    simp only [Outcome.ok.injEq] at e
    subst e
    obtain ⟨h3, -, -⟩ := C27_receive h1
    rw [h2] at h3
    have h4 := h3.filterMap (fun y => (s.heard[y.2]?).map (fun h => (y.1, h.2.2)))
    rw [lookup_frames net (by rw [hrx]; exact fun _ _ => rfl), List.filterMap_append] at h4
    have h5 : passedUp net s d = (s.sats d).delivered.filterMap (fun y => (s.heard[y.2]?).map (fun h => (y.1, h.2.2))) := by
      unfold passedUp; rw [hrx]; rfl
    rw [← h5] at h4
    have h6 := Multiset.coe_eq_coe.mpr h4
    rw [← Multiset.coe_add] at h6
    refine ⟨by rw [← h6]; exact Multiset.le_add_right _ _, ?_⟩
    intro hd
    rw [hrx] at hd
    have : (s.sats d).pending = [] := List.map_eq_nil_iff.mp hd
    rw [this] at h6
    simpa using h6
  refine ⟨s, rfl, ?_, ?_⟩
  · intro d
    refine (hup d).1.trans ((Multiset.le_add_right _ (allHeard d s.flying : Multiset (Nat × Flight W))).trans ?_)
    rw [hheard]
    refine Finset.sum_le_sum (fun g _ => ?_)
    exact Multiset.coe_le.mpr (((hserve g).1.sublist.filterMap _).subperm)
  · rintro ⟨q1, q2, q3⟩ d
    have := hheard d
    rw [q2] at this
    rw [(hup d).2 (q3 d)]
    refine Eq.trans ?_ (this.trans ?_)
    · simp [allHeard]
    · refine Finset.sum_congr rfl (fun g _ => ?_)
      rw [(hserve g).2 (q1 g)]

/-- Frames stopped by the success model are reported by the channel, each once, and never arrive; for all MACs and receivers. -/
theorem C55_drops {net : Net D G V W P R}
    (hb : Built net.endian hasOrbit cid n m hist as k) (hfit : Fits16 cid n m)
    (hk : net.chan.constellation = some k) (hsky : Sky net w) {ops : List (Op D G W)}
    (hl : Launched net hist as ops) {s : Sys D G W R} (h : exec net ops = some (.ok s)) :
    (s.dropped : Multiset (Nat × Nat)) =
      ∑ g, (((s.stations g).aired.filterMap (fun y =>
        match target hist as y.2.dst with
        | some d => if w.admit y.1 g d then none else some (y.1, y.2.pkt)
        | none => some (y.1, y.2.pkt)) : List _) : Multiset (Nat × Nat)) := by
  have hacc := account hb hfit hk hsky hl h
  refine hacc.drops.trans ?_
  refine Finset.sum_congr rfl (fun g _ => ?_)
  congr 2
  funext y
  unfold lostAt lands
  cases target hist as y.2.dst with
  | none => simp
  | some d => by_cases ha : w.admit y.1 g d = true <;> simp [ha]

end

/-! ## The executions are not stuck -/

/-- What is needed of a receiver: it takes frames that arrive in the order of time, and runs its events at their times. -/
structure Orderly (rx : Receiver P R) (clock : R → Nat) : Prop where
  init : clock rx.init = 0 ∧ rx.due rx.init = []
  arrive : ∀ r f, clock r ≤ f.start → (∀ t ∈ rx.due r, f.start ≤ t) → ∃ x, rx.step r (.arrive f) = some x
  arrived : ∀ r f r', rx.step r (.arrive f) = some (.ok r') → (rx.due r).Pairwise (· ≤ ·) →
    clock r' = f.start ∧ (∀ u ∈ rx.due r', u ∈ rx.due r ∨ f.start ≤ u) ∧ (rx.due r').Pairwise (· ≤ ·)
  finish : ∀ r t ts, rx.due r = t :: ts → ∃ x, rx.step r .finish = some x ∧ ∀ r', x = .ok r' → clock r' = t ∧ rx.due r' = ts

theorem schedule_due (f : Aloha.Frame P) (l : List (Aloha.Frame P)) (hl : (l.map Aloha.Frame.fin).Pairwise (· ≤ ·)) :
    (∀ u ∈ (Aloha.schedule f l).map Aloha.Frame.fin, u ∈ l.map Aloha.Frame.fin ∨ f.start ≤ u) ∧
      ((Aloha.schedule f l).map Aloha.Frame.fin).Pairwise (· ≤ ·) ∧
      ∀ u ∈ (Aloha.schedule f l).map Aloha.Frame.fin, u ∈ l.map Aloha.Frame.fin ∨ u = f.fin := by
  have h3 : ∀ u ∈ (Aloha.schedule f l).map Aloha.Frame.fin, u ∈ l.map Aloha.Frame.fin ∨ u = f.fin := by
    clear hl
    induction l with
    | nil => simp [Aloha.schedule]
    | cons g gs ih =>
      intro u hu
      unfold Aloha.schedule at hu
      split at hu
      · simp only [List.map_cons, List.mem_cons] at hu ⊢; tauto
      · simp only [List.map_cons, List.mem_cons] at hu ⊢
        rcases hu with rfl | hu
        · exact Or.inl (Or.inl rfl)
        · rcases ih u hu with h | h
          · exact Or.inl (Or.inr h)
          · exact Or.inr h
  refine ⟨?_, ?_, h3⟩
  · intro u hu
    rcases h3 u hu with h | h
    · exact Or.inl h
    · exact Or.inr (by rw [h]; unfold Aloha.Frame.fin; omega)
  · clear h3
    induction l with
    | nil => simp [Aloha.schedule]
    | cons g gs ih =>
      simp only [List.map_cons, List.pairwise_cons] at hl
      unfold Aloha.schedule
      split
      · rename_i hlt
        simp only [List.map_cons, List.pairwise_cons]
        refine ⟨?_, hl.1, hl.2⟩
        intro u hu
        simp only [List.mem_cons] at hu
        rcases hu with rfl | hu
        · omega
        · have := hl.1 u hu; omega
      · rename_i hlt
        simp only [List.map_cons, List.pairwise_cons]
        refine ⟨?_, ih hl.2⟩
        intro u hu
        have : u ∈ gs.map Aloha.Frame.fin ∨ u = f.fin := by
          clear ih hl hlt
          induction gs with
          | nil => simpa [Aloha.schedule] using hu
          | cons g' gs ih =>
            unfold Aloha.schedule at hu
            split at hu
            · simp only [List.map_cons, List.mem_cons] at hu ⊢; tauto
            · simp only [List.map_cons, List.mem_cons] at hu ⊢
              rcases hu with rfl | hu
              · exact Or.inl (Or.inl rfl)
              · rcases ih hu with h | h
                · exact Or.inl (Or.inr h)
                · exact Or.inr h
        rcases this with h | h
        · exact hl.1 u h
        · omega

theorem none_orderly : Orderly (noneReceiver P) NoneMac.Sys.clock where
  init := ⟨rfl, rfl⟩
  arrive := by
    intro r f h1 h2
    refine ⟨.ok ⟨f.start, Aloha.schedule f r.pending, r.delivered⟩, ?_⟩
    simp only [noneReceiver, NoneMac.step]
    rw [if_pos]
    · rfl
    exact ⟨h1, fun g hg => h2 _ (List.mem_map.mpr ⟨g, hg, rfl⟩)⟩
  arrived := by
    intro r f r' h hs
    simp only [noneReceiver, NoneMac.step] at h
    split at h
    · simp only [Option.map_some, Option.some.injEq, Outcome.ok.injEq] at h
      subst h
      exact ⟨rfl, (schedule_due f _ hs).1, (schedule_due f _ hs).2.1⟩
    · simp at h
  finish := by
    intro r t ts h
    simp only [noneReceiver] at h ⊢
    cases hp : r.pending with
    | nil => simp [hp] at h
    | cons f fs =>
      simp only [hp, List.map_cons, List.cons.injEq] at h
      simp only [NoneMac.step, hp]
      refine ⟨_, rfl, fun r' e => ?_⟩
      simp only [Outcome.ok.injEq] at e
      subst e
      exact ⟨h.1, h.2⟩

theorem aloha_orderly [Zero P] [Add P] (lost : P → P → Bool) : Orderly (alohaReceiver lost) Aloha.Sys.clock where
  init := ⟨rfl, rfl⟩
  arrive := by
    intro r f h1 h2
    refine ⟨.ok ⟨f.start, Aloha.startRx r.rx f, Aloha.schedule f r.pending, r.delivered⟩, ?_⟩
    simp only [alohaReceiver, Aloha.step]
    rw [if_pos]
    · rfl
    refine ⟨h1, fun g hg => ?_⟩
    have := h2 _ (List.mem_map.mpr ⟨g, hg, rfl⟩)
    simp only [true_and]
    omega
  arrived := by
    intro r f r' h hs
    simp only [alohaReceiver, Aloha.step] at h
    split at h
    · simp only [Option.map_some, Option.some.injEq, Outcome.ok.injEq] at h
      subst h
      exact ⟨rfl, (schedule_due f _ hs).1, (schedule_due f _ hs).2.1⟩
    · simp at h
  finish := by
    intro r t ts h
    simp only [alohaReceiver] at h ⊢
    cases hp : r.pending with
    | nil => simp [hp] at h
    | cons f fs =>
      simp only [hp, List.map_cons, List.cons.injEq] at h
      simp only [Aloha.step, hp]
      refine ⟨_, rfl, fun r' e => ?_⟩
      simp only [Outcome.ok.injEq] at e
      subst e
      exact ⟨h.1, h.2⟩

theorem crdsa_orderly [Zero P] [Add P] (lost : P → P → Bool) (F : Nat) : Orderly (crdsaReceiver lost F) Crdsa.Sys.clock where
  init := ⟨rfl, rfl⟩
  arrive := by
    intro r f h1 h2
    refine ⟨.ok ⟨f.start, Crdsa.startRx r.st f, Aloha.schedule f r.pending, r.delivered⟩, ?_⟩
    simp only [crdsaReceiver, Crdsa.step]
    rw [if_pos]
    refine ⟨h1, fun g hg => ?_⟩
    have := h2 _ (List.mem_map.mpr ⟨g, hg, rfl⟩)
    simp only [true_and]
    omega
  arrived := by
    intro r f r' h hs
    simp only [crdsaReceiver, Crdsa.step] at h
    split at h
    · simp only [Option.some.injEq, Outcome.ok.injEq] at h
      subst h
      exact ⟨rfl, (schedule_due f _ hs).1, (schedule_due f _ hs).2.1⟩
    · simp at h
  finish := by
    intro r t ts h
    simp only [crdsaReceiver] at h ⊢
    cases hp : r.pending with
    | nil => simp [hp] at h
    | cons f fs =>
      simp only [hp, List.map_cons, List.cons.injEq] at h
      simp only [Crdsa.step, hp]
      cases Crdsa.finishRx true lost F r.st f with
      | ub e => exact ⟨_, rfl, by simp⟩
      | abort => exact ⟨_, rfl, by simp⟩
      | assertFail => exact ⟨_, rfl, by simp⟩
      | ok x =>
        refine ⟨_, rfl, fun r' e => ?_⟩
        simp only [Outcome.ok.injEq] at e
        subst e
        exact ⟨h.1, h.2⟩

/-- The clock is never ahead of what is scheduled. -/
structure OnTime (net : Net D G V W P R) (clock : R → Nat) (s : Sys D G W R) : Prop where
  ahead : due net s s.clock
  stations : ∀ g, (s.stations g).clock ≤ s.clock
  receivers : ∀ d, clock (s.sats d) ≤ s.clock
  sorted : ∀ d, (net.rx.due (s.sats d)).Pairwise (· ≤ ·)
  flying : s.flying.Pairwise (fun x y => x.1 ≤ y.1)

section
variable {hasOrbit : D → Bool} {cid n m : Nat} {hist : List (Nat × Nat × D)} {as : List SatAddress} {k : Constellation D}
  {w : World D G W} {wait : G → Nat → Nat → Nat}

omit [Fintype G] [Fintype D] [DecidableEq G] [DecidableEq D] in
theorem scheduleStarts_ahead (now : Nat) (x : Entry W) (ds : List Nat) (l : List (Nat × GroundSta.Ev W))
    (hs : l.Pairwise (fun a b => a.1 ≤ b.1)) (h : ∀ e ∈ l, now ≤ e.1) :
    (GroundSta.scheduleStarts now x ds l).Pairwise (fun a b => a.1 ≤ b.1) ∧ ∀ e ∈ GroundSta.scheduleStarts now x ds l, now ≤ e.1 := by
  unfold GroundSta.scheduleStarts
  induction ds generalizing l with
  | nil => exact ⟨hs, h⟩
  | cons d ds ih =>
    rw [List.foldl_cons]
    refine ih _ (sorted_insertEvent hs) ?_
    intro e he
    rcases mem_insertEvent.mp he with rfl | he
    · simp
    · exact h e he

omit [Fintype G] [Fintype D] [DecidableEq G] [DecidableEq D] in
/-- The events of a station are in order, and none is in the past. -/
theorem station_ahead {debug : Bool} {mac : GroundSta.Mac} {accept : List (Entry W) → Entry W → Bool} {remote : SatAddress} {power : W}
    {ops : List (GroundSta.Op W)} {s : GroundSta.Sys W} (h : GroundSta.exec debug mac accept remote power ops = some (.ok s)) :
    s.events.Pairwise (fun a b => a.1 ≤ b.1) ∧ ∀ e ∈ s.events, s.clock ≤ e.1 := by
  have hair : ∀ (s : GroundSta.Sys W) (t : Nat) (x : Entry W), s.events.Pairwise (fun a b => a.1 ≤ b.1) → (∀ e ∈ s.events, t ≤ e.1) →
      (GroundSta.air s t x).events.Pairwise (fun a b => a.1 ≤ b.1) ∧ ∀ e ∈ (GroundSta.air s t x).events, t ≤ e.1 := by
    intro s t x h1 h2
    refine ⟨sorted_insertEvent h1, fun e he => ?_⟩
    rcases mem_insertEvent.mp he with rfl | he
    · simp
    · exact h2 e he
  have hsend : ∀ (s : GroundSta.Sys W) (t : Nat) (x : Entry W), s.events.Pairwise (fun a b => a.1 ≤ b.1) → (∀ e ∈ s.events, t ≤ e.1) →
      (GroundSta.macSend mac s t x).events.Pairwise (fun a b => a.1 ≤ b.1) ∧ ∀ e ∈ (GroundSta.macSend mac s t x).events, t ≤ e.1 := by
    intro s t x h1 h2
    unfold GroundSta.macSend
    split
    · exact hair _ t x h1 h2
    · exact scheduleStarts_ahead t x _ _ h1 h2
  have hclock : ∀ (s : GroundSta.Sys W) (t : Nat) (x : Entry W), (GroundSta.macSend mac s t x).clock = s.clock := by
    intro s t x
    unfold GroundSta.macSend
    split <;> rfl
  refine run_induction (P := fun _ s => s.events.Pairwise (fun a b => a.1 ≤ b.1) ∧ ∀ e ∈ s.events, s.clock ≤ e.1)
    (by simp [GroundSta.Sys.init]) ?_ h
  rintro ops o s s' - ⟨h1, h2⟩ hst
  cases o with
  | setRemote t a => obtain ⟨hp, rfl⟩ := GroundSta.step_setRemote.mp hst; exact ⟨h1, hp.2⟩
  | setPower t a => obtain ⟨hp, rfl⟩ := GroundSta.step_setPower.mp hst; exact ⟨h1, hp.2⟩
  | send t pkt len proto =>
    obtain ⟨hp, hst⟩ := GroundSta.step_send.mp hst
    unfold GroundSta.send at hst
    simp only at hst
    split at hst
    · simp only [Outcome.ok.injEq] at hst; subst hst; exact ⟨h1, hp.2⟩
    · split at hst
      · simp only [Outcome.ok.injEq] at hst; subst hst; exact ⟨h1, hp.2⟩
      · obtain ⟨x, rest, -, rfl⟩ := GroundSta.transmitStart_eq hst
        obtain ⟨a1, a2⟩ := hsend { s with clock := t, busy := true, queue := rest, accepted := s.accepted ++ [_] } t x h1 hp.2
        rw [hclock]
        exact ⟨a1, a2⟩
  | run =>
    simp only [GroundSta.step] at hst
    split at hst
    · simp at hst
    · rename_i t x es hev
      simp only [Option.some.injEq, Outcome.ok.injEq] at hst
      subst hst
      rw [hev, List.pairwise_cons] at h1
      exact hair { s with clock := t, events := es } t x h1.2 h1.1
    · rename_i t x es hev
      simp only [Option.some.injEq] at hst
      rw [hev, List.pairwise_cons] at h1
      unfold GroundSta.transmitComplete at hst
      simp only at hst
      split at hst
      · simp only [Outcome.ok.injEq] at hst
        subst hst
        exact ⟨h1.2, h1.1⟩
      · obtain ⟨y, rest, -, rfl⟩ := GroundSta.transmitStart_eq hst
        rw [hclock]
        exact hsend _ t y h1.2 h1.1

theorem onTime {net : Net D G V W P R} {clock : R → Nat} (ho : Orderly net.rx clock)
    (hb : Built net.endian hasOrbit cid n m hist as k) (hfit : Fits16 cid n m)
    (hk : net.chan.constellation = some k) (hsky : Sky net w) {ops : List (Op D G W)}
    (hl : Launched net hist as ops) {s : Sys D G W R} (h : exec net ops = some (.ok s)) : OnTime net clock s := by
  induction ops using List.reverseRecOn generalizing s with
  | nil =>
    simp only [exec, runFrom, Option.some.injEq, Outcome.ok.injEq] at h
    subst h
    refine ⟨⟨Nat.le_refl _, ?_, ?_, ?_⟩, fun g => Nat.le_refl _, fun d => ?_, fun d => ?_, ?_⟩
    · intro g e he; simp [Sys.init, GroundSta.Sys.init] at he
    · intro e he; simp [Sys.init] at he
    · intro d u hu; simp [Sys.init, ho.init.2] at hu
    · simp [Sys.init, ho.init.1]
    · simp [Sys.init, ho.init.2]
    · simp [Sys.init]
  | append_singleton os o ih =>
    have hall := h
    unfold exec at h
    obtain ⟨s1, h1, h2⟩ := runFrom_snoc.mp h
    have ht := ih hl.left h1
    obtain ⟨hd0, hd1, hd2, hd3, hd4⟩ := ht
    cases o with
    | station g o =>
      obtain ⟨t, st, a, k1, k2, k3, k4, rfl⟩ := step_station h2
      obtain ⟨new, n1, n2, n3⟩ := aired_grows k1 k3
      have hst := C55_station hall g
      simp only [Function.update_self] at hst
      have hph := (station_ahead hst).2
      have hdrop : st.aired.drop (s1.stations g).aired.length = new := by rw [← n1]; simp
      have hnewok : ∀ y ∈ new, (target hist as y.2.dst).isSome := by
        intro y hy
        have hy2 : y ∈ st.aired := by rw [← n1]; simp [hy]
        obtain ⟨z, hz, hz2⟩ := List.mem_map.mp (aired_accepted hst hy2)
        have hz3 := (C34_accepted_or_dropped hst).2.subset hz
        have hz4 := requests_dst _ _ _ z hz3
        rw [← hz2]
        refine hl g _ ?_
        rw [List.mem_cons]
        exact hz4
      obtain ⟨a', h3, h4, -, h6⟩ := transmitAll_lands (net := net) hb hfit hk hsky g new hnewok (s1.flying, s1.dropped)
      rw [hdrop, h3] at k4
      simp only [Outcome.ok.injEq] at k4
      subst k4
      obtain ⟨e1, e2, e3, e4⟩ := k2
      refine ⟨⟨Nat.le_refl _, ?_, ?_, e4⟩, ?_, ?_, hd3, h6 hd4⟩
      · intro g' e he
        simp only at he ⊢
        by_cases hg : g' = g
        · subst hg
          rw [Function.update_self] at he
          rw [← n3]
          exact hph e he
        · rw [Function.update_of_ne hg] at he
          exact e2 g' e he
      · intro e he
        have := h4.subset he
        simp only [List.mem_append] at this
        rcases this with h' | h'
        · exact e3 e h'
        · obtain ⟨y, hy, hy2⟩ := List.mem_filterMap.mp h'
          have := n2 y hy
          unfold lands at hy2
          split at hy2
          · simp at hy2
          · split at hy2
            · simp only [Option.some.injEq] at hy2
              rw [← hy2]
              simp only
              omega
            · simp at hy2
      · intro g'
        simp only
        by_cases hg : g' = g
        · subst hg; rw [Function.update_self]; omega
        · rw [Function.update_of_ne hg]; have := hd1 g'; omega
      · intro d; have := hd2 d; simp only; omega
    | arrive =>
      obtain ⟨t, d, f, rest, r, k1, k2, k3, rfl⟩ := step_arrive h2
      obtain ⟨e1, e2, e3, e4⟩ := k2
      obtain ⟨c1, c2, c3⟩ := ho.arrived _ _ _ k3 (hd3 d)
      have hs := hd4
      rw [k1, List.pairwise_cons] at hs
      refine ⟨⟨Nat.le_refl _, e2, ?_, ?_⟩, ?_, ?_, ?_, hs.2⟩
      · intro e he; exact e3 e (by rw [k1]; exact List.mem_cons_of_mem _ he)
      · intro d' u hu
        simp only at hu ⊢
        by_cases hd : d' = d
        · subst hd
          rw [Function.update_self] at hu
          rcases c2 u hu with h' | h'
          · exact e4 _ u h'
          · exact h'
        · rw [Function.update_of_ne hd] at hu
          exact e4 _ u hu
      · intro g; have := hd1 g; simp only; omega
      · intro d'
        simp only
        by_cases hd : d' = d
        · subst hd; rw [Function.update_self]; simp only at c1; omega
        · rw [Function.update_of_ne hd]; have := hd2 d'; omega
      · intro d'
        simp only
        by_cases hd : d' = d
        · subst hd; rw [Function.update_self]; exact c3
        · rw [Function.update_of_ne hd]; exact hd3 d'
    | finish d =>
      obtain ⟨t, ts, r, k1, k2, k3, rfl⟩ := step_finish h2
      obtain ⟨e1, e2, e3, e4⟩ := k2
      obtain ⟨x, c1, c2⟩ := ho.finish _ _ _ k1
      rw [k3] at c1
      simp only [Option.some.injEq] at c1
      obtain ⟨c2, c3⟩ := c2 r c1.symm
      refine ⟨⟨Nat.le_refl _, e2, e3, ?_⟩, ?_, ?_, ?_, hd4⟩
      · intro d' u hu
        simp only at hu ⊢
        by_cases hd : d' = d
        · subst hd
          rw [Function.update_self, c3] at hu
          exact e4 _ u (by rw [k1]; exact List.mem_cons_of_mem _ hu)
        · rw [Function.update_of_ne hd] at hu
          exact e4 _ u hu
      · intro g; have := hd1 g; simp only; omega
      · intro d'
        simp only
        by_cases hd : d' = d
        · subst hd; rw [Function.update_self]; omega
        · rw [Function.update_of_ne hd]; have := hd2 d'; omega
      · intro d'
        simp only
        by_cases hd : d' = d
        · subst hd
          rw [Function.update_self, c3]
          have := hd3 d'
          rw [k1, List.pairwise_cons] at this
          exact this.2
        · rw [Function.update_of_ne hd]; exact hd3 d'

/-- Executions never get stuck: as long as anything is scheduled the simulator can run a scheduled event, and at any time up to the next event,
every station can be called. -/
theorem C55_progress {net : Net D G V W P R} {clock : R → Nat} (ho : Orderly net.rx clock)
    (hb : Built net.endian hasOrbit cid n m hist as k) (hfit : Fits16 cid n m)
    (hk : net.chan.constellation = some k) (hsky : Sky net w) {ops : List (Op D G W)}
    (hl : Launched net hist as ops) {s : Sys D G W R} (h : exec net ops = some (.ok s)) :
    (¬ Quiet net s → ∃ o, o.internal = true ∧ ∃ r, step net s o = some r) ∧
    ∀ t, due net s t → ∀ g pkt len proto, ∃ r, step net s (.station g (.send t pkt len proto)) = some r := by
  obtain ⟨⟨-, a1, a2, a3⟩, b1, b2, b3, b4⟩ := onTime ho hb hfit hk hsky hl h
  constructor
  · intro hq
    classical
    -- the earliest time at which something is scheduled
    let E : Nat → Prop := fun t => (∃ g, ∃ e ∈ (s.stations g).events, e.1 = t) ∨ (∃ e ∈ s.flying, e.1 = t) ∨ ∃ d, t ∈ net.rx.due (s.sats d)
    have hex : ∃ t, E t := by
      by_contra hno
      push Not at hno
      apply hq
      refine ⟨fun g => ?_, ?_, fun d => ?_⟩
      · rw [List.eq_nil_iff_forall_not_mem]
        exact fun e he => hno e.1 (Or.inl ⟨g, e, he, rfl⟩)
      · rw [List.eq_nil_iff_forall_not_mem]
        exact fun e he => hno e.1 (Or.inr (Or.inl ⟨e, he, rfl⟩))
      · rw [List.eq_nil_iff_forall_not_mem]
        exact fun e he => hno e (Or.inr (Or.inr ⟨d, he⟩))
    obtain ⟨t, ht, hmin⟩ : ∃ t, E t ∧ ∀ u, E u → t ≤ u := ⟨Nat.find hex, Nat.find_spec hex, fun u hu => Nat.find_min' hex hu⟩
    have hclock : s.clock ≤ t := by
      rcases ht with ⟨g, e, he, rfl⟩ | ⟨e, he, rfl⟩ | ⟨d, hd⟩
      · exact a1 g e he
      · exact a2 e he
      · exact a3 d t hd
    have hdue : due net s t :=
      ⟨hclock, fun g e he => hmin _ (Or.inl ⟨g, e, he, rfl⟩), fun e he => hmin _ (Or.inr (Or.inl ⟨e, he, rfl⟩)),
        fun d u hu => hmin _ (Or.inr (Or.inr ⟨d, hu⟩))⟩
    rcases ht with ⟨g, e, he, rfl⟩ | ⟨e, he, rfl⟩ | ⟨d, hd⟩
    · obtain ⟨e1, -⟩ := station_ahead (C55_station h g)
      cases hev : (s.stations g).events with
      | nil => rw [hev] at he; simp at he
      | cons x es =>
        have hx : x.1 = e.1 := by
          refine Nat.le_antisymm ?_ (hdue.2.1 g x (by rw [hev]; simp))
          rw [hev, List.mem_cons] at he
          rcases he with rfl | he
          · exact Nat.le_refl _
          · rw [hev, List.pairwise_cons] at e1
            exact e1.1 e he
        refine ⟨.station g .run, rfl, ?_⟩
        obtain ⟨t, x⟩ := x
        simp only at hx
        subst hx
        simp only [step, opTime, hev, List.head?_cons, Option.map_some, if_pos hdue, GroundSta.step]
        cases x <;> exact ⟨_, rfl⟩
    · cases hf : s.flying with
      | nil => simp [hf] at he
      | cons y rest =>
        obtain ⟨t', d, f⟩ := y
        have htt : t' = e.1 := by
          have h1 : e.1 ≤ t' := hdue.2.2.1 (t', d, f) (by rw [hf]; simp)
          rw [hf] at he b4
          rw [List.pairwise_cons] at b4
          simp only [List.mem_cons] at he
          rcases he with rfl | he
          · rfl
          · have := b4.1 e he; simp only at this; omega
        subst htt
        obtain ⟨r', hr'⟩ := ho.arrive (s.sats d) ⟨net.rx.key s.heard.length f.pkt, e.1, f.len, net.toP f.power⟩ (by have := b2 d; simp only; omega)
          (fun u hu => hdue.2.2.2 d u hu)
        refine ⟨.arrive, rfl, ?_⟩
        simp only [step, hf, if_pos hdue, hr']
        exact ⟨_, rfl⟩
    · cases hf : net.rx.due (s.sats d) with
      | nil => simp [hf] at hd
      | cons t' ts =>
        have htt : t' = t := by
          have h1 : t ≤ t' := hdue.2.2.2 d t' (by rw [hf]; simp)
          have h3 := b3 d
          rw [hf] at hd h3
          rw [List.pairwise_cons] at h3
          simp only [List.mem_cons] at hd
          rcases hd with rfl | hd
          · rfl
          · have := h3.1 t hd; omega
        subst htt
        obtain ⟨r', hr', -⟩ := ho.finish _ _ _ hf
        refine ⟨.finish d, rfl, ?_⟩
        simp only [step, hf, if_pos hdue, hr']
        exact ⟨_, rfl⟩
  · intro t ht g pkt len proto
    have hp : GroundSta.possible (s.stations g) t := ⟨Nat.le_trans (b1 g) ht.1, ht.2.1 g⟩
    simp only [step, opTime, if_pos ht, GroundSta.step, if_pos hp]
    exact ⟨_, rfl⟩

end

/-! ## Satellites with Aloha receivers (C58) -/

theorem aloha_run [Zero P] [Add P] (lost : P → P → Bool) (r : Aloha.Sys P) (os : List (Aloha.Op P)) :
    runFrom (alohaReceiver lost).step r os = (Aloha.execFrom true lost r os).map .ok := by
  induction os generalizing r with
  | nil => rfl
  | cons o os ih =>
    simp only [runFrom, Aloha.execFrom]
    simp only [alohaReceiver] at ih ⊢
    cases Aloha.step true lost r o with
    | none => rfl
    | some r' => exact ih r'

/-- Two receptions at the same satellite overlap in time. -/
def Clash (y z : Nat × D × Flight W) : Prop := y.2.1 = z.2.1 ∧ y.1 < z.1 + z.2.2.len ∧ z.1 < y.1 + y.2.2.len

instance (y z : Nat × D × Flight W) : Decidable (Clash y z) := by unfold Clash; infer_instance

/-- What satellite `d` passes up when it loses exactly the frames that overlap others. -/
def undisturbed (d : D) (heard : List (Nat × D × Flight W)) : List (Nat × Flight W) :=
  heard.zipIdx.filterMap (fun y => if y.1.2.1 = d ∧ ∀ z ∈ heard.zipIdx, z.2 ≠ y.2 → ¬ Clash y.1 z.1 then
    some (y.1.1 + y.1.2.2.len, y.1.2.2) else none)

omit [Fintype G] [Fintype D] [DecidableEq G] in
theorem framesAt_uids (net : Net D G V W P R) (hkey : ∀ i u, net.rx.key i u = i) (d : D) (heard : List (Nat × D × Flight W)) :
    ((framesAt net d heard).map Aloha.Frame.uid).Nodup := by
  have : ((framesAt net d heard).map Aloha.Frame.uid).Sublist (heard.zipIdx.map Prod.snd) := by
    unfold framesAt
    generalize heard.zipIdx = l
    induction l with
    | nil => simp
    | cons y l ih =>
      simp only [List.filterMap_cons, List.map_cons]
      split
      · exact ih.cons _
      · rename_i f hf
        split at hf
        · simp only [Option.some.injEq] at hf
          subst hf
          rw [hkey]
          exact ih.cons_cons _
        · simp at hf
  refine this.nodup ?_
  rw [List.zipIdx_map_snd]
  exact List.nodup_range'

omit [Fintype G] [Fintype D] [DecidableEq G] in
theorem mem_framesAt {net : Net D G V W P R} {d : D} {heard : List (Nat × D × Flight W)} {f : Aloha.Frame P} :
    f ∈ framesAt net d heard ↔ ∃ y ∈ heard.zipIdx, y.1.2.1 = d ∧ f = ⟨net.rx.key y.2 y.1.2.2.pkt, y.1.1, y.1.2.2.len, net.toP y.1.2.2.power⟩ := by
  unfold framesAt
  rw [List.mem_filterMap]
  constructor
  · rintro ⟨y, hy, h⟩
    split at h
    · rename_i hd
      simp only [Option.some.injEq] at h
      exact ⟨y, hy, hd, h.symm⟩
    · simp at h
  · rintro ⟨y, hy, hd, rfl⟩
    exact ⟨y, hy, by rw [if_pos hd]⟩

omit [Fintype G] [Fintype D] [DecidableEq G] in
theorem filter_lookup (net : Net D G V W P R) (hkey : ∀ i u, net.rx.key i u = i) (d : D) (heard : List (Nat × D × Flight W)) (Q : Aloha.Frame P → Bool)
    (C : (Nat × D × Flight W) × Nat → Prop) [DecidablePred C]
    (h : ∀ y ∈ heard.zipIdx, y.1.2.1 = d → (Q ⟨y.2, y.1.1, y.1.2.2.len, net.toP y.1.2.2.power⟩ = true ↔ C y)) :
    ((framesAt net d heard).filter Q).filterMap ((fun y : Nat × Nat => (heard[y.2]?).map (fun h => (y.1, h.2.2))) ∘ fun f => (f.fin, f.uid)) =
      heard.zipIdx.filterMap (fun y => if y.1.2.1 = d ∧ C y then some (y.1.1 + y.1.2.2.len, y.1.2.2) else none) := by
  unfold framesAt
  simp only [hkey]
  rw [List.filter_filterMap, List.filterMap_filterMap]
  refine List.filterMap_congr (fun y hy => ?_)
  have hy2 : heard[y.2]? = some y.1 := by
    have := List.mem_zipIdx' hy
    rw [List.getElem?_eq_getElem this.1, ← this.2]
  by_cases hd : y.1.2.1 = d
  · have := h y hy hd
    by_cases hc : C y
    · rw [if_pos hd, if_pos ⟨hd, hc⟩]
      rw [Option.filter_some_pos (this.mpr hc)]
      simp [hy2, Aloha.Frame.fin]
    · rw [if_pos hd, if_neg (fun hh => hc hh.2)]
      have hq : Q ⟨y.2, y.1.1, y.1.2.2.len, net.toP y.1.2.2.power⟩ = false := by
        rw [← Bool.not_eq_true]; exact fun hh => hc (this.mp hh)
      simp [hq]
  · rw [if_neg hd, if_neg (fun hh => hd hh.1)]
    simp

section
variable {hasOrbit : D → Bool} {cid n m : Nat} {hist : List (Nat × Nat × D)} {as : List SatAddress} {k : Constellation D}
  {w : World D G W} {wait : G → Nat → Nat → Nat} [Zero P] [Add P]

omit [Fintype G] [Fintype D] [DecidableEq G] in
/-- A receiver that runs the end of a reception before a start of the same instant passes up exactly the undisturbed frames. -/
theorem passedUp_undisturbed {net : Net D G V W P (Aloha.Sys P)} {lost : P → P → Bool} (hrx : net.rx = alohaReceiver lost)
    {Q : P → Prop} (hlost : Aloha.Drops lost Q) {s : Sys D G W (Aloha.Sys P)} {d : D} {rops : List (Aloha.Op P)}
    (h1 : Aloha.exec false lost rops = some (s.sats d)) (h2 : Aloha.frames rops = framesAt net d s.heard)
    (hlen : ∀ y ∈ s.heard, 0 < y.2.2.len) (hpow : ∀ y ∈ s.heard, Q (net.toP y.2.2.power)) (hpend : (s.sats d).pending = []) :
    (passedUp net s d).Perm (undisturbed d s.heard) := by
  have hkey : ∀ i u, net.rx.key i u = i := by rw [hrx]; exact fun _ _ => rfl
  have hmem : ∀ f ∈ framesAt net d s.heard, ∃ y ∈ s.heard, y.2.1 = d ∧ f.start = y.1 ∧ f.dur = y.2.2.len ∧ f.pow = net.toP y.2.2.power := by
    intro f hf
    obtain ⟨y, hy, hd, rfl⟩ := mem_framesAt.mp hf
    exact ⟨y.1, (List.mem_zipIdx' hy).2 ▸ List.getElem_mem _, hd, rfl, rfl, rfl⟩
  obtain ⟨d1, d2, d3⟩ := C18_ends_first_partial hlost h1 (by rw [h2]; exact framesAt_uids net hkey d s.heard)
    (by rw [h2]; intro f hf; obtain ⟨y, hy, -, -, hdur, -⟩ := hmem f hf; rw [hdur]; exact hlen y hy)
    (by rw [h2]; intro f hf; obtain ⟨y, hy, -, -, -, hp⟩ := hmem f hf; rw [hp]; exact hpow y hy) hpend
  rw [h2] at d1 d3
  have hperm : (s.sats d).delivered.Perm (((framesAt net d s.heard).filter (fun f =>
      decide (∀ g ∈ framesAt net d s.heard, g.uid ≠ f.uid → ¬ Aloha.Overlap f g))).map (fun f => (f.fin, f.uid))) := by
    rw [List.perm_ext_iff_of_nodup (d2.of_map _)]
    · intro x
      simp only [List.mem_map, List.mem_filter, decide_eq_true_eq]
      constructor
      · intro hx
        obtain ⟨f, hf, rfl⟩ := d3 x hx
        exact ⟨f, ⟨hf, (d1 f hf).mp hx⟩, rfl⟩
      · rintro ⟨f, ⟨hf, hi⟩, rfl⟩
        exact (d1 f hf).mpr hi
    · have hn := framesAt_uids net hkey d s.heard
      refine List.Nodup.of_map Prod.snd ?_
      rw [List.map_map]
      exact ((List.filter_sublist).map _).nodup hn
  have h5 : passedUp net s d = (s.sats d).delivered.filterMap (fun y => (s.heard[y.2]?).map (fun h => (y.1, h.2.2))) := by
    unfold passedUp; rw [hrx]; rfl
  rw [h5]
  refine (hperm.filterMap _).trans (List.Perm.of_eq ?_)
  rw [List.filterMap_map]
  have hiso : ∀ y ∈ s.heard.zipIdx, y.1.2.1 = d →
      ((∀ g ∈ framesAt net d s.heard, g.uid ≠ y.2 → ¬ Aloha.Overlap ⟨y.2, y.1.1, y.1.2.2.len, net.toP y.1.2.2.power⟩ g) ↔
        ∀ z ∈ s.heard.zipIdx, z.2 ≠ y.2 → ¬ Clash y.1 z.1) := by
    intro y hy hd
    constructor
    · intro hg z hz hzy hc
      exact hg _ (mem_framesAt.mpr ⟨z, hz, hc.1.symm.trans hd, rfl⟩) (by rw [hkey]; exact hzy) ⟨hc.2.1, hc.2.2⟩
    · intro hz g hg hgy ho
      obtain ⟨z, hz1, hz2, rfl⟩ := mem_framesAt.mp hg
      rw [hkey] at hgy
      exact hz z hz1 hgy ⟨hd.trans hz2.symm, ho.1, ho.2⟩
  exact filter_lookup net hkey d s.heard _ _ (fun y hy hd => by rw [decide_eq_true_iff]; exact hiso y hy hd)

/-- Satellites with the Aloha MAC whose threshold prevents capture (`Drops`).  When nothing is scheduled any
more, exactly the frames sent by the stations that are let through have been heard, and each satellite has passed up exactly
those of them that overlap no other frame heard by it, each once, at its end.  Partial: no frame starts at the very instant another ends
at the same satellite (see `C18_claim_false`). -/
theorem C58_aloha_uplink_partial {net : Net D G V W P (Aloha.Sys P)} {lost : P → P → Bool} (hrx : net.rx = alohaReceiver lost)
    {Q : P → Prop} (hlost : Aloha.Drops lost Q)
    (hb : Built net.endian hasOrbit cid n m hist as k) (hfit : Fits16 cid n m)
    (hk : net.chan.constellation = some k) (hsky : Sky net w) (hm : ∀ g, Once (net.mac g) (wait g)) {ops : List (Op D G W)}
    (hl : Launched net hist as ops) {r : Outcome (Sys D G W (Aloha.Sys P))} (h : exec net ops = some r) :
    ∃ s, r = .ok s ∧ (Quiet net s →
      ((s.heard : Multiset (Nat × D × Flight W)) = ∑ g, (((Fifo.serve Entry.len (wait g) 0 0 (s.stations g).accepted).filterMap
        (lands net.addr w (target hist as) g) : List _) : Multiset (Nat × D × Flight W))) ∧
      ((∀ y ∈ s.heard, 0 < y.2.2.len) → (∀ y ∈ s.heard, Q (net.toP y.2.2.power)) → (∀ y ∈ s.heard, ∀ z ∈ s.heard, y.2.1 = z.2.1 → y.1 ≠ z.1 + z.2.2.len) →
        ∀ d, (passedUp net s d).Perm (undisturbed d s.heard))) := by
  have hkey : ∀ i u, net.rx.key i u = i := by rw [hrx]; exact fun _ _ => rfl
  obtain ⟨s, rfl, hacc⟩ := run_ok (by rw [hrx]; exact safe_map rfl) hb hfit hk hsky hl h
  refine ⟨s, rfl, ?_⟩
  rintro ⟨q1, q2, q3⟩
  constructor
  · have h1 := hacc.flights
    rw [q2] at h1
    simp only [Multiset.coe_nil, add_zero] at h1
    rw [h1]
    refine Finset.sum_congr rfl (fun g _ => ?_)
    obtain ⟨s', h1, -, h3, -⟩ := C34_refines (hm g) (C55_station h g)
    simp only [Outcome.ok.injEq] at h1
    subst h1
    rw [h3 (q1 g)]
  intro hlen hpow hne d
  obtain ⟨rops, h1, h2⟩ := C55_receiver h d
  rw [hrx, aloha_run, Option.map_eq_some_iff] at h1
  obtain ⟨r1, h1, e⟩ := h1
  simp only [Outcome.ok.injEq] at e
  subst e
  have hpend : (s.sats d).pending = [] := by
    have := q3 d
    rw [hrx] at this
    exact List.map_eq_nil_iff.mp this
  refine passedUp_undisturbed hrx hlost (exec_no_coincidence h1 ?_ ?_) h2 hlen hpow hpend
  · rw [h2]; exact framesAt_uids net hkey d s.heard
  · rw [h2]
    intro f hf g hg
    obtain ⟨y, hy, e1, rfl⟩ := mem_framesAt.mp hf
    obtain ⟨z, hz, e2, rfl⟩ := mem_framesAt.mp hg
    exact hne y.1 ((List.mem_zipIdx' hy).2 ▸ List.getElem_mem _) z.1 ((List.mem_zipIdx' hz).2 ▸ List.getElem_mem _) (e1.trans e2.symm)

end

/-! ## Example -/

/-- Two satellites in one plane, two stations. -/
def exConstellation : Constellation (Fin 2) :=
  { constellationId := 1, nPlanes := 1, planeSize := 2, planes := [[some 0, some 1]], size := 2 }

theorem exBuilt : Built .little (fun _ => true) 1 1 2 [(0, 1, (1 : Fin 2)), (0, 0, 0)]
    [SatAddress.mk3 .little 1 0 1, SatAddress.mk3 .little 1 0 0] exConstellation := by unfold Built; decide

/-- Delay 3 to satellite 0 and 5 to satellite 1; station 1 is never heard by satellite 1. -/
def exWorld : World (Fin 2) (Fin 2) Int :=
  ⟨fun _ _ d => 3 + 2 * d.val, fun _ _ _ p => p - 10, fun _ g d => !(g == 1 && d == 1)⟩

def exAir : Air (Fin 2) (Fin 2) Nat Int :=
  ⟨fun g => some g.val, fun d => some d.val, some (fun _ ps => 3 + 2 * ps), some (fun p _ _ => p - 10), some (fun g d => .ok (!(g == 1 && d == 1)))⟩

def exNet {R : Type} (rx : Receiver Int R) : Net (Fin 2) (Fin 2) Nat Int Int R :=
  ⟨true, .little, ⟨some exConstellation, [0, 1]⟩, fun _ => exAir, fun g => ⟨1, [UInt8.ofNat g.val]⟩, fun _ => noneMac, fun _ _ _ => true,
    fun _ => SatAddress.mk3 .little 1 0 0, fun _ => 30, rx, fun p => p.natAbs + 1⟩

theorem exSky {R : Type} (rx : Receiver Int R) : Sky (exNet rx) exWorld :=
  fun _ g d => ⟨g.val, d.val, fun _ ps => 3 + 2 * ps, fun p _ _ => p - 10, ⟨rfl, rfl, rfl, rfl⟩, rfl, fun _ => rfl,
    Or.inr ⟨_, rfl, rfl⟩⟩

/-- Both stations send to satellite 0, then both track satellite 1 and send again; the last frame is stopped by the success model. -/
def exOps : List (Op (Fin 2) (Fin 2) Int) :=
  [.station 0 (.send 0 11 10 7), .station 1 (.send 1 12 10 8), .arrive, .arrive, .station 0 (.setRemote 5 (SatAddress.mk3 .little 1 0 1)),
   .station 1 (.setRemote 5 (SatAddress.mk3 .little 1 0 1)), .station 0 (.send 6 13 10 7), .station 1 (.send 6 14 10 8),
   .station 0 .run, .station 1 .run, .finish 0, .finish 0, .arrive, .station 0 .run, .station 1 .run, .finish 1]

example : Launched (exNet (noneReceiver Int)) [(0, 1, (1 : Fin 2)), (0, 0, 0)] [SatAddress.mk3 .little 1 0 1, SatAddress.mk3 .little 1 0 0] exOps := by
  unfold Launched; decide

example : ∃ s, exec (exNet (noneReceiver Int)) exOps = some (.ok s) ∧ Quiet (exNet (noneReceiver Int)) s ∧
    (passedUp (exNet (noneReceiver Int)) s 0).map (fun y => (y.1, y.2.pkt, y.2.proto)) = [(13, 11, 7), (14, 12, 8)] ∧
    (passedUp (exNet (noneReceiver Int)) s 1).map (fun y => (y.1, y.2.pkt, y.2.proto)) = [(25, 13, 7)] ∧ s.dropped = [(11, 14)] := by
  refine ⟨_, rfl, ?_⟩; unfold Quiet; decide

example (p : Int) : 0 < (exNet (alohaReceiver intLost)).toP p := by simp only [exNet]; omega

/-- With Aloha receivers the first two frames destroy each other. -/
example : ∃ s, exec (exNet (alohaReceiver intLost)) exOps = some (.ok s) ∧ Quiet (exNet (alohaReceiver intLost)) s ∧
    passedUp (exNet (alohaReceiver intLost)) s 0 = [] ∧
    (passedUp (exNet (alohaReceiver intLost)) s 1).map (fun y => (y.1, y.2.pkt, y.2.proto)) = [(25, 13, 7)] ∧
    (∀ y ∈ s.heard, 0 < y.2.2.len) ∧ (∀ y ∈ s.heard, ∀ z ∈ s.heard, y.2.1 = z.2.1 → y.1 ≠ z.1 + z.2.2.len) := by
  refine ⟨_, rfl, ?_⟩; unfold Quiet; decide

end Uplink
end Icarus
