import Verif.Model.IslNet
import Verif.Model.Isl
import Verif.Lemmas.Multi
import Verif.Props.SatNetDevice
import Verif.Props.Sat2SatChannel
import Verif.Props.Isl
import Mathlib.Algebra.Order.Group.Multiset

/-!
# Inter-satellite links, end to end (C60)
-/

set_option autoImplicit false

namespace Icarus
namespace IslNet
open Sat2SatChannel
open SatNet (Entry)

variable {D : Type}

/-! ## Specification -/

/-- Propagation delay between two devices at a given time and whether the success model lets a frame through. -/
structure World (D : Type) where
  delay : Nat → D → D → Nat
  admit : Nat → D → D → Bool

/-- The models exist and behave as described by `w`. -/
def Sky (net : Net D) (w : World D) : Prop :=
  ∀ t, net.delay t = some (w.delay t) ∧ ((net.success t = none ∧ ∀ d e, w.admit t d e = true) ∨
    ∃ m, net.success t = some m ∧ ∀ d e, m d e = .ok (w.admit t d e))

/-- Every device is one of two different devices attached to its channel, `peer` being the other one. -/
def Wired [DecidableEq D] (net : Net D) (peer : D → D) : Prop :=
  ∀ d, ∃ debug env a b, a ≠ b ∧ attachAll debug env Chan.init [a, b] = .ok (net.chan d) ∧ (d = a ∧ peer d = b ∨ d = b ∧ peer d = a)

/-- When and how a frame sent by `d` (time and packet, protocol number) arrives at the other end, if it does. -/
def lands (w : World D) (peer : D → D) (d : D) (y : (Nat × Entry) × UInt16) : Option (Nat × D × Frame) :=
  if w.admit y.1.1 d (peer d) then some (y.1.1 + w.delay y.1.1 d (peer d), peer d, ⟨y.1.2.pkt, y.1.2.len, y.2⟩) else none

/-- The report on the channel's drop trace, if there is one. -/
def lost (w : World D) (peer : D → D) (d : D) (y : (Nat × Entry) × UInt16) : Option (Nat × D × Nat) :=
  if w.admit y.1.1 d (peer d) then none else some (y.1.1, d, y.1.2.pkt)

/-- When, and with which arguments, the other end passes up a frame sent by `d`: if the success model lets it through, then at the start of
transmission plus propagation delay plus transmission time. -/
def receipt (w : World D) (d e : D) (y : (Nat × Entry) × UInt16) : Option (Nat × Nat × UInt16) :=
  if w.admit y.1.1 d e then some (y.1.1 + w.delay y.1.1 d e + y.1.2.len, y.1.2.pkt, y.2) else none

/-- What a device sends of the packets it accepts: first in first out, with the protocol numbers of C40. -/
def schedule (accepted : List (Nat × Entry × Bool)) : List ((Nat × Entry) × UInt16) :=
  (Fifo.serve Entry.len (fun _ _ => 0) 0 0 (accepted.map arrival)).zip (usedProtos 0 accepted)

/-- The operations of one sending side. -/
def opsOf [DecidableEq D] (d : D) (ops : List (Op D)) : List SatNet.Op :=
  ops.filterMap (fun o => match o with | .tx h o => if h = d then some o else none | _ => none)

/-- Nothing is scheduled any more. -/
def Quiet (s : Sys D) : Prop :=
  (∀ d, (s.tx d).events = []) ∧ s.flying = [] ∧ ∀ d, (s.rx d).pending = []

/-! ## Projections -/

/-- What a device has sent, in the form used above. -/
def sent (s : SatNet.Sys) : List ((Nat × Entry) × UInt16) := s.aired.map (fun f => ((f.1, f.2.1), f.2.2))

theorem zip_prefix {A B : Type} {a a' : List A} {b b' : List B} (h1 : a <+: a') (h2 : b <+: b') (hl : a.length = b.length) :
    a.zip b <+: a'.zip b' := by
  obtain ⟨x, rfl⟩ := h1
  obtain ⟨y, rfl⟩ := h2
  rw [List.zip_append hl]
  exact List.prefix_append _ _

theorem sent_eq (s : SatNet.Sys) : sent s = (s.aired.map airing).zip (s.aired.map (fun f => f.2.2)) := by
  unfold sent
  rw [List.zip_map']
  rfl

theorem sent_schedule {debug : Bool} {accept : List Entry → Entry → Bool} {ops : List SatNet.Op} {s : SatNet.Sys}
    (h : SatNet.exec debug accept ops = some (.ok s)) :
    sent s <+: schedule s.accepted ∧ (s.events = [] → sent s = schedule s.accepted) := by
  obtain ⟨s', h1, h2, h3, -⟩ := C39_refines h
  simp only [Outcome.ok.injEq] at h1
  subst h1
  have h4 := (C40_numbers_used h).1
  have hp : sent s <+: schedule s.accepted := by
    rw [sent_eq]
    exact zip_prefix h2 h4 (by simp)
  refine ⟨hp, fun he => hp.eq_of_length ?_⟩
  have h5 := congrArg List.length (h3 he)
  have h6 : (Fifo.serve Entry.len (fun _ _ => 0) 0 0 (s.accepted.map arrival)).length = s.accepted.length := by
    have := congrArg List.length (Fifo.serve_packets (len := Entry.len) (wait := fun _ _ => 0) 0 0 (s.accepted.map arrival))
    simpa using this
  simp only [List.length_map] at h5
  unfold sent schedule
  rw [List.length_map, List.length_zip, usedProtos_length, h5, h6]
  simp

variable [Fintype D] [DecidableEq D]

theorem step_tx {net : Net D} {s s' : Sys D} {d : D} {o : SatNet.Op} (h : step net s (.tx d o) = some (.ok s')) :
    ∃ t st a, opTime (s.tx d) o = some t ∧ due s t ∧ SatNet.step net.debug (net.accept d) (s.tx d) o = some (.ok st) ∧
      transmitAll net d (st.aired.drop (s.tx d).aired.length) (s.flying, s.dropped) = .ok a ∧
      s' = { s with clock := t, tx := Function.update s.tx d st, flying := a.1, dropped := a.2 } := by
  simp only [step] at h
  split at h
  · simp at h
  · rename_i t ht
    split at h
    · rename_i hd
      split at h
      · simp at h
      · rename_i r hr
        simp only [Option.some.injEq] at h
        rw [Outcome.bind_eq_ok] at h
        obtain ⟨st, rfl, h⟩ := h
        rw [Outcome.bind_eq_ok] at h
        obtain ⟨a, ha, h⟩ := h
        simp only [Outcome.ok.injEq] at h
        exact ⟨t, st, a, ht, hd, hr, ha, h.symm⟩
    · simp at h

theorem step_arrive {net : Net D} {s s' : Sys D} (h : step net s .arrive = some (.ok s')) :
    ∃ t d f rest st, s.flying = (t, d, f) :: rest ∧ due s t ∧ SatNet.rxStep (s.rx d) (.arrive t f.pkt f.len f.proto) = some (.ok st) ∧
      s' = { s with clock := t, flying := rest, rx := Function.update s.rx d st, heard := s.heard ++ [(t, d, f)] } := by
  simp only [step] at h
  split at h
  · simp at h
  · rename_i t g f rest hf
    split at h
    · rename_i hd
      split at h
      · simp at h
      · rename_i r hr
        simp only [Option.some.injEq] at h
        rw [Outcome.bind_eq_ok] at h
        obtain ⟨st, rfl, h⟩ := h
        simp only [Outcome.ok.injEq] at h
        exact ⟨t, g, f, rest, st, hf, hd, hr, h.symm⟩
    · simp at h

theorem step_finish {net : Net D} {s s' : Sys D} {d : D} (h : step net s (.finish d) = some (.ok s')) :
    ∃ t u es st, (s.rx d).pending = (t, u) :: es ∧ due s t ∧ SatNet.rxStep (s.rx d) .run = some (.ok st) ∧
      s' = { s with clock := t, rx := Function.update s.rx d st } := by
  simp only [step] at h
  split at h
  · simp at h
  · rename_i t u es hf
    split at h
    · rename_i hd
      split at h
      · simp at h
      · rename_i r hr
        simp only [Option.some.injEq] at h
        rw [Outcome.bind_eq_ok] at h
        obtain ⟨st, rfl, h⟩ := h
        simp only [Outcome.ok.injEq] at h
        exact ⟨t, u, es, st, hf, hd, hr, h.symm⟩
    · simp at h

omit [Fintype D] in
theorem opsOf_append (d : D) (a b : List (Op D)) : opsOf d (a ++ b) = opsOf d a ++ opsOf d b := by
  simp [opsOf]

/-- Every sending side, seen alone, does what the model of a single device does with the calls and events that concern it: C39 and C40 hold for each
device of the network. -/
theorem C60_sender {net : Net D} {ops : List (Op D)} {s : Sys D} (h : exec net ops = some (.ok s)) (d : D) :
    SatNet.exec net.debug (net.accept d) (opsOf d ops) = some (.ok (s.tx d)) := by
  refine run_induction (P := fun ops s => SatNet.exec net.debug (net.accept d) (opsOf d ops) = some (.ok (s.tx d))) rfl ?_ h
  intro ops o s s' _ hp hst
  rw [opsOf_append]
  cases o with
  | tx d' o =>
    obtain ⟨t, st, a, -, -, h3, -, rfl⟩ := step_tx hst
    by_cases hd : d' = d
    · subst hd
      simp only [opsOf, List.filterMap_cons, List.filterMap_nil, if_true, Function.update_self]
      exact runFrom_snoc.mpr ⟨_, hp, h3⟩
    · simp only [opsOf, List.filterMap_cons, List.filterMap_nil, if_neg hd, List.append_nil]
      rw [Function.update_of_ne (Ne.symm hd)]
      exact hp
  | arrive =>
    obtain ⟨t, g, f, rest, st, -, -, -, rfl⟩ := step_arrive hst
    simpa [opsOf] using hp
  | finish g =>
    obtain ⟨t, u, es, st, -, -, -, rfl⟩ := step_finish hst
    simpa [opsOf] using hp

/-- What device `d` passes up of what it has heard. -/
def heardAt (d : D) (y : Nat × D × Frame) : Option (Nat × Nat × UInt16) :=
  if y.2.1 = d then some (y.1 + y.2.2.len, y.2.2.pkt, y.2.2.proto) else none

/-- The same for the receiving sides. -/
theorem C60_receiver {net : Net D} {ops : List (Op D)} {s : Sys D} (h : exec net ops = some (.ok s)) (d : D) :
    ∃ rops, SatNet.rxExec rops = some (.ok (s.rx d)) ∧ arrivals rops = s.heard.filterMap (heardAt d) := by
  refine run_induction (P := fun _ s => ∃ rops, SatNet.rxExec rops = some (.ok (s.rx d)) ∧ arrivals rops = s.heard.filterMap (heardAt d))
    ⟨[], rfl, rfl⟩ ?_ h
  rintro ops o s s' - ⟨rops, h1, h2⟩ hst
  cases o with
  | tx d o =>
    obtain ⟨t, st, a, -, -, -, -, rfl⟩ := step_tx hst
    exact ⟨rops, h1, h2⟩
  | arrive =>
    obtain ⟨t, d', f, rest, st, -, -, k, rfl⟩ := step_arrive hst
    by_cases hd : d' = d
    · subst hd
      refine ⟨rops ++ [.arrive t f.pkt f.len f.proto], ?_, ?_⟩
      · simp only [Function.update_self]; exact runFrom_snoc.mpr ⟨_, h1, k⟩
      · rw [arrivals_append, h2]; simp [arrivals, heardAt]
    · refine ⟨rops, ?_, ?_⟩
      · simp only; rw [Function.update_of_ne (Ne.symm hd)]; exact h1
      · rw [h2]; simp [heardAt, hd]
  | finish d' =>
    obtain ⟨t, u, es, st, -, -, k, rfl⟩ := step_finish hst
    by_cases hd : d' = d
    · subst hd
      refine ⟨rops ++ [.run], ?_, ?_⟩
      · simp only [Function.update_self]; exact runFrom_snoc.mpr ⟨_, h1, k⟩
      · rw [arrivals_append, h2]; simp [arrivals]
    · refine ⟨rops, ?_, h2⟩
      simp only; rw [Function.update_of_ne (Ne.symm hd)]; exact h1

/-! ## The channels -/

section
variable {net : Net D} {w : World D} {peer : D → D}

omit [Fintype D] in
theorem transmitAll_lands (hsky : Sky net w) (hw : Wired net peer) (d : D) (l : List (Nat × Entry × UInt16))
    (a : List (Nat × D × Frame) × List (Nat × D × Nat)) :
    ∃ a', transmitAll net d l a = .ok a' ∧
      a'.1.Perm (a.1 ++ (l.map (fun f => ((f.1, f.2.1), f.2.2))).filterMap (lands w peer d)) ∧
      a'.2 = a.2 ++ (l.map (fun f => ((f.1, f.2.1), f.2.2))).filterMap (lost w peer d) ∧
      (a.1.Pairwise (fun x y => x.1 ≤ y.1) → a'.1.Pairwise (fun x y => x.1 ≤ y.1)) := by
  induction l generalizing a with
  | nil => exact ⟨a, rfl, by simp, by simp, id⟩
  | cons y l ih =>
    obtain ⟨t, x, proto⟩ := y
    obtain ⟨hd, hs⟩ := hsky t
    obtain ⟨debug, env, p, q, hne, hatt, hends⟩ := hw d
    have htr : transmit net.debug (net.chan d) (net.delay t) (net.success t) (x.pkt, x.len) x.len d proto =
        .ok (if w.admit t d (peer d) then .rx (peer d) (w.delay t d (peer d)) (x.pkt, x.len) proto else .drop (x.pkt, x.len), x.len) := by
      rcases hs with ⟨hs, hadm⟩ | ⟨m, hs, hadm⟩
      · have := C32_transmit debug env p q hne _ hatt net.debug (w.delay t) (fun _ _ => .ok true) (x.pkt, x.len) x.len proto d (peer d) hends
          true rfl
        rw [hd, hs, hadm]
        simpa [transmit] using this
      · rw [hd, hs]
        exact C32_transmit debug env p q hne _ hatt net.debug (w.delay t) m (x.pkt, x.len) x.len proto d (peer d) hends _ (hadm _ _)
    simp only [transmitAll, htr, Outcome.bind_ok]
    cases hadm : w.admit t d (peer d) with
    | true =>
      simp only [if_true, applyEffect]
      obtain ⟨a', k1, k2, k3, k4⟩ := ih (insertEvent (t + w.delay t d (peer d)) (peer d, ⟨x.pkt, x.len, proto⟩) a.1, a.2)
      refine ⟨a', k1, k2.trans ?_, ?_, fun hs => k4 (sorted_insertEvent hs)⟩
      · simp only [List.map_cons, List.filterMap_cons, lands, hadm, if_true]
        refine ((insertEvent_perm _ _ _).append_right _).trans ?_
        exact List.perm_middle.symm
      · rw [k3]; simp [lost, hadm]
    | false =>
      simp only [Bool.false_eq_true, if_false, applyEffect]
      obtain ⟨a', k1, k2, k3, k4⟩ := ih (a.1, a.2 ++ [(t, d, x.pkt)])
      refine ⟨a', k1, ?_, ?_, k4⟩
      · simpa [lands, hadm] using k2
      · rw [k3]; simp [lost, hadm]

omit [Fintype D] [DecidableEq D] in
theorem aired_grows {debug : Bool} {accept : List Entry → Entry → Bool} {s s' : SatNet.Sys} {o : SatNet.Op} {t : Nat}
    (ht : opTime s o = some t) (h : SatNet.step debug accept s o = some (.ok s')) :
    ∃ new, s.aired ++ new = s'.aired ∧ (∀ y ∈ new, y.1 = t) ∧ s'.clock = t := by
  have key : ∀ {u u' : SatNet.Sys} {l : List (Nat × Entry × UInt16)} {n : Nat} {x : Entry} {p : UInt16},
      SatNet.transmitStart debug u n x p = .ok u' → u.aired = l → u.clock = n →
      ∃ new, l ++ new = u'.aired ∧ (∀ y ∈ new, y.1 = n) ∧ u'.clock = n := by
    intro u u' l n x p hu hl hc
    subst hl
    unfold SatNet.transmitStart at hu
    rw [Outcome.bind_eq_ok] at hu
    obtain ⟨_, -, hu⟩ := hu
    simp only [Outcome.ok.injEq] at hu
    subst hu
    exact ⟨_, rfl, by simp, hc⟩
  cases o with
  | send u pkt len proto =>
    simp only [opTime, Option.some.injEq] at ht
    subst ht
    simp only [SatNet.step] at h
    split at h
    · simp only [Option.some.injEq] at h
      unfold SatNet.send at h
      simp only at h
      split at h
      · simp only [Outcome.ok.injEq] at h; subst h; exact ⟨[], by simp, by simp, rfl⟩
      · split at h
        · simp only [Outcome.ok.injEq] at h; subst h; exact ⟨[], by simp, by simp, rfl⟩
        · split at h
          · simp only [Outcome.ok.injEq] at h; subst h; exact ⟨[], by simp, by simp, rfl⟩
          · exact key h rfl rfl
    · simp at h
  | run =>
    simp only [SatNet.step] at h
    split at h
    · simp at h
    · rename_i u x es hev
      simp only [opTime, hev, List.head?_cons, Option.map_some, Option.some.injEq] at ht
      subst ht
      simp only [Option.some.injEq] at h
      unfold SatNet.transmitComplete at h
      simp only at h
      split at h
      · simp only [Outcome.ok.injEq] at h
        subst h
        exact ⟨[], by simp, by simp, rfl⟩
      · exact key h rfl rfl

/-- Every frame sent has been dropped, is flying, or has arrived, as specified by `lands`. -/
structure Account (w : World D) (peer : D → D) (s : Sys D) : Prop where
  flights : (↑s.heard + ↑s.flying : Multiset (Nat × D × Frame)) =
    ∑ d, (((sent (s.tx d)).filterMap (lands w peer d) : List _) : Multiset (Nat × D × Frame))
  drops : (s.dropped : Multiset (Nat × D × Nat)) =
    ∑ d, (((sent (s.tx d)).filterMap (lost w peer d) : List _) : Multiset (Nat × D × Nat))
  sorted : s.flying.Pairwise (fun x y => x.1 ≤ y.1)

theorem run_ok (hsky : Sky net w) (hw : Wired net peer) {ops : List (Op D)} {r : Outcome (Sys D)} (h : exec net ops = some r) :
    ∃ s, r = .ok s ∧ Account w peer s := by
  induction ops using List.reverseRecOn generalizing r with
  | nil =>
    simp only [exec, runFrom, Option.some.injEq] at h
    refine ⟨_, h.symm, ⟨?_, ?_, ?_⟩⟩ <;> simp [Sys.init, SatNet.Sys.init, sent]
  | append_singleton os o ih =>
    unfold exec at h
    rw [runFrom_append] at h
    cases h1 : runFrom (step net) Sys.init os with
    | none => simp [h1] at h
    | some r1 =>
      obtain ⟨s, rfl, hacc⟩ := ih h1
      simp only [h1, runFrom_single] at h
      cases o with
      | arrive =>
        simp only [step] at h
        split at h
        · simp at h
        · rename_i t g f rest hf
          split at h
          · split at h
            · simp at h
            · rename_i r2 hr2
              simp only [SatNet.rxStep] at hr2
              split at hr2
              · simp only [Option.some.injEq] at hr2
                subst hr2
                simp only [Outcome.bind_ok, Option.some.injEq] at h
                refine ⟨_, h.symm, ⟨?_, hacc.drops, ?_⟩⟩
                · rw [← hacc.flights, hf]
                  simp only [Multiset.coe_add]
                  rw [Multiset.coe_eq_coe, List.append_assoc]
                  rfl
                · have := hacc.sorted
                  rw [hf, List.pairwise_cons] at this
                  exact this.2
              · simp at hr2
          · simp at h
      | finish g =>
        simp only [step] at h
        split at h
        · simp at h
        · rename_i t u es hp
          split at h
          · simp only [SatNet.rxStep, hp, Outcome.bind_ok, Option.some.injEq] at h
            exact ⟨_, h.symm, ⟨hacc.flights, hacc.drops, hacc.sorted⟩⟩
          · simp at h
      | tx d o =>
        simp only [step] at h
        split at h
        · simp at h
        · rename_i t ht
          split at h
          · split at h
            · simp at h
            · rename_i r2 hr2
              obtain ⟨st, rfl, -⟩ := (SatNet.phase_exec (C60_sender h1 d)).step hr2
              obtain ⟨new, hnew, -⟩ := aired_grows ht hr2
              have hdrop : st.aired.drop (s.tx d).aired.length = new := by rw [← hnew]; simp
              have hsent : sent st = sent (s.tx d) ++ new.map (fun f => ((f.1, f.2.1), f.2.2)) := by
                unfold sent; rw [← hnew]; simp
              obtain ⟨a, h3, h4, h5, h6⟩ := transmitAll_lands (net := net) hsky hw d new (s.flying, s.dropped)
              simp only [hdrop, Outcome.bind_ok, h3, Option.some.injEq] at h
              refine ⟨_, h.symm, ⟨?_, ?_, h6 hacc.sorted⟩⟩
              · simp only
                refine Eq.trans ?_ (sum_update (fun d' (x : SatNet.Sys) =>
                  (((sent x).filterMap (lands w peer d') : List _) : Multiset (Nat × D × Frame))) s.tx d st
                  ((new.map (fun f => ((f.1, f.2.1), f.2.2))).filterMap (lands w peer d) : List _) ?_).symm
                · rw [← hacc.flights, add_assoc]
                  congr 1
                  rw [Multiset.coe_add, Multiset.coe_eq_coe]
                  exact h4
                · simp only [hsent, List.filterMap_append, ← Multiset.coe_add]
              · simp only
                refine Eq.trans ?_ (sum_update (fun d' (x : SatNet.Sys) =>
                  (((sent x).filterMap (lost w peer d') : List _) : Multiset (Nat × D × Nat))) s.tx d st
                  ((new.map (fun f => ((f.1, f.2.1), f.2.2))).filterMap (lost w peer d) : List _) ?_).symm
                · rw [← hacc.drops, h5, Multiset.coe_add]
                · simp only [hsent, List.filterMap_append, ← Multiset.coe_add]
          · simp at h

omit [Fintype D] in
theorem heard_lands (hback : ∀ d, peer (peer d) = d) (d e : D) (l : List ((Nat × Entry) × UInt16)) :
    (l.filterMap (lands w peer e)).filterMap (heardAt d) = if e = peer d then l.filterMap (receipt w e d) else [] := by
  rw [List.filterMap_filterMap]
  by_cases he : e = peer d
  · subst he
    rw [if_pos rfl]
    refine List.filterMap_congr (fun y _ => ?_)
    unfold lands receipt
    rw [hback]
    cases w.admit y.1.1 (peer d) d <;> simp [heardAt]
  · rw [if_neg he]
    have hne : peer e ≠ d := fun h => he (by rw [← h, hback])
    rw [List.filterMap_eq_nil_iff]
    intro y _
    unfold lands
    cases w.admit y.1.1 e (peer e) <;> simp [heardAt, hne]

theorem heard_sum (hback : ∀ d, peer (peer d) = d) {s : Sys D} (hacc : Account w peer s) (d : D) :
    (s.heard.filterMap (heardAt d) : Multiset (Nat × Nat × UInt16)) + (s.flying.filterMap (heardAt d) : Multiset (Nat × Nat × UInt16)) =
      ((sent (s.tx (peer d))).filterMap (receipt w (peer d) d) : List _) := by
  have h1 := congrArg (Multiset.filterMap (heardAt d)) hacc.flights
  rw [Multiset.filterMap_add, filterMap_sum] at h1
  refine h1.trans ?_
  rw [Finset.sum_eq_single (peer d)]
  · rw [heard_lands hback, if_pos rfl]
  · intro e _ he
    rw [heard_lands hback, if_neg he]
    rfl
  · intro h; exact absurd (Finset.mem_univ _) h

/-- For all devices, links and times.  Nothing ever goes wrong.  What a device has passed up is at any time among the receipts due for the packets
accepted so far by the device at the other end of its link - and by no other device: each packet is sent when that device's queue says
(`schedule`), and if the success model lets it through, it is passed up once, at the end of its reception.  When nothing is scheduled any
more, all these receipts have taken place, each exactly once, and nothing else has. -/
theorem C60_link (hsky : Sky net w) (hw : Wired net peer) (hback : ∀ d, peer (peer d) = d) {ops : List (Op D)} {r : Outcome (Sys D)}
    (h : exec net ops = some r) :
    ∃ s, r = .ok s ∧ ∀ d,
      ((s.rx d).delivered : Multiset (Nat × Nat × UInt16)) ≤
        ((schedule (s.tx (peer d)).accepted).filterMap (receipt w (peer d) d) : List _) ∧
      (Quiet s → ((s.rx d).delivered : Multiset (Nat × Nat × UInt16)) =
        ((schedule (s.tx (peer d)).accepted).filterMap (receipt w (peer d) d) : List _)) := by
  obtain ⟨s, rfl, hacc⟩ := run_ok hsky hw h
  refine ⟨s, rfl, fun d => ?_⟩
  obtain ⟨p1, p2⟩ := sent_schedule (C60_sender h (peer d))
  have hsum := heard_sum hback hacc d
  obtain ⟨rops, k1, k2⟩ := C60_receiver h d
  obtain ⟨s', e1, e2, e3⟩ := C40_reception k1
  simp only [Outcome.ok.injEq] at e1
  subst e1
  rw [k2] at e2 e3
  constructor
  · have hle : ((s.rx d).delivered : Multiset (Nat × Nat × UInt16)) ≤ (s.heard.filterMap (heardAt d) : List _) := by
      rw [← Multiset.coe_eq_coe.mpr e2, ← Multiset.coe_add]
      exact Multiset.le_add_right _ _
    refine hle.trans ((Multiset.le_add_right _ (s.flying.filterMap (heardAt d) : Multiset (Nat × Nat × UInt16))).trans ?_)
    rw [hsum]
    exact Multiset.coe_le.mpr ((p1.sublist.filterMap _).subperm)
  · rintro ⟨q1, q2, q3⟩
    rw [Multiset.coe_eq_coe.mpr (e3 (q3 d)), ← p2 (q1 _), ← hsum, q2]
    simp

/-- The frames stopped by the success model are reported by the channel, each once, and no others are. -/
theorem C60_drops (hsky : Sky net w) (hw : Wired net peer) {ops : List (Op D)} {r : Outcome (Sys D)} (h : exec net ops = some r) :
    ∃ s, r = .ok s ∧ (s.dropped : Multiset (Nat × D × Nat)) =
      ∑ d, ((((s.tx d).aired.filter (fun f => !w.admit f.1 d (peer d))).map (fun f => (f.1, d, f.2.1.pkt)) : List _) : Multiset (Nat × D × Nat)) := by
  obtain ⟨s, rfl, hacc⟩ := run_ok hsky hw h
  refine ⟨s, rfl, hacc.drops.trans (Finset.sum_congr rfl (fun d _ => ?_))⟩
  congr 1
  unfold sent
  rw [List.filterMap_map]
  induction (s.tx d).aired with
  | nil => rfl
  | cons f l ih =>
    rw [List.filterMap_cons, List.filter_cons, ih]
    cases ha : w.admit f.1 d (peer d) <;> simp [lost, ha]


/-! ## Order -/

omit [Fintype D] [DecidableEq D] in
theorem eq_of_times {X : Type} {l m : List (Nat × X)} (hp : l.Perm m) (hl : l.Pairwise (fun a b => a.1 ≤ b.1))
    (hm : m.Pairwise (fun a b => a.1 < b.1)) : l = m := by
  induction m generalizing l with
  | nil => exact hp.eq_nil
  | cons a m ih =>
    cases l with
    | nil => exact absurd hp.symm.eq_nil (by simp)
    | cons b l =>
      rw [List.pairwise_cons] at hl hm
      have hab : b = a := by
        have h1 : a ∈ b :: l := hp.symm.subset (by simp)
        have h2 : b ∈ a :: m := hp.subset (by simp)
        rcases List.mem_cons.mp h1 with h1 | h1
        · exact h1.symm
        · rcases List.mem_cons.mp h2 with h2 | h2
          · exact h2
          · have := hl.1 a h1; have := hm.1 b h2; omega
      subst hab
      rw [ih hp.cons_inv hl.2 hm.2]

/-- A receiving side passes up in the order of time, and what is scheduled lies ahead, in order. -/
structure Timely (s : SatNet.RxSys) : Prop where
  past : ∀ e ∈ s.delivered, e.1 ≤ s.clock
  future : ∀ e ∈ s.pending, s.clock ≤ e.1
  delivered : s.delivered.Pairwise (fun a b => a.1 ≤ b.1)
  pending : s.pending.Pairwise (fun a b => a.1 ≤ b.1)

omit [Fintype D] [DecidableEq D] in
theorem Timely.step {s s' : SatNet.RxSys} {o : SatNet.RxOp} (h : Timely s) (hst : SatNet.rxStep s o = some (.ok s')) : Timely s' := by
  obtain ⟨h1, h2, h3, h4⟩ := h
  cases o with
  | arrive t pkt len proto =>
    simp only [SatNet.rxStep] at hst
    split at hst
    · rename_i hp
      simp only [Option.some.injEq, Outcome.ok.injEq] at hst
      subst hst
      refine ⟨fun e he => Nat.le_trans (h1 e he) hp.1, ?_, h3, sorted_insertEvent h4⟩
      intro e he
      rcases mem_insertEvent.mp he with rfl | he
      · simp
      · exact hp.2 e he
    · simp at hst
  | run =>
    simp only [SatNet.rxStep] at hst
    split at hst
    · simp at hst
    · rename_i t u es hp
      simp only [Option.some.injEq, Outcome.ok.injEq] at hst
      subst hst
      rw [hp] at h2 h4
      rw [List.pairwise_cons] at h4
      have ht := h2 (t, u) (by simp)
      simp only at ht
      refine ⟨?_, fun e he => h4.1 e he, ?_, h4.2⟩
      · intro e he
        simp only [List.mem_append, List.mem_singleton] at he
        rcases he with he | rfl
        · exact Nat.le_trans (h1 e he) ht
        · exact Nat.le_refl _
      · rw [List.pairwise_append]
        refine ⟨h3, by simp, ?_⟩
        intro e he f hf
        rw [List.mem_singleton] at hf
        subst hf
        exact Nat.le_trans (h1 e he) ht

omit [Fintype D] [DecidableEq D] in
theorem timely {ops : List SatNet.RxOp} {s : SatNet.RxSys} (h : SatNet.rxExec ops = some (.ok s)) : Timely s := by
  refine run_induction (P := fun _ s => Timely s) ⟨by simp, by simp, by simp, by simp⟩ ?_ h
  intro ops o s s' _ hp hst
  exact hp.step hst

omit [Fintype D] [DecidableEq D] in
theorem schedule_disjoint (acc : List (Nat × Entry × Bool)) :
    (schedule acc).Pairwise (fun y z => y.1.1 + y.1.2.len ≤ z.1.1) ∧ ∀ y ∈ schedule acc, ∃ c ∈ acc, c.2.1 = y.1.2 := by
  have hl : (Fifo.serve Entry.len (fun _ _ => 0) 0 0 (acc.map arrival)).length ≤ (usedProtos 0 acc).length := by
    rw [Fifo.serve_length, usedProtos_length]; simp
  have hmap : (schedule acc).map Prod.fst = Fifo.serve Entry.len (fun _ _ => 0) 0 0 (acc.map arrival) := List.map_fst_zip hl
  constructor
  · have := Fifo.serve_disjoint (len := Entry.len) (wait := fun _ _ => 0) 0 0 (acc.map arrival)
    rw [← hmap, List.pairwise_map] at this
    exact this
  · intro y hy
    have h1 : y.1.2 ∈ ((schedule acc).map Prod.fst).map Prod.snd :=
      List.mem_map.mpr ⟨y.1, List.mem_map.mpr ⟨y, hy, rfl⟩, rfl⟩
    rw [hmap, Fifo.serve_packets] at h1
    obtain ⟨z, hz, hz2⟩ := List.mem_map.mp h1
    obtain ⟨c, hc, rfl⟩ := List.mem_map.mp hz
    exact ⟨c, hc, hz2⟩

/-- If a frame sent after another one also ends later at the other end - as it does with a delay that stays the same, or does not shrink faster
than a transmission lasts - the packets are passed up in the order in which they were accepted.  (Without this the order can change: C60_overtaking.) -/
theorem C60_in_order (hsky : Sky net w) (hw : Wired net peer) (hback : ∀ d, peer (peer d) = d) {ops : List (Op D)} {s : Sys D}
    (h : exec net ops = some (.ok s)) (hq : Quiet s) (d : D)
    (hslow : ∀ x ∈ (s.tx (peer d)).accepted, ∀ y ∈ (s.tx (peer d)).accepted, ∀ t t', t + x.2.1.len ≤ t' →
      t + w.delay t (peer d) d + x.2.1.len < t' + w.delay t' (peer d) d + y.2.1.len) :
    (s.rx d).delivered = (schedule (s.tx (peer d)).accepted).filterMap (receipt w (peer d) d) := by
  obtain ⟨s', hs, hl⟩ := C60_link hsky hw hback h
  simp only [Outcome.ok.injEq] at hs
  subst hs
  obtain ⟨rops, k1, -⟩ := C60_receiver h d
  refine eq_of_times (Multiset.coe_eq_coe.mp ((hl d).2 hq)) (timely k1).delivered ?_
  obtain ⟨p1, p2⟩ := schedule_disjoint (s.tx (peer d)).accepted
  rw [List.pairwise_filterMap]
  refine p1.imp_of_mem ?_
  intro y z hy hz hyz b hb b' hb'
  obtain ⟨c, hc, hc2⟩ := p2 y hy
  obtain ⟨c', hc', hc2'⟩ := p2 z hz
  have := hslow c hc c' hc' y.1.1 z.1.1 (by rw [hc2]; exact hyz)
  rw [hc2, hc2'] at this
  unfold receipt at hb hb'
  split at hb
  · split at hb'
    · simp only [Option.some.injEq] at hb hb'
      rw [← hb, ← hb']
      exact this
    · simp at hb'
  · simp at hb

/-! ## The executions are not stuck -/

/-- The clock is never ahead of what is scheduled. -/
structure OnTime (s : Sys D) : Prop where
  ahead : due s s.clock
  tx : ∀ d, (s.tx d).clock ≤ s.clock
  rx : ∀ d, (s.rx d).clock ≤ s.clock

omit [Fintype D] [DecidableEq D] in
theorem phase_ahead {s : SatNet.Sys} (h : SatNet.Phase s) : ∀ e ∈ s.events, s.clock ≤ e.1 := by
  cases h with
  | idle _ _ h => simp [h]
  | onAir _ _ _ _ _ _ _ _ _ _ h h' => rw [h]; simpa using h'

omit [Fintype D] [DecidableEq D] in
theorem rx_clock {s s' : SatNet.RxSys} {t pkt len : Nat} {proto : UInt16} (h : SatNet.rxStep s (.arrive t pkt len proto) = some (.ok s')) :
    s'.clock = t := by
  simp only [SatNet.rxStep] at h
  split at h
  · simp only [Option.some.injEq, Outcome.ok.injEq] at h
    rw [← h]
  · simp at h

theorem onTime (hsky : Sky net w) (hw : Wired net peer) {ops : List (Op D)} {s : Sys D} (h : exec net ops = some (.ok s)) : OnTime s := by
  induction ops using List.reverseRecOn generalizing s with
  | nil =>
    simp only [exec, runFrom, Option.some.injEq, Outcome.ok.injEq] at h
    subst h
    refine ⟨⟨Nat.le_refl _, ?_, ?_, ?_⟩, fun d => Nat.le_refl _, fun g => Nat.le_refl _⟩
    · intro d e he; simp [Sys.init, SatNet.Sys.init] at he
    · intro e he; simp [Sys.init] at he
    · intro g e he; simp [Sys.init] at he
  | append_singleton os o ih =>
    have hall := h
    unfold exec at h
    obtain ⟨s1, h1, h2⟩ := runFrom_snoc.mp h
    obtain ⟨hd0, hd1, hd2⟩ := ih h1
    have station : ∀ (g : D) (t : Nat) (st : SatNet.RxSys) (o : SatNet.RxOp), due s1 t → st.clock = t →
        SatNet.rxStep (s1.rx g) o = some (.ok st) →
        (∀ g', ∀ e ∈ (Function.update s1.rx g st g').pending, t ≤ e.1) ∧ ∀ g', (Function.update s1.rx g st g').clock ≤ t := by
      intro g t st o hd hc hst
      obtain ⟨rops, r1, -⟩ := C60_receiver h1 g
      have := ((timely r1).step hst).future
      constructor
      · intro g' e he
        by_cases hg : g' = g
        · subst hg
          rw [Function.update_self] at he
          have := this e he
          omega
        · rw [Function.update_of_ne hg] at he
          exact hd.2.2.2 g' e he
      · intro g'
        by_cases hg : g' = g
        · subst hg; rw [Function.update_self]; omega
        · rw [Function.update_of_ne hg]; exact Nat.le_trans (hd2 g') hd.1
    cases o with
    | tx d o =>
      obtain ⟨t, st, a, k1, k2, k3, k4, rfl⟩ := step_tx h2
      obtain ⟨new, n1, n2, n3⟩ := aired_grows k1 k3
      have hst := C60_sender hall d
      simp only [Function.update_self] at hst
      have hph := phase_ahead (SatNet.phase_exec hst)
      have hdrop : st.aired.drop (s1.tx d).aired.length = new := by rw [← n1]; simp
      obtain ⟨a', h3, h4, -, h6⟩ := transmitAll_lands (net := net) hsky hw d new (s1.flying, s1.dropped)
      rw [hdrop, h3] at k4
      simp only [Outcome.ok.injEq] at k4
      subst k4
      obtain ⟨e1, e2, e3, e4⟩ := k2
      refine ⟨⟨Nat.le_refl _, ?_, ?_, e4⟩, ?_, ?_⟩
      · intro d' e he
        simp only at he ⊢
        by_cases hd : d' = d
        · subst hd
          rw [Function.update_self] at he
          rw [← n3]
          exact hph e he
        · rw [Function.update_of_ne hd] at he
          exact e2 d' e he
      · intro e he
        have := h4.subset he
        simp only [List.mem_append] at this
        rcases this with h' | h'
        · exact e3 e h'
        · obtain ⟨y, hy, hy2⟩ := List.mem_filterMap.mp h'
          obtain ⟨f, hf, rfl⟩ := List.mem_map.mp hy
          have := n2 f hf
          unfold lands at hy2
          split at hy2
          · simp only [Option.some.injEq] at hy2
            rw [← hy2]
            simp only
            omega
          · simp at hy2
      · intro d'
        simp only
        by_cases hd : d' = d
        · subst hd; rw [Function.update_self]; omega
        · rw [Function.update_of_ne hd]; have := hd1 d'; omega
      · intro g; have := hd2 g; simp only; omega
    | arrive =>
      obtain ⟨t, g, f, rest, st, k1, k2, k3, rfl⟩ := step_arrive h2
      obtain ⟨c1, c2⟩ := station g t st _ k2 (rx_clock k3) k3
      refine ⟨⟨Nat.le_refl _, k2.2.1, ?_, c1⟩, fun d => Nat.le_trans (hd1 d) k2.1, c2⟩
      intro e he
      exact k2.2.2.1 e (by rw [k1]; exact List.mem_cons_of_mem _ he)
    | finish g =>
      obtain ⟨t, u, es, st, k1, k2, k3, rfl⟩ := step_finish h2
      have hc : st.clock = t := by
        simp only [SatNet.rxStep, k1, Option.some.injEq, Outcome.ok.injEq] at k3
        rw [← k3]
      obtain ⟨c1, c2⟩ := station g t st _ k2 hc k3
      exact ⟨⟨Nat.le_refl _, k2.2.1, k2.2.2.1, c1⟩, fun d => Nat.le_trans (hd1 d) k2.1, c2⟩

/-- Executions never get stuck: as long as anything is scheduled the simulator can run a scheduled event, and at any time up to the next event, every device can be
given a packet. -/
theorem C60_progress (hsky : Sky net w) (hw : Wired net peer) {ops : List (Op D)} {s : Sys D} (h : exec net ops = some (.ok s)) :
    (¬ Quiet s → ∃ o, o.internal = true ∧ ∃ r, step net s o = some r) ∧
    ∀ t, due s t → ∀ d pkt len proto, ∃ r, step net s (.tx d (.send t pkt len proto)) = some r := by
  obtain ⟨⟨-, a1, a2, a3⟩, b1, b2⟩ := onTime hsky hw h
  have b4 : s.flying.Pairwise (fun x y => x.1 ≤ y.1) := by
    obtain ⟨s', hs, hacc⟩ := run_ok hsky hw h
    simp only [Outcome.ok.injEq] at hs
    subst hs
    exact hacc.sorted
  have b3 : ∀ g, (s.rx g).pending.Pairwise (fun x y => x.1 ≤ y.1) := by
    intro g
    obtain ⟨rops, r1, -⟩ := C60_receiver h g
    exact (timely r1).pending
  constructor
  · intro hq
    classical
    let E : Nat → Prop := fun t => (∃ d, ∃ e ∈ (s.tx d).events, e.1 = t) ∨ (∃ e ∈ s.flying, e.1 = t) ∨ ∃ g, ∃ e ∈ (s.rx g).pending, e.1 = t
    have hex : ∃ t, E t := by
      by_contra hno
      push Not at hno
      apply hq
      refine ⟨fun d => ?_, ?_, fun g => ?_⟩
      · rw [List.eq_nil_iff_forall_not_mem]
        exact fun e he => hno e.1 (Or.inl ⟨d, e, he, rfl⟩)
      · rw [List.eq_nil_iff_forall_not_mem]
        exact fun e he => hno e.1 (Or.inr (Or.inl ⟨e, he, rfl⟩))
      · rw [List.eq_nil_iff_forall_not_mem]
        exact fun e he => hno e.1 (Or.inr (Or.inr ⟨g, e, he, rfl⟩))
    obtain ⟨t, ht, hmin⟩ : ∃ t, E t ∧ ∀ u, E u → t ≤ u := ⟨Nat.find hex, Nat.find_spec hex, fun u hu => Nat.find_min' hex hu⟩
    have hclock : s.clock ≤ t := by
      rcases ht with ⟨d, e, he, rfl⟩ | ⟨e, he, rfl⟩ | ⟨g, e, he, rfl⟩
      · exact a1 d e he
      · exact a2 e he
      · exact a3 g e he
    have hdue : due s t :=
      ⟨hclock, fun d e he => hmin _ (Or.inl ⟨d, e, he, rfl⟩), fun e he => hmin _ (Or.inr (Or.inl ⟨e, he, rfl⟩)),
        fun g e he => hmin _ (Or.inr (Or.inr ⟨g, e, he, rfl⟩))⟩
    rcases ht with ⟨d, e, he, rfl⟩ | ⟨e, he, rfl⟩ | ⟨g, e, he, rfl⟩
    · have hev : (s.tx d).events = [e] := by
        have := SatNet.phase_exec (C60_sender h d)
        cases this with
        | idle _ _ h => simp [h] at he
        | onAir _ _ _ _ _ _ _ _ _ _ h => rw [h] at he ⊢; simp at he; rw [he]
      refine ⟨.tx d .run, rfl, ?_⟩
      obtain ⟨t, e⟩ := e
      simp only [step, opTime, hev, List.head?_cons, Option.map_some, if_pos hdue, SatNet.step]
      exact ⟨_, rfl⟩
    · cases hf : s.flying with
      | nil => simp [hf] at he
      | cons y rest =>
        obtain ⟨t', g, f⟩ := y
        have htt : t' = e.1 := by
          have h1 : e.1 ≤ t' := hdue.2.2.1 (t', g, f) (by rw [hf]; simp)
          rw [hf] at he b4
          rw [List.pairwise_cons] at b4
          simp only [List.mem_cons] at he
          rcases he with rfl | he
          · rfl
          · have := b4.1 e he; simp only at this; omega
        subst htt
        refine ⟨.arrive, rfl, ?_⟩
        have hp : (s.rx g).clock ≤ e.1 ∧ ∀ x ∈ (s.rx g).pending, e.1 ≤ x.1 := ⟨Nat.le_trans (b2 g) hdue.1, hdue.2.2.2 g⟩
        simp only [step, hf, if_pos hdue, SatNet.rxStep, if_pos hp]
        exact ⟨_, rfl⟩
    · cases hf : (s.rx g).pending with
      | nil => simp [hf] at he
      | cons y rest =>
        obtain ⟨t', u⟩ := y
        have htt : t' = e.1 := by
          have h1 : e.1 ≤ t' := hdue.2.2.2 g (t', u) (by rw [hf]; simp)
          have h3 := b3 g
          rw [hf] at he h3
          rw [List.pairwise_cons] at h3
          simp only [List.mem_cons] at he
          rcases he with rfl | he
          · rfl
          · have := h3.1 e he; simp only at this; omega
        subst htt
        refine ⟨.finish g, rfl, ?_⟩
        simp only [step, hf, if_pos hdue, SatNet.rxStep]
        exact ⟨_, rfl⟩
  · intro t ht d pkt len proto
    have hp : SatNet.possible (s.tx d) t := ⟨Nat.le_trans (b1 d) ht.1, ht.2.1 d⟩
    simp only [step, opTime, if_pos ht, SatNet.step, if_pos hp]
    exact ⟨_, rfl⟩

end

/-! ## The links that `ISLHelper` installs -/

section
variable {N : Type}

/-- The other device of the same link. -/
def otherEnd (links : List (N × N)) (d : End links) : End links := (d.1, !d.2)

omit [Fintype D] [DecidableEq D] in
/-- Whatever nodes are linked, the helper's devices are wired in pairs: for nodes that carry a circular orbit, making the channels succeeds, and in a
network with these channels every device is at one end of its channel, the other device of the link at the other. -/
theorem C60_wired (debug : Bool) (hasPos hasOrbit : N → Bool) (links : List (N × N))
    (hpos : ∀ l ∈ links, hasPos l.1 = true ∧ hasPos l.2 = true) (horbit : ∀ l ∈ links, hasOrbit l.2 = true) :
    ∃ chan : Fin links.length → Chan (End links), (∀ k, makeChannel debug hasPos hasOrbit links k = .ok (chan k)) ∧
      (∀ d, otherEnd links (otherEnd links d) = d) ∧
      ∀ net : Net (End links), (∀ d, net.chan d = chan d.1) → Wired net (otherEnd links) := by
  have hmk : ∀ k, ∃ c, makeChannel debug hasPos hasOrbit links k = .ok c := by
    intro k
    have h1 := hpos links[k] (List.getElem_mem _)
    have h2 := horbit links[k] (List.getElem_mem _)
    unfold makeChannel
    have h3 : hasPos (owner links (k, false)) = true := by simpa [owner] using h1.1
    have h4 : hasPos (owner links (k, true)) = true := by simpa [owner] using h1.2
    have h5 : hasOrbit (owner links (k, true)) = true := by simpa [owner] using h2
    simp [attachAll, attach, putEnd, Chan.init, h3, h4, h5]
  choose chan hchan using hmk
  refine ⟨chan, hchan, fun d => by simp [otherEnd], fun net hnet d => ?_⟩
  refine ⟨debug, ⟨fun d => hasPos (owner links d), fun d => hasOrbit (owner links d), true⟩, (d.1, false), (d.1, true), by simp, ?_, ?_⟩
  · rw [hnet]; exact hchan d.1
  · obtain ⟨k, b⟩ := d
    cases b <;> simp [otherEnd]

/-- On the grid, the two devices of a link are on neighbouring satellites, and for every satellite and every neighbour there is exactly one device on
the satellite whose link leads to that neighbour. -/
theorem C60_neighbours (n s : Nat) :
    (∀ d : End (Isl.gridLinks n s), TorusAdj n s (owner _ d) (owner _ (otherEnd _ d))) ∧
    ∀ u v, TorusAdj n s u v → ∃! d : End (Isl.gridLinks n s), owner _ d = u ∧ owner _ (otherEnd _ d) = v := by
  have hsymm : ∀ a b, TorusAdj n s a b ↔ TorusAdj n s b a := by
    intro a b; rw [torusAdj_iff, torusAdj_iff, or_comm]
  have hone : ∀ u v, ∀ l ∈ Isl.gridLinks n s, ∀ l' ∈ Isl.gridLinks n s, (l = (u, v) ∨ l = (v, u)) → (l' = (u, v) ∨ l' = (v, u)) → l = l' := by
    intro u v l hl l' hl' h h'
    by_contra hne
    have h1 := C11_links_are_torus_grid n s u v
    have h2 : 2 ≤ (Isl.gridLinks n s).countP (joins u v) := by
      have hsub : [l, l'].Subperm (Isl.gridLinks n s) :=
        List.Nodup.subperm (by simp [hne]) (by intro x hx; simp only [List.mem_cons, List.not_mem_nil, or_false] at hx; rcases hx with rfl | rfl <;> assumption)
      refine Nat.le_trans ?_ (hsub.countP_le (joins u v))
      have e1 : joins u v l = true := by simpa [joins] using h
      have e2 : joins u v l' = true := by simpa [joins] using h'
      simp [e1, e2]
    rw [h1] at h2
    split at h2 <;> omega
  constructor
  · rintro ⟨k, b⟩
    have hm := List.getElem_mem k.isLt
    have h1 : TorusAdj n s (Isl.gridLinks n s)[k].1 (Isl.gridLinks n s)[k].2 := torusAdj_iff.mpr (Or.inl hm)
    cases b
    · simpa [owner, otherEnd] using h1
    · simpa [owner, otherEnd] using (hsymm _ _).mp h1
  · intro u v hadj
    have hne : u ≠ v := by
      rintro rfl
      rcases torusAdj_iff.mp hadj with h | h <;> (rw [Isl.mem_gridLinks] at h; omega)
    have key : ∀ d : End (Isl.gridLinks n s), owner _ d = u ∧ owner _ (otherEnd _ d) = v →
        ((Isl.gridLinks n s)[d.1] = (u, v) ∧ d.2 = false) ∨ ((Isl.gridLinks n s)[d.1] = (v, u) ∧ d.2 = true) := by
      rintro ⟨k, b⟩ ⟨h1, h2⟩
      cases b
      · left; simp only [owner, otherEnd] at h1 h2; simp at h1 h2; exact ⟨Prod.ext h1 h2, rfl⟩
      · right; simp only [owner, otherEnd] at h1 h2; simp at h1 h2; exact ⟨Prod.ext h2 h1, rfl⟩
    have huniq : ∀ d d' : End (Isl.gridLinks n s), (owner _ d = u ∧ owner _ (otherEnd _ d) = v) →
        (owner _ d' = u ∧ owner _ (otherEnd _ d') = v) → d = d' := by
      intro d d' h h'
      have hl : (Isl.gridLinks n s)[d.1] = (Isl.gridLinks n s)[d'.1] := by
        refine hone u v _ (List.getElem_mem _) _ (List.getElem_mem _) ?_ ?_
        · rcases key d h with h | h
          · exact Or.inl h.1
          · exact Or.inr h.1
        · rcases key d' h' with h | h
          · exact Or.inl h.1
          · exact Or.inr h.1
      have hk : d.1 = d'.1 := by
        have := (List.Nodup.getElem_inj_iff (Isl.gridLinks_nodup n s)).mp hl
        exact Fin.ext this
      have hvu : (v, u) ≠ (u, v) := fun h => hne (Prod.mk.inj h).2
      refine Prod.ext hk ?_
      rcases key d h with ⟨h1, h2⟩ | ⟨h1, h2⟩ <;> rcases key d' h' with ⟨h3, h4⟩ | ⟨h3, h4⟩
      · rw [h2, h4]
      · rw [hl, h3] at h1; exact absurd h1 hvu
      · rw [hl, h3] at h1; exact absurd h1.symm hvu
      · rw [h2, h4]
    rcases torusAdj_iff.mp hadj with h | h
    · obtain ⟨k, hk, he⟩ := List.getElem_of_mem h
      have hd : owner (Isl.gridLinks n s) (⟨k, hk⟩, false) = u ∧ owner _ (otherEnd (Isl.gridLinks n s) (⟨k, hk⟩, false)) = v := by
        simp [owner, otherEnd, he]
      exact ⟨_, hd, fun d' hd' => huniq d' _ hd' hd⟩
    · obtain ⟨k, hk, he⟩ := List.getElem_of_mem h
      have hd : owner (Isl.gridLinks n s) (⟨k, hk⟩, true) = u ∧ owner _ (otherEnd (Isl.gridLinks n s) (⟨k, hk⟩, true)) = v := by
        simp [owner, otherEnd, he]
      exact ⟨_, hd, fun d' hd' => huniq d' _ hd' hd⟩

/-- The whole grid: with the helper's channels, no execution goes wrong, and whenever nothing is scheduled any more, each satellite `v` has received
from each neighbour `u`, on the one device whose link leads to `u`, exactly what `u` gave to its device for `v` and the success model let through. -/
theorem C60_grid (n s : Nat) (debug : Bool) (hasPos hasOrbit : Nat × Nat → Bool) (hpos : ∀ v, v.1 < n → v.2 < s → hasPos v = true)
    (horbit : ∀ v, v.1 < n → v.2 < s → hasOrbit v = true) (net : Net (End (Isl.gridLinks n s)))
    (hnet : ∀ d, makeChannel debug hasPos hasOrbit (Isl.gridLinks n s) d.1 = .ok (net.chan d)) {w : World (End (Isl.gridLinks n s))}
    (hsky : Sky net w) {ops : List (Op (End (Isl.gridLinks n s)))} {r : Outcome (Sys (End (Isl.gridLinks n s)))} (h : exec net ops = some r) :
    ∃ st, r = .ok st ∧ (Quiet st → ∀ u v, TorusAdj n s u v → ∃ d e : End (Isl.gridLinks n s),
      (∀ d', owner _ d' = u ∧ owner _ (otherEnd _ d') = v ↔ d' = d) ∧ (∀ e', owner _ e' = v ∧ owner _ (otherEnd _ e') = u ↔ e' = e) ∧
      ((st.rx e).delivered : Multiset (Nat × Nat × UInt16)) = ((schedule (st.tx d).accepted).filterMap (receipt w d e) : List _)) := by
  have hin : ∀ l ∈ Isl.gridLinks n s, (l.1.1 < n ∧ l.1.2 < s) ∧ (l.2.1 < n ∧ l.2.2 < s) := by
    intro l hl
    have h1 : TorusAdj n s l.1 l.2 := torusAdj_iff.mpr (Or.inl hl)
    have h2 : TorusAdj n s l.2 l.1 := torusAdj_iff.mpr (Or.inr hl)
    exact ⟨⟨h1.1, h1.2.1⟩, ⟨h2.1, h2.2.1⟩⟩
  obtain ⟨chan, c1, hback, c3⟩ := C60_wired debug hasPos hasOrbit (Isl.gridLinks n s)
    (fun l hl => ⟨hpos _ (hin l hl).1.1 (hin l hl).1.2, hpos _ (hin l hl).2.1 (hin l hl).2.2⟩)
    (fun l hl => horbit _ (hin l hl).2.1 (hin l hl).2.2)
  have hw : Wired net (otherEnd _) := c3 net (fun d => by
    have := (c1 d.1).symm.trans (hnet d)
    simp only [Outcome.ok.injEq] at this
    exact this.symm)
  obtain ⟨st, rfl, hl⟩ := C60_link hsky hw hback h
  refine ⟨st, rfl, fun hq u v huv => ?_⟩
  obtain ⟨d, ⟨d1, d2⟩, d3⟩ := (C60_neighbours n s).2 u v huv
  refine ⟨d, otherEnd _ d, ?_, ?_, ?_⟩
  · intro d'
    exact ⟨fun hd => d3 d' hd, fun hd => by rw [hd]; exact ⟨d1, d2⟩⟩
  · intro e'
    constructor
    · rintro ⟨e1, e2⟩
      have := d3 (otherEnd _ e') ⟨e2, by rw [hback]; exact e1⟩
      rw [← this, hback]
    · rintro rfl
      exact ⟨d2, by rw [hback]; exact d1⟩
  · have := (hl (otherEnd _ d)).2 hq
    rw [hback] at this
    exact this

end

/-! ## Examples -/

/-- Three satellites in one plane: three links, six devices. -/
abbrev exLinks : List ((Nat × Nat) × (Nat × Nat)) := [((0, 0), (0, 1)), ((0, 1), (0, 2)), ((0, 2), (0, 0))]

example : Isl.gridLinks 1 3 = exLinks := by decide

/-- Delay 5 on all links; link 1 never works. -/
def exWorld : World (End exLinks) := ⟨fun _ _ _ => 5, fun _ d _ => decide (d.1 ≠ 1)⟩

def exChan (k : Fin 3) : Chan (End exLinks) := ⟨2, ⟨false, some (k, false), some (k, true)⟩, ⟨false, some (k, true), some (k, false)⟩⟩

def exNet : Net (End exLinks) :=
  ⟨true, fun d => exChan d.1, fun _ q _ => decide (q.length < 1), fun _ => some (fun _ _ => 5), fun _ => some (fun d _ => .ok (decide (d.1 ≠ 1)))⟩

example : ∀ k, makeChannel true (fun _ => true) (fun _ => true) exLinks k = .ok (exChan k) := by decide

theorem exSky : Sky exNet exWorld := fun _ => ⟨rfl, Or.inr ⟨_, rfl, fun _ _ => rfl⟩⟩

theorem exWired : Wired exNet (otherEnd exLinks) := by
  obtain ⟨chan, h1, -, h2⟩ := C60_wired true (fun _ => true) (fun _ => true) exLinks (by simp) (by simp)
  refine h2 exNet (fun d => ?_)
  have h3 : makeChannel true (fun _ => true) (fun _ => true) exLinks d.1 = .ok (exChan d.1) := by
    generalize d.1 = k; revert k; decide
  have := (h1 d.1).symm.trans h3
  simp only [Outcome.ok.injEq] at this
  exact this.symm

/-- The satellite `(0, 0)` sends two packets to `(0, 1)`, which sends one back and one to `(0, 2)`, which is lost. -/
def exOps : List (Op (End exLinks)) :=
  [.tx (0, false) (.send 0 11 10 7), .tx (0, false) (.send 1 12 4 7), .tx (0, true) (.send 2 21 6 7), .tx (1, false) (.send 3 22 6 7),
   .arrive, .arrive, .tx (0, true) .run, .tx (1, false) .run, .tx (0, false) .run, .finish (0, false), .tx (0, false) .run, .finish (0, true),
   .arrive, .finish (0, true)]

example : ∃ s, exec exNet exOps = some (.ok s) ∧ Quiet s ∧ (s.rx (0, true)).delivered = [(15, 11, 7), (19, 12, 7)] ∧
    (s.rx (0, false)).delivered = [(13, 21, 7)] ∧ (s.rx (1, true)).delivered = [] ∧ s.dropped = [(3, (1, false), 22)] := by
  refine ⟨_, rfl, ?_⟩; unfold Quiet; decide

/-- A constant delay satisfies the condition of `C60_in_order` when no packet is empty. -/
example (d : End exLinks) (acc : List (Nat × Entry × Bool)) (hlen : ∀ x ∈ acc, 0 < x.2.1.len) :
    ∀ x ∈ acc, ∀ y ∈ acc, ∀ t t', t + x.2.1.len ≤ t' →
      t + exWorld.delay t (otherEnd _ d) d + x.2.1.len < t' + exWorld.delay t' (otherEnd _ d) d + y.2.1.len := by
  intro x _ y hy t t' h
  have := hlen y hy
  simp only [exWorld]
  omega

/-- Two satellites approaching each other: the delay is 100 at first and 50 from time 10 on. -/
def nearNet : Net (Fin 2) :=
  ⟨true, fun _ => ⟨2, ⟨false, some 0, some 1⟩, ⟨false, some 1, some 0⟩⟩, fun _ _ _ => true,
    fun t => some (fun _ _ => if t < 10 then 100 else 50), fun _ => none⟩

/-- A packet may overtake the one sent before it. -/
theorem C60_overtaking : ∃ s, exec nearNet [.tx 0 (.send 0 11 10 7), .tx 0 (.send 0 12 10 7), .tx 0 .run, .tx 0 .run, .arrive, .finish 1, .arrive,
      .finish 1] = some (.ok s) ∧ (s.rx 1).delivered = [(70, 12, 7), (110, 11, 7)] := by
  refine ⟨_, rfl, ?_⟩; decide

end IslNet
end Icarus
