import Verif.Model.RxDetail
import Verif.Props.GroundStaRx
import Verif.Props.Network
import Verif.Props.HelperConfig

/-!
# Property C76: the trace sources of the receiving side, and what ASCII trace files are written from
-/

set_option autoImplicit false

namespace Icarus
namespace RxDetail

variable {X : Type}

/-- Calls of one source: (time, what was received). -/
def calls (k : RxTrace) (l : Log X) : List (Nat × X) := l.filterMap (fun c => if c.2.1 = k then some (c.1, c.2.2) else none)

/-- All calls but those of `PhyRxBegin`. -/
def others (l : Log X) : Log X := l.filter (fun c => decide (c.2.1 ≠ .phyRxBegin))

/-- The sources and callbacks called, in this order, when something has been received completely. -/
def atEnd (promisc : Bool) : List RxTrace := [.phyRxEnd, .sniffer, .macRx] ++ (if promisc then [.promisc] else []) ++ [.receive]

/-- In the record `l`, receptions end only after they began: before every `PhyRxEnd` there is a `PhyRxBegin` of the same packet, not later. -/
def BeginsFirst (l : Log X) : Prop :=
  ∀ a b t x, l = a ++ (t, .phyRxEnd, x) :: b → ∃ t' ≤ t, (t', .phyRxBegin, x) ∈ a

theorem calls_append (k : RxTrace) (l m : Log X) : calls k (l ++ m) = calls k l ++ calls k m := by simp [calls]

theorem others_append (l m : Log X) : others (l ++ m) = others l ++ others m := by simp [others]

theorem mem_calls {k : RxTrace} {l : Log X} {t : Nat} {x : X} : (t, x) ∈ calls k l ↔ (t, k, x) ∈ l := by
  simp only [calls, List.mem_filterMap, Option.ite_none_right_eq_some, Option.some.injEq, Prod.mk.injEq]
  constructor
  · rintro ⟨⟨t', k', x'⟩, h, rfl, rfl, rfl⟩; exact h
  · intro h; exact ⟨_, h, rfl, rfl, rfl⟩

/-- What `finish` adds to the record. -/
def batch (promisc : Bool) (y : Nat × X) : Log X := (atEnd promisc).map (fun k => (y.1, k, y.2))

theorem finish_eq (cb : Callbacks) (t : Nat) (x : X) (l : Log X) :
    finish cb t x l = if cb.receive then .ok (l ++ batch cb.promisc (t, x)) else .ub .nullDeref := by
  unfold finish batch atEnd
  cases cb.promisc <;> cases cb.receive <;> simp

theorem calls_batch (p : Bool) (y : Nat × X) : calls .phyRxBegin (batch p y) = [] := by
  cases p <;> simp [batch, atEnd, calls]

theorem others_batch (p : Bool) (y : Nat × X) : others (batch p y) = batch p y := by
  cases p <;> simp [batch, atEnd, others]

theorem mem_batch {p : Bool} {y : Nat × X} {c : Nat × RxTrace × X} (h : c ∈ batch p y) : c.1 = y.1 ∧ c.2.2 = y.2 := by
  simp only [batch, List.mem_map] at h
  obtain ⟨k, -, rfl⟩ := h
  exact ⟨rfl, rfl⟩

theorem BeginsFirst.append_begin {l : Log X} (h : BeginsFirst l) (t : Nat) (x : X) : BeginsFirst (l ++ [(t, .phyRxBegin, x)]) := by
  intro a b t1 x1 e
  rcases List.append_eq_append_iff.mp e with ⟨c, rfl, e2⟩ | ⟨c, rfl, e2⟩
  · rcases c with _ | ⟨c, cs⟩
    · simp at e2
    · simp at e2
  · rcases c with _ | ⟨c, cs⟩
    · simp at e2
    · simp only [List.cons_append, List.cons.injEq] at e2
      obtain ⟨rfl, -⟩ := e2
      exact h a cs t1 x1 rfl

theorem BeginsFirst.append_batch {l : Log X} (h : BeginsFirst l) {p : Bool} {y : Nat × X} (hy : ∃ t' ≤ y.1, (t', .phyRxBegin, y.2) ∈ l) :
    BeginsFirst (l ++ batch p y) := by
  intro a b t1 x1 e
  rcases List.append_eq_append_iff.mp e with ⟨c, rfl, e2⟩ | ⟨c, rfl, e2⟩
  · have hm : (t1, RxTrace.phyRxEnd, x1) ∈ batch p y := by rw [e2]; simp
    obtain ⟨e3, e4⟩ := mem_batch hm
    simp only at e3 e4
    obtain ⟨t', h1, h2⟩ := hy
    exact ⟨t', e3 ▸ h1, by rw [e4]; exact List.mem_append_left _ h2⟩
  · rcases c with _ | ⟨c, cs⟩
    · have hm : (t1, RxTrace.phyRxEnd, x1) ∈ batch p y := by
        simp only [List.nil_append] at e2; rw [← e2]; simp
      obtain ⟨e3, e4⟩ := mem_batch hm
      simp only at e3 e4
      obtain ⟨t', h1, h2⟩ := hy
      exact ⟨t', e3 ▸ h1, by rw [e4]; simpa using h2⟩
    · simp only [List.cons_append, List.cons.injEq] at e2
      obtain ⟨rfl, -⟩ := e2
      exact h a cs t1 x1 rfl

/-- The record `l` of a device that begins the receptions `want` (start, duration, what), of which `pending` are not finished: it reports the
begin of each; it makes the calls of `atEnd`, in this order and with nothing in between but beginnings, at the end of each that is finished;
it is in order of time, and nothing ends before it began. -/
structure Faithful (promisc : Bool) (want : List (Nat × Nat × X)) (pending : List (Nat × X)) (l : Log X) : Prop where
  begins : calls .phyRxBegin l = want.map (fun w => (w.1, w.2.2))
  ends : ∃ done : List (Nat × X), others l = done.flatMap (fun y => (atEnd promisc).map (fun k => (y.1, k, y.2))) ∧
    (done ++ pending).Perm (want.map (fun w => (w.1 + w.2.1, w.2.2)))
  order : l.Pairwise (fun a b => a.1 ≤ b.1)
  first : BeginsFirst l

structure Kept (promisc : Bool) (want : List (Nat × Nat × X)) (clock : Nat) (pending : List (Nat × X)) (l : Log X) : Prop extends
    Faithful promisc want pending l where
  past : ∀ c ∈ l, c.1 ≤ clock
  coming : ∀ e ∈ pending, clock ≤ e.1
  sorted : pending.Pairwise (fun a b => a.1 ≤ b.1)

theorem Kept.init (p : Bool) : Kept (X := X) p [] 0 [] [] :=
  ⟨⟨rfl, ⟨[], rfl, by simp⟩, List.Pairwise.nil, fun a b t x h => by simp at h⟩, by simp, by simp, List.Pairwise.nil⟩

theorem Kept.tick {p : Bool} {want : List (Nat × Nat × X)} {clock t : Nat} {pending : List (Nat × X)} {l : Log X} (h : Kept p want clock pending l)
    (h1 : clock ≤ t) (h2 : ∀ e ∈ pending, t ≤ e.1) : Kept p want t pending l :=
  { h with past := fun c hc => Nat.le_trans (h.past c hc) h1, coming := h2 }

theorem Kept.begin {p : Bool} {want : List (Nat × Nat × X)} {t : Nat} {pending : List (Nat × X)} {l : Log X} (h : Kept p want t pending l)
    (len : Nat) (x : X) : Kept p (want ++ [(t, len, x)]) t (insertEvent (t + len) x pending) (l ++ [(t, .phyRxBegin, x)]) := by
  obtain ⟨done, e1, e2⟩ := h.ends
  refine ⟨⟨?_, ⟨done, ?_, ?_⟩, ?_, h.first.append_begin t x⟩, ?_, ?_, sorted_insertEvent h.sorted⟩
  · rw [calls_append, h.begins]; simp [calls]
  · rw [others_append, e1]; simp [others]
  · refine (List.Perm.append_left _ (insertEvent_perm _ _ _)).trans ?_
    rw [List.map_append]
    exact List.perm_middle.trans ((List.Perm.cons _ e2).trans (List.perm_append_singleton _ _).symm)
  · rw [List.pairwise_append]
    exact ⟨h.order, List.pairwise_singleton _ _, fun a ha b hb => by simp only [List.mem_singleton] at hb; subst hb; exact h.past a ha⟩
  · intro c hc
    rcases List.mem_append.mp hc with hc | hc
    · exact h.past c hc
    · simp only [List.mem_singleton] at hc; subst hc; exact Nat.le_refl _
  · intro e he
    rcases mem_insertEvent.mp he with rfl | he
    · exact Nat.le_add_right _ _
    · exact h.coming e he

theorem Kept.finish {p : Bool} {want : List (Nat × Nat × X)} {clock t : Nat} {pending : List (Nat × X)} {l : Log X} {x : X}
    (h : Kept p want clock ((t, x) :: pending) l) : Kept p want t pending (l ++ batch p (t, x)) := by
  obtain ⟨done, e1, e2⟩ := h.ends
  have hc : clock ≤ t := h.coming (t, x) (by simp)
  have hs := List.pairwise_cons.mp h.sorted
  have hb : ∃ t' ≤ t, (t', RxTrace.phyRxBegin, x) ∈ l := by
    have hm : (t, x) ∈ want.map (fun w => (w.1 + w.2.1, w.2.2)) := e2.mem_iff.mp (by simp)
    simp only [List.mem_map, Prod.mk.injEq] at hm
    obtain ⟨w, hw, e3, e4⟩ := hm
    refine ⟨w.1, by omega, mem_calls.mp ?_⟩
    rw [h.begins, ← e4]
    exact List.mem_map.mpr ⟨w, hw, rfl⟩
  refine ⟨⟨?_, ⟨done ++ [(t, x)], ?_, by simpa using e2⟩, ?_, h.first.append_batch hb⟩, ?_, fun e he => hs.1 e he, hs.2⟩
  · rw [calls_append, calls_batch, List.append_nil, h.begins]
  · rw [others_append, others_batch, e1]; simp [batch]
  · rw [List.pairwise_append]
    refine ⟨h.order, ?_, ?_⟩
    · rw [List.pairwise_iff_forall_sublist]
      intro a b hab
      have ha := mem_batch (hab.subset (show a ∈ [a, b] by simp))
      have hb' := mem_batch (hab.subset (show b ∈ [a, b] by simp))
      rw [ha.1, hb'.1]
    · intro a ha b hb'
      rw [(mem_batch hb').1]
      exact Nat.le_trans (h.past a ha) hc
  · intro c hc'
    rcases List.mem_append.mp hc' with hc' | hc'
    · exact Nat.le_trans (h.past c hc') hc
    · rw [(mem_batch hc').1]

/-! ## Ground station -/

namespace Ground
open GroundStaRx (Op Up)

/-- The frames that should be received, with the time of their arrival and their duration: those from the satellite tracked when they arrive. -/
def wanted (e : Endian) (ty : UInt8) (a : SatAddress) : List Op → List (Nat × Nat × Up)
  | [] => []
  | .arrive t pkt len src proto :: os =>
    if src = a.convertTo e ty then (t, len, ⟨pkt, src, proto⟩) :: wanted e ty a os else wanted e ty a os
  | .setRemote _ b :: os => wanted e ty b os
  | .run :: os => wanted e ty a os

variable {debug : Bool} {e : Endian} {ty : UInt8} {cb : Callbacks} {remote : SatAddress}

theorem wanted_append (a : SatAddress) (l m : List Op) : wanted e ty a (l ++ m) = wanted e ty a l ++ wanted e ty (trackedRx a l) m := by
  induction l generalizing a with
  | nil => rfl
  | cons o l ih =>
    cases o with
    | arrive t pkt len src proto =>
      simp only [List.cons_append, wanted, trackedRx, ih]
      split <;> simp
    | setRemote t b => simp [wanted, trackedRx, ih]
    | run => simp [wanted, trackedRx, ih]

theorem receive_satellite (s : Sys) (t pkt len : Nat) (a : SatAddress) (proto : UInt16) :
    receiveFromSat debug e ty s t pkt len (a.convertTo e ty) proto =
      .ok (if a.convertTo e ty = s.remote.convertTo e ty then
          { s with clock := t, log := s.log ++ [(t, .phyRxBegin, ⟨pkt, a.convertTo e ty, proto⟩)],
                   pending := insertEvent (t + len) ⟨pkt, a.convertTo e ty, proto⟩ s.pending }
        else { s with clock := t }) := by
  unfold receiveFromSat
  simp only
  rw [(C01_roundtrip debug e ty a).1, Outcome.bind_ok]
  have h1 : a.eq e s.remote = true ↔ a.convertTo e ty = s.remote.convertTo e ty := by
    rw [C01_eq_iff]
    constructor
    · intro h; rw [h]
    · intro h
      have h2 := (C01_roundtrip debug e ty a).1
      rw [h, (C01_roundtrip debug e ty s.remote).1] at h2
      simpa using h2.symm
  by_cases h : a.convertTo e ty = s.remote.convertTo e ty
  · simp [h1.mpr h, h]
  · have : a.eq e s.remote = false := by
      cases hb : a.eq e s.remote with
      | false => rfl
      | true => exact absurd (h1.mp hb) h
    simp [this, h]

theorem step_kept {ops : List Op} {o : Op} {s : Sys} {r : Outcome Sys} (hsrc : FromSats e ty (ops ++ [o]))
    (ht : s.remote = trackedRx remote ops) (hk : Kept cb.promisc (wanted e ty remote ops) s.clock s.pending s.log)
    (hs : step debug e ty cb s o = some r) :
    (o = .run ∧ cb.receive = false ∧ r = .ub .nullDeref) ∨ ((o = .run → cb.receive = true) ∧ ∃ s', r = .ok s' ∧ s'.remote = trackedRx remote (ops ++ [o]) ∧
      Kept cb.promisc (wanted e ty remote (ops ++ [o])) s'.clock s'.pending s'.log) := by
  cases o with
  | setRemote t b =>
    simp only [step] at hs
    split at hs
    · rename_i hp
      simp only [Option.some.injEq] at hs
      refine Or.inr ⟨by simp, _, hs.symm, by simp [trackedRx_append, trackedRx], ?_⟩
      simpa [wanted_append, wanted] using hk.tick hp.1 hp.2
    · simp at hs
  | run =>
    simp only [step] at hs
    split at hs
    · simp at hs
    · rename_i t u es hp
      simp only [Option.some.injEq, finish_eq] at hs
      cases hc : cb.receive with
      | false => rw [hc] at hs; exact Or.inl ⟨rfl, rfl, by simpa using hs.symm⟩
      | true =>
        rw [hc] at hs
        refine Or.inr ⟨fun _ => rfl, _, by simpa using hs.symm, by simp [trackedRx_append, trackedRx, ht], ?_⟩
        rw [hp] at hk
        simpa [wanted_append, wanted] using hk.finish
  | arrive t pkt len src proto =>
    simp only [step] at hs
    split at hs
    · rename_i hp
      simp only [Option.some.injEq] at hs
      obtain ⟨a, rfl⟩ := hsrc t pkt len src proto (by simp)
      rw [receive_satellite] at hs
      refine Or.inr ⟨by simp, _, hs.symm, ?_, ?_⟩
      · split <;> simp [trackedRx_append, trackedRx, ht]
      · rw [wanted_append, ← ht]
        split
        · rename_i heq
          simpa [wanted, heq] using (hk.tick hp.1 hp.2).begin len ⟨pkt, a.convertTo e ty, proto⟩
        · rename_i hne
          simpa [wanted, hne] using hk.tick hp.1 hp.2
    · simp at hs

theorem exec_kept {ops : List Op} {r : Outcome Sys} (hsrc : FromSats e ty ops) (h : exec debug e ty cb remote ops = some r) :
    (.run ∈ ops ∧ cb.receive = false ∧ r = .ub .nullDeref) ∨ ((.run ∈ ops → cb.receive = true) ∧ ∃ s, r = .ok s ∧ s.remote = trackedRx remote ops ∧
      Kept cb.promisc (wanted e ty remote ops) s.clock s.pending s.log) := by
  induction ops using List.reverseRecOn generalizing r with
  | nil =>
    simp only [exec, runFrom, Option.some.injEq] at h
    exact Or.inr ⟨by simp, _, h.symm, rfl, Kept.init _⟩
  | append_singleton os o ih =>
    simp only [exec, runFrom_append] at h
    cases hr : runFrom (step debug e ty cb) ⟨0, remote, [], []⟩ os with
    | none => simp [hr] at h
    | some r1 =>
      rcases ih (fun t p l s q hm => hsrc t p l s q (by simp [hm])) hr with ⟨h1, h2, rfl⟩ | ⟨h1, s1, rfl, h2, h3⟩
      · simp only [hr, Option.some.injEq] at h
        exact Or.inl ⟨by simp [h1], h2, h.symm⟩
      · simp only [hr, runFrom_single] at h
        rcases step_kept hsrc h2 h3 h with ⟨rfl, g1, g2⟩ | ⟨g1, g2⟩
        · exact Or.inl ⟨by simp, g1, g2⟩
        · refine Or.inr ⟨fun hm => ?_, g2⟩
          rcases List.mem_append.mp hm with hm | hm
          · exact h1 hm
          · exact g1 (by simpa using (List.mem_singleton.mp hm).symm)

/-- A ground station with a receive callback: whatever arrives and however the tracked satellite changes, nothing goes wrong and the record of its
trace sources and callbacks is `Faithful` to the frames that arrive from the satellite tracked at that moment. -/
theorem C76_ground {ops : List Op} {r : Outcome Sys} (hsrc : FromSats e ty ops) (hcb : cb.receive = true)
    (h : exec debug e ty cb remote ops = some r) :
    ∃ s, r = .ok s ∧ Faithful cb.promisc (wanted e ty remote ops) s.pending s.log := by
  rcases exec_kept hsrc h with ⟨-, h1, -⟩ | ⟨-, s, rfl, -, h1⟩
  · simp [hcb] at h1
  · exact ⟨s, rfl, h1.toFaithful⟩

/-- Without a receive callback the end of the first reception calls a null callback. -/
theorem C76_ground_no_callback {ops : List Op} {r : Outcome Sys} (hsrc : FromSats e ty ops) (hcb : cb.receive = false)
    (h : exec debug e ty cb remote ops = some r) : r = .ub .nullDeref ↔ .run ∈ ops := by
  rcases exec_kept hsrc h with ⟨h1, -, h2⟩ | ⟨h1, s, rfl, -⟩
  · exact ⟨fun _ => h1, fun _ => h2⟩
  · constructor
    · intro h2; simp at h2
    · intro h2; simp [h1 h2] at hcb

/-- The device passes up what the model of C36 passes up: the calls of the receive callback are its deliveries, and the beginnings its beginnings. -/
theorem C76_ground_receives {ops : List Op} {s : Sys} (h : exec debug e ty cb remote ops = some (.ok s)) :
    ∃ b, GroundStaRx.exec debug e ty remote ops = some (.ok b) ∧ s.pending = b.pending ∧ calls .receive s.log = b.delivered ∧
      (calls .phyRxBegin s.log).map (fun y => (y.1, y.2.pkt)) = b.begun := by
  have key : ∃ b, GroundStaRx.exec debug e ty remote ops = some (.ok b) ∧ s.clock = b.clock ∧ s.remote = b.remote ∧ s.pending = b.pending ∧
      calls .receive s.log = b.delivered ∧ (calls .phyRxBegin s.log).map (fun y => (y.1, y.2.pkt)) = b.begun := by
    refine run_induction (step := step debug e ty cb) (P := fun ops (s : Sys) => ∃ b, GroundStaRx.exec debug e ty remote ops = some (.ok b) ∧
      s.clock = b.clock ∧ s.remote = b.remote ∧ s.pending = b.pending ∧ calls .receive s.log = b.delivered ∧
      (calls .phyRxBegin s.log).map (fun y => (y.1, y.2.pkt)) = b.begun) ⟨GroundStaRx.Sys.init remote, rfl, rfl, rfl, rfl, rfl, rfl⟩ ?_ h
    rintro os o s s' - ⟨b, hb, c1, c2, c3, c4, c5⟩ hst
    have hposs : ∀ t, possible s t ↔ GroundStaRx.possible b t := fun t => by simp only [possible, GroundStaRx.possible, c1, c3]
    suffices hs : ∃ b', GroundStaRx.step debug e ty b o = some (.ok b') ∧ s'.clock = b'.clock ∧ s'.remote = b'.remote ∧ s'.pending = b'.pending ∧
        calls .receive s'.log = b'.delivered ∧ (calls .phyRxBegin s'.log).map (fun y => (y.1, y.2.pkt)) = b'.begun by
      obtain ⟨b', g1, g2⟩ := hs
      exact ⟨b', runFrom_snoc.mpr ⟨b, hb, g1⟩, g2⟩
    cases o with
    | setRemote t a =>
      simp only [step] at hst
      split at hst
      · rename_i hp
        simp only [Option.some.injEq, Outcome.ok.injEq] at hst
        subst hst
        exact ⟨{ b with clock := t, remote := a }, by simp [GroundStaRx.step, (hposs t).mp hp], rfl, rfl, c3, c4, c5⟩
      · simp at hst
    | run =>
      simp only [step] at hst
      split at hst
      · simp at hst
      · rename_i t u es hp
        rw [finish_eq] at hst
        cases hc : cb.receive with
        | false => simp [hc] at hst
        | true =>
          simp only [hc, if_true, Outcome.bind_ok, Option.some.injEq, Outcome.ok.injEq] at hst
          subst hst
          rw [hp] at c3
          refine ⟨{ b with clock := t, pending := es, delivered := b.delivered ++ [(t, u)] }, by simp only [GroundStaRx.step, ← c3], rfl, c2, rfl, ?_, ?_⟩
          · simp only
            rw [calls_append, c4]; cases cb.promisc <;> simp [batch, atEnd, calls]
          · simp only
            rw [calls_append, calls_batch, List.append_nil, c5]
    | arrive t pkt len src proto =>
      simp only [step] at hst
      split at hst
      · rename_i hp
        simp only [Option.some.injEq] at hst
        unfold receiveFromSat at hst
        simp only [GroundStaRx.step, (hposs t).mp hp, if_true, GroundStaRx.receiveFromSat]
        cases hcv : SatAddress.convertFrom debug e ty src with
        | ub f => simp [hcv] at hst
        | abort => simp [hcv] at hst
        | assertFail => simp [hcv] at hst
        | ok a =>
          simp only [hcv, Outcome.bind_ok, c2] at hst ⊢
          cases ha : a.eq e b.remote with
          | false =>
            simp only [ha, if_true, Outcome.ok.injEq] at hst
            subst hst
            exact ⟨{ b with clock := t }, by simp, rfl, rfl, c3, c4, c5⟩
          | true =>
            simp only [ha, Bool.true_eq_false, if_false, Outcome.ok.injEq] at hst
            subst hst
            refine ⟨{ b with clock := t, begun := b.begun ++ [(t, pkt)], pending := insertEvent (t + len) ⟨pkt, src, proto⟩ b.pending }, by simp only [if_true], rfl, rfl, ?_, ?_, ?_⟩
            · simp only [c3]
            · simp only
              rw [calls_append, c4]; simp [calls]
            · simp only
              rw [calls_append, List.map_append, c5]; simp [calls]
      · simp at hst
  obtain ⟨b, h1, -, -, h2⟩ := key
  exact ⟨b, h1, h2⟩

example : FromSats .little 7 rxOps ∧ ∃ s, exec true .little 7 ⟨true, true⟩ (SatAddress.mk3 .little 1 2 3) rxOps = some (.ok s) ∧ s.pending = [] ∧
    s.log.map (fun c => (c.1, c.2.1, c.2.2.pkt)) =
      [(0, .phyRxBegin, 1), (10, .phyRxEnd, 1), (10, .sniffer, 1), (10, .macRx, 1), (10, .promisc, 1), (10, .receive, 1), (20, .phyRxBegin, 2),
       (26, .phyRxBegin, 4), (30, .phyRxEnd, 2), (30, .sniffer, 2), (30, .macRx, 2), (30, .promisc, 2), (30, .receive, 2),
       (36, .phyRxEnd, 4), (36, .sniffer, 4), (36, .macRx, 4), (36, .promisc, 4), (36, .receive, 4)] := by
  constructor
  · intro t pkt len src proto h
    simp only [rxOps, List.mem_cons, Op.arrive.injEq, List.not_mem_nil, or_false, reduceCtorEq, false_or] at h
    rcases h with ⟨-, -, -, rfl, -⟩ | ⟨-, -, -, rfl, -⟩ | ⟨-, -, -, rfl, -⟩ | ⟨-, -, -, rfl, -⟩ <;> exact ⟨_, rfl⟩
  · refine ⟨_, rfl, ?_⟩; decide

end Ground

/-! ## Satellite, from another satellite -/

namespace Isl
open SatNet (RxOp)

/-- All frames that arrive, with the time of their arrival and their duration. -/
def wanted : List RxOp → List (Nat × Nat × Nat × UInt16)
  | [] => []
  | .arrive t pkt len proto :: os => (t, len, pkt, proto) :: wanted os
  | .run :: os => wanted os

theorem wanted_append (l m : List RxOp) : wanted (l ++ m) = wanted l ++ wanted m := by
  induction l with
  | nil => rfl
  | cons o l ih => cases o <;> simp [wanted, ih]

variable {cb : Callbacks}

theorem step_kept {ops : List RxOp} {o : RxOp} {s : Sys} {r : Outcome Sys} (hk : Kept cb.promisc (wanted ops) s.clock s.pending s.log)
    (hs : step cb s o = some r) :
    (o = .run ∧ cb.receive = false ∧ r = .ub .nullDeref) ∨ ((o = .run → cb.receive = true) ∧ ∃ s', r = .ok s' ∧
      Kept cb.promisc (wanted (ops ++ [o])) s'.clock s'.pending s'.log) := by
  cases o with
  | run =>
    simp only [step] at hs
    split at hs
    · simp at hs
    · rename_i t u es hp
      simp only [Option.some.injEq, finish_eq] at hs
      cases hc : cb.receive with
      | false => rw [hc] at hs; exact Or.inl ⟨rfl, rfl, by simpa using hs.symm⟩
      | true =>
        rw [hc] at hs
        refine Or.inr ⟨fun _ => rfl, _, by simpa using hs.symm, ?_⟩
        rw [hp] at hk
        simpa [wanted_append, wanted] using hk.finish
  | arrive t pkt len proto =>
    simp only [step] at hs
    split at hs
    · rename_i hp
      simp only [Option.some.injEq] at hs
      refine Or.inr ⟨by simp, _, hs.symm, ?_⟩
      rw [wanted_append]
      exact (hk.tick hp.1 hp.2).begin len (pkt, proto)
    · simp at hs

theorem exec_kept {ops : List RxOp} {r : Outcome Sys} (h : exec cb ops = some r) :
    (.run ∈ ops ∧ cb.receive = false ∧ r = .ub .nullDeref) ∨ ((.run ∈ ops → cb.receive = true) ∧ ∃ s, r = .ok s ∧
      Kept cb.promisc (wanted ops) s.clock s.pending s.log) := by
  induction ops using List.reverseRecOn generalizing r with
  | nil =>
    simp only [exec, runFrom, Option.some.injEq] at h
    exact Or.inr ⟨by simp, _, h.symm, Kept.init _⟩
  | append_singleton os o ih =>
    simp only [exec, runFrom_append] at h
    cases hr : runFrom (step cb) ⟨0, [], []⟩ os with
    | none => simp [hr] at h
    | some r1 =>
      rcases ih hr with ⟨h1, h2, rfl⟩ | ⟨h1, s1, rfl, h3⟩
      · simp only [hr, Option.some.injEq] at h
        exact Or.inl ⟨by simp [h1], h2, h.symm⟩
      · simp only [hr, runFrom_single] at h
        rcases step_kept h3 h with ⟨rfl, g1, g2⟩ | ⟨g1, g2⟩
        · exact Or.inl ⟨by simp, g1, g2⟩
        · refine Or.inr ⟨fun hm => ?_, g2⟩
          rcases List.mem_append.mp hm with hm | hm
          · exact h1 hm
          · exact g1 (by simpa using (List.mem_singleton.mp hm).symm)

/-- The device of an inter-satellite link with a receive callback: the record is `Faithful` to all frames that arrive. -/
theorem C76_isl {ops : List RxOp} {r : Outcome Sys} (hcb : cb.receive = true) (h : exec cb ops = some r) :
    ∃ s, r = .ok s ∧ Faithful cb.promisc (wanted ops) s.pending s.log := by
  rcases exec_kept h with ⟨-, h1, -⟩ | ⟨-, s, rfl, h1⟩
  · simp [hcb] at h1
  · exact ⟨s, rfl, h1.toFaithful⟩

/-- Without a receive callback the end of the first reception calls a null callback. -/
theorem C76_isl_no_callback {ops : List RxOp} {r : Outcome Sys} (hcb : cb.receive = false) (h : exec cb ops = some r) :
    r = .ub .nullDeref ↔ .run ∈ ops := by
  rcases exec_kept h with ⟨h1, -, h2⟩ | ⟨h1, s, rfl, -⟩
  · exact ⟨fun _ => h1, fun _ => h2⟩
  · constructor
    · intro h2; simp at h2
    · intro h2; simp [h1 h2] at hcb

example : ∃ s, exec ⟨false, true⟩ [.arrive 0 1 10 7, .arrive 5 2 3 9, .run, .run] = some (.ok s) ∧ s.log =
    [(0, .phyRxBegin, 1, 7), (5, .phyRxBegin, 2, 9), (8, .phyRxEnd, 2, 9), (8, .sniffer, 2, 9), (8, .macRx, 2, 9), (8, .receive, 2, 9),
     (10, .phyRxEnd, 1, 7), (10, .sniffer, 1, 7), (10, .macRx, 1, 7), (10, .receive, 1, 7)] := by
  refine ⟨_, rfl, ?_⟩; decide

example : exec ⟨true, false⟩ [.arrive 0 1 10 7, .run] = some (.ub .nullDeref) := by decide

end Isl

/-! ## Satellite, from the ground -/

namespace Sat
open Uplink (Receiver)
open Network (Honest)

variable {P R : Type} {cb : Callbacks} {m : Receiver P R}

theorem finishAll_eq (hcb : cb.receive = true) (ys : List (Nat × Nat)) (l : Log Nat) :
    finishAll cb ys l = .ok (l ++ ys.flatMap (batch cb.promisc)) := by
  induction ys generalizing l with
  | nil => simp [finishAll]
  | cons y ys ih =>
    obtain ⟨t, k⟩ := y
    simp [finishAll, finish_eq, hcb, ih]

theorem finishAll_none (hcb : cb.receive = false) (y : Nat × Nat) (ys : List (Nat × Nat)) (l : Log Nat) :
    finishAll cb (y :: ys) l = .ub .nullDeref := by
  obtain ⟨t, k⟩ := y
  simp [finishAll, finish_eq, hcb]

/-- A receiver never takes back a delivery. -/
def Grows (m : Receiver P R) : Prop := ∀ r o r', m.step r o = some (.ok r') → m.delivered r <+: m.delivered r'

theorem none_grows : Grows (Uplink.noneReceiver P) := by
  intro r o r' h
  simp only [Uplink.noneReceiver] at h ⊢
  obtain ⟨x, hx, e⟩ := Option.map_eq_some_iff.mp h
  simp only [Outcome.ok.injEq] at e
  subst e
  cases o <;> simp only [NoneMac.step] at hx <;> split at hx <;> simp_all <;> (try subst hx) <;> simp

theorem aloha_grows [Zero P] [Add P] (lost : P → P → Bool) : Grows (Uplink.alohaReceiver lost) := by
  intro r o r' h
  simp only [Uplink.alohaReceiver] at h ⊢
  obtain ⟨x, hx, e⟩ := Option.map_eq_some_iff.mp h
  simp only [Outcome.ok.injEq] at e
  subst e
  cases o <;> simp only [Aloha.step] at hx <;> split at hx <;> simp_all <;> (try subst hx) <;> simp

theorem crdsa_grows [Zero P] [Add P] (lost : P → P → Bool) (F : Nat) : Grows (Uplink.crdsaReceiver lost F) := by
  intro r o r' h
  simp only [Uplink.crdsaReceiver] at h ⊢
  cases o with
  | arrive f =>
    obtain ⟨-, rfl⟩ := Crdsa.step_arrive_ok.mp h
    exact List.prefix_refl _
  | finish =>
    obtain ⟨f, rest, st, out, hp, hf, rfl⟩ := Crdsa.step_finish_ok.mp h
    exact List.prefix_append _ _

theorem exec_log (hg : Grows m) (h0 : m.delivered m.init = []) (hh : ∀ rops r, runFrom m.step m.init rops = some (.ok r) → ∀ y ∈ m.delivered r,
      ∃ f ∈ Aloha.frames rops, f.uid = y.2 ∧ f.start ≤ y.1) (hcb : cb.receive = true) {ops : List (Aloha.Op P)} {s : Sys R}
    (h : exec cb m ops = some (.ok s)) :
    runFrom m.step m.init ops = some (.ok s.rx) ∧ calls .phyRxBegin s.log = (Aloha.frames ops).map (fun f => (f.start, f.uid)) ∧
      others s.log = (m.delivered s.rx).flatMap (batch cb.promisc) ∧ BeginsFirst s.log := by
  refine run_induction (step := step cb m) (P := fun ops (s : Sys R) => runFrom m.step m.init ops = some (.ok s.rx) ∧
    calls .phyRxBegin s.log = (Aloha.frames ops).map (fun f => (f.start, f.uid)) ∧
      others s.log = (m.delivered s.rx).flatMap (batch cb.promisc) ∧ BeginsFirst s.log)
    ⟨rfl, rfl, by simp [h0, others], fun a b t x h => by simp at h⟩ ?_ h
  rintro os o s s' - ⟨h1, h2, h3, h4⟩ hst
  unfold step at hst
  simp only at hst
  generalize hl : begin s.log o = l at hst
  have hl1 : calls .phyRxBegin l = (Aloha.frames (os ++ [o])).map (fun f => (f.start, f.uid)) := by
    rw [← hl, Aloha.frames_append, List.map_append, ← h2]
    cases o with
    | arrive f => simp only [begin]; rw [calls_append]; simp [calls, Aloha.frames]
    | finish => simp [begin, Aloha.frames]
  have hl2 : others l = others s.log := by
    rw [← hl]
    cases o with
    | arrive f => simp only [begin]; rw [others_append]; simp [others]
    | finish => rfl
  have hl3 : BeginsFirst l := by
    rw [← hl]
    cases o with
    | arrive f => exact h4.append_begin _ _
    | finish => exact h4
  cases hm : m.step s.rx o with
  | none => simp [hm] at hst
  | some r =>
    cases r with
    | ub f => simp [hm] at hst
    | abort => simp [hm] at hst
    | assertFail => simp [hm] at hst
    | ok r =>
      simp only [hm, Outcome.bind_ok, finishAll_eq hcb, Option.some.injEq, Outcome.ok.injEq] at hst
      subst hst
      have hrun : runFrom m.step m.init (os ++ [o]) = some (.ok r) := runFrom_snoc.mpr ⟨_, h1, hm⟩
      obtain ⟨new, hnew⟩ := hg _ _ _ hm
      have hdrop : (m.delivered r).drop (m.delivered s.rx).length = new := by rw [← hnew]; simp
      have hmem : ∀ y ∈ new, ∃ t' ≤ y.1, (t', RxTrace.phyRxBegin, y.2) ∈ l := by
        intro y hy
        obtain ⟨f, hf, e1, e2⟩ := hh _ _ hrun y (by rw [← hnew]; exact List.mem_append_right _ hy)
        refine ⟨f.start, e2, mem_calls.mp ?_⟩
        rw [hl1, ← e1]
        exact List.mem_map.mpr ⟨f, hf, rfl⟩
      rw [hdrop]
      refine ⟨hrun, ?_, ?_, ?_⟩
      · rw [calls_append, hl1]
        have : calls .phyRxBegin (new.flatMap (batch cb.promisc)) = [] := by
          clear hmem hnew hdrop
          induction new with
          | nil => rfl
          | cons y ys ih => rw [List.flatMap_cons, calls_append, calls_batch, ih]; rfl
        rw [this, List.append_nil]
      · rw [others_append, hl2, h3, ← hnew, List.flatMap_append]
        congr 1
        clear hmem hnew hdrop
        induction new with
        | nil => rfl
        | cons y ys ih => rw [List.flatMap_cons, others_append, others_batch, ih]
      · clear hnew hdrop hl1 hl2 hl
        induction new generalizing l with
        | nil => simpa using hl3
        | cons y ys ih =>
          rw [List.flatMap_cons, ← List.append_assoc]
          refine ih (l ++ batch cb.promisc y) (hl3.append_batch (hmem y (by simp))) ?_
          intro z hz
          obtain ⟨t', e1, e2⟩ := hmem z (by simp [hz])
          exact ⟨t', e1, List.mem_append_left _ e2⟩

/-- A satellite with a receive callback and any of the three MACs (`Honest` by C73, `Grows` above): `PhyRxBegin` reports every frame that arrives
from the ground, the calls of `atEnd` are made, in this order, for exactly what the MAC delivers, in the order and at the times it delivers them, and nothing
ends that did not begin. -/
theorem C76_sat {full : Bool} (hg : Grows m) (h0 : m.delivered m.init = []) (hh : Honest full m) (hcb : cb.receive = true) {ops : List (Aloha.Op P)}
    {s : Sys R} (h : exec cb m ops = some (.ok s)) :
    runFrom m.step m.init ops = some (.ok s.rx) ∧ calls .phyRxBegin s.log = (Aloha.frames ops).map (fun f => (f.start, f.uid)) ∧
      others s.log = (m.delivered s.rx).flatMap (fun y => (atEnd cb.promisc).map (fun k => (y.1, k, y.2))) ∧ BeginsFirst s.log :=
  exec_log hg h0 (fun rops r hr y hy => by
    obtain ⟨f, hf, e1, e2⟩ := hh.heard rops r hr y hy
    exact ⟨f, hf, e1, by omega⟩) hcb h

/-- The trace sources and callbacks have no influence on what is received. -/
theorem C76_sat_total (hcb : cb.receive = true) {ops : List (Aloha.Op P)} {r : R} (h : runFrom m.step m.init ops = some (.ok r)) :
    ∃ s, exec cb m ops = some (.ok s) ∧ s.rx = r := by
  refine run_induction (step := m.step) (P := fun ops r => ∃ s, exec cb m ops = some (.ok s) ∧ s.rx = r) ⟨_, rfl, rfl⟩ ?_ h
  rintro os o r r' - ⟨s, h1, rfl⟩ hst
  refine ⟨⟨r', begin s.log o ++ ((m.delivered r').drop (m.delivered s.rx).length).flatMap (batch cb.promisc)⟩, runFrom_snoc.mpr ⟨s, h1, ?_⟩, rfl⟩
  simp [step, hst, finishAll_eq hcb]

/-- Without a receive callback, the first delivery calls a null callback. -/
theorem C76_sat_no_callback (hg : Grows m) (hcb : cb.receive = false) {ops : List (Aloha.Op P)} {s : Sys R} (h : exec cb m ops = some (.ok s))
    {o : Aloha.Op P} {r : R} (hst : m.step s.rx o = some (.ok r)) (hd : m.delivered r ≠ m.delivered s.rx) :
    exec cb m (ops ++ [o]) = some (.ub .nullDeref) := by
  obtain ⟨new, hnew⟩ := hg _ _ _ hst
  have hdrop : (m.delivered r).drop (m.delivered s.rx).length = new := by rw [← hnew]; simp
  have e1 : exec cb m (ops ++ [o]) = step cb m s o := by
    unfold exec at h ⊢
    rw [runFrom_append, h]
    exact runFrom_single _ _
  rw [e1]
  cases new with
  | nil => exact absurd (by simpa using hnew.symm) hd
  | cons y ys => simp [step, hst, hdrop, finishAll_none hcb]

/-- ALOHA: frames 0 and 1 collide, frame 2 does not; CRDSA with frames of 40 ticks: packet 5 arrives twice, the first time together with packet 6,
which arrives alone later. -/
example : (∃ s, exec ⟨false, true⟩ (Uplink.alohaReceiver (P := Nat) (fun _ i => decide (0 < i)))
      [.arrive ⟨0, 0, 10, 1⟩, .arrive ⟨1, 5, 10, 1⟩, .finish, .finish, .arrive ⟨2, 20, 10, 1⟩, .finish] = some (.ok s) ∧
    s.log = [(0, .phyRxBegin, 0), (5, .phyRxBegin, 1), (20, .phyRxBegin, 2), (30, .phyRxEnd, 2), (30, .sniffer, 2), (30, .macRx, 2), (30, .receive, 2)]) := by
  refine ⟨_, rfl, ?_⟩; decide

example : ∃ s, exec ⟨true, true⟩ (Uplink.crdsaReceiver (P := Nat) (fun _ i => decide (0 < i)) 40)
      [.arrive ⟨5, 0, 10, 1⟩, .arrive ⟨6, 0, 10, 1⟩, .finish, .finish, .arrive ⟨6, 10, 10, 1⟩, .finish, .arrive ⟨5, 20, 10, 1⟩, .finish] = some (.ok s) ∧
    calls .phyRxBegin s.log = [(0, 5), (0, 6), (10, 6), (20, 5)] ∧ others s.log =
      [(20, .phyRxEnd, 6), (20, .sniffer, 6), (20, .macRx, 6), (20, .promisc, 6), (20, .receive, 6),
       (20, .phyRxEnd, 5), (20, .sniffer, 5), (20, .macRx, 5), (20, .promisc, 5), (20, .receive, 5)] := by
  refine ⟨_, rfl, ?_⟩; decide

end Sat

/-! ## ASCII trace files -/

namespace Ascii
open HelperConfig

variable {V : Type}

/-- The lines of a trace file: receptions, and what enters, leaves and is refused by the queue. -/
def wanted : List Hook := [('r', .device "MacRx"), ('+', .queue "Enqueue"), ('-', .queue "Dequeue"), ('d', .queue "Drop")]

/-- A packet queue, as those of ns-3. -/
def IsQueue (q : Cls V) : Prop := q.hasTrace "Enqueue" = true ∧ q.hasTrace "Dequeue" = true ∧ q.hasTrace "Drop" = true

theorem toFile_device {debug : Bool} {c q : Cls V} (hc : c.hasTrace "MacRx" = true) (hq : IsQueue q) :
    ∃ l, toFile debug c (some q) = .ok l ∧ l.Perm wanted := by
  obtain ⟨h1, h2, h3⟩ := hq
  refine ⟨[('r', .device "MacRx"), ('+', .queue "Enqueue"), ('d', .queue "Drop"), ('-', .queue "Dequeue")], ?_, by decide⟩
  simp [toFile, hook, hc, h1, h2, h3, Outcome.deref, Outcome.nsAssert]

theorem toStream_device {strict : Bool} {c q : Cls V} {name : String} (hc : c.hasTrace "MacRx" = true) (hn : c.isA name = true)
    (ha : (c.attr "TxQueue").isSome = true) (hq : IsQueue q) : toStream strict c (some q) name = .ok wanted := by
  obtain ⟨h1, h2, h3⟩ := hq
  simp [toStream, connect, hc, hn, ha, h1, h2, h3, wanted]

/-- For every device installed by the two helpers, whose queue is a packet queue: with or without a stream, the trace file is written from exactly
the sources of `wanted`, each once, and nothing goes wrong. -/
theorem C76_ascii (vals : Values V) (debug strict stream : Bool) {q : Cls V} (hq : IsQueue q) :
    (∀ c ∈ [groundStaClass vals, sat2GroundClass vals], ∃ l, icarusAscii debug strict c (some q) stream = .ok (some l) ∧ l.Perm wanted) ∧
    ∃ l, islAscii debug strict (satClass vals) (some q) stream = .ok (some l) ∧ l.Perm wanted := by
  constructor
  · intro c hc
    simp only [List.mem_cons, List.not_mem_nil, or_false] at hc
    rcases hc with rfl | rfl
    · cases stream with
      | false =>
        obtain ⟨l, h1, h2⟩ := toFile_device (debug := debug) (c := groundStaClass vals) rfl hq
        exact ⟨l, by simp [icarusAscii, show (groundStaClass vals).isA "ns3::icarus::IcarusNetDevice" = true from rfl, h1], h2⟩
      | true =>
        refine ⟨wanted, ?_, List.Perm.refl _⟩
        simp [icarusAscii, show (groundStaClass vals).isA "ns3::icarus::IcarusNetDevice" = true from rfl,
          show (groundStaClass vals).isA "ns3::icarus::GroundStaNetDevice" = true from rfl,
          toStream_device (strict := strict) (c := groundStaClass vals) (name := "ns3::icarus::GroundStaNetDevice") rfl rfl rfl hq]
    · cases stream with
      | false =>
        obtain ⟨l, h1, h2⟩ := toFile_device (debug := debug) (c := sat2GroundClass vals) rfl hq
        exact ⟨l, by simp [icarusAscii, show (sat2GroundClass vals).isA "ns3::icarus::IcarusNetDevice" = true from rfl, h1], h2⟩
      | true =>
        refine ⟨wanted, ?_, List.Perm.refl _⟩
        simp [icarusAscii, show (sat2GroundClass vals).isA "ns3::icarus::IcarusNetDevice" = true from rfl,
          show (sat2GroundClass vals).isA "ns3::icarus::GroundStaNetDevice" = false from rfl,
          show (sat2GroundClass vals).isA "ns3::icarus::Sat2GroundNetDevice" = true from rfl, Outcome.nsAssert,
          toStream_device (strict := strict) (c := sat2GroundClass vals) (name := "ns3::icarus::Sat2GroundNetDevice") rfl rfl rfl hq]
  · cases stream with
    | false =>
      obtain ⟨l, h1, h2⟩ := toFile_device (debug := debug) (c := satClass vals) rfl hq
      exact ⟨l, by simp [islAscii, show (satClass vals).isA "ns3::icarus::SatNetDevice" = true from rfl, h1], h2⟩
    | true =>
      refine ⟨wanted, ?_, List.Perm.refl _⟩
      simp [islAscii, show (satClass vals).isA "ns3::icarus::SatNetDevice" = true from rfl,
        toStream_device (strict := strict) (c := satClass vals) (name := "ns3::icarus::SatNetDevice") rfl rfl rfl hq]

/-- Each helper leaves the devices of the other one, and any foreign device, alone. -/
theorem C76_ascii_foreign (debug strict stream : Bool) (queue : Option (Cls V)) (c : Cls V) :
    (c.isA "ns3::icarus::IcarusNetDevice" = false → icarusAscii debug strict c queue stream = .ok none) ∧
    (c.isA "ns3::icarus::SatNetDevice" = false → islAscii debug strict c queue stream = .ok none) :=
  ⟨fun h => by simp [icarusAscii, h], fun h => by simp [islAscii, h]⟩

/-- A device without a queue: asking for a file of its own dereferences a null pointer; with a stream the simulation stops or, with a version of ns-3
that accepts paths without a match, only receptions are written. -/
theorem C76_ascii_no_queue (vals : Values V) (debug : Bool) :
    (∀ c ∈ [groundStaClass vals, sat2GroundClass vals], ∀ strict, icarusAscii debug strict c none false = .ub .nullDeref ∧
      icarusAscii debug true c none true = .abort ∧ icarusAscii debug false c none true = .ok (some [('r', .device "MacRx")])) ∧
    ∀ strict, islAscii debug strict (satClass vals) none false = .ub .nullDeref ∧
      islAscii debug true (satClass vals) none true = .abort ∧ islAscii debug false (satClass vals) none true = .ok (some [('r', .device "MacRx")]) := by
  constructor
  · intro c hc strict
    simp only [List.mem_cons, List.not_mem_nil, or_false] at hc
    rcases hc with rfl | rfl <;> cases debug <;> refine ⟨rfl, rfl, rfl⟩
  · intro strict
    cases debug <;> exact ⟨rfl, rfl, rfl⟩

/-- The hypothesis on the queue: `ns3::Queue<Packet>` and its subclasses. -/
example : IsQueue (⟨[plain "ns3::DropTailQueue<Packet>", ("ns3::Queue<Packet>", [], ["Enqueue", "Dequeue", "Drop", "DropBeforeEnqueue", "DropAfterDequeue"])],
    true⟩ : Cls V) := ⟨rfl, rfl, rfl⟩

/-- A device derived from `IcarusNetDevice` by someone else: with a stream, the assertion fails, and without assertions nothing is written. -/
theorem C76_ascii_derived (strict : Bool) (queue : Option (Cls V)) {c : Cls V} (h : c.isA "ns3::icarus::IcarusNetDevice" = true)
    (h1 : c.isA "ns3::icarus::GroundStaNetDevice" = false) (h2 : c.isA "ns3::icarus::Sat2GroundNetDevice" = false) :
    icarusAscii true strict c queue true = .assertFail ∧ icarusAscii false false c queue true = .ok (some []) := by
  simp [icarusAscii, h, h1, h2, Outcome.nsAssert, toStream, connect]

end Ascii

end RxDetail
end Icarus
