import Verif.Model.GroundStaRx
import Verif.Lemmas.Machine
import Verif.Props.SatAddress
import Mathlib.Data.List.Chain

/-!
# Properties C36 and C37: what a ground station receives, and the notifications about the tracked satellite
-/

set_option autoImplicit false

namespace Icarus
open GroundStaRx

variable {debug : Bool} {e : Endian} {ty : UInt8} {remote : SatAddress}

/-! ## C36 -/

/-- The frames that should be passed up, with their times: those whose source is the satellite `a` tracked at their arrival, at the end of
their transmission. -/
def expected (e : Endian) (ty : UInt8) (a : SatAddress) : List Op → List (Nat × Up)
  | [] => []
  | .arrive t pkt len src proto :: os =>
    if src = a.convertTo e ty then (t + len, ⟨pkt, src, proto⟩) :: expected e ty a os else expected e ty a os
  | .setRemote _ b :: os => expected e ty b os
  | .run :: os => expected e ty a os

/-- The satellite tracked after some operations. -/
def trackedRx (a : SatAddress) : List Op → SatAddress
  | [] => a
  | .setRemote _ b :: os => trackedRx b os
  | _ :: os => trackedRx a os

/-- All arriving frames carry the address of some satellite, as those sent by the channel do. -/
def FromSats (e : Endian) (ty : UInt8) (ops : List Op) : Prop :=
  ∀ t pkt len src proto, .arrive t pkt len src proto ∈ ops → ∃ a : SatAddress, src = a.convertTo e ty

theorem expected_append (a : SatAddress) (l m : List Op) :
    expected e ty a (l ++ m) = expected e ty a l ++ expected e ty (trackedRx a l) m := by
  induction l generalizing a with
  | nil => rfl
  | cons o l ih =>
    cases o with
    | arrive t pkt len src proto =>
      simp only [List.cons_append, expected, trackedRx, ih]
      split <;> simp
    | setRemote t b => simp [expected, trackedRx, ih]
    | run => simp [expected, trackedRx, ih]

theorem trackedRx_append (a : SatAddress) (l m : List Op) : trackedRx a (l ++ m) = trackedRx (trackedRx a l) m := by
  induction l generalizing a with
  | nil => rfl
  | cons o l ih => cases o <;> simp [trackedRx, ih]

theorem receive_satellite (s : Sys) (t pkt len : Nat) (a : SatAddress) (proto : UInt16) :
    receiveFromSat debug e ty s t pkt len (a.convertTo e ty) proto =
      .ok (if a.convertTo e ty = s.remote.convertTo e ty then
          { s with clock := t, begun := s.begun ++ [(t, pkt)],
                   pending := insertEvent (t + len) ⟨pkt, a.convertTo e ty, proto⟩ s.pending }
        else { s with clock := t }) := by
  unfold receiveFromSat
  rw [(C01_roundtrip debug e ty a).1, Outcome.bind_ok]
  have h1 : a.eq e s.remote = true ↔ a.convertTo e ty = s.remote.convertTo e ty := by
    rw [C01_eq_iff]
    constructor
    · intro h; rw [h]
    · intro h
      have h2 := (C01_roundtrip debug e ty a).1
      rw [h, (C01_roundtrip debug e ty s.remote).1] at h2
      simpa using h2.symm
  by_cases h : a.convertTo e ty = s.remote.convertTo e ty
  · simp [h1.mpr h, h]
  · have : a.eq e s.remote = false := by
      cases hb : a.eq e s.remote with
      | false => rfl
      | true => exact absurd (h1.mp hb) h
    simp [this, h]

structure RxInv (e : Endian) (ty : UInt8) (remote : SatAddress) (ops : List Op) (s : Sys) : Prop where
  tracked : s.remote = trackedRx remote ops
  frames : (s.delivered ++ s.pending).Perm (expected e ty remote ops)
  begun : s.begun.map Prod.snd = (expected e ty remote ops).map (fun y => y.2.pkt)
  order : (s.delivered ++ s.pending).Pairwise (fun f g => f.1 ≤ g.1)
  past : ∀ f ∈ s.delivered, f.1 ≤ s.clock

theorem RxInv.step {ops : List Op} {o : Op} {s : Sys} {r : Outcome Sys} (hsrc : FromSats e ty (ops ++ [o]))
    (h : RxInv e ty remote ops s) (hs : GroundStaRx.step debug e ty s o = some r) :
    ∃ s', r = .ok s' ∧ RxInv e ty remote (ops ++ [o]) s' := by
  obtain ⟨h1, h2, h3, h4, h5⟩ := h
  have happ := List.pairwise_append.mp h4
  cases o with
  | setRemote t b =>
    simp only [GroundStaRx.step] at hs
    split at hs
    · rename_i hp
      simp only [Option.some.injEq] at hs
      exact ⟨_, hs.symm, ⟨by simp [trackedRx_append, trackedRx], by simpa [expected_append, expected] using h2,
        by simpa [expected_append, expected] using h3, h4, fun f hf => Nat.le_trans (h5 f hf) hp.1⟩⟩
    · simp at hs
  | run =>
    simp only [GroundStaRx.step] at hs
    split at hs
    · simp at hs
    · rename_i t u es hp
      simp only [Option.some.injEq] at hs
      rw [hp] at h2 h4 happ
      refine ⟨_, hs.symm, ⟨by simp [trackedRx_append, trackedRx, h1], by simpa [expected_append, expected] using h2,
        by simpa [expected_append, expected] using h3, by simpa using h4, ?_⟩⟩
      intro f hf
      simp only [List.mem_append, List.mem_singleton] at hf
      rcases hf with hf | rfl
      · exact happ.2.2 f hf (t, u) (by simp)
      · exact Nat.le_refl _
  | arrive t pkt len src proto =>
    simp only [GroundStaRx.step] at hs
    split at hs
    · rename_i hp
      simp only [Option.some.injEq] at hs
      obtain ⟨a, rfl⟩ := hsrc t pkt len src proto (by simp)
      rw [receive_satellite] at hs
      refine ⟨_, hs.symm, ?_⟩
      split
      · rename_i heq
        have hexp : expected e ty remote (ops ++ [.arrive t pkt len (a.convertTo e ty) proto]) =
            expected e ty remote ops ++ [(t + len, ⟨pkt, a.convertTo e ty, proto⟩)] := by
          rw [expected_append, ← h1]; simp [expected, heq]
        refine ⟨by simp [trackedRx_append, trackedRx, h1], ?_, ?_, ?_, ?_⟩
        · rw [hexp]
          refine (List.Perm.append_left _ (insertEvent_perm _ _ _)).trans ?_
          refine List.perm_middle.trans ?_
          exact (List.Perm.cons _ h2).trans (List.perm_append_singleton _ _).symm
        · rw [hexp]; simp [h3]
        · rw [List.pairwise_append]
          refine ⟨happ.1, sorted_insertEvent happ.2.1, ?_⟩
          intro f hf g hg
          rcases mem_insertEvent.mp hg with rfl | hg
          · have := h5 f hf
            have := hp.1
            simp only; omega
          · exact happ.2.2 f hf g hg
        · exact fun f hf => Nat.le_trans (h5 f hf) hp.1
      · rename_i hne
        have hexp : expected e ty remote (ops ++ [.arrive t pkt len (a.convertTo e ty) proto]) = expected e ty remote ops := by
          rw [expected_append, ← h1]; simp [expected, hne]
        exact ⟨by simp [trackedRx_append, trackedRx, h1], by rw [hexp]; exact h2, by rw [hexp]; exact h3, h4,
          fun f hf => Nat.le_trans (h5 f hf) hp.1⟩
    · simp at hs

theorem rxInv_exec {ops : List Op} {r : Outcome Sys} (hsrc : FromSats e ty ops)
    (h : GroundStaRx.exec debug e ty remote ops = some r) : ∃ s, r = .ok s ∧ RxInv e ty remote ops s := by
  induction ops using List.reverseRecOn generalizing r with
  | nil =>
    simp only [GroundStaRx.exec, runFrom, Option.some.injEq] at h
    exact ⟨_, h.symm, ⟨rfl, by simp [Sys.init, expected], by simp [Sys.init, expected], by simp [Sys.init], by simp [Sys.init]⟩⟩
  | append_singleton os o ih =>
    simp only [GroundStaRx.exec, runFrom_append] at h
    cases hr : runFrom (GroundStaRx.step debug e ty) (Sys.init remote) os with
    | none => simp [hr] at h
    | some r1 =>
      obtain ⟨s1, rfl, hi⟩ := ih (fun t p l s q hm => hsrc t p l s q (by simp [hm])) hr
      simp only [hr, runFrom_single] at h
      exact hi.step hsrc h

/-- Whatever arrives and however the tracked satellite changes: nothing goes wrong, the frames passed up so far or still being received are exactly
the `expected` ones - those from the satellite tracked at their arrival, unchanged, at the end of their transmission - each once, in order of
time; receptions begun are reported for exactly these frames. -/
theorem C36_tracked_only {ops : List Op} {r : Outcome Sys} (hsrc : FromSats e ty ops)
    (h : GroundStaRx.exec debug e ty remote ops = some r) :
    ∃ s, r = .ok s ∧ (s.delivered ++ s.pending).Perm (expected e ty remote ops) ∧
      (s.pending = [] → s.delivered.Perm (expected e ty remote ops)) ∧ s.delivered.Pairwise (fun f g => f.1 ≤ g.1) ∧
      s.begun.map Prod.snd = (expected e ty remote ops).map (fun y => y.2.pkt) := by
  obtain ⟨s, rfl, h1⟩ := rxInv_exec hsrc h
  refine ⟨s, rfl, h1.frames, ?_, (List.pairwise_append.mp h1.order).1, h1.begun⟩
  intro hp
  have := h1.frames
  rwa [hp, List.append_nil] at this

/-- A frame from another satellite changes nothing. -/
theorem C36_others_ignored (s s' : Sys) (t pkt len : Nat) (a : SatAddress) (proto : UInt16) (hne : a ≠ s.remote)
    (h : receiveFromSat debug e ty s t pkt len (a.convertTo e ty) proto = .ok s') : s' = { s with clock := t } := by
  rw [receive_satellite] at h
  have : a.convertTo e ty ≠ s.remote.convertTo e ty := by
    intro heq
    have h2 := (C01_roundtrip debug e ty a).1
    rw [heq, (C01_roundtrip debug e ty s.remote).1] at h2
    simp only [Outcome.ok.injEq] at h2
    exact hne h2.symm
  simp only [this, if_false, Outcome.ok.injEq] at h
  exact h.symm

/-- Two frames, then the tracked satellite changes during the reception of the second one, then one frame from each satellite. -/
def rxOps : List Op :=
  [.arrive 0 1 10 ((SatAddress.mk3 .little 1 2 3).convertTo .little 7) 9, .run,
   .arrive 20 2 10 ((SatAddress.mk3 .little 1 2 3).convertTo .little 7) 9, .setRemote 25 (SatAddress.mk3 .little 1 2 4),
   .arrive 26 3 10 ((SatAddress.mk3 .little 1 2 3).convertTo .little 7) 9,
   .arrive 26 4 10 ((SatAddress.mk3 .little 1 2 4).convertTo .little 7) 9, .run, .run]

example : ∃ s, GroundStaRx.exec true .little 7 (SatAddress.mk3 .little 1 2 3) rxOps = some (.ok s) ∧
    s.delivered.map (fun f => (f.1, f.2.pkt)) = [(10, 1), (30, 2), (36, 4)] ∧ s.pending = [] := by
  refine ⟨_, rfl, ?_⟩; decide

example : FromSats .little 7 rxOps := by
  intro t pkt len src proto h
  simp only [rxOps, List.mem_cons, Op.arrive.injEq, List.not_mem_nil, or_false, reduceCtorEq, false_or] at h
  rcases h with ⟨-, -, -, rfl, -⟩ | ⟨-, -, -, rfl, -⟩ | ⟨-, -, -, rfl, -⟩ | ⟨-, -, -, rfl, -⟩ <;> exact ⟨_, rfl⟩

/-! ## C37 -/

/-- The addresses given to `SetRemoteAddress`, in order. -/
def addresses : List Call → List SatAddress
  | [] => []
  | .set a :: cs => a :: addresses cs
  | _ :: cs => addresses cs

/-- No call writes the attribute directly. -/
def NoAttribute (cs : List Call) : Prop := ∀ a, .writeAttr a ∉ cs

theorem getLastD_cons' (l : List SatAddress) (a b : SatAddress) : (a :: l).getLast?.getD b = l.getLast?.getD a := by
  cases l with
  | nil => rfl
  | cons c l => simp [List.getLast?_eq_some_getLast]

theorem calls_spec (s : Track) (cs : List Call) (hna : NoAttribute cs) :
    (calls e s cs).remote = (addresses cs).getLastD s.remote ∧
    (calls e s cs).notes = s.notes ++
      (((s.remote :: addresses cs).zip (addresses cs)).filter (fun p => decide (p.1 ≠ p.2))).map (fun p => ⟨p.1, p.1, p.2⟩) := by
  induction cs generalizing s with
  | nil => simp [calls, addresses]
  | cons c cs ih =>
    have hna' : NoAttribute cs := fun a ha => hna a (by simp [ha])
    have hc : calls e s (c :: cs) = calls e (call e s c) cs := rfl
    rw [hc]
    obtain ⟨h1, h2⟩ := ih (call e s c) hna'
    cases c with
    | writeAttr a => exact absurd (by simp) (hna a)
    | newTransport =>
      rw [h1, h2]
      simp [call, addresses]
    | set a =>
      rw [h1, h2]
      by_cases heq : s.remote = a
      · have : s.remote.eq e a = true := (C01_eq_iff e _ _).mpr heq
        rw [heq] at this
        simp [call, addresses, setRemoteAddress, this, heq, getLastD_cons']
      · have : s.remote.eq e a = false := by
          cases hb : s.remote.eq e a with
          | false => rfl
          | true => exact absurd ((C01_eq_iff e _ _).mp hb) heq
        simp [call, addresses, setRemoteAddress, this, heq, getLastD_cons']

/-- From a new device and without writes to the attribute: the tracked address is the last one set, and the notifications are exactly the pairs of
different consecutive addresses, in order. -/
theorem C37_notifications (cs : List Call) (hna : NoAttribute cs) :
    (calls e (Track.init e) cs).remote = (addresses cs).getLastD (SatAddress.mk3 e 0 0 0) ∧
    (calls e (Track.init e) cs).notes.map (fun n => (n.old, n.new)) =
      ((SatAddress.mk3 e 0 0 0 :: addresses cs).zip (addresses cs)).filter (fun p => decide (p.1 ≠ p.2)) := by
  obtain ⟨h1, h2⟩ := calls_spec (e := e) (Track.init e) cs hna
  refine ⟨h1, ?_⟩
  rw [h2]
  simp [Track.init, Function.comp_def]

/-- The notifications lead from the initial to the current address: each starts where the one before ended, and never notifies a change to
the same address.  An observer that asks the device during the notification still gets the old address. -/
theorem C37_chain (s : Track) (cs : List Call) (hna : NoAttribute cs) (hs : s.notes = []) :
    (calls e s cs).notes.IsChain (fun n m => n.new = m.old) ∧
    (∀ n ∈ (calls e s cs).notes, n.old ≠ n.new ∧ n.held = n.old) ∧
    (((calls e s cs).notes.head?.map Note.old).getD s.remote = s.remote) ∧
    (((calls e s cs).notes.getLast?.map Note.new).getD s.remote = (calls e s cs).remote) := by
  have key : ∀ (cs : List Call), NoAttribute cs →
      (calls e s cs).notes.IsChain (fun n m => n.new = m.old) ∧
      (∀ n ∈ (calls e s cs).notes, n.old ≠ n.new ∧ n.held = n.old) ∧
      (((calls e s cs).notes.head?.map Note.old).getD s.remote = s.remote) ∧
      (((calls e s cs).notes.getLast?.map Note.new).getD s.remote = (calls e s cs).remote) := by
    intro cs
    induction cs using List.reverseRecOn with
    | nil => intro _; simp [calls, hs]
    | append_singleton cs c ih =>
      intro hna
      obtain ⟨h1, h2, h3, h4⟩ := ih (fun a ha => hna a (by simp [ha]))
      have hc : calls e s (cs ++ [c]) = call e (calls e s cs) c := by simp [calls]
      rw [hc]
      generalize calls e s cs = u at *
      cases c with
      | writeAttr a => exact absurd (by simp) (hna a)
      | newTransport => exact ⟨h1, h2, h3, h4⟩
      | set a =>
        by_cases heq : u.remote = a
        · have : u.remote.eq e a = true := (C01_eq_iff e _ _).mpr heq
          simp only [call, setRemoteAddress, this, if_true]
          exact ⟨h1, h2, h3, by rw [h4, heq]⟩
        · have hb : u.remote.eq e a = false := by
            cases hb : u.remote.eq e a with
            | false => rfl
            | true => exact absurd ((C01_eq_iff e _ _).mp hb) heq
          simp only [call, setRemoteAddress, hb, Bool.false_eq_true, if_false]
          refine ⟨?_, ?_, ?_, ?_⟩
          · rw [List.isChain_append]
            refine ⟨h1, by simp, ?_⟩
            intro x hx y hy
            simp only [List.head?_cons, Option.mem_def, Option.some.injEq] at hy
            subst hy
            simp only [Option.mem_def] at hx
            rw [hx] at h4
            simpa using h4
          · intro n hn
            simp only [List.mem_append, List.mem_singleton] at hn
            rcases hn with hn | rfl
            · exact h2 n hn
            · exact ⟨heq, rfl⟩
          · cases hh : u.notes with
            | nil =>
              simp only [List.nil_append, List.head?_cons, Option.map_some, Option.getD_some]
              rw [hh] at h4
              simpa using h4.symm
            | cons n ns =>
              rw [hh] at h3
              simpa using h3
          · simp
  exact key cs hna

theorem uri_default (e : Endian) : uriOf e (SatAddress.mk3 e 0 0 0) = defaultUri := by
  obtain ⟨h1, h2, h3⟩ := C01_getters e 0 0 0
  have hp : (SatAddress.print e {} (SatAddress.mk3 e 0 0 0)).1 = "0000:0000:0000".toList := by
    unfold SatAddress.print
    simp only
    rw [SatAddress.putHex_default _ rfl rfl rfl rfl, SatAddress.putHex_default _ rfl rfl rfl rfl, SatAddress.putHex_default _ rfl rfl rfl rfl, h1, h2, h3]
    decide
  unfold uriOf defaultUri
  rw [hp]
  decide

/-- A transport created while the device tracks the default address shows the tracked address in its remote URI ever after. -/
theorem C37_uri (s : Track) (cs : List Call) (hd : s.remote = SatAddress.mk3 e 0 0 0)
    (hcs : ∀ c ∈ cs, ∃ a, c = .set a) :
    (calls e (call e s .newTransport) cs).uri = some ("satdev://[".toList ++
        ((calls e (call e s .newTransport) cs).remote.print e {}).1 ++ [']']) := by
  have : ∀ cs : List Call, (∀ c ∈ cs, ∃ a, c = .set a) →
      (calls e (call e s .newTransport) cs).uri = some (uriOf e (calls e (call e s .newTransport) cs).remote) := by
    intro cs
    induction cs using List.reverseRecOn with
    | nil =>
      intro _
      simp [calls, call, hd, uri_default]
    | append_singleton cs c ih =>
      intro h
      have h1 := ih (fun c hc => h c (by simp [hc]))
      obtain ⟨a, rfl⟩ := h c (by simp)
      have hc : calls e (call e s .newTransport) (cs ++ [.set a]) = call e (calls e (call e s .newTransport) cs) (.set a) := by
        simp [calls]
      rw [hc]
      generalize calls e (call e s .newTransport) cs = u at *
      by_cases heq : u.remote = a
      · have : u.remote.eq e a = true := (C01_eq_iff e _ _).mpr heq
        rw [heq] at this h1
        simp [call, setRemoteAddress, this, h1, heq]
      · have hb : u.remote.eq e a = false := by
          cases hb : u.remote.eq e a with
          | false => rfl
          | true => exact absurd ((C01_eq_iff e _ _).mp hb) heq
        simp [call, setRemoteAddress, hb, h1]
  exact this cs hcs

/-- Otherwise the URI may be wrong: a transport created after the first change, or a direct write to the attribute, shows the default address. -/
theorem C37_stale (a : SatAddress) (ha : a ≠ SatAddress.mk3 e 0 0 0) :
    ((calls e (Track.init e) [.set a, .newTransport]).uri = some defaultUri ∧
      (calls e (Track.init e) [.set a, .newTransport]).remote = a) ∧
    ((calls e (Track.init e) [.newTransport, .writeAttr a]).uri = some defaultUri ∧
      (calls e (Track.init e) [.newTransport, .writeAttr a]).remote = a) ∧ uriOf e a ≠ defaultUri := by
  refine ⟨by simp [calls, call, setRemoteAddress], by simp [calls, call], ?_⟩
  intro h
  rw [← uri_default e] at h
  unfold uriOf at h
  have h1 := List.append_cancel_right h
  have h2 := List.append_cancel_left h1
  exact ha (C02_injective e {} (by simp [SatAddress.OFlags.Plain]) a _ h2)

example : (calls .little (Track.init .little)
    [.newTransport, .set (SatAddress.mk3 .little 1 2 3), .set (SatAddress.mk3 .little 1 2 3), .set (SatAddress.mk3 .little 0 0 9)]).notes.map
      (fun n => (n.old, n.new)) = [(SatAddress.mk3 .little 0 0 0, SatAddress.mk3 .little 1 2 3),
        (SatAddress.mk3 .little 1 2 3, SatAddress.mk3 .little 0 0 9)] := by decide

example : NoAttribute [.newTransport, .set (SatAddress.mk3 .little 1 2 3)] := by
  intro a h; simp at h

example : SatAddress.mk3 .little 1 2 3 ≠ SatAddress.mk3 .little 0 0 0 := by decide

end Icarus
