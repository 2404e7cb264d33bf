import Verif.Lemmas.Loop
import Verif.Props.Alive
import Verif.Props.Geocast

/-!
# Geocast with satellites that forward at once (C98)
-/

set_option autoImplicit false

namespace Icarus
namespace Network
open GroundSatChannel

section
variable {D G E V W P R : Type} [Fintype G] [Fintype D] [Fintype E] [DecidableEq G] [DecidableEq D] [DecidableEq E]
  {net : Net D G E V W P R} {w : World D G E W} {peer : E → E}

omit [Fintype G] [Fintype D] [Fintype E] [DecidableEq G] [DecidableEq D] [DecidableEq E] in
/-- A call of `Send` is no event. -/
theorem sends_outside {o : Op D G E W} {y : Node D G × Nat × Nat} (h : sends net o = some y) : o.internal = false := by
  cases o with
  | sat d o => cases o <;> first | rfl | simp [sends] at h
  | isl o =>
    cases o with
    | tx e o => cases o <;> first | rfl | simp [sends] at h
    | _ => simp [sends] at h
  | send => rfl
  | _ => simp [sends] at h

omit [Fintype G] [Fintype D] [Fintype E] [DecidableEq G] [DecidableEq D] [DecidableEq E] in
theorem sends_when {o : Op D G E W} {n : Node D G} {t p : Nat} (h : sends net o = some (n, t, p)) : o.when = t := by
  cases o with
  | sat d o =>
    cases o with
    | send => simp only [sends, Option.some.injEq, Prod.mk.injEq] at h; exact h.2.1
    | _ => simp [sends] at h
  | isl o =>
    cases o with
    | tx e o =>
      cases o with
      | send => simp only [sends, Option.some.injEq, Prod.mk.injEq] at h; exact h.2.1
      | _ => simp [sends] at h
    | _ => simp [sends] at h
  | send => simp only [sends, Option.some.injEq, Prod.mk.injEq] at h; exact h.2.1
  | _ => simp [sends] at h

/-- A ground-facing device passes packets up in events only, at the time of the event. -/
theorem fromGround_new {full : Bool} (hh : Honest full net.rx) {ops : List (Op D G E W)} {s s' : Sys D G E W R} {o : Op D G E W} (hx : exec net ops = some (.ok s))
    (hst : step net s o = some (.ok s')) {d : D} {u p : Nat} (h : FromGround net s' d u p) : FromGround net s d u p ∨ o.internal = true ∧ u = s'.clock := by
  obtain ⟨t, ht, -, -, -, p1, -, -⟩ := step_ok hst
  have hc := (step_clock hst).1
  rw [ht, Option.some.injEq] at hc
  obtain ⟨k, i, ta, f, k1, k2, k3, k4⟩ := h
  obtain ⟨h1, -, -⟩ := C73_parts hx
  have old : ∀ {heard : List (Nat × D × Uplink.Flight W)}, (u, k) ∈ net.rx.delivered (s.up.sats d) → s'.up.heard = s.up.heard ++ heard → FromGround net s d u p := by
    intro heard hk hhe
    obtain ⟨rops, r1, r2⟩ := Uplink.C55_receiver h1 d
    obtain ⟨fr, hfr, e1, -⟩ := hh.heard rops _ r1 _ hk
    rw [r2] at hfr
    obtain ⟨y, hy, hyd, rfl⟩ := Uplink.mem_framesAt.mp hfr
    have hy' : s.up.heard[y.2]? = some y.1 := List.mem_zipIdx_iff_getElem?.mp hy
    have hpkt : y.1.2.2.pkt = p := by
      simp only at e1
      rcases hh.key y.2 i y.1.2.2.pkt f.pkt (e1.trans k3.symm) with h | h
      · have hlt : y.2 < s.up.heard.length := by
          by_contra hge
          rw [List.getElem?_eq_none (by omega)] at hy'
          simp at hy'
        rw [hhe, ← h, List.getElem?_append_left hlt, hy', Option.some.injEq] at k2
        rw [k2, ← k4]
      · rw [h, k4]
    refine ⟨k, y.2, y.1.1, y.1.2.2, hk, ?_, e1, hpkt⟩
    rw [hy', ← hyd]
  rcases part_cases p1 with ⟨-, e⟩ | ⟨v, hv, hst'⟩
  · rw [e] at k1 k2
    exact Or.inl ⟨k, i, ta, f, k1, k2, k3, k4⟩
  · cases v with
    | station g o' =>
      obtain ⟨t', st, a, -, -, -, -, e⟩ := Uplink.step_station hst'
      rw [e] at k1 k2
      exact Or.inl ⟨k, i, ta, f, k1, k2, k3, k4⟩
    | arrive =>
      obtain ⟨t', d', f', rest, r, -, -, hr, e⟩ := Uplink.step_arrive hst'
      refine Or.inl (old (heard := [(t', d', f')]) ?_ (by rw [e]))
      rw [e] at k1
      by_cases e' : d = d'
      · subst e'
        simp only [Function.update_self] at k1
        rcases hh.now _ _ _ hr _ k1 with hy | ⟨e, -⟩
        · exact hy
        · cases e
      · simp only [Function.update_of_ne e'] at k1
        exact k1
    | finish d' =>
      obtain ⟨t', ts, r, hdue, -, hr, e⟩ := Uplink.step_finish hst'
      have hi : o.internal = true := by
        cases o with
        | upFinish => rfl
        | _ => simp [toUp] at hv
      by_cases e' : d = d'
      · subst e'
        have k1' := k1
        rw [e] at k1'
        simp only [Function.update_self] at k1'
        rcases hh.now _ _ _ hr _ k1' with hy | ⟨-, e2⟩
        · exact Or.inl (old (heard := []) hy (by rw [e, List.append_nil]))
        · have hdue' : net.rx.due (s.up.sats d) = t' :: ts := hdue
          rw [hdue', List.head?_cons, Option.some.injEq] at e2
          have : t' = t := by
            have := up_when hv ht hst'
            rw [e] at this
            exact this
          simp only at e2
          exact Or.inr ⟨hi, by omega⟩
      · refine Or.inl (old (heard := []) ?_ (by rw [e, List.append_nil]))
        rw [e] at k1
        simp only [Function.update_of_ne e'] at k1
        exact k1

/-- An inter-satellite device passes packets up in events only, at the time of the event. -/
theorem isl_new {s s' : Sys D G E W R} {o : Op D G E W} (hst : step net s o = some (.ok s')) {e : E} {y : Nat × Nat × UInt16}
    (h : y ∈ (s'.isl.rx e).delivered) : y ∈ (s.isl.rx e).delivered ∨ o.internal = true ∧ y.1 = s'.clock := by
  obtain ⟨t, ht, -, -, -, -, -, p3⟩ := step_ok hst
  have hc := (step_clock hst).1
  rw [ht, Option.some.injEq] at hc
  rcases part_cases p3 with ⟨-, e1⟩ | ⟨v, hv, hst'⟩
  · rw [e1] at h
    exact Or.inl h
  · cases v with
    | tx d o' =>
      obtain ⟨t', st, a, -, -, -, -, e1⟩ := IslNet.step_tx hst'
      rw [e1] at h
      exact Or.inl h
    | arrive =>
      obtain ⟨t', d, f, rest, st, -, -, hr, e1⟩ := IslNet.step_arrive hst'
      rw [e1] at h
      left
      by_cases e' : e = d
      · subst e'
        simp only [Function.update_self] at h
        have : st.delivered = (s.isl.rx e).delivered := by
          simp only [SatNet.rxStep] at hr
          split at hr
          · simp only [Option.some.injEq, Outcome.ok.injEq] at hr; rw [← hr]
          · simp at hr
        rw [this] at h
        exact h
      · simp only [Function.update_of_ne e'] at h
        exact h
    | finish d =>
      obtain ⟨t', u, es, st, hp, -, hr, e1⟩ := IslNet.step_finish hst'
      have hi : o.internal = true := by
        cases o <;> simp only [toIsl, Option.some.injEq, reduceCtorEq] at hv
        subst hv
        rfl
      have hw := isl_when hv ht hst'
      rw [e1] at h hw
      by_cases e' : e = d
      · subst e'
        simp only [Function.update_self] at h
        simp only [SatNet.rxStep, hp, Option.some.injEq, Outcome.ok.injEq] at hr
        rw [← hr] at h
        simp only [List.mem_append, List.mem_singleton] at h
        rcases h with h | rfl
        · exact Or.inl h
        · exact Or.inr ⟨hi, by simp only at hw ⊢; omega⟩
      · simp only [Function.update_of_ne e'] at h
        exact Or.inl h

/-- Time does not run backwards. -/
theorem clock_mono {s s' : Sys D G E W R} {o : Op D G E W} (hst : step net s o = some (.ok s')) : s.clock ≤ s'.clock := (step_clock hst).2.clock

/-- What has been sent was sent before. -/
theorem sends_before {ops : List (Op D G E W)} {s : Sys D G E W R} (hx : exec net ops = some (.ok s)) {c : Op D G E W} (hc : c ∈ ops) {n : Node D G} {v p : Nat}
    (hs : sends net c = some (n, v, p)) : v ≤ s.clock := by
  refine run_induction (P := fun ops s => c ∈ ops → v ≤ s.clock) (by simp) ?_ hx hc
  intro ops o s s' _ ih hst hc
  rcases List.mem_append.mp hc with hc | hc
  · exact (ih hc).trans (clock_mono hst)
  · rw [List.mem_singleton] at hc
    subst hc
    have ht := (step_clock hst).1
    have hw := sends_when hs
    have hi := sends_outside hs
    cases c with
    | sat d o =>
      cases o with
      | send => simp only [time, Downlink.opTime, Option.some.injEq] at ht; simp only [Op.when] at hw; omega
      | _ => simp [sends] at hs
    | isl o =>
      cases o with
      | tx e o =>
        cases o with
        | send => simp only [time, IslNet.opTime, Option.some.injEq] at ht; simp only [Op.when] at hw; omega
        | _ => simp [sends] at hs
      | _ => simp [sends] at hs
    | send => simp only [time, Option.some.injEq] at ht; simp only [Op.when] at hw; omega
    | _ => simp [sends] at hs

/-- Nodes of the way that send on at once. -/
theorem Trip.prompt_on {tgt : SatAddress → Option D} {full : Bool} {ops : List (Op D G E W)} {p Δ t t' kept H : Nat} {path : List (Node D G)} {A : Node D G → Prop}
    (h : Trip net w peer tgt full ops p Δ path t t' kept) (hA : ∀ n ∈ path.tail.dropLast, A n) (hH : ∀ n t1 t2, A n → Relay net ops n t1 t2 p → t2 ≤ t1 + H) :
    kept ≤ (path.length - 2) * H := by
  induction h with
  | one hop soon => simp
  | @more path n n' t0 t1 t2 t' c' kept trip last relay hop soon ih =>
    have h2 := trip.two
    have hne : path ≠ [] := by rintro rfl; simp at h2
    rw [List.tail_append_of_ne_nil hne, List.dropLast_concat] at hA
    have hn : n ∈ path.tail := by
      cases path with
      | nil => simp at h2
      | cons a l =>
        have hl : l ≠ [] := by rintro rfl; simp at h2
        rw [List.tail_cons]
        rw [List.getLast?_cons_of_ne_nil hl] at last
        exact List.mem_of_getLast? last
    have := hH _ _ _ (hA n hn) relay
    have ih' := ih (fun n hn => hA n (List.dropLast_subset _ hn))
    obtain ⟨k, hk⟩ : ∃ k, path.length = k + 2 := ⟨path.length - 2, by omega⟩
    rw [hk, Nat.add_sub_cancel] at ih'
    have e : (path ++ [n']).length - 2 = k + 1 := by simp [hk]
    rw [e, Nat.add_mul, Nat.one_mul]
    omega

/-- The first node of the way sends the packet when the way begins. -/
theorem Trip.begins {tgt : SatAddress → Option D} {full : Bool} {ops : List (Op D G E W)} {p Δ t t' kept : Nat} {path : List (Node D G)}
    (h : Trip net w peer tgt full ops p Δ path t t' kept) {n : Node D G} (hn : path.head? = some n) : ∃ o ∈ ops, sends net o = some (n, t, p) := by
  induction h with
  | one hop soon =>
    simp only [List.head?_cons, Option.some.injEq] at hn
    subst hn
    exact hop.sends
  | more trip last relay hop soon ih =>
    refine ih ?_
    have h2 := trip.two
    rw [List.head?_append] at hn
    rename_i path _ _ _ _ _ _ _ _
    cases path with
    | nil => simp at h2
    | cons a l => simpa using hn

omit [Fintype G] [Fintype D] [Fintype E] [DecidableEq G] [DecidableEq D] [DecidableEq E] in
/-- In a network at rest nothing is due. -/
theorem Quiet.due {s : Sys D G E W R} (h : Quiet net s) {T : Nat} (hT : s.clock ≤ T) : due net s T := by
  obtain ⟨⟨a1, a2, a3⟩, ⟨b1, b2, b3⟩, ⟨c1, c2, c3⟩⟩ := h
  unfold Sys.clock at hT
  have t1 : s.up.clock ≤ T := by omega
  have t2 : s.down.clock ≤ T := by omega
  have t3 : s.isl.clock ≤ T := by omega
  refine ⟨⟨t1, ?_, ?_, ?_⟩, ⟨t2, ?_, ?_, ?_⟩, ⟨t3, ?_, ?_, ?_⟩⟩
  · intro g e he; rw [a1] at he; simp at he
  · intro e he; rw [a2] at he; simp at he
  · intro d u hu; rw [a3] at hu; simp at hu
  · intro d e he; rw [b1] at he; simp at he
  · intro e he; rw [b2] at he; simp at he
  · intro d e he; rw [b3] at he; simp at he
  · intro d e he; rw [c1] at he; simp at he
  · intro e he; rw [c2] at he; simp at he
  · intro d e he; rw [c3] at he; simp at he

/-- No satellite drops packet `p` because a queue is full. -/
def Kept (s : Sys D G E W R) (p : Nat) : Prop :=
  (∀ d, ∀ y ∈ (s.down.sats d).refused, y.2.pkt ≠ p) ∧ ∀ e, ∀ y ∈ (s.isl.tx e).refused, y.2.pkt ≠ p

theorem Kept.down {s : Sys D G E W R} {p : Nat} (hk : Kept s p) {ops : List (Op D G E W)} (hx : exec net ops = some (.ok s)) {d : D} {v l : Nat} {pr : UInt16}
    (hm : .sat d (.send v p l pr) ∈ ops) : ∃ x, (v, x) ∈ (s.down.sats d).accepted ∧ x.pkt = p := by
  obtain ⟨-, h2, -⟩ := C73_parts hx
  have hst := Downlink.C59_satellite h2 d
  have h3 : Sat2Ground.Op.send v p l pr ∈ Downlink.opsOf d (ops.filterMap toDown) :=
    List.mem_filterMap.mpr ⟨.sat d (.send v p l pr), List.mem_filterMap.mpr ⟨_, hm, rfl⟩, by simp⟩
  have h4 : ∀ (w0 : W) (os : List (Sat2Ground.Op W)), Sat2Ground.Op.send v p l pr ∈ os → ∃ x, (v, x) ∈ broadcasts w0 os ∧ x.pkt = p := by
    intro w0 os hm
    induction os generalizing w0 with
    | nil => simp at hm
    | cons o os ih =>
      rcases List.mem_cons.mp hm with rfl | hm1
      · exact ⟨_, List.mem_cons_self, rfl⟩
      · cases o with
        | send => obtain ⟨x, h, e⟩ := ih w0 hm1; exact ⟨x, List.mem_cons_of_mem _ h, e⟩
        | setPower t w1 => exact ih w1 hm1
        | run => exact ih w0 hm1
  obtain ⟨x, h5, h6⟩ := h4 (net.down.power d) _ h3
  rcases List.mem_append.mp ((C38_accepted_or_dropped hst).1.symm.subset h5) with h | h
  · exact ⟨x, h, h6⟩
  · exact absurd h6 (hk.1 d _ h)

theorem Kept.isl {s : Sys D G E W R} {p : Nat} (hk : Kept s p) {ops : List (Op D G E W)} (hx : exec net ops = some (.ok s)) {e : E} {v l : Nat} {pr : UInt16}
    (hm : .isl (.tx e (.send v p l pr)) ∈ ops) : ∃ y ∈ (s.isl.tx e).accepted, y.1 = v ∧ y.2.1.pkt = p := by
  obtain ⟨-, -, h2⟩ := C73_parts hx
  have hst := IslNet.C60_sender h2 e
  have h3 : SatNet.Op.send v p l pr ∈ IslNet.opsOf e (ops.filterMap toIsl) :=
    List.mem_filterMap.mpr ⟨.tx e (.send v p l pr), List.mem_filterMap.mpr ⟨_, hm, rfl⟩, by simp⟩
  have h4 : ∀ os : List SatNet.Op, SatNet.Op.send v p l pr ∈ os → (v, ⟨p, l, pr⟩) ∈ isends os := by
    intro os hm
    induction os with
    | nil => simp at hm
    | cons o os ih =>
      rcases List.mem_cons.mp hm with rfl | hm1
      · exact List.mem_cons_self
      · cases o with
        | send => exact List.mem_cons_of_mem _ (ih hm1)
        | run => exact ih hm1
  rcases List.mem_append.mp ((C39_accepted_or_dropped hst).1.symm.subset (h4 _ h3)) with h | h
  · obtain ⟨y, hy, e1⟩ := List.mem_map.mp h
    simp only [arrival, Prod.mk.injEq] at e1
    exact ⟨y, hy, e1.1, by rw [e1.2]⟩
  · exact absurd rfl (hk.2 e _ h)

/-- What a device is asked to send. -/
def downPkts (ops : List (Sat2Ground.Op W)) : List Nat := ops.filterMap (fun o => match o with | .send _ p _ _ => some p | _ => none)

def islPkts (ops : List SatNet.Op) : List Nat := ops.filterMap (fun o => match o with | .send _ p _ _ => some p | _ => none)

omit [Fintype G] [Fintype D] [Fintype E] [DecidableEq G] [DecidableEq D] [DecidableEq E] in
/-- A queue that has room for everything ever sent drops nothing. -/
theorem down_room {debug : Bool} {K : UInt32} {bytes : Sat2Ground.Entry W → Nat} {power : W} {ops : List (Sat2Ground.Op W)} {s : Sat2Ground.Sys W}
    (hx : Sat2Ground.exec debug (Queue.dropTail .packets K bytes) power ops = some (.ok s)) (hK : (downPkts ops).length ≤ K.toNat) :
    s.refused = [] ∧ s.queue.length ≤ (downPkts ops).length := by
  induction ops using List.reverseRecOn generalizing s with
  | nil =>
    simp only [Sat2Ground.exec, runFrom, Option.some.injEq, Outcome.ok.injEq] at hx
    subst hx
    simp [Sat2Ground.Sys.init]
  | append_singleton os o ih =>
    obtain ⟨s1, h1, h2⟩ := runFrom_snoc.mp hx
    have start : ∀ {s1 s2 : Sat2Ground.Sys W} {now : Nat}, Sat2Ground.transmitStart debug s1 now = .ok s2 → s2.refused = s1.refused ∧ s2.queue.length ≤ s1.queue.length := by
      intro s1 s2 now h
      unfold Sat2Ground.transmitStart at h
      obtain ⟨-, -, h⟩ := Outcome.bind_eq_ok.mp h
      split at h
      · cases h
      · rename_i hq
        cases h
        simp [hq]
    cases o with
    | send t p l pr =>
      have e : downPkts (os ++ [Sat2Ground.Op.send t p l pr]) = downPkts os ++ [p] := by simp [downPkts]
      rw [e, List.length_append, List.length_singleton] at hK ⊢
      obtain ⟨i1, i2⟩ := ih h1 (by omega)
      simp only [Sat2Ground.step] at h2
      split at h2
      · simp only [Option.some.injEq] at h2
        unfold Sat2Ground.send at h2
        dsimp only at h2
        split at h2
        · rename_i hno
          simp only [Queue.dropTail, decide_eq_false_iff_not] at hno
          omega
        · split at h2
          · cases h2
            refine ⟨i1, ?_⟩
            simp only [List.length_append, List.length_singleton]
            omega
          · obtain ⟨j1, j2⟩ := start h2
            refine ⟨j1.trans i1, ?_⟩
            simp only [List.length_append, List.length_singleton] at j2
            omega
      · cases h2
    | setPower t w =>
      have e : downPkts (os ++ [Sat2Ground.Op.setPower t w]) = downPkts os := by simp [downPkts]
      rw [e] at hK ⊢
      obtain ⟨i1, i2⟩ := ih h1 hK
      simp only [Sat2Ground.step] at h2
      split at h2
      · cases h2
        exact ⟨i1, i2⟩
      · cases h2
    | run =>
      have e : downPkts (os ++ [Sat2Ground.Op.run]) = downPkts os := by simp [downPkts]
      rw [e] at hK ⊢
      obtain ⟨i1, i2⟩ := ih h1 hK
      simp only [Sat2Ground.step] at h2
      split at h2
      · cases h2
      · simp only [Option.some.injEq] at h2
        unfold Sat2Ground.transmitComplete at h2
        split at h2
        · cases h2
          exact ⟨i1, i2⟩
        · obtain ⟨j1, j2⟩ := start h2
          exact ⟨j1.trans i1, j2.trans i2⟩

omit [Fintype G] [Fintype D] [Fintype E] [DecidableEq G] [DecidableEq D] [DecidableEq E] in
theorem isl_room {debug : Bool} {K : UInt32} {bytes : SatNet.Entry → Nat} {ops : List SatNet.Op} {s : SatNet.Sys}
    (hx : SatNet.exec debug (Queue.dropTail .packets K bytes) ops = some (.ok s)) (hK : (islPkts ops).length ≤ K.toNat) :
    s.refused = [] ∧ s.queue.length ≤ (islPkts ops).length := by
  induction ops using List.reverseRecOn generalizing s with
  | nil =>
    simp only [SatNet.exec, runFrom, Option.some.injEq, Outcome.ok.injEq] at hx
    subst hx
    simp [SatNet.Sys.init]
  | append_singleton os o ih =>
    obtain ⟨s1, h1, h2⟩ := runFrom_snoc.mp hx
    have start : ∀ {s1 s2 : SatNet.Sys} {now : Nat} {x : SatNet.Entry} {pr : UInt16}, SatNet.transmitStart debug s1 now x pr = .ok s2 →
        s2.refused = s1.refused ∧ s2.queue.length ≤ s1.queue.length := by
      intro s1 s2 now x pr h
      unfold SatNet.transmitStart at h
      obtain ⟨-, -, h⟩ := Outcome.bind_eq_ok.mp h
      cases h
      simp
    cases o with
    | send t p l pr =>
      have e : islPkts (os ++ [SatNet.Op.send t p l pr]) = islPkts os ++ [p] := by simp [islPkts]
      rw [e, List.length_append, List.length_singleton] at hK ⊢
      obtain ⟨i1, i2⟩ := ih h1 (by omega)
      simp only [SatNet.step] at h2
      split at h2
      · simp only [Option.some.injEq] at h2
        unfold SatNet.send at h2
        dsimp only at h2
        split at h2
        · rename_i hno
          simp only [Queue.dropTail, decide_eq_false_iff_not] at hno
          omega
        · split at h2
          · cases h2
            refine ⟨i1, ?_⟩
            simp only [List.length_append, List.length_singleton]
            omega
          · split at h2
            · rename_i hq
              simp at hq
            · rename_i y rest hq
              obtain ⟨j1, j2⟩ := start h2
              refine ⟨j1.trans i1, ?_⟩
              have := congrArg List.length hq
              simp only [List.length_append, List.length_cons, List.length_nil] at this
              simp only at j2
              omega
      · cases h2
    | run =>
      have e : islPkts (os ++ [SatNet.Op.run]) = islPkts os := by simp [islPkts]
      rw [e] at hK ⊢
      obtain ⟨i1, i2⟩ := ih h1 hK
      simp only [SatNet.step] at h2
      split at h2
      · cases h2
      · simp only [Option.some.injEq] at h2
        unfold SatNet.transmitComplete at h2
        dsimp only at h2
        split at h2
        · cases h2
          exact ⟨i1, i2⟩
        · rename_i hq
          obtain ⟨j1, j2⟩ := start h2
          refine ⟨j1.trans i1, ?_⟩
          have := congrArg List.length hq
          simp only [List.length_cons] at this
          simp only at j2
          omega

end

end Network

namespace Geocast
open GroundSatChannel GeoTag
open IslNet (End owner otherEnd)
open Scenario (Host Nfd receive devices Carried satLinks Facts place placeOf)
open Network (Op Setup Launched Limits Short deadline Gets Hop Trip Relay sends World FromGround)

section
variable {N U D G V W P R : Type} [DecidableEq N]

/-- Calls that satellites owe in the state `s` after `ops`: if one of the Interests `Pk` has come in on face `i` of satellite `d`, has not been sent by `d` yet (NFD drops an
Interest whose nonce it has seen), and the strategy sends it to face `k`, it is given to the device of face `k` now.  `tag p`: the satellite with which Interest `p` is tagged;
`dur`: transmission times. -/
def Owes (h : Host) (sc : Scenario.Net N U) (nodes : List N) (nfd : N → Nat → Nfd) (net : Network.Net D G (End sc.links) V W P R) (node : D → N) (Pk : Finset Nat)
    (tag : Nat → Nat × Nat) (dur : Nat → Nat) (proto : UInt16) (ops : List (Op D G (End sc.links) W)) (s : Network.Sys D G (End sc.links) W R)
    (o : Op D G (End sc.links) W) : Prop :=
  ∃ p ∈ Pk, ∃ d i u k, ComesIn sc net node s p d i u ∧ (∀ c ∈ ops, ∀ v, sends net c ≠ some (.sat d, v, p)) ∧
    receive h sc nodes (nfd (node d) i) (node d) i (tag p) = .ok [.sendInterest k] ∧
    ((∃ dv ad, (devices sc (node d))[k]? = some (.icarus (.sat dv ad)) ∧ o = .sat d (.send s.clock p (dur p) proto)) ∨
      ∃ e, (devices sc (node d))[k]? = some (.isl e) ∧ net.own e = d ∧ o = .isl (.tx e (.send s.clock p (dur p) proto)))

open Classical in
/-- How many forwards are left. -/
noncomputable def left [Fintype D] {sc : Scenario.Net N U} (net : Network.Net D G (End sc.links) V W P R) (Pk : Finset Nat) (ops : List (Op D G (End sc.links) W)) : Nat :=
  ((Finset.univ ×ˢ Pk).filter (fun y : D × Nat => ∀ c ∈ ops, ∀ v, sends net c ≠ some (.sat y.1, v, y.2))).card

variable {h : Host} {sc : Scenario.Net N U} {nodes : List N} {nfd : N → Nat → Nfd} {net : Network.Net D G (End sc.links) V W P R} {node : D → N} {Pk : Finset Nat}
    {tag : Nat → Nat × Nat} {dur : Nat → Nat} {proto : UInt16} {ops : List (Op D G (End sc.links) W)} {s : Network.Sys D G (End sc.links) W R}
    {o : Op D G (End sc.links) W}

theorem Owes.sends (ho : Owes h sc nodes nfd net node Pk tag dur proto ops s o) :
    ∃ p ∈ Pk, ∃ d, Network.sends net o = some (.sat d, s.clock, p) ∧ (∀ c ∈ ops, ∀ v, Network.sends net c ≠ some (.sat d, v, p)) := by
  obtain ⟨p, hp, d, i, u, k, -, h2, -, h3⟩ := ho
  refine ⟨p, hp, d, ?_, h2⟩
  rcases h3 with ⟨-, -, -, rfl⟩ | ⟨e, -, rfl, rfl⟩ <;> rfl

theorem Owes.outside (ho : Owes h sc nodes nfd net node Pk tag dur proto ops s o) : o.internal = false := by
  obtain ⟨p, hp, d, i, u, k, -, h2, -, h3⟩ := ho
  rcases h3 with ⟨-, -, -, rfl⟩ | ⟨e, -, rfl, rfl⟩ <;> rfl

theorem Owes.now (ho : Owes h sc nodes nfd net node Pk tag dur proto ops s o) : o.when = s.clock := by
  obtain ⟨p, hp, d, i, u, k, -, h2, -, h3⟩ := ho
  rcases h3 with ⟨-, -, -, rfl⟩ | ⟨e, -, rfl, rfl⟩ <;> rfl

theorem Owes.untracked (ho : Owes h sc nodes nfd net node Pk tag dur proto ops s o) : ∀ g t a, o ≠ .track g t a := by
  obtain ⟨p, hp, d, i, u, k, -, h2, -, h3⟩ := ho
  rcases h3 with ⟨-, -, -, rfl⟩ | ⟨e, -, rfl, rfl⟩ <;> intro g t a <;> simp

omit [DecidableEq N] in
theorem left_mono [Fintype D] (ops : List (Op D G (End sc.links) W)) (o : Op D G (End sc.links) W) : left net Pk (ops ++ [o]) ≤ left net Pk ops := by
  classical
  unfold left
  refine Finset.card_le_card (fun y hy => ?_)
  rw [Finset.mem_filter] at hy ⊢
  exact ⟨hy.1, fun c hc => hy.2 c (List.mem_append_left _ hc)⟩

theorem Owes.fewer [Fintype D] (ho : Owes h sc nodes nfd net node Pk tag dur proto ops s o) : left net Pk (ops ++ [o]) < left net Pk ops := by
  classical
  obtain ⟨p, hp, d, h1, h2⟩ := ho.sends
  unfold left
  refine Finset.card_lt_card ⟨fun y hy => ?_, fun hsub => ?_⟩
  · rw [Finset.mem_filter] at hy ⊢
    exact ⟨hy.1, fun c hc => hy.2 c (List.mem_append_left _ hc)⟩
  · have hm : (d, p) ∈ (Finset.univ ×ˢ Pk).filter (fun y : D × Nat => ∀ c ∈ ops, ∀ v, Network.sends net c ≠ some (.sat y.1, v, y.2)) := by
      rw [Finset.mem_filter]
      exact ⟨by simp [hp], h2⟩
    have := hsub hm
    rw [Finset.mem_filter] at this
    exact this.2 o (by simp) _ h1

variable [Fintype G] [Fintype D] [DecidableEq G] [DecidableEq D] {w : World D G (End sc.links) W} {peer : End sc.links → End sc.links}
  {hist : List (Nat × Nat × D)} {as : List SatAddress} {clock : R → Nat} {K : Nat}

theorem answers (hs : Setup net w peer hist as) (ho : Uplink.Orderly net.rx clock) :
    Answers (Network.step net) (Network.Sys.init net) Op.internal Op.when Network.Sys.clock (Network.due net) (Launched net hist as)
      (Owes h sc nodes nfd net node Pk tag dur proto) (left net Pk) where
  outside := fun _ _ _ h => h.outside
  now := fun _ _ _ h => h.now
  allowed := fun ops s o hl ho => ⟨hl.1, fun g t a hm => by
    rcases List.mem_append.mp hm with hm | hm
    · exact hl.2 g t a hm
    · rw [List.mem_singleton] at hm
      exact absurd hm.symm (ho.untracked g t a)⟩
  fewer := fun _ _ _ h => h.fewer
  mono := fun ops o => left_mono ops o
  due := fun _ _ hl hx => Network.on_time hs ho hl hx

/-- An execution in which satellites forward the Interests `Pk`, each once and at once. -/
abbrev Run (h : Host) (sc : Scenario.Net N U) (nodes : List N) (nfd : N → Nat → Nfd) (net : Network.Net D G (End sc.links) V W P R) (node : D → N) (Pk : Finset Nat)
    (tag : Nat → Nat × Nat) (dur : Nat → Nat) (proto : UInt16) :=
  Loop (Network.step net) (Network.Sys.init net) Op.internal (Owes h sc nodes nfd net node Pk tag dur proto)

/-- **It can always be simulated.**  Whatever the stations and trackers do, and whatever else satellites send: there is an execution in which satellites forward the Interests
`Pk` at once, and which ends with nothing scheduled and nothing to forward.  And unless somebody makes further calls, no such execution goes on for ever. -/
theorem C98_runs (hr : Network.Runnable net w peer hist as clock K) {calls : List (Op D G (End sc.links) W)} (hl : Launched net hist as calls)
    (hext : ∀ o ∈ calls, o.internal = false) (hsorted : calls.Pairwise (fun a b => a.when ≤ b.when)) :
    (∃ ops s, Run h sc nodes nfd net node Pk tag dur proto ops s calls ∧ Launched net hist as ops ∧ Network.Quiet net s ∧
      ∀ c, ¬ Owes h sc nodes nfd net node Pk tag dur proto ops s c) ∧
    ∀ ops s cs, Run h sc nodes nfd net node Pk tag dur proto ops s cs →
      ¬ ∃ f : Nat → Op D G (End sc.links) W, ∀ k, ∃ s', Run h sc nodes nfd net node Pk tag dur proto (ops ++ (List.range k).map f) s' cs := by
  have ha := answers (h := h) (nodes := nodes) (nfd := nfd) (node := node) (Pk := Pk) (tag := tag) (dur := dur) (proto := proto) hr.setup hr.orderly
  refine ⟨(Network.runs hr).loop ha ⟨hl.1, by simp⟩ (fun ops c hc hm => ⟨hc.1, fun g t a hx => ?_⟩) hext hsorted, fun ops s cs hrun => (Network.runs hr).stops ha hrun⟩
  rcases List.mem_append.mp hx with hx | hx
  · exact hc.2 g t a hx
  · rw [List.mem_singleton] at hx
    exact hl.2 g t a (hx ▸ hm)

/-! ## What such an execution consists of -/

section
variable {cs : List (Op D G (End sc.links) W)}

theorem Run.mem (hr : Run h sc nodes nfd net node Pk tag dur proto ops s cs) {c : Op D G (End sc.links) W} (hc : c ∈ ops) :
    c.internal = true ∨ c ∈ cs ∨ ∃ pre s', Owes h sc nodes nfd net node Pk tag dur proto pre s' c := by
  induction hr with
  | start => simp at hc
  | answer hb ho hd ih =>
    rcases List.mem_append.mp hc with hc | hc
    · exact ih hc
    · rw [List.mem_singleton] at hc
      subst hc
      exact Or.inr (Or.inr ⟨_, _, ho⟩)
  | event hb ho hi hd ih =>
    rcases List.mem_append.mp hc with hc | hc
    · exact ih hc
    · rw [List.mem_singleton] at hc
      subst hc
      exact Or.inl hi
  | call hb ho hi hd ih =>
    rcases List.mem_append.mp hc with hc | hc
    · rcases ih hc with h | h | h
      · exact Or.inl h
      · exact Or.inr (Or.inl (List.mem_append_left _ h))
      · exact Or.inr (Or.inr h)
    · exact Or.inr (Or.inl (List.mem_append_right _ hc))

theorem Run.launched (hr : Run h sc nodes nfd net node Pk tag dur proto ops s cs) (hl : Launched net hist as cs) : Launched net hist as ops := by
  refine ⟨hl.1, fun g t a hm => ?_⟩
  rcases hr.mem hm with h | h | ⟨_, _, h⟩
  · simp [Op.internal] at h
  · exact hl.2 g t a h
  · exact absurd rfl (h.untracked g t a)

theorem Run.short (hr : Run h sc nodes nfd net node Pk tag dur proto ops s cs) {L : Nat} (hs : Short cs L) (hd : ∀ p ∈ Pk, dur p ≤ L) : Short ops L := by
  intro o ho len hlen
  rcases hr.mem ho with h | h | ⟨_, _, p, hp, d, i, u, k, -, -, -, h⟩
  · cases o with
    | sat d o => cases o <;> first | (simp [Network.lasts] at hlen; done) | simp [Op.internal] at h
    | isl o =>
      cases o with
      | tx e o => cases o <;> first | (simp [Network.lasts] at hlen; done) | simp [Op.internal, IslNet.Op.internal] at h
      | _ => simp [Network.lasts] at hlen
    | send => simp [Op.internal] at h
    | _ => simp [Network.lasts] at hlen
  · exact hs o h len hlen
  · have := hd p hp
    rcases h with ⟨_, _, _, rfl⟩ | ⟨_, _, _, rfl⟩
    · simp only [Network.lasts, Option.mem_some_iff] at hlen; omega
    · simp only [Network.lasts, Option.mem_some_iff] at hlen; omega

theorem Run.loyal (hr : Run h sc nodes nfd net node Pk tag dur proto ops s cs) {p : Nat} (hsat : ∀ c ∈ cs, ∀ d v, sends net c ≠ some (.sat d, v, p)) :
    Loyal h sc nodes nfd net node ops p (tag p) := by
  rintro pre o post s1 d v rfl hx hs
  have hr' : Run h sc nodes nfd net node Pk tag dur proto ((pre ++ [o]) ++ post) s cs := by
    rw [List.append_assoc]; exact hr
  obtain ⟨s2, cs2, h2, hpre⟩ := hr'.left
  obtain ⟨s3, cs3, h3, hd, h4⟩ := h2.snoc
  obtain rfl : s3 = s1 := by
    have := h3.run
    rw [show runFrom _ _ pre = _ from hx] at this
    simpa using this.symm
  rcases h4 with ⟨ho, -⟩ | ⟨-, hi, -⟩ | ⟨-, -, rfl⟩
  · have hw := ho.now
    obtain ⟨q, hq, d', i, u, k, c1, c2, c3, c4⟩ := ho
    rcases c4 with ⟨dv, ad, c4, rfl⟩ | ⟨e, c4, rfl, rfl⟩
    · simp only [sends, Option.some.injEq, Prod.mk.injEq, Network.Node.sat.injEq] at hs
      obtain ⟨rfl, rfl, rfl⟩ := hs
      exact ⟨i, u, k, c1, c3, Or.inl ⟨_, _, dv, ad, rfl, c4⟩⟩
    · simp only [sends, Option.some.injEq, Prod.mk.injEq, Network.Node.sat.injEq] at hs
      obtain ⟨rfl, rfl, rfl⟩ := hs
      exact ⟨i, u, k, c1, c3, Or.inr ⟨_, _, e, rfl, c4⟩⟩
  · rw [Network.sends_outside hs] at hi
    simp at hi
  · exact absurd hs (hsat o (hpre.subset (by simp)) d v)

/-- A satellite sends an Interest once. -/
theorem Run.once (hr : Run h sc nodes nfd net node Pk tag dur proto ops s cs) {p : Nat} (hsat : ∀ c ∈ cs, ∀ d v, sends net c ≠ some (.sat d, v, p)) {d : D}
    {c c' : Op D G (End sc.links) W} {v v' : Nat} (hc : c ∈ ops) (hc' : c' ∈ ops) (hs : sends net c = some (.sat d, v, p)) (hs' : sends net c' = some (.sat d, v', p)) :
    c = c' := by
  have key : ∀ {ops cs : List (Op D G (End sc.links) W)} {s s' : Network.Sys D G (End sc.links) W R} {o : Op D G (End sc.links) W},
      Run h sc nodes nfd net node Pk tag dur proto ops s cs → Owes h sc nodes nfd net node Pk tag dur proto ops s o → ∀ x ∈ ops ++ [o], ∀ y ∈ ops ++ [o],
      (x ∈ ops → y ∈ ops → x = y) → (∃ v, sends net x = some (.sat d, v, p)) → (∃ v, sends net y = some (.sat d, v, p)) → x = y := by
    intro ops cs s s' o hb ho x hx y hy hxy ⟨v, hv⟩ ⟨v', hv'⟩
    obtain ⟨q, hq, d', e1, e2⟩ := ho.sends
    rcases List.mem_append.mp hx with hx1 | hx1 <;> rcases List.mem_append.mp hy with hy1 | hy1
    · exact hxy hx1 hy1
    · rw [List.mem_singleton] at hy1
      subst hy1
      rw [hv', Option.some.injEq, Prod.mk.injEq, Prod.mk.injEq, Network.Node.sat.injEq] at e1
      obtain ⟨rfl, -, rfl⟩ := e1
      exact absurd hv (e2 x hx1 v)
    · rw [List.mem_singleton] at hx1
      subst hx1
      rw [hv, Option.some.injEq, Prod.mk.injEq, Prod.mk.injEq, Network.Node.sat.injEq] at e1
      obtain ⟨rfl, -, rfl⟩ := e1
      exact absurd hv' (e2 y hy1 v')
    · rw [List.mem_singleton.mp hx1, List.mem_singleton.mp hy1]
  induction hr with
  | start => simp at hc
  | answer hb ho hd ih => exact key (s' := s) hb ho c hc c' hc' (fun h1 h2 => ih hsat h1 h2) ⟨_, hs⟩ ⟨_, hs'⟩
  | @event ops cs s s' o hb ho hi hd ih =>
    have hne : ∀ x v, x ∈ ops ++ [o] → sends net x = some (.sat d, v, p) → x ∈ ops := by
      intro x v hx hv
      rcases List.mem_append.mp hx with hx | hx
      · exact hx
      · rw [List.mem_singleton.mp hx] at hv
        rw [Network.sends_outside hv] at hi
        simp at hi
    exact ih hsat (hne c v hc hs) (hne c' v' hc' hs')
  | @call ops cs s s' o hb ho hi hd ih =>
    have hne : ∀ x v, x ∈ ops ++ [o] → sends net x = some (.sat d, v, p) → x ∈ ops := by
      intro x v hx hv
      rcases List.mem_append.mp hx with hx | hx
      · exact hx
      · exact absurd hv (hsat x (by rw [List.mem_singleton.mp hx]; simp) d v)
    exact ih (fun c hc => hsat c (List.mem_append_left _ hc)) (hne c v hc hs) (hne c' v' hc' hs')

theorem comesIn_new {full : Bool} (hh : Network.Honest full net.rx) {s' : Network.Sys D G (End sc.links) W R} (hx : Network.exec net ops = some (.ok s))
    (hst : Network.step net s o = some (.ok s')) {p : Nat} {d : D} {i u : Nat} (hc : ComesIn sc net node s' p d i u) :
    ComesIn sc net node s p d i u ∨ o.internal = true ∧ u = s'.clock := by
  rcases hc with ⟨hi, hg⟩ | ⟨e, pr, h1, h2, h3⟩
  · rcases Network.fromGround_new hh hx hst hg with h | h
    · exact Or.inl (Or.inl ⟨hi, h⟩)
    · exact Or.inr h
  · rcases Network.isl_new hst h3 with h | h
    · exact Or.inl (Or.inr ⟨e, pr, h1, h2, h⟩)
    · exact Or.inr h

end

/-! ## Forwarding -/

/-- The set-up made by the helpers, realized in a simulated network with limits: nothing is said yet about what happens in it. -/
structure Stage (h : Host) (n m : Nat) (sat : Nat × Nat → N) (nodes : List N) (sc : Scenario.Net N U) (nfd : N → Nat → Nfd)
    (net : Network.Net D G (End sc.links) V W P R) (node : D → N) (w : World D G (End sc.links) W) (hist : List (Nat × Nat × D)) (as : List SatAddress)
    (B L C M : Nat) : Prop where
  made : Made h n m sat nodes sc
  sup : ∀ x i, (nfd x i).suppression ≠ .suppress
  ord : ∀ x i l, ((nfd x i).order l).Perm l
  realizes : Realizes sc net node
  seat : ∀ d, ∃ a : Nat × Nat, (a.1 < n ∧ a.2 < m) ∧ node d = sat a
  setup : Setup net w (otherEnd sc.links) hist as
  honest : Network.Honest true net.rx
  punctual : Network.Punctual net.rx
  limits : Limits net w (otherEnd sc.links) B L C M

variable {n m B L C M : Nat} {sat : Nat × Nat → N} {cs : List (Op D G (End sc.links) W)}

omit [Fintype G] [Fintype D] [DecidableEq G] [DecidableEq D] in
theorem Stage.spot (hst : Stage h n m sat nodes sc nfd net node w hist as B L C M) {t : Nat × Nat} (ht : t.1 < n ∧ t.2 < m) (d : D) :
    ((placeOf h.endian (net.satAddr d)).1 < n ∧ (placeOf h.endian (net.satAddr d)).2 < m) ∧ node d = sat (placeOf h.endian (net.satAddr d)) := by
  obtain ⟨st, rfl, F⟩ := hst.made.facts ht
  obtain ⟨a, a1, a2⟩ := hst.seat d
  rw [place_addr F hst.realizes a1 a2]
  exact ⟨a1, a2⟩

/-- What a satellite does with an Interest that comes in. -/
def Decided (h : Host) (n m : Nat) (sc : Scenario.Net N U) (nodes : List N) (nfd : N → Nat → Nfd) (net : Network.Net D G (End sc.links) V W P R) (node : D → N)
    (t : Nat × Nat) (d : D) (i k : Nat) : Prop :=
  receive h sc nodes (nfd (node d) i) (node d) i t = .ok [.sendInterest k] ∧
    ((placeOf h.endian (net.satAddr d) = t ∧ ∃ dv ad, (devices sc (node d))[k]? = some (.icarus (.sat dv ad))) ∨
      ∃ (e : End sc.links) (j : Nat), (devices sc (node d))[k]? = some (.isl e) ∧ net.own e = d ∧ (devices sc (node (net.own (otherEnd sc.links e))))[j]? = some (.isl (otherEnd sc.links e)) ∧
        torusDist n m (placeOf h.endian (net.satAddr (net.own (otherEnd sc.links e)))) t + 1 = torusDist n m (placeOf h.endian (net.satAddr d)) t)

/-- Whatever comes in is sent on: to the ground at the tagged satellite, otherwise to a satellite that is nearer. -/
theorem decided (hst : Stage h n m sat nodes sc nfd net node w hist as B L C M) {p : Nat} (ht : (tag p).1 < n ∧ (tag p).2 < m)
    (hr : Run h sc nodes nfd net node Pk tag dur proto ops s cs) (hl : Launched net hist as cs) (hshort : Short cs L) (hdur : ∀ p ∈ Pk, dur p ≤ L)
    (hsat : ∀ c ∈ cs, ∀ d v, sends net c ≠ some (.sat d, v, p)) {d : D} {i u : Nat} (hin : ComesIn sc net node s p d i u) :
    ∃ k, Decided h n m sc nodes nfd net node (tag p) d i k := by
  have hspot := hst.spot ht
  obtain ⟨st, rfl, F⟩ := hst.made.facts ht
  obtain ⟨-, di, j6, j7⟩ := came_from F hst.sup hst.ord ht hst.realizes hspot hst.setup hst.honest hst.punctual hst.limits (hr.launched hl) (hr.short hshort hdur)
    (hr.loyal hsat) hr.run hin
  obtain ⟨k, dk, q1, q2, q3⟩ := decides F (hst.sup (node d) i) (hst.ord (node d) i) (hspot d).1 ht j6 j7
  have hown : ∀ e, place e = placeOf h.endian (net.satAddr (net.own e)) := by
    intro e
    have := hst.realizes.own e
    rw [(hspot _).2, Scenario.owner_place] at this
    exact (F.inj _ _ (hspot _).1.1 (hspot _).1.2 (Scenario.place_range e).1 (Scenario.place_range e).2 this).symm
  rw [← (hspot d).2] at q1 q2
  refine ⟨k, q2, ?_⟩
  rcases q3 with ⟨e1, x, rfl⟩ | ⟨e, rfl, e2⟩
  · left
    refine ⟨e1, ?_⟩
    have q1' := q1
    rw [(hspot d).2] at q1'
    rcases Scenario.device_at F (hspot d).1 q1' with ⟨d0, ad, e3⟩ | ⟨e, e3, -⟩
    · rw [e3] at q1
      exact ⟨d0, ad, q1⟩
    · cases e3
  · right
    obtain ⟨j, hj⟩ := Scenario.end_device st (otherEnd _ e)
    refine ⟨e, j, q1, ?_, by rw [hst.realizes.own]; exact hj, by rw [← hown]; exact e2⟩
    have q1' := q1
    rw [(hspot d).2] at q1'
    rcases Scenario.device_at F (hspot d).1 q1' with ⟨d0, ad, e3⟩ | ⟨e', e3, e4⟩
    · cases e3
    · cases e3
      apply hst.realizes.inj
      rw [hst.realizes.own, Scenario.owner_place, e4, ← (hspot d).2]

omit [Fintype G] [Fintype D] [DecidableEq G] [DecidableEq D] in
theorem Decided.owes {p : Nat} (hp : p ∈ Pk) {d : D} {i u k : Nat} (hd : Decided h n m sc nodes nfd net node (tag p) d i k) (hin : ComesIn sc net node s p d i u)
    (hnot : ∀ c ∈ ops, ∀ v, sends net c ≠ some (.sat d, v, p)) : ∃ c, Owes h sc nodes nfd net node Pk tag dur proto ops s c := by
  obtain ⟨h1, ⟨-, dv, ad, h2⟩ | ⟨e, j, h2, h3, -⟩⟩ := hd
  · exact ⟨_, p, hp, d, i, u, k, hin, hnot, h1, Or.inl ⟨dv, ad, h2, rfl⟩⟩
  · exact ⟨_, p, hp, d, i, u, k, hin, hnot, h1, Or.inr ⟨e, h2, h3, rfl⟩⟩

/-- Interests are sent on at once when they come in for the first time. -/
theorem answered (hst : Stage h n m sat nodes sc nfd net node w hist as B L C M) {p : Nat} (hp : p ∈ Pk) (ht : (tag p).1 < n ∧ (tag p).2 < m)
    (hr : Run h sc nodes nfd net node Pk tag dur proto ops s cs) (hl : Launched net hist as cs) (hshort : Short cs L) (hdur : ∀ p ∈ Pk, dur p ≤ L)
    (hsat : ∀ c ∈ cs, ∀ d v, sends net c ≠ some (.sat d, v, p)) : ∀ d i u, ComesIn sc net node s p d i u →
      (∃ c ∈ ops, ∃ v, v ≤ u ∧ sends net c = some (.sat d, v, p)) ∨ u = s.clock ∧ ∀ c ∈ ops, ∀ v, sends net c ≠ some (.sat d, v, p) := by
  have free : ∀ {ops cs : List (Op D G (End sc.links) W)} {s s' : Network.Sys D G (End sc.links) W R} {o : Op D G (End sc.links) W},
      Run h sc nodes nfd net node Pk tag dur proto ops s cs → Launched net hist as cs → Short cs L → (∀ c ∈ cs, ∀ d v, sends net c ≠ some (.sat d, v, p)) →
      (∀ c, ¬ Owes h sc nodes nfd net node Pk tag dur proto ops s c) → Network.step net s o = some (.ok s') →
      (∀ d i u, ComesIn sc net node s p d i u → (∃ c ∈ ops, ∃ v, v ≤ u ∧ sends net c = some (.sat d, v, p)) ∨
        u = s.clock ∧ ∀ c ∈ ops, ∀ v, sends net c ≠ some (.sat d, v, p)) → (∀ d v, sends net o ≠ some (.sat d, v, p)) →
      ∀ d i u, ComesIn sc net node s' p d i u → (∃ c ∈ ops ++ [o], ∃ v, v ≤ u ∧ sends net c = some (.sat d, v, p)) ∨
        u = s'.clock ∧ ∀ c ∈ ops ++ [o], ∀ v, sends net c ≠ some (.sat d, v, p) := by
    intro ops cs s s' o hr hl hshort hsat hfree hd ih hno d i u hin
    rcases comesIn_new hst.honest hr.run hd hin with hin | ⟨-, rfl⟩
    · rcases ih d i u hin with ⟨c, hc, h1⟩ | ⟨-, h2⟩
      · exact Or.inl ⟨c, List.mem_append_left _ hc, h1⟩
      · obtain ⟨k, hk⟩ := decided hst ht hr hl hshort hdur hsat hin
        obtain ⟨c, hc⟩ := hk.owes hp hin h2
        exact absurd hc (hfree c)
    · by_cases hs : ∃ c ∈ ops, ∃ v, sends net c = some (.sat d, v, p)
      · obtain ⟨c, hc, v, hv⟩ := hs
        exact Or.inl ⟨c, List.mem_append_left _ hc, v, (Network.sends_before hr.run hc hv).trans (Network.clock_mono hd), hv⟩
      · refine Or.inr ⟨rfl, fun c hc v hv => ?_⟩
        rcases List.mem_append.mp hc with hc | hc
        · exact hs ⟨c, hc, v, hv⟩
        · rw [List.mem_singleton.mp hc] at hv
          exact hno d v hv
  induction hr with
  | start =>
    rintro d i u (⟨-, k, j, ta, f, k1, k2, -⟩ | ⟨e, pr, -, -, k1⟩)
    · simp [Network.Sys.init, Uplink.Sys.init] at k2
    · simp [Network.Sys.init, IslNet.Sys.init] at k1
  | @answer ops cs s s' o hb ho hd ih =>
    intro d i u hin
    have hclock : s'.clock = s.clock := by
      have h1 := ho.outside
      have h2 := ho.now
      obtain ⟨q, hq, d', e1, -⟩ := ho.sends
      have h3 := Network.sends_before (ops := ops ++ [o]) (runFrom_snoc.mpr ⟨_, hb.run, hd⟩) (by simp) e1
      obtain ⟨t, ht', hdue⟩ : ∃ t, Network.time net s o = some t ∧ t = s'.clock := ⟨_, (Network.step_clock hd).1, rfl⟩
      have := Network.sends_when e1
      cases o with
      | sat d o =>
        cases o with
        | send => simp only [Network.time, Downlink.opTime, Option.some.injEq] at ht'; simp only [Op.when] at this; omega
        | _ => simp [sends] at e1
      | isl o =>
        cases o with
        | tx e o =>
          cases o with
          | send => simp only [Network.time, IslNet.opTime, Option.some.injEq] at ht'; simp only [Op.when] at this; omega
          | _ => simp [sends] at e1
        | _ => simp [sends] at e1
      | _ => simp [sends] at e1
    rcases comesIn_new hst.honest hb.run hd hin with hin | ⟨h1, -⟩
    · rcases ih hl hshort hsat d i u hin with ⟨c, hc, h1⟩ | ⟨h1, h2⟩
      · exact Or.inl ⟨c, List.mem_append_left _ hc, h1⟩
      · by_cases hs : ∃ v, sends net o = some (.sat d, v, p)
        · obtain ⟨v, hv⟩ := hs
          have h3 := Network.sends_before (ops := ops ++ [o]) (runFrom_snoc.mpr ⟨_, hb.run, hd⟩) (by simp) hv
          exact Or.inl ⟨o, by simp, v, by omega, hv⟩
        · refine Or.inr ⟨by omega, fun c hc v hv => ?_⟩
          rcases List.mem_append.mp hc with hc | hc
          · exact h2 c hc v hv
          · rw [List.mem_singleton.mp hc] at hv
            exact hs ⟨v, hv⟩
    · rw [ho.outside] at h1
      simp at h1
  | event hb ho hi hd ih =>
    exact free hb hl hshort hsat ho hd (ih hl hshort hsat) (fun d v hv => by
      rw [Network.sends_outside hv] at hi
      simp at hi)
  | @call ops cs s s' o hb ho hi hd ih =>
    have hl' : Launched net hist as cs := hl.left
    have hshort' : Short cs L := hshort.left
    have hsat' : ∀ c ∈ cs, ∀ d v, sends net c ≠ some (.sat d, v, p) := fun c hc => hsat c (List.mem_append_left _ hc)
    exact free hb hl' hshort' hsat' ho hd (ih hl' hshort' hsat') (fun d v => hsat o (by simp) d v)

/-- Where a satellite has sent an Interest, and that it had come in before. -/
theorem forwarded (hst : Stage h n m sat nodes sc nfd net node w hist as B L C M) {p : Nat} (ht : (tag p).1 < n ∧ (tag p).2 < m)
    (hr : Run h sc nodes nfd net node Pk tag dur proto ops s cs) (hl : Launched net hist as cs) (hshort : Short cs L) (hdur : ∀ p ∈ Pk, dur p ≤ L)
    (hsat : ∀ c ∈ cs, ∀ d v, sends net c ≠ some (.sat d, v, p)) {c : Op D G (End sc.links) W} (hc : c ∈ ops) {d : D} {v : Nat} (hs : sends net c = some (.sat d, v, p)) :
    (∃ pre s1 cs1 i u, Run h sc nodes nfd net node Pk tag dur proto pre s1 cs1 ∧ pre <+: ops ∧ cs1 <+: cs ∧ ComesIn sc net node s1 p d i u ∧ u ≤ v) ∧
    ((placeOf h.endian (net.satAddr d) = tag p ∧ ∃ len pr, c = .sat d (.send v p len pr)) ∨
      ∃ (e : End sc.links) (len : Nat) (pr : UInt16) (j : Nat), c = .isl (.tx e (.send v p len pr)) ∧
        (devices sc (node (net.own (otherEnd sc.links e))))[j]? = some (.isl (otherEnd sc.links e)) ∧
        torusDist n m (placeOf h.endian (net.satAddr (net.own (otherEnd sc.links e)))) (tag p) + 1 = torusDist n m (placeOf h.endian (net.satAddr d)) (tag p)) := by
  obtain ⟨pre, post, rfl⟩ := List.append_of_mem hc
  obtain ⟨s1, cs1, h1, h2⟩ := Loop.left (a := pre) (b := c :: post) hr
  obtain ⟨s1', s2, x0, x1⟩ := split_at hr.run
  obtain rfl : s1' = s1 := by
    have := h1.run
    rw [show runFrom _ _ pre = _ from x0] at this
    simpa using this
  obtain ⟨i, u, k, c1, c2, c3⟩ := hr.loyal hsat pre c post s1' d v rfl x0 hs
  have hl1 : Launched net hist as cs1 := by
    obtain ⟨r, rfl⟩ := h2
    exact hl.left
  have hshort1 : Short cs1 L := by
    obtain ⟨r, rfl⟩ := h2
    exact hshort.left
  obtain ⟨k', d1, d2⟩ := decided hst ht h1 hl1 hshort1 hdur (fun c hc => hsat c (h2.subset hc)) c1
  rw [c2] at d1
  simp only [Outcome.ok.injEq, List.cons.injEq, Action.sendInterest.injEq, and_true] at d1
  subst d1
  refine ⟨⟨pre, s1', cs1, i, u, h1, ⟨_, rfl⟩, h2, c1, Network.gets_before hst.honest x0 x1 hs c1.gets⟩, ?_⟩
  rcases c3 with ⟨len, pr, dv, ad, rfl, c4⟩ | ⟨len, pr, e, rfl, c4⟩
  · rcases d2 with ⟨e1, -⟩ | ⟨e, j, e1, -⟩
    · exact Or.inl ⟨e1, len, pr, rfl⟩
    · rw [c4] at e1
      simp at e1
  · rcases d2 with ⟨-, _, _, e1⟩ | ⟨e', j, e1, e2, e3, e4⟩
    · rw [c4] at e1
      simp at e1
    · rw [c4] at e1
      simp only [Option.some.injEq, Scenario.NetDev.isl.injEq] at e1
      subst e1
      exact Or.inr ⟨e, len, pr, j, rfl, e3, e4⟩

/-- Interests come in after they were given to a station. -/
theorem early (hst : Stage h n m sat nodes sc nfd net node w hist as B L C M) {p : Nat} (ht : (tag p).1 < n ∧ (tag p).2 < m)
    (hr : Run h sc nodes nfd net node Pk tag dur proto ops s cs) (hl : Launched net hist as cs) (hshort : Short cs L) (hdur : ∀ p ∈ Pk, dur p ≤ L)
    (hsat : ∀ c ∈ cs, ∀ d v, sends net c ≠ some (.sat d, v, p)) {a : Nat} (hfirst : ∀ c ∈ cs, ∀ g v, sends net c = some (.ground g, v, p) → a ≤ v)
    {d : D} {i u : Nat} (hin : ComesIn sc net node s p d i u) : a ≤ u := by
  have hspot := hst.spot ht
  obtain ⟨st, rfl, F⟩ := hst.made.facts ht
  obtain ⟨⟨g0, d0, path, t0, kept, j1, j2, -⟩, -⟩ := came_from F hst.sup hst.ord ht hst.realizes hspot hst.setup hst.honest hst.punctual hst.limits (hr.launched hl)
    (hr.short hshort hdur) (hr.loyal hsat) hr.run hin
  obtain ⟨o, ho, e1⟩ := j1.begins j2
  obtain ⟨c, hc⟩ := j1.route
  have := hc.time
  have ho' : o ∈ cs := by
    rcases hr.mem ho with h1 | h1 | ⟨_, _, h1⟩
    · rw [Network.sends_outside e1] at h1
      simp at h1
    · exact h1
    · obtain ⟨q, -, d', e2, -⟩ := h1.sends
      rw [e1] at e2
      simp at e2
  have := hfirst o ho' g0 t0 e1
  omega

/-- Only the calls change what a station tracks. -/
theorem Run.tracks (hr : Run h sc nodes nfd net node Pk tag dur proto ops s cs) (g : G) :
    Downlink.tracks g (ops.filterMap Network.toDown) = Downlink.tracks g (cs.filterMap Network.toDown) := by
  have snoc : ∀ (l : List (Op D G (End sc.links) W)) (o : Op D G (End sc.links) W), Downlink.tracks g ((l ++ [o]).filterMap Network.toDown) =
      Downlink.tracks g (l.filterMap Network.toDown) ++ Downlink.tracks g ([o].filterMap Network.toDown) := by
    intro l o
    rw [List.filterMap_append]
    unfold Downlink.tracks
    rw [List.filterMap_append]
  have none : ∀ o : Op D G (End sc.links) W, (∀ g t a, o ≠ .track g t a) → Downlink.tracks g ([o].filterMap Network.toDown) = [] := by
    intro o ho
    cases o with
    | track g t a => exact absurd rfl (ho g t a)
    | _ => simp [Network.toDown, Downlink.tracks]
  induction hr with
  | start => rfl
  | answer hb ho hd ih => rw [snoc, none _ ho.untracked, List.append_nil, ih]
  | event hb ho hi hd ih =>
    rw [snoc, none _ ?_, List.append_nil, ih]
    rintro g t a rfl
    simp [Op.internal] at hi
  | call hb ho hi hd ih => rw [snoc, snoc, ih]

/-- What the devices of a satellite are asked to send, if only NFD makes them send: each Interest once. -/
theorem Run.collects (hr : Run h sc nodes nfd net node Pk tag dur proto ops s cs) {d : D} {f : Op D G (End sc.links) W → List Nat} {F : List (Op D G (End sc.links) W) → List Nat}
    (hsat : ∀ c ∈ cs, ∀ v q, sends net c ≠ some (.sat d, v, q)) (h0 : F [] = []) (hF : ∀ l o, F (l ++ [o]) = F l ++ f o)
    (hf : ∀ o, f o = [] ∨ ∃ v q, f o = [q] ∧ sends net o = some (.sat d, v, q)) : (F ops).Nodup ∧ ∀ q ∈ F ops, q ∈ Pk := by
  suffices hsuff : (F ops).Nodup ∧ ∀ q ∈ F ops, q ∈ Pk ∧ ∃ c ∈ ops, ∃ v, sends net c = some (.sat d, v, q) from ⟨hsuff.1, fun q hq => (hsuff.2 q hq).1⟩
  have same : ∀ {l : List (Op D G (End sc.links) W)} {o : Op D G (End sc.links) W},
      ((F l).Nodup ∧ ∀ q ∈ F l, q ∈ Pk ∧ ∃ c ∈ l, ∃ v, sends net c = some (.sat d, v, q)) → f o = [] →
      (F (l ++ [o])).Nodup ∧ ∀ q ∈ F (l ++ [o]), q ∈ Pk ∧ ∃ c ∈ l ++ [o], ∃ v, sends net c = some (.sat d, v, q) := by
    intro l o ⟨i1, i2⟩ he
    rw [hF, he, List.append_nil]
    refine ⟨i1, fun q hq => ?_⟩
    obtain ⟨j1, c, hc, j2⟩ := i2 q hq
    exact ⟨j1, c, List.mem_append_left _ hc, j2⟩
  induction hr with
  | start => rw [h0]; simp
  | @answer ops cs s s' o hb ho hd ih =>
    have ih' := ih hsat
    rcases hf o with he | ⟨v, q, he, hs⟩
    · exact same ih' he
    · obtain ⟨p, hp, d', e1, e2⟩ := ho.sends
      rw [hs] at e1
      simp only [Option.some.injEq, Prod.mk.injEq, Network.Node.sat.injEq] at e1
      obtain ⟨rfl, rfl, rfl⟩ := e1
      obtain ⟨i1, i2⟩ := ih'
      rw [hF, he]
      refine ⟨List.Nodup.append i1 (List.nodup_singleton _) ?_, fun x hx => ?_⟩
      · intro x hx hy
        rw [List.mem_singleton.mp hy] at hx
        obtain ⟨-, c, hc, u, hu⟩ := i2 _ hx
        exact e2 c hc u hu
      · rcases List.mem_append.mp hx with hx | hx
        · obtain ⟨j1, c, hc, j2⟩ := i2 x hx
          exact ⟨j1, c, List.mem_append_left _ hc, j2⟩
        · rw [List.mem_singleton.mp hx]
          exact ⟨hp, o, by simp, _, hs⟩
  | @event ops cs s s' o hb ho hi hd ih =>
    refine same (ih hsat) ?_
    rcases hf o with he | ⟨v, q, he, hs⟩
    · exact he
    · rw [Network.sends_outside hs] at hi
      simp at hi
  | @call ops cs s s' o hb ho hi hd ih =>
    refine same (ih (fun c hc => hsat c (List.mem_append_left _ hc))) ?_
    rcases hf o with he | ⟨v, q, he, hs⟩
    · exact he
    · exact absurd hs (hsat o (by simp) v q)

/-- **Room.**  If nobody but NFD makes satellites send, and the queues of the satellites (drop-tail, counting packets) have room for as many packets as there are Interests, no satellite ever
drops one. -/
theorem C98_room (hr : Run h sc nodes nfd net node Pk tag dur proto ops s cs) (hsat : ∀ c ∈ cs, ∀ d v q, sends net c ≠ some (.sat d, v, q))
    {b1 : D → Sat2Ground.Entry W → Nat} {b2 : End sc.links → SatNet.Entry → Nat} {K1 : D → UInt32} {K2 : End sc.links → UInt32}
    (h1 : ∀ d, net.satAccept d = Queue.dropTail .packets (K1 d) (b1 d)) (h2 : ∀ e, net.isl.accept e = Queue.dropTail .packets (K2 e) (b2 e))
    (hK1 : ∀ d, Pk.card ≤ (K1 d).toNat) (hK2 : ∀ e, Pk.card ≤ (K2 e).toNat) : ∀ p, Network.Kept s p := by
  have key : (∀ d, (Network.downPkts (Downlink.opsOf d (ops.filterMap Network.toDown))).Nodup ∧ ∀ q ∈ Network.downPkts (Downlink.opsOf d (ops.filterMap Network.toDown)), q ∈ Pk) ∧
      ∀ e, (Network.islPkts (IslNet.opsOf e (ops.filterMap Network.toIsl))).Nodup ∧ ∀ q ∈ Network.islPkts (IslNet.opsOf e (ops.filterMap Network.toIsl)), q ∈ Pk := by
    refine ⟨fun d => ?_, fun e => ?_⟩
    · refine hr.collects (F := fun ops => Network.downPkts (Downlink.opsOf d (ops.filterMap Network.toDown)))
        (f := fun o => Network.downPkts (Downlink.opsOf d ([o].filterMap Network.toDown))) (fun c hc v q => hsat c hc d v q) (by simp [Network.downPkts, Downlink.opsOf])
        (fun l o => by simp only [Network.downPkts, Downlink.opsOf, List.filterMap_append]) (fun o => ?_)
      cases o with
      | sat d' o =>
        by_cases hd : d' = d
        · subst hd
          cases o <;> simp [Network.downPkts, Downlink.opsOf, Network.toDown, sends]
        · simp [Network.downPkts, Downlink.opsOf, Network.toDown, hd]
      | _ => simp [Network.downPkts, Downlink.opsOf, Network.toDown]
    · refine hr.collects (F := fun ops => Network.islPkts (IslNet.opsOf e (ops.filterMap Network.toIsl)))
        (f := fun o => Network.islPkts (IslNet.opsOf e ([o].filterMap Network.toIsl))) (d := net.own e) (fun c hc v q => hsat c hc _ v q)
        (by simp [Network.islPkts, IslNet.opsOf]) (fun l o => by simp only [Network.islPkts, IslNet.opsOf, List.filterMap_append]) (fun o => ?_)
      cases o with
      | isl o =>
        cases o with
        | tx e' o =>
          by_cases he : e' = e
          · subst he
            cases o <;> simp [Network.islPkts, IslNet.opsOf, Network.toIsl, sends]
          · simp [Network.islPkts, IslNet.opsOf, Network.toIsl, he]
        | _ => simp [Network.islPkts, IslNet.opsOf, Network.toIsl]
      | _ => simp [Network.islPkts, IslNet.opsOf, Network.toIsl]
  have hlen : ∀ l : List Nat, l.Nodup → (∀ q ∈ l, q ∈ Pk) → l.length ≤ Pk.card := by
    intro l hn hm
    rw [← List.toFinset_card_of_nodup hn]
    exact Finset.card_le_card (fun q hq => hm q (List.mem_toFinset.mp hq))
  obtain ⟨-, x2, x3⟩ := Network.C73_parts hr.run
  intro p
  constructor
  · intro d y hy
    have := Downlink.C59_satellite x2 d
    rw [show net.down.accept d = _ from h1 d] at this
    rw [(Network.down_room this ((hlen _ (key.1 d).1 (key.1 d).2).trans (hK1 d))).1] at hy
    simp at hy
  · intro e y hy
    have := IslNet.C60_sender x3 e
    rw [h2 e] at this
    rw [(Network.isl_room this ((hlen _ (key.2 e).1 (key.2 e).2).trans (hK2 e))).1] at hy
    simp at hy

/-- **There in time.**  Satellites forward tagged Interests at once, as the strategy decides.  When everything is at rest, an Interest that was accepted by the queue of a station at time
`a`, when the station tracked satellite `d0`, and given to no station before `a`, has been passed up by every station tuned to the satellite at the tagged place, within as many deadlines as the
grid needs links between the two satellites, and two more: if the links in use are open for so long and no queue of a satellite drops the Interest. -/
theorem C98_delivered {net : Network.Net D G (End sc.links) V W P (NoneMac.Sys P)} {s : Network.Sys D G (End sc.links) W (NoneMac.Sys P)} (hrx : net.rx = Uplink.noneReceiver P)
    (hst : Stage h n m sat nodes sc nfd net node w hist as B L C M) {p : Nat} (hp : p ∈ Pk) (ht : (tag p).1 < n ∧ (tag p).2 < m)
    (hr : Run h sc nodes nfd net node Pk tag dur proto ops s cs) (hl : Launched net hist as cs) (hshort : Short cs L) (hdur : ∀ p ∈ Pk, dur p ≤ L)
    (hsat : ∀ c ∈ cs, ∀ d v, sends net c ≠ some (.sat d, v, p)) (hquiet : Network.Quiet net s) (hdone : ∀ c, ¬ Owes h sc nodes nfd net node Pk tag dur proto ops s c)
    {a : Nat} (hfirst : ∀ c ∈ cs, ∀ g v, sends net c = some (.ground g, v, p) → a ≤ v) {g0 : G} {x : GroundSta.Entry W}
    (hacc : (a, x) ∈ (s.up.stations g0).accepted) (hpkt : x.pkt = p) {d0 dt : D} (htgt : Uplink.target hist as x.dst = some d0)
    (hdt : placeOf h.endian (net.satAddr dt) = tag p) {F : Nat}
    (hF : F = a + (torusDist n m (placeOf h.endian (net.satAddr d0)) (tag p) + 2) * deadline B L C M)
    (hup : ∀ u, a ≤ u → u ≤ F → w.ground.admit u g0 d0 = true) (hisl : ∀ e u, a ≤ u → u ≤ F → w.isl.admit u e (otherEnd sc.links e) = true)
    (hkept : Network.Kept s p) {g : G} (hon : g ∈ net.chan.ground) (hdown : ∀ u, a ≤ u → u ≤ F → w.ground.admit u g dt = true)
    (htr : Downlink.trackedAt (net.remote g) (Downlink.tracks g (cs.filterMap Network.toDown)) a = net.satAddr dt)
    (hstay : ∀ u c, .track g u c ∈ cs → u < a ∨ F < u) : ∃ τ, Gets net s (.ground g) τ p ∧ a ≤ τ ∧ τ ≤ F := by
  have hl' := hr.launched hl
  have hshort' := hr.short hshort hdur
  have hdl : C + (B + L) + B ≤ deadline B L C M := by unfold deadline; omega
  have hdl2 : C + L + M + L ≤ deadline B L C M := by unfold deadline; omega
  obtain ⟨T, hT1, hT2⟩ : ∃ T, s.clock ≤ T ∧ F < T := ⟨max s.clock (F + 1), by omega, by omega⟩
  obtain ⟨T3, T4, T5⟩ := hquiet.due hT1
  have hspot := hst.spot ht
  have hdinj : ∀ d, placeOf h.endian (net.satAddr d) = tag p → d = dt := by
    intro d hd
    apply hst.realizes.inj
    rw [(hspot d).2, (hspot dt).2, hd, hdt]
  have hstay' : ∀ u c, .track g u c ∈ ops → u < a ∨ F < u := by
    intro u c hm
    rcases hr.mem hm with h1 | h1 | ⟨_, _, h1⟩
    · simp [Op.internal] at h1
    · exact hstay u c h1
    · exact absurd rfl (h1.untracked g u c)
  have main : ∀ k d i u, torusDist n m (placeOf h.endian (net.satAddr d)) (tag p) = k → ComesIn sc net node s p d i u → u + (k + 1) * deadline B L C M ≤ F →
      ∃ τ, Gets net s (.ground g) τ p ∧ a ≤ τ ∧ τ ≤ F := by
    intro k
    induction k with
    | zero =>
      intro d i u hk hin hlate
      rw [Nat.zero_add, Nat.one_mul] at hlate
      have hau := early hst ht hr hl hshort hdur hsat hfirst hin
      obtain ⟨c, hc, v, hv, hs⟩ : ∃ c ∈ ops, ∃ v, v ≤ u ∧ sends net c = some (.sat d, v, p) := by
        rcases answered hst hp ht hr hl hshort hdur hsat d i u hin with h1 | ⟨-, h2⟩
        · exact h1
        · obtain ⟨k, hk⟩ := decided hst ht hr hl hshort hdur hsat hin
          obtain ⟨c, hc⟩ := hk.owes (dur := dur) (proto := proto) hp hin h2
          exact absurd hc (hdone c)
      obtain ⟨⟨pre, s1, cs1, i1, u1, r1, -, r2, r3, r4⟩, hform⟩ := forwarded hst ht hr hl hshort hdur hsat hc hs
      have hau1 : a ≤ u1 := by
        obtain ⟨r, rfl⟩ := r2
        exact early hst ht r1 hl.left hshort.left hdur (fun c hc => hsat c (List.mem_append_left _ hc)) (fun c hc => hfirst c (List.mem_append_left _ hc)) r3
      rcases hform with ⟨e1, len, pr, rfl⟩ | ⟨e, len, pr, j, rfl, -, e2⟩
      · obtain rfl := hdinj d e1
        obtain ⟨y, y1, y2⟩ := hkept.down hr.run hc
        subst y2
        obtain ⟨τ, t1, t2, t3⟩ := Network.C95_down hst.setup hst.limits hshort' hr.run y1 hon (fun u' h1 h2 => hdown u' (by omega) (by omega)) (by
          rw [Network.trackedAt_stays (t := a) (by omega), hr.tracks]
          · exact htr
          · intro c hc hle
            have := hstay' _ _ (Network.mem_tracks hc)
            omega) (fun u' b hb => by
          have := hstay' u' b hb
          omega) T4 (by omega)
        exact ⟨τ, t1, by omega, by omega⟩
      · omega
    | succ k ih =>
      intro d i u hk hin hlate
      rw [Nat.add_mul (k + 1), Nat.one_mul] at hlate
      have hau := early hst ht hr hl hshort hdur hsat hfirst hin
      obtain ⟨c, hc, v, hv, hs⟩ : ∃ c ∈ ops, ∃ v, v ≤ u ∧ sends net c = some (.sat d, v, p) := by
        rcases answered hst hp ht hr hl hshort hdur hsat d i u hin with h1 | ⟨-, h2⟩
        · exact h1
        · obtain ⟨k, hk⟩ := decided hst ht hr hl hshort hdur hsat hin
          obtain ⟨c, hc⟩ := hk.owes (dur := dur) (proto := proto) hp hin h2
          exact absurd hc (hdone c)
      obtain ⟨⟨pre, s1, cs1, i1, u1, r1, -, r2, r3, r4⟩, hform⟩ := forwarded hst ht hr hl hshort hdur hsat hc hs
      have hau1 : a ≤ u1 := by
        obtain ⟨r, rfl⟩ := r2
        exact early hst ht r1 hl.left hshort.left hdur (fun c hc => hsat c (List.mem_append_left _ hc)) (fun c hc => hfirst c (List.mem_append_left _ hc)) r3
      rcases hform with ⟨e1, -⟩ | ⟨e, len, pr, j, rfl, e1, e2⟩
      · rw [e1, torusDist_self] at hk
        omega
      · obtain ⟨y, y1, y2, y3⟩ := hkept.isl hr.run hc
        subst y2 y3
        obtain ⟨τ, pr', t1, t2, t3⟩ := Network.isl_delivered hst.setup hst.limits hshort' hr.run y1 (fun u' h1 h2 => hisl _ u' (by omega) (by omega)) T5 (by omega)
        exact ih (net.own (otherEnd sc.links e)) j τ (by omega) (Or.inr ⟨_, pr', rfl, e1, t1⟩) (by omega)
  have hF1 : F = a + deadline B L C M + (torusDist n m (placeOf h.endian (net.satAddr d0)) (tag p) + 1) * deadline B L C M := by
    rw [hF]; ring
  have hF2 : deadline B L C M ≤ (torusDist n m (placeOf h.endian (net.satAddr d0)) (tag p) + 1) * deadline B L C M := Nat.le_mul_of_pos_left _ (by omega)
  obtain ⟨u, u1, u2, u3⟩ := Network.up_delivered hrx hst.setup hst.limits hl' hshort' hr.run hacc htgt (fun v v1 v2 => hup v v1 (by omega)) T3 (by omega)
  rw [hpkt] at u1
  exact main _ d0 0 u rfl (Or.inl ⟨rfl, u1⟩) (by omega)

/-- **Nowhere else.**  A station that gets the Interest is tuned, at some time, to the satellite at the tagged place, and the Interest has come from a station to which it was given, over satellites
only, over as many links between them as the grid needs, and within as many deadlines and two more. -/
theorem C98_only (hst : Stage h n m sat nodes sc nfd net node w hist as B L C M) {p : Nat} (hp : p ∈ Pk) (ht : (tag p).1 < n ∧ (tag p).2 < m)
    (hr : Run h sc nodes nfd net node Pk tag dur proto ops s cs) (hl : Launched net hist as cs) (hshort : Short cs L) (hdur : ∀ p ∈ Pk, dur p ≤ L)
    (hsat : ∀ c ∈ cs, ∀ d v, sends net c ≠ some (.sat d, v, p)) {g : G} {τ : Nat} (hg : Gets net s (.ground g) τ p) :
    ∃ dt, placeOf h.endian (net.satAddr dt) = tag p ∧ (net.satAddr dt = net.remote g ∨ ∃ v, .track g v (net.satAddr dt) ∈ cs) ∧
      ∃ g0 d0 path t0, (∃ c ∈ cs, sends net c = some (.ground g0, t0, p)) ∧
        Trip net w (otherEnd sc.links) (Uplink.target hist as) true ops p (deadline B L C M) path t0 τ 0 ∧
        path.head? = some (.ground g0) ∧ path[1]? = some (.sat d0) ∧ path.getLast? = some (.ground g) ∧
        path.length = torusDist n m (placeOf h.endian (net.satAddr d0)) (tag p) + 3 ∧ (∀ x ∈ path.tail.dropLast, ∃ d, x = .sat d) ∧
        τ ≤ t0 + (torusDist n m (placeOf h.endian (net.satAddr d0)) (tag p) + 2) * deadline B L C M := by
  obtain ⟨dt, h1, h2, g0, d0, path, t0, kept, k1, k2, k3, k4, k5, k6, k7⟩ := C96_only hst.made hst.sup hst.ord ht hst.realizes hst.seat hst.setup hst.honest hst.punctual hst.limits
    (hr.launched hl) (hr.short hshort hdur) (hr.loyal hsat) hr.run hg
  have hkept : kept ≤ (path.length - 2) * 0 := by
    refine k1.prompt_on (A := fun x => ∃ d, x = .sat d) k6 ?_
    rintro _ t1 t2 ⟨d, rfl⟩ ⟨pre, o, post, s1, rfl, hs, x0, hgets, -⟩
    obtain ⟨i, hin⟩ : ∃ i, ComesIn sc net node s1 p d i t1 := by
      rcases hgets with hgets | ⟨e, pr, rfl, hgets⟩
      · exact ⟨0, Or.inl ⟨rfl, hgets⟩⟩
      · obtain ⟨st, rfl, -⟩ := hst.made.facts ht
        obtain ⟨j, hj⟩ := Scenario.end_device st e
        exact ⟨j, Or.inr ⟨e, pr, rfl, by rw [hst.realizes.own]; exact hj, hgets⟩⟩
    have hr' : Run h sc nodes nfd net node Pk tag dur proto ((pre ++ [o]) ++ post) s cs := by
      rw [List.append_assoc]; exact hr
    obtain ⟨s2, cs2, r2, hpre⟩ := hr'.left
    obtain ⟨s3, cs3, r3, hd, r4⟩ := r2.snoc
    obtain rfl : s3 = s1 := by
      have := r3.run
      rw [show runFrom _ _ pre = _ from x0] at this
      simpa using this.symm
    have hcs3 : cs3 <+: cs := by
      rcases r4 with ⟨-, rfl⟩ | ⟨-, -, rfl⟩ | ⟨-, -, rfl⟩
      · exact hpre
      · exact hpre
      · exact (List.prefix_append _ _).trans hpre
    have hl3 : Launched net hist as cs3 := by
      obtain ⟨r, rfl⟩ := hcs3
      exact hl.left
    have hshort3 : Short cs3 L := by
      obtain ⟨r, rfl⟩ := hcs3
      exact hshort.left
    rcases answered hst hp ht r3 hl3 hshort3 hdur (fun c hc => hsat c (hcs3.subset hc)) d i t1 hin with ⟨c, hc, v, v1, v2⟩ | ⟨e1, -⟩
    · have := hr.once hsat (c := c) (c' := o) (by simp [hc]) (by simp) v2 hs
      subst this
      rw [hs] at v2
      simp only [Option.some.injEq, Prod.mk.injEq, true_and] at v2
      omega
    · rcases r4 with ⟨ho, -⟩ | ⟨-, hi, -⟩ | ⟨-, -, rfl⟩
      · have := ho.now
        have := Network.sends_when hs
        omega
      · rw [Network.sends_outside hs] at hi
        simp at hi
      · exact absurd hs (hsat o (hpre.subset (by simp)) d t2)
  have hk0 : kept = 0 := by omega
  subst hk0
  obtain ⟨o, ho, e1⟩ := k1.begins k2
  refine ⟨dt, h1, ?_, g0, d0, path, t0, ⟨o, ?_, e1⟩, k1, k2, k3, k4, k5, k6, by omega⟩
  · rcases h2 with h2 | ⟨v, h2⟩
    · exact Or.inl h2
    · refine Or.inr ⟨v, ?_⟩
      rcases hr.mem h2 with h3 | h3 | ⟨_, _, h3⟩
      · simp [Op.internal] at h3
      · exact h3
      · exact absurd rfl (h3.untracked _ _ _)
  · rcases hr.mem ho with h3 | h3 | ⟨_, _, h3⟩
    · rw [Network.sends_outside e1] at h3
      simp at h3
    · exact h3
    · obtain ⟨q, -, d', e2, -⟩ := h3.sends
      rw [e1] at e2
      simp at e2

end

/-! ## A concrete case -/

section Example

/-- The network of C96 again: Interest 11, tagged with satellite 1, is given to station 0; the rest happens by itself. -/
def loopOps : List (Op (Fin 2) (Fin 2) (End exLinks) Int) :=
  [.send 0 0 11 10 7, .upArrive, .run 0, .upFinish 0, .isl (.tx (exEnd false) (.send 13 11 10 7)), .isl .arrive, .isl (.tx (exEnd false) .run), .isl (.finish (exEnd true)),
   .sat 1 (.send 28 11 10 7), .downArrive, .sat 1 .run, .downFinish 1]

abbrev loopNet := exNet (Uplink.noneReceiver Int)

abbrev loopRun (st : IcarusHelper.St Nat Unit) :=
  Run exHost ⟨st, exLinks⟩ [0, 1, 2, 3] exNfd loopNet (fun d : Fin 2 => d.val) {11} (fun _ => (0, 1)) (fun _ => 10) 7

abbrev loopOwes (st : IcarusHelper.St Nat Unit) :=
  Owes exHost ⟨st, exLinks⟩ [0, 1, 2, 3] exNfd loopNet (fun d : Fin 2 => d.val) {11} (fun _ => (0, 1)) (fun _ => 10) 7

/-- Satellites have sent whatever they have got. -/
def Idle (ops : List (Op (Fin 2) (Fin 2) (End exLinks) Int)) (s : Network.Sys (Fin 2) (Fin 2) (End exLinks) Int (NoneMac.Sys Int)) : Prop :=
  ∀ d : Fin 2, ((s.up.sats d).delivered = [] ∧ ∀ b, loopNet.own (exEnd b) = d → (s.isl.rx (exEnd b)).delivered = []) ∨
    ∃ c ∈ ops, (sends loopNet c).map (fun y => (y.1, y.2.2)) = some (.sat d, 11)

theorem Idle.free {st : IcarusHelper.St Nat Unit} {ops : List (Op (Fin 2) (Fin 2) (End exLinks) Int)} {s : Network.Sys (Fin 2) (Fin 2) (End exLinks) Int (NoneMac.Sys Int)}
    (h : Idle ops s) : ∀ c, ¬ loopOwes st ops s c := by
  rintro c ⟨p, hp, d, i, u, k, hin, hnot, -⟩
  obtain rfl := Finset.mem_singleton.mp hp
  rcases h d with ⟨h1, h2⟩ | ⟨c, hc, h1⟩
  · rcases hin with ⟨-, k, j, ta, f, k1, -⟩ | ⟨e, pr, rfl, -, k1⟩
    · rw [show loopNet.rx.delivered (s.up.sats d) = (s.up.sats d).delivered from rfl, h1] at k1
      simp at k1
    · rcases end_cases e with rfl | rfl <;> rw [h2 _ rfl] at k1 <;> simp at k1
  · cases hs : sends loopNet c with
    | none => rw [hs] at h1; simp at h1
    | some y =>
      obtain ⟨a, v, q⟩ := y
      rw [hs] at h1
      simp only [Option.map_some, Option.some.injEq, Prod.mk.injEq] at h1
      obtain ⟨rfl, rfl⟩ := h1
      exact hnot c hc v hs

theorem loopIdle (k : Nat) (hk : k < 13) (h4 : k ≠ 4) (h8 : k ≠ 8) : ∃ s, Network.exec loopNet (loopOps.take k) = some (.ok s) ∧ Idle (loopOps.take k) s := by
  interval_cases k <;> first | contradiction | (refine ⟨_, rfl, ?_⟩; unfold Idle; decide)

theorem loopMid : (∃ s, Network.exec loopNet (loopOps.take 4) = some (.ok s) ∧ (13, 0) ∈ (s.up.sats 0).delivered ∧
      s.up.heard = [(3, 0, ⟨11, 10, ⟨1, [0]⟩, 7, 20⟩)] ∧ s.clock = 13) ∧
    ∃ s, Network.exec loopNet (loopOps.take 8) = some (.ok s) ∧ (28, 11, 7) ∈ (s.isl.rx (exEnd true)).delivered ∧ s.clock = 28 := by
  constructor
  · refine ⟨_, rfl, ?_⟩; unfold Network.Sys.clock; decide
  · refine ⟨_, rfl, ?_⟩; unfold Network.Sys.clock; decide

theorem loopEnd : ∃ s, Network.exec loopNet loopOps = some (.ok s) ∧ Idle loopOps s ∧ Network.Quiet loopNet s ∧ Network.Kept s 11 ∧
    (0, ⟨11, 10, SatAddress.mk3 .little 1 0 0, 7, 30⟩) ∈ (s.up.stations 0).accepted ∧
    (s.down.stations 1).delivered = [(43, ⟨11, (SatAddress.mk3 .little 1 0 1).convertTo .little 7, 7⟩)] := by
  refine ⟨_, rfl, ?_⟩
  unfold Idle Network.Quiet Uplink.Quiet Downlink.Quiet IslNet.Quiet Network.Kept
  decide

theorem loopRuns {st : IcarusHelper.St Nat Unit} (F : Facts exHost 1 2 exSat st [0, 1, 2, 3]) {s : Network.Sys (Fin 2) (Fin 2) (End exLinks) Int (NoneMac.Sys Int)}
    (hx : Network.exec loopNet loopOps = some (.ok s)) : loopRun st loopOps s [.send 0 0 11 10 7] := by
  refine Loop.of (keep := fun o => match o with | .send .. => true | _ => false) hx ?_
  intro pre o post s1 e hx1
  obtain ⟨⟨k1, r1, r2⟩, r3⟩ := exDecides F
  have hpre : pre = loopOps.take pre.length := by rw [e]; simp
  have hone : loopOps[pre.length]? = some o := by rw [e]; simp
  have hlt : pre.length < 12 := by
    have : loopOps.length = 12 := rfl
    rw [e, List.length_append, List.length_cons] at this
    omega
  generalize hn : pre.length = n at hpre hone hlt
  clear e hn
  subst hpre
  by_cases h4 : n = 4
  · subst h4
    obtain ⟨⟨s', h1, h2, h3, h4⟩, -⟩ := loopMid
    have es := h1.symm.trans hx1
    simp only [Option.some.injEq, Outcome.ok.injEq] at es
    subst es
    simp only [loopOps, List.getElem?_cons_zero, List.getElem?_cons_succ, Option.some.injEq] at hone
    subst hone
    refine Or.inl ⟨⟨11, by simp, 0, 0, 13, k1, Or.inl ⟨rfl, 0, 0, _, _, h2, by rw [h3]; rfl, rfl, rfl⟩, ?_, r1, Or.inr ⟨_, r2, rfl, by rw [h4]⟩⟩, rfl⟩
    intro c hc v
    simp only [loopOps, List.take_succ_cons, List.take_zero, List.mem_cons, List.not_mem_nil, or_false] at hc
    rcases hc with rfl | rfl | rfl | rfl <;> simp [sends]
  · by_cases h8 : n = 8
    · subst h8
      obtain ⟨-, s', h1, h2, h3⟩ := loopMid
      have es := h1.symm.trans hx1
      simp only [Option.some.injEq, Outcome.ok.injEq] at es
      subst es
      simp only [loopOps, List.getElem?_cons_zero, List.getElem?_cons_succ, Option.some.injEq] at hone
      subst hone
      obtain ⟨j, hj⟩ := Scenario.end_device st (exEnd true)
      obtain ⟨k2, dv, ad, r4, r5⟩ := r3 j hj
      refine Or.inl ⟨⟨11, by simp, 1, j, 28, k2, Or.inr ⟨_, _, rfl, hj, h2⟩, ?_, r4, Or.inl ⟨dv, ad, r5, by rw [h3]⟩⟩, rfl⟩
      intro c hc v
      simp only [loopOps, List.take_succ_cons, List.take_zero, List.mem_cons, List.not_mem_nil, or_false] at hc
      rcases hc with rfl | rfl | rfl | rfl | rfl | rfl | rfl | rfl <;> simp [sends, exNet, exEnd]
    · obtain ⟨s', h1, h2⟩ := loopIdle n (by omega) h4 h8
      have es := h1.symm.trans hx1
      simp only [Option.some.injEq, Outcome.ok.injEq] at es
      subst es
      refine Or.inr ⟨h2.free, ?_⟩
      interval_cases n <;> first | contradiction | (simp only [loopOps, List.getElem?_cons_zero, List.getElem?_cons_succ, Option.some.injEq] at hone; subst hone; rfl)

theorem loopStage : ∃ st : IcarusHelper.St Nat Unit, Facts exHost 1 2 exSat st [0, 1, 2, 3] ∧
    Stage exHost 1 2 exSat [0, 1, 2, 3] ⟨st, exLinks⟩ exNfd loopNet (fun d : Fin 2 => d.val) exWorld Network.exHist Network.exAddrs 0 10 10 5 := by
  obtain ⟨st, m1, F, m2⟩ := exMade
  exact ⟨st, F, m1, fun _ _ => by simp, fun _ _ l => List.Perm.refl l, exRealizes m2, fun d => ⟨(0, d.val), ⟨Nat.one_pos, d.isLt⟩, by simp [exSat]⟩, exSetup _,
    Network.C73_none_honest, Network.none_punctual, exLimits _⟩

theorem loopLaunched : Launched loopNet Network.exHist Network.exAddrs ([.send 0 0 11 10 7] : List (Op (Fin 2) (Fin 2) (End exLinks) Int)) :=
  ⟨(exLaunched _).1, by simp⟩

theorem loopShort : Short ([.send 0 0 11 10 7] : List (Op (Fin 2) (Fin 2) (End exLinks) Int)) 10 := by
  unfold Short
  decide

/-- The concrete execution meets all hypotheses of `C98_delivered` … -/
example : ∃ (st : IcarusHelper.St Nat Unit) (s : _), loopRun st loopOps s [.send 0 0 11 10 7] ∧
    ∃ τ, Gets loopNet s (.ground 1) τ 11 ∧ 0 ≤ τ ∧ τ ≤ 0 + (torusDist 1 2 (0, 0) (0, 1) + 2) * deadline 0 10 10 5 := by
  obtain ⟨st, F, hst⟩ := loopStage
  obtain ⟨s, x1, x2, x3, x4, x5, -⟩ := loopEnd
  have hF : (0 : Nat) + (torusDist 1 2 (0, 0) (0, 1) + 2) * deadline 0 10 10 5 =
      0 + (torusDist 1 2 (placeOf exHost.endian (loopNet.satAddr 0)) (0, 1) + 2) * deadline 0 10 10 5 := by decide
  have hdt : placeOf exHost.endian (loopNet.satAddr 1) = (0, 1) := by clear hst F; decide
  refine ⟨st, s, loopRuns F x1, C98_delivered (tag := fun _ => (0, 1)) rfl hst (by simp) (by decide) (loopRuns F x1) loopLaunched loopShort (by simp) (by simp [sends]) x3 x2.free
    (a := 0) (by simp) x5 rfl (d0 := 0) (dt := 1) (by decide) hdt hF (fun _ _ _ => rfl) (fun _ _ _ _ => rfl) x4 (g := 1) (by simp [exNet]) (fun _ _ _ => rfl) rfl (by simp)⟩

/-- … and of `C98_only`: the Interest came to station 1 at time 43. -/
example : ∃ (st : IcarusHelper.St Nat Unit) (s : _), loopRun st loopOps s [.send 0 0 11 10 7] ∧ Gets loopNet s (.ground 1) 43 11 ∧
    ∃ dt, placeOf .little (loopNet.satAddr dt) = (0, 1) := by
  obtain ⟨st, F, hst⟩ := loopStage
  obtain ⟨s, x1, x2, x3, x4, x5, x6⟩ := loopEnd
  have hg : Gets loopNet s (.ground 1) 43 11 := ⟨_, by rw [x6]; exact List.mem_singleton.mpr rfl, rfl⟩
  obtain ⟨dt, h1, -⟩ := C98_only (tag := fun _ => (0, 1)) hst (by simp) (by decide) (loopRuns F x1) loopLaunched loopShort (by simp) (by simp [sends]) hg
  exact ⟨st, s, loopRuns F x1, hg, dt, h1⟩

/-- `C98_room`: queues for two packets have room for one Interest. -/
example : ∃ (st : IcarusHelper.St Nat Unit) (s : _), loopRun st loopOps s [.send 0 0 11 10 7] ∧ Network.Kept s 11 := by
  obtain ⟨st, F, -⟩ := loopStage
  obtain ⟨s, x1, -⟩ := loopEnd
  exact ⟨st, s, loopRuns F x1, C98_room (loopRuns F x1) (by simp [sends]) (b1 := fun _ _ => 100) (b2 := fun _ _ => 100) (K1 := fun _ => 2) (K2 := fun _ => 2) (fun _ => rfl) (fun _ => rfl)
    (fun _ => by simp) (fun _ => by simp) 11⟩

/-- And `C98_runs` applies to it. -/
example (st : IcarusHelper.St Nat Unit) : ∃ ops s, loopRun st ops s [.send 0 0 11 10 7, .send 1 4 12 10 7] ∧ Network.Quiet loopNet s := by
  obtain ⟨⟨ops, s, h1, -, h2, -⟩, -⟩ := C98_runs (h := exHost) (sc := ⟨st, exLinks⟩) (nodes := [0, 1, 2, 3]) (nfd := exNfd) (net := loopNet) (node := fun d : Fin 2 => d.val)
    (Pk := {11}) (tag := fun _ => (0, 1)) (dur := fun _ => 10) (proto := 7) (w := exWorld) (peer := otherEnd exLinks) (hist := Network.exHist) (as := Network.exAddrs) (clock := NoneMac.Sys.clock)
    (K := 1) ⟨exSetup _, Uplink.safe_map rfl, Uplink.none_orderly, Uplink.none_oneEach, fun _ => ⟨Nat.le_refl _, by simp [exNet, noneMac]⟩⟩
    (calls := [.send 0 0 11 10 7, .send 1 4 12 10 7]) ⟨(exLaunched _).1, by simp⟩ (by simp [Op.internal]) (by simp [Op.when])
  exact ⟨ops, s, h1, h2⟩

end Example

end Geocast
end Icarus
