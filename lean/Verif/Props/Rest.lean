import Verif.Lemmas.Rest
import Verif.Props.IslNet
import Verif.Props.Downlink
import Verif.Props.UplinkOrder

/-!
# The network comes to rest (C91)
-/

set_option autoImplicit false

namespace Icarus

theorem insertEvent_length {E : Type} (t : Nat) (e : E) (l : List (Nat × E)) : (insertEvent t e l).length = l.length + 1 := by
  simpa using (insertEvent_perm t e l).length_eq

/-! ## Inter-satellite links -/

namespace IslNet
open Sat2SatChannel
open SatNet (Entry)

variable {D : Type}

/-- How many events can still take place if nobody sends anything: three for each waiting packet (end of the transmission, start and end of the
reception), two for each frame in flight, one for each transmission and each reception that has begun. -/
def work [Fintype D] (s : Sys D) : Nat :=
  2 * s.flying.length + ∑ d, (3 * (s.tx d).queue.length + (s.tx d).events.length) + ∑ d, (s.rx d).pending.length

variable [Fintype D] [DecidableEq D]

omit [Fintype D] in
theorem transmitAll_length {net : Net D} {d : D} {l : List (Nat × Entry × UInt16)} {a a' : List (Nat × D × Frame) × List (Nat × D × Nat)}
    (h : transmitAll net d l a = .ok a') : a'.1.length ≤ a.1.length + l.length := by
  induction l generalizing a with
  | nil => simp only [transmitAll, Outcome.ok.injEq] at h; simp [h]
  | cons y ys ih =>
    obtain ⟨t, x, proto⟩ := y
    simp only [transmitAll] at h
    rw [Outcome.bind_eq_ok] at h
    obtain ⟨r, -, h⟩ := h
    have h1 := ih h
    have h2 : (applyEffect t d a r.1).1.length ≤ a.1.length + 1 := by
      cases r.1 with
      | drop f => simp [applyEffect]
      | rx e after f proto => simp [applyEffect, insertEvent_length]
    simp only [List.length_cons]
    omega

theorem tx_run {debug : Bool} {accept : List Entry → Entry → Bool} {s st : SatNet.Sys} (h : SatNet.step debug accept s .run = some (.ok st)) :
    st.accepted = s.accepted ∧ s.aired <+: st.aired ∧
      2 * (st.aired.length - s.aired.length) + (3 * st.queue.length + st.events.length) < 3 * s.queue.length + s.events.length := by
  simp only [SatNet.step] at h
  split at h
  · simp at h
  · rename_i t proto es hev
    simp only [Option.some.injEq, SatNet.transmitComplete] at h
    split at h
    · rename_i hq
      simp only [Outcome.ok.injEq] at h
      subst h
      refine ⟨rfl, List.prefix_refl _, ?_⟩
      simp [hq, hev]
    · rename_i x rest hq
      simp only [SatNet.transmitStart] at h
      rw [Outcome.bind_eq_ok] at h
      obtain ⟨-, -, h⟩ := h
      simp only [Outcome.ok.injEq] at h
      subst h
      refine ⟨rfl, List.prefix_append _ _, ?_⟩
      simp only [hq, hev, insertEvent_length, List.length_append, List.length_cons, List.length_nil, Nat.zero_add]
      omega

theorem rx_work {s st : SatNet.RxSys} {o : SatNet.RxOp} (h : SatNet.rxStep s o = some (.ok st)) :
    (match o with
      | .arrive .. => st.pending.length = s.pending.length + 1
      | .run => st.pending.length + 1 = s.pending.length) := by
  cases o with
  | arrive t pkt len proto =>
    simp only [SatNet.rxStep] at h
    split at h
    · simp only [Option.some.injEq, Outcome.ok.injEq] at h
      subst h
      simp [insertEvent_length]
    · simp at h
  | run =>
    simp only [SatNet.rxStep] at h
    split at h
    · simp at h
    · rename_i t u es he
      simp only [Option.some.injEq, Outcome.ok.injEq] at h
      subst h
      simp [he]

theorem step_work {net : Net D} {s s' : Sys D} {o : Op D} (ho : o.internal = true) (h : step net s o = some (.ok s')) :
    work s' < work s ∧ ∀ d, (s'.tx d).accepted = (s.tx d).accepted := by
  cases o with
  | tx d o =>
    cases o with
    | send t pkt len proto => simp [Op.internal] at ho
    | run =>
      obtain ⟨t, st, a, -, -, h3, h4, rfl⟩ := step_tx h
      obtain ⟨k1, ⟨ys, k2⟩, k3⟩ := tx_run h3
      have h5 := transmitAll_length h4
      rw [List.length_drop] at h5
      have h6 := sum_update_nat (fun s : SatNet.Sys => 3 * s.queue.length + s.events.length) s.tx d st
      constructor
      · simp only [work]
        simp only at h5
        omega
      · intro d'
        simp only
        by_cases hd : d' = d
        · subst hd; rw [Function.update_self, k1]
        · rw [Function.update_of_ne hd]
  | arrive =>
    obtain ⟨t, d, f, rest, st, h1, -, h3, rfl⟩ := step_arrive h
    have h4 := rx_work h3
    simp only at h4
    have h6 := sum_update_nat (fun s : SatNet.RxSys => s.pending.length) s.rx d st
    refine ⟨?_, fun _ => rfl⟩
    simp only [work, h1, List.length_cons]
    omega
  | finish d =>
    obtain ⟨t, u, es, st, -, -, h3, rfl⟩ := step_finish h
    have h4 := rx_work h3
    simp only at h4
    have h6 := sum_update_nat (fun s : SatNet.RxSys => s.pending.length) s.rx d st
    refine ⟨?_, fun _ => rfl⟩
    simp only [work]
    omega

variable {net : Net D} {w : World D} {peer : D → D}

theorem internal_accepted {ops more : List (Op D)} {s s' : Sys D} (h : exec net ops = some (.ok s)) (hi : ∀ o ∈ more, o.internal = true)
    (h' : exec net (ops ++ more) = some (.ok s')) (d : D) : (s'.tx d).accepted = (s.tx d).accepted := by
  induction more using List.reverseRecOn generalizing s' with
  | nil =>
    rw [List.append_nil, h] at h'
    simp only [Option.some.injEq, Outcome.ok.injEq] at h'
    rw [h']
  | append_singleton more o ih =>
    rw [← List.append_assoc] at h'
    obtain ⟨s1, h1, h2⟩ := runFrom_snoc.mp h'
    rw [(step_work (hi o (by simp)) h2).2 d, ih (fun o ho => hi o (by simp [ho])) h1]

theorem quiet_stops {s : Sys D} (hq : Quiet s) {o : Op D} (ho : o.internal = true) : step net s o = none := by
  obtain ⟨q1, q2, q3⟩ := hq
  cases o with
  | tx d o =>
    cases o with
    | send t pkt len proto => simp [Op.internal] at ho
    | run => simp [step, opTime, q1 d]
  | arrive => simp [step, q2]
  | finish d => simp [step, q3 d]

/-- Inter-satellite links come to rest.  Whatever has happened so far, if from now on nobody sends anything: the simulator runs only a bounded
number of events (`work`), nothing goes wrong, and when there is no event left to run, no packet is waiting and every packet accepted so far has
been handed to the other end of its link, once, at the time computed in C60, unless the channel dropped it.  This point is always reached. -/
theorem C91_isl (hsky : Sky net w) (hw : Wired net peer) (hback : ∀ d, peer (peer d) = d) {ops : List (Op D)} {s : Sys D}
    (h : exec net ops = some (.ok s)) :
    (∀ more, (∀ o ∈ more, o.internal = true) → ∀ r, exec net (ops ++ more) = some r → ∃ s', r = .ok s' ∧ more.length ≤ work s ∧
      ((∀ o, o.internal = true → step net s' o = none) → Quiet s' ∧ ∀ d, (s'.tx d).queue = [] ∧
        ((s'.rx d).delivered : Multiset (Nat × Nat × UInt16)) =
          ((schedule (s.tx (peer d)).accepted).filterMap (receipt w (peer d) d) : List _))) ∧
    ∃ more s', (∀ o ∈ more, o.internal = true) ∧ exec net (ops ++ more) = some (.ok s') ∧ ∀ o, o.internal = true → step net s' o = none := by
  constructor
  · intro more hi r hr
    obtain ⟨s', rfl, hlink⟩ := C60_link hsky hw hback hr
    have hb := internal_bounded (μ := work) (I := Op.internal) (fun _ o s s' _ ho hs => (step_work ho hs).1) h hi hr
    refine ⟨s', rfl, by omega, fun hno => ?_⟩
    have hq : Quiet s' := by
      by_contra hq
      obtain ⟨o, ho, r, hr'⟩ := (C60_progress hsky hw hr).1 hq
      rw [hno o ho] at hr'
      simp at hr'
    refine ⟨hq, fun d => ⟨?_, ?_⟩⟩
    · have := SatNet.phase_exec (C60_sender hr d)
      cases this with
      | idle _ h _ => exact h
      | onAir _ _ _ _ _ _ _ _ _ _ h => rw [hq.1 d] at h; simp at h
    · rw [(hlink d).2 hq, internal_accepted h hi hr]
  · obtain ⟨more, r, h1, h2, h3⟩ := internal_rests (μ := work) (I := Op.internal) (Q := Quiet) (C := fun _ => True)
      (fun _ o s s' _ ho hs => (step_work ho hs).1) (fun _ _ _ _ => trivial) (fun ops s _ hs hq => (C60_progress hsky hw hs).1 hq) trivial h
    obtain ⟨s', rfl, -⟩ := run_ok hsky hw h2
    exact ⟨more, s', h1, h2, fun o ho => quiet_stops (h3 s' rfl) ho⟩

/-- After the four calls of `exOps`, ten events are left at most, and there are exactly ten. -/
example : ∃ s, exec exNet (exOps.take 4) = some (.ok s) ∧ work s = 10 ∧ (exOps.drop 4).length = 10 ∧ ∀ o ∈ exOps.drop 4, o.internal = true := by
  refine ⟨_, rfl, ?_⟩; decide

end IslNet

/-! ## From the satellites to the ground -/

namespace Downlink
open GroundSatChannel
open Sat2Ground (Entry)

variable {D G V W : Type}

/-- How many events can still take place if nobody calls a device: for each waiting packet the end of its transmission and, at each of the `n`
stations on the channel, start and end of a reception; two for each frame in flight, one for each transmission and each reception begun. -/
def work [Fintype D] [Fintype G] (n : Nat) (s : Sys D G W) : Nat :=
  2 * s.flying.length + ∑ d, ((2 * n + 1) * (s.sats d).queue.length + (s.sats d).events.length) + ∑ g, (s.stations g).pending.length

theorem loop_length {air : Air D G V W} {frame : Nat × Nat} {src : D} {a : SatAddress.Address} {proto : UInt16} {p : W} {l : List G}
    {r : List (Effect D G W (Nat × Nat))} (h : toGroundLoop air frame src a proto p l = .ok r) : r.length = l.length := by
  induction l generalizing r with
  | nil => simp only [toGroundLoop, Outcome.ok.injEq] at h; simp [← h]
  | cons g gs ih =>
    simp only [toGroundLoop] at h
    rw [Outcome.bind_eq_ok] at h
    obtain ⟨x, -, h⟩ := h
    rw [Outcome.bind_eq_ok] at h
    obtain ⟨xs, h1, h⟩ := h
    simp only [Outcome.ok.injEq] at h
    simp [← h, ih h1]

theorem effects_length (t : Nat) (l : List (Effect D G W (Nat × Nat))) (a : List (Nat × G × Flight W) × List (Nat × Nat)) :
    (l.foldl (applyEffect t) a).1.length ≤ a.1.length + l.length := by
  induction l generalizing a with
  | nil => simp
  | cons x xs ih =>
    have h1 := ih (applyEffect t a x)
    have h2 : (applyEffect t a x).1.length ≤ a.1.length + 1 := by
      cases x <;> simp [applyEffect, insertEvent_length]
    simp only [List.foldl_cons, List.length_cons]
    omega

theorem transmitAll_length {net : Net D G V W} {d : D} {l : List (Nat × Entry W)} {a a' : List (Nat × G × Flight W) × List (Nat × Nat)}
    (h : transmitAll net d l a = .ok a') : a'.1.length ≤ a.1.length + net.chan.ground.length * l.length := by
  induction l generalizing a with
  | nil => simp only [transmitAll, Outcome.ok.injEq] at h; simp [h]
  | cons y ys ih =>
    obtain ⟨t, x⟩ := y
    simp only [transmitAll] at h
    rw [Outcome.bind_eq_ok] at h
    obtain ⟨r, hr, h⟩ := h
    have h1 := ih h
    have h2 := effects_length t r a
    rw [loop_length hr] at h2
    rw [List.length_cons, Nat.mul_succ]
    omega

theorem sat_run {debug : Bool} {accept : List (Entry W) → Entry W → Bool} {s st : Sat2Ground.Sys W} (n : Nat)
    (h : Sat2Ground.step debug accept s .run = some (.ok st)) :
    st.accepted = s.accepted ∧
      2 * (n * (st.aired.length - s.aired.length)) + ((2 * n + 1) * st.queue.length + st.events.length) <
        (2 * n + 1) * s.queue.length + s.events.length := by
  simp only [Sat2Ground.step] at h
  split at h
  · simp at h
  · rename_i t x es hev
    simp only [Option.some.injEq, Sat2Ground.transmitComplete] at h
    split at h
    · simp only [Outcome.ok.injEq] at h
      subst h
      refine ⟨rfl, ?_⟩
      simp [hev]
    · simp only [Sat2Ground.transmitStart] at h
      rw [Outcome.bind_eq_ok] at h
      obtain ⟨-, -, h⟩ := h
      split at h
      · simp at h
      · rename_i x rest hq
        simp only [Outcome.ok.injEq] at h
        subst h
        refine ⟨rfl, ?_⟩
        simp only [hq, hev, insertEvent_length, List.length_append, List.length_cons, List.length_nil, Nat.zero_add]
        have h1 : s.aired.length + 1 - s.aired.length = 1 := by omega
        rw [h1, Nat.mul_one, Nat.mul_add, Nat.mul_one]
        omega

theorem rx_work {debug : Bool} {e : Endian} {ty : UInt8} {s st : GroundStaRx.Sys} {o : GroundStaRx.Op}
    (h : GroundStaRx.step debug e ty s o = some (.ok st)) :
    (match o with
      | .arrive .. => st.pending.length ≤ s.pending.length + 1
      | .setRemote .. => True
      | .run => st.pending.length + 1 = s.pending.length) := by
  cases o with
  | arrive t pkt len src proto =>
    simp only [GroundStaRx.step] at h
    split at h
    · simp only [Option.some.injEq, GroundStaRx.receiveFromSat] at h
      rw [Outcome.bind_eq_ok] at h
      obtain ⟨a, -, h⟩ := h
      split at h
      · simp only [Outcome.ok.injEq] at h
        subst h
        simp [insertEvent_length]
      · simp only [Outcome.ok.injEq] at h
        subst h
        simp
    · simp at h
  | setRemote t a => trivial
  | run =>
    simp only [GroundStaRx.step] at h
    split at h
    · simp at h
    · rename_i t u es he
      simp only [Option.some.injEq, Outcome.ok.injEq] at h
      subst h
      simp [he]

variable [Fintype G] [Fintype D] [DecidableEq G] [DecidableEq D]

theorem step_work {net : Net D G V W} {s s' : Sys D G W} {o : Op D G W} (ho : o.internal = true) (h : step net s o = some (.ok s')) :
    work net.chan.ground.length s' < work net.chan.ground.length s ∧ ∀ d, (s'.sats d).accepted = (s.sats d).accepted := by
  cases o with
  | sat d o =>
    cases o with
    | send t pkt len proto => simp [Op.internal] at ho
    | setPower t w => simp [Op.internal] at ho
    | run =>
      obtain ⟨t, st, a, -, -, h3, h4, rfl⟩ := step_sat h
      obtain ⟨k1, k3⟩ := sat_run net.chan.ground.length h3
      have h5 := transmitAll_length h4
      rw [List.length_drop] at h5
      have h6 := sum_update_nat (fun s : Sat2Ground.Sys W => (2 * net.chan.ground.length + 1) * s.queue.length + s.events.length) s.sats d st
      constructor
      · simp only [work]
        simp only at h5
        omega
      · intro d'
        simp only
        by_cases hd : d' = d
        · subst hd; rw [Function.update_self, k1]
        · rw [Function.update_of_ne hd]
  | track g t a => simp [Op.internal] at ho
  | arrive =>
    obtain ⟨t, g, f, rest, st, h1, -, h3, rfl⟩ := step_arrive h
    have h4 := rx_work h3
    simp only at h4
    have h6 := sum_update_nat (fun s : GroundStaRx.Sys => s.pending.length) s.stations g st
    refine ⟨?_, fun _ => rfl⟩
    simp only [work, h1, List.length_cons]
    omega
  | finish g =>
    obtain ⟨t, u, es, st, -, -, h3, rfl⟩ := step_finish h
    have h4 := rx_work h3
    simp only at h4
    have h6 := sum_update_nat (fun s : GroundStaRx.Sys => s.pending.length) s.stations g st
    refine ⟨?_, fun _ => rfl⟩
    simp only [work]
    omega

variable {net : Net D G V W} {w : World D G W}

theorem internal_accepted {ops more : List (Op D G W)} {s s' : Sys D G W} (h : exec net ops = some (.ok s))
    (hi : ∀ o ∈ more, o.internal = true) (h' : exec net (ops ++ more) = some (.ok s')) (d : D) :
    (s'.sats d).accepted = (s.sats d).accepted := by
  induction more using List.reverseRecOn generalizing s' with
  | nil =>
    rw [List.append_nil, h] at h'
    simp only [Option.some.injEq, Outcome.ok.injEq] at h'
    rw [h']
  | append_singleton more o ih =>
    rw [← List.append_assoc] at h'
    obtain ⟨s1, h1, h2⟩ := runFrom_snoc.mp h'
    rw [(step_work (hi o (by simp)) h2).2 d, ih (fun o ho => hi o (by simp [ho])) h1]

omit [Fintype G] [Fintype D] [DecidableEq D] in
theorem internal_tracks (g : G) {ops more : List (Op D G W)} (hi : ∀ o ∈ more, o.internal = true) : tracks g (ops ++ more) = tracks g ops := by
  rw [tracks_append]
  have : tracks g more = [] := by
    unfold tracks
    rw [List.filterMap_eq_nil_iff]
    intro o ho
    have := hi o ho
    cases o <;> simp_all [Op.internal]
  rw [this, List.append_nil]

theorem quiet_stops {s : Sys D G W} (hq : Quiet s) {o : Op D G W} (ho : o.internal = true) : step net s o = none := by
  obtain ⟨q1, q2, q3⟩ := hq
  cases o with
  | sat d o =>
    cases o with
    | send t pkt len proto => simp [Op.internal] at ho
    | setPower t w => simp [Op.internal] at ho
    | run => simp [step, opTime, q1 d]
  | track g t a => simp [Op.internal] at ho
  | arrive => simp [step, q2]
  | finish d => simp [step, q3 d]

/-- The links from the satellites to the ground come to rest.  Whatever has happened so far, if from now on no device is called from outside: the
simulator runs only a bounded number of events (`work`), nothing goes wrong, and when there is no event left to run, no packet is waiting, and a
station that has not changed its satellite in the very instant of an arrival has passed up exactly the receipts due for the packets accepted so
far (C59).  This point is always reached. -/
theorem C91_downlink (hsky : Sky net w) (hnd : net.chan.ground.Nodup) {ops : List (Op D G W)} {s : Sys D G W}
    (h : exec net ops = some (.ok s)) :
    (∀ more, (∀ o ∈ more, o.internal = true) → ∀ r, exec net (ops ++ more) = some r → ∃ s', r = .ok s' ∧
      more.length ≤ work net.chan.ground.length s ∧
      ((∀ o, o.internal = true → step net s' o = none) → Quiet s' ∧ (∀ d, (s'.sats d).queue = []) ∧
        ∀ g, (∀ y ∈ s'.heard, y.2.1 = g → ∀ c ∈ tracks g ops, c.1 ≠ y.1) →
          ((s'.stations g).delivered : Multiset (Nat × GroundStaRx.Up)) =
            ∑ d, (((Fifo.serve Entry.len (fun _ _ => 0) 0 0 (s.sats d).accepted).filterMap (receipt net w (tracks g ops) g d) : List _) :
              Multiset (Nat × GroundStaRx.Up)))) ∧
    ∃ more s', (∀ o ∈ more, o.internal = true) ∧ exec net (ops ++ more) = some (.ok s') ∧ ∀ o, o.internal = true → step net s' o = none := by
  constructor
  · intro more hi r hr
    obtain ⟨s', rfl, hlink⟩ := C59_downlink hsky hnd hr
    have hb := internal_bounded (μ := work net.chan.ground.length) (I := Op.internal) (fun _ o s s' _ ho hs => (step_work ho hs).1) h hi hr
    refine ⟨s', rfl, by omega, fun hno => ?_⟩
    have hq : Quiet s' := by
      by_contra hq
      obtain ⟨o, ho, r, hr'⟩ := (C59_progress hsky hr).1 hq
      rw [hno o ho] at hr'
      simp at hr'
    refine ⟨hq, fun d => ?_, fun g hg => ?_⟩
    · have := sat_phase (C59_satellite hr d)
      cases this with
      | idle _ h _ => exact h
      | onAir _ _ _ _ _ _ _ h => rw [hq.1 d] at h; simp at h
    · have h1 := (hlink g (by rw [internal_tracks g hi]; exact hg)).2 hq
      rw [internal_tracks g hi] at h1
      rw [h1]
      exact Finset.sum_congr rfl (fun d _ => by rw [internal_accepted h hi hr])
  · obtain ⟨more, r, h1, h2, h3⟩ := internal_rests (μ := work net.chan.ground.length) (I := Op.internal) (Q := Quiet) (C := fun _ => True)
      (fun _ o s s' _ ho hs => (step_work ho hs).1) (fun _ _ _ _ => trivial) (fun ops s _ hs hq => (C59_progress hsky hs).1 hq) trivial h
    obtain ⟨s', rfl, -⟩ := run_ok hsky h2
    exact ⟨more, s', h1, h2, fun o ho => quiet_stops (h3 s' rfl) ho⟩

/-- After the two calls of `Send` by the two satellites: three frames are on their way, of which one reaches a station tracking another
satellite. -/
example : ∃ s s', exec exNet (exOps.take 2) = some (.ok s) ∧ work 2 s = 8 ∧
    exec exNet (exOps.take 2 ++ [.arrive, .arrive, .arrive, .sat 0 .run, .sat 1 .run, .finish 0, .finish 1]) = some (.ok s') ∧ Quiet s' := by
  refine ⟨_, _, rfl, by decide, rfl, ?_⟩; unfold Quiet; decide

end Downlink

/-! ## From the ground to the satellites -/

namespace Uplink
open GroundSatChannel
open GroundSta (Entry Mac Ev Once)

variable {D G V W P R : Type}

/-- The MAC puts every packet on the air at least once and at most `K` times. -/
def Copies (mac : Mac) (K : Nat) : Prop := 1 ≤ K ∧ (mac.sync = false → ∀ k t, mac.delays k t ≠ [] ∧ (mac.delays k t).length ≤ K)

/-- A frame that has not begun still causes four events: its start and its end, start and end of its reception; a frame that has begun, one. -/
def evWork : Nat × Ev W → Nat
  | (_, .start _) => 4
  | (_, .finish _) => 1

/-- What one station still has to do. -/
def staWork (K : Nat) (s : GroundSta.Sys W) : Nat := 4 * K * s.queue.length + (s.events.map evWork).sum

/-- How many events can still take place if nobody calls a device, when the MACs of the stations send every packet at most `K` times. -/
def work [Fintype D] [Fintype G] (net : Net D G V W P R) (K : Nat) (s : Sys D G W R) : Nat :=
  2 * s.flying.length + ∑ g, staWork K (s.stations g) + ∑ d, (net.rx.due (s.sats d)).length

/-- A receiver schedules at most one event for each frame that arrives. -/
def OneEach (rx : Receiver P R) : Prop := ∀ r f r', rx.step r (.arrive f) = some (.ok r') → (rx.due r').length ≤ (rx.due r).length + 1

theorem schedule_length (f : Aloha.Frame P) (l : List (Aloha.Frame P)) : (Aloha.schedule f l).length = l.length + 1 := by
  induction l with
  | nil => rfl
  | cons g gs ih =>
    simp only [Aloha.schedule]
    split
    · simp
    · simp [ih]

theorem none_oneEach : OneEach (noneReceiver P) := by
  intro r f r' h
  simp only [noneReceiver, NoneMac.step] at h ⊢
  split at h
  · simp only [Option.map_some, Option.some.injEq, Outcome.ok.injEq] at h
    subst h
    simp [schedule_length]
  · simp at h

theorem aloha_oneEach [Zero P] [Add P] (lost : P → P → Bool) : OneEach (alohaReceiver lost) := by
  intro r f r' h
  simp only [alohaReceiver, Aloha.step] at h ⊢
  split at h
  · simp only [Option.map_some, Option.some.injEq, Outcome.ok.injEq] at h
    subst h
    simp [schedule_length]
  · simp at h

theorem crdsa_oneEach [Zero P] [Add P] (lost : P → P → Bool) (F : Nat) : OneEach (crdsaReceiver lost F) := by
  intro r f r' h
  simp only [crdsaReceiver, Crdsa.step] at h ⊢
  split at h
  · simp only [Option.some.injEq, Outcome.ok.injEq] at h
    subst h
    simp [schedule_length]
  · simp at h

theorem transmitAll_length {net : Net D G V W P R} {g : G} {l : List (Nat × Entry W)} {a a' : List (Nat × D × Flight W) × List (Nat × Nat)}
    (h : transmitAll net g l a = .ok a') : a'.1.length ≤ a.1.length + l.length := by
  induction l generalizing a with
  | nil => simp only [transmitAll, Outcome.ok.injEq] at h; simp [h]
  | cons y ys ih =>
    obtain ⟨t, x⟩ := y
    simp only [transmitAll] at h
    rw [Outcome.bind_eq_ok] at h
    obtain ⟨r, hr, h⟩ := h
    have h1 := ih h
    have h2 : (r.1.foldl (applyEffect t) a).1.length ≤ a.1.length + 1 := by
      have : ∃ e, r.1 = [e] := by
        simp only [transmit2Sat] at hr
        split at hr
        · simp only [Outcome.ok.injEq] at hr
          exact ⟨_, by rw [← hr]⟩
        · repeat
            rw [Outcome.bind_eq_ok] at hr
            obtain ⟨_, -, hr⟩ := hr
          split at hr <;>
          · simp only [Outcome.ok.injEq] at hr
            exact ⟨_, by rw [← hr]⟩
      obtain ⟨e, he⟩ := this
      rw [he]
      cases e <;> simp [applyEffect, insertEvent_length]
    rw [List.length_cons]
    omega

theorem insert_work (t : Nat) (e : Ev W) (l : List (Nat × Ev W)) :
    ((insertEvent t e l).map evWork).sum = evWork (t, e) + (l.map evWork).sum := by
  have := ((insertEvent_perm t e l).map evWork).sum_eq
  simpa using this

theorem starts_work (now : Nat) (x : Entry W) (ds : List Nat) (l : List (Nat × Ev W)) :
    ((GroundSta.scheduleStarts now x ds l).map evWork).sum = 4 * ds.length + (l.map evWork).sum := by
  induction ds generalizing l with
  | nil => simp [GroundSta.scheduleStarts]
  | cons d ds ih =>
    have := ih (insertEvent (now + d) (.start x) l)
    simp only [GroundSta.scheduleStarts, List.foldl_cons] at this ⊢
    rw [this, insert_work]
    simp only [evWork, List.length_cons]
    omega

theorem macSend_work {mac : Mac} {K : Nat} (hK : Copies mac K) (s : GroundSta.Sys W) (now : Nat) (x : Entry W) :
    2 * ((GroundSta.macSend mac s now x).aired.length - s.aired.length) + ((GroundSta.macSend mac s now x).events.map evWork).sum ≤
      4 * K + (s.events.map evWork).sum := by
  unfold GroundSta.macSend
  split
  · simp only [GroundSta.air, insert_work, evWork, List.length_append, List.length_cons, List.length_nil]
    have := hK.1
    omega
  · rename_i hs
    have := (hK.2 (by simpa using hs) s.handed.length now).2
    simp only [starts_work]
    omega

theorem sta_run {debug : Bool} {mac : Mac} {accept : List (Entry W) → Entry W → Bool} {K : Nat} (hK : Copies mac K) {s st : GroundSta.Sys W}
    (h : GroundSta.step debug mac accept s .run = some (.ok st)) :
    st.accepted = s.accepted ∧ 2 * (st.aired.length - s.aired.length) + staWork K st < staWork K s := by
  simp only [GroundSta.step] at h
  split at h
  · simp at h
  · rename_i t x es hev
    simp only [Option.some.injEq, Outcome.ok.injEq] at h
    subst h
    refine ⟨rfl, ?_⟩
    simp only [staWork, hev, GroundSta.air, insert_work, List.map_cons, List.sum_cons, evWork, List.length_append, List.length_cons, List.length_nil]
    omega
  · rename_i t x es hev
    simp only [Option.some.injEq, GroundSta.transmitComplete] at h
    split at h
    · simp only [Outcome.ok.injEq] at h
      subst h
      refine ⟨rfl, ?_⟩
      simp only [staWork, hev, List.map_cons, List.sum_cons, evWork]
      omega
    · simp only [GroundSta.transmitStart] at h
      rw [Outcome.bind_eq_ok] at h
      obtain ⟨-, -, h⟩ := h
      split at h
      · simp at h
      · rename_i y rest hq
        simp only [Outcome.ok.injEq] at h
        subst h
        constructor
        · simp only [GroundSta.macSend]
          split <;> rfl
        · have h1 := macSend_work hK ({ s with clock := t, events := es, busy := true, queue := rest } : GroundSta.Sys W) t y
          have h2 : (GroundSta.macSend mac ({ s with clock := t, events := es, busy := true, queue := rest } : GroundSta.Sys W) t y).queue = rest := by
            simp only [GroundSta.macSend]
            split <;> rfl
          simp only at h1
          simp only [staWork, h2, hq, hev, List.map_cons, List.sum_cons, evWork, List.length_cons, Nat.mul_add, Nat.mul_one]
          omega

/-- A station with packets waiting or being sent has something scheduled; packets are handed to the MAC in the order in which they are accepted. -/
structure Going (s : GroundSta.Sys W) : Prop where
  waiting : s.queue ≠ [] → s.busy = true
  sending : s.busy = true → s.events ≠ []
  handed : s.handed.map Prod.snd ++ s.queue = s.accepted.map Prod.snd

theorem insert_ne (t : Nat) (e : Ev W) (l : List (Nat × Ev W)) : insertEvent t e l ≠ [] := by
  intro h
  have := insertEvent_length t e l
  rw [h] at this
  simp at this

theorem macSend_going {mac : Mac} {K : Nat} (hK : Copies mac K) (s : GroundSta.Sys W) (now : Nat) (x : Entry W) (hb : s.busy = true)
    (hh : s.handed.map Prod.snd ++ x :: s.queue = s.accepted.map Prod.snd) : Going (GroundSta.macSend mac s now x) := by
  have h1 : (s.handed ++ [(now, x)]).map Prod.snd ++ s.queue = s.accepted.map Prod.snd := by
    rw [← hh]; simp
  unfold GroundSta.macSend
  split
  · exact ⟨fun _ => hb, fun _ => insert_ne _ _ _, h1⟩
  · rename_i hs
    refine ⟨fun _ => hb, fun _ h => ?_, h1⟩
    have h2 := (hK.2 (by simpa using hs) s.handed.length now).1
    have h3 := starts_work now x (mac.delays s.handed.length now) s.events
    simp only at h
    rw [h] at h3
    simp only [List.map_nil, List.sum_nil] at h3
    have := List.length_pos_of_ne_nil h2
    omega

theorem going {debug : Bool} {mac : Mac} {accept : List (Entry W) → Entry W → Bool} {K : Nat} (hK : Copies mac K) {remote : SatAddress} {power : W}
    {ops : List (GroundSta.Op W)} {s : GroundSta.Sys W} (h : GroundSta.exec debug mac accept remote power ops = some (.ok s)) : Going s := by
  refine run_induction (P := fun _ s => Going s) ⟨by simp [GroundSta.Sys.init], by simp [GroundSta.Sys.init], rfl⟩ ?_ h
  rintro ops o s s' - ⟨w1, w2, w3⟩ hst
  cases o with
  | send t pkt len proto =>
    simp only [GroundSta.step] at hst
    split at hst
    · simp only [Option.some.injEq, GroundSta.send] at hst
      split at hst
      · simp only [Outcome.ok.injEq] at hst
        subst hst
        exact ⟨w1, w2, w3⟩
      · split at hst
        · rename_i hb
          simp only [Outcome.ok.injEq] at hst
          subst hst
          refine ⟨fun _ => hb, w2, ?_⟩
          simp only [List.map_append, List.map_cons, List.map_nil, ← w3, List.append_assoc]
        · rename_i hb
          have hq : s.queue = [] := by
            by_contra hq
            exact hb (w1 hq)
          simp only [GroundSta.transmitStart, hq, List.nil_append] at hst
          rw [Outcome.bind_eq_ok] at hst
          obtain ⟨-, -, hst⟩ := hst
          simp only [Outcome.ok.injEq] at hst
          subst hst
          refine macSend_going hK _ _ _ rfl ?_
          simp only [List.map_append, List.map_cons, List.map_nil, ← w3, hq, List.append_nil]
    · simp at hst
  | setRemote t a =>
    simp only [GroundSta.step] at hst
    split at hst
    · simp only [Option.some.injEq, Outcome.ok.injEq] at hst
      subst hst
      exact ⟨w1, w2, w3⟩
    · simp at hst
  | setPower t a =>
    simp only [GroundSta.step] at hst
    split at hst
    · simp only [Option.some.injEq, Outcome.ok.injEq] at hst
      subst hst
      exact ⟨w1, w2, w3⟩
    · simp at hst
  | run =>
    simp only [GroundSta.step] at hst
    split at hst
    · simp at hst
    · simp only [Option.some.injEq, Outcome.ok.injEq] at hst
      subst hst
      exact ⟨w1, fun _ => insert_ne _ _ _, w3⟩
    · simp only [Option.some.injEq, GroundSta.transmitComplete] at hst
      split at hst
      · rename_i hq
        simp only [Outcome.ok.injEq] at hst
        subst hst
        exact ⟨fun h => absurd (List.isEmpty_iff.mp hq) h, by simp, w3⟩
      · simp only [GroundSta.transmitStart] at hst
        rw [Outcome.bind_eq_ok] at hst
        obtain ⟨-, -, hst⟩ := hst
        split at hst
        · simp at hst
        · rename_i y rest hq
          simp only [Outcome.ok.injEq] at hst
          subst hst
          refine macSend_going hK _ _ _ rfl ?_
          simp only [← w3, hq]

variable [Fintype G] [Fintype D] [DecidableEq G] [DecidableEq D]

theorem step_work {net : Net D G V W P R} {clock : R → Nat} (ho : Orderly net.rx clock) (h1e : OneEach net.rx) {K : Nat}
    (hK : ∀ g, Copies (net.mac g) K) {s s' : Sys D G W R} {o : Op D G W} (hi : o.internal = true) (h : step net s o = some (.ok s')) :
    work net K s' < work net K s ∧ ∀ g, (s'.stations g).accepted = (s.stations g).accepted := by
  cases o with
  | station g o =>
    cases o with
    | send t pkt len proto => simp [Op.internal] at hi
    | setRemote t a => simp [Op.internal] at hi
    | setPower t a => simp [Op.internal] at hi
    | run =>
      obtain ⟨t, st, a, -, -, h3, h4, rfl⟩ := step_station h
      obtain ⟨k1, k3⟩ := sta_run (hK g) h3
      have h5 := transmitAll_length h4
      rw [List.length_drop] at h5
      have h6 := sum_update_nat (staWork K) s.stations g st
      constructor
      · simp only [work]
        simp only at h5
        omega
      · intro g'
        simp only
        by_cases hg : g' = g
        · subst hg; rw [Function.update_self, k1]
        · rw [Function.update_of_ne hg]
  | arrive =>
    obtain ⟨t, d, f, rest, st, h1, -, h3, rfl⟩ := step_arrive h
    have h4 := h1e _ _ _ h3
    have h6 := sum_update_nat (fun r => (net.rx.due r).length) s.sats d st
    refine ⟨?_, fun _ => rfl⟩
    simp only [work, h1, List.length_cons]
    omega
  | finish d =>
    obtain ⟨t, ts, r, h1, -, h3, rfl⟩ := step_finish h
    obtain ⟨x, k1, k2⟩ := ho.finish _ _ _ h1
    rw [h3, Option.some.injEq] at k1
    have h4 := (k2 r k1.symm).2
    have h6 := sum_update_nat (fun r => (net.rx.due r).length) s.sats d r
    refine ⟨?_, fun _ => rfl⟩
    simp only [h1, h4, List.length_cons] at h6
    simp only [work]
    omega

theorem internal_accepted {net : Net D G V W P R} {clock : R → Nat} (ho : Orderly net.rx clock) (h1e : OneEach net.rx) {K : Nat}
    (hK : ∀ g, Copies (net.mac g) K) {ops more : List (Op D G W)} {s s' : Sys D G W R} (h : exec net ops = some (.ok s))
    (hi : ∀ o ∈ more, o.internal = true) (h' : exec net (ops ++ more) = some (.ok s')) (g : G) :
    (s'.stations g).accepted = (s.stations g).accepted := by
  induction more using List.reverseRecOn generalizing s' with
  | nil =>
    rw [List.append_nil, h] at h'
    simp only [Option.some.injEq, Outcome.ok.injEq] at h'
    rw [h']
  | append_singleton more o ih =>
    rw [← List.append_assoc] at h'
    obtain ⟨s1, h1, h2⟩ := runFrom_snoc.mp h'
    rw [(step_work ho h1e hK (hi o (by simp)) h2).2 g, ih (fun o ho => hi o (by simp [ho])) h1]

omit [Fintype G] [Fintype D] [DecidableEq D] in
theorem Launched.internal {net : Net D G V W P R} {hist : List (Nat × Nat × D)} {as : List SatAddress} {ops more : List (Op D G W)}
    (h : Launched net hist as ops) (hi : ∀ o ∈ more, o.internal = true) : Launched net hist as (ops ++ more) := by
  have key : ∀ (g : G) (l : List (GroundSta.Op W)), tracked (l ++ opsOf g more) = tracked l := by
    intro g l
    induction l with
    | nil =>
      simp only [List.nil_append]
      have : ∀ o ∈ opsOf g more, o = GroundSta.Op.run := by
        intro o ho
        simp only [opsOf, List.mem_filterMap] at ho
        obtain ⟨x, hx, hxo⟩ := ho
        have h1 := hi x hx
        cases x with
        | station g' o' =>
          simp only at hxo
          split at hxo
          · simp only [Option.some.injEq] at hxo
            subst hxo
            cases o' <;> simp_all [Op.internal]
          · simp at hxo
        | arrive => simp at hxo
        | finish d => simp at hxo
      generalize opsOf g more = l at this
      induction l with
      | nil => rfl
      | cons o os ih =>
        rw [this o (by simp)]
        simp only [tracked]
        exact ih (fun o ho => this o (by simp [ho]))
    | cons o os ih => cases o <;> simp [tracked, ih]
  intro g a ha
  rw [opsOf_append, key] at ha
  exact h g a ha

theorem quiet_stops {net : Net D G V W P R} {s : Sys D G W R} (hq : Quiet net s) {o : Op D G W} (ho : o.internal = true) :
    step net s o = none := by
  obtain ⟨q1, q2, q3⟩ := hq
  cases o with
  | station g o =>
    cases o with
    | send t pkt len proto => simp [Op.internal] at ho
    | setRemote t a => simp [Op.internal] at ho
    | setPower t w => simp [Op.internal] at ho
    | run => simp [step, opTime, q1 g]
  | arrive => simp [step, q2]
  | finish d => simp [step, q3 d]

variable {hasOrbit : D → Bool} {cid n m : Nat} {hist : List (Nat × Nat × D)} {as : List SatAddress} {k : Constellation D}
  {w : World D G W}

/-- The links from the ground to the satellites come to rest, with every kind of receiver and every MAC of the stations that sends a packet at least
once and at most `K` times.  Whatever has happened so far, if from now on no device is called from outside: the simulator runs only a bounded
number of events (`work`), and when there is no event left to run, no packet is waiting, and every packet accepted has been handed to the MAC.
This point is always reached, unless a receiver fails (which those of `NoneMacModel` and `AlohaMacModel` never do). -/
theorem C91_uplink {net : Net D G V W P R} {clock : R → Nat} (ho : Orderly net.rx clock) (h1e : OneEach net.rx) {K : Nat}
    (hK : ∀ g, Copies (net.mac g) K) (hb : Built net.endian hasOrbit cid n m hist as k) (hfit : Fits16 cid n m)
    (hk : net.chan.constellation = some k) (hsky : Sky net w) {ops : List (Op D G W)} (hl : Launched net hist as ops)
    {s : Sys D G W R} (h : exec net ops = some (.ok s)) :
    (∀ more, (∀ o ∈ more, o.internal = true) → ∀ s', exec net (ops ++ more) = some (.ok s') → more.length ≤ work net K s ∧
      ((∀ o, o.internal = true → step net s' o = none) → Quiet net s' ∧ ∀ g, (s'.stations g).queue = [] ∧
        (s'.stations g).handed.map Prod.snd = (s.stations g).accepted.map Prod.snd)) ∧
    ∃ more r, (∀ o ∈ more, o.internal = true) ∧ exec net (ops ++ more) = some r ∧ (Safe net.rx → ∃ s', r = .ok s') ∧
      ∀ s', r = .ok s' → ∀ o, o.internal = true → step net s' o = none := by
  constructor
  · intro more hi s' hr
    have hbd := internal_bounded (μ := work net K) (I := Op.internal) (fun _ o s s' _ hi hs => (step_work ho h1e hK hi hs).1) h hi hr
    refine ⟨by omega, fun hno => ?_⟩
    have hq : Quiet net s' := by
      by_contra hq
      obtain ⟨o, hin, r, hr'⟩ := (C55_progress ho hb hfit hk hsky (hl.internal hi) hr).1 hq
      rw [hno o hin] at hr'
      simp at hr'
    refine ⟨hq, fun g => ?_⟩
    obtain ⟨g1, g2, g3⟩ := going (hK g) (C55_station hr g)
    have hqe : (s'.stations g).queue = [] := by
      by_contra hne
      exact g2 (g1 hne) (hq.1 g)
    refine ⟨hqe, ?_⟩
    rw [hqe, List.append_nil] at g3
    rw [g3, internal_accepted ho h1e hK h hi hr]
  · obtain ⟨more, r, h1, h2, h3⟩ := internal_rests (μ := work net K) (I := Op.internal) (Q := Quiet net) (C := Launched net hist as)
      (fun _ o s s' _ hi hs => (step_work ho h1e hK hi hs).1) (fun _ o hc hi => hc.internal (by simpa using hi))
      (fun ops s hc hs hq => (C55_progress ho hb hfit hk hsky hc hs).1 hq) hl h
    refine ⟨more, r, h1, h2, fun hsafe => ?_, fun s' e o hi => quiet_stops (h3 s' e) hi⟩
    obtain ⟨s', rfl, -⟩ := run_ok hsafe hb hfit hk hsky (hl.internal h1) h2
    exact ⟨s', rfl⟩

/-- The same in the order in which ns-3 runs events of the same instant (C80). -/
theorem C91_ordered {net : Net D G V W P R} {pend : R → List (Aloha.Frame P)} {strict : R → Aloha.Op P → Option (Outcome R)} {clock : R → Nat}
    (ho : Orderly net.rx clock) (he : Ends net.rx pend strict) {K : Nat} (hK : ∀ g, Copies (net.mac g) K)
    (hb : Built net.endian hasOrbit cid n m hist as k) (hfit : Fits16 cid n m)
    (hk : net.chan.constellation = some k) (hsky : Sky net w) {ops : List (Op D G W)} (hl : Launched net hist as ops)
    {s : OSys D G W R} (h : oexec net pend ops = some (.ok s)) :
    (∀ more, (∀ o ∈ more, o.internal = true) → ∀ s', oexec net pend (ops ++ more) = some (.ok s') → more.length ≤ work net K s.sys ∧
      ((∀ o, o.internal = true → ostep net pend s' o = none) → Quiet net s'.sys ∧ ∀ g, (s'.sys.stations g).queue = [] ∧
        (s'.sys.stations g).handed.map Prod.snd = (s.sys.stations g).accepted.map Prod.snd)) ∧
    ∃ more r, (∀ o ∈ more, o.internal = true) ∧ oexec net pend (ops ++ more) = some r ∧ ∀ s', r = .ok s' → Quiet net s'.sys := by
  have h1e : OneEach net.rx := by
    intro r f r' hr
    obtain ⟨r2, e1, e2⟩ := he.arrived r f _ hr
    simp only [Outcome.ok.injEq] at e1
    subst e1
    rw [he.due, he.due, e2, List.length_map, List.length_map, schedule_length]
  have hdec : ∀ (ops : List (Op D G W)) (o : Op D G W) (s s' : OSys D G W R), runFrom (ostep net pend) ⟨Sys.init net, []⟩ ops = some (.ok s) →
      o.internal = true → ostep net pend s o = some (.ok s') → work net K s'.sys < work net K s.sys :=
    fun _ o s s' _ hi hs => (step_work ho h1e hK hi (ostep_erase hs)).1
  constructor
  · intro more hi s' hr
    have hbd := internal_bounded (μ := fun s : OSys D G W R => work net K s.sys) (I := Op.internal) hdec h hi hr
    refine ⟨by omega, fun hno => ?_⟩
    have hq : Quiet net s'.sys := by
      by_contra hq
      obtain ⟨o, hin, r, hr'⟩ := (C80_progress ho he hb hfit hk hsky (hl.internal hi) hr).1 hq
      rw [hno o hin] at hr'
      simp at hr'
    have := (C91_uplink ho h1e hK hb hfit hk hsky hl (C80_refines h)).1 more hi _ (C80_refines hr)
    exact ⟨hq, (this.2 (fun o hi => quiet_stops hq hi)).2⟩
  · exact internal_rests (μ := fun s : OSys D G W R => work net K s.sys) (I := Op.internal) (Q := fun s => Quiet net s.sys)
      (C := Launched net hist as) hdec (fun _ o hc hi => hc.internal (by simpa using hi))
      (fun ops s hc hs hq => (C80_progress ho he hb hfit hk hsky hc hs).1 hq) hl h

/-- With satellites that use the pass-through MAC and stations whose MAC sends every packet once: if no device is called any more, the packets
accepted so far are delivered.  Running the events that are left always leads to a state where none is left, and there every satellite has
passed up exactly the receipts due (C55) for all packets accepted. -/
theorem C91_delivered {net : Net D G V W P (NoneMac.Sys P)} (hrx : net.rx = noneReceiver P) {wait : G → Nat → Nat → Nat}
    (hm : ∀ g, Once (net.mac g) (wait g)) (hb : Built net.endian hasOrbit cid n m hist as k) (hfit : Fits16 cid n m)
    (hk : net.chan.constellation = some k) (hsky : Sky net w) {ops : List (Op D G W)} (hl : Launched net hist as ops)
    {s : Sys D G W (NoneMac.Sys P)} (h : exec net ops = some (.ok s)) :
    (∃ more s', (∀ o ∈ more, o.internal = true) ∧ exec net (ops ++ more) = some (.ok s') ∧ Quiet net s') ∧
    ∀ more s', (∀ o ∈ more, o.internal = true) → exec net (ops ++ more) = some (.ok s') → (∀ o, o.internal = true → step net s' o = none) →
      ∀ d, (passedUp net s' d : Multiset (Nat × Flight W)) =
        ∑ g, (((Fifo.serve Entry.len (wait g) 0 0 (s.stations g).accepted).filterMap (receipt net.addr w (target hist as) g d) : List _) :
          Multiset (Nat × Flight W)) := by
  have hK : ∀ g, Copies (net.mac g) 1 := by
    intro g
    rcases hm g with ⟨h1, -⟩ | ⟨-, h2⟩
    · exact ⟨Nat.le_refl _, by simp [h1]⟩
    · exact ⟨Nat.le_refl _, fun _ k t => by simp [h2 k t]⟩
  have ho : Orderly net.rx NoneMac.Sys.clock := by rw [hrx]; exact none_orderly
  have h1e : OneEach net.rx := by rw [hrx]; exact none_oneEach
  obtain ⟨hA, more, r, h1, h2, h3, h4⟩ := C91_uplink ho h1e hK hb hfit hk hsky hl h
  constructor
  · obtain ⟨s', rfl⟩ := h3 (by rw [hrx]; exact safe_map rfl)
    exact ⟨more, s', h1, h2, ((hA more h1 s' h2).2 (h4 s' rfl)).1⟩
  · intro more s' hi hr hno d
    obtain ⟨s2, e, -, h5⟩ := C55_uplink hrx hb hfit hk hsky hm (hl.internal hi) hr
    simp only [Outcome.ok.injEq] at e
    subst e
    rw [h5 ((hA more hi s' hr).2 hno).1 d]
    exact Finset.sum_congr rfl (fun g _ => by rw [internal_accepted ho h1e hK h hi hr])

theorem crdsa_copies {mac : Mac} {slot slots : Nat} {shuffle : Nat → List Nat} {replicas : Nat → Nat} {K : Nat}
    (h : IsCrdsa mac slot slots shuffle replicas) (h1 : ∀ k, 1 ≤ replicas k) (hK : ∀ k, replicas k ≤ K) : Copies mac K := by
  refine ⟨Nat.le_trans (h1 0) (hK 0), fun _ k t => ?_⟩
  have h2 := (h.2 k).2 t
  unfold Crdsa.sendDelays Crdsa.getSelectedSlots at h2
  split at h2
  · rename_i hl
    simp only [Outcome.bind_ok, Outcome.ok.injEq] at h2
    have h3 : (mac.delays k t).length = replicas k := by rw [← h2]; simp; omega
    have := h1 k
    have := hK k
    exact ⟨by intro e; rw [e] at h3; simp at h3; omega, by omega⟩
  · simp at h2

example : Copies noneMac 1 := ⟨Nat.le_refl _, by simp [noneMac]⟩
example (slot : Nat) : Copies (alohaMac slot) 1 := ⟨Nat.le_refl _, fun _ _ _ => by simp [alohaMac]⟩
example : Copies twoReplicas 2 := crdsa_copies twoReplicas_crdsa (fun _ => by simp) (fun _ => by simp)

/-- After the calls of `exOps`, at most twelve events are left; as one frame is dropped by the channel, there are eight. -/
example : ∃ s, exec (exNet (noneReceiver Int)) (exOps.take 8) = some (.ok s) ∧ work (exNet (noneReceiver Int)) 1 s = 12 ∧
    (exOps.drop 8).length = 8 ∧ ∀ o ∈ exOps.drop 8, o.internal = true := by
  refine ⟨_, rfl, ?_⟩; decide

/-- The same stations, but with two replicas of every packet: two packets cause sixteen events. -/
def twiceNet : Net (Fin 2) (Fin 2) Nat Int Int (NoneMac.Sys Int) := { exNet (noneReceiver Int) with mac := fun _ => twoReplicas }

def twiceOps : List (Op (Fin 2) (Fin 2) Int) := [.station 0 (.send 0 11 10 7), .station 0 (.send 0 12 10 7)]

example : ∃ s s', exec twiceNet twiceOps = some (.ok s) ∧ work twiceNet 2 s = 16 ∧
    exec twiceNet (twiceOps ++ [.station 0 .run, .arrive, .station 0 .run, .station 0 .run, .arrive, .finish 0, .station 0 .run, .finish 0,
      .station 0 .run, .arrive, .station 0 .run, .station 0 .run, .arrive, .finish 0, .station 0 .run, .finish 0]) = some (.ok s') ∧
    Quiet twiceNet s' := by
  refine ⟨_, _, rfl, by decide, rfl, ?_⟩; unfold Quiet; decide

end Uplink
end Icarus
