import Verif.Model.GroundSta
import Verif.Lemmas.Machine
import Verif.Props.Fifo

/-!
# Lemmas about the sending side of the ground station
-/

set_option autoImplicit false

namespace Icarus
namespace GroundSta
open Fifo

variable {W : Type} {debug : Bool} {mac : Mac} {accept : List (Entry W) → Entry W → Bool} {remote : SatAddress} {power : W}

theorem step_send {s s' : Sys W} {t pkt len : Nat} {proto : UInt16} :
    step debug mac accept s (.send t pkt len proto) = some (.ok s') ↔
      possible s t ∧ send debug mac accept s t pkt len proto = .ok s' := by
  simp only [step]; split <;> simp_all

theorem step_setRemote {s s' : Sys W} {t : Nat} {a : SatAddress} :
    step debug mac accept s (.setRemote t a) = some (.ok s') ↔ possible s t ∧ { s with clock := t, remote := a } = s' := by
  simp only [step]; split <;> simp_all

theorem step_setPower {s s' : Sys W} {t : Nat} {w : W} :
    step debug mac accept s (.setPower t w) = some (.ok s') ↔ possible s t ∧ { s with clock := t, power := w } = s' := by
  simp only [step]; split <;> simp_all

/-! ## Facts valid for every MAC -/

theorem macSend_fields (s : Sys W) (now : Nat) (x : Entry W) :
    (macSend mac s now x).remote = s.remote ∧ (macSend mac s now x).power = s.power ∧ (macSend mac s now x).queue = s.queue ∧
      (macSend mac s now x).accepted = s.accepted ∧ (macSend mac s now x).refused = s.refused ∧
      (macSend mac s now x).handed = s.handed ++ [(now, x)] ∧ (macSend mac s now x).clock = s.clock ∧
      (macSend mac s now x).busy = s.busy := by
  unfold macSend air
  split <;> simp

theorem transmitStart_eq {s s' : Sys W} {now : Nat} (h : transmitStart debug mac s now = .ok s') :
    ∃ x rest, s.queue = x :: rest ∧ s' = macSend mac { s with busy := true, queue := rest } now x := by
  unfold transmitStart at h
  rw [Outcome.bind_eq_ok] at h
  obtain ⟨_, -, h⟩ := h
  cases hq : s.queue with
  | nil => simp [hq] at h
  | cons x rest => simp only [hq, Outcome.ok.injEq] at h; exact ⟨x, rest, rfl, h.symm⟩

/-- The frames the MAC puts on the air for a list of hand-overs, the first of which is the `k`-th. -/
def attempts (mac : Mac) : Nat → List (Nat × Entry W) → List (Nat × Entry W)
  | _, [] => []
  | k, (h, x) :: r =>
    (if mac.sync then [(h, x)] else (mac.delays k h).map (fun d => (h + d, x))) ++ attempts mac (k + 1) r

theorem attempts_append (k : Nat) (l m : List (Nat × Entry W)) :
    attempts mac k (l ++ m) = attempts mac k l ++ attempts mac (k + l.length) m := by
  induction l generalizing k with
  | nil => simp [attempts]
  | cons y l ih =>
    obtain ⟨h, x⟩ := y
    simp only [List.cons_append, attempts, ih, List.length_cons, List.append_assoc]
    congr 3
    omega

/-- The transmissions that are still to start. -/
def pendingStarts (events : List (Nat × Ev W)) : List (Nat × Entry W) :=
  events.filterMap (fun e => match e with | (t, .start x) => some (t, x) | _ => none)

theorem pendingStarts_insert_start (t : Nat) (x : Entry W) (es : List (Nat × Ev W)) :
    (pendingStarts (insertEvent t (.start x) es)).Perm ((t, x) :: pendingStarts es) := by
  unfold pendingStarts
  have := (insertEvent_perm t (.start x) es).filterMap (fun e => match e with | (t, Ev.start x) => some (t, x) | _ => none)
  simpa using this

theorem pendingStarts_insert_finish (t : Nat) (x : Entry W) (es : List (Nat × Ev W)) :
    (pendingStarts (insertEvent t (.finish x) es)).Perm (pendingStarts es) := by
  unfold pendingStarts
  have := (insertEvent_perm t (.finish x) es).filterMap (fun e => match e with | (t, Ev.start x) => some (t, x) | _ => none)
  simpa using this

theorem pendingStarts_schedule (now : Nat) (x : Entry W) (ds : List Nat) (es : List (Nat × Ev W)) :
    (pendingStarts (scheduleStarts now x ds es)).Perm (pendingStarts es ++ ds.map (fun d => (now + d, x))) := by
  induction ds generalizing es with
  | nil => simp [scheduleStarts]
  | cons d ds ih =>
    have h1 : scheduleStarts now x (d :: ds) es = scheduleStarts now x ds (insertEvent (now + d) (.start x) es) := rfl
    rw [h1]
    refine (ih _).trans ?_
    refine ((pendingStarts_insert_start _ _ _).append_right _).trans ?_
    simp only [List.map_cons, List.cons_append]
    exact List.perm_middle.symm

/-- Bookkeeping that holds whatever the MAC does. -/
structure Books (mac : Mac) (s : Sys W) : Prop where
  fifo : s.accepted.map Prod.snd = s.handed.map Prod.snd ++ s.queue
  airings : (s.aired ++ pendingStarts s.events).Perm (attempts mac 0 s.handed)

theorem Books.macSend {s : Sys W} (now : Nat) (x : Entry W)
    (h2 : (s.aired ++ pendingStarts s.events).Perm (attempts mac 0 s.handed)) :
    ((macSend mac s now x).aired ++ pendingStarts (macSend mac s now x).events).Perm
      (attempts mac 0 (macSend mac s now x).handed) := by
  unfold GroundSta.macSend
  split
  · rename_i hsync
    simp only [air, attempts_append, attempts, hsync, if_true, List.append_nil, List.append_assoc, List.cons_append, List.nil_append]
    refine List.perm_middle.trans ?_
    refine (List.Perm.cons _ (List.Perm.append_left _ (pendingStarts_insert_finish _ _ _))).trans ?_
    refine (List.Perm.cons _ h2).trans ?_
    exact (List.perm_append_singleton _ _).symm
  · rename_i hsync
    simp only [attempts_append, attempts, hsync]
    refine (List.Perm.append_left _ (pendingStarts_schedule _ _ _ _)).trans ?_
    rw [← List.append_assoc]
    simp only [Bool.false_eq_true, if_false, List.append_nil, Nat.zero_add]
    exact h2.append_right _

theorem Books.step {s s' : Sys W} {o : Op W} (h : Books mac s) (hs : step debug mac accept s o = some (.ok s')) : Books mac s' := by
  cases o with
  | send t pkt len proto =>
    obtain ⟨-, hs⟩ := step_send.mp hs
    unfold send at hs
    simp only at hs
    split at hs
    · simp only [Outcome.ok.injEq] at hs
      subst hs
      exact ⟨h.fifo, h.airings⟩
    · split at hs
      · simp only [Outcome.ok.injEq] at hs
        subst hs
        refine ⟨?_, h.airings⟩
        simp [h.fifo]
      · obtain ⟨x, rest, hq, rfl⟩ := transmitStart_eq hs
        obtain ⟨-, -, h3, h4, -, h6, -, -⟩ := macSend_fields (mac := mac)
          ({ s with clock := t, busy := true, queue := rest, accepted := s.accepted ++ [(t, ⟨pkt, len, s.remote, proto, s.power⟩)] } : Sys W) t x
        refine ⟨?_, ?_⟩
        · rw [h4, h6, h3]
          simp only at hq
          simp [h.fifo, ← hq]
        · exact Books.macSend t x h.airings
  | setRemote t a =>
    obtain ⟨-, rfl⟩ := step_setRemote.mp hs
    exact ⟨h.fifo, h.airings⟩
  | setPower t w =>
    obtain ⟨-, rfl⟩ := step_setPower.mp hs
    exact ⟨h.fifo, h.airings⟩
  | run =>
    simp only [GroundSta.step] at hs
    split at hs
    · simp at hs
    · rename_i t x es hev
      simp only [Option.some.injEq, Outcome.ok.injEq] at hs
      subst hs
      refine ⟨h.fifo, ?_⟩
      have h2 := h.airings
      rw [hev] at h2
      simp only [air, List.append_assoc, List.cons_append, List.nil_append]
      refine (List.Perm.append_left _ (List.Perm.cons _ (pendingStarts_insert_finish _ _ _))).trans ?_
      simpa [pendingStarts] using h2
    · rename_i t x es hev
      simp only [Option.some.injEq] at hs
      unfold transmitComplete at hs
      have h2 := h.airings
      rw [hev] at h2
      have h3 : (s.aired ++ pendingStarts es).Perm (attempts mac 0 s.handed) := by simpa [pendingStarts] using h2
      simp only at hs
      split at hs
      · simp only [Outcome.ok.injEq] at hs
        subst hs
        exact ⟨h.fifo, h3⟩
      · obtain ⟨x, rest, hq, rfl⟩ := transmitStart_eq hs
        obtain ⟨-, -, f3, f4, -, f6, -, -⟩ := macSend_fields (mac := mac)
          ({ s with clock := t, events := es, busy := true, queue := rest } : Sys W) t x
        refine ⟨?_, ?_⟩
        · rw [f4, f6, f3]
          simp only at hq
          simp [h.fifo, ← hq]
        · exact Books.macSend t x h3

/-! ## MACs that transmit every frame once -/

/-- The MAC puts the `k`-th frame, handed over at `t`, on the air exactly once, `wait k t` later. -/
def Once (mac : Mac) (wait : Nat → Nat → Nat) : Prop :=
  (mac.sync = true ∧ ∀ k t, wait k t = 0) ∨ (mac.sync = false ∧ ∀ k t, mac.delays k t = [wait k t])

/-- The three situations of a station with such a MAC. -/
inductive Phase (wait : Nat → Nat → Nat) (s : Sys W) : Prop where
  | idle (busy : s.busy = false) (queue : s.queue = []) (events : s.events = [])
      (aired : s.aired = serve Entry.len wait 0 0 s.accepted) (free : freeAfter Entry.len wait 0 0 s.accepted ≤ s.clock)
      (handed : s.handed.length = s.accepted.length)
  | waiting (done w : List (Nat × Entry W)) (a h : Nat) (x : Entry W) (busy : s.busy = true) (acc : s.accepted = done ++ (a, x) :: w)
      (queue : s.queue = w.map Prod.snd) (aired : s.aired = serve Entry.len wait 0 0 done)
      (handed : s.handed.length = done.length + 1) (hand : h = max a (freeAfter Entry.len wait 0 0 done))
      (events : s.events = [(h + wait done.length h, .start x)]) (clock : s.clock ≤ h + wait done.length h)
      (arrived : ∀ y ∈ w, y.1 ≤ s.clock)
  | onAir (done w : List (Nat × Entry W)) (x : Entry W) (busy : s.busy = true) (acc : s.accepted = done ++ w)
      (queue : s.queue = w.map Prod.snd) (aired : s.aired = serve Entry.len wait 0 0 done)
      (handed : s.handed.length = done.length)
      (events : s.events = [(freeAfter Entry.len wait 0 0 done, .finish x)]) (clock : s.clock ≤ freeAfter Entry.len wait 0 0 done)
      (arrived : ∀ y ∈ w, y.1 ≤ s.clock)

/-- Starting the next packet in the queue. -/
theorem Phase.start {wait : Nat → Nat → Nat} (hm : Once mac wait) {s : Sys W} {done w : List (Nat × Entry W)} {a : Nat} {x : Entry W}
    (hb : s.busy = false) (hev : s.events = []) (hacc : s.accepted = done ++ (a, x) :: w) (hq : s.queue = x :: w.map Prod.snd)
    (ha : s.aired = serve Entry.len wait 0 0 done) (hh : s.handed.length = done.length)
    (hnow : s.clock = max a (freeAfter Entry.len wait 0 0 done)) (harr : ∀ y ∈ w, y.1 ≤ s.clock) :
    ∃ s', transmitStart debug mac s s.clock = .ok s' ∧ Phase wait s' := by
  refine ⟨macSend mac { s with busy := true, queue := w.map Prod.snd } s.clock x, ?_, ?_⟩
  · simp [transmitStart, hb, hq]
  · rcases hm with ⟨h1, h2⟩ | ⟨h1, h2⟩
    · have hserve : s.aired ++ [(s.clock, x)] = serve Entry.len wait 0 0 (done ++ [(a, x)]) := by
        rw [serve_append, ha]; simp [serve, h2, hnow]
      have hfree : freeAfter Entry.len wait 0 0 (done ++ [(a, x)]) = s.clock + x.len := by
        rw [freeAfter_append]; simp [freeAfter, h2, hnow]
      refine Phase.onAir (done ++ [(a, x)]) w x ?_ ?_ ?_ ?_ ?_ ?_ ?_ ?_
      · simp [macSend, air, h1]
      · simp [macSend, air, h1, hacc]
      · simp [macSend, air, h1]
      · rw [← hserve]; simp [macSend, air, h1]
      · simp [macSend, air, h1, hh]
      · rw [hfree]; simp [macSend, air, h1, hev, insertEvent]
      · rw [hfree]; simp [macSend, air, h1]
      · simpa [macSend, air, h1] using harr
    · refine Phase.waiting done w a s.clock x ?_ ?_ ?_ ?_ ?_ hnow ?_ ?_ ?_
      · simp [macSend, h1]
      · simp [macSend, h1, hacc]
      · simp [macSend, h1]
      · simp [macSend, h1, ha]
      · simp [macSend, h1, hh]
      · simp [macSend, h1, h2, hev, scheduleStarts, insertEvent, hh]
      · simp [macSend, h1]
      · simpa [macSend, h1] using harr

theorem Phase.step {wait : Nat → Nat → Nat} (hm : Once mac wait) {s : Sys W} (h : Phase wait s) {o : Op W} {r : Outcome (Sys W)}
    (hs : GroundSta.step debug mac accept s o = some r) : ∃ s', r = .ok s' ∧ Phase wait s' := by
  have key : ∀ t rem pw, possible s t →
      Phase wait ({ s with clock := t, remote := rem, power := pw } : Sys W) := by
    intro t rem pw hp
    obtain ⟨hp1, hp2⟩ := hp
    cases h with
    | idle h1 h2 h3 h4 h5 h6 => exact .idle h1 h2 h3 h4 (Nat.le_trans h5 hp1) h6
    | waiting done w a hh x h1 h2 h3 h4 h5 h6 h7 h8 h9 =>
      refine .waiting done w a hh x h1 h2 h3 h4 h5 h6 h7 ?_ (fun y hy => Nat.le_trans (h9 y hy) hp1)
      have := hp2 _ (by rw [h7]; exact List.mem_singleton_self _)
      exact this
    | onAir done w x h1 h2 h3 h4 h5 h6 h7 h8 =>
      refine .onAir done w x h1 h2 h3 h4 h5 h6 ?_ (fun y hy => Nat.le_trans (h8 y hy) hp1)
      have := hp2 _ (by rw [h6]; exact List.mem_singleton_self _)
      exact this
  cases o with
  | setRemote t a =>
    simp only [GroundSta.step] at hs
    split at hs
    · rename_i hp
      simp only [Option.some.injEq] at hs
      exact ⟨_, hs.symm, key t a s.power hp⟩
    · simp at hs
  | setPower t w =>
    simp only [GroundSta.step] at hs
    split at hs
    · rename_i hp
      simp only [Option.some.injEq] at hs
      exact ⟨_, hs.symm, key t s.remote w hp⟩
    · simp at hs
  | send t pkt len proto =>
    simp only [GroundSta.step] at hs
    split at hs
    · rename_i hp
      simp only [Option.some.injEq] at hs
      subst hs
      have hk := key t s.remote s.power hp
      unfold send
      simp only
      split
      · refine ⟨_, rfl, ?_⟩
        cases hk with
        | idle h1 h2 h3 h4 h5 h6 => exact .idle h1 h2 h3 h4 h5 h6
        | waiting done w a hh x h1 h2 h3 h4 h5 h6 h7 h8 h9 => exact .waiting done w a hh x h1 h2 h3 h4 h5 h6 h7 h8 h9
        | onAir done w x h1 h2 h3 h4 h5 h6 h7 h8 => exact .onAir done w x h1 h2 h3 h4 h5 h6 h7 h8
      · cases hk with
        | idle h1 h2 h3 h4 h5 h6 =>
          simp only at h1 h2 h3 h4 h5 h6
          simp only [h1]
          obtain ⟨s', hs', hph⟩ := Phase.start (debug := debug) hm
            (s := { s with clock := t, queue := s.queue ++ [⟨pkt, len, s.remote, proto, s.power⟩],
                           accepted := s.accepted ++ [(t, ⟨pkt, len, s.remote, proto, s.power⟩)] })
            (done := s.accepted) (w := []) (a := t) (x := ⟨pkt, len, s.remote, proto, s.power⟩)
            h1 h3 rfl (by simp [h2]) h4 h6 (by simp only; omega) (by simp)
          simp only [h1] at hs'
          exact ⟨s', by simpa using hs', hph⟩
        | waiting done w a hh x h1 h2 h3 h4 h5 h6 h7 h8 h9 =>
          simp only at h1 h2 h3 h4 h5 h7 h8 h9
          simp only [h1, if_true]
          refine ⟨_, rfl, .waiting done (w ++ [(t, ⟨pkt, len, s.remote, proto, s.power⟩)]) a hh x rfl ?_ ?_ h4 h5 h6 h7 h8 ?_⟩
          · simp [h2]
          · simp [h3]
          · intro y hy
            simp only [List.mem_append, List.mem_singleton] at hy
            rcases hy with hy | rfl
            · exact h9 y hy
            · exact Nat.le_refl _
        | onAir done w x h1 h2 h3 h4 h5 h6 h7 h8 =>
          simp only at h1 h2 h3 h4 h5 h6 h7 h8
          simp only [h1, if_true]
          refine ⟨_, rfl, .onAir done (w ++ [(t, ⟨pkt, len, s.remote, proto, s.power⟩)]) x rfl ?_ ?_ h4 h5 h6 h7 ?_⟩
          · simp [h2]
          · simp [h3]
          · intro y hy
            simp only [List.mem_append, List.mem_singleton] at hy
            rcases hy with hy | rfl
            · exact h8 y hy
            · exact Nat.le_refl _
    · simp at hs
  | run =>
    simp only [GroundSta.step] at hs
    cases h with
    | idle h1 h2 h3 h4 h5 h6 => rw [h3] at hs; simp at hs
    | waiting done w a hh x h1 h2 h3 h4 h5 h6 h7 h8 h9 =>
      rw [h7] at hs
      simp only [Option.some.injEq] at hs
      subst hs
      have hfree : freeAfter Entry.len wait 0 0 (done ++ [(a, x)]) = hh + wait done.length hh + x.len := by
        rw [freeAfter_append]; simp [freeAfter, ← h6]
      refine ⟨_, rfl, .onAir (done ++ [(a, x)]) w x h1 ?_ h3 ?_ ?_ ?_ ?_ ?_⟩
      · simp [air, h2]
      · rw [serve_append]; simp [air, h4, serve, ← h6]
      · simp [air, h5]
      · rw [hfree]; simp [air, insertEvent]
      · rw [hfree]; simp [air]
      · intro y hy
        have := h9 y hy
        simp only [air]
        omega
    | onAir done w x h1 h2 h3 h4 h5 h6 h7 h8 =>
      rw [h6] at hs
      simp only [Option.some.injEq] at hs
      subst hs
      unfold transmitComplete
      simp only
      cases w with
      | nil =>
        simp only [List.map_nil] at h3
        simp only [h3, List.isEmpty_nil, if_true]
        refine ⟨_, rfl, .idle rfl rfl rfl ?_ ?_ ?_⟩
        · simp only; rw [h2, List.append_nil]; exact h4
        · simp only; rw [h2, List.append_nil]
        · simp [h2, h5]
      | cons y w =>
        obtain ⟨a, z⟩ := y
        simp only [List.map_cons] at h3
        simp only [h3, List.isEmpty_cons]
        have hle := h8 (a, z) (by simp)
        simp only at hle
        obtain ⟨s', hs', hph⟩ := Phase.start (debug := debug) hm
            (s := { s with clock := freeAfter Entry.len wait 0 0 done, events := [], busy := false })
            (done := done) (w := w) (a := a) (x := z)
            rfl rfl h2 (by simp [h3]) h4 h5 (by simp only; omega)
            (by intro y hy; have := h8 y (by simp [hy]); simp only; omega)
        exact ⟨s', by simpa [h3] using hs', hph⟩

theorem Phase.init (wait : Nat → Nat → Nat) : Phase wait (Sys.init remote power) :=
  .idle rfl rfl rfl rfl (Nat.le_refl _) rfl

end GroundSta
end Icarus
