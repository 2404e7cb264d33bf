import Verif.Model.Crdsa
import Verif.Model.NoneMac
import Mathlib.Data.List.Basic
import Mathlib.Tactic.SplitIfs

/-!
# The MAC models do not depend on the absolute time (C113)

Frames that arrive `k` ticks later are passed up `k` ticks later; senders with slots decide the same a whole number of slots or frames later.
-/

set_option autoImplicit false

namespace Icarus
namespace TimeShift
open Aloha (Frame Rx Op schedule)

/-! ## The same history, later -/

section
variable {P : Type}

/-- The same frame, `k` ticks later. -/
def frame (k : Nat) (f : Frame P) : Frame P := ⟨f.uid, f.start + k, f.dur, f.pow⟩

/-- The same operation, `k` ticks later. -/
def op (k : Nat) : Op P → Op P
  | .arrive f => .arrive (frame k f)
  | .finish => .finish

/-- The same delivery, `k` ticks later. -/
def delivery (k : Nat) (x : Nat × Nat) : Nat × Nat := (x.1 + k, x.2)

theorem fin_frame (k : Nat) (f : Frame P) : (frame k f).fin = f.fin + k := by
  simp only [frame, Frame.fin]
  omega

theorem schedule_frame (k : Nat) (f : Frame P) (l : List (Frame P)) : schedule (frame k f) (l.map (frame k)) = (schedule f l).map (frame k) := by
  induction l with
  | nil => rfl
  | cons g l ih =>
    simp only [List.map_cons, schedule, fin_frame, Nat.add_lt_add_iff_right]
    split_ifs
    · rfl
    · rw [ih, List.map_cons]

/-- Clocks of the two machines: before anything has happened both are 0. -/
def Clock (k a b : Nat) : Prop := b = a + k ∨ (a = 0 ∧ b = 0)

theorem Clock.le {k a b t : Nat} (h : Clock k a b) : b ≤ t + k ↔ a ≤ t := by
  rcases h with rfl | ⟨rfl, rfl⟩ <;> omega

/-- Receivers that differ in the end of the busy period only. -/
structure Alike (k : Nat) (a b : Rx P) : Prop where
  uid : b.uid = a.uid
  collision : b.collision = a.collision
  interf : b.interf = a.interf
  finish : a.uid.isSome → b.finish = a.finish + k

theorem alike_init (k : Nat) : Alike k (Rx.init : Rx P) Rx.init := ⟨rfl, rfl, rfl, fun h => by simp [Rx.init] at h⟩

theorem ready (ties : Bool) (k t : Nat) (l : List (Frame P)) :
    (∀ g ∈ l.map (frame k), t + k < g.fin ∨ ties = true ∧ t + k = g.fin) ↔ ∀ g ∈ l, t < g.fin ∨ ties = true ∧ t = g.fin := by
  simp only [List.mem_map, forall_exists_index, and_imp, forall_apply_eq_imp_iff₂, fin_frame, Nat.add_lt_add_iff_right, Nat.add_right_cancel_iff]

variable [Zero P] [Add P]

omit [Zero P] in
theorem alike_start {k : Nat} {a b : Rx P} (h : Alike k a b) (f : Frame P) : Alike k (Aloha.startRx a f) (Aloha.startRx b (frame k f)) := by
  obtain ⟨bu, bf, bc, bi⟩ := b
  obtain ⟨rfl, rfl, rfl, hf⟩ := h
  obtain ⟨au, af, ac, ai⟩ := a
  cases au with
  | none =>
    simp only [Aloha.startRx, Option.isSome_none, Bool.false_eq_true, false_and, if_false, Option.isNone_none, true_or, if_true, fin_frame]
    exact ⟨rfl, rfl, rfl, fun _ => rfl⟩
  | some u =>
    have hf := hf rfl
    simp only at hf
    subst hf
    have e1 : (frame k f).start < af + k ↔ f.start < af := by simp [frame]
    have e2 : (frame k f).fin ≥ af + k ↔ f.fin ≥ af := by rw [fin_frame]; omega
    by_cases c1 : f.start < af <;> by_cases c2 : f.fin ≥ af <;>
      simp [Aloha.startRx, e1, e2, c1, c2] <;> exact ⟨rfl, rfl, rfl, fun _ => by simp [fin_frame]⟩

/-! ## Aloha -/

theorem aloha_execFrom (ties : Bool) (lost : P → P → Bool) (k : Nat) (ops : List (Op P)) : ∀ (a b : Aloha.Sys P), Clock k a.clock b.clock → Alike k a.rx b.rx →
    b.pending = a.pending.map (frame k) → b.delivered = a.delivered.map (delivery k) →
    (Aloha.execFrom ties lost b (ops.map (op k))).map (·.delivered) = (Aloha.execFrom ties lost a ops).map (fun s => s.delivered.map (delivery k)) := by
  induction ops with
  | nil =>
    intro a b _ _ _ hd
    simp [Aloha.execFrom, hd]
  | cons o os ih =>
    intro a b hc hr hp hd
    cases o with
    | arrive f =>
      simp only [List.map_cons, op, Aloha.execFrom, Aloha.step]
      have hcond : (b.clock ≤ (frame k f).start ∧ ∀ g ∈ b.pending, (frame k f).start < g.fin ∨ ties = true ∧ (frame k f).start = g.fin) ↔
          (a.clock ≤ f.start ∧ ∀ g ∈ a.pending, f.start < g.fin ∨ ties = true ∧ f.start = g.fin) := by
        rw [hp]
        exact and_congr hc.le (ready ties k f.start a.pending)
      by_cases h : a.clock ≤ f.start ∧ ∀ g ∈ a.pending, f.start < g.fin ∨ ties = true ∧ f.start = g.fin
      · rw [if_pos h, if_pos (hcond.mpr h)]
        simp only [Option.bind_some]
        exact ih _ _ (.inl rfl) (alike_start hr f) (by simp only; rw [hp, schedule_frame]) hd
      · rw [if_neg h, if_neg (fun h' => h (hcond.mp h'))]
        rfl
    | finish =>
      obtain ⟨ac, ar, ap, ad⟩ := a
      obtain ⟨bc, br, bp, bd⟩ := b
      simp only at hp hd hr
      subst hp hd
      cases ap with
      | nil => rfl
      | cons f rest =>
        simp only [List.map_cons, op, Aloha.execFrom, Aloha.step, Option.bind_some]
        have hup : (Aloha.finishRx lost br (frame k f)).2 = (Aloha.finishRx lost ar f).2 := by
          simp only [Aloha.finishRx, hr.collision, hr.interf, frame]
        refine ih _ _ (.inl (fin_frame k f)) ?_ rfl ?_
        · simp only [Aloha.finishRx, hr.uid]
          show Alike k (if ar.uid = some f.uid then _ else _) (if ar.uid = some f.uid then _ else _)
          split_ifs
          · exact ⟨rfl, rfl, rfl, fun h => by simp at h⟩
          · exact hr
        · simp only [hup, List.map_append]
          congr 1
          split_ifs
          · rw [fin_frame]
            rfl
          · rfl

/-- **Aloha.**  A receiver that hears the same frames `k` ticks later passes up the same packets `k` ticks later; one history is possible if and only if the other is. -/
theorem C113_aloha (ties : Bool) (lost : P → P → Bool) (k : Nat) (ops : List (Op P)) :
    (Aloha.exec ties lost (ops.map (op k))).map (·.delivered) = (Aloha.exec ties lost ops).map (fun s => s.delivered.map (delivery k)) :=
  aloha_execFrom ties lost k ops _ _ (.inr ⟨rfl, rfl⟩) (alike_init k) rfl rfl

end

/-! ## CRDSA -/

open Crdsa (Period St has prune singles emptyPositions eraseAt mic passUp cancel fuelFor cleanPeriods cleanReceived receiveOwn)

/-- The same busy period, later. -/
def period (k : Nat) (p : Period) : Period := ⟨p.finish + k, p.pkts⟩

/-- The same memory of a received packet, later. -/
def memory (k : Nat) (r : Nat × Nat) : Nat × Nat := (r.1, r.2 + k)

theorem has_memory (k : Nat) (l : List (Nat × Nat)) (u : Nat) : has (l.map (memory k)) u = has l u := by
  simp only [has, List.any_map]
  rfl

theorem prune_period (k : Nat) (rs : List (Nat × Nat)) (ps : List Period) : prune (rs.map (memory k)) (ps.map (period k)) = (prune rs ps).map (period k) := by
  simp only [prune, List.map_map, has_memory]
  rfl

theorem singles_period (k : Nat) (ps : List Period) : singles (ps.map (period k)) = singles ps := by
  simp only [singles, List.filterMap_map]
  rfl

theorem emptyPositions_period (k : Nat) (ps : List Period) (i : Nat) : emptyPositions i (ps.map (period k)) = emptyPositions i ps := by
  induction ps generalizing i with
  | nil => rfl
  | cons p ps ih =>
    simp only [List.map_cons, emptyPositions, ih]
    rfl

theorem eraseIdx_period (k : Nat) (ps : List Period) (i : Nat) : (ps.map (period k)).eraseIdx i = (ps.eraseIdx i).map (period k) := by
  induction ps generalizing i with
  | nil => rfl
  | cons p ps ih =>
    cases i with
    | zero => rfl
    | succ i => simp only [List.map_cons, List.eraseIdx_cons_succ, ih]

theorem eraseAt_period (k : Nat) (ps : List Period) (is : List Nat) : eraseAt (ps.map (period k)) is = (eraseAt ps is).bind (fun l => .ok (l.map (period k))) := by
  match is with
  | [] => rfl
  | [i] => simp only [eraseAt, Outcome.bind, eraseIdx_period]
  | _ :: _ :: _ => rfl

theorem mic_period (strict : Bool) (k : Nat) (ps : List Period) (rs : List (Nat × Nat)) :
    mic strict (ps.map (period k)) (rs.map (memory k)) = (mic strict ps rs).bind (fun r => .ok (r.1.map (period k), r.2)) := by
  unfold mic
  simp only [prune_period, singles_period, emptyPositions_period, eraseAt_period]
  cases strict
  · simp only [Bool.false_eq_true, if_false, Outcome.bind, List.filter_map]
    rfl
  · simp only [if_true]
    cases eraseAt (prune rs ps) (emptyPositions 0 (prune rs ps)) <;> rfl

theorem passUp_memory (k now : Nat) (us : List Nat) (rs : List (Nat × Nat)) :
    passUp (now + k) us (rs.map (memory k)) = ((passUp now us rs).1.map (memory k), (passUp now us rs).2) := by
  induction us generalizing rs with
  | nil => rfl
  | cons u us ih =>
    simp only [passUp, has_memory]
    split_ifs
    · exact ih rs
    · have := ih (rs ++ [(u, now)])
      rw [List.map_append] at this
      rw [show [(u, now + k)] = [(u, now)].map (memory k) from rfl, this]

theorem cancel_period (strict : Bool) (k now fuel : Nat) (ps : List Period) (rs : List (Nat × Nat)) :
    cancel strict (now + k) fuel (ps.map (period k)) (rs.map (memory k)) =
      (cancel strict now fuel ps rs).bind (fun r => .ok (r.1.map (period k), r.2.1.map (memory k), r.2.2)) := by
  induction fuel generalizing ps rs with
  | zero => rfl
  | succ fuel ih =>
    simp only [cancel, mic_period]
    cases mic strict ps rs with
    | ub e => rfl
    | abort => rfl
    | assertFail => rfl
    | ok r =>
      obtain ⟨ps', recovered⟩ := r
      simp only [Outcome.bind]
      split_ifs
      · rfl
      · simp only [passUp_memory, ih]
        cases cancel strict now fuel ps' (passUp now recovered rs).1 <;> rfl

theorem fuelFor_period (k : Nat) (ps : List Period) : fuelFor (ps.map (period k)) = fuelFor ps := by
  simp only [fuelFor, List.map_map]
  rfl

theorem cleanPeriods_period (k : Nat) (limit : Int) (ps : List Period) : cleanPeriods (limit + k) (ps.map (period k)) = (cleanPeriods limit ps).map (period k) := by
  have h : ∀ p : Period, (((period k p).finish : Int) > limit + k) ↔ ((p.finish : Int) > limit) := by
    intro p
    simp only [period]
    omega
  simp only [cleanPeriods, List.dropWhile_map, Function.comp_def, h]

theorem cleanReceived_memory (k : Nat) (limit : Int) (rs : List (Nat × Nat)) : cleanReceived (limit + k) (rs.map (memory k)) = (cleanReceived limit rs).map (memory k) := by
  have h : ∀ r : Nat × Nat, (((memory k r).2 : Int) < limit + k) ↔ ((r.2 : Int) < limit) := by
    intro r
    simp only [memory]
    omega
  simp only [cleanReceived, List.filter_map, Function.comp_def, h]

section
variable {P : Type}

/-- States of CRDSA receivers that differ in times only. -/
structure AlikeSt (k : Nat) (a b : St P) : Prop where
  rx : Alike k a.rx b.rx
  collided : b.collided = a.collided
  periods : b.periods = a.periods.map (period k)
  received : b.received = a.received.map (memory k)

variable [Zero P] [Add P]

omit [Add P] in
theorem finish_alike (strict : Bool) (lost : P → P → Bool) (F k : Nat) {a b : St P} (h : AlikeSt k a b) (f : Frame P) :
    (∃ a' b' out, Crdsa.finishRx strict lost F a f = .ok (a', out) ∧ Crdsa.finishRx strict lost F b (frame k f) = .ok (b', out) ∧ AlikeSt k a' b') ∨
    (∃ e, Crdsa.finishRx strict lost F a f = .ub e ∧ Crdsa.finishRx strict lost F b (frame k f) = .ub e) ∨
    (Crdsa.finishRx strict lost F a f = .abort ∧ Crdsa.finishRx strict lost F b (frame k f) = .abort) ∨
    (Crdsa.finishRx strict lost F a f = .assertFail ∧ Crdsa.finishRx strict lost F b (frame k f) = .assertFail) := by
  have hcol : Crdsa.hasCollided lost b.rx (frame k f) = Crdsa.hasCollided lost a.rx f := by
    simp only [Crdsa.hasCollided, h.rx.collision, h.rx.interf, frame]
  obtain ⟨c, hc⟩ : ∃ c, c = Crdsa.hasCollided lost a.rx f := ⟨_, rfl⟩
  have hown : receiveOwn (frame k f).fin c (frame k f).uid b.received =
      ((receiveOwn f.fin c f.uid a.received).1.map (memory k), (receiveOwn f.fin c f.uid a.received).2) := by
    rw [fin_frame, h.received]
    simp only [receiveOwn, frame, has_memory]
    split_ifs
    · rfl
    · rfl
    · simp [memory]
  unfold Crdsa.finishRx
  simp only [hcol, ← hc, hown, h.rx.uid]
  by_cases hu : a.rx.uid = some f.uid
  · have hfin := h.rx.finish (by rw [hu]; rfl)
    have hps : (if c = true then b.periods ++ [⟨b.rx.finish, b.collided⟩] else b.periods) = (if c = true then a.periods ++ [⟨a.rx.finish, a.collided⟩] else a.periods).map (period k) := by
      rw [h.periods, hfin, h.collided]
      split_ifs
      · simp [period]
      · rfl
    have hlim : (((frame k f).fin : Nat) : Int) - 2 * (F : Int) = ((f.fin : Int) - 2 * (F : Int)) + k := by
      rw [fin_frame]
      push_cast
      omega
    have hu' : a.rx.uid = some (frame k f).uid := hu
    simp only [if_pos hu, if_pos hu', hps, hlim, cleanPeriods_period, cleanReceived_memory, fuelFor_period]
    rw [fin_frame, cancel_period]
    cases cancel strict f.fin _ _ _ with
    | ub e => exact .inr (.inl ⟨e, rfl, rfl⟩)
    | abort => exact .inr (.inr (.inl ⟨rfl, rfl⟩))
    | assertFail => exact .inr (.inr (.inr ⟨rfl, rfl⟩))
    | ok r =>
      obtain ⟨ps, rs, out⟩ := r
      exact .inl ⟨_, _, _, rfl, rfl, ⟨rfl, rfl, rfl, fun h => by simp at h⟩, rfl, rfl, rfl⟩
  · have hu' : ¬ a.rx.uid = some (frame k f).uid := hu
    simp only [if_neg hu, if_neg hu']
    exact .inl ⟨_, _, _, rfl, rfl, h.rx, h.collided, h.periods, rfl⟩

/-- What an execution amounts to for the outside: impossible, a failure, or the deliveries. -/
def report (r : Option (Outcome (Crdsa.Sys P))) : Option (Outcome (List (Nat × Nat))) := r.map (fun o => o.bind (fun s => .ok s.delivered))

theorem crdsa_execFrom (strict ties : Bool) (lost : P → P → Bool) (F k : Nat) (ops : List (Op P)) : ∀ (a b : Crdsa.Sys P), Clock k a.clock b.clock → AlikeSt k a.st b.st →
    b.pending = a.pending.map (frame k) → b.delivered = a.delivered.map (delivery k) →
    report (Crdsa.execFrom strict ties lost F b (ops.map (op k))) =
      (report (Crdsa.execFrom strict ties lost F a ops)).map (fun o => o.bind (fun l => .ok (l.map (delivery k)))) := by
  induction ops with
  | nil =>
    intro a b _ _ _ hd
    simp [Crdsa.execFrom, report, Outcome.bind, hd]
  | cons o os ih =>
    intro a b hc hr hp hd
    cases o with
    | arrive f =>
      simp only [List.map_cons, op, Crdsa.execFrom, Crdsa.step]
      have hcond : (b.clock ≤ (frame k f).start ∧ ∀ g ∈ b.pending, (frame k f).start < g.fin ∨ ties = true ∧ (frame k f).start = g.fin) ↔
          (a.clock ≤ f.start ∧ ∀ g ∈ a.pending, f.start < g.fin ∨ ties = true ∧ f.start = g.fin) := by
        rw [hp]
        exact and_congr hc.le (ready ties k f.start a.pending)
      by_cases h : a.clock ≤ f.start ∧ ∀ g ∈ a.pending, f.start < g.fin ∨ ties = true ∧ f.start = g.fin
      · rw [if_pos h, if_pos (hcond.mpr h)]
        refine ih _ _ (.inl rfl) ⟨alike_start hr.rx f, ?_, hr.periods, hr.received⟩ (by simp only; rw [hp, schedule_frame]) hd
        simp only [Crdsa.startRx, hr.collided, frame]
      · rw [if_neg h, if_neg (fun h' => h (hcond.mp h'))]
        rfl
    | finish =>
      obtain ⟨ac, ar, ap, ad⟩ := a
      obtain ⟨bc, br, bp, bd⟩ := b
      simp only at hp hd hr
      subst hp hd
      cases ap with
      | nil => rfl
      | cons f rest =>
        simp only [List.map_cons, op, Crdsa.execFrom, Crdsa.step]
        rcases finish_alike strict lost F k hr f with ⟨a', b', out, e1, e2, e3⟩ | ⟨e, e1, e2⟩ | ⟨e1, e2⟩ | ⟨e1, e2⟩
        · rw [e1, e2]
          refine ih _ _ (.inl (fin_frame k f)) e3 rfl ?_
          simp only [List.map_append, List.map_map, fin_frame]
          rfl
        all_goals
          rw [e1, e2]
          rfl

/-- **CRDSA.**  A receiver that hears the same frames `k` ticks later passes up the same packets `k` ticks later, fails if and only if the other fails and in the same way. -/
theorem C113_crdsa (strict ties : Bool) (lost : P → P → Bool) (F k : Nat) (ops : List (Op P)) :
    report (Crdsa.exec strict ties lost F (ops.map (op k))) = (report (Crdsa.exec strict ties lost F ops)).map (fun o => o.bind (fun l => .ok (l.map (delivery k)))) :=
  crdsa_execFrom strict ties lost F k ops _ _ (.inr ⟨rfl, rfl⟩) ⟨alike_init k, rfl, rfl, rfl⟩ rfl rfl

end

/-! ## No MAC -/

section
variable {P : Type}

theorem none_execFrom (k : Nat) (ops : List (Op P)) : ∀ (a b : NoneMac.Sys P), Clock k a.clock b.clock → b.pending = a.pending.map (frame k) →
    b.delivered = a.delivered.map (delivery k) →
    (NoneMac.execFrom b (ops.map (op k))).map (·.delivered) = (NoneMac.execFrom a ops).map (fun s => s.delivered.map (delivery k)) := by
  induction ops with
  | nil =>
    intro a b _ _ hd
    simp [NoneMac.execFrom, hd]
  | cons o os ih =>
    intro a b hc hp hd
    cases o with
    | arrive f =>
      simp only [List.map_cons, op, NoneMac.execFrom, NoneMac.step]
      have hcond : (b.clock ≤ (frame k f).start ∧ ∀ g ∈ b.pending, (frame k f).start ≤ g.fin) ↔ (a.clock ≤ f.start ∧ ∀ g ∈ a.pending, f.start ≤ g.fin) := by
        rw [hp]
        refine and_congr hc.le ?_
        simp only [List.mem_map, forall_exists_index, and_imp, forall_apply_eq_imp_iff₂, fin_frame, show (frame k f).start = f.start + k from rfl, Nat.add_le_add_iff_right]
      by_cases h : a.clock ≤ f.start ∧ ∀ g ∈ a.pending, f.start ≤ g.fin
      · rw [if_pos h, if_pos (hcond.mpr h)]
        simp only [Option.bind_some]
        exact ih _ _ (.inl rfl) (by simp only; rw [hp, schedule_frame]) hd
      · rw [if_neg h, if_neg (fun h' => h (hcond.mp h'))]
        rfl
    | finish =>
      obtain ⟨ac, ap, ad⟩ := a
      obtain ⟨bc, bp, bd⟩ := b
      simp only at hp hd
      subst hp hd
      cases ap with
      | nil => rfl
      | cons f rest =>
        simp only [List.map_cons, op, NoneMac.execFrom, NoneMac.step, Option.bind_some]
        refine ih _ _ (.inl (fin_frame k f)) rfl ?_
        simp only [List.map_append, fin_frame]
        rfl

/-- **Pass-through.**  The same. -/
theorem C113_none (k : Nat) (ops : List (Op P)) : (NoneMac.exec (ops.map (op k))).map (·.delivered) = (NoneMac.exec ops).map (fun s => s.delivered.map (delivery k)) :=
  none_execFrom k ops _ _ (.inr ⟨rfl, rfl⟩) rfl rfl

end

/-! ## Senders -/

theorem quotient_shift (now j : Nat) {slot : Nat} (hs : 0 < slot) : Aloha.quotient (now + j * slot) slot = ((Aloha.quotient now slot).1 + j, (Aloha.quotient now slot).2) := by
  simp only [Aloha.quotient, Nat.add_mul_div_right _ _ hs, Nat.add_mul_mod_self_right]

/-- **Slotted Aloha.**  A whole number of slots later a station waits as long. -/
theorem C113_slots (now j slot : Nat) : Aloha.sendDelay (now + j * slot) slot = Aloha.sendDelay now slot := by
  unfold Aloha.sendDelay
  by_cases h : slot > 0
  · simp only [if_pos h, quotient_shift now j h]
    split_ifs
    · rw [show (Aloha.quotient now slot).1 + j + 1 = (Aloha.quotient now slot).1 + 1 + j by omega, Nat.add_mul, Nat.add_sub_add_right]
    · rfl
  · simp [h]

/-- **CRDSA.**  A whole number of frames later a station uses the same instants, if the shuffle and the number of replicas are the same. -/
theorem C113_frames (now j slot : Nat) (shuffled : List Nat) (n : Nat) :
    Crdsa.sendDelays (now + j * (slot * shuffled.length)) slot shuffled n = Crdsa.sendDelays now slot shuffled n := by
  have h : Crdsa.frameDelay (now + j * (slot * shuffled.length)) slot shuffled.length = Crdsa.frameDelay now slot shuffled.length := by
    unfold Crdsa.frameDelay
    by_cases hp : shuffled.length > 0 ∧ slot > 0
    · simp only [if_pos hp, quotient_shift now j (Nat.mul_pos hp.2 hp.1)]
      split_ifs
      · rw [Nat.mul_assoc, Nat.mul_assoc,
          show (Aloha.quotient now (slot * shuffled.length)).1 + j + 1 = (Aloha.quotient now (slot * shuffled.length)).1 + 1 + j by omega, Nat.add_mul _ j, Nat.add_sub_add_right]
      · rfl
    · simp [hp]
  unfold Crdsa.sendDelays
  rw [h]

/-- **Not by less.**  Half a slot later a station waits differently. -/
theorem C113_slots_needed : Aloha.sendDelay (10 + 5) 10 ≠ Aloha.sendDelay 10 10 := by decide

/-! ## Examples -/

/-- A collision and a frame alone: one delivery, at 25, and at 1025 if everything happens 1000 ticks later. -/
example : (Aloha.exec false (fun _ i : Nat => decide (1 < i)) [.arrive ⟨1, 0, 10, 1⟩, .arrive ⟨2, 5, 10, 1⟩, .finish, .finish, .arrive ⟨3, 20, 5, 1⟩, .finish]).map (·.delivered) = some [(25, 3)] := by
  decide

example : (Aloha.exec false (fun _ i : Nat => decide (1 < i))
    ([.arrive ⟨1, 0, 10, 1⟩, .arrive ⟨2, 5, 10, 1⟩, .finish, .finish, .arrive ⟨3, 20, 5, 1⟩, .finish].map (op 1000))).map (·.delivered) = some [(1025, 3)] := by
  rw [C113_aloha]
  decide

/-- With a replica of packet 1 a CRDSA receiver recovers packet 2 from the collision, also 1000 ticks later. -/
example : report (Crdsa.exec true false (fun _ i : Nat => decide (1 < i)) 100
    ([.arrive ⟨1, 0, 10, 1⟩, .arrive ⟨2, 5, 10, 1⟩, .finish, .finish, .arrive ⟨1, 20, 5, 1⟩, .finish].map (op 1000))) = some (.ok [(1025, 1), (1025, 2)]) := by
  rw [C113_crdsa]
  decide

end TimeShift
end Icarus
