import Verif.Model.Queue
import Verif.Props.GroundSta
import Verif.Props.Sat2GroundDevice
import Verif.Props.SatNetDevice
import Verif.Props.Transport

/-!
# Limits of the queues and of the time packets spend in them (C94)
-/

set_option autoImplicit false

namespace Icarus
namespace QueueDelay
open GroundSta

/-! ## The ground station, for any MAC -/

section
variable {W : Type} {debug : Bool} {mac : Mac} {accept : List (Entry W) → Entry W → Bool} {remote : SatAddress} {power : W}

/-- The MAC puts every frame on the air at least once, each time at most `B` ticks after it was handed over. -/
def Prompt (mac : Mac) (B : Nat) : Prop :=
  mac.sync = true ∨ mac.sync = false ∧ ∀ k t, mac.delays k t ≠ [] ∧ ∀ d ∈ mac.delays k t, d ≤ B

/-- When the transmission that an event belongs to is over. -/
def due : Nat × Ev W → Nat
  | (t, .start x) => t + x.len
  | (t, .finish _) => t

theorem time_le_due (e : Nat × Ev W) : e.1 ≤ due e := by
  obtain ⟨t, x | x⟩ := e <;> simp [due]

theorem mem_scheduleStarts {now : Nat} {x : Entry W} {ds : List Nat} {es : List (Nat × Ev W)} {e : Nat × Ev W} :
    e ∈ scheduleStarts now x ds es ↔ e ∈ es ∨ ∃ d ∈ ds, e = (now + d, .start x) := by
  induction ds generalizing es with
  | nil => simp [scheduleStarts]
  | cons d ds ih =>
    have h1 : scheduleStarts now x (d :: ds) es = scheduleStarts now x ds (insertEvent (now + d) (.start x) es) := rfl
    rw [h1, ih, mem_insertEvent]
    simp only [List.mem_cons, exists_eq_or_imp]
    tauto

theorem sorted_scheduleStarts {now : Nat} {x : Entry W} {ds : List Nat} {es : List (Nat × Ev W)} (h : es.Pairwise (fun a b => a.1 ≤ b.1)) :
    (scheduleStarts now x ds es).Pairwise (fun a b => a.1 ≤ b.1) := by
  induction ds generalizing es with
  | nil => exact h
  | cons d ds ih => exact ih (sorted_insertEvent h)

/-- What a packet costs those behind it. -/
def cost (B : Nat) (x : Entry W) : Nat := B + x.len

/-- `done` have been handed over, `w` wait. -/
structure Timely (B L C : Nat) (s : Sys W) (done w : List (Nat × Entry W)) : Prop where
  acc : s.accepted = done ++ w
  same : s.handed.map Prod.snd = done.map Prod.snd
  queue : s.queue = w.map Prod.snd
  sorted : s.events.Pairwise (fun a b => a.1 ≤ b.1)
  clock : ∀ e ∈ s.events, s.clock ≤ e.1
  busyq : w ≠ [] → s.busy = true
  served : s.busy = true → ∃ h x, s.handed.getLast? = some (h, x) ∧ h ≤ s.clock ∧ x.len ≤ L ∧ ∃ e ∈ s.events, due e ≤ h + cost B x
  waiting : ∀ pre a x post, w = pre ++ (a, x) :: post → ∀ h y, s.handed.getLast? = some (h, y) →
    h + cost B y + (pre.map (fun p => cost B p.2)).sum ≤ a + C + (B + L)
  handed : ∀ (i h : Nat) (y : Entry W) (a : Nat) (x : Entry W), s.handed[i]? = some (h, y) → done[i]? = some (a, x) → a ≤ h ∧ h ≤ a + C + (B + L)
  small : ∀ y ∈ s.accepted, y.2.len ≤ L
  arrived : ∀ y ∈ s.accepted, y.1 ≤ s.clock

/-- The queue never holds more than `C` ticks of work when a packet is accepted. -/
def Bounded (accept : List (Entry W) → Entry W → Bool) (B L C : Nat) : Prop :=
  ∀ q x, (∀ y ∈ q, y.len ≤ L) → x.len ≤ L → accept q x = true → (q.map (cost B)).sum ≤ C

/-- Handing over the first packet that waits. -/
theorem Timely.hand {B L C : Nat} (hm : Prompt mac B) {s : Sys W} {done w : List (Nat × Entry W)} {a : Nat} {x : Entry W}
    (acc : s.accepted = done ++ (a, x) :: w) (same : s.handed.map Prod.snd = done.map Prod.snd) (queue : s.queue = w.map Prod.snd)
    (sorted : s.events.Pairwise (fun a b => a.1 ≤ b.1)) (clock : ∀ e ∈ s.events, s.clock ≤ e.1)
    (soon : ∀ pre a' x' post, (a, x) :: w = pre ++ (a', x') :: post → s.clock + (pre.map (fun p => cost B p.2)).sum ≤ a' + C + (B + L))
    (handed : ∀ (i h : Nat) (y : Entry W) (a : Nat) (x : Entry W), s.handed[i]? = some (h, y) → done[i]? = some (a, x) → a ≤ h ∧ h ≤ a + C + (B + L))
    (small : ∀ y ∈ s.accepted, y.2.len ≤ L) (arrived : ∀ y ∈ s.accepted, y.1 ≤ s.clock) (busy : s.busy = true) :
    Timely B L C (macSend mac s s.clock x) (done ++ [(a, x)]) w := by
  obtain ⟨-, -, f3, f4, -, f6, f7, f8⟩ := macSend_fields (mac := mac) s s.clock x
  have hx : x.len ≤ L := small (a, x) (by simp [acc])
  have hlen : s.handed.length = done.length := by simpa using congrArg List.length same
  have hev : (macSend mac s s.clock x).events.Pairwise (fun a b => a.1 ≤ b.1) ∧ (∀ e ∈ (macSend mac s s.clock x).events, s.clock ≤ e.1) ∧
      ∃ e ∈ (macSend mac s s.clock x).events, due e ≤ s.clock + cost B x := by
    unfold macSend
    rcases hm with h | ⟨h, hd⟩
    · rw [if_pos h]
      refine ⟨sorted_insertEvent sorted, ?_, (s.clock + x.len, .finish x), ?_, ?_⟩
      · intro e he
        rcases mem_insertEvent.mp he with rfl | he
        · simp
        · exact clock e he
      · exact mem_insertEvent.mpr (Or.inl rfl)
      · simp [due, cost]
    · rw [if_neg (by simp [h])]
      refine ⟨sorted_scheduleStarts sorted, ?_, ?_⟩
      · intro e he
        rcases mem_scheduleStarts.mp he with he | ⟨d, -, rfl⟩
        · exact clock e he
        · simp
      · obtain ⟨hne, hle⟩ := hd s.handed.length s.clock
        obtain ⟨d, hdm⟩ := List.exists_mem_of_ne_nil _ hne
        refine ⟨_, mem_scheduleStarts.mpr (Or.inr ⟨d, hdm, rfl⟩), ?_⟩
        have := hle d hdm
        simp only [due, cost]
        omega
  refine ⟨?_, ?_, ?_, hev.1, ?_, ?_, ?_, ?_, ?_, ?_, ?_⟩
  · rw [f4, acc]; simp
  · rw [f6]; simp [same]
  · rw [f3, queue]
  · rw [f7]; exact hev.2.1
  · intro _; rw [f8, busy]
  · intro _
    rw [f6, f7]
    exact ⟨s.clock, x, by simp, Nat.le_refl _, hx, hev.2.2⟩
  · intro pre a' x' post hw h y hl
    rw [f6, List.getLast?_append_of_ne_nil _ (by simp)] at hl
    simp only [List.getLast?_singleton, Option.some.injEq, Prod.mk.injEq] at hl
    obtain ⟨rfl, rfl⟩ := hl
    have := soon ((a, x) :: pre) a' x' post (by simp [hw])
    simp only [List.map_cons, List.sum_cons] at this
    omega
  · intro i h y a' x' hi hj
    rw [f6] at hi
    rcases Nat.lt_trichotomy i done.length with hlt | heq | hgt
    · rw [List.getElem?_append_left (by omega)] at hi hj
      exact handed i h y a' x' hi hj
    · rw [List.getElem?_append_right (by omega)] at hi hj
      simp only [hlen, heq, Nat.sub_self, List.getElem?_cons_zero, Option.some.injEq, Prod.mk.injEq] at hi hj
      obtain ⟨rfl, rfl⟩ := hi
      obtain ⟨rfl, rfl⟩ := hj
      have h1 := arrived (a, x) (by simp [acc])
      have h2 := soon [] a x w rfl
      simp only [List.map_nil, List.sum_nil] at h2
      exact ⟨h1, by omega⟩
    · rw [List.getElem?_eq_none (by simp; omega)] at hi
      simp at hi
  · rw [f4]; exact small
  · rw [f4, f7]; exact arrived

theorem Timely.later {B L C : Nat} {s : Sys W} {done w : List (Nat × Entry W)} (h : Timely B L C s done w) {t : Nat} (hp : possible s t) (a : SatAddress) (pw : W)
    (refused : List (Nat × Entry W)) : Timely B L C { s with clock := t, remote := a, power := pw, refused := refused } done w := by
  obtain ⟨hp1, hp2⟩ := hp
  refine ⟨h.acc, h.same, h.queue, h.sorted, hp2, h.busyq, ?_, h.waiting, h.handed, h.small, fun y hy => Nat.le_trans (h.arrived y hy) hp1⟩
  intro hb
  obtain ⟨k, x, h1, h2, h3⟩ := h.served hb
  exact ⟨k, x, h1, Nat.le_trans h2 hp1, h3⟩

theorem Timely.step {B L C : Nat} (hm : Prompt mac B) (hb : Bounded accept B L C) {s s' : Sys W} {done w : List (Nat × Entry W)} (h : Timely B L C s done w)
    {o : Op W} (ho : ∀ t pkt len proto, o = .send t pkt len proto → len ≤ L) (hs : GroundSta.step debug mac accept s o = some (.ok s')) :
    ∃ done' w', Timely B L C s' done' w' := by
  cases o with
  | setRemote t a =>
    obtain ⟨hp, rfl⟩ := step_setRemote.mp hs
    exact ⟨done, w, h.later hp a s.power s.refused⟩
  | setPower t v =>
    obtain ⟨hp, rfl⟩ := step_setPower.mp hs
    exact ⟨done, w, h.later hp s.remote v s.refused⟩
  | send t pkt len proto =>
    obtain ⟨hp, hs⟩ := step_send.mp hs
    have hlen := ho t pkt len proto rfl
    obtain ⟨x, hx⟩ : ∃ x : Entry W, x = ⟨pkt, len, s.remote, proto, s.power⟩ := ⟨_, rfl⟩
    have hxL : x.len ≤ L := by rw [hx]; exact hlen
    unfold send at hs
    simp only [← hx] at hs
    split at hs
    · simp only [Outcome.ok.injEq] at hs
      subst hs
      exact ⟨done, w, h.later hp s.remote s.power _⟩
    · rename_i hacc
      have hk := h.later hp s.remote s.power s.refused
      have hsum : (s.queue.map (cost B)).sum ≤ C := by
        refine hb s.queue x ?_ hxL (by simpa using hacc)
        intro y hy
        rw [h.queue] at hy
        obtain ⟨z, hz, rfl⟩ := List.mem_map.mp hy
        exact h.small z (by rw [h.acc]; exact List.mem_append_right _ hz)
      have hsmall : ∀ y ∈ s.accepted ++ [(t, x)], y.2.len ≤ L := by
        intro y hy
        rcases List.mem_append.mp hy with hy | hy
        · exact h.small y hy
        · rw [List.mem_singleton.mp hy]; exact hxL
      have harr : ∀ y ∈ s.accepted ++ [(t, x)], y.1 ≤ t := by
        intro y hy
        rcases List.mem_append.mp hy with hy | hy
        · exact hk.arrived y hy
        · rw [List.mem_singleton.mp hy]
      split at hs
      · rename_i hbusy
        simp only [Outcome.ok.injEq] at hs
        subst hs
        refine ⟨done, w ++ [(t, x)], by simp [h.acc], h.same, by simp [h.queue], h.sorted, hk.clock, fun _ => hbusy, hk.served, ?_, h.handed, hsmall, harr⟩
        intro pre a y post hw k z hl
        rcases List.eq_nil_or_concat post with rfl | ⟨post', z', rfl⟩
        · obtain ⟨rfl, hy⟩ := List.append_inj' hw rfl
          simp only [List.cons.injEq, Prod.mk.injEq, and_true] at hy
          obtain ⟨rfl, rfl⟩ := hy
          obtain ⟨k', z', h1, h2, h3, -⟩ := hk.served hbusy
          simp only at h1 hl h2
          rw [h1] at hl
          simp only [Option.some.injEq, Prod.mk.injEq] at hl
          obtain ⟨rfl, rfl⟩ := hl
          have e : (w.map (fun p => cost B p.2)).sum = (s.queue.map (cost B)).sum := by rw [h.queue, List.map_map]; rfl
          rw [e]
          simp only [cost] at hsum ⊢
          omega
        · have hw' : w ++ [(t, x)] = (pre ++ (a, y) :: post') ++ [z'] := by rw [hw]; simp
          obtain ⟨hw'', -⟩ := List.append_inj' hw' rfl
          exact h.waiting pre a y post' hw'' k z hl
      · rename_i hbusy
        simp only [Bool.not_eq_true] at hbusy
        have hw : w = [] := by
          by_contra hne
          rw [h.busyq hne] at hbusy
          simp at hbusy
        subst hw
        obtain ⟨x', rest, hq, rfl⟩ := transmitStart_eq hs
        simp only [h.queue, List.map_nil, List.nil_append, List.cons.injEq] at hq
        obtain ⟨rfl, rfl⟩ := hq
        refine ⟨done ++ [(t, x)], [], ?_⟩
        refine Timely.hand hm (s := { s with clock := t, queue := [], busy := true, accepted := s.accepted ++ [(t, x)] }) (a := t) (x := x) (w := []) ?_ h.same rfl h.sorted
          hk.clock ?_ h.handed hsmall harr rfl
        · simp [h.acc]
        · intro pre a' x' post hw
          cases pre with
          | nil =>
            simp only [List.nil_append, List.cons.injEq, Prod.mk.injEq] at hw
            obtain ⟨⟨rfl, rfl⟩, -⟩ := hw
            simp
            omega
          | cons p pre => simp at hw
  | run =>
    simp only [GroundSta.step] at hs
    split at hs
    · simp at hs
    · rename_i t x es hev
      simp only [Option.some.injEq, Outcome.ok.injEq] at hs
      subst hs
      have hsort := h.sorted
      rw [hev, List.pairwise_cons] at hsort
      have hct : s.clock ≤ t := h.clock (t, .start x) (by rw [hev]; simp)
      refine ⟨done, w, h.acc, h.same, h.queue, sorted_insertEvent hsort.2, ?_, h.busyq, ?_, h.waiting, h.handed, h.small,
        fun y hy => Nat.le_trans (h.arrived y hy) hct⟩
      · intro e he
        rcases mem_insertEvent.mp he with rfl | he
        · simp [air]
        · exact hsort.1 e he
      · intro hbusy
        obtain ⟨k, z, h1, h2, h3, e, he, h4⟩ := h.served hbusy
        refine ⟨k, z, h1, Nat.le_trans h2 hct, h3, ?_⟩
        rw [hev] at he
        rcases List.mem_cons.mp he with rfl | he
        · exact ⟨_, mem_insertEvent.mpr (Or.inl rfl), h4⟩
        · exact ⟨e, mem_insertEvent.mpr (Or.inr he), h4⟩
    · rename_i t x es hev
      simp only [Option.some.injEq] at hs
      have hsort := h.sorted
      rw [hev, List.pairwise_cons] at hsort
      have hct : s.clock ≤ t := h.clock (t, .finish x) (by rw [hev]; simp)
      unfold transmitComplete at hs
      simp only at hs
      split at hs
      · rename_i hempty
        simp only [Outcome.ok.injEq] at hs
        subst hs
        have hw : w = [] := by
          rw [h.queue] at hempty
          simpa using hempty
        exact ⟨done, w, h.acc, h.same, h.queue, hsort.2, hsort.1, fun hne => absurd hw hne, fun hb => by simp at hb, h.waiting, h.handed, h.small,
          fun y hy => Nat.le_trans (h.arrived y hy) hct⟩
      · obtain ⟨x', rest, hq, rfl⟩ := transmitStart_eq hs
        simp only [h.queue] at hq
        cases w with
        | nil => simp at hq
        | cons p w =>
          obtain ⟨a, y⟩ := p
          simp only [List.map_cons, List.cons.injEq] at hq
          obtain ⟨rfl, rfl⟩ := hq
          refine ⟨done ++ [(a, y)], w, ?_⟩
          refine Timely.hand hm (s := { s with clock := t, events := es, busy := true, queue := w.map Prod.snd }) h.acc h.same rfl hsort.2 hsort.1 ?_ h.handed
            h.small (fun y hy => Nat.le_trans (h.arrived y hy) hct) rfl
          intro pre a' x' post hw
          obtain ⟨k, z, h1, h2, h3, e, he, h4⟩ := h.served (h.busyq (by simp))
          have h5 := h.waiting pre a' x' post hw k z h1
          have h6 : t ≤ due e := by
            rw [hev] at he
            rcases List.mem_cons.mp he with rfl | he
            · exact time_le_due (t, Ev.finish x)
            · exact Nat.le_trans (hsort.1 e he) (time_le_due e)
          simp only
          omega

theorem timely_exec {B L C : Nat} (hm : Prompt mac B) (hb : Bounded accept B L C) {ops : List (Op W)} {s : Sys W}
    (hL : ∀ y ∈ requests remote power ops, y.2.len ≤ L) (h : GroundSta.exec debug mac accept remote power ops = some (.ok s)) :
    ∃ done w, Timely B L C s done w := by
  have hops : ∀ o ∈ ops, ∀ t pkt len proto, o = Op.send t pkt len proto → len ≤ L := by
    intro o ho t pkt len proto he
    subst he
    obtain ⟨l, m, rfl⟩ := List.append_of_mem ho
    rw [requests_append] at hL
    have := hL (t, ⟨pkt, len, trackedAfter remote l, proto, powerAfter power l⟩) (by simp [requests])
    exact this
  clear hL
  have key := run_induction (P := fun ops (s : Sys W) => (∀ o ∈ ops, ∀ t pkt len proto, o = Op.send t pkt len proto → len ≤ L) → ∃ done w, Timely B L C s done w)
    (s0 := Sys.init remote power) ?_ ?_ h
  · exact key hops
  · intro _
    exact ⟨[], [], rfl, rfl, rfl, by simp [Sys.init], by simp [Sys.init], by simp, by simp [Sys.init], by simp, by simp, by simp [Sys.init], by simp [Sys.init]⟩
  · intro ops o s s' _ hp hst ho
    obtain ⟨done, w, ht⟩ := hp (fun o' ho' => ho o' (by simp [ho']))
    exact ht.step hm hb (ho o (by simp)) hst

/-- A packet accepted at `a` is handed over by `a + C + (B + L)`, and has been if nothing is scheduled before a moment `T` after that. -/
theorem wait_by {B L C : Nat} (hm : Prompt mac B) (hb : Bounded accept B L C) {ops : List (Op W)} {s : Sys W}
    (hL : ∀ y ∈ requests remote power ops, y.2.len ≤ L) (h : GroundSta.exec debug mac accept remote power ops = some (.ok s))
    (i a : Nat) (x : Entry W) (hi : s.accepted[i]? = some (a, x)) {T : Nat} (hT : ∀ e ∈ s.events, T ≤ e.1) :
    (∀ (k : Nat) (y : Entry W), s.handed[i]? = some (k, y) → y = x ∧ a ≤ k ∧ k ≤ a + C + (B + L)) ∧
    (a + C + (B + L) < T → ∃ k, s.handed[i]? = some (k, x)) := by
  obtain ⟨done, w, ht⟩ := timely_exec hm hb hL h
  have hlen : s.handed.length = done.length := by simpa using congrArg List.length ht.same
  have hdone : ∀ (k : Nat) (y : Entry W), s.handed[i]? = some (k, y) → done[i]? = some (a, x) ∧ y = x := by
    intro k y hk
    have hlt : i < done.length := by
      by_contra hge
      rw [List.getElem?_eq_none (by omega)] at hk
      simp at hk
    have h1 : done[i]? = some (a, x) := by
      rw [ht.acc, List.getElem?_append_left hlt] at hi
      exact hi
    have h2 := congrArg (fun l => l[i]?) ht.same
    simp only [List.getElem?_map, hk, h1, Option.map_some, Option.some.injEq] at h2
    exact ⟨h1, h2⟩
  constructor
  · intro k y hk
    obtain ⟨h1, h2⟩ := hdone k y hk
    exact ⟨h2, ht.handed i k y a x hk h1⟩
  · intro hlate
    by_cases hlt : i < s.handed.length
    · obtain ⟨⟨k, y⟩, hk⟩ : ∃ p, s.handed[i]? = some p := ⟨_, List.getElem?_eq_getElem hlt⟩
      obtain ⟨-, rfl⟩ := hdone k y hk
      exact ⟨k, hk⟩
    · exfalso
      rw [ht.acc, List.getElem?_append_right (by omega)] at hi
      obtain ⟨pre, post, hw⟩ := List.append_of_mem (List.mem_of_getElem? hi)
      obtain ⟨k, y, h1, h2, h3, e, he, h4⟩ := ht.served (ht.busyq (by rw [hw]; simp))
      have h5 := ht.waiting pre a x post hw k y h1
      have h6 := Nat.le_trans (hT e he) (time_le_due e)
      omega

/-- **No packet waits for ever.**  The MAC airs every frame at least once and within `B` ticks (`Prompt`), a packet is accepted only behind at most `C` ticks of work
(`Bounded`), packets last at most `L` ticks.  Then a packet accepted at `a` is handed to the MAC between `a` and `a + C + (B + L)`, and once the clock is past that moment
it has been. -/
theorem C94_wait {B L C : Nat} (hm : Prompt mac B) (hb : Bounded accept B L C) {ops : List (Op W)} {s : Sys W}
    (hL : ∀ y ∈ requests remote power ops, y.2.len ≤ L) (h : GroundSta.exec debug mac accept remote power ops = some (.ok s))
    (i a : Nat) (x : Entry W) (hi : s.accepted[i]? = some (a, x)) :
    (∀ (k : Nat) (y : Entry W), s.handed[i]? = some (k, y) → y = x ∧ a ≤ k ∧ k ≤ a + C + (B + L)) ∧
    (a + C + (B + L) < s.clock → ∃ k, s.handed[i]? = some (k, x)) :=
  wait_by hm hb hL h i a x hi (by obtain ⟨done, w, ht⟩ := timely_exec hm hb hL h; exact ht.clock)

theorem attempts_of_handed {B : Nat} (hm : Prompt mac B) {k : Nat} {l : List (Nat × Entry W)} {h : Nat} {x : Entry W} (hx : (h, x) ∈ l) :
    ∃ f ∈ attempts mac k l, f.2 = x ∧ h ≤ f.1 ∧ f.1 ≤ h + B := by
  induction l generalizing k with
  | nil => simp at hx
  | cons y l ih =>
    obtain ⟨t, z⟩ := y
    simp only [attempts]
    rcases List.mem_cons.mp hx with heq | hx
    · simp only [Prod.mk.injEq] at heq
      obtain ⟨rfl, rfl⟩ := heq
      rcases hm with hs | ⟨hs, hd⟩
      · exact ⟨(h, x), by simp [hs], rfl, Nat.le_refl _, by simp⟩
      · obtain ⟨hne, hle⟩ := hd k h
        obtain ⟨d, hdm⟩ := List.exists_mem_of_ne_nil _ hne
        refine ⟨(h + d, x), List.mem_append_left _ ?_, rfl, by simp, by have := hle d hdm; simp only; omega⟩
        rw [if_neg (by simp [hs])]
        exact List.mem_map.mpr ⟨d, hdm, rfl⟩
    · obtain ⟨f, hf, h2⟩ := ih (k := k + 1) hx
      exact ⟨f, List.mem_append_right _ hf, h2⟩

theorem attempts_soon {B : Nat} (hm : Prompt mac B) {k : Nat} {l : List (Nat × Entry W)} {f : Nat × Entry W} (hf : f ∈ attempts mac k l) :
    ∃ h, (h, f.2) ∈ l ∧ h ≤ f.1 ∧ f.1 ≤ h + B := by
  induction l generalizing k with
  | nil => simp [attempts] at hf
  | cons y l ih =>
    obtain ⟨t, z⟩ := y
    simp only [attempts] at hf
    rcases List.mem_append.mp hf with hf | hf
    · refine ⟨t, ?_⟩
      rcases hm with hs | ⟨hs, hd⟩
      · rw [if_pos hs, List.mem_singleton] at hf
        subst hf
        simp
      · rw [if_neg (by simp [hs])] at hf
        obtain ⟨d, hdm, rfl⟩ := List.mem_map.mp hf
        have := (hd k t).2 d hdm
        simp
        omega
    · obtain ⟨h, h1, h2⟩ := ih hf
      exact ⟨h, List.mem_cons_of_mem _ h1, h2⟩

theorem on_air_by {B L C : Nat} (hm : Prompt mac B) (hb : Bounded accept B L C) {ops : List (Op W)} {s : Sys W}
    (hL : ∀ y ∈ requests remote power ops, y.2.len ≤ L) (h : GroundSta.exec debug mac accept remote power ops = some (.ok s)) {T : Nat} (hT : ∀ e ∈ s.events, T ≤ e.1) :
    (∀ f ∈ s.aired, ∃ a, (a, f.2) ∈ s.accepted ∧ a ≤ f.1 ∧ f.1 ≤ a + C + (B + L) + B) ∧
    (∀ a x, (a, x) ∈ s.accepted → a + C + (B + L) + B < T → ∃ k, (k, x) ∈ s.aired ∧ a ≤ k ∧ k ≤ a + C + (B + L) + B) := by
  have hrep := C34_replicas h
  constructor
  · intro f hf
    obtain ⟨k, h1, h2, h3⟩ := attempts_soon hm (hrep.subset (List.mem_append_left _ hf))
    obtain ⟨i, hi⟩ := List.getElem?_of_mem h1
    have hlt : i < s.accepted.length := by
      have e := congrArg List.length (C34_handed_in_order h)
      simp only [List.length_map, List.length_append] at e
      have : i < s.handed.length := by
        by_contra hge
        rw [List.getElem?_eq_none (by omega)] at hi
        simp at hi
      omega
    obtain ⟨⟨a, x⟩, ha⟩ : ∃ p, s.accepted[i]? = some p := ⟨_, List.getElem?_eq_getElem hlt⟩
    obtain ⟨rfl, h4, h5⟩ := (wait_by hm hb hL h i a x ha hT).1 k f.2 hi
    exact ⟨a, List.mem_of_getElem? ha, by omega, by omega⟩
  · intro a x hx hlate
    obtain ⟨i, hi⟩ := List.getElem?_of_mem hx
    obtain ⟨hb1, hb2⟩ := wait_by hm hb hL h i a x hi hT
    obtain ⟨k, hk⟩ := hb2 (by omega)
    obtain ⟨-, h4, h5⟩ := hb1 k x hk
    obtain ⟨f, hf, rfl, h6, h7⟩ := attempts_of_handed (k := 0) hm (List.mem_of_getElem? hk)
    rcases List.mem_append.mp (hrep.symm.subset hf) with hf | hf
    · exact ⟨f.1, hf, by omega, by omega⟩
    · exfalso
      unfold pendingStarts at hf
      obtain ⟨e, he, heq⟩ := List.mem_filterMap.mp hf
      obtain ⟨t, z | z⟩ := e
      · simp only [Option.some.injEq] at heq
        subst heq
        have := hT _ he
        simp only at this h7
        omega
      · simp at heq

/-- On the air: every frame on the air belongs to a packet accepted not later and at most `C + (B + L) + B` ticks before, and every accepted packet has been on the air by
then. -/
theorem C94_on_air {B L C : Nat} (hm : Prompt mac B) (hb : Bounded accept B L C) {ops : List (Op W)} {s : Sys W}
    (hL : ∀ y ∈ requests remote power ops, y.2.len ≤ L) (h : GroundSta.exec debug mac accept remote power ops = some (.ok s)) :
    (∀ f ∈ s.aired, ∃ a, (a, f.2) ∈ s.accepted ∧ a ≤ f.1 ∧ f.1 ≤ a + C + (B + L) + B) ∧
    (∀ a x, (a, x) ∈ s.accepted → a + C + (B + L) + B < s.clock → ∃ k, (k, x) ∈ s.aired ∧ a ≤ k ∧ k ≤ a + C + (B + L) + B) :=
  on_air_by hm hb hL h (by obtain ⟨done, w, ht⟩ := timely_exec hm hb hL h; exact ht.clock)

/-! ### The queues and MACs of the repository -/

theorem packets_bounded (K : UInt32) (bytes : Entry W → Nat) (B L : Nat) :
    Bounded (Queue.dropTail .packets K bytes) B L ((K.toNat - 1) * (B + L)) := by
  intro q x hq _ ha
  simp only [Queue.dropTail, decide_eq_true_eq] at ha
  have hsum : ∀ l : List (Entry W), (∀ y ∈ l, y.len ≤ L) → (l.map (cost B)).sum ≤ l.length * (B + L) := by
    intro l
    induction l with
    | nil => simp
    | cons y l ih =>
      intro hl
      have h1 := hl y (by simp)
      have h2 := ih (fun z hz => hl z (by simp [hz]))
      simp only [List.map_cons, List.sum_cons, List.length_cons, Nat.add_mul, cost] at h2 ⊢
      omega
  exact Nat.le_trans (hsum q hq) (Nat.mul_le_mul_right _ (by omega))

theorem bytes_bounded (M : UInt32) (bytes : Entry W → Nat) (B L r : Nat) (hr : ∀ y, B + y.len ≤ r * bytes y) :
    Bounded (Queue.dropTail .bytes M bytes) B L (r * M.toNat) := by
  intro q x hq _ ha
  simp only [Queue.dropTail, decide_eq_true_eq] at ha
  have hsum : ∀ l : List (Entry W), (l.map (cost B)).sum ≤ r * (l.map bytes).sum := by
    intro l
    induction l with
    | nil => simp
    | cons y l ih =>
      have h1 := hr y
      simp only [List.map_cons, List.sum_cons, Nat.mul_add, cost] at ih ⊢
      omega
  exact Nat.le_trans (hsum q) (Nat.mul_le_mul_left _ (by omega))

theorem sendDelay_le (t slot : Nat) : Aloha.sendDelay t slot ≤ slot - 1 := by
  unfold Aloha.sendDelay
  split
  · rename_i hs
    split
    · rename_i hq
      have h0 : t % slot ≠ 0 := by
        intro h0
        simp [Aloha.quotient, h0] at hq
      have h1 := Nat.div_add_mod t slot
      have h2 : (t / slot + 1) * slot = slot * (t / slot) + slot := by rw [Nat.add_mul, Nat.mul_comm]; omega
      simp only [Aloha.quotient, h2]
      omega
    · omega
  · omega

/-- The pass-through model airs at once, Aloha within a slot, CRDSA (with at least one replica) within two frames. -/
theorem none_prompt : Prompt noneMac 0 := Or.inl rfl

theorem aloha_prompt (slot : Nat) : Prompt (alohaMac slot) (slot - 1) :=
  Or.inr ⟨rfl, fun _ t => ⟨by simp [alohaMac], by simp [alohaMac, sendDelay_le]⟩⟩

theorem crdsa_prompt {slotDur slots : Nat} {shuffle : Nat → List Nat} {replicas : Nat → Nat} (hc : IsCrdsa mac slotDur slots shuffle replicas)
    (hr : ∀ k, 0 < replicas k) : Prompt mac (2 * (slotDur * slots) - 1 - slotDur) := by
  refine Or.inr ⟨hc.1, fun k t => ?_⟩
  obtain ⟨hperm, hd⟩ := hc.2 k
  have hlen : (shuffle k).length = slots := by rw [hperm.length_eq]; simp [Crdsa.slotTable]
  have h := hd t
  unfold Crdsa.sendDelays Crdsa.getSelectedSlots at h
  split at h
  · rename_i hle
    have h' : ((shuffle k).take (replicas k)).map (fun slot => Crdsa.frameDelay t slotDur (shuffle k).length + slot * slotDur) = mac.delays k t := by
      simpa using h
    rw [← h']
    have hpos := hr k
    refine ⟨?_, ?_⟩
    · intro he
      have := congrArg List.length he
      simp only [List.length_map, List.length_take, List.length_nil] at this
      omega
    · intro d hdm
      obtain ⟨j, hj, rfl⟩ := List.mem_map.mp hdm
      have hj' : j < slots := by
        have := hperm.subset (List.mem_of_mem_take hj)
        simpa [Crdsa.slotTable] using this
      rw [hlen]
      rcases Nat.eq_zero_or_pos slotDur with h0 | h0
      · simp [h0, Crdsa.frameDelay]
      · have e : Crdsa.frameDelay t slotDur slots = Aloha.sendDelay t (slotDur * slots) := by
          unfold Crdsa.frameDelay Aloha.sendDelay
          rw [if_pos ⟨by omega, h0⟩, if_pos (Nat.mul_pos h0 (by omega))]
          simp only [Nat.mul_assoc]
        have h1 := sendDelay_le t (slotDur * slots)
        have h2 : (j + 1) * slotDur ≤ slotDur * slots := by rw [Nat.mul_comm slotDur]; exact Nat.mul_le_mul_right _ hj'
        have h3 : slotDur * 1 ≤ slotDur * slots := Nat.mul_le_mul_left _ (by omega)
        rw [Nat.add_mul] at h2
        rw [e]
        omega
  · simp [bind, Outcome.bind] at h

/-- A queue for `K` packets and packets of at most `L` ticks: a packet is on the air at the latest `K * L` ticks after it is accepted without a MAC, ... -/
theorem C94_none {K : UInt32} {bytes : Entry W → Nat} {L : Nat} (hK : 0 < K.toNat) {ops : List (Op W)} {s : Sys W}
    (hL : ∀ y ∈ requests remote power ops, y.2.len ≤ L)
    (h : GroundSta.exec debug noneMac (Queue.dropTail .packets K bytes) remote power ops = some (.ok s)) :
    (∀ f ∈ s.aired, ∃ a, (a, f.2) ∈ s.accepted ∧ a ≤ f.1 ∧ f.1 ≤ a + K.toNat * L) ∧
    (∀ a x, (a, x) ∈ s.accepted → a + K.toNat * L < s.clock → ∃ k, (k, x) ∈ s.aired ∧ a ≤ k ∧ k ≤ a + K.toNat * L) := by
  have := C94_on_air none_prompt (packets_bounded K bytes 0 L) hL h
  have e : ∀ a, a + (K.toNat - 1) * (0 + L) + (0 + L) + 0 = a + K.toNat * L := by
    intro a
    obtain ⟨n, hn⟩ : ∃ n, K.toNat = n + 1 := ⟨K.toNat - 1, by omega⟩
    rw [hn, Nat.add_sub_cancel, Nat.add_mul, Nat.zero_add]
    omega
  simpa only [e] using this

/-- ... with Aloha, `K * (L + slot - 1)` and the wait for its own slot, ... -/
theorem C94_aloha {K : UInt32} {bytes : Entry W → Nat} {L slot : Nat} (hK : 0 < K.toNat) {ops : List (Op W)} {s : Sys W}
    (hL : ∀ y ∈ requests remote power ops, y.2.len ≤ L)
    (h : GroundSta.exec debug (alohaMac slot) (Queue.dropTail .packets K bytes) remote power ops = some (.ok s)) :
    (∀ f ∈ s.aired, ∃ a, (a, f.2) ∈ s.accepted ∧ a ≤ f.1 ∧ f.1 ≤ a + K.toNat * (slot - 1 + L) + (slot - 1)) ∧
    (∀ a x, (a, x) ∈ s.accepted → a + K.toNat * (slot - 1 + L) + (slot - 1) < s.clock →
      ∃ k, (k, x) ∈ s.aired ∧ a ≤ k ∧ k ≤ a + K.toNat * (slot - 1 + L) + (slot - 1)) := by
  have := C94_on_air (aloha_prompt slot) (packets_bounded K bytes (slot - 1) L) hL h
  have e : ∀ a, a + (K.toNat - 1) * (slot - 1 + L) + (slot - 1 + L) + (slot - 1) = a + K.toNat * (slot - 1 + L) + (slot - 1) := by
    intro a
    obtain ⟨n, hn⟩ : ∃ n, K.toNat = n + 1 := ⟨K.toNat - 1, by omega⟩
    rw [hn, Nat.add_sub_cancel, Nat.add_mul n 1]
    omega
  simpa only [e] using this

/-- ... and with CRDSA less than `K * (L + 2 * frame) + 2 * frame`, for every copy. -/
theorem C94_crdsa {slotDur slots : Nat} {shuffle : Nat → List Nat} {replicas : Nat → Nat} (hc : IsCrdsa mac slotDur slots shuffle replicas)
    (hr : ∀ k, 0 < replicas k) {K : UInt32} {bytes : Entry W → Nat} {L : Nat} (hK : 0 < K.toNat) {ops : List (Op W)} {s : Sys W}
    (hL : ∀ y ∈ requests remote power ops, y.2.len ≤ L)
    (h : GroundSta.exec debug mac (Queue.dropTail .packets K bytes) remote power ops = some (.ok s)) :
    (∀ f ∈ s.aired, ∃ a, (a, f.2) ∈ s.accepted ∧ a ≤ f.1 ∧ f.1 ≤ a + K.toNat * (2 * (slotDur * slots) + L) + 2 * (slotDur * slots)) ∧
    (∀ a x, (a, x) ∈ s.accepted → a + K.toNat * (2 * (slotDur * slots) + L) + 2 * (slotDur * slots) < s.clock →
      ∃ k, (k, x) ∈ s.aired ∧ a ≤ k ∧ k ≤ a + K.toNat * (2 * (slotDur * slots) + L) + 2 * (slotDur * slots)) := by
  have hp : Prompt mac (2 * (slotDur * slots)) := by
    rcases crdsa_prompt hc hr with h | ⟨h1, h2⟩
    · exact Or.inl h
    · exact Or.inr ⟨h1, fun k t => ⟨(h2 k t).1, fun d hd => Nat.le_trans ((h2 k t).2 d hd) (by omega)⟩⟩
  have := C94_on_air hp (packets_bounded K bytes (2 * (slotDur * slots)) L) hL h
  have e : ∀ a, a + (K.toNat - 1) * (2 * (slotDur * slots) + L) + (2 * (slotDur * slots) + L) + 2 * (slotDur * slots) =
      a + K.toNat * (2 * (slotDur * slots) + L) + 2 * (slotDur * slots) := by
    intro a
    obtain ⟨n, hn⟩ : ∃ n, K.toNat = n + 1 := ⟨K.toNat - 1, by omega⟩
    rw [hn, Nat.add_sub_cancel, Nat.add_mul n 1]
    omega
  simpa only [e] using this

/-- The bound is reached, for every size of queue and every length: of `K + 1` packets that come at once the last waits `K * L` ticks. -/
theorem C94_none_tight (K : UInt32) (hK : 0 < K.toNat) (L : Nat) (bytes : Entry W → Nat) (remote : SatAddress) (power : W) :
    ∃ (ops : List (Op W)) (s : Sys W) (x : Entry W),
      GroundSta.exec debug noneMac (Queue.dropTail .packets K bytes) remote power ops = some (.ok s) ∧
      (∀ y ∈ requests remote power ops, y.2.len ≤ L) ∧ (0, x) ∈ s.accepted ∧ (K.toNat * L, x) ∈ s.aired := by
  obtain ⟨e, he⟩ : ∃ e : Nat → Entry W, e = fun i => ⟨i, L, remote, 0, power⟩ := ⟨_, rfl⟩
  obtain ⟨N, hN⟩ : ∃ N, N = K.toNat := ⟨_, rfl⟩
  have hsends : ∀ n, n ≤ N → GroundSta.exec debug noneMac (Queue.dropTail .packets K bytes) remote power
      ((List.range (n + 1)).map (fun i => Op.send 0 i L 0)) =
      some (.ok ⟨0, remote, power, (List.range' 1 n).map e, true, [(L, .finish (e 0))], (List.range (n + 1)).map (fun i => (0, e i)), [], [(0, e 0)], [(0, e 0)]⟩) := by
    intro n
    induction n with
    | zero =>
      intro _
      simp [GroundSta.exec, runFrom, GroundSta.step, Sys.init, possible, send, Queue.dropTail, transmitStart, macSend, noneMac, air, insertEvent, he]
      rw [if_neg (by omega)]
    | succ n ih =>
      intro hn
      rw [List.range_succ, List.map_append, List.map_singleton]
      refine runFrom_snoc.mpr ⟨_, ih (by omega), ?_⟩
      rw [step_send]
      refine ⟨by simp [possible], ?_⟩
      unfold send
      have h1 : Queue.dropTail .packets K bytes ((List.range' 1 n).map e) ⟨n + 1, L, remote, 0, power⟩ = true := by
        simp [Queue.dropTail]; omega
      simp only [h1]
      simp [List.range'_concat, List.range_succ, he]
      omega
  have hruns : ∀ j, j ≤ N → GroundSta.exec debug noneMac (Queue.dropTail .packets K bytes) remote power
      ((List.range (N + 1)).map (fun i => Op.send 0 i L 0) ++ List.replicate j Op.run) =
      some (.ok ⟨j * L, remote, power, (List.range' (j + 1) (N - j)).map e, true, [((j + 1) * L, .finish (e j))], (List.range (N + 1)).map (fun i => (0, e i)), [],
        (List.range (j + 1)).map (fun i => (i * L, e i)), (List.range (j + 1)).map (fun i => (i * L, e i))⟩) := by
    intro j
    induction j with
    | zero =>
      intro _
      simpa using hsends N (Nat.le_refl _)
    | succ j ih =>
      intro hj
      rw [List.replicate_succ', ← List.append_assoc]
      refine runFrom_snoc.mpr ⟨_, ih (by omega), ?_⟩
      obtain ⟨m, hm⟩ : ∃ m, N - j = m + 1 := ⟨N - j - 1, by omega⟩
      have hm' : N - (j + 1) = m := by omega
      have hlen : ∀ i, (e i).len = L := by intro i; rw [he]
      have h2 : (j + 1) * L + L = (j + 1 + 1) * L := by rw [Nat.add_mul (j + 1) 1]; omega
      simp [GroundSta.step, transmitComplete, hm, hm', List.range'_succ, transmitStart, macSend, noneMac, air, insertEvent, hlen, h2, List.range_succ]
  refine ⟨_, _, e N, hruns N (Nat.le_refl _), ?_, ?_, ?_⟩
  · intro y hy
    have hmem : ∀ (l : List (Op W)) (a : SatAddress) (w : W), (∀ o ∈ l, o = .run ∨ ∃ t i, o = .send t i L 0) → ∀ y ∈ requests a w l, y.2.len ≤ L := by
      intro l
      induction l with
      | nil => intro a w _ y hy; simp [requests] at hy
      | cons o l ih =>
        intro a w ho y hy
        rcases ho o (by simp) with rfl | ⟨t, i, rfl⟩
        · exact ih a w (fun o h => ho o (by simp [h])) y hy
        · simp only [requests, List.mem_cons] at hy
          rcases hy with rfl | hy
          · exact Nat.le_refl _
          · exact ih a w (fun o h => ho o (by simp [h])) y hy
    refine hmem _ _ _ ?_ y hy
    intro o ho
    rcases List.mem_append.mp ho with ho | ho
    · obtain ⟨i, -, rfl⟩ := List.mem_map.mp ho
      exact Or.inr ⟨0, i, rfl⟩
    · exact Or.inl (List.eq_of_mem_replicate ho)
  · exact List.mem_map.mpr ⟨N, by simp, rfl⟩
  · exact List.mem_map.mpr ⟨N, by simp, by rw [hN]⟩

/-! ### Contents of the queue -/

/-- Whatever holds for the empty queue, survives taking the first packet and is ensured by `Enqueue` holds at every moment. -/
theorem queue_exec {P : List (Entry W) → Prop} (h0 : P []) (htail : ∀ x q, P (x :: q) → P q) (hacc : ∀ q x, accept q x = true → P (q ++ [x]))
    {ops : List (Op W)} {s : Sys W} (h : GroundSta.exec debug mac accept remote power ops = some (.ok s)) : P s.queue := by
  refine run_induction (P := fun _ (s : Sys W) => P s.queue) (by simpa [Sys.init] using h0) ?_ h
  intro ops o s s' _ hp hs
  have hstart : ∀ {s s' : Sys W} {t : Nat}, transmitStart debug mac s t = .ok s' → P s.queue → P s'.queue := by
    intro s s' t hs hp
    obtain ⟨x, rest, hq, rfl⟩ := transmitStart_eq hs
    obtain ⟨-, -, f3, -⟩ := macSend_fields (mac := mac) ({ s with busy := true, queue := rest } : Sys W) t x
    rw [f3]
    rw [hq] at hp
    exact htail _ _ hp
  cases o with
  | setRemote t a => obtain ⟨-, rfl⟩ := step_setRemote.mp hs; exact hp
  | setPower t v => obtain ⟨-, rfl⟩ := step_setPower.mp hs; exact hp
  | send t pkt len proto =>
    obtain ⟨-, hs⟩ := step_send.mp hs
    unfold send at hs
    simp only at hs
    split at hs
    · simp only [Outcome.ok.injEq] at hs
      subst hs
      exact hp
    · rename_i ha
      have hp' := hacc _ _ (Bool.of_not_eq_false ha)
      split at hs
      · simp only [Outcome.ok.injEq] at hs
        subst hs
        exact hp'
      · exact hstart hs hp'
  | run =>
    simp only [GroundSta.step] at hs
    split at hs
    · simp at hs
    · simp only [Option.some.injEq, Outcome.ok.injEq] at hs
      subst hs
      exact hp
    · simp only [Option.some.injEq] at hs
      unfold transmitComplete at hs
      simp only at hs
      split at hs
      · simp only [Outcome.ok.injEq] at hs
        subst hs
        exact hp
      · exact hstart hs hp

/-- What a queue with the given limit may hold. -/
def Fits {X : Type} (unit : Transport.SizeUnit) (max : UInt32) (bytes : X → Nat) (q : List X) : Prop :=
  match unit with
  | .packets => q.length ≤ max.toNat
  | .bytes => (q.map bytes).sum ≤ max.toNat

theorem fits_nil {X : Type} (unit : Transport.SizeUnit) (max : UInt32) (bytes : X → Nat) : Fits unit max bytes [] := by cases unit <;> simp [Fits]

theorem fits_tail {X : Type} {unit : Transport.SizeUnit} {max : UInt32} {bytes : X → Nat} (x : X) (q : List X) (h : Fits unit max bytes (x :: q)) : Fits unit max bytes q := by
  cases unit <;> simp only [Fits, List.length_cons, List.map_cons, List.sum_cons] at h ⊢ <;> omega

theorem fits_accept {X : Type} {unit : Transport.SizeUnit} {max : UInt32} {bytes : X → Nat} (q : List X) (x : X) (h : Queue.dropTail unit max bytes q x = true) :
    Fits unit max bytes (q ++ [x]) := by
  cases unit <;> simpa [Fits, Queue.dropTail] using h

/-- **The queue keeps its limit**, with every MAC. -/
theorem C94_limit {unit : Transport.SizeUnit} {max : UInt32} {bytes : Entry W → Nat} {ops : List (Op W)} {s : Sys W}
    (h : GroundSta.exec debug mac (Queue.dropTail unit max bytes) remote power ops = some (.ok s)) : Fits unit max bytes s.queue :=
  queue_exec (fits_nil _ _ _) fits_tail fits_accept h

/-- The same for the length that the transport reports to NFD and the capacity it has announced (`Transport.capacity`), if the capacity has not wrapped and, for
limits in packets, no packet has more than 1500 bytes. -/
theorem fits_capacity {X : Type} {unit : Transport.SizeUnit} {max : UInt32} {bytes : X → Nat} {q : List X} (h : Fits unit max bytes q)
    (hu : unit = .packets → max.toNat < 2863312 ∧ ∀ x ∈ q, bytes x ≤ 1500) :
    ∃ n c, Queue.sendQueueLength bytes (some q) = .ok n ∧ Transport.capacity (some (unit, max)) = .ok c ∧ n ≤ c := by
  cases unit with
  | bytes => exact ⟨_, _, rfl, rfl, h⟩
  | packets =>
    obtain ⟨h1, h2⟩ := hu rfl
    obtain ⟨c, hc, -⟩ := Transport.C62_packets max
    refine ⟨_, c, rfl, hc, ?_⟩
    refine (Transport.C62_bound max c hc).1 h1 (q.map bytes) (by simpa [Fits] using h) ?_
    intro l hl
    obtain ⟨x, hx, rfl⟩ := List.mem_map.mp hl
    exact h2 x hx

theorem C94_reported {unit : Transport.SizeUnit} {max : UInt32} {bytes : Entry W → Nat} {ops : List (Op W)} {s : Sys W}
    (h : GroundSta.exec debug mac (Queue.dropTail unit max bytes) remote power ops = some (.ok s))
    (hu : unit = .packets → max.toNat < 2863312 ∧ ∀ x ∈ s.queue, bytes x ≤ 1500) :
    ∃ n c, Queue.sendQueueLength bytes (some s.queue) = .ok n ∧ Transport.capacity (some (unit, max)) = .ok c ∧ n ≤ c :=
  fits_capacity (C94_limit h) hu

end

/-- Without these conditions the queue may be reported as holding more than its capacity. -/
def C94_capacity_claim : Prop :=
  ∀ (max : UInt32) (bytes : Entry Nat → Nat) (ops : List (Op Nat)) (s : Sys Nat),
    GroundSta.exec true noneMac (Queue.dropTail .packets max bytes) (SatAddress.mk3 .little 0 0 0) 5 ops = some (.ok s) →
    ∀ n c, Queue.sendQueueLength bytes (some s.queue) = .ok n → Transport.capacity (some (.packets, max)) = .ok c → n ≤ c

theorem C94_capacity_false : ¬ C94_capacity_claim ∧
    ∃ (max : UInt32) (ops : List (Op Nat)) (s : Sys Nat),
      GroundSta.exec true noneMac (Queue.dropTail .packets max (fun _ => 100)) (SatAddress.mk3 .little 0 0 0) 5 ops = some (.ok s) ∧
      Queue.sendQueueLength (fun _ => 100) (some s.queue) = .ok 100 ∧ Transport.capacity (some (.packets, max)) = .ok 0 := by
  constructor
  · intro h
    have := h 1 (fun _ => 2000) [.send 0 1 8 7, .send 0 2 8 7] _ rfl 2000 1500 rfl rfl
    omega
  · exact ⟨1073741824, [.send 0 1 8 7, .send 0 2 8 7], _, rfl, rfl, rfl⟩

/-! ## The devices of the satellites

They behave as the ground station does without a MAC. -/

theorem insertEvent_map {E F : Type} (f : E → F) (t : Nat) (e : E) (l : List (Nat × E)) :
    (insertEvent t e l).map (fun g => (g.1, f g.2)) = insertEvent t (f e) (l.map (fun g => (g.1, f g.2))) := by
  induction l with
  | nil => rfl
  | cons g l ih =>
    simp only [insertEvent, List.map_cons]
    split <;> simp [ih]

section
variable {W : Type} {debug : Bool}

/-- A packet for the ground as a packet of a ground station. -/
def ofDown (x : Sat2Ground.Entry W) : Entry W := ⟨x.pkt, x.len, SatAddress.mk3 .little 0 0 0, x.proto, x.power⟩

def toDown (x : Entry W) : Sat2Ground.Entry W := ⟨x.pkt, x.len, x.proto, x.power⟩

def downOp : Sat2Ground.Op W → Op W
  | .send t pkt len proto => .send t pkt len proto
  | .setPower t w => .setPower t w
  | .run => .run

def downState (s : Sat2Ground.Sys W) : Sys W :=
  ⟨s.clock, SatAddress.mk3 .little 0 0 0, s.power, s.queue.map ofDown, s.busy, s.events.map (fun e => (e.1, .finish (ofDown e.2))),
    s.accepted.map (fun y => (y.1, ofDown y.2)), s.refused.map (fun y => (y.1, ofDown y.2)), s.aired.map (fun y => (y.1, ofDown y.2)),
    s.aired.map (fun y => (y.1, ofDown y.2))⟩

theorem toDown_ofDown (l : List (Sat2Ground.Entry W)) : (l.map ofDown).map toDown = l := by
  rw [List.map_map]
  exact List.map_id l

theorem downStart {s s' : Sat2Ground.Sys W} {t : Nat} {σ : Sys W} (hσ : σ = { downState s with busy := false }) (hb : s.busy = true)
    (h : Sat2Ground.transmitStart debug s t = .ok s') : transmitStart debug noneMac σ t = .ok (downState s') := by
  subst hσ
  unfold Sat2Ground.transmitStart at h
  rw [Outcome.bind_eq_ok] at h
  obtain ⟨_, -, h⟩ := h
  cases hq : s.queue with
  | nil => simp [hq] at h
  | cons x rest =>
    simp only [hq, Outcome.ok.injEq] at h
    subst h
    have hins := insertEvent_map (fun y : Sat2Ground.Entry W => Ev.finish (ofDown y)) (t + x.len) x s.events
    simp only [transmitStart, downState, hq, List.map_cons, Bool.not_false, Outcome.nsAssert_true, macSend, noneMac, if_true, air, List.map_append, List.map_nil,
      hins, hb]
    rfl

theorem down_sim {accept : List (Sat2Ground.Entry W) → Sat2Ground.Entry W → Bool} {power : W} {ops : List (Sat2Ground.Op W)} {s : Sat2Ground.Sys W}
    (h : Sat2Ground.exec debug accept power ops = some (.ok s)) :
    GroundSta.exec debug noneMac (fun q x => accept (q.map toDown) (toDown x)) (SatAddress.mk3 .little 0 0 0) power (ops.map downOp) = some (.ok (downState s)) := by
  refine (run_induction (P := fun ops (s : Sat2Ground.Sys W) => Sat2Ground.Phase s ∧
    GroundSta.exec debug noneMac (fun q x => accept (q.map toDown) (toDown x)) (SatAddress.mk3 .little 0 0 0) power (ops.map downOp) = some (.ok (downState s)))
    ⟨.idle rfl rfl rfl rfl (Nat.le_refl _), rfl⟩ ?_ h).2
  intro ops o s s' _ hp hs
  obtain ⟨hph, he⟩ := hp
  obtain ⟨s2, h1, h2⟩ := hph.step hs
  simp only [Outcome.ok.injEq] at h1
  subst h1
  refine ⟨h2, ?_⟩
  rw [List.map_append, List.map_singleton]
  refine runFrom_snoc.mpr ⟨_, he, ?_⟩
  have hposs : ∀ t, Sat2Ground.possible s t → possible (downState s) t := by
    intro t ⟨h1, h2⟩
    refine ⟨h1, ?_⟩
    intro e he
    obtain ⟨g, hg, rfl⟩ := List.mem_map.mp he
    exact h2 g hg
  cases o with
  | setPower t w =>
    simp only [Sat2Ground.step] at hs
    split at hs
    · rename_i hp
      simp only [Option.some.injEq, Outcome.ok.injEq] at hs
      subst hs
      exact step_setPower.mpr ⟨hposs t hp, rfl⟩
    · simp at hs
  | send t pkt len proto =>
    simp only [Sat2Ground.step] at hs
    split at hs
    · rename_i hp
      simp only [Option.some.injEq] at hs
      refine step_send.mpr ⟨hposs t hp, ?_⟩
      unfold Sat2Ground.send at hs
      unfold send
      have hacc : accept (((downState s).queue).map toDown) (toDown ⟨pkt, len, (downState s).remote, proto, (downState s).power⟩) =
          accept s.queue ⟨pkt, len, proto, s.power⟩ := by
        simp only [downState, toDown_ofDown]
        rfl
      simp only [hacc]
      simp only at hs
      split at hs
      · rename_i ha
        simp only [Outcome.ok.injEq] at hs
        subst hs
        rw [if_pos ha]
        simp [downState, ofDown]
      · rename_i ha
        rw [if_neg ha]
        split at hs
        · rename_i hb
          simp only [Outcome.ok.injEq] at hs
          subst hs
          rw [if_pos (by simpa [downState] using hb)]
          simp [downState, ofDown]
        · rename_i hb
          rw [if_neg (by simpa [downState] using hb)]
          refine downStart ?_ rfl hs
          simp only [Bool.not_eq_true] at hb
          simp [downState, ofDown, hb]
    · simp at hs
  | run =>
    simp only [Sat2Ground.step] at hs
    cases hph with
    | idle h1 h2 h3 h4 h5 => rw [h3] at hs; simp at hs
    | onAir done w x h1 h2 h3 h4 h5 h6 h7 =>
      rw [h5] at hs
      simp only [Option.some.injEq] at hs
      have hev : (downState s).events = [(Fifo.freeAfter Sat2Ground.Entry.len (fun _ _ => 0) 0 0 done, .finish (ofDown x))] := by simp [downState, h5]
      simp only [downOp, GroundSta.step, hev, Option.some.injEq]
      unfold Sat2Ground.transmitComplete at hs
      unfold transmitComplete
      simp only at hs
      split at hs
      · rename_i hq
        simp only [Outcome.ok.injEq] at hs
        subst hs
        rw [if_pos (by simpa [downState] using hq)]
        simp [downState]
      · rename_i hq
        rw [if_neg (by simpa [downState] using hq)]
        refine downStart ?_ ?_ hs
        · simp [downState]
        · exact h1

/-- **The satellite's device towards the ground**: a packet is on the air at the latest `K * L` ticks after it is accepted; ... -/
theorem C94_down {K : UInt32} {bytes : Sat2Ground.Entry W → Nat} {power : W} {L : Nat} (hK : 0 < K.toNat) {ops : List (Sat2Ground.Op W)} {s : Sat2Ground.Sys W}
    (hL : ∀ y ∈ broadcasts power ops, y.2.len ≤ L) (h : Sat2Ground.exec debug (Queue.dropTail .packets K bytes) power ops = some (.ok s)) :
    (∀ f ∈ s.aired, ∃ a, (a, f.2) ∈ s.accepted ∧ a ≤ f.1 ∧ f.1 ≤ a + K.toNat * L) ∧
    (∀ a x, (a, x) ∈ s.accepted → a + K.toNat * L < s.clock → ∃ k, (k, x) ∈ s.aired ∧ a ≤ k ∧ k ≤ a + K.toNat * L) := by
  have hsim := down_sim h
  have hacc : (fun (q : List (Entry W)) (x : Entry W) => Queue.dropTail .packets K bytes (q.map toDown) (toDown x)) =
      Queue.dropTail .packets K (fun x => bytes (toDown x)) := by
    funext q x
    simp [Queue.dropTail]
  rw [hacc] at hsim
  have hreq : ∀ (ops : List (Sat2Ground.Op W)) (w : W), requests (SatAddress.mk3 .little 0 0 0) w (ops.map downOp) = (broadcasts w ops).map (fun y => (y.1, ofDown y.2)) := by
    intro ops
    induction ops with
    | nil => intro w; rfl
    | cons o ops ih => intro w; cases o <;> simp [downOp, requests, broadcasts, ih, ofDown]
  have hinj : ∀ x y : Sat2Ground.Entry W, ofDown x = ofDown y → x = y := by
    intro x y hxy
    have := congrArg toDown hxy
    exact this
  obtain ⟨h1, h2⟩ := C94_none hK (L := L) (by
    intro y hy
    rw [hreq] at hy
    obtain ⟨z, hz, rfl⟩ := List.mem_map.mp hy
    exact hL z hz) hsim
  constructor
  · intro f hf
    obtain ⟨a, ha, h3⟩ := h1 (f.1, ofDown f.2) (List.mem_map.mpr ⟨f, hf, rfl⟩)
    obtain ⟨z, hz, heq⟩ := List.mem_map.mp ha
    simp only [Prod.mk.injEq] at heq
    obtain ⟨rfl, heq⟩ := heq
    have := hinj _ _ heq
    exact ⟨z.1, by rw [← this]; exact hz, h3⟩
  · intro a x hx hlate
    obtain ⟨k, hk, h3⟩ := h2 a (ofDown x) (List.mem_map.mpr ⟨(a, x), hx, rfl⟩) hlate
    obtain ⟨z, hz, heq⟩ := List.mem_map.mp hk
    simp only [Prod.mk.injEq] at heq
    obtain ⟨rfl, heq⟩ := heq
    have := hinj _ _ heq
    exact ⟨z.1, by rw [← this]; exact hz, h3⟩

/-- ... and its queue keeps its limit. -/
theorem C94_down_limit {unit : Transport.SizeUnit} {max : UInt32} {bytes : Sat2Ground.Entry W → Nat} {power : W} {ops : List (Sat2Ground.Op W)} {s : Sat2Ground.Sys W}
    (h : Sat2Ground.exec debug (Queue.dropTail unit max bytes) power ops = some (.ok s)) :
    Fits unit max bytes s.queue ∧ ((unit = .packets → max.toNat < 2863312 ∧ ∀ x ∈ s.queue, bytes x ≤ 1500) →
      ∃ n c, Queue.sendQueueLength bytes (some s.queue) = .ok n ∧ Transport.capacity (some (unit, max)) = .ok c ∧ n ≤ c) := by
  have hsim := down_sim h
  have hacc : (fun (q : List (Entry W)) (x : Entry W) => Queue.dropTail unit max bytes (q.map toDown) (toDown x)) =
      Queue.dropTail unit max (fun x => bytes (toDown x)) := by
    funext q x
    cases unit <;> simp [Queue.dropTail, Function.comp_def]
  rw [hacc] at hsim
  have hfit := C94_limit hsim
  have h1 : Fits unit max bytes s.queue := by
    cases unit
    · simpa [Fits, downState, Function.comp_def, toDown, ofDown] using hfit
    · simpa [Fits, downState] using hfit
  exact ⟨h1, fun hu => fits_capacity h1 hu⟩

end

/-! ### Links between satellites -/

section
variable {debug : Bool}

def ofIsl (x : SatNet.Entry) : Entry Unit := ⟨x.pkt, x.len, SatAddress.mk3 .little 0 0 0, x.proto, ()⟩

def toIsl (x : Entry Unit) : SatNet.Entry := ⟨x.pkt, x.len, x.proto⟩

def islOp : SatNet.Op → Op Unit
  | .send t pkt len proto => .send t pkt len proto
  | .run => .run

/-- The two devices have the same queue, state and history, and their events the same times. -/
structure IslLike (s : SatNet.Sys) (σ : Sys Unit) : Prop where
  clock : σ.clock = s.clock
  remote : σ.remote = SatAddress.mk3 .little 0 0 0
  queue : σ.queue = s.queue.map ofIsl
  busy : σ.busy = s.busy
  times : σ.events.map (fun e => (e.1, ())) = s.events.map (fun e => (e.1, ()))
  finish : ∀ e ∈ σ.events, ∃ x, e.2 = .finish x
  accepted : σ.accepted = s.accepted.map (fun y => (y.1, ofIsl y.2.1))
  aired : σ.aired = s.aired.map (fun y => (y.1, ofIsl y.2.1))

theorem islStart {s s' : SatNet.Sys} {t : Nat} {x : SatNet.Entry} {p : UInt16} {σ : Sys Unit} (h : IslLike s { σ with queue := s.queue.map ofIsl })
    (hq : σ.queue = ofIsl x :: s.queue.map ofIsl) (hb : s.busy = false) (hs : SatNet.transmitStart debug s t x p = .ok s') :
    ∃ σ', transmitStart debug noneMac σ t = .ok σ' ∧ IslLike s' σ' := by
  have h4 : σ.busy = false := by rw [← hb]; exact h.busy
  refine ⟨air { σ with busy := true, queue := s.queue.map ofIsl, handed := σ.handed ++ [(t, ofIsl x)] } t (ofIsl x), ?_, ?_⟩
  · simp [transmitStart, h4, hq, macSend, noneMac]
  · unfold SatNet.transmitStart at hs
    rw [Outcome.bind_eq_ok] at hs
    obtain ⟨_, -, hs⟩ := hs
    simp only [Outcome.ok.injEq] at hs
    subst hs
    refine ⟨h.clock, h.remote, rfl, rfl, ?_, ?_, h.accepted, ?_⟩
    · have h5 := h.times
      simp only [air]
      rw [insertEvent_map (fun _ => ()), insertEvent_map (fun _ => ())]
      exact congrArg _ h5
    · intro e he
      rcases mem_insertEvent.mp he with rfl | he
      · exact ⟨_, rfl⟩
      · exact h.finish e he
    · have := h.aired
      simp only at this
      simp [air, this]

theorem isl_sim {accept : List SatNet.Entry → SatNet.Entry → Bool} {ops : List SatNet.Op} {s : SatNet.Sys} (h : SatNet.exec debug accept ops = some (.ok s)) :
    ∃ σ, GroundSta.exec debug noneMac (fun q x => accept (q.map toIsl) (toIsl x)) (SatAddress.mk3 .little 0 0 0) () (ops.map islOp) = some (.ok σ) ∧ IslLike s σ := by
  refine run_induction (P := fun ops (s : SatNet.Sys) => ∃ σ,
    GroundSta.exec debug noneMac (fun q x => accept (q.map toIsl) (toIsl x)) (SatAddress.mk3 .little 0 0 0) () (ops.map islOp) = some (.ok σ) ∧ IslLike s σ) ?_ ?_ h
  · exact ⟨_, rfl, rfl, rfl, rfl, rfl, rfl, by simp [Sys.init], rfl, rfl⟩
  · intro ops o s s' hrun hp hs
    obtain ⟨σ, he, hr⟩ := hp
    have hph := SatNet.phase_exec hrun
    have hgoal : (∃ σ', GroundSta.step debug noneMac (fun q x => accept (q.map toIsl) (toIsl x)) σ (islOp o) = some (.ok σ') ∧ IslLike s' σ') →
        ∃ σ', GroundSta.exec debug noneMac (fun q x => accept (q.map toIsl) (toIsl x)) (SatAddress.mk3 .little 0 0 0) () ((ops ++ [o]).map islOp) = some (.ok σ') ∧
          IslLike s' σ' := by
      rintro ⟨σ', h1, h2⟩
      refine ⟨σ', ?_, h2⟩
      rw [List.map_append, List.map_singleton]
      exact runFrom_snoc.mpr ⟨_, he, h1⟩
    apply hgoal
    have hmap : ∀ l : List SatNet.Entry, (l.map ofIsl).map toIsl = l := by
      intro l
      rw [List.map_map]
      exact List.map_id l
    cases o with
    | send t pkt len proto =>
      simp only [SatNet.step] at hs
      split at hs
      · rename_i hp
        simp only [Option.some.injEq] at hs
        have hposs : possible σ t := by
          refine ⟨by rw [hr.clock]; exact hp.1, ?_⟩
          intro e he
          have h1 : (e.1, ()) ∈ s.events.map (fun e => (e.1, ())) := by rw [← hr.times]; exact List.mem_map.mpr ⟨e, he, rfl⟩
          obtain ⟨g, hg, h2⟩ := List.mem_map.mp h1
          simp only [Prod.mk.injEq, and_true] at h2
          have := hp.2 g hg
          omega
        have hacc : accept (σ.queue.map toIsl) (toIsl ⟨pkt, len, σ.remote, proto, σ.power⟩) = accept s.queue ⟨pkt, len, proto⟩ := by
          rw [hr.queue, hmap]
          rfl
        have hx : (⟨pkt, len, σ.remote, proto, σ.power⟩ : Entry Unit) = ofIsl ⟨pkt, len, proto⟩ := by
          rw [hr.remote]; rfl
        suffices hsend : ∃ σ', send debug noneMac (fun q x => accept (q.map toIsl) (toIsl x)) σ t pkt len proto = .ok σ' ∧ IslLike s' σ' by
          obtain ⟨σ', h1, h2⟩ := hsend
          exact ⟨σ', step_send.mpr ⟨hposs, h1⟩, h2⟩
        unfold SatNet.send at hs
        unfold send
        simp only [hacc]
        simp only at hs
        split at hs
        · rename_i ha
          simp only [Outcome.ok.injEq] at hs
          subst hs
          rw [if_pos ha]
          exact ⟨_, rfl, rfl, hr.remote, hr.queue, hr.busy, hr.times, hr.finish, hr.accepted, hr.aired⟩
        · rename_i ha
          rw [if_neg ha]
          split at hs
          · rename_i hb
            simp only [Outcome.ok.injEq] at hs
            subst hs
            rw [if_pos (by rw [hr.busy]; exact hb)]
            refine ⟨_, rfl, rfl, hr.remote, ?_, hr.busy, hr.times, hr.finish, ?_, hr.aired⟩
            · simp [hr.queue, hx]
            · simp [hr.accepted, hx]
          · rename_i hb
            simp only [Bool.not_eq_true] at hb
            rw [if_neg (by rw [hr.busy]; simpa using hb)]
            cases hph with
            | onAir done w h1 => rw [h1] at hb; simp at hb
            | idle h1 h2 h3 h4 h5 h6 h7 =>
              simp only [h2, List.nil_append] at hs
              refine islStart ?_ ?_ ?_ hs
              · refine ⟨rfl, hr.remote, rfl, hr.busy, hr.times, hr.finish, ?_, hr.aired⟩
                simp [hr.accepted, hx]
              · simp [hr.queue, h2, hx]
              · exact hb
      · simp at hs
    | run =>
      simp only [SatNet.step] at hs
      cases hph with
      | idle h1 h2 h3 h4 h5 h6 h7 => rw [h3] at hs; simp at hs
      | onAir done w h1 h2 h3 h4 h5 h6 h7 h8 h9 h10 h11 =>
        rw [h9] at hs
        simp only [Option.some.injEq] at hs
        have hev : ∃ x, σ.events = [(freeAt done, .finish x)] := by
          have h12 := hr.times
          rw [h9] at h12
          cases hσ : σ.events with
          | nil => rw [hσ] at h12; simp at h12
          | cons e es =>
            rw [hσ] at h12
            simp only [List.map_cons, List.map_nil, List.cons.injEq, Prod.mk.injEq, and_true, List.map_eq_nil_iff] at h12
            obtain ⟨x, hx⟩ := hr.finish e (by rw [hσ]; simp)
            refine ⟨x, ?_⟩
            rw [h12.2, ← h12.1, ← hx]
        obtain ⟨x, hev⟩ := hev
        simp only [islOp, GroundSta.step, hev, Option.some.injEq]
        unfold SatNet.transmitComplete at hs
        unfold transmitComplete
        simp only at hs
        split at hs
        · rename_i hq
          simp only [Outcome.ok.injEq] at hs
          subst hs
          rw [if_pos (by simp [hr.queue, hq])]
          exact ⟨_, rfl, rfl, hr.remote, by simp [hr.queue], rfl, rfl, by simp, hr.accepted, hr.aired⟩
        · rename_i y rest hq
          rw [if_neg (by simp [hr.queue, hq])]
          refine islStart ?_ ?_ rfl hs
          · exact ⟨rfl, hr.remote, rfl, rfl, rfl, by simp, hr.accepted, hr.aired⟩
          · simp [hr.queue, hq]

/-- **The device between satellites**: a packet is given to the channel at the latest `K * L` ticks after it is accepted; ... -/
theorem C94_isl {K : UInt32} {bytes : SatNet.Entry → Nat} {L : Nat} (hK : 0 < K.toNat) {ops : List SatNet.Op} {s : SatNet.Sys}
    (hL : ∀ y ∈ isends ops, y.2.len ≤ L) (h : SatNet.exec debug (Queue.dropTail .packets K bytes) ops = some (.ok s)) :
    (∀ f ∈ s.aired, ∃ y ∈ s.accepted, y.2.1 = f.2.1 ∧ y.1 ≤ f.1 ∧ f.1 ≤ y.1 + K.toNat * L) ∧
    (∀ y ∈ s.accepted, y.1 + K.toNat * L < s.clock → ∃ f ∈ s.aired, f.2.1 = y.2.1 ∧ y.1 ≤ f.1 ∧ f.1 ≤ y.1 + K.toNat * L) := by
  obtain ⟨σ, hsim, hr⟩ := isl_sim h
  have hacc : (fun (q : List (Entry Unit)) (x : Entry Unit) => Queue.dropTail .packets K bytes (q.map toIsl) (toIsl x)) =
      Queue.dropTail .packets K (fun x => bytes (toIsl x)) := by
    funext q x
    simp [Queue.dropTail]
  rw [hacc] at hsim
  have hreq : ∀ (ops : List SatNet.Op), requests (SatAddress.mk3 .little 0 0 0) () (ops.map islOp) = (isends ops).map (fun y => (y.1, ofIsl y.2)) := by
    intro ops
    induction ops with
    | nil => rfl
    | cons o ops ih => cases o <;> simp [islOp, requests, isends, ih, ofIsl]
  have hinj : ∀ x y : SatNet.Entry, ofIsl x = ofIsl y → x = y := by
    intro x y hxy
    exact congrArg toIsl hxy
  obtain ⟨h1, h2⟩ := C94_none hK (L := L) (by
    intro y hy
    rw [hreq] at hy
    obtain ⟨z, hz, rfl⟩ := List.mem_map.mp hy
    exact hL z hz) hsim
  rw [hr.aired, hr.accepted] at h1 h2
  constructor
  · intro f hf
    obtain ⟨a, ha, h3⟩ := h1 (f.1, ofIsl f.2.1) (List.mem_map.mpr ⟨f, hf, rfl⟩)
    obtain ⟨z, hz, heq⟩ := List.mem_map.mp ha
    simp only [Prod.mk.injEq] at heq
    obtain ⟨rfl, heq⟩ := heq
    exact ⟨z, hz, hinj _ _ heq, h3⟩
  · intro y hy hlate
    obtain ⟨k, hk, h3⟩ := h2 y.1 (ofIsl y.2.1) (List.mem_map.mpr ⟨y, hy, rfl⟩) (by rw [hr.clock]; exact hlate)
    obtain ⟨z, hz, heq⟩ := List.mem_map.mp hk
    simp only [Prod.mk.injEq] at heq
    obtain ⟨rfl, heq⟩ := heq
    exact ⟨z, hz, hinj _ _ heq, h3⟩

/-- ... and its queue keeps its limit. -/
theorem C94_isl_limit {unit : Transport.SizeUnit} {max : UInt32} {bytes : SatNet.Entry → Nat} {ops : List SatNet.Op} {s : SatNet.Sys}
    (h : SatNet.exec debug (Queue.dropTail unit max bytes) ops = some (.ok s)) : Fits unit max bytes s.queue := by
  obtain ⟨σ, hsim, hr⟩ := isl_sim h
  have hacc : (fun (q : List (Entry Unit)) (x : Entry Unit) => Queue.dropTail unit max bytes (q.map toIsl) (toIsl x)) =
      Queue.dropTail unit max (fun x => bytes (toIsl x)) := by
    funext q x
    cases unit <;> simp [Queue.dropTail, Function.comp_def]
  rw [hacc] at hsim
  have hfit := C94_limit hsim
  rw [hr.queue] at hfit
  cases unit
  · simpa [Fits, Function.comp_def, toIsl, ofIsl] using hfit
  · simpa [Fits] using hfit

end

/-! ## Concrete cases -/

/-- The station of the examples of C34, with a queue for one packet: the bound `1 * 8` is reached by packet 2. -/
example : ∃ s, GroundSta.exec true noneMac (Queue.dropTail .packets 1 (fun _ => 100)) (SatAddress.mk3 .little 0 0 0) 5
      [.send 0 1 8 7, .send 0 2 8 9, .send 1 3 8 9, .run, .run, .send 30 4 8 7, .run] = some (.ok s) ∧
    s.aired.map (fun f => (f.1, f.2.pkt)) = [(0, 1), (8, 2), (30, 4)] ∧ s.refused.map (fun f => f.2.pkt) = [3] ∧
    (∀ y ∈ requests (SatAddress.mk3 .little 0 0 0) 5 [.send 0 1 8 7, .send 0 2 8 9, .send 1 3 8 9, .run, .run, .send 30 4 8 7, .run], y.2.len ≤ 8) ∧ s.clock = 38 := by
  refine ⟨_, rfl, ?_⟩; decide

example : ∃ s, GroundSta.exec true (alohaMac 20) (Queue.dropTail .bytes 200 (fun _ => 100)) (SatAddress.mk3 .little 0 0 0) 5
      [.send 1 1 8 7, .send 1 2 8 9, .send 1 3 8 9, .send 1 4 8 9, .run, .run, .run, .run, .run, .run] = some (.ok s) ∧
    s.aired.map (fun f => (f.1, f.2.pkt)) = [(20, 1), (40, 2), (60, 3)] ∧ s.refused.map (fun f => f.2.pkt) = [4] := by
  refine ⟨_, rfl, ?_⟩; decide

example : Prompt twoReplicas (2 * (10 * 4) - 1 - 10) := crdsa_prompt twoReplicas_crdsa (fun _ => by omega)

example : ∃ s, Sat2Ground.exec true (Queue.dropTail .packets 1 (fun _ => 100)) 5 downOps = some (.ok s) ∧ (∀ y ∈ broadcasts 5 downOps, y.2.len ≤ 8) ∧ s.clock = 38 := by
  refine ⟨_, rfl, ?_⟩; decide

example : ∃ s, SatNet.exec true (Queue.dropTail .packets 2 (fun _ => 100)) [.send 0 1 10 7, .send 5 2 10 9, .run, .run] = some (.ok s) ∧
    s.aired.map (fun f => (f.1, f.2.1.pkt)) = [(0, 1), (10, 2)] := by
  refine ⟨_, rfl, ?_⟩; decide

example : 0 < (100 : UInt32).toNat ∧ (100 : UInt32).toNat < 2863312 := by decide

end QueueDelay
end Icarus
