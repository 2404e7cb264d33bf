import Verif.Lemmas.Aloha
import Verif.Model.AlohaSir
import Verif.Model.NoneMac
import Mathlib.Algebra.Order.Group.Defs
import Mathlib.Algebra.Order.BigOperators.Group.List
import Mathlib.Algebra.Order.Group.Int

/-!
# Properties C17 – C20, C27: Aloha and pass-through MAC

`frames ops` are the frames that arrived during `ops`, `busyPeriod ops` those since the receiver was last idle, `Overlap` is overlap of
the half-open reception intervals (all three in `Verif.Lemmas.Aloha`, defined without reference to the receiver).
-/

set_option autoImplicit false

namespace Icarus
open Aloha

/-! ## C17 -/

/-- With a positive slot (of fewer than 2^64 ticks) the transmission starts at the earliest multiple of the slot that is not before now; the
wait is less than one slot; the end notification follows one transmission time later. -/
theorem C17_slotted (now slot txTime : Nat) (hs : 0 < slot) (hb : slot < 2 ^ 64) :
    let start := (sendCallbacks now slot txTime).1
    slot ∣ start ∧ now ≤ start ∧ (∀ t, slot ∣ t → now ≤ t → start ≤ t) ∧ start < now + slot ∧
    (slot ∣ now → start = now) ∧ (sendCallbacks now slot txTime).2 = start + txTime := by
  have hdm := Nat.div_add_mod now slot
  have hml := Nat.mod_lt now hs
  have hlow : (quotient now slot).2 > 0 ↔ now % slot ≠ 0 := by
    unfold quotient
    constructor
    · intro h h0; rw [h0] at h; simp at h
    · intro h
      apply Nat.div_pos _ hs
      calc slot ≤ 1 * 2 ^ 64 := by omega
        _ ≤ now % slot * 2 ^ 64 := Nat.mul_le_mul_right _ (by omega)
  have key : now + sendDelay now slot = if now % slot = 0 then now else (now / slot + 1) * slot := by
    unfold sendDelay
    rw [if_pos hs]
    by_cases h0 : now % slot = 0
    · rw [if_neg (by rw [hlow]; simpa using h0), if_pos h0]; rfl
    · rw [if_pos (hlow.mpr h0), if_neg h0]
      have : (now / slot + 1) * slot = slot * (now / slot) + slot := by rw [Nat.add_mul, Nat.mul_comm]; omega
      simp only [quotient]; omega
  have hmul : (now / slot + 1) * slot = slot * (now / slot) + slot := by rw [Nat.add_mul, Nat.mul_comm]; omega
  simp only [sendCallbacks]
  rw [key]
  refine ⟨?_, ?_, ?_, ?_, ?_, trivial⟩
  · split
    · rename_i h; exact Nat.dvd_of_mod_eq_zero h
    · exact Nat.dvd_mul_left _ _
  · split <;> omega
  · rintro t ⟨k, rfl⟩ hle
    split
    · exact hle
    · rename_i h
      rw [Nat.mul_comm slot k]
      apply Nat.mul_le_mul_right
      by_contra hk
      have hk : k ≤ now / slot := by omega
      have := Nat.mul_le_mul_left slot hk
      omega
  · split <;> omega
  · intro h; rw [if_pos (Nat.mod_eq_zero_of_dvd h)]

/-- Without slots the transmission starts at once. -/
theorem C17_unslotted (now txTime : Nat) : sendCallbacks now 0 txTime = (now, now + txTime) := rfl

example : sendCallbacks 2500 1000 70 = (3000, 3070) ∧ sendCallbacks 3000 1000 70 = (3000, 3070) := by decide

/-! ## C19 (used by the others) -/

section
variable {P : Type} [Zero P] [Add P]

/-- A receiver created at time `t`. -/
def freshAt (t : Nat) : Sys P := ⟨t, Rx.init, [], []⟩

/-- Whatever happened before (under any order of simultaneous events): if nothing is being received, every continuation is possible exactly
when it is possible with a new receiver, and then delivers exactly the same frames at the same times. -/
theorem C19_idle_memoryless {ties : Bool} {lost : P → P → Bool} {ops : List (Op P)} {s : Sys P}
    (h : exec ties lost ops = some s) (hnd : ((frames ops).map Frame.uid).Nodup) (hidle : s.pending = [])
    (future : List (Op P)) :
    (execFrom ties lost s future).map Sys.delivered =
      (execFrom ties lost (freshAt s.clock) future).map (fun r => s.delivered ++ r.delivered) := by
  have b := base_exec h (apart_of_nodup hnd)
  have key : ∀ (future : List (Op P)) (s1 s2 : Sys P) (d : List (Nat × Nat)),
      s1.clock = s2.clock → s1.pending = s2.pending → s1.delivered = d ++ s2.delivered →
      (s1.rx = s2.rx ∨ s1.pending = [] ∧ s1.rx.uid = none ∧ s2.rx.uid = none ∧ s1.rx.collision = false ∧ s2.rx.collision = false) →
      (execFrom ties lost s1 future).map Sys.delivered = (execFrom ties lost s2 future).map (fun r => d ++ r.delivered) := by
    intro future
    induction future with
    | nil => intro s1 s2 d _ _ h3 _; simp [execFrom, h3]
    | cons o os ih =>
      intro s1 s2 d hc hp hdl hrx
      simp only [execFrom]
      cases o with
      | arrive f =>
        simp only [step]
        rw [hc, hp]
        split
        · simp only [Option.bind_some]
          apply ih
          · rfl
          · rfl
          · exact hdl
          · left
            rcases hrx with hrx | ⟨-, u1, u2, c1, c2⟩
            · simp only [hrx]
            · simp [startRx, u1, u2, c1, c2]
        · rfl
      | finish =>
        simp only [step]
        rw [hp]
        cases hp2 : s2.pending with
        | nil => rfl
        | cons f rest =>
          simp only [Option.bind_some]
          have hrx' : s1.rx = s2.rx := by
            rcases hrx with hrx | ⟨h0, -⟩
            · exact hrx
            · rw [hp, hp2] at h0; simp at h0
          apply ih
          · rfl
          · rfl
          · simp only [hrx', hdl, List.append_assoc]
          · left; simp only [hrx']
  have hu := b.uid_eq
  rw [hidle] at hu
  exact key future s (freshAt s.clock) s.delivered rfl hidle (by simp [freshAt])
    (Or.inr ⟨hidle, by simpa using hu, rfl, b.idle hidle, rfl⟩)

/-- The interference power, which the constructor leaves uninitialised, is assigned whenever a reception ends (so reading it there is
defined). -/
theorem C19_interference_assigned {ties : Bool} {lost : P → P → Bool} {ops : List (Op P)} {s : Sys P}
    (h : exec ties lost ops = some s) (hnd : ((frames ops).map Frame.uid).Nodup) (hbusy : s.pending ≠ []) :
    s.rx.interf.isSome = true := (base_exec h (apart_of_nodup hnd)).interf hbusy

end

/-! ## C20 -/

theorem sum_split {P : Type} [AddCommMonoid P] (l : List (Frame P)) (f : Frame P) (hf : f ∈ l) (hnd : (l.map Frame.uid).Nodup) :
    (l.map Frame.pow).sum = f.pow + ((l.filter (fun g => g.uid ≠ f.uid)).map Frame.pow).sum := by
  induction l with
  | nil => simp at hf
  | cons x xs ih =>
    rw [List.map_cons, List.nodup_cons] at hnd
    rcases List.mem_cons.mp hf with rfl | hf
    · have : xs.filter (fun g => g.uid ≠ f.uid) = xs := by
        rw [List.filter_eq_self]
        intro g hg
        simp only [decide_eq_true_eq]
        intro he
        exact hnd.1 (List.mem_map.mpr ⟨g, hg, he⟩)
      rw [List.filter_cons_of_neg (by simp), this]
      simp
    · have hne : x.uid ≠ f.uid := by
        intro he
        exact hnd.1 (List.mem_map.mpr ⟨f, hf, he.symm⟩)
      rw [List.filter_cons_of_pos (by simpa using hne)]
      simp only [List.map_cons, List.sum_cons]
      rw [ih hf hnd.2]
      rw [← add_assoc, ← add_assoc, add_comm x.pow]

/-- Decision when a reception ends, for any test `lost`: the frame is passed up unless other frames were received in the same busy period
and the test on its power and the total power of the busy period says so. -/
theorem finish_total {P : Type} [Zero P] [Add P] {lost : P → P → Bool} {ops : List (Op P)} {s : Sys P}
    (h : exec false lost ops = some s) (hnd : ((frames ops).map Frame.uid).Nodup) (hd : ∀ f ∈ frames ops, 0 < f.dur)
    {f : Frame P} {rest : List (Frame P)} (hp : s.pending = f :: rest) :
    f ∈ busyPeriod ops ∧ ((busyPeriod ops).map Frame.uid).Nodup ∧
    ∃ s', step false lost s .finish = some s' ∧ s'.delivered = s.delivered ++
      (if (2 ≤ (busyPeriod ops).length ∧ lost f.pow (total ((busyPeriod ops).map Frame.pow)) = true) then [] else [(f.fin, f.uid)]) := by
  have c := busy_exec h (apart_of_nodup hnd) hd
  have hpne : s.pending ≠ [] := by simp [hp]
  refine ⟨c.pend f (by simp [hp]), c.nodup hnd, ?_⟩
  have hi := c.interf hpne
  have hcol := c.collision hpne
  have hup : (finishRx lost s.rx f).2 =
      !(decide (2 ≤ (busyPeriod ops).length) && lost f.pow (total ((busyPeriod ops).map Frame.pow))) := by
    have hc : s.rx.collision = decide (2 ≤ (busyPeriod ops).length) := by
      rw [Bool.eq_iff_iff, hcol, decide_eq_true_eq]; rfl
    simp only [finishRx, hi, hc]; rfl
  simp only [step, hp]
  refine ⟨_, rfl, ?_⟩
  simp only [hup]
  congr 1
  by_cases h2 : 2 ≤ (busyPeriod ops).length <;>
    by_cases hl : lost f.pow (total ((busyPeriod ops).map Frame.pow)) = true <;> simp [h2, hl]

theorem finish_decision {P : Type} [AddCommMonoid P] {lost : P → P → Bool} {ops : List (Op P)} {s : Sys P}
    (h : exec false lost ops = some s) (hnd : ((frames ops).map Frame.uid).Nodup) (hd : ∀ f ∈ frames ops, 0 < f.dur)
    {f : Frame P} {rest : List (Frame P)} (hp : s.pending = f :: rest) :
    f ∈ busyPeriod ops ∧ ((busyPeriod ops).map Frame.uid).Nodup ∧
    ∃ s', step false lost s .finish = some s' ∧ s'.delivered = s.delivered ++
      (if (2 ≤ (busyPeriod ops).length ∧ lost f.pow ((busyPeriod ops).map Frame.pow).sum = true) then [] else [(f.fin, f.uid)]) := by
  have := finish_total h hnd hd hp
  rwa [total_eq_sum] at this

/-- A frame whose reception ends is passed up iff it is alone in its busy period or its power is at least the threshold ratio times the summed
power of all other frames received so far in the busy period (`10 ^ (t / 10)` is the threshold in linear units). -/
theorem C20_capture (t : ℝ) {ops : List (Op ℝ)} {s : Sys ℝ}
    (h : exec false (sirLost (some t)) ops = some s) (hnd : ((frames ops).map Frame.uid).Nodup)
    (hd : ∀ f ∈ frames ops, 0 < f.dur) (hpow : ∀ f ∈ frames ops, 0 < f.pow)
    {f : Frame ℝ} {rest : List (Frame ℝ)} (hp : s.pending = f :: rest) :
    let others := (busyPeriod ops).filter (fun g => g.uid ≠ f.uid)
    ∃ s', step false (sirLost (some t)) s .finish = some s' ∧
      ((others = [] ∨ t ≤ 10 * Real.logb 10 (f.pow / (others.map Frame.pow).sum)) →
        s'.delivered = s.delivered ++ [(f.fin, f.uid)]) ∧
      ((others ≠ [] ∧ 10 * Real.logb 10 (f.pow / (others.map Frame.pow).sum) < t) → s'.delivered = s.delivered) := by
  intro others
  obtain ⟨hf, hndb, s', hs, hdl⟩ := finish_decision h hnd hd hp
  have c := busy_exec h (apart_of_nodup hnd) hd
  have hsum := sum_split _ f hf hndb
  have hpos : ∀ g ∈ others, 0 < g.pow := by
    intro g hg
    exact hpow g (c.sub g (List.mem_of_mem_filter hg))
  have hlen : others ≠ [] → 2 ≤ (busyPeriod ops).length := by
    intro hne
    obtain ⟨g, hg⟩ := List.exists_mem_of_ne_nil _ hne
    have hg' := List.mem_filter.mp hg
    have hgf : g ≠ f := by rintro rfl; simp at hg'
    by_contra hlt
    have : (busyPeriod ops).length = 1 := by have := List.length_pos_of_mem hf; omega
    obtain ⟨z, hz⟩ := List.length_eq_one_iff.mp this
    rw [hz] at hf hg'
    simp at hf hg'
    exact hgf (by rw [hf, hg'.1])
  have hlen' : others = [] → ¬ 2 ≤ (busyPeriod ops).length := by
    intro he h2
    have hall : ∀ g ∈ busyPeriod ops, g.uid = f.uid := by
      intro g hg
      have := List.filter_eq_nil_iff.mp he g hg
      simpa using this
    match hb : busyPeriod ops, h2 with
    | a :: b :: l, _ =>
      rw [hb] at hall hndb
      have e1 := hall a (by simp)
      have e2 := hall b (by simp)
      simp [e1, e2] at hndb
  refine ⟨s', hs, ?_, ?_⟩
  · intro hh
    rw [hdl]
    congr 1
    rw [if_neg]
    rintro ⟨h2, hl⟩
    have hne : others ≠ [] := fun h0 => hlen' h0 h2
    rcases hh with hh | hh
    · exact hne hh
    · have hsp : 0 < (others.map Frame.pow).sum := by
        apply List.sum_pos
        · intro x hx
          obtain ⟨g, hg, rfl⟩ := List.mem_map.mp hx
          exact hpos g hg
        · simpa using hne
      rw [hsum] at hl
      simp only [sirLost] at hl
      have e : f.pow + (others.map Frame.pow).sum - f.pow = (others.map Frame.pow).sum := by ring
      rw [show (List.filter (fun g => decide (g.uid ≠ f.uid)) (busyPeriod ops)) = others from rfl, e, if_pos hsp] at hl
      simp only [decide_eq_true_eq] at hl
      linarith
  · rintro ⟨hne, hlt⟩
    rw [hdl, if_pos, List.append_nil]
    refine ⟨hlen hne, ?_⟩
    have hsp : 0 < (others.map Frame.pow).sum := by
      apply List.sum_pos
      · intro x hx
        obtain ⟨g, hg, rfl⟩ := List.mem_map.mp hx
        exact hpos g hg
      · simpa using hne
    rw [hsum]
    simp only [sirLost]
    have e : f.pow + (others.map Frame.pow).sum - f.pow = (others.map Frame.pow).sum := by ring
    rw [show (List.filter (fun g => decide (g.uid ≠ f.uid)) (busyPeriod ops)) = others from rfl, e, if_pos hsp]
    simp only [decide_eq_true_eq]
    exact hlt

/-- The decibel comparison is a comparison of linear powers. -/
theorem C20_linear (t rx others : ℝ) (hr : 0 < rx) (ho : 0 < others) :
    t ≤ 10 * Real.logb 10 (rx / others) ↔ milliwatt t * others ≤ rx := by
  unfold milliwatt
  rw [show (t ≤ 10 * Real.logb 10 (rx / others)) ↔ t / 10 ≤ Real.logb 10 (rx / others) by
    constructor <;> intro h <;> linarith]
  rw [Real.le_logb_iff_rpow_le (by norm_num) (by positivity), le_div_iff₀ ho]

/-- Received powers in milliwatt are positive whatever their value in dBm, so the hypothesis of `C20_capture` always holds. -/
theorem C20_powers_positive (dbm : ℝ) : 0 < milliwatt dbm := by
  unfold milliwatt; positivity

/-! ## C18 -/

section
variable {P : Type} [Zero P] [Add P]

/-- The claim of C18 for one execution: a frame is passed up, exactly once and at the end of its reception, iff no other frame overlaps it. -/
def DeliversExactlyNonOverlapping (fs : List (Frame P)) (delivered : List (Nat × Nat)) : Prop :=
  (∀ f ∈ fs, (f.fin, f.uid) ∈ delivered ↔ ∀ g ∈ fs, g.uid ≠ f.uid → ¬ Overlap f g) ∧
  (delivered.map Prod.snd).Nodup ∧ (∀ d ∈ delivered, ∃ f ∈ fs, d = (f.fin, f.uid))

/-- Full claim of C18: under every event order. -/
def C18_claim : Prop :=
  ∀ (lost : Int → Int → Bool) (ops : List (Op Int)) (s : Sys Int),
    (∀ rx i, rx < i → lost rx i = true) → (∀ rx i, i ≤ rx → lost rx i = false) →
    ((frames ops).map Frame.uid).Nodup → (∀ f ∈ frames ops, 0 < f.dur ∧ 0 < f.pow) →
    exec true lost ops = some s → s.pending = [] → DeliversExactlyNonOverlapping (frames ops) s.delivered

/-- C18 for any arithmetic in which a frame that is not the only one of its busy period is dropped. -/
theorem delivered_inv {P : Type} [Zero P] [Add P] {lost : P → P → Bool} {ops : List (Op P)} {s : Sys P}
    {Q : P → Prop} (hlost : Drops lost Q) (hpow : ∀ f ∈ frames ops, Q f.pow)
    (h : exec false lost ops = some s) (hnd : ((frames ops).map Frame.uid).Nodup)
    (hd : ∀ f ∈ frames ops, 0 < f.dur) :
    (∀ f ∈ frames ops, f ∉ s.pending →
      ((f.fin, f.uid) ∈ s.delivered ↔ ∀ g ∈ frames ops, g.uid ≠ f.uid → ¬ Overlap f g)) ∧
    (s.delivered.map Prod.snd).Nodup ∧
    (∀ d ∈ s.delivered, ∃ f ∈ frames ops, f ∉ s.pending ∧ d = (f.fin, f.uid)) := by
  induction ops using List.reverseRecOn generalizing s with
  | nil =>
    simp only [exec, execFrom, Option.some.injEq] at h
    subst h
    simp [frames, Sys.init]
  | append_singleton os o ih =>
    rw [exec_snoc] at h
    obtain ⟨s0, h0, h1⟩ := h
    rw [frames_append] at hnd hd hpow ⊢
    have hnd0 : ((frames os).map Frame.uid).Nodup := by
      rw [List.map_append, List.nodup_append] at hnd; exact hnd.1
    have hd0 : ∀ f ∈ frames os, 0 < f.dur := fun f hf => hd f (by simp [hf])
    have hpow0 : ∀ f ∈ frames os, Q f.pow := fun f hf => hpow f (by simp [hf])
    have b := base_exec h0 (apart_of_nodup hnd0)
    have c := busy_exec h0 (apart_of_nodup hnd0) hd0
    obtain ⟨i1, i2, i3⟩ := ih hpow0 h0 hnd0 hd0
    have huniq : ∀ f ∈ frames os, ∀ g ∈ frames os, f.uid = g.uid → f = g := fun f hf g hg he =>
      List.inj_on_of_nodup_map hnd0 hf hg he
    cases o with
    | arrive f =>
      simp only [step] at h1
      split at h1
      swap
      · simp at h1
      · rename_i hc
        simp only [Option.some.injEq] at h1
        subst h1
        refine ⟨?_, i2, ?_⟩
        · intro g hg hng
          simp only [mem_schedule, not_or] at hng
          simp only [frames, List.mem_append, List.mem_singleton, hng.1, or_false] at hg
          rw [i1 g hg hng.2]
          have hpast := b.past g hg hng.2
          constructor
          · intro hall x hx
            simp only [frames, List.mem_append, List.mem_singleton] at hx
            rcases hx with hx | rfl
            · exact hall x hx
            · intro _ ho
              have := ho.2; omega
          · intro hall x hx
            exact hall x (by simp [hx])
        · intro d hdm
          obtain ⟨g, hg, hng, rfl⟩ := i3 d hdm
          refine ⟨g, by simp [hg], ?_, rfl⟩
          simp only [mem_schedule, not_or]
          refine ⟨?_, hng⟩
          rintro rfl
          simp only [frames, List.map_append, List.map_cons, List.map_nil] at hnd
          rw [List.nodup_append] at hnd
          exact hnd.2.2 _ (List.mem_map.mpr ⟨g, hg, rfl⟩) g.uid (by simp) rfl
    | finish =>
      cases hp : s0.pending with
      | nil => simp only [step, hp] at h1; simp at h1
      | cons f rest =>
        obtain ⟨hfb, hndb, s', hs', hdl⟩ := finish_total h0 hnd0 hd0 hp
        rw [h1] at hs'
        simp only [Option.some.injEq] at hs'
        subst hs'
        have hpr : s.pending = rest := by
          simp only [step, hp, Option.some.injEq] at h1
          rw [← h1]
        simp only [frames, List.append_nil] at hnd hd ⊢
        have hff : f ∈ frames os := b.sub f (by simp [hp])
        have hndp := b.nodup
        rw [hp, List.map_cons, List.nodup_cons] at hndp
        have hfrest : f ∉ rest := fun hm => hndp.1 (List.mem_map.mpr ⟨f, hm, rfl⟩)
        have hpne : s0.pending ≠ [] := by simp [hp]
        -- decision equals the specification
        have hdec : (2 ≤ (busyPeriod os).length ∧ lost f.pow (total ((busyPeriod os).map Frame.pow)) = true) ↔
            ∃ g ∈ frames os, g.uid ≠ f.uid ∧ Overlap f g := by
          constructor
          · rintro ⟨h2, -⟩
            obtain ⟨g, hg, hgu, hgo⟩ := c.overlap h2 f hfb
            exact ⟨g, c.sub g hg, hgu, hgo⟩
          · rintro ⟨g, hg, hgu, hgo⟩
            have hgb : g ∈ busyPeriod os := by
              by_contra hng
              have := c.before hpne g hg hng f hfb
              have := hgo.1
              omega
            have h2 : 2 ≤ (busyPeriod os).length := by
              by_contra hlt
              have h1 : (busyPeriod os).length = 1 := by have := List.length_pos_of_mem hfb; omega
              obtain ⟨z, hz⟩ := List.length_eq_one_iff.mp h1
              rw [hz] at hfb hgb
              simp at hfb hgb
              exact hgu (by rw [hfb, hgb])
            refine ⟨h2, hlost _ ?_ (by rwa [List.length_map]) _ (List.mem_map.mpr ⟨f, hfb, rfl⟩)⟩
            intro p hp
            obtain ⟨x, hx, rfl⟩ := List.mem_map.mp hp
            exact hpow0 x (c.sub x hx)
        have hnotin : f.uid ∉ s0.delivered.map Prod.snd := by
          intro hm
          obtain ⟨d, hdm, hdu⟩ := List.mem_map.mp hm
          obtain ⟨g, hg, hng, rfl⟩ := i3 d hdm
          simp only at hdu
          have := huniq g hg f hff hdu
          subst this
          exact hng (by simp [hp])
        refine ⟨?_, ?_, ?_⟩
        · intro g hg hng
          rw [hdl, hpr] at *
          by_cases hgf : g = f
          · subst hgf
            have hnot : (g.fin, g.uid) ∉ s0.delivered := fun hm => hnotin (List.mem_map.mpr ⟨_, hm, rfl⟩)
            by_cases hov : (2 ≤ (busyPeriod os).length ∧ lost g.pow (total ((busyPeriod os).map Frame.pow)) = true)
            · rw [if_pos hov, List.append_nil]
              obtain ⟨x, hx, hxu, hxo⟩ := hdec.mp hov
              exact ⟨fun hm => absurd hm hnot, fun hall => absurd hxo (hall x hx hxu)⟩
            · rw [if_neg hov]
              refine ⟨fun _ x hx hxu hxo => hov (hdec.mpr ⟨x, hx, hxu, hxo⟩), fun _ => by simp⟩
          · have hgu : g.uid ≠ f.uid := fun he => hgf (huniq g hg f hff he)
            rw [← i1 g hg (by simp [hp, hgf, hng])]
            rw [List.mem_append]
            constructor
            · rintro (hm | hm)
              · exact hm
              · split at hm
                · simp at hm
                · simp at hm; exact absurd hm.2 hgu
            · exact Or.inl
        · rw [hdl, List.map_append, List.nodup_append]
          refine ⟨i2, by split <;> simp, ?_⟩
          intro u hu v hv
          split at hv
          · simp at hv
          · simp at hv; subst hv
            rintro rfl
            exact hnotin hu
        · intro d hdm
          rw [hdl, List.mem_append] at hdm
          rw [hpr]
          rcases hdm with hdm | hdm
          · obtain ⟨g, hg, hng, rfl⟩ := i3 d hdm
            exact ⟨g, hg, fun hm => hng (by simp [hp, hm]), rfl⟩
          · split at hdm
            · simp at hdm
            · simp at hdm; subst hdm
              exact ⟨f, hff, hfrest, rfl⟩

/-- When the end of a reception is processed before a start at the same tick, the claim of C18 holds for every set of frames. -/
theorem C18_ends_first_partial {lost : P → P → Bool} {Q : P → Prop} (hlost : Drops lost Q) {ops : List (Op P)} {s : Sys P}
    (h : exec false lost ops = some s) (hnd : ((frames ops).map Frame.uid).Nodup)
    (hd : ∀ f ∈ frames ops, 0 < f.dur) (hpow : ∀ f ∈ frames ops, Q f.pow) (hdone : s.pending = []) :
    DeliversExactlyNonOverlapping (frames ops) s.delivered := by
  obtain ⟨h1, h2, h3⟩ := delivered_inv hlost hpow h hnd hd
  refine ⟨fun f hf => h1 f hf (by simp [hdone]), h2, fun d hd => ?_⟩
  obtain ⟨f, hf, -, e⟩ := h3 d hd
  exact ⟨f, hf, e⟩

/-- If no frame starts exactly when another one ends, the event order is irrelevant. -/
theorem exec_no_coincidence {lost : P → P → Bool} {ops : List (Op P)} {s : Sys P} (h : exec true lost ops = some s)
    (hnd : ((frames ops).map Frame.uid).Nodup) (hne : ∀ f ∈ frames ops, ∀ g ∈ frames ops, f.start ≠ g.fin) :
    exec false lost ops = some s := by
  induction ops using List.reverseRecOn generalizing s with
  | nil => exact h
  | append_singleton os o ih =>
    rw [exec_snoc] at h ⊢
    obtain ⟨s0, h0, h1⟩ := h
    rw [frames_append] at hnd hne
    have hnd0 : ((frames os).map Frame.uid).Nodup := by
      rw [List.map_append, List.nodup_append] at hnd; exact hnd.1
    have b := base_exec h0 (apart_of_nodup hnd0)
    refine ⟨s0, ih h0 hnd0 (fun f hf g hg => hne f (by simp [hf]) g (by simp [hg])), ?_⟩
    cases o with
    | finish => exact h1
    | arrive f =>
      simp only [step] at h1 ⊢
      split at h1
      · rename_i hc
        rw [if_pos, h1]
        refine ⟨hc.1, fun g hg => Or.inl ?_⟩
        rcases hc.2 g hg with h | h
        · exact h
        · exact absurd h.2 (hne f (by simp [frames]) g (by simp [b.sub g hg]))
      · simp at h1

/-- Under every event order the claim of C18 holds if no frame starts at the very tick at which another one ends. -/
theorem C18_no_coincidence_partial {lost : P → P → Bool} {Q : P → Prop} (hlost : Drops lost Q) {ops : List (Op P)} {s : Sys P}
    (h : exec true lost ops = some s) (hnd : ((frames ops).map Frame.uid).Nodup)
    (hd : ∀ f ∈ frames ops, 0 < f.dur) (hpow : ∀ f ∈ frames ops, Q f.pow)
    (hne : ∀ f ∈ frames ops, ∀ g ∈ frames ops, f.start ≠ g.fin) (hdone : s.pending = []) :
    DeliversExactlyNonOverlapping (frames ops) s.delivered :=
  C18_ends_first_partial hlost (exec_no_coincidence h hnd hne) hnd hd hpow hdone

end

/-- Positive powers and a test that drops every frame weaker than the total. -/
theorem Aloha.Drops.of_lt {Q : Type} [AddCommGroup Q] [LinearOrder Q] [IsOrderedAddMonoid Q] {lost : Q → Q → Bool}
    (h : ∀ rx i, rx < i → lost rx i = true) : Drops lost (fun p => 0 < p) := by
  intro l hl h2 p hp
  apply h
  rw [total_eq_sum]
  obtain ⟨a, b, rfl⟩ := List.append_of_mem hp
  have hpos : 0 < (a ++ b).sum := by
    apply List.sum_pos
    · intro x hx
      apply hl
      simp only [List.mem_append, List.mem_cons] at hx ⊢
      tauto
    · rintro hnil
      rw [List.append_eq_nil_iff] at hnil
      simp [hnil.1, hnil.2] at h2
  have e : (a ++ p :: b).sum = p + (a ++ b).sum := by
    simp only [List.sum_append, List.sum_cons]
    rw [add_left_comm]
  rw [e]
  exact lt_add_of_pos_right p hpos

theorem sirLost_none (rx i : ℝ) (h : rx < i) : sirLost none rx i = true := by
  simp [sirLost, h]

/-- The test with the default threshold drops frames of positive power. -/
theorem C18_default_threshold : Drops (sirLost none) (fun p : ℝ => 0 < p) := Drops.of_lt sirLost_none

/-- A finite threshold does so if the powers differ by less: by a factor of at most `r`, and the threshold is above `r` in decibel. -/
theorem C18_finite_threshold (t w r : ℝ) (hw : 0 < w) (hr : 0 < r) (ht : 10 * Real.logb 10 r < t) :
    Drops (sirLost (some t)) (fun p : ℝ => w ≤ p ∧ p ≤ r * w) := by
  intro l hl h2 p hp
  rw [total_eq_sum]
  obtain ⟨a, b, rfl⟩ := List.append_of_mem hp
  have hsum : w ≤ (a ++ b).sum := by
    obtain ⟨x, hx⟩ := List.exists_mem_of_ne_nil (a ++ b) (by
      intro hnil
      rw [List.append_eq_nil_iff] at hnil
      simp [hnil.1, hnil.2] at h2)
    have hnn : ∀ y ∈ a ++ b, 0 ≤ y := by
      intro y hy
      have := (hl y (by simp only [List.mem_append, List.mem_cons] at hy ⊢; tauto)).1
      linarith
    exact le_trans (hl x (by simp only [List.mem_append, List.mem_cons] at hx ⊢; tauto)).1 (List.single_le_sum hnn x hx)
  have e : (a ++ p :: b).sum - p = (a ++ b).sum := by
    simp only [List.sum_append, List.sum_cons]
    ring
  have hq := hl p hp
  have hpos : 0 < (a ++ b).sum := lt_of_lt_of_le hw hsum
  unfold sirLost
  rw [e, if_pos hpos]
  simp only [decide_eq_true_eq]
  have hp0 : 0 < p := lt_of_lt_of_le hw hq.1
  refine lt_of_le_of_lt ?_ ht
  have : Real.logb 10 (p / (a ++ b).sum) ≤ Real.logb 10 r := by
    apply Real.logb_le_logb_of_le (by norm_num) (div_pos hp0 hpos)
    rw [div_le_iff₀ hpos]
    exact le_trans hq.2 (mul_le_mul_of_nonneg_left hsum hr.le)
  linarith

/-- Test used in the witnesses: integer powers, default threshold. -/
def intLost (rx i : Int) : Bool := decide (rx < i)

theorem intLost_drops : Drops intLost (fun p => 0 < p) := Drops.of_lt (fun rx i h => by simpa [intLost] using h)

/-- Witness 1: frames A = [0,10) and B = [5,15) collide, C = [15,20) is alone, but its start is processed before the end of B. -/
def tieOps1 : List (Op Int) :=
  [.arrive ⟨1, 0, 10, 1⟩, .arrive ⟨2, 5, 10, 1⟩, .finish, .arrive ⟨3, 15, 5, 1⟩, .finish, .finish]

/-- Witness 2: A = [0,10) alone; B = [10,20), whose start is processed before the end of A, collides with C = [12,14). -/
def tieOps2 : List (Op Int) :=
  [.arrive ⟨1, 0, 10, 1⟩, .arrive ⟨2, 10, 10, 5⟩, .finish, .arrive ⟨3, 12, 2, 1⟩, .finish, .finish]

/-- An isolated frame is lost. -/
theorem C18_tie_loses_isolated_frame :
    (exec true intLost tieOps1).map Sys.delivered = some [] ∧ (exec true intLost tieOps1).map (fun s => s.pending.length) = some 0 ∧
    ¬ Overlap (⟨3, 15, 5, 1⟩ : Frame Int) ⟨1, 0, 10, 1⟩ ∧ ¬ Overlap (⟨3, 15, 5, 1⟩ : Frame Int) ⟨2, 5, 10, 1⟩ := by decide

/-- A frame that collided is passed up. -/
theorem C18_tie_delivers_collided_frame :
    (exec true intLost tieOps2).map Sys.delivered = some [(10, 1), (20, 2)] ∧
    Overlap (⟨2, 10, 10, 5⟩ : Frame Int) ⟨3, 12, 2, 1⟩ := by decide

/-- The full claim of C18 is false. -/
theorem C18_claim_false : ¬ C18_claim := by
  intro h
  obtain ⟨s, hs⟩ : ∃ s, exec true intLost tieOps1 = some s := Option.isSome_iff_exists.mp (by decide)
  have w := C18_tie_loses_isolated_frame
  rw [hs] at w
  simp only [Option.map_some, Option.some.injEq] at w
  have := h intLost tieOps1 s (fun rx i h => by simpa [intLost] using h) (fun rx i h => by simpa [intLost] using h)
    (by decide) (by decide) hs (List.length_eq_zero_iff.mp w.2.1)
  have h3 := (this.1 ⟨3, 15, 5, 1⟩ (by decide)).mpr (by decide)
  rw [w.1] at h3
  simp at h3

/-! ### Non-vacuity -/

/-- Four frames, two of which overlap; no coincidences. -/
def goodOps : List (Op Int) :=
  [.arrive ⟨1, 0, 10, 3⟩, .finish, .arrive ⟨2, 11, 10, 3⟩, .arrive ⟨3, 15, 3, 4⟩, .finish, .finish, .arrive ⟨4, 30, 5, 1⟩, .finish]

example : (exec true intLost goodOps).map Sys.delivered = some [(10, 1), (35, 4)] ∧
    ((frames goodOps).map Frame.uid).Nodup ∧ (∀ f ∈ frames goodOps, 0 < f.dur) ∧ (∀ f ∈ frames goodOps, 0 < f.pow) ∧
    (∀ f ∈ frames goodOps, ∀ g ∈ frames goodOps, f.start ≠ g.fin) ∧
    (exec true intLost goodOps).map (fun s => s.pending.length) = some 0 := by decide
example : Drops intLost (fun p => 0 < p) := intLost_drops
example : busyPeriod (goodOps.take 4) = [⟨2, 11, 10, 3⟩, ⟨3, 15, 3, 4⟩] := by decide
/-- The hypotheses of `C20_capture` are met by two overlapping real-powered frames. -/
example : ∃ s, exec false (sirLost (some 3)) ([.arrive ⟨1, 0, 10, 4⟩, .arrive ⟨2, 5, 10, 1⟩] : List (Op ℝ)) = some s ∧
    s.pending = [⟨1, 0, 10, 4⟩, ⟨2, 5, 10, 1⟩] := by
  simp [exec, execFrom, step, Sys.init, schedule, Frame.fin]

/-! ## C27 -/

section
variable {P : Type}

/-- Transmission starts at the instant of the hand-over, the end notification comes one transmission time later. -/
theorem C27_send (now txTime : Nat) : NoneMac.sendCallbacks now txTime = (now, now + txTime) := rfl

/-- Every frame that started to arrive is passed up exactly once, at the end of its reception, whatever else arrives; the order is by end of
reception. -/
theorem C27_receive {ops : List (Op P)} {s : NoneMac.Sys P} (h : NoneMac.exec ops = some s) :
    (s.delivered ++ s.pending.map (fun f => (f.fin, f.uid))).Perm ((frames ops).map (fun f => (f.fin, f.uid))) ∧
    s.delivered.Pairwise (fun a b => a.1 ≤ b.1) ∧
    (s.pending = [] → s.delivered.Perm ((frames ops).map (fun f => (f.fin, f.uid)))) := by
  have key : ∀ (ops : List (Op P)) (s0 s : NoneMac.Sys P), NoneMac.execFrom s0 ops = some s →
      s0.pending.Pairwise (fun a b => a.fin ≤ b.fin) → (∀ f ∈ s0.pending, s0.clock ≤ f.fin) →
      s0.delivered.Pairwise (fun a b => a.1 ≤ b.1) → (∀ d ∈ s0.delivered, d.1 ≤ s0.clock) →
      (s.delivered ++ s.pending.map (fun f => (f.fin, f.uid))).Perm
        (s0.delivered ++ s0.pending.map (fun f => (f.fin, f.uid)) ++ (frames ops).map (fun f => (f.fin, f.uid))) ∧
      s.delivered.Pairwise (fun a b => a.1 ≤ b.1) := by
    intro ops
    induction ops with
    | nil =>
      intro s0 s h _ _ hd _
      simp only [NoneMac.execFrom, Option.some.injEq] at h
      subst h
      simp [frames, hd]
    | cons o os ih =>
      intro s0 s h hs hf hd hdc
      simp only [NoneMac.execFrom] at h
      cases o with
      | arrive f =>
        simp only [NoneMac.step] at h
        split at h
        · rename_i hc
          simp only [Option.bind_some] at h
          obtain ⟨p, q⟩ := ih _ s h (schedule_sorted hs) (by
              intro g hg
              rcases mem_schedule.mp hg with rfl | hg
              · show g.start ≤ g.fin; unfold Frame.fin; omega
              · exact hc.2 g hg) hd (fun d hdm => Nat.le_trans (hdc d hdm) hc.1)
          refine ⟨p.trans ?_, q⟩
          simp only [frames, List.map_cons]
          rw [List.append_assoc, List.append_assoc]
          apply List.Perm.append_left
          have := ((schedule_perm f s0.pending).map (fun f => (f.fin, f.uid))).append_right ((frames os).map (fun f => (f.fin, f.uid)))
          refine this.trans ?_
          simp only [List.map_cons, List.cons_append]
          exact List.perm_middle.symm
        · simp at h
      | finish =>
        simp only [NoneMac.step] at h
        cases hp : s0.pending with
        | nil => rw [hp] at h; simp at h
        | cons f rest =>
          rw [hp] at h hs hf
          simp only [Option.bind_some] at h
          rw [List.pairwise_cons] at hs
          have hcf := hf f (by simp)
          obtain ⟨p, q⟩ := ih _ s h hs.2 (fun g hg => hs.1 g hg) (by
              simp only [List.pairwise_append]
              refine ⟨hd, by simp, ?_⟩
              intro a ha b hb
              simp at hb; subst hb
              exact Nat.le_trans (hdc a ha) hcf) (by
              intro d hdm
              simp only [List.mem_append, List.mem_singleton] at hdm
              rcases hdm with hdm | rfl
              · exact Nat.le_trans (hdc d hdm) hcf
              · exact Nat.le_refl _)
          refine ⟨p.trans ?_, q⟩
          simp [frames]
  obtain ⟨p, q⟩ := key ops ⟨0, [], []⟩ s h (by simp) (by simp) (by simp) (by simp)
  refine ⟨by simpa using p, q, fun h0 => ?_⟩
  rw [h0] at p
  simpa using p

example : (NoneMac.exec goodOps).map NoneMac.Sys.delivered = some [(10, 1), (18, 3), (21, 2), (35, 4)] := by decide

end

end Icarus
