import Verif.Props.CrdsaLong

/-!
# CRDSA with slots (C70, receiver side)

Frames of one slot overlap, frames of different slots do not: busy periods are slots.
-/

set_option autoImplicit false

namespace Icarus
open Aloha (Frame Op frames Apart)
open Crdsa

/-- Successive interference cancellation over slots: a packet is decoded when in some slot all other packets are. -/
inductive Decodable (inSlot : Nat → Nat → Prop) : Nat → Prop
  | mk {T u : Nat} : inSlot T u → (∀ v, inSlot T v → v ≠ u → Decodable inSlot v) → Decodable inSlot u

section
variable {P : Type} [Zero P] [Add P]

/-- Frames of one slot overlap in time, a frame of an earlier slot is over when one of a later slot starts. -/
structure InSlots (sl : Frame P → Nat) (fs : List (Frame P)) : Prop where
  overlap : ∀ f ∈ fs, ∀ g ∈ fs, sl f = sl g → f.start < g.fin
  before : ∀ f ∈ fs, ∀ g ∈ fs, sl f < sl g → f.fin ≤ g.start

omit [Zero P] [Add P] in
theorem InSlots.sub {sl : Frame P → Nat} {fs gs : List (Frame P)} (h : InSlots sl fs) (hs : ∀ f ∈ gs, f ∈ fs) : InSlots sl gs :=
  ⟨fun f hf g hg => h.overlap f (hs f hf) g (hs g hg), fun f hf g hg => h.before f (hs f hf) g (hs g hg)⟩

omit [Zero P] [Add P] in
theorem InSlots.pos {sl : Frame P → Nat} {fs : List (Frame P)} (h : InSlots sl fs) : ∀ f ∈ fs, 0 < f.dur := by
  intro f hf
  have := h.overlap f hf f hf rfl
  unfold Frame.fin at this
  omega

/-- When no frame starts at the very instant another one ends, the order of coinciding events does not matter. -/
theorem exec_noTie {strict : Bool} {lost : P → P → Bool} {F : Nat} {ops : List (Op P)} {o : Outcome (Crdsa.Sys P)}
    (h : exec strict true lost F ops = some o) (hn : ∀ f ∈ frames ops, ∀ g ∈ frames ops, f.start ≠ g.fin) :
    exec strict false lost F ops = some o := by
  have key : ∀ (ops : List (Op P)) (s : Crdsa.Sys P) (fs : List (Frame P)) (o : Outcome (Crdsa.Sys P)),
      execFrom strict true lost F s ops = some o → (∀ f ∈ s.pending, f ∈ fs) → (∀ f ∈ frames ops, f ∈ fs) → (∀ f ∈ fs, ∀ g ∈ fs, f.start ≠ g.fin) →
      execFrom strict false lost F s ops = some o := by
    intro ops
    induction ops with
    | nil => intro s fs o h _ _ _; exact h
    | cons op os ih =>
      intro s fs o h hp hf hn
      have hstep : step strict false lost F s op = step strict true lost F s op ∨ step strict true lost F s op = none := by
        cases op with
        | finish => exact Or.inl rfl
        | arrive f =>
          have hff : f ∈ fs := hf f (by simp [frames])
          simp only [step]
          by_cases hc : s.clock ≤ f.start ∧ ∀ g ∈ s.pending, f.start < g.fin ∨ True ∧ f.start = g.fin
          · refine Or.inl ?_
            rw [if_pos hc, if_pos]
            refine ⟨hc.1, fun g hg => Or.inl ?_⟩
            rcases hc.2 g hg with h1 | h1
            · exact h1
            · exact absurd h1.2 (hn f hff g (hp g hg))
          · exact Or.inr (if_neg hc)
      simp only [execFrom] at h ⊢
      rcases hstep with hs | hs
      · rw [hs]
        cases hr : step strict true lost F s op with
        | none => rw [hr] at h; simp at h
        | some r =>
          rw [hr] at h
          cases r with
          | ub e => exact h
          | abort => exact h
          | assertFail => exact h
          | ok s' =>
            refine ih s' fs o h ?_ (fun f hf' => hf f ?_) hn
            · cases op with
              | arrive f =>
                obtain ⟨-, rfl⟩ := step_arrive_ok.mp hr
                intro g hg
                rcases Aloha.mem_schedule.mp hg with rfl | hg
                · exact hf g (by simp [frames])
                · exact hp g hg
              | finish =>
                obtain ⟨f, rest, st, out, hpe, -, rfl⟩ := step_finish_ok.mp hr
                intro g hg
                exact hp g (by rw [hpe]; exact List.mem_cons_of_mem _ hg)
            · cases op <;> simp [frames, hf']
      · rw [hs] at h; simp at h
  refine key ops _ (frames ops) o h ?_ (fun _ hf => hf) hn
  simp [Crdsa.Sys.init]

/-- The busy periods so far, against the slots of the frames. -/
structure Grouped (sl : Frame P → Nat) (fs : List (Frame P)) (s : Crdsa.Sys P) (c : List (List (Frame P)) × List (Frame P) × Nat) : Prop where
  count : c.2.2 = s.pending.length
  done : ∀ g ∈ c.1, ∃ T, ∀ f, f ∈ g ↔ f ∈ fs ∧ sl f = T
  over : ∀ g ∈ c.1, g ≠ [] ∧ ∀ f ∈ g, f.fin ≤ s.clock
  current : c.2.2 ≠ 0 → ∃ T, (∀ f, f ∈ c.2.1 ↔ f ∈ fs ∧ sl f = T) ∧ ∀ f ∈ s.pending, sl f = T
  all : ∀ f ∈ fs, (∃ g ∈ c.1, f ∈ g) ∨ c.2.2 ≠ 0 ∧ f ∈ c.2.1

theorem grouped_exec {strict : Bool} {lost : P → P → Bool} {F : Nat} {ops : List (Op P)} {s : Crdsa.Sys P} {sl : Frame P → Nat}
    (h : exec strict false lost F ops = some (.ok s)) (hap : Apart false (frames ops)) (hin : InSlots sl (frames ops)) :
    Grouped sl (frames ops) s (ops.foldl clusterStep ([], [], 0)) := by
  induction ops using List.reverseRecOn generalizing s with
  | nil =>
    simp only [exec, execFrom, Option.some.injEq, Outcome.ok.injEq] at h
    subst h
    constructor <;> simp [Crdsa.Sys.init, frames]
  | append_singleton os o ih =>
    have hfull := h
    rw [exec_snoc] at h
    obtain ⟨s0, h0, h1⟩ := h
    have hap0 : Apart false (frames os) := by
      unfold Apart at hap ⊢; rw [Aloha.frames_append, List.pairwise_append] at hap; exact hap.1
    have hsub : ∀ f ∈ frames os, f ∈ frames (os ++ [o]) := fun f hf => by rw [Aloha.frames_append]; exact List.mem_append_left _ hf
    obtain ⟨k1, k2, k5, k3, k4⟩ := ih h0 hap0 (hin.sub hsub)
    obtain ⟨d0, hal⟩ := exec_aloha h0
    have b := Aloha.base_exec hal hap0
    rw [List.foldl_append, List.foldl_cons, List.foldl_nil]
    generalize os.foldl clusterStep ([], [], 0) = c at k1 k2 k3 k4 k5
    obtain ⟨done, cur, n⟩ := c
    simp only at k1 k2 k3 k4 k5
    cases o with
    | finish =>
      have hfs : frames (os ++ [Op.finish]) = frames os := by rw [Aloha.frames_append]; simp [frames]
      obtain ⟨f, rest, st, out, hp, -, rfl⟩ := step_finish_ok.mp h1
      rw [hfs]
      simp only [clusterStep]
      rw [hp, List.length_cons] at k1
      by_cases hn : n = 1
      · rw [if_pos hn]
        refine ⟨by simp only; omega, ?_, ?_, fun h => absurd rfl h, ?_⟩
        · intro g hg
          rw [List.mem_append, List.mem_singleton] at hg
          rcases hg with hg | rfl
          · exact k2 g hg
          · obtain ⟨T, hT, -⟩ := k3 (by omega)
            exact ⟨T, hT⟩
        · intro g hg
          rw [List.mem_append, List.mem_singleton] at hg
          rcases hg with hg | rfl
          · obtain ⟨m1, m2⟩ := k5 g hg
            refine ⟨m1, fun x hx => Nat.le_trans (m2 x hx) ?_⟩
            have := b.future f (by simp [hp])
            exact this
          · obtain ⟨T, hT, hT2⟩ := k3 (by omega)
            have hfp : f ∈ s0.pending := by simp [hp]
            refine ⟨List.ne_nil_of_mem ((hT f).mpr ⟨b.sub f hfp, hT2 f hfp⟩), fun x hx => ?_⟩
            obtain ⟨d1, hal1⟩ := exec_aloha hfull
            have b1 := Aloha.base_exec hal1 hap
            have hrest : rest = [] := List.length_eq_zero_iff.mp (by omega)
            exact b1.past x (hsub x ((hT x).mp hx).1) (by simp [hrest])
        · intro f hf
          rcases k4 f hf with ⟨g, hg, hfg⟩ | ⟨-, hfc⟩
          · exact Or.inl ⟨g, by simp [hg], hfg⟩
          · exact Or.inl ⟨cur, by simp, hfc⟩
      · rw [if_neg hn]
        refine ⟨by simp only; omega, k2, fun g hg => ⟨(k5 g hg).1, fun x hx => Nat.le_trans ((k5 g hg).2 x hx) (b.future f (by simp [hp]))⟩, fun _ => ?_, ?_⟩
        · obtain ⟨T, hT, hT2⟩ := k3 (by omega)
          exact ⟨T, hT, fun g hg => hT2 g (by rw [hp]; exact List.mem_cons_of_mem _ hg)⟩
        · intro f hf
          rcases k4 f hf with h | ⟨-, hfc⟩
          · exact Or.inl h
          · exact Or.inr ⟨by simp only; omega, hfc⟩
    | arrive f =>
      have hfs : frames (os ++ [Op.arrive f]) = frames os ++ [f] := by rw [Aloha.frames_append]; simp [frames]
      obtain ⟨hc, rfl⟩ := step_arrive_ok.mp h1
      rw [hfs] at hin ⊢
      have hff : f ∈ frames os ++ [f] := by simp
      have hold : ∀ g ∈ frames os, g ∈ frames os ++ [f] := fun g hg => by simp [hg]
      have hpos := hin.pos f hff
      -- frames heard before are not of a later slot
      have hle : ∀ g ∈ frames os, sl g ≤ sl f := by
        intro g hg
        by_contra hlt
        have h2 := hin.before f hff g (hold g hg) (by omega)
        have h3 := b.started g hg
        simp only at h3
        unfold Frame.fin at h2
        omega
      -- frames over are of an earlier slot
      have hover : ∀ g ∈ frames os, g ∉ s0.pending → sl g < sl f := by
        intro g hg hnp
        rcases Nat.lt_or_eq_of_le (hle g hg) with h2 | h2
        · exact h2
        · have h3 := hin.overlap f hff g (hold g hg) h2.symm
          have h4 := b.past g hg hnp
          simp only at h4
          omega
      -- frames being received are of the same slot
      have hsame : ∀ g ∈ s0.pending, sl g = sl f := by
        intro g hg
        rcases Nat.lt_or_eq_of_le (hle g (b.sub g hg)) with h2 | h2
        · have h3 := hin.before g (hold g (b.sub g hg)) f hff h2
          have h4 := hc.2 g hg
          simp only [Bool.false_eq_true, false_and, or_false] at h4
          omega
        · exact h2
      simp only [clusterStep]
      have hcount : n + 1 = (Aloha.schedule f s0.pending).length := by
        rw [(Aloha.schedule_perm f s0.pending).length_eq, List.length_cons, k1]
      have hdone : ∀ g ∈ done, ∃ T, ∀ x, x ∈ g ↔ x ∈ frames os ++ [f] ∧ sl x = T := by
        intro g hg
        obtain ⟨T, hT⟩ := k2 g hg
        refine ⟨T, fun x => ?_⟩
        rw [hT x, List.mem_append, List.mem_singleton]
        constructor
        · exact fun hx => ⟨Or.inl hx.1, hx.2⟩
        · rintro ⟨hx | rfl, hx2⟩
          · exact ⟨hx, hx2⟩
          · obtain ⟨m1, m2⟩ := k5 g hg
            obtain ⟨y, hy⟩ := List.exists_mem_of_ne_nil _ m1
            have h3 := (hT y).mp hy
            have h4 := hin.overlap x hff y (hold y h3.1) (by rw [hx2, h3.2])
            have h5 := m2 y hy
            have := hc.1
            omega
      have hk5 : ∀ g ∈ done, g ≠ [] ∧ ∀ x ∈ g, x.fin ≤ f.start :=
        fun g hg => ⟨(k5 g hg).1, fun x hx => Nat.le_trans ((k5 g hg).2 x hx) hc.1⟩
      by_cases hn : n = 0
      · have hidle : s0.pending = [] := List.length_eq_zero_iff.mp (by omega)
        have hlt : ∀ g ∈ frames os, sl g < sl f := fun g hg => hover g hg (by simp [hidle])
        rw [if_pos hn]
        refine ⟨hcount, hdone, hk5, fun _ => ⟨sl f, ?_, ?_⟩, ?_⟩
        · intro x
          simp only [List.mem_singleton, List.mem_append]
          constructor
          · rintro rfl; exact ⟨Or.inr rfl, rfl⟩
          · rintro ⟨hx | hx, hx2⟩
            · have := hlt x hx; omega
            · exact hx
        · intro g hg
          simp only [hidle, Aloha.schedule, List.mem_singleton] at hg
          rw [hg]
        · intro x hx
          rw [List.mem_append, List.mem_singleton] at hx
          rcases hx with hx | rfl
          · rcases k4 x hx with h2 | ⟨h2, -⟩
            · exact Or.inl h2
            · exact absurd hn h2
          · exact Or.inr ⟨by simp, by simp⟩
      · have hne : s0.pending ≠ [] := by
          intro e; rw [e] at k1; exact hn (by simpa using k1)
        obtain ⟨T, hT, hT2⟩ := k3 hn
        obtain ⟨g0, hg0⟩ := List.exists_mem_of_ne_nil _ hne
        have eT : sl f = T := by rw [← hsame g0 hg0]; exact hT2 g0 hg0
        rw [if_neg hn]
        refine ⟨hcount, hdone, hk5, fun _ => ⟨T, ?_, ?_⟩, ?_⟩
        · intro x
          simp only [List.mem_append, List.mem_singleton, hT x]
          constructor
          · rintro (h2 | rfl)
            · exact ⟨Or.inl h2.1, h2.2⟩
            · exact ⟨Or.inr rfl, eT⟩
          · rintro ⟨h2 | h2, h3⟩
            · exact Or.inl ⟨h2, h3⟩
            · exact Or.inr h2
        · intro g hg
          rcases Aloha.mem_schedule.mp hg with rfl | hg
          · exact eT
          · exact hT2 g hg
        · intro x hx
          rw [List.mem_append, List.mem_singleton] at hx
          rcases hx with hx | rfl
          · rcases k4 x hx with h2 | ⟨h2, h3⟩
            · exact Or.inl h2
            · exact Or.inr ⟨by simp, by simp [h3]⟩
          · exact Or.inr ⟨by simp, by simp⟩

/-- When nothing is being received any more, peeling busy periods is decoding slot by slot. -/
theorem peel_iff_decodable {strict : Bool} {lost : P → P → Bool} {F : Nat} {ops : List (Op P)} {s : Crdsa.Sys P} {sl : Frame P → Nat}
    (h : exec strict false lost F ops = some (.ok s)) (hap : Apart false (frames ops)) (hin : InSlots sl (frames ops)) (hidle : s.pending = []) (u : Nat) :
    Peel (AloneOnce ops) (collisions ops) u ↔ Decodable (fun T v => ∃ f ∈ frames ops, sl f = T ∧ f.uid = v) u := by
  obtain ⟨k1, k2, k5, -, k4⟩ := grouped_exec h hap hin
  rw [hidle, List.length_nil] at k1
  have hall : ∀ f ∈ frames ops, ∃ g ∈ clusters ops, f ∈ g := by
    intro f hf
    rcases k4 f hf with h1 | ⟨h1, -⟩
    · exact h1
    · exact absurd k1 h1
  constructor
  · intro hp
    induction hp with
    | base hk =>
      obtain ⟨f, hf, rfl⟩ := hk
      obtain ⟨T, hT⟩ := k2 _ hf
      have h1 := (hT f).mp (by simp)
      refine Decodable.mk ⟨f, h1.1, h1.2, rfl⟩ ?_
      rintro v ⟨g, hg, hgT, rfl⟩ hne
      have := (hT g).mpr ⟨hg, hgT⟩
      simp only [List.mem_singleton] at this
      exact absurd (by rw [this]) hne
    | @recover c u hc hu _ ih =>
      unfold collisions at hc
      rw [List.mem_map] at hc
      obtain ⟨g, hg, rfl⟩ := hc
      obtain ⟨T, hT⟩ := k2 g (List.mem_of_mem_filter hg)
      obtain ⟨f, hf, rfl⟩ := List.mem_map.mp hu
      have h1 := (hT f).mp hf
      refine Decodable.mk ⟨f, h1.1, h1.2, rfl⟩ ?_
      rintro v ⟨g', hg', hgT, rfl⟩ hne
      exact ih _ (List.mem_map_of_mem ((hT g').mpr ⟨hg', hgT⟩)) hne
  · intro hd
    induction hd with
    | @mk T u h1 _ ih =>
      obtain ⟨f, hf, rfl, rfl⟩ := h1
      obtain ⟨g, hg, hfg⟩ := hall f hf
      obtain ⟨T', hT⟩ := k2 g hg
      have e := ((hT f).mp hfg).2
      subst e
      by_cases hl : 2 ≤ g.length
      · refine Peel.recover (c := g.map Frame.uid) ?_ (List.mem_map_of_mem hfg) ?_
        · exact List.mem_map.mpr ⟨g, List.mem_filter.mpr ⟨hg, by simpa using hl⟩, rfl⟩
        · intro v hv hne
          obtain ⟨g', hg', rfl⟩ := List.mem_map.mp hv
          have h2 := (hT g').mp hg'
          exact ih _ ⟨g', h2.1, h2.2, rfl⟩ hne
      · have : g = [f] := by
          match g, hfg, hl with
          | [x], hfg, _ => simp only [List.mem_singleton] at hfg; rw [hfg]
          | _ :: _ :: _, _, hl => simp only [List.length_cons] at hl; omega
        subst this
        exact Peel.base ⟨f, hg, rfl⟩

/-! ## Slots of a given duration -/

omit [Zero P] [Add P] in
/-- The slot in which a frame was sent, seen from a receiver whose shortest delay is `lo`. -/
def slotOf (slot lo : Nat) (f : Frame P) : Nat := (f.start - lo) / slot

omit [Zero P] [Add P] in
/-- What a receiver hears from stations that start their frames with the slots, if all delays are between `lo` and `lo + spread`: frames longer than
this spread that leave at least the spread of their slots empty; the replicas of a packet are sent in different slots of one frame of
`slots` slots, at most two of them. -/
structure CrdsaTraffic (slot slots lo spread : Nat) (fs : List (Frame P)) : Prop where
  pos : 0 < slots
  timing : ∀ f ∈ fs, ∃ q δ, f.start = lo + slot * q + δ ∧ δ ≤ spread ∧ spread < f.dur ∧ f.dur + spread ≤ slot
  oneFrame : ∀ f ∈ fs, ∀ g ∈ fs, f.uid = g.uid → slotOf slot lo f / slots = slotOf slot lo g / slots
  distinct : fs.Pairwise (fun f g => f.uid = g.uid → slotOf slot lo f ≠ slotOf slot lo g)
  two : ∀ u, fs.countP (fun f => f.uid == u) ≤ 2

omit [Zero P] [Add P] in
theorem slotOf_eq {slot slots lo spread : Nat} {fs : List (Frame P)} (h : CrdsaTraffic slot slots lo spread fs) {f : Frame P} (hf : f ∈ fs) :
    ∃ δ, f.start = lo + slot * slotOf slot lo f + δ ∧ δ ≤ spread ∧ spread < f.dur ∧ f.dur + spread ≤ slot := by
  obtain ⟨q, δ, h1, h2, h3, h4⟩ := h.timing f hf
  have : slotOf slot lo f = q := by
    unfold slotOf
    rw [h1, Nat.add_assoc, Nat.add_sub_cancel_left, Nat.mul_add_div (by omega), Nat.div_eq_of_lt (by omega), Nat.add_zero]
  rw [this]
  exact ⟨δ, h1, h2, h3, h4⟩

omit [Zero P] [Add P] in
theorem CrdsaTraffic.inSlots {slot slots lo spread : Nat} {fs : List (Frame P)} (h : CrdsaTraffic slot slots lo spread fs) :
    InSlots (slotOf slot lo) fs := by
  constructor
  · intro f hf g hg e
    obtain ⟨δ, a1, a2, a3, a4⟩ := slotOf_eq h hf
    obtain ⟨δ', b1, b2, b3, b4⟩ := slotOf_eq h hg
    unfold Frame.fin
    rw [a1, b1, e]
    omega
  · intro f hf g hg e
    obtain ⟨δ, a1, a2, a3, a4⟩ := slotOf_eq h hf
    obtain ⟨δ', b1, b2, b3, b4⟩ := slotOf_eq h hg
    unfold Frame.fin
    rw [a1, b1]
    have := Nat.mul_le_mul_left slot (Nat.succ_le_of_lt e)
    rw [Nat.mul_succ] at this
    omega

omit [Zero P] [Add P] in
theorem CrdsaTraffic.left {slot slots lo spread : Nat} {fs gs : List (Frame P)} (h : CrdsaTraffic slot slots lo spread (fs ++ gs)) :
    CrdsaTraffic slot slots lo spread fs := by
  refine ⟨h.pos, fun f hf => h.timing f (by simp [hf]), fun f hf g hg => h.oneFrame f (by simp [hf]) g (by simp [hg]), ?_, fun u => ?_⟩
  · have := h.distinct
    rw [List.pairwise_append] at this
    exact this.1
  · have := h.two u
    rw [List.countP_append] at this
    omega

omit [Zero P] [Add P] in
theorem CrdsaTraffic.apart {slot slots lo spread : Nat} {fs : List (Frame P)} (h : CrdsaTraffic slot slots lo spread fs)
    (hsorted : fs.Pairwise (fun f g => f.start ≤ g.start)) : Apart false fs := by
  unfold Apart
  refine List.Pairwise.imp_of_mem ?_ (h.distinct.and hsorted)
  rintro f g hf hg ⟨h1, h2⟩ e
  refine Or.inr ⟨rfl, ?_⟩
  have h3 := h1 e
  rcases Nat.lt_or_gt_of_ne h3 with h4 | h4
  · exact h.inSlots.before f hf g hg h4
  · have h5 := h.inSlots.before g hg f hf h4
    have := h.inSlots.pos g hg
    unfold Frame.fin at h5
    omega

omit [Zero P] [Add P] in
/-- If every frame leaves more than the spread of its slot empty, no frame starts at the very instant another one ends. -/
theorem CrdsaTraffic.noTie {slot slots lo spread : Nat} {fs : List (Frame P)} (h : CrdsaTraffic slot slots lo spread fs)
    (hspare : ∀ f ∈ fs, f.dur + spread < slot) : ∀ f ∈ fs, ∀ g ∈ fs, f.start ≠ g.fin := by
  intro f hf g hg e
  obtain ⟨δ, a1, a2, a3, a4⟩ := slotOf_eq h hf
  obtain ⟨δ', b1, b2, b3, b4⟩ := slotOf_eq h hg
  have h1 := hspare f hf
  have h2 := hspare g hg
  unfold Frame.fin at e
  rw [a1, b1] at e
  generalize slotOf slot lo f = a at *
  generalize slotOf slot lo g = b at *
  rcases Nat.lt_trichotomy a b with hl | hl | hl
  · have := Nat.mul_le_mul_left slot (Nat.succ_le_of_lt hl)
    rw [Nat.mul_succ] at this
    omega
  · subst hl; omega
  · have := Nat.mul_le_mul_left slot (Nat.succ_le_of_lt hl)
    rw [Nat.mul_succ] at this
    omega

theorem exec_defined {lost : P → P → Bool} {slot slots lo spread : Nat} {ops : List (Op P)} {o : Outcome (Crdsa.Sys P)}
    {Q : P → Prop} (hlost : Aloha.Drops lost Q) (h : exec true false lost (slot * slots) ops = some o) (ht : CrdsaTraffic slot slots lo spread (frames ops))
    (hpow : ∀ f ∈ frames ops, Q f.pow) :
    (∃ s, o = .ok s) ∧ (frames ops).Pairwise (fun f g => f.start ≤ g.start) := by
  have h' := h
  suffices hs : (frames ops).Pairwise (fun f g => f.start ≤ g.start) by
    obtain ⟨s, e, -⟩ := C25_two_replicas_defined hlost (ht.apart hs) ht.inSlots.pos hpow ht.two h'
    exact ⟨⟨s, e⟩, hs⟩
  clear h
  induction ops using List.reverseRecOn generalizing o with
  | nil => simp [frames]
  | append_singleton os op ih =>
    have hta := ht
    rw [Aloha.frames_append] at hta
    have ht0 := hta.left
    have hpow0 : ∀ f ∈ frames os, Q f.pow := fun f hf => hpow f (by rw [Aloha.frames_append]; simp [hf])
    have hsplit := h'
    unfold exec at hsplit
    rw [execFrom_append] at hsplit
    cases he : execFrom true false lost (slot * slots) Crdsa.Sys.init os with
    | none => rw [he] at hsplit; simp at hsplit
    | some r =>
      have hs0 := ih ht0 hpow0 he
      obtain ⟨s0, rfl, -⟩ := C25_two_replicas_defined hlost (ht0.apart hs0) ht0.inSlots.pos hpow0 ht0.two he
      rw [he] at hsplit
      simp only at hsplit
      rw [Aloha.frames_append]
      cases op with
      | finish => simpa [frames] using hs0
      | arrive f =>
        rw [List.pairwise_append]
        refine ⟨hs0, by simp [frames], ?_⟩
        intro g hg x hx
        simp only [frames, List.mem_singleton] at hx
        subst hx
        obtain ⟨d0, hal⟩ := exec_aloha (ops := os) he
        have b := Aloha.base_exec hal (ht0.apart hs0)
        have h1 := b.started g hg
        simp only [execFrom] at hsplit
        cases hst : step true false lost (slot * slots) s0 (.arrive x) with
        | none => rw [hst] at hsplit; simp at hsplit
        | some r =>
          simp only [step] at hst
          split at hst
          · rename_i hc; simp only at h1; exact Nat.le_trans h1 hc.1
          · simp at hst

/-- A CRDSA receiver with such traffic that runs the end of a reception before a start of the same instant: it always comes to a defined result, and
when nothing is being received any more, the packets passed up are exactly the decodable ones, each once. -/
theorem receiver_ends_first {lost : P → P → Bool} {slot slots lo spread : Nat} {ops : List (Op P)} {o : Outcome (Crdsa.Sys P)}
    {Q : P → Prop} (hlost : Aloha.Drops lost Q) (h' : exec true false lost (slot * slots) ops = some o)
    (ht : CrdsaTraffic slot slots lo spread (frames ops)) (hpow : ∀ f ∈ frames ops, Q f.pow) :
    ∃ s, o = .ok s ∧ (s.pending = [] →
      (∀ u, u ∈ s.delivered.map Prod.snd ↔ Decodable (fun T v => ∃ f ∈ frames ops, slotOf slot lo f = T ∧ f.uid = v) u) ∧
      (s.delivered.map Prod.snd).Nodup) := by
  obtain ⟨⟨s, rfl⟩, hsorted⟩ := exec_defined hlost h' ht hpow
  refine ⟨s, rfl, fun hidle => ?_⟩
  have hap := ht.apart hsorted
  -- the frame of a packet
  let era : Nat → Nat := fun u => match (frames ops).find? (fun f => f.uid == u) with | some f => slotOf slot lo f / slots | none => 0
  have hera : ∀ f ∈ frames ops, era f.uid = slotOf slot lo f / slots := by
    intro f hf
    simp only [era]
    cases hfi : (frames ops).find? (fun g => g.uid == f.uid) with
    | none =>
      rw [List.find?_eq_none] at hfi
      exact absurd (hfi f hf) (by simp)
    | some g =>
      have h1 := List.find?_some hfi
      simp only [beq_iff_eq] at h1
      exact ht.oneFrame g (List.mem_of_find?_eq_some hfi) f hf h1
  have hC := C69_eras (era := era) hlost h' hap ht.inSlots.pos hpow ?_ ?_ hidle
  · refine ⟨fun u => (hC.1 u).trans (peel_iff_decodable h' hap ht.inSlots hidle u), hC.2⟩
  · intro f hf g hg hlt
    rw [hera f hf, hera g hg] at hlt
    refine ht.inSlots.before f hf g hg ?_
    by_contra hc
    have := Nat.div_le_div_right (c := slots) (Nat.le_of_not_lt hc)
    omega
  · intro f hf g hg heq
    rw [hera f hf, hera g hg] at heq
    obtain ⟨δ, a1, a2, a3, a4⟩ := slotOf_eq ht hf
    obtain ⟨δ', b1, b2, b3, b4⟩ := slotOf_eq ht hg
    have hsp := ht.pos
    generalize slotOf slot lo f = a at *
    generalize slotOf slot lo g = b at *
    have hab : b + 1 ≤ a + slots := by
      have e1 := Nat.div_add_mod a slots
      have e2 := Nat.div_add_mod b slots
      have e3 := Nat.mod_lt b hsp
      rw [heq] at e1
      omega
    have := Nat.mul_le_mul_left slot hab
    rw [Nat.mul_add, Nat.mul_add, Nat.mul_one] at this
    unfold Frame.fin
    rw [a1, b1]
    omega

/-- A CRDSA receiver with such traffic, if every frame leaves more than the spread of its slot empty.  It always comes to a defined result, in whatever
order coinciding events run.  When nothing is being received any more, the packets passed up are exactly the decodable ones, each once. -/
theorem C70_receiver {lost : P → P → Bool} {slot slots lo spread : Nat} {ops : List (Op P)} {o : Outcome (Crdsa.Sys P)}
    {Q : P → Prop} (hlost : Aloha.Drops lost Q) (h : exec true true lost (slot * slots) ops = some o) (ht : CrdsaTraffic slot slots lo spread (frames ops))
    (hpow : ∀ f ∈ frames ops, Q f.pow) (hspare : ∀ f ∈ frames ops, f.dur + spread < slot) :
    ∃ s, o = .ok s ∧ (s.pending = [] →
      (∀ u, u ∈ s.delivered.map Prod.snd ↔ Decodable (fun T v => ∃ f ∈ frames ops, slotOf slot lo f = T ∧ f.uid = v) u) ∧
      (s.delivered.map Prod.snd).Nodup) :=
  receiver_ends_first hlost (exec_noTie h (ht.noTie hspare)) ht hpow

/-- Slots of ten ticks, four to a frame, delays between 3 and 4: packets 1 and 2 collide in the first slot, each has a replica alone in a later one;
packets 3 and 4 collide twice in the second frame. -/
def slotOps : List (Op Int) :=
  [.arrive ⟨1, 3, 6, 5⟩, .arrive ⟨2, 4, 6, 5⟩, .finish, .finish, .arrive ⟨1, 13, 6, 5⟩, .finish, .arrive ⟨2, 24, 6, 5⟩, .finish,
   .arrive ⟨3, 43, 6, 5⟩, .arrive ⟨4, 44, 6, 5⟩, .finish, .finish, .arrive ⟨3, 73, 6, 5⟩, .arrive ⟨4, 74, 6, 5⟩, .finish, .finish]

example : ∀ f ∈ frames slotOps, f.dur + 1 < 10 ∧ 0 < f.pow := by decide

example : CrdsaTraffic 10 4 3 1 (frames slotOps) where
  pos := by decide
  timing := by
    intro f hf
    refine ⟨(f.start - 3) / 10, (f.start - 3) % 10, ?_⟩
    revert f
    decide
  oneFrame := by decide
  distinct := by decide
  two := by
    intro u
    by_cases h : u < 5
    · revert u; decide
    · have : ∀ f ∈ frames slotOps, f.uid < 5 := by decide
      rw [List.countP_eq_zero.mpr]
      · omega
      · intro f hf he
        have := this f hf
        simp only [beq_iff_eq] at he
        omega
example : ∃ s, exec true true intLost (10 * 4) slotOps = some (.ok s) ∧ s.pending = [] ∧ s.delivered = [(19, 1), (19, 2)] :=
  ⟨_, rfl, by decide, by decide⟩

end

end Icarus
