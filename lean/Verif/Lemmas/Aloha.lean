import Verif.Model.Aloha
import Mathlib.Data.List.Basic
import Mathlib.Data.List.Nodup
import Mathlib.Data.List.Induction
import Mathlib.Algebra.BigOperators.Group.List.Basic

/-! Helper lemmas for `Verif.Props.Aloha`. -/

set_option autoImplicit false

namespace Icarus
namespace Aloha

variable {P : Type}

section
variable [Zero P] [Add P]

omit [Zero P] [Add P] in
theorem mem_schedule {f g : Frame P} {l : List (Frame P)} : g ∈ schedule f l ↔ g = f ∨ g ∈ l := by
  induction l with
  | nil => simp [schedule]
  | cons h t ih =>
    unfold schedule
    split
    · simp
    · simp [ih]; tauto

omit [Zero P] [Add P] in
theorem schedule_perm (f : Frame P) (l : List (Frame P)) : (schedule f l).Perm (f :: l) := by
  induction l with
  | nil => exact List.Perm.refl _
  | cons h t ih =>
    unfold schedule
    split
    · exact List.Perm.refl _
    · exact (List.Perm.cons h ih).trans (List.Perm.swap f h t)

omit [Zero P] [Add P] in
theorem schedule_sorted {f : Frame P} {l : List (Frame P)} (h : l.Pairwise (fun a b => a.fin ≤ b.fin)) :
    (schedule f l).Pairwise (fun a b => a.fin ≤ b.fin) := by
  induction l with
  | nil => simp [schedule]
  | cons x xs ih =>
    rw [List.pairwise_cons] at h
    unfold schedule
    split
    · rename_i hlt
      refine List.pairwise_cons.mpr ⟨?_, List.pairwise_cons.mpr h⟩
      intro b hb
      rcases List.mem_cons.mp hb with rfl | hb
      · omega
      · have := h.1 b hb; omega
    · rename_i hge
      refine List.pairwise_cons.mpr ⟨?_, ih h.2⟩
      intro b hb
      rcases mem_schedule.mp hb with rfl | hb
      · omega
      · exact h.1 b hb

omit [Zero P] [Add P] in
/-- The last event in execution order after scheduling. -/
theorem schedule_getLast {f : Frame P} {l : List (Frame P)} (h : l.Pairwise (fun a b => a.fin ≤ b.fin)) :
    (schedule f l).getLast? = match l.getLast? with
      | none => some f
      | some g => if g.fin ≤ f.fin then some f else some g := by
  induction l with
  | nil => simp [schedule]
  | cons x xs ih =>
    rw [List.pairwise_cons] at h
    unfold schedule
    split
    · rename_i hlt
      rw [List.getLast?_cons_cons]
      cases hl : (x :: xs).getLast? with
      | none => simp at hl
      | some g =>
        have hg : g ∈ x :: xs := List.mem_of_getLast? hl
        have : ¬ g.fin ≤ f.fin := by
          rcases List.mem_cons.mp hg with rfl | hg
          · omega
          · have := h.1 g hg; omega
        simp [this]
    · rename_i hge
      cases xs with
      | nil => simp [schedule]; omega
      | cons y ys =>
        have hne : schedule f (y :: ys) ≠ [] := by
          intro h0
          have := (schedule_perm f (y :: ys)).length_eq
          rw [h0] at this; simp at this
        obtain ⟨z, zs, hz⟩ := List.exists_cons_of_ne_nil hne
        rw [List.getLast?_cons_cons, hz, List.getLast?_cons_cons, ← hz, ih h.2]

/-- Frames that have started to arrive. -/
def frames : List (Op P) → List (Frame P)
  | [] => []
  | .arrive f :: os => f :: frames os
  | .finish :: os => frames os

omit [Zero P] [Add P] in
theorem frames_append (a b : List (Op P)) : frames (a ++ b) = frames a ++ frames b := by
  induction a with
  | nil => rfl
  | cons o os ih => cases o <;> simp [frames, ih]

theorem execFrom_append (ties : Bool) (lost : P → P → Bool) (s : Sys P) (a b : List (Op P)) :
    execFrom ties lost s (a ++ b) = (execFrom ties lost s a).bind (fun s' => execFrom ties lost s' b) := by
  induction a generalizing s with
  | nil => simp [execFrom]
  | cons o os ih =>
    simp only [List.cons_append, execFrom]
    cases step ties lost s o with
    | none => rfl
    | some s' => simp [ih]

theorem exec_snoc {ties : Bool} {lost : P → P → Bool} {ops : List (Op P)} {o : Op P} {s : Sys P} :
    exec ties lost (ops ++ [o]) = some s ↔ ∃ s0, exec ties lost ops = some s0 ∧ step ties lost s0 o = some s := by
  unfold exec
  rw [execFrom_append]
  cases execFrom ties lost Sys.init ops with
  | none => simp
  | some s0 =>
    simp only [Option.bind_some, execFrom]
    cases hst : step ties lost s0 o <;> simp [hst]

/-- Receptions of the same packet uid never coincide: the earlier one is over before the later one starts (if ends are processed before
starts at the same tick, the later one may start when the earlier one ends). -/
def Apart (ties : Bool) (fs : List (Frame P)) : Prop :=
  fs.Pairwise (fun a b => a.uid = b.uid → a.fin < b.start ∨ ties = false ∧ a.fin ≤ b.start)

omit [Zero P] [Add P] in
theorem apart_of_nodup {ties : Bool} {fs : List (Frame P)} (h : (fs.map Frame.uid).Nodup) : Apart ties fs := by
  unfold Apart
  rw [List.Nodup, List.pairwise_map] at h
  exact h.imp (fun hne he => absurd he hne)

/-- Bookkeeping that holds under every event order. -/
structure Base (s : Sys P) (fs : List (Frame P)) : Prop where
  sorted : s.pending.Pairwise (fun a b => a.fin ≤ b.fin)
  uid_eq : s.rx.uid = s.pending.getLast?.map Frame.uid
  finish_eq : ∀ f, s.pending.getLast? = some f → s.rx.finish = f.fin
  idle : s.pending = [] → s.rx.collision = false
  interf : s.pending ≠ [] → s.rx.interf.isSome = true
  sub : ∀ f ∈ s.pending, f ∈ fs
  nodup : (s.pending.map Frame.uid).Nodup
  started : ∀ f ∈ fs, f.start ≤ s.clock
  future : ∀ f ∈ s.pending, s.clock ≤ f.fin
  past : ∀ f ∈ fs, f ∉ s.pending → f.fin ≤ s.clock

theorem base_exec {ties : Bool} {lost : P → P → Bool} {ops : List (Op P)} {s : Sys P}
    (h : exec ties lost ops = some s) (hnd : Apart ties (frames ops)) : Base s (frames ops) := by
  induction ops using List.reverseRecOn generalizing s with
  | nil =>
    simp only [exec, execFrom, Option.some.injEq] at h
    subst h
    constructor <;> simp [Sys.init, Rx.init, frames]
  | append_singleton os o ih =>
    rw [exec_snoc] at h
    obtain ⟨s0, h0, h1⟩ := h
    have hnd0 : Apart ties (frames os) := by
      unfold Apart at hnd; rw [frames_append, List.pairwise_append] at hnd; exact hnd.1
    have b := ih h0 hnd0
    rw [frames_append] at hnd ⊢
    cases o with
    | arrive f =>
      simp only [step] at h1
      split at h1
      swap
      · simp at h1
      · rename_i hc
        simp only [Option.some.injEq] at h1
        subst h1
        have hlast := schedule_getLast (f := f) b.sorted
        have hpend : (schedule f s0.pending) ≠ [] := by
          intro h0
          have := (schedule_perm f s0.pending).length_eq
          rw [h0] at this; simp at this
        have hfnew : ∀ g ∈ s0.pending, g.uid ≠ f.uid := by
          unfold Apart at hnd
          rw [List.pairwise_append] at hnd
          intro g hg he
          have h1 := hnd.2.2 g (b.sub g hg) f (by simp [frames]) he
          have h2 := hc.2 g hg
          rcases h1 with h1 | ⟨ht, h1⟩
          · omega
          · subst ht; simp at h2; omega
        constructor
        · exact schedule_sorted b.sorted
        · -- uid
          show (startRx s0.rx f).uid = _
          rw [hlast]
          unfold startRx
          cases hl : s0.pending.getLast? with
          | none =>
            have hu := b.uid_eq; rw [hl] at hu; simp at hu
            simp [hu]
          | some g =>
            have hu := b.uid_eq; rw [hl] at hu; simp at hu
            have hf := b.finish_eq g hl
            by_cases hlt : f.start < s0.rx.finish
            · simp [hu, hf, hf ▸ hlt]; split <;> simp_all
            · simp [hu, hf, hf ▸ hlt]; split <;> simp_all
        · -- finish
          intro g' hg'
          show (startRx s0.rx f).finish = _
          rw [hlast] at hg'
          unfold startRx
          cases hl : s0.pending.getLast? with
          | none =>
            have hu := b.uid_eq; rw [hl] at hu hg'; simp at hu hg'
            subst hg'
            simp [hu]
          | some g =>
            have hu := b.uid_eq; rw [hl] at hu hg'; simp at hu hg'
            have hf := b.finish_eq g hl
            by_cases hlt : f.start < s0.rx.finish
            · simp [hu, hf, hf ▸ hlt]
              split at hg' <;> simp at hg' <;> subst hg' <;> split <;> first | rfl | omega
            · simp [hu, hf, hf ▸ hlt]
              split at hg' <;> simp at hg' <;> subst hg' <;> split <;> first | rfl | omega
        · intro h; exact absurd h hpend
        · intro _
          show (startRx s0.rx f).interf.isSome = true
          unfold startRx
          cases hl : s0.pending.getLast? with
          | none =>
            have hu := b.uid_eq; rw [hl] at hu; simp at hu
            simp [hu]
          | some g =>
            have hu := b.uid_eq; rw [hl] at hu; simp at hu
            have hi := b.interf (by intro h0; rw [h0] at hl; simp at hl)
            obtain ⟨i, hi⟩ := Option.isSome_iff_exists.mp hi
            by_cases hlt : f.start < s0.rx.finish
            · simp [hu, hlt, hi]; split <;> simp
            · simp [hu, hlt]; split <;> simp [hi]
        · intro g hg
          rcases mem_schedule.mp hg with rfl | hg
          · simp [frames]
          · simp [b.sub g hg]
        · have := ((schedule_perm f s0.pending).map Frame.uid).nodup_iff
          rw [this, List.map_cons, List.nodup_cons]
          refine ⟨fun hm => ?_, b.nodup⟩
          simp only [List.mem_map] at hm
          obtain ⟨g, hg, hgu⟩ := hm
          exact hfnew g hg hgu
        · intro g hg
          simp only [frames, List.mem_append, List.mem_singleton] at hg
          rcases hg with hg | rfl
          · exact Nat.le_trans (b.started g hg) hc.1
          · exact Nat.le_refl _
        · intro g hg
          rcases mem_schedule.mp hg with rfl | hg
          · show g.start ≤ g.fin; unfold Frame.fin; omega
          · show f.start ≤ g.fin
            have := hc.2 g hg
            omega
        · intro g hg hng
          simp only [frames, List.mem_append, List.mem_singleton] at hg
          simp only [mem_schedule, not_or] at hng
          rcases hg with hg | rfl
          · exact Nat.le_trans (b.past g hg hng.2) hc.1
          · exact absurd rfl hng.1
    | finish =>
      simp only [step] at h1
      cases hp : s0.pending with
      | nil => rw [hp] at h1; simp at h1
      | cons f rest =>
        rw [hp] at h1
        simp only [Option.some.injEq] at h1
        subst h1
        simp only [frames, List.append_nil] at hnd ⊢
        have bs := b.sorted
        have bl := b.uid_eq
        have bf := b.finish_eq
        rw [hp] at bs bl bf
        rw [List.pairwise_cons] at bs
        have hnd' := b.nodup
        rw [hp, List.map_cons, List.nodup_cons] at hnd'
        cases hr : rest with
        | nil =>
          subst hr
          simp at bl bf
          constructor
          · simp
          · simp [finishRx, bl]
          · simp
          · intro _; simp [finishRx, bl]
          · simp
          · simp
          · simp
          · intro g hg
            have := b.started g hg
            have := b.future f (by simp [hp])
            simp only; omega
          · simp
          · intro g hg _
            by_cases hgf : g = f
            · subst hgf; exact Nat.le_refl _
            · have := b.past g hg (by simp [hp, hgf])
              have := b.future f (by simp [hp])
              simp only; omega
        | cons g gs =>
          rw [← hr]
          have hlast : (f :: rest).getLast? = rest.getLast? := by rw [hr, List.getLast?_cons_cons]
          rw [hlast] at bl bf
          have hne : s0.rx.uid ≠ some f.uid := by
            rw [bl]
            intro he
            simp only [Option.map_eq_some_iff] at he
            obtain ⟨x, hx, hxu⟩ := he
            exact hnd'.1 (List.mem_map.mpr ⟨x, List.mem_of_getLast? hx, hxu⟩)
          have hrx : (finishRx lost s0.rx f).1 = s0.rx := by simp [finishRx, hne]
          constructor
          · exact bs.2
          · show (finishRx lost s0.rx f).1.uid = _; rw [hrx]; exact bl
          · show ∀ x, _ → (finishRx lost s0.rx f).1.finish = _; rw [hrx]; exact bf
          · intro h; rw [hr] at h; simp at h
          · intro _; show (finishRx lost s0.rx f).1.interf.isSome = true; rw [hrx]; exact b.interf (by simp [hp])
          · intro x hx; exact b.sub x (by simp [hp]; exact Or.inr hx)
          · exact hnd'.2
          · intro x hx
            have := b.started x hx
            have := b.future f (by simp [hp])
            simp only; omega
          · intro x hx; exact bs.1 x hx
          · intro x hx hnx
            by_cases hxf : x = f
            · subst hxf; exact Nat.le_refl _
            · have := b.past x hx (by simp [hp, hxf]; exact hnx)
              have := b.future f (by simp [hp])
              simp only; omega

end

/-- Frames received since the last instant at which nothing was being received (first component), with the number of frames
currently in the air (second component). -/
def busyStep : List (Frame P) × Nat → Op P → List (Frame P) × Nat
  | (bp, n), .arrive f => if n = 0 then ([f], 1) else (bp ++ [f], n + 1)
  | (bp, n), .finish => (bp, n - 1)

/-- The current busy period after `ops`. -/
def busyPeriod (ops : List (Op P)) : List (Frame P) := (ops.foldl busyStep ([], 0)).1

/-- Two receptions overlap in time. -/
def Overlap (f g : Frame P) : Prop := f.start < g.fin ∧ g.start < f.fin

instance (f g : Frame P) : Decidable (Overlap f g) := by unfold Overlap; infer_instance

theorem Overlap.symm {f g : Frame P} (h : Overlap f g) : Overlap g f := ⟨h.2, h.1⟩

variable [Zero P] [Add P]

/-- Adding up from the left, starting with the first number. -/
def total : List P → P
  | [] => 0
  | x :: xs => xs.foldl (· + ·) x

theorem total_snoc (xs : List P) (x : P) (hne : xs ≠ []) : total (xs ++ [x]) = total xs + x := by
  obtain ⟨y, ys, rfl⟩ := List.exists_cons_of_ne_nil hne
  simp [total]

/-- Frames whose powers satisfy `Q` are dropped by the test `lost` whenever at least two of them are received in a busy period: no capture. -/
def Drops (lost : P → P → Bool) (Q : P → Prop) : Prop :=
  ∀ l : List P, (∀ p ∈ l, Q p) → 2 ≤ l.length → ∀ p ∈ l, lost p (total l) = true

theorem Drops.mono {lost : P → P → Bool} {Q R : P → Prop} (h : Drops lost Q) (hR : ∀ p, R p → Q p) : Drops lost R :=
  fun l hl => h l (fun p hp => hR p (hl p hp))

theorem Drops.always {lost : P → P → Bool} (h : ∀ rx i, lost rx i = true) (Q : P → Prop) : Drops lost Q := fun _ _ _ _ _ => h _ _

structure Busy (s : Sys P) (fs : List (Frame P)) (b : List (Frame P) × Nat) : Prop where
  count : b.2 = s.pending.length
  interf : s.pending ≠ [] → s.rx.interf = some (total (b.1.map Frame.pow))
  collision : s.pending ≠ [] → (s.rx.collision = true ↔ 2 ≤ b.1.length)
  pend : ∀ f ∈ s.pending, f ∈ b.1
  suffix : b.1 <:+ fs
  before : s.pending ≠ [] → ∀ g ∈ fs, g ∉ b.1 → ∀ f ∈ b.1, g.fin ≤ f.start
  overlap : 2 ≤ b.1.length → ∀ f ∈ b.1, ∃ g ∈ b.1, g.uid ≠ f.uid ∧ Overlap f g

theorem busy_exec {lost : P → P → Bool} {ops : List (Op P)} {s : Sys P}
    (h : exec false lost ops = some s) (hnd : Apart false (frames ops)) (hd : ∀ f ∈ frames ops, 0 < f.dur) :
    Busy s (frames ops) (ops.foldl busyStep ([], 0)) := by
  induction ops using List.reverseRecOn generalizing s with
  | nil =>
    simp only [exec, execFrom, Option.some.injEq] at h
    subst h
    constructor <;> simp [Sys.init, Rx.init]
  | append_singleton os o ih =>
    rw [exec_snoc] at h
    obtain ⟨s0, h0, h1⟩ := h
    rw [frames_append] at hnd hd ⊢
    have hnd0 : Apart false (frames os) := by
      unfold Apart at hnd; rw [List.pairwise_append] at hnd; exact hnd.1
    have hd0 : ∀ f ∈ frames os, 0 < f.dur := fun f hf => hd f (by simp [hf])
    have b := base_exec h0 hnd0
    have c := ih h0 hnd0 hd0
    rw [List.foldl_append]
    simp only [List.foldl_cons, List.foldl_nil]
    generalize hbp : os.foldl busyStep ([], 0) = bp at c
    obtain ⟨bp, n⟩ := bp
    cases o with
    | arrive f =>
      simp only [step] at h1
      split at h1
      swap
      · simp at h1
      · rename_i hc
        simp only [Option.some.injEq] at h1
        subst h1
        have hcnt := c.count
        simp only at hcnt
        have hfnew : ∀ g ∈ s0.pending, g.uid ≠ f.uid := by
          unfold Apart at hnd
          rw [List.pairwise_append] at hnd
          intro g hg he
          have h1 := hnd.2.2 g (b.sub g hg) f (by simp [frames]) he
          have h2 := hc.2 g hg
          simp at h2 h1
          omega
        have hfd : 0 < f.dur := hd f (by simp [frames])
        have hlen : (schedule f s0.pending).length = s0.pending.length + 1 := by
          rw [(schedule_perm f s0.pending).length_eq]; rfl
        by_cases hp : s0.pending = []
        · -- idle receiver
          have hu := b.uid_eq
          rw [hp] at hu; simp at hu
          have hcol := b.idle hp
          have hn : n = 0 := by rw [hcnt, hp]; rfl
          have hrx : startRx s0.rx f = ⟨some f.uid, f.fin, false, some f.pow⟩ := by
            simp [startRx, hu, hcol]
          subst hn
          simp only [busyStep, hrx, if_true]
          constructor
          · simp [hp, schedule]
          · simp [total]
          · simp
          · simp [hp, schedule]
          · simp [frames]
          · intro _ g hg hng f' hf'
            simp only [List.mem_singleton] at hng hf'
            subst hf'
            simp only [frames, List.mem_append, List.mem_singleton, hng, or_false] at hg
            exact Nat.le_trans (b.past g hg (by simp [hp])) hc.1
          · simp
        · -- busy receiver
          obtain ⟨e, he⟩ : ∃ e, s0.pending.getLast? = some e := by
            cases hl : s0.pending.getLast? with
            | none => rw [List.getLast?_eq_none_iff] at hl; exact absurd hl hp
            | some e => exact ⟨e, rfl⟩
          have hem : e ∈ s0.pending := List.mem_of_getLast? he
          have hu := b.uid_eq
          rw [he] at hu; simp at hu
          have hf := b.finish_eq e he
          have hlt : f.start < e.fin := by
            have := hc.2 e hem
            simpa using this
          have hn : n ≠ 0 := by
            rw [hcnt]; intro h0; exact hp (List.length_eq_zero_iff.mp h0)
          have hi := c.interf hp
          have hrxc : (startRx s0.rx f).collision = true := by
            unfold startRx; simp [hu, hf, hlt]; split <;> rfl
          have hrxi : (startRx s0.rx f).interf = some (total (bp.map Frame.pow) + f.pow) := by
            unfold startRx; simp [hu, hf, hlt, hi]; split <;> rfl
          have heb := c.pend e hem
          have hest := b.started e (b.sub e hem)
          have hfe : Overlap f e := ⟨hlt, by unfold Frame.fin; omega⟩
          have hene : e.uid ≠ f.uid := hfnew e hem
          simp only [busyStep, if_neg hn]
          constructor
          · simp only [hlen, hcnt]
          · intro _
            have hbne : bp.map Frame.pow ≠ [] := by
              intro hnil
              rw [List.map_eq_nil_iff] at hnil
              rw [hnil] at heb
              simp at heb
            simp only [hrxi, List.map_append, List.map_singleton]
            rw [total_snoc _ _ hbne]
          · intro _
            simp only [hrxc, true_iff, List.length_append, List.length_singleton]
            have := List.length_pos_of_mem heb
            simp only at this; omega
          · intro g hg
            rcases mem_schedule.mp hg with rfl | hg
            · simp
            · simp; exact Or.inl (c.pend g hg)
          · obtain ⟨pre, hpre⟩ := c.suffix
            exact ⟨pre, by rw [← List.append_assoc, hpre]; rfl⟩
          · intro _ g hg hng f' hf'
            simp only [List.mem_append, List.mem_singleton, not_or] at hng hf'
            simp only [frames, List.mem_append, List.mem_singleton, hng.2, or_false] at hg
            rcases hf' with hf' | rfl
            · exact c.before hp g hg hng.1 f' hf'
            · exact Nat.le_trans (c.before hp g hg hng.1 e heb) (Nat.le_trans hest hc.1)
          · intro _ g hg
            simp only [List.mem_append, List.mem_singleton] at hg
            rcases hg with hg | rfl
            · by_cases h2 : 2 ≤ bp.length
              · obtain ⟨x, hx, hxu, hxo⟩ := c.overlap h2 g hg
                exact ⟨x, by simp; exact Or.inl hx, hxu, hxo⟩
              · -- the only frame is `e`
                have hge : g = e := by
                  have hl1 : bp.length = 1 := by
                    have := List.length_pos_of_mem heb; simp only at this; omega
                  obtain ⟨z, hz⟩ := List.length_eq_one_iff.mp hl1
                  simp only at hg heb
                  rw [hz] at hg heb
                  simp at hg heb
                  rw [hg, heb]
                subst hge
                exact ⟨f, by simp, fun h => hene h.symm, hfe.symm⟩
            · exact ⟨e, by simp; exact Or.inl heb, hene, hfe⟩
    | finish =>
      simp only [step] at h1
      cases hp : s0.pending with
      | nil => rw [hp] at h1; simp at h1
      | cons f rest =>
        rw [hp] at h1
        simp only [Option.some.injEq] at h1
        subst h1
        simp only [frames, List.append_nil, busyStep] at hnd hd ⊢
        have hcnt := c.count
        simp only at hcnt
        rw [hp] at hcnt
        have hpne : s0.pending ≠ [] := by simp [hp]
        have hrx : rest ≠ [] → (finishRx lost s0.rx f).1 = s0.rx := by
          intro hr
          have hnd' := b.nodup
          rw [hp, List.map_cons, List.nodup_cons] at hnd'
          have hl : s0.pending.getLast? = rest.getLast? := by
            obtain ⟨x, xs, rfl⟩ := List.exists_cons_of_ne_nil hr
            rw [hp, List.getLast?_cons_cons]
          have hne : s0.rx.uid ≠ some f.uid := by
            rw [b.uid_eq, hl]
            intro he
            simp only [Option.map_eq_some_iff] at he
            obtain ⟨x, hx, hxu⟩ := he
            exact hnd'.1 (List.mem_map.mpr ⟨x, List.mem_of_getLast? hx, hxu⟩)
          simp [finishRx, hne]
        constructor
        · simp only [hcnt, List.length_cons]; omega
        · intro hr; show (finishRx lost s0.rx f).1.interf = _; rw [hrx hr]; exact c.interf hpne
        · intro hr; show ((finishRx lost s0.rx f).1.collision = true ↔ _); rw [hrx hr]; exact c.collision hpne
        · intro g hg; exact c.pend g (by simp [hp]; exact Or.inr hg)
        · exact c.suffix
        · intro _; exact c.before hpne
        · exact c.overlap

omit [Zero P] [Add P] in
theorem total_eq_sum {Q : Type} [AddCommMonoid Q] (xs : List Q) : total xs = xs.sum := by
  cases xs with
  | nil => rfl
  | cons x xs =>
    rw [List.sum_cons]
    show xs.foldl (· + ·) x = _
    induction xs generalizing x with
    | nil => simp
    | cons y ys ih => rw [List.foldl_cons, ih, List.sum_cons, add_assoc]

theorem Busy.sub {s : Sys P} {fs : List (Frame P)} {b : List (Frame P) × Nat} (c : Busy s fs b) : ∀ f ∈ b.1, f ∈ fs :=
  fun _ hf => c.suffix.subset hf

theorem Busy.nodup {s : Sys P} {fs : List (Frame P)} {b : List (Frame P) × Nat} (c : Busy s fs b) (h : (fs.map Frame.uid).Nodup) :
    (b.1.map Frame.uid).Nodup := (c.suffix.sublist.map Frame.uid).nodup h

end Aloha
end Icarus
