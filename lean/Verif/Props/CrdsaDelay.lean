import Verif.Props.CrdsaUplink
import Verif.Props.QueueDelay

/-!
# How long a CRDSA receiver keeps a packet at most (C109)

A packet lost in a collision is passed up later, once the other packets of that collision are known.  C95 shows that no delay bounds this in general.  Here it is shown
what does: the busy periods.  A packet is passed up when its own reception ends, or less than two frames after the end of a busy period that one of its replicas was part of.
-/

set_option autoImplicit false

namespace Icarus
namespace Crdsa
open Aloha (Frame Op frames schedule Apart)

section
variable {P : Type}

/-- At every instant from `lo` to before `hi` one of the frames is being received. -/
def Occupied (fs : List (Frame P)) (lo hi : Nat) : Prop := ∀ v, lo ≤ v → v < hi → ∃ g ∈ fs, g.start ≤ v ∧ v < g.fin

theorem Occupied.mono {fs fs' : List (Frame P)} {lo hi : Nat} (h : Occupied fs lo hi) (hs : ∀ f ∈ fs, f ∈ fs') : Occupied fs' lo hi :=
  fun v h1 h2 => by obtain ⟨g, hg, e⟩ := h v h1 h2; exact ⟨g, hs g hg, e⟩

/-- A replica of `u` was received in a busy period that lasted at least until `hi`. -/
def Replica (fs : List (Frame P)) (u hi : Nat) : Prop := ∃ f ∈ fs, f.uid = u ∧ f.fin ≤ hi ∧ Occupied fs f.start hi

theorem Replica.mono {fs fs' : List (Frame P)} {u hi : Nat} (h : Replica fs u hi) (hs : ∀ f ∈ fs, f ∈ fs') : Replica fs' u hi := by
  obtain ⟨f, hf, e1, e2, e3⟩ := h
  exact ⟨f, hs f hf, e1, e2, e3.mono hs⟩

end

section
variable {P : Type} [Zero P] [Add P]

structure Traced (F : Nat) (s : Sys P) (fs : List (Frame P)) : Prop where
  collided : ∀ l, s.pending.getLast? = some l → ∀ u ∈ s.st.collided, Replica fs u l.fin
  periods : ∀ p ∈ s.st.periods, ∀ u ∈ p.pkts, Replica fs u p.finish
  delivered : ∀ y ∈ s.delivered, (∃ f ∈ fs, f.uid = y.2 ∧ y.1 = f.fin) ∨ ∃ hi, hi ≤ y.1 ∧ y.1 < hi + 2 * F ∧ Replica fs y.2 hi

theorem traced_exec {strict ties : Bool} {lost : P → P → Bool} {F : Nat} {ops : List (Op P)} {s : Sys P}
    (h : exec strict ties lost F ops = some (.ok s)) (hap : Apart ties (frames ops)) : Traced F s (frames ops) := by
  induction ops using List.reverseRecOn generalizing s with
  | nil =>
    simp only [exec, execFrom, Option.some.injEq, Outcome.ok.injEq] at h
    subst h
    constructor <;> simp [Sys.init, St.init]
  | append_singleton os o ih =>
    rw [exec_snoc] at h
    obtain ⟨s0, h0, hstep⟩ := h
    have hap0 : Apart ties (frames os) := by
      unfold Apart at hap ⊢; rw [Aloha.frames_append, List.pairwise_append] at hap; exact hap.1
    obtain ⟨i1, i2, i3⟩ := ih h0 hap0
    have c := inv_exec h0 hap0
    obtain ⟨d0, hd0⟩ := exec_aloha h0
    have b := Aloha.base_exec hd0 hap0
    have hsub : ∀ f ∈ frames os, f ∈ frames (os ++ [o]) := fun f hf => by rw [Aloha.frames_append]; simp [hf]
    have i3' : ∀ y ∈ s0.delivered, (∃ f ∈ frames (os ++ [o]), f.uid = y.2 ∧ y.1 = f.fin) ∨
        ∃ hi, hi ≤ y.1 ∧ y.1 < hi + 2 * F ∧ Replica (frames (os ++ [o])) y.2 hi := fun y hy => by
      rcases i3 y hy with ⟨f, hf, e⟩ | ⟨hi, h1, h2, h3⟩
      · exact Or.inl ⟨f, hsub f hf, e⟩
      · exact Or.inr ⟨hi, h1, h2, h3.mono hsub⟩
    cases o with
    | arrive f =>
      obtain ⟨hc, rfl⟩ := step_arrive_ok.mp hstep
      have hnew : f ∈ frames (os ++ [.arrive f]) := by rw [Aloha.frames_append]; simp [frames]
      have hown : ∀ hi, f.fin ≤ hi → Occupied (frames (os ++ [.arrive f])) f.fin hi → Replica (frames (os ++ [.arrive f])) f.uid hi := by
        intro hi h1 h2
        refine ⟨f, hnew, rfl, h1, fun v hv1 hv2 => ?_⟩
        by_cases hv : v < f.fin
        · exact ⟨f, hnew, hv1, hv⟩
        · exact h2 v (by omega) hv2
      refine ⟨?_, fun p hp u hu => (i2 p hp u hu).mono hsub, i3'⟩
      intro l hl u hu
      have hl : (schedule f s0.pending).getLast? = some l := hl
      rw [Aloha.schedule_getLast b.sorted] at hl
      simp only [startRx] at hu
      cases hg : s0.pending.getLast? with
      | none =>
        rw [hg] at hl
        simp only [Option.some.injEq] at hl
        subst hl
        rcases mem_insertKey.mp hu with rfl | hu
        · exact hown _ (Nat.le_refl _) (fun v _ _ => by omega)
        · have := ((c.busy u).mp hu).1
          rw [List.getLast?_eq_none_iff] at hg
          exact absurd hg this
      | some g =>
        rw [hg] at hl
        simp only at hl
        have hgm : g ∈ s0.pending := List.mem_of_getLast? hg
        have hgs : g.start ≤ s0.clock := b.started g (b.sub g hgm)
        have hfg := hc.2 g hgm
        have hgf : g ∈ frames (os ++ [.arrive f]) := hsub g (b.sub g hgm)
        split at hl
        · simp only [Option.some.injEq] at hl
          subst hl
          rename_i hle
          rcases mem_insertKey.mp hu with rfl | hu
          · exact hown _ (Nat.le_refl _) (fun v _ _ => by omega)
          · obtain ⟨x, hx, e1, e2, e3⟩ := i1 g hg u hu
            refine ⟨x, hsub x hx, e1, by omega, fun v hv1 hv2 => ?_⟩
            by_cases hv : v < g.fin
            · exact e3.mono hsub v hv1 hv
            · exact ⟨f, hnew, by omega, hv2⟩
        · simp only [Option.some.injEq] at hl
          subst hl
          rename_i hle
          rcases mem_insertKey.mp hu with rfl | hu
          · refine hown _ (by omega) (fun v hv1 hv2 => ⟨g, hgf, ?_, hv2⟩)
            have : f.start ≤ f.fin := by unfold Frame.fin; omega
            omega
          · exact (i1 g hg u hu).mono hsub
    | finish =>
      obtain ⟨f, rest, st, out, hp, hf, rfl⟩ := step_finish_ok.mp hstep
      have hfm : f ∈ frames os := b.sub f (by show f ∈ s0.pending; simp [hp])
      have hown : ∀ u ∈ (receiveOwn f.fin (hasCollided lost s0.st.rx f) f.uid s0.st.received).2,
          (∃ g ∈ frames os, g.uid = u ∧ f.fin = g.fin) ∨ ∃ hi, hi ≤ f.fin ∧ f.fin < hi + 2 * F ∧ Replica (frames os) u hi :=
        fun u hu => Or.inl ⟨f, hfm, ((receiveOwn_spec _ _ _ _).2.2.1 u hu).1.symm, rfl⟩
      have main : (∀ l, rest.getLast? = some l → ∀ u ∈ st.collided, Replica (frames os) u l.fin) ∧
          (∀ p ∈ st.periods, ∀ u ∈ p.pkts, Replica (frames os) u p.finish) ∧
          ∀ u ∈ out, (∃ g ∈ frames os, g.uid = u ∧ f.fin = g.fin) ∨ ∃ hi, hi ≤ f.fin ∧ f.fin < hi + 2 * F ∧ Replica (frames os) u hi := by
        by_cases hu : s0.st.rx.uid = some f.uid
        · have hrest : rest = [] := (closes_iff b hp).mp hu
          subst hrest
          have hlast : s0.pending.getLast? = some f := by simp [hp]
          have hfin : s0.st.rx.finish = f.fin := b.finish_eq f hlast
          have hclk : s0.clock ≤ f.fin := b.future f (by show f ∈ s0.pending; simp [hp])
          rcases finishRx_last (strict := strict) (lost := lost) (frameLen := F) hu with ⟨hb, -⟩ | ⟨ps, rs, rec, hcan, hk⟩
          · rw [hb] at hf; simp at hf
          · rw [hk] at hf
            simp only [Outcome.ok.injEq, Prod.mk.injEq] at hf
            obtain ⟨rfl, rfl⟩ := hf
            have hsort : (if hasCollided lost s0.st.rx f = true then s0.st.periods ++ [⟨s0.st.rx.finish, s0.st.collided⟩]
                else s0.st.periods).Pairwise (fun p q => p.finish ≤ q.finish) := by
              split
              · rw [List.pairwise_append]
                refine ⟨c.sorted, by simp, ?_⟩
                intro p hpm q hq
                simp at hq
                subst hq
                have := c.past p hpm
                simp only
                omega
              · exact c.sorted
            have hat : collisionsAt lost F s0.st f = _ := cleanPeriods_filter hsort
            have hcol : ∀ p ∈ collisionsAt lost F s0.st f, (∀ u ∈ p.pkts, Replica (frames os) u p.finish) ∧
                p.finish ≤ f.fin ∧ f.fin < p.finish + 2 * F := by
              intro p hpm
              rw [hat] at hpm
              obtain ⟨hpm, hlim⟩ := List.mem_filter.mp hpm
              simp only [decide_eq_true_eq] at hlim
              have hlim' : f.fin < p.finish + 2 * F := by omega
              split at hpm
              · simp only [List.mem_append, List.mem_singleton] at hpm
                rcases hpm with hpm | rfl
                · have := c.past p hpm
                  exact ⟨i2 p hpm, by omega, hlim'⟩
                · refine ⟨fun u hu => ?_, by simp only; omega, hlim'⟩
                  simp only [hfin]
                  exact i1 f hlast u hu
              · have := c.past p hpm
                exact ⟨i2 p hpm, by omega, hlim'⟩
            refine ⟨by simp, fun p hpm u hu => ?_, fun u hu => ?_⟩
            · obtain ⟨⟨q, hq, e0, e⟩, -, -⟩ := mem_after_cancel hcan hpm
              rw [e] at hu
              rw [e0]
              exact (hcol q hq).1 u (List.mem_of_mem_filter hu)
            · rw [List.mem_append] at hu
              rcases hu with hu | hu
              · exact hown u hu
              · obtain ⟨-, -, c3, c4, -, -⟩ := cancel_spec hcan
                rcases peel_or (c4 u hu) with h1 | ⟨q, hq, huq⟩
                · rw [c3 u hu] at h1; simp at h1
                · obtain ⟨p, hpm, rfl⟩ := List.mem_map.mp hq
                  obtain ⟨k1, k2, k3⟩ := hcol p hpm
                  exact Or.inr ⟨p.finish, k2, k3, k1 u huq⟩
        · have hne : rest ≠ [] := fun e => hu ((closes_iff b hp).mpr e)
          rw [finishRx_inner hu] at hf
          simp only [Outcome.ok.injEq, Prod.mk.injEq] at hf
          obtain ⟨rfl, rfl⟩ := hf
          refine ⟨fun l hl => i1 l ?_, i2, hown⟩
          rw [hp, List.getLast?_cons]
          rw [hl]; rfl
      refine ⟨fun l hl u hu => (main.1 l hl u hu).mono hsub, fun p hpm u hu => (main.2.1 p hpm u hu).mono hsub, fun y hy => ?_⟩
      simp only [List.mem_append, List.mem_map] at hy
      rcases hy with hy | ⟨u, hu, rfl⟩
      · exact i3' y hy
      · rcases main.2.2 u hu with ⟨g, hg, e⟩ | ⟨hi, h1, h2, h3⟩
        · exact Or.inl ⟨g, hsub g hg, e⟩
        · exact Or.inr ⟨hi, h1, h2, h3.mono hsub⟩

/-- **Busy periods.**  Whatever is passed up is passed up when its own reception ends, or after the end of a busy period in which one of its replicas was received,
less than two frames after: from the start of that replica to `hi` something was being received all the time. -/
theorem C109_busy {strict ties : Bool} {lost : P → P → Bool} {F : Nat} {ops : List (Op P)} {s : Sys P}
    (h : exec strict ties lost F ops = some (.ok s)) (hap : Apart ties (frames ops)) {t u : Nat} (hd : (t, u) ∈ s.delivered) :
    ∃ f ∈ frames ops, f.uid = u ∧ (t = f.fin ∨
      ∃ hi, f.fin ≤ hi ∧ hi ≤ t ∧ t < hi + 2 * F ∧ ∀ v, f.start ≤ v → v < hi → ∃ g ∈ frames ops, g.start ≤ v ∧ v < g.fin) := by
  rcases (traced_exec h hap).delivered _ hd with ⟨f, hf, e1, e2⟩ | ⟨hi, h1, h2, f, hf, e1, e2, e3⟩
  · exact ⟨f, hf, e1, Or.inl e2⟩
  · exact ⟨f, hf, e1, Or.inr ⟨hi, e2, h1, h2, e3⟩⟩

/-- **A quiet instant.**  If, after a replica of every packet, some instant within `S` ticks of its start is quiet, nothing is passed up `S` ticks and two frames after the
start of its replica, or later. -/
theorem C109_quiet {strict ties : Bool} {lost : P → P → Bool} {F S : Nat} {ops : List (Op P)} {s : Sys P}
    (h : exec strict ties lost F ops = some (.ok s)) (hap : Apart ties (frames ops)) (hdur : ∀ f ∈ frames ops, f.dur ≤ S)
    (hquiet : ∀ f ∈ frames ops, ∃ v, f.start ≤ v ∧ v ≤ f.start + S ∧ ∀ g ∈ frames ops, ¬ (g.start ≤ v ∧ v < g.fin))
    {t u : Nat} (hd : (t, u) ∈ s.delivered) : ∃ f ∈ frames ops, f.uid = u ∧ f.start ≤ t ∧ t ≤ f.start + S + 2 * F := by
  obtain ⟨f, hf, e, hb⟩ := C109_busy h hap hd
  refine ⟨f, hf, e, ?_⟩
  rcases hb with rfl | ⟨hi, h1, h2, h3, h4⟩
  · have := hdur f hf
    unfold Frame.fin
    omega
  · obtain ⟨v, v1, v2, v3⟩ := hquiet f hf
    have : hi ≤ v := by
      by_contra hlt
      obtain ⟨g, hg, g1⟩ := h4 v v1 (by omega)
      exact v3 g hg g1
    unfold Frame.fin at h1
    omega

omit [Zero P] [Add P] in
/-- Every frame falls into a slot of `slot` ticks, counted from `lo`, and ends before the slot does. -/
def InSlotsFrom (slot lo : Nat) (fs : List (Frame P)) : Prop := ∀ f ∈ fs, ∃ q, lo + slot * q ≤ f.start ∧ f.fin < lo + slot * (q + 1)

/-- **Slots.**  If all frames received fall into slots, a packet is passed up less than two frames after the end of a slot in which one of its replicas was received. -/
theorem C109_slots {strict ties : Bool} {lost : P → P → Bool} {F slot lo : Nat} {ops : List (Op P)} {s : Sys P}
    (h : exec strict ties lost F ops = some (.ok s)) (hap : Apart ties (frames ops)) (hslots : InSlotsFrom slot lo (frames ops))
    {t u : Nat} (hd : (t, u) ∈ s.delivered) :
    ∃ f ∈ frames ops, f.uid = u ∧ f.start ≤ t ∧ ∀ q, lo + slot * q ≤ f.start → f.start < lo + slot * (q + 1) → t < lo + slot * (q + 1) + 2 * F := by
  obtain ⟨f, hf, e, hb⟩ := C109_busy h hap hd
  obtain ⟨q0, a1, a2⟩ := hslots f hf
  have hfs : f.start ≤ f.fin := by unfold Frame.fin; omega
  have huniq : ∀ q, lo + slot * q ≤ f.start → f.start < lo + slot * (q + 1) → q = q0 := by
    intro q b1 b2
    rcases Nat.lt_trichotomy q q0 with hl | hl | hl
    · have := Nat.mul_le_mul_left slot (Nat.succ_le_of_lt hl)
      simp only [Nat.succ_eq_add_one] at this
      omega
    · exact hl
    · have := Nat.mul_le_mul_left slot (Nat.succ_le_of_lt hl)
      simp only [Nat.succ_eq_add_one] at this
      omega
  refine ⟨f, hf, e, ?_, fun q b1 b2 => ?_⟩
  · rcases hb with rfl | ⟨hi, h1, h2, h3, h4⟩ <;> omega
  · have := huniq q b1 b2
    subst this
    rcases hb with rfl | ⟨hi, h1, h2, h3, h4⟩
    · omega
    · have : hi ≤ lo + slot * (q + 1) - 1 := by
        by_contra hlt
        obtain ⟨g, hg, g1, g2⟩ := h4 (lo + slot * (q + 1) - 1) (by omega) (by omega)
        obtain ⟨r, c1, c2⟩ := hslots g hg
        rcases Nat.lt_or_ge q r with hl | hl
        · have := Nat.mul_le_mul_left slot (Nat.succ_le_of_lt hl)
          simp only [Nat.succ_eq_add_one] at this
          omega
        · have := Nat.mul_le_mul_left slot (Nat.succ_le_succ hl)
          simp only [Nat.succ_eq_add_one] at this
          omega
      omega

theorem frames_sorted {strict ties : Bool} {lost : P → P → Bool} {F : Nat} {ops : List (Op P)} {s : Sys P}
    (h : exec strict ties lost F ops = some (.ok s)) :
    (frames ops).Pairwise (fun f g => f.start ≤ g.start) ∧ ∀ f ∈ frames ops, f.start ≤ s.clock := by
  induction ops using List.reverseRecOn generalizing s with
  | nil => simp [frames]
  | append_singleton os o ih =>
    rw [exec_snoc] at h
    obtain ⟨s0, h0, hstep⟩ := h
    obtain ⟨i1, i2⟩ := ih h0
    rw [Aloha.frames_append]
    cases o with
    | arrive f =>
      obtain ⟨hc, rfl⟩ := step_arrive_ok.mp hstep
      simp only [frames]
      rw [List.pairwise_append]
      refine ⟨⟨i1, by simp, fun a ha b hb => ?_⟩, fun a ha => ?_⟩
      · rw [List.mem_singleton] at hb; subst hb; exact Nat.le_trans (i2 a ha) hc.1
      · rw [List.mem_append, List.mem_singleton] at ha
        rcases ha with ha | rfl
        · exact Nat.le_trans (i2 a ha) hc.1
        · exact Nat.le_refl _
    | finish =>
      obtain ⟨f, rest, st, out, hp, hf, rfl⟩ := step_finish_ok.mp hstep
      simp only [frames, List.append_nil]
      exact ⟨i1, fun a ha => Nat.le_trans (i2 a ha) ((crdsa_clock h0).2 f (by simp [hp]))⟩

/-- Frames in slots, no two of the same packet in the same slot, do not coincide. -/
theorem apart_of_slots {strict ties : Bool} {lost : P → P → Bool} {F slot lo : Nat} {ops : List (Op P)} {s : Sys P}
    (h : exec strict ties lost F ops = some (.ok s)) (hslots : InSlotsFrom slot lo (frames ops))
    (hdist : (frames ops).Pairwise (fun f g => f.uid = g.uid → (f.start - lo) / slot ≠ (g.start - lo) / slot)) : Apart ties (frames ops) := by
  unfold Apart
  refine List.Pairwise.imp_of_mem ?_ (hdist.and (frames_sorted h).1)
  rintro f g hf hg ⟨h1, h2⟩ e
  left
  have h3 := h1 e
  obtain ⟨q, a1, a2⟩ := hslots f hf
  obtain ⟨r, b1, b2⟩ := hslots g hg
  have hfs : f.start ≤ f.fin := by unfold Frame.fin; omega
  have hgs : g.start ≤ g.fin := by unfold Frame.fin; omega
  have hpos : 0 < slot := by
    rcases Nat.eq_zero_or_pos slot with rfl | hp
    · simp at a1 a2; omega
    · exact hp
  have num : ∀ (x : Frame P) (q : Nat), lo + slot * q ≤ x.start → x.start < lo + slot * (q + 1) → (x.start - lo) / slot = q := by
    intro x q c1 c2
    rw [Nat.mul_succ] at c2
    have : x.start - lo = slot * q + (x.start - lo - slot * q) := by omega
    rw [this, Nat.mul_add_div hpos, Nat.div_eq_of_lt (by omega), Nat.add_zero]
  rw [num f q a1 (by omega), num g r b1 (by omega)] at h3
  rcases Nat.lt_trichotomy q r with hl | hl | hl
  · have := Nat.mul_le_mul_left slot (Nat.succ_le_of_lt hl)
    simp only [Nat.succ_eq_add_one] at this
    omega
  · exact absurd hl h3
  · have := Nat.mul_le_mul_left slot (Nat.succ_le_of_lt hl)
    simp only [Nat.succ_eq_add_one] at this
    omega

end

/-- Frames 1 and 2 collide until 10; a replica of 2 that ends at `10 + dur` follows. -/
def twoOps (dur : Nat) : List (Op Nat) := [.arrive ⟨1, 0, 10, 1⟩, .arrive ⟨2, 5, 5, 1⟩, .finish, .finish, .arrive ⟨2, 12, dur, 1⟩, .finish]

/-- The bound is sharp: with CRDSA frames of 10 ticks, packet 1 is passed up at 29, the last instant less than two frames after the end of the busy period;
if the replica of packet 2 ends one tick later, packet 1 is never passed up. -/
theorem C109_sharp :
    (∃ s, exec true true (fun _ i => decide (0 < i)) 10 (twoOps 17) = some (.ok s) ∧ s.delivered = [(29, 2), (29, 1)] ∧ Apart true (frames (twoOps 17)) ∧
      ∀ f ∈ frames (twoOps 17), f.uid = 1 → f.fin = 10) ∧
    ∃ s, exec true true (fun _ i => decide (0 < i)) 10 (twoOps 18) = some (.ok s) ∧ s.delivered = [(30, 2)] := by
  refine ⟨⟨_, rfl, ?_⟩, ⟨_, rfl, ?_⟩⟩
  · unfold Apart; decide
  · decide

/-- Frame 1 ends at 10, but the other frame it collides with goes on until `10 + N`; a replica of that one follows. -/
def longOps (N : Nat) : List (Op Nat) := [.arrive ⟨1, 0, 10, 1⟩, .arrive ⟨2, 5, 5 + N, 1⟩, .finish, .finish, .arrive ⟨2, 12 + N, 2, 1⟩, .finish]

/-- No delay bounds this in general: for every `N`, packet 1 may be passed up more than `N` ticks after its only frame has ended. -/
theorem C109_late (N : Nat) : ∃ s, exec true true (fun _ i => decide (0 < i)) 10 (longOps N) = some (.ok s) ∧ s.delivered = [(14 + N, 2), (14 + N, 1)] ∧
    Apart true (frames (longOps N)) ∧ ∀ f ∈ frames (longOps N), f.uid = 1 → f.fin = 10 := by
  refine ⟨⟨14 + N, ⟨⟨none, 14 + N, false, some 0⟩, [], [], [(2, 14 + N), (1, 14 + N)]⟩, [], [(14 + N, 2), (14 + N, 1)]⟩, ?_, rfl, ?_, ?_⟩
  · have e1 : ¬ (5 + (5 + N) < 10) := by omega
    have e2 : (10 : Nat) ≤ 5 + (5 + N) := by omega
    have e4 : 5 + (5 + N) ≤ 12 + N := by omega
    have e5 : 12 + N + 2 = 14 + N := by omega
    simp [exec, execFrom, longOps, step, Sys.init, St.init, startRx, Aloha.startRx, Aloha.Rx.init, schedule, Frame.fin, finishRx, hasCollided, receiveOwn, has,
      cleanPeriods, cleanReceived, cancel, fuelFor, mic, prune, eraseAt, emptyPositions, singles, insertKey, e1, e2, e4, e5]
    have e8 : List.dropWhile (fun p : Period => !decide (14 + (N : Int) - 20 < (p.finish : Int))) [⟨5 + (5 + N), [1, 2]⟩] = [⟨5 + (5 + N), [1, 2]⟩] := by
      rw [List.dropWhile_cons_of_neg]
      simp
      omega
    rw [e8]
    rfl
  · unfold Apart; simp [frames, longOps, Frame.fin]; omega
  · simp [frames, longOps, Frame.fin]
/-- The hypotheses of `C109_busy` and `C109_quiet` hold in the first history of `C109_sharp`. -/
example : ∃ f ∈ frames (twoOps 17), f.uid = 1 ∧ f.start ≤ 29 ∧ 29 ≤ f.start + 17 + 2 * 10 := by
  obtain ⟨⟨s, h1, h2, h3, -⟩, -⟩ := C109_sharp
  refine C109_quiet (S := 17) h1 h3 (by decide) ?_ (t := 29) (u := 1) (by rw [h2]; decide)
  intro f hf
  simp only [twoOps, frames, List.mem_cons, List.not_mem_nil, or_false] at hf
  rcases hf with rfl | rfl | rfl
  · exact ⟨10, by decide⟩
  · exact ⟨10, by decide⟩
  · exact ⟨29, by decide⟩

/-- The hypotheses of `C109_slots` hold for the slotted history of C70. -/
example : InSlotsFrom 10 3 (frames slotOps) ∧ Apart true (frames slotOps) ∧
    ∃ s, exec true true (fun p i : Int => decide (p ≤ i)) 40 slotOps = some (.ok s) ∧ (19, 1) ∈ s.delivered ∧ (19, 2) ∈ s.delivered := by
  refine ⟨?_, by unfold Apart; decide, ⟨_, rfl, by decide⟩⟩
  intro f hf
  simp only [slotOps, frames, List.mem_cons, List.not_mem_nil, or_false] at hf
  rcases hf with rfl | rfl | rfl | rfl | rfl | rfl | rfl | rfl
  exacts [⟨0, by decide⟩, ⟨0, by decide⟩, ⟨1, by decide⟩, ⟨2, by decide⟩, ⟨4, by decide⟩, ⟨4, by decide⟩, ⟨7, by decide⟩, ⟨7, by decide⟩]

end Crdsa

namespace Uplink
open GroundSatChannel
open GroundSta (Entry attempts pendingStarts)

variable {D G V W P : Type} [Fintype G] [Fintype D] [DecidableEq G] [DecidableEq D]

theorem frameStart_near (F t : Nat) (hF : 0 < F) : t ≤ frameStart F t ∧ frameStart F t < t + F := by
  unfold frameStart toNextSlot
  have := Nat.mod_lt (F - t % F) hF
  omega

omit [Fintype D] [DecidableEq G] in
/-- Any part of the planned frames that a satellite hears: the slots they are in, and no packet twice in a slot.  (As `traffic`, for any number of replicas.) -/
theorem traffic_slots {R : Type} {net : Net D G V W P R} (hkey : ∀ i u, net.rx.key i u = u) {w : World D G W} {tgt : SatAddress → Option D}
    {slot slots : Nat} (hs : 0 < slot) (hn : 0 < slots) {chosen : G → Nat → List Nat} (hc : ∀ g, Choice slots (chosen g))
    {lo hi : D → Nat} (hdelay : ∀ t g d, lo d ≤ w.delay t g d ∧ w.delay t g d ≤ hi d)
    {handed : G → List (Nat × Entry W)} (hlen : ∀ g d, ∀ y ∈ handed g, y.2.len + (hi d - lo d) < slot)
    (hnd : ∀ g, ((handed g).map (fun y => y.2.pkt)).Nodup) (hdist : ∀ g h, g ≠ h → ∀ y ∈ handed g, ∀ z ∈ handed h, y.2.pkt ≠ z.2.pkt)
    {L : List (Nat × D × Flight W)}
    (hL : (L : Multiset (Nat × D × Flight W)) ≤
      ∑ g, (((plan slot slots (chosen g) 0 (handed g)).filterMap (lands net.addr w tgt g) : List _) : Multiset (Nat × D × Flight W))) (d : D) :
    (∀ f ∈ framesAt net d L, ∃ (g : G) (i a : Nat) (x : Entry W) (j : Nat), (handed g)[i]? = some (a, x) ∧ x.pkt = f.uid ∧ j < slots ∧
      Reaches w tgt g d (frameStart (slot * slots) a + j * slot, x) ∧
      lo d + (frameStart (slot * slots) a + j * slot) ≤ f.start ∧ f.fin < lo d + (frameStart (slot * slots) a + j * slot) + slot ∧
      slot ∣ frameStart (slot * slots) a + j * slot) ∧
    (framesAt net d L).Pairwise (fun f g => f.uid = g.uid → (f.start - lo d) / slot ≠ (g.start - lo d) / slot) := by
  have hsrc : ∀ u ∈ L, ∃ g, ∃ y ∈ plan slot slots (chosen g) 0 (handed g), lands net.addr w tgt g y = some u := by
    intro u hu
    have := Multiset.mem_of_le hL (show u ∈ (L : Multiset _) from hu)
    rw [Multiset.mem_sum] at this
    obtain ⟨g, -, hg⟩ := this
    rw [Multiset.mem_coe, List.mem_filterMap] at hg
    obtain ⟨y, hy, e⟩ := hg
    exact ⟨g, y, hy, e⟩
  have hplan : ∀ g, ∀ y ∈ plan slot slots (chosen g) 0 (handed g), ∃ z ∈ handed g, z.2 = y.2 := by
    intro g y hy
    obtain ⟨i, t, j, h1, -, -⟩ := mem_plan.mp hy
    exact ⟨_, List.mem_of_getElem? h1, rfl⟩
  have hslot : ∀ (g : G) (y : Nat × Entry W) (u : Nat × D × Flight W), y ∈ plan slot slots (chosen g) 0 (handed g) →
      lands net.addr w tgt g y = some u → u.2.1 = d → (u.1 - lo d) / slot = y.1 / slot ∧ lo d + y.1 ≤ u.1 ∧ u.1 + u.2.2.len < lo d + y.1 + slot := by
    intro g y u hy hu hd
    obtain ⟨-, u1, u2, -⟩ := lands_eq_some hu
    obtain ⟨z, hz, e⟩ := hplan g y hy
    have h1 := hlen g d z hz
    have h2 := hdelay y.1 g d
    rw [hd] at u1
    rw [e, ← u2] at h1
    refine ⟨?_, by omega, by omega⟩
    have h3 := Nat.mul_div_cancel' (plan_slot hs hn hy)
    have h4 : u.1 - lo d = slot * (y.1 / slot) + (w.delay y.1 g d - lo d) := by rw [h3, u1]; omega
    have h5 : (w.delay y.1 g d - lo d) / slot = 0 := Nat.div_eq_of_lt (by omega)
    rw [h4, Nat.mul_add_div hs, h5, Nat.add_zero]
  have hcount : ∀ (B : Nat) (p : Aloha.Frame P → Bool) (q : Nat × Entry W → Bool) (v : Nat),
      (∀ (g : G) (y : Nat × Entry W) (u : Nat × D × Flight W), y ∈ plan slot slots (chosen g) 0 (handed g) → lands net.addr w tgt g y = some u →
        u.2.1 = d → p ⟨u.2.2.pkt, u.1, u.2.2.len, net.toP u.2.2.power⟩ = true → q y = true) →
      (∀ y, q y = true → y.2.pkt = v) →
      (∀ g, (plan slot slots (chosen g) 0 (handed g)).countP q ≤ B) → (framesAt net d L).countP p ≤ B := by
    intro B p q v hpq hqv hB
    let p' : Nat × D × Flight W → Bool := fun u => decide (u.2.1 = d) && p ⟨u.2.2.pkt, u.1, u.2.2.len, net.toP u.2.2.power⟩
    have h1 : (framesAt net d L).countP p = L.countP p' := by
      rw [framesAt_pkt net hkey, List.countP_filterMap]
      refine List.countP_congr (fun u _ => ?_)
      by_cases hd : u.2.1 = d <;> simp [p', hd]
    have h2 : L.countP p' ≤ ∑ g, ((plan slot slots (chosen g) 0 (handed g)).filterMap (lands net.addr w tgt g)).countP p' := by
      have h3 := Multiset.countP_le_of_le (fun x => p' x = true) hL
      have h4 : Multiset.countP (fun x => p' x = true) (∑ g, (((plan slot slots (chosen g) 0 (handed g)).filterMap (lands net.addr w tgt g) :
          List _) : Multiset (Nat × D × Flight W))) = ∑ g, ((plan slot slots (chosen g) 0 (handed g)).filterMap (lands net.addr w tgt g)).countP p' := by
        classical
        induction (Finset.univ : Finset G) using Finset.induction_on with
        | empty => simp
        | insert a s ha ih =>
          rw [Finset.sum_insert ha, Finset.sum_insert ha, Multiset.countP_add, ih]
          simp
      rw [h4] at h3
      simpa using h3
    have h5 : ∀ g, ((plan slot slots (chosen g) 0 (handed g)).filterMap (lands net.addr w tgt g)).countP p' ≤
        (plan slot slots (chosen g) 0 (handed g)).countP q := by
      intro g
      rw [List.countP_filterMap]
      refine List.countP_mono_left (fun y hy hp => ?_)
      cases hl : lands net.addr w tgt g y with
      | none => rw [hl] at hp; simp at hp
      | some u =>
        rw [hl] at hp
        simp only [Option.map_some, Option.getD_some, p', Bool.and_eq_true, decide_eq_true_eq] at hp
        exact hpq g y u hy hl hp.1 hp.2
    rw [h1]
    refine Nat.le_trans h2 (Nat.le_trans (Finset.sum_le_sum (fun g _ => h5 g)) (sum_le_of_one _ B hB ?_))
    intro g h hgh
    by_contra hno
    push Not at hno
    obtain ⟨y, hy, hy2⟩ := List.countP_pos_iff.mp (Nat.pos_of_ne_zero hno.1)
    obtain ⟨z, hz, hz2⟩ := List.countP_pos_iff.mp (Nat.pos_of_ne_zero hno.2)
    obtain ⟨y', hy', e1⟩ := hplan g y hy
    obtain ⟨z', hz', e2⟩ := hplan h z hz
    exact hdist g h hgh y' hy' z' hz' (by rw [e1, e2, hqv y hy2, hqv z hz2])
  constructor
  · intro f hf
    rw [framesAt_pkt net hkey, List.mem_filterMap] at hf
    obtain ⟨u, hu, e⟩ := hf
    split at e
    · rename_i hd
      simp only [Option.some.injEq] at e
      subst e
      obtain ⟨g, y, hy, hl⟩ := hsrc u hu
      obtain ⟨-, h1, h2⟩ := hslot g y u hy hl hd
      obtain ⟨k1, -, -, k4⟩ := lands_eq_some hl
      have hdvd := plan_slot hs hn hy
      obtain ⟨i, a, j, m1, m2, m3⟩ := mem_plan.mp hy
      obtain ⟨y1, y2⟩ := y
      simp only at m1 m3 h1 h2 k4 hdvd
      subst m3
      rw [hd] at k1
      exact ⟨g, i, a, y2, j, m1, k4.symm, (hc g).lt _ j m2, k1, h1, h2, hdvd⟩
    · simp at e
  · have hnd2 : ((framesAt net d L).map (fun f => (f.uid, (f.start - lo d) / slot))).Nodup := by
      rw [List.nodup_iff_count_le_one]
      rintro ⟨v, q⟩
      rw [List.count_eq_countP, List.countP_map]
      refine hcount 1 _ (fun y => decide (y.2.pkt = v ∧ y.1 / slot = q)) v ?_ ?_ ?_
      · intro g y u hy hl hd hp
        simp only [Function.comp, beq_iff_eq, Prod.mk.injEq] at hp
        obtain ⟨-, -, -, e1⟩ := lands_eq_some hl
        simp only [decide_eq_true_eq]
        refine ⟨by rw [← e1]; exact hp.1, ?_⟩
        rw [← (hslot g y u hy hl hd).1]
        exact hp.2
      · intro y hy; simp only [decide_eq_true_eq] at hy; exact hy.1
      · intro g
        refine plan_count (fun v y => decide (y.2.pkt = v ∧ y.1 / slot = q)) ?_ ?_ v 0 _ (hnd g)
        · intro v k t x
          rw [List.countP_map]
          have hj : ∀ j, (frameStart (slot * slots) t + j * slot) / slot = frameStart (slot * slots) t / slot + j :=
            fun j => Nat.add_mul_div_right _ _ hs
          have : (chosen g k).countP ((fun y : Nat × Entry W => decide (y.2.pkt = v ∧ y.1 / slot = q)) ∘ fun j => (frameStart (slot * slots) t + j * slot, x)) ≤
              (chosen g k).count (q - frameStart (slot * slots) t / slot) := by
            rw [List.count_eq_countP]
            refine List.countP_mono_left (fun j _ hj' => ?_)
            simp only [Function.comp, decide_eq_true_eq, hj] at hj'
            simp only [beq_iff_eq]
            omega
          exact Nat.le_trans this (List.nodup_iff_count_le_one.mp ((hc g).nodup k) _)
        · intro v y hy; simp only [decide_eq_true_eq] at hy; exact hy.1
    rw [List.Nodup, List.pairwise_map] at hnd2
    refine hnd2.imp (fun hne e e2 => hne (by rw [e, e2]))

section
variable {hasOrbit : D → Bool} {cid n m : Nat} {hist : List (Nat × Nat × D)} {as : List SatAddress} {k : Constellation D}
  {w : World D G W} [Zero P] [Add P]

/-- **From the MAC of the station to the satellite.**  Stations with CRDSA MACs, any numbers of replicas; satellites with CRDSA receivers; the delays to satellite `d` between `lo d`
and `hi d`; frames that leave more than the spread of their slots empty; different packets.  Whatever satellite `d` passes up at `t` was handed to the MAC of some station at a time `a`, and
`t` is before the end of the third CRDSA frame after the one the replicas were sent in, as seen from the satellite: `t` is less than `lo d` and four CRDSA frames after `a`. -/
theorem C109_uplink {net : Net D G V W P (Crdsa.Sys P)} {lost : P → P → Bool} {slot slots : Nat} (hrx : net.rx = crdsaReceiver lost (slot * slots))
    (hb : Built net.endian hasOrbit cid n m hist as k) (hfit : Fits16 cid n m)
    (hk : net.chan.constellation = some k) (hsky : Sky net w)
    (hs : 0 < slot) (hn : 0 < slots) (h64 : slot * slots < 2 ^ 64) {shuffle : G → Nat → List Nat} {replicas : G → Nat → Nat}
    (hm : ∀ g, IsCrdsa (net.mac g) slot slots (shuffle g) (replicas g))
    {lo hi : D → Nat} (hdelay : ∀ t g d, lo d ≤ w.delay t g d ∧ w.delay t g d ≤ hi d) {ops : List (Op D G W)}
    (hl : Launched net hist as ops) (hdist : Distinct net ops) (hlen : ∀ g d, ∀ y ∈ given net ops g, y.2.len + (hi d - lo d) < slot)
    {s : Sys D G W (Crdsa.Sys P)} (h : exec net ops = some (.ok s)) {d : D} {t u : Nat} (hu : (t, u) ∈ net.rx.delivered (s.sats d)) :
    ∃ (g : G) (i a : Nat) (x : Entry W), (s.stations g).handed[i]? = some (a, x) ∧ x.pkt = u ∧ target hist as x.dst = some d ∧
      frameStart (slot * slots) a + lo d ≤ t ∧ t < frameStart (slot * slots) a + 3 * (slot * slots) + lo d ∧
      a + lo d ≤ t ∧ t < a + 4 * (slot * slots) + lo d := by
  have hkey : ∀ i u, net.rx.key i u = u := by intro i u; rw [hrx]; rfl
  have hacc := account hb hfit hk hsky hl h
  have hsub := handed_given h
  have hle : (s.heard : Multiset (Nat × D × Flight W)) ≤ ∑ g, (((plan slot slots (fun k => (shuffle g k).take (replicas g k)) 0 (s.stations g).handed).filterMap
      (lands net.addr w (target hist as) g) : List _) : Multiset (Nat × D × Flight W)) := by
    refine le_trans (Multiset.le_add_right _ (s.flying : Multiset (Nat × D × Flight W))) ?_
    rw [hacc.flights]
    refine Finset.sum_le_sum (fun g _ => ?_)
    have hp := C34_replicas (C55_station h g)
    rw [attempts_plan (hm g) hs hn h64] at hp
    refine Multiset.coe_le.mpr ?_
    refine List.Subperm.trans ?_ (hp.filterMap (lands net.addr w (target hist as) g)).subperm
    rw [List.filterMap_append]
    exact (List.sublist_append_left _ _).subperm
  have hsnd : ∀ g, ∀ y ∈ (s.stations g).handed, ∃ z ∈ given net ops g, z.2 = y.2 := by
    intro g y hy
    have := (hsub g).subset (List.mem_map_of_mem hy)
    simpa only [List.mem_map] using this
  obtain ⟨htime, hpair⟩ := traffic_slots (w := w) (tgt := target hist as) hkey hs hn (fun g => choice_of_crdsa (hm g)) hdelay
    (handed := fun g => (s.stations g).handed) (fun g d y hy => by
      obtain ⟨z, hz, e⟩ := hsnd g y hy
      rw [← e]; exact hlen g d z hz) (fun g => by
      have := ((hsub g).map Entry.pkt)
      simp only [List.map_map] at this
      exact this.nodup (hdist.1 g)) (fun g h' hne y hy z hz => by
      obtain ⟨y', hy', e1⟩ := hsnd g y hy
      obtain ⟨z', hz', e2⟩ := hsnd h' z hz
      rw [← e1, ← e2]
      exact hdist.2 g h' hne y' hy' z' hz') hle d
  obtain ⟨rops, r1, r2⟩ := C55_receiver h d
  rw [hrx, crdsa_run] at r1
  rw [← r2] at htime hpair
  have r1' : Crdsa.exec true true lost (slot * slots) rops = some (.ok (s.sats d)) := r1
  have hslots : Crdsa.InSlotsFrom slot (lo d) (Aloha.frames rops) := by
    intro f hf
    obtain ⟨g, i, a, x, j, -, -, -, -, h1, h2, q, hq⟩ := htime f hf
    rw [hq] at h1 h2
    exact ⟨q, h1, by rw [Nat.mul_succ]; omega⟩
  have hap := Crdsa.apart_of_slots r1' hslots hpair
  have hdel : (t, u) ∈ (s.sats d).delivered := by rw [hrx] at hu; exact hu
  obtain ⟨f, hf, e, ht, hlast⟩ := Crdsa.C109_slots r1' hap hslots hdel
  obtain ⟨g, i, a, x, j, m1, m2, m3, m4, h1, h2, q, hq⟩ := htime f hf
  have hfs : f.start ≤ f.fin := by unfold Aloha.Frame.fin; omega
  have hj : j * slot + slot ≤ slot * slots := by
    have := Nat.mul_le_mul_right slot (Nat.succ_le_of_lt m3)
    rw [Nat.succ_mul, Nat.mul_comm slots] at this
    exact this
  obtain ⟨n1, n2⟩ := frameStart_near (slot * slots) a (Nat.mul_pos hs hn)
  have hfin := hlast q (by rw [← hq]; exact h1) (by rw [Nat.mul_succ, ← hq]; omega)
  rw [Nat.mul_succ, ← hq] at hfin
  exact ⟨g, i, a, x, m1, m2.trans e, m4.1, by omega, by omega, by omega, by omega⟩

/-- **From `Send` to the satellite.**  If the stations have drop-tail queues for `K` packets and send every packet at least once, whatever satellite `d` passes up was given to `Send` of
some station less than `K` times two CRDSA frames and a slot, and then four CRDSA frames and `lo d`, before. -/
theorem C109_send {net : Net D G V W P (Crdsa.Sys P)} {lost : P → P → Bool} {slot slots : Nat} (hrx : net.rx = crdsaReceiver lost (slot * slots))
    (hb : Built net.endian hasOrbit cid n m hist as k) (hfit : Fits16 cid n m)
    (hk : net.chan.constellation = some k) (hsky : Sky net w)
    (hs : 0 < slot) (hn : 0 < slots) (h64 : slot * slots < 2 ^ 64) {shuffle : G → Nat → List Nat} {replicas : G → Nat → Nat}
    (hm : ∀ g, IsCrdsa (net.mac g) slot slots (shuffle g) (replicas g)) (hr : ∀ g k, 0 < replicas g k)
    {K : UInt32} (hK : 0 < K.toNat) {bytes : G → Entry W → Nat} (hq : ∀ g, net.accept g = Queue.dropTail .packets K (bytes g))
    {lo hi : D → Nat} (hdelay : ∀ t g d, lo d ≤ w.delay t g d ∧ w.delay t g d ≤ hi d) {ops : List (Op D G W)}
    (hl : Launched net hist as ops) (hdist : Distinct net ops) (hlen : ∀ g d, ∀ y ∈ given net ops g, y.2.len + (hi d - lo d) < slot)
    {s : Sys D G W (Crdsa.Sys P)} (h : exec net ops = some (.ok s)) {d : D} {t u : Nat} (hu : (t, u) ∈ net.rx.delivered (s.sats d)) :
    ∃ g, ∃ y ∈ given net ops g, y.2.pkt = u ∧ y.1 + lo d ≤ t ∧ t < y.1 + K.toNat * (2 * (slot * slots) + slot) + 4 * (slot * slots) + lo d := by
  obtain ⟨g, i, a, x, h1, h2, -, -, -, h3, h4⟩ := C109_uplink hrx hb hfit hk hsky hs hn h64 hm hdelay hl hdist hlen h hu
  have hst := C55_station h g
  rw [hq g] at hst
  have hp : QueueDelay.Prompt (net.mac g) (2 * (slot * slots)) := by
    rcases QueueDelay.crdsa_prompt (hm g) (hr g) with h | ⟨h1, h2⟩
    · exact Or.inl h
    · exact Or.inr ⟨h1, fun k t => ⟨(h2 k t).1, fun d hd => Nat.le_trans ((h2 k t).2 d hd) (by omega)⟩⟩
  have hlt : i < (s.stations g).accepted.length := by
    have e := congrArg List.length (C34_handed_in_order hst)
    simp only [List.length_map, List.length_append] at e
    have : i < (s.stations g).handed.length := by
      by_contra hge
      rw [List.getElem?_eq_none (by omega)] at h1
      simp at h1
    omega
  obtain ⟨⟨a0, x0⟩, ha⟩ : ∃ p, (s.stations g).accepted[i]? = some p := ⟨_, List.getElem?_eq_getElem hlt⟩
  obtain ⟨rfl, h5, h6⟩ := (QueueDelay.C94_wait hp (QueueDelay.packets_bounded K (bytes g) (2 * (slot * slots)) slot)
    (fun y hy => by have := hlen g d y hy; omega) hst i a0 x0 ha).1 a x h1
  refine ⟨g, (a0, x), (C34_accepted_or_dropped hst).2.subset (List.mem_of_getElem? ha), h2, by simp only; omega, ?_⟩
  have e : (K.toNat - 1) * (2 * (slot * slots) + slot) + (2 * (slot * slots) + slot) = K.toNat * (2 * (slot * slots) + slot) := by
    obtain ⟨n, hn⟩ : ∃ n, K.toNat = n + 1 := ⟨K.toNat - 1, by omega⟩
    rw [hn, Nat.add_sub_cancel, Nat.add_mul n 1, Nat.one_mul]
  simp only
  omega

end

/-- All hypotheses of `C109_uplink` hold for the network of C70. -/
example : ∃ s, exec crdsaNet crdsaOps = some (.ok s) ∧ (93, 23) ∈ crdsaNet.rx.delivered (s.sats 0) ∧
    ∃ (g : Fin 3) (i a : Nat) (x : Entry Int), (s.stations g).handed[i]? = some (a, x) ∧ x.pkt = 23 ∧ 93 < frameStart (10 * 4) a + 3 * (10 * 4) + 25 := by
  obtain ⟨s, h, hd⟩ : ∃ s, exec crdsaNet crdsaOps = some (.ok s) ∧ (93, 23) ∈ crdsaNet.rx.delivered (s.sats 0) := ⟨_, rfl, by decide⟩
  obtain ⟨g, i, a, x, h1, h2, -, -, h3, -⟩ := C109_uplink (w := fullWorld) (lo := fun _ => 25) (hi := fun _ => 25) (net := crdsaNet) (slot := 10) (slots := 4) rfl
    exBuilt (by unfold Fits16; decide) rfl crdsaSky (by omega) (by omega) (by omega) crdsaMac_crdsa
    (fun _ _ _ => ⟨le_refl _, le_refl _⟩) (ops := crdsaOps) (by unfold Launched; decide) (by unfold Distinct; decide) (by decide) h hd
  exact ⟨s, h, hd, g, i, a, x, h1, h2, h3⟩

/-- The same network with queues for three packets. -/
def queueNet : Net (Fin 2) (Fin 3) Nat Int Int (Crdsa.Sys Int) := { crdsaNet with accept := fun _ => Queue.dropTail .packets 3 (fun _ => 100) }

/-- All hypotheses of `C109_send` hold there. -/
example : ∃ s, exec queueNet crdsaOps = some (.ok s) ∧ (93, 23) ∈ queueNet.rx.delivered (s.sats 0) ∧
    ∃ g, ∃ y ∈ given queueNet crdsaOps g, y.2.pkt = 23 ∧ 93 < y.1 + 3 * (2 * (10 * 4) + 10) + 4 * (10 * 4) + 25 := by
  obtain ⟨s, h, hd⟩ : ∃ s, exec queueNet crdsaOps = some (.ok s) ∧ (93, 23) ∈ queueNet.rx.delivered (s.sats 0) := ⟨_, rfl, by decide⟩
  obtain ⟨g, y, h1, h2, -, h3⟩ := C109_send (w := fullWorld) (lo := fun _ => 25) (hi := fun _ => 25) (net := queueNet) (slot := 10) (slots := 4) rfl
    exBuilt (by unfold Fits16; decide) rfl (fun t g d => crdsaSky t g d) (by omega) (by omega) (by omega) crdsaMac_crdsa (fun _ _ => by omega) (K := 3) (by decide) (bytes := fun _ _ => 100)
    (fun _ => rfl) (fun _ _ _ => ⟨le_refl _, le_refl _⟩) (ops := crdsaOps) (by unfold Launched; decide) (by unfold Distinct; decide) (by decide) h hd
  exact ⟨s, h, hd, g, y, h1, h2, h3⟩

end Uplink
end Icarus
