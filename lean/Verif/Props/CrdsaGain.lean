import Verif.Props.CrdsaDelay

/-!
# CRDSA receivers compared with Aloha receivers (C111)

Both receivers hear the same frames, with the same powers at the same times.
-/

set_option autoImplicit false

namespace Icarus
namespace Crdsa
open Aloha (Frame Op frames schedule Apart)

section
variable {P : Type} [Zero P] [Add P]

/-! ## Never worse -/

omit [Add P] in
/-- The Aloha receiver's decision about a frame. -/
theorem aloha_up (lost : P → P → Bool) (rx : Aloha.Rx P) (f : Frame P) : (Aloha.finishRx lost rx f).2 = !hasCollided lost rx f := rfl

omit [Add P] in
/-- What the end of a reception passes up begins with the frame itself, if it was not lost and is not known. -/
theorem finishRx_out {strict : Bool} {lost : P → P → Bool} {F : Nat} {s s' : St P} {f : Frame P} {out : List Nat}
    (h : finishRx strict lost F s f = .ok (s', out)) : ∃ rec, out = (receiveOwn f.fin (hasCollided lost s.rx f) f.uid s.received).2 ++ rec := by
  by_cases hu : s.rx.uid = some f.uid
  · rcases finishRx_last (strict := strict) (lost := lost) (frameLen := F) hu with ⟨hb, -⟩ | ⟨ps, rs, rec, -, hk⟩
    · rw [hb] at h; simp at h
    · rw [hk] at h
      simp only [Outcome.ok.injEq, Prod.mk.injEq] at h
      exact ⟨rec, h.2.symm⟩
  · rw [finishRx_inner hu] at h
    simp only [Outcome.ok.injEq, Prod.mk.injEq] at h
    exact ⟨[], by simp [h.2]⟩

/-- **A CRDSA receiver is never worse.**  Whatever an Aloha receiver passes up, a CRDSA receiver that hears the same frames passes up too, and not later; whatever the powers, replicas and the order of simultaneous events. -/
theorem C111_never_worse {strict ties : Bool} {lost : P → P → Bool} {F : Nat} {ops : List (Op P)} {s : Sys P} {a : Aloha.Sys P}
    (h : exec strict ties lost F ops = some (.ok s)) (ha : Aloha.exec ties lost ops = some a) {t u : Nat} (hd : (t, u) ∈ a.delivered) :
    ∃ t' ≤ t, (t', u) ∈ s.delivered := by
  suffices key : (∀ r ∈ s.st.received, ∃ t' ≤ s.clock, (t', r.1) ∈ s.delivered) ∧ ∀ d ∈ a.delivered, ∃ t' ≤ d.1, (t', d.2) ∈ s.delivered from key.2 _ hd
  clear hd
  induction ops using List.reverseRecOn generalizing s a with
  | nil =>
    simp only [exec, execFrom, Option.some.injEq, Outcome.ok.injEq] at h
    simp only [Aloha.exec, Aloha.execFrom, Option.some.injEq] at ha
    subst h ha
    simp [Sys.init, St.init, Aloha.Sys.init]
  | append_singleton os o ih =>
    rw [exec_snoc] at h
    rw [Aloha.exec_snoc] at ha
    obtain ⟨s0, h0, h1⟩ := h
    obtain ⟨a0, ha0, ha1⟩ := ha
    obtain ⟨i1, i2⟩ := ih h0 ha0
    obtain ⟨d0, hd0⟩ := exec_aloha h0
    rw [ha0] at hd0
    simp only [Option.some.injEq] at hd0
    subst hd0
    cases o with
    | arrive f =>
      obtain ⟨hc, rfl⟩ := step_arrive_ok.mp h1
      simp only [Aloha.step] at ha1
      rw [if_pos hc] at ha1
      simp only [Option.some.injEq] at ha1
      subst ha1
      refine ⟨fun r hr => ?_, i2⟩
      obtain ⟨t', e1, e2⟩ := i1 r hr
      exact ⟨t', e1.trans hc.1, e2⟩
    | finish =>
      have hclk := crdsa_clock h0
      obtain ⟨f, rest, st, out, hp, hf, rfl⟩ := step_finish_ok.mp h1
      have hle : s0.clock ≤ f.fin := hclk.2 f (by simp [hp])
      simp only [Aloha.step, hp, aloha_up, Option.some.injEq] at ha1
      subst ha1
      obtain ⟨-, -, -, -, r5⟩ := finishRx_received hf
      refine ⟨fun r hr => ?_, fun d hd => ?_⟩
      · rcases r5 r hr with hr | hr
        · obtain ⟨t', e1, e2⟩ := i1 r hr
          exact ⟨t', e1.trans hle, List.mem_append_left _ e2⟩
        · exact ⟨f.fin, le_rfl, List.mem_append_right _ (List.mem_map.mpr ⟨r.1, hr, rfl⟩)⟩
      · rcases List.mem_append.mp hd with hd | hd
        · obtain ⟨t', e1, e2⟩ := i2 d hd
          exact ⟨t', e1, List.mem_append_left _ e2⟩
        · cases hcol : hasCollided lost s0.st.rx f with
          | true => simp [hcol] at hd
          | false =>
            simp only [hcol, Bool.not_false, if_true, List.mem_singleton] at hd
            subst hd
            cases hhas : has s0.st.received f.uid with
            | true =>
              rw [has_iff, List.mem_map] at hhas
              obtain ⟨r, hr, e⟩ := hhas
              obtain ⟨t', e1, e2⟩ := i1 r hr
              rw [e] at e2
              exact ⟨t', e1.trans hle, List.mem_append_left _ e2⟩
            | false =>
              obtain ⟨rec, hrec⟩ := finishRx_out hf
              refine ⟨f.fin, le_rfl, List.mem_append_right _ (List.mem_map.mpr ⟨f.uid, ?_, rfl⟩)⟩
              rw [hrec]
              simp [receiveOwn, hcol, hhas]

/-! ## No gain without replicas -/

/-- Nothing to be recovered: every period has two packets at least, none of them known. -/
def Calm (ps : List Period) (rs : List (Nat × Nat)) : Prop := ∀ p ∈ ps, 2 ≤ p.pkts.length ∧ ∀ u ∈ p.pkts, has rs u = false

theorem cancel_calm {strict : Bool} {now fuel : Nat} {ps : List Period} {rs : List (Nat × Nat)} (h : Calm ps rs) :
    cancel strict now (fuel + 1) ps rs = .ok (ps, rs, []) := by
  have hprune : prune rs ps = ps := by
    unfold prune
    conv_rhs => rw [← List.map_id ps]
    refine List.map_congr_left fun p hp => ?_
    have : p.pkts.filter (fun u => !has rs u) = p.pkts := List.filter_eq_self.mpr fun u hu => by simp [(h p hp).2 u hu]
    rw [this]
    rfl
  have hempty : ∀ (i : Nat) (l : List Period), (∀ p ∈ l, 2 ≤ p.pkts.length) → emptyPositions i l = [] := by
    intro i l
    induction l generalizing i with
    | nil => intro _; rfl
    | cons p l ih =>
      intro hl
      have hp := hl p (by simp)
      have : p.pkts.isEmpty = false := by
        cases hk : p.pkts with
        | nil => rw [hk] at hp; simp at hp
        | cons _ _ => rfl
      simp only [emptyPositions, this, Bool.false_eq_true, if_false]
      exact ih _ fun q hq => hl q (by simp [hq])
  have hsing : singles ps = [] := by
    rw [List.eq_nil_iff_forall_not_mem]
    intro u hu
    obtain ⟨p, hp, e⟩ := mem_singles.mp hu
    have := (h p hp).1
    rw [e] at this
    simp at this
  have hfilter : ps.filter (fun p => !p.pkts.isEmpty) = ps := List.filter_eq_self.mpr fun p hp => by
    have := (h p hp).1
    cases hk : p.pkts with
    | nil => rw [hk] at this; simp at this
    | cons _ _ => rfl
  have hmic : mic strict ps rs = .ok (ps, []) := by
    cases strict with
    | false => simp [mic, hprune, hsing, hfilter]
    | true =>
      simp only [mic, hprune, hsing, hempty 0 ps fun p hp => (h p hp).1, if_true, eraseAt]
      rfl
  simp [cancel, hmic]

/-- The state of the CRDSA receiver while no packet has a replica and no collided frame is captured. -/
structure Alone (s : Sys P) : Prop where
  one : s.st.rx.collision = false → s.pending.length ≤ 1
  two : s.st.rx.collision = true → 2 ≤ s.st.collided.length
  listed : ∀ f ∈ s.pending, f.uid ∈ s.st.collided
  fresh : ∀ u ∈ s.st.collided, has s.st.received u = false
  calm : Calm s.st.periods s.st.received
  apart : ∀ p ∈ s.st.periods, ∀ u ∈ p.pkts, u ∉ s.st.collided

omit [Zero P] [Add P] in
theorem cleanReceived_sub {limit : Int} {rs : List (Nat × Nat)} {u : Nat} (h : has rs u = false) : has (cleanReceived limit rs) u = false := by
  rw [← Bool.not_eq_true, has_iff] at h ⊢
  intro hm
  obtain ⟨r, hr, e⟩ := List.mem_map.mp hm
  exact h (List.mem_map.mpr ⟨r, (List.mem_filter.mp hr).1, e⟩)

/-- **Without replicas there is no gain.**  If every packet is received once, a frame that collides is lost, and receptions end before others begin at the same tick, a CRDSA receiver passes up exactly what an Aloha receiver does, at the same times
(and it does not fail). -/
theorem C111_no_replicas {strict : Bool} {lost : P → P → Bool} {Q : P → Prop} (hlost : Aloha.Drops lost Q) {F : Nat} {ops : List (Op P)} {a : Aloha.Sys P}
    (ha : Aloha.exec false lost ops = some a) (hnd : ((frames ops).map Frame.uid).Nodup) (hdur : ∀ f ∈ frames ops, 0 < f.dur) (hpow : ∀ f ∈ frames ops, Q f.pow) :
    ∃ s, exec strict false lost F ops = some (.ok s) ∧ s.delivered = a.delivered := by
  suffices key : ∃ s, exec strict false lost F ops = some (.ok s) ∧ a = ⟨s.clock, s.st.rx, s.pending, s.delivered⟩ ∧ Alone s by
    obtain ⟨s, h1, h2, -⟩ := key
    exact ⟨s, h1, by rw [h2]⟩
  induction ops using List.reverseRecOn generalizing a with
  | nil =>
    simp only [Aloha.exec, Aloha.execFrom, Option.some.injEq] at ha
    subst ha
    refine ⟨_, rfl, rfl, ?_⟩
    constructor <;> simp [Sys.init, St.init, Aloha.Rx.init, Calm]
  | append_singleton os o ih =>
    rw [Aloha.exec_snoc] at ha
    obtain ⟨a0, ha0, ha1⟩ := ha
    rw [Aloha.frames_append] at hnd hdur hpow
    have hnd0 : ((frames os).map Frame.uid).Nodup := by
      rw [List.map_append, List.nodup_append] at hnd
      exact hnd.1
    obtain ⟨s0, h0, rfl, al⟩ := ih ha0 hnd0 (fun f hf => hdur f (List.mem_append_left _ hf)) fun f hf => hpow f (List.mem_append_left _ hf)
    have c := inv_exec h0 (Aloha.apart_of_nodup hnd0)
    have b := Aloha.base_exec ha0 (Aloha.apart_of_nodup hnd0)
    cases o with
    | arrive f =>
      simp only [Aloha.step] at ha1
      split at ha1
      case isFalse => simp at ha1
      rename_i hc
      simp only [Option.some.injEq] at ha1
      subst ha1
      have hnew : ∀ g ∈ frames os, g.uid ≠ f.uid := by
        intro g hg e
        rw [List.map_append, List.nodup_append] at hnd
        exact hnd.2.2 g.uid (List.mem_map.mpr ⟨g, hg, rfl⟩) f.uid (by simp [frames]) e
      have hcol : f.uid ∉ s0.st.collided := by
        intro hm
        obtain ⟨-, g, hg, e⟩ := (c.busy _).mp hm
        exact hnew g (c.sub g hg) e
      have hrec : has s0.st.received f.uid = false := by
        rw [← Bool.not_eq_true, has_iff]
        intro hm
        obtain ⟨r, hr, e⟩ := List.mem_map.mp hm
        obtain ⟨g, hg, e'⟩ := c.received r hr
        exact hnew g hg (e'.trans e)
      have hins : insertKey f.uid s0.st.collided = s0.st.collided ++ [f.uid] := by
        simp [insertKey, hcol]
      refine ⟨⟨f.start, startRx s0.st f, schedule f s0.pending, s0.delivered⟩, exec_snoc.mpr ⟨s0, h0, step_arrive_ok.mpr ⟨hc, rfl⟩⟩, rfl, ?_⟩
      have hrx : (s0.pending = [] ∧ (Aloha.startRx s0.st.rx f).collision = false) ∨ (s0.pending ≠ [] ∧ (Aloha.startRx s0.st.rx f).collision = true) := by
        by_cases hpe : s0.pending = []
        · left
          have hu : s0.st.rx.uid = none := by
            have := b.uid_eq
            simp only [hpe] at this
            simpa using this
          have hcf := b.idle hpe
          refine ⟨hpe, ?_⟩
          simp only at hcf
          simp [Aloha.startRx, hu, hcf]
        · right
          refine ⟨hpe, ?_⟩
          obtain ⟨l, hl⟩ : ∃ l, s0.pending.getLast? = some l := by
            cases hg : s0.pending.getLast? with
            | none => exact absurd (List.getLast?_eq_none_iff.mp hg) hpe
            | some l => exact ⟨l, rfl⟩
          have hu : s0.st.rx.uid = some l.uid := by
            have := b.uid_eq
            simpa [hl] using this
          have hfin : s0.st.rx.finish = l.fin := b.finish_eq l hl
          have hlt : f.start < s0.st.rx.finish := by
            rw [hfin]
            rcases hc.2 l (List.mem_of_getLast? hl) with h | ⟨h, -⟩
            · exact h
            · simp at h
          unfold Aloha.startRx
          simp only [hu, Option.isSome_some, hlt, and_self, if_true]
          split <;> rfl
      refine ⟨?_, ?_, ?_, ?_, al.calm, ?_⟩
      · intro hcf
        rcases hrx with ⟨hpe, -⟩ | ⟨-, ht⟩
        · simp [hpe, schedule]
        · exact absurd (hcf.symm.trans ht) (by simp)
      · intro ht
        rcases hrx with ⟨-, hf⟩ | ⟨hpe, -⟩
        · exact absurd (hf.symm.trans ht) (by simp)
        · show 2 ≤ (insertKey f.uid s0.st.collided).length
          obtain ⟨g, hg⟩ := List.exists_mem_of_ne_nil _ hpe
          have := List.length_pos_of_mem (al.listed g hg)
          rw [hins, List.length_append]
          simp only [List.length_singleton]
          omega
      · intro g hg
        show g.uid ∈ insertKey f.uid s0.st.collided
        rcases Aloha.mem_schedule.mp hg with rfl | hg
        · exact mem_insertKey.mpr (.inl rfl)
        · exact mem_insertKey.mpr (.inr (al.listed g hg))
      · intro u hu
        rcases mem_insertKey.mp hu with rfl | hu
        · exact hrec
        · exact al.fresh u hu
      · intro p hp u hu hm
        rcases mem_insertKey.mp hm with rfl | hm
        · obtain ⟨g, hg, e⟩ := c.periods p hp _ hu
          exact hnew g hg e
        · exact al.apart p hp u hu hm
    | finish =>
      simp only [Aloha.step] at ha1
      cases hp : s0.pending with
      | nil => simp [hp] at ha1
      | cons f rest =>
        simp only [hp, aloha_up, Option.some.injEq] at ha1
        have hfm : f ∈ frames os := b.sub f (by simp [hp])
        have bz := Aloha.busy_exec ha0 (Aloha.apart_of_nodup hnd0) fun f hf => hdur f (List.mem_append_left _ hf)
        have hpne : s0.pending ≠ [] := by simp [hp]
        have hhc : hasCollided lost s0.st.rx f = s0.st.rx.collision := by
          unfold hasCollided
          cases hct : s0.st.rx.collision with
          | false => rfl
          | true =>
            have hi := bz.interf hpne
            have hfb := bz.pend f (by simp [hp])
            have h2 := (bz.collision hpne).mp hct
            simp only at hi
            rw [hi]
            simp only [Bool.true_and]
            refine hlost _ ?_ (by rw [List.length_map]; exact h2) _ (List.mem_map.mpr ⟨f, hfb, rfl⟩)
            intro q hq
            obtain ⟨g, hg, rfl⟩ := List.mem_map.mp hq
            exact hpow g (List.mem_append_left _ (bz.suffix.subset hg))
        have hclose : s0.st.rx.uid = some f.uid ↔ rest = [] := closes_iff b hp
        have hcol : f.uid ∈ s0.st.collided := al.listed f (by simp [hp])
        by_cases hr : rest = []
        · subst hr
          have hu := hclose.mpr rfl
          have hcalm : Calm (collisionsAt lost F s0.st f) (receivedAt lost F s0.st f) := by
            intro p hpm
            have hpm' : p ∈ (if hasCollided lost s0.st.rx f then s0.st.periods ++ [⟨s0.st.rx.finish, s0.st.collided⟩] else s0.st.periods) :=
              (List.dropWhile_sublist _).subset hpm
            unfold receivedAt
            rw [hhc] at hpm' ⊢
            cases hct : s0.st.rx.collision with
            | true =>
              rw [hct] at hpm'
              simp only [if_true, List.mem_append, List.mem_singleton] at hpm'
              simp only [receiveOwn, if_true]
              rcases hpm' with hpm' | rfl
              · exact ⟨(al.calm p hpm').1, fun u hu => cleanReceived_sub ((al.calm p hpm').2 u hu)⟩
              · exact ⟨al.two hct, fun u hu => cleanReceived_sub (al.fresh u hu)⟩
            | false =>
              rw [hct] at hpm'
              simp only [Bool.false_eq_true, if_false] at hpm'
              refine ⟨(al.calm p hpm').1, fun u hu => cleanReceived_sub ?_⟩
              simp only [receiveOwn, Bool.false_eq_true, if_false, al.fresh _ hcol, has_append, (al.calm p hpm').2 u hu, Bool.false_or]
              have hne : u ≠ f.uid := fun e => al.apart p hpm' u hu (e ▸ hcol)
              simp only [has, List.any_cons, List.any_nil, Bool.or_false, beq_eq_false_iff_ne]
              exact fun e => hne e.symm
          have hcan := cancel_calm (strict := strict) (now := f.fin) (fuel := ((collisionsAt lost F s0.st f).map (fun p => p.pkts.length)).sum) hcalm
          have hfin : finishRx strict lost F s0.st f = .ok (⟨⟨none, f.fin, false, some 0⟩, [], collisionsAt lost F s0.st f, receivedAt lost F s0.st f⟩,
              (receiveOwn f.fin (hasCollided lost s0.st.rx f) f.uid s0.st.received).2) := by
            have hfuel : fuelFor (collisionsAt lost F s0.st f) = ((collisionsAt lost F s0.st f).map (fun p => p.pkts.length)).sum + 1 := rfl
            rcases finishRx_last (strict := strict) (lost := lost) (frameLen := F) hu with ⟨-, -, hb⟩ | ⟨ps, rs, rec, hb, hk⟩
            · rw [hfuel, hcan] at hb; simp at hb
            · rw [hfuel, hcan] at hb
              simp only [Outcome.ok.injEq, Prod.mk.injEq] at hb
              obtain ⟨rfl, rfl, rfl⟩ := hb
              rw [hk, List.append_nil]
          refine ⟨_, exec_snoc.mpr ⟨s0, h0, step_finish_ok.mpr ⟨f, [], _, _, hp, hfin, rfl⟩⟩, ?_, ?_⟩
          · rw [← ha1]
            have hrx1 : (Aloha.finishRx lost s0.st.rx f).1 = ⟨none, f.fin, false, some 0⟩ := by simp [Aloha.finishRx, hu]
            simp only [hhc, hrx1]
            cases hct : s0.st.rx.collision with
            | true => simp [receiveOwn]
            | false => simp [receiveOwn, al.fresh _ hcol]
          · exact ⟨by simp, by simp, by simp, by simp, hcalm, by simp⟩
        · have hct : s0.st.rx.collision = true := by
            by_contra hne
            rw [Bool.not_eq_true] at hne
            have := al.one hne
            rw [hp] at this
            cases rest with
            | nil => exact hr rfl
            | cons _ _ => simp at this
          have hu : s0.st.rx.uid ≠ some f.uid := fun e => hr (hclose.mp e)
          have hfin := finishRx_inner (strict := strict) (lost := lost) (frameLen := F) hu
          rw [hhc, hct] at hfin
          simp only [receiveOwn, if_true] at hfin
          refine ⟨_, exec_snoc.mpr ⟨s0, h0, step_finish_ok.mpr ⟨f, rest, _, _, hp, hfin, rfl⟩⟩, ?_, ?_⟩
          · rw [← ha1]
            have hrx1 : (Aloha.finishRx lost s0.st.rx f).1 = s0.st.rx := by simp [Aloha.finishRx, hu]
            simp [hhc, hct, hrx1]
          · refine ⟨fun e => ?_, al.two, fun g hg => al.listed g (by simp [hp, hg]), al.fresh, al.calm, al.apart⟩
            exact absurd (hct.symm.trans e) (by simp)

end

/-- With the default of the SIR threshold no frame is captured, so this holds whatever the powers. -/
theorem C111_default_threshold {strict : Bool} {F : Nat} {ops : List (Op ℝ)} {a : Aloha.Sys ℝ} (ha : Aloha.exec false (Aloha.sirLost none) ops = some a)
    (hnd : ((frames ops).map Frame.uid).Nodup) (hdur : ∀ f ∈ frames ops, 0 < f.dur) (hpow : ∀ f ∈ frames ops, 0 < f.pow) :
    ∃ s, exec strict false (Aloha.sirLost none) F ops = some (.ok s) ∧ s.delivered = a.delivered :=
  C111_no_replicas C18_default_threshold ha hnd hdur hpow

/-! ## The gain -/

/-- **The gain of replicas.**  In the history of `C109_sharp` both packets of the collision are lost for the Aloha receiver; it passes up the replica of packet 2 only.  The CRDSA receiver passes up both. -/
theorem C111_gain :
    (∃ a, Aloha.exec true (fun _ i => decide (0 < i)) (twoOps 17) = some a ∧ a.delivered = [(29, 2)]) ∧
    ∃ s, exec true true (fun _ i => decide (0 < i)) 10 (twoOps 17) = some (.ok s) ∧ s.delivered = [(29, 2), (29, 1)] :=
  ⟨⟨_, rfl, rfl⟩, ⟨_, rfl, by decide⟩⟩

/-- Packet 2 overlaps the stronger packet 1, which is received in spite of it. -/
def captureOps : List (Op Nat) := [.arrive ⟨1, 0, 10, 5⟩, .arrive ⟨2, 5, 10, 1⟩, .finish, .finish]

/-- **The gain of capture.**  Without replicas there can be a gain if a frame is received in spite of a collision: the other one is then recovered, too. -/
theorem C111_capture :
    ((frames captureOps).map Frame.uid).Nodup ∧
    (∃ a, Aloha.exec false (fun p i => decide (2 * p < i)) captureOps = some a ∧ a.delivered = [(10, 1)]) ∧
    ∃ s, exec true false (fun p i => decide (2 * p < i)) 20 captureOps = some (.ok s) ∧ s.delivered = [(10, 1), (15, 2)] :=
  ⟨by decide, ⟨_, rfl, rfl⟩, ⟨_, rfl, by decide⟩⟩

/-- Three packets without replicas, two of which collide: the hypotheses of `C111_no_replicas` hold, and something is passed up. -/
def aloneOps : List (Op Nat) := [.arrive ⟨1, 0, 10, 1⟩, .arrive ⟨2, 5, 10, 1⟩, .finish, .finish, .arrive ⟨3, 15, 5, 1⟩, .finish]

example : ((frames aloneOps).map Frame.uid).Nodup ∧ ∃ s, exec true false (fun _ _ => true) 20 aloneOps = some (.ok s) ∧ s.delivered = [(20, 3)] := by
  refine ⟨by decide, ?_⟩
  obtain ⟨s, h1, h2⟩ := C111_no_replicas (strict := true) (F := 20) (lost := fun _ _ => true) (ops := aloneOps) (Aloha.Drops.always (fun _ _ => rfl) fun _ => True) rfl (by decide) (by decide)
    (fun _ _ => trivial)
  exact ⟨s, h1, h2⟩

/-- The hypotheses of `C111_default_threshold` hold for a collision of two frames. -/
example : ∃ a, Aloha.exec false (Aloha.sirLost none) [.arrive ⟨1, 0, 10, 3⟩, .arrive ⟨2, 5, 10, 1⟩] = some a ∧
    ((frames [Op.arrive (⟨1, 0, 10, 3⟩ : Frame ℝ), .arrive ⟨2, 5, 10, 1⟩]).map Frame.uid).Nodup ∧
    (∀ f ∈ frames [Op.arrive (⟨1, 0, 10, 3⟩ : Frame ℝ), .arrive ⟨2, 5, 10, 1⟩], 0 < f.dur) ∧
    ∀ f ∈ frames [Op.arrive (⟨1, 0, 10, 3⟩ : Frame ℝ), .arrive ⟨2, 5, 10, 1⟩], 0 < f.pow := by
  refine ⟨_, rfl, by simp [frames], by simp [frames], by simp [frames]⟩

example : ∃ t' ≤ 29, ∃ s, exec true true (fun _ i => decide (0 < i)) 10 (twoOps 17) = some (.ok s) ∧ (t', 2) ∈ s.delivered := by
  obtain ⟨⟨a, ha, hd⟩, s, hs, -⟩ := C111_gain
  obtain ⟨t', h1, h2⟩ := C111_never_worse hs ha (t := 29) (u := 2) (by rw [hd]; simp)
  exact ⟨t', h1, s, hs, h2⟩

end Crdsa
end Icarus
