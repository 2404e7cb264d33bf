import Verif.Model.Crdsa
import Verif.Lemmas.Aloha

/-! Helper lemmas for `Verif.Props.Crdsa`. -/

set_option autoImplicit false

namespace Icarus
namespace Crdsa
open Aloha (Frame Rx schedule Op frames Apart)

/-- Packets that become known by the rule "if all other packets of a collision are known, so is the remaining one". -/
inductive Peel (known : Nat → Prop) (collisions : List (List Nat)) : Nat → Prop
  | base {u : Nat} : known u → Peel known collisions u
  | recover {c : List Nat} {u : Nat} : c ∈ collisions → u ∈ c → (∀ v ∈ c, v ≠ u → Peel known collisions v) → Peel known collisions u

/-! ### Received packets -/

theorem has_iff {rs : List (Nat × Nat)} {u : Nat} : has rs u = true ↔ u ∈ rs.map Prod.fst := by
  simp only [has, List.any_eq_true, beq_iff_eq, List.mem_map]

theorem has_append {rs rs' : List (Nat × Nat)} {u : Nat} : has (rs ++ rs') u = (has rs u || has rs' u) := by
  simp [has]

theorem has_map {us : List Nat} {t u : Nat} : has (us.map (fun x => (x, t))) u = true ↔ u ∈ us := by
  rw [has_iff, List.map_map]
  simp [Function.comp_def]

/-! ### Erasing the empty periods -/

theorem emptyPositions_length (i : Nat) (ps : List Period) :
    (emptyPositions i ps).length = ps.countP (fun p => p.pkts.isEmpty) := by
  induction ps generalizing i with
  | nil => rfl
  | cons p ps ih =>
    unfold emptyPositions
    split
    · rename_i h; rw [List.countP_cons]; simp [h, ih]
    · rename_i h; rw [List.countP_cons]; simp [h, ih]

theorem emptyPositions_nil {i : Nat} {ps : List Period} (h : emptyPositions i ps = []) :
    ps.filter (fun p => !p.pkts.isEmpty) = ps := by
  induction ps generalizing i with
  | nil => rfl
  | cons p ps ih =>
    unfold emptyPositions at h
    split at h
    · simp at h
    · rename_i hp
      rw [List.filter_cons_of_pos (by simpa using hp), ih h]

theorem emptyPositions_single {i j : Nat} {ps : List Period} (h : emptyPositions i ps = [j]) :
    i ≤ j ∧ ps.eraseIdx (j - i) = ps.filter (fun p => !p.pkts.isEmpty) := by
  induction ps generalizing i with
  | nil => simp [emptyPositions] at h
  | cons p ps ih =>
    unfold emptyPositions at h
    split at h
    · rename_i hp
      simp only [List.cons.injEq] at h
      obtain ⟨rfl, h⟩ := h
      rw [List.filter_cons_of_neg (by simpa using hp), emptyPositions_nil h]
      simp
    · rename_i hp
      obtain ⟨h1, h2⟩ := ih h
      refine ⟨by omega, ?_⟩
      rw [List.filter_cons_of_pos (by simpa using hp), ← h2]
      rw [show j - i = (j - (i + 1)) + 1 by omega, List.eraseIdx_cons_succ]

/-- The periods that still have packets after a pass. -/
def remaining (rs : List (Nat × Nat)) (ps : List Period) : List Period := (prune rs ps).filter (fun p => !p.pkts.isEmpty)

theorem eraseAt_ok {ps left : List Period} (h : eraseAt ps (emptyPositions 0 ps) = .ok left) :
    left = ps.filter (fun p => !p.pkts.isEmpty) := by
  match he : emptyPositions 0 ps with
  | [] =>
    rw [he] at h
    simp only [eraseAt, Outcome.ok.injEq] at h
    rw [emptyPositions_nil he, h]
  | [j] =>
    rw [he] at h
    simp only [eraseAt, Outcome.ok.injEq] at h
    have := (emptyPositions_single he).2
    rw [Nat.sub_zero] at this
    rw [← h, this]
  | a :: b :: l => rw [he] at h; simp [eraseAt] at h

theorem eraseAt_cases (ps : List Period) : eraseAt ps (emptyPositions 0 ps) =
    if 2 ≤ ps.countP (fun p => p.pkts.isEmpty) then .ub .invalidIterator
    else .ok (ps.filter (fun p => !p.pkts.isEmpty)) := by
  have hl := emptyPositions_length 0 ps
  match he : emptyPositions 0 ps with
  | [] =>
    rw [he] at hl
    rw [if_neg (by rw [← hl]; simp)]
    simp only [eraseAt, emptyPositions_nil he]
  | [j] =>
    rw [he] at hl
    rw [if_neg (by rw [← hl]; simp)]
    have := (emptyPositions_single he).2
    rw [Nat.sub_zero] at this
    simp only [eraseAt, this]
  | a :: b :: l =>
    rw [he] at hl
    rw [if_pos (by rw [← hl]; simp)]
    rfl

theorem mic_false (ps : List Period) (rs : List (Nat × Nat)) : mic false ps rs = .ok (remaining rs ps, singles (prune rs ps)) := rfl

theorem mic_true (ps : List Period) (rs : List (Nat × Nat)) : mic true ps rs =
    if 2 ≤ (prune rs ps).countP (fun p => p.pkts.isEmpty) then .ub .invalidIterator
    else .ok (remaining rs ps, singles (prune rs ps)) := by
  unfold mic
  simp only [if_true]
  rw [eraseAt_cases]
  split <;> rfl

theorem mic_ok {strict : Bool} {ps ps' : List Period} {rs : List (Nat × Nat)} {us : List Nat} (h : mic strict ps rs = .ok (ps', us)) :
    ps' = remaining rs ps ∧ us = singles (prune rs ps) := by
  cases strict with
  | false => rw [mic_false] at h; simp at h; exact ⟨h.1.symm, h.2.symm⟩
  | true =>
    rw [mic_true] at h
    split at h
    · simp at h
    · simp at h; exact ⟨h.1.symm, h.2.symm⟩

theorem mem_singles {ps : List Period} {u : Nat} : u ∈ singles ps ↔ ∃ p ∈ ps, p.pkts = [u] := by
  unfold singles
  rw [List.mem_filterMap]
  constructor
  · rintro ⟨p, hp, h⟩
    refine ⟨p, hp, ?_⟩
    split at h
    · simp at h; subst h; assumption
    · simp at h
  · rintro ⟨p, hp, h⟩
    refine ⟨p, hp, ?_⟩
    rw [h]

theorem mem_prune {rs : List (Nat × Nat)} {ps : List Period} {p' : Period} :
    p' ∈ prune rs ps ↔ ∃ p ∈ ps, p'.finish = p.finish ∧ p'.pkts = p.pkts.filter (fun u => !has rs u) := by
  unfold prune
  rw [List.mem_map]
  constructor
  · rintro ⟨p, hp, rfl⟩; exact ⟨p, hp, rfl, rfl⟩
  · rintro ⟨p, hp, h1, h2⟩; exact ⟨p, hp, by cases p'; simp_all⟩

theorem remaining_remaining {rs rs' : List (Nat × Nat)} (hsub : ∀ u, has rs u = true → has rs' u = true) (ps : List Period) :
    remaining rs' (remaining rs ps) = remaining rs' ps := by
  induction ps with
  | nil => rfl
  | cons p ps ih =>
    have hff : (p.pkts.filter (fun u => !has rs u)).filter (fun u => !has rs' u) = p.pkts.filter (fun u => !has rs' u) := by
      rw [List.filter_filter]
      apply List.filter_congr
      intro u _
      have := hsub u
      cases h1 : has rs u <;> cases h2 : has rs' u <;> simp_all
    unfold remaining prune at ih ⊢
    rw [List.map_cons, List.map_cons]
    by_cases he : (p.pkts.filter (fun u => !has rs u)).isEmpty = true
    · rw [List.filter_cons_of_neg (by simpa using he), ih, List.filter_cons_of_neg]
      rw [← hff]
      rw [List.isEmpty_iff] at he
      rw [he]; simp
    · rw [List.filter_cons_of_pos (by simpa using he), List.map_cons]
      simp only [hff]
      rw [List.filter_cons, List.filter_cons, ih]

/-! ### Passing up -/

theorem passUp_spec (now : Nat) (us : List Nat) (rs : List (Nat × Nat)) :
    (passUp now us rs).1 = rs ++ (passUp now us rs).2.map (fun u => (u, now)) ∧
    (passUp now us rs).2.Nodup ∧ (∀ u ∈ (passUp now us rs).2, u ∈ us ∧ has rs u = false) ∧
    (∀ u ∈ us, has (passUp now us rs).1 u = true) := by
  induction us generalizing rs with
  | nil => simp [passUp]
  | cons x xs ih =>
    unfold passUp
    split
    · rename_i hx
      obtain ⟨i1, i2, i3, i4⟩ := ih rs
      refine ⟨i1, i2, fun u hu => ⟨List.mem_cons_of_mem _ (i3 u hu).1, (i3 u hu).2⟩, ?_⟩
      intro u hu
      rcases List.mem_cons.mp hu with rfl | hu
      · rw [i1, has_append, hx]; rfl
      · exact i4 u hu
    · rename_i hx
      obtain ⟨i1, i2, i3, i4⟩ := ih (rs ++ [(x, now)])
      refine ⟨?_, ?_, ?_, ?_⟩
      · simp only [List.map_cons]; rw [i1]; simp
      · simp only [List.nodup_cons]
        refine ⟨fun hm => ?_, i2⟩
        have := (i3 x hm).2
        rw [has_append] at this
        simp [has] at this
      · intro u hu
        rcases List.mem_cons.mp hu with rfl | hu
        · exact ⟨by simp, by simpa using hx⟩
        · refine ⟨List.mem_cons_of_mem _ (i3 u hu).1, ?_⟩
          have := (i3 u hu).2
          rw [has_append] at this
          cases h : has rs u <;> simp_all
      · intro u hu
        rcases List.mem_cons.mp hu with rfl | hu
        · simp only; rw [i1, has_append, has_append]; simp [has]
        · exact i4 u hu

/-! ### The cancellation loop -/

theorem cancel_succ_ok {strict : Bool} {now fuel : Nat} {ps ps' : List Period} {rs rs' : List (Nat × Nat)} {out : List Nat}
    (h : cancel strict now (fuel + 1) ps rs = .ok (ps', rs', out)) :
    (singles (prune rs ps) = [] ∧ ps' = remaining rs ps ∧ rs' = rs ∧ out = []) ∨
    (singles (prune rs ps) ≠ [] ∧ ∃ out', cancel strict now fuel (remaining rs ps) (passUp now (singles (prune rs ps)) rs).1 = .ok (ps', rs', out') ∧
      out = (passUp now (singles (prune rs ps)) rs).2 ++ out') := by
  unfold cancel at h
  cases hm : mic strict ps rs with
  | ub f => rw [hm] at h; simp at h
  | abort => rw [hm] at h; simp at h
  | assertFail => rw [hm] at h; simp at h
  | ok r =>
    obtain ⟨p1, us⟩ := r
    obtain ⟨rfl, rfl⟩ := mic_ok hm
    rw [hm] at h
    simp only at h
    split at h
    · rename_i he
      left
      simp only [Outcome.ok.injEq, Prod.mk.injEq] at h
      exact ⟨List.isEmpty_iff.mp he, h.1.symm, h.2.1.symm, h.2.2.symm⟩
    · rename_i he
      right
      refine ⟨fun h0 => he (List.isEmpty_iff.mpr h0), ?_⟩
      cases hc : cancel strict now fuel (remaining rs ps) (passUp now (singles (prune rs ps)) rs).1 with
      | ub f => rw [hc] at h; simp at h
      | abort => rw [hc] at h; simp at h
      | assertFail => rw [hc] at h; simp at h
      | ok r =>
        obtain ⟨a, b, c⟩ := r
        rw [hc] at h
        simp only [Outcome.ok.injEq, Prod.mk.injEq] at h
        obtain ⟨rfl, rfl, rfl⟩ := h
        exact ⟨c, rfl, rfl⟩

theorem peel_of_remaining {rs rs1 : List (Nat × Nat)} {ps : List Period}
    (h1 : ∀ u, has rs1 u = true → Peel (fun u => has rs u = true) (ps.map Period.pkts) u) {u : Nat}
    (h : Peel (fun u => has rs1 u = true) ((remaining rs ps).map Period.pkts) u) :
    Peel (fun u => has rs u = true) (ps.map Period.pkts) u := by
  induction h with
  | base hk => exact h1 _ hk
  | @recover c u hc hu _ ih =>
    obtain ⟨p', hp', rfl⟩ := List.mem_map.mp hc
    obtain ⟨p, hp, -, he⟩ := mem_prune.mp (List.mem_of_mem_filter hp')
    rw [he] at hu ih
    refine Peel.recover (List.mem_map.mpr ⟨p, hp, rfl⟩) (List.mem_of_mem_filter hu) ?_
    intro v hv hne
    by_cases hk : has rs v = true
    · exact Peel.base hk
    · exact ih v (List.mem_filter.mpr ⟨hv, by simpa using hk⟩) hne

theorem peel_of_single {rs : List (Nat × Nat)} {ps : List Period} {u : Nat} (h : u ∈ singles (prune rs ps)) :
    Peel (fun u => has rs u = true) (ps.map Period.pkts) u := by
  obtain ⟨p', hp', he⟩ := mem_singles.mp h
  obtain ⟨p, hp, -, hf⟩ := mem_prune.mp hp'
  rw [hf] at he
  have hu : u ∈ p.pkts.filter (fun u => !has rs u) := by rw [he]; simp
  refine Peel.recover (List.mem_map.mpr ⟨p, hp, rfl⟩) (List.mem_of_mem_filter hu) ?_
  intro v hv hne
  by_cases hk : has rs v = true
  · exact Peel.base hk
  · have : v ∈ p.pkts.filter (fun u => !has rs u) := List.mem_filter.mpr ⟨hv, by simpa using hk⟩
    rw [he] at this
    simp at this
    exact absurd this hne

/-- What the loop computes. -/
theorem cancel_spec {strict : Bool} {now fuel : Nat} {ps ps' : List Period} {rs rs' : List (Nat × Nat)} {out : List Nat}
    (h : cancel strict now fuel ps rs = .ok (ps', rs', out)) :
    rs' = rs ++ out.map (fun u => (u, now)) ∧ out.Nodup ∧ (∀ u ∈ out, has rs u = false) ∧
    (∀ u ∈ out, Peel (fun u => has rs u = true) (ps.map Period.pkts) u) ∧
    ps' = remaining rs' ps ∧ singles ps' = [] := by
  induction fuel generalizing ps rs out with
  | zero => simp [cancel] at h
  | succ fuel ih =>
    rcases cancel_succ_ok h with ⟨hs, rfl, rfl, rfl⟩ | ⟨hs, out', hc, rfl⟩
    · refine ⟨by simp, by simp, by simp, by simp, rfl, ?_⟩
      rw [List.eq_nil_iff_forall_not_mem] at hs ⊢
      intro u hu
      obtain ⟨p, hp, he⟩ := mem_singles.mp hu
      exact hs u (mem_singles.mpr ⟨p, List.mem_of_mem_filter hp, he⟩)
    · obtain ⟨p1, p2, p3, -⟩ := passUp_spec now (singles (prune rs ps)) rs
      obtain ⟨i1, i2, i3, i4, i5, i6⟩ := ih hc
      generalize passUp now (singles (prune rs ps)) rs = pu at *
      obtain ⟨r1, o1⟩ := pu
      simp only at *
      subst p1
      have hsub : ∀ u, has rs u = true → has rs' u = true := by
        intro u hu; rw [i1, has_append, has_append, hu]; rfl
      refine ⟨?_, ?_, ?_, ?_, ?_, i6⟩
      · rw [i1]; simp
      · rw [List.nodup_append]
        refine ⟨p2, i2, ?_⟩
        rintro a ha b hb rfl
        have := i3 a hb
        rw [has_append, has_map.mpr ha] at this
        simp at this
      · intro u hu
        rcases List.mem_append.mp hu with hu | hu
        · exact (p3 u hu).2
        · have := i3 u hu
          rw [has_append] at this
          cases hh : has rs u <;> simp_all
      · intro u hu
        rcases List.mem_append.mp hu with hu | hu
        · exact peel_of_single (p3 u hu).1
        · refine peel_of_remaining ?_ (i4 u hu)
          intro v hv
          rw [has_append, Bool.or_eq_true] at hv
          rcases hv with hv | hv
          · exact Peel.base hv
          · exact peel_of_single (p3 v (has_map.mp hv)).1
      · rw [i5, remaining_remaining hsub]

/-- Packets still unknown in the recorded collisions. -/
def load (ps : List Period) : Nat := (ps.map (fun p => p.pkts.length)).sum

theorem load_prune_le (rs : List (Nat × Nat)) (ps : List Period) : load (prune rs ps) ≤ load ps := by
  induction ps with
  | nil => simp [load, prune]
  | cons p ps ih =>
    simp only [load, prune, List.map_cons, List.sum_cons] at ih ⊢
    have := List.length_filter_le (fun u => !has rs u) p.pkts
    omega

theorem load_filter (ps : List Period) : load (ps.filter (fun p => !p.pkts.isEmpty)) = load ps := by
  induction ps with
  | nil => rfl
  | cons p ps ih =>
    by_cases h : p.pkts.isEmpty
    · rw [List.filter_cons_of_neg (by simpa using h), ih]
      rw [List.isEmpty_iff] at h
      simp [load, h]
    · rw [List.filter_cons_of_pos (by simpa using h)]
      simp only [load, List.map_cons, List.sum_cons] at ih ⊢
      rw [ih]

theorem load_prune_lt {rs : List (Nat × Nat)} {ps : List Period} {p : Period} (hp : p ∈ ps) {u : Nat} (hu : u ∈ p.pkts)
    (hk : has rs u = true) : load (prune rs ps) < load ps := by
  induction ps with
  | nil => simp at hp
  | cons q qs ih =>
    have h1 := load_prune_le rs qs
    have h2 := List.length_filter_le (fun u => !has rs u) q.pkts
    simp only [load, prune, List.map_cons, List.sum_cons] at ih h1 ⊢
    rcases List.mem_cons.mp hp with rfl | hp
    · have : (p.pkts.filter (fun u => !has rs u)).length < p.pkts.length := by
        rcases Nat.lt_or_ge (p.pkts.filter (fun u => !has rs u)).length p.pkts.length with h | h
        · exact h
        · have := List.filter_sublist (p := fun u => !has rs u) (l := p.pkts) |>.eq_of_length (by omega)
          rw [List.filter_eq_self] at this
          have := this u hu
          rw [hk] at this; simp at this
      omega
    · have := ih hp
      omega

theorem cancel_not_diverged {strict : Bool} {now fuel : Nat} {ps : List Period} {rs : List (Nat × Nat)} (hf : load (prune rs ps) < fuel) :
    (cancel strict now fuel ps rs = .ub .invalidIterator ∧ strict = true) ∨ ∃ r, cancel strict now fuel ps rs = .ok r := by
  induction fuel generalizing ps rs with
  | zero => omega
  | succ fuel ih =>
    unfold cancel
    have hm : mic strict ps rs = .ok (remaining rs ps, singles (prune rs ps)) ∨ (mic strict ps rs = .ub .invalidIterator ∧ strict = true) := by
      cases strict with
      | false => left; rfl
      | true => rw [mic_true]; split <;> simp
    rcases hm with hm | ⟨hm, hst⟩
    swap
    · left; rw [hm]; exact ⟨rfl, hst⟩
    · rw [hm]
      simp only
      split
      · right; exact ⟨_, rfl⟩
      · rename_i he
        obtain ⟨u, hu⟩ := List.exists_mem_of_ne_nil _ (fun h0 => he (List.isEmpty_iff.mpr h0))
        obtain ⟨p, hp, hpu⟩ := mem_singles.mp hu
        obtain ⟨-, -, -, p4⟩ := passUp_spec now (singles (prune rs ps)) rs
        have hlt : load (prune (passUp now (singles (prune rs ps)) rs).1 (remaining rs ps)) < fuel := by
          have hpr : p ∈ remaining rs ps := List.mem_filter.mpr ⟨hp, by simp [hpu]⟩
          have h1 := load_prune_lt hpr (u := u) (by rw [hpu]; simp) (p4 u hu)
          have h2 : load (remaining rs ps) = load (prune rs ps) := load_filter _
          omega
        rcases ih hlt with ⟨h, hst⟩ | ⟨r, h⟩
        · left; rw [h]; exact ⟨rfl, hst⟩
        · right; rw [h]; exact ⟨_, rfl⟩

theorem fuelFor_enough (rs : List (Nat × Nat)) (ps : List Period) : load (prune rs ps) < fuelFor ps := by
  have := load_prune_le rs ps
  unfold fuelFor load at *
  omega

/-- The code either runs into the invalidated iterator or does what the version without it does. -/
theorem cancel_strict (now fuel : Nat) (ps : List Period) (rs : List (Nat × Nat)) :
    cancel true now fuel ps rs = .ub .invalidIterator ∨ cancel true now fuel ps rs = cancel false now fuel ps rs := by
  induction fuel generalizing ps rs with
  | zero => right; rfl
  | succ fuel ih =>
    unfold cancel
    rw [mic_false, mic_true]
    by_cases h2 : 2 ≤ (prune rs ps).countP (fun p => p.pkts.isEmpty)
    · left; rw [if_pos h2]
    · rw [if_neg h2]
      simp only
      split
      · right; rfl
      · rcases ih (remaining rs ps) (passUp now (singles (prune rs ps)) rs).1 with h | h
        · left; rw [h]
        · right; rw [h]

/-! ### Ends of receptions -/

section
variable {P : Type} [Zero P] [Add P]

/-- Collisions known when the cancellation of the busy period ending with frame `f` starts. -/
def collisionsAt (lost : P → P → Bool) (frameLen : Nat) (s : St P) (f : Frame P) : List Period :=
  cleanPeriods ((f.fin : Int) - 2 * (frameLen : Int))
    (if hasCollided lost s.rx f then s.periods ++ [⟨s.rx.finish, s.collided⟩] else s.periods)

/-- Received packets then. -/
def receivedAt (lost : P → P → Bool) (frameLen : Nat) (s : St P) (f : Frame P) : List (Nat × Nat) :=
  cleanReceived ((f.fin : Int) - 2 * (frameLen : Int)) (receiveOwn f.fin (hasCollided lost s.rx f) f.uid s.received).1

omit [Add P] in
theorem finishRx_inner {strict : Bool} {lost : P → P → Bool} {frameLen : Nat} {s : St P} {f : Frame P}
    (h : s.rx.uid ≠ some f.uid) :
    finishRx strict lost frameLen s f = .ok (⟨s.rx, s.collided, s.periods, (receiveOwn f.fin (hasCollided lost s.rx f) f.uid s.received).1⟩,
      (receiveOwn f.fin (hasCollided lost s.rx f) f.uid s.received).2) := by
  unfold finishRx
  simp only [if_neg h]

omit [Add P] in
theorem finishRx_last {strict : Bool} {lost : P → P → Bool} {frameLen : Nat} {s : St P} {f : Frame P} (h : s.rx.uid = some f.uid) :
    (finishRx strict lost frameLen s f = .ub .invalidIterator ∧ strict = true ∧
      cancel strict f.fin (fuelFor (collisionsAt lost frameLen s f)) (collisionsAt lost frameLen s f) (receivedAt lost frameLen s f) =
        .ub .invalidIterator) ∨
    ∃ ps rs out, cancel strict f.fin (fuelFor (collisionsAt lost frameLen s f)) (collisionsAt lost frameLen s f)
        (receivedAt lost frameLen s f) = .ok (ps, rs, out) ∧
      finishRx strict lost frameLen s f =
        .ok (⟨⟨none, f.fin, false, some 0⟩, [], ps, rs⟩, (receiveOwn f.fin (hasCollided lost s.rx f) f.uid s.received).2 ++ out) := by
  have hc := cancel_not_diverged (strict := strict) (now := f.fin)
    (fuelFor_enough (receivedAt lost frameLen s f) (collisionsAt lost frameLen s f))
  have he : finishRx strict lost frameLen s f =
      match cancel strict f.fin (fuelFor (collisionsAt lost frameLen s f)) (collisionsAt lost frameLen s f) (receivedAt lost frameLen s f) with
      | .ub e => .ub e
      | .abort => .abort
      | .assertFail => .assertFail
      | .ok (periods, received, out) => .ok (⟨⟨none, f.fin, false, some 0⟩, [], periods, received⟩,
          (receiveOwn f.fin (hasCollided lost s.rx f) f.uid s.received).2 ++ out) := by
    unfold finishRx
    simp only [if_pos h]
    rfl
  rcases hc with ⟨hc, hst⟩ | ⟨⟨ps, rs, out⟩, hc⟩
  · left; rw [he, hc]; exact ⟨rfl, hst, rfl⟩
  · right; rw [he, hc]; exact ⟨ps, rs, out, rfl, rfl⟩

theorem receiveOwn_spec (now : Nat) (c : Bool) (uid : Nat) (rs : List (Nat × Nat)) :
    (receiveOwn now c uid rs).1 = rs ++ (receiveOwn now c uid rs).2.map (fun u => (u, now)) ∧
    (receiveOwn now c uid rs).2.Nodup ∧
    (∀ u ∈ (receiveOwn now c uid rs).2, u = uid ∧ c = false ∧ has rs uid = false) ∧
    (c = false → has (receiveOwn now c uid rs).1 uid = true) := by
  unfold receiveOwn
  split
  · simp_all
  · split
    · simp_all
    · rename_i h1 h2
      refine ⟨by simp, by simp, by simp_all, ?_⟩
      intro _
      rw [has_append]; simp [has]

/-! ### Executions -/

theorem execFrom_append (strict ties : Bool) (lost : P → P → Bool) (F : Nat) (s : Sys P) (a b : List (Op P)) :
    execFrom strict ties lost F s (a ++ b) =
      match execFrom strict ties lost F s a with
      | some (.ok s') => execFrom strict ties lost F s' b
      | r => r := by
  induction a generalizing s with
  | nil => simp [execFrom]
  | cons o os ih =>
    simp only [List.cons_append, execFrom]
    cases step strict ties lost F s o with
    | none => rfl
    | some r => cases r <;> simp [ih]

theorem exec_snoc {strict ties : Bool} {lost : P → P → Bool} {F : Nat} {ops : List (Op P)} {o : Op P} {s : Sys P} :
    exec strict ties lost F (ops ++ [o]) = some (.ok s) ↔
      ∃ s0, exec strict ties lost F ops = some (.ok s0) ∧ step strict ties lost F s0 o = some (.ok s) := by
  unfold exec
  rw [execFrom_append]
  cases execFrom strict ties lost F Sys.init ops with
  | none => simp
  | some r =>
    cases r with
    | ok s0 =>
      simp only [execFrom]
      cases hst : step strict ties lost F s0 o with
      | none => simp [hst]
      | some r => cases r <;> simp [hst]
    | ub e => simp
    | abort => simp
    | assertFail => simp

theorem step_arrive_ok {strict ties : Bool} {lost : P → P → Bool} {F : Nat} {s0 s : Sys P} {f : Frame P} :
    step strict ties lost F s0 (.arrive f) = some (.ok s) ↔
      (s0.clock ≤ f.start ∧ ∀ g ∈ s0.pending, f.start < g.fin ∨ ties = true ∧ f.start = g.fin) ∧
      s = ⟨f.start, startRx s0.st f, schedule f s0.pending, s0.delivered⟩ := by
  simp only [step]
  split
  · rename_i h; simp only [Option.some.injEq, Outcome.ok.injEq]; exact ⟨fun e => ⟨h, e.symm⟩, fun e => e.2.symm⟩
  · rename_i h; simp only [reduceCtorEq, false_iff]; exact fun e => h e.1

theorem step_finish_ok {strict ties : Bool} {lost : P → P → Bool} {F : Nat} {s0 s : Sys P} :
    step strict ties lost F s0 .finish = some (.ok s) ↔
      ∃ f rest st out, s0.pending = f :: rest ∧ finishRx strict lost F s0.st f = .ok (st, out) ∧
        s = ⟨f.fin, st, rest, s0.delivered ++ out.map (fun u => (f.fin, u))⟩ := by
  simp only [step]
  cases hp : s0.pending with
  | nil => simp
  | cons f rest =>
    simp only
    constructor
    · intro h
      cases hf : finishRx strict lost F s0.st f with
      | ok r =>
        rw [hf] at h
        obtain ⟨st, out⟩ := r
        simp only [Option.some.injEq, Outcome.ok.injEq] at h
        exact ⟨f, rest, st, out, rfl, hf, h.symm⟩
      | ub e => rw [hf] at h; simp at h
      | abort => rw [hf] at h; simp at h
      | assertFail => rw [hf] at h; simp at h
    · rintro ⟨f', rest', st, out, he, hf, rfl⟩
      simp only [List.cons.injEq] at he
      obtain ⟨rfl, rfl⟩ := he
      rw [hf]

/-- The busy-period members behave as in the Aloha receiver. -/
theorem exec_aloha {strict ties : Bool} {lost : P → P → Bool} {F : Nat} {ops : List (Op P)} {s : Sys P}
    (h : exec strict ties lost F ops = some (.ok s)) :
    ∃ d, Aloha.exec ties lost ops = some ⟨s.clock, s.st.rx, s.pending, d⟩ := by
  induction ops using List.reverseRecOn generalizing s with
  | nil =>
    simp only [exec, execFrom, Option.some.injEq, Outcome.ok.injEq] at h
    subst h
    exact ⟨[], rfl⟩
  | append_singleton os o ih =>
    rw [exec_snoc] at h
    obtain ⟨s0, h0, h1⟩ := h
    obtain ⟨d, hd⟩ := ih h0
    cases o with
    | arrive f =>
      obtain ⟨hc, rfl⟩ := step_arrive_ok.mp h1
      refine ⟨d, Aloha.exec_snoc.mpr ⟨_, hd, ?_⟩⟩
      simp only [Aloha.step]
      rw [if_pos hc]
      rfl
    | finish =>
      obtain ⟨f, rest, st, out, hp, hf, rfl⟩ := step_finish_ok.mp h1
      have hrx : st.rx = (Aloha.finishRx lost s0.st.rx f).1 := by
        by_cases hu : s0.st.rx.uid = some f.uid
        · rcases finishRx_last (strict := strict) (lost := lost) (frameLen := F) hu with ⟨hb, -⟩ | ⟨ps, rs, o, -, hk⟩
          · rw [hb] at hf; simp at hf
          · rw [hk] at hf
            simp only [Outcome.ok.injEq, Prod.mk.injEq] at hf
            rw [← hf.1]
            simp [Aloha.finishRx, hu]
        · rw [finishRx_inner hu] at hf
          simp only [Outcome.ok.injEq, Prod.mk.injEq] at hf
          rw [← hf.1]
          simp [Aloha.finishRx, hu]
      refine ⟨d ++ (if (Aloha.finishRx lost s0.st.rx f).2 then [(f.fin, f.uid)] else []), Aloha.exec_snoc.mpr ⟨_, hd, ?_⟩⟩
      simp only [Aloha.step, hp, hrx]

theorem crdsa_clock {strict ties : Bool} {lost : P → P → Bool} {F : Nat} {ops : List (Op P)} {s : Sys P}
    (h : exec strict ties lost F ops = some (.ok s)) :
    s.pending.Pairwise (fun a b => a.fin ≤ b.fin) ∧ ∀ f ∈ s.pending, s.clock ≤ f.fin := by
  induction ops using List.reverseRecOn generalizing s with
  | nil =>
    simp only [exec, execFrom, Option.some.injEq, Outcome.ok.injEq] at h
    subst h
    simp [Sys.init]
  | append_singleton os o ih =>
    rw [exec_snoc] at h
    obtain ⟨s0, h0, h1⟩ := h
    obtain ⟨i1, i2⟩ := ih h0
    cases o with
    | arrive f =>
      obtain ⟨hc, rfl⟩ := step_arrive_ok.mp h1
      refine ⟨Aloha.schedule_sorted i1, ?_⟩
      intro g hg
      rcases Aloha.mem_schedule.mp hg with rfl | hg
      · show g.start ≤ g.fin; unfold Frame.fin; omega
      · have := hc.2 g hg; show f.start ≤ g.fin; omega
    | finish =>
      obtain ⟨f, rest, st, out, hp, hf, rfl⟩ := step_finish_ok.mp h1
      rw [hp, List.pairwise_cons] at i1
      exact ⟨i1.2, i1.1⟩

omit [Add P] in
/-- What the end of a reception passes up and keeps, for the bookkeeping of deliveries. -/
theorem finishRx_received {strict : Bool} {lost : P → P → Bool} {F : Nat} {s s' : St P} {f : Frame P} {out : List Nat}
    (h : finishRx strict lost F s f = .ok (s', out)) :
    out.Nodup ∧
    (∀ u ∈ out, (u, f.fin) ∈ s'.received) ∧
    (∀ u ∈ out, ∀ r ∈ s.received, r.1 = u → r.2 + 2 * F < f.fin) ∧
    (∀ r ∈ s.received, r ∈ s'.received ∨ r.2 + 2 * F < f.fin) ∧
    (∀ r ∈ s'.received, r ∈ s.received ∨ r.1 ∈ out) := by
  obtain ⟨o1, o2, o3, -⟩ := receiveOwn_spec f.fin (hasCollided lost s.rx f) f.uid s.received
  by_cases hu : s.rx.uid = some f.uid
  · rcases finishRx_last (strict := strict) (lost := lost) (frameLen := F) hu with ⟨hb, -⟩ | ⟨ps, rs, rec, hc, hk⟩
    · rw [hb] at h; simp at h
    · rw [hk] at h
      simp only [Outcome.ok.injEq, Prod.mk.injEq] at h
      obtain ⟨rfl, rfl⟩ := h
      obtain ⟨h1, h2, h3, -, -, -⟩ := cancel_spec hc
      unfold receivedAt at h1 h3
      generalize (receiveOwn f.fin (hasCollided lost s.rx f) f.uid s.received).1 = r1 at *
      generalize (receiveOwn f.fin (hasCollided lost s.rx f) f.uid s.received).2 = own at *
      subst o1
      have hkeep : ∀ r ∈ s.received ++ own.map (fun u => (u, f.fin)),
          r ∈ cleanReceived ((f.fin : Int) - 2 * (F : Int)) (s.received ++ own.map (fun u => (u, f.fin))) ∨ r.2 + 2 * F < f.fin := by
        intro r hr
        by_cases hlt : (r.2 : Int) < (f.fin : Int) - 2 * (F : Int)
        · right; omega
        · left; exact List.mem_filter.mpr ⟨hr, by simpa using hlt⟩
      have hownkeep : ∀ u ∈ own, (u, f.fin) ∈ cleanReceived ((f.fin : Int) - 2 * (F : Int)) (s.received ++ own.map (fun u => (u, f.fin))) := by
        intro u hu
        rcases hkeep (u, f.fin) (by simp; exact Or.inr hu) with h | h
        · exact h
        · simp only at h; omega
      refine ⟨?_, ?_, ?_, ?_, ?_⟩
      · rw [List.nodup_append]
        refine ⟨o2, h2, ?_⟩
        rintro a ha b hb rfl
        have := h3 a hb
        have h' : has (cleanReceived ((f.fin : Int) - 2 * (F : Int)) (s.received ++ own.map (fun u => (u, f.fin)))) a = true :=
          has_iff.mpr (List.mem_map.mpr ⟨_, hownkeep a ha, rfl⟩)
        rw [this] at h'; simp at h'
      · intro u hu
        simp only [h1]
        rcases List.mem_append.mp hu with hu | hu
        · exact List.mem_append_left _ (hownkeep u hu)
        · exact List.mem_append_right _ (List.mem_map.mpr ⟨u, hu, rfl⟩)
      · intro u hu r hr hru
        rcases List.mem_append.mp hu with hu | hu
        · obtain ⟨rfl, -, hno⟩ := o3 u hu
          have : has s.received f.uid = true := has_iff.mpr (List.mem_map.mpr ⟨r, hr, hru⟩)
          rw [hno] at this; simp at this
        · have hno := h3 u hu
          rcases hkeep r (List.mem_append_left _ hr) with h | h
          · have : has (cleanReceived ((f.fin : Int) - 2 * (F : Int)) (s.received ++ own.map (fun u => (u, f.fin)))) u = true :=
              has_iff.mpr (List.mem_map.mpr ⟨r, h, hru⟩)
            rw [hno] at this; simp at this
          · exact h
      · intro r hr
        rcases hkeep r (List.mem_append_left _ hr) with h | h
        · left; simp only [h1]; exact List.mem_append_left _ h
        · right; exact h
      · intro r hr
        simp only [h1] at hr
        rcases List.mem_append.mp hr with hr | hr
        · have := List.mem_of_mem_filter hr
          rcases List.mem_append.mp this with h | h
          · exact Or.inl h
          · obtain ⟨u, hu, rfl⟩ := List.mem_map.mp h
            exact Or.inr (List.mem_append_left _ hu)
        · obtain ⟨u, hu, rfl⟩ := List.mem_map.mp hr
          exact Or.inr (List.mem_append_right _ hu)
  · rw [finishRx_inner hu] at h
    simp only [Outcome.ok.injEq, Prod.mk.injEq] at h
    obtain ⟨rfl, rfl⟩ := h
    refine ⟨o2, ?_, ?_, ?_, ?_⟩
    · intro u hu
      simp only [o1]
      exact List.mem_append_right _ (List.mem_map.mpr ⟨u, hu, rfl⟩)
    · intro u hu r hr hru
      obtain ⟨rfl, -, hno⟩ := o3 u hu
      have : has s.received f.uid = true := has_iff.mpr (List.mem_map.mpr ⟨r, hr, hru⟩)
      rw [hno] at this; simp at this
    · intro r hr
      left; simp only [o1]; exact List.mem_append_left _ hr
    · intro r hr
      simp only [o1] at hr
      rcases List.mem_append.mp hr with hr | hr
      · exact Or.inl hr
      · obtain ⟨u, hu, rfl⟩ := List.mem_map.mp hr
        exact Or.inr hu

/-! ### State between busy periods -/

omit [Zero P] [Add P] in
/-- Under `Apart` a reception closes the busy period iff it is the last one pending. -/
theorem closes_iff {s : Aloha.Sys P} {fs : List (Frame P)} (b : Aloha.Base s fs) {f : Frame P} {rest : List (Frame P)}
    (hp : s.pending = f :: rest) : s.rx.uid = some f.uid ↔ rest = [] := by
  have hu := b.uid_eq
  have hn := b.nodup
  rw [hp] at hu hn
  rw [List.map_cons, List.nodup_cons] at hn
  cases rest with
  | nil => simp at hu; simp [hu]
  | cons g gs =>
    rw [List.getLast?_cons_cons] at hu
    simp only [reduceCtorEq, iff_false]
    rw [hu]
    intro he
    simp only [Option.map_eq_some_iff] at he
    obtain ⟨x, hx, hxu⟩ := he
    exact hn.1 (List.mem_map.mpr ⟨x, List.mem_of_getLast? hx, hxu⟩)

/-- Invariant of the receiver relating it to the frames that arrived and the current busy period. -/
structure Inv (s : Sys P) (fs : List (Frame P)) (b : List (Frame P) × Nat) : Prop where
  count : b.2 = s.pending.length
  busy : ∀ u, u ∈ s.st.collided ↔ s.pending ≠ [] ∧ ∃ f ∈ b.1, f.uid = u
  sub : ∀ f ∈ b.1, f ∈ fs
  ndc : s.st.collided.Nodup
  ndp : ∀ p ∈ s.st.periods, p.pkts.Nodup
  periods : ∀ p ∈ s.st.periods, ∀ u ∈ p.pkts, ∃ f ∈ fs, f.uid = u
  received : ∀ r ∈ s.st.received, ∃ f ∈ fs, f.uid = r.1
  delivered : ∀ d ∈ s.delivered, ∃ f ∈ fs, f.uid = d.2 ∧ f.start ≤ d.1
  idle : s.pending = [] → ∀ p ∈ s.st.periods, 2 ≤ p.pkts.length ∧ ∀ u ∈ p.pkts, has s.st.received u = false
  sorted : s.st.periods.Pairwise (fun p q => p.finish ≤ q.finish)
  past : ∀ p ∈ s.st.periods, p.finish ≤ s.clock

omit [Zero P] [Add P] in
theorem mem_insertKey {u v : Nat} {l : List Nat} : u ∈ insertKey v l ↔ u = v ∨ u ∈ l := by
  unfold insertKey
  split
  · rename_i h
    simp only [List.contains_eq_mem, decide_eq_true_eq] at h
    constructor
    · exact Or.inr
    · rintro (rfl | h')
      · exact h
      · exact h'
  · simp [or_comm]

omit [Zero P] [Add P] in
theorem nodup_insertKey {v : Nat} {l : List Nat} (h : l.Nodup) : (insertKey v l).Nodup := by
  unfold insertKey
  split
  · exact h
  · rename_i hv
    simp only [List.contains_eq_mem, decide_eq_true_eq] at hv
    rw [List.nodup_append]
    refine ⟨h, by simp, ?_⟩
    intro a ha b hb
    simp at hb
    subst hb
    rintro rfl
    exact hv ha

theorem peel_or {known : Nat → Prop} {cs : List (List Nat)} {u : Nat} (h : Peel known cs u) : known u ∨ ∃ c ∈ cs, u ∈ c := by
  cases h with
  | base hk => exact Or.inl hk
  | recover hc hu _ => exact Or.inr ⟨_, hc, hu⟩

/-- The periods after the end of a busy period, given the result of the loop. -/
theorem mem_after_cancel {strict : Bool} {now fuel : Nat} {ps ps' : List Period} {rs rs' : List (Nat × Nat)} {out : List Nat}
    (h : cancel strict now fuel ps rs = .ok (ps', rs', out)) {p' : Period} (hp : p' ∈ ps') :
    (∃ p ∈ ps, p'.finish = p.finish ∧ p'.pkts = p.pkts.filter (fun u => !has rs' u)) ∧ 2 ≤ p'.pkts.length ∧
    ∀ u ∈ p'.pkts, has rs' u = false := by
  obtain ⟨-, -, -, -, h5, h6⟩ := cancel_spec h
  have hp0 := hp
  rw [h5] at hp
  obtain ⟨hm, hne⟩ := List.mem_filter.mp hp
  obtain ⟨p, hpm, e1, e2⟩ := mem_prune.mp hm
  refine ⟨⟨p, hpm, e1, e2⟩, ?_, ?_⟩
  · match hpk : p'.pkts with
    | [] => simp [hpk] at hne
    | [u] =>
      have : u ∈ singles ps' := mem_singles.mpr ⟨p', hp0, hpk⟩
      rw [h6] at this; simp at this
    | a :: b :: l => simp
  · intro u hu
    rw [e2] at hu
    simpa using (List.mem_filter.mp hu).2

theorem sorted_after_cancel {strict : Bool} {now fuel : Nat} {ps ps' : List Period} {rs rs' : List (Nat × Nat)} {out : List Nat}
    (h : cancel strict now fuel ps rs = .ok (ps', rs', out)) (hs : ps.Pairwise (fun p q => p.finish ≤ q.finish)) :
    ps'.Pairwise (fun p q => p.finish ≤ q.finish) := by
  obtain ⟨-, -, -, -, h5, -⟩ := cancel_spec h
  rw [h5]
  unfold remaining prune
  apply List.Pairwise.filter
  rw [List.pairwise_map]
  exact hs

theorem inv_exec {strict ties : Bool} {lost : P → P → Bool} {F : Nat} {ops : List (Op P)} {s : Sys P}
    (h : exec strict ties lost F ops = some (.ok s)) (hap : Apart ties (frames ops)) :
    Inv s (frames ops) (ops.foldl Aloha.busyStep ([], 0)) := by
  induction ops using List.reverseRecOn generalizing s with
  | nil =>
    simp only [exec, execFrom, Option.some.injEq, Outcome.ok.injEq] at h
    subst h
    constructor <;> simp [Sys.init, St.init]
  | append_singleton os o ih =>
    have hfull := h
    rw [exec_snoc] at h
    obtain ⟨s0, h0, h1⟩ := h
    have hap0 : Apart ties (frames os) := by
      unfold Apart at hap ⊢; rw [Aloha.frames_append, List.pairwise_append] at hap; exact hap.1
    have c := ih h0 hap0
    obtain ⟨d0, hd0⟩ := exec_aloha h0
    have b := Aloha.base_exec hd0 hap0
    rw [Aloha.frames_append, List.foldl_append]
    simp only [List.foldl_cons, List.foldl_nil]
    generalize os.foldl Aloha.busyStep ([], 0) = bp at c
    obtain ⟨bp, n⟩ := bp
    cases o with
    | arrive f =>
      obtain ⟨hc, rfl⟩ := step_arrive_ok.mp h1
      have hlen : (schedule f s0.pending).length = s0.pending.length + 1 := by
        rw [(Aloha.schedule_perm f s0.pending).length_eq]; rfl
      have hpne : schedule f s0.pending ≠ [] := by
        intro h0; rw [h0] at hlen; simp at hlen
      have hcount := c.count
      simp only at hcount
      have hbs : (Aloha.busyStep (bp, n) (.arrive f)) = if s0.pending = [] then ([f], 1) else (bp ++ [f], n + 1) := by
        simp only [Aloha.busyStep, hcount, List.length_eq_zero_iff]
      rw [hbs]
      constructor
      · split
        · rename_i hp; simp [hp, schedule]
        · simp [hlen, hcount]
      · intro u
        simp only [startRx, mem_insertKey, c.busy u, hpne, ne_eq, not_false_eq_true, true_and]
        split
        · rename_i hp
          simp [hp, eq_comm]
        · rename_i hp
          simp only [hp, not_false_eq_true, true_and, List.mem_append, List.mem_singleton]
          constructor
          · rintro (rfl | ⟨g, hg, rfl⟩)
            · exact ⟨f, Or.inr rfl, rfl⟩
            · exact ⟨g, Or.inl hg, rfl⟩
          · rintro ⟨g, hg | rfl, rfl⟩
            · exact Or.inr ⟨g, hg, rfl⟩
            · exact Or.inl rfl
      · intro g hg
        split at hg
        · simp at hg; subst hg; simp [frames]
        · simp only [List.mem_append, List.mem_singleton] at hg
          rcases hg with hg | rfl
          · simp; exact Or.inl (c.sub g hg)
          · simp [frames]
      · exact nodup_insertKey c.ndc
      · exact c.ndp
      · intro p hp u hu
        obtain ⟨g, hg, e⟩ := c.periods p hp u hu
        exact ⟨g, by simp [hg], e⟩
      · intro r hr
        obtain ⟨g, hg, e⟩ := c.received r hr
        exact ⟨g, by simp [hg], e⟩
      · intro d hd
        obtain ⟨g, hg, e⟩ := c.delivered d hd
        exact ⟨g, by simp [hg], e⟩
      · intro hp; exact absurd hp hpne
      · exact c.sorted
      · intro p hp
        have := c.past p hp
        show p.finish ≤ f.start
        omega
    | finish =>
      obtain ⟨f, rest, st, out, hp, hf, rfl⟩ := step_finish_ok.mp h1
      have hff : f ∈ frames os := b.sub f (by show f ∈ s0.pending; simp [hp])
      have hclk : s0.clock ≤ f.fin := b.future f (by show f ∈ s0.pending; simp [hp])
      have hcount := c.count
      simp only at hcount
      rw [hp] at hcount
      obtain ⟨r1, r2, r3, r4, r5⟩ := finishRx_received hf
      simp only [frames, List.append_nil, Aloha.busyStep]
      have hcl := closes_iff b hp
      simp only at hcl
      by_cases hu : s0.st.rx.uid = some f.uid
      · have hrest : rest = [] := hcl.mp hu
        subst hrest
        rcases finishRx_last (strict := strict) (lost := lost) (frameLen := F) hu with ⟨hb, -⟩ | ⟨ps, rs, rec, hcan, hk⟩
        · rw [hb] at hf; simp at hf
        · rw [hk] at hf
          simp only [Outcome.ok.injEq, Prod.mk.injEq] at hf
          obtain ⟨rfl, rfl⟩ := hf
          have hfin : s0.st.rx.finish = f.fin := b.finish_eq f (by show s0.pending.getLast? = some f; simp [hp])
          have hat : ∀ p ∈ collisionsAt lost F s0.st f, p ∈ s0.st.periods ∨ p = ⟨s0.st.rx.finish, s0.st.collided⟩ := by
            intro p hpm
            have := List.dropWhile_subset _ hpm
            split at this
            · simp at this; exact this
            · exact Or.inl this
          have hatu : ∀ p ∈ collisionsAt lost F s0.st f, ∀ u ∈ p.pkts, ∃ g ∈ frames os, g.uid = u := by
            intro p hpm u hu
            rcases hat p hpm with h | rfl
            · exact c.periods p h u hu
            · obtain ⟨-, g, hg, e⟩ := (c.busy u).mp hu
              exact ⟨g, c.sub g hg, e⟩
          have houtu : ∀ u ∈ (receiveOwn f.fin (hasCollided lost s0.st.rx f) f.uid s0.st.received).2 ++ rec, ∃ g ∈ frames os, g.uid = u := by
            intro u hu
            rcases List.mem_append.mp hu with hu | hu
            · obtain ⟨-, -, o3, -⟩ := receiveOwn_spec f.fin (hasCollided lost s0.st.rx f) f.uid s0.st.received
              exact ⟨f, hff, (o3 u hu).1.symm⟩
            · obtain ⟨-, -, h3, h4, -, -⟩ := cancel_spec hcan
              rcases peel_or (h4 u hu) with hk | ⟨cc, hcc, huc⟩
              · rw [h3 u hu] at hk; simp at hk
              · obtain ⟨p, hpm, rfl⟩ := List.mem_map.mp hcc
                exact hatu p hpm u huc
          constructor
          · simp at hcount; simp [hcount]
          · simp
          · exact c.sub
          · simp
          · intro p' hp'
            obtain ⟨⟨p, hpm, -, e⟩, -, -⟩ := mem_after_cancel hcan hp'
            rw [e]
            apply List.Nodup.filter
            rcases hat p hpm with h | rfl
            · exact c.ndp p h
            · exact c.ndc
          · intro p' hp' u hu
            obtain ⟨⟨p, hpm, -, e⟩, -, -⟩ := mem_after_cancel hcan hp'
            rw [e] at hu
            exact hatu p hpm u (List.mem_of_mem_filter hu)
          · intro r hr
            rcases r5 r hr with h | h
            · exact c.received r h
            · exact houtu _ h
          · intro d hd
            rcases List.mem_append.mp hd with hd | hd
            · exact c.delivered d hd
            · obtain ⟨u, hu, rfl⟩ := List.mem_map.mp hd
              obtain ⟨g, hg, e⟩ := houtu u hu
              refine ⟨g, hg, e, ?_⟩
              have := b.started g hg
              simp only at this ⊢
              omega
          · intro _ p' hp'
            obtain ⟨-, h2, h3⟩ := mem_after_cancel hcan hp'
            exact ⟨h2, h3⟩
          · apply sorted_after_cancel hcan
            unfold collisionsAt cleanPeriods
            refine List.Pairwise.sublist (List.dropWhile_sublist _) ?_
            split
            · rw [List.pairwise_append]
              refine ⟨c.sorted, by simp, ?_⟩
              intro p hpm q hq
              simp at hq
              subst hq
              have := c.past p hpm
              simp only
              omega
            · exact c.sorted
          · intro p' hp'
            obtain ⟨⟨p, hpm, e, -⟩, -, -⟩ := mem_after_cancel hcan hp'
            rw [e]
            rcases hat p hpm with h | rfl
            · have := c.past p h
              show p.finish ≤ f.fin
              omega
            · show s0.st.rx.finish ≤ f.fin
              omega
      · have hrest : rest ≠ [] := fun h => hu (hcl.mpr h)
        rw [finishRx_inner hu] at hf
        simp only [Outcome.ok.injEq, Prod.mk.injEq] at hf
        obtain ⟨rfl, rfl⟩ := hf
        have hown := fun u hu => (receiveOwn_spec f.fin (hasCollided lost s0.st.rx f) f.uid s0.st.received).2.2.1 u hu
        constructor
        · simp at hcount; simp [hcount]
        · intro u
          rw [c.busy u]
          simp [hp, hrest]
        · exact c.sub
        · exact c.ndc
        · exact c.ndp
        · exact c.periods
        · intro r hr
          rcases r5 r hr with h | h
          · exact c.received r h
          · exact ⟨f, hff, (hown _ h).1.symm⟩
        · intro d hd
          rcases List.mem_append.mp hd with hd | hd
          · exact c.delivered d hd
          · obtain ⟨u, hu, rfl⟩ := List.mem_map.mp hd
            refine ⟨f, hff, (hown u hu).1.symm, ?_⟩
            show f.start ≤ f.fin
            unfold Frame.fin; omega
        · intro h; exact absurd h hrest
        · exact c.sorted
        · intro p hpm
          have := c.past p hpm
          show p.finish ≤ f.fin
          omega

end

end Crdsa
end Icarus
