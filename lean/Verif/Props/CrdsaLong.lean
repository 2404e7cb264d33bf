import Verif.Props.CrdsaFrame

/-!
# C69: CRDSA over histories of any length

What a receiver remembers of earlier packets has no influence on packets it has not seen before.
-/

set_option autoImplicit false

namespace Icarus
open Aloha (Frame Op frames Apart)
open Crdsa

/-! ## The cancellation ignores periods and packets of the past -/

section
variable {old : Nat → Prop} {junk : List Period} {jr : List (Nat × Nat)}

/-- Left-over collisions: at least two packets each, none of them received. -/
structure Inert (old : Nat → Prop) (junk : List Period) (jr : List (Nat × Nat)) : Prop where
  two : ∀ p ∈ junk, 2 ≤ p.pkts.length
  lost : ∀ p ∈ junk, ∀ u ∈ p.pkts, old u ∧ has jr u = false
  gone : ∀ r ∈ jr, old r.1

theorem has_new {rs : List (Nat × Nat)} (hj : Inert old junk jr) {u : Nat} (hu : ¬ old u) : has (jr ++ rs) u = has rs u := by
  rw [has_append]
  have : has jr u = false := by
    rw [← Bool.not_eq_true, has_iff, List.mem_map]
    rintro ⟨r, hr, rfl⟩
    exact hu (hj.gone r hr)
  rw [this, Bool.false_or]

theorem prune_inert {ps : List Period} {rs : List (Nat × Nat)} (hj : Inert old junk jr) (hps : ∀ p ∈ ps, ∀ u ∈ p.pkts, ¬ old u)
    (hrs : ∀ r ∈ rs, ¬ old r.1) : prune (jr ++ rs) (junk ++ ps) = junk ++ prune rs ps := by
  unfold prune
  rw [List.map_append]
  congr 1
  · conv_rhs => rw [← List.map_id junk]
    refine List.map_congr_left (fun p hp => ?_)
    have : p.pkts.filter (fun u => !has (jr ++ rs) u) = p.pkts := by
      rw [List.filter_eq_self]
      intro u hu
      have h1 := hj.lost p hp u hu
      rw [has_append, h1.2, Bool.false_or, Bool.not_eq_true', ← Bool.not_eq_true, has_iff, List.mem_map]
      rintro ⟨r, hr, rfl⟩
      exact hrs r hr h1.1
    rw [this]; rfl
  · refine List.map_congr_left (fun p hp => ?_)
    congr 1
    refine List.filter_congr (fun u hu => ?_)
    rw [has_new hj (hps p hp u hu)]

theorem singles_inert {ps : List Period} (hj : Inert old junk jr) : singles (junk ++ ps) = singles ps := by
  have h1 : singles (junk ++ ps) = singles junk ++ singles ps := by unfold singles; rw [List.filterMap_append]
  have h2 : singles junk = [] := by
    rw [List.eq_nil_iff_forall_not_mem]
    intro u hu
    obtain ⟨p, hp, e⟩ := mem_singles.mp hu
    have := hj.two p hp
    rw [e] at this
    simp at this
  rw [h1, h2, List.nil_append]

theorem nonempty_inert (hj : Inert old junk jr) : ∀ p ∈ junk, p.pkts.isEmpty = false := by
  intro p hp
  have := hj.two p hp
  match hpk : p.pkts with
  | [] => rw [hpk] at this; simp at this
  | a :: l => rfl

theorem mic_inert {strict : Bool} {ps : List Period} {rs : List (Nat × Nat)} (hj : Inert old junk jr) (hps : ∀ p ∈ ps, ∀ u ∈ p.pkts, ¬ old u)
    (hrs : ∀ r ∈ rs, ¬ old r.1) :
    mic strict (junk ++ ps) (jr ++ rs) = (mic strict ps rs).bind (fun r => .ok (junk ++ r.1, r.2)) := by
  have hfil : (junk ++ prune rs ps).filter (fun p => !p.pkts.isEmpty) = junk ++ remaining rs ps := by
    rw [List.filter_append, List.filter_eq_self.mpr]
    · rfl
    · intro p hp; rw [nonempty_inert hj p hp]; rfl
  have hcount : (junk ++ prune rs ps).countP (fun p => p.pkts.isEmpty) = (prune rs ps).countP (fun p => p.pkts.isEmpty) := by
    rw [List.countP_append, List.countP_eq_zero.mpr, Nat.zero_add]
    intro p hp; rw [nonempty_inert hj p hp]; simp
  cases strict with
  | false =>
    rw [mic_false, mic_false]
    simp only [remaining, prune_inert hj hps hrs, singles_inert hj]
    rw [hfil]; rfl
  | true =>
    rw [mic_true, mic_true]
    simp only [remaining, prune_inert hj hps hrs, singles_inert hj]
    rw [hfil, hcount]
    split <;> rfl

theorem passUp_inert {now : Nat} {us : List Nat} {rs : List (Nat × Nat)} (hj : Inert old junk jr) (hus : ∀ u ∈ us, ¬ old u) :
    passUp now us (jr ++ rs) = (jr ++ (passUp now us rs).1, (passUp now us rs).2) := by
  induction us generalizing rs with
  | nil => rfl
  | cons u us ih =>
    unfold passUp
    rw [has_new hj (hus u (by simp))]
    split
    · exact ih (fun v hv => hus v (by simp [hv]))
    · rw [List.append_assoc, ih (fun v hv => hus v (by simp [hv]))]

theorem cancel_inert {strict : Bool} {now fuel : Nat} {ps : List Period} {rs : List (Nat × Nat)} (hj : Inert old junk jr)
    (hps : ∀ p ∈ ps, ∀ u ∈ p.pkts, ¬ old u) (hrs : ∀ r ∈ rs, ¬ old r.1) :
    cancel strict now fuel (junk ++ ps) (jr ++ rs) =
      (cancel strict now fuel ps rs).bind (fun r => .ok (junk ++ r.1, jr ++ r.2.1, r.2.2)) := by
  induction fuel generalizing ps rs with
  | zero => rfl
  | succ fuel ih =>
    unfold cancel
    rw [mic_inert hj hps hrs]
    cases hm : mic strict ps rs with
    | ub e => rfl
    | abort => rfl
    | assertFail => rfl
    | ok r =>
      obtain ⟨ps', rec⟩ := r
      obtain ⟨rfl, rfl⟩ := mic_ok hm
      have hsub : ∀ p ∈ prune rs ps, ∀ u ∈ p.pkts, ¬ old u := by
        intro p hp u hu
        obtain ⟨q, hq, -, e⟩ := mem_prune.mp hp
        rw [e] at hu
        exact hps q hq u (List.mem_of_mem_filter hu)
      simp only [Outcome.bind]
      split
      · rfl
      · have hsing : ∀ u ∈ singles (prune rs ps), ¬ old u := by
          intro u hu
          obtain ⟨p, hp, e⟩ := mem_singles.mp hu
          exact hsub p hp u (by rw [e]; simp)
        rw [passUp_inert hj hsing]
        simp only
        rw [ih]
        · cases cancel strict now fuel (remaining rs ps) (passUp now (singles (prune rs ps)) rs).1 <;> rfl
        · intro p hp u hu
          exact hsub p (List.mem_of_mem_filter hp) u hu
        · intro r hr
          obtain ⟨p1, -, p3, -⟩ := passUp_spec now (singles (prune rs ps)) rs
          rw [p1, List.mem_append] at hr
          rcases hr with hr | hr
          · exact hrs r hr
          · obtain ⟨u, hu, rfl⟩ := List.mem_map.mp hr
            exact hsing u (p3 u hu).1

/-- More fuel makes no difference. -/
theorem cancel_more {strict : Bool} {now fuel : Nat} {ps : List Period} {rs : List (Nat × Nat)}
    (h : cancel strict now fuel ps rs ≠ .ub .diverged) (k : Nat) : cancel strict now (fuel + k) ps rs = cancel strict now fuel ps rs := by
  induction fuel generalizing ps rs with
  | zero => exact absurd rfl h
  | succ fuel ih =>
    rw [Nat.add_right_comm]
    unfold cancel at h ⊢
    cases hm : mic strict ps rs with
    | ub e => rfl
    | abort => rfl
    | assertFail => rfl
    | ok r =>
      obtain ⟨ps', rec⟩ := r
      simp only [hm] at h ⊢
      split
      · rfl
      · rename_i hr
        rw [if_neg hr] at h
        rw [ih]
        intro hc
        rw [hc] at h
        exact h rfl

theorem cancel_fuel {strict : Bool} {now : Nat} {ps : List Period} {rs : List (Nat × Nat)} {fuel : Nat} (h : fuelFor ps ≤ fuel) :
    cancel strict now fuel ps rs = cancel strict now (fuelFor ps) ps rs := by
  obtain ⟨k, rfl⟩ := Nat.exists_eq_add_of_le h
  refine cancel_more ?_ k
  rcases C24_terminates strict now ps rs with ⟨r, hr⟩ | ⟨hr, -⟩ <;> rw [hr] <;> simp

end

/-! ## A receiver with a past and a new receiver -/

section
variable {P : Type} [Zero P] [Add P]

/-- A receiver created at time `t`. -/
def Crdsa.freshAt (t : Nat) : Crdsa.Sys P := ⟨t, St.init, [], []⟩

omit [Zero P] [Add P] in
/-- The state of a receiver with a past, `s`, and that of a new receiver, `t`, after the same frames. -/
structure Alike (old : Nat → Prop) (d : List (Nat × Nat)) (s t : Crdsa.Sys P) : Prop where
  clock : s.clock = t.clock
  pending : s.pending = t.pending
  delivered : s.delivered = d ++ t.delivered
  rx : s.st.rx = t.st.rx ∨ s.pending = [] ∧ s.st.rx.uid = none ∧ t.st.rx.uid = none ∧ s.st.rx.collision = false ∧ t.st.rx.collision = false
  collided : s.st.collided = t.st.collided
  past : ∃ junk jr, s.st.periods = junk ++ t.st.periods ∧ s.st.received = jr ++ t.st.received ∧ Inert old junk jr
  newPending : ∀ f ∈ t.pending, ¬ old f.uid
  newCollided : ∀ u ∈ t.st.collided, ¬ old u
  newPeriods : ∀ p ∈ t.st.periods, ∀ u ∈ p.pkts, ¬ old u
  newReceived : ∀ r ∈ t.st.received, ¬ old r.1

omit [Zero P] [Add P] in
theorem cleanPeriods_append {limit : Int} {a b : List Period} (hs : (a ++ b).Pairwise (fun p q => p.finish ≤ q.finish)) :
    cleanPeriods limit (a ++ b) = cleanPeriods limit a ++ cleanPeriods limit b := by
  rw [cleanPeriods_filter hs, List.filter_append]
  rw [List.pairwise_append] at hs
  rw [cleanPeriods_filter hs.1, cleanPeriods_filter hs.2.1]

theorem alike_arrive {old : Nat → Prop} {d : List (Nat × Nat)} {strict ties : Bool} {lost : P → P → Bool} {F : Nat} {s t : Crdsa.Sys P} (h : Alike old d s t)
    {f : Frame P} (hf : ¬ old f.uid) :
    (Crdsa.step strict ties lost F s (.arrive f) = none ∧ Crdsa.step strict ties lost F t (.arrive f) = none) ∨
    ∃ s' t', Crdsa.step strict ties lost F s (.arrive f) = some (.ok s') ∧ Crdsa.step strict ties lost F t (.arrive f) = some (.ok t') ∧ Alike old d s' t' := by
  simp only [Crdsa.step]
  rw [h.clock, h.pending]
  split
  · right
    refine ⟨_, _, rfl, rfl, ?_⟩
    constructor
    · rfl
    · rfl
    · exact h.delivered
    · left
      simp only [Crdsa.startRx]
      rcases h.rx with hrx | ⟨-, u1, u2, c1, c2⟩
      · rw [hrx]
      · simp [Aloha.startRx, u1, u2, c1, c2]
    · simp only [Crdsa.startRx, h.collided]
    · exact h.past
    · intro g hg
      rcases Aloha.mem_schedule.mp hg with rfl | hg
      · exact hf
      · exact h.newPending g hg
    · intro u hu
      rcases mem_insertKey.mp hu with rfl | hu
      · exact hf
      · exact h.newCollided u hu
    · exact h.newPeriods
    · exact h.newReceived
  · exact Or.inl ⟨rfl, rfl⟩

omit [Add P] in
theorem alike_receiveOwn {old : Nat → Prop} {junk : List Period} {jr rs : List (Nat × Nat)} (hj : Inert old junk jr) {now uid : Nat} (c : Bool) (hu : ¬ old uid) :
    receiveOwn now c uid (jr ++ rs) = (jr ++ (receiveOwn now c uid rs).1, (receiveOwn now c uid rs).2) := by
  unfold receiveOwn
  rw [has_new hj hu]
  split
  · rfl
  · split
    · rfl
    · rw [List.append_assoc]

theorem alike_finish {old : Nat → Prop} {d : List (Nat × Nat)} {strict ties : Bool} {lost : P → P → Bool} {F : Nat} {s t : Crdsa.Sys P} (h : Alike old d s t)
    (hsorted : s.st.periods.Pairwise (fun p q => p.finish ≤ q.finish))
    (hpast : ∀ f ∈ s.pending, s.st.rx.uid = some f.uid → ∀ p ∈ s.st.periods, p.finish ≤ s.st.rx.finish) :
    (Crdsa.step strict ties lost F s .finish = none ∧ Crdsa.step strict ties lost F t .finish = none) ∨
    (Crdsa.step strict ties lost F s .finish = some (.ub .invalidIterator) ∧ Crdsa.step strict ties lost F t .finish = some (.ub .invalidIterator)) ∨
    ∃ s' t', Crdsa.step strict ties lost F s .finish = some (.ok s') ∧ Crdsa.step strict ties lost F t .finish = some (.ok t') ∧ Alike old d s' t' := by
  cases hp : t.pending with
  | nil => left; simp [Crdsa.step, h.pending, hp]
  | cons f rest =>
    right
    have hsp : s.pending = f :: rest := by rw [h.pending, hp]
    have hrx : s.st.rx = t.st.rx := by
      rcases h.rx with hrx | ⟨h0, -⟩
      · exact hrx
      · rw [hsp] at h0; simp at h0
    have hfn : ¬ old f.uid := h.newPending f (by simp [hp])
    obtain ⟨junk, jr, e1, e2, hj⟩ := h.past
    have hown := alike_receiveOwn (now := f.fin) (rs := t.st.received) hj (hasCollided lost t.st.rx f) hfn
    have hownnew : ∀ r ∈ (receiveOwn f.fin (hasCollided lost t.st.rx f) f.uid t.st.received).1, ¬ old r.1 := by
      obtain ⟨o1, -, o3, -⟩ := receiveOwn_spec f.fin (hasCollided lost t.st.rx f) f.uid t.st.received
      intro r hr
      rw [o1, List.mem_append] at hr
      rcases hr with hr | hr
      · exact h.newReceived r hr
      · obtain ⟨u, hu, rfl⟩ := List.mem_map.mp hr
        rw [(o3 u hu).1]; exact hfn
    by_cases hu : t.st.rx.uid = some f.uid
    · have hus : s.st.rx.uid = some f.uid := by rw [hrx]; exact hu
      -- the lists given to the loop
      have hne : ∀ (l : List Period), (∀ p ∈ l, ∀ u ∈ p.pkts, ¬ old u) → ∀ p ∈ cleanPeriods ((f.fin : Int) - 2 * (F : Int)) l, ∀ u ∈ p.pkts, ¬ old u :=
        fun l hl p hpm => hl p (List.dropWhile_subset _ hpm)
      have hsort2 : (s.st.periods ++ [Period.mk s.st.rx.finish s.st.collided]).Pairwise (fun p q : Period => p.finish ≤ q.finish) := by
        rw [List.pairwise_append]
        refine ⟨hsorted, by simp, ?_⟩
        intro p hpm q hq
        rw [List.mem_singleton] at hq
        subst hq
        exact hpast f (by rw [hsp]; simp) hus p hpm
      set junk' := cleanPeriods ((f.fin : Int) - 2 * (F : Int)) junk with hjunk'
      set jr' := cleanReceived ((f.fin : Int) - 2 * (F : Int)) jr with hjr'
      have hj' : Inert old junk' jr' := by
        constructor
        · exact fun p hpm => hj.two p (List.dropWhile_subset _ hpm)
        · intro p hpm u hu
          have h1 := hj.lost p (List.dropWhile_subset _ hpm) u hu
          refine ⟨h1.1, ?_⟩
          rw [← Bool.not_eq_true, has_iff, List.mem_map]
          rintro ⟨r, hr, rfl⟩
          have : has jr r.1 = true := has_iff.mpr (List.mem_map.mpr ⟨r, List.mem_of_mem_filter hr, rfl⟩)
          rw [h1.2] at this; simp at this
        · exact fun r hr => hj.gone r (List.mem_of_mem_filter hr)
      have hcat : collisionsAt lost F s.st f = junk' ++ collisionsAt lost F t.st f := by
        unfold collisionsAt
        rw [hrx]
        split
        · rw [e1, h.collided, List.append_assoc]
          refine cleanPeriods_append ?_
          rw [e1, h.collided, hrx, List.append_assoc] at hsort2
          exact hsort2
        · rw [e1]
          refine cleanPeriods_append ?_
          rw [e1] at hsorted
          exact hsorted
      have hrat : receivedAt lost F s.st f = jr' ++ receivedAt lost F t.st f := by
        unfold receivedAt
        rw [hrx, e2, hown]
        unfold cleanReceived
        rw [List.filter_append]
        rfl
      have hcnew : ∀ p ∈ collisionsAt lost F t.st f, ∀ u ∈ p.pkts, ¬ old u := by
        unfold collisionsAt
        refine hne _ ?_
        intro p hpm
        split at hpm
        · rw [List.mem_append, List.mem_singleton] at hpm
          rcases hpm with hpm | rfl
          · exact h.newPeriods p hpm
          · exact h.newCollided
        · exact h.newPeriods p hpm
      have hrnew : ∀ r ∈ receivedAt lost F t.st f, ¬ old r.1 := fun r hr => hownnew r (List.mem_of_mem_filter hr)
      have hcan := cancel_inert (strict := strict) (now := f.fin) (fuel := fuelFor (collisionsAt lost F s.st f)) hj' hcnew hrnew
      rw [cancel_fuel (ps := collisionsAt lost F t.st f) (fuel := fuelFor (collisionsAt lost F s.st f)) (by
        rw [hcat]; unfold fuelFor; simp), ← hcat, ← hrat] at hcan
      rcases finishRx_last (strict := strict) (lost := lost) (frameLen := F) hu with ⟨hb, -, hc⟩ | ⟨ps, rs, out, hc, hk⟩
      · left
        rw [hc] at hcan
        have hbs : finishRx strict lost F s.st f = .ub .invalidIterator := by
          rcases finishRx_last (strict := strict) (lost := lost) (frameLen := F) hus with ⟨hb2, -⟩ | ⟨ps, rs, out, hc2, -⟩
          · exact hb2
          · rw [hc2] at hcan; simp [Outcome.bind] at hcan
        constructor
        · simp only [Crdsa.step, hsp, hbs]
        · simp only [Crdsa.step, hp, hb]
      · right
        rw [hc] at hcan
        have hks : finishRx strict lost F s.st f = .ok (⟨⟨none, f.fin, false, some 0⟩, [], junk' ++ ps, jr' ++ rs⟩,
            (receiveOwn f.fin (hasCollided lost t.st.rx f) f.uid t.st.received).2 ++ out) := by
          rcases finishRx_last (strict := strict) (lost := lost) (frameLen := F) hus with ⟨-, -, hc2⟩ | ⟨ps2, rs2, out2, hc2, hk2⟩
          · rw [hc2] at hcan; simp [Outcome.bind] at hcan
          · rw [hc2] at hcan
            simp only [Outcome.bind, Outcome.ok.injEq, Prod.mk.injEq] at hcan
            obtain ⟨rfl, rfl, rfl⟩ := hcan
            rw [hk2, hrx, e2, hown]
        refine ⟨⟨f.fin, ⟨⟨none, f.fin, false, some 0⟩, [], junk' ++ ps, jr' ++ rs⟩, rest, s.delivered ++
            ((receiveOwn f.fin (hasCollided lost t.st.rx f) f.uid t.st.received).2 ++ out).map (fun u => (f.fin, u))⟩,
          ⟨f.fin, ⟨⟨none, f.fin, false, some 0⟩, [], ps, rs⟩, rest, t.delivered ++
            ((receiveOwn f.fin (hasCollided lost t.st.rx f) f.uid t.st.received).2 ++ out).map (fun u => (f.fin, u))⟩, ?_, ?_, ?_⟩
        · simp only [Crdsa.step, hsp, hks]
        · simp only [Crdsa.step, hp, hk]
        · constructor
          · rfl
          · rfl
          · simp only [h.delivered, List.append_assoc]
          · exact Or.inl rfl
          · rfl
          · exact ⟨junk', jr', rfl, rfl, hj'⟩
          · intro g hg; exact h.newPending g (by rw [hp]; exact List.mem_cons_of_mem _ hg)
          · simp
          · intro p hpm u hum
            obtain ⟨⟨q, hq, -, e⟩, -⟩ := mem_after_cancel hc hpm
            rw [e] at hum
            exact hcnew q hq u (List.mem_of_mem_filter hum)
          · intro r hr
            obtain ⟨k1, -, -, k4, -⟩ := cancel_spec hc
            simp only at hr
            rw [k1, List.mem_append] at hr
            rcases hr with hr | hr
            · exact hrnew r hr
            · obtain ⟨u, hu', rfl⟩ := List.mem_map.mp hr
              rcases peel_or (k4 u hu') with hh | ⟨cc, hcc, hm⟩
              · obtain ⟨r', hr', e⟩ := List.mem_map.mp (has_iff.mp hh)
                simp only
                rw [← e]; exact hrnew r' hr'
              · obtain ⟨p, hpm, rfl⟩ := List.mem_map.mp hcc
                exact hcnew p hpm u hm
    · right
      have hus : s.st.rx.uid ≠ some f.uid := by rw [hrx]; exact hu
      have hk := finishRx_inner (strict := strict) (lost := lost) (frameLen := F) hu
      have hks := finishRx_inner (strict := strict) (lost := lost) (frameLen := F) hus
      rw [hrx, e2, hown] at hks
      refine ⟨⟨f.fin, ⟨t.st.rx, s.st.collided, s.st.periods, jr ++ (receiveOwn f.fin (hasCollided lost t.st.rx f) f.uid t.st.received).1⟩, rest,
          s.delivered ++ (receiveOwn f.fin (hasCollided lost t.st.rx f) f.uid t.st.received).2.map (fun u => (f.fin, u))⟩,
        ⟨f.fin, ⟨t.st.rx, t.st.collided, t.st.periods, (receiveOwn f.fin (hasCollided lost t.st.rx f) f.uid t.st.received).1⟩, rest,
          t.delivered ++ (receiveOwn f.fin (hasCollided lost t.st.rx f) f.uid t.st.received).2.map (fun u => (f.fin, u))⟩,
        by simp only [Crdsa.step, hsp, hks], by simp only [Crdsa.step, hp, hk], ?_⟩
      constructor
      · rfl
      · rfl
      · simp only [h.delivered, List.append_assoc]
      · exact Or.inl rfl
      · exact h.collided
      · exact ⟨junk, jr, e1, rfl, hj⟩
      · intro g hg; exact h.newPending g (by rw [hp]; exact List.mem_cons_of_mem _ hg)
      · exact h.newCollided
      · exact h.newPeriods
      · exact hownnew

/-- Alike states stay alike; `pre` is the history of the older receiver. -/
theorem alike_exec {strict ties : Bool} {lost : P → P → Bool} {F : Nat} {pre future : List (Op P)} {s : Crdsa.Sys P}
    (h : exec strict ties lost F pre = some (.ok s)) (hidle : s.pending = []) (hap : Apart ties (frames (pre ++ future)))
    (hnew : ∀ f ∈ frames pre, ∀ g ∈ frames future, f.uid ≠ g.uid) :
    (execFrom strict ties lost F s future = none ∧ execFrom strict ties lost F (Crdsa.freshAt s.clock) future = none) ∨
    (execFrom strict ties lost F s future = some (.ub .invalidIterator) ∧
      execFrom strict ties lost F (Crdsa.freshAt s.clock) future = some (.ub .invalidIterator)) ∨
    ∃ s' t', execFrom strict ties lost F s future = some (.ok s') ∧ execFrom strict ties lost F (Crdsa.freshAt s.clock) future = some (.ok t') ∧
      Alike (fun u => ∃ f ∈ frames pre, f.uid = u) s.delivered s' t' := by
  induction future using List.reverseRecOn with
  | nil =>
    right; right
    rw [List.append_nil] at hap
    have c := inv_exec h hap
    obtain ⟨d0, hal⟩ := exec_aloha h
    have b := Aloha.base_exec hal hap
    refine ⟨s, Crdsa.freshAt s.clock, rfl, rfl, ?_⟩
    have hc0 : s.st.collided = [] := by
      rw [List.eq_nil_iff_forall_not_mem]
      intro u hu
      exact ((c.busy u).mp hu).1 hidle
    constructor
    · rfl
    · exact hidle
    · simp [Crdsa.freshAt]
    · right
      refine ⟨hidle, ?_, rfl, b.idle hidle, rfl⟩
      have := b.uid_eq
      simp only at this
      rw [this, hidle]; rfl
    · exact hc0
    · refine ⟨s.st.periods, s.st.received, by simp [Crdsa.freshAt, St.init], by simp [Crdsa.freshAt, St.init], ?_⟩
      constructor
      · exact fun p hp => (c.idle hidle p hp).1
      · exact fun p hp u hu => ⟨c.periods p hp u hu, (c.idle hidle p hp).2 u hu⟩
      · exact c.received
    · simp [Crdsa.freshAt]
    · simp [Crdsa.freshAt, St.init]
    · simp [Crdsa.freshAt, St.init]
    · simp [Crdsa.freshAt, St.init]
  | append_singleton os o ih =>
    have hap0 : Apart ties (frames (pre ++ os)) := by
      unfold Apart at hap ⊢; rw [← List.append_assoc, Aloha.frames_append, List.pairwise_append] at hap; exact hap.1
    have hnew0 : ∀ f ∈ frames pre, ∀ g ∈ frames os, f.uid ≠ g.uid := fun f hf g hg => hnew f hf g (by rw [Aloha.frames_append]; simp [hg])
    rw [execFrom_append, execFrom_append]
    rcases ih hap0 hnew0 with ⟨e1, e2⟩ | ⟨e1, e2⟩ | ⟨s', t', e1, e2, hal⟩
    · left; simp only [e1, e2, and_self]
    · right; left; simp only [e1, e2, and_self]
    · simp only [e1, e2]
      have hfull : exec strict ties lost F (pre ++ os) = some (.ok s') := by
        unfold exec at h ⊢
        rw [execFrom_append, h]; exact e1
      have c := inv_exec hfull hap0
      obtain ⟨d0, hal0⟩ := exec_aloha hfull
      have b := Aloha.base_exec hal0 hap0
      cases o with
      | arrive f =>
        have hf : ¬ ∃ g ∈ frames pre, g.uid = f.uid := by
          rintro ⟨g, hg, e⟩
          exact hnew g hg f (by rw [Aloha.frames_append]; simp [frames]) e
        rcases alike_arrive (strict := strict) (ties := ties) (lost := lost) (F := F) hal hf with ⟨a1, a2⟩ | ⟨s2, t2, a1, a2, a3⟩
        · left; simp only [execFrom, a1, a2, and_self]
        · right; right
          exact ⟨s2, t2, by simp only [execFrom, a1], by simp only [execFrom, a2], a3⟩
      | finish =>
        have hpast : ∀ f ∈ s'.pending, s'.st.rx.uid = some f.uid → ∀ p ∈ s'.st.periods, p.finish ≤ s'.st.rx.finish := by
          intro f hf _ p hp
          cases hl : s'.pending.getLast? with
          | none => rw [List.getLast?_eq_none_iff] at hl; rw [hl] at hf; simp at hf
          | some g =>
            have h1 := b.finish_eq g hl
            have h2 := b.future g (List.mem_of_getLast? hl)
            have h3 := c.past p hp
            simp only at h1 h2
            omega
        rcases alike_finish (strict := strict) (ties := ties) (lost := lost) (F := F) hal c.sorted hpast with
          ⟨a1, a2⟩ | ⟨a1, a2⟩ | ⟨s2, t2, a1, a2, a3⟩
        · left; simp only [execFrom, a1, a2, and_self]
        · right; left; simp only [execFrom, a1, a2, and_self]
        · right; right
          exact ⟨s2, t2, by simp only [execFrom, a1], by simp only [execFrom, a2], a3⟩

/-- What a run shows to the outside after `t`: whether it is possible, how it ends, and what it passes up beyond `d`. -/
def Crdsa.visible (d : List (Nat × Nat)) : Option (Outcome (Crdsa.Sys P)) → Option (Outcome (Nat × List (Frame P) × List (Nat × Nat)))
  | none => none
  | some (.ub e) => some (.ub e)
  | some .abort => some .abort
  | some .assertFail => some .assertFail
  | some (.ok s) => some (.ok (s.clock, s.pending, d ++ s.delivered))

/-- A receiver that is not receiving anything treats packets it has not seen before exactly as a new receiver: whatever it received, lost
or left undecoded before, the same packets are passed up at the same times, and undefined behaviour happens in the same cases. -/
theorem C69_memoryless {strict ties : Bool} {lost : P → P → Bool} {F : Nat} {pre future : List (Op P)} {s : Crdsa.Sys P}
    (h : exec strict ties lost F pre = some (.ok s)) (hidle : s.pending = []) (hap : Apart ties (frames (pre ++ future)))
    (hnew : ∀ f ∈ frames pre, ∀ g ∈ frames future, f.uid ≠ g.uid) :
    Crdsa.visible [] (exec strict ties lost F (pre ++ future)) =
      Crdsa.visible s.delivered (execFrom strict ties lost F (Crdsa.freshAt s.clock) future) := by
  have he : exec strict ties lost F (pre ++ future) = execFrom strict ties lost F s future := by
    unfold exec at h ⊢
    rw [execFrom_append, h]
  rw [he]
  rcases alike_exec h hidle hap hnew with ⟨e1, e2⟩ | ⟨e1, e2⟩ | ⟨s', t', e1, e2, hal⟩
  · rw [e1, e2]; rfl
  · rw [e1, e2]; rfl
  · rw [e1, e2]
    simp only [Crdsa.visible, hal.clock, hal.pending, hal.delivered, List.nil_append]

end

/-! ## One round after the other -/

section
variable {P : Type} [Zero P] [Add P]

omit [Zero P] [Add P] in
/-- Number of ends in a history. -/
def ends : List (Op P) → Nat
  | [] => 0
  | .arrive _ :: os => ends os
  | .finish :: os => ends os + 1

omit [Zero P] [Add P] in
theorem mem_frames_iff {f : Frame P} {ops : List (Op P)} : f ∈ frames ops ↔ Op.arrive f ∈ ops := by
  induction ops with
  | nil => simp [frames]
  | cons o os ih => cases o <;> simp [frames, ih]

theorem pending_length {strict ties : Bool} {lost : P → P → Bool} {F : Nat} {ops : List (Op P)} {s t : Crdsa.Sys P}
    (h : execFrom strict ties lost F s ops = some (.ok t)) : t.pending.length + ends ops = s.pending.length + (frames ops).length := by
  induction ops generalizing s with
  | nil =>
    simp only [execFrom, Option.some.injEq, Outcome.ok.injEq] at h
    subst h; rfl
  | cons o os ih =>
    simp only [execFrom] at h
    cases hst : step strict ties lost F s o with
    | none => rw [hst] at h; simp at h
    | some r =>
      rw [hst] at h
      cases r with
      | ub e => simp at h
      | abort => simp at h
      | assertFail => simp at h
      | ok s1 =>
        have := ih h
        cases o with
        | arrive f =>
          obtain ⟨-, rfl⟩ := step_arrive_ok.mp hst
          simp only [(Aloha.schedule_perm f s.pending).length_eq, List.length_cons] at this
          simp only [ends, frames, List.length_cons]
          omega
        | finish =>
          obtain ⟨f, rest, st, out, hp, -, rfl⟩ := step_finish_ok.mp hst
          simp only at this
          simp only [ends, frames, hp, List.length_cons]
          omega

/-- A new receiver created later behaves as one created at the beginning. -/
theorem exec_of_fresh {strict ties : Bool} {lost : P → P → Bool} {F c : Nat} {ops : List (Op P)} {t : Crdsa.Sys P}
    (h : execFrom strict ties lost F (Crdsa.freshAt c) ops = some (.ok t)) :
    ops = [] ∧ t = Crdsa.freshAt c ∨ ops ≠ [] ∧ exec strict ties lost F ops = some (.ok t) := by
  cases ops with
  | nil =>
    left
    simp only [execFrom, Option.some.injEq, Outcome.ok.injEq] at h
    exact ⟨rfl, h.symm⟩
  | cons o os =>
    right
    refine ⟨by simp, ?_⟩
    cases o with
    | finish => simp [execFrom, step, Crdsa.freshAt] at h
    | arrive f =>
      simp only [execFrom, step, Crdsa.freshAt, List.not_mem_nil, false_imp_iff, implies_true, and_true] at h
      by_cases hc : c ≤ f.start
      · rw [if_pos hc] at h
        simp only [exec, execFrom, step, Crdsa.Sys.init, List.not_mem_nil, false_imp_iff, implies_true, and_true, Nat.zero_le, if_true]
        exact h
      · rw [if_neg hc] at h; simp at h

theorem clock_of_idle {strict ties : Bool} {lost : P → P → Bool} {F : Nat} {ops : List (Op P)} {s : Crdsa.Sys P}
    (h : exec strict ties lost F ops = some (.ok s)) (hap : Apart ties (frames ops)) (hne : ops ≠ []) (hidle : s.pending = []) :
    ∃ g ∈ frames ops, s.clock = g.fin := by
  obtain ⟨os, o, rfl⟩ := List.eq_nil_or_concat ops |>.resolve_left hne
  rw [List.concat_eq_append] at h hap ⊢
  rw [exec_snoc] at h
  obtain ⟨s0, h0, h1⟩ := h
  cases o with
  | arrive f =>
    obtain ⟨-, rfl⟩ := step_arrive_ok.mp h1
    have := (Aloha.schedule_perm f s0.pending).length_eq
    simp only at hidle
    rw [hidle] at this
    simp at this
  | finish =>
    obtain ⟨f, rest, st, out, hp, -, rfl⟩ := step_finish_ok.mp h1
    have hap0 : Apart ties (frames os) := by
      unfold Apart at hap ⊢; rw [Aloha.frames_append, List.pairwise_append] at hap; exact hap.1
    obtain ⟨d0, hal⟩ := exec_aloha h0
    have b := Aloha.base_exec hal hap0
    exact ⟨f, by rw [Aloha.frames_append, List.mem_append]; exact Or.inl (b.sub f (by simp [hp])), rfl⟩

/-- CRDSA in the long run.  A history of any length that falls into rounds, each of which is over before the next begins and lasts at most two
frame durations, packets not being repeated in later rounds: the packets passed up are exactly those that peeling recovers
within some round, and each is passed up once. -/
theorem C69_rounds {strict : Bool} {lost : P → P → Bool} {F : Nat} {rounds : List (List (Op P))} {s : Crdsa.Sys P}
    {Q : P → Prop} (hlost : Aloha.Drops lost Q) (h : exec strict false lost F rounds.flatten = some (.ok s))
    (hap : Apart false (frames rounds.flatten)) (hd : ∀ f ∈ frames rounds.flatten, 0 < f.dur)
    (hpow : ∀ f ∈ frames rounds.flatten, Q f.pow)
    (hover : ∀ r ∈ rounds, ends r = (frames r).length)
    (hwin : ∀ r ∈ rounds, ∀ f ∈ frames r, ∀ g ∈ frames r, g.fin < f.fin + 2 * F)
    (hnew : rounds.Pairwise (fun r q => ∀ f ∈ frames r, ∀ g ∈ frames q, f.uid ≠ g.uid)) :
    (∀ u, u ∈ s.delivered.map Prod.snd ↔ ∃ r ∈ rounds, Peel (AloneOnce r) (collisions r) u) ∧ (s.delivered.map Prod.snd).Nodup ∧ s.pending = [] := by
  induction rounds using List.reverseRecOn generalizing s with
  | nil =>
    simp only [List.flatten_nil, exec, execFrom, Option.some.injEq, Outcome.ok.injEq] at h
    subst h
    simp [Crdsa.Sys.init]
  | append_singleton rs r ih =>
    rw [List.flatten_append, List.flatten_singleton] at h hap hd hpow
    have hsplit := h
    unfold exec at hsplit
    rw [execFrom_append] at hsplit
    cases he : execFrom strict false lost F Crdsa.Sys.init rs.flatten with
    | none => rw [he] at hsplit; simp at hsplit
    | some o =>
      rw [he] at hsplit
      cases o with
      | ub e => simp at hsplit
      | abort => simp at hsplit
      | assertFail => simp at hsplit
      | ok s0 =>
        simp only at hsplit
        have hap0 : Apart false (frames rs.flatten) := by
          unfold Apart at hap ⊢; rw [Aloha.frames_append, List.pairwise_append] at hap; exact hap.1
        have hapr : Apart false (frames r) := by
          unfold Apart at hap ⊢; rw [Aloha.frames_append, List.pairwise_append] at hap; exact hap.2.1
        rw [List.pairwise_append] at hnew
        obtain ⟨i1, i2, i3⟩ := ih (s := s0) he hap0 (fun f hf => hd f (by rw [Aloha.frames_append]; simp [hf]))
          (fun f hf => hpow f (by rw [Aloha.frames_append]; simp [hf])) (fun q hq => hover q (by simp [hq]))
          (fun q hq => hwin q (by simp [hq])) hnew.1
        have hmem : ∀ f ∈ frames rs.flatten, ∃ q ∈ rs, f ∈ frames q := by
          intro f hf
          rw [mem_frames_iff] at hf
          obtain ⟨q, hq, hm⟩ := List.mem_flatten.mp hf
          exact ⟨q, hq, mem_frames_iff.mpr hm⟩
        have hdist : ∀ f ∈ frames rs.flatten, ∀ g ∈ frames r, f.uid ≠ g.uid := by
          intro f hf g hg
          obtain ⟨q, hq, hm⟩ := hmem f hf
          exact hnew.2.2 q hq r (by simp) f hm g hg
        rcases alike_exec (pre := rs.flatten) (future := r) he i3 hap hdist with ⟨e1, -⟩ | ⟨e1, -⟩ | ⟨s', t', e1, e2, hal⟩
        · rw [hsplit] at e1; simp at e1
        · rw [hsplit] at e1; simp at e1
        · rw [hsplit] at e1
          simp only [Option.some.injEq, Outcome.ok.injEq] at e1
          subst e1
          have hpl := pending_length hsplit
          rw [i3, hover r (by simp)] at hpl
          have hidle : s.pending = [] := List.length_eq_zero_iff.mp (by simp only [List.length_nil] at hpl; omega)
          have ht : (∀ u, u ∈ t'.delivered.map Prod.snd ↔ Peel (AloneOnce r) (collisions r) u) ∧ (t'.delivered.map Prod.snd).Nodup := by
            rcases exec_of_fresh e2 with ⟨rfl, rfl⟩ | ⟨hne, hex⟩
            · refine ⟨fun u => ?_, by simp [Crdsa.freshAt]⟩
              simp only [Crdsa.freshAt, List.map_nil, List.not_mem_nil, false_iff]
              intro hp
              rcases peel_or hp with ⟨f, hf, -⟩ | ⟨c, hc, -⟩
              · simp [clusters] at hf
              · simp [collisions, clusters] at hc
            · refine C56_decodes_exactly_peelable hlost hex hapr (fun f hf => hd f (by rw [Aloha.frames_append]; simp [hf]))
                (fun f hf => hpow f (by rw [Aloha.frames_append]; simp [hf])) ?_
              obtain ⟨g, hg, e⟩ := clock_of_idle hex hapr hne (by rw [← hal.pending]; exact hidle)
              intro f hf
              rw [e]
              exact hwin r (by simp) f hf g hg
          refine ⟨?_, ?_, hidle⟩
          · intro u
            rw [hal.delivered, List.map_append, List.mem_append, i1 u, ht.1 u]
            constructor
            · rintro (⟨q, hq, hp⟩ | hp)
              · exact ⟨q, by simp [hq], hp⟩
              · exact ⟨r, by simp, hp⟩
            · rintro ⟨q, hq, hp⟩
              rw [List.mem_append, List.mem_singleton] at hq
              rcases hq with hq | rfl
              · exact Or.inl ⟨q, hq, hp⟩
              · exact Or.inr hp
          · rw [hal.delivered, List.map_append, List.nodup_append]
            refine ⟨i2, ht.2, ?_⟩
            intro a ha b hb hab
            subst hab
            obtain ⟨d1, hd1, e1⟩ := List.mem_map.mp ha
            obtain ⟨f, hf, ef, -⟩ := (inv_exec (ops := rs.flatten) he hap0).delivered d1 hd1
            rcases exec_of_fresh e2 with ⟨rfl, rfl⟩ | ⟨hne, hex⟩
            · simp [Crdsa.freshAt] at hb
            · obtain ⟨d2, hd2, e3⟩ := List.mem_map.mp hb
              obtain ⟨g, hg, eg, -⟩ := (inv_exec hex hapr).delivered d2 hd2
              exact hdist f hf g hg (by rw [ef, eg, e1, e3])

/-- With at most two replicas of each packet such histories always come to a defined result, whatever their length. -/
theorem C69_defined {lost : P → P → Bool} {F : Nat} {rounds : List (List (Op P))} {o : Outcome (Crdsa.Sys P)}
    {Q : P → Prop} (hlost : Aloha.Drops lost Q) (h : exec true false lost F rounds.flatten = some o)
    (hap : Apart false (frames rounds.flatten)) (hd : ∀ f ∈ frames rounds.flatten, 0 < f.dur)
    (hpow : ∀ f ∈ frames rounds.flatten, Q f.pow)
    (hover : ∀ r ∈ rounds, ends r = (frames r).length)
    (hwin : ∀ r ∈ rounds, ∀ f ∈ frames r, ∀ g ∈ frames r, g.fin < f.fin + 2 * F)
    (hnew : rounds.Pairwise (fun r q => ∀ f ∈ frames r, ∀ g ∈ frames q, f.uid ≠ g.uid))
    (htwo : ∀ u, (frames rounds.flatten).countP (fun f => f.uid == u) ≤ 2) :
    ∃ s, o = .ok s ∧ (∀ u, u ∈ s.delivered.map Prod.snd ↔ ∃ r ∈ rounds, Peel (AloneOnce r) (collisions r) u) ∧ (s.delivered.map Prod.snd).Nodup := by
  obtain ⟨s, rfl, -⟩ := C25_two_replicas_defined hlost hap hd hpow htwo h
  obtain ⟨h1, h2, -⟩ := C69_rounds hlost h hap hd hpow hover hwin hnew
  exact ⟨s, rfl, h1, h2⟩

/-! ## The history as a whole -/

omit [Zero P] [Add P] in
theorem fold_clusters (b : List (Op P)) (d0 d : List (List (Frame P))) (cur cur' : List (Frame P)) (n : Nat) (h : n ≠ 0 → cur = cur') :
    (b.foldl clusterStep (d0 ++ d, cur, n)).1 = d0 ++ (b.foldl clusterStep (d, cur', n)).1 := by
  induction b generalizing d cur cur' n with
  | nil => rfl
  | cons o os ih =>
    cases o with
    | arrive f =>
      simp only [List.foldl_cons, clusterStep]
      refine ih _ _ _ _ (fun _ => ?_)
      by_cases hn : n = 0
      · simp [hn]
      · simp [hn, h hn]
    | finish =>
      simp only [List.foldl_cons, clusterStep]
      by_cases hn : n = 1
      · rw [if_pos hn, if_pos hn, h (by omega), List.append_assoc]
        exact ih _ _ _ _ (fun h => absurd rfl h)
      · rw [if_neg hn, if_neg hn]
        exact ih _ _ _ _ (fun h' => h (by omega))

omit [Zero P] [Add P] in
/-- Busy periods do not extend over an instant at which nothing is being received. -/
theorem clusters_cut (a b : List (Op P)) (h : (a.foldl Aloha.busyStep ([], 0)).2 = 0) : clusters (a ++ b) = clusters a ++ clusters b := by
  unfold clusters
  rw [List.foldl_append]
  rw [← clusterStep_eq] at h
  generalize a.foldl clusterStep ([], [], 0) = c at h
  obtain ⟨d, cur, n⟩ := c
  simp only at h
  subst h
  have := fold_clusters b d [] cur [] 0 (fun h => absurd rfl h)
  rw [List.append_nil] at this
  exact this

omit [Zero P] [Add P] in
theorem clusters_sub (ops : List (Op P)) : ∀ c ∈ clusters ops, ∀ f ∈ c, f ∈ frames ops := by
  have : (∀ c ∈ (ops.foldl clusterStep ([], [], 0)).1, ∀ f ∈ c, f ∈ frames ops) ∧ ∀ f ∈ (ops.foldl clusterStep ([], [], 0)).2.1, f ∈ frames ops := by
    induction ops using List.reverseRecOn with
    | nil => simp
    | append_singleton os o ih =>
      rw [List.foldl_append, List.foldl_cons, List.foldl_nil, Aloha.frames_append]
      generalize os.foldl clusterStep ([], [], 0) = c at ih
      obtain ⟨d, cur, n⟩ := c
      obtain ⟨i1, i2⟩ := ih
      simp only at i1 i2
      cases o with
      | arrive f =>
        simp only [clusterStep, frames]
        refine ⟨fun c hc g hg => List.mem_append_left _ (i1 c hc g hg), fun g hg => ?_⟩
        split at hg
        · simp only [List.mem_singleton] at hg; simp [hg]
        · rw [List.mem_append, List.mem_singleton] at hg
          rcases hg with hg | rfl
          · exact List.mem_append_left _ (i2 g hg)
          · simp
      | finish =>
        simp only [clusterStep, frames, List.append_nil]
        split
        · refine ⟨fun c hc g hg => ?_, i2⟩
          rw [List.mem_append, List.mem_singleton] at hc
          rcases hc with hc | rfl
          · exact i1 c hc g hg
          · exact i2 g hg
        · exact ⟨i1, i2⟩
  exact this.1

/-- Peeling of two sets of packets that have nothing in common. -/
theorem peel_union {k k' K : Nat → Prop} {cs cs' : List (List Nat)} (hk : ∀ u, k u → K u) (hc : ∀ c ∈ cs, ∀ u ∈ c, K u)
    (hk' : ∀ u, k' u → ¬ K u) (hc' : ∀ c ∈ cs', ∀ u ∈ c, ¬ K u) (u : Nat) :
    Peel (fun v => k v ∨ k' v) (cs ++ cs') u ↔ Peel k cs u ∨ Peel k' cs' u := by
  have hK : ∀ u, Peel k cs u → K u := by
    intro u h
    rcases peel_or h with h | ⟨c, hm, hu⟩
    · exact hk u h
    · exact hc c hm u hu
  have hK' : ∀ u, Peel k' cs' u → ¬ K u := by
    intro u h
    rcases peel_or h with h | ⟨c, hm, hu⟩
    · exact hk' u h
    · exact hc' c hm u hu
  constructor
  · intro h
    induction h with
    | base h =>
      rcases h with h | h
      · exact Or.inl (Peel.base h)
      · exact Or.inr (Peel.base h)
    | @recover c u h1 h2 _ ih =>
      rcases List.mem_append.mp h1 with h1 | h1
      · refine Or.inl (Peel.recover h1 h2 (fun v hv hne => ?_))
        rcases ih v hv hne with h | h
        · exact h
        · exact absurd (hc c h1 v hv) (hK' v h)
      · refine Or.inr (Peel.recover h1 h2 (fun v hv hne => ?_))
        rcases ih v hv hne with h | h
        · exact absurd (hK v h) (hc' c h1 v hv)
        · exact h
  · rintro (h | h)
    · exact peel_mono (fun _ => Or.inl) (fun c hc => List.mem_append_left _ hc) h
    · exact peel_mono (fun _ => Or.inr) (fun c hc => List.mem_append_right _ hc) h

/-- Peeling the whole history is peeling its rounds. -/
theorem peel_rounds {strict : Bool} {lost : P → P → Bool} {F : Nat} {rounds : List (List (Op P))} {s : Crdsa.Sys P}
    (h : exec strict false lost F rounds.flatten = some (.ok s)) (hap : Apart false (frames rounds.flatten))
    (hover : ∀ r ∈ rounds, ends r = (frames r).length)
    (hnew : rounds.Pairwise (fun r q => ∀ f ∈ frames r, ∀ g ∈ frames q, f.uid ≠ g.uid)) :
    s.pending = [] ∧ ∀ u, (Peel (AloneOnce rounds.flatten) (collisions rounds.flatten) u ↔ ∃ r ∈ rounds, Peel (AloneOnce r) (collisions r) u) := by
  induction rounds using List.reverseRecOn generalizing s with
  | nil =>
    simp only [List.flatten_nil, exec, execFrom, Option.some.injEq, Outcome.ok.injEq] at h
    subst h
    refine ⟨rfl, fun u => ?_⟩
    simp only [List.flatten_nil, List.not_mem_nil, false_and, exists_false, iff_false]
    intro hp
    rcases peel_or hp with ⟨f, hf, -⟩ | ⟨c, hc, -⟩
    · simp [clusters] at hf
    · simp [collisions, clusters] at hc
  | append_singleton rs r ih =>
    rw [List.flatten_append, List.flatten_singleton] at h hap ⊢
    have hsplit := h
    unfold exec at hsplit
    rw [execFrom_append] at hsplit
    cases he : execFrom strict false lost F Crdsa.Sys.init rs.flatten with
    | none => rw [he] at hsplit; simp at hsplit
    | some o =>
      rw [he] at hsplit
      cases o with
      | ub e => simp at hsplit
      | abort => simp at hsplit
      | assertFail => simp at hsplit
      | ok s0 =>
        simp only at hsplit
        have hap0 : Apart false (frames rs.flatten) := by
          unfold Apart at hap ⊢; rw [Aloha.frames_append, List.pairwise_append] at hap; exact hap.1
        rw [List.pairwise_append] at hnew
        obtain ⟨i1, i2⟩ := ih (s := s0) he hap0 (fun q hq => hover q (by simp [hq])) hnew.1
        have hpl := pending_length hsplit
        rw [i1, hover r (by simp)] at hpl
        refine ⟨List.length_eq_zero_iff.mp (by simp only [List.length_nil] at hpl; omega), fun u => ?_⟩
        have hcut : clusters (rs.flatten ++ r) = clusters rs.flatten ++ clusters r := by
          refine clusters_cut _ _ ?_
          rw [(inv_exec (ops := rs.flatten) he hap0).count, i1]; rfl
        have e1 : AloneOnce (rs.flatten ++ r) = fun v => AloneOnce rs.flatten v ∨ AloneOnce r v := by
          funext v
          unfold AloneOnce
          rw [hcut]
          simp only [List.mem_append, or_and_right, exists_or]
        have e2 : collisions (rs.flatten ++ r) = collisions rs.flatten ++ collisions r := by
          unfold collisions
          rw [hcut, List.filter_append, List.map_append]
        rw [e1, e2, peel_union (K := fun v => ∃ f ∈ frames rs.flatten, f.uid = v), i2 u]
        · constructor
          · rintro (⟨q, hq, hp⟩ | hp)
            · exact ⟨q, by simp [hq], hp⟩
            · exact ⟨r, by simp, hp⟩
          · rintro ⟨q, hq, hp⟩
            rw [List.mem_append, List.mem_singleton] at hq
            rcases hq with hq | rfl
            · exact Or.inl ⟨q, hq, hp⟩
            · exact Or.inr hp
        · rintro v ⟨f, hf, hfv⟩
          exact ⟨f, clusters_sub _ _ hf f (by simp), hfv⟩
        · intro c hc v hv
          obtain ⟨c', hc', rfl⟩ := List.mem_map.mp hc
          obtain ⟨f, hf, hfv⟩ := List.mem_map.mp hv
          exact ⟨f, clusters_sub _ _ (List.mem_of_mem_filter hc') f hf, hfv⟩
        · have hdist : ∀ g ∈ frames r, ¬ ∃ f ∈ frames rs.flatten, f.uid = g.uid := by
            rintro g hg ⟨f, hf, e⟩
            rw [mem_frames_iff] at hf
            obtain ⟨q, hq, hm⟩ := List.mem_flatten.mp hf
            exact hnew.2.2 q hq r (by simp) f (mem_frames_iff.mpr hm) g hg e
          rintro v ⟨f, hf, rfl⟩
          exact hdist f (clusters_sub _ _ hf f (by simp))
        · have hdist : ∀ g ∈ frames r, ¬ ∃ f ∈ frames rs.flatten, f.uid = g.uid := by
            rintro g hg ⟨f, hf, e⟩
            rw [mem_frames_iff] at hf
            obtain ⟨q, hq, hm⟩ := List.mem_flatten.mp hf
            exact hnew.2.2 q hq r (by simp) f (mem_frames_iff.mpr hm) g hg e
          intro c hc v hv
          obtain ⟨c', hc', rfl⟩ := List.mem_map.mp hc
          obtain ⟨f, hf, rfl⟩ := List.mem_map.mp hv
          exact hdist f (clusters_sub _ _ (List.mem_of_mem_filter hc') f hf)

/-- A history in which packets of different eras never meet falls into rounds. -/
theorem rounds_of_eras {strict : Bool} {lost : P → P → Bool} {F : Nat} {ops : List (Op P)} {s : Crdsa.Sys P} {era : Nat → Nat}
    (h : exec strict false lost F ops = some (.ok s)) (hap : Apart false (frames ops))
    (hera : ∀ f ∈ frames ops, ∀ g ∈ frames ops, era f.uid < era g.uid → f.fin ≤ g.start) (hd : ∀ f ∈ frames ops, 0 < f.dur) :
    ∃ rounds cur, rounds.flatten ++ cur = ops ∧ (∀ r ∈ rounds, ends r = (frames r).length) ∧
      (∀ r ∈ cur :: rounds, ∀ f ∈ frames r, ∀ g ∈ frames r, era f.uid = era g.uid) ∧
      (rounds ++ [cur]).Pairwise (fun r q => ∀ f ∈ frames r, ∀ g ∈ frames q, era f.uid < era g.uid) ∧
      s.pending.length + ends cur = (frames cur).length ∧ (∀ f ∈ s.pending, f ∈ frames cur) ∧ (frames cur = [] → rounds = []) := by
  induction ops using List.reverseRecOn generalizing s with
  | nil =>
    simp only [exec, execFrom, Option.some.injEq, Outcome.ok.injEq] at h
    subst h
    refine ⟨[], [], ?_⟩
    simp [frames, ends, Crdsa.Sys.init]
  | append_singleton os o ih =>
    rw [exec_snoc] at h
    obtain ⟨s0, h0, h1⟩ := h
    have hap0 : Apart false (frames os) := by
      unfold Apart at hap ⊢; rw [Aloha.frames_append, List.pairwise_append] at hap; exact hap.1
    have hsub : ∀ f ∈ frames os, f ∈ frames (os ++ [o]) := fun f hf => by rw [Aloha.frames_append]; exact List.mem_append_left _ hf
    obtain ⟨rounds, cur, e1, e2, e3, e4, e5, e6, e7⟩ := ih h0 hap0 (fun f hf g hg => hera f (hsub f hf) g (hsub g hg)) (fun f hf => hd f (hsub f hf))
    obtain ⟨d0, hal⟩ := exec_aloha h0
    have b := Aloha.base_exec hal hap0
    cases o with
    | finish =>
      obtain ⟨f, rest, st, out, hp, -, rfl⟩ := step_finish_ok.mp h1
      have hfc : frames (cur ++ [Op.finish]) = frames cur := by rw [Aloha.frames_append]; simp [frames]
      have hec : ends (cur ++ [Op.finish]) = ends cur + 1 := by
        have : ∀ l : List (Op P), ends (l ++ [Op.finish]) = ends l + 1 := by
          intro l
          induction l with
          | nil => rfl
          | cons o os ih => cases o <;> simp [ends, ih]
        exact this cur
      refine ⟨rounds, cur ++ [.finish], by rw [← e1]; simp, e2, ?_, ?_, ?_, ?_, by rw [hfc]; exact e7⟩
      · intro r hr
        rcases List.mem_cons.mp hr with rfl | hr
        · rw [hfc]; exact e3 cur (by simp)
        · exact e3 r (by simp [hr])
      · rw [List.pairwise_append] at e4 ⊢
        refine ⟨e4.1, by simp, fun r hr q hq => ?_⟩
        rw [List.mem_singleton] at hq
        subst hq
        rw [hfc]
        exact e4.2.2 r hr cur (by simp)
      · rw [hfc, hec, ← e5, hp]; simp; omega
      · rw [hfc]; intro g hg; exact e6 g (by rw [hp]; exact List.mem_cons_of_mem _ hg)
    | arrive f =>
      obtain ⟨hc, rfl⟩ := step_arrive_ok.mp h1
      have hff : f ∈ frames (os ++ [Op.arrive f]) := by rw [Aloha.frames_append]; simp [frames]
      have hea : ∀ l : List (Op P), ends (l ++ [Op.arrive f]) = ends l := by
        intro l
        induction l with
        | nil => rfl
        | cons o os ih => cases o <;> simp [ends, ih]
      have hmem : ∀ r ∈ cur :: rounds, ∀ g ∈ frames r, g ∈ frames os := by
        intro r hr g hg
        rw [← e1, Aloha.frames_append, List.mem_append]
        rcases List.mem_cons.mp hr with rfl | hr
        · exact Or.inr hg
        · exact Or.inl (mem_frames_iff.mpr (List.mem_flatten.mpr ⟨r, hr, mem_frames_iff.mp hg⟩))
      -- no earlier packet is of a later era
      have hle : ∀ g ∈ frames os, era g.uid ≤ era f.uid := by
        intro g hg
        by_contra hlt
        have h2 := hera f hff g (hsub g hg) (by omega)
        have h3 := b.started g hg
        have h4 := hd f hff
        simp only at h3
        unfold Frame.fin at h2
        omega
      by_cases hsame : ∃ g ∈ frames cur, era g.uid < era f.uid
      · -- a new round
        obtain ⟨g0, hg0, hlt0⟩ := hsame
        have hlt : ∀ g ∈ frames cur, era g.uid < era f.uid := by
          intro g hg
          rw [e3 cur (by simp) g hg g0 hg0]; exact hlt0
        have hidle : s0.pending = [] := by
          rw [List.eq_nil_iff_forall_not_mem]
          intro g hg
          have h2 := hera g (hsub g (hmem cur (by simp) g (e6 g hg))) f hff (hlt g (e6 g hg))
          have h3 := hc.2 g hg
          simp only [Bool.false_eq_true, false_and, or_false] at h3
          omega
        refine ⟨rounds ++ [cur], [.arrive f], by simp [e1], ?_, ?_, ?_, ?_, ?_, by simp [frames]⟩
        · intro r hr
          rw [List.mem_append, List.mem_singleton] at hr
          rcases hr with hr | rfl
          · exact e2 r hr
          · rw [hidle] at e5; simpa using e5
        · intro r hr
          rcases List.mem_cons.mp hr with rfl | hr
          · intro a ha c hc'
            simp [frames] at ha hc'
            rw [ha, hc']
          · rw [List.mem_append, List.mem_singleton] at hr
            rcases hr with hr | rfl
            · exact e3 r (by simp [hr])
            · exact e3 r (by simp)
        · rw [List.pairwise_append]
          refine ⟨e4, by simp, fun r hr q hq a ha c hc' => ?_⟩
          rw [List.mem_singleton] at hq
          subst hq
          simp [frames] at hc'
          subst hc'
          rw [List.mem_append, List.mem_singleton] at hr
          rcases hr with hr | rfl
          · rw [List.pairwise_append] at e4
            have := e4.2.2 r hr cur (by simp) a ha g0 hg0
            omega
          · exact hlt a ha
        · simp [hidle, Aloha.schedule, frames, ends]
        · simp [hidle, Aloha.schedule, frames]
      · -- the same round
        push Not at hsame
        have heq : ∀ g ∈ frames cur, era g.uid = era f.uid := fun g hg => le_antisymm (hle g (hmem cur (by simp) g hg)) (hsame g hg)
        have hfc : frames (cur ++ [Op.arrive f]) = frames cur ++ [f] := by rw [Aloha.frames_append]; simp [frames]
        refine ⟨rounds, cur ++ [.arrive f], by rw [← e1]; simp, e2, ?_, ?_, ?_, ?_, by rw [hfc]; simp⟩
        · intro r hr
          rcases List.mem_cons.mp hr with rfl | hr
          · rw [hfc]
            intro a ha c hc'
            have hall : ∀ x ∈ frames cur ++ [f], era x.uid = era f.uid := by
              intro x hx
              rw [List.mem_append, List.mem_singleton] at hx
              rcases hx with hx | rfl
              · exact heq x hx
              · rfl
            rw [hall a ha, hall c hc']
          · exact e3 r (by simp [hr])
        · by_cases hne : frames cur = []
          · rw [e7 hne]; simp
          obtain ⟨g0, hg0⟩ := List.exists_mem_of_ne_nil _ hne
          rw [List.pairwise_append] at e4 ⊢
          refine ⟨e4.1, by simp, fun r hr q hq a ha c hc' => ?_⟩
          rw [List.mem_singleton] at hq
          subst hq
          rw [hfc, List.mem_append, List.mem_singleton] at hc'
          rcases hc' with hc' | rfl
          · exact e4.2.2 r hr cur (by simp) a ha c hc'
          · have := e4.2.2 r hr cur (by simp) a ha g0 hg0
            rw [heq g0 hg0] at this
            exact this
        · rw [hfc, hea]
          simp only [(Aloha.schedule_perm f s0.pending).length_eq, List.length_cons, List.length_append, List.length_nil]
          omega
        · rw [hfc]
          intro g hg
          rcases Aloha.mem_schedule.mp hg with rfl | hg
          · simp
          · exact List.mem_append_left _ (e6 g hg)

/-- CRDSA in the long run, without cutting the history by hand.  Every packet belongs to an era; packets of different eras are never received
at the same time, receptions of one era end within two frame durations of each other.  When nothing is being received any more, the packets
passed up are exactly those that peeling the whole history recovers, each once. -/
theorem C69_eras {strict : Bool} {lost : P → P → Bool} {F : Nat} {ops : List (Op P)} {s : Crdsa.Sys P} {era : Nat → Nat}
    {Q : P → Prop} (hlost : Aloha.Drops lost Q) (h : exec strict false lost F ops = some (.ok s))
    (hap : Apart false (frames ops)) (hd : ∀ f ∈ frames ops, 0 < f.dur) (hpow : ∀ f ∈ frames ops, Q f.pow)
    (hera : ∀ f ∈ frames ops, ∀ g ∈ frames ops, era f.uid < era g.uid → f.fin ≤ g.start)
    (hwin : ∀ f ∈ frames ops, ∀ g ∈ frames ops, era f.uid = era g.uid → g.fin < f.fin + 2 * F) (hidle : s.pending = []) :
    (∀ u, u ∈ s.delivered.map Prod.snd ↔ Peel (AloneOnce ops) (collisions ops) u) ∧ (s.delivered.map Prod.snd).Nodup := by
  obtain ⟨rounds, cur, e1, e2, e3, e4, e5, -, -⟩ := rounds_of_eras h hap hera hd
  have eo : (rounds ++ [cur]).flatten = ops := by rw [List.flatten_append, List.flatten_singleton]; exact e1
  have hover : ∀ r ∈ rounds ++ [cur], ends r = (frames r).length := by
    intro r hr
    rw [List.mem_append, List.mem_singleton] at hr
    rcases hr with hr | rfl
    · exact e2 r hr
    · rw [hidle] at e5; simpa using e5
  have hnew : (rounds ++ [cur]).Pairwise (fun r q => ∀ f ∈ frames r, ∀ g ∈ frames q, f.uid ≠ g.uid) := by
    refine e4.imp (fun {r q} hrq f hf g hg e => ?_)
    have := hrq f hf g hg
    rw [e] at this
    omega
  have hmem : ∀ r ∈ rounds ++ [cur], ∀ f ∈ frames r, f ∈ frames ops := by
    intro r hr f hf
    rw [← eo]
    exact mem_frames_iff.mpr (List.mem_flatten.mpr ⟨r, hr, mem_frames_iff.mp hf⟩)
  have h' := h
  rw [← eo] at h' hap hd hpow
  obtain ⟨a1, a2, -⟩ := C69_rounds hlost h' hap hd hpow hover (fun r hr f hf g hg => hwin f (hmem r hr f hf) g (hmem r hr g hg)
    (e3 r (by
      rw [List.mem_append, List.mem_singleton] at hr
      rcases hr with hr | rfl
      · simp [hr]
      · simp) f hf g hg)) hnew
  obtain ⟨-, b2⟩ := peel_rounds h' hap hover hnew
  rw [← eo]
  exact ⟨fun u => (a1 u).trans (b2 u).symm, a2⟩

/-! ### The hypotheses hold in a non-trivial case -/

/-- A second round in which packets 4 and 5 block each other for good. -/
def blockedRound : List (Op Int) :=
  [.arrive ⟨4, 200, 8, 1⟩, .arrive ⟨5, 201, 8, 1⟩, .finish, .finish, .arrive ⟨5, 230, 8, 1⟩, .arrive ⟨4, 231, 8, 1⟩, .finish, .finish]

/-- A third round, shortly after, decoded by cancellation. -/
def thirdRound : List (Op Int) :=
  [.arrive ⟨6, 250, 8, 1⟩, .arrive ⟨7, 251, 8, 1⟩, .finish, .finish, .arrive ⟨7, 280, 8, 1⟩, .finish]

example : ∃ s, exec true false intLost 60 [twoReplicaOps, blockedRound, thirdRound].flatten = some (.ok s) ∧
    s.delivered = [(58, 1), (58, 2), (58, 3), (288, 7), (288, 6)] ∧ s.st.periods ≠ [] := ⟨_, rfl, by decide, by decide⟩
example : Apart false (frames [twoReplicaOps, blockedRound, thirdRound].flatten) := by unfold Apart; decide
example : (∀ f ∈ frames [twoReplicaOps, blockedRound, thirdRound].flatten, 0 < f.dur ∧ 0 < f.pow) ∧
    (∀ r ∈ [twoReplicaOps, blockedRound, thirdRound], ends r = (frames r).length) ∧
    (∀ r ∈ [twoReplicaOps, blockedRound, thirdRound], ∀ f ∈ frames r, ∀ g ∈ frames r, g.fin < f.fin + 2 * 60) ∧
    [twoReplicaOps, blockedRound, thirdRound].Pairwise (fun r q => ∀ f ∈ frames r, ∀ g ∈ frames q, f.uid ≠ g.uid) := by
  refine ⟨by decide, by decide, by decide, by decide⟩
/-- Eras of the packets in this history. -/
def exampleEra (u : Nat) : Nat := if u ≤ 3 then 0 else if u ≤ 5 then 1 else 2

example : (∀ f ∈ frames [twoReplicaOps, blockedRound, thirdRound].flatten, ∀ g ∈ frames [twoReplicaOps, blockedRound, thirdRound].flatten,
      exampleEra f.uid < exampleEra g.uid → f.fin ≤ g.start) ∧
    (∀ f ∈ frames [twoReplicaOps, blockedRound, thirdRound].flatten, ∀ g ∈ frames [twoReplicaOps, blockedRound, thirdRound].flatten,
      exampleEra f.uid = exampleEra g.uid → g.fin < f.fin + 2 * 60) := by decide
example : ∃ s, exec true false intLost 60 (twoReplicaOps ++ blockedRound) = some (.ok s) ∧ s.pending = [] ∧ s.st.periods.length = 2 :=
  ⟨_, rfl, by decide, by decide⟩

end

end Icarus
