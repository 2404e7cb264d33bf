import Verif.Model.UplinkOrder
import Verif.Props.SlottedUplink
import Verif.Props.CrdsaUplink

/-!
# The uplink in the event order of ns-3 (C80)
-/

set_option autoImplicit false

namespace Icarus
namespace Uplink
open GroundSatChannel
open GroundSta (Entry Once)
open Aloha (Frame)

variable {D G V W P R : Type}

/-! ## Receivers that schedule the ends of receptions -/

/-- `pend` are the scheduled ends of receptions, `strict` is the receiver that runs the end of a reception before a start of the same instant. -/
structure Ends (rx : Receiver P R) (pend : R → List (Frame P)) (strict : R → Aloha.Op P → Option (Outcome R)) : Prop where
  due : ∀ r, rx.due r = (pend r).map Frame.fin
  init : pend rx.init = []
  arrived : ∀ r f x, rx.step r (.arrive f) = some x → ∃ r', x = .ok r' ∧ pend r' = Aloha.schedule f (pend r)
  finished : ∀ r r', rx.step r .finish = some (.ok r') → ∃ f, pend r = f :: pend r'
  arrive : ∀ r f x, rx.step r (.arrive f) = some x → (∀ g ∈ pend r, g.fin ≠ f.start) → strict r (.arrive f) = some x
  finish : ∀ r, strict r .finish = rx.step r .finish

theorem aloha_ends [Zero P] [Add P] (lost : P → P → Bool) :
    Ends (alohaReceiver lost) Aloha.Sys.pending (fun r o => (Aloha.step false lost r o).map .ok) where
  due _ := rfl
  init := rfl
  arrived r f x h := by
    simp only [alohaReceiver, Aloha.step, Option.map_eq_some_iff] at h
    obtain ⟨y, h1, rfl⟩ := h
    split at h1
    · simp only [Option.some.injEq] at h1
      subst h1
      exact ⟨_, rfl, rfl⟩
    · simp at h1
  finished r r' h := by
    simp only [alohaReceiver, Aloha.step, Option.map_eq_some_iff, Outcome.ok.injEq] at h
    obtain ⟨y, h1, rfl⟩ := h
    split at h1
    · simp at h1
    · rename_i f rest hp
      simp only [Option.some.injEq] at h1
      subst h1
      exact ⟨f, hp⟩
  arrive r f x h hne := by
    simp only [alohaReceiver, Aloha.step, Option.map_eq_some_iff] at h ⊢
    obtain ⟨y, h1, rfl⟩ := h
    refine ⟨y, ?_, rfl⟩
    split at h1
    · rename_i hc
      rw [if_pos]
      · exact h1
      · refine ⟨hc.1, fun g hg => ?_⟩
        rcases hc.2 g hg with h2 | h2
        · exact Or.inl h2
        · exact absurd h2.2.symm (hne g hg)
    · simp at h1
  finish _ := rfl

theorem crdsa_ends [Zero P] [Add P] (lost : P → P → Bool) (F : Nat) :
    Ends (crdsaReceiver lost F) Crdsa.Sys.pending (Crdsa.step true false lost F) where
  due _ := rfl
  init := rfl
  arrived r f x h := by
    simp only [crdsaReceiver, Crdsa.step] at h
    split at h
    · simp only [Option.some.injEq] at h
      subst h
      exact ⟨_, rfl, rfl⟩
    · simp at h
  finished r r' h := by
    simp only [crdsaReceiver, Crdsa.step] at h
    split at h
    · simp at h
    · rename_i f rest hp
      split at h
      · simp at h
      · simp at h
      · simp at h
      · simp only [Option.some.injEq, Outcome.ok.injEq] at h
        subst h
        exact ⟨f, hp⟩
  arrive r f x h hne := by
    simp only [crdsaReceiver, Crdsa.step] at h ⊢
    split at h
    · rename_i hc
      rw [if_pos]
      · exact h
      · refine ⟨hc.1, fun g hg => ?_⟩
        rcases hc.2 g hg with h2 | h2
        · exact Or.inl h2
        · exact absurd h2.2.symm (hne g hg)
    · simp at h
  finish _ := rfl

/-! ## Forgetting the order -/

section
variable [Fintype G] [Fintype D] [DecidableEq G] [DecidableEq D]

theorem ostep_station {net : Net D G V W P R} {pend : R → List (Frame P)} {s s' : OSys D G W R} {g : G} {o : GroundSta.Op W}
    (h : ostep net pend s (.station g o) = some (.ok s')) :
    step net s.sys (.station g o) = some (.ok s'.sys) ∧
      s'.born = bornAll net g ((s'.sys.stations g).aired.drop (s.sys.stations g).aired.length) s.born := by
  simp only [ostep, Option.map_eq_some_iff] at h
  obtain ⟨x, h1, h2⟩ := h
  rw [Outcome.bind_eq_ok] at h2
  obtain ⟨y, rfl, h2⟩ := h2
  simp only [Outcome.ok.injEq] at h2
  subst h2
  exact ⟨h1, rfl⟩

theorem ostep_arrive {net : Net D G V W P R} {pend : R → List (Frame P)} {s s' : OSys D G W R} (h : ostep net pend s .arrive = some (.ok s')) :
    ∃ t b, s.born = (t, b) :: s'.born ∧ First pend s t b ∧ step net s.sys .arrive = some (.ok s'.sys) := by
  simp only [ostep] at h
  split at h
  · simp at h
  · rename_i t b rest hb
    split at h
    · rename_i hf
      simp only [Option.map_eq_some_iff] at h
      obtain ⟨x, h1, h2⟩ := h
      rw [Outcome.bind_eq_ok] at h2
      obtain ⟨y, rfl, h2⟩ := h2
      simp only [Outcome.ok.injEq] at h2
      subst h2
      exact ⟨t, b, hb, hf, h1⟩
    · simp at h

theorem ostep_finish {net : Net D G V W P R} {pend : R → List (Frame P)} {s s' : OSys D G W R} {d : D}
    (h : ostep net pend s (.finish d) = some (.ok s')) :
    ∃ f l, pend (s.sys.sats d) = f :: l ∧ First pend s f.fin f.start ∧ step net s.sys (.finish d) = some (.ok s'.sys) ∧ s'.born = s.born := by
  simp only [ostep] at h
  split at h
  · simp at h
  · rename_i f l hp
    split at h
    · rename_i hf
      simp only [Option.map_eq_some_iff] at h
      obtain ⟨x, h1, h2⟩ := h
      rw [Outcome.bind_eq_ok] at h2
      obtain ⟨y, rfl, h2⟩ := h2
      simp only [Outcome.ok.injEq] at h2
      subst h2
      exact ⟨f, l, hp, hf, h1, rfl⟩
    · simp at h

theorem ostep_erase {net : Net D G V W P R} {pend : R → List (Frame P)} {s s' : OSys D G W R} {o : Op D G W}
    (h : ostep net pend s o = some (.ok s')) : step net s.sys o = some (.ok s'.sys) := by
  cases o with
  | station g o => exact (ostep_station h).1
  | arrive => obtain ⟨t, b, -, -, h⟩ := ostep_arrive h; exact h
  | finish d => obtain ⟨f, l, -, -, h, -⟩ := ostep_finish h; exact h

/-- A step that fails in the one model fails in the other. -/
theorem ostep_fault {net : Net D G V W P R} {pend : R → List (Frame P)} {s : OSys D G W R} {o : Op D G W} {r : Outcome (OSys D G W R)}
    (h : ostep net pend s o = some r) (hok : ∀ x, step net s.sys o = some x → ∃ y, x = .ok y) : ∃ s', r = .ok s' := by
  have key : ∀ (f : Sys D G W R → OSys D G W R) (x : Option (Outcome (Sys D G W R))), x = step net s.sys o →
      x.map (fun r => do let s' ← r; Outcome.ok (f s')) = some r → ∃ s', r = .ok s' := by
    intro f x hx hr
    simp only [Option.map_eq_some_iff] at hr
    obtain ⟨y, h1, rfl⟩ := hr
    obtain ⟨z, rfl⟩ := hok y (by rw [← hx, h1])
    exact ⟨_, rfl⟩
  cases o with
  | station g o => exact key _ _ rfl h
  | arrive =>
    simp only [ostep] at h
    split at h
    · simp at h
    · split at h
      · exact key _ _ rfl h
      · simp at h
  | finish d =>
    simp only [ostep] at h
    split at h
    · simp at h
    · split at h
      · exact key _ _ rfl h
      · simp at h

/-- Every execution in the order of ns-3 is one of the executions considered so far: all theorems about those hold for it. -/
theorem C80_refines {net : Net D G V W P R} {pend : R → List (Frame P)} {ops : List (Op D G W)} {s : OSys D G W R}
    (h : oexec net pend ops = some (.ok s)) : exec net ops = some (.ok s.sys) := by
  refine run_induction (P := fun ops (s : OSys D G W R) => exec net ops = some (.ok s.sys)) rfl ?_ h
  intro os o s s' _ hp hs
  exact runFrom_snoc.mpr ⟨_, hp, ostep_erase hs⟩

end

/-! ## When arrivals were scheduled -/

/-- The arrival is due one propagation delay after it was scheduled. -/
def Sent (w : World D G W) (e : Nat × Nat) (y : Nat × D × Flight W) : Prop := e.1 = y.1 ∧ ∃ g, e.1 = e.2 + w.delay e.2 g y.2.1

theorem forall₂_insertEvent {w : World D G W} {b : List (Nat × Nat)} {l : List (Nat × D × Flight W)} (h : List.Forall₂ (Sent w) b l) {t x : Nat}
    {z : D × Flight W} (hx : Sent w (t, x) (t, z)) : List.Forall₂ (Sent w) (insertEvent t x b) (insertEvent t z l) := by
  induction h with
  | nil => exact .cons hx .nil
  | @cons e y b l hey hbl ih =>
    have hfst : e.1 = y.1 := hey.1
    simp only [insertEvent]
    by_cases hlt : t < e.1
    · rw [if_pos hlt, if_pos (by omega)]
      exact .cons hx (.cons hey hbl)
    · rw [if_neg hlt, if_neg (by omega)]
      exact .cons hey ih

/-- In the order in which they run: by time, then by the time they were scheduled. -/
def Lex (a b : Nat × Nat) : Prop := a.1 < b.1 ∨ a.1 = b.1 ∧ a.2 ≤ b.2

theorem lex_insertEvent {t x : Nat} {l : List (Nat × Nat)} (h : l.Pairwise Lex) (hx : ∀ e ∈ l, e.2 ≤ x) : (insertEvent t x l).Pairwise Lex := by
  induction l with
  | nil => simp [insertEvent]
  | cons e l ih =>
    rw [List.pairwise_cons] at h
    simp only [insertEvent]
    split
    · rename_i hlt
      rw [List.pairwise_cons, List.pairwise_cons]
      refine ⟨fun y hy => ?_, h⟩
      rw [List.mem_cons] at hy
      rcases hy with rfl | hy
      · exact Or.inl hlt
      · have := h.1 y hy
        unfold Lex at this ⊢
        simp only
        omega
    · rename_i hge
      rw [List.pairwise_cons]
      refine ⟨fun y hy => ?_, ih h.2 (fun e he => hx e (by simp [he]))⟩
      rcases mem_insertEvent.mp hy with rfl | hy
      · have := hx e (by simp)
        unfold Lex
        simp only
        omega
      · exact h.1 y hy

theorem lex_schedule {f : Frame P} {l : List (Frame P)} (h : (l.map (fun g => (g.fin, g.start))).Pairwise Lex) (hx : ∀ g ∈ l, g.start ≤ f.start) :
    ((Aloha.schedule f l).map (fun g => (g.fin, g.start))).Pairwise Lex := by
  have e : (Aloha.schedule f l).map (fun g => (g.fin, g.start)) = insertEvent f.fin f.start (l.map (fun g => (g.fin, g.start))) := by
    induction l with
    | nil => rfl
    | cons g l ih =>
      simp only [Aloha.schedule, List.map_cons, insertEvent]
      rw [List.map_cons, List.pairwise_cons] at h
      split
      · rfl
      · rw [List.map_cons, ih h.2 (fun g hg => hx g (by simp [hg]))]
  rw [e]
  refine lex_insertEvent h ?_
  intro x hx2
  obtain ⟨g, hg, rfl⟩ := List.mem_map.mp hx2
  exact hx g hg

section
variable {hasOrbit : D → Bool} {cid n m : Nat} {hist : List (Nat × Nat × D)} {as : List SatAddress} {k : Constellation D}
  {net : Net D G V W P R} {w : World D G W}

theorem transmit_born (hb : Built net.endian hasOrbit cid n m hist as k) (hfit : Fits16 cid n m)
    (hk : net.chan.constellation = some k) (hsky : Sky net w) (g : G) (t : Nat) (x : Entry W) (d : D) (hd : target hist as x.dst = some d) :
    ∃ effs, transmit2Sat net.debug net.endian net.chan (net.air t) (x.pkt, x.len) x.len g (net.addr g) x.dst x.proto x.power = .ok (effs, x.len) ∧
      ∀ (b : List (Nat × Nat)) (a : List (Nat × D × Flight W) × List (Nat × Nat)), List.Forall₂ (Sent w) b a.1 →
        List.Forall₂ (Sent w) (effs.foldl (bornEffect t) b) (effs.foldl (applyEffect t) a).1 ∧
        ((∀ e ∈ b, e.2 ≤ t) → b.Pairwise Lex →
          (∀ e ∈ effs.foldl (bornEffect t) b, e.2 ≤ t) ∧ (effs.foldl (bornEffect t) b).Pairwise Lex) := by
  obtain ⟨i, p, o, hi, hai⟩ := target_some hd
  obtain ⟨b, hb1, hb2, -⟩ := C03_lookup hb hfit net.debug i p o d hi
  rw [hai] at hb1
  simp only [Option.some.injEq] at hb1
  subst hb1
  obtain ⟨pg, ps, delay, loss, heq, hw1, hw2, hs⟩ := hsky t g d
  have hadm : admitted (net.air t) g d = .ok (w.admit t g d) := by
    unfold admitted
    rcases hs with ⟨h1, h2⟩ | ⟨m, h1, h2⟩
    · rw [h1, h2]
    · rw [h1]; exact h2
  unfold transmit2Sat
  simp only [hk, hb2, heq.delay, heq.ground, heq.sat, heq.loss, hadm, Outcome.deref_some, Outcome.bind_ok]
  cases hwa : w.admit t g d with
  | true =>
    refine ⟨_, rfl, fun b a hba => ⟨?_, fun h1 h2 => ?_⟩⟩
    · exact forall₂_insertEvent hba ⟨rfl, g, by simp only [hw1]⟩
    · refine ⟨fun e he => ?_, lex_insertEvent h2 h1⟩
      rcases mem_insertEvent.mp he with rfl | he
      · exact Nat.le_refl _
      · exact h1 e he
  | false => exact ⟨_, rfl, fun b a hba => ⟨hba, fun h1 h2 => ⟨h1, h2⟩⟩⟩

theorem transmitAll_born (hb : Built net.endian hasOrbit cid n m hist as k) (hfit : Fits16 cid n m)
    (hk : net.chan.constellation = some k) (hsky : Sky net w) (g : G) (T : Nat) (l : List (Nat × Entry W)) (hT : ∀ y ∈ l, y.1 = T)
    (hl : ∀ y ∈ l, (target hist as y.2.dst).isSome) (b : List (Nat × Nat)) (a a' : List (Nat × D × Flight W) × List (Nat × Nat))
    (h : transmitAll net g l a = .ok a') (hba : List.Forall₂ (Sent w) b a.1) (h1 : ∀ e ∈ b, e.2 ≤ T) (h2 : b.Pairwise Lex) :
    List.Forall₂ (Sent w) (bornAll net g l b) a'.1 ∧ (∀ e ∈ bornAll net g l b, e.2 ≤ T) ∧ (bornAll net g l b).Pairwise Lex := by
  induction l generalizing a b with
  | nil =>
    simp only [transmitAll, Outcome.ok.injEq] at h
    subst h
    exact ⟨hba, h1, h2⟩
  | cons y l ih =>
    obtain ⟨t, x⟩ := y
    obtain rfl : t = T := hT (t, x) (by simp)
    obtain ⟨d, hd⟩ := Option.isSome_iff_exists.mp (hl (t, x) (by simp))
    obtain ⟨effs, e1, e2⟩ := transmit_born hb hfit hk hsky g t x d hd
    simp only [transmitAll, e1, Outcome.bind_ok] at h
    simp only [bornAll, e1]
    obtain ⟨c1, c2⟩ := e2 b a hba
    obtain ⟨c3, c4⟩ := c2 h1 h2
    exact ih (fun y hy => hT y (by simp [hy])) (fun y hy => hl y (by simp [hy])) _ _ h c1 c3 c4

end

section
variable [Fintype G] [Fintype D] [DecidableEq G] [DecidableEq D]
variable {hasOrbit : D → Bool} {cid n m : Nat} {hist : List (Nat × Nat × D)} {as : List SatAddress} {k : Constellation D}
  {net : Net D G V W P R} {w : World D G W} {pend : R → List (Frame P)} {strict : R → Aloha.Op P → Option (Outcome R)}

/-- What is known about scheduled arrivals and ends of receptions. -/
structure Scheduled (w : World D G W) (pend : R → List (Frame P)) (s : OSys D G W R) : Prop where
  born : List.Forall₂ (Sent w) s.born s.sys.flying
  past : ∀ e ∈ s.born, e.2 ≤ s.sys.clock
  sorted : s.born.Pairwise Lex
  pendPast : ∀ d, ∀ f ∈ pend (s.sys.sats d), f.start ≤ s.sys.clock
  pendSorted : ∀ d, ((pend (s.sys.sats d)).map (fun g => (g.fin, g.start))).Pairwise Lex
  heard : ∀ d, ∀ f ∈ pend (s.sys.sats d), ∃ y ∈ s.sys.heard, y.2.1 = d ∧ f.start = y.1 ∧ f.dur = y.2.2.len

theorem scheduled (he : Ends net.rx pend strict) (hb : Built net.endian hasOrbit cid n m hist as k) (hfit : Fits16 cid n m)
    (hk : net.chan.constellation = some k) (hsky : Sky net w) {ops : List (Op D G W)} (hl : Launched net hist as ops) {s : OSys D G W R}
    (h : oexec net pend ops = some (.ok s)) : Scheduled w pend s := by
  induction ops using List.reverseRecOn generalizing s with
  | nil =>
    simp only [oexec, runFrom, Option.some.injEq, Outcome.ok.injEq] at h
    subst h
    refine ⟨.nil, by simp, .nil, ?_, ?_, ?_⟩ <;> intro d <;> simp [Sys.init, he.init]
  | append_singleton os o ih =>
    obtain ⟨s1, h1, h2⟩ := runFrom_snoc.mp h
    have hs := ih hl.left h1
    cases o with
    | station g o =>
      obtain ⟨h3, h4⟩ := ostep_station h2
      obtain ⟨t, st, a, ht, hdue, hstep, ha, hs'⟩ := step_station h3
      have hclk : s1.sys.clock ≤ s.sys.clock := by rw [hs']; exact hdue.1
      have hex : GroundSta.exec net.debug (net.mac g) (net.accept g) (net.remote g) (net.power g) (opsOf g (os ++ [.station g o])) =
          some (.ok st) := by
        rw [opsOf_append]
        simp only [opsOf, List.filterMap_cons, List.filterMap_nil, if_true]
        exact runFrom_snoc.mpr ⟨_, C55_station (C80_refines h1) g, hstep⟩
      obtain ⟨new, hnew, htime, -⟩ := aired_grows ht hstep
      have hdrop : st.aired.drop (s1.sys.stations g).aired.length = new := by rw [← hnew]; simp
      have hnewok : ∀ y ∈ new, (target hist as y.2.dst).isSome := by
        intro y hy
        have hy2 : y ∈ st.aired := by rw [← hnew]; simp [hy]
        obtain ⟨z, hz, hz2⟩ := List.mem_map.mp (aired_accepted hex hy2)
        have hz3 := (C34_accepted_or_dropped hex).2.subset hz
        rw [← hz2]
        refine hl g _ ?_
        rcases requests_dst _ _ _ z hz3 with hz4 | hz4
        · rw [hz4]; simp
        · exact List.mem_cons_of_mem _ hz4
      have hst : s.sys.stations g = st := by rw [hs']; simp
      rw [hst, hdrop] at h4
      rw [hdrop] at ha
      obtain ⟨c1, c2, c3⟩ := transmitAll_born hb hfit hk hsky g t new htime hnewok s1.born _ a ha hs.born
        (fun e he => Nat.le_trans (hs.past e he) hdue.1) hs.sorted
      refine ⟨?_, ?_, ?_, ?_, ?_, ?_⟩
      · rw [h4, hs']; exact c1
      · rw [h4, hs']; exact c2
      · rw [h4]; exact c3
      · intro d f hf
        refine Nat.le_trans (hs.pendPast d f ?_) hclk
        rw [hs'] at hf; exact hf
      · intro d; rw [hs']; exact hs.pendSorted d
      · intro d; rw [hs']; exact hs.heard d
    | arrive =>
      obtain ⟨t, b, hborn, -, h3⟩ := ostep_arrive h2
      obtain ⟨t', d, f, rest, r, hfly, hdue, hr, hs'⟩ := step_arrive h3
      obtain ⟨r', e, hp⟩ := he.arrived _ _ _ hr
      simp only [Outcome.ok.injEq] at e
      subst e
      have hbf := hs.born
      rw [hborn, hfly, List.forall₂_cons] at hbf
      have hsrt := hs.sorted
      rw [hborn, List.pairwise_cons] at hsrt
      refine ⟨?_, ?_, hsrt.2, ?_, ?_, ?_⟩
      · rw [hs']; exact hbf.2
      · intro e he2
        rw [hs']
        exact Nat.le_trans (hs.past e (by rw [hborn]; simp [he2])) hdue.1
      · intro d' g hg
        rw [hs'] at hg ⊢
        simp only at hg ⊢
        by_cases hd : d' = d
        · subst hd
          rw [Function.update_self, hp, Aloha.mem_schedule] at hg
          rcases hg with rfl | hg
          · exact Nat.le_refl _
          · exact Nat.le_trans (hs.pendPast d' g hg) hdue.1
        · rw [Function.update_of_ne hd] at hg
          exact Nat.le_trans (hs.pendPast d' g hg) hdue.1
      · intro d'
        rw [hs']
        simp only
        by_cases hd : d' = d
        · subst hd
          rw [Function.update_self, hp]
          exact lex_schedule (hs.pendSorted d') (fun g hg => Nat.le_trans (hs.pendPast d' g hg) hdue.1)
        · rw [Function.update_of_ne hd]
          exact hs.pendSorted d'
      · intro d' g hg
        rw [hs'] at hg ⊢
        simp only at hg ⊢
        have hold : g ∈ pend (s1.sys.sats d') → ∃ y ∈ s1.sys.heard ++ [(t', d, f)], y.2.1 = d' ∧ g.start = y.1 ∧ g.dur = y.2.2.len := by
          intro hg
          obtain ⟨y, hy, hy2⟩ := hs.heard d' g hg
          exact ⟨y, by simp [hy], hy2⟩
        by_cases hd : d' = d
        · subst hd
          rw [Function.update_self, hp, Aloha.mem_schedule] at hg
          rcases hg with rfl | hg
          · exact ⟨(t', d', f), by simp, rfl, rfl, rfl⟩
          · exact hold hg
        · rw [Function.update_of_ne hd] at hg
          exact hold hg
    | finish d =>
      obtain ⟨f, l, hpd, -, h3, hborn⟩ := ostep_finish h2
      obtain ⟨t, ts, r, hk1, hdue, hr, hs'⟩ := step_finish h3
      obtain ⟨f', hp⟩ := he.finished _ _ hr
      have hsub : ∀ d' g, g ∈ pend (s.sys.sats d') → g ∈ pend (s1.sys.sats d') := by
        intro d' g hg
        rw [hs'] at hg
        simp only at hg
        by_cases hd : d' = d
        · subst hd
          rw [Function.update_self] at hg
          rw [hp]; exact List.mem_cons_of_mem _ hg
        · rwa [Function.update_of_ne hd] at hg
      have hclk : s1.sys.clock ≤ s.sys.clock := by rw [hs']; exact hdue.1
      refine ⟨?_, ?_, ?_, ?_, ?_, ?_⟩
      · rw [hborn, hs']; exact hs.born
      · rw [hborn]; exact fun e he2 => Nat.le_trans (hs.past e he2) hclk
      · rw [hborn]; exact hs.sorted
      · exact fun d' g hg => Nat.le_trans (hs.pendPast d' g (hsub d' g hg)) hclk
      · intro d'
        rw [hs']
        simp only
        by_cases hd : d' = d
        · subst hd
          rw [Function.update_self]
          have := hs.pendSorted d'
          rw [hp, List.map_cons, List.pairwise_cons] at this
          exact this.2
        · rw [Function.update_of_ne hd]
          exact hs.pendSorted d'
      · intro d' g hg
        obtain ⟨y, hy, hy2⟩ := hs.heard d' g (hsub d' g hg)
        exact ⟨y, by rw [hs']; exact hy, hy2⟩

/-! ## Frames longer than the delays -/

/-- If every frame heard by a satellite lasts longer than the propagation delays to it, then each receiver, seen alone, runs the end of a reception
before a start of the same instant. -/
theorem C80_ends_first (he : Ends net.rx pend strict) (hb : Built net.endian hasOrbit cid n m hist as k) (hfit : Fits16 cid n m)
    (hk : net.chan.constellation = some k) (hsky : Sky net w) {ops : List (Op D G W)} (hl : Launched net hist as ops) {s : OSys D G W R}
    (h : oexec net pend ops = some (.ok s)) (hlen : ∀ y ∈ s.sys.heard, ∀ t g, w.delay t g y.2.1 < y.2.2.len) (d : D) :
    ∃ rops, runFrom strict net.rx.init rops = some (.ok (s.sys.sats d)) ∧ Aloha.frames rops = framesAt net d s.sys.heard := by
  induction ops using List.reverseRecOn generalizing s with
  | nil =>
    simp only [oexec, runFrom, Option.some.injEq, Outcome.ok.injEq] at h
    subst h
    exact ⟨[], rfl, rfl⟩
  | append_singleton os o ih =>
    obtain ⟨s1, h1, h2⟩ := runFrom_snoc.mp h
    have hs := scheduled he hb hfit hk hsky hl.left h1
    cases o with
    | station g o =>
      obtain ⟨h3, -⟩ := ostep_station h2
      obtain ⟨t, st, a, -, -, -, -, hs'⟩ := step_station h3
      rw [hs'] at hlen ⊢
      exact ih hl.left h1 hlen
    | arrive =>
      obtain ⟨t, b, hborn, hfirst, h3⟩ := ostep_arrive h2
      obtain ⟨t', d', f, rest, r, hfly, hdue, hr, hs'⟩ := step_arrive h3
      have hbf := hs.born
      rw [hborn, hfly, List.forall₂_cons] at hbf
      obtain ⟨⟨htt, g0, hg0⟩, -⟩ := hbf
      simp only at htt hg0
      rw [hs'] at hlen ⊢
      simp only at hlen ⊢
      obtain ⟨rops, e1, e2⟩ := ih hl.left h1 (fun y hy => hlen y (by simp [hy]))
      by_cases hd : d' = d
      · subst hd
        refine ⟨rops ++ [.arrive ⟨net.rx.key s1.sys.heard.length f.pkt, t', f.len, net.toP f.power⟩], ?_, ?_⟩
        · rw [Function.update_self]
          refine runFrom_snoc.mpr ⟨_, e1, he.arrive _ _ _ hr ?_⟩
          intro g hg hfin
          simp only at hfin
          have hst := hfirst.2 d' g hg (by omega)
          obtain ⟨y, hy, hy1, hy2, hy3⟩ := hs.heard d' g hg
          have hlt := hlen y (by simp [hy]) b g0
          rw [hy1] at hlt
          unfold Frame.fin at hfin
          omega
        · rw [Aloha.frames_append, e2]
          simp [framesAt, List.zipIdx_append, Aloha.frames]
      · refine ⟨rops, by rw [Function.update_of_ne (Ne.symm hd)]; exact e1, ?_⟩
        rw [e2]
        simp [framesAt, List.zipIdx_append, hd]
    | finish d' =>
      obtain ⟨f, l, hpd, -, h3, -⟩ := ostep_finish h2
      obtain ⟨t, ts, r, -, -, hr, hs'⟩ := step_finish h3
      rw [hs'] at hlen ⊢
      simp only at hlen ⊢
      obtain ⟨rops, e1, e2⟩ := ih hl.left h1 hlen
      by_cases hd : d' = d
      · subst hd
        refine ⟨rops ++ [.finish], ?_, ?_⟩
        · rw [Function.update_self]
          exact runFrom_snoc.mpr ⟨_, e1, by rw [he.finish]; exact hr⟩
        · rw [Aloha.frames_append, e2]; simp [Aloha.frames]
      · exact ⟨rops, by rw [Function.update_of_ne (Ne.symm hd)]; exact e1, e2⟩

/-- Executions in the order of ns-3 never get stuck: as long as anything is scheduled, the simulator can run a scheduled event, and at any time up to the next
event, every station can be called. -/
theorem C80_progress {clock : R → Nat} (ho : Orderly net.rx clock) (he : Ends net.rx pend strict)
    (hb : Built net.endian hasOrbit cid n m hist as k) (hfit : Fits16 cid n m)
    (hk : net.chan.constellation = some k) (hsky : Sky net w) {ops : List (Op D G W)}
    (hl : Launched net hist as ops) {s : OSys D G W R} (h : oexec net pend ops = some (.ok s)) :
    (¬ Quiet net s.sys → ∃ o, o.internal = true ∧ ∃ r, ostep net pend s o = some r) ∧
    ∀ t, due net s.sys t → ∀ g pkt len proto, ∃ r, ostep net pend s (.station g (.send t pkt len proto)) = some r := by
  have hp := C55_progress ho hb hfit hk hsky hl (C80_refines h)
  have hs := scheduled he hb hfit hk hsky hl h
  obtain ⟨⟨-, a1, a2, a3⟩, b1, b2, b3, b4⟩ := onTime ho hb hfit hk hsky hl (C80_refines h)
  constructor
  swap
  · intro t ht g pkt len proto
    obtain ⟨r, hr⟩ := hp.2 t ht g pkt len proto
    simp only [ostep, hr]
    exact ⟨_, rfl⟩
  intro hq
  obtain ⟨o, hin, r, hr⟩ := hp.1 hq
  -- the event scheduled first among those due now
  have main : ∀ t, due net s.sys t → ((∃ b, (t, b) ∈ s.born) ∨ ∃ d, ∃ f ∈ pend (s.sys.sats d), f.fin = t) →
      ∃ o, o.internal = true ∧ ∃ r, ostep net pend s o = some r := by
    intro t hdue hex
    classical
    let E : Nat → Prop := fun b => (t, b) ∈ s.born ∨ ∃ d, ∃ f ∈ pend (s.sys.sats d), f.fin = t ∧ f.start = b
    have hE : ∃ b, E b := by
      rcases hex with ⟨b, hb⟩ | ⟨d, f, hf, e⟩
      · exact ⟨b, Or.inl hb⟩
      · exact ⟨f.start, Or.inr ⟨d, f, hf, e, rfl⟩⟩
    obtain ⟨b, hb, hmin⟩ : ∃ b, E b ∧ ∀ u, E u → b ≤ u := ⟨Nat.find hE, Nat.find_spec hE, fun u hu => Nat.find_min' hE hu⟩
    have hfirst : First pend s t b :=
      ⟨fun e he2 e1 => hmin _ (Or.inl (by rw [← e1]; exact he2)), fun d f hf e1 => hmin _ (Or.inr ⟨d, f, hf, e1, rfl⟩)⟩
    rcases hb with hb | ⟨d, f, hf, e1, e2⟩
    · cases hborn : s.born with
      | nil => rw [hborn] at hb; simp at hb
      | cons e rest =>
        have hbf := hs.born
        have hsrt := hs.sorted
        rw [hborn] at hbf hsrt hb
        obtain ⟨y, l, hy, -, hfly⟩ := List.forall₂_cons_left_iff.mp hbf
        obtain ⟨t', d, f⟩ := y
        have h1 : t ≤ e.1 := by
          rw [hy.1]
          exact hdue.2.2.1 (t', d, f) (by rw [hfly]; simp)
        have h2 : e = (t, b) := by
          rw [List.mem_cons] at hb
          rcases hb with hb | hb
          · exact hb.symm
          · have h3 := (List.pairwise_cons.mp hsrt).1 _ hb
            unfold Lex at h3
            simp only at h3
            have h4 : e.1 = t := by omega
            have h5 := hfirst.1 e (by rw [hborn]; simp) h4
            exact Prod.ext h4 (by simp only; omega)
        subst h2
        obtain rfl : t = t' := hy.1
        obtain ⟨r', hr'⟩ := ho.arrive (s.sys.sats d) ⟨net.rx.key s.sys.heard.length f.pkt, t, f.len, net.toP f.power⟩
          (by have := b2 d; have := hdue.1; simp only; omega) (fun u hu => hdue.2.2.2 d u hu)
        refine ⟨.arrive, rfl, ?_⟩
        simp only [ostep, hborn, if_pos hfirst, step, hfly, if_pos hdue, hr']
        exact ⟨_, rfl⟩
    · cases hpd : pend (s.sys.sats d) with
      | nil => rw [hpd] at hf; simp at hf
      | cons g rest =>
        have hsrt := hs.pendSorted d
        have hdd := he.due (s.sys.sats d)
        rw [hpd, List.map_cons, List.pairwise_cons] at hsrt
        rw [hpd, List.map_cons] at hdd
        have h1 : t ≤ g.fin := hdue.2.2.2 d _ (by rw [hdd]; simp)
        have h2 : g.fin = t ∧ g.start = b := by
          rw [hpd, List.mem_cons] at hf
          rcases hf with rfl | hf
          · exact ⟨e1, e2⟩
          · have h3 := hsrt.1 (f.fin, f.start) (List.mem_map.mpr ⟨f, hf, rfl⟩)
            unfold Lex at h3
            simp only at h3
            have h4 : g.fin = t := by omega
            have h5 := hfirst.2 d g (by rw [hpd]; simp) h4
            omega
        obtain ⟨r', hr', -⟩ := ho.finish _ _ _ hdd
        refine ⟨.finish d, rfl, ?_⟩
        rw [← h2.1] at hdue
        rw [← h2.1, ← h2.2] at hfirst
        simp only [ostep, hpd, if_pos hfirst, step, hdd, if_pos hdue, hr']
        exact ⟨_, rfl⟩
  cases o with
  | station g o =>
    refine ⟨.station g o, hin, ?_⟩
    simp only [ostep, hr]
    exact ⟨_, rfl⟩
  | arrive =>
    simp only [step] at hr
    split at hr
    · simp at hr
    · rename_i t d f rest hfly
      split at hr
      · rename_i hdue
        have hbf := hs.born
        rw [hfly] at hbf
        obtain ⟨e, l, hy, -, hborn⟩ := List.forall₂_cons_right_iff.mp hbf
        refine main t hdue (Or.inl ⟨e.2, ?_⟩)
        have : e = (t, e.2) := Prod.ext hy.1 rfl
        rw [hborn, ← this]
        simp
      · simp at hr
  | finish d =>
    simp only [step] at hr
    split at hr
    · simp at hr
    · rename_i t ts hdd
      split at hr
      · rename_i hdue
        have : t ∈ net.rx.due (s.sys.sats d) := by rw [hdd]; simp
        rw [he.due, List.mem_map] at this
        obtain ⟨f, hf, e⟩ := this
        exact main t hdue (Or.inr ⟨d, f, hf, e⟩)
      · simp at hr

end

/-! ## Aloha -/

section
variable [Fintype G] [Fintype D] [DecidableEq G] [DecidableEq D]
variable {hasOrbit : D → Bool} {cid n m : Nat} {hist : List (Nat × Nat × D)} {as : List SatAddress} {k : Constellation D}
  {w : World D G W} {wait : G → Nat → Nat → Nat}

/-- If the receivers do not fail, nothing does. -/
theorem orun_ok {net : Net D G V W P R} {pend : R → List (Frame P)} (hsafe : Safe net.rx) (hb : Built net.endian hasOrbit cid n m hist as k)
    (hfit : Fits16 cid n m) (hk : net.chan.constellation = some k) (hsky : Sky net w) {ops : List (Op D G W)}
    (hl : Launched net hist as ops) {r : Outcome (OSys D G W R)} (h : oexec net pend ops = some r) : ∃ s, r = .ok s := by
  induction ops using List.reverseRecOn generalizing r with
  | nil =>
    simp only [oexec, runFrom, Option.some.injEq] at h
    exact ⟨_, h.symm⟩
  | append_singleton os o ih =>
    unfold oexec at h
    rw [runFrom_append] at h
    cases h1 : runFrom (ostep net pend) ⟨Sys.init net, []⟩ os with
    | none => simp [h1] at h
    | some r1 =>
      obtain ⟨s, rfl⟩ := ih hl.left h1
      simp only [h1, runFrom_single] at h
      refine ostep_fault h (fun x hx => ?_)
      have h3 : exec net (os ++ [o]) = some x := by
        unfold exec
        rw [runFrom_append]
        have := C80_refines (net := net) (pend := pend) h1
        unfold exec at this
        rw [this]
        simpa only [runFrom_single] using hx
      obtain ⟨y, e, -⟩ := run_ok hsafe hb hfit hk hsky hl h3
      exact ⟨y, e⟩

variable [Zero P] [Add P]

theorem aloha_strict_run (lost : P → P → Bool) (r : Aloha.Sys P) (os : List (Aloha.Op P)) :
    runFrom (fun r o => (Aloha.step false lost r o).map Outcome.ok) r os = (Aloha.execFrom false lost r os).map .ok := by
  induction os generalizing r with
  | nil => rfl
  | cons o os ih =>
    simp only [runFrom, Aloha.execFrom]
    cases Aloha.step false lost r o with
    | none => rfl
    | some x => exact ih x

/-- Satellites with the Aloha MAC whose threshold prevents capture (`Drops`), in the event order of ns-3.  If every
frame heard by a satellite lasts longer than the propagation delays to it, then, when nothing is scheduled any more, each satellite has passed up
exactly the frames that overlap no other frame heard by it, each once, at its end; frames may follow each other without a gap. -/
theorem C80_aloha {net : Net D G V W P (Aloha.Sys P)} {lost : P → P → Bool} (hrx : net.rx = alohaReceiver lost)
    {Q : P → Prop} (hlost : Aloha.Drops lost Q)
    (hb : Built net.endian hasOrbit cid n m hist as k) (hfit : Fits16 cid n m)
    (hk : net.chan.constellation = some k) (hsky : Sky net w) (hm : ∀ g, Once (net.mac g) (wait g)) {ops : List (Op D G W)}
    (hl : Launched net hist as ops) {r : Outcome (OSys D G W (Aloha.Sys P))} (h : oexec net Aloha.Sys.pending ops = some r) :
    ∃ s, r = .ok s ∧ (Quiet net s.sys →
      ((s.sys.heard : Multiset (Nat × D × Flight W)) = ∑ g, (((Fifo.serve Entry.len (wait g) 0 0 (s.sys.stations g).accepted).filterMap
        (lands net.addr w (target hist as) g) : List _) : Multiset (Nat × D × Flight W))) ∧
      ((∀ y ∈ s.sys.heard, ∀ t g, w.delay t g y.2.1 < y.2.2.len) → (∀ y ∈ s.sys.heard, Q (net.toP y.2.2.power)) →
        ∀ d, (passedUp net s.sys d).Perm (undisturbed d s.sys.heard))) := by
  obtain ⟨s, rfl⟩ := orun_ok (by rw [hrx]; exact safe_map rfl) hb hfit hk hsky hl h
  refine ⟨s, rfl, fun hq => ?_⟩
  have h0 := C80_refines h
  obtain ⟨s0, e0, h58⟩ := C58_aloha_uplink_partial hrx hlost hb hfit hk hsky hm hl h0
  simp only [Outcome.ok.injEq] at e0
  subst e0
  refine ⟨(h58 hq).1, fun hlen hpow d => ?_⟩
  have he : Ends net.rx Aloha.Sys.pending (fun r o => (Aloha.step false lost r o).map .ok) := by rw [hrx]; exact aloha_ends lost
  obtain ⟨rops, h1, h2⟩ := C80_ends_first he hb hfit hk hsky hl h hlen d
  rw [aloha_strict_run, Option.map_eq_some_iff] at h1
  obtain ⟨r1, h1, e⟩ := h1
  simp only [Outcome.ok.injEq] at e
  subst e
  have hinit : net.rx.init = Aloha.Sys.init := by rw [hrx]; rfl
  rw [hinit] at h1
  have hpend : (s.sys.sats d).pending = [] := by
    have := hq.2.2 d
    rw [hrx] at this
    exact List.map_eq_nil_iff.mp this
  refine passedUp_undisturbed hrx hlost h1 h2 (fun y hy => ?_) hpow hpend
  have : y ∈ (s.sys.heard : Multiset (Nat × D × Flight W)) := hy
  rw [(h58 hq).1, Multiset.mem_sum] at this
  obtain ⟨g, -, -⟩ := this
  exact Nat.lt_of_le_of_lt (Nat.zero_le _) (hlen y hy 0 g)

/-- Slotted Aloha with frames that may fill what the spread of the delays leaves of the slot, in the event order of ns-3: if all frames last longer
than the delays, each satellite has passed up exactly the frames that were the only ones to reach it among those sent in the same slot. -/
theorem C80_full_slots {net : Net D G V W P (Aloha.Sys P)} {lost : P → P → Bool} (hrx : net.rx = alohaReceiver lost)
    {Q : P → Prop} (hlost : Aloha.Drops lost Q)
    (hb : Built net.endian hasOrbit cid n m hist as k) (hfit : Fits16 cid n m)
    (hk : net.chan.constellation = some k) (hsky : Sky net w)
    {slot : Nat} (hs : 0 < slot) (hs64 : slot < 2 ^ 64) (hm : ∀ g, net.mac g = alohaMac slot)
    {lo hi : D → Nat} (hdelay : ∀ t g d, lo d ≤ w.delay t g d ∧ w.delay t g d ≤ hi d) {ops : List (Op D G W)}
    (hl : Launched net hist as ops) {r : Outcome (OSys D G W (Aloha.Sys P))} (h : oexec net Aloha.Sys.pending ops = some r) :
    ∃ s, r = .ok s ∧ (Quiet net s.sys → (∀ y ∈ s.sys.heard, Q (net.toP y.2.2.power)) →
      (∀ g d, ∀ y ∈ (s.sys.stations g).accepted, hi d < y.2.len ∧ y.2.len + (hi d - lo d) ≤ slot) →
      ∀ d, (passedUp net s.sys d : Multiset (Nat × Flight W)) =
        ∑ g, ((((inSlots slot (s.sys.stations g).accepted).filter (fun y => decide
          (Alone w (target hist as) (fun h => inSlots slot (s.sys.stations h).accepted) g d y.1))).filterMap
            (receipt net.addr w (target hist as) g d) : List _) : Multiset (Nat × Flight W))) := by
  have honce : ∀ g, Once (net.mac g) (fun _ => toNextSlot slot) := fun g => by rw [hm g]; exact aloha_toNextSlot slot hs hs64
  obtain ⟨s, rfl, hq⟩ := C80_aloha hrx hlost hb hfit hk hsky honce hl h
  refine ⟨s, rfl, ?_⟩
  intro q hpow hlen d
  obtain ⟨hheard, hpass⟩ := hq q
  obtain ⟨-, -, h3⟩ := slotted_sum hs hdelay hheard (fun g d y hy => ⟨by have := (hlen g d y hy).1; omega, (hlen g d y hy).2⟩) d
  refine h3 (hpass (fun y hy t g => ?_) hpow d)
  have : y ∈ (s.sys.heard : Multiset (Nat × D × Flight W)) := hy
  rw [hheard, Multiset.mem_sum] at this
  obtain ⟨g', -, hg'⟩ := this
  rw [Multiset.mem_coe, List.mem_filterMap] at hg'
  obtain ⟨z, hz, e⟩ := hg'
  obtain ⟨-, -, e2, -⟩ := lands_eq_some e
  have hz2 : z.2 ∈ (Fifo.serve Entry.len (fun _ => toNextSlot slot) 0 0 (s.sys.stations g').accepted).map Prod.snd := List.mem_map_of_mem hz
  rw [Fifo.serve_packets, List.mem_map] at hz2
  obtain ⟨x, hx, e3⟩ := hz2
  rw [e2, ← e3]
  exact Nat.lt_of_le_of_lt (hdelay t g y.2.1).2 (hlen g' y.2.1 x hx).1

end

/-- The same claim with frames that may be shorter than the delays. -/
def C80_claim : Prop :=
  ∀ (n : Nat) (net : Net (Fin 2) (Fin n) Nat Int Int (Aloha.Sys Int)) (hist : List (Nat × Nat × Fin 2)) (as : List SatAddress) (k : Constellation (Fin 2))
    (w : World (Fin 2) (Fin n) Int) (slot : Nat) (lo hi : Fin 2 → Nat) (ops : List (Op (Fin 2) (Fin n) Int)) (s : OSys (Fin 2) (Fin n) Int (Aloha.Sys Int)),
    net.rx = alohaReceiver intLost → (∀ p, 0 < net.toP p) → Built net.endian (fun _ => true) 1 1 2 hist as k → net.chan.constellation = some k →
    Sky net w → 0 < slot → slot < 2 ^ 64 → (∀ g, net.mac g = alohaMac slot) → (∀ t g d, lo d ≤ w.delay t g d ∧ w.delay t g d ≤ hi d) →
    Launched net hist as ops → oexec net Aloha.Sys.pending ops = some (.ok s) → Quiet net s.sys →
    (∀ g d, ∀ y ∈ (s.sys.stations g).accepted, hi d - lo d < y.2.len ∧ y.2.len + (hi d - lo d) ≤ slot) →
    ∀ d, (passedUp net s.sys d : Multiset (Nat × Flight Int)) =
      ∑ g, ((((inSlots slot (s.sys.stations g).accepted).filter (fun y => decide
        (Alone w (target hist as) (fun h => inSlots slot (s.sys.stations h).accepted) g d y.1))).filterMap
          (receipt net.addr w (target hist as) g d) : List _) : Multiset (Nat × Flight Int))

/-- The claim is false: slots of 10 ticks, delays of 25. -/
theorem C80_claim_false : ¬ C80_claim := by
  intro hc
  obtain ⟨s, h1, h2, h3, h4⟩ : ∃ s, oexec (fullNet 10) Aloha.Sys.pending fullOps = some (.ok s) ∧ Quiet (fullNet 10) s.sys ∧
      (∀ g, ∀ y ∈ (s.sys.stations g).accepted, y.2.len = 10) ∧ passedUp (fullNet 10) s.sys 0 = [] ∧
      (inSlots 10 (s.sys.stations 2).accepted).filter (fun y => decide
        (Alone fullWorld (target [(0, 1, (1 : Fin 2)), (0, 0, 0)] [SatAddress.mk3 .little 1 0 1, SatAddress.mk3 .little 1 0 0])
          (fun h => inSlots 10 (s.sys.stations h).accepted) 2 0 y.1)) = [(10, ⟨13, 10, SatAddress.mk3 .little 1 0 0, 7, 30⟩)] := by
    refine ⟨_, rfl, ?_⟩; unfold Quiet; decide
  have := hc 3 (fullNet 10) _ _ exConstellation fullWorld 10 (fun _ => 25) (fun _ => 25) fullOps s rfl (fun p => by simp only [fullNet]; omega)
    exBuilt rfl (fullSky 10) (by omega) (by omega) (fun _ => rfl) (fun _ _ _ => ⟨le_refl _, le_refl _⟩) (by unfold Launched; decide) h1 h2
    (fun g d y hy => by rw [h3 g y hy]; decide) 0
  rw [h4.1, Multiset.coe_nil] at this
  have h0 := (Finset.sum_eq_zero_iff.mp this.symm) 2 (Finset.mem_univ _)
  rw [h4.2] at h0
  exact absurd h0 (by decide)

/-! ## CRDSA -/

section
variable [Fintype G] [Fintype D] [DecidableEq G] [DecidableEq D]
variable {hasOrbit : D → Bool} {cid n m : Nat} {hist : List (Nat × Nat × D)} {as : List SatAddress} {k : Constellation D}
  {w : World D G W} [Zero P] [Add P]

theorem crdsa_strict_run (lost : P → P → Bool) (F : Nat) (r : Crdsa.Sys P) (os : List (Aloha.Op P)) :
    runFrom (Crdsa.step true false lost F) r os = Crdsa.execFrom true false lost F r os := by
  induction os generalizing r with
  | nil => rfl
  | cons o os ih =>
    simp only [runFrom, Crdsa.execFrom]
    cases Crdsa.step true false lost F r o with
    | none => rfl
    | some x => cases x <;> first | rfl | exact ih _

/-- CRDSA with at most two replicas and frames that may fill what the spread of the delays leaves of the slot, in the event order of ns-3, if all frames
last longer than the delays.  Nothing ever fails.  When nothing is scheduled any more, each satellite has passed up exactly the packets that can be
decoded, slot by slot, from what reached it, each once. -/
theorem C80_crdsa_full_slots {net : Net D G V W P (Crdsa.Sys P)} {lost : P → P → Bool} {slot slots : Nat}
    (hrx : net.rx = crdsaReceiver lost (slot * slots))
    {Q : P → Prop} (hlost : Aloha.Drops lost Q) (hb : Built net.endian hasOrbit cid n m hist as k) (hfit : Fits16 cid n m)
    (hk : net.chan.constellation = some k) (hsky : Sky net w)
    (hs : 0 < slot) (hn : 0 < slots) (h64 : slot * slots < 2 ^ 64) {shuffle : G → Nat → List Nat} {replicas : G → Nat → Nat}
    (hm : ∀ g, IsCrdsa (net.mac g) slot slots (shuffle g) (replicas g)) (htwo : ∀ g k, replicas g k ≤ 2)
    {lo hi : D → Nat} (hdelay : ∀ t g d, lo d ≤ w.delay t g d ∧ w.delay t g d ≤ hi d) {ops : List (Op D G W)}
    (hl : Launched net hist as ops) (hdist : Distinct net ops) (hpow : ∀ g d, ∀ y ∈ given net ops g, ∀ t, Q (net.toP (w.power t g d y.2.power)))
    (hlen : ∀ g d, ∀ y ∈ given net ops g, hi d < y.2.len ∧ y.2.len + (hi d - lo d) ≤ slot)
    {r : Outcome (OSys D G W (Crdsa.Sys P))} (h : oexec net Crdsa.Sys.pending ops = some r) :
    ∃ s, r = .ok s ∧ (Quiet net s.sys → ∀ d, ((net.rx.delivered (s.sys.sats d)).map Prod.snd).Nodup ∧
      ∀ u, u ∈ (net.rx.delivered (s.sys.sats d)).map Prod.snd ↔
        Decodable (InSlot slot slots w (target hist as) (fun g k => (shuffle g k).take (replicas g k)) (fun g => (s.sys.stations g).handed) d) u) := by
  have hkey : ∀ i u, net.rx.key i u = u := by intro i u; rw [hrx]; rfl
  have hinit : net.rx.init = Crdsa.Sys.init := by rw [hrx]; rfl
  have he : Ends net.rx Crdsa.Sys.pending (Crdsa.step true false lost (slot * slots)) := by rw [hrx]; exact crdsa_ends lost _
  have hle : ∀ (os : List (Op D G W)), (∀ g d, ∀ y ∈ given net os g, hi d < y.2.len ∧ y.2.len + (hi d - lo d) ≤ slot) →
      ∀ g d, ∀ y ∈ given net os g, hi d - lo d < y.2.len ∧ y.2.len + (hi d - lo d) ≤ slot :=
    fun os h g d y hy => ⟨by have := (h g d y hy).1; omega, (h g d y hy).2⟩
  -- the receivers, at every state
  have hrun : ∀ (os : List (Op D G W)) (s : OSys D G W (Crdsa.Sys P)), oexec net Crdsa.Sys.pending os = some (.ok s) → Launched net hist as os →
      Distinct net os → (∀ g d, ∀ y ∈ given net os g, ∀ t, Q (net.toP (w.power t g d y.2.power))) →
      (∀ g d, ∀ y ∈ given net os g, hi d < y.2.len ∧ y.2.len + (hi d - lo d) ≤ slot) → ∀ d,
      ∃ rops, Crdsa.exec true false lost (slot * slots) rops = some (.ok (s.sys.sats d)) ∧ Aloha.frames rops = framesAt net d s.sys.heard ∧
        CrdsaTraffic slot slots (lo d) (hi d - lo d) (framesAt net d s.sys.heard) ∧ ∀ f ∈ framesAt net d s.sys.heard, Q f.pow := by
    intro os s hos hl hd hpow hlen d
    have hex := C80_refines hos
    have htr := fun d => traffic_at hkey hb hfit hk hsky hs hn h64 hm htwo hdelay hex hl hd (hle os hlen) (L := s.sys.heard)
      (Multiset.le_add_right _ _) d
    obtain ⟨rops, h1, h2⟩ := C80_ends_first he hb hfit hk hsky hl hos (fun y hy t g => by
      obtain ⟨g', z, hz, e, -⟩ := (htr y.2.1).2 ⟨y.2.2.pkt, y.1, y.2.2.len, net.toP y.2.2.power⟩ (by
        rw [framesAt_pkt net hkey, List.mem_filterMap]
        exact ⟨y, hy, by rw [if_pos rfl]⟩)
      simp only at e
      have := (hlen g' y.2.1 z hz).1
      have := (hdelay t g y.2.1).2
      omega) d
    rw [crdsa_strict_run, hinit] at h1
    refine ⟨rops, h1, h2, (htr d).1, fun f hf => ?_⟩
    obtain ⟨g, y, hy, -, t, e⟩ := (htr d).2 f hf
    rw [e]
    exact hpow g d y hy t
  -- no failure
  have hok : ∃ s, r = .ok s := by
    induction ops using List.reverseRecOn generalizing r with
    | nil =>
      simp only [oexec, runFrom, Option.some.injEq] at h
      exact ⟨_, h.symm⟩
    | append_singleton os o ih =>
      unfold oexec at h
      rw [runFrom_append] at h
      cases h1 : runFrom (ostep net Crdsa.Sys.pending) ⟨Sys.init net, []⟩ os with
      | none => simp [h1] at h
      | some r1 =>
        have hlen' : ∀ g d, ∀ y ∈ given net os g, hi d < y.2.len ∧ y.2.len + (hi d - lo d) ≤ slot :=
          fun g d y hy => hlen g d y ((given_left net os [o] g).subset hy)
        have hpow' : ∀ g d, ∀ y ∈ given net os g, ∀ t, Q (net.toP (w.power t g d y.2.power)) :=
          fun g d y hy => hpow g d y ((given_left net os [o] g).subset hy)
        obtain ⟨s, rfl⟩ := ih hl.left hdist.left hpow' hlen' h1
        have hex := C80_refines (net := net) h1
        simp only [h1, runFrom_single] at h
        refine ostep_fault h (fun x hx => ?_)
        cases o with
        | arrive =>
          simp only [step] at hx
          split at hx
          · simp at hx
          · split at hx
            · split at hx
              · simp at hx
              · rename_i y hy
                obtain ⟨r', rfl, -⟩ := he.arrived _ _ _ hy
                simp only [Option.some.injEq] at hx
                exact ⟨_, hx.symm⟩
            · simp at hx
        | finish d =>
          simp only [step] at hx
          split at hx
          · simp at hx
          · split at hx
            · split at hx
              · simp at hx
              · rename_i y hy
                obtain ⟨rops, hr1, hr2, hr3⟩ := hrun os s h1 hl.left hdist.left hpow' hlen' d
                have hr4 : Crdsa.exec true false lost (slot * slots) (rops ++ [.finish]) = some y := by
                  unfold Crdsa.exec at hr1 ⊢
                  rw [← crdsa_strict_run] at hr1 ⊢
                  rw [runFrom_append, hr1]
                  simp only [runFrom_single]
                  rw [he.finish]; exact hy
                obtain ⟨⟨r', rfl⟩, -⟩ := exec_defined hlost hr4 (by
                  rw [Aloha.frames_append, hr2]
                  simpa [Aloha.frames] using hr3.1) (by
                  rw [Aloha.frames_append, hr2]
                  simpa [Aloha.frames] using hr3.2)
                simp only [Option.some.injEq] at hx
                exact ⟨_, hx.symm⟩
            · simp at hx
        | station g o =>
          obtain ⟨s', e, -⟩ := step_station_ok hb hfit hk hsky hl hex (account hb hfit hk hsky hl.left hex) hx
          exact ⟨s', e⟩
  obtain ⟨s, rfl⟩ := hok
  refine ⟨s, rfl, fun q d => ?_⟩
  obtain ⟨q1, q2, q3⟩ := q
  obtain ⟨rops, hr1, hr2, hr3⟩ := hrun ops s h hl hdist hpow hlen d
  obtain ⟨s', e, hrec⟩ := receiver_ends_first hlost hr1 (by rw [hr2]; exact hr3.1) (by rw [hr2]; exact hr3.2)
  rw [Outcome.ok.injEq] at e
  subst e
  have hidle : (s.sys.sats d).pending = [] := by
    have := q3 d
    rw [hrx] at this
    simpa [crdsaReceiver] using this
  obtain ⟨hdec, hnodup⟩ := hrec hidle
  have hdel : net.rx.delivered (s.sys.sats d) = (s.sys.sats d).delivered := by rw [hrx]; rfl
  rw [hdel]
  refine ⟨hnodup, fun u => (hdec u).trans ?_⟩
  rw [hr2]
  exact decodable_slots hkey hb hfit hk hsky hs hn h64 hm hdelay (C80_refines h) hl (hle ops hlen) q1 q2 d u

end

/-! ## Examples -/

/-- The stations of `fullNet` with a delay of 3 ticks. -/
def nearWorld : World (Fin 2) (Fin 3) Int := ⟨fun _ _ _ => 3, fun _ _ _ p => p, fun _ _ _ => true⟩

def nearNet {R : Type} (rx : Receiver Int R) (mac : Fin 3 → GroundSta.Mac) : Net (Fin 2) (Fin 3) Nat Int Int R :=
  ⟨true, .little, ⟨some exConstellation, [0, 1, 2]⟩,
    fun _ => ⟨fun g => some g.val, fun d => some d.val, some (fun _ _ => 3), some (fun p _ _ => p), some (fun _ _ => .ok true)⟩,
    fun g => ⟨1, [UInt8.ofNat g.val]⟩, mac, fun _ _ _ => true,
    fun _ => SatAddress.mk3 .little 1 0 0, fun _ => 30, rx, fun p => p.natAbs + 1⟩

theorem nearSky {R : Type} (rx : Receiver Int R) (mac : Fin 3 → GroundSta.Mac) : Sky (nearNet rx mac) nearWorld :=
  fun _ g d => ⟨g.val, d.val, fun _ _ => 3, fun p _ _ => p, ⟨rfl, rfl, rfl, rfl⟩, rfl, fun _ => rfl, Or.inr ⟨_, rfl, rfl⟩⟩

def nearAloha : Net (Fin 2) (Fin 3) Nat Int Int (Aloha.Sys Int) := nearNet (alohaReceiver intLost) (fun _ => alohaMac 10)

/-- Stations 0 and 1 send in the first slot, station 2 in the second; frames fill the slots.  The ends of the first receptions were scheduled at 3,
the arrival due at the same time at 10. -/
def nearOps : List (Op (Fin 2) (Fin 3) Int) :=
  [.station 0 (.send 0 11 10 7), .station 1 (.send 0 12 10 7), .station 0 .run, .station 1 .run, .arrive, .arrive, .station 0 .run, .station 1 .run,
   .station 2 (.send 10 13 10 7), .station 2 .run, .finish 0, .finish 0, .arrive, .station 2 .run, .finish 0]

/-- All hypotheses of `C80_full_slots` hold here; the frame of station 2 is passed up. -/
example : ∃ s, oexec nearAloha Aloha.Sys.pending nearOps = some (.ok s) ∧ Quiet nearAloha s.sys ∧
    (∀ g, ∀ y ∈ (s.sys.stations g).accepted, 3 < y.2.len ∧ y.2.len ≤ 10) ∧ (∀ y ∈ s.sys.heard, 3 < y.2.2.len) ∧
    (passedUp nearAloha s.sys 0).map (fun y => (y.1, y.2.pkt)) = [(23, 13)] := by
  refine ⟨_, rfl, ?_⟩; unfold Quiet; decide

example : Launched nearAloha [(0, 1, (1 : Fin 2)), (0, 0, 0)] [SatAddress.mk3 .little 1 0 1, SatAddress.mk3 .little 1 0 0] nearOps := by
  unfold Launched; decide

example (rx : Receiver Int (Aloha.Sys Int)) (p : Int) : 0 < (nearNet rx (fun _ => alohaMac 10)).toP p := by simp only [nearNet]; omega

/-- The other order, in which the frame of station 2 would be lost, is possible without regard to when events were scheduled, but not in ns-3. -/
def nearOther : List (Op (Fin 2) (Fin 3) Int) :=
  [.station 0 (.send 0 11 10 7), .station 1 (.send 0 12 10 7), .station 0 .run, .station 1 .run, .arrive, .arrive, .station 0 .run, .station 1 .run,
   .station 2 (.send 10 13 10 7), .station 2 .run, .arrive, .finish 0, .finish 0, .station 2 .run, .finish 0]

example : (∃ s, exec nearAloha nearOther = some (.ok s) ∧ passedUp nearAloha s 0 = []) ∧
    (oexec nearAloha Aloha.Sys.pending nearOther).isNone = true := by
  refine ⟨⟨_, rfl, ?_⟩, ?_⟩ <;> decide

/-- In `fullNet` the delays are longer than the frames, and ns-3 runs the arrival first. -/
example : (oexec (fullNet 10) Aloha.Sys.pending
    [.station 0 (.send 0 11 10 7), .station 1 (.send 0 12 10 7), .station 0 .run, .station 1 .run, .station 0 .run, .station 1 .run,
     .station 2 (.send 10 13 10 7), .station 2 .run, .station 2 .run, .arrive, .arrive, .finish 0]).isNone = true := by
  decide

def nearCrdsa : Net (Fin 2) (Fin 3) Nat Int Int (Crdsa.Sys Int) := nearNet (crdsaReceiver intLost (10 * 4)) crdsaMac

/-- One packet at stations 0 and 1, frames fill the slots: both collide in the first slot, station 0 repeats in the second, station 1 in the third. -/
def nearCrdsaOps : List (Op (Fin 2) (Fin 3) Int) :=
  [.station 0 (.send 0 11 10 7), .station 1 (.send 0 12 10 7), .station 0 .run, .station 1 .run, .arrive, .arrive, .station 0 .run, .station 1 .run,
   .station 0 .run, .finish 0, .finish 0, .arrive, .station 0 .run, .station 1 .run, .finish 0, .arrive, .station 1 .run, .finish 0]

example : ∃ s, oexec nearCrdsa Crdsa.Sys.pending nearCrdsaOps = some (.ok s) ∧ Quiet nearCrdsa s.sys ∧
    nearCrdsa.rx.delivered (s.sys.sats 0) = [(23, 11), (23, 12)] := by
  refine ⟨_, rfl, ?_⟩; unfold Quiet; decide

/-- All hypotheses of `C80_crdsa_full_slots` hold here. -/
example : ∃ s, oexec nearCrdsa Crdsa.Sys.pending nearCrdsaOps = some (.ok s) ∧
    (Quiet nearCrdsa s.sys → ∀ d, ((nearCrdsa.rx.delivered (s.sys.sats d)).map Prod.snd).Nodup ∧
      ∀ u, u ∈ (nearCrdsa.rx.delivered (s.sys.sats d)).map Prod.snd ↔
        Decodable (InSlot 10 4 nearWorld (target [(0, 1, (1 : Fin 2)), (0, 0, 0)] [SatAddress.mk3 .little 1 0 1, SatAddress.mk3 .little 1 0 0])
          (fun g k => (exShuffle g k).take 2) (fun g => (s.sys.stations g).handed) d) u) := by
  obtain ⟨s, h⟩ : ∃ s, oexec nearCrdsa Crdsa.Sys.pending nearCrdsaOps = some (.ok s) := ⟨_, rfl⟩
  obtain ⟨s', e, h'⟩ := C80_crdsa_full_slots (w := nearWorld) (lo := fun _ => 3) (hi := fun _ => 3) (net := nearCrdsa) (slot := 10) (slots := 4) rfl
    intLost_drops exBuilt (by unfold Fits16; decide) rfl (nearSky _ _) (by omega) (by omega) (by omega) crdsaMac_crdsa (fun _ _ => le_refl _)
    (fun _ _ _ => ⟨le_refl _, le_refl _⟩) (ops := nearCrdsaOps) (by unfold Launched; decide) (by unfold Distinct; decide)
    (fun _ _ _ _ _ => by simp only [nearCrdsa, nearNet]; omega) (by decide) h
  rw [Outcome.ok.injEq] at e
  subst e
  exact ⟨s, h, h'⟩

end Uplink
end Icarus
