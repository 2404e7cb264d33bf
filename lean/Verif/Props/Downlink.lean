import Verif.Model.Downlink
import Verif.Lemmas.Multi
import Verif.Props.Sat2GroundDevice
import Verif.Props.GroundStaRx
import Verif.Props.GroundSatChannel
import Mathlib.Algebra.Order.Group.Multiset

/-!
# Downlink, end to end (C59)
-/

set_option autoImplicit false

namespace Icarus
namespace Downlink
open GroundSatChannel
open Sat2Ground (Entry Phase)

variable {D G V W : Type}

/-! ## Specification -/

/-- What happens between a satellite and a ground device at a given time: propagation delay, received power, whether the success model lets the
frame through. -/
structure World (D G W : Type) where
  delay : Nat → G → D → Nat
  power : Nat → G → D → W → W
  admit : Nat → G → D → Bool

/-- All positions and models exist and behave as described by `w`. -/
def Sky (net : Net D G V W) (w : World D G W) : Prop :=
  ∀ t g d, ∃ pg ps delay loss, Equipped (net.air t) g d pg ps delay loss ∧ w.delay t g d = delay pg ps ∧
    (∀ p, w.power t g d p = loss p pg ps) ∧
    (((net.air t).success = none ∧ w.admit t g d = true) ∨ ∃ m, (net.air t).success = some m ∧ m g d = .ok (w.admit t g d))

/-- When and how a frame broadcast by `d` at `y.1` arrives at `g`, if it does. -/
def lands (net : Net D G V W) (w : World D G W) (d : D) (y : Nat × Entry W) (g : G) : Option (Nat × G × Flight W) :=
  if w.admit y.1 g d then
    some (y.1 + w.delay y.1 g d, g, ⟨y.2.pkt, y.2.len, (net.addr d).convertTo net.endian net.ty, y.2.proto, w.power y.1 g d y.2.power⟩)
  else none

/-- The report on the channel's drop trace about the copy for `g`, if there is one. -/
def lostAt (w : World D G W) (d : D) (y : Nat × Entry W) (g : G) : Option (Nat × Nat) :=
  if w.admit y.1 g d then none else some (y.1, y.2.pkt)

/-- The operations of one satellite. -/
def opsOf [DecidableEq D] (d : D) (ops : List (Op D G W)) : List (Sat2Ground.Op W) :=
  ops.filterMap (fun o => match o with | .sat h o => if h = d then some o else none | _ => none)

/-- The changes of the tracked address at one station, with their times. -/
def tracks [DecidableEq G] (g : G) (ops : List (Op D G W)) : List (Nat × SatAddress) :=
  ops.filterMap (fun o => match o with | .track h t a => if h = g then some (t, a) else none | _ => none)

/-- The address tracked at time `t`: the last one set up to then, or the initial one. -/
def trackedAt (a : SatAddress) (l : List (Nat × SatAddress)) (t : Nat) : SatAddress :=
  ((l.filter (fun y => decide (y.1 ≤ t))).getLast?.map Prod.snd).getD a

/-! ## One station -/

/-- The address changes among the operations of a single station. -/
def tracksRx : List GroundStaRx.Op → List (Nat × SatAddress)
  | [] => []
  | .setRemote t a :: os => (t, a) :: tracksRx os
  | _ :: os => tracksRx os

/-- The arrivals among the operations of a single station: time, transmission time, frame. -/
def arrivalsRx : List GroundStaRx.Op → List (Nat × Nat × GroundStaRx.Up)
  | [] => []
  | .arrive t pkt len src proto :: os => (t, len, ⟨pkt, src, proto⟩) :: arrivalsRx os
  | _ :: os => arrivalsRx os

theorem tracksRx_append (a b : List GroundStaRx.Op) : tracksRx (a ++ b) = tracksRx a ++ tracksRx b := by
  induction a with
  | nil => rfl
  | cons o os ih => cases o <;> simp [tracksRx, ih]

theorem arrivalsRx_append (a b : List GroundStaRx.Op) : arrivalsRx (a ++ b) = arrivalsRx a ++ arrivalsRx b := by
  induction a with
  | nil => rfl
  | cons o os ih => cases o <;> simp [arrivalsRx, ih]

theorem trackedRx_eq (a : SatAddress) (ops : List GroundStaRx.Op) : trackedRx a ops = ((tracksRx ops).getLast?.map Prod.snd).getD a := by
  induction ops using List.reverseRecOn with
  | nil => rfl
  | append_singleton os o ih =>
    rw [trackedRx_append, tracksRx_append]
    cases o <;> simp [trackedRx, tracksRx, ih]

/-- A frame is passed up when it comes from the satellite tracked at its arrival. -/
def rxReceipt (e : Endian) (ty : UInt8) (a : SatAddress) (l : List (Nat × SatAddress)) (y : Nat × Nat × GroundStaRx.Up) :
    Option (Nat × GroundStaRx.Up) :=
  if y.2.2.src = (trackedAt a l y.1).convertTo e ty then some (y.1 + y.2.1, y.2.2) else none

theorem step_clock {debug : Bool} {e : Endian} {ty : UInt8} {s s' : GroundStaRx.Sys} {t : Nat} {o : GroundStaRx.Op}
    (h : GroundStaRx.step debug e ty s o = some (.ok s'))
    (ho : (∃ pkt len src proto, o = .arrive t pkt len src proto) ∨ ∃ a, o = .setRemote t a) : s.clock ≤ t ∧ s'.clock = t := by
  rcases ho with ⟨pkt, len, src, proto, rfl⟩ | ⟨a, rfl⟩
  · simp only [GroundStaRx.step] at h
    split at h
    · rename_i hp
      refine ⟨hp.1, ?_⟩
      simp only [Option.some.injEq] at h
      unfold GroundStaRx.receiveFromSat at h
      rw [Outcome.bind_eq_ok] at h
      obtain ⟨b, -, h⟩ := h
      split at h <;> (simp only [Outcome.ok.injEq] at h; rw [← h])
    · simp at h
  · simp only [GroundStaRx.step] at h
    split at h
    · rename_i hp
      refine ⟨hp.1, ?_⟩
      simp only [Option.some.injEq, Outcome.ok.injEq] at h
      rw [← h]
    · simp at h

/-- The events of a station lie ahead, in order. -/
def Ahead (s : GroundStaRx.Sys) : Prop := (∀ e ∈ s.pending, s.clock ≤ e.1) ∧ s.pending.Pairwise (fun x y => x.1 ≤ y.1)

theorem Ahead.step {debug : Bool} {e : Endian} {ty : UInt8} {s s' : GroundStaRx.Sys} {o : GroundStaRx.Op} (ha : Ahead s)
    (h : GroundStaRx.step debug e ty s o = some (.ok s')) : Ahead s' ∧ s.clock ≤ s'.clock := by
  obtain ⟨h1, h2⟩ := ha
  cases o with
  | run =>
    simp only [GroundStaRx.step] at h
    split at h
    · simp at h
    · rename_i t u es hp
      simp only [Option.some.injEq, Outcome.ok.injEq] at h
      subst h
      rw [hp] at h1 h2
      rw [List.pairwise_cons] at h2
      exact ⟨⟨fun x hx => h2.1 x hx, h2.2⟩, h1 (t, u) (by simp)⟩
  | setRemote t b =>
    simp only [GroundStaRx.step] at h
    split at h
    · rename_i hp
      simp only [Option.some.injEq, Outcome.ok.injEq] at h
      subst h
      exact ⟨⟨hp.2, h2⟩, hp.1⟩
    · simp at h
  | arrive t pkt len src proto =>
    simp only [GroundStaRx.step] at h
    split at h
    · rename_i hp
      simp only [Option.some.injEq] at h
      unfold GroundStaRx.receiveFromSat at h
      rw [Outcome.bind_eq_ok] at h
      obtain ⟨b, -, h⟩ := h
      split at h
      · simp only [Outcome.ok.injEq] at h
        subst h
        refine ⟨⟨?_, sorted_insertEvent h2⟩, hp.1⟩
        intro x hx
        rcases mem_insertEvent.mp hx with rfl | hx
        · simp
        · exact hp.2 x hx
      · simp only [Outcome.ok.injEq] at h
        subst h
        exact ⟨⟨hp.2, h2⟩, hp.1⟩
    · simp at h

theorem ahead_exec {debug : Bool} {e : Endian} {ty : UInt8} {a : SatAddress} {ops : List GroundStaRx.Op} {s : GroundStaRx.Sys}
    (h : GroundStaRx.exec debug e ty a ops = some (.ok s)) : Ahead s := by
  refine run_induction (P := fun _ s => Ahead s) ?_ ?_ h
  · simp [Ahead, GroundStaRx.Sys.init]
  · intro ops o s s' _ hp hst
    exact (hp.step hst).1

/-- In an execution whose arrivals and address changes never coincide, what should be passed up is determined by the times alone. -/
theorem expected_by_time {debug : Bool} {e : Endian} {ty : UInt8} {a : SatAddress} {ops : List GroundStaRx.Op} {s : GroundStaRx.Sys}
    (hne : ∀ y ∈ arrivalsRx ops, ∀ c ∈ tracksRx ops, c.1 ≠ y.1) (hrun : GroundStaRx.exec debug e ty a ops = some (.ok s)) :
    expected e ty a ops = (arrivalsRx ops).filterMap (rxReceipt e ty a (tracksRx ops)) ∧ (∀ y ∈ arrivalsRx ops, y.1 ≤ s.clock) ∧
      (∀ y ∈ tracksRx ops, y.1 ≤ s.clock) := by
  induction ops using List.reverseRecOn generalizing s with
  | nil => simp [expected, arrivalsRx, tracksRx]
  | append_singleton os o ih =>
    unfold GroundStaRx.exec at hrun
    obtain ⟨s1, h1, h2⟩ := runFrom_snoc.mp hrun
    obtain ⟨i1, i2, i3⟩ := ih (fun y hy c hc => hne y (by rw [arrivalsRx_append]; simp [hy]) c (by rw [tracksRx_append]; simp [hc])) h1
    rw [expected_append, arrivalsRx_append, tracksRx_append, i1]
    cases o with
    | run =>
      have := ((ahead_exec h1).step h2).2
      refine ⟨by simp [expected, arrivalsRx, tracksRx], ?_, ?_⟩
      · intro y hy; have := i2 y (by simpa [arrivalsRx] using hy); omega
      · intro y hy; have := i3 y (by simpa [tracksRx] using hy); omega
    | arrive t pkt len src proto =>
      obtain ⟨c1, c2⟩ := step_clock h2 (Or.inl ⟨pkt, len, src, proto, rfl⟩)
      refine ⟨?_, ?_, ?_⟩
      · simp only [arrivalsRx, tracksRx, List.append_nil, List.filterMap_append, List.filterMap_cons, List.filterMap_nil, expected]
        congr 1
        have htr : trackedAt a (tracksRx os) t = trackedRx a os := by
          rw [trackedRx_eq]
          unfold trackedAt
          rw [List.filter_eq_self.mpr]
          intro y hy
          have := i3 y hy
          simp only [decide_eq_true_eq]
          omega
        simp only [rxReceipt, htr]
        split <;> simp_all
      · intro y hy
        simp only [arrivalsRx, List.mem_append, List.mem_singleton] at hy
        rcases hy with hy | rfl
        · have := i2 y hy; omega
        · simp [c2]
      · intro y hy
        have := i3 y (by simpa [tracksRx] using hy)
        omega
    | setRemote t b =>
      obtain ⟨c1, c2⟩ := step_clock h2 (Or.inr ⟨b, rfl⟩)
      refine ⟨?_, ?_, ?_⟩
      · simp only [expected, arrivalsRx, List.append_nil, tracksRx]
        refine List.filterMap_congr (fun y hy => ?_)
        have hlt : y.1 < t := by
          have h3 := i2 y hy
          have h4 := hne y (by rw [arrivalsRx_append]; simp [hy]) (t, b) (by rw [tracksRx_append]; simp [tracksRx])
          simp only at h4
          omega
        have : trackedAt a (tracksRx os ++ [(t, b)]) y.1 = trackedAt a (tracksRx os) y.1 := by
          unfold trackedAt
          rw [List.filter_append]
          have : ¬ t ≤ y.1 := by omega
          simp [this]
        simp only [rxReceipt, this]
      · intro y hy
        have := i2 y (by simpa [arrivalsRx] using hy)
        omega
      · intro y hy
        simp only [tracksRx, List.mem_append, List.mem_singleton] at hy
        rcases hy with hy | rfl
        · have := i3 y hy; omega
        · simp [c2]

/-! ## Projections -/

variable [Fintype G] [Fintype D] [DecidableEq G] [DecidableEq D]

theorem step_sat {net : Net D G V W} {s s' : Sys D G W} {d : D} {o : Sat2Ground.Op W} (h : step net s (.sat d o) = some (.ok s')) :
    ∃ t st a, opTime (s.sats d) o = some t ∧ due s t ∧ Sat2Ground.step net.debug (net.accept d) (s.sats d) o = some (.ok st) ∧
      transmitAll net d (st.aired.drop (s.sats d).aired.length) (s.flying, s.dropped) = .ok a ∧
      s' = { s with clock := t, sats := Function.update s.sats d st, flying := a.1, dropped := a.2 } := by
  simp only [step] at h
  split at h
  · simp at h
  · rename_i t ht
    split at h
    · rename_i hd
      split at h
      · simp at h
      · rename_i r hr
        simp only [Option.some.injEq] at h
        rw [Outcome.bind_eq_ok] at h
        obtain ⟨st, rfl, h⟩ := h
        rw [Outcome.bind_eq_ok] at h
        obtain ⟨a, ha, h⟩ := h
        simp only [Outcome.ok.injEq] at h
        exact ⟨t, st, a, ht, hd, hr, ha, h.symm⟩
    · simp at h

theorem step_track {net : Net D G V W} {s s' : Sys D G W} {g : G} {t : Nat} {a : SatAddress} (h : step net s (.track g t a) = some (.ok s')) :
    ∃ st, due s t ∧ GroundStaRx.step net.debug net.endian net.ty (s.stations g) (.setRemote t a) = some (.ok st) ∧
      s' = { s with clock := t, stations := Function.update s.stations g st } := by
  simp only [step] at h
  split at h
  · rename_i hd
    split at h
    · simp at h
    · rename_i r hr
      simp only [Option.some.injEq] at h
      rw [Outcome.bind_eq_ok] at h
      obtain ⟨st, rfl, h⟩ := h
      simp only [Outcome.ok.injEq] at h
      exact ⟨st, hd, hr, h.symm⟩
  · simp at h

theorem step_arrive {net : Net D G V W} {s s' : Sys D G W} (h : step net s .arrive = some (.ok s')) :
    ∃ t g f rest st, s.flying = (t, g, f) :: rest ∧ due s t ∧
      GroundStaRx.step net.debug net.endian net.ty (s.stations g) (.arrive t f.pkt f.len f.src f.proto) = some (.ok st) ∧
      s' = { s with clock := t, flying := rest, stations := Function.update s.stations g st, heard := s.heard ++ [(t, g, f)] } := by
  simp only [step] at h
  split at h
  · simp at h
  · rename_i t g f rest hf
    split at h
    · rename_i hd
      split at h
      · simp at h
      · rename_i r hr
        simp only [Option.some.injEq] at h
        rw [Outcome.bind_eq_ok] at h
        obtain ⟨st, rfl, h⟩ := h
        simp only [Outcome.ok.injEq] at h
        exact ⟨t, g, f, rest, st, hf, hd, hr, h.symm⟩
    · simp at h

theorem step_finish {net : Net D G V W} {s s' : Sys D G W} {g : G} (h : step net s (.finish g) = some (.ok s')) :
    ∃ t u es st, (s.stations g).pending = (t, u) :: es ∧ due s t ∧
      GroundStaRx.step net.debug net.endian net.ty (s.stations g) .run = some (.ok st) ∧
      s' = { s with clock := t, stations := Function.update s.stations g st } := by
  simp only [step] at h
  split at h
  · simp at h
  · rename_i t u es hf
    split at h
    · rename_i hd
      split at h
      · simp at h
      · rename_i r hr
        simp only [Option.some.injEq] at h
        rw [Outcome.bind_eq_ok] at h
        obtain ⟨st, rfl, h⟩ := h
        simp only [Outcome.ok.injEq] at h
        exact ⟨t, u, es, st, hf, hd, hr, h.symm⟩
    · simp at h

omit [Fintype G] [Fintype D] [DecidableEq G] in
theorem opsOf_append (d : D) (a b : List (Op D G W)) : opsOf d (a ++ b) = opsOf d a ++ opsOf d b := by
  simp [opsOf]

omit [Fintype G] [Fintype D] [DecidableEq D] in
theorem tracks_append (g : G) (a b : List (Op D G W)) : tracks g (a ++ b) = tracks g a ++ tracks g b := by
  simp [tracks]

/-- Every satellite, seen alone, does what the model of a single device does with the calls and events that concern it: the theorems about
single devices (C38) hold for each satellite of the network. -/
theorem C59_satellite {net : Net D G V W} {ops : List (Op D G W)} {s : Sys D G W} (h : exec net ops = some (.ok s)) (d : D) :
    Sat2Ground.exec net.debug (net.accept d) (net.power d) (opsOf d ops) = some (.ok (s.sats d)) := by
  refine run_induction (P := fun ops s => Sat2Ground.exec net.debug (net.accept d) (net.power d) (opsOf d ops) =
    some (.ok (s.sats d))) rfl ?_ h
  intro ops o s s' _ hp hst
  rw [opsOf_append]
  cases o with
  | sat d' o =>
    obtain ⟨t, st, a, -, -, h3, -, rfl⟩ := step_sat hst
    by_cases hd : d' = d
    · subst hd
      simp only [opsOf, List.filterMap_cons, List.filterMap_nil, if_true, Function.update_self]
      exact runFrom_snoc.mpr ⟨_, hp, h3⟩
    · simp only [opsOf, List.filterMap_cons, List.filterMap_nil, if_neg hd, List.append_nil]
      rw [Function.update_of_ne (Ne.symm hd)]
      exact hp
  | track g t a =>
    obtain ⟨st, -, -, rfl⟩ := step_track hst
    simpa [opsOf] using hp
  | arrive =>
    obtain ⟨t, g, f, rest, st, -, -, -, rfl⟩ := step_arrive hst
    simpa [opsOf] using hp
  | finish g =>
    obtain ⟨t, u, es, st, -, -, -, rfl⟩ := step_finish hst
    simpa [opsOf] using hp

/-- What station `g` has heard, as operations of a single station see it. -/
def heardAt (g : G) (heard : List (Nat × G × Flight W)) : List (Nat × Nat × GroundStaRx.Up) :=
  heard.filterMap (fun y => if y.2.1 = g then some (y.1, y.2.2.len, ⟨y.2.2.pkt, y.2.2.src, y.2.2.proto⟩) else none)

/-- Every station, seen alone, does what the model of a single station does: its arrivals are what the channel brought, its address changes the
calls made, so that the theorems about a single station (C36) hold for each station of the network. -/
theorem C59_station {net : Net D G V W} {ops : List (Op D G W)} {s : Sys D G W} (h : exec net ops = some (.ok s)) (g : G) :
    ∃ rops, GroundStaRx.exec net.debug net.endian net.ty (net.remote g) rops = some (.ok (s.stations g)) ∧
      arrivalsRx rops = heardAt g s.heard ∧ tracksRx rops = tracks g ops := by
  refine run_induction (P := fun ops s => ∃ rops, GroundStaRx.exec net.debug net.endian net.ty (net.remote g) rops = some (.ok (s.stations g)) ∧
      arrivalsRx rops = heardAt g s.heard ∧ tracksRx rops = tracks g ops) ⟨[], rfl, rfl, rfl⟩ ?_ h
  rintro ops o s s' - ⟨rops, h1, h2, h3⟩ hst
  rw [tracks_append]
  cases o with
  | sat d o =>
    obtain ⟨t, st, a, -, -, -, -, rfl⟩ := step_sat hst
    exact ⟨rops, h1, h2, by simp [tracks] at h3 ⊢; exact h3⟩
  | track g' t a =>
    obtain ⟨st, -, k, rfl⟩ := step_track hst
    by_cases hg : g' = g
    · subst hg
      refine ⟨rops ++ [.setRemote t a], ?_, ?_, ?_⟩
      · simp only [Function.update_self]; exact runFrom_snoc.mpr ⟨_, h1, k⟩
      · rw [arrivalsRx_append, h2]; simp [arrivalsRx]
      · rw [tracksRx_append, h3]; simp [tracksRx, tracks]
    · refine ⟨rops, ?_, h2, ?_⟩
      · simp only; rw [Function.update_of_ne (Ne.symm hg)]; exact h1
      · rw [h3]; simp [tracks, hg]
  | arrive =>
    obtain ⟨t, g', f, rest, st, -, -, k, rfl⟩ := step_arrive hst
    by_cases hg : g' = g
    · subst hg
      refine ⟨rops ++ [.arrive t f.pkt f.len f.src f.proto], ?_, ?_, ?_⟩
      · simp only [Function.update_self]; exact runFrom_snoc.mpr ⟨_, h1, k⟩
      · rw [arrivalsRx_append, h2]; simp [arrivalsRx, heardAt]
      · rw [tracksRx_append, h3]; simp [tracksRx, tracks]
    · refine ⟨rops, ?_, ?_, ?_⟩
      · simp only; rw [Function.update_of_ne (Ne.symm hg)]; exact h1
      · rw [h2]; simp [heardAt, hg]
      · rw [h3]; simp [tracks]
  | finish g' =>
    obtain ⟨t, u, es, st, -, -, k, rfl⟩ := step_finish hst
    by_cases hg : g' = g
    · subst hg
      refine ⟨rops ++ [.run], ?_, ?_, ?_⟩
      · simp only [Function.update_self]; exact runFrom_snoc.mpr ⟨_, h1, k⟩
      · rw [arrivalsRx_append, h2]; simp [arrivalsRx]
      · rw [tracksRx_append, h3]; simp [tracksRx, tracks]
    · refine ⟨rops, ?_, h2, ?_⟩
      · simp only; rw [Function.update_of_ne (Ne.symm hg)]; exact h1
      · rw [h3]; simp [tracks]

/-! ## The channel -/

section
variable {net : Net D G V W} {w : World D G W}

omit [Fintype G] [Fintype D] [DecidableEq G] [DecidableEq D] in
theorem loop_lands (hsky : Sky net w) (d : D) (t : Nat) (x : Entry W) (gs : List G) (a : List (Nat × G × Flight W) × List (Nat × Nat)) :
    ∃ effs, toGroundLoop (net.air t) (x.pkt, x.len) d ((net.addr d).convertTo net.endian net.ty) x.proto x.power gs = .ok effs ∧
      (effs.foldl (applyEffect t) a).1.Perm (a.1 ++ gs.filterMap (lands net w d (t, x))) ∧
      (effs.foldl (applyEffect t) a).2 = a.2 ++ gs.filterMap (lostAt w d (t, x)) ∧
      (a.1.Pairwise (fun x y => x.1 ≤ y.1) → (effs.foldl (applyEffect t) a).1.Pairwise (fun x y => x.1 ≤ y.1)) := by
  induction gs generalizing a with
  | nil => exact ⟨[], rfl, by simp, by simp, id⟩
  | cons g gs ih =>
    obtain ⟨pg, ps, delay, loss, heq, hw1, hw2, hs⟩ := hsky t g d
    have hadm : admitted (net.air t) g d = .ok (w.admit t g d) := by
      unfold admitted
      rcases hs with ⟨h1, h2⟩ | ⟨m, h1, h2⟩
      · rw [h1, h2]
      · rw [h1]; exact h2
    cases hwa : w.admit t g d with
    | true =>
      let f : Flight W := ⟨x.pkt, x.len, (net.addr d).convertTo net.endian net.ty, x.proto, w.power t g d x.power⟩
      obtain ⟨effs, h1, h2, h3, h4⟩ := ih (insertEvent (t + w.delay t g d) (g, f) a.1, a.2)
      refine ⟨.toGround g (w.delay t g d) (x.pkt, x.len) ((net.addr d).convertTo net.endian net.ty) x.proto (w.power t g d x.power) :: effs,
        ?_, ?_, ?_, ?_⟩
      · simp only [toGroundLoop, toOneGround, heq.delay, heq.ground, heq.sat, heq.loss, hadm, hwa, Outcome.deref_some, Outcome.bind_ok, if_true,
          h1, hw1, hw2]
      · have hl : lands net w d (t, x) g = some (t + w.delay t g d, g, f) := by simp [lands, hwa, f]
        simp only [List.foldl_cons, applyEffect, List.filterMap_cons, hl]
        exact h2.trans (((insertEvent_perm _ _ _).append_right _).trans List.perm_middle.symm)
      · have hl : lostAt w d (t, x) g = none := by simp [lostAt, hwa]
        simp only [List.foldl_cons, applyEffect, List.filterMap_cons, hl]
        exact h3
      · intro hsd
        exact h4 (sorted_insertEvent hsd)
    | false =>
      obtain ⟨effs, h1, h2, h3, h4⟩ := ih (a.1, a.2 ++ [(t, x.pkt)])
      refine ⟨.drop (x.pkt, x.len) :: effs, ?_, ?_, ?_, ?_⟩
      · simp [toGroundLoop, toOneGround, heq.delay, heq.ground, heq.sat, heq.loss, hadm, hwa, h1]
      · have hl : lands net w d (t, x) g = none := by simp [lands, hwa]
        simp only [List.foldl_cons, applyEffect, List.filterMap_cons, hl]
        exact h2
      · have hl : lostAt w d (t, x) g = some (t, x.pkt) := by simp [lostAt, hwa]
        simp only [List.foldl_cons, applyEffect, List.filterMap_cons, hl]
        rw [h3]; simp
      · exact h4

omit [Fintype G] [Fintype D] [DecidableEq G] [DecidableEq D] in
theorem transmitAll_lands (hsky : Sky net w) (d : D) (l : List (Nat × Entry W)) (a : List (Nat × G × Flight W) × List (Nat × Nat)) :
    ∃ a', transmitAll net d l a = .ok a' ∧ a'.1.Perm (a.1 ++ l.flatMap (fun y => net.chan.ground.filterMap (lands net w d y))) ∧
      a'.2 = a.2 ++ l.flatMap (fun y => net.chan.ground.filterMap (lostAt w d y)) ∧
      (a.1.Pairwise (fun x y => x.1 ≤ y.1) → a'.1.Pairwise (fun x y => x.1 ≤ y.1)) := by
  induction l generalizing a with
  | nil => exact ⟨a, rfl, by simp, by simp, id⟩
  | cons y l ih =>
    obtain ⟨t, x⟩ := y
    obtain ⟨effs, h1, h2, h3, h4⟩ := loop_lands hsky d t x net.chan.ground a
    obtain ⟨a', k1, k2, k3, k4⟩ := ih (effs.foldl (applyEffect t) a)
    refine ⟨a', ?_, ?_, ?_, fun hs => k4 (h4 hs)⟩
    · simp only [transmitAll, transmit2Ground, h1, Outcome.bind_ok]; exact k1
    · refine k2.trans ?_
      simp only [List.flatMap_cons]
      rw [← List.append_assoc]
      exact h2.append_right _
    · rw [k3, h3]; simp

omit [Fintype G] [Fintype D] [DecidableEq G] [DecidableEq D] in
theorem aired_grows {debug : Bool} {accept : List (Entry W) → Entry W → Bool} {s s' : Sat2Ground.Sys W} {o : Sat2Ground.Op W} {t : Nat}
    (ht : opTime s o = some t) (h : Sat2Ground.step debug accept s o = some (.ok s')) :
    ∃ new, s.aired ++ new = s'.aired ∧ (∀ y ∈ new, y.1 = t) ∧ s'.clock = t := by
  have key : ∀ {u u' : Sat2Ground.Sys W} {l : List (Nat × Entry W)} {n : Nat},
      Sat2Ground.transmitStart debug u n = .ok u' → u.aired = l → u.clock = n →
      ∃ new, l ++ new = u'.aired ∧ (∀ y ∈ new, y.1 = n) ∧ u'.clock = n := by
    intro u u' l n hu hl hc
    subst hl
    unfold Sat2Ground.transmitStart at hu
    rw [Outcome.bind_eq_ok] at hu
    obtain ⟨_, -, hu⟩ := hu
    cases hq : u.queue with
    | nil => simp [hq] at hu
    | cons x rest =>
      simp only [hq, Outcome.ok.injEq] at hu
      subst hu
      exact ⟨_, rfl, by simp, hc⟩
  cases o with
  | setPower u a =>
    simp only [opTime, Option.some.injEq] at ht
    simp only [Sat2Ground.step] at h
    split at h
    · simp only [Option.some.injEq, Outcome.ok.injEq] at h
      subst h; exact ⟨[], by simp, by simp, ht⟩
    · simp at h
  | send u pkt len proto =>
    simp only [opTime, Option.some.injEq] at ht
    subst ht
    simp only [Sat2Ground.step] at h
    split at h
    · simp only [Option.some.injEq] at h
      unfold Sat2Ground.send at h
      simp only at h
      split at h
      · simp only [Outcome.ok.injEq] at h; subst h; exact ⟨[], by simp, by simp, rfl⟩
      · split at h
        · simp only [Outcome.ok.injEq] at h; subst h; exact ⟨[], by simp, by simp, rfl⟩
        · exact key h rfl rfl
    · simp at h
  | run =>
    simp only [Sat2Ground.step] at h
    split at h
    · simp at h
    · rename_i u x es hev
      simp only [opTime, hev, List.head?_cons, Option.map_some, Option.some.injEq] at ht
      subst ht
      simp only [Option.some.injEq] at h
      unfold Sat2Ground.transmitComplete at h
      simp only at h
      split at h
      · simp only [Outcome.ok.injEq] at h
        subst h
        exact ⟨[], by simp, by simp, rfl⟩
      · exact key h rfl rfl

omit [Fintype G] [Fintype D] [DecidableEq G] [DecidableEq D] in
theorem sat_phase {d : D} {ops : List (Sat2Ground.Op W)} {s : Sat2Ground.Sys W}
    (h : Sat2Ground.exec net.debug (net.accept d) (net.power d) ops = some (.ok s)) : Phase s := by
  refine run_induction (P := fun _ s => Phase s) (.idle rfl rfl rfl rfl (Nat.le_refl _)) ?_ h
  intro ops o s s' _ hp hst
  obtain ⟨s2, h1, h2⟩ := hp.step hst
  simp only [Outcome.ok.injEq] at h1
  subst h1; exact h2

/-- Every copy of every frame on the air has been dropped, is flying, or has arrived, as specified by `lands`. -/
structure Account (net : Net D G V W) (w : World D G W) (s : Sys D G W) : Prop where
  flights : (↑s.heard + ↑s.flying : Multiset (Nat × G × Flight W)) =
    ∑ d, (((s.sats d).aired.flatMap (fun y => net.chan.ground.filterMap (lands net w d y)) : List _) : Multiset (Nat × G × Flight W))
  drops : (s.dropped : Multiset (Nat × Nat)) =
    ∑ d, (((s.sats d).aired.flatMap (fun y => net.chan.ground.filterMap (lostAt w d y)) : List _) : Multiset (Nat × Nat))
  sorted : s.flying.Pairwise (fun x y => x.1 ≤ y.1)
  sources : ∀ y ∈ s.flying, ∃ d, y.2.2.src = (net.addr d).convertTo net.endian net.ty

theorem run_ok (hsky : Sky net w) {ops : List (Op D G W)} {r : Outcome (Sys D G W)} (h : exec net ops = some r) :
    ∃ s, r = .ok s ∧ Account net w s := by
  induction ops using List.reverseRecOn generalizing r with
  | nil =>
    simp only [exec, runFrom, Option.some.injEq] at h
    refine ⟨_, h.symm, ⟨?_, ?_, ?_, ?_⟩⟩ <;> simp [Sys.init, Sat2Ground.Sys.init]
  | append_singleton os o ih =>
    unfold exec at h
    rw [runFrom_append] at h
    cases h1 : runFrom (step net) (Sys.init net) os with
    | none => simp [h1] at h
    | some r1 =>
      obtain ⟨s, rfl, hacc⟩ := ih h1
      simp only [h1, runFrom_single] at h
      cases o with
      | track g t a =>
        simp only [step] at h
        split at h
        · split at h
          · simp at h
          · rename_i r2 hr2
            simp only [GroundStaRx.step] at hr2
            split at hr2
            · simp only [Option.some.injEq] at hr2
              subst hr2
              simp only [Outcome.bind_ok, Option.some.injEq] at h
              exact ⟨_, h.symm, ⟨hacc.flights, hacc.drops, hacc.sorted, hacc.sources⟩⟩
            · simp at hr2
        · simp at h
      | arrive =>
        simp only [step] at h
        split at h
        · simp at h
        · rename_i t g f rest hf
          split at h
          · split at h
            · simp at h
            · rename_i r2 hr2
              obtain ⟨d, hd⟩ := hacc.sources (t, g, f) (by rw [hf]; simp)
              simp only at hd
              simp only [GroundStaRx.step] at hr2
              split at hr2
              · simp only [Option.some.injEq] at hr2
                rw [hd, receive_satellite] at hr2
                subst hr2
                simp only [Outcome.bind_ok, Option.some.injEq] at h
                refine ⟨_, h.symm, ⟨?_, hacc.drops, ?_, ?_⟩⟩
                · rw [← hacc.flights, hf]
                  simp only [Multiset.coe_add]
                  rw [Multiset.coe_eq_coe, List.append_assoc]
                  rfl
                · have := hacc.sorted
                  rw [hf, List.pairwise_cons] at this
                  exact this.2
                · intro y hy
                  exact hacc.sources y (by rw [hf]; exact List.mem_cons_of_mem _ hy)
              · simp at hr2
          · simp at h
      | finish g =>
        simp only [step] at h
        split at h
        · simp at h
        · rename_i t u es hp
          split at h
          · simp only [GroundStaRx.step, hp, Outcome.bind_ok, Option.some.injEq] at h
            exact ⟨_, h.symm, ⟨hacc.flights, hacc.drops, hacc.sorted, hacc.sources⟩⟩
          · simp at h
      | sat d o =>
        simp only [step] at h
        split at h
        · simp at h
        · rename_i t ht
          split at h
          · split at h
            · simp at h
            · rename_i r2 hr2
              obtain ⟨st, rfl, -⟩ := (sat_phase (C59_satellite h1 d)).step hr2
              obtain ⟨new, hnew, -⟩ := aired_grows ht hr2
              have hdrop : st.aired.drop (s.sats d).aired.length = new := by rw [← hnew]; simp
              obtain ⟨a, h3, h4, h5, h6⟩ := transmitAll_lands (net := net) hsky d new (s.flying, s.dropped)
              simp only [hdrop, Outcome.bind_ok, h3, Option.some.injEq] at h
              refine ⟨_, h.symm, ⟨?_, ?_, h6 hacc.sorted, ?_⟩⟩
              · simp only
                refine Eq.trans ?_ (sum_update (fun d' (x : Sat2Ground.Sys W) =>
                  ((x.aired.flatMap (fun y => net.chan.ground.filterMap (lands net w d' y)) : List _) : Multiset (Nat × G × Flight W))) s.sats d st
                  (new.flatMap (fun y => net.chan.ground.filterMap (lands net w d y)) : List _) ?_).symm
                · rw [← hacc.flights, add_assoc]
                  congr 1
                  rw [Multiset.coe_add, Multiset.coe_eq_coe]
                  exact h4
                · rw [← hnew]; simp
              · simp only
                refine Eq.trans ?_ (sum_update (fun d' (x : Sat2Ground.Sys W) =>
                  ((x.aired.flatMap (fun y => net.chan.ground.filterMap (lostAt w d' y)) : List _) : Multiset (Nat × Nat))) s.sats d st
                  (new.flatMap (fun y => net.chan.ground.filterMap (lostAt w d y)) : List _) ?_).symm
                · rw [← hacc.drops, h5, Multiset.coe_add]
                · rw [← hnew]; simp
              · intro y hy
                have := h4.subset hy
                simp only [List.mem_append] at this
                rcases this with h' | h'
                · exact hacc.sources y h'
                · obtain ⟨z, -, hz⟩ := List.mem_flatMap.mp h'
                  obtain ⟨g, -, hg⟩ := List.mem_filterMap.mp hz
                  unfold lands at hg
                  split at hg
                  · simp only [Option.some.injEq] at hg
                    rw [← hg]
                    exact ⟨d, rfl⟩
                  · simp at hg
          · simp at h

/-- When, and with which arguments, station `g` passes up the frame `y.2` broadcast by `d` at `y.1`: if the station is attached to the channel, the
success model lets the frame through, and the station tracks this satellite at the arrival, then at the start of transmission plus propagation delay
plus transmission time. -/
def receipt (net : Net D G V W) (w : World D G W) (l : List (Nat × SatAddress)) (g : G) (d : D) (y : Nat × Entry W) :
    Option (Nat × GroundStaRx.Up) :=
  if g ∈ net.chan.ground ∧ w.admit y.1 g d = true ∧ trackedAt (net.remote g) l (y.1 + w.delay y.1 g d) = net.addr d then
    some (y.1 + w.delay y.1 g d + y.2.len, ⟨y.2.pkt, (net.addr d).convertTo net.endian net.ty, y.2.proto⟩)
  else none

/-- The flights towards `g` that should be passed up. -/
def up (net : Net D G V W) (l : List (Nat × SatAddress)) (g : G) (y : Nat × G × Flight W) : Option (Nat × GroundStaRx.Up) :=
  if y.2.1 = g then rxReceipt net.endian net.ty (net.remote g) l (y.1, y.2.2.len, ⟨y.2.2.pkt, y.2.2.src, y.2.2.proto⟩) else none

omit [Fintype G] [Fintype D] [DecidableEq D] in
theorem up_lands (hnd : net.chan.ground.Nodup) (l : List (Nat × SatAddress)) (g : G) (d : D) (ys : List (Nat × Entry W)) :
    (ys.flatMap (fun y => net.chan.ground.filterMap (lands net w d y))).filterMap (up net l g) = ys.filterMap (receipt net w l g d) := by
  induction ys with
  | nil => rfl
  | cons y ys ih =>
    rw [List.flatMap_cons, List.filterMap_append, ih]
    have hinj : ∀ a b : SatAddress, a.convertTo net.endian net.ty = b.convertTo net.endian net.ty ↔ b = a := by
      intro a b
      constructor
      · intro h
        have h2 := (C01_roundtrip net.debug net.endian net.ty a).1
        rw [h, (C01_roundtrip net.debug net.endian net.ty b).1] at h2
        simpa using h2
      · intro h; rw [h]
    have hone : ∀ gs : List G, gs.Nodup → (gs.filterMap (lands net w d y)).filterMap (up net l g) =
        if g ∈ gs ∧ w.admit y.1 g d = true ∧ trackedAt (net.remote g) l (y.1 + w.delay y.1 g d) = net.addr d then
          [(y.1 + w.delay y.1 g d + y.2.len, ⟨y.2.pkt, (net.addr d).convertTo net.endian net.ty, y.2.proto⟩)] else [] := by
      intro gs
      induction gs with
      | nil => simp
      | cons x gs ih2 =>
        intro hn
        rw [List.nodup_cons] at hn
        have ih3 := ih2 hn.2
        by_cases hx : x = g
        · subst hx
          rw [List.filterMap_cons]
          simp only [hn.1, false_and, if_false] at ih3
          by_cases ha : w.admit y.1 x d = true
          · have hl : lands net w d y x = some (y.1 + w.delay y.1 x d, x,
                ⟨y.2.pkt, y.2.len, (net.addr d).convertTo net.endian net.ty, y.2.proto, w.power y.1 x d y.2.power⟩) := by simp [lands, ha]
            rw [hl]
            simp only [List.filterMap_cons, ih3]
            by_cases ht : trackedAt (net.remote x) l (y.1 + w.delay y.1 x d) = net.addr d
            · have hu : up net l x (y.1 + w.delay y.1 x d, x,
                ⟨y.2.pkt, y.2.len, (net.addr d).convertTo net.endian net.ty, y.2.proto, w.power y.1 x d y.2.power⟩) =
                some (y.1 + w.delay y.1 x d + y.2.len, ⟨y.2.pkt, (net.addr d).convertTo net.endian net.ty, y.2.proto⟩) := by
                simp [up, rxReceipt, ht]
              rw [hu]
              simp [ha, ht]
            · have hu : up net l x (y.1 + w.delay y.1 x d, x,
                ⟨y.2.pkt, y.2.len, (net.addr d).convertTo net.endian net.ty, y.2.proto, w.power y.1 x d y.2.power⟩) = none := by
                simp only [up, rxReceipt, if_true, hinj, ht, if_false]
              rw [hu]
              simp [ha, ht]
          · have hl : lands net w d y x = none := by simp [lands, ha]
            rw [hl]
            simp only [ih3, ha, Bool.false_eq_true, false_and, and_false, if_false]
        · have : (x :: gs).filterMap (lands net w d y) = (lands net w d y x).toList ++ gs.filterMap (lands net w d y) := by
            rw [List.filterMap_cons]
            cases lands net w d y x <;> rfl
          rw [this, List.filterMap_append, ih3]
          have h0 : ((lands net w d y x).toList).filterMap (up net l g) = [] := by
            unfold lands
            split
            · simp [up, hx]
            · simp
          rw [h0]
          simp [Ne.symm hx]
    rw [hone _ hnd, List.filterMap_cons]
    unfold receipt
    split <;> rfl

/-- Nothing is scheduled any more. -/
def Quiet (s : Sys D G W) : Prop :=
  (∀ d, (s.sats d).events = []) ∧ s.flying = [] ∧ ∀ g, (s.stations g).pending = []

omit [Fintype G] [DecidableEq D] in
/-- What a station hears comes from satellites. -/
theorem from_sats {s : Sys D G W} (hacc : Account net w s) {g : G} {rops : List GroundStaRx.Op} (k2 : arrivalsRx rops = heardAt g s.heard) :
    FromSats net.endian net.ty rops := by
  intro t pkt len src proto hm
  have hmem : (t, len, (⟨pkt, src, proto⟩ : GroundStaRx.Up)) ∈ heardAt g s.heard := by
    rw [← k2]
    clear k2
    induction rops with
    | nil => simp at hm
    | cons o os ih =>
      rcases List.mem_cons.mp hm with rfl | hm'
      · simp [arrivalsRx]
      · cases o <;> simp only [arrivalsRx, List.mem_cons]
        · exact Or.inr (ih hm')
        · exact ih hm'
        · exact ih hm'
  obtain ⟨y, hy, hy2⟩ := List.mem_filterMap.mp hmem
  have hin : y ∈ (↑s.heard + ↑s.flying : Multiset (Nat × G × Flight W)) := by
    rw [Multiset.mem_add]; exact Or.inl hy
  rw [hacc.flights, Multiset.mem_sum] at hin
  obtain ⟨d, -, hin⟩ := hin
  obtain ⟨z, -, hz⟩ := List.mem_flatMap.mp (Multiset.mem_coe.mp hin)
  obtain ⟨g', -, hg⟩ := List.mem_filterMap.mp hz
  unfold lands at hg
  split at hg
  · simp only [Option.some.injEq] at hg
    split at hy2
    · simp only [Option.some.injEq, Prod.mk.injEq, GroundStaRx.Up.mk.injEq] at hy2
      refine ⟨net.addr d, ?_⟩
      rw [← hy2.2.2.2.1, ← hg]
    · simp at hy2
  · simp at hg

/-- For all satellites, stations and times.  Nothing ever goes wrong.  As long as no station changes the tracked satellite at the very instant a frame
arrives at it: what a station has passed up is at any time among the receipts due for the packets accepted by the satellites so far - each
packet is broadcast when the satellite's queue says (`Fifo.serve`), reaches each attached station that the success model lets it through to after the
delay at the moment of transmission, and is passed up at its end there if the station tracked the satellite when it began to arrive, once, with
the satellite's address and its own protocol number.  When nothing is scheduled any more, all of these receipts have taken place,
each exactly once, and nothing else has. -/
theorem C59_downlink (hsky : Sky net w) (hnd : net.chan.ground.Nodup) {ops : List (Op D G W)} {r : Outcome (Sys D G W)}
    (h : exec net ops = some r) :
    ∃ s, r = .ok s ∧ ∀ g, (∀ y ∈ s.heard, y.2.1 = g → ∀ c ∈ tracks g ops, c.1 ≠ y.1) →
      ((s.stations g).delivered : Multiset (Nat × GroundStaRx.Up)) ≤
        ∑ d, (((Fifo.serve Entry.len (fun _ _ => 0) 0 0 (s.sats d).accepted).filterMap (receipt net w (tracks g ops) g d) : List _) :
          Multiset (Nat × GroundStaRx.Up)) ∧
      (Quiet s → ((s.stations g).delivered : Multiset (Nat × GroundStaRx.Up)) =
        ∑ d, (((Fifo.serve Entry.len (fun _ _ => 0) 0 0 (s.sats d).accepted).filterMap (receipt net w (tracks g ops) g d) : List _) :
          Multiset (Nat × GroundStaRx.Up))) := by
  obtain ⟨s, rfl, hacc⟩ := run_ok hsky h
  refine ⟨s, rfl, fun g hne => ?_⟩
  have hserve : ∀ d, (s.sats d).aired <+: Fifo.serve Entry.len (fun _ _ => 0) 0 0 (s.sats d).accepted ∧
      ((s.sats d).events = [] → (s.sats d).aired = Fifo.serve Entry.len (fun _ _ => 0) 0 0 (s.sats d).accepted) := by
    intro d
    obtain ⟨s', h1, h2, h3, -⟩ := C38_refines (C59_satellite h d)
    simp only [Outcome.ok.injEq] at h1
    subst h1
    exact ⟨h2, h3⟩
  have hup : (s.heard.filterMap (up net (tracks g ops) g) : Multiset (Nat × GroundStaRx.Up)) +
      (s.flying.filterMap (up net (tracks g ops) g) : Multiset (Nat × GroundStaRx.Up)) =
      ∑ d, (((s.sats d).aired.filterMap (receipt net w (tracks g ops) g d) : List _) : Multiset (Nat × GroundStaRx.Up)) := by
    have h1 := congrArg (Multiset.filterMap (up net (tracks g ops) g)) hacc.flights
    rw [Multiset.filterMap_add, filterMap_sum] at h1
    refine h1.trans ?_
    refine Finset.sum_congr rfl (fun d _ => ?_)
    rw [up_lands hnd]
  obtain ⟨rops, k1, k2, k3⟩ := C59_station h g
  have hsrc := from_sats hacc k2
  have hne2 : ∀ y ∈ arrivalsRx rops, ∀ c ∈ tracksRx rops, c.1 ≠ y.1 := by
    rw [k2, k3]
    intro y hy c hc
    obtain ⟨z, hz, hz2⟩ := List.mem_filterMap.mp hy
    split at hz2
    · rename_i hg
      simp only [Option.some.injEq] at hz2
      rw [← hz2]
      exact hne z hz hg c hc
    · simp at hz2
  have hexp := (expected_by_time hne2 k1).1
  have hexp2 : expected net.endian net.ty (net.remote g) rops = s.heard.filterMap (up net (tracks g ops) g) := by
    rw [hexp, k2, k3]
    unfold heardAt
    rw [List.filterMap_filterMap]
    refine List.filterMap_congr (fun y _ => ?_)
    unfold up
    by_cases hg : y.2.1 = g <;> simp [hg]
  obtain ⟨s', h1, h2, h3, -, -⟩ := C36_tracked_only hsrc k1
  simp only [Outcome.ok.injEq] at h1
  subst h1
  rw [hexp2] at h2 h3
  constructor
  · have hle : ((s.stations g).delivered : Multiset (Nat × GroundStaRx.Up)) ≤ (s.heard.filterMap (up net (tracks g ops) g) : List _) := by
      rw [← Multiset.coe_eq_coe.mpr h2, ← Multiset.coe_add]
      exact Multiset.le_add_right _ _
    refine hle.trans ((Multiset.le_add_right _ (s.flying.filterMap (up net (tracks g ops) g) : Multiset (Nat × GroundStaRx.Up))).trans ?_)
    rw [hup]
    refine Finset.sum_le_sum (fun d _ => ?_)
    exact Multiset.coe_le.mpr (((hserve d).1.sublist.filterMap _).subperm)
  · rintro ⟨q1, q2, q3⟩
    rw [Multiset.coe_eq_coe.mpr (h3 (q3 g))]
    rw [q2] at hup
    refine Eq.trans ?_ (hup.trans ?_)
    · simp
    · refine Finset.sum_congr rfl (fun d _ => ?_)
      rw [(hserve d).2 (q1 d)]

/-- The copies stopped by the success model are reported by the channel: one report for each broadcast and each attached station that it did not
let through to. -/
theorem C59_drops (hsky : Sky net w) {ops : List (Op D G W)} {r : Outcome (Sys D G W)} (h : exec net ops = some r) :
    ∃ s, r = .ok s ∧ (s.dropped : Multiset (Nat × Nat)) =
      ∑ d, (((s.sats d).aired.flatMap (fun y => (net.chan.ground.filter (fun g => !w.admit y.1 g d)).map (fun _ => (y.1, y.2.pkt))) : List _) :
        Multiset (Nat × Nat)) := by
  obtain ⟨s, rfl, hacc⟩ := run_ok hsky h
  refine ⟨s, rfl, hacc.drops.trans ?_⟩
  refine Finset.sum_congr rfl (fun d _ => ?_)
  congr 2
  funext y
  induction net.chan.ground with
  | nil => rfl
  | cons g gs ih =>
    rw [List.filterMap_cons, List.filter_cons, ih]
    cases ha : w.admit y.1 g d <;> simp [lostAt, ha]

/-! ## The executions are not stuck -/

/-- The clock is never ahead of what is scheduled. -/
structure OnTime (s : Sys D G W) : Prop where
  ahead : due s s.clock
  sats : ∀ d, (s.sats d).clock ≤ s.clock
  stations : ∀ g, (s.stations g).clock ≤ s.clock

omit [Fintype G] [Fintype D] [DecidableEq G] [DecidableEq D] in
theorem phase_ahead {s : Sat2Ground.Sys W} (h : Phase s) : ∀ e ∈ s.events, s.clock ≤ e.1 := by
  cases h with
  | idle _ _ h => simp [h]
  | onAir _ _ _ _ _ _ _ h h' => rw [h]; simpa using h'

theorem onTime (hsky : Sky net w) {ops : List (Op D G W)} {s : Sys D G W} (h : exec net ops = some (.ok s)) : OnTime s := by
  induction ops using List.reverseRecOn generalizing s with
  | nil =>
    simp only [exec, runFrom, Option.some.injEq, Outcome.ok.injEq] at h
    subst h
    refine ⟨⟨Nat.le_refl _, ?_, ?_, ?_⟩, fun d => Nat.le_refl _, fun g => Nat.le_refl _⟩
    · intro d e he; simp [Sys.init, Sat2Ground.Sys.init] at he
    · intro e he; simp [Sys.init] at he
    · intro g e he; simp [Sys.init, GroundStaRx.Sys.init] at he
  | append_singleton os o ih =>
    have hall := h
    unfold exec at h
    obtain ⟨s1, h1, h2⟩ := runFrom_snoc.mp h
    obtain ⟨hd0, hd1, hd2⟩ := ih h1
    have station : ∀ (g : G) (t : Nat) (st : GroundStaRx.Sys) (o : GroundStaRx.Op), due s1 t → st.clock = t →
        GroundStaRx.step net.debug net.endian net.ty (s1.stations g) o = some (.ok st) →
        (∀ g', ∀ e ∈ (Function.update s1.stations g st g').pending, t ≤ e.1) ∧ ∀ g', (Function.update s1.stations g st g').clock ≤ t := by
      intro g t st o hd hc hst
      obtain ⟨rops, r1, -, -⟩ := C59_station h1 g
      have := ((ahead_exec r1).step hst).1.1
      constructor
      · intro g' e he
        by_cases hg : g' = g
        · subst hg
          rw [Function.update_self] at he
          have := this e he
          omega
        · rw [Function.update_of_ne hg] at he
          exact hd.2.2.2 g' e he
      · intro g'
        by_cases hg : g' = g
        · subst hg; rw [Function.update_self]; omega
        · rw [Function.update_of_ne hg]; exact Nat.le_trans (hd2 g') hd.1
    cases o with
    | sat d o =>
      obtain ⟨t, st, a, k1, k2, k3, k4, rfl⟩ := step_sat h2
      obtain ⟨new, n1, n2, n3⟩ := aired_grows k1 k3
      have hst := C59_satellite hall d
      simp only [Function.update_self] at hst
      have hph := phase_ahead (sat_phase hst)
      have hdrop : st.aired.drop (s1.sats d).aired.length = new := by rw [← n1]; simp
      obtain ⟨a', h3, h4, -, h6⟩ := transmitAll_lands (net := net) hsky d new (s1.flying, s1.dropped)
      rw [hdrop, h3] at k4
      simp only [Outcome.ok.injEq] at k4
      subst k4
      obtain ⟨e1, e2, e3, e4⟩ := k2
      refine ⟨⟨Nat.le_refl _, ?_, ?_, e4⟩, ?_, ?_⟩
      · intro d' e he
        simp only at he ⊢
        by_cases hd : d' = d
        · subst hd
          rw [Function.update_self] at he
          rw [← n3]
          exact hph e he
        · rw [Function.update_of_ne hd] at he
          exact e2 d' e he
      · intro e he
        have := h4.subset he
        simp only [List.mem_append] at this
        rcases this with h' | h'
        · exact e3 e h'
        · obtain ⟨y, hy, hy1⟩ := List.mem_flatMap.mp h'
          obtain ⟨g, -, hy2⟩ := List.mem_filterMap.mp hy1
          have := n2 y hy
          unfold lands at hy2
          split at hy2
          · simp only [Option.some.injEq] at hy2
            rw [← hy2]
            simp only
            omega
          · simp at hy2
      · intro d'
        simp only
        by_cases hd : d' = d
        · subst hd; rw [Function.update_self]; omega
        · rw [Function.update_of_ne hd]; have := hd1 d'; omega
      · intro g; have := hd2 g; simp only; omega
    | track g t a =>
      obtain ⟨st, k2, k3, rfl⟩ := step_track h2
      obtain ⟨c1, c2⟩ := station g t st _ k2 (step_clock k3 (Or.inr ⟨a, rfl⟩)).2 k3
      exact ⟨⟨Nat.le_refl _, k2.2.1, k2.2.2.1, c1⟩, fun d => Nat.le_trans (hd1 d) k2.1, c2⟩
    | arrive =>
      obtain ⟨t, g, f, rest, st, k1, k2, k3, rfl⟩ := step_arrive h2
      obtain ⟨c1, c2⟩ := station g t st _ k2 (step_clock k3 (Or.inl ⟨_, _, _, _, rfl⟩)).2 k3
      refine ⟨⟨Nat.le_refl _, k2.2.1, ?_, c1⟩, fun d => Nat.le_trans (hd1 d) k2.1, c2⟩
      intro e he
      exact k2.2.2.1 e (by rw [k1]; exact List.mem_cons_of_mem _ he)
    | finish g =>
      obtain ⟨t, u, es, st, k1, k2, k3, rfl⟩ := step_finish h2
      have hc : st.clock = t := by
        simp only [GroundStaRx.step, k1, Option.some.injEq, Outcome.ok.injEq] at k3
        rw [← k3]
      obtain ⟨c1, c2⟩ := station g t st _ k2 hc k3
      exact ⟨⟨Nat.le_refl _, k2.2.1, k2.2.2.1, c1⟩, fun d => Nat.le_trans (hd1 d) k2.1, c2⟩

/-- Executions never get stuck: as long as anything is scheduled the simulator can run a scheduled event, and at any time up to the next event, every satellite can
be given a packet and every station another satellite to track. -/
theorem C59_progress (hsky : Sky net w) {ops : List (Op D G W)} {s : Sys D G W} (h : exec net ops = some (.ok s)) :
    (¬ Quiet s → ∃ o, o.internal = true ∧ ∃ r, step net s o = some r) ∧
    ∀ t, due s t → (∀ d pkt len proto, ∃ r, step net s (.sat d (.send t pkt len proto)) = some r) ∧
      ∀ g a, ∃ r, step net s (.track g t a) = some r := by
  obtain ⟨⟨-, a1, a2, a3⟩, b1, b2⟩ := onTime hsky h
  have b4 : s.flying.Pairwise (fun x y => x.1 ≤ y.1) := by
    obtain ⟨s', hs, hacc⟩ := run_ok hsky h
    simp only [Outcome.ok.injEq] at hs
    subst hs
    exact hacc.sorted
  have b3 : ∀ g, (s.stations g).pending.Pairwise (fun x y => x.1 ≤ y.1) := by
    intro g
    obtain ⟨rops, r1, -, -⟩ := C59_station h g
    exact (ahead_exec r1).2
  constructor
  · intro hq
    classical
    let E : Nat → Prop := fun t => (∃ d, ∃ e ∈ (s.sats d).events, e.1 = t) ∨ (∃ e ∈ s.flying, e.1 = t) ∨ ∃ g, ∃ e ∈ (s.stations g).pending, e.1 = t
    have hex : ∃ t, E t := by
      by_contra hno
      push Not at hno
      apply hq
      refine ⟨fun d => ?_, ?_, fun g => ?_⟩
      · rw [List.eq_nil_iff_forall_not_mem]
        exact fun e he => hno e.1 (Or.inl ⟨d, e, he, rfl⟩)
      · rw [List.eq_nil_iff_forall_not_mem]
        exact fun e he => hno e.1 (Or.inr (Or.inl ⟨e, he, rfl⟩))
      · rw [List.eq_nil_iff_forall_not_mem]
        exact fun e he => hno e.1 (Or.inr (Or.inr ⟨g, e, he, rfl⟩))
    obtain ⟨t, ht, hmin⟩ : ∃ t, E t ∧ ∀ u, E u → t ≤ u := ⟨Nat.find hex, Nat.find_spec hex, fun u hu => Nat.find_min' hex hu⟩
    have hclock : s.clock ≤ t := by
      rcases ht with ⟨d, e, he, rfl⟩ | ⟨e, he, rfl⟩ | ⟨g, e, he, rfl⟩
      · exact a1 d e he
      · exact a2 e he
      · exact a3 g e he
    have hdue : due s t :=
      ⟨hclock, fun d e he => hmin _ (Or.inl ⟨d, e, he, rfl⟩), fun e he => hmin _ (Or.inr (Or.inl ⟨e, he, rfl⟩)),
        fun g e he => hmin _ (Or.inr (Or.inr ⟨g, e, he, rfl⟩))⟩
    rcases ht with ⟨d, e, he, rfl⟩ | ⟨e, he, rfl⟩ | ⟨g, e, he, rfl⟩
    · have hev : (s.sats d).events = [e] := by
        have := sat_phase (C59_satellite h d)
        cases this with
        | idle _ _ h => simp [h] at he
        | onAir _ _ _ _ _ _ _ h => rw [h] at he ⊢; simp at he; rw [he]
      refine ⟨.sat d .run, rfl, ?_⟩
      obtain ⟨t, e⟩ := e
      simp only [step, opTime, hev, List.head?_cons, Option.map_some, if_pos hdue, Sat2Ground.step]
      exact ⟨_, rfl⟩
    · cases hf : s.flying with
      | nil => simp [hf] at he
      | cons y rest =>
        obtain ⟨t', g, f⟩ := y
        have htt : t' = e.1 := by
          have h1 : e.1 ≤ t' := hdue.2.2.1 (t', g, f) (by rw [hf]; simp)
          rw [hf] at he b4
          rw [List.pairwise_cons] at b4
          simp only [List.mem_cons] at he
          rcases he with rfl | he
          · rfl
          · have := b4.1 e he; simp only at this; omega
        subst htt
        refine ⟨.arrive, rfl, ?_⟩
        have hp : GroundStaRx.possible (s.stations g) e.1 := ⟨Nat.le_trans (b2 g) hdue.1, hdue.2.2.2 g⟩
        simp only [step, hf, if_pos hdue, GroundStaRx.step, if_pos hp]
        exact ⟨_, rfl⟩
    · cases hf : (s.stations g).pending with
      | nil => simp [hf] at he
      | cons y rest =>
        obtain ⟨t', u⟩ := y
        have htt : t' = e.1 := by
          have h1 : e.1 ≤ t' := hdue.2.2.2 g (t', u) (by rw [hf]; simp)
          have h3 := b3 g
          rw [hf] at he h3
          rw [List.pairwise_cons] at h3
          simp only [List.mem_cons] at he
          rcases he with rfl | he
          · rfl
          · have := h3.1 e he; simp only at this; omega
        subst htt
        refine ⟨.finish g, rfl, ?_⟩
        simp only [step, hf, if_pos hdue, GroundStaRx.step]
        exact ⟨_, rfl⟩
  · intro t ht
    constructor
    · intro d pkt len proto
      have hp : Sat2Ground.possible (s.sats d) t := ⟨Nat.le_trans (b1 d) ht.1, ht.2.1 d⟩
      simp only [step, opTime, if_pos ht, Sat2Ground.step, if_pos hp]
      exact ⟨_, rfl⟩
    · intro g a
      have hp : GroundStaRx.possible (s.stations g) t := ⟨Nat.le_trans (b2 g) ht.1, ht.2.2.2 g⟩
      simp only [step, if_pos ht, GroundStaRx.step, if_pos hp]
      exact ⟨_, rfl⟩

end

/-! ## Example -/

/-- Two satellites and two stations; both stations hear both satellites, except station 1, which never hears satellite 1.  Delay 3 from satellite 0
and 5 from satellite 1. -/
def exWorld : World (Fin 2) (Fin 2) Int :=
  ⟨fun _ _ d => 3 + 2 * d.val, fun _ _ _ p => p - 10, fun _ g d => !(g == 1 && d == 1)⟩

def exNet : Net (Fin 2) (Fin 2) Nat Int :=
  ⟨true, .little, 7, ⟨none, [0, 1]⟩,
    fun _ => ⟨fun g => some g.val, fun d => some d.val, some (fun _ ps => 3 + 2 * ps), some (fun p _ _ => p - 10),
      some (fun g d => .ok (!(g == 1 && d == 1)))⟩,
    fun d => SatAddress.mk3 .little 1 0 (UInt16.ofNat d.val), fun _ _ _ => true, fun _ => 30, fun _ => SatAddress.mk3 .little 1 0 0⟩

theorem exSky : Sky exNet exWorld :=
  fun _ g d => ⟨g.val, d.val, fun _ ps => 3 + 2 * ps, fun p _ _ => p - 10, ⟨rfl, rfl, rfl, rfl⟩, rfl, fun _ => rfl, Or.inr ⟨_, rfl, rfl⟩⟩

/-- Both satellites broadcast; then station 0 goes over to satellite 1 while it receives the first frame, and satellite 1 broadcasts again. -/
def exOps : List (Op (Fin 2) (Fin 2) Int) :=
  [.sat 0 (.send 0 11 10 7), .sat 1 (.send 0 12 10 8), .arrive, .arrive, .track 0 4 (SatAddress.mk3 .little 1 0 1), .arrive,
   .sat 1 (.send 6 13 10 9), .sat 0 .run, .sat 1 .run, .finish 0, .finish 1, .finish 0, .arrive, .sat 1 .run, .finish 0]

example : exNet.chan.ground.Nodup := by decide

example : ∃ s, exec exNet exOps = some (.ok s) ∧ Quiet s ∧
    (s.stations 0).delivered.map (fun y => (y.1, y.2.pkt, y.2.proto)) = [(13, 11, 7), (15, 12, 8), (25, 13, 9)] ∧
    (s.stations 1).delivered.map (fun y => (y.1, y.2.pkt, y.2.proto)) = [(13, 11, 7)] ∧ s.dropped = [(0, 12), (10, 13)] ∧
    (∀ y ∈ s.heard, y.2.1 = 0 → ∀ c ∈ tracks 0 exOps, c.1 ≠ y.1) := by
  refine ⟨_, rfl, ?_⟩; unfold Quiet; decide

end Downlink
end Icarus
