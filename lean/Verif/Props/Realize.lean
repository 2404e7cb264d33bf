import Verif.Props.Rest

/-!
# Every traffic can be simulated (C92)
-/

set_option autoImplicit false

namespace Icarus

/-! ## Inter-satellite links -/

namespace IslNet
open SatNet (Entry)

variable {D : Type}

/-- When a call is made. -/
def Op.time : Op D → Nat
  | .tx _ (.send t _ _ _) => t
  | _ => 0

variable [Fintype D] [DecidableEq D] {net : Net D} {w : World D} {peer : D → D}

theorem runs (hsky : Sky net w) (hw : Wired net peer) :
    Runs (step net) Sys.init Op.internal work Op.time Sys.clock due Quiet (fun _ => True) where
  start := rfl
  less := fun _ o s s' _ ho hs => (step_work ho hs).1
  okay := fun ops r _ h => by obtain ⟨s, hs, -⟩ := run_ok hsky hw h; exact ⟨s, hs⟩
  free := fun _ _ => trivial
  internal := fun _ _ _ _ => trivial
  left := fun _ _ _ => trivial
  more := fun ops s _ h hq => (C60_progress hsky hw h).1 hq
  when := by
    intro s o s' ho h
    cases o with
    | tx d o => obtain ⟨t, st, a, -, h2, -, -, rfl⟩ := step_tx h; exact h2
    | arrive => obtain ⟨t, d, f, rest, st, -, h2, -, rfl⟩ := step_arrive h; exact h2
    | finish d => obtain ⟨t, u, es, st, -, h2, -, rfl⟩ := step_finish h; exact h2
  late := by
    intro s t hc hn
    have : (∃ d, ∃ e ∈ (s.tx d).events, e.1 < t) ∨ (∃ e ∈ s.flying, e.1 < t) ∨ ∃ d, ∃ e ∈ (s.rx d).pending, e.1 < t := by
      by_contra hno
      push Not at hno
      exact hn ⟨hc, hno.1, hno.2.1, hno.2.2⟩
    rcases this with ⟨d, e, he, hlt⟩ | ⟨e, he, hlt⟩ | ⟨d, e, he, hlt⟩
    · exact ⟨fun hq => by rw [hq.1 d] at he; simp at he, fun u hu => by have := hu.2.1 d e he; omega⟩
    · exact ⟨fun hq => by rw [hq.2.1] at he; simp at he, fun u hu => by have := hu.2.2.1 e he; omega⟩
    · exact ⟨fun hq => by rw [hq.2.2 d] at he; simp at he, fun u hu => by have := hu.2.2.2 d e he; omega⟩
  call := by
    intro ops s o _ h ho hd
    cases o with
    | tx d o =>
      cases o with
      | send t pkt len proto => exact (C60_progress hsky hw h).2 t hd d pkt len proto
      | run => simp [Op.internal] at ho
    | arrive => simp [Op.internal] at ho
    | finish d => simp [Op.internal] at ho
  then_ := by
    intro s o s' ho h
    cases o with
    | tx d o =>
      cases o with
      | send t pkt len proto =>
        obtain ⟨t', st, a, h1, -, -, -, rfl⟩ := step_tx h
        simp only [opTime, Option.some.injEq] at h1
        exact h1.symm
      | run => simp [Op.internal] at ho
    | arrive => simp [Op.internal] at ho
    | finish d => simp [Op.internal] at ho

/-- What a device is asked to send. -/
def offered : List SatNet.Op → List (Nat × Entry)
  | [] => []
  | .send t pkt len proto :: os => (t, ⟨pkt, len, proto⟩) :: offered os
  | .run :: os => offered os

omit [Fintype D] in
theorem offered_filter (d : D) (ops : List (Op D)) : offered (opsOf d (ops.filter (fun o => !o.internal))) = offered (opsOf d ops) := by
  have h1 : ∀ d' t pkt len proto, (Op.tx (D := D) d' (.send t pkt len proto)).internal = false := fun _ _ _ _ _ => rfl
  have h2 : ∀ d', (Op.tx (D := D) d' .run).internal = true := fun _ => rfl
  have h3 : (Op.arrive (D := D)).internal = true := rfl
  have h4 : ∀ d', (Op.finish (D := D) d').internal = true := fun _ => rfl
  induction ops with
  | nil => rfl
  | cons o os ih =>
    simp only [opsOf] at ih ⊢
    cases o with
    | tx d' o =>
      cases o with
      | send t pkt len proto => by_cases hd : d' = d <;> simp [h1, hd, offered, ih]
      | run => by_cases hd : d' = d <;> simp [h2, hd, offered, ih]
    | arrive => simp [h3, ih]
    | finish d' => simp [h4, ih]

theorem accepted_offered {debug : Bool} {accept : List Entry → Entry → Bool} (ha : ∀ q x, accept q x = true) {ops : List SatNet.Op} {s : SatNet.Sys}
    (h : SatNet.exec debug accept ops = some (.ok s)) : s.accepted.map (fun y => (y.1, y.2.1)) = offered ops := by
  have happ : ∀ a b : List SatNet.Op, offered (a ++ b) = offered a ++ offered b := by
    intro a b
    induction a with
    | nil => rfl
    | cons o os ih => cases o <;> simp [offered, ih]
  refine run_induction (P := fun ops s => s.accepted.map (fun y => (y.1, y.2.1)) = offered ops) rfl ?_ h
  intro ops o s s' _ hp hst
  rw [happ, ← hp]
  cases o with
  | send t pkt len proto =>
    simp only [SatNet.step] at hst
    split at hst
    · simp only [Option.some.injEq, SatNet.send, ha, Bool.true_eq_false, if_false] at hst
      split at hst
      · simp only [Outcome.ok.injEq] at hst
        subst hst
        simp [offered]
      · split at hst
        · simp only [Outcome.ok.injEq] at hst
          subst hst
          simp [offered]
        · simp only [SatNet.transmitStart] at hst
          rw [Outcome.bind_eq_ok] at hst
          obtain ⟨-, -, hst⟩ := hst
          simp only [Outcome.ok.injEq] at hst
          subst hst
          simp [offered]
    · simp at hst
  | run => simp [offered, (tx_run hst).1]

/-- Every traffic on inter-satellite links can be simulated: for every list of calls of `Send` in the order of their times there is an execution
that makes these calls and no others and runs until nothing is scheduled any more.  If the queues never drop a packet, every packet is
accepted. -/
theorem C92_isl (hsky : Sky net w) (hw : Wired net peer) {calls : List (Op D)} (hext : ∀ o ∈ calls, o.internal = false)
    (hsorted : calls.Pairwise (fun a b => a.time ≤ b.time)) :
    ∃ ops s, exec net ops = some (.ok s) ∧ ops.filter (fun o => !o.internal) = calls ∧ Quiet s ∧
      ∀ d, (∀ q x, net.accept d q x = true) → (s.tx d).accepted.map (fun y => (y.1, y.2.1)) = offered (opsOf d calls) := by
  obtain ⟨ops, s, h1, h2, h3⟩ := (runs hsky hw).realize trivial hext hsorted
  refine ⟨ops, s, h1, h2, h3, fun d hd => ?_⟩
  rw [accepted_offered hd (C60_sender h1 d), ← h2, offered_filter]

/-- Three packets on two links, the last two at the same time. -/
example : ∃ ops s, exec exNet ops = some (.ok s) ∧
    ops.filter (fun o => !o.internal) = [.tx (0, true) (.send 3 11 4 7), .tx (1, false) (.send 5 12 4 7), .tx (0, true) (.send 5 13 4 7)] ∧ Quiet s := by
  obtain ⟨ops, s, h1, h2, h3, -⟩ := C92_isl exSky exWired
    (calls := [.tx (0, true) (.send 3 11 4 7), .tx (1, false) (.send 5 12 4 7), .tx (0, true) (.send 5 13 4 7)]) (by decide) (by decide)
  exact ⟨ops, s, h1, h2, h3⟩

end IslNet

/-! ## From the satellites to the ground -/

namespace Downlink
open GroundSatChannel
open Sat2Ground (Entry)

variable {D G V W : Type}

/-- When a call is made. -/
def Op.time : Op D G W → Nat
  | .sat _ (.send t _ _ _) => t
  | .sat _ (.setPower t _) => t
  | .track _ t _ => t
  | _ => 0

/-- What a satellite is asked to send, when its power is `p` at first. -/
def offered (p : W) : List (Sat2Ground.Op W) → List (Nat × Entry W)
  | [] => []
  | .send t pkt len proto :: os => (t, ⟨pkt, len, proto, p⟩) :: offered p os
  | .setPower _ q :: os => offered q os
  | .run :: os => offered p os

/-- The power after some calls. -/
def powerAfter (p : W) : List (Sat2Ground.Op W) → W
  | [] => p
  | .setPower _ q :: os => powerAfter q os
  | _ :: os => powerAfter p os

theorem offered_append (p : W) (a b : List (Sat2Ground.Op W)) : offered p (a ++ b) = offered p a ++ offered (powerAfter p a) b := by
  induction a generalizing p with
  | nil => rfl
  | cons o os ih => cases o <;> simp [offered, powerAfter, ih]

theorem powerAfter_append (p : W) (a b : List (Sat2Ground.Op W)) : powerAfter p (a ++ b) = powerAfter (powerAfter p a) b := by
  induction a generalizing p with
  | nil => rfl
  | cons o os ih => cases o <;> simp [powerAfter, ih]

theorem accepted_offered {debug : Bool} {accept : List (Entry W) → Entry W → Bool} (ha : ∀ q x, accept q x = true) {p : W}
    {ops : List (Sat2Ground.Op W)} {s : Sat2Ground.Sys W} (h : Sat2Ground.exec debug accept p ops = some (.ok s)) :
    s.accepted = offered p ops := by
  have key : s.accepted = offered p ops ∧ s.power = powerAfter p ops := by
    refine run_induction (P := fun ops s => s.accepted = offered p ops ∧ s.power = powerAfter p ops) ⟨rfl, rfl⟩ ?_ h
    intro ops o s s' _ hp hst
    rw [offered_append, powerAfter_append, ← hp.1, ← hp.2]
    cases o with
    | send t pkt len proto =>
      simp only [Sat2Ground.step] at hst
      split at hst
      · simp only [Option.some.injEq, Sat2Ground.send, ha, Bool.true_eq_false, if_false] at hst
        split at hst
        · simp only [Outcome.ok.injEq] at hst
          subst hst
          simp [offered, powerAfter]
        · simp only [Sat2Ground.transmitStart] at hst
          rw [Outcome.bind_eq_ok] at hst
          obtain ⟨-, -, hst⟩ := hst
          split at hst
          · simp at hst
          · simp only [Outcome.ok.injEq] at hst
            subst hst
            simp [offered, powerAfter]
      · simp at hst
    | setPower t q =>
      simp only [Sat2Ground.step] at hst
      split at hst
      · simp only [Option.some.injEq, Outcome.ok.injEq] at hst
        subst hst
        simp [offered, powerAfter]
      · simp at hst
    | run =>
      simp only [Sat2Ground.step] at hst
      split at hst
      · simp at hst
      · simp only [Option.some.injEq, Sat2Ground.transmitComplete] at hst
        split at hst
        · simp only [Outcome.ok.injEq] at hst
          subst hst
          simp [offered, powerAfter]
        · simp only [Sat2Ground.transmitStart] at hst
          rw [Outcome.bind_eq_ok] at hst
          obtain ⟨-, -, hst⟩ := hst
          split at hst
          · simp at hst
          · simp only [Outcome.ok.injEq] at hst
            subst hst
            simp [offered, powerAfter]
  exact key.1

variable [DecidableEq G] [DecidableEq D]

omit [DecidableEq G] in
theorem offered_filter (p : W) (d : D) (ops : List (Op D G W)) :
    offered p (opsOf d (ops.filter (fun o => !o.internal))) = offered p (opsOf d ops) := by
  have h1 : ∀ d' t pkt len proto, (Op.sat (D := D) (G := G) (W := W) d' (.send t pkt len proto)).internal = false := fun _ _ _ _ _ => rfl
  have h2 : ∀ d', (Op.sat (D := D) (G := G) (W := W) d' .run).internal = true := fun _ => rfl
  have h3 : (Op.arrive (D := D) (G := G) (W := W)).internal = true := rfl
  have h4 : ∀ d', (Op.finish (D := D) (G := G) (W := W) d').internal = true := fun _ => rfl
  have h5 : ∀ d' t q, (Op.sat (D := D) (G := G) (W := W) d' (.setPower t q)).internal = false := fun _ _ _ => rfl
  have h6 : ∀ g t a, (Op.track (D := D) (G := G) (W := W) g t a).internal = false := fun _ _ _ => rfl
  induction ops generalizing p with
  | nil => rfl
  | cons o os ih =>
    simp only [opsOf] at ih ⊢
    cases o with
    | sat d' o =>
      cases o with
      | send t pkt len proto => by_cases hd : d' = d <;> simp [h1, hd, offered, ih]
      | setPower t q => by_cases hd : d' = d <;> simp [h5, hd, offered, ih]
      | run => by_cases hd : d' = d <;> simp [h2, hd, offered, ih]
    | track g t a => simp [h6, ih]
    | arrive => simp [h3, ih]
    | finish d' => simp [h4, ih]

variable [Fintype G] [Fintype D] {net : Net D G V W} {w : World D G W}

theorem runs (hsky : Sky net w) :
    Runs (step net) (Sys.init net) Op.internal (work net.chan.ground.length) Op.time Sys.clock due Quiet (fun _ => True) where
  start := rfl
  less := fun _ o s s' _ ho hs => (step_work ho hs).1
  okay := fun ops r _ h => by obtain ⟨s, hs, -⟩ := run_ok hsky h; exact ⟨s, hs⟩
  free := fun _ _ => trivial
  internal := fun _ _ _ _ => trivial
  left := fun _ _ _ => trivial
  more := fun ops s _ h hq => (C59_progress hsky h).1 hq
  when := by
    intro s o s' ho h
    cases o with
    | sat d o => obtain ⟨t, st, a, -, h2, -, -, rfl⟩ := step_sat h; exact h2
    | track g t a => obtain ⟨st, h2, -, rfl⟩ := step_track h; exact h2
    | arrive => obtain ⟨t, d, f, rest, st, -, h2, -, rfl⟩ := step_arrive h; exact h2
    | finish d => obtain ⟨t, u, es, st, -, h2, -, rfl⟩ := step_finish h; exact h2
  late := by
    intro s t hc hn
    have : (∃ d, ∃ e ∈ (s.sats d).events, e.1 < t) ∨ (∃ e ∈ s.flying, e.1 < t) ∨ ∃ d, ∃ e ∈ (s.stations d).pending, e.1 < t := by
      by_contra hno
      push Not at hno
      exact hn ⟨hc, hno.1, hno.2.1, hno.2.2⟩
    rcases this with ⟨d, e, he, hlt⟩ | ⟨e, he, hlt⟩ | ⟨d, e, he, hlt⟩
    · exact ⟨fun hq => by rw [hq.1 d] at he; simp at he, fun u hu => by have := hu.2.1 d e he; omega⟩
    · exact ⟨fun hq => by rw [hq.2.1] at he; simp at he, fun u hu => by have := hu.2.2.1 e he; omega⟩
    · exact ⟨fun hq => by rw [hq.2.2 d] at he; simp at he, fun u hu => by have := hu.2.2.2 d e he; omega⟩
  call := by
    intro ops s o _ h ho hd
    cases o with
    | sat d o =>
      cases o with
      | send t pkt len proto => exact ((C59_progress hsky h).2 t hd).1 d pkt len proto
      | setPower t q =>
        have hd' : due s t := hd
        obtain ⟨-, b1, -⟩ := onTime hsky h
        have hp : Sat2Ground.possible (s.sats d) t := ⟨Nat.le_trans (b1 d) hd'.1, hd'.2.1 d⟩
        simp only [step, opTime, if_pos hd', Sat2Ground.step, if_pos hp]
        exact ⟨_, rfl⟩
      | run => simp [Op.internal] at ho
    | track g t a => exact ((C59_progress hsky h).2 t hd).2 g a
    | arrive => simp [Op.internal] at ho
    | finish d => simp [Op.internal] at ho
  then_ := by
    intro s o s' ho h
    cases o with
    | sat d o =>
      cases o with
      | send t pkt len proto =>
        obtain ⟨t', st, a, h1, -, -, -, rfl⟩ := step_sat h
        simp only [opTime, Option.some.injEq] at h1
        exact h1.symm
      | setPower t q =>
        obtain ⟨t', st, a, h1, -, -, -, rfl⟩ := step_sat h
        simp only [opTime, Option.some.injEq] at h1
        exact h1.symm
      | run => simp [Op.internal] at ho
    | track g t a => obtain ⟨st, -, -, rfl⟩ := step_track h; rfl
    | arrive => simp [Op.internal] at ho
    | finish d => simp [Op.internal] at ho

/-- Every traffic from the satellites to the ground can be simulated: for every list of calls of `Send`, `SetTxPower` and `SetRemoteAddress` in the
order of their times there is an execution that makes these calls and no others and runs until nothing is scheduled any more.  If the
queues never drop a packet, every packet is accepted. -/
theorem C92_downlink (hsky : Sky net w) {calls : List (Op D G W)} (hext : ∀ o ∈ calls, o.internal = false)
    (hsorted : calls.Pairwise (fun a b => a.time ≤ b.time)) :
    ∃ ops s, exec net ops = some (.ok s) ∧ ops.filter (fun o => !o.internal) = calls ∧ Quiet s ∧
      ∀ d, (∀ q x, net.accept d q x = true) → (s.sats d).accepted = offered (net.power d) (opsOf d calls) := by
  obtain ⟨ops, s, h1, h2, h3⟩ := (runs hsky).realize trivial hext hsorted
  refine ⟨ops, s, h1, h2, h3, fun d hd => ?_⟩
  rw [accepted_offered hd (C59_satellite h1 d), ← h2, offered_filter]

/-- Two satellites send, one of them raises its power, and a station changes its satellite in the instant of a call of `Send`. -/
example : ∃ ops s, exec exNet ops = some (.ok s) ∧
    ops.filter (fun o => !o.internal) = [.sat 0 (.send 3 11 4 7), .sat 1 (.setPower 4 20), .sat 1 (.send 5 12 4 7), .track 0 5 (exNet.addr 1)] ∧
    Quiet s := by
  obtain ⟨ops, s, h1, h2, h3, -⟩ := C92_downlink exSky
    (calls := [.sat 0 (.send 3 11 4 7), .sat 1 (.setPower 4 20), .sat 1 (.send 5 12 4 7), .track 0 5 (exNet.addr 1)]) (by decide) (by decide)
  exact ⟨ops, s, h1, h2, h3⟩

end Downlink

/-! ## From the ground to the satellites -/

namespace Uplink
open GroundSatChannel
open GroundSta (Entry Mac Ev Once)

variable {D G V W P R : Type}

/-- When a call is made. -/
def Op.time : Op D G W → Nat
  | .station _ (.send t _ _ _) => t
  | .station _ (.setRemote t _) => t
  | .station _ (.setPower t _) => t
  | _ => 0

theorem accepted_requests {debug : Bool} {mac : Mac} {accept : List (Entry W) → Entry W → Bool} (ha : ∀ q x, accept q x = true) {remote : SatAddress}
    {p : W} {ops : List (GroundSta.Op W)} {s : GroundSta.Sys W} (h : GroundSta.exec debug mac accept remote p ops = some (.ok s)) :
    s.accepted = requests remote p ops := by
  have hmac : ∀ (s : GroundSta.Sys W) (t : Nat) (x : Entry W), (GroundSta.macSend mac s t x).refused = s.refused := by
    intro s t x
    unfold GroundSta.macSend
    split <;> rfl
  have hstart : ∀ (s s' : GroundSta.Sys W) (t : Nat), GroundSta.transmitStart debug mac s t = .ok s' → s'.refused = s.refused := by
    intro s s' t h
    simp only [GroundSta.transmitStart] at h
    rw [Outcome.bind_eq_ok] at h
    obtain ⟨-, -, h⟩ := h
    split at h
    · simp at h
    · simp only [Outcome.ok.injEq] at h
      rw [← h, hmac]
  have href : s.refused = [] := by
    refine run_induction (P := fun _ s => s.refused = []) rfl ?_ h
    intro ops o s s' _ hp hst
    cases o with
    | send t pkt len proto =>
      simp only [GroundSta.step] at hst
      split at hst
      · simp only [Option.some.injEq, GroundSta.send, ha, Bool.true_eq_false, if_false] at hst
        split at hst
        · simp only [Outcome.ok.injEq] at hst
          subst hst
          exact hp
        · exact (hstart _ _ _ hst).trans hp
      · simp at hst
    | setRemote t a =>
      simp only [GroundSta.step] at hst
      split at hst
      · simp only [Option.some.injEq, Outcome.ok.injEq] at hst
        subst hst
        exact hp
      · simp at hst
    | setPower t a =>
      simp only [GroundSta.step] at hst
      split at hst
      · simp only [Option.some.injEq, Outcome.ok.injEq] at hst
        subst hst
        exact hp
      · simp at hst
    | run =>
      simp only [GroundSta.step] at hst
      split at hst
      · simp at hst
      · simp only [Option.some.injEq, Outcome.ok.injEq] at hst
        subst hst
        exact hp
      · simp only [Option.some.injEq, GroundSta.transmitComplete] at hst
        split at hst
        · simp only [Outcome.ok.injEq] at hst
          subst hst
          exact hp
        · exact (hstart _ _ _ hst).trans hp
  obtain ⟨h1, h2⟩ := C34_accepted_or_dropped h
  rw [href, List.append_nil] at h1
  exact h2.eq_of_length h1.length_eq

section
variable [DecidableEq G]

theorem filter_opsOf (g : G) (ops : List (Op D G W)) :
    opsOf g (ops.filter (fun o => !o.internal)) = (opsOf g ops).filter (fun o => match o with | .run => false | _ => true) := by
  have h1 : ∀ g t pkt len proto, (Op.station (D := D) (G := G) (W := W) g (.send t pkt len proto)).internal = false := fun _ _ _ _ _ => rfl
  have h2 : ∀ g, (Op.station (D := D) (G := G) (W := W) g .run).internal = true := fun _ => rfl
  have h3 : (Op.arrive (D := D) (G := G) (W := W)).internal = true := rfl
  have h4 : ∀ d', (Op.finish (D := D) (G := G) (W := W) d').internal = true := fun _ => rfl
  have h5 : ∀ g t q, (Op.station (D := D) (G := G) (W := W) g (.setPower t q)).internal = false := fun _ _ _ => rfl
  have h6 : ∀ g t a, (Op.station (D := D) (G := G) (W := W) g (.setRemote t a)).internal = false := fun _ _ _ => rfl
  induction ops with
  | nil => rfl
  | cons o os ih =>
    simp only [opsOf] at ih ⊢
    cases o with
    | station g' o =>
      cases o with
      | send t pkt len proto => by_cases hd : g' = g <;> simp [h1, hd, ih]
      | setRemote t a => by_cases hd : g' = g <;> simp [h6, hd, ih]
      | setPower t a => by_cases hd : g' = g <;> simp [h5, hd, ih]
      | run => by_cases hd : g' = g <;> simp [h2, hd, ih]
    | arrive => simp [h3, ih]
    | finish d' => simp [h4, ih]

theorem requests_filter (a : SatAddress) (p : W) (g : G) (ops : List (Op D G W)) :
    requests a p (opsOf g (ops.filter (fun o => !o.internal))) = requests a p (opsOf g ops) := by
  rw [filter_opsOf]
  generalize opsOf g ops = l
  induction l generalizing a p with
  | nil => rfl
  | cons o os ih => cases o <;> simp [requests, ih]

theorem tracked_filter (g : G) (ops : List (Op D G W)) : tracked (opsOf g (ops.filter (fun o => !o.internal))) = tracked (opsOf g ops) := by
  rw [filter_opsOf]
  generalize opsOf g ops = l
  induction l with
  | nil => rfl
  | cons o os ih => cases o <;> simp [tracked, ih]
end

variable [Fintype G] [Fintype D] [DecidableEq G] [DecidableEq D]
  {hasOrbit : D → Bool} {cid n m : Nat} {hist : List (Nat × Nat × D)} {as : List SatAddress} {k : Constellation D}
  {w : World D G W} {net : Net D G V W P R}

omit [DecidableEq G] [DecidableEq D] in
theorem due_late {s : Sys D G W R} {t : Nat} (hc : s.clock ≤ t) (hn : ¬ due net s t) : ¬ Quiet net s ∧ ∀ u, due net s u → u ≤ t := by
  have : (∃ d, ∃ e ∈ (s.stations d).events, e.1 < t) ∨ (∃ e ∈ s.flying, e.1 < t) ∨ ∃ d, ∃ e ∈ net.rx.due (s.sats d), e < t := by
    by_contra hno
    push Not at hno
    exact hn ⟨hc, hno.1, hno.2.1, hno.2.2⟩
  rcases this with ⟨d, e, he, hlt⟩ | ⟨e, he, hlt⟩ | ⟨d, e, he, hlt⟩
  · exact ⟨fun hq => by rw [hq.1 d] at he; simp at he, fun u hu => by have := hu.2.1 d e he; omega⟩
  · exact ⟨fun hq => by rw [hq.2.1] at he; simp at he, fun u hu => by have := hu.2.2.1 e he; omega⟩
  · exact ⟨fun hq => by rw [hq.2.2 d] at he; simp at he, fun u hu => by have := hu.2.2.2 d e he; omega⟩

theorem step_due {s s' : Sys D G W R} {o : Op D G W} (h : step net s o = some (.ok s')) : due net s s'.clock := by
  cases o with
  | station d o => obtain ⟨t, st, a, -, h2, -, -, rfl⟩ := step_station h; exact h2
  | arrive => obtain ⟨t, d, f, rest, st, -, h2, -, rfl⟩ := step_arrive h; exact h2
  | finish d => obtain ⟨t, es, st, -, h2, -, rfl⟩ := step_finish h; exact h2

theorem step_call {s s' : Sys D G W R} {o : Op D G W} (ho : o.internal = false) (h : step net s o = some (.ok s')) : s'.clock = o.time := by
  cases o with
  | station d o =>
    obtain ⟨t', st, a, h1, -, -, -, rfl⟩ := step_station h
    cases o with
    | send t pkt len proto => simp only [opTime, Option.some.injEq] at h1; exact h1.symm
    | setRemote t a => simp only [opTime, Option.some.injEq] at h1; exact h1.symm
    | setPower t a => simp only [opTime, Option.some.injEq] at h1; exact h1.symm
    | run => simp [Op.internal] at ho
  | arrive => simp [Op.internal] at ho
  | finish d => simp [Op.internal] at ho

theorem call_possible {clock : R → Nat} (ho : Orderly net.rx clock) (hb : Built net.endian hasOrbit cid n m hist as k) (hfit : Fits16 cid n m)
    (hk : net.chan.constellation = some k) (hsky : Sky net w) {ops : List (Op D G W)} (hl : Launched net hist as ops) {s : Sys D G W R}
    (h : exec net ops = some (.ok s)) {o : Op D G W} (hi : o.internal = false) (hd : due net s o.time) : ∃ r, step net s o = some r := by
  cases o with
  | station g o =>
    obtain ⟨-, b1, -⟩ := onTime ho hb hfit hk hsky hl h
    have hp : GroundSta.possible (s.stations g) (Op.station (D := D) g o).time := ⟨Nat.le_trans (b1 g) hd.1, hd.2.1 g⟩
    cases o with
    | send t pkt len proto =>
      simp only [Op.time] at hd hp
      simp only [step, opTime, if_pos hd, GroundSta.step, if_pos hp]
      exact ⟨_, rfl⟩
    | setRemote t a =>
      simp only [Op.time] at hd hp
      simp only [step, opTime, if_pos hd, GroundSta.step, if_pos hp]
      exact ⟨_, rfl⟩
    | setPower t a =>
      simp only [Op.time] at hd hp
      simp only [step, opTime, if_pos hd, GroundSta.step, if_pos hp]
      exact ⟨_, rfl⟩
    | run => simp [Op.internal] at hi
  | arrive => simp [Op.internal] at hi
  | finish d => simp [Op.internal] at hi

omit [Fintype G] [Fintype D] [DecidableEq D] in
theorem launched_free {ops : List (Op D G W)} (h : Launched net hist as (ops.filter (fun o => !o.internal))) : Launched net hist as ops := by
  intro g a ha
  refine h g a ?_
  rwa [tracked_filter]

theorem runs {clock : R → Nat} (hsafe : Safe net.rx) (ho : Orderly net.rx clock) (h1e : OneEach net.rx) {K : Nat}
    (hK : ∀ g, Copies (net.mac g) K) (hb : Built net.endian hasOrbit cid n m hist as k) (hfit : Fits16 cid n m)
    (hk : net.chan.constellation = some k) (hsky : Sky net w) :
    Runs (step net) (Sys.init net) Op.internal (work net K) Op.time Sys.clock (due net) (Quiet net) (Launched net hist as) where
  start := rfl
  less := fun _ o s s' _ hi hs => (step_work ho h1e hK hi hs).1
  okay := fun ops r hl h => by obtain ⟨s, hs, -⟩ := run_ok hsafe hb hfit hk hsky hl h; exact ⟨s, hs⟩
  free := fun _ h => launched_free h
  internal := fun _ _ hc hi => hc.internal (by simpa using hi)
  left := fun _ _ h => h.left
  more := fun ops s hl h hq => (C55_progress ho hb hfit hk hsky hl h).1 hq
  when := fun _ _ _ _ h => step_due h
  late := fun _ _ hc hn => due_late hc hn
  call := fun _ _ _ hl h hi hd => call_possible ho hb hfit hk hsky hl h hi hd
  then_ := fun _ _ _ hi h => step_call hi h

/-- Every traffic from the ground can be simulated, with receivers that never fail (those of `NoneMacModel` and `AlohaMacModel`): for every list of
calls of `Send`, `SetRemoteAddress` and `SetTxPower`, in the order of their times, that only track launched satellites, there is an execution
that makes these calls and no others and runs until nothing is scheduled any more.  If the queues never drop a packet, every packet is
accepted, at the time of the call, with the address and the power of that time. -/
theorem C92_uplink {clock : R → Nat} (hsafe : Safe net.rx) (ho : Orderly net.rx clock) (h1e : OneEach net.rx) {K : Nat}
    (hK : ∀ g, Copies (net.mac g) K) (hb : Built net.endian hasOrbit cid n m hist as k) (hfit : Fits16 cid n m)
    (hk : net.chan.constellation = some k) (hsky : Sky net w) {calls : List (Op D G W)} (hl : Launched net hist as calls)
    (hext : ∀ o ∈ calls, o.internal = false) (hsorted : calls.Pairwise (fun a b => a.time ≤ b.time)) :
    ∃ ops s, exec net ops = some (.ok s) ∧ ops.filter (fun o => !o.internal) = calls ∧ Launched net hist as ops ∧ Quiet net s ∧
      ∀ g, (∀ q x, net.accept g q x = true) → (s.stations g).accepted = requests (net.remote g) (net.power g) (opsOf g calls) := by
  obtain ⟨ops, s, h1, h2, h3⟩ := (runs hsafe ho h1e hK hb hfit hk hsky).realize hl hext hsorted
  refine ⟨ops, s, h1, h2, launched_free (by rw [h2]; exact hl), h3, fun g hg => ?_⟩
  rw [accepted_requests hg (C55_station h1 g), ← h2, requests_filter]

omit [Fintype G] [Fintype D] [DecidableEq G] [DecidableEq D] in
theorem Ends.oneEach {pend : R → List (Aloha.Frame P)} {strict : R → Aloha.Op P → Option (Outcome R)} (he : Ends net.rx pend strict) :
    OneEach net.rx := by
  intro r f r' hr
  obtain ⟨r2, e1, e2⟩ := he.arrived r f _ hr
  simp only [Outcome.ok.injEq] at e1
  subst e1
  rw [he.due, he.due, e2, List.length_map, List.length_map, schedule_length]

/-- In the order of ns-3, for any kind of calls `C` that never make a receiver fail. -/
theorem oruns {pend : R → List (Aloha.Frame P)} {strict : R → Aloha.Op P → Option (Outcome R)} {clock : R → Nat} {C : List (Op D G W) → Prop}
    (ho : Orderly net.rx clock) (he : Ends net.rx pend strict) {K : Nat} (hK : ∀ g, Copies (net.mac g) K)
    (hb : Built net.endian hasOrbit cid n m hist as k) (hfit : Fits16 cid n m)
    (hk : net.chan.constellation = some k) (hsky : Sky net w) (hC : ∀ ops, C ops → Launched net hist as ops)
    (hleft : ∀ a b, C (a ++ b) → C a) (hfil : ∀ ops, C (ops.filter (fun o => !o.internal)) ↔ C ops)
    (hok : ∀ ops r, C ops → oexec net pend ops = some r → ∃ s, r = .ok s) :
    Runs (ostep net pend) ⟨Sys.init net, []⟩ Op.internal (fun s => work net K s.sys) Op.time (fun s => s.sys.clock) (fun s => due net s.sys)
      (fun s => Quiet net s.sys) C where
  start := rfl
  less := fun _ o s s' _ hi hs => (step_work ho he.oneEach hK hi (ostep_erase hs)).1
  okay := hok
  free := fun ops h => (hfil ops).mp h
  internal := by
    intro ops o hc hi
    rw [← hfil, List.filter_append]
    rw [← hfil] at hc
    simpa [hi] using hc
  left := hleft
  more := fun ops s hl h hq => (C80_progress ho he hb hfit hk hsky (hC ops hl) h).1 hq
  when := fun _ _ _ _ h => step_due (ostep_erase h)
  late := fun _ _ hc hn => due_late hc hn
  call := by
    intro ops s o hl h hi hd
    obtain ⟨r, hr⟩ := call_possible ho hb hfit hk hsky (hC ops hl) (C80_refines h) hi hd
    cases o with
    | station g o =>
      simp only [ostep, hr]
      exact ⟨_, rfl⟩
    | arrive => simp [Op.internal] at hi
    | finish d => simp [Op.internal] at hi
  then_ := fun _ _ _ hi h => step_call hi (ostep_erase h)

/-- The same in the order in which ns-3 runs events of the same instant (C80). -/
theorem C92_ordered {pend : R → List (Aloha.Frame P)} {strict : R → Aloha.Op P → Option (Outcome R)} {clock : R → Nat} (hsafe : Safe net.rx)
    (ho : Orderly net.rx clock) (he : Ends net.rx pend strict) {K : Nat} (hK : ∀ g, Copies (net.mac g) K)
    (hb : Built net.endian hasOrbit cid n m hist as k) (hfit : Fits16 cid n m)
    (hk : net.chan.constellation = some k) (hsky : Sky net w) {calls : List (Op D G W)} (hl : Launched net hist as calls)
    (hext : ∀ o ∈ calls, o.internal = false) (hsorted : calls.Pairwise (fun a b => a.time ≤ b.time)) :
    ∃ ops s, oexec net pend ops = some (.ok s) ∧ ops.filter (fun o => !o.internal) = calls ∧ Launched net hist as ops ∧ Quiet net s.sys ∧
      ∀ g, (∀ q x, net.accept g q x = true) → (s.sys.stations g).accepted = requests (net.remote g) (net.power g) (opsOf g calls) := by
  have hfil : ∀ ops : List (Op D G W), Launched net hist as (ops.filter (fun o => !o.internal)) ↔ Launched net hist as ops := by
    intro ops
    unfold Launched
    simp only [tracked_filter]
  obtain ⟨ops, s, h1, h2, h3⟩ := (oruns ho he hK hb hfit hk hsky (fun _ h => h) (fun _ _ h => h.left) hfil
    (fun ops r hl h => orun_ok hsafe hb hfit hk hsky hl h)).realize hl hext hsorted
  refine ⟨ops, s, h1, h2, launched_free (by rw [h2]; exact hl), h3, fun g hg => ?_⟩
  rw [accepted_requests hg (C55_station (C80_refines h1) g), ← h2, requests_filter]

/-- CRDSA with at most two replicas, in the order of ns-3: every traffic of distinct packets that fit their slots can be simulated, and then each
satellite passes up exactly the packets that can be decoded, slot by slot, from what reached it, each once.  (The receiver fails in other
executions; here none of them is met.) -/
theorem C92_crdsa {net : Net D G V W P (Crdsa.Sys P)} [Zero P] [Add P] {lost : P → P → Bool} {slot slots : Nat}
    (hrx : net.rx = crdsaReceiver lost (slot * slots))
    {Q : P → Prop} (hlost : Aloha.Drops lost Q) (hb : Built net.endian hasOrbit cid n m hist as k) (hfit : Fits16 cid n m)
    (hk : net.chan.constellation = some k) (hsky : Sky net w)
    (hs : 0 < slot) (hn : 0 < slots) (h64 : slot * slots < 2 ^ 64) {shuffle : G → Nat → List Nat} {replicas : G → Nat → Nat}
    (hm : ∀ g, IsCrdsa (net.mac g) slot slots (shuffle g) (replicas g)) (hone : ∀ g k, 1 ≤ replicas g k) (htwo : ∀ g k, replicas g k ≤ 2)
    {lo hi : D → Nat} (hdelay : ∀ t g d, lo d ≤ w.delay t g d ∧ w.delay t g d ≤ hi d) {calls : List (Op D G W)}
    (hl : Launched net hist as calls) (hdist : Distinct net calls)
    (hpow : ∀ g d, ∀ y ∈ given net calls g, ∀ t, Q (net.toP (w.power t g d y.2.power)))
    (hlen : ∀ g d, ∀ y ∈ given net calls g, hi d < y.2.len ∧ y.2.len + (hi d - lo d) ≤ slot)
    (hext : ∀ o ∈ calls, o.internal = false) (hsorted : calls.Pairwise (fun a b => a.time ≤ b.time)) :
    ∃ ops s, oexec net Crdsa.Sys.pending ops = some (.ok s) ∧ ops.filter (fun o => !o.internal) = calls ∧ Quiet net s.sys ∧
      (∀ g, (∀ q x, net.accept g q x = true) → (s.sys.stations g).handed.map Prod.snd = (given net calls g).map Prod.snd) ∧
      ∀ d, ((net.rx.delivered (s.sys.sats d)).map Prod.snd).Nodup ∧ ∀ u, u ∈ (net.rx.delivered (s.sys.sats d)).map Prod.snd ↔
        Decodable (InSlot slot slots w (target hist as) (fun g k => (shuffle g k).take (replicas g k)) (fun g => (s.sys.stations g).handed) d) u := by
  have he : Ends net.rx Crdsa.Sys.pending (Crdsa.step true false lost (slot * slots)) := by rw [hrx]; exact crdsa_ends lost _
  have ho : Orderly net.rx Crdsa.Sys.clock := by rw [hrx]; exact crdsa_orderly lost _
  have hK : ∀ g, Copies (net.mac g) 2 := fun g => crdsa_copies (hm g) (hone g) (htwo g)
  have hgiven : ∀ (ops : List (Op D G W)) (g : G), given net (ops.filter (fun o => !o.internal)) g = given net ops g :=
    fun ops g => requests_filter _ _ g ops
  have hsub : ∀ (a b : List (Op D G W)) (g : G), ∃ l, given net (a ++ b) g = given net a g ++ l := by
    intro a b g
    unfold given
    rw [opsOf_append, requests_append]
    exact ⟨_, rfl⟩
  let C : List (Op D G W) → Prop := fun ops => Launched net hist as ops ∧ Distinct net ops ∧
    (∀ g d, ∀ y ∈ given net ops g, ∀ t, Q (net.toP (w.power t g d y.2.power))) ∧
    ∀ g d, ∀ y ∈ given net ops g, hi d < y.2.len ∧ y.2.len + (hi d - lo d) ≤ slot
  have hfil : ∀ ops, C (ops.filter (fun o => !o.internal)) ↔ C ops := by
    intro ops
    simp only [C, Launched, Distinct, tracked_filter, hgiven]
  have hleft : ∀ a b, C (a ++ b) → C a := by
    rintro a b ⟨c1, c2, c3, c4⟩
    have hmem : ∀ g y, y ∈ given net a g → y ∈ given net (a ++ b) g := by
      intro g y hy
      obtain ⟨l, e⟩ := hsub a b g
      rw [e]
      exact List.mem_append_left _ hy
    refine ⟨c1.left, ⟨fun g => ?_, fun g h hgh y hy z hz => c2.2 g h hgh y (hmem g y hy) z (hmem h z hz)⟩,
      fun g d y hy => c3 g d y (hmem g y hy), fun g d y hy => c4 g d y (hmem g y hy)⟩
    obtain ⟨l, e⟩ := hsub a b g
    have := c2.1 g
    rw [e, List.map_append] at this
    exact (List.nodup_append.mp this).1
  have hend : ∀ ops r, C ops → oexec net Crdsa.Sys.pending ops = some r → _ := fun ops r hc h =>
    C80_crdsa_full_slots hrx hlost hb hfit hk hsky hs hn h64 hm htwo hdelay hc.1 hc.2.1 hc.2.2.1 hc.2.2.2 h
  have hCl : C calls := ⟨hl, hdist, hpow, hlen⟩
  obtain ⟨ops, s, h1, h2, h3⟩ := (oruns ho he hK hb hfit hk hsky (C := C) (fun _ h => h.1) hleft hfil
    (fun ops r hc h => by obtain ⟨s, hs, -⟩ := hend ops r hc h; exact ⟨s, hs⟩)).realize hCl hext hsorted
  have hCo : C ops := (hfil ops).mp (by rw [h2]; exact hCl)
  obtain ⟨s', e, h4⟩ := hend ops _ hCo h1
  simp only [Outcome.ok.injEq] at e
  subst e
  refine ⟨ops, s, h1, h2, h3, fun g hg => ?_, h4 h3⟩
  obtain ⟨g1, g2, g3⟩ := going (hK g) (C55_station (C80_refines h1) g)
  have hqe : (s.sys.stations g).queue = [] := by
    by_contra hne
    exact g2 (g1 hne) (h3.1 g)
  rw [hqe, List.append_nil] at g3
  rw [g3, accepted_requests hg (C55_station (C80_refines h1) g), ← h2, hgiven]
  rfl

/-- Two stations send at the same time; one changes its satellite between its two packets. -/
def exCalls : List (Op (Fin 2) (Fin 2) Int) :=
  [.station 0 (.send 3 11 4 7), .station 1 (.send 3 12 4 7), .station 0 (.setRemote 5 (SatAddress.mk3 .little 1 0 1)), .station 0 (.send 5 13 4 7)]

example : ∃ ops s, exec (exNet (noneReceiver Int)) ops = some (.ok s) ∧ ops.filter (fun o => !o.internal) = exCalls ∧
    Quiet (exNet (noneReceiver Int)) s := by
  obtain ⟨ops, s, h1, h2, -, h3, -⟩ := C92_uplink (net := exNet (noneReceiver Int)) (safe_map rfl) none_orderly none_oneEach
    (K := 1) (fun _ => ⟨Nat.le_refl _, by simp [exNet, noneMac]⟩) exBuilt (by unfold Fits16; decide) rfl (exSky _) (calls := exCalls) (by unfold Launched; decide) (by decide) (by decide)
  exact ⟨ops, s, h1, h2, h3⟩

/-- With Aloha receivers, in the order of ns-3. -/
example : ∃ ops s, oexec (exNet (alohaReceiver intLost)) Aloha.Sys.pending ops = some (.ok s) ∧ ops.filter (fun o => !o.internal) = exCalls ∧
    Quiet (exNet (alohaReceiver intLost)) s.sys := by
  obtain ⟨ops, s, h1, h2, -, h3, -⟩ := C92_ordered (net := exNet (alohaReceiver intLost)) (safe_map rfl) (aloha_orderly _) (aloha_ends _)
    (K := 1) (fun _ => ⟨Nat.le_refl _, by simp [exNet, noneMac]⟩) exBuilt (by unfold Fits16; decide) rfl (exSky _) (calls := exCalls) (by unfold Launched; decide) (by decide) (by decide)
  exact ⟨ops, s, h1, h2, h3⟩

/-- CRDSA with the calls of `nearCrdsaOps`. -/
example : ∃ ops s, oexec nearCrdsa Crdsa.Sys.pending ops = some (.ok s) ∧
    ops.filter (fun o => !o.internal) = [.station 0 (.send 0 11 10 7), .station 1 (.send 0 12 10 7)] ∧ Quiet nearCrdsa s.sys := by
  obtain ⟨ops, s, h1, h2, h3, -⟩ := C92_crdsa (w := nearWorld) (lo := fun _ => 3) (hi := fun _ => 3) (net := nearCrdsa) (slot := 10) (slots := 4) rfl
    intLost_drops exBuilt (by unfold Fits16; decide) rfl (nearSky _ _) (by omega) (by omega) (by omega) crdsaMac_crdsa (fun _ _ => by decide)
    (fun _ _ => le_refl _) (fun _ _ _ => ⟨le_refl _, le_refl _⟩) (calls := [.station 0 (.send 0 11 10 7), .station 1 (.send 0 12 10 7)])
    (by unfold Launched; decide) (by unfold Distinct; decide) (fun _ _ _ _ _ => by simp only [nearCrdsa, nearNet]; omega) (by decide) (by decide) (by decide)
  exact ⟨ops, s, h1, h2, h3⟩

end Uplink
end Icarus
