import Verif.Model.Network
import Verif.Props.Uplink
import Verif.Props.Downlink
import Verif.Props.IslNet
import Verif.Props.Crdsa
import Verif.Props.GroundSta
import Verif.Props.Sat2GroundDevice
import Verif.Props.SatNetDevice

/-!
# Property C73: what travels through the network

Uplink, downlink and inter-satellite links run together, with arbitrary nodes on top of them.  Every part of the network does what the theorems about
it alone say (C55, C58 - C60), and whatever a node receives has come from a node that sent it of its own accord, link by link, and not faster than
the links allow.
-/

set_option autoImplicit false

namespace Icarus
namespace Network
open GroundSatChannel

variable {D G E V W P R : Type}

/-! ## The three parts -/

section
variable [Fintype G] [Fintype D] [Fintype E] [DecidableEq G] [DecidableEq D] [DecidableEq E]

theorem step_ok {net : Net D G E V W P R} {s s' : Sys D G E W R} {o : Op D G E W} (h : step net s o = some (.ok s')) :
    ∃ t, time net s o = some t ∧ Uplink.due net.up s.up t ∧ Downlink.due s.down t ∧ IslNet.due s.isl t ∧
      part (Uplink.step net.up) s.up (toUp o) = some (.ok s'.up) ∧ part (Downlink.step net.down) s.down (toDown o) = some (.ok s'.down) ∧
      part (IslNet.step net.isl) s.isl (toIsl o) = some (.ok s'.isl) := by
  unfold step at h
  split at h
  · simp at h
  · rename_i t ht
    split at h
    · rename_i hd
      split at h
      · rename_i a b c ha hb hc
        simp only [Option.some.injEq] at h
        rw [Outcome.bind_eq_ok] at h
        obtain ⟨a', rfl, h⟩ := h
        rw [Outcome.bind_eq_ok] at h
        obtain ⟨b', rfl, h⟩ := h
        rw [Outcome.bind_eq_ok] at h
        obtain ⟨c', rfl, h⟩ := h
        simp only [Outcome.ok.injEq] at h
        subst h
        exact ⟨t, ht, hd.1, hd.2.1, hd.2.2, ha, hb, hc⟩
      · simp at h
    · simp at h

omit [Fintype G] [Fintype D] [Fintype E] [DecidableEq G] [DecidableEq D] [DecidableEq E] in
theorem part_run {S O A : Type} {step : S → O → Option (Outcome S)} {f : A → Option O} {s0 s s' : S} {ops : List A} {o : A}
    (h : runFrom step s0 (ops.filterMap f) = some (.ok s)) (hp : part step s (f o) = some (.ok s')) :
    runFrom step s0 ((ops ++ [o]).filterMap f) = some (.ok s') := by
  rw [List.filterMap_append, List.filterMap_cons, List.filterMap_nil]
  cases hf : f o with
  | none =>
    rw [hf] at hp
    simp only [part, Option.some.injEq, Outcome.ok.injEq] at hp
    subst hp
    simpa using h
  | some x =>
    rw [hf] at hp
    exact runFrom_snoc.mpr ⟨s, h, hp⟩

/-- Every part of the network, seen alone, does what its own model does with the calls and events that concern it: what has been proved about the
uplink, the downlink and the inter-satellite links alone holds for them in the whole network. -/
theorem C73_parts {net : Net D G E V W P R} {ops : List (Op D G E W)} {s : Sys D G E W R} (h : exec net ops = some (.ok s)) :
    Uplink.exec net.up (ops.filterMap toUp) = some (.ok s.up) ∧ Downlink.exec net.down (ops.filterMap toDown) = some (.ok s.down) ∧
      IslNet.exec net.isl (ops.filterMap toIsl) = some (.ok s.isl) := by
  refine run_induction (P := fun ops s => Uplink.exec net.up (ops.filterMap toUp) = some (.ok s.up) ∧
    Downlink.exec net.down (ops.filterMap toDown) = some (.ok s.down) ∧ IslNet.exec net.isl (ops.filterMap toIsl) = some (.ok s.isl))
    ⟨rfl, rfl, rfl⟩ ?_ h
  rintro ops o s s' - ⟨h1, h2, h3⟩ hst
  obtain ⟨t, -, -, -, -, p1, p2, p3⟩ := step_ok hst
  exact ⟨part_run h1 p1, part_run h2 p2, part_run h3 p3⟩

/-! ## The setting -/

/-- Delays, powers and admission on the ground-satellite links (the same in both directions) and on the inter-satellite links. -/
structure World (D G E W : Type) where
  ground : Uplink.World D G W
  isl : IslNet.World E

/-- The satellites of one constellation, launched with the history `hist` at the addresses `as`, all models present, and inter-satellite devices
wired in pairs. -/
structure Setup (net : Net D G E V W P R) (w : World D G E W) (peer : E → E) (hist : List (Nat × Nat × D)) (as : List SatAddress) : Prop where
  built : ∃ hasOrbit cid n m k, Built net.endian hasOrbit cid n m hist as k ∧ Fits16 cid n m ∧ net.chan.constellation = some k
  sky : Uplink.Sky net.up w.ground
  islSky : IslNet.Sky net.isl w.isl
  wired : IslNet.Wired net.isl peer

/-- Stations track only launched satellites. -/
def Launched (net : Net D G E V W P R) (hist : List (Nat × Nat × D)) (as : List SatAddress) (ops : List (Op D G E W)) : Prop :=
  (∀ g, (Uplink.target hist as (net.remote g)).isSome) ∧ ∀ g t a, .track g t a ∈ ops → (Uplink.target hist as a).isSome

/-- The downlink sees the same world. -/
def World.down (w : World D G E W) : Downlink.World D G W := ⟨w.ground.delay, w.ground.power, w.ground.admit⟩

omit [Fintype G] [Fintype D] [Fintype E] [DecidableEq G] [DecidableEq D] in
theorem Setup.downSky {net : Net D G E V W P R} {w : World D G E W} {peer : E → E} {hist : List (Nat × Nat × D)} {as : List SatAddress}
    (hs : Setup net w peer hist as) : Downlink.Sky net.down w.down := hs.sky

omit [Fintype G] [Fintype D] [Fintype E] [DecidableEq G] [DecidableEq D] [DecidableEq E] in
theorem mem_tracked {a : SatAddress} {gops : List (GroundSta.Op W)} (h : a ∈ Uplink.tracked gops) : ∃ t, .setRemote t a ∈ gops := by
  induction gops with
  | nil => simp [Uplink.tracked] at h
  | cons o os ih =>
    cases o with
    | setRemote t b =>
      simp only [Uplink.tracked, List.mem_cons] at h
      rcases h with rfl | h
      · exact ⟨t, by simp⟩
      · obtain ⟨u, hu⟩ := ih h; exact ⟨u, by simp [hu]⟩
    | send t pkt len proto => obtain ⟨u, hu⟩ := ih h; exact ⟨u, by simp [hu]⟩
    | setPower t v => obtain ⟨u, hu⟩ := ih h; exact ⟨u, by simp [hu]⟩
    | run => obtain ⟨u, hu⟩ := ih h; exact ⟨u, by simp [hu]⟩

omit [Fintype G] [Fintype D] [Fintype E] [DecidableEq D] [DecidableEq E] in
theorem mem_opsOf {g : G} {o : GroundSta.Op W} {ops : List (Uplink.Op D G W)} : o ∈ Uplink.opsOf g ops ↔ .station g o ∈ ops := by
  unfold Uplink.opsOf
  rw [List.mem_filterMap]
  constructor
  · rintro ⟨x, hx, h⟩
    cases x with
    | station h' o' =>
      simp only at h
      split at h
      · rename_i e; subst e
        simp only [Option.some.injEq] at h
        subst h; exact hx
      · simp at h
    | arrive => simp at h
    | finish d => simp at h
  · intro h
    exact ⟨_, h, by simp⟩

omit [Fintype G] [Fintype D] [Fintype E] [DecidableEq D] [DecidableEq E] in
theorem Launched.up {net : Net D G E V W P R} {hist : List (Nat × Nat × D)} {as : List SatAddress} {ops : List (Op D G E W)}
    (h : Launched net hist as ops) : Uplink.Launched net.up hist as (ops.filterMap toUp) := by
  intro g a ha
  rcases List.mem_cons.mp ha with rfl | ha
  · exact h.1 g
  · obtain ⟨t, ht⟩ := mem_tracked ha
    obtain ⟨o, ho, e⟩ := List.mem_filterMap.mp (mem_opsOf.mp ht)
    refine h.2 g t a ?_
    cases o with
    | track g' t' a' =>
      simp only [toUp, Option.some.injEq, Uplink.Op.station.injEq, GroundSta.Op.setRemote.injEq] at e
      obtain ⟨rfl, rfl, rfl⟩ := e
      exact ho
    | _ => simp [toUp] at e

omit [Fintype G] [Fintype D] [Fintype E] [DecidableEq G] [DecidableEq D] [DecidableEq E] in
theorem Launched.left {net : Net D G E V W P R} {hist : List (Nat × Nat × D)} {as : List SatAddress} {a b : List (Op D G E W)}
    (h : Launched net hist as (a ++ b)) : Launched net hist as a :=
  ⟨h.1, fun g t x hx => h.2 g t x (List.mem_append_left _ hx)⟩

variable {net : Net D G E V W P R} {w : World D G E W} {peer : E → E} {hist : List (Nat × Nat × D)} {as : List SatAddress}

/-- If the satellites' receivers do not fail, nothing does. -/
theorem C73_safe (hs : Setup net w peer hist as) (hsafe : Uplink.Safe net.rx) {ops : List (Op D G E W)} (hl : Launched net hist as ops)
    {r : Outcome (Sys D G E W R)} (h : exec net ops = some r) : ∃ s, r = .ok s := by
  obtain ⟨hasOrbit, cid, n, m, k, hb, hfit, hk⟩ := hs.built
  induction ops using List.reverseRecOn generalizing r with
  | nil =>
    simp only [exec, runFrom, Option.some.injEq] at h
    exact ⟨_, h.symm⟩
  | append_singleton os o ih =>
    unfold exec at h
    rw [runFrom_append] at h
    cases h1 : runFrom (step net) (Sys.init net) os with
    | none => simp [h1] at h
    | some r1 =>
      obtain ⟨s, rfl⟩ := ih hl.left h1
      simp only [h1, runFrom_single] at h
      obtain ⟨q1, q2, q3⟩ := C73_parts h1
      have key : ∀ {S O : Type} {st : S → O → Option (Outcome S)} {f : Op D G E W → Option O} {s0 s : S} {x : Outcome S},
          runFrom st s0 (os.filterMap f) = some (.ok s) → part st s (f o) = some x →
          (∀ y, runFrom st s0 ((os ++ [o]).filterMap f) = some y → ∃ s', y = .ok s') → ∃ s', x = .ok s' := by
        intro S O st f s0 s x hr hp hok
        refine hok x ?_
        rw [List.filterMap_append, List.filterMap_cons, List.filterMap_nil]
        cases hf : f o with
        | none =>
          rw [hf] at hp
          simp only [part, Option.some.injEq] at hp
          subst hp
          simpa using hr
        | some y =>
          rw [hf] at hp
          show runFrom st s0 (List.filterMap f os ++ [y]) = _
          rw [runFrom_append, hr]
          simp only [runFrom_single]
          exact hp
      unfold step at h
      split at h
      · simp at h
      · split at h
        · split at h
          · rename_i a b c ha hb' hc
            obtain ⟨a', rfl⟩ := key q1 ha (fun y hy => by
              obtain ⟨s', e, -⟩ := Uplink.run_ok hsafe hb hfit hk hs.sky hl.up hy; exact ⟨s', e⟩)
            obtain ⟨b', rfl⟩ := key q2 hb' (fun y hy => by obtain ⟨s', e, -⟩ := Downlink.run_ok hs.downSky hy; exact ⟨s', e⟩)
            obtain ⟨c', rfl⟩ := key q3 hc (fun y hy => by obtain ⟨s', e, -⟩ := IslNet.run_ok hs.islSky hs.wired hy; exact ⟨s', e⟩)
            simp only [Option.some.injEq] at h
            exact ⟨_, h.symm⟩
          · simp at h
        · simp at h

/-- The address last given to station `g`. -/
def lastTracked (net : Net D G E V W P R) (g : G) (ops : List (Op D G E W)) : SatAddress :=
  ((ops.filterMap (fun o => match o with | .track h _ a => if h = g then some a else none | _ => none)).getLast?).getD (net.remote g)

/-- Both sides of a station always agree on the tracked satellite: it is the one last set. -/
theorem C73_one_address {ops : List (Op D G E W)} {s : Sys D G E W R} (h : exec net ops = some (.ok s)) (g : G) :
    (s.up.stations g).remote = lastTracked net g ops ∧ (s.down.stations g).remote = lastTracked net g ops := by
  obtain ⟨h1, h2, -⟩ := C73_parts h
  constructor
  · rw [(C35_tracked (Uplink.C55_station h1 g)).1]
    clear h h1 h2 s
    show trackedAfter (net.remote g) _ = _
    induction ops using List.reverseRecOn with
    | nil => rfl
    | append_singleton os o ih =>
      unfold lastTracked at ih ⊢
      rw [List.filterMap_append, Uplink.opsOf_append, trackedAfter_append, ih, List.filterMap_append]
      cases o with
      | track g' t a =>
        by_cases hg : g' = g
        · simp [toUp, Uplink.opsOf, hg, trackedAfter]
        · simp [toUp, Uplink.opsOf, hg, trackedAfter]
      | send g' t pkt len proto => by_cases hg : g' = g <;> simp [toUp, Uplink.opsOf, hg, trackedAfter]
      | setPower g' t v => by_cases hg : g' = g <;> simp [toUp, Uplink.opsOf, hg, trackedAfter]
      | run g' => by_cases hg : g' = g <;> simp [toUp, Uplink.opsOf, hg, trackedAfter]
      | _ => simp [List.filterMap_cons, toUp, Uplink.opsOf, trackedAfter]
  · obtain ⟨rops, k1, -, k3⟩ := Downlink.C59_station h2 g
    have hr : (s.down.stations g).remote = trackedRx (net.down.remote g) rops := by
      refine run_induction (P := fun rops (s : GroundStaRx.Sys) => s.remote = trackedRx (net.down.remote g) rops) rfl ?_ k1
      intro ops o s s' _ hp hst
      rw [trackedRx_append, ← hp]
      cases o with
      | arrive t pkt len src proto =>
        simp only [GroundStaRx.step] at hst
        split at hst
        · simp only [Option.some.injEq] at hst
          unfold GroundStaRx.receiveFromSat at hst
          rw [Outcome.bind_eq_ok] at hst
          obtain ⟨b, -, hst⟩ := hst
          split at hst <;> (simp only [Outcome.ok.injEq] at hst; rw [← hst]; rfl)
        · simp at hst
      | setRemote t a =>
        simp only [GroundStaRx.step] at hst
        split at hst
        · simp only [Option.some.injEq, Outcome.ok.injEq] at hst; rw [← hst]; rfl
        · simp at hst
      | run =>
        simp only [GroundStaRx.step] at hst
        split at hst
        · simp at hst
        · simp only [Option.some.injEq, Outcome.ok.injEq] at hst; rw [← hst]; rfl
    rw [hr, Downlink.trackedRx_eq, k3]
    clear hr k1 k3 h h1 h2
    unfold lastTracked Downlink.tracks
    rw [List.filterMap_filterMap]
    show (Option.map Prod.snd (List.filterMap _ ops).getLast?).getD (net.remote g) = _
    rw [← List.getLast?_map, List.map_filterMap]
    congr 3
    funext o
    cases o with
    | track g' t a => by_cases hg : g' = g <;> simp [toDown, hg]
    | _ => simp [toDown]

end

/-! ## Sending comes before receiving -/

section
open GroundSta

/-- A station puts a packet on the air only after it has accepted it, for every MAC. -/
theorem aired_after_accepted {debug : Bool} {mac : Mac} {accept : List (Entry W) → Entry W → Bool} {remote : SatAddress} {power : W}
    {ops : List (GroundSta.Op W)} {s : GroundSta.Sys W} (h : GroundSta.exec debug mac accept remote power ops = some (.ok s))
    {f : Nat × Entry W} (hf : f ∈ s.aired) : ∃ y ∈ s.accepted, y.2 = f.2 ∧ y.1 ≤ f.1 := by
  have hinv : (∀ y ∈ s.handed, ∃ z ∈ s.accepted, z.2 = y.2 ∧ z.1 ≤ y.1) ∧ ∀ x ∈ s.queue, ∃ z ∈ s.accepted, z.2 = x ∧ z.1 ≤ s.clock := by
    clear hf
    refine run_induction (P := fun _ (s : GroundSta.Sys W) => (∀ y ∈ s.handed, ∃ z ∈ s.accepted, z.2 = y.2 ∧ z.1 ≤ y.1) ∧
      ∀ x ∈ s.queue, ∃ z ∈ s.accepted, z.2 = x ∧ z.1 ≤ s.clock) ⟨by simp [GroundSta.Sys.init], by simp [GroundSta.Sys.init]⟩ ?_ h
    intro os o s s' hr hp hst
    obtain ⟨i1, i2⟩ := hp
    have hahead := (Uplink.station_ahead hr).2
    have hts : ∀ {s s' : GroundSta.Sys W} {t : Nat}, (∀ y ∈ s.handed, ∃ z ∈ s.accepted, z.2 = y.2 ∧ z.1 ≤ y.1) →
        (∀ x ∈ s.queue, ∃ z ∈ s.accepted, z.2 = x ∧ z.1 ≤ s.clock) → s.clock = t → transmitStart debug mac s t = .ok s' →
        (∀ y ∈ s'.handed, ∃ z ∈ s'.accepted, z.2 = y.2 ∧ z.1 ≤ y.1) ∧ ∀ x ∈ s'.queue, ∃ z ∈ s'.accepted, z.2 = x ∧ z.1 ≤ s'.clock := by
      intro s s' t j1 j2 hc ht
      obtain ⟨x, rest, hq, rfl⟩ := transmitStart_eq ht
      obtain ⟨-, -, h3, h4, -, h6, h7, -⟩ := macSend_fields (mac := mac) ({ s with busy := true, queue := rest } : GroundSta.Sys W) t x
      rw [h4, h6, h3, h7]
      refine ⟨?_, fun y hy => j2 y (by rw [hq]; simp only at hy; simp [hy])⟩
      intro y hy
      simp only [List.mem_append, List.mem_singleton] at hy
      rcases hy with hy | rfl
      · exact j1 y hy
      · obtain ⟨z, hz, e1, e2⟩ := j2 x (by rw [hq]; simp)
        exact ⟨z, hz, e1, by rw [← hc]; exact e2⟩
    cases o with
    | send t pkt len proto =>
      obtain ⟨hpos, hst⟩ := step_send.mp hst
      unfold GroundSta.send at hst
      simp only at hst
      have j1 : ∀ a : Nat × Entry W, (∀ y ∈ s.handed, ∃ z ∈ s.accepted ++ [a], z.2 = y.2 ∧ z.1 ≤ y.1) := fun a y hy => by
        obtain ⟨z, hz, e⟩ := i1 y hy; exact ⟨z, by simp [hz], e⟩
      have j2 : ∀ a : Entry W, (∀ x ∈ s.queue ++ [a], ∃ z ∈ s.accepted ++ [(t, a)], z.2 = x ∧ z.1 ≤ t) := fun a x hx => by
        simp only [List.mem_append, List.mem_singleton] at hx
        rcases hx with hx | rfl
        · obtain ⟨z, hz, e1, e2⟩ := i2 x hx
          exact ⟨z, by simp [hz], e1, Nat.le_trans e2 hpos.1⟩
        · exact ⟨(t, x), by simp, rfl, Nat.le_refl _⟩
      split at hst
      · simp only [Outcome.ok.injEq] at hst
        subst hst
        refine ⟨i1, fun x hx => ?_⟩
        obtain ⟨z, hz, e1, e2⟩ := i2 x hx
        exact ⟨z, hz, e1, Nat.le_trans e2 hpos.1⟩
      · split at hst
        · simp only [Outcome.ok.injEq] at hst
          subst hst
          exact ⟨j1 _, j2 _⟩
        · exact hts (j1 _) (j2 _) rfl hst
    | setRemote t a =>
      obtain ⟨hpos, rfl⟩ := step_setRemote.mp hst
      refine ⟨i1, fun x hx => ?_⟩
      obtain ⟨z, hz, e1, e2⟩ := i2 x hx
      exact ⟨z, hz, e1, Nat.le_trans e2 hpos.1⟩
    | setPower t v =>
      obtain ⟨hpos, rfl⟩ := step_setPower.mp hst
      refine ⟨i1, fun x hx => ?_⟩
      obtain ⟨z, hz, e1, e2⟩ := i2 x hx
      exact ⟨z, hz, e1, Nat.le_trans e2 hpos.1⟩
    | run =>
      simp only [GroundSta.step] at hst
      split at hst
      · simp at hst
      · rename_i t x es hev
        simp only [Option.some.injEq, Outcome.ok.injEq] at hst
        subst hst
        have ht := hahead (t, .start x) (by rw [hev]; simp)
        refine ⟨i1, fun x hx => ?_⟩
        obtain ⟨z, hz, e1, e2⟩ := i2 x hx
        exact ⟨z, hz, e1, Nat.le_trans e2 ht⟩
      · rename_i t x es hev
        simp only [Option.some.injEq] at hst
        have ht := hahead (t, .finish x) (by rw [hev]; simp)
        have j2 : ∀ x ∈ s.queue, ∃ z ∈ s.accepted, z.2 = x ∧ z.1 ≤ t := fun x hx => by
          obtain ⟨z, hz, e1, e2⟩ := i2 x hx
          exact ⟨z, hz, e1, Nat.le_trans e2 ht⟩
        unfold transmitComplete at hst
        simp only at hst
        split at hst
        · simp only [Outcome.ok.injEq] at hst
          subst hst
          exact ⟨i1, j2⟩
        · exact hts (s := { s with clock := t, events := es, busy := false }) i1 j2 rfl hst
  have h1 := (C34_replicas h).subset (List.mem_append_left _ hf)
  obtain ⟨y, hy, h2, h3⟩ := mem_attempts h1
  obtain ⟨z, hz, e1, e2⟩ := hinv.1 y hy
  exact ⟨z, hz, e1.trans h2, Nat.le_trans e2 h3⟩

theorem mem_requests {a : SatAddress} {v : W} {ops : List (GroundSta.Op W)} {y : Nat × Entry W} (h : y ∈ requests a v ops) :
    .send y.1 y.2.pkt y.2.len y.2.proto ∈ ops := by
  induction ops generalizing a v with
  | nil => simp [requests] at h
  | cons o os ih =>
    cases o with
    | send t pkt len proto =>
      simp only [requests, List.mem_cons] at h
      rcases h with rfl | h
      · simp
      · simp [ih h]
    | setRemote t b => simp [ih (a := b) (v := v) h]
    | setPower t u => simp [ih (a := a) (v := u) h]
    | run => simp [ih (a := a) (v := v) h]

end

section

/-- The same for the ground-facing device of a satellite. -/
theorem down_aired_after_sent {debug : Bool} {accept : List (Sat2Ground.Entry W) → Sat2Ground.Entry W → Bool} {power : W}
    {ops : List (Sat2Ground.Op W)} {s : Sat2Ground.Sys W} (h : Sat2Ground.exec debug accept power ops = some (.ok s))
    {f : Nat × Sat2Ground.Entry W} (hf : f ∈ s.aired) : ∃ t ≤ f.1, .send t f.2.pkt f.2.len f.2.proto ∈ ops := by
  obtain ⟨s', e, h1, -⟩ := C38_refines h
  simp only [Outcome.ok.injEq] at e
  subst e
  obtain ⟨i, hi⟩ := List.mem_iff_getElem?.mp (h1.subset hf)
  have hlen := congrArg List.length (Fifo.serve_packets (len := Sat2Ground.Entry.len) (wait := fun _ _ => 0) 0 0 s.accepted)
  simp only [List.length_map] at hlen
  have hlt : i < s.accepted.length := by
    rw [← hlen]; exact (List.getElem?_eq_some_iff.mp hi).1
  obtain ⟨c1, c2⟩ := Fifo.serve_causal 0 0 s.accepted i _ _ (List.getElem?_eq_getElem hlt) hi
  have hm := (C38_accepted_or_dropped h).2.subset (List.getElem_mem hlt)
  have key : ∀ {v : W} {ops : List (Sat2Ground.Op W)} {y : Nat × Sat2Ground.Entry W}, y ∈ broadcasts v ops →
      .send y.1 y.2.pkt y.2.len y.2.proto ∈ ops := by
    intro v ops y hy
    induction ops generalizing v with
    | nil => simp [broadcasts] at hy
    | cons o os ih =>
      cases o with
      | send t pkt len proto =>
        simp only [broadcasts, List.mem_cons] at hy
        rcases hy with rfl | hy
        · simp
        · simp [ih hy]
      | setPower t u => simp [ih (v := u) hy]
      | run => simp [ih (v := v) hy]
  have := key hm
  rw [← c2] at this
  exact ⟨_, c1, this⟩

/-- The same for inter-satellite devices. -/
theorem isl_aired_after_sent {debug : Bool} {accept : List SatNet.Entry → SatNet.Entry → Bool}
    {ops : List SatNet.Op} {s : SatNet.Sys} (h : SatNet.exec debug accept ops = some (.ok s))
    {f : (Nat × SatNet.Entry) × UInt16} (hf : f ∈ IslNet.sent s) : ∃ t ≤ f.1.1, ∃ proto, .send t f.1.2.pkt f.1.2.len proto ∈ ops := by
  obtain ⟨s', e, h1, -⟩ := C39_refines h
  simp only [Outcome.ok.injEq] at e
  subst e
  have hf1 : f.1 ∈ s.aired.map airing := by
    unfold IslNet.sent at hf
    obtain ⟨y, hy, rfl⟩ := List.mem_map.mp hf
    exact List.mem_map.mpr ⟨y, hy, rfl⟩
  obtain ⟨i, hi⟩ := List.mem_iff_getElem?.mp (h1.subset hf1)
  have hlen := congrArg List.length (Fifo.serve_packets (len := SatNet.Entry.len) (wait := fun _ _ => 0) 0 0 (s.accepted.map arrival))
  simp only [List.length_map] at hlen
  have hlt : i < (s.accepted.map arrival).length := by
    rw [List.length_map, ← hlen]; exact (List.getElem?_eq_some_iff.mp hi).1
  obtain ⟨c1, c2⟩ := Fifo.serve_causal 0 0 (s.accepted.map arrival) i _ _ (List.getElem?_eq_getElem hlt) hi
  have hm := (C39_accepted_or_dropped h).2.subset (List.getElem_mem hlt)
  have key : ∀ {ops : List SatNet.Op} {y : Nat × SatNet.Entry}, y ∈ isends ops → .send y.1 y.2.pkt y.2.len y.2.proto ∈ ops := by
    intro ops y hy
    induction ops with
    | nil => simp [isends] at hy
    | cons o os ih =>
      cases o with
      | send t pkt len proto =>
        simp only [isends, List.mem_cons] at hy
        rcases hy with rfl | hy
        · simp
        · simp [ih hy]
      | run => simp [ih hy]
  have := key hm
  rw [← c2] at this
  exact ⟨_, c1, _, this⟩

end

/-! ## Receivers pass up only what they hear -/

/-- What is needed of the satellites' receivers: they pass up only frames they have been given - after the end of the frame (`full`) or at least
after its beginning -, at the time of the event that is run, and do not mix up packets. -/
structure Honest (full : Bool) (rx : Uplink.Receiver P R) : Prop where
  heard : ∀ rops r, runFrom rx.step rx.init rops = some (.ok r) → ∀ y ∈ rx.delivered r, ∃ f ∈ Aloha.frames rops, f.uid = y.2 ∧
    f.start + (if full then f.dur else 0) ≤ y.1
  now : ∀ r o r', rx.step r o = some (.ok r') → ∀ y ∈ rx.delivered r', y ∈ rx.delivered r ∨ o = .finish ∧ (rx.due r).head? = some y.1
  key : ∀ i j u v, rx.key i u = rx.key j v → i = j ∨ u = v

theorem mem_frames_snoc {ops : List (Aloha.Op P)} {o : Aloha.Op P} {f : Aloha.Frame P} (h : f ∈ Aloha.frames ops) :
    f ∈ Aloha.frames (ops ++ [o]) := by rw [Aloha.frames_append]; exact List.mem_append_left _ h

theorem C73_none_honest : Honest true (Uplink.noneReceiver P) where
  heard := by
    intro rops r h
    have := run_induction (step := (Uplink.noneReceiver P).step) (P := fun rops (r : NoneMac.Sys P) => (∀ f ∈ r.pending, f ∈ Aloha.frames rops) ∧
      ∀ y ∈ r.delivered, ∃ f ∈ Aloha.frames rops, f.uid = y.2 ∧ f.start + (if true then f.dur else 0) ≤ y.1)
      ⟨by simp [Uplink.noneReceiver], by simp [Uplink.noneReceiver]⟩ ?_ h
    · exact this.2
    rintro ops o s s' - ⟨i1, i2⟩ hst
    have i2' : ∀ y ∈ s.delivered, ∃ f ∈ Aloha.frames (ops ++ [o]), f.uid = y.2 ∧ f.start + (if true then f.dur else 0) ≤ y.1 := fun y hy => by
      obtain ⟨f, hf, e⟩ := i2 y hy; exact ⟨f, mem_frames_snoc hf, e⟩
    simp only [Uplink.noneReceiver] at hst
    obtain ⟨x, hx, e⟩ := Option.map_eq_some_iff.mp hst
    simp only [Outcome.ok.injEq] at e
    subst e
    cases o with
    | arrive f =>
      simp only [NoneMac.step] at hx
      split at hx
      · simp only [Option.some.injEq] at hx
        subst hx
        refine ⟨fun g hg => ?_, i2'⟩
        rcases Aloha.mem_schedule.mp hg with rfl | hg
        · rw [Aloha.frames_append]; simp [Aloha.frames]
        · exact mem_frames_snoc (i1 g hg)
      · simp at hx
    | finish =>
      simp only [NoneMac.step] at hx
      split at hx
      · simp at hx
      · rename_i f rest hp
        simp only [Option.some.injEq] at hx
        subst hx
        refine ⟨fun g hg => mem_frames_snoc (i1 g (by rw [hp]; exact List.mem_cons_of_mem _ hg)), fun y hy => ?_⟩
        simp only [List.mem_append, List.mem_singleton] at hy
        rcases hy with hy | rfl
        · exact i2' y hy
        · exact ⟨f, mem_frames_snoc (i1 f (by rw [hp]; simp)), rfl, Nat.le_refl _⟩
  now := by
    intro r o r' hst y hy
    simp only [Uplink.noneReceiver] at hst hy ⊢
    obtain ⟨x, hx, e⟩ := Option.map_eq_some_iff.mp hst
    simp only [Outcome.ok.injEq] at e
    subst e
    cases o with
    | arrive f =>
      simp only [NoneMac.step] at hx
      split at hx
      · simp only [Option.some.injEq] at hx
        subst hx
        exact Or.inl hy
      · simp at hx
    | finish =>
      simp only [NoneMac.step] at hx
      split at hx
      · simp at hx
      · rename_i f rest hp
        simp only [Option.some.injEq] at hx
        subst hx
        simp only [List.mem_append, List.mem_singleton] at hy
        rcases hy with hy | rfl
        · exact Or.inl hy
        · right; simp [hp]
  key := fun i j u v h => Or.inl h

theorem C73_aloha_honest [Zero P] [Add P] (lost : P → P → Bool) : Honest true (Uplink.alohaReceiver lost) where
  heard := by
    intro rops r h
    have := run_induction (step := (Uplink.alohaReceiver lost).step) (P := fun rops (r : Aloha.Sys P) => (∀ f ∈ r.pending, f ∈ Aloha.frames rops) ∧
      ∀ y ∈ r.delivered, ∃ f ∈ Aloha.frames rops, f.uid = y.2 ∧ f.start + (if true then f.dur else 0) ≤ y.1)
      ⟨by simp [Uplink.alohaReceiver, Aloha.Sys.init], by simp [Uplink.alohaReceiver, Aloha.Sys.init]⟩ ?_ h
    · exact this.2
    rintro ops o s s' - ⟨i1, i2⟩ hst
    have i2' : ∀ y ∈ s.delivered, ∃ f ∈ Aloha.frames (ops ++ [o]), f.uid = y.2 ∧ f.start + (if true then f.dur else 0) ≤ y.1 := fun y hy => by
      obtain ⟨f, hf, e⟩ := i2 y hy; exact ⟨f, mem_frames_snoc hf, e⟩
    simp only [Uplink.alohaReceiver] at hst
    obtain ⟨x, hx, e⟩ := Option.map_eq_some_iff.mp hst
    simp only [Outcome.ok.injEq] at e
    subst e
    cases o with
    | arrive f =>
      simp only [Aloha.step] at hx
      split at hx
      · simp only [Option.some.injEq] at hx
        subst hx
        refine ⟨fun g hg => ?_, i2'⟩
        rcases Aloha.mem_schedule.mp hg with rfl | hg
        · rw [Aloha.frames_append]; simp [Aloha.frames]
        · exact mem_frames_snoc (i1 g hg)
      · simp at hx
    | finish =>
      simp only [Aloha.step] at hx
      split at hx
      · simp at hx
      · rename_i f rest hp
        simp only [Option.some.injEq] at hx
        subst hx
        refine ⟨fun g hg => mem_frames_snoc (i1 g (by rw [hp]; exact List.mem_cons_of_mem _ hg)), fun y hy => ?_⟩
        simp only [List.mem_append] at hy
        rcases hy with hy | hy
        · exact i2' y hy
        · split at hy
          · rw [List.mem_singleton] at hy
            subst hy
            exact ⟨f, mem_frames_snoc (i1 f (by rw [hp]; simp)), rfl, Nat.le_refl _⟩
          · simp at hy
  now := by
    intro r o r' hst y hy
    simp only [Uplink.alohaReceiver] at hst hy ⊢
    obtain ⟨x, hx, e⟩ := Option.map_eq_some_iff.mp hst
    simp only [Outcome.ok.injEq] at e
    subst e
    cases o with
    | arrive f =>
      simp only [Aloha.step] at hx
      split at hx
      · simp only [Option.some.injEq] at hx
        subst hx
        exact Or.inl hy
      · simp at hx
    | finish =>
      simp only [Aloha.step] at hx
      split at hx
      · simp at hx
      · rename_i f rest hp
        simp only [Option.some.injEq] at hx
        subst hx
        simp only [List.mem_append] at hy
        rcases hy with hy | hy
        · exact Or.inl hy
        · split at hy
          · rw [List.mem_singleton] at hy
            subst hy
            right; simp [hp]
          · simp at hy
  key := fun i j u v h => Or.inl h

/-- What a CRDSA receiver knows, it has heard. -/
structure Known [Zero P] [Add P] (rops : List (Aloha.Op P)) (s : Crdsa.Sys P) : Prop where
  pending : ∀ f ∈ s.pending, f ∈ Aloha.frames rops ∧ s.clock ≤ f.fin
  sorted : s.pending.Pairwise (fun a b => a.fin ≤ b.fin)
  begun : ∀ f ∈ Aloha.frames rops, f.start ≤ s.clock
  collided : ∀ u ∈ s.st.collided, ∃ f ∈ Aloha.frames rops, f.uid = u
  periods : ∀ p ∈ s.st.periods, ∀ u ∈ p.pkts, ∃ f ∈ Aloha.frames rops, f.uid = u
  delivered : ∀ y ∈ s.delivered, ∃ f ∈ Aloha.frames rops, f.uid = y.2 ∧ f.start ≤ y.1

theorem crdsa_known [Zero P] [Add P] (lost : P → P → Bool) (F : Nat) {rops : List (Aloha.Op P)} {s : Crdsa.Sys P}
    (h : runFrom (Crdsa.step true true lost F) Crdsa.Sys.init rops = some (.ok s)) : Known rops s := by
  refine run_induction (step := Crdsa.step true true lost F) (P := fun rops s => Known rops s) ⟨?_, ?_, ?_, ?_, ?_, ?_⟩ ?_ h
  · simp [Crdsa.Sys.init]
  · simp [Crdsa.Sys.init]
  · simp [Aloha.frames]
  · simp [Crdsa.Sys.init, Crdsa.St.init]
  · simp [Crdsa.Sys.init, Crdsa.St.init]
  · simp [Crdsa.Sys.init]
  rintro ops o s s' - ⟨i1, i2, i3, i4, i5, i6⟩ hst
  have up : ∀ {u : Nat}, (∃ f ∈ Aloha.frames ops, f.uid = u) → ∃ f ∈ Aloha.frames (ops ++ [o]), f.uid = u := by
    rintro u ⟨f, hf, e⟩; exact ⟨f, mem_frames_snoc hf, e⟩
  have i6' : ∀ y ∈ s.delivered, ∃ f ∈ Aloha.frames (ops ++ [o]), f.uid = y.2 ∧ f.start ≤ y.1 := fun y hy => by
    obtain ⟨f, hf, e⟩ := i6 y hy; exact ⟨f, mem_frames_snoc hf, e⟩
  cases o with
  | arrive f =>
    obtain ⟨hc, rfl⟩ := Crdsa.step_arrive_ok.mp hst
    have hnew : f ∈ Aloha.frames (ops ++ [.arrive f]) := by rw [Aloha.frames_append]; simp [Aloha.frames]
    refine ⟨fun g hg => ?_, Aloha.schedule_sorted i2, fun g hg => ?_, fun u hu => ?_, fun p hp u hu => up (i5 p hp u hu), i6'⟩
    · rcases Aloha.mem_schedule.mp hg with rfl | hg
      · exact ⟨hnew, by show g.start ≤ g.fin; unfold Aloha.Frame.fin; omega⟩
      · refine ⟨mem_frames_snoc (i1 g hg).1, ?_⟩
        have := hc.2 g hg
        show f.start ≤ g.fin
        omega
    · rw [Aloha.frames_append, List.mem_append] at hg
      show g.start ≤ f.start
      rcases hg with hg | hg
      · exact Nat.le_trans (i3 g hg) hc.1
      · simp only [Aloha.frames, List.mem_singleton] at hg
        rw [hg]
    · simp only [Crdsa.startRx] at hu
      rcases Crdsa.mem_insertKey.mp hu with rfl | hu
      · exact ⟨f, hnew, rfl⟩
      · exact up (i4 u hu)
  | finish =>
    obtain ⟨f, rest, st, out, hp, hf, rfl⟩ := Crdsa.step_finish_ok.mp hst
    rw [hp, List.pairwise_cons] at i2
    obtain ⟨hfm, hfc⟩ := i1 f (by rw [hp]; simp)
    have hbeg : ∀ g ∈ Aloha.frames (ops ++ [.finish]), g.start ≤ f.fin := fun g hg => by
      rw [Aloha.frames_append] at hg
      simp only [Aloha.frames, List.append_nil] at hg
      exact Nat.le_trans (i3 g hg) hfc
    have hown : ∀ u ∈ (Crdsa.receiveOwn f.fin (Crdsa.hasCollided lost s.st.rx f) f.uid s.st.received).2, ∃ g ∈ Aloha.frames ops, g.uid = u :=
      fun u hu => ⟨f, hfm, ((Crdsa.receiveOwn_spec _ _ _ _).2.2.1 u hu).1.symm⟩
    have main : (∀ u ∈ st.collided, ∃ g ∈ Aloha.frames ops, g.uid = u) ∧
        (∀ p ∈ st.periods, ∀ u ∈ p.pkts, ∃ g ∈ Aloha.frames ops, g.uid = u) ∧ ∀ u ∈ out, ∃ g ∈ Aloha.frames ops, g.uid = u := by
      by_cases hu : s.st.rx.uid = some f.uid
      · rcases Crdsa.finishRx_last (strict := true) (lost := lost) (frameLen := F) hu with ⟨hb, -⟩ | ⟨ps, rs, o, hk1, hk⟩
        · rw [hb] at hf; simp at hf
        · rw [hk] at hf
          simp only [Outcome.ok.injEq, Prod.mk.injEq] at hf
          obtain ⟨rfl, rfl⟩ := hf
          have hcol : ∀ p ∈ Crdsa.collisionsAt lost F s.st f, ∀ u ∈ p.pkts, ∃ g ∈ Aloha.frames ops, g.uid = u := by
            intro p hpm u hu
            unfold Crdsa.collisionsAt Crdsa.cleanPeriods at hpm
            have hpm := (List.dropWhile_sublist _).subset hpm
            split at hpm
            · simp only [List.mem_append, List.mem_singleton] at hpm
              rcases hpm with hpm | rfl
              · exact i5 p hpm u hu
              · exact i4 u hu
            · exact i5 p hpm u hu
          refine ⟨by simp, fun p hpm u hu => ?_, fun u hu => ?_⟩
          · obtain ⟨⟨q, hq, -, e⟩, -, -⟩ := Crdsa.mem_after_cancel hk1 hpm
            rw [e] at hu
            exact hcol q hq u (List.mem_of_mem_filter hu)
          · rw [List.mem_append] at hu
            rcases hu with hu | hu
            · exact hown u hu
            · obtain ⟨-, -, c3, c4, -, -⟩ := Crdsa.cancel_spec hk1
              rcases Crdsa.peel_or (c4 u hu) with h1 | ⟨c, hc, huc⟩
              · rw [c3 u hu] at h1; simp at h1
              · obtain ⟨p, hpm, rfl⟩ := List.mem_map.mp hc
                exact hcol p hpm u huc
      · rw [Crdsa.finishRx_inner hu] at hf
        simp only [Outcome.ok.injEq, Prod.mk.injEq] at hf
        obtain ⟨rfl, rfl⟩ := hf
        exact ⟨i4, i5, hown⟩
    refine ⟨fun g hg => ⟨mem_frames_snoc (i1 g (by rw [hp]; exact List.mem_cons_of_mem _ hg)).1, i2.1 g hg⟩, i2.2, hbeg,
      fun u hu => up (main.1 u hu), fun p hpm u hu => up (main.2.1 p hpm u hu), fun y hy => ?_⟩
    simp only [List.mem_append, List.mem_map] at hy
    rcases hy with hy | ⟨u, hu, rfl⟩
    · exact i6' y hy
    · obtain ⟨g, hg, e⟩ := main.2.2 u hu
      exact ⟨g, mem_frames_snoc hg, e, hbeg g (mem_frames_snoc hg)⟩

theorem C73_crdsa_honest [Zero P] [Add P] (lost : P → P → Bool) (F : Nat) : Honest false (Uplink.crdsaReceiver lost F) where
  heard := by
    intro rops r h y hy
    obtain ⟨f, hf, e1, e2⟩ := (crdsa_known lost F h).delivered y hy
    exact ⟨f, hf, e1, by simpa using e2⟩
  now := by
    intro r o r' hst y hy
    simp only [Uplink.crdsaReceiver] at hst hy ⊢
    cases o with
    | arrive f =>
      obtain ⟨-, rfl⟩ := Crdsa.step_arrive_ok.mp hst
      exact Or.inl hy
    | finish =>
      obtain ⟨f, rest, st, out, hp, hf, rfl⟩ := Crdsa.step_finish_ok.mp hst
      simp only [List.mem_append, List.mem_map] at hy
      rcases hy with hy | ⟨u, hu, rfl⟩
      · exact Or.inl hy
      · right; simp [hp]
  key := fun i j u v h => Or.inr h

/-! ## Hops -/

/-- Ground nodes and satellites. -/
inductive Node (D G : Type) where
  | ground (g : G)
  | sat (d : D)
  deriving DecidableEq

/-- Packet `p` is passed to the protocols of a node at time `t`: by its ground device, by the ground-facing device of a satellite (frames are found
by the number the receiver gives them), or by one of the inter-satellite devices that a satellite carries. -/
def Gets (net : Net D G E V W P R) (s : Sys D G E W R) : Node D G → Nat → Nat → Prop
  | .ground g, t, p => ∃ u, (t, u) ∈ (s.down.stations g).delivered ∧ u.pkt = p
  | .sat d, t, p =>
    (∃ k i ta f, (t, k) ∈ net.rx.delivered (s.up.sats d) ∧ s.up.heard[i]? = some (ta, d, f) ∧ net.rx.key i f.pkt = k ∧ f.pkt = p) ∨
      ∃ e proto, net.own e = d ∧ (t, p, proto) ∈ (s.isl.rx e).delivered

/-- The calls of `Send`: node, time, packet. -/
def sends (net : Net D G E V W P R) : Op D G E W → Option (Node D G × Nat × Nat)
  | .send g t pkt _ _ => some (.ground g, t, pkt)
  | .sat d (.send t pkt _ _) => some (.sat d, t, pkt)
  | .isl (.tx e (.send t pkt _ _)) => some (.sat (net.own e), t, pkt)
  | _ => none

/-- Packet `p`, given to `Send` at a node at one time, can have arrived at a neighbour at another, after travelling for the time that is named last:
* from a station to the launched satellite that it tracked when the packet was given to it,
* from a satellite to a station on the channel that tracks that satellite at some time,
* from a satellite to another, over the two inter-satellite devices of a link.
In all cases the packet goes on the air, at time `u`, not before it was sent, the success model lets it through then, and it travels for the
propagation delay of that time and (unless a satellite's receiver may decode a frame before its end) its transmission time. -/
inductive Hop [DecidableEq G] (net : Net D G E V W P R) (w : World D G E W) (peer : E → E) (tgt : SatAddress → Option D) (full : Bool)
    (ops : List (Op D G E W)) (p : Nat) : Node D G → Nat → Node D G → Nat → Nat → Prop
  | up {g : G} {d : D} {t u t' : Nat} {x : GroundSta.Entry W}
      (given : (t, x) ∈ requests (net.remote g) (net.power g) (Uplink.opsOf g (ops.filterMap toUp))) (pkt : x.pkt = p)
      (addressed : tgt x.dst = some d) (later : t ≤ u) (admitted : w.ground.admit u g d = true)
      (arrived : u + (w.ground.delay u g d + if full then x.len else 0) ≤ t') :
      Hop net w peer tgt full ops p (.ground g) t (.sat d) t' (w.ground.delay u g d + if full then x.len else 0)
  | down {g : G} {d : D} {t u t' len : Nat} {proto : UInt16} (given : .sat d (.send t p len proto) ∈ ops) (attached : g ∈ net.chan.ground)
      (tracked : net.satAddr d = net.remote g ∨ ∃ v, .track g v (net.satAddr d) ∈ ops) (later : t ≤ u)
      (admitted : w.ground.admit u g d = true) (arrived : t' = u + (w.ground.delay u g d + len)) :
      Hop net w peer tgt full ops p (.sat d) t (.ground g) t' (w.ground.delay u g d + len)
  | isl {e : E} {t u t' len : Nat} {proto : UInt16} (given : .isl (.tx e (.send t p len proto)) ∈ ops) (later : t ≤ u)
      (admitted : w.isl.admit u e (peer e) = true) (arrived : t' = u + (w.isl.delay u e (peer e) + len)) :
      Hop net w peer tgt full ops p (.sat (net.own e)) t (.sat (net.own (peer e))) t' (w.isl.delay u e (peer e) + len)

section
variable [DecidableEq G] {net : Net D G E V W P R} {w : World D G E W} {peer : E → E} {tgt : SatAddress → Option D} {full : Bool}

theorem Hop.mono {a b : List (Op D G E W)} {p : Nat} {n n' : Node D G} {t t' c : Nat} (h : Hop net w peer tgt full a p n t n' t' c) :
    Hop net w peer tgt full (a ++ b) p n t n' t' c := by
  cases h with
  | up given pkt addressed later admitted arrived =>
    refine .up ?_ pkt addressed later admitted arrived
    rw [List.filterMap_append, Uplink.opsOf_append, requests_append]
    exact List.mem_append_left _ given
  | down given attached tracked later admitted arrived =>
    refine .down (List.mem_append_left _ given) attached ?_ later admitted arrived
    rcases tracked with h | ⟨v, h⟩
    · exact Or.inl h
    · exact Or.inr ⟨v, List.mem_append_left _ h⟩
  | isl given later admitted arrived => exact .isl (List.mem_append_left _ given) later admitted arrived

theorem Hop.time {ops : List (Op D G E W)} {p : Nat} {n n' : Node D G} {t t' c : Nat} (h : Hop net w peer tgt full ops p n t n' t' c) :
    t + c ≤ t' := by
  cases h with
  | up given pkt addressed later admitted arrived => omega
  | down given attached tracked later admitted arrived => omega
  | isl given later admitted arrived => omega

theorem Hop.sends {ops : List (Op D G E W)} {p : Nat} {n n' : Node D G} {t t' c : Nat} (h : Hop net w peer tgt full ops p n t n' t' c) :
    ∃ o ∈ ops, Network.sends net o = some (n, t, p) := by
  cases h with
  | up given pkt addressed later admitted arrived =>
    obtain ⟨o, ho, e⟩ := List.mem_filterMap.mp (mem_opsOf.mp (mem_requests given))
    refine ⟨o, ho, ?_⟩
    cases o with
    | send g' t' pkt' len proto =>
      simp only [toUp, Option.some.injEq, Uplink.Op.station.injEq, GroundSta.Op.send.injEq] at e
      obtain ⟨rfl, rfl, rfl, -, -⟩ := e
      rw [← pkt]; rfl
    | _ => simp [toUp] at e
  | down given attached tracked later admitted arrived => exact ⟨_, given, rfl⟩
  | isl given later admitted arrived => exact ⟨_, given, rfl⟩

end

/-- Frames passed up by a station were expected. -/
theorem mem_expected {e : Endian} {ty : UInt8} {a : SatAddress} {rops : List GroundStaRx.Op} {y : Nat × GroundStaRx.Up}
    (h : y ∈ expected e ty a rops) : ∃ ta len, (ta, len, y.2) ∈ Downlink.arrivalsRx rops ∧ y.1 = ta + len ∧
      ∃ b, (b = a ∨ ∃ v, (v, b) ∈ Downlink.tracksRx rops) ∧ y.2.src = b.convertTo e ty := by
  induction rops generalizing a with
  | nil => simp [expected] at h
  | cons o os ih =>
    cases o with
    | arrive t pkt len src proto =>
      simp only [expected] at h
      have old : y ∈ expected e ty a os → ∃ ta len', (ta, len', y.2) ∈ Downlink.arrivalsRx (.arrive t pkt len src proto :: os) ∧ y.1 = ta + len' ∧
          ∃ b, (b = a ∨ ∃ v, (v, b) ∈ Downlink.tracksRx (.arrive t pkt len src proto :: os)) ∧ y.2.src = b.convertTo e ty := by
        intro h
        obtain ⟨ta, l, h1, h2, b, h3, h4⟩ := ih h
        exact ⟨ta, l, by simp [Downlink.arrivalsRx, h1], h2, b, h3, h4⟩
      split at h
      · rename_i hs
        rw [List.mem_cons] at h
        rcases h with rfl | h
        · exact ⟨t, len, by simp [Downlink.arrivalsRx], rfl, a, Or.inl rfl, hs⟩
        · exact old h
      · exact old h
    | setRemote t b =>
      obtain ⟨ta, l, h1, h2, c, h3, h4⟩ := ih h
      refine ⟨ta, l, h1, h2, c, Or.inr ?_, h4⟩
      rcases h3 with rfl | ⟨v, hv⟩
      · exact ⟨t, by simp [Downlink.tracksRx]⟩
      · exact ⟨v, by simp [Downlink.tracksRx, hv]⟩
    | run => exact ih h

section
variable [Fintype G] [Fintype D] [Fintype E] [DecidableEq G] [DecidableEq D] [DecidableEq E]
variable {net : Net D G E V W P R} {w : World D G E W} {peer : E → E} {hist : List (Nat × Nat × D)} {as : List SatAddress} {full : Bool}

/-- What a satellite passes up comes from a frame on the air, in the way the receiver says (`Q`). -/
theorem up_source (hs : Setup net w peer hist as) (hh : Honest full net.rx) {Q : Aloha.Frame P → Nat → Prop}
    (hq : ∀ rops r, runFrom net.rx.step net.rx.init rops = some (.ok r) → ∀ y ∈ net.rx.delivered r, ∃ f ∈ Aloha.frames rops, f.uid = y.2 ∧ Q f y.1)
    {ops : List (Op D G E W)} (hl : Launched net hist as ops)
    {s : Sys D G E W R} (h : exec net ops = some (.ok s)) {d : D} {t k i ta p : Nat} {f : Uplink.Flight W}
    (hd : (t, k) ∈ net.rx.delivered (s.up.sats d)) (hi : s.up.heard[i]? = some (ta, d, f)) (hk : net.rx.key i f.pkt = k) (hp : f.pkt = p) :
    ∃ g z fr, z ∈ (s.up.stations g).aired ∧ Uplink.target hist as z.2.dst = some d ∧ w.ground.admit z.1 g d = true ∧ z.2.pkt = p ∧
      fr.start = z.1 + w.ground.delay z.1 g d ∧ fr.dur = z.2.len ∧ Q fr t := by
  obtain ⟨hasOrbit, cid, n, m, k', hb, hfit, hkk⟩ := hs.built
  obtain ⟨h1, -, -⟩ := C73_parts h
  have hacc := Uplink.account hb hfit hkk hs.sky hl.up h1
  obtain ⟨rops, r1, r2⟩ := Uplink.C55_receiver h1 d
  obtain ⟨fr, hfr, e1, e2⟩ := hq rops _ r1 _ hd
  rw [r2] at hfr
  obtain ⟨y, hy, hyd, rfl⟩ := Uplink.mem_framesAt.mp hfr
  have hy' : s.up.heard[y.2]? = some y.1 := by
    have := List.mem_zipIdx_iff_getElem?.mp hy
    exact this
  have hpkt : y.1.2.2.pkt = p := by
    simp only at e1
    rcases hh.key y.2 i y.1.2.2.pkt f.pkt (e1.trans hk.symm) with h | h
    · rw [h, hi] at hy'
      simp only [Option.some.injEq] at hy'
      rw [← hy', ← hp]
    · rw [h, hp]
  have hmem : y.1 ∈ (↑s.up.heard + ↑s.up.flying : Multiset (Nat × D × Uplink.Flight W)) := by
    rw [Multiset.mem_add]
    exact Or.inl (List.mem_of_getElem? hy')
  rw [hacc.flights, Multiset.mem_sum] at hmem
  obtain ⟨g, -, hg⟩ := hmem
  obtain ⟨z, hz, e3⟩ := List.mem_filterMap.mp (Multiset.mem_coe.mp hg)
  unfold Uplink.lands at e3
  split at e3
  · simp at e3
  · rename_i d' hd'
    split at e3
    · rename_i hadm
      simp only [Option.some.injEq] at e3
      have hyd' : d' = d := by rw [← hyd, ← e3]
      subst hyd'
      refine ⟨g, z, _, hz, hd', hadm, ?_, ?_, ?_, e2⟩
      · rw [← hpkt, ← e3]
      · rw [← e3]
      · rw [← e3]
    · simp at e3

theorem hop_up (hs : Setup net w peer hist as) (hh : Honest full net.rx) {ops : List (Op D G E W)} (hl : Launched net hist as ops)
    {s : Sys D G E W R} (h : exec net ops = some (.ok s)) {d : D} {t k i ta p : Nat} {f : Uplink.Flight W}
    (hd : (t, k) ∈ net.rx.delivered (s.up.sats d)) (hi : s.up.heard[i]? = some (ta, d, f)) (hk : net.rx.key i f.pkt = k) (hp : f.pkt = p) :
    ∃ n' t' c, Hop net w peer (Uplink.target hist as) full ops p n' t' (.sat d) t c := by
  obtain ⟨g, z, fr, hz, hd', hadm, e1, e2, e3, e4⟩ :=
    up_source hs hh (Q := fun f t => f.start + (if full then f.dur else 0) ≤ t) hh.heard hl h hd hi hk hp
  obtain ⟨h1, -, -⟩ := C73_parts h
  obtain ⟨v, hv, v1, v2⟩ := aired_after_accepted (Uplink.C55_station h1 g) hz
  have hreq := (C34_accepted_or_dropped (Uplink.C55_station h1 g)).2.subset hv
  refine ⟨.ground g, v.1, _, .up (u := z.1) (x := v.2) hreq (by rw [v1, e1]) (by rw [v1]; exact hd') v2 hadm ?_⟩
  rw [v1]
  rw [e2, e3] at e4
  omega

/-- What a station passes up comes from a frame on the air, sent by a satellite that it tracks at some time. -/
theorem down_source (hs : Setup net w peer hist as) {ops : List (Op D G E W)} {s : Sys D G E W R} (h : exec net ops = some (.ok s)) {g : G}
    {t : Nat} {u : GroundStaRx.Up} (hd : (t, u) ∈ (s.down.stations g).delivered) :
    ∃ d z, z ∈ (s.down.sats d).aired ∧ g ∈ net.chan.ground ∧ w.ground.admit z.1 g d = true ∧ z.2.pkt = u.pkt ∧
      (net.satAddr d = net.remote g ∨ ∃ v, .track g v (net.satAddr d) ∈ ops) ∧ t = z.1 + w.ground.delay z.1 g d + z.2.len := by
  obtain ⟨-, h1, -⟩ := C73_parts h
  obtain ⟨s', e, hacc⟩ := Downlink.run_ok hs.downSky h1
  simp only [Outcome.ok.injEq] at e
  subst e
  obtain ⟨rops, r1, r2, r3⟩ := Downlink.C59_station h1 g
  -- where an arrival comes from
  have hfrom : ∀ ta len up, (ta, len, up) ∈ Downlink.arrivalsRx rops → ∃ d z, z ∈ (s.down.sats d).aired ∧ g ∈ net.chan.ground ∧
      w.ground.admit z.1 g d = true ∧ ta = z.1 + w.ground.delay z.1 g d ∧ len = z.2.len ∧ up.pkt = z.2.pkt ∧
      up.src = (net.satAddr d).convertTo net.endian net.ty := by
    intro ta len up hm
    rw [r2] at hm
    unfold Downlink.heardAt at hm
    obtain ⟨y, hy, e⟩ := List.mem_filterMap.mp hm
    split at e
    · rename_i hyg
      simp only [Option.some.injEq, Prod.mk.injEq] at e
      obtain ⟨rfl, rfl, rfl⟩ := e
      have hmem : y ∈ (↑s.down.heard + ↑s.down.flying : Multiset (Nat × G × Downlink.Flight W)) := by
        rw [Multiset.mem_add]; exact Or.inl hy
      rw [hacc.flights, Multiset.mem_sum] at hmem
      obtain ⟨d, -, hd'⟩ := hmem
      obtain ⟨z, hz, hzy⟩ := List.mem_flatMap.mp (Multiset.mem_coe.mp hd')
      obtain ⟨g', hg', e⟩ := List.mem_filterMap.mp hzy
      unfold Downlink.lands at e
      split at e
      · rename_i hadm
        simp only [Option.some.injEq] at e
        have : g' = g := by rw [← hyg, ← e]
        subst this
        exact ⟨d, z, hz, hg', hadm, by rw [← e]; rfl, by rw [← e], by rw [← e], by rw [← e]; rfl⟩
      · simp at e
    · simp at e
  have hsrc : FromSats net.down.endian net.down.ty rops := by
    intro ta pkt len src proto hm
    have : (ta, len, (⟨pkt, src, proto⟩ : GroundStaRx.Up)) ∈ Downlink.arrivalsRx rops := by
      clear r1 r2 r3 hfrom
      induction rops with
      | nil => simp at hm
      | cons o os ih =>
        rw [List.mem_cons] at hm
        rcases hm with rfl | hm
        · simp [Downlink.arrivalsRx]
        · have := ih hm
          cases o <;> simp [Downlink.arrivalsRx, this]
    obtain ⟨d, z, -, -, -, -, -, -, hz⟩ := hfrom _ _ _ this
    exact ⟨_, hz⟩
  obtain ⟨s', e, p1, -⟩ := C36_tracked_only hsrc r1
  simp only [Outcome.ok.injEq] at e
  subst e
  obtain ⟨ta, len, m1, m2, b, m3, m4⟩ := mem_expected (p1.subset (List.mem_append_left _ hd))
  obtain ⟨d, z, z1, z2, z3, z4, z5, z6, z7⟩ := hfrom ta len _ m1
  have hb : net.satAddr d = b := by
    have e1 := (C01_roundtrip true net.endian net.ty (net.satAddr d)).1
    have e2 := (C01_roundtrip true net.endian net.ty b).1
    simp only at m4 z7
    have : (net.satAddr d).convertTo net.endian net.ty = b.convertTo net.endian net.ty := z7.symm.trans m4
    rw [this, e2] at e1
    simp only [Outcome.ok.injEq] at e1
    exact e1.symm
  simp only at m2
  refine ⟨d, z, z1, z2, z3, z6.symm, ?_, by omega⟩
  · rcases m3 with h | ⟨v, hv⟩
    · exact Or.inl (hb.trans h)
    · right
      rw [r3] at hv
      refine ⟨v, ?_⟩
      rw [hb]
      unfold Downlink.tracks at hv
      obtain ⟨o, ho, e⟩ := List.mem_filterMap.mp hv
      obtain ⟨o', ho', e'⟩ := List.mem_filterMap.mp ho
      cases o with
      | track g' v' b' =>
        simp only at e
        split at e
        · rename_i hgg
          subst hgg
          simp only [Option.some.injEq, Prod.mk.injEq] at e
          obtain ⟨rfl, rfl⟩ := e
          cases o' with
          | track g'' v'' b'' =>
            simp only [toDown, Option.some.injEq, Downlink.Op.track.injEq] at e'
            obtain ⟨rfl, rfl, rfl⟩ := e'
            exact ho'
          | _ => simp [toDown] at e'
        · simp at e
      | _ => simp at e

theorem hop_down (hs : Setup net w peer hist as) {ops : List (Op D G E W)} {s : Sys D G E W R} (h : exec net ops = some (.ok s)) {g : G}
    {t : Nat} {u : GroundStaRx.Up} (hd : (t, u) ∈ (s.down.stations g).delivered) :
    ∃ n' t' c, Hop net w peer (Uplink.target hist as) full ops u.pkt n' t' (.ground g) t c := by
  obtain ⟨d, z, z1, z2, z3, z4, z5, z6⟩ := down_source hs h hd
  obtain ⟨-, h1, -⟩ := C73_parts h
  obtain ⟨t0, ht0, hsent⟩ := down_aired_after_sent (Downlink.C59_satellite h1 d) z1
  have hop : .sat d (.send t0 z.2.pkt z.2.len z.2.proto) ∈ ops := by
    unfold Downlink.opsOf at hsent
    obtain ⟨o, ho, e⟩ := List.mem_filterMap.mp hsent
    obtain ⟨o', ho', e'⟩ := List.mem_filterMap.mp ho
    cases o with
    | sat d' x =>
      simp only at e
      split at e
      · rename_i hdd
        subst hdd
        simp only [Option.some.injEq] at e
        subst e
        cases o' with
        | sat d'' x' =>
          simp only [toDown, Option.some.injEq, Downlink.Op.sat.injEq] at e'
          obtain ⟨rfl, rfl⟩ := e'
          exact ho'
        | _ => simp [toDown] at e'
      · simp at e
    | _ => simp at e
  refine ⟨.sat d, t0, _, .down (u := z.1) (len := z.2.len) (proto := z.2.proto) ?_ z2 z5 ht0 z3 ?_⟩
  · rw [← z4]; exact hop
  · omega

/-- What an inter-satellite device passes up comes from a frame sent by its peer. -/
theorem isl_source (hs : Setup net w peer hist as) {ops : List (Op D G E W)} {s : Sys D G E W R} (h : exec net ops = some (.ok s)) {e : E}
    {t p : Nat} {proto : UInt16} (hd : (t, p, proto) ∈ (s.isl.rx e).delivered) :
    ∃ d z, z ∈ IslNet.sent (s.isl.tx d) ∧ w.isl.admit z.1.1 d (peer d) = true ∧ peer d = e ∧ z.1.2.pkt = p ∧
      t = z.1.1 + w.isl.delay z.1.1 d (peer d) + z.1.2.len := by
  obtain ⟨-, -, h1⟩ := C73_parts h
  obtain ⟨s', e', hacc⟩ := IslNet.run_ok hs.islSky hs.wired h1
  simp only [Outcome.ok.injEq] at e'
  subst e'
  obtain ⟨rops, r1, r2⟩ := IslNet.C60_receiver h1 e
  obtain ⟨s', e', p1, -⟩ := C40_reception r1
  simp only [Outcome.ok.injEq] at e'
  subst e'
  have hm := p1.subset (List.mem_append_left _ hd)
  rw [r2] at hm
  obtain ⟨y, hy, ey⟩ := List.mem_filterMap.mp hm
  unfold IslNet.heardAt at ey
  split at ey
  · rename_i hye
    simp only [Option.some.injEq, Prod.mk.injEq] at ey
    obtain ⟨y1, y2, -⟩ := ey
    have hmem : y ∈ (↑s.isl.heard + ↑s.isl.flying : Multiset (Nat × E × IslNet.Frame)) := by
      rw [Multiset.mem_add]; exact Or.inl hy
    rw [hacc.flights, Multiset.mem_sum] at hmem
    obtain ⟨d, -, hd'⟩ := hmem
    obtain ⟨z, hz, ez⟩ := List.mem_filterMap.mp (Multiset.mem_coe.mp hd')
    unfold IslNet.lands at ez
    split at ez
    · rename_i hadm
      simp only [Option.some.injEq] at ez
      have hpe : peer d = e := by rw [← hye, ← ez]
      have hpk : z.1.2.pkt = p := by rw [← y2, ← ez]
      have htt : y.1 = z.1.1 + w.isl.delay z.1.1 d (peer d) := by rw [← ez]
      have hll : y.2.2.len = z.1.2.len := by rw [← ez]
      exact ⟨d, z, hz, hadm, hpe, hpk, by omega⟩
    · simp at ez
  · simp at ey

theorem hop_isl (hs : Setup net w peer hist as) {ops : List (Op D G E W)} {s : Sys D G E W R} (h : exec net ops = some (.ok s)) {e : E}
    {t p : Nat} {proto : UInt16} (hd : (t, p, proto) ∈ (s.isl.rx e).delivered) :
    ∃ n' t' c, Hop net w peer (Uplink.target hist as) full ops p n' t' (.sat (net.own e)) t c := by
  obtain ⟨d, z, hz, hadm, hpe, hpk, ht⟩ := isl_source hs h hd
  obtain ⟨-, -, h1⟩ := C73_parts h
  obtain ⟨t0, ht0, proto', hsent⟩ := isl_aired_after_sent (IslNet.C60_sender h1 d) hz
  have hop : .isl (.tx d (.send t0 z.1.2.pkt z.1.2.len proto')) ∈ ops := by
    unfold IslNet.opsOf at hsent
    obtain ⟨o, ho, eo⟩ := List.mem_filterMap.mp hsent
    obtain ⟨o', ho', e'⟩ := List.mem_filterMap.mp ho
    cases o with
    | tx d' x =>
      simp only at eo
      split at eo
      · rename_i hdd
        subst hdd
        simp only [Option.some.injEq] at eo
        subst eo
        cases o' with
        | isl x' =>
          simp only [toIsl, Option.some.injEq] at e'
          subst e'
          exact ho'
        | _ => simp [toIsl] at e'
      · simp at eo
    | _ => simp at eo
  rw [← hpe, ← hpk]
  exact ⟨_, t0, _, .isl (u := z.1.1) hop ht0 hadm (by omega)⟩

/-- Whatever a node gets has come over a link from a neighbour. -/
theorem hop_of_gets (hs : Setup net w peer hist as) (hh : Honest full net.rx) {ops : List (Op D G E W)} (hl : Launched net hist as ops)
    {s : Sys D G E W R} (h : exec net ops = some (.ok s)) {n : Node D G} {t p : Nat} (hg : Gets net s n t p) :
    ∃ n' t' c, Hop net w peer (Uplink.target hist as) full ops p n' t' n t c := by
  cases n with
  | ground g =>
    obtain ⟨u, hu, rfl⟩ := hg
    exact hop_down hs h hu
  | sat d =>
    rcases hg with ⟨k, i, ta, f, h1, h2, h3, h4⟩ | ⟨e, proto, rfl, h1⟩
    · exact hop_up hs hh hl h h1 h2 h3 h4
    · exact hop_isl hs h h1

end

/-! ## Nothing is passed up in the future -/

section
variable [Fintype G] [Fintype D] [Fintype E] [DecidableEq G] [DecidableEq D] [DecidableEq E]
variable {net : Net D G E V W P R} {full : Bool}

omit [Fintype E] [DecidableEq E] in
theorem up_past {net : Uplink.Net D G V W P R} (hh : Honest full net.rx) {ops : List (Uplink.Op D G W)} {s : Uplink.Sys D G W R}
    (h : Uplink.exec net ops = some (.ok s)) (h0 : net.rx.delivered net.rx.init = []) (d : D) : ∀ y ∈ net.rx.delivered (s.sats d), y.1 ≤ s.clock := by
  refine run_induction (P := fun _ s => ∀ d, ∀ y ∈ net.rx.delivered (s.sats d), y.1 ≤ s.clock) ?_ ?_ h d
  · intro d y hy
    simp only [Uplink.Sys.init, h0, List.not_mem_nil] at hy
  · intro ops o s s' _ ih hst d y hy
    cases o with
    | station g o =>
      obtain ⟨t, st, a, -, hd, -, -, rfl⟩ := Uplink.step_station hst
      exact (ih d y hy).trans hd.1
    | arrive =>
      obtain ⟨t, d', f, rest, r, -, hd, hr, rfl⟩ := Uplink.step_arrive hst
      by_cases e : d = d'
      · subst e
        simp only [Function.update_self] at hy
        rcases hh.now _ _ _ hr y hy with hy | ⟨e, -⟩
        · exact (ih d y hy).trans hd.1
        · cases e
      · simp only [Function.update_of_ne e] at hy
        exact (ih d y hy).trans hd.1
    | finish d' =>
      obtain ⟨t, ts, r, hdue, hd, hr, rfl⟩ := Uplink.step_finish hst
      by_cases e : d = d'
      · subst e
        simp only [Function.update_self] at hy
        rcases hh.now _ _ _ hr y hy with hy | ⟨-, e⟩
        · exact (ih d y hy).trans hd.1
        · rw [hdue] at e
          simp only [List.head?_cons, Option.some.injEq] at e
          exact e.symm.le
      · simp only [Function.update_of_ne e] at hy
        exact (ih d y hy).trans hd.1

omit [Fintype E] [DecidableEq E] in
theorem down_past {net : Downlink.Net D G V W} {ops : List (Downlink.Op D G W)} {s : Downlink.Sys D G W}
    (h : Downlink.exec net ops = some (.ok s)) (g : G) : ∀ y ∈ (s.stations g).delivered, y.1 ≤ s.clock := by
  refine run_induction (P := fun _ s => ∀ g, ∀ y ∈ (s.stations g).delivered, y.1 ≤ s.clock) ?_ ?_ h g
  · intro g y hy
    simp [Downlink.Sys.init, GroundStaRx.Sys.init] at hy
  · intro ops o s s' _ ih hst g y hy
    have other : ∀ {t g' st o}, s.clock ≤ t → GroundStaRx.step net.debug net.endian net.ty (s.stations g') o = some (.ok st) → o ≠ .run →
        ∀ y ∈ (Function.update s.stations g' st g).delivered, y.1 ≤ t := by
      intro t g' st o ht hst ho y hy
      by_cases e : g = g'
      · subst e
        simp only [Function.update_self] at hy
        have : st.delivered = (s.stations g).delivered := by
          cases o with
          | arrive t pkt len src proto =>
            simp only [GroundStaRx.step] at hst
            split at hst
            · simp only [GroundStaRx.receiveFromSat, Option.some.injEq] at hst
              rw [Outcome.bind_eq_ok] at hst
              obtain ⟨a, -, hst⟩ := hst
              split at hst
              · simp only [Outcome.ok.injEq] at hst; rw [← hst]
              · simp only [Outcome.ok.injEq] at hst; rw [← hst]
            · simp at hst
          | setRemote t a =>
            simp only [GroundStaRx.step] at hst
            split at hst
            · simp only [Option.some.injEq, Outcome.ok.injEq] at hst; rw [← hst]
            · simp at hst
          | run => exact absurd rfl ho
        rw [this] at hy
        exact (ih g y hy).trans ht
      · simp only [Function.update_of_ne e] at hy
        exact (ih g y hy).trans ht
    cases o with
    | sat d o =>
      obtain ⟨t, st, a, -, hd, -, -, rfl⟩ := Downlink.step_sat hst
      exact (ih g y hy).trans hd.1
    | track g' t a =>
      obtain ⟨st, hd, hr, rfl⟩ := Downlink.step_track hst
      exact other hd.1 hr (by simp) y hy
    | arrive =>
      obtain ⟨t, g', f, rest, st, -, hd, hr, rfl⟩ := Downlink.step_arrive hst
      exact other hd.1 hr (by simp) y hy
    | finish g' =>
      obtain ⟨t, u, es, st, hp, hd, hr, rfl⟩ := Downlink.step_finish hst
      by_cases e : g = g'
      · subst e
        simp only [Function.update_self] at hy
        simp only [GroundStaRx.step, hp, Option.some.injEq, Outcome.ok.injEq] at hr
        rw [← hr] at hy
        simp only [List.mem_append, List.mem_singleton] at hy
        rcases hy with hy | rfl
        · exact (ih g y hy).trans hd.1
        · exact le_refl _
      · simp only [Function.update_of_ne e] at hy
        exact (ih g y hy).trans hd.1

omit [Fintype G] [Fintype D] [DecidableEq G] [DecidableEq D] in
theorem isl_past {net : IslNet.Net E} {ops : List (IslNet.Op E)} {s : IslNet.Sys E}
    (h : IslNet.exec net ops = some (.ok s)) (e : E) : ∀ y ∈ (s.rx e).delivered, y.1 ≤ s.clock := by
  refine run_induction (P := fun _ s => ∀ e, ∀ y ∈ (s.rx e).delivered, y.1 ≤ s.clock) ?_ ?_ h e
  · intro e y hy
    simp [IslNet.Sys.init] at hy
  · intro ops o s s' _ ih hst e y hy
    cases o with
    | tx d o =>
      obtain ⟨t, st, a, -, hd, -, -, rfl⟩ := IslNet.step_tx hst
      exact (ih e y hy).trans hd.1
    | arrive =>
      obtain ⟨t, d, f, rest, st, -, hd, hr, rfl⟩ := IslNet.step_arrive hst
      by_cases e' : e = d
      · subst e'
        simp only [Function.update_self] at hy
        have : st.delivered = (s.rx e).delivered := by
          simp only [SatNet.rxStep] at hr
          split at hr
          · simp only [Option.some.injEq, Outcome.ok.injEq] at hr; rw [← hr]
          · simp at hr
        rw [this] at hy
        exact (ih e y hy).trans hd.1
      · simp only [Function.update_of_ne e'] at hy
        exact (ih e y hy).trans hd.1
    | finish d =>
      obtain ⟨t, u, es, st, hp, hd, hr, rfl⟩ := IslNet.step_finish hst
      by_cases e' : e = d
      · subst e'
        simp only [Function.update_self] at hy
        simp only [SatNet.rxStep, hp, Option.some.injEq, Outcome.ok.injEq] at hr
        rw [← hr] at hy
        simp only [List.mem_append, List.mem_singleton] at hy
        rcases hy with hy | rfl
        · exact (ih e y hy).trans hd.1
        · exact le_refl _
      · simp only [Function.update_of_ne e'] at hy
        exact (ih e y hy).trans hd.1

theorem honest_init {rx : Uplink.Receiver P R} (hh : Honest full rx) : rx.delivered rx.init = [] := by
  refine List.eq_nil_iff_forall_not_mem.mpr (fun y hy => ?_)
  obtain ⟨f, hf, -⟩ := hh.heard [] rx.init rfl y hy
  simp [Aloha.frames] at hf

/-- What a node has got when it sends, it got before. -/
theorem gets_before (hh : Honest full net.rx) {ops : List (Op D G E W)} {s s' : Sys D G E W R} (h : exec net ops = some (.ok s)) {o : Op D G E W}
    (hst : step net s o = some (.ok s')) {n m : Node D G} {t t' p q : Nat} (ho : sends net o = some (m, t', q)) (hg : Gets net s n t p) : t ≤ t' := by
  obtain ⟨u, hu, d1, d2, d3, -⟩ := step_ok hst
  obtain ⟨h1, h2, h3⟩ := C73_parts h
  have e : u = t' := by
    cases o with
    | send g t pkt len proto =>
      simp only [sends, Option.some.injEq, Prod.mk.injEq] at ho
      simp only [time, Option.some.injEq] at hu
      rw [← hu, ho.2.1]
    | sat d o =>
      cases o with
      | send t pkt len proto =>
        simp only [sends, Option.some.injEq, Prod.mk.injEq] at ho
        simp only [time, Downlink.opTime, Option.some.injEq] at hu
        rw [← hu, ho.2.1]
      | _ => simp [sends] at ho
    | isl o =>
      cases o with
      | tx e o =>
        cases o with
        | send t pkt len proto =>
          simp only [sends, Option.some.injEq, Prod.mk.injEq] at ho
          simp only [time, IslNet.opTime, Option.some.injEq] at hu
          rw [← hu, ho.2.1]
        | _ => simp [sends] at ho
      | _ => simp [sends] at ho
    | _ => simp [sends] at ho
  subst e
  cases n with
  | ground g =>
    obtain ⟨y, hy, -⟩ := hg
    exact (down_past h2 g _ hy).trans d2.1
  | sat d =>
    rcases hg with ⟨k, i, ta, f, hk, -⟩ | ⟨e, proto, -, hk⟩
    · exact (up_past (net := net.up) hh h1 (honest_init hh) d _ hk).trans d1.1
    · exact (isl_past h3 e _ hk).trans d3.1

end

/-! ## Routes -/

section
variable [Fintype G] [Fintype D] [Fintype E] [DecidableEq G] [DecidableEq D] [DecidableEq E]

/-- Node `n` brings packet `p` into the network at time `t`: it sends it without having got it. -/
def Origin (net : Net D G E V W P R) (ops : List (Op D G E W)) (n : Node D G) (t p : Nat) : Prop :=
  ∃ pre o post s, ops = pre ++ o :: post ∧ sends net o = some (n, t, p) ∧ exec net pre = some (.ok s) ∧ ∀ t', ¬ Gets net s n t' p

/-- Node `n` sends packet `p` at time `t`, having got it at time `t'`. -/
def Relay (net : Net D G E V W P R) (ops : List (Op D G E W)) (n : Node D G) (t' t p : Nat) : Prop :=
  ∃ pre o post s, ops = pre ++ o :: post ∧ sends net o = some (n, t, p) ∧ exec net pre = some (.ok s) ∧ Gets net s n t' p ∧ t' ≤ t

/-- A chain of hops through the named nodes, begun at one time, ended at another, with the time spent on links.  Every node in between gets
the packet before it sends it on. -/
inductive Route (net : Net D G E V W P R) (w : World D G E W) (peer : E → E) (tgt : SatAddress → Option D) (full : Bool)
    (ops : List (Op D G E W)) (p : Nat) : List (Node D G) → Nat → Nat → Nat → Prop
  | one {n n' : Node D G} {t t' c : Nat} (hop : Hop net w peer tgt full ops p n t n' t' c) : Route net w peer tgt full ops p [n, n'] t t' c
  | more {path : List (Node D G)} {n n' : Node D G} {t0 t1 t2 t' c c' : Nat} (route : Route net w peer tgt full ops p path t0 t1 c)
      (last : path.getLast? = some n) (relay : Relay net ops n t1 t2 p) (hop : Hop net w peer tgt full ops p n t2 n' t' c') :
      Route net w peer tgt full ops p (path ++ [n']) t0 t' (c + c')

theorem Relay.mono {net : Net D G E V W P R} {a b : List (Op D G E W)} {n : Node D G} {t' t p : Nat} (h : Relay net a n t' t p) :
    Relay net (a ++ b) n t' t p := by
  obtain ⟨pre, o, post, s, rfl, h2⟩ := h
  exact ⟨pre, o, post ++ b, s, by simp, h2⟩

variable {net : Net D G E V W P R} {w : World D G E W} {peer : E → E} {hist : List (Nat × Nat × D)} {as : List SatAddress} {full : Bool}
  {tgt : SatAddress → Option D}

theorem Route.mono {a b : List (Op D G E W)} {p : Nat} {path : List (Node D G)} {t t' c : Nat}
    (h : Route net w peer tgt full a p path t t' c) : Route net w peer tgt full (a ++ b) p path t t' c := by
  induction h with
  | one hop => exact .one hop.mono
  | more _ last relay hop ih => exact .more ih last relay.mono hop.mono

/-- Nothing comes from nowhere: if a node gets a packet, then some node brought it into the network and it came from there over a chain of links,
each of which let it through, every node on the way having got it before sending it on. -/
theorem C73_route (hs : Setup net w peer hist as) (hh : Honest full net.rx) {ops : List (Op D G E W)} (hl : Launched net hist as ops)
    {s : Sys D G E W R} (h : exec net ops = some (.ok s)) {n : Node D G} {t p : Nat} (hg : Gets net s n t p) :
    ∃ n0 path t0 c, Origin net ops n0 t0 p ∧ Route net w peer (Uplink.target hist as) full ops p path t0 t c ∧ path.head? = some n0 ∧
      path.getLast? = some n := by
  induction hlen : ops.length using Nat.strong_induction_on generalizing ops s n t with
  | _ len ih =>
  obtain ⟨n', t', c, hop⟩ := hop_of_gets hs hh hl h hg
  obtain ⟨o, ho, hsend⟩ := hop.sends
  obtain ⟨pre, post, rfl⟩ := List.append_of_mem ho
  have hsplit : ∃ s0 s1, exec net pre = some (.ok s0) ∧ step net s0 o = some (.ok s1) := by
    have h' : runFrom (step net) (Sys.init net) ((pre ++ [o]) ++ post) = some (.ok s) := by
      rw [List.append_assoc]; exact h
    rw [runFrom_append] at h'
    split at h'
    · rename_i s1 h1
      obtain ⟨s0, h0, h2⟩ := runFrom_snoc.mp h1
      exact ⟨s0, s1, h0, h2⟩
    · rename_i hno
      exact absurd h' (hno s)
  obtain ⟨s0, s1, h0, h1⟩ := hsplit
  by_cases hprev : ∃ t'', Gets net s0 n' t'' p
  · obtain ⟨t'', hg'⟩ := hprev
    have hle := gets_before hh h0 h1 hsend hg'
    obtain ⟨n0, path, t0, c0, ⟨pre', o', post', s', e, r1, r2, r3⟩, route, hhd, hlast⟩ :=
      ih pre.length (by rw [← hlen]; simp) hl.left h0 hg' rfl
    refine ⟨n0, path ++ [n], t0, c0 + c, ⟨pre', o', post' ++ o :: post, s', ?_, r1, r2, r3⟩, .more (route.mono (b := o :: post)) hlast
      ⟨pre, o, post, s0, rfl, hsend, h0, hg', hle⟩ hop, ?_, by simp⟩
    · rw [e]; simp
    · rw [List.head?_append, hhd]; rfl
  · refine ⟨n', [n', n], t', c, ⟨pre, o, post, s0, rfl, hsend, h0, ?_⟩, .one hop, rfl, rfl⟩
    intro t'' hg'
    exact hprev ⟨t'', hg'⟩

/-- The links on a route take their time. -/
theorem Route.time {ops : List (Op D G E W)} {p : Nat} {path : List (Node D G)} {t t' c : Nat}
    (h : Route net w peer tgt full ops p path t t' c) : t + c ≤ t' := by
  induction h with
  | one hop => exact hop.time
  | more _ _ relay hop ih =>
    obtain ⟨-, -, -, -, -, -, -, -, wait⟩ := relay
    have := hop.time
    omega

theorem Route.slow {m : Nat} (hm1 : ∀ u g d, w.ground.admit u g d = true → m ≤ w.ground.delay u g d)
    (hm2 : ∀ u e, w.isl.admit u e (peer e) = true → m ≤ w.isl.delay u e (peer e)) {ops : List (Op D G E W)} {p : Nat} {path : List (Node D G)}
    {t t' c : Nat} (h : Route net w peer tgt full ops p path t t' c) : m * (path.length - 1) ≤ c ∧ 2 ≤ path.length := by
  have one : ∀ {n n' : Node D G} {t t' c : Nat}, Hop net w peer tgt full ops p n t n' t' c → m ≤ c := by
    intro n n' t t' c hop
    cases hop with
    | up _ _ _ _ hadm _ => exact (hm1 _ _ _ hadm).trans (Nat.le_add_right _ _)
    | down _ _ _ _ hadm _ => exact (hm1 _ _ _ hadm).trans (Nat.le_add_right _ _)
    | isl _ _ hadm _ => exact (hm2 _ _ hadm).trans (Nat.le_add_right _ _)
  induction h with
  | one hop => exact ⟨by simpa using one hop, by simp⟩
  | @more path n n' t0 t1 t2 t' c c' _ _ _ hop ih =>
    refine ⟨?_, by simp; omega⟩
    have := one hop
    have e : (path ++ [n']).length - 1 = (path.length - 1) + 1 := by simp; omega
    rw [e, Nat.mul_add, Nat.mul_one]
    exact Nat.add_le_add ih.1 this

/-- Which nodes a link can join. -/
inductive Joined (net : Net D G E V W P R) (peer : E → E) (hist : List (Nat × Nat × D)) : Node D G → Node D G → Prop
  | up (g : G) (d : D) (launched : ∃ i j, (i, j, d) ∈ hist) : Joined net peer hist (.ground g) (.sat d)
  | down (g : G) (d : D) (attached : g ∈ net.chan.ground) : Joined net peer hist (.sat d) (.ground g)
  | isl (e : E) : Joined net peer hist (.sat (net.own e)) (.sat (net.own (peer e)))

omit [Fintype G] [Fintype D] [Fintype E] [DecidableEq D] [DecidableEq E] in
theorem Hop.joined {ops : List (Op D G E W)} {p : Nat} {n n' : Node D G} {t t' c : Nat}
    (h : Hop net w peer (Uplink.target hist as) full ops p n t n' t' c) : Joined net peer hist n n' := by
  cases h with
  | up given pkt addressed later admitted arrived =>
    refine .up _ _ ?_
    unfold Uplink.target at addressed
    rw [Option.map_eq_some_iff] at addressed
    obtain ⟨y, hy, rfl⟩ := addressed
    have := (List.of_mem_zip (List.mem_of_find?_eq_some hy)).2
    exact ⟨_, _, this⟩
  | down given attached tracked later admitted arrived => exact .down _ _ attached
  | isl given later admitted arrived => exact .isl _

theorem Route.joined {ops : List (Op D G E W)} {p : Nat} {path : List (Node D G)} {t t' c : Nat}
    (h : Route net w peer (Uplink.target hist as) full ops p path t t' c) : path.IsChain (Joined net peer hist) := by
  induction h with
  | one hop => exact .cons_cons hop.joined (.singleton _)
  | more _ last _ hop ih =>
    rw [List.isChain_append]
    refine ⟨ih, .singleton _, ?_⟩
    intro x hx y hy
    rw [last, Option.mem_some_iff] at hx
    simp only [List.head?_cons, Option.mem_some_iff] at hy
    rw [← hx, ← hy]
    exact hop.joined

/-- The route follows links - from stations to launched satellites, from satellites to attached stations, and between the two satellites of an
inter-satellite link -, and the journey takes at least the sum of the propagation and transmission times of its links; if every link has a
propagation delay of at least `m`, at least `m` for each. -/
theorem C73_latency (hs : Setup net w peer hist as) (hh : Honest full net.rx) {m : Nat}
    (hm1 : ∀ u g d, w.ground.admit u g d = true → m ≤ w.ground.delay u g d)
    (hm2 : ∀ u e, w.isl.admit u e (peer e) = true → m ≤ w.isl.delay u e (peer e)) {ops : List (Op D G E W)} (hl : Launched net hist as ops)
    {s : Sys D G E W R} (h : exec net ops = some (.ok s)) {n : Node D G} {t p : Nat} (hg : Gets net s n t p) :
    ∃ n0 path t0 c, Origin net ops n0 t0 p ∧ Route net w peer (Uplink.target hist as) full ops p path t0 t c ∧ path.head? = some n0 ∧
      path.getLast? = some n ∧ path.IsChain (Joined net peer hist) ∧ t0 + c ≤ t ∧ t0 + m * (path.length - 1) ≤ t := by
  obtain ⟨n0, path, t0, c, h1, h2, h3, h4⟩ := C73_route hs hh hl h hg
  have := h2.time
  have := (h2.slow hm1 hm2).1
  exact ⟨n0, path, t0, c, h1, h2, h3, h4, h2.joined, h2.time, by omega⟩

/-- Stations do not hear each other: what a station gets is sent by a satellite; if only stations bring packets into the network, it has come up from
a station and down again, which takes two propagation delays (even if it is the same station). -/
theorem C73_ground_to_ground (hs : Setup net w peer hist as) (hh : Honest full net.rx) {m : Nat}
    (hm1 : ∀ u g d, w.ground.admit u g d = true → m ≤ w.ground.delay u g d)
    (hm2 : ∀ u e, w.isl.admit u e (peer e) = true → m ≤ w.isl.delay u e (peer e)) {ops : List (Op D G E W)} (hl : Launched net hist as ops)
    {s : Sys D G E W R} (h : exec net ops = some (.ok s)) {g : G} {t p : Nat} (hg : Gets net s (.ground g) t p)
    (hsat : ∀ d t0, ¬ Origin net ops (.sat d) t0 p) : ∃ g0 t0, Origin net ops (.ground g0) t0 p ∧ t0 + 2 * m ≤ t := by
  obtain ⟨n0, path, t0, c, h1, h2, h3, h4, h5, -, h6⟩ := C73_latency hs hh hm1 hm2 hl h hg
  cases n0 with
  | sat d => exact absurd h1 (hsat d t0)
  | ground g0 =>
    refine ⟨g0, t0, h1, ?_⟩
    have : 2 ≤ path.length - 1 := by
      match path, h3, h4, h5, h2.slow hm1 hm2 with
      | [], h3, _, _, _ => simp at h3
      | [_], _, _, _, hh => simp at hh
      | [a, b], h3, h4, h5, _ =>
        simp only [List.head?_cons, Option.some.injEq] at h3
        have h4' : b = .ground g := by simpa using h4
        rw [h3, h4', List.isChain_cons_cons] at h5
        cases h5.1
      | _ :: _ :: _ :: _, _, _, _, _ => simp
    have : m * 2 ≤ m * (path.length - 1) := Nat.mul_le_mul_left m this
    omega

end

/-! ## An example -/

/-- Two stations, each of them heard by the satellite of its own number only, and a link between the satellites. -/
def exWorld : World (Fin 2) (Fin 2) (Fin 2) Int :=
  ⟨⟨fun _ _ d => 3 + 2 * d.val, fun _ _ _ p => p - 10, fun _ g d => g == d⟩, ⟨fun _ _ _ => 5, fun _ _ _ => true⟩⟩

def exNet {R : Type} (rx : Uplink.Receiver Int R) : Net (Fin 2) (Fin 2) (Fin 2) Nat Int Int R where
  debug := true
  endian := .little
  ty := 7
  chan := ⟨some Uplink.exConstellation, [0, 1]⟩
  air := fun _ => ⟨fun g => some g.val, fun d => some d.val, some (fun _ ps => 3 + 2 * ps), some (fun p _ _ => p - 10), some (fun g d => .ok (g == d))⟩
  addr := fun g => ⟨1, [UInt8.ofNat g.val]⟩
  mac := fun _ => noneMac
  accept := fun _ _ _ => true
  remote := fun g => SatAddress.mk3 .little 1 0 (UInt16.ofNat g.val)
  power := fun _ => 30
  rx := rx
  toP := fun p => p.natAbs + 1
  satAddr := fun d => SatAddress.mk3 .little 1 0 (UInt16.ofNat d.val)
  satAccept := fun _ _ _ => true
  satPower := fun _ => 30
  isl := ⟨true, fun _ => ⟨2, ⟨false, some 0, some 1⟩, ⟨false, some 1, some 0⟩⟩, fun _ _ _ => true, fun _ => some (fun _ _ => 5), fun _ => none⟩
  own := id

abbrev exHist : List (Nat × Nat × Fin 2) := [(0, 1, 1), (0, 0, 0)]

abbrev exAddrs : List SatAddress := [SatAddress.mk3 .little 1 0 1, SatAddress.mk3 .little 1 0 0]

abbrev exPeer : Fin 2 → Fin 2 := fun e => 1 - e

theorem exSetup {R : Type} (rx : Uplink.Receiver Int R) : Setup (exNet rx) exWorld exPeer exHist exAddrs where
  built := ⟨_, _, _, _, _, Uplink.exBuilt, by unfold Fits16; decide, rfl⟩
  sky := fun _ g d => ⟨g.val, d.val, fun _ ps => 3 + 2 * ps, fun p _ _ => p - 10, ⟨rfl, rfl, rfl, rfl⟩, rfl, fun _ => rfl, Or.inr ⟨_, rfl, rfl⟩⟩
  islSky := fun _ => ⟨rfl, Or.inl ⟨rfl, fun _ _ => rfl⟩⟩
  wired := fun d => ⟨true, ⟨fun _ => true, fun _ => true, true⟩, 0, 1, by decide, rfl, by decide +revert⟩

/-- Packet 11 goes from station 0 up to satellite 0, over to satellite 1 and down to station 1. -/
def exOps : List (Op (Fin 2) (Fin 2) (Fin 2) Int) :=
  [.send 0 0 11 10 7, .upArrive, .run 0, .upFinish 0, .isl (.tx 0 (.send 13 11 4 7)), .isl (.tx 0 .run), .isl .arrive, .isl (.finish 1),
   .sat 1 (.send 22 11 10 7), .downArrive, .sat 1 .run, .downFinish 1]

theorem exLaunched {R : Type} (rx : Uplink.Receiver Int R) : Launched (exNet rx) exHist exAddrs exOps := by
  refine ⟨?_, ?_⟩
  · show ∀ g : Fin 2, (Uplink.target exHist exAddrs (SatAddress.mk3 .little 1 0 (UInt16.ofNat g.val))).isSome
    decide
  · intro g t a h
    simp [exOps] at h

example : ∃ s, exec (exNet (Uplink.noneReceiver Int)) exOps = some (.ok s) ∧ (s.down.stations 1).delivered.map (fun y => (y.1, y.2.pkt)) = [(37, 11)] ∧
    (s.down.stations 0).delivered = [] ∧ (s.isl.rx 1).delivered = [(22, 11, 7)] ∧
    (Uplink.noneReceiver Int).delivered (s.up.sats 0) = [(13, 0)] ∧ s.up.heard.length = 1 := by
  refine ⟨_, rfl, ?_⟩; decide

example : ∃ s, exec (exNet (Uplink.noneReceiver Int)) exOps = some (.ok s) ∧ Gets (exNet (Uplink.noneReceiver Int)) s (.ground 1) 37 11 := by
  have h : ∃ s, exec (exNet (Uplink.noneReceiver Int)) exOps = some (.ok s) ∧
      (37, ⟨11, (SatAddress.mk3 .little 1 0 1).convertTo .little 7, 7⟩) ∈ (s.down.stations 1).delivered := by
    refine ⟨_, rfl, ?_⟩; decide
  obtain ⟨s, h1, h2⟩ := h
  exact ⟨s, h1, _, h2, rfl⟩

/-- Only station 0 brings packet 11 into the network. -/
example : ∀ d t0, ¬ Origin (exNet (Uplink.noneReceiver Int)) exOps (.sat d) t0 11 := by
  rintro d t0 ⟨pre, o, post, s, e, ho, hx, hn⟩
  have hpre : pre = exOps.take pre.length := by rw [e]; simp
  have hat : exOps[pre.length]? = some o := by rw [e]; simp
  generalize pre.length = k at hpre hat
  subst hpre
  have hk : k < 12 := by
    by_contra hk
    rw [List.getElem?_eq_none (by simp [exOps]; omega)] at hat
    simp at hat
  have h4 : ∃ s, exec (exNet (Uplink.noneReceiver Int)) (exOps.take 4) = some (.ok s) ∧ (13, 0) ∈ (Uplink.noneReceiver Int).delivered (s.up.sats 0) ∧
      ∃ f, s.up.heard[0]? = some (3, 0, f) ∧ f.pkt = 11 := by
    refine ⟨_, rfl, by decide, _, rfl, rfl⟩
  have h8 : ∃ s, exec (exNet (Uplink.noneReceiver Int)) (exOps.take 8) = some (.ok s) ∧ (22, 11, 7) ∈ (s.isl.rx 1).delivered := by
    refine ⟨_, rfl, by decide⟩
  interval_cases k <;> simp only [exOps, List.getElem?_cons_succ, List.getElem?_cons_zero, Option.some.injEq] at hat <;> subst hat <;>
    simp only [sends, exNet, reduceCtorEq, Option.some.injEq, Prod.mk.injEq, Node.sat.injEq, id, false_and] at ho
  · obtain ⟨rfl, rfl, -⟩ := ho
    obtain ⟨s', e1, e2, f, e3, e4⟩ := h4
    obtain rfl : s' = s := by rw [e1] at hx; simpa using hx
    exact hn 13 (Or.inl ⟨0, 0, 3, f, e2, e3, rfl, e4⟩)
  · obtain ⟨rfl, rfl, -⟩ := ho
    obtain ⟨s', e1, e2⟩ := h8
    obtain rfl : s' = s := by rw [e1] at hx; simpa using hx
    exact hn 22 (Or.inr ⟨1, 7, rfl, e2⟩)

example : (∀ u g d, exWorld.ground.admit u g d = true → 3 ≤ exWorld.ground.delay u g d) ∧
    ∀ u e, exWorld.isl.admit u e (exPeer e) = true → 3 ≤ exWorld.isl.delay u e (exPeer e) := by
  refine ⟨fun u g d _ => ?_, fun u e _ => ?_⟩ <;> simp [exWorld]

end Network
end Icarus
