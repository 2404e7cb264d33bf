import Verif.Props.ElevationRate

/-!
# Losses at handovers when the tracker and the link have the same minimum elevation (C103)
-/

set_option autoImplicit false

namespace Icarus
namespace TrackedNet
open Real SuccessModel
open Network (Net World Setup)
open Tracker (View Full updates)
open Orbit (Vec Elements Sees Place FirstSet doGetPosition)

section
variable {D G E V W P R : Type} [Fintype G] [Fintype D] [Fintype E] [DecidableEq G] [DecidableEq D] [DecidableEq E]
variable {debug : Bool} {hist : List (Nat × Nat × D)} {as : List SatAddress} {orb : D → Elements} {q : G → Vec}

/-- **A packet that waits in the device until its satellite has set is lost.**  A station's MAC model sends one copy of each packet.  A packet that the station's queue accepts after another one, and that is given to no other station, is on the air
only when the other one has been sent; if from then on, until time `T`, the satellite it is addressed to is below the link's minimum elevation, no satellite passes it up until `T`. -/
theorem C103_lost {full : Bool} {net : Net D G E V W P R} {w : World D G E W} {peer : E → E} (hs : Setup net w peer hist as) (hh : Network.Honest full net.rx) {minL : ℝ}
    (hl : ElevationLink debug orb q minL net) (hg : ∀ g, 0 < Orbit.length (q g)) (hρ : ∀ g d, Orbit.length (q g) < (orb d).radius - 9)
    {ops : List (Network.Op D G E W)} (hla : Network.Launched net hist as ops) {s : Network.Sys D G E W R} (h : Network.exec net ops = some (.ok s)) {g : G}
    {wait : Nat → Nat → Nat} (hm : GroundSta.Once (net.mac g) wait) {i j a1 a2 : Nat} {x1 x2 : GroundSta.Entry W} (h1 : (s.up.stations g).accepted[i]? = some (a1, x1))
    (h2 : (s.up.stations g).accepted[j]? = some (a2, x2)) (hij : i < j)
    (honly : ∀ (g' : G) (j' : Nat) (y : Nat × GroundSta.Entry W), (s.up.stations g').accepted[j']? = some y → y.2.pkt = x2.pkt → g' = g ∧ j' = j) {T : Nat}
    (hbelow : ∀ (d : D) (u : Nat) (x : ℝ), Uplink.target hist as x2.dst = some d → a1 + x1.len ≤ u → u ≤ T → Sees debug (orb d) (q g) (u / 10 ^ 9) x → x < minL) :
    ∀ d t, t ≤ T → ¬ Network.FromGround net s d t x2.pkt := by
  intro d t htT hf
  obtain ⟨g', z, x, z1, z2, z3, z4, z5, z6⟩ := C102_needs hs hh hl hg hρ hla h hf
  obtain ⟨r1, -, -⟩ := Network.C73_parts h
  obtain ⟨k, hk⟩ := List.getElem?_of_mem z1
  have hacc : ∀ g' (k : Nat) (z : Nat × GroundSta.Entry W), (s.up.stations g').aired[k]? = some z → g' = g → ∃ a, (s.up.stations g').accepted[k]? = some (a, z.2) := by
    intro g' k z hk hg'
    subst hg'
    obtain ⟨⟨r, hr⟩, -⟩ := C34_once_in_order hm (Uplink.C55_station r1 g')
    have : ((s.up.stations g').accepted.map Prod.snd)[k]? = some z.2 := by
      rw [← hr, List.getElem?_append_left (by simpa using (List.getElem?_eq_some_iff.mp hk).1), List.getElem?_map, hk]
      rfl
    rw [List.getElem?_map] at this
    obtain ⟨y, y1, y2⟩ := Option.map_eq_some_iff.mp this
    exact ⟨y.1, by rw [y1, ← y2]⟩
  obtain ⟨y, y1, y2, -⟩ := Network.aired_after_accepted (Uplink.C55_station r1 g') z1
  obtain ⟨k', hk'⟩ := List.getElem?_of_mem y1
  obtain ⟨rfl, rfl⟩ := honly g' k' y hk' (by rw [y2, z2])
  obtain ⟨a, ha⟩ := hacc g' k z hk rfl
  obtain ⟨-, rfl⟩ := honly g' k _ ha z2
  rw [h2] at ha
  simp only [Option.some.injEq, Prod.mk.injEq] at ha
  obtain ⟨-, ha⟩ := ha
  obtain ⟨-, -, hpair, hafter⟩ := C34_once_in_order hm (Uplink.C55_station r1 g')
  have hlen := (List.getElem?_eq_some_iff.mp hk).1
  obtain ⟨f, hf1⟩ : ∃ f, (s.up.stations g').aired[i]? = some f := ⟨_, List.getElem?_eq_getElem (by omega)⟩
  obtain ⟨b, hb⟩ := hacc g' i f hf1 rfl
  have hb' := hafter i f _ hf1 hb
  rw [h1] at hb
  simp only [Option.some.injEq, Prod.mk.injEq] at hb
  obtain ⟨rfl, hb⟩ := hb
  have hgap : f.1 + f.2.len ≤ z.1 := by
    have := List.pairwise_iff_getElem.mp hpair i k (by omega) hlen hij
    rw [List.getElem?_eq_some_iff] at hf1 hk
    obtain ⟨_, e1⟩ := hf1
    obtain ⟨_, e2⟩ := hk
    rwa [e1, e2] at this
  have := hbelow d z.1 x (by rw [ha]; exact z3) (by rw [hb]; simp only at hb'; omega) (by omega) z5
  linarith

end

/-! ## Four satellites, one station, and the same minimum elevation at the tracker and at the channel -/

section
open Orbit (ringOrbit ringSats ring elevationAt meanMotion)

/-- Satellite `d` of the ring is above the horizon of the station while the cosine of its angle to the station exceeds the ratio of the distances from the centre. -/
theorem ring_sign (t : ℝ) (g : Fin 1) (d : Fin 4) :
    (0 < elevationAt (ringOrbit d) (ringQ g) t ↔ 6371 / 16371 < cos ((meanMotion 16371009 - 7.292115922e-5) * t + d * (π / 2))) ∧
      (0 ≤ elevationAt (ringOrbit d) (ringQ g) t ↔ 6371 / 16371 ≤ cos ((meanMotion 16371009 - 7.292115922e-5) * t + d * (π / 2))) := by
  have hl : Orbit.length (ringQ g) = 6371000 := by
    unfold Orbit.length ringQ
    simp
  have hdot : Orbit.dot (ringQ g) (Orbit.sub (Orbit.smul (((ringOrbit d).radius - 9) / (ringOrbit d).radius) (Orbit.rotZ (-(7.292115922e-5 * t))
      (Orbit.circlePoint (ringOrbit d) (meanMotion (ringOrbit d).radius * t + (ringOrbit d).phase)))) (ringQ g)) =
      6371000 * (16371000 * cos ((meanMotion 16371009 - 7.292115922e-5) * t + d * (π / 2)) - 6371000) := by
    rw [show (meanMotion 16371009 - 7.292115922e-5) * t + d * (π / 2) = (meanMotion 16371009 * t + d * (π / 2)) - 7.292115922e-5 * t by ring, cos_sub]
    simp only [ringOrbit, ringQ, Orbit.dot, Orbit.sub, Orbit.smul, Orbit.rotZ, Orbit.circlePoint, Orbit.rotX, cos_neg, sin_neg, sin_zero, cos_zero]
    norm_num
    ring
  have hpos : 0 < Orbit.length (Orbit.sub (Orbit.smul (((ringOrbit d).radius - 9) / (ringOrbit d).radius) (Orbit.rotZ (-(7.292115922e-5 * t))
      (Orbit.circlePoint (ringOrbit d) (meanMotion (ringOrbit d).radius * t + (ringOrbit d).phase)))) (ringQ g)) := by
    have hr : (ringOrbit d).radius = 16371009 := rfl
    have h1 : Orbit.length (Orbit.smul (((ringOrbit d).radius - 9) / (ringOrbit d).radius) (Orbit.rotZ (-(7.292115922e-5 * t))
        (Orbit.circlePoint (ringOrbit d) (meanMotion (ringOrbit d).radius * t + (ringOrbit d).phase)))) = (ringOrbit d).radius - 9 := by
      rw [Orbit.length_smul _ (by rw [hr]; norm_num), Orbit.length_rotZ, Orbit.length_circlePoint _ _ (by rw [hr]; norm_num), div_mul_cancel₀ _ (by rw [hr]; norm_num)]
    refine Orbit.length_pos fun h => ?_
    rw [Orbit.sub_eq_zero'.mp h, hl, hr] at h1
    norm_num at h1
  unfold elevationAt
  simp only
  rw [arcsin_pos, arcsin_nonneg, hdot, hl]
  constructor
  · rw [div_pos_iff_of_pos_right (by positivity)]
    constructor <;> intro h <;> linarith
  · rw [le_div_iff₀ (by positivity), zero_mul]
    constructor <;> intro h <;> linarith

/-- How fast the satellites gain on the Earth, in radians per second. -/
theorem ring_rate : 0 < meanMotion 16371009 - 7.292115922e-5 ∧ meanMotion 16371009 - 7.292115922e-5 < 1 := by
  refine ⟨by have := ringLow.faster 0; simp only [ringOrbit] at this; linarith, ?_⟩
  have h1 := Orbit.meanMotion_sq (r := 16371009) (by norm_num)
  have h2 : meanMotion 16371009 < 1 := by
    by_contra h
    push Not at h
    have : (1 : ℝ) ≤ meanMotion 16371009 ^ 2 := by nlinarith
    rw [h1] at this
    norm_num at this
  linarith

/-- When satellite 0 sets, in seconds. -/
noncomputable def ringSets : ℝ := arccos (6371 / 16371) / (meanMotion 16371009 - 7.292115922e-5)

theorem setting_angle : (meanMotion 16371009 - 7.292115922e-5) * ringSets = arccos (6371 / 16371) := by
  have := ring_rate.1
  unfold ringSets
  field_simp

theorem arccos_range : 1 ≤ arccos (6371 / 16371) ∧ arccos (6371 / 16371) ≤ π / 2 := by
  constructor
  · have h1 : arccos (1 / 2) ≤ arccos (6371 / 16371) := arccos_le_arccos (by norm_num)
    have h2 : arccos (1 / 2) = π / 3 := by
      rw [← cos_pi_div_three, arccos_cos (by positivity) (by linarith [pi_pos])]
    have := pi_gt_three
    linarith
  · rw [arccos_le_pi_div_two]
    norm_num

theorem one_le_setting : 1 ≤ ringSets := by
  have h1 := ring_rate
  have h2 := setting_angle
  have h3 := arccos_range.1
  by_contra h
  push Not at h
  nlinarith

/-- Before, the satellite is above the horizon. -/
theorem before_setting {t : ℝ} (h0 : 0 ≤ t) (h : t < ringSets) (g : Fin 1) : 0 < elevationAt (ringOrbit 0) (ringQ g) t := by
  rw [(ring_sign t g 0).1]
  have h1 := ring_rate.1
  have h2 := setting_angle
  have : (meanMotion 16371009 - 7.292115922e-5) * t < arccos (6371 / 16371) := by rw [← h2]; gcongr
  have h3 := cos_lt_cos_of_nonneg_of_le_pi (by positivity) (arccos_le_pi _) this
  rw [cos_arccos (by norm_num) (by norm_num)] at h3
  simpa using h3

/-- After, it is below, for at least a second. -/
theorem after_setting {t : ℝ} (h0 : ringSets < t) (h : t ≤ ringSets + 1) (g : Fin 1) : elevationAt (ringOrbit 0) (ringQ g) t < 0 := by
  rw [← not_le, (ring_sign t g 0).2, not_le]
  obtain ⟨h1, h1'⟩ := ring_rate
  have h2 := setting_angle
  have : arccos (6371 / 16371) < (meanMotion 16371009 - 7.292115922e-5) * t := by rw [← h2]; gcongr
  have h4 : (meanMotion 16371009 - 7.292115922e-5) * t ≤ π := by
    have h5 := arccos_range.2
    have h6 := pi_gt_three
    nlinarith
  have h3 := cos_lt_cos_of_nonneg_of_le_pi (arccos_nonneg _) h4 this
  rw [cos_arccos (by norm_num) (by norm_num)] at h3
  simpa using h3

/-- At the start no other satellite is. -/
theorem start_visible {d : Fin 4} {g : Fin 1} (h : 0 < elevationAt (ringOrbit d) (ringQ g) ((0 : Nat) / 10 ^ 9)) : d = 0 := by
  rw [(ring_sign _ g d).1] at h
  fin_cases d
  · rfl
  · simp at h; norm_num at h
  · exfalso
    simp only [Nat.cast_zero, zero_div, mul_zero, zero_add] at h
    rw [show ((⟨2, by decide⟩ : Fin 4) : ℕ) * (π / 2) = π by push_cast; ring, cos_pi] at h
    norm_num at h
  · exfalso
    simp only [Nat.cast_zero, zero_div, mul_zero, zero_add] at h
    rw [show ((⟨3, by decide⟩ : Fin 4) : ℕ) * (π / 2) = π / 2 + π by push_cast; ring, cos_add_pi, cos_pi_div_two] at h
    norm_num at h

/-- The station, its tracker and the satellites of C101; links need an elevation of 0, as the tracker. -/
noncomputable def evenNet : Net (Fin 4) (Fin 1) (Fin 0) Nat Int Int (NoneMac.Sys Int) :=
  { ringNet with air := fun t => ⟨fun g => some g.val, fun d => some d.val, some (fun _ ps => 3 + 2 * ps), some (fun p _ _ => p - 10),
      some (fun g d => elevationSuccess 0 (some (.other (ringQ g))) (ringNode t d))⟩ }

open Classical in
noncomputable def evenWorld : World (Fin 4) (Fin 1) (Fin 0) Int :=
  ⟨⟨fun _ _ d => 3 + 2 * d.val, fun _ _ _ p => p - 10, fun t g d => decide (0 ≤ elevationAt (ringOrbit d) (ringQ g) (t / 10 ^ 9))⟩, ⟨fun _ _ _ => 5, fun _ _ _ => true⟩⟩

theorem evenLink : ElevationLink true ringOrbit ringQ 0 evenNet := by
  intro t g d
  obtain ⟨s, h1, -⟩ := ringAt t g d
  refine ⟨s, _, h1, rfl, ?_⟩
  simp only [ringNode, h1]

theorem evenSetup : Setup evenNet evenWorld (fun e => e) ringSats ringAddrs where
  built := ⟨_, _, _, _, _, ringBuilt, by unfold Fits16; decide, rfl⟩
  sky := fun t g d => ⟨g.val, d.val, fun _ ps => 3 + 2 * ps, fun p _ _ => p - 10, ⟨rfl, rfl, rfl, rfl⟩, rfl, fun _ => rfl, Or.inr ⟨_, rfl, by
    obtain ⟨s, h1, h2⟩ := ringAt t g d
    simp only [ringNode, h1, elevationSuccess, getOrbit, getMobility, Option.map_some, Mobility.position, h2, evenWorld]⟩⟩
  islSky := fun _ => ⟨rfl, Or.inl ⟨rfl, fun _ _ => rfl⟩⟩
  wired := fun e => e.elim0

theorem evenRunnable : Network.Runnable evenNet evenWorld (fun e => e) ringSats ringAddrs (fun r => r.clock) 1 :=
  ⟨evenSetup, Uplink.safe_map rfl, Uplink.none_orderly, Uplink.none_oneEach, fun _ => ⟨Nat.le_refl _, by simp [evenNet, ringNet, noneMac]⟩⟩

theorem evenLimits : Network.Limits evenNet evenWorld (fun e => e) 0 10 10 9 :=
  (Network.C95_packets (K := 2) (by decide) (b1 := fun _ _ => 100) (b2 := fun _ _ => 100) (b3 := fun _ _ => 100) (fun _ => rfl) (fun _ => rfl) (fun _ => rfl)
    (fun _ => QueueDelay.none_prompt) (fun u g d _ => by show 3 + 2 * d.val ≤ 9; omega) (fun u e _ => e.elim0)).1

/-- What is sent from `g`: when, what, how long. -/
def sent {D G E W : Type} : Network.Op D G E W → Option (Nat × Nat × Nat)
  | .send _ t p l _ => some (t, p, l)
  | _ => none

theorem requests_sent {D G E W : Type} [DecidableEq G] (g : G) (a : SatAddress) (p : W) (ops : List (Network.Op D G E W)) :
    (requests a p (Uplink.opsOf g (ops.filterMap Network.toUp))).map (fun y => (y.1, y.2.pkt, y.2.len)) = (ops.filter (sendsAt g)).filterMap sent := by
  induction ops generalizing a p with
  | nil => rfl
  | cons o os ih =>
    have e : Uplink.opsOf g ((o :: os).filterMap Network.toUp) = Uplink.opsOf g ([o].filterMap Network.toUp) ++ Uplink.opsOf g (os.filterMap Network.toUp) := by
      rw [show o :: os = [o] ++ os from rfl, List.filterMap_append, Uplink.opsOf_append]
    rw [e, requests_append, List.map_append, ih, show o :: os = [o] ++ os from rfl, List.filter_append, List.filterMap_append]
    congr 1
    cases o with
    | send g' => by_cases hg : g' = g <;> simp [Network.toUp, Uplink.opsOf, requests, sendsAt, sent, hg]
    | setPower g' => by_cases hg : g' = g <;> simp [Network.toUp, Uplink.opsOf, requests, sendsAt, sent, hg]
    | track g' => by_cases hg : g' = g <;> simp [Network.toUp, Uplink.opsOf, requests, sendsAt, sent, hg]
    | run g' => by_cases hg : g' = g <;> simp [Network.toUp, Uplink.opsOf, requests, sendsAt, sent, hg]
    | _ => rfl

/-- Calls come out as accepted packets, if none is refused. -/
theorem accepted_sent {D G E V W P R T : Type} [Fintype G] [Fintype D] [Fintype E] [DecidableEq G] [DecidableEq D] [DecidableEq E] {net : Net D G E V W P R}
    {fire : G → Nat → T → Outcome (SatAddress × Option (Nat × T))} {start : G → Tracker.Sys T} (h0 : ∀ g, (start g).clock = 0) (h1 : ∀ g, (start g).log = [])
    {ops : List (Op D G E W)} {s : Sys D G E W R T} (h : exec net fire start ops = some (.ok s)) {calls : List (Network.Op D G E W)}
    (hcalls : ops.filter (fun o => !o.internal) = calls.map Op.net) {g : G} (hr : (s.net.up.stations g).refused = []) :
    (s.net.up.stations g).accepted = requests (net.remote g) (net.power g) (Uplink.opsOf g (s.made.filterMap Network.toUp)) ∧
      (s.net.up.stations g).accepted.map (fun y => (y.1, y.2.pkt, y.2.len)) = (calls.filter (sendsAt g)).filterMap sent := by
  have hp := parts h0 h1 h
  obtain ⟨r1, -, -⟩ := Network.C73_parts hp.net
  obtain ⟨k1, k2⟩ := C34_accepted_or_dropped (Uplink.C55_station r1 g)
  rw [hr, List.append_nil] at k1
  have e := k2.eq_of_length k1.length_eq
  refine ⟨e, ?_⟩
  have hplain : ∀ l : List (Network.Op D G E W), l.filter (sendsAt g) = (l.filter plain).filter (sendsAt g) := by
    intro l
    rw [List.filter_filter]
    apply List.filter_congr
    intro o _
    cases o <;> simp [sendsAt, plain]
  rw [e, requests_sent, hplain, hp.rest, ← hplain, sends_calls g hcalls]

/-- The tracker of the station, up to the setting of satellite 0, tracks this satellite. -/
theorem ring_tracked {v : Fin 1 → Nat → View (Fin 4) ℝ} (hw : Watching true ringSats ringOrbit ringQ (fun _ => 0) (fun _ => 1) v)
    (hset : ∀ t d, 0 < (v 0 t).elevation d → ∃ b, (v 0 t).setting d = some b ∧ t < b ∧ ∃ τ, FirstSet true (ringOrbit d) (ringQ 0) 0 (t / 10 ^ 9) τ ∧ τ * 10 ^ 9 ≤ b)
    {ops : List (Op (Fin 4) (Fin 1) (Fin 0) Int)} {s : Sys (Fin 4) (Fin 1) (Fin 0) Int (NoneMac.Sys Int) Unit}
    (h : exec evenNet (elevationFires true evenNet ring v (fun _ => 0)) (elevationStart evenNet) ops = some (.ok s)) (hno : ∀ t a, .net (.track 0 t a) ∉ ops)
    {y : Nat × GroundSta.Entry Int} (hy : y ∈ requests (evenNet.remote 0) (evenNet.power 0) (Uplink.opsOf 0 (s.made.filterMap Network.toUp))) (hpos : 0 < y.1)
    (hbefore : (y.1 : ℝ) < ringSets * 10 ^ 9) : y.2.dst = evenNet.satAddr 0 := by
  obtain ⟨d, i, t, b, h1, h2, h3, h4, h5, -⟩ := C101_visible ringBuilt Orbit.ring_full hw h hno y hy hpos
  have hel : ∀ (t : Nat) (d : Fin 4), (v 0 t).elevation d = elevationAt (ringOrbit d) (ringQ 0) (t / 10 ^ 9) := fun t d =>
    ((hw.faithful 0).elevation t d).unique (Orbit.sees_elevationAt true (ringOrbit d) (ringQ 0) ringLow.ground (ringLow.above d) _)
  have first : ∀ d b, Tracker.Candidate (v 0 0) 0 d b → d = 0 ∧ ringSets * 10 ^ 9 ≤ b := by
    intro d b ⟨c1, c2⟩
    obtain ⟨b', e1, -, τ, e2, e3⟩ := hset 0 d c1
    rw [c2, Option.some.injEq] at e1
    subst e1
    rw [hel] at c1
    have := start_visible c1
    subst this
    refine ⟨rfl, le_trans ?_ e3⟩
    gcongr
    by_contra hlt
    push Not at hlt
    have z := before_setting (g := 0) (t := τ) (le_trans (by simp) e2.1.le) hlt
    rw [(Orbit.sees_elevationAt true (ringOrbit 0) (ringQ 0) ringLow.ground (ringLow.above 0) τ).unique e2.2.1] at z
    exact lt_irrefl _ z
  have hsoon : true = true → ∀ t, Tracker.Soon (v 0 t) 0 t ringSats :=
    fun _ t => Orbit.C71_soon true ringOrbit (ringQ 0) 0 (hw.angle 0).1 (hw.angle 0).2 1 (hw.low 0) (v 0) (hw.faithful 0) t ringSats
  obtain ⟨kops, hk⟩ := (parts (fun g => rfl) (fun g => rfl) h).trk 0
  obtain ⟨-, c2, c3, -⟩ := Tracker.C43_chain (fun _ => ringBuilt) (fun _ => Orbit.ring_full) true evenNet.satAddr (v 0) 0 hsoon
    (fun t x _ b hx => (hw.faithful 0).later t x.2.2 b hx) hk
  have late : ∀ (i t : Nat) (a : SatAddress), (updates (s.trk 0))[i + 1]? = some (t, a) → ringSets * 10 ^ 9 ≤ t := by
    intro i
    induction i with
    | zero =>
      intro t a ht
      have hlen := (List.getElem?_eq_some_iff.mp ht).1
      obtain ⟨⟨t0, a0⟩, hx⟩ : ∃ x, (updates (s.trk 0))[0]? = some x := ⟨_, List.getElem?_eq_getElem (by omega)⟩
      have e := c2 _ hx
      simp only at e
      subst e
      obtain ⟨b, ⟨⟨p, i, d, -, -, hc⟩, -⟩, hnext⟩ := c3 0 0 a0 hx
      rw [zero_add] at ht
      rw [zero_add, ht] at hnext
      simp only at hnext
      rw [hnext]
      exact (first d b hc).2
    | succ i ih =>
      intro t a ht
      have hlen := (List.getElem?_eq_some_iff.mp ht).1
      obtain ⟨⟨t0, a0⟩, hx⟩ : ∃ x, (updates (s.trk 0))[i + 1]? = some x := ⟨_, List.getElem?_eq_getElem (by omega)⟩
      obtain ⟨b, ⟨⟨p, j, d, -, -, hc⟩, -⟩, hnext⟩ := c3 (i + 1) t0 a0 hx
      rw [ht] at hnext
      simp only at hnext
      have h1 := ih t0 a0 hx
      have h2 := (hw.faithful 0).later t0 d b hc.2
      rw [hnext]
      have : (t0 : ℝ) ≤ b := by exact_mod_cast h2
      linarith
  cases i with
  | zero =>
    have e := c2 _ h5
    simp only at e
    subst e
    rw [h1, (first d b h2.2.1).1]
  | succ i =>
    have h6 := late i t _ h5
    have : (t : ℝ) ≤ y.1 := by exact_mod_cast h3
    linarith

/-- **The same minimum elevation is not enough.**  With a tracker and links that need the same elevation (by default both need 25 degrees; here 0), a station and four satellites, one of which is always visible: there are simulations in which a packet is
given to the station and accepted while the satellite to which it is addressed is visible, no queue drops it, and it is passed up by no satellite, although long enough after the deadline nothing is left to be done.  So C102 does not hold
without the room between the minimum elevations. -/
theorem C103_same_minimum : ∃ (v : Fin 1 → Nat → View (Fin 4) ℝ) (t : Nat) (ops : List (Op (Fin 4) (Fin 1) (Fin 0) Int)) (s : Sys (Fin 4) (Fin 1) (Fin 0) Int (NoneMac.Sys Int) Unit),
    Watching true ringSats ringOrbit ringQ (fun _ => 0) (fun _ => 1) v ∧ ElevationLink true ringOrbit ringQ 0 evenNet ∧
    Network.Runnable evenNet evenWorld (fun e => e) ringSats ringAddrs (fun r => r.clock) 1 ∧ Network.Limits evenNet evenWorld (fun e => e) 0 10 10 9 ∧
    exec evenNet (elevationFires true evenNet ring v (fun _ => 0)) (elevationStart evenNet) ops = some (.ok s) ∧
    ops.filter (fun o => !o.internal) = [.net (.send 0 t 11 10 7), .net (.send 0 (t + 1) 12 10 7)] ∧
    Network.due evenNet s.net (t + 1000) ∧ Waits s.trk (t + 1000) ∧ (s.net.up.stations 0).refused = [] ∧
    (∃ e x, (t + 1, e) ∈ (s.net.up.stations 0).accepted ∧ e.pkt = 12 ∧ e.dst = evenNet.satAddr 0 ∧ Sees true (ringOrbit 0) (ringQ 0) ((t + 1 : Nat) / 10 ^ 9) x ∧ 0 < x) ∧
    ∀ d u, ¬ Network.FromGround evenNet s.net d u 12 := by
  obtain ⟨v, hv, hset⟩ := watching_exists true ringOrbit (ringQ 0) 0 (le_refl _) (by positivity) ringLow
  have hw : Watching true ringSats ringOrbit ringQ (fun _ => 0) (fun _ => 1) (fun _ => v) := by
    refine ⟨fun _ => ⟨le_refl _, by positivity⟩, fun _ => ringLow, fun _ => hv, fun _ t => ?_⟩
    obtain ⟨d, x, hd, hx⟩ := Orbit.ring_covers true (t / 10 ^ 9)
    rw [hd.unique (hv.elevation t d)] at hx
    obtain ⟨b, hb, hlt, -⟩ := hset t d hx
    refine ⟨(0, d, d), ?_, b, ⟨hx, hb⟩, hlt⟩
    fin_cases d <;> simp [ringSats]
  obtain ⟨t, ht⟩ : ∃ t, t + 5 = ⌊ringSets * 10 ^ 9⌋₊ := by
    refine ⟨⌊ringSets * 10 ^ 9⌋₊ - 5, Nat.sub_add_cancel (Nat.le_floor ?_)⟩
    have := one_le_setting
    norm_num
    linarith
  have hlow : ((t + 5 : Nat) : ℝ) ≤ ringSets * 10 ^ 9 := by
    rw [ht]
    exact Nat.floor_le (by have := one_le_setting; positivity)
  have hhigh : ringSets * 10 ^ 9 < ((t + 6 : Nat) : ℝ) := by
    have := Nat.lt_floor_add_one (ringSets * 10 ^ 9)
    rw [← ht] at this
    push_cast at this ⊢
    linarith
  push_cast at hlow hhigh
  have htpos : 0 < t := by
    have := one_le_setting
    have : (0 : ℝ) < t := by linarith
    exact_mod_cast this
  have hsane := elevation_sane (net := evenNet) ringNamed ringBuilt (by unfold Fits16; decide) Orbit.ring_full hw
  have hrem : ∀ g : Fin 1, (Uplink.target ringSats ringAddrs (SatAddress.mk3 .big 3 0 2)).isSome := by decide
  obtain ⟨ops, s, h1, h2, hla, hclk, h3, h4⟩ := C100_runs (fun g => (elevationStart_facts evenNet g).1) (fun g => (elevationStart_facts evenNet g).2.1) evenRunnable hsane
    (fun g => by simp [elevationStart, Tracker.elevationInit, insertEvent]) (calls := [.send 0 t 11 10 7, .send 0 (t + 1) 12 10 7]) ⟨hrem, by simp⟩
    (by simp [Network.Op.internal]) (by simp [Network.Op.when]) (until_ := t + 1000) (by simp [Network.Op.when])
  have hroom := C100_room (fun g => (elevationStart_facts evenNet g).1) (fun g => (elevationStart_facts evenNet g).2.1) h1 h2 (g := 0) (K := 2) (bytes := fun _ => 100) rfl
    (by simp [sendsAt])
  obtain ⟨a1, a2⟩ := accepted_sent (fun g => (elevationStart_facts evenNet g).1) (fun g => (elevationStart_facts evenNet g).2.1) h1 h2 hroom
  have hno : ∀ u a, Op.net (.track 0 u a) ∉ ops := by
    intro u a hm
    have : Op.net (.track 0 u a) ∈ ops.filter (fun o => !o.internal) := List.mem_filter.mpr ⟨hm, by rw [Op.internal_net]; rfl⟩
    rw [h2] at this
    simp at this
  obtain ⟨y1, y2, hacc, e1, e2⟩ : ∃ y1 y2, (s.net.up.stations 0).accepted = [y1, y2] ∧ (y1.1, y1.2.pkt, y1.2.len) = (t, 11, 10) ∧ (y2.1, y2.2.pkt, y2.2.len) = (t + 1, 12, 10) := by
    generalize (s.net.up.stations 0).accepted = l at a2
    match l, a2 with
    | [], a2 => simp [sendsAt, sent] at a2
    | [_], a2 => simp [sendsAt, sent] at a2
    | [y1, y2], a2 =>
      simp only [sendsAt, sent, List.filter_cons, List.filter_nil, decide_true, if_true, List.filterMap_cons, List.filterMap_nil, List.map_cons, List.map_nil, List.cons.injEq, and_true] at a2
      exact ⟨y1, y2, rfl, a2.1, a2.2⟩
    | _ :: _ :: _ :: _, a2 => simp [sendsAt, sent] at a2
  simp only [Prod.mk.injEq] at e1 e2
  have hdst : y2.2.dst = evenNet.satAddr 0 := by
    refine ring_tracked hw hset h1 hno (y := y2) ?_ (by omega) ?_
    · rw [← a1, hacc]; simp
    · rw [e2.1]
      push_cast
      linarith
  have hp := parts (fun g => (elevationStart_facts evenNet g).1) (fun g => (elevationStart_facts evenNet g).2.1) h1
  refine ⟨fun _ => v, t, ops, s, hw, evenLink, evenRunnable, evenLimits, h1, h2, h3, h4, hroom, ⟨y2.2, _, ?_, e2.2.1, hdst,
    Orbit.sees_elevationAt true (ringOrbit 0) (ringQ 0) ringLow.ground (ringLow.above 0) _, ?_⟩, fun d u hf => ?_⟩
  · rw [hacc, ← e2.1]; simp
  · refine before_setting (by positivity) ?_ 0
    push_cast
    rw [div_lt_iff₀ (by positivity)]
    linarith
  · have hu : u ≤ t + 1000 := by
      obtain ⟨k, i, ta, f, hd, -⟩ := hf
      obtain ⟨r1, -, -⟩ := Network.C73_parts hp.net
      have h5 := Network.up_past (net := evenNet.up) Network.C73_none_honest r1 rfl d _ hd
      have h6 : s.net.up.clock ≤ s.net.clock := le_max_left _ _
      exact h5.trans (h6.trans hclk)
    have hl := C103_lost evenSetup Network.C73_none_honest evenLink (fun _ => ringLow.ground) (fun _ d => ringLow.above d) hla hp.net (g := 0) noneMac_once
      (i := 0) (j := 1) (a1 := y1.1) (x1 := y1.2) (a2 := y2.1) (x2 := y2.2) (by rw [hacc]; rfl) (by rw [hacc]; rfl) (by norm_num)
      (by
        intro g' j' y hj hpk
        have : g' = 0 := Subsingleton.elim _ _
        subst this
        refine ⟨rfl, ?_⟩
        rw [hacc] at hj
        match j', hj with
        | 0, hj =>
          simp only [List.getElem?_cons_zero, Option.some.injEq] at hj
          rw [← hj, e1.2.1, e2.2.1] at hpk
          omega
        | 1, _ => rfl
        | j' + 2, hj => simp at hj) (T := t + 1000)
      (by
        intro d u x hd hu1 hu2 hx
        rw [hdst] at hd
        have hd0 : Uplink.target ringSats ringAddrs (SatAddress.mk3 .big 3 0 (UInt16.ofNat 0)) = some (0 : Fin 4) := by decide
        have hd' : Uplink.target ringSats ringAddrs (SatAddress.mk3 .big 3 0 (UInt16.ofNat 0)) = some d := hd
        rw [hd0, Option.some.injEq] at hd'
        subst hd'
        rw [hx.unique (Orbit.sees_elevationAt true (ringOrbit 0) (ringQ 0) ringLow.ground (ringLow.above 0) _)]
        rw [e1.1, e1.2.2] at hu1
        have hu1' : (t : ℝ) + 10 ≤ u := by exact_mod_cast hu1
        have hu2' : (u : ℝ) ≤ t + 1000 := by exact_mod_cast hu2
        refine after_setting ?_ ?_ 0
        · rw [lt_div_iff₀ (by positivity)]
          linarith
        · rw [div_le_iff₀ (by positivity)]
          linarith)
    rw [e2.2.1] at hl
    exact hl d u hu hf

end
end TrackedNet
end Icarus
