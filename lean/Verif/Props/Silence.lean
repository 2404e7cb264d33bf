import Verif.Props.ElevationRate
import Verif.Props.Geodetic
import Verif.Props.ConstellationHelper
import Verif.Model.LaunchedOrbit

/-!
# Stations out of reach, and the program examples/vostping.cc (C107)

Exact real arithmetic.
-/

set_option autoImplicit false

namespace Icarus
namespace Orbit
open Real

/-- A point is at least as far away as it is higher or lower. -/
theorem height_le_distance (a b : Vec) : a.2.2 - b.2.2 ≤ distance a b := by
  unfold distance length sub
  refine le_trans (le_abs_self _) ?_
  rw [← sqrt_sq_eq_abs]
  refine sqrt_le_sqrt ?_
  simp only
  nlinarith [sq_nonneg (b.1 - a.1), sq_nonneg (b.2.1 - a.2.1)]

/-- How far the reported position of a satellite is north of the equatorial plane. -/
theorem reported_height (debug : Bool) (o : Elements) (hr : 0 < o.radius) (t : ℝ) :
    ∃ p, doGetPosition debug (some o) t = .ok p ∧ p.2.2 = (o.radius - 9) * (sin (meanMotion o.radius * t + o.phase) * sin o.inclination) := by
  obtain ⟨p, h1, h2⟩ := C46_rotated debug o hr t
  refine ⟨_, h2, ?_⟩
  rw [C45_position debug o hr] at h1
  simp only [Outcome.ok.injEq] at h1
  rw [← h1]
  simp only [smul, rotZ, circlePoint, rotX]
  field_simp
  ring

/-- The satellites of examples/vostping.cc. -/
theorem ping_launched (p : Nat) : (specElements 2 1 0 250000 60 p 0).launched = ⟨π / 3, π * p, 6621009, 0⟩ := by
  unfold OrbitElements.launched specElements launchSat toRadians earthRadius
  push_cast
  congr 1 <;> ring

theorem motion250 : 0.00117 ≤ meanMotion 6621009 ∧ meanMotion 6621009 ≤ 0.001172 := by
  unfold meanMotion
  exact ⟨le_sqrt_of_sq_le (by norm_num), (sqrt_le_left (by norm_num)).mpr (by norm_num)⟩

/-- From half a period before a satellite's passage of the equator northwards (which takes place at time 0 and once in every period) until 450 seconds after it. -/
def Silent (t : ℝ) : Prop := ∃ k : Nat, -(2 * π / meanMotion 6621009 / 2) ≤ t - k * (2 * π / meanMotion 6621009) ∧ t - k * (2 * π / meanMotion 6621009) ≤ 450

/-- These are more than 58 percent of the time. -/
theorem C107_most : 0.58 * (2 * π / meanMotion 6621009) < 2 * π / meanMotion 6621009 / 2 + 450 := by
  obtain ⟨n1, n2⟩ := motion250
  have p2 := pi_lt_d6
  have : 2 * π / meanMotion 6621009 ≤ 5400 := by
    rw [div_le_iff₀ (by linarith)]
    linarith
  linarith

/-- `GeographicPositions::GeographicToCartesianCoordinates (42.1704632, -8.6877909, 450, GeographicPositions::WGS84)` (examples/vostping.cc:71-72) -/
noncomputable def school : Vec := Geodetic.specPosition .wgs84 42.1704632 (-8.6877909) 450

theorem school_height : 4031000 ≤ school.2.2 := by
  have p1 := pi_gt_d6
  have p2 := pi_lt_d6
  obtain ⟨φ, hφ⟩ : ∃ φ, φ = (42.1704632 : ℝ) * (π / 180) := ⟨_, rfl⟩
  have f1 : 0.736 ≤ φ := by rw [hφ]; linarith
  have f2 : φ ≤ 0.7361 := by rw [hφ]; linarith
  have hs : 0.6363 ≤ sin φ := by
    have h1 := sin_gt_sub_cube (x := φ) (by linarith)
    have h2 : φ ^ 3 ≤ 0.7361 ^ 3 := pow_le_pow_left₀ (by linarith) f2 3
    norm_num at h2
    linarith
  obtain ⟨e2, he2⟩ : ∃ e2, e2 = (0.0818191908426215 : ℝ) ^ 2 := ⟨_, rfl⟩
  have e0 : 0 ≤ e2 := by rw [he2]; positivity
  have e1 : e2 ≤ 0.0067 := by rw [he2]; norm_num
  have hsq : 0 < 1 - e2 * sin φ ^ 2 := by
    have := mul_le_mul e1 (sin_sq_le_one φ) (sq_nonneg _) (by norm_num)
    linarith
  have hN : 6378137 ≤ 6378137 / √(1 - e2 * sin φ ^ 2) := by
    rw [le_div_iff₀ (sqrt_pos.mpr hsq)]
    have : √(1 - e2 * sin φ ^ 2) ≤ 1 := by
      have := mul_nonneg e0 (sq_nonneg (sin φ))
      exact (sqrt_le_left (by norm_num)).mpr (by linarith)
    linarith
  show 4031000 ≤ ((1 - (0.0818191908426215 : ℝ) ^ 2) * (6378137 / √(1 - (0.0818191908426215 : ℝ) ^ 2 * sin (42.1704632 * (π / 180)) ^ 2)) + 450) * sin (42.1704632 * (π / 180))
  rw [← hφ, ← he2]
  have h3 : 0.9933 * 6378137 ≤ (1 - e2) * (6378137 / √(1 - e2 * sin φ ^ 2)) := mul_le_mul (by linarith) hN (by norm_num) (by linarith)
  have h4 : (0.9933 * 6378137 + 450) * 0.6363 ≤ ((1 - e2) * (6378137 / √(1 - e2 * sin φ ^ 2)) + 450) * sin φ :=
    mul_le_mul (by linarith) hs (by norm_num) (by linarith)
  norm_num at h4
  linarith

/-- During silence the satellite is more than 1000 km from the school. -/
theorem C107_far (debug : Bool) (p : Nat) {t : ℝ} (ht : Silent t) :
    ∃ s, doGetPosition debug (some (specElements 2 1 0 250000 60 p 0).launched) t = .ok s ∧ 1000000 < distance school s := by
  rw [ping_launched]
  obtain ⟨s, h1, h2⟩ := reported_height debug ⟨π / 3, π * p, 6621009, 0⟩ (by norm_num) t
  refine ⟨s, h1, lt_of_lt_of_le ?_ (height_le_distance school s)⟩
  have hq := school_height
  suffices hz : s.2.2 ≤ 3030000 by linarith
  obtain ⟨k, k1, k2⟩ := ht
  obtain ⟨n1, n2⟩ := motion250
  simp only [add_zero] at h2
  obtain ⟨n, hn⟩ : ∃ n, n = meanMotion 6621009 := ⟨_, rfl⟩
  rw [← hn] at h2 k1 k2 n1 n2
  obtain ⟨τ, hτ⟩ : ∃ τ, τ = t - k * (2 * π / n) := ⟨_, rfl⟩
  rw [← hτ] at k1 k2
  have hn0 : 0 < n := by linarith
  have harg : n * t = n * τ + k * (2 * π) := by
    rw [hτ]
    field_simp
    ring
  have hsin : sin (n * t) ≤ 0.5274 := by
    rw [harg, sin_add_nat_mul_two_pi]
    rcases le_or_gt τ 0 with h | h
    · have : sin (n * τ) ≤ 0 := by
        refine sin_nonpos_of_nonpos_of_neg_pi_le (mul_nonpos_of_nonneg_of_nonpos hn0.le h) ?_
        have := mul_le_mul_of_nonneg_left k1 hn0.le
        rw [show n * -(2 * π / n / 2) = -π by field_simp] at this
        exact this
      linarith
    · have h3 := sin_le (x := n * τ) (by positivity)
      have h4 : n * τ ≤ 0.001172 * 450 := mul_le_mul n2 k2 h.le (by norm_num)
      norm_num at h4
      linarith
  have h60 : sin (π / 3) ≤ 0.8661 := by
    rw [sin_pi_div_three]
    have : √3 ≤ 1.7321 := by
      rw [sqrt_le_left (by norm_num)]
      norm_num
    linarith
  have h60' : 0 ≤ sin (π / 3) := by rw [sin_pi_div_three]; positivity
  have h5 : sin (n * t) * sin (π / 3) ≤ 0.5274 * 0.8661 := by
    rcases le_or_gt 0 (sin (n * t)) with h | h
    · exact mul_le_mul hsin h60 h60' (by norm_num)
    · have := mul_nonpos_of_nonpos_of_nonneg h.le h60'
      exact this.trans (by norm_num)
  rw [h2]
  have h6 : (6621009 - 9 : ℝ) * (sin (n * t) * sin (π / 3)) ≤ (6621009 - 9) * (0.5274 * 0.8661) := mul_le_mul_of_nonneg_left h5 (by norm_num)
  norm_num at h6 ⊢
  linarith

end Orbit

namespace TrackedNet
open Real SuccessModel
open Network (Net World Setup)
open Orbit (Vec Elements Silent doGetPosition school)
open ConstellationHelper (create)

section
variable {D G E V W P R : Type} [Fintype G] [Fintype D] [Fintype E] [DecidableEq G] [DecidableEq D] [DecidableEq E]
variable {debug : Bool} {hist : List (Nat × Nat × D)} {as : List SatAddress} {orb : D → Elements} {q : G → Vec}

/-- The channel's success model is `GroundSatSuccessDistance` with the given maximum distance; station `g` is at `q g`, satellite `d` on the orbit `orb d`. -/
def DistanceLink (debug : Bool) (orb : D → Elements) (q : G → Vec) (range : ℝ) (net : Net D G E V W P R) : Prop :=
  ∀ t g d, ∃ s f, doGetPosition debug (some (orb d)) ((t : Nat) / 10 ^ 9) = .ok s ∧ (net.air t).success = some f ∧
    f g d = distanceSuccess range (some (.other (q g))) (some (.orbit s))

/-- At tick `t` satellite `d` is within the distance. -/
def InRange (debug : Bool) (orb : D → Elements) (q : G → Vec) (range : ℝ) (t : Nat) (g : G) (d : D) : Prop :=
  ∃ s, doGetPosition debug (some (orb d)) (t / 10 ^ 9) = .ok s ∧ Orbit.distance (q g) s ≤ range

omit [Fintype G] [Fintype D] [Fintype E] [DecidableEq G] [DecidableEq D] in
theorem range_open {net : Net D G E V W P R} {w : World D G E W} {peer : E → E} (hs : Setup net w peer hist as) {range : ℝ}
    (hl : DistanceLink debug orb q range net) (t : Nat) (g : G) (d : D) : w.ground.admit t g d = true ↔ InRange debug orb q range t g d := by
  obtain ⟨s, f, h1, h2, h3⟩ := hl t g d
  obtain ⟨_, _, _, _, -, -, -, hor⟩ := hs.sky t g d
  rcases hor with ⟨e, -⟩ | ⟨f', e1, e2⟩
  · have : (net.air t).success = none := e
    rw [h2] at this
    simp at this
  · have e1 : (net.air t).success = some f' := e1
    rw [h2, Option.some.injEq] at e1
    subst e1
    rw [h3] at e2
    simp only [distanceSuccess, getMobility, Option.map_some, Mobility.position, Outcome.ok.injEq] at e2
    rw [← e2, decide_eq_true_eq]
    refine ⟨fun h => ⟨s, h1, h⟩, fun ⟨s', k1, k2⟩ => ?_⟩
    rw [h1, Outcome.ok.injEq] at k1
    rwa [k1]

/-- **Nothing is received from out of range, upwards.**  A packet passed up by a satellite's ground-facing device was on the air before, from a station that addressed this
satellite, at a time at which the satellite was within the distance. -/
theorem C107_up {full : Bool} {net : Net D G E V W P R} {w : World D G E W} {peer : E → E} (hs : Setup net w peer hist as) (hh : Network.Honest full net.rx) {range : ℝ}
    (hl : DistanceLink debug orb q range net) {ops : List (Network.Op D G E W)} (hla : Network.Launched net hist as ops) {s : Network.Sys D G E W R}
    (h : Network.exec net ops = some (.ok s)) {d : D} {t p : Nat} (hf : Network.FromGround net s d t p) :
    ∃ g z, z ∈ (s.up.stations g).aired ∧ z.2.pkt = p ∧ Uplink.target hist as z.2.dst = some d ∧ z.1 ≤ t ∧ InRange debug orb q range z.1 g d := by
  obtain ⟨k, i, ta, f, h1, h2, h3, h4⟩ := hf
  obtain ⟨g, z, fr, z1, z2, z3, z4, z5, -, z6⟩ := Network.up_source hs hh (Q := fun f t => f.start + (if full then f.dur else 0) ≤ t) hh.heard hla h h1 h2 h3 h4
  exact ⟨g, z, z1, z4, z2, by omega, (range_open hs hl _ _ _).mp z3⟩

/-- **Nothing is received from out of range, downwards.** -/
theorem C107_down {net : Net D G E V W P R} {w : World D G E W} {peer : E → E} (hs : Setup net w peer hist as) {range : ℝ}
    (hl : DistanceLink debug orb q range net) {ops : List (Network.Op D G E W)} {s : Network.Sys D G E W R}
    (h : Network.exec net ops = some (.ok s)) {g : G} {t : Nat} {u : GroundStaRx.Up} (hd : (t, u) ∈ (s.down.stations g).delivered) :
    ∃ d z, z ∈ (s.down.sats d).aired ∧ z.2.pkt = u.pkt ∧ z.1 ≤ t ∧ InRange debug orb q range z.1 g d := by
  obtain ⟨d, z, z1, -, z3, z4, -, z6⟩ := Network.down_source hs h hd
  exact ⟨d, z, z1, z4, by omega, (range_open hs hl _ _ _).mp z3⟩

/-- The channel of examples/vostping.cc:41-85, and its satellites and stations: some or all of the two satellites of the constellation, launched by its helper; stations at the school;
the distance model with its default of 1000 km (model/ground-sat-success-distance.cc:36). -/
structure Ping (debug : Bool) (cid : Nat) (ds : List D) (orb : D → Elements) (q : G → Vec) (net : Net D G E V W P R) : Prop where
  launched : ∃ out h, (create cid 250000 60 2 1 0).launchAll debug net.endian ds = .ok (out, h) ∧ net.chan.constellation = some h.constellation ∧
    ∀ (k : Nat) d a o, ds[k]? = some d → out[k]? = some (a, o) → orb d = o.launched
  all : ∀ d, d ∈ ds
  school : ∀ g, q g = school
  link : DistanceLink debug orb q 1000000 net

omit [Fintype G] [Fintype D] [Fintype E] [DecidableEq G] [DecidableEq D] [DecidableEq E] in
theorem Ping.far {net : Net D G E V W P R} {cid : Nat} {ds : List D} (hp : Ping debug cid ds orb q net) {t : Nat} {g : G} {d : D}
    (hr : InRange debug orb q 1000000 t g d) : ¬ Silent (t / 10 ^ 9) := by
  intro hsil
  obtain ⟨out, h, hl, -, horb⟩ := hp.launched
  obtain ⟨k, hk⟩ := List.mem_iff_getElem?.mp (hp.all d)
  have hkl := (List.getElem?_eq_some_iff.mp hk).1
  obtain ⟨a, ha⟩ := C10_orbital_elements debug net.endian cid 2 1 0 250000 60 ds out h hl k 0 (by norm_num) (by omega)
  rw [mul_one, add_zero] at ha
  obtain ⟨s, s1, s2⟩ := hr
  obtain ⟨s', k1, k2⟩ := Orbit.C107_far debug k hsil
  rw [horb k d a _ hk ha, k1, Outcome.ok.injEq] at s1
  rw [hp.school, ← s1] at s2
  linarith

/-- **The example stays silent most of the time.**  Whatever satellites and stations of examples/vostping.cc receive has been put on the air outside the times of silence. -/
theorem C107_vostping {full : Bool} {net : Net D G E V W P R} {w : World D G E W} {peer : E → E} (hs : Setup net w peer hist as) (hh : Network.Honest full net.rx)
    {cid : Nat} {ds : List D} (hp : Ping debug cid ds orb q net) {ops : List (Network.Op D G E W)} (hla : Network.Launched net hist as ops)
    {s : Network.Sys D G E W R} (h : Network.exec net ops = some (.ok s)) :
    (∀ d t p, Network.FromGround net s d t p → ∃ g z, z ∈ (s.up.stations g).aired ∧ z.2.pkt = p ∧ z.1 ≤ t ∧ ¬ Silent (z.1 / 10 ^ 9)) ∧
    ∀ g t u, (t, u) ∈ (s.down.stations g).delivered → ∃ d z, z ∈ (s.down.sats d).aired ∧ z.2.pkt = u.pkt ∧ z.1 ≤ t ∧ ¬ Silent (z.1 / 10 ^ 9) := by
  constructor
  · intro d t p hf
    obtain ⟨g, z, z1, z2, -, z4, z5⟩ := C107_up hs hh hp.link hla h hf
    exact ⟨g, z, z1, z2, z4, hp.far z5⟩
  · intro g t u hd
    obtain ⟨d, z, z1, z2, z3, z4⟩ := C107_down hs hp.link h hd
    exact ⟨d, z, z1, z2, z3, hp.far z4⟩

theorem silent_first {z : Nat} (hz : z ≤ 450 * 10 ^ 9) : Silent (z / 10 ^ 9) := by
  have hn := Orbit.motion250.1
  refine ⟨0, ?_, ?_⟩
  · have h1 : (0 : ℝ) ≤ z / 10 ^ 9 := by positivity
    have h2 : 0 ≤ 2 * π / Orbit.meanMotion 6621009 / 2 := by
      have : 0 < Orbit.meanMotion 6621009 := by linarith
      positivity
    rw [Nat.cast_zero, zero_mul, sub_zero]
    linarith
  · rw [Nat.cast_zero, zero_mul, sub_zero, div_le_iff₀ (by norm_num)]
    exact_mod_cast hz

/-- The silence ends: 1000 seconds after the start there is none. -/
example : ¬ Silent 1000 := by
  rintro ⟨k, h1, h2⟩
  obtain ⟨n1, n2⟩ := Orbit.motion250
  have hT : 5000 ≤ 2 * π / Orbit.meanMotion 6621009 := by
    rw [le_div_iff₀ (by linarith)]
    linarith [pi_gt_three]
  rcases Nat.eq_zero_or_pos k with rfl | hk
  · norm_num at h2
  · have : (1 : ℝ) ≤ k := by exact_mod_cast hk
    nlinarith

/-- **In the first 450 seconds nothing is received.** -/
theorem C107_first {full : Bool} {net : Net D G E V W P R} {w : World D G E W} {peer : E → E} (hs : Setup net w peer hist as) (hh : Network.Honest full net.rx)
    {cid : Nat} {ds : List D} (hp : Ping debug cid ds orb q net) {ops : List (Network.Op D G E W)} (hla : Network.Launched net hist as ops)
    {s : Network.Sys D G E W R} (h : Network.exec net ops = some (.ok s)) {t : Nat} (ht : t ≤ 450 * 10 ^ 9) :
    (∀ d p, ¬ Network.FromGround net s d t p) ∧ ∀ g u, (t, u) ∉ (s.down.stations g).delivered := by
  have key : ∀ z : Nat, z ≤ t → Silent (z / 10 ^ 9) := fun z hz => silent_first (hz.trans ht)
  obtain ⟨h1, h2⟩ := C107_vostping hs hh hp hla h
  constructor
  · intro d p hf
    obtain ⟨-, z, -, -, z3, z4⟩ := h1 d t p hf
    exact z4 (key _ z3)
  · intro g u hu
    obtain ⟨-, z, -, -, z3, z4⟩ := h2 g t u hu
    exact z4 (key _ z3)

end

/-! ## Example: one of the two satellites, as in the program -/

section

/-- What the helper has launched. -/
def pingSky : Constellation (Fin 1) := { constellationId := 1, nPlanes := 2, planeSize := 1, planes := [[some 0], [none]], size := 1 }

noncomputable def pingOrbit (_ : Fin 1) : Elements := (specElements 2 1 0 250000 60 0 0).launched

theorem ping_sky : ∃ out h, (create 1 250000 60 2 1 0).launchAll true .big [(0 : Fin 1)] = .ok (out, h) ∧ h.constellation = pingSky := ⟨_, _, rfl, rfl⟩

/-- The node of the satellite. -/
noncomputable def pingNode (t : Nat) (d : Fin 1) : SuccessModel.Node :=
  match doGetPosition true (some (pingOrbit d)) (t / 10 ^ 9) with
  | .ok s => some (.orbit s)
  | _ => none

noncomputable def pingNet : Net (Fin 1) (Fin 1) (Fin 0) Nat Int Int (NoneMac.Sys Int) where
  debug := true
  endian := .big
  ty := 7
  chan := ⟨some pingSky, [0]⟩
  air := fun t => ⟨fun g => some g.val, fun d => some d.val, some (fun _ ps => 3 + 2 * ps), some (fun p _ _ => p - 10),
    some (fun _ d => distanceSuccess 1000000 (some (.other school)) (pingNode t d))⟩
  addr := fun g => ⟨1, [UInt8.ofNat g.val]⟩
  mac := fun _ => noneMac
  accept := fun _ _ _ => true
  remote := fun _ => SatAddress.mk3 .big 1 0 0
  power := fun _ => 30
  rx := Uplink.noneReceiver Int
  toP := fun p => p.natAbs + 1
  satAddr := fun _ => SatAddress.mk3 .big 1 0 0
  satAccept := fun _ _ _ => true
  satPower := fun _ => 30
  isl := ⟨true, fun e => e.elim0, fun _ => Queue.dropTail .packets 2 (fun _ => 100), fun _ => some (fun _ _ => 5), fun _ => none⟩
  own := fun e => e.elim0

open Classical in
noncomputable def pingWorld : World (Fin 1) (Fin 1) (Fin 0) Int :=
  ⟨⟨fun _ _ d => 3 + 2 * d.val, fun _ _ _ p => p - 10, fun t g d => decide (InRange true pingOrbit (fun _ : Fin 1 => school) 1000000 t g d)⟩, ⟨fun _ _ _ => 5, fun _ _ _ => true⟩⟩

abbrev pingHist : List (Nat × Nat × Fin 1) := [(0, 0, 0)]
abbrev pingAddrs : List SatAddress := [SatAddress.mk3 .big 1 0 0]

theorem pingBuilt : Built .big (fun _ => true) 1 2 1 pingHist pingAddrs pingSky := by unfold Built; decide

theorem pingAt (t : Nat) (d : Fin 1) : ∃ s, doGetPosition true (some (pingOrbit d)) ((t : ℝ) / 10 ^ 9) = .ok s := by
  obtain ⟨p, h, -⟩ := Orbit.reported_height true (pingOrbit d) (by rw [pingOrbit, Orbit.ping_launched]; norm_num) (t / 10 ^ 9)
  exact ⟨p, h⟩

theorem pingSetup : Setup pingNet pingWorld (fun e => e) pingHist pingAddrs where
  built := ⟨_, _, _, _, _, pingBuilt, by unfold Fits16; decide, rfl⟩
  sky := fun t g d => ⟨g.val, d.val, fun _ ps => 3 + 2 * ps, fun p _ _ => p - 10, ⟨rfl, rfl, rfl, rfl⟩, rfl, fun _ => rfl, Or.inr ⟨_, rfl, by
    obtain ⟨s, h1⟩ := pingAt t d
    simp only [pingNode, h1, distanceSuccess, getMobility, Option.map_some, Mobility.position, pingWorld, InRange, Outcome.ok.injEq]
    congr 1
    exact propext ⟨fun h => ⟨s, h1, h⟩, fun ⟨s', k1, k2⟩ => by rw [h1, Outcome.ok.injEq] at k1; rwa [k1]⟩⟩⟩
  islSky := fun _ => ⟨rfl, Or.inl ⟨rfl, fun _ _ => rfl⟩⟩
  wired := fun e => e.elim0

theorem pingRunnable : Network.Runnable pingNet pingWorld (fun e => e) pingHist pingAddrs (fun r => r.clock) 1 :=
  ⟨pingSetup, Uplink.safe_map rfl, Uplink.none_orderly, Uplink.none_oneEach, fun _ => ⟨Nat.le_refl _, by simp [pingNet, noneMac]⟩⟩

theorem pingPing : Ping true 1 [0] pingOrbit (fun _ => school) pingNet where
  launched := by
    obtain ⟨out, h, h1, h2⟩ := ping_sky
    refine ⟨out, h, h1, by rw [h2]; rfl, fun k d a o hk ho => ?_⟩
    have hk0 : k = 0 := by
      have := (List.getElem?_eq_some_iff.mp hk).1
      simpa using this
    subst hk0
    obtain ⟨a', ha⟩ := C10_orbital_elements true .big 1 2 1 0 250000 60 _ out h h1 0 0 (by norm_num) (by simp)
    rw [mul_one, add_zero, ho, Option.some.injEq, Prod.mk.injEq] at ha
    rw [pingOrbit, ← ha.2]
  all := fun d => by fin_cases d; simp
  school := fun _ => rfl
  link := fun t g d => by
    obtain ⟨s, h1⟩ := pingAt t d
    refine ⟨s, _, h1, rfl, ?_⟩
    simp only [pingNode, h1]

/-- **A packet is lost in the example.**  There is a simulation of the program's network in which the station accepts a packet 100 seconds after the start, sends it at once to the
launched satellite, and has nothing left to do, and the satellite never passes up a packet. -/
theorem C107_witness : ∃ (ops : List (Network.Op (Fin 1) (Fin 1) (Fin 0) Int)) (s : Network.Sys (Fin 1) (Fin 1) (Fin 0) Int (NoneMac.Sys Int)),
    Setup pingNet pingWorld (fun e => e) pingHist pingAddrs ∧ Ping true 1 [0] pingOrbit (fun _ => school) pingNet ∧ Network.Launched pingNet pingHist pingAddrs ops ∧
    Network.exec pingNet ops = some (.ok s) ∧ ops.filter (fun o => !o.internal) = [.send 0 100000000000 11 10 7] ∧ Network.Quiet pingNet s ∧
    (s.up.stations 0).aired.map (fun z => (z.1, z.2.pkt)) = [(100000000000, 11)] ∧ ∀ d t p, ¬ Network.FromGround pingNet s d t p := by
  obtain ⟨ops, s, h1, h2, h3, h4, h5, -, -⟩ := Network.C97_traffic pingRunnable (calls := [.send 0 100000000000 11 10 7])
    ⟨by show ∀ g : Fin 1, (Uplink.target pingHist pingAddrs (SatAddress.mk3 .big 1 0 0)).isSome
        decide, by simp⟩ (by simp [Network.Op.internal]) (by simp)
  obtain ⟨r1, -, -⟩ := Network.C73_parts h1
  obtain ⟨s', e1, -, e3, -⟩ := C34_refines (mac := pingNet.mac 0) noneMac_once (Uplink.C55_station r1 0)
  simp only [Outcome.ok.injEq] at e1
  subst e1
  have ha : (s.up.stations 0).aired = [(100000000000, ⟨11, 10, SatAddress.mk3 .big 1 0 0, 7, 30⟩)] := by
    rw [e3 (h4.1.1 0), h5 0 (fun _ _ => rfl)]
    rfl
  refine ⟨ops, s, pingSetup, pingPing, h3, h1, h2, h4, by rw [ha]; rfl, fun d t p hf => ?_⟩
  obtain ⟨g, z, z1, -, -, z4⟩ := (C107_vostping pingSetup Network.C73_none_honest pingPing h3 h1).1 d t p hf
  have hg : g = 0 := Subsingleton.elim _ _
  subst hg
  rw [ha, List.mem_singleton] at z1
  subst z1
  exact z4 (silent_first (by norm_num))

end
end TrackedNet
end Icarus
