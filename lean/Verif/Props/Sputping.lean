import Verif.Props.Silence
import Verif.Props.EquatorExample

/-!
# How far satellites above a minimum elevation are, and the program examples/sputping.cc (C108)

Exact real arithmetic.
-/

set_option autoImplicit false

namespace Icarus
namespace Orbit
open Real

/-- **The reach of a minimum elevation.**  A satellite at an elevation of at least `m` is not farther away than one in its orbit at elevation `m`. -/
theorem C108_slant {s q : Vec} {x m : ℝ} (hx : satElevation s q = .ok x) (hm : m ≤ x) (h0 : 0 ≤ m) :
    distance q s ≤ √(length s ^ 2 - (length q * cos m) ^ 2) - length q * sin m := by
  have hne : ¬ (q = (0, 0, 0) ∨ s = q) := by
    rw [← C48_undefined, hx]
    simp
  push Not at hne
  obtain ⟨e, he, e1, e2, e3⟩ := C48_sin s q hne.1 hne.2
  rw [hx, Outcome.ok.injEq] at he
  subst he
  have hp := pi_pos
  have hsin : sin m ≤ sin x := sin_le_sin_of_le_of_le_pi_div_two (by linarith) e2 hm
  have hq : 0 ≤ length q := sqrt_nonneg _
  have hd : 0 ≤ length (sub s q) := sqrt_nonneg _
  have key : length s ^ 2 = length q ^ 2 + 2 * dot q (sub s q) + length (sub s q) ^ 2 := by
    unfold length dot sub
    rw [sq_sqrt (by positivity), sq_sqrt (by positivity), sq_sqrt (by positivity)]
    ring
  have h2 := mul_le_mul_of_nonneg_right hsin (mul_nonneg hq hd)
  rw [e3] at h2
  show length (sub s q) ≤ _
  rw [le_sub_iff_add_le]
  refine le_sqrt_of_sq_le ?_
  have h3 := sin_sq_add_cos_sq m
  have h4 : (length q * cos m) ^ 2 = length q ^ 2 - (length q * sin m) ^ 2 := by
    linear_combination (length q ^ 2) * h3
  rw [key, h4]
  nlinarith

/-- Places on the WGS84 spheroid and above it are at least 6335 km from the centre. -/
theorem wgs84_facts (lat lon : ℝ) {h : ℝ} (hh : 0 ≤ h) : ∃ b, 6335000 ≤ b ∧ (Geodetic.specPosition .wgs84 lat lon h).2.2 = b * sin (lat * (π / 180)) ∧
    6335000 ≤ length (Geodetic.specPosition .wgs84 lat lon h) := by
  obtain ⟨φ, hφ⟩ : ∃ φ, φ = lat * (π / 180) := ⟨_, rfl⟩
  obtain ⟨e2, he2⟩ : ∃ e2, e2 = (0.0818191908426215 : ℝ) ^ 2 := ⟨_, rfl⟩
  have e0 : 0 ≤ e2 := by rw [he2]; positivity
  have e1 : e2 ≤ 0.0067 := by rw [he2]; norm_num
  have hsq : 0 < 1 - e2 * sin φ ^ 2 := by
    have := mul_le_mul e1 (sin_sq_le_one φ) (sq_nonneg _) (by norm_num)
    linarith
  obtain ⟨N, hN'⟩ : ∃ N, N = 6378137 / √(1 - e2 * sin φ ^ 2) := ⟨_, rfl⟩
  have hN : 6378137 ≤ N := by
    rw [hN', le_div_iff₀ (sqrt_pos.mpr hsq)]
    have : √(1 - e2 * sin φ ^ 2) ≤ 1 := by
      have := mul_nonneg e0 (sq_nonneg (sin φ))
      exact (sqrt_le_left (by norm_num)).mpr (by linarith)
    linarith
  have h3 : 0.9933 * 6378137 ≤ (1 - e2) * N := mul_le_mul (by linarith) hN (by norm_num) (by linarith)
  norm_num at h3
  have h3' : 6335000 ≤ (1 - e2) * N + h := by linarith
  have hpos : Geodetic.specPosition .wgs84 lat lon h = ((N + h) * cos φ * cos (lon * (π / 180)), (N + h) * cos φ * sin (lon * (π / 180)), ((1 - e2) * N + h) * sin φ) := by
    rw [hN', hφ, he2]
    rfl
  refine ⟨(1 - e2) * N + h, h3', by rw [hpos, hφ], ?_⟩
  rw [hpos]
  unfold length
  refine le_sqrt_of_sq_le ?_
  simp only
  generalize lon * (π / 180) = l
  have h4 : (1 - e2) * N + h ≤ N + h := by nlinarith
  have h5 : ((1 - e2) * N + h) ^ 2 ≤ (N + h) ^ 2 := pow_le_pow_left₀ (by linarith) h4 2
  have h6 : (6335000 : ℝ) ^ 2 ≤ ((1 - e2) * N + h) ^ 2 := pow_le_pow_left₀ (by norm_num) h3' 2
  have h7 := mul_le_mul_of_nonneg_right h5 (sq_nonneg (cos φ))
  calc (6335000 : ℝ) ^ 2 ≤ ((1 - e2) * N + h) ^ 2 := h6
    _ = ((1 - e2) * N + h) ^ 2 * cos φ ^ 2 + ((1 - e2) * N + h) ^ 2 * sin φ ^ 2 := by rw [← mul_add, cos_sq_add_sin_sq, mul_one]
    _ ≤ (N + h) ^ 2 * cos φ ^ 2 + ((1 - e2) * N + h) ^ 2 * sin φ ^ 2 := by linarith
    _ = (N + h) ^ 2 * cos φ ^ 2 * (cos l ^ 2 + sin l ^ 2) + ((1 - e2) * N + h) ^ 2 * sin φ ^ 2 := by rw [cos_sq_add_sin_sq, mul_one]
    _ = _ := by ring

/-- `GeographicPositions::GeographicToCartesianCoordinates (-27.39979, -33.66416, 0, GeographicPositions::WGS84)` (examples/sputping.cc:81-82) -/
noncomputable def elsewhere : Vec := Geodetic.specPosition .wgs84 (-27.39979) (-33.66416) 0

theorem elsewhere_height : elsewhere.2.2 ≤ -2850000 := by
  obtain ⟨b, hb, h, -⟩ := wgs84_facts (-27.39979) (-33.66416) (le_refl 0)
  rw [elsewhere, h, show (-27.39979 : ℝ) * (π / 180) = -(27.39979 * (π / 180)) by ring, sin_neg]
  have p1 := pi_gt_d6
  have p2 := pi_lt_d6
  obtain ⟨φ, hφ⟩ : ∃ φ, φ = (27.39979 : ℝ) * (π / 180) := ⟨_, rfl⟩
  rw [← hφ]
  have f1 : 0.4782 ≤ φ := by rw [hφ]; linarith
  have f2 : φ ≤ 0.4783 := by rw [hφ]; linarith
  have hs : 0.45 ≤ sin φ := by
    have h1 := sin_gt_sub_cube (x := φ) (by linarith)
    have h2 : φ ^ 3 ≤ 0.4783 ^ 3 := pow_le_pow_left₀ (by linarith) f2 3
    norm_num at h2
    linarith
  have := mul_le_mul hb hs (by norm_num) (by linarith)
  norm_num at this
  linarith

/-- At 25 degrees or more over a place on the spheroid, a satellite of the example is at most 640 km away. -/
theorem within640 {s q : Vec} {x : ℝ} (hx : satElevation s q = .ok x) (hm : toRadians 25 ≤ x) (hs : length s = 6621000) (hq : 6335000 ≤ length q) : distance q s ≤ 640000 := by
  have p1 := pi_gt_d6
  have p2 := pi_lt_d6
  obtain ⟨m, hm'⟩ : ∃ m, m = toRadians 25 := ⟨_, rfl⟩
  rw [← hm'] at hm
  unfold toRadians at hm'
  have f1 : 0.4363 ≤ m := by rw [hm']; linarith
  have f2 : m ≤ 0.4364 := by rw [hm']; linarith
  have h := C108_slant hx hm (by linarith)
  refine h.trans ?_
  have hsin : 0.415 ≤ sin m := by
    have h1 := sin_gt_sub_cube (x := m) (by linarith)
    have h2 : m ^ 3 ≤ 0.4364 ^ 3 := pow_le_pow_left₀ (by linarith) f2 3
    norm_num at h2
    linarith
  have h3 := sin_sq_add_cos_sq m
  have h4 : (length q * cos m) ^ 2 = length q ^ 2 - (length q * sin m) ^ 2 := by
    linear_combination (length q ^ 2) * h3
  have h5 : 6335000 * 0.415 ≤ length q * sin m := mul_le_mul hq hsin (by norm_num) (by linarith)
  have h6 : (6335000 : ℝ) ^ 2 ≤ length q ^ 2 := pow_le_pow_left₀ (by norm_num) hq 2
  rw [hs, h4, sub_le_iff_le_add]
  refine (sqrt_le_left (by linarith)).mpr ?_
  norm_num at h5 h6 ⊢
  nlinarith

/-- Where a satellite of the example is that is seen at 25 degrees or more. -/
theorem seen_height (debug : Bool) (p : Nat) {q : Vec} (hq : 6335000 ≤ length q) {t x : ℝ} (hx : Sees debug (specElements 2 1 0 250000 60 p 0).launched q t x)
    (hm : toRadians 25 ≤ x) : |q.2.2 - 6621000 * (sin (meanMotion 6621009 * t) * sin (π / 3))| ≤ 640000 := by
  rw [ping_launched] at hx
  obtain ⟨s, h1, h2⟩ := hx
  obtain ⟨s', k1, k2, -⟩ := sees_position debug ⟨π / 3, π * p, 6621009, 0⟩ (by norm_num) t
  obtain ⟨s'', l1, l2⟩ := reported_height debug ⟨π / 3, π * p, 6621009, 0⟩ (by norm_num) t
  rw [h1, Outcome.ok.injEq] at k1 l1
  subst k1 l1
  have hd := within640 h2 hm (by rw [k2]; norm_num) hq
  have a1 := height_le_distance q s
  have a2 := height_le_distance s q
  have hsym : distance s q = distance q s := by
    unfold distance length sub
    congr 1
    ring
  rw [hsym] at a2
  simp only [add_zero] at l2
  rw [show (6621000 : ℝ) * (sin (meanMotion 6621009 * t) * sin (π / 3)) = s.2.2 by rw [l2]; norm_num, abs_le]
  exact ⟨by linarith, by linarith⟩

theorem sin60 : 0.866 ≤ sin (π / 3) ∧ sin (π / 3) ≤ 0.8661 := by
  rw [sin_pi_div_three]
  have h1 : √3 ≤ 1.7321 := by
    rw [sqrt_le_left (by norm_num)]
    norm_num
  have h2 : 1.732 ≤ √3 := le_sqrt_of_sq_le (by norm_num)
  constructor <;> linarith

/-- The satellites of the example that are seen from the school at 25 degrees or more are well in the north. -/
theorem C108_north (debug : Bool) (p : Nat) {t x : ℝ} (hx : Sees debug (specElements 2 1 0 250000 60 p 0).launched school t x) (hm : toRadians 25 ≤ x) :
    0.59 ≤ sin (meanMotion 6621009 * t) := by
  obtain ⟨-, -, -, hq⟩ := wgs84_facts 42.1704632 (-8.6877909) (h := 450) (by norm_num)
  have h := (abs_le.mp (seen_height debug p hq hx hm)).2
  have h1 : 4031000 ≤ (Geodetic.specPosition .wgs84 42.1704632 (-8.6877909) 450).2.2 := school_height
  obtain ⟨h2, h3⟩ := sin60
  by_contra hlt
  push Not at hlt
  have : sin (meanMotion 6621009 * t) * sin (π / 3) ≤ 0.59 * 0.8661 := by
    rcases le_or_gt 0 (sin (meanMotion 6621009 * t)) with h0 | h0
    · exact mul_le_mul hlt.le h3 (by linarith) (by norm_num)
    · exact (mul_nonpos_of_nonpos_of_nonneg h0.le (by linarith)).trans (by norm_num)
  rw [show (0.59 : ℝ) * 0.8661 = 0.510999 by norm_num] at this
  linarith

/-- Those seen from the other station are well in the south. -/
theorem C108_south (debug : Bool) (p : Nat) {t x : ℝ} (hx : Sees debug (specElements 2 1 0 250000 60 p 0).launched elsewhere t x) (hm : toRadians 25 ≤ x) :
    sin (meanMotion 6621009 * t) ≤ -0.38 := by
  obtain ⟨-, -, -, hq⟩ := wgs84_facts (-27.39979) (-33.66416) (le_refl 0)
  have h := (abs_le.mp (seen_height debug p hq hx hm)).1
  have h1 : (Geodetic.specPosition .wgs84 (-27.39979) (-33.66416) 0).2.2 ≤ -2850000 := elsewhere_height
  obtain ⟨h2, h3⟩ := sin60
  by_contra hlt
  push Not at hlt
  have : -(0.38 * 0.8661) ≤ sin (meanMotion 6621009 * t) * sin (π / 3) := by
    have := mul_le_mul_of_nonneg_right hlt.le (by linarith : (0 : ℝ) ≤ sin (π / 3))
    linarith
  rw [show (0.38 : ℝ) * 0.8661 = 0.329118 by norm_num] at this
  linarith

/-- A satellite right above. -/
example : satElevation (6621000, 0, 0) (6371000, 0, 0) = .ok (π / 2) :=
  (C48_zenith _ _ (by simp) (by simp)).mpr ⟨6621 / 6371, by norm_num, by simp only [smul]; norm_num⟩

end Orbit

namespace TrackedNet
open Real SuccessModel
open Network (Net World Setup)
open Orbit (Vec Elements doGetPosition school elsewhere Sees satElevation)
open ConstellationHelper (create)

section
variable {D G E V W P R : Type} [Fintype G] [Fintype D] [Fintype E] [DecidableEq G] [DecidableEq D] [DecidableEq E]
variable {debug : Bool} {hist : List (Nat × Nat × D)} {as : List SatAddress} {orb : D → Elements} {q : G → Vec}

/-- At tick `t` satellite `d` is at elevation `minL` or above for station `g`. -/
def Contact (debug : Bool) (orb : D → Elements) (q : G → Vec) (minL : ℝ) (t : Nat) (g : G) (d : D) : Prop := ∃ x, Sees debug (orb d) (q g) (t / 10 ^ 9) x ∧ minL ≤ x

omit [Fintype G] [Fintype D] [Fintype E] [DecidableEq G] [DecidableEq D] in
theorem contact_open {net : Net D G E V W P R} {w : World D G E W} {peer : E → E} (hs : Setup net w peer hist as) {minL : ℝ}
    (hl : ElevationLink debug orb q minL net) (t : Nat) (g : G) (d : D) : w.ground.admit t g d = true ↔ Contact debug orb q minL t g d := by
  obtain ⟨s, f, h1, h2, h3⟩ := hl t g d
  obtain ⟨_, _, _, _, -, -, -, hor⟩ := hs.sky t g d
  rcases hor with ⟨e, -⟩ | ⟨f', e1, e2⟩
  · have : (net.air t).success = none := e
    rw [h2] at this
    simp at this
  · have e1 : (net.air t).success = some f' := e1
    rw [h2, Option.some.injEq] at e1
    subst e1
    rw [h3] at e2
    simp only [elevationSuccess, getOrbit, getMobility, Option.map_some, Mobility.position] at e2
    constructor
    · intro ha
      rw [ha] at e2
      cases hx : satElevation s (q g) with
      | ok x =>
        rw [hx] at e2
        simp only [Outcome.ok.injEq, decide_eq_true_eq] at e2
        exact ⟨x, ⟨s, h1, hx⟩, e2⟩
      | ub u => rw [hx] at e2; cases u <;> simp at e2
      | abort => rw [hx] at e2; simp at e2
      | assertFail => rw [hx] at e2; simp at e2
    · rintro ⟨x, ⟨s', k1, k2⟩, k3⟩
      rw [h1, Outcome.ok.injEq] at k1
      subst k1
      rw [k2] at e2
      simp only [Outcome.ok.injEq] at e2
      rw [← e2]
      exact decide_eq_true k3

/-- **Nothing is received without contact, upwards.** -/
theorem C108_up {full : Bool} {net : Net D G E V W P R} {w : World D G E W} {peer : E → E} (hs : Setup net w peer hist as) (hh : Network.Honest full net.rx) {minL : ℝ}
    (hl : ElevationLink debug orb q minL net) {ops : List (Network.Op D G E W)} (hla : Network.Launched net hist as ops) {s : Network.Sys D G E W R}
    (h : Network.exec net ops = some (.ok s)) {d : D} {t p : Nat} (hf : Network.FromGround net s d t p) :
    ∃ g z, z ∈ (s.up.stations g).aired ∧ z.2.pkt = p ∧ Uplink.target hist as z.2.dst = some d ∧ z.1 ≤ t ∧ Contact debug orb q minL z.1 g d := by
  obtain ⟨k, i, ta, f, h1, h2, h3, h4⟩ := hf
  obtain ⟨g, z, fr, z1, z2, z3, z4, z5, -, z6⟩ := Network.up_source hs hh (Q := fun f t => f.start + (if full then f.dur else 0) ≤ t) hh.heard hla h h1 h2 h3 h4
  exact ⟨g, z, z1, z4, z2, by omega, (contact_open hs hl _ _ _).mp z3⟩

/-- **Nothing is received without contact, downwards.** -/
theorem C108_down {net : Net D G E V W P R} {w : World D G E W} {peer : E → E} (hs : Setup net w peer hist as) {minL : ℝ}
    (hl : ElevationLink debug orb q minL net) {ops : List (Network.Op D G E W)} {s : Network.Sys D G E W R}
    (h : Network.exec net ops = some (.ok s)) {g : G} {t : Nat} {u : GroundStaRx.Up} (hd : (t, u) ∈ (s.down.stations g).delivered) :
    ∃ d z, z ∈ (s.down.sats d).aired ∧ z.2.pkt = u.pkt ∧ z.1 ≤ t ∧ Contact debug orb q minL z.1 g d := by
  obtain ⟨d, z, z1, -, z3, z4, -, z6⟩ := Network.down_source hs h hd
  exact ⟨d, z, z1, z4, by omega, (contact_open hs hl _ _ _).mp z3⟩

/-- The channel of examples/sputping.cc:66-91 and its satellites and stations: some or both satellites of the constellation, launched by its helper; stations at the two places; the helper's
success model `GroundSatSuccessElevation` with its default of 25 degrees (model/ground-sat-success-elevation.cc:45). -/
structure Sput (debug : Bool) (cid : Nat) (ds : List D) (orb : D → Elements) (q : G → Vec) (net : Net D G E V W P R) : Prop where
  launched : ∃ out h, (create cid 250000 60 2 1 0).launchAll debug net.endian ds = .ok (out, h) ∧ net.chan.constellation = some h.constellation ∧
    ∀ (k : Nat) d a o, ds[k]? = some d → out[k]? = some (a, o) → orb d = o.launched
  all : ∀ d, d ∈ ds
  stations : ∀ g, q g = school ∨ q g = elsewhere
  link : ElevationLink debug orb q (setMinimumElevation 25) net

omit [Fintype G] [Fintype D] [Fintype E] [DecidableEq G] [DecidableEq D] [DecidableEq E] in
theorem Sput.contact {net : Net D G E V W P R} {cid : Nat} {ds : List D} (hp : Sput debug cid ds orb q net) {t : Nat} {g : G} {d : D}
    (hc : Contact debug orb q (setMinimumElevation 25) t g d) :
    (q g = school → 0.59 ≤ sin (Orbit.meanMotion 6621009 * (t / 10 ^ 9))) ∧ (q g = elsewhere → sin (Orbit.meanMotion 6621009 * (t / 10 ^ 9)) ≤ -0.38) := by
  obtain ⟨out, h, hl, -, horb⟩ := hp.launched
  obtain ⟨k, hk⟩ := List.mem_iff_getElem?.mp (hp.all d)
  have hkl := (List.getElem?_eq_some_iff.mp hk).1
  obtain ⟨a, ha⟩ := C10_orbital_elements debug net.endian cid 2 1 0 250000 60 ds out h hl k 0 (by norm_num) (by omega)
  rw [mul_one, add_zero] at ha
  obtain ⟨x, hx, hm⟩ := hc
  rw [horb k d a _ hk ha] at hx
  exact ⟨fun e => Orbit.C108_north debug k (e ▸ hx) hm, fun e => Orbit.C108_south debug k (e ▸ hx) hm⟩

omit [Fintype G] [Fintype D] [Fintype E] [DecidableEq G] [DecidableEq D] [DecidableEq E] in
/-- **The stations' contacts are apart.**  Within less than 800 seconds only one of the stations has contact to satellites, whichever they are. -/
theorem C108_apart {net : Net D G E V W P R} {cid : Nat} {ds : List D} (hp : Sput debug cid ds orb q net) {t1 t2 : Nat} (h1 : t1 < t2 + 800 * 10 ^ 9) (h2 : t2 < t1 + 800 * 10 ^ 9) :
    (∀ g d, q g = school → ¬ Contact debug orb q (setMinimumElevation 25) t1 g d) ∨ (∀ g d, q g = elsewhere → ¬ Contact debug orb q (setMinimumElevation 25) t2 g d) := by
  by_contra hcon
  push Not at hcon
  obtain ⟨⟨g1, d1, e1, c1⟩, g2, d2, e2, c2⟩ := hcon
  have n1 := (hp.contact c1).1 e1
  have n2 := (hp.contact c2).2 e2
  have n3 := abs_le.mp (abs_sin_sub_sin_le (Orbit.meanMotion 6621009 * (t1 / 10 ^ 9)) (Orbit.meanMotion 6621009 * (t2 / 10 ^ 9)))
  obtain ⟨m1, m2⟩ := Orbit.motion250
  have h1' : (t1 : ℝ) < t2 + 800 * 10 ^ 9 := by exact_mod_cast h1
  have h2' : (t2 : ℝ) < t1 + 800 * 10 ^ 9 := by exact_mod_cast h2
  have hd : |(t1 : ℝ) / 10 ^ 9 - t2 / 10 ^ 9| ≤ 800 := by
    rw [abs_le]
    constructor <;> linarith
  have := mul_le_mul m2 hd (abs_nonneg _) (by norm_num)
  rw [← mul_sub, abs_mul, abs_of_nonneg (by linarith : 0 ≤ Orbit.meanMotion 6621009)] at n3
  linarith

/-- **When the stations hear and are heard.**  Whatever is received was put on the air while the satellites were well in the north, if the station is the school, or well in the south, if it is
the other. -/
theorem C108_sputping {full : Bool} {net : Net D G E V W P R} {w : World D G E W} {peer : E → E} (hs : Setup net w peer hist as) (hh : Network.Honest full net.rx)
    {cid : Nat} {ds : List D} (hp : Sput debug cid ds orb q net) {ops : List (Network.Op D G E W)} (hla : Network.Launched net hist as ops)
    {s : Network.Sys D G E W R} (h : Network.exec net ops = some (.ok s)) :
    (∀ d t p, Network.FromGround net s d t p → ∃ g z, z ∈ (s.up.stations g).aired ∧ z.2.pkt = p ∧ z.1 ≤ t ∧
      (q g = school → 0.59 ≤ sin (Orbit.meanMotion 6621009 * (z.1 / 10 ^ 9))) ∧ (q g = elsewhere → sin (Orbit.meanMotion 6621009 * (z.1 / 10 ^ 9)) ≤ -0.38)) ∧
    ∀ g t u, (t, u) ∈ (s.down.stations g).delivered → ∃ d z, z ∈ (s.down.sats d).aired ∧ z.2.pkt = u.pkt ∧ z.1 ≤ t ∧
      (q g = school → 0.59 ≤ sin (Orbit.meanMotion 6621009 * (z.1 / 10 ^ 9))) ∧ (q g = elsewhere → sin (Orbit.meanMotion 6621009 * (z.1 / 10 ^ 9)) ≤ -0.38) := by
  constructor
  · intro d t p hf
    obtain ⟨g, z, z1, z2, -, z4, z5⟩ := C108_up hs hh hp.link hla h hf
    exact ⟨g, z, z1, z2, z4, hp.contact z5⟩
  · intro g t u hd
    obtain ⟨d, z, z1, z2, z3, z4⟩ := C108_down hs hp.link h hd
    exact ⟨d, z, z1, z2, z3, hp.contact z4⟩

theorem early_sin {z : Nat} : (z ≤ 500 * 10 ^ 9 → sin (Orbit.meanMotion 6621009 * (z / 10 ^ 9)) < 0.59) ∧
    (z ≤ 3000 * 10 ^ 9 → -0.38 < sin (Orbit.meanMotion 6621009 * (z / 10 ^ 9))) := by
  obtain ⟨m1, m2⟩ := Orbit.motion250
  have z0 : (0 : ℝ) ≤ z / 10 ^ 9 := by positivity
  have y0 : 0 ≤ Orbit.meanMotion 6621009 * (z / 10 ^ 9) := mul_nonneg (by linarith) z0
  constructor
  · intro hz
    have hz' : (z : ℝ) ≤ 500 * 10 ^ 9 := by exact_mod_cast hz
    have := mul_le_mul m2 (by linarith : (z : ℝ) / 10 ^ 9 ≤ 500) z0 (by norm_num)
    have := sin_le y0
    linarith
  · intro hz
    have hz' : (z : ℝ) ≤ 3000 * 10 ^ 9 := by exact_mod_cast hz
    have hy := mul_le_mul m2 (by linarith : (z : ℝ) / 10 ^ 9 ≤ 3000) z0 (by norm_num)
    have p1 := pi_gt_d6
    rcases le_or_gt (Orbit.meanMotion 6621009 * (z / 10 ^ 9)) π with h | h
    · have := sin_nonneg_of_nonneg_of_le_pi y0 h
      linarith
    · have h1 := sin_le (x := Orbit.meanMotion 6621009 * (z / 10 ^ 9) - π) (by linarith)
      rw [sin_sub_pi] at h1
      linarith

/-- **The beginning.**  In the first 500 seconds nothing is received at all, in the first 3000 seconds only from and at the school. -/
theorem C108_first {full : Bool} {net : Net D G E V W P R} {w : World D G E W} {peer : E → E} (hs : Setup net w peer hist as) (hh : Network.Honest full net.rx)
    {cid : Nat} {ds : List D} (hp : Sput debug cid ds orb q net) {ops : List (Network.Op D G E W)} (hla : Network.Launched net hist as ops)
    {s : Network.Sys D G E W R} (h : Network.exec net ops = some (.ok s)) {t : Nat} :
    (t ≤ 500 * 10 ^ 9 → (∀ d p, ¬ Network.FromGround net s d t p) ∧ ∀ g u, (t, u) ∉ (s.down.stations g).delivered) ∧
    (t ≤ 3000 * 10 ^ 9 → (∀ d p, Network.FromGround net s d t p → ∃ g z, q g = school ∧ z ∈ (s.up.stations g).aired ∧ z.2.pkt = p ∧ z.1 ≤ t) ∧
      ∀ g u, (t, u) ∈ (s.down.stations g).delivered → q g = school) := by
  obtain ⟨h1, h2⟩ := C108_sputping hs hh hp hla h
  have later : ∀ z : Nat, z ≤ t → t ≤ 3000 * 10 ^ 9 → ∀ g, (q g = elsewhere → sin (Orbit.meanMotion 6621009 * (z / 10 ^ 9)) ≤ -0.38) → q g = school := by
    intro z hz ht g hg
    rcases hp.stations g with e | e
    · exact e
    · exact absurd (hg e) (not_le.mpr (early_sin.2 (hz.trans ht)))
  have first : ∀ z : Nat, z ≤ t → t ≤ 500 * 10 ^ 9 → ∀ g, (q g = school → 0.59 ≤ sin (Orbit.meanMotion 6621009 * (z / 10 ^ 9))) →
      (q g = elsewhere → sin (Orbit.meanMotion 6621009 * (z / 10 ^ 9)) ≤ -0.38) → False := by
    intro z hz ht g hg hg'
    exact absurd (hg (later z hz (ht.trans (by norm_num)) g hg')) (not_le.mpr (early_sin.1 (hz.trans ht)))
  refine ⟨fun ht => ⟨fun d p hf => ?_, fun g u hu => ?_⟩, fun ht => ⟨fun d p hf => ?_, fun g u hu => ?_⟩⟩
  · obtain ⟨g, z, -, -, z3, z4, z5⟩ := h1 d t p hf
    exact first _ z3 ht g z4 z5
  · obtain ⟨-, z, -, -, z3, z4, z5⟩ := h2 g t u hu
    exact first _ z3 ht g z4 z5
  · obtain ⟨g, z, z1, z2, z3, -, z5⟩ := h1 d t p hf
    exact ⟨g, z, later _ z3 ht g z5, z1, z2, z3⟩
  · obtain ⟨-, z, -, -, z3, -, z5⟩ := h2 g t u hu
    exact later _ z3 ht g z5

end

/-! ## Example: both satellites and both stations -/

section

/-- What the helper has launched. -/
def sputSky : Constellation (Fin 2) := { constellationId := 1, nPlanes := 2, planeSize := 1, planes := [[some 0], [some 1]], size := 2 }

noncomputable def sputOrbit (d : Fin 2) : Elements := (specElements 2 1 0 250000 60 d.val 0).launched

noncomputable def sputPlace (g : Fin 2) : Vec := if g = 0 then school else elsewhere

/-- The node of a satellite. -/
noncomputable def sputNode (t : Nat) (d : Fin 2) : SuccessModel.Node :=
  match doGetPosition true (some (sputOrbit d)) (t / 10 ^ 9) with
  | .ok s => some (.orbit s)
  | _ => none

noncomputable def sputNet : Net (Fin 2) (Fin 2) (Fin 0) Nat Int Int (NoneMac.Sys Int) where
  debug := true
  endian := .big
  ty := 7
  chan := ⟨some sputSky, [0, 1]⟩
  air := fun t => ⟨fun g => some g.val, fun d => some d.val, some (fun _ ps => 3 + 2 * ps), some (fun p _ _ => p - 10),
    some (fun g d => elevationSuccess (setMinimumElevation 25) (some (.other (sputPlace g))) (sputNode t d))⟩
  addr := fun g => ⟨1, [UInt8.ofNat g.val]⟩
  mac := fun _ => noneMac
  accept := fun _ _ _ => true
  remote := fun g => SatAddress.mk3 .big 1 (UInt16.ofNat g.val) 0
  power := fun _ => 30
  rx := Uplink.noneReceiver Int
  toP := fun p => p.natAbs + 1
  satAddr := fun d => SatAddress.mk3 .big 1 (UInt16.ofNat d.val) 0
  satAccept := fun _ _ _ => true
  satPower := fun _ => 30
  isl := ⟨true, fun e => e.elim0, fun _ => Queue.dropTail .packets 2 (fun _ => 100), fun _ => some (fun _ _ => 5), fun _ => none⟩
  own := fun e => e.elim0

open Classical in
noncomputable def sputWorld : World (Fin 2) (Fin 2) (Fin 0) Int :=
  ⟨⟨fun _ _ d => 3 + 2 * d.val, fun _ _ _ p => p - 10, fun t g d => decide (Contact true sputOrbit sputPlace (setMinimumElevation 25) t g d)⟩, ⟨fun _ _ _ => 5, fun _ _ _ => true⟩⟩

abbrev sputHist : List (Nat × Nat × Fin 2) := [(0, 0, 0), (1, 0, 1)]
abbrev sputAddrs : List SatAddress := [SatAddress.mk3 .big 1 0 0, SatAddress.mk3 .big 1 1 0]

theorem sputBuilt : Built .big (fun _ => true) 1 2 1 sputHist sputAddrs sputSky := by unfold Built; decide

theorem sput_sky : ∃ out h, (create 1 250000 60 2 1 0).launchAll true .big [(0 : Fin 2), 1] = .ok (out, h) ∧ h.constellation = sputSky := by
  obtain ⟨out, h, hl, -⟩ := C08_launch_order true .big 1 2 1 0 250000 60 [(0 : Fin 2), 1] (by unfold Fits16; decide) (by decide)
  refine ⟨out, h, hl, ?_⟩
  have h1 := Orbit.launchAll_adds [(0 : Fin 2), 1] (create 1 250000 60 2 1 0) [] out h (ConstellationHelper.hinv_create _ _ _ _ _ _) (by simp) hl
  have h2 : (create 1 250000 60 2 1 0).constellation.addAll .big (fun _ => true) sputHist = .ok (sputAddrs, sputSky) := sputBuilt
  have e : ConstellationHelper.histFrom 1 ([] : List (Fin 2)).length [(0 : Fin 2), 1] = sputHist := by decide
  rw [e, h2, Outcome.ok.injEq, Prod.mk.injEq] at h1
  exact h1.2.symm

theorem sputAt (t : Nat) (d : Fin 2) : ∃ s, doGetPosition true (some (sputOrbit d)) ((t : ℝ) / 10 ^ 9) = .ok s := by
  obtain ⟨p, h, -⟩ := Orbit.reported_height true (sputOrbit d) (by rw [sputOrbit, Orbit.ping_launched]; norm_num) (t / 10 ^ 9)
  exact ⟨p, h⟩

theorem sputLink : ElevationLink true sputOrbit sputPlace (setMinimumElevation 25) sputNet := by
  intro t g d
  obtain ⟨s, h1⟩ := sputAt t d
  refine ⟨s, _, h1, rfl, ?_⟩
  simp only [sputNode, h1]

theorem sputSetup : Setup sputNet sputWorld (fun e => e) sputHist sputAddrs where
  built := ⟨_, _, _, _, _, sputBuilt, by unfold Fits16; decide, rfl⟩
  sky := fun t g d => ⟨g.val, d.val, fun _ ps => 3 + 2 * ps, fun p _ _ => p - 10, ⟨rfl, rfl, rfl, rfl⟩, rfl, fun _ => rfl, Or.inr ⟨_, rfl, by
    obtain ⟨s, h1⟩ := sputAt t d
    simp only [sputNode, h1, elevationSuccess, getOrbit, getMobility, Option.map_some, Mobility.position, sputWorld]
    by_cases hu : satElevation s (sputPlace g) = .ub .notANumber
    · rw [hu]
      simp only [Outcome.ok.injEq]
      refine (@decide_eq_false _ (_) ?_).symm
      rintro ⟨x, ⟨s', k1, k2⟩, -⟩
      rw [h1, Outcome.ok.injEq] at k1
      rw [← k1, hu] at k2
      simp at k2
    · have hne := hu
      rw [Orbit.C48_undefined] at hne
      push Not at hne
      obtain ⟨x, hx, -⟩ := Orbit.C48_sin s (sputPlace g) hne.1 hne.2
      rw [hx]
      simp only [Outcome.ok.injEq]
      congr 1
      exact propext ⟨fun h => ⟨x, ⟨s, h1, hx⟩, h⟩, fun ⟨x', ⟨s', k1, k2⟩, k3⟩ => by
        rw [h1, Outcome.ok.injEq] at k1
        rw [← k1, hx, Outcome.ok.injEq] at k2
        rwa [k2]⟩⟩⟩
  islSky := fun _ => ⟨rfl, Or.inl ⟨rfl, fun _ _ => rfl⟩⟩
  wired := fun e => e.elim0

theorem sputRunnable : Network.Runnable sputNet sputWorld (fun e => e) sputHist sputAddrs (fun r => r.clock) 1 :=
  ⟨sputSetup, Uplink.safe_map rfl, Uplink.none_orderly, Uplink.none_oneEach, fun _ => ⟨Nat.le_refl _, by simp [sputNet, noneMac]⟩⟩

theorem sputSput : Sput true 1 [0, 1] sputOrbit sputPlace sputNet where
  launched := by
    obtain ⟨out, h, h1, h2⟩ := sput_sky
    refine ⟨out, h, h1, by rw [h2]; rfl, fun k d a o hk ho => ?_⟩
    have hlt := (List.getElem?_eq_some_iff.mp hk).1
    obtain ⟨a', ha⟩ := C10_orbital_elements true .big 1 2 1 0 250000 60 _ out h h1 k 0 (by norm_num) (by omega)
    rw [mul_one, add_zero, ho, Option.some.injEq, Prod.mk.injEq] at ha
    have hd : d.val = k := by
      match k, hlt with
      | 0, _ => simp at hk; rw [← hk]; rfl
      | 1, _ => simp at hk; rw [← hk]; rfl
    rw [sputOrbit, hd, ha.2]
  all := fun d => by fin_cases d <;> simp
  stations := fun g => by
    unfold sputPlace
    split_ifs
    · exact .inl rfl
    · exact .inr rfl
  link := sputLink

/-- **Packets are lost in the example.**  There is a simulation of the program's network in which both stations accept a packet 100 seconds after the start and send it at once to their
satellites, nothing is left to do, and no satellite ever passes up a packet. -/
theorem C108_witness : ∃ (ops : List (Network.Op (Fin 2) (Fin 2) (Fin 0) Int)) (s : Network.Sys (Fin 2) (Fin 2) (Fin 0) Int (NoneMac.Sys Int)),
    Setup sputNet sputWorld (fun e => e) sputHist sputAddrs ∧ Sput true 1 [0, 1] sputOrbit sputPlace sputNet ∧ Network.Launched sputNet sputHist sputAddrs ops ∧
    Network.exec sputNet ops = some (.ok s) ∧ ops.filter (fun o => !o.internal) = [.send 0 100000000000 11 10 7, .send 1 100000000000 12 10 7] ∧ Network.Quiet sputNet s ∧
    (∀ g, (s.up.stations g).aired.map (fun z => (z.1, z.2.pkt)) = [(100000000000, 11 + g.val)]) ∧ ∀ d t p, ¬ Network.FromGround sputNet s d t p := by
  obtain ⟨ops, s, h1, h2, h3, h4, h5, -, -⟩ := Network.C97_traffic sputRunnable (calls := [.send 0 100000000000 11 10 7, .send 1 100000000000 12 10 7])
    ⟨by show ∀ g : Fin 2, (Uplink.target sputHist sputAddrs (SatAddress.mk3 .big 1 (UInt16.ofNat g.val) 0)).isSome
        decide, by simp⟩ (by simp [Network.Op.internal]) (by simp [Network.Op.when])
  obtain ⟨r1, -, -⟩ := Network.C73_parts h1
  have ha : ∀ g : Fin 2, (s.up.stations g).aired = [(100000000000, ⟨11 + g.val, 10, SatAddress.mk3 .big 1 (UInt16.ofNat g.val) 0, 7, 30⟩)] := by
    intro g
    obtain ⟨s', e1, -, e3, -⟩ := C34_refines (mac := sputNet.mac g) noneMac_once (Uplink.C55_station r1 g)
    simp only [Outcome.ok.injEq] at e1
    subst e1
    rw [e3 (h4.1.1 g), h5 g (fun _ _ => rfl)]
    fin_cases g <;> rfl
  refine ⟨ops, s, sputSetup, sputSput, h3, h1, h2, h4, fun g => by rw [ha]; rfl, fun d t p hf => ?_⟩
  obtain ⟨g, z, z1, -, -, z4, z5⟩ := (C108_sputping sputSetup Network.C73_none_honest sputSput h3 h1).1 d t p hf
  rw [ha, List.mem_singleton] at z1
  subst z1
  rcases sputSput.stations g with e | e
  · exact absurd (z4 e) (not_le.mpr (early_sin.1 (by norm_num)))
  · exact absurd (z5 e) (not_le.mpr (early_sin.2 (by norm_num)))

end
end TrackedNet
end Icarus
