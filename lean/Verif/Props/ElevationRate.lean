import Verif.Props.TrackedElev

/-!
# How fast elevations change, and links that stay open long enough (C102)

Exact real arithmetic.
-/

set_option autoImplicit false

namespace Icarus
namespace Orbit
open Real

/-- Two points at distance at least `h` that are close to each other are seen in similar directions. -/
theorem angle_le_distance {a b : Vec} {h : ℝ} (hh : 0 < h) (ha : h ≤ length a) (hb : h ≤ length b) : angle a b ≤ π / 2 * (length (sub a b) / h) := by
  have hla : 0 < length a := by linarith
  have hlb : 0 < length b := by linarith
  have h0 : 0 ≤ angle a b := arccos_nonneg _
  have h1 : angle a b ≤ π := arccos_le_pi _
  have hcos : dot a b = length a * length b * cos (angle a b) := by
    have hq := abs_real_inner_div_norm_mul_norm_le_one (toE a) (toE b)
    rw [inner_toE, norm_toE, norm_toE] at hq
    obtain ⟨q1, q2⟩ := abs_le.mp hq
    unfold angle
    rw [cos_arccos q1 q2]
    field_simp
  have hsq : length (sub a b) ^ 2 = (length a - length b) ^ 2 + 4 * (length a * length b) * sin (angle a b / 2) ^ 2 := by
    have e1 : length (sub a b) ^ 2 = length a ^ 2 + length b ^ 2 - 2 * dot a b := by
      rw [length_sq, length_sq, length_sq]
      simp only [sub, dot]
      ring
    have e2 := cos_sq (angle a b / 2)
    rw [mul_div_cancel₀ _ (two_ne_zero)] at e2
    have e3 := sin_sq_add_cos_sq (angle a b / 2)
    rw [e1, hcos]
    have : sin (angle a b / 2) ^ 2 = 1 / 2 - cos (angle a b) / 2 := by linarith
    rw [this]
    ring
  have hsin : h * (2 * sin (angle a b / 2)) ≤ length (sub a b) := by
    apply abs_le_of_sq_le_sq' _ (length_nonneg _) |>.2
    have hm : h * h ≤ length a * length b := mul_le_mul ha hb hh.le hla.le
    have := mul_le_mul_of_nonneg_right hm (sq_nonneg (sin (angle a b / 2)))
    rw [hsq]
    nlinarith [sq_nonneg (length a - length b)]
  have hj := mul_le_sin (x := angle a b / 2) (by linarith) (by linarith)
  have hpi := pi_pos
  have h2 : angle a b * (2 / π) * h ≤ length (sub a b) := by
    have : 2 / π * (angle a b / 2) * (2 * h) ≤ sin (angle a b / 2) * (2 * h) := by gcongr
    calc angle a b * (2 / π) * h = 2 / π * (angle a b / 2) * (2 * h) := by ring
      _ ≤ sin (angle a b / 2) * (2 * h) := this
      _ = h * (2 * sin (angle a b / 2)) := by ring
      _ ≤ _ := hsin
  have h3 : angle a b * (2 / π) ≤ length (sub a b) / h := by rw [le_div_iff₀ hh]; exact h2
  calc angle a b = π / 2 * (angle a b * (2 / π)) := by field_simp
    _ ≤ _ := by gcongr

/-- The elevation is the complement of the angle to the vertical. -/
theorem elevation_angle {s g : Vec} {x : ℝ} (hg : g ≠ (0, 0, 0)) (hs : s ≠ g) (h : satElevation s g = .ok x) : x = π / 2 - angle g (sub s g) := by
  obtain ⟨y, h1, h2, h3, h4⟩ := C48_sin s g hg hs
  rw [h] at h1
  simp only [Outcome.ok.injEq] at h1
  subst h1
  have hl := length_pos hg
  have hl' : 0 < length (sub s g) := length_pos (fun e => hs (sub_eq_zero'.mp e))
  have : dot g (sub s g) / (length g * length (sub s g)) = sin x := by rw [← h4]; field_simp
  unfold angle
  rw [this, arccos_eq_pi_div_two_sub_arcsin, arcsin_sin h2 h3]
  ring

/-- **Elevations change slowly.**  Between two instants the elevation of a satellite changes by at most pi/2 times the distance it can cover in the time between, as a part of its height above the ground node. -/
theorem C102_rate (debug : Bool) (o : Elements) (g : Vec) (hg : 0 < length g) (hρ : length g < o.radius - 9) (t u : Nat) (x y : ℝ)
    (hx : Sees debug o g (t / 10 ^ 9) x) (hy : Sees debug o g (u / 10 ^ 9) y) :
    |x - y| ≤ π / 2 * ((Place.sat o).speed * |(t : ℝ) - u| / 10 ^ 9 / (o.radius - 9 - length g)) := by
  obtain ⟨s, hs, hx⟩ := hx
  obtain ⟨r, hr, hy⟩ := hy
  have hr9 : 9 < o.radius := by linarith
  obtain ⟨s', e1, ls, -⟩ := sees_position debug o hr9 (t / 10 ^ 9)
  obtain ⟨r', e2, lr, -⟩ := sees_position debug o hr9 (u / 10 ^ 9)
  rw [hs, Outcome.ok.injEq] at e1
  rw [hr, Outcome.ok.injEq] at e2
  subst e1 e2
  have hg0 : g ≠ (0, 0, 0) := fun h => by rw [length_eq_zero.mpr h] at hg; exact lt_irrefl _ hg
  have away : ∀ p : Vec, length p = o.radius - 9 → o.radius - 9 - length g ≤ length (sub p g) ∧ p ≠ g := by
    intro p hp
    refine ⟨?_, fun h => by rw [h] at hp; linarith⟩
    have := norm_sub_norm_le (toE p) (toE g)
    rw [norm_toE, norm_toE, hp] at this
    have e : toE p - toE g = toE (sub p g) := by
      unfold toE sub
      ext i
      fin_cases i <;> simp
    rw [e, norm_toE] at this
    exact this
  obtain ⟨s1, s2⟩ := away s ls
  obtain ⟨r1, r2⟩ := away r lr
  have hh : 0 < o.radius - 9 - length g := by linarith
  have k := angle_le_distance hh s1 r1
  rw [elevation_angle hg0 s2 hx, elevation_angle hg0 r2 hy]
  have t1 := angle_triangle g (sub s g) (sub r g)
  have t2 := angle_triangle g (sub r g) (sub s g)
  rw [angle_comm (sub r g) (sub s g)] at t2
  obtain ⟨a, b, p1, p2, hd⟩ := C89_speed debug (.sat o) hr9.le t u
  simp only [Place.position] at p1 p2
  rw [hs, Outcome.ok.injEq] at p1
  rw [hr, Outcome.ok.injEq] at p2
  subst p1 p2
  have hsub : length (sub (sub s g) (sub r g)) = distance s r := by
    unfold distance length sub
    congr 1
    ring
  rw [hsub] at k
  have hpi := pi_pos
  have : π / 2 * (distance s r / (o.radius - 9 - length g)) ≤ π / 2 * ((Place.sat o).speed * |(t : ℝ) - u| / 10 ^ 9 / (o.radius - 9 - length g)) := by gcongr
  rw [abs_le]
  constructor <;> linarith

/-- **One degree is enough.**  If the satellite is at least 200 km higher than the ground node, then in 190 milliseconds the elevation changes by less than one degree. -/
theorem C102_degree (debug : Bool) (o : Elements) (g : Vec) (hg : 6371000 ≤ length g) (hρ : length g + 200000 ≤ o.radius - 9) (hmax : o.radius ≤ 50000000)
    (t u : Nat) (hu : |(t : ℝ) - u| ≤ 190000000) (x y : ℝ) (hx : Sees debug o g (t / 10 ^ 9) x) (hy : Sees debug o g (u / 10 ^ 9) y) : |x - y| < toRadians 1 := by
  have h := C102_rate debug o g (by linarith) (by linarith) t u x y hx hy
  have hs := C89_speed_bound o (by linarith) hmax
  have hpi := pi_pos
  have h1 : (Place.sat o).speed * |(t : ℝ) - u| / 10 ^ 9 / (o.radius - 9 - length g) ≤ 11600 * 190000000 / 10 ^ 9 / 200000 := by
    have : (0 : ℝ) ≤ |(t : ℝ) - u| := abs_nonneg _
    gcongr
    linarith
  have h2 : π / 2 * ((Place.sat o).speed * |(t : ℝ) - u| / 10 ^ 9 / (o.radius - 9 - length g)) ≤ π / 2 * (11600 * 190000000 / 10 ^ 9 / 200000) := by gcongr
  have h3 : π / 2 * (11600 * 190000000 / 10 ^ 9 / 200000) < toRadians 1 := by
    unfold toRadians
    rw [one_mul]
    have : π * ((11600 * 190000000 / 10 ^ 9 / 200000) / 2) < π * (1 / 180) := mul_lt_mul_of_pos_left (by norm_num) hpi
    linarith
  linarith

/-- A satellite 550 km above the equator, seen from below its initial place, now and 100 milliseconds later. -/
example : ∃ x y, Sees true ⟨0, 0, 6371009 + 550000, 0⟩ (6371000, 0, 0) ((0 : Nat) / 10 ^ 9) x ∧ Sees true ⟨0, 0, 6371009 + 550000, 0⟩ (6371000, 0, 0) ((100000000 : Nat) / 10 ^ 9) y ∧
    |x - y| < toRadians 1 := by
  have hl : length (6371000, 0, 0) = 6371000 := by unfold length; simp
  have h1 := sees_elevationAt true (⟨0, 0, 6371009 + 550000, 0⟩ : Elements) (6371000, 0, 0) (by rw [hl]; norm_num) (by rw [hl]; norm_num) ((0 : Nat) / 10 ^ 9)
  have h2 := sees_elevationAt true (⟨0, 0, 6371009 + 550000, 0⟩ : Elements) (6371000, 0, 0) (by rw [hl]; norm_num) (by rw [hl]; norm_num) ((100000000 : Nat) / 10 ^ 9)
  exact ⟨_, _, h1, h2, C102_degree true _ _ (by rw [hl]) (by rw [hl]; norm_num) (by norm_num) 0 100000000 (by norm_num) _ _ h1 h2⟩

end Orbit

namespace TrackedNet
open Real SuccessModel
open Network (Net World Setup)
open Tracker (View Full)
open Orbit (Vec Elements Sees Place doGetPosition)

variable {D G E V W P R : Type} [Fintype G] [Fintype D] [Fintype E] [DecidableEq G] [DecidableEq D] [DecidableEq E]
variable {debug : Bool} {hist : List (Nat × Nat × D)} {as : List SatAddress} {orb : D → Elements} {q : G → Vec} {minE : G → ℝ} {δ : G → Nat} {v : G → Nat → View D ℝ}
variable {hasOrbit : D → Bool} {cid n m : Nat} {k : Constellation D}

/-- The channel's success model is `GroundSatSuccessElevation` with the minimum elevation `minL`, in radians; station `g` is at `q g`, satellite `d` on the orbit `orb d`. -/
def ElevationLink (debug : Bool) (orb : D → Elements) (q : G → Vec) (minL : ℝ) (net : Net D G E V W P R) : Prop :=
  ∀ t g d, ∃ s f, doGetPosition debug (some (orb d)) ((t : Nat) / 10 ^ 9) = .ok s ∧ (net.air t).success = some f ∧
    f g d = elevationSuccess minL (some (.other (q g))) (some (.orbit s))

omit [Fintype G] [Fintype D] [Fintype E] [DecidableEq G] [DecidableEq D] in
/-- The link is open exactly while the satellite is at the minimum elevation or above. -/
theorem link_open {net : Net D G E V W P R} {w : World D G E W} {peer : E → E} (hs : Setup net w peer hist as) {minL : ℝ}
    (hl : ElevationLink debug orb q minL net) {t : Nat} {g : G} {d : D} {x : ℝ} (hx : Sees debug (orb d) (q g) (t / 10 ^ 9) x) :
    w.ground.admit t g d = true ↔ minL ≤ x := by
  obtain ⟨s, f, h1, h2, h3⟩ := hl t g d
  obtain ⟨r, x1, x2⟩ := hx
  rw [h1, Outcome.ok.injEq] at x1
  subst x1
  obtain ⟨_, _, _, _, -, -, -, hor⟩ := hs.sky t g d
  rcases hor with ⟨e, -⟩ | ⟨f', e1, e2⟩
  · have : (net.air t).success = none := e
    rw [h2] at this
    simp at this
  · have e1 : (net.air t).success = some f' := e1
    rw [h2, Option.some.injEq] at e1
    subst e1
    rw [h3] at e2
    simp only [elevationSuccess, getOrbit, getMobility, Option.map_some, Mobility.position, x2, Outcome.ok.injEq] at e2
    rw [← e2, decide_eq_true_eq]

omit [Fintype G] [Fintype D] [Fintype E] [DecidableEq G] [DecidableEq D] in
/-- **The elevation model leaves links open.**  With a minimum elevation of the channel sufficiently below that of the tracker the link remains open as long as wanted after a satellite was above the latter. -/
theorem C102_open {net : Net D G E V W P R} {w : World D G E W} {peer : E → E} (hs : Setup net w peer hist as) {minL : ℝ}
    (hl : ElevationLink debug orb q minL net) (hg : ∀ g, 0 < Orbit.length (q g)) (hρ : ∀ g d, Orbit.length (q g) < (orb d).radius - 9) {extra : G → Nat}
    (hroom : ∀ g d, minL + π / 2 * ((Place.sat (orb d)).speed * extra g / 10 ^ 9 / ((orb d).radius - 9 - Orbit.length (q g))) ≤ minE g) (g : G) :
    OpenAbove debug orb (q g) (minE g) (extra g) (fun u d => w.ground.admit u g d) := by
  intro d u t x hx hlt hut htu
  have hy := Orbit.sees_elevationAt debug (orb d) (q g) (hg g) (hρ g d) ((t : ℝ) / 10 ^ 9)
  rw [link_open hs hl hy]
  have h := Orbit.C102_rate debug (orb d) (q g) (hg g) (hρ g d) u t x _ hx hy
  have h9 : 0 ≤ (Place.sat (orb d)).speed := by
    obtain ⟨a, b, -, -, hd⟩ := Orbit.C89_speed debug (.sat (orb d)) (by have := hρ g d; have := hg g; show 9 ≤ (orb d).radius; linarith) 0 1000000000
    have h0 : 0 ≤ Orbit.distance a b := Real.sqrt_nonneg _
    have h1 : (Place.sat (orb d)).speed * |((0 : Nat) : ℝ) - ((1000000000 : Nat) : ℝ)| / 10 ^ 9 = (Place.sat (orb d)).speed := by
      rw [Nat.cast_zero, zero_sub, abs_neg, Nat.abs_cast]
      push_cast
      ring
    linarith
  have hpos : 0 < (orb d).radius - 9 - Orbit.length (q g) := by have := hρ g d; linarith
  have hpi := pi_pos
  have he : |(u : ℝ) - t| ≤ extra g := by
    have a1 : (u : ℝ) ≤ t := by exact_mod_cast hut
    have a2 : (t : ℝ) ≤ u + extra g := by exact_mod_cast htu
    rw [abs_le]
    constructor <;> linarith [(Nat.cast_nonneg (extra g) : (0 : ℝ) ≤ (extra g : ℝ))]
  have : π / 2 * ((Place.sat (orb d)).speed * |(u : ℝ) - t| / 10 ^ 9 / ((orb d).radius - 9 - Orbit.length (q g))) ≤
      π / 2 * ((Place.sat (orb d)).speed * extra g / 10 ^ 9 / ((orb d).radius - 9 - Orbit.length (q g))) := by gcongr
  have := (abs_le.mp h).2
  have := hroom g d
  linarith

/-- **Nothing is received from below the minimum elevation.**  A packet passed up by a satellite's ground-facing device was on the air before, from a station that addressed this satellite, at a time at which the
satellite was at the link's minimum elevation or above. -/
theorem C102_needs {full : Bool} {net : Net D G E V W P R} {w : World D G E W} {peer : E → E} (hs : Setup net w peer hist as) (hh : Network.Honest full net.rx) {minL : ℝ}
    (hl : ElevationLink debug orb q minL net) (hg : ∀ g, 0 < Orbit.length (q g)) (hρ : ∀ g d, Orbit.length (q g) < (orb d).radius - 9)
    {ops : List (Network.Op D G E W)} (hla : Network.Launched net hist as ops) {s : Network.Sys D G E W R} (h : Network.exec net ops = some (.ok s)) {d : D} {t p : Nat}
    (hf : Network.FromGround net s d t p) :
    ∃ g z x, z ∈ (s.up.stations g).aired ∧ z.2.pkt = p ∧ Uplink.target hist as z.2.dst = some d ∧ z.1 ≤ t ∧ Sees debug (orb d) (q g) (z.1 / 10 ^ 9) x ∧ minL ≤ x := by
  obtain ⟨k, i, ta, f, h1, h2, h3, h4⟩ := hf
  obtain ⟨g, z, fr, z1, z2, z3, z4, z5, -, z6⟩ := Network.up_source hs hh (Q := fun f t => f.start + (if full then f.dur else 0) ≤ t) hh.heard hla h h1 h2 h3 h4
  have hy := Orbit.sees_elevationAt debug (orb d) (q g) (hg g) (hρ g d) ((z.1 : ℝ) / 10 ^ 9)
  exact ⟨g, z, _, z1, z4, z2, by omega, hy, (link_open hs hl hy).mp z3⟩

/-- **Every packet arrives, with the link model of the code.**  The channel uses `GroundSatSuccessElevation`, whose minimum elevation is so far below the trackers' that no satellite sinks through the difference
while a packet waits in the station's device; then every packet not dropped by a station's queue is passed up by a satellite within the deadline. -/
theorem C102_service {net : Net D G E V W P (NoneMac.Sys P)} {w : World D G E W} {peer : E → E}
    (hrx : net.rx = Uplink.noneReceiver P) {clock : NoneMac.Sys P → Nat} {K : Nat} (hr : Network.Runnable net w peer hist as clock K)
    {B L C M : Nat} (hlim : Network.Limits net w peer B L C M)
    (hb : Built net.endian hasOrbit cid n m hist as k) (hfit : Fits16 cid n m) (hfull : Full n m hist) (hn : Named net hist as)
    (hw : Watching debug hist orb q minE δ v) (h0 : ∀ g, (Uplink.target hist as (net.remote g)).isSome) {minL : ℝ} (hl : ElevationLink debug orb q minL net) {extra : G → Nat}
    (hroom : ∀ g d, minL + π / 2 * ((Place.sat (orb d)).speed * extra g / 10 ^ 9 / ((orb d).radius - 9 - Orbit.length (q g))) ≤ minE g)
    (hextra : ∀ g, C + (B + L) + B + δ g < extra g)
    {calls : List (Network.Op D G E W)} (hno : ∀ g t a, .track g t a ∉ calls) (hsh : Network.Short calls L)
    (hext : ∀ o ∈ calls, o.internal = false) (hord : calls.Pairwise (fun a b => a.when ≤ b.when)) {until_ : Nat} (hu : ∀ o ∈ calls, o.when ≤ until_) :
    (∃ ops s, exec net (elevationFires debug net k v minE) (elevationStart net) ops = some (.ok s) ∧ ops.filter (fun o => !o.internal) = calls.map Op.net ∧
      Network.due net s.net until_ ∧ Waits s.trk until_) ∧
    ∀ ops r, exec net (elevationFires debug net k v minE) (elevationStart net) ops = some r → ops.filter (fun o => !o.internal) = calls.map Op.net →
      ∃ s, r = .ok s ∧ (Network.due net s.net until_ → Waits s.trk until_ → ∀ g v p l pr, .send g v p l pr ∈ calls → 0 < v → v + Network.deadline B L C M < until_ →
      (∀ y ∈ (s.net.up.stations g).refused, y.2.pkt ≠ p) →
      ∃ d ∈ hist.map (·.2.2), ∃ t, Network.FromGround net s.net d t p ∧ v ≤ t ∧ t ≤ v + Network.deadline B L C M) :=
  C101_service hrx hr hlim hb hfit hfull hn hw h0
    (C102_open hr.setup hl (fun g => (hw.low g).ground) (fun g d => (hw.low g).above d) hroom) hextra hno hsh hext hord hu

/-! ## Example: the ring of C101 with the elevation model at the channel -/

section
open Orbit (ringOrbit ringSats ring)

/-- The node of satellite `d`. -/
noncomputable def ringNode (t : Nat) (d : Fin 4) : SuccessModel.Node :=
  match doGetPosition true (some (ringOrbit d)) (t / 10 ^ 9) with
  | .ok s => some (.orbit s)
  | _ => none

/-- Links need an elevation of -0.01 radians. -/
noncomputable def lowNet : Net (Fin 4) (Fin 1) (Fin 0) Nat Int Int (NoneMac.Sys Int) :=
  { ringNet with air := fun t => ⟨fun g => some g.val, fun d => some d.val, some (fun _ ps => 3 + 2 * ps), some (fun p _ _ => p - 10),
      some (fun g d => elevationSuccess (-1 / 100) (some (.other (ringQ g))) (ringNode t d))⟩ }

open Classical in
noncomputable def lowWorld : World (Fin 4) (Fin 1) (Fin 0) Int :=
  ⟨⟨fun _ _ d => 3 + 2 * d.val, fun _ _ _ p => p - 10, fun t g d => decide (-1 / 100 ≤ Orbit.elevationAt (ringOrbit d) (ringQ g) (t / 10 ^ 9))⟩, ⟨fun _ _ _ => 5, fun _ _ _ => true⟩⟩

theorem ringAt (t : Nat) (g : Fin 1) (d : Fin 4) : ∃ s, doGetPosition true (some (ringOrbit d)) ((t : ℝ) / 10 ^ 9) = .ok s ∧
    Orbit.satElevation s (ringQ g) = .ok (Orbit.elevationAt (ringOrbit d) (ringQ g) (t / 10 ^ 9)) :=
  Orbit.sees_elevationAt true (ringOrbit d) (ringQ g) ringLow.ground (ringLow.above d) _

theorem lowLink : ElevationLink true ringOrbit ringQ (-1 / 100) lowNet := by
  intro t g d
  obtain ⟨s, h1, -⟩ := ringAt t g d
  refine ⟨s, _, h1, rfl, ?_⟩
  simp only [ringNode, h1]

theorem lowSetup : Setup lowNet lowWorld (fun e => e) ringSats ringAddrs where
  built := ⟨_, _, _, _, _, ringBuilt, by unfold Fits16; decide, rfl⟩
  sky := fun t g d => ⟨g.val, d.val, fun _ ps => 3 + 2 * ps, fun p _ _ => p - 10, ⟨rfl, rfl, rfl, rfl⟩, rfl, fun _ => rfl, Or.inr ⟨_, rfl, by
    obtain ⟨s, h1, h2⟩ := ringAt t g d
    simp only [ringNode, h1, elevationSuccess, getOrbit, getMobility, Option.map_some, Mobility.position, h2, lowWorld]⟩⟩
  islSky := fun _ => ⟨rfl, Or.inl ⟨rfl, fun _ _ => rfl⟩⟩
  wired := fun e => e.elim0

theorem lowRunnable : Network.Runnable lowNet lowWorld (fun e => e) ringSats ringAddrs (fun r => r.clock) 1 :=
  ⟨lowSetup, Uplink.safe_map rfl, Uplink.none_orderly, Uplink.none_oneEach, fun _ => ⟨Nat.le_refl _, by simp [lowNet, ringNet, noneMac]⟩⟩

theorem lowLimits : Network.Limits lowNet lowWorld (fun e => e) 0 10 10 9 :=
  (Network.C95_packets (K := 2) (by decide) (b1 := fun _ _ => 100) (b2 := fun _ _ => 100) (b3 := fun _ _ => 100) (fun _ => rfl) (fun _ => rfl) (fun _ => rfl)
    (fun _ => QueueDelay.none_prompt) (fun u g d _ => by show 3 + 2 * d.val ≤ 9; omega) (fun u e _ => e.elim0)).1

/-- A packet given to the station 2000 seconds after the start is passed up by a satellite, at most 39 nanoseconds later. -/
example : ∃ v ops s, exec lowNet (elevationFires true lowNet ring v (fun _ => 0)) (elevationStart lowNet) ops = some (.ok s) ∧
    ops.filter (fun o => !o.internal) = [.net (.send 0 2000000000000 11 10 7)] ∧
    ∃ d t, Network.FromGround lowNet s.net d t 11 ∧ 2000000000000 ≤ t ∧ t ≤ 2000000000039 := by
  obtain ⟨v, hw⟩ := ringWatching
  have hl : Orbit.length (6371000, 0, 0) = 6371000 := by unfold Orbit.length; simp
  obtain ⟨⟨ops, s, h1, h2, h3, h4⟩, hall⟩ := C102_service (net := lowNet) (w := lowWorld) rfl lowRunnable lowLimits ringBuilt (by unfold Fits16; decide) Orbit.ring_full ringNamed hw
    (by show ∀ g : Fin 1, (Uplink.target ringSats ringAddrs (SatAddress.mk3 .big 3 0 2)).isSome
        decide)
    lowLink (extra := fun _ => 100) (fun g d => by
      have h1 := Orbit.C89_speed_bound (ringOrbit d) (by simp only [ringOrbit]; norm_num) (by simp only [ringOrbit]; norm_num)
      have h2 : (1000000 : ℝ) ≤ (ringOrbit d).radius - 9 - Orbit.length (ringQ g) := by
        show (1000000 : ℝ) ≤ (ringOrbit d).radius - 9 - Orbit.length (6371000, 0, 0)
        rw [hl]
        simp only [ringOrbit]
        norm_num
      have h3 : (Place.sat (ringOrbit d)).speed * ((100 : Nat) : ℝ) / 10 ^ 9 / ((ringOrbit d).radius - 9 - Orbit.length (ringQ g)) ≤ 11600 * ((100 : Nat) : ℝ) / 10 ^ 9 / 1000000 := by gcongr
      have h4 : π / 2 * ((Place.sat (ringOrbit d)).speed * ((100 : Nat) : ℝ) / 10 ^ 9 / ((ringOrbit d).radius - 9 - Orbit.length (ringQ g))) ≤ 4 / 2 * (11600 * ((100 : Nat) : ℝ) / 10 ^ 9 / 1000000) := by
        have := pi_pos
        have := pi_le_four
        refine le_trans (mul_le_mul_of_nonneg_left h3 (by positivity)) ?_
        gcongr
      norm_num at h4 ⊢
      linarith) (fun _ => by norm_num)
    (calls := [.send 0 2000000000000 11 10 7]) (by simp) (by unfold Network.Short; decide) (by simp [Network.Op.internal]) (by simp) (until_ := 2000000001000) (by simp [Network.Op.when])
  have hroom := C100_room (fun g => (elevationStart_facts lowNet g).1) (fun g => (elevationStart_facts lowNet g).2.1) h1 h2 (g := 0) (K := 2) (bytes := fun _ => 100) rfl (by decide)
  obtain ⟨s', hs', hd⟩ := hall ops _ h1 h2
  simp only [Outcome.ok.injEq] at hs'
  subst hs'
  obtain ⟨d, -, t, t1, t2, t3⟩ := hd h3 h4 0 2000000000000 11 10 7 (by simp) (by norm_num) (by decide) (by rw [hroom]; simp)
  exact ⟨v, ops, s, h1, h2, d, t, t1, t2, t3⟩

end

end TrackedNet
end Icarus
