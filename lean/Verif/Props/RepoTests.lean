import Verif.Props.Observer
import Verif.Props.Elevation
import Verif.Props.Isl
import Verif.Model.SatAddress
import Mathlib.Analysis.Calculus.Deriv.MeanValue
import Mathlib.Analysis.SpecialFunctions.Trigonometric.Deriv
import Mathlib.Analysis.Real.Pi.Bounds
import Mathlib.Topology.Order.IntermediateValue

/-!
# Validation of the model: what the unit tests of the repository expect

The theorems of this file are about single concrete inputs, those of `test/icarus-address-test-suite.cc` and
`test/icarus-test-suite.cc`.  They are no claims about the program: they check that the model computes what the tests of the
repository expect the program to compute, with the tolerances of these tests.  (The expectations of
`test/icarus-mac-model-test-suite.cc` are statistical; C77 has the counting argument behind those for Aloha.)
-/

set_option autoImplicit false

namespace Icarus
namespace RepoTests

/-! ## `SatAddressTestCase` (test/icarus-address-test-suite.cc:43-68) -/

def address (e : Endian) : SatAddress := SatAddress.mk3 e 0xf00f 0xe11e 0xd22d
def buffer : List UInt8 := [0xf0, 0x0f, 0xe1, 0x1e, 0xd2, 0x2d]

theorem test_address_encoding (e : Endian) (ty : UInt8) : ((address e).convertTo e ty).data = buffer := by
  cases e <;> rfl

theorem test_address_decoding (e : Endian) (ty : UInt8) (debug : Bool) :
    SatAddress.convertFrom debug e ty ⟨0, buffer⟩ = .ok (address e) := by
  have h1 : (SatAddress.Address.mk 0 buffer).checkCompatible ty 6 = true := by
    unfold SatAddress.Address.checkCompatible
    simp [buffer]
  unfold SatAddress.convertFrom
  rw [h1]
  cases e <;> cases debug <;> rfl

theorem test_address_getters (e : Endian) :
    (address e).getConstellationId e = 0xf00f ∧ (address e).getOrbitalPlane e = 0xe11e ∧ (address e).getPlaneIndex e = 0xd22d := by
  cases e <;> decide

theorem test_address_parsing (e : Endian) :
    ∃ is, SatAddress.parse e { chars := "f00f:e11e:d22d".toList } = .ok (is, address e) ∧ is.fail = false := by
  cases e <;> refine ⟨_, rfl, ?_⟩ <;> decide

/-! ## `ISLGridTestCase1` (test/icarus-test-suite.cc:173-205) -/

/-- A satellite has its device towards the ground (`IcarusHelper::Install`) and those of its inter-satellite links. -/
def devices (planes perPlane p i : Nat) : Nat := 1 + (Isl.deviceOwners (Isl.gridLinks planes perPlane)).count (p, i)

theorem test_grid : ∀ c ∈ [(6, 20, 5), (1, 1, 1), (1, 2, 2), (2, 1, 2), (2, 2, 3), (3, 2, 4), (2, 3, 4)],
    ∀ p i, p < c.1 → i < c.2.1 → devices c.1 c.2.1 p i = c.2.2 := by
  intro c hc p i hp hi
  unfold devices
  rw [(C12_devices_per_satellite c.1 c.2.1).1 p i hp hi]
  simp only [List.mem_cons, List.not_mem_nil, or_false] at hc
  rcases hc with rfl | rfl | rfl | rfl | rfl | rfl | rfl <;> rfl

/-! ## Bounds of the trigonometric functions -/

open Real Orbit

theorem nonneg_of_deriv {f f' : ℝ → ℝ} (h0 : f 0 = 0) (hf : ∀ x, HasDerivAt f (f' x) x) (hp : ∀ x, 0 ≤ x → 0 ≤ f' x) :
    ∀ x, 0 ≤ x → 0 ≤ f x := by
  have hm : MonotoneOn f (Set.Ici 0) := by
    apply monotoneOn_of_deriv_nonneg (convex_Ici 0)
    · exact fun x _ => (hf x).continuousAt.continuousWithinAt
    · exact fun x _ => (hf x).differentiableAt.differentiableWithinAt
    · intro x hx
      rw [(hf x).deriv]
      rw [interior_Ici] at hx
      exact hp x (le_of_lt hx)
  intro x hx
  have := hm (Set.mem_Ici.mpr (le_refl 0)) (Set.mem_Ici.mpr hx) hx
  rwa [h0] at this

theorem taylor1 (x : ℝ) (hx : 0 ≤ x) : 0 ≤ x - sin x := by linarith [sin_le hx]
theorem taylor2 : ∀ x : ℝ, 0 ≤ x → 0 ≤ cos x - (1 - x ^ 2 / 2) :=
  nonneg_of_deriv (f' := fun x => x - sin x) (by simp) (fun x => by
    have := ((hasDerivAt_cos x).sub ((hasDerivAt_const x (1:ℝ)).sub (((hasDerivAt_id x).pow 2).div_const 2)))
    exact this.congr_deriv (by simp only [id]; ring)) taylor1
theorem taylor3 : ∀ x : ℝ, 0 ≤ x → 0 ≤ sin x - (x - x ^ 3 / 6) :=
  nonneg_of_deriv (f' := fun x => cos x - (1 - x ^ 2 / 2)) (by simp) (fun x => by
    have := ((hasDerivAt_sin x).sub ((hasDerivAt_id x).sub (((hasDerivAt_id x).pow 3).div_const 6)))
    exact this.congr_deriv (by simp only [id]; ring)) taylor2
theorem taylor4 : ∀ x : ℝ, 0 ≤ x → 0 ≤ (1 - x ^ 2 / 2 + x ^ 4 / 24) - cos x :=
  nonneg_of_deriv (f' := fun x => sin x - (x - x ^ 3 / 6)) (by simp) (fun x => by
    have := ((((hasDerivAt_const x (1:ℝ)).sub (((hasDerivAt_id x).pow 2).div_const 2)).add (((hasDerivAt_id x).pow 4).div_const 24)).sub (hasDerivAt_cos x))
    exact this.congr_deriv (by simp only [id]; ring)) taylor3
theorem taylor5 : ∀ x : ℝ, 0 ≤ x → 0 ≤ (x - x ^ 3 / 6 + x ^ 5 / 120) - sin x :=
  nonneg_of_deriv (f' := fun x => (1 - x ^ 2 / 2 + x ^ 4 / 24) - cos x) (by simp) (fun x => by
    have := ((((hasDerivAt_id x).sub (((hasDerivAt_id x).pow 3).div_const 6)).add (((hasDerivAt_id x).pow 5).div_const 120)).sub (hasDerivAt_sin x))
    exact this.congr_deriv (by simp only [id]; ring)) taylor4
theorem taylor6 : ∀ x : ℝ, 0 ≤ x → 0 ≤ cos x - (1 - x ^ 2 / 2 + x ^ 4 / 24 - x ^ 6 / 720) :=
  nonneg_of_deriv (f' := fun x => (x - x ^ 3 / 6 + x ^ 5 / 120) - sin x) (by simp) (fun x => by
    have := ((hasDerivAt_cos x).sub (((((hasDerivAt_const x (1:ℝ)).sub (((hasDerivAt_id x).pow 2).div_const 2)).add (((hasDerivAt_id x).pow 4).div_const 24)).sub (((hasDerivAt_id x).pow 6).div_const 720))))
    exact this.congr_deriv (by simp only [id]; ring)) taylor5
theorem taylor7 : ∀ x : ℝ, 0 ≤ x → 0 ≤ sin x - (x - x ^ 3 / 6 + x ^ 5 / 120 - x ^ 7 / 5040) :=
  nonneg_of_deriv (f' := fun x => cos x - (1 - x ^ 2 / 2 + x ^ 4 / 24 - x ^ 6 / 720)) (by simp) (fun x => by
    have := ((hasDerivAt_sin x).sub ((((hasDerivAt_id x).sub (((hasDerivAt_id x).pow 3).div_const 6)).add (((hasDerivAt_id x).pow 5).div_const 120)).sub (((hasDerivAt_id x).pow 7).div_const 5040)))
    exact this.congr_deriv (by simp only [id]; ring)) taylor6

theorem sin_between {x a b : ℝ} (ha : 0 ≤ a) (hax : a ≤ x) (hxb : x ≤ b) (hb : b ≤ 1.57) :
    a - a ^ 3 / 6 + a ^ 5 / 120 - a ^ 7 / 5040 ≤ sin x ∧ sin x ≤ b - b ^ 3 / 6 + b ^ 5 / 120 := by
  have hpi := pi_gt_d2
  have h1 := sin_le_sin_of_le_of_le_pi_div_two (by linarith) (by linarith) hax
  have h2 := sin_le_sin_of_le_of_le_pi_div_two (by linarith) (by linarith) hxb
  exact ⟨by linarith [taylor7 a ha], by linarith [taylor5 b (by linarith)]⟩

theorem cos_between {x a b : ℝ} (ha : 0 ≤ a) (hax : a ≤ x) (hxb : x ≤ b) (hb : b ≤ 1.57) :
    1 - b ^ 2 / 2 + b ^ 4 / 24 - b ^ 6 / 720 ≤ cos x ∧ cos x ≤ 1 - a ^ 2 / 2 + a ^ 4 / 24 := by
  have hpi := pi_gt_d2
  have h1 := cos_le_cos_of_nonneg_of_le_pi ha (by linarith) hax
  have h2 := cos_le_cos_of_nonneg_of_le_pi (by linarith) (by linarith) hxb
  exact ⟨by linarith [taylor6 b (by linarith)], by linarith [taylor4 a ha]⟩

theorem mul_between {x y a b c d : ℝ} (ha : 0 ≤ a) (hc : 0 ≤ c) (hx : a ≤ x ∧ x ≤ b) (hy : c ≤ y ∧ y ≤ d) : a * c ≤ x * y ∧ x * y ≤ b * d :=
  ⟨mul_le_mul hx.1 hy.1 hc (by linarith), mul_le_mul hx.2 hy.2 (by linarith) (by linarith)⟩

theorem sin_ten : 0.17364 ≤ sin (toRadians 10) ∧ sin (toRadians 10) ≤ 0.17366 := by
  have h1 := pi_gt_d6
  have h2 := pi_lt_d6
  have := sin_between (x := toRadians 10) (a := 0.174532) (b := 0.174533) (by norm_num) (by unfold toRadians; linarith) (by unfold toRadians; linarith)
    (by norm_num)
  norm_num at this ⊢
  constructor <;> linarith [this.1, this.2]

theorem sin_twentyfive : 0.42261 ≤ sin (toRadians 25) ∧ sin (toRadians 25) ≤ 0.42263 := by
  have h1 := pi_gt_d6
  have h2 := pi_lt_d6
  have := sin_between (x := toRadians 25) (a := 0.436332) (b := 0.436333) (by norm_num) (by unfold toRadians; linarith) (by unfold toRadians; linarith)
    (by norm_num)
  norm_num at this ⊢
  constructor <;> linarith [this.1, this.2]

theorem rad45 : toRadians 45 = π / 4 := by unfold toRadians; ring
theorem rad60 : toRadians 60 = π / 3 := by unfold toRadians; ring
theorem rad30 : toRadians 30 = π / 6 := by unfold toRadians; ring
theorem rad90 : toRadians 90 = π / 2 := by unfold toRadians; ring

theorem sqrt_two_between : 1.41421 ≤ √2 ∧ √2 ≤ 1.41422 :=
  ⟨le_sqrt_of_sq_le (by norm_num), (sqrt_le_left (by norm_num)).mpr (by norm_num)⟩

theorem sqrt_three_between : 1.73205 ≤ √3 ∧ √3 ≤ 1.73206 :=
  ⟨le_sqrt_of_sq_le (by norm_num), (sqrt_le_left (by norm_num)).mpr (by norm_num)⟩

/-! ## `CircularOrbitElevationTest` (test/icarus-test-suite.cc:106-139, 287-306) -/

/-- The distance at an elevation lies between two bounds, which amounts to linear conditions on the sine. -/
theorem distance_between {e g lo hi : ℝ} (hg : 0 ≤ g) (hhi : 0 ≤ hi) (hs : 0 ≤ sin e)
    (h1 : lo ^ 2 + 2 * lo * (g * sin e) ≤ 2 * g * 400000 + 400000 ^ 2) (h2 : 2 * g * 400000 + 400000 ^ 2 ≤ hi ^ 2 + 2 * hi * (g * sin e))
    (i Ω φ : ℝ) : ∃ d, groundDistanceAtElevation (launchSat i Ω 400000 φ) e g = .ok d ∧ lo ≤ d ∧ d ≤ hi := by
  have hr : (launchSat i Ω 400000 φ).radius - 6371009 = 400000 := by simp [launchSat, earthRadius]
  obtain ⟨A, hA, -, hd⟩ := groundDistance_eq (launchSat i Ω 400000 φ) e g hg (by rw [hr]; norm_num)
  rw [hr] at hA
  refine ⟨_, hd, ?_, ?_⟩
  · have : lo + g * sin e ≤ √A := by
      apply le_sqrt_of_sq_le
      rw [hA]
      nlinarith
    linarith
  · have hgs : 0 ≤ g * sin e := mul_nonneg hg hs
    have : √A ≤ hi + g * sin e := by
      rw [sqrt_le_left (by linarith), hA]
      nlinarith
    linarith

theorem test_elevation : ∀ c ∈ [((10 : ℝ), (1439415 : ℝ)), (25, 843933), (45, 549884), (60, 457419), (90, 400000)],
    ∃ d, groundDistanceAtElevation (launchSat 0 0 400000 0) (toRadians c.1) 6371009 = .ok d ∧ |d - c.2| ≤ 1000 := by
  have key : ∀ e s lo hi : ℝ, 0 ≤ sin (toRadians e) →
      0 ≤ s - 1000 → (s - 1000) ^ 2 + 2 * (s - 1000) * (6371009 * sin (toRadians e)) ≤ 2 * 6371009 * 400000 + 400000 ^ 2 →
      2 * 6371009 * 400000 + 400000 ^ 2 ≤ (s + 1000) ^ 2 + 2 * (s + 1000) * (6371009 * sin (toRadians e)) →
      ∃ d, groundDistanceAtElevation (launchSat 0 0 400000 0) (toRadians e) 6371009 = .ok d ∧ |d - s| ≤ 1000 := by
    intro e s lo hi h0 hs h1 h2
    obtain ⟨d, hd, hl, hh⟩ := distance_between (g := 6371009) (by norm_num) (by linarith) h0 h1 h2 0 0 0
    exact ⟨d, hd, by rw [abs_le]; constructor <;> linarith⟩
  have hs2 := sqrt_two_between
  have hs3 := sqrt_three_between
  have h10 := sin_ten
  have h25 := sin_twentyfive
  intro c hc
  simp only [List.mem_cons, List.not_mem_nil, or_false] at hc
  rcases hc with rfl | rfl | rfl | rfl | rfl
  · apply key _ _ 0 0 <;> norm_num at h10 ⊢ <;> linarith [h10.1, h10.2]
  · apply key _ _ 0 0 <;> norm_num at h25 ⊢ <;> linarith [h25.1, h25.2]
  · apply key _ _ 0 0 <;> simp only [rad45, sin_pi_div_four] <;> norm_num at hs2 ⊢ <;> linarith [hs2.1, hs2.2]
  · apply key _ _ 0 0 <;> simp only [rad60, sin_pi_div_three] <;> norm_num at hs3 ⊢ <;> linarith [hs3.1, hs3.2]
  · apply key _ _ 0 0 <;> simp only [rad90, sin_pi_div_two] <;> norm_num

/-! ## `CircularOrbitTestCase1` (test/icarus-test-suite.cc:73-104) -/

theorem test_altitude (debug : Bool) (t : ℝ) :
    ∃ p, doGetPosition debug (some (launchSat (toRadians 60) 0 250e3 0)) t = .ok p ∧ length p = 6621000 := by
  obtain ⟨p, h1, h2⟩ := C46_height debug (toRadians 60) 0 250e3 0 (by norm_num) t
  exact ⟨p, h1, by rw [h2]; norm_num⟩

theorem motion250 : 0.001171665817 ≤ meanMotion 6621009 ∧ meanMotion 6621009 ≤ 0.001171665819 := by
  unfold meanMotion
  exact ⟨le_sqrt_of_sq_le (by norm_num), (sqrt_le_left (by norm_num)).mpr (by norm_num)⟩

theorem test_position (debug : Bool) :
    ∃ p, doGetPosition debug (some (launchSat (toRadians 60) 0 250e3 0)) 9384 = .ok p ∧ |p.1 - (-2.09605e6)| ≤ 1000 := by
  have hrad : (launchSat (toRadians 60) 0 250e3 0).radius = 6621009 := by simp [launchSat, earthRadius]; norm_num
  have hr : 0 < (launchSat (toRadians 60) 0 250e3 0).radius := by rw [hrad]; norm_num
  obtain ⟨p, h1, h2⟩ := C46_rotated debug _ hr 9384
  refine ⟨_, h2, ?_⟩
  rw [C45_position debug _ hr] at h1
  simp only [Outcome.ok.injEq] at h1
  subst h1
  rw [hrad]
  have hm := motion250
  set θ := meanMotion 6621009 * 9384 with hθ
  set φ : ℝ := 7.292115922e-5 * 9384 with hφ
  have hpi1 := pi_gt_d6
  have hpi2 := pi_lt_d6
  set δ := 7 * (π / 2) - θ with hδ
  have hδ1 : 0.00065 ≤ δ := by linarith [hm.2]
  have hδ2 : δ ≤ 0.00067 := by linarith [hm.1]
  have hc : cos θ = - sin δ := by
    have : θ = (3 * π + π / 2) - δ := by rw [hδ]; ring
    rw [this, cos_sub]
    have e1 : cos (3 * π + π / 2) = 0 := by
      rw [cos_add_pi_div_two, show 3 * π = π + 2 * π by ring, sin_add_two_pi, sin_pi, neg_zero]
    have e2 : sin (3 * π + π / 2) = -1 := by
      rw [sin_add_pi_div_two, show 3 * π = π + 2 * π by ring, cos_add_two_pi, cos_pi]
    rw [e1, e2]
    ring
  have hs : sin θ = - cos δ := by
    have : θ = (3 * π + π / 2) - δ := by rw [hδ]; ring
    rw [this, sin_sub]
    have e1 : cos (3 * π + π / 2) = 0 := by
      rw [cos_add_pi_div_two, show 3 * π = π + 2 * π by ring, sin_add_two_pi, sin_pi, neg_zero]
    have e2 : sin (3 * π + π / 2) = -1 := by
      rw [sin_add_pi_div_two, show 3 * π = π + 2 * π by ring, cos_add_two_pi, cos_pi]
    rw [e1, e2]
    ring
  have hx : (smul ((6621009 - 9) / 6621009) (rotZ (-φ) (circlePoint (launchSat (toRadians 60) 0 250e3 0) (θ + 0)))).1 =
      - 6621000 * (sin δ * cos φ + cos δ * sin φ / 2) := by
    simp only [smul, rotZ, circlePoint, rotX, launchSat, earthRadius, rad60, cos_pi_div_three, cos_zero, sin_zero, cos_neg, sin_neg, add_zero, hc, hs]
    ring
  have hx' : (launchSat (toRadians 60) 0 250e3 0).phase = 0 := rfl
  rw [hx', hx]
  have s1 := sin_between (x := δ) (a := 0.00065) (b := 0.00067) (by norm_num) hδ1 hδ2 (by norm_num)
  have c1 := cos_between (x := δ) (a := 0.00065) (b := 0.00067) (by norm_num) hδ1 hδ2 (by norm_num)
  have hφ1 : 0.68429 ≤ φ := by rw [hφ]; norm_num
  have hφ2 : φ ≤ 0.6843 := by rw [hφ]; norm_num
  have s2 := sin_between (x := φ) (a := 0.68429) (b := 0.6843) (by norm_num) hφ1 hφ2 (by norm_num)
  have c2 := cos_between (x := φ) (a := 0.68429) (b := 0.6843) (by norm_num) hφ1 hφ2 (by norm_num)
  have m1 := mul_between (x := sin δ) (y := cos φ) (a := 0.00064) (b := 0.00068) (c := 0.77) (d := 0.78) (by norm_num) (by norm_num)
    ⟨by norm_num at s1 ⊢; linarith [s1.1], by norm_num at s1 ⊢; linarith [s1.2]⟩ ⟨by norm_num at c2 ⊢; linarith [c2.1], by norm_num at c2 ⊢; linarith [c2.2]⟩
  have m2 := mul_between (x := cos δ) (y := sin φ) (a := 0.99999) (b := 1) (c := 0.63202) (d := 0.63215) (by norm_num) (by norm_num)
    ⟨by norm_num at c1 ⊢; linarith [c1.1], by norm_num at c1 ⊢; linarith [c1.2]⟩ ⟨by norm_num at s2 ⊢; linarith [s2.1], by norm_num at s2 ⊢; linarith [s2.2]⟩
  norm_num at m1 m2 ⊢
  rw [abs_le]
  constructor <;> linarith [m1.1, m1.2, m2.1, m2.2]

/-! ## `FindNextPassTest` (test/icarus-test-suite.cc:207-253, 279-285) -/

/-- `GeographicPositions::GeographicToCartesianCoordinates (30, 0, 0, WGS84)` of ns-3. -/
noncomputable def station : Vec :=
  (6378137 / √(1 - e2 * sin (toRadians 30) ^ 2) * cos (toRadians 30) * cos 0, 6378137 / √(1 - e2 * sin (toRadians 30) ^ 2) * cos (toRadians 30) * sin 0,
    6378137 / √(1 - e2 * sin (toRadians 30) ^ 2) * (1 - e2) * sin (toRadians 30))

noncomputable def satellite : Elements := launchSat (toRadians 45) 0 400000 0

theorem root_between : 0.999162 ≤ √(1 - e2 * sin (toRadians 30) ^ 2) ∧ √(1 - e2 * sin (toRadians 30) ^ 2) ≤ 0.999163 := by
  rw [rad30, sin_pi_div_six]
  unfold e2 wgs84Eccentricity
  exact ⟨le_sqrt_of_sq_le (by norm_num), (sqrt_le_left (by norm_num)).mpr (by norm_num)⟩

theorem station_length : 6372800 ≤ length station ∧ length station ≤ 6372850 := by
  have hr := root_between
  have hR : 0 < √(1 - e2 * sin (toRadians 30) ^ 2) := by linarith [hr.1]
  have hsq : √(1 - e2 * sin (toRadians 30) ^ 2) ^ 2 = 1 - e2 / 4 := by
    rw [sq_sqrt, rad30, sin_pi_div_six]
    · ring
    · rw [rad30, sin_pi_div_six]
      unfold e2 wgs84Eccentricity
      norm_num
  have hlen : station.1 ^ 2 + station.2.1 ^ 2 + station.2.2 ^ 2 = 6378137 ^ 2 * (3 / 4 + (1 - e2) ^ 2 / 4) / (1 - e2 / 4) := by
    rw [← hsq]
    unfold station
    simp only [cos_zero, sin_zero, mul_one, mul_zero]
    set R := √(1 - e2 * sin (toRadians 30) ^ 2)
    rw [rad30, sin_pi_div_six, cos_pi_div_six]
    have h3 : √3 ^ 2 = 3 := sq_sqrt (by norm_num)
    field_simp
    rw [h3]
    ring
  unfold length
  rw [hlen]
  unfold e2 wgs84Eccentricity
  exact ⟨le_sqrt_of_sq_le (by norm_num), (sqrt_le_left (by norm_num)).mpr (by norm_num)⟩

theorem test_pass_observer (debug : Bool) (fuel : Nat) : observerOf debug (fuel + 1) station = .ok ⟨toRadians 30, 0, length station⟩ := by
  have hpi := pi_pos
  apply C57_surface debug fuel (toRadians 30) 0 (6378137 / √(1 - e2 * sin (toRadians 30) ^ 2)) <;> try (rw [rad30]; linarith)
  · linarith
  · exact hpi
  · rfl
  · have h := root_between
    have hs3 := sqrt_three_between
    rw [div_mul_eq_mul_div, lt_div_iff₀ (by linarith [h.1]), rad30, cos_pi_div_six]
    rw [rad30] at h
    linarith [h.2, hs3.1]

/-- The distance to be reached. -/
theorem test_pass_target : ∃ d, groundDistanceAtElevation satellite (toRadians 25) (length station) = .ok d ∧ 843000 ≤ d ∧ d ≤ 845000 := by
  have hg := station_length
  have hs := sin_twentyfive
  have m := mul_between (a := 6372800) (b := 6372850) (c := 0.42261) (d := 0.42263) (by norm_num) (by norm_num) hg hs
  norm_num at m
  apply distance_between (by linarith [hg.1]) (by norm_num) (by linarith [hs.1])
  · norm_num; linarith [m.2, hg.1]
  · norm_num; linarith [m.1, hg.2]

theorem motion400 : 0.0011329479 ≤ meanMotion 6771009 ∧ meanMotion 6771009 ≤ 0.0011329480 := by
  unfold meanMotion
  exact ⟨le_sqrt_of_sq_le (by norm_num), (sqrt_le_left (by norm_num)).mpr (by norm_num)⟩

/-- Squared distance of the satellite and the observer, as a cosine rule. -/
theorem gap_eq (t : ℝ) : sqDist (circlePoint satellite (meanMotion 6771009 * t)) ((⟨toRadians 30, 0, length station⟩ : Observer).position t) =
    6771009 ^ 2 + length station ^ 2 - 2 * 6771009 * length station *
      (cos (meanMotion 6771009 * t) * cos (7.292115922e-5 * t) * (√3 / 2) +
        sin (meanMotion 6771009 * t) * (√2 / 2) * (sin (7.292115922e-5 * t) * (√3 / 2) + 1 / 2)) := by
  have hrad : satellite.radius = 6771009 := by simp [satellite, launchSat, earthRadius]; norm_num
  have hinc : satellite.inclination = π / 4 := by rw [← rad45]; rfl
  have hasc : satellite.ascendingNode = 0 := rfl
  have hw : earthRotation = 7.292115922e-5 := rfl
  unfold sqDist Observer.position
  simp only [circlePoint, rotZ, rotX, hrad, hinc, hasc, hw, rad30, cos_pi_div_four, sin_pi_div_four, cos_zero, sin_zero, sin_pi_div_six,
    cos_pi_div_six, zero_add]
  have h2 : √2 ^ 2 = 2 := sq_sqrt (by norm_num)
  have h3 : √3 ^ 2 = 3 := sq_sqrt (by norm_num)
  have k1 := sin_sq_add_cos_sq (meanMotion 6771009 * t)
  have k2 := sin_sq_add_cos_sq (7.292115922e-5 * t)
  generalize sin (meanMotion 6771009 * t) = s at *
  generalize cos (meanMotion 6771009 * t) = c at *
  generalize sin (7.292115922e-5 * t) = s' at *
  generalize cos (7.292115922e-5 * t) = c' at *
  generalize √2 = q2 at *
  generalize √3 = q3 at *
  generalize length station = g
  linear_combination 6771009 ^ 2 * k1 + 6771009 ^ 2 * s ^ 2 / 2 * h2 + g ^ 2 * q3 ^ 2 / 4 * k2 + g ^ 2 / 4 * h3

theorem gap_before : 860000 ^ 2 < sqDist (circlePoint satellite (meanMotion 6771009 * 6065.39))
    ((⟨toRadians 30, 0, length station⟩ : Observer).position 6065.39) := by
  rw [gap_eq]
  have hpi1 := pi_gt_d6
  have hpi2 := pi_lt_d6
  have hm := motion400
  have hg := station_length
  have hs2 := sqrt_two_between
  have hs3 := sqrt_three_between
  set x := meanMotion 6771009 * 6065.39 - 2 * π with hx
  have hθ : meanMotion 6771009 * 6065.39 = x + 2 * π := by rw [hx]; ring
  rw [hθ, cos_add_two_pi, sin_add_two_pi]
  have x1 : 0.58858 ≤ x := by linarith [hm.1]
  have x2 : x ≤ 0.58859 := by linarith [hm.2]
  have sx := sin_between (by norm_num) x1 x2 (by norm_num)
  have cx := cos_between (by norm_num) x1 x2 (by norm_num)
  have sy := sin_between (x := 7.292115922e-5 * 6065.39) (a := 0.44229) (b := 0.4423) (by norm_num) (by norm_num) (by norm_num) (by norm_num)
  have cy := cos_between (x := 7.292115922e-5 * 6065.39) (a := 0.44229) (b := 0.4423) (by norm_num) (by norm_num) (by norm_num) (by norm_num)
  generalize sin x = s at *
  generalize cos x = c at *
  generalize sin (7.292115922e-5 * 6065.39) = s' at *
  generalize cos (7.292115922e-5 * 6065.39) = c' at *
  have sx' : (0.5551 : ℝ) ≤ s ∧ s ≤ 0.5552 := by norm_num at sx ⊢; constructor <;> linarith [sx.1, sx.2]
  have cx' : (0.8317 : ℝ) ≤ c ∧ c ≤ 0.8318 := by norm_num at cx ⊢; constructor <;> linarith [cx.1, cx.2]
  have sy' : (0.4280 : ℝ) ≤ s' ∧ s' ≤ 0.4281 := by norm_num at sy ⊢; constructor <;> linarith [sy.1, sy.2]
  have cy' : (0.9037 : ℝ) ≤ c' ∧ c' ≤ 0.9038 := by norm_num at cy ⊢; constructor <;> linarith [cy.1, cy.2]
  have q2' : (0.7071 : ℝ) ≤ √2 / 2 ∧ √2 / 2 ≤ 0.70711 := by norm_num at hs2 ⊢; constructor <;> linarith [hs2.1, hs2.2]
  have q3' : (0.86602 : ℝ) ≤ √3 / 2 ∧ √3 / 2 ≤ 0.86603 := by norm_num at hs3 ⊢; constructor <;> linarith [hs3.1, hs3.2]
  have m1 := mul_between (by norm_num) (by norm_num) (mul_between (by norm_num) (by norm_num) cx' cy') q3'
  have m2 := mul_between (by norm_num) (by norm_num) sy' q3'
  have m3 := mul_between (by norm_num) (by norm_num) sx' q2'
  have m2' : (0.4280 * 0.86602 + 1 / 2 : ℝ) ≤ s' * (√3 / 2) + 1 / 2 ∧ s' * (√3 / 2) + 1 / 2 ≤ 0.4281 * 0.86603 + 1 / 2 := ⟨by linarith [m2.1], by linarith [m2.2]⟩
  have m4 := mul_between (by norm_num) (by norm_num) m3 m2'
  have hK : c * c' * (√3 / 2) + s * (√2 / 2) * (s' * (√3 / 2) + 1 / 2) ≤ 0.9932 := by
    have a1 := m1.2
    have a2 := m4.2
    norm_num at a1 a2 ⊢
    linarith
  have h1 : 2 * 6771009 * length station * (c * c' * (√3 / 2) + s * (√2 / 2) * (s' * (√3 / 2) + 1 / 2)) ≤ 2 * 6771009 * length station * 0.9932 := by
    apply mul_le_mul_of_nonneg_left hK
    linarith [hg.1]
  nlinarith [hg.1, hg.2]

theorem gap_after : sqDist (circlePoint satellite (meanMotion 6771009 * 6085.39))
    ((⟨toRadians 30, 0, length station⟩ : Observer).position 6085.39) < 830000 ^ 2 := by
  rw [gap_eq]
  have hpi1 := pi_gt_d6
  have hpi2 := pi_lt_d6
  have hm := motion400
  have hg := station_length
  have hs2 := sqrt_two_between
  have hs3 := sqrt_three_between
  set x := meanMotion 6771009 * 6085.39 - 2 * π with hx
  have hθ : meanMotion 6771009 * 6085.39 = x + 2 * π := by rw [hx]; ring
  rw [hθ, cos_add_two_pi, sin_add_two_pi]
  have x1 : 0.61124 ≤ x := by linarith [hm.1]
  have x2 : x ≤ 0.61125 := by linarith [hm.2]
  have sx := sin_between (by norm_num) x1 x2 (by norm_num)
  have cx := cos_between (by norm_num) x1 x2 (by norm_num)
  have sy := sin_between (x := 7.292115922e-5 * 6085.39) (a := 0.44375) (b := 0.44376) (by norm_num) (by norm_num) (by norm_num) (by norm_num)
  have cy := cos_between (x := 7.292115922e-5 * 6085.39) (a := 0.44375) (b := 0.44376) (by norm_num) (by norm_num) (by norm_num) (by norm_num)
  generalize sin x = s at *
  generalize cos x = c at *
  generalize sin (7.292115922e-5 * 6085.39) = s' at *
  generalize cos (7.292115922e-5 * 6085.39) = c' at *
  have sx' : (0.5738 : ℝ) ≤ s ∧ s ≤ 0.5740 := by norm_num at sx ⊢; constructor <;> linarith [sx.1, sx.2]
  have cx' : (0.8189 : ℝ) ≤ c ∧ c ≤ 0.8191 := by norm_num at cx ⊢; constructor <;> linarith [cx.1, cx.2]
  have sy' : (0.4293 : ℝ) ≤ s' ∧ s' ≤ 0.4294 := by norm_num at sy ⊢; constructor <;> linarith [sy.1, sy.2]
  have cy' : (0.9031 : ℝ) ≤ c' ∧ c' ≤ 0.9032 := by norm_num at cy ⊢; constructor <;> linarith [cy.1, cy.2]
  have q2' : (0.7071 : ℝ) ≤ √2 / 2 ∧ √2 / 2 ≤ 0.70711 := by norm_num at hs2 ⊢; constructor <;> linarith [hs2.1, hs2.2]
  have q3' : (0.86602 : ℝ) ≤ √3 / 2 ∧ √3 / 2 ≤ 0.86603 := by norm_num at hs3 ⊢; constructor <;> linarith [hs3.1, hs3.2]
  have m1 := mul_between (by norm_num) (by norm_num) (mul_between (by norm_num) (by norm_num) cx' cy') q3'
  have m2 := mul_between (by norm_num) (by norm_num) sy' q3'
  have m3 := mul_between (by norm_num) (by norm_num) sx' q2'
  have m2' : (0.4293 * 0.86602 + 1 / 2 : ℝ) ≤ s' * (√3 / 2) + 1 / 2 ∧ s' * (√3 / 2) + 1 / 2 ≤ 0.4294 * 0.86603 + 1 / 2 := ⟨by linarith [m2.1], by linarith [m2.2]⟩
  have m4 := mul_between (by norm_num) (by norm_num) m3 m2'
  have hK : 0.9941 ≤ c * c' * (√3 / 2) + s * (√2 / 2) * (s' * (√3 / 2) + 1 / 2) := by
    have a1 := m1.1
    have a2 := m4.1
    norm_num at a1 a2 ⊢
    linarith
  have h1 : 2 * 6771009 * length station * 0.9941 ≤ 2 * 6771009 * length station * (c * c' * (√3 / 2) + s * (√2 / 2) * (s' * (√3 / 2) + 1 / 2)) := by
    apply mul_le_mul_of_nonneg_left hK
    linarith [hg.1]
  nlinarith [hg.1, hg.2]

/-- The satellite is at the distance searched for at an instant within the tolerance of the test. -/
theorem test_pass (debug : Bool) : ∃ d t, groundDistanceAtElevation satellite (toRadians 25) (length station) = .ok d ∧
    distanceFunction debug satellite ⟨toRadians 30, 0, length station⟩ d t = .ok 0 ∧ |t - 6075.39| ≤ 10 := by
  obtain ⟨d, hd, d1, d2⟩ := test_pass_target
  have hrad : satellite.radius = 6771009 := by simp [satellite, launchSat, earthRadius]; norm_num
  have hval : ∀ t, distanceFunction debug satellite ⟨toRadians 30, 0, length station⟩ d t =
      .ok (sqDist (circlePoint satellite (meanMotion 6771009 * t)) ((⟨toRadians 30, 0, length station⟩ : Observer).position t) - d ^ 2) := by
    intro t
    unfold distanceFunction
    rw [C45_position debug _ (by rw [hrad]; norm_num), Outcome.bind_ok, hrad]
    simp [satellite, launchSat]
  have hcont : Continuous (fun t => sqDist (circlePoint satellite (meanMotion 6771009 * t)) ((⟨toRadians 30, 0, length station⟩ : Observer).position t) - d ^ 2) := by
    simp only [gap_eq]
    fun_prop
  have h1 := gap_before
  have h2 := gap_after
  have hz : (0 : ℝ) ∈ (fun t => sqDist (circlePoint satellite (meanMotion 6771009 * t)) ((⟨toRadians 30, 0, length station⟩ : Observer).position t) - d ^ 2) ''
      Set.Icc 6065.39 6085.39 := by
    apply intermediate_value_Icc' (by norm_num) hcont.continuousOn
    constructor
    · nlinarith
    · nlinarith
  obtain ⟨t, ⟨t1, t2⟩, ht⟩ := hz
  refine ⟨d, t, hd, ?_, ?_⟩
  · rw [hval]
    exact congrArg _ ht
  · rw [abs_le]
    constructor <;> linarith

end RepoTests
end Icarus
