import Verif.Props.EquatorStation
import Verif.Props.ConstellationHelper
import Verif.Model.LaunchedOrbit

/-!
# The program examples/elevation-tracker.cc

With its default parameters: 60 planes of 42 satellites, 400 km high, inclination 60 degrees, a station on the equator with an elevation tracker (minimum
25 degrees), seven days.
-/

set_option autoImplicit false

namespace Icarus
namespace Orbit

open Real

/-! ## The numbers -/

/-- The orbit of the satellite at position `i` of plane `p` (examples/elevation-tracker.cc:43-68, helper/constellation-helper.cc:52-109). -/
noncomputable def lane (p i : Nat) : Elements := ⟨π / 3, 2 * π * p / 60, 6771009, 2 * π * i / 42 + 2 * π * p / 2520⟩

/-- Where the search believes the station to be. -/
noncomputable def home : Observer := ⟨0, 0, 6378137⟩

theorem motion400 : 0.0011329 ≤ meanMotion 6771009 ∧ meanMotion 6771009 ≤ 0.001133 := by
  unfold meanMotion
  exact ⟨le_sqrt_of_sq_le (by norm_num), (sqrt_le_left (by norm_num)).mpr (by norm_num)⟩

theorem lane_equatorial (p i : Nat) : Equatorial (lane p i) seaside :=
  ⟨rfl, by rw [seaside_length]; norm_num, by rw [seaside_length]; norm_num, by unfold lane; norm_num, by unfold lane; norm_num⟩

theorem lane_period (p i : Nat) : orbitalPeriod (lane p i) = .ok (2 * π / meanMotion 6771009) := by
  unfold orbitalPeriod lane
  simp [getN_eq (by norm_num : (0 : ℝ) < 6771009), cdiv, (meanMotion_pos (by norm_num : (0 : ℝ) < 6771009)).ne']

theorem period400 : 5545 < 2 * π / meanMotion 6771009 ∧ 2 * π / meanMotion 6771009 < 5547 := by
  obtain ⟨n1, n2⟩ := motion400
  have p1 := pi_gt_d6
  have p2 := pi_lt_d6
  rw [lt_div_iff₀ (by linarith), div_lt_iff₀ (by linarith)]
  constructor <;> linarith

theorem minimum_range : 0 ≤ toRadians 25 ∧ toRadians 25 < π / 2 := by
  unfold toRadians
  constructor <;> linarith [pi_pos]

/-- The sine of the minimum elevation. -/
theorem minimum_sin : 0.4224 ≤ sin (toRadians 25) ∧ sin (toRadians 25) ≤ 0.4259 := by
  have p1 := pi_gt_d6
  have p2 := pi_lt_d6
  have hx : toRadians 25 = 25 * (π / 180) := rfl
  generalize toRadians 25 = x at *
  have x1 : 0.43633 ≤ x := by rw [hx]; linarith
  have x2 : x ≤ 0.43634 := by rw [hx]; linarith
  have hs0 : 0 ≤ sin x := sin_nonneg_of_nonneg_of_le_pi (by linarith) (by linarith)
  constructor
  · have := sin_gt_sub_cube (x := x) (by linarith)
    have h3 : x ^ 3 ≤ 0.43634 ^ 3 := pow_le_pow_left₀ (by linarith) x2 3
    norm_num at h3
    linarith
  · have h1 := one_sub_sq_div_two_le_cos (x := x)
    have h2 : x ^ 2 ≤ 0.43634 ^ 2 := pow_le_pow_left₀ (by linarith) x2 2
    have h3 : 0.9048 ≤ cos x := by norm_num at h2; linarith
    have h4 : (0.9048 : ℝ) ^ 2 ≤ cos x ^ 2 := pow_le_pow_left₀ (by norm_num) h3 2
    have h5 := sin_sq_add_cos_sq x
    refine (sq_le_sq₀ hs0 (by norm_num)).mp ?_
    norm_num at h4 ⊢
    linarith

/-- The cosines of the angles at which the satellite has the minimum elevation and the distance of the search. -/
theorem cosines400 {c D a b S : ℝ} (S1 : 0.4224 ≤ S) (S2 : S ≤ 0.4259) (ha0 : 0 ≤ a) (hb0 : 0 ≤ b)
    (ha : a ^ 2 = 6778137 ^ 2 - 6378137 ^ 2 * (1 - S ^ 2)) (hb : b ^ 2 = 6771000 ^ 2 - 6378137 ^ 2 * (1 - S ^ 2))
    (hc : 6771000 * c = 6378137 * (1 - S ^ 2) + S * b) (hD : D = a - 6378137 * S) :
    c ≤ 0.995 ∧ 0.993 ≤ (6771009 ^ 2 + 6378137 ^ 2 - D ^ 2) / (2 * 6771009 * 6378137) ∧
      c - (6771009 ^ 2 + 6378137 ^ 2 - D ^ 2) / (2 * 6771009 * 6378137) ≤ 0.0003 := by
  have hS2l : (0.4224 : ℝ) ^ 2 ≤ S ^ 2 := pow_le_pow_left₀ (by norm_num) S1 2
  have hS2u : S ^ 2 ≤ (0.4259 : ℝ) ^ 2 := pow_le_pow_left₀ (by linarith) S2 2
  norm_num at hS2l hS2u
  have a1 : 3538000 ≤ a := by
    refine (sq_le_sq₀ (by norm_num) ha0).mp ?_
    rw [ha]
    linarith
  have a2 : a ≤ 3556000 := by
    refine (sq_le_sq₀ ha0 (by norm_num)).mp ?_
    rw [ha]
    linarith
  have b1 : 3524000 ≤ b := by
    refine (sq_le_sq₀ (by norm_num) hb0).mp ?_
    rw [hb]
    linarith
  have b2 : b ≤ 3543000 := by
    refine (sq_le_sq₀ hb0 (by norm_num)).mp ?_
    rw [hb]
    linarith
  have hab : (a - b) * (a + b) = 96700190769 := by
    have : (a - b) * (a + b) = a ^ 2 - b ^ 2 := by ring
    rw [this, ha, hb]
    ring
  have hab0 : 0 ≤ a - b := by
    by_contra hcon
    push Not at hcon
    have := mul_neg_of_neg_of_pos hcon (by linarith : 0 < a + b)
    linarith
  have hab1 : a - b ≤ 13700 := by
    by_contra hcon
    push Not at hcon
    have := mul_lt_mul hcon (by linarith : (7062000 : ℝ) ≤ a + b) (by norm_num) hab0
    linarith
  have D1 : 820000 ≤ D := by rw [hD]; linarith
  have D2 : D ≤ 862000 := by rw [hD]; linarith
  have hD2 : D ^ 2 ≤ 862000 ^ 2 := pow_le_pow_left₀ (by linarith) D2 2
  have hDb : b - 6378137 * S = D - (a - b) := by rw [hD]; ring
  -- the law of cosines for the reported satellite
  have hlaw : 2 * 6771000 * 6378137 * c = 6771000 ^ 2 + 6378137 ^ 2 - (D - (a - b)) ^ 2 := by
    rw [← hDb]
    have : (b - 6378137 * S) ^ 2 = b ^ 2 - 2 * 6378137 * (S * b) + 6378137 ^ 2 * S ^ 2 := by ring
    rw [this, hb]
    linarith
  have hDl : (806000 : ℝ) ^ 2 ≤ (D - (a - b)) ^ 2 := pow_le_pow_left₀ (by norm_num) (by linarith) 2
  have hc1 : c ≤ 0.995 := by norm_num at hDl; linarith
  refine ⟨hc1, ?_, ?_⟩
  · rw [le_div_iff₀ (by norm_num)]
    norm_num at hD2 ⊢
    linarith
  · rw [sub_le_iff_le_add, ← sub_le_iff_le_add', le_div_iff₀ (by norm_num)]
    have h1 : (D - (a - b)) ^ 2 = D ^ 2 - (a - b) * (2 * D - (a - b)) := by ring
    have h2 : (a - b) * (2 * D - (a - b)) ≤ 13700 * 1724000 := mul_le_mul hab1 (by linarith) (by linarith) (by norm_num)
    norm_num at h2 ⊢
    linarith

theorem distance400 (p i : Nat) : ∃ E, (∀ p' i', groundDistanceAtElevation (lane p' i') (toRadians 25) (length seaside) = .ok E) ∧ 0 ≤ E ∧
    WithinReach (lane p i) home E ∧ cos (reach 6378137 6771000 (toRadians 25)) ≤ 0.995 ∧
    0.993 ≤ (6771009 ^ 2 + 6378137 ^ 2 - E ^ 2) / (2 * 6771009 * 6378137) ∧
    cos (reach 6378137 6771000 (toRadians 25)) - (6771009 ^ 2 + 6378137 ^ 2 - E ^ 2) / (2 * 6771009 * 6378137) ≤ 0.0003 := by
  obtain ⟨m1, m2⟩ := minimum_range
  obtain ⟨A, hA, -, hE⟩ := groundDistance_eq (lane p i) (toRadians 25) 6378137 (by norm_num) (by unfold lane; norm_num)
  have hE' : groundDistanceAtElevation (lane p i) (toRadians 25) (length seaside) = .ok (√A - 6378137 * sin (toRadians 25)) := by
    rw [seaside_length]; exact hE
  obtain ⟨e0, hw⟩ := C82_reach (o := lane p i) (ob := home) (by unfold lane; norm_num) (by unfold lane; norm_num) (by unfold home; norm_num)
    (by unfold home; norm_num) m1 m2.le hE
  refine ⟨√A - 6378137 * sin (toRadians 25), fun p' i' => hE', e0, hw, ?_⟩
  have hA' : A = 6778137 ^ 2 - 6378137 ^ 2 * (1 - sin (toRadians 25) ^ 2) := by
    rw [hA]
    show (6378137 * sin (toRadians 25)) ^ 2 + 2 * 6378137 * (6771009 - 6371009) + (6771009 - 6371009) ^ 2 = _
    ring
  have hcs : cos (toRadians 25) ^ 2 = 1 - sin (toRadians 25) ^ 2 := by linarith [sin_sq_add_cos_sq (toRadians 25)]
  have hc := cos_reach (R := 6378137) (ρ := 6771000) (e := toRadians 25) (by norm_num) (by norm_num) (abs_cos_le_one _)
  rw [hcs] at hc
  have hs := sq_nonneg (sin (toRadians 25))
  exact cosines400 minimum_sin.1 minimum_sin.2 (sqrt_nonneg _) (sqrt_nonneg _) (by rw [sq_sqrt (by rw [hA']; linarith), hA']) (sq_sqrt (by linarith)) hc rfl

/-! ## Somewhere there is always a satellite -/

theorem lane_overhead (p i : Nat) (t : ℝ) : overhead (lane p i) home t =
    3 / 4 * cos ((meanMotion 6771009 * t + (2 * π * i / 42 + 2 * π * p / 2520)) - (earthRotation * t - 2 * π * p / 60)) +
    1 / 4 * cos ((meanMotion 6771009 * t + (2 * π * i / 42 + 2 * π * p / 2520)) + (earthRotation * t - 2 * π * p / 60)) := by
  unfold overhead lane home
  simp only [cos_zero, sin_zero, cos_pi_div_three]
  rw [show (meanMotion 6771009 - earthRotation) * t + (2 * π * i / 42 + 2 * π * p / 2520 - 0 + 2 * π * p / 60) =
      (meanMotion 6771009 * t + (2 * π * i / 42 + 2 * π * p / 2520)) - (earthRotation * t - 2 * π * p / 60) by ring,
    show (meanMotion 6771009 + earthRotation) * t + (2 * π * i / 42 + 2 * π * p / 2520 + 0 - 2 * π * p / 60) =
      (meanMotion 6771009 * t + (2 * π * i / 42 + 2 * π * p / 2520)) + (earthRotation * t - 2 * π * p / 60) by ring]
  ring

/-- Every angle is up to full turns within half a step of a multiple of the step. -/
theorem nearest (x : ℝ) {n : Nat} (hn : 0 < n) : ∃ p < n, ∃ k : ℤ, ∃ y, x = 2 * π * p / n + y + k * (2 * π) ∧ |y| ≤ π / n := by
  have hn' : (0 : ℝ) < n := by exact_mod_cast hn
  have hpi := pi_pos
  obtain ⟨m, hm⟩ : ∃ m : ℤ, m = round (x * n / (2 * π)) := ⟨_, rfl⟩
  have hr := abs_sub_round (x * n / (2 * π))
  rw [← hm] at hr
  have hnz : (n : ℤ) ≠ 0 := by exact_mod_cast hn.ne'
  have h0 := Int.emod_nonneg m hnz
  have h1 := Int.emod_lt_of_pos m (by exact_mod_cast hn : (0 : ℤ) < n)
  obtain ⟨p, hp⟩ := Int.eq_ofNat_of_zero_le h0
  have hdm : (m : ℝ) = p + n * (m / (n : ℤ) : ℤ) := by
    have := Int.emod_add_mul_ediv m n
    rw [hp] at this
    exact_mod_cast this.symm
  refine ⟨p, by omega, m / n, x - 2 * π * m / n, ?_, ?_⟩
  · rw [hdm]
    field_simp
    ring
  · have : x - 2 * π * m / n = (x * n / (2 * π) - m) * (2 * π / n) := by field_simp
    rw [this, abs_mul, abs_of_pos (by positivity : 0 < 2 * π / n)]
    calc _ ≤ 1 / 2 * (2 * π / n) := mul_le_mul_of_nonneg_right hr (by positivity)
      _ = π / n := by ring

/-- At every time some satellite is above the minimum elevation. -/
theorem C106_covered (t : ℝ) : ∃ p < 60, ∃ i < 42, toRadians 25 < elevationAt (lane p i) seaside t := by
  obtain ⟨m1, m2⟩ := minimum_range
  obtain ⟨p, hp, k, y, hy, hy'⟩ := nearest (earthRotation * t) (n := 60) (by norm_num)
  obtain ⟨i, hi, k', z, hz, hz'⟩ := nearest (y / 2 - meanMotion 6771009 * t - 2 * π * p / 2520) (n := 42) (by norm_num)
  refine ⟨p, hp, i, hi, ?_⟩
  obtain ⟨E, -, -, -, hc, -⟩ := distance400 p i
  refine ((lane_equatorial p i).elevation (seaside_observer true 0) m1 m2 t).2 ?_
  rw [seaside_length, show (lane p i).radius - 9 = 6771000 by unfold lane; norm_num, show (⟨0, 0, 6378137⟩ : Observer) = home from rfl,
    lane_overhead]
  push_cast at hy hz hy' hz'
  rw [show meanMotion 6771009 * t + (2 * π * i / 42 + 2 * π * p / 2520) - (earthRotation * t - 2 * π * p / 60) =
      (-z - y / 2) + ((-k' - k : ℤ) : ℝ) * (2 * π) by push_cast; linarith,
    show meanMotion 6771009 * t + (2 * π * i / 42 + 2 * π * p / 2520) + (earthRotation * t - 2 * π * p / 60) =
      (-z + 3 * y / 2) + ((-k' + k : ℤ) : ℝ) * (2 * π) by push_cast; linarith, cos_add_int_mul_two_pi, cos_add_int_mul_two_pi]
  have h1 := one_sub_sq_div_two_le_cos (x := -z - y / 2)
  have h2 := one_sub_sq_div_two_le_cos (x := -z + 3 * y / 2)
  have p2 := pi_lt_d6
  have hy2 : y ^ 2 ≤ 0.0524 ^ 2 := by
    rw [← sq_abs]
    exact pow_le_pow_left₀ (abs_nonneg _) (by linarith) 2
  have hz2 : z ^ 2 ≤ 0.0749 ^ 2 := by
    rw [← sq_abs]
    exact pow_le_pow_left₀ (abs_nonneg _) (by linarith) 2
  norm_num at hy2 hz2
  nlinarith

/-! ## The search -/

section Search

variable {p i : Nat} {E now t : ℝ}

theorem lane_near (hE0 : 0 ≤ E) (hE : 0.993 ≤ (6771009 ^ 2 + 6378137 ^ 2 - E ^ 2) / (2 * 6771009 * 6378137)) (h : gap (lane p i) home t ≤ E) :
    0.99 ≤ cos ((meanMotion 6771009 - earthRotation) * t + (2 * π * i / 42 + 2 * π * p / 2520 + 2 * π * p / 60)) := by
  have h1 := (gap_le_iff (o := lane p i) (ob := home) (by unfold lane; norm_num) (by unfold home; norm_num) hE0 t).mp h
  have h2 : 0.993 ≤ overhead (lane p i) home t := by
    unfold level at h1
    have h3 : ((lane p i).radius ^ 2 + home.radius ^ 2 - E ^ 2) / (2 * (lane p i).radius * home.radius) =
      (6771009 ^ 2 + 6378137 ^ 2 - E ^ 2) / (2 * 6771009 * 6378137) := rfl
    rw [h3] at h1
    linarith
  rw [lane_overhead] at h2
  have h4 := cos_le_one (meanMotion 6771009 * t + (2 * π * i / 42 + 2 * π * p / 2520) + (earthRotation * t - 2 * π * p / 60))
  rw [show (meanMotion 6771009 - earthRotation) * t + (2 * π * i / 42 + 2 * π * p / 2520 + 2 * π * p / 60) =
    meanMotion 6771009 * t + (2 * π * i / 42 + 2 * π * p / 2520) - (earthRotation * t - 2 * π * p / 60) by ring]
  linarith

/-- A satellite that is within the distance is not so again before a period and two seconds are over: the station has moved on. -/
theorem lane_away (hE0 : 0 ≤ E) (hE : 0.993 ≤ (6771009 ^ 2 + 6378137 ^ 2 - E ^ 2) / (2 * 6771009 * 6378137)) (h : gap (lane p i) home now ≤ E)
    (t1 : now + 2 * π / meanMotion 6771009 / 2 - 2 ≤ t) (t2 : t ≤ now + 2 * π / meanMotion 6771009 + 2) : E < gap (lane p i) home t := by
  by_contra hcon
  push Not at hcon
  have h1 := lane_near hE0 hE h
  have h2 := lane_near hE0 hE hcon
  obtain ⟨n1, n2⟩ := motion400
  obtain ⟨T1, T2⟩ := period400
  have p1 := pi_gt_d6
  have p2 := pi_lt_d6
  have hω : earthRotation = 7.292115922e-5 := rfl
  obtain ⟨T, hT⟩ : ∃ T, T = 2 * π / meanMotion 6771009 := ⟨_, rfl⟩
  rw [← hT] at t1 t2 T1 T2
  have hnT : meanMotion 6771009 * T = 2 * π := by rw [hT]; field_simp
  generalize 2 * π * (i : ℝ) / 42 + 2 * π * p / 2520 + 2 * π * p / 60 = φ at *
  generalize meanMotion 6771009 = n at *
  obtain ⟨v, hv⟩ : ∃ v, v = n - earthRotation := ⟨_, rfl⟩
  have v1 : 0.00105 ≤ v := by rw [hv, hω]; linarith
  have v2 : v ≤ 0.00107 := by rw [hv, hω]; linarith
  rw [← hv] at h1 h2
  have hx1 : 2.9 ≤ v * (t - now) := by
    have := mul_le_mul v1 (by linarith : (2767 : ℝ) ≤ t - now) (by norm_num) (by linarith)
    norm_num at this
    linarith
  have hx2 : v * (t - now) ≤ 5.9 := by
    have h3 := mul_le_mul_of_nonneg_left (by linarith : t - now ≤ T + 2) (by linarith : 0 ≤ v)
    have h4 : v * (T + 2) = n * T - earthRotation * T + 2 * v := by rw [hv]; ring
    rw [h4, hnT, hω] at h3
    linarith
  have hlt := cos_lt_of_between (x := v * (t - now)) (θ := 0.35) (by norm_num) (by linarith) (by linarith)
  have h35 : cos 0.35 ≤ 0.945 := by
    have := abs_le.mp (cos_bound (x := 0.35) (by norm_num [abs_of_pos]))
    norm_num [abs_of_pos] at this ⊢
    linarith [this.2]
  have hcos : cos (v * (t - now)) = cos (v * t + φ) * cos (v * now + φ) + sin (v * t + φ) * sin (v * now + φ) := by
    rw [← cos_sub]
    congr 1
    ring
  have s1 := sin_sq_add_cos_sq (v * t + φ)
  have s2 := sin_sq_add_cos_sq (v * now + φ)
  have h5 := mul_le_mul h2 h1 (by norm_num) (by linarith)
  have h6 : (0.99 : ℝ) ^ 2 ≤ cos (v * t + φ) ^ 2 := pow_le_pow_left₀ (by norm_num) h2 2
  have h7 : (0.99 : ℝ) ^ 2 ≤ cos (v * now + φ) ^ 2 := pow_le_pow_left₀ (by norm_num) h1 2
  have h8 := sq_nonneg (sin (v * t + φ) + sin (v * now + φ))
  norm_num at h5 h6 h7
  linarith

/-- The first search for a satellite within the distance, which is further away one period later, gets an answer. -/
def Finds (debug : Bool) (rf : RootFinder) (o : Elements) (ob : Observer) (E T now : ℝ) : Prop :=
  gap o ob now < E → E < gap o ob (now + T) → ∃ r, distanceSolver debug rf o ob E now (now + T) = .ok (some r)

/-- The search for the setting of a visible satellite: it has an answer, at most 26 seconds after the satellite has sunk to 25 degrees. -/
theorem C106_search {debug : Bool} {rf : RootFinder} {x : ℝ} (hrf : Stays rf)
    (hdist : groundDistanceAtElevation (lane p i) (toRadians 25) (length seaside) = .ok E)
    (hfinds : Finds debug rf (lane p i) home E (2 * π / meanMotion 6771009) now) (hx : toRadians 25 < x) (hsee : Sees debug (lane p i) seaside now x) :
    ∃ q τ, findNextCross debug rf (lane p i) home E now = .ok (some q) ∧ now ≤ q ∧ FirstSet debug (lane p i) seaside (toRadians 25) now τ ∧
      τ + 900 < now + 2 * π / meanMotion 6771009 / 2 ∧ q ≤ τ + 26 := by
  obtain ⟨m1, m2⟩ := minimum_range
  have h := lane_equatorial p i
  obtain ⟨E', hE1, hE0, hw, -, hE2, hE3⟩ := distance400 p i
  obtain rfl : E = E' := by
    have := hE1 p i
    rw [hdist] at this
    simpa using this
  have hT := lane_period p i
  have hr : 0 < (lane p i).radius := by unfold lane; norm_num
  have hR : 0 < home.radius := by unfold home; norm_num
  obtain ⟨n1, n2⟩ := motion400
  obtain ⟨T1, T2⟩ := period400
  obtain ⟨hclose, -, τ, hset, hτ900, hlate⟩ := h.settles (ob := home) (seaside_observer debug 0) m1 m2 hdist hT hx hsee
  obtain ⟨σ, s1, s2, hσ, hbefore, hafter⟩ := C82_sets hr hR hE0 hw hT hclose
  obtain ⟨r, hr0⟩ := hfinds hclose (lane_away hE0 hE2 hclose.le (by linarith) (by linarith))
  obtain ⟨T', res, hT', hres, hin, -, hfst⟩ := C51_accepted (debug := debug) hrf hr (ob := home) hE0 now
  rw [hT] at hT'
  simp only [Outcome.ok.injEq] at hT'
  subst hT'
  obtain ⟨q, rfl, -⟩ := hfst r hr0
  obtain ⟨q1, q2, hacc⟩ := hin q rfl
  have hstill : ∀ u, u ≤ now + 2 * π / meanMotion 6771009 + 2 → gap (lane p i) home u < E → u ≤ σ := by
    intro u hu hgap
    by_contra hcon
    push Not at hcon
    rcases le_or_gt u (σ + 2 * π / meanMotion 6771009 / 2) with h3 | h3
    · have := hafter u hcon h3
      linarith
    · have := lane_away hE0 hE2 hclose.le (by linarith : now + 2 * π / meanMotion 6771009 / 2 - 2 ≤ u) hu
      linarith
  have hqσ : q ≤ σ + 1 := by
    rcases hacc with ha | ha
    · linarith [hstill (q - 1) (by linarith) ha]
    · linarith [hstill (q + 1) (by linarith) ha]
  have hfall := hlate σ hσ hbefore 25 (by norm_num) (by
    rw [seaside_length, show (lane p i).radius = 6771009 from rfl]
    have hl : 0.85 ≤ level (lane p i) home E := by
      have hd : drift (lane p i) ≤ 0.14 := by
        have hq : earthRotation / meanMotion 6771009 ≤ 0.0645 := by
          rw [div_le_iff₀ (by linarith), show earthRotation = 7.292115922e-5 from rfl]; linarith
        have hq0 : 0 ≤ earthRotation / meanMotion 6771009 := div_nonneg rotation_pos.le (by linarith)
        unfold drift
        show 2 * (earthRotation / meanMotion 6771009) + (earthRotation / meanMotion 6771009) ^ 2 ≤ 0.14
        nlinarith
      unfold level
      have h3 : ((lane p i).radius ^ 2 + home.radius ^ 2 - E ^ 2) / (2 * (lane p i).radius * home.radius) =
        (6771009 ^ 2 + 6378137 ^ 2 - E ^ 2) / (2 * 6771009 * 6378137) := rfl
      rw [h3]
      linarith
    have h9 : (0.0011329 : ℝ) ^ 2 ≤ meanMotion 6771009 ^ 2 := pow_le_pow_left₀ (by norm_num) n1 2
    have h10 := mul_le_mul h9 hl (by norm_num) (sq_nonneg _)
    rw [show (6771009 : ℝ) - 9 = 6771000 by norm_num]
    norm_num at h10 hE3 ⊢
    linarith)
  exact ⟨q, τ, hres, q1, hset, hτ900, by linarith⟩

/-- GSL's Brent finds an answer if it converges. -/
theorem C106_brent {debug : Bool} {rf : RootFinder} {x : ℝ} (hb : IsBrent (lane p i) home E rf) (h0 : 0 ≤ now) (h7 : now ≤ 604800)
    (hdist : groundDistanceAtElevation (lane p i) (toRadians 25) (length seaside) = .ok E) (hx : toRadians 25 < x)
    (hsee : Sees debug (lane p i) seaside now x) (hc : Converges rf now (now + 2 * π / meanMotion 6771009)) :
    Finds debug rf (lane p i) home E (2 * π / meanMotion 6771009) now := by
  intro _ _
  obtain ⟨m1, m2⟩ := minimum_range
  have h := lane_equatorial p i
  obtain ⟨E', hE1, hE0, hw, -, hE2, -⟩ := distance400 p i
  obtain rfl : E = E' := by
    have := hE1 p i
    rw [hdist] at this
    simpa using this
  have hT := lane_period p i
  have hr : 0 < (lane p i).radius := by unfold lane; norm_num
  have hR : 0 < home.radius := by unfold home; norm_num
  obtain ⟨T1, T2⟩ := period400
  obtain ⟨hclose, hstay, -⟩ := h.settles (ob := home) (seaside_observer debug 0) m1 m2 hdist hT hx hsee
  obtain ⟨σ, s1, s2, hσ, hbefore, hafter⟩ := C82_sets hr hR hE0 hw hT hclose
  have hp : Pass (lane p i) home E now (2 * π / meanMotion 6771009) σ (now + 2 * π / meanMotion 6771009 + 3) := by
    refine ⟨s1, hbefore, ?_, ?_, fun t h1 h2 => by linarith, s2, by linarith⟩
    · intro hsoon t h1 h2
      have hm : gap (lane p i) home (now - 1) < E := by
        rcases hstay with h3 | h3
        · exact h3
        · rcases hsoon.lt_or_eq with h4 | h4
          · have := hafter (now + 2) h4 (by linarith)
            linarith
          · rw [← h4] at h3
            linarith
      rcases h1.lt_or_eq with h3 | h3
      · rcases h2.lt_or_eq with h4 | h4
        · exact C82_no_gap hr hR hE0 hw hT hm.le hclose.le h3 h4 (by linarith)
        · rw [h4]; exact hclose
      · rw [← h3]; exact hm
    · intro t h1 h2 h3
      rcases le_or_gt t (σ + 2 * π / meanMotion 6771009 / 2) with h4 | h4
      · exact hafter t h1 h4
      · exact lane_away hE0 hE2 hclose.le (by linarith) (by linarith)
  obtain ⟨r, h1, -⟩ := first_search (debug := debug) hb hr hE0 (by linarith) (by linarith) h0 hp hc
  exact ⟨r, h1⟩

end Search

/-! ## The program -/

section Program

open Tracker ConstellationHelper

variable {D : Type} {debug : Bool} {e : Endian} {cid : Nat} {ds : List D} {out : List (SatAddress × OrbitElements)} {h : ConstellationHelper D}

theorem launch_adds {h h' : ConstellationHelper D} {d : D} {a : SatAddress} {o : OrbitElements} (hl : h.launch debug e d = .ok (a, o, h')) :
    h.constellation.addSatellite e (fun _ => true) h.planeIndex h.orbitIndex d = .ok (a, h'.constellation) := by
  unfold launch at hl
  split at hl
  · simp at hl
  split at hl
  · simp at hl
  split at hl
  · simp at hl
  dsimp only at hl
  split at hl
  · next a' c hadd =>
    simp only [Outcome.ok.injEq, Prod.mk.injEq] at hl
    obtain ⟨rfl, -, rfl⟩ := hl
    rw [hadd]
    split <;> rfl
  all_goals simp at hl

theorem launchAll_adds {n s ph : Nat} {alt inc : ℚ} (ds : List D) : ∀ (h : ConstellationHelper D) (prev : List D) (out : List (SatAddress × OrbitElements))
    (h' : ConstellationHelper D), HInv cid n s ph alt inc h prev → prev.length + ds.length ≤ n * s → h.launchAll debug e ds = .ok (out, h') →
    h.constellation.addAll e (fun _ => true) (histFrom s prev.length ds) = .ok (out.map (·.1), h'.constellation) := by
  induction ds with
  | nil =>
    intro h prev out h' _ _ hl
    simp only [launchAll, Outcome.ok.injEq, Prod.mk.injEq] at hl
    obtain ⟨rfl, rfl⟩ := hl
    rfl
  | cons d ds ih =>
    intro h prev out h' hi hcap hl
    simp only [List.length_cons] at hcap
    obtain ⟨h1, hl1, hi1⟩ := launch_ok cid n s ph alt inc debug e h prev d hi (by omega)
    simp only [launchAll, hl1] at hl
    have hadd := launch_adds hl1
    rw [hi.plane_eq, hi.orbit_eq] at hadd
    cases hl2 : h1.launchAll debug e ds with
    | ok r =>
      obtain ⟨out2, h2⟩ := r
      rw [hl2] at hl
      simp only [Outcome.ok.injEq, Prod.mk.injEq] at hl
      obtain ⟨rfl, rfl⟩ := hl
      have := ih h1 (prev ++ [d]) out2 h2 hi1 (by simp; omega) hl2
      rw [List.length_append, List.length_singleton] at this
      simp only [histFrom, Constellation.addAll, hadd, this, List.map_cons]
    | ub f => rw [hl2] at hl; simp at hl
    | abort => rw [hl2] at hl; simp at hl
    | assertFail => rw [hl2] at hl; simp at hl

/-- The constellation of the program (examples/elevation-tracker.cc:60-68, 86: `h` is the helper after the launch of all nodes), and what the tracker at the
station reads there: `orb d` is the orbit satellite `d` was launched on, `v` what it is told, with the root finders `rf`. -/
structure Program (debug : Bool) (e : Endian) (fuel cid : Nat) (ds : List D) (h : ConstellationHelper D) (orb : D → Elements) (rf : D → RootFinder)
    (v : Nat → View D ℝ) : Prop where
  all : ds.length = 60 * 42
  launched : ∃ out, (create cid 400000 60 60 42 1).launchAll debug e ds = .ok (out, h) ∧
    ∀ (k : Nat) d a o, ds[k]? = some d → out[k]? = some (a, o) → orb d = o.launched
  told : Told debug (fuel + 1) rf orb seaside (toRadians 25) v
  stays : ∀ d ∈ ds, Stays (rf d)

variable {fuel : Nat} {orb : D → Elements} {rf : D → RootFinder} {v : Nat → View D ℝ}

theorem launched_lane (p i : Nat) : (specElements 60 42 1 400000 60 p i).launched = lane p i := by
  unfold OrbitElements.launched specElements launchSat lane toRadians earthRadius
  push_cast
  congr 1 <;> ring

theorem Program.lanes (hp : Program debug e fuel cid ds h orb rf v) :
    (∃ as, Built e (fun _ => true) cid 60 42 (histFrom 42 0 ds) as h.constellation) ∧ Full 60 42 (histFrom 42 0 ds) ∧
    ∀ p i d, (p, i, d) ∈ histFrom 42 0 ds → d ∈ ds ∧ orb d = lane p i := by
  obtain ⟨out, hl, horb⟩ := hp.launched
  have hlen := hp.all
  refine ⟨⟨_, launchAll_adds ds (create cid 400000 60 60 42 1) [] out h (hinv_create _ _ _ _ _ _) (by simp [hlen]) hl⟩, ?_, ?_⟩
  · intro p i h1 h2
    have hk : p * 42 + i < ds.length := by rw [hlen]; omega
    refine ⟨ds[p * 42 + i], ?_⟩
    have := List.mem_of_getElem? (histFrom_getElem? 42 0 ds (p * 42 + i) ds[p * 42 + i] (List.getElem?_eq_getElem hk))
    rwa [show (0 + (p * 42 + i)) / 42 = p by omega, show (0 + (p * 42 + i)) % 42 = i by omega] at this
  · intro p i d hd
    obtain ⟨k, hk⟩ := List.mem_iff_getElem?.mp hd
    have hkl : k < ds.length := by
      have := (List.getElem?_eq_some_iff.mp hk).1
      rwa [histFrom_length] at this
    have h2 := histFrom_getElem? 42 0 ds k ds[k] (List.getElem?_eq_getElem hkl)
    rw [hk] at h2
    simp only [Option.some.injEq, Prod.mk.injEq, zero_add] at h2
    obtain ⟨rfl, rfl, rfl⟩ := h2
    refine ⟨List.getElem_mem hkl, ?_⟩
    obtain ⟨a, ha⟩ := C10_orbital_elements debug e cid 60 42 1 400000 60 ds out h hl (k / 42) (k % 42) (Nat.mod_lt _ (by norm_num))
      (by have := Nat.div_add_mod k 42; omega)
    rw [show k / 42 * 42 + k % 42 = k by have := Nat.div_add_mod k 42; omega] at ha
    rw [horb k _ _ _ (List.getElem?_eq_getElem hkl) ha]
    exact launched_lane _ _

/-- Each update in the seven days the program simulates finds a satellite above 25 degrees and no assertion fails; the next update comes at most 26 seconds after
that satellite has sunk to 25 degrees. -/
theorem C106_update (hp : Program debug e fuel cid ds h orb rf v) (addr : D → SatAddress) {t : Nat} {E : ℝ}
    (hE : ∀ d ∈ ds, groundDistanceAtElevation (orb d) (toRadians 25) (length seaside) = .ok E)
    (hfinds : ∀ d ∈ ds, Finds debug (rf d) (orb d) home E (2 * π / meanMotion 6771009) (t / 10 ^ 9)) :
    ∃ a delay, elevationFire debug addr true v (toRadians 25) (fun _ => h.constellation) t () = .ok (a, some (delay, ())) ∧
      ∃ d ∈ ds, a = addr d ∧ (∃ x, toRadians 25 < x ∧ Sees debug (orb d) seaside (t / 10 ^ 9) x) ∧
        ∃ τ, FirstSet debug (orb d) seaside (toRadians 25) (t / 10 ^ 9) τ ∧ (t + delay : ℝ) ≤ (τ + 26) * 10 ^ 9 + 1 := by
  obtain ⟨m1, m2⟩ := minimum_range
  obtain ⟨⟨as, hb⟩, hfull, hlane⟩ := hp.lanes
  have hsee : ∀ p i d, (p, i, d) ∈ histFrom 42 0 ds → Sees debug (orb d) seaside (t / 10 ^ 9) (elevationAt (orb d) seaside (t / 10 ^ 9)) := by
    intro p i d hd
    have hq := lane_equatorial p i
    rw [← (hlane p i d hd).2] at hq
    exact sees_elevationAt debug (orb d) seaside (by rw [seaside_length]; norm_num) (by linarith [hq.low, hq.above]) _
  obtain ⟨u1, -⟩ := update_answers (c := fun _ => h.constellation) (t := t) (late := 26) hb hfull addr
    (fun p i d hd => by rw [(hlane p i d hd).2]; exact lane_equatorial p i) m1 m2 (by norm_num) hp.told (fun p i d hd => by
      obtain ⟨hmem, ho⟩ := hlane p i d hd
      refine ⟨home, E, 2 * π / meanMotion 6771009, seaside_observer debug fuel, hE d hmem, by rw [ho]; exact lane_period p i, hp.stays d hmem, fun hup q hq => ?_⟩
      have hs := hsee p i d hd
      have hE' := hE d hmem
      have hf := hfinds d hmem
      rw [ho] at hs hE' hf hq hup ⊢
      obtain ⟨q', τ, h1, -, h3, h4, h5⟩ := C106_search (hp.stays d hmem) hE' hf hup hs
      rw [hq] at h1
      simp only [Outcome.ok.injEq, Option.some.injEq] at h1
      subst h1
      exact ⟨τ, h3, h4, h5⟩)
  -- a satellite over the station
  obtain ⟨p, hp', i, hi', hup⟩ := C106_covered (t / 10 ^ 9)
  obtain ⟨d, hd⟩ := hfull p i hp' hi'
  obtain ⟨hmem, ho⟩ := hlane p i d hd
  have hs := hsee p i d hd
  have hE' := hE d hmem
  have hf := hfinds d hmem
  obtain ⟨b, hb'⟩ : ∃ b, Candidate (v t) (toRadians 25) d b := by
    obtain ⟨res, hres, hm⟩ := hp.told.setting t d
    have he : (v t).elevation d = elevationAt (orb d) seaside (t / 10 ^ 9) := (hp.told.elevation t d).unique hs
    have hfind : ∃ q, tryGetNextTimeAtElevation debug (fuel + 1) (rf d) (some (orb d)) (toRadians 25) (some seaside) (t / 10 ^ 9) = .ok (some q) := by
      rw [ho] at hs hE' hf
      obtain ⟨q, τ, h1, -⟩ := C106_search (hp.stays d hmem) hE' hf hup hs
      exact ⟨q, by rw [ho]; simp [tryGetNextTimeAtElevation, hE', seaside_observer, show (⟨0, 0, 6378137⟩ : Observer) = home from rfl, h1]⟩
    obtain ⟨q, hq⟩ := hfind
    rw [hq] at hres
    simp only [Outcome.ok.injEq] at hres
    subst hres
    obtain ⟨b, hb, -⟩ := hm
    exact ⟨b, by rw [he, ho]; exact hup, hb⟩
  obtain ⟨a, delay, h1, p', i', d', hd', h2, h3, h4⟩ := u1 ⟨p, i, d, b, hd, hb'⟩
  exact ⟨a, delay, h1, d', (hlane p' i' d' hd').1, h2, h3, h4⟩

/-- Seven days, in nanoseconds (examples/elevation-tracker.cc:48, 118). -/
def sevenDays : Nat := 7 * 24 * 3600 * 10 ^ 9

theorem fire_next {addr : D → SatAddress} {minE : ℝ} {c : Nat → Constellation D} {t : Nat} {a : SatAddress} {next : Option (Nat × Unit)}
    (hf : elevationFire debug addr true v minE c t () = .ok (a, next)) : ∃ delay, next = some (delay, ()) := by
  unfold elevationFire at hf
  simp only [Outcome.bind_eq_ok] at hf
  obtain ⟨⟨vis, a', delay⟩, -, h2⟩ := hf
  simp only [Outcome.ok.injEq, Prod.mk.injEq] at h2
  exact ⟨delay, h2.2.symm⟩

/-- Until the simulation is stopped after seven days the tracker never fails: in every state reached its next update is scheduled and, if due before the end, will
be carried out.  From the first update on, the satellite the tracker has chosen is above 25 degrees, or was so at most 26 seconds (and a nanosecond) ago. -/
theorem C106_run (hp : Program debug e fuel cid ds h orb rf v) (addr : D → SatAddress) {E : ℝ}
    (hE : ∀ d ∈ ds, groundDistanceAtElevation (orb d) (toRadians 25) (length seaside) = .ok E)
    (hfinds : ∀ t : Nat, t ≤ sevenDays → ∀ d ∈ ds, Finds debug (rf d) (orb d) home E (2 * π / meanMotion 6771009) (t / 10 ^ 9)) {r : SatAddress}
    {ops : List Op} {s : Sys Unit}
    (hrun : runFrom (step (elevationFire debug addr true v (toRadians 25) (fun _ => h.constellation))) (elevationInit 0 r) ops = some (.ok s))
    (hend : s.clock ≤ sevenDays) :
    ∃ u, s.pending = [(u, ())] ∧ s.clock ≤ u ∧
      (u ≤ sevenDays → ∃ s', step (elevationFire debug addr true v (toRadians 25) (fun _ => h.constellation)) s .run = some (.ok s')) ∧
      (updates s = [] → u = 0) ∧
      ∀ t a, (updates s).getLast? = some (t, a) → ∃ d ∈ ds, a = addr d ∧ (∃ x, toRadians 25 < x ∧ Sees debug (orb d) seaside (t / 10 ^ 9) x) ∧
        ∃ τ, FirstSet debug (orb d) seaside (toRadians 25) (t / 10 ^ 9) τ ∧ (s.clock : ℝ) ≤ (τ + 26) * 10 ^ 9 + 1 := by
  have hstep : ∀ (s : Sys Unit) u, s.pending = [(u, ())] → u ≤ sevenDays →
      ∃ s', step (elevationFire debug addr true v (toRadians 25) (fun _ => h.constellation)) s .run = some (.ok s') := by
    intro s u hu hle
    obtain ⟨a, delay, hf, -⟩ := C106_update hp addr hE (hfinds u hle)
    unfold step
    rw [hu]
    simp [hf]
  suffices hmain : ∃ u, s.pending = [(u, ())] ∧ s.clock ≤ u ∧ (updates s = [] → u = 0) ∧ (s.clock ≤ sevenDays →
      ∀ t a, (updates s).getLast? = some (t, a) → ∃ d ∈ ds, a = addr d ∧ (∃ x, toRadians 25 < x ∧ Sees debug (orb d) seaside (t / 10 ^ 9) x) ∧
        ∃ τ, FirstSet debug (orb d) seaside (toRadians 25) (t / 10 ^ 9) τ ∧ (u : ℝ) ≤ (τ + 26) * 10 ^ 9 + 1) by
    obtain ⟨u, h1, h2, h3, h4⟩ := hmain
    refine ⟨u, h1, h2, hstep s u h1, h3, fun t a hta => ?_⟩
    obtain ⟨d, hd, k1, k2, τ, k3, k4⟩ := h4 hend t a hta
    have : (s.clock : ℝ) ≤ u := by exact_mod_cast h2
    exact ⟨d, hd, k1, k2, τ, k3, by linarith⟩
  clear hend
  revert hrun
  apply run_induction (P := fun _ s => ∃ u, s.pending = [(u, ())] ∧ s.clock ≤ u ∧ (updates s = [] → u = 0) ∧ (s.clock ≤ sevenDays →
      ∀ t a, (updates s).getLast? = some (t, a) → ∃ d ∈ ds, a = addr d ∧ (∃ x, toRadians 25 < x ∧ Sees debug (orb d) seaside (t / 10 ^ 9) x) ∧
        ∃ τ, FirstSet debug (orb d) seaside (toRadians 25) (t / 10 ^ 9) τ ∧ (u : ℝ) ≤ (τ + 26) * 10 ^ 9 + 1))
  · exact ⟨0, rfl, le_refl _, fun _ => rfl, by simp [elevationInit, updates]⟩
  · rintro ops o s s' - ⟨u, p1, p2, p3, p4⟩ hs
    cases o with
    | outside t a =>
      obtain ⟨⟨h1, h2⟩, rfl⟩ := step_outside hs
      have e1 : updates { s with clock := t, remote := a, log := s.log ++ [(t, false, a)] } = updates s := by simp [updates]
      rw [e1]
      exact ⟨u, p1, h2 (u, ()) (by rw [p1]; simp), p3, fun h3 => p4 (by simp only at h3; omega)⟩
    | run =>
      obtain ⟨t, ev, es, a, next, h1, h2, h3, h4, h5, h6⟩ := step_run hs
      rw [p1] at h1
      simp only [List.cons.injEq, Prod.mk.injEq] at h1
      obtain ⟨⟨rfl, -⟩, rfl⟩ := h1
      obtain ⟨delay, rfl⟩ := fire_next h2
      have e1 : updates s' = updates s ++ [(u, a)] := by simp [updates, h5]
      rw [e1]
      refine ⟨u + delay, by rw [h6]; rfl, by rw [h3]; omega, by simp, fun hle t a' hta => ?_⟩
      rw [h3] at hle
      simp only [List.getLast?_append, List.getLast?_singleton, Option.some_or, Option.some.injEq, Prod.mk.injEq] at hta
      obtain ⟨rfl, rfl⟩ := hta
      obtain ⟨a'', delay', hf, d, hd, k1, k2, τ, k3, k4⟩ := C106_update hp addr hE (hfinds u hle)
      rw [h2] at hf
      simp only [Outcome.ok.injEq, Prod.mk.injEq, Option.some.injEq, and_true] at hf
      obtain ⟨rfl, rfl⟩ := hf
      exact ⟨d, hd, k1, k2, τ, k3, by push_cast; exact k4⟩

end Program

/-! ## The hypotheses can be met -/

section Example

open Tracker ConstellationHelper

/-- A root finder that knows the answer: the moment the satellite leaves the distance, if that is in the interval. -/
theorem exact_finder (p i : Nat) {E : ℝ} (hE1 : ∀ p' i', groundDistanceAtElevation (lane p' i') (toRadians 25) (length seaside) = .ok E) (debug : Bool) :
    ∃ rf, Stays rf ∧ ∀ now, 0 ≤ now → Finds debug rf (lane p i) home E (2 * π / meanMotion 6771009) now := by
  classical
  obtain ⟨E', hE2, hE0, hw, -, hE3, -⟩ := distance400 p i
  obtain rfl : E = E' := by
    have := hE1 p i
    rw [hE2] at this
    simpa using this.symm
  have hT := lane_period p i
  have hr : 0 < (lane p i).radius := by unfold lane; norm_num
  have hR : 0 < home.radius := by unfold home; norm_num
  obtain ⟨T1, T2⟩ := period400
  let good : ℝ → ℝ → ℝ → Prop := fun lo hi σ => lo ≤ σ ∧ σ ≤ hi ∧ 0 < σ ∧ Accepted (lane p i) home E σ
  let rf : RootFinder := fun lo hi _ => if hx : ∃ σ, good lo hi σ then ⟨hx.choose, hx.choose, hx.choose⟩ else ⟨lo, lo, lo⟩
  have hstay : Stays rf := by
    intro lo hi k hle
    dsimp only [rf]
    split
    · next hx => exact ⟨hx.choose_spec.1, hx.choose_spec.2.1⟩
    · exact ⟨le_refl _, hle⟩
  refine ⟨rf, hstay, fun now h0 hclose _ => ?_⟩
  obtain ⟨σ, s1, s2, hσ, hbefore, -⟩ := C82_sets hr hR hE0 hw hT hclose
  have hx : ∃ x, good now (now + 2 * π / meanMotion 6771009) x := by
    have hc := (continuous_gap (lane p i) home).tendsto now
    obtain ⟨w, w1, w2, w3⟩ : ∃ w, now < w ∧ w ≤ now + 1 ∧ gap (lane p i) home w < E := by
      rcases le_or_gt σ (now + 1) with h1 | h1
      · exact ⟨(now + σ) / 2, by linarith, by linarith, hbefore _ (by linarith) (by linarith)⟩
      · exact ⟨now + 1 / 2, by linarith, by linarith, hbefore _ (by linarith) (by linarith)⟩
    exact ⟨w + 1, by linarith, by linarith, by linarith, .inl (by rw [add_sub_cancel_right]; exact w3)⟩
  have hrf : rf now (now + 2 * π / meanMotion 6771009) 0 = ⟨hx.choose, hx.choose, hx.choose⟩ := by dsimp only [rf]; rw [dif_pos hx]
  obtain ⟨-, -, hpos, hacc⟩ := hx.choose_spec
  exact ⟨_, (solver_at (debug := debug) (rf := rf) (o := lane p i) (ob := home) (target := E) hr hE0 (lo := now)
    (hi := now + 2 * π / meanMotion 6771009) (j := 0) (by norm_num) (by simp) (by
      rw [hrf]
      simp [testInterval, hpos, hpos.ne']
      norm_num)).1 (by rw [hrf]; exact hacc)⟩

/-- All hypotheses of `C106_run`, with devices that are simply numbered. -/
theorem C106_witness (debug : Bool) : ∃ (h : ConstellationHelper Nat) (orb : Nat → Elements) (rf : Nat → RootFinder) (v : Nat → View Nat ℝ) (E : ℝ),
    Program debug .little 0 1 (List.range (60 * 42)) h orb rf v ∧
    (∀ d ∈ List.range (60 * 42), groundDistanceAtElevation (orb d) (toRadians 25) (length seaside) = .ok E) ∧
    ∀ t : Nat, t ≤ sevenDays → ∀ d ∈ List.range (60 * 42), Finds debug (rf d) (orb d) home E (2 * π / meanMotion 6771009) (t / 10 ^ 9) := by
  obtain ⟨E, hE, hE0, -⟩ := distance400 0 0
  choose rf hstay hfinds using fun d : Nat => exact_finder (d / 42) (d % 42) hE debug
  let orb : Nat → Elements := fun d => lane (d / 42) (d % 42)
  obtain ⟨v, hv, -⟩ := seaside_told debug 0 orb (fun d => by show (6378146 : ℝ) < 6771009; norm_num) rf hstay (fun d => hE _ _) hE0
  obtain ⟨out, h, hl, -⟩ := C08_launch_order debug .little 1 60 42 1 400000 60 (List.range (60 * 42)) (by unfold Fits16; omega) (by simp)
  refine ⟨h, orb, rf, v, E, ⟨by simp, ⟨out, hl, ?_⟩, hv, fun d _ => hstay d⟩, fun d _ => hE _ _, fun t _ d _ => hfinds d _ (by positivity)⟩
  intro k d a o hd ho
  obtain ⟨hk, hd'⟩ := List.getElem?_eq_some_iff.mp hd
  simp only [List.getElem_range] at hd'
  subst hd'
  rw [List.length_range] at hk
  obtain ⟨a', ha⟩ := C10_orbital_elements debug .little 1 60 42 1 400000 60 (List.range (60 * 42)) out h hl (k / 42) (k % 42) (Nat.mod_lt _ (by norm_num))
    (by have := Nat.div_add_mod k 42; rw [List.length_range]; omega)
  rw [show k / 42 * 42 + k % 42 = k by have := Nat.div_add_mod k 42; omega, ho] at ha
  simp only [Option.some.injEq, Prod.mk.injEq] at ha
  rw [ha.2]
  exact (launched_lane _ _).symm

end Example

end Orbit
end Icarus
