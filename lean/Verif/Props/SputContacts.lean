import Verif.Props.Intermittent
import Verif.Props.Sputping

/-!
# Both stations of examples/sputping.cc get contact (C112)

Exact real arithmetic.
-/

set_option autoImplicit false

namespace Icarus
namespace Orbit

open Real

/-- A satellite is at 25 degrees or more if its direction is steep enough. -/
theorem steep {s q : Vec} {L D : ℝ} (hL : length q ≤ L) (hD : length (sub s q) ≤ D) (hpos : 0 < L * D)
    (h : 0.4227 * (L * D) ≤ q.1 * (sub s q).1 + q.2.1 * (sub s q).2.1 + q.2.2 * (sub s q).2.2) : ∃ x, satElevation s q = .ok x ∧ toRadians 25 ≤ x := by
  have hq : q ≠ (0, 0, 0) := by
    rintro rfl
    simp only [zero_mul, add_zero] at h
    linarith
  have hs : s ≠ q := by
    rintro rfl
    simp only [sub, sub_self, mul_zero, add_zero] at h
    linarith
  obtain ⟨x, h1, h2, h3, h4⟩ := C48_sin s q hq hs
  refine ⟨x, h1, ?_⟩
  have p1 := length_pos hq
  have p2 : 0 < length (sub s q) := length_pos (fun h => hs (sub_eq_zero'.mp h))
  have hle : length q * length (sub s q) ≤ L * D := mul_le_mul hL hD p2.le (p1.le.trans hL)
  have h5 : 0.4227 * (length q * length (sub s q)) ≤ sin x * (length q * length (sub s q)) := by
    rw [h4]
    unfold dot
    linarith
  have h6 : 0.4227 ≤ sin x := le_of_mul_le_mul_right h5 (mul_pos p1 p2)
  have q1 := pi_gt_d6
  have q2 := pi_lt_d6
  have hm := (RepoTests.sin_between (x := toRadians 25) (a := 0.4363) (b := 0.43634) (by norm_num) (by unfold toRadians; linarith) (by unfold toRadians; linarith) (by norm_num)).2
  norm_num at hm
  by_contra hlt
  push Not at hlt
  have := sin_lt_sin_of_lt_of_le_pi_div_two h2 (by unfold toRadians; linarith) hlt
  linarith

/-- Where a satellite of the example is, in terms of the angles that remain after full turns. -/
theorem ping_at (debug : Bool) (p : ℕ) {t δ w : ℝ} (k j : ℤ) (hδ : meanMotion 6621009 * t = δ + k * (2 * π)) (hw : 7.292115922e-5 * t = w + π * p + j * (2 * π)) :
    doGetPosition debug (some (specElements 2 1 0 250000 60 p 0).launched) t =
      .ok (6621000 * (cos δ * cos w + sin δ * sin w / 2), 6621000 * (-(cos δ * sin w) + sin δ * cos w / 2), 6621000 * (sin δ * √3 / 2)) := by
  rw [ping_launched]
  have hr : 0 < (⟨π / 3, π * p, 6621009, 0⟩ : Elements).radius := by norm_num
  obtain ⟨q, h1, h2⟩ := C46_rotated debug _ hr t
  rw [C45_position debug _ hr] at h1
  simp only [Outcome.ok.injEq] at h1
  rw [h2, ← h1]
  simp only [add_zero, hδ, hw]
  obtain ⟨W, hW⟩ : ∃ W : ℝ, W = w + π * p + j * (2 * π) := ⟨_, rfl⟩
  have e : w = W - π * p - j * (2 * π) := by rw [hW]; ring
  rw [← hW, e, cos_sub_int_mul_two_pi, sin_sub_int_mul_two_pi, cos_sub, sin_sub]
  simp only [smul, rotZ, circlePoint, rotX, cos_pi_div_three, sin_pi_div_three, cos_neg, sin_neg, cos_add_int_mul_two_pi, sin_add_int_mul_two_pi, Outcome.ok.injEq]
  refine Prod.ext ?_ (Prod.ext ?_ ?_) <;> simp only <;> ring

theorem elsewhere_coordinates : (4714500 ≤ elsewhere.1 ∧ elsewhere.1 ≤ 4717500) ∧ (-3142500 ≤ elsewhere.2.1 ∧ elsewhere.2.1 ≤ -3140000) ∧
    (-2918500 ≤ elsewhere.2.2 ∧ elsewhere.2.2 ≤ -2917000) := by
  have p1 := pi_gt_d6
  have p2 := pi_lt_d6
  obtain ⟨φ, hφ⟩ : ∃ φ, φ = (27.39979 : ℝ) * (π / 180) := ⟨_, rfl⟩
  obtain ⟨l, hl⟩ : ∃ l, l = (33.66416 : ℝ) * (π / 180) := ⟨_, rfl⟩
  obtain ⟨e2, he2⟩ : ∃ e2, e2 = (0.0818191908426215 : ℝ) ^ 2 := ⟨_, rfl⟩
  have e0 : 0.006694 ≤ e2 := by rw [he2]; norm_num
  have e1 : e2 ≤ 0.006695 := by rw [he2]; norm_num
  have sf := RepoTests.sin_between (x := φ) (a := 0.47821) (b := 0.47822) (by norm_num) (by rw [hφ]; linarith) (by rw [hφ]; linarith) (by norm_num)
  have cf := RepoTests.cos_between (x := φ) (a := 0.47821) (b := 0.47822) (by norm_num) (by rw [hφ]; linarith) (by rw [hφ]; linarith) (by norm_num)
  have sl := RepoTests.sin_between (x := l) (a := 0.58754) (b := 0.58756) (by norm_num) (by rw [hl]; linarith) (by rw [hl]; linarith) (by norm_num)
  have cl := RepoTests.cos_between (x := l) (a := 0.58754) (b := 0.58756) (by norm_num) (by rw [hl]; linarith) (by rw [hl]; linarith) (by norm_num)
  have sf' : 0.46018 ≤ sin φ ∧ sin φ ≤ 0.46021 := by norm_num at sf ⊢; constructor <;> linarith [sf.1, sf.2]
  have cf' : 0.88780 ≤ cos φ ∧ cos φ ≤ 0.88784 := by norm_num at cf ⊢; constructor <;> linarith [cf.1, cf.2]
  have sl' : 0.55431 ≤ sin l ∧ sin l ≤ 0.55435 := by norm_num at sl ⊢; constructor <;> linarith [sl.1, sl.2]
  have cl' : 0.83228 ≤ cos l ∧ cos l ≤ 0.83237 := by norm_num at cl ⊢; constructor <;> linarith [cl.1, cl.2]
  obtain ⟨N, hN'⟩ : ∃ N, N = 6378137 / √(1 - e2 * sin φ ^ 2) := ⟨_, rfl⟩
  have q : 0.21176 ≤ sin φ ^ 2 ∧ sin φ ^ 2 ≤ 0.2118 := by constructor <;> nlinarith [sf'.1, sf'.2]
  have m := RepoTests.mul_between (x := e2) (y := sin φ ^ 2) (by norm_num) (by norm_num) ⟨e0, e1⟩ q
  norm_num at m
  have hs1 : 0.99929 ≤ √(1 - e2 * sin φ ^ 2) := le_sqrt_of_sq_le (by norm_num; linarith [m.2])
  have hs2 : √(1 - e2 * sin φ ^ 2) ≤ 0.9993 := (sqrt_le_left (by norm_num)).mpr (by norm_num; linarith [m.1])
  have hN : 6382600 ≤ N ∧ N ≤ 6382670 := by
    rw [hN', le_div_iff₀ (by linarith), div_le_iff₀ (by linarith)]
    constructor <;> linarith
  have hM : 6339800 ≤ (1 - e2) * N + 0 ∧ (1 - e2) * N + 0 ≤ 6340000 := by
    have := RepoTests.mul_between (x := e2) (y := N) (by norm_num) (by norm_num) ⟨e0, e1⟩ hN
    norm_num at this
    constructor <;> linarith [this.1, this.2, hN.1, hN.2]
  have hpos : elsewhere = ((N + 0) * cos (-27.39979 * (π / 180)) * cos (-33.66416 * (π / 180)), (N + 0) * cos (-27.39979 * (π / 180)) * sin (-33.66416 * (π / 180)),
      ((1 - e2) * N + 0) * sin (-27.39979 * (π / 180))) := by
    have hsq : sin φ ^ 2 = sin (-27.39979 * (π / 180)) ^ 2 := by
      rw [hφ, show (-27.39979 : ℝ) * (π / 180) = -(27.39979 * (π / 180)) by ring, sin_neg]
      ring
    rw [hN', hsq, he2]
    rfl
  rw [hpos, show (-33.66416 : ℝ) * (π / 180) = -l by rw [hl]; ring, show (-27.39979 : ℝ) * (π / 180) = -φ by rw [hφ]; ring, cos_neg, sin_neg, cos_neg, sin_neg]
  have hA : 6382600 ≤ N + 0 ∧ N + 0 ≤ 6382670 := by simpa using hN
  have g := RepoTests.mul_between (by norm_num) (by norm_num) hA cf'
  have g1 := RepoTests.mul_between (by norm_num) (by norm_num) g cl'
  have g2 := RepoTests.mul_between (by norm_num) (by norm_num) g sl'
  have g3 := RepoTests.mul_between (by norm_num) (by norm_num) hM sf'
  norm_num at g1 g2 g3
  refine ⟨⟨?_, ?_⟩, ⟨?_, ?_⟩, ⟨?_, ?_⟩⟩ <;> simp only [add_zero] at * <;> linarith [g1.1, g1.2, g2.1, g2.2, g3.1, g3.2]

theorem length_le {v : Vec} {a b c L : ℝ} (h1 : |v.1| ≤ a) (h2 : |v.2.1| ≤ b) (h3 : |v.2.2| ≤ c) (hL : 0 ≤ L) (h : a ^ 2 + b ^ 2 + c ^ 2 ≤ L ^ 2) : length v ≤ L := by
  unfold length
  rw [sqrt_le_left hL]
  have k1 := sq_le_sq' (abs_le.mp h1).1 (abs_le.mp h1).2
  have k2 := sq_le_sq' (abs_le.mp h2).1 (abs_le.mp h2).2
  have k3 := sq_le_sq' (abs_le.mp h3).1 (abs_le.mp h3).2
  linarith

/-- **The other station.**  47811 seconds after the start, on its ninth revolution, the station sees the satellite that it addresses, the second, at 25 degrees or more. -/
theorem C112_elsewhere (debug : Bool) : ∃ x, Sees debug (specElements 2 1 0 250000 60 1 0).launched elsewhere 47811 x ∧ toRadians 25 ≤ x := by
  have hm := RepoTests.motion250
  have p1 := pi_gt_d6
  have p2 := pi_lt_d6
  obtain ⟨δ, hδ⟩ : ∃ δ, δ = 9 * (2 * π) - meanMotion 6621009 * 47811 := ⟨_, rfl⟩
  obtain ⟨w, hw⟩ : ∃ w : ℝ, w = 7.292115922e-5 * 47811 - π := ⟨_, rfl⟩
  have hp := ping_at debug 1 (t := 47811) (δ := -δ) (w := w) 9 0 (by rw [hδ]; push_cast; ring) (by rw [hw]; push_cast; ring)
  rw [cos_neg, sin_neg] at hp
  have sd := RepoTests.sin_between (x := δ) (a := 0.5300) (b := 0.5303) (by norm_num) (by rw [hδ]; linarith [hm.2]) (by rw [hδ]; linarith [hm.1]) (by norm_num)
  have cd := RepoTests.cos_between (x := δ) (a := 0.5300) (b := 0.5303) (by norm_num) (by rw [hδ]; linarith [hm.2]) (by rw [hδ]; linarith [hm.1]) (by norm_num)
  have sw := RepoTests.sin_between (x := w) (a := 0.34483) (b := 0.34485) (by norm_num) (by rw [hw]; norm_num; linarith) (by rw [hw]; norm_num; linarith) (by norm_num)
  have cw := RepoTests.cos_between (x := w) (a := 0.34483) (b := 0.34485) (by norm_num) (by rw [hw]; norm_num; linarith) (by rw [hw]; norm_num; linarith) (by norm_num)
  have sd' : 0.50552 ≤ sin δ ∧ sin δ ≤ 0.5058 := by norm_num at sd ⊢; constructor <;> linarith [sd.1, sd.2]
  have cd' : 0.86265 ≤ cos δ ∧ cos δ ≤ 0.86286 := by norm_num at cd ⊢; constructor <;> linarith [cd.1, cd.2]
  have sw' : 0.33803 ≤ sin w ∧ sin w ≤ 0.33806 := by norm_num at sw ⊢; constructor <;> linarith [sw.1, sw.2]
  have cw' : 0.94112 ≤ cos w ∧ cos w ≤ 0.94114 := by norm_num at cw ⊢; constructor <;> linarith [cw.1, cw.2]
  have h3 : 1.73205 ≤ √3 ∧ √3 ≤ 1.73206 := ⟨le_sqrt_of_sq_le (by norm_num), (sqrt_le_left (by norm_num)).mpr (by norm_num)⟩
  have m1 := RepoTests.mul_between (by norm_num) (by norm_num) cd' cw'
  have m2 := RepoTests.mul_between (by norm_num) (by norm_num) sd' sw'
  have m3 := RepoTests.mul_between (by norm_num) (by norm_num) cd' sw'
  have m4 := RepoTests.mul_between (by norm_num) (by norm_num) sd' cw'
  have m5 := RepoTests.mul_between (by norm_num) (by norm_num) sd' h3
  norm_num at m1 m2 m3 m4 m5
  obtain ⟨⟨a1, a2⟩, ⟨a3, a4⟩, a5, a6⟩ := elsewhere_coordinates
  obtain ⟨s, hs⟩ : ∃ s : Vec, s = (6621000 * (cos δ * cos w + -sin δ * sin w / 2), 6621000 * (-(cos δ * sin w) + -sin δ * cos w / 2), 6621000 * (-sin δ * √3 / 2)) := ⟨_, rfl⟩
  rw [← hs] at hp
  have d1 : 91500 ≤ (sub s elsewhere).1 ∧ (sub s elsewhere).1 ≤ 96700 := by
    rw [hs]
    simp only [sub]
    constructor <;> linarith [m1.1, m1.2, m2.1, m2.2]
  have d2 : -367500 ≤ (sub s elsewhere).2.1 ∧ (sub s elsewhere).2.1 ≤ -363000 := by
    rw [hs]
    simp only [sub]
    constructor <;> linarith [m3.1, m3.2, m4.1, m4.2]
  have d3 : 16500 ≤ (sub s elsewhere).2.2 ∧ (sub s elsewhere).2.2 ≤ 20000 := by
    rw [hs]
    simp only [sub]
    constructor <;> linarith [m5.1, m5.2]
  have c1 : 4714500 * 91500 ≤ elsewhere.1 * (sub s elsewhere).1 := mul_le_mul a1 d1.1 (by norm_num) (by linarith)
  have c2 : 3140000 * 363000 ≤ elsewhere.2.1 * (sub s elsewhere).2.1 := by
    rw [← neg_mul_neg elsewhere.2.1]
    exact mul_le_mul (by linarith) (by linarith [d2.2]) (by norm_num) (by linarith)
  have c3 : -(2918500 * 20000) ≤ elsewhere.2.2 * (sub s elsewhere).2.2 := by
    have := mul_le_mul (show -elsewhere.2.2 ≤ 2918500 by linarith) d3.2 (by linarith [d3.1]) (by norm_num)
    linarith
  obtain ⟨x, h1, h2⟩ := steep (s := s) (q := elsewhere) (L := 6376000) (D := 381000)
    (length_le (a := 4717500) (b := 3142500) (c := 2918500) (by rw [abs_le]; constructor <;> linarith) (by rw [abs_le]; constructor <;> linarith)
      (by rw [abs_le]; constructor <;> linarith) (by norm_num) (by norm_num))
    (length_le (a := 96700) (b := 367500) (c := 20000) (by rw [abs_le]; constructor <;> linarith [d1.1, d1.2]) (by rw [abs_le]; constructor <;> linarith [d2.1, d2.2])
      (by rw [abs_le]; constructor <;> linarith [d3.1, d3.2]) (by norm_num) (by norm_num))
    (by norm_num) (by norm_num at c1 c2 c3 ⊢; linarith)
  exact ⟨x, ⟨s, hp, h1⟩, h2⟩

/-- **The school.**  97330 seconds after the start, on its nineteenth revolution, the school sees the first satellite at 25 degrees or more. -/
theorem C112_school (debug : Bool) : ∃ x, Sees debug (specElements 2 1 0 250000 60 0 0).launched school 97330 x ∧ toRadians 25 ≤ x := by
  have hm := RepoTests.motion250
  have p1 := pi_gt_d6
  have p2 := pi_lt_d6
  obtain ⟨δ, hδ⟩ : ∃ δ, δ = meanMotion 6621009 * 97330 - 18 * (2 * π) := ⟨_, rfl⟩
  obtain ⟨w, hw⟩ : ∃ w : ℝ, w = 7.292115922e-5 * 97330 - 2 * π := ⟨_, rfl⟩
  have hp := ping_at debug 0 (t := 97330) (δ := δ) (w := w) 18 1 (by rw [hδ]; push_cast; ring) (by rw [hw]; push_cast; ring)
  have sd := RepoTests.sin_between (x := δ) (a := 0.9407) (b := 0.9411) (by norm_num) (by rw [hδ]; linarith [hm.1]) (by rw [hδ]; linarith [hm.2]) (by norm_num)
  have cd := RepoTests.cos_between (x := δ) (a := 0.9407) (b := 0.9411) (by norm_num) (by rw [hδ]; linarith [hm.1]) (by rw [hδ]; linarith [hm.2]) (by norm_num)
  have sw := RepoTests.sin_between (x := w) (a := 0.81422) (b := 0.81424) (by norm_num) (by rw [hw]; norm_num; linarith) (by rw [hw]; norm_num; linarith) (by norm_num)
  have cw := RepoTests.cos_between (x := w) (a := 0.81422) (b := 0.81424) (by norm_num) (by rw [hw]; norm_num; linarith) (by rw [hw]; norm_num; linarith) (by norm_num)
  have sd' : 0.8077 ≤ sin δ ∧ sin δ ≤ 0.8084 := by norm_num at sd ⊢; constructor <;> linarith [sd.1, sd.2]
  have cd' : 0.5888 ≤ cos δ ∧ cos δ ≤ 0.5902 := by norm_num at cd ⊢; constructor <;> linarith [cd.1, cd.2]
  have sw' : 0.7271 ≤ sin w ∧ sin w ≤ 0.7273 := by norm_num at sw ⊢; constructor <;> linarith [sw.1, sw.2]
  have cw' : 0.6864 ≤ cos w ∧ cos w ≤ 0.6869 := by norm_num at cw ⊢; constructor <;> linarith [cw.1, cw.2]
  have h3 : 1.73205 ≤ √3 ∧ √3 ≤ 1.73206 := ⟨le_sqrt_of_sq_le (by norm_num), (sqrt_le_left (by norm_num)).mpr (by norm_num)⟩
  have m1 := RepoTests.mul_between (by norm_num) (by norm_num) cd' cw'
  have m2 := RepoTests.mul_between (by norm_num) (by norm_num) sd' sw'
  have m3 := RepoTests.mul_between (by norm_num) (by norm_num) cd' sw'
  have m4 := RepoTests.mul_between (by norm_num) (by norm_num) sd' cw'
  have m5 := RepoTests.mul_between (by norm_num) (by norm_num) sd' h3
  norm_num at m1 m2 m3 m4 m5
  obtain ⟨⟨a1, a2⟩, ⟨a3, a4⟩, a5, a6⟩ := Intermittent.school_coordinates
  obtain ⟨s, hs⟩ : ∃ s : Vec, s = (6621000 * (cos δ * cos w + sin δ * sin w / 2), 6621000 * (-(cos δ * sin w) + sin δ * cos w / 2), 6621000 * (sin δ * √3 / 2)) := ⟨_, rfl⟩
  rw [← hs] at hp
  have d1 : -64500 ≤ (sub s school).1 ∧ (sub s school).1 ≤ -48900 := by
    rw [hs]
    simp only [sub]
    constructor <;> linarith [m1.1, m1.2, m2.1, m2.2]
  have d2 : -294000 ≤ (sub s school).2.1 ∧ (sub s school).2.1 ≤ -279000 := by
    rw [hs]
    simp only [sub]
    constructor <;> linarith [m3.1, m3.2, m4.1, m4.2]
  have d3 : 369500 ≤ (sub s school).2.2 ∧ (sub s school).2.2 ≤ 377500 := by
    rw [hs]
    simp only [sub]
    constructor <;> linarith [m5.1, m5.2]
  have c1 : -(4682400 * 64500) ≤ school.1 * (sub s school).1 := by
    have := mul_le_mul a2 (show -(sub s school).1 ≤ 64500 by linarith [d1.1]) (by linarith [d1.2]) (by norm_num)
    linarith
  have c2 : 714900 * 279000 ≤ school.2.1 * (sub s school).2.1 := by
    rw [← neg_mul_neg school.2.1]
    exact mul_le_mul (by linarith) (by linarith [d2.2]) (by norm_num) (by linarith)
  have c3 : 4259300 * 369500 ≤ school.2.2 * (sub s school).2.2 := mul_le_mul a5 d3.1 (by norm_num) (by linarith)
  obtain ⟨x, h1, h2⟩ := steep (s := s) (q := school) (L := 6396700) (D := 483000)
    (length_le (a := 4682400) (b := 715600) (c := 4260800) (by rw [abs_le]; constructor <;> linarith) (by rw [abs_le]; constructor <;> linarith)
      (by rw [abs_le]; constructor <;> linarith) (by norm_num) (by norm_num))
    (length_le (a := 64500) (b := 294000) (c := 377500) (by rw [abs_le]; constructor <;> linarith [d1.1, d1.2]) (by rw [abs_le]; constructor <;> linarith [d2.1, d2.2])
      (by rw [abs_le]; constructor <;> linarith [d3.1, d3.2]) (by norm_num) (by norm_num))
    (by norm_num) (by norm_num at c1 c2 c3 ⊢; linarith)
  exact ⟨x, ⟨s, hp, h1⟩, h2⟩

end Orbit

namespace TrackedNet
open SuccessModel
open Network (Net World Setup)
open Orbit (Vec Elements doGetPosition school elsewhere Sees)

variable {D G E V W P R : Type} [DecidableEq E] {debug : Bool} {hist : List (Nat × Nat × D)} {as : List SatAddress} {orb : D → Elements} {q : G → Vec}

omit [DecidableEq E] in
/-- **Both stations get contact.**  97330 seconds after the start the school has contact to the satellite launched first, 47811 seconds after the start the other station has contact to
the one launched second: the satellites that they address (examples/sputping.cc:110-113). -/
theorem C112_contact {net : Net D G E V W P R} {cid : Nat} {ds : List D} (hp : Sput debug cid ds orb q net) (g : G) (d : D) :
    (ds[0]? = some d → q g = school → Contact debug orb q (setMinimumElevation 25) (97330 * 10 ^ 9) g d) ∧
    (ds[1]? = some d → q g = elsewhere → Contact debug orb q (setMinimumElevation 25) (47811 * 10 ^ 9) g d) := by
  obtain ⟨out, h, hl, -, horb⟩ := hp.launched
  have horbit : ∀ k : Nat, ds[k]? = some d → orb d = (specElements 2 1 0 250000 60 k 0).launched := by
    intro k hk
    have hkl := (List.getElem?_eq_some_iff.mp hk).1
    obtain ⟨a, ha⟩ := C10_orbital_elements debug net.endian cid 2 1 0 250000 60 ds out h hl k 0 (by norm_num) (by omega)
    rw [mul_one, add_zero] at ha
    exact horb k d a _ hk ha
  unfold Contact
  constructor
  · intro hk e
    rw [horbit 0 hk, e, show (((97330 * 10 ^ 9 : Nat) : ℝ)) / 10 ^ 9 = 97330 by push_cast; norm_num]
    exact Orbit.C112_school debug
  · intro hk e
    rw [horbit 1 hk, e, show (((47811 * 10 ^ 9 : Nat) : ℝ)) / 10 ^ 9 = 47811 by push_cast; norm_num]
    exact Orbit.C112_elsewhere debug

/-- **The channel lets frames through then**, whatever else the network does. -/
theorem C112_open {net : Net D G E V W P R} {w : World D G E W} {peer : E → E} (hs : Setup net w peer hist as) {cid : Nat} {ds : List D} (hp : Sput debug cid ds orb q net)
    (g : G) (d : D) : (ds[0]? = some d → q g = school → w.ground.admit (97330 * 10 ^ 9) g d = true) ∧ (ds[1]? = some d → q g = elsewhere → w.ground.admit (47811 * 10 ^ 9) g d = true) :=
  ⟨fun h e => (contact_open hs hp.link _ _ _).mpr ((C112_contact hp g d).1 h e), fun h e => (contact_open hs hp.link _ _ _).mpr ((C112_contact hp g d).2 h e)⟩

/-- **What is sent then arrives.**  With pass-through receivers: once nothing is left to do, every packet that a station of the example has put on the air for its satellite at that second has been
passed up there, after the time to propagate and the duration of the frame. -/
theorem C112_received [Fintype G] [Fintype D] [Fintype E] [DecidableEq G] [DecidableEq D] {net : Net D G E V W P (NoneMac.Sys P)} (hrx : net.rx = Uplink.noneReceiver P)
    {w : World D G E W} {peer : E → E} (hs : Setup net w peer hist as) {cid : Nat} {ds : List D} (hp : Sput debug cid ds orb q net)
    {ops : List (Network.Op D G E W)} (hl : Network.Launched net hist as ops) {s : Network.Sys D G E W (NoneMac.Sys P)} (h : Network.exec net ops = some (.ok s)) (hq : Network.Quiet net s)
    {g : G} {d : D} {k : Nat} {x : GroundSta.Entry W} (hk : (k, x) ∈ (s.up.stations g).aired) (hd : Uplink.target hist as x.dst = some d)
    (hthen : (k = 97330 * 10 ^ 9 ∧ ds[0]? = some d ∧ q g = school) ∨ (k = 47811 * 10 ^ 9 ∧ ds[1]? = some d ∧ q g = elsewhere)) :
    Network.FromGround net s d (k + w.ground.delay k g d + x.len) x.pkt := by
  have hadm : w.ground.admit k g d = true := by
    rcases hthen with ⟨rfl, h1, h2⟩ | ⟨rfl, h1, h2⟩
    · exact (C112_open hs hp g d).1 h1 h2
    · exact (C112_open hs hp g d).2 h1 h2
  obtain ⟨h1, -, -⟩ := Network.C73_parts h
  obtain ⟨-, q2, q3⟩ := hq.1
  obtain ⟨hasOrbit, cid, n, m, k', hb, hfit, hkk⟩ := hs.built
  have hflights := (Uplink.account hb hfit hkk hs.sky hl.up h1).flights
  have hland : Uplink.lands net.up.addr w.ground (Uplink.target hist as) g (k, x) =
      some (k + w.ground.delay k g d, d, ⟨x.pkt, x.len, net.addr g, x.proto, w.ground.power k g d x.power⟩) := by
    unfold Uplink.lands
    rw [hd]
    simp only [hadm, if_true]
    rfl
  have hmem : (k + w.ground.delay k g d, d, (⟨x.pkt, x.len, net.addr g, x.proto, w.ground.power k g d x.power⟩ : Uplink.Flight W)) ∈
      (↑s.up.heard + ↑s.up.flying : Multiset (Nat × D × Uplink.Flight W)) := by
    rw [hflights, Multiset.mem_sum]
    exact ⟨g, Finset.mem_univ _, Multiset.mem_coe.mpr (List.mem_filterMap.mpr ⟨_, hk, hland⟩)⟩
  rw [q2, Multiset.coe_nil, add_zero] at hmem
  obtain ⟨i, hi⟩ := List.getElem?_of_mem (Multiset.mem_coe.mp hmem)
  obtain ⟨rops, r1, r2⟩ := Uplink.C55_receiver h1 d
  have e : net.up.rx = Uplink.noneReceiver P := hrx
  rw [e, Uplink.none_run, Option.map_eq_some_iff] at r1
  obtain ⟨r, r1, e'⟩ := r1
  simp only [Outcome.ok.injEq] at e'
  subst e'
  have hfr : (⟨i, k + w.ground.delay k g d, x.len, net.toP (w.ground.power k g d x.power)⟩ : Aloha.Frame P) ∈ Aloha.frames rops := by
    rw [r2]
    refine Uplink.mem_framesAt.mpr ⟨(_, i), List.mem_zipIdx_iff_getElem?.mpr hi, rfl, ?_⟩
    rw [e]
    rfl
  have hdel := (C27_receive r1).1.symm.subset (List.mem_map.mpr ⟨_, hfr, rfl⟩)
  simp only [Aloha.Frame.fin] at hdel
  rcases List.mem_append.mp hdel with h5 | h5
  · refine ⟨i, i, _, _, ?_, hi, ?_, rfl⟩
    · rw [hrx]; exact h5
    · rw [hrx]; rfl
  · exfalso
    obtain ⟨f, hf, -⟩ := List.mem_map.mp h5
    have := q3 d
    rw [e] at this
    have hm : f.fin ∈ (Uplink.noneReceiver P).due (s.up.sats d) := List.mem_map.mpr ⟨f, hf, rfl⟩
    rw [this] at hm
    simp at hm

/-- **Packets arrive in the example.**  There is a simulation of the program's network in which the other station accepts a packet 47811 seconds after the start and the school one 97330 seconds
after it; both satellites pass them up. -/
theorem C112_witness : ∃ (ops : List (Network.Op (Fin 2) (Fin 2) (Fin 0) Int)) (s : Network.Sys (Fin 2) (Fin 2) (Fin 0) Int (NoneMac.Sys Int)),
    Setup sputNet sputWorld (fun e => e) sputHist sputAddrs ∧ Sput true 1 [0, 1] sputOrbit sputPlace sputNet ∧ Network.Launched sputNet sputHist sputAddrs ops ∧
    Network.exec sputNet ops = some (.ok s) ∧ ops.filter (fun o => !o.internal) = [.send 1 47811000000000 12 10 7, .send 0 97330000000000 11 10 7] ∧ Network.Quiet sputNet s ∧
    (∃ t, Network.FromGround sputNet s 0 t 11) ∧ ∃ t, Network.FromGround sputNet s 1 t 12 := by
  obtain ⟨ops, s, h1, h2, h3, h4, h5, -, -⟩ := Network.C97_traffic sputRunnable (calls := [.send 1 47811000000000 12 10 7, .send 0 97330000000000 11 10 7])
    ⟨by show ∀ g : Fin 2, (Uplink.target sputHist sputAddrs (SatAddress.mk3 .big 1 (UInt16.ofNat g.val) 0)).isSome
        decide, by simp⟩ (by simp [Network.Op.internal]) (by simp [Network.Op.when])
  obtain ⟨r1, -, -⟩ := Network.C73_parts h1
  have ha : ∀ g : Fin 2, (s.up.stations g).aired = [(if g = 0 then 97330000000000 else 47811000000000, ⟨11 + g.val, 10, SatAddress.mk3 .big 1 (UInt16.ofNat g.val) 0, 7, 30⟩)] := by
    intro g
    obtain ⟨s', e1, -, e3, -⟩ := C34_refines (mac := sputNet.mac g) noneMac_once (Uplink.C55_station r1 g)
    simp only [Outcome.ok.injEq] at e1
    subst e1
    rw [e3 (h4.1.1 g), h5 g (fun _ _ => rfl)]
    fin_cases g <;> rfl
  refine ⟨ops, s, sputSetup, sputSput, h3, h1, h2, h4, ⟨_, C112_received rfl sputSetup sputSput h3 h1 h4 (g := 0) (d := 0) (x := ⟨11, 10, SatAddress.mk3 .big 1 0 0, 7, 30⟩)
    (by rw [ha]; exact List.mem_singleton.mpr rfl) (by decide) (.inl ⟨by norm_num, rfl, by simp [sputPlace]⟩)⟩,
    ⟨_, C112_received rfl sputSetup sputSput h3 h1 h4 (g := 1) (d := 1) (x := ⟨12, 10, SatAddress.mk3 .big 1 1 0, 7, 30⟩)
    (by rw [ha]; exact List.mem_singleton.mpr rfl) (by decide) (.inr ⟨by norm_num, rfl, by simp [sputPlace]⟩)⟩⟩

end TrackedNet
end Icarus
