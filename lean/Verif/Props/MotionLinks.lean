import Verif.Props.Motion
import Verif.Props.Uplink
import Verif.Props.Downlink
import Verif.Props.IslNet
import Verif.Props.SatAddress

/-!
# Order and spacing of frames between moving ends (C90)
-/

set_option autoImplicit false

namespace Icarus

/-! ## Delays -/

namespace Orbit

open Real

/-- A conversion of real numbers of nanoseconds to whole ones: truncation, rounding to nearest and the like. -/
structure Ticks (rnd : ℝ → ℤ) : Prop where
  mono : ∀ x y, x ≤ y → rnd x ≤ rnd y
  shift : ∀ (x : ℝ) (n : ℤ), rnd (x + n) = rnd x + n
  zero : rnd 0 = 0

example : Ticks (fun x => ⌊x⌋) := ⟨fun _ _ h => Int.floor_le_floor h, fun x n => Int.floor_add_intCast x n, by simp⟩
example : Ticks round := ⟨fun x y h => by rw [round_eq, round_eq]; exact Int.floor_le_floor (by linarith), fun x n => round_add_intCast x n, by simp⟩

theorem Place.speed_nonneg {p : Place} (hp : p.Proper) : 0 ≤ p.speed := by
  cases p with
  | fixed q => simp [Place.speed]
  | sat o =>
    have : 0 ≤ o.radius - 9 := by have : 9 ≤ o.radius := hp; linarith
    simp only [Place.speed]
    positivity

/-- **Spacing.**  Two frames that start `u - t` apart at one end begin to arrive at the other end, a moving one, with the same distance in time but for a share of
`(speed + speed) / c` and less than one tick of rounding; and they never begin to arrive in the other order. -/
theorem C90_spacing (debug : Bool) {rnd : ℝ → ℤ} (hrnd : Ticks rnd) (a b : Place) (ha : a.Proper) (hb : b.Proper) {β : ℝ}
    (hβ : (a.speed + b.speed) / 299792458 ≤ β) {t u : ℕ} (htu : t ≤ u) :
    ∃ d e, linkDelay debug rnd a b t = .ok d ∧ linkDelay debug rnd a b u = .ok e ∧
      |((u : ℝ) + e - (t + d)) - (u - t)| < β * (u - t) + 1 ∧ (β ≤ 1 → t + d ≤ u + e) := by
  obtain ⟨p, p', h1, h2, h3⟩ := C89_speed debug a ha t u
  obtain ⟨q, q', h4, h5, h6⟩ := C89_speed debug b hb t u
  refine ⟨propDelay rnd p q, propDelay rnd p' q', ?_, ?_, ?_⟩
  · simp [linkDelay, h1, h4]
  · simp [linkDelay, h2, h5]
  have htu' : (t : ℝ) ≤ u := by exact_mod_cast htu
  have habs : |(t : ℝ) - u| = u - t := by rw [abs_sub_comm, abs_of_nonneg (by linarith)]
  rw [habs] at h3 h6
  obtain ⟨x, hx⟩ : ∃ x, x = distance p q / 299792458 * 10 ^ 9 := ⟨_, rfl⟩
  obtain ⟨y, hy⟩ : ∃ y, y = distance p' q' / 299792458 * 10 ^ 9 := ⟨_, rfl⟩
  have hx0 : 0 ≤ x := by rw [hx]; have := distance_nonneg p q; positivity
  have hy0 : 0 ≤ y := by rw [hy]; have := distance_nonneg p' q'; positivity
  have hβ0 : 0 ≤ β := le_trans (div_nonneg (add_nonneg (Place.speed_nonneg ha) (Place.speed_nonneg hb)) (by norm_num)) hβ
  have hxy : |y - x| ≤ β * (u - t) := by
    have h7 := distance_lipschitz p q p' q'
    rw [abs_sub_comm] at h7
    have e1 : y - x = (distance p' q' - distance p q) * (10 ^ 9 / 299792458) := by rw [hx, hy]; ring
    rw [e1, abs_mul, abs_of_pos (by positivity : (0 : ℝ) < 10 ^ 9 / 299792458)]
    calc |distance p' q' - distance p q| * (10 ^ 9 / 299792458) ≤ ((a.speed + b.speed) * (u - t) / 10 ^ 9) * (10 ^ 9 / 299792458) := by
          gcongr
          calc _ ≤ _ := h7
            _ ≤ a.speed * (u - t) / 10 ^ 9 + b.speed * (u - t) / 10 ^ 9 := add_le_add h3 h6
            _ = _ := by ring
      _ = (a.speed + b.speed) / 299792458 * (u - t) := by ring
      _ ≤ β * (u - t) := by gcongr
  have n1 : ∀ z, 0 ≤ z → 0 ≤ rnd z := fun z hz => by have := hrnd.mono 0 z hz; rwa [hrnd.zero] at this
  have c1 : ((propDelay rnd p q : ℕ) : ℤ) = rnd x := by rw [propDelay, ← hx]; exact Int.toNat_of_nonneg (n1 x hx0)
  have c2 : ((propDelay rnd p' q' : ℕ) : ℤ) = rnd y := by rw [propDelay, ← hy]; exact Int.toNat_of_nonneg (n1 y hy0)
  have c1' : ((propDelay rnd p q : ℕ) : ℝ) = rnd x := by rw [← c1]; simp
  have c2' : ((propDelay rnd p' q' : ℕ) : ℝ) = rnd y := by rw [← c2]; simp
  rw [abs_le] at hxy
  have near : ∀ z w δ : ℝ, w - z ≤ δ → (rnd w : ℝ) - rnd z < δ + 1 := by
    intro z w δ h
    have h1 : rnd w ≤ rnd z + ⌈δ⌉ := by
      rw [← hrnd.shift]
      exact hrnd.mono _ _ (by have := Int.le_ceil δ; linarith)
    have h2 : (rnd w : ℝ) ≤ rnd z + ⌈δ⌉ := by exact_mod_cast h1
    have h3 := Int.ceil_lt_add_one δ
    linarith
  constructor
  · rw [c1', c2', abs_lt]
    have r1 := near x y (β * (u - t)) hxy.2
    have r2 := near y x (β * (u - t)) (by linarith [hxy.1])
    constructor <;> linarith
  · intro hβ1
    have h8 : rnd (x + (t : ℤ)) ≤ rnd (y + (u : ℤ)) := by
      apply hrnd.mono
      push_cast
      have : β * (u - t) ≤ 1 * (u - t) := by gcongr
      linarith [hxy.1]
    rw [hrnd.shift, hrnd.shift, ← c1, ← c2] at h8
    omega

/-- **Guard.**  Frames that start at least `gap` apart do not overlap at the other end if they are short enough: a share of `β` of the gap and one tick must be left. -/
theorem C90_guard (debug : Bool) {rnd : ℝ → ℤ} (hrnd : Ticks rnd) (a b : Place) (ha : a.Proper) (hb : b.Proper) {β : ℝ}
    (hβ : (a.speed + b.speed) / 299792458 ≤ β) (hβ1 : β ≤ 1) {t u gap len : ℕ} (htu : t + gap ≤ u) (hlen : len + 1 ≤ (1 - β) * gap) :
    ∃ d e, linkDelay debug rnd a b t = .ok d ∧ linkDelay debug rnd a b u = .ok e ∧ t + d + len < u + e := by
  obtain ⟨d, e, h1, h2, h3, -⟩ := C90_spacing debug hrnd a b ha hb hβ (show t ≤ u by omega)
  refine ⟨d, e, h1, h2, ?_⟩
  rw [abs_lt] at h3
  have h4 : (t : ℝ) + gap ≤ u := by exact_mod_cast htu
  have h5 : (1 - β) * gap ≤ (1 - β) * (u - t) := mul_le_mul_of_nonneg_left (by linarith) (by linarith)
  have : (t : ℝ) + d + len < u + e := by nlinarith [h3.1]
  exact_mod_cast this

/-- What one might expect of frames sent one right after the other to a satellite above the horizon: that they do not overlap. -/
def C90_gapless_claim : Prop :=
  ∀ (debug : Bool) (rnd : ℝ → ℤ), Ticks rnd → ∀ (g : Vec) (o : Elements), 9 ≤ o.radius → ∀ t len : ℕ,
    (∀ p, (Place.sat o).position debug t = .ok p → 0 < dot g (sub p g)) →
    ∃ d e, linkDelay debug rnd (.fixed g) (.sat o) t = .ok d ∧ linkDelay debug rnd (.fixed g) (.sat o) (t + len) = .ok e ∧
      t + d + len ≤ t + len + e

/-- A satellite that approaches: the second frame is nearer when it is sent and arrives before the first one has ended. -/
theorem C90_gapless_claim_false : ¬ C90_gapless_claim := by
  intro h
  obtain ⟨R, hR⟩ : ∃ R : ℝ, R = 6371000 := ⟨_, rfl⟩
  have hR0 : 0 < R := by rw [hR]; norm_num
  have e0 := equatorial false (4 * R + 9) (-(π / 3)) (by linarith) 0
  have e1 := equatorial false (4 * R + 9) (-(π / 3)) (by linarith) 1000000000
  obtain ⟨δ, hδ⟩ : ∃ δ, δ = meanMotion (4 * R + 9) - 7.292115922e-5 := ⟨_, rfl⟩
  rw [← hδ] at e0 e1
  have c0 : cos (δ * ((0 : ℕ) / 10 ^ 9) + -(π / 3)) = 1 / 2 := by
    rw [Nat.cast_zero, zero_div, mul_zero, zero_add, cos_neg, cos_pi_div_three]
  have s0 : sin (δ * ((0 : ℕ) / 10 ^ 9) + -(π / 3)) = -(√3 / 2) := by
    rw [Nat.cast_zero, zero_div, mul_zero, zero_add, sin_neg, sin_pi_div_three]
  have a1 : δ * ((1000000000 : ℕ) / 10 ^ 9) + -(π / 3) = δ - π / 3 := by norm_num; ring
  rw [c0, s0] at e0
  rw [a1] at e1
  have h3 : √3 * √3 = 3 := Real.mul_self_sqrt (by norm_num)
  have h30 : 0 ≤ √3 := Real.sqrt_nonneg 3
  have n1 : 1.5e-4 ≤ meanMotion (4 * R + 9) := by
    apply Real.le_sqrt_of_sq_le; rw [hR]; norm_num
  have n2 : meanMotion (4 * R + 9) ≤ 1.6e-4 := by
    rw [meanMotion, Real.sqrt_le_left (by norm_num), hR]; norm_num
  have d1 : 7.7e-5 ≤ δ := by rw [hδ]; norm_num at n1 ⊢; linarith
  have d2 : δ ≤ 8.8e-5 := by rw [hδ]; norm_num at n2 ⊢; linarith
  have hc : 1 / 2 + 5e-5 ≤ cos (δ - π / 3) := by
    rw [cos_sub, cos_pi_div_three, sin_pi_div_three]
    have k1 := Real.one_sub_sq_div_two_le_cos (x := δ)
    have k2 := Real.sin_gt_sub_cube (x := δ) (by linarith)
    have k3 : 1.7 ≤ √3 := Real.le_sqrt_of_sq_le (by norm_num)
    have k4 : δ ^ 2 ≤ (8.8e-5) ^ 2 := pow_le_pow_left₀ (by linarith) d2 2
    have k5 : δ ^ 3 ≤ (8.8e-5) ^ 3 := pow_le_pow_left₀ (by linarith) d2 3
    have k6 : 7e-5 ≤ sin δ := by norm_num at k5 d1 ⊢; linarith
    have k7 : 7e-5 * (1.7 / 2) ≤ sin δ * (√3 / 2) := mul_le_mul k6 (by linarith) (by norm_num) (by linarith)
    norm_num at k7 k4 ⊢
    linarith
  obtain ⟨d, e, h1, h2, h4⟩ := h false (fun x => ⌊x⌋) ⟨fun _ _ h => Int.floor_le_floor h, fun x n => Int.floor_add_intCast x n, by simp⟩
    (R, 0, 0) ⟨0, 0, 4 * R + 9, -(π / 3)⟩ (by simp only; linarith) 0 1000000000 (by
      intro p hp
      rw [e0] at hp
      simp only [Outcome.ok.injEq] at hp
      subst hp
      simp only [dot, sub]
      nlinarith)
  rw [linkDelay, e0] at h1
  rw [Nat.zero_add, linkDelay, e1] at h2
  simp only [Place.position, Outcome.bind_ok, Outcome.ok.injEq] at h1 h2
  obtain ⟨x, hx⟩ : ∃ x, x = distance (R, 0, 0) ((4 * R + 9 - 9) * (1 / 2), (4 * R + 9 - 9) * -(√3 / 2), 0) := ⟨_, rfl⟩
  obtain ⟨y, hy⟩ : ∃ y, y = distance (R, 0, 0) ((4 * R + 9 - 9) * cos (δ - π / 3), (4 * R + 9 - 9) * sin (δ - π / 3), 0) := ⟨_, rfl⟩
  have hx2 : x ^ 2 = 13 * R ^ 2 := by
    rw [hx, distance, length, sub, Real.sq_sqrt (by positivity)]
    nlinarith
  have hy2 : y ^ 2 ≤ (13 - 4e-4) * R ^ 2 := by
    rw [hy, distance, length, sub, Real.sq_sqrt (by positivity)]
    have := sin_sq_add_cos_sq (δ - π / 3)
    have : 0 < R ^ 2 := by positivity
    nlinarith
  have hx0 : 0 ≤ x := by rw [hx]; exact distance_nonneg _ _
  have hy0 : 0 ≤ y := by rw [hy]; exact distance_nonneg _ _
  have hxy : y ≤ x - 1 := by
    by_contra hn
    push Not at hn
    have : x ≤ 4 * R := by nlinarith
    have : (x - 1) ^ 2 ≤ y ^ 2 := pow_le_pow_left₀ (by nlinarith) hn.le 2
    rw [hR] at *
    nlinarith
  simp only [propDelay] at h1 h2
  rw [← hx] at h1
  rw [← hy] at h2
  have f1 : 0 ≤ ⌊y / 299792458 * 10 ^ 9⌋ := Int.floor_nonneg.mpr (by positivity)
  have f2 : ⌊y / 299792458 * 10 ^ 9⌋ + 1 ≤ ⌊x / 299792458 * 10 ^ 9⌋ := by
    rw [Int.le_floor]
    have := Int.floor_le (y / 299792458 * 10 ^ 9)
    push_cast
    linarith
  omega

/-- Two frames of which the second starts after the first one has been sent also end in this order, if none is much longer than another one. -/
theorem ends_in_order (debug : Bool) {rnd : ℝ → ℤ} (hrnd : Ticks rnd) (a b : Place) (ha : a.Proper) (hb : b.Proper) {β : ℝ}
    (hβ : (a.speed + b.speed) / 299792458 ≤ β) (hβ1 : β ≤ 1) {t u l k d e : ℕ} (htu : t + l ≤ u) (hl : β * l + 1 ≤ k)
    (hd : linkDelay debug rnd a b t = .ok d) (he : linkDelay debug rnd a b u = .ok e) : t + d + l < u + e + k := by
  obtain ⟨d', e', h1, h2, h3, -⟩ := C90_spacing debug hrnd a b ha hb hβ (show t ≤ u by omega)
  rw [hd, Outcome.ok.injEq] at h1
  rw [he, Outcome.ok.injEq] at h2
  subst h1 h2
  rw [abs_lt] at h3
  have h4 : (t : ℝ) + l ≤ u := by exact_mod_cast htu
  have h5 : (1 - β) * l ≤ (1 - β) * (u - t) := mul_le_mul_of_nonneg_left (by linarith) (by linarith)
  have : (t : ℝ) + d + l < u + e + k := by nlinarith [h3.1]
  exact_mod_cast this

/-- A station and a satellite, with slots of 100 ms: a frame may take all but 3.9 microseconds of the slot. -/
example : ((Place.fixed (6371000, 0, 0)).speed + (Place.sat ⟨0.9, 0.1, 6921009, 0.3⟩).speed) / 299792458 ≤ (3.87e-5 : ℝ) ∧
    ((99996129 : ℕ) : ℝ) + 1 ≤ (1 - 3.87e-5) * (100000000 : ℕ) := by
  have h := C89_speed_bound ⟨0.9, 0.1, 6921009, 0.3⟩ (by norm_num) (by norm_num)
  constructor
  · rw [div_le_iff₀ (by norm_num)]
    have : (Place.fixed (6371000, 0, 0)).speed = 0 := rfl
    rw [this]
    norm_num at h ⊢
    linarith
  · norm_num

/-- Delays always exist. -/
theorem delay_exists {X Y : Type} (debug : Bool) {rnd : ℝ → ℤ} (hrnd : Ticks rnd) (a : X → Place) (b : Y → Place)
    (ha : ∀ x, (a x).Proper) (hb : ∀ y, (b y).Proper) :
    ∃ D : Nat → X → Y → Nat, ∀ t x y, linkDelay debug rnd (a x) (b y) t = .ok (D t x y) := by
  have : ∀ t x y, ∃ d, linkDelay debug rnd (a x) (b y) t = .ok d := by
    intro t x y
    obtain ⟨d, -, h, -⟩ := C90_spacing debug hrnd (a x) (b y) (ha x) (hb y) le_rfl (le_refl t)
    exact ⟨d, h⟩
  choose D hD using this
  exact ⟨D, hD⟩

end Orbit

/-! ## Inter-satellite links -/

namespace IslNet
open Orbit
variable {D : Type} [Fintype D] [DecidableEq D] {net : Net D} {w : World D} {peer : D → D}

/-- Two satellites in circular orbits pass up each other's packets in the order in which they were accepted, if no packet lasts much longer than another one. -/
theorem C90_isl (hsky : Sky net w) (hw : Wired net peer) (hback : ∀ d, peer (peer d) = d) {ops : List (Op D)} {s : Sys D}
    (h : exec net ops = some (.ok s)) (hq : Quiet s) (debug : Bool) {rnd : ℝ → ℤ} (hrnd : Ticks rnd) (place : D → Place)
    (hp : ∀ d, (place d).Proper) (hdelay : ∀ t d e, linkDelay debug rnd (place d) (place e) t = .ok (w.delay t d e)) {β : ℝ}
    (hβ : ∀ d e, ((place d).speed + (place e).speed) / 299792458 ≤ β) (hβ1 : β ≤ 1) (d : D)
    (hlen : ∀ x ∈ (s.tx (peer d)).accepted, ∀ y ∈ (s.tx (peer d)).accepted, β * x.2.1.len + 1 ≤ y.2.1.len) :
    (s.rx d).delivered = (schedule (s.tx (peer d)).accepted).filterMap (receipt w (peer d) d) :=
  C60_in_order hsky hw hback h hq d (fun x hx y hy t t' htt =>
    ends_in_order debug hrnd _ _ (hp _) (hp _) (hβ _ _) hβ1 htt (hlen x hx y hy) (hdelay t _ _) (hdelay t' _ _))

/-- A link between two satellites; packets between one millisecond and ten seconds long. -/
example : ∃ (net : Net (Fin 2)) (w : World (Fin 2)) (place : Fin 2 → Place), Sky net w ∧ Wired net (fun d => 1 - d) ∧ (∀ d, (place d).Proper) ∧
    (∀ t d e, linkDelay true (fun x => ⌊x⌋) (place d) (place e) t = .ok (w.delay t d e)) ∧
    (∀ d e, ((place d).speed + (place e).speed) / 299792458 ≤ (7.8e-5 : ℝ)) ∧
    ∀ x y : ℕ, x ≤ 10 ^ 10 → 10 ^ 6 ≤ y → (7.8e-5 : ℝ) * x + 1 ≤ y := by
  have hp : ∀ d : Fin 2, (Place.sat ⟨0.9, 0.1, 6921009, d⟩).Proper := fun d => by norm_num [Place.Proper]
  obtain ⟨D, hD⟩ := delay_exists true (rnd := fun x => ⌊x⌋) ⟨fun _ _ h => Int.floor_le_floor h, fun x n => Int.floor_add_intCast x n, by simp⟩
    (fun d : Fin 2 => Place.sat ⟨0.9, 0.1, 6921009, d⟩) (fun d : Fin 2 => Place.sat ⟨0.9, 0.1, 6921009, d⟩) hp hp
  refine ⟨⟨true, fun _ => ⟨2, ⟨false, some 0, some 1⟩, ⟨false, some 1, some 0⟩⟩, fun _ _ _ => true, fun t => some (D t), fun _ => none⟩,
    ⟨D, fun _ _ _ => true⟩, _, fun t => ⟨rfl, Or.inl ⟨rfl, fun _ _ => rfl⟩⟩, ?_, hp, hD, ?_, ?_⟩
  · exact fun d => ⟨true, ⟨fun _ => true, fun _ => true, true⟩, 0, 1, by decide, rfl, by revert d; decide⟩
  · intro d e
    have h1 := C89_speed_bound ⟨0.9, 0.1, 6921009, d⟩ (by norm_num) (by norm_num)
    have h2 := C89_speed_bound ⟨0.9, 0.1, 6921009, e⟩ (by norm_num) (by norm_num)
    rw [div_le_iff₀ (by norm_num)]
    norm_num at h1 h2 ⊢
    linarith
  · intro x y hx hy
    have hx' : (x : ℝ) ≤ 10 ^ 10 := by exact_mod_cast hx
    have hy' : (10 : ℝ) ^ 6 ≤ y := by exact_mod_cast hy
    linarith

end IslNet

/-! ## Uplinks -/

namespace Uplink
open GroundSatChannel Orbit
open GroundSta (Once Entry)
variable {D G V W P : Type} [Fintype G] [Fintype D] [DecidableEq G] [DecidableEq D]

omit [Fintype G] [DecidableEq G] [Fintype D] in
/-- The ends of the transmissions on one link are in the order of their starts. -/
theorem receipts_in_order {tgt : SatAddress → Option D} {addr : G → SatAddress.Address} {w : World D G W} {g : G} {d : D}
    {wait : Nat → Nat → Nat} {acc : List (Nat × Entry W)}
    (hslow : ∀ x ∈ acc, ∀ y ∈ acc, ∀ t t', t + x.2.len ≤ t' → t + w.delay t g d + x.2.len < t' + w.delay t' g d + y.2.len) :
    ((Fifo.serve Entry.len wait 0 0 acc).filterMap (receipt addr w tgt g d)).Pairwise (fun a b => a.1 < b.1) := by
  have hmem : ∀ y ∈ Fifo.serve Entry.len wait 0 0 acc, ∃ c ∈ acc, c.2 = y.2 := by
    intro y hy
    have : y.2 ∈ (Fifo.serve Entry.len wait 0 0 acc).map Prod.snd := List.mem_map_of_mem hy
    rw [Fifo.serve_packets] at this
    exact List.mem_map.mp this
  rw [List.pairwise_filterMap]
  refine (Fifo.serve_disjoint (len := Entry.len) (wait := wait) 0 0 acc).imp_of_mem ?_
  intro y z hy hz hyz b hb b' hb'
  obtain ⟨c, hc, hc2⟩ := hmem y hy
  obtain ⟨c', hc', hc2'⟩ := hmem z hz
  have := hslow c hc c' hc' y.1 z.1 (by rw [hc2]; exact hyz)
  rw [hc2, hc2'] at this
  unfold receipt at hb hb'
  split at hb
  · split at hb'
    · simp only [Option.some.injEq] at hb hb'
      rw [← hb, ← hb']
      exact this
    · simp at hb'
  · simp at hb

/-- A satellite with the pass-through MAC passes up frames in the order of their ends. -/
theorem passedUp_sorted {net : Net D G V W P (NoneMac.Sys P)} (hrx : net.rx = noneReceiver P) {ops : List (Op D G W)}
    {s : Sys D G W (NoneMac.Sys P)} (h : exec net ops = some (.ok s)) (d : D) : (passedUp net s d).Pairwise (fun a b => a.1 ≤ b.1) := by
  obtain ⟨rops, h1, -⟩ := C55_receiver h d
  rw [hrx, none_run, Option.map_eq_some_iff] at h1
  obtain ⟨r1, h1, e⟩ := h1
  simp only [Outcome.ok.injEq] at e
  subst e
  obtain ⟨-, h3, -⟩ := C27_receive h1
  unfold passedUp
  rw [hrx, List.pairwise_filterMap]
  refine List.Pairwise.imp ?_ h3
  intro a b hab c hc c' hc'
  obtain ⟨x, -, rfl⟩ := Option.map_eq_some_iff.mp hc
  obtain ⟨x', -, rfl⟩ := Option.map_eq_some_iff.mp hc'
  exact hab

variable {hasOrbit : D → Bool} {cid n m : Nat} {hist : List (Nat × Nat × D)} {as : List SatAddress} {k : Constellation D}
  {w : World D G W} {wait : G → Nat → Nat → Nat}

/-- **Uplink.**  What a satellite in a circular orbit with the pass-through MAC has passed up from one station, read in order, is what the station's queue put on
the air, in order. -/
theorem C90_uplink {net : Net D G V W P (NoneMac.Sys P)} (hrx : net.rx = noneReceiver P)
    (hb : Built net.endian hasOrbit cid n m hist as k) (hfit : Fits16 cid n m)
    (hk : net.chan.constellation = some k) (hsky : Sky net w) (hm : ∀ g, Once (net.mac g) (wait g)) {ops : List (Op D G W)}
    (hl : Launched net hist as ops) {s : Sys D G W (NoneMac.Sys P)} (h : exec net ops = some (.ok s)) (hq : Quiet net s)
    (haddr : ∀ g g', net.addr g = net.addr g' → g = g') (debug : Bool) {rnd : ℝ → ℤ} (hrnd : Ticks rnd) (sta : G → Place) (sat : D → Place)
    (hsta : ∀ g, (sta g).Proper) (hsat : ∀ d, (sat d).Proper)
    (hdelay : ∀ t g d, linkDelay debug rnd (sta g) (sat d) t = .ok (w.delay t g d)) {β : ℝ}
    (hβ : ∀ g d, ((sta g).speed + (sat d).speed) / 299792458 ≤ β) (hβ1 : β ≤ 1) (g : G) (d : D)
    (hlen : ∀ x ∈ (s.stations g).accepted, ∀ y ∈ (s.stations g).accepted, β * x.2.len + 1 ≤ y.2.len) :
    (passedUp net s d).filter (fun y => y.2.src = net.addr g) =
      (Fifo.serve Entry.len (wait g) 0 0 (s.stations g).accepted).filterMap (receipt net.addr w (target hist as) g d) := by
  obtain ⟨s', hs, -, hall⟩ := C55_uplink hrx hb hfit hk hsky hm hl h
  simp only [Outcome.ok.injEq] at hs
  subst hs
  have hd := congrArg (Multiset.filter (fun y : Nat × Flight W => y.2.src = net.addr g)) (hall hq d)
  refine IslNet.eq_of_times (Multiset.coe_eq_coe.mp ?_) ((passedUp_sorted hrx h d).filter _) (receipts_in_order (fun x hx y hy t t' htt =>
    ends_in_order debug hrnd _ _ (hsta g) (hsat d) (hβ g d) hβ1 htt (hlen x hx y hy) (hdelay t _ _) (hdelay t' _ _)))
  rw [← Multiset.filter_coe, hd]
  have hsum : ∀ f : G → Multiset (Nat × Flight W), Multiset.filter (fun y : Nat × Flight W => y.2.src = net.addr g) (∑ g', f g') =
      ∑ g', Multiset.filter (fun y : Nat × Flight W => y.2.src = net.addr g) (f g') := by
    intro f
    exact map_sum (⟨⟨Multiset.filter (fun y : Nat × Flight W => y.2.src = net.addr g), Multiset.filter_zero _⟩, Multiset.filter_add _⟩ : Multiset (Nat × Flight W) →+ Multiset (Nat × Flight W)) f _
  rw [hsum, Finset.sum_eq_single g]
  · rw [Multiset.filter_coe, Multiset.coe_eq_coe]
    rw [List.filter_eq_self.mpr]
    intro y hy
    obtain ⟨z, -, hz⟩ := List.mem_filterMap.mp hy
    unfold receipt at hz
    split at hz
    · simp only [Option.some.injEq] at hz
      simp [← hz]
    · simp at hz
  · intro g' _ hg
    rw [Multiset.filter_eq_nil]
    intro y hy hsrc
    obtain ⟨z, -, hz⟩ := List.mem_filterMap.mp (Multiset.mem_coe.mp hy)
    unfold receipt at hz
    split at hz
    · simp only [Option.some.injEq] at hz
      rw [← hz] at hsrc
      exact hg (haddr _ _ hsrc)
    · simp at hz
  · intro hg; exact absurd (Finset.mem_univ g) hg

end Uplink

/-! ## Downlinks -/

namespace Downlink
open GroundSatChannel Orbit
open Sat2Ground (Entry Phase)
variable {D G V W : Type} [Fintype G] [Fintype D] [DecidableEq G] [DecidableEq D] {net : Net D G V W} {w : World D G W}

omit [Fintype G] [Fintype D] [DecidableEq D] in
/-- The ends of the transmissions on one link are in the order of their starts. -/
theorem receipts_in_order {l : List (Nat × SatAddress)} {g : G} {d : D} {acc : List (Nat × Entry W)}
    (hslow : ∀ x ∈ acc, ∀ y ∈ acc, ∀ t t', t + x.2.len ≤ t' → t + w.delay t g d + x.2.len < t' + w.delay t' g d + y.2.len) :
    ((Fifo.serve Entry.len (fun _ _ => 0) 0 0 acc).filterMap (receipt net w l g d)).Pairwise (fun a b => a.1 < b.1) := by
  have hmem : ∀ y ∈ Fifo.serve Entry.len (fun _ _ => 0) 0 0 acc, ∃ c ∈ acc, c.2 = y.2 := by
    intro y hy
    have : y.2 ∈ (Fifo.serve Entry.len (fun _ _ => 0) 0 0 acc).map Prod.snd := List.mem_map_of_mem hy
    rw [Fifo.serve_packets] at this
    exact List.mem_map.mp this
  rw [List.pairwise_filterMap]
  refine (Fifo.serve_disjoint (len := Entry.len) (wait := fun _ _ => 0) 0 0 acc).imp_of_mem ?_
  intro y z hy hz hyz b hb b' hb'
  obtain ⟨c, hc, hc2⟩ := hmem y hy
  obtain ⟨c', hc', hc2'⟩ := hmem z hz
  have := hslow c hc c' hc' y.1 z.1 (by rw [hc2]; exact hyz)
  rw [hc2, hc2'] at this
  unfold receipt at hb hb'
  split at hb
  · split at hb'
    · simp only [Option.some.injEq] at hb hb'
      rw [← hb, ← hb']
      exact this
    · simp at hb'
  · simp at hb

/-- **Downlink.**  What a station has passed up from one satellite in a circular orbit, read in order, is what the satellite's queue put on the air while the station
tracked it, in order. -/
theorem C90_downlink (hsky : Sky net w) (hnd : net.chan.ground.Nodup) {ops : List (Op D G W)} {s : Sys D G W}
    (h : exec net ops = some (.ok s)) (hq : Quiet s) (haddr : ∀ d d', net.addr d = net.addr d' → d = d')
    (debug : Bool) {rnd : ℝ → ℤ} (hrnd : Ticks rnd) (sta : G → Place) (sat : D → Place)
    (hsta : ∀ g, (sta g).Proper) (hsat : ∀ d, (sat d).Proper)
    (hdelay : ∀ t g d, linkDelay debug rnd (sta g) (sat d) t = .ok (w.delay t g d)) {β : ℝ}
    (hβ : ∀ g d, ((sta g).speed + (sat d).speed) / 299792458 ≤ β) (hβ1 : β ≤ 1) (g : G) (d : D)
    (hne : ∀ y ∈ s.heard, y.2.1 = g → ∀ c ∈ tracks g ops, c.1 ≠ y.1)
    (hlen : ∀ x ∈ (s.sats d).accepted, ∀ y ∈ (s.sats d).accepted, β * x.2.len + 1 ≤ y.2.len) :
    (s.stations g).delivered.filter (fun y => y.2.src = (net.addr d).convertTo net.endian net.ty) =
      (Fifo.serve Entry.len (fun _ _ => 0) 0 0 (s.sats d).accepted).filterMap (receipt net w (tracks g ops) g d) := by
  obtain ⟨s', hs, hall⟩ := C59_downlink hsky hnd h
  simp only [Outcome.ok.injEq] at hs
  subst hs
  obtain ⟨s', hs, hacc⟩ := run_ok hsky h
  simp only [Outcome.ok.injEq] at hs
  subst hs
  obtain ⟨rops, k1, k2, -⟩ := C59_station h g
  obtain ⟨s', hs, -, -, hsort, -⟩ := C36_tracked_only (from_sats hacc k2) k1
  simp only [Outcome.ok.injEq] at hs
  subst hs
  have hd := congrArg (Multiset.filter (fun y : Nat × GroundStaRx.Up => y.2.src = (net.addr d).convertTo net.endian net.ty)) ((hall g hne).2 hq)
  refine IslNet.eq_of_times (Multiset.coe_eq_coe.mp ?_) (hsort.filter _) (receipts_in_order (fun x hx y hy t t' htt =>
    ends_in_order debug hrnd _ _ (hsta g) (hsat d) (hβ g d) hβ1 htt (hlen x hx y hy) (hdelay t _ _) (hdelay t' _ _)))
  rw [← Multiset.filter_coe, hd]
  have hsum : ∀ f : D → Multiset (Nat × GroundStaRx.Up), Multiset.filter (fun y : Nat × GroundStaRx.Up => y.2.src = (net.addr d).convertTo net.endian net.ty) (∑ d', f d') =
      ∑ d', Multiset.filter (fun y : Nat × GroundStaRx.Up => y.2.src = (net.addr d).convertTo net.endian net.ty) (f d') := by
    intro f
    exact map_sum (⟨⟨Multiset.filter (fun y : Nat × GroundStaRx.Up => y.2.src = (net.addr d).convertTo net.endian net.ty), Multiset.filter_zero _⟩,
      Multiset.filter_add _⟩ : Multiset (Nat × GroundStaRx.Up) →+ Multiset (Nat × GroundStaRx.Up)) f _
  rw [hsum, Finset.sum_eq_single d]
  · rw [Multiset.filter_coe, Multiset.coe_eq_coe]
    rw [List.filter_eq_self.mpr]
    intro y hy
    obtain ⟨z, -, hz⟩ := List.mem_filterMap.mp hy
    unfold receipt at hz
    split at hz
    · simp only [Option.some.injEq] at hz
      simp [← hz]
    · simp at hz
  · intro d' _ hg
    rw [Multiset.filter_eq_nil]
    intro y hy hsrc
    obtain ⟨z, -, hz⟩ := List.mem_filterMap.mp (Multiset.mem_coe.mp hy)
    unfold receipt at hz
    split at hz
    · simp only [Option.some.injEq] at hz
      rw [← hz] at hsrc
      refine hg (haddr _ _ ?_)
      have h1 := (C01_roundtrip true net.endian net.ty (net.addr d')).1
      have h2 := (C01_roundtrip true net.endian net.ty (net.addr d)).1
      simp only at hsrc
      rw [hsrc, h2, Outcome.ok.injEq] at h1
      exact h1.symm
    · simp at hz
  · intro hg; exact absurd (Finset.mem_univ d) hg

end Downlink

end Icarus
