import Verif.Model.Sat2SatChannel
import Mathlib.Tactic.Linarith
import Mathlib.Tactic.Ring
import Mathlib.Tactic.LinearCombination
import Mathlib.Tactic.Positivity

/-!
# Properties C32 and C33: the inter-satellite channel and its visibility rule
-/

set_option autoImplicit false

namespace Icarus

section
open Sat2SatChannel

variable {D F : Type}

/-! ## C32 -/

/-- The devices that can be attached: position and orbit present, success model set. -/
structure Attachable (env : Env D) (d : D) : Prop where
  pos : env.hasPos d = true
  orbit : env.hasOrbit d = true
  model : env.hasSuccessModel = true

/-- Which lists of devices can be attached to a new channel, in either build: at most two; a third violates the assertion in debug builds and is
written outside the link table in release builds. -/
theorem C32_attach (debug : Bool) (env : Env D) (ds : List D) (h : ∀ d ∈ ds, Attachable env d) :
    (ds.length ≤ 2 → ∃ c, attachAll debug env Chan.init ds = .ok c ∧ getNDevices c = ds.length ∧
      ∀ i, (i < ds.length → getDevice c i = .ok ds[i]?) ∧ (ds.length ≤ i → getDevice c i = .abort)) ∧
    (2 < ds.length → attachAll debug env Chan.init ds = if debug then .assertFail else .ub .outOfRange) := by
  match ds, h with
  | [], _ => simp [attachAll, Chan.init, getNDevices, getDevice]
  | [a], h =>
    have ha := h a (by simp)
    refine ⟨fun _ => ⟨_, by simp [attachAll, attach, putEnd, Chan.init, ha.pos]; rfl, rfl, ?_⟩, by simp⟩
    intro i
    constructor
    · intro hi
      have : i = 0 := by simpa using hi
      subst this
      rfl
    · intro hi
      have : ¬ i < 1 := by simp at hi; omega
      simp [getDevice, this]
  | [a, b], h =>
    have ha := h a (by simp)
    have hb := h b (by simp)
    refine ⟨fun _ => ⟨_, by simp [attachAll, attach, putEnd, Chan.init, ha.pos, hb.pos, hb.orbit, hb.model]; rfl, rfl, ?_⟩, by simp⟩
    intro i
    constructor
    · intro hi
      have : i = 0 ∨ i = 1 := by simp at hi; omega
      rcases this with rfl | rfl <;> rfl
    · intro hi
      have : ¬ i < 2 := by simp at hi; omega
      simp [getDevice, this]
  | a :: b :: c :: ds, h =>
    have ha := h a (by simp)
    have hb := h b (by simp)
    have hc := h c (by simp)
    refine ⟨by simp, fun _ => ?_⟩
    cases debug <;> simp [attachAll, attach, putEnd, Chan.init, ha.pos, hb.pos, hb.orbit, hb.model, hc.pos]

/-- A device whose node has no position cannot be attached. -/
theorem C32_attach_needs_position (debug : Bool) (env : Env D) (c : Chan D) (d : D) (h : env.hasPos d = false) :
    attach debug env c d = .abort := by
  simp [attach, h]

variable [DecidableEq D]

/-- With both ends attached, a frame of either end causes exactly one thing: reception by the other end after the propagation delay, unchanged
and with its protocol number, if the success model admits it; a drop report otherwise.  The duration is the transmission time. -/
theorem C32_transmit (debug : Bool) (env : Env D) (a b : D) (hne : a ≠ b) (c : Chan D) (hatt : attachAll debug env Chan.init [a, b] = .ok c)
    (debug' : Bool) (delay : D → D → Nat) (success : D → D → Outcome Bool) (frame : F) (txTime : Nat) (proto : UInt16)
    (src dst : D) (hends : src = a ∧ dst = b ∨ src = b ∧ dst = a) (ok : Bool) (hok : success src dst = .ok ok) :
    transmit debug' c (some delay) (some success) frame txTime src proto =
      .ok (if ok then .rx dst (delay src dst) frame proto else .drop frame, txTime) := by
  have hc : c = ⟨2, ⟨false, some a, some b⟩, ⟨false, some b, some a⟩⟩ := by
    simp only [attachAll, attach, Chan.init, putEnd] at hatt
    cases ha : env.hasPos a with
    | false => simp [ha] at hatt
    | true =>
      cases hb : env.hasPos b with
      | false => simp [ha, hb] at hatt
      | true =>
        simp only [ha, hb, Outcome.abortUnless_true, Outcome.bind_ok, Nat.zero_lt_two, decide_true, Outcome.nsAssert_true, if_true,
          Nat.one_lt_two, Nat.one_ne_zero, if_false] at hatt
        cases hm : env.hasSuccessModel with
        | false => simp [hm] at hatt
        | true =>
          cases ho : env.hasOrbit b with
          | false => simp [hm, ho] at hatt
          | true => simp [hm, ho] at hatt; exact hatt.symm
  subst hc
  rcases hends with ⟨rfl, rfl⟩ | ⟨rfl, rfl⟩
  · cases ok <;> simp [transmit, hok]
  · have : ¬ src = dst := fun h => hne h.symm
    cases ok <;> simp [transmit, hok, this]

/-- Transmitting with fewer than two ends attached violates the assertion in debug builds and dereferences a null pointer in release builds. -/
theorem C32_incomplete (debug debug' : Bool) (env : Env D) (ds : List D) (c : Chan D) (hatt : attachAll debug env Chan.init ds = .ok c)
    (hds : ds.length < 2) (delay : Option (D → D → Nat)) (success : Option (D → D → Outcome Bool)) (frame : F) (txTime : Nat) (proto : UInt16)
    (src : D) :
    transmit debug' c delay success frame txTime src proto = if debug' then .assertFail else .ub .nullDeref := by
  match ds, hatt with
  | [], hatt =>
    simp only [attachAll, Outcome.ok.injEq] at hatt
    subst hatt
    cases debug' <;> simp [transmit, Chan.init]
  | [a], hatt =>
    cases ha : env.hasPos a with
    | false => simp [attachAll, attach, ha] at hatt
    | true =>
      simp [attachAll, attach, ha, putEnd, Chan.init] at hatt
      subst hatt
      cases debug' <;> simp [transmit]
  | _ :: _ :: _, _ => simp at hds

/-- The channel does not check who sends: a frame of a device that is not attached goes to the first end; and a device attached at both ends receives
its own frames. -/
theorem C32_unchecked_sender (a b : D) (src : D) (hsrc : src ≠ a) (delay : D → D → Nat) (frame : F) (txTime : Nat) (proto : UInt16)
    (debug : Bool) :
    transmit debug ⟨2, ⟨false, some a, some b⟩, ⟨false, some b, some a⟩⟩ (some delay) none frame txTime src proto =
      .ok (.rx a (delay src a) frame proto, txTime) ∧
    transmit debug ⟨2, ⟨false, some a, some a⟩, ⟨false, some a, some a⟩⟩ (some delay) none frame txTime a proto =
      .ok (.rx a (delay a a) frame proto, txTime) := by
  simp [transmit, hsrc]

example : ∀ d ∈ [1, 2], Attachable (⟨fun _ => true, fun _ => true, true⟩ : Env Nat) d := fun _ _ => ⟨rfl, rfl, rfl⟩
example : attachAll true (⟨fun _ => true, fun _ => true, true⟩ : Env Nat) Chan.init [1, 2] =
    .ok ⟨2, ⟨false, some 1, some 2⟩, ⟨false, some 2, some 1⟩⟩ := by decide

end

/-! ## C33 -/

section
open Sat2SatSuccess

/-- Distance of a point to the Earth's centre. -/
noncomputable def radius (a : ℝ × ℝ × ℝ) : ℝ := Real.sqrt (a.1 ^ 2 + a.2.1 ^ 2 + a.2.2 ^ 2)

/-- The point at fraction `t` of the segment from `a` to `b`. -/
noncomputable def onSegment (a b : ℝ × ℝ × ℝ) (t : ℝ) : ℝ × ℝ × ℝ :=
  (a.1 + t * (b.1 - a.1), a.2.1 + t * (b.2.1 - a.2.1), a.2.2 + t * (b.2.2 - a.2.2))

/-- For two points at distance `ρ` from the centre, the points of the segment between them keep squared distance at least `q` from the centre iff
the squared length of the segment is at most `4 (ρ² - q)`. -/
theorem segment_clear (a b : ℝ × ℝ × ℝ) (ρ q : ℝ) (ha : a.1 ^ 2 + a.2.1 ^ 2 + a.2.2 ^ 2 = ρ ^ 2) (hb : b.1 ^ 2 + b.2.1 ^ 2 + b.2.2 ^ 2 = ρ ^ 2) :
    (∀ t, 0 ≤ t → t ≤ 1 → q ≤ (onSegment a b t).1 ^ 2 + (onSegment a b t).2.1 ^ 2 + (onSegment a b t).2.2 ^ 2) ↔
      (b.1 - a.1) ^ 2 + (b.2.1 - a.2.1) ^ 2 + (b.2.2 - a.2.2) ^ 2 ≤ 4 * (ρ ^ 2 - q) := by
  obtain ⟨a1, a2, a3⟩ := a
  obtain ⟨b1, b2, b3⟩ := b
  simp only [onSegment] at *
  set s := (b1 - a1) ^ 2 + (b2 - a2) ^ 2 + (b3 - a3) ^ 2 with hs
  have key : ∀ t : ℝ, (a1 + t * (b1 - a1)) ^ 2 + (a2 + t * (b2 - a2)) ^ 2 + (a3 + t * (b3 - a3)) ^ 2 = ρ ^ 2 - t * (1 - t) * s := by
    intro t
    rw [hs]
    linear_combination (1 - t) * ha + t * hb
  have hs0 : 0 ≤ s := by rw [hs]; positivity
  constructor
  · intro h
    have := h (1 / 2) (by norm_num) (by norm_num)
    rw [key] at this
    linarith
  · intro h t h0 h1
    rw [key]
    have h2 : t * (1 - t) ≤ 1 / 4 := by nlinarith [sq_nonneg (t - 1 / 2)]
    have h3 : t * (1 - t) * s ≤ 1 / 4 * s := mul_le_mul_of_nonneg_right h2 hs0
    linarith

theorem sq_of_radius {a : ℝ × ℝ × ℝ} {ρ : ℝ} (h : radius a = ρ) : a.1 ^ 2 + a.2.1 ^ 2 + a.2.2 ^ 2 = ρ ^ 2 := by
  rw [← h, radius, Real.sq_sqrt (by positivity)]

/-- The rule for satellites of orbit radius `h` whose (reported) positions have distance `ρ` to the centre: success iff the segment between the
positions keeps squared distance at least `ρ² - h² + (Earth radius + 80 km)²` from the centre. -/
theorem C33_general (h ρ : ℝ) (a b : ℝ × ℝ × ℝ) (ha : radius a = ρ) (hb : radius b = ρ) (hh : 80000 + 6371009 ≤ h) :
    transmitSuccess (calcMaxDistance h) (some a) (some b) = .ok true ↔
      ∀ t, 0 ≤ t → t ≤ 1 → ρ ^ 2 - h ^ 2 + (80000 + 6371009) ^ 2 ≤ radius (onSegment a b t) ^ 2 := by
  have hr : (minAltitude + earthRadius : ℝ) = 80000 + 6371009 := by unfold minAltitude earthRadius; rfl
  have hnn : ¬ (h * h - (minAltitude + earthRadius) * (minAltitude + earthRadius) < 0) := by
    rw [hr]
    nlinarith
  have hseg := segment_clear a b ρ (ρ ^ 2 - h ^ 2 + (80000 + 6371009) ^ 2) (sq_of_radius ha) (sq_of_radius hb)
  have hrad : ∀ x : ℝ × ℝ × ℝ, radius x ^ 2 = x.1 ^ 2 + x.2.1 ^ 2 + x.2.2 ^ 2 := fun x => by
    rw [radius, Real.sq_sqrt (by positivity)]
  simp only [hrad]
  rw [hseg]
  have hdec : transmitSuccess (calcMaxDistance h) (some a) (some b) = .ok true ↔
      distance a b ≤ 2 * Real.sqrt (h * h - (minAltitude + earthRadius) * (minAltitude + earthRadius)) := by
    simp only [transmitSuccess, calcMaxDistance, if_neg hnn, Outcome.ok.injEq, decide_eq_true_eq]
  rw [hdec, hr, distance]
  have hnn' : 0 ≤ h * h - (80000 + 6371009) * (80000 + 6371009) := by nlinarith
  rw [Real.sqrt_le_left (by positivity), mul_pow, Real.sq_sqrt hnn']
  constructor
  · intro H; nlinarith
  · intro H; nlinarith

/-- For two satellites at distance `h` from the Earth's centre, at any height, the success model admits a transmission iff every point of the
straight segment between them is at least 80 km above the Earth's surface. -/
theorem C33_visibility (h : ℝ) (hpos : 0 < h) (a b : ℝ × ℝ × ℝ) (ha : radius a = h) (hb : radius b = h) :
    transmitSuccess (calcMaxDistance h) (some a) (some b) = .ok true ↔
      ∀ t, 0 ≤ t → t ≤ 1 → 6371009 + 80000 ≤ radius (onSegment a b t) := by
  by_cases hh : 80000 + 6371009 ≤ h
  · rw [C33_general h h a b ha hb hh]
    have : ∀ x : ℝ × ℝ × ℝ, h ^ 2 - h ^ 2 + (80000 + 6371009) ^ 2 ≤ radius x ^ 2 ↔ (6371009 + 80000 : ℝ) ≤ radius x := by
      intro x
      rw [sub_self, zero_add, add_comm (80000 : ℝ)]
      exact pow_le_pow_iff_left₀ (by norm_num) (Real.sqrt_nonneg _) (by norm_num)
    simp only [this]
  · have hlt : h * h - (minAltitude + earthRadius) * (minAltitude + earthRadius) < 0 := by
      unfold minAltitude earthRadius
      nlinarith
    simp only [transmitSuccess, calcMaxDistance, if_pos hlt, Outcome.ok.injEq, Bool.false_eq_true, false_iff, not_forall]
    refine ⟨0, le_refl _, zero_le_one, ?_⟩
    have : onSegment a b 0 = a := by simp [onSegment]
    rw [this, ha]
    linarith

/-- The answer does not depend on which end transmits. -/
theorem C33_symmetric (m : Option ℝ) (a b : Option (ℝ × ℝ × ℝ)) : transmitSuccess m a b = transmitSuccess m b a := by
  have : ∀ x y : ℝ × ℝ × ℝ, distance x y = distance y x := by
    intro x y; unfold distance; congr 1; ring
  cases a <;> cases b <;> cases m <;> simp [transmitSuccess, this]

/-- Without a position of one of the nodes the simulation aborts. -/
theorem C33_needs_positions (m : Option ℝ) (a : Option (ℝ × ℝ × ℝ)) :
    transmitSuccess m none a = .abort ∧ transmitSuccess m a none = .abort := by
  cases a <;> simp [transmitSuccess]

/-- Two satellites at 7000 km, a quarter turn apart: the hypotheses hold and they do not see each other, as the middle of the segment is below
the surface; two satellites 1000 km apart (the points `(±500 km, y, 0)`) do. -/
theorem quarter_turn : radius (7000000, 0, 0) = 7000000 ∧ radius (0, 7000000, 0) = 7000000 := by
  constructor <;> (unfold radius; rw [Real.sqrt_eq_iff_mul_self_eq (by positivity) (by norm_num)]; norm_num)

example : ¬ transmitSuccess (calcMaxDistance 7000000) (some (7000000, 0, 0)) (some (0, 7000000, 0)) = .ok true := by
  rw [C33_visibility 7000000 (by norm_num) _ _ quarter_turn.1 quarter_turn.2]
  intro h
  have := h (1 / 2) (by norm_num) (by norm_num)
  unfold radius onSegment at this
  rw [Real.le_sqrt' (by norm_num)] at this
  norm_num at this

example : transmitSuccess (calcMaxDistance 7000000) (some (500000, Real.sqrt (7000000 ^ 2 - 500000 ^ 2), 0))
    (some (-500000, Real.sqrt (7000000 ^ 2 - 500000 ^ 2), 0)) = .ok true := by
  have hs : Real.sqrt (7000000 ^ 2 - 500000 ^ 2) ^ 2 = 7000000 ^ 2 - 500000 ^ 2 := Real.sq_sqrt (by norm_num)
  have h1 : ∀ x : ℝ, x ^ 2 = 500000 ^ 2 → radius (x, Real.sqrt (7000000 ^ 2 - 500000 ^ 2), 0) = 7000000 := by
    intro x hx
    unfold radius
    rw [Real.sqrt_eq_iff_mul_self_eq (by positivity) (by norm_num)]
    simp only [hs, hx]
    norm_num
  rw [C33_visibility 7000000 (by norm_num) _ _ (h1 _ (by norm_num)) (h1 _ (by norm_num))]
  intro t _ _
  unfold radius onSegment
  rw [Real.le_sqrt' (by norm_num)]
  simp only [sub_self, mul_zero, add_zero, hs]
  nlinarith [sq_nonneg (500000 + t * (-500000 - 500000))]

end

end Icarus
