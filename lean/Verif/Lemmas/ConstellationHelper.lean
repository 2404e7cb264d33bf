import Verif.Model.ConstellationHelper
import Verif.Lemmas.Constellation
import Mathlib.Tactic.Ring
import Mathlib.Tactic.FieldSimp
import Mathlib.Tactic.Linarith

/-! Helper lemmas for `Verif.Props.ConstellationHelper`. -/

set_option autoImplicit false

namespace Icarus
namespace ConstellationHelper
open Constellation

variable {D : Type}

/-- The additions made by launching `ds` when `k` satellites were launched before. -/
def histFrom (s k : Nat) : List D → List (Nat × Nat × D)
  | [] => []
  | d :: ds => (k / s, k % s, d) :: histFrom s (k + 1) ds

theorem histFrom_append (s k : Nat) (xs ys : List D) :
    histFrom s k (xs ++ ys) = histFrom s k xs ++ histFrom s (k + xs.length) ys := by
  induction xs generalizing k with
  | nil => simp [histFrom]
  | cons x xs ih => simp [histFrom, ih, Nat.add_comm, Nat.add_left_comm]

theorem histFrom_getElem? (s k : Nat) (ds : List D) (j : Nat) (d : D) (h : ds[j]? = some d) :
    (histFrom s k ds)[j]? = some ((k + j) / s, (k + j) % s, d) := by
  induction ds generalizing k j with
  | nil => simp at h
  | cons x xs ih =>
    cases j with
    | zero => simp at h; simp [histFrom, h]
    | succ j =>
      simp at h
      simp only [histFrom, List.getElem?_cons_succ]
      rw [ih (k + 1) j h]
      have e : k + 1 + j = k + (j + 1) := by omega
      rw [e]

theorem histFrom_length (s k : Nat) (ds : List D) : (histFrom s k ds).length = ds.length := by
  induction ds generalizing k with
  | nil => rfl
  | cons x xs ih => simp [histFrom, ih]

theorem histFrom_dev (s k : Nat) (ds : List D) : (histFrom s k ds).map (·.2.2) = ds := by
  induction ds generalizing k with
  | nil => rfl
  | cons x xs ih => simp [histFrom, ih]

/-- Closed form of the helper's state after `k` launches. -/
structure HInv (cid n s ph : Nat) (alt inc : ℚ) (h : ConstellationHelper D) (ds : List D) : Prop where
  inv : Inv cid n s h.constellation (histFrom s 0 ds)
  offInc : h.offsetIncrement = ph * 360 / (1 * s * n)
  alt_eq : h.altitude = alt
  inc_eq : h.inclination = inc
  plane_eq : h.planeIndex = ds.length / s
  orbit_eq : h.orbitIndex = ds.length % s
  phase_eq : h.phase = (ds.length % s : ℕ) * 360 / s
  asc_eq : h.ascendingNode = (ds.length / s : ℕ) * 360 / n
  off_eq : h.offset = (ds.length / s : ℕ) * (ph * 360 / (1 * s * n))

theorem hinv_create (cid n s ph : Nat) (alt inc : ℚ) :
    HInv cid n s ph alt inc (create cid alt inc n s ph : ConstellationHelper D) [] where
  inv := inv_create _ _ _
  offInc := rfl
  alt_eq := rfl
  inc_eq := rfl
  plane_eq := by simp [create]
  orbit_eq := by simp [create]
  phase_eq := by simp [create]
  asc_eq := by simp [create]
  off_eq := by simp [create]

/-- The orbit given to the `k`-th launched satellite. -/
def orbitAt (n s ph : Nat) (alt inc : ℚ) (k : Nat) : OrbitElements where
  inclination := inc
  ascendingNode := (k / s : ℕ) * 360 / n
  altitude := alt
  phase := (k % s : ℕ) * 360 / s + (k / s : ℕ) * (ph * 360 / (1 * s * n))

theorem fresh_position {s k : Nat} (ds : List D) (hk : ds.length = k) :
    (k / s, k % s) ∉ (histFrom s 0 ds).map (fun x => (x.1, x.2.1)) := by
  intro hm
  rw [List.mem_map] at hm
  obtain ⟨x, hx, heq⟩ := hm
  rw [List.mem_iff_getElem?] at hx
  obtain ⟨j, hj⟩ := hx
  have hjl : j < ds.length := by
    have := (List.getElem?_eq_some_iff.mp hj).1
    rwa [histFrom_length] at this
  have h2 := histFrom_getElem? s 0 ds j ds[j] (List.getElem?_eq_getElem hjl)
  rw [h2] at hj
  simp at hj
  subst hj
  simp at heq
  have e1 := Nat.div_add_mod j s
  have e2 := Nat.div_add_mod k s
  rw [heq.1, heq.2] at e1
  omega

theorem launch_ok (cid n s ph : Nat) (alt inc : ℚ) (debug : Bool) (e : Endian)
    (h : ConstellationHelper D) (ds : List D) (d : D) (hi : HInv cid n s ph alt inc h ds)
    (hlt : ds.length < n * s) :
    ∃ h', h.launch debug e d = .ok
        (SatAddress.mk3 e (UInt16.ofNat cid) (UInt16.ofNat (ds.length / s)) (UInt16.ofNat (ds.length % s)),
          orbitAt n s ph alt inc ds.length, h') ∧
      HInv cid n s ph alt inc h' (ds ++ [d]) := by
  have hs : 0 < s := by
    rcases Nat.eq_zero_or_pos s with h0 | h0
    · subst h0; omega
    · exact h0
  have hdiv : ds.length / s < n := by
    rw [Nat.div_lt_iff_lt_mul hs]; exact hlt
  have hmod : ds.length % s < s := Nat.mod_lt _ hs
  have hn : 0 < n := Nat.lt_of_le_of_lt (Nat.zero_le _) hdiv
  have hsq : (0 : ℚ) < s := by exact_mod_cast hs
  have hnq : (0 : ℚ) < n := by exact_mod_cast hn
  obtain ⟨c', hadd⟩ : ∃ c', h.constellation.addSatellite e (fun _ => true) h.planeIndex h.orbitIndex d =
      .ok (SatAddress.mk3 e (UInt16.ofNat cid) (UInt16.ofNat (ds.length / s)) (UInt16.ofNat (ds.length % s)), c') := by
    rw [hi.plane_eq, hi.orbit_eq, inv_addSatellite_cases e (fun _ => true) hi.inv, if_pos ⟨hdiv, hmod⟩,
      if_neg (fresh_position ds rfl), if_pos rfl]
    exact ⟨_, rfl⟩
  have hc' := (inv_addSatellite e (fun _ => true) hi.inv hadd).1
  have hphase : h.phase < 360 := by
    rw [hi.phase_eq, div_lt_iff₀ hsq]
    have : ((ds.length % s : ℕ) : ℚ) < s := by exact_mod_cast hmod
    linarith
  have hasc : h.ascendingNode < 360 := by
    rw [hi.asc_eq, div_lt_iff₀ hnq]
    have : ((ds.length / s : ℕ) : ℚ) < n := by exact_mod_cast hdiv
    linarith
  have hguard : ¬(h.planeIndex ≥ h.constellation.nPlanes ∧ h.orbitIndex > 0) := by
    rw [hi.plane_eq, hi.inv.nPlanes_eq]; omega
  have hhist : histFrom s 0 (ds ++ [d]) = histFrom s 0 ds ++ [(h.planeIndex, h.orbitIndex, d)] := by
    rw [histFrom_append, hi.plane_eq, hi.orbit_eq]; simp [histFrom]
  unfold launch
  rw [if_neg hguard, if_neg (by simp [hphase]), if_neg (by simp [hasc])]
  simp only [hadd]
  have horb : OrbitElements.mk h.inclination h.ascendingNode h.altitude (h.phase + h.offset) = orbitAt n s ph alt inc ds.length := by
    unfold orbitAt
    rw [hi.inc_eq, hi.asc_eq, hi.alt_eq, hi.phase_eq, hi.off_eq]
  rw [horb]
  refine ⟨_, rfl, ?_⟩
  have hlen : (ds ++ [d]).length = ds.length + 1 := by simp
  have hdm := Nat.div_add_mod ds.length s
  by_cases hwrap : h.orbitIndex + 1 = c'.planeSize
  · rw [if_pos hwrap]
    have hw : ds.length % s + 1 = s := by rw [← hi.orbit_eq, hwrap, hc'.planeSize_eq]
    have hq : (ds.length + 1) / s = ds.length / s + 1 := by
      have : ds.length + 1 = s * (ds.length / s + 1) := by rw [Nat.mul_add]; omega
      conv_lhs => rw [this]
      exact Nat.mul_div_cancel_left _ hs
    have hr : (ds.length + 1) % s = 0 := by
      have : ds.length + 1 = s * (ds.length / s + 1) := by rw [Nat.mul_add]; omega
      rw [this]; exact Nat.mul_mod_right _ _
    exact {
      inv := by rw [hhist]; exact hc'
      offInc := hi.offInc
      alt_eq := hi.alt_eq
      inc_eq := hi.inc_eq
      plane_eq := by simp only [hlen, hq, hi.plane_eq]
      orbit_eq := by simp only [hlen, hr]
      phase_eq := by simp only [hlen, hr]; simp
      asc_eq := by
        simp only [hlen, hq, hi.asc_eq, hc'.nPlanes_eq]; push_cast; ring
      off_eq := by simp only [hlen, hq, hi.off_eq, hi.offInc]; push_cast; ring }
  · rw [if_neg hwrap]
    have hw : ds.length % s + 1 ≠ s := by rw [← hi.orbit_eq]; rw [hc'.planeSize_eq] at hwrap; exact hwrap
    have hlt' : ds.length % s + 1 < s := by omega
    have hq : (ds.length + 1) / s = ds.length / s := by
      conv_lhs => rw [← hdm, Nat.add_assoc, Nat.mul_add_div hs]
      rw [Nat.div_eq_of_lt hlt']; simp
    have hr : (ds.length + 1) % s = ds.length % s + 1 := by
      conv_lhs => rw [← hdm, Nat.add_assoc, Nat.mul_add_mod]
      exact Nat.mod_eq_of_lt hlt'
    exact {
      inv := by rw [hhist]; exact hc'
      offInc := hi.offInc
      alt_eq := hi.alt_eq
      inc_eq := hi.inc_eq
      plane_eq := by simp only [hlen, hq, hi.plane_eq]
      orbit_eq := by simp only [hlen, hr, hi.orbit_eq]
      phase_eq := by
        simp only [hlen, hr, hi.phase_eq, hc'.planeSize_eq]; push_cast; ring
      asc_eq := by simp only [hlen, hq, hi.asc_eq]
      off_eq := by simp only [hlen, hq, hi.off_eq] }

/-- Addresses and orbits produced by launching `ds` after `k` launches. -/
def outFrom (e : Endian) (cid n s ph : Nat) (alt inc : ℚ) (k : Nat) : List D → List (SatAddress × OrbitElements)
  | [] => []
  | _ :: ds => (SatAddress.mk3 e (UInt16.ofNat cid) (UInt16.ofNat (k / s)) (UInt16.ofNat (k % s)),
      orbitAt n s ph alt inc k) :: outFrom e cid n s ph alt inc (k + 1) ds

theorem outFrom_getElem? (e : Endian) (cid n s ph : Nat) (alt inc : ℚ) (k : Nat) (ds : List D) (j : Nat)
    (h : j < ds.length) : (outFrom e cid n s ph alt inc k ds)[j]? =
      some (SatAddress.mk3 e (UInt16.ofNat cid) (UInt16.ofNat ((k + j) / s)) (UInt16.ofNat ((k + j) % s)),
      orbitAt n s ph alt inc (k + j)) := by
  induction ds generalizing k j with
  | nil => simp at h
  | cons x xs ih =>
    cases j with
    | zero => simp [outFrom]
    | succ j =>
      simp only [outFrom, List.getElem?_cons_succ]
      rw [ih (k + 1) j (by simpa using h)]
      have : k + 1 + j = k + (j + 1) := by omega
      rw [this]

theorem launchAll_ok (cid n s ph : Nat) (alt inc : ℚ) (debug : Bool) (e : Endian) (ds : List D) :
    ∀ (h : ConstellationHelper D) (prev : List D), HInv cid n s ph alt inc h prev →
      prev.length + ds.length ≤ n * s →
      ∃ h', h.launchAll debug e ds = .ok (outFrom e cid n s ph alt inc prev.length ds, h') ∧
        HInv cid n s ph alt inc h' (prev ++ ds) := by
  induction ds with
  | nil =>
    intro h prev hi _
    exact ⟨h, rfl, by simpa using hi⟩
  | cons d ds ih =>
    intro h prev hi hle
    simp only [List.length_cons] at hle
    obtain ⟨h1, hl, hi1⟩ := launch_ok cid n s ph alt inc debug e h prev d hi (by omega)
    obtain ⟨h2, hl2, hi2⟩ := ih h1 (prev ++ [d]) hi1 (by simp; omega)
    refine ⟨h2, ?_, by simpa using hi2⟩
    simp only [launchAll, hl, hl2]
    simp [outFrom]

end ConstellationHelper
end Icarus
