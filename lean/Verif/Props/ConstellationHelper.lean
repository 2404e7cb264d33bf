import Verif.Lemmas.ConstellationHelper
import Verif.Props.Constellation

/-!
# Properties C08 - C10: launching satellites through `ConstellationHelper`

`ds` is the list of satellites launched, in order, on a fresh helper for `n` planes of `s` satellites with phasing
parameter `ph`, altitude `alt`, inclination `inc`; `cid` is the number of the constellation.
-/

set_option autoImplicit false

namespace Icarus
open ConstellationHelper

variable {D : Type}

/-! ## C08 -/

/-- Up to the capacity every launch succeeds; the `k`-th satellite (from 0) goes to plane `k / s`, position `k % s`:
that is the address returned, and where the constellation has it at the end. -/
theorem C08_launch_order (debug : Bool) (e : Endian) (cid n s ph : Nat) (alt inc : ℚ) (ds : List D)
    (hfit : Fits16 cid n s) (hcap : ds.length ≤ n * s) :
    ∃ out h', (create cid alt inc n s ph).launchAll debug e ds = .ok (out, h') ∧ out.length = ds.length ∧
      ∀ k d, ds[k]? = some d → ∃ a o, out[k]? = some (a, o) ∧
        (a.getConstellationId e).toNat = cid ∧ (a.getOrbitalPlane e).toNat = k / s ∧
        (a.getPlaneIndex e).toNat = k % s ∧
        h'.constellation.getSatelliteAddr debug e a = .ok (some d) ∧
        h'.constellation.getSatellite debug (k / s) (k % s) = .ok (some d) := by
  obtain ⟨h', hl, hi⟩ := launchAll_ok cid n s ph alt inc debug e ds (create cid alt inc n s ph) []
    (hinv_create cid n s ph alt inc) (by simpa using hcap)
  simp only [List.length_nil, List.nil_append] at hl hi
  refine ⟨_, h', hl, ?_, ?_⟩
  · generalize 0 = k
    clear hl hcap hi
    induction ds generalizing k with
    | nil => rfl
    | cons x xs ih => simp [outFrom, ih]
  · intro k d hk
    have hkl : k < ds.length := (List.getElem?_eq_some_iff.mp hk).1
    have hmem := List.mem_of_getElem? (histFrom_getElem? s 0 ds k d hk)
    have hb := hi.inv.bounds _ hmem
    simp only [Nat.zero_add] at hb hmem
    obtain ⟨f1, f2, f3⟩ := hfit
    have hlook : Constellation.lookup (histFrom s 0 ds) (k / s) (k % s) = some d := by
      unfold Constellation.lookup
      cases hf : (histFrom s 0 ds).find? (fun x => x.1 == k / s && x.2.1 == k % s) with
      | none => rw [List.find?_eq_none] at hf; simpa using hf _ hmem
      | some y =>
        have hy := List.mem_of_find?_eq_some hf
        have hyp := List.find?_some hf
        simp at hyp
        have : y = (k / s, k % s, d) :=
          List.inj_on_of_nodup_map hi.inv.nodup hy hmem (by simp [hyp.1, hyp.2])
        simp [this]
    have hcell := hi.inv.cells (k / s) (k % s) hb.1 hb.2
    rw [hlook] at hcell
    have e1 : cid % 65536 = cid := by omega
    have e2 : k / s % 65536 = k / s := Nat.mod_eq_of_lt (by omega)
    have e3 : k % s % 65536 = k % s := Nat.mod_eq_of_lt (by omega)
    refine ⟨_, _, outFrom_getElem? e cid n s ph alt inc 0 ds k hkl, ?_, ?_, ?_, ?_, ?_⟩
    · simp [SatAddress.mk3, SatAddress.getConstellationId, e1]
    · simp [SatAddress.mk3, SatAddress.getOrbitalPlane, e2]
    · simp [SatAddress.mk3, SatAddress.getPlaneIndex, e3]
    · simp [Constellation.getSatelliteAddr, SatAddress.mk3, SatAddress.getConstellationId, SatAddress.getOrbitalPlane,
        SatAddress.getPlaneIndex, e1, e2, e3, hi.inv.id_eq, Constellation.getSatellite, hi.inv.nPlanes_eq,
        hi.inv.planeSize_eq, Nat.le_of_lt hb.1, Nat.le_of_lt hb.2, Constellation.cell_eq_ok.mpr hcell]
    · simp [Constellation.getSatellite, hi.inv.nPlanes_eq, hi.inv.planeSize_eq, Nat.le_of_lt hb.1,
        Nat.le_of_lt hb.2, Constellation.cell_eq_ok.mpr hcell]

/-! ## C09 -/

/-- Full claim of C09, for reference: once `n * s` satellites are launched, one more launch aborts. -/
def C09_claim : Prop :=
  ∀ (D : Type) (debug : Bool) (e : Endian) (cid n s ph : Nat) (alt inc : ℚ) (ds : List D)
    (out : List (SatAddress × OrbitElements)) (h : ConstellationHelper D), ds.length = n * s →
    (create cid alt inc n s ph).launchAll debug e ds = .ok (out, h) → ∀ d, h.launch debug e d = .abort

/-- What the code does on the first launch beyond the capacity: in a release build it indexes outside the table; in a debug
build (exact angles, at least one plane and one position) the sanity assertion on the ascending node fires. -/
theorem C09_overlaunch (e : Endian) (cid n s ph : Nat) (alt inc : ℚ) (ds : List D) (hfull : ds.length = n * s) (d : D) :
    (∀ out h, (create cid alt inc n s ph).launchAll false e ds = .ok (out, h) →
      h.launch false e d = .ub .outOfRange) ∧
    (0 < n → 0 < s → ∀ out h, (create cid alt inc n s ph).launchAll true e ds = .ok (out, h) →
      h.launch true e d = .assertFail) := by
  constructor
  · intro out h hl
    obtain ⟨h', hl', hi⟩ := launchAll_ok cid n s ph alt inc false e ds (create cid alt inc n s ph) []
      (hinv_create cid n s ph alt inc) (by simp [hfull])
    rw [hl] at hl'
    simp only [Outcome.ok.injEq, Prod.mk.injEq] at hl'
    obtain ⟨-, rfl⟩ := hl'
    simp only [List.nil_append] at hi
    have horb : h.orbitIndex = 0 := by rw [hi.orbit_eq, hfull]; exact Nat.mul_mod_left _ _
    have hb : ¬(h.planeIndex < n ∧ h.orbitIndex < s) := by
      rw [hi.plane_eq, hfull, horb]
      rintro ⟨h1, h2⟩
      rw [Nat.mul_div_cancel _ h2] at h1
      omega
    unfold launch
    rw [if_neg (by omega), if_neg (by simp), if_neg (by simp)]
    rw [Constellation.inv_addSatellite_cases e (fun _ => true) hi.inv, if_neg hb]
  · intro hn hs out h hl
    obtain ⟨h', hl', hi⟩ := launchAll_ok cid n s ph alt inc true e ds (create cid alt inc n s ph) []
      (hinv_create cid n s ph alt inc) (by simp [hfull])
    rw [hl] at hl'
    simp only [Outcome.ok.injEq, Prod.mk.injEq] at hl'
    obtain ⟨-, rfl⟩ := hl'
    simp only [List.nil_append] at hi
    have horb : h.orbitIndex = 0 := by rw [hi.orbit_eq, hfull]; exact Nat.mul_mod_left _ _
    have hasc : h.ascendingNode = 360 := by
      rw [hi.asc_eq, hfull, Nat.mul_div_cancel _ hs]
      have : (n : ℚ) ≠ 0 := by exact_mod_cast Nat.pos_iff_ne_zero.mp hn
      field_simp
    unfold launch
    rw [if_neg (by omega)]
    split
    · rfl
    · rw [if_pos (by simp [hasc])]

/-- The `NS_ABORT` guard never fires, whatever was launched before. -/
theorem C09_guard_never_fires (debug : Bool) (e : Endian) (cid n s ph : Nat) (alt inc : ℚ) (ds : List D)
    (out : List (SatAddress × OrbitElements)) (h : ConstellationHelper D)
    (hl : (create cid alt inc n s ph).launchAll debug e ds = .ok (out, h)) (d : D) :
    h.launch debug e d ≠ .abort := by
  -- successful histories never exceed the capacity
  have step : ∀ (h : ConstellationHelper D) (ds : List D) (d : D), HInv cid n s ph alt inc h ds →
      ds.length = n * s → h.launch debug e d ≠ .abort ∧ ∀ x, h.launch debug e d ≠ .ok x := by
    intro h ds d hi hfull
    have horb : h.orbitIndex = 0 := by rw [hi.orbit_eq, hfull]; exact Nat.mul_mod_left _ _
    have hb : ¬(h.planeIndex < n ∧ h.orbitIndex < s) := by
      rw [hi.plane_eq, hfull, horb]
      rintro ⟨h1, h2⟩
      rw [Nat.mul_div_cancel _ h2] at h1
      omega
    unfold launch
    rw [if_neg (by omega)]
    split
    · simp
    · split
      · simp
      · rw [Constellation.inv_addSatellite_cases e (fun _ => true) hi.inv, if_neg hb]
        simp
  have all : ∀ (ds : List D) (h : ConstellationHelper D) (prev : List D), HInv cid n s ph alt inc h prev →
      prev.length ≤ n * s → ∀ out h', h.launchAll debug e ds = .ok (out, h') →
      HInv cid n s ph alt inc h' (prev ++ ds) ∧ (prev ++ ds).length ≤ n * s := by
    intro ds
    induction ds with
    | nil =>
      intro h prev hi hle out h' hl
      simp only [launchAll, Outcome.ok.injEq, Prod.mk.injEq] at hl
      obtain ⟨-, rfl⟩ := hl
      simpa using ⟨hi, hle⟩
    | cons x xs ih =>
      intro h prev hi hle out h' hl
      rcases Nat.lt_or_eq_of_le hle with hlt | heq
      · obtain ⟨h1, hl1, hi1⟩ := launch_ok cid n s ph alt inc debug e h prev x hi hlt
        simp only [launchAll, hl1] at hl
        split at hl
        · rename_i out' h'' hrest
          simp only [Outcome.ok.injEq, Prod.mk.injEq] at hl
          obtain ⟨-, rfl⟩ := hl
          have := ih h1 (prev ++ [x]) hi1 (by simp; omega) _ _ hrest
          simpa using this
        all_goals simp at hl
      · have := (step h prev x hi heq).2
        simp only [launchAll] at hl
        split at hl
        · rename_i a o h1 hok; exact absurd hok (this _)
        all_goals simp at hl
  obtain ⟨hi, hle⟩ := all ds _ [] (hinv_create cid n s ph alt inc) (by simp) _ _ hl
  simp only [List.nil_append] at hi hle
  rcases Nat.lt_or_eq_of_le hle with hlt | heq
  · obtain ⟨h1, hl1, -⟩ := launch_ok cid n s ph alt inc debug e h ds d hi hlt
    rw [hl1]; simp
  · exact (step h ds d hi heq).1

/-- What remains of C09 (missing: that it aborts instead of running into undefined behaviour): no launch beyond the
capacity ever returns normally, so the number of successful launches never exceeds `n * s`. -/
theorem C09_overlaunch_partial (debug : Bool) (e : Endian) (cid n s ph : Nat) (alt inc : ℚ) (ds : List D)
    (out : List (SatAddress × OrbitElements)) (h : ConstellationHelper D)
    (hl : (create cid alt inc n s ph).launchAll debug e ds = .ok (out, h)) : ds.length ≤ n * s := by
  by_contra hgt
  have hgt : n * s < ds.length := by omega
  -- split the history at the capacity
  have hsplit : ds = ds.take (n * s) ++ ds.drop (n * s) := (List.take_append_drop _ _).symm
  obtain ⟨d, rest, hdrop⟩ : ∃ d rest, ds.drop (n * s) = d :: rest := by
    cases hd : ds.drop (n * s) with
    | nil => simp at hd; omega
    | cons d rest => exact ⟨d, rest, rfl⟩
  have htake : (ds.take (n * s)).length = n * s := by simp; omega
  obtain ⟨h1, hl1, hi1⟩ := launchAll_ok cid n s ph alt inc debug e (ds.take (n * s))
    (create cid alt inc n s ph) [] (hinv_create cid n s ph alt inc)
    (by rw [htake, List.length_nil, Nat.zero_add])
  have append : ∀ (xs ys : List D) (h0 h1 : ConstellationHelper D) (o : List (SatAddress × OrbitElements)),
      h0.launchAll debug e xs = .ok (o, h1) → ∀ o2 h2, h0.launchAll debug e (xs ++ ys) = .ok (o2, h2) →
      ∃ o3, h1.launchAll debug e ys = .ok (o3, h2) := by
    intro xs ys
    induction xs with
    | nil =>
      intro h0 h1 o hx o2 h2 hy
      simp only [launchAll, Outcome.ok.injEq, Prod.mk.injEq] at hx
      obtain ⟨-, rfl⟩ := hx
      exact ⟨_, hy⟩
    | cons x xs ih =>
      intro h0 h1 o hx o2 h2 hy
      simp only [launchAll, List.cons_append] at hx hy
      split at hx
      · rename_i hla
        rw [hla] at hy
        simp only at hy
        split at hx
        · rename_i hh
          simp only [Outcome.ok.injEq, Prod.mk.injEq] at hx
          obtain ⟨-, rfl⟩ := hx
          split at hy
          · rename_i hh2
            simp only [Outcome.ok.injEq, Prod.mk.injEq] at hy
            obtain ⟨-, rfl⟩ := hy
            exact ih _ _ _ hh _ _ hh2
          all_goals simp at hy
        all_goals simp at hx
      all_goals simp at hx
  rw [hsplit] at hl
  obtain ⟨o3, h3⟩ := append _ _ _ _ _ hl1 _ _ hl
  rw [hdrop] at h3
  simp only [List.nil_append] at hi1
  have horb : h1.orbitIndex = 0 := by rw [hi1.orbit_eq, htake]; exact Nat.mul_mod_left _ _
  have hb : ¬(h1.planeIndex < n ∧ h1.orbitIndex < s) := by
    rw [hi1.plane_eq, htake, horb]
    rintro ⟨h1, h2⟩
    rw [Nat.mul_div_cancel _ h2] at h1
    omega
  have hno : ∀ x, h1.launch debug e d ≠ .ok x := by
    intro x
    unfold launch
    rw [if_neg (by omega)]
    split
    · simp
    · split
      · simp
      · rw [Constellation.inv_addSatellite_cases e (fun _ => true) hi1.inv, if_neg hb]
        simp
  simp only [launchAll] at h3
  split at h3
  · rename_i hok; exact hno _ hok
  all_goals simp at h3

theorem C09_claim_false : ¬ C09_claim := by
  intro h
  obtain ⟨h', hl, -⟩ := launchAll_ok 1 1 1 0 0 0 false .little [()] (create 1 0 0 1 1 0) []
    (hinv_create 1 1 1 0 0 0) (by simp)
  have h1 := h Unit false .little 1 1 1 0 0 0 [()] _ h' rfl hl ()
  have h2 := (C09_overlaunch .little 1 1 1 0 0 0 [()] rfl ()).1 _ _ hl
  rw [h2] at h1
  simp at h1

/-! ## C10 -/

/-- Elements prescribed for the satellite in plane `i`, position `j` (degrees). -/
def specElements (n s ph : Nat) (alt inc : ℚ) (i j : Nat) : OrbitElements where
  inclination := inc
  ascendingNode := i * (360 / n)
  altitude := alt
  phase := j * (360 / s) + i * (ph * (360 / (n * s)))

/-- The satellite that ends up in plane `i`, position `j` (`i < n`, `j < s`) is launched on exactly the prescribed orbit. -/
theorem C10_orbital_elements (debug : Bool) (e : Endian) (cid n s ph : Nat) (alt inc : ℚ) (ds : List D)
    (out : List (SatAddress × OrbitElements)) (h : ConstellationHelper D)
    (hl : (create cid alt inc n s ph).launchAll debug e ds = .ok (out, h))
    (i j : Nat) (hj : j < s) (hk : i * s + j < ds.length) :
    ∃ a, out[i * s + j]? = some (a, specElements n s ph alt inc i j) := by
  have hcap := C09_overlaunch_partial debug e cid n s ph alt inc ds out h hl
  obtain ⟨h', hl', -⟩ := launchAll_ok cid n s ph alt inc debug e ds (create cid alt inc n s ph) []
    (hinv_create cid n s ph alt inc) (by simpa using hcap)
  rw [hl] at hl'
  simp only [Outcome.ok.injEq, Prod.mk.injEq, List.length_nil] at hl'
  obtain ⟨rfl, -⟩ := hl'
  have hs : 0 < s := by omega
  have e1 : (0 + (i * s + j)) / s = i := by
    rw [Nat.zero_add, Nat.mul_comm, Nat.mul_add_div hs, Nat.div_eq_of_lt hj, Nat.add_zero]
  have e2 : (0 + (i * s + j)) % s = j := by
    rw [Nat.zero_add, Nat.mul_comm, Nat.mul_add_mod, Nat.mod_eq_of_lt hj]
  have horb : orbitAt n s ph alt inc (0 + (i * s + j)) = specElements n s ph alt inc i j := by
    unfold orbitAt specElements
    rw [e1, e2]
    congr 1
    · ring
    · ring
  exact ⟨_, (outFrom_getElem? e cid n s ph alt inc 0 ds _ hk).trans (by rw [horb])⟩

/-- Consequences for the prescribed elements: neighbours in a plane are `360 / s` degrees apart, and two satellites of one
plane never have the same phase, not even modulo a full turn; distinct planes have distinct ascending nodes below 360
degrees. -/
theorem C10_equally_spaced (n s ph : Nat) (alt inc : ℚ) (i j j' : Nat) (hj : j < s) (hj' : j' < s) :
    (specElements n s ph alt inc i (j + 1)).phase - (specElements n s ph alt inc i j).phase = 360 / s ∧
    (j ≠ j' → ∀ z : ℤ, (specElements n s ph alt inc i j).phase - (specElements n s ph alt inc i j').phase ≠ 360 * z) ∧
    (∀ i' < n, i < n → i ≠ i' → (specElements n s ph alt inc i j).ascendingNode ≠
        (specElements n s ph alt inc i' j').ascendingNode ∧
      0 ≤ (specElements n s ph alt inc i j).ascendingNode ∧ (specElements n s ph alt inc i j).ascendingNode < 360) := by
  have hs : (0 : ℚ) < s := by exact_mod_cast (by omega : 0 < s)
  refine ⟨by simp only [specElements]; push_cast; ring, ?_, ?_⟩
  · intro hne z heq
    have h1 : ((j : ℤ) - j' : ℤ) = z * s := by
      have : ((j : ℚ) - j') * 360 = 360 * z * s := by
        rw [← heq]; simp only [specElements]; field_simp; ring
      have : ((j : ℚ) - j') = z * s := by linarith
      exact_mod_cast this
    have hz : z = 0 := by
      by_contra hz
      rcases lt_or_gt_of_ne hz with h | h
      · have : z * s ≤ -1 * s := by
          apply Int.mul_le_mul_of_nonneg_right <;> omega
        omega
      · have : 1 * (s : ℤ) ≤ z * s := by
          apply Int.mul_le_mul_of_nonneg_right <;> omega
        omega
    rw [hz] at h1
    omega
  · intro i' hi' hi hne
    have hn : (0 : ℚ) < n := by exact_mod_cast (by omega : 0 < n)
    have hp : (0 : ℚ) < 360 / n := by positivity
    refine ⟨?_, ?_, ?_⟩
    · simp only [specElements]
      intro heq
      have := mul_right_cancel₀ (ne_of_gt hp) heq
      exact hne (by exact_mod_cast this)
    · simp only [specElements]; positivity
    · simp only [specElements]
      have : (i : ℚ) < n := by exact_mod_cast hi
      rw [mul_div_assoc', div_lt_iff₀ hn]
      linarith

/-! ### Non-vacuity -/

example : ∃ out h, (create 1 780000 86 2 3 1).launchAll true .little ["a", "b", "c", "d"] = .ok (out, h) :=
  let ⟨out, h, hl, _⟩ := C08_launch_order true .little 1 2 3 1 780000 86 ["a", "b", "c", "d"]
    (by unfold Fits16; decide) (by decide)
  ⟨out, h, hl⟩
example : 1 * 3 + 0 < ["a", "b", "c", "d"].length := by decide
example : specElements 6 11 2 0 0 3 4 = ⟨0, 180, 0, 4 * (360 / 11) + 3 * (2 * (360 / 66))⟩ := by
  norm_num [specElements]

end Icarus
