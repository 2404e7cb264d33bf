import Verif.Lemmas.Constellation
import Mathlib.Analysis.Real.Sqrt

/-!
# Properties C03 - C07: the constellation table

A *history* is a list of additions `(plane, position, device)`.  All statements are about a constellation created
empty (with number `cid`, `n` planes of `s` positions) on which a history was executed successfully.
-/

set_option autoImplicit false

namespace Icarus
open Constellation

variable {D : Type}

/-- `c` is what results from creating a constellation and successfully executing `hist`; `as` are the addresses
returned. -/
def Built (e : Endian) (hasOrbit : D → Bool) (cid n s : Nat) (hist : List (Nat × Nat × D))
    (as : List SatAddress) (c : Constellation D) : Prop :=
  (create cid n s).addAll e hasOrbit hist = .ok (as, c)

/-- All numbers appearing in addresses fit in the 16-bit fields. -/
def Fits16 (cid n s : Nat) : Prop := cid < 65536 ∧ n ≤ 65536 ∧ s ≤ 65536

theorem Built.inv {e : Endian} {hasOrbit : D → Bool} {cid n s : Nat} {hist : List (Nat × Nat × D)}
    {as : List SatAddress} {c : Constellation D} (h : Built e hasOrbit cid n s hist as c) :
    Inv cid n s c hist ∧
      as = hist.map (fun x => SatAddress.mk3 e (UInt16.ofNat cid) (UInt16.ofNat x.1) (UInt16.ofNat x.2.1)) := by
  simpa using inv_addAll e hasOrbit hist (inv_create cid n s) h

/-! ## C03 -/

/-- Each device is found under the address returned when it was added, whatever was added before and after, in debug
and release builds. -/
theorem C03_lookup {e : Endian} {hasOrbit : D → Bool} {cid n s : Nat} {hist : List (Nat × Nat × D)}
    {as : List SatAddress} {c : Constellation D} (h : Built e hasOrbit cid n s hist as c)
    (hfit : Fits16 cid n s) (debug : Bool) (k : Nat) (p o : Nat) (d : D) (hk : hist[k]? = some (p, o, d)) :
    ∃ a, as[k]? = some a ∧ c.getSatelliteAddr debug e a = .ok (some d) ∧
      (a.getConstellationId e).toNat = cid ∧ (a.getOrbitalPlane e).toNat = p ∧ (a.getPlaneIndex e).toNat = o := by
  obtain ⟨inv, rfl⟩ := h.inv
  obtain ⟨f1, f2, f3⟩ := hfit
  have hb := inv.bounds _ (List.mem_of_getElem? hk)
  refine ⟨_, by rw [List.getElem?_map, hk]; rfl, ?_, ?_, ?_, ?_⟩
  · have hl : lookup hist p o = some d := by
      have hmem := List.mem_of_getElem? hk
      unfold lookup
      cases hf : hist.find? (fun x => x.1 == p && x.2.1 == o) with
      | none => rw [List.find?_eq_none] at hf; simpa using hf _ hmem
      | some y =>
        have hy := List.mem_of_find?_eq_some hf
        have hyp := List.find?_some hf
        simp at hyp
        have : y = (p, o, d) := by
          have hinj := List.inj_on_of_nodup_map inv.nodup hy hmem
          exact hinj (by simp [hyp.1, hyp.2])
        simp [this]
    have hcell := inv.cells p o hb.1 hb.2
    rw [hl] at hcell
    have e1 : cid % 65536 = cid := by omega
    have e2 : p % 65536 = p := by simp at hb; omega
    have e3 : o % 65536 = o := by simp at hb; omega
    simp only at hb
    simp [getSatelliteAddr, SatAddress.mk3, SatAddress.getConstellationId, SatAddress.getOrbitalPlane,
      SatAddress.getPlaneIndex, e1, e2, e3, inv.id_eq, getSatellite, inv.nPlanes_eq, inv.planeSize_eq,
      Nat.le_of_lt hb.1, Nat.le_of_lt hb.2, cell_eq_ok.mpr hcell]
  · simp [SatAddress.mk3, SatAddress.getConstellationId]; omega
  · simp [SatAddress.mk3, SatAddress.getOrbitalPlane]; simp at hb; omega
  · simp [SatAddress.mk3, SatAddress.getPlaneIndex]; simp at hb; omega

/-- Distinct additions return distinct addresses. -/
theorem C03_addresses_distinct {e : Endian} {hasOrbit : D → Bool} {cid n s : Nat} {hist : List (Nat × Nat × D)}
    {as : List SatAddress} {c : Constellation D} (h : Built e hasOrbit cid n s hist as c)
    (hfit : Fits16 cid n s) : as.length = hist.length ∧ as.Nodup := by
  obtain ⟨inv, rfl⟩ := h.inv
  obtain ⟨f1, f2, f3⟩ := hfit
  refine ⟨by simp, ?_⟩
  have hn := inv.nodup
  rw [List.Nodup, List.pairwise_map] at hn ⊢
  refine hn.imp_of_mem ?_
  rintro ⟨p, o, d⟩ ⟨p', o', d'⟩ ha hb hne heq
  apply hne
  have b1 := inv.bounds _ ha
  have b2 := inv.bounds _ hb
  simp at b1 b2
  have h1 := congrArg (fun a => (a.getOrbitalPlane e).toNat) heq
  have h2 := congrArg (fun a => (a.getPlaneIndex e).toNat) heq
  simp [SatAddress.mk3, SatAddress.getOrbitalPlane, SatAddress.getPlaneIndex] at h1 h2
  simp
  omega

/-- Looking up a position that was never filled gives null. -/
theorem C03_empty_position {e : Endian} {hasOrbit : D → Bool} {cid n s : Nat} {hist : List (Nat × Nat × D)}
    {as : List SatAddress} {c : Constellation D} (h : Built e hasOrbit cid n s hist as c) (debug : Bool)
    (p o : Nat) (hp : p < n) (ho : o < s) (hfree : ∀ d, (p, o, d) ∉ hist) :
    c.getSatellite debug p o = .ok none := by
  obtain ⟨inv, -⟩ := h.inv
  have hl : lookup hist p o = none := by
    rw [lookup_eq_none]
    simp only [List.mem_map, not_exists, not_and]
    rintro ⟨a, b, d⟩ hx heq
    simp at heq
    exact hfree d (heq.1 ▸ heq.2 ▸ hx)
  have hcell := inv.cells p o hp ho
  rw [hl] at hcell
  simp [getSatellite, inv.nPlanes_eq, inv.planeSize_eq, Nat.le_of_lt hp, Nat.le_of_lt ho, cell_eq_ok.mpr hcell]

/-- Exact behaviour of a further addition: it succeeds iff the position exists, is free, and the satellite has an
orbit; an occupied position (or a satellite without orbit) aborts; a position outside the table is undefined
behaviour. -/
theorem C03_add_outcome {e : Endian} {hasOrbit : D → Bool} {cid n s : Nat} {hist : List (Nat × Nat × D)}
    {as : List SatAddress} {c : Constellation D} (h : Built e hasOrbit cid n s hist as c) (p o : Nat) (d : D) :
    (p < n ∧ o < s ∧ (∀ d', (p, o, d') ∉ hist) ∧ hasOrbit d = true →
        ∃ a c', c.addSatellite e hasOrbit p o d = .ok (a, c') ∧
          Built e hasOrbit cid n s (hist ++ [(p, o, d)]) (as ++ [a]) c') ∧
    (p < n ∧ o < s ∧ ((∃ d', (p, o, d') ∈ hist) ∨ hasOrbit d = false) →
        c.addSatellite e hasOrbit p o d = .abort) ∧
    (¬(p < n ∧ o < s) → c.addSatellite e hasOrbit p o d = .ub .outOfRange) := by
  obtain ⟨inv, hinv⟩ := h.inv
  have hmem : ((p, o) ∈ hist.map (fun x => (x.1, x.2.1))) ↔ ∃ d', (p, o, d') ∈ hist := by
    simp only [List.mem_map]
    constructor
    · rintro ⟨⟨a, b, d'⟩, hx, heq⟩
      simp at heq
      exact ⟨d', heq.1 ▸ heq.2 ▸ hx⟩
    · rintro ⟨d', hx⟩; exact ⟨_, hx, rfl⟩
  have hcases := inv_addSatellite_cases e hasOrbit inv p o d
  refine ⟨?_, ?_, ?_⟩
  · rintro ⟨hp, ho, hfree, horb⟩
    have hnm : (p, o) ∉ hist.map (fun x => (x.1, x.2.1)) := by
      rw [hmem]; rintro ⟨d', hd'⟩; exact hfree d' hd'
    rw [if_pos ⟨hp, ho⟩, if_neg hnm, if_pos horb] at hcases
    refine ⟨_, _, hcases, ?_⟩
    unfold Built at *
    have append : ∀ (l : List (Nat × Nat × D)) (c0 : Constellation D) (as0 : List SatAddress) (c1 : Constellation D),
        c0.addAll e hasOrbit l = .ok (as0, c1) → ∀ x a c2, c1.addSatellite e hasOrbit x.1 x.2.1 x.2.2 = .ok (a, c2) →
        c0.addAll e hasOrbit (l ++ [x]) = .ok (as0 ++ [a], c2) := by
      intro l
      induction l with
      | nil =>
        intro c0 as0 c1 h0 x a c2 h1
        simp only [addAll, Outcome.ok.injEq, Prod.mk.injEq] at h0
        obtain ⟨rfl, rfl⟩ := h0
        obtain ⟨x1, x2, x3⟩ := x
        simp only at h1
        simp [addAll, h1]
      | cons y ys ih =>
        intro c0 as0 c1 h0 x a c2 h1
        obtain ⟨y1, y2, y3⟩ := y
        simp only [addAll, List.cons_append] at h0 ⊢
        split at h0
        · rename_i a' c' hadd
          split at h0
          · rename_i as' c'' hrest
            simp only [Outcome.ok.injEq, Prod.mk.injEq] at h0
            obtain ⟨rfl, rfl⟩ := h0
            simp [ih _ _ _ hrest x a c2 h1]
          all_goals simp at h0
        all_goals simp at h0
    exact append hist _ _ _ h (p, o, d) _ _ hcases
  · rintro ⟨hp, ho, hocc⟩
    rw [if_pos ⟨hp, ho⟩] at hcases
    rw [hcases]
    split
    · rfl
    · rename_i hnm
      rcases hocc with hocc | horb
      · exact absurd (hmem.mpr hocc) hnm
      · simp [horb]
  · intro hb
    rw [hcases, if_neg hb]

/-- The 16-bit restriction is needed: in a constellation of 65537 planes, planes 0 and 65536 are given the same address,
and looking up the address returned for the second satellite yields the first one. -/
theorem C03_fails_beyond_16_bits (e : Endian) (d1 d2 : D) :
    ∃ a c, Built e (fun _ => true) 1 65537 1 [(0, 0, d1), (65536, 0, d2)] [a, a] c ∧
      c.getSatelliteAddr true e a = .ok (some d1) := by
  have i0 := inv_create (D := D) 1 65537 1
  obtain ⟨c1, h1⟩ : ∃ c1, (create 1 65537 1).addSatellite e (fun _ => true) 0 0 d1 =
      .ok (SatAddress.mk3 e (UInt16.ofNat 1) (UInt16.ofNat 0) (UInt16.ofNat 0), c1) := by
    rw [inv_addSatellite_cases e (fun _ => true) i0 0 0 d1, if_pos (by decide), if_neg (by simp), if_pos rfl]
    exact ⟨_, rfl⟩
  have i1 := (inv_addSatellite e (fun _ => true) i0 h1).1
  obtain ⟨c2, h2⟩ : ∃ c2, c1.addSatellite e (fun _ => true) 65536 0 d2 =
      .ok (SatAddress.mk3 e (UInt16.ofNat 1) (UInt16.ofNat 0) (UInt16.ofNat 0), c2) := by
    rw [inv_addSatellite_cases e (fun _ => true) i1 65536 0 d2, if_pos (by decide), if_neg (by simp), if_pos rfl,
      show UInt16.ofNat 65536 = UInt16.ofNat 0 by decide]
    exact ⟨_, rfl⟩
  have i2 := (inv_addSatellite e (fun _ => true) i1 h2).1
  refine ⟨SatAddress.mk3 e (UInt16.ofNat 1) (UInt16.ofNat 0) (UInt16.ofNat 0), c2, ?_, ?_⟩
  · unfold Built
    simp only [addAll, h1, h2]
  · have hcell := i2.cells 0 0 (by decide) (by decide)
    rw [show lookup ([] ++ [(0, 0, d1)] ++ [(65536, 0, d2)]) 0 0 = some d1 from rfl] at hcell
    unfold getSatelliteAddr getSatellite
    rw [(show (SatAddress.getOrbitalPlane e (SatAddress.mk3 e (UInt16.ofNat 1) (UInt16.ofNat 0) (UInt16.ofNat 0))).toNat = 0 by
          simp [SatAddress.mk3, SatAddress.getOrbitalPlane]),
      (show (SatAddress.getPlaneIndex e (SatAddress.mk3 e (UInt16.ofNat 1) (UInt16.ofNat 0) (UInt16.ofNat 0))).toNat = 0 by
          simp [SatAddress.mk3, SatAddress.getPlaneIndex]),
      (show (SatAddress.getConstellationId e (SatAddress.mk3 e (UInt16.ofNat 1) (UInt16.ofNat 0) (UInt16.ofNat 0))).toNat = 1 by
          simp [SatAddress.mk3, SatAddress.getConstellationId]),
      cell_eq_ok.mpr hcell, i2.id_eq, i2.nPlanes_eq, i2.planeSize_eq]
    rfl

/-! ## C04 -/

/-- `GetSize` never trips its assertion and equals the number of additions; it is also the length of the device list,
which holds exactly the added devices (with multiplicity), and at most `n * s`. -/
theorem C04_size_and_listing {e : Endian} {hasOrbit : D → Bool} {cid n s : Nat} {hist : List (Nat × Nat × D)}
    {as : List SatAddress} {c : Constellation D} (h : Built e hasOrbit cid n s hist as c) (debug : Bool) :
    c.getSize debug = .ok hist.length ∧ c.createNetDeviceContainer.length = hist.length ∧
      c.createNetDeviceContainer.Perm (hist.map (·.2.2)) ∧ hist.length ≤ n * s := by
  obtain ⟨inv, -⟩ := h.inv
  have hlen : c.createNetDeviceContainer.length = hist.length := by simpa using inv.perm.length_eq
  have hle : hist.length ≤ n * s := by
    rw [← hlen, container_eq]
    refine (List.length_filterMap_le _ _).trans ?_
    have : ∀ (rows : List (List (Option D))), (∀ r ∈ rows, r.length = s) → rows.flatten.length = rows.length * s := by
      intro rows
      induction rows with
      | nil => simp
      | cons r rs ih =>
        intro hr
        rw [List.flatten_cons, List.length_append, hr r (by simp), ih (fun x hx => hr x (by simp [hx])),
          List.length_cons, Nat.succ_mul, Nat.add_comm]
    rw [this c.planes (by rw [← inv.planeSize_eq]; exact inv.shape.cols), inv.shape.rows, inv.nPlanes_eq]
  refine ⟨?_, hlen, inv.perm, hle⟩
  simp [getSize, inv.size_eq, inv.nPlanes_eq, inv.planeSize_eq, hle]

/-! ## C05 -/

/-- Euclidean distance in space. -/
noncomputable def specDist (a b : ℝ × ℝ × ℝ) : ℝ :=
  Real.sqrt ((a.1 - b.1) ^ 2 + (a.2.1 - b.2.1) ^ 2 + (a.2.2 - b.2.2) ^ 2)

/-- The satellite returned was added and none of the added ones is nearer; null is returned exactly when nothing was
added. -/
theorem C05_closest {e : Endian} {hasOrbit : D → Bool} {cid n s : Nat} {hist : List (Nat × Nat × D)}
    {as : List SatAddress} {c : Constellation D} (h : Built e hasOrbit cid n s hist as c)
    (pos : D → ℝ × ℝ × ℝ) (q : ℝ × ℝ × ℝ) :
    (∀ d, c.getClosest (fun x => sqDistance (pos x) q) = some d →
      d ∈ hist.map (·.2.2) ∧ ∀ d' ∈ hist.map (·.2.2), specDist (pos d) q ≤ specDist (pos d') q) ∧
    (c.getClosest (fun x => sqDistance (pos x) q) = none ↔ hist = []) := by
  obtain ⟨inv, -⟩ := h.inv
  have hmem : ∀ d, some d ∈ c.planes.flatten ↔ d ∈ hist.map (·.2.2) := by
    intro d; rw [some_mem_flatten]; exact inv.perm.mem_iff
  have hf := closest_foldl (fun x => sqDistance (pos x) q) c.planes.flatten none (by simp)
  rw [getClosest_flatten]
  constructor
  · intro d hd
    rw [Option.map_eq_some_iff] at hd
    obtain ⟨⟨m, b⟩, hb, rfl⟩ := hd
    obtain ⟨h1, h2, h3, -⟩ := hf.1 m b hb
    refine ⟨?_, ?_⟩
    · rcases h2 with h2 | h2
      · exact (hmem b).mp h2
      · simp at h2
    · intro d' hd'
      have := h3 d' ((hmem d').mpr hd')
      rw [h1] at this
      unfold specDist
      apply Real.sqrt_le_sqrt
      have e1 : ∀ x : ℝ × ℝ × ℝ, (x.1 - q.1) ^ 2 + (x.2.1 - q.2.1) ^ 2 + (x.2.2 - q.2.2) ^ 2 = sqDistance x q := by
        intro x; unfold sqDistance; ring
      rw [e1, e1]
      exact this
  · rw [Option.map_eq_none_iff, hf.2]
    simp only [true_and, hmem]
    constructor
    · intro hh
      cases hist with
      | nil => rfl
      | cons x xs => exact absurd (by simp) (hh x.2.2)
    · rintro rfl; simp

/-! ## C06 -/

/-- Full claim of C06, for reference: whatever was added, `Get (i)` for `i < GetSize ()` enumerates the added devices,
and larger indices abort. -/
def C06_claim : Prop :=
  ∀ (D : Type) (e : Endian) (hasOrbit : D → Bool) (cid n s : Nat) (hist : List (Nat × Nat × D))
    (as : List SatAddress) (c : Constellation D), Built e hasOrbit cid n s hist as c →
    (∃ ds : List D, ds.Perm (hist.map (·.2.2)) ∧ ∀ debug i d, ds[i]? = some d → c.get debug i = .ok (some d)) ∧
    (∀ debug i, hist.length ≤ i → c.get debug i = .abort)

theorem getElem?_flatten_uniform {α : Type} (s : Nat) (rows : List (List α)) (h : ∀ r ∈ rows, r.length = s)
    (hs : 0 < s) (i : Nat) : rows.flatten[i]? = (rows[i / s]?).bind (fun r => r[i % s]?) := by
  induction rows generalizing i with
  | nil => simp
  | cons r rs ih =>
    have hr : r.length = s := h r (by simp)
    have ih' := ih (fun x hx => h x (by simp [hx]))
    rw [List.flatten_cons]
    by_cases hi : i < s
    · rw [List.getElem?_append_left (by omega), Nat.div_eq_of_lt hi, Nat.mod_eq_of_lt hi]
      simp
    · rw [List.getElem?_append_right (by omega), hr, ih']
      have h1 : i / s = (i - s) / s + 1 := by
        rw [← Nat.add_div_right _ hs]; congr 1; omega
      have h2 : (i - s) % s = i % s := by
        rw [← Nat.mod_eq_sub_mod (by omega)]
      rw [h1, h2]; simp

theorem all_some_of_length {α : Type} (l : List (Option α)) (h : (l.filterMap id).length = l.length) :
    l = (l.filterMap id).map some := by
  induction l with
  | nil => rfl
  | cons x xs ih =>
    cases x with
    | none =>
      have := List.length_filterMap_le id xs
      rw [List.filterMap_cons_none rfl, List.length_cons] at h
      omega
    | some a =>
      rw [List.filterMap_cons_some (f := id) (b := a) rfl, List.length_cons, List.length_cons] at h
      rw [List.filterMap_cons_some (f := id) (b := a) rfl, List.map_cons, ← ih (by omega)]

/-- What holds of C06 (missing: partially filled constellations, and the index equal to `GetSize ()`): in a complete
constellation `Get (i)`, `i < GetSize ()`, enumerates exactly the added devices, and indices above `GetSize ()` abort
(always, complete or not). -/
theorem C06_enumeration_partial {e : Endian} {hasOrbit : D → Bool} {cid n s : Nat} {hist : List (Nat × Nat × D)}
    {as : List SatAddress} {c : Constellation D} (h : Built e hasOrbit cid n s hist as c) :
    (hist.length = n * s →
      ∃ ds : List D, ds.Perm (hist.map (·.2.2)) ∧ ∀ debug i d, ds[i]? = some d → c.get debug i = .ok (some d)) ∧
    (∀ debug i, hist.length < i → c.get debug i = .abort) := by
  have h4 := C04_size_and_listing h
  obtain ⟨inv, -⟩ := h.inv
  constructor
  · intro hfull
    refine ⟨c.createNetDeviceContainer, inv.perm, ?_⟩
    intro debug i d hd
    obtain ⟨g1, g2, -, -⟩ := h4 debug
    have hi : i < hist.length := by
      rw [← g2]
      exact (List.getElem?_eq_some_iff.mp hd).1
    have hs : 0 < s := by
      rcases Nat.eq_zero_or_pos s with h0 | h0
      · subst h0; rw [Nat.mul_zero] at hfull; omega
      · exact h0
    have hcols : ∀ r ∈ c.planes, r.length = s := inv.planeSize_eq ▸ inv.shape.cols
    have hlen : c.planes.flatten.length = n * s := by
      have : ∀ (rows : List (List (Option D))), (∀ r ∈ rows, r.length = s) →
          rows.flatten.length = rows.length * s := by
        intro rows
        induction rows with
        | nil => simp
        | cons r rs ih =>
          intro hr
          rw [List.flatten_cons, List.length_append, hr r (by simp), ih (fun x hx => hr x (by simp [hx])),
            List.length_cons, Nat.succ_mul, Nat.add_comm]
      rw [this _ hcols, inv.shape.rows, inv.nPlanes_eq]
    have hall := all_some_of_length c.planes.flatten (by
      rw [← container_eq, g2, hlen, hfull])
    have hflat : c.planes.flatten[i]? = some (some d) := by
      rw [hall, List.getElem?_map, ← container_eq, hd]; rfl
    rw [getElem?_flatten_uniform s _ hcols hs] at hflat
    have hcell : c.cell (i / s) (i % s) = .ok (some d) := cell_eq_ok.mpr hflat
    have hle : i ≤ hist.length := Nat.le_of_lt hi
    simp [Constellation.get, g1, hle, inv.planeSize_eq, Outcome.natDiv, Outcome.natMod, Nat.pos_iff_ne_zero.mp hs, hcell]
  · intro debug i hi
    have g1 := (h4 debug).1
    have : ¬ i ≤ hist.length := by omega
    simp [Constellation.get, g1, this]

/-- The claim is false: in a complete constellation the index equal to `GetSize ()` passes the guard and reads outside
the table. -/
theorem C06_index_size_is_ub {e : Endian} {hasOrbit : D → Bool} {cid n s : Nat} {hist : List (Nat × Nat × D)}
    {as : List SatAddress} {c : Constellation D} (h : Built e hasOrbit cid n s hist as c)
    (hfull : hist.length = n * s) (hs : 0 < s) (debug : Bool) :
    c.get debug hist.length = .ub .outOfRange := by
  have g1 := (C04_size_and_listing h debug).1
  obtain ⟨inv, -⟩ := h.inv
  have hcell : c.cell n 0 = .ub .outOfRange := by
    apply cell_eq_ub
    rw [← Option.not_isSome_iff_eq_none, inv.shape.cell_isSome, inv.nPlanes_eq]
    omega
  have e1 : n * s / s = n := Nat.mul_div_cancel n hs
  rw [hfull] at g1
  simp [Constellation.get, g1, inv.planeSize_eq, Outcome.natDiv, Outcome.natMod, Nat.pos_iff_ne_zero.mp hs, e1, hcell, hfull]

/-- A concrete constellation, used as witness: 2 planes of 2, one satellite added at plane 1, position 1. -/
def sparseExample : Constellation Nat :=
  { constellationId := 1, nPlanes := 2, planeSize := 2, planes := [[none, none], [none, some 7]], size := 1 }

theorem sparseExample_built : Built .little (fun _ => true) 1 2 2 [(1, 1, 7)]
    [SatAddress.mk3 .little 1 1 1] sparseExample := by unfold Built; decide

/-- ... and false for partially filled constellations: here `GetSize () = 1` but `Get (0)` is null. -/
theorem C06_claim_false : ¬ C06_claim := by
  intro h
  obtain ⟨⟨ds, hp, hget⟩, -⟩ := h Nat .little (fun _ => true) 1 2 2 _ _ _ sparseExample_built
  have hds : ds = [7] := List.perm_singleton.mp hp
  have := hget true 0 7 (by rw [hds]; rfl)
  revert this
  decide

/-! ## C07 -/

/-- Full claim of C07, for reference: outside the table the assertions fire (debug build). -/
def C07_claim : Prop :=
  ∀ (D : Type) (e : Endian) (hasOrbit : D → Bool) (cid n s : Nat) (hist : List (Nat × Nat × D))
    (as : List SatAddress) (c : Constellation D), Built e hasOrbit cid n s hist as c →
    ∀ p i, ¬(p < n ∧ i < s) → c.getSatellite true p i = .assertFail

/-- What holds of C07 (missing: `p = n` and `i = s`): the lookup is defined inside the table, and beyond the boundary by
more than one the assertion fires. -/
theorem C07_range_partial {e : Endian} {hasOrbit : D → Bool} {cid n s : Nat} {hist : List (Nat × Nat × D)}
    {as : List SatAddress} {c : Constellation D} (h : Built e hasOrbit cid n s hist as c) (p i : Nat) :
    (p < n → i < s → ∀ debug, ∃ v, c.getSatellite debug p i = .ok v) ∧
    (n < p ∨ s < i → c.getSatellite true p i = .assertFail) := by
  obtain ⟨inv, -⟩ := h.inv
  constructor
  · intro hp hi debug
    refine ⟨lookup hist p i, ?_⟩
    simp [getSatellite, inv.nPlanes_eq, inv.planeSize_eq, Nat.le_of_lt hp, Nat.le_of_lt hi,
      cell_eq_ok.mpr (inv.cells p i hp hi)]
  · intro hb
    unfold getSatellite
    rw [inv.nPlanes_eq, inv.planeSize_eq]
    by_cases h1 : p ≤ n
    · have h2 : ¬ i ≤ s := by omega
      simp [h1, h2]
    · simp [h1]

/-- On the boundary the assertions pass and the access is out of range, in debug and release builds; in release builds
so is every access outside the table. -/
theorem C07_boundary_is_ub {e : Endian} {hasOrbit : D → Bool} {cid n s : Nat} {hist : List (Nat × Nat × D)}
    {as : List SatAddress} {c : Constellation D} (h : Built e hasOrbit cid n s hist as c) (p i : Nat) :
    (p = n ∧ i ≤ s ∨ p ≤ n ∧ i = s → ∀ debug, c.getSatellite debug p i = .ub .outOfRange) ∧
    (¬(p < n ∧ i < s) → c.getSatellite false p i = .ub .outOfRange) := by
  obtain ⟨inv, -⟩ := h.inv
  have hub : ¬(p < n ∧ i < s) → c.cell p i = .ub .outOfRange := by
    intro hb
    apply cell_eq_ub
    rw [← Option.not_isSome_iff_eq_none, inv.shape.cell_isSome, inv.nPlanes_eq, inv.planeSize_eq]
    exact hb
  constructor
  · intro hb debug
    have h1 : p ≤ n := by omega
    have h2 : i ≤ s := by omega
    simp [getSatellite, inv.nPlanes_eq, inv.planeSize_eq, h1, h2, hub (by omega)]
  · intro hb
    simp [getSatellite, hub hb]

theorem C07_claim_false : ¬ C07_claim := by
  intro h
  have := h Nat .little (fun _ => true) 1 2 2 _ _ _ sparseExample_built 2 0 (by omega)
  revert this
  decide

/-! ### Non-vacuity -/

/-- A full 2 × 1 constellation built by two additions in "wrong" order. -/
def fullExample : Constellation Nat :=
  { constellationId := 3, nPlanes := 2, planeSize := 1, planes := [[some 20], [some 10]], size := 2 }

example : Built .big (fun _ => true) 3 2 1 [(1, 0, 10), (0, 0, 20)]
    [SatAddress.mk3 .big 3 1 0, SatAddress.mk3 .big 3 0 0] fullExample := by unfold Built; decide
example : Fits16 3 2 1 := by unfold Fits16; decide
example : [(1, 0, 10), (0, 0, 20)].length = 2 * 1 := rfl
example : fullExample.getClosest (fun d => d) = some 10 := by decide
example : fullExample.get true 0 = .ok (some 20) ∧ fullExample.get true 1 = .ok (some 10) ∧
    fullExample.get true 2 = .ub .outOfRange ∧ fullExample.get true 3 = .abort := by decide

end Icarus
