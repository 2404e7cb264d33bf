import Verif.Props.Scenario

/-!
# Outcome of the set-up for any number of satellites (C87)

`IcarusHelper::Install` on all nodes, then `ISLHelper::Install` on a container of satellites, with fewer satellites than the constellation has seats, with as
many, or with more.
-/

set_option autoImplicit false

namespace Icarus

namespace Isl
open Constellation

variable {D : Type}

/-- Equal numbers pass the first check of `ISLHelper::Install`. -/
theorem sameConstellation_of_eq (l : List UInt16) : ∀ cur : UInt16, (∀ x ∈ l, ∀ y ∈ l, x = y) → (cur ≠ 0 → ∀ x ∈ l, x = cur) →
    sameConstellation cur l = true := by
  induction l with
  | nil => intros; rfl
  | cons x xs ih =>
    intro cur hall hcur
    unfold sameConstellation
    split
    · rename_i hc
      rw [hcur hc x (by simp)]
      simp only [BEq.rfl, Bool.true_and]
      exact ih cur (fun a ha b hb => hall a (by simp [ha]) b (by simp [hb])) (fun _ a ha => hcur hc a (by simp [ha]))
    · exact ih x (fun a ha b hb => hall a (by simp [ha]) b (by simp [hb])) (fun _ a ha => hall a (by simp [ha]) x (by simp))

/-- Looking up a list of places of which one is empty. -/
theorem resolve_missing (debug : Bool) (c : Constellation D) (ls : List (Nat × Nat))
    (h : ∀ a ∈ ls, (∃ d, nodeAt debug c a = .ok d) ∨ nodeAt debug c a = .ub .nullDeref) (a : Nat × Nat) (ha : a ∈ ls)
    (hn : nodeAt debug c a = .ub .nullDeref) : resolve debug c (ls.map (fun x => (x, x))) = .ub .nullDeref := by
  induction ls with
  | nil => simp at ha
  | cons x xs ih =>
    rcases h x (by simp) with ⟨d, hd⟩ | hx
    · have hne : a ≠ x := by
        rintro rfl
        rw [hd] at hn; cases hn
      have := ih (fun y hy => h y (by simp [hy])) (by simpa [hne] using ha)
      simp [resolve, hd, this]
    · simp [resolve, hx]

theorem nodeAt_of_inv {cid n s : Nat} {hist : List (Nat × Nat × D)} {c : Constellation D} (inv : Inv cid n s c hist) (debug : Bool)
    {p i : Nat} (hp : p < n) (hi : i < s) : nodeAt debug c (p, i) = Outcome.deref (lookup hist p i) := by
  simp [nodeAt, getSatellite, inv.nPlanes_eq, inv.planeSize_eq, Nat.le_of_lt hp, Nat.le_of_lt hi, cell_eq_ok.mpr (inv.cells p i hp hi)]

theorem exists_empty {n s : Nat} {hist : List (Nat × Nat × D)}
    (hlt : hist.length < n * s) : ∃ p i, p < n ∧ i < s ∧ lookup hist p i = none := by
  by_contra hno
  push Not at hno
  have hnd : (List.range n ×ˢ List.range s).Nodup := List.Nodup.product List.nodup_range List.nodup_range
  have hsub : (List.range n ×ˢ List.range s) ⊆ hist.map (fun x => (x.1, x.2.1)) := by
    rintro ⟨p, i⟩ hm
    have hm := List.pair_mem_product.mp hm
    by_contra hc
    exact hno p i (by simpa using hm.1) (by simpa using hm.2) (lookup_eq_none.mpr hc)
  have := (List.Nodup.subperm hnd hsub).length_le
  rw [List.length_product, List.length_range, List.length_range, List.length_map] at this
  omega

/-- An incomplete constellation: whatever the container, no link is ever made. -/
theorem install_incomplete {cid n s : Nat} {hist : List (Nat × Nat × D)} {c : Constellation D} (inv : Inv cid n s c hist)
    (hlt : hist.length < n * s) (debug : Bool) (ids : List UInt16) (hids : ∀ x ∈ ids, ∀ y ∈ ids, x = y) :
    install debug c ids = if debug = true ∧ ids.length ≠ hist.length then .assertFail else .ub .nullDeref := by
  obtain ⟨p, i, hp, hi, hl⟩ := exists_empty hlt
  have hsize : c.getSize debug = .ok hist.length := by
    simp [getSize, inv.size_eq, inv.nPlanes_eq, inv.planeSize_eq, hlt.le]
  have hres := resolve_missing debug c ((List.range n).flatMap (fun i => (List.range s).map (fun j => (i, j))))
    (by
      intro a ha
      simp only [List.mem_flatMap, List.mem_map, List.mem_range] at ha
      obtain ⟨q, hq, j, hj, rfl⟩ := ha
      rw [nodeAt_of_inv inv debug hq hj]
      cases lookup hist q j with
      | none => right; rfl
      | some d => left; exact ⟨d, rfl⟩)
    (p, i) (by simp [hp, hi]) (by rw [nodeAt_of_inv inv debug hp hi, hl]; rfl)
  simp only [List.map_flatMap, List.map_map, Function.comp_def] at hres
  unfold install
  rw [sameConstellation_of_eq ids 0 hids (by simp), hsize, inv.nPlanes_eq, inv.planeSize_eq, hres]
  cases debug with
  | false => simp [Outcome.nsAssert]
  | true =>
    by_cases hlen : ids.length = hist.length
    · simp [Outcome.nsAssert, hlen]
    · simp [Outcome.nsAssert, hlen]

end Isl

namespace Scenario
open IcarusHelper ConstellationHelper Isl

variable {N V : Type} [DecidableEq N]

/-- The device and address that `ISLHelper::Install` finds on the satellites of its container. -/
theorem ids_of_install (h : Host) (cid n s ph : Nat) (alt inc : ℚ) (pos : N → Option V) (macs : Nat) (nodes birds : List N) (hnd : nodes.Nodup)
    (hfit : Fits16 cid n s) (hcap : nodes.countP (fun x => (pos x).isNone) ≤ n * s)
    (hbirds : ∀ b ∈ birds, b ∈ nodes ∧ pos b = none) (st : St N V)
    (hst : install h.debug h.endian (St.init (create cid alt inc n s ph) pos macs) nodes = .ok st) :
    constellationIds h st birds = .ok (List.replicate birds.length (UInt16.ofNat cid)) := by
  obtain ⟨st', j1, -, j3, -⟩ := C54_install h.debug h.endian cid n s ph alt inc pos macs nodes hnd hcap hfit
  obtain rfl : st = st' := by rw [hst] at j1; exact Outcome.ok.inj j1
  obtain ⟨st', i1, hi, -⟩ := install_ok h.debug h.endian cid n s ph alt inc pos macs nodes hnd hcap
  obtain rfl : st = st' := by rw [hst] at i1; exact Outcome.ok.inj i1
  have hndd : (st.devices.map (fun x => x.dev.node)).Nodup := by rw [hi.nodes]; exact hnd
  apply constellationIds_ok
  intro b hb
  obtain ⟨b1, b2⟩ := hbirds b hb
  obtain ⟨k, hk⟩ := List.mem_iff_getElem?.mp b1
  obtain ⟨d, a, c1, c2, c3, -⟩ := j3 k b hk b2
  have := filter_unique (fun z : Installed N => z.dev.node) _ hndd _ (List.mem_of_getElem? c1)
  rw [show (Installed.sat d a).dev.node = b from c2] at this
  refine ⟨d, a, [], by simp [devices, ends, this], ?_⟩
  rw [← c3]; simp

/-! ## C87 -/

/-- **Too few satellites.**  Fewer nodes without position than seats: `IcarusHelper::Install` succeeds, and `ISLHelper::Install` on any container of satellites
dereferences a null pointer.  The assertion of the debug build, "we need a complete constellation", only stops containers that leave some satellite out (or list
one twice). -/
theorem C87_too_few (h : Host) (cid n s ph : Nat) (alt inc : ℚ) (pos : N → Option V) (macs : Nat) (nodes birds : List N) (hnd : nodes.Nodup)
    (hfit : Fits16 cid n s) (hfew : nodes.countP (fun x => (pos x).isNone) < n * s) (hbirds : ∀ b ∈ birds, b ∈ nodes ∧ pos b = none) :
    (∃ st, install h.debug h.endian (St.init (create cid alt inc n s ph) pos macs) nodes = .ok st) ∧
    build h (create cid alt inc n s ph) pos macs nodes birds =
      if h.debug = true ∧ birds.length ≠ nodes.countP (fun x => (pos x).isNone) then .assertFail else .ub .nullDeref := by
  obtain ⟨st, i1, hi, hl⟩ := install_ok h.debug h.endian cid n s ph alt inc pos macs nodes hnd hfew.le
  refine ⟨⟨st, i1⟩, ?_⟩
  have hids := ids_of_install h cid n s ph alt inc pos macs nodes birds hnd hfit hfew.le hbirds st i1
  have hhl : (histFrom s 0 (st.devices.filterMap satOf)).length = nodes.countP (fun x => (pos x).isNone) := by rw [histFrom_length, hl]
  have := install_incomplete hi.helper.inv (by rw [hhl]; exact hfew) h.debug (List.replicate birds.length (UInt16.ofNat cid))
    (fun x hx y hy => (List.eq_of_mem_replicate hx).trans (List.eq_of_mem_replicate hy).symm)
  rw [hhl, List.length_replicate] at this
  simp only [build, i1, Outcome.bind_ok, hids, this]
  split <;> rfl

/-- **As many satellites as seats.**  The set-up succeeds, except that a debug build rejects containers whose length is not the number of satellites; in a release
build the container makes no difference, it may even be empty.  There is one link between the satellites of neighbouring places of the torus and no other; `sat` numbers
the satellites in launch order. -/
theorem C87_exact (h : Host) (cid n s ph : Nat) (alt inc : ℚ) (pos : N → Option V) (macs : Nat) (nodes birds : List N) (hnd : nodes.Nodup)
    (hfit : Fits16 cid n s) (hlen : (nodes.filter (fun x => (pos x).isNone)).length = n * s) (hbirds : ∀ b ∈ birds, b ∈ nodes ∧ pos b = none)
    (sat : Nat × Nat → N) (hsat : ∀ p i, p < n → i < s → (nodes.filter (fun x => (pos x).isNone))[p * s + i]? = some (sat (p, i))) :
    (h.debug = true ∧ birds.length ≠ n * s → build h (create cid alt inc n s ph) pos macs nodes birds = .assertFail) ∧
    (¬ (h.debug = true ∧ birds.length ≠ n * s) → ∃ net, build h (create cid alt inc n s ph) pos macs nodes birds = .ok net ∧
      (∀ a b : Nat × Nat, a.1 < n → a.2 < s → b.1 < n → b.2 < s →
        net.links.countP (fun l => l = (sat a, sat b) ∨ l = (sat b, sat a)) = if TorusAdj n s a b then 1 else 0) ∧
      ∀ l ∈ net.links, ∃ a b, TorusAdj n s a b ∧ l = (sat a, sat b)) := by
  have hcount : nodes.countP (fun x => (pos x).isNone) = n * s := by rw [List.countP_eq_length_filter]; exact hlen
  have hids := fun (bs : List N) (hb : ∀ b ∈ bs, b ∈ nodes ∧ pos b = none) st hst =>
    ids_of_install h cid n s ph alt inc pos macs nodes bs hnd hfit (Nat.le_of_eq hcount) hb st hst
  constructor
  · rintro ⟨hd, hne⟩
    obtain ⟨st, i1, hi, hl⟩ := install_ok h.debug h.endian cid n s ph alt inc pos macs nodes hnd (Nat.le_of_eq hcount)
    have hhl : (histFrom s 0 (st.devices.filterMap satOf)).length = n * s := by rw [histFrom_length, hl, hcount]
    have hsize : st.helper.constellation.getSize true = .ok (n * s) := by
      simp [Constellation.getSize, hi.helper.inv.size_eq, hi.helper.inv.nPlanes_eq, hi.helper.inv.planeSize_eq, hhl]
    have hsame := sameConstellation_of_eq (List.replicate birds.length (UInt16.ofNat cid)) 0
      (fun x hx y hy => (List.eq_of_mem_replicate hx).trans (List.eq_of_mem_replicate hy).symm) (by simp)
    have : Isl.install h.debug st.helper.constellation (List.replicate birds.length (UInt16.ofNat cid)) = .assertFail := by
      rw [hd]
      simp [Isl.install, Outcome.nsAssert, hsame, hsize, hne]
    simp only [build, i1, Outcome.bind_ok, hids birds hbirds st i1, this]
    rfl
  · intro hok
    have hnum : ∀ p i, p < n → i < s → p * s + i < n * s := by
      intro p i hp hi
      calc p * s + i < p * s + s := by omega
        _ = (p + 1) * s := by ring
        _ ≤ n * s := Nat.mul_le_mul_right _ hp
    have hinj : ∀ a b : Nat × Nat, a.1 < n → a.2 < s → b.1 < n → b.2 < s → sat a = sat b → a = b := by
      rintro ⟨p, i⟩ ⟨q, j⟩ h1 h2 h3 h4 heq
      have e1 := hsat p i h1 h2
      have e2 := hsat q j h3 h4
      rw [← heq, ← e1] at e2
      have e3 := (List.nodup_iff_getElem?_ne_getElem?.mp (hnd.filter (fun x => (pos x).isNone)))
      have heq' : p * s + i = q * s + j := by
        rcases Nat.lt_trichotomy (p * s + i) (q * s + j) with hlt | he | hgt
        · exact absurd e2.symm (e3 _ _ hlt (by rw [hlen]; exact hnum q j h3 h4))
        · exact he
        · exact absurd e2 (e3 _ _ hgt (by rw [hlen]; exact hnum p i h1 h2))
      have hs : 0 < s := by simp only at h2; omega
      have d1 : (p * s + i) / s = p := by rw [Nat.mul_comm, Nat.mul_add_div hs, Nat.div_eq_of_lt h2, Nat.add_zero]
      have d2 : (q * s + j) / s = q := by rw [Nat.mul_comm, Nat.mul_add_div hs, Nat.div_eq_of_lt h4, Nat.add_zero]
      have : p = q := by rw [← d1, ← d2, heq']
      subst this
      simp only [Prod.mk.injEq, true_and]
      omega
    have hb0 : ∀ b ∈ nodes.filter (fun x => (pos x).isNone), b ∈ nodes ∧ pos b = none := by
      intro b hb
      simpa using hb
    obtain ⟨st, b1, -⟩ := build_ok h cid n s ph alt inc pos macs nodes _ hnd hfit hlen hb0 hlen sat hsat
    have hbuild : build h (create cid alt inc n s ph) pos macs nodes birds = .ok ⟨st, satLinks n s sat⟩ := by
      by_cases hbl : birds.length = n * s
      · obtain ⟨st', b2, -⟩ := build_ok h cid n s ph alt inc pos macs nodes birds hnd hfit hlen hbirds hbl sat hsat
        obtain ⟨st0, i1, -⟩ := install_ok h.debug h.endian cid n s ph alt inc pos macs nodes hnd (Nat.le_of_eq hcount)
        rw [← b1]
        simp only [build, i1, Outcome.bind_ok, hids birds hbirds st0 i1, hids _ hb0 st0 i1, hbl, hlen]
      · have hd : h.debug = false := by
          cases hd : h.debug with
          | false => rfl
          | true => exact absurd ⟨hd, hbl⟩ hok
        obtain ⟨st0, i1, -⟩ := install_ok h.debug h.endian cid n s ph alt inc pos macs nodes hnd (Nat.le_of_eq hcount)
        rw [← b1]
        simp only [build, i1, Outcome.bind_ok, hids birds hbirds st0 i1, hids _ hb0 st0 i1]
        simp only [Isl.install, Outcome.nsAssert, hd]
        rfl
    have hgrid : ∀ l ∈ gridLinks n s, TorusAdj n s l.1 l.2 := by
      rintro ⟨a, b⟩ hl
      exact torusAdj_iff.mpr (.inl hl)
    refine ⟨_, hbuild, ?_, ?_⟩
    · intro a b a1 a2 b1 b2
      rw [← C11_links_are_torus_grid n s a b]
      simp only [satLinks, List.countP_map]
      apply List.countP_congr
      rintro ⟨x, y⟩ hl
      have hadj := hgrid _ hl
      obtain ⟨x1, x2⟩ : x.1 < n ∧ x.2 < s := ⟨hadj.1, hadj.2.1⟩
      obtain ⟨y1, y2⟩ : y.1 < n ∧ y.2 < s := by
        obtain ⟨-, -, ⟨e1, -, r2, -⟩ | ⟨e1, -, r2, -⟩⟩ := hadj
        · exact ⟨by simp only at e1; omega, r2⟩
        · exact ⟨r2, by simp only at e1; omega⟩
      have key : ∀ u v : Nat × Nat, u.1 < n → u.2 < s → v.1 < n → v.2 < s → ((sat x, sat y) = (sat u, sat v) ↔ (x, y) = (u, v)) := by
        intro u v u1 u2 v1 v2
        simp only [Prod.mk.injEq]
        exact ⟨fun ⟨e1, e2⟩ => ⟨hinj _ _ x1 x2 u1 u2 e1, hinj _ _ y1 y2 v1 v2 e2⟩, fun ⟨e1, e2⟩ => ⟨by rw [e1], by rw [e2]⟩⟩
      simp only [Function.comp_apply, joins, key a b a1 a2 b1 b2, key b a b1 b2 a1 a2]
    · intro l hl
      simp only [satLinks, List.mem_map] at hl
      obtain ⟨⟨a, b⟩, hm, rfl⟩ := hl
      exact ⟨a, b, hgrid _ hm, rfl⟩

/-- **Too many satellites.**  `IcarusHelper::Install` itself goes wrong: it reads outside the table of the constellation; in a debug build an assertion on the ascending
node stops it. -/
theorem C87_too_many (h : Host) (cid n s ph : Nat) (alt inc : ℚ) (pos : N → Option V) (macs : Nat) (nodes birds : List N) (hnd : nodes.Nodup)
    (hn : 0 < n) (hs : 0 < s) (hmany : n * s < nodes.countP (fun x => (pos x).isNone)) :
    install h.debug h.endian (St.init (create cid alt inc n s ph) pos macs) nodes = (if h.debug then .assertFail else .ub .outOfRange) ∧
    build h (create cid alt inc n s ph) pos macs nodes birds = if h.debug then .assertFail else .ub .outOfRange := by
  have key : install h.debug h.endian (St.init (create cid alt inc n s ph) pos macs) nodes = if h.debug then .assertFail else .ub .outOfRange := by
    induction nodes using List.reverseRecOn with
    | nil => simp at hmany
    | append_singleton os o ih =>
      rw [List.nodup_append] at hnd
      obtain ⟨n1, -, n3⟩ := hnd
      simp only [List.countP_append, List.countP_cons, List.countP_nil, Nat.zero_add] at hmany
      rw [install_snoc]
      by_cases hlt : n * s < os.countP (fun x => (pos x).isNone)
      · rw [ih n1 hlt]
        split <;> rfl
      · have hp : pos o = none := by
          cases hpo : pos o with
          | none => rfl
          | some v => simp [hpo] at hmany; omega
        have heq : os.countP (fun x => (pos x).isNone) = n * s := by simp [hp] at hmany; omega
        obtain ⟨st, i1, hi, hl⟩ := install_ok h.debug h.endian cid n s ph alt inc pos macs os n1 (Nat.le_of_eq heq)
        have hmob := hi.mobility o (.inr (fun hm => n3 o hm o (by simp) rfl))
        rw [heq] at hl
        have horb : st.helper.orbitIndex = 0 := by rw [hi.helper.orbit_eq, hl]; exact Nat.mul_mod_left _ _
        have hpl : st.helper.planeIndex = n := by rw [hi.helper.plane_eq, hl, Nat.mul_div_cancel _ hs]
        have hph : st.helper.phase = 0 := by rw [hi.helper.phase_eq, hl, Nat.mul_mod_left]; simp
        have hasc : st.helper.ascendingNode = 360 := by
          rw [hi.helper.asc_eq, hl, Nat.mul_div_cancel _ hs]
          have : (n : ℚ) ≠ 0 := by exact_mod_cast Nat.pos_iff_ne_zero.mp hn
          field_simp
        have hlaunch : ∀ d, st.helper.launch h.debug h.endian d = if h.debug then .assertFail else .ub .outOfRange := by
          intro d
          unfold launch
          rw [if_neg (by rw [horb]; exact fun hc => Nat.lt_irrefl _ hc.2)]
          cases hd : h.debug with
          | true => simp [hph, hasc]
          | false =>
            simp only [Bool.false_eq_true, false_and, if_false]
            rw [Constellation.inv_addSatellite_cases h.endian (fun _ => true) hi.helper.inv, if_neg (by rw [hpl]; exact fun hc => Nat.lt_irrefl _ hc.1)]
        rw [i1, Outcome.bind_ok]
        unfold installPriv
        rw [hmob, hp]
        simp only [Option.map_none, hlaunch]
        cases h.debug <;> rfl
  refine ⟨key, ?_⟩
  simp only [build, key]
  cases h.debug <;> rfl

/-- A container with a ground station: device 0 is no satellite device, and a null pointer is dereferenced in every build. -/
theorem C87_ground_in_container (h : Host) (cid n s ph : Nat) (alt inc : ℚ) (pos : N → Option V) (macs : Nat) (nodes birds : List N) (hnd : nodes.Nodup)
    (hcap : nodes.countP (fun x => (pos x).isNone) ≤ n * s) (hbirds : ∀ b ∈ birds, b ∈ nodes) (g : N) (hg : g ∈ birds)
    (hpos : pos g ≠ none) : build h (create cid alt inc n s ph) pos macs nodes birds = .ub .nullDeref := by
  obtain ⟨st, i1, hi, -⟩ := install_ok h.debug h.endian cid n s ph alt inc pos macs nodes hnd hcap
  have hndd : (st.devices.map (fun x => x.dev.node)).Nodup := by rw [hi.nodes]; exact hnd
  have hids : ∀ bs : List N, (∀ b ∈ bs, b ∈ nodes) → g ∈ bs → constellationIds h st bs = .ub .nullDeref := by
    intro bs
    induction bs with
    | nil => intro _ hm; simp at hm
    | cons b bs ih =>
      intro hb hm
      have hbn := hb b (by simp)
      rw [← hi.nodes] at hbn
      obtain ⟨y, hy, rfl⟩ := List.mem_map.mp hbn
      have hdev : devices ⟨st, []⟩ y.dev.node = [.icarus y] := by
        have := filter_unique (fun z : Installed N => z.dev.node) _ hndd y hy
        simp [devices, ends, this]
      obtain ⟨k, hk⟩ := List.mem_iff_getElem?.mp hy
      cases y with
      | ground d m => simp [constellationIds, hdev, Outcome.index]
      | sat d a =>
        have hne : g ≠ (Installed.sat d a).dev.node := by
          rintro rfl
          exact hpos (hi.sats k d a hk).1
        have := ih (fun x hx => hb x (by simp [hx])) (by simpa [hne] using hm)
        simp [constellationIds, hdev, Outcome.index, this]
  simp only [build, i1, Outcome.bind_ok, hids birds hbirds hg]
  rfl

/-- The program examples/isl-vostping.cc launches two satellites into one plane of fifty and installs the inter-satellite links: it dereferences a null pointer, in
debug and in release builds. -/
theorem C87_isl_vostping (h : Host) (cid : Nat) (hcid : cid < 65536) (macs : Nat) :
    build h (create cid 250000 60 1 50 1) (fun _ : Nat => (none : Option V)) macs [0, 1] [0, 1] = .ub .nullDeref := by
  have := (C87_too_few h cid 1 50 1 250000 60 (fun _ : Nat => (none : Option V)) macs [0, 1] [0, 1] (by simp) ⟨hcid, by simp, by simp⟩ (by simp)
    (by simp)).2
  simpa using this

/-- The programs examples/isl-grid.cc (six planes of twenty) and examples/ground2groundping.cc (fourteen planes of twenty, the last two nodes on the ground): their
set-ups succeed. -/
theorem C87_complete_examples (h : Host) (cid : Nat) (hcid : cid < 65536) (macs : Nat) (v : V) :
    (∃ net, build h (create cid 250000 60 6 20 1) (fun _ : Nat => (none : Option V)) macs (List.range 120) (List.range 120) = .ok net) ∧
    ∃ net, build h (create cid 250000 60 14 20 1) (fun x : Nat => if 280 ≤ x then some v else none) macs (List.range 282) (List.range 280) = .ok net := by
  have f2 : (List.range 282).filter (fun x => (if 280 ≤ x then some v else none : Option V).isNone) = List.range 280 := by
    rw [show 282 = 280 + 2 from rfl, List.range_add, List.filter_append]
    rw [List.filter_eq_self.mpr (by intro x hx; simp at hx; simp; omega), List.filter_eq_nil_iff.mpr (by
      intro x hx
      obtain ⟨y, -, rfl⟩ := List.mem_map.mp hx
      simp), List.append_nil]
  constructor
  · obtain ⟨sat, hsat⟩ := sat_default (n := 6) (s := 20) (l := List.range 120) 0 (by simp)
    obtain ⟨net, hnet, -⟩ := (C87_exact h cid 6 20 1 250000 60 (fun _ : Nat => (none : Option V)) macs (List.range 120) (List.range 120) List.nodup_range
      ⟨hcid, by simp, by simp⟩ (by simp) (by simp) sat (by simpa using hsat)).2 (by simp)
    exact ⟨net, hnet⟩
  · obtain ⟨sat, hsat⟩ := sat_default (n := 14) (s := 20) (l := List.range 280) 0 (by simp)
    obtain ⟨net, hnet, -⟩ := (C87_exact h cid 14 20 1 250000 60 (fun x : Nat => if 280 ≤ x then some v else none) macs (List.range 282) (List.range 280)
      List.nodup_range ⟨hcid, by simp, by simp⟩ (by rw [f2]; simp) (by intro b hb; simp at hb; simp; omega) sat (by rw [f2]; exact hsat)).2 (by simp)
    exact ⟨net, hnet⟩

/-! Concrete cases: three satellites and a ground station, constellations of 2 × 2 (too few), 1 × 3 (exact) and 1 × 2 (too many). -/

def setUpPos : Nat → Option Nat := fun x => if x = 1 then some 7 else none

example : [0, 1, 2, 3].Nodup ∧ [0, 1, 2, 3].countP (fun x => (setUpPos x).isNone) < 2 * 2 ∧
    ∀ b ∈ [0, 2, 3], b ∈ [0, 1, 2, 3] ∧ setUpPos b = none := by decide
example : Fits16 4 2 2 := by unfold Fits16; omega
example : ([0, 1, 2, 3].filter (fun x => (setUpPos x).isNone)).length = 1 * 3 := by decide
example : Fits16 4 1 3 := by unfold Fits16; omega
example : ∃ sat : Nat × Nat → Nat, ∀ p i, p < 1 → i < 3 → ([0, 1, 2, 3].filter (fun x => (setUpPos x).isNone))[p * 3 + i]? = some (sat (p, i)) :=
  sat_default 0 (by decide)
example : 1 * 2 < [0, 1, 2, 3].countP (fun x => (setUpPos x).isNone) := by decide
example : (1 : Nat) ∈ [0, 1] ∧ setUpPos 1 ≠ none ∧ ∀ b ∈ [0, 1], b ∈ [0, 1, 2, 3] := by decide

end Scenario
end Icarus
