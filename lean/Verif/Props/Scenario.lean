import Verif.Model.Scenario
import Verif.Props.IcarusHelper
import Verif.Props.GeoTag
import Verif.Props.Isl
import Verif.Props.IslNet
import Verif.Props.SatAddress

/-!
# Forwarding by GeoTag on the network that the helpers build (C63)
-/

set_option autoImplicit false

namespace Icarus
namespace Scenario
open IcarusHelper GeoTag ConstellationHelper
open IslNet (End owner makeChannel otherEnd)

variable {N V : Type} [DecidableEq N]

/-- The strategy code, run at every node on the way, sends the Interest over `m` links from node `x`, where it came in on face `i`, to node `y`, and
there to the ground.  Over a link it comes in on the face of the device at the other end. -/
inductive Carried (h : Host) (net : Net N V) (nodes : List N) (nfd : N → Nat → Nfd) (t : Nat × Nat) : Nat → N → Nat → N → Prop
  | ground {x : N} {i k : Nat} {d : Dev N} {a : SatAddress} : receive h net nodes (nfd x i) x i t = .ok [.sendInterest k] →
      (devices net x)[k]? = some (.icarus (.sat d a)) → Carried h net nodes nfd t 0 x i x
  | link {x y : N} {i k j m : Nat} {d : End net.links} : receive h net nodes (nfd x i) x i t = .ok [.sendInterest k] →
      (devices net x)[k]? = some (.isl d) → (devices net (owner net.links (otherEnd net.links d)))[j]? = some (.isl (otherEnd net.links d)) →
      Carried h net nodes nfd t m (owner net.links (otherEnd net.links d)) j y → Carried h net nodes nfd t (m + 1) x i y

/-! ## Lists -/

theorem filter_getElem? {α : Type} (p : α → Bool) (l : List α) (j : Nat) (x : α) (h : (l.filter p)[j]? = some x) :
    ∃ k, l[k]? = some x ∧ p x = true ∧ (l.take k).countP p = j := by
  induction l generalizing j with
  | nil => simp at h
  | cons y ys ih =>
    by_cases hy : p y = true
    · rw [List.filter_cons_of_pos hy] at h
      cases j with
      | zero =>
        simp only [List.getElem?_cons_zero, Option.some.injEq] at h
        subst h
        exact ⟨0, by simp, hy, by simp⟩
      | succ j =>
        rw [List.getElem?_cons_succ] at h
        obtain ⟨k, h1, h2, h3⟩ := ih j h
        exact ⟨k + 1, by simpa using h1, h2, by simp [hy, h3]⟩
    · rw [List.filter_cons_of_neg hy] at h
      obtain ⟨k, h1, h2, h3⟩ := ih j h
      exact ⟨k + 1, by simpa using h1, h2, by simp [hy, h3]⟩

theorem filter_unique {α β : Type} [DecidableEq β] (f : α → β) (l : List α) (hnd : (l.map f).Nodup) (y : α) (hy : y ∈ l) :
    l.filter (fun z => f z = f y) = [y] := by
  induction l with
  | nil => simp at hy
  | cons z zs ih =>
    simp only [List.map_cons, List.nodup_cons, List.mem_map, not_exists, not_and] at hnd
    rcases List.mem_cons.mp hy with rfl | hy
    · rw [List.filter_cons_of_pos (by simp)]
      congr 1
      rw [List.filter_eq_nil_iff]
      intro w hw
      simpa using hnd.1 w hw
    · rw [List.filter_cons_of_neg (by simpa using fun h => hnd.1 y hy h.symm)]
      exact ih hnd.2 hy

/-! ## Links between satellites, seen from the grid -/

/-- The links of the grid between the nodes `sat`. -/
abbrev satLinks (n s : Nat) (sat : Nat × Nat → N) : List (N × N) := (Isl.gridLinks n s).map (fun l => (sat l.1, sat l.2))

omit [DecidableEq N] in
/-- The place on the grid of an end of a link. -/
def place {n s : Nat} {sat : Nat × Nat → N} (d : End (satLinks n s sat)) : Nat × Nat :=
  owner (Isl.gridLinks n s) (Fin.cast (List.length_map _) d.1, d.2)

omit [DecidableEq N] in
theorem owner_place {n s : Nat} {sat : Nat × Nat → N} (d : End (satLinks n s sat)) : owner (satLinks n s sat) d = sat (place d) := by
  obtain ⟨k, b⟩ := d
  cases b <;> simp [owner, place]

omit [DecidableEq N] in
theorem place_adj {n s : Nat} {sat : Nat × Nat → N} (d : End (satLinks n s sat)) : TorusAdj n s (place d) (place (otherEnd _ d)) :=
  (IslNet.C60_neighbours n s).1 (Fin.cast (List.length_map _) d.1, d.2)

omit [DecidableEq N] in
theorem exists_end {n s : Nat} {sat : Nat × Nat → N} {a b : Nat × Nat} (hab : TorusAdj n s a b) :
    ∃ d : End (satLinks n s sat), place d = a ∧ place (otherEnd _ d) = b := by
  obtain ⟨d, ⟨h1, h2⟩, -⟩ := (IslNet.C60_neighbours n s).2 a b hab
  exact ⟨(Fin.cast (List.length_map _).symm d.1, d.2), h1, h2⟩

omit [DecidableEq N] in
theorem mem_ends (links : List (N × N)) (d : End links) : d ∈ ends links := by
  obtain ⟨k, b⟩ := d
  cases b <;> simp [ends]

/-! ## The network as built -/

/-- What building makes of the satellites and the last node. -/
structure Facts (h : Host) (n s : Nat) (sat : Nat × Nat → N) (st : St N V) (nodes : List N) : Prop where
  inj : ∀ a b : Nat × Nat, a.1 < n → a.2 < s → b.1 < n → b.2 < s → sat a = sat b → a = b
  first : ∀ a : Nat × Nat, a.1 < n → a.2 < s → ∃ d ad, st.devices.filter (fun y => y.dev.node = sat a) = [.sat d ad] ∧ d.node = sat a ∧
    placeOf h.endian ad = a
  orbit : ∀ a : Nat × Nat, a.1 < n → a.2 < s → ∃ o, st.mobility (sat a) = some (.orbit o)
  last : ∀ links, strategyNew ⟨st, links⟩ nodes = .ok (n, s)

theorem routes_ok (h : Host) (net : Net N V) (f : NetDev net.links → FaceKind) (ds : List (NetDev net.links)) (k : Nat)
    (hf : ∀ d ∈ ds, faceKind h net d = .ok (f d)) : routes h net k ds = .ok ((ds.zipIdx k).map (fun x => ⟨x.2, f x.1⟩)) := by
  induction ds generalizing k with
  | nil => rfl
  | cons d ds ih =>
    simp only [routes, hf d (by simp), Outcome.bind_ok, ih (k + 1) (fun x hx => hf x (by simp [hx])), List.zipIdx_cons, List.map_cons]

section
variable {h : Host} {n s : Nat} {sat : Nat × Nat → N} {st : St N V} {nodes : List N}

theorem devices_sat (F : Facts h n s sat st nodes) {a : Nat × Nat} (ha : a.1 < n ∧ a.2 < s) :
    ∃ d ad, d.node = sat a ∧ placeOf h.endian ad = a ∧ devices ⟨st, satLinks n s sat⟩ (sat a) =
      .icarus (.sat d ad) :: ((ends (satLinks n s sat)).filter (fun d => owner (satLinks n s sat) d = sat a)).map .isl := by
  obtain ⟨d, ad, h1, h2, h3⟩ := F.first a ha.1 ha.2
  exact ⟨d, ad, h2, h3, by simp [devices, h1]⟩

theorem nodePlace_sat (F : Facts h n s sat st nodes) {a : Nat × Nat} (ha : a.1 < n ∧ a.2 < s) :
    nodePlace h ⟨st, satLinks n s sat⟩ (sat a) = .ok a := by
  obtain ⟨d, ad, -, h2, h3⟩ := devices_sat F ha
  simp [nodePlace, h3, Outcome.index, deviceAddress, (C01_roundtrip h.debug h.endian h.satTy ad).1, h2]

/-- The face of a device on satellite `a`, in closed form. -/
def kindAt (a : Nat × Nat) : NetDev (satLinks n s sat) → FaceKind
  | .icarus _ => .other a
  | .isl d => .isl (place (d.1, false)) (place (d.1, true)) (!d.2)

omit [DecidableEq N] in
theorem place_range (d : End (satLinks n s sat)) : (place d).1 < n ∧ (place d).2 < s := ⟨(place_adj d).1, (place_adj d).2.1⟩

theorem faceKind_sat (F : Facts h n s sat st nodes) {a : Nat × Nat} (ha : a.1 < n ∧ a.2 < s) :
    ∀ d ∈ devices ⟨st, satLinks n s sat⟩ (sat a), faceKind h ⟨st, satLinks n s sat⟩ d = .ok (kindAt a d) := by
  obtain ⟨d0, ad, h1, h2, h3⟩ := devices_sat F ha
  intro d hd
  rw [h3] at hd
  rcases List.mem_cons.mp hd with rfl | hd
  · simp only [faceKind, h1, nodePlace_sat F ha, Outcome.bind_ok, kindAt]
  · obtain ⟨e, -, rfl⟩ := List.mem_map.mp hd
    obtain ⟨k, b⟩ := e
    have hp : ∀ b, hasPos (⟨st, satLinks n s sat⟩ : Net N V) (owner (satLinks n s sat) (k, b)) = true := by
      intro b
      obtain ⟨o, ho⟩ := F.orbit _ (place_range (k, b)).1 (place_range (k, b)).2
      rw [owner_place]; simp [hasPos, ho]
    have ho : hasOrbit (⟨st, satLinks n s sat⟩ : Net N V) (owner (satLinks n s sat) (k, true)) = true := by
      obtain ⟨o, ho⟩ := F.orbit _ (place_range (k, true)).1 (place_range (k, true)).2
      rw [owner_place]; simp [hasOrbit, ho]
    have hm : makeChannel h.debug (hasPos (⟨st, satLinks n s sat⟩ : Net N V)) (hasOrbit ⟨st, satLinks n s sat⟩) (satLinks n s sat) k =
        .ok ⟨2, ⟨false, some (k, false), some (k, true)⟩, ⟨false, some (k, true), some (k, false)⟩⟩ := by
      simp [makeChannel, Sat2SatChannel.attachAll, Sat2SatChannel.attach, Sat2SatChannel.putEnd, Sat2SatChannel.Chan.init, hp, ho]
    have hn : ∀ b, nodePlace h ⟨st, satLinks n s sat⟩ (owner (satLinks n s sat) (k, b)) = .ok (place (k, b)) := by
      intro b
      rw [owner_place]; exact nodePlace_sat F (place_range _)
    simp only [faceKind, hm, Outcome.bind_ok, Sat2SatChannel.getDevice, kindAt]
    simp [Outcome.deref, hn]

/-- The environment of the strategy at satellite `a`. -/
theorem receive_sat (F : Facts h n s sat st nodes) {a : Nat × Nat} (ha : a.1 < n ∧ a.2 < s) (nfd : Nfd) (t : Nat × Nat) {i : Nat}
    {di : NetDev (satLinks n s sat)} (hi : (devices ⟨st, satLinks n s sat⟩ (sat a))[i]? = some di) :
    receive h ⟨st, satLinks n s sat⟩ nodes nfd (sat a) i t = afterReceiveInterest
      { nPlanes := n
        planeSize := s
        suppression := nfd.suppression
        nexthops := nfd.order (((devices ⟨st, satLinks n s sat⟩ (sat a)).zipIdx 0).map (fun x => ⟨x.2, kindAt a x.1⟩))
        tag := some t
        ingress := kindAt a di
        this := some a
        eligible := fun g => g.face ≠ i || adHoc g.kind
        unused := nfd.unused
        lastRenewed := nfd.lastRenewed } := by
  obtain ⟨d0, ad, h1, h2, h3⟩ := devices_sat F ha
  have hthis : thisPlace h ⟨st, satLinks n s sat⟩ (sat a) = some a := by simp [thisPlace, h3, h2]
  have hidx : Outcome.index (((devices ⟨st, satLinks n s sat⟩ (sat a)).zipIdx 0).map (fun x => (⟨x.2, kindAt a x.1⟩ : NextHop))) i =
      .ok ⟨i, kindAt a di⟩ := by
    simp only [Outcome.index, List.getElem?_map, List.getElem?_zipIdx, hi, Option.map_some, Nat.zero_add]
  simp only [receive, F.last, Outcome.bind_ok, routes_ok h ⟨st, satLinks n s sat⟩ (kindAt a) _ 0 (faceKind_sat F ha), hidx, hthis]

omit [DecidableEq N] in
theorem mem_hops {a : Nat × Nat} {ds : List (NetDev (satLinks n s sat))} {g : NextHop} :
    g ∈ (ds.zipIdx 0).map (fun x => (⟨x.2, kindAt a x.1⟩ : NextHop)) ↔ ∃ k d, ds[k]? = some d ∧ g = ⟨k, kindAt a d⟩ := by
  simp only [List.mem_map, Prod.exists]
  constructor
  · rintro ⟨d, k, hm, rfl⟩
    exact ⟨k, d, List.mk_mem_zipIdx_iff_getElem?.mp hm, rfl⟩
  · rintro ⟨k, d, hm, rfl⟩
    exact ⟨d, k, List.mk_mem_zipIdx_iff_getElem?.mpr hm, rfl⟩

omit [DecidableEq N] in
theorem leadsTo_isl (a : Nat × Nat) (k : Nat) (d : End (satLinks n s sat)) :
    leadsTo ⟨k, kindAt a (.isl d)⟩ = some (place (otherEnd _ d)) := by
  obtain ⟨k, b⟩ := d
  cases b <;> simp [leadsTo, kindAt, otherEnd]

/-- Where device `d` on satellite `a` leads. -/
theorem device_at (F : Facts h n s sat st nodes) {a : Nat × Nat} (ha : a.1 < n ∧ a.2 < s) {k : Nat} {d : NetDev (satLinks n s sat)}
    (hk : (devices ⟨st, satLinks n s sat⟩ (sat a))[k]? = some d) :
    (∃ d0 ad, d = .icarus (.sat d0 ad)) ∨ ∃ e, d = .isl e ∧ place e = a := by
  obtain ⟨d0, ad, h1, h2, h3⟩ := devices_sat F ha
  have hm := List.mem_of_getElem? hk
  rw [h3] at hm
  rcases List.mem_cons.mp hm with rfl | hm
  · exact Or.inl ⟨_, _, rfl⟩
  · obtain ⟨e, he, rfl⟩ := List.mem_map.mp hm
    refine Or.inr ⟨e, rfl, ?_⟩
    have := (List.mem_filter.mp he).2
    rw [decide_eq_true_eq, owner_place] at this
    exact F.inj _ _ (place_range e).1 (place_range e).2 ha.1 ha.2 this

theorem end_device (st : St N V) (e : End (satLinks n s sat)) :
    ∃ k : Nat, (devices ⟨st, satLinks n s sat⟩ (owner (satLinks n s sat) e))[k]? = some (NetDev.isl e) := by
  rw [← List.mem_iff_getElem?]
  simp [devices, mem_ends]

theorem adj_ne {a b : Nat × Nat} (hab : TorusAdj n s a b) : a ≠ b := by
  rintro rfl
  rcases torusAdj_iff.mp hab with h | h <;> (rw [Isl.mem_gridLinks] at h; omega)

theorem forwards (F : Facts h n s sat st nodes) {nfd : Nfd} (hsup : nfd.suppression ≠ .suppress) (hord : ∀ l, (nfd.order l).Perm l)
    {a t : Nat × Nat} (ha : a.1 < n ∧ a.2 < s) (ht : t.1 < n ∧ t.2 < s) {i k0 : Nat} {di d0 : NetDev (satLinks n s sat)}
    (hi : (devices ⟨st, satLinks n s sat⟩ (sat a))[i]? = some di) (hk0 : (devices ⟨st, satLinks n s sat⟩ (sat a))[k0]? = some d0)
    (hel : k0 ≠ i ∨ adHoc (kindAt a d0) = true) (hl : leadsTo ⟨k0, kindAt a d0⟩ = some ((hop n s t a).getD a)) :
    ∃ k d, (devices ⟨st, satLinks n s sat⟩ (sat a))[k]? = some d ∧ leadsTo ⟨k, kindAt a d⟩ = some ((hop n s t a).getD a) ∧
      receive h ⟨st, satLinks n s sat⟩ nodes nfd (sat a) i t = .ok [.sendInterest k] := by
  rw [receive_sat F ha nfd t hi]
  set hops := ((devices ⟨st, satLinks n s sat⟩ (sat a)).zipIdx 0).map (fun x => (⟨x.2, kindAt a x.1⟩ : NextHop)) with hh
  have hmem : ∀ g, g ∈ nfd.order hops ↔ ∃ k d, (devices ⟨st, satLinks n s sat⟩ (sat a))[k]? = some d ∧ g = ⟨k, kindAt a d⟩ := by
    intro g
    rw [(hord hops).mem_iff, hh, mem_hops]
  have hing : kindAt a di ≠ .noDevice := by cases di <;> simp [kindAt]
  obtain ⟨g, hg, -, hgl, hgs⟩ := (C16_tagged_grid (env := ⟨n, s, nfd.suppression, nfd.order hops, some t, kindAt a di, some a,
      fun g => g.face ≠ i || adHoc g.kind, nfd.unused, nfd.lastRenewed⟩) hsup rfl hing rfl ha ht (by
    intro g hg
    obtain ⟨k, d, hk, rfl⟩ := (hmem g).mp hg
    rcases device_at F ha hk with ⟨_, _, rfl⟩ | ⟨e, rfl, he⟩
    · exact ⟨a, rfl, Or.inl rfl⟩
    · exact ⟨_, leadsTo_isl a k e, Or.inr (he ▸ place_adj e)⟩)).1 ⟨k0, kindAt a d0⟩ ((hmem _).mpr ⟨k0, d0, hk0, rfl⟩)
    (by simpa using hel) hl
  obtain ⟨k, d, hk, rfl⟩ := (hmem g).mp hg
  exact ⟨k, d, hk, hgl.trans hl, hgs⟩

theorem carried (F : Facts h n s sat st nodes) (nfd : N → Nat → Nfd) (hsup : ∀ x i, (nfd x i).suppression ≠ .suppress)
    (hord : ∀ x i l, ((nfd x i).order l).Perm l) {t : Nat × Nat} (ht : t.1 < n ∧ t.2 < s) :
    ∀ (k : Nat) (a : Nat × Nat) (i : Nat) (di : NetDev (satLinks n s sat)), (a.1 < n ∧ a.2 < s) → torusDist n s a t = k →
      (devices ⟨st, satLinks n s sat⟩ (sat a))[i]? = some di →
      ((∃ x, di = .icarus x) ∨ ∃ e, di = .isl e ∧ torusDist n s a t < torusDist n s (place (otherEnd _ e)) t) →
      Carried h ⟨st, satLinks n s sat⟩ nodes nfd t k (sat a) i (sat t) := by
  intro k
  induction k with
  | zero =>
    intro a i di ha hk hi hin
    have hat : a = t := by
      obtain ⟨h1, h2⟩ := C13_progress ht ha
      cases hh : hop n s t a with
      | none => exact h1.mp hh
      | some b => have := (h2 b hh).2.2.2; omega
    subst hat
    have hhop : hop n s a a = none := (C13_progress ht ha).1.mpr rfl
    obtain ⟨d0, ad, h1, h2, h3⟩ := devices_sat F ha
    obtain ⟨k, d, c1, c2, c3⟩ := forwards F (hsup (sat a) i) (hord (sat a) i) ha ht hi (k0 := 0) (d0 := .icarus (.sat d0 ad)) (by rw [h3]; rfl)
      (Or.inr rfl) (by rw [hhop]; rfl)
    rcases device_at F ha c1 with ⟨_, _, rfl⟩ | ⟨e, rfl, he⟩
    · exact Carried.ground c3 c1
    · rw [leadsTo_isl, hhop] at c2
      simp only [Option.getD_none, Option.some.injEq] at c2
      exact absurd (he.trans c2.symm) (adj_ne (place_adj e))
  | succ k ih =>
    intro a i di ha hk hi hin
    obtain ⟨h1, h2⟩ := C13_progress ht ha
    cases hh : hop n s t a with
    | none => have := h1.mp hh; subst this; rw [torusDist_self] at hk; omega
    | some b =>
      obtain ⟨hadj, hb1, hb2, hd⟩ := h2 b hh
      obtain ⟨e0, p1, p2⟩ := exists_end (sat := sat) hadj
      obtain ⟨k0, hk0⟩ := end_device st e0
      rw [owner_place, p1] at hk0
      have hne : k0 ≠ i := by
        rintro rfl
        rw [hk0] at hi
        simp only [Option.some.injEq] at hi
        subst hi
        rcases hin with ⟨x, hx⟩ | ⟨e, he, hlt⟩
        · cases hx
        · cases he; rw [p2] at hlt; omega
      obtain ⟨k', d, c1, c2, c3⟩ := forwards F (hsup (sat a) i) (hord (sat a) i) ha ht hi hk0 (Or.inl hne) (by rw [leadsTo_isl, p2, hh]; rfl)
      rw [hh, Option.getD_some] at c2
      rcases device_at F ha c1 with ⟨_, _, rfl⟩ | ⟨e, rfl, he⟩
      · simp only [leadsTo, kindAt, Option.some.injEq] at c2
        exact absurd c2 (adj_ne hadj)
      · rw [leadsTo_isl, Option.some.injEq] at c2
        obtain ⟨j, hj⟩ := end_device st (otherEnd _ e)
        have hback : otherEnd (satLinks n s sat) (otherEnd _ e) = e := by simp [otherEnd]
        refine Carried.link c3 c1 hj ?_
        have hj' := hj
        rw [owner_place, c2] at hj'
        have := ih b j _ ⟨hb1, hb2⟩ (by omega) hj' (Or.inr ⟨_, rfl, by rw [hback, he]; omega⟩)
        rw [← c2, ← owner_place (otherEnd _ e)] at this
        exact this

end

theorem constellationIds_ok (h : Host) (st : St N V) (birds : List N) (cid : UInt16)
    (hb : ∀ b ∈ birds, ∃ d a ds, devices ⟨st, []⟩ b = .icarus (.sat d a) :: ds ∧ a.getConstellationId h.endian = cid) :
    constellationIds h st birds = .ok (List.replicate birds.length cid) := by
  induction birds with
  | nil => rfl
  | cons b bs ih =>
    obtain ⟨d, a, ds, h1, h2⟩ := hb b (by simp)
    simp [constellationIds, h1, Outcome.index, ih (fun x hx => hb x (by simp [hx])), h2, List.replicate_succ]

/-- What `build` does on distinct nodes with exactly as many satellites as the constellation has seats. -/
theorem build_ok (h : Host) (cid n s ph : Nat) (alt inc : ℚ) (pos : N → Option V) (macs : Nat) (nodes birds : List N)
    (hnd : nodes.Nodup) (hfit : Fits16 cid n s) (hlenS : (nodes.filter (fun x => (pos x).isNone)).length = n * s)
    (hbirds : ∀ b ∈ birds, b ∈ nodes ∧ pos b = none) (hblen : birds.length = n * s) (sat : Nat × Nat → N)
    (hsat : ∀ p i, p < n → i < s → (nodes.filter (fun x => (pos x).isNone))[p * s + i]? = some (sat (p, i))) :
    ∃ st, build h (create cid alt inc n s ph) pos macs nodes birds = .ok ⟨st, satLinks n s sat⟩ ∧
      (∀ x ∈ nodes, ∃ y, st.devices.filter (fun z => z.dev.node = x) = [y] ∧ y.dev.node = x ∧ ((satOf y).isSome ↔ pos x = none)) ∧
      (∀ a : Nat × Nat, a.1 < n → a.2 < s → ∃ d ad, st.devices.filter (fun y => y.dev.node = sat a) = [.sat d ad] ∧ d.node = sat a ∧
        placeOf h.endian ad = a) ∧
      (∀ a : Nat × Nat, a.1 < n → a.2 < s → ∃ o, st.mobility (sat a) = some (.orbit o)) ∧
      st.helper.constellation.nPlanes = n ∧ st.helper.constellation.planeSize = s := by
  have hcount : nodes.countP (fun x => (pos x).isNone) = n * s := by rw [List.countP_eq_length_filter]; exact hlenS
  obtain ⟨st, i1, hi, hl⟩ := install_ok h.debug h.endian cid n s ph alt inc pos macs nodes hnd (Nat.le_of_eq hcount)
  obtain ⟨st', j1, -, j3, j4, -⟩ := C54_install h.debug h.endian cid n s ph alt inc pos macs nodes hnd (Nat.le_of_eq hcount) hfit
  obtain rfl : st = st' := by rw [i1] at j1; exact Outcome.ok.inj j1
  rw [hcount] at hl
  have hndd : (st.devices.map (fun x => x.dev.node)).Nodup := by rw [hi.nodes]; exact hnd
  have huniq : ∀ y ∈ st.devices, st.devices.filter (fun z => z.dev.node = y.dev.node) = [y] :=
    fun y hy => filter_unique (fun z : Installed N => z.dev.node) _ hndd y hy
  have hrange : ∀ p i, p < n → i < s → p * s + i < n * s ∧ (p * s + i) / s = p ∧ (p * s + i) % s = i := by
    intro p i hp hi
    have hs : 0 < s := by omega
    refine ⟨?_, ?_, ?_⟩
    · calc p * s + i < p * s + s := by omega
        _ = (p + 1) * s := by ring
        _ ≤ n * s := Nat.mul_le_mul_right _ hp
    · rw [Nat.mul_comm, Nat.mul_add_div hs, Nat.div_eq_of_lt hi, Nat.add_zero]
    · rw [Nat.mul_comm, Nat.mul_add_mod, Nat.mod_eq_of_lt hi]
  -- the device of each satellite
  have hdevS : ∀ a : Nat × Nat, a.1 < n → a.2 < s → ∃ d ad, Installed.sat d ad ∈ st.devices ∧ d.node = sat a ∧
      placeOf h.endian ad = a ∧ ∃ o, st.mobility (sat a) = some (.orbit o) := by
    rintro ⟨p, i⟩ hp hi'
    obtain ⟨k, k1, k2, k3⟩ := filter_getElem? _ _ _ _ (hsat p i hp hi')
    obtain ⟨d, ad, c1, c2, -, c4, c5, -, c7⟩ := j3 k _ k1 (by simpa using k2)
    obtain ⟨-, r2, r3⟩ := hrange p i hp hi'
    rw [k3, r2] at c4
    rw [k3, r3] at c5
    exact ⟨d, ad, List.mem_of_getElem? c1, c2, by simp [placeOf, c4, c5], _, c7⟩
  have hids : ∀ b ∈ birds, ∃ d a ds, devices ⟨st, []⟩ b = .icarus (.sat d a) :: ds ∧ a.getConstellationId h.endian = UInt16.ofNat cid := by
    intro b hb
    obtain ⟨b1, b2⟩ := hbirds b hb
    obtain ⟨k, hk⟩ := List.mem_iff_getElem?.mp b1
    obtain ⟨d, a, c1, c2, c3, -⟩ := j3 k b hk b2
    have := huniq _ (List.mem_of_getElem? c1)
    rw [show (Installed.sat d a).dev.node = b from c2] at this
    refine ⟨d, a, [], by simp [devices, ends, this], ?_⟩
    rw [← c3]; simp
  have hsd : (st.devices.filterMap satOf).map Dev.node = nodes.filter (fun x => (pos x).isNone) := by
    rw [← hi.nodes]
    have hk : ∀ x ∈ st.devices, (satOf x = none ∧ (pos x.dev.node).isNone = false) ∨ (satOf x = some x.dev ∧ (pos x.dev.node).isNone = true) := by
      intro x hx
      obtain ⟨k, hk⟩ := List.mem_iff_getElem?.mp hx
      cases x with
      | sat d a => right; simp [satOf, Installed.dev, (hi.sats k d a hk).1]
      | ground d m => left; simpa [satOf, Installed.dev, Option.ne_none_iff_isSome] using (hi.grounds k d m hk).1
    generalize st.devices = l at hk
    induction l with
    | nil => rfl
    | cons x xs ih =>
      have := ih (fun y hy => hk y (by simp [hy]))
      rcases hk x (by simp) with ⟨h1, h2⟩ | ⟨h1, h2⟩
      · simp [h1, h2, this]
      · simp [h1, h2, this]
  have hdev : ∀ a : Nat × Nat, ∃ d : Dev N, d.node = sat a ∧ (a.1 < n → a.2 < s → (st.devices.filterMap satOf)[a.1 * s + a.2]? = some d) := by
    rintro ⟨p, i⟩
    by_cases hr : p < n ∧ i < s
    · have := hsat p i hr.1 hr.2
      rw [← hsd, List.getElem?_map, Option.map_eq_some_iff] at this
      obtain ⟨d, d1, d2⟩ := this
      exact ⟨d, d2, fun _ _ => d1⟩
    · exact ⟨⟨sat (p, i), 0⟩, rfl, fun h1 h2 => absurd ⟨h1, h2⟩ hr⟩
  choose dev dev1 dev2 using hdev
  have hhl : (histFrom s 0 (st.devices.filterMap satOf)).length = n * s := by rw [histFrom_length, hl]
  have hisl := install_of_inv hi.helper.inv dev (by
      intro p i hp hi'
      have := List.mem_of_getElem? (histFrom_getElem? s 0 _ _ _ (dev2 (p, i) hp hi'))
      obtain ⟨-, r2, r3⟩ := hrange p i hp hi'
      simpa only [Nat.zero_add, r2, r3] using this) h.debug (by
      simp [Constellation.getSize, hi.helper.inv.size_eq, hi.helper.inv.nPlanes_eq, hi.helper.inv.planeSize_eq, hhl])
    (List.replicate birds.length (UInt16.ofNat cid)) (by rw [List.length_replicate, hblen, hhl])
    (fun x hx y hy => (List.eq_of_mem_replicate hx).trans (List.eq_of_mem_replicate hy).symm)
  refine ⟨st, ?_, ?_, ?_, ?_, hi.helper.inv.nPlanes_eq, hi.helper.inv.planeSize_eq⟩
  · simp only [build, i1, Outcome.bind_ok, constellationIds_ok h st birds _ hids, hisl, List.map_map]
    simp only [satLinks, Function.comp_def, dev1]
  · intro x hx
    rw [← hi.nodes] at hx
    obtain ⟨y, hy, rfl⟩ := List.mem_map.mp hx
    refine ⟨y, huniq y hy, rfl, ?_⟩
    obtain ⟨k, hk⟩ := List.mem_iff_getElem?.mp hy
    cases y with
    | sat d a => simp [satOf, Installed.dev, (hi.sats k d a hk).1]
    | ground d m => simpa [satOf, Installed.dev] using (hi.grounds k d m hk).1
  · intro a h1 h2
    obtain ⟨d, ad, c1, c2, c3, -⟩ := hdevS a h1 h2
    have := huniq _ c1
    rw [show (Installed.sat d ad).dev.node = sat a from c2] at this
    exact ⟨d, ad, this, c2, c3⟩
  · intro a h1 h2
    obtain ⟨d, ad, -, -, -, c⟩ := hdevS a h1 h2
    exact c

omit [DecidableEq N] in
theorem sat_default {n s : Nat} {l : List N} (z : N) (hlen : l.length = n * s) :
    ∃ sat : Nat × Nat → N, ∀ p i, p < n → i < s → l[p * s + i]? = some (sat (p, i)) := by
  refine ⟨fun a => l.getD (a.1 * s + a.2) z, ?_⟩
  intro p i hp hi
  have : p * s + i < n * s := by
    calc p * s + i < p * s + s := by omega
      _ = (p + 1) * s := by ring
      _ ≤ n * s := Nat.mul_le_mul_right _ hp
  simp only
  rw [List.getD_eq_getElem?_getD, List.getElem?_eq_getElem (by omega), Option.getD_some]

theorem facts_of_build (h : Host) (cid n s ph : Nat) (alt inc : ℚ) (pos : N → Option V) (macs : Nat) (nodes birds : List N)
    (hnd : nodes.Nodup) (hfit : Fits16 cid n s) (hlen : (nodes.filter (fun x => (pos x).isNone)).length = n * s)
    (hbirds : ∀ b ∈ birds, b ∈ nodes ∧ pos b = none) (hblen : birds.length = n * s)
    (hlast : ∀ x, nodes.getLast? = some x → pos x ≠ none) (sat : Nat × Nat → N)
    (hsat : ∀ p i, p < n → i < s → (nodes.filter (fun x => (pos x).isNone))[p * s + i]? = some (sat (p, i))) :
    ∃ st, build h (create cid alt inc n s ph) pos macs nodes birds = .ok ⟨st, satLinks n s sat⟩ ∧
      ∀ a : Nat × Nat, a.1 < n → a.2 < s → Facts h n s sat st nodes := by
  obtain ⟨st, b1, b2, b3, b4, b5, b6⟩ := build_ok h cid n s ph alt inc pos macs nodes birds hnd hfit hlen hbirds hblen sat hsat
  refine ⟨_, b1, fun a a1 a2 => ⟨?_, b3, b4, ?_⟩⟩
  · intro a b ha1 ha2 hb1 hb2 hab
    obtain ⟨d, ad, c1, -, c3⟩ := b3 a ha1 ha2
    obtain ⟨d', ad', c1', -, c3'⟩ := b3 b hb1 hb2
    rw [hab, c1'] at c1
    simp only [List.cons.injEq, Installed.sat.injEq, and_true] at c1
    rw [← c3, ← c3', c1.2]
  · intro links
    obtain ⟨x, hx⟩ : ∃ x, nodes.getLast? = some x := by
      have hm := List.mem_of_getElem? (hsat a.1 a.2 a1 a2)
      exact ⟨_, List.getLast?_eq_getLast_of_ne_nil (List.ne_nil_of_mem (List.mem_filter.mp hm).1)⟩
    obtain ⟨y, y1, y2, y3⟩ := b2 x (List.mem_of_getLast? hx)
    have hp := hlast x hx
    cases y with
    | sat d ad => exact absurd (y3.mp rfl) hp
    | ground d m => simp [strategyNew, hx, devices, y1, Outcome.index, b5, b6]

/-! ## C63 -/

/-- The helpers build a network in which GeoTag forwarding works.  Distinct nodes, exactly `n * s` of them without a position; the inter-satellite links are
installed on `n * s` of those, in any order and with any repetition; the last node has a position.  `sat (p, i)` is the node without position that comes
at place `p * s + i` of the list.  Then building succeeds, and an Interest tagged with any satellite `t` of the constellation and entering from the
ground at any satellite `a` is carried to satellite `t`, and there to the ground, over as many links as the torus distance from `a` to `t`, whatever order the next hops have in
the FIB. -/
theorem C63_carried (h : Host) (cid n s ph : Nat) (alt inc : ℚ) (pos : N → Option V) (macs : Nat) (nodes birds : List N)
    (hnd : nodes.Nodup) (hfit : Fits16 cid n s) (hlen : (nodes.filter (fun x => (pos x).isNone)).length = n * s)
    (hbirds : ∀ b ∈ birds, b ∈ nodes ∧ pos b = none) (hblen : birds.length = n * s)
    (hlast : ∀ x, nodes.getLast? = some x → pos x ≠ none) (sat : Nat × Nat → N)
    (hsat : ∀ p i, p < n → i < s → (nodes.filter (fun x => (pos x).isNone))[p * s + i]? = some (sat (p, i))) :
    ∃ net, build h (create cid alt inc n s ph) pos macs nodes birds = .ok net ∧
      ∀ nfd : N → Nat → Nfd, (∀ x i, (nfd x i).suppression ≠ .suppress) → (∀ x i l, ((nfd x i).order l).Perm l) →
        ∀ a t : Nat × Nat, a.1 < n → a.2 < s → t.1 < n → t.2 < s →
          Carried h net nodes nfd t (torusDist n s a t) (sat a) 0 (sat t) := by
  obtain ⟨st, b1, F⟩ := facts_of_build h cid n s ph alt inc pos macs nodes birds hnd hfit hlen hbirds hblen hlast sat hsat
  refine ⟨_, b1, fun nfd hsup hord a t a1 a2 t1 t2 => ?_⟩
  have F := F a a1 a2
  obtain ⟨d0, ad, -, -, h3⟩ := devices_sat F ⟨a1, a2⟩
  exact carried F nfd hsup hord ⟨t1, t2⟩ _ a 0 (.icarus (.sat d0 ad)) ⟨a1, a2⟩ rfl (by rw [h3]; rfl) (Or.inl ⟨_, rfl⟩)

/-- Ground stations with default routes only: a new Interest of a local application goes out on the one device, which is a ground device; and so does a
new Interest that came in on that very device, because its face is ad hoc. -/
theorem C63_ground (h : Host) (cid n s ph : Nat) (alt inc : ℚ) (pos : N → Option V) (macs : Nat) (nodes birds : List N)
    (hnd : nodes.Nodup) (hfit : Fits16 cid n s) (hlen : (nodes.filter (fun x => (pos x).isNone)).length = n * s)
    (hbirds : ∀ b ∈ birds, b ∈ nodes ∧ pos b = none) (hblen : birds.length = n * s)
    (z : N) (hz : nodes.getLast? = some z) (hlast : pos z ≠ none) :
    ∃ net, build h (create cid alt inc n s ph) pos macs nodes birds = .ok net ∧
      ∀ x ∈ nodes, pos x ≠ none → (∃ d m, devices net x = [.icarus (.ground d m)] ∧ d.node = x) ∧
        ∀ nfd : Nfd, nfd.suppression = .new → (∀ l, (nfd.order l).Perm l) →
          (∀ tag, receiveFromApp h net nodes nfd x tag = .ok [.sendInterest 0]) ∧ ∀ t, receive h net nodes nfd x 0 t = .ok [.sendInterest 0] := by
  obtain ⟨sat, hsat⟩ := sat_default z hlen
  obtain ⟨st, b1, b2, b3, -, b5, b6⟩ := build_ok h cid n s ph alt inc pos macs nodes birds hnd hfit hlen hbirds hblen sat hsat
  refine ⟨_, b1, fun x hx hp => ?_⟩
  have hdev : ∀ x ∈ nodes, pos x ≠ none → ∃ d m, devices (⟨st, satLinks n s sat⟩ : Net N V) x = [.icarus (.ground d m)] ∧ d.node = x := by
    intro x hx hp
    obtain ⟨y, y1, y2, y3⟩ := b2 x hx
    cases y with
    | sat d ad => exact absurd (y3.mp rfl) hp
    | ground d m =>
      refine ⟨d, m, ?_, y2⟩
      simp only [devices, y1, List.map_cons, List.map_nil, List.singleton_append, List.cons.injEq, true_and, List.map_eq_nil_iff, List.filter_eq_nil_iff,
        decide_eq_true_eq]
      intro e _ he
      rw [owner_place] at he
      obtain ⟨d', ad', c1, -⟩ := b3 (place e) (place_range e).1 (place_range e).2
      rw [he, y1] at c1
      simp at c1
  obtain ⟨d, m, h1, h2⟩ := hdev x hx hp
  obtain ⟨dz, mz, z1, -⟩ := hdev z (List.mem_of_getLast? hz) hlast
  refine ⟨⟨d, m, h1, h2⟩, fun nfd hnew hord => ?_⟩
  have ho : nfd.order [⟨0, .noDevice⟩] = [⟨0, .noDevice⟩] := List.perm_singleton.mp (hord _)
  constructor
  · intro tag
    cases tag <;> simp [receiveFromApp, strategyNew, hz, z1, h1, Outcome.index, routes, faceKind, ho, afterReceiveInterest, hnew, hasNetDevice, sendOrNack]
  · intro t
    simp [receive, strategyNew, hz, z1, h1, Outcome.index, routes, faceKind, ho, afterReceiveInterest, hnew, hasNetDevice, sendOrNack, adHoc]

/-- The last node must be a ground station: if it is a satellite, the strategy dereferences null at every node. -/
theorem C63_last_node_is_ub (h : Host) (cid n s ph : Nat) (alt inc : ℚ) (pos : N → Option V) (macs : Nat) (nodes birds : List N)
    (hnd : nodes.Nodup) (hfit : Fits16 cid n s) (hlen : (nodes.filter (fun x => (pos x).isNone)).length = n * s)
    (hbirds : ∀ b ∈ birds, b ∈ nodes ∧ pos b = none) (hblen : birds.length = n * s)
    (z : N) (hz : nodes.getLast? = some z) (hlast : pos z = none) :
    ∃ net, build h (create cid alt inc n s ph) pos macs nodes birds = .ok net ∧
      ∀ (nfd : Nfd) (x : N) (i : Nat) (t : Nat × Nat), receive h net nodes nfd x i t = .ub .nullDeref := by
  obtain ⟨sat, hsat⟩ := sat_default z hlen
  obtain ⟨st, b1, b2, -⟩ := build_ok h cid n s ph alt inc pos macs nodes birds hnd hfit hlen hbirds hblen sat hsat
  refine ⟨_, b1, fun nfd x i t => ?_⟩
  obtain ⟨y, y1, y2, y3⟩ := b2 z (List.mem_of_getLast? hz)
  cases y with
  | ground d m => exact absurd (y3.mpr hlast) (by simp [satOf])
  | sat d ad => simp [receive, strategyNew, hz, devices, y1, Outcome.index]

/-! ## Examples -/

/-- Three planes of four satellites and two ground stations: nodes 0-11 and 13 -- 14, number 12 is missing. -/
abbrev exNodes : List Nat := List.range 12 ++ [13, 14]

abbrev exPos (x : Nat) : Option Unit := if x < 12 then none else some ()

example : exNodes.Nodup ∧ Fits16 7 3 4 ∧ (exNodes.filter (fun x => (exPos x).isNone)).length = 3 * 4 ∧
    (∀ b ∈ List.range 12, b ∈ exNodes ∧ exPos b = none) ∧ (List.range 12).length = 3 * 4 ∧
    (∀ x, exNodes.getLast? = some x → exPos x ≠ none) ∧
    (∀ p, p < 3 → ∀ i, i < 4 → (exNodes.filter (fun x => (exPos x).isNone))[p * 4 + i]? = some (p * 4 + i)) := by
  refine ⟨by decide, by unfold Fits16; omega, by decide, by decide, by decide, ?_, by decide⟩
  intro x hx
  simp at hx
  subst hx
  decide

/-- From satellite (0, 0) to satellite (2, 2): three links. -/
example : torusDist 3 4 (0, 0) (2, 2) = 3 := by decide

/-- Tables that satisfy the hypotheses: the FIB lists the next hops in reverse. -/
example : ∃ nfd : Nfd, nfd.suppression ≠ .suppress ∧ ∀ l, (nfd.order l).Perm l :=
  ⟨⟨.new, fun _ => true, fun _ => 0, List.reverse⟩, by simp, fun l => List.reverse_perm l⟩

/-- Only satellites: the last node has no position. -/
example : (List.range 12).getLast? = some 11 ∧ exPos 11 = none ∧ ((List.range 12).filter (fun x => (exPos x).isNone)).length = 3 * 4 := by decide

end Scenario
end Icarus
