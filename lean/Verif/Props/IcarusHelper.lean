import Verif.Model.IcarusHelper
import Verif.Props.ConstellationHelper
import Mathlib.Data.List.Induction

/-!
# Installation of devices on nodes (C54)
-/

set_option autoImplicit false

namespace Icarus
namespace IcarusHelper
open ConstellationHelper

variable {N V : Type}

/-- Satellite devices among the installed ones. -/
def satOf : Installed N → Option (Dev N)
  | .sat d _ => some d
  | .ground _ _ => none

/-- Ground devices among the installed ones. -/
def groundOf : Installed N → Option (Dev N)
  | .ground d _ => some d
  | .sat _ _ => none

/-- Closed form of the state after installing on the nodes `done`. -/
structure IInv (e : Endian) (cid n s ph : Nat) (alt inc : ℚ) (pos : N → Option V) (macs : Nat) (st : St N V) (done : List N) : Prop where
  helper : HInv cid n s ph alt inc st.helper (st.devices.filterMap satOf)
  nodes : st.devices.map (fun x => x.dev.node) = done
  serial : ∀ (k : Nat) x, st.devices[k]? = some x → x.dev.serial = k
  sats : ∀ (k : Nat) d a, st.devices[k]? = some (.sat d a) → pos d.node = none ∧
    a = SatAddress.mk3 e (UInt16.ofNat cid) (UInt16.ofNat (((st.devices.take k).filterMap satOf).length / s))
      (UInt16.ofNat (((st.devices.take k).filterMap satOf).length % s)) ∧
    st.mobility d.node = some (.orbit (orbitAt n s ph alt inc ((st.devices.take k).filterMap satOf).length))
  grounds : ∀ (k : Nat) d m, st.devices[k]? = some (.ground d m) → pos d.node ≠ none ∧ m = macs + ((st.devices.take k).filterMap groundOf).length + 1
  ground : st.channelGround = st.devices.filterMap groundOf
  macs : st.macs = macs + (st.devices.filterMap groundOf).length
  mobility : ∀ x, (pos x ≠ none ∨ x ∉ done) → st.mobility x = (pos x).map .fixed
  tracker : ∀ x, x ∉ done → st.tracker x = false

theorem iinv_init (e : Endian) (cid n s ph : Nat) (alt inc : ℚ) (pos : N → Option V) (macs : Nat) :
    IInv e cid n s ph alt inc pos macs (St.init (create cid alt inc n s ph) pos macs) [] where
  helper := hinv_create cid n s ph alt inc
  nodes := rfl
  serial := by simp [St.init]
  sats := by simp [St.init]
  grounds := by simp [St.init]
  ground := rfl
  macs := rfl
  mobility := by simp [St.init]
  tracker := by simp [St.init]

theorem getElem?_snoc {α : Type} (l : List α) (x y : α) (k : Nat) :
    (l ++ [x])[k]? = some y ↔ (l[k]? = some y ∧ k < l.length) ∨ (k = l.length ∧ x = y) := by
  rcases Nat.lt_trichotomy k l.length with h | h | h
  · rw [List.getElem?_append_left h]; simp [h, Nat.ne_of_lt h]
  · subst h; simp
  · rw [List.getElem?_eq_none (by simp; omega)]
    simp; omega

theorem filterMap_getElem? {α β : Type} (f : α → Option β) (l : List α) {k : Nat} {x : α} {y : β} (hx : l[k]? = some x) (hf : f x = some y) :
    (l.filterMap f)[((l.take k).filterMap f).length]? = some y := by
  have hk : k < l.length := (List.getElem?_eq_some_iff.mp hx).1
  have hd : l = l.take k ++ x :: l.drop (k + 1) := by
    conv_lhs => rw [← List.take_append_drop k l]
    rw [List.drop_eq_getElem_cons hk, (List.getElem?_eq_some_iff.mp hx).2]
  have h2 : l.filterMap f = (l.take k).filterMap f ++ (x :: l.drop (k + 1)).filterMap f := by
    conv_lhs => rw [hd]
    rw [List.filterMap_append]
  rw [h2, List.getElem?_append_right (le_refl _), Nat.sub_self, List.filterMap_cons_some hf]
  rfl

theorem take_snoc {α : Type} (l : List α) (x : α) {k : Nat} (h : k ≤ l.length) : (l ++ [x]).take k = l.take k :=
  List.take_append_of_le_length h

variable [DecidableEq N]

theorem install_snoc (debug : Bool) (e : Endian) (st : St N V) (nodes : List N) (node : N) :
    install debug e st (nodes ++ [node]) = (install debug e st nodes >>= fun s => installPriv debug e s node) := by
  induction nodes generalizing st with
  | nil =>
    simp only [List.nil_append, install, Outcome.bind_ok]
    cases installPriv debug e st node <;> rfl
  | cons x xs ih =>
    simp only [List.cons_append, install]
    cases installPriv debug e st x with
    | ok s => simp [ih]
    | ub f => simp
    | abort => simp
    | assertFail => simp

theorem iinv_step (debug : Bool) (e : Endian) (cid n s ph : Nat) (alt inc : ℚ) (pos : N → Option V) (macs : Nat) (st : St N V)
    (done : List N) (node : N) (hi : IInv e cid n s ph alt inc pos macs st done) (hnew : node ∉ done)
    (hcap : pos node = none → (st.devices.filterMap satOf).length < n * s) :
    ∃ st', installPriv debug e st node = .ok st' ∧ IInv e cid n s ph alt inc pos macs st' (done ++ [node]) ∧
      (st'.devices.filterMap satOf).length = (st.devices.filterMap satOf).length + if pos node = none then 1 else 0 := by
  have hmob := hi.mobility node (.inr hnew)
  have hdone : ∀ (k : Nat) x, st.devices[k]? = some x → x.dev.node ∈ done := by
    intro k x hx
    rw [← hi.nodes]
    exact List.mem_map.mpr ⟨x, List.mem_of_getElem? hx, rfl⟩
  unfold installPriv
  rw [hmob]
  cases hp : pos node with
  | none =>
    simp only [Option.map_none, if_true]
    obtain ⟨h', hl, hh⟩ := launch_ok cid n s ph alt inc debug e st.helper _ ⟨node, st.devices.length⟩ hi.helper (hcap hp)
    rw [hl]
    refine ⟨_, rfl, ?_, by simp [satOf]⟩
    constructor
    · simp only [List.filterMap_append]
      exact hh
    · rw [List.map_append, hi.nodes]; rfl
    · intro k x hx
      rcases (getElem?_snoc _ _ _ _).mp hx with ⟨h1, -⟩ | ⟨h1, rfl⟩
      · exact hi.serial k x h1
      · exact h1.symm
    · intro k d a hx
      rcases (getElem?_snoc _ _ _ _).mp hx with ⟨h1, h2⟩ | ⟨h1, h2⟩
      · obtain ⟨a1, a2, a3⟩ := hi.sats k d a h1
        have hne : d.node ≠ node := fun heq => hnew (heq ▸ hdone k _ h1)
        simp only [take_snoc _ _ h2.le, if_neg hne]
        exact ⟨a1, a2, a3⟩
      · simp only [Installed.sat.injEq] at h2
        obtain ⟨rfl, rfl⟩ := h2
        subst h1
        simp [hp]
    · intro k d m hx
      rcases (getElem?_snoc _ _ _ _).mp hx with ⟨h1, h2⟩ | ⟨h1, h2⟩
      · simp only [take_snoc _ _ h2.le]
        exact hi.grounds k d m h1
      · simp at h2
    · simp [hi.ground, groundOf]
    · simp [hi.macs, groundOf]
    · intro x hx
      have hne : x ≠ node := by
        rintro rfl
        rcases hx with h | h
        · exact h hp
        · simp at h
      simp only [if_neg hne]
      apply hi.mobility
      rcases hx with h | h
      · exact .inl h
      · right; simp at h; exact h.1
    · intro x hx
      exact hi.tracker x (by simp at hx; exact hx.1)
  | some v =>
    simp only [Option.map_some, hi.tracker node hnew, Bool.false_eq_true, if_false]
    refine ⟨_, rfl, ?_, by simp [satOf]⟩
    constructor
    · simp only [List.filterMap_append, List.filterMap_cons, satOf, List.filterMap_nil, List.append_nil]
      exact hi.helper
    · rw [List.map_append, hi.nodes]; rfl
    · intro k x hx
      rcases (getElem?_snoc _ _ _ _).mp hx with ⟨h1, -⟩ | ⟨h1, rfl⟩
      · exact hi.serial k x h1
      · exact h1.symm
    · intro k d a hx
      rcases (getElem?_snoc _ _ _ _).mp hx with ⟨h1, h2⟩ | ⟨h1, h2⟩
      · simp only [take_snoc _ _ h2.le]
        exact hi.sats k d a h1
      · simp at h2
    · intro k d m hx
      rcases (getElem?_snoc _ _ _ _).mp hx with ⟨h1, h2⟩ | ⟨h1, h2⟩
      · simp only [take_snoc _ _ h2.le]
        exact hi.grounds k d m h1
      · simp only [Installed.ground.injEq] at h2
        obtain ⟨rfl, rfl⟩ := h2
        subst h1
        simp [hp, hi.macs]
    · simp [hi.ground, groundOf]
    · simp [hi.macs, groundOf]; omega
    · intro x hx
      apply hi.mobility
      rcases hx with h | h
      · exact .inl h
      · right; simp at h; exact h.1
    · intro x hx
      simp only [List.mem_append, List.mem_singleton, not_or] at hx
      simp only [if_neg hx.2]
      exact hi.tracker x hx.1

theorem install_ok (debug : Bool) (e : Endian) (cid n s ph : Nat) (alt inc : ℚ) (pos : N → Option V) (macs : Nat) (nodes : List N)
    (hnd : nodes.Nodup) (hcap : nodes.countP (fun x => (pos x).isNone) ≤ n * s) :
    ∃ st, install debug e (St.init (create cid alt inc n s ph) pos macs) nodes = .ok st ∧ IInv e cid n s ph alt inc pos macs st nodes ∧
      (st.devices.filterMap satOf).length = nodes.countP (fun x => (pos x).isNone) := by
  induction nodes using List.reverseRecOn with
  | nil => exact ⟨_, rfl, iinv_init e cid n s ph alt inc pos macs, rfl⟩
  | append_singleton os o ih =>
    rw [List.nodup_append] at hnd
    obtain ⟨n1, -, n3⟩ := hnd
    simp only [List.countP_append, List.countP_cons, List.countP_nil, Nat.zero_add] at hcap ⊢
    obtain ⟨st, h1, h2, h3⟩ := ih n1 (by omega)
    obtain ⟨st', h4, h5, h6⟩ := iinv_step debug e cid n s ph alt inc pos macs st os o h2 (fun h => n3 o h o (by simp) rfl) (by
      intro hp
      simp [hp] at hcap
      omega)
    refine ⟨st', ?_, h5, ?_⟩
    · rw [install_snoc, h1, Outcome.bind_ok, h4]
    · rw [h6, h3]
      cases hp : pos o <;> simp

/-! ## C54 -/

/-- Installation on distinct nodes, of which at most as many lack a position as the constellation has seats.  Satellites, i.e. nodes without
position, are launched in list order and found in the constellation under the address of their device; they get an orbit.  The others keep
their position and get a ground device, attached to the channel in list order. -/
theorem C54_install (debug : Bool) (e : Endian) (cid n s ph : Nat) (alt inc : ℚ) (pos : N → Option V) (macs : Nat) (nodes : List N)
    (hnd : nodes.Nodup) (hcap : nodes.countP (fun x => (pos x).isNone) ≤ n * s) (hfit : Fits16 cid n s) :
    ∃ st, install debug e (St.init (create cid alt inc n s ph) pos macs) nodes = .ok st ∧ st.devices.length = nodes.length ∧
      (∀ (k : Nat) node, nodes[k]? = some node → pos node = none → ∃ d a, st.devices[k]? = some (.sat d a) ∧ d.node = node ∧
        (a.getConstellationId e).toNat = cid ∧
        (a.getOrbitalPlane e).toNat = (nodes.take k).countP (fun x => (pos x).isNone) / s ∧
        (a.getPlaneIndex e).toNat = (nodes.take k).countP (fun x => (pos x).isNone) % s ∧
        st.helper.constellation.getSatelliteAddr debug e a = .ok (some d) ∧
        st.mobility node = some (.orbit (specElements n s ph alt inc ((nodes.take k).countP (fun x => (pos x).isNone) / s)
          ((nodes.take k).countP (fun x => (pos x).isNone) % s)))) ∧
      (∀ (k : Nat) node p, nodes[k]? = some node → pos node = some p → ∃ d m, st.devices[k]? = some (.ground d m) ∧ d.node = node ∧
        st.channelGround[(nodes.take k).countP (fun x => (pos x).isSome)]? = some d ∧
        st.mobility node = some (.fixed p)) ∧
      st.channelGround.length = nodes.countP (fun x => (pos x).isSome) := by
  obtain ⟨st, h1, hi, hlen⟩ := install_ok debug e cid n s ph alt inc pos macs nodes hnd hcap
  have hl : st.devices.length = nodes.length := by rw [← hi.nodes]; simp
  -- a device is a satellite exactly if its node has no position
  have hkind : ∀ x ∈ st.devices, (satOf x).isSome = (pos x.dev.node).isNone ∧ (groundOf x).isSome = (pos x.dev.node).isSome := by
    intro x hx
    obtain ⟨k, hk⟩ := List.mem_iff_getElem?.mp hx
    cases x with
    | sat d a => have := (hi.sats k d a hk).1; simp [satOf, groundOf, Installed.dev, this]
    | ground d m =>
      have := (hi.grounds k d m hk).1
      cases hp : pos d.node with
      | none => exact absurd hp this
      | some v => simp [satOf, groundOf, Installed.dev, hp]
  have hcount : ∀ k, ((st.devices.take k).filterMap satOf).length = (nodes.take k).countP (fun x => (pos x).isNone) ∧
      ((st.devices.take k).filterMap groundOf).length = (nodes.take k).countP (fun x => (pos x).isSome) := by
    intro k
    rw [← hi.nodes, ← List.map_take, List.countP_map, List.countP_map, List.length_filterMap_eq_countP, List.length_filterMap_eq_countP]
    constructor
    · apply List.countP_congr
      intro x hx
      have := (hkind x (List.mem_of_mem_take hx)).1
      simp [this]
    · apply List.countP_congr
      intro x hx
      have := (hkind x (List.mem_of_mem_take hx)).2
      simp [this]
  refine ⟨st, h1, hl, ?_, ?_, ?_⟩
  · intro k node hk hp
    have hk' : k < st.devices.length := by rw [hl]; exact (List.getElem?_eq_some_iff.mp hk).1
    obtain ⟨x, hx⟩ : ∃ x, st.devices[k]? = some x := ⟨_, List.getElem?_eq_getElem hk'⟩
    have hn : x.dev.node = node := by
      rw [← hi.nodes, List.getElem?_map, hx] at hk
      simpa using hk
    cases x with
    | ground d m => exact absurd (hn ▸ hp) (hi.grounds k d m hx).1
    | sat d a =>
      obtain ⟨-, a2, a3⟩ := hi.sats k d a hx
      simp only [Installed.dev] at hn
      rw [(hcount k).1] at a2 a3
      set j := (nodes.take k).countP (fun x => (pos x).isNone) with hj
      -- the satellite is the `j`-th launched
      have hget : (st.devices.filterMap satOf)[j]? = some d := by
        rw [hj, ← (hcount k).1]
        exact filterMap_getElem? satOf _ hx rfl
      have hcapd : (st.devices.filterMap satOf).length ≤ n * s := by rw [hlen]; exact hcap
      have hmem := List.mem_of_getElem? (histFrom_getElem? s 0 _ j d hget)
      have hb := hi.helper.inv.bounds _ hmem
      simp only [Nat.zero_add] at hb hmem
      have hlook : Constellation.lookup (histFrom s 0 (st.devices.filterMap satOf)) (j / s) (j % s) = some d := by
        unfold Constellation.lookup
        cases hf : (histFrom s 0 (st.devices.filterMap satOf)).find? (fun x => x.1 == j / s && x.2.1 == j % s) with
        | none => rw [List.find?_eq_none] at hf; simpa using hf _ hmem
        | some y =>
          have hy := List.mem_of_find?_eq_some hf
          have hyp := List.find?_some hf
          simp at hyp
          have : y = (j / s, j % s, d) :=
            List.inj_on_of_nodup_map hi.helper.inv.nodup hy hmem (by simp [hyp.1, hyp.2])
          simp [this]
      have hcell := hi.helper.inv.cells (j / s) (j % s) hb.1 hb.2
      rw [hlook] at hcell
      obtain ⟨f1, f2, f3⟩ := hfit
      have e1 : cid % 65536 = cid := by omega
      have e2 : j / s % 65536 = j / s := Nat.mod_eq_of_lt (by omega)
      have e3 : j % s % 65536 = j % s := Nat.mod_eq_of_lt (by omega)
      refine ⟨d, a, hx, hn, ?_, ?_, ?_, ?_, ?_⟩
      · rw [a2]; simp [SatAddress.mk3, SatAddress.getConstellationId, e1]
      · rw [a2]; simp [SatAddress.mk3, SatAddress.getOrbitalPlane, e2]
      · rw [a2]; simp [SatAddress.mk3, SatAddress.getPlaneIndex, e3]
      · rw [a2]
        simp [Constellation.getSatelliteAddr, SatAddress.mk3, SatAddress.getConstellationId, SatAddress.getOrbitalPlane,
          SatAddress.getPlaneIndex, e1, e2, e3, hi.helper.inv.id_eq, Constellation.getSatellite, hi.helper.inv.nPlanes_eq,
          hi.helper.inv.planeSize_eq, Nat.le_of_lt hb.1, Nat.le_of_lt hb.2, Constellation.cell_eq_ok.mpr hcell]
      · rw [← hn, a3]
        congr 2
        unfold orbitAt specElements
        congr 1
        · ring
        · ring
  · intro k node p hk hp
    have hk' : k < st.devices.length := by rw [hl]; exact (List.getElem?_eq_some_iff.mp hk).1
    obtain ⟨x, hx⟩ : ∃ x, st.devices[k]? = some x := ⟨_, List.getElem?_eq_getElem hk'⟩
    have hn : x.dev.node = node := by
      rw [← hi.nodes, List.getElem?_map, hx] at hk
      simpa using hk
    cases x with
    | sat d a =>
      have := (hi.sats k d a hx).1
      simp only [Installed.dev] at hn
      rw [hn, hp] at this
      simp at this
    | ground d m =>
      simp only [Installed.dev] at hn
      refine ⟨d, m, hx, hn, ?_, ?_⟩
      · rw [hi.ground, ← (hcount k).2]
        exact filterMap_getElem? groundOf _ hx rfl
      · rw [hi.mobility node (.inl (by simp [hp])), hp]; rfl
  · rw [hi.ground]
    have := (hcount st.devices.length).2
    rw [List.take_length, hl, List.take_length] at this
    exact this

/-- All devices are distinct, and the addresses of ground devices are consecutive allocations. -/
theorem C54_distinct (debug : Bool) (e : Endian) (cid n s ph : Nat) (alt inc : ℚ) (pos : N → Option V) (macs : Nat) (nodes : List N)
    (hnd : nodes.Nodup) (hcap : nodes.countP (fun x => (pos x).isNone) ≤ n * s) (st : St N V)
    (h : install debug e (St.init (create cid alt inc n s ph) pos macs) nodes = .ok st) :
    (st.devices.map Installed.dev).Nodup ∧
    ∀ (k k' : Nat) d d' m, st.devices[k]? = some (.ground d m) → st.devices[k']? = some (.ground d' m) → k = k' := by
  obtain ⟨st', h1, hi, -⟩ := install_ok debug e cid n s ph alt inc pos macs nodes hnd hcap
  rw [h1] at h
  simp only [Outcome.ok.injEq] at h
  subst h
  constructor
  · have hn : (st'.devices.map (fun x => x.dev.node)).Nodup := by rw [hi.nodes]; exact hnd
    have : (st'.devices.map (fun x => x.dev.node)) = (st'.devices.map Installed.dev).map Dev.node := by simp
    rw [this] at hn
    exact hn.of_map _
  · have key : ∀ (k k' : Nat) d d' m, k < k' → st'.devices[k]? = some (.ground d m) → st'.devices[k']? = some (.ground d' m) → False := by
      intro k k' d d' m hlt h1 h2
      have a1 := (hi.grounds k d m h1).2
      have a2 := (hi.grounds k' d' m h2).2
      have hk : k < st'.devices.length := (List.getElem?_eq_some_iff.mp h1).1
      have hsub : ((st'.devices.take (k + 1)).filterMap groundOf).length ≤ ((st'.devices.take k').filterMap groundOf).length := by
        apply List.Sublist.length_le
        apply List.Sublist.filterMap
        exact List.take_sublist_take_left hlt
      rw [List.take_add_one, h1] at hsub
      simp [groundOf] at hsub
      omega
    intro k k' d d' m h1 h2
    rcases Nat.lt_trichotomy k k' with h | h | h
    · exact (key k k' d d' m h h1 h2).elim
    · exact h
    · exact (key k' k d' d m h h2 h1).elim

/-- The channel counts every installed device. -/
theorem C54_channel_count (debug : Bool) (e : Endian) (cid n s ph : Nat) (alt inc : ℚ) (pos : N → Option V) (macs : Nat) (nodes : List N)
    (hnd : nodes.Nodup) (hcap : nodes.countP (fun x => (pos x).isNone) ≤ n * s) (st : St N V)
    (h : install debug e (St.init (create cid alt inc n s ph) pos macs) nodes = .ok st) :
    GroundSatChannel.getNDevices debug st.channel = .ok nodes.length := by
  obtain ⟨st', h1, hi, hlen⟩ := install_ok debug e cid n s ph alt inc pos macs nodes hnd hcap
  rw [h1] at h
  simp only [Outcome.ok.injEq] at h
  subst h
  have hsize : st'.helper.constellation.getSize debug = .ok (st'.devices.filterMap satOf).length := by
    have h2 := hi.helper.inv.size_eq
    rw [histFrom_length] at h2
    have h3 : decide (st'.helper.constellation.size ≤ st'.helper.constellation.nPlanes * st'.helper.constellation.planeSize) = true := by
      rw [h2, hi.helper.inv.nPlanes_eq, hi.helper.inv.planeSize_eq, hlen]
      simpa using hcap
    unfold Constellation.getSize
    rw [h3, h2]
    simp
  unfold GroundSatChannel.getNDevices St.channel
  simp only [Outcome.deref_some, Outcome.bind_ok, hsize, hi.ground]
  have : ∀ l : List (Installed N), (l.filterMap satOf).length + (l.filterMap groundOf).length = l.length := by
    intro l
    induction l with
    | nil => rfl
    | cons x xs ih =>
      cases x with
      | sat d a =>
        rw [List.filterMap_cons_some (show satOf (.sat d a) = some d from rfl), List.filterMap_cons_none (show groundOf (.sat d a) = none from rfl)]
        simp only [List.length_cons]; omega
      | ground d m =>
        rw [List.filterMap_cons_none (show satOf (.ground d m) = none from rfl), List.filterMap_cons_some (show groundOf (.ground d m) = some d from rfl)]
        simp only [List.length_cons]; omega
  rw [this, ← hi.nodes]
  simp

/-- A satellite node installed a second time is taken for a ground node: it gets a ground device, attached to the channel. -/
theorem C54_satellite_twice (debug : Bool) (e : Endian) (st : St N V) (node : N) (o : OrbitElements)
    (hm : st.mobility node = some (.orbit o)) (ht : st.tracker node = false) :
    ∃ st' d m, installPriv debug e st node = .ok st' ∧ st'.devices = st.devices ++ [.ground d m] ∧ d.node = node ∧
      st'.channelGround = st.channelGround ++ [d] ∧ st'.helper = st.helper := by
  unfold installPriv
  rw [hm]
  simp only [ht, Bool.false_eq_true, if_false]
  exact ⟨_, _, _, rfl, rfl, rfl, rfl, rfl⟩

/-- A ground node installed a second time aborts: the node already has a tracker. -/
theorem C54_ground_twice (debug : Bool) (e : Endian) (st st' st'' : St N V) (node : N) (rest : List N) (p : V)
    (hm : st.mobility node = some (.fixed p)) (h : installPriv debug e st node = .ok st')
    (h2 : install debug e st' rest = .ok st'') : installPriv debug e st'' node = .abort := by
  have h1 : st'.mobility node ≠ none ∧ st'.tracker node = true := by
    unfold installPriv at h
    rw [hm] at h
    simp only at h
    split at h
    · simp at h
    · simp only [Outcome.ok.injEq] at h
      subst h
      simp [hm]
  have step : ∀ (a b : St N V) x, installPriv debug e a x = .ok b → (a.mobility node ≠ none ∧ a.tracker node = true) →
      b.mobility node ≠ none ∧ b.tracker node = true := by
    intro a b x hx ha
    unfold installPriv at hx
    simp only at hx
    split at hx
    · split at hx
      · simp only [Outcome.ok.injEq] at hx
        subst hx
        refine ⟨?_, ha.2⟩
        simp only
        split
        · simp
        · exact ha.1
      all_goals simp at hx
    · split at hx
      · simp at hx
      · simp only [Outcome.ok.injEq] at hx
        subst hx
        refine ⟨ha.1, ?_⟩
        simp only
        split
        · rfl
        · exact ha.2
  have h3 : st''.mobility node ≠ none ∧ st''.tracker node = true := by
    clear h hm
    induction rest generalizing st' with
    | nil => simp only [install, Outcome.ok.injEq] at h2; subst h2; exact h1
    | cons x xs ih =>
      simp only [install, Outcome.bind_eq_ok] at h2
      obtain ⟨a, ha, hb⟩ := h2
      exact ih a hb (step st' a x ha h1)
  unfold installPriv
  cases hmm : st''.mobility node with
  | none => exact absurd hmm h3.1
  | some _ => simp [h3.2]

/-! ### Non-vacuity -/

/-- Two satellites and a ground station in between. -/
def examplePos : Nat → Option Nat := fun x => if x = 1 then some 7 else none

example : ([0, 1, 2] : List Nat).Nodup ∧ ([0, 1, 2] : List Nat).countP (fun x => (examplePos x).isNone) ≤ 1 * 2 ∧ Fits16 1 1 2 := by
  refine ⟨by decide, by decide, ?_⟩
  unfold Fits16; omega

/-- A satellite node, installed before, with its orbit and no tracker. -/
example : ∃ st : St Nat Nat, st.mobility 0 = some (.orbit ⟨0, 0, 0, 0⟩) ∧ st.tracker 0 = false :=
  ⟨{ St.init (create 1 0 0 1 2 0) examplePos 0 with mobility := fun _ => some (.orbit ⟨0, 0, 0, 0⟩) }, rfl, rfl⟩

/-- A ground node can be installed once. -/
example : ∃ st : St Nat Nat, installPriv true .little (St.init (create 1 0 0 1 2 0) examplePos 0) 1 = .ok st := ⟨_, rfl⟩

end IcarusHelper
end Icarus
