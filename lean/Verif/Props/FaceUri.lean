import Verif.Model.FaceUri
import Verif.Props.Scenario

/-!
# Face URIs and remote devices (C64)
-/

set_option autoImplicit false

namespace Icarus
namespace FaceUri
open Scenario IcarusHelper ConstellationHelper
open IslNet (End owner makeChannel otherEnd)

theorem hexDigit_inj : ∀ a < 16, ∀ b < 16, hexDigit a = hexDigit b → a = b := by decide

theorem byteText_inj (a b : UInt8) (h : byteText a = byteText b) : a = b := by
  simp only [byteText, List.cons.injEq, and_true] at h
  have ha := a.toNat_lt
  have hb := b.toNat_lt
  have h1 := hexDigit_inj _ (by omega) _ (by omega) h.1
  have h2 := hexDigit_inj _ (by omega) _ (by omega) h.2
  apply UInt8.toNat_inj.mp
  omega

theorem macText_inj (a b : List UInt8) (hl : a.length = b.length) (h : macText a = macText b) : a = b := by
  induction a generalizing b with
  | nil => cases b with
    | nil => rfl
    | cons => simp at hl
  | cons x xs ih =>
    cases b with
    | nil => simp at hl
    | cons y ys =>
      simp only [List.length_cons, Nat.add_right_cancel_iff] at hl
      cases xs with
      | nil =>
        cases ys with
        | nil => simp only [macText] at h; rw [byteText_inj x y h]
        | cons => simp at hl
      | cons x' xs =>
        cases ys with
        | nil => simp at hl
        | cons y' ys =>
          simp only [macText] at h
          obtain ⟨h1, h2⟩ := List.append_inj h rfl
          rw [byteText_inj x y h1, ih (y' :: ys) hl (List.cons.inj h2).2]

theorem macBytes_inj (m m' : Nat) (hm : m < 2 ^ 48) (hm' : m' < 2 ^ 48) (h : macBytes m = macBytes m') : m = m' := by
  simp only [macBytes, List.map_cons, List.map_nil, List.cons.injEq, and_true] at h
  have key : ∀ x y : Nat, UInt8.ofNat (x % 256) = UInt8.ofNat (y % 256) → x % 256 = y % 256 := by
    intro x y hxy
    have := congrArg UInt8.toNat hxy
    simpa using this
  obtain ⟨h5, h4, h3, h2, h1, h0⟩ := h
  have g5 := key _ _ h5
  have g4 := key _ _ h4
  have g3 := key _ _ h3
  have g2 := key _ _ h2
  have g1 := key _ _ h1
  have g0 := key _ _ h0
  omega

variable {N V : Type} [DecidableEq N]

/-! ## C64 -/

omit [DecidableEq N] in
/-- URIs of MAC addresses are as different as the addresses: as long as fewer than 2^48 were given out, no two are the same. -/
theorem C64_mac (h : Host) (m m' : Nat) (hm : m < 2 ^ 48) (hm' : m' < 2 ^ 48)
    (hu : uri h ⟨h.macTy, macBytes m⟩ = uri h ⟨h.macTy, macBytes m'⟩) : m = m' := by
  simp only [uri, SatAddress.Address.checkCompatible, macBytes, List.map_cons, List.map_nil, List.length_cons, List.length_nil] at hu
  simp only [BEq.rfl, Bool.and_self, Bool.true_or, if_true, List.append_cancel_left_eq, List.cons_append, List.cons.injEq, true_and, List.append_cancel_right_eq] at hu
  exact macBytes_inj m m' hm hm' (macText_inj _ _ rfl hu)

/-- After installation, ground devices with the same local face URI are the same device. -/
theorem C64_ground_distinct (h : Host) (cid n s ph : Nat) (alt inc : ℚ) (pos : N → Option V) (macs : Nat) (nodes : List N)
    (hnd : nodes.Nodup) (hcap : nodes.countP (fun x => (pos x).isNone) ≤ n * s) (hmacs : macs + nodes.length < 2 ^ 48) (st : St N V)
    (hst : install h.debug h.endian (St.init (create cid alt inc n s ph) pos macs) nodes = .ok st) (links : List (N × N))
    (d d' : Dev N) (m m' : Nat) (hd : .ground d m ∈ st.devices) (hd' : .ground d' m' ∈ st.devices) (u r r' : List Char)
    (hu : faceUris h ⟨st, links⟩ (.icarus (.ground d m)) = .ok (u, r)) (hu' : faceUris h ⟨st, links⟩ (.icarus (.ground d' m')) = .ok (u, r')) :
    d = d' ∧ m = m' := by
  obtain ⟨k, hk⟩ := List.mem_iff_getElem?.mp hd
  obtain ⟨k', hk'⟩ := List.mem_iff_getElem?.mp hd'
  obtain ⟨st', i1, hi, -⟩ := install_ok h.debug h.endian cid n s ph alt inc pos macs nodes hnd hcap
  obtain rfl : st = st' := by rw [hst] at i1; exact Outcome.ok.inj i1
  have hbound : ∀ (k : Nat) d m, st.devices[k]? = some (.ground d m) → m < 2 ^ 48 := by
    intro k d m hk
    have h1 := (hi.grounds k d m hk).2
    have h2 := (List.getElem?_eq_some_iff.mp hk).1
    have h3 : st.devices.length = nodes.length := by rw [← hi.nodes]; simp
    have h4 := List.length_filterMap_le groundOf (st.devices.take k)
    rw [List.length_take] at h4
    omega
  simp only [faceUris, Outcome.ok.injEq, Prod.mk.injEq] at hu hu'
  have hm := C64_mac h m m' (hbound k d m hk) (hbound k' d' m' hk') (hu.1.trans hu'.1.symm)
  subst hm
  have := (C54_distinct h.debug h.endian cid n s ph alt inc pos macs nodes hnd hcap st hst).2 k k' d d' m hk hk'
  subst this
  rw [hk] at hk'
  simpa using hk'

/-- The face of an inter-satellite device gets the other device of its link as remote device if the two are on different nodes; otherwise both devices
get device 1 of the channel. -/
theorem C64_remote (h : Host) (net : Net N V) (hpos : ∀ l ∈ net.links, hasPos net l.1 = true ∧ hasPos net l.2 = true)
    (horbit : ∀ l ∈ net.links, hasOrbit net l.2 = true) (d : End net.links) :
    (owner net.links d ≠ owner net.links (otherEnd net.links d) → remoteDevice h net d = .ok (otherEnd net.links d)) ∧
    (owner net.links d = owner net.links (otherEnd net.links d) → remoteDevice h net d = .ok (d.1, true)) := by
  obtain ⟨k, b⟩ := d
  have h1 := hpos net.links[k] (List.getElem_mem _)
  have h2 := horbit net.links[k] (List.getElem_mem _)
  have h3 : hasPos net (owner net.links (k, false)) = true := by simpa [owner] using h1.1
  have h4 : hasPos net (owner net.links (k, true)) = true := by simpa [owner] using h1.2
  have h5 : hasOrbit net (owner net.links (k, true)) = true := by simpa [owner] using h2
  have hm : makeChannel h.debug (hasPos net) (hasOrbit net) net.links k =
      .ok ⟨2, ⟨false, some (k, false), some (k, true)⟩, ⟨false, some (k, true), some (k, false)⟩⟩ := by
    simp [makeChannel, Sat2SatChannel.attachAll, Sat2SatChannel.attach, Sat2SatChannel.putEnd, Sat2SatChannel.Chan.init, h3, h4, h5]
  have hr : remoteDevice h net (k, b) = .ok (if owner net.links (k, false) = owner net.links (k, b) then (k, true) else (k, false)) := by
    simp only [remoteDevice, hm, Outcome.bind_ok, Sat2SatChannel.getDevice]
    simp only [Outcome.deref, Outcome.abortUnless]
    by_cases hb : owner net.links (k, false) = owner net.links (k, b) <;> simp [hb]
  rw [hr]
  cases b
  · simp [otherEnd]
  · constructor
    · intro hne
      simp only [otherEnd, Bool.not_true] at hne
      simp [otherEnd, Ne.symm hne]
    · intro he
      simp only [otherEnd, Bool.not_true] at he
      simp [he]

/-- On the network that the helpers build: every satellite's ground face has the local URI `netdev://`, and every inter-satellite face has the same local as remote
URI, that of the broadcast address, which is also the remote URI of the ground faces.  So the URIs tell neither satellites nor links apart. -/
theorem C64_built (h : Host) (hty : h.satTy ≠ h.macTy ∧ h.satTy ≠ 0) (cid n s ph : Nat) (alt inc : ℚ) (pos : N → Option V) (macs : Nat) (nodes birds : List N)
    (hnd : nodes.Nodup) (hfit : Fits16 cid n s) (hlen : (nodes.filter (fun x => (pos x).isNone)).length = n * s)
    (hbirds : ∀ b ∈ birds, b ∈ nodes ∧ pos b = none) (hblen : birds.length = n * s) [Nonempty N] :
    ∃ net, build h (create cid alt inc n s ph) pos macs nodes birds = .ok net ∧
      (∀ d a, faceUris h net (.icarus (.sat d a)) = .ok ("netdev://".toList, "netdev://[ff:ff:ff:ff:ff:ff]".toList)) ∧
      (∀ d, remoteDevice h net d = .ok (otherEnd net.links d)) ∧
      ∀ d, faceUris h net (.isl d) = .ok ("netdev://[ff:ff:ff:ff:ff:ff]".toList, "netdev://[ff:ff:ff:ff:ff:ff]".toList) := by
  obtain ⟨sat, hsat⟩ := sat_default (Classical.arbitrary N) hlen
  obtain ⟨st, b1, b2, b3, b4, b5, b6⟩ := build_ok h cid n s ph alt inc pos macs nodes birds hnd hfit hlen hbirds hblen sat hsat
  have hin : ∀ l ∈ satLinks n s sat, ∃ a b : Nat × Nat, l = (sat a, sat b) ∧ (a.1 < n ∧ a.2 < s) ∧ (b.1 < n ∧ b.2 < s) := by
    intro l hl
    obtain ⟨g, hg, rfl⟩ := List.mem_map.mp hl
    have h1 : TorusAdj n s g.1 g.2 := torusAdj_iff.mpr (Or.inl hg)
    have h2 : TorusAdj n s g.2 g.1 := torusAdj_iff.mpr (Or.inr hg)
    exact ⟨_, _, rfl, ⟨h1.1, h1.2.1⟩, ⟨h2.1, h2.2.1⟩⟩
  have hr : ∀ d, remoteDevice h (⟨st, satLinks n s sat⟩ : Net N V) d = .ok (otherEnd _ d) := by
    intro d
    refine (C64_remote h ⟨st, satLinks n s sat⟩ ?_ ?_ d).1 ?_
    · intro l hl
      obtain ⟨a, b, rfl, ha, hb⟩ := hin l hl
      obtain ⟨o, ho⟩ := b4 a ha.1 ha.2
      obtain ⟨o', ho'⟩ := b4 b hb.1 hb.2
      simp [hasPos, ho, ho']
    · intro l hl
      obtain ⟨a, b, rfl, ha, hb⟩ := hin l hl
      obtain ⟨o', ho'⟩ := b4 b hb.1 hb.2
      simp [hasOrbit, ho']
    · simp only [owner_place]
      intro he
      obtain ⟨d1, ad1, c1, -, c3⟩ := b3 (place d) (place_range d).1 (place_range d).2
      obtain ⟨d2, ad2, c1', -, c3'⟩ := b3 (place (otherEnd _ d)) (place_range _).1 (place_range _).2
      rw [he, c1'] at c1
      simp only [List.cons.injEq, Installed.sat.injEq, and_true] at c1
      exact adj_ne (place_adj d) (by rw [← c3, ← c3', c1.2])
  have hff : uri h ⟨h.macTy, List.replicate 6 0xff⟩ = "netdev://[ff:ff:ff:ff:ff:ff]".toList := by
    have : (⟨h.macTy, List.replicate 6 0xff⟩ : SatAddress.Address).checkCompatible h.macTy 6 = true := by simp [SatAddress.Address.checkCompatible]
    simp only [uri, this, if_true]
    decide
  refine ⟨_, b1, ?_, hr, ?_⟩
  · intro d a
    have : (a.convertTo h.endian h.satTy).checkCompatible h.macTy 6 = false := by
      simp [SatAddress.Address.checkCompatible, SatAddress.convertTo, hty.1, hty.2]
    simp [faceUris, deviceAddress, uri, this]
  · intro d
    simp only [faceUris, hr, Outcome.bind_ok, deviceAddress, hff]

/-! ## Examples -/

example : uri ⟨true, .little, 3, 2⟩ ⟨2, macBytes 0x1a2b⟩ = "netdev://[00:00:00:00:1a:2b]".toList := by decide

/-- The hypotheses on the address types are needed: an address of unspecified type is taken for a MAC address. -/
example : uri ⟨true, .little, 0, 2⟩ ⟨0, [0, 1, 0, 2, 0, 3]⟩ = "netdev://[00:01:00:02:00:03]".toList := by decide

example : (3 : UInt8) ≠ 2 ∧ (3 : UInt8) ≠ 0 ∧ 0 + exNodes.length < 2 ^ 48 := by decide

/-- A link between two devices of one node meets the second case of `C64_remote`. -/
example : owner [(5, 5)] ((0, true) : End [(5, 5)]) = owner [(5, 5)] (otherEnd [(5, 5)] (0, true)) := rfl

end FaceUri
end Icarus
