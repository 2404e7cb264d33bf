import Verif.Props.SlottedUplink
import Verif.Props.CrdsaSlots

/-!
# CRDSA, end to end (C70)

All stations use the CRDSA MAC with the same slots, all satellites CRDSA receivers.
-/

set_option autoImplicit false

namespace Icarus
namespace Uplink
open GroundSatChannel
open GroundSta (Entry attempts pendingStarts)

variable {D G V W P : Type}

/-! ## Specification -/

/-- The first multiple of `frame` that is not before `t`. -/
def frameStart (frame t : Nat) : Nat := t + toNextSlot frame t

/-- A frame with packet `u` reaches satellite `d` in the slot starting at `T`: some station handed the packet to its MAC at some time `t`, as its
`k`-th packet, and one of the slots chosen for it in the next frame is this one. -/
def InSlot (slot slots : Nat) (w : World D G W) (tgt : SatAddress → Option D) (chosen : G → Nat → List Nat) (handed : G → List (Nat × Entry W))
    (d : D) (T u : Nat) : Prop :=
  ∃ g k t x j, (handed g)[k]? = some (t, x) ∧ x.pkt = u ∧ j ∈ chosen g k ∧ T = frameStart (slot * slots) t + j * slot ∧ Reaches w tgt g d (T, x)

/-- The packets given to station `g`. -/
def given [DecidableEq G] {R : Type} (net : Net D G V W P R) (ops : List (Op D G W)) (g : G) : List (Nat × Entry W) :=
  requests (net.remote g) (net.power g) (opsOf g ops)

/-- Packets given to stations are different packets. -/
def Distinct [DecidableEq G] {R : Type} (net : Net D G V W P R) (ops : List (Op D G W)) : Prop :=
  (∀ g, ((given net ops g).map (fun y => y.2.pkt)).Nodup) ∧
  ∀ g h, g ≠ h → ∀ y ∈ given net ops g, ∀ z ∈ given net ops h, y.2.pkt ≠ z.2.pkt

/-! ## What a station sends -/

/-- The frames a CRDSA station sends for the packets handed to its MAC, the first of which is the `k`-th. -/
def plan (slot slots : Nat) (chosen : Nat → List Nat) : Nat → List (Nat × Entry W) → List (Nat × Entry W)
  | _, [] => []
  | k, (t, x) :: l => (chosen k).map (fun j => (frameStart (slot * slots) t + j * slot, x)) ++ plan slot slots chosen (k + 1) l

theorem mem_plan {slot slots : Nat} {chosen : Nat → List Nat} {k : Nat} {l : List (Nat × Entry W)} {y : Nat × Entry W} :
    y ∈ plan slot slots chosen k l ↔
      ∃ (i t j : Nat), l[i]? = some (t, y.2) ∧ j ∈ chosen (k + i) ∧ y.1 = frameStart (slot * slots) t + j * slot := by
  induction l generalizing k with
  | nil => simp [plan]
  | cons z l ih =>
    obtain ⟨t, x⟩ := z
    simp only [plan, List.mem_append, List.mem_map, ih]
    constructor
    · rintro (⟨j, hj, rfl⟩ | ⟨i, t', j, h1, h2, h3⟩)
      · exact ⟨0, t, j, rfl, hj, rfl⟩
      · exact ⟨i + 1, t', j, by simpa using h1, by rw [← Nat.add_assoc, Nat.add_right_comm]; exact h2, h3⟩
    · rintro ⟨i, t', j, h1, h2, h3⟩
      cases i with
      | zero =>
        simp only [List.getElem?_cons_zero, Option.some.injEq, Prod.mk.injEq] at h1
        obtain ⟨rfl, rfl⟩ := h1
        exact Or.inl ⟨j, h2, by rw [← h3]⟩
      | succ i =>
        refine Or.inr ⟨i, t', j, by simpa using h1, ?_, h3⟩
        rw [Nat.add_right_comm, Nat.add_assoc]; exact h2

/-- What CRDSA does with the packets, in these terms. -/
theorem attempts_plan {mac : GroundSta.Mac} {slot slots : Nat} {shuffle : Nat → List Nat} {replicas : Nat → Nat}
    (hm : IsCrdsa mac slot slots shuffle replicas) (hs : 0 < slot) (hn : 0 < slots) (h64 : slot * slots < 2 ^ 64) (k : Nat)
    (l : List (Nat × Entry W)) :
    attempts mac k l = plan slot slots (fun k => (shuffle k).take (replicas k)) k l := by
  have hF : 0 < slot * slots := Nat.mul_pos hs hn
  have hdelay : ∀ t, Crdsa.frameDelay t slot slots = toNextSlot (slot * slots) t := by
    intro t
    have h1 : Crdsa.frameDelay t slot slots = Aloha.sendDelay t (slot * slots) := by
      unfold Crdsa.frameDelay Aloha.sendDelay
      rw [if_pos ⟨hn, hs⟩, if_pos hF]
      simp only [Nat.mul_assoc]
    rw [h1]
    rcases aloha_toNextSlot (slot * slots) hF h64 with ⟨h2, -⟩ | ⟨-, h2⟩
    · simp [alohaMac] at h2
    · have := h2 0 t
      simpa [alohaMac] using this
  induction l generalizing k with
  | nil => rfl
  | cons y l ih =>
    obtain ⟨t, x⟩ := y
    simp only [attempts, plan]
    rw [ih, hm.1]
    congr 1
    have h1 := (hm.2 k).2 t
    have hlen : (shuffle k).length = slots := by rw [(hm.2 k).1.length_eq]; simp [Crdsa.slotTable]
    unfold Crdsa.sendDelays Crdsa.getSelectedSlots at h1
    split at h1
    · simp only [Outcome.bind_ok, Outcome.ok.injEq, hlen, hdelay] at h1
      simp only [Bool.false_eq_true, if_false]
      rw [← h1, List.map_map]
      refine List.map_congr_left (fun j _ => ?_)
      simp only [Function.comp, frameStart, Nat.add_assoc]
    · simp at h1

/-- The slots chosen for a packet. -/
structure Choice (slots : Nat) (chosen : Nat → List Nat) : Prop where
  nodup : ∀ k, (chosen k).Nodup
  lt : ∀ k, ∀ j ∈ chosen k, j < slots

theorem choice_of_crdsa {mac : GroundSta.Mac} {slot slots : Nat} {shuffle : Nat → List Nat} {replicas : Nat → Nat}
    (hm : IsCrdsa mac slot slots shuffle replicas) : Choice slots (fun k => (shuffle k).take (replicas k)) := by
  constructor
  · intro k
    exact (List.take_sublist _ _).nodup ((hm.2 k).1.nodup_iff.mpr (by simp [Crdsa.slotTable, List.nodup_range]))
  · intro k j hj
    have := (hm.2 k).1.mem_iff.mp (List.mem_of_mem_take hj)
    simpa [Crdsa.slotTable] using this

theorem frameStart_dvd (frame t : Nat) (h : 0 < frame) : frame ∣ frameStart frame t := dvd_toNextSlot frame t h

theorem plan_slot {slot slots : Nat} {chosen : Nat → List Nat} (hs : 0 < slot) (hn : 0 < slots) {k : Nat} {l : List (Nat × Entry W)}
    {y : Nat × Entry W} (h : y ∈ plan slot slots chosen k l) : slot ∣ y.1 := by
  obtain ⟨i, t, j, -, -, e⟩ := mem_plan.mp h
  rw [e]
  refine Nat.dvd_add ?_ (Nat.dvd_mul_left _ _)
  exact Nat.dvd_trans (Nat.dvd_mul_right _ _) (frameStart_dvd _ t (Nat.mul_pos hs hn))

/-- Number of the slot. -/
theorem plan_div {slot slots : Nat} (hs : 0 < slot) (hn : 0 < slots) (t j : Nat) (hj : j < slots) :
    (frameStart (slot * slots) t + j * slot) / slot / slots = frameStart (slot * slots) t / (slot * slots) := by
  obtain ⟨m, hm⟩ := frameStart_dvd (slot * slots) t (Nat.mul_pos hs hn)
  rw [Nat.div_div_eq_div_mul]
  have : j * slot < slot * slots := by rw [Nat.mul_comm j]; exact Nat.mul_lt_mul_of_pos_left hj hs
  rw [hm, Nat.mul_add_div (Nat.mul_pos hs hn), Nat.div_eq_of_lt this, Nat.mul_div_cancel_left _ (Nat.mul_pos hs hn)]
  rfl

/-- With different packets, at most as many frames carry a packet as there are slots chosen for it. -/
theorem plan_count {slot slots B : Nat} {chosen : Nat → List Nat} (q : Nat → Nat × Entry W → Bool)
    (hB : ∀ u k t x, ((chosen k).map (fun j => (frameStart (slot * slots) t + j * slot, x))).countP (q u) ≤ B)
    (hq : ∀ u y, q u y = true → y.2.pkt = u) (u k : Nat) (l : List (Nat × Entry W)) (hnd : (l.map (fun y => y.2.pkt)).Nodup) :
    (plan slot slots chosen k l).countP (q u) ≤ B := by
  induction l generalizing k with
  | nil => simp [plan]
  | cons y l ih =>
    obtain ⟨t, x⟩ := y
    rw [List.map_cons, List.nodup_cons] at hnd
    simp only [plan, List.countP_append]
    by_cases hx : x.pkt = u
    · have : (plan slot slots chosen (k + 1) l).countP (q u) = 0 := by
        rw [List.countP_eq_zero]
        intro z hz hzu
        obtain ⟨i, t', j, h1, -, -⟩ := mem_plan.mp hz
        refine hnd.1 ?_
        simp only [hx]
        rw [← hq u z hzu]
        exact List.mem_map.mpr ⟨(t', z.2), List.mem_of_getElem? h1, rfl⟩
      have := hB u k t x
      omega
    · have : ((chosen k).map (fun j => (frameStart (slot * slots) t + j * slot, x))).countP (q u) = 0 := by
        rw [List.countP_eq_zero]
        intro z hz hzu
        obtain ⟨j, -, rfl⟩ := List.mem_map.mp hz
        exact hx (hq u _ hzu)
      have := ih (k + 1) hnd.2
      omega

/-- At most one station contributes. -/
theorem sum_le_of_one [Fintype G] (f : G → Nat) (B : Nat) (h1 : ∀ g, f g ≤ B) (h2 : ∀ g h, g ≠ h → f g = 0 ∨ f h = 0) : ∑ g, f g ≤ B := by
  classical
  by_cases h : ∃ g, f g ≠ 0
  · obtain ⟨g, hg⟩ := h
    rw [Finset.sum_eq_single g]
    · exact h1 g
    · intro b _ hb
      rcases h2 g b (Ne.symm hb) with h | h
      · exact absurd h hg
      · exact h
    · simp
  · push Not at h
    rw [Finset.sum_eq_zero (fun g _ => h g)]
    exact Nat.zero_le _

/-! ## Every accepted packet is handed over -/

/-- The MAC sends every packet at least once. -/
def Sends (mac : GroundSta.Mac) : Prop := mac.sync = true ∨ ∀ k t, mac.delays k t ≠ []

/-- A packet waits only while the station is busy, and it is busy only while something is scheduled. -/
structure Live (s : GroundSta.Sys W) : Prop where
  waits : s.queue ≠ [] → s.busy = true
  goesOn : s.busy = true → s.events ≠ []

theorem insertEvent_ne {E : Type} (t : Nat) (e : E) (l : List (Nat × E)) : insertEvent t e l ≠ [] := by
  cases l with
  | nil => simp [insertEvent]
  | cons g gs => simp only [insertEvent]; split <;> simp

theorem scheduleStarts_ne (now : Nat) (x : Entry W) (ds : List Nat) (es : List (Nat × GroundSta.Ev W)) (h : ds ≠ [] ∨ es ≠ []) :
    GroundSta.scheduleStarts now x ds es ≠ [] := by
  induction ds generalizing es with
  | nil => simpa [GroundSta.scheduleStarts] using h
  | cons d ds ih => exact ih _ (Or.inr (insertEvent_ne _ _ _))

theorem macSend_live {mac : GroundSta.Mac} (hm : Sends mac) (s : GroundSta.Sys W) (now : Nat) (x : Entry W) (hb : s.busy = true) :
    Live (GroundSta.macSend mac s now x) := by
  refine ⟨fun _ => ?_, fun _ => ?_⟩
  · rw [(GroundSta.macSend_fields s now x).2.2.2.2.2.2.2]; exact hb
  · unfold GroundSta.macSend
    split
    · exact insertEvent_ne _ _ _
    · rename_i hns
      rcases hm with hm | hm
      · exact absurd hm hns
      · exact scheduleStarts_ne _ _ _ _ (Or.inl (hm _ _))

theorem live {debug : Bool} {mac : GroundSta.Mac} {accept : List (Entry W) → Entry W → Bool} {remote : SatAddress} {power : W} (hm : Sends mac)
    {ops : List (GroundSta.Op W)} {s : GroundSta.Sys W} (h : GroundSta.exec debug mac accept remote power ops = some (.ok s)) : Live s := by
  refine run_induction (P := fun _ s => Live s) ⟨by simp [GroundSta.Sys.init], by simp [GroundSta.Sys.init]⟩ ?_ h
  intro ops o s s' _ hi hs
  cases o with
  | send t pkt len proto =>
    obtain ⟨-, hs⟩ := GroundSta.step_send.mp hs
    unfold GroundSta.send at hs
    simp only at hs
    split at hs
    · simp only [Outcome.ok.injEq] at hs
      subst hs
      exact ⟨hi.waits, hi.goesOn⟩
    · split at hs
      · rename_i hb
        simp only [Outcome.ok.injEq] at hs
        subst hs
        exact ⟨fun _ => hb, hi.goesOn⟩
      · obtain ⟨x, rest, hq, rfl⟩ := GroundSta.transmitStart_eq hs
        exact macSend_live hm _ _ _ rfl
  | setRemote t a => obtain ⟨-, rfl⟩ := GroundSta.step_setRemote.mp hs; exact ⟨hi.waits, hi.goesOn⟩
  | setPower t w => obtain ⟨-, rfl⟩ := GroundSta.step_setPower.mp hs; exact ⟨hi.waits, hi.goesOn⟩
  | run =>
    simp only [GroundSta.step] at hs
    split at hs
    · simp at hs
    · simp only [Option.some.injEq, Outcome.ok.injEq] at hs
      subst hs
      exact ⟨hi.waits, fun _ => insertEvent_ne _ _ _⟩
    · simp only [Option.some.injEq] at hs
      unfold GroundSta.transmitComplete at hs
      simp only at hs
      split at hs
      · rename_i hq
        simp only [Outcome.ok.injEq] at hs
        subst hs
        exact ⟨fun h => absurd (List.isEmpty_iff.mp hq) h, by simp⟩
      · obtain ⟨x, rest, hq, rfl⟩ := GroundSta.transmitStart_eq hs
        exact macSend_live hm _ _ _ rfl

/-- A MAC that sends every packet at least once (CRDSA with at least one replica, Aloha, pass-through): when a station has nothing scheduled any more,
every packet its queue accepted has been handed to the MAC, in order. -/
theorem C70_all_handed {debug : Bool} {mac : GroundSta.Mac} {accept : List (Entry W) → Entry W → Bool} {remote : SatAddress} {power : W}
    (hm : Sends mac) {ops : List (GroundSta.Op W)} {s : GroundSta.Sys W} (h : GroundSta.exec debug mac accept remote power ops = some (.ok s))
    (hq : s.events = []) : s.handed.map Prod.snd = s.accepted.map Prod.snd := by
  have hl := live hm h
  have : s.queue = [] := by
    by_contra hc
    exact hl.goesOn (hl.waits hc) hq
  rw [C34_handed_in_order h, this, List.append_nil]

theorem sends_crdsa {mac : GroundSta.Mac} {slot slots : Nat} {shuffle : Nat → List Nat} {replicas : Nat → Nat}
    (hm : IsCrdsa mac slot slots shuffle replicas) (hr : ∀ k, 0 < replicas k) (hn : 0 < slots) : Sends mac := by
  refine Or.inr (fun k t he => ?_)
  have h1 := (hm.2 k).2 t
  have hlen : (shuffle k).length = slots := by rw [(hm.2 k).1.length_eq]; simp [Crdsa.slotTable]
  unfold Crdsa.sendDelays Crdsa.getSelectedSlots at h1
  split at h1
  · simp only [Outcome.bind_ok, Outcome.ok.injEq, he, List.map_eq_nil_iff, List.take_eq_nil_iff] at h1
    have := hr k
    rcases h1 with h1 | h1
    · omega
    · rw [h1] at hlen; simp at hlen; omega
  · simp at h1

/-! ## What a satellite hears -/

variable [Fintype G] [Fintype D] [DecidableEq G] [DecidableEq D]

omit [Fintype G] [Fintype D] [DecidableEq G] in
theorem framesAt_pkt {R : Type} (net : Net D G V W P R) (hkey : ∀ i u, net.rx.key i u = u) (d : D) (heard : List (Nat × D × Flight W)) :
    framesAt net d heard =
      heard.filterMap (fun y => if y.2.1 = d then some ⟨y.2.2.pkt, y.1, y.2.2.len, net.toP y.2.2.power⟩ else none) := by
  unfold framesAt
  simp only [hkey]
  have h1 : heard.filterMap (fun y => if y.2.1 = d then some (⟨y.2.2.pkt, y.1, y.2.2.len, net.toP y.2.2.power⟩ : Aloha.Frame P) else none) =
      heard.zipIdx.filterMap ((fun y => if y.2.1 = d then some ⟨y.2.2.pkt, y.1, y.2.2.len, net.toP y.2.2.power⟩ else none) ∘ Prod.fst) := by
    rw [← List.filterMap_map, List.zipIdx_map_fst]
  rw [h1]
  rfl

omit [Fintype G] [Fintype D] [DecidableEq G] [DecidableEq D] in
theorem lands_eq_some {addr : G → SatAddress.Address} {w : World D G W} {tgt : SatAddress → Option D} {g : G} {y : Nat × Entry W}
    {u : Nat × D × Flight W} (hu : lands addr w tgt g y = some u) :
    Reaches w tgt g u.2.1 y ∧ u.1 = y.1 + w.delay y.1 g u.2.1 ∧ u.2.2.len = y.2.len ∧ u.2.2.pkt = y.2.pkt := by
  unfold lands at hu
  split at hu
  · simp at hu
  · rename_i d' hd'
    split at hu
    · rename_i ha
      simp only [Option.some.injEq] at hu
      subst hu
      exact ⟨⟨hd', ha⟩, rfl, rfl, rfl⟩
    · simp at hu

omit [Fintype G] [Fintype D] [DecidableEq G] [DecidableEq D] in
theorem lands_power {addr : G → SatAddress.Address} {w : World D G W} {tgt : SatAddress → Option D} {g : G} {y : Nat × Entry W}
    {u : Nat × D × Flight W} (hu : lands addr w tgt g y = some u) : u.2.2.power = w.power y.1 g u.2.1 y.2.power := by
  unfold lands at hu
  split at hu
  · simp at hu
  · split at hu
    · simp only [Option.some.injEq] at hu
      subst hu
      rfl
    · simp at hu

omit [Fintype G] [Fintype D] [DecidableEq G] [DecidableEq D] in
theorem reaches_lands {addr : G → SatAddress.Address} {w : World D G W} {tgt : SatAddress → Option D} {g : G} {d : D} {y : Nat × Entry W}
    (h : Reaches w tgt g d y) : ∃ u, lands addr w tgt g y = some u ∧ u.2.1 = d := by
  obtain ⟨h1, h2⟩ := h
  unfold lands
  rw [h1]
  simp only [h2, if_true]
  exact ⟨_, rfl, rfl⟩

omit [Fintype D] [DecidableEq G] in
/-- Whatever part of the planned frames a satellite hears is traffic as the receiver expects it. -/
theorem traffic {R : Type} {net : Net D G V W P R} (hkey : ∀ i u, net.rx.key i u = u) {w : World D G W} {tgt : SatAddress → Option D}
    {slot slots : Nat} (hs : 0 < slot) (hn : 0 < slots) {chosen : G → Nat → List Nat} (hc : ∀ g, Choice slots (chosen g))
    (htwo : ∀ g k, (chosen g k).length ≤ 2) {lo hi : D → Nat} (hdelay : ∀ t g d, lo d ≤ w.delay t g d ∧ w.delay t g d ≤ hi d)
    {handed : G → List (Nat × Entry W)} (hlen : ∀ g d, ∀ y ∈ handed g, hi d - lo d < y.2.len ∧ y.2.len + (hi d - lo d) ≤ slot)
    (hnd : ∀ g, ((handed g).map (fun y => y.2.pkt)).Nodup) (hdist : ∀ g h, g ≠ h → ∀ y ∈ handed g, ∀ z ∈ handed h, y.2.pkt ≠ z.2.pkt)
    {L : List (Nat × D × Flight W)}
    (hL : (L : Multiset (Nat × D × Flight W)) ≤
      ∑ g, (((plan slot slots (chosen g) 0 (handed g)).filterMap (lands net.addr w tgt g) : List _) : Multiset (Nat × D × Flight W))) (d : D) :
    CrdsaTraffic slot slots (lo d) (hi d - lo d) (framesAt net d L) := by
  -- a heard frame comes from a planned one
  have hsrc : ∀ u ∈ L, ∃ g, ∃ y ∈ plan slot slots (chosen g) 0 (handed g), lands net.addr w tgt g y = some u := by
    intro u hu
    have := Multiset.mem_of_le hL (show u ∈ (L : Multiset _) from hu)
    rw [Multiset.mem_sum] at this
    obtain ⟨g, -, hg⟩ := this
    rw [Multiset.mem_coe, List.mem_filterMap] at hg
    obtain ⟨y, hy, e⟩ := hg
    exact ⟨g, y, hy, e⟩
  have hplan : ∀ g, ∀ y ∈ plan slot slots (chosen g) 0 (handed g), ∃ z ∈ handed g, z.2 = y.2 := by
    intro g y hy
    obtain ⟨i, t, j, h1, -, -⟩ := mem_plan.mp hy
    exact ⟨_, List.mem_of_getElem? h1, rfl⟩
  have hslot : ∀ (g : G) (y : Nat × Entry W) (u : Nat × D × Flight W), y ∈ plan slot slots (chosen g) 0 (handed g) →
      lands net.addr w tgt g y = some u → u.2.1 = d → (u.1 - lo d) / slot = y.1 / slot ∧ ∃ δ, u.1 = lo d + slot * (y.1 / slot) + δ ∧
        δ ≤ hi d - lo d ∧ hi d - lo d < u.2.2.len ∧ u.2.2.len + (hi d - lo d) ≤ slot := by
    intro g y u hy hu hd
    obtain ⟨-, u1, u2, -⟩ := lands_eq_some hu
    obtain ⟨z, hz, e⟩ := hplan g y hy
    have h1 := hlen g d z hz
    have h2 := hdelay y.1 g d
    have h3 := Nat.mul_div_cancel' (plan_slot hs hn hy)
    rw [hd] at u1
    have h4 : u.1 = lo d + slot * (y.1 / slot) + (w.delay y.1 g d - lo d) := by rw [h3, u1]; omega
    refine ⟨?_, _, h4, by omega, by rw [u2, ← e]; exact h1.1, by rw [u2, ← e]; exact h1.2⟩
    have h5 : (w.delay y.1 g d - lo d) / slot = 0 := Nat.div_eq_of_lt (by omega)
    rw [h4, Nat.add_assoc, Nat.add_sub_cancel_left, Nat.mul_add_div hs, h5, Nat.add_zero]
  have hmem : ∀ f ∈ framesAt net d L, ∃ g y u, u ∈ L ∧ y ∈ plan slot slots (chosen g) 0 (handed g) ∧ lands net.addr w tgt g y = some u ∧ u.2.1 = d ∧
      f = ⟨u.2.2.pkt, u.1, u.2.2.len, net.toP u.2.2.power⟩ := by
    intro f hf
    rw [framesAt_pkt net hkey, List.mem_filterMap] at hf
    obtain ⟨u, hu, e⟩ := hf
    split at e
    · rename_i hd
      simp only [Option.some.injEq] at e
      obtain ⟨g, y, hy, hl⟩ := hsrc u hu
      exact ⟨g, y, u, hu, hy, hl, hd, e.symm⟩
    · simp at e
  -- counting
  have hcount : ∀ (B : Nat) (p : Aloha.Frame P → Bool) (q : Nat × Entry W → Bool) (v : Nat),
      (∀ (g : G) (y : Nat × Entry W) (u : Nat × D × Flight W), y ∈ plan slot slots (chosen g) 0 (handed g) → lands net.addr w tgt g y = some u →
        u.2.1 = d → p ⟨u.2.2.pkt, u.1, u.2.2.len, net.toP u.2.2.power⟩ = true → q y = true) →
      (∀ y, q y = true → y.2.pkt = v) →
      (∀ g, (plan slot slots (chosen g) 0 (handed g)).countP q ≤ B) → (framesAt net d L).countP p ≤ B := by
    intro B p q v hpq hqv hB
    let p' : Nat × D × Flight W → Bool := fun u => decide (u.2.1 = d) && p ⟨u.2.2.pkt, u.1, u.2.2.len, net.toP u.2.2.power⟩
    have h1 : (framesAt net d L).countP p = L.countP p' := by
      rw [framesAt_pkt net hkey, List.countP_filterMap]
      refine List.countP_congr (fun u _ => ?_)
      by_cases hd : u.2.1 = d <;> simp [p', hd]
    have h2 : L.countP p' ≤ ∑ g, ((plan slot slots (chosen g) 0 (handed g)).filterMap (lands net.addr w tgt g)).countP p' := by
      have h3 := Multiset.countP_le_of_le (fun x => p' x = true) hL
      have h4 : Multiset.countP (fun x => p' x = true) (∑ g, (((plan slot slots (chosen g) 0 (handed g)).filterMap (lands net.addr w tgt g) :
          List _) : Multiset (Nat × D × Flight W))) = ∑ g, ((plan slot slots (chosen g) 0 (handed g)).filterMap (lands net.addr w tgt g)).countP p' := by
        classical
        induction (Finset.univ : Finset G) using Finset.induction_on with
        | empty => simp
        | insert a s ha ih =>
          rw [Finset.sum_insert ha, Finset.sum_insert ha, Multiset.countP_add, ih]
          simp
      rw [h4] at h3
      simpa using h3
    have h5 : ∀ g, ((plan slot slots (chosen g) 0 (handed g)).filterMap (lands net.addr w tgt g)).countP p' ≤
        (plan slot slots (chosen g) 0 (handed g)).countP q := by
      intro g
      rw [List.countP_filterMap]
      refine List.countP_mono_left (fun y hy hp => ?_)
      cases hl : lands net.addr w tgt g y with
      | none => rw [hl] at hp; simp at hp
      | some u =>
        rw [hl] at hp
        simp only [Option.map_some, Option.getD_some, p', Bool.and_eq_true, decide_eq_true_eq] at hp
        exact hpq g y u hy hl hp.1 hp.2
    rw [h1]
    refine Nat.le_trans h2 (Nat.le_trans (Finset.sum_le_sum (fun g _ => h5 g)) (sum_le_of_one _ B hB ?_))
    intro g h hgh
    by_contra hno
    push Not at hno
    obtain ⟨y, hy, hy2⟩ := List.countP_pos_iff.mp (Nat.pos_of_ne_zero hno.1)
    obtain ⟨z, hz, hz2⟩ := List.countP_pos_iff.mp (Nat.pos_of_ne_zero hno.2)
    obtain ⟨y', hy', e1⟩ := hplan g y hy
    obtain ⟨z', hz', e2⟩ := hplan h z hz
    exact hdist g h hgh y' hy' z' hz' (by rw [e1, e2, hqv y hy2, hqv z hz2])
  refine ⟨hn, ?_, ?_, ?_, ?_⟩
  · intro f hf
    obtain ⟨g, y, u, -, hy, hl, hd, rfl⟩ := hmem f hf
    obtain ⟨-, δ, h1, h2, h3, h4⟩ := hslot g y u hy hl hd
    exact ⟨_, δ, h1, h2, h3, h4⟩
  · intro f hf f' hf' e
    obtain ⟨g, y, u, -, hy, hl, hd, rfl⟩ := hmem f hf
    obtain ⟨g', y', u', -, hy', hl', hd', rfl⟩ := hmem f' hf'
    unfold slotOf
    simp only at e ⊢
    rw [(hslot g y u hy hl hd).1, (hslot g' y' u' hy' hl' hd').1]
    obtain ⟨-, -, -, e1⟩ := lands_eq_some hl
    obtain ⟨-, -, -, e2⟩ := lands_eq_some hl'
    rw [e1, e2] at e
    obtain ⟨i, t, j, m1, m2, m3⟩ := mem_plan.mp hy
    obtain ⟨i', t', j', m1', m2', m3'⟩ := mem_plan.mp hy'
    have hg : g = g' := by
      by_contra hne
      exact hdist g g' hne _ (List.mem_of_getElem? m1) _ (List.mem_of_getElem? m1') e
    subst hg
    have hi : i = i' := by
      have hnd' := hnd g
      have k1 : ((handed g).map (fun y => y.2.pkt))[i]? = some y.2.pkt := by rw [List.getElem?_map, m1]; rfl
      have k2 : ((handed g).map (fun y => y.2.pkt))[i']? = some y.2.pkt := by rw [List.getElem?_map, m1', e]; rfl
      have hlt : i < ((handed g).map (fun y => y.2.pkt)).length := by
        by_contra hc
        rw [List.getElem?_eq_none (by omega)] at k1; simp at k1
      exact (List.getElem?_inj hlt hnd').mp (by rw [k1, k2])
    subst hi
    rw [m1, Option.some.injEq, Prod.mk.injEq] at m1'
    obtain ⟨rfl, -⟩ := m1'
    rw [m3, m3', plan_div hs hn t j ((hc g).lt _ j m2), plan_div hs hn t j' ((hc g).lt _ j' m2')]
  · -- two frames of one packet in one slot would be counted twice
    have hnd2 : ((framesAt net d L).map (fun f => (f.uid, slotOf slot (lo d) f))).Nodup := by
      rw [List.nodup_iff_count_le_one]
      rintro ⟨v, q⟩
      rw [List.count_eq_countP, List.countP_map]
      refine hcount 1 _ (fun y => decide (y.2.pkt = v ∧ y.1 / slot = q)) v ?_ ?_ ?_
      · intro g y u hy hl hd hp
        simp only [Function.comp, beq_iff_eq, Prod.mk.injEq] at hp
        obtain ⟨-, -, -, e1⟩ := lands_eq_some hl
        simp only [decide_eq_true_eq]
        refine ⟨by rw [← e1]; exact hp.1, ?_⟩
        rw [← (hslot g y u hy hl hd).1]
        exact hp.2
      · intro y hy; simp only [decide_eq_true_eq] at hy; exact hy.1
      · intro g
        refine plan_count (fun v y => decide (y.2.pkt = v ∧ y.1 / slot = q)) ?_ ?_ v 0 _ (hnd g)
        · intro v k t x
          rw [List.countP_map]
          have hj : ∀ j, (frameStart (slot * slots) t + j * slot) / slot = frameStart (slot * slots) t / slot + j :=
            fun j => Nat.add_mul_div_right _ _ hs
          have : (chosen g k).countP ((fun y : Nat × Entry W => decide (y.2.pkt = v ∧ y.1 / slot = q)) ∘ fun j => (frameStart (slot * slots) t + j * slot, x)) ≤
              (chosen g k).count (q - frameStart (slot * slots) t / slot) := by
            rw [List.count_eq_countP]
            refine List.countP_mono_left (fun j _ hj' => ?_)
            simp only [Function.comp, decide_eq_true_eq, hj] at hj'
            simp only [beq_iff_eq]
            omega
          exact Nat.le_trans this (List.nodup_iff_count_le_one.mp ((hc g).nodup k) _)
        · intro v y hy; simp only [decide_eq_true_eq] at hy; exact hy.1
    rw [List.Nodup, List.pairwise_map] at hnd2
    refine hnd2.imp (fun hne e e2 => hne (by rw [e, e2]))
  · intro v
    refine hcount 2 _ (fun y => decide (y.2.pkt = v)) v ?_ ?_ ?_
    · intro g y u hy hl hd hp
      obtain ⟨-, -, -, e1⟩ := lands_eq_some hl
      simp only [beq_iff_eq] at hp
      simp only [decide_eq_true_eq]
      rw [← e1]; exact hp
    · intro y hy; simpa using hy
    · intro g
      refine plan_count (fun v y => decide (y.2.pkt = v)) ?_ ?_ v 0 _ (hnd g)
      · intro v k t x
        refine Nat.le_trans List.countP_le_length ?_
        rw [List.length_map]; exact htwo g k
      · intro v y hy; simpa using hy

/-! ## End to end -/

section
variable {hasOrbit : D → Bool} {cid n m : Nat} {hist : List (Nat × Nat × D)} {as : List SatAddress} {k : Constellation D}
  {w : World D G W} [Zero P] [Add P]

theorem crdsa_run {P : Type} [Zero P] [Add P] (lost : P → P → Bool) (F : Nat) (r : Crdsa.Sys P) (os : List (Aloha.Op P)) :
    runFrom (crdsaReceiver lost F).step r os = Crdsa.execFrom true true lost F r os := by
  induction os generalizing r with
  | nil => rfl
  | cons o os ih =>
    simp only [runFrom, Crdsa.execFrom]
    have e : (crdsaReceiver lost F).step r o = Crdsa.step true true lost F r o := rfl
    rw [e]
    cases Crdsa.step true true lost F r o with
    | none => rfl
    | some x => cases x <;> first | rfl | exact ih _

omit [Fintype G] [Fintype D] [DecidableEq D] [Zero P] [Add P] in
theorem given_left {R : Type} (net : Net D G V W P R) (a b : List (Op D G W)) (g : G) : (given net a g).Sublist (given net (a ++ b) g) := by
  unfold given
  rw [opsOf_append, requests_append]
  exact List.sublist_append_left _ _

omit [Fintype G] [Fintype D] [DecidableEq D] [Zero P] [Add P] in
theorem Distinct.left {R : Type} {net : Net D G V W P R} {a b : List (Op D G W)} (h : Distinct net (a ++ b)) : Distinct net a :=
  ⟨fun g => ((given_left net a b g).map _).nodup (h.1 g),
   fun g h' hne y hy z hz => h.2 g h' hne y ((given_left net a b g).subset hy) z ((given_left net a b h').subset hz)⟩

omit [Zero P] [Add P] in
/-- Packets handed to the MAC were given to the station. -/
theorem handed_given {R : Type} {net : Net D G V W P R} {ops : List (Op D G W)} {s : Sys D G W R} (h : exec net ops = some (.ok s)) (g : G) :
    ((s.stations g).handed.map Prod.snd).Sublist ((given net ops g).map Prod.snd) := by
  have h1 := C55_station h g
  have h2 := (C34_accepted_or_dropped h1).2.map Prod.snd
  rw [C34_handed_in_order h1] at h2
  exact (List.sublist_append_left _ _).trans h2

theorem Decodable.congr {A B : Nat → Nat → Prop} (f : Nat → Nat) (h1 : ∀ q u, A q u → B (f q) u) (h2 : ∀ q u v, A q u → B (f q) v → A q v) {u : Nat}
    (h : Decodable A u) : Decodable B u := by
  induction h with
  | mk hT _ ih => exact .mk (h1 _ _ hT) (fun v hv hne => ih v (h2 _ _ _ hT hv) hne)

omit [Zero P] [Add P] in
/-- What a satellite has heard or is about to hear, at any time. -/
theorem traffic_at {net : Net D G V W P (Crdsa.Sys P)} (hkey : ∀ i u, net.rx.key i u = u) {slot slots : Nat}
    (hb : Built net.endian hasOrbit cid n m hist as k) (hfit : Fits16 cid n m)
    (hk : net.chan.constellation = some k) (hsky : Sky net w)
    (hs : 0 < slot) (hn : 0 < slots) (h64 : slot * slots < 2 ^ 64) {shuffle : G → Nat → List Nat} {replicas : G → Nat → Nat}
    (hm : ∀ g, IsCrdsa (net.mac g) slot slots (shuffle g) (replicas g)) (htwo : ∀ g k, replicas g k ≤ 2)
    {lo hi : D → Nat} (hdelay : ∀ t g d, lo d ≤ w.delay t g d ∧ w.delay t g d ≤ hi d) {os : List (Op D G W)} {s : Sys D G W (Crdsa.Sys P)}
    (hos : exec net os = some (.ok s)) (hl : Launched net hist as os) (hd : Distinct net os)
    (hlen : ∀ g d, ∀ y ∈ given net os g, hi d - lo d < y.2.len ∧ y.2.len + (hi d - lo d) ≤ slot)
    {L : List (Nat × D × Flight W)} (hL : (L : Multiset (Nat × D × Flight W)) ≤ ↑s.heard + ↑s.flying) (d : D) :
    CrdsaTraffic slot slots (lo d) (hi d - lo d) (framesAt net d L) ∧ ∀ f ∈ framesAt net d L, ∃ g, ∃ y ∈ given net os g, y.2.len = f.dur ∧
      ∃ t, f.pow = net.toP (w.power t g d y.2.power) := by
  have hacc := account hb hfit hk hsky hl hos
  have hsub := handed_given hos
  have hle : (L : Multiset (Nat × D × Flight W)) ≤ ∑ g, (((plan slot slots (fun k => (shuffle g k).take (replicas g k)) 0 (s.stations g).handed).filterMap
      (lands net.addr w (target hist as) g) : List _) : Multiset (Nat × D × Flight W)) := by
    refine le_trans hL ?_
    rw [hacc.flights]
    refine Finset.sum_le_sum (fun g _ => ?_)
    have hp := C34_replicas (C55_station hos g)
    rw [attempts_plan (hm g) hs hn h64] at hp
    refine Multiset.coe_le.mpr ?_
    refine List.Subperm.trans ?_ (hp.filterMap (lands net.addr w (target hist as) g)).subperm
    rw [List.filterMap_append]
    exact (List.sublist_append_left _ _).subperm
  have hsnd : ∀ g, ∀ y ∈ (s.stations g).handed, ∃ z ∈ given net os g, z.2 = y.2 := by
    intro g y hy
    have := (hsub g).subset (List.mem_map_of_mem hy)
    simpa only [List.mem_map] using this
  refine ⟨traffic (w := w) (tgt := target hist as) hkey hs hn (fun g => choice_of_crdsa (hm g)) ?_ hdelay
    (handed := fun g => (s.stations g).handed) ?_ ?_ ?_ hle d, ?_⟩
  · intro g k
    exact Nat.le_trans (List.length_take_le _ _) (htwo g k)
  · intro g d y hy
    obtain ⟨z, hz, e⟩ := hsnd g y hy
    rw [← e]; exact hlen g d z hz
  · intro g
    have := ((hsub g).map Entry.pkt)
    simp only [List.map_map] at this
    exact this.nodup (hd.1 g)
  · intro g h' hne y hy z hz
    obtain ⟨y', hy', e1⟩ := hsnd g y hy
    obtain ⟨z', hz', e2⟩ := hsnd h' z hz
    rw [← e1, ← e2]
    exact hd.2 g h' hne y' hy' z' hz'
  · intro f hf
    rw [framesAt_pkt net hkey, List.mem_filterMap] at hf
    obtain ⟨u, hu, e⟩ := hf
    split at e
    · rename_i hud
      simp only [Option.some.injEq] at e
      subst e
      have := Multiset.mem_of_le hle (show u ∈ (L : Multiset _) from hu)
      rw [Multiset.mem_sum] at this
      obtain ⟨g, -, hg⟩ := this
      rw [Multiset.mem_coe, List.mem_filterMap] at hg
      obtain ⟨y, hy, hly⟩ := hg
      obtain ⟨i, t, j, h1, -, -⟩ := mem_plan.mp hy
      obtain ⟨z, hz, e⟩ := hsnd g _ (List.mem_of_getElem? h1)
      obtain ⟨-, -, e2, -⟩ := lands_eq_some hly
      refine ⟨g, z, hz, by simp only; rw [e2, e], y.1, ?_⟩
      simp only
      rw [e, lands_power hly, hud]
    · simp at e

omit [Zero P] [Add P] in
/-- Slots as counted by a satellite, and slots as counted by the stations. -/
theorem decodable_slots {net : Net D G V W P (Crdsa.Sys P)} (hkey : ∀ i u, net.rx.key i u = u) {slot slots : Nat}
    (hb : Built net.endian hasOrbit cid n m hist as k) (hfit : Fits16 cid n m)
    (hk : net.chan.constellation = some k) (hsky : Sky net w)
    (hs : 0 < slot) (hn : 0 < slots) (h64 : slot * slots < 2 ^ 64) {shuffle : G → Nat → List Nat} {replicas : G → Nat → Nat}
    (hm : ∀ g, IsCrdsa (net.mac g) slot slots (shuffle g) (replicas g))
    {lo hi : D → Nat} (hdelay : ∀ t g d, lo d ≤ w.delay t g d ∧ w.delay t g d ≤ hi d) {ops : List (Op D G W)} {s : Sys D G W (Crdsa.Sys P)}
    (h : exec net ops = some (.ok s)) (hl : Launched net hist as ops)
    (hlen : ∀ g d, ∀ y ∈ given net ops g, hi d - lo d < y.2.len ∧ y.2.len + (hi d - lo d) ≤ slot)
    (q1 : ∀ g, (s.stations g).events = []) (q2 : s.flying = []) (d : D) (u : Nat) :
    Decodable (fun T v => ∃ f ∈ framesAt net d s.heard, slotOf slot (lo d) f = T ∧ f.uid = v) u ↔
      Decodable (InSlot slot slots w (target hist as) (fun g k => (shuffle g k).take (replicas g k)) (fun g => (s.stations g).handed) d) u := by
  have hacc := account hb hfit hk hsky hl h
  -- frames heard, slot by slot
  have hheard : ∀ v : Nat × D × Flight W, v ∈ s.heard ↔ ∃ g, ∃ y ∈ plan slot slots (fun k => (shuffle g k).take (replicas g k)) 0 (s.stations g).handed,
      lands net.addr w (target hist as) g y = some v := by
    intro v
    have hfl := hacc.flights
    rw [q2, Multiset.coe_nil, add_zero] at hfl
    have hmem : v ∈ s.heard ↔ v ∈ (s.heard : Multiset (Nat × D × Flight W)) := Iff.rfl
    rw [hmem, hfl, Multiset.mem_sum]
    simp only [Finset.mem_univ, true_and, Multiset.mem_coe, List.mem_filterMap]
    refine exists_congr (fun g => exists_congr (fun y => and_congr_left (fun _ => ?_)))
    have hp := C34_replicas (C55_station h g)
    rw [q1 g, attempts_plan (hm g) hs hn h64] at hp
    simpa [pendingStarts] using hp.mem_iff (a := y)
  have hin : ∀ q v, (∃ f ∈ framesAt net d s.heard, slotOf slot (lo d) f = q ∧ f.uid = v) ↔
      InSlot slot slots w (target hist as) (fun g k => (shuffle g k).take (replicas g k)) (fun g => (s.stations g).handed) d (slot * q) v := by
    intro q v
    have hslot : ∀ (g : G) (y : Nat × Entry W) (u : Nat × D × Flight W),
        y ∈ plan slot slots (fun k => (shuffle g k).take (replicas g k)) 0 (s.stations g).handed →
        lands net.addr w (target hist as) g y = some u → u.2.1 = d → (u.1 - lo d) / slot = y.1 / slot ∧ slot ∣ y.1 := by
      intro g y u hy hu hd
      obtain ⟨-, u1, -, -⟩ := lands_eq_some hu
      have hsl := plan_slot hs hn hy
      refine ⟨?_, hsl⟩
      rw [hd] at u1
      obtain ⟨i, t, j, hi1, -, -⟩ := mem_plan.mp hy
      have := (handed_given h g).subset (List.mem_map_of_mem (List.mem_of_getElem? hi1))
      obtain ⟨z, hz, hz2⟩ := List.mem_map.mp this
      have h1 := hlen g d z hz
      have h2 := hdelay y.1 g d
      have h5 : (w.delay y.1 g d - lo d) / slot = 0 := Nat.div_eq_of_lt (by omega)
      obtain ⟨a, ha⟩ := hsl
      have : u.1 - lo d = slot * a + (w.delay y.1 g d - lo d) := by omega
      rw [this, Nat.mul_add_div hs, h5, ha, Nat.mul_div_cancel_left _ hs, Nat.add_zero]
    constructor
    · rintro ⟨f, hf, hq, hv⟩
      rw [framesAt_pkt net hkey, List.mem_filterMap] at hf
      obtain ⟨u, hu, e⟩ := hf
      split at e
      · rename_i hd
        simp only [Option.some.injEq] at e
        subst e
        obtain ⟨g, y, hy, hly⟩ := (hheard u).mp hu
        obtain ⟨hre, -, -, hpk⟩ := lands_eq_some hly
        obtain ⟨h3, h4⟩ := hslot g y u hy hly hd
        obtain ⟨i, t, j, m1, m2, m3⟩ := mem_plan.mp hy
        have hT : slot * q = y.1 := by
          rw [← hq]
          unfold slotOf
          simp only
          rw [h3]
          exact Nat.mul_div_cancel' h4
        refine ⟨g, i, t, y.2, j, m1, by rw [← hpk]; exact hv, by simpa using m2, by rw [hT, m3], ?_⟩
        rw [hT, ← hd]
        exact hre
      · simp at e
    · rintro ⟨g, i, t, x, j, m1, m2, m3, m4, m5⟩
      obtain ⟨u, hu, hd⟩ := reaches_lands (addr := net.addr) m5
      have hy : (slot * q, x) ∈ plan slot slots (fun k => (shuffle g k).take (replicas g k)) 0 (s.stations g).handed :=
        mem_plan.mpr ⟨i, t, j, m1, by simpa using m3, m4⟩
      refine ⟨⟨u.2.2.pkt, u.1, u.2.2.len, net.toP u.2.2.power⟩, ?_, ?_, ?_⟩
      · rw [framesAt_pkt net hkey, List.mem_filterMap]
        exact ⟨u, (hheard u).mpr ⟨g, _, hy, hu⟩, by rw [if_pos hd]⟩
      · unfold slotOf
        simp only
        rw [(hslot g _ u hy hu hd).1]
        exact Nat.mul_div_cancel_left _ hs
      · obtain ⟨-, -, -, hpk⟩ := lands_eq_some hu
        simp only
        rw [hpk]; exact m2
  constructor
  · exact Decodable.congr (fun q => slot * q) (fun q v hv => (hin q v).mp hv) (fun q _ v _ hv => (hin q v).mpr hv)
  · have hmul : ∀ T v, InSlot slot slots w (target hist as) (fun g k => (shuffle g k).take (replicas g k)) (fun g => (s.stations g).handed) d T v →
        slot * (T / slot) = T := by
      rintro T v ⟨g, i, t, x, j, m1, m2, m3, m4, m5⟩
      refine Nat.mul_div_cancel' ?_
      exact plan_slot (y := (T, x)) (chosen := fun k => (shuffle g k).take (replicas g k)) (k := 0) hs hn
        (mem_plan.mpr ⟨i, t, j, m1, by rw [Nat.zero_add]; exact m3, m4⟩)
    refine Decodable.congr (fun T => T / slot) (fun T v hv => (hin _ v).mpr ?_) (fun T u v hu hv => ?_)
    · rw [hmul T v hv]; exact hv
    · have := (hin _ v).mp hv
      rwa [hmul T u hu] at this

/-- All stations use CRDSA with at most two replicas in frames of `slots` slots of `slot` ticks, all satellites CRDSA receivers with the same frames
(no capture: `Drops`).  The delays to satellite `d` are between `lo d` and `hi d`; every frame is longer than this spread and leaves more than
the spread of its slot empty; packets are different.  Nothing ever fails.  When nothing is scheduled any more, each satellite has passed up exactly
the packets that can be decoded, slot by slot, from what reached it, each once. -/
theorem C70_crdsa {net : Net D G V W P (Crdsa.Sys P)} {lost : P → P → Bool} {slot slots : Nat} (hrx : net.rx = crdsaReceiver lost (slot * slots))
    {Q : P → Prop} (hlost : Aloha.Drops lost Q) (hb : Built net.endian hasOrbit cid n m hist as k) (hfit : Fits16 cid n m)
    (hk : net.chan.constellation = some k) (hsky : Sky net w)
    (hs : 0 < slot) (hn : 0 < slots) (h64 : slot * slots < 2 ^ 64) {shuffle : G → Nat → List Nat} {replicas : G → Nat → Nat}
    (hm : ∀ g, IsCrdsa (net.mac g) slot slots (shuffle g) (replicas g)) (htwo : ∀ g k, replicas g k ≤ 2)
    {lo hi : D → Nat} (hdelay : ∀ t g d, lo d ≤ w.delay t g d ∧ w.delay t g d ≤ hi d) {ops : List (Op D G W)}
    (hl : Launched net hist as ops) (hdist : Distinct net ops) (hpow : ∀ g d, ∀ y ∈ given net ops g, ∀ t, Q (net.toP (w.power t g d y.2.power)))
    (hlen : ∀ g d, ∀ y ∈ given net ops g, hi d - lo d < y.2.len ∧ y.2.len + (hi d - lo d) < slot)
    {r : Outcome (Sys D G W (Crdsa.Sys P))} (h : exec net ops = some r) :
    ∃ s, r = .ok s ∧ (Quiet net s → ∀ d, ((net.rx.delivered (s.sats d)).map Prod.snd).Nodup ∧
      ∀ u, u ∈ (net.rx.delivered (s.sats d)).map Prod.snd ↔
        Decodable (InSlot slot slots w (target hist as) (fun g k => (shuffle g k).take (replicas g k)) (fun g => (s.stations g).handed) d) u) := by
  have hkey : ∀ i u, net.rx.key i u = u := by intro i u; rw [hrx]; rfl
  have hle : ∀ (os : List (Op D G W)), (∀ g d, ∀ y ∈ given net os g, hi d - lo d < y.2.len ∧ y.2.len + (hi d - lo d) < slot) →
      ∀ g d, ∀ y ∈ given net os g, hi d - lo d < y.2.len ∧ y.2.len + (hi d - lo d) ≤ slot :=
    fun os h g d y hy => ⟨(h g d y hy).1, (h g d y hy).2.le⟩
  have htraffic : ∀ (os : List (Op D G W)) (s : Sys D G W (Crdsa.Sys P)), exec net os = some (.ok s) → Launched net hist as os → Distinct net os →
      (∀ g d, ∀ y ∈ given net os g, ∀ t, Q (net.toP (w.power t g d y.2.power))) →
      (∀ g d, ∀ y ∈ given net os g, hi d - lo d < y.2.len ∧ y.2.len + (hi d - lo d) < slot) →
      ∀ L : List (Nat × D × Flight W), (L : Multiset (Nat × D × Flight W)) ≤ ↑s.heard + ↑s.flying → ∀ d,
        CrdsaTraffic slot slots (lo d) (hi d - lo d) (framesAt net d L) ∧ (∀ f ∈ framesAt net d L, Q f.pow) ∧ ∀ f ∈ framesAt net d L, f.dur + (hi d - lo d) < slot := by
    intro os s hos hl hd hpow hlen L hL d
    obtain ⟨h1, h2⟩ := traffic_at hkey hb hfit hk hsky hs hn h64 hm htwo hdelay hos hl hd (hle os hlen) hL d
    refine ⟨h1, fun f hf => ?_, fun f hf => ?_⟩
    · obtain ⟨g, y, hy, -, t, e⟩ := h2 f hf
      rw [e]
      exact hpow g d y hy t
    · obtain ⟨g, y, hy, e, -⟩ := h2 f hf
      rw [← e]
      exact (hlen g d y hy).2
  -- no failure
  have hok : ∃ s, r = .ok s := by
    induction ops using List.reverseRecOn generalizing r with
    | nil =>
      simp only [exec, runFrom, Option.some.injEq] at h
      exact ⟨_, h.symm⟩
    | append_singleton os o ih =>
      unfold exec at h
      rw [runFrom_append] at h
      cases h1 : runFrom (step net) (Sys.init net) os with
      | none => simp [h1] at h
      | some r1 =>
        have hlen' : ∀ g d, ∀ y ∈ given net os g, hi d - lo d < y.2.len ∧ y.2.len + (hi d - lo d) < slot :=
          fun g d y hy => hlen g d y ((given_left net os [o] g).subset hy)
        have hpow' : ∀ g d, ∀ y ∈ given net os g, ∀ t, Q (net.toP (w.power t g d y.2.power)) :=
          fun g d y hy => hpow g d y ((given_left net os [o] g).subset hy)
        obtain ⟨s, rfl⟩ := ih hl.left hdist.left hpow' hlen' h1
        have htr := htraffic os s h1 hl.left hdist.left hpow' hlen'
        simp only [h1, runFrom_single] at h
        -- the receiver
        have hrec : ∀ (d : D) (op : Aloha.Op P) (x : Outcome (Crdsa.Sys P)) (L : List (Nat × D × Flight W)),
            (L : Multiset (Nat × D × Flight W)) ≤ ↑s.heard + ↑s.flying →
            net.rx.step (s.sats d) op = some x → framesAt net d L = framesAt net d s.heard ++ Aloha.frames [op] → ∃ y, x = .ok y := by
          intro d op x L hL hx hfr
          obtain ⟨rops, hr1, hr2⟩ := C55_receiver h1 d
          have hr3 : runFrom net.rx.step net.rx.init (rops ++ [op]) = some x := by
            rw [runFrom_append, hr1]
            simpa only [runFrom_single] using hx
          rw [hrx, crdsa_run] at hr3
          obtain ⟨y, e, -⟩ := C70_receiver (o := x) hlost hr3 (by
            rw [Aloha.frames_append, hr2, ← hfr]
            exact (htr L hL d).1) (by
            rw [Aloha.frames_append, hr2, ← hfr]
            exact (htr L hL d).2.1) (by
            rw [Aloha.frames_append, hr2, ← hfr]
            exact (htr L hL d).2.2)
          exact ⟨y, e⟩
        cases o with
        | arrive =>
          simp only [step] at h
          split at h
          · simp at h
          · rename_i t d f rest hfl
            split at h
            · split at h
              · simp at h
              · rename_i x hx
                obtain ⟨r', rfl⟩ := hrec d _ x (s.heard ++ [(t, d, f)]) (by
                    rw [hfl, Multiset.coe_add]
                    refine Multiset.coe_le.mpr ?_
                    refine List.Sublist.subperm ?_
                    exact (List.Sublist.refl _).append (List.Sublist.cons_cons _ (List.nil_sublist _))) hx (by
                  simp [framesAt, List.zipIdx_append, Aloha.frames])
                simp only [Option.some.injEq] at h
                exact ⟨_, h.symm⟩
            · simp at h
        | finish d =>
          simp only [step] at h
          split at h
          · simp at h
          · split at h
            · split at h
              · simp at h
              · rename_i x hx
                obtain ⟨r', rfl⟩ := hrec d _ x s.heard (Multiset.le_add_right _ _) hx (by simp [Aloha.frames])
                simp only [Option.some.injEq] at h
                exact ⟨_, h.symm⟩
            · simp at h
        | station g o =>
          obtain ⟨s', e, -⟩ := step_station_ok hb hfit hk hsky hl h1 (account hb hfit hk hsky hl.left h1) h
          exact ⟨s', e⟩
  obtain ⟨s, rfl⟩ := hok
  refine ⟨s, rfl, fun q d => ?_⟩
  obtain ⟨q1, q2, q3⟩ := q
  have ht := htraffic ops s h hl hdist hpow hlen s.heard (Multiset.le_add_right _ _) d
  obtain ⟨rops, hr1, hr2⟩ := C55_receiver h d
  rw [hrx, crdsa_run] at hr1
  obtain ⟨s', e, hrec⟩ := C70_receiver hlost hr1 (by rw [hr2]; exact ht.1) (by rw [hr2]; exact ht.2.1) (by rw [hr2]; exact ht.2.2)
  rw [Outcome.ok.injEq] at e
  subst e
  have hidle : (s.sats d).pending = [] := by
    have := q3 d
    rw [hrx] at this
    simpa [crdsaReceiver] using this
  obtain ⟨hdec, hnodup⟩ := hrec hidle
  have hdel : net.rx.delivered (s.sats d) = (s.sats d).delivered := by rw [hrx]; rfl
  rw [hdel]
  refine ⟨hnodup, fun u => (hdec u).trans ?_⟩
  rw [hr2]
  exact decodable_slots hkey hb hfit hk hsky hs hn h64 hm hdelay h hl (hle ops hlen) q1 q2 d u

end

/-! ## An example -/

/-- Slots chosen by three stations for their first and their later packets. -/
def exShuffle : Fin 3 → Nat → List Nat
  | 0, _ => [0, 1, 2, 3]
  | 1, _ => [0, 2, 1, 3]
  | 2, 0 => [1, 2, 0, 3]
  | 2, _ => [1, 3, 0, 2]

/-- Two replicas per packet in frames of four slots of ten ticks. -/
def crdsaMac (g : Fin 3) : GroundSta.Mac :=
  ⟨false, fun k t => ((exShuffle g k).take 2).map (fun j => Crdsa.frameDelay t 10 4 + j * 10)⟩

theorem crdsaMac_crdsa (g : Fin 3) : IsCrdsa (crdsaMac g) 10 4 (exShuffle g) (fun _ => 2) := by
  refine ⟨rfl, fun k => ?_⟩
  match g, k with
  | 0, _ => exact ⟨by show List.Perm _ _; simp only [exShuffle]; decide, fun _ => rfl⟩
  | 1, _ => exact ⟨by show List.Perm _ _; simp only [exShuffle]; decide, fun _ => rfl⟩
  | 2, 0 => exact ⟨by show List.Perm _ _; simp only [exShuffle]; decide, fun _ => rfl⟩
  | 2, k + 1 => exact ⟨by show List.Perm _ _; simp only [exShuffle]; decide, fun _ => rfl⟩

example (g : Fin 3) : Sends (crdsaMac g) := sends_crdsa (crdsaMac_crdsa g) (fun _ => by omega) (by omega)

def crdsaNet : Net (Fin 2) (Fin 3) Nat Int Int (Crdsa.Sys Int) :=
  ⟨true, .little, ⟨some exConstellation, [0, 1, 2]⟩,
    fun _ => ⟨fun g => some g.val, fun d => some d.val, some (fun _ _ => 25), some (fun p _ _ => p), some (fun _ _ => .ok true)⟩,
    fun g => ⟨1, [UInt8.ofNat g.val]⟩, crdsaMac, fun _ _ _ => true,
    fun _ => SatAddress.mk3 .little 1 0 0, fun _ => 30, crdsaReceiver intLost (10 * 4), fun p => p.natAbs + 1⟩

theorem crdsaSky : Sky crdsaNet fullWorld :=
  fun _ g d => ⟨g.val, d.val, fun _ _ => 25, fun p _ _ => p, ⟨rfl, rfl, rfl, rfl⟩, rfl, fun _ => rfl, Or.inr ⟨_, rfl, rfl⟩⟩

/-- Two packets at each station.  In the first frame, every slot used has two packets; in the second one, packet 22 is alone in the third slot,
without it packet 21 is alone in the first, and without that packet 23 in the second. -/
def crdsaOps : List (Op (Fin 2) (Fin 3) Int) :=
  [.station 0 (.send 0 11 8 7), .station 1 (.send 0 12 8 7), .station 2 (.send 0 13 8 7), .station 0 (.send 0 21 8 7),
   .station 1 (.send 0 22 8 7), .station 2 (.send 0 23 8 7),
   .station 0 .run, .station 1 .run, .station 0 .run, .station 1 .run, .station 0 .run, .station 2 .run, .station 0 .run, .station 2 .run,
   .station 1 .run, .station 2 .run, .arrive, .arrive, .station 1 .run, .station 2 .run, .finish 0, .finish 0, .arrive, .arrive, .station 0 .run,
   .station 1 .run, .finish 0, .finish 0, .arrive, .arrive, .station 0 .run, .station 1 .run, .station 0 .run, .station 2 .run, .finish 0,
   .finish 0, .station 0 .run, .station 2 .run, .station 1 .run, .arrive, .arrive, .station 1 .run, .station 2 .run, .finish 0, .finish 0,
   .arrive, .arrive, .station 2 .run, .finish 0, .finish 0, .arrive, .finish 0, .arrive, .finish 0]

example : Launched crdsaNet [(0, 1, (1 : Fin 2)), (0, 0, 0)] [SatAddress.mk3 .little 1 0 1, SatAddress.mk3 .little 1 0 0] crdsaOps ∧
    Distinct crdsaNet crdsaOps ∧ ∀ g, ∀ y ∈ given crdsaNet crdsaOps g, 0 < y.2.len ∧ y.2.len < 10 := by
  unfold Launched Distinct; decide

example : ∃ s, exec crdsaNet crdsaOps = some (.ok s) ∧ Quiet crdsaNet s ∧ (∀ g, (s.stations g).handed.map (fun y => y.1) = [0, 8] ∨
    (s.stations g).handed.map (fun y => y.1) = [0, 18]) ∧
    (crdsaNet.rx.delivered (s.sats 0)) = [(93, 22), (93, 21), (93, 23)] := by
  refine ⟨_, rfl, ?_⟩; unfold Quiet; decide

/-- All hypotheses of `C70_crdsa` hold here. -/
example : ∃ s, exec crdsaNet crdsaOps = some (.ok s) ∧ (Quiet crdsaNet s → ∀ d, ((crdsaNet.rx.delivered (s.sats d)).map Prod.snd).Nodup ∧
      ∀ u, u ∈ (crdsaNet.rx.delivered (s.sats d)).map Prod.snd ↔
        Decodable (InSlot 10 4 fullWorld (target [(0, 1, (1 : Fin 2)), (0, 0, 0)] [SatAddress.mk3 .little 1 0 1, SatAddress.mk3 .little 1 0 0])
          (fun g k => (exShuffle g k).take 2) (fun g => (s.stations g).handed) d) u) := by
  obtain ⟨s, h⟩ : ∃ s, exec crdsaNet crdsaOps = some (.ok s) := ⟨_, rfl⟩
  obtain ⟨s', e, h'⟩ := C70_crdsa (w := fullWorld) (lo := fun _ => 25) (hi := fun _ => 25) (net := crdsaNet) (slot := 10) (slots := 4) rfl intLost_drops
    exBuilt (by unfold Fits16; decide) rfl crdsaSky (by omega) (by omega) (by omega) crdsaMac_crdsa (fun _ _ => le_refl _)
    (fun _ _ _ => ⟨le_refl _, le_refl _⟩) (ops := crdsaOps) (by unfold Launched; decide) (by unfold Distinct; decide)
    (fun _ _ _ _ _ => by simp only [crdsaNet]; omega) (by decide) h
  rw [Outcome.ok.injEq] at e
  subst e
  exact ⟨s, h, h'⟩

end Uplink
end Icarus
