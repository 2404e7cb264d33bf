import Verif.Props.Realize
import Verif.Props.Throughput
import Verif.Props.CrdsaThroughput

/-!
# Throughput of the whole uplink (C93)

The counting of C77, for the network of C55: `N` stations are asked to send one packet each, at times chosen freely; stations, MACs, channel and
receivers run together, and what the satellite passes up is added over all choices.
-/

set_option autoImplicit false

namespace Icarus
namespace Uplink
open GroundSatChannel
open GroundSta (Entry Mac Ev Once)

variable {D G V W P R : Type}

/-! ## One packet at a station -/

theorem once_copies {mac : Mac} {wait : Nat → Nat → Nat} (h : Once mac wait) : Copies mac 1 := by
  rcases h with ⟨h1, -⟩ | ⟨-, h2⟩
  · exact ⟨Nat.le_refl _, by simp [h1]⟩
  · exact ⟨Nat.le_refl _, fun _ k t => by simp [h2 k t]⟩

/-- A station that is asked to send a single packet accepts it, if its empty queue does. -/
theorem single_accepted {debug : Bool} {mac : Mac} {K : Nat} (hK : Copies mac K) {accept : List (Entry W) → Entry W → Bool}
    (ha : ∀ x, accept [] x = true) {remote : SatAddress} {p : W} {ops : List (GroundSta.Op W)} {s : GroundSta.Sys W}
    (h : GroundSta.exec debug mac accept remote p ops = some (.ok s)) (hone : (requests remote p ops).length ≤ 1) :
    s.accepted = requests remote p ops := by
  have hmac : ∀ (s : GroundSta.Sys W) (t : Nat) (x : Entry W), (GroundSta.macSend mac s t x).refused = s.refused := by
    intro s t x
    unfold GroundSta.macSend
    split <;> rfl
  have hstart : ∀ (s s' : GroundSta.Sys W) (t : Nat), GroundSta.transmitStart debug mac s t = .ok s' → s'.refused = s.refused := by
    intro s s' t h
    simp only [GroundSta.transmitStart] at h
    rw [Outcome.bind_eq_ok] at h
    obtain ⟨-, -, h⟩ := h
    split at h
    · simp at h
    · simp only [Outcome.ok.injEq] at h
      rw [← h, hmac]
  have href : s.refused = [] := by
    induction ops using List.reverseRecOn generalizing s with
    | nil =>
      simp only [GroundSta.exec, runFrom, Option.some.injEq, Outcome.ok.injEq] at h
      rw [← h]; rfl
    | append_singleton os o ih =>
      obtain ⟨s1, h1, hst⟩ := runFrom_snoc.mp h
      rw [requests_append, List.length_append] at hone
      have hp := ih h1 (by omega)
      cases o with
      | send t pkt len proto =>
        simp only [requests, List.length_cons] at hone
        have hacc : s1.accepted = [] := by
          have := (C34_accepted_or_dropped h1).2.length_le
          exact List.length_eq_zero_iff.mp (by omega)
        have hqu : s1.queue = [] := by
          have := (going hK h1).handed
          rw [hacc] at this
          simp only [List.map_nil, List.append_eq_nil_iff] at this
          exact this.2
        simp only [GroundSta.step] at hst
        split at hst
        · simp only [Option.some.injEq, GroundSta.send, hqu, ha, Bool.true_eq_false, if_false] at hst
          split at hst
          · simp only [Outcome.ok.injEq] at hst
            subst hst
            exact hp
          · exact (hstart _ _ _ hst).trans hp
        · simp at hst
      | setRemote t a =>
        simp only [GroundSta.step] at hst
        split at hst
        · simp only [Option.some.injEq, Outcome.ok.injEq] at hst
          subst hst
          exact hp
        · simp at hst
      | setPower t a =>
        simp only [GroundSta.step] at hst
        split at hst
        · simp only [Option.some.injEq, Outcome.ok.injEq] at hst
          subst hst
          exact hp
        · simp at hst
      | run =>
        simp only [GroundSta.step] at hst
        split at hst
        · simp at hst
        · simp only [Option.some.injEq, Outcome.ok.injEq] at hst
          subst hst
          exact hp
        · simp only [Option.some.injEq, GroundSta.transmitComplete] at hst
          split at hst
          · simp only [Outcome.ok.injEq] at hst
            subst hst
            exact hp
          · exact (hstart _ _ _ hst).trans hp
  obtain ⟨h1, h2⟩ := C34_accepted_or_dropped h
  rw [href, List.append_nil] at h1
  exact h2.eq_of_length h1.length_eq

theorem next_slot (slot x : Nat) (hs : 0 < slot) : (x + 1) + toNextSlot slot (x + 1) = (x / slot + 1) * slot := by
  unfold toNextSlot
  have e := Nat.div_add_mod x slot
  have l := Nat.mod_lt x hs
  have c : slot * (x / slot) = x / slot * slot := Nat.mul_comm _ _
  have c2 : (x / slot + 1) * slot = x / slot * slot + slot := Nat.succ_mul _ _
  by_cases hm : x % slot + 1 = slot
  · have : (x + 1) % slot = 0 := by
      have : x + 1 = slot * (x / slot + 1) := by rw [Nat.mul_add]; omega
      rw [this, Nat.mul_mod_right]
    rw [this, Nat.sub_zero, Nat.mod_self]
    omega
  · have : (x + 1) % slot = x % slot + 1 := by
      rw [Nat.add_mod, Nat.mod_eq_of_lt (a := 1) (by omega), Nat.mod_eq_of_lt (by omega)]
    rw [this, Nat.mod_eq_of_lt (by omega)]
    omega

/-! ## Slotted Aloha -/

section
variable [Fintype D] [DecidableEq D] {N : Nat} [Zero P] [Add P]
  {hist : List (Nat × Nat × D)} {as : List SatAddress} {w : World D (Fin N) W}

/-- A set-up by the helpers, as in C55, in which satellite `d` hears all stations, which send the packets `ent`; queues that are empty accept them. -/
structure Scene (net : Net D (Fin N) V W P R) (w : World D (Fin N) W) (hist : List (Nat × Nat × D)) (as : List SatAddress) (Q : P → Prop)
    (ent : Fin N → Entry W) (d : D) : Prop where
  built : ∃ hasOrbit cid n m k, Built net.endian hasOrbit cid n m hist as k ∧ Fits16 cid n m ∧ net.chan.constellation = some k
  sky : Sky net w
  room : ∀ i x, net.accept i [] x = true
  reach : ∀ i t, Reaches w (target hist as) i d (t, ent i)
  powers : ∀ i d t, Q (net.toP (w.power t i d (ent i).power))

/-- Every station is asked to send one packet: station `i` the packet `ent i`, at time `times i`. -/
def Asked (net : Net D (Fin N) V W P R) (ent : Fin N → Entry W) (times : Fin N → Nat) (ops : List (Op D (Fin N) W)) : Prop :=
  ∀ i, given net ops i = [(times i, ent i)]

/-- A run of the network in which every station is asked to send one packet, until nothing is scheduled any more. -/
structure Ran [Fintype D] [DecidableEq D] (net : Net D (Fin N) V W P R) (hist : List (Nat × Nat × D)) (as : List SatAddress) (ent : Fin N → Entry W) (times : Fin N → Nat)
    (ops : List (Op D (Fin N) W)) (s : Sys D (Fin N) W R) : Prop where
  run : exec net ops = some (.ok s)
  launched : Launched net hist as ops
  asked : Asked net ent times ops
  quiet : Quiet net s

/-- The same, with the order in which ns-3 runs events of the same instant (C80). -/
structure RanInOrder [Fintype D] [DecidableEq D] (net : Net D (Fin N) V W P R) (pend : R → List (Aloha.Frame P)) (hist : List (Nat × Nat × D)) (as : List SatAddress)
    (ent : Fin N → Entry W) (times : Fin N → Nat) (ops : List (Op D (Fin N) W)) (s : OSys D (Fin N) W R) : Prop where
  run : oexec net pend ops = some (.ok s)
  launched : Launched net hist as ops
  asked : Asked net ent times ops
  quiet : Quiet net s.sys

omit [Fintype D] [Zero P] [Add P] in
/-- From what was alone in its slot to a count over the choices. -/
theorem slotted_count {M slot : Nat} (hs : 0 < slot) {ent : Fin N → Entry W} {d : D}
    (hreach : ∀ i t, Reaches w (target hist as) i d (t, ent i)) {addr : Fin N → SatAddress.Address}
    {acc : (Fin N → Fin (M * slot)) → Fin N → List (Nat × Entry W)} (hacc : ∀ h i, acc h i = [((h i).val + 1, ent i)])
    {up : (Fin N → Fin (M * slot)) → List (Nat × Flight W)}
    (hup : ∀ h, (up h : Multiset (Nat × Flight W)) = ∑ g, ((((inSlots slot (acc h g)).filter (fun y => decide
          (Alone w (target hist as) (fun j => inSlots slot (acc h j)) g d y.1))).filterMap
            (receipt addr w (target hist as) g d) : List _) : Multiset (Nat × Flight W))) :
    ∑ h, (up h).length = N * ((M * slot) * (M * slot - slot) ^ (N - 1)) := by
  have hin : ∀ h i, inSlots slot (acc h i) = [(((h i).val / slot + 1) * slot, ent i)] := by
    intro h i
    rw [hacc, inSlots, Fifo.serve, Fifo.serve, Nat.max_eq_left (Nat.zero_le _), next_slot _ _ hs]
  have hcount : ∀ h, (up h).length = ∑ i : Fin N, if (∀ j, j ≠ i → ¬ (h j).val / slot = (h i).val / slot) then 1 else 0 := by
    intro h
    have h1 := congrArg Multiset.card (hup h)
    rw [Multiset.coe_card, Multiset.card_sum] at h1
    rw [h1]
    apply Finset.sum_congr rfl
    intro i _
    rw [Multiset.coe_card, hin]
    have hal : Alone w (target hist as) (fun j => inSlots slot (acc h j)) i d (((h i).val / slot + 1) * slot) ↔
        ∀ j, j ≠ i → ¬ (h j).val / slot = (h i).val / slot := by
      unfold Alone
      simp only [hin, List.mem_singleton, forall_eq, hreach, true_imp_iff]
      refine forall_congr' (fun j => imp_congr_right (fun _ => not_congr ?_))
      constructor
      · intro e
        have := Nat.eq_of_mul_eq_mul_right hs e
        omega
      · intro e; rw [e]
    have hrec : ∃ r, receipt addr w (target hist as) i d (((h i).val / slot + 1) * slot, ent i) = some r := by
      exact ⟨_, if_pos (hreach i _)⟩
    obtain ⟨r, hr⟩ := hrec
    by_cases ha : ∀ j, j ≠ i → ¬ (h j).val / slot = (h i).val / slot
    · rw [if_pos ha, List.filter_cons_of_pos (by simpa using hal.mpr ha), List.filter_nil, List.filterMap_cons_some hr]
      rfl
    · rw [if_neg ha, List.filter_cons_of_neg (by simpa using fun e => ha (hal.mp e))]
      rfl
  rw [Finset.sum_congr rfl (fun h _ => hcount h), Finset.sum_comm]
  rw [Finset.sum_congr rfl (g := fun _ => (M * slot) * (M * slot - slot) ^ (N - 1))]
  · rw [Finset.sum_const, Finset.card_univ, Fintype.card_fin, smul_eq_mul]
  · intro i _
    rw [← Finset.card_filter, count_isolated (fun x y : Fin (M * slot) => y.val / slot = x.val / slot)]
    rw [Finset.sum_congr rfl (g := fun _ => (M * slot - slot) ^ (N - 1))]
    · simp
    · intro x _
      congr 1
      have hc := Finset.card_filter_add_card_filter_not (s := (Finset.univ : Finset (Fin (M * slot)))) (fun y => y.val / slot = x.val / slot)
      rw [card_slot M slot _ (Nat.div_lt_of_lt_mul (lt_of_lt_of_eq x.2 (Nat.mul_comm _ _))), Finset.card_univ, Fintype.card_fin] at hc
      omega

omit [Fintype D] [DecidableEq D] [Zero P] [Add P] in
theorem heard_power {net : Net D (Fin N) V W P R} {Q : P → Prop} {ent : Fin N → Entry W} (hpow : ∀ i d t, Q (net.toP (w.power t i d (ent i).power)))
    {wait : Nat → Nat → Nat} {acc : Fin N → List (Nat × Entry W)} {times : Fin N → Nat} (hacc : ∀ i, acc i = [(times i, ent i)])
    {heard : List (Nat × D × Flight W)} (hh : (heard : Multiset (Nat × D × Flight W)) =
      ∑ g, (((Fifo.serve Entry.len wait 0 0 (acc g)).filterMap (lands net.addr w (target hist as) g) : List _) : Multiset (Nat × D × Flight W))) :
    ∀ y ∈ heard, Q (net.toP y.2.2.power) := by
  intro y hy
  have h1 : y ∈ (heard : Multiset (Nat × D × Flight W)) := hy
  rw [hh, Multiset.mem_sum] at h1
  obtain ⟨g, -, h1⟩ := h1
  rw [Multiset.mem_coe, List.mem_filterMap] at h1
  obtain ⟨z, hz, e⟩ := h1
  rw [hacc, Fifo.serve, Fifo.serve, List.mem_singleton] at hz
  subst hz
  unfold lands at e
  split at e
  · simp at e
  · split at e
    · simp only [Option.some.injEq] at e
      subst e
      exact hpow _ _ _
    · simp at e

/-- Slotted Aloha from end to end.  `N` stations with the slotted Aloha MAC track one satellite, which hears all of them; each is asked to send one
packet, station `i` at tick `h i + 1`.  Frames are longer than the spread of the delays, and leave more than that of their slot empty; powers
exclude capture.  For every choice `h` of the ticks within `M` slots let `s h` be a state of the network in which nothing is scheduled any more.
The packets that the satellite passed up, added over all choices, are as many as the theory of slotted Aloha says. -/
theorem C93_slotted {net : Net D (Fin N) V W P (Aloha.Sys P)} {lost : P → P → Bool} (hrx : net.rx = alohaReceiver lost)
    {Q : P → Prop} (hlost : Aloha.Drops lost Q) {ent : Fin N → Entry W} {d : D} (sc : Scene net w hist as Q ent d) {M slot : Nat} (hs : 0 < slot) (hs64 : slot < 2 ^ 64) (hm : ∀ g, net.mac g = alohaMac slot)
    {lo hi : D → Nat} (hdelay : ∀ t g d, lo d ≤ w.delay t g d ∧ w.delay t g d ≤ hi d)
    (hlen : ∀ i d, hi d - lo d < (ent i).len ∧ (ent i).len + (hi d - lo d) < slot)
    {ops : (Fin N → Fin (M * slot)) → List (Op D (Fin N) W)} {s : (Fin N → Fin (M * slot)) → Sys D (Fin N) W (Aloha.Sys P)}
    (hrun : ∀ h, Ran net hist as ent (fun i => (h i).val + 1) (ops h) (s h)) :
    ∑ h, (passedUp net (s h) d).length = N * ((M * slot) * (M * slot - slot) ^ (N - 1)) := by
  obtain ⟨hasOrbit, cid, n, m, k, hb, hfit, hk⟩ := sc.built
  have honce : ∀ g, Once (net.mac g) (fun _ => toNextSlot slot) := fun g => by rw [hm g]; exact aloha_toNextSlot slot hs hs64
  have hacc : ∀ h i, ((s h).stations i).accepted = [((h i).val + 1, ent i)] := by
    intro h i
    have e := (hrun h).asked i
    unfold given at e
    rw [single_accepted (once_copies (honce i)) (sc.room i) (C55_station (hrun h).run i) (by rw [e]; simp), e]
  refine slotted_count (addr := net.addr) (acc := fun h i => ((s h).stations i).accepted) hs sc.reach hacc (fun h => ?_)
  obtain ⟨s', e, h1⟩ := C68_slotted hrx hlost hb hfit hk sc.sky hs hs64 hm hdelay (hrun h).launched (hrun h).run
  obtain ⟨s2, e2, h2⟩ := C58_aloha_uplink_partial hrx hlost hb hfit hk sc.sky honce (hrun h).launched (hrun h).run
  simp only [Outcome.ok.injEq] at e e2
  subst e
  subst e2
  refine h1 (hrun h).quiet (heard_power sc.powers (hacc h) (h2 (hrun h).quiet).1) ?_ d
  intro g d' y hy
  rw [hacc, List.mem_singleton] at hy
  subst hy
  exact hlen g d'

/-- The same in the order in which ns-3 runs events of the same instant (C80), where frames may fill the slots if they last longer than the delays. -/
theorem C93_full_slots {net : Net D (Fin N) V W P (Aloha.Sys P)} {lost : P → P → Bool} (hrx : net.rx = alohaReceiver lost)
    {Q : P → Prop} (hlost : Aloha.Drops lost Q) {ent : Fin N → Entry W} {d : D} (sc : Scene net w hist as Q ent d) {M slot : Nat} (hs : 0 < slot) (hs64 : slot < 2 ^ 64) (hm : ∀ g, net.mac g = alohaMac slot)
    {lo hi : D → Nat} (hdelay : ∀ t g d, lo d ≤ w.delay t g d ∧ w.delay t g d ≤ hi d)
    (hlen : ∀ i d, hi d < (ent i).len ∧ (ent i).len + (hi d - lo d) ≤ slot)
    {ops : (Fin N → Fin (M * slot)) → List (Op D (Fin N) W)} {s : (Fin N → Fin (M * slot)) → OSys D (Fin N) W (Aloha.Sys P)}
    (hrun : ∀ h, RanInOrder net Aloha.Sys.pending hist as ent (fun i => (h i).val + 1) (ops h) (s h)) :
    ∑ h, (passedUp net (s h).sys d).length = N * ((M * slot) * (M * slot - slot) ^ (N - 1)) := by
  obtain ⟨hasOrbit, cid, n, m, k, hb, hfit, hk⟩ := sc.built
  have honce : ∀ g, Once (net.mac g) (fun _ => toNextSlot slot) := fun g => by rw [hm g]; exact aloha_toNextSlot slot hs hs64
  have hacc : ∀ h i, ((s h).sys.stations i).accepted = [((h i).val + 1, ent i)] := by
    intro h i
    have e := (hrun h).asked i
    unfold given at e
    rw [single_accepted (once_copies (honce i)) (sc.room i) (C55_station (C80_refines (hrun h).run) i) (by rw [e]; simp), e]
  refine slotted_count (addr := net.addr) (acc := fun h i => ((s h).sys.stations i).accepted) hs sc.reach hacc (fun h => ?_)
  obtain ⟨s', e, h1⟩ := C80_full_slots hrx hlost hb hfit hk sc.sky hs hs64 hm hdelay (hrun h).launched (hrun h).run
  obtain ⟨s2, e2, h2⟩ := C80_aloha hrx hlost hb hfit hk sc.sky honce (hrun h).launched (hrun h).run
  simp only [Outcome.ok.injEq] at e e2
  subst e
  subst e2
  refine h1 (hrun h).quiet (heard_power sc.powers (hacc h) (h2 (hrun h).quiet).1) ?_ d
  intro g d' y hy
  rw [hacc, List.mem_singleton] at hy
  subst hy
  exact hlen g d'

/-! ## Pure Aloha -/

theorem pure_once : Once (alohaMac 0) (fun _ _ => 0) := by
  refine Or.inr ⟨rfl, fun _ t => ?_⟩
  simp [alohaMac, Aloha.sendDelay]

omit [Fintype D] [Zero P] [Add P] in
theorem undisturbed_sum {L len δ : Nat} {d : D} {h : Fin N → Fin L} {fl : Fin N → Nat × D × Flight W} {heard : List (Nat × D × Flight W)}
    (hh : (heard : Multiset (Nat × D × Flight W)) = Finset.univ.val.map fl)
    (hf : ∀ i, (fl i).1 = (h i).val + 1 + δ ∧ (fl i).2.1 = d ∧ (fl i).2.2.len = len) (hpos : 0 < len) :
    (heard.filterMap (fun y => if y.2.1 = d ∧ heard.countP (fun z => decide (Clash y z)) = 1 then some (y.1 + y.2.2.len, y.2.2) else none)).length =
      ∑ i : Fin N, if (∀ j, j ≠ i → ¬ ¬ ((h j).val + len ≤ (h i).val ∨ (h i).val + len ≤ (h j).val)) then 1 else 0 := by
  have h1 : ∀ (p : Nat × D × Flight W → Prop) [DecidablePred p] (l : List (Nat × D × Flight W)),
      (l.filterMap (fun y => if p y then some (y.1 + y.2.2.len, y.2.2) else none)).length = l.countP (fun y => decide (p y)) := by
    intro p _ l
    induction l with
    | nil => rfl
    | cons a l ih =>
      by_cases hp : p a
      · simp [hp, ih]
      · simp [hp, ih]
  have h2 : ∀ (p : Nat × D × Flight W → Prop) [DecidablePred p], heard.countP (fun y => decide (p y)) = (Finset.univ.filter (fun i => p (fl i))).card := by
    intro p _
    rw [← Multiset.coe_countP, hh, Multiset.countP_map]
    rfl
  rw [h1, h2, ← Finset.card_filter]
  congr 1
  refine Finset.filter_congr (fun i _ => ?_)
  rw [h2]
  have hcl : ∀ j, Clash (fl i) (fl j) ↔ ¬ ((h j).val + len ≤ (h i).val ∨ (h i).val + len ≤ (h j).val) := by
    intro j
    obtain ⟨a1, a2, a3⟩ := hf i
    obtain ⟨b1, b2, b3⟩ := hf j
    unfold Clash
    simp only [a1, a2, a3, b1, b2, b3, true_and]
    omega
  simp only [hcl, (hf i).2.1, true_and]
  constructor
  · intro e j hj hc
    rw [Finset.card_eq_one] at e
    obtain ⟨z, e⟩ := e
    have m1 : i ∈ ({z} : Finset (Fin N)) := by rw [← e]; simp; omega
    have m2 : j ∈ ({z} : Finset (Fin N)) := by rw [← e, Finset.mem_filter]; exact ⟨Finset.mem_univ _, hc⟩
    rw [Finset.mem_singleton] at m1 m2
    exact hj (m2.trans m1.symm)
  · intro e
    rw [Finset.card_eq_one]
    refine ⟨i, ?_⟩
    ext j
    rw [Finset.mem_filter, Finset.mem_singleton]
    constructor
    · intro hj
      by_contra hne
      exact e j hne hj.2
    · rintro rfl
      exact ⟨Finset.mem_univ _, by omega⟩

/-- Pure Aloha from end to end, in the order in which ns-3 runs events of the same instant.  `N` stations without slots track one satellite, which
hears all of them with the same delay, shorter than a frame; each is asked to send one packet of `len` ticks, station `i` at tick `h i + 1`.
The packets that the satellite passed up, added over all choices of `L` ticks, are as many as C77 says for the receiver alone. -/
theorem C93_pure {net : Net D (Fin N) V W P (Aloha.Sys P)} {lost : P → P → Bool} (hrx : net.rx = alohaReceiver lost)
    {Q : P → Prop} (hlost : Aloha.Drops lost Q) {ent : Fin N → Entry W} {d : D} (sc : Scene net w hist as Q ent d)
    (hm : ∀ g, net.mac g = alohaMac 0) {len δ : Nat} (hdelay : ∀ t i, w.delay t i d = δ) (hlen : ∀ i, (ent i).len = len) (hδ : δ < len)
    {L : Nat} {ops : (Fin N → Fin L) → List (Op D (Fin N) W)} {s : (Fin N → Fin L) → OSys D (Fin N) W (Aloha.Sys P)}
    (hrun : ∀ h, RanInOrder net Aloha.Sys.pending hist as ent (fun i => (h i).val + 1) (ops h) (s h)) :
    ∑ h, (passedUp net (s h).sys d).length = N * ∑ x, harmless L len x ^ (N - 1) := by
  obtain ⟨hasOrbit, cid, n, m, k, hb, hfit, hk⟩ := sc.built
  have honce : ∀ g, Once (net.mac g) (fun _ _ => 0) := fun g => by rw [hm g]; exact pure_once
  have hacc : ∀ h i, ((s h).sys.stations i).accepted = [((h i).val + 1, ent i)] := by
    intro h i
    have e := (hrun h).asked i
    unfold given at e
    rw [single_accepted (once_copies (honce i)) (sc.room i) (C55_station (C80_refines (hrun h).run) i) (by rw [e]; simp), e]
  let fl : (Fin N → Fin L) → Fin N → Nat × D × Flight W := fun h i =>
    ((h i).val + 1 + δ, d, ⟨(ent i).pkt, len, net.addr i, (ent i).proto, w.power ((h i).val + 1) i d (ent i).power⟩)
  have hcount : ∀ h, (passedUp net (s h).sys d).length = ∑ i : Fin N, if (∀ j, j ≠ i → ¬ ¬ ((h j).val + len ≤ (h i).val ∨ (h i).val + len ≤ (h j).val)) then 1 else 0 := by
    intro h
    obtain ⟨s2, e2, h2⟩ := C80_aloha hrx hlost hb hfit hk sc.sky honce (hrun h).launched (hrun h).run
    simp only [Outcome.ok.injEq] at e2
    subst e2
    obtain ⟨k1, k2⟩ := h2 (hrun h).quiet
    have hland : ∀ i, lands net.addr w (target hist as) i ((h i).val + 1, ent i) = some (fl h i) := by
      intro i
      obtain ⟨h1, h2⟩ := sc.reach i ((h i).val + 1)
      simp only at h1 h2
      simp only [lands, h1, h2, if_true, hdelay, hlen, fl]
    have hheard : ((s h).sys.heard : Multiset (Nat × D × Flight W)) = Finset.univ.val.map (fl h) := by
      rw [k1, ← Multiset.sum_map_singleton (Finset.univ.val.map (fl h)), Multiset.map_map]
      refine Finset.sum_congr rfl (fun i _ => ?_)
      rw [hacc, Fifo.serve, Fifo.serve, Nat.max_eq_left (Nat.zero_le _), Nat.add_zero, List.filterMap_cons_some (hland i)]
      rfl
    have hmem : ∀ y ∈ (s h).sys.heard, ∃ i, y = fl h i := by
      intro y hy
      have h1 : y ∈ ((s h).sys.heard : Multiset (Nat × D × Flight W)) := hy
      rw [hheard, Multiset.mem_map] at h1
      obtain ⟨i, -, e⟩ := h1
      exact ⟨i, e.symm⟩
    have hperm := k2 (fun y hy t g => by obtain ⟨i, rfl⟩ := hmem y hy; show w.delay t g d < len; rw [hdelay]; exact hδ)
      (heard_power sc.powers (hacc h) k1) d
    rw [hperm.length_eq, undisturbed_count d _ (fun y hy => by obtain ⟨i, rfl⟩ := hmem y hy; show 0 < len; omega)]
    exact undisturbed_sum hheard (fun i => ⟨rfl, rfl, rfl⟩) (by omega)
  rw [Finset.sum_congr rfl (fun h _ => hcount h), Finset.sum_comm]
  rw [Finset.sum_congr rfl (g := fun _ => ∑ x, harmless L len x ^ (N - 1))]
  · rw [Finset.sum_const, Finset.card_univ, Fintype.card_fin, smul_eq_mul]
  · intro i _
    rw [← Finset.card_filter, count_isolated (fun x y : Fin L => ¬ (y.val + len ≤ x.val ∨ x.val + len ≤ y.val))]
    simp only [not_not, harmless]

/-! ## CRDSA -/

omit [Fintype D] [DecidableEq D] [Zero P] [Add P] in
/-- A station that is asked to send a single packet hands it to its MAC at once. -/
theorem single_handed {debug : Bool} {mac : Mac} {accept : List (Entry W) → Entry W → Bool}
    (ha : ∀ x, accept [] x = true) {remote : SatAddress} {p : W} {ops : List (GroundSta.Op W)} {s : GroundSta.Sys W}
    (h : GroundSta.exec debug mac accept remote p ops = some (.ok s)) (hone : (requests remote p ops).length ≤ 1) :
    s.handed = s.accepted ∧ s.queue = [] ∧ (requests remote p ops = [] → s.accepted = [] ∧ s.busy = false ∧ s.events = []) := by
  induction ops using List.reverseRecOn generalizing s with
  | nil =>
    simp only [GroundSta.exec, runFrom, Option.some.injEq, Outcome.ok.injEq] at h
    rw [← h]; exact ⟨rfl, rfl, fun _ => ⟨rfl, rfl, rfl⟩⟩
  | append_singleton os o ih =>
    obtain ⟨s1, h1, hst⟩ := runFrom_snoc.mp h
    rw [requests_append, List.length_append] at hone
    obtain ⟨i1, i2, i3⟩ := ih h1 (by omega)
    rw [requests_append, List.append_eq_nil_iff]
    cases o with
    | send t pkt len proto =>
      simp only [requests, List.length_cons] at hone
      obtain ⟨j1, j2, j3⟩ := i3 (List.length_eq_zero_iff.mp (by omega))
      refine ⟨?_, ?_, fun e => absurd e.2 (by simp [requests])⟩
      all_goals
        simp only [GroundSta.step] at hst
        split at hst
        · simp only [Option.some.injEq, GroundSta.send, i2, ha, Bool.true_eq_false, if_false, List.nil_append, j2, GroundSta.transmitStart,
            Outcome.nsAssert, Bool.not_false, Bool.not_true, Bool.and_false, Bool.false_eq_true, Outcome.bind_ok, Outcome.ok.injEq] at hst
          subst hst
          unfold GroundSta.macSend
          split
          · simp [GroundSta.air, i1]
          · simp [i1]
        · simp at hst
    | setRemote t a =>
      simp only [GroundSta.step] at hst
      split at hst
      · simp only [Option.some.injEq, Outcome.ok.injEq] at hst
        subst hst
        exact ⟨i1, i2, fun e => i3 e.1⟩
      · simp at hst
    | setPower t w =>
      simp only [GroundSta.step] at hst
      split at hst
      · simp only [Option.some.injEq, Outcome.ok.injEq] at hst
        subst hst
        exact ⟨i1, i2, fun e => i3 e.1⟩
      · simp at hst
    | run =>
      simp only [GroundSta.step] at hst
      split at hst
      · simp at hst
      · rename_i he
        simp only [Option.some.injEq, Outcome.ok.injEq] at hst
        subst hst
        exact ⟨i1, i2, fun e => by have := (i3 e.1).2.2; rw [he] at this; simp at this⟩
      · rename_i he
        simp only [Option.some.injEq, GroundSta.transmitComplete, i2, List.isEmpty_nil, if_true, Outcome.ok.injEq] at hst
        subst hst
        exact ⟨i1, rfl, fun e => by have := (i3 e.1).2.2; rw [he] at this; simp at this⟩

open Classical in
/-- What is decoded, slot by slot, of one packet per station. -/
theorem recovered_count {m slot B : Nat} (hs : 0 < slot) {pk : Fin N → Nat} (hpk : Function.Injective pk) (h : Fin N → Equiv.Perm (Fin (m + 2)))
    {l : List Nat} (hnd : l.Nodup)
    (hl : ∀ u, u ∈ l ↔ Decodable (fun T v => ∃ j : Fin N, pk j = v ∧ (T = B + (h j 0).val * slot ∨ T = B + (h j 1).val * slot)) u) :
    l.length = (Finset.univ.filter (fun i : Fin N => Recovered h i)).card := by
  have hslot : ∀ a b : Nat, B + a * slot = B + b * slot → a = b := fun a b e => Nat.eq_of_mul_eq_mul_right hs (Nat.add_left_cancel e)
  have h1 : ∀ u, Decodable (fun T v => ∃ j : Fin N, pk j = v ∧ (T = B + (h j 0).val * slot ∨ T = B + (h j 1).val * slot)) u →
      ∀ i, pk i = u → Recovered h i := by
    intro u hu
    induction hu with
    | @mk T u hT _ ih =>
      intro i hi
      obtain ⟨j, hj, hT⟩ := hT
      have e : j = i := hpk (hj.trans hi.symm)
      subst e
      obtain ⟨c, rfl, hc⟩ : ∃ c, T = B + c * slot ∧ (c = (h j 0).val ∨ c = (h j 1).val) := by
        rcases hT with rfl | rfl
        · exact ⟨_, rfl, .inl rfl⟩
        · exact ⟨_, rfl, .inr rfl⟩
      refine Decodable.mk (T := c) ⟨j, rfl, hc⟩ ?_
      rintro v ⟨j', rfl, hj'⟩ hne
      refine ih (pk j') ⟨j', rfl, by rcases hj' with e | e <;> simp [e]⟩ (fun e => hne ?_) j' rfl
      rw [hpk (e.trans hi.symm)]
  have h2 : ∀ v, Decodable (fun T v => ∃ j : Fin N, j.val = v ∧ (T = (h j 0).val ∨ T = (h j 1).val)) v → ∀ i : Fin N, i.val = v →
      Decodable (fun T v => ∃ j : Fin N, pk j = v ∧ (T = B + (h j 0).val * slot ∨ T = B + (h j 1).val * slot)) (pk i) := by
    intro v hv
    induction hv with
    | @mk T v hT _ ih =>
      intro i hi
      obtain ⟨j, hj, hT⟩ := hT
      have e : j = i := Fin.ext (hj.trans hi.symm)
      subst e
      refine Decodable.mk (T := B + T * slot) ⟨j, rfl, by rcases hT with e | e <;> simp [e]⟩ ?_
      rintro _ ⟨j', rfl, hj'⟩ hne
      refine ih j'.val ⟨j', rfl, ?_⟩ (fun e => hne ?_) j' rfl
      · rcases hj' with e | e
        · exact .inl (hslot _ _ e)
        · exact .inr (hslot _ _ e)
      · rw [Fin.ext (e.trans hi.symm)]
  rw [← List.toFinset_card_of_nodup hnd]
  symm
  apply Finset.card_bij (fun i _ => pk i)
  · intro i hi
    rw [Finset.mem_filter] at hi
    rw [List.mem_toFinset, hl]
    exact h2 _ hi.2 i rfl
  · intro i _ j _ e; exact hpk e
  · intro u hu
    rw [List.mem_toFinset, hl] at hu
    have hu' := hu
    cases hu' with
    | mk h3 _ =>
      obtain ⟨i, rfl, -⟩ := h3
      exact ⟨i, by rw [Finset.mem_filter]; exact ⟨Finset.mem_univ _, h1 _ hu i rfl⟩, rfl⟩

open Classical in
theorem crdsa_total {M : Nat} {net : (Fin N → Equiv.Perm (Fin (M + 2))) → Net D (Fin N) V W P (Crdsa.Sys P)} {lost : P → P → Bool} {slot : Nat}
    (hrx : ∀ h, (net h).rx = crdsaReceiver lost (slot * (M + 2))) {Q : P → Prop} (hlost : Aloha.Drops lost Q)
    {ent : Fin N → Entry W} {d : D} (sc : ∀ h, Scene (net h) w hist as Q ent d) (hs : 0 < slot) (h64 : slot * (M + 2) < 2 ^ 64)
    (hm : ∀ h g, IsCrdsa ((net h).mac g) slot (M + 2) (fun _ => order (h g)) (fun _ => 2))
    {lo hi : D → Nat} (hdelay : ∀ t g d, lo d ≤ w.delay t g d ∧ w.delay t g d ≤ hi d)
    (hpk : Function.Injective (fun i => (ent i).pkt)) (hlen : ∀ i d, hi d < (ent i).len ∧ (ent i).len + (hi d - lo d) ≤ slot)
    {B : Nat} {times : Fin N → Nat} (hB : ∀ i, frameStart (slot * (M + 2)) (times i) = B)
    {ops : (Fin N → Equiv.Perm (Fin (M + 2))) → List (Op D (Fin N) W)} {s : (Fin N → Equiv.Perm (Fin (M + 2))) → OSys D (Fin N) W (Crdsa.Sys P)}
    (hrun : ∀ h, RanInOrder (net h) Crdsa.Sys.pending hist as ent times (ops h) (s h)) :
    ∑ h, ((net h).rx.delivered ((s h).sys.sats d)).length =
      ∑ i : Fin N, (Finset.univ.filter (fun h : Fin N → Equiv.Perm (Fin (M + 2)) => Recovered h i)).card := by
  have hcount : ∀ h, ((net h).rx.delivered ((s h).sys.sats d)).length = (Finset.univ.filter (fun i : Fin N => Recovered h i)).card := by
    intro h
    obtain ⟨hasOrbit, cid, n, m, k, hb, hfit, hk⟩ := (sc h).built
    have hgiven : ∀ g, ∀ y ∈ given (net h) (ops h) g, y.2 = ent g := by
      intro g y hy
      rw [(hrun h).asked g, List.mem_singleton] at hy
      rw [hy]
    have hdist : Distinct (net h) (ops h) := by
      refine ⟨fun g => by rw [(hrun h).asked g]; simp, fun g g' hne y hy z hz e => hne (hpk ?_)⟩
      rw [hgiven g y hy, hgiven g' z hz] at e
      exact e
    obtain ⟨s', e, h1⟩ := C80_crdsa_full_slots (hrx h) hlost hb hfit hk (sc h).sky hs (by omega) h64 (hm h) (fun _ _ => Nat.le_refl _) hdelay
      (hrun h).launched hdist (fun g d y hy t => by rw [hgiven g y hy]; exact (sc h).powers g d t) (fun g d y hy => by rw [hgiven g y hy]; exact hlen g d) (hrun h).run
    simp only [Outcome.ok.injEq] at e
    subst e
    obtain ⟨h2, h3⟩ := h1 (hrun h).quiet d
    have hh : ∀ i, ((s h).sys.stations i).handed = [(times i, ent i)] := by
      intro i
      have e := (hrun h).asked i
      unfold given at e
      have hst := C55_station (C80_refines (hrun h).run) i
      rw [(single_handed ((sc h).room i) hst (by rw [e]; simp)).1,
        single_accepted (crdsa_copies (hm h i) (fun _ => by omega) (fun _ => Nat.le_refl _)) ((sc h).room i) hst (by rw [e]; simp), e]
    rw [← List.length_map (f := Prod.snd)]
    refine recovered_count (B := B) hs hpk h h2 (fun u => (h3 u).trans ?_)
    have hin : InSlot slot (M + 2) w (target hist as) (fun g k => (order (h g)).take 2) (fun g => ((s h).sys.stations g).handed) d =
        fun T v => ∃ j : Fin N, (ent j).pkt = v ∧ (T = B + (h j 0).val * slot ∨ T = B + (h j 1).val * slot) := by
      funext T v
      refine propext ⟨?_, ?_⟩
      · rintro ⟨g, k, t, x, j, e1, e2, e3, e4, -⟩
        simp only [hh g] at e1
        cases k with
        | succ k => simp at e1
        | zero =>
          simp only [List.getElem?_cons_zero, Option.some.injEq, Prod.mk.injEq] at e1
          obtain ⟨rfl, rfl⟩ := e1
          refine ⟨g, e2, ?_⟩
          rw [hB] at e4
          simp only [order, List.ofFn_succ, List.take_succ_cons, List.take_zero, List.mem_cons, List.not_mem_nil, or_false] at e3
          rcases e3 with rfl | rfl
          · exact .inl e4
          · exact .inr e4
      · rintro ⟨g, rfl, hT⟩
        have : ∃ j ∈ (order (h g)).take 2, T = B + j * slot := by
          simp only [order, List.ofFn_succ, List.take_succ_cons, List.take_zero, List.mem_cons, List.not_mem_nil, or_false, exists_eq_or_imp,
            exists_eq_left]
          exact hT
        obtain ⟨j, hj, e⟩ := this
        exact ⟨g, 0, times g, ent g, j, by simp only [hh g]; rfl, rfl, hj, by rw [hB]; exact e, (sc h).reach g T⟩
    rw [hin]
  rw [Finset.sum_congr rfl (fun h _ => hcount h)]
  simp only [Finset.card_filter]
  rw [Finset.sum_comm]

/-- CRDSA from end to end, in the order in which ns-3 runs events of the same instant.  `N` stations send one packet each, in two of the `M + 2` slots
of the same frame; `net h` is the network in which the slot table of station `i` is in the order `h i`, `s h` a state in which nothing is scheduled any
more.  The packets that the satellite passed up, added over all choices, are as many as can be decoded slot by slot. -/
theorem C93_crdsa {M : Nat} {net : (Fin N → Equiv.Perm (Fin (M + 2))) → Net D (Fin N) V W P (Crdsa.Sys P)} {lost : P → P → Bool} {slot : Nat}
    (hrx : ∀ h, (net h).rx = crdsaReceiver lost (slot * (M + 2))) {Q : P → Prop} (hlost : Aloha.Drops lost Q)
    {ent : Fin N → Entry W} {d : D} (sc : ∀ h, Scene (net h) w hist as Q ent d) (hs : 0 < slot) (h64 : slot * (M + 2) < 2 ^ 64)
    (hm : ∀ h g, IsCrdsa ((net h).mac g) slot (M + 2) (fun _ => order (h g)) (fun _ => 2))
    {lo hi : D → Nat} (hdelay : ∀ t g d, lo d ≤ w.delay t g d ∧ w.delay t g d ≤ hi d)
    (hpk : Function.Injective (fun i => (ent i).pkt)) (hlen : ∀ i d, hi d < (ent i).len ∧ (ent i).len + (hi d - lo d) ≤ slot)
    {B : Nat} {times : Fin N → Nat} (hB : ∀ i, frameStart (slot * (M + 2)) (times i) = B)
    {ops : (Fin N → Equiv.Perm (Fin (M + 2))) → List (Op D (Fin N) W)} {s : (Fin N → Equiv.Perm (Fin (M + 2))) → OSys D (Fin N) W (Crdsa.Sys P)}
    (hrun : ∀ h, RanInOrder (net h) Crdsa.Sys.pending hist as ent times (ops h) (s h)) {n : ℝ} (hn : n = M + 2) :
    N * (2 * (1 - 2 / n) ^ (N - 1) - ((1 - 2 / n) * (1 - 2 / (n - 1))) ^ (N - 1)) ≤
      ((∑ h, ((net h).rx.delivered ((s h).sys.sats d)).length : ℕ) : ℝ) / (Fintype.card (Fin N → Equiv.Perm (Fin (M + 2))) : ℝ) ∧
    ((∑ h, ((net h).rx.delivered ((s h).sys.sats d)).length : ℕ) : ℝ) / (Fintype.card (Fin N → Equiv.Perm (Fin (M + 2))) : ℝ) ≤
      N * (1 - 2 / (n * (n - 1))) ^ (N - 1) :=
  recovered_mean (crdsa_total hrx hlost sc hs h64 hm hdelay hpk hlen hB hrun) hn

/-! ## Means -/

/-- Mean number of packets passed up, slotted Aloha. -/
theorem C93_slotted_mean {net : Net D (Fin N) V W P (Aloha.Sys P)} {lost : P → P → Bool} (hrx : net.rx = alohaReceiver lost)
    {Q : P → Prop} (hlost : Aloha.Drops lost Q) {ent : Fin N → Entry W} {d : D} (sc : Scene net w hist as Q ent d) {M slot : Nat} (hM : 0 < M)
    (hs : 0 < slot) (hs64 : slot < 2 ^ 64) (hm : ∀ g, net.mac g = alohaMac slot)
    {lo hi : D → Nat} (hdelay : ∀ t g d, lo d ≤ w.delay t g d ∧ w.delay t g d ≤ hi d)
    (hlen : ∀ i d, hi d < (ent i).len ∧ (ent i).len + (hi d - lo d) ≤ slot)
    {ops : (Fin N → Fin (M * slot)) → List (Op D (Fin N) W)} {s : (Fin N → Fin (M * slot)) → OSys D (Fin N) W (Aloha.Sys P)}
    (hrun : ∀ h, RanInOrder net Aloha.Sys.pending hist as ent (fun i => (h i).val + 1) (ops h) (s h)) :
    ((∑ h, (passedUp net (s h).sys d).length : ℕ) : ℝ) / (Fintype.card (Fin N → Fin (M * slot)) : ℝ) = N * (1 - 1 / (M : ℝ)) ^ (N - 1) :=
  slotted_mean (C93_full_slots hrx hlost sc hs hs64 hm hdelay hlen hrun) hs hM

/-- Bounds of the total, pure Aloha. -/
theorem C93_pure_bounds {net : Net D (Fin N) V W P (Aloha.Sys P)} {lost : P → P → Bool} (hrx : net.rx = alohaReceiver lost)
    {Q : P → Prop} (hlost : Aloha.Drops lost Q) {ent : Fin N → Entry W} {d : D} (sc : Scene net w hist as Q ent d)
    (hm : ∀ g, net.mac g = alohaMac 0) {len δ : Nat} (hdelay : ∀ t i, w.delay t i d = δ) (hlen : ∀ i, (ent i).len = len) (hδ : δ < len)
    {L : Nat} {ops : (Fin N → Fin L) → List (Op D (Fin N) W)} {s : (Fin N → Fin L) → OSys D (Fin N) W (Aloha.Sys P)}
    (hrun : ∀ h, RanInOrder net Aloha.Sys.pending hist as ent (fun i => (h i).val + 1) (ops h) (s h)) :
    N * (L * (L - (2 * len - 1)) ^ (N - 1)) ≤ ∑ h, (passedUp net (s h).sys d).length ∧
    ∑ h, (passedUp net (s h).sys d).length ≤ N * (L * (L - (2 * len - 1)) ^ (N - 1) + 2 * len * L ^ (N - 1)) :=
  pure_bounds (C93_pure hrx hlost sc hm hdelay hlen hδ hrun) (by omega)

/-! ## Such runs exist -/

omit [Fintype D] [DecidableEq D] [Zero P] [Add P] in
theorem requests_sends {a : SatAddress} {p : W} {l : List (Nat × Entry W)} (h : ∀ y ∈ l, y.2.dst = a ∧ y.2.power = p) :
    requests a p (l.map (fun y => .send y.1 y.2.pkt y.2.len y.2.proto)) = l := by
  induction l with
  | nil => rfl
  | cons y l ih =>
    obtain ⟨h1, h2⟩ := h y (by simp)
    rw [List.map_cons, requests, ih (fun z hz => h z (List.mem_cons_of_mem _ hz)), ← h1, ← h2]

/-- The calls, in the order of their times. -/
def calls (ent : Fin N → Entry W) (times : Fin N → Nat) : List (Op D (Fin N) W) :=
  ((List.finRange N).mergeSort (fun i j => decide (times i ≤ times j))).map
    (fun i => .station i (.send (times i) (ent i).pkt (ent i).len (ent i).proto))

omit [Fintype D] [DecidableEq D] [Zero P] [Add P] in
theorem calls_ok (net : Net D (Fin N) V W P R) {ent : Fin N → Entry W} (hent : ∀ i, (ent i).dst = net.remote i ∧ (ent i).power = net.power i)
    (times : Fin N → Nat) :
    Asked net ent times (calls ent times) ∧ (∀ o ∈ calls (D := D) ent times, o.internal = false) ∧
      (calls (D := D) ent times).Pairwise (fun a b => a.time ≤ b.time) ∧ ∀ i, tracked (opsOf i (calls (D := D) ent times)) = [] := by
  have hops : ∀ i, opsOf i (calls (D := D) ent times) = [.send (times i) (ent i).pkt (ent i).len (ent i).proto] := by
    intro i
    have h1 : opsOf i (calls (D := D) ent times) = ((List.finRange N).mergeSort (fun i j => decide (times i ≤ times j))).filterMap
        (fun j => if j = i then some (.send (times i) (ent i).pkt (ent i).len (ent i).proto) else none) := by
      unfold opsOf calls
      rw [List.filterMap_map]
      refine List.filterMap_congr (fun j _ => ?_)
      simp only [Function.comp]
      by_cases hj : j = i
      · subst hj; simp
      · simp [hj]
    have h2 := (List.mergeSort_perm (List.finRange N) (fun i j => decide (times i ≤ times j))).filterMap
      (fun j => if j = i then some (GroundSta.Op.send (W := W) (times i) (ent i).pkt (ent i).len (ent i).proto) else none)
    have h3 : (List.finRange N).filterMap (fun j => if j = i then some (GroundSta.Op.send (W := W) (times i) (ent i).pkt (ent i).len (ent i).proto) else none) =
        [.send (times i) (ent i).pkt (ent i).len (ent i).proto] := by
      have h4 : ∀ l : List (Fin N), l.filterMap (fun j => if j = i then some (GroundSta.Op.send (W := W) (times i) (ent i).pkt (ent i).len (ent i).proto) else none) =
          List.replicate (l.count i) (.send (times i) (ent i).pkt (ent i).len (ent i).proto) := by
        intro l
        induction l with
        | nil => rfl
        | cons j l ih =>
          by_cases hj : j = i
          · subst hj; simp [ih, List.replicate_succ]
          · simp [hj, ih]
      rw [h4, List.count_eq_one_of_mem (List.nodup_finRange N) (List.mem_finRange i)]
      rfl
    rw [h3] at h2
    rw [h1, List.perm_singleton.mp h2]
  refine ⟨fun i => ?_, ?_, ?_, fun i => by rw [hops i]; rfl⟩
  · unfold given
    rw [hops i]
    exact requests_sends (l := [(times i, ent i)]) (by intro y hy; rw [List.mem_singleton] at hy; subst hy; exact hent i)
  · intro o ho
    obtain ⟨i, -, rfl⟩ := List.mem_map.mp ho
    rfl
  · unfold calls
    rw [List.pairwise_map]
    have := List.pairwise_mergeSort (le := fun i j : Fin N => decide (times i ≤ times j))
      (by intro a b c; simp only [decide_eq_true_eq]; omega) (by intro a b; simp; omega) (List.finRange N)
    exact this.imp (fun h => of_decide_eq_true h)

omit [Zero P] [Add P] in
/-- For all times there is a run as in `C93_slotted`. -/
theorem C93_runs {net : Net D (Fin N) V W P R} {clock : R → Nat} (hsafe : Safe net.rx) (ho : Orderly net.rx clock) (h1e : OneEach net.rx)
    {K : Nat} (hK : ∀ g, Copies (net.mac g) K) {Q : P → Prop} {ent : Fin N → Entry W} {d : D} (sc : Scene net w hist as Q ent d)
    (hent : ∀ i, (ent i).dst = net.remote i ∧ (ent i).power = net.power i) (times : Fin N → Nat) : ∃ ops s, Ran net hist as ent times ops s := by
  obtain ⟨hasOrbit, cid, n, m, k, hb, hfit, hk⟩ := sc.built
  obtain ⟨c1, c2, c3, c4⟩ := calls_ok net hent times
  have hl : Launched net hist as (calls ent times) := by
    intro g a ha
    rw [c4, List.mem_singleton] at ha
    rw [ha, ← (hent g).1, (sc.reach g 0).1]
    rfl
  obtain ⟨ops, s, h1, h2, h3, h4, -⟩ := C92_uplink hsafe ho h1e hK hb hfit hk sc.sky hl c2 c3
  refine ⟨ops, s, h1, h3, fun i => ?_, h4⟩
  have := c1 i
  rw [← h2] at this
  unfold given at this ⊢
  rwa [requests_filter] at this

omit [Zero P] [Add P] in
/-- For all times there is a run as in `C93_full_slots` and `C93_pure`. -/
theorem C93_runs_in_order {net : Net D (Fin N) V W P R} {pend : R → List (Aloha.Frame P)} {strict : R → Aloha.Op P → Option (Outcome R)}
    {clock : R → Nat} (hsafe : Safe net.rx) (ho : Orderly net.rx clock) (he : Ends net.rx pend strict) {K : Nat} (hK : ∀ g, Copies (net.mac g) K)
    {Q : P → Prop} {ent : Fin N → Entry W} {d : D} (sc : Scene net w hist as Q ent d)
    (hent : ∀ i, (ent i).dst = net.remote i ∧ (ent i).power = net.power i) (times : Fin N → Nat) :
    ∃ ops s, RanInOrder net pend hist as ent times ops s := by
  obtain ⟨hasOrbit, cid, n, m, k, hb, hfit, hk⟩ := sc.built
  obtain ⟨c1, c2, c3, c4⟩ := calls_ok net hent times
  have hl : Launched net hist as (calls ent times) := by
    intro g a ha
    rw [c4, List.mem_singleton] at ha
    rw [ha, ← (hent g).1, (sc.reach g 0).1]
    rfl
  obtain ⟨ops, s, h1, h2, h3, h4, -⟩ := C92_ordered hsafe ho he hK hb hfit hk sc.sky hl c2 c3
  refine ⟨ops, s, h1, h3, fun i => ?_, h4⟩
  have := c1 i
  rw [← h2] at this
  unfold given at this ⊢
  rwa [requests_filter] at this

/-- For all times there is a run as in `C93_crdsa`. -/
theorem C93_runs_crdsa {slots : Nat} {net : Net D (Fin N) V W P (Crdsa.Sys P)} {lost : P → P → Bool} {slot : Nat}
    (hrx : net.rx = crdsaReceiver lost (slot * slots)) {Q : P → Prop} (hlost : Aloha.Drops lost Q)
    {ent : Fin N → Entry W} {d : D} (sc : Scene net w hist as Q ent d) (hs : 0 < slot) (hn : 0 < slots) (h64 : slot * slots < 2 ^ 64)
    {shuffle : Fin N → Nat → List Nat} {replicas : Fin N → Nat → Nat}
    (hm : ∀ g, IsCrdsa (net.mac g) slot slots (shuffle g) (replicas g)) (hone : ∀ g k, 1 ≤ replicas g k) (htwo : ∀ g k, replicas g k ≤ 2)
    {lo hi : D → Nat} (hdelay : ∀ t g d, lo d ≤ w.delay t g d ∧ w.delay t g d ≤ hi d)
    (hpk : Function.Injective (fun i => (ent i).pkt)) (hlen : ∀ i d, hi d < (ent i).len ∧ (ent i).len + (hi d - lo d) ≤ slot)
    (hent : ∀ i, (ent i).dst = net.remote i ∧ (ent i).power = net.power i) (times : Fin N → Nat) :
    ∃ ops s, RanInOrder net Crdsa.Sys.pending hist as ent times ops s := by
  obtain ⟨hasOrbit, cid, n, m, k, hb, hfit, hk⟩ := sc.built
  obtain ⟨c1, c2, c3, c4⟩ := calls_ok net hent times
  have hl : Launched net hist as (calls ent times) := by
    intro g a ha
    rw [c4, List.mem_singleton] at ha
    rw [ha, ← (hent g).1, (sc.reach g 0).1]
    rfl
  have hgiven : ∀ g, ∀ y ∈ given net (calls ent times) g, y.2 = ent g := by
    intro g y hy
    rw [c1 g, List.mem_singleton] at hy
    rw [hy]
  have hdist : Distinct net (calls ent times) := by
    refine ⟨fun g => by rw [c1 g]; simp, fun g g' hne y hy z hz e => hne (hpk ?_)⟩
    rw [hgiven g y hy, hgiven g' z hz] at e
    exact e
  obtain ⟨ops, s, h1, h2, h4, -⟩ := C92_crdsa hrx hlost hb hfit hk sc.sky hs hn h64 hm hone htwo hdelay hl hdist
    (fun g d y hy t => by rw [hgiven g y hy]; exact sc.powers g d t) (fun g d y hy => by rw [hgiven g y hy]; exact hlen g d) c2 c3
  refine ⟨ops, s, h1, launched_free (by rw [h2]; exact hl), fun i => ?_, h4⟩
  have := c1 i
  rw [← h2] at this
  unfold given at this ⊢
  rwa [requests_filter] at this

end

/-! ## Examples -/

def manyWorld (N : Nat) : World (Fin 2) (Fin N) Int := ⟨fun _ _ _ => 3, fun _ _ _ p => p, fun _ _ _ => true⟩

/-- `N` stations, three ticks from both satellites; all of them track the first. -/
def manyNet (N : Nat) {R : Type} (rx : Receiver Int R) (mac : Fin N → Mac) : Net (Fin 2) (Fin N) Nat Int Int R :=
  ⟨true, .little, ⟨some exConstellation, List.finRange N⟩,
    fun _ => ⟨fun g => some g.val, fun d => some d.val, some (fun _ _ => 3), some (fun p _ _ => p), some (fun _ _ => .ok true)⟩,
    fun g => ⟨1, [UInt8.ofNat g.val]⟩, mac, fun _ q _ => decide (q.length < 5),
    fun _ => SatAddress.mk3 .little 1 0 0, fun _ => 30, rx, fun p => p.natAbs + 1⟩

/-- Station `i` sends packet `i`, which lasts ten ticks. -/
def manyEntry {N : Nat} (i : Fin N) : Entry Int := ⟨i.val, 10, SatAddress.mk3 .little 1 0 0, 7, 30⟩

theorem manyScene (N : Nat) {R : Type} (rx : Receiver Int R) (mac : Fin N → Mac) :
    Scene (manyNet N rx mac) (manyWorld N) [(0, 1, (1 : Fin 2)), (0, 0, 0)] [SatAddress.mk3 .little 1 0 1, SatAddress.mk3 .little 1 0 0]
      (fun p => 0 < p) manyEntry 0 where
  built := ⟨_, _, _, _, _, exBuilt, by unfold Fits16; decide, rfl⟩
  sky := fun _ g d => ⟨g.val, d.val, fun _ _ => 3, fun p _ _ => p, ⟨rfl, rfl, rfl, rfl⟩, rfl, fun _ => rfl, Or.inr ⟨_, rfl, rfl⟩⟩
  room := fun _ _ => rfl
  reach := fun _ _ => ⟨by show target _ _ (SatAddress.mk3 .little 1 0 0) = some 0; decide, rfl⟩
  powers := fun _ _ _ => by simp only [manyNet]; omega

/-- `N` stations, `M` slots. -/
example (N M : Nat) : ∃ (ops : (Fin N → Fin (M * 10)) → List (Op (Fin 2) (Fin N) Int)) (s : (Fin N → Fin (M * 10)) → OSys (Fin 2) (Fin N) Int (Aloha.Sys Int)),
    (∀ h, RanInOrder (manyNet N (alohaReceiver intLost) (fun _ => alohaMac 10)) Aloha.Sys.pending
      [(0, 1, (1 : Fin 2)), (0, 0, 0)] [SatAddress.mk3 .little 1 0 1, SatAddress.mk3 .little 1 0 0] manyEntry (fun i => (h i).val + 1) (ops h) (s h)) ∧
    ∑ h, (passedUp (manyNet N (alohaReceiver intLost) (fun _ => alohaMac 10)) (s h).sys 0).length = N * ((M * 10) * (M * 10 - 10) ^ (N - 1)) := by
  have h := fun h : Fin N → Fin (M * 10) => C93_runs_in_order (net := manyNet N (alohaReceiver intLost) (fun _ => alohaMac 10)) (safe_map rfl)
    (aloha_orderly _) (aloha_ends _) (K := 1) (fun _ => once_copies (aloha_toNextSlot 10 (by omega) (by omega))) (manyScene N _ _)
    (fun _ => ⟨rfl, rfl⟩) (fun i => (h i).val + 1)
  choose ops s h using h
  exact ⟨ops, s, h, C93_full_slots rfl intLost_drops (manyScene N _ _) (by omega) (by omega) (fun _ => rfl) (lo := fun _ => 3) (hi := fun _ => 3)
    (fun _ _ _ => ⟨le_refl _, le_refl _⟩) (fun _ _ => by simp [manyEntry]) h⟩

/-- The same in any order of events of the same instant, with slots that are not filled. -/
example (N M : Nat) : ∃ (ops : (Fin N → Fin (M * 11)) → List (Op (Fin 2) (Fin N) Int)) (s : (Fin N → Fin (M * 11)) → Sys (Fin 2) (Fin N) Int (Aloha.Sys Int)),
    (∀ h, Ran (manyNet N (alohaReceiver intLost) (fun _ => alohaMac 11))
      [(0, 1, (1 : Fin 2)), (0, 0, 0)] [SatAddress.mk3 .little 1 0 1, SatAddress.mk3 .little 1 0 0] manyEntry (fun i => (h i).val + 1) (ops h) (s h)) ∧
    ∑ h, (passedUp (manyNet N (alohaReceiver intLost) (fun _ => alohaMac 11)) (s h) 0).length = N * ((M * 11) * (M * 11 - 11) ^ (N - 1)) := by
  have h := fun h : Fin N → Fin (M * 11) => C93_runs (net := manyNet N (alohaReceiver intLost) (fun _ => alohaMac 11)) (safe_map rfl)
    (aloha_orderly _) (aloha_ends _).oneEach (K := 1) (fun _ => once_copies (aloha_toNextSlot 11 (by omega) (by omega))) (manyScene N _ _)
    (fun _ => ⟨rfl, rfl⟩) (fun i => (h i).val + 1)
  choose ops s h using h
  exact ⟨ops, s, h, C93_slotted rfl intLost_drops (manyScene N _ _) (by omega) (by omega) (fun _ => rfl) (lo := fun _ => 3) (hi := fun _ => 3)
    (fun _ _ _ => ⟨le_refl _, le_refl _⟩) (fun _ _ => by simp [manyEntry]) h⟩

/-- Without slots, `M` ticks. -/
example (N M : Nat) : ∃ (ops : (Fin N → Fin (M)) → List (Op (Fin 2) (Fin N) Int)) (s : (Fin N → Fin (M)) → OSys (Fin 2) (Fin N) Int (Aloha.Sys Int)),
    (∀ h, RanInOrder (manyNet N (alohaReceiver intLost) (fun _ => alohaMac 0)) Aloha.Sys.pending
      [(0, 1, (1 : Fin 2)), (0, 0, 0)] [SatAddress.mk3 .little 1 0 1, SatAddress.mk3 .little 1 0 0] manyEntry (fun i => (h i).val + 1) (ops h) (s h)) ∧
    N * (M * (M - 19) ^ (N - 1)) ≤ ∑ h, (passedUp (manyNet N (alohaReceiver intLost) (fun _ => alohaMac 0)) (s h).sys 0).length := by
  have h := fun h : Fin N → Fin (M) => C93_runs_in_order (net := manyNet N (alohaReceiver intLost) (fun _ => alohaMac 0)) (safe_map rfl)
    (aloha_orderly _) (aloha_ends _) (K := 1) (fun _ => once_copies pure_once) (manyScene N _ _)
    (fun _ => ⟨rfl, rfl⟩) (fun i => (h i).val + 1)
  choose ops s h using h
  exact ⟨ops, s, h, (C93_pure_bounds rfl intLost_drops (manyScene N _ _) (fun _ => rfl) (δ := 3) (len := 10) (fun _ _ => rfl) (fun _ => rfl)
    (by omega) h).1⟩

/-- The MAC of a station with its slot table in the order `σ`. -/
def orderMac {n : Nat} (slot : Nat) (σ : Equiv.Perm (Fin n)) : Mac :=
  ⟨false, fun _ t => ((order σ).take 2).map (fun j => Crdsa.frameDelay t slot n + j * slot)⟩

theorem orderMac_crdsa {n : Nat} (slot : Nat) (σ : Equiv.Perm (Fin (n + 2))) : IsCrdsa (orderMac slot σ) slot (n + 2) (fun _ => order σ) (fun _ => 2) := by
  refine ⟨rfl, fun _ => ⟨order_perm σ, fun t => ?_⟩⟩
  have hl : (order σ).length = n + 2 := by simp [order]
  simp [Crdsa.sendDelays, Crdsa.getSelectedSlots, orderMac, hl]

/-- CRDSA: `N` stations, frames of `M + 2` slots, all asked at tick 5. -/
example (N M : Nat) (hM : 10 * (M + 2) < 2 ^ 64) : ∃ (ops : (Fin N → Equiv.Perm (Fin (M + 2))) → List (Op (Fin 2) (Fin N) Int))
    (s : (Fin N → Equiv.Perm (Fin (M + 2))) → OSys (Fin 2) (Fin N) Int (Crdsa.Sys Int)),
    (∀ h, RanInOrder (manyNet N (crdsaReceiver intLost (10 * (M + 2))) (fun i => orderMac 10 (h i))) Crdsa.Sys.pending
      [(0, 1, (1 : Fin 2)), (0, 0, 0)] [SatAddress.mk3 .little 1 0 1, SatAddress.mk3 .little 1 0 0] manyEntry (fun _ => 5) (ops h) (s h)) ∧
    N * (2 * (1 - 2 / (M + 2 : ℝ)) ^ (N - 1) - ((1 - 2 / (M + 2 : ℝ)) * (1 - 2 / (M + 2 - 1 : ℝ))) ^ (N - 1)) ≤
      ((∑ h, ((manyNet N (crdsaReceiver intLost (10 * (M + 2))) (fun i => orderMac 10 (h i))).rx.delivered ((s h).sys.sats 0)).length : ℕ) : ℝ) /
        (Fintype.card (Fin N → Equiv.Perm (Fin (M + 2))) : ℝ) := by
  have h := fun h : Fin N → Equiv.Perm (Fin (M + 2)) => C93_runs_crdsa (slots := M + 2)
    (net := manyNet N (crdsaReceiver intLost (10 * (M + 2))) (fun i => orderMac 10 (h i))) rfl intLost_drops (manyScene N _ _) (by omega) (by omega)
    hM (fun g => orderMac_crdsa 10 (h g)) (fun _ _ => by omega) (fun _ _ => le_refl _) (lo := fun _ => 3) (hi := fun _ => 3)
    (fun _ _ _ => ⟨le_refl _, le_refl _⟩) (fun _ _ e => Fin.ext e) (fun _ _ => by simp [manyEntry]) (fun _ => ⟨rfl, rfl⟩) (fun _ => 5)
  choose ops s h using h
  refine ⟨ops, s, h, (C93_crdsa (fun _ => rfl) intLost_drops (fun _ => manyScene N _ _) (by omega) hM
    (fun h g => orderMac_crdsa 10 (h g)) (lo := fun _ => 3) (hi := fun _ => 3) (fun _ _ _ => ⟨le_refl _, le_refl _⟩) (fun _ _ e => Fin.ext e)
    (fun _ _ => by simp [manyEntry]) (B := 10 * (M + 2)) (fun i => ?_) h rfl).1⟩
  simp only [frameStart, toNextSlot]
  rw [Nat.mod_eq_of_lt (a := 5) (by omega), Nat.mod_eq_of_lt (by omega)]
  omega

end Uplink
end Icarus
