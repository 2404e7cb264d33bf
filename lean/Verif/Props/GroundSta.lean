import Verif.Lemmas.GroundSta
import Mathlib.Data.List.Nodup
import Verif.Model.Aloha
import Verif.Model.Crdsa
import Verif.Model.NoneMac

/-!
# Properties C34 and C35: the sending side of the ground station

All statements are about every execution of the device together with its MAC, from a new device: any sequence of `Send` calls, address
changes, power changes and MAC events that the simulator can produce, for any admission rule of the queue.
-/

set_option autoImplicit false

namespace Icarus
open GroundSta

variable {W : Type} {debug : Bool} {mac : Mac} {accept : List (Entry W) → Entry W → Bool} {remote : SatAddress} {power : W}

/-! ## C34 -/

/-- The pass-through MAC. -/
def noneMac : Mac := ⟨true, fun _ _ => []⟩

/-- The Aloha MAC with the given slot duration (0: unslotted). -/
def alohaMac (slot : Nat) : Mac := ⟨false, fun _ t => [Aloha.sendDelay t slot]⟩

/-- The CRDSA MAC: `shuffle k` is the slot table as shuffled for the `k`-th frame, `replicas k` its number of replicas. -/
def IsCrdsa (mac : Mac) (slotDur slots : Nat) (shuffle : Nat → List Nat) (replicas : Nat → Nat) : Prop :=
  mac.sync = false ∧ ∀ k, (shuffle k).Perm (Crdsa.slotTable slots) ∧
    ∀ t, Crdsa.sendDelays t slotDur (shuffle k) (replicas k) = .ok (mac.delays k t)

/-- What the pass-through and the Aloha models do (`Verif.Model.NoneMac`, `Verif.Model.Aloha`), as waiting times. -/
theorem noneMac_once : Once noneMac (fun _ t => (NoneMac.sendCallbacks t 0).1 - t) :=
  Or.inl ⟨rfl, fun _ t => by simp [NoneMac.sendCallbacks]⟩

theorem alohaMac_once (slot : Nat) : Once (alohaMac slot) (fun _ t => (Aloha.sendCallbacks t slot 0).1 - t) :=
  Or.inr ⟨rfl, fun _ t => by simp [alohaMac, Aloha.sendCallbacks]⟩

/-- CRDSA with one replica per packet also transmits each frame once. -/
theorem crdsa_one_once {slotDur slots : Nat} {shuffle : Nat → List Nat} (h : IsCrdsa mac slotDur slots shuffle (fun _ => 1)) :
    ∃ wait, Once mac wait := by
  refine ⟨fun k t => (mac.delays k t).headD 0, Or.inr ⟨h.1, fun k t => ?_⟩⟩
  have h2 := (h.2 k).2 t
  unfold Crdsa.sendDelays Crdsa.getSelectedSlots at h2
  split at h2
  · rename_i hl
    simp only [Outcome.bind_ok, Outcome.ok.injEq] at h2
    cases hs : shuffle k with
    | nil => rw [hs] at hl; simp at hl
    | cons a r => rw [hs] at h2; simp only; rw [← h2]; simp
  · simp at h2

/-- With a MAC that transmits every frame once, the station never misbehaves and is, as far as the channel can see, exactly the
first-in first-out sender `Fifo.serve` fed with the accepted packets: what has been transmitted is a prefix of that schedule, and the
whole of it once there is nothing left to happen.  Something is left to happen as long as packets wait. -/
theorem C34_refines {wait : Nat → Nat → Nat} (hm : Once mac wait) {ops : List (Op W)} {r : Outcome (Sys W)}
    (h : exec debug mac accept remote power ops = some r) :
    ∃ s, r = .ok s ∧ s.aired <+: Fifo.serve Entry.len wait 0 0 s.accepted ∧
      (s.events = [] → s.aired = Fifo.serve Entry.len wait 0 0 s.accepted) ∧ (s.queue ≠ [] → s.events ≠ []) := by
  have hall : ∃ s, r = .ok s ∧ Phase wait s := by
    have hph : ∀ {ops : List (Op W)} {s : Sys W}, exec debug mac accept remote power ops = some (.ok s) → Phase wait s := by
      intro ops s hs
      refine run_induction (P := fun _ s => Phase wait s) (Phase.init wait) ?_ hs
      intro ops o s s' _ hp hst
      obtain ⟨s2, h1, h2⟩ := hp.step hm hst
      simp only [Outcome.ok.injEq] at h1
      subst h1; exact h2
    obtain ⟨s, hs⟩ := run_no_fault (fun ops o s r hr hst => by
      obtain ⟨s', h1, -⟩ := (hph hr).step hm hst
      exact ⟨s', h1⟩) h
    subst hs
    exact ⟨s, rfl, hph h⟩
  obtain ⟨s, rfl, hp⟩ := hall
  refine ⟨s, rfl, ?_⟩
  cases hp with
  | idle h1 h2 h3 h4 h5 h6 => exact ⟨by rw [h4]; exact List.prefix_refl _, fun _ => h4, fun hq => absurd h2 hq⟩
  | waiting done w a hh x h1 h2 h3 h4 h5 h6 h7 h8 h9 =>
    exact ⟨by rw [h4, h2]; exact Fifo.serve_prefix _ _ _ _, fun he => by simp [h7] at he, fun _ => by simp [h7]⟩
  | onAir done w x h1 h2 h3 h4 h5 h6 h7 h8 =>
    exact ⟨by rw [h4, h2]; exact Fifo.serve_prefix _ _ _ _, fun he => by simp [h6] at he, fun _ => by simp [h6]⟩

/-- In plain terms: the frames on the air are the accepted packets, each once, in order of acceptance, none before its acceptance, no two
overlapping. -/
theorem C34_once_in_order {wait : Nat → Nat → Nat} (hm : Once mac wait) {ops : List (Op W)} {s : Sys W}
    (h : exec debug mac accept remote power ops = some (.ok s)) :
    s.aired.map Prod.snd <+: s.accepted.map Prod.snd ∧
    (s.events = [] → s.aired.map Prod.snd = s.accepted.map Prod.snd) ∧
    s.aired.Pairwise (fun f g => f.1 + f.2.len ≤ g.1) ∧
    (∀ (i : Nat) (f y : Nat × Entry W), s.aired[i]? = some f → s.accepted[i]? = some y → y.1 ≤ f.1) := by
  obtain ⟨s', hs, h1, h2, -⟩ := C34_refines hm h
  simp only [Outcome.ok.injEq] at hs
  subst hs
  refine ⟨?_, ?_, ?_, ?_⟩
  · have := h1.map Prod.snd
    rwa [Fifo.serve_packets] at this
  · intro he; rw [h2 he, Fifo.serve_packets]
  · exact (Fifo.serve_disjoint 0 0 _).sublist h1.sublist
  · intro i f y hf hy
    obtain ⟨r, hr⟩ := h1
    have hlt : i < s.aired.length := by
      by_contra hge
      simp [List.getElem?_eq_none (by omega : s.aired.length ≤ i)] at hf
    have : (Fifo.serve Entry.len wait 0 0 s.accepted)[i]? = some f := by
      rw [← hr, List.getElem?_append_left hlt]; exact hf
    exact (Fifo.serve_causal 0 0 _ i y f hy this).1

/-- `Send` is answered at once: the packet goes either to the accepted packets or to the dropped ones, according to the queue alone. -/
theorem C34_send_result {s s' : Sys W} {t pkt len : Nat} {proto : UInt16} (hs : send debug mac accept s t pkt len proto = .ok s') :
    (accept s.queue ⟨pkt, len, s.remote, proto, s.power⟩ = true ∧ s'.accepted = s.accepted ++ [(t, ⟨pkt, len, s.remote, proto, s.power⟩)] ∧
      s'.refused = s.refused) ∨
    (accept s.queue ⟨pkt, len, s.remote, proto, s.power⟩ = false ∧ s'.accepted = s.accepted ∧
      s'.refused = s.refused ++ [(t, ⟨pkt, len, s.remote, proto, s.power⟩)] ∧ s'.queue = s.queue ∧ s'.events = s.events ∧
      s'.aired = s.aired) := by
  unfold send at hs
  simp only at hs
  split at hs
  · rename_i ha
    simp only [Outcome.ok.injEq] at hs
    subst hs
    exact Or.inr ⟨ha, rfl, rfl, rfl, rfl, rfl⟩
  · rename_i ha
    refine Or.inl ⟨by simpa using ha, ?_⟩
    split at hs
    · simp only [Outcome.ok.injEq] at hs
      subst hs
      exact ⟨rfl, rfl⟩
    · obtain ⟨x, rest, hq, rfl⟩ := transmitStart_eq hs
      obtain ⟨-, -, -, h4, h5, -, -, -⟩ := macSend_fields (mac := mac)
        ({ s with clock := t, busy := true, queue := rest, accepted := s.accepted ++ [(t, ⟨pkt, len, s.remote, proto, s.power⟩)] } : Sys W) t x
      exact ⟨h4, h5⟩

/-- For every MAC, also CRDSA: packets are handed to the MAC once each and in order of acceptance. -/
theorem C34_handed_in_order {ops : List (Op W)} {s : Sys W} (h : exec debug mac accept remote power ops = some (.ok s)) :
    s.accepted.map Prod.snd = s.handed.map Prod.snd ++ s.queue :=
  (run_induction (P := fun _ s => Books mac s) ⟨rfl, List.Perm.refl _⟩ (fun _ _ _ _ _ hp hst => hp.step hst) h).fifo

/-- For every MAC: the frames that went on the air and those still scheduled are exactly the transmissions the MAC planned for the packets
handed to it (`attempts`). -/
theorem C34_replicas {ops : List (Op W)} {s : Sys W} (h : exec debug mac accept remote power ops = some (.ok s)) :
    (s.aired ++ pendingStarts s.events).Perm (attempts mac 0 s.handed) :=
  (run_induction (P := fun _ s => Books mac s) ⟨rfl, List.Perm.refl _⟩ (fun _ _ _ _ _ hp hst => hp.step hst) h).airings

theorem mem_attempts {k : Nat} {l : List (Nat × Entry W)} {f : Nat × Entry W} (h : f ∈ attempts mac k l) :
    ∃ y ∈ l, y.2 = f.2 ∧ y.1 ≤ f.1 := by
  induction l generalizing k with
  | nil => simp [attempts] at h
  | cons y l ih =>
    obtain ⟨t, x⟩ := y
    simp only [attempts, List.mem_append] at h
    rcases h with h | h
    · refine ⟨(t, x), by simp, ?_⟩
      split at h
      · simp only [List.mem_singleton] at h; subst h; exact ⟨rfl, Nat.le_refl _⟩
      · simp only [List.mem_map] at h
        obtain ⟨d, -, rfl⟩ := h
        exact ⟨rfl, Nat.le_add_right _ _⟩
    · obtain ⟨y, hy, h1⟩ := ih h
      exact ⟨y, by simp [hy], h1⟩

/-- Everything on the air was accepted. -/
theorem aired_accepted {ops : List (Op W)} {s : Sys W} (h : exec debug mac accept remote power ops = some (.ok s)) {f : Nat × Entry W}
    (hf : f ∈ s.aired) : f.2 ∈ s.accepted.map Prod.snd := by
  have h1 := (C34_replicas h).subset (List.mem_append_left _ hf)
  obtain ⟨y, hy, h2, -⟩ := mem_attempts h1
  rw [C34_handed_in_order h, List.mem_append]
  exact Or.inl (List.mem_map.mpr ⟨y, hy, h2⟩)

/-! ## C35 -/

/-- The tracked address after some operations, starting from `a`. -/
def trackedAfter (a : SatAddress) : List (Op W) → SatAddress
  | [] => a
  | .setRemote _ b :: os => trackedAfter b os
  | _ :: os => trackedAfter a os

/-- The transmission power after some operations, starting from `w`. -/
def powerAfter (w : W) : List (Op W) → W
  | [] => w
  | .setPower _ v :: os => powerAfter v os
  | _ :: os => powerAfter w os

/-- The packets given to `Send`, each with the address tracked, protocol number and power of that moment. -/
def requests (a : SatAddress) (w : W) : List (Op W) → List (Nat × Entry W)
  | [] => []
  | .send t pkt len proto :: os => (t, ⟨pkt, len, a, proto, w⟩) :: requests a w os
  | .setRemote _ b :: os => requests b w os
  | .setPower _ v :: os => requests a v os
  | .run :: os => requests a w os

theorem trackedAfter_append (a : SatAddress) (l m : List (Op W)) : trackedAfter a (l ++ m) = trackedAfter (trackedAfter a l) m := by
  induction l generalizing a with
  | nil => rfl
  | cons o l ih => cases o <;> simp [trackedAfter, ih]

theorem powerAfter_append (w : W) (l m : List (Op W)) : powerAfter w (l ++ m) = powerAfter (powerAfter w l) m := by
  induction l generalizing w with
  | nil => rfl
  | cons o l ih => cases o <;> simp [powerAfter, ih]

theorem requests_append (a : SatAddress) (w : W) (l m : List (Op W)) :
    requests a w (l ++ m) = requests a w l ++ requests (trackedAfter a l) (powerAfter w l) m := by
  induction l generalizing a w with
  | nil => rfl
  | cons o l ih => cases o <;> simp [requests, trackedAfter, powerAfter, ih]

/-- State against history. -/
structure Stamped (remote : SatAddress) (power : W) (ops : List (Op W)) (s : Sys W) : Prop where
  tracked : s.remote = trackedAfter remote ops
  pow : s.power = powerAfter power ops
  split : (s.accepted ++ s.refused).Perm (requests remote power ops)
  acc : s.accepted.Sublist (requests remote power ops)

theorem Stamped.step {ops : List (Op W)} {s s' : Sys W} {o : Op W} (h : Stamped remote power ops s)
    (hs : GroundSta.step debug mac accept s o = some (.ok s')) : Stamped remote power (ops ++ [o]) s' := by
  obtain ⟨h1, h2, h3, h4⟩ := h
  cases o with
  | setRemote t a =>
    obtain ⟨-, rfl⟩ := step_setRemote.mp hs
    exact ⟨by simp [trackedAfter_append, trackedAfter], by simp [powerAfter_append, powerAfter, h2],
      by simpa [requests_append, requests] using h3, by simpa [requests_append, requests] using h4⟩
  | setPower t w =>
    obtain ⟨-, rfl⟩ := step_setPower.mp hs
    exact ⟨by simp [trackedAfter_append, trackedAfter, h1], by simp [powerAfter_append, powerAfter],
      by simpa [requests_append, requests] using h3, by simpa [requests_append, requests] using h4⟩
  | run =>
    have hk : s'.remote = s.remote ∧ s'.power = s.power ∧ s'.accepted = s.accepted ∧ s'.refused = s.refused := by
      simp only [GroundSta.step] at hs
      split at hs
      · simp at hs
      · simp only [Option.some.injEq, Outcome.ok.injEq] at hs
        subst hs
        simp [air]
      · rename_i t x es hev
        simp only [Option.some.injEq] at hs
        unfold transmitComplete at hs
        simp only at hs
        split at hs
        · simp only [Outcome.ok.injEq] at hs
          subst hs
          simp
        · obtain ⟨x, rest, hq, rfl⟩ := transmitStart_eq hs
          obtain ⟨f1, f2, -, f4, f5, -, -, -⟩ := macSend_fields (mac := mac)
            ({ s with clock := t, events := es, busy := true, queue := rest } : Sys W) t x
          exact ⟨f1, f2, f4, f5⟩
    obtain ⟨k1, k2, k3, k4⟩ := hk
    exact ⟨by simp [trackedAfter_append, trackedAfter, k1, h1], by simp [powerAfter_append, powerAfter, k2, h2],
      by simpa [requests_append, requests, k3, k4] using h3, by simpa [requests_append, requests, k3] using h4⟩
  | send t pkt len proto =>
    obtain ⟨-, hs⟩ := step_send.mp hs
    have hk : s'.remote = s.remote ∧ s'.power = s.power := by
      unfold send at hs
      simp only at hs
      split at hs
      · simp only [Outcome.ok.injEq] at hs; subst hs; simp
      · split at hs
        · simp only [Outcome.ok.injEq] at hs; subst hs; simp
        · obtain ⟨x, rest, hq, rfl⟩ := transmitStart_eq hs
          obtain ⟨f1, f2, -⟩ := macSend_fields (mac := mac)
            ({ s with clock := t, busy := true, queue := rest, accepted := s.accepted ++ [(t, ⟨pkt, len, s.remote, proto, s.power⟩)] } : Sys W) t x
          exact ⟨f1, f2⟩
    obtain ⟨k1, k2⟩ := hk
    refine ⟨by simp [trackedAfter_append, trackedAfter, k1, h1], by simp [powerAfter_append, powerAfter, k2, h2], ?_, ?_⟩
    · rcases C34_send_result hs with ⟨-, ha, hr⟩ | ⟨-, ha, hr, -⟩
      · rw [ha, hr]
        simp only [requests_append, requests, ← h1, ← h2, List.append_assoc, List.cons_append, List.nil_append]
        refine List.perm_middle.trans ?_
        refine (List.Perm.cons _ h3).trans (List.perm_append_singleton _ _).symm
      · rw [ha, hr]
        simp only [requests_append, requests, ← h1, ← h2, ← List.append_assoc]
        exact h3.append_right _
    · rcases C34_send_result hs with ⟨-, ha, hr⟩ | ⟨-, ha, hr, -⟩
      · rw [ha]
        simp only [requests_append, requests, ← h1, ← h2]
        exact h4.append (List.Sublist.refl _)
      · rw [ha]
        simp only [requests_append]
        exact h4.trans (List.sublist_append_left _ _)

theorem stamped_exec {ops : List (Op W)} {s : Sys W} (h : exec debug mac accept remote power ops = some (.ok s)) :
    Stamped remote power ops s :=
  run_induction (P := fun ops s => Stamped remote power ops s)
    ⟨rfl, rfl, by simp [Sys.init, requests], by simp [Sys.init, requests]⟩ (fun _ _ _ _ _ hp hst => hp.step hst) h

/-- Every packet given to `Send` is accepted or reported dropped, never both, with its own contents; the accepted ones in the order of the calls. -/
theorem C34_accepted_or_dropped {ops : List (Op W)} {s : Sys W} (h : exec debug mac accept remote power ops = some (.ok s)) :
    (s.accepted ++ s.refused).Perm (requests remote power ops) ∧ s.accepted.Sublist (requests remote power ops) :=
  ⟨(stamped_exec h).split, (stamped_exec h).acc⟩

/-- A packet reported dropped never goes on the air, for any MAC, if packets have different ids. -/
theorem C34_dropped_never_sent {ops : List (Op W)} {s : Sys W} (h : exec debug mac accept remote power ops = some (.ok s))
    (hid : ((requests remote power ops).map (fun y => y.2.pkt)).Nodup) (f y : Nat × Entry W) (hf : f ∈ s.aired) (hy : y ∈ s.refused) :
    f.2.pkt ≠ y.2.pkt := by
  intro heq
  obtain ⟨z, hz, hz2⟩ := List.mem_map.mp (aired_accepted h hf)
  have hnd : ((s.accepted ++ s.refused).map (fun y => y.2.pkt)).Nodup := ((stamped_exec h).split.map _).nodup_iff.mpr hid
  rw [List.map_append, List.nodup_append] at hnd
  refine hnd.2.2 z.2.pkt (List.mem_map.mpr ⟨z, hz, rfl⟩) y.2.pkt (List.mem_map.mpr ⟨y, hy, rfl⟩) ?_
  rw [hz2, heq]

/-- Whatever happens before and after a `Send`, with any MAC: each time this packet goes on the air, it is addressed to the satellite tracked
at the moment of that `Send`, with the protocol number given and the power of that moment.  (Packets have different ids.) -/
theorem C35_fixed_at_send {before after : List (Op W)} {t pkt len : Nat} {proto : UInt16} {s : Sys W}
    (h : exec debug mac accept remote power (before ++ .send t pkt len proto :: after) = some (.ok s))
    (hid : ((requests remote power (before ++ .send t pkt len proto :: after)).map (fun y => y.2.pkt)).Nodup)
    (f : Nat × Entry W) (hf : f ∈ s.aired) (hp : f.2.pkt = pkt) :
    f.2.dst = trackedAfter remote before ∧ f.2.proto = proto ∧ f.2.power = powerAfter power before ∧ f.2.len = len := by
  obtain ⟨z, hz, hz2⟩ := List.mem_map.mp (aired_accepted h hf)
  have hz3 := (stamped_exec h).acc.subset hz
  have hme : (t, (⟨pkt, len, trackedAfter remote before, proto, powerAfter power before⟩ : Entry W)) ∈
      requests remote power (before ++ .send t pkt len proto :: after) := by
    rw [requests_append]
    simp [requests]
  have := List.inj_on_of_nodup_map hid hz3 hme (by rw [hz2]; exact hp)
  rw [← hz2, this]
  exact ⟨rfl, rfl, rfl, rfl⟩

/-- The tracked address is what the calls of `SetRemoteAddress` say, at every moment. -/
theorem C35_tracked {ops : List (Op W)} {s : Sys W} (h : exec debug mac accept remote power ops = some (.ok s)) :
    s.remote = trackedAfter remote ops ∧ s.power = powerAfter power ops := ⟨(stamped_exec h).tracked, (stamped_exec h).pow⟩

/-! ## Examples and the case of CRDSA -/

/-- The first three packets come at time 0 and 1, the fourth at 30, the tracked satellite changes at 2; the queue holds one packet. -/
def stationOps : List (Op Nat) :=
  [.send 0 1 8 7, .send 1 2 8 9, .send 1 3 8 9, .setRemote 2 (SatAddress.mk3 .little 1 2 3), .run, .run, .send 30 4 8 7, .run]

def oneSlot (q : List (Entry Nat)) (_ : Entry Nat) : Bool := decide (q.length < 1)

example : ∃ s, exec true noneMac oneSlot (SatAddress.mk3 .little 0 0 0) 5 stationOps = some (.ok s) ∧
    s.aired.map (fun f => (f.1, f.2.pkt, f.2.dst == SatAddress.mk3 .little 1 2 3)) = [(0, 1, false), (8, 2, false), (30, 4, true)] ∧
    s.refused.map (fun f => (f.1, f.2.pkt)) = [(1, 3)] ∧ s.events = [] := by
  refine ⟨_, rfl, ?_⟩; decide

example : ∃ s, exec true (alohaMac 20) oneSlot (SatAddress.mk3 .little 0 0 0) 5
      [.send 5 1 8 7, .send 6 2 8 9, .run, .setRemote 21 (SatAddress.mk3 .little 1 2 3), .run, .run, .run] = some (.ok s) ∧
    s.aired.map (fun f => (f.1, f.2.pkt)) = [(20, 1), (40, 2)] ∧ (s.aired.map (fun f => f.2.dst)) =
      [SatAddress.mk3 .little 0 0 0, SatAddress.mk3 .little 0 0 0] ∧ s.events = [] := by
  refine ⟨_, rfl, ?_⟩; decide

/-- Two replicas per packet in frames of four slots of ten ticks, always in the first two slots. -/
def twoReplicas : Mac :=
  ⟨false, fun _ t => [Crdsa.frameDelay t 10 4 + 0 * 10, Crdsa.frameDelay t 10 4 + 1 * 10]⟩

theorem twoReplicas_crdsa : IsCrdsa twoReplicas 10 4 (fun _ => [0, 1, 2, 3]) (fun _ => 2) :=
  ⟨rfl, fun _ => ⟨List.Perm.refl _, fun _ => rfl⟩⟩

/-- The claim of C34 for CRDSA: two transmissions never overlap. -/
def C34_crdsa_claim : Prop :=
  ∀ (slotDur slots : Nat) (shuffle : Nat → List Nat) (replicas : Nat → Nat) (mac : Mac), IsCrdsa mac slotDur slots shuffle replicas →
    ∀ (ops : List (Op Nat)) (s : Sys Nat),
      exec true mac (fun _ _ => true) (SatAddress.mk3 .little 0 0 0) 5 ops = some (.ok s) →
      (∀ f ∈ s.aired, f.2.len < slotDur) → s.aired.Pairwise (fun f g => f.1 + f.2.len ≤ g.1)

/-- Three packets at time 0, all events run until time 50. -/
def crdsaOps : List (Op Nat) :=
  [.send 0 1 8 7, .send 0 2 8 7, .send 0 3 8 7, .run, .run, .run, .run, .run, .run]

/-- It is false: when the first replica of packet 1 ends, packet 2 is handed over; when its second replica ends, packet 3 is, and packets 2
and 3 may pick the same slot of the next frame. -/
theorem C34_crdsa_overlap : ∃ s, exec true twoReplicas (fun _ _ => true) (SatAddress.mk3 .little 0 0 0) 5 crdsaOps = some (.ok s) ∧
    s.aired.map (fun f => (f.1, f.2.pkt)) = [(0, 1), (10, 1), (40, 2), (40, 3)] := by
  refine ⟨_, rfl, ?_⟩; decide

theorem C34_crdsa_claim_false : ¬ C34_crdsa_claim := by
  intro h
  have := h 10 4 (fun _ => [0, 1, 2, 3]) (fun _ => 2) twoReplicas twoReplicas_crdsa crdsaOps _ rfl
  revert this
  decide

/-- With the number of replicas set to 0 nothing is ever sent and the station stays busy: the packet is lost and those after it wait for
ever. -/
theorem C34_no_replica_blocks {slotDur slots : Nat} {shuffle : Nat → List Nat} (hm : IsCrdsa mac slotDur slots shuffle (fun _ => 0))
    {ops : List (Op W)} {s : Sys W} (h : exec debug mac accept remote power ops = some (.ok s)) :
    s.aired = [] ∧ s.events = [] ∧ s.handed.length ≤ 1 ∧ (s.accepted ≠ [] → s.busy = true) := by
  have hd : ∀ k t, mac.delays k t = [] := by
    intro k t
    have := (hm.2 k).2 t
    simpa [Crdsa.sendDelays, Crdsa.getSelectedSlots] using this.symm
  have := run_induction (P := fun _ (s : Sys W) => s.aired = [] ∧ s.events = [] ∧
      ((s.handed = [] ∧ s.accepted = [] ∧ s.busy = false ∧ s.queue = []) ∨ (s.handed.length = 1 ∧ s.busy = true)))
    (by simp [Sys.init]) ?_ h
  · obtain ⟨h1, h2, h3⟩ := this
    refine ⟨h1, h2, ?_, ?_⟩
    · rcases h3 with ⟨h3, -⟩ | ⟨h3, -⟩
      · simp [h3]
      · omega
    · intro ha
      rcases h3 with ⟨-, h3, -⟩ | ⟨-, h3⟩
      · exact absurd h3 ha
      · exact h3
  · intro ops o s s' _ hp hst
    obtain ⟨h1, h2, h3⟩ := hp
    cases o with
    | setRemote t a => obtain ⟨-, rfl⟩ := step_setRemote.mp hst; exact ⟨h1, h2, h3⟩
    | setPower t a => obtain ⟨-, rfl⟩ := step_setPower.mp hst; exact ⟨h1, h2, h3⟩
    | run => simp [GroundSta.step, h2] at hst
    | send t pkt len proto =>
      obtain ⟨-, hs⟩ := step_send.mp hst
      unfold send at hs
      simp only at hs
      split at hs
      · simp only [Outcome.ok.injEq] at hs; subst hs; exact ⟨h1, h2, h3⟩
      · rcases h3 with ⟨h3, h4, h5, h6⟩ | ⟨h3, h4⟩
        · rw [h5] at hs
          simp only [Bool.false_eq_true, if_false] at hs
          obtain ⟨x, rest, hq, rfl⟩ := transmitStart_eq hs
          simp [macSend, hm.1, h1, h2, hd, scheduleStarts, h3]
        · rw [h4] at hs
          simp only [if_true, Outcome.ok.injEq] at hs
          subst hs
          exact ⟨h1, h2, Or.inr ⟨h3, rfl⟩⟩

example : ∃ s, exec true ⟨false, fun _ _ => []⟩ (fun _ _ => true) (SatAddress.mk3 .little 0 0 0) 5 crdsaOps.dropLast = none ∧
    exec true ⟨false, fun _ _ => []⟩ (fun _ _ => true) (SatAddress.mk3 .little 0 0 0) 5
      [.send 0 1 8 7, .send 0 2 8 7] = some (.ok s) ∧ s.busy = true ∧ s.queue.length = 1 := by
  refine ⟨_, by decide, rfl, ?_⟩; decide

example : IsCrdsa ⟨false, fun _ _ => []⟩ 10 4 (fun _ => [0, 1, 2, 3]) (fun _ => 0) := ⟨rfl, fun _ => ⟨List.Perm.refl _, fun _ => rfl⟩⟩

example : ((requests (SatAddress.mk3 .little 0 0 0) 5 stationOps).map (fun y => y.2.pkt)).Nodup := by decide

end Icarus
