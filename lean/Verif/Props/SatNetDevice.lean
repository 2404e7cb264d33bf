import Verif.Model.SatDevices
import Verif.Lemmas.Machine
import Verif.Props.Fifo
import Mathlib.Data.List.Nodup

/-!
# Properties C39 and C40: the inter-satellite device
-/

set_option autoImplicit false

namespace Icarus
open SatNet

variable {debug : Bool} {accept : List Entry → Entry → Bool}

/-- Acceptance time and packet. -/
def arrival (y : Nat × Entry × Bool) : Nat × Entry := (y.1, y.2.1)

/-- Time and packet given to the channel. -/
def airing (f : Nat × Entry × UInt16) : Nat × Entry := (f.1, f.2.1)

/-- The protocol numbers the device really uses: a packet accepted while the device was transmitting (`true`) goes out with the number used for
the packet before it (`p` to begin with), the others with their own. -/
def usedProtos : UInt16 → List (Nat × Entry × Bool) → List UInt16
  | _, [] => []
  | p, (_, x, waited) :: r => (if waited then p else x.proto) :: usedProtos (if waited then p else x.proto) r

/-- The last one. -/
def lastProto : UInt16 → List (Nat × Entry × Bool) → UInt16
  | p, [] => p
  | p, (_, x, waited) :: r => lastProto (if waited then p else x.proto) r

theorem usedProtos_append (p : UInt16) (l m : List (Nat × Entry × Bool)) :
    usedProtos p (l ++ m) = usedProtos p l ++ usedProtos (lastProto p l) m := by
  induction l generalizing p with
  | nil => rfl
  | cons y l ih => obtain ⟨t, x, w⟩ := y; simp [usedProtos, lastProto, ih]

theorem lastProto_append (p : UInt16) (l m : List (Nat × Entry × Bool)) : lastProto p (l ++ m) = lastProto (lastProto p l) m := by
  induction l generalizing p with
  | nil => rfl
  | cons y l ih => obtain ⟨t, x, w⟩ := y; simp [lastProto, ih]

theorem usedProtos_length (p : UInt16) (l : List (Nat × Entry × Bool)) : (usedProtos p l).length = l.length := by
  induction l generalizing p with
  | nil => rfl
  | cons y l ih => obtain ⟨t, x, w⟩ := y; simp [usedProtos, ih]

/-- When the device is free after the packets `l`. -/
def freeAt (l : List (Nat × Entry × Bool)) : Nat := Fifo.freeAfter Entry.len (fun _ _ => 0) 0 0 (l.map arrival)

namespace SatNet
open Fifo

/-- `true` marks exactly packets that came before the device was free again (at the very moment both are possible). -/
def Marked (acc : List (Nat × Entry × Bool)) : Prop :=
  ∀ pre t x w post, acc = pre ++ (t, x, w) :: post → (w = true → t ≤ freeAt pre ∧ pre ≠ []) ∧ (w = false → freeAt pre ≤ t)

theorem Marked.snoc {acc : List (Nat × Entry × Bool)} (h : Marked acc) {t : Nat} {x : Entry} {w : Bool}
    (h1 : w = true → t ≤ freeAt acc ∧ acc ≠ []) (h2 : w = false → freeAt acc ≤ t) : Marked (acc ++ [(t, x, w)]) := by
  intro pre t' x' w' post heq
  rcases List.eq_nil_or_concat post with rfl | ⟨post', y, rfl⟩
  · have h3 := List.append_inj' heq rfl
    obtain ⟨rfl, h4⟩ := h3
    simp only [List.cons.injEq, Prod.mk.injEq, and_true] at h4
    obtain ⟨rfl, rfl, rfl⟩ := h4
    exact ⟨h1, h2⟩
  · rw [List.concat_eq_append] at heq
    have h3 : acc ++ [(t, x, w)] = (pre ++ (t', x', w') :: post') ++ [y] := by simp [heq]
    have h4 := List.append_inj' h3 rfl
    exact h pre t' x' w' post' h4.1

inductive Phase (s : Sys) : Prop where
  | idle (busy : s.busy = false) (queue : s.queue = []) (events : s.events = [])
      (aired : s.aired.map airing = serve Entry.len (fun _ _ => 0) 0 0 (s.accepted.map arrival))
      (protos : s.aired.map (fun f => f.2.2) = usedProtos 0 s.accepted)
      (marked : Marked s.accepted)
      (free : freeAt s.accepted ≤ s.clock)
  | onAir (done w : List (Nat × Entry × Bool)) (busy : s.busy = true) (acc : s.accepted = done ++ w)
      (queue : s.queue = w.map (fun y => y.2.1)) (waited : ∀ y ∈ w, y.2.2 = true)
      (aired : s.aired.map airing = serve Entry.len (fun _ _ => 0) 0 0 (done.map arrival))
      (protos : s.aired.map (fun f => f.2.2) = usedProtos 0 done) (marked : Marked s.accepted) (ne : done ≠ [])
      (events : s.events = [(freeAt done, lastProto 0 done)])
      (clock : s.clock ≤ freeAt done)
      (arrived : ∀ y ∈ w, y.1 ≤ s.clock)

/-- The device takes up packet `x`, accepted at `a`. -/
theorem Phase.start {s : Sys} {done w : List (Nat × Entry × Bool)} {a : Nat} {x : Entry} {wd : Bool} {p : UInt16}
    (hb : s.busy = false) (hev : s.events = []) (hacc : s.accepted = done ++ (a, x, wd) :: w) (hq : s.queue = w.map (fun y => y.2.1))
    (hw : ∀ y ∈ w, y.2.2 = true) (ha : s.aired.map airing = serve Entry.len (fun _ _ => 0) 0 0 (done.map arrival))
    (hpr : s.aired.map (fun f => f.2.2) = usedProtos 0 done) (hmk : Marked s.accepted)
    (hp : p = if wd then lastProto 0 done else x.proto)
    (hnow : s.clock = max a (freeAt done)) (harr : ∀ y ∈ w, y.1 ≤ s.clock) :
    ∃ s', transmitStart debug s s.clock x p = .ok s' ∧ Phase s' := by
  have hserve : (s.aired ++ [(s.clock, x, p)]).map airing =
      serve Entry.len (fun _ _ => 0) 0 0 ((done ++ [(a, x, wd)]).map arrival) := by
    rw [List.map_append, List.map_append, serve_append, ha]
    simp [serve, hnow, arrival, airing, freeAt]
  have hfree : freeAt (done ++ [(a, x, wd)]) = s.clock + x.len := by
    unfold freeAt
    rw [List.map_append, freeAfter_append]
    simp [freeAfter, hnow, arrival, freeAt]
  have hlp : lastProto 0 (done ++ [(a, x, wd)]) = p := by rw [lastProto_append, hp]; rfl
  refine ⟨{ s with busy := true, aired := s.aired ++ [(s.clock, x, p)], events := [(s.clock + x.len, p)] }, ?_, ?_⟩
  · simp [transmitStart, hb, hev, insertEvent]
  · refine Phase.onAir (done ++ [(a, x, wd)]) w rfl ?_ hq hw hserve ?_ hmk (by simp) ?_ ?_ harr
    · simp [hacc]
    · rw [usedProtos_append, List.map_append, hpr]; simp [usedProtos, hp]
    · rw [hfree, hlp]
    · rw [hfree]; simp

theorem Phase.clock {s : Sys} (h : Phase s) {t : Nat} (hp : possible s t) : Phase ({ s with clock := t } : Sys) := by
  obtain ⟨hp1, hp2⟩ := hp
  cases h with
  | idle h1 h2 h3 h4 h5 h6 h7 => exact .idle h1 h2 h3 h4 h5 h6 (Nat.le_trans h7 hp1)
  | onAir done w h1 h2 h3 h4 h5 h6 h7 h8 h9 h10 h11 =>
    refine .onAir done w h1 h2 h3 h4 h5 h6 h7 h8 h9 ?_ (fun y hy => Nat.le_trans (h11 y hy) hp1)
    exact hp2 _ (by rw [h9]; exact List.mem_singleton_self _)

theorem freeAfter_mono_ge (k free : Nat) (l : List (Nat × Entry)) :
    free ≤ freeAfter Entry.len (fun _ _ => 0) k free l := by
  induction l generalizing k free with
  | nil => exact Nat.le_refl _
  | cons y l ih =>
    obtain ⟨a, x⟩ := y
    simp only [freeAfter]
    have := ih (k + 1) (max a free + 0 + x.len)
    have := Nat.le_max_right a free
    omega

theorem Phase.step {s : Sys} (h : Phase s) {o : Op} {r : Outcome Sys}
    (hs : SatNet.step debug accept s o = some r) : ∃ s', r = .ok s' ∧ Phase s' := by
  cases o with
  | send t pkt len proto =>
    simp only [SatNet.step] at hs
    split at hs
    · rename_i hp
      simp only [Option.some.injEq] at hs
      subst hs
      have hk := h.clock hp
      unfold send
      simp only
      split
      · refine ⟨_, rfl, ?_⟩
        cases hk with
        | idle h1 h2 h3 h4 h5 h6 h7 => exact .idle h1 h2 h3 h4 h5 h6 h7
        | onAir done w h1 h2 h3 h4 h5 h6 h7 h8 h9 h10 h11 => exact .onAir done w h1 h2 h3 h4 h5 h6 h7 h8 h9 h10 h11
      · cases hk with
        | idle h1 h2 h3 h4 h5 h6 h7 =>
          simp only at h1 h2 h3 h4 h5 h6 h7
          simp only [h1, h2, List.nil_append]
          obtain ⟨s', hs', hph⟩ := Phase.start (debug := debug)
            (s := { s with clock := t, busy := false, queue := [], accepted := s.accepted ++ [(t, ⟨pkt, len, proto⟩, false)] })
            (done := s.accepted) (w := []) (a := t) (x := ⟨pkt, len, proto⟩) (wd := false) (p := proto)
            rfl h3 rfl (by simp) (by simp) h4 h5 (h6.snoc (by simp) (fun _ => h7)) (by simp) (by simp only; omega) (by simp)
          exact ⟨s', by simpa using hs', hph⟩
        | onAir done w h1 h2 h3 h4 h5 h6 h7 h8 h9 h10 h11 =>
          simp only at h1 h2 h3 h4 h5 h6 h7 h8 h9 h10 h11
          simp only [h1, if_true]
          refine ⟨_, rfl, .onAir done (w ++ [(t, ⟨pkt, len, proto⟩, true)]) rfl ?_ ?_ ?_ h5 h6 ?_ h8 h9 h10 ?_⟩
          · simp [h2]
          · simp [h3]
          · intro y hy
            simp only [List.mem_append, List.mem_singleton] at hy
            rcases hy with hy | rfl
            · exact h4 y hy
            · rfl
          · refine h7.snoc (fun _ => ⟨?_, ?_⟩) (by simp)
            · refine Nat.le_trans h10 ?_
              rw [h2]
              unfold freeAt
              rw [List.map_append, freeAfter_append]
              exact freeAfter_mono_ge _ _ _
            · rw [h2]; simp [h8]
          · intro y hy
            simp only [List.mem_append, List.mem_singleton] at hy
            rcases hy with hy | rfl
            · exact h11 y hy
            · exact Nat.le_refl _
    · simp at hs
  | run =>
    simp only [SatNet.step] at hs
    cases h with
    | idle h1 h2 h3 h4 h5 h6 h7 => rw [h3] at hs; simp at hs
    | onAir done w h1 h2 h3 h4 h5 h6 h7 h8 h9 h10 h11 =>
      rw [h9] at hs
      simp only [Option.some.injEq] at hs
      subst hs
      unfold transmitComplete
      simp only
      cases w with
      | nil =>
        simp only [List.map_nil] at h3
        simp only [h3]
        refine ⟨_, rfl, .idle rfl rfl rfl ?_ ?_ h7 ?_⟩
        · simp only; rw [h2, List.append_nil]; exact h5
        · simp only; rw [h2, List.append_nil]; exact h6
        · simp only; rw [h2, List.append_nil]
      | cons y w =>
        obtain ⟨a, z, wd⟩ := y
        have hwd : wd = true := h4 (a, z, wd) (by simp)
        subst hwd
        simp only [List.map_cons] at h3
        simp only [h3]
        have hle := h11 (a, z, true) (by simp)
        simp only at hle
        obtain ⟨s', hs', hph⟩ := Phase.start (debug := debug)
            (s := { s with clock := freeAt done, events := [], busy := false, queue := w.map (fun y => y.2.1) })
            (done := done) (w := w) (a := a) (x := z) (wd := true) (p := lastProto 0 done)
            rfl rfl h2 rfl (fun y hy => h4 y (by simp [hy])) h5 h6 h7 (by simp) (by simp only; omega)
            (by intro y hy; have := h11 y (by simp [hy]); simp only; omega)
        exact ⟨s', by simpa using hs', hph⟩

theorem phase_exec {ops : List Op} {s : Sys} (h : exec debug accept ops = some (.ok s)) : Phase s := by
  refine run_induction (P := fun _ s => Phase s) (.idle rfl rfl rfl rfl rfl ?_ (Nat.le_refl _)) ?_ h
  · intro pre t x w post heq
    simp [Sys.init] at heq
  · intro ops o s s' _ hp hst
    obtain ⟨s2, h1, h2⟩ := hp.step hst
    simp only [Outcome.ok.injEq] at h1
    subst h1; exact h2

end SatNet

/-! ## C39 -/

/-- The device never misbehaves; the packets handed to the channel, with their times, are a prefix - and, when nothing is left to happen,
the whole - of what a first-in first-out sender does with the accepted packets.  While packets wait something is left to happen. -/
theorem C39_refines {ops : List Op} {r : Outcome Sys} (h : SatNet.exec debug accept ops = some r) :
    ∃ s, r = .ok s ∧ s.aired.map airing <+: Fifo.serve Entry.len (fun _ _ => 0) 0 0 (s.accepted.map arrival) ∧
      (s.events = [] → s.aired.map airing = Fifo.serve Entry.len (fun _ _ => 0) 0 0 (s.accepted.map arrival)) ∧
      (s.queue ≠ [] → s.events ≠ []) := by
  obtain ⟨s, hs⟩ := run_no_fault (fun ops o s r hr hst => by
    obtain ⟨s', h1, -⟩ := (phase_exec hr).step hst
    exact ⟨s', h1⟩) h
  subst hs
  refine ⟨s, rfl, ?_⟩
  cases phase_exec h with
  | idle h1 h2 h3 h4 h5 h6 h7 => exact ⟨by rw [h4]; exact List.prefix_refl _, fun _ => h4, fun hq => absurd h2 hq⟩
  | onAir done w h1 h2 h3 h4 h5 h6 h7 h8 h9 h10 h11 =>
    exact ⟨by rw [h5, h2, List.map_append]; exact Fifo.serve_prefix _ _ _ _, fun he => by simp [h9] at he, fun _ => by simp [h9]⟩

/-- In plain terms: once each, in order of acceptance, no overlap, none before its acceptance. -/
theorem C39_once_in_order {ops : List Op} {s : Sys} (h : SatNet.exec debug accept ops = some (.ok s)) :
    s.aired.map (fun f => f.2.1) <+: s.accepted.map (fun y => y.2.1) ∧
    (s.events = [] → s.aired.map (fun f => f.2.1) = s.accepted.map (fun y => y.2.1)) ∧
    s.aired.Pairwise (fun f g => f.1 + f.2.1.len ≤ g.1) ∧
    (∀ (i : Nat) f y, s.aired[i]? = some f → s.accepted[i]? = some y → y.1 ≤ f.1) := by
  obtain ⟨s', hs, h1, h2, -⟩ := C39_refines h
  simp only [Outcome.ok.injEq] at hs
  subst hs
  have e1 : (s.aired.map airing).map Prod.snd = s.aired.map (fun f => f.2.1) := by simp [airing, Function.comp_def]
  have e2 : (s.accepted.map arrival).map Prod.snd = s.accepted.map (fun y => y.2.1) := by simp [arrival, Function.comp_def]
  refine ⟨?_, ?_, ?_, ?_⟩
  · have := h1.map Prod.snd
    rwa [Fifo.serve_packets, e1, e2] at this
  · intro he
    rw [← e1, ← e2, h2 he, Fifo.serve_packets]
  · have := (Fifo.serve_disjoint (len := Entry.len) (wait := fun _ _ => 0) 0 0 (s.accepted.map arrival)).sublist h1.sublist
    rw [List.pairwise_map] at this
    exact this
  · intro i f y hf hy
    obtain ⟨r, hr⟩ := h1
    have hlt : i < (s.aired.map airing).length := by
      by_contra hge
      rw [List.length_map] at hge
      simp [List.getElem?_eq_none (by omega : s.aired.length ≤ i)] at hf
    have h3 : (Fifo.serve Entry.len (fun _ _ => 0) 0 0 (s.accepted.map arrival))[i]? = some (airing f) := by
      rw [← hr, List.getElem?_append_left hlt, List.getElem?_map, hf]; rfl
    have h4 : (s.accepted.map arrival)[i]? = some (arrival y) := by rw [List.getElem?_map, hy]; rfl
    exact (Fifo.serve_causal 0 0 _ i _ _ h4 h3).1

/-- The packets given to `Send`, with the time. -/
def isends : List Op → List (Nat × Entry)
  | [] => []
  | .send t pkt len proto :: os => (t, ⟨pkt, len, proto⟩) :: isends os
  | .run :: os => isends os

theorem isends_append (l m : List Op) : isends (l ++ m) = isends l ++ isends m := by
  induction l with
  | nil => rfl
  | cons o l ih => cases o <;> simp [isends, ih]

/-- Every packet given to `Send` is either accepted or reported dropped; the accepted ones in the order of the calls. -/
theorem C39_accepted_or_dropped {ops : List Op} {s : Sys} (h : SatNet.exec debug accept ops = some (.ok s)) :
    (s.accepted.map arrival ++ s.refused).Perm (isends ops) ∧ (s.accepted.map arrival).Sublist (isends ops) := by
  refine run_induction (P := fun ops (s : Sys) => (s.accepted.map arrival ++ s.refused).Perm (isends ops) ∧
      (s.accepted.map arrival).Sublist (isends ops)) ⟨by simp [Sys.init, isends], by simp [Sys.init]⟩ ?_ h
  intro ops o s s' _ hp hst
  obtain ⟨h2, h3⟩ := hp
  have hts : ∀ {s s' : Sys} {t x p}, SatNet.transmitStart debug s t x p = .ok s' → s'.accepted = s.accepted ∧ s'.refused = s.refused := by
    intro s s' t x p h
    unfold SatNet.transmitStart at h
    rw [Outcome.bind_eq_ok] at h
    obtain ⟨_, -, h⟩ := h
    simp only [Outcome.ok.injEq] at h
    subst h; simp
  cases o with
  | run =>
    have hk : s'.accepted = s.accepted ∧ s'.refused = s.refused := by
      simp only [SatNet.step] at hst
      split at hst
      · simp at hst
      · simp only [Option.some.injEq] at hst
        unfold SatNet.transmitComplete at hst
        simp only at hst
        split at hst
        · simp only [Outcome.ok.injEq] at hst; subst hst; simp
        · have := hts hst
          exact ⟨this.1, this.2⟩
    obtain ⟨k2, k3⟩ := hk
    exact ⟨by simpa [isends_append, isends, k2, k3] using h2, by simpa [isends_append, isends, k2] using h3⟩
  | send t pkt len proto =>
    simp only [SatNet.step] at hst
    split at hst
    · simp only [Option.some.injEq] at hst
      have hk : ((s'.accepted = s.accepted ++ [(t, ⟨pkt, len, proto⟩, s.busy)] ∧ s'.refused = s.refused) ∨
          (s'.accepted = s.accepted ∧ s'.refused = s.refused ++ [(t, ⟨pkt, len, proto⟩)])) := by
        unfold SatNet.send at hst
        simp only at hst
        split at hst
        · simp only [Outcome.ok.injEq] at hst; subst hst; simp
        · split at hst
          · simp only [Outcome.ok.injEq] at hst; subst hst; simp
          · split at hst
            · simp only [Outcome.ok.injEq] at hst; subst hst; simp
            · have := hts hst
              exact Or.inl ⟨this.1, this.2⟩
      refine ⟨?_, ?_⟩
      · rcases hk with ⟨ha, hr⟩ | ⟨ha, hr⟩
        · rw [ha, hr]
          simp only [isends_append, isends, List.map_append, List.map_cons, List.map_nil, List.append_assoc, List.cons_append,
            List.nil_append]
          exact List.perm_middle.trans ((List.Perm.cons _ h2).trans (List.perm_append_singleton _ _).symm)
        · rw [ha, hr]
          simp only [isends_append, isends, ← List.append_assoc]
          exact h2.append_right _
      · rcases hk with ⟨ha, hr⟩ | ⟨ha, hr⟩
        · rw [ha]
          simp only [isends_append, isends, List.map_append]
          exact h3.append (List.Sublist.refl _)
        · rw [ha]
          simp only [isends_append]
          exact h3.trans (List.sublist_append_left _ _)
    · simp at hst

/-- A packet reported dropped is never handed to the channel (packets have different ids). -/
theorem C39_dropped_never_sent {ops : List Op} {s : Sys} (h : SatNet.exec debug accept ops = some (.ok s))
    (hid : ((isends ops).map (fun y => y.2.pkt)).Nodup) : ∀ f ∈ s.aired, ∀ y ∈ s.refused, f.2.1.pkt ≠ y.2.pkt := by
  intro f hf y hy heq
  have hin := (C39_once_in_order h).1.subset (List.mem_map.mpr ⟨f, hf, rfl⟩)
  obtain ⟨z, hz, hz2⟩ := List.mem_map.mp hin
  have hnd : ((s.accepted.map arrival ++ s.refused).map (fun y => y.2.pkt)).Nodup :=
    ((C39_accepted_or_dropped h).1.map _).nodup_iff.mpr hid
  rw [List.map_append, List.nodup_append] at hnd
  refine hnd.2.2 z.2.1.pkt (List.mem_map.mpr ⟨arrival z, List.mem_map.mpr ⟨z, hz, rfl⟩, rfl⟩) y.2.pkt
    (List.mem_map.mpr ⟨y, hy, rfl⟩) ?_
  rw [hz2]; exact heq

/-! ## C40 -/

/-- The claim: every packet goes out with the protocol number it was sent with. -/
def C40_claim : Prop :=
  ∀ (accept : List Entry → Entry → Bool) (ops : List Op) (s : Sys), SatNet.exec true accept ops = some (.ok s) →
    ∀ f ∈ s.aired, f.2.2 = f.2.1.proto

/-- Two packets with different protocol numbers, the second one sent while the first is on the air. -/
theorem C40_wrong_number : ∃ s, SatNet.exec true (fun _ _ => true) [.send 0 1 10 7, .send 5 2 10 9, .run] = some (.ok s) ∧
    s.aired.map (fun f => (f.2.1.pkt, f.2.1.proto, f.2.2)) = [(1, 7, 7), (2, 9, 7)] := by
  refine ⟨_, rfl, ?_⟩; decide

theorem C40_claim_false : ¬ C40_claim := by
  intro h
  obtain ⟨s, hs, ha⟩ := C40_wrong_number
  have := h _ _ s hs
  cases hl : s.aired with
  | nil => simp [hl] at ha
  | cons a l =>
    cases l with
    | nil => simp [hl] at ha
    | cons b l =>
      rw [hl] at ha
      simp only [List.map_cons, List.cons.injEq, Prod.mk.injEq] at ha
      have hb := this b (by simp [hl])
      rw [ha.2.1.2.1, ha.2.1.2.2] at hb
      exact absurd hb (by decide)

/-- What the device does, exactly: the numbers used are a prefix of `usedProtos` of the accepted packets.  The marks say which packets were
accepted while the device was still transmitting. -/
theorem C40_numbers_used {ops : List Op} {s : Sys} (h : SatNet.exec debug accept ops = some (.ok s)) :
    s.aired.map (fun f => f.2.2) <+: usedProtos 0 s.accepted ∧
    (∀ pre t x w post, s.accepted = pre ++ (t, x, w) :: post →
      (w = true → t ≤ freeAt pre ∧ pre ≠ []) ∧ (w = false → freeAt pre ≤ t)) := by
  cases phase_exec h with
  | idle h1 h2 h3 h4 h5 h6 h7 => exact ⟨by rw [h5]; exact List.prefix_refl _, h6⟩
  | onAir done w h1 h2 h3 h4 h5 h6 h7 h8 h9 h10 h11 =>
    exact ⟨by rw [h6, h2, usedProtos_append]; exact List.prefix_append _ _, h7⟩

/-- Missing for the full claim: packets that had to wait and have another protocol number than the packets around them.  If all packets of a
run carry the same protocol number (as when NDN is the only user of the device), every packet goes out with its own number. -/
theorem C40_same_protocol_partial {ops : List Op} {s : Sys} (h : SatNet.exec debug accept ops = some (.ok s)) (q : UInt16)
    (hq : ∀ y ∈ isends ops, y.2.proto = q) : ∀ f ∈ s.aired, f.2.2 = f.2.1.proto := by
  have hacc : ∀ y ∈ s.accepted, y.2.1.proto = q := fun y hy =>
    hq (arrival y) ((C39_accepted_or_dropped h).2.subset (List.mem_map.mpr ⟨y, hy, rfl⟩))
  have hair : ∀ f ∈ s.aired, f.2.1.proto = q := by
    intro f hf
    obtain ⟨z, hz, hz2⟩ := List.mem_map.mp ((C39_once_in_order h).1.subset (List.mem_map.mpr ⟨f, hf, rfl⟩))
    rw [← hz2]; exact hacc z hz
  have h1 := (C40_numbers_used h).1
  have h2 : ∀ u ∈ usedProtos 0 s.accepted, u = q := by
    have hnw : ∀ l : List (Nat × Entry × Bool), ∀ p, (∀ y ∈ l, y.2.1.proto = q) → p = q → ∀ u ∈ usedProtos p l, u = q := by
      intro l
      induction l with
      | nil => intro p _ _ u hu; simp [usedProtos] at hu
      | cons y l ih =>
        obtain ⟨t, x, w⟩ := y
        intro p hl hp u hu
        have hx : x.proto = q := hl (t, x, w) (by simp)
        have hc : (if w = true then p else x.proto) = q := by split <;> assumption
        simp only [usedProtos, hc, List.mem_cons] at hu
        rcases hu with rfl | hu
        · rfl
        · exact ih q (fun y hy => hl y (by simp [hy])) rfl u hu
    cases hs : s.accepted with
    | nil => intro u hu; simp [usedProtos] at hu
    | cons y l =>
      obtain ⟨t, x, w⟩ := y
      have hx : x.proto = q := hacc (t, x, w) (by simp [hs])
      have hw : w = false := by
        cases w with
        | false => rfl
        | true => exact absurd rfl ((((C40_numbers_used h).2 [] t x true l (by simpa using hs)).1 rfl).2)
      subst hw
      intro u hu
      simp only [usedProtos, Bool.false_eq_true, if_false, List.mem_cons, hx] at hu
      rcases hu with rfl | hu
      · rfl
      · exact hnw l q (fun y hy => hacc y (by simp [hs, hy])) rfl u hu
  intro f hf
  rw [hair f hf]
  exact h2 _ (h1.subset (List.mem_map.mpr ⟨f, hf, rfl⟩))

/-- And a packet accepted while the device was not transmitting always goes out with its own number. -/
theorem C40_not_waiting_partial {ops : List Op} {s : Sys} (h : SatNet.exec debug accept ops = some (.ok s)) (i : Nat)
    (f : Nat × Entry × UInt16) (t : Nat) (x : Entry) (hf : s.aired[i]? = some f) (hy : s.accepted[i]? = some (t, x, false)) :
    f.2.1 = x ∧ f.2.2 = x.proto := by
  have key : ∀ (l : List (Nat × Entry × Bool)) (p : UInt16) (i : Nat), l[i]? = some (t, x, false) → (usedProtos p l)[i]? = some x.proto := by
    intro l
    induction l with
    | nil => intro p i hi; simp at hi
    | cons y l ih =>
      obtain ⟨t', x', w⟩ := y
      intro p i hi
      cases i with
      | zero =>
        simp only [List.getElem?_cons_zero, Option.some.injEq, Prod.mk.injEq] at hi
        obtain ⟨-, rfl, rfl⟩ := hi
        simp [usedProtos]
      | succ i =>
        simp only [List.getElem?_cons_succ] at hi
        simp only [usedProtos, List.getElem?_cons_succ]
        exact ih _ i hi
  have hlt : i < s.aired.length := by
    by_contra hge
    simp [List.getElem?_eq_none (by omega : s.aired.length ≤ i)] at hf
  constructor
  · obtain ⟨r, hr⟩ := (C39_once_in_order h).1
    have h2 : (s.accepted.map (fun y => y.2.1))[i]? = some x := by rw [List.getElem?_map, hy]; rfl
    rw [← hr, List.getElem?_append_left (by simpa using hlt), List.getElem?_map, hf] at h2
    simpa using h2
  · obtain ⟨r, hr⟩ := (C40_numbers_used h).1
    have h2 := key s.accepted 0 i hy
    rw [← hr, List.getElem?_append_left (by simpa using hlt), List.getElem?_map, hf] at h2
    simpa using h2

example : ∃ s, SatNet.exec true (fun q _ => decide (q.length < 1))
      [.send 0 1 10 7, .send 5 2 10 7, .send 6 3 10 7, .run, .run, .send 50 4 3 9, .run] = some (.ok s) ∧
    s.aired.map (fun f => (f.1, f.2.1.pkt, f.2.2)) = [(0, 1, 7), (10, 2, 7), (50, 4, 9)] ∧ s.refused.map (fun f => f.2.pkt) = [3] := by
  refine ⟨_, rfl, ?_⟩; decide

/-! ## Receiving -/

/-- What the other end should pass up. -/
def arrivals : List RxOp → List (Nat × Nat × UInt16)
  | [] => []
  | .arrive t pkt len proto :: os => (t + len, pkt, proto) :: arrivals os
  | .run :: os => arrivals os

theorem arrivals_append (l m : List RxOp) : arrivals (l ++ m) = arrivals l ++ arrivals m := by
  induction l with
  | nil => rfl
  | cons o l ih => cases o <;> simp [arrivals, ih]

/-- Every frame that reaches the device is passed up exactly once, at the end of its transmission, with the protocol number it came with. -/
theorem C40_reception {ops : List RxOp} {r : Outcome RxSys} (h : rxExec ops = some r) :
    ∃ s, r = .ok s ∧ (s.delivered ++ s.pending).Perm (arrivals ops) ∧ (s.pending = [] → s.delivered.Perm (arrivals ops)) := by
  obtain ⟨s, rfl⟩ := run_no_fault (fun ops o s r _ hst => by
    cases o with
    | arrive t pkt len proto =>
      simp only [rxStep] at hst
      split at hst
      · simp only [Option.some.injEq] at hst; exact ⟨_, hst.symm⟩
      · simp at hst
    | run =>
      simp only [rxStep] at hst
      split at hst
      · simp at hst
      · simp only [Option.some.injEq] at hst; exact ⟨_, hst.symm⟩) h
  have hperm : (s.delivered ++ s.pending).Perm (arrivals ops) := by
    refine run_induction (P := fun ops (s : RxSys) => (s.delivered ++ s.pending).Perm (arrivals ops)) (by simp [arrivals]) ?_ h
    intro ops o s s' _ hp hst
    cases o with
    | arrive t pkt len proto =>
      simp only [rxStep] at hst
      split at hst
      · simp only [Option.some.injEq, Outcome.ok.injEq] at hst
        subst hst
        rw [arrivals_append]
        refine (List.Perm.append_left _ (insertEvent_perm _ _ _)).trans ?_
        exact List.perm_middle.trans ((List.Perm.cons _ hp).trans (List.perm_append_singleton _ _).symm)
      · simp at hst
    | run =>
      simp only [rxStep] at hst
      split at hst
      · simp at hst
      · rename_i t u es hpd
        simp only [Option.some.injEq, Outcome.ok.injEq] at hst
        subst hst
        rw [hpd] at hp
        simpa [arrivals_append, arrivals] using hp
  refine ⟨s, rfl, hperm, fun hp => ?_⟩
  rwa [hp, List.append_nil] at hperm

example : ∃ s, rxExec [.arrive 0 1 10 7, .arrive 5 2 3 9, .run, .run] = some (.ok s) ∧ s.delivered = [(8, 2, 9), (10, 1, 7)] := by
  refine ⟨_, rfl, ?_⟩; decide

end Icarus
