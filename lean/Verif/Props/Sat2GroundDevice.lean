import Verif.Model.SatDevices
import Verif.Lemmas.Machine
import Verif.Props.Fifo
import Mathlib.Data.List.Nodup

/-!
# Property C38: the satellite's ground-facing device
-/

set_option autoImplicit false

namespace Icarus
open Sat2Ground

variable {W : Type} {debug : Bool} {accept : List (Entry W) → Entry W → Bool} {power : W}

namespace Sat2Ground
open Fifo

/-- The two situations of the device. -/
inductive Phase (s : Sys W) : Prop where
  | idle (busy : s.busy = false) (queue : s.queue = []) (events : s.events = [])
      (aired : s.aired = serve Entry.len (fun _ _ => 0) 0 0 s.accepted)
      (free : freeAfter Entry.len (fun _ _ => 0) 0 0 s.accepted ≤ s.clock)
  | onAir (done w : List (Nat × Entry W)) (x : Entry W) (busy : s.busy = true) (acc : s.accepted = done ++ w)
      (queue : s.queue = w.map Prod.snd) (aired : s.aired = serve Entry.len (fun _ _ => 0) 0 0 done)
      (events : s.events = [(freeAfter Entry.len (fun _ _ => 0) 0 0 done, x)])
      (clock : s.clock ≤ freeAfter Entry.len (fun _ _ => 0) 0 0 done)
      (arrived : ∀ y ∈ w, y.1 ≤ s.clock)

theorem Phase.start {s : Sys W} {done w : List (Nat × Entry W)} {a : Nat} {x : Entry W}
    (hb : s.busy = true) (hev : s.events = []) (hacc : s.accepted = done ++ (a, x) :: w) (hq : s.queue = x :: w.map Prod.snd)
    (ha : s.aired = serve Entry.len (fun _ _ => 0) 0 0 done)
    (hnow : s.clock = max a (freeAfter Entry.len (fun _ _ => 0) 0 0 done)) (harr : ∀ y ∈ w, y.1 ≤ s.clock) :
    ∃ s', transmitStart debug s s.clock = .ok s' ∧ Phase s' := by
  have hserve : s.aired ++ [(s.clock, x)] = serve Entry.len (fun _ _ => 0) 0 0 (done ++ [(a, x)]) := by
    rw [serve_append, ha]; simp [serve, hnow]
  have hfree : freeAfter Entry.len (fun _ _ => 0) 0 0 (done ++ [(a, x)]) = s.clock + x.len := by
    rw [freeAfter_append]; simp [freeAfter, hnow]
  refine ⟨{ s with queue := w.map Prod.snd, aired := s.aired ++ [(s.clock, x)], events := [(s.clock + x.len, x)] }, ?_, ?_⟩
  · simp [transmitStart, hb, hq, hev, insertEvent]
  · refine Phase.onAir (done ++ [(a, x)]) w x hb ?_ rfl ?_ ?_ ?_ harr
    · simp [hacc]
    · rw [← hserve]
    · rw [hfree]
    · rw [hfree]; simp

theorem Phase.step {s : Sys W} (h : Phase s) {o : Op W} {r : Outcome (Sys W)}
    (hs : Sat2Ground.step debug accept s o = some r) : ∃ s', r = .ok s' ∧ Phase s' := by
  have key : ∀ t pw, possible s t → Phase ({ s with clock := t, power := pw } : Sys W) := by
    intro t pw hp
    obtain ⟨hp1, hp2⟩ := hp
    cases h with
    | idle h1 h2 h3 h4 h5 => exact .idle h1 h2 h3 h4 (Nat.le_trans h5 hp1)
    | onAir done w x h1 h2 h3 h4 h5 h6 h7 =>
      refine .onAir done w x h1 h2 h3 h4 h5 ?_ (fun y hy => Nat.le_trans (h7 y hy) hp1)
      exact hp2 _ (by rw [h5]; exact List.mem_singleton_self _)
  cases o with
  | setPower t w =>
    simp only [Sat2Ground.step] at hs
    split at hs
    · rename_i hp
      simp only [Option.some.injEq] at hs
      exact ⟨_, hs.symm, key t w hp⟩
    · simp at hs
  | send t pkt len proto =>
    simp only [Sat2Ground.step] at hs
    split at hs
    · rename_i hp
      simp only [Option.some.injEq] at hs
      subst hs
      have hk := key t s.power hp
      unfold send
      simp only
      split
      · refine ⟨_, rfl, ?_⟩
        cases hk with
        | idle h1 h2 h3 h4 h5 => exact .idle h1 h2 h3 h4 h5
        | onAir done w x h1 h2 h3 h4 h5 h6 h7 => exact .onAir done w x h1 h2 h3 h4 h5 h6 h7
      · cases hk with
        | idle h1 h2 h3 h4 h5 =>
          simp only at h1 h2 h3 h4 h5
          simp only [h1]
          obtain ⟨s', hs', hph⟩ := Phase.start (debug := debug)
            (s := { s with clock := t, busy := true, queue := s.queue ++ [⟨pkt, len, proto, s.power⟩],
                           accepted := s.accepted ++ [(t, ⟨pkt, len, proto, s.power⟩)] })
            (done := s.accepted) (w := []) (a := t) (x := ⟨pkt, len, proto, s.power⟩)
            rfl h3 rfl (by simp [h2]) h4 (by simp only; omega) (by simp)
          exact ⟨s', by simpa using hs', hph⟩
        | onAir done w x h1 h2 h3 h4 h5 h6 h7 =>
          simp only at h1 h2 h3 h4 h5 h6 h7
          simp only [h1, if_true]
          refine ⟨_, rfl, .onAir done (w ++ [(t, ⟨pkt, len, proto, s.power⟩)]) x rfl ?_ ?_ h4 h5 h6 ?_⟩
          · simp [h2]
          · simp [h3]
          · intro y hy
            simp only [List.mem_append, List.mem_singleton] at hy
            rcases hy with hy | rfl
            · exact h7 y hy
            · exact Nat.le_refl _
    · simp at hs
  | run =>
    simp only [Sat2Ground.step] at hs
    cases h with
    | idle h1 h2 h3 h4 h5 => rw [h3] at hs; simp at hs
    | onAir done w x h1 h2 h3 h4 h5 h6 h7 =>
      rw [h5] at hs
      simp only [Option.some.injEq] at hs
      subst hs
      unfold transmitComplete
      simp only
      cases w with
      | nil =>
        simp only [List.map_nil] at h3
        simp only [h3, List.isEmpty_nil, if_true]
        refine ⟨_, rfl, .idle rfl rfl rfl ?_ ?_⟩
        · simp only; rw [h2, List.append_nil]; exact h4
        · simp only; rw [h2, List.append_nil]
      | cons y w =>
        obtain ⟨a, z⟩ := y
        simp only [List.map_cons] at h3
        simp only [h3, List.isEmpty_cons]
        have hle := h7 (a, z) (by simp)
        simp only at hle
        obtain ⟨s', hs', hph⟩ := Phase.start (debug := debug)
            (s := { s with clock := freeAfter Entry.len (fun _ _ => 0) 0 0 done, events := [] })
            (done := done) (w := w) (a := a) (x := z)
            h1 rfl h2 (by simp [h3]) h4 (by simp only; omega)
            (by intro y hy; have := h7 y (by simp [hy]); simp only; omega)
        exact ⟨s', by simpa [h3] using hs', hph⟩

end Sat2Ground

/-- What `Send` was called with, and the power of that moment, starting from power `w`. -/
def broadcasts (w : W) : List (Op W) → List (Nat × Entry W)
  | [] => []
  | .send t pkt len proto :: os => (t, ⟨pkt, len, proto, w⟩) :: broadcasts w os
  | .setPower _ v :: os => broadcasts v os
  | .run :: os => broadcasts w os

/-- The power after some operations. -/
def downPower (w : W) : List (Op W) → W
  | [] => w
  | .setPower _ v :: os => downPower v os
  | _ :: os => downPower w os

theorem broadcasts_append (w : W) (l m : List (Op W)) : broadcasts w (l ++ m) = broadcasts w l ++ broadcasts (downPower w l) m := by
  induction l generalizing w with
  | nil => rfl
  | cons o l ih => cases o <;> simp [broadcasts, downPower, ih]

theorem downPower_append (w : W) (l m : List (Op W)) : downPower w (l ++ m) = downPower (downPower w l) m := by
  induction l generalizing w with
  | nil => rfl
  | cons o l ih => cases o <;> simp [downPower, ih]

/-- The device never misbehaves; what it has broadcast is a prefix - and, when nothing is left to happen, the whole - of what a first-in
first-out sender without any waiting time does with the accepted packets.  While packets wait there is always something left to happen. -/
theorem C38_refines {ops : List (Op W)} {r : Outcome (Sys W)} (h : Sat2Ground.exec debug accept power ops = some r) :
    ∃ s, r = .ok s ∧ s.aired <+: Fifo.serve Entry.len (fun _ _ => 0) 0 0 s.accepted ∧
      (s.events = [] → s.aired = Fifo.serve Entry.len (fun _ _ => 0) 0 0 s.accepted) ∧ (s.queue ≠ [] → s.events ≠ []) := by
  have hph : ∀ {ops : List (Op W)} {s : Sys W}, Sat2Ground.exec debug accept power ops = some (.ok s) → Phase s := by
    intro ops s hs
    refine run_induction (P := fun _ s => Phase s) (.idle rfl rfl rfl rfl (Nat.le_refl _)) ?_ hs
    intro ops o s s' _ hp hst
    obtain ⟨s2, h1, h2⟩ := hp.step hst
    simp only [Outcome.ok.injEq] at h1
    subst h1; exact h2
  obtain ⟨s, hs⟩ := run_no_fault (fun ops o s r hr hst => by
    obtain ⟨s', h1, -⟩ := (hph hr).step hst
    exact ⟨s', h1⟩) h
  subst hs
  refine ⟨s, rfl, ?_⟩
  cases hph h with
  | idle h1 h2 h3 h4 h5 => exact ⟨by rw [h4]; exact List.prefix_refl _, fun _ => h4, fun hq => absurd h2 hq⟩
  | onAir done w x h1 h2 h3 h4 h5 h6 h7 =>
    exact ⟨by rw [h4, h2]; exact Fifo.serve_prefix _ _ _ _, fun he => by simp [h5] at he, fun _ => by simp [h5]⟩

/-- In plain terms: accepted packets are broadcast once each, in order, without overlap, none before its acceptance. -/
theorem C38_once_in_order {ops : List (Op W)} {s : Sys W} (h : Sat2Ground.exec debug accept power ops = some (.ok s)) :
    s.aired.map Prod.snd <+: s.accepted.map Prod.snd ∧ (s.events = [] → s.aired.map Prod.snd = s.accepted.map Prod.snd) ∧
    s.aired.Pairwise (fun f g => f.1 + f.2.len ≤ g.1) ∧
    (∀ (i : Nat) (f y : Nat × Entry W), s.aired[i]? = some f → s.accepted[i]? = some y → y.1 ≤ f.1) := by
  obtain ⟨s', hs, h1, h2, -⟩ := C38_refines h
  simp only [Outcome.ok.injEq] at hs
  subst hs
  refine ⟨?_, ?_, ?_, ?_⟩
  · have := h1.map Prod.snd
    rwa [Fifo.serve_packets] at this
  · intro he; rw [h2 he, Fifo.serve_packets]
  · exact (Fifo.serve_disjoint 0 0 _).sublist h1.sublist
  · intro i f y hf hy
    obtain ⟨r, hr⟩ := h1
    have hlt : i < s.aired.length := by
      by_contra hge
      simp [List.getElem?_eq_none (by omega : s.aired.length ≤ i)] at hf
    have : (Fifo.serve Entry.len (fun _ _ => 0) 0 0 s.accepted)[i]? = some f := by
      rw [← hr, List.getElem?_append_left hlt]; exact hf
    exact (Fifo.serve_causal 0 0 _ i y f hy this).1

theorem sat2ground_transmitStart_eq {s s' : Sys W} {now : Nat} (h : Sat2Ground.transmitStart debug s now = .ok s') :
    s'.power = s.power ∧ s'.accepted = s.accepted ∧ s'.refused = s.refused := by
  unfold Sat2Ground.transmitStart at h
  rw [Outcome.bind_eq_ok] at h
  obtain ⟨_, -, h⟩ := h
  cases hq : s.queue with
  | nil => simp [hq] at h
  | cons x rest => simp only [hq, Outcome.ok.injEq] at h; subst h; simp

/-- Every packet given to `Send` is either accepted or reported dropped, with its own protocol number and the power of that moment; the
accepted ones in the order of the calls. -/
theorem C38_accepted_or_dropped {ops : List (Op W)} {s : Sys W} (h : Sat2Ground.exec debug accept power ops = some (.ok s)) :
    (s.accepted ++ s.refused).Perm (broadcasts power ops) ∧ s.accepted.Sublist (broadcasts power ops) := by
  have := run_induction (P := fun ops (s : Sys W) => s.power = downPower power ops ∧ (s.accepted ++ s.refused).Perm (broadcasts power ops) ∧
      s.accepted.Sublist (broadcasts power ops)) ⟨rfl, by simp [Sys.init, broadcasts], by simp [Sys.init]⟩ ?_ h
  · exact this.2
  · intro ops o s s' _ hp hst
    obtain ⟨h1, h2, h3⟩ := hp
    cases o with
    | setPower t w =>
      simp only [Sat2Ground.step] at hst
      split at hst
      · simp only [Option.some.injEq, Outcome.ok.injEq] at hst
        subst hst
        exact ⟨by simp [downPower_append, downPower], by simpa [broadcasts_append, broadcasts] using h2,
          by simpa [broadcasts_append, broadcasts] using h3⟩
      · simp at hst
    | run =>
      have hk : s'.power = s.power ∧ s'.accepted = s.accepted ∧ s'.refused = s.refused := by
        simp only [Sat2Ground.step] at hst
        split at hst
        · simp at hst
        · simp only [Option.some.injEq] at hst
          unfold Sat2Ground.transmitComplete at hst
          split at hst
          · simp only [Outcome.ok.injEq] at hst; subst hst; simp
          · obtain ⟨f1, f2, f3⟩ := sat2ground_transmitStart_eq hst
            exact ⟨f1, f2, f3⟩
      obtain ⟨k1, k2, k3⟩ := hk
      exact ⟨by simp [downPower_append, downPower, k1, h1], by simpa [broadcasts_append, broadcasts, k2, k3] using h2,
          by simpa [broadcasts_append, broadcasts, k2] using h3⟩
    | send t pkt len proto =>
      simp only [Sat2Ground.step] at hst
      split at hst
      · simp only [Option.some.injEq] at hst
        have hk : s'.power = s.power ∧ ((s'.accepted = s.accepted ++ [(t, ⟨pkt, len, proto, s.power⟩)] ∧ s'.refused = s.refused) ∨
            (s'.accepted = s.accepted ∧ s'.refused = s.refused ++ [(t, ⟨pkt, len, proto, s.power⟩)])) := by
          unfold Sat2Ground.send at hst
          simp only at hst
          split at hst
          · simp only [Outcome.ok.injEq] at hst; subst hst; simp
          · split at hst
            · simp only [Outcome.ok.injEq] at hst; subst hst; simp
            · obtain ⟨f1, f2, f3⟩ := sat2ground_transmitStart_eq hst
              exact ⟨f1, Or.inl ⟨f2, f3⟩⟩
        obtain ⟨k1, k2⟩ := hk
        refine ⟨by simp [downPower_append, downPower, k1, h1], ?_, ?_⟩
        · rcases k2 with ⟨ha, hr⟩ | ⟨ha, hr⟩
          · rw [ha, hr]
            simp only [broadcasts_append, broadcasts, ← h1, List.append_assoc, List.cons_append, List.nil_append]
            exact List.perm_middle.trans ((List.Perm.cons _ h2).trans (List.perm_append_singleton _ _).symm)
          · rw [ha, hr]
            simp only [broadcasts_append, broadcasts, ← h1, ← List.append_assoc]
            exact h2.append_right _
        · rcases k2 with ⟨ha, hr⟩ | ⟨ha, hr⟩
          · rw [ha]
            simp only [broadcasts_append, broadcasts, ← h1]
            exact h3.append (List.Sublist.refl _)
          · rw [ha]
            simp only [broadcasts_append]
            exact h3.trans (List.sublist_append_left _ _)
      · simp at hst

/-- A packet reported dropped is never broadcast, if packets have different ids; and whatever is broadcast carries the protocol number it was
sent with and the power at that moment. -/
theorem C38_contents {ops : List (Op W)} {s : Sys W} (h : Sat2Ground.exec debug accept power ops = some (.ok s)) :
    (∀ f ∈ s.aired, f.2 ∈ (broadcasts power ops).map Prod.snd) ∧
    (((broadcasts power ops).map (fun y => y.2.pkt)).Nodup → ∀ f ∈ s.aired, ∀ y ∈ s.refused, f.2.pkt ≠ y.2.pkt) := by
  have hin : ∀ f ∈ s.aired, f.2 ∈ s.accepted.map Prod.snd :=
    fun f hf => (C38_once_in_order h).1.subset (List.mem_map.mpr ⟨f, hf, rfl⟩)
  refine ⟨fun f hf => ?_, fun hid f hf y hy heq => ?_⟩
  · exact ((C38_accepted_or_dropped h).2.map Prod.snd).subset (hin f hf)
  · obtain ⟨z, hz, hz2⟩ := List.mem_map.mp (hin f hf)
    have hnd : ((s.accepted ++ s.refused).map (fun y => y.2.pkt)).Nodup :=
      ((C38_accepted_or_dropped h).1.map _).nodup_iff.mpr hid
    rw [List.map_append, List.nodup_append] at hnd
    refine hnd.2.2 z.2.pkt (List.mem_map.mpr ⟨z, hz, rfl⟩) y.2.pkt (List.mem_map.mpr ⟨y, hy, rfl⟩) ?_
    rw [hz2, heq]

/-- Packets 1 to 3 come while the queue holds one packet, the power is changed at 2, packet 4 comes later. -/
def downOps : List (Op Nat) :=
  [.send 0 1 8 7, .send 1 2 8 9, .send 1 3 8 9, .setPower 2 6, .run, .send 9 5 8 9, .run, .run, .send 30 4 8 7, .run]

example : ∃ s, Sat2Ground.exec true (fun q _ => decide (q.length < 1)) 5 downOps = some (.ok s) ∧
    s.aired.map (fun f => (f.1, f.2.pkt, f.2.proto, f.2.power)) = [(0, 1, 7, 5), (8, 2, 9, 5), (16, 5, 9, 6), (30, 4, 7, 6)] ∧
    s.refused.map (fun f => (f.1, f.2.pkt)) = [(1, 3)] ∧ s.events = [] ∧
    ((broadcasts 5 downOps).map (fun y => y.2.pkt)).Nodup := by
  refine ⟨_, rfl, ?_⟩; decide

end Icarus
