import Verif.Model.GroundSatChannel
import Verif.Props.Constellation

/-!
# Properties C28 - C31: the ground-satellite channel

Statements about a channel whose constellation was built by the history `hist` of additions (`Built`, see `Verif.Props.Constellation`).
-/

set_option autoImplicit false

namespace Icarus
open GroundSatChannel

variable {D G V W F : Type}

/-- All objects needed for a transmission from `g` to `d` are there, with positions `pg`, `ps`, delay model `delay` and loss model `loss`. -/
structure Equipped (air : Air D G V W) (g : G) (d : D) (pg ps : V) (delay : V → V → Nat) (loss : W → V → V → W) : Prop where
  ground : air.gndPos g = some pg
  sat : air.satPos d = some ps
  delay : air.delay = some delay
  loss : air.loss = some loss

theorem lookup_mem {hist : List (Nat × Nat × D)} {p o : Nat} {d : D} (h : Constellation.lookup hist p o = some d) : (p, o, d) ∈ hist := by
  unfold Constellation.lookup at h
  cases hf : hist.find? (fun x => x.1 == p && x.2.1 == o) with
  | none => simp [hf] at h
  | some y =>
    have h1 := List.mem_of_find?_eq_some hf
    have h2 := List.find?_some hf
    simp [hf] at h h2
    obtain ⟨a, b, c⟩ := y
    simp only at h h2
    obtain ⟨rfl, rfl⟩ := h2
    subst h
    exact h1

/-- A successful address lookup that gives a satellite gives the one added at the plane and position named by the address; in debug builds the
constellation number of the address is the constellation's. -/
theorem lookup_addr {e : Endian} {hasOrbit : D → Bool} {cid n s : Nat} {hist : List (Nat × Nat × D)}
    {as : List SatAddress} {c : Constellation D} (h : Built e hasOrbit cid n s hist as c) {debug : Bool} {dst : SatAddress} {d : D}
    (hl : c.getSatelliteAddr debug e dst = .ok (some d)) :
    ((dst.getOrbitalPlane e).toNat, (dst.getPlaneIndex e).toNat, d) ∈ hist ∧
      (debug = true → (dst.getConstellationId e).toNat = cid) := by
  obtain ⟨inv, -⟩ := h.inv
  unfold Constellation.getSatelliteAddr Constellation.getSatellite at hl
  have hid : debug = true → (dst.getConstellationId e).toNat = cid := by
    intro hd
    by_contra hne
    subst hd
    rw [inv.id_eq] at hl
    rw [beq_eq_false_iff_ne.mpr hne] at hl
    simp at hl
  refine ⟨?_, hid⟩
  have hcell : c.cell (dst.getOrbitalPlane e).toNat (dst.getPlaneIndex e).toNat = .ok (some d) := by
    revert hl
    simp only [Outcome.nsAssert]
    split
    · intro hl; simp at hl
    · split
      · intro hl; simp at hl
      · split
        · intro hl; simp at hl
        · intro hl; simpa using hl
  have hg := Constellation.cell_eq_ok.mp hcell
  by_cases hb : (dst.getOrbitalPlane e).toNat < n ∧ (dst.getPlaneIndex e).toNat < s
  · have := inv.cells _ _ hb.1 hb.2
    rw [hg] at this
    exact lookup_mem (by simpa using this.symm)
  · have := inv.shape.cell_isSome (p := (dst.getOrbitalPlane e).toNat) (i := (dst.getPlaneIndex e).toNat)
    rw [hg, inv.nPlanes_eq, inv.planeSize_eq] at this
    simp at this
    exact absurd this hb

/-! ## C28 -/

/-- Whatever the state: if the transmission ends normally it takes the transmission time of the frame and has exactly one effect.  Either
the frame is reported dropped - and then there is no constellation, or the success model refused - or it is received by the one satellite that
was added at the plane and position named by the address (in debug builds: whose address this is), after the propagation delay, unchanged, with
the sender's address, the protocol number and the power left by the loss model - and then the success model did not refuse. -/
theorem C28_uplink {e : Endian} {hasOrbit : D → Bool} {cid n s : Nat} {hist : List (Nat × Nat × D)} {as : List SatAddress}
    (debug : Bool) (c : Chan D G) (hc : ∀ k, c.constellation = some k → Built e hasOrbit cid n s hist as k)
    (air : Air D G V W) (frame : F) (txTime : Nat) (src : G) (srcAddr : SatAddress.Address) (dst : SatAddress) (proto : UInt16)
    (txPower : W) (effs : List (Effect D G W F)) (t : Nat)
    (h : transmit2Sat debug e c air frame txTime src srcAddr dst proto txPower = .ok (effs, t)) :
    t = txTime ∧
    ((effs = [.drop frame] ∧ (c.constellation = none ∨ ∃ d m, air.success = some m ∧ m src d = .ok false)) ∨
     ∃ d pg ps delay loss, ((dst.getOrbitalPlane e).toNat, (dst.getPlaneIndex e).toNat, d) ∈ hist ∧
       (debug = true → (dst.getConstellationId e).toNat = cid) ∧ Equipped air src d pg ps delay loss ∧
       effs = [.toSat d (delay pg ps) frame srcAddr proto (loss txPower pg ps)] ∧
       (air.success = none ∨ ∃ m, air.success = some m ∧ m src d = .ok true)) := by
  unfold transmit2Sat at h
  cases hk : c.constellation with
  | none =>
    simp only [hk, Outcome.ok.injEq, Prod.mk.injEq] at h
    exact ⟨h.2.symm, Or.inl ⟨h.1.symm, Or.inl rfl⟩⟩
  | some k =>
    simp only [hk] at h
    cases hl : k.getSatelliteAddr debug e dst with
    | ub f => simp [hl] at h
    | abort => simp [hl] at h
    | assertFail => simp [hl] at h
    | ok v =>
      cases v with
      | none => simp [hl] at h
      | some d =>
        cases hdel : air.delay with
        | none => simp [hl, hdel] at h
        | some delay =>
          cases hpg : air.gndPos src with
          | none => simp [hl, hdel, hpg] at h
          | some pg =>
            cases hps : air.satPos d with
            | none => simp [hl, hdel, hpg, hps] at h
            | some ps =>
              cases hlo : air.loss with
              | none => simp [hl, hdel, hpg, hps, hlo] at h
              | some loss =>
                simp only [hl, hdel, hpg, hps, hlo, Outcome.deref, Outcome.bind_ok] at h
                obtain ⟨h1, h2⟩ := lookup_addr (hc k hk) hl
                cases hs : air.success with
                | none =>
                  simp only [admitted, hs, Outcome.bind_ok, if_true, Outcome.ok.injEq, Prod.mk.injEq] at h
                  exact ⟨h.2.symm, Or.inr ⟨d, pg, ps, delay, loss, h1, h2, ⟨hpg, hps, hdel, hlo⟩, h.1.symm, Or.inl rfl⟩⟩
                | some m =>
                  cases hm : m src d with
                  | ub f => simp [admitted, hs, hm] at h
                  | abort => simp [admitted, hs, hm] at h
                  | assertFail => simp [admitted, hs, hm] at h
                  | ok b =>
                    cases b with
                    | true =>
                      simp only [admitted, hs, hm, Outcome.bind_ok, if_true, Outcome.ok.injEq, Prod.mk.injEq] at h
                      exact ⟨h.2.symm, Or.inr ⟨d, pg, ps, delay, loss, h1, h2, ⟨hpg, hps, hdel, hlo⟩, h.1.symm, Or.inr ⟨m, rfl, hm⟩⟩⟩
                    | false =>
                      simp [admitted, hs, hm] at h
                      exact ⟨h.2.symm, Or.inl ⟨h.1.symm, Or.inr ⟨d, m, rfl, hm⟩⟩⟩

/-- To an address returned by the constellation, with positions, delay, loss and success models in place, the transmission always ends normally:
the frame is received by the satellite of that address if the success model admits it, and is reported dropped otherwise. -/
theorem C28_reaches_addressed {e : Endian} {hasOrbit : D → Bool} {cid n s : Nat} {hist : List (Nat × Nat × D)} {as : List SatAddress}
    {k : Constellation D} (hb : Built e hasOrbit cid n s hist as k) (hfit : Fits16 cid n s) (debug : Bool) (ground : List G)
    (air : Air D G V W) (frame : F) (txTime : Nat) (src : G) (srcAddr : SatAddress.Address) (i p o : Nat) (d : D) (dst : SatAddress)
    (hi : hist[i]? = some (p, o, d)) (hdst : as[i]? = some dst) (proto : UInt16) (txPower : W) (pg ps : V) (delay : V → V → Nat)
    (loss : W → V → V → W) (heq : Equipped air src d pg ps delay loss) (m : G → D → Outcome Bool) (hm : air.success = some m) (b : Bool)
    (hmb : m src d = .ok b) :
    transmit2Sat debug e ⟨some k, ground⟩ air frame txTime src srcAddr dst proto txPower =
      .ok (if b then [.toSat d (delay pg ps) frame srcAddr proto (loss txPower pg ps)] else [.drop frame], txTime) := by
  obtain ⟨a, ha, hl, -⟩ := C03_lookup hb hfit debug i p o d hi
  rw [hdst] at ha
  simp only [Option.some.injEq] at ha
  subst ha
  simp only [transmit2Sat, hl, heq.delay, heq.ground, heq.sat, heq.loss, admitted, hm, hmb, Outcome.deref, Outcome.bind_ok]
  cases b <;> rfl

/-- Without a constellation every frame is dropped. -/
theorem C28_no_constellation (debug : Bool) (e : Endian) (ground : List G) (air : Air D G V W) (frame : F) (txTime : Nat) (src : G)
    (srcAddr : SatAddress.Address) (dst : SatAddress) (proto : UInt16) (txPower : W) :
    transmit2Sat debug e (⟨none, ground⟩ : Chan D G) air frame txTime src srcAddr dst proto txPower = .ok ([.drop frame], txTime) := rfl

/-- An environment in which everybody has a position, used in the examples. -/
def simpleAir (ok : Bool) : Air Nat Nat Nat Int :=
  ⟨fun g => some g, fun d => some d, some (fun a b => a + b), some (fun w a b => w - a - b), some (fun _ _ => .ok ok)⟩

example : Equipped (simpleAir true) 3 7 3 7 (fun a b => a + b) (fun w a b => w - a - b) := ⟨rfl, rfl, rfl, rfl⟩
example : Built .little (fun _ => true) 1 2 2 [(1, 1, 7)] [SatAddress.mk3 .little 1 1 1] sparseExample ∧ Fits16 1 2 2 :=
  ⟨sparseExample_built, by unfold Fits16; omega⟩
example : transmit2Sat true .little ⟨some sparseExample, [3]⟩ (simpleAir true) "frame" 80 3 ⟨1, [0, 0, 0, 0, 0, 9]⟩ (SatAddress.mk3 .little 1 1 1) 5 30 =
    .ok ([.toSat 7 10 "frame" ⟨1, [0, 0, 0, 0, 0, 9]⟩ 5 20], 80) := by decide

/-- In release builds the constellation number of an address is ignored: a frame for a satellite of another constellation is received by
the satellite at the same plane and position of this one. -/
theorem C28_foreign_constellation {e : Endian} {hasOrbit : D → Bool} {cid n s : Nat} {hist : List (Nat × Nat × D)} {as : List SatAddress}
    {k : Constellation D} (hb : Built e hasOrbit cid n s hist as k) (hfit : Fits16 cid n s) (p o : Nat) (d : D) (hi : (p, o, d) ∈ hist)
    (other : UInt16) (ground : List G) (air : Air D G V W) (hs : air.success = none) (frame : F) (txTime : Nat) (src : G)
    (srcAddr : SatAddress.Address) (proto : UInt16) (txPower : W) (pg ps : V) (delay : V → V → Nat) (loss : W → V → V → W)
    (heq : Equipped air src d pg ps delay loss) :
    transmit2Sat false e ⟨some k, ground⟩ air frame txTime src srcAddr (SatAddress.mk3 e other (UInt16.ofNat p) (UInt16.ofNat o)) proto txPower =
      .ok ([.toSat d (delay pg ps) frame srcAddr proto (loss txPower pg ps)], txTime) := by
  obtain ⟨f1, f2, f3⟩ := hfit
  obtain ⟨j, hj⟩ := List.mem_iff_getElem?.mp hi
  obtain ⟨inv, -⟩ := hb.inv
  obtain ⟨b1, b2⟩ := inv.bounds _ hi
  simp only at b1 b2
  have hl : k.getSatelliteAddr false e (SatAddress.mk3 e other (UInt16.ofNat p) (UInt16.ofNat o)) = .ok (some d) := by
    obtain ⟨a, ha, hl, -, h2, h3⟩ := C03_lookup hb ⟨f1, f2, f3⟩ false j p o d hj
    unfold Constellation.getSatelliteAddr at hl ⊢
    simp only [Outcome.nsAssert, Bool.false_and, Bool.false_eq_true, if_false, Outcome.bind_ok] at hl ⊢
    rw [h2, h3] at hl
    have e1 : ((SatAddress.mk3 e other (UInt16.ofNat p) (UInt16.ofNat o)).getOrbitalPlane e).toNat = p := by
      simp [SatAddress.mk3, SatAddress.getOrbitalPlane]; omega
    have e2 : ((SatAddress.mk3 e other (UInt16.ofNat p) (UInt16.ofNat o)).getPlaneIndex e).toNat = o := by
      simp [SatAddress.mk3, SatAddress.getPlaneIndex]; omega
    rw [e1, e2, hl]
  simp only [transmit2Sat, hl, heq.delay, heq.ground, heq.sat, heq.loss, admitted, hs, Outcome.deref, Outcome.bind_ok, if_true]

/-! ## C29 -/

/-- Full claim of C29, for reference: a frame for a position of the table that is empty is reported dropped, and nothing else. -/
def C29_claim : Prop :=
  ∀ (D G V W F : Type) (e : Endian) (hasOrbit : D → Bool) (cid n s : Nat) (hist : List (Nat × Nat × D)) (as : List SatAddress)
    (k : Constellation D) (debug : Bool) (ground : List G) (air : Air D G V W) (frame : F) (txTime : Nat) (src : G)
    (srcAddr : SatAddress.Address) (p o : Nat) (proto : UInt16) (txPower : W),
    Built e hasOrbit cid n s hist as k → Fits16 cid n s → p < n → o < s → (∀ d, (p, o, d) ∉ hist) →
    transmit2Sat debug e ⟨some k, ground⟩ air frame txTime src srcAddr (SatAddress.mk3 e (UInt16.ofNat cid) (UInt16.ofNat p) (UInt16.ofNat o))
      proto txPower = .ok ([.drop frame], txTime)

/-- In fact it is undefined behaviour, in debug and release builds, for every empty position. -/
theorem C29_absent_is_ub {e : Endian} {hasOrbit : D → Bool} {cid n s : Nat} {hist : List (Nat × Nat × D)} {as : List SatAddress}
    {k : Constellation D} (hb : Built e hasOrbit cid n s hist as k) (hfit : Fits16 cid n s) (debug : Bool) (ground : List G) (air : Air D G V W)
    (frame : F) (txTime : Nat) (src : G) (srcAddr : SatAddress.Address) (p o : Nat) (hp : p < n) (ho : o < s)
    (hfree : ∀ d, (p, o, d) ∉ hist) (proto : UInt16) (txPower : W) :
    transmit2Sat debug e ⟨some k, ground⟩ air frame txTime src srcAddr (SatAddress.mk3 e (UInt16.ofNat cid) (UInt16.ofNat p) (UInt16.ofNat o))
      proto txPower = .ub .nullDeref := by
  obtain ⟨f1, f2, f3⟩ := hfit
  have h0 := C03_empty_position hb debug p o hp ho hfree
  obtain ⟨inv, -⟩ := hb.inv
  have e0 : ((SatAddress.mk3 e (UInt16.ofNat cid) (UInt16.ofNat p) (UInt16.ofNat o)).getConstellationId e).toNat = cid := by
    simp [SatAddress.mk3, SatAddress.getConstellationId]; omega
  have e1 : ((SatAddress.mk3 e (UInt16.ofNat cid) (UInt16.ofNat p) (UInt16.ofNat o)).getOrbitalPlane e).toNat = p := by
    simp [SatAddress.mk3, SatAddress.getOrbitalPlane]; omega
  have e2 : ((SatAddress.mk3 e (UInt16.ofNat cid) (UInt16.ofNat p) (UInt16.ofNat o)).getPlaneIndex e).toNat = o := by
    simp [SatAddress.mk3, SatAddress.getPlaneIndex]; omega
  have hl : k.getSatelliteAddr debug e (SatAddress.mk3 e (UInt16.ofNat cid) (UInt16.ofNat p) (UInt16.ofNat o)) = .ok none := by
    unfold Constellation.getSatelliteAddr
    rw [e0, e1, e2, inv.id_eq, h0]
    simp
  simp [transmit2Sat, hl]

theorem C29_claim_false : ¬ C29_claim := by
  intro h
  have h1 := h Nat Nat Nat Int Unit .little (fun _ => true) 1 2 2 _ _ sparseExample true [] (simpleAir true) () 80 3 ⟨1, []⟩ 0 1 0 30
    sparseExample_built (by unfold Fits16; omega) (by omega) (by omega) (by simp)
  revert h1
  decide

/-- What remains of C29: no frame for an absent satellite is ever received, whatever else happens - if the transmission ends normally it
was towards a position that had been filled. -/
theorem C29_never_received_partial {e : Endian} {hasOrbit : D → Bool} {cid n s : Nat} {hist : List (Nat × Nat × D)} {as : List SatAddress}
    {k : Constellation D} (hb : Built e hasOrbit cid n s hist as k) (debug : Bool) (ground : List G) (air : Air D G V W)
    (frame : F) (txTime : Nat) (src : G) (srcAddr : SatAddress.Address) (dst : SatAddress) (proto : UInt16) (txPower : W)
    (effs : List (Effect D G W F)) (t : Nat)
    (h : transmit2Sat debug e ⟨some k, ground⟩ air frame txTime src srcAddr dst proto txPower = .ok (effs, t)) :
    ∃ d, ((dst.getOrbitalPlane e).toNat, (dst.getPlaneIndex e).toNat, d) ∈ hist := by
  simp only [transmit2Sat] at h
  cases hl : k.getSatelliteAddr debug e dst with
  | ub f => simp [hl] at h
  | abort => simp [hl] at h
  | assertFail => simp [hl] at h
  | ok v =>
    cases v with
    | none => simp [hl] at h
    | some d => exact ⟨d, (lookup_addr hb hl).1⟩

/-! ## C30 -/

theorem addAll_ok {gndPos : G → Option V} {c c' : Chan D G} {gs : List G} (h : addAll gndPos c gs = .ok c') :
    c' = ⟨c.constellation, c.ground ++ gs⟩ ∧ ∀ g ∈ gs, (gndPos g).isSome := by
  induction gs generalizing c with
  | nil =>
    simp only [addAll, Outcome.ok.injEq] at h
    subst h
    simp
  | cons g gs ih =>
    simp only [addAll] at h
    cases hg : gndPos g with
    | none => simp [addGround, hg] at h
    | some p =>
      simp only [addGround, hg, Outcome.abortUnless, Option.isSome_some, if_true, Outcome.bind_ok] at h
      obtain ⟨h1, h2⟩ := ih h
      refine ⟨by simpa using h1, ?_⟩
      intro x hx
      rcases List.mem_cons.mp hx with rfl | hx
      · simp [hg]
      · exact h2 x hx

/-- What the broadcast does for one ground device: the reception event after the device's own delay with its own received power if the success
model admits (or is absent), a drop report otherwise. -/
def BroadcastTo (air : Air D G V W) (frame : F) (src : D) (srcAddr : SatAddress.Address) (proto : UInt16) (txPower : W)
    (delay : V → V → Nat) (loss : W → V → V → W) (ps : V) (g : G) (eff : Effect D G W F) : Prop :=
  ∃ pg, air.gndPos g = some pg ∧
    (((air.success = none ∨ ∃ m, air.success = some m ∧ m g src = .ok true) ∧
        eff = .toGround g (delay pg ps) frame srcAddr proto (loss txPower pg ps)) ∨
     ((∃ m, air.success = some m ∧ m g src = .ok false) ∧ eff = .drop frame))

/-- After attaching the devices `gs` to a new channel, with any or no constellation set, a transmission of a satellite with a
position has exactly one effect per ground device, in attachment order. -/
theorem C30_downlink {gndPos : G → Option V} {gs : List G} {c : Chan D G} (hatt : addAll gndPos Chan.init gs = .ok c)
    (k : Option (Constellation D)) (air : Air D G V W) (hkeep : ∀ g, (gndPos g).isSome → (air.gndPos g).isSome)
    (frame : F) (src : D) (srcAddr : SatAddress.Address) (proto : UInt16) (txPower : W)
    (delay : V → V → Nat) (loss : W → V → V → W) (ps : V) (hdelay : air.delay = some delay) (hloss : air.loss = some loss)
    (hps : air.satPos src = some ps) (hmodel : ∀ m, air.success = some m → ∀ g ∈ gs, ∃ b, m g src = .ok b) :
    ∃ effs, transmit2Ground (setConstellation c k) air frame src srcAddr proto txPower = .ok effs ∧
      List.Forall₂ (BroadcastTo air frame src srcAddr proto txPower delay loss ps) gs effs := by
  obtain ⟨rfl, hpos⟩ := addAll_ok hatt
  simp only [setConstellation, transmit2Ground, Chan.init, List.nil_append]
  clear hatt
  induction gs with
  | nil => exact ⟨[], rfl, .nil⟩
  | cons g gs ih =>
    obtain ⟨effs, h1, h2⟩ := ih (fun m hm x hx => hmodel m hm x (by simp [hx])) (fun x hx => hpos x (by simp [hx]))
    obtain ⟨pg, hpg⟩ := Option.isSome_iff_exists.mp (hkeep g (hpos g (by simp)))
    cases hs : air.success with
    | none =>
      refine ⟨.toGround g (delay pg ps) frame srcAddr proto (loss txPower pg ps) :: effs, ?_, .cons ⟨pg, hpg, Or.inl ⟨Or.inl hs, rfl⟩⟩ h2⟩
      simp [toGroundLoop, toOneGround, hdelay, hloss, hpg, hps, admitted, hs, h1]
    | some m =>
      obtain ⟨b, hb⟩ := hmodel m hs g (by simp)
      cases b with
      | true =>
        refine ⟨.toGround g (delay pg ps) frame srcAddr proto (loss txPower pg ps) :: effs, ?_,
          .cons ⟨pg, hpg, Or.inl ⟨Or.inr ⟨m, hs, hb⟩, rfl⟩⟩ h2⟩
        simp [toGroundLoop, toOneGround, hdelay, hloss, hpg, hps, admitted, hs, hb, h1]
      | false =>
        refine ⟨.drop frame :: effs, ?_, .cons ⟨pg, hpg, Or.inr ⟨⟨m, hs, hb⟩, rfl⟩⟩ h2⟩
        simp [toGroundLoop, toOneGround, hdelay, hloss, hpg, hps, admitted, hs, hb, h1]

/-- Attaching a device whose node has no position aborts. -/
theorem C30_attach_needs_position (gndPos : G → Option V) (c : Chan D G) (gs gs' : List G) (g : G) (hg : gndPos g = none)
    (hgs : ∀ x ∈ gs, (gndPos x).isSome) : addAll gndPos c (gs ++ g :: gs') = .abort := by
  induction gs generalizing c with
  | nil => simp [addAll, addGround, hg]
  | cons x xs ih =>
    obtain ⟨p, hp⟩ := Option.isSome_iff_exists.mp (hgs x (by simp))
    simp only [List.cons_append, addAll, addGround, hp, Option.isSome_some, Outcome.abortUnless, if_true, Outcome.bind_ok]
    exact ih _ (fun y hy => hgs y (by simp [hy]))

example : addAll (D := Nat) (fun g : Nat => some g) Chan.init [3, 4] = .ok ⟨none, [3, 4]⟩ := rfl
example : transmit2Ground (⟨none, [3, 4]⟩ : Chan Nat Nat)
    ⟨fun g => some g, fun d => some d, some (fun a b => a + b), some (fun (w : Int) a b => w - a - b), some (fun g _ => .ok (g == 4))⟩
    "frame" 7 ⟨1, []⟩ 5 30 = .ok [.drop "frame", .toGround 4 11 "frame" ⟨1, []⟩ 5 19] := by decide

/-! ## C31 -/

/-- Without a constellation both functions dereference a null pointer; with a complete one, `GetNDevices` counts the satellites and the
ground devices, `GetDevice (i)` for `i < GetNDevices ()` runs through all satellites, then all ground devices, and aborts for larger `i`. -/
theorem C31_enumeration {e : Endian} {hasOrbit : D → Bool} {cid n s : Nat} {hist : List (Nat × Nat × D)} {as : List SatAddress}
    {k : Constellation D} (hb : Built e hasOrbit cid n s hist as k) (hfull : hist.length = n * s) (ground : List G) (debug : Bool) :
    getNDevices debug (⟨some k, ground⟩ : Chan D G) = .ok (hist.length + ground.length) ∧
    (∃ ds : List D, ds.Perm (hist.map (·.2.2)) ∧
      ∀ i, i < hist.length + ground.length → ∃ dev, getDevice debug (⟨some k, ground⟩ : Chan D G) i = .ok dev ∧
        (ds.map (fun d => (Sum.inl (some d) : Option D ⊕ G)) ++ ground.map Sum.inr)[i]? = some dev) ∧
    (∀ i, hist.length + ground.length ≤ i → getDevice debug (⟨some k, ground⟩ : Chan D G) i = .abort) := by
  have hsize := (C04_size_and_listing hb debug).1
  have hN : getNDevices debug (⟨some k, ground⟩ : Chan D G) = .ok (hist.length + ground.length) := by
    simp [getNDevices, hsize]
  obtain ⟨ds, hperm, hget⟩ := (C06_enumeration_partial hb).1 hfull
  have hlen : ds.length = hist.length := by rw [hperm.length_eq, List.length_map]
  refine ⟨hN, ⟨ds, hperm, ?_⟩, ?_⟩
  · intro i hi
    by_cases h1 : i < hist.length
    · have hd : ds[i]? = some (ds[i]'(by omega)) := List.getElem?_eq_getElem (by omega)
      refine ⟨.inl (some (ds[i]'(by omega))), ?_, ?_⟩
      · simp [getDevice, hN, hi, hsize, h1, hget debug i _ hd]
      · rw [List.getElem?_append_left (by simp; omega), List.getElem?_map, hd]; rfl
    · have hd : ground[i - hist.length]? = some (ground[i - hist.length]'(by omega)) := List.getElem?_eq_getElem (by omega)
      refine ⟨.inr (ground[i - hist.length]'(by omega)), ?_, ?_⟩
      · simp [getDevice, hN, hi, hsize, h1, Outcome.index, hd]
      · rw [List.getElem?_append_right (by simp; omega), List.getElem?_map, List.length_map, hlen, hd]; rfl
  · intro i hi
    have : ¬ i < hist.length + ground.length := by omega
    simp [getDevice, hN, this]

theorem C31_no_constellation (debug : Bool) (ground : List G) (i : Nat) :
    getNDevices debug (⟨none, ground⟩ : Chan D G) = .ub .nullDeref ∧ getDevice debug (⟨none, ground⟩ : Chan D G) i = .ub .nullDeref := by
  simp [getNDevices, getDevice]

/-- In an incomplete constellation the enumeration misses satellites: here the only satellite is not listed. -/
theorem C31_incomplete : getNDevices true (⟨some sparseExample, [3]⟩ : Chan Nat Nat) = .ok 2 ∧
    getDevice true (⟨some sparseExample, [3]⟩ : Chan Nat Nat) 0 = .ok (.inl none) ∧
    getDevice true (⟨some sparseExample, [3]⟩ : Chan Nat Nat) 1 = .ok (.inr 3) := by decide

end Icarus
