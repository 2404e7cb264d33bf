import Verif.Model.Constellation
import Verif.Model.Machine

/-!
# Model of `model/ground-node-sat-tracker{,-periodic,-elevation}.cc`

Everything a tracker reads from the rest of the simulation (positions, constellation contents, elevations, setting times) is a function of the
current time, in nanoseconds.
-/

set_option autoImplicit false

namespace Icarus
namespace Tracker

/-! ## The base class -/

/-- A device of the ground node: a `GroundStaNetDevice` (with an identification and the constellation of its channel, if any) or
another device. -/
inductive Dev (C : Type) where
  | ground (id : Nat) (constellation : Option C)
  | other
  deriving DecidableEq, Repr

/-- The loop in `GetNetDevice` (model/ground-node-sat-tracker.cc:76-83): every `GroundStaNetDevice` met overwrites the result. -/
def netDeviceLoop {C : Type} (found : Option (Nat × Option C)) : List (Dev C) → Option (Nat × Option C)
  | [] => found
  | .ground id c :: ds => netDeviceLoop (some (id, c)) ds
  | .other :: ds => netDeviceLoop found ds

/-- `GetNetDevice` (model/ground-node-sat-tracker.cc:68-90).  `cached`: `m_netDevice`.  A null result is returned when assertions are off;
both callers dereference it at once, so that is undefined behaviour. -/
def getNetDevice {C : Type} (debug : Bool) (cached : Option (Nat × Option C)) (devs : List (Dev C)) : Outcome (Nat × Option C) := do
  let r := match cached with
    | some d => some d
    | none => netDeviceLoop none devs
  Outcome.nsAssert debug r.isSome
  Outcome.deref r

/-- `GetConstellation` (model/ground-node-sat-tracker.cc:54-66), when not cached. -/
def getConstellation {C : Type} (debug : Bool) (devs : List (Dev C)) : Outcome C := do
  let d ← getNetDevice debug none devs
  Outcome.deref d.2

/-! ## Events of a tracker -/

/-- State: the tracked address (held by the net device), scheduled calls of the tracker, and everything ever assigned to the tracked address:
time, by whom (`true`: by the tracker), value. -/
structure Sys (E : Type) where
  clock : Nat
  remote : SatAddress
  pending : List (Nat × E)
  log : List (Nat × Bool × SatAddress)
  deriving DecidableEq, Repr

/-- Somebody else assigns the tracked address at time `t`, or the next scheduled call runs. -/
inductive Op where
  | outside (t : Nat) (a : SatAddress)
  | run
  deriving DecidableEq, Repr

def possible {E : Type} (s : Sys E) (t : Nat) : Prop := s.clock ≤ t ∧ ∀ e ∈ s.pending, t ≤ e.1

instance {E : Type} (s : Sys E) (t : Nat) : Decidable (possible s t) := by unfold possible; infer_instance

/-- `fire t e`: what the call `e` does when it runs at time `t`: the address assigned and the call scheduled (if any) with its delay. -/
def step {E : Type} (fire : Nat → E → Outcome (SatAddress × Option (Nat × E))) (s : Sys E) : Op → Option (Outcome (Sys E))
  | .outside t a => if possible s t then some (.ok { s with clock := t, remote := a, log := s.log ++ [(t, false, a)] }) else none
  | .run =>
    match s.pending with
    | [] => none
    | (t, e) :: es => some (do
        let (a, next) ← fire t e
        let pending := match next with
          | some (delay, e') => insertEvent (t + delay) e' es
          | none => es
        .ok { clock := t, remote := a, pending, log := s.log ++ [(t, true, a)] })

/-! ## Periodic tracker -/

/-- `UpdateOnce` and `PeriodicUpdate` -/
inductive Call where
  | once
  | periodic
  deriving DecidableEq, Repr

/-- `UpdateOnce` (model/ground-node-sat-tracker-periodic.cc:103-115): the address that gets tracked.  `addr`: `GetAddress` of a satellite
device.  The ground node has a position. -/
def updateOnce {D K : Type} [LE K] [DecidableLE K] (addr : D → SatAddress) (dist : D → K) (c : Constellation D) : Outcome SatAddress := do
  let d ← Outcome.deref (c.getClosest dist)
  .ok (addr d)

/-- `UpdateOnce` alone, and `PeriodicUpdate` (model/ground-node-sat-tracker-periodic.cc:80-88).  `dist t d`: squared distance of satellite `d` to
the node at time `t`; `c t`: the constellation at time `t`. -/
def periodicFire {D K : Type} [LE K] [DecidableLE K] (addr : D → SatAddress) (dist : Nat → D → K) (c : Nat → Constellation D)
    (interval : Nat) (t : Nat) : Call → Outcome (SatAddress × Option (Nat × Call))
  | .once => do
    let a ← updateOnce addr (dist t) (c t)
    .ok (a, none)
  | .periodic => do
    let a ← updateOnce addr (dist t) (c t)
    .ok (a, some (interval, .periodic))

/-- `DoInitialize` (model/ground-node-sat-tracker-periodic.cc:57-78) at time `t0`.  `offset`: the random point in the interval, in nanoseconds.
Negative intervals are not modelled. -/
def periodicInit (t0 interval offset : Nat) (remote : SatAddress) : Sys Call :=
  if interval = 0 then ⟨t0, remote, [], []⟩
  else ⟨t0, remote, insertEvent (t0 + offset) .periodic (insertEvent t0 .once []), []⟩

/-! ## Elevation tracker -/

/-- What `getVisibleSats` reads at one instant about a satellite: its elevation, the time (absolute) at which it crosses the minimum elevation
if the search finds one, and its orbital period. -/
structure View (D K : Type) where
  elevation : D → K
  setting : D → Option Nat
  period : D → Nat

/-- Body of the loops in `getVisibleSats` (model/ground-node-sat-tracker-elevation.cc:114-143).  Durations are signed.  `orbitalPeriod / 2.0` is rounded down. -/
def visibleStep {D K : Type} [LT K] [DecidableLT K] (debug : Bool) (v : View D K) (minElevation : K) (now : Nat) (c : Constellation D)
    (acc : List (Int × Nat × Nat)) (cell : Nat × Nat) : Outcome (List (Int × Nat × Nat)) := do
  let sat ← c.getSatellite debug cell.1 cell.2
  let d ← Outcome.deref sat
  if minElevation < v.elevation d then
    match v.setting d with
    | some bye => do
      Outcome.nsAssert debug (decide ((bye : Int) - now < ((v.period d / 2 : Nat) : Int)))
      .ok (acc ++ [((bye : Int) - now, cell.1, cell.2)])
    | none => .ok acc
  else .ok acc

/-- The cells in the order of the two nested loops. -/
def cells (nPlanes planeSize : Nat) : List (Nat × Nat) :=
  (List.range nPlanes).flatMap (fun p => (List.range planeSize).map (fun i => (p, i)))

/-- A loop over a list that stops at the first abnormal outcome. -/
def loop {α β : Type} (f : β → α → Outcome β) : β → List α → Outcome β
  | b, [] => .ok b
  | b, a :: as => do
    let b' ← f b a
    loop f b' as

/-- `getVisibleSats` (model/ground-node-sat-tracker-elevation.cc:102-149).  `positioned`: the node has a mobility model. -/
def getVisibleSats {D K : Type} [LT K] [DecidableLT K] (debug : Bool) (positioned : Bool) (v : View D K) (minElevation : K) (now : Nat)
    (c : Constellation D) : Outcome (List (Int × Nat × Nat)) := do
  Outcome.abortUnless positioned
  loop (visibleStep debug v minElevation now c) [] (cells c.nPlanes c.planeSize)

/-- `std::max_element` with the comparison of `Update`: the first of the largest. -/
def maxElement : List (Int × Nat × Nat) → Option (Int × Nat × Nat)
  | [] => none
  | x :: xs => some (xs.foldl (fun best y => if best.1 < y.1 then y else best) x)

/-- `Update` (model/ground-node-sat-tracker-elevation.cc:151-182): the visible satellites reported by the signal `satsAvailable`, the address tracked and the delay of the next
update.  Scheduling with a negative delay is treated as a failed assertion of the simulator. -/
def update {D K : Type} [LT K] [DecidableLT K] (debug : Bool) (addr : D → SatAddress) (positioned : Bool) (v : View D K) (minElevation : K)
    (now : Nat) (c : Constellation D) : Outcome (List (Int × Nat × Nat) × SatAddress × Nat) := do
  let visible ← getVisibleSats debug positioned v minElevation now c
  match maxElement visible with
  | some (remaining, plane, index) => do
    let sat ← c.getSatellite debug plane index
    let d ← Outcome.deref sat
    if 0 ≤ remaining then .ok (visible, addr d, remaining.toNat) else .assertFail
  | none => .abort

/-- `Update` as an event. -/
def elevationFire {D K : Type} [LT K] [DecidableLT K] (debug : Bool) (addr : D → SatAddress) (positioned : Bool) (v : Nat → View D K)
    (minElevation : K) (c : Nat → Constellation D) (t : Nat) (_ : Unit) : Outcome (SatAddress × Option (Nat × Unit)) := do
  let (_, a, delay) ← update debug addr positioned (v t) minElevation t (c t)
  .ok (a, some (delay, ()))

/-- `DoInitialize` (model/ground-node-sat-tracker-elevation.cc:91-100) at time `t0`. -/
def elevationInit (t0 : Nat) (remote : SatAddress) : Sys Unit := ⟨t0, remote, insertEvent t0 () [], []⟩

end Tracker
end Icarus
