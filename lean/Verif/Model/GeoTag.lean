import Verif.Model.Outcome

/-!
# Model of `fw/geotag-strategy.cpp`

A satellite is a pair `(plane, index)`; constellation numbers are not looked at by the strategy.
-/

set_option autoImplicit false

namespace Icarus
namespace GeoTag

/-- `GeoTagStrategy::Target` (fw/geotag-strategy.hpp:71). -/
inductive Target where
  | sendToGround | nextPlane | previousPlane | nextSat | previousSat
  deriving DecidableEq, Repr

/-- `GeoTagStrategy::getTarget` (fw/geotag-strategy.cpp:306-351).  The four `uint16_t` arguments are promoted to `int` before
the subtraction, so differences are exact; `(int) size / 2` and `-(int) size / 2` are C++ divisions, i.e. truncate towards zero
(`Int.tdiv`).  Simplification: `m_nPlanes` and `m_planeSize` (`size_t`) are assumed to fit an `int`. -/
def getTarget (nPlanes planeSize : Nat) (plane pindex thisPlane thisPindex : Nat) : Target :=
  if plane = thisPlane then
    if pindex = thisPindex then .sendToGround
    else
      let dif : Int := (pindex : Int) - (thisPindex : Int)
      if dif > 0 then
        if dif ≤ Int.tdiv (planeSize : Int) 2 then .nextSat else .previousSat
      else
        if dif ≥ Int.tdiv (-(planeSize : Int)) 2 then .previousSat else .nextSat
  else
    let dif : Int := (plane : Int) - (thisPlane : Int)
    if dif > 0 then
      if dif ≤ Int.tdiv (nPlanes : Int) 2 then .nextPlane else .previousPlane
    else
      if dif ≥ Int.tdiv (-(nPlanes : Int)) 2 then .previousPlane else .nextPlane

/-- What is behind a face (fw/geotag-strategy.cpp:253-295).
* `noDevice` : `getNetDevice` returns null (application faces, ground-station faces);
* `isl end0 end1 first` : the face of a `SatNetDevice`; `end0`, `end1` are the addresses of the nodes owning devices 0 and 1 of the
  channel, `first` says that the face's device is device 0;
* `other own` : any other net device (in particular the `Sat2GroundNetDevice`), on a node with address `own`. -/
inductive FaceKind where
  | noDevice
  | isl (end0 end1 : Nat × Nat) (first : Bool)
  | other (own : Nat × Nat)
  deriving DecidableEq, Repr

/-- A FIB next hop: a face number and what is behind the face. -/
structure NextHop where
  face : Nat
  kind : FaceKind
  deriving DecidableEq, Repr

/-- `GeoTagStrategy::getNetDevice (face) != nullptr` (fw/geotag-strategy.cpp:253-272). -/
def hasNetDevice : FaceKind → Bool
  | .noDevice => false
  | _ => true

/-- `GeoTagStrategy::getSatAddress` with `getRemoteNetDevice` (fw/geotag-strategy.cpp:274-304): the address of device 0 of the node
at the other end of an inter-satellite link, of the own node for any other device; without a net device a null pointer is
dereferenced (line 277).  Simplification: device 0 of the remote node carries a 6-byte satellite address (otherwise `ConvertFrom` asserts). -/
def getSatAddress (nh : NextHop) : Outcome (Nat × Nat) :=
  match nh.kind with
  | .noDevice => .ub .nullDeref
  | .isl end0 end1 first => .ok (if first then end1 else end0)
  | .other own => .ok own

/-- `std::find_if` with a predicate that may fail: evaluated left to right, stops at the first match. -/
def findIf (p : NextHop → Outcome Bool) : List NextHop → Outcome (Option NextHop)
  | [] => .ok none
  | h :: hs =>
    match p h with
    | .ok true => .ok (some h)
    | .ok false => findIf p hs
    | .ub f => .ub f
    | .abort => .abort
    | .assertFail => .assertFail

/-- The predicates given to `std::find_if` in the `switch` (fw/geotag-strategy.cpp:141-176); `this` = `(plane_this, pindex_this)`.
The remainders are taken by `size_t` values: by zero they are undefined. -/
def matchTarget (nPlanes planeSize : Nat) (this : Nat × Nat) (target : Target) (nh : NextHop) : Outcome Bool := do
  let a ← getSatAddress nh
  match target with
  | .sendToGround => .ok (a.1 == this.1 && a.2 == this.2)
  | .nextPlane => do let m ← Outcome.natMod (this.1 + 1) nPlanes; .ok (a.1 == m)
  | .previousPlane => do let m ← Outcome.natMod (nPlanes + this.1 - 1) nPlanes; .ok (a.1 == m)
  | .nextSat =>
    if a.1 == this.1 then do let m ← Outcome.natMod (this.2 + 1) planeSize; .ok (a.2 == m) else .ok false
  | .previousSat =>
    if a.1 == this.1 then do let m ← Outcome.natMod (planeSize + this.2 - 1) planeSize; .ok (a.2 == m) else .ok false

/-- Result of NFD's `RetxSuppressionExponential::decidePerPitEntry`. -/
inductive Suppression where
  | new | forward | suppress
  deriving DecidableEq, Repr

/-- Requests made to the forwarder. -/
inductive Action where
  | sendInterest (face : Nat)
  | sendNackNoRoute
  | rejectPending
  deriving DecidableEq, Repr

/-- Everything `afterReceiveInterest` reads from NFD.  `eligible` is `isNextHopEligible (…, nh, pitEntry)`, `unused` the variant with
`wantUnused = true`, `lastRenewed` the time of the PIT out-record of a next hop; these services belong to NFD and are arbitrary.
`this` is the address of the `Sat2GroundNetDevice` that is device 0 of the ingress device's node (`none`: device 0 is
something else, fw/geotag-strategy.cpp:117-120 then dereferences null). -/
structure Env where
  nPlanes : Nat
  planeSize : Nat
  suppression : Suppression
  nexthops : List NextHop
  tag : Option (Nat × Nat)
  ingress : FaceKind
  this : Option (Nat × Nat)
  eligible : NextHop → Bool
  unused : NextHop → Bool
  lastRenewed : NextHop → Nat

/-- One step of NFD's `findEligibleNextHopWithEarliestOutRecord` loop (NFD daemon/fw/algorithm.cpp, not part of the repository):
a strictly earlier out-record replaces the candidate. -/
def earliestStep (env : Env) (best : Option NextHop) (h : NextHop) : Option NextHop :=
  if env.eligible h then
    match best with
    | none => some h
    | some b => if env.lastRenewed h < env.lastRenewed b then some h else some b
  else best

/-- Lines 177-192 and 200-216: the found next hop gets the Interest, otherwise Nack and reject. -/
def sendOrNack : Option NextHop → List Action
  | some h => [.sendInterest h.face]
  | none => [.sendNackNoRoute, .rejectPending]

/-- Lines 218-243: a retransmission goes to the first unused next hop, else to the eligible one used earliest, else nowhere. -/
def retransmit (env : Env) : List Action :=
  match env.nexthops.find? env.unused with
  | some h => [.sendInterest h.face]
  | none =>
    match env.nexthops.foldl (earliestStep env) none with
    | some h => [.sendInterest h.face]
    | none => []

/-- `GeoTagStrategy::afterReceiveInterest` (fw/geotag-strategy.cpp:93-244). -/
def afterReceiveInterest (env : Env) : Outcome (List Action) :=
  if env.suppression = .suppress then .ok []
  else
    match env.tag, hasNetDevice env.ingress with
    | some t, true => do
      let this ← Outcome.deref env.this
      let nhs := env.nexthops.filter env.eligible
      let target := getTarget env.nPlanes env.planeSize t.1 t.2 this.1 this.2
      let found ← findIf (matchTarget env.nPlanes env.planeSize this target) nhs
      .ok (sendOrNack found)
    | _, _ =>
      if env.suppression = .new then .ok (sendOrNack (env.nexthops.find? env.eligible))
      else .ok (retransmit env)

end GeoTag
end Icarus
