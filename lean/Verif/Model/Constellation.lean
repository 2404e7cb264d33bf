import Verif.Model.SatAddress

/-!
# Model of `model/constellation.{h,cc}`

A satellite device is an opaque value of type `D`.
-/

set_option autoImplicit false

namespace Icarus

/-- `class Constellation` (model/constellation.h).  `planes` is the `std::vector<std::vector<Ptr<…>>>`; `none` is
a null pointer. -/
structure Constellation (D : Type) where
  constellationId : Nat
  nPlanes : Nat
  planeSize : Nat
  planes : List (List (Option D))
  size : Nat
  deriving DecidableEq, Repr

namespace Constellation

variable {D : Type}

/-- Constructor (model/constellation.cc:52-65).  `id` is the value of the incremented global counter. -/
def create (id nPlanes planeSize : Nat) : Constellation D :=
  { constellationId := id, nPlanes, planeSize, planes := List.replicate nPlanes (List.replicate planeSize none), size := 0 }

/-- `m_planes[plane][index]` -/
def cell (c : Constellation D) (plane index : Nat) : Outcome (Option D) := do
  let p ← Outcome.index c.planes plane
  Outcome.index p index

/-- Overwrite one existing cell. -/
def setCell (c : Constellation D) (plane index : Nat) (v : Option D) : List (List (Option D)) :=
  c.planes.modify plane (fun row => row.set index v)

/-- `AddSatellite` (model/constellation.cc:67-86).  `hasOrbit` tells whether the satellite's node carries a
`CircularOrbitMobilityModel`; the satellite and its node are assumed non-null.  The address constructor takes
`uint16_t`s: all three numbers are truncated to 16 bits. -/
def addSatellite (e : Endian) (hasOrbit : D → Bool) (c : Constellation D) (plane order : Nat) (sat : D) :
    Outcome (SatAddress × Constellation D) := do
  let v ← c.cell plane order
  Outcome.abortUnless v.isNone
  Outcome.abortUnless (hasOrbit sat)
  let size := if v.isNone then c.size + 1 else c.size
  .ok (SatAddress.mk3 e (UInt16.ofNat c.constellationId) (UInt16.ofNat plane) (UInt16.ofNat order),
    { c with planes := c.setCell plane order (some sat), size })

/-- `getSqDistance` (model/constellation.cc:43-49) on any ring of coordinates. -/
def sqDistance {K : Type} [Add K] [Sub K] [Mul K] (a b : K × K × K) : K :=
  let x := b.1 - a.1
  let y := b.2.1 - a.2.1
  let z := b.2.2 - a.2.2
  x * x + y * y + z * z

/-- One iteration of the inner loop of `GetClosest` (model/constellation.cc:99-114).  `none` as best distance is
the initial `infinity`, against which every (non-NaN) distance compares `<=`. -/
def closestStep {K : Type} [LE K] [DecidableLE K] (dist : D → K) (best : Option (K × D)) (cell : Option D) :
    Option (K × D) :=
  match cell with
  | none => best
  | some d =>
    match best with
    | none => some (dist d, d)
    | some (m, b) => if dist d ≤ m then some (dist d, d) else some (m, b)

/-- `GetClosest` (model/constellation.cc:88-118).  `dist d` is the squared distance of the satellite `d` to the query
point (`sqDistance (position d) q`).  NaN coordinates are not modelled. -/
def getClosest {K : Type} [LE K] [DecidableLE K] (dist : D → K) (c : Constellation D) : Option D :=
  (c.planes.foldl (fun best plane => plane.foldl (closestStep dist) best) none).map (·.2)

/-- `GetSatellite (plane, index)` (model/constellation.cc:149-158). -/
def getSatellite (debug : Bool) (c : Constellation D) (plane index : Nat) : Outcome (Option D) := do
  Outcome.nsAssert debug (plane ≤ c.nPlanes)
  Outcome.nsAssert debug (index ≤ c.planeSize)
  c.cell plane index

/-- `GetSatellite (address)` (model/constellation.cc:136-147). -/
def getSatelliteAddr (debug : Bool) (e : Endian) (c : Constellation D) (a : SatAddress) : Outcome (Option D) := do
  Outcome.nsAssert debug ((a.getConstellationId e).toNat == c.constellationId)
  c.getSatellite debug (a.getOrbitalPlane e).toNat (a.getPlaneIndex e).toNat

/-- Body of the inner loop of `CreateNetDeviceContainer` (model/constellation.cc:168-174). -/
def containerStep (acc : List D) (cell : Option D) : List D :=
  match cell with
  | some d => acc ++ [d]
  | none => acc

/-- `CreateNetDeviceContainer` (model/constellation.cc:160-178): the two nested loops. -/
def createNetDeviceContainer (c : Constellation D) : List D :=
  c.planes.foldl (fun acc plane => plane.foldl containerStep acc) []

/-- `GetSize` (model/constellation.cc:186-192). -/
def getSize (debug : Bool) (c : Constellation D) : Outcome Nat := do
  Outcome.nsAssert debug (c.size ≤ c.nPlanes * c.planeSize)
  .ok c.size

/-- `Get` (model/constellation.cc:194-203). -/
def get (debug : Bool) (c : Constellation D) (index : Nat) : Outcome (Option D) := do
  let n ← c.getSize debug
  Outcome.abortUnless (index ≤ n)
  let plane ← Outcome.natDiv index c.planeSize
  let order ← Outcome.natMod index c.planeSize
  c.cell plane order

/-- A history of `AddSatellite` calls, each given by plane, position and device; collects the addresses. -/
def addAll (e : Endian) (hasOrbit : D → Bool) (c : Constellation D) :
    List (Nat × Nat × D) → Outcome (List SatAddress × Constellation D)
  | [] => .ok ([], c)
  | (p, o, d) :: rest =>
    match c.addSatellite e hasOrbit p o d with
    | .ok (a, c') =>
      match addAll e hasOrbit c' rest with
      | .ok (as, c'') => .ok (a :: as, c'')
      | .ub f => .ub f
      | .abort => .abort
      | .assertFail => .assertFail
    | .ub f => .ub f
    | .abort => .abort
    | .assertFail => .assertFail

end Constellation
end Icarus
