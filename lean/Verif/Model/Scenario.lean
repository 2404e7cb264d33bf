import Verif.Model.IcarusHelper
import Verif.Model.GeoTag
import Verif.Model.Isl
import Verif.Model.IslNet

/-!
# Model of a whole set-up: helpers, faces, default routes and the GeoTag strategy

The order of calls is that of examples/ground2groundping.cc:117-135: `IcarusHelper::Install` on all nodes, `ISLHelper::Install` on the satellites, the NDN
stack with default routes on all nodes, the GeoTag strategy on all nodes.
-/

set_option autoImplicit false

namespace Icarus
namespace Scenario
open IcarusHelper GeoTag
open IslNet (End owner makeChannel)

/-- A net device: made by `IcarusHelper`, or one end of an inter-satellite link. -/
inductive NetDev {N : Type} (links : List (N × N)) where
  | icarus (x : Installed N)
  | isl (d : End links)

/-- Build and host: debug build, byte order, registered address types. -/
structure Host where
  debug : Bool
  endian : Endian
  satTy : UInt8
  macTy : UInt8

/-- The objects made by the helpers: the result of `IcarusHelper::Install`, and the inter-satellite links as pairs of nodes. -/
structure Net (N V : Type) where
  st : St N V
  links : List (N × N)

variable {N V : Type} [DecidableEq N]

/-- The ends of the links in the order in which their devices are created (helper/isl-helper.cc:217-218). -/
def ends {N : Type} (links : List (N × N)) : List (End links) := (List.finRange links.length).flatMap (fun k => [(k, false), (k, true)])

/-- The devices of a node, in the order of `AddDevice`. -/
def devices (net : Net N V) (x : N) : List (NetDev net.links) :=
  (net.st.devices.filter (fun y => y.dev.node = x)).map .icarus ++ ((ends net.links).filter (fun d => owner net.links d = x)).map .isl

/-- Does the node carry a mobility model; is it a circular orbit. -/
def hasPos (net : Net N V) (x : N) : Bool := (net.st.mobility x).isSome

def hasOrbit (net : Net N V) (x : N) : Bool :=
  match net.st.mobility x with
  | some (.orbit _) => true
  | _ => false

/-- The six bytes of the `m`-th address given out by `Mac48Address::Allocate` (ns-3). -/
def macBytes (m : Nat) : List UInt8 := [40, 32, 24, 16, 8, 0].map (fun k => UInt8.ofNat (m / 2 ^ k % 256))

/-- `GetAddress` of a device (model/ground-sta-net-device.cc:278-284, model/sat2ground-net-device.cc:243-249, model/sat-net-device.cc:270-277). -/
def deviceAddress (h : Host) {links : List (N × N)} : NetDev links → SatAddress.Address
  | .icarus (.sat _ a) => a.convertTo h.endian h.satTy
  | .icarus (.ground _ m) => ⟨h.macTy, macBytes m⟩
  | .isl _ => ⟨h.macTy, List.replicate 6 0xff⟩

/-- The plane and position in a satellite address. -/
def placeOf (e : Endian) (a : SatAddress) : Nat × Nat := ((a.getOrbitalPlane e).toNat, (a.getPlaneIndex e).toNat)

/-- `SatAddress::ConvertFrom (node->GetDevice (0)->GetAddress ())` (fw/geotag-strategy.cpp:300-303). -/
def nodePlace (h : Host) (net : Net N V) (x : N) : Outcome (Nat × Nat) := do
  let d ← Outcome.index (devices net x) 0
  let a ← SatAddress.convertFrom h.debug h.endian h.satTy (deviceAddress h d)
  .ok (placeOf h.endian a)

/-- The face of a device as the strategy sees it (fw/geotag-strategy.cpp:253-304): the callbacks give ground stations a `GroundStaTransport`
(helper/icarus-helper.cc:516), which has no device for the strategy, satellites a `Sat2GroundTransport` (helper/icarus-helper.cc:545) and inter-satellite devices a
`NetDeviceTransport` (helper/isl-helper.cc:439).  Simplification: the places of both ends of a link are looked up here, whereas the code looks up
those of the next hops it compares. -/
def faceKind (h : Host) (net : Net N V) : NetDev net.links → Outcome FaceKind
  | .icarus (.ground _ _) => .ok .noDevice
  | .icarus (.sat d _) => do
    let a ← nodePlace h net d.node
    .ok (.other a)
  | .isl d => do
    let chan ← makeChannel h.debug (hasPos net) (hasOrbit net) net.links d.1
    let d0 ← Sat2SatChannel.getDevice chan 0
    let d0 ← Outcome.deref d0
    let d1 ← Sat2SatChannel.getDevice chan 1
    let d1 ← Outcome.deref d1
    let a0 ← nodePlace h net (owner net.links d0)
    let a1 ← nodePlace h net (owner net.links d1)
    .ok (.isl a0 a1 (d0 = d))

/-- The default routes of ndnSIM (`SetDefaultRoutes`): a next hop for the face of every device.  Faces are numbered as the devices of the node. -/
def routes (h : Host) (net : Net N V) : Nat → List (NetDev net.links) → Outcome (List NextHop)
  | _, [] => .ok []
  | k, d :: ds => do
    let kind ← faceKind h net d
    let rest ← routes h net (k + 1) ds
    .ok (⟨k, kind⟩ :: rest)

/-- Link type of a face: ad hoc for the transports of this repository (model/ndn/ground-sta-transport.h:49, model/ndn/sat2ground-transport.h:50), point to point for
`NetDeviceTransport`. -/
def adHoc : FaceKind → Bool
  | .isl _ _ _ => false
  | _ => true

/-- Constructor of the strategy (fw/geotag-strategy.cpp:75-82): the size of the constellation is found through device 0 of the last node, which is taken to be a
ground station.  `nodes` is ns-3's `NodeList`.  Simplification: instance names have no parameters and the right version (lines 65-73). -/
def strategyNew (net : Net N V) (nodes : List N) : Outcome (Nat × Nat) := do
  let x ← match nodes.getLast? with
    | none => .ub .outOfRange
    | some x => .ok x
  let d ← Outcome.index (devices net x) 0
  match d with
  | .icarus (.ground _ _) => .ok (net.st.helper.constellation.nPlanes, net.st.helper.constellation.planeSize)
  | _ => .ub .nullDeref

/-- What NFD's tables hold for the Interest; `order` is the order in which the FIB lists the next hops. -/
structure Nfd where
  suppression : Suppression
  unused : NextHop → Bool
  lastRenewed : NextHop → Nat
  order : List NextHop → List NextHop

/-- The address of the `Sat2GroundNetDevice` that is device 0 of the node (fw/geotag-strategy.cpp:117-123). -/
def thisPlace (h : Host) (net : Net N V) (x : N) : Option (Nat × Nat) :=
  match devices net x with
  | .icarus (.sat _ a) :: _ => some (placeOf h.endian a)
  | _ => none

/-- `afterReceiveInterest` at node `x` for an Interest with tag `t` received on face `i`.  A next hop is eligible if it is not the face that the Interest
came from, or is ad hoc (NFD `isNextHopEligible`; the scope rules concern local names only). -/
def receive (h : Host) (net : Net N V) (nodes : List N) (nfd : Nfd) (x : N) (i : Nat) (t : Nat × Nat) : Outcome (List Action) := do
  let size ← strategyNew net nodes
  let hops ← routes h net 0 (devices net x)
  let ingress ← Outcome.index hops i
  afterReceiveInterest
    { nPlanes := size.1
      planeSize := size.2
      suppression := nfd.suppression
      nexthops := nfd.order hops
      tag := some t
      ingress := ingress.kind
      this := thisPlace h net x
      eligible := fun g => g.face ≠ i || adHoc g.kind
      unused := nfd.unused
      lastRenewed := nfd.lastRenewed }

/-- `afterReceiveInterest` at node `x` for an Interest, tagged or not, from a local application: its face has no net device and is none of the next hops. -/
def receiveFromApp (h : Host) (net : Net N V) (nodes : List N) (nfd : Nfd) (x : N) (tag : Option (Nat × Nat)) : Outcome (List Action) := do
  let size ← strategyNew net nodes
  let hops ← routes h net 0 (devices net x)
  afterReceiveInterest
    { nPlanes := size.1
      planeSize := size.2
      suppression := nfd.suppression
      nexthops := nfd.order hops
      tag := tag
      ingress := .noDevice
      this := thisPlace h net x
      eligible := fun _ => true
      unused := nfd.unused
      lastRenewed := nfd.lastRenewed }

/-- The constellation numbers read by `ISLHelper::Install` from device 0 of each node of the container (helper/isl-helper.cc:131-146);
`ConvertFrom` of the device's `ConvertTo` is left out. -/
def constellationIds (h : Host) (st : St N V) : List N → Outcome (List UInt16)
  | [] => .ok []
  | b :: bs => do
    let d ← Outcome.index (devices ⟨st, []⟩ b) 0
    let id ← match d with
      | .icarus (.sat _ a) => Outcome.ok (a.getConstellationId h.endian)
      | _ => .ub .nullDeref
    let rest ← constellationIds h st bs
    .ok (id :: rest)

/-- The set-up: `IcarusHelper::Install` on `nodes` (of which `pos` have a position) and `ISLHelper::Install` on `birds`. -/
def build (h : Host) (helper : ConstellationHelper (Dev N)) (pos : N → Option V) (macs : Nat) (nodes birds : List N) : Outcome (Net N V) := do
  let st ← install h.debug h.endian (St.init helper pos macs) nodes
  let ids ← constellationIds h st birds
  let links ← Isl.install h.debug st.helper.constellation ids
  .ok ⟨st, links.map (fun l => (l.1.node, l.2.node))⟩

end Scenario
end Icarus
