import Verif.Model.ConstellationHelper
import Verif.Model.GroundSatChannel

/-!
# Model of device installation in `helper/icarus-helper.cc`

Nodes are values of a type `N`.  The configured factories (queue, MAC, tracker, success model) create one object per device or node; only the
tracker matters here, because ns-3 aborts when a second object of the same type is aggregated to a node.
-/

set_option autoImplicit false

namespace Icarus
namespace IcarusHelper

variable {N V : Type}

/-- Mobility model of a node: a position set by the user or the orbit created by `ConstellationHelper::LaunchSatellite`. -/
inductive Mobility (V : Type) where
  | fixed (p : V)
  | orbit (o : OrbitElements)

/-- A net device: the node it was added to and a serial number that distinguishes devices of one node. -/
structure Dev (N : Type) where
  node : N
  serial : Nat
  deriving DecidableEq

/-- An installed device with the address set on it: a satellite address or a MAC address (the number of the allocation). -/
inductive Installed (N : Type) where
  | sat (d : Dev N) (a : SatAddress)
  | ground (d : Dev N) (mac : Nat)

def Installed.dev : Installed N → Dev N
  | .sat d _ => d
  | .ground d _ => d

/-- Everything that installation changes: the constellation helper, the ground devices of the channel (`m_ground`), the objects aggregated to
nodes, the counter of `Mac48Address::Allocate`, and the container `devices` returned. -/
structure St (N V : Type) where
  helper : ConstellationHelper (Dev N)
  channelGround : List (Dev N)
  mobility : N → Option (Mobility V)
  tracker : N → Bool
  macs : Nat
  devices : List (Installed N)

/-- The channel: `Install` makes it point to the constellation of the helper (helper/icarus-helper.cc:247). -/
def St.channel (st : St N V) : GroundSatChannel.Chan (Dev N) (Dev N) := ⟨some st.helper.constellation, st.channelGround⟩

/-- `InstallPriv` with `CreateDeviceForNode` (helper/icarus-helper.cc:267-312), `Sat2GroundNetDevice::Attach` (model/sat2ground-net-device.cc:182-191),
`GroundStaNetDevice::Attach` (model/ground-sta-net-device.cc:206-216) and `AddGroundDevice` (model/ground-sat-channel.cc:73-81). -/
def installPriv [DecidableEq N] (debug : Bool) (e : Endian) (st : St N V) (node : N) : Outcome (St N V) :=
  let d : Dev N := ⟨node, st.devices.length⟩
  match st.mobility node with
  | none =>
    match st.helper.launch debug e d with
    | .ok (a, orbit, h) =>
      .ok { st with helper := h, mobility := fun x => if x = node then some (.orbit orbit) else st.mobility x,
                    devices := st.devices ++ [.sat d a] }
    | .ub f => .ub f
    | .abort => .abort
    | .assertFail => .assertFail
  | some _ =>
    if st.tracker node then .abort else
    .ok { st with macs := st.macs + 1, tracker := fun x => if x = node then true else st.tracker x,
                  channelGround := st.channelGround ++ [d], devices := st.devices ++ [.ground d (st.macs + 1)] }

/-- `Install` of a container of nodes (helper/icarus-helper.cc:239-255). -/
def install [DecidableEq N] (debug : Bool) (e : Endian) (st : St N V) (nodes : List N) : Outcome (St N V) :=
  match nodes with
  | [] => .ok st
  | node :: rest => do
    let st' ← installPriv debug e st node
    install debug e st' rest

/-- Before installation: a new constellation helper and channel; nodes have the given positions and no tracker. -/
def St.init (h : ConstellationHelper (Dev N)) (pos : N → Option V) (macs : Nat) : St N V :=
  { helper := h, channelGround := [], mobility := fun x => (pos x).map .fixed, tracker := fun _ => false, macs, devices := [] }

end IcarusHelper
end Icarus
