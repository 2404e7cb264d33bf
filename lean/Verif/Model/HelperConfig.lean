import Verif.Model.Outcome

/-!
# Model of the configuration of the helpers: `helper/icarus-helper.cc`, `helper/isl-helper.cc`

The helpers keep ns-3 object factories.  `TypeId`, `ObjectFactory`, `AttributeConstructionList` and `PcapHelper::HookDefaultSink` belong to ns-3
(release 3.30, which ndnSIM uses); they are not part of the repository and are modelled here as far as the helpers need them.  Attribute values
form an arbitrary type `V`.  Environment variables that override initial values are not modelled.
-/

set_option autoImplicit false

namespace Icarus
namespace HelperConfig

/-! ## ns-3 -/

/-- An attribute in the table of a class: its initial value and its checker. -/
structure Attr (V : Type) where
  name : String
  initial : V
  valid : V → Bool

/-- A registered class: its name and, from the class itself up to the root, the classes with the attributes and trace sources each of them declares. -/
structure Cls (V : Type) where
  levels : List (String × List (Attr V) × List String)
  /-- `AddConstructor` was called for the class itself. -/
  constructible : Bool

def Cls.name {V : Type} (c : Cls V) : Option String := c.levels.head?.map (·.1)

/-- `TypeId::LookupAttributeByName`: the class itself first, then its ancestors.  The result identifies the attribute by the class declaring it. -/
def Cls.attr {V : Type} (c : Cls V) (n : String) : Option (String × Attr V) :=
  c.levels.findSome? (fun l => (l.2.1.find? (fun a => a.name == n)).map (fun a => (l.1, a)))

/-- `TypeId::LookupTraceSourceByName` -/
def Cls.hasTrace {V : Type} (c : Cls V) (n : String) : Bool := c.levels.any (fun l => l.2.2.contains n)

/-- `TypeId::IsChildOf` or equal -/
def Cls.isA {V : Type} (c : Cls V) (base : String) : Bool := c.levels.any (fun l => l.1 == base)

/-- The registered classes. -/
abbrev Registry (V : Type) := List (Cls V)

def Registry.find {V : Type} (reg : Registry V) (n : String) : Option (Cls V) := reg.find? (fun c => c.name == some n)

/-- `ObjectFactory`: the class (`none`: the invalid identification 0) and the values set, with the attribute each belongs to. -/
structure Factory (V : Type) where
  cls : Option (Cls V)
  params : List ((String × String) × V)

/-- `ObjectFactory::SetTypeId` with `TypeId::LookupByName`: an unknown name fails an assertion; without assertions the factory gets the invalid class.
The values set before are kept. -/
def Factory.setTypeId {V : Type} (debug : Bool) (reg : Registry V) (f : Factory V) (n : String) : Outcome (Factory V) := do
  let c := reg.find n
  Outcome.nsAssert debug c.isSome
  .ok { f with cls := c }

/-- `ObjectFactory::Set` with `AttributeConstructionList::Add`.  An empty name is ignored; an unknown attribute or a value that its checker rejects
is a fatal error; with the invalid class the table of classes is indexed out of range. -/
def Factory.set {V : Type} (f : Factory V) (n : String) (v : V) : Outcome (Factory V) :=
  if n = "" then .ok f else
  match f.cls with
  | none => .ub .outOfRange
  | some c =>
    match c.attr n with
    | none => .abort
    | some (owner, a) =>
      if a.valid v then .ok { f with params := f.params.filter (fun x => !(x.1 == (owner, n))) ++ [((owner, n), v)] } else .abort

/-- An object made by a factory: its class and the value of an attribute, given the class that declares it. -/
structure Obj (V : Type) where
  cls : Cls V
  value : String → String → Option V

/-- `ObjectBase::ConstructSelf`: the attribute `n` declared by the ancestor `owner` gets the value set, or the initial one. -/
def construct {V : Type} (c : Cls V) (params : List ((String × String) × V)) (owner n : String) : Option V :=
  match c.levels.find? (fun l => l.1 == owner) with
  | none => none
  | some l =>
    match l.2.1.find? (fun a => a.name == n) with
    | none => none
    | some a =>
      match params.find? (fun x => x.1 == (owner, n)) with
      | some x => some x.2
      | none => some a.initial

/-- `ObjectFactory::Create`.  `TypeId::GetConstructor` is a fatal error for a class without a constructor. -/
def Factory.create {V : Type} (f : Factory V) : Outcome (Obj V) :=
  match f.cls with
  | none => .ub .outOfRange
  | some c => if c.constructible then .ok ⟨c, construct c f.params⟩ else .abort

/-- `ObjectFactory::Create<T>`: a null pointer unless the object is a `T`. -/
def Factory.createAs {V : Type} (f : Factory V) (base : String) : Outcome (Option (Obj V)) := do
  let o ← f.create
  .ok (if o.cls.isA base then some o else none)

/-- `ObjectBase::GetAttribute` right after construction. -/
def Obj.get {V : Type} (o : Obj V) (n : String) : Option V :=
  match o.cls.attr n with
  | none => none
  | some (owner, _) => o.value owner n

/-! ## The helpers -/

/-- `SetTypeId` followed by four calls of `Set`; here any number of them. -/
def setAll {V : Type} (f : Factory V) : List (String × V) → Outcome (Factory V)
  | [] => .ok f
  | (n, v) :: rest => do
    let f' ← f.set n v
    setAll f' rest

def configure {V : Type} (debug : Bool) (reg : Registry V) (f : Factory V) (type : String) (nvs : List (String × V)) : Outcome (Factory V) := do
  let f' ← f.setTypeId debug reg type
  setAll f' nvs

/-- `QueueBase::AppendItemTypeIfNotPresent (type, "Packet")`.  For an empty name `back` is undefined. -/
def appendItemType (type : String) : Outcome String :=
  match type.toList.getLast? with
  | none => .ub .outOfRange
  | some ch => .ok (if ch = '>' then type else type ++ "<Packet>")

/-- `IcarusHelper` (helper/icarus-helper.cc:55-68) -/
structure Icarus (V : Type) where
  queue : Factory V
  channel : Factory V
  sat2Ground : Factory V
  groundSta : Factory V
  successModel : Factory V
  macModel : Factory V
  tracker : Factory V
  propDelay : Factory V
  propLoss : Factory V

/-- A factory before its class is set. -/
def Factory.new {V : Type} : Factory V := ⟨none, []⟩

/-- The constructor (helper/icarus-helper.cc:55-68) -/
def Icarus.init {V : Type} (debug : Bool) (reg : Registry V) : Outcome (Icarus V) := do
  let queue ← Factory.new.setTypeId debug reg "ns3::DropTailQueue<Packet>"
  let channel ← Factory.new.setTypeId debug reg "ns3::icarus::GroundSatChannel"
  let sat2Ground ← Factory.new.setTypeId debug reg "ns3::icarus::Sat2GroundNetDevice"
  let groundSta ← Factory.new.setTypeId debug reg "ns3::icarus::GroundStaNetDevice"
  let successModel ← Factory.new.setTypeId debug reg "ns3::icarus::GroundSatSuccessElevation"
  let macModel ← Factory.new.setTypeId debug reg "ns3::icarus::NoneMacModel"
  let tracker ← Factory.new.setTypeId debug reg "ns3::icarus::GroundNodeSatTrackerPeriodic"
  let propDelay ← Factory.new.setTypeId debug reg "ns3::ConstantSpeedPropagationDelayModel"
  let propLoss ← Factory.new.setTypeId debug reg "ns3::FriisPropagationLossModel"
  .ok { queue, channel, sat2Ground, groundSta, successModel, macModel, tracker, propDelay, propLoss }

/-- The setters of `IcarusHelper`. -/
inductive Setter (V : Type) where
  /-- `SetQueue` (helper/icarus-helper.cc:70-84) -/
  | queue (type : String) (nvs : List (String × V))
  /-- `SetSuccessModel` (helper/icarus-helper.cc:86-99) -/
  | successModel (type : String) (nvs : List (String × V))
  /-- `SetPropagationDelayModel` (helper/icarus-helper.cc:101-115) -/
  | propDelay (type : String) (nvs : List (String × V))
  /-- `SetPropagationLossModel` (helper/icarus-helper.cc:117-131) -/
  | propLoss (type : String) (nvs : List (String × V))
  /-- `SetMacModel` (helper/icarus-helper.cc:133-146) -/
  | macModel (type : String) (nvs : List (String × V))
  /-- `SetTrackerModel` (helper/icarus-helper.cc:148-161) -/
  | tracker (type : String) (nvs : List (String × V))
  /-- `SetDeviceAttribute` (helper/icarus-helper.cc:163-170) -/
  | device (n : String) (v : V)
  /-- `SetChannelAttribute` (helper/icarus-helper.cc:172-178) -/
  | channel (n : String) (v : V)

def Icarus.apply {V : Type} (debug : Bool) (reg : Registry V) (h : Icarus V) : Setter V → Outcome (Icarus V)
  | .queue type nvs => do
    let t ← appendItemType type
    let f ← configure debug reg h.queue t nvs
    .ok { h with queue := f }
  | .successModel type nvs => do
    let f ← configure debug reg h.successModel type nvs
    .ok { h with successModel := f }
  | .propDelay type nvs => do
    let f ← configure debug reg h.propDelay type nvs
    .ok { h with propDelay := f }
  | .propLoss type nvs => do
    let f ← configure debug reg h.propLoss type nvs
    .ok { h with propLoss := f }
  | .macModel type nvs => do
    let f ← configure debug reg h.macModel type nvs
    .ok { h with macModel := f }
  | .tracker type nvs => do
    let f ← configure debug reg h.tracker type nvs
    .ok { h with tracker := f }
  | .device n v => do
    let f ← h.sat2Ground.set n v
    let g ← h.groundSta.set n v
    .ok { h with sat2Ground := f, groundSta := g }
  | .channel n v => do
    let f ← h.channel.set n v
    .ok { h with channel := f }

/-- `ISLHelper` (helper/isl-helper.cc:49-58) -/
structure Isl (V : Type) where
  queue : Factory V
  channel : Factory V
  device : Factory V
  successModel : Factory V
  propDelay : Factory V

/-- The constructor (helper/isl-helper.cc:49-58) -/
def Isl.init {V : Type} (debug : Bool) (reg : Registry V) : Outcome (Isl V) := do
  let queue ← Factory.new.setTypeId debug reg "ns3::DropTailQueue<Packet>"
  let channel ← Factory.new.setTypeId debug reg "ns3::icarus::Sat2SatChannel"
  let device ← Factory.new.setTypeId debug reg "ns3::icarus::SatNetDevice"
  let successModel ← Factory.new.setTypeId debug reg "ns3::icarus::Sat2SatSuccessModel"
  let propDelay ← Factory.new.setTypeId debug reg "ns3::ConstantSpeedPropagationDelayModel"
  .ok { queue, channel, device, successModel, propDelay }

/-- `ISLHelper::SetQueue` (helper/isl-helper.cc:60-74) -/
def Isl.setQueue {V : Type} (debug : Bool) (reg : Registry V) (h : Isl V) (type : String) (nvs : List (String × V)) : Outcome (Isl V) := do
  let t ← appendItemType type
  let f ← configure debug reg h.queue t nvs
  .ok { h with queue := f }

/-- `ISLHelper::SetSuccessModel` (helper/isl-helper.cc:76-91) -/
def Isl.setSuccessModel {V : Type} (debug : Bool) (reg : Registry V) (h : Isl V) (type : String) (nvs : List (String × V)) : Outcome (Isl V) := do
  let t ← appendItemType type
  let f ← configure debug reg h.successModel t nvs
  .ok { h with successModel := f }

/-- `ISLHelper::SetPropagationDelayModel` (helper/isl-helper.cc:93-107) -/
def Isl.setPropDelay {V : Type} (debug : Bool) (reg : Registry V) (h : Isl V) (type : String) (nvs : List (String × V)) : Outcome (Isl V) := do
  let f ← configure debug reg h.propDelay type nvs
  .ok { h with propDelay := f }

/-- `ISLHelper::SetDeviceAttribute` (helper/isl-helper.cc:109-115) -/
def Isl.setDevice {V : Type} (h : Isl V) (n : String) (v : V) : Outcome (Isl V) := do
  let f ← h.device.set n v
  .ok { h with device := f }

/-- `ISLHelper::SetChannelAttribute` (helper/isl-helper.cc:117-123) -/
def Isl.setChannel {V : Type} (h : Isl V) (n : String) (v : V) : Outcome (Isl V) := do
  let f ← h.channel.set n v
  .ok { h with channel := f }

/-! ## What the helper creates -/

/-- The device created for a node with its queue and its MAC, and the tracker of a ground node. -/
structure Made (V : Type) where
  device : Obj V
  mac : Option (Obj V)
  tracker : Option (Obj V)
  queue : Obj V

/-- `CreateDeviceForNode` and `InstallPriv` (helper/icarus-helper.cc:267-312), as far as objects are created.  `orbiting`: the node has no mobility
model yet.  `SetAttribute` accepts a null pointer for the MAC.  A queue that is not a packet queue is a null pointer, dereferenced by
`ConnectQueueTraces`; `AggregateObject` dereferences the tracker.  The launch is in `Model/ConstellationHelper.lean`. -/
def Icarus.make {V : Type} (h : Icarus V) (orbiting : Bool) : Outcome (Made V) :=
  if orbiting then do
    let d ← h.sat2Ground.createAs "ns3::icarus::Sat2GroundNetDevice"
    let m ← h.macModel.createAs "ns3::icarus::MacModel"
    let d ← Outcome.deref d
    let q ← h.queue.createAs "ns3::Queue<Packet>"
    let q ← Outcome.deref q
    .ok ⟨d, m, none, q⟩
  else do
    let d ← h.groundSta.createAs "ns3::icarus::GroundStaNetDevice"
    let m ← h.macModel.createAs "ns3::icarus::MacModel"
    let d ← Outcome.deref d
    let t ← h.tracker.createAs "ns3::icarus::GroundNodeSatTracker"
    let t ← Outcome.deref t
    let q ← h.queue.createAs "ns3::Queue<Packet>"
    let q ← Outcome.deref q
    .ok ⟨d, m, some t, q⟩

/-- The objects of a channel.  A null pointer is accepted by `SetAttribute` for each of them. -/
structure MadeChannel (V : Type) where
  channel : Obj V
  success : Option (Obj V)
  propDelay : Option (Obj V)
  propLoss : Option (Obj V)

/-- `Install (c, chelper)` (helper/icarus-helper.cc:220-237), the creation of the channel. -/
def Icarus.makeChannel {V : Type} (h : Icarus V) : Outcome (MadeChannel V) := do
  let c ← h.channel.createAs "ns3::icarus::GroundSatChannel"
  let s ← h.successModel.createAs "ns3::icarus::GroundSatSuccessModel"
  let c ← Outcome.deref c
  let d ← h.propDelay.createAs "ns3::PropagationDelayModel"
  let l ← h.propLoss.createAs "ns3::PropagationLossModel"
  .ok ⟨c, s, d, l⟩

/-- `ISLHelper::Install (a, b)` (helper/isl-helper.cc:204-220), the creation of the channel. -/
def Isl.makeChannel {V : Type} (h : Isl V) : Outcome (MadeChannel V) := do
  let c ← h.channel.createAs "ns3::icarus::Sat2SatChannel"
  let s ← h.successModel.createAs "ns3::icarus::Sat2SatSuccessModel"
  let c ← Outcome.deref c
  let d ← h.propDelay.createAs "ns3::PropagationDelayModel"
  .ok ⟨c, s, d, none⟩

/-! ## Capture files -/

/-- `PcapHelper::HookDefaultSink`: an assertion that the trace source exists; without assertions nothing is connected.  Result: the trace source connected. -/
def hookDefaultSink {V : Type} (debug : Bool) (c : Cls V) (trace : String) : Outcome (Option String) := do
  Outcome.nsAssert debug (c.hasTrace trace)
  .ok (if c.hasTrace trace then some trace else none)

/-- `IcarusHelper::EnablePcapInternal` (helper/icarus-helper.cc:314-357): `none` when the device is not one of this helper's (no file is created), otherwise
the trace source written to the file. -/
def Icarus.enablePcap {V : Type} (debug : Bool) (c : Cls V) (promiscuous : Bool) : Outcome (Option (Option String)) :=
  if c.isA "ns3::icarus::GroundStaNetDevice" || c.isA "ns3::icarus::Sat2GroundNetDevice" then do
    let r ← hookDefaultSink debug c (if promiscuous then "PromiscSniffer" else "Sniffer")
    .ok (some r)
  else .ok none

/-- `ISLHelper::EnablePcapInternal` (helper/isl-helper.cc:240-279) -/
def Isl.enablePcap {V : Type} (debug : Bool) (c : Cls V) (promiscuous : Bool) : Outcome (Option (Option String)) :=
  if c.isA "ns3::icarus::SatNetDevice" then do
    let r ← hookDefaultSink debug c (if promiscuous then "PromiscSniffer" else "Sniffer")
    .ok (some r)
  else .ok none

/-! ## The classes of the repository -/

/-- What the tables of the repository leave open: initial values and checkers, by class and attribute. -/
structure Values (V : Type) where
  initial : String → String → V
  valid : String → String → V → Bool

def level {V : Type} (vals : Values V) (cls : String) (attrs traces : List String) : String × List (Attr V) × List String :=
  (cls, attrs.map (fun n => ⟨n, vals.initial cls n, vals.valid cls n⟩), traces)

def plain {V : Type} (cls : String) : String × List (Attr V) × List String := (cls, [], [])

/-- Trace sources of the devices (model/icarus-net-device.cc:66-114, model/sat-net-device.cc:69-117). -/
def deviceTraces : List String := ["MacTx", "MacTxDrop", "MacRx", "PhyRxBegin", "PhyTxBegin", "PhyTxEnd", "PhyRxEnd", "Sniffer"]

section
variable {V : Type} (vals : Values V)

/-- model/icarus-net-device.cc:34-118 -/
def icarusDeviceLevel : String × List (Attr V) × List String := level vals "ns3::icarus::IcarusNetDevice" ["Channel", "DataRate", "Mtu", "TxQueue"] deviceTraces

/-- model/ground-sta-net-device.cc:174-199 -/
def groundStaClass : Cls V := ⟨[level vals "ns3::icarus::GroundStaNetDevice" ["Address", "RemoteAddress", "MacModelTx", "TxPower"] [],
  icarusDeviceLevel vals, plain "ns3::NetDevice", plain "ns3::Object"], true⟩

/-- model/sat2ground-net-device.cc:155-175 -/
def sat2GroundClass : Cls V := ⟨[level vals "ns3::icarus::Sat2GroundNetDevice" ["Address", "MacModelRx", "TxPower"] [],
  icarusDeviceLevel vals, plain "ns3::NetDevice", plain "ns3::Object"], true⟩

/-- model/sat-net-device.cc:36-119 -/
def satClass : Cls V := ⟨[level vals "ns3::icarus::SatNetDevice" ["Channel", "DataRate", "Mtu", "TxQueue"] deviceTraces,
  plain "ns3::NetDevice", plain "ns3::Object"], true⟩

/-- model/ground-sat-channel.cc:43-70 -/
def groundSatChannelClass : Cls V := ⟨[level vals "ns3::icarus::GroundSatChannel" ["TxSuccess", "PropDelayModel", "PropLossModel"] ["PhyTxDrop"],
  plain "ns3::Channel", plain "ns3::Object"], true⟩

/-- model/sat2sat-channel.cc:45-69 -/
def sat2SatChannelClass : Cls V := ⟨[level vals "ns3::icarus::Sat2SatChannel" ["TxSuccess", "PropDelayModel"] ["PhyTxDrop"],
  plain "ns3::Channel", plain "ns3::Object"], true⟩

/-- model/ground-sat-success-elevation.cc:48-66, model/ground-sat-success-model.cc:31-40 -/
def successElevationClass : Cls V := ⟨[level vals "ns3::icarus::GroundSatSuccessElevation" ["MinElevation"] [],
  plain "ns3::icarus::GroundSatSuccessModel", plain "ns3::Object"], true⟩

/-- model/ground-sat-success-distance.cc:38-53 -/
def successDistanceClass : Cls V := ⟨[level vals "ns3::icarus::GroundSatSuccessDistance" ["MaxDistance"] [],
  plain "ns3::icarus::GroundSatSuccessModel", plain "ns3::Object"], true⟩

/-- model/sat2sat-success-model.cc:48-57 -/
def sat2SatSuccessClass : Cls V := ⟨[plain "ns3::icarus::Sat2SatSuccessModel", plain "ns3::Object"], true⟩

/-- model/mac/none-mac-model.cc:31-41 -/
def noneMacClass : Cls V := ⟨[plain "ns3::icarus::NoneMacModel", plain "ns3::icarus::MacModel", plain "ns3::Object"], true⟩

/-- model/mac/aloha-mac-model.cc:32-50 -/
def alohaMacClass : Cls V := ⟨[level vals "ns3::icarus::AlohaMacModel" ["SlotDuration", "SirThreshold"] [],
  plain "ns3::icarus::MacModel", plain "ns3::Object"], true⟩

/-- model/mac/crdsa-mac-model.cc:74-104 -/
def crdsaMacClass : Cls V := ⟨[level vals "ns3::icarus::CrdsaMacModel"
  ["SlotDuration", "SlotsPerFrame", "ReplicasPerPacket", "ReplicasDistribution", "SirThreshold"] [],
  plain "ns3::icarus::MacModel", plain "ns3::Object"], true⟩

/-- model/ground-node-sat-tracker-periodic.cc:37-55, model/ground-node-sat-tracker.cc:38-47 -/
def trackerPeriodicClass : Cls V := ⟨[level vals "ns3::icarus::GroundNodeSatTrackerPeriodic" ["TrackingInterval"] [],
  plain "ns3::icarus::GroundNodeSatTracker", plain "ns3::Object"], true⟩

/-- model/ground-node-sat-tracker-elevation.cc:53-73 -/
def trackerElevationClass : Cls V := ⟨[level vals "ns3::icarus::GroundNodeSatTrackerElevation" ["MinElevation"] [],
  plain "ns3::icarus::GroundNodeSatTracker", plain "ns3::Object"], true⟩

/-- model/circular-orbit.cc:48-59 -/
def circularOrbitClass : Cls V := ⟨[plain "ns3::icarus::CircularOrbitMobilityModel", plain "ns3::MobilityModel", plain "ns3::Object"], true⟩

/-- model/icarus-net-device.cc:34-118, abstract -/
def icarusDeviceClass : Cls V := ⟨[icarusDeviceLevel vals, plain "ns3::NetDevice", plain "ns3::Object"], false⟩

/-- model/mac/mac-model.cc:32-38, abstract -/
def macClass : Cls V := ⟨[plain "ns3::icarus::MacModel", plain "ns3::Object"], false⟩

/-- model/ground-sat-success-model.cc:33-40, abstract -/
def successClass : Cls V := ⟨[plain "ns3::icarus::GroundSatSuccessModel", plain "ns3::Object"], false⟩

/-- model/ground-node-sat-tracker.cc:40-47, abstract -/
def trackerClass : Cls V := ⟨[plain "ns3::icarus::GroundNodeSatTracker", plain "ns3::Object"], false⟩

/-- model/ground-sta-net-device.cc:127-135 -/
def groundSatTagClass : Cls V := ⟨[plain "ns3::GroundSatTag", plain "ns3::Tag", plain "ns3::ObjectBase"], true⟩

/-- model/sat2ground-net-device.cc:108-116 -/
def satGroundTagClass : Cls V := ⟨[plain "ns3::SatGroundTag", plain "ns3::Tag", plain "ns3::ObjectBase"], true⟩

/-- All of them. -/
def icarusClasses : Registry V := [icarusDeviceClass vals, macClass, successClass, trackerClass, groundSatTagClass, satGroundTagClass, groundStaClass vals, sat2GroundClass vals, satClass vals, groundSatChannelClass vals, sat2SatChannelClass vals,
  successElevationClass vals, successDistanceClass vals, sat2SatSuccessClass, noneMacClass, alohaMacClass vals, crdsaMacClass vals,
  trackerPeriodicClass vals, trackerElevationClass vals, circularOrbitClass]

end

end HelperConfig
end Icarus
