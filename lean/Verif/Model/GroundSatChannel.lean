import Verif.Model.Constellation

/-!
# Model of `model/ground-sat-channel.{h,cc}`

`D` are satellite devices, `G` ground devices, `V` positions, `W` powers (dBm), `F` frames (the packet pointer together with the data
rate, both of which are only passed on).
-/

set_option autoImplicit false

namespace Icarus
namespace GroundSatChannel

variable {D G V W F : Type}

/-- The channel: `m_constellation` (null at first) and `m_ground` (model/ground-sat-channel.h). -/
structure Chan (D G : Type) where
  constellation : Option (Constellation D)
  ground : List G

/-- A new channel (model/ground-sat-channel.cc:83-87). -/
def Chan.init : Chan D G := ⟨none, []⟩

/-- `AddGroundDevice` (model/ground-sat-channel.cc:73-81).  `gndPos g` : the `MobilityModel` of the device's node. -/
def addGround (gndPos : G → Option V) (c : Chan D G) (g : G) : Outcome (Chan D G) := do
  Outcome.abortUnless (gndPos g).isSome
  .ok { c with ground := c.ground ++ [g] }

/-- Attach several devices. -/
def addAll (gndPos : G → Option V) : Chan D G → List G → Outcome (Chan D G)
  | c, [] => .ok c
  | c, g :: gs =>
    match addGround gndPos c g with
    | .ok c' => addAll gndPos c' gs
    | .ub f => .ub f
    | .abort => .abort
    | .assertFail => .assertFail

/-- `SetConstellation` (model/ground-sat-channel.cc:193-199). -/
def setConstellation (c : Chan D G) (k : Option (Constellation D)) : Chan D G := { c with constellation := k }

/-- Everything the channel asks other objects at the instant of a transmission: positions of the nodes (`none`: no mobility model), the
propagation delay and loss models and the success model (`none`: null pointer).  Simplification: delay and loss models are functions of the
two positions, ground first, that dereference both.  The success model is called with the ground node first (in both
directions) and may abort. -/
structure Air (D G V W : Type) where
  gndPos : G → Option V
  satPos : D → Option V
  delay : Option (V → V → Nat)
  loss : Option (W → V → V → W)
  success : Option (G → D → Outcome Bool)

/-- What a transmission causes: a report on the `PhyTxDrop` trace, or a scheduled reception event `after` ticks later. -/
inductive Effect (D G W F : Type) where
  | drop (frame : F)
  | toSat (dev : D) (after : Nat) (frame : F) (src : SatAddress.Address) (proto : UInt16) (power : W)
  | toGround (dev : G) (after : Nat) (frame : F) (src : SatAddress.Address) (proto : UInt16) (power : W)
  deriving DecidableEq

/-- `m_txSuccessModel == nullptr || m_txSuccessModel->TramsmitSuccess (ground, sat)`. -/
def admitted (air : Air D G V W) (g : G) (d : D) : Outcome Bool :=
  match air.success with
  | none => .ok true
  | some m => m g d

/-- `Transmit2Sat` (model/ground-sat-channel.cc:94-137): effects and the returned duration.  `txTime` is
`bps.CalculateBytesTxTime (packet->GetSize ())`, `srcAddr` is `src->GetAddress ()`.  For a null satellite the drop is reported but the
function goes on to dereference the null pointer (lines 112-119). -/
def transmit2Sat (debug : Bool) (e : Endian) (c : Chan D G) (air : Air D G V W) (frame : F) (txTime : Nat) (src : G)
    (srcAddr : SatAddress.Address) (dst : SatAddress) (proto : UInt16) (txPower : W) : Outcome (List (Effect D G W F) × Nat) :=
  match c.constellation with
  | none => .ok ([.drop frame], txTime)
  | some k => do
    let v ← k.getSatelliteAddr debug e dst
    let sat ← Outcome.deref v
    let delay ← Outcome.deref air.delay
    let pg ← Outcome.deref (air.gndPos src)
    let ps ← Outcome.deref (air.satPos sat)
    let loss ← Outcome.deref air.loss
    let ok ← admitted air src sat
    if ok then .ok ([.toSat sat (delay pg ps) frame srcAddr proto (loss txPower pg ps)], txTime)
    else .ok ([.drop frame], txTime)

/-- Body of the loop of `Transmit2Ground` (model/ground-sat-channel.cc:146-167) for one ground device. -/
def toOneGround (air : Air D G V W) (frame : F) (src : D) (srcAddr : SatAddress.Address) (proto : UInt16) (txPower : W) (g : G) :
    Outcome (Effect D G W F) := do
  let delay ← Outcome.deref air.delay
  let pg ← Outcome.deref (air.gndPos g)
  let ps ← Outcome.deref (air.satPos src)
  let loss ← Outcome.deref air.loss
  let ok ← admitted air g src
  if ok then .ok (.toGround g (delay pg ps) frame srcAddr proto (loss txPower pg ps)) else .ok (.drop frame)

/-- The loop of `Transmit2Ground` (model/ground-sat-channel.cc:146-167) over the remaining devices. -/
def toGroundLoop (air : Air D G V W) (frame : F) (src : D) (srcAddr : SatAddress.Address) (proto : UInt16) (txPower : W) :
    List G → Outcome (List (Effect D G W F))
  | [] => .ok []
  | g :: gs => do
    let x ← toOneGround air frame src srcAddr proto txPower g
    let xs ← toGroundLoop air frame src srcAddr proto txPower gs
    .ok (x :: xs)

/-- `Transmit2Ground` (model/ground-sat-channel.cc:139-168). -/
def transmit2Ground (c : Chan D G) (air : Air D G V W) (frame : F) (src : D) (srcAddr : SatAddress.Address) (proto : UInt16) (txPower : W) :
    Outcome (List (Effect D G W F)) :=
  toGroundLoop air frame src srcAddr proto txPower c.ground

/-- `GetNDevices` (model/ground-sat-channel.cc:170-175). -/
def getNDevices (debug : Bool) (c : Chan D G) : Outcome Nat := do
  let k ← Outcome.deref c.constellation
  let n ← k.getSize debug
  .ok (n + c.ground.length)

/-- `GetDevice` (model/ground-sat-channel.cc:177-191): a (possibly null) satellite device or a ground device. -/
def getDevice (debug : Bool) (c : Chan D G) (i : Nat) : Outcome (Option D ⊕ G) := do
  let total ← getNDevices debug c
  Outcome.abortUnless (i < total)
  let k ← Outcome.deref c.constellation
  let n ← k.getSize debug
  if i < n then do
    let v ← k.get debug i
    .ok (.inl v)
  else do
    let g ← Outcome.index c.ground (i - n)
    .ok (.inr g)

end GroundSatChannel
end Icarus
