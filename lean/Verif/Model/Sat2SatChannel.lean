import Verif.Model.Outcome
import Mathlib.Analysis.Real.Sqrt

/-!
# Model of `model/sat2sat-channel.{h,cc}` and `model/sat2sat-success-model.cc`

`D` are satellite devices, `F` frames (packet pointer and data rate, which are only passed on).
-/

set_option autoImplicit false

namespace Icarus
namespace Sat2SatChannel

variable {D F : Type}

/-- `class Link` (model/sat2sat-channel.h): `initializing` is `m_state == INITIALIZING`; null pointers are `none`. -/
structure Link (D : Type) where
  initializing : Bool
  src : Option D
  dst : Option D
  deriving DecidableEq, Repr

/-- `m_nSatellites` and the two elements of `m_link`. -/
structure Chan (D : Type) where
  n : Nat
  link0 : Link D
  link1 : Link D
  deriving DecidableEq, Repr

/-- A new channel (model/sat2sat-channel.cc:72-75). -/
def Chan.init : Chan D := ⟨0, ⟨true, none, none⟩, ⟨true, none, none⟩⟩

/-- What other objects answer while attaching: does the device's node carry a `MobilityModel`; is it a `CircularOrbitMobilityModel`; is
there a success model. -/
structure Env (D : Type) where
  hasPos : D → Bool
  hasOrbit : D → Bool
  hasSuccessModel : Bool

/-- `m_link[m_nSatellites++].m_src = device`, and when that makes two, the rest of `AttachNewSat` (model/sat2sat-channel.cc:90-104).
The array has two elements. -/
def putEnd (env : Env D) (c : Chan D) (d : D) : Outcome (Chan D) :=
  if c.n = 0 then .ok ⟨1, ⟨c.link0.initializing, some d, c.link0.dst⟩, c.link1⟩
  else if c.n = 1 then
    if env.hasSuccessModel = false then .ub .nullDeref
    else if env.hasOrbit d = false then .ub .nullDeref
    else .ok ⟨2, ⟨false, c.link0.src, some d⟩, ⟨false, some d, c.link0.src⟩⟩
  else .ub .outOfRange

/-- `AttachNewSat` (model/sat2sat-channel.cc:82-107); the device is assumed non-null. -/
def attach (debug : Bool) (env : Env D) (c : Chan D) (d : D) : Outcome (Chan D) := do
  Outcome.abortUnless (env.hasPos d)
  Outcome.nsAssert debug (c.n < 2)
  putEnd env c d

/-- A scheduled reception or a report on the `PhyTxDrop` trace. -/
inductive Effect (D F : Type) where
  | drop (frame : F)
  | rx (dev : D) (after : Nat) (frame : F) (proto : UInt16)
  deriving DecidableEq, Repr

/-- `TransmitStart` (model/sat2sat-channel.cc:109-140): effects and the returned duration `txTime`.  `delay` is the propagation delay model
(`none`: null pointer) applied to the two devices' positions, `success` the success model (`none`: null pointer). -/
def transmit [DecidableEq D] (debug : Bool) (c : Chan D) (delay : Option (D → D → Nat)) (success : Option (D → D → Outcome Bool)) (frame : F)
    (txTime : Nat) (src : D) (proto : UInt16) : Outcome (Effect D F × Nat) := do
  Outcome.nsAssert debug (!c.link0.initializing)
  Outcome.nsAssert debug (!c.link1.initializing)
  let dst ← Outcome.deref (if some src = c.link0.src then c.link0.dst else c.link1.dst)
  let delay ← Outcome.deref delay
  let ok ← match success with
    | none => .ok true
    | some m => m src dst
  if ok then .ok (.rx dst (delay src dst) frame proto, txTime) else .ok (.drop frame, txTime)

/-- `GetNDevices` (model/sat2sat-channel.cc:142-147). -/
def getNDevices (c : Chan D) : Nat := c.n

/-- `GetDevice` (model/sat2sat-channel.cc:149-156). -/
def getDevice (c : Chan D) (i : Nat) : Outcome (Option D) := do
  Outcome.abortUnless (i < c.n)
  if i = 0 then .ok c.link0.src else if i = 1 then .ok c.link1.src else .ub .outOfRange

/-- Attach several devices in order. -/
def attachAll (debug : Bool) (env : Env D) : Chan D → List D → Outcome (Chan D)
  | c, [] => .ok c
  | c, d :: ds =>
    match attach debug env c d with
    | .ok c' => attachAll debug env c' ds
    | .ub f => .ub f
    | .abort => .abort
    | .assertFail => .assertFail

end Sat2SatChannel

namespace Sat2SatSuccess

/-- Mean Earth radius in metres (model/orbit/satpos/planet.h). -/
noncomputable def earthRadius : ℝ := 6371009

/-- `MIN_ALTITUDE_FOR_VISIBILITY` (model/sat2sat-success-model.cc:46). -/
noncomputable def minAltitude : ℝ := 80000

/-- `CalcMaxDistance` (model/sat2sat-success-model.cc:86-93), on real numbers; `none` is the NaN that `sqrt` gives for a negative
argument.  `h` is the radius of the satellite's orbit. -/
noncomputable def calcMaxDistance (h : ℝ) : Option ℝ :=
  let r := minAltitude + earthRadius
  if h * h - r * r < 0 then none else some (2 * Real.sqrt (h * h - r * r))

/-- ns-3 `CalculateDistance` of two positions. -/
noncomputable def distance (a b : ℝ × ℝ × ℝ) : ℝ :=
  Real.sqrt ((b.1 - a.1) ^ 2 + (b.2.1 - a.2.1) ^ 2 + (b.2.2 - a.2.2) ^ 2)

/-- `TramsmitSuccess` (model/sat2sat-success-model.cc:68-84); a position is `none` when the node has no mobility model.  Comparing with
NaN is false. -/
noncomputable def transmitSuccess (maxDistance : Option ℝ) (src dst : Option (ℝ × ℝ × ℝ)) : Outcome Bool :=
  match src, dst with
  | some a, some b =>
    match maxDistance with
    | none => .ok false
    | some m => .ok (decide (distance a b ≤ m))
  | _, _ => .abort

end Sat2SatSuccess
end Icarus
