import Verif.Model.SatAddress

/-!
# Model of the packet tags of the devices

`GroundSatTag` (model/ground-sta-net-device.cc:43-171) and `SatGroundTag` (model/sat2ground-net-device.cc:43-153).
-/

set_option autoImplicit false

namespace Icarus
namespace PacketTag

/-- ns-3 `TagBuffer` (not part of the repository): a memory area and the current position. -/
structure TagBuffer where
  data : List UInt8
  pos : Nat
  deriving DecidableEq, Repr

/-- `TagBuffer::Write`: writing past the end overruns the area reserved for the tag. -/
def write (b : TagBuffer) (bytes : List UInt8) : Outcome TagBuffer :=
  if b.pos + bytes.length ≤ b.data.length then
    .ok ⟨b.data.take b.pos ++ bytes ++ b.data.drop (b.pos + bytes.length), b.pos + bytes.length⟩
  else .ub .bufferOverflow

/-- `TagBuffer::Read`. -/
def read (b : TagBuffer) (n : Nat) : Outcome (List UInt8 × TagBuffer) :=
  if b.pos + n ≤ b.data.length then .ok ((b.data.drop b.pos).take n, ⟨b.data, b.pos + n⟩) else .ub .outOfRange

/-- `TagBuffer::WriteU16` / `ReadU16`: low byte first. -/
def u16Bytes (x : UInt16) : List UInt8 := [UInt8.ofNat (x.toNat % 256), UInt8.ofNat (x.toNat / 256)]

def bytesU16 : List UInt8 → UInt16
  | [b0, b1] => UInt16.ofNat (b0.toNat + 256 * b1.toNat)
  | _ => 0

/-- `TagBuffer::WriteDouble` / `ReadDouble` copy the 8 bytes of the object; a `double` is given by its bit pattern. -/
def leBytes : Nat → Nat → List UInt8
  | 0, _ => []
  | k + 1, x => UInt8.ofNat (x % 256) :: leBytes k (x / 256)

def leValue : List UInt8 → Nat
  | [] => 0
  | b :: bs => b.toNat + 256 * leValue bs

def doubleBytes (e : Endian) (x : UInt64) : List UInt8 :=
  match e with
  | .little => leBytes 8 x.toNat
  | .big => (leBytes 8 x.toNat).reverse

def bytesDouble (e : Endian) (bs : List UInt8) : UInt64 :=
  match e with
  | .little => UInt64.ofNat (leValue bs)
  | .big => UInt64.ofNat (leValue bs.reverse)

/-- `GetSerializedSize` (model/ground-sta-net-device.cc:142-146, model/sat2ground-net-device.cc:123-127). -/
def serializedSize : Nat := 8 + 8 + 2 + 8

/-- The members of `GroundSatTag`; `power` is the bit pattern of the `double`. -/
structure GroundSatTag where
  dst : SatAddress
  proto : UInt16
  power : UInt64
  deriving DecidableEq, Repr

/-- `GroundSatTag::Serialize` (model/ground-sta-net-device.cc:147-155). -/
def GroundSatTag.serialize (e : Endian) (t : GroundSatTag) (i : TagBuffer) : Outcome TagBuffer := do
  let i ← write i (t.dst.copyTo e)
  let i ← write i (u16Bytes t.proto)
  write i (doubleBytes e t.power)

/-- `GroundSatTag::Deserialize` (model/ground-sta-net-device.cc:156-165). -/
def GroundSatTag.deserialize (e : Endian) (i : TagBuffer) : Outcome GroundSatTag := do
  let (mac, i) ← read i 6
  let dst ← SatAddress.copyFrom e mac
  let (p, i) ← read i 2
  let (d, _) ← read i 8
  .ok ⟨dst, bytesU16 p, bytesDouble e d⟩

/-- The members of `SatGroundTag`; the destination is a `Mac48Address` (6 bytes) that is never set. -/
structure SatGroundTag where
  dst : List UInt8
  proto : UInt16
  power : UInt64
  deriving DecidableEq, Repr

/-- `SatGroundTag::Serialize` (model/sat2ground-net-device.cc:128-136). -/
def SatGroundTag.serialize (e : Endian) (t : SatGroundTag) (i : TagBuffer) : Outcome TagBuffer := do
  let i ← write i t.dst
  let i ← write i (u16Bytes t.proto)
  write i (doubleBytes e t.power)

/-- `SatGroundTag::Deserialize` (model/sat2ground-net-device.cc:137-146). -/
def SatGroundTag.deserialize (e : Endian) (i : TagBuffer) : Outcome SatGroundTag := do
  let (mac, i) ← read i 6
  let (p, i) ← read i 2
  let (d, _) ← read i 8
  .ok ⟨mac, bytesU16 p, bytesDouble e d⟩

end PacketTag
end Icarus
