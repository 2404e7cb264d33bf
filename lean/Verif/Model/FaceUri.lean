import Verif.Model.Scenario

/-!
# Model of the face URIs made by the helpers (helper/icarus-helper.cc:487-553, helper/isl-helper.cc:398-449)
-/

set_option autoImplicit false

namespace Icarus
namespace FaceUri
open Scenario IcarusHelper
open IslNet (End owner makeChannel)

/-- A hexadecimal digit, lower case. -/
def hexDigit (n : Nat) : Char := if n < 10 then Char.ofNat (48 + n) else Char.ofNat (87 + n)

/-- A byte printed with `std::hex`, width 2 and fill `0`. -/
def byteText (b : UInt8) : List Char := [hexDigit (b.toNat / 16), hexDigit (b.toNat % 16)]

/-- `operator<<` of ns-3's `Mac48Address`: the bytes separated by colons. -/
def macText : List UInt8 → List Char
  | [] => []
  | [b] => byteText b
  | b :: bs => byteText b ++ ':' :: macText bs

/-- `constructFaceUri` (helper/icarus-helper.cc:487-499, helper/isl-helper.cc:399-411); `Mac48Address::IsMatchingType` is
`CheckCompatible (GetType (), 6)`. -/
def uri (h : Host) (a : SatAddress.Address) : List Char :=
  if a.checkCompatible h.macTy 6 then "netdev://".toList ++ ('[' :: macText a.data ++ [']']) else "netdev://".toList

variable {N V : Type} [DecidableEq N]

/-- The other end of the link in `SatNetDeviceCallback` (helper/isl-helper.cc:418-425): device 0 of the channel, or device 1 if device 0 is on this
node. -/
def remoteDevice (h : Host) (net : Net N V) (d : End net.links) : Outcome (End net.links) := do
  let chan ← makeChannel h.debug (hasPos net) (hasOrbit net) net.links d.1
  let d0 ← Sat2SatChannel.getDevice chan 0
  let d0 ← Outcome.deref d0
  if owner net.links d0 = owner net.links d then do
    let d1 ← Sat2SatChannel.getDevice chan 1
    Outcome.deref d1
  else .ok d0

/-- Local and remote URI of the face that the callbacks make for a device (helper/icarus-helper.cc:516-517, 545-546, helper/isl-helper.cc:437-438). -/
def faceUris (h : Host) (net : Net N V) : NetDev net.links → Outcome (List Char × List Char)
  | .icarus (.ground d m) => .ok (uri h (deviceAddress h (links := net.links) (.icarus (.ground d m))), "satdev://[0000:0000:0000]".toList)
  | .icarus (.sat d a) => .ok (uri h (deviceAddress h (links := net.links) (.icarus (.sat d a))), "netdev://[ff:ff:ff:ff:ff:ff]".toList)
  | .isl d => do
    let r ← remoteDevice h net d
    .ok (uri h (deviceAddress h (links := net.links) (.isl d)), uri h (deviceAddress h (links := net.links) (.isl r)))

end FaceUri
end Icarus
