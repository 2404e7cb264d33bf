import Verif.Model.Outcome

/-!
# Model of `utils/sat-address.{h,cc}`

The object stores its three 16-bit fields in *network byte order*, i.e. each field `x` is kept as
`htons (x)` in host memory.  Both host endiannesses are modelled.
-/

set_option autoImplicit false

namespace Icarus

/-- Byte order of the machine the simulator runs on. -/
inductive Endian where
  | little
  | big
  deriving DecidableEq, Repr

/-- `htons` / `ntohs` : swap the bytes on a little-endian host, identity on a big-endian one. -/
def htons (e : Endian) (x : UInt16) : UInt16 :=
  match e with
  | .little => UInt16.ofNat ((x.toNat % 256) * 256 + x.toNat / 256)
  | .big => x

/-- The two bytes of a `uint16_t` as they lie in memory (`std::memcpy` source side). -/
def toMem (e : Endian) (x : UInt16) : List UInt8 :=
  match e with
  | .little => [UInt8.ofNat (x.toNat % 256), UInt8.ofNat (x.toNat / 256)]
  | .big => [UInt8.ofNat (x.toNat / 256), UInt8.ofNat (x.toNat % 256)]

/-- The `uint16_t` made of two bytes in memory (`std::memcpy` destination side). -/
def fromMem (e : Endian) (b0 b1 : UInt8) : UInt16 :=
  match e with
  | .little => UInt16.ofNat (b0.toNat + 256 * b1.toNat)
  | .big => UInt16.ofNat (256 * b0.toNat + b1.toNat)

/-- `class SatAddress` (utils/sat-address.h:31-68).  The fields hold the *stored* (network byte order)
values. -/
structure SatAddress where
  m_constellationId : UInt16
  m_orbitalPlane : UInt16
  m_planeIndex : UInt16
  deriving DecidableEq, Repr

namespace SatAddress

/-- Default constructor (utils/sat-address.cc:52-54). -/
def default : SatAddress := ⟨0, 0, 0⟩

/-- `SatAddress (constellationId, orbitalPlane, planeIndex)` (utils/sat-address.cc:56-61). -/
def mk3 (e : Endian) (c p i : UInt16) : SatAddress := ⟨htons e c, htons e p, htons e i⟩

/-- `getConstellationId` (utils/sat-address.cc:116-122). -/
def getConstellationId (e : Endian) (a : SatAddress) : UInt16 := htons e a.m_constellationId
/-- `getOrbitalPlane` (utils/sat-address.cc:124-130). -/
def getOrbitalPlane (e : Endian) (a : SatAddress) : UInt16 := htons e a.m_orbitalPlane
/-- `getPlaneIndex` (utils/sat-address.cc:132-138). -/
def getPlaneIndex (e : Endian) (a : SatAddress) : UInt16 := htons e a.m_planeIndex

/-- `operator==` (utils/sat-address.cc:140-147): compares the three getters. -/
def eq (e : Endian) (a b : SatAddress) : Bool :=
  a.getConstellationId e == b.getConstellationId e && a.getOrbitalPlane e == b.getOrbitalPlane e &&
    a.getPlaneIndex e == b.getPlaneIndex e

/-- `CopyTo` (utils/sat-address.cc:87-95): the 6 bytes written to the caller's buffer. -/
def copyTo (e : Endian) (a : SatAddress) : List UInt8 :=
  toMem e a.m_constellationId ++ toMem e a.m_orbitalPlane ++ toMem e a.m_planeIndex

/-- `CopyFrom` (utils/sat-address.cc:77-85).  The parameter is a pointer: reading from a buffer shorter
than 6 bytes is out of range; further bytes are ignored. -/
def copyFrom (e : Endian) : List UInt8 → Outcome SatAddress
  | b0 :: b1 :: b2 :: b3 :: b4 :: b5 :: _ => .ok ⟨fromMem e b0 b1, fromMem e b2 b3, fromMem e b4 b5⟩
  | _ => .ub .outOfRange

/-- The part of ns-3's `Address` that the code uses: a type byte and up to 20 data bytes. -/
structure Address where
  type : UInt8
  data : List UInt8
  deriving DecidableEq, Repr

/-- ns-3 `Address::CheckCompatible (type, len)` (ns-3, not in this repository): exact type and length, or
unspecified type 0 with at least that length. -/
def Address.checkCompatible (a : Address) (type : UInt8) (len : Nat) : Bool :=
  (a.data.length == len && a.type == type) || (a.data.length ≥ len && a.type == 0)

/-- `ConvertTo` (utils/sat-address.cc:63-75).  `ty` is the registered address type `GetType ()`. -/
def convertTo (e : Endian) (ty : UInt8) (a : SatAddress) : Address :=
  ⟨ty, toMem e a.m_constellationId ++ toMem e a.m_orbitalPlane ++ toMem e a.m_planeIndex⟩

/-- `(hi << 8) + lo` converted to `uint16_t` (utils/sat-address.cc:109-111). -/
def be16 (hi lo : UInt8) : UInt16 := UInt16.ofNat (hi.toNat * 256 + lo.toNat)

/-- `ConvertFrom` (utils/sat-address.cc:97-114).  `Address::CopyTo` copies *all* data bytes into the 6-byte
stack buffer: more than 6 overflow it, fewer leave it partly uninitialised. -/
def convertFrom (debug : Bool) (e : Endian) (ty : UInt8) (addr : Address) : Outcome SatAddress := do
  Outcome.nsAssert debug (addr.checkCompatible ty 6)
  Outcome.nsAssert debug (addr.data.length == 6)
  match addr.data with
  | [b0, b1, b2, b3, b4, b5] => .ok (mk3 e (be16 b0 b1) (be16 b2 b3) (be16 b4 b5))
  | d => if d.length > 6 then .ub .bufferOverflow else .ub .uninitialised

/-! ## Text output -/

/-- Formatting state of a `std::ostream` that matters for the output. -/
structure OFlags where
  /-- `std::left` in `adjustfield` (default: not set, numbers are right-aligned) -/
  left : Bool := false
  /-- `std::uppercase` -/
  uppercase : Bool := false
  /-- `std::showbase` -/
  showbase : Bool := false
  /-- base 16 (otherwise 10) -/
  hex : Bool := false
  /-- fill character -/
  fill : Char := ' '
  deriving DecidableEq, Repr

/-- One hexadecimal digit. -/
def hexChar (upper : Bool) (d : Nat) : Char :=
  if d < 10 then Char.ofNat (48 + d) else if upper then Char.ofNat (55 + d) else Char.ofNat (87 + d)

/-- Hexadecimal digits of `n`, most significant first, no leading zeros (`0` prints as `"0"`). -/
def hexDigits (upper : Bool) (n : Nat) : List Char :=
  if n < 16 then [hexChar upper n] else hexDigits upper (n / 16) ++ [hexChar upper (n % 16)]
termination_by n

/-- `os << std::setw (4) << x` with base 16 in force: digits, optional `0x` base prefix (not for zero), padded to
width 4 with the fill character on the left (or on the right if `std::left` is set). -/
def putHex (f : OFlags) (x : UInt16) : List Char :=
  let digits := hexDigits f.uppercase x.toNat
  let body := if f.showbase && x.toNat != 0 then '0' :: (if f.uppercase then 'X' else 'x') :: digits else digits
  let pad := List.replicate (4 - body.length) f.fill
  if f.left then body ++ pad else pad ++ body

/-- `operator<<` (utils/sat-address.cc:155-171): text written and flags left behind. -/
def print (e : Endian) (f : OFlags) (a : SatAddress) : List Char × OFlags :=
  let f := { f with hex := true, fill := '0' }
  (putHex f (a.getConstellationId e) ++ ':' :: putHex f (a.getOrbitalPlane e) ++
      ':' :: putHex f (a.getPlaneIndex e),
    { f with hex := false, fill := ' ' })

/-! ## Text input -/

/-- A `std::istream`: remaining characters and the two error bits. -/
structure IStream where
  chars : List Char
  eof : Bool := false
  fail : Bool := false
  deriving DecidableEq, Repr

/-- `std::getline (is, tmp, ':')`.  Returns the new contents of `tmp` (unchanged if the stream was not good). -/
def getline (is : IStream) (tmp : List Char) : IStream × List Char :=
  if is.eof || is.fail then ({ is with fail := true }, tmp)
  else
    let pre := is.chars.takeWhile (· ≠ ':')
    match is.chars.drop pre.length with
    | _ :: rest => ({ is with chars := rest }, pre)                      -- delimiter found and consumed
    | [] => ({ chars := [], eof := true, fail := pre.isEmpty }, pre)   -- end of input reached

/-- White space skipped by formatted input in the "C" locale. -/
def isSpace (c : Char) : Bool :=
  c == ' ' || c == '\t' || c == '\n' || c == Char.ofNat 11 || c == Char.ofNat 12 || c == '\r'

/-- Value of a hexadecimal digit character. -/
def hexVal (c : Char) : Option Nat :=
  let n := c.toNat
  if 48 ≤ n ∧ n ≤ 57 then some (n - 48)
  else if 97 ≤ n ∧ n ≤ 102 then some (n - 87)
  else if 65 ≤ n ∧ n ≤ 70 then some (n - 55)
  else none

/-- Consume hexadecimal digits, accumulating the (unbounded) value and the number of digits. -/
def takeHex : List Char → Nat → Nat → Nat × Nat × List Char
  | [], acc, cnt => (acc, cnt, [])
  | c :: cs, acc, cnt =>
    match hexVal c with
    | some d => takeHex cs (acc * 16 + d) (cnt + 1)
    | none => (acc, cnt, c :: cs)

/-- Skip the optional sign; returns whether it was a minus. -/
def takeSign : List Char → Bool × List Char
  | '-' :: cs => (true, cs)
  | '+' :: cs => (false, cs)
  | cs => (false, cs)

/-- Skip an optional `0x`/`0X`; returns the rest. -/
def takePrefix : List Char → List Char
  | '0' :: 'x' :: cs => cs
  | '0' :: 'X' :: cs => cs
  | cs => cs

/-- `is >> std::hex >> v` for `uint16_t v` (libstdc++ `num_get`).  `none` as value means that `v` was not assigned
(the sentry failed).  No digits: 0 is stored and `fail` set; too large: 65535 is stored and `fail` set; a minus sign
negates modulo 2^16.  Simplification: decimal point and thousands separators are the "C" locale's. -/
def getHex (is : IStream) : IStream × Option UInt16 :=
  if is.eof || is.fail then ({ is with fail := true }, none)
  else
    match is.chars.dropWhile isSpace with
    | [] => ({ chars := [], eof := true, fail := true }, none)
    | cs =>
      let (neg, cs) := takeSign cs
      let (v, cnt, rest) := takeHex (takePrefix cs) 0 0
      let eof := rest.isEmpty
      if cnt = 0 then ({ chars := rest, eof := eof, fail := true }, some 0)
      else if v ≥ 65536 then ({ chars := rest, eof := eof, fail := true }, some 65535)
      else ({ chars := rest, eof := eof, fail := false },
            some (if neg then UInt16.ofNat (65536 - v) else UInt16.ofNat v))

/-- `operator>>` (utils/sat-address.cc:173-191).  The two first fields are parsed by a temporary `istringstream`
whose error state is lost; a local that was never assigned is read when the address is built: `ub`. -/
def parse (e : Endian) (is : IStream) : Outcome (IStream × SatAddress) :=
  let (is, tmp) := getline is []
  let (_, c) := getHex { chars := tmp }
  let (is, tmp) := getline is tmp
  let (_, p) := getHex { chars := tmp }
  let (is, i) := getHex is
  match c, p, i with
  | some c, some p, some i => .ok (is, mk3 e c p i)
  | _, _, _ => .ub .uninitialised

end SatAddress
end Icarus
