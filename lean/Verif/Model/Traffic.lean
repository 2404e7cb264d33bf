import Verif.Model.Outcome
import Mathlib.Data.Rat.Floor

/-!
# Traffic helpers: helper/lora-helper.cc and helper/poisson-helper.cc

Simplifications: `double` is exact rational arithmetic (so a `round` exactly at a half, which the rounding of `double` could turn either way,
goes up); the underlying `OnOffHelper` is represented by the attribute values it is given.
-/

set_option autoImplicit false

namespace Icarus
namespace Traffic

/-- Conversion to `uint8_t`, `uint32_t`, `uint64_t`. -/
def u8 (n : Nat) : Nat := n % 2 ^ 8
def u32 (n : Int) : Nat := (n % 2 ^ 32).toNat
def u64 (n : Nat) : Nat := n % 2 ^ 64

/-- Conversion of a `double` to an unsigned integer of the given number of bits: truncation, undefined out of range ([conv.fpint]). -/
def doubleToUnsigned (bits : Nat) (x : ℚ) : Outcome Nat :=
  if -1 < x ∧ x < 2 ^ bits then .ok ⌊x⌋₊ else .ub .badConversion

/-- What `LoraHelper` and its `OnOffHelper` hold after construction. -/
structure Lora where
  payload : Nat
  rate : Nat
  maxBytes : Nat
  deriving DecidableEq, Repr

/-- `double` division. -/
def cdivQ (x : ℚ) (n : ℚ) : Outcome ℚ := if n = 0 then .ub .notANumber else .ok (x / n)

/-- `LoraHelper::LoraHelper` (helper/lora-helper.cc:27-50).  `sf`, `cr`, `bw` are the values passed by the caller, converted to `uint8_t` by the
call; `preamble` and `header` are `uint16_t`, `payload` `uint32_t`, `frames` and `rate` `uint64_t`. -/
def lora (debug : Bool) (sf cr bw : Nat) (rate preamble header payload frames : Nat) : Outcome Lora := do
  let sf := u8 sf
  let cr := u8 cr
  let bw := u8 bw
  .nsAssert debug (decide (7 ≤ sf ∧ sf ≤ 12))
  .nsAssert debug (decide (5 ≤ cr ∧ cr ≤ 8))
  .nsAssert debug (decide (8 ≤ bw ∧ bw ≤ 500))
  .nsAssert debug (decide (6 ≤ preamble ∧ preamble ≤ 65532))
  let s1 ← cdivQ (2 ^ sf) bw
  let tSym := s1 / 1000
  let de : Int := if sf ≤ 10 then 0 else 1
  -- unsigned arithmetic: 44 + 8 * payloadSize - 4 * spreadingFactor
  let symbols := u32 (44 + u32 (8 * payload) - 4 * sf)
  let q ← cdivQ ((symbols : ℚ) / 4) ((sf : ℚ) - 2 * de)
  let phySize ← doubleToUnsigned 32 (8 + cr * ⌈q⌉)
  let toa := tSym * ((u32 (preamble + phySize) : ℚ) + 4.25)
  let a ← cdivQ (sf * toa) cr
  let b ← cdivQ a tSym
  let size ← doubleToUnsigned 32 (⌊b / 2 + 1 / 2⌋ - header)
  if u32 (size + header) = 0 then .ub .divByZero else
  .ok ⟨size, u64 (rate * size) / u32 (size + header), u64 (size * frames)⟩

/-- `LoraHelper::GetLoraLinkRate` (helper/lora-helper.cc:94-98): bits per second, truncated by the conversion to `DataRate`. -/
def loraLinkRate (sf cr bw : Nat) : Outcome Nat := do
  let sf := u8 sf
  let cr := u8 cr
  let bw := u8 bw
  let r ← cdivQ ((sf * bw * 4000 : ℕ) / 2 ^ sf) cr
  doubleToUnsigned 64 r

/-- Parameters given to the on-off source by `PoissonHelper`. -/
structure Poisson where
  dataRate : Nat
  packetSize : Nat
  onTime : ℚ
  offMean : ℚ

/-- `PoissonHelper::PoissonHelper` (helper/poisson-helper.cc:33-53).  The on time is constant, the off time exponentially distributed with the
given mean and no bound. -/
def poisson (rate header size : Nat) : Outcome Poisson := do
  let maxRate : Nat := 18446744073709551615
  let tOn : ℚ := size * 8 / maxRate
  let cycle ← cdivQ (8 * (u32 (size + header) : ℚ)) rate
  .ok ⟨maxRate, size, tOn, cycle - tOn⟩

end Traffic
end Icarus
