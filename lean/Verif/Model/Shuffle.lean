import Verif.Model.Crdsa

/-!
# Model of the shuffle of the slot table

`CrdsaMacModel::GetSelectedSlots` (model/mac/crdsa-mac-model.cc:152-162) calls `std::shuffle` with a generator adaptor
(model/mac/crdsa-mac-model.cc:40-69) of a `UniformRandomVariable`.  The library functions are modelled as libstdc++ 13 defines them
(bits/stl_algo.h:3717-3805 and bits/uniform_int_dist.h:254-341); the adaptor returns 32-bit values, which the model gets as a list.
-/

set_option autoImplicit false

namespace Icarus
namespace Crdsa

/-- What becomes of a computation that consumes values of the generator. -/
inductive Draw (α : Type) where
  /-- finished; `rest` are the values not consumed -/
  | done (a : α) (rest : List UInt32)
  /-- all values given were consumed and one more is needed -/
  | more
  /-- undefined behaviour -/
  | ub (f : Fault)
  /-- the branch of `uniform_int_distribution` for ranges larger than that of the generator, which is not modelled -/
  | upscale
  deriving DecidableEq, Repr

def Draw.bind {α β : Type} : Draw α → (α → List UInt32 → Draw β) → Draw β
  | .done a rest, f => f a rest
  | .more, _ => .more
  | .ub e, _ => .ub e
  | .upscale, _ => .upscale

/-- `UniformRandomGeneratorAdaptor::min`, `max` (model/mac/crdsa-mac-model.cc:49-59): numeric limits of `uint32_t`. -/
def genMin : Nat := 0
def genMax : Nat := 2 ^ 32 - 1

/-- The ways in which libstdc++ reduces a value of the generator to a range. -/
inductive Method where
  /-- by multiplication, `_S_nd` (used when the range of the generator is that of `uint32_t`) -/
  | multiply
  /-- by division, the fallback (all versions before GCC 11) -/
  | divide
  deriving DecidableEq, Repr

/-- Loop of `_S_nd` (bits/uniform_int_dist.h:274-278) with the result in line 280. -/
def ndLoop (range threshold : UInt32) : UInt64 → List UInt32 → Draw Nat
  | product, xs =>
    if product.toUInt32 < threshold then
      match xs with
      | [] => .more
      | x :: xs => ndLoop range threshold (x.toUInt64 * range.toUInt64) xs
    else .done (product >>> 32).toUInt32.toNat xs
  termination_by structural _ xs => xs

/-- `_S_nd<uint64_t>` (bits/uniform_int_dist.h:254-281). -/
def nd (range : UInt32) : List UInt32 → Draw Nat
  | [] => .more
  | x :: xs =>
    let product := x.toUInt64 * range.toUInt64
    if product.toUInt32 < range then
      if range = 0 then .ub .divByZero else ndLoop range ((0 - range) % range) product xs
    else .done (product >>> 32).toUInt32.toNat xs

/-- The fallback with two divisions (bits/uniform_int_dist.h:333-340).  The generator's minimum is zero. -/
def divLoop (scaling past : Nat) : List UInt32 → Draw Nat
  | [] => .more
  | x :: xs => if past ≤ x.toNat - genMin then divLoop scaling past xs else .done ((x.toNat - genMin) / scaling) xs

/-- `uniform_int_distribution<unsigned long>{0, b} (g)` (bits/uniform_int_dist.h:284-341). -/
def uniformInt (m : Method) (b : Nat) (xs : List UInt32) : Draw Nat :=
  let urngrange := genMax - genMin
  if urngrange > b then
    let uerange := b + 1
    match m with
    | .multiply => nd (UInt32.ofNat uerange) xs
    | .divide => divLoop (urngrange / uerange) (uerange * (urngrange / uerange)) xs
  else if urngrange < b then .upscale
  else
    match xs with
    | [] => .more
    | x :: xs => .done (x.toNat - genMin) xs

/-- `std::iter_swap (first + i, first + j)`. -/
def iterSwap (v : List Nat) (i j : Nat) : Outcome (List Nat) :=
  match v[i]?, v[j]? with
  | some a, some b => .ok ((v.set i b).set j a)
  | _, _ => .ub .outOfRange

/-- Continue after a swap. -/
def afterSwap {α : Type} (o : Outcome (List Nat)) (f : List Nat → Draw α) : Draw α :=
  match o with
  | .ok v => f v
  | .ub e => .ub e
  | _ => .ub .outOfRange

/-- The loop over pairs (bits/stl_algo.h:3787-3796 with `__gen_two_uniform_ints`, lines 3717-3725): `rem` elements are left, the first of
them at position `i`.  The end is tested by `!=` after every two steps, so an odd number of elements left would run past the end. -/
def pairLoop (m : Method) : Nat → Nat → List Nat → List UInt32 → Draw (List Nat)
  | 0, _, v, xs => .done v xs
  | 1, _, _, _ => .ub .outOfRange
  | rem + 2, i, v, xs =>
    let swapRange := i + 1
    (uniformInt m (swapRange * (swapRange + 1) - 1) xs).bind fun x xs =>
      afterSwap (iterSwap v i (x / (swapRange + 1))) fun v =>
        afterSwap (iterSwap v (i + 1) (x % (swapRange + 1))) fun v => pairLoop m rem (i + 2) v xs

/-- The loop over single elements (bits/stl_algo.h:3801-3804). -/
def singleLoop (m : Method) : Nat → Nat → List Nat → List UInt32 → Draw (List Nat)
  | 0, _, v, xs => .done v xs
  | rem + 1, i, v, xs =>
    (uniformInt m i xs).bind fun x xs => afterSwap (iterSwap v i x) fun v => singleLoop m rem (i + 1) v xs

/-- `std::shuffle` (bits/stl_algo.h:3740-3805).  Simplification: no wrap-around of the 64-bit products, which are below `2^32` for tables of at most
65535 entries (the number of slots is a `uint16_t`). -/
def shuffle (m : Method) (v : List Nat) (xs : List UInt32) : Draw (List Nat) :=
  if v.length = 0 then .done v xs
  else if (genMax - genMin) / v.length ≥ v.length then
    if v.length % 2 = 0 then
      (uniformInt m 1 xs).bind fun d xs => afterSwap (iterSwap v 1 d) fun v => pairLoop m (v.length - 2) 2 v xs
    else pairLoop m (v.length - 1) 1 v xs
  else singleLoop m (v.length - 1) 1 v xs

/-- `UniformRandomVariable::GetInteger (0, 2^32 - 1)` as the adaptor calls it (model/mac/crdsa-mac-model.cc:61-65): a value `k / 4294967088` of ns-3's
MRG32k3a generator, `0 < k < 4294967088`, scaled to `[0, 2^32)` and truncated.  ns-3 is not in the repository; exact arithmetic. -/
def adaptor (k : Nat) : UInt32 := UInt32.ofNat (k * 2 ^ 32 / 4294967088)

/-- `GetSelectedSlots` (model/mac/crdsa-mac-model.cc:152-162) with a table `m_slotIds` and the values of the generator: the slots selected and the
table afterwards. -/
def selectSlots (m : Method) (slotIds : List Nat) (k : Nat) (xs : List UInt32) : Draw (Outcome (List Nat) × List Nat) :=
  (shuffle m slotIds xs).bind fun v xs => .done (getSelectedSlots v k, v) xs

end Crdsa
end Icarus
