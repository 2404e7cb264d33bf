/-!
# Outcomes of C++ functions

Every modelled C++ function that can go wrong returns an `Outcome`.  Undefined behaviour is a value of
its own: it is never replaced by a default result.
-/

set_option autoImplicit false

universe u v

namespace Icarus

/-- Kinds of undefined behaviour that the modelled code can run into. -/
inductive Fault where
  /-- `std::vector::operator[]` outside the vector, or reading past the end of a range -/
  | outOfRange
  /-- dereferencing a null `Ptr<>` / pointer -/
  | nullDeref
  /-- using a container iterator invalidated by an earlier `erase` -/
  | invalidIterator
  /-- reading a local variable that was never assigned -/
  | uninitialised
  /-- writing more bytes than a stack buffer holds -/
  | bufferOverflow
  /-- integer division or remainder by zero -/
  | divByZero
  /-- converting a `double` to an integer type that cannot hold its truncated value -/
  | badConversion
  /-- a loop that never ends (in the model: more iterations than its bound) -/
  | diverged
  /-- calling a member function of an object that has been destroyed -/
  | useAfterFree
  /-- not undefined behaviour in C++, but outside the model: a floating-point result that is no real number (NaN or infinity) -/
  | notANumber
  deriving DecidableEq, Repr

/-- Result of running a C++ function.
* `ok a`       : returned normally with `a`;
* `ub f`       : undefined behaviour of kind `f`;
* `abort`      : an `NS_ABORT_*` fired (active in every build);
* `assertFail` : an `NS_ASSERT*` fired (only active in debug builds). -/
inductive Outcome (α : Type u) where
  | ok (a : α)
  | ub (f : Fault)
  | abort
  | assertFail
  deriving DecidableEq, Repr

namespace Outcome

/-- Sequencing: stop at the first abnormal outcome. -/
def bind {α : Type u} {β : Type v} : Outcome α → (α → Outcome β) → Outcome β
  | ok a, f => f a
  | ub e, _ => ub e
  | abort, _ => abort
  | assertFail, _ => assertFail

instance : Monad Outcome where
  pure := ok
  bind := bind

/-- `NS_ASSERT (c)` : checked only when `debug` is set. -/
def nsAssert (debug : Bool) (c : Bool) : Outcome Unit :=
  if debug && !c then assertFail else ok ()

/-- `NS_ABORT_UNLESS (c)` -/
def abortUnless (c : Bool) : Outcome Unit :=
  if c then ok () else abort

/-- Dereferencing a `Ptr<>`. -/
def deref {α : Type u} : Option α → Outcome α
  | some a => ok a
  | none => ub .nullDeref

/-- `std::vector::operator[]` -/
def index {α : Type u} (v : List α) (i : Nat) : Outcome α :=
  match v[i]? with
  | some a => ok a
  | none => ub .outOfRange

/-- `a / b` on unsigned integers -/
def natDiv (a b : Nat) : Outcome Nat :=
  if b = 0 then ub .divByZero else ok (a / b)

/-- `a % b` on unsigned integers -/
def natMod (a b : Nat) : Outcome Nat :=
  if b = 0 then ub .divByZero else ok (a % b)

/-- Is this undefined behaviour? -/
def isUb {α : Type u} : Outcome α → Bool
  | ub _ => true
  | _ => false

@[simp] theorem bind_ok {α β : Type u} (a : α) (f : α → Outcome β) : (ok a >>= f) = f a := rfl
@[simp] theorem bind_ub {α β : Type u} (e : Fault) (f : α → Outcome β) :
    ((ub e : Outcome α) >>= f) = ub e := rfl
@[simp] theorem bind_abort {α β : Type u} (f : α → Outcome β) :
    ((abort : Outcome α) >>= f) = abort := rfl
@[simp] theorem bind_assertFail {α β : Type u} (f : α → Outcome β) :
    ((assertFail : Outcome α) >>= f) = assertFail := rfl
@[simp] theorem pure_eq {α : Type u} (a : α) : (pure a : Outcome α) = ok a := rfl
@[simp] theorem nsAssert_true (d : Bool) : nsAssert d true = ok () := by simp [nsAssert]
@[simp] theorem nsAssert_release (c : Bool) : nsAssert false c = ok () := by simp [nsAssert]
@[simp] theorem nsAssert_debug_false : nsAssert true false = assertFail := rfl
@[simp] theorem abortUnless_true : abortUnless true = ok () := rfl
@[simp] theorem abortUnless_false : abortUnless false = abort := rfl
@[simp] theorem deref_some {α : Type u} (a : α) : deref (some a) = ok a := rfl
@[simp] theorem deref_none {α : Type u} : deref (none : Option α) = ub .nullDeref := rfl

theorem bind_eq_ok {α β : Type u} {x : Outcome α} {f : α → Outcome β} {b : β} :
    (x >>= f) = ok b ↔ ∃ a, x = ok a ∧ f a = ok b := by
  cases x with
  | ok a => simp
  | ub e => simp
  | abort => simp
  | assertFail => simp

theorem index_eq_ok {α : Type u} {v : List α} {i : Nat} {a : α} :
    index v i = ok a ↔ v[i]? = some a := by
  unfold index; split <;> simp_all

theorem index_eq_ub {α : Type u} {v : List α} {i : Nat} :
    index v i = ub .outOfRange ↔ v.length ≤ i := by
  unfold index; split <;> simp_all
  grind

end Outcome
end Icarus
