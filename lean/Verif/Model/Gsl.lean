import Verif.Model.Brent

/-!
# What the search for crossings does to the state of the GNU Scientific Library

The library keeps one error handler for the whole process; solvers are allocated and freed by hand.  `DistanceSolver`
(model/orbit/search/distancesolver.cc:94-185) switches the handler off in its constructor and puts it back in its destructor.  The functions of the
library (`gsl_root_fsolver_alloc`, `_free`, `_set`, `gsl_root_test_interval`, `gsl_error`, `gsl_set_error_handler`, `gsl_set_error_handler_off`) are
not part of the repository; they are modelled as documented.
-/

set_option autoImplicit false

namespace Icarus
namespace Orbit

noncomputable section

open Classical

/-- An error handler other than the default one. -/
inductive Handler where
  /-- `no_error_handler`, installed by `gsl_set_error_handler_off` -/
  | off
  /-- a function given by the user -/
  | user (id : Nat)
  deriving DecidableEq

/-- State of the library.  `handler = none` is the null pointer, with which errors abort the program. -/
structure Gsl where
  handler : Option Handler
  /-- solvers allocated and not yet freed -/
  live : List Nat
  next : Nat
  /-- calls of handlers of the user (ghost) -/
  reports : List Nat

/-- `gsl_error` -/
def gslError (g : Gsl) : Outcome Gsl :=
  match g.handler with
  | none => .abort
  | some .off => .ok g
  | some (.user h) => .ok { g with reports := h :: g.reports }

/-- `gsl_root_fsolver_alloc`: a null pointer if there is no memory, which is an error. -/
def fsolverAlloc (memory : Bool) (g : Gsl) : Outcome (Option Nat × Gsl) :=
  if memory then .ok (some g.next, { g with live := g.next :: g.live, next := g.next + 1 })
  else do
    let g ← gslError g
    .ok (none, g)

/-- `gsl_root_fsolver_free`, which accepts null pointers. -/
def fsolverFree (s : Option Nat) (g : Gsl) : Outcome Gsl :=
  match s with
  | none => .ok g
  | some id => if id ∈ g.live then .ok { g with live := g.live.erase id } else .ub .useAfterFree

/-- Using a solver. -/
def useSolver (s : Option Nat) (g : Gsl) : Outcome Unit :=
  match s with
  | none => .ub .nullDeref
  | some id => if id ∈ g.live then .ok () else .ub .useAfterFree

/-- Members of `DistanceSolver` (model/orbit/search/distancesolver.cc:127-137) that change. -/
structure SolverObject where
  s : Option Nat
  oldHandler : Option Handler
  run : Bool
  solution : Option ℝ

/-- The constructor (model/orbit/search/distancesolver.cc:99-110).  The solver is allocated before the handler is switched off;
`gsl_set_error_handler_off` returns the handler in force. -/
def SolverObject.construct (memory : Bool) (g : Gsl) : Outcome (SolverObject × Gsl) := do
  let (s, g) ← fsolverAlloc memory g
  .ok ({ s := s, oldHandler := g.handler, run := false, solution := none }, { g with handler := some .off })

/-- The destructor (model/orbit/search/distancesolver.cc:111-115). -/
def SolverObject.destruct (ob : SolverObject) (g : Gsl) : Outcome Gsl := do
  let g ← fsolverFree ob.s g
  .ok { g with handler := ob.oldHandler }

/-- `gsl_root_fsolver_set` (model/orbit/search/distancesolver.cc:157, status ignored): an error if the interval is empty or the ends do not straddle
zero. -/
def fsolverSet (f : ℝ → Outcome ℝ) (lo hi : ℝ) (g : Gsl) : Outcome Gsl :=
  if hi < lo then gslError g
  else do
    let flo ← f lo
    let fhi ← f hi
    if SameSign flo fhi then gslError g else .ok g

/-- The loop in `solve` (model/orbit/search/distancesolver.cc:161-184), as `solveLoop`, with the error that `gsl_root_test_interval` may raise. -/
def solveLoopGsl (f : ℝ → Outcome ℝ) (iter : Nat → Bracket) (s : Option Nat) : Nat → Nat → Gsl → Outcome (Option ℝ × Gsl)
  | 0, _, g => .ok (none, g)
  | n + 1, k, g => do
    useSolver s g
    let b := iter k
    match testInterval b.lower b.upper with
    | some true => do
      let a ← f (b.root - 1)
      let c ← f (b.root + 1)
      if min a c < 0 then .ok (some b.root, g) else .ok (none, g)
    | some false => solveLoopGsl f iter s n (k + 1) g
    | none => do
      let g ← gslError g
      .ok (none, g)

/-- `operator()` with `solve` (model/orbit/search/distancesolver.cc:117-123, 145-185). -/
def SolverObject.call (debug : Bool) (rf : RootFinder) (o : Elements) (ob : Observer) (target lo hi : ℝ) (d : SolverObject) (g : Gsl) :
    Outcome (SolverObject × Gsl) :=
  if d.run then .ok (d, g)
  else do
    useSolver d.s g
    let g ← fsolverSet (distanceFunction debug o ob target) lo hi g
    let (sol, g) ← solveLoopGsl (distanceFunction debug o ob target) (rf lo hi) d.s 1000 0 g
    .ok ({ d with run := true, solution := sol }, g)

/-- `DistanceSolver (...) ()` as in `findNextCross`: a temporary object, called once and destroyed (model/orbit/search/distancesolver.cc:209, 215-216). -/
def temporarySolver (debug : Bool) (rf : RootFinder) (o : Elements) (ob : Observer) (target lo hi : ℝ) (memory : Bool) (g : Gsl) :
    Outcome (Option ℝ × Gsl) := do
  let (d, g) ← SolverObject.construct memory g
  let (d, g) ← d.call debug rf o ob target lo hi g
  let g ← d.destruct g
  .ok (d.solution, g)

/-- `findNextCross` (model/orbit/search/distancesolver.cc:200-223); `memory k` tells whether there is memory for its `k`-th solver. -/
def findNextCrossGsl (debug : Bool) (rf : RootFinder) (o : Elements) (ob : Observer) (target now : ℝ) (memory : Nat → Bool) (g : Gsl) :
    Outcome (Option ℝ × Gsl) := do
  let period ← orbitalPeriod o
  let (sol, g) ← temporarySolver debug rf o ob target now (now + period) (memory 0) g
  match sol with
  | none => .ok (none, g)
  | some r =>
    if now < r - 1 then do
      let (previous, g) ← temporarySolver debug rf o ob target now (r - 1) (memory 1) g
      match previous with
      | some q => .ok (some q, g)
      | none => .ok (some r, g)
    else .ok (some r, g)

end

end Orbit
end Icarus
