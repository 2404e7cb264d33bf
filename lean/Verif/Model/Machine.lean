import Verif.Model.Outcome

/-!
# Executing step machines

Parts of the simulator that react to events are modelled as step machines.  A step is `none` when the operation is not possible in that state
(for example an external call at a time before an event that is still to run).
-/

set_option autoImplicit false

namespace Icarus

/-- Executing a list of operations; stops at the first abnormal outcome. -/
def runFrom {S O : Type} (step : S → O → Option (Outcome S)) : S → List O → Option (Outcome S)
  | s, [] => some (.ok s)
  | s, o :: os =>
    match step s o with
    | none => none
    | some (.ok s') => runFrom step s' os
    | some (.ub e) => some (.ub e)
    | some .abort => some .abort
    | some .assertFail => some .assertFail

/-- Scheduling in ns-3: by time, and after the events already scheduled for the same time. -/
def insertEvent {E : Type} (t : Nat) (e : E) : List (Nat × E) → List (Nat × E)
  | [] => [(t, e)]
  | g :: gs => if t < g.1 then (t, e) :: g :: gs else g :: insertEvent t e gs

end Icarus
