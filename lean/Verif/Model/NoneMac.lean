import Verif.Model.Aloha

/-!
# Model of `model/mac/none-mac-model.cc`

Uses the frames, operations and event ordering of the Aloha model; the receiver itself has no state.
-/

set_option autoImplicit false

namespace Icarus
namespace NoneMac
open Aloha

/-- `NoneMacModel::Send` (model/mac/none-mac-model.cc:44-60): instants of `transmit_callback` and `finish_callback`. -/
def sendCallbacks (now txTime : Nat) : Nat × Nat := (now, now + txTime)

/-- Clock, scheduled `FinishReception` events in execution order, calls of `net_device_cb` so far as (time, packet uid). -/
structure Sys (P : Type) where
  clock : Nat
  pending : List (Frame P)
  delivered : List (Nat × Nat)

variable {P : Type}

/-- `StartPacketRx` schedules `FinishReception`, which calls `net_device_cb` (model/mac/none-mac-model.cc:62-77); an arrival is possible
once all events before it have run. -/
def step (s : Sys P) : Op P → Option (Sys P)
  | .arrive f =>
    if s.clock ≤ f.start ∧ ∀ g ∈ s.pending, f.start ≤ g.fin then some ⟨f.start, schedule f s.pending, s.delivered⟩ else none
  | .finish =>
    match s.pending with
    | [] => none
    | f :: rest => some ⟨f.fin, rest, s.delivered ++ [(f.fin, f.uid)]⟩

def execFrom : Sys P → List (Op P) → Option (Sys P)
  | s, [] => some s
  | s, o :: os => (step s o).bind (fun s' => execFrom s' os)

def exec (ops : List (Op P)) : Option (Sys P) := execFrom ⟨0, [], []⟩ ops

end NoneMac
end Icarus
