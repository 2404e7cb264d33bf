import Verif.Model.Uplink

/-!
# The uplink with the event order of ns-3

`Verif.Model.Uplink` lets events of different devices that are due at the same time run in any order.  ns-3 runs events of the same time in the
order in which they were scheduled (`Simulator::Schedule`, contract of ns-3, not part of the repository).  Here the events of the air interface, the
arrivals of frames (`Simulator::ScheduleWithContext` in model/ground-sat-channel.cc:131-133) and the ends of receptions (`Simulator::Schedule` in
model/mac/aloha-mac-model.cc:127-128, model/mac/crdsa-mac-model.cc:349-350 and model/mac/none-mac-model.cc:68), carry the time at which they were scheduled, and
one that was scheduled at an earlier time runs first.

Simplification: the order of two events scheduled at the same time for the same time, and the order between the events of the stations and those of
the air interface, stay free.  The order of ns-3 is one of the orders allowed here.
-/

set_option autoImplicit false

namespace Icarus
namespace Uplink
open GroundSatChannel Aloha

variable {D G V W P R : Type}

/-- The state of the uplink, and for the scheduled arrivals, in the same order, when they are due and when they were scheduled. -/
structure OSys (D G W R : Type) where
  sys : Sys D G W R
  born : List (Nat × Nat)

/-- What the channel scheduled at time `t`. -/
def bornEffect (t : Nat) (b : List (Nat × Nat)) : Effect D G W (Nat × Nat) → List (Nat × Nat)
  | .toSat _ after _ _ _ _ => insertEvent (t + after) t b
  | .drop _ => b
  | .toGround _ _ _ _ _ _ => b

/-- What the transmissions of a station schedule (the same calls as in `transmitAll`). -/
def bornAll (net : Net D G V W P R) (g : G) : List (Nat × GroundSta.Entry W) → List (Nat × Nat) → List (Nat × Nat)
  | [], b => b
  | (t, x) :: xs, b =>
    match transmit2Sat net.debug net.endian net.chan (net.air t) (x.pkt, x.len) x.len g (net.addr g) x.dst x.proto x.power with
    | .ok r => bornAll net g xs (r.1.foldl (bornEffect t) b)
    | _ => b

/-- No arrival and no end of a reception due at `t` was scheduled before `b`.  `pend` gives the scheduled ends of receptions of a receiver; the end
of a reception is scheduled when it starts. -/
def First (pend : R → List (Frame P)) (s : OSys D G W R) (t b : Nat) : Prop :=
  (∀ e ∈ s.born, e.1 = t → b ≤ e.2) ∧ ∀ d, ∀ f ∈ pend (s.sys.sats d), f.fin = t → b ≤ f.start

instance [Fintype D] (pend : R → List (Frame P)) (s : OSys D G W R) (t b : Nat) : Decidable (First pend s t b) := by
  unfold First; infer_instance

variable [Fintype G] [Fintype D] [DecidableEq G] [DecidableEq D]

/-- One step of the simulator. -/
def ostep (net : Net D G V W P R) (pend : R → List (Frame P)) (s : OSys D G W R) : Op D G W → Option (Outcome (OSys D G W R))
  | .station g o =>
    (step net s.sys (.station g o)).map (fun r => do
      let s' ← r
      .ok ⟨s', bornAll net g ((s'.stations g).aired.drop (s.sys.stations g).aired.length) s.born⟩)
  | .arrive =>
    match s.born with
    | [] => none
    | (t, b) :: rest =>
      if First pend s t b then
        (step net s.sys .arrive).map (fun r => do
          let s' ← r
          .ok ⟨s', rest⟩)
      else none
  | .finish d =>
    match pend (s.sys.sats d) with
    | [] => none
    | f :: _ =>
      if First pend s f.fin f.start then
        (step net s.sys (.finish d)).map (fun r => do
          let s' ← r
          .ok ⟨s', s.born⟩)
      else none

/-- Executions in the order of ns-3. -/
def oexec (net : Net D G V W P R) (pend : R → List (Frame P)) (ops : List (Op D G W)) : Option (Outcome (OSys D G W R)) :=
  runFrom (ostep net pend) ⟨Sys.init net, []⟩ ops

end Uplink
end Icarus
