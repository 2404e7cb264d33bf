import Verif.Model.Transport

/-!
# Model of the transmission queues

`helper/icarus-helper.cc:59` and `helper/isl-helper.cc:53` give every device an ns-3 `DropTailQueue<Packet>`; ns-3 is not part of the repository.  What the
devices use of it: `Enqueue` (`Queue<Item>::DoEnqueue`) refuses a packet that would make the queue exceed `MaxSize`, and otherwise appends it; `Dequeue` takes the
first packet; `GetNBytes` is the sum of the packet sizes.  Simplification: the 32-bit counters of packets and bytes do not wrap around.
-/

set_option autoImplicit false

namespace Icarus
namespace Queue
open Transport (SizeUnit)

variable {X : Type}

/-- Result of `Enqueue` of a drop-tail queue that holds `q`. -/
def dropTail (unit : SizeUnit) (max : UInt32) (bytes : X → Nat) (q : List X) (x : X) : Bool :=
  match unit with
  | .packets => decide (q.length + 1 ≤ max.toNat)
  | .bytes => decide ((q.map bytes).sum + bytes x ≤ max.toNat)

/-- `getSendQueueLength` (model/ndn/ground-sta-transport.cc:89-104, model/ndn/sat2ground-transport.cc:90-103) of a device whose queue holds `q`; the device always
has an attribute `TxQueue`, but its pointer may be null. -/
def sendQueueLength (bytes : X → Nat) (queue : Option (List X)) : Outcome Nat := do
  let q ← Outcome.deref queue
  .ok (q.map bytes).sum

end Queue
end Icarus
