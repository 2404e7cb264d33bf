import Verif.Model.Constellation

/-!
# Model of `helper/isl-helper.cc` : installing inter-satellite links

Positions are pairs `(plane, index)`.
-/

set_option autoImplicit false

namespace Icarus
namespace Isl

/-- The loop body for plane `i`, position `j` (helper/isl-helper.cc:159-189): the pairs of positions connected, in order.
`n` = `nPlanes`, `s` = `nNodesPerPlane`.  The subtraction `nNodesPerPlane - 1` is on `size_t`; inside the loops both numbers
are at least 1 so it does not wrap. -/
def linksAt (n s i j : Nat) : List ((Nat × Nat) × (Nat × Nat)) :=
  (if j < s - 1 then [((i, j), (i, j + 1))]
   else if j = s - 1 ∧ j ≠ 0 ∧ j ≠ 1 then [((i, j), (i, 0))]
   else []) ++
  (if i < n - 1 then [((i, j), (i + 1, j))]
   else if i = n - 1 ∧ i ≠ 0 ∧ i ≠ 1 then [((i, j), (0, j))]
   else [])

/-- The two loops of `ISLHelper::Install (c, chelper)` (helper/isl-helper.cc:155-191): connected positions in order.
Simplification: the loop counters are `uint32_t` while the bounds are `size_t`; fewer than 2^32 planes and positions are
assumed. -/
def gridLinks (n s : Nat) : List ((Nat × Nat) × (Nat × Nat)) :=
  (List.range n).flatMap (fun i => (List.range s).flatMap (fun j => linksAt n s i j))

variable {D : Type}

/-- `constellation->GetSatellite (p, i)->GetNode ()` : null pointers are dereferenced. -/
def nodeAt (debug : Bool) (c : Constellation D) (pos : Nat × Nat) : Outcome D := do
  let v ← c.getSatellite debug pos.1 pos.2
  Outcome.deref v

/-- The nodes joined by the links `ls`, looked up in order. -/
def resolve (debug : Bool) (c : Constellation D) : List ((Nat × Nat) × (Nat × Nat)) → Outcome (List (D × D))
  | [] => .ok []
  | (a, b) :: ls =>
    match nodeAt debug c a, nodeAt debug c b with
    | .ok x, .ok y =>
      match resolve debug c ls with
      | .ok rest => .ok ((x, y) :: rest)
      | .ub f => .ub f
      | .abort => .abort
      | .assertFail => .assertFail
    | .ok _, .ub f => .ub f
    | .ok _, .abort => .abort
    | .ok _, .assertFail => .assertFail
    | .ub f, _ => .ub f
    | .abort, _ => .abort
    | .assertFail, _ => .assertFail

/-- Check made by the first loop (helper/isl-helper.cc:129-146): every address carries the constellation number of the first
one with a non-zero number. -/
def sameConstellation : UInt16 → List UInt16 → Bool
  | _, [] => true
  | cur, x :: xs => if cur ≠ 0 then cur == x && sameConstellation cur xs else sameConstellation x xs

/-- `ISLHelper::Install (c, chelper)` (helper/isl-helper.cc:125-193).  `ids` are the constellation numbers read from the first
device of each node of the container.  The result is the list of links, each given by the two nodes it joins; every link
gets a channel and one new device per end (helper/isl-helper.cc:204-238).  Simplification: the C++ dereferences `(i, j)` and its
neighbours position by position; here all positions are looked up first, then the links are made (same outcome: a missing
satellite anywhere is a null dereference). -/
def install (debug : Bool) (c : Constellation D) (ids : List UInt16) : Outcome (List (D × D)) := do
  Outcome.nsAssert debug (sameConstellation 0 ids)
  let size ← c.getSize debug
  Outcome.nsAssert debug (ids.length == size)
  let _ ← resolve debug c
    ((List.range c.nPlanes).flatMap (fun i => (List.range c.planeSize).map (fun j => ((i, j), (i, j)))))
  resolve debug c (gridLinks c.nPlanes c.planeSize)

/-- Owners of the devices created, in order: `Install (a, b)` adds one device to `a`, then one to `b`
(helper/isl-helper.cc:217-218). -/
def deviceOwners {α : Type} (links : List (α × α)) : List α := links.flatMap (fun l => [l.1, l.2])

end Isl
end Icarus
