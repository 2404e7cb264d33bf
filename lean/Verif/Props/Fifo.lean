import Mathlib.Data.List.Perm.Basic
import Mathlib.Order.Lattice
import Mathlib.Order.Nat
import Mathlib.Data.List.Induction

/-!
# Reference behaviour of a first-in first-out sender

`serve` says when each of a list of packets, given with their arrival times, goes on the air when the sender transmits one packet at a
time in order of arrival and never idles without reason.  It knows nothing about queues, states or events.
-/

set_option autoImplicit false

namespace Icarus
namespace Fifo

variable {X : Type}

/-- `serve len wait k free arrivals`: the next packet is the `k`-th, and the sender is free from `free` on.  A packet is taken up at its arrival
or when the sender is free, whichever is later; it goes on the air `wait k now` after that and stays there `len` long. -/
def serve (len : X → Nat) (wait : Nat → Nat → Nat) : Nat → Nat → List (Nat × X) → List (Nat × X)
  | _, _, [] => []
  | k, free, (a, x) :: r =>
    (max a free + wait k (max a free), x) :: serve len wait (k + 1) (max a free + wait k (max a free) + len x) r

/-- When the sender is free after serving all arrivals. -/
def freeAfter (len : X → Nat) (wait : Nat → Nat → Nat) : Nat → Nat → List (Nat × X) → Nat
  | _, free, [] => free
  | k, free, (a, x) :: r => freeAfter len wait (k + 1) (max a free + wait k (max a free) + len x) r

variable {len : X → Nat} {wait : Nat → Nat → Nat}

theorem freeAfter_append (k free : Nat) (l m : List (Nat × X)) :
    freeAfter len wait k free (l ++ m) = freeAfter len wait (k + l.length) (freeAfter len wait k free l) m := by
  induction l generalizing k free with
  | nil => simp [freeAfter]
  | cons y l ih =>
    obtain ⟨a, x⟩ := y
    simp only [List.cons_append, freeAfter, ih, List.length_cons]
    congr 1
    omega

theorem serve_append (k free : Nat) (l m : List (Nat × X)) :
    serve len wait k free (l ++ m) = serve len wait k free l ++ serve len wait (k + l.length) (freeAfter len wait k free l) m := by
  induction l generalizing k free with
  | nil => simp [serve, freeAfter]
  | cons y l ih =>
    obtain ⟨a, x⟩ := y
    simp only [List.cons_append, serve, freeAfter, ih, List.length_cons]
    congr 3
    omega

theorem serve_length (k free : Nat) (l : List (Nat × X)) : (serve len wait k free l).length = l.length := by
  induction l generalizing k free with
  | nil => rfl
  | cons y l ih => obtain ⟨a, x⟩ := y; simp [serve, ih]

/-- Every packet is served once, in order. -/
theorem serve_packets (k free : Nat) (l : List (Nat × X)) : (serve len wait k free l).map Prod.snd = l.map Prod.snd := by
  induction l generalizing k free with
  | nil => rfl
  | cons y l ih => obtain ⟨a, x⟩ := y; simp [serve, ih]

theorem le_serve (k free : Nat) (l : List (Nat × X)) : ∀ y ∈ serve len wait k free l, free ≤ y.1 := by
  induction l generalizing k free with
  | nil => simp [serve]
  | cons y l ih =>
    obtain ⟨a, x⟩ := y
    intro z hz
    simp only [serve, List.mem_cons] at hz
    rcases hz with rfl | hz
    · simp only; have := Nat.le_max_right a free; omega
    · have := ih _ _ z hz
      have := Nat.le_max_right a free
      omega

/-- No two transmissions overlap. -/
theorem serve_disjoint (k free : Nat) (l : List (Nat × X)) :
    (serve len wait k free l).Pairwise (fun y z => y.1 + len y.2 ≤ z.1) := by
  induction l generalizing k free with
  | nil => simp [serve]
  | cons y l ih =>
    obtain ⟨a, x⟩ := y
    simp only [serve, List.pairwise_cons]
    exact ⟨fun z hz => le_serve _ _ _ z hz, ih _ _⟩

/-- No packet is sent before it arrives. -/
theorem serve_causal (k free : Nat) (l : List (Nat × X)) (i : Nat) (y z : Nat × X) (hy : l[i]? = some y)
    (hz : (serve len wait k free l)[i]? = some z) : y.1 ≤ z.1 ∧ z.2 = y.2 := by
  induction l generalizing k free i with
  | nil => simp at hy
  | cons w l ih =>
    obtain ⟨a, x⟩ := w
    cases i with
    | zero =>
      simp only [List.getElem?_cons_zero, Option.some.injEq, serve] at hy hz
      subst hy; subst hz
      have := Nat.le_max_left a free
      exact ⟨by simp only; omega, rfl⟩
    | succ i =>
      simp only [List.getElem?_cons_succ, serve] at hy hz
      exact ih _ _ i hy hz

/-- Prefixes of the arrivals give prefixes of the service. -/
theorem serve_prefix (k free : Nat) (l m : List (Nat × X)) : serve len wait k free l <+: serve len wait k free (l ++ m) := by
  rw [serve_append]; exact List.prefix_append _ _

end Fifo
end Icarus
