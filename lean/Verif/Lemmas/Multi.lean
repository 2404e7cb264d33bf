import Mathlib.Algebra.Order.BigOperators.Group.Finset
import Mathlib.Data.Multiset.Basic
import Mathlib.Data.Fintype.Basic

/-!
# Sums of multisets over finite types
-/

set_option autoImplicit false

namespace Icarus

variable {G : Type} [Fintype G]

theorem sum_update [DecidableEq G] {S X : Type} (F : G → S → Multiset X) (f : G → S) (g : G) (v : S) (new : Multiset X)
    (h : F g v = F g (f g) + new) :
    ∑ g', F g' (Function.update f g v g') = ∑ g', F g' (f g') + new := by
  rw [← Finset.add_sum_erase _ _ (Finset.mem_univ g), ← Finset.add_sum_erase _ (fun g' => F g' (f g')) (Finset.mem_univ g),
    Function.update_self, h]
  have : ∑ x ∈ Finset.univ.erase g, F x (Function.update f g v x) = ∑ x ∈ Finset.univ.erase g, F x (f x) := by
    refine Finset.sum_congr rfl (fun x hx => ?_)
    rw [Function.update_of_ne (Finset.ne_of_mem_erase hx)]
  rw [this]
  exact add_right_comm _ _ _

theorem filterMap_sum {X Y : Type} (f : X → Option Y) (F : G → List X) :
    Multiset.filterMap f (∑ g, (F g : Multiset X)) = ∑ g, ((F g).filterMap f : Multiset Y) := by
  classical
  induction (Finset.univ : Finset G) using Finset.induction_on with
  | empty => simp
  | insert a s ha ih => rw [Finset.sum_insert ha, Finset.sum_insert ha, Multiset.filterMap_add, ih]; rfl

end Icarus
