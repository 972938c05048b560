import Verif.Spec.Alone

/-!
# Goroutines one after another

The accesses of an execution in another order, and what the allocator is asked for.
-/

namespace Gse
namespace Spec

/-- The accesses in the order: all of the goroutine named first, then all of the next one, and so on. -/
def serial (order : List Nat) (tr : List (Nat × Access)) : List (Nat × Access) := order.flatMap fun i => tr.filter fun x => x.1 == i

/-- No address was given to two goroutines. (The model's allocator may do so for an array without elements only.) -/
def FreshAddresses (tr : List (Nat × Access)) : Prop := ∀ i j a n k, (i, .al a n) ∈ tr → (j, .al a k) ∈ tr → i = j

end Spec
end Gse
