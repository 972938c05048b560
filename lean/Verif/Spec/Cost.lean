import Verif.Model.Mem

/-!
# Specification of the work done by a goroutine
-/

namespace Gse

/-- What an access counts for: one, and for an allocation also the cells that have to be cleared. -/
def Access.weight : Access → Nat
  | .rd _ => 1
  | .wr _ => 1
  | .al _ n => n + 1

/-- The work of goroutine `i` in an execution. -/
def work (i : Nat) (tr : List (Nat × Access)) : Nat := ((tr.filter fun p => p.1 = i).map fun p => p.2.weight).sum

end Gse
