import Verif.Spec.Dag

/-!
# Specification: items of a search result

Which items of a result are terms of two or more characters.
-/

namespace Gse.Spec
open Gse

/-- The items of two or more characters, in their order. -/
def longItems (out : List Bytes) : List Bytes := out.filter fun w => decide (2 ≤ (runes w).length)

end Gse.Spec
