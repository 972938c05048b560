import Verif.Spec.ServerSerial
import Verif.Spec.Cost

/-! # What requests cost the server: what is to be shown -/

namespace Gse.Spec

/-- The bound for a request to `/json` with this text: `L` is the number of atomic words and `M` the number of bytes of the longest stored word. -/
def jsonBound (hmm : Bool) (L M : Nat) (text : Bytes) : Nat :=
  if hmm then 14 * (runes text).length * (M + 1) + 44 * (runes text).length + 3 else 11 * L * text.length + 35 * text.length + L + 19

/-- The work of all these goroutines. -/
def workOf (order : List Nat) (tr : List (Nat × Access)) : Nat := (order.map fun i => work i tr).sum

end Gse.Spec
