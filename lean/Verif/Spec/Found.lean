import Verif.Spec.Dict
import Verif.Spec.Dag
import Verif.Spec.Hmm

/-! # What it means that a word can be looked up in an index -/

namespace Gse.Spec

variable {F : Type} [F64 F]

/-- A word that an index made with `CutAll` can be asked for: well-formed text of at least two characters that the
dictionary holds with a frequency above zero. -/
def Indexed (content : Bytes → Option (F × Bytes)) (w : Bytes) : Prop :=
  ValidText w ∧ 2 ≤ (runes w).length ∧ ∃ f p, content w = some (f, p) ∧ F64.lt (F64.ofNat 0) f = true

end Gse.Spec
