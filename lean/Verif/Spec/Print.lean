import Verif.Model.History
import Verif.Model.Output
import Verif.Spec.Text

/-!
# Printing segments so that they can be read back
-/

namespace Gse.Spec
open Gse

/-- A slash in the word only when it is the whole word; not the empty word. -/
def WordPrints (w : Bytes) : Prop := w ≠ [] ∧ (47 ∉ w ∨ w = [47])

/-- No blank in the tag. -/
def TagPrints (p : Bytes) : Prop := 32 ∉ p

/-- The call adds no word with a slash inside and no tag with a blank. -/
def OpPrints {F : Type} [Unicode] (cfg : SplitCfg) : DictOp F → Prop
  | .add t _ p | .addForce t _ p | .reAdd t _ p => (47 ∉ normText cfg t ∨ normText cfg t = [47]) ∧ TagPrints p
  | .remove _ | .recalc => True

/-- A slash is neither a letter nor a number. -/
def SlashPlain [U : Unicode] : Prop := U.isLetter 47 = false ∧ U.isNumber 47 = false

end Gse.Spec
