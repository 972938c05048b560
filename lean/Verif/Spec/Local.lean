import Verif.Spec.Dag
import Verif.Model.History

/-!
# Words that occur in a text
-/

namespace Gse.Spec
open Gse

variable [Unicode]

/-- Neighbouring words of the text, put together, are the word `k`. -/
def OccursIn (cfg : SplitCfg) (s k : Bytes) : Prop := ∃ ws, ws <:+: splitTextToWords cfg s ∧ ws.flatten = k

/-- Neighbouring characters of the text, as a DAG cut reads it, are the word `k`. -/
def OccursRunes (cfg : SplitCfg) (s k : Bytes) : Prop := ∃ x, x <:+: dagText cfg s ∧ encode x = k

/-- A call that adds, re-adds or removes a word that does not occur in the text, and does not recalculate. -/
def Elsewhere {F : Type} (cfg : SplitCfg) (s : Bytes) : DictOp F → Prop
  | .add w _ _ => ¬ OccursIn cfg s (normText cfg w)
  | .remove w => ¬ OccursIn cfg s (normText cfg w)
  | .reAdd w _ _ => ¬ OccursIn cfg s (normText cfg w)
  | _ => False

/-- How many of the tokens are stored words. -/
def storedCount {F D : Type} [F64 F] [F32 D] (d : Dictionary F D) (ts : List (Token F D)) : Nat := ts.countP fun t => (storedTok d t.text.flatten).isSome

end Gse.Spec
