import Verif.Spec.Content

/-!
# Specification: writing a dictionary out
-/

namespace Gse.Spec
open Gse

variable {F D : Type} [F64 F] [F32 D] [Unicode]

/-- What a caller sees who goes through `Dict.Tokens`: text, frequency and tag of each. -/
def written (d : Dictionary F D) : List (Bytes × F × Bytes) := d.tokens.map fun t => (t.text.flatten, t.freq, t.pos)

/-- The calls of a history that add words. -/
def onlyAdds (ops : List (DictOp F)) : List (DictOp F) :=
  ops.filter fun | .add .. => true | .addForce .. => true | _ => false

/-- The calls that add what was written. -/
def readBack (es : List (Bytes × F × Bytes)) : List (DictOp F) := es.map fun e => .add e.1 e.2.1 e.2.2

/-- Each word is listed once, and it is stored as listed. -/
structure EachOnce (cfg : SplitCfg) (ops : List (DictOp F)) (d : Dictionary F D) : Prop where
  once : ((written d).map (·.1)).Nodup
  stored : ∀ e ∈ written d, (absRun cfg ops).content e.1 = some e.2

end Gse.Spec
