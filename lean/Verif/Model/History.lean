import Verif.Model.Segmenter

/-!
# Histories of dictionary operations

Not code of /repo by itself: sequences of calls to the API functions modelled in Segmenter.lean, on a segmenter whose
flags stay fixed.
-/

namespace Gse

variable {F D : Type} [F64 F] [F32 D] [Narrow F D]

/-- One call of the dictionary API (dict_util.go:75-104, 454). -/
inductive DictOp (F : Type)
  | add (text : Bytes) (freq : F) (pos : Bytes)
  | addForce (text : Bytes) (freq : F) (pos : Bytes)
  | remove (text : Bytes)
  | reAdd (text : Bytes) (freq : F) (pos : Bytes)
  | recalc

/-- Run one call; `none` is a panic or the unspecified case of the trie library. -/
def DictOp.step [Unicode] (cfg : SplitCfg) (d : Dictionary F D) : DictOp F → Option (Dictionary F D)
  | .add t f p => some (segAddToken cfg d t f p).1
  | .addForce t f p => (segAddTokenForce cfg d t f p).map (·.1)
  | .remove t => (segRemoveToken cfg d t).map (·.1)
  | .reAdd t f p => (segReAddToken cfg d t f p).map (·.1)
  | .recalc => calcToken d

/-- Run a history. -/
def runOps [Unicode] (cfg : SplitCfg) : List (DictOp F) → Dictionary F D → Option (Dictionary F D)
  | [], d => some d
  | op :: ops, d => (op.step cfg d).bind (runOps cfg ops)

/-- Dictionaries reachable from `NewDict()` through the API with fixed flags. -/
def Reachable [Unicode] (cfg : SplitCfg) (d : Dictionary F D) : Prop :=
  ∃ ops : List (DictOp F), runOps cfg ops Dictionary.new = some d

end Gse
