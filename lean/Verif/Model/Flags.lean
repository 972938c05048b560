import Verif.Model.History

/-!
# Dictionary calls while the flags change

`AlphaNum`, `Alpha` and `Num` are public fields of a `Segmenter` (segmenter.go:36-38) and `ToLower` is a package variable
(dict_util.go:31-34); a program may assign to them between any two calls, and copies that share a dictionary (hmm/idf/tag_extracker.go:21-24) have
flags of their own.
-/

namespace Gse

variable {F D : Type} [F64 F] [F32 D] [Narrow F D]

/-- Run a history (Model/History.lean), every call with the flags it finds. -/
def runMixed [Unicode] : List (SplitCfg × DictOp F) → Dictionary F D → Option (Dictionary F D)
  | [], d => some d
  | (cfg, op) :: ops, d => (op.step cfg d).bind (runMixed ops)

end Gse
