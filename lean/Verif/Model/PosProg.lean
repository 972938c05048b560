import Verif.Model.Copy
import Verif.Model.Pos
import Verif.Model.TextRank

/-!
# Taggers and text rankers in a program (hmm/pos/pos_seg.go, hmm/pos/dict.go, hmm/idf/textrank.go)

A `pos.Segmenter` is a struct around a `pos.Dict`, which has a `gse.Segmenter` and two numbers that the code never writes
(hmm/pos/dict.go:24-27); a `TextRanker` is a struct around a `pos.Segmenter` and a flag that the code never reads
(hmm/idf/textrank.go:18-21). So each of them is one more segmenter variable of the world of Model/Copy.lean: `WithGse` assigns another variable to
it, `LoadDict` is `LoadDict` of that variable, and copying the struct copies the variable. Go hides the variable inside a `pos.Segmenter` from the
program, the model does not.
-/

namespace Gse

variable {F D : Type} [F64 F] [F32 D] [Narrow F D]

/-- hmm/pos/pos_seg.go:48-50 `WithGse(segs)`, hmm/idf/textrank.go:24-26: `segs` is a copy of variable `i`, the tagger is variable `p`. -/
def posWithGse (p i : Nat) : WorldOp F := .assign p i

/-- hmm/pos/pos_seg.go:53-55 and hmm/pos/dict.go:64-66 `LoadDict`, hmm/idf/textrank.go:29-32. -/
def posLoadDict (p : Nat) (fs : Bytes → Option Bytes) (files : Option Bytes) : WorldOp F := .call p (.loadDict fs files)

/-- hmm/pos/pos_seg.go:188-315 `cutDAG` and `cutDAGNoHMM` with a nil dictionary: the first lookup (hmm/pos/pos_seg.go:121, dictionary.go:114)
panics; without characters there is none. -/
def posCutNil (text : Bytes) : Option (List SegPos) := if runes text = [] then some [] else none

/-- hmm/pos/pos_seg.go:319-355 `Cut(text, hmm)`; `d` is the dictionary, `none` is nil. -/
def posCutOn [Unicode] (ch : Choice) (T : PosTables F) (d : Option (Dictionary F D)) (text : Bytes) (hmm : Bool) : Option (List SegPos) :=
  match d with
  | none => posCutWith posCutNil text
  | some d => posCut ch T d text hmm

/-- hmm/idf/textrank.go:141-181 `TextRankWithPOS`; `d` is the dictionary, `none` is nil. -/
def textRankOn [Unicode] (ch' ch : Choice) (K : RankConst F) (T : PosTables F) (d : Option (Dictionary F D)) (text : Bytes) (topK : Int)
    (allowPOS : List Bytes) : Option (List (WordWeight F)) :=
  (posCutOn ch' T d text true).map fun pairs => textRankItems ch K pairs topK allowPOS

end Gse
