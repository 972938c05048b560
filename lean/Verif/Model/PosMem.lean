import Verif.Model.CutMem
import Verif.Model.TextRank

/-!
# `Cut` of a tagger and `TextRank` as programs over memory (hmm/pos/pos_seg.go, hmm/pos/dict.go, hmm/idf/textrank.go)

The same functions as in Model/Pos.lean and Model/TextRank.lean, with every access to the dictionary made explicit. Simplifications as in
Model/CutMem.lean. The tables of package pos and the two numbers of `pos.Dict` are never written, so reading them is not an
access here. A tagger made with `WithGse` has a copy of the segmenter struct, so a field `Dict` of its own (with the same pointer in it); no program
here writes that field, so the one location `segDict` stands for all of them.
-/

namespace Gse

variable {F D : Type} [F64 F] [F32 D]

open Prog

/-- dag.go:44-46 `Value` with dictionary.go:135-143. -/
def valueP (word : Bytes) : Prog F D (Nat × Bool) := do
  let nil ← rdBool .segDict
  if nil then .panic
  else do
    let t ← rdTrie
    match t.jump word [] with
    | none => .ret (0, true)
    | some id => do
      let t ← rdTrie
      match t.value id with
      | none => .ret (0, true)
      | some v => .ret (v, false)

/-- hmm/pos/dict.go:53-61 `Dict.Pos`. -/
def posOfP (w : Bytes) : Prog F D (Option Bytes) := do
  let x ← valueP w
  if x.1 = 0 then .ret none
  else do
    let nil ← rdBool .segDict
    if nil then .panic
    else do
      let n ← rdNat .tokHdr
      if x.1 < n then do
        let t ← rdTok x.1
        .ret (some t.pos)
      else .panic

/-- The lookup repeated in hmm/pos/pos_seg.go (201-205, 216-221, 228-232, 253-257, 268-273, 301-305). -/
def posItemP (w : Bytes) : Prog F D SegPos := do
  let t ← posOfP w
  .ret ⟨w, t.getD (str "x")⟩

/-- hmm/pos/pos_seg.go:153-185 `calc` with 111-146 `getDag`. -/
def posRoutesP (rs : List Rune) : Prog F D (List (Nat × Route F)) := do
  let dag ← getDagP rs
  calcLoopP rs (F64.ofNat 0) dag rs.length [(rs.length, ⟨F64.ofNat 0, 0⟩)]

/-- hmm/pos/pos_seg.go:207-226 and 250-277 `bufn`; `detail` does not reach the dictionary. -/
def posFlushP (detail : Bytes → Option (List SegPos)) (buf : List Rune) : Prog F D (List SegPos) :=
  if buf.length = 0 then .ret []
  else if buf.length = 1 then do
    let p ← posItemP (encode buf)
    .ret [p]
  else do
    let x ← findP (encode buf)
    if !x.2.2 || F64.eq x.1 (F64.ofNat 0) then liftP (detail (encode buf)) else mapP posItemP (buf.map encodeRune)

/-- hmm/pos/pos_seg.go:197-246: the body of `cutDAG` over the fragments. -/
def posHmmLoopP (detail : Bytes → Option (List SegPos)) : List (List Rune) → List Rune → Prog F D (List SegPos)
  | [], buf => posFlushP detail buf
  | frag :: rest, buf =>
    if frag.length = 1 then posHmmLoopP detail rest (buf ++ frag)
    else do
      let o ← posFlushP detail buf
      let p ← posItemP (encode frag)
      let r ← posHmmLoopP detail rest []
      .ret (o ++ p :: r)

/-- hmm/pos/pos_seg.go:189-248 `cutDAG`. -/
def posCutDAGP (detail : Bytes → Option (List SegPos)) (text : Bytes) : Prog F D (List SegPos) := do
  let routes ← posRoutesP (runes text)
  let frags ← liftP (walk (runes text) routes (runes text).length 0)
  posHmmLoopP detail frags []

/-- hmm/pos/pos_seg.go:285-312: the body of `cutDAGNoHMM` over the fragments. -/
def posNoHmmLoopP : List (List Rune) → List Rune → Prog F D (List SegPos)
  | [], buf => .ret (engItem buf)
  | frag :: rest, buf =>
    if engFrag frag then posNoHmmLoopP rest (buf ++ frag)
    else do
      let p ← posItemP (encode frag)
      let r ← posNoHmmLoopP rest []
      .ret (engItem buf ++ p :: r)

/-- hmm/pos/pos_seg.go:279-315 `cutDAGNoHMM`. -/
def posCutNoHMMP (text : Bytes) : Prog F D (List SegPos) := do
  let routes ← posRoutesP (runes text)
  let frags ← liftP (walk (runes text) routes (runes text).length 0)
  posNoHmmLoopP frags []

/-- hmm/pos/pos_seg.go:327-352: one block. -/
def posBlockP [Unicode] (cut : Bytes → Prog F D (List SegPos)) (blk : Bytes) : Prog F D (List SegPos) :=
  if (reHanInternal blk).isSome then cut blk
  else do
    let xs ← liftP (splitBy reSkipInternal blk)
    .ret (xs.flatMap spaceItems)

/-- hmm/pos/pos_seg.go:319-355 `Cut(text, hmm)`; `ch` makes the choices of this call. -/
def posCutP [Unicode] (ch : Choice) (T : PosTables F) (text : Bytes) (hmm : Bool) : Prog F D (List SegPos) := do
  let blks ← liftP (splitBy reHanInternal text)
  let os ← mapP (posBlockP (if hmm then posCutDAGP (cutDetail ch T) else posCutNoHMMP)) blks
  .ret os.flatten

/-- hmm/idf/textrank.go:141-181 `TextRankWithPOS`. -/
def textRankP [Unicode] (ch' ch : Choice) (K : RankConst F) (T : PosTables F) (text : Bytes) (topK : Int) (allowPOS : List Bytes) :
    Prog F D (List (WordWeight F)) := do
  let pairs ← posCutP ch' T text true
  .ret (textRankItems ch K pairs topK allowPOS)

end Gse
