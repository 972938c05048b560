import Verif.Model.Dag

/-!
# Hidden Markov model cutting

hmm/viterbi.go, hmm/hmm_seg.go and the wrappers of gse.go:123-142.
-/

namespace Gse

/-- The four states `'B'`, `'E'`, `'M'`, `'S'` (hmm/viterbi.go:27-38). -/
inductive Tag
  | B | E | M | S
  deriving DecidableEq, Repr

/-- The byte of a state, which decides ties (hmm/viterbi.go:57-60). -/
def Tag.byte : Tag → Nat
  | .B => 66
  | .E => 69
  | .M => 77
  | .S => 83

/-- `probEmit` (hmm/prob_emit.go:5, set by `LoadModel`): the value of a rune in a state, `none` when missing. -/
abbrev EmitModel (F : Type) := Tag → Rune → Option F

/-- The constants `minFloat`, `probStart` (hmm/viterbi.go:22, 35-38) and `probTrans` (hmm/prob_trans.go) for the eight
transitions in `prevStatus`, which are all present. Simplification: their decimal values are not modelled, theorems hold
for any values. -/
structure HmmConst (F : Type) where
  minFloat : F
  start : Tag → F
  trans : Tag → Tag → F

/-- hmm/viterbi.go:30-33 `prevStatus`. -/
def prevStatus : Tag → Tag × Tag
  | .B => (.E, .S)
  | .M => (.M, .B)
  | .S => (.S, .E)
  | .E => (.B, .M)

variable {F D : Type} [F64 F] [F32 D]

/-- hmm/viterbi.go:56-61 `Less`. -/
def probLess (a b : F × Tag) : Bool := if F64.eq a.1 b.1 then a.2.byte < b.2.byte else F64.lt a.1 b.1

/-- `sort.Sort(sort.Reverse(ps))` followed by `ps[0]` for two elements (hmm/viterbi.go:91, 106): the insertion sort of
package `sort` swaps them when the first is less. -/
def probTop (a b : F × Tag) : F × Tag := if probLess a b then b else a

/-- `probEmit[y][r]`, or `minFloat` when missing (hmm/viterbi.go:74-78, 115-119). -/
def emitOf (c : HmmConst F) (em : EmitModel F) (y : Tag) (r : Rune) : F := (em y r).getD c.minFloat

/-- One column `vtb[t]` together with `path` (hmm/viterbi.go:69-71): value and path of each state. -/
structure Column (F : Type) where
  b : F × List Tag
  m : F × List Tag
  e : F × List Tag
  s : F × List Tag

/-- The entry of a state. -/
def Column.get (col : Column F) : Tag → F × List Tag
  | .B => col.b
  | .M => col.m
  | .E => col.e
  | .S => col.s

/-- hmm/viterbi.go:73-81: one state of the first column. -/
def vtbStart (c : HmmConst F) (em : EmitModel F) (r : Rune) (y : Tag) : F × List Tag :=
  (F64.add (emitOf c em y r) (c.start y), [y])

/-- hmm/viterbi.go:121-130: the candidate coming from `y0`. -/
def vtbCand (c : HmmConst F) (em : EmitModel F) (col : Column F) (r : Rune) (y y0 : Tag) : F × Tag :=
  (F64.add (F64.add (col.get y0).1 (c.trans y0 y)) (emitOf c em y r), y0)

/-- hmm/viterbi.go:88-97: one state of a later column. -/
def vtbNext (c : HmmConst F) (em : EmitModel F) (col : Column F) (r : Rune) (y : Tag) : F × List Tag :=
  let top := probTop (vtbCand c em col r y (prevStatus y).1) (vtbCand c em col r y (prevStatus y).2)
  (top.1, (col.get top.2).2 ++ [y])

/-- hmm/viterbi.go:73-81: the first column. -/
def vtbFirst (c : HmmConst F) (em : EmitModel F) (r : Rune) : Column F :=
  ⟨vtbStart c em r .B, vtbStart c em r .M, vtbStart c em r .E, vtbStart c em r .S⟩

/-- hmm/viterbi.go:83-100: one step of the loop. -/
def vtbStep (c : HmmConst F) (em : EmitModel F) (col : Column F) (r : Rune) : Column F :=
  ⟨vtbNext c em col r .B, vtbNext c em col r .M, vtbNext c em col r .E, vtbNext c em col r .S⟩

/-- hmm/viterbi.go:68-110 `Viterbi` for the states B, M, E, S; `none` is the panic of `vtb[0]` for no observation. -/
def viterbi (c : HmmConst F) (em : EmitModel F) : List Rune → Option (F × List Tag)
  | [] => none
  | r :: rs =>
    let col := rs.foldl (vtbStep c em) (vtbFirst c em r)
    let v := probTop (col.e.1, .E) (col.s.1, .S)
    some (v.1, (col.get v.2).2)

/-- hmm/hmm_seg.go:54-66: the loop of `internalCut` over the runes from index `i` on; the words and the final `next`.
`none` is the panic of `posList[i]`. -/
def wordsLoop (rs : List Rune) : Nat → List Rune → List Tag → Nat → Nat → Option (List Bytes × Nat)
  | _, [], _, _, next => some ([], next)
  | _, _ :: _, [], _, _ => none
  | i, _ :: cs, .B :: ts, _, next => wordsLoop rs (i + 1) cs ts i next
  | i, _ :: cs, .M :: ts, begin', next => wordsLoop rs (i + 1) cs ts begin' next
  | i, _ :: cs, .E :: ts, begin', _ =>
    (wordsLoop rs (i + 1) cs ts begin' (i + 1)).map fun r => (encode (slice rs begin' (i + 1)) :: r.1, r.2)
  | i, c :: cs, .S :: ts, begin', _ =>
    (wordsLoop rs (i + 1) cs ts begin' (i + 1)).map fun r => (encodeRune c :: r.1, r.2)

/-- hmm/hmm_seg.go:54-72: the words made from a tag sequence. -/
def assemble (rs : List Rune) (tags : List Tag) : Option (List Bytes) :=
  (wordsLoop rs 0 rs tags 0 0).map fun r => if r.2 < rs.length then r.1 ++ [encode (rs.drop r.2)] else r.1

/-- hmm/hmm_seg.go:47-73 `internalCut`. -/
def internalCut (c : HmmConst F) (em : EmitModel F) (text : Bytes) : Option (List Bytes) :=
  (viterbi c em (runes text)).bind fun p => assemble (runes text) p.2

/-- `(*regexp.Regexp).FindStringIndex`: the byte range of the leftmost match, `none` for no match. -/
abbrev Matcher := Bytes → Option (Nat × Nat)

/-- The length in bytes of the leading run of Han characters. -/
def hanLen [U : Unicode] : Nat → Bytes → Nat
  | 0, _ => 0
  | _ + 1, [] => 0
  | n + 1, b :: t =>
    if U.isHan (decodeRune (b :: t)).1 then (decodeRune (b :: t)).2 + hanLen n ((b :: t).drop (decodeRune (b :: t)).2) else 0

/-- Search for the first Han character. -/
def findHan [U : Unicode] : Nat → Bytes → Nat → Option (Nat × Nat)
  | 0, _, _ => none
  | _ + 1, [], _ => none
  | n + 1, b :: t, off =>
    if U.isHan (decodeRune (b :: t)).1 then some (off, off + hanLen (b :: t).length (b :: t))
    else findHan n ((b :: t).drop (decodeRune (b :: t)).2) (off + (decodeRune (b :: t)).2)

/-- hmm/hmm_seg.go:25 `regHan`, the pattern `\p{Han}+`: the first maximal run of Han characters. -/
def regHan [Unicode] : Matcher := fun s => findHan s.length s 0

/-- `\d` -/
def digitByte (b : UInt8) : Bool := decide (48 ≤ b.toNat) && decide (b.toNat ≤ 57)

/-- `[a-zA-Z0-9]` -/
def alnumByte (b : UInt8) : Bool :=
  digitByte b || (decide (65 ≤ b.toNat) && decide (b.toNat ≤ 90)) || (decide (97 ≤ b.toNat) && decide (b.toNat ≤ 122))

/-- The length of the match of `(\d+\.\d+|[a-zA-Z0-9]+)` at the front of a text that starts with a letter or digit:
the first alternative is preferred. -/
def skipLen (s : Bytes) : Nat :=
  let ds := s.takeWhile digitByte
  let fs := (s.drop (ds.length + 1)).takeWhile digitByte
  if ds ≠ [] ∧ (s.drop ds.length).head? = some 46 ∧ fs ≠ [] then ds.length + 1 + fs.length
  else (s.takeWhile alnumByte).length

/-- Search for the first letter or digit. -/
def findSkip : Bytes → Nat → Option (Nat × Nat)
  | [], _ => none
  | b :: t, off => if alnumByte b then some (off, off + skipLen (b :: t)) else findSkip t (off + 1)

/-- hmm/hmm_seg.go:26 `regSkip`, the pattern `(\d+\.\d+|[a-zA-Z0-9]+)`. -/
def regSkip : Matcher := fun s => findSkip s 0

/-- hmm/hmm_seg.go:135-149 `locJudge`. -/
def locJudge (cutLoc nonCutLoc : Option (Nat × Nat)) : Option (Nat × Nat) :=
  match cutLoc, nonCutLoc with
  | none, none => none
  | none, some q => some q
  | some p, none => some p
  | some p, some q => if p.1 < q.1 then some p else some q

/-- hmm/hmm_seg.go:122-129: the end of a round, with the text left. -/
def cutJudge (go : Bytes → List Bytes → Option (Option (List Bytes))) (cutLoc nonCutLoc : Option (Nat × Nat)) (text : Bytes)
    (acc : List Bytes) : Option (Option (List Bytes)) :=
  match locJudge cutLoc nonCutLoc with
  | none => some (some (acc ++ [text]))
  | some l => go (text.drop l.1) (acc ++ [text.take l.1])

/-- hmm/hmm_seg.go:85-130: the loop of `Cut`. `word` is `reg[1]` or `regHan`, `skip` is `reg[0]` or `regSkip`.
`none`: more rounds than given; `some none`: panic. -/
def hmmCutLoop (internal : Bytes → Option (List Bytes)) (word skip : Matcher) :
    Nat → Bytes → List Bytes → Option (Option (List Bytes))
  | 0, _, _ => none
  | n + 1, text, acc =>
    if (word text).isNone ∧ text = [] then some (some acc)
    else if (word text).map (·.1) = some 0 then
      match internal (text.take (((word text).map (·.2)).getD 0)) with
      | none => some none
      | some ws => hmmCutLoop internal word skip n (text.drop (((word text).map (·.2)).getD 0)) (acc ++ ws)
    else if (skip text).isNone ∧ text = [] then some (some acc)
    else if (skip text).map (·.1) = some 0 then
      if text.take (((skip text).map (·.2)).getD 0) ≠ [] then
        hmmCutLoop internal word skip n (text.drop (((skip text).map (·.2)).getD 0))
          (acc ++ [text.take (((skip text).map (·.2)).getD 0)])
      else
        cutJudge (fun t a => hmmCutLoop internal word skip n t a) (word text) (skip text)
          (text.drop (((skip text).map (·.2)).getD 0)) acc
    else cutJudge (fun t a => hmmCutLoop internal word skip n t a) (word text) (skip text) text acc

/-- hmm/hmm_seg.go:76-133 `Cut` with the patterns used; `text.length + 1` rounds are enough for patterns without empty
matches. `none` is a panic or an endless loop. -/
def hmmCutWith (c : HmmConst F) (em : EmitModel F) (word skip : Matcher) (text : Bytes) : Option (List Bytes) :=
  (hmmCutLoop (internalCut c em) word skip (text.length + 1) text []).join

/-- hmm/hmm_seg.go:76-133 `Cut(text, reg...)`: `reg[0]` replaces `regSkip`, `reg[1]` replaces `regHan`. -/
def hmmCut [Unicode] (c : HmmConst F) (em : EmitModel F) (text : Bytes) (reg : List Matcher) : Option (List Bytes) :=
  hmmCutWith c em (reg[1]?.getD regHan) (reg[0]?.getD regSkip) text

/-- hmm/hmm_seg.go:34-45 `LoadModel`: the new value of the global `probEmit`. `dflt` is the table of hmm/prob_emit.go,
which sets all four states. -/
def loadModel (dflt : EmitModel F) (prob : List (Rune → Option F)) : EmitModel F :=
  match prob with
  | b :: e :: m :: s :: _ => fun
    | .B => b
    | .E => e
    | .M => m
    | .S => s
  | _ => dflt

/-- gse.go:96-103 and 68-79: `CutDAG(str, reg...)`, also `Cut(str, true)` with no pattern. -/
def cutDAGHmm [Unicode] (cfg : SplitCfg) (d : Dictionary F D) (c : HmmConst F) (em : EmitModel F) (s : Bytes) (reg : List Matcher) :
    Option (List Bytes) :=
  cutDAG cfg d (fun t => hmmCut c em t reg) s

/-- The calls through segmenters that read or write the global model, with the number of the segmenter. -/
inductive HmmOp (F : Type)
  /-- `Init` (dict_util.go:42-56), which loads the default model unless `NotLoadHMM` -/
  | init (seg : Nat) (notLoad : Bool)
  /-- gse.go:128 `LoadModel` -/
  | load (seg : Nat) (prob : List (Rune → Option F))
  /-- gse.go:133 `HMMCut` -/
  | cut (seg : Nat) (text : Bytes) (reg : List Matcher)
  /-- gse.go:139 `HMMCutMod` -/
  | cutMod (seg : Nat) (text : Bytes) (prob : List (Rune → Option F))

/-- The model after a call. -/
def HmmOp.next (dflt : EmitModel F) (em : EmitModel F) : HmmOp F → EmitModel F
  | .init _ notLoad => if notLoad then em else loadModel dflt []
  | .load _ prob => loadModel dflt prob
  | .cut _ _ _ => em
  | .cutMod _ _ prob => loadModel dflt prob

/-- What a call returns (`none` inside: it panics or hangs). -/
def HmmOp.output [Unicode] (c : HmmConst F) (dflt : EmitModel F) (em : EmitModel F) : HmmOp F → Option (Option (List Bytes))
  | .cut _ text reg => some (hmmCut c em text reg)
  | .cutMod _ text prob => some (hmmCut c (loadModel dflt prob) text [])
  | _ => none

/-- The outputs of a sequence of calls starting with the model `em`. -/
def hmmRun [Unicode] (c : HmmConst F) (dflt : EmitModel F) : EmitModel F → List (HmmOp F) → List (Option (Option (List Bytes)))
  | _, [] => []
  | em, op :: ops => op.output c dflt em :: hmmRun c dflt (op.next dflt em) ops

end Gse
