import Verif.Model.AddMem

/-!
# `CalcToken` and `AddTokenForce` as programs over memory (dict_util.go)

The same functions as in Model/Segmenter.lean, with every access to memory made explicit.
-/

namespace Gse

variable {F D : Type} [F64 F] [F32 D] [Narrow F D]

namespace Prog

/-- Read the slice header of the sub-segments of a table entry. -/
def rdSubs (i : Nat) : Prog F D Slice := .read (.subs i) fun c => match c with | .subs x => .ret x | _ => .panic

end Prog

open Prog

/-- Arrays with the bytes of these words. -/
def wordsP : List Bytes → Prog F D (List Slice)
  | [] => .ret []
  | w :: ws => do
    let a ← make (w.map Cell.byte)
    let rest ← wordsP ws
    .ret (⟨a, 0, w.length⟩ :: rest)

/-- The text of a token as an array of words. Simplification: Model/Mem.lean keeps the words of a token, which are never written
again, inside its cell, so they are copied here. -/
def textP (ws : List Bytes) : Prog F D Slice := do
  let ss ← wordsP ws
  let a ← make (ss.map Cell.word)
  .ret ⟨a, 0, ss.length⟩

/-- dict_util.go:457-461: the distances, for `k` more tokens from index `i` on. -/
def distLoopP (logTotal : D) : Nat → Nat → Prog F D Unit
  | 0, _ => .ret ()
  | k + 1, i => do
    let n ← rdNat .tokHdr
    if i < n then do
      let t ← rdTok i
      put (.dist i) (.dist (F32.sub logTotal (Narrow.narrow (F64.log2 t.freq))))
      distLoopP logTotal k (i + 1)
    else .panic

/-- The words of a token that a segment points to. -/
def segTextP : Option MRef → Prog F D (List Bytes)
  | none => .panic
  | some (.idx v) => do
    let t ← rdTok v
    .ret t.text
  | some (.pseudo s) => do
    let w ← rdBytes s.arr s.off s.len
    .ret [w]

/-- dict_util.go:473-482 and 490-499: whether a sub-segment is kept. -/
def keepSubP [Unicode] (a i : Nat) : Prog F D Bool := do
  let s ← rdSeg a i
  let ws ← segTextP s.tok
  .ret (match ws with
    | [] => false
    | [w] => !isJp w
    | _ => true)

/-- dict_util.go:471-484: the number of sub-segments to be kept, for `k` more segments from cell `i` of the array `a` on. -/
def countSubsP [Unicode] (a : Nat) : Nat → Nat → Nat → Prog F D Nat
  | 0, _, num => .ret num
  | k + 1, i, num => do
    let b ← keepSubP a i
    countSubsP a k (i + 1) (if b then num + 1 else num)

/-- dict_util.go:488-501: the pointers to the sub-segments of token `t`; `j` is the next place. -/
def fillSubsP [Unicode] (t a : Nat) : Nat → Nat → Nat → Prog F D Unit
  | 0, _, _ => .ret ()
  | k + 1, i, j => do
    let b ← keepSubP a i
    if b then do
      let r ← rdSubs t
      if j < r.len then do
        wr r.arr (r.off + j) (.segPtr (some (a, i)))
        fillSubsP t a k (i + 1) (j + 1)
      else .panic
    else fillSubsP t a k (i + 1) j

/-- dict_util.go:465-502: the sub-segments of token `i`. -/
def subsStepP [Unicode] (i : Nat) : Prog F D Unit := do
  let n ← rdNat .tokHdr
  if i < n then do
    let t ← rdTok i
    let text ← textP t.text
    let segs ← segmentWordsP text true
    let num ← countSubsP segs.arr segs.len segs.off 0
    let a ← make (List.replicate num (.segPtr none))
    put (.subs i) (.subs ⟨a, 0, num⟩)
    fillSubsP i segs.arr segs.len segs.off 0
  else .panic

/-- dict_util.go:465-502, for `k` more tokens from index `i` on. -/
def subsLoopP [Unicode] : Nat → Nat → Prog F D Unit
  | 0, _ => .ret ()
  | k + 1, i => do
    subsStepP i
    subsLoopP k (i + 1)

/-- dict_util.go:456-461: the first loop of `CalcToken`. A nil dictionary panics. -/
def distancesP : Prog F D Unit := do
  let nil ← rdBool .segDict
  if nil then .panic
  else do
    let total ← rdFreq .totalFreq
    let n ← rdNat .tokHdr
    distLoopP (Narrow.narrow (F64.log2 total)) n 0

/-- dict_util.go:454-503 `CalcToken`. -/
def calcTokenP [Unicode] : Prog F D Unit := do
  distancesP
  let n ← rdNat .tokHdr
  subsLoopP n 0

/-- dict_util.go:82-86 `AddTokenForce`; the result is `err != nil`. -/
def addTokenForceP [Unicode] (text : Slice) (freq : F) (pos : Bytes) : Prog F D Bool := do
  let err ← addTokenP text freq pos
  calcTokenP
  .ret err

end Gse
