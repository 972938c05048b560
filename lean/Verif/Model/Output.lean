import Verif.Model.Segmenter

/-!
# Output (seg_utils.go, token.go, gse.go)
-/

namespace Gse

variable {F D : Type} [F64 F] [F32 D] [Narrow F D]

/-- Go `copy(b[bp:], s)` on a byte slice: overwrites `min(len(b)-bp, len(s))` bytes; returns the new slice and the
number copied. `none` is the slice panic `bp > len(b)`. -/
def goCopy (b : Bytes) (bp : Nat) (s : Bytes) : Option (Bytes × Nat) :=
  if b.length < bp then none
  else
    let n := min (b.length - bp) s.length
    some (b.take bp ++ s.take n ++ b.drop (bp + n), n)

/-- Loop seg_utils.go:215-217 of `Join`. -/
def joinLoop : List Bytes → Bytes → Nat → Option Bytes
  | [], b, _ => some b
  | s :: ss, b, bp => do
    let (b', n) ← goCopy b bp s
    joinLoop ss b' (bp + n)

/-- seg_utils.go:192-219 `Join`. `none` is a slice panic. -/
def join (text : List Bytes) : Option Bytes :=
  match text with
  | [] => some []
  | [a] => some a
  | [a, b] => some (a ++ b)
  | [a, b, c] => some (a ++ b ++ c)
  | a :: rest => do
    let n := (a :: rest).foldl (fun n w => n + w.length) 0
    let (b, bp) ← goCopy (List.replicate n 0) 0 a
    joinLoop rest b bp

/-- seg_utils.go:170-172 `textSliceToString`, also token.go:93-95 `Token.Text`. -/
def textSliceToString (text : List Bytes) : Option Bytes := join text

/-- Inner loop token.go:132-138 of `Equals`: compares the bytes of one word from `index` on. `none` is an index panic,
`some none` is `return false`. -/
def equalsWord (str : Bytes) : Bytes → Nat → Option (Option Nat)
  | [], index => some (some index)
  | b :: bs, index =>
    match str[index]? with
    | none => none
    | some c => if b ≠ c then some none else equalsWord str bs (index + 1)

/-- Outer loop token.go:130-139. -/
def equalsLoop (str : Bytes) : List Bytes → Nat → Option Bool
  | [], _ => some true
  | w :: ws, index =>
    match equalsWord str w index with
    | none => none
    | some none => some false
    | some (some i) => equalsLoop str ws i

/-- token.go:118-141 `Equals`. -/
def tokenEquals (text : List Bytes) (str : Bytes) : Option Bool :=
  if textSliceByteLen text ≠ str.length then some false else equalsLoop str text 0

/-- `len(s.token.segments) > 1 || IsJp(string(s.token.text[0]))` (seg_utils.go:55, 101, 143). `none` is a nil
dereference or the index panic on an empty text. -/
def nonTerminal [Unicode] (d : Dictionary F D) (s : Seg) : Option Bool :=
  match d.deref s.tok with
  | none => none
  | some t =>
    if t.segments.length > 1 then some true
    else match t.text with
      | [] => none
      | w :: _ => some (isJp w)

/-- The loop over sub-segments shared by `tokenToString` (53-62), `tokenToSlice` (99-108) and `tokenToPos` (141-150):
`only` is `hasOnlyTerminalToken`, `rec` the recursive call. The three Go functions differ only in the element type
they append; the check `s != nil` in the first is always true here. -/
def subLoop [Unicode] {α : Type} (d : Dictionary F D) (rec : TokRef → Option (List α)) : List Seg → Bool → Option (List α)
  | [], _ => some []
  | s :: ss, only =>
    match nonTerminal d s with
    | none => none
    | some nt =>
      if only && !nt then subLoop d rec ss true
      else match rec s.tok with
        | none => none
        | some o => (subLoop d rec ss false).map (o ++ ·)

/-- seg_utils.go:98-112 `tokenToSlice`; the fuel bounds the recursion depth, `none` is a panic or exhausted fuel. -/
def tokenToSlice [Unicode] (d : Dictionary F D) : Nat → TokRef → Option (List Bytes)
  | 0, _ => none
  | n + 1, r =>
    match d.deref r with
    | none => none
    | some t =>
      match subLoop d (tokenToSlice d n) t.segments true with
      | none => none
      | some o => (textSliceToString t.text).map fun s => o ++ [s]

/-- gse.go:159-161 `SegPos`. -/
structure SegPos where
  text : Bytes
  pos : Bytes
deriving DecidableEq, Repr

/-- seg_utils.go:140-159 `tokenToPos`. -/
def tokenToPos [Unicode] (d : Dictionary F D) : Nat → TokRef → Option (List SegPos)
  | 0, _ => none
  | n + 1, r =>
    match d.deref r with
    | none => none
    | some t =>
      match subLoop d (tokenToPos d n) t.segments true with
      | none => none
      | some o => (textSliceToString t.text).map fun s => o ++ [⟨s, t.pos⟩]

/-- `fmt.Sprintf("%s/%s ", text, pos)`. -/
def slashed (text pos : Bytes) : Bytes := text ++ str "/" ++ pos ++ str " "

/-- seg_utils.go:52-66 `tokenToString`. Appending strings is appending byte lists. -/
def tokenToString [Unicode] (d : Dictionary F D) : Nat → TokRef → Option Bytes
  | 0, _ => none
  | n + 1, r =>
    match d.deref r with
    | none => none
    | some t =>
      match subLoop d (tokenToString d n) t.segments true with
      | none => none
      | some o => (textSliceToString t.text).map fun s => o ++ slashed s t.pos

/-- Concatenating the results for each segment. -/
def concatOpt {β : Type} (f : Seg → Option (List β)) : List Seg → Option (List β)
  | [] => some []
  | s :: ss =>
    match f s with
    | none => none
    | some o => (concatOpt f ss).map (o ++ ·)

/-- seg_utils.go:79-96 `ToSlice`. -/
def toSlice [Unicode] (d : Dictionary F D) (fuel : Nat) (segs : List Seg) (mode : Bool) : Option (List Bytes) :=
  if mode then concatOpt (fun s => tokenToSlice d fuel s.tok) segs
  else concatOpt (fun s => (d.deref s.tok).bind fun t => (textSliceToString t.text).map fun x => [x]) segs

/-- seg_utils.go:115-138 `ToPos`. -/
def toPos [Unicode] (d : Dictionary F D) (fuel : Nat) (segs : List Seg) (mode : Bool) : Option (List SegPos) :=
  if mode then concatOpt (fun s => tokenToPos d fuel s.tok) segs
  else concatOpt (fun s => (d.deref s.tok).bind fun t => (textSliceToString t.text).map fun x => [⟨x, t.pos⟩]) segs

/-- seg_utils.go:32-50 `ToString`. -/
def toString' [Unicode] (d : Dictionary F D) (fuel : Nat) (segs : List Seg) (mode : Bool) : Option Bytes :=
  if mode then concatOpt (fun s => tokenToString d fuel s.tok) segs
  else concatOpt (fun s => (d.deref s.tok).bind fun t => (textSliceToString t.text).map fun x => slashed x t.pos) segs

/-- gse.go:146-149 `Slice`. -/
def segSlice [Unicode] (cfg : SplitCfg) (d : Dictionary F D) (fuel : Nat) (s : Bytes) (mode : Bool) : Option (List Bytes) :=
  (internalSegment cfg (some d) s mode).bind fun segs => toSlice d fuel segs mode

/-- gse.go:153-156 `String`. -/
def segString [Unicode] (cfg : SplitCfg) (d : Dictionary F D) (fuel : Nat) (s : Bytes) (mode : Bool) : Option Bytes :=
  (internalSegment cfg (some d) s mode).bind fun segs => toString' d fuel segs mode

/-- gse.go:164-167 `Pos`. -/
def segPos [Unicode] (cfg : SplitCfg) (d : Dictionary F D) (fuel : Nat) (s : Bytes) (mode : Bool) : Option (List SegPos) :=
  (internalSegment cfg (some d) s mode).bind fun segs => toPos d fuel segs mode

/-- gse.go:106-121 `CutStr`: the loop with `i == len(str)-1`. -/
def cutStr (strs : List Bytes) (sep : Bytes := str " ") : Bytes :=
  (List.range strs.length).foldl (fun r i =>
    match strs[i]? with
    | none => r
    | some s => if i + 1 = strs.length then r ++ s else r ++ (s ++ sep)) []

/-- gse.go:170-190 `PosStr`. -/
def posStr (skipPos : Bool) (ps : List SegPos) (sep : Bytes := str " ") : Bytes :=
  (List.range ps.length).foldl (fun r i =>
    match ps[i]? with
    | none => r
    | some p =>
      let add := if !skipPos then p.text ++ (str "/" ++ p.pos) else p.text
      if i + 1 = ps.length then r ++ add else r ++ (add ++ sep)) []

end Gse
