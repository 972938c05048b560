import Verif.Model.History
import Verif.Model.Output

/-!
# The table of tokens with its addresses (dictionary.go, seg_utils.go)

`dict.Tokens` is a slice, and a `*Token` handed out by `LookupTokens` points into the array behind it. When `append` finds no
room it moves the tokens to a new array; pointers handed out before still point into the old one. Model/Dict.lean has one
table and pointers that are indices. Here every array that ever lay behind `dict.Tokens` is kept.
-/

namespace Gse

variable {F D : Type} [F64 F] [F32 D] [Narrow F D]

/-- `*Token`: entry `i` of array number `a` (dictionary.go:97), or a token of its own for an unknown word
(segmenter.go:150-151). -/
inductive PRef
  | entry (a i : Nat)
  | pseudo (w : Bytes)
deriving DecidableEq, Repr

/-- token.go:35-46 `Segment`. -/
structure PSeg where
  start : Nat
  stop : Nat
  tok : PRef
deriving DecidableEq, Repr

/-- token.go:70-90 `Token`. -/
structure PTok (F D : Type) where
  text : List Bytes
  freq : F
  pos : Bytes
  distance : D
  segments : List PSeg
deriving DecidableEq, Repr

/-- dictionary.go:22-28 `Dictionary`: `arrays` are the arrays made for `Tokens` so far, of which `Tokens` has number `cur`.
Simplification: only the part of an array that holds tokens is kept; its capacity shows in what `append` does. -/
structure Table (F D : Type) where
  trie : Trie := {}
  maxTokenLen : Nat := 0
  totalFreq : F
  arrays : List (List (PTok F D)) := [[]]
  cur : Nat := 0

/-- A pointer without its array. -/
def PRef.index : PRef → TokRef
  | .entry _ i => .idx i
  | .pseudo w => .pseudo w

/-- A segment without the array of its pointer. -/
def PSeg.index (s : PSeg) : Seg := ⟨s.start, s.stop, s.tok.index⟩

/-- A token without the arrays of its pointers. -/
def PTok.index (t : PTok F D) : Token F D := ⟨t.text, t.freq, t.pos, t.distance, t.segments.map PSeg.index⟩

/-- A pointer into array `a`. -/
def TokRef.place (a : Nat) : TokRef → PRef
  | .idx i => .entry a i
  | .pseudo w => .pseudo w

/-- A segment whose pointer goes into array `a`. -/
def Seg.place (a : Nat) (s : Seg) : PSeg := ⟨s.start, s.stop, s.tok.place a⟩

/-- A token whose pointers go into array `a`. -/
def Token.place (a : Nat) (t : Token F D) : PTok F D := ⟨t.text, t.freq, t.pos, t.distance, t.segments.map (Seg.place a)⟩

namespace Table

/-- dictionary.go:31-33 `NewDict`. -/
def new : Table F D := { totalFreq := F64.ofNat 0 }

/-- The array behind `dict.Tokens`. -/
def tokens (tb : Table F D) : List (PTok F D) := tb.arrays[tb.cur]?.getD []

/-- What a search in the dictionary sees (dictionary.go:82-103, segmenter.go:104-183): it starts from `dict.Tokens` and reads texts, frequencies,
tags and distances only, never a pointer in a token. -/
def seen (tb : Table F D) : Dictionary F D :=
  { trie := tb.trie, maxTokenLen := tb.maxTokenLen, tokens := tb.tokens.map PTok.index, totalFreq := tb.totalFreq }

/-- `dict.Tokens = append(dict.Tokens, token)` (dictionary.go:63): in place, or into a new array when there is no room
(`full`). -/
def append (tb : Table F D) (full : Bool) (t : PTok F D) : Table F D :=
  if full then { tb with arrays := tb.arrays ++ [tb.tokens ++ [t]], cur := tb.arrays.length }
  else { tb with arrays := tb.arrays.set tb.cur (tb.tokens ++ [t]) }

/-- dictionary.go:51-71 `AddToken`; the Boolean is `err != nil`. -/
def addToken (tb : Table F D) (full : Bool) (token : PTok F D) : Table F D × Bool :=
  match tb.trie.get (textSliceToBytes token.text) with
  | some _ => (tb, false)
  | none =>
    match tb.trie.insert (textSliceToBytes token.text) tb.tokens.length with
    | none => (tb, true)
    | some trie =>
      let tb' := tb.append full token
      ({ tb' with
          trie := trie
          totalFreq := F64.add tb.totalFreq token.freq
          maxTokenLen := if token.text.length > tb.maxTokenLen then token.text.length else tb.maxTokenLen }, false)

/-- dictionary.go:74-78 `RemoveToken`; `none` is the unspecified case of `Delete`. -/
def removeToken (tb : Table F D) (text : List Bytes) : Option (Table F D × Bool) :=
  match tb.trie.delete (textSliceToBytes text) with
  | .noPath => some (tb, true)
  | .ok t => some ({ tb with trie := t }, false)
  | .unspecified => none

/-- dict_util.go:63-72 `ToToken`. -/
def toToken [Unicode] (cfg : SplitCfg) (text : Bytes) (freq : F) (pos : Bytes) : PTok F D :=
  { text := splitTextToWords cfg text, freq := freq, pos := pos, distance := F32.zero, segments := [] }

/-- dict_util.go:454-503 `CalcToken`: writes distances and sub-segments into the array behind `dict.Tokens`; the new
sub-segments point into that array, where `LookupTokens` has found their tokens. -/
def calcToken [Unicode] (tb : Table F D) : Option (Table F D) :=
  (Gse.calcToken tb.seen).map fun d => { tb with arrays := tb.arrays.set tb.cur (d.tokens.map (Token.place tb.cur)) }

/-- One call of the dictionary API (dict_util.go:75-104, 454); `full`: an `append` in it finds no room. -/
def step [Unicode] (cfg : SplitCfg) (tb : Table F D) (full : Bool) : DictOp F → Option (Table F D)
  | .add t f p => some (tb.addToken full (toToken cfg t f p)).1
  | .addForce t f p => (tb.addToken full (toToken cfg t f p)).1.calcToken
  | .remove t => (tb.removeToken (splitTextToWords cfg t)).map (·.1)
  | .reAdd t f p =>
    match tb.removeToken (splitTextToWords cfg t) with
    | none => none
    | some (tb', true) => some tb'
    | some (tb', false) => some (tb'.addToken full (toToken cfg t f p)).1
  | .recalc => tb.calcToken

/-- A history, with what `append` finds in each call. -/
def run [Unicode] (cfg : SplitCfg) : List (DictOp F × Bool) → Table F D → Option (Table F D)
  | [], tb => some tb
  | op :: ops, tb => (tb.step cfg op.2 op.1).bind (run cfg ops)

/-- segmenter.go:91-102 `internalSegment`: the pointers of the result go into the array behind `dict.Tokens`. -/
def segment [Unicode] (cfg : SplitCfg) (tb : Table F D) (s : Bytes) (mode : Bool) : Option (List PSeg) :=
  (internalSegment cfg (some tb.seen) s mode).map fun segs => segs.map (Seg.place tb.cur)

/-- Following a `*Token`. -/
def deref (tb : Table F D) : PRef → Option (PTok F D)
  | .entry a i => tb.arrays[a]?.bind fun l => l[i]?
  | .pseudo w => some { text := [w], freq := F64.ofNat 1, pos := str "x", distance := F32.c32, segments := [] }

/-- `len(s.token.segments) > 1 || IsJp(string(s.token.text[0]))` (seg_utils.go:55, 101, 143), following the pointer. -/
def nonTerminal [Unicode] (tb : Table F D) (s : PSeg) : Option Bool :=
  match tb.deref s.tok with
  | none => none
  | some t =>
    if t.segments.length > 1 then some true
    else match t.text with
      | [] => none
      | w :: _ => some (isJp w)

/-- The loop over sub-segments of `tokenToString` (seg_utils.go:53-62), `tokenToSlice` (99-108) and `tokenToPos` (141-150). -/
def subLoop [Unicode] {α : Type} (tb : Table F D) (rec : PRef → Option (List α)) : List PSeg → Bool → Option (List α)
  | [], _ => some []
  | s :: ss, only =>
    match tb.nonTerminal s with
    | none => none
    | some nt =>
      if only && !nt then subLoop tb rec ss true
      else match rec s.tok with
        | none => none
        | some o => (subLoop tb rec ss false).map (o ++ ·)

/-- seg_utils.go:52-66 `tokenToString`, 98-112 `tokenToSlice` and 140-159 `tokenToPos`, which differ in what they put out for a
token (`item`). -/
def tree [Unicode] {α : Type} (item : Bytes → Bytes → List α) (tb : Table F D) : Nat → PRef → Option (List α)
  | 0, _ => none
  | n + 1, r =>
    match tb.deref r with
    | none => none
    | some t =>
      match tb.subLoop (tree item tb n) t.segments true with
      | none => none
      | some o => (textSliceToString t.text).map fun s => o ++ item s t.pos

/-- Concatenating the results for each segment. -/
def concat {β : Type} (f : PSeg → Option (List β)) : List PSeg → Option (List β)
  | [] => some []
  | s :: ss =>
    match f s with
    | none => none
    | some o => (concat f ss).map (o ++ ·)

/-- seg_utils.go:32-50 `ToString`, 79-96 `ToSlice` and 115-138 `ToPos`, on segments that may have been kept for a while. -/
def read [Unicode] {α : Type} (item : Bytes → Bytes → List α) (tb : Table F D) (fuel : Nat) (segs : List PSeg) (mode : Bool) : Option (List α) :=
  if mode then concat (fun s => tree item tb fuel s.tok) segs
  else concat (fun s => (tb.deref s.tok).bind fun t => (textSliceToString t.text).map fun x => item x t.pos) segs

/-- seg_utils.go:79-96 `ToSlice`. -/
def toSlice [Unicode] (tb : Table F D) (fuel : Nat) (segs : List PSeg) (mode : Bool) : Option (List Bytes) :=
  tb.read (fun s _ => [s]) fuel segs mode

/-- seg_utils.go:115-138 `ToPos`. -/
def toPos [Unicode] (tb : Table F D) (fuel : Nat) (segs : List PSeg) (mode : Bool) : Option (List SegPos) :=
  tb.read (fun s p => [⟨s, p⟩]) fuel segs mode

/-- seg_utils.go:32-50 `ToString`. -/
def toString' [Unicode] (tb : Table F D) (fuel : Nat) (segs : List PSeg) (mode : Bool) : Option Bytes :=
  tb.read slashed fuel segs mode

end Table

end Gse
