import Verif.Model.Mem

/-!
# `Segment` as a program over memory (segmenter.go, dictionary.go)

The same functions as in Model/Split.lean, Model/Dict.lean and Model/Segmenter.lean, with every access to memory made
explicit: the input bytes, the segmenter, the dictionary, and the arrays the call allocates.
-/

namespace Gse

variable {F D : Type} [F64 F] [F32 D]

namespace Prog

/-- Read the switches. -/
def rdFlags : Prog F D SplitCfg := .read .flags fun c => match c with | .flags x => .ret x | _ => .panic

/-- Read a Boolean. -/
def rdBool (l : Loc) : Prog F D Bool := .read l fun c => match c with | .bool x => .ret x | _ => .panic

/-- Read a number. -/
def rdNat (l : Loc) : Prog F D Nat := .read l fun c => match c with | .nat x => .ret x | _ => .panic

/-- Read the trie. -/
def rdTrie : Prog F D Trie := .read .trie fun c => match c with | .trie x => .ret x | _ => .panic

/-- Read a table entry. -/
def rdTok (i : Nat) : Prog F D (MTok F) := .read (.tok i) fun c => match c with | .token x => .ret x | _ => .panic

/-- Read the distance of a table entry. -/
def rdDist (i : Nat) : Prog F D D := .read (.dist i) fun c => match c with | .dist x => .ret x | _ => .panic

/-- Read a byte. -/
def rdByte (a i : Nat) : Prog F D UInt8 := .read (.cell a i) fun c => match c with | .byte x => .ret x | _ => .panic

/-- Read a word (a slice header). -/
def rdWord (a i : Nat) : Prog F D Slice := .read (.cell a i) fun c => match c with | .word x => .ret x | _ => .panic

/-- Read a jumper. -/
def rdJumper (a i : Nat) : Prog F D (MJumper D) :=
  .read (.cell a i) fun c => match c with | .jumper x => .ret x | _ => .panic

/-- Read a `*Token` from the buffer. -/
def rdRef (a i : Nat) : Prog F D (Option MRef) := .read (.cell a i) fun c => match c with | .ref x => .ret x | _ => .panic

/-- Read a segment. -/
def rdSeg (a i : Nat) : Prog F D MSeg := .read (.cell a i) fun c => match c with | .seg x => .ret x | _ => .panic

/-- Overwrite a cell of an array. -/
def wr (a i : Nat) (c : Cell F D) : Prog F D Unit := .write (.cell a i) c (.ret ())

/-- `make`: a new array. -/
def make (cs : List (Cell F D)) : Prog F D Nat := .alloc cs .ret

/-- Read `n` bytes one by one. -/
def rdBytes (a : Nat) : Nat → Nat → Prog F D Bytes
  | _, 0 => .ret []
  | i, n + 1 => do
    let b ← rdByte a i
    let bs ← rdBytes a (i + 1) n
    .ret (b :: bs)

end Prog

open Prog

/-- The loop of `toLower`, segmenter.go:262-268, from index `i` for `n` more bytes. -/
def lowLoopP (s : Slice) (a : Nat) : Nat → Nat → Prog F D Unit
  | _, 0 => .ret ()
  | i, n + 1 => do
    let b ← rdByte s.arr (s.off + i)
    wr a i (.byte (lowByte b))
    lowLoopP s a (i + 1) n

/-- segmenter.go:250-256 `toLow` and 259-270 `toLower`: a lower-cased copy, or the same slice. -/
def toLowP (s : Slice) : Prog F D Slice := do
  let c ← rdFlags
  if c.toLower then do
    let a ← make (List.replicate s.len (.byte 0))
    lowLoopP s a 0 s.len
    .ret ⟨a, 0, s.len⟩
  else .ret s

/-- The loop segmenter.go:209-248. `utf8.DecodeRune` looks at four bytes at most. Simplification: `output` is kept as
a value until the end, so the arrays that `append` outgrows are not modelled; they are private to the call. -/
def splitLoopP [Unicode] (text : Slice) : Nat → Nat → Nat → Bool → List Slice → Prog F D (List Slice)
  | 0, current, start, inAl, out => do
    let c ← rdFlags
    if inAl && !c.alphaNum then
      if current ≠ 0 then do
        let w ← toLowP (text.sub start current)
        .ret (out ++ [w])
      else .ret out
    else .ret out
  | fuel + 1, current, start, inAl, out =>
    if current < text.len then do
      let bs ← rdBytes text.arr (text.off + current) (min 4 (text.len - current))
      let c ← rdFlags
      let size := (decodeRune bs).2
      if alnumAt c (decodeRune bs).1 size then
        let start' := if !inAl then current else start
        if c.alphaNum then do
          let w ← toLowP (text.sub current (current + size))
          splitLoopP text fuel (current + size) start' true (out ++ [w])
        else splitLoopP text fuel (current + size) start' true out
      else if inAl && (decide (current ≠ 0) && !c.alphaNum) then do
        let w ← toLowP (text.sub start current)
        splitLoopP text fuel (current + size) start false (out ++ [w] ++ [text.sub current (current + size)])
      else splitLoopP text fuel (current + size) start false (out ++ [text.sub current (current + size)])
    else splitLoopP text 0 current start inAl out

/-- segmenter.go:208-248 `SplitTextToWords`: the result is an array of slice headers. -/
def splitP [Unicode] (text : Slice) : Prog F D Slice := do
  let ws ← splitLoopP text text.len 0 0 true []
  let a ← make (ws.map Cell.word)
  .ret ⟨a, 0, ws.length⟩

/-- dictionary.go:82-103 `LookupTokens`: words `i, i+1, …` (`k` of them) of the array `a`, results into the array `b`
of length `cap`. -/
def lookupP (a b cap : Nat) : Nat → Nat → Bytes → Nat → Prog F D Nat
  | 0, _, _, num => .ret num
  | k + 1, i, id, num => do
    let w ← rdWord a i
    let bs ← rdBytes w.arr w.off w.len
    let t ← rdTrie
    match t.jump bs id with
    | none => .ret num
    | some id' => do
      let t ← rdTrie
      match t.value id' with
      | none => lookupP a b cap k (i + 1) id' num
      | some v => do
        let n ← rdNat .tokHdr
        if num < cap ∧ v < n then do
          wr b num (.ref (some (.idx v)))
          lookupP a b cap k (i + 1) id' (num + 1)
        else .panic

/-- Follow a `*Token`: number of words, number of bytes. A nil pointer panics. -/
def derefP : Option MRef → Prog F D (Nat × Nat)
  | none => .panic
  | some (.idx v) => do
    let t ← rdTok v
    .ret (t.text.length, textSliceByteLen t.text)
  | some (.pseudo s) => .ret (1, s.len)

/-- Follow a `*Token` to its distance. A nil pointer panics. -/
def distP : Option MRef → Prog F D D
  | none => .panic
  | some (.idx v) => rdDist v
  | some (.pseudo _) => .ret F32.c32

/-- segmenter.go:193-199 `updateJumper`, with the distance of the token as an argument. Simplification: the two fields are one cell. -/
def updateJumperP (j i : Nat) (base : D) (r : Option MRef) (distance : D) : Prog F D Unit := do
  let x ← rdJumper j i
  if F32.isZero x.minDistance || F32.gt x.minDistance (F32.add base distance) then
    wr j i (.jumper ⟨F32.add base distance, r⟩)
  else .ret ()

/-- The loop segmenter.go:140-145 over entries `i, i+1, …` (`k` of them) of the buffer `b`. -/
def updateAllP (b j n : Nat) (searchMode : Bool) (current : Nat) (base : D) : Nat → Nat → Prog F D Unit
  | 0, _ => .ret ()
  | k + 1, i => do
    let r ← rdRef b i
    let x ← derefP r
    if !searchMode || current ≠ 0 || current + x.1 ≠ n then
      if current + x.1 = 0 ∨ n < current + x.1 then .panic
      else do
        let y ← distP r
        updateJumperP j (current + x.1 - 1) base r y
        updateAllP b j n searchMode current base k (i + 1)
    else updateAllP b j n searchMode current base k (i + 1)

/-- segmenter.go:125-132: the distance up to `current`. -/
def baseP (j current : Nat) : Prog F D D :=
  if current = 0 then .ret F32.zero
  else do
    let x ← rdJumper j (current - 1)
    .ret x.minDistance

/-- The condition segmenter.go:149. -/
def needPseudoP (b num : Nat) : Prog F D Bool :=
  if num = 0 then .ret true
  else do
    let r ← rdRef b 0
    let x ← derefP r
    .ret (decide (x.1 > 1))

/-- One round of the loop segmenter.go:122-153: words in `a`, buffer `b` of length `cap`, jumpers in `j`. -/
def segStepP (a b cap j n : Nat) (searchMode : Bool) (current : Nat) : Prog F D Unit := do
  let base ← baseP j current
  let len ← rdNat .maxLen
  let num ← lookupP a b cap (min (current + len) n - current) current [] 0
  updateAllP b j n searchMode current base num 0
  let need ← needPseudoP b num
  if need then do
    let w ← rdWord a current
    updateJumperP j current base (some (.pseudo w)) F32.c32
  else .ret ()

/-- The loop segmenter.go:122-153 from `current` for `k` more positions. -/
def segLoopP (a b cap j n : Nat) (searchMode : Bool) : Nat → Nat → Prog F D Unit
  | 0, _ => .ret ()
  | k + 1, current => do
    segStepP a b cap j n searchMode current
    segLoopP a b cap j n searchMode k (current + 1)

/-- First backward scan segmenter.go:157-162; the second argument is `index + 1`. -/
def countP (j : Nat) : Nat → Nat → Nat → Prog F D Nat
  | _, 0, num => .ret num
  | 0, _ + 1, _ => .panic
  | fuel + 1, n + 1, num => do
    let x ← rdJumper j n
    let y ← derefP x.token
    countP j fuel (n + 1 - y.1) (num + 1)

/-- Second backward scan segmenter.go:166-172, into the array `o` of length `len`. -/
def fillP (j o len : Nat) : Nat → Nat → Nat → Prog F D Unit
  | _, 0, _ => .ret ()
  | 0, _ + 1, _ => .panic
  | fuel + 1, n + 1, num => do
    let x ← rdJumper j n
    let y ← derefP x.token
    if num = 0 ∨ len < num then .panic
    else do
      wr o (num - 1) (.seg ⟨0, 0, x.token⟩)
      fillP j o len fuel (n + 1 - y.1) (num - 1)

/-- Byte positions segmenter.go:175-180, from index `i` for `k` more segments. -/
def positionsP (o : Nat) : Nat → Nat → Nat → Prog F D Unit
  | 0, _, _ => .ret ()
  | k + 1, i, p => do
    let s ← rdSeg o i
    let y ← derefP s.tok
    wr o i (.seg ⟨p, p + y.2, s.tok⟩)
    positionsP o k (i + 1) (p + y.2)

/-- segmenter.go:104-183 `segmentWords`; the nil slice is ⟨0, 0, 0⟩. -/
def segmentWordsP (text : Slice) (searchMode : Bool) : Prog F D Slice :=
  if searchMode && text.len == 1 then .ret ⟨0, 0, 0⟩
  else do
    let j ← make (List.replicate text.len (.jumper ⟨F32.zero, none⟩))
    let nil ← rdBool .segDict
    if nil then .ret ⟨0, 0, 0⟩
    else do
      let cap ← rdNat .maxLen
      let b ← make (List.replicate cap (.ref none))
      segLoopP text.arr b cap j text.len searchMode text.len 0
      let num ← countP j (text.len + 1) text.len 0
      let o ← make (List.replicate num (.seg ⟨0, 0, none⟩))
      fillP j o num (text.len + 1) text.len num
      positionsP o num 0 0
      .ret ⟨o, 0, num⟩

/-- segmenter.go:91-102 `internalSegment`, behind `Segment` (77-79) and `ModeSegment` (82-89). -/
def segmentP [Unicode] (text : Slice) (searchMode : Bool) : Prog F D Slice :=
  if text.len = 0 then .ret ⟨0, 0, 0⟩
  else do
    let ws ← splitP text
    segmentWordsP ws searchMode

end Gse
