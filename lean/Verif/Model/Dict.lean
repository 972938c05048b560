import Verif.Model.Float
import Verif.Model.Split

/-!
# Trie contract, tokens and the dictionary (dictionary.go, token.go)
-/

namespace Gse

/-- Contract model of `*cedar.Cedar` (github.com/vcaesar/cedar, not in /repo): a finite map from keys to
values, kept as an association list with distinct keys. A node id is the byte path leading to it; the root
(Go id 0) is the empty path. Simplification: cedar reserves byte 0 internally, so the contract holds for keys
without NUL bytes only. -/
structure Trie where
  entries : List (Bytes × Nat) := []
deriving DecidableEq, Repr

namespace Trie

/-- Value stored under exactly this path: cedar `Value(id)`; `none` is `ErrNoValue`. -/
def value (t : Trie) (id : Bytes) : Option Nat := t.entries.lookup id

/-- The path leads to a node: it is the root or a prefix of a stored key. -/
def isNode (t : Trie) (id : Bytes) : Bool := id.isEmpty || t.entries.any fun e => id.isPrefixOf e.1

/-- cedar `Jump(path, from)`; `none` is `ErrNoPath`. -/
def jump (t : Trie) (path from_ : Bytes) : Option Bytes :=
  if t.isNode (from_ ++ path) then some (from_ ++ path) else none

/-- cedar `Get(key)` (`Jump` from the root, then `Value`); `none` is an error. -/
def get (t : Trie) (key : Bytes) : Option Nat := (t.jump key []).bind t.value

/-- cedar's value limit: `Insert` rejects values `≥ 1<<31 - 1`. -/
def valueLimit : Nat := 2147483647

/-- cedar `Insert(key, value)`: store or replace; `none` is `ErrInvalidValue`. -/
def insert (t : Trie) (key : Bytes) (v : Nat) : Option Trie :=
  if v < valueLimit then some ⟨(key, v) :: t.entries.filter fun e => e.1 != key⟩ else none

/-- Outcome of cedar `Delete(key)`. -/
inductive DelResult
  /-- `ErrNoPath`, trie unchanged -/
  | noPath
  /-- key removed -/
  | ok (t : Trie)
  /-- key is a node but not stored: cedar then unlinks a whole branch; outside the contract -/
  | unspecified

/-- cedar `Delete(key)`. -/
def delete (t : Trie) (key : Bytes) : DelResult :=
  match t.jump key [] with
  | none => .noPath
  | some id =>
    match t.value id with
    | some _ => .ok ⟨t.entries.filter fun e => e.1 != key⟩
    | none => .unspecified

end Trie

/-- `*Token`: a pointer into `Dictionary.Tokens` (segmenter.go:147 via dictionary.go:97), or a pseudo token
owned by the segment (segmenter.go:150-151). Simplification: `append` may move the
table and leave pointers into the old array behind; Model/Table.lean keeps the arrays apart, and C99 proves that an index is
enough for every result that is read before the dictionary changes again. -/
inductive TokRef
  | idx (i : Nat)
  | pseudo (w : Bytes)
deriving DecidableEq, Repr

/-- token.go:35-46 `Segment` (the field `Position` is never read or written by the modelled code). -/
structure Seg where
  start : Nat
  stop : Nat
  tok : TokRef
deriving DecidableEq, Repr

/-- token.go:70-90 `Token`. -/
structure Token (F D : Type) where
  text : List Bytes
  freq : F
  pos : Bytes
  distance : D
  segments : List Seg
deriving DecidableEq, Repr

/-- dictionary.go:22-28 `Dictionary`. -/
structure Dictionary (F D : Type) where
  trie : Trie := {}
  maxTokenLen : Nat := 0
  tokens : List (Token F D) := []
  totalFreq : F

/-- seg_utils.go:182-189 `textSliceToBytes`: concatenation through a buffer. -/
def textSliceToBytes (text : List Bytes) : Bytes := text.foldl (fun buf w => buf ++ w) []

/-- seg_utils.go:175-180 `textSliceByteLen`. -/
def textSliceByteLen (text : List Bytes) : Nat := text.foldl (fun n w => n + w.length) 0

namespace Dictionary

variable {F D : Type} [F64 F] [F32 D]

/-- dictionary.go:31-33 `NewDict`. -/
def new : Dictionary F D := { totalFreq := F64.ofNat 0 }

/-- dictionary.go:41-43 `NumTokens`. -/
def numTokens (d : Dictionary F D) : Nat := d.tokens.length

/-- dictionary.go:51-71 `AddToken`; the Boolean is `err != nil`.
`err == nil || val > 0` is `get = some _`: cedar returns value 0 with an error. -/
def addToken (d : Dictionary F D) (token : Token F D) : Dictionary F D × Bool :=
  let bytes := textSliceToBytes token.text
  match d.trie.get bytes with
  | some _ => (d, false)
  | none =>
    match d.trie.insert bytes d.numTokens with
    | none => (d, true)
    | some trie =>
      ({ d with
          trie := trie
          tokens := d.tokens ++ [token]
          totalFreq := F64.add d.totalFreq token.freq
          maxTokenLen := if token.text.length > d.maxTokenLen then token.text.length else d.maxTokenLen },
        false)

/-- dictionary.go:74-78 `RemoveToken`; `none` is the unspecified case of `Delete`. -/
def removeToken (d : Dictionary F D) (token : Token F D) : Option (Dictionary F D × Bool) :=
  match d.trie.delete (textSliceToBytes token.text) with
  | .noPath => some (d, true)
  | .ok t => some ({ d with trie := t }, false)
  | .unspecified => none

/-- dictionary.go:82-103 `LookupTokens`: `id` is the trie node reached, `acc` the entries written so far into the
buffer of length `cap`; `none` is an index panic on the buffer or on `dict.Tokens`. -/
def lookupLoop (d : Dictionary F D) (cap : Nat) : List Bytes → Bytes → List Nat → Option (List Nat)
  | [], _, acc => some acc
  | w :: ws, id, acc =>
    match d.trie.jump w id with
    | none => some acc
    | some id' =>
      match d.trie.value id' with
      | some v => if acc.length < cap ∧ v < d.tokens.length then d.lookupLoop cap ws id' (acc ++ [v]) else none
      | none => d.lookupLoop cap ws id' acc

/-- dictionary.go:82-103 `LookupTokens(words, tokens)` with `len(tokens) = cap`; the result lists the table
indices written to the buffer. -/
def lookupTokens (d : Dictionary F D) (words : List Bytes) (cap : Nat) : Option (List Nat) :=
  d.lookupLoop cap words [] []

/-- dictionary.go:107-131 `Find`; `none` is an index panic. -/
def find (d : Dictionary F D) (word : Bytes) : Option (F × Bytes × Bool) :=
  match d.trie.jump word [] with
  | none => some (F64.ofNat 0, [], false)
  | some id =>
    match d.trie.value id with
    | none => if id ≠ [] then some (F64.ofNat 0, [], true) else some (F64.ofNat 0, [], false)
    | some v =>
      match d.tokens[v]? with
      | none => none
      | some t => some (t.freq, t.pos, true)

/-- dictionary.go:135-143 `Value`: value and whether `err != nil` (the node id is not modelled). -/
def valueOf (d : Dictionary F D) (word : Bytes) : Nat × Bool :=
  match d.trie.jump word [] with
  | none => (0, true)
  | some id =>
    match d.trie.value id with
    | none => (0, true)
    | some v => (v, false)

/-- Dereferencing a `*Token`; a pseudo token is `Token{text: [w], freq: 1, distance: 32, pos: "x"}`
(segmenter.go:150-151). -/
def deref (d : Dictionary F D) : TokRef → Option (Token F D)
  | .idx i => d.tokens[i]?
  | .pseudo w => some { text := [w], freq := F64.ofNat 1, pos := str "x", distance := F32.c32, segments := [] }

end Dictionary

end Gse
