import Verif.Model.SegMem

/-!
# `AddToken` as a program over memory (dict_util.go, dictionary.go)

What `/add` of the server runs (tools/server/server.go:110-119 by way of `AddTokenForce`, dict_util.go:82-86) beside the
`Segment` of `/json` (tools/server/server.go:78-108). `AddTokenForce` goes on with `CalcToken`, see Model/CalcMem.lean.
-/

namespace Gse

variable {F D : Type} [F64 F] [F32 D]

namespace Prog

/-- Read a frequency. -/
def rdFreq (l : Loc) : Prog F D F := .read l fun c => match c with | .freq x => .ret x | _ => .panic

/-- Read the words `i, i+1, …` (`k` of them) of the array `a`, with their bytes. -/
def rdWords (a : Nat) : Nat → Nat → Prog F D (List Bytes)
  | _, 0 => .ret []
  | i, k + 1 => do
    let w ← rdWord a i
    let bs ← rdBytes w.arr w.off w.len
    let ws ← rdWords a (i + 1) k
    .ret (bs :: ws)

/-- Overwrite a location. -/
def put (l : Loc) (c : Cell F D) : Prog F D Unit := .write l c (.ret ())

end Prog

open Prog

/-- dictionary.go:59-68, from the insertion on; the result is `err != nil`. `Insert` reads and writes the trie;
`append` is taken to find room in the array of `dict.Tokens`, which puts the token behind the last one; a new token has no sub-segments. -/
def insertP (token : Token F D) : Prog F D Bool := do
  let n ← rdNat .tokHdr
  let t ← rdTrie
  match t.insert (textSliceToBytes token.text) n with
  | none => .ret true
  | some t' => do
    put .trie (.trie t')
    let n ← rdNat .tokHdr
    put (.tok n) (.token ⟨token.text, token.freq, token.pos⟩)
    put (.dist n) (.dist token.distance)
    put (.subs n) (.subs ⟨0, 0, 0⟩)
    put .tokHdr (.nat (n + 1))
    let f ← rdFreq .totalFreq
    put .totalFreq (.freq (F64.add f token.freq))
    let m ← rdNat .maxLen
    if token.text.length > m then do
      put .maxLen (.nat token.text.length)
      .ret false
    else .ret false

/-- dictionary.go:51-71 `AddToken`. -/
def dictAddP (token : Token F D) : Prog F D Bool := do
  let t ← rdTrie
  match t.get (textSliceToBytes token.text) with
  | some _ => .ret false
  | none => insertP token

/-- dict_util.go:63-72 `ToToken`. The words are never written again, so the token holds their bytes. -/
def toTokenP [Unicode] (text : Slice) (freq : F) (pos : Bytes) : Prog F D (Token F D) := do
  let ws ← splitP text
  let words ← rdWords ws.arr 0 ws.len
  .ret { text := words, freq := freq, pos := pos, distance := F32.zero, segments := [] }

/-- dict_util.go:75-78 `AddToken`. A nil dictionary panics. -/
def addTokenP [Unicode] (text : Slice) (freq : F) (pos : Bytes) : Prog F D Bool := do
  let token ← toTokenP text freq pos
  let nil ← rdBool .segDict
  if nil then .panic else dictAddP token

end Gse
