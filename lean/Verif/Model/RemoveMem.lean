import Verif.Model.AddMem

/-!
# `RemoveToken` and `ReAddToken` as programs over memory (dict_util.go, dictionary.go)
-/

namespace Gse

variable {F D : Type} [F64 F] [F32 D]

open Prog

/-- dictionary.go:74-78 `RemoveToken`; the result is `err != nil`. `Delete` reads the trie and, if it finds the key, writes it; what it
does with a path that is not a stored key is outside the contract, and stands here as a panic. -/
def dictRemoveP (token : Token F D) : Prog F D Bool := do
  let t ← rdTrie
  match t.delete (textSliceToBytes token.text) with
  | .noPath => .ret true
  | .ok t' => do
    put .trie (.trie t')
    .ret false
  | .unspecified => .panic

/-- dict_util.go:99-104 `RemoveToken`. A nil dictionary panics. -/
def removeTokenP [Unicode] (text : Slice) : Prog F D Bool := do
  let token ← toTokenP text (F64.ofNat 0) []
  let nil ← rdBool .segDict
  if nil then .panic else dictRemoveP token

/-- dict_util.go:89-96 `ReAddToken`. A nil dictionary panics. -/
def reAddTokenP [Unicode] (text : Slice) (freq : F) (pos : Bytes) : Prog F D Bool := do
  let token ← toTokenP text freq pos
  let nil ← rdBool .segDict
  if nil then .panic
  else do
    let err ← dictRemoveP token
    if err then .ret true
    else do
      let nil ← rdBool .segDict
      if nil then .panic else dictAddP token

end Gse
