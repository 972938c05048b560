import Verif.Model.Server
import Verif.Model.CutMem
import Verif.Model.CalcMem

/-!
# The handlers of the server as programs over memory (tools/server/server.go)

`net/http` runs every request in a goroutine of its own; all of them use the one segmenter of the package. Decoding the request and `json.Marshal` work on private
values and are as in Model/Server.lean.
-/

namespace Gse
open Prog

variable {F D : Type} [F64 F] [F32 D] [Narrow F D]

/-- tools/server/server.go:102: `segment.Token().Text()` and `segment.Token().Pos()`, through the pointer. -/
def tokenP : Option MRef → Prog F D (Bytes × Bytes)
  | none => .panic
  | some (.idx v) => do
    let t ← rdTok v
    .ret (textSliceToBytes t.text, t.pos)
  | some (.pseudo s) => do
    let bs ← rdBytes s.arr s.off s.len
    .ret (textSliceToBytes [bs], str "x")

/-- tools/server/server.go:99-103: the loop over the segments, from cell `i` of the array `a` for `k` more. -/
def tokensP (a : Nat) : Nat → Nat → Prog F D (List (Bytes × Bytes))
  | 0, _ => .ret []
  | k + 1, i => do
    let g ← rdSeg a i
    let x ← tokenP g.tok
    let xs ← tokensP a k (i + 1)
    .ret (x :: xs)

/-- tools/server/server.go:78-108 `JsonRpcServer`; `input` is `[]byte(text)` of line 96. Simplification: this copy is made before the goroutine starts, and `hmm`,
which nobody writes after `flag.Parse`, is a constant. -/
def jsonP [Unicode] (E : ServerEnv F) (input : Slice) (query form : List (Bytes × Bytes)) : Prog F D JVal :=
  if E.hmm then (cutP E.consts (reqText query form) true).bind fun ws => .ret (wordsAnswer ws)
  else (segmentP input false).bind fun r => (tokensP r.arr r.len r.off).bind fun l => .ret (segsAnswer l)

/-- tools/server/server.go:110-119 `addToken`; `input` is `[]byte(text)` of dict_util.go:69, made before the goroutine starts. -/
def addP [Unicode] (input : Slice) (query : List (Bytes × Bytes)) : Prog F D JVal :=
  (addTokenForceP input (F64.parse (formGet query (str "freq")) : F × Bool).1 (formGet query (str "pos"))).bind fun _ => .ret okAnswer

/-- One request. -/
def handlerP [Unicode] (E : ServerEnv F) (input : Slice) : ServerReq → Prog F D JVal
  | .add q => addP input q
  | .json q f => jsonP E input q f

end Gse
