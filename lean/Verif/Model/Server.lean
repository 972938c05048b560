import Verif.Model.Load
import Verif.Model.Hmm
import Verif.Model.Idf

/-!
# The server (tools/server/server.go)

The two handlers `/json` and `/add`, run one after the other on one segmenter, and `json.Marshal` for the values they answer with.
A request is given by its decoded query and form: taking apart URL and body is left to `net/http`. Concurrent handlers are the
subject of Model/ServerMem.lean.
-/

namespace Gse

/-! ## JSON values -/

mutual
/-- What the answers consist of: strings, numbers (as written), `null`, slices and structs. -/
inductive JVal
  | null
  | num (digits : Bytes)
  | text (s : Bytes)
  | arr (l : JArr)
  | obj (l : JObj)
/-- The elements of a slice. -/
inductive JArr
  | nil
  | cons (v : JVal) (l : JArr)
/-- The fields of a struct, by their JSON names. -/
inductive JObj
  | nil
  | cons (k : Bytes) (v : JVal) (l : JObj)
end

/-- A slice. -/
def JArr.ofList : List JVal → JArr
  | [] => .nil
  | v :: l => .cons v (JArr.ofList l)

/-- A lower case hexadecimal digit. -/
def hexDigit (n : Nat) : UInt8 := if n < 10 then UInt8.ofNat (48 + n) else UInt8.ofNat (87 + n)

/-- `json.Marshal` on an ASCII byte of a string (encoding/json, HTML escaping on). `short`: the Go release writes `\b` and `\f`
rather than `\u0008` and `\u000c`. -/
def jsonByte (short : Bool) (b : UInt8) : Bytes :=
  if b = 34 ∨ b = 92 then [92, b]
  else if b = 10 then str "\\n"
  else if b = 13 then str "\\r"
  else if b = 9 then str "\\t"
  else if short ∧ b = 8 then str "\\b"
  else if short ∧ b = 12 then str "\\f"
  else if b.toNat < 32 ∨ b = 60 ∨ b = 62 ∨ b = 38 then str "\\u00" ++ [hexDigit (b.toNat / 16), hexDigit (b.toNat % 16)]
  else [b]

/-- `json.Marshal` inside a string (encoding/json): malformed bytes, U+2028 and U+2029 are escaped too. -/
def jsonChars (short : Bool) : Nat → Bytes → Bytes
  | 0, _ => []
  | _ + 1, [] => []
  | n + 1, b :: t =>
    if b.toNat < 128 then jsonByte short b ++ jsonChars short n t
    else
      (if (decodeRune (b :: t)).1 = runeError ∧ (decodeRune (b :: t)).2 = 1 then str "\\ufffd"
       else if (decodeRune (b :: t)).1 = 0x2028 then str "\\u2028"
       else if (decodeRune (b :: t)).1 = 0x2029 then str "\\u2029"
       else (b :: t).take (decodeRune (b :: t)).2) ++ jsonChars short n ((b :: t).drop (decodeRune (b :: t)).2)

/-- `json.Marshal` of a string. -/
def jsonString (short : Bool) (s : Bytes) : Bytes := 34 :: (jsonChars short s.length s ++ [34])

mutual
/-- `json.Marshal` (encoding/json): no blanks, fields in the order of the struct. -/
def JVal.marshal (short : Bool) : JVal → Bytes
  | .null => str "null"
  | .num ds => ds
  | .text s => jsonString short s
  | .arr .nil => str "[]"
  | .arr (.cons v l) => 91 :: (v.marshal short ++ l.rest short)
  | .obj .nil => str "{}"
  | .obj (.cons k v l) => 123 :: (jsonString short k ++ 58 :: (v.marshal short ++ l.rest short))
/-- The elements after the first. -/
def JArr.rest (short : Bool) : JArr → Bytes
  | .nil => [93]
  | .cons v l => 44 :: (v.marshal short ++ l.rest short)
/-- The fields after the first. -/
def JObj.rest (short : Bool) : JObj → Bytes
  | .nil => [125]
  | .cons k v l => 44 :: (jsonString short k ++ 58 :: (v.marshal short ++ l.rest short))
end

/-! ## The handlers -/

variable {F D : Type} [F64 F] [F32 D] [Narrow F D]

/-- A request: the decoded query, and for `/json` the decoded form of the body. -/
inductive ServerReq
  | add (query : List (Bytes × Bytes))
  | json (query form : List (Bytes × Bytes))

/-- `url.Values.Get`, also `PostFormValue`: the first value of a key, "" when missing. -/
def formGet (q : List (Bytes × Bytes)) (k : Bytes) : Bytes := (q.lookup k).getD []

/-- tools/server/server.go:80-83: the text of a `/json` request. -/
def reqText (query form : List (Bytes × Bytes)) : Bytes :=
  if formGet query (str "text") = [] then formGet form (str "text") else formGet query (str "text")

/-- tools/server/server.go:61-64 and 100-102: one segment of the answer. -/
def segAnswer (text pos : Bytes) : JVal := .obj (.cons (str "text") (.text text) (.cons (str "pos") (.text pos) .nil))

/-- tools/server/server.go:55-58 and 99-104: the answer made of segments; `Err` is never set. -/
def segsAnswer (l : List (Bytes × Bytes)) : JVal :=
  .obj (.cons (str "segments") (.arr (JArr.ofList (l.map fun p => segAnswer p.1 p.2))) (.cons (str "err") .null .nil))

/-- tools/server/server.go:67-69 and 85-87: the answer made of words; the slice from dag.go:220 is not nil. -/
def wordsAnswer (l : List Bytes) : JVal := .obj (.cons (str "Seg") (.arr (JArr.ofList (l.map JVal.text))) .nil)

/-- tools/server/server.go:72-75 and 116: the answer to `/add`. -/
def okAnswer : JVal := .obj (.cons (str "code") (.num (str "200")) (.cons (str "text") (.text (str "ok")) .nil))

/-- What the handlers read but do not change: the flag `-hmm` (tools/server/server.go:50), the model, the flags of the segmenter. -/
structure ServerEnv (F : Type) where
  hmm : Bool
  consts : HmmConst F
  emit : EmitModel F
  cfg : SplitCfg := {}

/-- tools/server/server.go:78-108 `JsonRpcServer`; `none` is a panic. -/
def handleJson [Unicode] (E : ServerEnv F) (d : Dictionary F D) (query form : List (Bytes × Bytes)) : Option JVal :=
  if E.hmm then (cutDAGHmm E.cfg d E.consts E.emit (reqText query form) []).map wordsAnswer
  else
    (internalSegment E.cfg (some d) (reqText query form) false).bind fun segs =>
      (mapOpt (fun g : Seg => d.deref g.tok) segs).map fun ts => segsAnswer (ts.map fun t => (textSliceToBytes t.text, t.pos))

/-- tools/server/server.go:110-119 `addToken`: neither the error of `ParseFloat` nor that of `AddTokenForce` is looked at. -/
def handleAdd [Unicode] (E : ServerEnv F) (d : Dictionary F D) (query : List (Bytes × Bytes)) : Option (Dictionary F D) :=
  (segAddTokenForce E.cfg d (formGet query (str "text")) (F64.parse (formGet query (str "freq")) : F × Bool).1
    (formGet query (str "pos"))).map (·.1)

/-- One request: the dictionary after it and the answer. -/
def handle [Unicode] (E : ServerEnv F) (d : Dictionary F D) : ServerReq → Option (Dictionary F D × JVal)
  | .add q => (handleAdd E d q).map fun d' => (d', okAnswer)
  | .json q f => (handleJson E d q f).map fun a => (d, a)

/-- Requests one after the other: the dictionary at the end and the answers. -/
def serve [Unicode] (E : ServerEnv F) : Dictionary F D → List ServerReq → Option (Dictionary F D × List JVal)
  | d, [] => some (d, [])
  | d, q :: qs => (handle E d q).bind fun r => (serve E r.1 qs).map fun r' => (r'.1, r.2 :: r'.2)

/-- tools/server/server.go:45 and 128: the segmenter of the server, loaded from the file of the flag `-dict`; the error of `LoadDict`
is not looked at. -/
def serverStart [Unicode] (mid : Segmenter.ScanErr) (join : Bytes → Bytes) (fs : Bytes → Option Bytes) (dict : Bytes) :
    Option (Segmenter F D) :=
  (({ minTokenFreq := F64.ofNat 0 } : Segmenter F D).loadDict mid join fs (some dict)).map (·.1)

end Gse
