import Verif.Model.Dict

/-!
# The path search (segmenter.go) and the dictionary part of dict_util.go
-/

namespace Gse

variable {F D : Type} [F64 F] [F32 D] [Narrow F D]

/-- segmenter.go:63-66 `jumper`. -/
structure Jumper (D : Type) where
  minDistance : D
  token : Option TokRef

/-- segmenter.go:193-199 `updateJumper`. -/
def updateJumper (j : Jumper D) (base : D) (r : TokRef) (distance : D) : Jumper D :=
  let newDistance := F32.add base distance
  if F32.isZero j.minDistance || F32.gt j.minDistance newDistance then ⟨newDistance, some r⟩ else j

/-- Inner loop segmenter.go:140-145 over the looked-up tokens. `none` is an index panic. -/
def updateAll (d : Dictionary F D) (n : Nat) (searchMode : Bool) (current : Nat) (base : D) :
    List Nat → List (Jumper D) → Option (List (Jumper D))
  | [], js => some js
  | v :: vs, js =>
    match d.tokens[v]? with
    | none => none
    | some t =>
      -- location := current + len(text) - 1 may be -1 in Go
      if !searchMode || current ≠ 0 || current + t.text.length ≠ n then
        if current + t.text.length = 0 then none
        else
          match js[current + t.text.length - 1]? with
          | none => none
          | some j =>
            updateAll d n searchMode current base vs
              (js.set (current + t.text.length - 1) (updateJumper j base (.idx v) t.distance))
      else updateAll d n searchMode current base vs js

/-- segmenter.go:125-132: the distance up to `current`. -/
def baseDistance (js : List (Jumper D)) (current : Nat) : Option D :=
  if current = 0 then some F32.zero else (js[current - 1]?).map (·.minDistance)

/-- The condition segmenter.go:149: `numTokens == 0 || len(tokens[0].text) > 1`. -/
def needPseudo (d : Dictionary F D) : List Nat → Option Bool
  | [] => some true
  | v :: _ => (d.tokens[v]?).map fun t => decide (t.text.length > 1)

/-- segmenter.go:149-152: add a pseudo token for `current`. -/
def addPseudo (text : List Bytes) (current : Nat) (base : D) (js : List (Jumper D)) : Option (List (Jumper D)) := do
  let w ← text[current]?
  let j ← js[current]?
  some (js.set current (updateJumper j base (.pseudo w) F32.c32))

/-- One iteration of the outer loop segmenter.go:122-153; the words looked up are
`text[current:minInt(current+maxTokenLen, len(text))]`. -/
def segStep (d : Dictionary F D) (text : List Bytes) (searchMode : Bool) (current : Nat) (js : List (Jumper D)) :
    Option (List (Jumper D)) := do
  let base ← baseDistance js current
  let found ← d.lookupTokens (slice text current (min (current + d.maxTokenLen) text.length)) d.maxTokenLen
  let js ← updateAll d text.length searchMode current base found js
  let need ← needPseudo d found
  bif need then addPseudo text current base js else some js

/-- Outer loop segmenter.go:122-153 from `current` for `k` more positions. -/
def segLoop (d : Dictionary F D) (text : List Bytes) (searchMode : Bool) :
    Nat → Nat → List (Jumper D) → Option (List (Jumper D))
  | 0, _, js => some js
  | k + 1, current, js => do segLoop d text searchMode k (current + 1) (← segStep d text searchMode current js)

/-- First backward scan segmenter.go:157-162. `n` is `index + 1`; `none` is a nil dereference, an index panic
(negative `location` leaves the loop, so it is not one), or exhausted fuel (an endless loop). -/
def countSegs (d : Dictionary F D) (js : List (Jumper D)) : Nat → Nat → Nat → Option Nat
  | _, 0, num => some num
  | 0, _ + 1, _ => none
  | fuel + 1, n + 1, num => do
    let j ← js[n]?
    let r ← j.token
    let t ← d.deref r
    countSegs d js fuel (n + 1 - t.text.length) (num + 1)

/-- Second backward scan segmenter.go:166-172, filling the array from the end. -/
def fillSegs (d : Dictionary F D) (js : List (Jumper D)) : Nat → Nat → Nat → List TokRef → Option (List TokRef)
  | _, 0, _, out => some out
  | 0, _ + 1, _, _ => none
  | fuel + 1, n + 1, num, out => do
    let j ← js[n]?
    let r ← j.token
    let t ← d.deref r
    if num = 0 ∨ out.length < num then none
    else fillSegs d js fuel (n + 1 - t.text.length) (num - 1) (out.set (num - 1) r)

/-- Byte positions segmenter.go:175-180. -/
def positions (d : Dictionary F D) : List TokRef → Nat → Option (List Seg)
  | [], _ => some []
  | r :: rs, p => do
    let t ← d.deref r
    let rest ← positions d rs (p + textSliceByteLen t.text)
    some (⟨p, p + textSliceByteLen t.text, r⟩ :: rest)

/-- segmenter.go:104-183 `segmentWords`. A nil result and an empty slice are both `[]`; `none` is a panic or an
endless loop. The scans need at most one step per word when every token has a word (theorem C12). -/
def segmentWords (dict : Option (Dictionary F D)) (text : List Bytes) (searchMode : Bool) : Option (List Seg) :=
  if searchMode && text.length == 1 then some []
  else match dict with
    | none => some []
    | some d => do
      let js ← segLoop d text searchMode text.length 0 (List.replicate text.length ⟨F32.zero, none⟩)
      let num ← countSegs d js (text.length + 1) text.length 0
      let refs ← fillSegs d js (text.length + 1) text.length num (List.replicate num (.pseudo []))
      positions d refs 0

/-- segmenter.go:91-102 `internalSegment`, behind `Segment` (77-79) and `ModeSegment` (82-89). -/
def internalSegment [Unicode] (cfg : SplitCfg) (dict : Option (Dictionary F D)) (bytes : Bytes) (searchMode : Bool) :
    Option (List Seg) :=
  if bytes.length = 0 then some []
  else segmentWords dict (splitTextToWords cfg bytes) searchMode

/-- dict_util.go:442-451 `IsJp`. -/
def isJp [U : Unicode] (s : Bytes) : Bool := (runes s).any U.isKana

/-- The filter dict_util.go:473-482 and 490-499: keep a sub-segment unless its text is empty or is one word
with a kana character. -/
def keepSub [Unicode] (d : Dictionary F D) (s : Seg) : Option Bool := do
  let t ← d.deref s.tok
  match t.text with
  | [] => some false
  | [w] => some (!isJp w)
  | _ => some true

/-- Filtering a list with a check that may panic. -/
def filterOpt {α : Type} (p : α → Option Bool) : List α → Option (List α)
  | [] => some []
  | a :: l => do
    let b ← p a
    let r ← filterOpt p l
    some (if b then a :: r else r)

/-- dict_util.go:456-461: the distances. -/
def withDistances (d : Dictionary F D) : Dictionary F D :=
  let logTotal : D := Narrow.narrow (F64.log2 d.totalFreq)
  { d with tokens := d.tokens.map fun t =>
      { t with distance := F32.sub logTotal (Narrow.narrow (F64.log2 t.freq)) } }

/-- Mapping with a function that may panic. -/
def mapOpt {α β : Type} (f : α → Option β) : List α → Option (List β)
  | [] => some []
  | a :: l => do
    let b ← f a
    let r ← mapOpt f l
    some (b :: r)

/-- dict_util.go:454-503 `CalcToken`: distances, then the sub-segments of every token. `segmentWords` reads texts and
distances only, so the in-place update of `segments` during the loop is a map. -/
def calcToken [Unicode] (d : Dictionary F D) : Option (Dictionary F D) := do
  let d1 := withDistances d
  let tokens ← mapOpt (fun t => do
    let segs ← segmentWords (some d1) t.text true
    let kept ← filterOpt (keepSub d1) segs
    some { t with segments := kept }) d1.tokens
  some { d1 with tokens := tokens }

/-- dict_util.go:63-72 `ToToken` (`pos` is the first optional argument or ""). -/
def toToken [Unicode] (cfg : SplitCfg) (text : Bytes) (freq : F) (pos : Bytes) : Token F D :=
  { text := splitTextToWords cfg text, freq := freq, pos := pos, distance := F32.zero, segments := [] }

/-- dict_util.go:75-78 `Segmenter.AddToken`. -/
def segAddToken [Unicode] (cfg : SplitCfg) (d : Dictionary F D) (text : Bytes) (freq : F) (pos : Bytes) :
    Dictionary F D × Bool :=
  d.addToken (toToken cfg text freq pos)

/-- dict_util.go:99-104 `Segmenter.RemoveToken`. The zero frequency of the throw-away token is not read. -/
def segRemoveToken [Unicode] (cfg : SplitCfg) (d : Dictionary F D) (text : Bytes) : Option (Dictionary F D × Bool) :=
  d.removeToken (toToken cfg text (F64.ofNat 0) [])

/-- dict_util.go:89-96 `ReAddToken`. -/
def segReAddToken [Unicode] (cfg : SplitCfg) (d : Dictionary F D) (text : Bytes) (freq : F) (pos : Bytes) :
    Option (Dictionary F D × Bool) :=
  match d.removeToken (toToken cfg text freq pos) with
  | none => none
  | some (d', true) => some (d', true)
  | some (d', false) => some (d'.addToken (toToken cfg text freq pos))

/-- dict_util.go:82-86 `AddTokenForce`. -/
def segAddTokenForce [Unicode] (cfg : SplitCfg) (d : Dictionary F D) (text : Bytes) (freq : F) (pos : Bytes) :
    Option (Dictionary F D × Bool) :=
  (calcToken (segAddToken cfg d text freq pos).1).map fun d' => (d', (segAddToken cfg d text freq pos).2)

end Gse
