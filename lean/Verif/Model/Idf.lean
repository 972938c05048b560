import Verif.Model.Hmm
import Verif.Model.Stop
import Verif.Model.GoStr

/-!
# Keyword extraction (hmm/idf/idf.go, stop_words.go, tag_extracker.go, hmm/segment/segment.go)

Go iterates over a map in an unspecified order and `sort.Sort` is not stable. Both are choices: the model takes a
`Choice` and theorems hold for every `Choice` that respects the language and the documentation of package `sort`.
-/

namespace Gse

/-! ## Maps, iteration orders and sorting -/

/-- A Go map: an association list with distinct keys (kept distinct by `set`). -/
abbrev GoMap (K V : Type) := List (K × V)

namespace GoMap
variable {K V : Type} [DecidableEq K]

/-- `m[k]` with the comma-ok form. -/
def get (m : GoMap K V) (k : K) : Option V := m.lookup k

/-- `m[k] = v`. -/
def set (m : GoMap K V) (k : K) (v : V) : GoMap K V :=
  if (m.lookup k).isSome then m.map fun p => if p.1 = k then (k, v) else p else m ++ [(k, v)]

end GoMap

/-- `less` is a strict weak order on the elements of `l`. -/
def StrictWeakOn {α : Type} (less : α → α → Bool) (l : List α) : Prop :=
  (∀ a ∈ l, ∀ b ∈ l, less a b = true → less b a = false) ∧
  ∀ a ∈ l, ∀ b ∈ l, ∀ c ∈ l, less a c = true → less a b = true ∨ less b c = true

/-- What Go leaves open: `iter n` is the order in which the `n`-th loop of a function ranges over a map (language
specification, "For statements with range clause"), `sort` is `sort.Sort` for a comparison (package `sort`: the data is
permuted, and ordered when the comparison is a strict weak order). -/
structure Choice where
  iter : ∀ {K V : Type}, Nat → GoMap K V → GoMap K V
  iter_perm : ∀ {K V : Type} (n : Nat) (m : GoMap K V), (iter n m).Perm m
  sort : ∀ {α : Type}, (α → α → Bool) → List α → List α
  sort_perm : ∀ {α : Type} (less : α → α → Bool) (l : List α), (sort less l).Perm l
  sort_sorted : ∀ {α : Type} (less : α → α → Bool) (l : List α), StrictWeakOn less l →
    (sort less l).Pairwise fun a b => less b a = false

/-- `a < b` for Go strings: bytewise. -/
def bytesLt : Bytes → Bytes → Bool
  | [], [] => false
  | [], _ :: _ => true
  | _ :: _, [] => false
  | a :: s, b :: t => if a.toNat < b.toNat then true else if b.toNat < a.toNat then false else bytesLt s t

/-- hmm/segment/segment.go:4-7 `Segment`. -/
structure WordWeight (F : Type) where
  text : Bytes
  weight : F
  deriving DecidableEq, Repr

variable {F D : Type} [F64 F] [F32 D] [Narrow F D]

/-- hmm/segment/segment.go:26-32 `Less`. -/
def WordWeight.less (a b : WordWeight F) : Bool :=
  if F64.eq a.weight b.weight then bytesLt a.text b.text else F64.lt a.weight b.weight

/-! ## Idf -/

/-- hmm/idf/idf.go:25-30 `Idf`; `dict` is `seg.Dict`, `none` when nil. -/
structure Idf (F D : Type) where
  median : F
  freqs : List F
  dict : Option (Dictionary F D)

/-- hmm/idf/idf.go:67-69 `NewIdf`. -/
def Idf.new : Idf F D := ⟨F64.ofNat 0, [], none⟩

/-- `sort.Float64s`: ascending, NaN first; NaN is what differs from itself. -/
def float64Less (a b : F) : Bool := F64.lt a b || (!F64.eq a a && F64.eq b b)

/-- hmm/idf/idf.go:33-40 `AddToken`; the Boolean is `err != nil`, `none` the panic for a nil dictionary. -/
def Idf.addToken [Unicode] (ch : Choice) (cfg : SplitCfg) (i : Idf F D) (text : Bytes) (freq : F) (pos : Bytes) :
    Option (Idf F D × Bool) :=
  match i.dict with
  | none => none
  | some d =>
    let r := segAddToken cfg d text freq pos
    let freqs := ch.sort float64Less (i.freqs ++ [freq])
    match freqs[freqs.length / 2]? with
    | none => none
    | some m => some (⟨m, freqs, some r.1⟩, r.2)

/-- A sequence of `AddToken` calls. -/
def Idf.addTokens [Unicode] (ch : Choice) (cfg : SplitCfg) : List (Bytes × F × Bytes) → Idf F D → Option (Idf F D)
  | [], i => some i
  | c :: cs, i => (i.addToken ch cfg c.1 c.2.1 c.2.2).bind fun r => Idf.addTokens ch cfg cs r.1

/-- hmm/idf/idf.go:43-49 and hmm/idf/tag_extracker.go:33-42 `LoadIdf`, `LoadIdfStr`: a new `Idf` whose dictionary is the one
loaded (loading is modelled in Verif.Model.Load); median and frequencies are not set. -/
def Idf.loaded (d : Dictionary F D) : Idf F D := { (Idf.new : Idf F D) with dict := some d }

/-- hmm/idf/idf.go:52-54 `Freq`; `none` is a panic. -/
def Idf.freq (i : Idf F D) (key : Bytes) : Option (F × Bytes × Bool) := i.dict.bind fun d => d.find key

/-! ## ExtractTags -/

/-- hmm/idf/tag_extracker.go:54-69: one word of the first loop. `stop` is `t.stopWord`, `none` when nil. -/
def countWord [Unicode] (stop : Option (Bytes → Bool)) (freqMap : GoMap Bytes F) (w : Bytes) : Option (GoMap Bytes F) :=
  let w := trimSpace w
  if (runes w).length < 2 then some freqMap
  else
    match stop with
    | none => none
    | some isStop =>
      if isStop w then some freqMap
      else
        match freqMap.get w with
        | some f => some (freqMap.set w (F64.add f (F64.ofNat 1)))
        | none => some (freqMap.set w (F64.ofNat 1))

/-- hmm/idf/tag_extracker.go:71-74. -/
def sumFreq (ch : Choice) (freqMap : GoMap Bytes F) : F :=
  (ch.iter 0 freqMap).foldl (fun total p => F64.add total p.2) (F64.ofNat 0)

/-- hmm/idf/tag_extracker.go:76-78: only present keys are assigned, so every key is visited once. -/
def normFreq (ch : Choice) (total : F) (freqMap : GoMap Bytes F) : GoMap Bytes F :=
  (ch.iter 1 freqMap).foldl (fun m p => m.set p.1 (F64.div p.2 total)) freqMap

/-- hmm/idf/tag_extracker.go:83-87: one word of the third loop; `t.Idf` is `none` when nil. -/
def weighWord (idf : Option (Idf F D)) (p : Bytes × F) : Option (WordWeight F) :=
  match idf with
  | none => none
  | some i =>
    match i.freq p.1 with
    | none => none
    | some (freq, _, ok) => if ok then some ⟨p.1, F64.mul freq p.2⟩ else some ⟨p.1, F64.mul i.median p.2⟩

/-- hmm/idf/tag_extracker.go:91-98: sorting and cutting off; a negative `topK` panics. -/
def topTags (ch : Choice) (ws : List (WordWeight F)) (topK : Int) : Option (List (WordWeight F)) :=
  let ws := ch.sort (fun a b => WordWeight.less b a) ws
  if (ws.length : Int) > topK then if topK < 0 then none else some (ws.take topK.toNat) else some ws

/-- hmm/idf/tag_extracker.go:51-99 `ExtractTags` for the words of `Cut(text, true)`. -/
def extractWords [Unicode] (ch : Choice) (stop : Option (Bytes → Bool)) (idf : Option (Idf F D)) (words : List Bytes) (topK : Int) :
    Option (List (WordWeight F)) :=
  match words.foldlM (countWord stop) [] with
  | none => none
  | some freqMap =>
    match mapOpt (weighWord idf) (ch.iter 2 (normFreq ch (sumFreq ch freqMap) freqMap)) with
    | none => none
    | some ws => topTags ch ws topK

/-- hmm/idf/tag_extracker.go:51-99 `ExtractTags`. -/
def extractTags [Unicode] (ch : Choice) (cfg : SplitCfg) (d : Dictionary F D) (c : HmmConst F) (em : EmitModel F)
    (stop : Option (Bytes → Bool)) (idf : Option (Idf F D)) (text : Bytes) (topK : Int) : Option (List (WordWeight F)) :=
  (cutDAGHmm cfg d c em text []).bind fun words => extractWords ch stop idf words topK

/-! ## Stop words of package idf -/

/-- The state shared by all `StopWord` values: the package variable `StopWordMap` (hmm/idf/stop_words.go:8-39), to which every value made
by `NewStopWord` points, and for each value the stop map of its own segmenter (`s.seg.StopWordMap`). -/
structure StopHeap where
  global : List Bytes
  segs : List StopMap

/-- The calls of hmm/idf/stop_words.go on values numbered in order of creation. -/
inductive IdfStopOp where
  | new
  | add (i : Nat) (w : Bytes)
  | remove (i : Nat) (w : Bytes)
  | load (i : Nat) (fs : Bytes → Option Bytes) (files : Option Bytes)

/-- hmm/idf/stop_words.go:49-84. A call on a value that does not exist is no call: `none`. -/
def IdfStopOp.run (join : Bytes → Bytes) (h : StopHeap) : IdfStopOp → Option StopHeap
  | .new => some { h with segs := h.segs ++ [none] }
  | .add i w => if i < h.segs.length then some { h with global := StopMap.put h.global w } else none
  | .remove i w => if i < h.segs.length then some { h with global := h.global.filter fun x => x != w } else none
  | .load i fs files =>
    match h.segs[i]? with
    | none => none
    | some m =>
      let r := m.loadStop join fs files
      let segs := h.segs.set i r.1
      if r.2 then some { h with segs := segs }
      else some { global := (r.1.getD []).foldl StopMap.put h.global, segs := segs }

/-- A sequence of calls. -/
def idfStopRun (join : Bytes → Bytes) : List IdfStopOp → StopHeap → Option StopHeap
  | [], h => some h
  | op :: ops, h => (op.run join h).bind (idfStopRun join ops)

/-- hmm/idf/stop_words.go:67-70 `IsStopWord` on value `i`. -/
def StopHeap.isStopWord (h : StopHeap) (i : Nat) (w : Bytes) : Option Bool :=
  if i < h.segs.length then some (decide (w ∈ h.global)) else none

end Gse
