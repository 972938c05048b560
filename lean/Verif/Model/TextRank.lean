import Verif.Model.Pos

/-!
# TextRank (hmm/idf/textrank.go)

As in Verif.Model.Idf, iteration orders and sorting are a `Choice`.
-/

namespace Gse

/-- The constants of hmm/idf/textrank.go: `dampingFactor` (line 12), `1 - dampingFactor` (line 114, an exact constant
expression), `math.MaxFloat64` and `math.SmallestNonzeroFloat64` (lines 118-119). -/
structure RankConst (F : Type) where
  damp : F
  rest : F
  maxFloat : F
  tiny : F

/-- hmm/idf/textrank.go:35-38 `edge`, without `start`, which is never read. -/
structure Edge (F : Type) where
  stop : Bytes
  weight : F

/-- hmm/idf/textrank.go:54-57 `undirectWeightedGraph`. -/
structure Graph (F : Type) where
  graph : GoMap Bytes (List (Edge F))
  keys : List Bytes

variable {F D : Type} [F64 F] [F32 D] [Narrow F D]

/-- hmm/idf/textrank.go:59-64 `newUndirectWeightedGraph`. -/
def Graph.new : Graph F := ⟨[], []⟩

/-- hmm/idf/textrank.go:68-74 and again 76-82: one end of an edge. -/
def Graph.addEnd (u : Graph F) (start stop : Bytes) (weight : F) : Graph F :=
  match u.graph.get start with
  | none => ⟨u.graph.set start [⟨stop, weight⟩], u.keys ++ [start]⟩
  | some es => ⟨u.graph.set start (es ++ [⟨stop, weight⟩]), u.keys⟩

/-- hmm/idf/textrank.go:66-83 `addEdge`. -/
def Graph.addEdge (u : Graph F) (start stop : Bytes) (weight : F) : Graph F :=
  (u.addEnd start stop weight).addEnd stop start weight

/-- `sort.IsSorted` for strings. -/
def stringsSorted : List Bytes → Bool
  | [] => true
  | [_] => true
  | a :: b :: l => !bytesLt b a && stringsSorted (b :: l)

/-- hmm/idf/textrank.go:86-88: `u.keys` sorted. -/
def Graph.sortedKeys (ch : Choice) (u : Graph F) : List Bytes := if stringsSorted u.keys then u.keys else ch.sort bytesLt u.keys

/-- hmm/idf/textrank.go:93-96 `wsDef`. -/
def Graph.wsDef (u : Graph F) : F :=
  if u.graph.length > 0 then F64.div (F64.ofNat 1) (F64.ofNat u.graph.length) else F64.ofNat 1

/-- `m[k]` for a missing key is zero. -/
def at0 (m : GoMap Bytes F) (k : Bytes) : F := (m.get k).getD (F64.ofNat 0)

/-- hmm/idf/textrank.go:90, 98-99: the initial `ws`. -/
def Graph.wsInit (ch : Choice) (u : Graph F) : GoMap Bytes F :=
  (ch.iter 1 u.graph).foldl (fun ws p => ws.set p.1 u.wsDef) []

/-- hmm/idf/textrank.go:91, 98-105: `outSum`. -/
def Graph.outSum (ch : Choice) (u : Graph F) : GoMap Bytes F :=
  (ch.iter 1 u.graph).foldl (fun m p => m.set p.1 (p.2.foldl (fun sum e => F64.add sum e.weight) (F64.ofNat 0))) []

/-- hmm/idf/textrank.go:109-114: the new value of a word. -/
def Graph.newRank (K : RankConst F) (u : Graph F) (outSum ws : GoMap Bytes F) (n : Bytes) : F :=
  let s := ((u.graph.get n).getD []).foldl
    (fun s e => F64.add s (F64.mul (F64.div e.weight (at0 outSum e.stop)) (at0 ws e.stop))) (F64.ofNat 0)
  F64.add K.rest (F64.mul K.damp s)

/-- hmm/idf/textrank.go:108-115: one round over all words. -/
def Graph.sweep (K : RankConst F) (u : Graph F) (outSum : GoMap Bytes F) (keys : List Bytes) (ws : GoMap Bytes F) : GoMap Bytes F :=
  keys.foldl (fun ws n => ws.set n (u.newRank K outSum ws n)) ws

/-- hmm/idf/textrank.go:107-116: the rounds. -/
def Graph.sweeps (K : RankConst F) (u : Graph F) (outSum : GoMap Bytes F) (keys : List Bytes) : Nat → GoMap Bytes F → GoMap Bytes F
  | 0, ws => ws
  | x + 1, ws => Graph.sweeps K u outSum keys x (u.sweep K outSum keys ws)

/-- hmm/idf/textrank.go:120-126: one step of the search for `minRank` and `maxRank`. -/
def minMaxStep (mm : F × F) (w : F) : F × F :=
  if F64.lt w mm.1 then (w, mm.2) else if F64.lt mm.2 w then (mm.1, w) else mm

/-- hmm/idf/textrank.go:118-126: `minRank` and `maxRank`. -/
def minMax (K : RankConst F) (ws : List F) : F × F := ws.foldl minMaxStep (K.maxFloat, K.tiny)

/-- hmm/idf/textrank.go:131: the weight of a result. -/
def rankWeight (mm : F × F) (w : F) : F :=
  F64.div (F64.sub w (F64.div mm.1 (F64.ofNat 10))) (F64.sub mm.2 (F64.div mm.1 (F64.ofNat 10)))

/-- hmm/idf/textrank.go:85-137 `rank`. -/
def Graph.rank (ch : Choice) (K : RankConst F) (u : Graph F) : List (WordWeight F) :=
  let ws := u.sweeps K (u.outSum ch) (u.sortedKeys ch) 10 (u.wsInit ch)
  let mm := minMax K ((ch.iter 2 ws).map (·.2))
  ch.sort (fun a b => WordWeight.less b a) ((ch.iter 3 ws).map fun p => ⟨p.1, rankWeight mm p.2⟩)

/-- hmm/idf/textrank.go:162-166: one pair of words. -/
def countPair (cm : GoMap (Bytes × Bytes) F) (p : Bytes × Bytes) : GoMap (Bytes × Bytes) F :=
  match cm.get p with
  | none => cm.set p (F64.ofNat 1)
  | some v => cm.set p (F64.add v (F64.ofNat 1))

/-- hmm/idf/textrank.go:154-169: the pairs counted, in order; `allow` holds the keys of `posFilt`. -/
def rankPairs (allow : List Bytes) : List SegPos → List (Bytes × Bytes)
  | [] => []
  | p :: rest =>
    (if p.pos ∈ allow then ((rest.take 4).filter fun q => decide (q.pos ∈ allow)).map fun q => (p.text, q.text) else []) ++
      rankPairs allow rest

/-- hmm/idf/textrank.go:141-181 `TextRankWithPOS` after the cut. -/
def textRankItems (ch : Choice) (K : RankConst F) (pairs : List SegPos) (topK : Int) (allowPOS : List Bytes) : List (WordWeight F) :=
  let cm := (rankPairs allowPOS pairs).foldl countPair []
  let g := (ch.iter 0 cm).foldl (fun g p => g.addEdge p.1.1 p.1.2 p.2) Graph.new
  let tags := g.rank ch K
  if topK > 0 ∧ (tags.length : Int) > topK then tags.take topK.toNat else tags

/-- hmm/idf/textrank.go:141-181 `TextRankWithPOS`; the choices made in `Cut` are those of `ch'`. -/
def textRankWithPOS [Unicode] (ch' ch : Choice) (K : RankConst F) (T : PosTables F) (d : Dictionary F D) (text : Bytes) (topK : Int)
    (allowPOS : List Bytes) : Option (List (WordWeight F)) :=
  (posCut ch' T d text true).map fun pairs => textRankItems ch K pairs topK allowPOS

/-- hmm/idf/textrank.go:14-16 `defaultAllowPOS`. -/
def defaultAllowPOS : List Bytes := [str "ns", str "n", str "vn", str "v"]

/-- hmm/idf/textrank.go:185-187 `TextRank`. -/
def textRank [Unicode] (ch' ch : Choice) (K : RankConst F) (T : PosTables F) (d : Dictionary F D) (text : Bytes) (topK : Int) :
    Option (List (WordWeight F)) := textRankWithPOS ch' ch K T d text topK defaultAllowPOS

end Gse
