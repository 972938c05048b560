import Verif.Model.Output
import Verif.Model.GoStr

/-!
# DAG cutting (dag.go)

`none` stands for a panic or a loop that does not end.
-/

namespace Gse

variable {F D : Type} [F64 F] [F32 D] [Narrow F D]

/-- dag.go:39-41 `Segmenter.Find` on `string(frag)`. -/
def findRunes (d : Dictionary F D) (frag : List Rune) : Option (F × Bytes × Bool) := d.find (encode frag)

/-- dag.go:141-158, the inner loop of `getDag` at position `k` with current end `i`; the fuel is the number of ends left. -/
def dagEnds (d : Dictionary F D) (rs : List Rune) (k : Nat) : Nat → Nat → Option (List Nat)
  | 0, _ => none
  | n + 1, i =>
    match findRunes d (slice rs k (i + 1)) with
    | none => none
    | some (freq, _, ok) =>
      if !ok then some []
      else
        let here := if F64.lt (F64.ofNat 0) freq then [i] else []
        if i + 1 ≥ rs.length then some here
        else (dagEnds d rs k n (i + 1)).map (here ++ ·)

/-- dag.go:136-162: `dag[k]`. -/
def dagAt (d : Dictionary F D) (rs : List Rune) (k : Nat) : Option (List Nat) :=
  (dagEnds d rs k (rs.length - k) k).map fun l => if l = [] then [k] else l

/-- dag.go:127-165 `getDag`: the map with keys 0, …, n-1 as a list. -/
def getDag (d : Dictionary F D) (rs : List Rune) : Option (List (List Nat)) :=
  mapOpt (dagAt d rs) (List.range rs.length)

/-- dag.go:33-36 `route`. -/
structure Route (F : Type) where
  freq : F
  index : Nat

/-- dag.go:180-187: the candidate for end `i` at position `idx`; `rest` is `rs[i+1].freq` (zero value for a missing key). -/
def routeCand (d : Dictionary F D) (rs : List Rune) (logT : F) (idx i : Nat) (rest : F) : Option (Route F) :=
  match findRunes d (slice rs idx (i + 1)) with
  | none => none
  | some (freq, _, ok) =>
    some ⟨F64.add (F64.sub (F64.log (if ok then freq else F64.ofNat 1)) logT) rest, i⟩

/-- dag.go:189-196: `rs[idx]` after candidate `r`. -/
def routeBetter (v : Option (Route F)) (r : Route F) : Route F :=
  match v with
  | none => r
  | some v =>
    if F64.lt v.freq r.freq || (F64.eq v.freq r.freq && decide (v.index < r.index)) then r else v

/-- dag.go:179-197: the loop over `dag[idx]`. `routes` is the map `rs` for the positions above `idx`; `rs[idx]` is `v`. -/
def routeAt (d : Dictionary F D) (rs : List Rune) (logT : F) (idx : Nat) (routes : List (Nat × Route F)) :
    List Nat → Option (Route F) → Option (Option (Route F))
  | [], v => some v
  | i :: is, v =>
    match routeCand d rs logT idx i (((routes.lookup (i + 1)).map (·.freq)).getD (F64.ofNat 0)) with
    | none => none
    | some r => routeAt d rs logT idx routes is (some (routeBetter v r))

/-- dag.go:178-198: the loop over `idx` downwards, `idx = k - 1`. -/
def calcLoop (d : Dictionary F D) (rs : List Rune) (logT : F) (dag : List (List Nat)) :
    Nat → List (Nat × Route F) → Option (List (Nat × Route F))
  | 0, routes => some routes
  | k + 1, routes =>
    match routeAt d rs logT k routes (dag.getD k []) none with
    | none => none
    | some none => calcLoop d rs logT dag k routes
    | some (some r) => calcLoop d rs logT dag k ((k, r) :: routes)

/-- dag.go:167-201 `calc`: the map of routes. -/
def calcRoutes (d : Dictionary F D) (rs : List Rune) : Option (List (Nat × Route F)) :=
  match getDag d rs with
  | none => none
  | some dag => calcLoop d rs (F64.log d.totalFreq) dag rs.length [(rs.length, ⟨F64.ofNat 0, 0⟩)]

/-- The runes a DAG cut works on (dag.go:222-225, 273-276, 314-317). -/
def dagRunes [Unicode] (cfg : SplitCfg) (s : Bytes) : List Rune := runes (if cfg.toLower then strLower s else s)

/-- The loop `for x := 0; x < length; { y = routes[x].index + 1; frag := runes[x:y]; …; x = y }` (dag.go:232-254, 283-300):
the list of fragments. A slice out of range is a panic, an exhausted fuel an endless loop. -/
def walk (rs : List Rune) (routes : List (Nat × Route F)) : Nat → Nat → Option (List (List Rune))
  | 0, x => if x < rs.length then none else some []
  | n + 1, x =>
    if x < rs.length then
      let y := ((routes.lookup x).map (·.index)).getD 0 + 1
      if x ≤ y ∧ y ≤ rs.length then (walk rs routes n y).map (slice rs x y :: ·) else none
    else some []

/-- dag.go:31 `reEng.MatchString(string(frag)) && len(frag) == 1`: one ASCII letter or digit. -/
def engFrag (frag : List Rune) : Bool :=
  match frag with
  | [r] => (decide (48 ≤ r) && decide (r ≤ 57)) || (decide (65 ≤ r) && decide (r ≤ 90)) || (decide (97 ≤ r) && decide (r ≤ 122))
  | _ => false

/-- dag.go:283-305: the body of `cutDAGNoHMM` over the fragments, `buf` being the pending ASCII run. -/
def noHmmLoop : List (List Rune) → List Rune → List Bytes
  | [], buf => if buf.length > 0 then [encode buf] else []
  | frag :: rest, buf =>
    if engFrag frag then noHmmLoop rest (buf ++ frag)
    else (if buf.length > 0 then [encode buf] else []) ++ encode frag :: noHmmLoop rest []

/-- dag.go:269-308 `cutDAGNoHMM`. -/
def cutDAGNoHMM [Unicode] (cfg : SplitCfg) (d : Dictionary F D) (s : Bytes) : Option (List Bytes) :=
  let rs := dagRunes cfg s
  match calcRoutes d rs with
  | none => none
  | some routes => (walk rs routes rs.length 0).map fun frags => noHmmLoop frags []

/-- dag.go:203-215 `hmm`; `cut` is `seg.HMMCut` with the regular expressions given. -/
def hmmBuf (d : Dictionary F D) (cut : Bytes → Option (List Bytes)) (buf : List Rune) : Option (List Bytes) :=
  match findRunes d buf with
  | none => none
  | some (v, _, ok) =>
    if !ok || F64.eq v (F64.ofNat 0) then cut (encode buf) else some (buf.map encodeRune)

/-- dag.go:240-249 and 256-264: what becomes of the pending single characters. -/
def flushBuf (d : Dictionary F D) (cut : Bytes → Option (List Bytes)) (buf : List Rune) : Option (List Bytes) :=
  if buf.length = 0 then some [] else if buf.length = 1 then some [encode buf] else hmmBuf d cut buf

/-- dag.go:232-264: the body of `cutDAG` over the fragments. -/
def hmmLoop (d : Dictionary F D) (cut : Bytes → Option (List Bytes)) : List (List Rune) → List Rune → Option (List Bytes)
  | [], buf => flushBuf d cut buf
  | frag :: rest, buf =>
    if frag.length = 1 then hmmLoop d cut rest (buf ++ frag)
    else
      match flushBuf d cut buf with
      | none => none
      | some o => (hmmLoop d cut rest []).map fun r => o ++ encode frag :: r

/-- dag.go:217-267 `cutDAG`. -/
def cutDAG [Unicode] (cfg : SplitCfg) (d : Dictionary F D) (cut : Bytes → Option (List Bytes)) (s : Bytes) : Option (List Bytes) :=
  let rs := dagRunes cfg s
  match calcRoutes d rs with
  | none => none
  | some routes => (walk rs routes rs.length 0).bind fun frags => hmmLoop d cut frags []

/-- dag.go:327-342: the loop of `cutAll` over positions `k`, with `dag[k]` and the variable `start` plus one
(so that its initial value -1 is 0). The items are kept as ranges of positions. -/
def cutAllLoop : List (Nat × List Nat) → Nat → List (Nat × Nat)
  | [], _ => []
  | (k, l) :: rest, start =>
    if l.length = 1 ∧ k + 1 > start then (k, l.headD 0 + 1) :: cutAllLoop rest (l.headD 0 + 1)
    else
      let js := l.filter fun j => j > k
      js.map (fun j => (k, j + 1)) ++ cutAllLoop rest ((js.getLast?.map (· + 1)).getD start)

/-- dag.go:310-345 `cutAll`. -/
def cutAll [Unicode] (cfg : SplitCfg) (d : Dictionary F D) (s : Bytes) : Option (List Bytes) :=
  let rs := dagRunes cfg s
  (getDag d rs).map fun dag =>
    (cutAllLoop ((List.range dag.length).zip dag) 0).map fun p => encode (slice rs p.1 p.2)

/-- gse.go:68-79 `Cut`: `hmm` is the optional flag, `hmmCut` is `seg.HMMCut`. -/
def cut [Unicode] (cfg : SplitCfg) (d : Dictionary F D) (fuel : Nat) (hmmCut : Bytes → Option (List Bytes)) (s : Bytes) :
    Option Bool → Option (List Bytes)
  | none => segSlice cfg d fuel s false
  | some false => cutDAGNoHMM cfg d s
  | some true => cutDAG cfg d hmmCut s

/-- dag.go:361-367: the grams of `incr` runes of a word that are stored with positive frequency, from start `i` on. -/
def gramsFrom (d : Dictionary F D) (rs : List Rune) (incr : Nat) : List Nat → Option (List Bytes)
  | [] => some []
  | i :: is =>
    match findRunes d (slice rs i (i + incr)) with
    | none => none
    | some (v, _, ok) =>
      (gramsFrom d rs incr is).map ((if ok && F64.lt (F64.ofNat 0) v then [encode (slice rs i (i + incr))] else []) ++ ·)

/-- dag.go:354-368 for one `incr`. -/
def grams (d : Dictionary F D) (rs : List Rune) (incr : Nat) : Option (List Bytes) :=
  if rs.length ≤ incr then some [] else gramsFrom d rs incr (List.range (rs.length - incr + 1))

/-- dag.go:352-371: one word of `cutForSearch`. -/
def searchWord (d : Dictionary F D) (word : Bytes) : Option (List Bytes) :=
  match grams d (runes word) 2, grams d (runes word) 3 with
  | some a, some b => some (a ++ b ++ [word])
  | _, _ => none

/-- dag.go:347-374 `cutForSearch`. -/
def cutForSearch [Unicode] (cfg : SplitCfg) (d : Dictionary F D) (fuel : Nat) (hmmCut : Bytes → Option (List Bytes)) (s : Bytes)
    (hmm : Option Bool) : Option (List Bytes) :=
  (cut cfg d fuel hmmCut s hmm).bind fun ws => (mapOpt (searchWord d) ws).map List.flatten

/-- gse.go:82-88 `CutSearch`. -/
def cutSearch [Unicode] (cfg : SplitCfg) (d : Dictionary F D) (fuel : Nat) (hmmCut : Bytes → Option (List Bytes)) (s : Bytes) :
    Option Bool → Option (List Bytes)
  | none => segSlice cfg d fuel s true
  | some h => cutForSearch cfg d fuel hmmCut s (some h)

/-- dag.go:384-391 and 405-412: `freq *= v` for a word found, then `freq /= total`. -/
def suggestProd (d : Dictionary F D) (total : F) : List Bytes → F → Option F
  | [], freq => some freq
  | w :: ws, freq =>
    match d.find w with
    | none => none
    | some (v, _, ok) => suggestProd d total ws (F64.div (if ok then F64.mul freq v else freq) total)

/-- dag.go:378-430 `SuggestFreq`. -/
def suggestFreq [Unicode] (cfg : SplitCfg) (d : Dictionary F D) (words : List Bytes) : Option F :=
  let total := d.totalFreq
  match words with
  | [] => none
  | [word] =>
    (cutDAGNoHMM cfg d word).bind fun segs =>
    (suggestProd d total segs (F64.ofNat 1)).bind fun freq =>
    (d.find word).map fun e =>
      let freq := F64.add (F64.trunc (F64.mul freq total)) (F64.ofNat 1)
      let wordFreq := if e.2.2 then e.1 else F64.ofNat 1
      if F64.lt freq wordFreq then wordFreq else freq
  | words =>
    (suggestProd d total words (F64.ofNat 1)).bind fun freq =>
    (d.find words.flatten).map fun e =>
      let freq := F64.trunc (F64.mul freq total)
      let wordFreq := if e.2.2 then e.1 else F64.ofNat 0
      if F64.lt wordFreq freq then wordFreq else freq

/-- dag.go:54-62: the loop for one search string, from `index` down; `none` is an endless loop. -/
def occsFrom (data search : Bytes) : Nat → Nat → Option (List Nat)
  | 0, _ => none
  | n + 1, index =>
    match lastIndex search (data.take index) with
    | none => some []
    | some m => (occsFrom data search n m).map (m :: ·)

/-- dag.go:49-66 `FindAllOccs`: for each search string in turn, its key and the offsets appended. `data.length + 2` rounds
are enough when the search is not empty. -/
def findAllOccs (data : Bytes) (searches : List Bytes) : Option (List (Bytes × List Nat)) :=
  mapOpt (fun s => (occsFrom data s (data.length + 2) data.length).map fun l => (s, l)) searches

/-- The entry of a key in the map `FindAllOccs` returns. -/
def occsOf (m : List (Bytes × List Nat)) (k : Bytes) : List Nat := (m.filter fun e => e.1 = k).flatMap (·.2)

/-- token.go:19-32 `AnalyzeToken` (the fields set by `Analyze`). -/
structure AnalyzeToken (F : Type) where
  position : Nat
  start : Nat
  stop : Nat
  text : Bytes
  freq : F
  pos : Bytes

/-- The length used when no text is given (dag.go:76-80, 91-95). -/
def azLen (by' : Bool) (v : Bytes) : Nat := if by' then (runes v).length else v.length

/-- dag.go:88-121: the loop of `Analyze`. `isEx` lists the words seen, so `isEx[v]` is the number of earlier `v`. -/
def analyzeLoop (d : Dictionary F D) (t1 : Bytes) (by' : Bool) (all : List (Bytes × List Nat)) :
    Nat → List Bytes → List Bytes → Nat → Nat → Option (List (AnalyzeToken F))
  | _, [], _, _, _ => some []
  | k, v :: rest, seen, start, stop =>
    let pair : Option (Nat × Nat) :=
      if t1 = [] then (if k > 0 then some (stop, stop + azLen by' v) else some (start, stop))
      else if (occsOf all v).length > 0 then
        (occsOf all v)[seen.count v]?.map fun s => (s, s + v.length)
      else some (start, start + v.length)
    match pair with
    | none => none
    | some (start, stop) =>
      match d.find v with
      | none => none
      | some (freq, pos, _) =>
        (analyzeLoop d t1 by' all (k + 1) rest (seen ++ [v]) start stop).map (⟨k, start, stop, v, freq, pos⟩ :: ·)

/-- dag.go:69-124 `Analyze`. -/
def analyze [Unicode] (cfg : SplitCfg) (d : Dictionary F D) (text : List Bytes) (t1 : Bytes) (by' : Bool) :
    Option (List (AnalyzeToken F)) :=
  match text with
  | [] => some []
  | w :: _ =>
    let stop := if t1 = [] then azLen by' w else 0
    let t1 := if cfg.toLower then strLower t1 else t1
    (findAllOccs t1 text).bind fun all => analyzeLoop d t1 by' all 0 text [] 0 stop

end Gse
