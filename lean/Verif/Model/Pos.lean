import Verif.Model.RegexpSplit
import Verif.Model.Idf
import Verif.Model.Trim

/-!
# Part-of-speech tagging (hmm/pos)

hmm/pos/viterbi.go, pos_seg.go, dict.go and the functions of char_state_tab.go, prob_trans.go, prob_emit.go. The data
tables are parameters. `none` stands for a panic or a loop that does not end.
-/

namespace Gse

/-! ## Tables and states -/

/-- hmm/pos/char_state_tab.go:5-20: the position of a state `t`, `t / 100` being 1, 2, 3, 4 for B, E, M, S. -/
def posTag (t : Nat) : Option Tag :=
  match t / 100 with
  | 1 => some .B
  | 2 => some .E
  | 3 => some .M
  | 4 => some .S
  | _ => none

/-- The tables of hmm/pos: `probTransKeys` and `probTrans` (hmm/pos/prob_trans.go:19-285), `probStart` (prob_start.go),
`probEmit` and `minFloat` (prob_emit.go), `inf` (hmm/pos/prob_trans.go:7), `charStateTab` and `poss` (char_state_tab.go).
A map missing in `probTrans` or `probEmit` is an empty one. -/
structure PosTables (F : Type) where
  keys : List Nat
  trans : Nat → GoMap Nat F
  start : Nat → Option F
  emit : Nat → Rune → Option F
  minFloat : F
  inf : F
  tab : Rune → Option (List Nat)
  poss : List Bytes

variable {F D : Type} [F64 F] [F32 D] [Narrow F D]

namespace PosTables

/-- hmm/pos/char_state_tab.go:52-58 `charStateTabMap.get`. -/
def states (T : PosTables F) (r : Rune) : List Nat := (T.tab r).getD T.keys

/-- hmm/pos/prob_trans.go:11-17 `probTransMap.Get`. -/
def transAt (T : PosTables F) (y0 y : Nat) : F := ((T.trans y0).get y).getD T.inf

/-- hmm/pos/prob_emit.go:9-15 `runeFloatMap.get`. -/
def emitAt (T : PosTables F) (y : Nat) (r : Rune) : F := (T.emit y r).getD T.minFloat

/-- `probStart[y]`, zero when missing. -/
def startAt (T : PosTables F) (y : Nat) : F := (T.start y).getD (F64.ofNat 0)

end PosTables

/-! ## Viterbi -/

/-- `vtb[t]` and `memPath[t]`, which have the same keys: value and predecessor of each state. -/
abbrev PosCol (F : Type) := GoMap Nat (F × Nat)

/-- hmm/pos/viterbi.go:57-61: the first column. -/
def posFirst (T : PosTables F) (r : Rune) : PosCol F :=
  (T.states r).foldl (fun col y => col.set y (F64.add (T.emitAt y r) (T.startAt y), 0)) []

/-- hmm/pos/viterbi.go:125-127: the candidate coming from `y0`. -/
def posCand (T : PosTables F) (col : PosCol F) (r : Rune) (y y0 : Nat) : F × Nat :=
  (F64.add (F64.add (((col.get y0).map (·.1)).getD (F64.ofNat 0)) (T.transAt y0 y)) (T.emitAt y r), y0)

/-- hmm/pos/viterbi.go:123-132: the loop over `prevStates`; `first` is `i == 0`. -/
def posMax (T : PosTables F) (col : PosCol F) (r : Rune) (y : Nat) : List Nat → Bool → F × Nat → F × Nat
  | [], _, max => max
  | y0 :: l, first, max =>
    let ps := posCand T col r y y0
    posMax T col r y l false
      (if first || F64.lt max.1 ps.1 || (F64.eq ps.1 max.1 && decide (max.2 < ps.2)) then ps else max)

/-- hmm/pos/viterbi.go:88-93 `prevStates`. -/
def posPrev (ch : Choice) (T : PosTables F) (t : Nat) (col : PosCol F) : List Nat :=
  ((ch.iter (2 * t) col).map (·.1)).filter fun x => (T.trans x).length > 0

/-- hmm/pos/viterbi.go:95-100 `prevStatesExpectNext`. The order of the inner loop only orders the model's list for this
map, over which `iter` chooses the order anyway. -/
def posExpect (T : PosTables F) (prev : List Nat) : GoMap Nat Unit :=
  prev.foldl (fun m x => (T.trans x).foldl (fun m p => m.set p.1 ()) m) []

/-- hmm/pos/viterbi.go:102-118 `obsStates`. -/
def posObs (ch : Choice) (T : PosTables F) (t : Nat) (prev : List Nat) (r : Rune) : List Nat :=
  let expect := posExpect T prev
  let obs := (T.states r).filter fun y => (expect.get y).isSome
  let obs := if obs.length = 0 then (ch.iter (2 * t + 1) expect).map (·.1) else obs
  if obs.length = 0 then T.keys else obs

/-- hmm/pos/viterbi.go:87-137: one step of `probs`. -/
def posStep (ch : Choice) (T : PosTables F) (t : Nat) (col : PosCol F) (r : Rune) : PosCol F :=
  let prev := posPrev ch T t col
  (posObs ch T t prev r).foldl (fun m y => m.set y (posMax T col r y prev true (F64.ofNat 0, 0))) []

/-- hmm/pos/viterbi.go:85-140 `probs`: the columns from `t` on, last first, `col` being the one before and `acc` those
before it. -/
def posCols (ch : Choice) (T : PosTables F) : Nat → List Rune → PosCol F → List (PosCol F) → List (PosCol F)
  | _, [], col, acc => col :: acc
  | t, r :: rs, col, acc => posCols ch T (t + 1) rs (posStep ch T t col r) (col :: acc)

/-- hmm/pos/viterbi.go:37-43 `Less`. -/
def posLess (a b : F × Nat) : Bool := if F64.eq a.1 b.1 then decide (a.2 < b.2) else F64.lt a.1 b.1

/-- hmm/pos/viterbi.go:77-80: the loop backwards over the columns (last first); a missing predecessor is 0. -/
def posBack : List (PosCol F) → Nat → List Nat
  | [], _ => []
  | col :: cols, s => posBack cols (((col.get s).map (·.2)).getD 0) ++ [s]

/-- hmm/pos/viterbi.go:49-83 `viterbi`; `none` is the panic of `vtb[0]` or `last[0]`. -/
def posViterbi (ch : Choice) (T : PosTables F) : List Rune → Option (List Nat)
  | [] => none
  | r :: rs =>
    let cols := posCols ch T 1 rs (posFirst T r) []
    let col := cols.headD []
    let last := (ch.iter 0 col).map fun p => (p.2.1, p.1)
    match ch.sort (fun a b => posLess b a) last with
    | [] => none
    | p :: _ => some (posBack cols p.2)

/-! ## Words from states -/

/-- hmm/pos/pos_seg.go:64-76: the loop of `cutDetailInternal` from index `i` on; the words and the final `next`. -/
def posWords (T : PosTables F) (rs : List Rune) : Nat → List Rune → List Nat → Nat → Nat → Option (List SegPos × Nat)
  | _, [], _, _, next => some ([], next)
  | _, _ :: _, [], _, _ => none
  | i, c :: cs, t :: ts, begin', next =>
    match posTag t with
    | some .B => posWords T rs (i + 1) cs ts i next
    | some .E =>
      match T.poss[t % 100]? with
      | none => none
      | some p => (posWords T rs (i + 1) cs ts begin' (i + 1)).map fun r => (⟨encode (slice rs begin' (i + 1)), p⟩ :: r.1, r.2)
    | some .S =>
      match T.poss[t % 100]? with
      | none => none
      | some p => (posWords T rs (i + 1) cs ts begin' (i + 1)).map fun r => (⟨encodeRune c, p⟩ :: r.1, r.2)
    | _ => posWords T rs (i + 1) cs ts begin' next

/-- hmm/pos/pos_seg.go:62-82: the words made from the states. -/
def posAssemble (T : PosTables F) (rs : List Rune) (ts : List Nat) : Option (List SegPos) :=
  match posWords T rs 0 rs ts 0 0 with
  | none => none
  | some r =>
    if r.2 < rs.length then
      (ts[r.2]?.bind fun t => T.poss[t % 100]?).map fun p => r.1 ++ [⟨encode (rs.drop r.2), p⟩]
    else some r.1

/-- hmm/pos/pos_seg.go:58-83 `cutDetailInternal`. -/
def cutDetailInternal (ch : Choice) (T : PosTables F) (text : Bytes) : Option (List SegPos) :=
  (posViterbi ch T (runes text)).bind fun ts => posAssemble T (runes text) ts

/-! ## Regular expressions -/

/-- The length in bytes of the leading run of characters of a class. -/
def classLen (p : Rune → Bool) : Nat → Bytes → Nat
  | 0, _ => 0
  | _ + 1, [] => 0
  | n + 1, b :: t =>
    if p (decodeRune (b :: t)).1 then (decodeRune (b :: t)).2 + classLen p n ((b :: t).drop (decodeRune (b :: t)).2) else 0

/-- Search for the first character of a class. -/
def findClass (p : Rune → Bool) : Nat → Bytes → Nat → Option (Nat × Nat)
  | 0, _, _ => none
  | _ + 1, [], _ => none
  | n + 1, b :: t, off =>
    if p (decodeRune (b :: t)).1 then some (off, off + classLen p (b :: t).length (b :: t))
    else findClass p n ((b :: t).drop (decodeRune (b :: t)).2) (off + (decodeRune (b :: t)).2)

/-- The pattern `[class]+`: the first maximal run of characters of the class. -/
def classRun (p : Rune → Bool) : Matcher := fun s => findClass p s.length s 0

/-- `[[:alnum:]]` -/
def alnumRune (r : Rune) : Bool := engFrag [r]

/-- The class of `reHanInternal` (hmm/pos/pos_seg.go:34), `[\p{Han}+[:alnum:]+#&\._]`. -/
def hanInternalClass [U : Unicode] (r : Rune) : Bool := U.isHan r || alnumRune r || [43, 35, 38, 46, 95].contains r

/-- hmm/pos/pos_seg.go:34 `reHanInternal`. -/
def reHanInternal [Unicode] : Matcher := classRun hanInternalClass

/-- hmm/pos/pos_seg.go:27 `reHanDetail`, the pattern `(\p{Han}+)`. -/
def reHanDetail [U : Unicode] : Matcher := classRun U.isHan

/-- `\s` -/
def spaceByte (b : UInt8) : Bool := b == 9 || b == 10 || b == 12 || b == 13 || b == 32

/-- Search for `\r\n` or `\s`. Bytes below 128 are characters of their own. -/
def findSpace : Bytes → Nat → Option (Nat × Nat)
  | [], _ => none
  | b :: t, off =>
    if spaceByte b then some (off, off + if b == 13 && t.head? == some 10 then 2 else 1) else findSpace t (off + 1)

/-- hmm/pos/pos_seg.go:35 `reSkipInternal`, the pattern `(\r\n|\s)`. -/
def reSkipInternal : Matcher := fun s => findSpace s 0

/-- `[[\.[:digit:]]`: a bracket, a dot or a digit. -/
def skipByte (b : UInt8) : Bool := b == 91 || b == 46 || digitByte b

/-- `[:alnum:]` outside brackets: one of the bytes `:`, `a`, `l`, `n`, `u`, `m`. -/
def colonByte (b : UInt8) : Bool := (str ":alnum").contains b

/-- Search for a match of `([[\.[:digit:]]+|[:alnum:]]+)`. The first alternative is a run of brackets, dots and digits. The
second is `[:alnum:]`, which outside brackets is the class of the characters `:alnum`, followed by closing brackets. -/
def findSkipDetail : Bytes → Nat → Option (Nat × Nat)
  | [], _ => none
  | b :: t, off =>
    if skipByte b then some (off, off + ((b :: t).takeWhile skipByte).length)
    else if colonByte b && t.head? == some 93 then some (off, off + 1 + (t.takeWhile (· == 93)).length)
    else findSkipDetail t (off + 1)

/-- hmm/pos/pos_seg.go:28 `reSkipDetail`. -/
def reSkipDetail : Matcher := fun s => findSkipDetail s 0

/-- hmm/pos/pos_seg.go:31 `reNum.MatchString`: some dot or digit. -/
def reNumMatch (s : Bytes) : Bool := s.any fun b => b == 46 || digitByte b

/-- hmm/pos/pos_seg.go:30 `reEng.MatchString`: some ASCII letter or digit. -/
def reEngMatch (s : Bytes) : Bool := s.any alnumByte

/-! ## Cutting -/

/-- hmm/pos/dict.go:53-61 `Dict.Pos`; the value 0 of a missing word is also the index of the first token.
`some none` is `("", false)`. -/
def posOf (d : Dictionary F D) (w : Bytes) : Option (Option Bytes) :=
  if (d.valueOf w).1 = 0 then some none
  else match d.tokens[(d.valueOf w).1]? with
    | none => none
    | some t => some (some t.pos)

/-- The lookup repeated in pos_seg.go (201-205, 216-221, 228-232, 253-257, 268-273, 301-305): the word with its tag, or "x". -/
def posItem (d : Dictionary F D) (w : Bytes) : Option SegPos :=
  (posOf d w).map fun t => ⟨w, t.getD (str "x")⟩

/-- hmm/pos/pos_seg.go:97-104: one non-empty piece of `cutDetail` without Han characters. -/
def skipItem (x : Bytes) : SegPos := ⟨x, if reNumMatch x then str "m" else if reEngMatch x then str "eng" else str "x"⟩

/-- hmm/pos/pos_seg.go:85-109: one block of `cutDetail`. -/
def cutDetailBlock [Unicode] (ch : Choice) (T : PosTables F) (blk : Bytes) : Option (List SegPos) :=
  if (reHanDetail blk).isSome then cutDetailInternal ch T blk
  else (splitBy reSkipDetail blk).map fun xs => (xs.filter fun x => x.length ≠ 0).map skipItem

/-- hmm/pos/pos_seg.go:85-109 `cutDetail`. -/
def cutDetail [Unicode] (ch : Choice) (T : PosTables F) (text : Bytes) : Option (List SegPos) :=
  (splitBy reHanDetail text).bind fun blks => (mapOpt (cutDetailBlock ch T) blks).map List.flatten

/-- hmm/pos/pos_seg.go:153-185 `calc` and 111-146 `getDag`, the same as dag.go:127-201 but for `seg.dict.logTotal`, which
is never assigned a value (hmm/pos/dict.go:43 `updateLogTotal` is not called), so it is zero. -/
def posRoutes (d : Dictionary F D) (rs : List Rune) : Option (List (Nat × Route F)) :=
  match getDag d rs with
  | none => none
  | some dag => calcLoop d rs (F64.ofNat 0) dag rs.length [(rs.length, ⟨F64.ofNat 0, 0⟩)]

/-- hmm/pos/pos_seg.go:207-226 and 250-277 `bufn`: what becomes of the pending single characters. The `continue` of line 211
repeats the round with an empty buffer. -/
def posFlush (d : Dictionary F D) (detail : Bytes → Option (List SegPos)) (buf : List Rune) : Option (List SegPos) :=
  if buf.length = 0 then some []
  else if buf.length = 1 then (posItem d (encode buf)).map fun p => [p]
  else
    match findRunes d buf with
    | none => none
    | some (v, _, ok) =>
      if !ok || F64.eq v (F64.ofNat 0) then detail (encode buf) else mapOpt (posItem d) (buf.map encodeRune)

/-- hmm/pos/pos_seg.go:197-246: the body of `cutDAG` over the fragments. -/
def posHmmLoop (d : Dictionary F D) (detail : Bytes → Option (List SegPos)) : List (List Rune) → List Rune → Option (List SegPos)
  | [], buf => posFlush d detail buf
  | frag :: rest, buf =>
    if frag.length = 1 then posHmmLoop d detail rest (buf ++ frag)
    else
      match posFlush d detail buf, posItem d (encode frag) with
      | some o, some p => (posHmmLoop d detail rest []).map fun r => o ++ p :: r
      | _, _ => none

/-- hmm/pos/pos_seg.go:189-248 `cutDAG`. -/
def posCutDAG (d : Dictionary F D) (detail : Bytes → Option (List SegPos)) (text : Bytes) : Option (List SegPos) :=
  match posRoutes d (runes text) with
  | none => none
  | some routes => (walk (runes text) routes (runes text).length 0).bind fun frags => posHmmLoop d detail frags []

/-- The pending run of ASCII letters and digits (hmm/pos/pos_seg.go:294-297, 309-312). -/
def engItem (buf : List Rune) : List SegPos := if buf.length > 0 then [⟨encode buf, str "eng"⟩] else []

/-- hmm/pos/pos_seg.go:285-312: the body of `cutDAGNoHMM` over the fragments. -/
def posNoHmmLoop (d : Dictionary F D) : List (List Rune) → List Rune → Option (List SegPos)
  | [], buf => some (engItem buf)
  | frag :: rest, buf =>
    if engFrag frag then posNoHmmLoop d rest (buf ++ frag)
    else
      match posItem d (encode frag) with
      | none => none
      | some p => (posNoHmmLoop d rest []).map fun r => engItem buf ++ p :: r

/-- hmm/pos/pos_seg.go:279-315 `cutDAGNoHMM`. -/
def posCutNoHMM (d : Dictionary F D) (text : Bytes) : Option (List SegPos) :=
  match posRoutes d (runes text) with
  | none => none
  | some routes => (walk (runes text) routes (runes text).length 0).bind fun frags => posNoHmmLoop d frags []

/-- hmm/pos/pos_seg.go:339-349: the characters of a piece `x` without white space. -/
def otherItem (x : Bytes) (xx : Rune) : SegPos :=
  if reNumMatch (encodeRune xx) then ⟨encodeRune xx, str "m"⟩
  else if reEngMatch x then ⟨x, str "eng"⟩
  else ⟨encodeRune xx, str "x"⟩

/-- hmm/pos/pos_seg.go:333-350: one piece. -/
def spaceItems (x : Bytes) : List SegPos :=
  if (reSkipInternal x).isSome then [⟨x, str "x"⟩] else (runes x).map (otherItem x)

/-- hmm/pos/pos_seg.go:327-352: one block; `cut` is `cutDAG` or `cutDAGNoHMM`. -/
def posBlock [Unicode] (cut : Bytes → Option (List SegPos)) (blk : Bytes) : Option (List SegPos) :=
  if (reHanInternal blk).isSome then cut blk
  else (splitBy reSkipInternal blk).map fun xs => xs.flatMap spaceItems

/-- hmm/pos/pos_seg.go:319-355 `Cut` with the function chosen. -/
def posCutWith [Unicode] (cut : Bytes → Option (List SegPos)) (text : Bytes) : Option (List SegPos) :=
  (splitBy reHanInternal text).bind fun blks => (mapOpt (posBlock cut) blks).map List.flatten

/-- hmm/pos/pos_seg.go:319-355 `Cut(text, hmm)`. -/
def posCut [Unicode] (ch : Choice) (T : PosTables F) (d : Dictionary F D) (text : Bytes) (hmm : Bool) : Option (List SegPos) :=
  posCutWith (if hmm then posCutDAG d (cutDetail ch T) else posCutNoHMM d) text

/-! ## Trimming -/

/-- hmm/pos/pos_seg.go:358-369 `TrimPunct`. -/
def posTrimPunct [U : Unicode] : List SegPos → List SegPos
  | [] => []
  | p :: rest =>
    match runes p.text with
    | [] => posTrimPunct rest
    | ru :: _ => if !U.isSpace ru && !U.isPunct ru then p :: posTrimPunct rest else posTrimPunct rest

/-- hmm/pos/pos_seg.go:372-385 `Trim`. -/
def posTrimAll [Unicode] (notStop : Bool) (m : StopMap) : List SegPos → List SegPos
  | [] => []
  | p :: rest =>
    let si := filterSymbol p.text
    let si := if !notStop && m.isStop si then [] else si
    if si ≠ [] then p :: posTrimAll notStop m rest else posTrimAll notStop m rest

/-- hmm/pos/pos_seg.go:388-403 `TrimWithPos`: as trim.go:70-85. -/
def posTrimWithPos (se : List SegPos) (pos : List Bytes) : List SegPos := trimWithPos se pos

end Gse
