import Verif.Model.Stop
import Verif.Model.Output

/-!
# Trimming and filtering (trim.go)
-/

namespace Gse

variable [U : Unicode]

/-- trim.go:24-32 `notPunct`. -/
def notPunct : List Rune → Bool
  | [] => false
  | r :: rs => if !U.isSpace r && !U.isPunct r then true else notPunct rs

/-- The decision of trim.go:37-45. -/
def trimPunctKeep (s : Bytes) : Bool :=
  match runes s with
  | [] => false
  | r0 :: rs =>
    if !U.isSpace r0 && !U.isPunct r0 then true
    else if (r0 :: rs).length > 1 && notPunct (r0 :: rs) then true else false

/-- trim.go:35-49 `TrimPunct`. -/
def trimPunct : List Bytes → List Bytes
  | [] => []
  | s :: rest => if trimPunctKeep s then s :: trimPunct rest else trimPunct rest

/-- trim.go:52-67 `TrimPosPunct`: the returned slice and the argument slice after the call. -/
def trimPosPunct (notStop : Bool) (m : StopMap) : List SegPos → List SegPos × List SegPos
  | [] => ([], [])
  | p :: rest =>
    let p := if !notStop && m.isStop p.text then { p with text := [] } else p
    let (re, se) := trimPosPunct notStop m rest
    match runes p.text with
    | [] => (re, p :: se)
    | ru :: _ => if !U.isSpace ru && !U.isPunct ru then (p :: re, p :: se) else (re, p :: se)

omit U in
/-- trim.go:76-80: the inner loop of `TrimWithPos`. -/
def trimOnePos (pos : Bytes) : List SegPos → List SegPos → List SegPos
  | [], re => re
  | p :: se, re => trimOnePos pos se (if p.pos ≠ pos then re ++ [p] else re)

omit U in
/-- trim.go:70-85: the outer loop; `first` is `h == 0`. -/
def trimWithPosLoop : List Bytes → Bool → List SegPos → List SegPos → List SegPos
  | [], _, _, re => re
  | pos :: ps, first, se, re =>
    let se' := if first then se else re
    let re' := if first then re else []
    trimWithPosLoop ps false se' (trimOnePos pos se' re')

omit U in
/-- trim.go:70-85 `TrimWithPos`. -/
def trimWithPos (se : List SegPos) (pos : List Bytes) : List SegPos := trimWithPosLoop pos true se []

omit U in
/-- trim.go:88-95 `Stop`. -/
def stop (m : StopMap) : List Bytes → List Bytes
  | [] => []
  | v :: rest => if !m.isStop v && v ≠ [] then v :: stop m rest else stop m rest

/-- trim.go:227-236 `FilterSymbol`. -/
def filterSymbol (text : Bytes) : Bytes :=
  (runes text).foldl (fun new value =>
    if !U.isSymbol value && !U.isSpace value && !U.isPunct value then new ++ encodeRune value else new) []

omit U in
/-- trim.go:215-224 `FilterEmoji`. -/
def filterEmoji (text : Bytes) : Bytes :=
  (runes text).foldl (fun new value =>
    if (decodeRune (encodeRune value)).2 ≤ 3 then new ++ encodeRune value else new) []

/-- One round of `FilterLang`, trim.go:248-250; `unicode.Scripts[lang]` is nil for an unknown name and `unicode.Is(nil, ·)`
panics. -/
def langStep (lang new : Bytes) (value : Rune) : Option Bytes :=
  if U.isLetter value then some (new ++ encodeRune value)
  else match U.script lang with
    | none => none
    | some table => some (if table value then new ++ encodeRune value else new)

/-- trim.go:246-254 `FilterLang`. -/
def filterLang (text lang : Bytes) : Option Bytes := (runes text).foldlM (langStep lang) []

omit U in
/-- trim.go:257-263 `Range`. -/
def range (text : Bytes) : List Bytes := (runes text).foldl (fun new value => new ++ [encodeRune value]) []

omit U in
/-- trim.go:266-272 `RangeText`. -/
def rangeText (text : Bytes) : Bytes := (runes text).foldl (fun new value => new ++ (encodeRune value ++ str " ")) []

/-- trim.go:98-111 `Trim`. -/
def trim (notStop : Bool) (m : StopMap) : List Bytes → List Bytes
  | [] => []
  | s :: rest =>
    let si := filterSymbol s
    let si := if !notStop && m.isStop si then [] else si
    if si ≠ [] then si :: trim notStop m rest else trim notStop m rest

/-- trim.go:114-123 `TrimSymbol`. -/
def trimSymbol : List Bytes → List Bytes
  | [] => []
  | s :: rest =>
    let si := filterSymbol s
    if si ≠ [] then si :: trimSymbol rest else trimSymbol rest

/-- trim.go:126-139 `TrimPos`. -/
def trimPos (notStop : Bool) (m : StopMap) : List SegPos → List SegPos
  | [] => []
  | p :: rest =>
    let si := filterSymbol p.text
    let si := if !notStop && m.isStop si then [] else si
    if si ≠ [] then p :: trimPos notStop m rest else trimPos notStop m rest

/-- A byte of the class `[\w|=|"]` (trim.go:240). -/
def tagEndByte (b : UInt8) : Bool :=
  (48 ≤ b.toNat && b.toNat ≤ 57) || (65 ≤ b.toNat && b.toNat ≤ 90) || (97 ≤ b.toNat && b.toNat ≤ 122) || b == 95 ||
    b == 124 || b == 61 || b == 34

/-- The length of the match of `(?U)\<[^>]*[\w|=|"]+\>` at the front (trim.go:240). Neither class contains `>`, so a match
from a `<` ends at the next `>`, and exists when that is there and the byte before it is in the second class. `[^>]`
matches every other rune, also newlines and malformed bytes. -/
def tagLen : Bytes → Option Nat
  | [] => none
  | b :: t =>
    if b = 60 then
      let x := t.takeWhile (fun c => c != 62)
      match x.getLast?, t.drop x.length with
      | some c, 62 :: _ => if tagEndByte c then some (x.length + 2) else none
      | _, _ => none
    else none

/-- `ReplaceAllString(text, "")` for that pattern: leftmost matches, each search resumed after the last match. -/
def filterHtmlLoop : Nat → Bytes → Bytes
  | 0, _ => []
  | _ + 1, [] => []
  | n + 1, b :: t =>
    match tagLen (b :: t) with
    | some k => filterHtmlLoop n ((b :: t).drop k)
    | none => b :: filterHtmlLoop n t

/-- trim.go:239-243 `FilterHtml`. -/
def filterHtml (text : Bytes) : Bytes := filterHtmlLoop (text.length + 1) text

/-- `\d`. -/
def numByte (b : UInt8) : Bool := 48 ≤ b.toNat && b.toNat ≤ 57

/-- The matches of `\d+|\D+` (trim.go:205): at every position one of the alternatives matches greedily. Runes outside
ASCII consist of bytes that are no digits, so matching may be done bytewise. -/
def splitNumLoop : Nat → Bytes → List Bytes
  | 0, _ => []
  | _ + 1, [] => []
  | n + 1, b :: t =>
    let x := if numByte b then (b :: t).takeWhile numByte else (b :: t).takeWhile fun c => !numByte c
    x :: splitNumLoop n ((b :: t).drop x.length)

/-- trim.go:204-207 `SplitNum`. -/
def splitNum (text : Bytes) : List Bytes := splitNumLoop (text.length + 1) text

/-- trim.go:210-212 `SplitNums`. -/
def splitNums (text : Bytes) : Bytes := (str " ").intercalate (splitNum text)

/-! ## Compositions with cutting

`cut` stands for `seg.Cut(str, hmm...)` and `pos` for `seg.Pos(str, search)`, with `none` for a panic. -/

omit U in
/-- trim.go:142-144 `CutStop`. -/
def cutStop (m : StopMap) (cut : Bytes → Option (List Bytes)) (s : Bytes) : Option (List Bytes) := (cut s).map (stop m)

/-- trim.go:147-150 `CutTrim`. -/
def cutTrim (notStop : Bool) (m : StopMap) (cut : Bytes → Option (List Bytes)) (s : Bytes) : Option (List Bytes) :=
  (cut s).map (trim notStop m)

/-- trim.go:153-157 `PosTrim`. -/
def posTrim (notStop : Bool) (m : StopMap) (pos : Bytes → Bool → Option (List SegPos)) (s : Bytes) (search : Bool)
    (ps : List Bytes) : Option (List SegPos) :=
  (pos s search).map fun p => trimPos notStop m (trimWithPos p ps)

/-- trim.go:160-167 `PosTrimArr`. -/
def posTrimArr (notStop : Bool) (m : StopMap) (pos : Bytes → Bool → Option (List SegPos)) (s : Bytes) (search : Bool)
    (ps : List Bytes) : Option (List Bytes) :=
  (posTrim notStop m pos s search ps).map fun p1 => p1.map SegPos.text

/-- trim.go:170-173 `PosTrimStr`. -/
def posTrimStr (notStop : Bool) (m : StopMap) (pos : Bytes → Bool → Option (List SegPos)) (s : Bytes) (search : Bool)
    (ps : List Bytes) : Option Bytes :=
  (posTrimArr notStop m pos s search ps).map fun pa => cutStr pa

/-- trim.go:176-180 `CutTrimHtml`. -/
def cutTrimHtml (cut : Bytes → Option (List Bytes)) (s : Bytes) : Option (List Bytes) :=
  (cut (filterHtml s)).map trimSymbol

/-- trim.go:183-186 `CutTrimHtmls`. -/
def cutTrimHtmls (cut : Bytes → Option (List Bytes)) (s : Bytes) : Option Bytes :=
  (cutTrimHtml cut s).map fun l => cutStr l (str " ")

/-- trim.go:189-196 `CutUrl`; `num` is `len(num) > 0`. -/
def cutUrl (cut : Bytes → Option (List Bytes)) (s : Bytes) (num : Bool) : Option (List Bytes) :=
  (cut (if num then s else splitNums s)).map trimSymbol

/-- trim.go:199-201 `CutUrls`. -/
def cutUrls (cut : Bytes → Option (List Bytes)) (s : Bytes) (num : Bool) : Option Bytes :=
  (cutUrl cut s num).map fun l => cutStr l (str " ")

end Gse
