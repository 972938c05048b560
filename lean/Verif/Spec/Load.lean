import Verif.Spec.Dict
import Verif.Model.Load

/-!
# Specification of dictionary loading

A dictionary text denotes a list of entries (word, frequency, tag); loading stores them in order and recalculates.
-/

namespace Gse.Spec

open Gse

variable {F D : Type} [F64 F] [F32 D] [Narrow F D]

/-- An accepted entry: word, frequency, tag. -/
abbrev Entry (F : Type) := Bytes × F × Bytes

/-- The settings that decide about a line. -/
structure LoadCfg (F : Type) where
  minFreq : F
  textFreq : Bytes
  noFreq : Bool

/-- `s'` is `s` with the defaults in place of the settings left at their zero values: least frequency 2, frequency text "2.0". Dictionary and
load flag are free. -/
structure Filled (s s' : Segmenter F D) : Prop where
  minZero : F64.eq s.minTokenFreq (F64.ofNat 0) = true → s'.minTokenFreq = F64.ofNat 2
  minKept : F64.eq s.minTokenFreq (F64.ofNat 0) = false → s'.minTokenFreq = s.minTokenFreq
  textZero : s.textFreq = [] → s'.textFreq = str "2.0"
  textKept : s.textFreq ≠ [] → s'.textFreq = s.textFreq
  sep : s'.dictSep = s.dictSep
  noFreq : s'.loadNoFreq = s.loadNoFreq
  cfg : s'.cfg = s.cfg

/-- The frequency of a row, by cases; `none`: the row is rejected. The frequency column of a one-column row is `TextFreq`.
`parse` gives the value and the error of `strconv.ParseFloat`. -/
def rowFreq (c : LoadCfg F) (word : Bytes) (freqColumn : Option Bytes) : Option F :=
  match freqColumn, c.noFreq with
  | none, false => none
  | col, _ =>
    match (F64.parse (col.getD c.textFreq) : F × Bool) with
    | (v, true) => if F64.eq v (F64.ofNat 0) then none else some v
    | (v, false) =>
      if F64.lt v c.minFreq then none
      else if (runes word).length < 2 then (if F64.eq (F64.ofNat 2 : F) (F64.ofNat 0) then none else some (F64.ofNat 2))
      else if F64.eq v (F64.ofNat 0) then none else some v

/-- The entry of a row of columns. -/
def rowEntry (c : LoadCfg F) (word : Bytes) (freqColumn : Option Bytes) (tag : Bytes) : Option (Entry F) :=
  (rowFreq c word freqColumn).map fun f => (word, f, tag)

/-- The entry of a line whose columns are `cols` (`LoadDictStr`): columns are trimmed, missing tag is "". -/
def lineEntry [Unicode] (c : LoadCfg F) (cols : List Bytes) : Option (Entry F) :=
  match cols with
  | [] => none
  | [w] => rowEntry c (trimSpace w) none []
  | [w, f] => rowEntry c (trimSpace w) (some (trimSpace f)) []
  | w :: f :: p :: _ => rowEntry c (trimSpace w) (some (trimSpace f)) (trimSpace (trimNewlines p))

/-- The calls that store the entries and recalculate. -/
def loadOps (es : List (Entry F)) : List (DictOp F) := es.map (fun e => .add e.1 e.2.1 e.2.2) ++ [.recalc]

/-- The entry found for a word: the first one with that normalised text. -/
def firstEntry [Unicode] (cfg : SplitCfg) (es : List (Entry F)) (w : Bytes) : Option (F × Bytes) :=
  (es.find? fun e => normText cfg e.1 = w).map (·.2)

/-- The entries of the rows of a file read without separator: a row with one column takes the tag in force, which is the
one of the latest row with three columns, or "" after an accepted row with two. -/
def rowsEntries (c : LoadCfg F) : Bytes → List (List Bytes) → List (Entry F)
  | _, [] => []
  | tag, [] :: rows => rowsEntries c tag rows
  | tag, [w] :: rows => (rowEntry c w none tag).toList ++ rowsEntries c tag rows
  | tag, [w, f] :: rows =>
    match rowEntry c w (some f) [] with
    | none => rowsEntries c tag rows
    | some e => e :: rowsEntries c [] rows
  | _, (w :: f :: p :: _) :: rows => (rowEntry c w (some f) p).toList ++ rowsEntries c p rows

/-- A line of a file read without separator: words, each with the blanks before it, and the blanks at the end. -/
structure Line where
  words : List (List Rune × List Rune)
  tail : List Rune

/-- The characters of a line. -/
def Line.chars (l : Line) : List Rune := (l.words.flatMap fun p => p.1 ++ p.2) ++ l.tail

/-- Blanks are space characters other than newline, words are non-empty without space characters, words are separated. -/
structure Line.Ok [U : Unicode] (l : Line) : Prop where
  blanks : ∀ p ∈ l.words, ∀ r ∈ p.1, r ≠ 10 ∧ U.isSpace r = true
  words : ∀ p ∈ l.words, p.2 ≠ [] ∧ ∀ r ∈ p.2, r ≠ 10 ∧ U.isSpace r = false
  sep : ∀ p ∈ l.words.tail, p.1 ≠ []
  tail : ∀ r ∈ l.tail, r ≠ 10 ∧ U.isSpace r = true

/-- The columns of a line. -/
def Line.cols (l : Line) : List Bytes := l.words.map fun p => encode p.2

/-- The entry of a line of a file read with a separator: the word keeps its blanks and, in a line of one column, the
newline. -/
def sepEntry [Unicode] (c : LoadCfg F) (cols : List Bytes) : Option (Entry F) :=
  match cols with
  | [] => none
  | [w] => rowEntry c w none []
  | [w, f] => rowEntry c w (some (trimSpace f)) []
  | w :: f :: p :: _ => rowEntry c w (some (trimSpace f)) (trimSpace (trimNewlines p))

/-- The lines of a file with their newlines. The text after the last newline is a line only when its first column is not
empty. -/
def fileLines (sep : Bytes) (b : Bytes) : List Bytes :=
  let ls := splitStr b (str "\n")
  ls.dropLast.map (· ++ str "\n") ++
    (ls.getLast?.toList.filter fun l => (splitStr l (sep ++ str " ")).head? != some [])

end Gse.Spec

namespace Gse
open Segmenter

/-- The rows that one `fmt.Fscanln` after another finds in a file read without separator, until the end of the file. -/
def scanRows [Unicode] (mid : ScanErr) : Nat → List Rune → Option (List (List Bytes))
  | 0, _ => none
  | n + 1, rs =>
    match fscanln mid 3 [] rs with
    | (ws, e, rest) => if e = .eof then some [] else (scanRows mid n rest).map (ws :: ·)

end Gse
