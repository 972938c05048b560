import Verif.Spec.Load

/-!
# Dictionaries in the plain form

A row has three columns without blanks: word, frequency and tag; the tag may be empty. A text in the plain form has one line for each row,
the columns followed by the separator and a blank.
-/

namespace Gse.Spec
open Gse

/-- A column: characters that can be encoded, no blank among them. -/
def PlainCol [U : Unicode] (w : List Rune) : Prop := ∀ r ∈ w, validRune r = true ∧ U.isSpace r = false

/-- A row of a dictionary. -/
structure PlainRow where
  word : List Rune
  freq : List Rune
  tag : List Rune
deriving DecidableEq

/-- The columns are columns, word and frequency are there. -/
structure PlainRow.Ok [Unicode] (r : PlainRow) : Prop where
  word : PlainCol r.word
  freq : PlainCol r.freq
  tag : PlainCol r.tag
  hasWord : r.word ≠ []
  hasFreq : r.freq ≠ []

/-- The line of a row. -/
def PlainRow.line (sep : Bytes) (r : PlainRow) : Bytes :=
  encode r.word ++ sep ++ [32] ++ encode r.freq ++ sep ++ [32] ++ encode r.tag

/-- The text of a dictionary: every line ends in a newline. -/
def plainText (sep : Bytes) (rows : List PlainRow) : Bytes := rows.flatMap fun r => r.line sep ++ [10]

/-- The row as the map that `LoadDictMap` takes. -/
def PlainRow.map (r : PlainRow) : List (Bytes × Bytes) :=
  [(str "text", encode r.word), (str "freq", encode r.freq), (str "pos", encode r.tag)]

/-- A separator without blank and newline; it may be empty. -/
def SepOk (sep : Bytes) : Prop := 32 ∉ sep ∧ 10 ∉ sep

variable {F : Type} [F64 F]

/-- The entries of the rows that are accepted. -/
def plainEntries (c : LoadCfg F) (rows : List PlainRow) : List (Entry F) :=
  rows.filterMap fun r => rowEntry c (encode r.word) (some (encode r.freq)) (encode r.tag)

end Gse.Spec
