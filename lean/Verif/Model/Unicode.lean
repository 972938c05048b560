import Verif.Model.Utf8

/-!
# Unicode tables (Go package `unicode`) as parameters

The Go `unicode` tables are not part of /repo. The model is parametrised by the predicates it calls.
`UnicodeOK` lists the only facts about them that any theorem assumes; every theorem that needs them
has `[UnicodeOK]` among its hypotheses.
-/

namespace Gse

/-- The predicates of Go package `unicode` called in /repo (segmenter.go:215-216, dict_util.go:444-445,
trim.go:26,40,60,229-230,248, dag.go:85 via `strings.ToLower`). -/
class Unicode where
  isLetter : Rune → Bool
  isNumber : Rune → Bool
  isSpace : Rune → Bool
  isPunct : Rune → Bool
  isSymbol : Rune → Bool
  /-- `unicode.Is(unicode.Scripts["Hiragana"], r) || unicode.Is(unicode.Scripts["Katakana"], r)` -/
  isKana : Rune → Bool
  /-- `\p{Han}` -/
  isHan : Rune → Bool
  /-- `unicode.ToLower` -/
  toLower : Rune → Rune
  /-- `unicode.Scripts[name]`; `none` when the name is not a script. -/
  script : Bytes → Option (Rune → Bool)

/-- Facts of the real tables used by some theorems: ASCII letters are letters and not numbers,
U+FFFD is neither a letter nor a number nor Han, blank and newline are spaces,
lower case of a valid rune is valid, lower case of ASCII. -/
class UnicodeOK [U : Unicode] : Prop where
  upper_letter : ∀ r : Rune, 65 ≤ r → r ≤ 90 → U.isLetter r = true ∧ U.isNumber r = false
  lower_letter : ∀ r : Rune, 97 ≤ r → r ≤ 122 → U.isLetter r = true ∧ U.isNumber r = false
  err_letter : U.isLetter runeError = false
  err_number : U.isNumber runeError = false
  err_han : U.isHan runeError = false
  han_ascii : ∀ r : Rune, r < 128 → U.isHan r = false
  space_blank : U.isSpace 32 = true
  space_newline : U.isSpace 10 = true
  lower_valid : ∀ r : Rune, validRune r = true → validRune (U.toLower r) = true
  lower_ascii : ∀ r : Rune, r < 128 → U.toLower r = if 65 ≤ r ∧ r ≤ 90 then r + 32 else r

/-- Letters of the sample tables below (ASCII, kana, CJK). -/
def sampleLetter (r : Rune) : Bool :=
  (decide (65 ≤ r) && decide (r ≤ 90)) || (decide (97 ≤ r) && decide (r ≤ 122)) ||
    (decide (0x3041 ≤ r) && decide (r ≤ 0x30FF)) || (decide (0x4E00 ≤ r) && decide (r ≤ 0x9FFF))

/-- Numbers of the sample tables below (ASCII digits). -/
def sampleNumber (r : Rune) : Bool := decide (48 ≤ r) && decide (r ≤ 57)

/-- A small concrete instance (ASCII, kana and CJK blocks), used only to show that hypotheses can be met. -/
@[instance_reducible] def sampleUnicode : Unicode where
  isLetter := sampleLetter
  isNumber := sampleNumber
  isSpace r := r == 32 || (decide (9 ≤ r) && decide (r ≤ 13)) || r == 0x85 || r == 0xA0
  isPunct r := [33,34,35,37,38,39,40,41,42,44,45,46,47,58,59,63,64,91,92,93,95,123,125].contains r
  isSymbol r := [36,43,60,61,62,94,96,124,126,0xFFFD].contains r
  isKana r := decide (0x3041 ≤ r) && decide (r ≤ 0x30FF)
  isHan r := decide (0x4E00 ≤ r) && decide (r ≤ 0x9FFF)
  toLower r := if decide (65 ≤ r) && decide (r ≤ 90) then r + 32 else r
  script s := if s = str "Han" then some (fun r => decide (0x4E00 ≤ r) && decide (r ≤ 0x9FFF)) else none

theorem sampleUnicodeOK : @UnicodeOK sampleUnicode := by
  refine @UnicodeOK.mk sampleUnicode ?_ ?_ (by decide) (by decide) (by decide) ?_ (by decide) (by decide) ?_ ?_
  · intro r h1 h2
    show sampleLetter r = true ∧ sampleNumber r = false
    constructor <;> simp [sampleLetter, sampleNumber] <;> omega
  · intro r h1 h2
    show sampleLetter r = true ∧ sampleNumber r = false
    constructor <;> simp [sampleLetter, sampleNumber] <;> omega
  · intro r h
    show (decide (0x4E00 ≤ r) && decide (r ≤ 0x9FFF)) = false
    simp; omega
  · intro r h
    show validRune (if decide (65 ≤ r) && decide (r ≤ 90) then r + 32 else r) = true
    split
    · rename_i h'
      simp [validRune] at h' ⊢
      omega
    · exact h
  · intro r h
    show (if decide (65 ≤ r) && decide (r ≤ 90) then r + 32 else r) = _
    by_cases h1 : 65 ≤ r <;> by_cases h2 : r ≤ 90 <;> simp [h1, h2]

end Gse
