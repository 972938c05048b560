import Mathlib.Data.List.Chain
import Verif.Model.Hmm
import Verif.Spec.Dag

/-!
# Specification of tag sequences and of the cut of a text into runs
-/

namespace Gse.Spec

open Gse

variable {F D : Type} [F64 F] [F32 D]

/-- The tag pairs that may follow each other: inside a word after B and M, at a new word after E and S. -/
inductive Legal : Tag → Tag → Prop
  | bm : Legal .B .M
  | be : Legal .B .E
  | mm : Legal .M .M
  | me : Legal .M .E
  | eb : Legal .E .B
  | es : Legal .E .S
  | sb : Legal .S .B
  | ss : Legal .S .S

/-- The tag ends a word. -/
def EndsWord (t : Tag) : Prop := t = .E ∨ t = .S

/-- Accumulating transition and emission values after tag `y0` with value `v`. -/
def scoreFrom (c : HmmConst F) (em : EmitModel F) (v : F) (y0 : Tag) : List (Rune × Tag) → F
  | [] => v
  | p :: ps => scoreFrom c em (F64.add (F64.add v (c.trans y0 p.2)) (emitOf c em p.2 p.1)) p.2 ps

/-- The accumulated score of tagged characters. -/
def pairScore (c : HmmConst F) (em : EmitModel F) : List (Rune × Tag) → F
  | [] => F64.ofNat 0
  | p :: ps => scoreFrom c em (F64.add (emitOf c em p.2 p.1) (c.start p.2)) p.2 ps

/-- The accumulated score of tags for characters. -/
def tagScore (c : HmmConst F) (em : EmitModel F) (obs : List Rune) (ts : List Tag) : F := pairScore c em (obs.zip ts)

/-- The model uses only values of the assumed range. -/
structure GoodModel [F64Laws F] (c : HmmConst F) (em : EmitModel F) : Prop where
  minFloat : F64Laws.good c.minFloat
  start : ∀ y, F64Laws.good (c.start y)
  trans : ∀ y0 y, F64Laws.good (c.trans y0 y)
  emit : ∀ y r v, em y r = some v → F64Laws.good v

/-- `ts` tags the characters: one tag each, legal, ending a word. -/
structure IsTagging (obs : List Rune) (ts : List Tag) : Prop where
  length : ts.length = obs.length
  legal : List.IsChain Legal ts
  last : ∀ t, ts.getLast? = some t → EndsWord t

/-- The order of the states: that of their letters. -/
def tagRank : Tag → Nat
  | .B => 1
  | .E => 2
  | .M => 3
  | .S => 4

/-- `ts` is the best tagging: none scores higher, one that does not score lower does not end in a larger state, and the
same holds for the tags up to every character among those continued by the same tag. -/
structure IsBestTagging (c : HmmConst F) (em : EmitModel F) (obs : List Rune) (ts : List Tag) : Prop where
  tagging : IsTagging obs ts
  highest : ∀ ts', IsTagging obs ts' → F64.lt (tagScore c em obs ts) (tagScore c em obs ts') = false
  tie : ∀ ts', IsTagging obs ts' → F64.lt (tagScore c em obs ts') (tagScore c em obs ts) = false →
    ∀ t t', ts.getLast? = some t → ts'.getLast? = some t' → tagRank t' ≤ tagRank t
  highest' : ∀ p y q, ts = p ++ y :: q → ∀ p', p'.length = p.length → List.IsChain Legal (p' ++ [y]) →
    F64.lt (tagScore c em obs (p ++ [y])) (tagScore c em obs (p' ++ [y])) = false
  tie' : ∀ p y q, ts = p ++ y :: q → ∀ p', p'.length = p.length → List.IsChain Legal (p' ++ [y]) →
    F64.lt (tagScore c em obs (p' ++ [y])) (tagScore c em obs (p ++ [y])) = false →
    ∀ t t', p.getLast? = some t → p'.getLast? = some t' → tagRank t' ≤ tagRank t

/-- The words of tagged characters: a word ends after each tag E or S, and what is left over is a word. -/
inductive TagWords : List Rune → List Tag → List (List Rune) → Prop
  | nil : TagWords [] [] []
  | word {w rest : List Rune} {inner ts : List Tag} {last : Tag} {ws : List (List Rune)} : w.length = inner.length + 1 →
      (∀ t ∈ inner, ¬ EndsWord t) → EndsWord last → TagWords rest ts ws → TagWords (w ++ rest) (inner ++ last :: ts) (w :: ws)
  | rest {w : List Rune} {ts : List Tag} : w ≠ [] → w.length = ts.length → (∀ t ∈ ts, ¬ EndsWord t) → TagWords w ts [w]

/-- The text is well-formed UTF-8. -/
def ValidText (s : Bytes) : Prop := encode (runes s) = s

/-- What Go's regular expressions guarantee (a range inside the text, at character boundaries of well-formed text), and
no empty match. -/
structure MatcherOK (m : Matcher) : Prop where
  range : ∀ s a b, m s = some (a, b) → a < b ∧ b ≤ s.length
  aligned : ∀ s a b, ValidText s → m s = some (a, b) → ValidText (s.take a) ∧ ValidText (s.take b)

/-- The text starts with a Han character. -/
def StartsHan [U : Unicode] (s : Bytes) : Prop := s ≠ [] ∧ U.isHan (decodeRune s).1 = true

/-- A byte that is a digit. -/
def digitB (b : UInt8) : Bool := (str "0123456789").contains b

/-- A byte that is an ASCII letter or digit. -/
def alnumB (b : UInt8) : Bool := asciiAlnum b.toNat

/-- The text starts with an ASCII letter or digit. -/
def StartsAlnum (s : Bytes) : Prop := ∃ b t, s = b :: t ∧ alnumB b = true

/-- The text starts with a digit. -/
def StartsDigit (s : Bytes) : Prop := ∃ b t, s = b :: t ∧ digitB b = true

/-- Kinds of runs. -/
inductive RunKind
  | han | skip | other
  deriving DecidableEq

/-- The text as runs: of Han characters, a decimal number, of ASCII letters and digits, of other text; each as long as
possible. -/
inductive HmmRuns [U : Unicode] : Bytes → List (RunKind × Bytes) → Prop
  | nil : HmmRuns [] []
  | han {s rest : Bytes} {l : List (RunKind × Bytes)} : s ≠ [] → (∀ r ∈ runes s, U.isHan r = true) → ¬ StartsHan rest →
      HmmRuns rest l → HmmRuns (s ++ rest) ((.han, s) :: l)
  | number {x y rest : Bytes} {l : List (RunKind × Bytes)} : x ≠ [] → y ≠ [] → (∀ b ∈ x, digitB b = true) →
      (∀ b ∈ y, digitB b = true) → ¬ StartsDigit rest → HmmRuns rest l →
      HmmRuns (x ++ str "." ++ y ++ rest) ((.skip, x ++ str "." ++ y) :: l)
  | alnum {s rest : Bytes} {l : List (RunKind × Bytes)} : s ≠ [] → (∀ b ∈ s, alnumB b = true) → ¬ StartsAlnum rest →
      ¬ ((∀ b ∈ s, digitB b = true) ∧ ∃ t, rest = str "." ++ t ∧ StartsDigit t) →
      HmmRuns rest l → HmmRuns (s ++ rest) ((.skip, s) :: l)
  | other {s rest : Bytes} {l : List (RunKind × Bytes)} : s ≠ [] → (∀ r ∈ runes s, U.isHan r = false) →
      (∀ b ∈ s, alnumB b = false) → (rest = [] ∨ StartsHan rest ∨ StartsAlnum rest) →
      HmmRuns rest l → HmmRuns (s ++ rest) ((.other, s) :: l)

/-- What becomes of a run: Han characters are cut by the tags of the Viterbi path, other runs stay. -/
inductive RunWords (c : HmmConst F) (em : EmitModel F) : RunKind × Bytes → List Bytes → Prop
  | han {s : Bytes} {v : F} {ts : List Tag} {ws : List (List Rune)} : viterbi c em (runes s) = some (v, ts) →
      TagWords (runes s) ts ws → RunWords c em (.han, s) (ws.map encode)
  | skip {s : Bytes} : RunWords c em (.skip, s) [s]
  | other {s : Bytes} : RunWords c em (.other, s) [s]

end Gse.Spec
