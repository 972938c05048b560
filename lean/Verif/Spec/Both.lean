import Verif.Spec.Exact

/-!
# Writing a text in words

What `Segment` and `Cut` are both after, for a text of which every character is a stored word: among the ways of writing it as stored
words of positive frequency, one of greatest probability.
-/

namespace Gse.Spec
open Gse

/-- A character that is a word of its own for `Segment` and for `Cut`: not a letter or digit gathered into runs, and not changed by
lower-casing. -/
structure PlainChar [U : Unicode] (cfg : SplitCfg) (r : Rune) : Prop where
  valid : validRune r = true
  single : wordChar cfg (encode [r]) = false
  lower : cfg.toLower = true → U.toLower r = r
  notEng : asciiAlnum r = false

section
variable {F D : Type} [F64 F] [F32 D]

/-- `ps` writes the characters `rs` as stored words of positive frequency. -/
def IsWriting (d : Dictionary F D) (rs : List Rune) (ps : List (List Rune)) : Prop :=
  ps.flatten = rs ∧ ∀ p ∈ ps, p ≠ [] ∧ posWord d p = true

end

variable {D : Type} [ParseFn] [F32 D]

/-- No writing is more probable, and among the equally probable ones none ends in a longer word; and so up to every word of it. -/
def BestByLast (d : Dictionary EReal D) (rs : List Rune) (ps : List (List Rune)) : Prop :=
  IsWriting d rs ps ∧ ∀ a p b, ps = a ++ p :: b → ∀ a' p', IsWriting d (a ++ [p]).flatten (a' ++ [p']) →
    likelihood d (a' ++ [p']) < likelihood d (a ++ [p]) ∨ (likelihood d (a' ++ [p']) = likelihood d (a ++ [p]) ∧ p'.length ≤ p.length)

/-- No writing is more probable, and among the equally probable ones none begins with a longer word; and so from every word on. -/
def BestByFirst (d : Dictionary EReal D) (rs : List Rune) (ps : List (List Rune)) : Prop :=
  IsWriting d rs ps ∧ ∀ a p b, ps = a ++ p :: b → ∀ p' b', IsWriting d (p :: b).flatten (p' :: b') →
    likelihood d (p' :: b') < likelihood d (p :: b) ∨ (likelihood d (p' :: b') = likelihood d (p :: b) ∧ p'.length ≤ p.length)

end Gse.Spec
