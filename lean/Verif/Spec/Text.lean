import Verif.Model.Split

/-!
# Specification vocabulary for texts

Independent of the splitting loop: a text is a sequence of characters (a character is the byte string of
one UTF-8 encoded rune, or one malformed byte), and words are groups of characters.
-/

namespace Gse.Spec

open Gse

/-- Fuelled helper of `chars`. -/
def charsAux : Nat → Bytes → List Bytes
  | 0, _ => []
  | _ + 1, [] => []
  | n + 1, b :: t =>
    (b :: t).take (decodeRune (b :: t)).2 :: charsAux n ((b :: t).drop (decodeRune (b :: t)).2)

/-- The characters of a text, as byte strings; a malformed byte is a character of its own. -/
def chars (p : Bytes) : List Bytes := charsAux p.length p

/-- The rune of a character. -/
def charRune (u : Bytes) : Rune := (decodeRune u).1

/-- "Latin letter or number" as documented at segmenter.go:218: a letter (unless `Alpha`) or a number
(unless `Num`) whose encoding takes one or two bytes. -/
def wordChar [U : Unicode] (cfg : SplitCfg) (u : Bytes) : Bool :=
  decide (u.length ≤ 2) &&
    ((U.isLetter (charRune u) && !cfg.alpha) || (U.isNumber (charRune u) && !cfg.num))

/-- ASCII lower case of one byte. -/
def lowerAscii (b : UInt8) : UInt8 := if 65 ≤ b.toNat ∧ b.toNat ≤ 90 then b + 32 else b

/-- How a character appears in the output: word characters are lower-cased when `ToLower` is set. -/
def normChar [Unicode] (cfg : SplitCfg) (u : Bytes) : Bytes :=
  if wordChar cfg u ∧ cfg.toLower then u.map lowerAscii else u

/-- The normalised text: what the words of a split must concatenate to. -/
def normText [Unicode] (cfg : SplitCfg) (t : Bytes) : Bytes := (chars t).flatMap (normChar cfg)

/-- `gs` is the grouping of characters into words that the documentation describes: a group is one
non-word character, or a run of word characters (of length one when `AlphaNum` is set), and unless
`AlphaNum` is set two runs are never adjacent. -/
structure IsGrouping [Unicode] (cfg : SplitCfg) (t : Bytes) (gs : List (List Bytes)) : Prop where
  cover : gs.flatten = chars t
  kind : ∀ g ∈ gs, (∃ u, g = [u] ∧ wordChar cfg u = false) ∨
    (g ≠ [] ∧ (∀ u ∈ g, wordChar cfg u = true) ∧ (cfg.alphaNum = true → g.length = 1))
  maximal : cfg.alphaNum = false → ∀ l g h r, gs = l ++ g :: h :: r →
    ¬ ((∀ u ∈ g, wordChar cfg u = true) ∧ (∀ u ∈ h, wordChar cfg u = true))

/-- `ws` is the documented split of `t`. -/
def IsSplit [Unicode] (cfg : SplitCfg) (t : Bytes) (ws : List Bytes) : Prop :=
  ∃ gs, IsGrouping cfg t gs ∧ ws = gs.map fun g => g.flatMap (normChar cfg)

end Gse.Spec
