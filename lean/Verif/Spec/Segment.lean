import Verif.Spec.Dict

/-!
# Specification of segmentations

A segmentation of a list of words is a list of tokens whose texts concatenate to the words, each token being the one
stored in the dictionary under its text, or an unknown single word.
-/

namespace Gse.Spec

open Gse

variable {F D : Type} [F64 F] [F32 D]

/-- The token stored in the dictionary under a word. -/
def storedTok (d : Dictionary F D) (w : Bytes) : Option (Token F D) := (d.trie.value w).bind fun v => d.tokens[v]?

/-- What an unknown word is reported as: frequency 1, tag "x", distance 32, no sub-segments. -/
def unknownTok (w : Bytes) : Token F D :=
  { text := [w], freq := F64.ofNat 1, pos := str "x", distance := F32.c32, segments := [] }

/-- A token that may be used in a segmentation. -/
def IsPiece (d : Dictionary F D) (t : Token F D) : Prop :=
  t.text ≠ [] ∧ (storedTok d t.text.flatten = some t ∨ ∃ w, t = unknownTok w ∧ storedTok d w = none)

/-- The words covered by a list of tokens. -/
def wordsOf (ts : List (Token F D)) : List Bytes := (ts.map (·.text)).flatten

/-- `ts` writes the words `ws` as stored tokens and unknown words. -/
def IsSegmentation (d : Dictionary F D) (ws : List Bytes) (ts : List (Token F D)) : Prop :=
  wordsOf ts = ws ∧ ∀ t ∈ ts, IsPiece d t

/-- Accumulated distance, from left to right as the code adds it. -/
def cost (ts : List (Token F D)) : D := ts.foldl (fun c t => F32.add c t.distance) F32.zero

/-- The byte ranges are non-empty, contiguous and lead from `p` to `q`. -/
inductive Tiles : Nat → Nat → List Seg → Prop
  | nil (p : Nat) : Tiles p p []
  | cons {p q : Nat} {s : Seg} {rest : List Seg} : s.start = p → p < s.stop → Tiles s.stop q rest → Tiles p q (s :: rest)

end Gse.Spec

namespace Gse

/-- What the optimality theorems assume about `float32`: on the values that are not NaN and not negative, `>` is a
strict weak order, addition is monotone and keeps positive values positive, and `== 0` excludes positive values. IEEE
addition with any rounding that is monotone satisfies them (see Proofs/Round.lean). -/
class F32Laws (D : Type) [F32 D] where
  /-- not NaN and not negative (`+Inf` allowed) -/
  good : D → Prop
  good_zero : good F32.zero
  good_c32 : good F32.c32
  pos_c32 : F32.gt (F32.c32 : D) F32.zero = true
  good_add : ∀ {a b : D}, good a → good b → good (F32.add a b)
  gt_asymm : ∀ {a b : D}, good a → good b → F32.gt a b = true → F32.gt b a = false
  gt_cotrans : ∀ {a b c : D}, good a → good b → good c → F32.gt a c = true → F32.gt a b = true ∨ F32.gt b c = true
  add_mono : ∀ {a b c : D}, good a → good b → good c → F32.gt a b = false → F32.gt (F32.add a c) (F32.add b c) = false
  add_pos : ∀ {a b : D}, good a → good b → F32.gt b F32.zero = true → F32.gt (F32.add a b) F32.zero = true
  isZero_pos : ∀ {a : D}, good a → F32.gt a F32.zero = true → F32.isZero a = false

namespace Spec

variable {F D : Type} [F64 F] [F32 D]

/-- Every distance a segmentation can use is a positive number. -/
def PosDist [F32Laws D] (d : Dictionary F D) : Prop :=
  ∀ w t, storedTok d w = some t → F32Laws.good t.distance ∧ F32.gt t.distance F32.zero = true

/-- `ts` is the best segmentation of `ws`: up to every cut, no other segmentation of the same words is cheaper, and one
that is not dearer does not end in a longer token. With `two` the alternatives for the whole of `ws` (and `ts`
itself) must have at least two tokens. -/
structure IsBest (d : Dictionary F D) (two : Bool) (ws : List Bytes) (ts : List (Token F D)) : Prop where
  seg : IsSegmentation d ws ts
  atLeast : two = true → ts.length ≠ 1
  cheapest : ∀ p t q, ts = p ++ t :: q → ∀ p' t', IsSegmentation d (wordsOf (p ++ [t])) (p' ++ [t']) →
    (two = true → q = [] → p' ≠ []) → F32.gt (cost (p ++ [t])) (cost (p' ++ [t'])) = false
  longest : ∀ p t q, ts = p ++ t :: q → ∀ p' t', IsSegmentation d (wordsOf (p ++ [t])) (p' ++ [t']) →
    (two = true → q = [] → p' ≠ []) → F32.gt (cost (p' ++ [t'])) (cost (p ++ [t])) = false →
    t'.text.length ≤ t.text.length

end Spec
end Gse
