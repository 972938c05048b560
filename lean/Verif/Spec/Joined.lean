import Verif.Spec.Pos

/-!
# Specification: one result joins items of another

What it means that `Cut` with the HMM joins items of `Cut` without it.
-/

namespace Gse.Spec

open Gse

/-- One character. -/
def OneChar (w : Bytes) : Prop := ∃ r : Rune, w = encode [r]

/-- A run of ASCII letters and digits. -/
def AlnumText (w : Bytes) : Prop := ∃ t : List Rune, w = encode t ∧ ∀ r ∈ t, asciiAlnum r = true

/-- `coarse` is `fine` with some neighbouring items, all of one character, joined. -/
def JoinsChars (fine coarse : List Bytes) : Prop :=
  ∃ groups : List (List Bytes), groups.flatten = fine ∧ groups.map List.flatten = coarse ∧
    ∀ g ∈ groups, (∃ w, g = [w]) ∨ (2 ≤ g.length ∧ ∀ w ∈ g, OneChar w)

/-- Two neighbouring items of one character each. -/
def TwoChars (out : List Bytes) : Prop := ∃ A w w' B, out = A ++ w :: w' :: B ∧ OneChar w ∧ OneChar w'

/-- The items of `a` that are neither one character nor a run of letters and digits are items of `b` with the same tag at
the same place. -/
def TagsKept (a b : List SegPos) : Prop :=
  ∀ A x B, a = A ++ x :: B → ¬ OneChar x.text → ¬ AlnumText x.text →
    ∃ A' B', b = A' ++ x :: B' ∧ (A'.map SegPos.text).flatten = (A.map SegPos.text).flatten ∧
      (B'.map SegPos.text).flatten = (B.map SegPos.text).flatten

end Gse.Spec
