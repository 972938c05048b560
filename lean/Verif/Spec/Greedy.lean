import Verif.Spec.Dag

/-!
# Greedy matching

What is left of the two segmentations when the total of the frequencies is not a finite number.
-/

namespace Gse.Spec

open Gse

variable {F D : Type} [F64 F] [F32 D]

/-- `ts` is found from the end: the longest stored word that ends the words, or the last word if it is unknown. -/
inductive LongestBack (d : Dictionary F D) : List Bytes → List (Token F D) → Prop
  | nil : LongestBack d [] []
  | snoc {ws : List Bytes} {ts : List (Token F D)} {t : Token F D} : LongestBack d ws ts → IsPiece d t →
      (∀ ws' u, ws' ++ u.text = ws ++ t.text → IsPiece d u → u.text.length ≤ t.text.length) → LongestBack d (ws ++ t.text) (ts ++ [t])

/-- The same, but as long as no word is stored by itself, from the front, all words are taken by themselves. -/
inductive InfBack (d : Dictionary F D) : List Bytes → List (Token F D) → Prop
  | unknown {ws : List Bytes} : (∀ w ∈ ws, storedTok d w = none) → InfBack d ws (ws.map unknownTok)
  | snoc {ws : List Bytes} {ts : List (Token F D)} {t : Token F D} : InfBack d ws ts → IsPiece d t →
      (∃ w ∈ ws ++ t.text, storedTok d w ≠ none) →
      (∀ ws' u, ws' ++ u.text = ws ++ t.text → IsPiece d u → u.text.length ≤ t.text.length) → InfBack d (ws ++ t.text) (ts ++ [t])

/-- `t` is the shortest stored word of positive frequency that starts the text, or its first character if there is none. -/
def ShortestAt (d : Dictionary F D) (text t : List Rune) : Prop :=
  (posWord d t = true ∧ ∀ u, u <+: text → u ≠ [] → posWord d u = true → t.length ≤ u.length) ∨ (t.length = 1 ∧ ¬ StartsWord d text)

/-- `t` is the longest stored word of positive frequency that starts the text, or its first character if there is none. -/
def LongestAt (d : Dictionary F D) (text t : List Rune) : Prop :=
  (posWord d t = true ∧ ∀ u, u <+: text → u ≠ [] → posWord d u = true → u.length ≤ t.length) ∨ (t.length = 1 ∧ ¬ StartsWord d text)

/-- `ps` is found from the front, each piece as `At` says. -/
inductive Greedy (At : List Rune → List Rune → Prop) : List Rune → List (List Rune) → Prop
  | nil : Greedy At [] []
  | cons {t rest : List Rune} {ps : List (List Rune)} : t ≠ [] → At (t ++ rest) t → Greedy At rest ps → Greedy At (t ++ rest) (t :: ps)

end Gse.Spec
