import Verif.Spec.Seam
import Verif.Spec.Pos

/-! # Cutting a text in two before it is tagged -/

namespace Gse.Spec
open Gse

/-- The seam is not inside a line break of two characters. -/
def NoBreakSeam (us vs : List Bytes) : Prop := ¬ (us.getLast? = some (str "\r") ∧ vs.head? = some (str "\n"))

/-- On one side of the seam there is a character that the tagger does not look up, or nothing. -/
def SymbolSeam [Unicode] (us vs : List Bytes) : Prop :=
  ∀ u v, us.getLast? = some u → vs.head? = some v → ¬ (posChar u = true ∧ posChar v = true)

variable {F D : Type} [F64 F] [F32 D]

/-- Every stored word and every character in the text has a finite log-frequency. -/
def FinPieces [F64Shift F] (d : Dictionary F D) (text : List Rune) : Prop :=
  ∀ t, t <:+: text → posWord d t = true ∨ t.length = 1 → F64Shift.fin (pieceScoreBy (F64.ofNat 0) d t)

end Gse.Spec
