import Verif.Spec.Dag
import Verif.Spec.Dict
import Verif.Model.History

/-!
# Words that a result does not use
-/

namespace Gse.Spec
open Gse

variable {F D : Type} [F64 F] [F32 D]

/-- Adding more on the right does not give less. -/
def RightMono (D : Type) [F32 D] [F32Laws D] : Prop :=
  ∀ a b c : D, F32Laws.good a → F32Laws.good b → F32Laws.good c → F32.gt a b = false → F32.gt (F32.add c a) (F32.add c b) = false

/-- No segment of the result is this word. -/
def Unused (d : Dictionary F D) (segs : List Seg) (w : Bytes) : Prop :=
  ∀ g ∈ segs, ∀ t, d.deref g.tok = some t → t.text.flatten ≠ w

/-- A word of the text that is stored as this word alone is no further away than an unknown word. -/
def NotHeavy (d : Dictionary F D) (w : Bytes) : Prop :=
  ∀ t, storedTok d w = some t → t.text.length = 1 → F32.gt t.distance (F32.c32 : D) = false

/-- The first character of a word that counts in the one dictionary and not in the other is a word of both. -/
def FirstChars (d d' : Dictionary F D) (text : List Rune) : Prop :=
  ∀ x, x <:+: text → posWord d x = true → posWord d' x = false → ∃ c, x.head? = some c ∧ posWord d' [c] = true

end Gse.Spec
