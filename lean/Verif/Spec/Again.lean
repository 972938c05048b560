import Verif.Spec.Exact

/-!
# Segmenting a part of a text again

What the theorems of C92 ask of the items of a cut.
-/

namespace Gse.Spec
open Gse

variable {F D : Type} [F64 F] [F32 D]

/-- A character that is a stored word of positive frequency, or does not even begin a stored word. -/
def Harmless (d : Dictionary F D) (r : Rune) : Prop := posWord d [r] = true ∨ ¬ StartsStored d (encode [r])

/-- An item of a cut in which no character is counted with frequency zero: single characters, and the letters and digits of joined runs, are harmless. -/
def Counted (d : Dictionary F D) (w : Bytes) : Prop :=
  ∀ r ∈ runes w, runes w = [r] ∨ asciiAlnum r = true → Harmless d r

/-- Lower-casing a lower-cased character changes nothing. -/
def LowerOnce [U : Unicode] : Prop := ∀ r : Rune, U.toLower (U.toLower r) = U.toLower r

end Gse.Spec
