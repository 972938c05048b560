import Verif.Spec.Hmm
import Verif.Spec.Seam

/-!
# Cutting a text in two before an HMM cut
-/

namespace Gse.Spec
open Gse

variable {F D : Type} [F64 F] [F32 D]

/-- The kind of run a character belongs to. -/
def runeKind [U : Unicode] (r : Rune) : RunKind := if U.isHan r then .han else if asciiAlnum r then .skip else .other

/-- The seam between `a` and `b` is between characters of different kinds, and not inside a decimal number. -/
structure KindSeam [Unicode] (a b : Bytes) : Prop where
  begins : BeginsChar b
  kinds : ∀ u v, (runes a).getLast? = some u → (runes b).head? = some v → runeKind u ≠ runeKind v
  point : ∀ x y, digitB x = true → digitB y = true → ¬ ([x] <:+ a ∧ [46, y] <+: b) ∧ ¬ ([x, 46] <:+ a ∧ [y] <+: b)

/-- The same for characters. -/
structure KindSeamRunes [Unicode] (l r : List Rune) : Prop where
  kinds : ∀ u v, l.getLast? = some u → r.head? = some v → runeKind u ≠ runeKind v
  point : ∀ x y : Rune, 48 ≤ x ∧ x ≤ 57 → 48 ≤ y ∧ y ≤ 57 → ¬ ([x] <:+ l ∧ [46, y] <+: r) ∧ ¬ ([x, 46] <:+ l ∧ [y] <+: r)

/-- The characters are a stored word whose frequency is not zero. -/
def Kept (d : Dictionary F D) (u : List Rune) : Prop := ∃ tok, storedTok d (encode u) = some tok ∧ F64.eq tok.freq (F64.ofNat 0) = false

/-- No stored word whose frequency is not zero lies across the seam. -/
def NoSpanKept (d : Dictionary F D) (l r : List Rune) : Prop :=
  ∀ x y, x ≠ [] → y ≠ [] → x <:+ l → y <+: r → ¬ Kept d (x ++ y)

/-- The single characters at the end of the best route, if there are several, are not a stored word. -/
def EndFree (d : Dictionary F D) (text : List Rune) : Prop :=
  ∀ x g, IsBestRoute d text (x ++ g) → (∀ t, x.getLast? = some t → t.length ≠ 1) → (∀ t ∈ g, t.length = 1) → 2 ≤ g.length → ¬ Kept d g.flatten

/-- The single characters at the beginning of the best route, if there are several, are not a stored word. -/
def StartFree (d : Dictionary F D) (text : List Rune) : Prop :=
  ∀ g y, IsBestRoute d text (g ++ y) → (∀ t, y.head? = some t → t.length ≠ 1) → (∀ t ∈ g, t.length = 1) → 2 ≤ g.length → ¬ Kept d g.flatten

end Gse.Spec
