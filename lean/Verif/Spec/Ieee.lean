import Verif.Proofs.IeeeOps
import Verif.Model.History
import Verif.Model.Hmm
import Verif.Model.TextRank
import Verif.Model.Pos

/-!
# What theorems on IEEE numbers assume
-/

namespace Gse.Spec

open Gse

/-- What is assumed of `math.Log` and `math.Log2`: on numbers that are not negative the result is a number and the function
does not decrease; on finite numbers the result is `-Inf` or of absolute value 2048 at most, and not `-Inf` on positive ones. -/
structure LogLike (g : Num64 → Num64) : Prop where
  num : ∀ x, x.datum.NonNeg → (g x).datum ≠ .nan
  mono : ∀ x y, x.datum.NonNeg → y.datum.NonNeg → Datum.lt y.datum x.datum = false → Datum.lt (g y).datum (g x).datum = false
  range : ∀ x, x.datum.NonNeg → x.datum.IsFin → (g x).datum = .inf true ∨ ((g x).datum.IsFin ∧ |(g x).datum.val| ≤ 2048)
  pos : ∀ x, x.datum.IsFin → 0 < x.datum.val → (g x).datum.IsFin

/-- The frequency a call passes to the dictionary. -/
def opFreq {F : Type} : DictOp F → Option F
  | .add _ f _ => some f
  | .addForce _ f _ => some f
  | .reAdd _ f _ => some f
  | .remove _ => none
  | .recalc => none

/-- All frequencies passed are numbers from zero up. -/
def FreqsNonNeg {M : MathFns} (ops : List (DictOp (Binary64 M))) : Prop :=
  ∀ op ∈ ops, ∀ f, opFreq op = some f → f.datum.NonNeg

/-- Finite, of absolute value `n * 2 ^ e` at most. -/
def SizeAt {M : MathFns} (e : ℤ) (n : Nat) (x : Binary64 M) : Prop := x.datum.IsFin ∧ |x.datum.val| ≤ n * 2 ^ e

/-- The values of the tables: `inf` is `-Inf`, all others are finite, zero at most and at least `-2 ^ 334` (which is below
`minFloat`, -3.14e100). -/
structure PosValues {M : MathFns} (T : PosTables (Binary64 M)) : Prop where
  inf : T.inf.datum = .inf true
  minFloat : SizeAt 334 1 T.minFloat ∧ T.minFloat.datum.NonPos
  start : ∀ y v, T.start y = some v → SizeAt 334 1 v ∧ v.datum.NonPos
  emit : ∀ y r v, T.emit y r = some v → SizeAt 334 1 v ∧ v.datum.NonPos
  trans : ∀ x y v, (T.trans x).get y = some v → SizeAt 334 1 v ∧ v.datum.NonPos

end Gse.Spec
