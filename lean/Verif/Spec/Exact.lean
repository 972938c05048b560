import Verif.Spec.Ieee
import Verif.Spec.Dag
import Mathlib.Analysis.SpecialFunctions.Log.ENNRealLog
import Mathlib.Analysis.SpecialFunctions.Log.ERealExp

/-!
# Exact arithmetic

What the formulas of the code compute when nothing is rounded: the extended real numbers, with the logarithm that is `-∞` at zero.
Theorems on exact arithmetic say what the code is after; what rounding does to it is a separate matter.
-/

namespace Gse

open Spec

/-- `strconv.ParseFloat` in exact arithmetic; nothing is assumed of it. -/
class ParseFn where
  parse : Bytes → EReal × Bool

open Classical in
/-- The operations of `F64` without rounding. -/
noncomputable instance exactF64 [P : ParseFn] : F64 EReal where
  ofNat n := ((n : ℝ) : EReal)
  add a b := a + b
  sub a b := a - b
  mul a b := a * b
  div a b := a / b
  lt a b := decide (a < b)
  eq a b := decide (a = b)
  log x := ENNReal.log x.toENNReal
  log2 x := ENNReal.log x.toENNReal / ((Real.log 2 : ℝ) : EReal)
  exp x := ((EReal.exp x : ENNReal) : EReal)
  trunc x := if x = ⊤ ∨ x = ⊥ then x else if x < 0 then ((⌈x.toReal⌉ : ℝ) : EReal) else ((⌊x.toReal⌋ : ℝ) : EReal)
  parse := P.parse
  zero_eq_zero := by simp
  zero_lt_zero := by simp

open Classical in
/-- The operations of `F32` without rounding. -/
noncomputable instance exactF32 : F32 EReal where
  zero := 0
  c32 := ((32 : ℝ) : EReal)
  add a b := a + b
  sub a b := a - b
  isZero a := decide (a = 0)
  gt a b := decide (b < a)
  isZero_zero := by simp

/-- Conversion without rounding. -/
noncomputable instance exactNarrow : Narrow EReal EReal := ⟨id⟩

namespace Spec

/-- A number from zero up, not infinite. -/
def Amount (x : EReal) : Prop := ∃ r : ℝ, 0 ≤ r ∧ x = (r : EReal)

/-- All frequencies passed are numbers from zero up. -/
def FreqsExact (ops : List (DictOp EReal)) : Prop := ∀ op ∈ ops, ∀ f, opFreq op = some f → Amount f

variable {D : Type} [ParseFn] [F32 D]

/-- The share of one piece in the total frequency; a piece that is no word counts 1, one that only begins words counts 0. -/
noncomputable def share (d : Dictionary EReal D) (t : List Rune) : ℝ := (pieceFreq d t).toReal / d.totalFreq.toReal

/-- The product of the shares. -/
noncomputable def likelihood (d : Dictionary EReal D) (ps : List (List Rune)) : ℝ := (ps.map (share d)).prod

/-- The share of a token of a segmentation: that of a stored token is its part of the total, an unknown word has `2 ^ -32`. -/
noncomputable def tokenShare (d : Dictionary EReal EReal) (t : Token EReal EReal) : ℝ :=
  open Classical in
  if storedTok d t.text.flatten = some t then t.freq.toReal / d.totalFreq.toReal else (2 ^ 32)⁻¹

end Spec
end Gse
