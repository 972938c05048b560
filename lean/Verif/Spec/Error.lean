import Verif.Spec.Ieee
import Verif.Spec.Dag
import Mathlib.Analysis.SpecialFunctions.Log.Base

/-!
# What rounding may cost

A logarithm of given accuracy, the true probabilities (of the frequencies and the total as they are stored), and a bound for the
rounding errors that depends on the number of pieces.
-/

namespace Gse.Spec

open Gse

/-- The function `g` on floats computes the function `ln` with relative error `ε` at most, and gives `-Inf` at zero. -/
structure LogAccurate (g : Num64 → Num64) (ln : ℝ → ℝ) (ε : ℝ) : Prop where
  zero : ∀ x, x.datum.IsFin → x.datum.val = 0 → (g x).datum = .inf true
  near : ∀ x, x.datum.IsFin → 0 < x.datum.val →
    (g x).datum.IsFin ∧ |((g x).datum.val : ℝ) - ln (x.datum.val : ℝ)| ≤ ε * |ln (x.datum.val : ℝ)|

/-- An error `ε` followed by `n` roundings with relative error `u`. -/
noncomputable def growth (ε u : ℝ) (n : ℕ) : ℝ := (1 + ε) * (1 + u) ^ n - 1

section route
variable {M : MathFns}

/-- The probability of a piece: its frequency by the total. -/
noncomputable def pieceProb (d : Dictionary (Binary64 M) Binary32) (t : List Rune) : ℝ :=
  ((pieceFreq d t).datum.val : ℝ) / (d.totalFreq.datum.val : ℝ)

/-- The probability of a route. -/
noncomputable def routeProb (d : Dictionary (Binary64 M) Binary32) (ps : List (List Rune)) : ℝ := (ps.map (pieceProb d)).prod

/-- The sizes of the logarithms added up for a route. -/
noncomputable def routeSize (d : Dictionary (Binary64 M) Binary32) (ps : List (List Rune)) : ℝ :=
  (ps.map fun t => |Real.log ((pieceFreq d t).datum.val : ℝ)| + |Real.log (d.totalFreq.datum.val : ℝ)|).sum

/-- The bound for the error in the logarithm of the probability of a route. -/
noncomputable def routeErr (ε : ℝ) (d : Dictionary (Binary64 M) Binary32) (ps : List (List Rune)) : ℝ :=
  growth ε (2 ^ 53)⁻¹ (ps.length + 1) * routeSize d ps

/-- The token is the one stored under its text. -/
def IsStored (d : Dictionary (Binary64 M) Binary32) (t : Token (Binary64 M) Binary32) : Prop := storedTok d t.text.flatten = some t

open Classical in
/-- The probability of a token: its frequency by the total, `2 ^ -32` for an unknown word. -/
noncomputable def tokenProb (d : Dictionary (Binary64 M) Binary32) (t : Token (Binary64 M) Binary32) : ℝ :=
  if IsStored d t then (t.freq.datum.val : ℝ) / (d.totalFreq.datum.val : ℝ) else (2 ^ 32)⁻¹

/-- The probability of a segmentation. -/
noncomputable def segProb (d : Dictionary (Binary64 M) Binary32) (ts : List (Token (Binary64 M) Binary32)) : ℝ := (ts.map (tokenProb d)).prod

open Classical in
/-- The sizes of the logarithms added up for a segmentation. -/
noncomputable def segSize (d : Dictionary (Binary64 M) Binary32) (ts : List (Token (Binary64 M) Binary32)) : ℝ :=
  (ts.map fun t => if IsStored d t then |Real.logb 2 (t.freq.datum.val : ℝ)| + |Real.logb 2 (d.totalFreq.datum.val : ℝ)| else 32).sum

/-- The bound for the error in the binary logarithm of the probability of a segmentation. The distances and their sums
are `float32`. -/
noncomputable def segErr (ε : ℝ) (d : Dictionary (Binary64 M) Binary32) (ts : List (Token (Binary64 M) Binary32)) : ℝ :=
  growth ε (2 ^ 24)⁻¹ (ts.length + 2) * segSize d ts

end route

end Gse.Spec
