import Mathlib.Algebra.Order.Field.Rat
import Verif.Model.Hmm
import Verif.Spec.Hmm

/-!
# Specification: what two HMM models have in common

The value a model gives a character in a state, and when two models are the same up to a factor and added constants.
-/

namespace Gse.Spec
open Gse

/-- The value of a character in a state; one that is missing counts as the least number. -/
def modelValue {F : Type} (c : HmmConst F) (em : EmitModel F) (y : Tag) (r : Rune) : F := (em y r).getD c.minFloat

/-- The Han characters among `rs` have the same values in both models. -/
def SameValues [U : Unicode] {F : Type} (c : HmmConst F) (em em' : EmitModel F) (rs : List Rune) : Prop :=
  ∀ r ∈ rs, U.isHan r = true → ∀ y, modelValue c em y r = modelValue c em' y r

/-- The second model is the first with all values multiplied by a positive factor, and with constants added: one to the start values, one to the
values of the transitions, and for each character one to its values in the four states. -/
def Rescaled [U : Unicode] (c : HmmConst ℚ) (em : EmitModel ℚ) (c' : HmmConst ℚ) (em' : EmitModel ℚ) (rs : List Rune) : Prop :=
  ∃ (l a b : ℚ) (k : Rune → ℚ), 0 < l ∧ (∀ y, c'.start y = l * c.start y + a) ∧ (∀ x y, c'.trans x y = l * c.trans x y + b) ∧
    ∀ r ∈ rs, U.isHan r = true → ∀ y, modelValue c' em' y r = l * modelValue c em y r + k r

/-- All calls that use the HMM answer the same with both models for the text. -/
def SameWithHmm {F D : Type} [F64 F] [F32 D] [Unicode] (cfg : SplitCfg) (d : Dictionary F D) (c c' : HmmConst F) (em em' : EmitModel F) (s : Bytes) : Prop :=
  hmmCut c em s [] = hmmCut c' em' s [] ∧
  ∀ fuel, cut cfg d fuel (fun t => hmmCut c em t []) s (some true) = cut cfg d fuel (fun t => hmmCut c' em' t []) s (some true) ∧
    cutSearch cfg d fuel (fun t => hmmCut c em t []) s (some true) = cutSearch cfg d fuel (fun t => hmmCut c' em' t []) s (some true)

end Gse.Spec
