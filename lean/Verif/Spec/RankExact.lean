import Verif.Spec.TextRank
import Mathlib.Algebra.BigOperators.Group.List.Basic

/-!
# TextRank without rounding

The values by the formula of the literature: a sum over the words of the graph, with no edges and no order of edges.
-/

namespace Gse.Spec
open Gse

/-- How strongly two words are tied: how often one follows the other within four items, in either order. -/
def tie (allow : List Bytes) (items : List SegPos) (a b : Bytes) : ℚ := coCount allow items a b + coCount allow items b a

/-- How strongly a word is tied to all words of the graph. -/
def tieSum (allow : List Bytes) (items : List SegPos) (words : List Bytes) (a : Bytes) : ℚ := (words.map (tie allow items a)).sum

/-- The new value of a word given those of the others: every neighbour hands on its value in proportion to the ties. -/
def valueNew (K : RankConst ℚ) (allow : List Bytes) (items : List SegPos) (words : List Bytes) (v : Bytes → ℚ) (n : Bytes) : ℚ :=
  K.rest + K.damp * (words.map fun m => tie allow items n m / tieSum allow items words m * v m).sum

/-- One round, word by word. -/
def valueRound (K : RankConst ℚ) (allow : List Bytes) (items : List SegPos) (words : List Bytes) (v : Bytes → ℚ) : Bytes → ℚ :=
  words.foldl (fun v n => Function.update v n (valueNew K allow items words v n)) v

/-- The values after ten rounds from equal shares. -/
def valueOf (K : RankConst ℚ) (allow : List Bytes) (items : List SegPos) (words : List Bytes) : Bytes → ℚ :=
  (valueRound K allow items words)^[10] fun _ => 1 / words.length

/-- Listed by falling value, equal values with the later text first. -/
def Falling (v : Bytes → ℚ) (a b : Bytes) : Prop := v b < v a ∨ v a = v b ∧ TextBefore b a

/-- Listed by rising value. -/
def Rising (v : Bytes → ℚ) (a b : Bytes) : Prop := v a < v b

end Gse.Spec
