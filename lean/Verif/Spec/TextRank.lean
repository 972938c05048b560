import Verif.Model.TextRank
import Verif.Spec.Round
import Mathlib.Logic.Function.Basic
import Mathlib.Logic.Function.Iterate

/-!
# Specification of TextRank
-/

namespace Gse.Spec

open Gse

variable {F D : Type} [F64 F]

/-- The item at a position is the word `w` with an allowed tag. -/
def AllowedAt (allow : List Bytes) (items : List SegPos) (i : Nat) (w : Bytes) : Prop :=
  ∃ p, items[i]? = some p ∧ p.pos ∈ allow ∧ p.text = w

instance (allow : List Bytes) (items : List SegPos) (i : Nat) (w : Bytes) : Decidable (AllowedAt allow items i w) :=
  match h : items[i]? with
  | none => isFalse (by rintro ⟨p, e, _⟩; rw [h] at e; simp at e)
  | some p => decidable_of_iff (p.pos ∈ allow ∧ p.text = w)
      ⟨fun x => ⟨p, h, x⟩, fun ⟨q, e, x⟩ => by rw [h] at e; simp at e; rw [e]; exact x⟩

/-- How often the word `b` follows the word `a` within four items, both with allowed tags. -/
def coCount (allow : List Bytes) (items : List SegPos) (a b : Bytes) : Nat :=
  ((List.range items.length).flatMap fun i => (List.range items.length).filter fun j =>
    decide (i < j ∧ j ≤ i + 4 ∧ AllowedAt allow items i a ∧ AllowedAt allow items j b)).length

/-- `es` lists, in some order, the pairs of words that co-occur, with their counts. -/
structure IsEdges (allow : List Bytes) (items : List SegPos) (es : List ((Bytes × Bytes) × F)) : Prop where
  nodup : (es.map Prod.fst).Nodup
  mem : ∀ a b v, ((a, b), v) ∈ es ↔ 0 < coCount allow items a b ∧ v = F64.ofNat (coCount allow items a b)

/-- The neighbours of a word with the weights, in the order of the pairs; a pair of equal words counts twice. -/
def nbrs {W : Type} (es : List ((Bytes × Bytes) × W)) (n : Bytes) : List (Bytes × W) :=
  es.flatMap fun e => (if e.1.1 = n then [(e.1.2, e.2)] else []) ++ (if e.1.2 = n then [(e.1.1, e.2)] else [])

/-- The words of the graph in bytewise order. -/
structure IsRankWords (allow : List Bytes) (items : List SegPos) (words : List Bytes) : Prop where
  ordered : words.Pairwise TextBefore
  mem : ∀ w, w ∈ words ↔ ∃ v, 0 < coCount allow items w v ∨ 0 < coCount allow items v w

/-- The total weight of a word. -/
def outWeight (es : List ((Bytes × Bytes) × F)) (n : Bytes) : F :=
  (nbrs es n).foldl (fun s e => F64.add s e.2) (F64.ofNat 0)

/-- The new value of a word given those of the others. -/
def rankNew (K : RankConst F) (es : List ((Bytes × Bytes) × F)) (v : Bytes → F) (n : Bytes) : F :=
  F64.add K.rest (F64.mul K.damp
    ((nbrs es n).foldl (fun s e => F64.add s (F64.mul (F64.div e.2 (outWeight es e.1)) (v e.1))) (F64.ofNat 0)))

/-- One round: the words get new values one after the other. -/
def rankRound (K : RankConst F) (es : List ((Bytes × Bytes) × F)) (words : List Bytes) (v : Bytes → F) : Bytes → F :=
  words.foldl (fun v n => Function.update v n (rankNew K es v n)) v

/-- The values after ten rounds from equal shares. -/
def rankValue (K : RankConst F) (es : List ((Bytes × Bytes) × F)) (words : List Bytes) : Bytes → F :=
  (rankRound K es words)^[10] fun _ => F64.div (F64.ofNat 1) (F64.ofNat words.length)

/-- The smallest of the values. -/
def IsLeastSeen (vs : List F) (m : F) : Prop := m ∈ vs ∧ ∀ v ∈ vs, F64.lt v m = false

/-- The value at a place in a list of values that is not below all before it. -/
def NotLow (vs : List F) (x : F) : Prop := ∃ p q, vs = p ++ x :: q ∧ ∃ u ∈ p, F64.lt x u = false

/-- What `rank` takes for the largest value when it sees the values in this order: the largest of those that are not below
all values seen before, and `tiny` if there is none. -/
def IsTopSeen (K : RankConst F) (vs : List F) (m : F) : Prop :=
  (NotLow vs m ∧ ∀ x, NotLow vs x → F64.lt m x = false) ∨ ((∀ x, ¬ NotLow vs x) ∧ m = K.tiny)

/-- What `rank` makes of a value. -/
def scaled (lo hi x : F) : F := F64.div (F64.sub x (F64.div lo (F64.ofNat 10))) (F64.sub hi (F64.div lo (F64.ofNat 10)))

/-- `out` lists the words with scaled values when the co-occurrences were read in the order of `es` and the values in the
order of `seen`. -/
structure IsRanking (K : RankConst F) (allow : List Bytes) (items : List SegPos) (es : List ((Bytes × Bytes) × F))
    (words seen : List Bytes) (lo hi : F) (out : List (WordWeight F)) : Prop where
  isEdges : IsEdges allow items es
  isWords : IsRankWords allow items words
  perm : seen.Perm words
  isLo : words ≠ [] → IsLeastSeen (seen.map (rankValue K es words)) lo
  isHi : IsTopSeen K (seen.map (rankValue K es words)) hi
  texts : (out.map (·.text)).Perm words
  weight : ∀ t ∈ out, t.weight = scaled lo hi (rankValue K es words t.text)

/-- The values are visited in strictly descending order. -/
def Descending (vs : List F) : Prop := vs.Pairwise fun a b => F64.lt b a = true

/-- A weight `wy` for the value `y` goes with a weight `wx` for the value `x`: it is not smaller if `y` is not smaller than `x`,
and larger if `y` is larger by a factor of 1 + 1/2^40. -/
def GoesWith [F64Round F] (x y wx wy : F) : Prop :=
  (F64Round.val x ≤ F64Round.val y → F64Round.val wx ≤ F64Round.val wy) ∧
  (F64Round.val x * (1 + 1 / 2 ^ 40) ≤ F64Round.val y → F64Round.val wx < F64Round.val wy)

/-- It goes against it. -/
def GoesAgainst [F64Round F] (x y wx wy : F) : Prop :=
  (F64Round.val x ≤ F64Round.val y → F64Round.val wy ≤ F64Round.val wx) ∧
  (F64Round.val x * (1 + 1 / 2 ^ 40) ≤ F64Round.val y → F64Round.val wy < F64Round.val wx)

/-- The constants, as far as the theorems need them. -/
structure RankConstOK [F64Round F] (K : RankConst F) : Prop where
  fin_damp : F64Round.fin K.damp
  damp_ge : (849 / 1000 : ℚ) ≤ F64Round.val K.damp
  damp_le : F64Round.val K.damp ≤ (851 / 1000 : ℚ)
  fin_rest : F64Round.fin K.rest
  rest_ge : (149 / 1000 : ℚ) ≤ F64Round.val K.rest
  rest_le : F64Round.val K.rest ≤ (151 / 1000 : ℚ)
  fin_max : F64Round.fin K.maxFloat
  max_ge : (2 : ℚ) ^ 200 ≤ F64Round.val K.maxFloat
  fin_tiny : F64Round.fin K.tiny
  tiny_pos : 0 < F64Round.val K.tiny
  tiny_le : F64Round.val K.tiny ≤ 1 / 2 ^ 200

end Gse.Spec
