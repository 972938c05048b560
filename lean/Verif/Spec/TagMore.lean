import Verif.Spec.Idf

/-!
# Naming a word more often
-/

namespace Gse.Spec
open Gse

/-- A number that is not less and not negative, times a share that is not less, is not less. -/
def ShareLaw (F : Type) [F64 F] [F64Count F] : Prop :=
  ∀ (f f' : F) (a b a' b' : Nat), F64Count.num f → F64Count.num f' → F64.lt f (F64.ofNat 0) = false → F64.lt f' f = false →
    1 ≤ a → a ≤ b → b ≤ 2 ^ 53 → 1 ≤ a' → a' ≤ b' → b' ≤ 2 ^ 53 → a * b' ≤ a' * b →
    F64.lt (F64.mul f' (F64.div (F64.ofNat a') (F64.ofNat b'))) (F64.mul f (F64.div (F64.ofNat a) (F64.ofNat b))) = false

/-- No IDF value is below zero. -/
def NonNegIdf {F D : Type} [F64 F] (median : F) (d : Dictionary F D) : Prop :=
  F64.lt median (F64.ofNat 0) = false ∧ ∀ w tok, storedTok d w = some tok → F64.lt tok.freq (F64.ofNat 0) = false

/-- From the items `l` to the items `l'` the word `w` has gained: its share among the words that may become tags has not fallen, and that of
no other such word has risen. -/
def Gains [Unicode] (isStop : Bytes → Bool) (w : Bytes) (l l' : List Bytes) : Prop :=
  tagCount l w * tagTotal isStop l' ≤ tagCount l' w * tagTotal isStop l ∧
  ∀ v, TagWord isStop v → v ≠ w → tagCount l' v * tagTotal isStop l ≤ tagCount l v * tagTotal isStop l'

end Gse.Spec
