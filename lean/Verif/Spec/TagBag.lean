import Verif.Spec.Idf

/-!
# Texts with the same words in the same proportions
-/

namespace Gse.Spec
open Gse

/-- Among the words that may become tags, every one is `n` times in `l` for `m` times in `l'`. -/
def Proportional [Unicode] (isStop : Bytes → Bool) (m n : Nat) (l l' : List Bytes) : Prop :=
  0 < m ∧ 0 < n ∧ ∀ w, TagWord isStop w → m * tagCount l w = n * tagCount l' w

/-- A quotient of whole numbers depends on their ratio only. -/
def RatioLaw (F : Type) [F64 F] : Prop :=
  ∀ a b a' b' : Nat, 0 < b → 0 < b' → a ≤ 2 ^ 53 → b ≤ 2 ^ 53 → a' ≤ 2 ^ 53 → b' ≤ 2 ^ 53 → a * b' = a' * b →
    F64.div (F64.ofNat a : F) (F64.ofNat b) = F64.div (F64.ofNat a') (F64.ofNat b')

end Gse.Spec
