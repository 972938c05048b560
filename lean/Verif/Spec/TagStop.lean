import Verif.Spec.Idf

/-!
# One more stop word
-/

namespace Gse.Spec
open Gse

/-- Products with quotients compare the same whatever the common divisor is. -/
def DivisorLaw (F : Type) [F64 F] [F64Count F] : Prop :=
  ∀ (f g : F) (a b t t' : Nat), F64Count.num f → F64Count.num g → 1 ≤ a → a ≤ t → a ≤ t' → 1 ≤ b → b ≤ t → b ≤ t' → t ≤ 2 ^ 53 → t' ≤ 2 ^ 53 →
    F64.lt (F64.mul f (F64.div (F64.ofNat a) (F64.ofNat t))) (F64.mul g (F64.div (F64.ofNat b) (F64.ofNat t))) =
      F64.lt (F64.mul f (F64.div (F64.ofNat a) (F64.ofNat t'))) (F64.mul g (F64.div (F64.ofNat b) (F64.ofNat t')))

/-- Every stop word of the one is a stop word of the other. -/
def MoreStops (isStop isStop' : Bytes → Bool) : Prop := ∀ w, isStop w = true → isStop' w = true

end Gse.Spec
