import Mathlib.Algebra.Order.Ring.Rat
import Mathlib.Algebra.Order.Group.Abs
import Mathlib.Order.Monotone.Basic
import Verif.Spec.Idf

/-!
# Rounding

What theorems on the size of `float64` results assume: an operation returns the exact result rounded, rounding is monotone and
its error is small. IEEE 754 arithmetic satisfies this: `fin` are the finite numbers, `val` their values, `rnd` is rounding to
nearest.
-/

namespace Gse

class F64Round (F : Type) [F64 F] extends F64Count F where
  fin : F → Prop
  val : F → ℚ
  rnd : ℚ → ℚ
  rnd_mono : Monotone rnd
  rnd_zero : rnd 0 = 0
  rnd_err : ∀ q, |rnd q - q| ≤ |q| / 2 ^ 53 + 1 / 2 ^ 253
  fin_num : ∀ {x : F}, fin x → num x
  lt_iff : ∀ {x y : F}, fin x → fin y → (F64.lt x y = true ↔ val x < val y)
  ofNat_val : ∀ n : Nat, n ≤ 2 ^ 53 → fin (F64.ofNat n : F) ∧ val (F64.ofNat n : F) = n
  add_val : ∀ {x y : F}, fin x → fin y → |val x + val y| ≤ 2 ^ 200 → fin (F64.add x y) ∧ val (F64.add x y) = rnd (val x + val y)
  sub_val : ∀ {x y : F}, fin x → fin y → |val x - val y| ≤ 2 ^ 200 → fin (F64.sub x y) ∧ val (F64.sub x y) = rnd (val x - val y)
  mul_val : ∀ {x y : F}, fin x → fin y → |val x * val y| ≤ 2 ^ 200 → fin (F64.mul x y) ∧ val (F64.mul x y) = rnd (val x * val y)
  div_val : ∀ {x y : F}, fin x → fin y → val y ≠ 0 → |val x / val y| ≤ 2 ^ 200 → fin (F64.div x y) ∧ val (F64.div x y) = rnd (val x / val y)

end Gse
