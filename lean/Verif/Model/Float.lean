import Verif.Model.Utf8

/-!
# Floating point operations as parameters

The model is generic over a type `F` for Go `float64` and `D` for Go `float32`. The operation classes carry no
laws except `0 == 0` and `!(0 < 0)`, so a theorem that only assumes them holds for IEEE arithmetic with NaN, infinities and rounding.
-/

namespace Gse

/-- The `float64` operations used in /repo (dict_util.go:276-293, 456-461, dag.go:167-201, 378-430,
dictionary.go:64, hmm/, …). `lt a b` is Go `a < b`, `eq a b` is Go `a == b`. -/
class F64 (F : Type) where
  /-- `float64(n)` for a natural constant or conversion -/
  ofNat : Nat → F
  add : F → F → F
  sub : F → F → F
  mul : F → F → F
  div : F → F → F
  lt : F → F → Bool
  eq : F → F → Bool
  /-- `math.Log` -/
  log : F → F
  /-- `math.Log2` -/
  log2 : F → F
  /-- `math.Exp` -/
  exp : F → F
  /-- the integer part, first result of `math.Modf` -/
  trunc : F → F
  /-- `strconv.ParseFloat(s, 64)`: value and "err != nil" -/
  parse : Bytes → F × Bool
  /-- `0 == 0`; needed for the tests `freq == 0.0` (dict_util.go:122, 366, dict_1.16.go:113) -/
  zero_eq_zero : eq (ofNat 0) (ofNat 0) = true
  /-- `0 < 0` is false; needed for the tests `freq > 0` (dag.go:147, 364) -/
  zero_lt_zero : lt (ofNat 0) (ofNat 0) = false

/-- The `float32` operations used by the path search (segmenter.go:104-199) and `CalcToken`
(dict_util.go:456-461). `gt a b` is Go `a > b`, `isZero a` is Go `a == 0`. -/
class F32 (D : Type) where
  /-- the constant `0` and the zero value of the type -/
  zero : D
  /-- the constant `32` (segmenter.go:151) -/
  c32 : D
  add : D → D → D
  sub : D → D → D
  isZero : D → Bool
  gt : D → D → Bool
  /-- `0 == 0`; the only fact about floats that structural theorems use. -/
  isZero_zero : isZero zero = true

/-- Conversion `float32(x)` (dict_util.go:457,460). -/
class Narrow (F D : Type) where
  narrow : F → D

end Gse

namespace Gse

/-- Integer stand-ins for the float types, used only to show by evaluation that hypotheses can be met. -/
@[instance_reducible] def sampleF64 : F64 Int where
  ofNat n := n
  add := (· + ·)
  sub := (· - ·)
  mul := (· * ·)
  div := (· / ·)
  lt a b := decide (a < b)
  eq a b := decide (a = b)
  log x := Nat.log2 x.toNat
  log2 x := Nat.log2 x.toNat
  exp x := 2 ^ x.toNat
  parse s :=
    if s.isEmpty || s.any (fun b => decide (b.toNat < 48) || decide (57 < b.toNat)) then (0, true)
    else (s.foldl (fun n b => n * 10 + (b.toNat - 48)) 0, false)
  trunc := id
  zero_eq_zero := rfl
  zero_lt_zero := rfl

/-- See `sampleF64`. -/
@[instance_reducible] def sampleF32 : F32 Int where
  zero := 0
  c32 := 32
  add := (· + ·)
  sub := (· - ·)
  isZero a := decide (a = 0)
  gt a b := decide (b < a)
  isZero_zero := rfl

/-- See `sampleF64`. -/
@[instance_reducible] def sampleNarrow : Narrow Int Int := ⟨id⟩

end Gse
