import Verif.Model.Float
import Mathlib.Data.Int.Log
import Mathlib.Data.Rat.Floor

/-!
# IEEE 754 arithmetic

Go's `float64` and `float32` are IEEE 754 binary64 and binary32 (language specification, "Numeric types"), and an operation
returns the exact result rounded to nearest, ties to even. This file defines both formats with NaN, infinities, signed zeros,
subnormal numbers and overflow, so that the laws assumed elsewhere about floats can be proved instead (Proofs/Ieee.lean).

Not modelled: the bits of a NaN (Go programs here never look at them). Go may fuse `x*y + z` on some architectures
(specification, "Floating-point operators"), which rounds once instead of twice; that is outside this model.
-/

namespace Gse

/-- A binary format: `p` bits of precision, smallest exponent `emin` (of a unit in the last place), finite numbers below
`2 ^ emax`. -/
structure Format where
  p : Nat
  emin : Int
  emax : Nat
  p_pos : 1 ≤ p
  emin_le : emin ≤ 0
  p_le : p ≤ emax

/-- binary64 -/
def f64 : Format := ⟨53, -1074, 1024, by decide, by decide, by decide⟩

/-- binary32 -/
def f32 : Format := ⟨24, -149, 128, by decide, by decide, by decide⟩

/-- Round to the nearest integer, ties to even. -/
def rne (x : ℚ) : ℤ :=
  if Int.fract x < 1 / 2 then ⌊x⌋ else if 1 / 2 < Int.fract x then ⌊x⌋ + 1 else if ⌊x⌋ % 2 = 0 then ⌊x⌋ else ⌊x⌋ + 1

namespace Format

/-- The exponent of the unit in the last place at `q`. -/
def ulpExp (f : Format) (q : ℚ) : ℤ := max (Int.log 2 |q| - (f.p - 1)) f.emin

/-- Round to nearest, ties to even, with unbounded exponents above. -/
def round (f : Format) (q : ℚ) : ℚ := rne (q / 2 ^ f.ulpExp q) * 2 ^ f.ulpExp q

end Format

/-- A datum: NaN, an infinity, or a finite number with its sign bit (which matters for zero only). -/
inductive Datum
  | nan
  | inf (neg : Bool)
  | fin (neg : Bool) (q : ℚ)
deriving DecidableEq

namespace Datum

/-- The datum belongs to the format: the number is not changed by rounding, is below the overflow limit, and the sign bit
is that of the number. -/
def Ok (f : Format) : Datum → Prop
  | nan => True
  | inf _ => True
  | fin s q => f.round q = q ∧ |q| < 2 ^ f.emax ∧ (q < 0 → s = true) ∧ (0 < q → s = false)

end Datum

/-- Rounding an exact result; `s` is the sign of a zero. Overflow gives an infinity. -/
def Datum.make (f : Format) (s : Bool) (q : ℚ) : Datum :=
  if q = 0 then .fin s 0
  else if 2 ^ f.emax ≤ |f.round q| then .inf (decide (q < 0))
  else .fin (decide (q < 0)) (f.round q)

namespace Datum

variable (f : Format)

/-- `-x` -/
def neg : Datum → Datum
  | nan => nan
  | inf s => inf (!s)
  | fin s q => fin (!s) (-q)

/-- `x + y` -/
def add : Datum → Datum → Datum
  | fin s q, fin t r => make f (s && t) (q + r)
  | inf s, inf t => if s = t then inf s else nan
  | inf s, fin _ _ => inf s
  | fin _ _, inf t => inf t
  | _, _ => nan

/-- `x * y` -/
def mul : Datum → Datum → Datum
  | fin s q, fin t r => make f (s ^^ t) (q * r)
  | inf s, inf t => inf (s ^^ t)
  | inf s, fin t r => if r = 0 then nan else inf (s ^^ t)
  | fin s q, inf t => if q = 0 then nan else inf (s ^^ t)
  | _, _ => nan

/-- `x / y` -/
def div : Datum → Datum → Datum
  | fin s q, fin t r => if r = 0 then if q = 0 then nan else inf (s ^^ t) else make f (s ^^ t) (q / r)
  | inf _, inf _ => nan
  | inf s, fin t _ => inf (s ^^ t)
  | fin s _, inf t => fin (s ^^ t) 0
  | _, _ => nan

/-- `x < y` -/
def lt : Datum → Datum → Bool
  | fin _ q, fin _ r => decide (q < r)
  | inf s, inf t => s && !t
  | inf s, fin _ _ => s
  | fin _ _, inf t => !t
  | _, _ => false

/-- `x == y` -/
def eq : Datum → Datum → Bool
  | fin _ q, fin _ r => decide (q = r)
  | inf s, inf t => s == t
  | _, _ => false

/-- The integer part (`math.Modf`); the integer part of a number of the format is one, `make` does not change it. -/
def trunc : Datum → Datum
  | fin s q => make f s (if q < 0 then ⌈q⌉ else ⌊q⌋)
  | x => x

/-- `float32(x)`; rounding to the format. -/
def convert : Datum → Datum
  | fin s q => make f s q
  | x => x

/-- `float64(n)`, `float32(n)` -/
def ofNat (n : Nat) : Datum := make f false n

end Datum

/-- Go's `float32`. -/
@[ext] structure Binary32 where
  datum : Datum
  ok : datum.Ok f32

/-- The numbers of binary64. -/
@[ext] structure Num64 where
  datum : Datum
  ok : datum.Ok f64

/-- The functions of package math and `strconv.ParseFloat` on `float64`, about which nothing is assumed. -/
structure MathFns where
  log : Num64 → Num64
  log2 : Num64 → Num64
  exp : Num64 → Num64
  parse : Bytes → Num64 × Bool

/-- Go's `float64`, with the functions of package math. -/
@[ext] structure Binary64 (M : MathFns) where
  num : Num64

/-- The datum. -/
abbrev Binary64.datum {M : MathFns} (x : Binary64 M) : Datum := x.num.datum

end Gse
