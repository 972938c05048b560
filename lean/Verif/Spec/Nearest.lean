import Verif.Model.Ieee

/-!
# Rounding as IEEE 754 words it

Section 4.3.1 (roundTiesToEven) and 7.4 (overflow) of the standard, without the algorithm of Model/Ieee.lean.
-/

namespace Gse

/-- A number of the format, without a greatest one: a significand of `p` bits times a power of two. -/
def Format.Rep (f : Format) (r : ℚ) : Prop := ∃ m e : ℤ, |m| < 2 ^ f.p ∧ f.emin ≤ e ∧ r = m * 2 ^ e

/-- `r` is the number of the format nearest to `q`. If another is as near, then `r` is an even multiple of the distance of the two. -/
structure Nearest (f : Format) (q r : ℚ) : Prop where
  rep : f.Rep r
  near : ∀ r', f.Rep r' → |r - q| ≤ |r' - q|
  even : ∀ r', f.Rep r' → r' ≠ r → |r' - q| = |r - q| → ∃ k : ℤ, r = 2 * k * |r' - r|

/-- The greatest finite number. -/
def Format.greatest (f : Format) : ℚ := (2 ^ f.p - 1) * 2 ^ (f.emax - f.p)

/-- `x` is the exact result `q` rounded: `q` at least half a unit in the last place above the greatest number is an infinity of
the sign of `q`, any other `q` the nearest number; the result has the sign of `q`, if that is not zero. -/
structure Rounded (f : Format) (q : ℚ) (x : Datum) : Prop where
  over : f.greatest + 2 ^ (f.emax - f.p) / 2 ≤ |q| → x = .inf (decide (q < 0))
  fits : |q| < f.greatest + 2 ^ (f.emax - f.p) / 2 → ∃ s r, x = .fin s r ∧ Nearest f q r ∧ (q < 0 → s = true) ∧ (0 < q → s = false)

end Gse
