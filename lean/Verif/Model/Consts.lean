import Verif.Proofs.IeeeOps
import Verif.Model.Hmm
import Verif.Model.TextRank

/-!
# The constants of the code as IEEE numbers

A constant in Go source is exact; it becomes a `float64` by rounding to nearest, ties to even (language specification,
"Conversions").
-/

namespace Gse

variable {M : MathFns}

/-- A constant of the source. -/
def lit (q : ℚ) : Binary64 M := mk64 (Datum.make f64 false q) (Datum.make_ok f64 false q)

/-- `minFloat` and `probStart` (hmm/viterbi.go:22, 35-38), `probTrans` (hmm/prob_trans.go:5-21). The model asks for the eight
transitions in the table only. -/
def shippedHmm : HmmConst (Binary64 M) where
  minFloat := lit (-3.14e100)
  start
    | .B => lit (-0.26268660809250016)
    | .E => lit (-3.14e+100)
    | .M => lit (-3.14e+100)
    | .S => lit (-1.4652633398537678)
  trans
    | .B, .E => lit (-0.510825623765990)
    | .B, .M => lit (-0.916290731874155)
    | .E, .B => lit (-0.5897149736854513)
    | .E, .S => lit (-0.8085250474669937)
    | .M, .E => lit (-0.33344856811948514)
    | .M, .M => lit (-1.2603623820268226)
    | .S, .B => lit (-0.7211965654669841)
    | .S, .S => lit (-0.6658631448798212)
    | _, _ => lit 0

/-- The constants of hmm/idf/textrank.go: `dampingFactor` (line 12), `1 - dampingFactor` (line 114), `math.MaxFloat64` and
`math.SmallestNonzeroFloat64` (lines 118-119; package math: `0x1p1023 * (1 + (1 - 0x1p-52))` and `0x1p-1022 * 0x1p-52`). -/
def shippedRank : RankConst (Binary64 M) where
  damp := lit 0.85
  rest := lit (1 - 0.85)
  maxFloat := lit (2 ^ 1023 * (1 + (1 - 1 / 2 ^ 52)))
  tiny := lit (1 / 2 ^ 1022 * (1 / 2 ^ 52))

end Gse
