import Verif.Model.Unicode

/-!
# Splitting text into words (segmenter.go)
-/

namespace Gse

/-- The `Segmenter` fields read by `SplitTextToWords` (segmenter.go:36-38) and the package variable
`ToLower` (dict_util.go:31-34), which the model passes explicitly. -/
structure SplitCfg where
  alphaNum : Bool := false
  alpha : Bool := false
  num : Bool := false
  toLower : Bool := true
deriving DecidableEq, Repr

/-- One byte of `toLower` (segmenter.go:262-266). -/
def lowByte (b : UInt8) : UInt8 := if 65 ≤ b.toNat && b.toNat ≤ 90 then b - 65 + 97 else b

/-- segmenter.go:259-270 `toLower`: bytewise ASCII lower-casing. -/
def toLowerBytes (t : Bytes) : Bytes := t.map lowByte

/-- segmenter.go:250-256 `toLow`. -/
def toLow (cfg : SplitCfg) (t : Bytes) : Bytes := if cfg.toLower then toLowerBytes t else t

/-- The branch condition segmenter.go:214-217:
`size <= 2 && (unicode.IsLetter(r) && !seg.Alpha || unicode.IsNumber(r) && !seg.Num)`. -/
def alnumAt [U : Unicode] (cfg : SplitCfg) (r : Rune) (size : Nat) : Bool :=
  decide (size ≤ 2) && ((U.isLetter r && !cfg.alpha) || (U.isNumber r && !cfg.num))

/-- Loop of segmenter.go:209-248: `current`, `alphanumericStart`, `inAlphanumeric`, `output`.
Fuel replaces the `for current < len(text)` condition's termination argument. -/
def splitLoop [Unicode] (cfg : SplitCfg) (text : Bytes) :
    Nat → Nat → Nat → Bool → List Bytes → List Bytes
  | 0, current, start, inAl, out =>
    -- segmenter.go:240-247, after the loop
    if inAl && !cfg.alphaNum then
      if current ≠ 0 then out ++ [toLow cfg (slice text start current)] else out
    else out
  | fuel + 1, current, start, inAl, out =>
    if current < text.length then
      let r := (decodeRune (text.drop current)).1
      let size := (decodeRune (text.drop current)).2
      if alnumAt cfg r size then
        let start' := if !inAl then current else start
        let out' := if cfg.alphaNum then out ++ [toLow cfg (slice text current (current + size))] else out
        splitLoop cfg text fuel (current + size) start' true out'
      else
        let out' := if inAl then
            (if current ≠ 0 && !cfg.alphaNum then out ++ [toLow cfg (slice text start current)] else out)
          else out
        splitLoop cfg text fuel (current + size) start false (out' ++ [slice text current (current + size)])
    else
      splitLoop cfg text 0 current start inAl out

/-- segmenter.go:208-248 `SplitTextToWords`. -/
def splitTextToWords [Unicode] (cfg : SplitCfg) (text : Bytes) : List Bytes :=
  splitLoop cfg text text.length 0 0 true []

/-- segmenter.go:202-205 `SplitWords`: split with a zero `Segmenter`. -/
def splitWords [Unicode] (toLower : Bool) (text : Bytes) : List Bytes :=
  splitTextToWords { toLower := toLower } text

end Gse
