import Verif.Model.Consts
import Verif.Model.Pos
import Verif.Model.PosData

/-!
# hmm/pos with its tables
-/

namespace Gse

variable {M : MathFns}

/-- A decimal of the tables. -/
def decimal (p : Nat × Nat) : Binary64 M := lit (-((p.1 : ℚ) / 10 ^ p.2))

/-- The tables: hmm/pos/prob_trans.go:7, 19-285, hmm/pos/prob_start.go:3-260, hmm/pos/char_state_tab.go:60-6714, `minFloat` of
hmm/pos/prob_emit.go:5. `probTransKeys` has the keys of `probTrans` in the order of a map iteration (hmm/pos/prob_trans.go:281-285); here it is
that of the source. Simplification: the 89290 values of `probEmit` (hmm/pos/prob_emit.go:17-89564) are a parameter. -/
noncomputable def shippedPos (emit : Nat → Rune → Option (Binary64 M)) : PosTables (Binary64 M) where
  keys := PosData.trans.map (·.1)
  trans x := ((PosData.trans.lookup x).getD []).map fun p => (p.1, decimal p.2)
  start y := (PosData.start.lookup y).map decimal
  emit := emit
  minFloat := lit (-3.14e100)
  inf := mk64 (.inf true) trivial
  tab r := PosData.chars.lookup r
  poss := PosData.poss

end Gse
