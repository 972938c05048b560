import Verif.Spec.Conc
import Verif.Model.Dict
import Verif.Model.Split

/-!
# Specification of `CalcToken` in memory
-/

namespace Gse

variable {F D : Type}

/-- The slice `r` holds pointers to these segments. -/
def HoldsPtrs (m : Mem F D) (r : Slice) (segs : List Seg) : Prop :=
  r.len = segs.length ∧ ∀ k s, segs[k]? = some s →
    ∃ a i p, m (.cell r.arr (r.off + k)) = some (.segPtr (some (a, i))) ∧ m (.cell a i) = some (.seg ⟨s.start, s.stop, some p⟩) ∧ RefIs m p s.tok

/-- Memory holds the sub-segments of all tokens of the dictionary. -/
def HoldsSubs (m : Mem F D) (d : Dictionary F D) : Prop :=
  ∀ i t, d.tokens[i]? = some t → ∃ r, m (.subs i) = some (.subs r) ∧ HoldsPtrs m r t.segments

/-- Some words of the text, one after the other, are a word that `Dict.Value` knows. -/
def HasWord [Unicode] (cfg : SplitCfg) (d : Dictionary F D) (s : Bytes) : Prop :=
  ∃ l ws r, splitTextToWords cfg s = l ++ ws ++ r ∧ ws ≠ [] ∧ (d.valueOf ws.flatten).2 = false

end Gse
