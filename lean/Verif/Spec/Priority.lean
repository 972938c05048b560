import Verif.Model.Load

/-!
# Which of several dictionaries decides about a word

Stated by what `Find` answers.
-/

namespace Gse.Spec
open Gse

variable {F D : Type} [F64 F] [F32 D] [Narrow F D]

/-- `Find(w)` answers frequency `v`, which is not zero, and tag `p`. -/
def Stores (s : Segmenter F D) (w : Bytes) (v : F) (p : Bytes) : Prop :=
  ∃ d, s.dict = some d ∧ d.find w = some (v, p, true) ∧ F64.eq v (F64.ofNat 0) = false

/-- `Find(w)` answers frequency zero and no tag. -/
def Lacks (s : Segmenter F D) (w : Bytes) : Prop :=
  ∃ d b, s.dict = some d ∧ d.find w = some (F64.ofNat 0, [], b)

/-- After `LoadDict(name)` alone on `s`, without error. -/
def Alone [Unicode] (mid : Segmenter.ScanErr) (join : Bytes → Bytes) (fs : Bytes → Option Bytes) (s : Segmenter F D) (name : Bytes) (P : Segmenter F D → Prop) : Prop :=
  ∃ s', s.loadDict mid join fs (some name) = some (s', false) ∧ P s'

end Gse.Spec
