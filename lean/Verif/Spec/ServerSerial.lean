import Verif.Spec.ServerConc
import Verif.Spec.Order

/-! # Requests that are handled one after the other: what is to be shown -/

namespace Gse.Spec

variable {F D : Type}

/-- Memory holds the segmenter with room for a token per request, the model and the texts. -/
structure QueueOK (m : Mem F D) (E : ServerEnv F) (d : Dictionary F D) (reqs : List (ServerReq × Slice)) : Prop where
  segmenter : HoldsSegmenter m E.cfg (some d)
  totalFreq : m .totalFreq = some (.freq d.totalFreq)
  emit : m .emit = some (.emit E.emit)
  room : ∀ k, k < reqs.length → HasRoom m (d.tokens.length + k)
  subs : ∀ i, i < d.tokens.length → (m (.subs i)).isSome
  inputs : ∀ x ∈ reqs, ∃ text, Brings text x.1 ∧ HoldsBytes m x.2 text

/-- The requests in this order. -/
def inOrder (reqs : List (ServerReq × Slice)) (order : List Nat) : List ServerReq := order.filterMap fun i => (reqs[i]?).map (·.1)

end Gse.Spec
