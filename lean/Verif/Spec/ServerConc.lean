import Verif.Spec.Server
import Verif.Model.ServerMem
import Verif.Props.ConcCalc

/-! # The server with many requests at the same time: what is to be shown -/

namespace Gse.Spec

variable {F D : Type}

/-- The text a request brings. -/
def Brings (text : Bytes) : ServerReq → Prop
  | .add q => HasParam q (str "text") text
  | .json q f => Asks q f text

/-- The handlers of these requests, each with the place of its text. A request that comes in later is a goroutine that is not scheduled before. -/
def startServer [F64 F] [F32 D] [Narrow F D] [Unicode] (m : Mem F D) (E : ServerEnv F) (reqs : List (ServerReq × Slice)) : Config F D JVal :=
  ⟨m, reqs.map fun x => handlerP E x.2 x.1⟩

/-- Memory holds the segmenter with room for another token, the model and the texts. -/
structure ServingOK (m : Mem F D) (E : ServerEnv F) (d : Dictionary F D) (reqs : List (ServerReq × Slice)) : Prop where
  segmenter : HoldsSegmenter m E.cfg (some d)
  totalFreq : m .totalFreq = some (.freq d.totalFreq)
  emit : m .emit = some (.emit E.emit)
  room : HasRoom m d.tokens.length
  subs : ∀ i, i < d.tokens.length → (m (.subs i)).isSome
  inputs : ∀ x ∈ reqs, ∃ text, Brings text x.1 ∧ HoldsBytes m x.2 text

/-- Request number `k` is the only one to `/add`; it and all others bring a text. -/
structure OneAdd (reqs : List (ServerReq × Slice)) (k : Nat) (q : List (Bytes × Bytes)) : Prop where
  here : ∃ r, reqs[k]? = some (.add q, r)
  text : ∃ t, HasParam q (str "text") t ∧ t ≠ []
  others : ∀ (i : Nat) x, i ≠ k → reqs[i]? = some x → ∃ q f text, x.1 = .json q f ∧ Asks q f text ∧ text ≠ []

/-- The request adds a word that is not stored yet. -/
def AddsNew [F64 F] [F32 D] [Narrow F D] [Unicode] (E : ServerEnv F) (d : Dictionary F D) (q : List (Bytes × Bytes)) : Prop :=
  ∃ d' v, handle E d (.add q) = some (d', v) ∧ d'.numTokens ≠ d.numTokens

end Gse.Spec
