import Verif.Model.History
import Verif.Model.CalcMem
import Verif.Model.RemoveMem
import Verif.Spec.Conc

/-!
# A goroutine that makes calls on a dictionary one after another

The calls with the places of their texts, the program of the goroutine, what the calls answer, and what is to be in memory at the start.
-/

namespace Gse

variable {F D : Type} [F64 F] [F32 D] [Narrow F D] [Unicode]

/-- What a call of the dictionary API (dict_util.go:75-104, 454) does to the dictionary, and whether it returns an error; `CalcToken` returns nothing. -/
def DictOp.result (cfg : SplitCfg) (d : Dictionary F D) : DictOp F → Option (Dictionary F D × Bool)
  | .add t f p => some (segAddToken cfg d t f p)
  | .addForce t f p => segAddTokenForce cfg d t f p
  | .remove t => segRemoveToken cfg d t
  | .reAdd t f p => segReAddToken cfg d t f p
  | .recalc => (calcToken d).map fun d' => (d', false)

/-- The text given to the call. -/
def DictOp.text : DictOp F → Bytes
  | .add t _ _ | .addForce t _ _ | .remove t | .reAdd t _ _ => t
  | .recalc => []

/-- The call computes distances and sub-segments of all tokens anew. -/
def DictOp.recalculates : DictOp F → Bool
  | .addForce _ _ _ | .recalc => true
  | _ => false

/-- The call as a program over memory, with its text at `r` (dict_util.go:75-104, 454). -/
def DictOp.prog (r : Slice) : DictOp F → Prog F D Bool
  | .add _ f p => addTokenP r f p
  | .addForce _ f p => addTokenForceP r f p
  | .remove _ => removeTokenP r
  | .reAdd _ f p => reAddTokenP r f p
  | .recalc => do
    calcTokenP
    .ret false

/-- The calls one after another; the result is the list of `err != nil`. -/
def callsP : List (Slice × DictOp F) → Prog F D (List Bool)
  | [] => .ret []
  | x :: xs => do
    let e ← x.2.prog x.1
    let es ← callsP xs
    .ret (e :: es)

namespace Spec

/-- The errors of the calls, made one after another. -/
def answers (cfg : SplitCfg) : List (DictOp F) → Dictionary F D → List Bool
  | [], _ => []
  | op :: ops, d => match op.result cfg d with
    | some (d', e) => e :: answers cfg ops d'
    | none => []

/-- One goroutine makes the calls. -/
def startCallsOn (m : Mem F D) (xs : List (Slice × DictOp F)) : Config F D (List Bool) := ⟨m, [callsP xs]⟩

/-- Memory holds the segmenter, its dictionary with room for a token per call, and the texts of the calls. -/
structure HistoryOK (m : Mem F D) (cfg : SplitCfg) (d : Dictionary F D) (xs : List (Slice × DictOp F)) : Prop where
  segmenter : HoldsSegmenter m cfg (some d)
  totalFreq : m .totalFreq = some (.freq d.totalFreq)
  subs : ∀ i, i < d.tokens.length → (m (.subs i)).isSome
  room : ∀ k, k < xs.length → HasRoom m (d.tokens.length + k)
  texts : ∀ x ∈ xs, x.2 ≠ .recalc → HoldsBytes m x.1 x.2.text

/-- How many of the calls recompute everything. -/
def recalcs (ops : List (DictOp F)) : Nat := ops.countP (·.recalculates)

/-- The bytes of all words of the table, removed ones included. -/
def tableBytes (d : Dictionary F D) : Nat := (d.tokens.map fun t => t.text.flatten.length).sum

end Spec

end Gse
