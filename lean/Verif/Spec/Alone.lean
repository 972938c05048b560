import Verif.Spec.Calls

/-!
# Goroutines without a data race, and goroutines alone

What goroutine `i` did in an execution, and when a goroutine by itself is safe; the calls on a dictionary that must meet another such call.
-/

namespace Gse

variable {F D α : Type}

namespace Spec

/-- The accesses of goroutine `i`, in their order, as those of the only goroutine of an execution. -/
def ownAccesses (i : Nat) (tr : List (Nat × Access)) : List (Nat × Access) := (tr.filter fun x => x.1 == i).map fun x => (0, x.2)

/-- By itself the goroutine never panics. -/
def SafeAlone (m : Mem F D) (p : Prog F D α) : Prop := ∀ tr c, Exec ⟨m, [p]⟩ tr c → c.threads ≠ [.panic]

variable [F64 F] [F32 D] [Narrow F D] [Unicode]

/-- Every goroutine makes one call on the same dictionary; it ends with `err != nil`. -/
def startEach (m : Mem F D) (xs : List (Slice × DictOp F)) : Config F D Bool := ⟨m, xs.map fun x => x.2.prog x.1⟩

/-- The call appends a token: it adds a new word, or adds a stored one again. -/
def StoresNew (cfg : SplitCfg) (d : Dictionary F D) (op : DictOp F) : Prop :=
  (∃ s f p, op = .add s f p ∨ op = .addForce s f p ∨ op = .reAdd s f p) ∧ ∃ d' e, op.result cfg d = some (d', e) ∧ d'.numTokens ≠ d.numTokens

/-- The call takes a word out (before it is put in again, perhaps): the removal does not return an error. -/
def TakesOut (cfg : SplitCfg) (d : Dictionary F D) (op : DictOp F) : Prop :=
  (∃ s f p, op = .remove s ∨ op = .reAdd s f p) ∧ ∃ d', segRemoveToken cfg d op.text = some (d', false)

/-- Both calls recompute a table with a word in it; or one stores a word; or one takes a word out,
and the other is no bare `CalcToken` or the table has a word that is split into more than one. -/
def Collide (cfg : SplitCfg) (d : Dictionary F D) (x y : DictOp F) : Prop :=
  (x.recalculates = true ∧ y.recalculates = true ∧ 0 < d.numTokens) ∨ StoresNew cfg d x ∨
    (TakesOut cfg d x ∧ (y ≠ .recalc ∨ ∃ t ∈ d.tokens, 1 < t.text.length))

end Spec
end Gse
