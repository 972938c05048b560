import Verif.Model.Copy

/-!
# Which segmenters share a dictionary

Stated without references: every dictionary and every map of stop words is named by the step of the program that made it.
-/

namespace Gse.Spec
open Gse

variable {F : Type}

/-- What a variable has: the step that made its dictionary, whether `LoadDict` has been called on the value, the step that made its
map of stop words. -/
structure Owner where
  dict : Option Nat := none
  load : Bool := false
  stop : Option Nat := none
deriving DecidableEq, Repr

/-- Step `n` is a call on the stop words. -/
def ownStop (n : Nat) (o : Owner) : StopOp → Owner
  | .add _ => o
  | .remove _ => o
  | .empty => { o with stop := none }
  | _ => if o.stop = none then { o with stop := some n } else o

/-- Step `n` is a call on a segmenter. -/
def ownCall (n : Nat) (o : Owner) : SegOp F → Owner
  | .loadStr _ => if o.dict = none then { o with dict := some n } else o
  | .loadMap _ => if o.dict = none then { o with dict := some n } else o
  | .loadEmbed _ => if o.dict = none then { o with dict := some n } else o
  | .loadDict _ _ => if o.load then o else { o with dict := some n, load := true }
  | .empty => { o with dict := none }
  | .stop op => ownStop n o op
  | .dict _ => o
  | .flags _ _ _ => o
  | .settings _ _ _ _ => o

/-- Step `n` of the program. -/
def ownStep (n : Nat) (os : List Owner) : WorldOp F → List Owner
  | .new => os ++ [{}]
  | .assign j i => os.set j (os[i]?.getD {})
  | .call i c => os.modify i fun o => ownCall n o c
  | .toLower _ => os

/-- Who has what after the steps `n, n+1, …`. -/
def ownersFrom : Nat → List (WorldOp F) → List Owner → List Owner
  | _, [], os => os
  | n, op :: ops, os => ownersFrom (n + 1) ops (ownStep n os op)

/-- Who has what after a program. -/
def owners (ops : List (WorldOp F)) : List Owner := ownersFrom 0 ops []

/-- Steps after which variables `i` and `j` still have the dictionary they had before: they are not assigned to and not emptied, and
`LoadDict` is called on them only when `LoadDict` has filled them before (`loaded`). -/
def KeepsBoth (i j : Nat) (loaded : Bool) : WorldOp F → Prop
  | .assign k _ => k ≠ i ∧ k ≠ j
  | .call k .empty => k ≠ i ∧ k ≠ j
  | .call k (.loadDict _ _) => loaded = true ∨ (k ≠ i ∧ k ≠ j)
  | _ => True

/-- The same for the map of stop words. -/
def KeepsStop (i j : Nat) : WorldOp F → Prop
  | .assign k _ => k ≠ i ∧ k ≠ j
  | .call k (.stop .empty) => k ≠ i ∧ k ≠ j
  | _ => True

/-- A step that does not assign to variable `i`. -/
def NoAssign (i : Nat) : WorldOp F → Prop
  | .assign k _ => k ≠ i
  | _ => True

end Gse.Spec
