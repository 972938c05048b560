import Verif.Model.Hmm

/-!
# hmm/util/util.go: RegexpSplit
-/

namespace Gse

/-- hmm/util/util.go:42-44: the last piece, after the loop. -/
def regexpSplitEnd (s : Bytes) (begin end_ : Nat) (strs : List Bytes) : Option (List Bytes) :=
  if end_ ≠ s.length then if begin ≤ s.length then some (strs ++ [s.drop begin]) else none else some strs

/-- hmm/util/util.go:27-45: the loop over the matches and what follows it. `groups` is `len(re.SubexpNames()) > 1`.
A slice out of range is a panic, `none`. -/
def regexpSplitLoop (groups : Bool) (s : Bytes) (n : Int) : List (Nat × Nat) → Nat → Nat → List Bytes → Option (List Bytes)
  | [], begin, end_, strs => regexpSplitEnd s begin end_ strs
  | m :: ms, begin, end_, strs =>
    if n > 0 ∧ (strs.length : Int) ≥ n - 1 then regexpSplitEnd s begin end_ strs
    else if m.2 ≠ 0 ∧ ¬ (begin ≤ m.1 ∧ m.1 ≤ s.length) then none
    else
      let strs := if m.2 ≠ 0 then strs ++ [slice s begin m.1] else strs
      if groups then
        if m.1 ≤ m.2 ∧ m.2 ≤ s.length then regexpSplitLoop groups s n ms m.2 m.1 (strs ++ [slice s m.1 m.2]) else none
      else regexpSplitLoop groups s n ms m.2 m.1 strs

/-- hmm/util/util.go:9-47 `RegexpSplit(re, s, n)`: `nonEmpty` is `len(re.String()) > 0`, `all` lists the matches of the
expression in a text (`FindAllStringIndex(s, -1)`, of which a limit `n ≥ 0` leaves the first `n`). -/
def regexpSplit (nonEmpty groups : Bool) (all : Bytes → List (Nat × Nat)) (s : Bytes) (n : Int) : Option (List Bytes) :=
  if n = 0 then some []
  else if nonEmpty ∧ s = [] then some [[]]
  else regexpSplitLoop groups s n (if n < 0 then all s else (all s).take n.toNat) 0 0 []

/-- All matches of an expression that never matches the empty string and does not look behind: the first match, then the
matches in the rest. -/
def findAll (m : Matcher) : Nat → Bytes → Nat → List (Nat × Nat)
  | 0, _, _ => []
  | n + 1, s, off =>
    match m s with
    | none => []
    | some (a, b) => (off + a, off + b) :: findAll m n (s.drop b) (off + b)

/-- `RegexpSplit(re, s, -1)` for such an expression with one group around it. -/
def splitBy (m : Matcher) (s : Bytes) : Option (List Bytes) := regexpSplit true true (fun s => findAll m s.length s 0) s (-1)

end Gse
