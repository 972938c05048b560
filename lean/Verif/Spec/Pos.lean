import Verif.Model.Pos
import Verif.Spec.Hmm
import Verif.Spec.RegexpSplit
import Verif.Spec.Dict

/-!
# Specification of part-of-speech cutting
-/

namespace Gse.Spec

open Gse

/-- The characters that `Cut` of package pos hands to the dictionary: Han characters, ASCII letters and digits and `+`, `#`,
`&`, `.`, `_`. -/
def posChar [U : Unicode] (u : Bytes) : Bool :=
  U.isHan (charRune u) || (str "+#&._").any (fun b => b.toNat = charRune u) || asciiAlnum (charRune u)

/-- The text starts with such a character. -/
def StartsPos [Unicode] (us : List Bytes) : Prop := ∃ u rest, us = u :: rest ∧ posChar u = true

/-- What `Cut` makes of the characters of a text: the maximal runs of dictionary characters are cut, a line break of two
characters is one item, every other character is one item tagged "x". -/
inductive PosOut [Unicode] (cut : Bytes → Option (List SegPos)) : List Bytes → List SegPos → Prop
  | nil : PosOut cut [] []
  | run {us rest : List Bytes} {o l : List SegPos} : us ≠ [] → (∀ u ∈ us, posChar u = true) → ¬ StartsPos rest →
      cut us.flatten = some o → PosOut cut rest l → PosOut cut (us ++ rest) (o ++ l)
  | break {rest : List Bytes} {l : List SegPos} : PosOut cut rest l →
      PosOut cut (str "\r" :: str "\n" :: rest) (⟨str "\r\n", str "x"⟩ :: l)
  | char {u : Bytes} {rest : List Bytes} {l : List SegPos} : posChar u = false → (u = str "\r" → rest.head? ≠ some (str "\n")) →
      PosOut cut rest l → PosOut cut (u :: rest) (⟨encodeRune (charRune u), str "x"⟩ :: l)

/-- Dots and digits. -/
def numChar (u : Bytes) : Bool := (str ".0123456789").any fun b => b.toNat = charRune u

/-- What the state model makes of a run of dictionary characters: the maximal runs of Han characters are cut by their
states, the maximal runs of dots and digits are numbers "m", and what is left between them is "eng" if it has a letter
and "x" otherwise. -/
inductive DetailOut [U : Unicode] (cut : Bytes → Option (List SegPos)) : List Bytes → List SegPos → Prop
  | nil : DetailOut cut [] []
  | han {us rest : List Bytes} {o l : List SegPos} : us ≠ [] → (∀ u ∈ us, U.isHan (charRune u) = true) →
      (∀ u ∈ rest.head?, U.isHan (charRune u) = false) → cut us.flatten = some o → DetailOut cut rest l →
      DetailOut cut (us ++ rest) (o ++ l)
  | num {us rest : List Bytes} {l : List SegPos} : us ≠ [] → (∀ u ∈ us, numChar u = true) →
      (∀ u ∈ rest.head?, numChar u = false) → DetailOut cut rest l → DetailOut cut (us ++ rest) (⟨us.flatten, str "m"⟩ :: l)
  | other {us rest : List Bytes} {l : List SegPos} : us ≠ [] → (∀ u ∈ us, U.isHan (charRune u) = false ∧ numChar u = false) →
      (∀ u ∈ rest.head?, U.isHan (charRune u) = true ∨ numChar u = true) → DetailOut cut rest l →
      DetailOut cut (us ++ rest) (⟨us.flatten, if us.any fun u => asciiAlnum (charRune u) then str "eng" else str "x"⟩ :: l)

/-! ## Words and tags -/

variable {F D : Type} [F64 F] [F32 D]

/-- The tag given to a word: that of the dictionary, but "x" for unknown words and for the word with index 0. -/
def tagOf (d : Dictionary F D) (w : Bytes) : Bytes :=
  if d.trie.value w = some 0 then str "x" else ((storedTok d w).map Token.pos).getD (str "x")

/-- A call that adds the word `k`. -/
def Adds [Unicode] (cfg : SplitCfg) (k : Bytes) : DictOp F → Prop
  | .add t _ _ => normText cfg t = k
  | .addForce t _ _ => normText cfg t = k
  | _ => False

/-- A call that removes the word `k`, perhaps to add it again. -/
def Removes [Unicode] (cfg : SplitCfg) (k : Bytes) : DictOp F → Prop
  | .remove t => normText cfg t = k
  | .reAdd t _ _ => normText cfg t = k
  | _ => False

/-- The first word ever added was `k` and it has not been removed since. -/
def FirstKept [Unicode] (cfg : SplitCfg) (ops : List (DictOp F)) (k : Bytes) : Prop :=
  ∃ pre op post, ops = pre ++ op :: post ∧ (∀ o ∈ pre, ∀ k', ¬ Adds cfg k' o) ∧ Adds cfg k op ∧ ∀ o ∈ post, ¬ Removes cfg k o

/-- What `Cut(text, false)` makes of a piece of the route or of a run of letters and digits. -/
inductive PosNoHmm (d : Dictionary F D) : List (List Rune) → SegPos → Prop
  | eng {g : List (List Rune)} : (∀ t ∈ g, EngPiece t) → PosNoHmm d g ⟨encode g.flatten, str "eng"⟩
  | word {t : List Rune} : ¬ EngPiece t → PosNoHmm d [t] ⟨encode t, tagOf d (encode t)⟩

/-- What `Cut(text, true)` makes of a run of single characters or of a longer piece of the route. -/
inductive PosRun (d : Dictionary F D) (detail : Bytes → Option (List SegPos)) : List (List Rune) → List SegPos → Prop
  | word {t : List Rune} : t.length ≠ 1 → PosRun d detail [t] [⟨encode t, tagOf d (encode t)⟩]
  | one {t : List Rune} : t.length = 1 → PosRun d detail [t] [⟨encode t, tagOf d (encode t)⟩]
  | known {g : List (List Rune)} {tok : Token F D} : 2 ≤ g.length → (∀ t ∈ g, t.length = 1) →
      storedTok d (encode g.flatten) = some tok → F64.eq tok.freq (F64.ofNat 0) = false →
      PosRun d detail g (g.map fun t => ⟨encode t, tagOf d (encode t)⟩)
  | hmm {g : List (List Rune)} {o : List SegPos} : 2 ≤ g.length → (∀ t ∈ g, t.length = 1) →
      (∀ tok, storedTok d (encode g.flatten) = some tok → F64.eq tok.freq (F64.ofNat 0) = true) →
      detail (encode g.flatten) = some o → PosRun d detail g o

/-! ## States -/

/-- Numbers of the positions in a state. -/
def tagCode : Tag → Nat
  | .B => 1
  | .E => 2
  | .M => 3
  | .S => 4

/-- The position of a state. -/
def StateTag (t : Nat) (a : Tag) : Prop := t / 100 = tagCode a

/-- There is a transition between two states. -/
def PosTrans (T : PosTables F) (x y : Nat) : Prop := ∃ v, (T.trans x).get y = some v

/-- States that can follow those of `S`. -/
def posSucc (T : PosTables F) (S : Nat → Prop) (y : Nat) : Prop := ∃ x, S x ∧ PosTrans T x y

/-- States allowed for the character `r` after those of `S`: the successors that are states of `r`, or all successors if
none of them is. -/
def posNext (T : PosTables F) (S : Nat → Prop) (r : Rune) (y : Nat) : Prop :=
  posSucc T S y ∧ (y ∈ T.states r ∨ ∀ z ∈ T.states r, ¬ posSucc T S z)

/-- States allowed for the last character of a text. -/
def posSet (T : PosTables F) : List Rune → Nat → Prop
  | [] => fun _ => False
  | r :: rs => rs.foldl (posNext T) (· ∈ T.states r)

/-- A sequence of states for the characters: each allowed, with a transition from each to the next. -/
structure IsPosPath (T : PosTables F) (rs : List Rune) (ts : List Nat) : Prop where
  length : ts.length = rs.length
  chain : List.IsChain (PosTrans T) ts
  allowed : ∀ p y q, ts = p ++ y :: q → posSet T (rs.take (p.length + 1)) y

/-- Accumulating values after state `y0` with value `v`. -/
def posScoreFrom (T : PosTables F) (v : F) (y0 : Nat) : List (Rune × Nat) → F
  | [] => v
  | p :: ps => posScoreFrom T (F64.add (F64.add v (T.transAt y0 p.2)) (T.emitAt p.2 p.1)) p.2 ps

/-- The accumulated score of characters with states. -/
def posPairScore (T : PosTables F) : List (Rune × Nat) → F
  | [] => F64.ofNat 0
  | p :: ps => posScoreFrom T (F64.add (T.emitAt p.2 p.1) (T.startAt p.2)) p.2 ps

/-- The accumulated score of states for characters. -/
def posScore (T : PosTables F) (rs : List Rune) (ts : List Nat) : F := posPairScore T (rs.zip ts)

/-- `ts` is the best sequence of states: none scores higher, one that does not score lower does not end in a larger
state, and the same holds for the states up to every character among those continued by the same state. -/
structure IsBestPos (T : PosTables F) (rs : List Rune) (ts : List Nat) : Prop where
  path : IsPosPath T rs ts
  highest : ∀ ts', IsPosPath T rs ts' → F64.lt (posScore T rs ts) (posScore T rs ts') = false
  tie : ∀ ts', IsPosPath T rs ts' → F64.lt (posScore T rs ts') (posScore T rs ts) = false →
    ∀ t t', ts.getLast? = some t → ts'.getLast? = some t' → t' ≤ t
  highest' : ∀ p y q, ts = p ++ y :: q → ∀ p', IsPosPath T (rs.take (p.length + 1)) (p' ++ [y]) →
    F64.lt (posScore T (rs.take (p.length + 1)) (p ++ [y])) (posScore T (rs.take (p.length + 1)) (p' ++ [y])) = false
  tie' : ∀ p y q, ts = p ++ y :: q → ∀ p', IsPosPath T (rs.take (p.length + 1)) (p' ++ [y]) →
    F64.lt (posScore T (rs.take (p.length + 1)) (p' ++ [y])) (posScore T (rs.take (p.length + 1)) (p ++ [y])) = false →
    ∀ t t', p.getLast? = some t → p'.getLast? = some t' → t' ≤ t

/-- What the tables must satisfy: transitions lead from one position in a word to a legal next one and never into a
dead end, every character has a state that is not a dead end, and states have a position and a tag. -/
structure PosTablesOK (T : PosTables F) : Prop where
  legal : ∀ x y, PosTrans T x y → ∃ a b, StateTag x a ∧ StateTag y b ∧ Legal a b
  live : ∀ x y, PosTrans T x y → ∃ z, PosTrans T y z
  start : ∀ r, ∃ y ∈ T.states r, ∃ z, PosTrans T y z
  tag : ∀ y, (∃ r, y ∈ T.states r) ∨ (∃ x, PosTrans T x y) → (∃ a, StateTag y a) ∧ y % 100 < T.poss.length

/-- What is assumed about `float64`: the sum of two numbers of size `j` and `k` has size `j + k` as long as this is at most
`bound`, the table values have size 1, and `inf` is below all numbers of some size and absorbs them. With IEEE 754 numbers
this holds for `-Inf`, sizes in units of `2^334` and the bound `2^53`. -/
structure PosFinite (T : PosTables F) (bound : Nat) (size : Nat → F → Prop) : Prop where
  add : ∀ {j k : Nat} {a b : F}, size j a → size k b → j + k ≤ bound → size (j + k) (F64.add a b)
  minFloat : size 1 T.minFloat
  start : ∀ y, size 1 (T.startAt y)
  emit : ∀ y r v, T.emit y r = some v → size 1 v
  trans : ∀ x y v, (T.trans x).get y = some v → size 1 v
  add_inf : ∀ {k : Nat} {a : F}, size k a → F64.add a T.inf = T.inf
  inf_add : ∀ {k : Nat} {a : F}, size k a → F64.add T.inf a = T.inf
  inf_lt : ∀ {k : Nat} {a : F}, size k a → F64.lt T.inf a = true
  not_lt_inf : ∀ {k : Nat} {a : F}, size k a → F64.lt a T.inf = false
  inf_ne : ∀ {k : Nat} {a : F}, size k a → F64.eq T.inf a = false

/-- The tables use only values of the assumed range. -/
structure GoodPos [F64Laws F] (T : PosTables F) : Prop where
  minFloat : F64Laws.good T.minFloat
  inf : F64Laws.good T.inf
  start : ∀ y, F64Laws.good (T.startAt y)
  emit : ∀ y r v, T.emit y r = some v → F64Laws.good v
  trans : ∀ x y v, (T.trans x).get y = some v → F64Laws.good v

/-- A state that ends a word. -/
def EndsState (t : Nat) : Prop := StateTag t .E ∨ StateTag t .S

/-- The tagged words of characters with states: a word ends at each state of position E or S and has its tag, what is
left over is a word with the tag of its first state. -/
inductive StateWords (poss : List Bytes) : List Rune → List Nat → List SegPos → Prop
  | nil : StateWords poss [] [] []
  | word {w rest : List Rune} {inner ts : List Nat} {last : Nat} {p : Bytes} {ws : List SegPos} : w.length = inner.length + 1 →
      (∀ t ∈ inner, ¬ EndsState t) → EndsState last → poss[last % 100]? = some p → StateWords poss rest ts ws →
      StateWords poss (w ++ rest) (inner ++ last :: ts) (⟨encode w, p⟩ :: ws)
  | rest {w : List Rune} {t : Nat} {ts : List Nat} {p : Bytes} : w.length = ts.length + 1 → (∀ u ∈ t :: ts, ¬ EndsState u) →
      poss[t % 100]? = some p → StateWords poss w (t :: ts) [⟨encode w, p⟩]

end Gse.Spec
