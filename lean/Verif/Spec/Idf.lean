import Verif.Model.Idf
import Verif.Spec.Dag
import Verif.Spec.Trim

/-!
# Specification of keyword extraction
-/

namespace Gse

/-- What the keyword theorems assume about `float64`: on numbers (no NaN) `<` is a strict weak order with equivalence `==`;
sums of small integers are exact; a number times a quotient of such integers between 2^-53 and 1 is a number. All hold for
IEEE binary64. -/
class F64Count (F : Type) [F64 F] where
  num : F → Prop
  lt_asymm : ∀ {a b : F}, num a → num b → F64.lt a b = true → F64.lt b a = false
  lt_cotrans : ∀ {a b c : F}, num a → num b → num c → F64.lt a c = true → F64.lt a b = true ∨ F64.lt b c = true
  eq_iff : ∀ {a b : F}, num a → num b → (F64.eq a b = true ↔ F64.lt a b = false ∧ F64.lt b a = false)
  ofNat_add : ∀ a b : Nat, a + b ≤ 2 ^ 53 → F64.add (F64.ofNat a : F) (F64.ofNat b) = F64.ofNat (a + b)
  num_zero : num (F64.ofNat 0)
  num_ratio : ∀ (f : F) (a b : Nat), num f → 1 ≤ a → a ≤ b → b ≤ 2 ^ 53 → num (F64.mul f (F64.div (F64.ofNat a) (F64.ofNat b)))

namespace Spec

open Gse

variable {F D : Type} [F64 F] [F32 D]

/-- Bytewise order of texts. -/
def TextBefore (a b : Bytes) : Prop := List.Lex (fun x y : UInt8 => x.toNat < y.toNat) a b

/-- `a` comes before `b` in a result: larger weight, or equal weights and the later text. -/
def Above (a b : WordWeight F) : Prop :=
  F64.lt b.weight a.weight = true ∨
  (F64.lt b.weight a.weight = false ∧ F64.lt a.weight b.weight = false ∧ TextBefore b.text a.text)

/-- A word that may become a tag: two characters or more, no stop word. -/
def TagWord (isStop : Bytes → Bool) (w : Bytes) : Prop := 2 ≤ (runes w).length ∧ isStop w = false

instance (isStop : Bytes → Bool) (w : Bytes) : Decidable (TagWord isStop w) := by unfold TagWord; infer_instance

/-- How often a word is among the items, blanks around them aside. -/
def tagCount [Unicode] (items : List Bytes) (w : Bytes) : Nat := (items.filter fun x => trimSpace x = w).length

/-- How many items may become tags. -/
def tagTotal [Unicode] (isStop : Bytes → Bool) (items : List Bytes) : Nat :=
  (items.filter fun x => decide (TagWord isStop (trimSpace x))).length

open Classical in
/-- The IDF of a word: the stored value, 0 when the word only begins stored words, else the median. -/
noncomputable def idfOf (median : F) (d : Dictionary F D) (w : Bytes) : F :=
  match storedTok d w with
  | some tok => tok.freq
  | none => if StartsStored d w then F64.ofNat 0 else median

/-- The weight of a word: its IDF times its share among the items that may become tags. -/
noncomputable def tagWeight [Unicode] (isStop : Bytes → Bool) (median : F) (d : Dictionary F D) (items : List Bytes) (w : Bytes) : F :=
  F64.mul (idfOf median d w) (F64.div (F64.ofNat (tagCount items w)) (F64.ofNat (tagTotal isStop items)))

/-- `tags` are the `k` first of the words that may become tags. -/
structure IsTopTags [Unicode] (isStop : Bytes → Bool) (median : F) (d : Dictionary F D) (items : List Bytes) (k : Nat)
    (tags : List (WordWeight F)) : Prop where
  word : ∀ t ∈ tags, TagWord isStop t.text ∧ ∃ x ∈ items, trimSpace x = t.text
  weight : ∀ t ∈ tags, t.weight = tagWeight isStop median d items t.text
  distinct : (tags.map (·.text)).Nodup
  ordered : tags.Pairwise Above
  most : tags.length ≤ k
  complete : ∀ x ∈ items, TagWord isStop (trimSpace x) → (∃ t ∈ tags, t.text = trimSpace x) ∨
    (tags.length = k ∧ ∀ t ∈ tags, Above t ⟨trimSpace x, tagWeight isStop median d items (trimSpace x)⟩)

/-- All IDF values are numbers. -/
def NumIdf [F64Count F] (median : F) (d : Dictionary F D) : Prop :=
  F64Count.num median ∧ ∀ w tok, storedTok d w = some tok → F64Count.num tok.freq

/-- A value of the middle rank of a list: at most half of the list below, less than half above. -/
def IsMiddle (l : List F) (m : F) : Prop :=
  m ∈ l ∧ (l.filter fun x => F64.lt x m).length ≤ l.length / 2 ∧ (l.filter fun x => F64.lt m x).length < l.length - l.length / 2

/-- Some call in the history names the word as a stop word through whatever value: an `AddStop`, or a `LoadDict`
that succeeds on a value through which the word was read, now or earlier. -/
inductive ReadBy (join : Bytes → Bytes) (i : Nat) (w : Bytes) : List IdfStopOp → Prop
  | mk (a : List IdfStopOp) (fs : Bytes → Option Bytes) (arg : Option Bytes) (names : List Bytes) (b : List IdfStopOp) :
      StopNames join arg names → StopFiles fs names w → ReadBy join i w (a ++ .load i fs arg :: b)

/-- The call, made after the calls `pre`, adds the word to the shared stop words. -/
def IdfStopAdds (join : Bytes → Bytes) (pre : List IdfStopOp) (op : IdfStopOp) (w : Bytes) : Prop :=
  (∃ i, op = .add i w) ∨
  ∃ i fs arg names, op = .load i fs arg ∧ StopNames join arg names ∧ (∀ f ∈ names, fs f ≠ none) ∧ ReadBy join i w (pre ++ [op])

end Spec
end Gse
