import Verif.Spec.Text
import Verif.Model.History

/-!
# Specification of the dictionary

An abstract map from words (normalised byte strings) to frequency and tag, and the list of words ever stored.
Mentions neither the trie nor the token table.
-/

namespace Gse.Spec

open Gse

variable {F : Type}

/-- Abstract dictionary: current content, and everything stored so far (text as given, frequency) in order. -/
structure AbsDict (F : Type) where
  content : Bytes → Option (F × Bytes) := fun _ => none
  stored : List (Bytes × F) := []

/-- Storing a word: the first entry wins. -/
def AbsDict.add [Unicode] (cfg : SplitCfg) (m : AbsDict F) (t : Bytes) (f : F) (p : Bytes) : AbsDict F :=
  match m.content (normText cfg t) with
  | some _ => m
  | none => ⟨fun k => if k = normText cfg t then some (f, p) else m.content k, m.stored ++ [(t, f)]⟩

/-- Removing a word. -/
def AbsDict.remove [Unicode] (cfg : SplitCfg) (m : AbsDict F) (t : Bytes) : AbsDict F :=
  ⟨fun k => if k = normText cfg t then none else m.content k, m.stored⟩

/-- The effect of one call. Re-adding replaces a present word and does nothing for an absent one. -/
def AbsDict.step [Unicode] (cfg : SplitCfg) (m : AbsDict F) : DictOp F → AbsDict F
  | .add t f p => m.add cfg t f p
  | .addForce t f p => m.add cfg t f p
  | .remove t => m.remove cfg t
  | .reAdd t f p =>
    match m.content (normText cfg t) with
    | some _ => (m.remove cfg t).add cfg t f p
    | none => m
  | .recalc => m

/-- The effect of a history. -/
def absRun [Unicode] (cfg : SplitCfg) (ops : List (DictOp F)) : AbsDict F := ops.foldl (AbsDict.step cfg) {}

end Gse.Spec
