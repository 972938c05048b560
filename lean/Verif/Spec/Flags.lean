import Verif.Model.Flags
import Verif.Spec.Segment

/-!
# What the flags have to do with the words of the dictionary
-/

namespace Gse.Spec
open Gse

variable {F D : Type} [F64 F] [F32 D] [Unicode]

/-- A word that a text can contain under the flags: writing it down and splitting it leaves its letters alone. -/
def Meets (cfg : SplitCfg) (k : Bytes) : Prop := (splitTextToWords cfg k).flatten = k

/-- Some consecutive words of the text spell a stored word whose entry was made of more words than are left in the text. -/
def Overshoots (d : Dictionary F D) (ws : List Bytes) : Prop :=
  ∃ (a run b : List Bytes) (t : Token F D), ws = a ++ run ++ b ∧ run ≠ [] ∧ storedTok d run.flatten = some t ∧
    ws.length < a.length + t.text.length

/-- What a result means for the code: each token stands for as many words as its entry was made of, whether or not the words it was
found by are that many. -/
inductive LooseRoute (d : Dictionary F D) : List Bytes → List (Token F D) → Prop
  | nil : LooseRoute d [] []
  | stored {run rest : List Bytes} {t : Token F D} {ts : List (Token F D)} : run ≠ [] → run <+: rest → storedTok d run.flatten = some t →
      t.text.length ≤ rest.length → LooseRoute d (rest.drop t.text.length) ts → LooseRoute d rest (t :: ts)
  | unknown {w : Bytes} {rest : List Bytes} {ts : List (Token F D)} : (∀ t, storedTok d w = some t → 1 < t.text.length) → LooseRoute d rest ts → LooseRoute d (w :: rest) (unknownTok w :: ts)

/-- Under the flags, every stored word that can be met is met as the words its entry was made of. -/
def Coherent (cfg : SplitCfg) (d : Dictionary F D) : Prop :=
  ∀ k t, storedTok d k = some t → Meets cfg k → t.text = splitTextToWords cfg k

/-- No character of one or two bytes of the text is a letter or a number. -/
def Flagless (t : Bytes) : Prop := ∀ u ∈ chars t, wordChar {} u = false

/-! ## What a history with changing flags stores -/

/-- For each stored word: the words its entry was made of, its frequency and tag. -/
abbrev Entries (F : Type) := Bytes → Option (List Bytes × F × Bytes)

/-- Storing a word, split and normalised by the flags of the call: the first entry wins. -/
def Entries.add (cfg : SplitCfg) (m : Entries F) (t : Bytes) (f : F) (p : Bytes) : Entries F :=
  match m (normText cfg t) with
  | some _ => m
  | none => fun k => if k = normText cfg t then some (splitTextToWords cfg t, f, p) else m k

/-- Removing a word, normalised by the flags of the call. -/
def Entries.remove (cfg : SplitCfg) (m : Entries F) (t : Bytes) : Entries F := fun k => if k = normText cfg t then none else m k

/-- The effect of one call. -/
def Entries.step (m : Entries F) : SplitCfg × DictOp F → Entries F
  | (cfg, .add t f p) => m.add cfg t f p
  | (cfg, .addForce t f p) => m.add cfg t f p
  | (cfg, .remove t) => m.remove cfg t
  | (cfg, .reAdd t f p) =>
    match m (normText cfg t) with
    | some _ => (m.remove cfg t).add cfg t f p
    | none => m
  | (_, .recalc) => m

/-- The effect of a history. -/
def mixRun (ops : List (SplitCfg × DictOp F)) : Entries F := ops.foldl Entries.step fun _ => none

end Gse.Spec
