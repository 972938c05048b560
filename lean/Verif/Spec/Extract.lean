import Verif.Model.Extract
import Verif.Spec.Ledger
import Verif.Spec.Idf

/-!
# What a program with extracters amounts to

Read off the text of the program: the steps it makes with segmenters, the calls it makes on stop words, what every extracter refers to, and
for every `Idf` the weights added to it. No dictionaries, no memory.
-/

namespace Gse.Spec
open Gse

/-- An `Idf`: the number of its segmenter, the weights added with `AddToken`. -/
structure Sheet (F : Type) where
  seg : Nat
  added : List F := []

/-- What a program amounts to. -/
structure Script (F : Type) where
  segs : List (WorldOp F) := []
  stops : List IdfStopOp := []
  exts : List TagExt := []
  sheets : List (Sheet F) := []

variable {F D : Type}

namespace Script

/-- The number of segmenters so far. -/
def vars (S : Script F) : Nat := S.segs.countP fun op => op matches .new

/-- The number of `StopWord` values so far. -/
def words (S : Script F) : Nat := S.stops.countP fun op => op matches .new

/-- One step: `WithGse`, `LoadDict` and `LoadStopWords` give the extracter a new `StopWord`, `LoadIdf` and `LoadIdfStr` a new `Idf`. -/
def step (join : Bytes → Bytes) (S : Script F) : TagOp F → Script F
  | .seg op => { S with segs := S.segs ++ [op] }
  | .stop op => { S with stops := S.stops ++ [op] }
  | .newExt => { S with segs := S.segs ++ [.new], exts := S.exts ++ [{ seg := S.vars }] }
  | .newIdf => { S with segs := S.segs ++ [.new], sheets := S.sheets ++ [{ seg := S.vars }] }
  | .copyExt e e' =>
    match S.exts[e]?, S.exts[e']? with
    | some x, some y => { S with segs := S.segs ++ [.assign x.seg y.seg], exts := S.exts.set e ⟨x.seg, y.idf, y.stopWord⟩ }
    | _, _ => S
  | .withGse e i =>
    match S.exts[e]? with
    | some x => { S with segs := S.segs ++ [.assign x.seg i], stops := S.stops ++ [.new], exts := S.exts.set e ⟨x.seg, x.idf, some S.words⟩ }
    | none => S
  | .loadDict e fs files =>
    match S.exts[e]? with
    | some x => { S with segs := S.segs ++ [.call x.seg (.loadDict fs files)], stops := S.stops ++ [.new], exts := S.exts.set e ⟨x.seg, x.idf, some S.words⟩ }
    | none => S
  | .loadStop e fs files =>
    match S.exts[e]? with
    | some x => { S with stops := S.stops ++ [.new, .load S.words fs files], exts := S.exts.set e ⟨x.seg, x.idf, some S.words⟩ }
    | none => S
  | .loadIdf e fs files =>
    match S.exts[e]? with
    | some x =>
      { S with
        segs := S.segs ++ [.new, .call S.vars (.loadDict fs (some (files.getD (join (str "dict/zh/idf.txt")))))]
        sheets := S.sheets ++ [{ seg := S.vars }], exts := S.exts.set e ⟨x.seg, some S.sheets.length, x.stopWord⟩ }
    | none => S
  | .loadIdfStr e text =>
    match S.exts[e]? with
    | some x =>
      { S with
        segs := S.segs ++ [.new, .call S.vars (.loadStr text)]
        sheets := S.sheets ++ [{ seg := S.vars }], exts := S.exts.set e ⟨x.seg, some S.sheets.length, x.stopWord⟩ }
    | none => S
  | .setIdf e j =>
    match S.exts[e]? with
    | some x => { S with exts := S.exts.set e ⟨x.seg, j, x.stopWord⟩ }
    | none => S
  | .idfAdd j text freq pos =>
    match S.sheets[j]? with
    | some y => { S with segs := S.segs ++ [.call y.seg (.dict (.add text freq pos))], sheets := S.sheets.set j ⟨y.seg, y.added ++ [freq]⟩ }
    | none => S
  | .idfLoad j fs files =>
    match S.sheets[j]? with
    | some y => { S with segs := S.segs ++ [.call y.seg (.loadDict fs (some (files.getD (join (str "dict/zh/idf.txt")))))] }
    | none => S

end Script

/-- What a program amounts to. -/
def script (join : Bytes → Bytes) (ops : List (TagOp F)) : Script F := ops.foldl (Script.step join) {}

/-- What an `Idf` falls back to for unknown words: nothing until a weight was added, then the middle one of those added. -/
def Fallback [F64 F] (added : List F) (m : F) : Prop :=
  (added = [] → m = F64.ofNat 0) ∧ (added ≠ [] → m ∈ added) ∧
  ∀ _ : F64Count F, added ≠ [] → (∀ x ∈ added, F64Count.num x) → IsMiddle added m

/-- The word is a stop word for all extracters after these calls: built in or added, and not removed since. -/
def StopNow (join : Bytes → Bytes) (builtin : List Bytes) (ops : List IdfStopOp) (w : Bytes) : Prop :=
  (w ∈ builtin ∧ ∀ o ∈ ops, ∀ j, o ≠ .remove j w) ∨
  ∃ pre op post, ops = pre ++ op :: post ∧ IdfStopAdds join pre op w ∧ ∀ o ∈ post, ∀ j, o ≠ .remove j w

end Gse.Spec
