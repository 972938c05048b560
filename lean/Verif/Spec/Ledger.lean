import Verif.Spec.Copy
import Verif.Spec.Flags
import Verif.Spec.Load

/-!
# What a program puts into its dictionaries

A ledger instead of memory: for every segmenter the fields a program can set, for every dictionary the list of calls that were made on
it, each with the flags of the segmenter it was made through. Loading a text, maps, files or an embedded dictionary is nothing but a list
of such calls.
-/

namespace Gse.Spec
open Gse

/-- A segmenter: the number of its dictionary, whether `LoadDict` was called on it, and its settings. -/
structure Page (F : Type) where
  dict : Option Nat := none
  load : Bool := false
  sep : Bytes := []
  minFreq : F
  textFreq : Bytes := []
  noFreq : Bool := false
  alphaNum : Bool := false
  alpha : Bool := false
  num : Bool := false

/-- The segmenters and the dictionaries of a program, and the package variable `ToLower`. -/
structure Ledger (F : Type) where
  pages : List (Page F) := []
  hists : List (List (SplitCfg × DictOp F)) := []
  lower : Bool := true

variable {F : Type} [F64 F] [Unicode]

namespace Page

/-- The flags a call is made with. -/
def cfg (p : Page F) (lower : Bool) : SplitCfg := ⟨p.alphaNum, p.alpha, p.num, lower⟩

/-- The settings that decide about a line. -/
def lcfg (p : Page F) : LoadCfg F := ⟨p.minFreq, p.textFreq, p.noFreq⟩

/-- The settings left at zero get their defaults. -/
def filled (p : Page F) : Page F :=
  { p with
    minFreq := if F64.eq p.minFreq (F64.ofNat 0) then F64.ofNat 2 else p.minFreq
    textFreq := if p.textFreq = [] then str "2.0" else p.textFreq }

/-- Loading a text fills in the defaults only if there is no dictionary yet. -/
def ready (p : Page F) : Page F := if p.dict = none then p.filled else p

/-- The entries of a dictionary text. -/
def textEntries (p : Page F) (t : Bytes) : List (Entry F) :=
  (splitStr t (str "\n")).filterMap fun line => lineEntry p.lcfg (splitStr line (p.sep ++ str " "))

/-- The entries of a list of maps. -/
def mapEntries (p : Page F) (l : List (List (Bytes × Bytes))) : List (Entry F) :=
  l.filterMap fun m =>
    if m = [] then none
    else rowEntry p.lcfg ((m.lookup (str "text")).getD []) (if m.length = 1 then none else some ((m.lookup (str "freq")).getD []))
      ((m.lookup (str "pos")).getD [])

/-- The entries of a file. -/
def fileEntries (mid : Segmenter.ScanErr) (p : Page F) (b : Bytes) : List (Entry F) :=
  if p.sep = [] then rowsEntries p.lcfg [] ((scanRows mid ((runes b).length + 2) (runes b)).getD [])
  else (fileLines p.sep b).filterMap fun l => sepEntry p.lcfg (splitStr l (p.sep ++ str " "))

end Page

/-- The texts that `LoadDictEmbed` loads one after the other. In a list of names, one that contains "zh," (or "zh_s,", "zh_t,") anywhere
takes the place of the first name, and the other names are texts themselves. -/
def embedTexts (E : Segmenter.Embedded) (sep : Bytes) : Option Bytes → List Bytes
  | none => [E.zhS ++ E.zhT]
  | some d =>
    if d = str "ja" then [E.ja]
    else if d = str "zh" then [E.zhS ++ E.zhT]
    else if d = str "zh_s" then [E.zhS]
    else if d = str "zh_t" then [E.zhT]
    else if containsStr d (str ", ") = true ∧ sep ≠ str "," then
      let zh := containsStr d (str "zh,")
      let s := containsStr d (str "zh_s,")
      let t := containsStr d (str "zh_t,")
      (if zh then [E.zhS ++ E.zhT] else []) ++ (if s then [E.zhS] else []) ++ (if t then [E.zhT] else []) ++
        (splitStr d (str ", ")).drop (if zh || s || t then 1 else 0)
    else [d]

/-- The files `LoadDict` is asked for. -/
def filesAsked (join : Bytes → Bytes) : Option Bytes → List Bytes
  | some f => Segmenter.dictPaths join f
  | none => [join (str "dict/zh/s_1.txt"), join (str "dict/zh/t_1.txt")]

/-- The calls of `LoadDict`: the entries of the files up to the first missing one, and a recalculation if none is missing. -/
def fileOps (mid : Segmenter.ScanErr) (fs : Bytes → Option Bytes) (p : Page F) (paths : List Bytes) : List (DictOp F) :=
  ((paths.takeWhile fun f => (fs f).isSome).flatMap fun f => p.fileEntries mid ((fs f).getD [])).map (fun e => .add e.1 e.2.1 e.2.2) ++
    if paths.any fun f => (fs f).isNone then [] else [.recalc]

/-- What a call on a segmenter does: its fields afterwards, whether it gets a new dictionary, the calls made on the dictionary. -/
def Page.call (E : CallEnv) (p : Page F) : SegOp F → Page F × Bool × List (DictOp F)
  | .dict op => (p, false, [op])
  | .loadStr t => (p.ready, p.dict.isNone, loadOps (p.ready.textEntries t))
  | .loadMap l => (p.ready, p.dict.isNone, loadOps (p.ready.mapEntries l))
  | .loadEmbed n => (p.ready, p.dict.isNone, (embedTexts E.embedded p.sep n).flatMap fun t => loadOps (p.ready.textEntries t))
  | .loadDict fs files =>
    let q := if p.load then p else { p.filled with load := true }
    (q, !p.load, fileOps E.mid fs q (filesAsked E.stop.join files))
  | .empty => ({ p with dict := none }, false, [])
  | .flags a b c => ({ p with alphaNum := a, alpha := b, num := c }, false, [])
  | .settings sep f t n => ({ p with sep := sep, minFreq := f, textFreq := t, noFreq := n }, false, [])
  | .stop _ => (p, false, [])

/-- Enter calls made through segmenter `i`, whose fields are now `p`. -/
def Ledger.enter (L : Ledger F) (i : Nat) (p : Page F) (fresh : Bool) (calls : List (SplitCfg × DictOp F)) : Ledger F :=
  if fresh then { L with pages := L.pages.set i { p with dict := some L.hists.length }, hists := L.hists ++ [calls] }
  else { L with pages := L.pages.set i p, hists := match p.dict with | some k => L.hists.modify k (· ++ calls) | none => L.hists }

/-- One step of a program. -/
def Ledger.step (E : CallEnv) (L : Ledger F) : WorldOp F → Ledger F
  | .new => { L with pages := L.pages ++ [{ minFreq := F64.ofNat 0 }] }
  | .assign j i => match L.pages[i]? with | some p => { L with pages := L.pages.set j p } | none => L
  | .call i c =>
    match L.pages[i]? with
    | some p => let r := p.call E c; L.enter i r.1 r.2.1 (r.2.2.map fun op => (p.cfg L.lower, op))
    | none => L
  | .toLower b => { L with lower := b }

/-- The ledger of a program. -/
def ledger (E : CallEnv) (ops : List (WorldOp F)) : Ledger F := ops.foldl (Ledger.step E) {}

/-- The dictionary calls behind the dictionary of segmenter `i`; `none` when it has no dictionary. -/
def Ledger.hist (L : Ledger F) (i : Nat) : Option (List (SplitCfg × DictOp F)) :=
  (L.pages[i]?).bind fun p => p.dict.bind (L.hists[·]?)

end Gse.Spec
