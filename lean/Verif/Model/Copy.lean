import Verif.Model.Load
import Verif.Model.History
import Verif.Model.Stop

/-!
# Several variables of type `Segmenter` (segmenter.go, hmm/idf, hmm/pos)

A `Segmenter` is a struct: an assignment, an argument of `WithGse` and the result of `New` copy it, but the dictionary and the map
of stop words are reached through references that the copies share. Model/Load.lean has one segmenter whose dictionary is a value;
here the references are explicit. A panic ends the run, so what a panicking call has done before is not kept.
-/

namespace Gse

variable {F D : Type} [F64 F] [F32 D] [Narrow F D]

/-- segmenter.go:24-59 `Segmenter`, with `Dict` and `StopWordMap` as references (`none` is nil). Fields as in Model/Load.lean. -/
structure SegVar (F : Type) where
  dict : Option Nat := none
  load : Bool := false
  dictSep : Bytes := []
  minTokenFreq : F
  textFreq : Bytes := []
  loadNoFreq : Bool := false
  alphaNum : Bool := false
  alpha : Bool := false
  num : Bool := false
  stop : Option Nat := none

/-- The variables of a program, what their references lead to, and the package variable `ToLower` (dict_util.go:31-34). -/
structure World (F D : Type) where
  vars : List (SegVar F) := []
  dicts : List (Dictionary F D) := []
  stops : List (List Bytes) := []
  toLower : Bool := true

/-- What the methods see: the struct with the dictionary it points to. -/
def World.seg (w : World F D) (v : SegVar F) : Segmenter F D where
  dict := v.dict.bind (w.dicts[·]?)
  load := v.load
  dictSep := v.dictSep
  minTokenFreq := v.minTokenFreq
  textFreq := v.textFreq
  loadNoFreq := v.loadNoFreq
  cfg := ⟨v.alphaNum, v.alpha, v.num, w.toLower⟩

/-- What the methods see of the stop words. -/
def World.stopMap (w : World F D) (v : SegVar F) : StopMap := v.stop.bind (w.stops[·]?)

/-- A method call on a segmenter that can change it, or an assignment to its public fields (segmenter.go:24-59). -/
inductive SegOp (F : Type)
  | dict (op : DictOp F)
  | loadStr (text : Bytes)
  | loadMap (l : List (List (Bytes × Bytes)))
  | loadEmbed (name : Option Bytes)
  | loadDict (fs : Bytes → Option Bytes) (files : Option Bytes)
  | empty
  | flags (alphaNum alpha num : Bool)
  | settings (dictSep : Bytes) (minTokenFreq : F) (textFreq : Bytes) (loadNoFreq : Bool)
  | stop (op : StopOp)

/-- What the calls need from outside: what `fmt.Fscanln` reports in mid line, the directory of the package, the embedded texts. -/
structure CallEnv where
  mid : Segmenter.ScanErr
  embedded : Segmenter.Embedded
  stop : StopEnv

/-- A call as seen through the struct; calls on the stop words do not concern it. dict_util.go:78-110 and the loading functions;
a call that needs the dictionary panics when it is nil. -/
def SegOp.run [Unicode] (E : CallEnv) (s : Segmenter F D) : SegOp F → Option (Segmenter F D)
  | .dict op => s.dict.bind fun d => (op.step s.cfg d).map fun d' => { s with dict := some d' }
  | .loadStr t => s.loadDictStr t
  | .loadMap l => s.loadDictMap l
  | .loadEmbed n => s.loadDictEmbed E.embedded n
  | .loadDict fs files => (s.loadDict E.mid E.stop.join fs files).map (·.1)
  | .empty => some s.empty
  | .flags a b c => some { s with cfg := { s.cfg with alphaNum := a, alpha := b, num := c } }
  | .settings sep f t n => some { s with dictSep := sep, minTokenFreq := f, textFreq := t, loadNoFreq := n }
  | .stop _ => some s

/-- Whether `seg.Dict = NewDict()` is executed: dict_util.go:151-155 (`LoadDict` on a segmenter without `Load`),
dict_util.go:114-117 and dict_1.16.go:92-95 (no dictionary). -/
def SegOp.fresh (s : Segmenter F D) : SegOp F → Bool
  | .loadStr _ => s.dict.isNone
  | .loadMap _ => s.dict.isNone
  | .loadEmbed _ => s.dict.isNone
  | .loadDict _ _ => !s.load
  | _ => false

/-- The struct after a call, with the reference `dict`. -/
def SegVar.update (v : SegVar F) (dict : Option Nat) (s : Segmenter F D) : SegVar F :=
  { v with
    dict := dict, load := s.load, dictSep := s.dictSep, minTokenFreq := s.minTokenFreq, textFreq := s.textFreq
    loadNoFreq := s.loadNoFreq, alphaNum := s.cfg.alphaNum, alpha := s.cfg.alpha, num := s.cfg.num }

/-- Put the result of a call on the dictionary where it belongs: behind a new reference or the old one. -/
def World.storeDict (w : World F D) (i : Nat) (v : SegVar F) (fresh : Bool) (s : Segmenter F D) : World F D :=
  match s.dict with
  | none => { w with vars := w.vars.set i (v.update none s) }
  | some d =>
    match fresh, v.dict with
    | false, some k => { w with vars := w.vars.set i (v.update (some k) s), dicts := w.dicts.set k d }
    | _, _ => { w with vars := w.vars.set i (v.update (some w.dicts.length) s), dicts := w.dicts ++ [d] }

/-- The same for the stop words: stop.go:32-34 and 43-45, dict_1.16.go:158-160 make a map when there is none, stop.go:99 drops it. -/
def World.storeStop (w : World F D) (i : Nat) (v : SegVar F) (m : StopMap) : World F D :=
  match m with
  | none => { w with vars := w.vars.set i { v with stop := none } }
  | some l =>
    match v.stop with
    | some k => { w with stops := w.stops.set k l }
    | none => { w with vars := w.vars.set i { v with stop := some w.stops.length }, stops := w.stops ++ [l] }

/-- A call on variable `i`. -/
def World.call [Unicode] (E : CallEnv) (w : World F D) (i : Nat) (c : SegOp F) : Option (World F D) :=
  (w.vars[i]?).bind fun v =>
    match c with
    | .stop op => (op.run E.stop (w.stopMap v)).map (w.storeStop i v)
    | _ => (c.run E (w.seg v)).map (w.storeDict i v (c.fresh (w.seg v)))

/-- A step of the program. `assign j i` is `segs[j] = segs[i]`, also hmm/idf/tag_extracker.go:21-24, hmm/idf/textrank.go:25-27 and
hmm/pos/pos_seg.go:49-51 `WithGse`, which assign to a field; `new` declares a variable. -/
inductive WorldOp (F : Type)
  | new
  | assign (j i : Nat)
  | call (i : Nat) (c : SegOp F)
  | toLower (b : Bool)

/-- One step; `none` is a panic or a variable that does not exist. -/
def WorldOp.step [Unicode] (E : CallEnv) (w : World F D) : WorldOp F → Option (World F D)
  | .new => some { w with vars := w.vars ++ [{ minTokenFreq := F64.ofNat 0 }] }
  | .assign j i => if j < w.vars.length then (w.vars[i]?).map fun v => { w with vars := w.vars.set j v } else none
  | .call i c => w.call E i c
  | .toLower b => some { w with toLower := b }

/-- A program, from a world. -/
def World.run [Unicode] (E : CallEnv) : List (WorldOp F) → World F D → Option (World F D)
  | [], w => some w
  | op :: ops, w => (op.step E w).bind (World.run E ops)

end Gse
