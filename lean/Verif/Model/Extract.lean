import Verif.Model.Copy
import Verif.Model.Idf

/-!
# Extracters in a program (hmm/idf/tag_extracker.go, idf.go, stop_words.go)

A program may have any number of segmenters, extracters, `Idf` and `StopWord` values, copy the structs and call their methods in any order.
The segmenters inside an extracter and inside an `Idf` are further variables of the world of Model/Copy.lean; Go hides them from the
program, the model does not. A panic ends the run.
-/

namespace Gse

variable {F D : Type} [F64 F] [F32 D] [Narrow F D]

/-- hmm/idf/tag_extracker.go:13-18 `TagExtracter`: the number of the variable `seg`, the references `Idf` and `stopWord` (`none` is nil). -/
structure TagExt where
  seg : Nat
  idf : Option Nat := none
  stopWord : Option Nat := none
deriving DecidableEq, Repr

/-- hmm/idf/idf.go:25-30 `Idf`, with the number of the variable `seg`. -/
structure IdfVar (F : Type) where
  median : F
  freqs : List F := []
  seg : Nat

/-- The state of the program. -/
structure Shop (F D : Type) where
  world : World F D := {}
  exts : List TagExt := []
  idfs : List (IdfVar F) := []
  stops : StopHeap

/-- The steps of a program; values are numbered in order of creation.
`seg` is a step with segmenters only, `stop` a call on a `StopWord` of the program. -/
inductive TagOp (F : Type)
  | seg (op : WorldOp F)
  | stop (op : IdfStopOp)
  /-- `var t TagExtracter` -/
  | newExt
  /-- `t = t2`, extracters `e` and `e'` -/
  | copyExt (e e' : Nat)
  /-- `t.WithGse(seg)` for variable `i` -/
  | withGse (e i : Nat)
  | loadDict (e : Nat) (fs : Bytes → Option Bytes) (files : Option Bytes)
  | loadIdf (e : Nat) (fs : Bytes → Option Bytes) (files : Option Bytes)
  | loadIdfStr (e : Nat) (text : Bytes)
  | loadStop (e : Nat) (fs : Bytes → Option Bytes) (files : Option Bytes)
  /-- `NewIdf()` -/
  | newIdf
  /-- `t.Idf = x` -/
  | setIdf (e : Nat) (j : Option Nat)
  | idfAdd (j : Nat) (text : Bytes) (freq : F) (pos : Bytes)
  | idfLoad (j : Nat) (fs : Bytes → Option Bytes) (files : Option Bytes)

/-- hmm/idf/idf.go:43-49 `LoadDict`, dict_util.go:230-239 `GetIdfPath`: the argument handed to the segmenter. -/
def idfFiles (join : Bytes → Bytes) (files : Option Bytes) : Option Bytes := some (files.getD (join (str "dict/zh/idf.txt")))

namespace Shop

/-- Steps with segmenters. -/
def segs [Unicode] (E : CallEnv) (s : Shop F D) (ops : List (WorldOp F)) : Option (Shop F D) := (s.world.run E ops).map fun w => { s with world := w }

/-- A call on a `StopWord`. -/
def stopCall (E : CallEnv) (s : Shop F D) (op : IdfStopOp) : Option (Shop F D) := (op.run E.stop.join s.stops).map fun h => { s with stops := h }

/-- hmm/idf/tag_extracker.go:22, 28 and 46: `t.stopWord = NewStopWord()`. -/
def freshStop (E : CallEnv) (s : Shop F D) (e : Nat) (x : TagExt) : Option (Shop F D) :=
  (s.stopCall E .new).map fun s' => { s' with exts := s.exts.set e { x with stopWord := some s.stops.segs.length } }

/-- hmm/idf/idf.go:67-69 `NewIdf`. -/
def freshIdf [Unicode] (E : CallEnv) (s : Shop F D) : Option (Shop F D) :=
  (s.segs E [.new]).map fun s' => { s' with idfs := s.idfs ++ [{ median := F64.ofNat 0, seg := s.world.vars.length }] }

/-- hmm/idf/tag_extracker.go:34 and 40: `t.Idf = NewIdf()`. -/
def extIdf [Unicode] (E : CallEnv) (s : Shop F D) (e : Nat) (x : TagExt) : Option (Shop F D) :=
  (s.freshIdf E).map fun s' => { s' with exts := s.exts.set e { x with idf := some s.idfs.length } }

end Shop

/-- hmm/idf/tag_extracker.go:21-48, hmm/idf/idf.go:33-49 and 67-69. `none` is a panic, or a value that does not exist. `ch` is for
`sort.Float64s` in `AddToken`. -/
def TagOp.step [Unicode] (E : CallEnv) (ch : Choice) (s : Shop F D) : TagOp F → Option (Shop F D)
  | .seg op => s.segs E [op]
  | .stop op => s.stopCall E op
  | .newExt => (s.segs E [.new]).map fun s' => { s' with exts := s.exts ++ [{ seg := s.world.vars.length }] }
  | .copyExt e e' => (s.exts[e]?).bind fun x => (s.exts[e']?).bind fun y =>
      (s.segs E [.assign x.seg y.seg]).map fun s' => { s' with exts := s.exts.set e { y with seg := x.seg } }
  | .withGse e i => (s.exts[e]?).bind fun x => (s.freshStop E e x).bind fun s' => s'.segs E [.assign x.seg i]
  | .loadDict e fs files => (s.exts[e]?).bind fun x => (s.freshStop E e x).bind fun s' => s'.segs E [.call x.seg (.loadDict fs files)]
  | .loadIdf e fs files => (s.exts[e]?).bind fun x => (s.extIdf E e x).bind fun s' =>
      s'.segs E [.call s.world.vars.length (.loadDict fs (idfFiles E.stop.join files))]
  | .loadIdfStr e text => (s.exts[e]?).bind fun x => (s.extIdf E e x).bind fun s' => s'.segs E [.call s.world.vars.length (.loadStr text)]
  | .loadStop e fs files => (s.exts[e]?).bind fun x => (s.freshStop E e x).bind fun s' => s'.stopCall E (.load s.stops.segs.length fs files)
  | .newIdf => s.freshIdf E
  | .setIdf e j => (s.exts[e]?).bind fun x =>
      if j.all (decide <| · < s.idfs.length) then some { s with exts := s.exts.set e { x with idf := j } } else none
  | .idfAdd j text freq pos => (s.idfs[j]?).bind fun y => (s.segs E [.call y.seg (.dict (.add text freq pos))]).bind fun s' =>
      let freqs := ch.sort float64Less (y.freqs ++ [freq])
      (freqs[freqs.length / 2]?).map fun m => { s' with idfs := s.idfs.set j { y with median := m, freqs := freqs } }
  | .idfLoad j fs files => (s.idfs[j]?).bind fun y => s.segs E [.call y.seg (.loadDict fs (idfFiles E.stop.join files))]

/-- A program. `ch n` are the choices made in step `n`. -/
def Shop.run [Unicode] (E : CallEnv) (ch : Nat → Choice) : Nat → List (TagOp F) → Shop F D → Option (Shop F D)
  | _, [], s => some s
  | n, op :: ops, s => (op.step E (ch n) s).bind (Shop.run E ch (n + 1) ops)

namespace Shop

/-- `t.stopWord.IsStopWord`. -/
def isStop (s : Shop F D) (x : TagExt) : Option (Bytes → Bool) := x.stopWord.map fun n w => (s.stops.isStopWord n w).getD false

/-- The dictionary of a segmenter. -/
def dictOf (s : Shop F D) (i : Nat) : Option (Dictionary F D) := (s.world.vars[i]?).bind fun v => (s.world.seg v).dict

/-- `*t.Idf`. -/
def idf (s : Shop F D) (x : TagExt) : Option (Idf F D) :=
  x.idf.bind fun j => (s.idfs[j]?).map fun y => ⟨y.median, y.freqs, s.dictOf y.seg⟩

/-- hmm/idf/tag_extracker.go:51-99 `ExtractTags` on extracter `e`. Without a dictionary `Cut(text, true)` panics for every text, as dag.go:176
reads `seg.Dict.totalFreq`. -/
def extract [Unicode] (ch : Choice) (c : HmmConst F) (em : EmitModel F) (s : Shop F D) (e : Nat) (text : Bytes) (topK : Int) :
    Option (List (WordWeight F)) :=
  (s.exts[e]?).bind fun x => (s.world.vars[x.seg]?).bind fun v => (s.world.seg v).dict.bind fun d =>
    extractTags ch (s.world.seg v).cfg d c em (s.isStop x) (s.idf x) text topK

end Shop
end Gse
