import Verif.Model.CutMem
import Verif.Model.Trim
import Verif.Model.Idf

/-!
# Stop words as programs over memory (stop.go, trim.go, package idf)

The functions of Model/Stop.lean, Model/Trim.lean and Model/Idf.lean that reach a map of stop words, with every access to
`seg.StopWordMap`, to the map behind it and to the map of package idf made explicit. A map is one location: reading an entry reads it,
an assignment or `delete` reads and writes it (Go requires of its users that no other access happens meanwhile, and may end the program
with `concurrent map read and map write`; the model lets both go on). `NotStop` is a value, since nobody assigns it meanwhile.
-/

namespace Gse

variable {F D : Type} [F64 F] [F32 D]

namespace Prog

/-- Read `seg.StopWordMap`. -/
def rdStopVar : Prog F D (Option Nat) := .read .stopVar fun c => match c with | .stops p => .ret p | _ => .panic

/-- Read the entries of a map. -/
def rdKeys (l : Loc) : Prog F D (List Bytes) := .read l fun c => match c with | .keys x => .ret x | _ => .panic

end Prog

open Prog

/-! ## Reading -/

/-- stop.go:104-108 `IsStop`; a nil map has no entries. -/
def isStopP (s : Bytes) : Prog F D Bool := do
  let p ← rdStopVar
  match p with
  | none => .ret false
  | some a => do
    let l ← rdKeys (.cell a 0)
    .ret (decide (s ∈ l))

/-- trim.go:88-95 `Stop`. -/
def stopP : List Bytes → Prog F D (List Bytes)
  | [] => .ret []
  | v :: rest => do
    let b ← isStopP v
    let r ← stopP rest
    .ret (if !b && v ≠ [] then v :: r else r)

/-- trim.go:101, 129: `!seg.NotStop && seg.IsStop(si)`. -/
def stopTestP (notStop : Bool) (si : Bytes) : Prog F D Bool := if notStop then .ret false else isStopP si

/-- trim.go:98-111 `Trim`. -/
def trimP [Unicode] (notStop : Bool) : List Bytes → Prog F D (List Bytes)
  | [] => .ret []
  | s :: rest => do
    let b ← stopTestP notStop (filterSymbol s)
    let r ← trimP notStop rest
    .ret (if b then r else if filterSymbol s ≠ [] then filterSymbol s :: r else r)

/-- trim.go:126-139 `TrimPos`. -/
def trimPosP [Unicode] (notStop : Bool) : List SegPos → Prog F D (List SegPos)
  | [] => .ret []
  | p :: rest => do
    let b ← stopTestP notStop (filterSymbol p.text)
    let r ← trimPosP notStop rest
    .ret (if b then r else if filterSymbol p.text ≠ [] then p :: r else r)

/-- trim.go:142-144 `CutStop`. -/
def cutStopP [Unicode] (c : HmmConst F) (s : Bytes) (hmm : Bool) : Prog F D (List Bytes) := do
  let ws ← cutP c s hmm
  stopP ws

/-- trim.go:147-150 `CutTrim`. -/
def cutTrimP [Unicode] (c : HmmConst F) (notStop : Bool) (s : Bytes) (hmm : Bool) : Prog F D (List Bytes) := do
  let ws ← cutP c s hmm
  trimP notStop ws

/-- hmm/idf/tag_extracker.go:54-69: one word of the first loop; `stop` says that `t.stopWord` is not nil. Every `StopWord` made by
`NewStopWord` has the map of the package (hmm/idf/stop_words.go:60-64). -/
def countWordP [Unicode] (stop : Bool) (freqMap : GoMap Bytes F) (w : Bytes) : Prog F D (GoMap Bytes F) :=
  if (runes (trimSpace w)).length < 2 then .ret freqMap
  else if stop then do
    let l ← rdKeys .idfStop
    if trimSpace w ∈ l then .ret freqMap
    else
      match freqMap.get (trimSpace w) with
      | some f => .ret (freqMap.set (trimSpace w) (F64.add f (F64.ofNat 1)))
      | none => .ret (freqMap.set (trimSpace w) (F64.ofNat 1))
  else .panic

/-- hmm/idf/tag_extracker.go:54-69: the first loop. -/
def countWordsP [Unicode] (stop : Bool) : List Bytes → GoMap Bytes F → Prog F D (GoMap Bytes F)
  | [], freqMap => .ret freqMap
  | w :: ws, freqMap => do
    let m ← countWordP stop freqMap w
    countWordsP stop ws m

/-- hmm/idf/tag_extracker.go:51-99 `ExtractTags`. The segmenter `t.seg` is the one in memory; `t.Idf`, a dictionary of its own, is kept
as a value. -/
def extractTagsP [Unicode] [Narrow F D] (ch : Choice) (c : HmmConst F) (stop : Bool) (idf : Option (Idf F D)) (text : Bytes) (topK : Int) :
    Prog F D (List (WordWeight F)) := do
  let ws ← cutP c text true
  let freqMap ← countWordsP stop ws []
  liftP (match mapOpt (weighWord idf) (ch.iter 2 (normFreq ch (sumFreq ch freqMap) freqMap)) with
    | none => none
    | some ws => topTags ch ws topK)

/-! ## Writing -/

/-- An assignment `m[w] = true` to the map at a location. -/
def putKeyP (l : Loc) (w : Bytes) : Prog F D Unit := do
  let ks ← rdKeys l
  put l (.keys (StopMap.put ks w))

/-- stop.go:83-85 `AddStop`; an assignment to a nil map panics. -/
def addStopP (w : Bytes) : Prog F D Unit := do
  let p ← rdStopVar
  match p with
  | none => .panic
  | some a => putKeyP (.cell a 0) w

/-- `delete` on the map at a location. -/
def deleteKeyP (l : Loc) (w : Bytes) : Prog F D Unit := do
  let ks ← rdKeys l
  put l (.keys (ks.filter fun x => x != w))

/-- stop.go:93-95 `RemoveStop`; `delete` on a nil map does nothing. -/
def removeStopP (w : Bytes) : Prog F D Unit := do
  let p ← rdStopVar
  match p with
  | none => .ret ()
  | some a => deleteKeyP (.cell a 0) w

/-- stop.go:36-38: the loop of `LoadStopArr`, which evaluates `seg.StopWordMap` for every word. -/
def addStopsP : List Bytes → Prog F D Unit
  | [] => .ret ()
  | w :: ws => do
    addStopP w
    addStopsP ws

/-- stop.go:31-39 `LoadStopArr`, also `AddStopArr` (stop.go:88-90). -/
def loadStopArrP (ws : List Bytes) : Prog F D Unit := do
  let p ← rdStopVar
  match p with
  | some _ => addStopsP ws
  | none => .alloc [.keys []] fun a => do
    put .stopVar (.stops (some a))
    addStopsP ws

/-- stop.go:98-101 `EmptyStop`. -/
def emptyStopP : Prog F D Unit := put .stopVar (.stops none)

/-- hmm/idf/stop_words.go:50-52 `AddStop` of a `StopWord`. -/
def idfAddStopP (w : Bytes) : Prog F D Unit := putKeyP .idfStop w

/-- hmm/idf/stop_words.go:55-57 `RemoveStop` of a `StopWord`. -/
def idfRemoveStopP (w : Bytes) : Prog F D Unit := deleteKeyP .idfStop w

/-- hmm/idf/stop_words.go:79-81: `StopWord.LoadDict` copies the words it has read into the map of the package. Reading the files, which
fills the map of the value's own segmenter, is not part of it. -/
def idfCopyStopP : List Bytes → Prog F D Unit
  | [] => .ret ()
  | w :: ws => do
    putKeyP .idfStop w
    idfCopyStopP ws

end Gse
