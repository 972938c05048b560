import Verif.Model.GoStr

/-!
# Stop words (stop.go, dict_1.16.go)
-/

namespace Gse

/-- segmenter.go:58 `StopWordMap`: `none` is the nil map, `some l` a map with keys `l` (the values are always `true`). -/
abbrev StopMap := Option (List Bytes)

namespace StopMap

/-- stop.go:32-34, 43-45, dict_1.16.go:158-160: the map is made when it is nil. -/
def make (m : StopMap) : List Bytes := m.getD []

/-- An assignment `m[w] = true` to a non-nil map. -/
def put (l : List Bytes) (w : Bytes) : List Bytes := if w ∈ l then l else w :: l

/-- stop.go:31-39 `LoadStopArr`. -/
def loadStopArr (m : StopMap) (dict : List Bytes) : StopMap := some (dict.foldl put m.make)

/-- stop.go:88-90 `AddStopArr`. -/
def addStopArr (m : StopMap) (text : List Bytes) : StopMap := m.loadStopArr text

/-- stop.go:83-85 `AddStop`; `none` is the panic of an assignment to a nil map. -/
def addStop (m : StopMap) (text : Bytes) : Option StopMap :=
  match m with
  | none => none
  | some l => some (some (put l text))

/-- stop.go:93-95 `RemoveStop`; `delete` on a nil map does nothing. -/
def removeStop (m : StopMap) (text : Bytes) : StopMap :=
  match m with
  | none => none
  | some l => some (l.filter fun w => w != text)

/-- stop.go:98-101 `EmptyStop`. -/
def emptyStop (_ : StopMap) : StopMap := none

/-- stop.go:104-108 `IsStop`; reading a nil map finds nothing. -/
def isStop (m : StopMap) (s : Bytes) : Bool :=
  match m with
  | none => false
  | some l => decide (s ∈ l)

/-- dict_1.16.go:162-168: one line of `LoadStopStr`. -/
def strLine [Unicode] (l : List Bytes) (line : Bytes) : List Bytes :=
  let key := trimSpace line
  if key ≠ [] then put l key else l

/-- dict_1.16.go:157-171 `LoadStopStr`. -/
def loadStopStr [Unicode] (m : StopMap) (dict : Bytes) : StopMap :=
  some ((splitStr dict (str "\n")).foldl strLine m.make)

/-- dict_1.16.go:132-154 `LoadStopEmbed`; `dict` is `dict[0]` when given, `stopDict` the embedded text. -/
def loadStopEmbed [Unicode] (stopDict : Bytes) (m : StopMap) (dict : Option Bytes) : StopMap :=
  match dict with
  | none => m.loadStopStr stopDict
  | some d =>
    if containsStr d (str ", ") then
      let s := splitStr d (str ", ")
      let m1 := if containsStr d (str "zh,") then m.loadStopStr stopDict else m
      let begin := if containsStr d (str "zh,") then 1 else 0
      (s.drop begin).foldl loadStopStr m1
    else m.loadStopStr d

/-- Go's `bufio.ScanLines` drops one trailing `\r`. -/
def dropCR (l : Bytes) : Bytes := if l.getLast? = some 13 then l.dropLast else l

/-- The tokens of a `bufio.Scanner` with `ScanLines` and the default buffer: lines separated by `\n`, the empty rest after a
last `\n` is no line, and scanning ends without a token at a line of `bufio.MaxScanTokenSize` bytes or more. -/
def scanLines : List Bytes → List Bytes
  | [] => []
  | [l] => if l = [] ∨ 65536 ≤ l.length then [] else [dropCR l]
  | l :: ls => if 65536 ≤ l.length then [] else dropCR l :: scanLines ls

/-- stop.go:69-75: the loop over the lines of one file. -/
def loadFile (l : List Bytes) (content : Bytes) : List Bytes :=
  (scanLines (splitStr content (str "\n"))).foldl (fun l text => if text ≠ [] then put l text else l) l

/-- stop.go:57-78: the loop over the files; the Boolean is `err != nil`. `fs` gives the content of a file, `none` when it
cannot be opened. Read errors are not modelled. -/
def loadFiles (fs : Bytes → Option Bytes) : List Bytes → List Bytes → List Bytes × Bool
  | [], l => (l, false)
  | f :: files, l =>
    match fs f with
    | none => (l, true)
    | some content => loadFiles fs files (loadFile l content)

/-- stop.go:42-80 `LoadStop`; `files` is `files[0]` when given, `join` is `path.Join(dictDir, ·)`. -/
def loadStop (join : Bytes → Bytes) (fs : Bytes → Option Bytes) (m : StopMap) (files : Option Bytes) : StopMap × Bool :=
  let file := files.getD (join (str "dict/zh/stop_word.txt"))
  let name := splitStr file (str ", ")
  let name := match name with
    | n :: ns => (if n = str "zh" then join (str "dict/zh/stop_tokens.txt") else n) :: ns
    | [] => []
  let r := loadFiles fs name m.make
  (some r.1, r.2)

end StopMap

/-- The calls that change the stop words. -/
inductive StopOp where
  | loadArr (ws : List Bytes)
  | addArr (ws : List Bytes)
  | add (w : Bytes)
  | remove (w : Bytes)
  | empty
  | loadStr (dict : Bytes)
  | loadEmbed (dict : Option Bytes)
  | load (fs : Bytes → Option Bytes) (files : Option Bytes)

/-- The environment of the loading calls: the embedded stop dictionary and the package directory. -/
structure StopEnv where
  stopDict : Bytes
  join : Bytes → Bytes

/-- One call on the stop map. -/
def StopOp.run [Unicode] (E : StopEnv) (m : StopMap) : StopOp → Option StopMap
  | .loadArr ws => some (m.loadStopArr ws)
  | .addArr ws => some (m.addStopArr ws)
  | .add w => m.addStop w
  | .remove w => some (m.removeStop w)
  | .empty => some m.emptyStop
  | .loadStr d => some (m.loadStopStr d)
  | .loadEmbed d => some (m.loadStopEmbed E.stopDict d)
  | .load fs files => some (m.loadStop E.join fs files).1

/-- A sequence of calls. -/
def stopRun [Unicode] (E : StopEnv) : List StopOp → StopMap → Option StopMap
  | [], m => some m
  | op :: ops, m => (op.run E m).bind (stopRun E ops)

end Gse
