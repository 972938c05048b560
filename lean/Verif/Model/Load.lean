import Verif.Model.Segmenter
import Verif.Model.GoStr

/-!
# Loading dictionaries (dict_util.go, dict_1.16.go)
-/

namespace Gse

variable {F D : Type} [F64 F] [F32 D] [Narrow F D]

/-- segmenter.go:24-59 `Segmenter`: the fields used for loading and segmentation. `cfg` are `AlphaNum`, `Alpha`, `Num`
and the package variable `ToLower`. Log flags and `DictPath` are not modelled. -/
structure Segmenter (F D : Type) where
  dict : Option (Dictionary F D) := none
  load : Bool := false
  dictSep : Bytes := []
  minTokenFreq : F
  textFreq : Bytes := []
  loadNoFreq : Bool := false
  cfg : SplitCfg := {}

namespace Segmenter

/-- dict_util.go:42-55 `Init`, without the HMM model (see Model/Hmm.lean). -/
def init (s : Segmenter F D) : Segmenter F D :=
  { s with
    minTokenFreq := if F64.eq s.minTokenFreq (F64.ofNat 0) then F64.ofNat 2 else s.minTokenFreq
    textFreq := if s.textFreq = [] then str "2.0" else s.textFreq }

/-- The opening of `LoadDictStr` (dict_1.16.go:92-95) and `LoadDictMap` (dict_util.go:114-117). -/
def prepare (s : Segmenter F D) : Segmenter F D :=
  match s.dict with
  | some _ => s
  | none => ({ s with dict := some Dictionary.new } : Segmenter F D).init

/-- dict_util.go:259-294 `Size`. -/
def size (s : Segmenter F D) (n : Nat) (text freqText : Bytes) : F :=
  if n = 0 then F64.ofNat 0
  else if n < 2 && !s.loadNoFreq then F64.ofNat 0
  else
    let freqText := if n < 2 then s.textFreq else freqText
    let r : F × Bool := F64.parse freqText
    if r.2 then r.1
    else if F64.lt r.1 s.minTokenFreq then F64.ofNat 0
    else if (runes text).length < 2 then F64.ofNat 2
    else r.1

/-- `seg.Dict.AddToken(Token{text: seg.SplitTextToWords([]byte(text)), freq: freq, pos: pos})` unless `freq == 0`
(dict_1.16.go:112-124, dict_util.go:121-128, 365-379). `none` is the nil dereference. -/
def addEntry [Unicode] (s : Segmenter F D) (text : Bytes) (freq : F) (pos : Bytes) : Option (Segmenter F D) :=
  if F64.eq freq (F64.ofNat 0) then some s
  else match s.dict with
    | none => none
    | some d => some { s with dict := some (segAddToken s.cfg d text freq pos).1 }

/-- dict_util.go:454 `CalcToken` on the segmenter; `none` is the nil dereference. -/
def recalc [Unicode] (s : Segmenter F D) : Option (Segmenter F D) :=
  match s.dict with
  | none => none
  | some d => (calcToken d).map fun d' => { s with dict := some d' }

/-- One line of `LoadDictStr`, dict_1.16.go:98-124. -/
def strLine [Unicode] (s : Segmenter F D) (line : Bytes) : Option (Segmenter F D) :=
  let s1 := splitStr line (s.dictSep ++ str " ")
  let size := s1.length
  if size = 0 then some s
  else
    let text := trimSpace (s1.getD 0 [])
    let freqText := if size > 1 then trimSpace (s1.getD 1 []) else []
    let freq := s.size size text freqText
    let pos := if size > 2 then trimSpace (trimNewlines (s1.getD 2 [])) else []
    s.addEntry text freq pos

/-- A loop over a list with a body that may panic. -/
def loop {σ α : Type} (f : σ → α → Option σ) : List α → σ → Option σ
  | [], s => some s
  | a :: l, s => (f s a).bind (loop f l)

/-- dict_1.16.go:91-129 `LoadDictStr`. -/
def loadDictStr [Unicode] (s : Segmenter F D) (dict : Bytes) : Option (Segmenter F D) :=
  (loop strLine (splitStr dict (str "\n")) s.prepare).bind recalc

/-- Go map lookup with the zero value for a missing key. -/
def mapGet (m : List (Bytes × Bytes)) (k : Bytes) : Bytes := (m.lookup k).getD []

/-- dict_util.go:113-133 `LoadDictMap`; each map is an association list with distinct keys. -/
def loadDictMap [Unicode] (s : Segmenter F D) (dict : List (List (Bytes × Bytes))) : Option (Segmenter F D) :=
  (loop (fun s d => s.addEntry (mapGet d (str "text")) (s.size d.length (mapGet d (str "text")) (mapGet d (str "freq")))
    (mapGet d (str "pos"))) dict s.prepare).bind recalc

/-! ### Reading files -/

/-- The error of a scan. -/
inductive ScanErr
  | none
  | eof
  | other
deriving DecidableEq, Repr

/-- Skipping blanks in `fmt.Fscanln` (`ss.SkipSpace` with newline not a space): `newline` is the error
"unexpected newline", which has been consumed. A carriage return is a space. -/
inductive Skip
  | newline (rest : List Rune)
  | eof
  | word (rest : List Rune)

def skipSpace [U : Unicode] : List Rune → Skip
  | [] => .eof
  | r :: rs => if r = 10 then .newline rs else if U.isSpace r then skipSpace rs else .word (r :: rs)

/-- The end of `fmt.Fscanln` (`ss.doScan`): blanks up to a newline or the end; another rune is consumed and is an error. -/
def scanEnd [U : Unicode] : List Rune → ScanErr × List Rune
  | [] => (.none, [])
  | r :: rs => if r = 10 then (.none, rs) else if U.isSpace r then scanEnd rs else (.other, rs)

/-- `fmt.Fscanln(reader, &a1, …, &ak)` for `k` string pointers (Go standard library): the words stored, the error, the
rest of the input. Words are re-encoded, so a malformed byte becomes U+FFFD. The library reports the end of input before
the first word as `io.EOF`; `mid` is what it reports when the input ends after some words. -/
def fscanln [U : Unicode] (mid : ScanErr) : Nat → List Bytes → List Rune → List Bytes × ScanErr × List Rune
  | 0, acc, rs => let (e, rest) := scanEnd rs; (acc, e, rest)
  | k + 1, acc, rs =>
    match skipSpace rs with
    | .newline rest => (acc, .other, rest)
    | .eof => (acc, if acc = [] then .eof else mid, [])
    | .word ws => fscanln mid k (acc ++ [encode (ws.takeWhile fun r => !U.isSpace r)]) (ws.dropWhile fun r => !U.isSpace r)

/-- The variables of `Reader` that live across lines (dict_util.go:318-323). -/
structure ReadVars where
  text : Bytes := []
  freqText : Bytes := []
  pos : Bytes := []
deriving DecidableEq, Repr

/-- One round of `Reader` after a line has been read (dict_util.go:365-379); returns the new variables. -/
def readerRow [Unicode] (s : Segmenter F D) (size : Nat) (v : ReadVars) : Option (Segmenter F D × ReadVars) :=
  let freq := s.size size v.text v.freqText
  if F64.eq freq (F64.ofNat 0) then some (s, v)
  else
    let v := if size = 2 then { v with pos := [] } else v
    (s.addEntry v.text freq v.pos).map fun s => (s, v)

/-- `Reader` without `DictSep` (dict_util.go:317-383): rounds over the remaining input; fuel exhausted is `none`. -/
def readerScan [Unicode] (mid : ScanErr) : Nat → Segmenter F D → ReadVars → List Rune → Option (Segmenter F D)
  | 0, _, _, _ => none
  | n + 1, s, v, rs =>
    match fscanln mid 3 [] rs with
    | (ws, e, rest) =>
      let v := { text := ws.getD 0 v.text, freqText := ws.getD 1 v.freqText, pos := ws.getD 2 v.pos : ReadVars }
      if e = .eof then some s
      else match readerRow s ws.length v with
        | none => none
        | some (s, v) => readerScan mid n s v rest

/-- `reader.ReadString('\n')`: the line with its newline, whether the end was reached, the rest. -/
def readString (b : Bytes) : Bytes × Bool × Bytes :=
  let l := b.takeWhile (· != 10)
  match b.dropWhile (· != 10) with
  | [] => (l, true, [])
  | c :: rest => (l ++ [c], false, rest)

/-- dict_util.go:297-314 `ReadN`: column count and the three values (the variables are fresh results). -/
def readN [Unicode] (s : Segmenter F D) (txt : Bytes) : Nat × ReadVars :=
  let parts := splitStr txt (s.dictSep ++ str " ")
  (parts.length,
   { text := parts.getD 0 []
     freqText := if parts.length > 1 then trimSpace (parts.getD 1 []) else []
     pos := if parts.length > 2 then trimSpace (trimNewlines (parts.getD 2 [])) else [] })

/-- `Reader` with `DictSep` (dict_util.go:317-383). -/
def readerSep [Unicode] : Nat → Segmenter F D → Bytes → Option (Segmenter F D)
  | 0, _, _ => none
  | n + 1, s, b =>
    match readString b with
    | (txt, eof, rest) =>
      let (size, v) := s.readN txt
      if eof && v.text = [] then some s
      else match readerRow s size v with
        | none => none
        | some (s, _) => readerSep n s rest

/-- dict_util.go:317-383 `Reader` on the bytes of a file. The `DictSep` case reads one round more than there are lines. -/
def reader [Unicode] (mid : ScanErr) (s : Segmenter F D) (b : Bytes) : Option (Segmenter F D) :=
  if s.dictSep = [] then readerScan mid ((runes b).length + 2) s {} (runes b) else readerSep (b.length + 2) s b

/-- dict_util.go:386-439 `DictPaths`: the body of the loop. `join` is `path.Join(dictDir, ·)`. State: `dictPath`, `files`. -/
def dictPathStep (join : Bytes → Bytes) (st : Bytes × List Bytes) (name : Bytes) : Bytes × List Bytes :=
  let (dictPath, files) := st
  let dictPath := if name = str "ja" ∨ name = str "jp" then join (str "dict/jp/dict.txt") else dictPath
  let files := if name = str "zh" then files ++ [join (str "dict/zh/t_1.txt")] else files
  let dictPath := if name = str "zh" then join (str "dict/zh/s_1.txt") else dictPath
  let dictPath := if name = str "zh_s" then join (str "dict/zh/s_1.txt") else dictPath
  let dictPath := if name = str "zh_t" then join (str "dict/zh/t_1.txt") else dictPath
  let dictName := name ≠ str "en" ∧ name ≠ str "zh" ∧ name ≠ str "zh_s" ∧ name ≠ str "zh_t" ∧ name ≠ str "ja" ∧
    name ≠ str "jp" ∧ name ≠ str "ko" ∧ name ≠ str "ti"
  let dictPath := if dictName then name else dictPath
  (dictPath, if dictPath ≠ [] ∧ dictPath ≠ str " " then files ++ [dictPath] else files)

/-- dict_util.go:386-439 `DictPaths`. -/
def dictPaths (join : Bytes → Bytes) (filePath : Bytes) : List Bytes :=
  if filePath = str "en" then []
  else
    let names := if containsStr filePath (str ", ") then splitStr filePath (str ", ") else splitStr filePath (str ",")
    (names.foldl (dictPathStep join) ([], [])).2

/-- Reading a list of files in order, dict_util.go:180-185 and `Read` 240-256. `fs` gives the content of a file, `none` when
it cannot be opened; the Boolean is `err != nil`. -/
def readFiles [Unicode] (mid : ScanErr) (fs : Bytes → Option Bytes) : List Bytes → Segmenter F D → Option (Segmenter F D × Bool)
  | [], s => some (s, false)
  | f :: files, s =>
    match fs f with
    | none => some (s, true)
    | some b => (s.reader mid b).bind fun s => readFiles mid fs files s

/-- dict_util.go:150-217 `LoadDict`; `files` is the first argument when given. The Boolean is `err != nil`. -/
def loadDict [Unicode] (mid : ScanErr) (join : Bytes → Bytes) (fs : Bytes → Option Bytes) (s : Segmenter F D)
    (files : Option Bytes) : Option (Segmenter F D × Bool) :=
  let s := if !s.load then ({ s with dict := some Dictionary.new, load := true } : Segmenter F D).init else s
  let paths := match files with
    | some f => dictPaths join f
    | none => [join (str "dict/zh/s_1.txt"), join (str "dict/zh/t_1.txt")]
  (readFiles mid fs paths s).bind fun r => if r.2 then some r else r.1.recalc.map fun s => (s, false)

/-- The embedded dictionaries (dict_embed.go:10-18). -/
structure Embedded where
  ja : Bytes
  zhS : Bytes
  zhT : Bytes

/-- dict_1.16.go:30-32 `loadZh`. -/
def loadZh [Unicode] (E : Embedded) (s : Segmenter F D) : Option (Segmenter F D) := s.loadDictStr (E.zhS ++ E.zhT)

/-- dict_1.16.go:34-51 `loadZhST`. The returned errors are always nil. -/
def loadZhST [Unicode] (E : Embedded) (s : Segmenter F D) (d : Bytes) : Option (Segmenter F D × Nat) :=
  (if containsStr d (str "zh,") then s.loadZh E else some s).bind fun s =>
  (if containsStr d (str "zh_s,") then s.loadDictStr E.zhS else some s).bind fun s =>
  (if containsStr d (str "zh_t,") then s.loadDictStr E.zhT else some s).bind fun s =>
  some (s, if containsStr d (str "zh,") || containsStr d (str "zh_s,") || containsStr d (str "zh_t,") then 1 else 0)

/-- dict_1.16.go:54-88 `LoadDictEmbed`; the argument is `dict[0]` when given. -/
def loadDictEmbed [Unicode] (E : Embedded) (s : Segmenter F D) (dict : Option Bytes) : Option (Segmenter F D) :=
  match dict with
  | none => s.loadZh E
  | some d =>
    if d = str "ja" then s.loadDictStr E.ja
    else if d = str "zh" then s.loadZh E
    else if d = str "zh_s" then s.loadDictStr E.zhS
    else if d = str "zh_t" then s.loadDictStr E.zhT
    else if containsStr d (str ", ") && s.dictSep ≠ str "," then
      (s.loadZhST E d).bind fun r => loop loadDictStr ((splitStr d (str ", ")).drop r.2) r.1
    else s.loadDictStr d

/-- dict_util.go:107-110 `Empty`. -/
def empty (s : Segmenter F D) : Segmenter F D := { s with dict := none }

end Segmenter
end Gse
