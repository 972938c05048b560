import Verif.Proofs.Reader
import Verif.Props.Dict
import Verif.Props.Segment

/-! # C20, C21, C22, C23, C44, C56, C57, C58: loading dictionaries -/

namespace Gse
open Spec Segmenter

set_option linter.unusedSectionVars false
set_option linter.unusedSimpArgs false

section
variable {F D : Type} [F64 F] [F32 D] [Narrow F D] [U : Unicode]

/-- C20: `LoadDictStr` is: store the entries of the lines in order, recalculate. Settings stay as they are, except the
defaults filled in when there was no dictionary. -/
theorem C20_load_str (s : Segmenter F D) (dict : Bytes) :
    s.loadDictStr dict =
      (runOps s.cfg (loadOps ((splitStr dict (str "\n")).filterMap fun line =>
        lineEntry s.prepare.lcfg (splitStr line (s.dictSep ++ str " ")))) (s.dict.getD Dictionary.new)).map
      fun d => { s.prepare with dict := some d } := by
  rw [loadDictStr_eq, strEntries, prepare_sep]
  rfl

/-- C20: the settings `LoadDictStr`, `LoadDictMap` and the embedded dictionaries go by: those of the segmenter if it has a dictionary, otherwise with
the defaults filled in (and then a dictionary of its own). -/
theorem C20_settings (s : Segmenter F D) :
    (∀ d, s.dict = some d → s.prepare = s) ∧ (s.dict = none → Filled s s.prepare ∧ s.prepare.dict = some Dictionary.new ∧ s.prepare.load = s.load) := by
  constructor
  · intro d h; simp [prepare, h]
  · intro h
    simp only [prepare, h]
    refine ⟨?_, rfl, rfl⟩
    refine ⟨?_, ?_, ?_, ?_, rfl, rfl, rfl⟩ <;> intro h <;> simp [Segmenter.init, h]

theorem wf_addAll {cfg : SplitCfg} {d : Dictionary F D} (h : d.WF cfg) (es : List (Entry F)) : (addAll cfg d es).WF cfg := by
  induction es generalizing d with
  | nil => exact h
  | cons e es ih => exact ih (Dictionary.wf_addToken h _ ⟨e.1, rfl⟩)

/-- C20: on a segmenter without dictionary, `LoadDictStr` succeeds, and a word is found exactly with the frequency and tag of
the first accepted line for it. -/
theorem C20_find [UnicodeOK] (s : Segmenter F D) (hs : s.dict = none) (dict : Bytes)
    (hl : (splitStr dict (str "\n")).length < Trie.valueLimit) :
    ∃ s' d, s.loadDictStr dict = some s' ∧ s'.dict = some d ∧ ∀ w,
      match firstEntry s.cfg ((splitStr dict (str "\n")).filterMap fun line =>
        lineEntry s.prepare.lcfg (splitStr line (s.dictSep ++ str " "))) w with
      | some (f, p) => d.find w = some (f, p, true)
      | none => ∃ b, d.find w = some (F64.ofNat 0, [], b) := by
  rw [C20_load_str, hs]
  generalize hes : (splitStr dict (str "\n")).filterMap (fun line =>
        lineEntry s.prepare.lcfg (splitStr line (s.dictSep ++ str " "))) = es
  have hlen : (loadOps es).length ≤ Trie.valueLimit := by
    have := List.length_filterMap_le (fun line => lineEntry s.prepare.lcfg (splitStr line (s.dictSep ++ str " "))) (splitStr dict (str "\n"))
    rw [hes] at this
    simp [loadOps]; omega
  simp only [Option.getD_none]
  obtain ⟨d, hd⟩ := calcToken_total (wf_addAll (Dictionary.wf_new (F := F) (D := D) s.cfg) es)
  have hr : runOps s.cfg (loadOps es) (Dictionary.new : Dictionary F D) = some d := by rw [runOps_load, hd]
  rw [hr]
  refine ⟨_, d, rfl, rfl, fun w => ?_⟩
  have h := C04_find_history s.cfg (loadOps es) hlen d hr w
  rw [absRun_loadOps] at h
  cases hf : firstEntry s.cfg es w with
  | none => exact h.2 hf
  | some e => exact h.1 e.1 e.2 hf

/-- C20: loading `a`, newline, `b` is loading `a` and then `b`. -/
theorem C20_append [UnicodeOK] (s : Segmenter F D) (hs : ∀ d, s.dict = some d → Reachable s.cfg d) (a b : Bytes) :
    s.loadDictStr (a ++ str "\n" ++ b) = (s.loadDictStr a).bind fun s => s.loadDictStr b := by
  have hwf : (s.dict.getD Dictionary.new).WF s.cfg := by
    cases h : s.dict with
    | none => exact Dictionary.wf_new _
    | some d => exact (hs d h).wf
  generalize hd0 : s.dict.getD Dictionary.new = d0 at hwf
  have key : ∀ x, s.loadDictStr x = (calcToken (addAll s.cfg d0 (strEntries s.prepare x))).map s.prepare.withDict := by
    intro x; rw [loadDictStr_eq, runOps_load, hd0]
  obtain ⟨d1, h1⟩ := calcToken_total (wf_addAll hwf (strEntries s.prepare a))
  rw [key, key a, h1, Option.map_some, Option.bind_some, loadDictStr_eq, runOps_load]
  have e1 : (s.prepare.withDict d1).prepare = s.prepare.withDict d1 := prepare_some rfl
  have e2 : (s.prepare.withDict d1).cfg = s.cfg := prepare_cfg s
  have e3 : strEntries (s.prepare.withDict d1).prepare b = strEntries s.prepare b := by rw [e1]; rfl
  have e4 : (s.prepare.withDict d1).dict.getD Dictionary.new = d1 := rfl
  have e5 : (s.prepare.withDict d1).prepare.withDict = s.prepare.withDict := by rw [e1]; rfl
  rw [e2, e3, e4, e5, calcToken_congr (addAll_same s.cfg (calcToken_same h1) (strEntries s.prepare b)), ← addAll_append]
  have : strEntries s.prepare (a ++ str "\n" ++ b) = strEntries s.prepare a ++ strEntries s.prepare b := by
    unfold strEntries
    have := splitStr_byte 10 a b
    rw [show ([10] : Bytes) = str "\n" by decide] at this
    rw [this, List.filterMap_append]
  rw [this]

/-- C21: the decision table of `Size`. -/
theorem C21_size (s : Segmenter F D) (n : Nat) (text freqText : Bytes) :
    (n = 0 → s.size n text freqText = F64.ofNat 0) ∧
    (n = 1 → s.loadNoFreq = false → s.size n text freqText = F64.ofNat 0) ∧
    (∀ col, (n = 1 ∧ s.loadNoFreq = true ∧ col = s.textFreq ∨ 2 ≤ n ∧ col = freqText) →
      ((F64.parse col : F × Bool).2 = true → s.size n text freqText = (F64.parse col : F × Bool).1) ∧
      ((F64.parse col : F × Bool).2 = false → F64.lt (F64.parse col : F × Bool).1 s.minTokenFreq = true →
        s.size n text freqText = F64.ofNat 0) ∧
      ((F64.parse col : F × Bool).2 = false → F64.lt (F64.parse col : F × Bool).1 s.minTokenFreq = false →
        s.size n text freqText = if (runes text).length < 2 then F64.ofNat 2 else (F64.parse col : F × Bool).1)) := by
  refine ⟨?_, ?_, ?_⟩
  · rintro rfl; simp [Segmenter.size]
  · rintro rfl h; simp [Segmenter.size, h]
  · rintro col (⟨rfl, h, rfl⟩ | ⟨h, rfl⟩)
    · refine ⟨?_, ?_, ?_⟩ <;> intro h1 <;> (try intro h2) <;> simp [Segmenter.size, h, h1, *]
    · have h1 : ¬ n = 0 := by omega
      have h2 : ¬ n < 2 := by omega
      refine ⟨?_, ?_, ?_⟩ <;> intro h3 <;> (try intro h4) <;> simp [Segmenter.size, h1, h2, h3, *]

/-- C21: a row is stored exactly when the computed frequency is not zero; so a number that `ParseFloat` reports as an error
but with a nonzero value (out of range) is stored with that value, whatever `MinTokenFreq` is. -/
theorem C21_error_stored (s : Segmenter F D) (d : Dictionary F D) (hd : s.dict = some d) (text freqText pos : Bytes) (v : F)
    (hv : (F64.parse freqText : F × Bool) = (v, true)) (h0 : F64.eq v (F64.ofNat 0) = false) (n : Nat) (hn : 2 ≤ n) :
    s.addEntry text (s.size n text freqText) pos = some { s with dict := some (segAddToken s.cfg d text v pos).1 } := by
  have h1 : ¬ n = 0 := by omega
  have h2 : ¬ n < 2 := by omega
  simp [Segmenter.size, h1, h2, hv, Segmenter.addEntry, h0, hd]

/-- C22: `LoadDictMap` stores the accepted entries in order and recalculates. A map with one key counts as one column. -/
theorem C22_load_map (s : Segmenter F D) (maps : List (List (Bytes × Bytes))) :
    s.loadDictMap maps =
      (runOps s.cfg (loadOps (maps.filterMap fun m =>
        if m = [] then none
        else rowEntry s.prepare.lcfg (mapGet m (str "text")) (if m.length = 1 then none else some (mapGet m (str "freq")))
          (mapGet m (str "pos")))) (s.dict.getD Dictionary.new)).map
      fun d => { s.prepare with dict := some d } := by
  unfold Segmenter.loadDictMap
  have h := withDict_self (prepare_dict s)
  rw [← h, loop_adds s.prepare _ (fun m => (if m = [] then none
        else rowEntry s.prepare.lcfg (mapGet m (str "text")) (if m.length = 1 then none else some (mapGet m (str "freq")))
          (mapGet m (str "pos"))).toList), flatMap_toList, Option.bind_some, h, runOps_load, prepare_cfg]
  · rfl
  · intro d m
    rw [addEntry_eq]
    congr 3
    cases m with
    | nil => simp
    | cons a m =>
      cases m with
      | nil => simp
      | cons b m =>
        have h1 : ¬ m.length + 1 + 1 < 2 := by omega
        simp [h1]

/-! ### Files -/

/-- C23: `Reader` without separator stores, in order, the entries of the rows it scans, the tag of a one-column row being the
one in force; it always terminates. -/
theorem C23_reader (mid : ScanErr) (s : Segmenter F D) (hsep : s.dictSep = []) (d : Dictionary F D) (hd : s.dict = some d) (b : Bytes) :
    ∃ rows, scanRows mid ((runes b).length + 2) (runes b) = some rows ∧
      s.reader mid b = (runOps s.cfg ((rowsEntries s.lcfg [] rows).map fun e => .add e.1 e.2.1 e.2.2) d).map
        fun d => { s with dict := some d } := by
  obtain ⟨rows, hr⟩ := scanRows_total mid ((runes b).length + 2) (runes b) (by omega)
  refine ⟨rows, hr, ?_⟩
  unfold Segmenter.reader
  rw [if_pos hsep, ← withDict_self hd, readerScan_eq, hr, withDict_self hd, runOps_adds]
  rfl

/-- The rows of a file of lines with at most three words. -/
theorem scanRows_lines [UnicodeOK] (mid : ScanErr) (ls : List Line) (h : ∀ l ∈ ls, l.Ok ∧ l.words.length ≤ 3) :
    ∀ n, ls.length < n → scanRows mid n (ls.flatMap fun l => l.chars ++ [10]) = some (ls.map Line.cols) := by
  induction ls with
  | nil =>
    intro n hn
    obtain ⟨n, rfl⟩ := Nat.exists_eq_succ_of_ne_zero (Nat.ne_of_gt hn)
    simp [scanRows, fscanln, skipSpace]
  | cons l ls ih =>
    intro n hn
    obtain ⟨n, rfl⟩ := Nat.exists_eq_succ_of_ne_zero (Nat.ne_of_gt (Nat.lt_of_le_of_lt (Nat.zero_le _) hn))
    have hl := h l (by simp)
    have := fscan_line mid (ls.flatMap fun l => l.chars ++ [10]) 3 [] l hl.1 hl.2
    simp only [List.flatMap_cons, List.append_assoc, List.singleton_append, scanRows, this, List.nil_append]
    have hne : (if l.words.length = 3 then ScanErr.none else .other) ≠ .eof := by split <;> simp
    simp only [hne, if_false]
    rw [ih (fun l hl => h l (by simp [hl])) n (by simpa using hn)]
    simp

/-- C23: a file of lines with at most three words each: the rows are the columns of the lines. -/
theorem C23_file [UnicodeOK] (mid : ScanErr) (s : Segmenter F D) (hsep : s.dictSep = []) (d : Dictionary F D) (hd : s.dict = some d)
    (b : Bytes) (ls : List Line) (hls : ∀ l ∈ ls, l.Ok ∧ l.words.length ≤ 3) (hb : runes b = ls.flatMap fun l => l.chars ++ [10]) :
    s.reader mid b = (runOps s.cfg ((rowsEntries s.lcfg [] (ls.map Line.cols)).map fun e => .add e.1 e.2.1 e.2.2) d).map
        fun d => { s with dict := some d } := by
  obtain ⟨rows, h1, h2⟩ := C23_reader mid s hsep d hd b
  rw [hb, scanRows_lines mid ls hls] at h1
  · simp at h1; rw [h2, ← h1]
  · have : ls.length ≤ (ls.flatMap fun l => l.chars ++ [10]).length := by
      clear h1 h2 hb hls
      induction ls with
      | nil => simp
      | cons l ls ih => simp only [List.flatMap_cons, List.length_append, List.length_cons, List.length_nil] at *; omega
    omega

/-- C23: the tag of a row with one column is the one of the row before, when that has three columns or is an accepted one
with two (then ""); rows with two or three columns do not depend on what precedes them. -/
theorem C23_inherit (c : LoadCfg F) (tag w f p x : Bytes) (rows : List (List Bytes)) :
    rowsEntries c tag ([w, f, p] :: [x] :: rows) =
      (rowEntry c w (some f) p).toList ++ (rowEntry c x none p).toList ++ rowsEntries c p rows ∧
    (rowEntry c w (some f) [] ≠ none → rowsEntries c tag ([w, f] :: [x] :: rows) =
      (rowEntry c w (some f) []).toList ++ (rowEntry c x none []).toList ++ rowsEntries c [] rows) ∧
    (rowEntry c w (some f) [] = none → rowsEntries c tag ([w, f] :: [x] :: rows) =
      (rowEntry c x none tag).toList ++ rowsEntries c tag rows) := by
  refine ⟨by simp [rowsEntries], ?_, ?_⟩
  · intro h
    cases he : rowEntry c w (some f) [] with
    | none => exact absurd he h
    | some e => simp [rowsEntries, he]
  · intro h; simp [rowsEntries, h]

/-- C23: of a line with more than three words, three are a row, and the text after the first character of the fourth word is
scanned as if it were the next line. -/
theorem C23_long (mid : ScanErr) (l : Line) (hl : l.Ok) (h3 : l.words.length = 3) (ht : l.tail = []) (b : List Rune) (hb : b ≠ [])
    (hb' : ∀ r ∈ b, r ≠ 10 ∧ U.isSpace r = true) (r : Rune) (hr : r ≠ 10) (hr' : U.isSpace r = false) (X : List Rune) (n : Nat) :
    scanRows mid (n + 1) (l.chars ++ (b ++ r :: X)) = (scanRows mid n X).map (l.cols :: ·) := by
  have := fscan_long mid 3 [] l b r X hl h3 (.inl hb) hb' ht hr hr'
  simp [scanRows, this]

/-- C23: the last line without newline is a row when it has three words, and otherwise when the library reports the end of
input after a word by an error other than `io.EOF`. -/
theorem C23_last (mid : ScanErr) (l : Line) (hl : l.Ok) (h3 : l.words.length ≤ 3) (n : Nat) :
    scanRows mid (n + 2) l.chars =
      some (if l.words.length = 3 ∨ l.words.length ≠ 0 ∧ mid ≠ .eof then [l.cols] else []) := by
  have h := fscan_last mid 3 [] l hl h3
  have h0 := fscan_last mid 3 [] ⟨[], []⟩ ⟨by simp, by simp, by simp, by simp⟩ (by simp)
  have e0 : scanRows mid (n + 1) [] = some [] := by
    simp only [Line.chars, Line.cols] at h0
    simp at h0
    simp [scanRows, h0]
  have hc : l.cols = [] ↔ l.words.length = 0 := by
    rw [← List.length_eq_zero_iff, Line.cols, List.length_map]
  rw [scanRows, h]
  simp only [List.nil_append, hc]
  by_cases h1 : l.words.length = 3
  · simp [h1, e0]
  · by_cases h2 : l.words.length = 0
    · simp [h2]
    · by_cases h4 : mid = .eof
      · simp [h1, h2, h4]
      · simp [h1, h2, h4, e0]

/-- C56: `Reader` with a separator stores, in order, the entries of the lines with their newlines. -/
theorem C56_reader_sep (mid : ScanErr) (s : Segmenter F D) (hsep : s.dictSep ≠ []) (d : Dictionary F D) (hd : s.dict = some d) (b : Bytes) :
    s.reader mid b = (runOps s.cfg (((fileLines s.dictSep b).filterMap fun l =>
      sepEntry s.lcfg (splitStr l (s.dictSep ++ str " "))).map fun e => .add e.1 e.2.1 e.2.2) d).map
        fun d => { s with dict := some d } := by
  unfold Segmenter.reader
  rw [if_neg hsep, ← withDict_self hd, readerSep_eq _ _ _ _ (by omega), withDict_self hd, runOps_adds]
  rfl

/-- C56: a line without separator is stored with its newline, so the word itself is not. -/
theorem C56_newline_kept (c : LoadCfg F) (sep w : Bytes) (hn : 10 ∉ w) (hw : ∀ i, ¬ (sep ++ str " ") <+: (w ++ str "\n").drop i)
    (rest : Bytes) :
    fileLines sep (w ++ str "\n" ++ rest) = (w ++ str "\n") :: fileLines sep rest ∧
    sepEntry c (splitStr (w ++ str "\n") (sep ++ str " ")) = rowEntry c (w ++ str "\n") none [] := by
  constructor
  · have := fileLines_cons sep w rest hn
    simpa [show str "\n" = [10] by decide] using this
  · rw [splitStr_single (by rw [show str " " = [32] by decide]; simp) hw]
    rfl

/-- The entries of a file. -/
def fileEntries (mid : ScanErr) (s : Segmenter F D) (b : Bytes) : List (Entry F) :=
  if s.dictSep = [] then rowsEntries s.lcfg [] ((scanRows mid ((runes b).length + 2) (runes b)).getD [])
  else (fileLines s.dictSep b).filterMap fun l => sepEntry s.lcfg (splitStr l (s.dictSep ++ str " "))

theorem reader_eq (mid : ScanErr) (s : Segmenter F D) (d : Dictionary F D) (b : Bytes) :
    (s.withDict d).reader mid b = some (s.withDict (addAll s.cfg d (fileEntries mid s b))) := by
  unfold fileEntries
  by_cases h : s.dictSep = []
  · obtain ⟨rows, h1, h2⟩ := C23_reader mid (s.withDict d) h d rfl b
    rw [h2, runOps_adds, h1]
    simp [h, Segmenter.withDict, Segmenter.lcfg]
  · rw [C56_reader_sep mid (s.withDict d) h d rfl b, runOps_adds]
    simp [h, Segmenter.withDict, Segmenter.lcfg]

theorem readFiles_eq (mid : ScanErr) (fs : Bytes → Option Bytes) (s : Segmenter F D) : ∀ (files : List Bytes) (d : Dictionary F D),
    readFiles mid fs files (s.withDict d) =
      some (s.withDict (addAll s.cfg d ((files.takeWhile fun f => (fs f).isSome).flatMap fun f => fileEntries mid s ((fs f).getD []))),
        files.any fun f => (fs f).isNone) := by
  intro files
  induction files with
  | nil => intro d; simp [readFiles, addAll]
  | cons f files ih =>
    intro d
    rw [readFiles]
    cases hf : fs f with
    | none => simp [hf, addAll]
    | some b => simp [hf, reader_eq, ih, addAll_append]

/-- The segmenter as `LoadDict` uses it: a new dictionary unless one was loaded by `LoadDict` before. -/
def startLoad (s : Segmenter F D) : Segmenter F D :=
  if s.load then s else ({ s with dict := some Dictionary.new, load := true } : Segmenter F D).init

/-- C57: the settings `LoadDict` goes by: those of the segmenter if it was used before, otherwise with the defaults filled in, and then the
dictionary is a new one. -/
theorem C57_settings (s : Segmenter F D) :
    (s.load = true → startLoad s = s) ∧ (s.load = false → Filled s (startLoad s) ∧ (startLoad s).dict = some Dictionary.new ∧ (startLoad s).load = true) := by
  constructor
  · intro h; simp [startLoad, h]
  · intro h
    simp only [startLoad, h]
    refine ⟨?_, rfl, rfl⟩
    refine ⟨?_, ?_, ?_, ?_, rfl, rfl, rfl⟩ <;> intro h <;> simp [Segmenter.init, h]

/-- The files `LoadDict` reads. -/
def askedPaths (join : Bytes → Bytes) : Option Bytes → List Bytes
  | some f => dictPaths join f
  | none => [join (str "dict/zh/s_1.txt"), join (str "dict/zh/t_1.txt")]

theorem loadDict_eq (mid : ScanErr) (join : Bytes → Bytes) (fs : Bytes → Option Bytes) (s : Segmenter F D) (files : Option Bytes) :
    s.loadDict mid join fs files = (readFiles mid fs (askedPaths join files) (startLoad s)).bind fun r =>
      if r.2 then some r else r.1.recalc.map fun s => (s, false) := by
  unfold Segmenter.loadDict startLoad askedPaths
  cases files <;> cases s.load <;> rfl

/-- C57: `LoadDict` when all files can be opened: their entries in order, then a recalculation; no error. -/
theorem C57_load_dict (mid : ScanErr) (join : Bytes → Bytes) (fs : Bytes → Option Bytes) (s : Segmenter F D) (files : Option Bytes)
    (d : Dictionary F D) (hd : (startLoad s).dict = some d) (paths : List Bytes)
    (hp : paths = askedPaths join files) (hall : ∀ f ∈ paths, (fs f).isSome) :
    s.loadDict mid join fs files =
      (runOps s.cfg (loadOps (paths.flatMap fun f => fileEntries mid (startLoad s) ((fs f).getD []))) d).map
        fun d => ({ startLoad s with dict := some d }, false) := by
  have hc : (startLoad s).cfg = s.cfg := by unfold startLoad; cases s.load <;> rfl
  rw [loadDict_eq]
  rw [← hp, ← withDict_self hd, readFiles_eq]
  have h1 : (paths.takeWhile fun f => (fs f).isSome) = paths := by
    have := List.takeWhile_append_of_pos (p := fun f => (fs f).isSome) (l₁ := paths) (l₂ := []) hall
    simpa using this
  have h2 : (paths.any fun f => (fs f).isNone) = false := by
    rw [List.any_eq_false]
    intro f hf
    have := hall f hf
    cases h : fs f <;> simp_all
  rw [h1, h2, hc, runOps_load]
  simp only [Option.bind_some, Bool.false_eq_true, if_false, withDict_self hd]
  simp only [Segmenter.recalc, Segmenter.withDict, Option.map_map]
  rfl

/-- C57: `LoadDict` when a file cannot be opened: an error, the entries of the files before it are stored, nothing is
recalculated, later files are not read. -/
theorem C57_missing_file (mid : ScanErr) (join : Bytes → Bytes) (fs : Bytes → Option Bytes) (s : Segmenter F D) (files : Option Bytes)
    (d : Dictionary F D) (hd : (startLoad s).dict = some d) (pre post : List Bytes) (bad : Bytes)
    (hp : pre ++ bad :: post = askedPaths join files)
    (hpre : ∀ f ∈ pre, (fs f).isSome) (hbad : fs bad = none) :
    s.loadDict mid join fs files =
      (runOps s.cfg ((pre.flatMap fun f => fileEntries mid (startLoad s) ((fs f).getD [])).map fun e => .add e.1 e.2.1 e.2.2) d).map
        fun d => ({ startLoad s with dict := some d }, true) := by
  have hc : (startLoad s).cfg = s.cfg := by unfold startLoad; cases s.load <;> rfl
  rw [loadDict_eq]
  rw [← hp, ← withDict_self hd, readFiles_eq]
  have h1 : ((pre ++ bad :: post).takeWhile fun f => (fs f).isSome) = pre := by
    rw [List.takeWhile_append_of_pos (by simpa using hpre)]
    simp [hbad]
  have h2 : ((pre ++ bad :: post).any fun f => (fs f).isNone) = true := by simp [hbad]
  rw [h1, h2, hc, runOps_adds, withDict_self hd]
  rfl

theorem addAll_new (cfg : SplitCfg) (es : List (Entry F)) (d : Dictionary F D)
    (h : ∀ t ∈ d.tokens, t.distance = F32.zero ∧ t.segments = []) : ∀ t ∈ (addAll cfg d es).tokens, t.distance = F32.zero ∧ t.segments = [] := by
  induction es generalizing d with
  | nil => exact h
  | cons e es ih =>
    refine ih _ fun t ht => ?_
    rcases addToken_mem _ _ t ht with h' | rfl
    · exact h t h'
    · exact ⟨rfl, rfl⟩

/-- C57: in a first load that fails this way, every stored word has distance zero and no sub-segments. -/
theorem C57_missing_uncalculated (mid : ScanErr) (join : Bytes → Bytes) (fs : Bytes → Option Bytes) (s : Segmenter F D) (hl : s.load = false)
    (files : Option Bytes) (s' : Segmenter F D) (h : s.loadDict mid join fs files = some (s', true)) :
    ∃ d, s'.dict = some d ∧ ∀ t ∈ d.tokens, t.distance = F32.zero ∧ t.segments = [] := by
  rw [loadDict_eq] at h
  generalize hs1 : startLoad s = s1 at h
  have hd : s1.dict = some Dictionary.new := by rw [← hs1]; unfold startLoad; rw [hl]; rfl
  rw [← withDict_self hd, readFiles_eq, Option.bind_some] at h
  generalize (askedPaths join files).any (fun f => (fs f).isNone) = e at h
  cases e with
  | true =>
    simp at h
    exact ⟨_, by rw [← h]; rfl, addAll_new _ _ _ (by simp [Dictionary.new])⟩
  | false => simp at h

/-! ### Names of dictionaries -/

/-- The path a name stands for; the names `en`, `ko` and `ti` stand for none. -/
def namePath (join : Bytes → Bytes) (name : Bytes) : Option Bytes :=
  if name = str "ja" ∨ name = str "jp" then some (join (str "dict/jp/dict.txt"))
  else if name = str "zh" ∨ name = str "zh_s" then some (join (str "dict/zh/s_1.txt"))
  else if name = str "zh_t" then some (join (str "dict/zh/t_1.txt"))
  else if name = str "en" ∨ name = str "ko" ∨ name = str "ti" then none
  else some name

/-- The path in force after some names: that of the last name standing for one. -/
def pathAfter (join : Bytes → Bytes) (names : List Bytes) : Bytes := (names.reverse.findSome? (namePath join)).getD []

/-- The files of the i-th name. -/
def nameFiles (join : Bytes → Bytes) (names : List Bytes) (i : Nat) : List Bytes :=
  (if names[i]? = some (str "zh") then [join (str "dict/zh/t_1.txt")] else []) ++
  (if pathAfter join (names.take (i + 1)) = [] ∨ pathAfter join (names.take (i + 1)) = str " " then []
   else [pathAfter join (names.take (i + 1))])

/-- C44: `DictPaths` gives, name by name, the path in force, preceded by the traditional dictionary for `zh`. -/
theorem C44_paths (join : Bytes → Bytes) (filePath : Bytes) (h : filePath ≠ str "en") (names : List Bytes)
    (hn : names = if containsStr filePath (str ", ") then splitStr filePath (str ", ") else splitStr filePath (str ",")) :
    dictPaths join filePath = (List.range names.length).flatMap (nameFiles join names) := by
  unfold dictPaths
  simp only [h, if_false]
  rw [← hn]
  clear hn h
  have key : names.foldl (dictPathStep join) ([], []) = (pathAfter join names, (List.range names.length).flatMap (nameFiles join names)) := by
    induction names using List.reverseRecOn with
    | nil => rfl
    | append_singleton names a ih =>
      rw [List.foldl_append, ih]
      have hpre : (List.range names.length).flatMap (nameFiles join (names ++ [a])) = (List.range names.length).flatMap (nameFiles join names) := by
        rw [List.flatMap_def, List.flatMap_def]
        congr 1
        apply List.map_congr_left
        intro i hi
        have hi : i < names.length := by simpa using hi
        unfold nameFiles
        rw [List.getElem?_append_left hi, List.take_append_of_le_length (by omega)]
      have hlast : nameFiles join (names ++ [a]) names.length =
          (if a = str "zh" then [join (str "dict/zh/t_1.txt")] else []) ++
          (if pathAfter join (names ++ [a]) = [] ∨ pathAfter join (names ++ [a]) = str " " then [] else [pathAfter join (names ++ [a])]) := by
        unfold nameFiles
        rw [List.take_of_length_le (by simp)]
        simp
      have hpa : pathAfter join (names ++ [a]) = (namePath join a).getD (pathAfter join names) := by
        unfold pathAfter
        simp only [List.reverse_append, List.reverse_cons, List.reverse_nil, List.nil_append, List.singleton_append, List.findSome?_cons]
        cases namePath join a <;> rfl
      simp only [List.length_append, List.length_singleton, List.range_succ, List.flatMap_append, hpre, List.flatMap_cons, List.flatMap_nil,
        List.append_nil, hlast]
      simp only [List.foldl_cons, List.foldl_nil, dictPathStep, hpa]
      generalize pathAfter join names = q
      generalize (List.range names.length).flatMap (nameFiles join names) = fl
      unfold namePath
      rw [show str "ja" = [106, 97] by decide, show str "jp" = [106, 112] by decide, show str "zh" = [122, 104] by decide,
        show str "zh_s" = [122, 104, 95, 115] by decide, show str "zh_t" = [122, 104, 95, 116] by decide,
        show str "en" = [101, 110] by decide, show str "ko" = [107, 111] by decide, show str "ti" = [116, 105] by decide]
      generalize join (str "dict/jp/dict.txt") = p1
      generalize join (str "dict/zh/s_1.txt") = p2
      generalize join (str "dict/zh/t_1.txt") = p3
      have fin : ∀ (x : Bytes) (y : List Bytes), (if x ≠ [] ∧ x ≠ str " " then y ++ [x] else y) =
          y ++ if x = [] ∨ x = str " " then [] else [x] := by
        intro x y
        by_cases h1 : x = [] <;> by_cases h2 : x = str " " <;> simp [h1, h2]
      simp only [fin]
      by_cases e1 : a = [106, 97]
      · subst e1; simp
      by_cases e2 : a = [106, 112]
      · subst e2; simp
      by_cases e3 : a = [122, 104]
      · subst e3; simp
      by_cases e4 : a = [122, 104, 95, 115]
      · subst e4; simp
      by_cases e5 : a = [122, 104, 95, 116]
      · subst e5; simp
      by_cases e6 : a = [101, 110]
      · subst e6; simp
      by_cases e7 : a = [107, 111]
      · subst e7; simp
      by_cases e8 : a = [116, 105]
      · subst e8; simp
      simp [e1, e2, e3, e4, e5, e6, e7, e8]
  rw [key]

/-- C44: names of files only: the paths are the names. -/
theorem C44_plain (join : Bytes → Bytes) (filePath : Bytes) (h : filePath ≠ str "en") (names : List Bytes)
    (hn : names = if containsStr filePath (str ", ") then splitStr filePath (str ", ") else splitStr filePath (str ","))
    (hp : ∀ a ∈ names, namePath join a = some a ∧ a ≠ str "zh" ∧ a ≠ [] ∧ a ≠ str " ") : dictPaths join filePath = names := by
  rw [C44_paths join filePath h names hn]
  have : ∀ i < names.length, nameFiles join names i = [names.getD i []] := by
    intro i hi
    have h1 := hp names[i] (by simp)
    have h2 : pathAfter join (names.take (i + 1)) = names[i] := by
      unfold pathAfter
      have : (names.take (i + 1)).reverse = names[i] :: (names.take i).reverse := by
        rw [List.take_add_one, List.getElem?_eq_getElem hi]; simp
      rw [this]
      simp [h1.1]
    unfold nameFiles
    rw [h2, List.getElem?_eq_getElem hi]
    simp [h1, hi]
  rw [List.flatMap_def, List.map_congr_left (g := fun i => [names.getD i []]) (by simpa using this)]
  apply List.ext_getElem?
  intro i
  rw [← List.flatMap_def, ← List.map_eq_flatMap]
  simp only [List.getElem?_map]
  by_cases hi : i < names.length
  · simp [hi]
  · simp [hi]

/-- C44: a name standing for no path repeats the path before it. -/
theorem C44_repeat (join : Bytes → Bytes) (names : List Bytes) (a : Bytes) (ha : namePath join a = none) :
    nameFiles join (names ++ [a]) names.length =
      if pathAfter join names = [] ∨ pathAfter join names = str " " then [] else [pathAfter join names] := by
  have hz : a ≠ str "zh" := by rintro rfl; revert ha; unfold namePath; simp [show str "zh" ≠ str "ja" by decide, show str "zh" ≠ str "jp" by decide]
  have hpa : pathAfter join (names ++ [a]) = pathAfter join names := by simp [pathAfter, ha]
  unfold nameFiles
  rw [List.take_of_length_le (by simp)]
  simp [hz, hpa]

/-- C44: "en" alone gives nothing. -/
theorem C44_en (join : Bytes → Bytes) : dictPaths join (str "en") = [] := by simp [dictPaths]

/-! ### Embedded dictionaries -/

/-- C58: a list of names containing none of "zh,", "zh_s,", "zh_t,": each is loaded as a dictionary text. -/
theorem C58_names (E : Embedded) (s : Segmenter F D) (d : Bytes) (hsep : s.dictSep ≠ str ",") (hd : containsStr d (str ", ") = true)
    (hd1 : d ≠ str "ja") (hd2 : d ≠ str "zh") (hd3 : d ≠ str "zh_s") (hd4 : d ≠ str "zh_t")
    (hz : containsStr d (str "zh,") = false ∧ containsStr d (str "zh_s,") = false ∧ containsStr d (str "zh_t,") = false) :
    s.loadDictEmbed E (some d) = loop loadDictStr (splitStr d (str ", ")) s := by
  simp [Segmenter.loadDictEmbed, Segmenter.loadZhST, hd1, hd2, hd3, hd4, hd, hsep, hz]

/-- C58: a list of names containing "zh," (and not "zh_s,", "zh_t,") anywhere: the Chinese dictionary is loaded, then every
name but the *first* as a dictionary text. When "zh" is first this is what it says; otherwise the first name is dropped
and "zh" is loaded as a dictionary text. -/
theorem C58_zh (E : Embedded) (s : Segmenter F D) (d : Bytes) (hsep : s.dictSep ≠ str ",")
    (x : Bytes) (rest : List Bytes) (hn : splitStr d (str ", ") = x :: rest) (hr : rest ≠ [])
    (hz : containsStr d (str "zh,") = true ∧ containsStr d (str "zh_s,") = false ∧ containsStr d (str "zh_t,") = false) :
    s.loadDictEmbed E (some d) = (s.loadDictStr (E.zhS ++ E.zhT)).bind (loop loadDictStr rest) := by
  have hd : containsStr d (str ", ") = true := by
    rw [containsStr_iff]
    have := splitStr_spec d (str ", ") (by decide)
    rw [hn] at this
    cases this with
    | last => exact absurd rfl hr
    | cut a t l h r => exact ⟨x, t, rfl⟩
  have h1 : d ≠ str "ja" := by rintro rfl; revert hd; decide
  have h2 : d ≠ str "zh" := by rintro rfl; revert hd; decide
  have h3 : d ≠ str "zh_s" := by rintro rfl; revert hd; decide
  have h4 : d ≠ str "zh_t" := by rintro rfl; revert hd; decide
  simp [Segmenter.loadDictEmbed, Segmenter.loadZhST, h1, h2, h3, h4, hd, hsep, hz, hn, Segmenter.loadZh, Option.bind_assoc]

/-- C58: an argument that is no built-in name and contains no ", ", or any such argument when the separator is ",", is one
dictionary text. -/
theorem C58_text (E : Embedded) (s : Segmenter F D) (d : Bytes) (hn : d ∉ [str "ja", str "zh", str "zh_s", str "zh_t"])
    (h : ¬ str ", " <:+: d ∨ s.dictSep = str ",") : s.loadDictEmbed E (some d) = s.loadDictStr d := by
  simp only [List.mem_cons, List.not_mem_nil, or_false, not_or] at hn
  rw [← containsStr_iff] at h
  rcases h with h | h <;> simp [Segmenter.loadDictEmbed, hn, h]

/-- C58: the built-in names, and the default. -/
theorem C58_builtin (E : Embedded) (s : Segmenter F D) :
    s.loadDictEmbed E (some (str "ja")) = s.loadDictStr E.ja ∧ s.loadDictEmbed E (some (str "zh_s")) = s.loadDictStr E.zhS ∧
    s.loadDictEmbed E (some (str "zh_t")) = s.loadDictStr E.zhT ∧
    s.loadDictEmbed E (some (str "zh")) = s.loadDictStr (E.zhS ++ E.zhT) ∧ s.loadDictEmbed E none = s.loadDictStr (E.zhS ++ E.zhT) := by
  refine ⟨rfl, rfl, rfl, rfl, rfl⟩

/-- C58: the two embedded Chinese dictionaries are joined without a newline; when the first ends in one, loading both is
loading one after the other. -/
theorem C58_both [UnicodeOK] (E : Embedded) (s : Segmenter F D) (hs : ∀ d, s.dict = some d → Reachable s.cfg d) (a : Bytes)
    (ha : E.zhS = a ++ str "\n") :
    s.loadDictEmbed E (some (str "zh")) = (s.loadDictStr a).bind fun s => s.loadDictStr E.zhT := by
  have : s.loadDictEmbed E (some (str "zh")) = s.loadDictStr (E.zhS ++ E.zhT) := by
    simp [Segmenter.loadDictEmbed, Segmenter.loadZh, show str "zh" ≠ str "ja" by decide]
  rw [this, ha, C20_append s hs]

end

section examples
attribute [local instance] sampleUnicode sampleUnicodeOK sampleF64 sampleF32 sampleNarrow

def freshSeg : Segmenter Int Int := { minTokenFreq := 0 }

def findIn (s : Option (Segmenter Int Int)) (w : String) : Option (Int × Bytes × Bool) :=
  s.bind fun s => s.dict.bind fun d => d.find (str w)

/-- Accepted, repeated, rejected and one-column lines. -/
def sampleDict : Bytes := str "ab 5 n\nAB 9 v\nabc 3\n\nde x n\nfg 1\nh 7 n\nij"

example : freshSeg.dict = none ∧ (splitStr sampleDict (str "\n")).length < Trie.valueLimit := by decide +kernel
example : findIn (freshSeg.loadDictStr sampleDict) "ab" = some (5, str "n", true) ∧
    findIn (freshSeg.loadDictStr sampleDict) "abc" = some (3, [], true) ∧
    findIn (freshSeg.loadDictStr sampleDict) "h" = some (2, str "n", true) ∧
    findIn (freshSeg.loadDictStr sampleDict) "fg" = some (0, [], false) ∧
    findIn (freshSeg.loadDictStr sampleDict) "de" = some (0, [], false) ∧
    findIn (freshSeg.loadDictStr sampleDict) "ij" = some (0, [], false) := by
  refine ⟨?_, ?_, ?_, ?_, ?_, ?_⟩ <;> decide +kernel
example : findIn (({ freshSeg with loadNoFreq := true, textFreq := str "2" }).loadDictStr sampleDict) "ij" = some (2, [], true) := by decide +kernel

/-- Maps with three, two, one and no keys. -/
example : findIn (freshSeg.loadDictMap [[(str "text", str "ab"), (str "freq", str "7"), (str "pos", str "n")],
    [(str "text", str "cd"), (str "freq", str "4")], [(str "text", str "ef")], []]) "cd" = some (4, [], true) ∧
    findIn (freshSeg.loadDictMap [[(str "text", str "ab"), (str "freq", str "7"), (str "pos", str "n")],
    [(str "text", str "ef")], []]) "ef" = some (0, [], false) := by decide +kernel

/-- A segmenter ready for reading files. -/
def readSeg : Segmenter Int Int := ({ minTokenFreq := 0, loadNoFreq := true, textFreq := str "2", dict := some Dictionary.new } : Segmenter Int Int).init

/-- The tag of the line before is inherited, "" after a line of two columns. -/
def sampleFile : Bytes := str "ab 5 n\ncd\nef 6\ngh\n"
def sampleLines : List Line :=
  [⟨[([], [97, 98]), ([32], [53]), ([32], [110])], []⟩, ⟨[([], [99, 100])], []⟩, ⟨[([], [101, 102]), ([32], [54])], []⟩, ⟨[([], [103, 104])], []⟩]

example : readSeg.dictSep = [] ∧ readSeg.dict.isSome = true ∧ runes sampleFile = sampleLines.flatMap fun l => l.chars ++ [10] := by
  decide +kernel
example : findIn (readSeg.reader .other sampleFile) "cd" = some (2, str "n", true) ∧
    findIn (readSeg.reader .other sampleFile) "gh" = some (2, [], true) := by decide +kernel

/-- Five columns: the rest after one character is read as a row of its own. -/
example : findIn (readSeg.reader .other (str "ab 5 n xyz 7\n")) "yz" = some (7, [], true) := by decide +kernel

/-- With a separator a one-column line keeps its newline. -/
example : findIn (({ readSeg with dictSep := str "," }).reader .other (str "ab, 5, n\ncd\n")) "ab" = some (5, str "n", true) ∧
    findIn (({ readSeg with dictSep := str "," }).reader .other (str "ab, 5, n\ncd\n")) "cd\n" = some (2, [], true) ∧
    (findIn (({ readSeg with dictSep := str "," }).reader .other (str "ab, 5, n\ncd\n")) "cd").map (·.1) = some 0 := by decide +kernel

def sampleJoin (p : Bytes) : Bytes := str "/d/" ++ p
def sampleFs (p : Bytes) : Option Bytes := if p = str "u" then some (str "ab 5 n\n") else if p = str "v" then some (str "cd 3 v\n") else none

/-- Two files, and a missing one between. -/
example : (freshSeg.loadDict .other sampleJoin sampleFs (some (str "u,v"))).map (fun r => (findIn (some r.1) "cd", r.2)) =
    some (some (3, str "v", true), false) := by decide +kernel
example : (freshSeg.loadDict .other sampleJoin sampleFs (some (str "u,x,v"))).map (fun r => (findIn (some r.1) "ab", r.2)) =
    some (some (5, str "n", true), true) := by decide +kernel
example : (freshSeg.loadDict .other sampleJoin sampleFs (some (str "u,x,v"))).map (fun r => (findIn (some r.1) "cd", r.2)) =
    some (some (0, [], false), true) := by decide +kernel

example : dictPaths sampleJoin (str "u, zh, ko, ja, v") =
    [str "u", str "/d/dict/zh/t_1.txt", str "/d/dict/zh/s_1.txt", str "/d/dict/zh/s_1.txt", str "/d/dict/jp/dict.txt", str "v"] ∧
    dictPaths sampleJoin (str "en,ko") = [] := by decide +kernel

def sampleEmb : Embedded := ⟨str "ja 9 j", str "zs 5 s\n", str "zt 6 t"⟩
example : findIn (freshSeg.loadDictEmbed sampleEmb (some (str "zh, ab 5 n"))) "ab" = some (5, str "n", true) ∧
    findIn (freshSeg.loadDictEmbed sampleEmb (some (str "zh, ab 5 n"))) "zt" = some (6, str "t", true) ∧
    findIn (freshSeg.loadDictEmbed sampleEmb (some (str "ab 5 n, zh, cd 5 n"))) "ab" = some (0, [], false) ∧
    findIn (freshSeg.loadDictEmbed sampleEmb (some (str "ab 5 n, zh, cd 5 n"))) "cd" = some (5, str "n", true) := by decide +kernel

end examples
end Gse
