import Verif.Spec.Plain
import Verif.Props.Load
import Verif.Props.Utf8
import Verif.Props.TrimCut
import Verif.Props.Content

/-!
# C107: a dictionary in the plain form is the same dictionary for every loader
-/

namespace Gse
open Spec Segmenter

set_option linter.unusedSectionVars false

section
variable [U : Unicode]

theorem Spec.PlainCol.no_blank [UnicodeOK] {w : List Rune} (h : PlainCol w) : 32 ∉ encode w := by
  intro hb
  have := (h _ (mem_encode_ascii (by decide) hb)).2
  have h2 := UnicodeOK.space_blank (U := U)
  simp at this
  rw [h2] at this; cases this

theorem Spec.PlainCol.no_newline [UnicodeOK] {w : List Rune} (h : PlainCol w) : 10 ∉ encode w := by
  intro hb
  have := (h _ (mem_encode_ascii (by decide) hb)).2
  have h2 := UnicodeOK.space_newline (U := U)
  simp at this
  rw [h2] at this; cases this

theorem Spec.PlainCol.trim (hU : U.isSpace 0xFFFD = false) {w : List Rune} (h : PlainCol w) : trimSpace (encode w) = encode w := by
  refine (C81_trim hU _ _).1 ⟨[], [], by simp, .nil, .nil, fun r bs hu hs => ⟨?_, ?_⟩⟩
  · rintro ⟨y, hy⟩
    cases w with
    | nil => simp [utf8_ne hu] at hy
    | cons r0 w =>
      have h0 := h r0 (by simp)
      have e := decodeRune_encodeRune r0 h0.1 (encode w)
      rw [← encode_cons, ← hy, utf8_decode hu y] at e
      simp at e
      rw [e.1, h0.2] at hs; cases hs
  · rintro ⟨y, hy⟩
    rcases List.eq_nil_or_concat w with rfl | ⟨w, r0, rfl⟩
    · simp [utf8_ne hu] at hy
    · have h0 := h r0 (by simp)
      have e := decodeLast_char (encode w) _ r0 ((utf8_iff r0 _).2 ⟨h0.1, rfl⟩)
      rw [show encode w ++ encodeRune r0 = encode (w.concat r0) by simp [encode_append], ← hy, decodeLast_char y bs r hu] at e
      simp at e
      rw [e.1, h0.2] at hs; cases hs

/-- Splitting at a separator with a blank at its end, the part before it being without blanks. -/
theorem splitStr_col {sep a : Bytes} (hs : 32 ∉ sep) (ha : 32 ∉ a) (t : Bytes) :
    splitStr (a ++ sep ++ [32] ++ t) (sep ++ [32]) = a :: splitStr t (sep ++ [32]) := by
  refine splitStr_eq (by simp) ?_
  have := SplitAt.cut (sep := sep ++ [32]) a t (splitStr t (sep ++ [32])) (fun i hi hp => ?_) (splitStr_spec t _ (by simp))
  · simpa [List.append_assoc] using this
  · obtain ⟨z, hz⟩ := hp
    have e : (sep ++ [32] ++ z)[sep.length]? = some 32 := by simp
    rw [hz, List.getElem?_drop] at e
    have e2 : (a ++ sep)[i + sep.length]? = some 32 := by
      rw [← e, show a ++ (sep ++ [32]) ++ t = (a ++ sep) ++ ([32] ++ t) by simp]
      exact (List.getElem?_append_left (by rw [List.length_append]; omega)).symm
    have := List.mem_of_getElem? e2
    rw [List.mem_append] at this
    exact this.elim ha hs

theorem splitStr_blankless {sep a : Bytes} (ha : 32 ∉ a) : splitStr a (sep ++ [32]) = [a] := by
  refine splitStr_single (by simp) fun i hp => ?_
  have h1 : (32 : UInt8) ∈ a.drop i := hp.subset (by simp)
  exact ha (List.mem_of_mem_drop h1)

theorem line_split [UnicodeOK] {sep : Bytes} (hs : SepOk sep) {r : PlainRow} (h : r.Ok) (e : Bytes) (he : 32 ∉ e) :
    splitStr (r.line sep ++ e) (sep ++ [32]) = [encode r.word, encode r.freq, encode r.tag ++ e] := by
  have h1 := splitStr_col hs.1 h.word.no_blank (encode r.freq ++ sep ++ [32] ++ (encode r.tag ++ e))
  have h2 := splitStr_col hs.1 h.freq.no_blank (encode r.tag ++ e)
  have h3 : splitStr (encode r.tag ++ e) (sep ++ [32]) = [encode r.tag ++ e] :=
    splitStr_blankless (by simp only [List.mem_append, not_or]; exact ⟨h.tag.no_blank, he⟩)
  rw [h2, h3] at h1
  rw [← h1]
  simp [PlainRow.line, List.append_assoc]

theorem line_no_newline [UnicodeOK] {sep : Bytes} (hs : SepOk sep) {r : PlainRow} (h : r.Ok) : 10 ∉ r.line sep := by
  simp only [PlainRow.line, List.mem_append, not_or]
  exact ⟨⟨⟨⟨⟨⟨h.word.no_newline, hs.2⟩, by simp⟩, h.freq.no_newline⟩, hs.2⟩, by simp⟩, h.tag.no_newline⟩

theorem plainText_lines [UnicodeOK] {sep : Bytes} (hs : SepOk sep) {rows : List PlainRow} (h : ∀ r ∈ rows, r.Ok) :
    splitStr (plainText sep rows) [10] = rows.map (fun r => r.line sep) ++ [[]] := by
  induction rows with
  | nil => simp [plainText, splitStr, splitStrAux]
  | cons r rows ih =>
    have e : plainText sep (r :: rows) = r.line sep ++ [10] ++ plainText sep rows := by simp [plainText]
    have h1 : splitStr (r.line sep) [10] = [r.line sep] := noNewline_split (line_no_newline hs (h r (by simp)))
    rw [e, splitStr_byte, ih fun r hr => h r (by simp [hr]), h1]
    simp

theorem dropWhile_newline {l : Bytes} (h : 10 ∉ l) : l.dropWhile (· == 10) = l := by
  cases l with
  | nil => rfl
  | cons b l =>
    have : b ≠ 10 := fun e => h (by simp [e])
    simp [List.dropWhile, beq_false_of_ne this]

theorem trimNewlines_none {l : Bytes} (h : 10 ∉ l) : trimNewlines l = l := by
  unfold trimNewlines
  rw [dropWhile_newline h, dropWhile_newline (by simpa using h), List.reverse_reverse]

theorem trimNewlines_one {l : Bytes} (h : 10 ∉ l) : trimNewlines (l ++ [10]) = l := by
  unfold trimNewlines
  cases l with
  | nil => decide
  | cons b l =>
    have hb : b ≠ 10 := fun e => h (by simp [e])
    have e : (b :: l ++ [10]).dropWhile (· == 10) = b :: l ++ [10] := by
      simp [beq_false_of_ne hb]
    rw [e, List.reverse_append]
    have e2 : ([10].reverse ++ (b :: l).reverse : Bytes).dropWhile (· == 10) = (b :: l).reverse := by
      have := dropWhile_newline (l := (b :: l).reverse) (by rwa [List.mem_reverse])
      simpa [List.dropWhile] using this
    rw [e2, List.reverse_reverse]

end

section
variable {F D : Type} [F64 F] [F32 D] [Narrow F D] [U : Unicode]

theorem trimSpace_nil : trimSpace ([] : Bytes) = [] := by simp [trimSpace, trimLeft, trimRight]

theorem strEntries_plain [UnicodeOK] (hU : U.isSpace 0xFFFD = false) (s : Segmenter F D) (hs : SepOk s.dictSep) (rows : List PlainRow) (h : ∀ r ∈ rows, r.Ok) :
    strEntries s (plainText s.dictSep rows) = plainEntries s.lcfg rows ++ (rowEntry s.lcfg [] none []).toList := by
  have e0 : splitStr [] (s.dictSep ++ str " ") = [[]] := splitStr_blankless (a := []) (by simp)
  rw [strEntries, show str "\n" = [10] by decide, plainText_lines hs h, List.filterMap_append, List.filterMap_map]
  congr 1
  · refine List.filterMap_congr fun r hr => ?_
    have hr' := h r hr
    have := line_split hs hr' [] (by simp)
    simp only [List.append_nil] at this
    simp only [Function.comp_apply, show str " " = [32] by decide, this, lineEntry, trimNewlines_none hr'.tag.no_newline, hr'.word.trim hU, hr'.freq.trim hU, hr'.tag.trim hU]
  · simp only [List.filterMap_cons, e0, List.filterMap_nil, lineEntry, trimSpace_nil]
    cases rowEntry s.lcfg ([] : Bytes) none [] <;> rfl

/-- The line of a row for the scanner. -/
def Spec.PlainRow.scan (r : PlainRow) : Line :=
  if r.tag = [] then ⟨[([], r.word), ([32], r.freq)], [32]⟩ else ⟨[([], r.word), ([32], r.freq), ([32], r.tag)], []⟩

theorem scan_ok [UnicodeOK] {r : PlainRow} (h : r.Ok) : r.scan.Ok ∧ r.scan.words.length ≤ 3 := by
  have hb := UnicodeOK.space_blank (U := U)
  have hn := UnicodeOK.space_newline (U := U)
  have col : ∀ {w : List Rune}, PlainCol w → ∀ r ∈ w, r ≠ 10 ∧ U.isSpace r = false := by
    intro w hw r hr
    refine ⟨?_, (hw r hr).2⟩
    rintro rfl
    have := (hw _ hr).2
    rw [hn] at this; cases this
  unfold PlainRow.scan
  split
  · refine ⟨⟨?_, ?_, ?_, ?_⟩, by simp⟩
    · simp [hb]
    · simp only [List.mem_cons, List.not_mem_nil, or_false]
      rintro p (rfl | rfl)
      · exact ⟨h.hasWord, col h.word⟩
      · exact ⟨h.hasFreq, col h.freq⟩
    · simp
    · simp [hb]
  · next ht =>
    refine ⟨⟨?_, ?_, ?_, ?_⟩, by simp⟩
    · simp [hb]
    · simp only [List.mem_cons, List.not_mem_nil, or_false]
      rintro p (rfl | rfl | rfl)
      · exact ⟨h.hasWord, col h.word⟩
      · exact ⟨h.hasFreq, col h.freq⟩
      · exact ⟨ht, col h.tag⟩
    · simp
    · simp

theorem runes_plain [UnicodeOK] (rows : List PlainRow) (h : ∀ r ∈ rows, r.Ok) :
    runes (plainText [] rows) = rows.flatMap fun r => r.scan.chars ++ [10] := by
  have e : plainText [] rows = encode (rows.flatMap fun r => r.scan.chars ++ [10]) := by
    induction rows with
    | nil => rfl
    | cons r rows ih =>
      have e1 : plainText [] (r :: rows) = (r.line [] ++ [10]) ++ plainText [] rows := by simp [plainText]
      rw [e1, ih fun r hr => h r (by simp [hr]), List.flatMap_cons, encode_append]
      congr 1
      unfold PlainRow.scan PlainRow.line
      split
      · next ht => simp [Line.chars, encode_append, ht, show encodeRune 32 = [32] by decide, show encodeRune 10 = [10] by decide]
      · simp [Line.chars, encode_append, show encodeRune 32 = [32] by decide, show encodeRune 10 = [10] by decide]
  rw [e, runes_encode]
  intro r hr
  simp only [List.mem_flatMap, List.mem_append, List.mem_singleton] at hr
  obtain ⟨x, hx, hr | rfl⟩ := hr
  · have hx' := h x hx
    unfold PlainRow.scan at hr
    split at hr
    · simp [Line.chars] at hr
      rcases hr with hr | rfl | hr | rfl
      · exact (hx'.word r hr).1
      · decide
      · exact (hx'.freq r hr).1
      · decide
    · simp [Line.chars] at hr
      rcases hr with hr | rfl | hr | rfl | hr
      · exact (hx'.word r hr).1
      · decide
      · exact (hx'.freq r hr).1
      · decide
      · exact (hx'.tag r hr).1
  · decide

theorem rowsEntries_plain (c : LoadCfg F) (rows : List PlainRow) : ∀ tag, rowsEntries c tag (rows.map fun r => r.scan.cols) = plainEntries c rows := by
  induction rows with
  | nil => intro tag; rfl
  | cons r rows ih =>
    intro tag
    simp only [List.map_cons, plainEntries, List.filterMap_cons]
    rw [← plainEntries]
    by_cases ht : r.tag = []
    · simp only [PlainRow.scan, ht, if_true, Line.cols, List.map_cons, List.map_nil, rowsEntries, encode_nil]
      have := ih tag
      have := ih []
      cases rowEntry c (encode r.word) (some (encode r.freq)) [] <;> simp_all [PlainRow.scan, Line.cols]
    · have e : r.scan.cols = [encode r.word, encode r.freq, encode r.tag] := by simp [PlainRow.scan, ht, Line.cols]
      simp only [e, rowsEntries, ih]
      cases rowEntry c (encode r.word) (some (encode r.freq)) (encode r.tag) <;> simp

theorem fileEntries_plain [UnicodeOK] (hU : U.isSpace 0xFFFD = false) (mid : ScanErr) (s : Segmenter F D) (hs : SepOk s.dictSep) (rows : List PlainRow) (h : ∀ r ∈ rows, r.Ok) :
    fileEntries mid s (plainText s.dictSep rows) = plainEntries s.lcfg rows := by
  unfold fileEntries
  split
  · next h0 =>
    rw [h0, runes_plain rows h]
    have e : (rows.flatMap fun r => r.scan.chars ++ [10]) = (rows.map PlainRow.scan).flatMap fun l => l.chars ++ [10] := by
      rw [List.flatMap_map]
    have hl : ∀ l : List Line, l.length ≤ (l.flatMap fun l => l.chars ++ [10]).length := by
      intro l
      induction l with
      | nil => simp
      | cons a l ih => simp at ih ⊢; omega
    have := hl (rows.map PlainRow.scan)
    rw [e, scanRows_lines mid (rows.map PlainRow.scan) (by
      intro l hl
      obtain ⟨r, hr, rfl⟩ := List.mem_map.1 hl
      exact scan_ok (h r hr)) _ (by omega)]
    rw [Option.getD_some, List.map_map]
    exact rowsEntries_plain _ _ _
  · have e : fileLines s.dictSep (plainText s.dictSep rows) = rows.map fun r => r.line s.dictSep ++ [10] := by
      induction rows with
      | nil =>
        have e0 : splitStr [] (s.dictSep ++ str " ") = [[]] := splitStr_blankless (a := []) (by simp)
        have e1 : splitStr ([] : Bytes) (str "\n") = [[]] := by decide
        simp [plainText, fileLines, e0, e1]
      | cons r rows ih =>
        have e1 : plainText s.dictSep (r :: rows) = r.line s.dictSep ++ 10 :: plainText s.dictSep rows := by simp [plainText]
        rw [e1, fileLines_cons _ _ _ (line_no_newline hs (h r (by simp))), ih fun r hr => h r (by simp [hr])]
        simp
    rw [e, List.filterMap_map]
    refine List.filterMap_congr fun r hr => ?_
    have hr' := h r hr
    have := line_split hs hr' [10] (by decide)
    simp only [Function.comp_apply, show str " " = [32] by decide, this, sepEntry, trimNewlines_one hr'.tag.no_newline, hr'.freq.trim hU, hr'.tag.trim hU]

/-- C107: what `LoadDictStr` makes of a dictionary in the plain form: the entries of the rows, and, when words without frequency are let in,
an empty word for the text after the last newline. -/
theorem C107_str [UnicodeOK] (hU : U.isSpace 0xFFFD = false) (s : Segmenter F D) (hs : SepOk s.dictSep) (rows : List PlainRow) (h : ∀ r ∈ rows, r.Ok) :
    s.loadDictStr (plainText s.dictSep rows) =
      (runOps s.cfg (loadOps (plainEntries s.prepare.lcfg rows ++ (rowEntry s.prepare.lcfg [] none []).toList)) (s.dict.getD Dictionary.new)).map
        fun d => { s.prepare with dict := some d } := by
  rw [loadDictStr_eq]
  have := strEntries_plain hU s.prepare (by rw [prepare_sep]; exact hs) rows h
  rw [prepare_sep] at this
  rw [this]
  rfl

/-- C107: what `LoadDictMap` makes of it. -/
theorem C107_map (s : Segmenter F D) (rows : List PlainRow) :
    s.loadDictMap (rows.map PlainRow.map) =
      (runOps s.cfg (loadOps (plainEntries s.prepare.lcfg rows)) (s.dict.getD Dictionary.new)).map fun d => { s.prepare with dict := some d } := by
  rw [C22_load_map, List.filterMap_map]
  congr 3

/-- C107: what `LoadDict` makes of files with dictionaries in the plain form. -/
theorem C107_files [UnicodeOK] (hU : U.isSpace 0xFFFD = false) (mid : ScanErr) (join : Bytes → Bytes) (fs : Bytes → Option Bytes) (s : Segmenter F D)
    (hs : SepOk s.dictSep) (files : Option Bytes) (rows : Bytes → List PlainRow)
    (hf : ∀ f ∈ askedPaths join files, fs f = some (plainText s.dictSep (rows f)) ∧ ∀ r ∈ rows f, r.Ok) (d : Dictionary F D) (hd : (startLoad s).dict = some d) :
    s.loadDict mid join fs files =
      (runOps s.cfg (loadOps (plainEntries (startLoad s).lcfg ((askedPaths join files).flatMap rows))) d).map
        fun d => ({ startLoad s with dict := some d }, false) := by
  rw [C57_load_dict mid join fs s files d hd _ rfl fun f h => by simp [(hf f h).1]]
  congr 3
  have hsep : (startLoad s).dictSep = s.dictSep := by unfold startLoad; split <;> rfl
  generalize askedPaths join files = ps at hf ⊢
  induction ps with
  | nil => rfl
  | cons f ps ih =>
    have h1 := hf f (by simp)
    rw [List.flatMap_cons, List.flatMap_cons, plainEntries, List.filterMap_append]
    rw [ih fun f h => hf f (by simp [h]), h1.1, Option.getD_some, ← hsep, fileEntries_plain hU mid _ (by rw [hsep]; exact hs) _ h1.2]
    rfl

/-- C107: so for a new segmenter that wants frequencies it is the same whether a dictionary in the plain form is given as a text, as a list of
maps, or as files, in whatever way it is divided among files; and loading succeeds. -/
theorem C107_same [UnicodeOK] (hU : U.isSpace 0xFFFD = false) (mid : ScanErr) (join : Bytes → Bytes) (fs : Bytes → Option Bytes) (s : Segmenter F D)
    (hd : s.dict = none) (hl : s.load = false) (hn : s.loadNoFreq = false) (hs : SepOk s.dictSep) (files : Option Bytes) (part : Bytes → List PlainRow)
    (hf : ∀ f ∈ askedPaths join files, fs f = some (plainText s.dictSep (part f)) ∧ ∀ r ∈ part f, r.Ok) (rows : List PlainRow)
    (hr : rows = (askedPaths join files).flatMap part) :
    ∃ s', s.loadDictStr (plainText s.dictSep rows) = some s' ∧ s.loadDictMap (rows.map PlainRow.map) = some s' ∧
      s.loadDict mid join fs files = some ({ s' with load := true }, false) := by
  have hok : ∀ r ∈ rows, r.Ok := by
    intro r h
    rw [hr] at h
    obtain ⟨f, h1, h2⟩ := List.mem_flatMap.1 h
    exact (hf f h1).2 r h2
  have e1 := C107_str hU s hs rows hok
  have e2 := C107_map s rows
  have e3 := C107_files hU mid join fs s hs files part hf Dictionary.new (by simp [startLoad, hl, Segmenter.init])
  have hp : s.prepare = ({ s with dict := some Dictionary.new } : Segmenter F D).init := by simp [prepare, hd]
  have hq : startLoad s = { s.prepare with load := true } := by rw [hp]; simp [startLoad, hl, Segmenter.init]
  have hlc : (startLoad s).lcfg = s.prepare.lcfg := by rw [hq]; rfl
  have hnf : s.prepare.lcfg.noFreq = false := by rw [hp]; exact hn
  have h0 : rowEntry s.prepare.lcfg ([] : Bytes) none [] = none := by simp [rowEntry, rowFreq, hnf]
  rw [h0, hd] at e1
  rw [hd] at e2
  rw [hlc, ← hr] at e3
  simp only [Option.toList_none, List.append_nil, Option.getD_none] at e1 e2
  obtain ⟨d', hd'⟩ := calcToken_total (wf_addAll (Dictionary.wf_new (F := F) (D := D) s.cfg) (plainEntries s.prepare.lcfg rows))
  rw [runOps_load, hd'] at e1 e2 e3
  refine ⟨_, e1, e2, ?_⟩
  rw [e3, hq]
  rfl

/-- C107: the same for a segmenter that has loaded files before. -/
theorem C107_again [UnicodeOK] (hU : U.isSpace 0xFFFD = false) (mid : ScanErr) (join : Bytes → Bytes) (fs : Bytes → Option Bytes) (s : Segmenter F D)
    (d : Dictionary F D) (hd : s.dict = some d) (hl : s.load = true) (hn : s.loadNoFreq = false) (hs : SepOk s.dictSep) (files : Option Bytes) (part : Bytes → List PlainRow)
    (hf : ∀ f ∈ askedPaths join files, fs f = some (plainText s.dictSep (part f)) ∧ ∀ r ∈ part f, r.Ok) (rows : List PlainRow)
    (hr : rows = (askedPaths join files).flatMap part) :
    s.loadDictMap (rows.map PlainRow.map) = s.loadDictStr (plainText s.dictSep rows) ∧
      s.loadDict mid join fs files = (s.loadDictStr (plainText s.dictSep rows)).map fun s' => (s', false) := by
  have hok : ∀ r ∈ rows, r.Ok := by
    intro r h
    rw [hr] at h
    obtain ⟨f, h1, h2⟩ := List.mem_flatMap.1 h
    exact (hf f h1).2 r h2
  have hq : startLoad s = s := by simp [startLoad, hl]
  have e1 := C107_str hU s hs rows hok
  have e2 := C107_map s rows
  have e3 := C107_files hU mid join fs s hs files part hf d (by rw [hq]; exact hd)
  have hp : s.prepare = s := prepare_some hd
  have h0 : rowEntry s.lcfg ([] : Bytes) none [] = none := by simp [rowEntry, rowFreq, Segmenter.lcfg, hn]
  rw [hp, hd, h0] at e1
  rw [hp, hd] at e2
  rw [hq, ← hr] at e3
  simp only [Option.toList_none, List.append_nil, Option.getD_some] at e1 e2
  refine ⟨by rw [e1, e2], ?_⟩
  rw [e3, e1, Option.map_map]
  rfl

/-- C107: rows in another order, no two of the same word: the same segments and cuts, where the sum of the frequencies does not depend on the
order. -/
theorem C107_order [UnicodeOK] (hadd : ∀ a b c : F, F64.add (F64.add a b) c = F64.add (F64.add a c) b) (hU : U.isSpace 0xFFFD = false) (s : Segmenter F D)
    (hd : s.dict = none) (hn : s.loadNoFreq = false) (hs : SepOk s.dictSep) (rows rows' : List PlainRow) (hp : rows.Perm rows') (h : ∀ r ∈ rows, r.Ok)
    (hw : (rows.map fun r => normText s.cfg (encode r.word)).Nodup) (hl : rows.length ≤ Trie.valueLimit) :
    ∃ s1 s2 d1 d2, s.loadDictStr (plainText s.dictSep rows) = some s1 ∧ s.loadDictStr (plainText s.dictSep rows') = some s2 ∧
      s1.dict = some d1 ∧ s2.dict = some d2 ∧ SameSegments s.cfg d1 d2 ∧ SameCuts s.cfg d1 d2 := by
  have e1 := C107_str hU s hs rows h
  have e2 := C107_str hU s hs rows' fun r hr => h r (hp.mem_iff.2 hr)
  have hpr : s.prepare = ({ s with dict := some Dictionary.new } : Segmenter F D).init := by simp [prepare, hd]
  have hnf : s.prepare.lcfg.noFreq = false := by rw [hpr]; exact hn
  have h0 : rowEntry s.prepare.lcfg ([] : Bytes) none [] = none := by simp [rowEntry, rowFreq, hnf]
  rw [h0, hd] at e1 e2
  simp only [Option.toList_none, List.append_nil, Option.getD_none] at e1 e2
  obtain ⟨d1, hd1⟩ := calcToken_total (wf_addAll (Dictionary.wf_new (F := F) (D := D) s.cfg) (plainEntries s.prepare.lcfg rows))
  obtain ⟨d2, hd2⟩ := calcToken_total (wf_addAll (Dictionary.wf_new (F := F) (D := D) s.cfg) (plainEntries s.prepare.lcfg rows'))
  rw [runOps_load, hd1] at e1
  rw [runOps_load, hd2] at e2
  refine ⟨_, _, d1, d2, e1, e2, rfl, rfl, ?_⟩
  have hperm : (plainEntries s.prepare.lcfg rows).Perm (plainEntries s.prepare.lcfg rows') := hp.filterMap _
  have hsub : ((plainEntries s.prepare.lcfg rows).map fun e => normText s.cfg e.1).Sublist (rows.map fun r => normText s.cfg (encode r.word)) := by
    clear e1 e2 hd1 hd2 hperm hp hw hl h
    unfold plainEntries
    induction rows with
    | nil => simp
    | cons r rows ih =>
      rw [List.filterMap_cons]
      cases he : rowEntry s.prepare.lcfg (encode r.word) (some (encode r.freq)) (encode r.tag) with
      | none => exact ih.cons _
      | some e =>
        have : e.1 = encode r.word := by
          unfold rowEntry at he
          obtain ⟨f, _, rfl⟩ := Option.map_eq_some_iff.1 he
          rfl
        simp only [List.map_cons, this]
        exact ih.cons_cons _
  exact C89_order hadd s.cfg _ _ hperm (hsub.nodup hw) (le_trans (List.length_filterMap_le ..) hl) _ _ d1 d2 (runOps_adds ..) (runOps_adds ..) hd1 hd2

/-- C107: a dictionary written out in the plain form and read by a new segmenter is the dictionary that adding its entries one by one and
recalculating gives. `ft` is any way to write frequencies that reads back; single characters have frequency 2, since they get it anyway. -/
theorem C107_back [UnicodeOK] (hU : U.isSpace 0xFFFD = false) (s : Segmenter F D) (hd : s.dict = none) (hn : s.loadNoFreq = false) (hs : SepOk s.dictSep)
    (ft : F → List Rune) (es : List (List Rune × F × List Rune))
    (hw : ∀ e ∈ es, PlainCol e.1 ∧ e.1 ≠ [] ∧ PlainCol e.2.2)
    (hf : ∀ e ∈ es, PlainCol (ft e.2.1) ∧ ft e.2.1 ≠ [] ∧ F64.parse (encode (ft e.2.1)) = (e.2.1, false) ∧ F64.lt e.2.1 s.prepare.minTokenFreq = false ∧
      F64.eq e.2.1 (F64.ofNat 0) = false ∧ (e.1.length = 1 → e.2.1 = F64.ofNat 2)) :
    ∃ s', s.loadDictStr (plainText s.dictSep (es.map fun e => ⟨e.1, ft e.2.1, e.2.2⟩)) = some s' ∧
      s'.dict = runOps s.cfg (loadOps (es.map fun e => (encode e.1, e.2.1, encode e.2.2))) Dictionary.new := by
  have e1 := C107_str hU s hs (es.map fun e => ⟨e.1, ft e.2.1, e.2.2⟩) (by
    intro r hr
    obtain ⟨e, he, rfl⟩ := List.mem_map.1 hr
    exact ⟨(hw e he).1, (hf e he).1, (hw e he).2.2, (hw e he).2.1, (hf e he).2.1⟩)
  have hpr : s.prepare = ({ s with dict := some Dictionary.new } : Segmenter F D).init := by simp [prepare, hd]
  have hnf : s.prepare.lcfg.noFreq = false := by rw [hpr]; exact hn
  have h0 : rowEntry s.prepare.lcfg ([] : Bytes) none [] = none := by simp [rowEntry, rowFreq, hnf]
  rw [h0, hd] at e1
  simp only [Option.toList_none, List.append_nil, Option.getD_none] at e1
  have e2 : plainEntries s.prepare.lcfg (es.map fun e => ⟨e.1, ft e.2.1, e.2.2⟩) = es.map fun e => (encode e.1, e.2.1, encode e.2.2) := by
    clear e1
    induction es with
    | nil => rfl
    | cons e es ih =>
      have h1 := hw e (by simp)
      have h2 := hf e (by simp)
      have ih := ih (fun e he => hw e (by simp [he])) (fun e he => hf e (by simp [he]))
      have hr : rowFreq s.prepare.lcfg (encode e.1) (some (encode (ft e.2.1))) = some e.2.1 := by
        have hlt : F64.lt e.2.1 s.prepare.lcfg.minFreq = false := h2.2.2.2.1
        have hrl : (runes (encode e.1)).length = e.1.length := by rw [runes_encode _ fun r hr => (h1.1 r hr).1]
        simp only [rowFreq, Option.getD_some, h2.2.2.1, hlt, hrl, h2.2.2.2.2.1]
        by_cases hc : e.1.length < 2
        · have h3 : e.1.length = 1 := by
            have := List.length_pos_iff.2 h1.2.1
            omega
          have h4 := h2.2.2.2.2.2 h3
          have h5 := h2.2.2.2.2.1
          rw [h4] at h5 ⊢
          simp [hc, h5]
        · simp [hc]
      unfold plainEntries at ih ⊢
      simp only [List.map_cons, List.filterMap_cons, rowEntry, hr, Option.map_some] at ih ⊢
      rw [ih]
  obtain ⟨d', hd'⟩ := calcToken_total (wf_addAll (Dictionary.wf_new (F := F) (D := D) s.cfg) (es.map fun e => (encode e.1, e.2.1, encode e.2.2)))
  rw [e2, runOps_load, hd'] at e1
  exact ⟨_, e1, by rw [runOps_load, hd']⟩

/-- C107: the difference when words without frequency are let in: the text after the last newline is stored as an empty word by `LoadDictStr`
only, and counts. -/
theorem C107_empty_word [UnicodeOK] (hU : U.isSpace 0xFFFD = false) (s : Segmenter F D) (hs : SepOk s.dictSep) (rows : List PlainRow) (h : ∀ r ∈ rows, r.Ok) (v : F)
    (hv : rowFreq s.prepare.lcfg [] none = some v) :
    s.loadDictStr (plainText s.dictSep rows) =
      (runOps s.cfg (loadOps (plainEntries s.prepare.lcfg rows ++ [([], v, [])])) (s.dict.getD Dictionary.new)).map
        fun d => { s.prepare with dict := some d } := by
  rw [C107_str hU s hs rows h]
  simp [rowEntry, hv]

end

/-! ### Examples -/

section examples
attribute [local instance] sampleUnicode sampleUnicodeOK sampleF64 sampleF32 sampleNarrow

/-- A word with tag, a word without, a single character, a line that is rejected. -/
def plainRows : List PlainRow :=
  [⟨[20013, 22269], [53], [110, 115]⟩, ⟨[97, 98], [51], []⟩, ⟨[20154], [55], [110]⟩, ⟨[99, 100], [49], [118]⟩]

instance (r : PlainRow) : Decidable r.Ok :=
  decidable_of_iff ((∀ x ∈ r.word, validRune x = true ∧ sampleUnicode.isSpace x = false) ∧ (∀ x ∈ r.freq, validRune x = true ∧ sampleUnicode.isSpace x = false) ∧
    (∀ x ∈ r.tag, validRune x = true ∧ sampleUnicode.isSpace x = false) ∧ r.word ≠ [] ∧ r.freq ≠ [])
    ⟨fun ⟨a, b, c, d, e⟩ => ⟨a, b, c, d, e⟩, fun ⟨a, b, c, d, e⟩ => ⟨a, b, c, d, e⟩⟩

theorem plainRows_ok : ∀ r ∈ plainRows, r.Ok := by decide +kernel

/-- The rows in two files. -/
def plainPart (f : Bytes) : List PlainRow := if f = str "u" then plainRows.take 2 else plainRows.drop 2
def plainFs (sep : Bytes) (f : Bytes) : Option Bytes := some (plainText sep (plainPart f))

theorem plainPart_ok (f : Bytes) : ∀ r ∈ plainPart f, r.Ok := by
  intro r hr
  refine plainRows_ok r ?_
  unfold plainPart at hr
  split at hr
  · exact List.mem_of_mem_take hr
  · exact List.mem_of_mem_drop hr

/-- Without and with separator: `C107_same` applies. -/
example : ∃ s', freshSeg.loadDictStr (plainText [] plainRows) = some s' ∧ freshSeg.loadDictMap (plainRows.map PlainRow.map) = some s' ∧
    freshSeg.loadDict .other sampleJoin (plainFs []) (some (str "u,v")) = some ({ s' with load := true }, false) :=
  C107_same rfl .other sampleJoin (plainFs []) freshSeg rfl rfl rfl ⟨by decide, by decide⟩ (some (str "u,v")) plainPart (fun f _ => ⟨rfl, plainPart_ok f⟩) plainRows
    (by decide +kernel)

example : ∃ s', ({ freshSeg with dictSep := str "," }).loadDictStr (plainText (str ",") plainRows) = some s' ∧
    ({ freshSeg with dictSep := str "," }).loadDictMap (plainRows.map PlainRow.map) = some s' ∧
    ({ freshSeg with dictSep := str "," }).loadDict .other sampleJoin (plainFs (str ",")) (some (str "u,v")) = some ({ s' with load := true }, false) :=
  C107_same rfl .other sampleJoin (plainFs (str ",")) { freshSeg with dictSep := str "," } rfl rfl rfl ⟨by decide, by decide⟩ (some (str "u,v")) plainPart
    (fun f _ => ⟨rfl, plainPart_ok f⟩) plainRows (by decide +kernel)

example : (freshSeg.loadDictStr (plainText [] plainRows)).bind (fun s => s.dict.bind fun d => d.find (encode [20013, 22269])) = some (5, str "ns", true) ∧
    (freshSeg.loadDictStr (plainText [] plainRows)).bind (fun s => s.dict.map fun d => (d.numTokens, d.totalFreq)) = some (3, 10) := by decide +kernel

/-- A segmenter that has a dictionary from files. -/
def usedSeg : Segmenter Int Int := { freshSeg with dict := some Dictionary.new, load := true }

example : usedSeg.loadDictMap (plainRows.map PlainRow.map) = usedSeg.loadDictStr (plainText [] plainRows) ∧
    usedSeg.loadDict .other sampleJoin (plainFs []) (some (str "u,v")) = (usedSeg.loadDictStr (plainText [] plainRows)).map fun s' => (s', false) :=
  C107_again rfl .other sampleJoin (plainFs []) usedSeg Dictionary.new rfl rfl rfl ⟨by decide, by decide⟩
    (some (str "u,v")) plainPart (fun f _ => ⟨rfl, plainPart_ok f⟩) plainRows (by decide +kernel)

/-- Frequencies as one digit. -/
def digit (v : Int) : List Rune := [48 + v.toNat]

example : ∃ s', freshSeg.loadDictStr (plainText [] ([([20013, 22269], (5 : Int), [110, 115]), ([20154], 2, [])].map fun e => ⟨e.1, digit e.2.1, e.2.2⟩)) = some s' ∧
    s'.dict = runOps {} (loadOps ([([20013, 22269], (5 : Int), [110, 115]), ([20154], 2, [])].map fun e => (encode e.1, e.2.1, encode e.2.2))) Dictionary.new :=
  C107_back rfl freshSeg rfl rfl ⟨by decide, by decide⟩ digit _ (by simp [PlainCol]; decide +kernel) (by simp [PlainCol]; decide +kernel)

/-- The order of the lines. -/
example : ∃ s1 s2 d1 d2, freshSeg.loadDictStr (plainText [] plainRows) = some s1 ∧ freshSeg.loadDictStr (plainText [] plainRows.reverse) = some s2 ∧
    s1.dict = some d1 ∧ s2.dict = some d2 ∧ SameSegments {} d1 d2 ∧ SameCuts {} d1 d2 :=
  C107_order (fun a b c : Int => show a + b + c = a + c + b by omega) rfl freshSeg rfl rfl ⟨by decide, by decide⟩ plainRows plainRows.reverse (List.reverse_perm _).symm
    plainRows_ok (by decide +kernel) (by decide +kernel)

/-- A segmenter that lets in words without frequency. -/
def looseSeg : Segmenter Int Int := { freshSeg with loadNoFreq := true, textFreq := str "2" }

/-- One word more from the text than from the maps. -/
example : rowFreq looseSeg.prepare.lcfg [] none = some 2 ∧
    (looseSeg.loadDictStr (plainText [] plainRows)).bind (fun s => s.dict.map fun d => (d.numTokens, d.totalFreq)) = some (4, 12) ∧
    (looseSeg.loadDictMap (plainRows.map PlainRow.map)).bind (fun s => s.dict.map fun d => (d.numTokens, d.totalFreq)) = some (3, 10) := by decide +kernel

end examples
end Gse
