import Verif.Proofs.Stop
import Verif.Proofs.Trim
import Verif.Props.Output

/-! # C35, C36, C37, C39, C40, C41, C59, C60, C61: stop words, trims and filters -/

namespace Gse
open Spec

set_option linter.unusedSectionVars false

section
variable [U : Unicode]

/-! ### Stop words -/

/-- C35: a word is a stop word exactly when a call added it and no later call removed it or emptied the list. -/
theorem C35_isStop (E : StopEnv) (ops : List StopOp) (m : StopMap) (h : stopRun E ops none = some m) (w : Bytes) :
    m.isStop w = true ↔ ∃ a op b, ops = a ++ op :: b ∧ StopAdds E op w ∧ ∀ o ∈ b, ¬ StopRemoves o w := isStop_run h

/-- C35: a sequence of calls panics exactly when it has an `AddStop` before which no list was created since the start or the
last `EmptyStop`. -/
theorem C35_panic (E : StopEnv) (ops : List StopOp) :
    stopRun E ops none = none ↔ ∃ a w b, ops = a ++ .add w :: b ∧ ¬ HasStopList a := stopRun_none

/-- C60: `LoadStop` reports an error exactly when a named file cannot be opened; the words of the files before it are kept
(they are counted by `StopFiles`, so by `C35_isStop`). -/
theorem C60_error (join : Bytes → Bytes) (fs : Bytes → Option Bytes) (m : StopMap) (arg : Option Bytes) (names : List Bytes)
    (hn : StopNames join arg names) : (m.loadStop join fs arg).2 = true ↔ ∃ f ∈ names, fs f = none := by
  obtain ⟨n, ns, h1, h2⟩ := hn
  have gen : ∀ (l : List Bytes) (k : List Bytes), (StopMap.loadFiles fs l k).2 = true ↔ ∃ f ∈ l, fs f = none := by
    intro l
    induction l with
    | nil => intro k; simp [StopMap.loadFiles]
    | cons f l ih =>
      intro k
      simp only [StopMap.loadFiles]
      cases hf : fs f with
      | none => simp [hf]
      | some c => simp [ih, hf]
  simp only [StopMap.loadStop, gen]
  rw [show str ", " = [44, 32] from by decide, splitStr_eq (by decide) h1]
  rcases h2 with ⟨hn, rfl⟩ | ⟨hn, rfl⟩
  · simp [hn]
  · simp [hn]

/-- C60: a line of 65536 bytes or more ends the reading of a file silently: neither it nor any later line is added. -/
theorem C60_long_line (l : List Bytes) (a b x : Bytes) (hx : 65536 ≤ x.length) (hn : (10 : UInt8) ∉ x) (w : Bytes) :
    w ∈ StopMap.loadFile l (a ++ [10] ++ x ++ [10] ++ b) ↔ w ∈ StopMap.loadFile l (a ++ [10]) := by
  have e1 : splitStr (a ++ [10] ++ x ++ [10] ++ b) [10] = splitStr a [10] ++ [x] ++ splitStr b [10] := by
    rw [splitStr_byte, splitStr_byte, splitStr_single (s := x) (by decide)]
    intro i h
    obtain ⟨r, hr⟩ := h
    apply hn
    have : (10 : UInt8) ∈ x.drop i := by rw [← hr]; simp
    exact List.mem_of_mem_drop this
  have e2 : splitStr (a ++ [10]) [10] = splitStr a [10] ++ [[]] := by
    rw [← List.append_nil (a ++ [10]), splitStr_byte]
    rfl
  have s1 : ∀ r, SplitAt [10] (a ++ [10] ++ x ++ [10] ++ b) r ↔ r = splitStr a [10] ++ [x] ++ splitStr b [10] := by
    intro r; constructor
    · intro h; rw [← e1, splitStr_eq (by decide) h]
    · rintro rfl; rw [← e1]; exact splitStr_spec _ _ (by decide)
  have s2 : ∀ r, SplitAt [10] (a ++ [10]) r ↔ r = splitStr a [10] ++ [[]] := by
    intro r; constructor
    · intro h; rw [← e2, splitStr_eq (by decide) h]
    · rintro rfl; rw [← e2]; exact splitStr_spec _ _ (by decide)
  rw [StopMap.mem_loadFile, StopMap.mem_loadFile]
  apply or_congr_left
  unfold StopFile
  apply and_congr_right
  intro hw
  constructor
  · rintro ⟨ls, h1, p, q, r, h2, h3, h4⟩
    rw [s1] at h1
    rw [h1] at h2
    refine ⟨_, (s2 _).2 rfl, ?_⟩
    -- the line lies before the long one
    have hlen : p.length < (splitStr a [10]).length := by
      by_contra hc
      rw [Nat.not_lt] at hc
      have hmem : x ∈ p ++ [q] := by
        have h5 : (p ++ [q])[(splitStr a [10]).length]? = some x := by
          have : (splitStr a [10] ++ [x] ++ splitStr b [10])[(splitStr a [10]).length]? = some x := by simp
          rw [h2, show p ++ q :: r = (p ++ [q]) ++ r by simp] at this
          rwa [List.getElem?_append_left (by simp; omega)] at this
        exact List.mem_of_getElem? h5
      have := h3 x hmem
      omega
    have e3 : p ++ [q] <+: splitStr a [10] := by
      have h5 : p ++ [q] <+: splitStr a [10] ++ ([x] ++ splitStr b [10]) := by
        rw [← List.append_assoc, h2]; exact ⟨r, by simp⟩
      exact List.prefix_of_prefix_length_le h5 (List.prefix_append _ _) (by simp; omega)
    obtain ⟨t, ht⟩ := e3
    exact ⟨p, q, t ++ [[]], by rw [← ht]; simp, h3, h4⟩
  · rintro ⟨ls, h1, p, q, r, h2, h3, h4⟩
    rw [s2] at h1
    rw [h1] at h2
    refine ⟨_, (s1 _).2 rfl, ?_⟩
    rcases r.eq_nil_or_concat with rfl | ⟨r', z, rfl⟩
    · obtain ⟨_, e⟩ := List.append_inj' h2 rfl
      obtain rfl : [] = q := by simpa using e
      rcases h4 with h4 | ⟨h4, _⟩
      · simp at h4
      · exact absurd h4.symm hw
    · rw [List.concat_eq_append] at h2
      have h2' : splitStr a [10] ++ [[]] = (p ++ q :: r') ++ [z] := by simpa using h2
      obtain ⟨e, _⟩ := List.append_inj' h2' rfl
      exact ⟨p, q, r' ++ [x] ++ splitStr b [10], by rw [e]; simp, h3, h4⟩

/-- C61: `LoadStopEmbed` of a list with "zh," in it but another name in front: that name is dropped and "zh" itself becomes a
stop word. -/
theorem C61_zh_not_first (E : StopEnv) (m : StopMap) (d x : Bytes) (ys : List Bytes) (hs : SplitAt [44, 32] d (x :: ys))
    (hz : str "zh," <:+: d) (hy : str "zh" ∈ ys) (htrim : trimSpace (str "zh") = str "zh") :
    (m.loadStopEmbed E.stopDict (some d)).isStop (str "zh") = true ∧
    ∀ w, (m.loadStopEmbed E.stopDict (some d)).isStop w = true →
      m.isStop w = true ∨ StopText E.stopDict w ∨ ∃ y ∈ ys, StopText y w := by
  have hc : [44, 32] <:+: d := by
    cases hs with
    | last => simp at hy
    | cut a t l h r => exact ⟨x, t, rfl⟩
  have hzh : StopText (str "zh") (str "zh") := by
    refine ⟨by decide, [str "zh"], ?_, str "zh", by simp, htrim.symm⟩
    apply SplitAt.last
    intro i h
    have := h.subset (show (10 : UInt8) ∈ [10] by simp)
    have := List.mem_of_mem_drop this
    revert this; decide
  constructor
  · rw [isStop_loadStopEmbed]
    exact Or.inl (Or.inr (Or.inr ⟨hc, hz, Or.inr ⟨x, ys, hs, _, hy, hzh⟩⟩))
  · intro w hw
    rw [isStop_loadStopEmbed] at hw
    rcases hw with (⟨h, _⟩ | ⟨_, h, _⟩ | ⟨_, _, h | ⟨p0, ps, h1, h2⟩⟩) | h
    · exact absurd hc h
    · exact absurd hz h
    · exact Or.inr (Or.inl h)
    · obtain ⟨rfl, rfl⟩ := List.cons.inj (hs.unique h1)
      exact Or.inr (Or.inr h2)
    · exact Or.inl h

/-! ### Trims -/

/-- C36: `Stop` keeps the items that are neither empty nor stop words. -/
theorem C36_stop (m : StopMap) (l : List Bytes) : stop m l = l.filter fun v => !m.isStop v && v ≠ [] := stop_eq m l

/-- C36: `TrimPunct` keeps the items with at least one character that is neither space nor punctuation. -/
theorem C36_trimPunct (l : List Bytes) : trimPunct l = l.filter fun s => (runes s).any wordRune := trimPunct_eq l

/-- C36: `TrimSymbol` deletes the symbols, spaces and punctuation of every item and keeps what is not empty. -/
theorem C36_trimSymbol (l : List Bytes) :
    trimSymbol l = (l.map fun s => encode ((runes s).filter plainRune)).filter fun v => v ≠ [] := by
  rw [trimSymbol_eq, show filterSymbol = fun s => encode ((runes s).filter plainRune) from funext filterSymbol_eq]

/-- C36: `Trim` does the same and drops the stop words, unless `NotStop` is set. -/
theorem C36_trim (notStop : Bool) (m : StopMap) (l : List Bytes) :
    trim notStop m l = (l.map fun s => encode ((runes s).filter plainRune)).filter fun v =>
      decide (v ≠ []) && (notStop || !m.isStop v) := by
  rw [trim_eq, show filterSymbol = fun s => encode ((runes s).filter plainRune) from funext filterSymbol_eq]

/-- C36: `TrimPos` keeps unchanged the items that `Trim` would not drop. -/
theorem C36_trimPos (notStop : Bool) (m : StopMap) (l : List SegPos) :
    trimPos notStop m l = l.filter fun p => (trim notStop m [p.text]).length = 1 := by
  rw [trimPos_eq]
  apply List.filter_congr
  intro p _
  rw [trim_eq, List.map_singleton, List.filter_singleton]
  cases (decide (filterSymbol p.text ≠ []) && (notStop || !m.isStop (filterSymbol p.text))) <;> simp

/-- C36: `TrimPosPunct` keeps the items that are no stop words (unless `NotStop`) and whose first character is neither space
nor punctuation. -/
theorem C36_trimPosPunct (notStop : Bool) (m : StopMap) (l : List SegPos) :
    (trimPosPunct notStop m l).1 =
      l.filter fun p => (notStop || !m.isStop p.text) && ((runes p.text).head?.map wordRune).getD false := by
  rw [trimPosPunct_eq]

/-- C59: `TrimPosPunct` also overwrites the text of the stop words in the slice it was given. -/
theorem C59_argument (notStop : Bool) (m : StopMap) (l : List SegPos) :
    (trimPosPunct notStop m l).2 = l.map fun p => if !notStop && m.isStop p.text then { p with text := [] } else p := by
  rw [trimPosPunct_eq]

/-- C59: so the slice given is left alone exactly when stop words are off or it has no stop word other than "". -/
theorem C59_unchanged (notStop : Bool) (m : StopMap) (l : List SegPos) :
    (trimPosPunct notStop m l).2 = l ↔ notStop = true ∨ ∀ p ∈ l, p.text ≠ [] → m.isStop p.text = false := by
  rw [C59_argument]
  cases notStop with
  | true => simp
  | false =>
    simp only [Bool.not_false, Bool.true_and, Bool.false_eq_true, false_or]
    induction l with
    | nil => simp
    | cons p l ih =>
      rw [List.map_cons, List.cons.injEq, ih]
      simp only [List.forall_mem_cons]
      apply and_congr_left
      intro _
      rcases p with ⟨t, q⟩
      cases hs : m.isStop t with
      | false => simp
      | true => simp [eq_comm]

/-- C36: applying `Stop`, `Trim`, `TrimSymbol`, `TrimPunct` or `TrimPos` twice is applying it once. -/
theorem C36_idempotent (notStop : Bool) (m : StopMap) (l : List Bytes) (ps : List SegPos) :
    stop m (stop m l) = stop m l ∧ trim notStop m (trim notStop m l) = trim notStop m l ∧
    trimSymbol (trimSymbol l) = trimSymbol l ∧ trimPunct (trimPunct l) = trimPunct l ∧
    trimPos notStop m (trimPos notStop m ps) = trimPos notStop m ps := by
  have key : ∀ (p : Bytes → Bool), (((l.map filterSymbol).filter p).map filterSymbol).filter p = (l.map filterSymbol).filter p := by
    intro p
    have : ((l.map filterSymbol).filter p).map filterSymbol = (l.map filterSymbol).filter p := by
      conv => rhs; rw [← List.map_id ((l.map filterSymbol).filter p)]
      apply List.map_congr_left
      intro v hv
      obtain ⟨s, _, rfl⟩ := List.mem_map.1 (List.mem_filter.1 hv).1
      exact filterSymbol_idem s
    rw [this, List.filter_filter]
    simp
  refine ⟨?_, ?_, ?_, ?_, ?_⟩
  · simp [stop_eq, List.filter_filter]
  · simp only [trim_eq, key]
  · simp only [trimSymbol_eq, key]
  · simp [trimPunct_eq, List.filter_filter]
  · simp [trimPos_eq, List.filter_filter]

/-- C36: `CutStop` and `CutTrim` return exactly what `Cut` returns, trimmed. -/
theorem C36_cut (notStop : Bool) (m : StopMap) (cut : Bytes → Option (List Bytes)) (s : Bytes) (ws : List Bytes) (h : cut s = some ws) :
    cutStop m cut s = some (ws.filter fun v => !m.isStop v && v ≠ []) ∧
    cutTrim notStop m cut s = some ((ws.map fun s => encode ((runes s).filter plainRune)).filter fun v =>
      decide (v ≠ []) && (notStop || !m.isStop v)) := by
  simp only [cutStop, cutTrim, h, Option.map_some, C36_stop, C36_trim, and_self]

/-- C37: with at least one tag `TrimWithPos` keeps exactly the items whose tag is not listed. -/
theorem C37_trimWithPos (se : List SegPos) (ps : List Bytes) (h : ps ≠ []) :
    trimWithPos se ps = se.filter fun p => p.pos ∉ ps := trimWithPos_eq se ps h

/-- C37: without a tag nothing is returned, and so `PosTrim`, `PosTrimArr` and `PosTrimStr` return nothing. -/
theorem C37_no_tags (se : List SegPos) (notStop : Bool) (m : StopMap) (pos : Bytes → Bool → Option (List SegPos)) (s : Bytes)
    (search : Bool) (o : List SegPos) (h : pos s search = some o) :
    trimWithPos se [] = [] ∧ posTrim notStop m pos s search [] = some [] ∧ posTrimArr notStop m pos s search [] = some [] ∧
    posTrimStr notStop m pos s search [] = some [] := by
  refine ⟨rfl, ?_, ?_, ?_⟩ <;> simp only [posTrimStr, posTrimArr, posTrim, h] <;> rfl

/-- C37: with tags, `PosTrim` keeps of `Pos` the items with other tags that `TrimPos` keeps. -/
theorem C37_posTrim (notStop : Bool) (m : StopMap) (pos : Bytes → Bool → Option (List SegPos)) (s : Bytes) (search : Bool)
    (ps : List Bytes) (hp : ps ≠ []) (o : List SegPos) (h : pos s search = some o) :
    posTrim notStop m pos s search ps =
      some (o.filter fun p => decide (p.pos ∉ ps) && decide ((trim notStop m [p.text]).length = 1)) := by
  simp only [posTrim, h, Option.map_some, C37_trimWithPos _ _ hp, C36_trimPos, List.filter_filter]
  congr 2
  funext p
  rw [Bool.and_comm]

/-- C37: `PosTrimArr` lists the texts of the items of `PosTrim`, `PosTrimStr` joins them by blanks. -/
theorem C37_texts (notStop : Bool) (m : StopMap) (pos : Bytes → Bool → Option (List SegPos)) (s : Bytes) (search : Bool)
    (ps : List Bytes) (o : List SegPos) (h : posTrim notStop m pos s search ps = some o) :
    posTrimArr notStop m pos s search ps = some (o.map SegPos.text) ∧
    posTrimStr notStop m pos s search ps = some ((str " ").intercalate (o.map SegPos.text)) := by
  have h1 : posTrimArr notStop m pos s search ps = some (o.map SegPos.text) := by rw [posTrimArr, h]; rfl
  exact ⟨h1, by rw [posTrimStr, h1, Option.map_some, C38_cutStr]⟩

/-! ### Filters -/

/-- C39: `FilterSymbol` keeps exactly the characters that are neither symbols, spaces nor punctuation. -/
theorem C39_symbol (s : Bytes) : filterSymbol s = encode ((runes s).filter plainRune) ∧
    runes (filterSymbol s) = (runes s).filter plainRune ∧ filterSymbol (filterSymbol s) = filterSymbol s := by
  refine ⟨filterSymbol_eq s, ?_, filterSymbol_idem s⟩
  rw [filterSymbol_eq, runes_encode_filter]

/-- C39: `FilterEmoji` keeps exactly the characters of the basic multilingual plane (malformed bytes become U+FFFD). -/
theorem C39_emoji (s : Bytes) : filterEmoji s = encode ((runes s).filter fun r => decide (r < 0x10000)) ∧
    filterEmoji (filterEmoji s) = filterEmoji s := by
  refine ⟨filterEmoji_eq s, ?_⟩
  simp only [filterEmoji_eq, encode_filter_idem]

/-- C39: `FilterLang` with a known script keeps exactly the letters (of every script) and the characters of the script. -/
theorem C39_lang (s lang : Bytes) (table : Rune → Bool) (h : U.script lang = some table) :
    filterLang s lang = some (encode ((runes s).filter fun r => U.isLetter r || table r)) ∧
    (filterLang s lang).bind (filterLang · lang) = filterLang s lang := by
  refine ⟨filterLang_some s lang table h, ?_⟩
  rw [filterLang_some s lang table h, Option.bind_some, filterLang_some _ lang table h, encode_filter_idem]

/-- C39: `FilterLang` with an unknown script panics exactly when the text has a character that is no letter; otherwise it
returns all letters. -/
theorem C39_lang_unknown (s lang : Bytes) (h : U.script lang = none) :
    (filterLang s lang = none ↔ ∃ r ∈ runes s, U.isLetter r = false) ∧
    ∀ o, filterLang s lang = some o → o = encode (runes s) := by
  rw [filterLang_none s lang h]
  by_cases hl : (runes s).all U.isLetter = true
  · rw [if_pos hl]
    rw [List.all_eq_true] at hl
    refine ⟨⟨by simp, ?_⟩, ?_⟩
    · rintro ⟨r, hr, h2⟩
      rw [hl r hr] at h2; cases h2
    · intro o ho; exact (Option.some.inj ho).symm
  · rw [if_neg hl]
    refine ⟨⟨fun _ => ?_, fun _ => rfl⟩, fun o ho => by cases ho⟩
    simpa using hl

/-- C39: `Range` lists the characters; for well-formed text they join to the text. -/
theorem C39_range (s : Bytes) : range s = (runes s).map encodeRune ∧ (range s).flatten = encode (runes s) ∧
    (ValidText s → (range s).flatten = s) := by
  have h : (range s).flatten = encode (runes s) := by rw [range_eq]; exact (List.flatMap_def ..).symm
  exact ⟨range_eq s, h, fun hv => by rw [h]; exact hv⟩

/-- C39: `RangeText` writes a space after every character. -/
theorem C39_rangeText (s : Bytes) : rangeText s = (range s).flatMap fun c => c ++ [32] := by
  rw [rangeText_eq, range_eq, List.flatMap_map]

/-! ### HTML -/

/-- C40: `FilterHtml` removes the tags, read from the left, and nothing else; the result is determined by this. -/
theorem C40_exact (s o : Bytes) : WithoutTags s o ↔ o = filterHtml s := by
  constructor
  · intro h; exact h.unique (filterHtml_spec s)
  · rintro rfl; exact filterHtml_spec s

/-- C40: `FilterHtml` only deletes. -/
theorem C40_deletes (s : Bytes) : (filterHtml s).Sublist s := (filterHtml_spec s).sublist

/-- C40: the result contains no tag, in particular none made by a removal. -/
theorem C40_no_tag (s : Bytes) : NoTag (filterHtml s) := (filterHtml_spec s).noTag

/-- C40: a text is left alone exactly when it contains no tag. -/
theorem C40_unchanged (s : Bytes) : filterHtml s = s ↔ NoTag s := by
  constructor
  · intro h; rw [← h]; exact C40_no_tag s
  · intro h; exact ((C40_exact s s).1 (.of_noTag h)).symm

/-- C40: `FilterHtml` is idempotent. -/
theorem C40_idempotent (s : Bytes) : filterHtml (filterHtml s) = filterHtml s := (C40_unchanged _).2 (C40_no_tag s)

/-! ### Digit runs -/

/-- C41: `SplitNum` returns the runs of digits and of other bytes, and nothing else is such a list. -/
theorem C41_runs (s : Bytes) (o : List Bytes) : NumRuns s o ↔ o = splitNum s := by
  constructor
  · intro h; exact h.unique (splitNum_spec s)
  · rintro rfl; exact splitNum_spec s

/-- C41: the parts join to the text, none is empty, and they are alternately all digits and free of digits. -/
theorem C41_partition (s : Bytes) : (splitNum s).flatten = s ∧ (∀ w ∈ splitNum s, w ≠ []) ∧
    (∀ w ∈ splitNum s, (∀ b ∈ w, IsDigit b) ∨ (∀ b ∈ w, ¬ IsDigit b)) ∧
    ∀ a x y b, splitNum s = a ++ x :: y :: b → ((∀ c ∈ x, IsDigit c) ↔ ¬ ∀ c ∈ y, IsDigit c) :=
  ⟨(splitNum_spec s).flat, (splitNum_spec s).ne, (splitNum_spec s).uniform, (splitNum_spec s).alternate⟩

/-- C41: the parts are at character boundaries: the characters of the text are those of the parts in order. -/
theorem C41_characters (s : Bytes) : runes s = (splitNum s).flatMap runes := by
  have key : ∀ (o : List Bytes) (s : Bytes), NumRuns s o → runes s = o.flatMap runes := by
    intro o
    induction o with
    | nil => intro s h; rw [← h.flat]; rfl
    | cons x o ih =>
      intro s h
      have hs : s = x ++ o.flatten := by rw [← h.flat]; simp
      have hn : NumRuns o.flatten o :=
        ⟨rfl, fun w hw => h.ne w (by simp [hw]), fun w hw => h.uniform w (by simp [hw]),
          fun a u v b e => h.alternate (x :: a) u v b (by rw [e]; rfl)⟩
      rw [List.flatMap_cons, ← ih _ hn, hs]
      rcases o with _ | ⟨y, o⟩
      · simp [runes_nil]
      have hd : ∀ c, IsDigit c → isCont c.toNat = false := by
        intro c hc
        rw [← numByte_iff] at hc
        simp only [numByte, Bool.and_eq_true, decide_eq_true_eq] at hc
        simp only [isCont, Bool.and_eq_false_iff, decide_eq_false_iff_not]
        left; omega
      have hy := h.ne y (by simp)
      obtain ⟨c, y', rfl⟩ := List.exists_cons_of_ne_nil hy
      rcases h.uniform (c :: y') (by simp) with hu | hu
      · apply runes_append_start
        intro e he
        obtain rfl : c = e := by simpa using he
        exact hd c (hu c (by simp))
      · have hxd : ∀ e ∈ x, IsDigit e :=
          (h.alternate [] x (c :: y') o rfl).2 fun h' => hu c (by simp) (h' c (by simp))
        rcases x.eq_nil_or_concat with rfl | ⟨x', e, rfl⟩
        · exact absurd rfl (h.ne _ List.mem_cons_self)
        rw [List.concat_eq_append] at hxd ⊢
        have he := hxd e (by simp)
        have hc : ∀ z : Bytes, ∀ f, (e :: z).head? = some f → isCont f.toNat = false := by
          intro z f hf
          obtain rfl : e = f := by simpa using hf
          exact hd e he
        have hone : ∀ z : Bytes, runes (e :: z) = e.toNat :: runes z := by
          intro z
          rw [← numByte_iff] at he
          simp only [numByte, Bool.and_eq_true, decide_eq_true_eq] at he
          rw [runes_cons _ (by simp)]
          simp [decodeRune, show e.toNat < 128 by omega]
        rw [List.append_assoc, List.singleton_append, runes_append_start _ _ (hc _), hone,
          runes_append_start x' [e] (hc []), hone, runes_nil]
        simp
  exact key _ s (splitNum_spec s)

end

section examples
attribute [local instance] sampleUnicode sampleUnicodeOK

def stopEnv : StopEnv := { stopDict := str "the\n of \n\n", join := fun p => str "/d/" ++ p }

def stopFs : Bytes → Option Bytes := fun f => if f = str "a" then some (str "x\r\n y\n\nz") else none

def stopHistory : List StopOp :=
  [.loadArr [str "a", str "b"], .remove (str "a"), .add (str "c"), .loadEmbed none, .load stopFs (some (str "a, missing, a")), .remove (str "of")]

def stopAfter (w : String) : Option Bool := (stopRun stopEnv stopHistory none).map fun m => m.isStop (str w)

/-- A history meeting the hypothesis of `C35_isStop`, with words added, removed and read from files. -/
example : (stopRun stopEnv stopHistory none).isSome = true ∧ stopAfter "a" = some false ∧ stopAfter "b" = some true ∧
    stopAfter "c" = some true ∧ stopAfter "the" = some true ∧ stopAfter "of" = some false ∧ stopAfter "x" = some true ∧
    stopAfter " y" = some true ∧ stopAfter "y" = some false ∧ stopAfter "z" = some true := by
  refine ⟨?_, ?_, ?_, ?_, ?_, ?_, ?_, ?_, ?_, ?_⟩ <;> decide +kernel

/-- `AddStop` on a new segmenter and after `EmptyStop` panics; after any load it does not. -/
example : stopRun stopEnv [.add (str "a")] none = none ∧ stopRun stopEnv [.loadArr [], .empty, .add (str "a")] none = none ∧
    (stopRun stopEnv [.loadArr [], .add (str "a")] none).isSome = true := by
  refine ⟨?_, ?_, ?_⟩ <;> decide +kernel

example : (StopMap.loadStop stopEnv.join stopFs none (some (str "a, missing"))).2 = true ∧
    (StopMap.loadStop stopEnv.join stopFs none (some (str "a"))).2 = false := by
  refine ⟨?_, ?_⟩ <;> decide +kernel

/-- "u, zh, v": u is dropped, "zh" becomes a stop word. -/
example : (StopMap.loadStopEmbed stopEnv.stopDict none (some (str "u, zh, v"))).isStop (str "u") = false ∧
    (StopMap.loadStopEmbed stopEnv.stopDict none (some (str "u, zh, v"))).isStop (str "zh") = true ∧
    (StopMap.loadStopEmbed stopEnv.stopDict none (some (str "u, zh, v"))).isStop (str "the") = true := by
  refine ⟨?_, ?_, ?_⟩ <;> decide +kernel

example : stop (some [str "the"]) [str "the", [], str "cat"] = [str "cat"] ∧
    trimPunct [str ".", str ".a", str " ", str "b", []] = [str ".a", str "b"] ∧
    trimSymbol [str "a b", str ".", str "c"] = [str "ab", str "c"] ∧
    trim false (some [str "ab"]) [str "a b", str ".", str "c"] = [str "c"] ∧
    trim true (some [str "ab"]) [str "a b", str ".", str "c"] = [str "ab", str "c"] ∧
    trimPos false (some [str "ab"]) [⟨str "a b", str "n"⟩, ⟨str "c.", str "v"⟩] = [⟨str "c.", str "v"⟩] ∧
    trimPosPunct false (some [str "ab"]) [⟨str "ab", str "n"⟩, ⟨str "c.", str "v"⟩, ⟨str ".", str "w"⟩] =
      ([⟨str "c.", str "v"⟩], [⟨[], str "n"⟩, ⟨str "c.", str "v"⟩, ⟨str ".", str "w"⟩]) := by
  refine ⟨?_, ?_, ?_, ?_, ?_, ?_, ?_⟩ <;> decide +kernel

example : trimWithPos [⟨str "a", str "n"⟩, ⟨str "b", str "v"⟩, ⟨str "c", str "x"⟩] [str "v", str "n"] = [⟨str "c", str "x"⟩] ∧
    trimWithPos [⟨str "a", str "n"⟩] [] = [] := by refine ⟨?_, ?_⟩ <;> decide +kernel

example : filterSymbol (str "a, b.") = str "ab" ∧ filterEmoji (encode [97, 0x1F600, 0x4E2D]) = encode [97, 0x4E2D] ∧
    filterLang (encode [97, 46, 0x4E2D]) (str "Han") = some (encode [97, 0x4E2D]) ∧ filterLang (str "a.") (str "Xx") = none ∧
    filterLang (str "ab") (str "Xx") = some (str "ab") ∧ range (encode [97, 0x4E2D]) = [str "a", encode [0x4E2D]] ∧
    rangeText (str "ab") = str "a b " := by
  refine ⟨?_, ?_, ?_, ?_, ?_, ?_, ?_⟩ <;> decide +kernel

/-- A removal that would make a tag: `<a <b="c"> d">` is one tag up to the first `>`; what is left is no tag. -/
example : filterHtml (str "x<a <b=\"c\"> d\">y") = str "x d\">y" ∧ filterHtml (str "<p>hi</p><br/>") = str "hi<br/>" ∧
    filterHtml (str "a < b") = str "a < b" := by refine ⟨?_, ?_, ?_⟩ <;> decide +kernel

example : splitNum (str "ab12c3") = [str "ab", str "12", str "c", str "3"] ∧ splitNum [] = [] ∧
    splitNums (str "ab12") = str "ab 12" := by refine ⟨?_, ?_, ?_⟩ <;> decide +kernel

end examples
end Gse
