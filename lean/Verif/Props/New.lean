import Verif.Model.New
import Verif.Spec.New
import Verif.Spec.Idf
import Verif.Props.Ledger

/-!
# C85: what New and NewEmbed return
-/

namespace Gse
open Spec Segmenter

set_option linter.unusedSectionVars false

section main
variable {F D : Type} [F64 F] [F64Count F] [F32 D] [Narrow F D] [Unicode]

theorem zero_eq_zero : F64.eq (F64.ofNat 0 : F) (F64.ofNat 0) = true := by
  have h : F64.lt (F64.ofNat 0 : F) (F64.ofNat 0) = false := by
    cases h : F64.lt (F64.ofNat 0 : F) (F64.ofNat 0) with
    | false => rfl
    | true => rw [F64Count.lt_asymm F64Count.num_zero F64Count.num_zero h] at h; exact absurd h (by simp)
  exact (F64Count.eq_iff F64Count.num_zero F64Count.num_zero).2 ⟨h, h⟩

/-- The zero segmenter with the flag. -/
def blank (alphaNum toLower : Bool) : Segmenter F D := { minTokenFreq := F64.ofNat 0, cfg := ⟨alphaNum, false, false, toLower⟩ }

theorem startLoad_blank (a l : Bool) : startLoad (blank a l : Segmenter F D) = made true a l Dictionary.new := by
  simp [startLoad, blank, made, Segmenter.init, zero_eq_zero]

theorem new_blank (mid : ScanErr) (join : Bytes → Bytes) (fs : Bytes → Option Bytes) (l : Bool) (args : List Bytes) :
    (Segmenter.new mid join fs l args : Option (Segmenter F D × Bool)) =
      (blank (decide (args[1]? = some (str "alpha"))) l : Segmenter F D).loadDict mid join fs args[0]? := by
  unfold Segmenter.new
  rcases args with _ | ⟨a, _ | ⟨b, args⟩⟩
  · rfl
  · rfl
  · by_cases h : b = str "alpha" <;> simp [h, blank]

theorem made_withDict (load a l : Bool) (d d' : Dictionary F D) : (made load a l d).withDict d' = made load a l d' := rfl

/-- Reading files with the settings of the factory. -/
theorem readFiles_made (mid : ScanErr) (fs : Bytes → Option Bytes) (a l : Bool) (paths : List Bytes) (d : Dictionary F D) :
    readFiles mid fs paths (made true a l d) =
      some (made true a l (addAll ⟨a, false, false, l⟩ d (filesWords mid fs paths)), paths.any fun f => (fs f).isNone) := by
  have h := readFiles_eq mid fs (made true a l d) paths d
  rw [made_withDict, made_withDict] at h
  have e : ((paths.takeWhile fun f => (fs f).isSome).flatMap fun f => fileEntries mid (made true a l d) ((fs f).getD [])) = filesWords mid fs paths := by
    unfold filesWords
    congr 1
  rw [e] at h
  exact h

/-- What `LoadDict` does, in the calls on the dictionary. -/
theorem loadFiles_made [UnicodeOK] (mid : ScanErr) (fs : Bytes → Option Bytes) (a l : Bool) (paths : List Bytes) {d : Dictionary F D}
    (hd : d.WF ⟨a, false, false, l⟩) :
    ∃ d', ((readFiles mid fs paths (made true a l d)).bind fun r => if r.2 then some r else r.1.recalc.map fun s => (s, false)) =
        some (made true a l d', paths.any fun f => (fs f).isNone) ∧
      runOps ⟨a, false, false, l⟩ (storeOps (filesWords mid fs paths) ++ if (paths.any fun f => (fs f).isNone) then [] else [.recalc]) d = some d' := by
  rw [readFiles_made, Option.bind_some]
  cases he : paths.any fun f => (fs f).isNone with
  | true => exact ⟨_, rfl, by simp [storeOps, runOps_adds]⟩
  | false =>
    obtain ⟨d', h⟩ := calcToken_total (wf_addAll hd (filesWords mid fs paths))
    refine ⟨d', by simp [Segmenter.recalc, made, h], ?_⟩
    have := runOps_load (F := F) (D := D) ⟨a, false, false, l⟩ (filesWords mid fs paths) d
    simpa [loadOps, storeOps, h] using this

/-- C85: `New` never panics. The segmenter has the default settings, words of letters and digits are kept whole exactly if the second argument is
"alpha", and the dictionary holds the entries of the files that the first argument asks for, in order, up to the first one that cannot be opened; this is
the error, and only without it the distances are computed. -/
theorem C85_new [UnicodeOK] (mid : ScanErr) (join : Bytes → Bytes) (fs : Bytes → Option Bytes) (l : Bool) (args : List Bytes) (paths : List Bytes)
    (hp : paths = filesAsked join args[0]?) (a : Bool) (ha : a = decide (args[1]? = some (str "alpha"))) :
    ∃ d : Dictionary F D, Segmenter.new mid join fs l args = some (made true a l d, paths.any fun f => (fs f).isNone) ∧
      runOps ⟨a, false, false, l⟩ (storeOps (filesWords mid fs paths) ++ if (paths.any fun f => (fs f).isNone) then [] else [.recalc]) Dictionary.new = some d := by
  rw [new_blank, loadDict_eq, startLoad_blank, ← ha]
  have : askedPaths join args[0]? = paths := by rw [hp]; cases args[0]? <;> rfl
  rw [this]
  exact loadFiles_made mid fs a l paths (Dictionary.wf_new _)

/-- C85: all the rest of the arguments is ignored: a second dictionary, or "alpha" in another place. -/
theorem C85_ignored (mid : ScanErr) (join : Bytes → Bytes) (fs : Bytes → Option Bytes) (l : Bool) (args args' : List Bytes) (h0 : args[0]? = args'[0]?)
    (h1 : args[1]? = some (str "alpha") ↔ args'[1]? = some (str "alpha")) :
    (Segmenter.new mid join fs l args : Option (Segmenter F D × Bool)) = Segmenter.new mid join fs l args' := by
  rw [new_blank, new_blank, h0, decide_eq_decide.2 h1]

/-- C85: what was returned, with an error or without, can be used: `Segment` never panics and its segments tile the text, `Cut` without HMM never
panics. -/
theorem C85_usable [UnicodeOK] (mid : ScanErr) (join : Bytes → Bytes) (fs : Bytes → Option Bytes) (l : Bool) (args : List Bytes) (text : Bytes) :
    ∃ (s : Segmenter F D) (d : Dictionary F D) (err : Bool), Segmenter.new mid join fs l args = some (s, err) ∧ s.dict = some d ∧
      (∃ segs, internalSegment s.cfg s.dict text false = some segs ∧ Tiles 0 text.length segs) ∧ (∃ segs, internalSegment s.cfg s.dict text true = some segs) ∧
      ∃ ws, cutDAGNoHMM s.cfg d text = some ws := by
  obtain ⟨d, h1, h2⟩ := C85_new (F := F) (D := D) mid join fs l args _ rfl _ rfl
  refine ⟨_, d, _, h1, rfl, C08_tiling _ _ d h2 text, C12_segment_total _ _ d h2 text true, ?_⟩
  have hr : runMixed ((storeOps (filesWords mid fs (filesAsked join args[0]?)) ++
      if ((filesAsked join args[0]?).any fun f => (fs f).isNone) then [] else [DictOp.recalc]).map fun op =>
        ((⟨decide (args[1]? = some (str "alpha")), false, false, l⟩ : SplitCfg), op)) Dictionary.new = some d := by
    rw [steady_run (cfg := ⟨decide (args[1]? = some (str "alpha")), false, false, l⟩)]
    · rw [List.map_map]; simpa [Function.comp_def] using h2
    · intro x hx; simp only [List.mem_map] at hx; obtain ⟨_, _, rfl⟩ := hx; rfl
  obtain ⟨_, gs, _, _, h3⟩ := C82_cut _ d hr ⟨decide (args[1]? = some (str "alpha")), false, false, l⟩ text
  exact ⟨_, h3⟩

/-- C85: the words found after `New`: the first entry of the files read says it, also when a file is missing. -/
theorem C85_find [UnicodeOK] (mid : ScanErr) (join : Bytes → Bytes) (fs : Bytes → Option Bytes) (l : Bool) (args : List Bytes) (es : List (Entry F))
    (he : es = filesWords mid fs (filesAsked join args[0]?)) (hl : es.length < Trie.valueLimit) :
    ∃ (s : Segmenter F D) (d : Dictionary F D) (err : Bool), Segmenter.new mid join fs l args = some (s, err) ∧ s.dict = some d ∧
      (err = true ↔ ∃ f ∈ filesAsked join args[0]?, fs f = none) ∧
      ∀ w, match firstEntry s.cfg es w with
        | some (f, p) => d.find w = some (f, p, true)
        | none => ∃ b, d.find w = some (F64.ofNat 0, [], b) := by
  obtain ⟨d, h1, h2⟩ := C85_new (F := F) (D := D) mid join fs l args _ rfl _ rfl
  refine ⟨_, d, _, h1, rfl, by simp, fun w => ?_⟩
  rw [← he] at h2
  generalize ((filesAsked join args[0]?).any fun f => (fs f).isNone) = e at h2
  have h := C04_find_history _ _ (by cases e <;> simp [storeOps] <;> omega) d h2 w
  have hc : (absRun ⟨decide (args[1]? = some (str "alpha")), false, false, l⟩ (storeOps es ++ if e then [] else [.recalc])).content w =
      firstEntry ⟨decide (args[1]? = some (str "alpha")), false, false, l⟩ es w := by
    cases e with
    | false => exact absRun_loadOps _ es w
    | true => have := content_adds ⟨decide (args[1]? = some (str "alpha")), false, false, l⟩ es {} w; simpa [absRun, storeOps] using this
  rw [hc] at h
  simp only [made]
  cases hf : firstEntry ⟨decide (args[1]? = some (str "alpha")), false, false, l⟩ es w with
  | none => exact h.2 hf
  | some x => exact h.1 x.1 x.2 hf

/-- C85: `LoadDict` on what `New` returned adds the entries of the further files, and repairs what a missing file has left without distances. -/
theorem C85_load_again [UnicodeOK] (mid : ScanErr) (join : Bytes → Bytes) (fs fs' : Bytes → Option Bytes) (l : Bool) (args : List Bytes) (files : Option Bytes)
    (hall : ∀ f ∈ filesAsked join files, (fs' f).isSome) (a : Bool) (ha : a = decide (args[1]? = some (str "alpha"))) :
    ∃ d : Dictionary F D, ((Segmenter.new mid join fs l args : Option (Segmenter F D × Bool)).bind fun r => r.1.loadDict mid join fs' files) =
        some (made true a l d, false) ∧
      runOps ⟨a, false, false, l⟩ (loadOps (filesWords mid fs (filesAsked join args[0]?) ++ filesWords mid fs' (filesAsked join files))) Dictionary.new = some d := by
  obtain ⟨d, h1, h2⟩ := C85_new (F := F) (D := D) mid join fs l args _ rfl a ha
  have hd : d.WF ⟨a, false, false, l⟩ := Reachable.wf ⟨_, h2⟩
  rw [h1, Option.bind_some, loadDict_eq]
  have hs : startLoad (made true a l d) = made true a l d := rfl
  have hq : askedPaths join files = filesAsked join files := by cases files <;> rfl
  have hn : ((filesAsked join files).any fun f => (fs' f).isNone) = false := by
    rw [List.any_eq_false]; intro f hf; have := hall f hf; cases h : fs' f <;> simp_all
  obtain ⟨d', h3, h4⟩ := loadFiles_made mid fs' a l (filesAsked join files) hd
  rw [hn] at h3 h4
  rw [hs, hq, h3]
  refine ⟨d', rfl, ?_⟩
  have hcore : SameCore (addAll ⟨a, false, false, l⟩ Dictionary.new (filesWords mid fs (filesAsked join args[0]?))) d := by
    generalize ((filesAsked join args[0]?).any fun f => (fs f).isNone) = e at h2
    rw [storeOps, runOps_append, runOps_adds, Option.bind_some] at h2
    cases e with
    | true => simp only [if_true, runOps, Option.some.injEq] at h2; rw [h2]; exact ⟨rfl, rfl, rfl, rfl⟩
    | false => exact calcToken_same (by simpa [runOps, DictOp.step] using h2)
  rw [runOps_load, addAll_append, ← calcToken_congr (addAll_same ⟨a, false, false, l⟩ hcore (filesWords mid fs' (filesAsked join files))), ← runOps_load]
  exact h4

theorem newEmbed_blank (E : Embedded) (l : Bool) (args : List Bytes) :
    (Segmenter.newEmbed E l args : Option (Segmenter F D)) =
      (blank (decide (args[1]? = some (str "alpha") ∨ args[1]? = some (str "en"))) l : Segmenter F D).loadDictEmbed E args[0]? := by
  unfold Segmenter.newEmbed
  rcases args with _ | ⟨a, _ | ⟨b, args⟩⟩
  · rfl
  · rfl
  · by_cases h : b = str "alpha" <;> by_cases h' : b = str "en" <;> simp [h, h', blank]

theorem loadStr_made [UnicodeOK] (a l : Bool) (t : Bytes) {d : Dictionary F D} (hd : d.WF ⟨a, false, false, l⟩) :
    ∃ d', (made false a l d).loadDictStr t = some (made false a l d') ∧ runOps ⟨a, false, false, l⟩ (loadOps (textWords t)) d = some d' := by
  obtain ⟨d', h⟩ := calcToken_total (wf_addAll hd (textWords t))
  refine ⟨d', ?_, by rw [runOps_load, h]⟩
  have hr : runOps ⟨a, false, false, l⟩ (loadOps (textWords t)) d = some d' := by rw [runOps_load, h]
  rw [C20_load_str]
  have : (runOps (made false a l d).cfg (loadOps (((splitStr t (str "\n")).filterMap fun line =>
      lineEntry (made false a l d).prepare.lcfg (splitStr line ((made false a l d).dictSep ++ str " ")))))
      ((made false a l d).dict.getD Dictionary.new)) = some d' := hr
  rw [this]
  rfl

theorem loadStr_blank [UnicodeOK] (a l : Bool) (t : Bytes) :
    (blank a l : Segmenter F D).loadDictStr t = (made false a l (Dictionary.new : Dictionary F D)).loadDictStr t := by
  have h : (blank a l : Segmenter F D).prepare = made false a l Dictionary.new := by
    simp [Segmenter.prepare, blank, made, Segmenter.init, zero_eq_zero]
  have h' : (made false a l Dictionary.new : Segmenter F D).prepare = made false a l Dictionary.new := rfl
  simp only [Segmenter.loadDictStr, h, h']

theorem loop_made [UnicodeOK] (a l : Bool) : ∀ (ts : List Bytes) (t : Bytes) {d0 d : Dictionary F D} {es : List (Entry F)}, d0.WF ⟨a, false, false, l⟩ →
    SameCore (addAll ⟨a, false, false, l⟩ d0 es) d → d.WF ⟨a, false, false, l⟩ →
    ∃ d', loop loadDictStr (t :: ts) (made false a l d) = some (made false a l d') ∧
      runOps ⟨a, false, false, l⟩ (loadOps (es ++ (t :: ts).flatMap textWords)) d0 = some d' := by
  intro ts
  induction ts with
  | nil =>
    intro t d0 d es h0 hc hd
    obtain ⟨d', h1, h2⟩ := loadStr_made a l t hd
    refine ⟨d', by simp [loop, h1], ?_⟩
    rw [runOps_load, addAll_append, ← calcToken_congr (addAll_same _ hc _), ← runOps_load]
    simpa using h2
  | cons u ts ih =>
    intro t d0 d es h0 hc hd
    obtain ⟨d1, h1, h2⟩ := loadStr_made a l t hd
    have hw1 : d1.WF ⟨a, false, false, l⟩ := by
      rw [runOps_load] at h2
      exact (calcToken_same h2).wf (wf_addAll hd _)
    have hc1 : SameCore (addAll ⟨a, false, false, l⟩ d0 (es ++ textWords t)) d1 := by
      rw [addAll_append]
      rw [runOps_load] at h2
      have e1 := addAll_same ⟨a, false, false, l⟩ hc (textWords t)
      have e2 := calcToken_same h2
      exact ⟨e2.trie.trans e1.trie, e2.maxLen.trans e1.maxLen, e2.total.trans e1.total, e2.tokens.trans e1.tokens⟩
    obtain ⟨d', h3, h4⟩ := ih u h0 hc1 hw1
    refine ⟨d', by rw [loop, h1, Option.bind_some, h3], ?_⟩
    simpa [List.append_assoc] using h4

/-- C85: `NewEmbed` never panics; its dictionary holds the entries of the texts asked for, in order, with their distances. -/
theorem C85_embed [UnicodeOK] (E : Embedded) (l : Bool) (args : List Bytes) (a : Bool)
    (ha : a = decide (args[1]? = some (str "alpha") ∨ args[1]? = some (str "en"))) :
    ∃ d : Dictionary F D, Segmenter.newEmbed E l args = some (made false a l d) ∧
      runOps ⟨a, false, false, l⟩ (loadOps ((embedTexts E [] args[0]?).flatMap textWords)) Dictionary.new = some d := by
  rw [newEmbed_blank, ← ha, loadEmbed_loop]
  have hsep : (blank a l : Segmenter F D).dictSep = [] := rfl
  rw [hsep]
  have hne := embedTexts_ne E [] args[0]?
  obtain ⟨t, ts, hts⟩ := List.exists_cons_of_ne_nil hne
  rw [hts]
  have : loop loadDictStr (t :: ts) (blank a l : Segmenter F D) = loop loadDictStr (t :: ts) (made false a l Dictionary.new) := by
    simp only [loop, loadStr_blank]
  rw [this]
  obtain ⟨d', h1, h2⟩ := loop_made (F := F) (D := D) a l ts t (d0 := Dictionary.new) (d := Dictionary.new) (es := []) (Dictionary.wf_new _) ⟨rfl, rfl, rfl, rfl⟩ (Dictionary.wf_new _)
  exact ⟨d', h1, by simpa using h2⟩

/-- C85: `LoadDict` on what `NewEmbed` returned throws the embedded dictionary away: the result is that of `LoadDict` alone. -/
theorem C85_embed_lost [UnicodeOK] (E : Embedded) (mid : ScanErr) (join : Bytes → Bytes) (fs : Bytes → Option Bytes) (l : Bool) (args : List Bytes)
    (files : Option Bytes) (paths : List Bytes) (hp : paths = filesAsked join files) (a : Bool)
    (ha : a = decide (args[1]? = some (str "alpha") ∨ args[1]? = some (str "en"))) :
    ∃ d : Dictionary F D, ((Segmenter.newEmbed E l args : Option (Segmenter F D)).bind fun s => s.loadDict mid join fs files) =
        some (made true a l d, paths.any fun f => (fs f).isNone) ∧
      runOps ⟨a, false, false, l⟩ (storeOps (filesWords mid fs paths) ++ if (paths.any fun f => (fs f).isNone) then [] else [.recalc]) Dictionary.new = some d := by
  obtain ⟨d, h1, _⟩ := C85_embed (F := F) (D := D) E l args a ha
  have hs : startLoad (made false a l d) = made true a l (Dictionary.new : Dictionary F D) := by
    have h2 : F64.eq (F64.ofNat 2 : F) (F64.ofNat 0) = true ∨ F64.eq (F64.ofNat 2 : F) (F64.ofNat 0) = false := by cases F64.eq (F64.ofNat 2 : F) (F64.ofNat 0) <;> simp
    have h3 : ¬ str "2.0" = [] := by decide
    rcases h2 with h2 | h2 <;> simp [startLoad, made, Segmenter.init, h2, h3]
  have hq : askedPaths join files = paths := by rw [hp]; cases files <;> rfl
  rw [h1, Option.bind_some, loadDict_eq, hs, hq]
  exact loadFiles_made mid fs a l paths (Dictionary.wf_new _)

/-- C85: a word that is not in the files is gone after that, whatever the embedded dictionary says. -/
theorem C85_embed_gone [UnicodeOK] (E : Embedded) (mid : ScanErr) (join : Bytes → Bytes) (fs : Bytes → Option Bytes) (l : Bool) (args : List Bytes)
    (files : Option Bytes) (es : List (Entry F)) (he : es = filesWords mid fs (filesAsked join files)) (hl : es.length < Trie.valueLimit) (w : Bytes)
    (hw : ∀ a, firstEntry ⟨a, false, false, l⟩ es w = none) :
    ∃ (s : Segmenter F D) (d : Dictionary F D) (err b : Bool), ((Segmenter.newEmbed E l args : Option (Segmenter F D)).bind fun s => s.loadDict mid join fs files) =
      some (s, err) ∧ s.dict = some d ∧ d.find w = some (F64.ofNat 0, [], b) := by
  obtain ⟨d, h1, h2⟩ := C85_embed_lost (F := F) (D := D) E mid join fs l args files _ rfl _ rfl
  rw [← he] at h2
  generalize ((filesAsked join files).any fun f => (fs f).isNone) = e at h1 h2
  generalize decide (args[1]? = some (str "alpha") ∨ args[1]? = some (str "en")) = a at h1 h2
  have h := C04_find_history _ _ (by cases e <;> simp [storeOps] <;> omega) d h2 w
  have hc : (absRun ⟨a, false, false, l⟩ (storeOps es ++ if e then [] else [.recalc])).content w = firstEntry ⟨a, false, false, l⟩ es w := by
    cases e with
    | false => exact absRun_loadOps _ es w
    | true => have := content_adds ⟨a, false, false, l⟩ es {} w; simpa [absRun, storeOps] using this
  obtain ⟨b, hb⟩ := h.2 (hc.trans (hw a))
  exact ⟨_, d, e, b, h1, rfl, hb⟩

/-- C85: what `NewEmbed` returned can be used at once, and gives every word its first entry. -/
theorem C85_embed_usable [UnicodeOK] (E : Embedded) (l : Bool) (args : List Bytes) (es : List (Entry F)) (he : es = (embedTexts E [] args[0]?).flatMap textWords) :
    ∃ (s : Segmenter F D) (d : Dictionary F D), Segmenter.newEmbed E l args = some s ∧ s.dict = some d ∧
      (∀ text, ∃ segs, internalSegment s.cfg s.dict text false = some segs ∧ Tiles 0 text.length segs) ∧
      (es.length < Trie.valueLimit → ∀ w, match firstEntry s.cfg es w with
        | some (f, p) => d.find w = some (f, p, true)
        | none => ∃ b, d.find w = some (F64.ofNat 0, [], b)) := by
  obtain ⟨d, h1, h2⟩ := C85_embed (F := F) (D := D) E l args _ rfl
  rw [← he] at h2
  generalize decide (args[1]? = some (str "alpha") ∨ args[1]? = some (str "en")) = a at h1 h2
  refine ⟨_, d, h1, rfl, C08_tiling _ _ d h2, fun hl w => ?_⟩
  have h := C04_find_history _ _ (by simp [loadOps]; omega) d h2 w
  rw [absRun_loadOps] at h
  simp only [made]
  cases hf : firstEntry ⟨a, false, false, l⟩ es w with
  | none => exact h.2 hf
  | some x => exact h.1 x.1 x.2 hf

end main

section examples
attribute [local instance] sampleUnicode sampleUnicodeOK sampleF64 sampleF32 sampleNarrow

/-- `New("u,v")`, `New("u", "v")`, `New("u", "alpha")`, `New("u,x,v")` with `x` missing: the frequencies of "ab" and "cd", the error, the flag. -/
def newShow (args : List String) : Option (Option Int × Option Int × Bool × Bool) :=
  (Segmenter.new (F := Int) (D := Int) .other sampleJoin sampleFs true (args.map str)).map fun r =>
    ((findIn (some r.1) "ab").map (·.1), (findIn (some r.1) "cd").map (·.1), r.2, r.1.cfg.alphaNum)

example : newShow ["u,v"] = some (some 5, some 3, false, false) ∧ newShow ["u", "v"] = some (some 5, some 0, false, false) ∧
    newShow ["u", "alpha"] = some (some 5, some 0, false, true) ∧ newShow ["u", "v", "alpha"] = some (some 5, some 0, false, false) ∧
    newShow ["u,x,v"] = some (some 5, some 0, true, false) ∧ newShow ["x,u"] = some (some 0, some 0, true, false) := by
  refine ⟨?_, ?_, ?_, ?_, ?_, ?_⟩ <;> decide +kernel

/-- The entries of the files asked for. -/
example : filesWords (F := Int) .other sampleFs (filesAsked sampleJoin (some (str "u,x,v"))) = [(str "ab", 5, str "n")] ∧
    filesAsked sampleJoin (some (str "u,x,v")) = [str "u", str "x", str "v"] := by decide +kernel

def newEmbedded : Embedded := ⟨str "ja 9 n", str "zs 4 n\n", str "zt 6 n"⟩

/-- `NewEmbed("zh, cd 8 v", "en")`, then `LoadDict("u")`: the embedded words are lost; `LoadDict("u")` twice is not. -/
def embedShow (files : Option String) : Option (List (Option Int)) :=
  ((Segmenter.newEmbed (F := Int) (D := Int) newEmbedded true [str "zh, cd 8 v", str "en"]).bind fun s =>
    match files with
    | none => some s
    | some f => (s.loadDict .other sampleJoin sampleFs (some (str f))).map (·.1)).map fun s =>
      [(findIn (some s) "zs").map (·.1), (findIn (some s) "zt").map (·.1), (findIn (some s) "cd").map (·.1), (findIn (some s) "ab").map (·.1)]

example : embedShow none = some [some 4, some 6, some 8, some 0] ∧ embedShow (some "u") = some [some 0, some 0, some 0, some 5] := by
  refine ⟨?_, ?_⟩ <;> decide +kernel

/-- `New("u,x")` failed; `LoadDict("v")` adds to what was read and computes all distances. -/
example : ((Segmenter.new (F := Int) (D := Int) .other sampleJoin sampleFs true [str "u,x"]).bind fun r =>
      r.1.loadDict .other sampleJoin sampleFs (some (str "v"))).bind (fun r => r.1.dict.map fun d => (r.2, d.tokens.map fun t => (t.text.flatten, t.distance))) =
    (Segmenter.new (F := Int) (D := Int) .other sampleJoin sampleFs true [str "u,v"]).bind (fun r => r.1.dict.map fun d => (r.2, d.tokens.map fun t => (t.text.flatten, t.distance))) ∧
    (∀ f ∈ filesAsked sampleJoin (some (str "v")), (sampleFs f).isSome) := by
  refine ⟨?_, ?_⟩ <;> decide +kernel

example : ∀ a, firstEntry ⟨a, false, false, true⟩ (filesWords (F := Int) .other sampleFs (filesAsked sampleJoin (some (str "u")))) (str "zs") = none := by
  intro a; cases a <;> decide +kernel

end examples
end Gse
