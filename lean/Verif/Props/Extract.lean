import Verif.Proofs.Extract
import Verif.Props.Ledger
import Verif.Props.Idf

/-! # C84: extracters in any program: when `ExtractTags` panics, and what it returns -/

namespace Gse
open Spec Segmenter

set_option linter.unusedSectionVars false

section main
variable {F D : Type} [F64 F] [F32 D] [Narrow F D] [Unicode] {E : CallEnv} {builtin : List Bytes} {ch : Nat → Choice} {ops : List (TagOp F)} {s : Shop F D}

/-- The state a program starts in. -/
abbrev Shop.start (F D : Type) (builtin : List Bytes) : Shop F D := { stops := ⟨builtin, []⟩ }

/-- C84: the segmenters, the stop words, the extracters and the fallback weights after any program are those of its script. -/
theorem C84_state (hr : (Shop.start F D builtin).run E ch 0 ops = some s) :
    ({} : World F D).run E (script E.stop.join ops).segs = some s.world ∧
    idfStopRun E.stop.join (script E.stop.join ops).stops ⟨builtin, []⟩ = some s.stops ∧
    s.exts = (script E.stop.join ops).exts ∧
    List.Forall₂ (fun y x => x.seg = y.seg ∧ Fallback y.added x.median) (script E.stop.join ops).sheets s.idfs := by
  obtain ⟨h, _⟩ := follows_start hr
  exact ⟨h.world, h.stops, h.exts, h.sheets.imp fun _ _ t => ⟨t.seg, t.fall⟩⟩

/-- C84: every extracter that was given a segmenter, a dictionary or stop words has the same stop words, those of the whole program. -/
theorem C84_stop (hr : (Shop.start F D builtin).run E ch 0 ops = some s) {x : TagExt} (hx : x ∈ (script E.stop.join ops).exts) :
    (x.stopWord = none → s.isStop x = none) ∧
    (x.stopWord ≠ none → ∃ f, s.isStop x = some f ∧ ∀ w, f w = true ↔ StopNow E.stop.join builtin (script E.stop.join ops).stops w) := by
  obtain ⟨h, hw⟩ := follows_start hr
  constructor
  · intro e; simp [Shop.isStop, e]
  · intro e
    obtain ⟨n, e⟩ := Option.ne_none_iff_exists'.1 e
    have hn := (hw.exts x hx).2.2 n e
    rw [← h.words] at hn
    refine ⟨_, by simp [Shop.isStop, e]; rfl, fun w => ?_⟩
    have hb : s.stops.isStopWord n w = some (decide (w ∈ s.stops.global)) := by simp [StopHeap.isStopWord, hn]
    rw [hb, Option.getD_some]
    exact C48_shared _ _ _ _ h.stops n w _ hb

theorem dictOf_none (hr : (Shop.start F D builtin).run E ch 0 ops = some s) {i : Nat} (hh : (ledger E (script E.stop.join ops).segs).hist i = none) :
    s.dictOf i = none := by
  obtain ⟨h, _⟩ := follows_start hr
  unfold Shop.dictOf
  cases hv : s.world.vars[i]? with
  | none => rfl
  | some v => exact (C83_dictionary h.world i hv).2.1 hh

theorem dictOf_some (hr : (Shop.start F D builtin).run E ch 0 ops = some s) {i : Nat} {l : List (SplitCfg × DictOp F)}
    (hh : (ledger E (script E.stop.join ops).segs).hist i = some l) :
    ∃ v p d, s.world.vars[i]? = some v ∧ (ledger E (script E.stop.join ops).segs).pages[i]? = some p ∧ (s.world.seg v).dict = some d ∧
      runMixed l Dictionary.new = some d ∧ s.dictOf i = some d ∧ (s.world.seg v).cfg = p.cfg (ledger E (script E.stop.join ops).segs).lower := by
  obtain ⟨h, _⟩ := follows_start hr
  have hi : i < s.world.vars.length := by
    rw [C83_count h.world]
    unfold Ledger.hist at hh
    obtain ⟨p, hp, _⟩ := Option.bind_eq_some_iff.1 hh
    exact (List.getElem?_eq_some_iff.1 hp).1
  have hv := List.getElem?_eq_getElem hi
  generalize s.world.vars[i] = v at hv
  obtain ⟨⟨p, hp, _, _, _, _, _, hc⟩, _, h2⟩ := C83_dictionary h.world i hv
  obtain ⟨d, g1, g2⟩ := h2 l hh
  exact ⟨v, p, d, hv, hp, g2, g1, by simp [Shop.dictOf, hv, g2], hc⟩

theorem idf_of (hr : (Shop.start F D builtin).run E ch 0 ops = some s) {x : TagExt} {j : Nat} {y : Sheet F} (hj : x.idf = some j)
    (hy : (script E.stop.join ops).sheets[j]? = some y) : ∃ i, s.idf x = some i ∧ Fallback y.added i.median ∧ i.dict = s.dictOf y.seg := by
  obtain ⟨h, _⟩ := follows_start hr
  obtain ⟨hlt, rfl⟩ := List.getElem?_eq_some_iff.1 hy
  have hlt' : j < s.idfs.length := by rw [← h.sheets.length_eq]; exact hlt
  have ht : Tally (script E.stop.join ops).sheets[j] s.idfs[j] := List.forall₂_iff_get.1 h.sheets |>.2 j hlt hlt'
  exact ⟨_, by simp [Shop.idf, hj, List.getElem?_eq_getElem hlt']; rfl, ht.fall, by rw [ht.seg]⟩

theorem idf_idx (hr : (Shop.start F D builtin).run E ch 0 ops = some s) {i : Nat} {d : Dictionary F D} (hd : s.dictOf i = some d) : IdxOK d := by
  cases hh : (ledger E (script E.stop.join ops).segs).hist i with
  | none => rw [dictOf_none hr hh] at hd; cases hd
  | some l =>
    obtain ⟨_, _, d', _, _, _, g, e, _⟩ := dictOf_some hr hh
    rw [hd] at e; cases e
    exact Dictionary.idx_of_entry (loose_of_run g).entry

/-- C84: exactly when `ExtractTags` panics: the extracter has no dictionary, or `topK` is negative, or it has no stop words and an item of two characters
or more was cut off, or it has no weights (no `Idf`, or one without dictionary) and an item that may become a tag was cut off. -/
theorem C84_panics [UnicodeOK] (hr : (Shop.start F D builtin).run E ch 0 ops = some s) {e : Nat} {x : TagExt}
    (hx : (script E.stop.join ops).exts[e]? = some x) (ch' : Choice) (c : HmmConst F) (em : EmitModel F) (text : Bytes) (k : Int) :
    ((ledger E (script E.stop.join ops).segs).hist x.seg = none ∧ s.extract ch' c em e text k = none) ∨
    ∃ h p, ∃ d : Dictionary F D, ∃ items, (ledger E (script E.stop.join ops).segs).hist x.seg = some h ∧ (ledger E (script E.stop.join ops).segs).pages[x.seg]? = some p ∧
      runMixed h Dictionary.new = some d ∧ cutDAGHmm (p.cfg (ledger E (script E.stop.join ops).segs).lower) d c em text [] = some items ∧
      items.flatten = encode (dagText (p.cfg (ledger E (script E.stop.join ops).segs).lower) text) ∧
      (s.extract ch' c em e text k = none ↔
        k < 0 ∨ (x.stopWord = none ∧ ∃ it ∈ items, 2 ≤ (runes (trimSpace it)).length) ∨
        (x.stopWord ≠ none ∧ (∃ it ∈ items, 2 ≤ (runes (trimSpace it)).length ∧ ¬ StopNow E.stop.join builtin (script E.stop.join ops).stops (trimSpace it)) ∧
          ∀ j y, x.idf = some j → (script E.stop.join ops).sheets[j]? = some y → (ledger E (script E.stop.join ops).segs).hist y.seg = none)) := by
  obtain ⟨hf, hw⟩ := follows_start hr
  have hxm := List.mem_of_getElem? hx
  have hx' : s.exts[e]? = some x := by rw [hf.exts]; exact hx
  cases hh : (ledger E (script E.stop.join ops).segs).hist x.seg with
  | none =>
    refine .inl ⟨rfl, ?_⟩
    have hd := dictOf_none hr hh
    unfold Shop.dictOf at hd
    unfold Shop.extract
    rw [hx', Option.bind_some]
    cases hv : s.world.vars[x.seg]? with
    | none => rfl
    | some v =>
      rw [hv, Option.bind_some] at hd
      rw [Option.bind_some, hd]; rfl
  | some h =>
    obtain ⟨v, p, d, hv, hp, hd, g, _, hc⟩ := dictOf_some hr hh
    obtain ⟨items, hi, hfl, _⟩ := cut_mixed g (s.world.seg v).cfg c em text
    refine .inr ⟨h, p, d, items, rfl, hp, g, hc ▸ hi, hc ▸ hfl, ?_⟩
    have he : s.extract ch' c em e text k = extractWords ch' (s.isStop x) (s.idf x) items k := by
      unfold Shop.extract
      rw [hx', Option.bind_some, hv, Option.bind_some, hd, Option.bind_some, extractTags, hi, Option.bind_some]
    rw [he, extractWords_none]
    · have hidf : (∀ i, s.idf x = some i → i.dict = none) ↔
          ∀ j y, x.idf = some j → (script E.stop.join ops).sheets[j]? = some y → (ledger E (script E.stop.join ops).segs).hist y.seg = none := by
        constructor
        · intro H j y hj hy
          obtain ⟨i, h1, _, h2⟩ := idf_of hr hj hy
          cases hn : (ledger E (script E.stop.join ops).segs).hist y.seg with
          | none => rfl
          | some l =>
            obtain ⟨_, _, d', _, _, _, _, e', _⟩ := dictOf_some hr hn
            rw [← h2, H i h1] at e'; cases e'
        · intro H i hi'
          unfold Shop.idf at hi'
          obtain ⟨j, hj, h1⟩ := Option.bind_eq_some_iff.1 hi'
          have hlt := (hw.exts x hxm).2.1 j hj
          have hy := List.getElem?_eq_getElem hlt
          obtain ⟨i', h2, _, h3⟩ := idf_of hr hj hy
          have : i = i' := by
            have h4 : s.idf x = some i := hi'
            rw [h4] at h2; exact Option.some.inj h2
          rw [this, h3]
          exact dictOf_none hr (H j _ hj hy)
      obtain ⟨s1, s2⟩ := C84_stop hr hxm
      rw [hidf]
      cases hsw : x.stopWord with
      | none =>
        rw [s1 hsw]
        simp
      | some n =>
        obtain ⟨f, e1, e2⟩ := s2 (by rw [hsw]; simp)
        rw [e1]
        have ht : ∀ w, TagWord f w ↔ 2 ≤ (runes w).length ∧ ¬ StopNow E.stop.join builtin (script E.stop.join ops).stops w := by
          intro w
          rw [TagWord, ← e2 w, Bool.not_eq_true]
        simp only [reduceCtorEq, false_and, false_or, Option.some.injEq, exists_eq_left', ht, ne_eq, not_false_eq_true, true_and]
    · intro i d' hi' hd'
      unfold Shop.idf at hi'
      obtain ⟨j, hj, h1⟩ := Option.bind_eq_some_iff.1 hi'
      obtain ⟨y, _, rfl⟩ := Option.map_eq_some_iff.1 h1
      exact idf_idx hr hd'

/-- C84: with a dictionary, stop words and weights that are numbers, `ExtractTags` returns the tags of the text: the items of `Cut(text, true)` through
the dictionary the ledger has for the extracter, those that are no stop words of the program, weighed by the dictionary the ledger has for its `Idf`,
with the fallback of its script. -/
theorem C84_top [UnicodeOK] [F64Count F] (hr : (Shop.start F D builtin).run E ch 0 ops = some s) {e j : Nat} {x : TagExt} {y : Sheet F}
    (hx : (script E.stop.join ops).exts[e]? = some x) (hs : x.stopWord ≠ none) (hj : x.idf = some j) (hy : (script E.stop.join ops).sheets[j]? = some y)
    {h hi : List (SplitCfg × DictOp F)} (hh : (ledger E (script E.stop.join ops).segs).hist x.seg = some h)
    (hhi : (ledger E (script E.stop.join ops).segs).hist y.seg = some hi)
    (hadd : ∀ f ∈ y.added, F64Count.num f) (hnum : ∀ di : Dictionary F D, runMixed hi Dictionary.new = some di → ∀ w tok, storedTok di w = some tok → F64Count.num tok.freq)
    (ch' : Choice) (c : HmmConst F) (em : EmitModel F) (text : Bytes) (hlen : 4 * text.length ≤ 2 ^ 53) (k : Nat) :
    ∃ p, ∃ d di : Dictionary F D, ∃ items isStop m tags, (ledger E (script E.stop.join ops).segs).pages[x.seg]? = some p ∧ runMixed h Dictionary.new = some d ∧
      runMixed hi Dictionary.new = some di ∧ cutDAGHmm (p.cfg (ledger E (script E.stop.join ops).segs).lower) d c em text [] = some items ∧
      (∀ w, isStop w = true ↔ StopNow E.stop.join builtin (script E.stop.join ops).stops w) ∧ Fallback y.added m ∧
      s.extract ch' c em e text k = some tags ∧ IsTopTags isStop m di items k tags := by
  obtain ⟨hf, hw⟩ := follows_start hr
  have hxm := List.mem_of_getElem? hx
  have hx' : s.exts[e]? = some x := by rw [hf.exts]; exact hx
  obtain ⟨v, p, d, hv, hp, hd, g, _, hc⟩ := dictOf_some hr hh
  obtain ⟨_, _, di, _, _, _, gi, hdi, _⟩ := dictOf_some hr hhi
  obtain ⟨items, hit, hfl, hne⟩ := cut_mixed g (s.world.seg v).cfg c em text
  obtain ⟨f, e1, e2⟩ := (C84_stop hr hxm).2 hs
  obtain ⟨i, i1, i2, i3⟩ := idf_of hr hj hy
  have hl : items.length ≤ 2 ^ 53 := by
    have l1 := items_length_le hne
    rw [hfl] at l1
    have l2 := encode_length_le (dagText (s.world.seg v).cfg text)
    have l3 : (dagText (s.world.seg v).cfg text).length ≤ text.length := by
      unfold dagText
      split
      · rw [List.length_map]; exact runes_length_le text
      · exact runes_length_le text
    omega
  have hm : F64Count.num i.median := by
    by_cases ha : y.added = []
    · rw [i2.1 ha]; exact F64Count.num_zero
    · exact hadd _ (i2.2.1 ha)
  obtain ⟨T, h4, h5, h6, h7, h8⟩ := extract_top ch' (isStop := f) hl (i3.trans hdi) (idf_idx hr hdi) ⟨hm, hnum di gi⟩ k
  refine ⟨p, d, di, items, f, i.median, T.take k, hp, g, gi, hc ▸ hit, e2, i2, ?_, isTopTags_take h4 h6 h7 k⟩
  unfold Shop.extract
  rw [hx', Option.bind_some, hv, Option.bind_some, hd, Option.bind_some, extractTags, hit, Option.bind_some, e1, i1]
  exact h8

/-- The ledger after a copy and a `LoadDict` through the copy. -/
theorem ledger_copy_load {wops : List (WorldOp F)} {a i : Nat} (hai : a ≠ i) (ha : a < (ledger E wops).pages.length) {p : Page F}
    (hp : (ledger E wops).pages[i]? = some p) (hb : ∀ k, p.dict = some k → k < (ledger E wops).hists.length) (fs : Bytes → Option Bytes) (files : Option Bytes) :
    let calls := (p.call E (.loadDict fs files)).2.2.map fun op => (p.cfg (ledger E wops).lower, op)
    let L' := ledger E (wops ++ [.assign a i, .call a (.loadDict fs files)])
    (p.load = true → L'.hist i = ((ledger E wops).hist i).map (· ++ calls) ∧ L'.hist a = ((ledger E wops).hist i).map (· ++ calls)) ∧
    (p.load = false → L'.hist i = (ledger E wops).hist i ∧ L'.hist a = some calls) := by
  intro calls L'
  have e1 : L' = ((ledger E wops).step E (.assign a i)).step E (.call a (.loadDict fs files)) := by simp [L', ledger]
  have e2 : (ledger E wops).step E (.assign a i) = { ledger E wops with pages := (ledger E wops).pages.set a p } := by simp [Ledger.step, hp]
  rw [e1, e2]
  have hpi : (ledger E wops).pages[i]? = some p := hp
  have hil := (List.getElem?_eq_some_iff.1 hp).1
  have hc : calls = (p.call E (.loadDict fs files)).2.2.map fun op => (p.cfg (ledger E wops).lower, op) := rfl
  generalize ledger E wops = L at *
  have g : (L.pages.set a p)[a]? = some p := by simp [ha]
  simp only [Ledger.step, g, ← hc]
  constructor
  · intro hl
    have q1 : (p.call E (.loadDict fs files)).2.1 = false := by simp [Page.call, hl]
    have q2 : (p.call E (.loadDict fs files)).1 = p := by simp [Page.call, hl]
    rw [q1, q2]
    simp only [Ledger.enter, Bool.false_eq_true, if_false, Ledger.hist, List.set_set]
    have ga : (L.pages.set a p)[i]? = some p := by rw [List.getElem?_set_ne hai]; exact hp
    rw [g, ga, hp]
    cases hd : p.dict with
    | none => simp [hd]
    | some k => simp [hd, List.getElem?_eq_getElem (hb k hd)]
  · intro hl
    have q1 : (p.call E (.loadDict fs files)).2.1 = true := by simp [Page.call, hl]
    rw [q1]
    simp only [Ledger.enter, if_true, Ledger.hist, List.set_set]
    rw [List.getElem?_set_ne hai, hp]
    refine ⟨?_, by simp [ha]⟩
    cases hd : p.dict with
    | none => simp [hd]
    | some k => simp [hd, List.getElem?_append_left (hb k hd)]

/-- C84: `WithGse(seg)` and then `LoadDict` of the extracter. If `LoadDict` was ever called on `seg`, the words go into the one dictionary of both; otherwise
the extracter gets a dictionary of its own that has the words of the files and none of `seg`, and `seg` keeps its dictionary. -/
theorem C84_loadDict {e i : Nat} {fs : Bytes → Option Bytes} {files : Option Bytes} {s0 : Shop F D}
    (h0 : (Shop.start F D builtin).run E ch 0 ops = some s0)
    (hr : (Shop.start F D builtin).run E ch 0 (ops ++ [.withGse e i, .loadDict e fs files]) = some s)
    {x : TagExt} (hx : (script E.stop.join ops).exts[e]? = some x) (hi : i ≠ x.seg) {p : Page F}
    (hp : (ledger E (script E.stop.join ops).segs).pages[i]? = some p) :
    let calls := (p.call E (.loadDict fs files)).2.2.map fun op => (p.cfg (ledger E (script E.stop.join ops).segs).lower, op)
    (p.load = true → ∀ h, (ledger E (script E.stop.join ops).segs).hist i = some h →
      ∃ d, runMixed (h ++ calls) Dictionary.new = some d ∧ s.dictOf i = some d ∧ s.dictOf x.seg = some d) ∧
    (p.load = false → s.dictOf i = s0.dictOf i ∧ ∃ d, runMixed calls Dictionary.new = some d ∧ s.dictOf x.seg = some d) := by
  intro calls
  obtain ⟨hf, hw⟩ := follows_start h0
  have hseg : (script E.stop.join (ops ++ [.withGse e i, .loadDict e fs files])).segs =
      (script E.stop.join ops).segs ++ [.assign x.seg i, .call x.seg (.loadDict fs files)] := by
    obtain ⟨hlt, hxe⟩ := List.getElem?_eq_some_iff.1 hx
    have : script E.stop.join (ops ++ [.withGse e i, .loadDict e fs files]) =
      ((script E.stop.join ops).step E.stop.join (.withGse e i)).step E.stop.join (.loadDict e fs files) := by simp [script]
    rw [this]
    simp [Script.step, hlt, hxe]
  have ha : x.seg < (ledger E (script E.stop.join ops).segs).pages.length := by
    rw [← C83_count hf.world, hf.vars]
    exact (hw.exts x (List.mem_of_getElem? hx)).1
  have hk := kept_start hf.world
  have hb : ∀ k, p.dict = some k → k < (ledger E (script E.stop.join ops).segs).hists.length := by
    intro k hd
    rw [hk.hists.length_eq]
    rw [hk.pages, List.getElem?_map, Option.map_eq_some_iff] at hp
    obtain ⟨v, hv, rfl⟩ := hp
    exact hk.below v (List.mem_of_getElem? hv) k hd
  obtain ⟨k1, k2⟩ := ledger_copy_load (Ne.symm hi) ha hp hb fs files
  rw [← hseg] at k1 k2
  constructor
  · intro hl h hh
    obtain ⟨j1, j2⟩ := k1 hl
    rw [hh] at j1 j2
    obtain ⟨_, _, d, _, _, _, g1, g2, _⟩ := dictOf_some hr j1
    obtain ⟨_, _, d', _, _, _, g3, g4, _⟩ := dictOf_some hr j2
    rw [g1] at g3; cases g3
    exact ⟨d, g1, g2, g4⟩
  · intro hl
    obtain ⟨j1, j2⟩ := k2 hl
    refine ⟨?_, ?_⟩
    · cases hh : (ledger E (script E.stop.join ops).segs).hist i with
      | none => rw [dictOf_none h0 hh, dictOf_none hr (j1.trans hh)]
      | some h =>
        obtain ⟨_, _, d, _, _, _, g1, g2, _⟩ := dictOf_some hr (j1.trans hh)
        obtain ⟨_, _, d', _, _, _, g3, g4, _⟩ := dictOf_some h0 hh
        rw [g1] at g3; cases g3
        rw [g2, g4]
    · obtain ⟨_, _, d, _, _, _, g1, g2, _⟩ := dictOf_some hr j2
      exact ⟨d, g1, g2⟩

end main

section examples
attribute [local instance] sampleUnicode sampleUnicodeOK sampleF64 sampleF32 sampleNarrow

/-- A segmenter, an extracter that gets it, weights with a fallback. -/
def extOps : List (TagOp Int) :=
  [.seg .new, .seg (.call 0 (.loadStr (str "ab 5 n\ncd 6 n\nthe 9 x"))), .newExt, .withGse 0 0, .loadIdfStr 0 (str "ab 3 n"),
   .idfAdd 0 (str "zz") 4 [], .idfAdd 0 (str "yy") 8 []]

/-- The tags of some texts after a program. -/
def extShow (ops : List (TagOp Int)) (k : Int) (texts : List Bytes) : Option (List (Option (List (WordWeight Int)))) :=
  ((Shop.start Int Int [str "the"]).run copyEnv (fun _ => choiceA) 0 ops).map fun s => texts.map fun t => s.extract choiceA hmmConst hmmEmit 0 t k

/-- A stored weight, the fallback, a stop word. -/
example : extShow extOps 5 [str "abthe", str "cd", str "the", str "x"] =
    some [some [⟨str "ab", 3⟩], some [⟨str "cd", 8⟩], some [], some []] := by decide +kernel

/-- Its script, and the calls behind its two dictionaries. -/
example : ((script copyEnv.stop.join extOps).exts, (script copyEnv.stop.join extOps).sheets.map fun y => (y.seg, y.added)) =
      ([⟨1, some 0, some 0⟩], [(2, [4, 8])]) ∧
    ((ledger copyEnv (script copyEnv.stop.join extOps).segs).hist 1).map List.length = some 4 ∧
    ((ledger copyEnv (script copyEnv.stop.join extOps).segs).hist 2).map List.length = some 4 := by decide +kernel

/-- Negative `topK`; no weights: a text without tags returns, another panics; `LoadIdfStr` again: the fallback is 0; no segmenter: every text panics. -/
example : extShow extOps (-1) [str "the"] = some [none] ∧
    extShow (extOps.take 4) 5 [str "the", str "ab"] = some [some [], none] ∧
    extShow (extOps ++ [.loadIdfStr 0 (str "q 3 n")]) 5 [str "cd"] = some [some [⟨str "cd", 0⟩]] ∧
    extShow [.newExt, .loadIdfStr 0 (str "ab 3 n")] 5 [[]] = some [none] := by
  refine ⟨?_, ?_, ?_, ?_⟩ <;> decide +kernel

/-- The two cases of `C84_loadDict`: what the segmenter and the extracter find after the extracter's `LoadDict`. -/
def extFind (first : SegOp Int) : Option (List (List (Option Bool))) :=
  ((Shop.start Int Int []).run copyEnv (fun _ => choiceA) 0
    [.seg .new, .seg (.call 0 first), .newExt, .withGse 0 0, .loadDict 0 copyFiles (some (str "f"))]).map fun s =>
      [0, 1].map fun i => [str "ab", str "cat"].map fun w => (s.dictOf i).bind fun d => (d.find w).map (·.2.2)

example : extFind (.loadDict (fun _ => some (str "ab 5 n\n")) (some (str "f"))) = some [[some true, some true], [some true, some true]] ∧
    extFind (.loadStr (str "ab 5 n")) = some [[some true, some false], [some false, some true]] := by decide +kernel

end examples

section numbers
attribute [local instance] sampleUnicode sampleUnicodeOK sampleF32 ratF64 ratCount ratNarrow

/-- A program that meets the hypotheses of `C84_top`; with rationals all weights are numbers. -/
def extRat : List (TagOp Rat) :=
  [.seg .new, .seg (.call 0 (.loadStr [])), .seg (.call 0 (.dict (.add (str "ab") 5 []))), .newExt, .withGse 0 0, .loadIdfStr 0 [], .idfAdd 0 (str "cd") 3 []]

example : ((Shop.start Rat Int []).run copyEnv (fun _ => choiceA) 0 extRat).isSome = true ∧
    (script copyEnv.stop.join extRat).exts[0]? = some ⟨1, some 0, some 0⟩ ∧
    ((script copyEnv.stop.join extRat).sheets[0]?).map (fun y => (y.seg, y.added)) = some (2, [3]) ∧
    ((ledger copyEnv (script copyEnv.stop.join extRat).segs).hist 1).isSome = true ∧
    ((ledger copyEnv (script copyEnv.stop.join extRat).segs).hist 2).isSome = true := by decide +kernel

example (x : Rat) : F64Count.num x := trivial

end numbers
end Gse
