import Verif.Spec.Dump
import Verif.Props.Content
import Verif.Props.Plain

/-!
# C112: a dictionary written out by going through its tokens and loaded again
-/

set_option linter.unusedSectionVars false

namespace Gse
open Spec

section
variable {F D : Type} [F64 F] [F32 D] [Narrow F D] [U : Unicode]

theorem norm_idem [UnicodeOK] (cfg : SplitCfg) (t : Bytes) : normText cfg (normText cfg t) = normText cfg t := by
  have := C03_resplit cfg t [] (splitTextToWords cfg t) [] (by simp)
  rw [← flatten_split, ← flatten_split, this]

theorem written_norm [UnicodeOK] {cfg : SplitCfg} {d : Dictionary F D} (h : d.WF cfg) : ∀ e ∈ written d, normText cfg e.1 = e.1 := by
  intro e he
  obtain ⟨t, ht, rfl⟩ := List.mem_map.1 he
  obtain ⟨s, hs⟩ := h.split t ht
  simp only [hs, flatten_split, norm_idem]

/-- Adding entries: the first one of a word counts. -/
theorem adds_first (cfg : SplitCfg) (es : List (Bytes × F × Bytes)) (k : Bytes) :
    (absRun cfg (readBack es)).content k = (es.find? fun e => normText cfg e.1 == k).map (·.2) := by
  induction es using List.reverseRecOn generalizing k with
  | nil => rfl
  | append_singleton es e ih =>
    have e1 : absRun cfg (readBack (es ++ [e])) = (absRun cfg (readBack es)).add cfg e.1 e.2.1 e.2.2 := by
      rw [readBack, List.map_append]
      exact absRun_snoc cfg _ _
    rw [e1, content_add, List.find?_append, ih]
    by_cases hk : k = normText cfg e.1
    · subst hk
      cases es.find? fun x => normText cfg x.1 == normText cfg e.1 <;> simp
    · have : (normText cfg e.1 == k) = false := by simpa using fun h => hk h.symm
      simp [hk, this]

/-- The first listed entry of a word. -/
def firstOf (es : List (Bytes × F × Bytes)) (k : Bytes) : Option (F × Bytes) := (es.find? fun e => e.1 == k).map (·.2)

theorem firstOf_snoc (es : List (Bytes × F × Bytes)) (e : Bytes × F × Bytes) (k : Bytes) :
    firstOf (es ++ [e]) k = (firstOf es k).or (if e.1 = k then some e.2 else none) := by
  unfold firstOf
  rw [List.find?_append]
  by_cases h : e.1 = k
  · cases es.find? fun e => e.1 == k <;> simp [h]
  · have : (e.1 == k) = false := by simpa using h
    cases es.find? fun e => e.1 == k <;> simp [h, this]

theorem firstOf_some {es : List (Bytes × F × Bytes)} {k : Bytes} (h : ∃ e ∈ es, e.1 = k) : (firstOf es k).isSome = true := by
  obtain ⟨e, he, rfl⟩ := h
  simp only [firstOf, Option.isSome_map, List.find?_isSome]
  exact ⟨e, he, by simp⟩

theorem written_same {d d' : Dictionary F D} (h : SameCore d d') : written d' = written d := by
  have := congrArg (List.map fun c : List Bytes × F × Bytes => (c.1.flatten, c.2)) h.tokens
  simpa [written, Function.comp_def, Token.core] using this

theorem written_add {cfg : SplitCfg} {d : Dictionary F D} (t : Bytes) (f : F) (p : Bytes) (hl : d.numTokens < Trie.valueLimit) :
    written (segAddToken cfg d t f p).1 = written d ++ (if d.trie.value (normText cfg t) = none then [(normText cfg t, f, p)] else []) := by
  unfold segAddToken Dictionary.addToken
  dsimp only
  rw [textSliceToBytes_eq, Trie.get_eq]
  have hk : (toToken (D := D) cfg t f p).text.flatten = normText cfg t := flatten_split cfg t
  rw [hk]
  cases hv : d.trie.value (normText cfg t) with
  | some v => simp
  | none =>
    dsimp only
    cases hi : d.trie.insert (normText cfg t) d.numTokens with
    | none => simp [Trie.insert, hl] at hi
    | some trie => simp [written, hk]; simp [toToken]

/-- A stored word is listed. -/
theorem listed {cfg : SplitCfg} {d : Dictionary F D} (h : d.WF cfg) {k : Bytes} (hv : d.trie.value k ≠ none) : ∃ e ∈ written d, e.1 = k := by
  obtain ⟨v, hv⟩ := Option.ne_none_iff_exists'.1 hv
  obtain ⟨t, h1, h2⟩ := h.entry k v hv
  exact ⟨_, List.mem_map_of_mem (List.mem_of_getElem? h1), h2⟩

theorem first_add {cfg : SplitCfg} {d : Dictionary F D} (hw : d.WF cfg) {m : AbsDict F} (hm : ∀ k, firstOf (written d) k = m.content k)
    (t : Bytes) (f : F) (p : Bytes) (hl : d.numTokens < Trie.valueLimit) (k : Bytes) :
    firstOf (written (segAddToken cfg d t f p).1) k = (m.add cfg t f p).content k := by
  rw [written_add t f p hl, content_add, ← hm k]
  by_cases hv : d.trie.value (normText cfg t) = none
  · rw [if_pos hv, firstOf_snoc]
    by_cases hk : k = normText cfg t
    · subst hk
      cases firstOf (written d) (normText cfg t) <;> simp
    · have : ¬ normText cfg t = k := fun h => hk h.symm
      simp [hk, this]
  · rw [if_neg hv, List.append_nil]
    by_cases hk : k = normText cfg t
    · subst hk
      obtain ⟨x, hx⟩ := Option.isSome_iff_exists.1 (firstOf_some (listed hw hv))
      simp [hx]
    · simp [hk]

theorem first_run {cfg : SplitCfg} (ops : List (DictOp F)) : ∀ {d d' : Dictionary F D} {m m0 : AbsDict F}, Rep cfg d m →
    (∀ k, firstOf (written d) k = m0.content k) → d.numTokens + ops.length ≤ Trie.valueLimit → runOps cfg ops d = some d' →
    ∀ k, firstOf (written d') k = ((onlyAdds ops).foldl (AbsDict.step cfg) m0).content k := by
  induction ops with
  | nil => intro d d' m m0 _ h _ hr; simp [runOps] at hr; subst hr; exact h
  | cons op ops ih =>
    intro d d' m m0 hrep h hl hr
    simp only [List.length_cons] at hl
    obtain ⟨d1, h1, h2⟩ := Option.bind_eq_some_iff.1 (show (op.step cfg d).bind (runOps cfg ops) = some d' from hr)
    obtain ⟨hrep1, hn⟩ := rep_step hrep (by omega) h1
    have go := fun m0' hk => ih (m0 := m0') hrep1 hk (by omega) h2
    cases op with
    | add t f p =>
      refine go (m0.add cfg t f p) ?_
      simp [DictOp.step] at h1
      subst h1
      exact first_add hrep.wf h t f p (by omega)
    | addForce t f p =>
      refine go (m0.add cfg t f p) ?_
      simp only [DictOp.step, segAddTokenForce, Option.map_map, Option.map_eq_some_iff] at h1
      obtain ⟨d2, h3, h4⟩ := h1
      simp at h4; subst h4
      rw [written_same (calcToken_same h3)]
      exact first_add hrep.wf h t f p (by omega)
    | remove t =>
      refine go m0 ?_
      simp only [DictOp.step, segRemoveToken, Option.map_eq_some_iff] at h1
      obtain ⟨⟨d2, e⟩, h3, h4⟩ := h1
      simp at h4; subst h4
      obtain ⟨_, _, h5, _⟩ := rep_remove hrep _ t rfl h3
      rwa [written, h5]
    | reAdd t f p =>
      refine go m0 ?_
      simp only [DictOp.step, segReAddToken, Option.map_eq_some_iff] at h1
      obtain ⟨⟨d2, e⟩, h3, h4⟩ := h1
      simp at h4; subst h4
      cases hrm : d.removeToken (toToken cfg t f p) with
      | none => simp [hrm] at h3
      | some x =>
        obtain ⟨d3, e3⟩ := x
        obtain ⟨q1, q2, q3, q4⟩ := rep_remove hrep _ t rfl hrm
        rw [hrm] at h3
        cases e3 with
        | true =>
          simp at h3
          obtain ⟨rfl, _⟩ := h3
          rw [q4 rfl]; exact h
        | false =>
          simp at h3
          have hd2 : d2 = (segAddToken cfg d3 t f p).1 := by rw [segAddToken, h3]
          have hw3 : written d3 = written d := by rw [written, q3]; rfl
          have hv : d.trie.value (normText cfg t) ≠ none := fun hc => by
            have := q2.2 ((hrep.value_none_iff _).1 hc); simp at this
          intro k
          rw [hd2, written_add t f p (by simp only [Dictionary.numTokens, q3] at hl ⊢; omega), hw3, ← h k]
          split
          · rw [firstOf_snoc]
            by_cases hk : normText cfg t = k
            · obtain ⟨x, hx⟩ := Option.isSome_iff_exists.1 (firstOf_some (listed hrep.wf (hk ▸ hv)))
              simp [hx]
            · simp [hk]
          · rw [List.append_nil]
    | recalc =>
      refine go m0 ?_
      rw [written_same (calcToken_same h1)]; exact h

theorem run_count {cfg : SplitCfg} (ops : List (DictOp F)) : ∀ {d d' : Dictionary F D} {m : AbsDict F}, Rep cfg d m →
    d.numTokens + ops.length ≤ Trie.valueLimit → runOps cfg ops d = some d' → d'.numTokens ≤ d.numTokens + ops.length := by
  induction ops with
  | nil => intro d d' m _ _ hr; simp [runOps] at hr; subst hr; simp
  | cons op ops ih =>
    intro d d' m hrep hl hr
    simp only [List.length_cons] at hl ⊢
    obtain ⟨d1, h1, h2⟩ := Option.bind_eq_some_iff.1 (show (op.step cfg d).bind (runOps cfg ops) = some d' from hr)
    obtain ⟨hrep1, hn⟩ := rep_step hrep (by omega) h1
    have := ih hrep1 (by omega) h2
    omega

theorem adds_back (es : List (Bytes × F × Bytes)) : readBack es = adds es := rfl

theorem find_norm [UnicodeOK] {cfg : SplitCfg} {d : Dictionary F D} (h : d.WF cfg) (k : Bytes) :
    ((written d).find? fun e => normText cfg e.1 == k) = (written d).find? fun e => e.1 == k := by
  refine List.find?_congr fun e he => ?_
  rw [written_norm h e he]

/-- C112: `Text` of the listed tokens gives what `written` says, and the list has `NumTokens` entries. -/
theorem C112_text (d : Dictionary F D) : d.tokens.mapM (fun t => (textSliceToString t.text).map fun x => (x, t.freq, t.pos)) = some (written d) ∧
    (written d).length = d.numTokens := by
  refine ⟨?_, by simp [written, Dictionary.numTokens]⟩
  simp only [textSliceToString_eq, Option.map_some, written]
  induction d.tokens with
  | nil => rfl
  | cons t l ih => rw [List.mapM_cons, ih]; rfl

/-- C112: what the listed tokens give when they are added to an empty dictionary is what the calls that add words would have given
alone: every word removed is back, and every word added again has its first frequency and tag. -/
theorem C112_returns [UnicodeOK] (cfg : SplitCfg) (ops : List (DictOp F)) (hl : ops.length ≤ Trie.valueLimit) (d : Dictionary F D)
    (hr : runOps cfg ops Dictionary.new = some d) :
    (absRun cfg (readBack (written d))).content = (absRun cfg (onlyAdds ops)).content := by
  funext k
  have h := first_run ops (rep_new (F := F) (D := D) cfg) (m0 := {}) (fun _ => rfl) (by simpa [Dictionary.numTokens, Dictionary.new] using hl) hr k
  rw [adds_first, find_norm (Reachable.wf ⟨ops, hr⟩)]
  exact h

/-- C112: if each word is listed once and stored as listed, the listed tokens make a dictionary with the same content and the same
total. -/
theorem once_content [UnicodeOK] {cfg : SplitCfg} {ops : List (DictOp F)} (hl : ops.length ≤ Trie.valueLimit) {d : Dictionary F D}
    (hr : runOps cfg ops Dictionary.new = some d) (ho : EachOnce cfg ops d) :
    (absRun cfg ops).content = (absRun cfg (readBack (written d))).content ∧
      (absRun cfg ops).spent = (absRun cfg (readBack (written d))).spent := by
  have hrep : Rep cfg d (absRun cfg ops) :=
    rep_run ops (rep_new cfg) (by simpa [Dictionary.numTokens, Dictionary.new] using hl) hr
  constructor
  · funext k
    rw [adds_first, find_norm hrep.wf]
    cases hc : (absRun cfg ops).content k with
    | none =>
      symm
      rw [Option.map_eq_none_iff, List.find?_eq_none]
      intro e he hk
      have := ho.stored e he
      rw [show e.1 = k by simpa using hk, hc] at this
      cases this
    | some x =>
      obtain ⟨e, he, rfl⟩ := listed hrep.wf (fun h => by rw [(hrep.value_none_iff k).1 h] at hc; cases hc)
      rw [ho.stored e he] at hc
      cases hf : (written d).find? fun y => y.1 == e.1 with
      | none =>
        rw [List.find?_eq_none] at hf
        exact absurd (by simp) (hf e he)
      | some y =>
        have h1 := List.mem_of_find?_eq_some hf
        have h2 := ho.stored y h1
        rw [show y.1 = e.1 by simpa using List.find?_some hf, ho.stored e he] at h2
        rw [← hc, Option.map_some, h2]
  · have hn : ((written d).map fun e => normText cfg e.1).Nodup := by
      rw [List.map_congr_left fun e he => written_norm hrep.wf e he]
      exact ho.once
    have e1 : (absRun cfg (readBack (written d))).stored.map (·.2) = (written d).map fun e => e.2.1 := by
      rw [adds_back, (adds_run cfg _ hn).2, List.map_map]; rfl
    have e2 : (absRun cfg ops).stored.map (·.2) = (written d).map fun e => e.2.1 := by
      have := congrArg (List.map Prod.snd) hrep.stored
      simp only [List.map_map, Function.comp_def] at this
      rw [← this, written, List.map_map]; rfl
    rw [AbsDict.spent, AbsDict.spent, e1, e2]

/-- C112: then `Find`, `Cut`, `CutAll`, `CutSearch`, `SuggestFreq` and `Analyze` answer the same, and after recalculation so do the calls
that segment; the sums are taken in the same order, so this is exact with rounding. -/
theorem C112_same [UnicodeOK] (cfg : SplitCfg) (ops : List (DictOp F)) (hl : ops.length ≤ Trie.valueLimit) (d : Dictionary F D)
    (hr : runOps cfg ops Dictionary.new = some d) (ho : EachOnce cfg ops d) :
    ∃ d', runOps cfg (readBack (written d)) Dictionary.new = some d' ∧ SameCuts cfg d d' ∧
      ∀ e e', calcToken d = some e → calcToken d' = some e' → SameSegments cfg e e' ∧ SameCuts cfg e e' := by
  obtain ⟨h1, h2⟩ := once_content hl hr ho
  have hlen : (readBack (written d)).length ≤ Trie.valueLimit := by
    have := run_count ops (rep_new (F := F) (D := D) cfg) (by simpa [Dictionary.numTokens, Dictionary.new] using hl) hr
    simp only [readBack, written, List.length_map]
    simp [Dictionary.numTokens, Dictionary.new] at this
    omega
  refine ⟨_, runOps_adds cfg (written d) _, ?_, fun e e' he he' => ?_⟩
  · exact C89_cuts cfg _ _ hl hlen d _ hr (runOps_adds cfg (written d) _) h1 h2
  · exact C89_segments cfg _ _ hl hlen d _ e e' hr (runOps_adds cfg (written d) _) h1 h2 he he'

/-- C112: `LoadDictStr` of the tokens, written in the plain form, makes a new segmenter that answers as the old one after recalculation.
`ft` is any way to write frequencies that reads back. -/
theorem C112_file [UnicodeOK] (hU : U.isSpace 0xFFFD = false) (s : Segmenter F D) (hd : s.dict = none) (hn : s.loadNoFreq = false) (hs : SepOk s.dictSep)
    (ops : List (DictOp F)) (hl : ops.length ≤ Trie.valueLimit) (d : Dictionary F D) (hr : runOps s.cfg ops Dictionary.new = some d)
    (ho : EachOnce s.cfg ops d) (ft : F → List Rune) (es : List (List Rune × F × List Rune))
    (he : es.map (fun e => (encode e.1, e.2.1, encode e.2.2)) = written d) (hw : ∀ e ∈ es, PlainCol e.1 ∧ e.1 ≠ [] ∧ PlainCol e.2.2)
    (hf : ∀ e ∈ es, PlainCol (ft e.2.1) ∧ ft e.2.1 ≠ [] ∧ F64.parse (encode (ft e.2.1)) = (e.2.1, false) ∧ F64.lt e.2.1 s.prepare.minTokenFreq = false ∧
      F64.eq e.2.1 (F64.ofNat 0) = false ∧ (e.1.length = 1 → e.2.1 = F64.ofNat 2)) :
    ∃ s' d' e, s.loadDictStr (plainText s.dictSep (es.map fun e => ⟨e.1, ft e.2.1, e.2.2⟩)) = some s' ∧ s'.dict = some d' ∧
      calcToken d = some e ∧ SameSegments s.cfg e d' ∧ SameCuts s.cfg e d' := by
  obtain ⟨s', h1, h2⟩ := C107_back hU s hd hn hs ft es hw hf
  obtain ⟨d0, h3, _, h4⟩ := C112_same s.cfg ops hl d hr ho
  obtain ⟨e, he1⟩ := calcToken_total (Reachable.wf ⟨ops, hr⟩ : d.WF s.cfg)
  rw [he, runOps_load] at h2
  obtain ⟨d', hd'⟩ := calcToken_total (wf_addAll (Dictionary.wf_new (F := F) (D := D) s.cfg) (written d))
  have hd0 : d0 = addAll s.cfg Dictionary.new (written d) := by
    have := runOps_adds s.cfg (written d) (Dictionary.new : Dictionary F D)
    exact Option.some.inj (h3.symm.trans this)
  exact ⟨s', d', e, h1, by rw [h2, hd'], he1, h4 e d' he1 (by rw [hd0]; exact hd')⟩

/-- C112: without `RemoveToken` and `ReAddToken` each word is listed once and stored as listed. -/
theorem C112_kept [UnicodeOK] (cfg : SplitCfg) (ops : List (DictOp F)) (hl : ops.length ≤ Trie.valueLimit) (d : Dictionary F D)
    (hr : runOps cfg ops Dictionary.new = some d) (ha : ∀ op ∈ ops, (∃ t f p, op = .add t f p ∨ op = .addForce t f p) ∨ op = .recalc) :
    EachOnce cfg ops d := by
  have step : ∀ (ops : List (DictOp F)) {d d' : Dictionary F D} {m : AbsDict F}, Rep cfg d m → d.numTokens + ops.length ≤ Trie.valueLimit →
      (∀ op ∈ ops, (∃ t f p, op = .add t f p ∨ op = .addForce t f p) ∨ op = .recalc) →
      ((written d).map (·.1)).Nodup ∧ (∀ e ∈ written d, m.content e.1 = some e.2) → runOps cfg ops d = some d' →
      ((written d').map (·.1)).Nodup ∧ (∀ e ∈ written d', (ops.foldl (AbsDict.step cfg) m).content e.1 = some e.2) := by
    intro ops
    induction ops with
    | nil => intro d d' m _ _ _ h hr; simp [runOps] at hr; subst hr; exact h
    | cons op ops ih =>
      intro d d' m hrep hl ha h hr
      simp only [List.length_cons] at hl
      obtain ⟨d1, h1, h2⟩ := Option.bind_eq_some_iff.1 (show (op.step cfg d).bind (runOps cfg ops) = some d' from hr)
      obtain ⟨hrep1, hn⟩ := rep_step hrep (by omega) h1
      refine ih hrep1 (by omega) (fun op hop => ha op (by simp [hop])) ?_ h2
      have key : ∀ t f p, ((written (segAddToken cfg d t f p).1).map (·.1)).Nodup ∧
          ∀ e ∈ written (segAddToken cfg d t f p).1, (m.add cfg t f p).content e.1 = some e.2 := by
        intro t f p
        rw [written_add t f p (by omega)]
        by_cases hv : d.trie.value (normText cfg t) = none
        · have hc := (hrep.value_none_iff _).1 hv
          rw [if_pos hv]
          constructor
          · rw [List.map_append, List.nodup_append]
            refine ⟨h.1, by simp, ?_⟩
            intro a ha b hb
            obtain ⟨e, he, rfl⟩ := List.mem_map.1 ha
            simp at hb
            subst hb
            intro hab
            have := h.2 e he
            rw [hab, hc] at this; cases this
          · intro e he
            rw [content_add]
            rcases List.mem_append.1 he with he | he
            · simp [h.2 e he]
            · simp at he; subst he; simp [hc]
        · rw [if_neg hv, List.append_nil]
          refine ⟨h.1, fun e he => ?_⟩
          rw [content_add]; simp [h.2 e he]
      rcases ha op (by simp) with ⟨t, f, p, rfl | rfl⟩ | rfl
      · simp [DictOp.step] at h1
        subst h1
        exact key t f p
      · simp only [DictOp.step, segAddTokenForce, Option.map_map, Option.map_eq_some_iff] at h1
        obtain ⟨d2, h3, h4⟩ := h1
        simp at h4; subst h4
        rw [written_same (calcToken_same h3)]
        exact key t f p
      · rw [written_same (calcToken_same h1)]
        exact h
  have := step ops (rep_new (F := F) (D := D) cfg) (by simpa [Dictionary.numTokens, Dictionary.new] using hl) ha ⟨by simp [written, Dictionary.new], by simp [written, Dictionary.new]⟩ hr
  exact ⟨this.1, this.2⟩

end

section examples
attribute [local instance] sampleUnicode sampleUnicodeOK sampleF64 sampleF32 sampleNarrow sampleLaws64

/-- Two words; the first is removed, the second gets another frequency. -/
def dumpOps : List (DictOp Int) := [.add (str "Ab") 3 (str "n"), .add (str "cd") 5 (str "v"), .remove (str "ab"), .reAdd (str "cd") 7 (str "n"), .recalc]

def dumpDict : Dictionary Int Int := (runOps {} dumpOps Dictionary.new).getD Dictionary.new
theorem dumpDict_run : runOps {} dumpOps (Dictionary.new : Dictionary Int Int) = some dumpDict := by
  have : (runOps {} dumpOps (Dictionary.new : Dictionary Int Int)).isSome = true := by decide +kernel
  obtain ⟨d, hd⟩ := Option.isSome_iff_exists.1 this
  rw [dumpDict, hd]; rfl

/-- C112: a removed word and a former frequency come back. -/
theorem C112_undone : runOps {} dumpOps (Dictionary.new : Dictionary Int Int) = some dumpDict ∧
    dumpDict.find (str "ab") = some (0, [], false) ∧ dumpDict.find (str "cd") = some (7, str "n", true) ∧
    written dumpDict = [(str "ab", 3, str "n"), (str "cd", 5, str "v"), (str "cd", 7, str "n")] ∧
    (runOps {} (readBack (written dumpDict)) (Dictionary.new : Dictionary Int Int)).bind (fun d => d.find (str "ab")) = some (3, str "n", true) ∧
    (runOps {} (readBack (written dumpDict)) (Dictionary.new : Dictionary Int Int)).bind (fun d => d.find (str "cd")) = some (5, str "v", true) := by
  refine ⟨dumpDict_run, ?_, ?_, ?_, ?_, ?_⟩ <;> decide +kernel

/-- C112: being listed once is needed: a word that is removed and added as before counts twice, until it is written and read. -/
theorem C112_twice : ((runOps {} [.add (str "ab") 3 [], .remove (str "ab"), .add (str "ab") 3 []] (Dictionary.new : Dictionary Int Int)).map fun d =>
      (d.find (str "ab"), d.totalFreq)) = some (some (3, [], true), 6) ∧
    ((runOps {} [.add (str "ab") 3 [], .remove (str "ab"), .add (str "ab") 3 []] (Dictionary.new : Dictionary Int Int)).bind fun d =>
      (runOps {} (readBack (written d)) (Dictionary.new : Dictionary Int Int)).map fun d => (d.find (str "ab"), d.totalFreq)) =
      some (some (3, [], true), 3) := by
  refine ⟨?_, ?_⟩ <;> decide +kernel

/-- A history without removals. -/
example : ∃ (ops : List (DictOp Int)) (d : Dictionary Int Int), runOps {} ops Dictionary.new = some d ∧ ops.length ≤ Trie.valueLimit ∧
    (∀ op ∈ ops, (∃ t f p, op = .add t f p ∨ op = .addForce t f p) ∨ op = .recalc) ∧ (written d).length = 2 := by
  have h : ((runOps {} (dumpOps.take 2) (Dictionary.new : Dictionary Int Int)).map fun d => (written d).length) = some 2 := by decide +kernel
  obtain ⟨d, h1, h2⟩ := Option.map_eq_some_iff.1 h
  refine ⟨dumpOps.take 2, d, h1, by decide +kernel, ?_, h2⟩
  intro op hop
  simp [dumpOps] at hop
  rcases hop with rfl | rfl
  · exact .inl ⟨_, _, _, .inl rfl⟩
  · exact .inl ⟨_, _, _, .inl rfl⟩

end examples
end Gse
