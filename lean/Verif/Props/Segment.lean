import Verif.Proofs.Best

/-! # C08–C14 and the segmentation half of C43 -/

namespace Gse
open Spec Trie

set_option linter.unusedSectionVars false

section
variable {F D : Type} [F64 F] [F32 D] [Narrow F D] [Unicode]

theorem split_isSplitText (cfg : SplitCfg) (s : Bytes) : IsSplitText cfg (splitTextToWords cfg s) := ⟨s, rfl⟩

theorem split_eq_nil {cfg : SplitCfg} {s : Bytes} (h : splitTextToWords cfg s = []) : s = [] := by
  have := (C01_split_bytes cfg s).1
  rw [h] at this
  exact List.length_eq_zero_iff.1 (by simpa using this.symm)

theorem split_nil (cfg : SplitCfg) : splitTextToWords cfg [] = [] := by
  have h := (C01_split_bytes cfg []).1
  cases e : splitTextToWords cfg [] with
  | nil => rfl
  | cons w ws =>
    have hw := split_ne_nil cfg [] w (by simp [e])
    rw [e] at h
    have := List.length_pos_iff.2 hw
    simp at h
    exact absurd h.1 hw

/-- The empty text needs no special case. -/
theorem internalSegment_eq (cfg : SplitCfg) (dict : Option (Dictionary F D)) (s : Bytes) (sm : Bool) :
    internalSegment cfg dict s sm = segmentWords dict (splitTextToWords cfg s) sm := by
  unfold internalSegment
  split
  · rename_i h
    rw [List.length_eq_zero_iff.1 h, split_nil]
    unfold segmentWords
    cases dict with
    | none => simp
    | some d => simp [segLoop, countSegs, fillSegs, positions]
  · rfl

/-- The result of `Segment`/`ModeSegment` seen as tokens: everything the structural theorems need. -/
theorem segment_tokens [UnicodeOK] {cfg : SplitCfg} {ops : List (DictOp F)} {d : Dictionary F D}
    (hr : runOps cfg ops Dictionary.new = some d) (s : Bytes) (sm : Bool) (hsm : ¬ (sm = true ∧ (splitTextToWords cfg s).length = 1)) :
    ∃ segs ts, internalSegment cfg (some d) s sm = some segs ∧
      List.Forall₂ (fun (g : Seg) t => d.deref g.tok = some t ∧ g.stop = g.start + t.text.flatten.length) segs ts ∧
      IsSegmentation d (splitTextToWords cfg s) ts ∧ Tiles 0 s.length segs ∧
      (sm = true → 2 ≤ (splitTextToWords cfg s).length → 2 ≤ ts.length) := by
  obtain ⟨segs, ts, h1, h2, h3, h4, hpos, h6, h7, h8⟩ := segmentWords_spec (Reachable.wf ⟨ops, hr⟩).coh (split_isSplitText cfg s) hsm
  refine ⟨segs, ts, by rw [internalSegment_eq, h1], ?_, h4, ?_, h8⟩
  · exact forall_deref h2 h3 h7
  · have := (C01_split_bytes cfg s).1
    rwa [this] at h6

/-- C08: the segments tile the input. -/
theorem C08_tiling [UnicodeOK] (cfg : SplitCfg) (ops : List (DictOp F)) (d : Dictionary F D)
    (hr : runOps cfg ops Dictionary.new = some d) (s : Bytes) :
    ∃ segs, internalSegment cfg (some d) s false = some segs ∧ Tiles 0 s.length segs := by
  obtain ⟨segs, ts, h1, _, _, h2, _⟩ := segment_tokens hr s false (by simp)
  exact ⟨segs, h1, h2⟩

theorem tiles_text {d : Dictionary F D} : ∀ {segs : List Seg} {ts : List (Token F D)},
    List.Forall₂ (fun (g : Seg) t => d.deref g.tok = some t ∧ g.stop = g.start + t.text.flatten.length) segs ts →
    ∀ {p q : Nat} {pre : Bytes}, pre.length = p → Tiles p q segs →
    ∀ g ∈ segs, ∃ t ∈ ts, d.deref g.tok = some t ∧ t.text.flatten = slice (pre ++ (wordsOf ts).flatten) g.start g.stop := by
  intro segs ts h
  induction h with
  | nil => intro p q pre _ _ g hg; simp at hg
  | @cons s t segs ts h1 h2 ih =>
    intro p q pre hp ht g hg
    cases ht with
    | cons e1 e2 e3 =>
      have hw : pre ++ (wordsOf (t :: ts)).flatten = (pre ++ t.text.flatten) ++ (wordsOf ts).flatten := by
        simp [wordsOf]
      rw [hw]
      rcases List.mem_cons.1 hg with rfl | hg
      · refine ⟨t, by simp, h1.1, ?_⟩
        rw [slice, h1.2, e1, ← hp, Nat.add_sub_cancel_left, List.append_assoc, List.drop_left, List.take_left]
      · obtain ⟨t', h3, h4, h5⟩ := ih (p := s.stop) (pre := pre ++ t.text.flatten) (by simp only [List.length_append]; omega) e3 g hg
        exact ⟨t', by simp [h3], h4, h5⟩

/-- C09: each segment's token text is the slice of the normalised input it covers, and the texts together are the
normalised input. -/
theorem C09_segment_text [UnicodeOK] (cfg : SplitCfg) (ops : List (DictOp F)) (d : Dictionary F D)
    (hr : runOps cfg ops Dictionary.new = some d) (s : Bytes) :
    ∃ (segs : List Seg) (ts : List (Token F D)), internalSegment cfg (some d) s false = some segs ∧ segs.map (fun g => d.deref g.tok) = ts.map some ∧
      (ts.map fun t => textSliceToBytes t.text).flatten = normText cfg s ∧
      ∀ g ∈ segs, ∃ t, d.deref g.tok = some t ∧ textSliceToBytes t.text = slice (normText cfg s) g.start g.stop := by
  obtain ⟨segs, ts, h1, h2, h3, h4, _⟩ := segment_tokens hr s false (by simp)
  refine ⟨segs, ts, h1, ?_, ?_, ?_⟩
  · clear h1 h3 h4
    induction h2 with
    | nil => rfl
    | cons h _ ih => simp [h.1, ih]
  · have : (ts.map fun t => textSliceToBytes t.text).flatten = (wordsOf ts).flatten := by
      clear h1 h2 h3 h4
      induction ts with
      | nil => rfl
      | cons t ts ih => simp [wordsOf, textSliceToBytes_eq] at ih ⊢; rw [ih]
    rw [this, h3.1, flatten_split]
  · intro g hg
    obtain ⟨t, _, h5, h6⟩ := tiles_text h2 (pre := []) rfl h4 g hg
    refine ⟨t, h5, ?_⟩
    rw [textSliceToBytes_eq, h6, List.nil_append, h3.1, flatten_split]

/-- A token stored under a word has that word as its text, and the content recorded for it. -/
theorem storedTok_content {cfg : SplitCfg} {ops : List (DictOp F)} (hl : ops.length ≤ Trie.valueLimit)
    {d : Dictionary F D} (hr : runOps cfg ops Dictionary.new = some d) (w : Bytes) :
    (storedTok d w).map (fun t => (t.freq, t.pos)) = (absRun cfg ops).content w := by
  have h : Rep cfg d (absRun cfg ops) := rep_run ops (rep_new cfg) (by simpa [Dictionary.numTokens, Dictionary.new] using hl) hr
  rw [← h.content w, storedTok]
  cases d.trie.value w <;> simp

/-- C10: a segment is a stored word with its stored frequency and tag, or a single word of the text that is not stored,
with frequency 1 and tag "x". -/
theorem C10_segment_kind [UnicodeOK] (cfg : SplitCfg) (ops : List (DictOp F)) (hl : ops.length ≤ Trie.valueLimit)
    (d : Dictionary F D) (hr : runOps cfg ops Dictionary.new = some d) (s : Bytes) :
    ∃ segs, internalSegment cfg (some d) s false = some segs ∧ ∀ g ∈ segs, ∃ t, d.deref g.tok = some t ∧
      (((absRun cfg ops).content t.text.flatten = some (t.freq, t.pos) ∧ t ∈ d.tokens) ∨
       (∃ w ∈ splitTextToWords cfg s, (absRun cfg ops).content w = none ∧ t.text = [w] ∧ t.freq = F64.ofNat 1 ∧ t.pos = str "x" ∧
          t.segments = [])) := by
  obtain ⟨segs, ts, h1, h2, h3, h4, _⟩ := segment_tokens hr s false (by simp)
  refine ⟨segs, h1, ?_⟩
  intro g hg
  obtain ⟨t, ht, h5, _⟩ := tiles_text h2 (pre := []) rfl h4 g hg
  refine ⟨t, h5, ?_⟩
  rcases (h3.2 t ht).2 with h6 | ⟨w, h6, h7⟩
  · left
    refine ⟨by rw [← storedTok_content hl hr, h6]; rfl, ?_⟩
    obtain ⟨v, _, hv⟩ := Option.bind_eq_some_iff.1 h6
    exact List.mem_of_getElem? hv
  · right
    refine ⟨w, ?_, ?_, by rw [h6]; rfl, by rw [h6]; rfl, by rw [h6]; rfl, by rw [h6]; rfl⟩
    · rw [← h3.1, wordsOf]
      exact List.mem_flatten.2 ⟨t.text, List.mem_map.2 ⟨t, ht, rfl⟩, by rw [h6]; simp [unknownTok]⟩
    · rw [← storedTok_content hl hr, h7]; rfl

/-- C11: with positive distances `Segment` returns the best segmentation (`IsBest`: cheapest up to every cut, ties to
the longest last token, recursively). -/
theorem C11_shortest [UnicodeOK] [F32Laws D] (cfg : SplitCfg) (ops : List (DictOp F)) (d : Dictionary F D)
    (hr : runOps cfg ops Dictionary.new = some d) (hd : PosDist d) (s : Bytes) :
    ∃ (segs : List Seg) (ts : List (Token F D)), internalSegment cfg (some d) s false = some segs ∧ segs.map (fun g => d.deref g.tok) = ts.map some ∧
      IsBest d false (splitTextToWords cfg s) ts := by
  obtain ⟨segs, ts, h1, h2, h3, _, h4⟩ := segmentWords_best (sm := false) (Reachable.wf ⟨ops, hr⟩) hd (split_isSplitText cfg s) (by simp)
  refine ⟨segs, ts, by rw [internalSegment_eq, h1], ?_, h4⟩
  rw [← h3, ← h2, List.map_map]; rfl

/-- C11: in particular no segmentation whatsoever of the text is cheaper than the one returned. -/
theorem C11_cheapest [UnicodeOK] [F32Laws D] (cfg : SplitCfg) (ops : List (DictOp F)) (d : Dictionary F D)
    (hr : runOps cfg ops Dictionary.new = some d) (hd : PosDist d) (s : Bytes) :
    ∃ (segs : List Seg) (ts : List (Token F D)), internalSegment cfg (some d) s false = some segs ∧ segs.map (fun g => d.deref g.tok) = ts.map some ∧
      ∀ us, IsSegmentation d (splitTextToWords cfg s) us → F32.gt (cost ts) (cost us) = false := by
  obtain ⟨segs, ts, h1, h2, h3⟩ := C11_shortest cfg ops d hr hd s
  refine ⟨segs, ts, h1, h2, ?_⟩
  intro us hus
  rcases List.eq_nil_or_concat ts with rfl | ⟨p, t, rfl⟩
  · rcases List.eq_nil_or_concat us with rfl | ⟨p', t', rfl⟩
    · exact gt_irrefl F32Laws.good_zero
    · rw [List.concat_eq_append] at *
      exfalso
      have h4 := h3.seg.1
      rw [← hus.1, wordsOf_append, wordsOf_single] at h4
      have := congrArg List.length h4
      simp [wordsOf] at this
      exact (hus.2 t' (by simp)).1 (List.length_eq_zero_iff.1 (by omega))
  · rw [List.concat_eq_append] at *
    rcases List.eq_nil_or_concat us with rfl | ⟨p', t', rfl⟩
    · exfalso
      have h4 := hus.1
      rw [← h3.seg.1, wordsOf_append, wordsOf_single] at h4
      have := congrArg List.length h4
      simp [wordsOf] at this
      exact (h3.seg.2 t (by simp)).1 (List.length_eq_zero_iff.1 (by omega))
    · rw [List.concat_eq_append] at *
      exact h3.cheapest p t [] rfl p' t' (by rw [h3.seg.1]; exact hus) (by simp)

/-- C11: the best segmentation is unique, so `IsBest` determines the result. -/
theorem C11_unique [F32Laws D] (d : Dictionary F D) (two : Bool) (ws : List Bytes) (ts us : List (Token F D))
    (h : IsBest d two ws ts) (h' : IsBest d two ws us) : ts = us := best_unique two ws ts us h h'

/-- C12: `Segment` and `ModeSegment` return for every text and every dictionary built with the same flags. -/
theorem C12_segment_total [UnicodeOK] (cfg : SplitCfg) (ops : List (DictOp F)) (d : Dictionary F D)
    (hr : runOps cfg ops Dictionary.new = some d) (s : Bytes) (sm : Bool) :
    ∃ segs, internalSegment cfg (some d) s sm = some segs := by
  by_cases hsm : sm = true ∧ (splitTextToWords cfg s).length = 1
  · refine ⟨[], ?_⟩
    rw [internalSegment_eq, segmentWords, if_pos (by simpa using hsm)]
  · obtain ⟨segs, ts, h1, _⟩ := segment_tokens hr s sm hsm
    exact ⟨segs, h1⟩

/-- C12: a segmenter without dictionary returns no segments. -/
theorem C12_no_dictionary (cfg : SplitCfg) (s : Bytes) (sm : Bool) :
    internalSegment (F := F) (D := D) cfg none s sm = some [] := by
  rw [internalSegment_eq, segmentWords]
  split <;> rfl

theorem withDistances_wf {cfg : SplitCfg} {d : Dictionary F D} (h : d.WF cfg) : (withDistances d).WF cfg :=
  (withDistances_same d).wf h

theorem segmentWords_total [UnicodeOK] {cfg : SplitCfg} {d : Dictionary F D} (hwf : d.WF cfg) {ws : List Bytes}
    (hs : IsSplitText cfg ws) (sm : Bool) :
    ∃ segs, segmentWords (some d) ws sm = some segs ∧ ∀ g ∈ segs, ∃ t, d.deref g.tok = some t := by
  by_cases hsm : sm = true ∧ ws.length = 1
  · exact ⟨[], by rw [segmentWords, if_pos (by simpa using hsm)], by simp⟩
  · obtain ⟨segs, ts, h1, h2, h3, _⟩ := segmentWords_spec hwf.coh hs hsm
    refine ⟨segs, h1, ?_⟩
    intro g hg
    rw [← h2, List.map_map] at h3
    have : (d.deref g.tok) ∈ ts.map some := by rw [← h3]; exact List.mem_map.2 ⟨g, hg, rfl⟩
    obtain ⟨t, _, ht⟩ := List.mem_map.1 this
    exact ⟨t, ht.symm⟩

theorem filterOpt_total {α : Type} {p : α → Option Bool} {l : List α} (h : ∀ a ∈ l, ∃ b, p a = some b) :
    ∃ r, filterOpt p l = some r := by
  induction l with
  | nil => exact ⟨[], rfl⟩
  | cons a l ih =>
    obtain ⟨b, hb⟩ := h a (by simp)
    obtain ⟨r, hr⟩ := ih fun x hx => h x (by simp [hx])
    exact ⟨if b then a :: r else r, by simp [filterOpt, hb, hr]⟩

theorem calcToken_total [UnicodeOK] {cfg : SplitCfg} {d : Dictionary F D} (hwf : d.WF cfg) : ∃ d', calcToken d = some d' := by
  have hwf1 := withDistances_wf hwf
  have : ∃ ts, mapOpt (fun t => do
      let segs ← segmentWords (some (withDistances d)) t.text true
      let kept ← filterOpt (keepSub (withDistances d)) segs
      some { t with segments := kept }) (withDistances d).tokens = some ts := by
    apply mapOpt_isSome
    intro t ht
    obtain ⟨segs, h1, h2⟩ := segmentWords_total hwf1 (ws := t.text) (by obtain ⟨s, hs⟩ := hwf1.split t ht; exact ⟨s, hs.symm⟩) true
    obtain ⟨r, hr⟩ := filterOpt_total (p := keepSub (withDistances d)) (l := segs) (by
      intro g hg
      obtain ⟨t', ht'⟩ := h2 g hg
      unfold keepSub
      simp only [ht', Option.bind_eq_bind, Option.bind_some]
      split <;> exact ⟨_, rfl⟩)
    exact ⟨{ t with segments := r }, by simp [h1, hr]⟩
  obtain ⟨ts, hts⟩ := this
  refine ⟨{ (withDistances d) with tokens := ts }, ?_⟩
  simp only [calcToken, Option.bind_eq_bind]
  simp only [Option.bind_eq_bind] at hts
  rw [hts]; rfl

/-- C12: no dictionary call panics either; the only calls without specified result remove a word that is not stored but
begins a stored one (unspecified by the trie library). -/
theorem C12_history_total [UnicodeOK] (cfg : SplitCfg) (ops : List (DictOp F)) (hl : ops.length ≤ Trie.valueLimit)
    (d : Dictionary F D) (hr : runOps cfg ops Dictionary.new = some d) (op : DictOp F) (h : op.step cfg d = none) :
    ∃ t, (op = .remove t ∨ ∃ f p, op = .reAdd t f p) ∧ (absRun cfg ops).content (normText cfg t) = none ∧
      (normText cfg t = [] ∨ ∃ k, (absRun cfg ops).content k ≠ none ∧ normText cfg t <+: k) := by
  have hrep : Rep cfg d (absRun cfg ops) := rep_run ops (rep_new cfg) (by simpa [Dictionary.numTokens, Dictionary.new] using hl) hr
  have hwf := hrep.wf
  have hrem : ∀ (tok : Token F D) t, tok.text = splitTextToWords cfg t → d.removeToken tok = none →
      (absRun cfg ops).content (normText cfg t) = none ∧
        (normText cfg t = [] ∨ ∃ k, (absRun cfg ops).content k ≠ none ∧ normText cfg t <+: k) := by
    intro tok t htok hn
    unfold Dictionary.removeToken at hn
    rw [textSliceToBytes_eq, htok, flatten_split] at hn
    rcases delete_cases d.trie (normText cfg t) with ⟨_, h2⟩ | ⟨v, t', _, h2⟩ | ⟨h1, h3, h2⟩
    · rw [h2] at hn; simp at hn
    · rw [h2] at hn; simp at hn
    · refine ⟨(hrep.value_none_iff _).1 (by assumption), ?_⟩
      rcases (isNode_iff _ _).1 (by assumption) with h | ⟨k, v, hv, hp⟩
      · exact .inl h
      · exact .inr ⟨k, fun e => by rw [(hrep.value_none_iff k).2 e] at hv; simp at hv, hp⟩
  cases op with
  | add t f p => simp [DictOp.step] at h
  | addForce t f p =>
    exfalso
    simp only [DictOp.step, segAddTokenForce, Option.map_map, Option.map_eq_none_iff] at h
    obtain ⟨d', hd'⟩ := calcToken_total (d := (segAddToken cfg d t f p).1) (Dictionary.wf_addToken hwf _ ⟨t, rfl⟩)
    rw [hd'] at h; simp at h
  | remove t =>
    simp only [DictOp.step, segRemoveToken, Option.map_eq_none_iff] at h
    exact ⟨t, .inl rfl, hrem _ t rfl h⟩
  | reAdd t f p =>
    simp only [DictOp.step, segReAddToken, Option.map_eq_none_iff] at h
    refine ⟨t, .inr ⟨f, p, rfl⟩, hrem (toToken cfg t f p) t rfl ?_⟩
    cases hr : d.removeToken (toToken cfg t f p) with
    | none => rfl
    | some x =>
      obtain ⟨d3, e3⟩ := x
      rw [hr] at h
      cases e3 <;> simp at h
  | recalc =>
    exfalso
    obtain ⟨d', hd'⟩ := calcToken_total hwf
    simp only [DictOp.step] at h
    rw [hd'] at h; simp at h

/-- C14: when `Segment` finds at least two segments, search mode returns the same. -/
theorem C14_same [UnicodeOK] [F32Laws D] (cfg : SplitCfg) (ops : List (DictOp F)) (d : Dictionary F D)
    (hr : runOps cfg ops Dictionary.new = some d) (hd : PosDist d) (s : Bytes) (segs : List Seg)
    (h : internalSegment cfg (some d) s false = some segs) (h2 : 2 ≤ segs.length) :
    internalSegment cfg (some d) s true = some segs := by
  have hwf : d.WF cfg := Reachable.wf ⟨ops, hr⟩
  obtain ⟨segs1, ts1, a1, a2, a3, a4, a5⟩ := segmentWords_best (sm := false) hwf hd (split_isSplitText cfg s) (by simp)
  rw [internalSegment_eq, a1] at h
  obtain rfl : segs1 = segs := by simpa using h
  have hlen : ts1.length = segs1.length := by
    have := congrArg List.length a2; simpa using this.symm
  have hws : (splitTextToWords cfg s).length ≠ 1 := by
    intro e
    have h4 := a5.seg
    have h6 : (wordsOf ts1).length = 1 := by rw [h4.1, e]
    match ts1, h4, h6, hlen with
    | [], _, _, hlen => simp at hlen; omega
    | [_], _, _, hlen => simp at hlen; omega
    | t :: t' :: r, h4, h6, _ =>
      have e1 := List.length_pos_iff.2 (h4.2 t (by simp)).1
      have e2 := List.length_pos_iff.2 (h4.2 t' (by simp)).1
      simp [wordsOf] at h6; omega
  obtain ⟨segs2, ts2, b1, b2, b3, b4, b5⟩ := segmentWords_best (sm := true) hwf hd (split_isSplitText cfg s) (by simp [hws])
  have hb : IsBest d true (splitTextToWords cfg s) ts1 :=
    ⟨a5.seg, fun _ => by omega, fun p t q e p' t' ha _ => a5.cheapest p t q e p' t' ha (by simp),
      fun p t q e p' t' ha _ => a5.longest p t q e p' t' ha (by simp)⟩
  have : ts1 = ts2 := best_unique true _ ts1 ts2 hb b5
  subst this
  rw [a4] at b4
  cases b4
  rw [internalSegment_eq, b1]

/-- C14: search mode is the best segmentation with at least two tokens. -/
theorem C14_search_best [UnicodeOK] [F32Laws D] (cfg : SplitCfg) (ops : List (DictOp F)) (d : Dictionary F D)
    (hr : runOps cfg ops Dictionary.new = some d) (hd : PosDist d) (s : Bytes) (h1 : (splitTextToWords cfg s).length ≠ 1) :
    ∃ (segs : List Seg) (ts : List (Token F D)), internalSegment cfg (some d) s true = some segs ∧ segs.map (fun g => d.deref g.tok) = ts.map some ∧
      IsBest d true (splitTextToWords cfg s) ts := by
  obtain ⟨segs, ts, a1, a2, a3, _, a4⟩ := segmentWords_best (sm := true) (Reachable.wf ⟨ops, hr⟩) hd (split_isSplitText cfg s) (by simp [h1])
  refine ⟨segs, ts, by rw [internalSegment_eq, a1], ?_, a4⟩
  rw [← a3, ← a2, List.map_map]; rfl

/-- C14: search mode never returns a text of two or more words as one segment (whatever the distances), and tiles it. -/
theorem C14_never_whole [UnicodeOK] (cfg : SplitCfg) (ops : List (DictOp F)) (d : Dictionary F D)
    (hr : runOps cfg ops Dictionary.new = some d) (s : Bytes) (h : 2 ≤ (splitTextToWords cfg s).length) :
    ∃ segs, internalSegment cfg (some d) s true = some segs ∧ 2 ≤ segs.length ∧ Tiles 0 s.length segs := by
  obtain ⟨segs, ts, h1, h2, _, h4, h5⟩ := segment_tokens hr s true (by omega)
  exact ⟨segs, h1, by rw [h2.length_eq]; exact h5 rfl h, h4⟩

/-- C14: search mode returns nothing for a text of one word. -/
theorem C14_one_word (cfg : SplitCfg) (dict : Option (Dictionary F D)) (s : Bytes) (h : (splitTextToWords cfg s).length = 1) :
    internalSegment cfg dict s true = some [] := by
  rw [internalSegment_eq, segmentWords.eq_def, if_pos (by simpa using h)]

/-- C43: `Segment`, `ModeSegment` and the dictionary calls do not see ASCII case. -/
theorem C43_case_insensitive [UnicodeOK] (cfg : SplitCfg) (hl : cfg.toLower = true) (ha : cfg.alpha = false)
    (s s' : Bytes) (h : s.map lowerAscii = s'.map lowerAscii) (d : Dictionary F D) :
    (∀ dict sm, internalSegment (F := F) (D := D) cfg dict s sm = internalSegment cfg dict s' sm) ∧
    (∀ f p, segAddToken cfg d s f p = segAddToken cfg d s' f p) ∧
    segRemoveToken cfg d s = segRemoveToken cfg d s' ∧
    (∀ f p, segReAddToken cfg d s f p = segReAddToken cfg d s' f p) ∧
    (∀ f p, segAddTokenForce cfg d s f p = segAddTokenForce cfg d s' f p) := by
  have e := C43_split_case cfg hl ha s s' h
  have e2 : ∀ f p, toToken (F := F) (D := D) cfg s f p = toToken cfg s' f p := by intro f p; simp [toToken, e]
  refine ⟨?_, ?_, ?_, ?_, ?_⟩
  · intro dict sm; rw [internalSegment_eq, internalSegment_eq, e]
  · intro f p; simp only [segAddToken, e2]
  · simp only [segRemoveToken, e2]
  · intro f p; simp only [segReAddToken, e2]
  · intro f p; simp only [segAddTokenForce, segAddToken, e2]

/-! ### C13 -/

/-- What the table says about zero distances. -/
def ZInv (d : Dictionary F D) (ws : List Bytes) (sm : Bool) (c : Nat) (js : List (Jumper D)) : Prop :=
  ∀ l j r, js[l]? = some j → j.token = some r → ∃ i dist, i < c ∧ edge d ws sm i (l + 1) = some (r, dist) ∧
    j.minDistance = F32.add (baseOf js i) dist ∧
    ∀ i' x, i < i' → i' < c → edge d ws sm i' (l + 1) = some x → F32.isZero j.minDistance = false

theorem zinv_step {d : Dictionary F D} {ws : List Bytes} {sm : Bool} {c : Nat} {js js' : List (Jumper D)}
    (ho : ZInv d ws sm c js) (h : ∀ l, js'[l]? = stepped d ws sm c js l) : ZInv d ws sm (c + 1) js' := by
  have hbase : ∀ i, i ≤ c → baseOf js' i = baseOf js i := fun i hi => stepped_base h hi
  intro l j r hj ht
  rw [h l, stepped] at hj
  cases he : edge d ws sm c (l + 1) with
  | none =>
    rw [he] at hj
    obtain ⟨i, dist, h1, h2, h3, h4⟩ := ho l j r hj ht
    refine ⟨i, dist, by omega, h2, by rw [hbase i (by omega), h3], ?_⟩
    intro i' x hi hi' he'
    have : i' ≠ c := by rintro rfl; rw [he] at he'; simp at he'
    exact h4 i' x hi (by omega) he'
  | some x =>
    obtain ⟨rc, dc⟩ := x
    rw [he] at hj
    simp only [Option.map_eq_some_iff] at hj
    obtain ⟨j0, hj0, rfl⟩ := hj
    unfold updateJumper at ht ⊢
    simp only at ht ⊢
    split at ht
    · rename_i hup
      rw [if_pos hup]
      simp at ht; subst ht
      exact ⟨c, dc, by omega, he, by rw [hbase c (by omega)], by omega⟩
    · rename_i hno
      rw [if_neg hno]
      obtain ⟨i, dist, h1, h2, h3, h4⟩ := ho l j0 r hj0 ht
      refine ⟨i, dist, by omega, h2, by rw [hbase i (by omega), h3], ?_⟩
      intro i' x hi hi' he'
      by_cases e : i' = c
      · simp at hno; exact hno.1
      · exact h4 i' x hi (by omega) he'

/-- C13: a token of two or more words whose distance counts as 0 is never the first segment of any text, even when it
is the whole text and every alternative is dearer. -/
theorem C13_zero_never_first [UnicodeOK] (cfg : SplitCfg) (ops : List (DictOp F)) (d : Dictionary F D)
    (hr : runOps cfg ops Dictionary.new = some d) (s : Bytes) (sm : Bool) (g : Seg) (segs : List Seg)
    (h : internalSegment cfg (some d) s sm = some (g :: segs)) (t : Token F D) (ht : d.deref g.tok = some t)
    (h2 : 2 ≤ t.text.length) : F32.isZero (F32.add F32.zero t.distance) = false := by
  have hwf : d.WF cfg := Reachable.wf ⟨ops, hr⟩
  have hs := split_isSplitText cfg s
  have hsm : ¬ (sm = true ∧ (splitTextToWords cfg s).length = 1) := by
    intro e
    rw [internalSegment_eq, segmentWords, if_pos (by simpa using e)] at h
    simp at h
  obtain ⟨js, segs', ts, hinv, _, h1, h3, hpath, h4, hseg, _⟩ := segmentWords_gen hwf hs hsm (ZInv d (splitTextToWords cfg s) sm)
    (fun js i k r dist => baseOf js k = F32.add (baseOf js i) dist ∧ (i + 1 < k → F32.isZero (baseOf js k) = false))
    (by intro l j r hj hr; have := List.mem_of_getElem? hj; rw [List.eq_of_mem_replicate this] at hr; simp at hr)
    (fun c js js' _ _ hz _ hst => zinv_step hz hst)
    (by
      intro js hinv hz l j hj hl
      obtain ⟨j', _, r, _, h1, _, h3, _⟩ := jinv_done hwf hs hsm hinv hl
      rw [hj] at h1; cases h1
      obtain ⟨i, dist, g1, g2, g3, g4⟩ := hz l j r hj h3
      refine ⟨i, r, dist, g2, h3, g3, by rw [baseOf_succ hj, g3], ?_⟩
      intro hil
      obtain ⟨x, hx⟩ := edge_single hwf.coh hs hsm hl
      rw [baseOf_succ hj]
      exact g4 l x (by omega) hl hx)
  rw [internalSegment_eq, h1] at h
  cases h
  obtain ⟨t0, ts, rfl⟩ : ∃ t0 ts', ts = t0 :: ts' := by
    cases ts with
    | nil => simp at h3
    | cons a b => exact ⟨a, b, rfl⟩
  simp only [List.map_cons, List.cons.injEq] at h3 h4
  have ht0 : t0 = t := by
    have := h4.1
    rw [← h3.1, ht] at this
    simpa using this.symm
  subst ht0
  -- the first step of a path starts at 0
  have key : ∀ {k refs c}, Path (fun i k r dist => edge d (splitTextToWords cfg s) sm i k = some (r, dist) ∧
      (baseOf js k = F32.add (baseOf js i) dist ∧ (i + 1 < k → F32.isZero (baseOf js k) = false))) k refs c →
      (refs = [] → k = 0) ∧ ∀ r0 rs, refs = r0 :: rs → ∃ k0 dist, edge d (splitTextToWords cfg s) sm 0 k0 = some (r0, dist) ∧
        (1 < k0 → F32.isZero (F32.add F32.zero dist) = false) := by
    intro k refs c hp
    induction hp with
    | nil => exact ⟨fun _ => rfl, by simp⟩
    | @snoc i k refs c r dist hp he ih =>
      refine ⟨by simp, ?_⟩
      intro r0 rs e
      cases refs with
      | nil =>
        have hi := ih.1 rfl
        subst hi
        simp at e
        obtain ⟨rfl, rfl⟩ := e
        refine ⟨k, dist, he.1, fun hk => ?_⟩
        have := he.2.2 (by omega)
        rw [he.2.1] at this
        simpa [baseOf] using this
      | cons a b =>
        simp at e
        obtain ⟨rfl, _⟩ := e
        exact ih.2 a b rfl
  obtain ⟨k0, dist, he, hz⟩ := (key hpath).2 _ _ rfl
  obtain ⟨t', hd', htx, hdist, _⟩ := edge_token hwf hs he
  rw [h4.1] at hd'
  cases hd'
  have hlt := edge_lt he
  have : t0.text.length = k0 - 0 := by rw [htx, slice_length _ _ _ hlt.2]
  rw [hdist]
  exact hz (by omega)

/-- C13: a word added by `AddToken` has distance 0 until `CalcToken` runs. -/
theorem C13_added_zero (cfg : SplitCfg) (d : Dictionary F D) (t : Bytes) (f : F) (p : Bytes)
    (h : storedTok d (normText cfg t) = none) (hwf : d.WF cfg) (hl : d.numTokens < Trie.valueLimit) :
    ∃ tok, storedTok (segAddToken cfg d t f p).1 (normText cfg t) = some tok ∧ tok.distance = F32.zero ∧
      tok.text = splitTextToWords cfg t := by
  refine ⟨toToken cfg t f p, ?_, rfl, rfl⟩
  have hv : d.trie.value (normText cfg t) = none := by
    cases hv : d.trie.value (normText cfg t) with
    | none => rfl
    | some v =>
      have := hwf.idx _ _ hv
      simp [storedTok, hv] at h
      omega
  unfold segAddToken Dictionary.addToken
  dsimp only
  rw [textSliceToBytes_eq, get_eq, show (toToken (D := D) cfg t f p).text.flatten = normText cfg t from flatten_split cfg t, hv]
  dsimp only
  cases hi : d.trie.insert (normText cfg t) d.numTokens with
  | none => simp [Trie.insert, hl] at hi
  | some trie =>
    simp [storedTok, value_insert hi, Dictionary.numTokens]

end
/-- The operations of `sampleF32` meet the laws (with "not negative" as `good`). -/
@[instance_reducible] def sampleLaws : @F32Laws Int sampleF32 :=
  letI := sampleF32
  { good := fun a => 0 ≤ a
    good_zero := by decide
    good_c32 := by decide
    pos_c32 := by decide
    good_add := by intro a b h1 h2; simp only [F32.add]; omega
    gt_asymm := by intro a b _ _; simp only [F32.gt]; simp; omega
    gt_cotrans := by intro a b c _ _ _; simp only [F32.gt]; simp; omega
    add_mono := by intro a b c _ _ _; simp only [F32.gt, F32.add]; simp
    add_pos := by intro a b h _; simp only [F32.gt, F32.add, F32.zero]; simp at h ⊢; omega
    isZero_pos := by intro a _; simp only [F32.gt, F32.isZero, F32.zero]; simp; omega }

section examples
attribute [local instance] sampleUnicode sampleUnicodeOK sampleF64 sampleF32 sampleNarrow sampleLaws

/-- Some words, recalculated. -/
def segOps : List (DictOp Int) :=
  [.add (str "ab") 20 (str "n"), .add (str "ab c") 30 (str "v"), .add (str "c") 2 [], .add (str "w") 50 [], .recalc]

def segText (cfg : SplitCfg) (ops : List (DictOp Int)) (s : Bytes) (sm : Bool) : Option (List (Nat × Nat × Bytes)) :=
  (runOps (D := Int) cfg ops Dictionary.new).bind fun d => (internalSegment cfg (some d) s sm).bind fun segs =>
    mapOpt (fun g => (d.deref g.tok).map fun t => (g.start, g.stop, t.text.flatten)) segs

/-- A text with stored tokens, unknown words and capitals. -/
example : segText {} segOps (str "AB c? ab") false =
    some [(0, 4, str "ab c"), (4, 5, str "?"), (5, 6, str " "), (6, 8, str "ab")] := by decide +kernel
example : segText {} segOps (str "ab c") true = some [(0, 2, str "ab"), (2, 3, str " "), (3, 4, str "c")] := by decide +kernel
example : segText {} segOps (str "ab") true = some [] := by decide +kernel

/-- The distances of `segOps` are positive, so C11 and C14 apply. -/
example : ∀ d, runOps (D := Int) {} segOps Dictionary.new = some d → PosDist d := by
  intro d h w t ht
  obtain ⟨v, _, hv⟩ := Option.bind_eq_some_iff.1 ht
  have hm : t ∈ d.tokens := List.mem_of_getElem? hv
  have : ((runOps (D := Int) {} segOps Dictionary.new).map fun d => d.tokens.all fun t => decide (0 < t.distance)) = some true := by
    decide +kernel
  rw [h] at this
  simp at this
  have h1 := this t hm
  exact ⟨Int.le_of_lt h1, by simpa [F32.gt, F32.zero] using h1⟩

/-- C13: so `Segment` need not be a shortest path. The word "ab c" is added and not recalculated: it costs nothing, yet
"ab c" is cut into three unknown words of distance 96. -/
theorem C13_not_shortest : ∃ (ops : List (DictOp Int)) (d : Dictionary Int Int) (s : Bytes) (segs : List Seg)
    (ts us : List (Token Int Int)), runOps {} ops Dictionary.new = some d ∧ internalSegment {} (some d) s false = some segs ∧
    segs.map (fun g => d.deref g.tok) = ts.map some ∧ IsSegmentation d (splitTextToWords {} s) us ∧
    F32.gt (cost ts) (cost us) = true := by
  refine ⟨[.add (str "ab c") 5 (str "n")], (segAddToken {} Dictionary.new (str "ab c") 5 (str "n")).1, str "ab c",
    [⟨0, 2, .pseudo (str "ab")⟩, ⟨2, 3, .pseudo (str " ")⟩, ⟨3, 4, .pseudo (str "c")⟩],
    [unknownTok (str "ab"), unknownTok (str " "), unknownTok (str "c")], [toToken {} (str "ab c") 5 (str "n")], rfl, ?_, rfl, ⟨?_, ?_⟩, ?_⟩
  · decide +kernel
  · decide +kernel
  · intro t ht
    simp only [List.mem_singleton] at ht
    subst ht
    exact ⟨by decide +kernel, .inl (by decide +kernel)⟩
  · decide +kernel

/-- C12: with flags changed after loading, `Segment` can panic: "ab" is loaded as two words and then met as one. -/
theorem C12_flag_change_panics : ∃ (cfg cfg' : SplitCfg) (ops : List (DictOp Int)) (d : Dictionary Int Int) (s : Bytes),
    runOps cfg ops Dictionary.new = some d ∧ internalSegment cfg' (some d) s false = none :=
  ⟨{ alphaNum := true }, {}, [.add (str "ab") 5 []], (segAddToken { alphaNum := true } Dictionary.new (str "ab") 5 []).1, str "ab",
    rfl, by decide +kernel⟩

/-- C12: … or lose text: the segments no longer cover the input. -/
theorem C12_flag_change_loses_text : ∃ (cfg cfg' : SplitCfg) (ops : List (DictOp Int)) (d : Dictionary Int Int) (s : Bytes)
    (segs : List Seg), runOps cfg ops Dictionary.new = some d ∧ internalSegment cfg' (some d) s false = some segs ∧
    ¬ Tiles 0 s.length segs := by
  have h : ((runOps (F := Int) (D := Int) { alphaNum := true } [.add (str "ab") 5 [], .add (str "w") 9 [], .recalc] Dictionary.new).bind
      fun d => internalSegment {} (some d) (str "ab w") false) = some [⟨0, 2, .idx 0⟩, ⟨2, 3, .idx 1⟩] := by decide +kernel
  obtain ⟨d, h1, h2⟩ := Option.bind_eq_some_iff.1 h
  refine ⟨_, _, _, d, _, _, h1, h2, ?_⟩
  · intro h
    cases h with
    | cons _ _ h => cases h with
      | cons _ _ h => cases h
end examples
end Gse
