import Verif.Proofs.Scale
import Verif.Props.Content

/-!
# Frequencies times a factor, and raised

C90: without rounding, only the proportions of the frequencies count, except for characters that are not in the dictionary; and what
happens when the frequency of one word is raised.
-/

namespace Gse
open Spec

set_option linter.unusedSectionVars false

section
variable [ParseFn] [Unicode]

theorem find_times {k : ℝ} {cfg : SplitCfg} {D : Type} [F32 D] [Narrow EReal D] {d d' : Dictionary EReal D} (hT : Amount d.totalFreq)
    (h : SameStore cfg (fun _ => True) (Times k d.totalFreq) d d') : FindTimes k d.totalFreq d d' := fun w => h.find_rel (times_zero hT) w

/-- C90: without rounding, multiplying all frequencies by one positive factor changes no segmentation after a recalculation: positions, texts,
tags and distances of the segments stay, and `Slice`, `String` and `Pos`, in both modes. -/
theorem C90_segments [UnicodeOK] (cfg : SplitCfg) (ops : List (DictOp EReal)) (hl : ops.length ≤ Trie.valueLimit) (hf : FreqsExact ops)
    (k : ℝ) (hk : 0 < k) (d0 d0' d d' : Dictionary EReal EReal) (hr : runOps cfg ops Dictionary.new = some d0)
    (hr' : runOps cfg (ops.map (scaleOp k)) Dictionary.new = some d0') (hd : calcToken d0 = some d) (hd' : calcToken d0' = some d') :
    SameShapes cfg d d' := by
  obtain ⟨h0, ht⟩ := scale_store hl hf hr hr'
  have hT := (counts_run hr hf).total
  obtain ⟨h, h1, h2⟩ := calcToken_sim h0 (sameDist_withDistances h0 fun _ _ _ _ _ _ e => by
    rw [ht]
    exact (times_log hk hT e).2.symm) (fun _ _ _ _ => trivial) hd hd'
  refine ⟨?_, ?_, ?_, ?_⟩
  all_goals
    intros
    first | unfold shape | unfold segSlice | unfold segString | unfold segPos
    rename_i s mode
    have := internalSegment_sim h h1 s (fun _ _ => trivial) mode
    revert this
    generalize internalSegment cfg (some d) s mode = a
    generalize internalSegment cfg (some d') s mode = b
    intro this
    cases this with
    | none => rfl
    | some hab => ?_
  · simp only [Option.map_some, Option.some.injEq]
    induction hab with
    | nil => rfl
    | @cons g g' _ _ hg _ ih =>
      rw [List.map_cons, List.map_cons, ih, hg.1, hg.2.1]
      congr 3
      obtain ⟨_, _, hr⟩ := hg
      revert hr
      generalize g.tok = r
      generalize g'.tok = r'
      intro hr
      cases hr with
      | pseudo w => rfl
      | idx hk k1 k2 =>
        obtain ⟨t, e1, _⟩ := h.wf.entry _ _ k1
        obtain ⟨t', e2, _⟩ := h.wf'.entry _ _ k2
        simp only [Dictionary.deref, e1, e2, Option.map_some, h.text k1 k2 e1 e2, (h.entry _ _ _ _ _ hk k1 k2 e1 e2).2, h1 _ _ _ _ _ hk k1 k2 e1 e2]
  · exact toSlice_sim h h2 _ hab _
  · exact toString_sim h h2 _ hab _
  · exact toPos_sim h h2 _ hab _

/-! ### One frequency raised -/

theorem storedTok_split [UnicodeOK] {cfg : SplitCfg} {d : Dictionary EReal EReal} (hw : d.WF cfg) {k : Bytes} {t : Token EReal EReal}
    (h : storedTok d k = some t) : t.text = splitTextToWords cfg k ∧ t.text.flatten = k := by
  obtain ⟨v, e1, e3⟩ := Option.bind_eq_some_iff.1 h
  obtain ⟨t', h1, h2⟩ := hw.entry k v e1
  rw [e3] at h1; cases h1
  obtain ⟨s, hs⟩ := hw.split t (List.mem_of_getElem? e3)
  have := split_infix cfg s [] t.text [] (by simpa using hs.symm)
  rw [h2] at this
  exact ⟨this.symm, h2⟩

/-- The second dictionary stores the same, the word `w` with a frequency raised by `δ`. -/
structure Raised (cfg : SplitCfg) (w : Bytes) (f δ : ℝ) (d d' : Dictionary EReal EReal) : Prop where
  wf : d.WF cfg
  wf' : d'.WF cfg
  none : ∀ u, storedTok d' u = none → storedTok d u = none
  some : ∀ u t', u ≠ w → storedTok d' u = some t' → ∃ t, storedTok d u = some t ∧ t.freq = t'.freq
  old : ∃ t, storedTok d w = Option.some t ∧ t.freq = (f : EReal)
  new : ∃ t, storedTok d' w = Option.some t ∧ t.freq = ((f + δ : ℝ) : EReal)
  total : d'.totalFreq = d.totalFreq + (δ : EReal)

theorem raised_pieces [UnicodeOK] {cfg : SplitCfg} {w : Bytes} {f δ T : ℝ} (hδ : 0 ≤ δ) (hT : 0 < T) {d d' : Dictionary EReal EReal} (h : Raised cfg w f δ d d')
    (eT : d.totalFreq = (T : EReal)) (hs : ∀ u t, storedTok d u = some t → Amount t.freq) :
    ∀ ts' : List (Token EReal EReal), (∀ t ∈ ts', IsPiece d' t ∧ t.text.flatten ≠ w) → ∃ ts, (∀ t ∈ ts, IsPiece d t) ∧ wordsOf ts = wordsOf ts' ∧
      0 ≤ (ts'.map (tokenShare d')).prod ∧ (ts'.map (tokenShare d')).prod ≤ (ts.map (tokenShare d)).prod := by
  intro ts'
  induction ts' with
  | nil => intro _; exact ⟨[], by simp, rfl, by simp, by simp⟩
  | cons t' ts' ih =>
    intro ht
    obtain ⟨ts, i1, i2, i3, i4⟩ := ih fun t h => ht t (by simp [h])
    obtain ⟨⟨p1, p2⟩, p3⟩ := ht t' (by simp)
    have key : ∃ t, IsPiece d t ∧ t.text = t'.text ∧ 0 ≤ tokenShare d' t' ∧ tokenShare d' t' ≤ tokenShare d t := by
      by_cases hst : storedTok d' t'.text.flatten = some t'
      · obtain ⟨t, e1, e2⟩ := h.some _ _ p3 hst
        have e3 : t.text = t'.text := (storedTok_split h.wf e1).1.trans (storedTok_split h.wf' hst).1.symm
        obtain ⟨x, hx, ex⟩ := hs _ _ e1
        refine ⟨t, ⟨by rwa [e3], .inl (by rwa [e3])⟩, e3, ?_⟩
        unfold tokenShare
        rw [if_pos hst, if_pos (by rwa [e3]), ← e2, ex, h.total, eT, ← EReal.coe_add, EReal.toReal_coe, EReal.toReal_coe, EReal.toReal_coe]
        exact ⟨by positivity, by gcongr; linarith⟩
      · rcases p2 with hc | ⟨u, hu, hn⟩
        · exact absurd hc hst
        · have hn' := h.none _ hn
          refine ⟨t', ⟨p1, .inr ⟨u, hu, hn'⟩⟩, rfl, ?_⟩
          have : t'.text.flatten = u := by rw [hu]; simp [unknownTok]
          unfold tokenShare
          rw [if_neg hst, if_neg (by rw [this, hn']; simp)]
          exact ⟨by positivity, le_refl _⟩
    obtain ⟨t, k1, k2, k3, k4⟩ := key
    refine ⟨t :: ts, ?_, ?_, ?_, ?_⟩
    · intro x hx
      rcases List.mem_cons.1 hx with rfl | hx
      · exact k1
      · exact i1 x hx
    · simp only [wordsOf, List.map_cons, List.flatten_cons] at i2 ⊢
      rw [i2, k2]
    · rw [List.map_cons, List.prod_cons]; positivity
    · rw [List.map_cons, List.prod_cons, List.map_cons, List.prod_cons]
      exact mul_le_mul k4 i4 i3 (k3.trans k4)

/-- In a list of two or more pieces none has all the words. -/
theorem piece_proper {d : Dictionary EReal EReal} {ws : List Bytes} (hne : ∀ u ∈ ws, u ≠ []) {ts : List (Token EReal EReal)} (hs : IsSegmentation d ws ts)
    (h2 : 2 ≤ ts.length) : ∀ t ∈ ts, t.text.flatten ≠ ws.flatten := by
  intro t ht e
  obtain ⟨a, b, rfl⟩ := List.append_of_mem ht
  obtain ⟨h1, hp⟩ := hs
  have hx : ∃ x, x ∈ a ++ b := by
    cases hab : a ++ b with
    | nil => simp at hab; simp [hab.1, hab.2] at h2
    | cons x _ => exact ⟨x, by simp⟩
  have hl : ∀ x ∈ a ++ b, 0 < x.text.flatten.length := by
    intro x hx
    have hx' : x ∈ a ++ t :: b := by
      rcases List.mem_append.1 hx with h | h <;> simp [h]
    obtain ⟨u, hu⟩ := List.exists_mem_of_ne_nil _ (hp x hx').1
    have hw : u ∈ ws := by
      rw [← h1]
      simp only [wordsOf, List.mem_flatten, List.mem_map]
      exact ⟨x.text, ⟨x, hx', rfl⟩, hu⟩
    have := List.length_pos_iff.2 (hne u hw)
    have h3 : u.length ≤ x.text.flatten.length := (List.sublist_flatten_of_mem hu).length_le
    omega
  have hsum : ∀ l : List (Token EReal EReal), (∀ x ∈ l, 0 < x.text.flatten.length) → l ≠ [] → 0 < (wordsOf l).flatten.length := by
    intro l hl hn
    cases l with
    | nil => exact absurd rfl hn
    | cons x l =>
      have := hl x (by simp)
      simp only [wordsOf, List.map_cons, List.flatten_cons, List.flatten_append]
      rw [List.length_append]
      omega
  have e2 : ws.flatten.length = (wordsOf a).flatten.length + (t.text.flatten.length + (wordsOf b).flatten.length) := by
    rw [← h1]
    simp only [wordsOf, List.map_append, List.map_cons, List.flatten_append, List.flatten_cons]
    rw [List.length_append, List.length_append]
  rw [← e] at e2
  obtain ⟨x, hx⟩ := hx
  rcases List.mem_append.1 hx with h | h
  · have := hsum a (fun y hy => hl y (by simp [hy])) (List.ne_nil_of_mem h)
    omega
  · have := hsum b (fun y hy => hl y (by simp [hy])) (List.ne_nil_of_mem h)
    omega

theorem foldl_more (l : List EReal) (a δ : EReal) : l.foldl F64.add (F64.add a δ) = l.foldl F64.add a + δ := by
  induction l generalizing a with
  | nil => rfl
  | cons x l ih =>
    rw [List.foldl_cons, List.foldl_cons, ← ih]
    congr 1
    exact add_right_comm a δ x

theorem adds_content (cfg : SplitCfg) (pre post : List (Bytes × EReal × Bytes)) (t p : Bytes) (f : EReal)
    (hn : ((pre ++ (t, f, p) :: post).map fun e => normText cfg e.1).Nodup) (k : Bytes) :
    (absRun cfg (adds (pre ++ (t, f, p) :: post))).content k =
      if k = normText cfg t then some (f, p) else ((pre ++ post).find? fun e => normText cfg e.1 == k).map (·.2) := by
  rw [(adds_run cfg _ hn).1, List.find?_append, List.find?_append, List.find?_cons]
  by_cases h : k = normText cfg t
  · subst h
    have : pre.find? (fun e => normText cfg e.1 == normText cfg t) = none := by
      rw [List.find?_eq_none]
      intro x hx he
      rw [List.map_append, List.nodup_append] at hn
      exact hn.2.2 _ (List.mem_map_of_mem hx) (normText cfg t) (by simp) (by simpa using he)
    simp [this]
  · have : (normText cfg t == k) = false := by simpa using fun e => h e.symm
    simp [this, h]

/-- C90: without rounding, when `Segment` keeps a word whole and its frequency is raised, all else the same, then after a recalculation
`Segment` still keeps it whole. No word may be the whole of the total. -/
theorem C90_raised [UnicodeOK] (cfg : SplitCfg) (pre post : List (Bytes × EReal × Bytes)) (t p : Bytes) (f δ : ℝ) (hf : 0 ≤ f) (hδ : 0 ≤ δ)
    (hn : ((pre ++ (t, (f : EReal), p) :: post).map fun e => normText cfg e.1).Nodup) (hes : ∀ e ∈ pre ++ post, Amount e.2.1)
    (hl : pre.length + post.length + 2 ≤ Trie.valueLimit) (d0 d0' d d' : Dictionary EReal EReal)
    (hr : runOps cfg (adds (pre ++ (t, (f : EReal), p) :: post)) Dictionary.new = some d0)
    (hr' : runOps cfg (adds (pre ++ (t, ((f + δ : ℝ) : EReal), p) :: post)) Dictionary.new = some d0')
    (hd : calcToken d0 = some d) (hd' : calcToken d0' = some d') (hz : ∀ w t, storedTok d w = some t → t.freq ≠ d.totalFreq)
    (s : Bytes) (hs : normText cfg s = normText cfg t) (g : Seg) (hg : internalSegment cfg (some d) s false = some [g]) :
    ∃ g', internalSegment cfg (some d') s false = some [g'] := by
  have hlen : ∀ x : ℝ, (adds (pre ++ (t, (x : EReal), p) :: post)).length ≤ Trie.valueLimit := by
    intro x; rw [adds_length]; simp; omega
  have hn' : ((pre ++ (t, ((f + δ : ℝ) : EReal), p) :: post).map fun e => normText cfg e.1).Nodup := by simpa using hn
  have hfe : ∀ x : ℝ, 0 ≤ x → FreqsExact (adds (pre ++ (t, (x : EReal), p) :: post)) := by
    intro x hx op hop y hy
    obtain ⟨e, he, rfl⟩ := List.mem_map.1 hop
    simp only [opFreq, Option.some.injEq] at hy
    subst hy
    rcases List.mem_append.1 he with h | h
    · exact hes e (by simp [h])
    · rcases List.mem_cons.1 h with rfl | h
      · exact ⟨x, hx, rfl⟩
      · exact hes e (by simp [h])
  have hc := counts_run hr (hfe f hf)
  have hc' := counts_run hr' (hfe (f + δ) (by positivity))
  have same := calcToken_same hd
  have same' := calcToken_same hd'
  have hrr : runOps cfg (adds (pre ++ (t, (f : EReal), p) :: post) ++ [.recalc]) Dictionary.new = some d := by
    rw [runOps_append, hr]; simpa [runOps, DictOp.step] using hd
  have hrr' : runOps cfg (adds (pre ++ (t, ((f + δ : ℝ) : EReal), p) :: post) ++ [.recalc]) Dictionary.new = some d' := by
    rw [runOps_append, hr']; simpa [runOps, DictOp.step] using hd'
  have cont : ∀ k, (storedTok d k).map (fun t => (t.freq, t.pos)) = (absRun cfg (adds (pre ++ (t, (f : EReal), p) :: post))).content k := by
    intro k
    rw [storedTok_content (by rw [List.length_append, adds_length]; simp; omega) hrr k, absRun_snoc]
    rfl
  have cont' : ∀ k, (storedTok d' k).map (fun t => (t.freq, t.pos)) =
      (absRun cfg (adds (pre ++ (t, ((f + δ : ℝ) : EReal), p) :: post))).content k := by
    intro k
    rw [storedTok_content (by rw [List.length_append, adds_length]; simp; omega) hrr' k, absRun_snoc]
    rfl
  have htot : d0'.totalFreq = d0.totalFreq + (δ : EReal) := by
    rw [(C06_counters cfg _ (hlen f) d0 hr).2.1, (C06_counters cfg _ (hlen (f + δ)) d0' hr').2.1, (adds_run cfg _ hn).2, (adds_run cfg _ hn').2]
    simp only [List.map_append, List.map_cons, List.foldl_append, List.foldl_cons, List.map_map, Function.comp_def]
    rw [← foldl_more]
    congr 1
    rw [EReal.coe_add]
    exact (add_assoc _ _ _).symm
  have hR : Raised cfg (normText cfg t) f δ d d' := by
    refine ⟨(Reachable.wf ⟨_, hrr⟩), (Reachable.wf ⟨_, hrr'⟩), ?_, ?_, ?_, ?_, ?_⟩
    · intro u hu
      have := cont' u
      have h2 := cont u
      rw [adds_content cfg pre post t p _ hn'] at this
      rw [adds_content cfg pre post t p _ hn] at h2
      rw [hu] at this
      split at this
      · simp at this
      · next hne =>
        rw [if_neg hne, ← this] at h2
        simpa using h2
    · intro u t' hne hu
      have := cont' u
      have h2 := cont u
      rw [adds_content cfg pre post t p _ hn', if_neg hne, hu] at this
      rw [adds_content cfg pre post t p _ hn, if_neg hne, ← this] at h2
      simp only [Option.map_some, Option.map_eq_some_iff, Prod.mk.injEq] at h2
      obtain ⟨a, h3, h4, _⟩ := h2
      exact ⟨a, h3, h4⟩
    · have := cont (normText cfg t)
      rw [adds_content cfg pre post t p _ hn, if_pos rfl] at this
      simp only [Option.map_eq_some_iff, Prod.mk.injEq] at this
      obtain ⟨a, h3, h4, _⟩ := this
      exact ⟨a, h3, h4⟩
    · have := cont' (normText cfg t)
      rw [adds_content cfg pre post t p _ hn', if_pos rfl] at this
      simp only [Option.map_eq_some_iff, Prod.mk.injEq] at this
      obtain ⟨a, h3, h4, _⟩ := this
      exact ⟨a, h3, h4⟩
    · rw [same.total, same'.total, htot]
  obtain ⟨T, hT0, eT0⟩ := hc.total
  have eT : d.totalFreq = (T : EReal) := by rw [same.total, eT0]
  have tokAmount : ∀ u t, storedTok d u = some t → Amount t.freq ∧ t.freq < d.totalFreq := by
    intro u x hu
    have hm : x ∈ d.tokens := by
      obtain ⟨v, _, hv⟩ := Option.bind_eq_some_iff.1 hu
      exact List.mem_of_getElem? hv
    obtain ⟨i, hi⟩ := List.mem_iff_getElem?.1 hm
    obtain ⟨x0, e0, e1, _⟩ := calcToken_exact hd hi
    have := hc.freq x0 (List.mem_of_getElem? e0)
    rw [← e1, ← same.total] at this
    exact ⟨this.1, lt_of_le_of_ne this.2 (hz u x hu)⟩
  obtain ⟨tw, htw, etw⟩ := hR.old
  obtain ⟨tw', htw', etw'⟩ := hR.new
  have hfT : f < T := by
    have := (tokAmount _ _ htw).2
    rw [etw, eT] at this
    exact_mod_cast this
  have hT : 0 < T := lt_of_le_of_lt hf hfT
  have hpos : 0 < d0.totalFreq := by rw [eT0]; exact_mod_cast hT
  have hpos' : 0 < d0'.totalFreq := by
    rw [htot, eT0, ← EReal.coe_add]
    exact_mod_cast (by positivity : 0 < T + δ)
  have eT' : d'.totalFreq = ((T + δ : ℝ) : EReal) := by rw [hR.total, eT, EReal.coe_add]
  have hz' : ∀ w t, storedTok d' w = some t → t.freq ≠ d'.totalFreq := by
    intro u x hu e
    by_cases hw : u = normText cfg t
    · subst hw
      rw [htw'] at hu; cases hu
      rw [etw', eT'] at e
      have : f + δ = T + δ := by exact_mod_cast e
      linarith
    · obtain ⟨y, h1, h2⟩ := hR.some u x hw hu
      have h3 := (tokAmount _ _ h1).2
      rw [h2, e, eT', eT] at h3
      have : T + δ < T := by exact_mod_cast h3
      linarith
  -- the first dictionary
  obtain ⟨segs, ts, a1, a2, a3, a4⟩ := C11_exact cfg _ d0 d hr (hfe f hf) hpos hd hz s
  rw [hg] at a1; cases a1
  have hw : (splitTextToWords cfg s).flatten = normText cfg t := by rw [← hs]; exact C01_split_lossless cfg s
  have hsplit : splitTextToWords cfg (normText cfg t) = splitTextToWords cfg s := by
    rw [← hw]; exact split_infix cfg s [] _ [] (by simp)
  obtain ⟨x, rfl⟩ : ∃ x, ts = [x] := by
    have := congrArg List.length a2
    simp at this
    exact List.length_eq_one_iff.1 this.symm
  have hx : x = tw := by
    have ht : x.text = splitTextToWords cfg s := by simpa [IsSegmentation, wordsOf] using a3.1
    rcases (a3.2 x (by simp)).2 with h | ⟨u, hu, hnone⟩
    · rw [ht, hw, htw] at h
      cases h; rfl
    · have : u = normText cfg t := by rw [← hw, ← ht, hu]; simp [unknownTok]
      rw [this, htw] at hnone; cases hnone
  subst hx
  -- the second
  obtain ⟨segs', ts', b1, b2, b3⟩ := C11_shortest cfg _ d' hrr' (posDist_exact hr' (hfe (f + δ) (by positivity)) hpos' hd' hz') s
  suffices h1 : ts'.length = 1 by
    have := congrArg List.length b2
    simp [h1] at this
    obtain ⟨g', rfl⟩ := List.length_eq_one_iff.1 this
    exact ⟨g', b1⟩
  have hwtext : tw'.text = splitTextToWords cfg s := by rw [(storedTok_split hR.wf' htw').1, hsplit]
  have hwtext1 : x.text = splitTextToWords cfg s := by rw [(storedTok_split hR.wf htw).1, hsplit]
  have hne : splitTextToWords cfg s ≠ [] := by
    rw [← hwtext1]; exact (a3.2 x (by simp)).1
  have hseg : IsSegmentation d' (splitTextToWords cfg s) [tw'] := by
    refine ⟨by simp [wordsOf, hwtext], ?_⟩
    intro y hy
    simp at hy; subst hy
    exact ⟨by rwa [hwtext], .inl (by rw [hwtext, hw, htw'])⟩
  rcases List.eq_nil_or_concat ts' with rfl | ⟨q, y, rfl⟩
  · exact absurd (by simpa [wordsOf, IsSegmentation] using b3.seg.1.symm) hne
  rw [List.concat_eq_append] at *
  by_cases hq : q = []
  · simp [hq]
  exfalso
  have h2 : 2 ≤ (q ++ [y]).length := by
    have := List.length_pos_iff.2 hq
    simp; omega
  have hprop := piece_proper (fun u hu => split_ne_nil cfg s u hu) b3.seg h2
  obtain ⟨us, u1, u2, u3, u4⟩ := raised_pieces hδ hT hR eT (fun u t h => (tokAmount u t h).1) (q ++ [y])
    fun z hz => ⟨b3.seg.2 z hz, by rw [← hw]; exact hprop z hz⟩
  have hbest := a4 us ⟨u2.trans b3.seg.1, u1⟩
  have hshare : tokenShare d x ≤ tokenShare d' tw' := by
    unfold tokenShare
    rw [if_pos (by rw [hwtext1, hw, htw]), if_pos (by rw [hwtext, hw, htw']), etw, etw', eT, eT', EReal.toReal_coe, EReal.toReal_coe, EReal.toReal_coe,
      EReal.toReal_coe, div_le_div_iff₀ hT (by positivity)]
    nlinarith
  have hprod : ((q ++ [y]).map (tokenShare d')).prod ≤ ([tw'].map (tokenShare d')).prod := by
    refine u4.trans (hbest.trans ?_)
    simpa using hshare
  obtain ⟨c1, c2⟩ := cost_share hr' (hfe (f + δ) (by positivity)) hpos' hd' [tw'] hseg.2
  obtain ⟨e1, e2⟩ := cost_share hr' (hfe (f + δ) (by positivity)) hpos' hd' (q ++ [y]) b3.seg.2
  have hlong := b3.longest q y [] rfl [] tw' (by rw [b3.seg.1]; exact hseg) (by simp) (by
    rw [exact_gt_false, List.nil_append, c2, e2, shareDist_le c1 e1]
    exact hprod)
  rw [hwtext, ← b3.seg.1] at hlong
  have hq1 : ∃ z, z ∈ q := List.exists_mem_of_ne_nil _ hq
  obtain ⟨z, hz⟩ := hq1
  have hzt := (b3.seg.2 z (by simp [hz])).1
  have hzl : 0 < z.text.length := List.length_pos_iff.2 hzt
  have hql : z.text.length ≤ (wordsOf q).length := by
    unfold wordsOf
    exact (List.sublist_flatten_of_mem (List.mem_map_of_mem hz)).length_le
  have : (wordsOf (q ++ [y])).length = (wordsOf q).length + y.text.length := by
    simp only [wordsOf, List.map_append, List.map_cons, List.map_nil, List.flatten_append]
    rw [List.length_append]; simp
  omega

variable {D : Type} [F32 D] [Narrow EReal D]

theorem known_found {cfg : SplitCfg} {ops : List (DictOp EReal)} {d : Dictionary EReal D} (hr : runOps cfg ops Dictionary.new = some d) {r : Rune}
    (h : StartsStored d (encode [r])) : ∃ f p, findRunes d [r] = some (f, p, true) := by
  unfold findRunes
  cases hs : storedTok d (encode [r]) with
  | some t => exact ⟨_, _, find_stored hs⟩
  | none => exact ⟨_, _, find_starts (idxOK_of_run hr) (encode_ne_nil (by simp)) hs h⟩

/-- C90: nor does it change `CutAll`. -/
theorem C90_cutAll (cfg : SplitCfg) (ops : List (DictOp EReal)) (hl : ops.length ≤ Trie.valueLimit) (hf : FreqsExact ops)
    (k : ℝ) (hk : 0 < k) (d d' : Dictionary EReal D) (hr : runOps cfg ops Dictionary.new = some d)
    (hr' : runOps cfg (ops.map (scaleOp k)) Dictionary.new = some d') (s : Bytes) : cutAll cfg d s = cutAll cfg d' s :=
  cutAll_times hk (find_times (counts_run hr hf).total (scale_store hl hf hr hr').1) cfg s

/-- C90: nor `Cut` and `CutSearch` with a flag, for a text all of whose characters are in the dictionary. -/
theorem C90_cut [UnicodeOK] (cfg : SplitCfg) (ops : List (DictOp EReal)) (hl : ops.length ≤ Trie.valueLimit) (hf : FreqsExact ops)
    (k : ℝ) (hk : 0 < k) (d d' : Dictionary EReal D) (hr : runOps cfg ops Dictionary.new = some d)
    (hr' : runOps cfg (ops.map (scaleOp k)) Dictionary.new = some d') (s : Bytes) (hs : KnownChars cfg d s) (fuel : Nat)
    (hmm : Bytes → Option (List Bytes)) (b : Bool) :
    cut cfg d fuel hmm s (some b) = cut cfg d' fuel hmm s (some b) ∧ cutSearch cfg d fuel hmm s (some b) = cutSearch cfg d' fuel hmm s (some b) := by
  obtain ⟨h0, ht⟩ := scale_store hl hf hr hr'
  have hT := (counts_run hr hf).total
  have hft := find_times hT h0
  have hc := calcRoutes_times hk hft hT rfl ht (dagRunes cfg s) fun r hr' => by
    rw [dagRunes_eq] at hr'
    exact known_found hr (hs r hr')
  have e : cut cfg d fuel hmm s (some b) = cut cfg d' fuel hmm s (some b) := by
    cases b
    · simp only [cut, cutDAGNoHMM, hc]
    · simp only [cut, cutDAG, hc, hmmLoop_times hk hft]
  refine ⟨e, ?_⟩
  have hw : searchWord d = searchWord d' := funext fun w => searchWord_times hk hft w
  simp only [cutSearch, cutForSearch, hw, e]

end

/-! ### Examples -/

section examples
attribute [local instance] sampleUnicode sampleUnicodeOK sampleParse

theorem comp3 {α : Type} {a b c : α} {L : List (List α)} (h : L.flatten = [a, b, c]) (hn : ∀ x ∈ L, x ≠ []) :
    L = [[a], [b], [c]] ∨ L = [[a, b], [c]] ∨ L = [[a], [b, c]] ∨ L = [[a, b, c]] := by
  have one : ∀ (L : List (List α)) (c : α), L.flatten = [c] → (∀ x ∈ L, x ≠ []) → L = [[c]] := by
    intro L c h hn
    cases L with
    | nil => simp at h
    | cons x L =>
      cases x with
      | nil => exact absurd rfl (hn [] (by simp))
      | cons y x =>
        simp at h
        obtain ⟨rfl, rfl, h⟩ := h
        cases L with
        | nil => rfl
        | cons z L => exact absurd (h z (by simp)) (hn z (by simp))
  have two : ∀ (L : List (List α)) (b c : α), L.flatten = [b, c] → (∀ x ∈ L, x ≠ []) → L = [[b], [c]] ∨ L = [[b, c]] := by
    intro L b c h hn
    cases L with
    | nil => simp at h
    | cons x L =>
      match x, hn x (by simp) with
      | [y], _ =>
        simp at h
        obtain ⟨rfl, h⟩ := h
        exact .inl (by rw [one L c h fun z hz => hn z (by simp [hz])])
      | y :: y' :: x, _ =>
        simp at h
        obtain ⟨rfl, rfl, rfl, h⟩ := h
        cases L with
        | nil => exact .inr rfl
        | cons z L => exact absurd (h z (by simp)) (hn z (by simp))
  cases L with
  | nil => simp at h
  | cons x L =>
    have hn' : ∀ z ∈ L, z ≠ [] := fun z hz => hn z (by simp [hz])
    match x, hn x (by simp) with
    | [y], _ =>
      simp at h
      obtain ⟨rfl, h⟩ := h
      rcases two L b c h hn' with rfl | rfl
      · exact .inl rfl
      · exact .inr (.inr (.inl rfl))
    | [y, y'], _ =>
      simp at h
      obtain ⟨rfl, rfl, h⟩ := h
      exact .inr (.inl (by rw [one L c h hn']))
    | y :: y' :: y'' :: x, _ =>
      simp at h
      obtain ⟨rfl, rfl, rfl, rfl, h⟩ := h
      cases L with
      | nil => exact .inr (.inr (.inr rfl))
      | cons z L => exact absurd (h z (by simp)) (hn z (by simp))

/-- 中, 国 and 人. -/
def zhong : Bytes := encode [0x4E2D]
def guo : Bytes := encode [0x56FD]
def ren : Bytes := encode [0x4EBA]

/-- 中 with frequency `x`, 国 and 人 with 100, 中国人 with 1. -/
noncomputable def peopleEntries (x : ℝ) : List (Bytes × EReal × Bytes) :=
  [(zhong, (x : EReal), []), (guo, ((100 : ℝ) : EReal), []), (ren, ((100 : ℝ) : EReal), []), (zhong ++ guo ++ ren, ((1 : ℝ) : EReal), [])]

theorem people_norm : normText {} zhong = zhong ∧ normText {} guo = guo ∧ normText {} ren = ren ∧ normText {} (zhong ++ guo ++ ren) = zhong ++ guo ++ ren := by
  refine ⟨?_, ?_, ?_, ?_⟩ <;> decide +kernel

theorem people_nodup (x : ℝ) : ((peopleEntries x).map fun e => normText {} e.1).Nodup := by
  simp only [peopleEntries, List.map_cons, List.map_nil]
  decide +kernel

theorem find_step (k : Bytes) (e : Bytes × EReal × Bytes) (es : List (Bytes × EReal × Bytes)) :
    ((e :: es).find? fun e => normText {} e.1 == k).map (·.2) =
      if k = normText {} e.1 then some e.2 else (es.find? fun e => normText {} e.1 == k).map (·.2) := by
  rw [List.find?_cons]
  split
  · next h => rw [if_pos (eq_of_beq h).symm]; rfl
  · next h => rw [if_neg fun e => by rw [e] at h; simp at h]

theorem people_content (x : ℝ) (k : Bytes) : (absRun {} (adds (peopleEntries x))).content k =
    if k = zhong then some ((x : EReal), []) else if k = guo then some (((100 : ℝ) : EReal), []) else
    if k = ren then some (((100 : ℝ) : EReal), []) else if k = zhong ++ guo ++ ren then some (((1 : ℝ) : EReal), []) else none := by
  rw [(adds_run {} _ (people_nodup x)).1]
  obtain ⟨h1, h2, h3, h4⟩ := people_norm
  simp only [peopleEntries, find_step, h1, h2, h3, h4, List.find?_nil, Option.map_none]

theorem people_run (x : ℝ) : ∃ d : Dictionary EReal EReal, runOps {} (adds (peopleEntries x)) Dictionary.new = some d := ⟨_, rfl⟩

theorem people_total (x : ℝ) {d : Dictionary EReal EReal} (hr : runOps {} (adds (peopleEntries x)) Dictionary.new = some d) :
    d.totalFreq = ((x + 201 : ℝ) : EReal) := by
  rw [(C06_counters {} _ (by simp [adds, peopleEntries, Trie.valueLimit]) d hr).2.1, (adds_run {} _ (people_nodup x)).2]
  simp only [peopleEntries, List.map_cons, List.map_nil, List.foldl_cons, List.foldl_nil, F64.add, F64.ofNat]
  norm_cast
  ring

/-- What `Segment` finds in 中国人. -/
theorem people_segment (x : ℝ) (hx : 0 < x) : ∃ d0 d : Dictionary EReal EReal, runOps {} (adds (peopleEntries x)) Dictionary.new = some d0 ∧
    calcToken d0 = some d ∧ (∀ w t, storedTok d w = some t → t.freq ≠ d.totalFreq) ∧
    ∃ segs, internalSegment {} (some d) (zhong ++ guo ++ ren) false = some segs ∧
      ((x + 201) ^ 2 < x * 100 * 100 → segs.map (fun g => (d.deref g.tok).map (·.text)) = [some [zhong], some [guo], some [ren]]) ∧
      (x * 100 * 100 < (x + 201) ^ 2 → segs.map (fun g => (d.deref g.tok).map (·.text)) = [some [zhong, guo, ren]]) := by
  obtain ⟨d0, hr⟩ := people_run x
  obtain ⟨d, hd⟩ := calcToken_total (wf_run _ (Dictionary.wf_new _) hr)
  have hf : FreqsExact (adds (peopleEntries x)) := by
    intro op hop f hf
    obtain ⟨e, he, rfl⟩ := List.mem_map.1 hop
    simp only [opFreq, Option.some.injEq] at hf
    subst hf
    simp only [peopleEntries, List.mem_cons, List.not_mem_nil, or_false] at he
    rcases he with rfl | rfl | rfl | rfl
    · exact ⟨x, hx.le, rfl⟩
    · exact ⟨100, by norm_num, rfl⟩
    · exact ⟨100, by norm_num, rfl⟩
    · exact ⟨1, by norm_num, rfl⟩
  have hT0 := people_total x hr
  have hT : d.totalFreq = ((x + 201 : ℝ) : EReal) := by rw [(calcToken_same hd).total, hT0]
  have hpos : 0 < d0.totalFreq := by rw [hT0]; exact_mod_cast (by positivity : 0 < x + 201)
  have hrr : runOps {} (adds (peopleEntries x) ++ [.recalc]) Dictionary.new = some d := by
    rw [runOps_append, hr]; simpa [runOps, DictOp.step] using hd
  have hwf : d.WF {} := Reachable.wf ⟨_, hrr⟩
  have cont : ∀ k, (storedTok d k).map (fun t => (t.freq, t.pos)) = (absRun {} (adds (peopleEntries x))).content k := by
    intro k
    rw [storedTok_content (by simp [adds, peopleEntries, Trie.valueLimit]) hrr k, absRun_snoc]
    rfl
  have hz : ∀ w t, storedTok d w = some t → t.freq ≠ d.totalFreq := by
    intro w t hw
    have := cont w
    rw [hw, people_content] at this
    rw [hT]
    simp only [Option.map_some] at this
    repeat' split at this
    all_goals simp only [Option.some.injEq, Prod.mk.injEq, reduceCtorEq] at this
    all_goals rw [this.1]
    · exact_mod_cast (by linarith : x ≠ x + 201)
    · exact_mod_cast (by linarith : (100 : ℝ) ≠ x + 201)
    · exact_mod_cast (by linarith : (100 : ℝ) ≠ x + 201)
    · exact_mod_cast (by linarith : (1 : ℝ) ≠ x + 201)
  have hsplit : splitTextToWords {} (zhong ++ guo ++ ren) = [zhong, guo, ren] := by decide +kernel
  have ne : guo ≠ zhong ∧ ren ≠ zhong ∧ ren ≠ guo ∧ zhong ++ guo ++ ren ≠ zhong ∧ zhong ++ guo ++ ren ≠ guo ∧ zhong ++ guo ++ ren ≠ ren := by
    refine ⟨?_, ?_, ?_, ?_, ?_, ?_⟩ <;> decide +kernel
  obtain ⟨n1, n2, n3, n4, n5, n6⟩ := ne
  have get : ∀ k f, (absRun {} (adds (peopleEntries x))).content k = some (f, []) → ∃ t, storedTok d k = some t ∧ t.freq = f := by
    intro k f h
    have := cont k
    rw [h] at this
    simp only [Option.map_eq_some_iff, Prod.mk.injEq] at this
    obtain ⟨t, h1, h2, _⟩ := this
    exact ⟨t, h1, h2⟩
  obtain ⟨t1, s1, f1⟩ := get zhong _ (by rw [people_content, if_pos rfl])
  obtain ⟨t2, s2, f2⟩ := get guo _ (by rw [people_content, if_neg n1, if_pos rfl])
  obtain ⟨t3, s3, f3⟩ := get ren _ (by rw [people_content, if_neg n2, if_neg n3, if_pos rfl])
  obtain ⟨t4, s4, f4⟩ := get (zhong ++ guo ++ ren) _ (by rw [people_content, if_neg n4, if_neg n5, if_neg n6, if_pos rfl])
  have x1 : t1.text = [zhong] := by rw [(storedTok_split hwf s1).1]; decide +kernel
  have x2 : t2.text = [guo] := by rw [(storedTok_split hwf s2).1]; decide +kernel
  have x3 : t3.text = [ren] := by rw [(storedTok_split hwf s3).1]; decide +kernel
  have x4 : t4.text = [zhong, guo, ren] := by rw [(storedTok_split hwf s4).1, hsplit]
  have y1 : storedTok d t1.text.flatten = some t1 := by rw [x1]; simpa using s1
  have y2 : storedTok d t2.text.flatten = some t2 := by rw [x2]; simpa using s2
  have y3 : storedTok d t3.text.flatten = some t3 := by rw [x3]; simpa using s3
  have y4 : storedTok d t4.text.flatten = some t4 := by rw [x4]; simpa using s4
  have z : ∀ t : Token EReal EReal, ∀ f : ℝ, storedTok d t.text.flatten = some t → t.freq = (f : EReal) → tokenShare d t = f / (x + 201) := by
    intro t f h1 h2
    unfold tokenShare
    rw [if_pos h1, h2, hT, EReal.toReal_coe, EReal.toReal_coe]
  have p1 : IsSegmentation d [zhong, guo, ren] [t1, t2, t3] := by
    refine ⟨by simp [wordsOf, x1, x2, x3], ?_⟩
    intro t ht
    simp only [List.mem_cons, List.not_mem_nil, or_false] at ht
    rcases ht with rfl | rfl | rfl
    · exact ⟨by simp [x1], .inl y1⟩
    · exact ⟨by simp [x2], .inl y2⟩
    · exact ⟨by simp [x3], .inl y3⟩
  have p2 : IsSegmentation d [zhong, guo, ren] [t4] := by
    refine ⟨by simp [wordsOf, x4], ?_⟩
    intro t ht
    simp only [List.mem_singleton] at ht
    subst ht
    exact ⟨by simp [x4], .inl y4⟩
  have e1 : ([t1, t2, t3].map (tokenShare d)).prod = x / (x + 201) * (100 / (x + 201) * (100 / (x + 201))) := by
    simp [z t1 x y1 f1, z t2 100 y2 f2, z t3 100 y3 f3]
  have e2 : ([t4].map (tokenShare d)).prod = 1 / (x + 201) := by simp [z t4 1 y4 f4]
  obtain ⟨segs, ts, a1, a2, a3, a4⟩ := C11_exact {} _ d0 d hr hf hpos hd hz (zhong ++ guo ++ ren)
  rw [hsplit] at a3 a4
  have only : ts = [t1, t2, t3] ∨ ts = [t4] := by
    have known : ∀ t ∈ ts, ∀ k tk, storedTok d k = some tk → t.text.flatten = k → t = tk := by
      intro t ht k tk hk e
      rcases (a3.2 t ht).2 with h | ⟨u, hu, hn⟩
      · rw [e, hk] at h; cases h; rfl
      · have : u = k := by rw [← e, hu]; simp [unknownTok]
        rw [this, hk] at hn; cases hn
    have none2 : ∀ t ∈ ts, t.text.length ≠ 1 → ∃ y, storedTok d t.text.flatten = some y := by
      intro t ht hl
      rcases (a3.2 t ht).2 with h | ⟨u, hu, _⟩
      · exact ⟨_, h⟩
      · rw [hu] at hl; simp [unknownTok] at hl
    have no : ∀ k, (absRun {} (adds (peopleEntries x))).content k = none → storedTok d k = none := by
      intro k h
      have := cont k
      rw [h] at this
      simpa using this
    have no1 : storedTok d (zhong ++ guo) = none := no _ (by
      rw [people_content, if_neg (by decide +kernel), if_neg (by decide +kernel), if_neg (by decide +kernel), if_neg (by decide +kernel)])
    have no2 : storedTok d (guo ++ ren) = none := no _ (by
      rw [people_content, if_neg (by decide +kernel), if_neg (by decide +kernel), if_neg (by decide +kernel), if_neg (by decide +kernel)])
    have hflat : (ts.map fun t : Token EReal EReal => t.text).flatten = [zhong, guo, ren] := a3.1
    rcases comp3 hflat (by
      intro y hy
      obtain ⟨t, ht, rfl⟩ := List.mem_map.1 hy
      exact (a3.2 t ht).1) with h | h | h | h
    · left
      obtain ⟨u1, u2, u3, rfl⟩ := List.length_eq_three.1 (by simpa using congrArg List.length h)
      simp only [List.map_cons, List.map_nil, List.cons.injEq, and_true] at h
      rw [known u1 (by simp) _ _ s1 (by simp [h.1]), known u2 (by simp) _ _ s2 (by simp [h.2.1]), known u3 (by simp) _ _ s3 (by simp [h.2.2])]
    · exfalso
      obtain ⟨u1, u2, rfl⟩ := List.length_eq_two.1 (by simpa using congrArg List.length h)
      simp only [List.map_cons, List.map_nil, List.cons.injEq, and_true] at h
      obtain ⟨y, hy⟩ := none2 u1 (by simp) (by simp [h.1])
      rw [h.1] at hy
      simp [no1] at hy
    · exfalso
      obtain ⟨u1, u2, rfl⟩ := List.length_eq_two.1 (by simpa using congrArg List.length h)
      simp only [List.map_cons, List.map_nil, List.cons.injEq, and_true] at h
      obtain ⟨y, hy⟩ := none2 u2 (by simp) (by simp [h.2])
      rw [h.2] at hy
      simp [no2] at hy
    · right
      obtain ⟨u1, rfl⟩ := List.length_eq_one_iff.1 (by simpa using congrArg List.length h)
      simp only [List.map_cons, List.map_nil, List.cons.injEq, and_true] at h
      rw [known u1 (by simp) _ _ s4 (by simp [h])]
  have hseg : segs.map (fun g => (d.deref g.tok).map (·.text)) = ts.map fun t => some t.text := by
    have := congrArg (List.map (Option.map (·.text))) a2
    simpa [Function.comp_def] using this
  have hx' : 0 < x + 201 := by linarith
  refine ⟨d0, d, hr, hd, hz, segs, a1, ?_, ?_⟩
  · intro hlt
    rw [hseg]
    rcases only with rfl | rfl
    · simp [x1, x2, x3]
    · exfalso
      have := a4 _ p1
      rw [e1, e2] at this
      have h3 : x / (x + 201) * (100 / (x + 201) * (100 / (x + 201))) = (x * 100 * 100) / (x + 201) ^ 2 / (x + 201) := by field_simp
      rw [h3, div_le_div_iff_of_pos_right hx', div_le_one (by positivity)] at this
      linarith
  · intro hlt
    rw [hseg]
    rcases only with rfl | rfl
    · exfalso
      have := a4 _ p2
      rw [e1, e2] at this
      have h3 : x / (x + 201) * (100 / (x + 201) * (100 / (x + 201))) = (x * 100 * 100) / (x + 201) ^ 2 / (x + 201) := by field_simp
      rw [h3, div_le_div_iff_of_pos_right hx', one_le_div (by positivity)] at this
      linarith
    · simp [x4]

/-- C90: raising the frequency of a word may remove it from a segmentation: with 中 100 times `Segment` finds 中, 国 and 人 in 中国人, with 中
10000 times it finds 中国人 only. Without rounding. -/
theorem C90_lost : ∃ (d0 d0' d d' : Dictionary EReal EReal) (segs segs' : List Seg),
    runOps {} (adds (peopleEntries 100)) Dictionary.new = some d0 ∧ runOps {} (adds (peopleEntries 10000)) Dictionary.new = some d0' ∧
    calcToken d0 = some d ∧ calcToken d0' = some d' ∧
    internalSegment {} (some d) (zhong ++ guo ++ ren) false = some segs ∧ internalSegment {} (some d') (zhong ++ guo ++ ren) false = some segs' ∧
    segs.map (fun g => (d.deref g.tok).map (·.text)) = [some [zhong], some [guo], some [ren]] ∧
    segs'.map (fun g => (d'.deref g.tok).map (·.text)) = [some [zhong, guo, ren]] := by
  obtain ⟨d0, d, h1, h2, _, segs, h3, h4, _⟩ := people_segment 100 (by norm_num)
  obtain ⟨d0', d', h1', h2', _, segs', h3', _, h4'⟩ := people_segment 10000 (by norm_num)
  exact ⟨d0, d0', d, d', segs, segs', h1, h1', h2, h2', h3, h3', h4 (by norm_num), h4' (by norm_num)⟩

/-- The hypotheses of `C90_raised` hold for 中国人, from 1 to 3, where 中 is stored 10000 times. -/
example : ∃ (pre post : List (Bytes × EReal × Bytes)) (d0 d : Dictionary EReal EReal) (g : Seg),
    runOps {} (adds (pre ++ (zhong ++ guo ++ ren, ((1 : ℝ) : EReal), []) :: post)) Dictionary.new = some d0 ∧ calcToken d0 = some d ∧
    ((pre ++ (zhong ++ guo ++ ren, ((1 : ℝ) : EReal), []) :: post).map fun e => normText {} e.1).Nodup ∧ (∀ e ∈ pre ++ post, Amount e.2.1) ∧
    pre.length + post.length + 2 ≤ Trie.valueLimit ∧ (∀ w t, storedTok d w = some t → t.freq ≠ d.totalFreq) ∧
    internalSegment {} (some d) (zhong ++ guo ++ ren) false = some [g] ∧
    ∃ d0' : Dictionary EReal EReal, runOps {} (adds (pre ++ (zhong ++ guo ++ ren, ((1 + 2 : ℝ) : EReal), []) :: post)) Dictionary.new = some d0' := by
  obtain ⟨d0, d, h1, h2, h3, segs, h4, _, h5⟩ := people_segment 10000 (by norm_num)
  have := congrArg List.length (h5 (by norm_num))
  simp only [List.length_map] at this
  obtain ⟨g, rfl⟩ := List.length_eq_one_iff.1 this
  refine ⟨[(zhong, ((10000 : ℝ) : EReal), []), (guo, ((100 : ℝ) : EReal), []), (ren, ((100 : ℝ) : EReal), [])], [], d0, d, g, h1, h2, people_nodup 10000, ?_,
    by simp [Trie.valueLimit], h3, h4, ⟨_, rfl⟩⟩
  intro e he
  simp only [List.append_nil, List.mem_cons, List.not_mem_nil, or_false] at he
  rcases he with rfl | rfl | rfl
  · exact ⟨10000, by norm_num, rfl⟩
  · exact ⟨100, by norm_num, rfl⟩
  · exact ⟨100, by norm_num, rfl⟩

/-! 人 is not in the dictionary. -/

/-- 中国 with frequency 8, 中 and 国人 with 2. -/
noncomputable def tieEntries (k : ℝ) : List (Bytes × EReal × Bytes) :=
  [(zhong ++ guo, ((k * 8 : ℝ) : EReal), []), (zhong, ((k * 2 : ℝ) : EReal), []), (guo ++ ren, ((k * 2 : ℝ) : EReal), [])]

theorem tie_scale (k : ℝ) : (adds (tieEntries 1)).map (scaleOp k) = adds (tieEntries k) := by
  simp [adds, tieEntries, scaleOp, EReal.coe_mul]

theorem tie_norm : normText {} (zhong ++ guo) = zhong ++ guo ∧ normText {} zhong = zhong ∧ normText {} (guo ++ ren) = guo ++ ren := by
  refine ⟨?_, ?_, ?_⟩ <;> decide +kernel

theorem tie_nodup (k : ℝ) : ((tieEntries k).map fun e => normText {} e.1).Nodup := by
  simp only [tieEntries, List.map_cons, List.map_nil]
  decide +kernel

theorem tie_content (k : ℝ) (w : Bytes) : (absRun {} (adds (tieEntries k))).content w =
    if w = zhong ++ guo then some (((k * 8 : ℝ) : EReal), []) else if w = zhong then some (((k * 2 : ℝ) : EReal), []) else
    if w = guo ++ ren then some (((k * 2 : ℝ) : EReal), []) else none := by
  rw [(adds_run {} _ (tie_nodup k)).1]
  obtain ⟨h1, h2, h3⟩ := tie_norm
  simp only [tieEntries, find_step, h1, h2, h3, List.find?_nil, Option.map_none]

theorem tie_total (k : ℝ) {d : Dictionary EReal EReal} (hr : runOps {} (adds (tieEntries k)) Dictionary.new = some d) :
    d.totalFreq = ((k * 12 : ℝ) : EReal) := by
  rw [(C06_counters {} _ (by simp [adds, tieEntries, Trie.valueLimit]) d hr).2.1, (adds_run {} _ (tie_nodup k)).2]
  simp only [tieEntries, List.map_cons, List.map_nil, List.foldl_cons, List.foldl_nil, F64.add, F64.ofNat]
  norm_cast
  ring

theorem runs_noEng {ps : List (List Rune)} (h : ∀ p ∈ ps, ¬ EngPiece p) {gs : List (List (List Rune))} (hg : IsRuns EngPiece ps gs) :
    (gs.map fun g => encode g.flatten) = ps.map encode := by
  have hk : ∀ g ∈ gs, ∃ x, g = [x] := by
    intro g hgm
    rcases hg.kind g hgm with ⟨x, e, _⟩ | ⟨hne, hall⟩
    · exact ⟨x, e⟩
    · obtain ⟨x, hx⟩ := List.exists_mem_of_ne_nil _ hne
      have : x ∈ ps := by rw [← hg.flat]; exact List.mem_flatten.2 ⟨g, hgm, hx⟩
      exact absurd (hall x hx) (h x this)
  rw [← hg.flat]
  clear hg h
  induction gs with
  | nil => rfl
  | cons g gs ih =>
    obtain ⟨x, rfl⟩ := hk g (by simp)
    simp only [List.map_cons, List.flatten_cons, List.singleton_append]
    rw [ih fun g h => hk g (by simp [h])]
    simp

theorem route_inv {F D : Type} [F64 F] [F32 D] {d : Dictionary F D} {text t : List Rune} {ps : List (List Rune)} (h : IsRoute d text (t :: ps)) :
    ∃ rest, text = t ++ rest ∧ (posWord d t = true ∨ (t.length = 1 ∧ ¬ StartsWord d (t ++ rest))) ∧ IsRoute d rest ps := by
  cases h with
  | cons _ h1 h2 => exact ⟨_, rfl, h1, h2⟩

/-- What `Cut` finds in 中国人. -/
theorem tie_cut (k : ℝ) (hk : 1 ≤ k) (d : Dictionary EReal EReal) (hr : runOps {} (adds (tieEntries k)) Dictionary.new = some d) :
    (k < 2 → cutDAGNoHMM {} d (zhong ++ guo ++ ren) = some [zhong ++ guo, ren]) ∧
    (2 < k → cutDAGNoHMM {} d (zhong ++ guo ++ ren) = some [zhong, guo ++ ren]) := by
  have hf : FreqsExact (adds (tieEntries k)) := by
    intro op hop f hf
    obtain ⟨e, he, rfl⟩ := List.mem_map.1 hop
    simp only [opFreq, Option.some.injEq] at hf
    subst hf
    simp only [tieEntries, List.mem_cons, List.not_mem_nil, or_false] at he
    rcases he with rfl | rfl | rfl
    · exact ⟨k * 8, by positivity, rfl⟩
    · exact ⟨k * 2, by positivity, rfl⟩
    · exact ⟨k * 2, by positivity, rfl⟩
  have hT := tie_total k hr
  have hk0 : 0 < k := by linarith
  have h1 : 1 ≤ d.totalFreq := by rw [hT]; exact_mod_cast (by linarith : 1 ≤ k * 12)
  have cont : ∀ w, (storedTok d w).map (fun t => (t.freq, t.pos)) = (absRun {} (adds (tieEntries k))).content w := fun w =>
    storedTok_content (by simp [adds, tieEntries, Trie.valueLimit]) hr w
  have get : ∀ w f, (absRun {} (adds (tieEntries k))).content w = some (f, []) → ∃ t, storedTok d w = some t ∧ t.freq = f := by
    intro w f h
    have := cont w
    rw [h] at this
    simp only [Option.map_eq_some_iff, Prod.mk.injEq] at this
    obtain ⟨t, h1, h2, _⟩ := this
    exact ⟨t, h1, h2⟩
  have no : ∀ w, (absRun {} (adds (tieEntries k))).content w = none → storedTok d w = none := by
    intro w h
    have := cont w
    rw [h] at this
    simpa using this
  obtain ⟨t1, s1, f1⟩ := get (encode [0x4E2D, 0x56FD]) ((k * 8 : ℝ) : EReal) (by rw [tie_content, if_pos (by decide +kernel)])
  obtain ⟨t2, s2, f2⟩ := get (encode [0x4E2D]) ((k * 2 : ℝ) : EReal) (by rw [tie_content, if_neg (by decide +kernel), if_pos (by decide +kernel)])
  obtain ⟨t3, s3, f3⟩ := get (encode [0x56FD, 0x4EBA]) ((k * 2 : ℝ) : EReal) (by
    rw [tie_content, if_neg (by decide +kernel), if_neg (by decide +kernel), if_pos (by decide +kernel)])
  have o1 : storedTok d (encode [0x56FD]) = none := no _ (by
    rw [tie_content, if_neg (by decide +kernel), if_neg (by decide +kernel), if_neg (by decide +kernel)])
  have o2 : storedTok d (encode [0x4EBA]) = none := no _ (by
    rw [tie_content, if_neg (by decide +kernel), if_neg (by decide +kernel), if_neg (by decide +kernel)])
  have o3 : storedTok d (encode [0x4E2D, 0x56FD, 0x4EBA]) = none := no _ (by
    rw [tie_content, if_neg (by decide +kernel), if_neg (by decide +kernel), if_neg (by decide +kernel)])
  have pos : ∀ t : Token EReal EReal, ∀ f : ℝ, 0 < f → t.freq = (f : EReal) → F64.lt (F64.ofNat 0) t.freq = true := by
    intro t f hf e
    rw [exact_lt_true, e]
    simpa [F64.ofNat] using hf
  have w1 : posWord d [0x4E2D, 0x56FD] = true := by simp only [posWord, s1, Option.any_some]; exact pos t1 _ (by positivity) f1
  have w2 : posWord d [0x4E2D] = true := by simp only [posWord, s2, Option.any_some]; exact pos t2 _ (by positivity) f2
  have w3 : posWord d [0x56FD, 0x4EBA] = true := by simp only [posWord, s3, Option.any_some]; exact pos t3 _ (by positivity) f3
  have n1 : posWord d [0x56FD] = false := by simp only [posWord, o1, Option.any_none]
  have n2 : posWord d [0x4EBA] = false := by simp only [posWord, o2, Option.any_none]
  have n3 : posWord d [0x4E2D, 0x56FD, 0x4EBA] = false := by simp only [posWord, o3, Option.any_none]
  have u2 : ¬ StartsStored d (encode [0x4EBA]) := by
    rintro ⟨w, tok, hw, hp⟩
    have := cont w
    rw [hw, tie_content] at this
    by_cases a1 : w = zhong ++ guo
    · subst a1; revert hp; decide +kernel
    by_cases a2 : w = zhong
    · subst a2; revert hp; decide +kernel
    by_cases a3 : w = guo ++ ren
    · subst a3; revert hp; decide +kernel
    rw [if_neg a1, if_neg a2, if_neg a3] at this
    simp at this
  have htext : dagText {} (zhong ++ guo ++ ren) = [0x4E2D, 0x56FD, 0x4EBA] := by decide +kernel
  have notStart : ¬ StartsWord d [0x4EBA] := by
    rintro ⟨u, hp, hne, hw⟩
    rcases List.prefix_cons_iff.1 hp with rfl | ⟨t, rfl, ht⟩
    · exact hne rfl
    · simp at ht; subst ht
      rw [n2] at hw; cases hw
  have rA : IsRoute d [0x4E2D, 0x56FD, 0x4EBA] [[0x4E2D, 0x56FD], [0x4EBA]] :=
    .cons (t := [0x4E2D, 0x56FD]) (by simp) (.inl w1) (.cons (t := [0x4EBA]) (rest := []) (by simp) (.inr ⟨rfl, by simpa using notStart⟩) .nil)
  have rB : IsRoute d [0x4E2D, 0x56FD, 0x4EBA] [[0x4E2D], [0x56FD, 0x4EBA]] :=
    .cons (t := [0x4E2D]) (by simp) (.inl w2) (.cons (t := [0x56FD, 0x4EBA]) (rest := []) (by simp) (.inl w3) .nil)
  have sh : ∀ t tok (f : ℝ), storedTok d (encode t) = some tok → tok.freq = (f : EReal) → share d t = f / (k * 12) := by
    intro t tok f h1 h2
    unfold share pieceFreq
    rw [h1, hT]
    simp only [h2, EReal.toReal_coe]
  have shu : share d [0x4EBA] = 1 / (k * 12) := by
    unfold share pieceFreq
    rw [o2, hT]
    simp only [if_neg u2, EReal.toReal_coe]
    congr 1
    simp [F64.ofNat]
  have lA : likelihood d [[0x4E2D, 0x56FD], [0x4EBA]] = k * 8 / (k * 12) * (1 / (k * 12)) := by
    simp [likelihood, sh _ _ _ s1 f1, shu]
  have lB : likelihood d [[0x4E2D], [0x56FD, 0x4EBA]] = k * 2 / (k * 12) * (k * 2 / (k * 12)) := by
    simp [likelihood, sh _ _ _ s2 f2, sh _ _ _ s3 f3]
  obtain ⟨ps, gs, a1, a2, a3, a4⟩ := C27_exact {} _ d hr hf h1 (zhong ++ guo ++ ren)
  rw [htext] at a1 a2
  have only : ps = [[0x4E2D, 0x56FD], [0x4EBA]] ∨ ps = [[0x4E2D], [0x56FD, 0x4EBA]] := by
    rcases comp3 (isRoute_flatten a1) (fun x hx => (isRoute_pieces a1 x hx).1) with h | h | h | h
    · exfalso
      subst h
      obtain ⟨rest, e, _, h⟩ := route_inv a1
      simp at e; subst e
      obtain ⟨rest, e, hc, _⟩ := route_inv h
      rw [← e] at hc
      rcases hc with hc | ⟨_, hc⟩
      · rw [n1] at hc; cases hc
      · exact hc ⟨_, List.prefix_refl _, by simp, w3⟩
    · exact .inl h
    · exact .inr h
    · exfalso
      subst h
      obtain ⟨_, _, hc, _⟩ := route_inv a1
      rcases hc with hc | ⟨hc, _⟩
      · rw [n3] at hc; cases hc
      · simp at hc
  have hout : cutDAGNoHMM {} d (zhong ++ guo ++ ren) = some (ps.map encode) := by
    rw [a4, runs_noEng _ a3]
    intro p hp
    rintro ⟨r, e, ha⟩
    rcases only with rfl | rfl
    · simp only [List.mem_cons, List.not_mem_nil, or_false] at hp
      rcases hp with rfl | rfl
      · simp at e
      · simp at e; subst e; revert ha; decide +kernel
    · simp only [List.mem_cons, List.not_mem_nil, or_false] at hp
      rcases hp with rfl | rfl
      · simp at e; subst e; revert ha; decide +kernel
      · simp at e
  have cA : k * 8 / (k * 12) * (1 / (k * 12)) = 8 * k / (k * 12) ^ 2 := by field_simp
  have cB : k * 2 / (k * 12) * (k * 2 / (k * 12)) = 4 * k * k / (k * 12) ^ 2 := by field_simp; ring
  rw [hout]
  constructor
  · intro h
    rcases only with rfl | rfl
    · decide +kernel
    · exfalso
      have := a2 _ rA
      rw [lA, lB, cA, cB, div_le_div_iff_of_pos_right (by positivity)] at this
      nlinarith
  · intro h
    rcases only with rfl | rfl
    · exfalso
      have := a2 _ rB
      rw [lA, lB, cA, cB, div_le_div_iff_of_pos_right (by positivity)] at this
      nlinarith
    · decide +kernel

/-- C90: characters that are not in the dictionary count with frequency 1 whatever the others are multiplied with: with frequencies 8, 2 and 2,
`Cut` finds 中国 and 人 in 中国人, with all of them sixteen times as high it finds 中 and 国人. Without rounding. -/
theorem C90_unknown : ∃ (ops : List (DictOp EReal)) (d d' : Dictionary EReal EReal), runOps {} ops Dictionary.new = some d ∧
    runOps {} (ops.map (scaleOp 16)) Dictionary.new = some d' ∧ FreqsExact ops ∧
    cutDAGNoHMM {} d (zhong ++ guo ++ ren) = some [zhong ++ guo, ren] ∧ cutDAGNoHMM {} d' (zhong ++ guo ++ ren) = some [zhong, guo ++ ren] := by
  obtain ⟨d, h1⟩ : ∃ d : Dictionary EReal EReal, runOps {} (adds (tieEntries 1)) Dictionary.new = some d := ⟨_, rfl⟩
  obtain ⟨d', h2⟩ : ∃ d : Dictionary EReal EReal, runOps {} (adds (tieEntries 16)) Dictionary.new = some d := ⟨_, rfl⟩
  refine ⟨adds (tieEntries 1), d, d', h1, by rw [tie_scale]; exact h2, ?_, (tie_cut 1 (le_refl _) d h1).1 (by norm_num), (tie_cut 16 (by norm_num) d' h2).2 (by norm_num)⟩
  intro op hop f hf
  obtain ⟨e, he, rfl⟩ := List.mem_map.1 hop
  simp only [opFreq, Option.some.injEq] at hf
  subst hf
  simp only [tieEntries, List.mem_cons, List.not_mem_nil, or_false] at he
  rcases he with rfl | rfl | rfl
  · exact ⟨1 * 8, by norm_num, rfl⟩
  · exact ⟨1 * 2, by norm_num, rfl⟩
  · exact ⟨1 * 2, by norm_num, rfl⟩

end examples
end Gse
