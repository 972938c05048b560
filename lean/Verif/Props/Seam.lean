import Verif.Proofs.Seam
import Verif.Props.Exact
import Verif.Props.Pos
import Verif.Props.Output
import Verif.Props.Ieee

/-!
# Cutting a text in two

C87: a text may be cut where no stored word lies across, and the parts be segmented one after the other.
-/

namespace Gse
open Spec

set_option linter.unusedSectionVars false

section
variable {F D : Type} [F64 F] [F32 D] [Narrow F D] [Unicode]

/-- C87: at a seam the words of the text are those of the parts. -/
theorem C87_words (cfg : SplitCfg) (a b : Bytes) (h : IsSeam cfg a b) :
    splitTextToWords cfg (a ++ b) = splitTextToWords cfg a ++ splitTextToWords cfg b := split_seam h

/-- C87: when the word after the seam occurs in no stored word of several pieces, no stored word lies across. -/
theorem C87_separator (d : Dictionary F D) (l r : List Bytes) (c : Bytes) (hc : r.head? = some c)
    (h : ∀ w t, storedTok d w = some t → 2 ≤ t.text.length → c ∉ t.text) : NoSpan d l r := by
  rintro w t hw x y e hx hy ⟨_, z, hz⟩
  have h1 := List.length_pos_iff.2 hx
  obtain ⟨c', y, rfl⟩ := List.exists_cons_of_ne_nil hy
  rw [← hz] at hc
  simp at hc
  subst hc
  exact h w t hw (by rw [e]; simp; omega) (by simp [e])

/-- The segmentation of a text with a seam, as tokens. -/
theorem seam_tokens [UnicodeOK] [F32Laws D] {cfg : SplitCfg} {ops : List (DictOp F)} {d : Dictionary F D}
    (hr : runOps cfg ops Dictionary.new = some d) (hd : PosDist d) {a b : Bytes} (hs : IsSeam cfg a b)
    (hn : NoSpan d (splitTextToWords cfg a) (splitTextToWords cfg b)) :
    ∃ sa rest p q, internalSegment cfg (some d) a false = some sa ∧ internalSegment cfg (some d) (a ++ b) false = some (sa ++ rest) ∧
      IsBest d false (splitTextToWords cfg (a ++ b)) (p ++ q) ∧ wordsOf p = splitTextToWords cfg a ∧ IsSegmentation d (splitTextToWords cfg b) q ∧
      positions d (q.map (refOf d)) a.length = some rest ∧ (q.map (refOf d)).map d.deref = q.map some := by
  have hwf := (Reachable.wf ⟨ops, hr⟩).coh
  obtain ⟨segs, ts, h1, _, h3, h4, h5⟩ := segmentWords_best hwf hd (split_isSplitText cfg (a ++ b)) (sm := false) (by simp)
  obtain ⟨sa, ta, g1, _, g3, g4, g5⟩ := segmentWords_best hwf hd (split_isSplitText cfg a) (sm := false) (by simp)
  have hseg := h5.seg
  rw [split_seam hs] at hseg
  obtain ⟨p, q, rfl, k1, k2⟩ := seg_seam ts _ hseg hn
  have hp := best_prefix h5
  rw [k1.1] at hp
  have e := best_unique false _ p ta hp g5
  subst e
  have hlen : (wordsOf p).flatten.length = a.length := by rw [k1.1, (C01_split_bytes cfg a).1]
  rw [List.map_append] at h4
  have h3' : (q.map (refOf d)).map d.deref = q.map some := by
    simp only [List.map_append] at h3
    exact (List.append_inj h3 (by simp)).2
  rw [positions_append _ _ p g3, g4, Option.bind_some, hlen, Nat.zero_add] at h4
  cases hrest : positions d (q.map (refOf d)) a.length with
  | none => rw [hrest] at h4; cases h4
  | some rest =>
    rw [hrest] at h4
    cases h4
    exact ⟨sa, rest, p, q, by rw [internalSegment_eq, g1], by rw [internalSegment_eq, h1], h5, k1.1, k2, hrest, h3'⟩

/-- C87: what comes after a seam has no influence on the segments before it, in any arithmetic that satisfies the laws. -/
theorem C87_segment [UnicodeOK] [F32Laws D] (cfg : SplitCfg) (ops : List (DictOp F)) (d : Dictionary F D)
    (hr : runOps cfg ops Dictionary.new = some d) (hd : PosDist d) (a b : Bytes) (hs : IsSeam cfg a b)
    (hn : NoSpan d (splitTextToWords cfg a) (splitTextToWords cfg b)) :
    ∃ sa rest, internalSegment cfg (some d) a false = some sa ∧ internalSegment cfg (some d) (a ++ b) false = some (sa ++ rest) ∧
      Tiles a.length (a.length + b.length) rest := by
  obtain ⟨sa, rest, p, q, h1, h2, h3, h4, h5, h6, h7⟩ := seam_tokens hr hd hs hn
  refine ⟨sa, rest, h1, h2, ?_⟩
  have hwf := (Reachable.wf ⟨ops, hr⟩).coh
  obtain ⟨segs, g1, _, g3, _⟩ := positions_spec (q.map (refOf d)) q h7 (by
    intro t ht
    have hne := (h5.2 t ht).1
    obtain ⟨w, hw⟩ := List.exists_mem_of_ne_nil _ hne
    have hm : w ∈ splitTextToWords cfg b := by
      rw [← h5.1]
      exact List.mem_flatten.2 ⟨t.text, List.mem_map_of_mem ht, hw⟩
    have := split_ne_nil cfg b w hm
    intro h0
    exact this (List.flatten_eq_nil_iff.1 h0 w hw)) a.length
  rw [h6] at g1
  cases g1
  rwa [h5.1, (C01_split_bytes cfg b).1] at g3

/-- C87: without rounding the text is segmented as its parts are: `Segment(a + b)` is `Segment(a)` followed by `Segment(b)` moved to its place. -/
theorem C87_exact [UnicodeOK] [F32Laws D] [F32Shift D] (cfg : SplitCfg) (ops : List (DictOp F)) (d : Dictionary F D)
    (hr : runOps cfg ops Dictionary.new = some d) (hd : PosDist d) (a b : Bytes) (hs : IsSeam cfg a b)
    (hn : NoSpan d (splitTextToWords cfg a) (splitTextToWords cfg b))
    (ha : FinDist d (splitTextToWords cfg a)) (hb : FinDist d (splitTextToWords cfg b)) :
    ∃ sa sb, internalSegment cfg (some d) a false = some sa ∧ internalSegment cfg (some d) b false = some sb ∧
      internalSegment cfg (some d) (a ++ b) false = some (sa ++ sb.map (shiftSeg a.length)) := by
  obtain ⟨sa, rest, p, q, h1, h2, h3, h4, h5, h6, _⟩ := seam_tokens hr hd hs hn
  have hwf := (Reachable.wf ⟨ops, hr⟩).coh
  obtain ⟨sb, tb, g1, _, _, g4, g5⟩ := segmentWords_best hwf hd (split_isSplitText cfg b) (sm := false) (by simp)
  have hq := best_suffix (by rw [h4]; exact ha) (by rw [h5.1]; exact hb) h3
  rw [h5.1] at hq
  have e := best_unique false _ q tb hq g5
  subst e
  refine ⟨sa, sb, h1, by rw [internalSegment_eq, g1], ?_⟩
  have := positions_shift (d := d) a.length (q.map (refOf d)) 0
  rw [Nat.zero_add, h6, g4] at this
  cases this
  exact h2

theorem concatOpt_two {β : Type} (f : Seg → Option (List β)) : ∀ (x y : List Seg) {o1 o2 : List β},
    concatOpt f x = some o1 → concatOpt f y = some o2 → concatOpt f (x ++ y) = some (o1 ++ o2)
  | [], y, o1, o2, h1, h2 => by cases h1; simpa using h2
  | s :: x, y, o1, o2, h1, h2 => by
    simp only [concatOpt, List.cons_append] at h1 ⊢
    cases hf : f s with
    | none => rw [hf] at h1; cases h1
    | some o =>
      rw [hf] at h1
      obtain ⟨o', e1, rfl⟩ := Option.map_eq_some_iff.1 h1
      simp [concatOpt_two f x y e1 h2]

theorem concatOpt_shift {β : Type} (g : TokRef → Option (List β)) (n : Nat) : ∀ (x : List Seg),
    concatOpt (fun s => g s.tok) (x.map (shiftSeg n)) = concatOpt (fun s => g s.tok) x
  | [] => rfl
  | s :: x => by simp only [List.map_cons, concatOpt, concatOpt_shift g n x, shiftSeg]

/-- C87: so `Slice(a + b)` and `Cut(a + b)` are the slices of the parts, one after the other. -/
theorem C87_slice [UnicodeOK] [F32Laws D] [F32Shift D] (cfg : SplitCfg) (ops : List (DictOp F)) (d : Dictionary F D)
    (hr : runOps cfg ops Dictionary.new = some d) (hd : PosDist d) (a b : Bytes) (hs : IsSeam cfg a b)
    (hn : NoSpan d (splitTextToWords cfg a) (splitTextToWords cfg b))
    (ha : FinDist d (splitTextToWords cfg a)) (hb : FinDist d (splitTextToWords cfg b)) :
    ∃ oa ob, ∀ fuel, (splitTextToWords cfg (a ++ b)).length < fuel → segSlice cfg d fuel a false = some oa ∧ segSlice cfg d fuel b false = some ob ∧
      segSlice cfg d fuel (a ++ b) false = some (oa ++ ob) := by
  obtain ⟨sa, sb, h1, h2, h3⟩ := C87_exact cfg ops d hr hd a b hs hn ha hb
  obtain ⟨pa, ga⟩ := C16_output_total cfg ops d hr a false
  obtain ⟨pb, gb⟩ := C16_output_total cfg ops d hr b false
  refine ⟨pa.map (·.text), pb.map (·.text), fun fuel hf => ?_⟩
  rw [split_seam hs, List.length_append] at hf
  have ka := (ga fuel (by omega)).2.1
  have kb := (gb fuel (by omega)).2.1
  refine ⟨ka, kb, ?_⟩
  simp only [segSlice, h1, h2, h3, Option.bind_some, toSlice, Bool.false_eq_true, if_false] at ka kb ⊢
  refine concatOpt_two _ _ _ ka ?_
  rw [concatOpt_shift (fun r => (d.deref r).bind fun t => (textSliceToString t.text).map fun x => [x])]
  exact kb

/-- C87: with a seam inside, search mode segments the text as normal mode does. -/
theorem C87_mode [UnicodeOK] [F32Laws D] (cfg : SplitCfg) (ops : List (DictOp F)) (d : Dictionary F D)
    (hr : runOps cfg ops Dictionary.new = some d) (hd : PosDist d) (a b : Bytes) (ha : a ≠ []) (hb : b ≠ []) (hs : IsSeam cfg a b)
    (hn : NoSpan d (splitTextToWords cfg a) (splitTextToWords cfg b)) :
    internalSegment cfg (some d) (a ++ b) true = internalSegment cfg (some d) (a ++ b) false := by
  have hwf := (Reachable.wf ⟨ops, hr⟩).coh
  have ne : ∀ s : Bytes, s ≠ [] → splitTextToWords cfg s ≠ [] := by
    intro s h1 h2
    have := (C01_split_bytes cfg s).1
    rw [h2] at this
    exact h1 (List.length_eq_zero_iff.1 (by simpa using this.symm))
  have na := ne a ha
  have nb := ne b hb
  have l1 := List.length_pos_iff.2 na
  have l2 := List.length_pos_iff.2 nb
  obtain ⟨s1, t1, g1, _, _, g4, g5⟩ := segmentWords_best hwf hd (split_isSplitText cfg (a ++ b)) (sm := true) (by
    rw [split_seam hs]; simp; omega)
  obtain ⟨s2, t2, k1, _, _, k4, k5⟩ := segmentWords_best hwf hd (split_isSplitText cfg (a ++ b)) (sm := false) (by simp)
  have g5' : IsBest d false (splitTextToWords cfg (a ++ b)) t1 := by
    rw [split_seam hs] at g5 ⊢
    exact best_two na nb hn g5
  have e := best_unique false _ t1 t2 g5' k5
  subst e
  rw [internalSegment_eq, internalSegment_eq, g1, k1, ← g4, ← k4]

/-! ### DAG cuts -/

theorem dagText_seam (cfg : SplitCfg) (a b : Bytes) (h : BeginsChar b) : dagText cfg (a ++ b) = dagText cfg a ++ dagText cfg b := by
  unfold dagText
  rw [runes_append_start a b (beginsChar_cont h)]
  split <;> simp

/-- C87: when the character after the seam occurs in no stored word of several characters, no stored word lies across. -/
theorem C87_separator_runes (d : Dictionary F D) (l r : List Rune) (c : Rune) (hc : r.head? = some c)
    (h : ∀ u, posWord d u = true → 2 ≤ u.length → c ∉ u) : NoSpanRunes d l r := by
  rintro x y hx hy _ ⟨z, hz⟩
  have h1 := List.length_pos_iff.2 hx
  obtain ⟨c', y, rfl⟩ := List.exists_cons_of_ne_nil hy
  rw [← hz] at hc
  simp at hc
  subst hc
  cases hp : posWord d (x ++ c' :: y) with
  | false => rfl
  | true => exact absurd (by simp) (h _ hp (by simp; omega))

/-- What `Cut(str, false)` does, in terms of the best route. -/
theorem cut_route [UnicodeOK] [F64Laws F] {cfg : SplitCfg} {ops : List (DictOp F)} {d : Dictionary F D}
    (hr : runOps cfg ops Dictionary.new = some d) (hg : GoodScores d) (s : Bytes) :
    ∃ ps, IsBestRoute d (dagText cfg s) ps ∧ cutDAGNoHMM cfg d s = some (noHmmLoop ps []) := by
  obtain ⟨R, h1, h2⟩ := calcRoutes_eq (idxOK_of_run hr) (dagRunes cfg s)
  obtain ⟨ps, e1, e2⟩ := walk_best (scoreLaws_of_good hg _) h2 (dagRunes cfg s).length 0 (by omega) (by omega)
  refine ⟨ps, by rw [← dagRunes_eq]; simpa using e2, ?_⟩
  unfold cutDAGNoHMM
  simp only [h1, e1, Option.map_some]

theorem seam_routes [UnicodeOK] [F64Laws F] {cfg : SplitCfg} {ops : List (DictOp F)} {d : Dictionary F D}
    (hr : runOps cfg ops Dictionary.new = some d) (hg : GoodScores d) {a b : Bytes} (hb : BeginsChar b)
    (hn : NoSpanRunes d (dagText cfg a) (dagText cfg b)) (he : NoEngSeam (dagText cfg a) (dagText cfg b)) :
    ∃ p q, IsBestRoute d (dagText cfg a ++ dagText cfg b) (p ++ q) ∧ IsRoute d (dagText cfg a) p ∧ IsBestRoute d (dagText cfg b) q ∧
      cutDAGNoHMM cfg d (a ++ b) = some (noHmmLoop p [] ++ noHmmLoop q []) := by
  obtain ⟨ps, h1, h2⟩ := cut_route hr hg (a ++ b)
  rw [dagText_seam cfg a b hb] at h1
  obtain ⟨p, q, rfl, g1, g2⟩ := route_seam ps _ h1.route hn
  have f2 := isRoute_flatten g2
  have hq := best_route_suffix h1 (by rw [f2]; exact g2)
  rw [f2] at hq
  refine ⟨p, q, h1, g1, hq, ?_⟩
  rw [h2, noHmmLoop_seam]
  intro f hf hef
  refine ⟨fun _ => rfl, fun g hgl => ?_⟩
  cases hge : engFrag g with
  | false => rfl
  | true =>
    obtain ⟨x, rfl, hx⟩ := (engFrag_iff g).1 hge
    obtain ⟨y, rfl, hy⟩ := (engFrag_iff f).1 hef
    refine absurd ⟨hx, hy⟩ (he x y ?_ ?_)
    · rw [← isRoute_flatten g1]
      obtain ⟨p', rfl⟩ : ∃ p', p = p' ++ [[x]] := ⟨_, (List.dropLast_append_getLast? _ hgl).symm⟩
      simp
    · rw [← f2]
      cases q with
      | nil => simp at hf
      | cons z q => simp at hf; subst hf; simp

/-- C87: what comes before a seam has no influence on what `Cut(str, false)` makes of the text after it, in any arithmetic that satisfies
the laws. -/
theorem C87_cut [UnicodeOK] [F64Laws F] (cfg : SplitCfg) (ops : List (DictOp F)) (d : Dictionary F D)
    (hr : runOps cfg ops Dictionary.new = some d) (hg : GoodScores d) (a b : Bytes) (hb : BeginsChar b)
    (hn : NoSpanRunes d (dagText cfg a) (dagText cfg b)) (he : NoEngSeam (dagText cfg a) (dagText cfg b)) :
    ∃ x y, cutDAGNoHMM cfg d b = some y ∧ cutDAGNoHMM cfg d (a ++ b) = some (x ++ y) ∧ x.flatten = encode (dagText cfg a) := by
  obtain ⟨p, q, _, h2, h3, h4⟩ := seam_routes hr hg hb hn he
  obtain ⟨qs, g1, g2⟩ := cut_route hr hg b
  have e := best_route_unique _ q qs h3 g1
  subst e
  refine ⟨_, _, g2, h4, ?_⟩
  obtain ⟨gs, k1, k2⟩ := noHmmLoop_runs p [] (by simp)
  have : noHmmLoop p [] = gs.map fun g => encode g.flatten := by rw [← k2]; rfl
  have hp : p = gs.flatten := by rw [k1.flat]; rfl
  rw [this, ← isRoute_flatten h2, hp]
  clear hp h2 h4 this k1 k2
  induction gs with
  | nil => rfl
  | cons g gs ih => simp [ih, encode_append]

/-- C87: without rounding, and when no piece has the score of a word of frequency zero, `Cut(a + b, false)` is `Cut(a, false)` followed by
`Cut(b, false)`. -/
theorem C87_cut_exact [UnicodeOK] [F64Laws F] [F64Shift F] (cfg : SplitCfg) (ops : List (DictOp F)) (d : Dictionary F D)
    (hr : runOps cfg ops Dictionary.new = some d) (hg : GoodScores d) (a b : Bytes) (hb : BeginsChar b)
    (hn : NoSpanRunes d (dagText cfg a) (dagText cfg b)) (he : NoEngSeam (dagText cfg a) (dagText cfg b))
    (fa : FinScores d (dagText cfg a)) (fb : FinScores d (dagText cfg b)) :
    ∃ x y, cutDAGNoHMM cfg d a = some x ∧ cutDAGNoHMM cfg d b = some y ∧ cutDAGNoHMM cfg d (a ++ b) = some (x ++ y) := by
  obtain ⟨p, q, h1, h2, h3, h4⟩ := seam_routes hr hg hb hn he
  obtain ⟨ps, k1, k2⟩ := cut_route hr hg a
  obtain ⟨qs, g1, g2⟩ := cut_route hr hg b
  have e := best_route_unique _ q qs h3 g1
  subst e
  have e := best_route_unique _ p ps (best_route_prefix fa fb hn h2 h3.route h1) k1
  subst e
  exact ⟨_, _, k2, g2, h4⟩

/-- C87: `CutAll` of a text with a seam is `CutAll` of the parts, in any arithmetic. -/
theorem C87_cutAll [UnicodeOK] (cfg : SplitCfg) (ops : List (DictOp F)) (d : Dictionary F D)
    (hr : runOps cfg ops Dictionary.new = some d) (a b : Bytes) (hb : BeginsChar b)
    (hn : NoSpanRunes d (dagText cfg a) (dagText cfg b)) :
    ∃ x y, cutAll cfg d a = some x ∧ cutAll cfg d b = some y ∧ cutAll cfg d (a ++ b) = some (x ++ y) := by
  have hi := idxOK_of_run hr
  refine ⟨_, _, cutAll_eq hi cfg a, cutAll_eq hi cfg b, ?_⟩
  rw [cutAll_eq hi, dagRunes_eq, dagRunes_eq, dagRunes_eq, dagText_seam cfg a b hb,
    itemsFrom_seam hn (dagText cfg a).length 0 0 (by omega) (by omega) (by omega), List.map_append, List.map_map]
  congr 2
  · apply List.map_congr_left
    intro x hx
    rw [slice_left _ _ _ _ (items_mem _ 0 0 (Nat.le_refl _) x hx).2.2]
  · apply List.map_congr_left
    intro x _
    simp only [Function.comp, movePair]
    rw [slice_right]

end

/-! ### IEEE arithmetic -/

section ieee
variable {M : MathFns} [Unicode]

/-- C87: with IEEE arithmetic what comes after a seam has no influence on the segments before it. -/
theorem C87_ieee [UnicodeOK] (hlog : LogLike M.log2) (cfg : SplitCfg) (ops : List (DictOp (Binary64 M))) (d0 d : Dictionary (Binary64 M) Binary32)
    (hr : runOps cfg ops Dictionary.new = some d0) (hf : FreqsNonNeg ops) (hfin : d0.totalFreq.datum.IsFin)
    (hpos : F64.lt (F64.ofNat 0) d0.totalFreq = true) (hc : calcToken d0 = some d)
    (hz : ∀ w t, storedTok d w = some t → F32.isZero t.distance = false) (a b : Bytes) (hs : IsSeam cfg a b)
    (hn : NoSpan d (splitTextToWords cfg a) (splitTextToWords cfg b)) :
    ∃ sa rest, internalSegment cfg (some d) a false = some sa ∧ internalSegment cfg (some d) (a ++ b) false = some (sa ++ rest) ∧
      Tiles a.length (a.length + b.length) rest := by
  have hr' : runOps cfg (ops ++ [.recalc]) Dictionary.new = some d := by rw [runOps_append, hr]; simpa [runOps, DictOp.step] using hc
  exact C87_segment cfg _ d hr' (posDist_ieee hlog cfg ops d0 d hr hf hfin hpos hc hz) a b hs hn

/-- C87: with IEEE arithmetic what comes before a seam has no influence on what `Cut(str, false)` makes of the text after it. -/
theorem C87_cut_ieee [UnicodeOK] (hlog : LogLike M.log) (cfg : SplitCfg) (ops : List (DictOp (Binary64 M))) (d : Dictionary (Binary64 M) Binary32)
    (hr : runOps cfg ops Dictionary.new = some d) (hf : FreqsNonNeg ops) (hfin : d.totalFreq.datum.IsFin)
    (h1 : F64.lt d.totalFreq (F64.ofNat 1) = false) (a b : Bytes) (hb : BeginsChar b)
    (hn : NoSpanRunes d (dagText cfg a) (dagText cfg b)) (he : NoEngSeam (dagText cfg a) (dagText cfg b)) :
    ∃ x y, cutDAGNoHMM cfg d b = some y ∧ cutDAGNoHMM cfg d (a ++ b) = some (x ++ y) ∧ x.flatten = encode (dagText cfg a) :=
  C87_cut cfg ops d hr (goodScores_ieee hlog cfg ops d hr hf hfin h1) a b hb hn he

end ieee

/-! ### Exact arithmetic -/

section exact

/-- The distances without rounding satisfy the laws of C87. -/
noncomputable instance exactShift32 : F32Shift EReal where
  fin x := ∃ r : ℝ, x = (r : EReal)
  fin_zero := ⟨0, by simp [F32.zero]⟩
  fin_c32 := ⟨32, rfl⟩
  fin_add := by rintro _ _ ⟨a, rfl⟩ ⟨b, rfl⟩; exact ⟨a + b, (EReal.coe_add a b).symm⟩
  add_zero := by intro a _; simp [F32.add, F32.zero]
  zero_add := by intro a _; simp [F32.add, F32.zero]
  add_assoc := by intro a b c _ _ _; simp only [F32.add]; exact _root_.add_assoc a b c
  gt_add := by
    rintro _ _ _ ⟨a, rfl⟩ ⟨b, rfl⟩ ⟨c, rfl⟩
    simp only [F32.gt, F32.add, ← EReal.coe_add, EReal.coe_lt_coe_iff, add_lt_add_iff_left]

/-- The scores without rounding satisfy the laws of C87. -/
noncomputable instance exactShift64 [ParseFn] : F64Shift EReal where
  fin x := ∃ r : ℝ, x = (r : EReal)
  fin_zero := ⟨0, by simp [F64.ofNat]⟩
  fin_add := by rintro _ _ ⟨a, rfl⟩ ⟨b, rfl⟩; exact ⟨a + b, (EReal.coe_add a b).symm⟩
  add_zero := by intro a _; simp [F64.add, F64.ofNat]
  zero_add := by intro a _; simp [F64.add, F64.ofNat]
  add_assoc := by intro a b c _ _ _; simp only [F64.add]; exact _root_.add_assoc a b c
  lt_add := by
    rintro _ _ _ ⟨a, rfl⟩ ⟨b, rfl⟩ ⟨c, rfl⟩
    simp only [F64.lt, F64.add, ← EReal.coe_add, EReal.coe_lt_coe_iff, add_lt_add_iff_right]

end exact

/-! ### Examples -/

section examples
attribute [local instance] sampleUnicode sampleUnicodeOK sampleF64 sampleF32 sampleNarrow sampleLaws sampleLaws64

@[instance_reducible] def sampleShift32 : F32Shift Int where
  fin _ := True
  fin_zero := trivial
  fin_c32 := trivial
  fin_add _ _ := trivial
  add_zero := by intro a _; simp [F32.add, F32.zero]
  zero_add := by intro a _; simp [F32.add, F32.zero]
  add_assoc := by intro a b c _ _ _; simp only [F32.add]; omega
  gt_add := by intro a b c _ _ _; simp [F32.gt, F32.add]

@[instance_reducible] def sampleShift64 : F64Shift Int where
  fin _ := True
  fin_zero := trivial
  fin_add _ _ := trivial
  add_zero := by intro a _; simp [F64.add, F64.ofNat]
  zero_add := by intro a _; simp [F64.add, F64.ofNat]
  add_assoc := by intro a b c _ _ _; simp only [F64.add]; omega
  lt_add := by intro a b c _ _ _; simp [F64.lt, F64.add]

attribute [local instance] sampleShift32 sampleShift64

/-- No stored token of several words contains the separator: checked over the tokens. -/
theorem noSpan_check {d : Dictionary Int Int} {l r : List Bytes} {c : Bytes} (hc : r.head? = some c)
    (h : (d.tokens.all fun t => decide (t.text.length < 2) || !t.text.contains c) = true) : NoSpan d l r := by
  refine C87_separator d l r c hc ?_
  intro w t ht hl hm
  obtain ⟨v, _, hv⟩ := Option.bind_eq_some_iff.1 ht
  have := List.all_eq_true.1 h t (List.mem_of_getElem? hv)
  simp at this
  rcases this with h1 | h1
  · omega
  · exact h1 hm

/-- The words of `segOps` cannot lie across a line feed: C87 applies to "ab c" and a second line. -/
example : ∀ d, runOps (D := Int) {} segOps Dictionary.new = some d →
    IsSeam {} (str "AB c") (str "\nab") ∧ NoSpan d (splitTextToWords {} (str "AB c")) (splitTextToWords {} (str "\nab")) ∧
    FinDist d (splitTextToWords {} (str "AB c")) ∧ FinDist d (splitTextToWords {} (str "\nab")) := by
  intro d h
  refine ⟨⟨?_, ?_⟩, ?_, fun _ _ _ _ => trivial, fun _ _ _ _ => trivial⟩
  · intro c hc
    have : c = 10 := by simpa [str] using hc.symm
    subst this; decide
  · rintro _ u v hu hv ⟨_, h2⟩
    have e : (chars (str "\nab")).head? = some (str "\n") := by decide +kernel
    rw [e] at hv
    cases hv
    revert h2; decide +kernel
  · refine noSpan_check (c := str "\n") (by decide +kernel) ?_
    have : ((runOps (D := Int) {} segOps Dictionary.new).map fun d => d.tokens.all fun t => decide (t.text.length < 2) || !t.text.contains (str "\n")) =
        some true := by decide +kernel
    rw [h] at this
    simpa using this
example : segText {} segOps (str "AB c\nab") false = some [(0, 4, str "ab c"), (4, 5, str "\n"), (5, 7, str "ab")] ∧
    segText {} segOps (str "AB c") false = some [(0, 4, str "ab c")] ∧
    segText {} segOps (str "\nab") false = some [(0, 1, str "\n"), (1, 3, str "ab")] := by
  refine ⟨?_, ?_, ?_⟩ <;> decide +kernel

/-- A stored word across the seam is another matter: "ab c" cut before its last letter. -/
example : segText {} segOps (str "ab ") false = some [(0, 2, str "ab"), (2, 3, str " ")] ∧
    segText {} segOps (str "ab c") false = some [(0, 4, str "ab c")] := by
  refine ⟨?_, ?_⟩ <;> decide +kernel

/-- The DAG cuts of two lines. -/
example : BeginsChar (str "\nabcd") ∧ NoEngSeam (dagText {} (str "abc")) (dagText {} (str "\nabcd")) ∧
    cutDAGNoHMM {} dagDict (str "abc\nabcd") = some [str "abc", str "\n", str "ab", str "cd"] ∧
    cutDAGNoHMM {} dagDict (str "abc") = some [str "abc"] ∧ cutDAGNoHMM {} dagDict (str "\nabcd") = some [str "\n", str "ab", str "cd"] ∧
    cutAll {} dagDict (str "abc\nabcd") = some [str "ab", str "abc", str "\n", str "ab", str "abc", str "cd"] := by
  refine ⟨?_, ?_, ?_, ?_, ?_, ?_⟩
  · intro c hc
    have : c = 10 := by simpa [str] using hc.symm
    subst this; decide
  · rintro x y _ hy ⟨_, h2⟩
    have e : (dagText {} (str "\nabcd")).head? = some 10 := by decide +kernel
    rw [e] at hy
    cases hy
    revert h2; decide +kernel
  all_goals decide +kernel

/-- No stored word contains a line feed, so none lies across it. -/
example : ∀ l r, r.head? = some 10 → NoSpanRunes dagDict l r := by
  intro l r hr
  refine C87_separator_runes dagDict l r 10 hr ?_
  · intro u hpw _ hc
    obtain ⟨x, y, rfl⟩ := List.append_of_mem hc
    unfold posWord at hpw
    obtain ⟨tok, ht, _⟩ := (Option.any_eq_true _ _).1 hpw
    have hw : tok.text.flatten = encode (x ++ 10 :: y) := by
      obtain ⟨v, h1, h2⟩ := Option.bind_eq_some_iff.1 ht
      obtain ⟨t', e1, e2⟩ := (Reachable.wf ⟨dagOps, dagDict_run⟩).entry _ _ h1
      rw [h2] at e1; cases e1; exact e2
    obtain ⟨v, _, hv⟩ := Option.bind_eq_some_iff.1 ht
    have hall : (dagDict.tokens.all fun t => !t.text.flatten.contains 10) = true := by decide +kernel
    have := List.all_eq_true.1 hall tok (List.mem_of_getElem? hv)
    rw [hw] at this
    simp [encode, encodeRune] at this

end examples

/-! ### Infinite distances and scores -/

section infinite

/-- Distances with `+Inf` (`none`). -/
@[instance_reducible] def infF32 : F32 (Option Int) where
  zero := some 0
  c32 := some 32
  add a b := a.bind fun x => b.map fun y => x + y
  sub a b := a.bind fun x => b.map fun y => x - y
  isZero a := decide (a = some 0)
  gt a b := (b.map fun y => (a.map fun x => decide (y < x)).getD true).getD false
  isZero_zero := rfl

@[instance_reducible] def infNarrow32 : @Narrow (Option Int) (Option Int) := ⟨id⟩

attribute [local instance] sampleUnicode sampleUnicodeOK infF64 infF32 infNarrow32 infLaws

@[instance_reducible] def infLaws32 : F32Laws (Option Int) where
  good a := ∀ x, a = some x → 0 ≤ x
  good_zero := by rintro x ⟨⟩; decide
  good_c32 := by rintro x ⟨⟩; decide
  pos_c32 := rfl
  good_add := by
    intro a b h1 h2
    cases a <;> cases b <;> simp [F32.add] at *
    omega
  gt_asymm := by intro a b _ _; cases a <;> cases b <;> simp [F32.gt]; omega
  gt_cotrans := by intro a b c _ _ _; cases a <;> cases b <;> cases c <;> simp [F32.gt]; omega
  add_mono := by intro a b c _ _ _; cases a <;> cases b <;> cases c <;> simp [F32.gt, F32.add]
  add_pos := by intro a b h _; cases a <;> cases b <;> simp [F32.gt, F32.add, F32.zero] at *; omega
  isZero_pos := by intro a _; cases a <;> simp [F32.gt, F32.isZero, F32.zero]; omega

attribute [local instance] infLaws32

/-- U+4E00 of frequency zero, U+4E01 and U+4E02 common, both together rare. -/
def infOps : List (DictOp (Option Int)) :=
  [.add (encode [0x4E00]) (some 0) [], .add (encode [0x4E01]) (some 2000) [], .add (encode [0x4E02]) (some 2000) [],
   .add (encode [0x4E01, 0x4E02]) (some 2) [], .recalc]

def infSegs (s : Bytes) : Option (List (Nat × Nat)) :=
  (runOps (D := Option Int) {} infOps Dictionary.new).bind fun d => (internalSegment {} (some d) s false).map fun segs => segs.map fun g => (g.start, g.stop)

/-- C87: `Segment(b)` alone is not what `Segment(a + b)` makes of `b` when a word of frequency zero was met in `a`: its distance is infinite,
and from then on the longest word is taken. No stored word lies across the seam. -/
theorem C87_infinite : ∃ (d : Dictionary (Option Int) (Option Int)) (a b : Bytes) (sa sb sab : List Seg),
    runOps {} infOps Dictionary.new = some d ∧ PosDist d ∧ IsSeam {} a b ∧ NoSpan d (splitTextToWords {} a) (splitTextToWords {} b) ∧
    internalSegment {} (some d) a false = some sa ∧ internalSegment {} (some d) b false = some sb ∧
    internalSegment {} (some d) (a ++ b) false = some sab ∧ sa.length = 1 ∧ sb.length = 2 ∧ sab.length = 2 := by
  have hrun : (runOps (D := Option Int) {} infOps Dictionary.new).isSome = true := by decide +kernel
  obtain ⟨d, hd⟩ := Option.isSome_iff_exists.1 hrun
  have tok : ∀ {w t}, storedTok d w = some t → t ∈ d.tokens := by
    intro w t ht
    obtain ⟨v, _, hv⟩ := Option.bind_eq_some_iff.1 ht
    exact List.mem_of_getElem? hv
  have ha : infSegs (encode [0x4E00]) = some [(0, 3)] := by decide +kernel
  have hb : infSegs (encode [0x4E01, 0x4E02]) = some [(0, 3), (3, 6)] := by decide +kernel
  have hab : infSegs (encode [0x4E00] ++ encode [0x4E01, 0x4E02]) = some [(0, 3), (3, 9)] := by decide +kernel
  simp only [infSegs, hd, Option.bind_some] at ha hb hab
  obtain ⟨sa, ea, la⟩ := Option.map_eq_some_iff.1 ha
  obtain ⟨sb, eb, lb⟩ := Option.map_eq_some_iff.1 hb
  obtain ⟨sab, eab, lab⟩ := Option.map_eq_some_iff.1 hab
  refine ⟨d, _, _, sa, sb, sab, hd, ?_, ⟨?_, ?_⟩, ?_, ea, eb, eab, ?_, ?_, ?_⟩
  · intro w t ht
    have h1 : ((runOps (D := Option Int) {} infOps Dictionary.new).map fun d => d.tokens.all fun t => (t.distance.map fun x => decide (0 < x)).getD true) =
        some true := by decide +kernel
    rw [hd] at h1
    have h2 := List.all_eq_true.1 (Option.some.inj h1) t (tok ht)
    cases hx : t.distance with
    | none => exact ⟨by rintro x ⟨⟩, rfl⟩
    | some x =>
      rw [hx] at h2
      simp at h2
      exact ⟨by rintro _ ⟨⟩; omega, by simpa [F32.gt, F32.zero] using h2⟩
  · intro c hc
    have e : (encode [0x4E01, 0x4E02]).head? = some 0xE4 := by decide +kernel
    rw [e] at hc; cases hc
    decide
  · rintro _ u v hu hv ⟨_, h2⟩
    have e : (chars (encode [0x4E01, 0x4E02])).head? = some (encode [0x4E01]) := by decide +kernel
    rw [e] at hv; cases hv
    revert h2; decide +kernel
  · rintro w t ht x y e hx hy ⟨h1, h2⟩
    have h3 : ((runOps (D := Option Int) {} infOps Dictionary.new).map fun d => d.tokens.all fun t => decide (t.text.length < 2) || !t.text.contains (encode [0x4E00])) =
        some true := by decide +kernel
    rw [hd] at h3
    have h4 := List.all_eq_true.1 (Option.some.inj h3) t (tok ht)
    have ews : splitTextToWords {} (encode [0x4E00]) = [encode [0x4E00]] := by decide +kernel
    rw [ews] at h1
    have hxe : x = [encode [0x4E00]] := by
      rcases List.suffix_cons_iff.1 h1 with h | h
      · exact h
      · exact absurd (List.suffix_nil.1 h) hx
    have := List.length_pos_iff.2 hy
    rw [e, hxe] at h4
    simp at h4
    rw [List.length_pos_iff] at this
    exact this h4
  · rw [← List.length_map (f := fun g : Seg => (g.start, g.stop)), la]; rfl
  · rw [← List.length_map (f := fun g : Seg => (g.start, g.stop)), lb]; rfl
  · rw [← List.length_map (f := fun g : Seg => (g.start, g.stop)), lab]; rfl

/-- U+4E01 and U+4E02 common, both together rare; U+4E00 begins a word and is none itself. -/
def infCutOps : List (DictOp (Option Int)) :=
  [.add (encode [0x4E01]) (some 2000) [], .add (encode [0x4E02]) (some 2000) [], .add (encode [0x4E01, 0x4E02]) (some 2) [],
   .add (encode [0x4E00, 0x4E05]) (some 100) []]

/-- C87: nor is `Cut(a, false)` alone what `Cut(a + b, false)` makes of `a` when `b` has a character that only begins stored words: its score is
`-Inf`, and to the left of it the longest word is taken. -/
theorem C87_cut_infinite : ∃ d : Dictionary (Option Int) (Option Int), runOps {} infCutOps Dictionary.new = some d ∧ GoodScores d ∧
    cutDAGNoHMM {} d (encode [0x4E01, 0x4E02]) = some [encode [0x4E01], encode [0x4E02]] ∧
    cutDAGNoHMM {} d (encode [0x4E00]) = some [encode [0x4E00]] ∧
    cutDAGNoHMM {} d (encode [0x4E01, 0x4E02] ++ encode [0x4E00]) = some [encode [0x4E01, 0x4E02], encode [0x4E00]] ∧
    NoEngSeam (dagText {} (encode [0x4E01, 0x4E02])) (dagText {} (encode [0x4E00])) ∧
    NoSpanRunes d (dagText {} (encode [0x4E01, 0x4E02])) (dagText {} (encode [0x4E00])) := by
  have hrun : (runOps (D := Option Int) {} infCutOps Dictionary.new).isSome = true := by decide +kernel
  obtain ⟨d, hd⟩ := Option.isSome_iff_exists.1 hrun
  have key : ((runOps (D := Option Int) {} infCutOps Dictionary.new).map fun d =>
      (cutDAGNoHMM {} d (encode [0x4E01, 0x4E02]), cutDAGNoHMM {} d (encode [0x4E00]), cutDAGNoHMM {} d (encode [0x4E01, 0x4E02] ++ encode [0x4E00]))) =
      some (some [encode [0x4E01], encode [0x4E02]], some [encode [0x4E00]], some [encode [0x4E01, 0x4E02], encode [0x4E00]]) := by decide +kernel
  rw [hd] at key
  simp only [Option.map_some, Option.some.injEq, Prod.mk.injEq] at key
  refine ⟨d, hd, fun _ _ _ => trivial, key.1, key.2.1, key.2.2, ?_, ?_⟩
  · rintro x y _ hy ⟨_, h2⟩
    have e : (dagText {} (encode [0x4E00])).head? = some 0x4E00 := by decide +kernel
    rw [e] at hy; cases hy
    revert h2; decide +kernel
  · have e1 : dagText {} (encode [0x4E01, 0x4E02]) = [0x4E01, 0x4E02] := by decide +kernel
    have e2 : dagText {} (encode [0x4E00]) = [0x4E00] := by decide +kernel
    rw [e1, e2]
    intro x y hx hy h1 h2
    have key2 : ((runOps (D := Option Int) {} infCutOps Dictionary.new).map fun d =>
        (posWord d [0x4E02, 0x4E00], posWord d [0x4E01, 0x4E02, 0x4E00])) = some (false, false) := by decide +kernel
    rw [hd] at key2
    simp only [Option.map_some, Option.some.injEq, Prod.mk.injEq] at key2
    have hye : y = [0x4E00] := by
      obtain ⟨z, hz⟩ := h2
      obtain ⟨c, y, rfl⟩ := List.exists_cons_of_ne_nil hy
      simp at hz
      rw [hz.1, hz.2.1]
    subst hye
    rcases List.suffix_cons_iff.1 h1 with rfl | h
    · exact key2.2
    · rcases List.suffix_cons_iff.1 h with rfl | h
      · exact key2.1
      · exact absurd (List.suffix_nil.1 h) hx

end infinite

end Gse
