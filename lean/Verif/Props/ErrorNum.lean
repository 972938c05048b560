import Verif.Props.Error
import Verif.Props.IeeeRest
import Mathlib.Analysis.SpecialFunctions.Log.Deriv
import Mathlib.Analysis.Complex.ExponentialBounds

/-!
# The rounding errors in numbers

C71 for frequencies that are whole numbers (or from 1 up), totals up to `2 ^ 40` and texts of a given length.
-/

namespace Gse

open Spec

variable {M : MathFns}

/-- `n` roundings and one error of twice the size. -/
theorem growth_le {ε u : ℝ} {n : ℕ} (hu : 0 ≤ u) (h : ε ≤ 2 * u) (hn : (n + 2) * u ≤ 1) : growth ε u n ≤ 2 * ((n + 2) * u) := by
  have h1 : (1 + ε) * (1 + u) ^ n ≤ Real.exp ((n + 2) * u) := by
    calc (1 + ε) * (1 + u) ^ n ≤ Real.exp (2 * u) * Real.exp u ^ n := by
          refine mul_le_mul ?_ ?_ (by positivity) (by positivity)
          · have := Real.add_one_le_exp (2 * u); linarith
          · refine pow_le_pow_left₀ (by linarith) ?_ n
            have := Real.add_one_le_exp u; linarith
      _ = Real.exp ((n + 2) * u) := by
          rw [← Real.exp_nat_mul, ← Real.exp_add]; ring_nf
  have h2 : 0 ≤ (n + 2) * u := by positivity
  have h3 := Real.abs_exp_sub_one_le (x := (n + 2) * u) (by rw [abs_of_nonneg h2]; exact hn)
  rw [abs_of_nonneg h2] at h3
  have := (abs_le.1 h3).2
  unfold growth
  linarith

/-- The frequencies passed are zero or from 1 up. -/
def FreqsWhole (ops : List (DictOp (Binary64 M))) : Prop := ∀ op ∈ ops, ∀ f, opFreq op = some f → f.datum.val = 0 ∨ 1 ≤ f.datum.val

theorem log_size {x T : ℚ} (h : x = 0 ∨ 1 ≤ x) (hx : x ≤ T) (hB : T ≤ 2 ^ 40) : |Real.log (x : ℝ)| ≤ 28 := by
  rcases h with rfl | h
  · simp
  · have h1 : (1 : ℝ) ≤ x := by exact_mod_cast h
    have h2 : (x : ℝ) ≤ 2 ^ 40 := by exact_mod_cast hx.trans hB
    rw [abs_of_nonneg (Real.log_nonneg h1)]
    refine (Real.log_le_log (by linarith) h2).trans ?_
    rw [Real.log_pow]
    have := Real.log_two_lt_d9
    push_cast; linarith

theorem logb_size {x T : ℚ} (h : x = 0 ∨ 1 ≤ x) (hx : x ≤ T) (hB : T ≤ 2 ^ 40) : |Real.logb 2 (x : ℝ)| ≤ 40 := by
  rcases h with rfl | h
  · simp
  · have h1 : (1 : ℝ) ≤ x := by exact_mod_cast h
    have h2 : (x : ℝ) ≤ 2 ^ (40 : ℝ) := by
      rw [show (2 : ℝ) ^ (40 : ℝ) = 2 ^ 40 by norm_num]
      exact_mod_cast hx.trans hB
    rw [abs_of_nonneg (Real.logb_nonneg (by norm_num) h1)]
    exact (Real.logb_le_iff_le_rpow (by norm_num) (by linarith)).2 h2

theorem val_le {x T : Datum} (hx : x.IsFin) (hT : T.IsFin) (h : Datum.lt T x = false) : x.val ≤ T.val := by
  obtain ⟨s, hs⟩ := hx.eq
  obtain ⟨t, ht⟩ := hT.eq
  rw [hs, ht] at h
  simpa [Datum.lt] using h

section
variable [Unicode] {ε : ℝ} {cfg : SplitCfg} {ops : List (DictOp (Binary64 M))} {d : Dictionary (Binary64 M) Binary32}

theorem tokens_whole (hr : runOps cfg ops Dictionary.new = some d) (hw : FreqsWhole ops) :
    ∀ t ∈ d.tokens, t.freq.datum.val = 0 ∨ 1 ≤ t.freq.datum.val :=
  (totalInv_run (P := fun f : Binary64 M => f.datum.val = 0 ∨ 1 ≤ f.datum.val) ops (totalInv_new _) hw hr).all

theorem pieceFreq_whole (hr : runOps cfg ops Dictionary.new = some d) (hf : FreqsNonNeg ops) (hw : FreqsWhole ops)
    (hfin : d.totalFreq.datum.IsFin) (h1 : F64.lt d.totalFreq (F64.ofNat 1) = false) (t : List Rune) :
    ((pieceFreq d t).datum.val = 0 ∨ 1 ≤ (pieceFreq d t).datum.val) ∧ (pieceFreq d t).datum.val ≤ d.totalFreq.datum.val := by
  have hT := total_pos hfin h1
  unfold pieceFreq
  split
  · next tok htok =>
    have hm := storedTok_mem htok
    obtain ⟨h2, h3⟩ := (total_ge hr hf).2 tok hm
    exact ⟨tokens_whole hr hw tok hm, val_le (isFin_of_le h2 hfin h3) hfin h3⟩
  · split
    · rw [zero_datum]; exact ⟨Or.inl rfl, by show (0 : ℚ) ≤ _; linarith⟩
    · rw [one_datum]; exact ⟨Or.inr (le_refl _), hT⟩

omit [Unicode] in
theorem route_length {text : List Rune} {ps : List (List Rune)} (h : IsRoute d text ps) : ps.length ≤ text.length := by
  induction h with
  | nil => simp
  | @cons t rest ps ht _ _ ih =>
    have := List.length_pos_iff.2 ht
    simp only [List.length_cons, List.length_append]; omega

/-- The error of a route of a thousand pieces at most. -/
theorem routeErr_le (hε : ε ≤ (2 ^ 52)⁻¹) (hr : runOps cfg ops Dictionary.new = some d) (hf : FreqsNonNeg ops)
    (hw : FreqsWhole ops) (hfin : d.totalFreq.datum.IsFin) (h1 : F64.lt d.totalFreq (F64.ofNat 1) = false)
    (hB : d.totalFreq.datum.val ≤ 2 ^ 40) {ps : List (List Rune)} (hn : ps.length ≤ 1000) : routeErr ε d ps ≤ 1 / 50000000 := by
  have hT := total_pos hfin h1
  have hsize : routeSize d ps ≤ 56000 := by
    have : ∀ t ∈ ps, |Real.log ((pieceFreq d t).datum.val : ℝ)| + |Real.log (d.totalFreq.datum.val : ℝ)| ≤ 56 := by
      intro t _
      obtain ⟨h2, h3⟩ := pieceFreq_whole hr hf hw hfin h1 t
      have h4 := log_size h2 h3 hB
      have h5 := log_size (Or.inr hT) (le_refl _) hB
      linarith
    have h2 := List.sum_le_card_nsmul (ps.map fun t => |Real.log ((pieceFreq d t).datum.val : ℝ)| + |Real.log (d.totalFreq.datum.val : ℝ)|) 56 (by
      intro x hx
      obtain ⟨t, ht, rfl⟩ := List.mem_map.1 hx
      exact this t ht)
    have h3 : (ps.length : ℝ) ≤ 1000 := by exact_mod_cast hn
    simp only [List.length_map, nsmul_eq_mul] at h2
    unfold routeSize
    linarith
  have hnn : 0 ≤ routeSize d ps := List.sum_nonneg (by
    intro x hx
    obtain ⟨t, _, rfl⟩ := List.mem_map.1 hx
    positivity)
  have hn' : ((ps.length + 1 : ℕ) : ℝ) ≤ 1001 := by exact_mod_cast Nat.succ_le_succ hn
  have hg : growth ε (2 ^ 53)⁻¹ (ps.length + 1) ≤ 2 * ((1001 + 2) * (2 ^ 53)⁻¹) := by
    refine (growth_le (by positivity) ?_ ?_).trans ?_
    · refine hε.trans ?_; norm_num
    · have : (((ps.length + 1 : ℕ) : ℝ) + 2) * (2 ^ 53)⁻¹ ≤ (1001 + 2) * (2 ^ 53)⁻¹ := mul_le_mul_of_nonneg_right (by linarith) (by positivity)
      refine this.trans ?_; norm_num
    · have : (((ps.length + 1 : ℕ) : ℝ) + 2) * (2 ^ 53)⁻¹ ≤ (1001 + 2) * (2 ^ 53)⁻¹ := mul_le_mul_of_nonneg_right (by linarith) (by positivity)
      linarith
  unfold routeErr
  calc _ ≤ 2 * ((1001 + 2) * (2 ^ 53)⁻¹) * routeSize d ps := mul_le_mul_of_nonneg_right hg hnn
    _ ≤ 2 * ((1001 + 2) * (2 ^ 53)⁻¹) * (56000 : ℝ) := mul_le_mul_of_nonneg_left hsize (by positivity)
    _ ≤ _ := by norm_num

/-- C71: if the frequencies are zero or from 1 up and their total is `2 ^ 40` at most, `math.Log` is accurate to a unit in the
last place and the text has a thousand characters at most, then no division of the text is more probable than the one used
by more than one part in ten million. -/
theorem C71_thousand [UnicodeOK] (h0 : 0 ≤ ε) (hε : ε ≤ (2 ^ 52)⁻¹) (hlog : LogLike M.log) (hacc : LogAccurate M.log Real.log ε) (cfg : SplitCfg)
    (ops : List (DictOp (Binary64 M))) (d : Dictionary (Binary64 M) Binary32) (hr : runOps cfg ops Dictionary.new = some d)
    (hf : FreqsNonNeg ops) (hw : FreqsWhole ops) (hfin : d.totalFreq.datum.IsFin) (h1 : F64.lt d.totalFreq (F64.ofNat 1) = false)
    (hB : d.totalFreq.datum.val ≤ 2 ^ 40) (s : Bytes) (hn : (dagText cfg s).length ≤ 1000) :
    ∃ ps gs, IsRoute d (dagText cfg s) ps ∧ IsRuns EngPiece ps gs ∧ cutDAGNoHMM cfg d s = some (gs.map fun g => encode g.flatten) ∧
      ∀ qs, IsRoute d (dagText cfg s) qs → routeProb d qs ≤ routeProb d ps * (1 + 1 / 10000000) := by
  obtain ⟨ps, gs, h2, h3, h4, h5⟩ := C71_cut h0 hlog hacc cfg ops d hr hf hfin h1 s
  refine ⟨ps, gs, h2, h3, h4, fun qs hq => (h5 qs hq).trans ?_⟩
  refine mul_le_mul_of_nonneg_left ?_ ?_
  · have e1 := routeErr_le hε hr hf hw hfin h1 hB ((route_length h2).trans hn)
    have e2 := routeErr_le hε hr hf hw hfin h1 hB ((route_length hq).trans hn)
    have h6 : Real.exp (routeErr ε d ps + routeErr ε d qs) ≤ Real.exp (1 / 25000000) := Real.exp_le_exp.2 (by linarith)
    have h7 := Real.abs_exp_sub_one_le (x := 1 / 25000000) (by rw [abs_of_nonneg (by norm_num)]; norm_num)
    rw [abs_of_nonneg (a := (1 / 25000000 : ℝ)) (by norm_num)] at h7
    have := (abs_le.1 h7).2
    linarith
  · refine List.prod_nonneg ?_
    intro x hx
    obtain ⟨t, _, rfl⟩ := List.mem_map.1 hx
    have hT := total_pos hfin h1
    refine div_nonneg ?_ ?_
    · exact_mod_cast (pieceFreq_fin hr hf hfin t).2
    · exact_mod_cast (by linarith : (0 : ℚ) ≤ d.totalFreq.datum.val)

/-- C71: so a division that is more probable than every other by that much is the one used. -/
theorem C71_clear [UnicodeOK] (h0 : 0 ≤ ε) (hε : ε ≤ (2 ^ 52)⁻¹) (hlog : LogLike M.log) (hacc : LogAccurate M.log Real.log ε) (cfg : SplitCfg)
    (ops : List (DictOp (Binary64 M))) (d : Dictionary (Binary64 M) Binary32) (hr : runOps cfg ops Dictionary.new = some d)
    (hf : FreqsNonNeg ops) (hw : FreqsWhole ops) (hfin : d.totalFreq.datum.IsFin) (h1 : F64.lt d.totalFreq (F64.ofNat 1) = false)
    (hB : d.totalFreq.datum.val ≤ 2 ^ 40) (s : Bytes) (hn : (dagText cfg s).length ≤ 1000) (qs : List (List Rune))
    (hq : IsRoute d (dagText cfg s) qs)
    (hbest : ∀ ps, IsRoute d (dagText cfg s) ps → ps ≠ qs → routeProb d ps * (1 + 1 / 10000000) < routeProb d qs) :
    ∃ gs, IsRuns EngPiece qs gs ∧ cutDAGNoHMM cfg d s = some (gs.map fun g => encode g.flatten) := by
  obtain ⟨ps, gs, h2, h3, h4, h5⟩ := C71_thousand h0 hε hlog hacc cfg ops d hr hf hw hfin h1 hB s hn
  by_cases e : ps = qs
  · subst e; exact ⟨gs, h3, h4⟩
  · exact absurd (h5 qs hq) (not_le.2 (hbest ps h2 e))

/-- The error of a segmentation into twenty tokens at most. -/
theorem segErr_le (hε : ε ≤ (2 ^ 52)⁻¹) {d0 : Dictionary (Binary64 M) Binary32} (hr : runOps cfg ops Dictionary.new = some d0)
    (hf : FreqsNonNeg ops) (hw : FreqsWhole ops) (hfin : d0.totalFreq.datum.IsFin) (hT : 1 ≤ d0.totalFreq.datum.val)
    (hB : d0.totalFreq.datum.val ≤ 2 ^ 40) (hc : calcToken d0 = some d) {ts : List (Token (Binary64 M) Binary32)} (hn : ts.length ≤ 20) :
    segErr ε d ts ≤ 1 / 200 := by
  have htot := (calcToken_same hc).total
  have hb : ∀ t : Token (Binary64 M) Binary32, tokSize d t ≤ 80 ∧ 0 ≤ tokSize d t := by
    intro t
    unfold tokSize
    split
    · next ht =>
      refine ⟨?_, by positivity⟩
      obtain ⟨i, hi⟩ := List.mem_iff_getElem?.1 (storedTok_mem ht)
      obtain ⟨t0, e0, e1, _⟩ := calcToken_kept hc hi
      have hm := List.mem_of_getElem? e0
      obtain ⟨h2, h3⟩ := (total_ge hr hf).2 t0 hm
      have h4 := logb_size (tokens_whole hr hw t0 hm) (val_le (isFin_of_le h2 hfin h3) hfin h3) hB
      have h5 := logb_size (Or.inr hT) (le_refl _) hB
      rw [e1, htot]
      linarith
    · norm_num
  have hsize : segSize d ts ≤ 1600 := by
    have h2 := List.sum_le_card_nsmul (ts.map (tokSize d)) 80 (by
      intro x hx
      obtain ⟨t, ht, rfl⟩ := List.mem_map.1 hx
      exact (hb t).1)
    have h3 : (ts.length : ℝ) ≤ 20 := by exact_mod_cast hn
    simp only [List.length_map, nsmul_eq_mul] at h2
    have : segSize d ts = (ts.map (tokSize d)).sum := rfl
    linarith
  have hnn : 0 ≤ segSize d ts := List.sum_nonneg (l := ts.map (tokSize d)) (by
    intro x hx
    obtain ⟨t, _, rfl⟩ := List.mem_map.1 hx
    exact (hb t).2)
  have hn' : ((ts.length + 2 : ℕ) : ℝ) ≤ 22 := by exact_mod_cast Nat.add_le_add_right hn 2
  have hg : growth ε (2 ^ 24)⁻¹ (ts.length + 2) ≤ 2 * ((22 + 2) * (2 ^ 24)⁻¹) := by
    have : (((ts.length + 2 : ℕ) : ℝ) + 2) * (2 ^ 24)⁻¹ ≤ (22 + 2) * (2 ^ 24)⁻¹ := mul_le_mul_of_nonneg_right (by linarith) (by positivity)
    refine (growth_le (by positivity) ?_ ?_).trans ?_
    · refine hε.trans ?_; norm_num
    · refine this.trans ?_; norm_num
    · linarith
  unfold segErr
  calc _ ≤ 2 * ((22 + 2) * (2 ^ 24)⁻¹) * segSize d ts := mul_le_mul_of_nonneg_right hg hnn
    _ ≤ 2 * ((22 + 2) * (2 ^ 24)⁻¹) * (1600 : ℝ) := mul_le_mul_of_nonneg_left hsize (by positivity)
    _ ≤ _ := by norm_num

omit [Unicode] in
theorem seg_length {ws : List Bytes} {ts : List (Token (Binary64 M) Binary32)} (h : IsSegmentation d ws ts) : ts.length ≤ ws.length := by
  obtain ⟨rfl, h2⟩ := h
  induction ts with
  | nil => simp
  | cons t ts ih =>
    have h3 := List.length_pos_iff.2 (h2 t (by simp)).1
    have h4 := ih fun u hu => h2 u (by simp [hu])
    simp only [wordsOf, List.map_cons, List.flatten_cons, List.length_append, List.length_cons] at h4 ⊢
    omega

/-- C71: if the frequencies are zero or from 1 up and their total is `2 ^ 40` at most, `math.Log2` is accurate to a unit in the
last place and the text has twenty words at most, then no segmentation is more probable than the one returned by more than
one per cent. The distances are `float32`, so the bound is weaker than that for `Cut`. -/
theorem C71_twenty [UnicodeOK] (h0 : 0 ≤ ε) (hε : ε ≤ (2 ^ 52)⁻¹) (hlog : LogLike M.log2) (hacc : LogAccurate M.log2 (Real.logb 2) ε)
    (cfg : SplitCfg) (ops : List (DictOp (Binary64 M))) (d0 d : Dictionary (Binary64 M) Binary32)
    (hr : runOps cfg ops Dictionary.new = some d0) (hf : FreqsNonNeg ops) (hw : FreqsWhole ops) (hfin : d0.totalFreq.datum.IsFin)
    (h1 : F64.lt d0.totalFreq (F64.ofNat 1) = false) (hB : d0.totalFreq.datum.val ≤ 2 ^ 40) (hc : calcToken d0 = some d)
    (hz : ∀ w t, storedTok d w = some t → F32.isZero t.distance = false) (s : Bytes) (hn : (splitTextToWords cfg s).length ≤ 20) :
    ∃ (segs : List Seg) (ts : List (Token (Binary64 M) Binary32)), internalSegment cfg (some d) s false = some segs ∧
      segs.map (fun g => d.deref g.tok) = ts.map some ∧ IsSegmentation d (splitTextToWords cfg s) ts ∧
      ∀ us, IsSegmentation d (splitTextToWords cfg s) us → segProb d us ≤ segProb d ts * (1 + 1 / 100) := by
  have hT := total_pos hfin h1
  have hpos : F64.lt (F64.ofNat 0) d0.totalFreq = true := by
    obtain ⟨t, ht⟩ := hfin.eq
    show Datum.lt (F64.ofNat 0 : Binary64 M).datum d0.totalFreq.datum = true
    rw [zero_datum, ht]
    simp only [Datum.lt, decide_eq_true_eq]
    linarith
  obtain ⟨segs, ts, h2, h3, h4, h5⟩ := C71_segment h0 (hε.trans (by norm_num)) hlog hacc cfg ops d0 d hr hf hfin hpos hc hz s
  refine ⟨segs, ts, h2, h3, h4, fun us hu => (h5 us hu).trans ?_⟩
  have hnn : 0 ≤ segProb d ts := by
    refine List.prod_nonneg ?_
    intro x hx
    obtain ⟨t, _, rfl⟩ := List.mem_map.1 hx
    unfold tokenProb
    split
    · next hst =>
      obtain ⟨_, h6, _⟩ := stored_facts hr hf hfin hc hst
      refine div_nonneg (by exact_mod_cast h6) ?_
      rw [(calcToken_same hc).total]
      exact_mod_cast (by linarith : (0 : ℚ) ≤ d0.totalFreq.datum.val)
    · positivity
  refine mul_le_mul_of_nonneg_left ?_ hnn
  have e1 := segErr_le hε hr hf hw hfin hT hB hc ((seg_length h4).trans hn)
  have e2 := segErr_le hε hr hf hw hfin hT hB hc ((seg_length hu).trans hn)
  have h6 : (2 : ℝ) ^ (segErr ε d ts + segErr ε d us) ≤ 2 ^ (1 / 100 : ℝ) := Real.rpow_le_rpow_of_exponent_le (by norm_num) (by linarith)
  refine h6.trans ?_
  rw [Real.rpow_def_of_pos (by norm_num)]
  have h7 := Real.log_two_lt_d9
  have h8 := Real.log_two_gt_d9
  have h9 : Real.exp (Real.log 2 * (1 / 100)) ≤ Real.exp (7 / 1000) := Real.exp_le_exp.2 (by linarith)
  have h10 := Real.abs_exp_sub_one_sub_id_le (x := 7 / 1000) (by rw [abs_of_nonneg (by norm_num)]; norm_num)
  have := (abs_le.1 h10).2
  norm_num at this ⊢
  linarith

end

/-! ## A logarithm that meets the hypotheses -/

/-- What the construction uses of a logarithm. -/
structure LnLike (ln : ℝ → ℝ) : Prop where
  one : ln 1 = 0
  mono : ∀ x y : ℝ, 0 < x → x ≤ y → ln x ≤ ln y
  near : ∀ x : ℚ, f64.Rep x → 0 < x → x ≠ 1 → 1 / 2 ^ 53 ≤ |ln x|
  size : ∀ x : ℝ, 0 < x → 2 ^ (-1074 : ℤ) ≤ x → x ≤ 2 ^ (1024 : ℤ) → |ln x| ≤ 1100

theorem logb_ln : LnLike (Real.logb 2) where
  one := Real.logb_one
  mono x y hx h := Real.logb_le_logb_of_le (by norm_num) hx h
  near x hr hx h := by
    have h1 : 1 / 2 ^ 53 ≤ |Real.log (x : ℝ)| := by
      have := near_one hr hx h
      push_cast at this
      exact this
    have h2 := Real.log_two_lt_d9
    have h3 := Real.log_two_gt_d9
    unfold Real.logb
    rw [abs_div, abs_of_pos (a := Real.log 2) (by linarith)]
    exact h1.trans (le_div_self (abs_nonneg _) (by linarith) (by linarith))
  size x hx h1 h2 := by
    refine abs_le.2 ⟨?_, ?_⟩
    · have : Real.logb 2 ((2 : ℝ) ^ (-1074 : ℤ)) ≤ Real.logb 2 x := Real.logb_le_logb_of_le (by norm_num) (by positivity) h1
      rw [← Real.rpow_intCast, Real.logb_rpow (by norm_num) (by norm_num)] at this
      push_cast at this
      linarith
    · have : Real.logb 2 x ≤ Real.logb 2 ((2 : ℝ) ^ (1024 : ℤ)) := Real.logb_le_logb_of_le (by norm_num) hx h2
      rw [← Real.rpow_intCast, Real.logb_rpow (by norm_num) (by norm_num)] at this
      push_cast at this
      linarith

theorem log_ln : LnLike Real.log where
  one := Real.log_one
  mono x y hx h := Real.log_le_log hx h
  near x hr hx h := by
    have := near_one hr hx h
    push_cast at this
    exact this
  size x hx h1 h2 := by
    have h := logb_ln.size x hx h1 h2
    have h4 := Real.log_two_lt_d9
    have h3 := Real.log_two_gt_d9
    unfold Real.logb at h
    rw [abs_div, abs_of_pos (a := Real.log 2) (by linarith), div_le_iff₀ (by linarith)] at h
    linarith

/-- The logarithm cut off at 200 binary places. -/
noncomputable def cutOff (r : ℝ) : ℚ := ⌊r * 2 ^ 200⌋ / 2 ^ 200

theorem cutOff_near (r : ℝ) : |(cutOff r : ℝ) - r| ≤ (2 ^ 200)⁻¹ := by
  unfold cutOff
  push_cast
  have h1 := Int.floor_le (r * 2 ^ 200)
  have h2 := (Int.lt_floor_add_one (r * 2 ^ 200)).le
  have h3 : (⌊r * 2 ^ 200⌋ : ℝ) / 2 ^ 200 - r = (⌊r * 2 ^ 200⌋ - r * 2 ^ 200) * (2 ^ 200)⁻¹ := by field_simp
  rw [h3, abs_mul, abs_of_pos (a := ((2 : ℝ) ^ 200)⁻¹) (by positivity)]
  have : |(⌊r * 2 ^ 200⌋ : ℝ) - r * 2 ^ 200| ≤ 1 := abs_le.2 ⟨by linarith, by linarith⟩
  exact mul_le_of_le_one_left (by positivity) this

theorem cutOff_mono {r r' : ℝ} (h : r ≤ r') : cutOff r ≤ cutOff r' := by
  unfold cutOff
  refine div_le_div_of_nonneg_right ?_ (by positivity)
  exact_mod_cast Int.floor_le_floor (mul_le_mul_of_nonneg_right h (by positivity))

theorem cutOff_int (n : ℤ) : cutOff n = n := by
  unfold cutOff
  have : ((n : ℝ) * 2 ^ 200) = ((n * 2 ^ 200 : ℤ) : ℝ) := by push_cast; ring
  rw [this, Int.floor_intCast]
  rw [Int.cast_mul, Int.cast_pow, Int.cast_ofNat, mul_div_assoc, div_self (by positivity), mul_one]

/-- A logarithm rounded to binary64. -/
noncomputable def roundedLog (ln : ℝ → ℝ) (x : Num64) : Num64 :=
  match x.datum with
  | .nan => ⟨.nan, trivial⟩
  | .inf s => if s then ⟨.nan, trivial⟩ else ⟨.inf false, trivial⟩
  | .fin _ q => if q < 0 then ⟨.nan, trivial⟩ else if q = 0 then ⟨.inf true, trivial⟩ else
      ⟨Datum.make f64 false (cutOff (ln q)), Datum.make_ok f64 false _⟩

theorem cutOff_err (r : ℝ) : |(f64.round (cutOff r) : ℝ) - cutOff r| ≤ |(cutOff r : ℝ)| * (2 ^ 53)⁻¹ := by
  have h := f64.round_err_multiple (⌊r * 2 ^ 200⌋ * 2 ^ 874)
  have e : ((⌊r * 2 ^ 200⌋ * 2 ^ 874 : ℤ) : ℚ) * 2 ^ f64.emin = cutOff r := by
    unfold cutOff
    show _ * (2 : ℚ) ^ (-1074 : ℤ) = _
    generalize ⌊r * 2 ^ 200⌋ = n
    rw [Int.cast_mul, Int.cast_pow, Int.cast_ofNat, mul_assoc, div_eq_mul_inv]
    congr 1
    rw [← zpow_natCast (2 : ℚ) 874, ← zpow_natCast (2 : ℚ) 200, ← zpow_neg, ← zpow_add₀ (by norm_num)]
    rfl
  rw [e] at h
  have := (Rat.cast_le (K := ℝ)).2 h
  push_cast at this
  exact this

section rounded
variable {ln : ℝ → ℝ} (hln : LnLike ln)
include hln

set_option exponentiation.threshold 2000 in
theorem rounded_range {s : Bool} {q : ℚ} (h : (Datum.fin s q).Ok f64) (h0 : 0 < q) :
    |ln q| ≤ 1100 ∧ (Datum.make f64 false (cutOff (ln q))).IsFin ∧ (Datum.make f64 false (cutOff (ln q))).val = f64.round (cutOff (ln q)) ∧
      |(Datum.make f64 false (cutOff (ln q))).val| ≤ 2048 := by
  have hs : |ln q| ≤ 1100 := by
    refine hln.size q (by exact_mod_cast h0) ?_ ?_
    · have := (Rat.cast_le (K := ℝ)).2 (ok_ge h h0)
      push_cast at this
      exact this
    · have h1 : q ≤ 2 ^ 1024 := (abs_lt.1 h.2.1).2.le
      have := (Rat.cast_le (K := ℝ)).2 h1
      push_cast at this
      rwa [show (2 : ℝ) ^ (1024 : ℤ) = 2 ^ 1024 from zpow_natCast _ 1024]
  have hb : |cutOff (ln q)| ≤ 2048 := by
    have h1 := cutOff_near (ln q)
    have h2 : |(cutOff (ln q) : ℝ)| ≤ 2048 := by
      have h3 := abs_add_le ((cutOff (ln q) : ℝ) - ln q) (ln q)
      rw [sub_add_cancel] at h3
      have : ((2 : ℝ) ^ 200)⁻¹ ≤ 1 := by norm_num
      linarith
    have h3 : ((|cutOff (ln q)| : ℚ) : ℝ) ≤ ((2048 : ℚ) : ℝ) := by push_cast; exact h2
    exact (Rat.cast_le (K := ℝ)).1 h3
  have h1 := make_size (n := 2048) (e := 0) (q := cutOff (ln q)) false (by decide) (by decide) (by decide) (by simpa using hb)
  refine ⟨hs, h1.1, ?_, by simpa using h1.2⟩
  refine (Datum.make_val false ?_).2
  refine Datum.round_lt (hb.trans ?_)
  norm_num

/-- The rounded logarithm is as assumed. -/
theorem roundedLog_ok : LogLike (roundedLog ln) where
  num x hx := by
    obtain ⟨d, ok⟩ := x
    cases d with
    | nan => cases hx
    | inf s => simp only [Datum.NonNeg] at hx; subst hx; simp [roundedLog]
    | fin s q =>
      simp only [Datum.NonNeg] at hx
      simp only [roundedLog, if_neg (not_lt.2 hx)]
      split
      · simp
      · exact Datum.make_ne_nan _ _
  mono x y hx hy h := by
    obtain ⟨d, ok⟩ := x
    obtain ⟨d', ok'⟩ := y
    match d, d' with
    | .nan, _ => cases hx
    | .inf _, .nan => cases hy
    | .fin _ _, .nan => cases hy
    | .inf true, _ => cases hx
    | .fin _ _, .inf true => cases hy
    | .inf false, .inf false => rfl
    | .inf false, .fin _ _ => simp [Datum.lt] at h
    | .fin _ _, .inf false => exact Datum.top_lt _
    | .fin _ q, .fin _ r =>
      simp only [Datum.NonNeg] at hx hy
      simp only [Datum.lt, decide_eq_false_iff_not, not_lt] at h
      simp only [roundedLog, if_neg (not_lt.2 hx), if_neg (not_lt.2 hy)]
      by_cases hq : q = 0
      · rw [if_pos hq]; exact Datum.lt_bot _
      · have hq0 : 0 < q := lt_of_le_of_ne hx (Ne.symm hq)
        rw [if_neg hq, if_neg (by linarith)]
        exact Datum.make_mono (cutOff_mono (hln.mono _ _ (by exact_mod_cast hq0) (by exact_mod_cast h)))
  range x hx hf := by
    obtain ⟨d, ok⟩ := x
    cases d with
    | nan => cases hf
    | inf s => cases hf
    | fin s q =>
      simp only [Datum.NonNeg] at hx
      simp only [roundedLog, if_neg (not_lt.2 hx)]
      by_cases hq : q = 0
      · left; rw [if_pos hq]
      · right; rw [if_neg hq]
        obtain ⟨_, h1, _, h2⟩ := rounded_range hln ok (lt_of_le_of_ne hx (Ne.symm hq))
        exact ⟨h1, h2⟩
  pos x hf h0 := by
    obtain ⟨d, ok⟩ := x
    cases d with
    | nan => cases hf
    | inf s => cases hf
    | fin s q =>
      have hq : 0 < q := h0
      simp only [roundedLog, if_neg (not_lt.2 hq.le), if_neg hq.ne']
      exact (rounded_range hln ok hq).2.1

/-- Its relative error is a unit in the last place at most. -/
theorem roundedLog_accurate : LogAccurate (roundedLog ln) ln (2 ^ 52)⁻¹ where
  zero x hf h0 := by
    obtain ⟨d, ok⟩ := x
    cases d with
    | nan => cases hf
    | inf s => cases hf
    | fin s q =>
      have hq : q = 0 := h0
      simp [roundedLog, hq]
  near x hf h0 := by
    obtain ⟨d, ok⟩ := x
    cases d with
    | nan => cases hf
    | inf s => cases hf
    | fin s q =>
      have hq : 0 < q := h0
      simp only [roundedLog, if_neg (not_lt.2 hq.le), if_neg hq.ne']
      obtain ⟨_, h1, h2, _⟩ := rounded_range hln ok hq
      refine ⟨h1, ?_⟩
      rw [h2]
      show |(f64.round (cutOff (ln q)) : ℝ) - ln q| ≤ (2 ^ 52)⁻¹ * |ln q|
      by_cases h3 : q = 1
      · subst h3
        have e : ln ((1 : ℚ) : ℝ) = ((0 : ℤ) : ℝ) := by rw [Rat.cast_one, hln.one, Int.cast_zero]
        rw [e, cutOff_int, Int.cast_zero, f64.round_zero]
        simp
      · have h4 := hln.near q (rep_of_ok ok) hq h3
        have h5 := cutOff_err (ln q)
        have h6 := cutOff_near (ln q)
        have h7 := abs_add_le ((f64.round (cutOff (ln q)) : ℝ) - cutOff (ln q)) (cutOff (ln q) - ln q)
        rw [sub_add_sub_cancel] at h7
        have h8 := abs_add_le ((cutOff (ln q) : ℝ) - ln q) (ln q)
        rw [sub_add_cancel] at h8
        have h9 : ((2 : ℝ) ^ 200)⁻¹ ≤ (2 ^ 147)⁻¹ * |ln q| := by
          calc ((2 : ℝ) ^ 200)⁻¹ = (2 ^ 147)⁻¹ * (1 / 2 ^ 53) := by norm_num
            _ ≤ _ := mul_le_mul_of_nonneg_left h4 (by positivity)
        generalize |ln (q : ℝ)| = a at *
        generalize |(cutOff (ln q) : ℝ) - ln q| = b at *
        generalize |(cutOff (ln q) : ℝ)| = c at *
        norm_num at *
        linarith

end rounded

/-- Functions of package math with rounded logarithms. -/
noncomputable def roundedMath : MathFns := ⟨roundedLog Real.log, roundedLog (Real.logb 2), id, fun _ => (⟨.nan, trivial⟩, false)⟩

example : LogLike roundedMath.log ∧ LogAccurate roundedMath.log Real.log (2 ^ 52)⁻¹ := ⟨roundedLog_ok log_ln, roundedLog_accurate log_ln⟩
example : LogLike roundedMath.log2 ∧ LogAccurate roundedMath.log2 (Real.logb 2) (2 ^ 52)⁻¹ := ⟨roundedLog_ok logb_ln, roundedLog_accurate logb_ln⟩

section examples
attribute [local instance] sampleUnicode sampleUnicodeOK

/-- Two words with the frequency 4. -/
noncomputable def errOps : List (DictOp (Binary64 roundedMath)) :=
  [.add (str "ab") (F64.ofNat 4) (str "n"), .add (str "c") (F64.ofNat 4) (str "n")]

/-- The dictionary with them. -/
noncomputable def errDict : Dictionary (Binary64 roundedMath) Binary32 := (runOps {} errOps Dictionary.new).getD Dictionary.new

theorem errDict_run : runOps {} errOps Dictionary.new = some errDict := by
  have : (runOps (D := Binary32) {} errOps Dictionary.new).isSome = true := by decide +kernel
  obtain ⟨d, h⟩ := Option.isSome_iff_exists.1 this
  unfold errDict
  rw [h]; rfl

theorem errDict_total : errDict.totalFreq.datum = .fin false 8 := by decide +kernel

example : FreqsNonNeg errOps ∧ FreqsWhole errOps := by
  constructor <;> intro op hop f hf <;> simp only [errOps, List.mem_cons, List.not_mem_nil, or_false] at hop <;> rcases hop with rfl | rfl <;> cases hf
  · exact Datum.make_nonNeg (f := f64) (s := false) (q := ((4 : Nat) : ℚ)) (by norm_num)
  · exact Datum.make_nonNeg (f := f64) (s := false) (q := ((4 : Nat) : ℚ)) (by norm_num)
  · exact Or.inr (by decide +kernel)
  · exact Or.inr (by decide +kernel)
example : errDict.totalFreq.datum.IsFin := by rw [errDict_total]; trivial
example : F64.lt errDict.totalFreq (F64.ofNat 1) = false := by decide +kernel
example : errDict.totalFreq.datum.val ≤ 2 ^ 40 := by rw [errDict_total]; show (8 : ℚ) ≤ _; norm_num

/-- After a recalculation the distances are 1. -/
example : ∃ d, calcToken errDict = some d ∧ ∀ w t, storedTok d w = some t → F32.isZero t.distance = false := by
  obtain ⟨d, hd⟩ := calcToken_total (wf_run errOps (Dictionary.wf_new _) errDict_run)
  refine ⟨d, hd, ?_⟩
  intro w t ht
  obtain ⟨i, hi⟩ := List.mem_iff_getElem?.1 (storedTok_mem ht)
  obtain ⟨t0, e0, _, e2⟩ := calcToken_kept hd hi
  have hall : (errDict.tokens.all fun t => decide (t.freq.datum = .fin false 4)) = true := by decide +kernel
  have hf := List.all_eq_true.1 hall t0 (List.mem_of_getElem? e0)
  simp only [decide_eq_true_eq] at hf
  have l8 : (roundedMath.log2 errDict.totalFreq.num).datum = .fin false 3 := by
    have e : Real.logb 2 ((8 : ℚ) : ℝ) = ((3 : ℤ) : ℝ) := by
      rw [show ((8 : ℚ) : ℝ) = 2 ^ (3 : ℝ) by norm_num, Real.logb_rpow (by norm_num) (by norm_num)]; norm_num
    show (roundedLog (Real.logb 2) errDict.totalFreq.num).datum = _
    unfold roundedLog
    rw [show errDict.totalFreq.num.datum = .fin false 8 from errDict_total]
    simp only [show ¬ ((8 : ℚ) < 0) by norm_num, show ¬ ((8 : ℚ) = 0) by norm_num, if_false]
    rw [e, cutOff_int]
    decide +kernel
  have l4 : (roundedMath.log2 t0.freq.num).datum = .fin false 2 := by
    have e : Real.logb 2 ((4 : ℚ) : ℝ) = ((2 : ℤ) : ℝ) := by
      rw [show ((4 : ℚ) : ℝ) = 2 ^ (2 : ℝ) by norm_num, Real.logb_rpow (by norm_num) (by norm_num)]; norm_num
    show (roundedLog (Real.logb 2) t0.freq.num).datum = _
    unfold roundedLog
    rw [show t0.freq.num.datum = .fin false 4 from hf]
    simp only [show ¬ ((4 : ℚ) < 0) by norm_num, show ¬ ((4 : ℚ) = 0) by norm_num, if_false]
    rw [e, cutOff_int]
    decide +kernel
  have : t.distance.datum = .fin false 1 := by
    rw [e2]
    show Datum.add f32 (Datum.convert f32 (roundedMath.log2 errDict.totalFreq.num).datum) (Datum.convert f32 (roundedMath.log2 t0.freq.num).datum).neg = _
    rw [l8, l4]
    decide +kernel
  show Datum.eq t.distance.datum (Datum.ofNat f32 0) = false
  rw [this]
  decide +kernel

/-- "abc" is cut into "ab" and "c" with probability 1/4. -/
example : dagText {} (str "abc") = [97, 98, 99] := by decide +kernel

end examples

end Gse
