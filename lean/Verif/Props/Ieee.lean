import Verif.Proofs.Total
import Verif.Props.Dag
import Verif.Proofs.Load
import Verif.Proofs.Output
import Verif.Props.Segment
import Verif.Props.Hmm
import Verif.Props.Idf
import Verif.Props.TextRank

/-!
# The theorems on optimality and weights for IEEE arithmetic

`Binary64 M` and `Binary32` are Go's `float64` and `float32`. What the general theorems assume about floats is proved of them in
Proofs/IeeeOps.lean. The hypotheses left are about the frequencies passed in and about `math.Log`.
-/

namespace Gse

open Spec

variable {M : MathFns}

theorem neg_ne_nan {x : Datum} (h : x ≠ .nan) : x.neg ≠ .nan := by cases x <;> simp_all [Datum.neg]

/-- `x - y` for `x ≤ y`, `y` finite. -/
theorem sub_nonPos {f : Format} {x y : Datum} (hx : x = .inf true ∨ x.IsFin) (hy : y.IsFin) (h : Datum.lt y x = false) :
    (Datum.add f x y.neg).NonPos := by
  obtain ⟨t, ht⟩ := hy.eq
  rw [ht] at h ⊢
  rcases hx with rfl | hx
  · rfl
  · obtain ⟨s, hs⟩ := hx.eq
    rw [hs] at h ⊢
    simp only [Datum.lt, decide_eq_false_iff_not, not_lt] at h
    exact Datum.make_nonPos (by linarith)

/-- `y - x` for `x ≤ y`, `y` finite. -/
theorem sub_nonNeg {f : Format} {x y : Datum} (hx : x = .inf true ∨ x.IsFin) (hy : y.IsFin) (h : Datum.lt y x = false) :
    (Datum.add f y x.neg).NonNeg := by
  obtain ⟨t, ht⟩ := hy.eq
  rw [ht] at h ⊢
  rcases hx with rfl | hx
  · rfl
  · obtain ⟨s, hs⟩ := hx.eq
    rw [hs] at h ⊢
    simp only [Datum.lt, decide_eq_false_iff_not, not_lt] at h
    exact Datum.make_nonNeg (by linarith)

/-- A number not above a finite one is finite. -/
theorem isFin_of_le {x y : Datum} (hx : x.NonNeg) (hy : y.IsFin) (h : Datum.lt y x = false) : x.IsFin := by
  obtain ⟨t, ht⟩ := hy.eq
  cases x with
  | nan => cases hx
  | inf s => simp only [Datum.NonNeg] at hx; subst hx; rw [ht] at h; simp [Datum.lt] at h
  | fin s q => trivial

theorem storedTok_mem {F D : Type} {d : Dictionary F D} {w : Bytes} {t : Token F D} (h : storedTok d w = some t) : t ∈ d.tokens := by
  unfold storedTok at h
  obtain ⟨v, _, hv⟩ := Option.bind_eq_some_iff.1 h
  exact List.mem_of_getElem? hv

theorem one_datum : (F64.ofNat 1 : Binary64 M).datum = .fin false 1 := by
  have := Datum.ofNat_exact (f := f64) (n := 1) (by decide) (Nat.one_lt_two_pow (by decide))
  rw [Nat.cast_one] at this
  exact this

theorem zero_datum : (F64.ofNat 0 : Binary64 M).datum = .fin false 0 := by
  have := Datum.ofNat_exact (f := f64) (n := 0) (by decide) (Nat.two_pow_pos _)
  rw [Nat.cast_zero] at this
  exact this

variable [Unicode]

/-- All piece scores are numbers, zero at most. -/
theorem goodScores_ieee (hlog : LogLike M.log) (cfg : SplitCfg) (ops : List (DictOp (Binary64 M))) (d : Dictionary (Binary64 M) Binary32)
    (hr : runOps cfg ops Dictionary.new = some d) (hf : FreqsNonNeg ops) (hfin : d.totalFreq.datum.IsFin)
    (h1 : F64.lt d.totalFreq (F64.ofNat 1) = false) : GoodScores d := by
  intro t _ _
  obtain ⟨hT, hall⟩ := total_ge hr hf
  have one := one_datum (M := M)
  have zero := zero_datum (M := M)
  have hTpos : 0 < d.totalFreq.datum.val := by
    obtain ⟨s, hs⟩ := hfin.eq
    have : Datum.lt d.totalFreq.datum (F64.ofNat 1 : Binary64 M).datum = false := h1
    rw [one, hs] at this
    simp only [Datum.lt, decide_eq_false_iff_not, not_lt] at this
    linarith
  have hL : (M.log d.totalFreq.num).datum.IsFin := hlog.pos _ hfin hTpos
  have key : ∀ f : Binary64 M, f.datum.NonNeg → Datum.lt d.totalFreq.datum f.datum = false →
      F64Laws.good (F64.sub (F64.log f) (F64.log d.totalFreq)) := by
    intro f h2 h3
    refine sub_nonPos (f := f64) ?_ hL (hlog.mono _ _ h2 hT h3)
    rcases hlog.range f.num h2 (isFin_of_le h2 hfin h3) with h | h
    · exact Or.inl h
    · exact Or.inr h.1
  unfold pieceScoreBy pieceFreq
  split
  · next tok htok =>
    obtain ⟨h2, h3⟩ := hall tok (storedTok_mem htok)
    exact key _ h2 h3
  · split
    · refine key _ (by rw [zero]; exact le_refl _) ?_
      rw [zero]
      obtain ⟨s, hs⟩ := hfin.eq
      rw [hs]; simpa [Datum.lt] using hTpos.le
    · refine key _ (by rw [one]; exact zero_le_one) h1

/-- C27: with IEEE arithmetic and frequencies from zero up whose total is finite and at least 1, `Cut(str, false)` follows the
best route. -/
theorem C27_ieee [UnicodeOK] (hlog : LogLike M.log) (cfg : SplitCfg) (ops : List (DictOp (Binary64 M))) (d : Dictionary (Binary64 M) Binary32)
    (hr : runOps cfg ops Dictionary.new = some d) (hf : FreqsNonNeg ops) (hfin : d.totalFreq.datum.IsFin)
    (h1 : F64.lt d.totalFreq (F64.ofNat 1) = false) (s : Bytes) :
    ∃ ps gs, IsBestRoute d (dagText cfg s) ps ∧ IsRuns EngPiece ps gs ∧
      cutDAGNoHMM cfg d s = some (gs.map fun g => encode g.flatten) :=
  C27_best cfg ops d hr (goodScores_ieee hlog cfg ops d hr hf hfin h1) s

/-- C27: the same for `Cut(str, true)`. -/
theorem C27_ieee_hmm [UnicodeOK] (hlog : LogLike M.log) (cfg : SplitCfg) (ops : List (DictOp (Binary64 M))) (d : Dictionary (Binary64 M) Binary32)
    (hr : runOps cfg ops Dictionary.new = some d) (hf : FreqsNonNeg ops) (hfin : d.totalFreq.datum.IsFin)
    (h1 : F64.lt d.totalFreq (F64.ofNat 1) = false) (cut : Bytes → Option (List Bytes))
    (hc : ∀ t : List Rune, 2 ≤ t.length → ∃ o, cut (encode t) = some o) (s : Bytes) :
    ∃ ps gs outs, IsBestRoute d (dagText cfg s) ps ∧ IsRuns (fun t : List Rune => t.length = 1) ps gs ∧
      List.Forall₂ (RunOut d cut) gs outs ∧ cutDAG cfg d cut s = some outs.flatten :=
  C27_best_hmm cfg ops d hr (goodScores_ieee hlog cfg ops d hr hf hfin h1) cut hc s

/-! ### Distances -/

omit [Unicode] in
/-- Rounding a number of absolute value 2048 at most to binary32 gives a finite number. -/
theorem narrow_fin {x : Datum} (h : x.IsFin) (h2 : |x.val| ≤ 2048) : (Datum.convert f32 x).IsFin := by
  obtain ⟨s, hs⟩ := h.eq
  rw [hs]
  refine (Datum.make_val (f := f32) s ?_).1
  have hb : f32.round 2048 = 2048 := by
    have := f32.round_int (n := 2048) (by decide)
    exact_mod_cast this
  obtain ⟨h3, h4⟩ := abs_le.mp h2
  have h5 := f32.round_mono h3
  have h6 := f32.round_mono h4
  rw [f32.round_neg, hb] at h5
  rw [hb] at h6
  refine lt_of_le_of_lt (abs_le.mpr ⟨h5, h6⟩) ?_
  show (2048 : ℚ) < 2 ^ 128
  norm_num

omit [Unicode] in
/-- Rounding to binary32 keeps the order. -/
theorem narrow_mono {x y : Datum} (hx : x ≠ .nan) (hy : y ≠ .nan) (h : Datum.lt y x = false) :
    Datum.lt (Datum.convert f32 y) (Datum.convert f32 x) = false := by
  match x, y with
  | .nan, _ => exact absurd rfl hx
  | .inf _, .nan => exact absurd rfl hy
  | .fin _ _, .nan => exact absurd rfl hy
  | .inf _, .inf _ => exact h
  | .inf true, .fin _ _ => exact Datum.lt_bot _
  | .inf false, .fin _ _ => simp [Datum.lt] at h
  | .fin _ _, .inf false => exact Datum.top_lt _
  | .fin _ _, .inf true => simp [Datum.lt] at h
  | .fin _ q, .fin _ r =>
    simp only [Datum.lt, decide_eq_false_iff_not, not_lt] at h
    exact Datum.make_mono h

/-- The distances after a recalculation. -/
theorem calcToken_distance {d d' : Dictionary (Binary64 M) Binary32} (h : calcToken d = some d') {i : Nat} {t' : Token (Binary64 M) Binary32}
    (ht' : d'.tokens[i]? = some t') : ∃ t, d.tokens[i]? = some t ∧
      t'.distance = F32.sub (Narrow.narrow (F64.log2 d.totalFreq)) (Narrow.narrow (F64.log2 t.freq)) := by
  simp only [calcToken, Option.bind_eq_bind, Option.bind_eq_some_iff] at h
  obtain ⟨toks, hts, e⟩ := h
  simp only [Option.some.injEq] at e
  subst e
  simp only at ht'
  rcases mapOpt_get hts i with ⟨_, h2⟩ | ⟨a, b, h1, h2, h3⟩
  · rw [h2] at ht'; simp at ht'
  · rw [h2] at ht'; cases ht'
    simp only [withDistances, List.getElem?_map, Option.map_eq_some_iff] at h1
    obtain ⟨t, h4, h5⟩ := h1
    refine ⟨t, h4, ?_⟩
    simp only [Option.bind_eq_some_iff] at h3
    obtain ⟨segs, h6, kept, h7, h8⟩ := h3
    subst h5
    simp only [Option.some.injEq] at h8
    rw [← h8]

/-- After a recalculation every distance is a number from zero up, and positive unless it is zero. -/
theorem posDist_ieee (hlog : LogLike M.log2) (cfg : SplitCfg) (ops : List (DictOp (Binary64 M))) (d0 d : Dictionary (Binary64 M) Binary32)
    (hr : runOps cfg ops Dictionary.new = some d0) (hf : FreqsNonNeg ops) (hfin : d0.totalFreq.datum.IsFin)
    (hpos : F64.lt (F64.ofNat 0) d0.totalFreq = true) (hc : calcToken d0 = some d)
    (hz : ∀ w t, storedTok d w = some t → F32.isZero t.distance = false) : PosDist d := by
  obtain ⟨hT, hall⟩ := total_ge hr hf
  have hsame := calcToken_same hc
  have hTpos : 0 < d0.totalFreq.datum.val := by
    obtain ⟨s, hs⟩ := hfin.eq
    have : Datum.lt (F64.ofNat 0 : Binary64 M).datum d0.totalFreq.datum = true := hpos
    rw [zero_datum, hs] at this
    simpa [Datum.lt] using this
  have hL : (M.log2 d0.totalFreq.num).datum.IsFin := hlog.pos _ hfin hTpos
  have hL2 : |(M.log2 d0.totalFreq.num).datum.val| ≤ 2048 := by
    rcases hlog.range _ hT hfin with h | h
    · rw [h] at hL; cases hL
    · exact h.2
  intro w t ht
  have hz' := hz w t ht
  have hmem := storedTok_mem ht
  obtain ⟨t0, h0, hd⟩ : ∃ t0 ∈ d0.tokens, t.distance = F32.sub (Narrow.narrow (F64.log2 d0.totalFreq)) (Narrow.narrow (F64.log2 t0.freq)) := by
    obtain ⟨i, hi⟩ := List.mem_iff_getElem?.1 hmem
    obtain ⟨t0, e0, e1⟩ := calcToken_distance hc hi
    exact ⟨t0, List.mem_of_getElem? e0, e1⟩
  obtain ⟨hn, hle⟩ := hall t0 h0
  have hgood : F32Laws.good t.distance := by
    rw [hd]
    refine sub_nonNeg (f := f32) ?_ (narrow_fin hL hL2) (narrow_mono (hlog.num _ hn) (hlog.num _ hT) (hlog.mono _ _ hn hT hle))
    rcases hlog.range t0.freq.num hn (isFin_of_le hn hfin hle) with h | h
    · left
      show Datum.convert f32 (M.log2 t0.freq.num).datum = _
      rw [h]; rfl
    · exact Or.inr (narrow_fin h.1 h.2)
  refine ⟨hgood, ?_⟩
  have hg' : t.distance.datum.NonNeg := hgood
  show Datum.lt (Datum.ofNat f32 0) t.distance.datum = true
  have z32 : Datum.ofNat f32 0 = .fin false 0 := by
    have := Datum.ofNat_exact (f := f32) (n := 0) (by decide) (Nat.two_pow_pos _)
    rwa [Nat.cast_zero] at this
  have hz2 : Datum.eq t.distance.datum (Datum.ofNat f32 0) = false := hz'
  rw [z32] at hz2 ⊢
  cases hx : t.distance.datum with
  | nan => rw [hx] at hg'; cases hg'
  | inf s => rw [hx] at hg'; simp only [Datum.NonNeg] at hg'; subst hg'; rfl
  | fin s q =>
    rw [hx] at hg' hz2
    simp only [Datum.NonNeg] at hg'
    simp only [Datum.eq, decide_eq_false_iff_not] at hz2
    simpa [Datum.lt] using lt_of_le_of_ne hg' (Ne.symm hz2)

/-- C11: with IEEE arithmetic and frequencies from zero up whose total is finite and positive, after a recalculation `Segment`
returns the best segmentation unless the distance of some stored word is zero. -/
theorem C11_ieee [UnicodeOK] (hlog : LogLike M.log2) (cfg : SplitCfg) (ops : List (DictOp (Binary64 M))) (d0 d : Dictionary (Binary64 M) Binary32)
    (hr : runOps cfg ops Dictionary.new = some d0) (hf : FreqsNonNeg ops) (hfin : d0.totalFreq.datum.IsFin)
    (hpos : F64.lt (F64.ofNat 0) d0.totalFreq = true) (hc : calcToken d0 = some d)
    (hz : ∀ w t, storedTok d w = some t → F32.isZero t.distance = false) (s : Bytes) :
    ∃ (segs : List Seg) (ts : List (Token (Binary64 M) Binary32)), internalSegment cfg (some d) s false = some segs ∧
      segs.map (fun g => d.deref g.tok) = ts.map some ∧ IsBest d false (splitTextToWords cfg s) ts := by
  have hr' : runOps cfg (ops ++ [.recalc]) Dictionary.new = some d := by rw [runOps_append, hr]; simpa [runOps, DictOp.step] using hc
  exact C11_shortest cfg _ d hr' (posDist_ieee hlog cfg ops d0 d hr hf hfin hpos hc hz) s

end Gse
