import Verif.Proofs.Exact
import Verif.Proofs.Load
import Verif.Props.Dag
import Verif.Props.Segment

/-!
# What is optimised, in exact arithmetic

In terms of probabilities instead of sums of logarithms.
-/

namespace Gse

open Spec

section dag

variable {D : Type} [ParseFn] [F32 D] [Narrow EReal D] [Unicode]

/-- C27: without rounding, `Cut(str, false)` follows a route of greatest likelihood. -/
theorem C27_exact [UnicodeOK] (cfg : SplitCfg) (ops : List (DictOp EReal)) (d : Dictionary EReal D)
    (hr : runOps cfg ops Dictionary.new = some d) (hf : FreqsExact ops) (h1 : 1 ≤ d.totalFreq) (s : Bytes) :
    ∃ ps gs, IsRoute d (dagText cfg s) ps ∧ (∀ qs, IsRoute d (dagText cfg s) qs → likelihood d qs ≤ likelihood d ps) ∧
      IsRuns EngPiece ps gs ∧ cutDAGNoHMM cfg d s = some (gs.map fun g => encode g.flatten) := by
  have hc := counts_run hr hf
  obtain ⟨ps, gs, h2, h3, h4⟩ := C27_best cfg ops d hr (goodScores_exact hc h1) s
  refine ⟨ps, gs, h2.route, ?_, h3, h4⟩
  intro qs hqs
  rw [← score_lt hc h1]
  exact h2.highest [] ps rfl qs (by rw [isRoute_flatten h2.route]; exact hqs)

end dag

section seg

variable [ParseFn] [Unicode]

/-- What is known of the pieces after a recalculation. -/
theorem piece_share {cfg : SplitCfg} {ops : List (DictOp EReal)} {d0 d : Dictionary EReal EReal}
    (hr : runOps cfg ops Dictionary.new = some d0) (hf : FreqsExact ops) (hpos : 0 < d0.totalFreq) (hc : calcToken d0 = some d)
    {t : Token EReal EReal} (ht : IsPiece d t) : 0 ≤ tokenShare d t ∧ t.distance = shareDist (tokenShare d t) := by
  have h0 := counts_run hr hf
  obtain ⟨T, hT, eT⟩ := h0.total
  have hT' : 0 < T := by rw [eT] at hpos; exact_mod_cast hpos
  have hsame := calcToken_same hc
  by_cases hs : storedTok d t.text.flatten = some t
  · have hm : t ∈ d.tokens := by
      unfold storedTok at hs
      obtain ⟨v, _, hv⟩ := Option.bind_eq_some_iff.1 hs
      exact List.mem_of_getElem? hv
    obtain ⟨i, hi⟩ := List.mem_iff_getElem?.1 hm
    obtain ⟨t0, e0, e1, e2⟩ := calcToken_exact hc hi
    obtain ⟨⟨f, hf0, ef⟩, _⟩ := h0.freq t0 (List.mem_of_getElem? e0)
    unfold tokenShare
    rw [if_pos hs, e1, e2, hsame.total, ef, eT, EReal.toReal_coe, EReal.toReal_coe]
    exact ⟨div_nonneg hf0 hT, dist_share hT' hf0⟩
  · rcases ht.2 with h | ⟨w, h, hn⟩
    · exact absurd h hs
    · unfold tokenShare
      rw [if_neg hs]
      refine ⟨by positivity, ?_⟩
      rw [← c32_share, h]; rfl

theorem cost_share {cfg : SplitCfg} {ops : List (DictOp EReal)} {d0 d : Dictionary EReal EReal}
    (hr : runOps cfg ops Dictionary.new = some d0) (hf : FreqsExact ops) (hpos : 0 < d0.totalFreq) (hc : calcToken d0 = some d) :
    ∀ (ts : List (Token EReal EReal)), (∀ t ∈ ts, IsPiece d t) →
      0 ≤ (ts.map (tokenShare d)).prod ∧ cost ts = shareDist (ts.map (tokenShare d)).prod := by
  have key : ∀ (ts : List (Token EReal EReal)) (q : ℝ), 0 ≤ q → (∀ t ∈ ts, IsPiece d t) →
      0 ≤ (ts.map (tokenShare d)).prod ∧
        ts.foldl (fun c t => F32.add c t.distance) (shareDist q) = shareDist (q * (ts.map (tokenShare d)).prod) := by
    intro ts
    induction ts with
    | nil => intro q _ _; simp
    | cons t ts ih =>
      intro q hq hts
      obtain ⟨h1, h2⟩ := piece_share hr hf hpos hc (hts t (by simp))
      obtain ⟨h3, h4⟩ := ih (q * tokenShare d t) (mul_nonneg hq h1) (fun u hu => hts u (by simp [hu]))
      rw [List.map_cons, List.prod_cons, List.foldl_cons, h2]
      refine ⟨mul_nonneg h1 h3, ?_⟩
      have e : F32.add (shareDist q) (shareDist (tokenShare d t)) = shareDist (q * tokenShare d t) := (shareDist_mul hq h1).symm
      rw [e, h4, mul_assoc]
  intro ts hts
  obtain ⟨h1, h2⟩ := key ts 1 zero_le_one hts
  refine ⟨h1, ?_⟩
  have e : (F32.zero : EReal) = shareDist 1 := by
    rw [shareDist_of_pos one_pos]; simp [F32.zero]
  rw [cost, e, h2, one_mul]

theorem posDist_exact {cfg : SplitCfg} {ops : List (DictOp EReal)} {d0 d : Dictionary EReal EReal}
    (hr : runOps cfg ops Dictionary.new = some d0) (hf : FreqsExact ops) (hpos : 0 < d0.totalFreq) (hc : calcToken d0 = some d)
    (hz : ∀ w t, storedTok d w = some t → t.freq ≠ d.totalFreq) : PosDist d := by
  have h0 := counts_run hr hf
  obtain ⟨T, hT, eT⟩ := h0.total
  have hT' : 0 < T := by rw [eT] at hpos; exact_mod_cast hpos
  intro w t hw
  have hm : t ∈ d.tokens := by
    unfold storedTok at hw
    obtain ⟨v, _, hv⟩ := Option.bind_eq_some_iff.1 hw
    exact List.mem_of_getElem? hv
  obtain ⟨i, hi⟩ := List.mem_iff_getElem?.1 hm
  obtain ⟨t0, e0, e1, e2⟩ := calcToken_exact hc hi
  obtain ⟨⟨f, hf0, ef⟩, hle⟩ := h0.freq t0 (List.mem_of_getElem? e0)
  have hne := hz w t hw
  rw [e1, (calcToken_same hc).total, ef, eT] at hne
  rw [ef, eT] at hle
  have hlt : f < T := lt_of_le_of_ne (by exact_mod_cast hle) (by exact_mod_cast hne)
  have hgt : (0 : EReal) < t.distance := by
    rw [e2, ef, eT, dist_share hT' hf0]
    have : (0 : EReal) = shareDist 1 := by rw [shareDist_of_pos one_pos]; simp
    rw [this, ← not_le, shareDist_le (div_nonneg hf0 hT) zero_le_one, not_le]
    exact (div_lt_one hT').2 hlt
  exact ⟨hgt.le, exact_gt_true.2 hgt⟩

/-- C11: without rounding, `Segment` after a recalculation returns a segmentation of greatest probability: every stored word
has its share of the total, an unknown one `2 ^ -32`. No stored word may be the whole of the total. -/
theorem C11_exact [UnicodeOK] (cfg : SplitCfg) (ops : List (DictOp EReal)) (d0 d : Dictionary EReal EReal)
    (hr : runOps cfg ops Dictionary.new = some d0) (hf : FreqsExact ops) (hpos : 0 < d0.totalFreq) (hc : calcToken d0 = some d)
    (hz : ∀ w t, storedTok d w = some t → t.freq ≠ d.totalFreq) (s : Bytes) :
    ∃ (segs : List Seg) (ts : List (Token EReal EReal)), internalSegment cfg (some d) s false = some segs ∧
      segs.map (fun g => d.deref g.tok) = ts.map some ∧ IsSegmentation d (splitTextToWords cfg s) ts ∧
      ∀ us, IsSegmentation d (splitTextToWords cfg s) us → (us.map (tokenShare d)).prod ≤ (ts.map (tokenShare d)).prod := by
  have hr' : runOps cfg (ops ++ [.recalc]) Dictionary.new = some d := by rw [runOps_append, hr]; simpa [runOps, DictOp.step] using hc
  have hd := posDist_exact hr hf hpos hc hz
  obtain ⟨segs, ts, h1, h2, h3⟩ := C11_shortest cfg _ d hr' hd s
  refine ⟨segs, ts, h1, h2, h3.seg, ?_⟩
  obtain ⟨segs', ts', h1', h2', h3'⟩ := C11_cheapest cfg _ d hr' hd s
  have e : ts' = ts := by
    rw [h1] at h1'; cases h1'
    rw [h2] at h2'
    exact (List.map_injective_iff.2 (Option.some_injective _) h2').symm
  subst e
  intro us hus
  have := h3' us hus
  obtain ⟨p1, p2⟩ := cost_share hr hf hpos hc ts' h3.seg.2
  obtain ⟨q1, q2⟩ := cost_share hr hf hpos hc us hus.2
  rw [exact_gt_false, p2, q2, shareDist_le p1 q1] at this
  exact this

end seg

section examples
attribute [local instance] sampleUnicode sampleUnicodeOK

/-- A parser for the examples; nothing is parsed. -/
@[instance_reducible] noncomputable def sampleParse : ParseFn := ⟨fun _ => (0, false)⟩
attribute [local instance] sampleParse

/-- "上" and "海" twenty times, "上海" 360 times. -/
noncomputable def cityOps : List (DictOp EReal) :=
  [.add [0xE4, 0xB8, 0x8A] ((20 : ℝ) : EReal) [], .add [0xE6, 0xB5, 0xB7] ((20 : ℝ) : EReal) [],
    .add [0xE4, 0xB8, 0x8A, 0xE6, 0xB5, 0xB7] ((360 : ℝ) : EReal) []]

theorem normShang : normText {} [0xE4, 0xB8, 0x8A] = [0xE4, 0xB8, 0x8A] := by decide +kernel
theorem normHai : normText {} [0xE6, 0xB5, 0xB7] = [0xE6, 0xB5, 0xB7] := by decide +kernel
theorem normCity : normText {} [0xE4, 0xB8, 0x8A, 0xE6, 0xB5, 0xB7] = [0xE4, 0xB8, 0x8A, 0xE6, 0xB5, 0xB7] := by decide +kernel

theorem city_content (k : Bytes) : (absRun {} cityOps).content k =
    if k = [0xE4, 0xB8, 0x8A, 0xE6, 0xB5, 0xB7] then some (((360 : ℝ) : EReal), []) else
    if k = [0xE6, 0xB5, 0xB7] then some (((20 : ℝ) : EReal), []) else if k = [0xE4, 0xB8, 0x8A] then some (((20 : ℝ) : EReal), []) else none := by
  simp [absRun, cityOps, AbsDict.step, AbsDict.add, normShang, normHai, normCity]

theorem city_run : ∃ d : Dictionary EReal EReal, runOps {} cityOps Dictionary.new = some d :=
  ⟨_, rfl⟩

theorem city_freqs : FreqsExact cityOps := by
  intro op hop f hf
  simp only [cityOps, List.mem_cons, List.not_mem_nil, or_false] at hop
  rcases hop with rfl | rfl | rfl <;> cases hf
  · exact ⟨20, by norm_num, rfl⟩
  · exact ⟨20, by norm_num, rfl⟩
  · exact ⟨360, by norm_num, rfl⟩

theorem city_total {d : Dictionary EReal EReal} (hr : runOps {} cityOps Dictionary.new = some d) : d.totalFreq = ((400 : ℝ) : EReal) := by
  rw [(C06_counters {} cityOps (by decide +kernel) d hr).2.1]
  simp [absRun, cityOps, AbsDict.step, AbsDict.add, normShang, normHai, normCity, F64.add, F64.ofNat]
  norm_cast

/-- The frequencies stored. -/
theorem freq_content {ops : List (DictOp EReal)} {d : Dictionary EReal EReal} (hl : ops.length ≤ Trie.valueLimit)
    (hr : runOps {} ops Dictionary.new = some d) (k : Bytes) : (storedTok d k).map (·.freq) = ((absRun {} ops).content k).map (·.1) := by
  have := storedTok_content (F := EReal) hl hr k
  rw [← this]
  cases storedTok d k <;> rfl

/-- The hypotheses of C27 and C11 hold for it; `Segment` has been preceded by a recalculation. -/
example : ∃ d0 d : Dictionary EReal EReal, runOps {} cityOps Dictionary.new = some d0 ∧ FreqsExact cityOps ∧ 1 ≤ d0.totalFreq ∧
    0 < d0.totalFreq ∧ calcToken d0 = some d ∧ ∀ w t, storedTok d w = some t → t.freq ≠ d.totalFreq := by
  obtain ⟨d0, hr⟩ := city_run
  obtain ⟨d, hd⟩ := calcToken_total (wf_run cityOps (Dictionary.wf_new _) hr)
  have hr' : runOps {} (cityOps ++ [.recalc]) Dictionary.new = some d := by rw [runOps_append, hr]; simpa [runOps, DictOp.step] using hd
  have hT := city_total hr
  refine ⟨d0, d, hr, city_freqs, ?_, ?_, hd, ?_⟩
  · rw [hT]; exact_mod_cast (by norm_num : (1 : ℝ) ≤ 400)
  · rw [hT]; exact_mod_cast (by norm_num : (0 : ℝ) < 400)
  · intro w t hw
    have := freq_content (by decide +kernel) hr' w
    rw [absRun_snoc, hw] at this
    rw [(calcToken_same hd).total, hT]
    simp only [AbsDict.step, city_content, Option.map_some] at this
    split at this
    · simp only [Option.map_some, Option.some.injEq] at this
      rw [this]; exact_mod_cast (by norm_num : (360 : ℝ) ≠ 400)
    · split at this
      · simp only [Option.map_some, Option.some.injEq] at this
        rw [this]; exact_mod_cast (by norm_num : (20 : ℝ) ≠ 400)
      · split at this
        · simp only [Option.map_some, Option.some.injEq] at this
          rw [this]; exact_mod_cast (by norm_num : (20 : ℝ) ≠ 400)
        · simp at this

end examples

end Gse
