import Verif.Spec.Exact
import Verif.Proofs.Total
import Verif.Proofs.DagBest
import Verif.Proofs.Output

/-!
# The laws of the optimality theorems in exact arithmetic
-/

set_option linter.unusedSectionVars false

namespace Gse

open Spec

section dag

variable {D : Type} [ParseFn] [F32 D] [Narrow EReal D]

theorem exact_lt (a b : EReal) : F64.lt a b = decide (a < b) := by
  simp only [F64.lt]

theorem exact_lt_true {a b : EReal} : F64.lt a b = true ↔ a < b := by rw [exact_lt]; simp

theorem exact_lt_false {a b : EReal} : F64.lt a b = false ↔ b ≤ a := by rw [exact_lt]; simp

theorem exact_eq_true {a b : EReal} : F64.eq a b = true ↔ a = b := by simp [F64.eq]

/-- Numbers from zero down, with `-∞`. -/
instance exactF64Laws : F64Laws EReal where
  good x := x ≤ 0
  good_zero := by simp [F64.ofNat]
  good_add := fun ha hb => by
    have := add_le_add ha hb
    simpa [F64.add] using this
  lt_asymm := fun _ _ h => by rw [exact_lt_true] at h; rw [exact_lt_false]; exact h.le
  lt_cotrans := fun {a b c} _ _ _ h => by
    rw [exact_lt_true] at h
    by_cases h1 : a < b
    · exact Or.inl (exact_lt_true.2 h1)
    · exact Or.inr (exact_lt_true.2 (lt_of_le_of_lt (not_lt.1 h1) h))
  add_mono := fun {a b c} _ _ _ h => by
    rw [exact_lt_false] at h ⊢
    exact add_le_add (le_refl c) h
  add_comm := fun _ _ => _root_.add_comm (G := EReal) _ _
  eq_iff := fun {a b} _ _ => by
    rw [exact_eq_true, exact_lt_false, exact_lt_false]
    exact ⟨fun h => ⟨h.symm.le, h.le⟩, fun h => le_antisymm h.2 h.1⟩

/-- What is known of a dictionary with exact frequencies: the total is a number, and no frequency is above it. -/
structure Counts (d : Dictionary EReal D) : Prop where
  total : Amount d.totalFreq
  freq : ∀ t ∈ d.tokens, Amount t.freq ∧ t.freq ≤ d.totalFreq

theorem foldl_counts : ∀ (l : List EReal) (a : ℝ), 0 ≤ a → (∀ f ∈ l, Amount f) →
    ∃ r : ℝ, a ≤ r ∧ l.foldl F64.add (a : EReal) = (r : EReal) ∧ ∀ f ∈ l, f ≤ (r : EReal)
  | [], a, _, _ => ⟨a, le_refl _, rfl, by simp⟩
  | f :: l, a, ha, h => by
    obtain ⟨x, hx, rfl⟩ := h f (by simp)
    have e : F64.add (a : EReal) (x : EReal) = ((a + x : ℝ) : EReal) := (EReal.coe_add a x).symm
    obtain ⟨r, h1, h2, h3⟩ := foldl_counts l (a + x) (by linarith) (fun g hg => h g (by simp [hg]))
    refine ⟨r, by linarith, by rw [List.foldl_cons, e, h2], ?_⟩
    intro g hg
    rcases List.mem_cons.1 hg with rfl | hg
    · exact EReal.coe_le_coe_iff.2 (by linarith)
    · exact h3 g hg

theorem counts_run [Unicode] {cfg : SplitCfg} {ops : List (DictOp EReal)} {d : Dictionary EReal D}
    (hr : runOps cfg ops Dictionary.new = some d) (hf : FreqsExact ops) : Counts d := by
  have inv := totalInv_run (P := Amount) ops (totalInv_new _) hf hr
  obtain ⟨r, h1, h2, h3⟩ := foldl_counts (d.tokens.map (·.freq)) 0 (le_refl _) (by
    intro f hf
    obtain ⟨t, ht, rfl⟩ := List.mem_map.1 hf
    exact inv.all t ht)
  have e : d.totalFreq = (r : EReal) := by
    rw [inv.total, ← h2]
    congr 1
    simp [F64.ofNat]
  exact ⟨⟨r, h1, e⟩, fun t ht => ⟨inv.all t ht, by rw [e]; exact h3 _ (List.mem_map_of_mem ht)⟩⟩

/-- The frequency a piece counts with is a number, not above the total if that is at least 1. -/
theorem pieceFreq_amount {d : Dictionary EReal D} (hc : Counts d) (h1 : 1 ≤ d.totalFreq) (t : List Rune) :
    Amount (pieceFreq d t) ∧ pieceFreq d t ≤ d.totalFreq := by
  unfold pieceFreq
  split
  · next tok htok =>
    have hm : tok ∈ d.tokens := by
      unfold storedTok at htok
      obtain ⟨v, _, hv⟩ := Option.bind_eq_some_iff.1 htok
      exact List.mem_of_getElem? hv
    exact hc.freq tok hm
  · split
    · refine ⟨⟨0, le_refl _, by simp [F64.ofNat]⟩, ?_⟩
      have : (0 : EReal) ≤ 1 := zero_le_one
      simpa [F64.ofNat] using this.trans h1
    · refine ⟨⟨1, zero_le_one, by simp [F64.ofNat]⟩, ?_⟩
      simpa [F64.ofNat] using h1

theorem share_nonneg {d : Dictionary EReal D} (hc : Counts d) (h1 : 1 ≤ d.totalFreq) (t : List Rune) : 0 ≤ share d t := by
  obtain ⟨⟨r, hr, e⟩, _⟩ := pieceFreq_amount hc h1 t
  obtain ⟨T, hT, eT⟩ := hc.total
  unfold share
  rw [e, eT]
  exact div_nonneg hr hT

theorem share_le_one {d : Dictionary EReal D} (hc : Counts d) (h1 : 1 ≤ d.totalFreq) (t : List Rune) : share d t ≤ 1 := by
  obtain ⟨⟨r, hr, e⟩, hle⟩ := pieceFreq_amount hc h1 t
  obtain ⟨T, hT, eT⟩ := hc.total
  unfold share
  rw [eT] at h1
  rw [e, eT] at hle
  rw [e, eT]
  have h3 : r ≤ T := by exact_mod_cast hle
  exact div_le_one_of_le₀ h3 hT

theorem likelihood_nonneg {d : Dictionary EReal D} (hc : Counts d) (h1 : 1 ≤ d.totalFreq) (ps : List (List Rune)) : 0 ≤ likelihood d ps := by
  unfold likelihood
  refine List.prod_nonneg ?_
  intro x hx
  obtain ⟨t, _, rfl⟩ := List.mem_map.1 hx
  exact share_nonneg hc h1 t

/-- The score of one piece is the logarithm of its share. -/
theorem pieceScore_share {d : Dictionary EReal D} (hc : Counts d) (h1 : 1 ≤ d.totalFreq) (t : List Rune) :
    pieceScoreBy (F64.log d.totalFreq) d t = ENNReal.log (ENNReal.ofReal (share d t)) := by
  obtain ⟨⟨r, hr, e⟩, _⟩ := pieceFreq_amount hc h1 t
  obtain ⟨T, hT, eT⟩ := hc.total
  have h2 : (1 : ℝ) ≤ T := by rw [eT] at h1; exact_mod_cast h1
  unfold pieceScoreBy share
  rw [e, eT]
  simp only [F64.log, F64.sub, EReal.real_coe_toENNReal, EReal.toReal_coe]
  rw [ENNReal.ofReal_div_of_pos (by linarith), sub_eq_add_neg, ← ENNReal.log_inv, ← ENNReal.log_mul_add, div_eq_mul_inv]

/-- The score of a route is the logarithm of its likelihood. -/
theorem score_likelihood {d : Dictionary EReal D} (hc : Counts d) (h1 : 1 ≤ d.totalFreq) (ps : List (List Rune)) :
    score d ps = ENNReal.log (ENNReal.ofReal (likelihood d ps)) := by
  induction ps with
  | nil => simp [scoreBy, likelihood, F64.ofNat]
  | cons t ps ih =>
    have e : score d (t :: ps) = pieceScoreBy (F64.log d.totalFreq) d t + score d ps := rfl
    have e2 : likelihood d (t :: ps) = share d t * likelihood d ps := by simp [likelihood]
    rw [e, ih, pieceScore_share hc h1, e2, ENNReal.ofReal_mul (share_nonneg hc h1 t), ENNReal.log_mul_add]

theorem goodScores_exact {d : Dictionary EReal D} (hc : Counts d) (h1 : 1 ≤ d.totalFreq) : GoodScores d := by
  intro t _ _
  rw [pieceScore_share hc h1]
  show _ ≤ (0 : EReal)
  rw [ENNReal.log_le_zero_iff]
  rw [ENNReal.ofReal_le_one]
  exact share_le_one hc h1 t

theorem score_lt {d : Dictionary EReal D} (hc : Counts d) (h1 : 1 ≤ d.totalFreq) (ps qs : List (List Rune)) :
    F64.lt (score d ps) (score d qs) = false ↔ likelihood d qs ≤ likelihood d ps := by
  rw [exact_lt_false, score_likelihood hc h1, score_likelihood hc h1, ENNReal.log_le_log_iff,
    ENNReal.ofReal_le_ofReal_iff (likelihood_nonneg hc h1 ps)]

end dag

/-! ## Distances -/

section seg

theorem exact_gt_true {a b : EReal} : F32.gt a b = true ↔ b < a := by simp [F32.gt]

theorem exact_gt_false {a b : EReal} : F32.gt a b = false ↔ a ≤ b := by simp [F32.gt]

/-- Numbers from zero up, with `+∞`. -/
instance exactF32Laws : F32Laws EReal where
  good x := 0 ≤ x
  good_zero := le_refl _
  good_c32 := by simp only [F32.c32]; exact_mod_cast (by norm_num : (0 : ℝ) ≤ 32)
  pos_c32 := by rw [exact_gt_true]; simp only [F32.c32, F32.zero]; exact_mod_cast (by norm_num : (0 : ℝ) < 32)
  good_add := fun ha hb => add_nonneg (α := EReal) ha hb
  gt_asymm := fun _ _ h => by rw [exact_gt_true] at h; rw [exact_gt_false]; exact h.le
  gt_cotrans := fun {a b c} _ _ _ h => by
    rw [exact_gt_true] at h
    by_cases h1 : b < a
    · exact Or.inl (exact_gt_true.2 h1)
    · exact Or.inr (exact_gt_true.2 (lt_of_lt_of_le h (not_lt.1 h1)))
  add_mono := fun {a b c} _ _ _ h => by
    rw [exact_gt_false] at h ⊢
    exact add_le_add h (le_refl c)
  add_pos := fun {a b} ha _ h => by
    rw [exact_gt_true] at h ⊢
    have : (0 : EReal) + b ≤ a + b := add_le_add ha (le_refl b)
    rw [zero_add] at this
    exact lt_of_lt_of_le h this
  isZero_pos := fun {a} _ h => by
    rw [exact_gt_true] at h
    simp only [F32.isZero, decide_eq_false_iff_not]
    exact ne_of_gt h

variable [ParseFn] [Unicode]

/-- The tokens after a recalculation. -/
theorem calcToken_exact {d d' : Dictionary EReal EReal} (h : calcToken d = some d') {i : Nat} {t' : Token EReal EReal}
    (ht' : d'.tokens[i]? = some t') : ∃ t, d.tokens[i]? = some t ∧ t'.freq = t.freq ∧
      t'.distance = F64.log2 d.totalFreq - F64.log2 t.freq := by
  simp only [calcToken, Option.bind_eq_bind, Option.bind_eq_some_iff] at h
  obtain ⟨toks, hts, e⟩ := h
  simp only [Option.some.injEq] at e
  subst e
  simp only at ht'
  rcases mapOpt_get hts i with ⟨_, h2⟩ | ⟨a, b, h1, h2, h3⟩
  · rw [h2] at ht'; simp at ht'
  · rw [h2] at ht'; cases ht'
    simp only [withDistances, List.getElem?_map, Option.map_eq_some_iff] at h1
    obtain ⟨t, h4, h5⟩ := h1
    refine ⟨t, h4, ?_⟩
    simp only [Option.bind_eq_some_iff] at h3
    obtain ⟨segs, h6, kept, h7, h8⟩ := h3
    subst h5
    simp only [Option.some.injEq] at h8
    rw [← h8]
    exact ⟨rfl, rfl⟩

/-- The distance belonging to a share. -/
noncomputable def shareDist (q : ℝ) : EReal := -(ENNReal.log (ENNReal.ofReal q) / ((Real.log 2 : ℝ) : EReal))

theorem log2_pos : 0 < Real.log 2 := Real.log_pos (by norm_num)

theorem shareDist_of_pos {q : ℝ} (h : 0 < q) : shareDist q = ((-(Real.log q / Real.log 2) : ℝ) : EReal) := by
  unfold shareDist
  rw [ENNReal.log_ofReal_of_pos h, ← EReal.coe_div, ← EReal.coe_neg]

theorem shareDist_zero : shareDist 0 = ⊤ := by
  unfold shareDist
  rw [ENNReal.ofReal_zero, ENNReal.log_zero, EReal.bot_div_of_pos_ne_top (by exact_mod_cast log2_pos) (EReal.coe_ne_top _), EReal.neg_bot]

theorem shareDist_mul {q r : ℝ} (hq : 0 ≤ q) (hr : 0 ≤ r) : shareDist (q * r) = shareDist q + shareDist r := by
  rcases hq.eq_or_lt with rfl | hq
  · rw [zero_mul, shareDist_zero]
    rcases hr.eq_or_lt with rfl | hr
    · rw [shareDist_zero]; rfl
    · rw [shareDist_of_pos hr, EReal.top_add_coe]
  · rcases hr.eq_or_lt with rfl | hr
    · rw [mul_zero, shareDist_zero, shareDist_of_pos hq, EReal.coe_add_top]
    · rw [shareDist_of_pos hq, shareDist_of_pos hr, shareDist_of_pos (mul_pos hq hr), ← EReal.coe_add, Real.log_mul hq.ne' hr.ne']
      congr 1; ring

theorem shareDist_le {q r : ℝ} (hq : 0 ≤ q) (hr : 0 ≤ r) : shareDist q ≤ shareDist r ↔ r ≤ q := by
  rcases hq.eq_or_lt with rfl | hq
  · rw [shareDist_zero]
    rcases hr.eq_or_lt with rfl | hr
    · simp [shareDist_zero]
    · rw [shareDist_of_pos hr]
      constructor
      · intro h; exact absurd (top_le_iff.1 h) (EReal.coe_ne_top _)
      · intro h; exact absurd h (not_le.2 hr)
  · rcases hr.eq_or_lt with rfl | hr
    · rw [shareDist_zero]; simp [hq.le]
    · rw [shareDist_of_pos hq, shareDist_of_pos hr, EReal.coe_le_coe_iff, neg_le_neg_iff, div_le_div_iff_of_pos_right log2_pos,
        Real.log_le_log_iff hr hq]

theorem log2_real {r : ℝ} (h : 0 < r) : F64.log2 (r : EReal) = ((Real.log r / Real.log 2 : ℝ) : EReal) := by
  simp only [F64.log2, EReal.real_coe_toENNReal]
  rw [ENNReal.log_ofReal_of_pos h, ← EReal.coe_div]

/-- The distance of a stored token is that of its share. -/
theorem dist_share {T f : ℝ} (hT : 0 < T) (hf : 0 ≤ f) : F64.log2 (T : EReal) - F64.log2 (f : EReal) = shareDist (f / T) := by
  rcases hf.eq_or_lt with rfl | hf
  · rw [zero_div, shareDist_zero, log2_real hT]
    have : F64.log2 ((0 : ℝ) : EReal) = ⊥ := by
      simp only [F64.log2, EReal.real_coe_toENNReal]
      rw [ENNReal.ofReal_zero, ENNReal.log_zero, EReal.bot_div_of_pos_ne_top (by exact_mod_cast log2_pos) (EReal.coe_ne_top _)]
    rw [this]; rfl
  · rw [log2_real hT, log2_real hf, shareDist_of_pos (div_pos hf hT), ← EReal.coe_sub, Real.log_div hf.ne' hT.ne']
    congr 1; ring

theorem c32_share : (F32.c32 : EReal) = shareDist ((2 ^ 32)⁻¹) := by
  rw [shareDist_of_pos (by positivity), Real.log_inv, Real.log_pow]
  simp only [F32.c32]
  congr 1
  have := log2_pos.ne'
  field_simp
  norm_num

end seg

end Gse
