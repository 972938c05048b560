import Verif.Proofs.Error
import Verif.Props.Ieee

/-!
# C71: what rounding may cost
-/

set_option linter.unusedSectionVars false

namespace Gse

open Spec

variable {M : MathFns}

theorem rep_of_ok {f : Format} {s : Bool} {q : ℚ} (h : (Datum.fin s q).Ok f) : f.Rep q := (f.rep_iff q).2 h.1

theorem isFin_rep {f : Format} {x : Datum} (h : x.IsFin) (ok : x.Ok f) : ∃ s, x = .fin s x.val ∧ f.Rep x.val := by
  obtain ⟨s, hs⟩ := h.eq
  refine ⟨s, hs, ?_⟩
  rw [hs] at ok
  exact rep_of_ok ok

section route
variable [Unicode]

/-- The frequencies of pieces are finite numbers from zero up. -/
theorem pieceFreq_fin {cfg : SplitCfg} {ops : List (DictOp (Binary64 M))} {d : Dictionary (Binary64 M) Binary32}
    (hr : runOps cfg ops Dictionary.new = some d) (hf : FreqsNonNeg ops) (hfin : d.totalFreq.datum.IsFin) (t : List Rune) :
    (pieceFreq d t).datum.IsFin ∧ 0 ≤ (pieceFreq d t).datum.val := by
  obtain ⟨_, hall⟩ := total_ge hr hf
  unfold pieceFreq
  split
  · next tok htok =>
    obtain ⟨h2, h3⟩ := hall tok (storedTok_mem htok)
    have h4 := isFin_of_le h2 hfin h3
    obtain ⟨s, hs⟩ := h4.eq
    rw [hs] at h2
    exact ⟨h4, h2⟩
  · split
    · rw [zero_datum]; exact ⟨trivial, le_refl _⟩
    · rw [one_datum]; exact ⟨trivial, zero_le_one⟩

theorem total_pos {d : Dictionary (Binary64 M) Binary32} (hfin : d.totalFreq.datum.IsFin)
    (h1 : F64.lt d.totalFreq (F64.ofNat 1) = false) : 1 ≤ d.totalFreq.datum.val := by
  obtain ⟨s, hs⟩ := hfin.eq
  have : Datum.lt d.totalFreq.datum (F64.ofNat 1 : Binary64 M).datum = false := h1
  rw [one_datum, hs] at this
  simpa only [Datum.lt, decide_eq_false_iff_not, not_lt] using this

/-- A logarithm as computed, for a number above zero. -/
theorem log_approx {g : Num64 → Num64} {ln : ℝ → ℝ} {ε : ℝ} (h0 : 0 ≤ ε) (hlog : LogLike g) (hacc : LogAccurate g ln ε) {x : Num64}
    (hx : x.datum.IsFin) (hp : 0 < x.datum.val) :
    ∃ s c, (g x).datum = .fin s c ∧ f64.Rep c ∧ |c| ≤ 2 ^ (11 : ℤ) ∧ Approx (1 + ε) (ln x.datum.val) |ln x.datum.val| c := by
  obtain ⟨h1, h2⟩ := hacc.near x hx hp
  obtain ⟨s, hs, hrep⟩ := isFin_rep h1 (g x).ok
  have hn : x.datum.NonNeg := by
    obtain ⟨t, ht⟩ := hx.eq
    rw [ht]; exact hp.le
  refine ⟨s, _, hs, hrep, ?_, ⟨by linarith, le_refl _, ?_⟩⟩
  · rcases hlog.range x hn hx with h | h
    · rw [h] at h1; cases h1
    · have : (2 : ℚ) ^ (11 : ℤ) = 2048 := by norm_num
      rw [this]; exact h.2
  · rw [add_sub_cancel_left]; exact h2

variable {ε : ℝ} {cfg : SplitCfg} {ops : List (DictOp (Binary64 M))} {d : Dictionary (Binary64 M) Binary32}

/-- The score of one piece. -/
theorem pieceScore_approx (h0 : 0 ≤ ε) (hlog : LogLike M.log) (hacc : LogAccurate M.log Real.log ε)
    (hr : runOps cfg ops Dictionary.new = some d) (hf : FreqsNonNeg ops) (hfin : d.totalFreq.datum.IsFin)
    (h1 : F64.lt d.totalFreq (F64.ofNat 1) = false) (t : List Rune) (hp : 0 < (pieceFreq d t).datum.val) :
    ∃ s c, (pieceScoreBy (F64.log d.totalFreq) d t).datum = .fin s c ∧ f64.Rep c ∧ |c| ≤ 2 ^ (65 : ℤ) ∧
      Approx ((1 + ε) * (1 + (2 ^ 53)⁻¹)) (Real.log (pieceFreq d t).datum.val - Real.log d.totalFreq.datum.val)
        (|Real.log (pieceFreq d t).datum.val| + |Real.log d.totalFreq.datum.val|) c := by
  have hT := total_pos hfin h1
  obtain ⟨s, a, e1, ra, ba, aa⟩ := log_approx h0 hlog hacc (x := (pieceFreq d t).num) (pieceFreq_fin hr hf hfin t).1 hp
  obtain ⟨s', b, e2, rb, bb, ab⟩ := log_approx h0 hlog hacc (x := d.totalFreq.num) hfin (by linarith)
  have hsub : (pieceScoreBy (F64.log d.totalFreq) d t).datum = Datum.add f64 (.fin s a) (.fin (!s') (-b)) := by
    show Datum.add f64 (M.log (pieceFreq d t).num).datum (M.log d.totalFreq.num).datum.neg = _
    rw [e1, e2]; rfl
  have ab' := ab.neg
  obtain ⟨u, c, e3, rc, bc, ac⟩ := add_approx (f := f64) (e := 11) (by decide) (by decide) (s := s) (t := !s') ra rb.neg
    (ba.trans (zpow_le_zpow_right₀ (by norm_num) (by decide))) (by rw [abs_neg]; exact bb) aa (by push_cast; exact ab')
  exact ⟨u, c, by rw [hsub, e3], rc, bc, by rw [sub_eq_add_neg]; exact ac⟩

/-- The score of a route of pieces that occur. -/
theorem score_approx (h0 : 0 ≤ ε) (hlog : LogLike M.log) (hacc : LogAccurate M.log Real.log ε)
    (hr : runOps cfg ops Dictionary.new = some d) (hf : FreqsNonNeg ops) (hfin : d.totalFreq.datum.IsFin)
    (h1 : F64.lt d.totalFreq (F64.ofNat 1) = false) : ∀ (ps : List (List Rune)), (∀ t ∈ ps, 0 < (pieceFreq d t).datum.val) →
    ∃ s c x, (score d ps).datum = .fin s c ∧ f64.Rep c ∧ |c| ≤ 2 ^ (119 : ℤ) ∧ routeProb d ps = Real.exp x ∧
      Approx ((1 + ε) * (1 + (2 ^ 53)⁻¹) ^ (ps.length + 1)) x (routeSize d ps) c
  | [], _ => by
    refine ⟨false, 0, 0, zero_datum, ?_, by simp, by simp [routeProb], ?_⟩
    · exact (f64.rep_iff 0).2 f64.round_zero
    · have hk : (1 : ℝ) ≤ (1 + ε) * (1 + (2 ^ 53)⁻¹) ^ (0 + 1) := by
        rw [zero_add, pow_one]
        have : (0 : ℝ) ≤ (2 ^ 53)⁻¹ := by positivity
        nlinarith
      simpa [routeSize] using Approx.zero hk
  | t :: ps, hps => by
    obtain ⟨s, b, x, e1, rb, bb, ex, ab⟩ := score_approx h0 hlog hacc hr hf hfin h1 ps (fun u hu => hps u (by simp [hu]))
    have hp := hps t (by simp)
    obtain ⟨s', a, e2, ra, ba, aa⟩ := pieceScore_approx h0 hlog hacc hr hf hfin h1 t hp
    have hT := total_pos hfin h1
    have hu : (0 : ℝ) ≤ (2 ^ 53)⁻¹ := by positivity
    have hmono : (1 + ε) * (1 + (2 ^ 53)⁻¹) ≤ (1 + ε) * (1 + (2 ^ 53 : ℝ)⁻¹) ^ (ps.length + 1) := by
      refine mul_le_mul_of_nonneg_left ?_ (by linarith)
      calc (1 + (2 ^ 53 : ℝ)⁻¹) = (1 + (2 ^ 53 : ℝ)⁻¹) ^ 1 := (pow_one _).symm
        _ ≤ _ := pow_le_pow_right₀ (by linarith) (by omega)
    obtain ⟨u, c, e3, rc, bc, ac⟩ := add_approx (f := f64) (e := 65) (by decide) (by decide) (s := s) (t := s') rb ra bb ba ab (aa.mono hmono)
    refine ⟨u, c, Real.log (pieceFreq d t).datum.val - Real.log d.totalFreq.datum.val + x, ?_, rc, bc, ?_, ?_⟩
    · show Datum.add f64 (pieceScoreBy (F64.log d.totalFreq) d t).datum (score d ps).datum = _
      rw [e1, e2, Datum.add_comm, e3]
    · have hT' : (0 : ℝ) < d.totalFreq.datum.val := by exact_mod_cast (by linarith : (0 : ℚ) < d.totalFreq.datum.val)
      have hp' : (0 : ℝ) < (pieceFreq d t).datum.val := by exact_mod_cast hp
      have : routeProb d (t :: ps) = pieceProb d t * routeProb d ps := by simp [routeProb]
      rw [this, ex, Real.exp_add, Real.exp_sub, Real.exp_log hp', Real.exp_log hT']
      rfl
    · have hz : routeSize d (t :: ps) = (|Real.log (pieceFreq d t).datum.val| + |Real.log d.totalFreq.datum.val|) + routeSize d ps := by
        simp [routeSize]
      rw [hz, add_comm _ x, add_comm _ (routeSize d ps), List.length_cons, pow_succ, ← mul_assoc]
      exact ac

theorem add_bot {f : Format} {x y : Datum} (hx : x.NonPos) (hy : y.NonPos) (h : x = .inf true ∨ y = .inf true) : Datum.add f x y = .inf true := by
  cases x <;> cases y <;> simp_all [Datum.NonPos, Datum.add]

/-- A piece that does not occur makes the score of a route `-Inf`. -/
theorem score_bot (hlog : LogLike M.log) (hacc : LogAccurate M.log Real.log ε)
    (hr : runOps cfg ops Dictionary.new = some d) (hf : FreqsNonNeg ops) (hfin : d.totalFreq.datum.IsFin)
    (h1 : F64.lt d.totalFreq (F64.ofNat 1) = false) {text : List Rune} {ps : List (List Rune)} (hroute : IsRoute d text ps)
    (hz : ∃ t ∈ ps, (pieceFreq d t).datum.val = 0) : (score d ps).datum = .inf true := by
  have good : ∀ ps : List (List Rune), (∀ t ∈ ps, (pieceScoreBy (F64.log d.totalFreq) d t).datum.NonPos) → (score d ps).datum.NonPos := by
    intro ps
    induction ps with
    | nil => intro _; show ((F64.ofNat 0 : Binary64 M).datum).NonPos; rw [zero_datum]; exact le_refl _
    | cons t ps ih =>
      intro h
      exact Datum.NonPos.add (f := f64) (h t (by simp)) (ih fun u hu => h u (by simp [hu]))
  have hg := goodScores_ieee hlog cfg ops d hr hf hfin h1
  have hall : ∀ t ∈ ps, (pieceScoreBy (F64.log d.totalFreq) d t).datum.NonPos := by
    intro t ht
    obtain ⟨h2, h3⟩ := isRoute_pieces hroute t ht
    exact hg t h2 h3
  have hT := total_pos hfin h1
  obtain ⟨t, ht, hv⟩ := hz
  have hbot : (pieceScoreBy (F64.log d.totalFreq) d t).datum = .inf true := by
    show Datum.add f64 (M.log (pieceFreq d t).num).datum (M.log d.totalFreq.num).datum.neg = _
    rw [hacc.zero _ (pieceFreq_fin hr hf hfin t).1 hv]
    obtain ⟨s, hs⟩ := (hacc.near d.totalFreq.num hfin (by linarith)).1.eq
    rw [hs]; rfl
  clear hroute
  induction ps with
  | nil => cases ht
  | cons u ps ih =>
    show Datum.add f64 (pieceScoreBy (F64.log d.totalFreq) d u).datum (score d ps).datum = _
    refine add_bot (hall u (by simp)) (good ps fun v hv => hall v (by simp [hv])) ?_
    rcases List.mem_cons.1 ht with rfl | ht
    · exact Or.inl hbot
    · exact Or.inr (ih (fun v hv => hall v (by simp [hv])) ht)

/-- No route is more probable than the best by scores, up to the errors of both. -/
theorem best_prob (h0 : 0 ≤ ε) (hlog : LogLike M.log) (hacc : LogAccurate M.log Real.log ε)
    (hr : runOps cfg ops Dictionary.new = some d) (hf : FreqsNonNeg ops) (hfin : d.totalFreq.datum.IsFin)
    (h1 : F64.lt d.totalFreq (F64.ofNat 1) = false) {text : List Rune} {ps : List (List Rune)} (hb : IsBestRoute d text ps)
    {qs : List (List Rune)} (hq : IsRoute d text qs) : routeProb d qs ≤ routeProb d ps * Real.exp (routeErr ε d ps + routeErr ε d qs) := by
  have hT := total_pos hfin h1
  have hnn : ∀ rs : List (List Rune), 0 ≤ routeProb d rs := by
    intro rs
    refine List.prod_nonneg ?_
    intro x hx
    obtain ⟨t, _, rfl⟩ := List.mem_map.1 hx
    refine div_nonneg ?_ ?_
    · exact_mod_cast (pieceFreq_fin hr hf hfin t).2
    · exact_mod_cast (by linarith : (0 : ℚ) ≤ d.totalFreq.datum.val)
  by_cases hqz : ∃ t ∈ qs, (pieceFreq d t).datum.val = 0
  · obtain ⟨t, ht, hv⟩ := hqz
    have : routeProb d qs = 0 := by
      refine List.prod_eq_zero (List.mem_map.2 ⟨t, ht, ?_⟩)
      simp [pieceProb, hv]
    rw [this]
    exact mul_nonneg (hnn _) (Real.exp_pos _).le
  have pos : ∀ rs : List (List Rune), (¬ ∃ t ∈ rs, (pieceFreq d t).datum.val = 0) → ∀ t ∈ rs, 0 < (pieceFreq d t).datum.val := by
    intro rs h t ht
    exact lt_of_le_of_ne (pieceFreq_fin hr hf hfin t).2 fun e => h ⟨t, ht, e.symm⟩
  obtain ⟨s, c, x, e1, _, _, ex, ac⟩ := score_approx h0 hlog hacc hr hf hfin h1 qs (pos qs hqz)
  have hle := hb.highest [] ps rfl qs (by rw [isRoute_flatten hb.route]; exact hq)
  have hle' : Datum.lt (score d ps).datum (score d qs).datum = false := hle
  by_cases hpz : ∃ t ∈ ps, (pieceFreq d t).datum.val = 0
  · rw [score_bot hlog hacc hr hf hfin h1 hb.route hpz, e1] at hle'
    simp [Datum.lt] at hle'
  obtain ⟨s', c', x', e2, _, _, ex', ac'⟩ := score_approx h0 hlog hacc hr hf hfin h1 ps (pos ps hpz)
  rw [e1, e2] at hle'
  simp only [Datum.lt, decide_eq_false_iff_not, not_lt] at hle'
  have hcc : (c : ℝ) ≤ c' := by exact_mod_cast hle'
  rw [ex, ex', ← Real.exp_add, Real.exp_le_exp]
  have h2 := (abs_le.1 ac.near).1
  have h3 := (abs_le.1 ac'.near).2
  unfold routeErr growth
  linarith

/-- C71: with `math.Log` accurate to a relative error `ε`, `Cut(str, false)` follows a route whose probability is within
`exp (routeErr)` of every other. -/
theorem C71_cut [UnicodeOK] (h0 : 0 ≤ ε) (hlog : LogLike M.log) (hacc : LogAccurate M.log Real.log ε) (cfg : SplitCfg)
    (ops : List (DictOp (Binary64 M))) (d : Dictionary (Binary64 M) Binary32) (hr : runOps cfg ops Dictionary.new = some d)
    (hf : FreqsNonNeg ops) (hfin : d.totalFreq.datum.IsFin) (h1 : F64.lt d.totalFreq (F64.ofNat 1) = false) (s : Bytes) :
    ∃ ps gs, IsRoute d (dagText cfg s) ps ∧ IsRuns EngPiece ps gs ∧ cutDAGNoHMM cfg d s = some (gs.map fun g => encode g.flatten) ∧
      ∀ qs, IsRoute d (dagText cfg s) qs → routeProb d qs ≤ routeProb d ps * Real.exp (routeErr ε d ps + routeErr ε d qs) := by
  obtain ⟨ps, gs, h2, h3, h4⟩ := C27_ieee hlog cfg ops d hr hf hfin h1 s
  exact ⟨ps, gs, h2.route, h3, h4, fun qs hq => best_prob h0 hlog hacc hr hf hfin h1 h2 hq⟩

/-- C71: the same for `Cut(str, true)`. -/
theorem C71_cut_hmm [UnicodeOK] (h0 : 0 ≤ ε) (hlog : LogLike M.log) (hacc : LogAccurate M.log Real.log ε) (cfg : SplitCfg)
    (ops : List (DictOp (Binary64 M))) (d : Dictionary (Binary64 M) Binary32) (hr : runOps cfg ops Dictionary.new = some d)
    (hf : FreqsNonNeg ops) (hfin : d.totalFreq.datum.IsFin) (h1 : F64.lt d.totalFreq (F64.ofNat 1) = false)
    (cut : Bytes → Option (List Bytes)) (hc : ∀ t : List Rune, 2 ≤ t.length → ∃ o, cut (encode t) = some o) (s : Bytes) :
    ∃ ps gs outs, IsRoute d (dagText cfg s) ps ∧ IsRuns (fun t : List Rune => t.length = 1) ps gs ∧ List.Forall₂ (RunOut d cut) gs outs ∧
      cutDAG cfg d cut s = some outs.flatten ∧
      ∀ qs, IsRoute d (dagText cfg s) qs → routeProb d qs ≤ routeProb d ps * Real.exp (routeErr ε d ps + routeErr ε d qs) := by
  obtain ⟨ps, gs, outs, h2, h3, h4, h5⟩ := C27_ieee_hmm hlog cfg ops d hr hf hfin h1 cut hc s
  exact ⟨ps, gs, outs, h2.route, h3, h4, h5, fun qs hq => best_prob h0 hlog hacc hr hf hfin h1 h2 hq⟩

end route

section seg
variable [Unicode] {ε : ℝ}

omit [Unicode] in
/-- Numbers of binary64 other than 1 are not very near to it. -/
theorem near_one {x : ℚ} (h : f64.Rep x) (hx : 0 < x) (h1 : x ≠ 1) : (1 : ℚ) / 2 ^ 53 ≤ |Real.log (x : ℝ)| := by
  have key : x ≤ 1 - 1 / 2 ^ 53 ∨ 1 + 1 / 2 ^ 52 ≤ x := by
    obtain ⟨m, e, hm, _, rfl⟩ := h
    have hm0 : 0 < m := by
      have := (mul_pos_iff_of_pos_right (Format.two_zpow_pos e)).1 hx
      exact_mod_cast this
    rw [abs_of_pos hm0] at hm
    have hm' : m < 2 ^ 53 := hm
    rcases le_or_gt 0 e with he | he
    · obtain ⟨k, rfl⟩ := Int.eq_ofNat_of_zero_le he
      right
      have h2 : (1 : ℤ) < m * 2 ^ k := by
        have h3 : m * 2 ^ k ≠ 1 := by
          intro e1; apply h1
          rw [zpow_natCast]
          exact_mod_cast e1
        have : 0 < m * 2 ^ k := by positivity
        omega
      have h4 : (2 : ℚ) ≤ m * 2 ^ k := by exact_mod_cast h2
      rw [zpow_natCast]
      refine le_trans ?_ h4
      norm_num
    · obtain ⟨k, rfl⟩ : ∃ k : ℕ, e = -k := ⟨(-e).toNat, by omega⟩
      have hk : (0 : ℚ) < 2 ^ k := by positivity
      rw [zpow_neg, zpow_natCast, ← div_eq_mul_inv] at h1 ⊢
      have hne : m ≠ 2 ^ k := by
        rintro rfl; apply h1
        push_cast; exact div_self hk.ne'
      rcases lt_or_gt_of_ne hne with hlt | hgt
      · left
        have h2 : (m : ℚ) + 1 ≤ 2 ^ k := by exact_mod_cast hlt
        rcases le_or_gt k 53 with hk53 | hk53
        · have h3 : (2 : ℚ) ^ k ≤ 2 ^ 53 := pow_le_pow_right₀ (by norm_num) hk53
          rw [div_le_iff₀ hk, sub_mul, one_mul]
          have : 1 / 2 ^ 53 * (2 : ℚ) ^ k ≤ 1 := by rw [div_mul_eq_mul_div, one_mul, div_le_one (by positivity)]; exact h3
          linarith
        · have h3 : (2 : ℚ) ^ 54 ≤ 2 ^ k := pow_le_pow_right₀ (by norm_num) hk53
          have h4 : (m : ℚ) < 2 ^ 53 := by exact_mod_cast hm'
          rw [div_le_iff₀ hk]
          have : (1 : ℚ) / 2 ≤ 1 - 1 / 2 ^ 53 := by norm_num
          nlinarith
      · right
        have h2 : (2 : ℚ) ^ k + 1 ≤ m := by exact_mod_cast hgt
        have h4 : (m : ℚ) < 2 ^ 53 := by exact_mod_cast hm'
        have hk52 : k ≤ 52 := by
          by_contra hc
          have : (2 : ℚ) ^ 53 ≤ 2 ^ k := pow_le_pow_right₀ (by norm_num) (by omega)
          linarith
        have h3 : (2 : ℚ) ^ k ≤ 2 ^ 52 := pow_le_pow_right₀ (by norm_num) hk52
        rw [le_div_iff₀ hk, add_mul, one_mul]
        have : 1 / 2 ^ 52 * (2 : ℚ) ^ k ≤ 1 := by rw [div_mul_eq_mul_div, one_mul, div_le_one (by positivity)]; exact h3
        linarith
  have hxr : (0 : ℝ) < x := by exact_mod_cast hx
  push_cast
  rcases key with h2 | h2
  · have h3 : (x : ℝ) ≤ 1 - 1 / 2 ^ 53 := by
      have := (Rat.cast_le (K := ℝ)).2 h2
      push_cast at this; exact this
    have h4 := Real.log_le_sub_one_of_pos hxr
    rw [abs_of_nonpos (by linarith [show (0 : ℝ) < 1 / 2 ^ 53 by positivity])]
    linarith
  · have h3 : (1 : ℝ) + 1 / 2 ^ 52 ≤ x := by
      have := (Rat.cast_le (K := ℝ)).2 h2
      push_cast at this; exact this
    have h4 := Real.one_sub_inv_le_log_of_pos hxr
    have h5 : (x : ℝ)⁻¹ ≤ (1 + 1 / 2 ^ 52)⁻¹ := inv_anti₀ (by positivity) h3
    have h6 : (1 : ℝ) / 2 ^ 53 ≤ 1 - (1 + 1 / 2 ^ 52)⁻¹ := by norm_num
    exact le_trans (by linarith) (le_abs_self _)

/-- `float32(math.Log2(x))` for a number above zero. -/
theorem log32_approx (h0 : 0 ≤ ε) (h2 : ε ≤ 1 / 2) (hlog : LogLike M.log2) (hacc : LogAccurate M.log2 (Real.logb 2) ε) {x : Num64}
    (hx : x.datum.IsFin) (hp : 0 < x.datum.val) :
    ∃ s c, Datum.convert f32 (M.log2 x).datum = .fin s c ∧ f32.Rep c ∧ |c| ≤ 2 ^ (11 : ℤ) ∧
      Approx ((1 + ε) * (1 + (2 ^ 24)⁻¹)) (Real.logb 2 x.datum.val) |Real.logb 2 x.datum.val| c := by
  obtain ⟨s, c, e1, rc, bc, ac⟩ := log_approx h0 hlog hacc hx hp
  have hbd : |f32.round c| ≤ 2 ^ (11 : ℤ) := by
    obtain ⟨h3, h4⟩ := abs_le.1 bc
    have hb := f32.round_zpow (e := 11) (by decide)
    have h5 := f32.round_mono h3
    have h6 := f32.round_mono h4
    rw [f32.round_neg, hb] at h5
    rw [hb] at h6
    exact abs_le.2 ⟨h5, h6⟩
  have hlt : |f32.round c| < 2 ^ f32.emax := by
    refine hbd.trans_lt ?_
    show (2 : ℚ) ^ (11 : ℤ) < 2 ^ 128
    norm_num
  obtain ⟨h3, h4⟩ := Datum.make_val (f := f32) s hlt
  obtain ⟨u, hu⟩ := h3.eq
  refine ⟨u, f32.round c, by rw [e1, ← h4]; exact hu, (f32.rep_iff _).2 (f32.round_round _), hbd, ?_⟩
  refine ac.round (by positivity) ?_
  have hrel : |f32.round c - c| ≤ |c| / 2 ^ f32.p := by
    by_cases hone : x.datum.val = 1
    · have hc0 : c = 0 := by
        have := ac.near
        rw [hone] at this
        simp at this
        exact this
      rw [hc0, f32.round_zero]; simp
    · refine f32.round_err_normal ?_
      obtain ⟨s', hs', hrep⟩ := isFin_rep hx x.ok
      have h5 := near_one hrep hp hone
      have h6 : (1 : ℝ) / 2 ^ 53 ≤ |Real.logb 2 x.datum.val| := by
        push_cast at h5
        refine h5.trans ?_
        unfold Real.logb
        rw [abs_div, abs_of_pos (Real.log_pos (by norm_num : (1 : ℝ) < 2)), le_div_iff₀ (Real.log_pos (by norm_num))]
        have : Real.log 2 ≤ 1 := by
          have := Real.log_le_sub_one_of_pos (show (0 : ℝ) < 2 by norm_num)
          linarith
        nlinarith [abs_nonneg (Real.log x.datum.val)]
      have h7 := ac.near
      rw [add_sub_cancel_left] at h7
      have h8 : |Real.logb 2 x.datum.val| - |(c : ℝ)| ≤ |(c : ℝ) - Real.logb 2 x.datum.val| := by
        rw [abs_sub_comm]
        exact abs_sub_abs_le_abs_sub _ _
      have h9 : (1 : ℝ) / 2 ^ 54 ≤ |(c : ℝ)| := by
        have : ε * |Real.logb 2 x.datum.val| ≤ 1 / 2 * |Real.logb 2 x.datum.val| := mul_le_mul_of_nonneg_right h2 (abs_nonneg _)
        have h10 : (1 : ℝ) / 2 ^ 54 = 1 / 2 * (1 / 2 ^ 53) := by norm_num
        linarith
      have h11 : (1 : ℚ) / 2 ^ 54 ≤ |c| := by
        refine (Rat.cast_le (K := ℝ)).1 ?_
        push_cast; exact h9
      refine le_trans ?_ h11
      show (2 : ℚ) ^ (-149 + (24 : ℕ) - 1 : ℤ) ≤ _
      norm_num
  have h3 : ((|f32.round c - c| : ℚ) : ℝ) ≤ ((|c| / 2 ^ 24 : ℚ) : ℝ) := by exact_mod_cast hrel
  push_cast at h3
  rw [div_eq_inv_mul] at h3
  exact h3

theorem calcToken_kept {d d' : Dictionary (Binary64 M) Binary32} (h : calcToken d = some d') {i : Nat} {t' : Token (Binary64 M) Binary32}
    (ht' : d'.tokens[i]? = some t') : ∃ t, d.tokens[i]? = some t ∧ t'.freq = t.freq ∧
      t'.distance = F32.sub (Narrow.narrow (F64.log2 d.totalFreq)) (Narrow.narrow (F64.log2 t.freq)) := by
  simp only [calcToken, Option.bind_eq_bind, Option.bind_eq_some_iff] at h
  obtain ⟨toks, hts, e⟩ := h
  simp only [Option.some.injEq] at e
  subst e
  simp only at ht'
  rcases mapOpt_get hts i with ⟨_, h2⟩ | ⟨a, b, h1, h2, h3⟩
  · rw [h2] at ht'; simp at ht'
  · rw [h2] at ht'; cases ht'
    simp only [withDistances, List.getElem?_map, Option.map_eq_some_iff] at h1
    obtain ⟨t, h4, h5⟩ := h1
    refine ⟨t, h4, ?_⟩
    simp only [Option.bind_eq_some_iff] at h3
    obtain ⟨segs, h6, kept, h7, h8⟩ := h3
    subst h5
    simp only [Option.some.injEq] at h8
    rw [← h8]
    exact ⟨rfl, rfl⟩

variable {cfg : SplitCfg} {ops : List (DictOp (Binary64 M))} {d0 d : Dictionary (Binary64 M) Binary32}

/-- A stored token after a recalculation: its frequency is a finite number from zero up, its distance computed from it. -/
theorem stored_facts (hr : runOps cfg ops Dictionary.new = some d0) (hf : FreqsNonNeg ops) (hfin : d0.totalFreq.datum.IsFin)
    (hc : calcToken d0 = some d) {t : Token (Binary64 M) Binary32} (ht : IsStored d t) :
    t.freq.datum.IsFin ∧ 0 ≤ t.freq.datum.val ∧
      t.distance.datum = Datum.add f32 (Datum.convert f32 (M.log2 d.totalFreq.num).datum) (Datum.convert f32 (M.log2 t.freq.num).datum).neg := by
  obtain ⟨_, hall⟩ := total_ge hr hf
  obtain ⟨i, hi⟩ := List.mem_iff_getElem?.1 (storedTok_mem ht)
  obtain ⟨t0, e0, e1, e2⟩ := calcToken_kept hc hi
  obtain ⟨h2, h3⟩ := hall t0 (List.mem_of_getElem? e0)
  have h4 := isFin_of_le h2 hfin h3
  rw [e1, e2, (calcToken_same hc).total]
  refine ⟨h4, ?_, rfl⟩
  obtain ⟨s, hs⟩ := h4.eq
  rw [hs] at h2
  exact h2

theorem c32_datum : (F32.c32 : Binary32).datum = .fin false 32 := by
  have := Datum.ofNat_exact (f := f32) (n := 32) (by decide) (by decide)
  rw [show ((32 : Nat) : ℚ) = 32 by norm_num] at this
  exact this

theorem zero32_datum : (F32.zero : Binary32).datum = .fin false 0 := by
  have := Datum.ofNat_exact (f := f32) (n := 0) (by decide) (Nat.two_pow_pos _)
  rwa [Nat.cast_zero] at this

/-- The terms of `segSize`. -/
noncomputable def tokSize (d : Dictionary (Binary64 M) Binary32) (t : Token (Binary64 M) Binary32) : ℝ :=
  open Classical in
  if IsStored d t then |Real.logb 2 (t.freq.datum.val : ℝ)| + |Real.logb 2 (d.totalFreq.datum.val : ℝ)| else 32

/-- The distance of a token that occurs. -/
theorem dist_approx (h0 : 0 ≤ ε) (h2 : ε ≤ 1 / 2) (hlog : LogLike M.log2) (hacc : LogAccurate M.log2 (Real.logb 2) ε)
    (hr : runOps cfg ops Dictionary.new = some d0) (hf : FreqsNonNeg ops) (hfin : d0.totalFreq.datum.IsFin)
    (hpos : 0 < d0.totalFreq.datum.val) (hc : calcToken d0 = some d) {t : Token (Binary64 M) Binary32} (ht : IsPiece d t)
    (hp : IsStored d t → 0 < t.freq.datum.val) :
    ∃ s c x, t.distance.datum = .fin s c ∧ f32.Rep c ∧ |c| ≤ 2 ^ (36 : ℤ) ∧ tokenProb d t = (2 : ℝ) ^ (-x) ∧
      Approx ((1 + ε) * (1 + (2 ^ 24)⁻¹) ^ 2) x (tokSize d t) c := by
  have hu : (0 : ℝ) ≤ (2 ^ 24)⁻¹ := by positivity
  have htot := (calcToken_same hc).total
  by_cases hs : IsStored d t
  · obtain ⟨h3, h4, h5⟩ := stored_facts hr hf hfin hc hs
    have hp := hp hs
    have hfin' : d.totalFreq.datum.IsFin := by rw [htot]; exact hfin
    have hpos' : 0 < d.totalFreq.datum.val := by rw [htot]; exact hpos
    obtain ⟨s, a, e1, ra, ba, aa⟩ := log32_approx h0 h2 hlog hacc (x := d.totalFreq.num) hfin' hpos'
    obtain ⟨s', b, e2, rb, bb, ab⟩ := log32_approx h0 h2 hlog hacc (x := t.freq.num) h3 hp
    have ab' := ab.neg
    obtain ⟨u, c, e3, rc, bc, ac⟩ := add_approx (f := f32) (e := 11) (by decide) (by decide) (s := s) (t := !s') ra rb.neg
      (ba.trans (zpow_le_zpow_right₀ (by norm_num) (by decide))) (by rw [abs_neg]; exact bb) aa (by push_cast; exact ab')
    refine ⟨u, c, Real.logb 2 d.totalFreq.datum.val - Real.logb 2 t.freq.datum.val, ?_, rc, bc, ?_, ?_⟩
    · rw [h5, e1, e2, ← e3]; rfl
    · have hT' : (0 : ℝ) < d.totalFreq.datum.val := by exact_mod_cast hpos'
      have hp' : (0 : ℝ) < t.freq.datum.val := by exact_mod_cast hp
      rw [tokenProb, if_pos hs, neg_sub, Real.rpow_sub (by norm_num), Real.rpow_logb (by norm_num) (by norm_num) hp',
        Real.rpow_logb (by norm_num) (by norm_num) hT']
    · rw [tokSize, if_pos hs, sub_eq_add_neg, add_comm |Real.logb 2 (t.freq.datum.val : ℝ)|, pow_two, ← mul_assoc]
      exact ac
  · rcases ht.2 with h | ⟨w, h, _⟩
    · exact absurd h hs
    · have hd : t.distance.datum = .fin false 32 := by rw [h]; exact c32_datum
      refine ⟨false, 32, 32, hd, ?_, ?_, ?_, ?_⟩
      · have := t.distance.ok
        rw [hd] at this
        exact rep_of_ok this
      · norm_num
      · rw [tokenProb, if_neg hs, Real.rpow_neg (by norm_num)]
        congr 1
        rw [show (32 : ℝ) = ((32 : ℕ) : ℝ) by norm_num, Real.rpow_natCast]
      · rw [tokSize, if_neg hs]
        have hk : (1 : ℝ) ≤ (1 + ε) * (1 + (2 ^ 24)⁻¹) ^ 2 := by
          have : (1 : ℝ) ≤ (1 + (2 ^ 24)⁻¹) ^ 2 := one_le_pow₀ (by linarith)
          nlinarith
        refine ⟨hk, by norm_num, ?_⟩
        push_cast
        rw [sub_self, abs_zero]
        nlinarith

/-- The cost of a segmentation of tokens that occur. -/
theorem cost_approx (h0 : 0 ≤ ε) (h2 : ε ≤ 1 / 2) (hlog : LogLike M.log2) (hacc : LogAccurate M.log2 (Real.logb 2) ε)
    (hr : runOps cfg ops Dictionary.new = some d0) (hf : FreqsNonNeg ops) (hfin : d0.totalFreq.datum.IsFin)
    (hpos : 0 < d0.totalFreq.datum.val) (hc : calcToken d0 = some d) (ts : List (Token (Binary64 M) Binary32)) (hts : ∀ t ∈ ts, IsPiece d t)
    (hp : ∀ t ∈ ts, IsStored d t → 0 < t.freq.datum.val) :
    ∃ s c x, (cost ts).datum = .fin s c ∧ f32.Rep c ∧ |c| ≤ 2 ^ (61 : ℤ) ∧ segProb d ts = (2 : ℝ) ^ (-x) ∧
      Approx ((1 + ε) * (1 + (2 ^ 24)⁻¹) ^ (ts.length + 2)) x (segSize d ts) c := by
  have hu : (0 : ℝ) ≤ (2 ^ 24)⁻¹ := by positivity
  induction ts using List.reverseRecOn with
  | nil =>
    refine ⟨false, 0, 0, zero32_datum, (f32.rep_iff 0).2 f32.round_zero, by simp, by simp [segProb], ?_⟩
    have hk : (1 : ℝ) ≤ (1 + ε) * (1 + (2 ^ 24)⁻¹) ^ (0 + 2) := by
      have : (1 : ℝ) ≤ (1 + (2 ^ 24)⁻¹) ^ (0 + 2) := one_le_pow₀ (by linarith)
      nlinarith
    simpa [segSize] using Approx.zero hk
  | append_singleton ts t ih =>
    obtain ⟨s, a, x, e1, ra, ba, ex, aa⟩ := ih (fun u hu => hts u (by simp [hu])) (fun u hu => hp u (by simp [hu]))
    obtain ⟨s', b, y, e2, rb, bb, ey, ab⟩ := dist_approx h0 h2 hlog hacc hr hf hfin hpos hc (hts t (by simp)) (hp t (by simp))
    have hmono : (1 + ε) * (1 + (2 ^ 24)⁻¹) ^ 2 ≤ (1 + ε) * (1 + (2 ^ 24 : ℝ)⁻¹) ^ (ts.length + 2) :=
      mul_le_mul_of_nonneg_left (pow_le_pow_right₀ (by linarith) (by omega)) (by linarith)
    obtain ⟨u, c, e3, rc, bc, ac⟩ := add_approx (f := f32) (e := 36) (by decide) (by decide) (s := s) (t := s') ra rb ba bb aa (ab.mono hmono)
    refine ⟨u, c, x + y, ?_, rc, bc, ?_, ?_⟩
    · have : cost (ts ++ [t]) = F32.add (cost ts) t.distance := by simp [cost]
      rw [this]
      show Datum.add f32 (cost ts).datum t.distance.datum = _
      rw [e1, e2, e3]
    · have : segProb d (ts ++ [t]) = segProb d ts * tokenProb d t := by simp [segProb]
      rw [this, ex, ey, neg_add, Real.rpow_add (by norm_num)]
    · have hz : segSize d (ts ++ [t]) = segSize d ts + tokSize d t := by simp [segSize, tokSize]
      have hlen : (ts ++ [t]).length + 2 = ts.length + 2 + 1 := by simp
      rw [hz, hlen, pow_succ, ← mul_assoc]
      exact ac

theorem add_top {f : Format} {x y : Datum} (hx : x.NonNeg) (hy : y.NonNeg) (h : x = .inf false ∨ y = .inf false) : Datum.add f x y = .inf false := by
  cases x <;> cases y <;> simp_all [Datum.NonNeg, Datum.add]

/-- A token that does not occur makes the cost `+Inf`. -/
theorem cost_top (hlog : LogLike M.log2) (hacc : LogAccurate M.log2 (Real.logb 2) ε)
    (hr : runOps cfg ops Dictionary.new = some d0) (hf : FreqsNonNeg ops) (hfin : d0.totalFreq.datum.IsFin)
    (hpos : 0 < d0.totalFreq.datum.val) (hc : calcToken d0 = some d) (hd : PosDist d) (ts : List (Token (Binary64 M) Binary32))
    (hts : ∀ t ∈ ts, IsPiece d t) (hz : ∃ t ∈ ts, IsStored d t ∧ t.freq.datum.val = 0) : (cost ts).datum = .inf false := by
  have htot := (calcToken_same hc).total
  have good : ∀ t, IsPiece d t → t.distance.datum.NonNeg := by
    intro t ht
    rcases ht.2 with h | ⟨w, h, _⟩
    · exact (hd _ _ h).1
    · rw [h]
      show ((F32.c32 : Binary32).datum).NonNeg
      rw [c32_datum]; exact (by norm_num : (0 : ℚ) ≤ 32)
  have gcost : ∀ ts : List (Token (Binary64 M) Binary32), (∀ t ∈ ts, IsPiece d t) → (cost ts).datum.NonNeg := by
    intro ts
    induction ts using List.reverseRecOn with
    | nil => intro _; show ((F32.zero : Binary32).datum).NonNeg; rw [zero32_datum]; exact le_refl _
    | append_singleton ts t ih =>
      intro h
      have : cost (ts ++ [t]) = F32.add (cost ts) t.distance := by simp [cost]
      rw [this]
      exact Datum.NonNeg.add (f := f32) (ih fun u hu => h u (by simp [hu])) (good t (h t (by simp)))
  induction ts using List.reverseRecOn with
  | nil => obtain ⟨t, ht, _⟩ := hz; cases ht
  | append_singleton ts t ih =>
    have e : cost (ts ++ [t]) = F32.add (cost ts) t.distance := by simp [cost]
    rw [e]
    show Datum.add f32 (cost ts).datum t.distance.datum = _
    refine add_top (gcost ts fun u hu => hts u (by simp [hu])) (good t (hts t (by simp))) ?_
    obtain ⟨u, hu, h3, h4⟩ := hz
    rcases List.mem_append.1 hu with hu | hu
    · exact Or.inl (ih (fun v hv => hts v (by simp [hv])) ⟨u, hu, h3, h4⟩)
    · simp only [List.mem_singleton] at hu
      subst hu
      right
      obtain ⟨h5, _, h6⟩ := stored_facts hr hf hfin hc h3
      rw [h6, hacc.zero _ h5 h4]
      have hL : (M.log2 d.totalFreq.num).datum.IsFin := hlog.pos _ (by rw [htot]; exact hfin) (by rw [htot]; exact hpos)
      have hn : d.totalFreq.datum.NonNeg := by
        rw [htot]
        obtain ⟨s, hs⟩ := hfin.eq
        rw [hs]; exact hpos.le
      have hL2 : |(M.log2 d.totalFreq.num).datum.val| ≤ 2048 := by
        rcases hlog.range d.totalFreq.num hn (by rw [htot]; exact hfin) with h | h
        · rw [h] at hL; cases hL
        · exact h.2
      obtain ⟨s, hs⟩ := (narrow_fin hL hL2).eq
      rw [hs]; rfl

/-- C71: with `math.Log2` accurate to a relative error `ε`, `Segment` after a recalculation returns a segmentation whose
probability is within `2 ^ segErr` of every other. -/
theorem C71_segment [UnicodeOK] (h0 : 0 ≤ ε) (h2 : ε ≤ 1 / 2) (hlog : LogLike M.log2) (hacc : LogAccurate M.log2 (Real.logb 2) ε)
    (cfg : SplitCfg) (ops : List (DictOp (Binary64 M))) (d0 d : Dictionary (Binary64 M) Binary32)
    (hr : runOps cfg ops Dictionary.new = some d0) (hf : FreqsNonNeg ops) (hfin : d0.totalFreq.datum.IsFin)
    (hpos : F64.lt (F64.ofNat 0) d0.totalFreq = true) (hc : calcToken d0 = some d)
    (hz : ∀ w t, storedTok d w = some t → F32.isZero t.distance = false) (s : Bytes) :
    ∃ (segs : List Seg) (ts : List (Token (Binary64 M) Binary32)), internalSegment cfg (some d) s false = some segs ∧
      segs.map (fun g => d.deref g.tok) = ts.map some ∧ IsSegmentation d (splitTextToWords cfg s) ts ∧
      ∀ us, IsSegmentation d (splitTextToWords cfg s) us → segProb d us ≤ segProb d ts * 2 ^ (segErr ε d ts + segErr ε d us) := by
  have hr' : runOps cfg (ops ++ [.recalc]) Dictionary.new = some d := by rw [runOps_append, hr]; simpa [runOps, DictOp.step] using hc
  have hd := posDist_ieee hlog cfg ops d0 d hr hf hfin hpos hc hz
  have htot := (calcToken_same hc).total
  have hpos' : 0 < d0.totalFreq.datum.val := by
    obtain ⟨s, hs⟩ := hfin.eq
    have : Datum.lt (F64.ofNat 0 : Binary64 M).datum d0.totalFreq.datum = true := hpos
    rw [zero_datum, hs] at this
    simpa [Datum.lt] using this
  obtain ⟨segs, ts, h3, h4, h5⟩ := C11_shortest cfg _ d hr' hd s
  obtain ⟨segs', ts', h3', h4', h5'⟩ := C11_cheapest cfg _ d hr' hd s
  have e : ts' = ts := by
    rw [h3] at h3'; cases h3'
    rw [h4] at h4'
    exact (List.map_injective_iff.2 (Option.some_injective _) h4').symm
  subst e
  refine ⟨segs, ts', h3, h4, h5.seg, ?_⟩
  intro us hus
  have hle := h5' us hus
  have hnn : ∀ rs : List (Token (Binary64 M) Binary32), 0 ≤ segProb d rs := by
    intro rs
    refine List.prod_nonneg ?_
    intro x hx
    obtain ⟨t, _, rfl⟩ := List.mem_map.1 hx
    unfold tokenProb
    split
    · next hst =>
      obtain ⟨_, h6, _⟩ := stored_facts hr hf hfin hc hst
      refine div_nonneg (by exact_mod_cast h6) ?_
      rw [htot]
      exact_mod_cast hpos'.le
    · positivity
  by_cases huz : ∃ t ∈ us, IsStored d t ∧ t.freq.datum.val = 0
  · obtain ⟨t, ht, hst, hv⟩ := huz
    have : segProb d us = 0 := by
      refine List.prod_eq_zero (List.mem_map.2 ⟨t, ht, ?_⟩)
      rw [tokenProb, if_pos hst, hv]; simp
    rw [this]
    exact mul_nonneg (hnn _) (Real.rpow_nonneg (by norm_num) _)
  have pos : ∀ rs : List (Token (Binary64 M) Binary32), (¬ ∃ t ∈ rs, IsStored d t ∧ t.freq.datum.val = 0) →
      ∀ t ∈ rs, IsStored d t → 0 < t.freq.datum.val := by
    intro rs h t ht hst
    exact lt_of_le_of_ne (stored_facts hr hf hfin hc hst).2.1 fun e => h ⟨t, ht, hst, e.symm⟩
  obtain ⟨_, c, x, e1, _, _, ex, ac⟩ := cost_approx h0 h2 hlog hacc hr hf hfin hpos' hc us hus.2 (pos us huz)
  have hle' : Datum.lt (cost us).datum (cost ts').datum = false := hle
  by_cases htz : ∃ t ∈ ts', IsStored d t ∧ t.freq.datum.val = 0
  · rw [cost_top hlog hacc hr hf hfin hpos' hc hd ts' h5.seg.2 htz, e1] at hle'
    simp [Datum.lt] at hle'
  obtain ⟨_, c', x', e2, _, _, ex', ac'⟩ := cost_approx h0 h2 hlog hacc hr hf hfin hpos' hc ts' h5.seg.2 (pos ts' htz)
  rw [e1, e2] at hle'
  simp only [Datum.lt, decide_eq_false_iff_not, not_lt] at hle'
  have hcc : (c' : ℝ) ≤ c := by exact_mod_cast hle'
  rw [ex, ex', ← Real.rpow_add (by norm_num), Real.rpow_le_rpow_left_iff (by norm_num)]
  have h6 := (abs_le.1 ac.near).2
  have h7 := (abs_le.1 ac'.near).1
  unfold segErr growth
  linarith

end seg

end Gse
