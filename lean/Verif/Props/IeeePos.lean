import Verif.Props.Ieee
import Verif.Props.Pos

/-!
# Part-of-speech cutting with IEEE arithmetic
-/

namespace Gse

open Spec

variable {M : MathFns}

/-- The rounded value of a number of absolute value `n * 2 ^ e` at most is one too, and does not overflow. -/
theorem make_size {e : ℤ} {n : Nat} {q : ℚ} (s : Bool) (he : -1074 ≤ e) (he' : e ≤ 900) (hn : n ≤ 2 ^ 53) (h : |q| ≤ n * 2 ^ e) :
    (Datum.make f64 s q).IsFin ∧ |(Datum.make f64 s q).val| ≤ n * 2 ^ e := by
  have hb : f64.round ((n : ℚ) * 2 ^ e) = n * 2 ^ e := by
    have := f64.round_exact (m := (n : ℤ)) (e := e) (by
      have : (n : ℤ) ≤ 2 ^ 53 := by exact_mod_cast hn
      simpa [f64] using this) he
    exact_mod_cast this
  obtain ⟨h3, h4⟩ := abs_le.mp h
  have h5 := f64.round_mono h3
  have h6 := f64.round_mono h4
  rw [f64.round_neg, hb] at h5
  rw [hb] at h6
  have h7 : |f64.round q| ≤ n * 2 ^ e := abs_le.mpr ⟨h5, h6⟩
  have h8 : (n : ℚ) * 2 ^ e < 2 ^ f64.emax := by
    have e1 : (n : ℚ) ≤ 2 ^ (53 : ℤ) := by exact_mod_cast hn
    have e2 : (2 : ℚ) ^ e ≤ 2 ^ (900 : ℤ) := zpow_le_zpow_right₀ (by norm_num) he'
    have e3 : (n : ℚ) * 2 ^ e ≤ 2 ^ (53 : ℤ) * 2 ^ (900 : ℤ) := mul_le_mul e1 e2 (zpow_nonneg (by norm_num) _) (zpow_nonneg (by norm_num) _)
    rw [← zpow_add₀ (by norm_num)] at e3
    refine lt_of_le_of_lt e3 ?_
    have : (2 : ℚ) ^ f64.emax = 2 ^ ((1024 : Nat) : ℤ) := (zpow_natCast _ _).symm
    rw [this]
    exact zpow_lt_zpow_right₀ (by norm_num) (by decide)
  obtain ⟨m1, m2⟩ := Datum.make_val (f := f64) s (lt_of_le_of_lt h7 h8)
  exact ⟨m1, by rw [m2]; exact h7⟩

/-- Sizes add. -/
theorem SizeAt.add {e : ℤ} {j k : Nat} {a b : Binary64 M} (he : -1074 ≤ e) (he' : e ≤ 900) (ha : SizeAt e j a) (hb : SizeAt e k b) (h : j + k ≤ 2 ^ 53) :
    SizeAt e (j + k) (F64.add a b) := by
  obtain ⟨s, hs⟩ := ha.1.eq
  obtain ⟨t, ht⟩ := hb.1.eq
  have : (F64.add a b).datum = Datum.make f64 (s && t) (a.datum.val + b.datum.val) := by
    show Datum.add f64 a.datum b.datum = _
    rw [hs, ht]; rfl
  unfold SizeAt
  rw [this]
  refine make_size _ he he' h ((abs_add_le _ _).trans ?_)
  push_cast
  have h1 := ha.2
  have h2 := hb.2
  linarith

theorem Spec.PosValues.startAt {T : PosTables (Binary64 M)} (h : PosValues T) (y : Nat) : SizeAt 334 1 (T.startAt y) ∧ (T.startAt y).datum.NonPos := by
  unfold PosTables.startAt
  cases hy : T.start y with
  | some v => exact h.start y v hy
  | none =>
    simp only [Option.getD_none]
    unfold SizeAt
    rw [zero_datum]
    refine ⟨⟨trivial, ?_⟩, le_refl _⟩
    simp only [Datum.val, abs_zero]
    exact mul_nonneg (Nat.cast_nonneg _) (zpow_nonneg (by norm_num) _)

theorem Spec.PosValues.good {T : PosTables (Binary64 M)} (h : PosValues T) : GoodPos T where
  minFloat := h.minFloat.2
  inf := by
    show T.inf.datum.NonPos
    rw [h.inf]; rfl
  start y := (h.startAt y).2
  emit y r v e := (h.emit y r v e).2
  trans x y v e := (h.trans x y v e).2

theorem Spec.PosValues.finite {T : PosTables (Binary64 M)} (h : PosValues T) : PosFinite T (2 ^ 53) (SizeAt 334) where
  add ha hb hk := SizeAt.add (by decide) (by decide) ha hb hk
  minFloat := h.minFloat.1
  start y := (h.startAt y).1
  emit y r v e := (h.emit y r v e).1
  trans x y v e := (h.trans x y v e).1
  add_inf {k a} ha := by
    obtain ⟨s, hs⟩ := ha.1.eq
    refine Binary64.ext (Num64.ext ?_)
    show Datum.add f64 a.datum T.inf.datum = T.inf.datum
    rw [hs, h.inf]; rfl
  inf_add {k a} ha := by
    obtain ⟨s, hs⟩ := ha.1.eq
    refine Binary64.ext (Num64.ext ?_)
    show Datum.add f64 T.inf.datum a.datum = T.inf.datum
    rw [hs, h.inf]; rfl
  inf_lt {k a} ha := by
    obtain ⟨s, hs⟩ := ha.1.eq
    show Datum.lt T.inf.datum a.datum = true
    rw [hs, h.inf]; rfl
  not_lt_inf {k a} ha := by
    show Datum.lt a.datum T.inf.datum = false
    rw [h.inf]; exact Datum.lt_bot _
  inf_ne {k a} ha := by
    obtain ⟨s, hs⟩ := ha.1.eq
    show Datum.eq T.inf.datum a.datum = false
    rw [hs, h.inf]; rfl

variable [Unicode]

/-- C65: with IEEE arithmetic the state model gives a run of Han characters the best sequence of states. -/
theorem C65_ieee (ch : Choice) (T : PosTables (Binary64 M)) (hv : PosValues T) (hT : PosTablesOK T) (s : Bytes) (hs : s ≠ [])
    (hb : 2 * (runes s).length ≤ 2 ^ 53) :
    ∃ ts ws, IsBestPos T (runes s) ts ∧ StateWords T.poss (runes s) ts ws ∧ cutDetailInternal ch T s = some ws :=
  C65_best ch T hv.good hT _ _ hv.finite s hs hb

/-- C65: with IEEE arithmetic the result of `Cut(text, true)` depends on no map order and no sorting algorithm. -/
theorem C65_ieee_deterministic [UnicodeOK] (cfg : SplitCfg) (ops : List (DictOp (Binary64 M))) (d : Dictionary (Binary64 M) Binary32)
    (hr : runOps cfg ops Dictionary.new = some d) (ch ch' : Choice) (T : PosTables (Binary64 M)) (keys : List Nat) (hk : keys.Perm T.keys)
    (hv : PosValues T) (hT : PosTablesOK T) (s : Bytes) (hb : 8 * s.length ≤ 2 ^ 53) (hmm : Bool) :
    posCut ch T d s hmm = posCut ch' { T with keys := keys } d s hmm :=
  C65_deterministic cfg ops d hr ch ch' T keys hk hv.good hT _ _ hv.finite s hb hmm

/-- `-Inf` or finite, of absolute value `2048 * n` at most. -/
def LogSize (n : Nat) (x : Binary64 M) : Prop := x.datum = .inf true ∨ SizeAt 11 n x

omit [Unicode] in
theorem LogSize.ne_nan {n : Nat} {x : Binary64 M} (h : LogSize n x) : x.datum ≠ .nan := by
  rcases h with h | h
  · rw [h]; simp
  · intro hn
    have := h.1
    rw [hn] at this
    cases this

omit [Unicode] in
theorem LogSize.add {j k : Nat} {a b : Binary64 M} (ha : LogSize j a) (hb : LogSize k b) (h : j + k ≤ 2 ^ 53) : LogSize (j + k) (F64.add a b) := by
  rcases ha with ha | ha
  · left
    show Datum.add f64 a.datum b.datum = _
    rcases hb with hb | hb
    · rw [ha, hb]; rfl
    · obtain ⟨t, ht⟩ := hb.1.eq
      rw [ha, ht]; rfl
  · rcases hb with hb | hb
    · left
      show Datum.add f64 a.datum b.datum = _
      obtain ⟨t, ht⟩ := ha.1.eq
      rw [hb, ht]; rfl
    · exact Or.inr (SizeAt.add (by decide) (by decide) ha hb h)

/-- A log-frequency is `-Inf` or small. -/
theorem pieceScore_size (hlog : LogLike M.log) {cfg : SplitCfg} {ops : List (DictOp (Binary64 M))} {d : Dictionary (Binary64 M) Binary32}
    (hr : runOps cfg ops Dictionary.new = some d) (hf : FreqsNonNeg ops) (hfin : d.totalFreq.datum.IsFin) (t : List Rune) :
    LogSize 1 (pieceScoreBy (F64.ofNat 0) d t) := by
  obtain ⟨hT, hall⟩ := total_ge hr hf
  have key : ∀ f : Binary64 M, f.datum.NonNeg → f.datum.IsFin → LogSize 1 (F64.sub (F64.log f) (F64.ofNat 0)) := by
    intro f h2 h3
    have hz : (F64.ofNat 0 : Binary64 M).datum.neg = .fin true 0 := by rw [zero_datum]; simp [Datum.neg]
    rcases hlog.range f.num h2 h3 with h | h
    · left
      show Datum.add f64 (M.log f.num).datum (F64.ofNat 0 : Binary64 M).datum.neg = _
      rw [h, hz]; rfl
    · right
      obtain ⟨s, hs⟩ := h.1.eq
      have e : (F64.sub (F64.log f) (F64.ofNat 0 : Binary64 M)).datum = Datum.make f64 (s && true) ((M.log f.num).datum.val + 0) := by
        show Datum.add f64 (M.log f.num).datum (F64.ofNat 0 : Binary64 M).datum.neg = _
        rw [hz, hs]; rfl
      unfold SizeAt
      rw [e]
      refine make_size _ (by decide) (by decide) (by decide) ?_
      rw [add_zero]
      refine h.2.trans ?_
      norm_num
  unfold pieceScoreBy pieceFreq
  split
  · next tok htok =>
    obtain ⟨h2, h3⟩ := hall tok (storedTok_mem htok)
    exact key _ h2 (isFin_of_le h2 hfin h3)
  · split
    · exact key _ (by rw [zero_datum]; exact le_refl _) (by rw [zero_datum]; trivial)
    · exact key _ (by rw [one_datum]; exact zero_le_one) (by rw [one_datum]; trivial)

theorem scoreBy_size (hlog : LogLike M.log) {cfg : SplitCfg} {ops : List (DictOp (Binary64 M))} {d : Dictionary (Binary64 M) Binary32}
    (hr : runOps cfg ops Dictionary.new = some d) (hf : FreqsNonNeg ops) (hfin : d.totalFreq.datum.IsFin) (ps : List (List Rune))
    (hn : ps.length ≤ 2 ^ 53) : LogSize ps.length (scoreBy (F64.ofNat 0) d ps) := by
  induction ps with
  | nil =>
    right
    unfold SizeAt scoreBy
    rw [List.foldr_nil, zero_datum]
    exact ⟨trivial, by simp [Datum.val]⟩
  | cons t ps ih =>
    have hl : (t :: ps).length = ps.length + 1 := rfl
    rw [hl] at hn ⊢
    rw [add_comm]
    exact LogSize.add (pieceScore_size hlog hr hf hfin t) (ih (by omega)) (by omega)

theorem scoreLaws_ieee (hlog : LogLike M.log) {cfg : SplitCfg} {ops : List (DictOp (Binary64 M))} {d : Dictionary (Binary64 M) Binary32}
    (hr : runOps cfg ops Dictionary.new = some d) (hf : FreqsNonNeg ops) (hfin : d.totalFreq.datum.IsFin) (rs : List Rune)
    (hn : rs.length ≤ 2 ^ 53) : ScoreLaws (F64.ofNat 0) d rs (fun x : Binary64 M => x.datum ≠ .nan) where
  order := ⟨fun _ _ h => Datum.lt_asymm h, fun _ hb _ h => Datum.lt_cotrans hb h, fun ha hb => Datum.eq_iff ha hb⟩
  score x hx q hq := by
    refine (scoreBy_size hlog hr hf hfin q ?_).ne_nan
    have h1 : q.length ≤ q.flatten.length := by
      have hp := isRoute_pieces hq
      clear hq
      induction q with
      | nil => simp
      | cons t q ih =>
        have := List.length_pos_iff.2 (hp t (by simp)).1
        have := ih (fun u hu => hp u (by simp [hu]))
        simp only [List.flatten_cons, List.length_append, List.length_cons]
        omega
    rw [isRoute_flatten hq, List.length_drop] at h1
    omega
  mono t a b _ _ ha hb h1 h2 h := Datum.add_mono ha hb (pieceScore_size hlog hr hf hfin t).ne_nan h h1 h2

/-- C66: with IEEE arithmetic and frequencies from zero up whose total is finite, `Cut(text, false)` follows the route with the
largest sum of log-frequencies, for texts of up to 2^53 characters. -/
theorem C66_ieee (hlog : LogLike M.log) (cfg : SplitCfg) (ops : List (DictOp (Binary64 M))) (d : Dictionary (Binary64 M) Binary32)
    (hr : runOps cfg ops Dictionary.new = some d) (hf : FreqsNonNeg ops) (hfin : d.totalFreq.datum.IsFin) (s : Bytes)
    (hn : (runes s).length ≤ 2 ^ 53) :
    ∃ ps gs out, IsBestRouteBy (F64.ofNat 0) d (runes s) ps ∧ IsRuns EngPiece ps gs ∧ List.Forall₂ (PosNoHmm d) gs out ∧
      posCutNoHMM d s = some out :=
  posCutNoHMM_best hr s (scoreLaws_ieee hlog hr hf hfin _ hn)

/-- C66: the same for `Cut(text, true)`. -/
theorem C66_ieee_hmm [UnicodeOK] (hlog : LogLike M.log) (cfg : SplitCfg) (ops : List (DictOp (Binary64 M))) (d : Dictionary (Binary64 M) Binary32)
    (hr : runOps cfg ops Dictionary.new = some d) (hf : FreqsNonNeg ops) (hfin : d.totalFreq.datum.IsFin) (ch : Choice)
    (T : PosTables (Binary64 M)) (hT : PosTablesOK T) (hv : PosValues T) (s : Bytes) (hs : ∀ u ∈ chars s, posChar u = true)
    (hb : 2 * (runes s).length ≤ 2 ^ 53) :
    ∃ ps gs outs, IsBestRouteBy (F64.ofNat 0) d (runes s) ps ∧ IsRuns (fun t : List Rune => t.length = 1) ps gs ∧
      List.Forall₂ (PosRun d (cutDetail ch T)) gs outs ∧ posCutDAG d (cutDetail ch T) s = some outs.flatten ∧
      ∀ t, t <:+: runes s → ∃ o, cutDetail ch T (encode t) = some o ∧ DetailOut (cutDetailInternal ch T) (chars (encode t)) o :=
  posCutDAG_best hr ch T hT _ _ hv.finite s hs hb (scoreLaws_ieee hlog hr hf hfin _ (by omega))

end Gse
