import Verif.Model.Consts
import Verif.Props.IeeePos

/-!
# Counters, tags, keywords and ranks with IEEE arithmetic and the constants of the code
-/

namespace Gse

open Spec

variable {M : MathFns}

/-- Adding up natural numbers is exact up to 2^53. -/
theorem foldl_add_ofNat (ns : List Nat) (a : Nat) (h : a + ns.sum ≤ 2 ^ 53) :
    (ns.map (F64.ofNat : Nat → Binary64 M)).foldl F64.add (F64.ofNat a) = F64.ofNat (a + ns.sum) := by
  induction ns generalizing a with
  | nil => rfl
  | cons n ns ih =>
    rw [List.sum_cons] at h ⊢
    rw [List.map_cons, List.foldl_cons, F64Count.ofNat_add a n (by omega), ih (a + n) (by omega), Nat.add_assoc]

/-- C06: when the frequencies of the entries are natural numbers, `TotalFreq` is exactly their sum, up to 2^53. -/
theorem C06_exact [Unicode] [UnicodeOK] (cfg : SplitCfg) (ops : List (DictOp (Binary64 M))) (hl : ops.length ≤ Trie.valueLimit)
    (d : Dictionary (Binary64 M) Binary32) (hr : runOps cfg ops Dictionary.new = some d) (ns : List Nat)
    (hn : (absRun cfg ops).stored.map (·.2) = ns.map F64.ofNat) (hs : ns.sum ≤ 2 ^ 53) :
    d.totalFreq = F64.ofNat ns.sum ∧ d.totalFreq.datum = .fin false ns.sum := by
  have h : d.totalFreq = F64.ofNat ns.sum := by
    rw [(C06_counters cfg ops hl d hr).2.1, hn, foldl_add_ofNat ns 0 (by omega), Nat.zero_add]
  refine ⟨h, ?_⟩
  rw [h]
  exact Datum.ofNat_exact (f := f64) hs (lt_of_le_of_lt hs (Nat.pow_lt_pow_right (by norm_num) (by decide)))

/-- C14: the same for `ModeSegment` as `C11_ieee`: a text that `Segment` cuts into two segments or more is cut the same. -/
theorem C14_ieee [Unicode] [UnicodeOK] (hlog : LogLike M.log2) (cfg : SplitCfg) (ops : List (DictOp (Binary64 M))) (d0 d : Dictionary (Binary64 M) Binary32)
    (hr : runOps cfg ops Dictionary.new = some d0) (hf : FreqsNonNeg ops) (hfin : d0.totalFreq.datum.IsFin)
    (hpos : F64.lt (F64.ofNat 0) d0.totalFreq = true) (hc : calcToken d0 = some d)
    (hz : ∀ w t, storedTok d w = some t → F32.isZero t.distance = false) (s : Bytes) (segs : List Seg)
    (h : internalSegment cfg (some d) s false = some segs) (h2 : 2 ≤ segs.length) : internalSegment cfg (some d) s true = some segs := by
  have hr' : runOps cfg (ops ++ [.recalc]) Dictionary.new = some d := by rw [runOps_append, hr]; simpa [runOps, DictOp.step] using hc
  exact C14_same cfg _ d hr' (posDist_ieee hlog cfg ops d0 d hr hf hfin hpos hc hz) s segs h h2

/-! ### The constants -/

theorem lit_nonPos {q : ℚ} (h : q ≤ 0) : (lit q : Binary64 M).datum.NonPos := Datum.make_nonPos (f := f64) h

/-- The constants of the code with any emissions that are not positive make a good model. -/
theorem shippedHmm_good (em : EmitModel (Binary64 M)) (h : ∀ y r v, em y r = some v → v.datum.NonPos) : GoodModel shippedHmm em where
  minFloat := lit_nonPos (by norm_num)
  start y := by cases y <;> exact lit_nonPos (by norm_num)
  trans x y := by cases x <;> cases y <;> exact lit_nonPos (by norm_num)
  emit := h

/-- C29: with IEEE arithmetic, the constants of the code and emissions that are numbers up to zero or `-Inf`, `Viterbi` returns the
best tagging. -/
theorem C29_ieee (em : EmitModel (Binary64 M)) (h : ∀ y r v, em y r = some v → v.datum.NonPos) (obs : List Rune) (hobs : obs ≠ []) :
    ∃ v ts, viterbi shippedHmm em obs = some (v, ts) ∧ v = tagScore shippedHmm em obs ts ∧ IsBestTagging shippedHmm em obs ts := by
  obtain ⟨v, ts, h1, _, h3⟩ := C29_tagging shippedHmm em obs hobs
  exact ⟨v, ts, h1, h3, C29_best _ _ (shippedHmm_good em h) obs v ts h1⟩

theorem lit_val {q : ℚ} (h : |q| ≤ 2 ^ 200) : (lit q : Binary64 M).datum.IsFin ∧ (lit q : Binary64 M).datum.val = f64.round q :=
  Datum.make_val (f := f64) false (Datum.round_lt h)

theorem round_between {q a b : ℚ} (h1 : a + (|q| / 2 ^ 53 + 1 / 2 ^ 253) ≤ q) (h2 : q + (|q| / 2 ^ 53 + 1 / 2 ^ 253) ≤ b) :
    a ≤ f64.round q ∧ f64.round q ≤ b := by
  have h := abs_le.1 (F64Round.rnd_err (F := Binary64 ⟨id, id, id, fun _ => (⟨.nan, trivial⟩, false)⟩) q)
  change -_ ≤ f64.round q - q ∧ f64.round q - q ≤ _ at h
  constructor <;> linarith [h.1, h.2]

theorem max_round : f64.round ((2 : ℚ) ^ 1023 * (1 + (1 - 1 / 2 ^ 52))) = (2 ^ 53 - 1) * 2 ^ 971 := by
  have e : (2 : ℚ) ^ 1023 * (1 + (1 - 1 / 2 ^ 52)) = (2 ^ 53 - 1) * 2 ^ 971 := by
    rw [show (2 : ℚ) ^ 1023 = 2 ^ 971 * 2 ^ 52 from by rw [← pow_add]]
    generalize (2 : ℚ) ^ 971 = x
    ring
  rw [e]
  have := f64.round_exact (m := (2 ^ 53 - 1 : ℤ)) (e := 971) (by norm_num [f64]) (by decide)
  have h2 : (2 : ℚ) ^ (971 : ℤ) = 2 ^ 971 := zpow_natCast _ 971
  rw [h2] at this
  have h3 : ((2 ^ 53 - 1 : ℤ) : ℚ) = 2 ^ 53 - 1 := by norm_num
  rw [h3] at this
  exact this

theorem tiny_round : f64.round ((1 : ℚ) / 2 ^ 1022 * (1 / 2 ^ 52)) = 2 ^ (-1074 : ℤ) := by
  have e : (1 : ℚ) / 2 ^ 1022 * (1 / 2 ^ 52) = 2 ^ (-1074 : ℤ) := by
    rw [zpow_neg, show (2 : ℚ) ^ (1074 : ℤ) = 2 ^ 1074 from zpow_natCast _ 1074, show (2 : ℚ) ^ 1074 = 2 ^ 1022 * 2 ^ 52 from by rw [← pow_add]]
    generalize (2 : ℚ) ^ 1022 = x
    rw [mul_inv]
    ring
  rw [e]
  exact f64.round_zpow (by decide)

/-- The constants of the code meet what C46 assumes. -/
theorem shippedRank_ok : RankConstOK (shippedRank : RankConst (Binary64 M)) := by
  have d : |(0.85 : ℚ)| = 0.85 := abs_of_pos (by norm_num)
  have r : |(1 - 0.85 : ℚ)| = 0.15 := by rw [abs_of_pos (by norm_num)]; norm_num
  obtain ⟨d1, d2⟩ := round_between (q := 0.85) (a := 849 / 1000) (b := 851 / 1000) (by rw [d]; norm_num) (by rw [d]; norm_num)
  obtain ⟨r1, r2⟩ := round_between (q := 1 - 0.85) (a := 149 / 1000) (b := 151 / 1000) (by rw [r]; norm_num) (by rw [r]; norm_num)
  obtain ⟨fd, vd⟩ := lit_val (M := M) (q := 0.85) (by rw [d]; norm_num)
  obtain ⟨fr, vr⟩ := lit_val (M := M) (q := 1 - 0.85) (by rw [r]; norm_num)
  have p971 : (0 : ℚ) < 2 ^ 971 := pow_pos (by norm_num) _
  obtain ⟨fm, vm⟩ := Datum.make_val (f := f64) (q := (2 : ℚ) ^ 1023 * (1 + (1 - 1 / 2 ^ 52))) false (by
    rw [max_round, abs_of_pos (mul_pos (by norm_num) p971)]
    show _ < (2 : ℚ) ^ 1024
    rw [show (2 : ℚ) ^ 1024 = 2 ^ 53 * 2 ^ 971 from by rw [← pow_add]]
    exact mul_lt_mul_of_pos_right (by norm_num) p971)
  have z : (2 : ℚ) ^ (-1074 : ℤ) ≤ 1 / 2 ^ 200 := by
    have e : (1 : ℚ) / 2 ^ 200 = 2 ^ (-200 : ℤ) := by rw [zpow_neg]; norm_num
    rw [e]
    exact zpow_le_zpow_right₀ (by norm_num) (by decide)
  have zp : (0 : ℚ) < 2 ^ (-1074 : ℤ) := zpow_pos (by norm_num) _
  obtain ⟨ft, vt⟩ := Datum.make_val (f := f64) (q := (1 : ℚ) / 2 ^ 1022 * (1 / 2 ^ 52)) false (by
    rw [tiny_round, abs_of_pos zp]
    refine lt_of_le_of_lt (z.trans (by norm_num : (1 : ℚ) / 2 ^ 200 ≤ 2 ^ 0)) ?_
    exact pow_lt_pow_right₀ (by norm_num) (by decide))
  refine ⟨fd, ?_, ?_, fr, ?_, ?_, fm, ?_, ft, ?_, ?_⟩
  · change _ ≤ (lit 0.85 : Binary64 M).datum.val; rw [vd]; exact d1
  · change (lit 0.85 : Binary64 M).datum.val ≤ _; rw [vd]; exact d2
  · change _ ≤ (lit (1 - 0.85) : Binary64 M).datum.val; rw [vr]; exact r1
  · change (lit (1 - 0.85) : Binary64 M).datum.val ≤ _; rw [vr]; exact r2
  · change _ ≤ (Datum.make f64 false _).val
    rw [vm, max_round, show (971 : ℕ) = 200 + 771 from rfl, pow_add]
    have h1 : (1 : ℚ) ≤ 2 ^ 771 := one_le_pow₀ (by norm_num)
    have h2 : (1 : ℚ) ≤ 2 ^ 53 - 1 := by norm_num
    have h3 : (0 : ℚ) < 2 ^ 200 := by norm_num
    generalize (2 : ℚ) ^ 771 = x at h1
    generalize (2 : ℚ) ^ 53 - 1 = y at h2
    generalize (2 : ℚ) ^ 200 = z at h3
    have h4 : 1 * 1 ≤ y * x := mul_le_mul h2 h1 (by norm_num) (by linarith)
    calc z = z * (1 * 1) := by ring
      _ ≤ z * (y * x) := mul_le_mul_of_nonneg_left h4 h3.le
      _ = y * (z * x) := by ring
  · change 0 < (Datum.make f64 false _).val
    rw [vt, tiny_round]; exact zp
  · change (Datum.make f64 false _).val ≤ _
    rw [vt, tiny_round]; exact z

/-- C46: with IEEE arithmetic and the constants of the code `TextRank` ranks the words of the graph by scaled values. -/
theorem C46_ieee (ch : Choice) (allow : List Bytes) (items : List SegPos) (hlen : 4 * items.length ≤ 2 ^ 40) :
    ∃ es words seen lo hi full, IsRanking (shippedRank : RankConst (Binary64 M)) allow items es words seen lo hi full ∧ full.Pairwise Above ∧
      (∀ t ∈ full, t.weight.datum.IsFin) ∧
      ∀ topK, textRankItems ch shippedRank items topK allow = if 0 < topK then full.take topK.toNat else full :=
  C46_ranking ch _ shippedRank_ok allow items hlen

/-- C46: with IEEE arithmetic and the constants of the code the order in which one map is visited turns a ranking upside down. -/
theorem C46_ieee_opposite (ch : Choice) :
    ∃ ch' : Choice, (∀ {K V : Type} (n : Nat) (m : GoMap K V), n ≠ 2 → ch'.iter n m = ch.iter n m) ∧
      (∀ {α : Type} (less : α → α → Bool) (l : List α), ch'.sort less l = ch.sort less l) ∧
      ((textRankItems ch (shippedRank : RankConst (Binary64 M)) twoItems 0 [str "n"]).map (·.text) = [str "a", str "b"] ∧
        (textRankItems ch' (shippedRank : RankConst (Binary64 M)) twoItems 0 [str "n"]).map (·.text) = [str "b", str "a"] ∨
       (textRankItems ch (shippedRank : RankConst (Binary64 M)) twoItems 0 [str "n"]).map (·.text) = [str "b", str "a"] ∧
        (textRankItems ch' (shippedRank : RankConst (Binary64 M)) twoItems 0 [str "n"]).map (·.text) = [str "a", str "b"]) :=
  C46_opposite _ shippedRank_ok ch

/-- C45: with IEEE arithmetic `ExtractTags` returns the top candidates when no IDF value loaded is NaN. -/
theorem C45_ieee [Unicode] [UnicodeOK] (ch : Choice) (cfg : SplitCfg) (ops : List (DictOp (Binary64 M))) (d : Dictionary (Binary64 M) Binary32)
    (hr : runOps cfg ops Dictionary.new = some d) (c : HmmConst (Binary64 M)) (em : EmitModel (Binary64 M)) (isStop : Bytes → Bool)
    (icfg : SplitCfg) (iops : List (DictOp (Binary64 M))) (i : Idf (Binary64 M) Binary32) (di : Dictionary (Binary64 M) Binary32)
    (hi : runOps icfg iops Dictionary.new = some di) (hd : i.dict = some di) (hm : i.median.datum ≠ .nan)
    (hn : ∀ op ∈ iops, ∀ f, opFreq op = some f → f.datum ≠ .nan) (s : Bytes) (hs : 4 * s.length ≤ 2 ^ 53) (k : Nat) :
    ∃ items tags, cutDAGHmm cfg d c em s [] = some items ∧ extractTags ch cfg d c em (some isStop) (some i) s k = some tags ∧
      IsTopTags isStop i.median di items k tags := by
  have hinv := totalInv_run (P := fun f : Binary64 M => f.datum ≠ .nan) iops (totalInv_new _) hn hi
  exact C45_top ch cfg ops d hr c em isStop icfg iops i di hi hd ⟨hm, fun w tok h => hinv.all tok (storedTok_mem h)⟩ s hs k

/-- C47: with IEEE arithmetic the fallback weight is in the middle of all frequencies added, none of them NaN. -/
theorem C47_ieee [Unicode] (ch : Choice) (cfg : SplitCfg) (d : Dictionary (Binary64 M) Binary32) (cs : List (Bytes × Binary64 M × Bytes))
    (hn : ∀ c ∈ cs, c.2.1.datum ≠ .nan) (hne : cs ≠ []) :
    ∃ i', (Idf.loaded d).addTokens ch cfg cs = some i' ∧ i'.freqs.Perm (cs.map (·.2.1)) ∧ IsMiddle (cs.map (·.2.1)) i'.median :=
  C47_median ch cfg d cs hn hne

section examples

/-! Known facts of binary64: rounding, ties to even, overflow, subnormal numbers, signed zeros. -/

example : Datum.add f64 (Datum.make f64 false 0.1) (Datum.make f64 false 0.2) ≠ Datum.make f64 false 0.3 := by decide +kernel
example : Datum.add f64 (Datum.ofNat f64 (2 ^ 53)) (Datum.ofNat f64 1) = .fin false (2 ^ 53) := by decide +kernel
example : Datum.add f64 (Datum.ofNat f64 (2 ^ 53 + 2)) (Datum.ofNat f64 1) = .fin false (2 ^ 53 + 4) := by decide +kernel
example : Datum.mul f64 (Datum.make f64 false (2 ^ 1023)) (Datum.ofNat f64 2) = .inf false := by decide +kernel
example : Datum.div f64 (Datum.ofNat f64 1) (Datum.ofNat f64 3) = .fin false (6004799503160661 / 2 ^ 54) := by decide +kernel
example : Datum.div f64 (Datum.ofNat f64 0) (Datum.ofNat f64 0) = .nan := by decide +kernel
example : Datum.div f64 (Datum.ofNat f64 1) (Datum.ofNat f64 0).neg = .inf true := by decide +kernel
example : Datum.mul f64 (.fin false (1 / 2 ^ 1074)) (Datum.make f64 false 0.5) = .fin false 0 := by decide +kernel
example : Datum.mul f64 (.fin false (3 / 2 ^ 1074)) (Datum.make f64 false 0.5) = .fin false (2 / 2 ^ 1074) := by decide +kernel
example : Datum.add f64 (Datum.ofNat f64 1) (Datum.ofNat f64 1).neg = .fin false 0 := by decide +kernel
example : Datum.convert f32 (Datum.make f64 false 0.1) = .fin false (13421773 / 2 ^ 27) := by decide +kernel

/-- Positive numbers of binary64 are at least 2^-1074. -/
theorem ok_ge {s : Bool} {q : ℚ} (h : (Datum.fin s q).Ok f64) (h0 : 0 < q) : (2 : ℚ) ^ (-1074 : ℤ) ≤ q := by
  have h1 := h.1
  unfold Format.round at h1
  have he : (-1074 : ℤ) ≤ f64.ulpExp q := le_max_right _ _
  have hp := Format.two_zpow_pos (f64.ulpExp q)
  have hn : 1 ≤ rne (q / 2 ^ f64.ulpExp q) := by
    by_contra hc
    have : (rne (q / 2 ^ f64.ulpExp q) : ℚ) ≤ 0 := by exact_mod_cast (by omega : rne (q / 2 ^ f64.ulpExp q) ≤ 0)
    have := mul_nonpos_of_nonpos_of_nonneg this hp.le
    linarith
  have hn' : (1 : ℚ) ≤ rne (q / 2 ^ f64.ulpExp q) := by exact_mod_cast hn
  calc (2 : ℚ) ^ (-1074 : ℤ) ≤ 2 ^ f64.ulpExp q := zpow_le_zpow_right₀ (by norm_num) he
    _ = 1 * 2 ^ f64.ulpExp q := (one_mul _).symm
    _ ≤ rne (q / 2 ^ f64.ulpExp q) * 2 ^ f64.ulpExp q := mul_le_mul_of_nonneg_right hn' hp.le
    _ = q := h1

/-- The integer part of the logarithm to base 2. -/
def floorLog (x : Num64) : Num64 :=
  match x.datum with
  | .nan => ⟨.nan, trivial⟩
  | .inf s => if s then ⟨.nan, trivial⟩ else ⟨.inf false, trivial⟩
  | .fin _ q => if q < 0 then ⟨.nan, trivial⟩ else if q = 0 then ⟨.inf true, trivial⟩ else
      ⟨Datum.make f64 false (Int.log 2 q), Datum.make_ok f64 false _⟩

theorem floorLog_range {s : Bool} {q : ℚ} (h : (Datum.fin s q).Ok f64) (h0 : 0 < q) :
    (Datum.make f64 false (Int.log 2 q)).IsFin ∧ |(Datum.make f64 false (Int.log 2 q)).val| ≤ 2048 := by
  have h1 : -1074 ≤ Int.log 2 q := by
    have := Int.log_mono_right (b := 2) (zpow_pos (by norm_num) _) (ok_ge h h0)
    rwa [show (2 : ℚ) = ((2 : Nat) : ℚ) from rfl, Int.log_zpow (by decide)] at this
  have h2 : Int.log 2 q ≤ 1024 := by
    have hq : q ≤ (2 : ℚ) ^ (1024 : ℤ) := by
      have := (abs_lt.1 h.2.1).2
      rw [show (2 : ℚ) ^ (1024 : ℤ) = 2 ^ 1024 from zpow_natCast _ 1024]
      exact this.le
    have := Int.log_mono_right (b := 2) h0 hq
    rwa [show (2 : ℚ) = ((2 : Nat) : ℚ) from rfl, Int.log_zpow (by decide)] at this
  have := make_size (n := 2048) (e := 0) (q := ((Int.log 2 q : ℤ) : ℚ)) false (by decide) (by decide) (by decide) (by
    rw [← Int.cast_abs]
    have : |Int.log 2 q| ≤ 2048 := abs_le.2 ⟨by omega, by omega⟩
    have h3 : ((|Int.log 2 q| : ℤ) : ℚ) ≤ 2048 := by exact_mod_cast this
    simpa using h3)
  simpa using this

/-- There is a function as assumed of `math.Log`. -/
theorem floorLog_ok : LogLike floorLog where
  num x hx := by
    obtain ⟨d, ok⟩ := x
    cases d with
    | nan => cases hx
    | inf s => simp only [Datum.NonNeg] at hx; subst hx; simp [floorLog]
    | fin s q =>
      simp only [Datum.NonNeg] at hx
      simp only [floorLog, if_neg (not_lt.2 hx)]
      split
      · simp
      · exact Datum.make_ne_nan _ _
  mono x y hx hy h := by
    obtain ⟨d, ok⟩ := x
    obtain ⟨d', ok'⟩ := y
    match d, d' with
    | .nan, _ => cases hx
    | .inf _, .nan => cases hy
    | .fin _ _, .nan => cases hy
    | .inf true, _ => cases hx
    | .fin _ _, .inf true => cases hy
    | .inf false, .inf false => rfl
    | .inf false, .fin _ _ => simp [Datum.lt] at h
    | .fin _ _, .inf false => exact Datum.top_lt _
    | .fin _ q, .fin _ r =>
      simp only [Datum.NonNeg] at hx hy
      simp only [Datum.lt, decide_eq_false_iff_not, not_lt] at h
      simp only [floorLog, if_neg (not_lt.2 hx), if_neg (not_lt.2 hy)]
      by_cases hq : q = 0
      · rw [if_pos hq]; exact Datum.lt_bot _
      · have hq0 : 0 < q := lt_of_le_of_ne hx (Ne.symm hq)
        rw [if_neg hq, if_neg (by linarith)]
        exact Datum.make_mono (by exact_mod_cast Int.log_mono_right hq0 h)
  range x hx hf := by
    obtain ⟨d, ok⟩ := x
    cases d with
    | nan => cases hf
    | inf s => cases hf
    | fin s q =>
      simp only [Datum.NonNeg] at hx
      simp only [floorLog, if_neg (not_lt.2 hx)]
      by_cases hq : q = 0
      · left; rw [if_pos hq]
      · right; rw [if_neg hq]; exact floorLog_range ok (lt_of_le_of_ne hx (Ne.symm hq))
  pos x hf h0 := by
    obtain ⟨d, ok⟩ := x
    cases d with
    | nan => cases hf
    | inf s => cases hf
    | fin s q =>
      have hq : 0 < q := h0
      simp only [floorLog, if_neg (not_lt.2 hq.le), if_neg hq.ne']
      exact (floorLog_range ok hq).1

/-- Functions of package math for the examples. -/
def sampleMath : MathFns := ⟨floorLog, floorLog, id, fun _ => (⟨.nan, trivial⟩, false)⟩

attribute [local instance] sampleUnicode sampleUnicodeOK

/-- Two words with the frequencies 3 and 5. -/
def ieeeOps : List (DictOp (Binary64 sampleMath)) :=
  [.add (str "ab") (F64.ofNat 3) (str "n"), .add (str "c") (F64.ofNat 5) (str "n")]

/-- The dictionary after `ops`. -/
def ieeeDict (ops : List (DictOp (Binary64 sampleMath))) : Dictionary (Binary64 sampleMath) Binary32 :=
  (runOps {} ops Dictionary.new).getD Dictionary.new

theorem ieeeDict_run : runOps {} ieeeOps Dictionary.new = some (ieeeDict ieeeOps) := by
  have : (runOps (D := Binary32) {} ieeeOps Dictionary.new).isSome = true := by decide +kernel
  obtain ⟨d, h⟩ := Option.isSome_iff_exists.1 this
  unfold ieeeDict
  rw [h]; rfl

theorem ieeeDict_recalc : calcToken (ieeeDict ieeeOps) = some (ieeeDict (ieeeOps ++ [.recalc])) := by
  have : (runOps (D := Binary32) {} (ieeeOps ++ [.recalc]) Dictionary.new).isSome = true := by decide +kernel
  obtain ⟨d, h⟩ := Option.isSome_iff_exists.1 this
  have h' := h
  rw [runOps_append, ieeeDict_run] at h'
  have h2 : calcToken (ieeeDict ieeeOps) = some d := by simpa [runOps, DictOp.step] using h'
  rw [h2]
  have h3 : ieeeDict (ieeeOps ++ [.recalc]) = d := by
    show (runOps {} (ieeeOps ++ [.recalc]) Dictionary.new).getD Dictionary.new = d
    rw [h]; rfl
  rw [h3]

example : (ieeeDict ieeeOps).totalFreq.datum = .fin false 8 := by decide +kernel
example : FreqsNonNeg ieeeOps := by
  intro op hop f hf
  simp only [ieeeOps, List.mem_cons, List.not_mem_nil, or_false] at hop
  rcases hop with rfl | rfl
  · cases hf; exact Datum.make_nonNeg (f := f64) (s := false) (q := ((3 : Nat) : ℚ)) (by norm_num)
  · cases hf; exact Datum.make_nonNeg (f := f64) (s := false) (q := ((5 : Nat) : ℚ)) (by norm_num)
example : (ieeeDict ieeeOps).totalFreq.datum.IsFin := by
  have : (ieeeDict ieeeOps).totalFreq.datum = .fin false 8 := by decide +kernel
  rw [this]; trivial
example : F64.lt (ieeeDict ieeeOps).totalFreq (F64.ofNat 1) = false := by decide +kernel
example : F64.lt (F64.ofNat 0) (ieeeDict ieeeOps).totalFreq = true := by decide +kernel
example : ∀ w t, storedTok (ieeeDict (ieeeOps ++ [.recalc])) w = some t → F32.isZero t.distance = false := by
  intro w t h
  have hm := storedTok_mem h
  have : ((ieeeDict (ieeeOps ++ [.recalc])).tokens.all fun t => !F32.isZero t.distance) = true := by decide +kernel
  have := List.all_eq_true.1 this t hm
  simpa using this
example : (absRun {} ieeeOps).stored.map (·.2) = [3, 5].map F64.ofNat := by rfl

/-- Emissions of two characters. -/
def ieeeEmit : EmitModel (Binary64 sampleMath) := fun
  | .B, 0x4E2D => some (lit (-1))
  | .E, 0x56FD => some (lit (-1.5))
  | _, _ => none

example : ∀ y r v, ieeeEmit y r = some v → v.datum.NonPos := by
  intro y r v h
  unfold ieeeEmit at h
  split at h <;> first | (cases h; exact lit_nonPos (by norm_num)) | cases h
example : (viterbi shippedHmm ieeeEmit [0x4E2D, 0x56FD]).map (·.2) = some [.B, .E] := by decide +kernel

end examples
end Gse
