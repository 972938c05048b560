import Verif.Proofs.ParseMain
import Verif.Props.Server

/-!
# C78: the numbers in dictionary texts and requests
-/

set_option linter.unusedSectionVars false

namespace Gse

open Spec ParseFloat

/-! ### ParseFloat -/

/-- The texts for which the bound on exponents in `readFloat` plays no role. -/
def Sane (t : Bytes) : Prop := t.length ≤ 2000 ∨ ∀ neg b q x, Numeral t neg b q x → |x| < 100000

theorem above_pos (f : Format) : 0 < f.greatest + 2 ^ (f.emax - f.p) / 2 := by
  have h1 : 0 < f.greatest := Format.greatest_pos f
  have h2 : (0 : ℚ) < 2 ^ (f.emax - f.p) := by positivity
  linarith

theorem below_above (f : Format) : f.greatest ≤ f.greatest + 2 ^ (f.emax - f.p) / 2 := by
  have h2 : (0 : ℚ) < 2 ^ (f.emax - f.p) := by positivity
  linarith

theorem make_sign (neg : Bool) (b : Nat) (q : ℚ) (x : Int) (hq : 0 ≤ q * (b : ℚ) ^ x) :
    (tooLarge ≤ |value neg b q x| → Datum.make f64 neg (value neg b q x) = .inf neg) ∧
    (|value neg b q x| < tooLarge → ∃ r, Datum.make f64 neg (value neg b q x) = .fin neg r ∧ Nearest f64 (value neg b q x) r) := by
  have hr := Datum.make_rounded f64 neg (value neg b q x)
  have hpos : 0 < tooLarge := above_pos f64
  constructor
  · intro h
    rw [hr.over h]
    congr 1
    have h0 : q * (b : ℚ) ^ x ≠ 0 := by
      intro h0
      rw [show value neg b q x = 0 by cases neg <;> simp [value, h0], abs_zero] at h
      linarith
    have h1 : 0 < q * (b : ℚ) ^ x := lt_of_le_of_ne hq (Ne.symm h0)
    cases neg
    · simp only [value, Bool.false_eq_true, if_false, decide_eq_false_iff_not, not_lt]; exact hq
    · simp only [value, if_true, decide_eq_true_eq]; linarith
  · intro h
    obtain ⟨s, r, e, hn, h1, h2⟩ := hr.fits h
    refine ⟨r, ?_, hn⟩
    rw [e]
    rcases eq_or_lt_of_le hq with h0 | h0
    · have hv : value neg b q x = 0 := by cases neg <;> simp [value, ← h0]
      rw [hv] at e
      simp only [Datum.make, if_true] at e
      cases e; rfl
    · cases neg
      · rw [h2 (by simpa [value] using h0)]
      · rw [h1 (by simp only [value, if_true]; linarith)]

theorem nearest_unique {q r r' : ℚ} (h : Nearest f64 q r) (h' : Nearest f64 q r') : r = r' := by
  rw [(Format.nearest_iff f64 q r).1 h, (Format.nearest_iff f64 q r').1 h']

theorem numeral_nonneg {t : Bytes} {neg : Bool} {b : Nat} {q : ℚ} {x : Int} (h : Numeral t neg b q x) : 0 ≤ q * (b : ℚ) ^ x := by
  obtain ⟨_, u, _, hl, _⟩ := h
  obtain ⟨hb, hq, _⟩ := literal_bounds hl
  have : (0 : ℚ) < b := by rcases hb with rfl | rfl <;> norm_num
  exact mul_nonneg hq (zpow_pos this x).le

theorem Sane.cut {t : Bytes} (ht : Sane t) {neg b q x} (h : Numeral t neg b q x) : |x| < 100000 ∨ t.length ≤ 2000 :=
  ht.elim .inr (fun f => .inl (f _ _ _ _ h))

/-- C78: `strconv.ParseFloat` reads texts as documented, up to exponents of more than five digits in texts of more than 2000 bytes: a number is rounded to the nearest
one, an error is reported for a number too large, which is read as an infinity, and for any other text, which is read as zero. -/
theorem C78_parse (t : Bytes) (ht : Sane t) (y : Datum) (err : Bool) : parseDatum t = (y, err) ↔ Parsed t y err := by
  have key : ∀ y err, Parsed t y err → parseDatum t = (y, err) := by
    intro y err h
    cases h with
    | nan h => exact parse_nan h
    | inf h => exact parse_inf h
    | over h hv =>
      rw [parse_numeral h (ht.cut h)]
      have := (make_sign _ _ _ _ (numeral_nonneg h)).1 hv
      simp only [value] at this
      rw [this]; simp
    | fits h hv hn =>
      rw [parse_numeral h (ht.cut h)]
      obtain ⟨r', e, hn'⟩ := (make_sign _ _ _ _ (numeral_nonneg h)).2 hv
      rw [nearest_unique hn hn']
      simp only [value] at e
      rw [e]; simp
    | other h1 h2 h3 => exact parse_other h1 h2 h3
  refine ⟨fun h => ?_, key y err⟩
  have tot : ∃ y err, Parsed t y err := by
    by_cases h1 : NanWord t
    · exact ⟨_, _, .nan h1⟩
    by_cases h2 : ∃ neg, InfWord t neg
    · obtain ⟨neg, h2⟩ := h2; exact ⟨_, _, .inf h2⟩
    by_cases h3 : ∃ neg b q x, Numeral t neg b q x
    · obtain ⟨neg, b, q, x, h3⟩ := h3
      rcases lt_or_ge |value neg b q x| tooLarge with hv | hv
      · obtain ⟨r, _, hn⟩ := (make_sign _ _ _ _ (numeral_nonneg h3)).2 hv
        exact ⟨_, _, .fits h3 hv hn⟩
      · exact ⟨_, _, .over h3 hv⟩
    · push Not at h2 h3
      exact ⟨_, _, .other h1 h2 h3⟩
  obtain ⟨y', err', h'⟩ := tot
  have := key _ _ h'
  rw [h] at this
  obtain ⟨rfl, rfl⟩ := Prod.mk.inj this
  exact h'

/-- The numbers read with `strconv.ParseFloat`. -/
def GoParse (M : MathFns) : Prop := ∀ t, ((M.parse t).1.datum, (M.parse t).2) = parseDatum t

theorem special_ok {t : Bytes} {x : Datum} {n : Nat} (h : special t = some (x, n)) : x.Ok f64 := by
  have hi : ∀ {neg : Bool} {s : Bytes} {x : Datum} {n : Nat}, infinity neg s = some (x, n) → x.Ok f64 := by
    intro neg s x n h
    simp only [infinity] at h
    generalize (if 3 < commonPrefix s (str "infinity") ∧ commonPrefix s (str "infinity") < 8 then 3 else commonPrefix s (str "infinity")) = k at h
    split at h
    · cases h; trivial
    · cases h
  cases t with
  | nil => cases h
  | cons c s =>
    rw [special] at h
    split at h
    · obtain ⟨⟨y, k⟩, hy, e⟩ := Option.map_eq_some_iff.1 h
      cases e; exact hi hy
    split at h
    · exact hi h
    split at h
    · split at h
      · cases h; trivial
      · cases h
    · cases h

theorem parseDatum_ok (t : Bytes) : (parseDatum t).1.Ok f64 := by
  unfold parseDatum
  split
  · next x n h =>
    split
    · exact special_ok h
    · exact Datum.zero_ok _
  · split
    · exact Datum.zero_ok _
    · split
      · exact Datum.zero_ok _
      · exact Datum.make_ok _ _ _

/-- The functions of package math, together with this `ParseFloat`. -/
def goMath (log log2 exp : Num64 → Num64) : MathFns := ⟨log, log2, exp, fun t => (⟨(parseDatum t).1, parseDatum_ok t⟩, (parseDatum t).2)⟩

theorem goParse_goMath (log log2 exp : Num64 → Num64) : GoParse (goMath log log2 exp) := fun _ => rfl

section main
variable {M : MathFns}

theorem GoParse.read (hM : GoParse M) {t : Bytes} (ht : Sane t) {y : Datum} {err : Bool} (h : Parsed t y err) :
    ∃ v : Binary64 M, (F64.parse t : Binary64 M × Bool) = (v, err) ∧ v.datum = y := by
  have := hM t
  rw [(C78_parse t ht y err).2 h] at this
  obtain ⟨h1, h2⟩ := Prod.mk.inj this
  exact ⟨⟨(M.parse t).1⟩, by rw [← h2]; rfl, h1⟩

theorem two_datum : (F64.ofNat 2 : Binary64 M).datum = .fin false 2 := by
  show Datum.ofNat f64 2 = _
  decide +kernel

/-- C78: the frequency of a row of a dictionary, from the text in its second column (or `TextFreq`), for the least frequency `m`. -/
theorem C78_row (hM : GoParse M) (c : LoadCfg (Binary64 M)) (sg : Bool) (m : ℚ) (hm : c.minFreq.datum = .fin sg m) (word : Bytes) (column : Option Bytes)
    (t : Bytes) (hc : column = some t ∨ column = none ∧ c.noFreq = true ∧ c.textFreq = t) (ht : Sane t) (y : Option Datum) :
    (rowFreq c word column).map (·.datum) = y ↔ RowNumber m ((runes word).length < 2) t y := by
  have hrow : rowFreq c word column =
    match (F64.parse t : Binary64 M × Bool) with
    | (v, true) => if F64.eq v (F64.ofNat 0) then none else some v
    | (v, false) =>
      if F64.lt v c.minFreq then none
      else if (runes word).length < 2 then (if F64.eq (F64.ofNat 2 : Binary64 M) (F64.ofNat 0) then none else some (F64.ofNat 2))
      else if F64.eq v (F64.ofNat 0) then none else some v := by
    rcases hc with rfl | ⟨rfl, h1, rfl⟩
    · rcases hp : (F64.parse t : Binary64 M × Bool) with ⟨v, e⟩
      cases e <;> simp [rowFreq, hp]
    · rcases hp : (F64.parse c.textFreq : Binary64 M × Bool) with ⟨v, e⟩
      cases e <;> simp [rowFreq, hp, h1]
  have h20 : F64.eq (F64.ofNat 2 : Binary64 M) (F64.ofNat 0) = false := by
    show Datum.eq (F64.ofNat 2 : Binary64 M).datum (F64.ofNat 0 : Binary64 M).datum = false
    rw [two_datum, zero_datum]; decide +kernel
  have he : ∀ v : Binary64 M, F64.eq v (F64.ofNat 0) = Datum.eq v.datum (.fin false 0) := by
    intro v
    show Datum.eq v.datum (F64.ofNat 0 : Binary64 M).datum = _
    rw [zero_datum]
  have hl : ∀ v : Binary64 M, F64.lt v c.minFreq = Datum.lt v.datum (.fin sg m) := by
    intro v
    show Datum.lt v.datum c.minFreq.datum = _
    rw [hm]
  have key : ∀ y, RowNumber m ((runes word).length < 2) t y → (rowFreq c word column).map (·.datum) = y := by
    intro y h
    rw [hrow]
    cases h with
    | nan h hs =>
      obtain ⟨v, e, hv⟩ := hM.read ht (.nan h)
      rw [e]; simp [hl, he, hv, hs, Datum.lt, Datum.eq]
    | nanShort h hs =>
      obtain ⟨v, e, hv⟩ := hM.read ht (.nan h)
      rw [e]; simp [hl, h20, hv, hs, Datum.lt, two_datum]
    | inf h hs =>
      obtain ⟨v, e, hv⟩ := hM.read ht (.inf h)
      rw [e]; simp [hl, he, hv, hs, Datum.lt, Datum.eq]
    | infShort h hs =>
      obtain ⟨v, e, hv⟩ := hM.read ht (.inf h)
      rw [e]; simp [hl, h20, hv, hs, Datum.lt, two_datum]
    | negInf h =>
      obtain ⟨v, e, hv⟩ := hM.read ht (.inf h)
      rw [e]; simp [hl, hv, Datum.lt]
    | over h hv' =>
      obtain ⟨v, e, hv⟩ := hM.read ht (.over h hv')
      rw [e]; simp [he, hv, Datum.eq]
    | low h hv' hn hr =>
      obtain ⟨v, e, hv⟩ := hM.read ht (.fits h hv' hn)
      rw [e]; simp [hl, hv, Datum.lt, hr]
    | two h hv' hn hr hs =>
      obtain ⟨v, e, hv⟩ := hM.read ht (.fits h hv' hn)
      rw [e]; simp [hl, hv, Datum.lt, hs, h20, two_datum, not_lt.2 hr]
    | zero h hv' hn hr hs =>
      obtain ⟨v, e, hv⟩ := hM.read ht (.fits h hv' hn)
      rw [e]; simp [hl, he, hv, Datum.lt, Datum.eq, hs, not_lt.2 hr]
    | number h hv' hn hr hs h0 =>
      obtain ⟨v, e, hv⟩ := hM.read ht (.fits h hv' hn)
      rw [e]; simp [hl, he, hv, Datum.lt, Datum.eq, hs, h0, not_lt.2 hr]
    | other h1 h2 h3 =>
      obtain ⟨v, e, hv⟩ := hM.read ht (.other h1 h2 h3)
      rw [e]; simp [he, hv, Datum.eq]
  refine ⟨fun h => ?_, key y⟩
  have tot : ∃ y, RowNumber m ((runes word).length < 2) t y := by
    obtain ⟨y, err⟩ : ∃ y err, Parsed t y err := ⟨_, _, (C78_parse t ht _ _).1 rfl⟩
    obtain ⟨err, hp⟩ := err
    by_cases hs : (runes word).length < 2
    · cases hp with
      | nan h => exact ⟨_, .nanShort h hs⟩
      | @inf neg h => cases neg; exacts [⟨_, .infShort h hs⟩, ⟨_, .negInf h⟩]
      | over h hv => exact ⟨_, .over h hv⟩
      | @fits neg b q x r h hv hn =>
        rcases lt_or_ge r m with hr | hr
        · exact ⟨_, .low h hv hn hr⟩
        · exact ⟨_, .two h hv hn hr hs⟩
      | other h1 h2 h3 => exact ⟨_, .other h1 h2 h3⟩
    · cases hp with
      | nan h => exact ⟨_, .nan h hs⟩
      | @inf neg h => cases neg; exacts [⟨_, .inf h hs⟩, ⟨_, .negInf h⟩]
      | over h hv => exact ⟨_, .over h hv⟩
      | @fits neg b q x r h hv hn =>
        rcases lt_or_ge r m with hr | hr
        · exact ⟨_, .low h hv hn hr⟩
        · by_cases h0 : r = 0
          · subst h0; exact ⟨_, .zero h hv hn hr hs⟩
          · exact ⟨_, .number h hv hn hr hs h0⟩
      | other h1 h2 h3 => exact ⟨_, .other h1 h2 h3⟩
  obtain ⟨y', h'⟩ := tot
  rw [← h, key _ h']; exact h'

/-- C78: the digits of a whole number below `2 ^ 53` are read as this number. -/
theorem C78_exact (t : Bytes) (vs : List Nat) (h : Digits 10 t vs) (hn : whole 10 vs < 2 ^ 53) : Parsed t (.fin false (whole 10 vs)) false := by
  have hv : value false 10 (whole 10 vs) 0 = (whole 10 vs : ℚ) := by simp [value]
  have hrep : ∀ n : Nat, n < 2 ^ 53 → f64.Rep n := fun n hn => ⟨n, 0, by rw [Nat.abs_cast]; exact_mod_cast hn, by decide, by simp⟩
  refine .fits (neg := false) (b := 10) (q := whole 10 vs) (x := 0) ⟨[], t, .none, .plain (.whole h), rfl⟩ ?_ ?_
  · rw [hv, Nat.abs_cast]
    have h1 : ((whole 10 vs : ℕ) : ℚ) < 2 ^ 53 := by exact_mod_cast hn
    have h2 : (2 : ℚ) ^ 53 ≤ f64.greatest := by
      rw [f64_range.1]
      have e : ∀ n : Nat, (2 : ℚ) ^ (n + 53) = 2 ^ n * 2 ^ 53 := fun n => pow_add _ _ _
      have k1 : (2 : ℚ) ^ 53 ≤ 2 ^ 971 := pow_le_pow_right₀ (by norm_num) (by norm_num)
      have k2 := e 971
      rw [show 971 + 53 = 1024 from rfl] at k2
      have k3 : (2 : ℚ) ≤ 2 ^ 53 := by norm_num
      generalize (2 : ℚ) ^ 1024 = A at *
      generalize (2 : ℚ) ^ 971 = B at *
      generalize (2 : ℚ) ^ 53 = C at *
      nlinarith
    have h3 := below_above f64
    unfold tooLarge
    linarith
  · rw [hv, Format.nearest_iff, (Format.rep_iff f64 _).1 (hrep _ hn)]

variable [Unicode]

/-- The tag from the columns after the second. -/
def tagColumn : List Bytes → Bytes
  | [] => []
  | p :: _ => trimSpace (trimNewlines p)

/-- The first entry for a word in a dictionary text. -/
theorem first_row (hM : GoParse M) (cfg : SplitCfg) (c : LoadCfg (Binary64 M)) (sg : Bool) (m : ℚ) (hm : c.minFreq.datum = .fin sg m) (sep : Bytes) (a b : List Bytes)
    (line w t : Bytes) (rest : List Bytes) (hline : splitStr line sep = w :: t :: rest) (ht : Sane (trimSpace t)) (y : Datum)
    (hy : RowNumber m ((runes (trimSpace w)).length < 2) (trimSpace t) (some y))
    (hone : ∀ l ∈ a, ∀ u, splitStr l sep = [u] → c.noFreq = true → normText cfg (trimSpace u) ≠ normText cfg (trimSpace w))
    (hmore : ∀ l ∈ a, ∀ u v r, splitStr l sep = u :: v :: r → normText cfg (trimSpace u) = normText cfg (trimSpace w) →
      Sane (trimSpace v) ∧ RowNumber m ((runes (trimSpace u)).length < 2) (trimSpace v) none) :
    ∃ f, f.datum = y ∧ firstEntry cfg ((a ++ line :: b).filterMap fun line => lineEntry c (splitStr line sep)) (normText cfg (trimSpace w)) =
      some (f, tagColumn rest) := by
  have hr := (C78_row hM c sg m hm (trimSpace w) (some (trimSpace t)) _ (.inl rfl) ht (some y)).2 hy
  obtain ⟨f, hf, e⟩ := Option.map_eq_some_iff.1 hr
  refine ⟨f, e, ?_⟩
  rw [List.filterMap_append, List.filterMap_cons]
  have hle : lineEntry c (splitStr line sep) = some (trimSpace w, f, tagColumn rest) := by
    rw [hline]
    cases rest <;> simp [lineEntry, rowEntry, hf, tagColumn]
  rw [hle]
  have hno : (a.filterMap fun line => lineEntry c (splitStr line sep)).find? (fun e => normText cfg e.1 = normText cfg (trimSpace w)) = none := by
    rw [List.find?_eq_none]
    intro e he hn
    obtain ⟨l, hl, hle⟩ := List.mem_filterMap.1 he
    simp only [decide_eq_true_eq] at hn
    match hcols : splitStr l sep with
    | [] => rw [hcols] at hle; cases hle
    | [u] =>
      rw [hcols] at hle
      simp only [lineEntry, rowEntry, Option.map_eq_some_iff] at hle
      obtain ⟨f', hf', rfl⟩ := hle
      cases hnf : c.noFreq with
      | false => simp [rowFreq, hnf] at hf'
      | true => exact hone l hl u hcols hnf hn
    | u :: v :: r =>
      have : ∃ f' p, rowFreq c (trimSpace u) (some (trimSpace v)) = some f' ∧ e = (trimSpace u, f', p) := by
        rw [hcols] at hle
        cases r <;> simp only [lineEntry, rowEntry, Option.map_eq_some_iff] at hle <;> obtain ⟨f', hf', rfl⟩ := hle <;> exact ⟨f', _, hf', rfl⟩
      obtain ⟨f', p, hf', rfl⟩ := this
      obtain ⟨h1, h2⟩ := hmore l hl u v r hcols hn
      have := (C78_row hM c sg m hm (trimSpace u) (some (trimSpace v)) _ (.inl rfl) h1 none).2 h2
      rw [hf'] at this; cases this
  simp only [firstEntry, List.find?_append, hno, Option.none_or, List.find?_cons, decide_true, Option.map_some]

/-- C78: after `LoadDictStr` of a text into an empty segmenter, `Find` of a word returns the number in the first line for the word that is not left out, as
`strconv.ParseFloat` is documented to read it. -/
theorem C78_find [UnicodeOK] (hM : GoParse M) (s : Segmenter (Binary64 M) Binary32) (hs : s.dict = none) (dict : Bytes)
    (hl : (splitStr dict (str "\n")).length < Trie.valueLimit) (sg : Bool) (m : ℚ) (hm : s.prepare.minTokenFreq.datum = .fin sg m) (a b : List Bytes)
    (line w t : Bytes) (rest : List Bytes) (hlines : splitStr dict (str "\n") = a ++ line :: b) (hline : splitStr line (s.dictSep ++ str " ") = w :: t :: rest)
    (ht : Sane (trimSpace t)) (y : Datum) (hy : RowNumber m ((runes (trimSpace w)).length < 2) (trimSpace t) (some y))
    (hone : ∀ l ∈ a, ∀ u, splitStr l (s.dictSep ++ str " ") = [u] → s.prepare.loadNoFreq = true → normText s.cfg (trimSpace u) ≠ normText s.cfg (trimSpace w))
    (hmore : ∀ l ∈ a, ∀ u v r, splitStr l (s.dictSep ++ str " ") = u :: v :: r → normText s.cfg (trimSpace u) = normText s.cfg (trimSpace w) →
      Sane (trimSpace v) ∧ RowNumber m ((runes (trimSpace u)).length < 2) (trimSpace v) none) :
    ∃ s' d f, s.loadDictStr dict = some s' ∧ s'.dict = some d ∧ f.datum = y ∧
      d.find (normText s.cfg (trimSpace w)) = some (f, tagColumn rest, true) := by
  obtain ⟨s', d, h1, h2, h3⟩ := C20_find s hs dict hl
  obtain ⟨f, hf, he⟩ := first_row hM s.cfg s.prepare.lcfg sg m hm (s.dictSep ++ str " ") a b line w t rest hline ht y hy hone hmore
  refine ⟨s', d, f, h1, h2, hf, ?_⟩
  have := h3 (normText s.cfg (trimSpace w))
  rw [hlines, he] at this
  exact this

/-- C78: a line for a new word of two characters or more with `NaN` in the second column, in any letter case, makes `Segment` and `Cut` of every text greedy. -/
theorem C78_nan [UnicodeOK] (hM : GoParse M) (hnan : ∀ x, x.datum = .nan → (M.log x).datum = .nan ∧ (M.log2 x).datum = .nan) (s : Segmenter (Binary64 M) Binary32)
    (hs : s.dict = none) (dict : Bytes)
    (hl : (splitStr dict (str "\n")).length < Trie.valueLimit) (sg : Bool) (m : ℚ) (hm : s.prepare.minTokenFreq.datum = .fin sg m) (a b : List Bytes)
    (line w t : Bytes) (rest : List Bytes) (hlines : splitStr dict (str "\n") = a ++ line :: b) (hline : splitStr line (s.dictSep ++ str " ") = w :: t :: rest)
    (ht : NanWord (trimSpace t)) (hw : 2 ≤ (runes (trimSpace w)).length)
    (hone : ∀ l ∈ a, ∀ u, splitStr l (s.dictSep ++ str " ") = [u] → s.prepare.loadNoFreq = true → normText s.cfg (trimSpace u) ≠ normText s.cfg (trimSpace w))
    (hmore : ∀ l ∈ a, ∀ u v r, splitStr l (s.dictSep ++ str " ") = u :: v :: r → normText s.cfg (trimSpace u) = normText s.cfg (trimSpace w) →
      Sane (trimSpace v) ∧ RowNumber m ((runes (trimSpace u)).length < 2) (trimSpace v) none) :
    ∃ s' d, s.loadDictStr dict = some s' ∧ s'.dict = some d ∧ d.totalFreq.datum = .nan ∧ ∀ text,
      (∃ (segs : List Seg) (ts : List (Token (Binary64 M) Binary32)), internalSegment s.cfg s'.dict text false = some segs ∧
        segs.map (fun g => d.deref g.tok) = ts.map some ∧ LongestBack d (splitTextToWords s.cfg text) ts) ∧
      (∃ ps gs, Greedy (ShortestAt d) (dagText s.cfg text) ps ∧ IsRuns EngPiece ps gs ∧
        cutDAGNoHMM s.cfg d text = some (gs.map fun g => encode g.flatten)) := by
  have hlen : (trimSpace t).length = 3 := List.Forall₂.length_eq ht
  obtain ⟨f, hf, he⟩ := first_row hM s.cfg s.prepare.lcfg sg m hm (s.dictSep ++ str " ") a b line w t rest hline (.inl (by omega)) .nan
    (.nan ht (by omega)) hone hmore
  rw [← hlines] at he
  exact C72_load hnan s hs dict hl _ f _ he hf

/-- C78: what `/add` stores is the number `strconv.ParseFloat` is documented to return with the text of `freq`, whether or not there is an error: 0 for a text that
is no number, an infinity for a number too large. -/
theorem C78_add [UnicodeOK] (hM : GoParse M) (E : ServerEnv (Binary64 M)) (ops : List (DictOp (Binary64 M))) (hl : ops.length < Trie.valueLimit)
    (d : Dictionary (Binary64 M) Binary32) (hr : runOps E.cfg ops Dictionary.new = some d) (q : List (Bytes × Bytes)) (t f p : Bytes)
    (ht : HasParam q (str "text") t) (hf : HasParam q (str "freq") f) (hp : HasParam q (str "pos") p)
    (hn : (absRun E.cfg ops).content (normText E.cfg t) = none) (hs : Sane f) (y : Datum) (err : Bool) (hy : Parsed f y err) :
    ∃ d' v x, handle E d (.add q) = some (d', v) ∧ d'.find (normText E.cfg t) = some (x, p, true) ∧ x.datum = y := by
  obtain ⟨d', v, h1, h2, _⟩ := C76_stored E ops hl d hr q t f p ht hf hp hn
  obtain ⟨x, hx, hd⟩ := hM.read hs hy
  rw [hx] at h2
  exact ⟨d', v, x, h1, h2, hd⟩

/-- C78: one `/add` of a new word with `freq=NaN`, in any letter case, makes every later answer greedy. -/
theorem C78_add_nan [UnicodeOK] (hM : GoParse M) (hnan : ∀ x, x.datum = .nan → (M.log x).datum = .nan ∧ (M.log2 x).datum = .nan) (E : ServerEnv (Binary64 M))
    (ops : List (DictOp (Binary64 M))) (d : Dictionary (Binary64 M) Binary32) (hr : runOps E.cfg ops Dictionary.new = some d)
    (q : List (Bytes × Bytes)) (t f : Bytes) (ht : HasParam q (str "text") t) (hf : HasParam q (str "freq") f)
    (hn : (absRun E.cfg ops).content (normText E.cfg t) = none) (hv : NanWord f)
    (qs : List ServerReq) (hl : ops.length + 1 + qs.length ≤ Trie.valueLimit) :
    ∃ d' as, serve E d (.add q :: qs) = some (d', as) ∧ ∀ query form text, Asks query form text → ∀ short,
      (E.hmm = false → ∃ v ts, handleJson E d' query form = some v ∧
        (readJson (v.marshal short)).bind answerSegs = some (ts.map fun u => (utf8 u.text.flatten, utf8 u.pos)) ∧
        LongestBack d' (splitTextToWords E.cfg text) ts) ∧
      (E.hmm = true → ∃ v ps gs outs, handleJson E d' query form = some v ∧ (readJson (v.marshal short)).bind answerWords = some outs.flatten ∧
        Greedy (ShortestAt d') (dagText E.cfg text) ps ∧ IsRuns (fun u : List Rune => u.length = 1) ps gs ∧
        List.Forall₂ (RunOut d' fun u => hmmCut E.consts E.emit u []) gs outs) := by
  have hlen : f.length = 3 := List.Forall₂.length_eq hv
  obtain ⟨x, hx, hd⟩ := hM.read (.inl (by omega)) (.nan hv)
  exact C76_nan hnan E ops d hr q t f ht hf hn (by rw [hx]; exact hd) qs hl

end main

section examples
attribute [local instance] sampleUnicode sampleUnicodeOK

-- texts and what is read
example : parseDatum (str "1_000") = (.fin false 1000, false) := by decide +kernel
example : parseDatum (str "-0x1.8p3") = (.fin true (-12), false) := by decide +kernel
example : parseDatum (str "0.1") = (.fin false (3602879701896397 / 36028797018963968), false) := by decide +kernel
example : parseDatum (str "9007199254740993") = (.fin false 9007199254740992, false) := by decide +kernel
example : parseDatum (str "1e999") = (.inf false, true) ∧ parseDatum (str "-1e999") = (.inf true, true) ∧ parseDatum (str "1e-999") = (.fin false 0, false) := by decide +kernel
example : parseDatum (str "nAn") = (.nan, false) ∧ parseDatum (str "+nan") = (.fin false 0, true) ∧ parseDatum (str "-Infinity") = (.inf true, false) := by decide +kernel
example : parseDatum (str "1__0") = (.fin false 0, true) ∧ parseDatum (str "0x10") = (.fin false 0, true) ∧ parseDatum [] = (.fin false 0, true) := by decide +kernel
example : Digits 10 (str "1_000") [1, 0, 0, 0] := 
  .sep (show DigitVal 10 49 1 by unfold DigitVal; decide) (.more (show DigitVal 10 48 0 by unfold DigitVal; decide)
    (.more (show DigitVal 10 48 0 by unfold DigitVal; decide) (.one (show DigitVal 10 48 0 by unfold DigitVal; decide))))
example : Sane (str "1e999999999") := .inl (by decide)

/-- Numbers with this `ParseFloat`. -/
abbrev exMath : MathFns := goMath floorLog floorLog id

-- a dictionary text: a line left out, a number below the least frequency, a number, NaN, a number too large and negative
def exNumbers : Bytes := str "ab x n\nab 1.5 n\nab 3 n\ncd NaN n\nef -1e999\nab 7 v\ng 1e5"
def exFind (w : Bytes) : Option (Option (Datum × Bytes × Bool)) :=
  ((({ minTokenFreq := F64.ofNat 0 } : Segmenter (Binary64 exMath) Binary32).loadDictStr exNumbers).bind (·.dict)).map fun d => (d.find w).map fun r => (r.1.datum, r.2.1, r.2.2)
example : exFind (str "ab") = some (some (.fin false 3, str "n", true)) := by decide +kernel
example : exFind (str "cd") = some (some (.nan, str "n", true)) := by decide +kernel
example : exFind (str "ef") = some (some (.inf true, [], true)) := by decide +kernel
example : exFind (str "g") = some (some (.fin false 2, [], true)) := by decide +kernel
example : (({ minTokenFreq := F64.ofNat 0 } : Segmenter (Binary64 exMath) Binary32).prepare).minTokenFreq.datum = .fin false 2 := by decide +kernel
example : RowNumber 2 False (str "NaN") (some .nan) := .nan (by simp [NanWord, IgnoringCase, str]) id
example : ∀ x, x.datum = .nan → (exMath.log x).datum = .nan ∧ (exMath.log2 x).datum = .nan := by intro x h; simp [goMath, floorLog, h]

end examples

end Gse
