import Verif.Proofs.Suggest
import Verif.Proofs.Load
import Verif.Props.Exact

/-!
# C70: suggested frequencies

In exact arithmetic: with floats the two sides of the comparison can be so close that rounding decides.
-/

set_option linter.unusedSectionVars false

namespace Gse

open Spec Trie

section general
variable {D : Type} [ParseFn] [F32 D] [Narrow EReal D] [Unicode]

/-- The word is not changed by splitting or by decoding: it is valid UTF-8, and lower-case where lower-casing is on. -/
structure Plain (cfg : SplitCfg) (w : Bytes) : Prop where
  nonempty : w ≠ []
  split : normText cfg w = w
  decode : encode (dagText cfg w) = w

/-- The last step of a history sets a word. -/
theorem setWord_snoc {cfg : SplitCfg} {ops : List (DictOp EReal)} {op : DictOp EReal} {d d' : Dictionary EReal D}
    (hl : ops.length < Trie.valueLimit) (hr : runOps cfg ops Dictionary.new = some d) (hr' : runOps cfg (ops ++ [op]) Dictionary.new = some d')
    {w t : Bytes} {f : EReal} {p : Bytes}
    (hc : ∀ k, (absRun cfg (ops ++ [op])).content k = if k = w then some (f, p) else (absRun cfg ops).content k)
    (hs : (absRun cfg (ops ++ [op])).stored = (absRun cfg ops).stored ++ [(t, f)]) : SetWord d d' w f := by
  have hl' : (ops ++ [op]).length ≤ Trie.valueLimit := by simp; omega
  have e1 := fun k => storedTok_content (F := EReal) (by omega) hr k
  have e2 := fun k => storedTok_content (F := EReal) hl' hr' k
  have key : ∀ (o : Option (Token EReal D)) (q : Option (EReal × Bytes)), o.map (fun t => (t.freq, t.pos)) = q →
      o.map (·.freq) = q.map (·.1) := by
    intro o q h; subst h; cases o <;> rfl
  refine ⟨fun k hk => ?_, ?_, ?_⟩
  · rw [key _ _ (e1 k), key _ _ (e2 k), hc, if_neg hk]
  · rw [key _ _ (e2 w), hc, if_pos rfl]; rfl
  · rw [(C06_counters cfg ops (by omega) d hr).2.1, (C06_counters cfg _ hl' d' hr').2.1, hs, List.map_append, List.foldl_append]
    rfl

/-- One piece makes one run. -/
theorem runs_of_one {E : List Rune → Prop} {t : List Rune} {gs : List (List (List Rune))} (h : IsRuns E [t] gs) : gs = [[t]] := by
  have hfl := h.flat
  have hgne : ∀ g ∈ gs, g ≠ [] := by
    intro g hg
    rcases h.kind g hg with ⟨x, rfl, _⟩ | h'
    · simp
    · exact h'.1
  cases gs with
  | nil => simp at hfl
  | cons g gs =>
    cases g with
    | nil => exact absurd rfl (hgne [] (by simp))
    | cons x g =>
      simp only [List.flatten_cons, List.cons_append, List.cons.injEq, List.append_eq_nil_iff] at hfl
      obtain ⟨rfl, rfl, h5⟩ := hfl
      cases gs with
      | nil => rfl
      | cons g' gs =>
        simp only [List.flatten_cons, List.append_eq_nil_iff] at h5
        exact absurd h5.1 (hgne g' (by simp))

/-- What holds after a word has been set above every route. -/
theorem cut_whole [UnicodeOK] {cfg : SplitCfg} {ops ops' : List (DictOp EReal)} {d d' : Dictionary EReal D}
    (hr : runOps cfg ops Dictionary.new = some d) (hf : FreqsExact ops) (h1 : 1 ≤ d.totalFreq)
    (hr' : runOps cfg ops' Dictionary.new = some d') (hf' : FreqsExact ops') {w : Bytes} (hw : Plain cfg w) {f : ℝ} (hf0 : 0 < f)
    (hs : SetWord d d' w (f : EReal)) (hbig : ∀ qs, IsRoute d (dagText cfg w) qs → d.totalFreq.toReal * likelihood d qs < f) :
    cutDAGNoHMM cfg d' w = some [w] ∧
      ∀ cut : Bytes → Option (List Bytes), (∀ t : List Rune, 2 ≤ t.length → ∃ o, cut (encode t) = some o) → cutDAG cfg d' cut w = some [w] := by
  have hc := counts_run hr hf
  have hc' := counts_run hr' hf'
  have h1' : 1 ≤ d'.totalFreq := by
    obtain ⟨T, hT, eT⟩ := hc.total
    rw [eT] at h1
    have : (1 : ℝ) ≤ T := by exact_mod_cast h1
    rw [hs.total, eT, ← EReal.coe_add]
    exact_mod_cast (by linarith : (1 : ℝ) ≤ T + f)
  have hs' : SetWord d d' (encode (dagText cfg w)) (f : EReal) := by rw [hw.decode]; exact hs
  have hne : dagText cfg w ≠ [] := by
    intro e
    have := hw.decode
    rw [e] at this
    exact hw.nonempty this.symm
  have hg := goodScores_exact hc' h1'
  constructor
  · obtain ⟨ps, gs, h2, h3, h4⟩ := C27_best cfg ops' d' hr' hg w
    have e := best_is_word hc h1 hc' h1' hs' hf0 hne hbig h2
    subst e
    rw [h4]
    have hgs := runs_of_one h3
    subst hgs
    simp [hw.decode]
  · intro cut hcut
    obtain ⟨ps, gs, outs, h2, h3, h4, h5⟩ := C27_best_hmm cfg ops' d' hr' hg cut hcut w
    have e := best_is_word hc h1 hc' h1' hs' hf0 hne hbig h2
    subst e
    rw [h5]
    have hgs := runs_of_one h3
    subst hgs
    cases h4 with
    | cons h6 h7 =>
      cases h7
      have : ∀ {g o}, RunOut d' cut g o → g = [dagText cfg w] → o = [encode (dagText cfg w)] := by
        intro g o h e
        cases h with
        | word _ => cases e; rfl
        | one _ => cases e; rfl
        | known h _ _ _ => rw [e] at h; simp at h
        | hmm h _ _ _ => rw [e] at h; simp at h
      rw [this h6 rfl]
      simp [hw.decode]

/-- Adding a word that is not stored reports no error. -/
theorem add_flag {cfg : SplitCfg} {ops : List (DictOp EReal)} {d : Dictionary EReal D} (hr : runOps cfg ops Dictionary.new = some d)
    (hl : ops.length < Trie.valueLimit) {w p : Bytes} {f : EReal} (hw : Plain cfg w) (hn : (absRun cfg ops).content w = none) :
    (segAddToken cfg d w f p).2 = false := by
  have hrep : Rep cfg d (absRun cfg ops) := rep_run ops (rep_new cfg) (by simpa [Dictionary.numTokens, Dictionary.new] using hl.le) hr
  have hlen : d.numTokens < Trie.valueLimit := by
    rw [(C06_counters cfg ops hl.le d hr).1]
    refine lt_of_le_of_lt ?_ hl
    have : ∀ l : List (DictOp EReal), (absRun cfg l).stored.length ≤ l.length := by
      intro l
      induction l using List.reverseRecOn with
      | nil => simp [absRun]
      | append_singleton l o ih =>
        rw [C06_stored_step, List.length_append, List.length_append]
        refine Nat.add_le_add ih ?_
        cases o <;> simp only [] <;> first | (split <;> simp) | simp
    exact this ops
  have hv : d.trie.value w = none := (hrep.value_none_iff w).2 hn
  unfold segAddToken Dictionary.addToken
  dsimp only
  rw [textSliceToBytes_eq, show (toToken (D := D) cfg w f p).text.flatten = normText cfg w from flatten_split cfg w, hw.split, get_eq, hv]
  simp only [Trie.insert, if_pos hlen]

theorem freqs_snoc {ops : List (DictOp EReal)} {op : DictOp EReal} (hf : FreqsExact ops) (ho : ∀ f, opFreq op = some f → Amount f) :
    FreqsExact (ops ++ [op]) := by
  intro o ho' g hg
  rcases List.mem_append.1 ho' with h | h
  · exact hf o h g hg
  · simp only [List.mem_singleton] at h
    subst h
    exact ho g hg

/-- Adding a stored word again sets it. -/
theorem readd_set {cfg : SplitCfg} {ops : List (DictOp EReal)} {d : Dictionary EReal D} (hr : runOps cfg ops Dictionary.new = some d)
    (hl : ops.length < Trie.valueLimit) {w p : Bytes} {f : EReal} (hw : Plain cfg w) (hn : (absRun cfg ops).content w ≠ none) :
    ∃ d' b, segReAddToken cfg d w f p = some (d', b) ∧ runOps cfg (ops ++ [.reAdd w f p]) Dictionary.new = some d' ∧ SetWord d d' w f := by
  have hrep : Rep cfg d (absRun cfg ops) := rep_run ops (rep_new cfg) (by simpa [Dictionary.numTokens, Dictionary.new] using hl.le) hr
  have hv : d.trie.value w ≠ none := fun e => hn ((hrep.value_none_iff w).1 e)
  obtain ⟨d', b, hd'⟩ : ∃ d' b, segReAddToken cfg d w f p = some (d', b) := by
    have : ∃ x, d.removeToken (toToken (D := D) cfg w f p) = some x := by
      unfold Dictionary.removeToken
      rw [textSliceToBytes_eq, show (toToken (D := D) cfg w f p).text.flatten = normText cfg w from flatten_split cfg w, hw.split]
      rcases delete_cases d.trie w with ⟨_, h6⟩ | ⟨v, t', _, h6⟩ | ⟨_, h7, h6⟩
      · rw [h6]; exact ⟨_, rfl⟩
      · rw [h6]; exact ⟨_, rfl⟩
      · exact absurd h7 hv
    obtain ⟨⟨x, y⟩, hx⟩ := this
    unfold segReAddToken
    rw [hx]
    cases y
    · exact ⟨_, _, rfl⟩
    · exact ⟨_, _, rfl⟩
  obtain ⟨op, hop⟩ : ∃ op : DictOp EReal, op = .reAdd w f p := ⟨_, rfl⟩
  have hr' : runOps cfg (ops ++ [op]) Dictionary.new = some d' := by
    rw [runOps_append, hr]
    simp [runOps, DictOp.step, hop, hd']
  have habs : absRun cfg (ops ++ [op]) = ((absRun cfg ops).remove cfg w).add cfg w f p := by
    obtain ⟨c, hc⟩ := Option.ne_none_iff_exists'.1 hn
    simp only [absRun, List.foldl_append, List.foldl_cons, List.foldl_nil, hop, AbsDict.step, hw.split]
    have : (List.foldl (AbsDict.step cfg) {} ops).content w = some c := hc
    rw [this]
  have hs : SetWord d d' w f := by
    refine setWord_snoc (p := p) (t := w) hl hr hr' ?_ ?_
    · intro k
      rw [habs]
      simp only [AbsDict.add, AbsDict.remove, hw.split, if_true]
      by_cases hk : k = w <;> simp [hk]
    · rw [habs]
      simp only [AbsDict.add, AbsDict.remove, hw.split, if_true]
  subst hop
  exact ⟨d', b, hd', hr', hs⟩

/-- C70: a word that is not stored, added with the frequency suggested for it, is cut whole, with and without the HMM. No
single letter or digit of the word may be stored. -/
theorem C70_added [UnicodeOK] (cfg : SplitCfg) (ops : List (DictOp EReal)) (d : Dictionary EReal D)
    (hr : runOps cfg ops Dictionary.new = some d) (hl : ops.length < Trie.valueLimit) (hf : FreqsExact ops) (h1 : 1 ≤ d.totalFreq)
    (w p : Bytes) (hw : Plain cfg w) (hn : (absRun cfg ops).content w = none)
    (ha : ∀ r ∈ dagText cfg w, asciiAlnum r = true → (absRun cfg ops).content (encode [r]) = none) :
    ∃ f d', suggestFreq cfg d [w] = some f ∧ segAddToken cfg d w f p = (d', false) ∧ cutDAGNoHMM cfg d' w = some [w] ∧
      ∀ cut : Bytes → Option (List Bytes), (∀ t : List Rune, 2 ≤ t.length → ∃ o, cut (encode t) = some o) → cutDAG cfg d' cut w = some [w] := by
  have hcont := fun k => storedTok_content (F := EReal) hl.le hr k
  obtain ⟨f, h2, h3, h4⟩ := suggest_above hr hf h1 (w := w) (by
    intro r hr1 hr2
    have := hcont (encode [r])
    rw [ha r hr1 hr2] at this
    simpa using this)
  set op : DictOp EReal := .add w (f : EReal) p with hop
  have hr' : runOps cfg (ops ++ [op]) Dictionary.new = some (segAddToken cfg d w (f : EReal) p).1 := by
    rw [runOps_append, hr]; rfl
  have hf' : FreqsExact (ops ++ [op]) := by
    intro o ho g hg
    rcases List.mem_append.1 ho with ho | ho
    · exact hf o ho g hg
    · simp only [List.mem_singleton] at ho
      subst ho
      cases hg
      exact ⟨f, h3.le, rfl⟩
  have habs : absRun cfg (ops ++ [op]) = (absRun cfg ops).add cfg w (f : EReal) p := by
    simp [absRun, hop, AbsDict.step]
  have hs : SetWord d (segAddToken cfg d w (f : EReal) p).1 w (f : EReal) := by
    refine setWord_snoc (p := p) (t := w) hl hr hr' ?_ ?_
    · intro k
      rw [habs, AbsDict.add, hw.split, hn]
    · rw [habs, AbsDict.add, hw.split, hn]
  have hflag := add_flag (f := (f : EReal)) (p := p) hr hl hw hn
  obtain ⟨h5, h6⟩ := cut_whole hr hf h1 hr' hf' hw h3 hs h4
  exact ⟨(f : EReal), _, h2, by rw [← hflag], h5, h6⟩

/-- C70: a word that is stored, added again with the frequency suggested for it, is cut whole, with and without the HMM. -/
theorem C70_readded [UnicodeOK] (cfg : SplitCfg) (ops : List (DictOp EReal)) (d : Dictionary EReal D)
    (hr : runOps cfg ops Dictionary.new = some d) (hl : ops.length < Trie.valueLimit) (hf : FreqsExact ops) (h1 : 1 ≤ d.totalFreq)
    (w p : Bytes) (hw : Plain cfg w) (hn : (absRun cfg ops).content w ≠ none)
    (ha : ∀ r ∈ dagText cfg w, asciiAlnum r = true → (absRun cfg ops).content (encode [r]) = none) :
    ∃ f d' b, suggestFreq cfg d [w] = some f ∧ segReAddToken cfg d w f p = some (d', b) ∧ cutDAGNoHMM cfg d' w = some [w] ∧
      ∀ cut : Bytes → Option (List Bytes), (∀ t : List Rune, 2 ≤ t.length → ∃ o, cut (encode t) = some o) → cutDAG cfg d' cut w = some [w] := by
  have hcont := fun k => storedTok_content (F := EReal) hl.le hr k
  obtain ⟨f, h2, h3, h4⟩ := suggest_above hr hf h1 (w := w) (by
    intro r hr1 hr2
    have := hcont (encode [r])
    rw [ha r hr1 hr2] at this
    simpa using this)
  obtain ⟨d', b, hd', hr', hs⟩ := readd_set hr hl (f := (f : EReal)) (p := p) hw hn
  have hf' := freqs_snoc (op := .reAdd w (f : EReal) p) hf (by intro g hg; cases hg; exact ⟨f, h3.le, rfl⟩)
  obtain ⟨h5, h6⟩ := cut_whole hr hf h1 hr' hf' hw h3 hs h4
  exact ⟨(f : EReal), d', b, h2, hd', h5, h6⟩

/-! ### Single letters, and words to be cut apart -/

theorem comps2 {x y : Rune} : ∀ {ps : List (List Rune)}, (∀ t ∈ ps, t ≠ []) → ps.flatten = [x, y] → ps = [[x, y]] ∨ ps = [[x], [y]]
  | [], _, h => by simp at h
  | [] :: _, hn, _ => absurd rfl (hn [] (by simp))
  | [a] :: ps, hn, h => by
    simp only [List.flatten_cons, List.cons_append, List.nil_append, List.cons.injEq] at h
    obtain ⟨rfl, h⟩ := h
    match ps, hn, h with
    | [] :: _, hn, _ => exact absurd rfl (hn [] (by simp))
    | [b] :: ps, hn, h =>
      simp only [List.flatten_cons, List.cons_append, List.nil_append, List.cons.injEq] at h
      obtain ⟨rfl, h⟩ := h
      match ps, hn, h with
      | [], _, _ => exact Or.inr rfl
      | [] :: _, hn, _ => exact absurd rfl (hn [] (by simp))
    | (b :: c :: t) :: ps, hn, h => simp at h
  | (a :: b :: t) :: ps, hn, h => by
    simp only [List.flatten_cons, List.cons_append, List.cons.injEq, List.append_eq_nil_iff] at h
    obtain ⟨rfl, rfl, rfl, h⟩ := h
    match ps, hn, h with
    | [], _, _ => exact Or.inl rfl
    | [] :: _, hn, _ => exact absurd rfl (hn [] (by simp))

theorem comps3 {x y z : Rune} : ∀ {ps : List (List Rune)}, (∀ t ∈ ps, t ≠ []) → ps.flatten = [x, y, z] →
    ps = [[x, y, z]] ∨ ps = [[x, y], [z]] ∨ [y, z] ∈ ps ∨ ps = [[x], [y], [z]]
  | [], _, h => by simp at h
  | [] :: _, hn, _ => absurd rfl (hn [] (by simp))
  | [a] :: ps, hn, h => by
    simp only [List.flatten_cons, List.cons_append, List.nil_append, List.cons.injEq] at h
    obtain ⟨rfl, h⟩ := h
    rcases comps2 (fun t ht => hn t (by simp [ht])) h with rfl | rfl
    · exact Or.inr (Or.inr (Or.inl (by simp)))
    · exact Or.inr (Or.inr (Or.inr rfl))
  | [a, b] :: ps, hn, h => by
    simp only [List.flatten_cons, List.cons_append, List.nil_append, List.cons.injEq] at h
    obtain ⟨rfl, rfl, h⟩ := h
    match ps, hn, h with
    | [] :: _, hn, _ => exact absurd rfl (hn [] (by simp))
    | (b :: t) :: ps, hn, h =>
      simp only [List.flatten_cons, List.cons_append, List.cons.injEq, List.append_eq_nil_iff] at h
      obtain ⟨rfl, rfl, h⟩ := h
      match ps, hn, h with
      | [], _, _ => exact Or.inr (Or.inl rfl)
      | [] :: _, hn, _ => exact absurd rfl (hn [] (by simp))
  | (a :: b :: c :: t) :: ps, hn, h => by
    simp only [List.flatten_cons, List.cons_append, List.cons.injEq, List.append_eq_nil_iff] at h
    obtain ⟨rfl, rfl, rfl, rfl, h⟩ := h
    match ps, hn, h with
    | [], _, _ => exact Or.inl rfl
    | [] :: _, hn, _ => exact absurd rfl (hn [] (by simp))

section facts
variable {d : Dictionary EReal D} {t : List Rune}

theorem posWord_freq {x : ℝ} (h : (storedTok d (encode t)).map (·.freq) = some (x : EReal)) (hx : 0 < x) : posWord d t = true := by
  unfold posWord
  cases h1 : storedTok d (encode t) with
  | none => rw [h1] at h; simp at h
  | some a =>
    rw [h1] at h
    simp only [Option.map_some, Option.some.injEq] at h
    simp only [Option.any_some, h, exact_lt, F64.ofNat, decide_eq_true_eq]
    exact_mod_cast hx

theorem posWord_none (h : (storedTok d (encode t)).map (·.freq) = none) : posWord d t = false := by
  unfold posWord
  rw [Option.map_eq_none_iff.1 h]; rfl

theorem share_freq {x T : ℝ} (h : (storedTok d (encode t)).map (·.freq) = some (x : EReal)) (hT : d.totalFreq = (T : EReal)) :
    share d t = x / T := by
  unfold share pieceFreq
  cases h1 : storedTok d (encode t) with
  | none => rw [h1] at h; simp at h
  | some a =>
    rw [h1] at h
    simp only [Option.map_some, Option.some.injEq] at h
    simp [h, hT]

end facts
end general

section examples
attribute [local instance] sampleUnicode sampleUnicodeOK sampleParse

/-- "a", "b" and "好", each ten times. -/
noncomputable def letterOps : List (DictOp EReal) :=
  [.add [0x61] ((10 : ℝ) : EReal) [], .add [0x62] ((10 : ℝ) : EReal) [], .add [0xE5, 0xA5, 0xBD] ((10 : ℝ) : EReal) []]

theorem normA : normText {} [0x61] = [0x61] := by decide +kernel
theorem normB : normText {} [0x62] = [0x62] := by decide +kernel
theorem normHao : normText {} [0xE5, 0xA5, 0xBD] = [0xE5, 0xA5, 0xBD] := by decide +kernel
theorem normAbh : normText {} [0x61, 0x62, 0xE5, 0xA5, 0xBD] = [0x61, 0x62, 0xE5, 0xA5, 0xBD] := by decide +kernel

theorem letter_content (k : Bytes) : (absRun {} letterOps).content k =
    if k = [0xE5, 0xA5, 0xBD] then some (((10 : ℝ) : EReal), []) else if k = [0x62] then some (((10 : ℝ) : EReal), [])
    else if k = [0x61] then some (((10 : ℝ) : EReal), []) else none := by
  simp [absRun, letterOps, AbsDict.step, AbsDict.add, normA, normB, normHao]

theorem letter_run : ∃ d : Dictionary EReal EReal, runOps {} letterOps Dictionary.new = some d :=
  ⟨_, rfl⟩
theorem letter_freqs : FreqsExact letterOps := by
  intro op hop f hf
  simp only [letterOps, List.mem_cons, List.not_mem_nil, or_false] at hop
  rcases hop with rfl | rfl | rfl <;> cases hf <;> exact ⟨10, by norm_num, rfl⟩
theorem letter_total {d : Dictionary EReal EReal} (hr : runOps {} letterOps Dictionary.new = some d) : d.totalFreq = ((30 : ℝ) : EReal) := by
  rw [(C06_counters {} letterOps (by decide +kernel) d hr).2.1]
  simp [absRun, letterOps, AbsDict.step, AbsDict.add, normA, normB, normHao, F64.add, F64.ofNat]
  norm_cast
theorem dagAbh : dagText {} [0x61, 0x62, 0xE5, 0xA5, 0xBD] = [0x61, 0x62, 0x597D] := by decide +kernel
theorem dagCity : dagText {} [0xE4, 0xB8, 0x8A, 0xE6, 0xB5, 0xB7] = [0x4E0A, 0x6D77] := by decide +kernel

/-- The route through "ab好" before the word is added. -/
theorem letter_cut {d : Dictionary EReal EReal} (hr : runOps {} letterOps Dictionary.new = some d) :
    cutDAGNoHMM {} d [0x61, 0x62, 0xE5, 0xA5, 0xBD] = some [[0x61, 0x62], [0xE5, 0xA5, 0xBD]] := by
  have hfr := freq_content (by decide +kernel) hr
  obtain ⟨R, h1, h2⟩ := calcRoutes_eq (idxOK_of_run hr) (dagRunes {} [0x61, 0x62, 0xE5, 0xA5, 0xBD])
  obtain ⟨ps, e1, e2, _⟩ := walk_eq h2 (dagRunes {} [0x61, 0x62, 0xE5, 0xA5, 0xBD]).length 0 (by omega) (by omega)
  have e3 : IsRoute d [0x61, 0x62, 0x597D] ps := by
    rw [← dagAbh, ← dagRunes_eq]; simpa using e2
  have hp := isRoute_pieces e3
  have no : ∀ t : List Rune, t.length ≠ 1 → letterOps.length = 3 → (absRun {} letterOps).content (encode t) = none → t ∉ ps := by
    intro t h1 _ h2 h3
    rcases (hp t h3).2 with h | h
    · rw [posWord_none (by rw [hfr, h2]; rfl)] at h; cases h
    · exact h1 h
  have e4 : ps = [[0x61], [0x62], [0x597D]] := by
    rcases comps3 (fun t ht => (hp t ht).1) (isRoute_flatten e3) with h | h | h | h
    · exact absurd (by rw [h]; simp) (no [0x61, 0x62, 0x597D] (by simp) rfl (by rw [letter_content]; rfl))
    · exact absurd (by rw [h]; simp) (no [0x61, 0x62] (by simp) rfl (by rw [letter_content]; rfl))
    · exact absurd h (no [0x62, 0x597D] (by simp) rfl (by rw [letter_content]; rfl))
    · exact h
  unfold cutDAGNoHMM
  simp only [h1, e1, Option.map_some, e4]
  rfl

/-- What is suggested for "ab好". -/
theorem letter_suggest {d : Dictionary EReal EReal} (hr : runOps {} letterOps Dictionary.new = some d) :
    suggestFreq {} d [[0x61, 0x62, 0xE5, 0xA5, 0xBD]] = some ((1 : ℝ) : EReal) := by
  have hfr := freq_content (by decide +kernel) hr
  have hT := letter_total hr
  have hi := idxOK_of_run hr
  have hc := counts_run hr letter_freqs
  have hn : ∀ k, (absRun {} letterOps).content k = none → storedTok d k = none := by
    intro k hk
    have := hfr k
    rw [hk] at this
    simpa using this
  have hs : ∀ w, (∀ k, (absRun {} letterOps).content k ≠ none → ¬ w <+: k) → ¬ StartsStored d w := by
    rintro w hw ⟨k, tok, h1, h2⟩
    refine hw k ?_ h2
    intro e
    have := hfr k
    rw [e, h1] at this
    simp at this
  have hkeys : ∀ k, (absRun {} letterOps).content k ≠ none → k = [0xE5, 0xA5, 0xBD] ∨ k = [0x62] ∨ k = [0x61] := by
    intro k hk
    rw [letter_content] at hk
    by_contra h
    simp only [not_or] at h
    simp [h.1, h.2.1, h.2.2] at hk
  have hab := find_unknown hi (hn [0x61, 0x62] (by rw [letter_content]; rfl)) (hs _ (by
    intro k hk
    rcases hkeys k hk with rfl | rfl | rfl <;> decide))
  have habh := find_unknown hi (hn [0x61, 0x62, 0xE5, 0xA5, 0xBD] (by rw [letter_content]; rfl)) (hs _ (by
    intro k hk
    rcases hkeys k hk with rfl | rfl | rfl <;> decide))
  obtain ⟨tok, h3, h4⟩ : ∃ tok, storedTok d [0xE5, 0xA5, 0xBD] = some tok ∧ tok.freq = ((10 : ℝ) : EReal) := by
    have := hfr [0xE5, 0xA5, 0xBD]
    rw [letter_content] at this
    simp only [if_true, Option.map_some, Option.map_eq_some_iff] at this
    exact this
  have hh := find_stored h3
  unfold suggestFreq
  simp only [letter_cut hr, Option.bind_some, suggestProd, hab, hh, habh, Option.map_some, hT, h4]
  simp only [Bool.false_eq_true, if_false, if_true, F64.ofNat]
  have e1 : F64.mul (F64.div (F64.mul (F64.div (((1 : ℕ) : ℝ) : EReal) ((30 : ℝ) : EReal)) ((10 : ℝ) : EReal)) ((30 : ℝ) : EReal)) ((30 : ℝ) : EReal) =
      ((1 / 3 : ℝ) : EReal) := by
    simp only [F64.mul, F64.div, ← EReal.coe_div, ← EReal.coe_mul]
    norm_num
  rw [e1, trunc_real (by norm_num)]
  have e2 : ⌊(1 / 3 : ℝ)⌋ = 0 := by norm_num
  rw [e2]
  have e3 : F64.add (((0 : ℤ) : ℝ) : EReal) (((1 : ℕ) : ℝ) : EReal) = ((1 : ℝ) : EReal) := by
    simp [F64.add]
  rw [e3]
  simp

/-- C70: why no single letter of the word may be stored. "ab好", added with the frequency suggested for it, is still cut:
the suggestion takes "ab" for one unknown word where the route has two known ones. -/
theorem C70_letters : ∃ (d d' : Dictionary EReal EReal) (f : EReal), runOps {} letterOps Dictionary.new = some d ∧ FreqsExact letterOps ∧
    Plain {} [0x61, 0x62, 0xE5, 0xA5, 0xBD] ∧ (absRun {} letterOps).content [0x61, 0x62, 0xE5, 0xA5, 0xBD] = none ∧
    suggestFreq {} d [[0x61, 0x62, 0xE5, 0xA5, 0xBD]] = some f ∧ segAddToken {} d [0x61, 0x62, 0xE5, 0xA5, 0xBD] f [] = (d', false) ∧
    cutDAGNoHMM {} d' [0x61, 0x62, 0xE5, 0xA5, 0xBD] ≠ some [[0x61, 0x62, 0xE5, 0xA5, 0xBD]] := by
  obtain ⟨d, hr⟩ := letter_run
  have hr' : runOps {} (letterOps ++ [.add [0x61, 0x62, 0xE5, 0xA5, 0xBD] ((1 : ℝ) : EReal) []]) Dictionary.new =
      some (segAddToken {} d [0x61, 0x62, 0xE5, 0xA5, 0xBD] ((1 : ℝ) : EReal) []).1 := by
    rw [runOps_append, hr]; rfl
  have hf' : FreqsExact (letterOps ++ [.add [0x61, 0x62, 0xE5, 0xA5, 0xBD] ((1 : ℝ) : EReal) []]) := by
    intro o ho g hg
    rcases List.mem_append.1 ho with ho | ho
    · exact letter_freqs o ho g hg
    · simp only [List.mem_singleton] at ho
      subst ho
      cases hg
      exact ⟨1, by norm_num, rfl⟩
  set d' := (segAddToken {} d [0x61, 0x62, 0xE5, 0xA5, 0xBD] ((1 : ℝ) : EReal) []).1 with hd'
  have hn : (absRun {} letterOps).content [0x61, 0x62, 0xE5, 0xA5, 0xBD] = none := by rw [letter_content]; rfl
  have hs : SetWord d d' [0x61, 0x62, 0xE5, 0xA5, 0xBD] ((1 : ℝ) : EReal) := by
    refine setWord_snoc (p := []) (t := [0x61, 0x62, 0xE5, 0xA5, 0xBD]) (by decide +kernel) hr hr' ?_ ?_
    · intro k
      simp only [absRun_snoc, AbsDict.step, AbsDict.add, normAbh, hn]
    · simp only [absRun_snoc, AbsDict.step, AbsDict.add, normAbh, hn]
  have hplain : Plain {} [0x61, 0x62, 0xE5, 0xA5, 0xBD] := ⟨by simp, normAbh, by rw [dagAbh]; rfl⟩
  have hT' : d'.totalFreq = ((31 : ℝ) : EReal) := by
    rw [hs.total, letter_total hr, ← EReal.coe_add]; norm_num
  have hfr := freq_content (by decide +kernel) hr
  have fr : ∀ k, k ≠ [0x61, 0x62, 0xE5, 0xA5, 0xBD] → (storedTok d' k).map (·.freq) = ((absRun {} letterOps).content k).map (·.1) := by
    intro k hk
    rw [hs.other k hk, hfr]
  have fa : (storedTok d' (encode [0x61])).map (·.freq) = some ((10 : ℝ) : EReal) := by
    rw [fr _ (by decide), letter_content]; rfl
  have fb : (storedTok d' (encode [0x62])).map (·.freq) = some ((10 : ℝ) : EReal) := by
    rw [fr _ (by decide), letter_content]; rfl
  have fh : (storedTok d' (encode [0x597D])).map (·.freq) = some ((10 : ℝ) : EReal) := by
    rw [fr _ (by decide), letter_content]; rfl
  have fw : (storedTok d' (encode [0x61, 0x62, 0x597D])).map (·.freq) = some ((1 : ℝ) : EReal) := hs.word
  refine ⟨d, d', _, hr, letter_freqs, hplain, hn, letter_suggest hr, ?_, ?_⟩
  · rw [hd']
    exact Prod.ext rfl (add_flag hr (by decide +kernel) hplain hn)
  · obtain ⟨ps, gs, h2, h3, h4, h5⟩ := C27_exact {} _ d' hr' hf' (by rw [hT']; exact_mod_cast (by norm_num : (1 : ℝ) ≤ 31)) [0x61, 0x62, 0xE5, 0xA5, 0xBD]
    rw [dagAbh] at h2 h3
    have hroute : IsRoute d' [0x61, 0x62, 0x597D] [[0x61], [0x62], [0x597D]] :=
      .cons (t := [0x61]) (rest := [0x62, 0x597D]) (by simp) (Or.inl (posWord_freq fa (by norm_num)))
        (.cons (t := [0x62]) (rest := [0x597D]) (by simp) (Or.inl (posWord_freq fb (by norm_num)))
          (.cons (t := [0x597D]) (rest := []) (by simp) (Or.inl (posWord_freq fh (by norm_num))) .nil))
    have hbig := h3 _ hroute
    rw [h5]
    intro e
    have hgs : gs.length = 1 := by
      have := congrArg (fun o : Option (List Bytes) => o.map List.length) e
      simpa using this
    obtain ⟨g, rfl⟩ := List.length_eq_one_iff.1 hgs
    have hfl := h4.flat
    simp only [List.flatten_cons, List.flatten_nil, List.append_nil] at hfl
    subst hfl
    rcases h4.kind g (by simp) with ⟨x, rfl, _⟩ | ⟨_, h⟩
    · have hx : x = [0x61, 0x62, 0x597D] := by simpa using isRoute_flatten h2
      subst hx
      simp only [likelihood, List.map_cons, List.map_nil, List.prod_cons, List.prod_nil, share_freq fa hT', share_freq fb hT', share_freq fh hT',
        share_freq fw hT'] at hbig
      norm_num at hbig
    · have hm : (0x597D : Rune) ∈ g.flatten := by rw [isRoute_flatten h2]; simp
      obtain ⟨t, ht, hm⟩ := List.mem_flatten.1 hm
      obtain ⟨r, rfl, hr⟩ := h t ht
      simp only [List.mem_singleton] at hm
      subst hm
      revert hr; decide

theorem city_plain : Plain {} [0xE4, 0xB8, 0x8A, 0xE6, 0xB5, 0xB7] := ⟨by simp, normCity, by rw [dagCity]; rfl⟩

theorem city_found {d : Dictionary EReal EReal} (hr : runOps {} cityOps Dictionary.new = some d) {k : Bytes} {x : EReal}
    (h : ((absRun {} cityOps).content k).map (·.1) = some x) : ∃ p, d.find k = some (x, p, true) := by
  have := freq_content (by decide +kernel) hr k
  rw [h, Option.map_eq_some_iff] at this
  obtain ⟨tok, h1, h2⟩ := this
  exact ⟨tok.pos, by rw [find_stored h1, h2]⟩

/-- What is suggested for cutting "上海" into "上" and "海". -/
theorem city_suggest {d : Dictionary EReal EReal} (hr : runOps {} cityOps Dictionary.new = some d) :
    suggestFreq {} d [[0xE4, 0xB8, 0x8A], [0xE6, 0xB5, 0xB7]] = some ((1 : ℝ) : EReal) := by
  obtain ⟨p1, h1⟩ := city_found hr (k := [0xE4, 0xB8, 0x8A]) (x := ((20 : ℝ) : EReal)) (by rw [city_content]; rfl)
  obtain ⟨p2, h2⟩ := city_found hr (k := [0xE6, 0xB5, 0xB7]) (x := ((20 : ℝ) : EReal)) (by rw [city_content]; rfl)
  obtain ⟨p3, h3⟩ := city_found hr (k := [0xE4, 0xB8, 0x8A, 0xE6, 0xB5, 0xB7]) (x := ((360 : ℝ) : EReal)) (by rw [city_content]; rfl)
  have hT := city_total hr
  unfold suggestFreq
  have hfl : [[0xE4, 0xB8, 0x8A], [0xE6, 0xB5, 0xB7]].flatten = ([0xE4, 0xB8, 0x8A, 0xE6, 0xB5, 0xB7] : Bytes) := rfl
  simp only [Option.bind_some, suggestProd, h1, h2, hfl, h3, Option.map_some, hT]
  simp only [if_true, F64.ofNat]
  have e1 : F64.mul (F64.div (F64.mul (F64.div (F64.mul (((1 : ℕ) : ℝ) : EReal) ((20 : ℝ) : EReal)) ((400 : ℝ) : EReal)) ((20 : ℝ) : EReal))
      ((400 : ℝ) : EReal)) ((400 : ℝ) : EReal) = ((1 : ℝ) : EReal) := by
    simp only [F64.mul, F64.div, ← EReal.coe_div, ← EReal.coe_mul]
    norm_num
  rw [e1, trunc_real (by norm_num)]
  have e2 : ⌊(1 : ℝ)⌋ = 1 := by norm_num
  rw [e2]
  simp only [Int.cast_one, exact_lt]
  rw [if_neg]
  simp only [EReal.coe_lt_coe_iff, decide_eq_true_eq]
  norm_num

/-- C70: a suggestion for cutting a word apart need not do so. "上" and "海" are stored with 20 each, "上海" with 360. The
frequency suggested for "上", "海" is 1; with it, "上海" is still cut whole. -/
theorem C70_apart : ∃ (d d' : Dictionary EReal EReal) (f : EReal) (b : Bool), runOps {} cityOps Dictionary.new = some d ∧ FreqsExact cityOps ∧
    suggestFreq {} d [[0xE4, 0xB8, 0x8A], [0xE6, 0xB5, 0xB7]] = some f ∧
    segReAddToken {} d [0xE4, 0xB8, 0x8A, 0xE6, 0xB5, 0xB7] f [] = some (d', b) ∧
    cutDAGNoHMM {} d' [0xE4, 0xB8, 0x8A, 0xE6, 0xB5, 0xB7] = some [[0xE4, 0xB8, 0x8A, 0xE6, 0xB5, 0xB7]] := by
  obtain ⟨d, hr⟩ := city_run
  have hn : (absRun {} cityOps).content [0xE4, 0xB8, 0x8A, 0xE6, 0xB5, 0xB7] = some (((360 : ℝ) : EReal), []) := by
    rw [city_content]; rfl
  obtain ⟨d', b, hd', hr', hs⟩ := readd_set hr (by decide +kernel) (f := ((1 : ℝ) : EReal)) (p := []) city_plain (by rw [hn]; simp)
  have hf' : FreqsExact (cityOps ++ [.reAdd [0xE4, 0xB8, 0x8A, 0xE6, 0xB5, 0xB7] ((1 : ℝ) : EReal) []]) :=
    freqs_snoc city_freqs (by intro g hg; cases hg; exact ⟨1, by norm_num, rfl⟩)
  refine ⟨d, d', _, b, hr, city_freqs, city_suggest hr, hd', ?_⟩
  have hT' : d'.totalFreq = ((401 : ℝ) : EReal) := by
    rw [hs.total, city_total hr, ← EReal.coe_add]; norm_num
  have fr : ∀ k, k ≠ [0xE4, 0xB8, 0x8A, 0xE6, 0xB5, 0xB7] → (storedTok d' k).map (·.freq) = ((absRun {} cityOps).content k).map (·.1) := by
    intro k hk
    rw [hs.other k hk, freq_content (by decide +kernel) hr]
  have fx : (storedTok d' (encode [0x4E0A])).map (·.freq) = some ((20 : ℝ) : EReal) := by
    rw [fr _ (by decide), city_content]; rfl
  have fy : (storedTok d' (encode [0x6D77])).map (·.freq) = some ((20 : ℝ) : EReal) := by
    rw [fr _ (by decide), city_content]; rfl
  have fw : (storedTok d' (encode [0x4E0A, 0x6D77])).map (·.freq) = some ((1 : ℝ) : EReal) := hs.word
  obtain ⟨ps, gs, h2, h3, h4, h5⟩ := C27_exact {} _ d' hr' hf' (by rw [hT']; exact_mod_cast (by norm_num : (1 : ℝ) ≤ 401))
    [0xE4, 0xB8, 0x8A, 0xE6, 0xB5, 0xB7]
  rw [dagCity] at h2 h3
  have hroute : IsRoute d' [0x4E0A, 0x6D77] [[0x4E0A, 0x6D77]] :=
    .cons (t := [0x4E0A, 0x6D77]) (rest := []) (by simp) (Or.inl (posWord_freq fw (by norm_num))) .nil
  have hbig := h3 _ hroute
  have hps : ps = [[0x4E0A, 0x6D77]] := by
    rcases comps2 (fun t ht => (isRoute_pieces h2 t ht).1) (isRoute_flatten h2) with h | h
    · exact h
    · subst h
      simp only [likelihood, List.map_cons, List.map_nil, List.prod_cons, List.prod_nil, share_freq fx hT', share_freq fy hT',
        share_freq fw hT'] at hbig
      norm_num at hbig
  subst hps
  rw [h5, runs_of_one h4]
  rfl

/-- C70 applies: "海上" is not stored, and no letter is. -/
example : ∃ (d : Dictionary EReal EReal), runOps {} cityOps Dictionary.new = some d ∧ cityOps.length < Trie.valueLimit ∧ FreqsExact cityOps ∧
    1 ≤ d.totalFreq ∧ Plain {} [0xE6, 0xB5, 0xB7, 0xE4, 0xB8, 0x8A] ∧ (absRun {} cityOps).content [0xE6, 0xB5, 0xB7, 0xE4, 0xB8, 0x8A] = none ∧
    ∀ r ∈ dagText {} [0xE6, 0xB5, 0xB7, 0xE4, 0xB8, 0x8A], asciiAlnum r = true → (absRun {} cityOps).content (encode [r]) = none := by
  obtain ⟨d, hr⟩ := city_run
  have e : dagText {} [0xE6, 0xB5, 0xB7, 0xE4, 0xB8, 0x8A] = [0x6D77, 0x4E0A] := by decide +kernel
  refine ⟨d, hr, by decide +kernel, city_freqs, ?_, ⟨by simp, by decide +kernel, by rw [e]; rfl⟩, by rw [city_content]; rfl, ?_⟩
  · rw [city_total hr]; exact_mod_cast (by norm_num : (1 : ℝ) ≤ 400)
  · rw [e]
    intro r hr hr'
    simp only [List.mem_cons, List.not_mem_nil, or_false] at hr
    rcases hr with rfl | rfl <;> revert hr' <;> decide

/-- C70 applies: "上海" is stored. -/
example : ∃ (d : Dictionary EReal EReal), runOps {} cityOps Dictionary.new = some d ∧ 1 ≤ d.totalFreq ∧
    Plain {} [0xE4, 0xB8, 0x8A, 0xE6, 0xB5, 0xB7] ∧ (absRun {} cityOps).content [0xE4, 0xB8, 0x8A, 0xE6, 0xB5, 0xB7] ≠ none ∧
    ∀ r ∈ dagText {} [0xE4, 0xB8, 0x8A, 0xE6, 0xB5, 0xB7], asciiAlnum r = true → (absRun {} cityOps).content (encode [r]) = none := by
  obtain ⟨d, hr⟩ := city_run
  refine ⟨d, hr, ?_, city_plain, by rw [city_content]; simp, ?_⟩
  · rw [city_total hr]; exact_mod_cast (by norm_num : (1 : ℝ) ≤ 400)
  · rw [dagCity]
    intro r hr hr'
    simp only [List.mem_cons, List.not_mem_nil, or_false] at hr
    rcases hr with rfl | rfl <;> revert hr' <;> decide

end examples

end Gse
