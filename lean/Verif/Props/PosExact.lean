import Verif.Props.Suggest
import Verif.Props.Pos
import Verif.Props.Again

/-!
# What `pos.Segmenter.Cut` optimises, in exact arithmetic

The product of the frequencies, where `Segmenter.Cut` has the product of the probabilities (C27_exact).
-/

set_option linter.unusedSectionVars false

namespace Gse

open Spec

namespace Spec

variable {D : Type} [ParseFn] [F32 D]

/-- The product of the frequencies of the pieces; a piece that is no word counts 1, one that only begins words counts 0. -/
noncomputable def freqProduct (d : Dictionary EReal D) (ps : List (List Rune)) : ℝ := (ps.map fun t => (pieceFreq d t).toReal).prod

end Spec

section

variable {D : Type} [ParseFn] [F32 D] [Narrow EReal D] [Unicode]

/-- The frequency a piece counts with is a number. -/
theorem pieceFreq_real {d : Dictionary EReal D} (hc : Counts d) (t : List Rune) : Amount (pieceFreq d t) := by
  unfold pieceFreq
  split
  · next tok htok =>
    have hm : tok ∈ d.tokens := by
      unfold storedTok at htok
      obtain ⟨v, _, hv⟩ := Option.bind_eq_some_iff.1 htok
      exact List.mem_of_getElem? hv
    exact (hc.freq tok hm).1
  · split
    · exact ⟨0, le_refl _, by simp [F64.ofNat]⟩
    · exact ⟨1, zero_le_one, by simp [F64.ofNat]⟩

theorem pieceScore_zero {d : Dictionary EReal D} (hc : Counts d) (t : List Rune) :
    pieceScoreBy (F64.ofNat 0) d t = ENNReal.log (ENNReal.ofReal (pieceFreq d t).toReal) := by
  obtain ⟨r, hr, e⟩ := pieceFreq_real hc t
  unfold pieceScoreBy
  rw [e]
  simp [F64.log, F64.sub, F64.ofNat]

theorem freqProduct_nonneg {d : Dictionary EReal D} (hc : Counts d) (ps : List (List Rune)) : 0 ≤ freqProduct d ps := by
  refine List.prod_nonneg ?_
  intro x hx
  obtain ⟨t, _, rfl⟩ := List.mem_map.1 hx
  obtain ⟨r, hr, e⟩ := pieceFreq_real hc t
  rw [e]; exact hr

theorem score_freqProduct {d : Dictionary EReal D} (hc : Counts d) (ps : List (List Rune)) :
    scoreBy (F64.ofNat 0) d ps = ENNReal.log (ENNReal.ofReal (freqProduct d ps)) := by
  induction ps with
  | nil => simp [scoreBy, freqProduct, F64.ofNat]
  | cons t ps ih =>
    have e2 : freqProduct d (t :: ps) = (pieceFreq d t).toReal * freqProduct d ps := by simp [freqProduct]
    obtain ⟨r, hr, e⟩ := pieceFreq_real hc t
    rw [score_cons, ih, pieceScore_zero hc, e2, ENNReal.ofReal_mul (by rw [e]; exact hr), ENNReal.log_mul_add]
    rfl

theorem scoreLaws_freq {d : Dictionary EReal D} (rs : List Rune) : ScoreLaws (F64.ofNat 0) d rs (fun _ : EReal => True) where
  order := {
    lt_asymm := fun _ _ h => by rw [exact_lt_true] at h; rw [exact_lt_false]; exact h.le
    lt_cotrans := fun {a b c} _ _ _ h => by
      rw [exact_lt_true] at h
      by_cases h1 : a < b
      · exact Or.inl (exact_lt_true.2 h1)
      · exact Or.inr (exact_lt_true.2 (lt_of_le_of_lt (not_lt.1 h1) h))
    eq_iff := fun {a b} _ _ => by
      rw [exact_eq_true, exact_lt_false, exact_lt_false]
      exact ⟨fun h => ⟨h.symm.le, h.le⟩, fun h => le_antisymm h.2 h.1⟩ }
  score := fun _ _ _ _ => trivial
  mono := fun t a b _ _ _ _ _ _ h => by
    rw [exact_lt_false] at h ⊢
    exact add_le_add (le_refl _) h

theorem best_freqProduct {d : Dictionary EReal D} (hc : Counts d) {text : List Rune} {ps : List (List Rune)}
    (h : IsBestRouteBy (F64.ofNat 0) d text ps) (qs : List (List Rune)) (hq : IsRoute d text qs) : freqProduct d qs ≤ freqProduct d ps := by
  have := h.highest [] ps rfl qs (by rw [isRoute_flatten h.route]; exact hq)
  rw [exact_lt_false, score_freqProduct hc, score_freqProduct hc, ENNReal.log_le_log_iff,
    ENNReal.ofReal_le_ofReal_iff (freqProduct_nonneg hc _)] at this
  exact this

/-- C66: without rounding, `Cut(text, false)` of package pos divides a run of dictionary characters so that the product of the
frequencies is largest. -/
theorem C66_exact (cfg : SplitCfg) (ops : List (DictOp EReal)) (d : Dictionary EReal D)
    (hr : runOps cfg ops Dictionary.new = some d) (hf : FreqsExact ops) (s : Bytes) :
    ∃ ps gs out, IsRoute d (runes s) ps ∧ (∀ qs, IsRoute d (runes s) qs → freqProduct d qs ≤ freqProduct d ps) ∧
      IsRuns EngPiece ps gs ∧ List.Forall₂ (PosNoHmm d) gs out ∧ posCutNoHMM d s = some out := by
  obtain ⟨ps, gs, out, h1, h2, h3, h4⟩ := posCutNoHMM_best hr s (scoreLaws_freq (d := d) (runes s))
  exact ⟨ps, gs, out, h1.route, best_freqProduct (counts_run hr hf) h1, h2, h3, h4⟩

/-- C66: the same for `Cut(text, true)`. -/
theorem C66_exact_hmm [UnicodeOK] (cfg : SplitCfg) (ops : List (DictOp EReal)) (d : Dictionary EReal D)
    (hr : runOps cfg ops Dictionary.new = some d) (hf : FreqsExact ops) (ch : Choice) (T : PosTables EReal)
    (hT : PosTablesOK T) (bound : Nat) (size : Nat → EReal → Prop) (hp : PosFinite T bound size) (s : Bytes)
    (hs : ∀ u ∈ chars s, posChar u = true) (hb : 2 * (runes s).length ≤ bound) :
    ∃ ps gs outs, IsRoute d (runes s) ps ∧ (∀ qs, IsRoute d (runes s) qs → freqProduct d qs ≤ freqProduct d ps) ∧
      IsRuns (fun t : List Rune => t.length = 1) ps gs ∧
      List.Forall₂ (PosRun d (cutDetail ch T)) gs outs ∧ posCutDAG d (cutDetail ch T) s = some outs.flatten := by
  obtain ⟨ps, gs, outs, h1, h2, h3, h4, _⟩ := posCutDAG_best hr ch T hT bound size hp s hs hb (scoreLaws_freq (d := d) (runes s))
  exact ⟨ps, gs, outs, h1.route, best_freqProduct (counts_run hr hf) h1, h2, h3, h4⟩

end

section examples

attribute [local instance] sampleUnicode sampleUnicodeOK sampleParse

/-- C66: the two ways to cut disagree. "上" and "海" are stored with 20 each, "上海" with 360: `Segmenter.Cut` keeps "上海", and
package pos with the same dictionary cuts it apart, for 20 · 20 is more than 360. -/
theorem C66_apart : ∃ d : Dictionary EReal EReal, runOps {} cityOps Dictionary.new = some d ∧ FreqsExact cityOps ∧
    cutDAGNoHMM {} d [0xE4, 0xB8, 0x8A, 0xE6, 0xB5, 0xB7] = some [[0xE4, 0xB8, 0x8A, 0xE6, 0xB5, 0xB7]] ∧
    ∃ out, posCutNoHMM d [0xE4, 0xB8, 0x8A, 0xE6, 0xB5, 0xB7] = some out ∧
      out.map SegPos.text = [[0xE4, 0xB8, 0x8A], [0xE6, 0xB5, 0xB7]] := by
  obtain ⟨d, hr⟩ := city_run
  have hT := city_total hr
  have fr := freq_content (by decide +kernel) hr
  have fx : (storedTok d (encode [0x4E0A])).map (·.freq) = some ((20 : ℝ) : EReal) := by rw [fr, city_content]; rfl
  have fy : (storedTok d (encode [0x6D77])).map (·.freq) = some ((20 : ℝ) : EReal) := by rw [fr, city_content]; rfl
  have fw : (storedTok d (encode [0x4E0A, 0x6D77])).map (·.freq) = some ((360 : ℝ) : EReal) := by rw [fr, city_content]; rfl
  have r1 : IsRoute d [0x4E0A, 0x6D77] [[0x4E0A, 0x6D77]] :=
    .cons (t := [0x4E0A, 0x6D77]) (rest := []) (by simp) (Or.inl (posWord_freq fw (by norm_num))) .nil
  have r2 : IsRoute d [0x4E0A, 0x6D77] [[0x4E0A], [0x6D77]] :=
    .cons (t := [0x4E0A]) (rest := [0x6D77]) (by simp) (Or.inl (posWord_freq fx (by norm_num)))
      (.cons (t := [0x6D77]) (rest := []) (by simp) (Or.inl (posWord_freq fy (by norm_num))) .nil)
  have pf : ∀ {t : List Rune} {x : ℝ}, (storedTok d (encode t)).map (·.freq) = some (x : EReal) → (pieceFreq d t).toReal = x := by
    intro t x h
    obtain ⟨tok, h1, h2⟩ := Option.map_eq_some_iff.1 h
    simp [pieceFreq, h1, h2]
  refine ⟨d, hr, city_freqs, ?_, ?_⟩
  · obtain ⟨ps, gs, h2, h3, h4, h5⟩ := C27_exact {} _ d hr city_freqs (by rw [hT]; exact_mod_cast (by norm_num : (1 : ℝ) ≤ 400))
      [0xE4, 0xB8, 0x8A, 0xE6, 0xB5, 0xB7]
    rw [dagCity] at h2 h3
    have hbig := h3 _ r1
    have hps : ps = [[0x4E0A, 0x6D77]] := by
      rcases comps2 (fun t ht => (isRoute_pieces h2 t ht).1) (isRoute_flatten h2) with h | h
      · exact h
      · subst h
        simp only [likelihood, List.map_cons, List.map_nil, List.prod_cons, List.prod_nil, share_freq fx hT, share_freq fy hT,
          share_freq fw hT] at hbig
        norm_num at hbig
    subst hps
    rw [h5, runs_of_one h4]
    rfl
  · obtain ⟨ps, gs, out, h2, h3, h4, h5, h6⟩ := C66_exact {} _ d hr city_freqs [0xE4, 0xB8, 0x8A, 0xE6, 0xB5, 0xB7]
    have er : runes [0xE4, 0xB8, 0x8A, 0xE6, 0xB5, 0xB7] = [0x4E0A, 0x6D77] := by decide +kernel
    rw [er] at h2 h3
    have hbig := h3 _ r2
    have hps : ps = [[0x4E0A], [0x6D77]] := by
      rcases comps2 (fun t ht => (isRoute_pieces h2 t ht).1) (isRoute_flatten h2) with h | h
      · subst h
        simp only [freqProduct, List.map_cons, List.map_nil, List.prod_cons, List.prod_nil, pf fx, pf fy, pf fw] at hbig
        norm_num at hbig
      · exact h
    subst hps
    refine ⟨out, h6, ?_⟩
    have n1 : ¬ EngPiece [0x4E0A] := by rintro ⟨r, h, h'⟩; cases h; revert h'; decide
    have n2 : ¬ EngPiece [0x6D77] := by rintro ⟨r, h, h'⟩; cases h; revert h'; decide
    rw [isRuns_unique gs [[[0x4E0A]], [[0x6D77]]] _ h4 (runs_cons n1 (runs_cons n2 (runs_nil _)))] at h5
    obtain _ | ⟨a1, _ | ⟨a2, _ | _⟩⟩ := h5
    have one : ∀ {t : List Rune} {o : SegPos}, PosNoHmm d [t] o → o.text = encode t := by
      intro t o h
      cases h with
      | eng _ => simp
      | word _ => rfl
    simp only [List.map_cons, List.map_nil, one a1, one a2]
    decide +kernel

/-- Tables with one state, a noun of one character. -/
noncomputable def nounTables : PosTables EReal where
  keys := [400]
  trans x := if x = 400 then [(400, ((-1 : ℝ) : EReal))] else []
  start _ := none
  emit _ _ := none
  minFloat := ((-9 : ℝ) : EReal)
  inf := ⊥
  tab _ := none
  poss := [str "n"]

theorem nounTables_trans {x y : Nat} (h : PosTrans nounTables x y) : x = 400 ∧ y = 400 := by
  obtain ⟨v, h⟩ := h
  have h' : (nounTables.trans x).lookup y = some v := h
  unfold nounTables at h'
  simp only at h'
  split at h'
  · next e =>
    refine ⟨e, ?_⟩
    by_contra hne
    have : (y == 400) = false := by simpa using hne
    simp [List.lookup_cons, this] at h'
  · simp at h'

theorem nounTables_ok : PosTablesOK nounTables := by
  have t : PosTrans nounTables 400 400 := ⟨((-1 : ℝ) : EReal), by
    show (nounTables.trans 400).lookup 400 = _
    simp [nounTables]⟩
  have hs : ∀ r, nounTables.states r = [400] := fun _ => rfl
  refine ⟨?_, ?_, ?_, ?_⟩
  · intro x y h
    obtain ⟨rfl, rfl⟩ := nounTables_trans h
    exact ⟨.S, .S, rfl, rfl, by constructor⟩
  · intro x y h
    obtain ⟨rfl, rfl⟩ := nounTables_trans h
    exact ⟨400, t⟩
  · intro r
    exact ⟨400, by simp [hs], 400, t⟩
  · intro y hy
    have : y = 400 := by
      rcases hy with ⟨r, h⟩ | ⟨x, h⟩
      · simpa [hs] using h
      · exact (nounTables_trans h).2
    subst this
    exact ⟨⟨.S, rfl⟩, by simp [nounTables]⟩

/-- Exact sums have no bound. -/
theorem nounTables_finite (bound : Nat) : PosFinite nounTables bound fun _ a => ∃ r : ℝ, a = (r : EReal) where
  add := by
    rintro _ _ _ _ ⟨a, rfl⟩ ⟨b, rfl⟩ _
    exact ⟨a + b, (EReal.coe_add a b).symm⟩
  minFloat := ⟨_, rfl⟩
  start _ := ⟨_, rfl⟩
  emit := by intro _ _ _ h; cases h
  trans := by
    intro x y v h
    obtain ⟨rfl, rfl⟩ := nounTables_trans ⟨v, h⟩
    have h' : (nounTables.trans 400).lookup 400 = some v := h
    simp [nounTables] at h'
    exact ⟨-1, by rw [← h']; simp⟩
  add_inf := by rintro _ _ ⟨a, rfl⟩; exact EReal.add_bot _
  inf_add := by rintro _ _ ⟨a, rfl⟩; exact EReal.bot_add _
  inf_lt := by rintro _ _ ⟨a, rfl⟩; exact exact_lt_true.2 (EReal.bot_lt_coe a)
  not_lt_inf := by rintro _ _ ⟨a, rfl⟩; exact exact_lt_false.2 bot_le
  inf_ne := by
    rintro _ _ ⟨a, rfl⟩
    rw [← Bool.not_eq_true, exact_eq_true]
    exact (EReal.bot_lt_coe a).ne

/-- C66 in exact arithmetic applies to `Cut("上海", true)`. -/
example (ch : Choice) : ∃ d : Dictionary EReal EReal, runOps {} cityOps Dictionary.new = some d ∧
    ∃ ps, IsRoute d (runes [0xE4, 0xB8, 0x8A, 0xE6, 0xB5, 0xB7]) ps ∧
      ∃ out, posCutDAG d (cutDetail ch nounTables) [0xE4, 0xB8, 0x8A, 0xE6, 0xB5, 0xB7] = some out := by
  obtain ⟨d, hr⟩ := city_run
  obtain ⟨ps, gs, outs, h1, _, _, _, h2⟩ := C66_exact_hmm {} cityOps d hr city_freqs ch nounTables nounTables_ok 4 _ (nounTables_finite 4)
    [0xE4, 0xB8, 0x8A, 0xE6, 0xB5, 0xB7] (by decide +kernel) (by decide +kernel)
  exact ⟨d, hr, ps, h1, _, h2⟩

end examples

end Gse
