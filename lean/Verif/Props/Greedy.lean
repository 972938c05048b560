import Verif.Proofs.GreedyInf
import Verif.Props.Error
import Verif.Props.IeeeRest
import Verif.Props.Dag
import Verif.Props.Load

/-!
# C72: a frequency that is not a finite number
-/

set_option linter.unusedSectionVars false

namespace Gse

open Spec

section main
variable {M : MathFns} [Unicode]

/-! ### The total -/

theorem foldl_nan (fs : List (Binary64 M)) : ∀ a : Binary64 M, (a.datum = .nan ∨ ∃ f ∈ fs, f.datum = .nan) → (fs.foldl F64.add a).datum = .nan := by
  induction fs with
  | nil => rintro a (h | ⟨f, hf, _⟩); exacts [h, by simp at hf]
  | cons f fs ih =>
    intro a h
    rw [List.foldl_cons]
    refine ih _ ?_
    rcases h with h | ⟨g, hg, h⟩
    · left
      show Datum.add f64 a.datum f.datum = _
      rw [h, datum_nan_add]
    · rcases List.mem_cons.1 hg with rfl | hg
      · left
        show Datum.add f64 a.datum g.datum = _
        rw [h, datum_add_nan]
      · exact .inr ⟨g, hg, h⟩

theorem foldl_inf (fs : List (Binary64 M)) : ∀ a : Binary64 M, a.datum.NonNeg → (∀ f ∈ fs, f.datum.NonNeg) →
    (a.datum = .inf false ∨ ∃ f ∈ fs, f.datum = .inf false) → (fs.foldl F64.add a).datum = .inf false := by
  induction fs with
  | nil => rintro a _ _ (h | ⟨f, hf, _⟩); exacts [h, by simp at hf]
  | cons f fs ih =>
    intro a ha hfs h
    rw [List.foldl_cons]
    have hf := hfs f (by simp)
    have hn : (F64.add a f : Binary64 M).datum.NonNeg := Datum.NonNeg.add (f := f64) ha hf
    refine ih _ hn (fun g hg => hfs g (by simp [hg])) ?_
    have key : a.datum = .inf false ∨ f.datum = .inf false → (F64.add a f : Binary64 M).datum = .inf false := by
      intro h
      show Datum.add f64 a.datum f.datum = _
      revert ha hf h
      cases a.datum <;> cases f.datum <;> simp [Datum.NonNeg, Datum.add]
      rintro rfl rfl; simp
    rcases h with h | ⟨g, hg, h⟩
    · exact .inl (key (.inl h))
    · rcases List.mem_cons.1 hg with rfl | hg
      · exact .inl (key (.inr h))
      · exact .inr ⟨g, hg, h⟩

theorem stored_grows (cfg : SplitCfg) (a b : List (DictOp (Binary64 M))) : (absRun cfg a).stored <+: (absRun cfg (a ++ b)).stored := by
  induction b using List.reverseRecOn with
  | nil => simp
  | append_singleton b op ih =>
    rw [← List.append_assoc, C06_stored_step]
    exact ih.trans (List.prefix_append _ _)

theorem stored_added (cfg : SplitCfg) (a b : List (DictOp (Binary64 M))) (t : Bytes) (f : Binary64 M) (p : Bytes)
    (hn : (absRun cfg a).content (normText cfg t) = none) : (t, f) ∈ (absRun cfg (a ++ [.add t f p] ++ b)).stored := by
  refine (stored_grows cfg (a ++ [.add t f p]) b).subset ?_
  rw [C06_stored_step]
  simp [hn]

/-- C72: once a new word has been added with the frequency NaN, the total is NaN from then on, whatever is done after. -/
theorem C72_nan_total [UnicodeOK] (cfg : SplitCfg) (a b : List (DictOp (Binary64 M))) (t : Bytes) (f : Binary64 M) (p : Bytes)
    (hl : (a ++ [DictOp.add t f p] ++ b).length ≤ Trie.valueLimit) (hn : (absRun cfg a).content (normText cfg t) = none) (hf : f.datum = .nan)
    (d : Dictionary (Binary64 M) Binary32) (hr : runOps cfg (a ++ [.add t f p] ++ b) Dictionary.new = some d) : d.totalFreq.datum = .nan := by
  rw [(C06_counters cfg _ hl d hr).2.1]
  exact foldl_nan _ _ (.inr ⟨f, List.mem_map.2 ⟨_, stored_added cfg a b t f p hn, rfl⟩, hf⟩)

/-- C72: once a new word has been added with the frequency `+Inf` (no frequency passed being negative or NaN), the total is `+Inf` from then on. -/
theorem C72_inf_total [UnicodeOK] (cfg : SplitCfg) (a b : List (DictOp (Binary64 M))) (t : Bytes) (f : Binary64 M) (p : Bytes)
    (hl : (a ++ [DictOp.add t f p] ++ b).length ≤ Trie.valueLimit) (hn : (absRun cfg a).content (normText cfg t) = none) (hf : f.datum = .inf false)
    (hnn : FreqsNonNeg (a ++ [.add t f p] ++ b)) (d : Dictionary (Binary64 M) Binary32)
    (hr : runOps cfg (a ++ [.add t f p] ++ b) Dictionary.new = some d) : d.totalFreq.datum = .inf false := by
  rw [(C06_counters cfg _ hl d hr).2.1]
  have hall : ∀ ops : List (DictOp (Binary64 M)), FreqsNonNeg ops → ∀ e ∈ (absRun cfg ops).stored, e.2.datum.NonNeg := by
    intro ops
    induction ops using List.reverseRecOn with
    | nil => intro _ e he; simp [absRun] at he
    | append_singleton ops op ih =>
      intro h e he
      rw [C06_stored_step] at he
      rcases List.mem_append.1 he with he | he
      · exact ih (fun op hop => h op (by simp [hop])) e he
      · have h1 := h op (by simp)
        cases op with
        | add t f p => simp only at he; split at he <;> simp at he; subst he; exact h1 f rfl
        | addForce t f p => simp only at he; split at he <;> simp at he; subst he; exact h1 f rfl
        | reAdd t f p => simp only at he; split at he <;> simp at he; subst he; exact h1 f rfl
        | remove t => simp at he
        | recalc => simp at he
  refine foldl_inf _ _ (Datum.make_nonNeg (f := f64) (s := false) (q := ((0 : Nat) : ℚ)) (by norm_num)) ?_
    (.inr ⟨f, List.mem_map.2 ⟨_, stored_added cfg a b t f p hn, rfl⟩, hf⟩)
  intro g hg
  obtain ⟨e, he, rfl⟩ := List.mem_map.1 hg
  exact hall _ hnn e he

/-! ### Segment -/

/-- C72: after a recalculation with a NaN total, `Segment` takes from the end the longest stored word, whatever the frequencies. `hnan`
is documented of `math.Log2`. -/
theorem C72_nan_segment [UnicodeOK] (hnan : ∀ x, x.datum = .nan → (M.log2 x).datum = .nan) (cfg : SplitCfg)
    (ops : List (DictOp (Binary64 M))) (d0 d : Dictionary (Binary64 M) Binary32) (hr : runOps cfg ops Dictionary.new = some d0)
    (hT : d0.totalFreq.datum = .nan) (hc : calcToken d0 = some d) (s : Bytes) :
    ∃ (segs : List Seg) (ts : List (Token (Binary64 M) Binary32)), internalSegment cfg (some d) s false = some segs ∧
      segs.map (fun g => d.deref g.tok) = ts.map some ∧ LongestBack d (splitTextToWords cfg s) ts := by
  have hr' : runOps cfg (ops ++ [.recalc]) Dictionary.new = some d := by rw [runOps_append, hr]; simpa [runOps, DictOp.step] using hc
  obtain ⟨segs, ts, h1, h2, h3⟩ := segmentWords_nan (Reachable.wf ⟨_, hr'⟩) (d := d) (by
    intro w t ht
    obtain ⟨i, hi, rfl⟩ := List.mem_iff_getElem.1 (storedTok_mem ht)
    obtain ⟨t0, _, hd⟩ := calcToken_distance hc (List.getElem?_eq_getElem hi)
    rw [hd]
    show Datum.add f32 (Datum.convert f32 (M.log2 d0.totalFreq.num).datum) _ = _
    rw [hnan _ hT]
    exact datum_nan_add _) (split_isSplitText cfg s)
  exact ⟨segs, ts, by rw [internalSegment_eq, h1], h2, h3⟩

/-- C72: there is only one list of tokens of that kind. -/
theorem C72_nan_segment_unique (d : Dictionary (Binary64 M) Binary32) (ws : List Bytes) (ts us : List (Token (Binary64 M) Binary32))
    (h : LongestBack d ws ts) (h' : LongestBack d ws us) : ts = us := longestBack_unique h h'

/-- C72: after a recalculation with the total `+Inf`, `Segment` of a text in which all stored words have a finite frequency takes every word by
itself as unknown as long as none is stored by itself; from there on it takes from the end the longest stored word. `hinf` is documented
of `math.Log2`. -/
theorem C72_inf_segment [UnicodeOK] (hlog : LogLike M.log2) (hinf : ∀ x, x.datum = .inf false → (M.log2 x).datum = .inf false) (cfg : SplitCfg)
    (ops : List (DictOp (Binary64 M))) (d0 d : Dictionary (Binary64 M) Binary32) (hr : runOps cfg ops Dictionary.new = some d0)
    (hnn : FreqsNonNeg ops) (hT : d0.totalFreq.datum = .inf false) (hc : calcToken d0 = some d) (s : Bytes)
    (hfin : ∀ w t, w <:+: splitTextToWords cfg s → storedTok d w.flatten = some t → t.freq.datum.IsFin) :
    ∃ (segs : List Seg) (ts : List (Token (Binary64 M) Binary32)), internalSegment cfg (some d) s false = some segs ∧
      segs.map (fun g => d.deref g.tok) = ts.map some ∧ InfBack d (splitTextToWords cfg s) ts := by
  have hr' : runOps cfg (ops ++ [.recalc]) Dictionary.new = some d := by rw [runOps_append, hr]; simpa [runOps, DictOp.step] using hc
  obtain ⟨segs, ts, h1, h2, h3⟩ := segmentWords_inf (Reachable.wf ⟨_, hr'⟩) (d := d) (split_isSplitText cfg s) (by
    intro i k t ht
    have hf := hfin _ t (((List.take_prefix _ _).isInfix).trans (List.drop_suffix _ _).isInfix) ht
    obtain ⟨j, hj, rfl⟩ := List.mem_iff_getElem.1 (storedTok_mem ht)
    obtain ⟨t0, h0, e1, hd⟩ := calcToken_kept hc (List.getElem?_eq_getElem hj)
    have hn := ((total_ge hr hnn).2 t0 (List.mem_of_getElem? h0)).1
    rw [e1] at hf
    rw [hd]
    show Datum.add f32 (Datum.convert f32 (M.log2 d0.totalFreq.num).datum) (Datum.convert f32 (M.log2 t0.freq.num).datum).neg = _
    rw [hinf _ hT]
    rcases hlog.range t0.freq.num hn hf with h | h
    · rw [h]; rfl
    · obtain ⟨s, hs⟩ := (narrow_fin h.1 h.2).eq
      rw [hs]; rfl)
  exact ⟨segs, ts, by rw [internalSegment_eq, h1], h2, h3⟩

/-- C72: there is only one list of tokens of that kind. -/
theorem C72_inf_segment_unique (d : Dictionary (Binary64 M) Binary32) (ws : List Bytes) (ts us : List (Token (Binary64 M) Binary32))
    (h : InfBack d ws ts) (h' : InfBack d ws us) : ts = us := by
  induction h generalizing us with
  | @unknown ws hu =>
    generalize hw : ws = ws0 at h'
    cases h' with
    | unknown _ => rfl
    | @snoc ws' us u _ _ hex _ =>
      obtain ⟨w, hm, hne⟩ := hex
      exact absurd (hu w (by rw [hw]; exact hm)) hne
  | @snoc ws ts t _ hp hex hmax ih =>
    generalize hw : ws ++ t.text = ws0 at h'
    cases h' with
    | unknown hu =>
      obtain ⟨w, hm, hne⟩ := hex
      exact absurd (hu w (by rw [← hw]; exact hm)) hne
    | @snoc ws' us u h1 hp' _ hmax' =>
      have l1 := hmax _ u hw.symm hp'
      have l2 := hmax' _ t hw hp
      obtain ⟨e1, e2⟩ := List.append_inj' hw (by omega)
      subst e1
      rw [ih _ h1, piece_unique hp hp' e2]

/-! ### Cut -/

theorem nan_choice {d : Dictionary (Binary64 M) Binary32} {rs : List Rune} {R : List (Nat × Route (Binary64 M))}
    {T : Binary64 M} (hT : T.datum = .nan) (x i : Nat) (hx : x < rs.length) (hi : i ∈ dagSpec d rs x)
    (hf : (dagSpec d rs x).foldl (fun v i => some (routeBetter v (candOf T d rs R x i))) none = some (candOf T d rs R x i)) :
    ShortestAt d (rs.drop x) (slice rs x (i + 1)) := by
  refine shortestAt_of_head hx hi ?_
  have hnan : ∀ i, (candOf T d rs R x i).freq.datum = .nan := by
    intro i
    show Datum.add f64 (Datum.add f64 _ T.datum.neg) _ = _
    rw [hT, show Datum.neg .nan = .nan from rfl, datum_add_nan, datum_nan_add]
  have hs := dagSpec_sorted d rs x
  cases hd : dagSpec d rs x with
  | nil => rw [hd] at hi; simp at hi
  | cons a l =>
    rw [hd] at hf hs
    rw [foldl_first (fun i => candOf T d rs R x i) (by
      intro i r
      constructor
      · show Datum.lt (candOf T d rs R x i).freq.datum _ = false
        rw [hnan]; rfl
      · show Datum.eq (candOf T d rs R x i).freq.datum _ = false
        rw [hnan]; rfl) a l] at hf
    have : a = i := cand_index (Option.some.inj hf)
    subst this
    intro j hj
    rcases List.mem_cons.1 hj with rfl | hj
    · exact Nat.le_refl _
    · exact ((List.pairwise_cons.1 hs).1 j hj).le

/-- C72: with a NaN total, `Cut(str, false)` takes from the front the shortest stored word of positive frequency, whatever the
frequencies. `hnan` is documented of `math.Log`. -/
theorem C72_nan_cut [UnicodeOK] (hnan : ∀ x, x.datum = .nan → (M.log x).datum = .nan) (cfg : SplitCfg) (ops : List (DictOp (Binary64 M)))
    (d : Dictionary (Binary64 M) Binary32) (hr : runOps cfg ops Dictionary.new = some d) (hT : d.totalFreq.datum = .nan) (s : Bytes) :
    ∃ ps gs, Greedy (ShortestAt d) (dagText cfg s) ps ∧ IsRuns EngPiece ps gs ∧
      cutDAGNoHMM cfg d s = some (gs.map fun g => encode g.flatten) := by
  obtain ⟨R, h1, h2⟩ := calcRoutes_eq (idxOK_of_run hr) (dagRunes cfg s)
  obtain ⟨ps, e1, _, e2⟩ := walk_greedy (At := ShortestAt d) h2 (fun x i hx hi _ hf => nan_choice (hnan _ hT) x i hx hi hf)
    (dagRunes cfg s).length 0 (by omega) (by omega)
  obtain ⟨gs, g1, g2⟩ := noHmmLoop_runs ps [] (by simp)
  refine ⟨ps, gs, by rw [← dagRunes_eq]; simpa using e2, by simpa using g1, ?_⟩
  unfold cutDAGNoHMM
  simp only [h1, e1, Option.map_some]
  rw [← g2]; rfl

/-- C72: the same pieces underlie `Cut(str, true)`. -/
theorem C72_nan_cut_hmm [UnicodeOK] (hnan : ∀ x, x.datum = .nan → (M.log x).datum = .nan) (cfg : SplitCfg) (ops : List (DictOp (Binary64 M)))
    (d : Dictionary (Binary64 M) Binary32) (hr : runOps cfg ops Dictionary.new = some d) (hT : d.totalFreq.datum = .nan)
    (cut : Bytes → Option (List Bytes)) (hc : ∀ t : List Rune, 2 ≤ t.length → ∃ o, cut (encode t) = some o) (s : Bytes) :
    ∃ ps gs outs, Greedy (ShortestAt d) (dagText cfg s) ps ∧ IsRuns (fun t : List Rune => t.length = 1) ps gs ∧
      List.Forall₂ (RunOut d cut) gs outs ∧ cutDAG cfg d cut s = some outs.flatten := by
  obtain ⟨R, h1, h2⟩ := calcRoutes_eq (idxOK_of_run hr) (dagRunes cfg s)
  obtain ⟨ps, e1, e3, e2⟩ := walk_greedy (At := ShortestAt d) h2 (fun x i hx hi _ hf => nan_choice (hnan _ hT) x i hx hi hf)
    (dagRunes cfg s).length 0 (by omega) (by omega)
  obtain ⟨gs, outs, g1, g2, g3⟩ := hmmLoop_runs (idxOK_of_run hr) cut ps [] (by simp)
    (fun t ht => (isRoute_pieces e3 t ht).1) (fun g hg _ hs => hc _ (by rw [(flatten_singles g hs).1]; exact hg))
  refine ⟨ps, gs, outs, by rw [← dagRunes_eq]; simpa using e2, by simpa using g1, g2, ?_⟩
  unfold cutDAG
  simp only [h1, e1, Option.bind_some]
  rw [← g3]; rfl

/-- With an infinite total all routes score `-Inf`. -/
theorem inf_routes {d : Dictionary (Binary64 M) Binary32} {rs : List Rune} {R : List (Nat × Route (Binary64 M))} {T : Binary64 M}
    (hR : RoutesFrom T d rs 0 R) (hT : T.datum = .inf false)
    (hp : ∀ t, t <:+: rs → (M.log (pieceFreq d t).num).datum = .inf true ∨ (M.log (pieceFreq d t).num).datum.IsFin) (x : Nat) (hx : x < rs.length) (i : Nat)
    (hi : i ∈ dagSpec d rs x) : (candOf T d rs R x i).freq.datum = .inf true := by
  induction h : rs.length - x using Nat.strongRecOn generalizing x i with
  | _ n ih =>
    obtain ⟨a, b, _⟩ := (mem_dagSpec hx).1 hi
    have hrf : (routeFreq R (i + 1)).datum = .inf true ∨ (routeFreq R (i + 1)).datum.IsFin := by
      rcases Nat.lt_or_ge (i + 1) rs.length with hlt | hge
      · obtain ⟨i', hi', e, _⟩ := hR.entry (i + 1) (by omega) hlt
        left
        have := ih (rs.length - (i + 1)) (by omega) (i + 1) hlt i' hi' rfl
        simpa [routeFreq, e] using this
      · have : i + 1 = rs.length := by omega
        right
        rw [routeFreq, this, hR.last]
        show (F64.ofNat 0 : Binary64 M).datum.IsFin
        rw [zero_datum]; trivial
    have hps : (pieceScoreBy T d (slice rs x (i + 1))).datum = .inf true := by
      show Datum.add f64 (M.log (pieceFreq d (slice rs x (i + 1))).num).datum T.datum.neg = _
      rw [hT]
      rcases hp _ (((List.take_prefix _ _).isInfix).trans (List.drop_suffix _ _).isInfix) with h | h
      · rw [show (M.log (pieceFreq d (slice rs x (i + 1))).num).datum = .inf true from h]; rfl
      · obtain ⟨s, hs⟩ := h.eq
        rw [show (M.log (pieceFreq d (slice rs x (i + 1))).num).datum = .fin s _ from hs]; rfl
    show Datum.add f64 (pieceScoreBy T d (slice rs x (i + 1))).datum (routeFreq R (i + 1)).datum = _
    rw [hps]
    rcases hrf with h | h
    · rw [h]; rfl
    · obtain ⟨s, hs⟩ := h.eq
      rw [hs]; rfl

theorem inf_choice {d : Dictionary (Binary64 M) Binary32} {rs : List Rune} {R : List (Nat × Route (Binary64 M))} {T : Binary64 M}
    (hR : RoutesFrom T d rs 0 R) (hT : T.datum = .inf false)
    (hp : ∀ t, t <:+: rs → (M.log (pieceFreq d t).num).datum = .inf true ∨ (M.log (pieceFreq d t).num).datum.IsFin) (x i : Nat) (hx : x < rs.length)
    (hi : i ∈ dagSpec d rs x)
    (hf : (dagSpec d rs x).foldl (fun v i => some (routeBetter v (candOf T d rs R x i))) none = some (candOf T d rs R x i)) :
    LongestAt d (rs.drop x) (slice rs x (i + 1)) := by
  refine longestAt_of_last hx hi ?_
  obtain ⟨k, h1, h2, h3⟩ := foldl_last (fun i => candOf T d rs R x i) (dagSpec d rs x) (by
    intro i hi j hj
    show Datum.eq (candOf T d rs R x i).freq.datum (candOf T d rs R x j).freq.datum = true
    rw [inf_routes hR hT hp x hx i hi, inf_routes hR hT hp x hx j hj]; rfl) (fun _ => rfl) (dagSpec_sorted d rs x) _ hf
  rw [cand_index h2]
  exact h3

theorem inf_pieces (hlog : LogLike M.log) {cfg : SplitCfg} {ops : List (DictOp (Binary64 M))} {d : Dictionary (Binary64 M) Binary32}
    (hr : runOps cfg ops Dictionary.new = some d) (hnn : FreqsNonNeg ops) {rs : List Rune}
    (hfin : ∀ t tok, t <:+: rs → storedTok d (encode t) = some tok → tok.freq.datum.IsFin) (t : List Rune) (ht : t <:+: rs) :
    (M.log (pieceFreq d t).num).datum = .inf true ∨ (M.log (pieceFreq d t).num).datum.IsFin := by
  have key : ∀ f : Binary64 M, f.datum.NonNeg → f.datum.IsFin → (M.log f.num).datum = .inf true ∨ (M.log f.num).datum.IsFin := by
    intro f h1 h2
    rcases hlog.range f.num h1 h2 with h | h
    · exact .inl h
    · exact .inr h.1
  unfold pieceFreq
  split
  · next tok htok => exact key _ ((total_ge hr hnn).2 tok (storedTok_mem htok)).1 (hfin t tok ht htok)
  · split
    · refine key _ ?_ ?_ <;> rw [zero_datum]
      exacts [le_refl _, trivial]
    · refine key _ ?_ ?_ <;> rw [one_datum]
      exacts [zero_le_one, trivial]

/-- C72: with the total `+Inf`, `Cut(str, false)` of a text in which all stored words have a finite frequency takes from the front the
longest stored word of positive frequency. `hinf` is documented of `math.Log`. -/
theorem C72_inf_cut [UnicodeOK] (hlog : LogLike M.log) (hinf : ∀ x, x.datum = .inf false → (M.log x).datum = .inf false) (cfg : SplitCfg)
    (ops : List (DictOp (Binary64 M))) (d : Dictionary (Binary64 M) Binary32) (hr : runOps cfg ops Dictionary.new = some d) (hnn : FreqsNonNeg ops)
    (hT : d.totalFreq.datum = .inf false) (s : Bytes)
    (hfin : ∀ t tok, t <:+: dagText cfg s → storedTok d (encode t) = some tok → tok.freq.datum.IsFin) :
    ∃ ps gs, Greedy (LongestAt d) (dagText cfg s) ps ∧ IsRuns EngPiece ps gs ∧
      cutDAGNoHMM cfg d s = some (gs.map fun g => encode g.flatten) := by
  obtain ⟨R, h1, h2⟩ := calcRoutes_eq (idxOK_of_run hr) (dagRunes cfg s)
  rw [← dagRunes_eq] at hfin
  obtain ⟨ps, e1, _, e2⟩ := walk_greedy (At := LongestAt d) h2
    (fun x i hx hi _ hf => inf_choice h2 (hinf _ hT) (inf_pieces hlog hr hnn hfin) x i hx hi hf) (dagRunes cfg s).length 0 (by omega) (by omega)
  obtain ⟨gs, g1, g2⟩ := noHmmLoop_runs ps [] (by simp)
  refine ⟨ps, gs, by rw [← dagRunes_eq]; simpa using e2, by simpa using g1, ?_⟩
  unfold cutDAGNoHMM
  simp only [h1, e1, Option.map_some]
  rw [← g2]; rfl

/-- C72: the same pieces underlie `Cut(str, true)`. -/
theorem C72_inf_cut_hmm [UnicodeOK] (hlog : LogLike M.log) (hinf : ∀ x, x.datum = .inf false → (M.log x).datum = .inf false) (cfg : SplitCfg)
    (ops : List (DictOp (Binary64 M))) (d : Dictionary (Binary64 M) Binary32) (hr : runOps cfg ops Dictionary.new = some d) (hnn : FreqsNonNeg ops)
    (hT : d.totalFreq.datum = .inf false) (cut : Bytes → Option (List Bytes)) (hc : ∀ t : List Rune, 2 ≤ t.length → ∃ o, cut (encode t) = some o)
    (s : Bytes) (hfin : ∀ t tok, t <:+: dagText cfg s → storedTok d (encode t) = some tok → tok.freq.datum.IsFin) :
    ∃ ps gs outs, Greedy (LongestAt d) (dagText cfg s) ps ∧ IsRuns (fun t : List Rune => t.length = 1) ps gs ∧
      List.Forall₂ (RunOut d cut) gs outs ∧ cutDAG cfg d cut s = some outs.flatten := by
  obtain ⟨R, h1, h2⟩ := calcRoutes_eq (idxOK_of_run hr) (dagRunes cfg s)
  rw [← dagRunes_eq] at hfin
  obtain ⟨ps, e1, e3, e2⟩ := walk_greedy (At := LongestAt d) h2
    (fun x i hx hi _ hf => inf_choice h2 (hinf _ hT) (inf_pieces hlog hr hnn hfin) x i hx hi hf) (dagRunes cfg s).length 0 (by omega) (by omega)
  obtain ⟨gs, outs, g1, g2, g3⟩ := hmmLoop_runs (idxOK_of_run hr) cut ps [] (by simp)
    (fun t ht => (isRoute_pieces e3 t ht).1) (fun g hg _ hs => hc _ (by rw [(flatten_singles g hs).1]; exact hg))
  refine ⟨ps, gs, outs, by rw [← dagRunes_eq]; simpa using e2, by simpa using g1, g2, ?_⟩
  unfold cutDAG
  simp only [h1, e1, Option.bind_some]
  rw [← g3]; rfl

theorem greedy_unique {At : List Rune → List Rune → Prop} (hAt : ∀ text t u, t <+: text → u <+: text → t ≠ [] → u ≠ [] → At text t → At text u → t.length = u.length)
    {text : List Rune} {ps qs : List (List Rune)} (h : Greedy At text ps) (h' : Greedy At text qs) : ps = qs := by
  induction h generalizing qs with
  | nil =>
    generalize hw : ([] : List Rune) = w at h'
    cases h' with
    | nil => rfl
    | cons hne => exact absurd (List.append_eq_nil_iff.1 hw.symm).1 hne
  | @cons t rest ps hne ht _ ih =>
    generalize hw : t ++ rest = w at h'
    cases h' with
    | nil => exact absurd (List.append_eq_nil_iff.1 hw).1 hne
    | @cons u rest' qs hne' hu h1 =>
      rw [hw] at ht
      have := hAt _ t u (hw ▸ List.prefix_append _ _) (List.prefix_append _ _) hne hne' ht hu
      obtain ⟨rfl, rfl⟩ := List.append_inj hw this
      rw [ih h1]

/-- C72: there is only one way to take the shortest word, and only one to take the longest. -/
theorem C72_cut_unique (d : Dictionary (Binary64 M) Binary32) (text : List Rune) (ps qs : List (List Rune)) :
    (Greedy (ShortestAt d) text ps → Greedy (ShortestAt d) text qs → ps = qs) ∧
    (Greedy (LongestAt d) text ps → Greedy (LongestAt d) text qs → ps = qs) := by
  constructor
  · refine greedy_unique ?_
    rintro text t u h1 h2 n1 n2 (⟨a1, a2⟩ | ⟨a1, a2⟩) (⟨b1, b2⟩ | ⟨b1, b2⟩)
    · have := a2 u h2 n2 b1; have := b2 t h1 n1 a1; omega
    · exact absurd ⟨t, h1, n1, a1⟩ b2
    · exact absurd ⟨u, h2, n2, b1⟩ a2
    · omega
  · refine greedy_unique ?_
    rintro text t u h1 h2 n1 n2 (⟨a1, a2⟩ | ⟨a1, a2⟩) (⟨b1, b2⟩ | ⟨b1, b2⟩)
    · have := a2 u h2 n2 b1; have := b2 t h1 n1 a1; omega
    · exact absurd ⟨t, h1, n1, a1⟩ b2
    · exact absurd ⟨u, h2, n2, b1⟩ a2
    · omega

/-! ### From a dictionary text -/

/-- C72: a line whose frequency reads as NaN (without an error, as the text `NaN` does) is accepted with it, if its word has more than one
character; a line whose frequency reads as `+Inf` is accepted with it if reading reports an error, as for the text `1e999`. -/
theorem C72_line (c : LoadCfg (Binary64 M)) (w col tag : Bytes) :
    (∀ v, (F64.parse col : Binary64 M × Bool) = (v, false) → v.datum = .nan → 2 ≤ (runes w).length → rowEntry c w (some col) tag = some (w, v, tag)) ∧
    (∀ v, (F64.parse col : Binary64 M × Bool) = (v, true) → v.datum = .inf false → rowEntry c w (some col) tag = some (w, v, tag)) := by
  have heq : ∀ v : Binary64 M, v.datum = .nan ∨ v.datum = .inf false → F64.eq v (F64.ofNat 0) = false := by
    intro v hv
    show Datum.eq v.datum (F64.ofNat 0 : Binary64 M).datum = false
    rw [zero_datum]
    rcases hv with hv | hv <;> rw [hv] <;> rfl
  constructor
  · intro v hv hn h2
    have hlt : F64.lt v c.minFreq = false := by
      show Datum.lt v.datum _ = false
      rw [hn]; rfl
    simp [rowEntry, rowFreq, hv, hlt, show ¬ (runes w).length < 2 by omega, heq v (.inl hn)]
  · intro v hv hn
    simp [rowEntry, rowFreq, hv, heq v (.inr hn)]

/-- C72: if the first line for some word of a dictionary text has the frequency NaN, then after `LoadDictStr` of it into an empty segmenter the
total is NaN, and `Segment` and `Cut` of every text are greedy. -/
theorem C72_load [UnicodeOK] (hnan : ∀ x, x.datum = .nan → (M.log x).datum = .nan ∧ (M.log2 x).datum = .nan) (s : Segmenter (Binary64 M) Binary32)
    (hs : s.dict = none) (dict : Bytes) (hl : (splitStr dict (str "\n")).length < Trie.valueLimit) (w : Bytes) (f : Binary64 M) (p : Bytes)
    (hw : firstEntry s.cfg ((splitStr dict (str "\n")).filterMap fun line =>
        lineEntry s.prepare.lcfg (splitStr line (s.dictSep ++ str " "))) w = some (f, p)) (hf : f.datum = .nan) :
    ∃ s' d, s.loadDictStr dict = some s' ∧ s'.dict = some d ∧ d.totalFreq.datum = .nan ∧ ∀ text,
      (∃ (segs : List Seg) (ts : List (Token (Binary64 M) Binary32)), internalSegment s.cfg s'.dict text false = some segs ∧
        segs.map (fun g => d.deref g.tok) = ts.map some ∧ LongestBack d (splitTextToWords s.cfg text) ts) ∧
      (∃ ps gs, Greedy (ShortestAt d) (dagText s.cfg text) ps ∧ IsRuns EngPiece ps gs ∧
        cutDAGNoHMM s.cfg d text = some (gs.map fun g => encode g.flatten)) := by
  rw [C20_load_str, hs]
  generalize hes : (splitStr dict (str "\n")).filterMap (fun line =>
        lineEntry s.prepare.lcfg (splitStr line (s.dictSep ++ str " "))) = es at hw
  have hlen : es.length + 1 ≤ Trie.valueLimit := by
    have := List.length_filterMap_le (fun line => lineEntry s.prepare.lcfg (splitStr line (s.dictSep ++ str " "))) (splitStr dict (str "\n"))
    rw [hes] at this
    omega
  simp only [Option.getD_none]
  obtain ⟨d, hd⟩ := calcToken_total (wf_addAll (Dictionary.wf_new (F := Binary64 M) (D := Binary32) s.cfg) es)
  have hr : runOps s.cfg (loadOps es) (Dictionary.new : Dictionary (Binary64 M) Binary32) = some d := by rw [runOps_load, hd]
  rw [hr]
  have hT : d.totalFreq.datum = .nan := by
    simp only [firstEntry, Option.map_eq_some_iff] at hw
    obtain ⟨⟨w', f', p'⟩, he, e⟩ := hw
    obtain ⟨rfl, rfl⟩ := Prod.mk.inj e
    obtain ⟨h1, a, b, rfl, hno⟩ := List.find?_eq_some_iff_append.1 he
    have hops : loadOps (a ++ (w', f', p') :: b) = (a.map fun e => DictOp.add e.1 e.2.1 e.2.2) ++ [DictOp.add w' f' p'] ++ loadOps b := by
      simp [loadOps]
    rw [hops] at hr
    refine C72_nan_total s.cfg _ _ w' f' p' ?_ ?_ hf d hr
    · rw [← hops]; simp [loadOps] at hlen ⊢; omega
    · have := content_adds s.cfg a {} (normText s.cfg w')
      rw [show absRun s.cfg (a.map fun e => DictOp.add e.1 e.2.1 e.2.2) = (a.map fun e => DictOp.add e.1 e.2.1 e.2.2).foldl (AbsDict.step s.cfg) {} from rfl, this]
      have hw' : normText s.cfg w' = w := by simpa using h1
      have hnone : firstEntry s.cfg a (normText s.cfg w') = none := by
        rw [hw']
        simp only [firstEntry, Option.map_eq_none_iff, List.find?_eq_none]
        intro e he
        simpa using hno e he
      rw [hnone]; rfl
  refine ⟨_, d, rfl, rfl, hT, fun text => ⟨?_, ?_⟩⟩
  · have h0 : runOps s.cfg (es.map fun e => .add e.1 e.2.1 e.2.2) Dictionary.new = some (addAll s.cfg (Dictionary.new : Dictionary (Binary64 M) Binary32) es) :=
      runOps_adds _ _ _
    exact C72_nan_segment (fun x hx => (hnan x hx).2) s.cfg _ _ d h0 (by rw [← (calcToken_same hd).total]; exact hT) hd text
  · exact C72_nan_cut (fun x hx => (hnan x hx).1) s.cfg _ d hr hT text

end main

section examples
attribute [local instance] sampleUnicode sampleUnicodeOK

/-- NaN and `+Inf`. -/
def exNan : Binary64 sampleMath := ⟨⟨.nan, trivial⟩⟩
def exInf : Binary64 sampleMath := ⟨⟨.inf false, trivial⟩⟩

/-- `一二` and `二三`, then `七八` and `七八九`, and one more word with the frequency `f`. -/
def greedyOps (f : Binary64 sampleMath) : List (DictOp (Binary64 sampleMath)) :=
  [.add (encode [0x4E00, 0x4E8C]) (F64.ofNat 64) (str "n"), .add (encode [0x4E8C, 0x4E09]) (F64.ofNat 2) (str "n"),
   .add (encode [0x4E03, 0x516B]) (F64.ofNat 64) (str "n"), .add (encode [0x4E03, 0x516B, 0x4E5D]) (F64.ofNat 64) (str "n")] ++
  [.add (encode [0x56DB]) f (str "n")] ++ [.recalc]

/-- What the functions return. -/
def greedySegment (f : Binary64 sampleMath) (t : List Rune) : Option (List (Nat × Nat)) :=
  ((runOps (D := Binary32) {} (greedyOps f) Dictionary.new).bind fun d => internalSegment {} (some d) (encode t) false).map
    fun segs => segs.map fun g => (g.start, g.stop)
def greedyCut (f : Binary64 sampleMath) (t : List Rune) : Option (List Bytes) :=
  (runOps (D := Binary32) {} (greedyOps f) Dictionary.new).bind fun d => cutDAGNoHMM {} d (encode t)

-- the hypotheses
example : ∀ x, x.datum = .nan → (sampleMath.log2 x).datum = .nan := by intro x h; simp [sampleMath, floorLog, h]
example : ∀ x, x.datum = .inf false → (sampleMath.log x).datum = .inf false := by intro x h; simp [sampleMath, floorLog, h]
example : (absRun {} [.add (encode [0x4E00, 0x4E8C]) (F64.ofNat 64 : Binary64 sampleMath) (str "n")]).content (normText {} (encode [0x56DB])) = none := by decide +kernel
example : ((runOps (D := Binary32) {} (greedyOps exNan) Dictionary.new).map fun d => d.totalFreq.datum) = some .nan := by decide +kernel
example : ((runOps (D := Binary32) {} (greedyOps exInf) Dictionary.new).map fun d => d.totalFreq.datum) = some (.inf false) := by decide +kernel

/-- A reading of numbers in which one text is NaN. -/
def nanMath : MathFns := ⟨floorLog, floorLog, id, fun s => if s = str "NaN" then (⟨.nan, trivial⟩, false) else if s = str "4" then (⟨Datum.ofNat f64 4, Datum.ofNat_ok 4⟩, false) else (⟨Datum.ofNat f64 0, Datum.ofNat_ok 0⟩, true)⟩
example : (firstEntry {} ((splitStr (str "ab 4 n\ncd NaN n\ncd 4 n") (str "\n")).filterMap fun line =>
    lineEntry (F := Binary64 nanMath) ⟨F64.ofNat 2, [], false⟩ (splitStr line (str " "))) (str "cd")).map (·.1.datum) = some .nan := by decide +kernel
-- `Segment("一二三")`: the frequent word, the last word, no word
example : greedySegment (F64.ofNat 1) [0x4E00, 0x4E8C, 0x4E09] = some [(0, 6), (6, 9)] := by decide +kernel
example : greedySegment exNan [0x4E00, 0x4E8C, 0x4E09] = some [(0, 3), (3, 9)] := by decide +kernel
example : greedySegment exInf [0x4E00, 0x4E8C, 0x4E09] = some [(0, 3), (3, 6), (6, 9)] := by decide +kernel
-- `Cut("七八九")`: the long word, the short one, the long one
example : greedyCut (F64.ofNat 1) [0x4E03, 0x516B, 0x4E5D] = some [encode [0x4E03, 0x516B, 0x4E5D]] := by decide +kernel
example : greedyCut exNan [0x4E03, 0x516B, 0x4E5D] = some [encode [0x4E03, 0x516B], encode [0x4E5D]] := by decide +kernel
example : greedyCut exInf [0x4E03, 0x516B, 0x4E5D] = some [encode [0x4E03, 0x516B, 0x4E5D]] := by decide +kernel
-- no stored word of `一二三` has an infinite frequency
example : ∀ t tok d, t <:+: [0x4E00, 0x4E8C, 0x4E09] → runOps (D := Binary32) {} (greedyOps exInf) Dictionary.new = some d →
    storedTok d (encode t) = some tok → tok.freq.datum.IsFin := by
  intro t tok d ht hd h
  have hmem : t ∈ ([0x4E00, 0x4E8C, 0x4E09] : List Nat).tails.flatMap List.inits := by
    obtain ⟨a, b, e⟩ := ht
    refine List.mem_flatMap.2 ⟨t ++ b, ?_, by simp⟩
    rw [List.mem_tails]
    exact ⟨a, by rw [← e, List.append_assoc]⟩
  have key : ∀ t ∈ ([0x4E00, 0x4E8C, 0x4E09] : List Nat).tails.flatMap List.inits,
      (((runOps (D := Binary32) {} (greedyOps exInf) Dictionary.new).bind fun d => storedTok d (encode t)).all fun tok => decide (tok.freq.datum ≠ .inf false ∧ tok.freq.datum ≠ .inf true ∧ tok.freq.datum ≠ .nan)) = true := by
    decide +kernel
  have := key t hmem
  rw [hd] at this
  simp only [Option.bind_some, h, Option.all_some, decide_eq_true_eq] at this
  cases hx : tok.freq.datum with
  | nan => exact absurd hx this.2.2
  | inf s => cases s; exacts [absurd hx this.1, absurd hx this.2.1]
  | fin s q => trivial

end examples

end Gse
