import Verif.Spec.Unused
import Verif.Props.Local
import Verif.Props.Ieee

/-!
# C110: removing words that a result does not use
-/

namespace Gse
open Spec

variable {F D : Type} [F64 F] [F32 D] [Narrow F D]

/-! ### Fewer words -/

section fewer
set_option linter.unusedSectionVars false
variable [Unicode]

/-- Pieces of the smaller dictionary as pieces of the larger one that cost no more. -/
theorem lift_pieces [F32Laws D] (hm : RightMono D) {d d' : Dictionary F D} (hd : PosDist d) (hd' : PosDist d') (hsub : ∀ k t, storedTok d' k = some t → storedTok d k = some t)
    (us : List (Token F D)) (hus : ∀ t ∈ us, IsPiece d' t)
    (hone : ∀ w ∈ wordsOf us, ∀ t, storedTok d w = some t → storedTok d' w = none → t.text = [w] ∧ F32.gt t.distance (F32.c32 : D) = false) :
    ∃ vs : List (Token F D), (∀ t ∈ vs, IsPiece d t) ∧ vs.map (·.text) = us.map (·.text) ∧ F32.gt (cost vs) (cost us) = false := by
  induction us using List.reverseRecOn with
  | nil => exact ⟨[], by simp, rfl, gt_irrefl F32Laws.good_zero⟩
  | append_singleton us u ih =>
    obtain ⟨vs, h1, h2, h3⟩ := ih (fun t ht => hus t (by simp [ht])) fun w hw => hone w (by rw [wordsOf_append]; simp [hw])
    have hu := hus u (by simp)
    have gu := piece_dist hd' hu
    have gus := good_cost hd' us fun t ht => hus t (by simp [ht])
    have gvs := good_cost hd vs h1
    obtain ⟨v, k1, k2, k3⟩ : ∃ v : Token F D, IsPiece d v ∧ v.text = u.text ∧ F32.gt v.distance u.distance = false := by
      obtain ⟨n, a | ⟨w, rfl, b⟩⟩ := hu
      · exact ⟨u, ⟨n, .inl (hsub _ _ a)⟩, rfl, gt_irrefl gu.1⟩
      · cases hs : storedTok d w with
        | none => exact ⟨unknownTok w, ⟨n, .inr ⟨w, rfl, hs⟩⟩, rfl, gt_irrefl gu.1⟩
        | some t =>
          obtain ⟨e1, e2⟩ := hone w (by rw [wordsOf_append]; simp [wordsOf, unknownTok]) t hs b
          refine ⟨t, ⟨by rw [e1]; simp, .inl ?_⟩, e1, e2⟩
          rw [e1]
          simpa using hs
    have gv := piece_dist hd k1
    refine ⟨vs ++ [v], ?_, by simp [h2, k2], ?_⟩
    · intro t ht
      rcases List.mem_append.1 ht with h | h
      · exact h1 t h
      · rw [List.mem_singleton.1 h]; exact k1
    · rw [cost_snoc, cost_snoc]
      have e1 := F32Laws.add_mono gvs gus gv.1 h3
      have e2 := hm _ _ _ gv.1 gu.1 gus k3
      cases hx : F32.gt (F32.add (cost vs) v.distance) (F32.add (cost us) u.distance) with
      | false => rfl
      | true =>
        rcases F32Laws.gt_cotrans (F32Laws.good_add gvs gv.1) (F32Laws.good_add gus gv.1) (F32Laws.good_add gus gu.1) hx with h | h
        · rw [e1] at h; cases h
        · rw [e2] at h; cases h

/-- A best segmentation stays the best when other words go. -/
theorem best_fewer [F32Laws D] (hm : RightMono D) {d d' : Dictionary F D} (hd : PosDist d) (hd' : PosDist d') (hsub : ∀ k t, storedTok d' k = some t → storedTok d k = some t)
    {two : Bool} {ws : List Bytes} {ts : List (Token F D)} (h : IsBest d two ws ts) (hts : ∀ t ∈ ts, IsPiece d' t)
    (hone : ∀ w ∈ ws, ∀ t, storedTok d w = some t → storedTok d' w = none → t.text = [w] ∧ F32.gt t.distance (F32.c32 : D) = false) : IsBest d' two ws ts := by
  have lift : ∀ p t q, ts = p ++ t :: q → ∀ p' t', IsSegmentation d' (wordsOf (p ++ [t])) (p' ++ [t']) → (two = true → q = [] → p' ≠ []) →
      ∃ v' u', IsSegmentation d (wordsOf (p ++ [t])) (v' ++ [u']) ∧ (two = true → q = [] → v' ≠ []) ∧ u'.text = t'.text ∧
        F32.gt (cost (v' ++ [u'])) (cost (p' ++ [t'])) = false ∧ F32Laws.good (cost (p' ++ [t'])) ∧ F32Laws.good (cost (v' ++ [u'])) ∧ F32Laws.good (cost (p ++ [t])) := by
    intro p t q e p' t' hs htwo
    obtain ⟨vs, h1, h2, h3⟩ := lift_pieces hm hd hd' hsub (p' ++ [t']) hs.2 fun w hw => hone w (by
      rw [hs.1] at hw
      rw [← h.seg.1, e, List.append_cons, wordsOf_append]
      exact List.mem_append_left _ hw)
    rcases List.eq_nil_or_concat vs with rfl | ⟨v', u', rfl⟩
    · simp at h2
    · rw [List.concat_eq_append] at *
      have hl := congrArg List.length h2
      simp only [List.map_append, List.length_append, List.length_map, List.map_cons, List.map_nil] at hl h2
      obtain ⟨e1, e2⟩ := List.append_inj' h2 rfl
      refine ⟨v', u', ⟨?_, h1⟩, fun a b c => htwo a b ?_, by simpa using e2, h3, good_cost hd' _ hs.2, good_cost hd _ h1, good_cost hd _ fun x hx => h.seg.2 x ?_⟩
      · rw [← hs.1]
        unfold wordsOf
        simp only [List.map_append, List.map_cons, List.map_nil]
        rw [e1, e2]
      · subst c
        simp at hl
        exact hl
      · rw [e]
        simp only [List.mem_append, List.mem_cons, List.not_mem_nil, or_false] at hx ⊢
        tauto
  refine ⟨⟨h.seg.1, hts⟩, h.atLeast, ?_, ?_⟩
  · intro p t q e p' t' hs htwo
    obtain ⟨v', u', g1, g2, g3, g4, g5, g6, g7⟩ := lift p t q e p' t' hs htwo
    have := h.cheapest p t q e v' u' g1 g2
    cases hx : F32.gt (cost (p ++ [t])) (cost (p' ++ [t'])) with
    | false => rfl
    | true =>
      rcases F32Laws.gt_cotrans g7 g6 g5 hx with k | k
      · rw [this] at k; cases k
      · rw [g4] at k; cases k
  · intro p t q e p' t' hs htwo hle
    obtain ⟨v', u', g1, g2, g3, g4, g5, g6, g7⟩ := lift p t q e p' t' hs htwo
    rw [← g3]
    refine h.longest p t q e v' u' g1 g2 ?_
    cases hx : F32.gt (cost (v' ++ [u'])) (cost (p ++ [t])) with
    | false => rfl
    | true =>
      rcases F32Laws.gt_cotrans g6 g5 g7 hx with k | k
      · rw [g4] at k; cases k
      · rw [hle] at k; cases k

end fewer

/-! ### Removing -/

section remove
variable [Unicode]

theorem remove_run {cfg : SplitCfg} : ∀ (rs : List Bytes) {d d' : Dictionary F D}, runOps cfg (rs.map .remove) d = some d' →
    d'.tokens = d.tokens ∧ d'.totalFreq = d.totalFreq ∧ (∀ k, (∀ w ∈ rs, normText cfg w ≠ k) → d'.trie.value k = d.trie.value k) ∧
      ∀ k v, d'.trie.value k = some v → d.trie.value k = some v
  | [], d, d', h => by cases h; exact ⟨rfl, rfl, fun _ _ => rfl, fun _ _ h => h⟩
  | w :: rs, d, d', h => by
    obtain ⟨d1, h1, h2⟩ := Option.bind_eq_some_iff.1 h
    obtain ⟨a1, a2, a3, a4⟩ := remove_run rs h2
    obtain ⟨⟨x, e⟩, hx, rfl⟩ := Option.map_eq_some_iff.1 h1
    have b1 := removeToken_tokens hx
    obtain ⟨_, b3⟩ := keeps_remove cfg hx
    have b2 : x.totalFreq = d.totalFreq ∧ ∀ k v, x.trie.value k = some v → d.trie.value k = some v := by
      unfold segRemoveToken Dictionary.removeToken at hx
      split at hx
      · cases hx; exact ⟨rfl, fun _ _ h => h⟩
      · next hd =>
        cases hx
        refine ⟨rfl, fun k v hk => ?_⟩
        rw [Trie.value_delete hd] at hk
        split at hk
        · cases hk
        · exact hk
      · cases hx
    refine ⟨a1.trans b1, a2.trans b2.1, fun k hk => (a3 k fun u hu => hk u (by simp [hu])).trans (b3 k (hk w (by simp)).symm), fun k v hv => b2.2 k v (a4 k v hv)⟩

theorem storedTok_remove {cfg : SplitCfg} {rs : List Bytes} {d d' : Dictionary F D} (h : runOps cfg (rs.map .remove) d = some d') :
    (∀ k, (∀ w ∈ rs, normText cfg w ≠ k) → storedTok d' k = storedTok d k) ∧ ∀ k t, storedTok d' k = some t → storedTok d k = some t := by
  obtain ⟨a1, _, a3, a4⟩ := remove_run rs h
  refine ⟨fun k hk => by unfold storedTok; rw [a3 k hk, a1], fun k t hk => ?_⟩
  obtain ⟨v, h1, h2⟩ := Option.bind_eq_some_iff.1 hk
  unfold storedTok
  rw [a4 k v h1, Option.bind_some, ← a1]
  exact h2

theorem runOps_more {cfg : SplitCfg} {ops more : List (DictOp F)} {d d' : Dictionary F D} (hr : runOps cfg ops Dictionary.new = some d) (h : runOps cfg more d = some d') :
    runOps cfg (ops ++ more) Dictionary.new = some d' := by
  rw [runOps_append, hr]
  exact h

/-- The segments are literally the same. -/
theorem segments_unused [UnicodeOK] [F32Laws D] (hm : RightMono D) (cfg : SplitCfg) (ops : List (DictOp F)) (d d' : Dictionary F D) (hr : runOps cfg ops Dictionary.new = some d)
    (hd : PosDist d) (rs : List Bytes) (hr' : runOps cfg (rs.map .remove) d = some d') (s : Bytes) (mode : Bool) (segs : List Seg)
    (hs : internalSegment cfg (some d) s mode = some segs) (hu : ∀ w ∈ rs, Unused d segs (normText cfg w)) (hh : ∀ w ∈ rs, NotHeavy d (normText cfg w)) :
    internalSegment cfg (some d') s mode = some segs := by
  by_cases hsm : mode = true ∧ (splitTextToWords cfg s).length = 1
  · rw [internalSegment_eq, segmentWords, if_pos (by simpa using hsm)] at hs ⊢
    exact hs
  obtain ⟨a1, a2, a3, a4⟩ := remove_run rs hr'
  obtain ⟨s1, s2⟩ := storedTok_remove hr'
  have hd' : PosDist d' := fun w t ht => hd w t (s2 w t ht)
  have hw : d.Coh cfg := (Reachable.wf ⟨ops, hr⟩).coh
  have hw' : d'.Coh cfg := (Reachable.wf ⟨_, runOps_more hr hr'⟩).coh
  have hsp := split_isSplitText cfg s
  obtain ⟨segs0, ts, h1, h2, h3, h4, h5⟩ := segmentWords_best hw hd hsp hsm
  obtain ⟨segs', ts', h1', h2', h3', h4', h5'⟩ := segmentWords_best hw' hd' hsp hsm
  rw [internalSegment_eq, h1] at hs
  obtain rfl := Option.some.inj hs
  have hkey : ∀ t ∈ ts, ∀ w ∈ rs, normText cfg w ≠ t.text.flatten := by
    intro t ht w hw e
    have hx : some t ∈ segs0.map fun g => d.deref g.tok := by
      have : segs0.map (fun g => d.deref g.tok) = ts.map some := by rw [← h3, ← h2, List.map_map]; rfl
      rw [this]
      exact List.mem_map_of_mem ht
    obtain ⟨g, hg, e'⟩ := List.mem_map.1 hx
    exact hu w hw g hg t e' e.symm
  have hts : ∀ t ∈ ts, IsPiece d' t := by
    intro t ht
    obtain ⟨n, a | ⟨w, rfl, b⟩⟩ := h5.seg.2 t ht
    · exact ⟨n, .inl (by rw [s1 _ (hkey t ht)]; exact a)⟩
    · refine ⟨n, .inr ⟨w, rfl, ?_⟩⟩
      cases hx : storedTok d' w with
      | none => rfl
      | some t => rw [s2 w t hx] at b; cases b
  have hone : ∀ w ∈ splitTextToWords cfg s, ∀ t, storedTok d w = some t → storedTok d' w = none → t.text = [w] ∧ F32.gt t.distance (F32.c32 : D) = false := by
    intro w hw1 t ht hn
    obtain ⟨i, hi, e⟩ := List.mem_iff_getElem.1 hw1
    have e1 : splitTextToWords cfg w = [w] := by
      obtain ⟨l, r, hlr⟩ := List.append_of_mem hw1
      have := split_infix cfg s l [w] r (by rw [hlr]; simp)
      simpa using this
    have e2 : t.text = [w] := by
      obtain ⟨v, k1, k2⟩ := Option.bind_eq_some_iff.1 ht
      rw [hw.same w v t k1 k2 (by rw [e1]; simp), e1]
    refine ⟨e2, ?_⟩
    by_cases hx : ∃ u ∈ rs, normText cfg u = w
    · obtain ⟨u, hu1, rfl⟩ := hx
      exact hh u hu1 t ht (by rw [e2]; rfl)
    · push Not at hx
      rw [s1 w hx, ht] at hn
      cases hn
  have hb := best_fewer hm hd hd' s2 h5 hts hone
  have e := best_unique _ _ _ _ hb h5'
  subst e
  rw [internalSegment_eq, h1', ← h4']
  have er : ts.map (refOf d') = ts.map (refOf d) := by
    refine List.map_congr_left fun t ht => ?_
    unfold refOf
    rw [a3 _ (hkey t ht)]
  rw [er]
  have hpos : ∀ (l : List TokRef) (k : Nat), positions d' l k = positions d l k := by
    intro l
    induction l with
    | nil => intro k; rfl
    | cons r l ih =>
      intro k
      have : d'.deref r = d.deref r := by
        cases r with
        | idx i => simp only [Dictionary.deref, a1]
        | pseudo w => rfl
      unfold positions
      rw [this]
      simp only [ih]
  rw [hpos, h4]

/-- The calls on a text answer the same once the segments are the same. -/
theorem calls_of_segments {cfg : SplitCfg} {d d' : Dictionary F D} (hsub : SubInv d) (h1 : Keeps d d') {s : Bytes} {mode : Bool} {segs : List Seg}
    (e1 : internalSegment cfg (some d) s mode = some segs) (e2 : internalSegment cfg (some d') s mode = some segs) (e3 : ∀ g ∈ segs, ∃ t, d.deref g.tok = some t) (fuel : Nat) :
    seen cfg d' s mode = seen cfg d s mode ∧ segSlice cfg d' fuel s mode = segSlice cfg d fuel s mode ∧ segString cfg d' fuel s mode = segString cfg d fuel s mode ∧
      segPos cfg d' fuel s mode = segPos cfg d fuel s mode := by
  refine ⟨?_, ?_, ?_, ?_⟩ <;> symm
  · unfold seen
    rw [e1, e2]
    simp only [Option.map_some, Option.some.injEq]
    refine List.map_congr_left fun g hg => ?_
    obtain ⟨t, ht⟩ := e3 g hg
    rw [ht, h1.deref ht]
  · unfold segSlice
    rw [e1, e2]
    simp only [Option.bind_some, toSlice]
    split
    · exact concatOpt_congr fun g hg => tokenToSlice_keeps hsub h1 _ _ (e3 g hg)
    · refine concatOpt_congr fun g hg => ?_
      obtain ⟨t, ht⟩ := e3 g hg
      rw [ht, h1.deref ht]
  · unfold segString
    rw [e1, e2]
    simp only [Option.bind_some, toString']
    split
    · exact concatOpt_congr fun g hg => tokenToString_keeps hsub h1 _ _ (e3 g hg)
    · refine concatOpt_congr fun g hg => ?_
      obtain ⟨t, ht⟩ := e3 g hg
      rw [ht, h1.deref ht]
  · unfold segPos
    rw [e1, e2]
    simp only [Option.bind_some, toPos]
    split
    · exact concatOpt_congr fun g hg => tokenToPos_keeps hsub h1 _ _ (e3 g hg)
    · refine concatOpt_congr fun g hg => ?_
      obtain ⟨t, ht⟩ := e3 g hg
      rw [ht, h1.deref ht]

/-- C110: words that no segment of a result is may be removed: `Segment`, `ModeSegment`, `Slice`, `String` and `Pos` answer as before, provided no
removed word is a single word further away than an unknown one. -/
theorem C110_segment [UnicodeOK] [F32Laws D] (hm : RightMono D) (cfg : SplitCfg) (ops : List (DictOp F)) (d d' : Dictionary F D) (hr : runOps cfg ops Dictionary.new = some d)
    (hd : PosDist d) (rs : List Bytes) (hr' : runOps cfg (rs.map .remove) d = some d') (s : Bytes) (mode : Bool) (segs : List Seg)
    (hs : internalSegment cfg (some d) s mode = some segs) (hu : ∀ w ∈ rs, Unused d segs (normText cfg w)) (hh : ∀ w ∈ rs, NotHeavy d (normText cfg w)) (fuel : Nat) :
    internalSegment cfg (some d') s mode = some segs ∧ seen cfg d' s mode = seen cfg d s mode ∧ segSlice cfg d' fuel s mode = segSlice cfg d fuel s mode ∧
      segString cfg d' fuel s mode = segString cfg d fuel s mode ∧ segPos cfg d' fuel s mode = segPos cfg d fuel s mode := by
  have h := segments_unused hm cfg ops d d' hr hd rs hr' s mode segs hs hu hh
  refine ⟨h, calls_of_segments (subInv_reachable hr) (fun v t hv => by rw [(remove_run rs hr').1]; exact hv) hs h ?_ fuel⟩
  obtain ⟨segs', e1, e2⟩ := internalSegment_refs hr s mode
  rw [hs] at e1
  obtain rfl := Option.some.inj e1
  exact e2

/-! ### Cut -/

section routes
set_option linter.unusedSectionVars false
variable {d d' : Dictionary F D} {full : List Rune}

theorem route_fewer (hp : ∀ x, posWord d' x = true → posWord d x = true) (hf : FirstChars d d' full) {text : List Rune} {q : List (List Rune)} (h : IsRoute d' text q)
    (hi : text <:+: full) : IsRoute d text q := by
  induction h with
  | nil => exact .nil
  | @cons t rest ps h1 h2 _ ih =>
    refine .cons h1 ?_ (ih ((List.suffix_append t rest).isInfix.trans hi))
    rcases h2 with h2 | ⟨h2, h3⟩
    · exact .inl (hp t h2)
    · refine .inr ⟨h2, ?_⟩
      rintro ⟨u, u1, u2, u3⟩
      cases hx : posWord d' u with
      | true => exact h3 ⟨u, u1, u2, hx⟩
      | false =>
        obtain ⟨c, k1, k2⟩ := hf u (u1.isInfix.trans hi) u3 hx
        obtain ⟨u', rfl⟩ : ∃ u', u = c :: u' := by
          cases u with
          | nil => cases k1
          | cons a u' => cases k1; exact ⟨u', rfl⟩
        exact h3 ⟨[c], (List.prefix_append [c] u').trans u1, by simp, k2⟩

theorem route_kept (hp : ∀ x, posWord d' x = true → posWord d x = true) {text : List Rune} {q : List (List Rune)} (h : IsRoute d text q)
    (hq : ∀ x ∈ q, posWord d x = true → posWord d' x = true) : IsRoute d' text q := by
  induction h with
  | nil => exact .nil
  | @cons t rest ps h1 h2 _ ih =>
    refine .cons h1 ?_ (ih fun x hx => hq x (by simp [hx]))
    rcases h2 with h2 | ⟨h2, h3⟩
    · exact .inl (hq t (by simp) h2)
    · exact .inr ⟨h2, fun ⟨u, u1, u2, u3⟩ => h3 ⟨u, u1, u2, hp u u3⟩⟩

theorem score_kept (T : F) (hp : ∀ x, posWord d' x = true → pieceFreq d' x = pieceFreq d x) (hc : ∀ r ∈ full, pieceFreq d' [r] = pieceFreq d [r]) {text : List Rune}
    {q : List (List Rune)} (h : IsRoute d' text q) (hi : text <:+: full) : scoreBy T d' q = scoreBy T d q := by
  induction h with
  | nil => rfl
  | @cons t rest ps h1 h2 _ ih =>
    have e : pieceFreq d' t = pieceFreq d t := by
      rcases h2 with h2 | ⟨h2, _⟩
      · exact hp t h2
      · obtain ⟨r, rfl⟩ := List.length_eq_one_iff.1 h2
        exact hc r (hi.subset (by simp))
    have e2 : pieceScoreBy T d' t = pieceScoreBy T d t := by unfold pieceScoreBy; rw [e]
    have := ih ((List.suffix_append t rest).isInfix.trans hi)
    unfold scoreBy at this ⊢
    rw [List.foldr_cons, List.foldr_cons, this, e2]

/-- A best route stays the best when other words go. -/
theorem best_route_fewer [F64Laws F] (T : F) (hp : ∀ x, posWord d' x = true → posWord d x = true ∧ pieceFreq d' x = pieceFreq d x)
    (hc : ∀ r ∈ full, pieceFreq d' [r] = pieceFreq d [r]) (hf : FirstChars d d' full) {ps : List (List Rune)} (h : IsBestRouteBy T d full ps)
    (hq : ∀ x ∈ ps, posWord d x = true → posWord d' x = true) : IsBestRouteBy T d' full ps := by
  have hr := route_kept (fun x hx => (hp x hx).1) h.route hq
  have hfl := isRoute_flatten h.route
  have tail : ∀ p q, ps = p ++ q → IsRoute d' q.flatten q ∧ q.flatten <:+: full := by
    intro p q e
    constructor
    · subst e
      clear h hq hfl
      induction p generalizing full with
      | nil => rw [List.nil_append] at hr; rw [isRoute_flatten hr]; exact hr
      | cons t p ih =>
        cases hr with
        | @cons _ rest _ _ _ h3 => exact ih (full := rest) (fun r hr' => hc r (by simp [hr'])) (fun x hx => hf x (hx.trans (List.suffix_append _ _).isInfix)) h3
    · rw [← hfl, e, List.flatten_append]
      exact (List.suffix_append _ _).isInfix
  refine ⟨hr, ?_, ?_⟩
  · intro p q e q' hq'
    obtain ⟨t1, t2⟩ := tail p q e
    rw [score_kept T (fun x hx => (hp x hx).2) hc t1 t2, score_kept T (fun x hx => (hp x hx).2) hc hq' t2]
    exact h.highest p q e q' (route_fewer (fun x hx => (hp x hx).1) hf hq' t2)
  · intro p t q e t' q' hq' hle
    obtain ⟨t1, t2⟩ := tail p (t :: q) e
    rw [score_kept T (fun x hx => (hp x hx).2) hc t1 t2, score_kept T (fun x hx => (hp x hx).2) hc hq' t2] at hle
    exact h.longest p t q e t' q' (route_fewer (fun x hx => (hp x hx).1) hf hq' t2) hle

end routes

/-- C110: `Cut` without HMM: words that are no item of the result may be removed, provided `Find` says the same of the single characters as before and the
first character of each removed word in the text is a word that stays. -/
theorem C110_cut [UnicodeOK] [F64Laws F] (cfg : SplitCfg) (ops : List (DictOp F)) (d d' : Dictionary F D) (hr : runOps cfg ops Dictionary.new = some d)
    (rs : List Bytes) (hr' : runOps cfg (rs.map .remove) d = some d') (hg : GoodScores d) (hg' : GoodScores d') (s : Bytes) (o : List Bytes)
    (hs : cutDAGNoHMM cfg d s = some o) (hu : ∀ w ∈ rs, normText cfg w ∉ o) (hc : ∀ r ∈ dagText cfg s, d'.find (encode [r]) = d.find (encode [r]))
    (hf : FirstChars d d' (dagText cfg s)) : cutDAGNoHMM cfg d' s = some o := by
  obtain ⟨s1, s2⟩ := storedTok_remove hr'
  have hT := (remove_run rs hr').2.1
  have hrr := runOps_more hr hr'
  obtain ⟨ps, h1, h2⟩ := cut_route hr hg s
  obtain ⟨ps', h1', h2'⟩ := cut_route hrr hg' s
  have hi := idxOK_of_run hr
  have hi' := idxOK_of_run hrr
  have hp : ∀ x, posWord d' x = true → posWord d x = true ∧ pieceFreq d' x = pieceFreq d x := by
    intro x hx
    cases hy : storedTok d' (encode x) with
    | none => simp [posWord, hy] at hx
    | some t =>
      have hz := s2 _ _ hy
      simp only [posWord, pieceFreq, hy, hz] at hx ⊢
      exact ⟨hx, trivial⟩
  have hch : ∀ r ∈ dagText cfg s, pieceFreq d' [r] = pieceFreq d [r] := by
    intro r hr0
    obtain ⟨f, p, b, e1, _, _, e4⟩ := findRunes_spec (t := [r]) hi (by simp)
    obtain ⟨f', p', b', e1', _, _, e4'⟩ := findRunes_spec (t := [r]) hi' (by simp)
    have : some (f', p', b') = some (f, p, b) := by rw [← e1, ← e1']; exact hc r hr0
    cases this
    rw [← e4, ← e4']
  rw [hs] at h2
  obtain ⟨gs, g1, g2⟩ := noHmmLoop_runs ps [] (by simp)
  have hq : ∀ x ∈ ps, posWord d x = true → posWord d' x = true := by
    intro x hx hpx
    by_contra hn
    have hn' : posWord d' x = false := by simpa using hn
    have hxi : x <:+: dagText cfg s := by
      rw [← isRoute_flatten h1.route]
      exact List.infix_of_mem_flatten hx
    obtain ⟨c, k1, k2⟩ := hf x hxi hpx hn'
    obtain ⟨w, hw, e⟩ : ∃ w ∈ rs, normText cfg w = encode x := by
      by_contra hcon
      push Not at hcon
      have := s1 _ hcon
      unfold posWord at hpx hn'
      rw [this, hpx] at hn'
      cases hn'
    refine hu w hw ?_
    have ho : o = gs.map fun g => encode g.flatten := by
      have := Option.some.inj h2
      rw [this, ← g2]
      rfl
    have g1' : IsRuns EngPiece ps gs := by simpa using g1
    obtain ⟨g, hg1, hg2⟩ : ∃ g ∈ gs, x ∈ g := by
      rw [← g1'.flat] at hx
      exact List.mem_flatten.1 hx
    have hne : ¬ EngPiece x := by
      rintro ⟨r, rfl, _⟩
      cases k1
      rw [k2] at hn'
      cases hn'
    rcases g1'.kind g hg1 with ⟨y, rfl, _⟩ | ⟨_, h⟩
    · rw [List.mem_singleton.1 hg2] at e
      rw [ho, e]
      exact List.mem_map.2 ⟨[y], hg1, by simp⟩
    · exact absurd (h x hg2) hne
  have hb := best_route_fewer (F64.log d.totalFreq) hp hch hf h1 hq
  unfold IsBestRoute at h1'
  rw [hT] at h1'
  have e := best_route_unique _ _ _ hb h1'
  subst e
  rw [h2', ← h2]

end remove

/-! ### IEEE arithmetic -/

/-- `float32` addition is monotone on both sides. -/
theorem rightMono_ieee : RightMono Binary32 := by
  intro a b c ha hb hc h
  show Datum.lt (Datum.add f32 c.datum b.datum) (Datum.add f32 c.datum a.datum) = false
  exact Datum.add_mono hb.ne_nan ha.ne_nan hc.ne_nan h (Datum.NonNeg.add hc hb).ne_nan (Datum.NonNeg.add hc ha).ne_nan

section ieee
variable [Unicode] {M : MathFns}

/-- C110: `Segment` with IEEE arithmetic, after a recalculation. -/
theorem C110_ieee [UnicodeOK] (hlog : LogLike M.log2) (cfg : SplitCfg) (ops : List (DictOp (Binary64 M))) (d0 d d' : Dictionary (Binary64 M) Binary32)
    (hr : runOps cfg ops Dictionary.new = some d0) (hf : FreqsNonNeg ops) (hfin : d0.totalFreq.datum.IsFin)
    (hpos : F64.lt (F64.ofNat 0) d0.totalFreq = true) (hc : calcToken d0 = some d)
    (hz : ∀ w t, storedTok d w = some t → F32.isZero t.distance = false) (rs : List Bytes) (hr' : runOps cfg (rs.map .remove) d = some d') (s : Bytes) (mode : Bool)
    (segs : List Seg) (hs : internalSegment cfg (some d) s mode = some segs) (hu : ∀ w ∈ rs, Unused d segs (normText cfg w))
    (hh : ∀ w ∈ rs, NotHeavy d (normText cfg w)) (fuel : Nat) :
    internalSegment cfg (some d') s mode = some segs ∧ seen cfg d' s mode = seen cfg d s mode ∧ segSlice cfg d' fuel s mode = segSlice cfg d fuel s mode ∧
      segString cfg d' fuel s mode = segString cfg d fuel s mode ∧ segPos cfg d' fuel s mode = segPos cfg d fuel s mode := by
  have hrc : runOps cfg (ops ++ [.recalc]) Dictionary.new = some d := by rw [runOps_append, hr]; simpa [runOps, DictOp.step] using hc
  exact C110_segment rightMono_ieee cfg _ d d' hrc (posDist_ieee hlog cfg ops d0 d hr hf hfin hpos hc hz) rs hr' s mode segs hs hu hh fuel

/-- C110: `Cut` without HMM with IEEE arithmetic. -/
theorem C110_cut_ieee [UnicodeOK] (hlog : LogLike M.log) (cfg : SplitCfg) (ops : List (DictOp (Binary64 M))) (d d' : Dictionary (Binary64 M) Binary32)
    (hr : runOps cfg ops Dictionary.new = some d) (hf : FreqsNonNeg ops) (hfin : d.totalFreq.datum.IsFin) (h1 : F64.lt d.totalFreq (F64.ofNat 1) = false)
    (rs : List Bytes) (hr' : runOps cfg (rs.map .remove) d = some d') (s : Bytes) (o : List Bytes) (hs : cutDAGNoHMM cfg d s = some o)
    (hu : ∀ w ∈ rs, normText cfg w ∉ o) (hc : ∀ r ∈ dagText cfg s, d'.find (encode [r]) = d.find (encode [r])) (hfc : FirstChars d d' (dagText cfg s)) :
    cutDAGNoHMM cfg d' s = some o := by
  have hT := (remove_run rs hr').2.1
  have hf' : FreqsNonNeg (ops ++ rs.map .remove) := by
    intro op hop
    rcases List.mem_append.1 hop with h | h
    · exact hf op h
    · obtain ⟨w, _, rfl⟩ := List.mem_map.1 h
      intro f hf
      cases hf
  exact C110_cut cfg ops d d' hr rs hr' (goodScores_ieee hlog cfg ops d hr hf hfin h1)
    (goodScores_ieee hlog cfg _ d' (runOps_more hr hr') hf' (by rw [hT]; exact hfin) (by rw [hT]; exact h1)) s o hs hu hc hfc

end ieee

/-! ### Examples -/

section examples
attribute [local instance] sampleUnicode sampleUnicodeOK sampleF64 sampleF32 sampleNarrow sampleLaws sampleLaws64

example : RightMono Int := by
  intro a b c _ _ _ h
  simp only [F32.gt, F32.add, decide_eq_false_iff_not, not_lt] at h ⊢
  omega

theorem before_after {ops more : List (DictOp Int)} (P : Dictionary Int Int → Dictionary Int Int → Prop) [∀ d d', Decidable (P d d')]
    (h : ((runOps (D := Int) {} ops Dictionary.new).bind fun d => (runOps {} more d).map fun d' => decide (P d d')) = some true) :
    ∃ d d', runOps (D := Int) {} ops Dictionary.new = some d ∧ runOps {} more d = some d' ∧ P d d' := by
  obtain ⟨d, h1, h2⟩ := Option.bind_eq_some_iff.1 h
  obtain ⟨d', h3, h4⟩ := Option.map_eq_some_iff.1 h2
  exact ⟨d, d', h1, h3, of_decide_eq_true h4⟩

/-- The words c and w, which no segment of the text is, are removed. -/
example : ∃ d d' : Dictionary Int Int, runOps {} segOps Dictionary.new = some d ∧ runOps {} ([str "C", str "w"].map .remove) d = some d' ∧
    (segSlice {} d 9 (str "AB c? ab") false = some [str "ab c", str "?", str " ", str "ab"] ∧ segSlice {} d' 9 (str "AB c? ab") false = segSlice {} d 9 (str "AB c? ab") false ∧
    ((internalSegment {} (some d) (str "AB c? ab") false).all fun segs => segs.all fun g => (d.deref g.tok).all fun t => t.text.flatten != str "c" && t.text.flatten != str "w") = true ∧
    ((storedTok d (str "c")).all fun t => !F32.gt t.distance 32) = true ∧ ((storedTok d (str "w")).all fun t => !F32.gt t.distance 32) = true ∧
    (storedTok d (str "c")).isSome = true ∧ (storedTok d' (str "c")).isSome = false) := by
  refine before_after _ ?_
  decide +kernel

/-- Characters of the Han block. -/
def hanAt (n : Nat) : Bytes := encode [0x4E00 + n]

/-- The word 0 is further away than an unknown word. -/
def heavyOps : List (DictOp Int) := [.add (hanAt 0) (2 ^ 60) [], .add (hanAt 0 ++ hanAt 1) (2 ^ 30) [], .add (hanAt 2) (2 ^ 99) [], .add (hanAt 3) (2 ^ 99) [], .recalc]

/-- C110: without `NotHeavy` the result may change: the word removed cost more than an unknown one does. -/
theorem C110_heavy : ∃ d d' : Dictionary Int Int, runOps {} heavyOps Dictionary.new = some d ∧ runOps {} [.remove (hanAt 0)] d = some d' ∧
    (d.tokens.all fun t => F32.gt t.distance 0) = true ∧
    segSlice {} d 9 (hanAt 0 ++ hanAt 1) false = some [hanAt 0 ++ hanAt 1] ∧ segSlice {} d' 9 (hanAt 0 ++ hanAt 1) false = some [hanAt 0, hanAt 1] := by
  refine before_after (fun d d' => _ ∧ _) ?_
  decide +kernel

/-- Every first character is a word. -/
def firstOps : List (DictOp Int) := [.add (hanAt 0) 8 [], .add (hanAt 1) 8 [], .add (hanAt 2) 8 [], .add (hanAt 0 ++ hanAt 1) 64 [], .add (hanAt 1 ++ hanAt 2) 16 []]

example : ∃ d d' : Dictionary Int Int, runOps {} firstOps Dictionary.new = some d ∧ runOps {} [.remove (hanAt 1 ++ hanAt 2)] d = some d' ∧
    (cutDAGNoHMM {} d (hanAt 0 ++ hanAt 1 ++ hanAt 2) = some [hanAt 0 ++ hanAt 1, hanAt 2] ∧
    cutDAGNoHMM {} d' (hanAt 0 ++ hanAt 1 ++ hanAt 2) = some [hanAt 0 ++ hanAt 1, hanAt 2] ∧
    (∀ r ∈ dagText {} (hanAt 0 ++ hanAt 1 ++ hanAt 2), d'.find (encode [r]) = d.find (encode [r])) ∧
    posWord d [0x4E01, 0x4E02] = true ∧ posWord d' [0x4E01, 0x4E02] = false ∧ posWord d' [0x4E01] = true) := by
  refine before_after _ ?_
  decide +kernel

/-- Only the word 2 3 begins with the character 2. -/
def onlyOps : List (DictOp Int) :=
  [.add (hanAt 0) 2 [], .add (hanAt 1 ++ hanAt 2) 2 [], .add (hanAt 0 ++ hanAt 1) 128 [], .add (hanAt 3 ++ hanAt 4) 1024 [], .add (hanAt 2 ++ hanAt 3) 2 []]

/-- C110: `Cut` without `FirstChars`: a word that is no item of the result is removed and the result changes, for where a word begins no unknown
character may be cut. -/
theorem C110_cut_moves : ∃ d d' : Dictionary Int Int, runOps {} onlyOps Dictionary.new = some d ∧ runOps {} [.remove (hanAt 2 ++ hanAt 3)] d = some d' ∧
    cutDAGNoHMM {} d (hanAt 0 ++ hanAt 1 ++ hanAt 2 ++ hanAt 3 ++ hanAt 4) = some [hanAt 0, hanAt 1 ++ hanAt 2, hanAt 3 ++ hanAt 4] ∧
    cutDAGNoHMM {} d' (hanAt 0 ++ hanAt 1 ++ hanAt 2 ++ hanAt 3 ++ hanAt 4) = some [hanAt 0 ++ hanAt 1, hanAt 2, hanAt 3 ++ hanAt 4] := by
  refine before_after (fun d d' => _ ∧ _) ?_
  decide +kernel

end examples
end Gse
