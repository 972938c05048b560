import Verif.Spec.Again
import Verif.Props.Both
import Verif.Props.SeamHmm

/-!
# Segmenting a part of a text again

C92: joining consecutive items of a result and segmenting the joined text gives these items again.
-/

namespace Gse
open Spec

set_option linter.unusedSectionVars false

section
variable {F D : Type} [F64 F] [F32 D] [Narrow F D] [Unicode]

theorem slice_tokens {d : Dictionary F D} (fuel : Nat) : ∀ (segs : List Seg) (ts : List (Token F D)),
    segs.map (fun g => d.deref g.tok) = ts.map some → toSlice d fuel segs false = some (ts.map fun t => t.text.flatten) ∧
      toPos d fuel segs false = some (ts.map fun t => ⟨t.text.flatten, t.pos⟩) := by
  intro segs
  unfold toSlice toPos
  simp only [Bool.false_eq_true, if_false, textSliceToString_eq, Option.map_some]
  induction segs with
  | nil => intro ts h; cases ts with
    | nil => exact ⟨rfl, rfl⟩
    | cons t ts => simp at h
  | cons g segs ih =>
    intro ts h
    cases ts with
    | nil => simp at h
    | cons t ts =>
      simp only [List.map_cons, List.cons.injEq] at h
      simp [concatOpt, h.1, ih ts h.2]

/-- Segmenting a text, in terms of its tokens. -/
theorem seg_tokens [UnicodeOK] [F32Laws D] {cfg : SplitCfg} {ops : List (DictOp F)} {d : Dictionary F D}
    (hr : runOps cfg ops Dictionary.new = some d) (hd : PosDist d) (s : Bytes) (fuel : Nat) :
    ∃ ts, IsBest d false (splitTextToWords cfg s) ts ∧ segSlice cfg d fuel s false = some (ts.map fun t => t.text.flatten) ∧
      segPos cfg d fuel s false = some (ts.map fun t => ⟨t.text.flatten, t.pos⟩) := by
  obtain ⟨segs, ts, h1, h2, h3, _, h5⟩ := segmentWords_best (Reachable.wf ⟨ops, hr⟩).coh hd (split_isSplitText cfg s) (sm := false) (by simp)
  have h6 : segs.map (fun g => d.deref g.tok) = ts.map some := by
    rw [← h3, ← h2, List.map_map]; rfl
  refine ⟨ts, h5, ?_, ?_⟩
  · unfold segSlice
    rw [internalSegment_eq, h1]
    exact (slice_tokens fuel segs ts h6).1
  · unfold segPos
    rw [internalSegment_eq, h1]
    exact (slice_tokens fuel segs ts h6).2

theorem wordsOf_flatten (ts : List (Token F D)) : (wordsOf ts).flatten = (ts.map fun t => t.text.flatten).flatten := by
  induction ts with
  | nil => rfl
  | cons t ts ih => simp only [List.map_cons, List.flatten_cons, ← ih, ← List.flatten_append]; rfl

/-- Consecutive tokens that are the best segmentation of their own words come back when their text is segmented. -/
theorem seg_again [UnicodeOK] [F32Laws D] {cfg : SplitCfg} {ops : List (DictOp F)} {d : Dictionary F D}
    (hr : runOps cfg ops Dictionary.new = some d) (hd : PosDist d) {s : Bytes} {a m b : List (Token F D)}
    (h : IsBest d false (splitTextToWords cfg s) (a ++ m ++ b)) (hm : IsBest d false (wordsOf m) m) (fuel : Nat) :
    segSlice cfg d fuel (wordsOf m).flatten false = some (m.map fun t => t.text.flatten) ∧
      segPos cfg d fuel (wordsOf m).flatten false = some (m.map fun t => ⟨t.text.flatten, t.pos⟩) := by
  obtain ⟨ts, h1, h2, h3⟩ := seg_tokens hr hd (wordsOf m).flatten fuel
  rw [C03_resplit cfg s (wordsOf a) (wordsOf m) (wordsOf b) (by rw [← h.seg.1, wordsOf_two, wordsOf_two])] at h1
  rw [best_unique false _ _ _ h1 hm] at h2 h3
  exact ⟨h2, h3⟩

/-- C92: the first items of `Slice` joined and sliced again are these items, in any arithmetic that satisfies the laws; with the tags of `Pos` as
well. -/
theorem C92_front [UnicodeOK] [F32Laws D] (cfg : SplitCfg) (ops : List (DictOp F)) (d : Dictionary F D)
    (hr : runOps cfg ops Dictionary.new = some d) (hd : PosDist d) (fuel : Nat) (s : Bytes) :
    (∀ x y, segSlice cfg d fuel s false = some (x ++ y) → segSlice cfg d fuel x.flatten false = some x) ∧
      ∀ x y, segPos cfg d fuel s false = some (x ++ y) → segPos cfg d fuel (x.map (·.text)).flatten false = some x := by
  obtain ⟨ts, h1, h2, h3⟩ := seg_tokens hr hd s fuel
  constructor
  · intro x y h
    rw [h2] at h
    obtain ⟨p, q, rfl, rfl, rfl⟩ := List.map_eq_append_iff.1 (Option.some.inj h)
    have := (seg_again hr hd (a := []) (m := p) (b := q) (by simpa using h1) (best_prefix h1) fuel).1
    rwa [wordsOf_flatten] at this
  · intro x y h
    rw [h3] at h
    obtain ⟨p, q, rfl, rfl, rfl⟩ := List.map_eq_append_iff.1 (Option.some.inj h)
    have := (seg_again hr hd (a := []) (m := p) (b := q) (by simpa using h1) (best_prefix h1) fuel).2
    rw [wordsOf_flatten] at this
    simpa [List.map_map, Function.comp_def] using this

/-! ### Cut -/

theorem isRuns_tail {α : Type} {p : α → Prop} {xs : List α} {g : List α} {gs : List (List α)} (h : IsRuns p xs (g :: gs)) : IsRuns p gs.flatten gs :=
  ⟨rfl, fun k hk => h.kind k (by simp [hk]), fun a u v b e => h.maximal (g :: a) u v b (by simp [e])⟩

theorem isRuns_part {α : Type} {p : α → Prop} {xs : List α} {a m b : List (List α)} (h : IsRuns p xs (a ++ m ++ b)) : IsRuns p m.flatten m :=
  ⟨rfl, fun k hk => h.kind k (by simp [hk]), fun u g k v e => h.maximal (a ++ u) g k (v ++ b) (by simp [e])⟩

theorem isRuns_ne {α : Type} {p : α → Prop} {xs : List α} {gs : List (List α)} (h : IsRuns p xs gs) : ∀ g ∈ gs, g ≠ [] := by
  intro g hg
  rcases h.kind g hg with ⟨x, rfl, _⟩ | ⟨h, _⟩
  · simp
  · exact h

/-- A group of a list that is all of one kind does not reach into the next one. -/
theorem isRuns_step {α : Type} {p : α → Prop} {xs : List α} {g z : List α} {gs : List (List α)} (h : IsRuns p xs (g :: gs)) {rest : List α}
    (hg : ∀ x ∈ g, p x) (hz : ∀ x ∈ z, p x) (e : gs.flatten = z ++ rest) : z = [] := by
  rcases z with _ | ⟨x, z⟩
  · rfl
  exfalso
  cases gs with
  | nil => simp at e
  | cons k gs =>
    obtain ⟨y, k', hk'⟩ := List.exists_cons_of_ne_nil (isRuns_ne h k (by simp))
    have hxy : y = x := by
      rw [hk'] at e; simp at e; exact e.1
    refine h.maximal [] g k gs rfl ⟨hg, ?_⟩
    rcases h.kind k (by simp) with ⟨w, hw, hn⟩ | ⟨_, h2⟩
    · rw [hk'] at hw
      simp at hw
      exact absurd (hz x (by simp)) (by rw [← hxy, hw.1]; exact hn)
    · exact h2

theorem isRuns_unique {α : Type} {p : α → Prop} : ∀ (gs gs' : List (List α)) (xs : List α), IsRuns p xs gs → IsRuns p xs gs' → gs = gs'
  | [], gs', xs, h, h' => by
    cases gs' with
    | nil => rfl
    | cons g gs' =>
      have e := h'.flat
      rw [← h.flat, List.flatten_cons, List.flatten_nil] at e
      exact absurd (List.append_eq_nil_iff.1 e).1 (isRuns_ne h' g (by simp))
  | g :: gs, [], xs, h, h' => by
    have e := h.flat
    rw [← h'.flat, List.flatten_cons, List.flatten_nil] at e
    exact absurd (List.append_eq_nil_iff.1 e).1 (isRuns_ne h g (by simp))
  | g :: gs, g' :: gs', xs, h, h' => by
    have e : g ++ gs.flatten = g' ++ gs'.flatten := by
      have := h.flat.trans h'.flat.symm
      simpa using this
    have hgg : g = g' := by
      rcases h.kind g (by simp) with ⟨x, rfl, hx⟩ | ⟨hne, hall⟩
      · rcases h'.kind g' (by simp) with ⟨y, rfl, _⟩ | ⟨hne', hall'⟩
        · simp at e; rw [e.1]
        · obtain ⟨y, k, rfl⟩ := List.exists_cons_of_ne_nil hne'
          simp at e
          exact absurd (hall' y (by simp)) (by rw [← e.1]; exact hx)
      · rcases h'.kind g' (by simp) with ⟨y, rfl, hy⟩ | ⟨hne', hall'⟩
        · obtain ⟨x, k, rfl⟩ := List.exists_cons_of_ne_nil hne
          simp at e
          exact absurd (hall x (by simp)) (by rw [e.1]; exact hy)
        · rcases List.append_eq_append_iff.1 e with ⟨z, e1, e2⟩ | ⟨z, e1, e2⟩
          · have := isRuns_step h hall (fun x hx => hall' x (by rw [e1]; simp [hx])) e2
            rw [e1, this]; simp
          · have := isRuns_step h' hall' (fun x hx => hall x (by rw [e1]; simp [hx])) e2
            rw [e1, this]; simp
    subst hgg
    have e2 := List.append_cancel_left e
    rw [isRuns_unique gs gs' gs.flatten (isRuns_tail h) (by rw [e2]; exact isRuns_tail h')]

theorem route_rest {d : Dictionary F D} {q : List (List Rune)} : ∀ {p : List (List Rune)} {text : List Rune}, IsRoute d text (p ++ q) → IsRoute d q.flatten q
  | [], text, h => by
    rw [isRoute_flatten (show IsRoute d text q from h)]; exact h
  | t :: p, text, h => by
    obtain ⟨_, _, _, h⟩ := route_inv h
    exact route_rest h

theorem dagText_again {cfg : SplitCfg} (hl : cfg.toLower = true → LowerOnce) [UnicodeOK] {s : Bytes} {a m b : List Rune}
    (h : dagText cfg s = a ++ m ++ b) : dagText cfg (encode m) = m := by
  have hv : ∀ r ∈ m, validRune r = true := fun r hr => dagText_valid cfg s r (by rw [h]; simp [hr])
  unfold dagText at h ⊢
  rw [runes_encode m hv]
  split at h
  · rename_i hc
    rw [if_pos hc]
    obtain ⟨l, rest, e1, e2, _⟩ := List.map_eq_append_iff.1 h
    obtain ⟨l1, l2, rfl, _, e5⟩ := List.map_eq_append_iff.1 e2
    rw [← e5, List.map_map]
    apply List.map_congr_left
    intro r _
    exact hl hc r
  · rename_i hc
    rw [if_neg hc]

theorem items_flatten (gs : List (List (List Rune))) : (gs.map fun g => encode g.flatten).flatten = encode gs.flatten.flatten := by
  induction gs with
  | nil => rfl
  | cons g gs ih => simp [ih, encode_append]

/-- Consecutive groups that are the best route through their own characters come back when their text is cut. -/
theorem cut_again [UnicodeOK] [F64Laws F] {cfg : SplitCfg} (hl : cfg.toLower = true → LowerOnce) {ops : List (DictOp F)} {d : Dictionary F D}
    (hr : runOps cfg ops Dictionary.new = some d) (hg : GoodScores d) {s : Bytes} {a m b : List (List (List Rune))} {ps : List (List Rune)}
    (hps : IsRoute d (dagText cfg s) ps) (hrun : IsRuns EngPiece ps (a ++ m ++ b)) (hm : IsBestRoute d m.flatten.flatten m.flatten) :
    cutDAGNoHMM cfg d (m.map fun g => encode g.flatten).flatten = some (m.map fun g => encode g.flatten) := by
  have e : dagText cfg s = a.flatten.flatten ++ m.flatten.flatten ++ b.flatten.flatten := by
    rw [← isRoute_flatten hps, ← hrun.flat]; simp
  rw [items_flatten]
  obtain ⟨qs, gs, h1, h2, h3⟩ := C27_best cfg ops d hr hg (encode m.flatten.flatten)
  rw [dagText_again hl e] at h1
  have e2 := best_route_unique _ _ _ h1 hm
  subst e2
  rw [h3, isRuns_unique _ _ _ h2 (isRuns_part hrun)]

/-- C92: the last items of `Cut(str, false)` joined and cut again are these items, in any arithmetic that satisfies the laws. -/
theorem C92_cut_back [UnicodeOK] [F64Laws F] (cfg : SplitCfg) (hl : cfg.toLower = true → LowerOnce) (ops : List (DictOp F)) (d : Dictionary F D)
    (hr : runOps cfg ops Dictionary.new = some d) (hg : GoodScores d) (s : Bytes) (x y : List Bytes)
    (h : cutDAGNoHMM cfg d s = some (x ++ y)) : cutDAGNoHMM cfg d y.flatten = some y := by
  obtain ⟨ps, gs, h1, h2, h3⟩ := C27_best cfg ops d hr hg s
  rw [h] at h3
  obtain ⟨g1, g2, rfl, rfl, rfl⟩ := List.map_eq_append_iff.1 (Option.some.inj h3).symm
  have e : ps = g1.flatten ++ g2.flatten := by rw [← h2.flat]; simp
  subst e
  exact cut_again hl hr hg (a := g1) (m := g2) (b := []) h1.route (by simpa using h2) (best_route_suffix h1 (route_rest h1.route))

end

/-! ### Without rounding -/

section exact
variable [ParseFn] [Unicode]

theorem best_rest {cfg : SplitCfg} {ops : List (DictOp EReal)} {d0 d : Dictionary EReal EReal} (h : Filled cfg ops d0 d) {ws : List Bytes}
    {p q : List (Token EReal EReal)} (hb : IsBest d false ws (p ++ q)) (hp : 0 < (p.map (tokenShare d)).prod) : IsBest d false (wordsOf q) q := by
  have hpp : ∀ t ∈ p, IsPiece d t := fun t ht => hb.seg.2 t (by simp [ht])
  have hq : ∀ t ∈ q, IsPiece d t := fun t ht => hb.seg.2 t (by simp [ht])
  have key : ∀ x y : List (Token EReal EReal), (∀ t ∈ x, IsPiece d t) → (∀ t ∈ y, IsPiece d t) →
      (F32.gt (cost (p ++ x)) (cost (p ++ y)) = false ↔ F32.gt (cost x) (cost y) = false) := by
    intro x y hx hy
    obtain ⟨a1, a2⟩ := cost_share h.run h.freqs h.pos h.recalc (p ++ x) (by
      intro t ht; rcases List.mem_append.1 ht with ht | ht
      · exact hpp t ht
      · exact hx t ht)
    obtain ⟨b1, b2⟩ := cost_share h.run h.freqs h.pos h.recalc (p ++ y) (by
      intro t ht; rcases List.mem_append.1 ht with ht | ht
      · exact hpp t ht
      · exact hy t ht)
    obtain ⟨c1, c2⟩ := cost_share h.run h.freqs h.pos h.recalc x hx
    obtain ⟨e1, e2⟩ := cost_share h.run h.freqs h.pos h.recalc y hy
    rw [exact_gt_false, exact_gt_false, a2, b2, c2, e2, shareDist_le a1 b1, shareDist_le c1 e1]
    simp only [List.map_append, List.prod_append]
    exact mul_le_mul_iff_right₀ hp
  have alt : ∀ q1 t q2, q = q1 ++ t :: q2 → ∀ p' t', IsSegmentation d (wordsOf (q1 ++ [t])) (p' ++ [t']) →
      (∀ x ∈ q1 ++ [t], IsPiece d x) ∧ (∀ x ∈ p' ++ [t'], IsPiece d x) ∧ IsSegmentation d (wordsOf (p ++ q1 ++ [t])) (p ++ p' ++ [t']) := by
    intro q1 t q2 e p' t' halt
    refine ⟨fun x hx => hq x (by rw [e]; simp at hx ⊢; tauto), halt.2, ?_, ?_⟩
    · rw [List.append_assoc, List.append_assoc, wordsOf_two p, wordsOf_two p, halt.1]
    · intro x hx
      rw [List.append_assoc] at hx
      rcases List.mem_append.1 hx with hx | hx
      · exact hpp x hx
      · exact halt.2 x hx
  refine ⟨⟨rfl, hq⟩, by simp, ?_, ?_⟩
  · intro q1 t q2 e p' t' halt _
    obtain ⟨h1, h2, h3⟩ := alt q1 t q2 e p' t' halt
    have := hb.cheapest (p ++ q1) t q2 (by simp [e]) (p ++ p') t' h3 (by simp)
    rw [List.append_assoc, List.append_assoc, key _ _ h1 h2] at this
    exact this
  · intro q1 t q2 e p' t' halt _ hg
    obtain ⟨h1, h2, h3⟩ := alt q1 t q2 e p' t' halt
    refine hb.longest (p ++ q1) t q2 (by simp [e]) (p ++ p') t' h3 (by simp) ?_
    rw [List.append_assoc, List.append_assoc, key _ _ h2 h1]
    exact hg

theorem tokenShare_pos {cfg : SplitCfg} {ops : List (DictOp EReal)} {d0 d : Dictionary EReal EReal} (h : Filled cfg ops d0 d)
    {t : Token EReal EReal} (ht : IsPiece d t) (hz : ∀ tok, storedTok d t.text.flatten = some tok → tok.freq ≠ 0) : 0 < tokenShare d t := by
  obtain ⟨h0, _⟩ := piece_share h.run h.freqs h.pos h.recalc ht
  refine lt_of_le_of_ne h0 (Ne.symm ?_)
  unfold tokenShare
  split
  · rename_i hs
    have hm : t ∈ d.tokens := by
      unfold storedTok at hs
      obtain ⟨v, _, hv⟩ := Option.bind_eq_some_iff.1 hs
      exact List.mem_of_getElem? hv
    have hcs := counts_run h.run' (by
      intro op hop f hf
      rcases List.mem_append.1 hop with ho | ho
      · exact h.freqs op ho f hf
      · simp at ho; subst ho; cases hf)
    obtain ⟨⟨f, hf, ef⟩, _⟩ := hcs.freq t hm
    obtain ⟨T, hT, eT⟩ := hcs.total
    have h1 : (1 : EReal) ≤ d.totalFreq := by rw [(calcToken_same h.recalc).total]; exact h.total
    rw [eT] at h1 ⊢
    have hT1 : (1 : ℝ) ≤ T := by exact_mod_cast h1
    have hne := hz t hs
    rw [ef] at hne ⊢
    rw [EReal.toReal_coe, EReal.toReal_coe]
    have : f ≠ 0 := by rintro rfl; exact hne rfl
    exact div_ne_zero this (by linarith)
  · positivity

/-- C92: without rounding, any consecutive items of `Slice` joined and sliced again are these items, if no item before them is a word of frequency
zero; so every single item comes back whole. -/
theorem C92_slice [UnicodeOK] (cfg : SplitCfg) (ops : List (DictOp EReal)) (d0 d : Dictionary EReal EReal) (h : Filled cfg ops d0 d)
    (fuel : Nat) (s : Bytes) (x m y : List Bytes) (hs : segSlice cfg d fuel s false = some (x ++ m ++ y))
    (hx : ∀ w ∈ x, ∀ t, storedTok d w = some t → t.freq ≠ 0) : segSlice cfg d fuel m.flatten false = some m := by
  have hd := posDist_exact h.run h.freqs h.pos h.recalc h.notAll
  obtain ⟨ts, h1, h2, _⟩ := seg_tokens h.run' hd s fuel
  rw [h2] at hs
  obtain ⟨l, c, rfl, e1, rfl⟩ := List.map_eq_append_iff.1 (Option.some.inj hs)
  obtain ⟨a, b, rfl, rfl, rfl⟩ := List.map_eq_append_iff.1 e1
  have hpre := best_prefix (p := a ++ b) h1
  have hb := best_rest h hpre (by
    refine List.prod_pos ?_
    intro r hr
    obtain ⟨t, ht, rfl⟩ := List.mem_map.1 hr
    exact tokenShare_pos h (h1.seg.2 t (by simp [ht])) (hx _ (List.mem_map_of_mem ht)))
  have := (seg_again h.run' hd h1 hb fuel).1
  rwa [wordsOf_flatten] at this

theorem share_pos_iff {d : Dictionary EReal EReal} (hc : Counts d) (h1 : 1 ≤ d.totalFreq) (t : List Rune) :
    0 < share d t ↔ (posWord d t = true ∨ ¬ StartsStored d (encode t)) := by
  obtain ⟨T, hT, eT⟩ := hc.total
  rw [eT] at h1
  have hT1 : (0 : ℝ) < T := lt_of_lt_of_le one_pos (by exact_mod_cast h1)
  unfold share posWord pieceFreq
  rw [eT, EReal.toReal_coe]
  cases htok : storedTok d (encode t) with
  | some tok =>
    have hm : tok ∈ d.tokens := by
      unfold storedTok at htok
      obtain ⟨v, _, hv⟩ := Option.bind_eq_some_iff.1 htok
      exact List.mem_of_getElem? hv
    obtain ⟨⟨f, hf, ef⟩, _⟩ := hc.freq tok hm
    have hst : StartsStored d (encode t) := ⟨_, tok, htok, List.prefix_refl _⟩
    simp only [Option.any_some, hst, not_true_eq_false, or_false, ef, EReal.toReal_coe, F64.lt, F64.ofNat, decide_eq_true_eq]
    rw [div_pos_iff_of_pos_right hT1]
    norm_cast
  | none =>
    by_cases hst : StartsStored d (encode t)
    · simp [hst, F64.ofNat]
    · simp [hst, F64.ofNat, hT1]

/-- A route through a part whose pieces all count is a route wherever the part occurs. -/
theorem route_context {d : Dictionary EReal EReal} (hc : Counts d) (h1 : 1 ≤ d.totalFreq) {r : List Rune} {q : List (List Rune)} (hq : IsRoute d r q)
    {l : List Rune} {p : List (List Rune)} (hp : IsRoute d l p) : (∀ t ∈ p, 0 < share d t) → IsRoute d (l ++ r) (p ++ q) := by
  induction hp with
  | nil => intro _; simpa using hq
  | @cons t rest ps ht hk _ ih =>
    intro hpos
    rw [List.append_assoc, List.cons_append]
    refine .cons ht ?_ (ih fun u hu => hpos u (by simp [hu]))
    rcases hk with hk | ⟨k1, k2⟩
    · exact .inl hk
    · rcases (share_pos_iff hc h1 t).1 (hpos t (by simp)) with g | g
      · exact .inl g
      · refine .inr ⟨k1, ?_⟩
        rintro ⟨u, ⟨v, hv⟩, hu, hpw⟩
        obtain ⟨c, rfl⟩ := List.length_eq_one_iff.1 k1
        obtain ⟨c', u, rfl⟩ := List.exists_cons_of_ne_nil hu
        simp at hv
        obtain ⟨rfl, _⟩ := hv
        unfold posWord at hpw
        cases htok : storedTok d (encode (c' :: u)) with
        | none => rw [htok] at hpw; cases hpw
        | some tok => exact g ⟨_, tok, htok, ⟨encode u, by rw [← encode_append]; rfl⟩⟩

theorem likelihood_two (d : Dictionary EReal EReal) (p q : List (List Rune)) : likelihood d (p ++ q) = likelihood d p * likelihood d q := by
  simp [likelihood]

theorem likelihood_pos {d : Dictionary EReal EReal} (hc : Counts d) (h1 : 1 ≤ d.totalFreq) {p : List (List Rune)} :
    0 < likelihood d p ↔ ∀ t ∈ p, 0 < share d t := by
  induction p with
  | nil => simp [likelihood]
  | cons t p ih =>
    have e : likelihood d (t :: p) = share d t * likelihood d p := by simp [likelihood]
    rw [e]
    constructor
    · intro h
      have h0 : share d t ≠ 0 := by rintro h0; rw [h0, zero_mul] at h; exact lt_irrefl _ h
      have h2 : 0 < share d t := lt_of_le_of_ne (share_nonneg hc h1 t) (Ne.symm h0)
      have h3 := ih.1 ((pos_iff_pos_of_mul_pos h).1 h2)
      intro u hu
      rcases List.mem_cons.1 hu with rfl | hu
      · exact h2
      · exact h3 u hu
    · intro h
      exact mul_pos (h t (by simp)) (ih.2 fun u hu => h u (by simp [hu]))

theorem route_front {F D : Type} [F64 F] [F32 D] [Narrow F D] {d : Dictionary F D} {q : List (List Rune)} : ∀ {p : List (List Rune)} {text : List Rune},
    IsRoute d text (p ++ q) → IsRoute d p.flatten p
  | [], text, h => .nil
  | t :: p, text, h => by
    have hne : t ≠ [] := by cases h with | cons h _ _ => exact h
    obtain ⟨rest, _, h2, h3⟩ := route_inv h
    have h4 := route_front h3
    rw [List.flatten_cons]
    refine .cons hne ?_ h4
    rcases h2 with h2 | ⟨k1, k2⟩
    · exact .inl h2
    · refine .inr ⟨k1, ?_⟩
      rintro ⟨u, hu, k3, k4⟩
      refine k2 ⟨u, hu.trans ?_, k3, k4⟩
      have : (p ++ q).flatten = rest := isRoute_flatten h3
      rw [← this, List.flatten_append]
      exact ⟨q.flatten, by simp⟩

theorem best_front {d : Dictionary EReal EReal} (hc : Counts d) (h1 : 1 ≤ d.totalFreq) {text : List Rune} {p q : List (List Rune)}
    (h : IsBestRoute d text (p ++ q)) (hp : ∀ t ∈ p, 0 < share d t) (hq : ∀ t ∈ q, 0 < share d t) : IsBestRoute d p.flatten p := by
  have hL := (likelihood_pos hc h1).2 hq
  have hrq : IsRoute d q.flatten q := route_rest h.route
  have cmp : ∀ b b', (∀ t ∈ b', 0 < share d t) → IsRoute d b.flatten b' → IsRoute d (b ++ q).flatten (b' ++ q) := by
    intro b b' hb' hr
    rw [List.flatten_append]
    exact route_context hc h1 hrq hr hb'
  refine ⟨route_front h.route, ?_, ?_⟩
  · intro a b e b' hb'
    rw [show scoreBy (F64.log d.totalFreq) d b = score d b from rfl, show scoreBy (F64.log d.totalFreq) d b' = score d b' from rfl, score_lt hc h1]
    by_cases hz : ∀ t ∈ b', 0 < share d t
    · have := h.highest a (b ++ q) (by simp [e]) (b' ++ q) (cmp b b' hz hb')
      rw [show scoreBy (F64.log d.totalFreq) d (b ++ q) = score d (b ++ q) from rfl,
        show scoreBy (F64.log d.totalFreq) d (b' ++ q) = score d (b' ++ q) from rfl, score_lt hc h1, likelihood_two, likelihood_two] at this
      exact le_of_mul_le_mul_right this hL
    · rw [← likelihood_pos hc h1] at hz
      exact (not_lt.1 hz).trans (likelihood_nonneg hc h1 b)
  · intro a t b e t' b' hb' hs
    rw [show scoreBy (F64.log d.totalFreq) d (t' :: b') = score d (t' :: b') from rfl,
      show scoreBy (F64.log d.totalFreq) d (t :: b) = score d (t :: b) from rfl, score_lt hc h1] at hs
    have hb : 0 < likelihood d (t :: b) := (likelihood_pos hc h1).2 fun u hu => hp u (by rw [e]; simp at hu ⊢; tauto)
    have hz := (likelihood_pos hc h1).1 (lt_of_lt_of_le hb hs)
    refine h.longest a t (b ++ q) (by simp [e]) t' (b' ++ q) (by simpa using cmp (t :: b) (t' :: b') hz hb') ?_
    rw [← List.cons_append, ← List.cons_append]
    rw [show scoreBy (F64.log d.totalFreq) d ((t' :: b') ++ q) = score d ((t' :: b') ++ q) from rfl,
      show scoreBy (F64.log d.totalFreq) d ((t :: b) ++ q) = score d ((t :: b) ++ q) from rfl, score_lt hc h1, likelihood_two, likelihood_two]
    exact mul_le_mul_of_nonneg_right hs hL.le

/-- C92: without rounding, any consecutive items of `Cut(str, false)` joined and cut again are these items, if from there on no item has a character
counted with frequency zero. -/
theorem C92_cut [UnicodeOK] (cfg : SplitCfg) (hl : cfg.toLower = true → LowerOnce) (ops : List (DictOp EReal)) (d : Dictionary EReal EReal)
    (hr : runOps cfg ops Dictionary.new = some d) (hf : FreqsExact ops) (h1 : 1 ≤ d.totalFreq) (s : Bytes) (x m y : List Bytes)
    (h : cutDAGNoHMM cfg d s = some (x ++ m ++ y)) (hm : ∀ w ∈ m ++ y, Counted d w) : cutDAGNoHMM cfg d m.flatten = some m := by
  have hc := counts_run hr hf
  have hg := goodScores_exact hc h1
  obtain ⟨ps, gs, k1, k2, k3⟩ := C27_best cfg ops d hr hg s
  rw [h] at k3
  obtain ⟨l, g3, rfl, e1, rfl⟩ := List.map_eq_append_iff.1 (Option.some.inj k3).symm
  obtain ⟨g1, g2, rfl, rfl, rfl⟩ := List.map_eq_append_iff.1 e1
  have e : ps = g1.flatten ++ (g2.flatten ++ g3.flatten) := by rw [← k2.flat]; simp
  subst e
  have hpos : ∀ t ∈ g2.flatten ++ g3.flatten, 0 < share d t := by
    intro t ht
    obtain ⟨g, hg', htg⟩ : ∃ g ∈ g2 ++ g3, t ∈ g := by
      rw [← List.flatten_append] at ht
      exact List.mem_flatten.1 ht
    have hw := hm (encode g.flatten) (by rw [← List.map_append]; exact List.mem_map_of_mem hg')
    unfold Counted at hw
    rw [runes_encode g.flatten (by
      intro r hr'
      refine dagText_valid cfg s r ?_
      rw [← isRoute_flatten k1.route]
      obtain ⟨u, hu, hru⟩ := List.mem_flatten.1 hr'
      refine List.mem_flatten.2 ⟨u, ?_, hru⟩
      rw [← List.flatten_append]
      exact List.mem_append_right _ (List.mem_flatten.2 ⟨g, hg', hu⟩))] at hw
    rw [share_pos_iff hc h1]
    by_cases hlen : t.length = 1
    · obtain ⟨r, rfl⟩ := List.length_eq_one_iff.1 hlen
      refine hw r (List.mem_flatten.2 ⟨_, htg, by simp⟩) ?_
      rcases k2.kind g (by simp at hg' ⊢; tauto) with ⟨u, rfl, _⟩ | ⟨_, hall⟩
      · simp at htg; subst htg; exact .inl (by simp)
      · obtain ⟨r', e, hr'⟩ := hall _ htg
        simp at e; subst e; exact .inr hr'
    · rcases (isRoute_pieces k1.route t (List.mem_append_right _ ht)).2 with k | k
      · exact .inl k
      · exact absurd k hlen
  have hb := best_route_suffix k1 (route_rest k1.route)
  exact cut_again hl hr hg k1.route k2 (best_front hc h1 hb (fun t ht => hpos t (List.mem_append_left _ ht)) (fun t ht => hpos t (List.mem_append_right _ ht)))

end exact

/-! ### IEEE arithmetic -/

section ieee
variable {M : MathFns} [Unicode]

/-- C92: with IEEE arithmetic the first items of `Slice` joined and sliced again are these items. -/
theorem C92_ieee [UnicodeOK] (hlog : LogLike M.log2) (cfg : SplitCfg) (ops : List (DictOp (Binary64 M))) (d0 d : Dictionary (Binary64 M) Binary32)
    (hr : runOps cfg ops Dictionary.new = some d0) (hf : FreqsNonNeg ops) (hfin : d0.totalFreq.datum.IsFin)
    (hpos : F64.lt (F64.ofNat 0) d0.totalFreq = true) (hc : calcToken d0 = some d)
    (hz : ∀ w t, storedTok d w = some t → F32.isZero t.distance = false) (fuel : Nat) (s : Bytes) (x y : List Bytes)
    (h : segSlice cfg d fuel s false = some (x ++ y)) : segSlice cfg d fuel x.flatten false = some x := by
  have hr' : runOps cfg (ops ++ [.recalc]) Dictionary.new = some d := by rw [runOps_append, hr]; simpa [runOps, DictOp.step] using hc
  exact (C92_front cfg _ d hr' (posDist_ieee hlog cfg ops d0 d hr hf hfin hpos hc hz) fuel s).1 x y h

/-- C92: with IEEE arithmetic the last items of `Cut(str, false)` joined and cut again are these items. -/
theorem C92_cut_ieee [UnicodeOK] (hlog : LogLike M.log) (cfg : SplitCfg) (hl : cfg.toLower = true → LowerOnce) (ops : List (DictOp (Binary64 M)))
    (d : Dictionary (Binary64 M) Binary32) (hr : runOps cfg ops Dictionary.new = some d) (hf : FreqsNonNeg ops) (hfin : d.totalFreq.datum.IsFin)
    (h1 : F64.lt d.totalFreq (F64.ofNat 1) = false) (s : Bytes) (x y : List Bytes)
    (h : cutDAGNoHMM cfg d s = some (x ++ y)) : cutDAGNoHMM cfg d y.flatten = some y :=
  C92_cut_back cfg hl ops d hr (goodScores_ieee hlog cfg ops d hr hf hfin h1) s x y h

end ieee

/-! ### Examples -/

section examples
attribute [local instance] sampleUnicode sampleUnicodeOK sampleParse

theorem sample_lowerOnce : LowerOnce := by
  intro r
  show (if decide (65 ≤ (if decide (65 ≤ r) && decide (r ≤ 90) then r + 32 else r)) && decide ((if decide (65 ≤ r) && decide (r ≤ 90) then r + 32 else r) ≤ 90) then
    (if decide (65 ≤ r) && decide (r ≤ 90) then r + 32 else r) + 32 else (if decide (65 ≤ r) && decide (r ≤ 90) then r + 32 else r)) =
    (if decide (65 ≤ r) && decide (r ≤ 90) then r + 32 else r)
  by_cases h : 65 ≤ r ∧ r ≤ 90
  · have : ¬ (r + 32 ≤ 90) := by omega
    simp [h, this]
  · have : (decide (65 ≤ r) && decide (r ≤ 90)) = false := by simp; omega
    simp [this]

/-- The last item of `Slice` for 中国人, in exact arithmetic, and both items of `Cut`. -/
example : ∃ d0 d : Dictionary EReal EReal, Filled {} (adds (duelEntries 1 1)) d0 d ∧ segSlice {} d 2 (guo ++ ren) false = some [guo ++ ren] ∧
    cutDAGNoHMM {} d (zhong ++ guo) = some [zhong ++ guo] ∧ cutDAGNoHMM {} d ren = some [ren] := by
  obtain ⟨d0, d, h, hk, h1, h2⟩ := C91_tie
  have e1 : ∀ w ∈ [zhong], ∀ t, storedTok d w = some t → t.freq ≠ 0 := by
    intro w hw t ht h0
    simp at hw
    subst hw
    have := hk 0x4E2D (by simp)
    unfold posWord at this
    rw [show encode [0x4E2D] = zhong by decide +kernel, ht] at this
    simp [h0, F64.lt, F64.ofNat] at this
  have hf : FreqsExact (adds (duelEntries 1 1) ++ [.recalc]) := by
    intro op hop f hf
    rcases List.mem_append.1 hop with ho | ho
    · exact h.freqs op ho f hf
    · simp at ho; subst ho; cases hf
  have ht : 1 ≤ d.totalFreq := by rw [(calcToken_same h.recalc).total]; exact h.total
  have c1 : Counted d (zhong ++ guo) := by
    intro r hr hor
    rw [show runes (zhong ++ guo) = [0x4E2D, 0x56FD] by decide +kernel] at hr
    exact .inl (hk r (by simp at hr ⊢; tauto))
  have c2 : Counted d ren := by
    intro r hr hor
    rw [show runes ren = [0x4EBA] by decide +kernel] at hr
    exact .inl (hk r (by simp at hr ⊢; tauto))
  refine ⟨d0, d, h, ?_, ?_, ?_⟩
  · have := C92_slice {} _ d0 d h 2 _ [zhong] [guo ++ ren] [] h1 e1
    simpa using this
  · have := C92_cut {} (fun _ => sample_lowerOnce) _ d h.run' hf ht _ [] [zhong ++ guo] [ren] h2 (by simpa using ⟨c1, c2⟩)
    simpa using this
  · have := C92_cut {} (fun _ => sample_lowerOnce) _ d h.run' hf ht _ [zhong ++ guo] [ren] [] h2 (by simpa using c2)
    simpa using this

end examples

section infinite
attribute [local instance] sampleUnicode sampleUnicodeOK infF64 infF32 infNarrow32 infLaws infLaws32

/-- C92: a word of frequency zero before them makes a difference: with 一 of frequency zero, 丁 and 丂 common and 丁丂 rare, `Slice` gives 一 and 丁丂
for 一丁丂, and 丁 and 丂 for 丁丂. -/
theorem C92_zero : ∃ d : Dictionary (Option Int) (Option Int), runOps {} infOps Dictionary.new = some d ∧
    segSlice {} d 3 (encode [0x4E00, 0x4E01, 0x4E02]) false = some [encode [0x4E00], encode [0x4E01, 0x4E02]] ∧
    segSlice {} d 3 (encode [0x4E01, 0x4E02]) false = some [encode [0x4E01], encode [0x4E02]] := by
  have hrun : (runOps (D := Option Int) {} infOps Dictionary.new).isSome = true := by decide +kernel
  obtain ⟨d, hd⟩ := Option.isSome_iff_exists.1 hrun
  have key : ((runOps (D := Option Int) {} infOps Dictionary.new).map fun d =>
      (segSlice {} d 3 (encode [0x4E00, 0x4E01, 0x4E02]) false, segSlice {} d 3 (encode [0x4E01, 0x4E02]) false)) =
      some (some [encode [0x4E00], encode [0x4E01, 0x4E02]], some [encode [0x4E01], encode [0x4E02]]) := by decide +kernel
  rw [hd] at key
  simp only [Option.map_some, Option.some.injEq, Prod.mk.injEq] at key
  exact ⟨d, hd, key.1, key.2⟩

/-- C92: and so does, after them, a character that only begins stored words: `Cut(str, false)` gives 丁丂 and 一 for 丁丂一, and 丁 and 丂 for 丁丂. -/
theorem C92_cut_zero : ∃ d : Dictionary (Option Int) (Option Int), runOps {} infCutOps Dictionary.new = some d ∧ GoodScores d ∧
    cutDAGNoHMM {} d (encode [0x4E01, 0x4E02, 0x4E00]) = some [encode [0x4E01, 0x4E02], encode [0x4E00]] ∧
    cutDAGNoHMM {} d (encode [0x4E01, 0x4E02]) = some [encode [0x4E01], encode [0x4E02]] := by
  obtain ⟨d, h1, h2, h3, _, h4, _⟩ := C87_cut_infinite
  exact ⟨d, h1, h2, h4, h3⟩

/-- The hypotheses of `C92_front` and `C92_cut_back` are met by these dictionaries. -/
example : ∀ d, runOps (D := Option Int) {} infCutOps Dictionary.new = some d → cutDAGNoHMM {} d (encode [0x4E00]) = some [encode [0x4E00]] := by
  intro d h
  obtain ⟨d', h1, h2, h3, _⟩ := C92_cut_zero
  rw [h] at h1; cases h1
  have := C92_cut_back {} (fun _ => sample_lowerOnce) infCutOps d h h2 _ [encode [0x4E01, 0x4E02]] [encode [0x4E00]] h3
  simpa using this

/-- The first item of `Slice` for 一丁丂 is sliced whole: the hypotheses of `C92_front` hold. -/
example : ∃ d : Dictionary (Option Int) (Option Int), PosDist d ∧ segSlice {} d 3 (encode [0x4E00]) false = some [encode [0x4E00]] := by
  obtain ⟨d, _, _, _, _, _, h1, h2, _⟩ := C87_infinite
  obtain ⟨d', g1, g2, _⟩ := C92_zero
  rw [h1] at g1; cases g1
  have := (C92_front {} infOps d h1 h2 3 _).1 [encode [0x4E00]] [encode [0x4E01, 0x4E02]] g2
  exact ⟨d, h2, by simpa using this⟩

end infinite

section hmm
attribute [local instance] sampleUnicode sampleUnicodeOK sampleF64 sampleF32 sampleNarrow sampleLaws sampleLaws64

/-- C92: with the HMM not even the last item need come back: 中国, rare while 中 and 国 are common, is an item of `Cut(" 中国", true)`, and
`Cut("中国", true)` gives 中 and 国. -/
theorem C92_hmm : ∃ d : Dictionary Int Int, runOps {} seamOps Dictionary.new = some d ∧ GoodScores d ∧
    cutDAGHmm {} d hmmConst hmmEmit (encode [32, 0x4E2D, 0x56FD]) [] = some [encode [32], encode [0x4E2D, 0x56FD]] ∧
    cutDAGHmm {} d hmmConst hmmEmit (encode [0x4E2D, 0x56FD]) [] = some [encode [0x4E2D], encode [0x56FD]] := by
  have hrun : (runOps (D := Int) {} seamOps Dictionary.new).isSome = true := by decide +kernel
  obtain ⟨d, hd⟩ := Option.isSome_iff_exists.1 hrun
  have key : ((runOps (D := Int) {} seamOps Dictionary.new).map fun d =>
      (cutDAGHmm {} d hmmConst hmmEmit (encode [32, 0x4E2D, 0x56FD]) [], cutDAGHmm {} d hmmConst hmmEmit (encode [0x4E2D, 0x56FD]) [])) =
      some (some [encode [32], encode [0x4E2D, 0x56FD]], some [encode [0x4E2D], encode [0x56FD]]) := by decide +kernel
  rw [hd] at key
  simp only [Option.map_some, Option.some.injEq, Prod.mk.injEq] at key
  exact ⟨d, hd, fun _ _ _ => trivial, key.1, key.2⟩

end hmm
end Gse
