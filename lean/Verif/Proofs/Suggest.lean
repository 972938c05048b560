import Verif.Proofs.Exact
import Verif.Props.Dag
import Verif.Props.Segment

/-!
# A word given its suggested frequency is cut whole (exact arithmetic)
-/

set_option linter.unusedSectionVars false

namespace Gse

open Spec

variable {D : Type} [ParseFn] [F32 D] [Narrow EReal D]

/-- `d'` is `d` with the frequency `f` for the word `k`, added to the total. -/
structure SetWord (d d' : Dictionary EReal D) (k : Bytes) (f : EReal) : Prop where
  other : ∀ k', k' ≠ k → (storedTok d' k').map (·.freq) = (storedTok d k').map (·.freq)
  word : (storedTok d' k).map (·.freq) = some f
  total : d'.totalFreq = d.totalFreq + f

namespace SetWord

variable {d d' : Dictionary EReal D} {k : Bytes} {f : EReal}

theorem posWord_other (h : SetWord d d' k f) {t : List Rune} (ht : encode t ≠ k) : posWord d' t = posWord d t := by
  have := h.other _ ht
  unfold posWord
  cases h1 : storedTok d (encode t) with
  | none =>
    rw [h1] at this
    cases h2 : storedTok d' (encode t) with
    | none => rfl
    | some _ => rw [h2] at this; cases this
  | some a =>
    rw [h1] at this
    cases h2 : storedTok d' (encode t) with
    | none => rw [h2] at this; cases this
    | some b =>
      rw [h2] at this
      simp only [Option.map_some, Option.some.injEq] at this
      simp [this]

theorem posWord_word (h : SetWord d d' k f) (hf : 0 < f) {t : List Rune} (ht : encode t = k) : posWord d' t = true := by
  unfold posWord
  have := h.word
  rw [ht]
  cases h2 : storedTok d' k with
  | none => rw [h2] at this; cases this
  | some b =>
    rw [h2] at this
    simp only [Option.map_some, Option.some.injEq] at this
    simp only [Option.any_some, this, exact_lt_true]
    simpa [F64.ofNat] using hf

theorem stored_mono (h : SetWord d d' k f) {w : Bytes} (hs : StartsStored d w) : StartsStored d' w := by
  obtain ⟨k', tok, h1, h2⟩ := hs
  by_cases e : k' = k
  · subst e
    cases h3 : storedTok d' k' with
    | none => have := h.word; rw [h3] at this; cases this
    | some tok' => exact ⟨k', tok', h3, h2⟩
  · have := h.other _ e
    rw [h1] at this
    cases h3 : storedTok d' k' with
    | none => rw [h3] at this; cases this
    | some tok' => exact ⟨k', tok', h3, h2⟩

theorem starts_mono (h : SetWord d d' k f) (hf : 0 < f) {text : List Rune} (hs : StartsWord d text) : StartsWord d' text := by
  obtain ⟨u, h1, h2, h3⟩ := hs
  refine ⟨u, h1, h2, ?_⟩
  by_cases e : encode u = k
  · exact h.posWord_word hf e
  · rw [h.posWord_other e]; exact h3

/-- A route that does not use the word was a route before. -/
theorem route_before (h : SetWord d d' k f) (hf : 0 < f) {text : List Rune} {qs : List (List Rune)} (hq : IsRoute d' text qs)
    (hn : ∀ t ∈ qs, encode t ≠ k) : IsRoute d text qs := by
  induction hq with
  | nil => exact .nil
  | cons h1 h2 _ ih =>
    refine .cons h1 ?_ (ih fun t ht => hn t (by simp [ht]))
    rcases h2 with h2 | ⟨h2, h3⟩
    · left; rw [← h.posWord_other (hn _ (by simp))]; exact h2
    · right; exact ⟨h2, fun hs => h3 (h.starts_mono hf hs)⟩

/-- A piece other than the word does not count more than before. -/
theorem pieceFreq_le (h : SetWord d d' k f) {t : List Rune} (ht : encode t ≠ k) (hp : 0 ≤ pieceFreq d t) :
    pieceFreq d' t ≤ pieceFreq d t := by
  have := h.other _ ht
  cases h1 : storedTok d (encode t) with
  | some a =>
    rw [h1] at this
    cases h2 : storedTok d' (encode t) with
    | none => rw [h2] at this; cases this
    | some b =>
      rw [h2] at this
      simp only [Option.map_some, Option.some.injEq] at this
      simp [pieceFreq, h1, h2, this]
  | none =>
    rw [h1] at this
    cases h2 : storedTok d' (encode t) with
    | some b => rw [h2] at this; cases this
    | none =>
      by_cases hs : StartsStored d' (encode t)
      · have e : pieceFreq d' t = 0 := by simp [pieceFreq, h2, hs, F64.ofNat]
        rw [e]; exact hp
      · have hs' : ¬ StartsStored d (encode t) := fun hx => hs (h.stored_mono hx)
        simp [pieceFreq, h1, h2, hs, hs']

theorem pieceFreq_word (h : SetWord d d' k f) {t : List Rune} (ht : encode t = k) : pieceFreq d' t = f := by
  have := h.word
  unfold pieceFreq
  rw [ht]
  cases h2 : storedTok d' k with
  | none => rw [h2] at this; cases this
  | some b =>
    rw [h2] at this
    simpa using this

end SetWord

/-- In a route of several pieces no piece has as many bytes as the text. -/
theorem piece_shorter {qs : List (List Rune)} (hne : ∀ t ∈ qs, t ≠ []) (h2 : ∀ t, qs ≠ [t]) {t : List Rune} (ht : t ∈ qs) :
    encode t ≠ encode qs.flatten := by
  obtain ⟨a, b, rfl⟩ := List.append_of_mem ht
  intro e
  have e2 : (encode a.flatten).length + ((encode t).length + (encode b.flatten).length) = (encode t).length := by
    have := congrArg List.length e
    simp only [List.flatten_append, List.flatten_cons, encode_append, List.length_append] at this
    omega
  have h3 : ∀ l : List (List Rune), (∀ u ∈ l, u ≠ []) → (encode l.flatten).length = 0 → l = [] := by
    intro l hl h0
    cases l with
    | nil => rfl
    | cons u l =>
      exfalso
      simp only [List.flatten_cons, encode_append, List.length_append] at h0
      have := encode_ne_nil (hl u (by simp))
      exact this (List.length_eq_zero_iff.1 (by omega))
  have ha := h3 a (fun u hu => hne u (by simp [hu])) (by omega)
  have hb := h3 b (fun u hu => hne u (by simp [hu])) (by omega)
  subst ha hb
  exact h2 t rfl

/-- The total times the likelihood: the frequency a single word would need for the same likelihood. -/
theorem core_bound {d d' : Dictionary EReal D} {w : List Rune} {f : ℝ} (hc : Counts d) (h1 : 1 ≤ d.totalFreq)
    (hc' : Counts d') (hs : SetWord d d' (encode w) (f : EReal)) (hf : 0 < f) {qs : List (List Rune)} (hq : IsRoute d' w qs) (hne : qs ≠ [w])
    (hw : w ≠ []) : IsRoute d w qs ∧ d'.totalFreq.toReal * likelihood d' qs ≤ d.totalFreq.toReal * likelihood d qs := by
  have hflat := isRoute_flatten hq
  have hp := isRoute_pieces hq
  have h2 : ∀ t, qs ≠ [t] := by
    intro t e
    subst e
    simp only [List.flatten_cons, List.flatten_nil, List.append_nil] at hflat
    exact hne (by rw [hflat])
  have hother : ∀ t ∈ qs, encode t ≠ encode w := by
    intro t ht
    rw [← hflat]
    exact piece_shorter (fun u hu => (hp u hu).1) h2 ht
  refine ⟨hs.route_before (by exact_mod_cast hf) hq hother, ?_⟩
  obtain ⟨T, hT, eT⟩ := hc.total
  have hT1 : 1 ≤ T := by rw [eT] at h1; exact_mod_cast h1
  have eT' : d'.totalFreq = ((T + f : ℝ) : EReal) := by rw [hs.total, eT]; exact (EReal.coe_add T f).symm
  have h1' : 1 ≤ d'.totalFreq := by rw [eT']; exact_mod_cast (by linarith : (1 : ℝ) ≤ T + f)
  have hpf : ∀ t ∈ qs, (pieceFreq d' t).toReal ≤ (pieceFreq d t).toReal := by
    intro t ht
    obtain ⟨⟨r, hr, e⟩, _⟩ := pieceFreq_amount hc h1 t
    obtain ⟨⟨r', hr', e'⟩, _⟩ := pieceFreq_amount hc' h1' t
    have := hs.pieceFreq_le (hother t ht) (by rw [e]; exact_mod_cast hr)
    rw [e, e'] at this ⊢
    simpa using this
  have hshare : ∀ t ∈ qs, share d' t ≤ share d t := by
    intro t ht
    obtain ⟨⟨r, hr, e⟩, _⟩ := pieceFreq_amount hc h1 t
    unfold share
    rw [eT, eT', EReal.toReal_coe, EReal.toReal_coe]
    have hr2 : 0 ≤ (pieceFreq d t).toReal := by rw [e]; exact hr
    exact div_le_div₀ hr2 (hpf t ht) (by linarith) (by linarith)
  cases qs with
  | nil => exact absurd (by simpa using hflat.symm) hw
  | cons t qs =>
    have e1 : ∀ (x : Dictionary EReal D) (X : ℝ), 0 < X → x.totalFreq = (X : EReal) →
        x.totalFreq.toReal * likelihood x (t :: qs) = (pieceFreq x t).toReal * likelihood x qs := by
      intro x X hX ex
      simp only [likelihood, List.map_cons, List.prod_cons, share, ex, EReal.toReal_coe]
      field_simp
    rw [e1 d T (by linarith) eT, e1 d' (T + f) (by linarith) eT']
    have hl : likelihood d' qs ≤ likelihood d qs := by
      unfold likelihood
      have : ∀ l : List (List Rune), (∀ u ∈ l, u ∈ t :: qs) → (l.map (share d')).prod ≤ (l.map (share d)).prod := by
        intro l
        induction l with
        | nil => intro _; simp
        | cons u l ih =>
          intro hu
          simp only [List.map_cons, List.prod_cons]
          exact mul_le_mul (hshare u (hu u (by simp))) (ih fun v hv => hu v (by simp [hv])) (likelihood_nonneg hc' h1' l)
            (share_nonneg hc h1 u)
      exact this qs fun u hu => by simp [hu]
    have hr2 : 0 ≤ (pieceFreq d t).toReal := by
      obtain ⟨⟨r, hr, e⟩, _⟩ := pieceFreq_amount hc h1 t
      rw [e]; exact hr
    exact mul_le_mul (hpf t (by simp)) hl (likelihood_nonneg hc' h1' qs) hr2

/-- With a frequency above that of the best route the word alone is the best route. -/
theorem best_is_word {d d' : Dictionary EReal D} {w : List Rune} {f : ℝ} (hc : Counts d) (h1 : 1 ≤ d.totalFreq)
    (hc' : Counts d') (h1' : 1 ≤ d'.totalFreq) (hs : SetWord d d' (encode w) (f : EReal)) (hf : 0 < f) (hw : w ≠ [])
    (hbig : ∀ qs, IsRoute d w qs → d.totalFreq.toReal * likelihood d qs < f)
    {ps : List (List Rune)} (hb : IsBestRoute d' w ps) : ps = [w] := by
  by_contra hne
  obtain ⟨h2, h3⟩ := core_bound hc h1 hc' hs hf hb.route hne hw
  have h4 := hbig ps h2
  have hr : IsRoute d' w [w] := by
    have := IsRoute.cons (d := d') hw (Or.inl (hs.posWord_word (by exact_mod_cast hf) rfl)) IsRoute.nil (rest := [])
    simpa using this
  have h5 := hb.highest [] ps rfl [w] (by rw [isRoute_flatten hb.route]; exact hr)
  rw [score_lt hc' h1'] at h5
  obtain ⟨T', hT', eT'⟩ := hc'.total
  have hT1 : 1 ≤ T' := by rw [eT'] at h1'; exact_mod_cast h1'
  have e : d'.totalFreq.toReal * likelihood d' [w] = f := by
    simp only [likelihood, List.map_cons, List.map_nil, List.prod_cons, List.prod_nil, mul_one, share, hs.pieceFreq_word rfl,
      eT', EReal.toReal_coe]
    field_simp
  have h6 : d'.totalFreq.toReal * likelihood d' [w] ≤ d'.totalFreq.toReal * likelihood d' ps := by
    refine mul_le_mul_of_nonneg_left h5 ?_
    rw [eT']; exact hT'
  linarith


/-! ## The product over the items of a cut -/

theorem likelihood_append (d : Dictionary EReal D) (a b : List (List Rune)) :
    likelihood d (a ++ b) = likelihood d a * likelihood d b := by simp [likelihood]

theorem likelihood_le_one {d : Dictionary EReal D} (hc : Counts d) (h1 : 1 ≤ d.totalFreq) (ps : List (List Rune)) : likelihood d ps ≤ 1 := by
  induction ps with
  | nil => simp [likelihood]
  | cons t ps ih =>
    have e : likelihood d (t :: ps) = share d t * likelihood d ps := by simp [likelihood]
    rw [e]
    exact mul_le_one₀ (share_le_one hc h1 t) (likelihood_nonneg hc h1 ps) ih

/-- A run of letters and digits, none of them a stored word, is not less likely joined. -/
theorem group_share {d : Dictionary EReal D} (hc : Counts d) (h1 : 1 ≤ d.totalFreq) {g : List (List Rune)} (hg : g ≠ [])
    (he : ∀ t ∈ g, EngPiece t) (hn : ∀ t ∈ g, storedTok d (encode t) = none) : likelihood d g ≤ share d g.flatten := by
  cases g with
  | nil => exact absurd rfl hg
  | cons t g =>
    have e : likelihood d (t :: g) = share d t * likelihood d g := by simp [likelihood]
    by_cases hs : StartsStored d (encode t)
    · have hz : share d t = 0 := by simp [share, pieceFreq, hn t (by simp), hs, F64.ofNat]
      rw [e, hz, zero_mul]
      exact share_nonneg hc h1 _
    · have hs' : ¬ StartsStored d (encode (t :: g).flatten) := by
        rintro ⟨k, tok, h2, h3⟩
        refine hs ⟨k, tok, h2, List.IsPrefix.trans ?_ h3⟩
        rw [List.flatten_cons, encode_append]
        exact List.prefix_append _ _
      have hst : storedTok d (encode (t :: g).flatten) = none := by
        cases h2 : storedTok d (encode (t :: g).flatten) with
        | none => rfl
        | some tok => exact absurd (startsStored_of_stored h2) hs'
      have e2 : share d (t :: g).flatten = share d t := by
        unfold share
        have a : pieceFreq d (t :: g).flatten = F64.ofNat 1 := by simp only [pieceFreq, hst, hs', if_false]
        have b : pieceFreq d t = F64.ofNat 1 := by simp only [pieceFreq, hn t (by simp), hs, if_false]
        rw [a, b]
      rw [e, e2]
      exact mul_le_of_le_one_right (share_nonneg hc h1 t) (likelihood_le_one hc h1 g)

/-- The items of a cut are not less likely than the route they come from. -/
theorem groups_likelihood {d : Dictionary EReal D} (hc : Counts d) (h1 : 1 ≤ d.totalFreq) :
    ∀ {gs : List (List (List Rune))}, (∀ g ∈ gs, (∃ x, g = [x]) ∨ (g ≠ [] ∧ ∀ t ∈ g, EngPiece t)) →
      (∀ g ∈ gs, ∀ t ∈ g, EngPiece t → storedTok d (encode t) = none) →
      likelihood d gs.flatten ≤ likelihood d (gs.map List.flatten)
  | [], _, _ => by simp
  | g :: gs, hk, hn => by
    have ih := groups_likelihood hc h1 (gs := gs) (fun g' hg => hk g' (by simp [hg])) (fun g' hg => hn g' (by simp [hg]))
    have e : likelihood d ((g :: gs).map List.flatten) = share d g.flatten * likelihood d (gs.map List.flatten) := by simp [likelihood]
    rw [List.flatten_cons, likelihood_append, e]
    refine mul_le_mul ?_ ih (likelihood_nonneg hc h1 _) (share_nonneg hc h1 _)
    rcases hk g (by simp) with ⟨x, rfl⟩ | ⟨hg, he⟩
    · simp [likelihood]
    · exact group_share hc h1 hg he fun t ht => hn g (by simp) t ht (he t ht)

/-- `SuggestFreq` multiplies the shares of the items. -/
theorem suggestProd_shares {d : Dictionary EReal D} (hi : IdxOK d) (hc : Counts d) (h1 : 1 ≤ d.totalFreq) :
    ∀ (ts : List (List Rune)), (∀ t ∈ ts, t ≠ []) → ∀ a : ℝ,
      suggestProd d d.totalFreq (ts.map encode) (a : EReal) = some ((a * likelihood d ts : ℝ) : EReal)
  | [], _, a => by simp [suggestProd, likelihood]
  | t :: ts, hne, a => by
    obtain ⟨v, p, b, h2, _, _, h3⟩ := findRunes_spec hi (hne t (by simp))
    obtain ⟨T, hT, eT⟩ := hc.total
    obtain ⟨⟨r, hr, e⟩, _⟩ := pieceFreq_amount hc h1 t
    unfold findRunes at h2
    have key : F64.div (if b = true then F64.mul (a : EReal) v else (a : EReal)) d.totalFreq = ((a * share d t : ℝ) : EReal) := by
      have e1 : (if b = true then F64.mul (a : EReal) v else (a : EReal)) = ((a * r : ℝ) : EReal) := by
        rw [e] at h3
        cases b with
        | true =>
          simp only [if_true] at h3 ⊢
          rw [h3]; exact (EReal.coe_mul a r).symm
        | false =>
          simp only [Bool.false_eq_true, if_false] at h3 ⊢
          have : (r : ℝ) = 1 := by
            simp only [F64.ofNat] at h3
            exact_mod_cast h3.symm
          rw [this, mul_one]
      rw [e1, eT]
      have e2 : share d t = r / T := by simp [share, e, eT]
      rw [e2]
      show ((a * r : ℝ) : EReal) / (T : EReal) = _
      rw [← EReal.coe_div, mul_div_assoc]
    rw [List.map_cons]
    unfold suggestProd
    simp only [h2]
    rw [key, suggestProd_shares hi hc h1 ts (fun u hu => hne u (by simp [hu]))]
    simp [likelihood, mul_assoc]

theorem trunc_real {x : ℝ} (h : 0 ≤ x) : F64.trunc (x : EReal) = ((⌊x⌋ : ℝ) : EReal) := by
  simp only [F64.trunc]
  rw [if_neg (by simp), if_neg (by rw [not_lt]; exact_mod_cast h), EReal.toReal_coe]

/-- The suggestion for one word is a number above the total times the likelihood of every route. -/
theorem suggest_above [Unicode] [UnicodeOK] {cfg : SplitCfg} {ops : List (DictOp EReal)} {d : Dictionary EReal D}
    (hr : runOps cfg ops Dictionary.new = some d) (hf : FreqsExact ops) (h1 : 1 ≤ d.totalFreq) {w : Bytes}
    (hn : ∀ r ∈ dagText cfg w, asciiAlnum r = true → storedTok d (encode [r]) = none) :
    ∃ f : ℝ, suggestFreq cfg d [w] = some (f : EReal) ∧ 0 < f ∧
      ∀ qs, IsRoute d (dagText cfg w) qs → d.totalFreq.toReal * likelihood d qs < f := by
  have hc := counts_run hr hf
  have hi := idxOK_of_run hr
  obtain ⟨ps, gs, h2, h3, h4⟩ := C27_best cfg ops d hr (goodScores_exact hc h1) w
  obtain ⟨T, hT, eT⟩ := hc.total
  have hT1 : 1 ≤ T := by rw [eT] at h1; exact_mod_cast h1
  have hpieces := isRoute_pieces h2.route
  have hkind : ∀ g ∈ gs, (∃ x, g = [x]) ∨ (g ≠ [] ∧ ∀ t ∈ g, EngPiece t) := by
    intro g hg
    rcases h3.kind g hg with ⟨x, hx, _⟩ | h
    · exact Or.inl ⟨x, hx⟩
    · exact Or.inr h
  have hmem : ∀ g ∈ gs, ∀ t ∈ g, t ∈ ps := by
    intro g hg t ht
    rw [← h3.flat]; exact List.mem_flatten.2 ⟨g, hg, ht⟩
  have hns : ∀ g ∈ gs, ∀ t ∈ g, EngPiece t → storedTok d (encode t) = none := by
    rintro g hg t ht ⟨r, rfl, hr⟩
    refine hn r ?_ hr
    rw [← isRoute_flatten h2.route]
    exact List.mem_flatten.2 ⟨[r], hmem g hg _ ht, by simp⟩
  have hL := groups_likelihood hc h1 hkind hns
  rw [h3.flat] at hL
  have hgne : ∀ t ∈ gs.map List.flatten, t ≠ [] := by
    intro t ht
    obtain ⟨g, hg, rfl⟩ := List.mem_map.1 ht
    have hg0 : g ≠ [] := by
      rcases hkind g hg with ⟨x, rfl⟩ | h
      · simp
      · exact h.1
    intro e
    cases g with
    | nil => exact hg0 rfl
    | cons t g =>
      simp only [List.flatten_cons, List.append_eq_nil_iff] at e
      exact (hpieces t (hmem _ hg t (by simp))).1 e.1
  set L := likelihood d (gs.map List.flatten) with hLdef
  have hL0 : 0 ≤ L := likelihood_nonneg hc h1 _
  have hprod : suggestProd d d.totalFreq (gs.map fun g => encode g.flatten) (F64.ofNat 1) = some (L : EReal) := by
    have := suggestProd_shares hi hc h1 (gs.map List.flatten) hgne 1
    rw [List.map_map] at this
    simpa [F64.ofNat, Function.comp_def] using this
  obtain ⟨v, p, b, hfind⟩ := find_total hi w
  have hbase : F64.add (F64.trunc (F64.mul (L : EReal) d.totalFreq)) (F64.ofNat 1) = ((⌊L * T⌋ + 1 : ℝ) : EReal) := by
    rw [eT]
    have : F64.mul (L : EReal) (T : EReal) = ((L * T : ℝ) : EReal) := (EReal.coe_mul L T).symm
    rw [this, trunc_real (mul_nonneg hL0 hT)]
    simp only [F64.add, F64.ofNat, Nat.cast_one]
    exact (EReal.coe_add _ _).symm
  have hv : ∃ x : ℝ, (if b = true then v else F64.ofNat 1) = (x : EReal) := by
    cases b with
    | false => exact ⟨1, by simp [F64.ofNat]⟩
    | true =>
      simp only [if_true]
      cases hst : storedTok d w with
      | some tok =>
        rw [find_stored hst] at hfind
        simp only [Option.some.injEq, Prod.mk.injEq] at hfind
        rw [← hfind.1]
        obtain ⟨i, _, hv⟩ := Option.bind_eq_some_iff.1 hst
        obtain ⟨⟨x, _, hx⟩, _⟩ := hc.freq tok (List.mem_of_getElem? hv)
        exact ⟨x, hx⟩
      | none =>
        by_cases hw : w = []
        · subst hw
          have hv := (storedTok_none hi).1 hst
          simp [Dictionary.find, Trie.jump, Trie.isNode, hv] at hfind
        · by_cases hss : StartsStored d w
          · rw [find_starts hi hw hst hss] at hfind
            simp only [Option.some.injEq, Prod.mk.injEq] at hfind
            exact ⟨0, by rw [← hfind.1]; simp [F64.ofNat]⟩
          · rw [find_unknown hi hst hss] at hfind
            simp at hfind
  obtain ⟨x, hx⟩ := hv
  have hfloor : L * T < ⌊L * T⌋ + 1 := Int.lt_floor_add_one _
  have hLT : 0 ≤ L * T := mul_nonneg hL0 hT
  have hall : ∀ qs, IsRoute d (dagText cfg w) qs → d.totalFreq.toReal * likelihood d qs ≤ L * T := by
    intro qs hq
    have := h2.highest [] ps rfl qs (by rw [isRoute_flatten h2.route]; exact hq)
    rw [score_lt hc h1] at this
    rw [eT, EReal.toReal_coe, mul_comm]
    exact mul_le_mul_of_nonneg_right (this.trans hL) hT
  have hsug : suggestFreq cfg d [w] = some (if (⌊L * T⌋ + 1 : ℝ) < x then (x : EReal) else ((⌊L * T⌋ + 1 : ℝ) : EReal)) := by
    unfold suggestFreq
    simp only [h4, hprod, hfind, Option.bind_some, Option.map_some, hbase, hx]
    congr 1
    simp only [exact_lt, EReal.coe_lt_coe_iff, decide_eq_true_eq]
  rw [hsug]
  by_cases hlt : (⌊L * T⌋ + 1 : ℝ) < x
  · rw [if_pos hlt]
    exact ⟨x, rfl, by linarith, fun qs hq => by have := hall qs hq; linarith⟩
  · rw [if_neg hlt]
    exact ⟨_, rfl, by linarith, fun qs hq => by have := hall qs hq; linarith⟩

end Gse
