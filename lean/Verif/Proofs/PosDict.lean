import Verif.Spec.Pos
import Verif.Proofs.DagBest
import Verif.Proofs.History

/-! # Tags of words and routes of the part-of-speech cut -/

namespace Gse
open Spec Trie

set_option linter.unusedSectionVars false
set_option linter.unusedSimpArgs false

section
variable {F D : Type} [F64 F] [F32 D] [Narrow F D]

/-! ## Dict.Pos -/

theorem valueOf_eq (d : Dictionary F D) (w : Bytes) : (d.valueOf w).1 = (d.trie.value w).getD 0 := by
  have hg := get_eq d.trie w
  unfold Dictionary.valueOf
  unfold Trie.get at hg
  cases hj : d.trie.jump w [] with
  | none => rw [hj] at hg; simp at hg; simp [← hg]
  | some id =>
    rw [hj] at hg
    simp only [Option.bind_some] at hg
    simp only
    rw [hg]
    cases d.trie.value w <;> rfl

theorem posOf_eq {d : Dictionary F D} (h : IdxOK d) (w : Bytes) :
    posOf d w = some (if d.trie.value w = some 0 then none else (storedTok d w).map Token.pos) := by
  unfold posOf
  rw [valueOf_eq]
  cases hv : d.trie.value w with
  | none =>
    have := (storedTok_none h).2 hv
    simp [this]
  | some v =>
    simp only [Option.getD_some, Option.some.injEq]
    split
    · rfl
    · have h1 := h w v hv
      have : storedTok d w = d.tokens[v]? := by unfold storedTok; rw [hv]; rfl
      rw [this]
      simp [h1]

theorem posItem_eq {d : Dictionary F D} (h : IdxOK d) (w : Bytes) : posItem d w = some ⟨w, tagOf d w⟩ := by
  unfold posItem tagOf
  rw [posOf_eq h]
  simp only [Option.map_some]
  split <;> simp

/-! ## The first word -/

variable [Unicode]

theorem addToken_first (cfg : SplitCfg) {d : Dictionary F D} (h : IdxOK d) (t : Bytes) (f : F) (p k : Bytes) :
    ((segAddToken cfg d t f p).1.trie.value k = some 0 ↔
      (d.tokens = [] ∧ normText cfg t = k) ∨ (d.tokens ≠ [] ∧ d.trie.value k = some 0)) ∧
      (segAddToken cfg d t f p).1.tokens ≠ [] := by
  have hk : (toToken (D := D) cfg t f p).text.flatten = normText cfg t := flatten_split cfg t
  unfold segAddToken Dictionary.addToken
  dsimp only
  rw [textSliceToBytes_eq, get_eq, hk]
  by_cases he : d.tokens = []
  · have hnone : ∀ k, d.trie.value k = none := by
      intro k
      cases hv : d.trie.value k with
      | none => rfl
      | some v => have := h k v hv; rw [he] at this; simp at this
    rw [hnone]
    simp only
    have hi : ∃ t', d.trie.insert (normText cfg t) d.numTokens = some t' := by
      unfold Trie.insert Dictionary.numTokens
      rw [he, if_pos (by simp [Trie.valueLimit])]
      exact ⟨_, rfl⟩
    obtain ⟨t', hi⟩ := hi
    rw [hi]
    simp only
    refine ⟨?_, by simp⟩
    rw [value_insert hi]
    simp only [Dictionary.numTokens, he, List.length_nil, true_and, ne_eq, not_true_eq_false, false_and, or_false]
    split
    · rename_i e; simp [e]
    · rename_i e; rw [hnone]; simp [Ne.symm e]
  · cases hv : d.trie.value (normText cfg t) with
    | some v => simp [he]
    | none =>
      cases hi : d.trie.insert (normText cfg t) d.numTokens with
      | none => simp [he]
      | some t' =>
        refine ⟨?_, by simp⟩
        simp only [he, false_and, ne_eq, not_false_eq_true, true_and, false_or]
        rw [value_insert hi]
        split
        · rename_i e
          rw [e, hv]
          have : 0 < d.numTokens := List.length_pos_of_ne_nil he
          simp; omega
        · rfl

theorem removeToken_first (cfg : SplitCfg) {d d' : Dictionary F D} {tok : Token F D} {t : Bytes} {e : Bool}
    (ht : tok.text = splitTextToWords cfg t) (hr : d.removeToken tok = some (d', e)) (k : Bytes) :
    (d'.trie.value k = if k = normText cfg t then none else d.trie.value k) ∧ d'.tokens = d.tokens ∧
      (e = true → d' = d ∧ d.trie.value (normText cfg t) = none) ∧ (e = false → d.trie.value (normText cfg t) ≠ none) := by
  unfold Dictionary.removeToken at hr
  rw [textSliceToBytes_eq, ht, flatten_split] at hr
  rcases delete_cases d.trie (normText cfg t) with ⟨h1, h2⟩ | ⟨v, t', h1, h2⟩ | ⟨_, _, h2⟩
  · rw [h2] at hr
    simp at hr
    obtain ⟨rfl, rfl⟩ := hr
    have hv : d.trie.value (normText cfg t) = none := by
      cases hv : d.trie.value (normText cfg t) with
      | none => rfl
      | some v => rw [isNode_of_value hv] at h1; simp at h1
    refine ⟨?_, rfl, fun _ => ⟨rfl, hv⟩, by simp⟩
    split
    · rename_i e; rw [e, hv]
    · rfl
  · rw [h2] at hr
    simp at hr
    obtain ⟨rfl, rfl⟩ := hr
    exact ⟨by simp only; rw [value_delete h2], rfl, by simp, by simp [h1]⟩
  · rw [h2] at hr; simp at hr

/-- What one call does to the word with index 0. -/
theorem step_first {cfg : SplitCfg} {d d' : Dictionary F D} (h : IdxOK d) {op : DictOp F} (hs : op.step cfg d = some d') (k : Bytes) :
    (d'.trie.value k = some 0 ↔ (d.tokens = [] ∧ Adds cfg k op) ∨ (d.trie.value k = some 0 ∧ ¬ Removes cfg k op)) ∧
      (d'.tokens = [] ↔ d.tokens = [] ∧ ∀ k', ¬ Adds cfg k' op) := by
  have hne : d.trie.value k = some 0 → d.tokens ≠ [] := by
    intro hv e
    have := h k 0 hv
    rw [e] at this; simp at this
  cases op with
  | add t f p =>
    simp [DictOp.step] at hs
    subst hs
    obtain ⟨h1, h2⟩ := addToken_first cfg h t f p k
    refine ⟨?_, by simp [h2, Adds]⟩
    rw [h1]
    simp only [Adds, Removes, not_false_eq_true, and_true]
    constructor
    · rintro (h | h)
      · exact .inl h
      · exact .inr h.2
    · rintro (h | h)
      · exact .inl h
      · exact .inr ⟨hne h, h⟩
  | addForce t f p =>
    simp only [DictOp.step, segAddTokenForce, Option.map_map, Option.map_eq_some_iff] at hs
    obtain ⟨d2, e1, e2⟩ := hs
    simp at e2; subst e2
    have hsame := calcToken_same e1
    obtain ⟨h1, h2⟩ := addToken_first cfg h t f p k
    have h3 : d2.tokens ≠ [] := by
      intro e
      have := hsame.length
      rw [e] at this
      exact h2 (List.length_eq_zero_iff.1 this.symm)
    refine ⟨?_, by simp [h3, Adds]⟩
    rw [hsame.trie, h1]
    simp only [Adds, Removes, not_false_eq_true, and_true]
    constructor
    · rintro (h | h)
      · exact .inl h
      · exact .inr h.2
    · rintro (h | h)
      · exact .inl h
      · exact .inr ⟨hne h, h⟩
  | remove t =>
    simp only [DictOp.step, segRemoveToken, Option.map_eq_some_iff] at hs
    obtain ⟨⟨d2, e⟩, e1, e2⟩ := hs
    simp at e2; subst e2
    obtain ⟨h1, h2, _⟩ := removeToken_first cfg rfl e1 k
    refine ⟨?_, by simp [h2, Adds]⟩
    rw [h1]
    simp only [Adds, Removes, and_false, false_or]
    split
    · rename_i e; simp [e]
    · rename_i e; simp [Ne.symm e]
  | reAdd t f p =>
    simp only [DictOp.step, segReAddToken, Option.map_eq_some_iff] at hs
    obtain ⟨⟨d2, e⟩, e1, e2⟩ := hs
    simp at e2; subst e2
    cases hr : d.removeToken (toToken cfg t f p) with
    | none => simp [hr] at e1
    | some x =>
      obtain ⟨d3, e3⟩ := x
      obtain ⟨h1, h2, h3, h4⟩ := removeToken_first cfg rfl hr k
      rw [hr] at e1
      cases e3 with
      | true =>
        simp at e1
        obtain ⟨rfl, _⟩ := e1
        obtain ⟨rfl, h5⟩ := h3 rfl
        refine ⟨?_, by simp [Adds]⟩
        simp only [Adds, Removes, and_false, false_or]
        constructor
        · intro hv
          refine ⟨hv, ?_⟩
          rintro rfl
          rw [h5] at hv; simp at hv
        · exact fun h => h.1
      | false =>
        simp at e1
        have h5 := h4 rfl
        have hd2 : d2 = (segAddToken cfg d3 t f p).1 := by unfold segAddToken; rw [e1]
        have hi3 : IdxOK d3 := by
          intro k' v' hv'
          obtain ⟨h1', h2', _⟩ := removeToken_first cfg rfl hr k'
          rw [h1'] at hv'
          rw [h2']
          split at hv'
          · simp at hv'
          · exact h k' v' hv'
        have hdne : d.tokens ≠ [] := by
          intro e
          cases hv : d.trie.value (normText cfg t) with
          | none => exact h5 hv
          | some v => have := h _ v hv; rw [e] at this; simp at this
        obtain ⟨h6, h7⟩ := addToken_first cfg hi3 t f p k
        rw [hd2]
        refine ⟨?_, by simp [h7, hdne]⟩
        rw [h6, h2, h1]
        simp only [hdne, false_and, ne_eq, not_false_eq_true, true_and, false_or, Removes]
        split
        · rename_i e; simp [e]
        · rename_i e; simp [Ne.symm e]
  | recalc =>
    simp only [DictOp.step] at hs
    have hsame := calcToken_same hs
    rw [hsame.trie]
    refine ⟨by simp [Adds, Removes], ?_⟩
    have := hsame.length
    simp only [Adds, not_false_eq_true, implies_true, and_true]
    rw [← List.length_eq_zero_iff, this, List.length_eq_zero_iff]

theorem step_idx {cfg : SplitCfg} {d d' : Dictionary F D} {op : DictOp F} (h : d.WF cfg) (hs : op.step cfg d = some d') : d'.WF cfg := by
  cases op with
  | add t f p =>
    simp [DictOp.step] at hs
    subst hs
    exact Dictionary.wf_addToken h _ ⟨t, rfl⟩
  | addForce t f p =>
    simp only [DictOp.step, segAddTokenForce, Option.map_map, Option.map_eq_some_iff] at hs
    obtain ⟨d2, e1, e2⟩ := hs
    simp at e2; subst e2
    exact (calcToken_same e1).wf (Dictionary.wf_addToken h _ ⟨t, rfl⟩)
  | remove t =>
    simp only [DictOp.step, segRemoveToken, Option.map_eq_some_iff] at hs
    obtain ⟨⟨d2, e⟩, e1, e2⟩ := hs
    simp at e2; subst e2
    exact Dictionary.wf_removeToken h _ e1
  | reAdd t f p =>
    simp only [DictOp.step, segReAddToken, Option.map_eq_some_iff] at hs
    obtain ⟨⟨d2, e⟩, e1, e2⟩ := hs
    simp at e2; subst e2
    cases hr : d.removeToken (toToken cfg t f p) with
    | none => simp [hr] at e1
    | some x =>
      obtain ⟨d3, e3⟩ := x
      have h3 := Dictionary.wf_removeToken h _ hr
      rw [hr] at e1
      cases e3 with
      | true => simp at e1; obtain ⟨rfl, _⟩ := e1; exact h3
      | false =>
        simp at e1
        have : d2 = (d3.addToken (toToken cfg t f p)).1 := by rw [e1]
        rw [this]
        exact Dictionary.wf_addToken h3 _ ⟨t, rfl⟩
  | recalc =>
    simp only [DictOp.step] at hs
    exact (calcToken_same hs).wf h

/-- Which word has index 0 after a history. -/
theorem run_first {cfg : SplitCfg} (ops : List (DictOp F)) : ∀ {d d' : Dictionary F D}, d.WF cfg → runOps cfg ops d = some d' → ∀ k,
    (d'.trie.value k = some 0 ↔ (d.tokens = [] ∧ FirstKept cfg ops k) ∨
      (d.trie.value k = some 0 ∧ ∀ o ∈ ops, ¬ Removes cfg k o)) := by
  induction ops with
  | nil =>
    intro d d' _ hr k
    simp [runOps] at hr
    subst hr
    simp [FirstKept]
  | cons op ops ih =>
    intro d d' hw hr k
    simp only [runOps, Option.bind_eq_some_iff] at hr
    obtain ⟨d1, h1, h2⟩ := hr
    have hw1 := step_idx hw h1
    obtain ⟨s1, s2⟩ := step_first hw.idx h1 k
    have hne : d.trie.value k = some 0 → d.tokens ≠ [] := by
      intro hv e
      have := hw.idx k 0 hv
      rw [e] at this; simp at this
    rw [ih hw1 h2 k, s1, s2]
    constructor
    · rintro (⟨⟨a, b⟩, pre, o, post, e, h3, h4, h5⟩ | ⟨⟨a, b⟩ | ⟨a, b⟩, c⟩)
      · refine .inl ⟨a, op :: pre, o, post, by rw [e]; rfl, ?_, h4, h5⟩
        intro x hx
        rcases List.mem_cons.1 hx with rfl | hx
        · exact b
        · exact h3 x hx
      · exact .inl ⟨a, [], op, ops, rfl, by simp, b, c⟩
      · refine .inr ⟨a, ?_⟩
        intro x hx
        rcases List.mem_cons.1 hx with rfl | hx
        · exact b
        · exact c x hx
    · rintro (⟨a, pre, o, post, e, h3, h4, h5⟩ | ⟨a, b⟩)
      · cases pre with
        | nil =>
          simp at e
          obtain ⟨rfl, rfl⟩ := e
          exact .inr ⟨.inl ⟨a, h4⟩, h5⟩
        | cons x pre =>
          simp at e
          obtain ⟨rfl, rfl⟩ := e
          exact .inl ⟨⟨a, h3 op (by simp)⟩, pre, o, post, rfl, fun y hy => h3 y (by simp [hy]), h4, h5⟩
      · exact .inr ⟨.inr ⟨a, b op (by simp)⟩, fun o ho => b o (by simp [ho])⟩

end

/-! ## Routes -/

section
variable {F D : Type} [F64 F] [F32 D] [Narrow F D]

theorem posRoutes_eq {d : Dictionary F D} (h : IdxOK d) (rs : List Rune) :
    ∃ R, posRoutes d rs = some R ∧ RoutesFrom (F64.ofNat 0) d rs 0 R := by
  unfold posRoutes
  rw [getDag_eq h]
  exact calcLoop_eq h rs rs.length (Nat.le_refl _) _ ⟨by simp, by simp [List.lookup_cons], fun j h1 h2 => by omega⟩

theorem posNoHmmLoop_runs {d : Dictionary F D} (hi : IdxOK d) (frags pend : List (List Rune)) (hp : ∀ t ∈ pend, EngPiece t) :
    ∃ gs out, IsRuns EngPiece (pend ++ frags) gs ∧ List.Forall₂ (PosNoHmm d) gs out ∧
      posNoHmmLoop d frags pend.flatten = some out := by
  have hlen : ∀ pend : List (List Rune), (∀ t ∈ pend, EngPiece t) → (pend.flatten.length > 0 ↔ pend ≠ []) := by
    intro pend hp
    cases pend with
    | nil => simp
    | cons t pend =>
      obtain ⟨r, rfl, _⟩ := hp t (by simp)
      simp
  induction frags generalizing pend with
  | nil =>
    unfold posNoHmmLoop engItem
    by_cases he : pend = []
    · subst he
      exact ⟨[], [], runs_nil _, .nil, by simp⟩
    · refine ⟨[pend], _, by simpa using runs_single _ pend he hp, .cons (.eng hp) .nil, ?_⟩
      rw [if_pos ((hlen pend hp).2 he)]
  | cons t frags ih =>
    unfold posNoHmmLoop
    by_cases he : EngPiece t
    · rw [if_pos ((engFrag_iff t).2 he)]
      have := ih (pend ++ [t]) (by
        intro u hu
        rcases List.mem_append.1 hu with hu | hu
        · exact hp u hu
        · simp at hu; subst hu; exact he)
      simpa using this
    · rw [if_neg (mt (engFrag_iff t).1 he), posItem_eq hi]
      obtain ⟨gs, out, h1, h2, h4⟩ := ih [] (by simp)
      have h4 : posNoHmmLoop d frags [] = _ := h4
      have h3 := runs_cons he (by simpa using h1)
      by_cases hpe : pend = []
      · subst hpe
        exact ⟨[t] :: gs, _ :: out, h3, .cons (.word he) h2, by simp [h4, engItem]⟩
      · refine ⟨pend :: [t] :: gs, _ :: _ :: out, runs_run hpe hp he h3, .cons (.eng hp) (.cons (.word he) h2), ?_⟩
        unfold engItem
        rw [if_pos ((hlen pend hp).2 hpe), h4]
        simp

theorem posFlush_out {d : Dictionary F D} (hi : IdxOK d) (detail : Bytes → Option (List SegPos)) (pend : List (List Rune))
    (hp : ∀ t ∈ pend, t.length = 1) (hne : pend ≠ []) (hcut : pend.length ≠ 1 → ∃ o, detail (encode pend.flatten) = some o) :
    ∃ o, posFlush d detail pend.flatten = some o ∧ PosRun d detail pend o := by
  obtain ⟨hl, hm⟩ := flatten_singles pend hp
  have hpos : 0 < pend.length := List.length_pos_iff.2 hne
  unfold posFlush
  rw [if_neg (by omega), hl]
  by_cases h1 : pend.length = 1
  · rw [if_pos h1]
    obtain ⟨t, rfl⟩ := List.length_eq_one_iff.1 h1
    exact ⟨[⟨encode t, tagOf d (encode t)⟩], by simp [posItem_eq hi], .one (hp t (by simp))⟩
  · rw [if_neg h1]
    obtain ⟨o, ho⟩ := hcut h1
    have hne' : pend.flatten ≠ [] := by intro e; rw [e] at hl; simp at hl; omega
    unfold findRunes
    cases hs : storedTok d (encode pend.flatten) with
    | some tok =>
      rw [find_stored hs]
      simp only [Bool.not_true, Bool.false_or]
      cases he : F64.eq tok.freq (F64.ofNat 0) with
      | true => exact ⟨o, by simpa using ho, .hmm (by omega) hp (fun tok' h' => by rw [hs] at h'; simp at h'; exact h' ▸ he) ho⟩
      | false =>
        refine ⟨_, ?_, .known (by omega) hp hs he⟩
        simp only [Bool.false_eq_true, if_false]
        rw [hm]
        have := mapOpt_eq_map (f := posItem d) (g := fun w => ⟨w, tagOf d w⟩) (l := pend.map encode) (fun w _ => posItem_eq hi w)
        rw [this]; simp
    | none =>
      refine ⟨o, ?_, .hmm (by omega) hp (by simp [hs]) ho⟩
      by_cases hn : StartsStored d (encode pend.flatten)
      · rw [find_starts hi (encode_ne_nil hne') hs hn]
        simpa [F64.zero_eq_zero] using ho
      · rw [find_unknown hi hs hn]
        simpa using ho

theorem posHmmLoop_runs {d : Dictionary F D} (hi : IdxOK d) (detail : Bytes → Option (List SegPos))
    (frags pend : List (List Rune)) (hp : ∀ t ∈ pend, t.length = 1) (hfr : ∀ t ∈ frags, t ≠ [])
    (hcut : ∀ g : List (List Rune), 2 ≤ g.length → g <:+: pend ++ frags → (∀ t ∈ g, t.length = 1) → ∃ o, detail (encode g.flatten) = some o) :
    ∃ gs outs, IsRuns (fun t : List Rune => t.length = 1) (pend ++ frags) gs ∧ List.Forall₂ (PosRun d detail) gs outs ∧
      posHmmLoop d detail frags pend.flatten = some outs.flatten := by
  induction frags generalizing pend with
  | nil =>
    unfold posHmmLoop
    by_cases he : pend = []
    · subst he
      exact ⟨[], [], runs_nil _, .nil, by simp [posFlush]⟩
    · obtain ⟨o, h1, h2⟩ := posFlush_out hi detail pend hp he (fun h1 => hcut pend (by
        have : 0 < pend.length := List.length_pos_iff.2 he
        omega) (by simp) hp)
      exact ⟨[pend], [o], by simpa using runs_single _ pend he hp, .cons h2 .nil, by simpa using h1⟩
  | cons t frags ih =>
    unfold posHmmLoop
    by_cases he : t.length = 1
    · rw [if_pos he]
      have := ih (pend ++ [t]) (by
        intro u hu
        rcases List.mem_append.1 hu with hu | hu
        · exact hp u hu
        · simp at hu; subst hu; exact he) (fun u hu => hfr u (by simp [hu])) (by simpa using hcut)
      simpa using this
    · rw [if_neg he]
      obtain ⟨gs, outs, h1, h2, h3⟩ := ih [] (by simp) (fun u hu => hfr u (by simp [hu])) (by
        intro g hg hin
        refine hcut g hg ?_
        simp at hin
        exact hin.trans ((List.suffix_cons t frags).isInfix.trans (List.suffix_append pend _).isInfix))
      have h3 : posHmmLoop d detail frags [] = _ := h3
      have hr := runs_cons (p := fun t : List Rune => t.length = 1) he (by simpa using h1)
      rw [posItem_eq hi]
      by_cases hpe : pend = []
      · subst hpe
        refine ⟨[t] :: gs, [_] :: outs, hr, .cons (.word he) h2, ?_⟩
        simp [posFlush, h3]
      · obtain ⟨o, e1, e2⟩ := posFlush_out hi detail pend hp hpe (fun hl => hcut pend (by
          have : 0 < pend.length := List.length_pos_iff.2 hpe
          omega) (List.prefix_append _ _).isInfix hp)
        refine ⟨pend :: [t] :: gs, o :: [_] :: outs, runs_run hpe hp he hr, .cons e2 (.cons (.word he) h2), ?_⟩
        rw [e1]
        simp [h3]

theorem posNoHmm_join {d : Dictionary F D} {gs : List (List (List Rune))} {out : List SegPos} (h : List.Forall₂ (PosNoHmm d) gs out) :
    (out.map SegPos.text).flatten = encode gs.flatten.flatten := by
  induction h with
  | nil => rfl
  | cons h1 _ ih =>
    rw [List.map_cons, List.flatten_cons, ih, List.flatten_cons, List.flatten_append, encode_append]
    congr 1
    cases h1 with
    | eng _ => rfl
    | word _ => simp

theorem map_encode_flatten (g : List (List Rune)) : (g.map encode).flatten = encode g.flatten := by
  induction g with
  | nil => rfl
  | cons t g ih => simp [ih, encode_append]

theorem posRun_join {d : Dictionary F D} {detail : Bytes → Option (List SegPos)} {gs : List (List (List Rune))} {outs : List (List SegPos)}
    (h : List.Forall₂ (PosRun d detail) gs outs)
    (hd : ∀ g ∈ gs, ∀ o, detail (encode g.flatten) = some o → (o.map SegPos.text).flatten = encode g.flatten) :
    (outs.flatten.map SegPos.text).flatten = encode gs.flatten.flatten := by
  induction h with
  | nil => rfl
  | @cons g o gs outs h1 _ ih =>
    rw [List.flatten_cons, List.map_append, List.flatten_append, ih (fun g' hg' => hd g' (by simp [hg'])), List.flatten_cons,
      List.flatten_append, encode_append]
    congr 1
    cases h1 with
    | word _ => simp
    | one _ => simp
    | known _ _ _ _ =>
      rw [List.map_map]
      exact map_encode_flatten g
    | hmm _ _ _ h => exact hd g (by simp) o h

end
end Gse
