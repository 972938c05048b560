import Verif.Spec.Flags
import Verif.Props.Segment
import Verif.Proofs.Output

/-! # The search in a dictionary made under changing flags -/

namespace Gse
open Spec Trie

set_option linter.unusedSectionVars false

section
variable {F D : Type} [F64 F] [F32 D] [Narrow F D] [Unicode]

/-- Invariant of dictionaries whatever the flags were. -/
structure Loose (d : Dictionary F D) : Prop where
  entry : ∀ k v, d.trie.value k = some v → ∃ t, d.tokens[v]? = some t ∧ t.text.flatten = k
  split : ∀ t ∈ d.tokens, ∃ cfg s, t.text = splitTextToWords cfg s
  maxLen : ∀ t ∈ d.tokens, t.text.length ≤ d.maxTokenLen

theorem Loose.words {d : Dictionary F D} (h : Loose d) : ∀ t ∈ d.tokens, ∀ w ∈ t.text, w ≠ [] := by
  intro t ht w hw
  obtain ⟨cfg, s, e⟩ := h.split t ht
  rw [e] at hw
  exact split_ne_nil cfg s w hw

theorem loose_new : Loose (Dictionary.new : Dictionary F D) := ⟨by simp [Dictionary.new, value], by simp [Dictionary.new], by simp [Dictionary.new]⟩

theorem loose_addToken {d : Dictionary F D} (h : Loose d) (t : Token F D) (ht : ∃ cfg s, t.text = splitTextToWords cfg s) : Loose (d.addToken t).1 := by
  unfold Dictionary.addToken
  dsimp only
  rw [textSliceToBytes_eq, get_eq]
  cases hv : d.trie.value t.text.flatten with
  | some v => exact h
  | none =>
    dsimp only
    cases hi : d.trie.insert t.text.flatten d.numTokens with
    | none => exact h
    | some trie =>
      dsimp only
      refine ⟨?_, ?_, ?_⟩
      · intro k v hk
        simp only at hk ⊢
        rw [value_insert hi] at hk
        split at hk
        · rename_i he
          simp [Dictionary.numTokens] at hk
          subst hk he
          exact ⟨t, by simp, rfl⟩
        · obtain ⟨t', h1, h2⟩ := h.entry k v hk
          have : v < d.tokens.length := (List.getElem?_eq_some_iff.1 h1).1
          exact ⟨t', by rw [List.getElem?_append_left this, h1], h2⟩
      · intro t' ht'
        rcases List.mem_append.1 ht' with h1 | h1
        · exact h.split t' h1
        · simp at h1; subst h1; exact ht
      · intro t' ht'
        rcases List.mem_append.1 ht' with h1 | h1
        · have := h.maxLen t' h1; simp only; split <;> omega
        · simp at h1; subst h1; simp only; split <;> omega

theorem loose_removeToken {d d' : Dictionary F D} {e : Bool} (h : Loose d) (t : Token F D)
    (hr : d.removeToken t = some (d', e)) : Loose d' := by
  unfold Dictionary.removeToken at hr
  split at hr
  · simp at hr; rw [← hr.1]; exact h
  · rename_i t' hd
    simp at hr
    rw [← hr.1]
    refine ⟨?_, h.split, h.maxLen⟩
    intro k v hk
    simp only at hk ⊢
    rw [value_delete hd] at hk
    split at hk
    · simp at hk
    · exact h.entry k v hk
  · simp at hr

theorem SameCore.loose {d d' : Dictionary F D} (h : SameCore d d') (w : Loose d) : Loose d' := by
  refine ⟨?_, ?_, ?_⟩
  · intro k v hv
    rw [h.trie] at hv
    obtain ⟨t, h1, h2⟩ := w.entry k v hv
    obtain ⟨t', h3, h4, _⟩ := h.get_some h1
    exact ⟨t', h3, by rw [h4, h2]⟩
  · intro t ht
    obtain ⟨i, hi⟩ := List.mem_iff_getElem?.1 ht
    obtain ⟨t', h3, h4, _⟩ := h.symm.get_some hi
    rw [← h4]
    exact w.split t' (List.mem_of_getElem? h3)
  · intro t ht
    obtain ⟨i, hi⟩ := List.mem_iff_getElem?.1 ht
    obtain ⟨t', h3, h4, _⟩ := h.symm.get_some hi
    have := w.maxLen t' (List.mem_of_getElem? h3)
    rw [h.maxLen, ← h4]; exact this

theorem loose_step {cfg : SplitCfg} {d d' : Dictionary F D} (h : Loose d) {op : DictOp F} (hs : op.step cfg d = some d') : Loose d' := by
  have hw : ∀ (t : Bytes) (f : F) (p : Bytes), ∃ cfg' s, (toToken cfg t f p : Token F D).text = splitTextToWords cfg' s := fun t _ _ => ⟨cfg, t, rfl⟩
  cases op with
  | add t f p =>
    simp [DictOp.step] at hs
    subst hs
    exact loose_addToken h _ (hw t f p)
  | addForce t f p =>
    simp only [DictOp.step, segAddTokenForce, Option.map_map, Option.map_eq_some_iff] at hs
    obtain ⟨d2, h1, h2⟩ := hs
    simp at h2; subst h2
    exact (calcToken_same h1).loose (loose_addToken h _ (hw t f p))
  | remove t =>
    simp only [DictOp.step, segRemoveToken, Option.map_eq_some_iff] at hs
    obtain ⟨⟨d2, e⟩, h1, h2⟩ := hs
    simp at h2; subst h2
    exact loose_removeToken h _ h1
  | reAdd t f p =>
    simp only [DictOp.step, segReAddToken, Option.map_eq_some_iff] at hs
    obtain ⟨⟨d2, e⟩, h1, h2⟩ := hs
    simp at h2; subst h2
    cases hr : d.removeToken (toToken cfg t f p) with
    | none => simp [hr] at h1
    | some x =>
      obtain ⟨d3, e3⟩ := x
      have h3 := loose_removeToken h _ hr
      rw [hr] at h1
      cases e3 with
      | true => simp at h1; rw [← h1.1]; exact h3
      | false =>
        simp at h1
        have : d2 = (d3.addToken (toToken cfg t f p)).1 := by rw [h1]
        rw [this]
        exact loose_addToken h3 _ (hw t f p)
  | recalc =>
    simp only [DictOp.step] at hs
    exact (calcToken_same hs).loose h

theorem loose_run (ops : List (SplitCfg × DictOp F)) : ∀ {d d' : Dictionary F D}, Loose d → runMixed ops d = some d' → Loose d' := by
  induction ops with
  | nil => intro d d' h hr; simp [runMixed] at hr; subst hr; exact h
  | cons op ops ih =>
    intro d d' h hr
    simp only [runMixed, Option.bind_eq_some_iff] at hr
    obtain ⟨d1, h1, h2⟩ := hr
    exact ih (loose_step h h1) h2

/-! ## What is stored -/

/-- The dictionary stores what the history says. -/
structure LRep (d : Dictionary F D) (m : Entries F) : Prop where
  loose : Loose d
  content : ∀ k, (d.trie.value k).bind (fun v => (d.tokens[v]?).map fun t => (t.text, t.freq, t.pos)) = m k

theorem LRep.value_none_iff {d : Dictionary F D} {m : Entries F} (h : LRep d m) (k : Bytes) : d.trie.value k = none ↔ m k = none := by
  rw [← h.content k]
  cases hv : d.trie.value k with
  | none => simp
  | some v =>
    obtain ⟨t, h1, _⟩ := h.loose.entry k v hv
    simp [h1]

theorem LRep.same {d d' : Dictionary F D} {m : Entries F} (h : LRep d m) (s : SameCore d d') : LRep d' m := by
  refine ⟨s.loose h.loose, ?_⟩
  intro k
  rw [← h.content k, s.trie]
  congr 1
  funext v
  have := s.get v
  revert this
  cases d.tokens[v]? <;> cases d'.tokens[v]? <;> simp [Token.core]

theorem lrep_add {cfg : SplitCfg} {d : Dictionary F D} {m : Entries F} (h : LRep d m)
    (t : Bytes) (f : F) (p : Bytes) (hl : d.numTokens < Trie.valueLimit) :
    LRep (segAddToken cfg d t f p).1 (m.add cfg t f p) := by
  have hwf := loose_addToken h.loose (toToken cfg t f p) ⟨cfg, t, rfl⟩
  unfold segAddToken at *
  revert hwf
  unfold Dictionary.addToken Entries.add
  dsimp only
  rw [textSliceToBytes_eq, get_eq]
  have hk : (toToken (D := D) cfg t f p).text.flatten = normText cfg t := flatten_split cfg t
  rw [hk]
  cases hv : d.trie.value (normText cfg t) with
  | some v =>
    intro _
    have : m (normText cfg t) ≠ none := by
      intro hc
      rw [(h.value_none_iff _).2 hc] at hv; simp at hv
    cases hm : m (normText cfg t) with
    | none => exact absurd hm this
    | some e => exact h
  | none =>
    rw [(h.value_none_iff _).1 hv]
    dsimp only
    cases hi : d.trie.insert (normText cfg t) d.numTokens with
    | none => simp [Trie.insert, hl] at hi
    | some trie =>
      dsimp only
      intro hwf
      refine ⟨hwf, ?_⟩
      intro k
      simp only
      rw [value_insert hi]
      split
      · simp [Dictionary.numTokens, toToken]
      · rw [← h.content k]
        cases hv' : d.trie.value k with
        | none => rfl
        | some v =>
          have := Dictionary.idx_of_entry h.loose.entry k v hv'
          simp [List.getElem?_append_left this]

theorem lrep_remove {cfg : SplitCfg} {d d' : Dictionary F D} {m : Entries F} (h : LRep d m)
    (tok : Token F D) (t : Bytes) (htok : tok.text = splitTextToWords cfg t) {e : Bool}
    (hr : d.removeToken tok = some (d', e)) :
    LRep d' (m.remove cfg t) ∧ (e = true ↔ m (normText cfg t) = none) ∧ d'.tokens = d.tokens ∧ (e = true → d' = d) := by
  have hwf := loose_removeToken h.loose tok hr
  unfold Dictionary.removeToken at hr
  rw [textSliceToBytes_eq, htok, flatten_split] at hr
  rcases delete_cases d.trie (normText cfg t) with ⟨h1, h2⟩ | ⟨v, t', h1, h2⟩ | ⟨_, _, h2⟩
  · rw [h2] at hr
    simp at hr
    obtain ⟨rfl, rfl⟩ := hr
    have hv : d.trie.value (normText cfg t) = none := by
      cases hv : d.trie.value (normText cfg t) with
      | none => rfl
      | some v => rw [isNode_of_value hv] at h1; simp at h1
    have hm := (h.value_none_iff _).1 hv
    refine ⟨⟨hwf, ?_⟩, by simp [hm], rfl, fun _ => rfl⟩
    intro k
    rw [h.content k]
    simp only [Entries.remove]
    split
    · rename_i e; rw [e, hm]
    · rfl
  · rw [h2] at hr
    simp at hr
    obtain ⟨rfl, rfl⟩ := hr
    have hm : m (normText cfg t) ≠ none := by
      intro hc
      rw [(h.value_none_iff _).2 hc] at h1; simp at h1
    refine ⟨⟨hwf, ?_⟩, by simp [hm], rfl, by simp⟩
    intro k
    simp only [Entries.remove]
    rw [value_delete h2]
    split
    · rfl
    · rw [← h.content k]
  · rw [h2] at hr; simp at hr

theorem lrep_step {cfg : SplitCfg} {d d' : Dictionary F D} {m : Entries F} (h : LRep d m)
    (hl : d.numTokens < Trie.valueLimit) {op : DictOp F} (hs : op.step cfg d = some d') :
    LRep d' (m.step (cfg, op)) ∧ d'.numTokens ≤ d.numTokens + 1 := by
  cases op with
  | add t f p =>
    simp [DictOp.step] at hs
    subst hs
    exact ⟨lrep_add h t f p hl, addToken_numTokens d _⟩
  | addForce t f p =>
    simp only [DictOp.step, segAddTokenForce, Option.map_map, Option.map_eq_some_iff] at hs
    obtain ⟨d2, h1, h2⟩ := hs
    simp at h2; subst h2
    have := calcToken_same h1
    refine ⟨(lrep_add h t f p hl).same this, ?_⟩
    have h3 := addToken_numTokens d (toToken cfg t f p)
    simp only [Dictionary.numTokens, this.length] at h3 ⊢
    exact h3
  | remove t =>
    simp only [DictOp.step, segRemoveToken, Option.map_eq_some_iff] at hs
    obtain ⟨⟨d2, e⟩, h1, h2⟩ := hs
    simp at h2; subst h2
    obtain ⟨h3, _, h4, _⟩ := lrep_remove h _ t rfl h1
    exact ⟨h3, by simp [Dictionary.numTokens, h4]⟩
  | reAdd t f p =>
    simp only [DictOp.step, segReAddToken, Option.map_eq_some_iff] at hs
    obtain ⟨⟨d2, e⟩, h1, h2⟩ := hs
    simp at h2; subst h2
    cases hr : d.removeToken (toToken cfg t f p) with
    | none => simp [hr] at h1
    | some x =>
      obtain ⟨d3, e3⟩ := x
      obtain ⟨h3, h5, h4, h6⟩ := lrep_remove h _ t rfl hr
      rw [hr] at h1
      cases e3 with
      | true =>
        simp at h1
        obtain ⟨rfl, _⟩ := h1
        have := h6 rfl
        subst this
        simp only [Entries.step, h5.1 rfl]
        exact ⟨h, by omega⟩
      | false =>
        simp at h1
        have hm : m (normText cfg t) ≠ none := by
          intro hc; have := h5.2 hc; simp at this
        have hn3 : d3.numTokens = d.numTokens := by simp [Dictionary.numTokens, h4]
        have hd2 : d2 = (d3.addToken (toToken cfg t f p)).1 := by rw [h1]
        constructor
        · simp only [Entries.step]
          cases hc : m (normText cfg t) with
          | none => exact absurd hc hm
          | some _ =>
            dsimp only
            rw [hd2]
            exact lrep_add h3 t f p (by omega)
        · rw [hd2, ← hn3]; exact addToken_numTokens d3 _
  | recalc =>
    simp only [DictOp.step] at hs
    have := calcToken_same hs
    exact ⟨h.same this, by simp [Dictionary.numTokens, this.length]⟩

theorem lrep_run (ops : List (SplitCfg × DictOp F)) : ∀ {d d' : Dictionary F D} {m : Entries F}, LRep d m →
    d.numTokens + ops.length ≤ Trie.valueLimit → runMixed ops d = some d' → LRep d' (ops.foldl Entries.step m) := by
  induction ops with
  | nil => intro d d' m h _ hr; simp [runMixed] at hr; subst hr; exact h
  | cons op ops ih =>
    intro d d' m h hl hr
    simp only [runMixed, Option.bind_eq_some_iff] at hr
    obtain ⟨d1, h1, h2⟩ := hr
    simp only [List.length_cons] at hl
    obtain ⟨h3, h4⟩ := lrep_step h (by omega) h1
    exact ih h3 (by omega) h2

/-! ## The table -/

theorem Loose.stored {d : Dictionary F D} (h : Loose d) {k : Bytes} {v : Nat} (hv : d.trie.value k = some v) :
    ∃ t, d.tokens[v]? = some t ∧ storedTok d k = some t ∧ t.text.flatten = k := by
  obtain ⟨t, h1, h2⟩ := h.entry k v hv
  exact ⟨t, h1, by simp [storedTok, hv, h1], h2⟩

/-- What an entry of the table is, seen from the front of its token. -/
def CellOK (d : Dictionary F D) (ws : List Bytes) (l : Nat) (r : TokRef) : Prop :=
  ∃ t, d.deref r = some t ∧ t.text ≠ [] ∧ t.text.length ≤ l + 1 ∧
    ((∃ m, 0 < m ∧ l + 1 - t.text.length + m ≤ ws.length ∧ storedTok d (slice ws (l + 1 - t.text.length) (l + 1 - t.text.length + m)).flatten = some t) ∨
     (∃ w, ws[l]? = some w ∧ t = unknownTok w ∧ ∀ t', storedTok d w = some t' → 1 < t'.text.length))

structure SInv (d : Dictionary F D) (ws : List Bytes) (js : List (Jumper D)) : Prop where
  len : js.length = ws.length
  cell : ∀ (l : Nat) (j : Jumper D), js[l]? = some j → (j.token = none ∧ j.minDistance = F32.zero) ∨ ∃ r, j.token = some r ∧ CellOK d ws l r

/-- The entry at `l` has a token. -/
def HasTok (js : List (Jumper D)) (l : Nat) : Prop := ∃ j r, js[l]? = some j ∧ j.token = some r

theorem updateJumper_inv {d : Dictionary F D} {ws : List Bytes} {js : List (Jumper D)} (h : SInv d ws js) {l : Nat} {j : Jumper D}
    (hj : js[l]? = some j) (base : D) (r : TokRef) (dist : D) (hr : CellOK d ws l r) :
    SInv d ws (js.set l (updateJumper j base r dist)) ∧ HasTok (js.set l (updateJumper j base r dist)) l ∧
      ∀ i, HasTok js i → HasTok (js.set l (updateJumper j base r dist)) i := by
  have hl : l < js.length := (List.getElem?_eq_some_iff.1 hj).1
  have key : ∃ r', (updateJumper j base r dist).token = some r' ∧ CellOK d ws l r' := by
    unfold updateJumper
    dsimp only
    split
    · exact ⟨r, rfl, hr⟩
    · next hno =>
      rcases h.cell l j hj with ⟨_, h2⟩ | h2
      · rw [h2, F32.isZero_zero] at hno; simp at hno
      · exact h2
  refine ⟨⟨by simp [h.len], ?_⟩, ?_, ?_⟩
  · intro i j' hj'
    by_cases e : l = i
    · subst e
      rw [List.getElem?_set_self hl] at hj'
      obtain rfl := Option.some.inj hj'
      exact .inr key
    · rw [List.getElem?_set_ne e] at hj'
      exact h.cell i j' hj'
  · obtain ⟨r', h1, _⟩ := key
    exact ⟨_, r', List.getElem?_set_self hl, h1⟩
  · rintro i ⟨j', r', h1, h2⟩
    by_cases e : l = i
    · subst e
      obtain ⟨r'', h3, _⟩ := key
      exact ⟨_, r'', List.getElem?_set_self hl, h3⟩
    · exact ⟨j', r', by rw [List.getElem?_set_ne e]; exact h1, h2⟩

theorem updateAll_loose {d : Dictionary F D} {ws : List Bytes} (sm : Bool) (c : Nat) (base : D) (hc : c < ws.length) :
    ∀ (vs : List Nat) (js : List (Jumper D)), SInv d ws js →
    (∀ v ∈ vs, ∃ t m, d.tokens[v]? = some t ∧ t.text ≠ [] ∧ 0 < m ∧ c + m ≤ ws.length ∧ storedTok d (slice ws c (c + m)).flatten = some t) →
    (updateAll d ws.length sm c base vs js = none ∧ ∃ v ∈ vs, ∃ t, d.tokens[v]? = some t ∧ ws.length < c + t.text.length) ∨
    ((∀ v ∈ vs, ∀ t, d.tokens[v]? = some t → c + t.text.length ≤ ws.length) ∧ ∃ js', updateAll d ws.length sm c base vs js = some js' ∧ SInv d ws js' ∧
      (∀ i, HasTok js i → HasTok js' i) ∧
      ∀ v ∈ vs, ∀ t, d.tokens[v]? = some t → ¬ (sm = true ∧ c = 0 ∧ t.text.length = ws.length) → HasTok js' (c + t.text.length - 1)) := by
  intro vs
  induction vs with
  | nil => intro js h _; exact .inr ⟨by simp, js, rfl, h, fun _ h => h, by simp⟩
  | cons v vs ih =>
    intro js h hv
    obtain ⟨t, m, h1, h2, h3, h4, h5⟩ := hv v (by simp)
    have hpos : 0 < t.text.length := List.length_pos_iff.2 h2
    have hv' : ∀ v ∈ vs, ∃ t m, d.tokens[v]? = some t ∧ t.text ≠ [] ∧ 0 < m ∧ c + m ≤ ws.length ∧ storedTok d (slice ws c (c + m)).flatten = some t :=
      fun x hx => hv x (by simp [hx])
    rw [updateAll, h1]
    dsimp only
    by_cases hskip : sm = true ∧ c = 0 ∧ t.text.length = ws.length
    · rw [if_neg (by obtain ⟨rfl, rfl, e⟩ := hskip; simp [e])]
      rcases ih js h hv' with ⟨e1, x, hx, t', e2, e3⟩ | ⟨e0, js', e1, e2, e3, e4⟩
      · exact .inl ⟨e1, x, by simp [hx], t', e2, e3⟩
      · refine .inr ⟨?_, js', e1, e2, e3, ?_⟩
        · intro x hx t' ht'
          rcases List.mem_cons.1 hx with rfl | hx
          · rw [h1] at ht'; obtain rfl := Option.some.inj ht'; omega
          · exact e0 x hx t' ht'
        · intro x hx t' ht' hn
          rcases List.mem_cons.1 hx with rfl | hx
          · rw [h1] at ht'; obtain rfl := Option.some.inj ht'; exact absurd hskip hn
          · exact e4 x hx t' ht' hn
    · rw [if_pos (by
        by_cases e1 : sm = true
        · by_cases e2 : c = 0
          · have : t.text.length ≠ ws.length := fun e => hskip ⟨e1, e2, e⟩
            simp [e2, this]
          · simp [e2]
        · simp [e1]), if_neg (by omega)]
      by_cases hov : ws.length < c + t.text.length
      · rw [List.getElem?_eq_none (by rw [h.len]; omega)]
        exact .inl ⟨rfl, v, by simp, t, h1, hov⟩
      · obtain ⟨j, hj⟩ : ∃ j, js[c + t.text.length - 1]? = some j := ⟨_, List.getElem?_eq_getElem (by rw [h.len]; omega)⟩
        rw [hj]
        dsimp only
        have hcell : CellOK d ws (c + t.text.length - 1) (.idx v) := by
          refine ⟨t, h1, h2, by omega, .inl ⟨m, h3, ?_, ?_⟩⟩
          · omega
          · rwa [show c + t.text.length - 1 + 1 - t.text.length = c by omega]
        obtain ⟨g1, g2, g3⟩ := updateJumper_inv h hj base (.idx v) t.distance hcell
        rcases ih _ g1 hv' with ⟨e1, x, hx, t', e2, e3⟩ | ⟨e0, js', e1, e2, e3, e4⟩
        · exact .inl ⟨e1, x, by simp [hx], t', e2, e3⟩
        · refine .inr ⟨?_, js', e1, e2, fun i hi => e3 i (g3 i hi), ?_⟩
          · intro x hx t' ht'
            rcases List.mem_cons.1 hx with rfl | hx
            · rw [h1] at ht'; obtain rfl := Option.some.inj ht'; omega
            · exact e0 x hx t' ht'
          · intro x hx t' ht' hn
            rcases List.mem_cons.1 hx with rfl | hx
            · rw [h1] at ht'; obtain rfl := Option.some.inj ht'; exact e3 _ g2
            · exact e4 x hx t' ht' hn

/-- Overshooting from word `c`. -/
def OverAt (d : Dictionary F D) (ws : List Bytes) (c : Nat) : Prop :=
  ∃ m t, 0 < m ∧ c + m ≤ ws.length ∧ storedTok d (slice ws c (c + m)).flatten = some t ∧ ws.length < c + t.text.length

theorem overshoots_iff {d : Dictionary F D} {ws : List Bytes} : Overshoots d ws ↔ ∃ c, c < ws.length ∧ OverAt d ws c := by
  constructor
  · rintro ⟨a, run, b, t, rfl, h1, h2, h3⟩
    have hp := List.length_pos_iff.2 h1
    refine ⟨a.length, by simp; omega, run.length, t, hp, by simp, ?_, h3⟩
    rw [slice, List.append_assoc, List.drop_left, Nat.add_sub_cancel_left, List.take_left]
    exact h2
  · rintro ⟨c, hc, m, t, h1, h2, h3, h4⟩
    refine ⟨ws.take c, slice ws c (c + m), ws.drop (c + m), t, split_slice ws c (c + m) (by omega), ?_, h3, ?_⟩
    · intro e
      have := congrArg List.length e
      rw [slice_length _ _ _ h2] at this
      simp at this; omega
    · rw [List.length_take]; omega

theorem segStep_loose {d : Dictionary F D} (hd : Loose d) {ws : List Bytes} (hw : ∀ w ∈ ws, w ≠ []) (sm : Bool) (hsm : ¬ (sm = true ∧ ws.length = 1)) (c : Nat)
    (hc : c < ws.length) (js : List (Jumper D)) (h : SInv d ws js) (hset : ∀ i, i < c → HasTok js i) :
    (segStep d ws sm c js = none ∧ OverAt d ws c) ∨
    (¬ OverAt d ws c ∧ ∃ js', segStep d ws sm c js = some js' ∧ SInv d ws js' ∧ ∀ i, i < c + 1 → HasTok js' i) := by
  obtain ⟨base, hb⟩ : ∃ b, baseDistance js c = some b := by
    unfold baseDistance
    split
    · exact ⟨_, rfl⟩
    · rw [List.getElem?_eq_getElem (by rw [h.len]; omega)]; exact ⟨_, rfl⟩
  have hidx := Dictionary.idx_of_entry hd.entry
  have hlen : (slice ws c (min (c + d.maxTokenLen) ws.length)).length ≤ d.maxTokenLen := by
    rw [slice_length _ _ _ (by omega)]; omega
  have hlk := Dictionary.lookup_eq hidx _ _ hlen
  have hfound : ∀ v, v ∈ ((List.range (slice ws c (min (c + d.maxTokenLen) ws.length)).length).filterMap fun n =>
      d.trie.value ((slice ws c (min (c + d.maxTokenLen) ws.length)).take (n + 1)).flatten) ↔
      ∃ m, 0 < m ∧ m ≤ d.maxTokenLen ∧ c + m ≤ ws.length ∧ d.trie.value (slice ws c (c + m)).flatten = some v := by
    intro v
    rw [List.mem_filterMap]
    constructor
    · rintro ⟨n, hn, hv⟩
      rw [List.mem_range, slice_length _ _ _ (by omega)] at hn
      rw [take_slice _ _ _ _ (by omega)] at hv
      exact ⟨n + 1, by omega, by omega, by omega, hv⟩
    · rintro ⟨m, h1, h2, h3, h4⟩
      refine ⟨m - 1, ?_, ?_⟩
      · rw [List.mem_range, slice_length _ _ _ (by omega)]; omega
      · rw [show m - 1 + 1 = m by omega, take_slice _ _ _ _ (by omega)]; exact h4
  generalize hF : ((List.range (slice ws c (min (c + d.maxTokenLen) ws.length)).length).filterMap fun n =>
      d.trie.value ((slice ws c (min (c + d.maxTokenLen) ws.length)).take (n + 1)).flatten) = found at hlk hfound
  have hall : ∀ v ∈ found, ∃ t m, d.tokens[v]? = some t ∧ t.text ≠ [] ∧ 0 < m ∧ c + m ≤ ws.length ∧ storedTok d (slice ws c (c + m)).flatten = some t := by
    intro v hv
    obtain ⟨m, h1, _, h2, h3⟩ := (hfound v).1 hv
    obtain ⟨t, g1, g2, g3⟩ := hd.stored h3
    refine ⟨t, m, g1, ?_, h1, h2, g2⟩
    intro e
    rw [e] at g3
    obtain ⟨w, rest, e2⟩ : ∃ w rest, slice ws c (c + m) = w :: rest := by
      cases e2 : slice ws c (c + m) with
      | nil => have := congrArg List.length e2; rw [slice_length _ _ _ h2] at this; simp at this; omega
      | cons w rest => exact ⟨w, rest, rfl⟩
    rw [e2] at g3
    have : w ∈ ws := by
      have : w ∈ slice ws c (c + m) := by rw [e2]; simp
      exact List.mem_of_mem_drop (List.mem_of_mem_take this)
    have := hw w this
    simp at g3
    exact this g3.1
  have over : OverAt d ws c ↔ ∃ v ∈ found, ∃ t, d.tokens[v]? = some t ∧ ws.length < c + t.text.length := by
    constructor
    · rintro ⟨m, t, h1, h2, h3, h4⟩
      obtain ⟨v, hv, ht⟩ := Option.bind_eq_some_iff.1 h3
      have := hd.maxLen t (List.mem_of_getElem? ht)
      exact ⟨v, (hfound v).2 ⟨m, h1, by omega, h2, hv⟩, t, ht, h4⟩
    · rintro ⟨v, hv, t, ht, h4⟩
      obtain ⟨m, h1, _, h2, h3⟩ := (hfound v).1 hv
      exact ⟨m, t, h1, h2, by simp [storedTok, h3, ht], h4⟩
  have hstep : segStep d ws sm c js = (updateAll d ws.length sm c base found js).bind fun js => (needPseudo d found).bind fun need =>
      bif need then addPseudo ws c base js else some js := by
    simp only [segStep, hb, hlk, Option.bind_eq_bind, Option.bind_some]
  rcases updateAll_loose sm c base hc found js h hall with ⟨e1, e2⟩ | ⟨e0, js1, e1, e2, e3, e4⟩
  · exact .inl ⟨by rw [hstep, e1]; rfl, over.2 e2⟩
  · refine .inr ⟨?_, ?_⟩
    · rw [over]
      rintro ⟨v, hv, t, ht, h4⟩
      have := e0 v hv t ht
      omega
    rw [hstep, e1, Option.bind_some]
    have pseudo : (∀ t', storedTok d ws[c] = some t' → 1 < t'.text.length) → ∃ js', addPseudo ws c base js1 = some js' ∧ SInv d ws js' ∧ ∀ i, i < c + 1 → HasTok js' i := by
      intro hunk
      obtain ⟨j, hj⟩ : ∃ j, js1[c]? = some j := ⟨_, List.getElem?_eq_getElem (by rw [e2.len]; exact hc)⟩
      have hcell : CellOK d ws c (.pseudo ws[c]) := ⟨_, rfl, by simp, by simp, .inr ⟨ws[c], List.getElem?_eq_getElem hc, rfl, hunk⟩⟩
      obtain ⟨g1, g2, g3⟩ := updateJumper_inv e2 hj base (.pseudo ws[c]) F32.c32 hcell
      refine ⟨_, by simp only [addPseudo, List.getElem?_eq_getElem hc, hj, Option.bind_eq_bind, Option.bind_some], g1, ?_⟩
      intro i hi
      rcases Nat.lt_succ_iff_lt_or_eq.1 hi with hi | rfl
      · exact g3 i (e3 i (hset i hi))
      · exact g2
    have hone : ∀ t', storedTok d ws[c] = some t' → ∃ v vs, found = v :: vs ∧ d.tokens[v]? = some t' := by
      intro t' ht'
      obtain ⟨v, hv, ht⟩ := Option.bind_eq_some_iff.1 ht'
      obtain ⟨t2, g1, _, g3⟩ := hd.stored hv
      rw [ht] at g1
      obtain rfl := Option.some.inj g1
      have hne : t'.text ≠ [] := by
        intro e
        rw [e] at g3
        exact hw _ (List.getElem_mem hc) g3.symm
      have := hd.maxLen t' (List.mem_of_getElem? ht)
      have := List.length_pos_iff.2 hne
      have hpos : 0 < (slice ws c (min (c + d.maxTokenLen) ws.length)).length := by rw [slice_length _ _ _ (by omega)]; omega
      obtain ⟨n, hn⟩ : ∃ n, (slice ws c (min (c + d.maxTokenLen) ws.length)).length = n + 1 := ⟨_, (Nat.succ_pred_eq_of_pos hpos).symm⟩
      have h1 : ((slice ws c (min (c + d.maxTokenLen) ws.length)).take (0 + 1)).flatten = ws[c] := by
        rw [take_slice _ _ _ _ (by omega), slice, show c + (0 + 1) - c = 1 by omega, List.drop_eq_getElem_cons hc]
        simp only [List.take_succ_cons, List.take_zero, List.flatten_cons, List.flatten_nil, List.append_nil]
      rw [hn, List.range_succ_eq_map, List.filterMap_cons, h1, hv] at hF
      exact ⟨v, _, hF.symm, ht⟩
    cases found with
    | nil => simpa [needPseudo] using pseudo fun t' ht' => by obtain ⟨v, vs, e, _⟩ := hone t' ht'; cases e
    | cons v vs =>
      obtain ⟨t, m, h1, h2, h3, h4, h5⟩ := hall v (by simp)
      simp only [needPseudo, h1, Option.map_some, Option.bind_some]
      by_cases hl : t.text.length > 1
      · rw [decide_eq_true hl]
        refine pseudo fun t' ht' => ?_
        obtain ⟨v', vs', e, e'⟩ := hone t' ht'
        cases e
        rw [h1] at e'
        obtain rfl := Option.some.inj e'
        exact hl
      · rw [decide_eq_false hl]
        have hpos : 0 < t.text.length := List.length_pos_iff.2 h2
        have h1' : t.text.length = 1 := by omega
        refine ⟨js1, rfl, e2, ?_⟩
        intro i hi
        rcases Nat.lt_succ_iff_lt_or_eq.1 hi with hi | rfl
        · exact e3 i (hset i hi)
        · have := e4 v (by simp) t h1 (by rintro ⟨a, _, b⟩; exact hsm ⟨a, by omega⟩)
          rwa [h1', Nat.add_sub_cancel] at this

theorem segLoop_loose {d : Dictionary F D} (hd : Loose d) {ws : List Bytes} (hw : ∀ w ∈ ws, w ≠ []) (sm : Bool) (hsm : ¬ (sm = true ∧ ws.length = 1)) :
    ∀ (k c : Nat) (js : List (Jumper D)), c + k = ws.length → SInv d ws js → (∀ i, i < c → HasTok js i) →
    (segLoop d ws sm k c js = none ∧ ∃ c', c ≤ c' ∧ c' < ws.length ∧ OverAt d ws c') ∨
    ((∀ c', c ≤ c' → c' < ws.length → ¬ OverAt d ws c') ∧ ∃ js', segLoop d ws sm k c js = some js' ∧ SInv d ws js' ∧ ∀ i, i < ws.length → HasTok js' i) := by
  intro k
  induction k with
  | zero =>
    intro c js hc h hset
    exact .inr ⟨by omega, js, rfl, h, fun i hi => hset i (by omega)⟩
  | succ k ih =>
    intro c js hc h hset
    rcases segStep_loose hd hw sm hsm c (by omega) js h hset with ⟨e1, e2⟩ | ⟨e0, js1, e1, e2, e3⟩
    · exact .inl ⟨by simp [segLoop, e1], c, Nat.le_refl _, by omega, e2⟩
    · rcases ih (c + 1) js1 (by omega) e2 e3 with ⟨g1, c', g2, g3, g4⟩ | ⟨g0, js', g1, g2, g3⟩
      · exact .inl ⟨by simp [segLoop, e1, g1], c', by omega, g3, g4⟩
      · refine .inr ⟨?_, js', by simp [segLoop, e1, g1], g2, g3⟩
        intro c' h1 h2
        by_cases e : c' = c
        · subst e; exact e0
        · exact g0 c' (by omega) h2

theorem backtrack_loose {d : Dictionary F D} {ws : List Bytes} {js : List (Jumper D)} (h : SInv d ws js) (hset : ∀ i, i < ws.length → HasTok js i)
    (k : Nat) (hk : k ≤ ws.length) :
    ∃ refs : List TokRef,
      (∀ fuel num, k ≤ fuel → countSegs d js fuel k num = some (num + refs.length)) ∧
      (∀ fuel (A B : List TokRef), k ≤ fuel → A.length = refs.length → fillSegs d js fuel k refs.length (A ++ B) = some (refs ++ B)) ∧
      ∀ ts', LooseRoute d (ws.drop k) ts' → ∃ ts, refs.map d.deref = ts.map some ∧ (∀ t ∈ ts, t.text ≠ [] ∧ ((∃ v : Nat, d.tokens[v]? = some t) ∨ ∃ w ∈ ws, t = unknownTok w)) ∧ LooseRoute d ws (ts ++ ts') := by
  induction k using Nat.strongRecOn with
  | ind k ih =>
    cases k with
    | zero =>
      refine ⟨[], ?_, ?_, ?_⟩
      · intro fuel num _; cases fuel <;> simp [countSegs]
      · intro fuel A B _ hA
        have : A = [] := List.length_eq_zero_iff.1 (by simpa using hA)
        subst this
        cases fuel <;> simp [fillSegs]
      · intro ts' h'; exact ⟨[], rfl, by simp, by simpa using h'⟩
    | succ l =>
      obtain ⟨j, r, hj, htok⟩ := hset l (by omega)
      obtain ⟨t, hd, hne, hle, hcase⟩ : CellOK d ws l r := by
        rcases h.cell l j hj with ⟨e, _⟩ | ⟨r', e, hc⟩
        · rw [htok] at e; cases e
        · rw [htok] at e; obtain rfl := Option.some.inj e; exact hc
      have hpos : 0 < t.text.length := List.length_pos_iff.2 hne
      obtain ⟨refs, hcount, hfill, hroute⟩ := ih (l + 1 - t.text.length) (by omega) (by omega)
      refine ⟨refs ++ [r], ?_, ?_, ?_⟩
      · intro fuel num hf
        cases fuel with
        | zero => omega
        | succ f =>
          simp only [countSegs, hj, Option.bind_eq_bind, Option.bind_some, htok, hd]
          rw [hcount f (num + 1) (by omega)]
          simp; omega
      · intro fuel A B hf hA
        cases fuel with
        | zero => omega
        | succ f =>
          simp only [List.length_append, List.length_cons, List.length_nil, Nat.zero_add] at hA ⊢
          simp only [fillSegs, hj, Option.bind_eq_bind, Option.bind_some, htok, hd]
          rw [if_neg (by simp; omega)]
          have hAne : A ≠ [] := by intro e; subst e; simp at hA
          obtain ⟨A', x, rfl⟩ := List.eq_nil_or_concat A |>.resolve_left hAne
          simp only [List.concat_eq_append, List.length_append, List.length_cons, List.length_nil, Nat.zero_add, Nat.add_right_cancel_iff] at hA
          have hset : (A'.concat x ++ B).set (refs.length + 1 - 1) r = A' ++ (r :: B) := by
            simp only [List.concat_eq_append, Nat.add_sub_cancel, List.append_assoc, List.cons_append, List.nil_append]
            rw [List.set_append_right _ _ (by omega)]
            simp [hA]
          rw [hset, Nat.add_sub_cancel, hfill f A' (r :: B) (by omega) hA]
          simp
      · intro ts' h'
        have hr : LooseRoute d (ws.drop (l + 1 - t.text.length)) (t :: ts') := by
          rcases hcase with ⟨m, h1, h2, h3⟩ | ⟨w, h1, rfl, hunk⟩
          · refine .stored (run := slice ws (l + 1 - t.text.length) (l + 1 - t.text.length + m)) ?_ ?_ h3 ?_ ?_
            · intro e
              have := congrArg List.length e
              rw [slice_length _ _ _ h2] at this
              simp at this; omega
            · exact List.take_prefix _ _
            · rw [List.length_drop]; omega
            · rw [List.drop_drop, show l + 1 - t.text.length + t.text.length = l + 1 by omega]; exact h'
          · obtain ⟨hl, e⟩ := List.getElem?_eq_some_iff.1 h1
            rw [show l + 1 - (unknownTok w : Token F D).text.length = l from rfl, List.drop_eq_getElem_cons hl, e]
            exact .unknown hunk h'
        obtain ⟨ts, h1, h2, h3⟩ := hroute (t :: ts') hr
        refine ⟨ts ++ [t], by simp [h1, hd], ?_, by simpa using h3⟩
        intro t' ht'
        rcases List.mem_append.1 ht' with e | e
        · exact h2 t' e
        · simp at e; subst e
          refine ⟨hne, ?_⟩
          rcases hcase with ⟨m, _, _, h3⟩ | ⟨w, h1, e, _⟩
          · obtain ⟨v, _, ht⟩ := Option.bind_eq_some_iff.1 h3
            exact .inl ⟨v, ht⟩
          · exact .inr ⟨w, List.mem_of_getElem? h1, e⟩

/-- The whole search: it panics exactly if some entry overshoots; otherwise it returns what the code takes for a way through the text. -/
theorem segmentWords_loose {d : Dictionary F D} (hd : Loose d) {ws : List Bytes} (hw : ∀ w ∈ ws, w ≠ []) (sm : Bool) (hsm : ¬ (sm = true ∧ ws.length = 1)) :
    (segmentWords (some d) ws sm = none ∧ Overshoots d ws) ∨
    (¬ Overshoots d ws ∧ ∃ segs ts, segmentWords (some d) ws sm = some segs ∧ LooseRoute d ws ts ∧
      segs.map (fun g => d.deref g.tok) = ts.map some ∧ Tiles 0 (wordsOf ts).flatten.length segs) := by
  have h0 : SInv d ws (List.replicate ws.length (⟨F32.zero, none⟩ : Jumper D)) := by
    refine ⟨by simp, ?_⟩
    intro l j hj
    rw [List.getElem?_replicate] at hj
    split at hj
    · obtain rfl := Option.some.inj hj; exact .inl ⟨rfl, rfl⟩
    · cases hj
  have hif : ¬ (sm && ws.length == 1) = true := by simpa using hsm
  rcases segLoop_loose hd hw sm hsm ws.length 0 _ (by omega) h0 (by omega) with ⟨e1, c, _, e2, e3⟩ | ⟨e0, js, e1, e2, e3⟩
  · refine .inl ⟨?_, overshoots_iff.2 ⟨c, e2, e3⟩⟩
    rw [segmentWords, if_neg hif]
    simp [e1]
  · refine .inr ⟨fun ho => ?_, ?_⟩
    · obtain ⟨c, h1, h2⟩ := overshoots_iff.1 ho
      exact e0 c (by omega) h1 h2
    obtain ⟨refs, hcount, hfill, hroute⟩ := backtrack_loose e2 e3 ws.length (Nat.le_refl _)
    obtain ⟨ts, g1, g2, g3⟩ := hroute [] (by rw [List.drop_length]; exact .nil)
    rw [List.append_nil] at g3
    have hne : ∀ t ∈ ts, t.text.flatten ≠ [] := by
      intro t ht e
      obtain ⟨a, b⟩ := g2 t ht
      obtain ⟨w, hwt⟩ := List.exists_mem_of_ne_nil _ a
      have hwe : w ≠ [] := by
        rcases b with ⟨v, hv⟩ | ⟨w', hw', rfl⟩
        · exact hd.words t (List.mem_of_getElem? hv) w hwt
        · simp [unknownTok] at hwt; subst hwt; exact hw w hw'
      exact hwe (List.flatten_eq_nil_iff.1 e w hwt)
    obtain ⟨segs, p1, p2, p3, _⟩ := positions_spec refs ts g1 hne 0
    refine ⟨segs, ts, ?_, g3, ?_, by simpa using p3⟩
    · rw [segmentWords, if_neg hif]
      simp only [Option.bind_eq_bind, e1, Option.bind_some, hcount (ws.length + 1) 0 (by omega), Nat.zero_add]
      have := hfill (ws.length + 1) (List.replicate refs.length (.pseudo [])) [] (by omega) (by simp)
      rw [List.append_nil] at this
      rw [this, Option.bind_some, List.append_nil, p1]
    · rw [← g1, ← p2, List.map_map]; rfl

end
end Gse
