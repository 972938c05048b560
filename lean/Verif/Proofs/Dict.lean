import Verif.Model.Segmenter
import Verif.Proofs.Split

/-! Trie contract lemmas, dictionary invariant, `LookupTokens`. -/

namespace Gse

set_option linter.unusedSectionVars false

theorem textSliceToBytes_eq (ws : List Bytes) : textSliceToBytes ws = ws.flatten := by
  have : ∀ (b : Bytes), ws.foldl (fun buf w => buf ++ w) b = b ++ ws.flatten := by
    induction ws with
    | nil => simp
    | cons w ws ih => intro b; simp [ih]
  simpa [textSliceToBytes] using this []

theorem textSliceByteLen_eq (ws : List Bytes) : textSliceByteLen ws = ws.flatten.length := by
  have : ∀ (n : Nat), ws.foldl (fun n w => n + w.length) n = n + ws.flatten.length := by
    induction ws with
    | nil => simp
    | cons w ws ih => intro b; rw [List.foldl_cons, ih]; simp; omega
  have := this 0
  simpa [textSliceByteLen] using this

namespace Trie

theorem lookup_filter_ne (l : List (Bytes × Nat)) (k k' : Bytes) :
    (l.filter fun e => e.1 != k).lookup k' = if k' = k then none else l.lookup k' := by
  induction l with
  | nil => simp
  | cons e l ih =>
    obtain ⟨a, v⟩ := e
    by_cases h : a = k
    · subst h
      by_cases h2 : k' = a
      · subst h2; simpa using ih
      · have : (k' == a) = false := by simpa using h2
        simp [List.lookup_cons, this, h2, ih]
    · have h3 : (a != k) = true := by simpa using h
      rw [List.filter_cons_of_pos (by simpa using h3), List.lookup_cons, List.lookup_cons]
      by_cases h2 : k' = a
      · subst h2; simp [h]
      · have : (k' == a) = false := by simpa using h2
        simp [this, ih]

theorem lookup_isSome_iff (l : List (Bytes × Nat)) (k : Bytes) : (l.lookup k).isSome ↔ ∃ e ∈ l, e.1 = k := by
  induction l with
  | nil => simp
  | cons e l ih =>
    rw [List.lookup_cons]
    by_cases h : k = e.1
    · subst h; simp
    · have : (k == e.1) = false := by simpa using h
      rw [this]; simp only [ih]
      constructor
      · rintro ⟨e', h1, h2⟩; exact ⟨e', by simp [h1], h2⟩
      · rintro ⟨e', h1, h2⟩
        rcases List.mem_cons.1 h1 with h3 | h3
        · subst h3; exact absurd h2.symm h
        · exact ⟨e', h3, h2⟩

/-- A path is a node iff it is empty or a prefix of a stored key. -/
theorem isNode_iff (t : Trie) (p : Bytes) :
    t.isNode p = true ↔ p = [] ∨ ∃ k v, t.value k = some v ∧ p <+: k := by
  unfold isNode value
  simp only [Bool.or_eq_true, List.isEmpty_iff, List.any_eq_true, List.isPrefixOf_iff_prefix]
  constructor
  · rintro (h | ⟨e, he, hp⟩)
    · exact .inl h
    · have := (lookup_isSome_iff t.entries e.1).2 ⟨e, he, rfl⟩
      obtain ⟨v, hv⟩ := Option.isSome_iff_exists.1 this
      exact .inr ⟨e.1, v, hv, hp⟩
  · rintro (h | ⟨k, v, hv, hp⟩)
    · exact .inl h
    · have : (t.entries.lookup k).isSome := by rw [hv]; rfl
      obtain ⟨e, he, rfl⟩ := (lookup_isSome_iff _ _).1 this
      exact .inr ⟨e, he, hp⟩

theorem isNode_of_value {t : Trie} {k : Bytes} {v : Nat} (h : t.value k = some v) : t.isNode k = true :=
  (isNode_iff t k).2 (.inr ⟨k, v, h, List.prefix_rfl⟩)

theorem isNode_prefix {t : Trie} {p q : Bytes} (h : t.isNode q = true) (hp : p <+: q) : t.isNode p = true := by
  rcases (isNode_iff t q).1 h with rfl | ⟨k, v, hv, hq⟩
  · have : p = [] := by simpa using hp
    subst this; exact h
  · exact (isNode_iff t p).2 (.inr ⟨k, v, hv, hp.trans hq⟩)

theorem get_eq (t : Trie) (k : Bytes) : t.get k = t.value k := by
  unfold get jump
  by_cases h : t.isNode ([] ++ k) = true
  · simp only [h, if_true]; simp
  · simp only [h]
    simp
    cases hv : t.value k with
    | none => rfl
    | some v => exact absurd (isNode_of_value hv) (by simpa using h)

theorem value_insert {t t' : Trie} {k : Bytes} {v : Nat} (h : t.insert k v = some t') (k' : Bytes) :
    t'.value k' = if k' = k then some v else t.value k' := by
  unfold insert at h
  split at h
  · simp at h
    subst h
    unfold value
    rw [List.lookup_cons, lookup_filter_ne]
    by_cases h2 : k' = k
    · subst h2; simp
    · have : (k' == k) = false := by simpa using h2
      simp [this, h2]
  · simp at h

theorem value_delete {t t' : Trie} {k : Bytes} (h : t.delete k = .ok t') (k' : Bytes) :
    t'.value k' = if k' = k then none else t.value k' := by
  unfold delete at h
  split at h
  · simp at h
  · split at h
    · simp at h
      subst h
      unfold value
      exact lookup_filter_ne _ _ _
    · simp at h

/-- `Delete` succeeds exactly on stored keys, fails on paths that lead nowhere, and is unspecified otherwise. -/
theorem delete_cases (t : Trie) (k : Bytes) :
    (t.isNode k = false ∧ t.delete k = .noPath) ∨
    (∃ v t', t.value k = some v ∧ t.delete k = .ok t') ∨
    (t.isNode k = true ∧ t.value k = none ∧ t.delete k = .unspecified) := by
  unfold delete jump
  cases h : t.isNode k with
  | false => simp [h]
  | true =>
    simp only [List.nil_append, h, if_true]
    cases hv : t.value k with
    | none => simp
    | some v => simp

end Trie

open Trie

variable {F D : Type} [F64 F] [F32 D]

namespace Dictionary

/-- Invariant of dictionaries built with fixed split flags. -/
structure WF [Unicode] (cfg : SplitCfg) (d : Dictionary F D) : Prop where
  /-- trie values are table indices of tokens spelling the key -/
  entry : ∀ k v, d.trie.value k = some v → ∃ t, d.tokens[v]? = some t ∧ t.text.flatten = k
  /-- token texts are splits -/
  split : ∀ t ∈ d.tokens, ∃ s, t.text = splitTextToWords cfg s
  maxLen : ∀ t ∈ d.tokens, t.text.length ≤ d.maxTokenLen

theorem wf_new [Unicode] (cfg : SplitCfg) : (new : Dictionary F D).WF cfg :=
  ⟨by simp [new, value], by simp [new], by simp [new]⟩

theorem wf_addToken [Unicode] {cfg : SplitCfg} {d : Dictionary F D} (h : d.WF cfg) (t : Token F D)
    (ht : ∃ s, t.text = splitTextToWords cfg s) : (d.addToken t).1.WF cfg := by
  unfold addToken
  dsimp only
  rw [textSliceToBytes_eq, get_eq]
  cases hv : d.trie.value t.text.flatten with
  | some v => exact h
  | none =>
    dsimp only
    cases hi : d.trie.insert t.text.flatten d.numTokens with
    | none => exact h
    | some trie =>
      dsimp only
      refine ⟨?_, ?_, ?_⟩
      · intro k v hk
        simp only at hk ⊢
        rw [value_insert hi] at hk
        split at hk
        · rename_i he
          simp [numTokens] at hk
          subst hk he
          exact ⟨t, by simp, rfl⟩
        · obtain ⟨t', h1, h2⟩ := h.entry k v hk
          have : v < d.tokens.length := (List.getElem?_eq_some_iff.1 h1).1
          exact ⟨t', by rw [List.getElem?_append_left this, h1], h2⟩
      · intro t' ht'
        rcases List.mem_append.1 ht' with h1 | h1
        · exact h.split t' h1
        · simp at h1; subst h1; exact ht
      · intro t' ht'
        rcases List.mem_append.1 ht' with h1 | h1
        · have := h.maxLen t' h1; simp only; split <;> omega
        · simp at h1; subst h1; simp only; split <;> omega

theorem wf_removeToken [Unicode] {cfg : SplitCfg} {d d' : Dictionary F D} {e : Bool} (h : d.WF cfg) (t : Token F D)
    (hr : d.removeToken t = some (d', e)) : d'.WF cfg := by
  unfold removeToken at hr
  split at hr
  · simp at hr; rw [← hr.1]; exact h
  · rename_i t' hd
    simp at hr
    rw [← hr.1]
    refine ⟨?_, h.split, h.maxLen⟩
    intro k v hk
    simp only at hk ⊢
    rw [value_delete hd] at hk
    split at hk
    · simp at hk
    · exact h.entry k v hk
  · simp at hr

/-! ### `LookupTokens` -/

/-- What the search needs of a dictionary, with the flags of the moment: a stored word that can be met under these flags has the words
it is met as. -/
structure Coh [Unicode] (cfg : SplitCfg) (d : Dictionary F D) : Prop where
  entry : ∀ k v, d.trie.value k = some v → ∃ t, d.tokens[v]? = some t ∧ t.text.flatten = k
  same : ∀ k v t, d.trie.value k = some v → d.tokens[v]? = some t → (splitTextToWords cfg k).flatten = k → t.text = splitTextToWords cfg k
  maxLen : ∀ t ∈ d.tokens, t.text.length ≤ d.maxTokenLen

theorem WF.coh [Unicode] [UnicodeOK] {cfg : SplitCfg} {d : Dictionary F D} (h : d.WF cfg) : d.Coh cfg := by
  refine ⟨h.entry, ?_, h.maxLen⟩
  intro k v t hv ht _
  obtain ⟨t', h1, h2⟩ := h.entry k v hv
  rw [ht] at h1
  obtain rfl := Option.some.inj h1
  obtain ⟨s, hs⟩ := h.split t (List.mem_of_getElem? ht)
  rw [← h2, hs, split_infix cfg s [] (splitTextToWords cfg s) [] (by simp)]

instance [Unicode] [UnicodeOK] {cfg : SplitCfg} {d : Dictionary F D} : Coe (d.WF cfg) (d.Coh cfg) := ⟨WF.coh⟩

/-- Words lists that spell a stored key are that token's text. -/
theorem Coh.text_eq [Unicode] [UnicodeOK] {cfg : SplitCfg} {d : Dictionary F D} (h : d.Coh cfg) {s : Bytes} {l ws r : List Bytes}
    (hs : splitTextToWords cfg s = l ++ ws ++ r) {v : Nat} (hv : d.trie.value ws.flatten = some v) :
    ∃ t, d.tokens[v]? = some t ∧ t.text = ws ∧ ws.length ≤ d.maxTokenLen := by
  obtain ⟨t, h1, h2⟩ := h.entry _ _ hv
  have e := split_infix cfg s l ws r hs
  have := h.same _ v t hv h1 (by rw [e])
  rw [e] at this
  exact ⟨t, h1, this, by rw [← this]; exact h.maxLen t (List.mem_of_getElem? h1)⟩

/-- Closed form of the lookup loop. -/
theorem lookupLoop_eq (d : Dictionary F D) (hidx : ∀ k v, d.trie.value k = some v → v < d.tokens.length)
    (cap : Nat) (ws : List Bytes) :
    ∀ (id : Bytes) (acc : List Nat), acc.length + ws.length ≤ cap →
      d.lookupLoop cap ws id acc
        = some (acc ++ (List.range ws.length).filterMap fun n => d.trie.value (id ++ (ws.take (n + 1)).flatten)) := by
  induction ws with
  | nil => intro id acc _; simp [lookupLoop]
  | cons w ws ih =>
    intro id acc hc
    simp only [List.length_cons] at hc
    rw [lookupLoop, jump]
    by_cases hn : d.trie.isNode (id ++ w) = true
    · simp only [hn, if_true]
      have hr : (List.range (w :: ws).length).filterMap (fun n => d.trie.value (id ++ ((w :: ws).take (n + 1)).flatten))
          = (d.trie.value (id ++ w)).toList ++
            (List.range ws.length).filterMap (fun n => d.trie.value (id ++ w ++ (ws.take (n + 1)).flatten)) := by
        rw [List.length_cons, List.range_succ_eq_map, List.filterMap_cons, List.filterMap_map]
        simp only [Function.comp_def, List.take_succ_cons, List.flatten_cons, List.append_assoc, List.take_zero,
          List.flatten_nil, List.append_nil]
        cases d.trie.value (id ++ w) <;> simp
      cases hv : d.trie.value (id ++ w) with
      | none =>
        simp only
        rw [ih _ _ (by omega), hr, hv]; simp
      | some v =>
        simp only
        rw [if_pos ⟨by omega, hidx _ _ hv⟩, ih _ _ (by simp; omega), hr, hv]; simp
    · simp only [hn]
      have : (List.range (w :: ws).length).filterMap (fun n => d.trie.value (id ++ ((w :: ws).take (n + 1)).flatten)) = [] := by
        apply List.filterMap_eq_nil_iff.2
        intro n _
        cases hv : d.trie.value (id ++ ((w :: ws).take (n + 1)).flatten) with
        | none => rfl
        | some v =>
          exfalso; apply hn
          refine isNode_prefix (isNode_of_value hv) ?_
          rw [List.take_succ_cons, List.flatten_cons, ← List.append_assoc]
          exact List.prefix_append _ _
      rw [this]; simp

theorem idx_of_entry {d : Dictionary F D} (h : ∀ k v, d.trie.value k = some v → ∃ t, d.tokens[v]? = some t ∧ t.text.flatten = k) (k : Bytes) (v : Nat)
    (hv : d.trie.value k = some v) : v < d.tokens.length := by
  obtain ⟨t, h1, _⟩ := h k v hv
  exact (List.getElem?_eq_some_iff.1 h1).1

theorem Coh.idx [Unicode] {cfg : SplitCfg} {d : Dictionary F D} (h : d.Coh cfg) (k : Bytes) (v : Nat)
    (hv : d.trie.value k = some v) : v < d.tokens.length := idx_of_entry h.entry k v hv

theorem WF.idx [Unicode] {cfg : SplitCfg} {d : Dictionary F D} (h : d.WF cfg) (k : Bytes) (v : Nat)
    (hv : d.trie.value k = some v) : v < d.tokens.length := by
  obtain ⟨t, h1, _⟩ := h.entry k v hv
  exact (List.getElem?_eq_some_iff.1 h1).1

theorem lookup_eq {d : Dictionary F D} (h : ∀ k v, d.trie.value k = some v → v < d.tokens.length) (ws : List Bytes) (cap : Nat)
    (hc : ws.length ≤ cap) :
    d.lookupTokens ws cap = some ((List.range ws.length).filterMap fun n => d.trie.value (ws.take (n + 1)).flatten) := by
  unfold lookupTokens
  rw [lookupLoop_eq d h cap ws [] [] (by simpa using hc)]
  simp

theorem Coh.lookup [Unicode] {cfg : SplitCfg} {d : Dictionary F D} (h : d.Coh cfg) (ws : List Bytes) (cap : Nat)
    (hc : ws.length ≤ cap) :
    d.lookupTokens ws cap = some ((List.range ws.length).filterMap fun n => d.trie.value (ws.take (n + 1)).flatten) :=
  lookup_eq h.idx ws cap hc

theorem WF.lookup [Unicode] {cfg : SplitCfg} {d : Dictionary F D} (h : d.WF cfg) (ws : List Bytes) (cap : Nat)
    (hc : ws.length ≤ cap) :
    d.lookupTokens ws cap = some ((List.range ws.length).filterMap fun n => d.trie.value (ws.take (n + 1)).flatten) :=
  lookup_eq h.idx ws cap hc

end Dictionary

end Gse
