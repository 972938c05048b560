import Verif.Proofs.Dict
import Verif.Props.Split
import Verif.Spec.Dict

/-! Refinement of the dictionary to the abstract map. -/

namespace Gse

set_option linter.unusedSectionVars false
open Spec Trie

theorem mapOpt_some {α β : Type} {f : α → Option β} {l : List α} {l' : List β} (h : mapOpt f l = some l') :
    List.Forall₂ (fun a b => f a = some b) l l' := by
  induction l generalizing l' with
  | nil => simp [mapOpt] at h; subst h; exact .nil
  | cons a l ih =>
    simp only [mapOpt, Option.bind_eq_bind, Option.bind_eq_some_iff] at h
    obtain ⟨b, hb, r, hr, e⟩ := h
    simp at e; subst e
    exact .cons hb (ih hr)

theorem mapOpt_isSome {α β : Type} {f : α → Option β} {l : List α} (h : ∀ a ∈ l, ∃ b, f a = some b) :
    ∃ l', mapOpt f l = some l' := by
  induction l with
  | nil => exact ⟨[], rfl⟩
  | cons a l ih =>
    obtain ⟨b, hb⟩ := h a (by simp)
    obtain ⟨r, hr⟩ := ih fun x hx => h x (by simp [hx])
    exact ⟨b :: r, by simp [mapOpt, hb, hr]⟩

variable {F D : Type} [F64 F] [F32 D] [Narrow F D]

/-- The fields of a token that `CalcToken` never changes. -/
def Token.core (t : Token F D) : List Bytes × F × Bytes := (t.text, t.freq, t.pos)

/-- Equality up to distances and sub-segments. -/
structure SameCore (d d' : Dictionary F D) : Prop where
  trie : d'.trie = d.trie
  maxLen : d'.maxTokenLen = d.maxTokenLen
  total : d'.totalFreq = d.totalFreq
  tokens : d'.tokens.map Token.core = d.tokens.map Token.core

theorem SameCore.refl (d : Dictionary F D) : SameCore d d := ⟨rfl, rfl, rfl, rfl⟩

theorem SameCore.trans {a b c : Dictionary F D} (h : SameCore a b) (h' : SameCore b c) : SameCore a c :=
  ⟨h'.trie.trans h.trie, h'.maxLen.trans h.maxLen, h'.total.trans h.total, h'.tokens.trans h.tokens⟩

theorem SameCore.get {d d' : Dictionary F D} (h : SameCore d d') (i : Nat) :
    (d'.tokens[i]?).map Token.core = (d.tokens[i]?).map Token.core := by
  have := congrArg (fun l => l[i]?) h.tokens
  simpa using this

theorem SameCore.get_some {d d' : Dictionary F D} (h : SameCore d d') {i : Nat} {t : Token F D} (ht : d.tokens[i]? = some t) :
    ∃ t', d'.tokens[i]? = some t' ∧ t'.text = t.text ∧ t'.freq = t.freq ∧ t'.pos = t.pos := by
  have := h.get i
  rw [ht] at this
  simp only [Option.map_some, Option.map_eq_some_iff] at this
  obtain ⟨t', h1, h2⟩ := this
  simp [Token.core] at h2
  exact ⟨t', h1, h2⟩

theorem SameCore.symm {d d' : Dictionary F D} (h : SameCore d d') : SameCore d' d :=
  ⟨h.trie.symm, h.maxLen.symm, h.total.symm, h.tokens.symm⟩

theorem SameCore.length {d d' : Dictionary F D} (h : SameCore d d') : d'.tokens.length = d.tokens.length := by
  have := congrArg List.length h.tokens
  simpa using this

theorem SameCore.wf [Unicode] {cfg : SplitCfg} {d d' : Dictionary F D} (h : SameCore d d') (w : d.WF cfg) : d'.WF cfg := by
  refine ⟨?_, ?_, ?_⟩
  · intro k v hv
    rw [h.trie] at hv
    obtain ⟨t, h1, h2⟩ := w.entry k v hv
    obtain ⟨t', h3, h4, _⟩ := h.get_some h1
    exact ⟨t', h3, by rw [h4, h2]⟩
  · intro t ht
    obtain ⟨i, hi⟩ := List.mem_iff_getElem?.1 ht
    obtain ⟨t', h3, h4, _⟩ := h.symm.get_some hi
    obtain ⟨s, hs⟩ := w.split t' (List.mem_of_getElem? h3)
    exact ⟨s, by rw [← h4, hs]⟩
  · intro t ht
    obtain ⟨i, hi⟩ := List.mem_iff_getElem?.1 ht
    obtain ⟨t', h3, h4, _⟩ := h.symm.get_some hi
    have := w.maxLen t' (List.mem_of_getElem? h3)
    rw [h.maxLen, ← h4]; exact this

theorem withDistances_same (d : Dictionary F D) : SameCore d (withDistances d) := by
  refine ⟨rfl, rfl, rfl, ?_⟩
  simp [withDistances, Token.core, Function.comp_def]

theorem calcToken_same [Unicode] {d d' : Dictionary F D} (h : calcToken d = some d') : SameCore d d' := by
  refine (withDistances_same d).trans ?_
  simp only [calcToken, Option.bind_eq_bind, Option.bind_eq_some_iff] at h
  obtain ⟨ts, hts, e⟩ := h
  simp at e
  subst e
  refine ⟨rfl, rfl, rfl, ?_⟩
  have := mapOpt_some hts
  clear hts
  simp only
  generalize (withDistances d).tokens = l at this
  induction this with
  | nil => rfl
  | cons h1 _ ih =>
    simp only [Option.bind_eq_some_iff] at h1
    obtain ⟨segs, _, kept, _, e⟩ := h1
    simp at e
    subst e
    simp [ih, Token.core]

theorem SameCore.find {d d' : Dictionary F D} (h : SameCore d d') (w : Bytes) : d'.find w = d.find w := by
  unfold Dictionary.find
  rw [h.trie]
  cases d.trie.jump w [] with
  | none => rfl
  | some id =>
    dsimp only
    cases d.trie.value id with
    | none => rfl
    | some v =>
      dsimp only
      have := h.get v
      revert this
      cases d.tokens[v]? <;> cases d'.tokens[v]? <;> simp [Token.core]

/-! ### Refinement -/

/-- The dictionary represents the abstract one. -/
structure Rep [Unicode] (cfg : SplitCfg) (d : Dictionary F D) (m : AbsDict F) : Prop where
  wf : d.WF cfg
  content : ∀ k, (d.trie.value k).bind (fun v => (d.tokens[v]?).map fun t => (t.freq, t.pos)) = m.content k
  stored : d.tokens.map (fun t => (t.text, t.freq)) = m.stored.map fun e => (splitTextToWords cfg e.1, e.2)
  total : d.totalFreq = (m.stored.map (·.2)).foldl F64.add (F64.ofNat 0)
  maxLen : d.maxTokenLen = (m.stored.map fun e => (splitTextToWords cfg e.1).length).foldl max 0

theorem Rep.value_none_iff [Unicode] {cfg : SplitCfg} {d : Dictionary F D} {m : AbsDict F} (h : Rep cfg d m) (k : Bytes) :
    d.trie.value k = none ↔ m.content k = none := by
  rw [← h.content k]
  cases hv : d.trie.value k with
  | none => simp
  | some v =>
    obtain ⟨t, h1, _⟩ := h.wf.entry k v hv
    simp [h1]

theorem Rep.numTokens [Unicode] {cfg : SplitCfg} {d : Dictionary F D} {m : AbsDict F} (h : Rep cfg d m) :
    d.numTokens = m.stored.length := by
  have := congrArg List.length h.stored
  simpa [Dictionary.numTokens] using this

theorem rep_new [Unicode] (cfg : SplitCfg) : Rep cfg (Dictionary.new : Dictionary F D) {} :=
  ⟨Dictionary.wf_new cfg, by simp [Dictionary.new, value], rfl, rfl, rfl⟩

theorem Rep.same [Unicode] {cfg : SplitCfg} {d d' : Dictionary F D} {m : AbsDict F} (h : Rep cfg d m) (s : SameCore d d') :
    Rep cfg d' m := by
  refine ⟨s.wf h.wf, ?_, ?_, s.total.trans h.total, s.maxLen.trans h.maxLen⟩
  · intro k
    rw [← h.content k, s.trie]
    congr 1
    funext v
    have := s.get v
    revert this
    cases d.tokens[v]? <;> cases d'.tokens[v]? <;> simp [Token.core]
  · rw [← h.stored]
    have := congrArg (List.map fun c : List Bytes × F × Bytes => (c.1, c.2.1)) s.tokens
    simpa [Function.comp_def, Token.core] using this

theorem flatten_split [Unicode] (cfg : SplitCfg) (t : Bytes) : (splitTextToWords cfg t).flatten = normText cfg t :=
  C01_split_lossless cfg t

theorem rep_add [Unicode] {cfg : SplitCfg} {d : Dictionary F D} {m : AbsDict F} (h : Rep cfg d m)
    (t : Bytes) (f : F) (p : Bytes) (hl : d.numTokens < Trie.valueLimit) :
    Rep cfg (segAddToken cfg d t f p).1 (m.add cfg t f p) := by
  have hwf := Dictionary.wf_addToken h.wf (toToken cfg t f p) ⟨t, rfl⟩
  unfold segAddToken at *
  revert hwf
  unfold Dictionary.addToken AbsDict.add
  dsimp only
  rw [textSliceToBytes_eq, get_eq]
  have hk : (toToken (D := D) cfg t f p).text.flatten = normText cfg t := flatten_split cfg t
  rw [hk]
  cases hv : d.trie.value (normText cfg t) with
  | some v =>
    intro _
    have : m.content (normText cfg t) ≠ none := by
      intro hc
      rw [(h.value_none_iff _).2 hc] at hv; simp at hv
    cases hm : m.content (normText cfg t) with
    | none => exact absurd hm this
    | some e => exact h
  | none =>
    rw [(h.value_none_iff _).1 hv]
    dsimp only
    cases hi : d.trie.insert (normText cfg t) d.numTokens with
    | none => simp [Trie.insert, hl] at hi
    | some trie =>
      dsimp only
      intro hwf
      refine ⟨hwf, ?_, ?_, ?_, ?_⟩
      · intro k
        simp only
        rw [value_insert hi]
        split
        · simp [Dictionary.numTokens, toToken]
        · rw [← h.content k]
          cases hv' : d.trie.value k with
          | none => rfl
          | some v =>
            have := h.wf.idx k v hv'
            simp [List.getElem?_append_left this]
      · simp [h.stored, toToken]
      · simp only [List.map_append, List.foldl_append, ← h.total]
        simp [toToken]
      · simp only [List.map_append, List.foldl_append, ← h.maxLen]
        simp [toToken]
        split <;> omega

theorem rep_remove [Unicode] {cfg : SplitCfg} {d d' : Dictionary F D} {m : AbsDict F} (h : Rep cfg d m)
    (tok : Token F D) (t : Bytes) (htok : tok.text = splitTextToWords cfg t) {e : Bool}
    (hr : d.removeToken tok = some (d', e)) :
    Rep cfg d' (m.remove cfg t) ∧ (e = true ↔ m.content (normText cfg t) = none) ∧ d'.tokens = d.tokens ∧
      (e = true → d' = d) := by
  have hwf := Dictionary.wf_removeToken h.wf tok hr
  unfold Dictionary.removeToken at hr
  rw [textSliceToBytes_eq, htok, flatten_split] at hr
  rcases delete_cases d.trie (normText cfg t) with ⟨h1, h2⟩ | ⟨v, t', h1, h2⟩ | ⟨_, _, h2⟩
  · rw [h2] at hr
    simp at hr
    obtain ⟨rfl, rfl⟩ := hr
    have hv : d.trie.value (normText cfg t) = none := by
      cases hv : d.trie.value (normText cfg t) with
      | none => rfl
      | some v => rw [isNode_of_value hv] at h1; simp at h1
    have hm := (h.value_none_iff _).1 hv
    refine ⟨⟨hwf, ?_, h.stored, h.total, h.maxLen⟩, by simp [hm], rfl, fun _ => rfl⟩
    intro k
    rw [h.content k]
    simp only [AbsDict.remove]
    split
    · rename_i e; rw [e, hm]
    · rfl
  · rw [h2] at hr
    simp at hr
    obtain ⟨rfl, rfl⟩ := hr
    have hm : m.content (normText cfg t) ≠ none := by
      intro hc
      rw [(h.value_none_iff _).2 hc] at h1; simp at h1
    refine ⟨⟨hwf, ?_, h.stored, h.total, h.maxLen⟩, by simp [hm], rfl, by simp⟩
    intro k
    simp only [AbsDict.remove]
    rw [value_delete h2]
    split
    · rfl
    · rw [← h.content k]
  · rw [h2] at hr; simp at hr

theorem addToken_numTokens (d : Dictionary F D) (tok : Token F D) : (d.addToken tok).1.numTokens ≤ d.numTokens + 1 := by
  unfold Dictionary.addToken Dictionary.numTokens
  dsimp only
  split
  · simp
  · split <;> simp

theorem rep_step [Unicode] {cfg : SplitCfg} {d d' : Dictionary F D} {m : AbsDict F} (h : Rep cfg d m)
    (hl : d.numTokens < Trie.valueLimit) {op : DictOp F} (hs : op.step cfg d = some d') :
    Rep cfg d' (m.step cfg op) ∧ d'.numTokens ≤ d.numTokens + 1 := by
  cases op with
  | add t f p =>
    simp [DictOp.step] at hs
    subst hs
    exact ⟨rep_add h t f p hl, addToken_numTokens d _⟩
  | addForce t f p =>
    simp only [DictOp.step, segAddTokenForce, Option.map_map, Option.map_eq_some_iff] at hs
    obtain ⟨d2, h1, h2⟩ := hs
    simp at h2; subst h2
    have := calcToken_same h1
    refine ⟨(rep_add h t f p hl).same this, ?_⟩
    have h3 := addToken_numTokens d (toToken cfg t f p)
    simp only [Dictionary.numTokens, this.length] at h3 ⊢
    exact h3
  | remove t =>
    simp only [DictOp.step, segRemoveToken, Option.map_eq_some_iff] at hs
    obtain ⟨⟨d2, e⟩, h1, h2⟩ := hs
    simp at h2; subst h2
    obtain ⟨h3, _, h4, _⟩ := rep_remove h _ t rfl h1
    exact ⟨h3, by simp [Dictionary.numTokens, h4]⟩
  | reAdd t f p =>
    simp only [DictOp.step, segReAddToken, Option.map_eq_some_iff] at hs
    obtain ⟨⟨d2, e⟩, h1, h2⟩ := hs
    simp at h2; subst h2
    cases hr : d.removeToken (toToken cfg t f p) with
    | none => simp [hr] at h1
    | some x =>
      obtain ⟨d3, e3⟩ := x
      obtain ⟨h3, h5, h4, h6⟩ := rep_remove h _ t rfl hr
      rw [hr] at h1
      cases e3 with
      | true =>
        simp at h1
        obtain ⟨rfl, _⟩ := h1
        have := h6 rfl
        subst this
        simp only [AbsDict.step, h5.1 rfl]
        exact ⟨h, by omega⟩
      | false =>
        simp at h1
        have hm : m.content (normText cfg t) ≠ none := by
          intro hc; have := h5.2 hc; simp at this
        have hn3 : d3.numTokens = d.numTokens := by simp [Dictionary.numTokens, h4]
        have hd2 : d2 = (d3.addToken (toToken cfg t f p)).1 := by rw [h1]
        constructor
        · simp only [AbsDict.step]
          cases hc : m.content (normText cfg t) with
          | none => exact absurd hc hm
          | some _ =>
            dsimp only
            rw [hd2]
            exact rep_add h3 t f p (by omega)
        · rw [hd2, ← hn3]; exact addToken_numTokens d3 _
  | recalc =>
    simp only [DictOp.step] at hs
    have := calcToken_same hs
    exact ⟨h.same this, by simp [Dictionary.numTokens, this.length]⟩

theorem rep_run [Unicode] {cfg : SplitCfg} (ops : List (DictOp F)) : ∀ {d d' : Dictionary F D} {m : AbsDict F}, Rep cfg d m →
    d.numTokens + ops.length ≤ Trie.valueLimit → runOps cfg ops d = some d' →
    Rep cfg d' (ops.foldl (AbsDict.step cfg) m) := by
  induction ops with
  | nil => intro d d' m h _ hr; simp [runOps] at hr; subst hr; exact h
  | cons op ops ih =>
    intro d d' m h hl hr
    simp only [runOps, Option.bind_eq_some_iff] at hr
    obtain ⟨d1, h1, h2⟩ := hr
    simp only [List.length_cons] at hl
    obtain ⟨h3, h4⟩ := rep_step h (by omega) h1
    exact ih h3 (by omega) h2

theorem wf_step [Unicode] {cfg : SplitCfg} {d d' : Dictionary F D} (h : d.WF cfg) {op : DictOp F}
    (hs : op.step cfg d = some d') : d'.WF cfg := by
  cases op with
  | add t f p =>
    simp [DictOp.step] at hs
    subst hs
    exact Dictionary.wf_addToken h _ ⟨t, rfl⟩
  | addForce t f p =>
    simp only [DictOp.step, segAddTokenForce, Option.map_map, Option.map_eq_some_iff] at hs
    obtain ⟨d2, h1, h2⟩ := hs
    simp at h2; subst h2
    exact (calcToken_same h1).wf (Dictionary.wf_addToken h _ ⟨t, rfl⟩)
  | remove t =>
    simp only [DictOp.step, segRemoveToken, Option.map_eq_some_iff] at hs
    obtain ⟨⟨d2, e⟩, h1, h2⟩ := hs
    simp at h2; subst h2
    exact Dictionary.wf_removeToken h _ h1
  | reAdd t f p =>
    simp only [DictOp.step, segReAddToken, Option.map_eq_some_iff] at hs
    obtain ⟨⟨d2, e⟩, h1, h2⟩ := hs
    simp at h2; subst h2
    cases hr : d.removeToken (toToken cfg t f p) with
    | none => simp [hr] at h1
    | some x =>
      obtain ⟨d3, e3⟩ := x
      have h3 := Dictionary.wf_removeToken h _ hr
      rw [hr] at h1
      cases e3 with
      | true => simp at h1; rw [← h1.1]; exact h3
      | false =>
        simp at h1
        have : d2 = (d3.addToken (toToken cfg t f p)).1 := by rw [h1]
        rw [this]
        exact Dictionary.wf_addToken h3 _ ⟨t, rfl⟩
  | recalc =>
    simp only [DictOp.step] at hs
    exact (calcToken_same hs).wf h

theorem wf_run [Unicode] {cfg : SplitCfg} (ops : List (DictOp F)) : ∀ {d d' : Dictionary F D}, d.WF cfg →
    runOps cfg ops d = some d' → d'.WF cfg := by
  induction ops with
  | nil => intro d d' h hr; simp [runOps] at hr; subst hr; exact h
  | cons op ops ih =>
    intro d d' h hr
    simp only [runOps, Option.bind_eq_some_iff] at hr
    obtain ⟨d1, h1, h2⟩ := hr
    exact ih (wf_step h h1) h2

theorem Reachable.wf [Unicode] {cfg : SplitCfg} {d : Dictionary F D} (h : Reachable cfg d) : d.WF cfg := by
  obtain ⟨ops, h⟩ := h
  exact wf_run ops (Dictionary.wf_new cfg) h

end Gse
