import Verif.Proofs.History
import Mathlib.Data.List.Induction

/-! # C04, C05, C06, C07: the dictionary over arbitrary histories -/

namespace Gse
open Spec Trie

set_option linter.unusedSectionVars false

section
variable {F D : Type} [F64 F] [F32 D] [Narrow F D] [Unicode]

/-- C04: after any history, `Find` returns what the abstract first-wins map holds (and never panics). -/
theorem C04_find_history (cfg : SplitCfg) (ops : List (DictOp F)) (hl : ops.length ≤ Trie.valueLimit)
    (d : Dictionary F D) (hr : runOps cfg ops Dictionary.new = some d) (w : Bytes) :
    (∀ f p, (absRun cfg ops).content w = some (f, p) → d.find w = some (f, p, true)) ∧
    ((absRun cfg ops).content w = none → ∃ b, d.find w = some (F64.ofNat 0, [], b)) := by
  have h : Rep cfg d (absRun cfg ops) := rep_run ops (rep_new cfg) (by simpa [Dictionary.numTokens, Dictionary.new] using hl) hr
  constructor
  · intro f p hc
    rw [← h.content w] at hc
    simp only [Option.bind_eq_some_iff, Option.map_eq_some_iff] at hc
    obtain ⟨v, hv, t, ht, e⟩ := hc
    simp at e
    simp [Dictionary.find, jump, isNode_of_value hv, hv, ht, e]
  · intro hc
    have hv := (h.value_none_iff w).2 hc
    unfold Dictionary.find jump
    cases hn : d.trie.isNode w with
    | true => by_cases hw : w = [] <;> simp_all
    | false => simp [hn]

/-- A call removes a word (or replaces it). -/
def removes (cfg : SplitCfg) (k : Bytes) : DictOp F → Prop
  | .remove t => normText cfg t = k
  | .reAdd t _ _ => normText cfg t = k
  | _ => False

/-- A call stores `(f, p)` under `k` if it stores anything. -/
def writes (cfg : SplitCfg) (k : Bytes) (f : F) (p : Bytes) (present : Bool) : DictOp F → Prop
  | .add t f' p' => normText cfg t = k ∧ f' = f ∧ p' = p ∧ present = false
  | .addForce t f' p' => normText cfg t = k ∧ f' = f ∧ p' = p ∧ present = false
  | .reAdd t f' p' => normText cfg t = k ∧ f' = f ∧ p' = p ∧ present = true
  | _ => False

theorem absRun_snoc (cfg : SplitCfg) (ops : List (DictOp F)) (op : DictOp F) :
    absRun cfg (ops ++ [op]) = (absRun cfg ops).step cfg op := by simp [absRun]

theorem content_add (cfg : SplitCfg) (m : AbsDict F) (t : Bytes) (f : F) (p k : Bytes) :
    (m.add cfg t f p).content k =
      if k = normText cfg t ∧ m.content k = none then some (f, p) else m.content k := by
  unfold AbsDict.add
  cases h : m.content (normText cfg t) with
  | none =>
    simp only
    by_cases hk : k = normText cfg t
    · subst hk; simp [h]
    · simp [hk]
  | some e =>
    simp only
    by_cases hk : k = normText cfg t
    · subst hk; simp [h]
    · simp [hk]

theorem content_step_keep (cfg : SplitCfg) (m : AbsDict F) (op : DictOp F) (k : Bytes) (e : F × Bytes)
    (h : m.content k = some e) (hr : ¬ removes cfg k op) : (m.step cfg op).content k = some e := by
  cases op with
  | add t f p => simp only [AbsDict.step, content_add, h]; simp
  | addForce t f p => simp only [AbsDict.step, content_add, h]; simp
  | remove t =>
    have : k ≠ normText cfg t := fun e => hr e.symm
    simp [AbsDict.step, AbsDict.remove, this, h]
  | reAdd t f p =>
    have : k ≠ normText cfg t := fun e => hr e.symm
    simp only [AbsDict.step]
    split
    · rw [content_add]; simp [AbsDict.remove, this, h]
    · exact h
  | recalc => exact h

/-- C04: the abstract map holds exactly the word's first write since it was last removed: some call wrote it
(an add while absent, or a re-add while present) and no later call removed or re-added it. -/
theorem C04_first_since_removal (cfg : SplitCfg) (ops : List (DictOp F)) (k : Bytes) (f : F) (p : Bytes) :
    (absRun cfg ops).content k = some (f, p) ↔
      ∃ pre op post, ops = pre ++ op :: post ∧ writes cfg k f p ((absRun cfg pre).content k).isSome op ∧
        ∀ o ∈ post, ¬ removes cfg k o := by
  induction ops using List.reverseRecOn with
  | nil => simp [absRun]
  | append_singleton ops op ih =>
    rw [absRun_snoc]
    constructor
    · intro h
      -- either written now, or kept from before
      by_cases hw : writes cfg k f p ((absRun cfg ops).content k).isSome op
      · exact ⟨ops, op, [], by simp, hw, by simp⟩
      · have hkeep : (absRun cfg ops).content k = some (f, p) ∧ ¬ removes cfg k op := by
          cases op with
          | add t f' p' =>
            simp only [AbsDict.step, content_add] at h
            split at h
            · rename_i hc
              simp at h
              exact absurd ⟨hc.1.symm, h.1, h.2, by simp [hc.2]⟩ hw
            · exact ⟨h, id⟩
          | addForce t f' p' =>
            simp only [AbsDict.step, content_add] at h
            split at h
            · rename_i hc
              simp at h
              exact absurd ⟨hc.1.symm, h.1, h.2, by simp [hc.2]⟩ hw
            · exact ⟨h, id⟩
          | remove t =>
            simp only [AbsDict.step, AbsDict.remove] at h
            split at h
            · simp at h
            · rename_i hc; exact ⟨h, fun e => hc e.symm⟩
          | reAdd t f' p' =>
            simp only [AbsDict.step] at h
            split at h
            · rename_i e he
              rw [content_add] at h
              split at h
              · rename_i hc
                simp at h
                exact absurd ⟨hc.1.symm, h.1, h.2, by simp [hc.1, he]⟩ hw
              · rename_i hc
                simp only [AbsDict.remove] at h
                split at h
                · simp at h
                · rename_i hk; exact ⟨h, fun e => hk e.symm⟩
            · rename_i he
              refine ⟨h, fun e => ?_⟩
              have e : normText cfg t = k := e
              rw [e, h] at he; simp at he
          | recalc => exact ⟨h, id⟩
        obtain ⟨pre, op', post, h1, h2, h3⟩ := ih.1 hkeep.1
        refine ⟨pre, op', post ++ [op], by simp [h1], h2, ?_⟩
        intro o ho
        rcases List.mem_append.1 ho with ho | ho
        · exact h3 o ho
        · simp at ho; subst ho; exact hkeep.2
    · rintro ⟨pre, op', post, h1, h2, h3⟩
      rcases List.eq_nil_or_concat post with rfl | ⟨post', o, rfl⟩
      · have h1 : ops ++ [op] = pre ++ [op'] := by simpa using h1
        obtain ⟨rfl, h4⟩ := List.append_inj' h1 rfl
        simp at h4; subst h4
        cases op with
        | add t f' p' =>
          obtain ⟨a, b, c, e⟩ := h2
          simp only [AbsDict.step, content_add]
          simp at e
          simp [a, b, c, e]
        | addForce t f' p' =>
          obtain ⟨a, b, c, e⟩ := h2
          simp only [AbsDict.step, content_add]
          simp at e
          simp [a, b, c, e]
        | remove t => exact absurd h2 id
        | reAdd t f' p' =>
          obtain ⟨a, b, c, e⟩ := h2
          obtain ⟨x, hx⟩ := Option.isSome_iff_exists.1 e
          simp only [AbsDict.step]
          rw [a, hx]
          simp only [content_add]
          simp [AbsDict.remove, a, b, c]
        | recalc => exact absurd h2 id
      · have h1 : ops ++ [op] = (pre ++ op' :: post') ++ [o] := by simpa using h1
        obtain ⟨rfl, h4⟩ := List.append_inj' h1 rfl
        simp at h4; subst h4
        apply content_step_keep
        · exact ih.2 ⟨pre, op', post', rfl, h2, fun o ho => h3 o (by simp [ho])⟩
        · exact h3 op (by simp)

/-- C04: adding a present word changes nothing at all and reports no error. -/
theorem C04_add_present (cfg : SplitCfg) (ops : List (DictOp F)) (hl : ops.length ≤ Trie.valueLimit)
    (d : Dictionary F D) (hr : runOps cfg ops Dictionary.new = some d) (t : Bytes) (f : F) (p : Bytes)
    (hp : (absRun cfg ops).content (normText cfg t) ≠ none) :
    segAddToken cfg d t f p = (d, false) := by
  have h : Rep cfg d (absRun cfg ops) := rep_run ops (rep_new cfg) (by simpa [Dictionary.numTokens, Dictionary.new] using hl) hr
  have hv : d.trie.value (normText cfg t) ≠ none := fun e => hp ((h.value_none_iff _).1 e)
  unfold segAddToken Dictionary.addToken
  dsimp only
  rw [textSliceToBytes_eq, get_eq, show (toToken (D := D) cfg t f p).text.flatten = normText cfg t from flatten_split cfg t]
  cases e : d.trie.value (normText cfg t) with
  | none => exact absurd e hv
  | some v => rfl

/-- C05: `Find`'s flag is true exactly for stored words and non-empty beginnings of stored words; frequency and
tag are zero and empty when the word is not itself stored. -/
theorem C05_find_flag (cfg : SplitCfg) (ops : List (DictOp F)) (hl : ops.length ≤ Trie.valueLimit)
    (d : Dictionary F D) (hr : runOps cfg ops Dictionary.new = some d) (w : Bytes) :
    ∃ f p b, d.find w = some (f, p, b) ∧
      ((absRun cfg ops).content w = none → f = F64.ofNat 0 ∧ p = []) ∧
      (b = true ↔ (absRun cfg ops).content w ≠ none ∨
        (w ≠ [] ∧ ∃ k, (absRun cfg ops).content k ≠ none ∧ w <+: k)) := by
  have h : Rep cfg d (absRun cfg ops) := rep_run ops (rep_new cfg) (by simpa [Dictionary.numTokens, Dictionary.new] using hl) hr
  have hnode : ∀ w, w ≠ [] → (d.trie.isNode w = true ↔ ∃ k, (absRun cfg ops).content k ≠ none ∧ w <+: k) := by
    intro w hw
    rw [isNode_iff]
    constructor
    · rintro (h1 | ⟨k, v, hv, hp⟩)
      · exact absurd h1 hw
      · exact ⟨k, fun e => by rw [(h.value_none_iff k).2 e] at hv; simp at hv, hp⟩
    · rintro ⟨k, hk, hp⟩
      have : d.trie.value k ≠ none := fun e => hk ((h.value_none_iff k).1 e)
      obtain ⟨v, hv⟩ := Option.ne_none_iff_exists'.1 this
      exact .inr ⟨k, v, hv, hp⟩
  cases hc : (absRun cfg ops).content w with
  | some e =>
    exact ⟨e.1, e.2, true, (C04_find_history cfg ops hl d hr w).1 _ _ hc, by simp, by simp⟩
  | none =>
    have hv := (h.value_none_iff w).2 hc
    by_cases hw : w = []
    · subst hw
      refine ⟨F64.ofNat 0, [], false, ?_, by simp, by simp⟩
      simp [Dictionary.find, jump, isNode, hv]
    · cases hn : d.trie.isNode w with
      | true =>
        refine ⟨F64.ofNat 0, [], true, by simp [Dictionary.find, jump, hn, hv, hw], by simp, ?_⟩
        simpa [hw] using (hnode w hw).1 hn
      | false =>
        refine ⟨F64.ofNat 0, [], false, by simp [Dictionary.find, jump, hn], by simp, ?_⟩
        have := mt (hnode w hw).2 (by simp [hn])
        simp only [Bool.false_eq_true, false_iff, not_or]
        exact ⟨by simp, fun hh => this hh.2⟩

/-- C06: the counters account for every word ever stored, in order; removal does not change them. -/
theorem C06_counters (cfg : SplitCfg) (ops : List (DictOp F)) (hl : ops.length ≤ Trie.valueLimit)
    (d : Dictionary F D) (hr : runOps cfg ops Dictionary.new = some d) :
    d.numTokens = (absRun cfg ops).stored.length ∧
    d.totalFreq = ((absRun cfg ops).stored.map (·.2)).foldl F64.add (F64.ofNat 0) ∧
    (∀ e ∈ (absRun cfg ops).stored, (splitTextToWords cfg e.1).length ≤ d.maxTokenLen) ∧
    (d.maxTokenLen = 0 ∨ ∃ e ∈ (absRun cfg ops).stored, (splitTextToWords cfg e.1).length = d.maxTokenLen) := by
  have h : Rep cfg d (absRun cfg ops) := rep_run ops (rep_new cfg) (by simpa [Dictionary.numTokens, Dictionary.new] using hl) hr
  have hmax : ∀ (l : List Nat) (a : Nat), (a ≤ l.foldl max a ∧ ∀ x ∈ l, x ≤ l.foldl max a) ∧
      (l.foldl max a = a ∨ l.foldl max a ∈ l) := by
    intro l
    induction l with
    | nil => simp
    | cons x l ih =>
      intro a
      obtain ⟨⟨h1, h2⟩, h3⟩ := ih (max a x)
      simp only [List.foldl_cons, List.mem_cons]
      refine ⟨⟨by omega, ?_⟩, ?_⟩
      · rintro y (rfl | hy)
        · omega
        · exact h2 y hy
      · rcases h3 with h3 | h3
        · by_cases hax : x ≤ a
          · left; rw [h3]; omega
          · right; left; rw [h3]; omega
        · exact .inr (.inr h3)
  have hm := hmax ((absRun cfg ops).stored.map fun e => (splitTextToWords cfg e.1).length) 0
  rw [← h.maxLen] at hm
  refine ⟨h.numTokens, h.total, ?_, ?_⟩
  · intro e he
    exact hm.1.2 _ (List.mem_map.2 ⟨e, he, rfl⟩)
  · rcases hm.2 with h1 | h1
    · exact .inl h1
    · obtain ⟨e, he, h2⟩ := List.mem_map.1 h1
      exact .inr ⟨e, he, h2⟩

/-- C06: what is counted as stored: an add counts exactly when the word is absent, a re-add exactly when it is
present, nothing else counts. -/
theorem C06_stored_step (cfg : SplitCfg) (ops : List (DictOp F)) (op : DictOp F) :
    (absRun cfg (ops ++ [op])).stored = (absRun cfg ops).stored ++
      (match op with
      | .add t f _ => if (absRun cfg ops).content (normText cfg t) = none then [(t, f)] else []
      | .addForce t f _ => if (absRun cfg ops).content (normText cfg t) = none then [(t, f)] else []
      | .reAdd t f _ => if (absRun cfg ops).content (normText cfg t) = none then [] else [(t, f)]
      | _ => []) := by
  rw [absRun_snoc]
  cases op with
  | add t f p =>
    simp only [AbsDict.step, AbsDict.add]
    cases h : (absRun cfg ops).content (normText cfg t) <;> simp
  | addForce t f p =>
    simp only [AbsDict.step, AbsDict.add]
    cases h : (absRun cfg ops).content (normText cfg t) <;> simp
  | remove t => simp [AbsDict.step, AbsDict.remove]
  | reAdd t f p =>
    simp only [AbsDict.step, AbsDict.add, AbsDict.remove]
    cases h : (absRun cfg ops).content (normText cfg t) <;> simp
  | recalc => simp [AbsDict.step]

/-- C07: `LookupTokens` on an initial run `ws` of the words following some position of a split text returns, without
panic, exactly the stored tokens whose text is an initial run of `ws`, in increasing length. -/
theorem C07_lookup [UnicodeOK] (cfg : SplitCfg) (ops : List (DictOp F)) (hl : ops.length ≤ Trie.valueLimit)
    (d : Dictionary F D) (hr : runOps cfg ops Dictionary.new = some d)
    (s : Bytes) (l ws r : List Bytes) (hs : splitTextToWords cfg s = l ++ ws ++ r) (cap : Nat) (hc : ws.length ≤ cap) :
    ∃ (vs ns : List Nat), d.lookupTokens ws cap = some vs ∧ vs.length ≤ cap ∧ ns.Pairwise (· < ·) ∧
      (∀ n, n ∈ ns ↔ 1 ≤ n ∧ n ≤ ws.length ∧ (absRun cfg ops).content (ws.take n).flatten ≠ none) ∧
      List.Forall₂ (fun v n => ∃ t, d.tokens[v]? = some t ∧ t.text = ws.take n ∧
        (absRun cfg ops).content (ws.take n).flatten = some (t.freq, t.pos)) vs ns := by
  have h : Rep cfg d (absRun cfg ops) := rep_run ops (rep_new cfg) (by simpa [Dictionary.numTokens, Dictionary.new] using hl) hr
  have hlk := h.wf.lookup ws cap hc
  refine ⟨_, ((List.range ws.length).filter fun n => (d.trie.value (ws.take (n + 1)).flatten).isSome).map (· + 1),
    hlk, ?_, ?_, ?_, ?_⟩
  · refine Nat.le_trans (List.length_filterMap_le _ _) (by simpa using hc)
  · rw [List.pairwise_map]
    have : List.Pairwise (fun a b => a < b) (List.range ws.length) := List.pairwise_lt_range
    exact (this.sublist List.filter_sublist).imp (by intro a b h; omega)
  · intro n
    simp only [List.mem_map, List.mem_filter, List.mem_range]
    constructor
    · rintro ⟨m, ⟨h1, h2⟩, rfl⟩
      refine ⟨by omega, by omega, fun e => ?_⟩
      rw [(h.value_none_iff _).2 e] at h2; simp at h2
    · rintro ⟨h1, h2, h3⟩
      refine ⟨n - 1, ⟨by omega, ?_⟩, by omega⟩
      have e : n - 1 + 1 = n := by omega
      rw [e]
      exact Option.ne_none_iff_isSome.1 fun hv => h3 ((h.value_none_iff _).1 hv)
  · have key : ∀ L : List Nat, List.Forall₂ (fun v n => ∃ t, d.tokens[v]? = some t ∧ t.text = ws.take n ∧
        (absRun cfg ops).content (ws.take n).flatten = some (t.freq, t.pos))
        (L.filterMap fun n => d.trie.value (ws.take (n + 1)).flatten)
        ((L.filter fun n => (d.trie.value (ws.take (n + 1)).flatten).isSome).map (· + 1)) := by
      intro L
      induction L with
      | nil => exact .nil
      | cons n L ih =>
        cases hv : d.trie.value (ws.take (n + 1)).flatten with
        | none => simpa [hv] using ih
        | some v =>
          have hsplit : splitTextToWords cfg s = l ++ ws.take (n + 1) ++ (ws.drop (n + 1) ++ r) := by
            rw [hs]
            rw [List.append_assoc l (List.take _ _), ← List.append_assoc (List.take _ _), List.take_append_drop,
              List.append_assoc]
          obtain ⟨t, h1, h2, _⟩ := h.wf.coh.text_eq hsplit hv
          simp only [List.filterMap_cons, hv, List.filter_cons, Option.isSome_some, if_true, List.map_cons]
          refine .cons ⟨t, h1, h2, ?_⟩ ih
          rw [← h.content, hv]; simp [h1]
    exact key _

end

section examples
attribute [local instance] sampleUnicode sampleUnicodeOK sampleF64 sampleF32 sampleNarrow

/-- A history with a duplicate, a removal and a re-add. -/
def sampleOps : List (DictOp Int) :=
  [.add (str "ab") 5 (str "n"), .add (str "AB") 7 (str "v"), .add (str "ab c") 9 (str "x"), .remove (str "ab c"),
   .add (str "ab c") 3 [], .reAdd (str "ab") 8 (str "z"), .recalc]

/-- The history runs and finds the re-added entry (hypotheses of C04–C07 are met). -/
example : ((runOps (D := Int) {} sampleOps Dictionary.new).bind fun d => d.find (str "ab")) = some (8, str "z", true) := by
  decide +kernel
example : ((runOps (D := Int) {} sampleOps Dictionary.new).bind fun d => d.find (str "ab ")) = some (0, [], true) := by
  decide +kernel
example : ((runOps (D := Int) {} sampleOps Dictionary.new).bind fun d => d.find (str "ac")) = some (0, [], false) := by
  decide +kernel
example : ((runOps (D := Int) {} sampleOps Dictionary.new).map fun d => (d.numTokens, d.totalFreq, d.maxTokenLen))
    = some (4, 25, 3) := by decide +kernel
example : ((runOps (D := Int) {} sampleOps Dictionary.new).bind fun d =>
    d.lookupTokens (splitTextToWords {} (str "ab c")) 3) = some [3, 2] := by decide +kernel
example : (absRun {} sampleOps).content (str "ab") = some (8, str "z") := by decide +kernel
end examples

end Gse
