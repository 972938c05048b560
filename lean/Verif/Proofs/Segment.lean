import Verif.Proofs.History

/-! `segmentWords`: the jumper table, step by step. -/

namespace Gse

set_option linter.unusedSectionVars false
open Spec Trie

theorem slice_length {α : Type} (s : List α) (a b : Nat) (h : b ≤ s.length) : (slice s a b).length = b - a := by
  simp [slice]; omega

theorem take_slice {α : Type} (s : List α) (a b m : Nat) (h : a + m ≤ b) : (slice s a b).take m = slice s a (a + m) := by
  simp [slice, List.take_take]; omega

theorem slice_succ {α : Type} (s : List α) (a : Nat) (h : a < s.length) : slice s a (a + 1) = [s[a]] := by
  simp only [slice, Nat.add_sub_cancel_left]
  rw [List.drop_eq_getElem_cons h, List.take_succ_cons, List.take_zero]

theorem split_slice {α : Type} (s : List α) (a b : Nat) (h : a ≤ b) :
    s = s.take a ++ slice s a b ++ s.drop b := by
  have : s.take a ++ slice s a b = s.take b := by
    have e : s.take b = (s.take b).take a ++ (s.take b).drop a := (List.take_append_drop _ _).symm
    rw [e, List.take_take, Nat.min_eq_left h, List.drop_take, slice]
  rw [this, List.take_append_drop]

variable {F D : Type} [F64 F] [F32 D] [Narrow F D] [Unicode]

/-- The words looked at form a split text. -/
def IsSplitText (cfg : SplitCfg) (ws : List Bytes) : Prop := ∃ s, splitTextToWords cfg s = ws

theorem IsSplitText.slice [UnicodeOK] {cfg : SplitCfg} {d : Dictionary F D} (h : d.Coh cfg) {ws : List Bytes}
    (hs : IsSplitText cfg ws) {a b : Nat} (hab : a ≤ b) {v : Nat} (hv : d.trie.value (slice ws a b).flatten = some v) :
    ∃ t, d.tokens[v]? = some t ∧ t.text = Gse.slice ws a b ∧ (Gse.slice ws a b).length ≤ d.maxTokenLen := by
  obtain ⟨s, hs⟩ := hs
  exact h.text_eq (hs.trans (split_slice ws a b hab)) hv

theorem IsSplitText.ne_nil {cfg : SplitCfg} {ws : List Bytes} (hs : IsSplitText cfg ws) {w : Bytes} (hw : w ∈ ws) : w ≠ [] := by
  obtain ⟨s, rfl⟩ := hs
  exact split_ne_nil cfg s w hw

/-- The token the search uses from word `c` up to word `k`, with its distance. -/
def edge (d : Dictionary F D) (ws : List Bytes) (sm : Bool) (c k : Nat) : Option (TokRef × D) :=
  if c < k ∧ k ≤ ws.length then
    match d.trie.value (slice ws c k).flatten with
    | some v => if sm = true ∧ c = 0 ∧ k = ws.length then none else (d.tokens[v]?).map fun t => (.idx v, t.distance)
    | none => if k = c + 1 then (ws[c]?).map fun w => (.pseudo w, F32.c32) else none
  else none

/-- Distance up to word `c`. -/
def baseOf (js : List (Jumper D)) (c : Nat) : D :=
  if c = 0 then F32.zero else match js[c - 1]? with | some j => j.minDistance | none => F32.zero

/-- The table after one outer iteration. -/
def stepped (d : Dictionary F D) (ws : List Bytes) (sm : Bool) (c : Nat) (js : List (Jumper D)) (l : Nat) : Option (Jumper D) :=
  match edge d ws sm c (l + 1) with
  | none => js[l]?
  | some (r, dist) => (js[l]?).map fun j => updateJumper j (baseOf js c) r dist

theorem updateAll_spec [UnicodeOK] {cfg : SplitCfg} {d : Dictionary F D} (h : d.Coh cfg) {ws : List Bytes} (hs : IsSplitText cfg ws)
    (sm : Bool) (c : Nat) (base : D) (L : List Nat) (hnd : L.Nodup) (hL : ∀ m ∈ L, c + m + 1 ≤ ws.length) :
    ∀ js : List (Jumper D), js.length = ws.length →
    ∃ js', updateAll d ws.length sm c base (L.filterMap fun m => d.trie.value (slice ws c (c + m + 1)).flatten) js = some js' ∧
      js'.length = ws.length ∧
      ∀ l, js'[l]? = if l - c ∈ L ∧ c ≤ l then
          (match d.trie.value (slice ws c (l + 1)).flatten with
          | some v => if sm = true ∧ c = 0 ∧ l + 1 = ws.length then js[l]? else
              (js[l]?).bind fun j => (d.tokens[v]?).map fun t => updateJumper j base (.idx v) t.distance
          | none => js[l]?)
        else js[l]? := by
  induction L with
  | nil => intro js hjs; exact ⟨js, by simp [updateAll], hjs, by simp⟩
  | cons m L ih =>
    intro js hjs
    have hnd' := List.nodup_cons.1 hnd
    have ih := ih hnd'.2 (fun x hx => hL x (by simp [hx]))
    have hm := hL m (by simp)
    cases hv : d.trie.value (slice ws c (c + m + 1)).flatten with
    | none =>
      obtain ⟨js', h1, h2, h3⟩ := ih js hjs
      refine ⟨js', by simp [hv, h1], h2, ?_⟩
      intro l
      rw [h3 l]
      by_cases hc : l - c = m ∧ c ≤ l
      · have e : l + 1 = c + m + 1 := by omega
        have hnm : ¬ (l - c ∈ L ∧ c ≤ l) := fun hh => hnd'.1 (hc.1 ▸ hh.1)
        have hmm : (l - c ∈ m :: L ∧ c ≤ l) := ⟨by simp [hc.1], hc.2⟩
        rw [if_neg hnm, if_pos hmm, e, hv]
      · have : (l - c ∈ m :: L ∧ c ≤ l) ↔ (l - c ∈ L ∧ c ≤ l) := by
          simp only [List.mem_cons]; constructor
          · rintro ⟨h1 | h1, h2⟩
            · exact absurd ⟨h1, h2⟩ hc
            · exact ⟨h1, h2⟩
          · rintro ⟨h1, h2⟩; exact ⟨.inr h1, h2⟩
        simp only [this]
    | some v =>
      obtain ⟨t, ht, htx, _⟩ := hs.slice h (by omega) hv
      have hlen : t.text.length = m + 1 := by rw [htx, slice_length _ _ _ hm]; omega
      simp only [List.filterMap_cons, hv]
      rw [updateAll, ht]
      simp only [hlen]
      by_cases hex : sm = true ∧ c = 0 ∧ c + m + 1 = ws.length
      · have hcond : (!sm || decide (c ≠ 0) || decide (c + (m + 1) ≠ ws.length)) = false := by
          simp [hex.1, hex.2.1]; have := hex.2.2; omega
        rw [hcond]
        simp only [Bool.false_eq_true, if_false]
        obtain ⟨js', h1, h2, h3⟩ := ih js hjs
        refine ⟨js', h1, h2, ?_⟩
        intro l
        rw [h3 l]
        by_cases hc : l - c = m ∧ c ≤ l
        · have e : l + 1 = c + m + 1 := by omega
          have hnm : ¬ (l - c ∈ L ∧ c ≤ l) := fun hh => hnd'.1 (hc.1 ▸ hh.1)
          have hmm : (l - c ∈ m :: L ∧ c ≤ l) := ⟨by simp [hc.1], hc.2⟩
          rw [if_neg hnm, if_pos hmm, e, hv]
          simp only
          rw [if_pos hex]
        · have : (l - c ∈ m :: L ∧ c ≤ l) ↔ (l - c ∈ L ∧ c ≤ l) := by
            simp only [List.mem_cons]; constructor
            · rintro ⟨h1 | h1, h2⟩
              · exact absurd ⟨h1, h2⟩ hc
              · exact ⟨h1, h2⟩
            · rintro ⟨h1, h2⟩; exact ⟨.inr h1, h2⟩
          simp only [this]
      · have hcond : (!sm || decide (c ≠ 0) || decide (c + (m + 1) ≠ ws.length)) = true := by
          simp
          by_cases h1 : sm = true
          · by_cases h2 : c = 0
            · right; intro e; exact hex ⟨h1, h2, by omega⟩
            · left; right; exact h2
          · left; left; simpa using h1
        rw [hcond]
        simp only [if_true]
        rw [if_neg (by omega)]
        have hidx : c + (m + 1) - 1 < js.length := by omega
        obtain ⟨j, hj⟩ : ∃ j, js[c + (m + 1) - 1]? = some j := ⟨_, List.getElem?_eq_getElem hidx⟩
        rw [hj]
        simp only
        obtain ⟨js', h1, h2, h3⟩ := ih (js.set (c + (m + 1) - 1) (updateJumper j base (.idx v) t.distance)) (by simpa using hjs)
        refine ⟨js', h1, h2, ?_⟩
        intro l
        rw [h3 l]
        by_cases hc : l - c = m ∧ c ≤ l
        · have e : l + 1 = c + m + 1 := by omega
          have e2 : l = c + (m + 1) - 1 := by omega
          have hnm : ¬ (l - c ∈ L ∧ c ≤ l) := fun hh => hnd'.1 (hc.1 ▸ hh.1)
          have hmm : (l - c ∈ m :: L ∧ c ≤ l) := ⟨by simp [hc.1], hc.2⟩
          rw [if_neg hnm, if_pos hmm, e, hv]
          simp only
          rw [if_neg hex, e2, List.getElem?_set_self hidx, hj, ht]
          simp
        · have : (l - c ∈ m :: L ∧ c ≤ l) ↔ (l - c ∈ L ∧ c ≤ l) := by
            simp only [List.mem_cons]; constructor
            · rintro ⟨h1 | h1, h2⟩
              · exact absurd ⟨h1, h2⟩ hc
              · exact ⟨h1, h2⟩
            · rintro ⟨h1, h2⟩; exact ⟨.inr h1, h2⟩
          have hne : c + (m + 1) - 1 ≠ l := by
            intro e
            exact hc ⟨by omega, by omega⟩
          simp only [this, List.getElem?_set_ne hne]

/-- One outer iteration never panics and updates the table edge by edge. -/
theorem segStep_spec [UnicodeOK] {cfg : SplitCfg} {d : Dictionary F D} (h : d.Coh cfg) {ws : List Bytes} (hs : IsSplitText cfg ws)
    (sm : Bool) (c : Nat) (hc : c < ws.length) (js : List (Jumper D)) (hjs : js.length = ws.length) :
    ∃ js', segStep d ws sm c js = some js' ∧ js'.length = ws.length ∧
      ∀ l, js'[l]? = stepped d ws sm c js l := by
  have hbase : baseDistance js c = some (baseOf js c) := by
    unfold baseOf baseDistance
    split
    · rfl
    · have : c - 1 < js.length := by omega
      rw [List.getElem?_eq_getElem this]; rfl
  -- the lookup
  have htxl : (slice ws c (min (c + d.maxTokenLen) ws.length)).length = min (c + d.maxTokenLen) ws.length - c :=
    slice_length _ _ _ (by omega)
  have hlk := h.lookup (slice ws c (min (c + d.maxTokenLen) ws.length)) d.maxTokenLen (by rw [htxl]; omega)
  rw [htxl] at hlk
  -- rewrite to slices of the text
  have hfm : (List.range (min (c + d.maxTokenLen) ws.length - c)).filterMap
        (fun n => d.trie.value ((slice ws c (min (c + d.maxTokenLen) ws.length)).take (n + 1)).flatten)
      = (List.range (min (c + d.maxTokenLen) ws.length - c)).filterMap
        (fun m => d.trie.value (slice ws c (c + m + 1)).flatten) := by
    apply List.filterMap_congr
    intro m hm
    rw [List.mem_range] at hm
    rw [take_slice _ _ _ _ (by omega)]; rfl
  rw [hfm] at hlk
  obtain ⟨js1, h1, h2, h3⟩ := updateAll_spec h hs sm c (baseOf js c) (List.range (min (c + d.maxTokenLen) ws.length - c))
    List.nodup_range (by intro m hm; rw [List.mem_range] at hm; omega) js hjs
  -- value of the single word
  have hsucc : slice ws c (c + 1) = [ws[c]] := slice_succ ws c hc
  have hwne : ws[c] ≠ [] := hs.ne_nil (List.getElem_mem hc)
  have hmaxpos : ∀ k v, c < k → d.trie.value (slice ws c k).flatten = some v → k ≤ ws.length → k - c ≤ d.maxTokenLen := by
    intro k v hk hv hkl
    obtain ⟨t, _, _, h5⟩ := hs.slice h (by omega) hv
    rwa [slice_length _ _ _ hkl] at h5
  have hmem : ∀ l, c ≤ l → l < ws.length → (∃ v, d.trie.value (slice ws c (l + 1)).flatten = some v) →
      l - c ∈ List.range (min (c + d.maxTokenLen) ws.length - c) := by
    rintro l h1 h2 ⟨v, hv⟩
    have := hmaxpos (l + 1) v (by omega) hv (by omega)
    rw [List.mem_range]; omega
  -- table after the tokens
  have hjs1 : ∀ l, js1[l]? = if c ≤ l ∧ l < ws.length then
      (match d.trie.value (slice ws c (l + 1)).flatten with
          | some v => if sm = true ∧ c = 0 ∧ l + 1 = ws.length then js[l]? else
              (js[l]?).bind fun j => (d.tokens[v]?).map fun t => updateJumper j (baseOf js c) (.idx v) t.distance
          | none => js[l]?) else js[l]? := by
    intro l
    rw [h3 l]
    by_cases hcl : c ≤ l ∧ l < ws.length
    · rw [if_pos hcl]
      cases hv : d.trie.value (slice ws c (l + 1)).flatten with
      | none => split <;> rfl
      | some v => rw [if_pos ⟨hmem l hcl.1 hcl.2 ⟨v, hv⟩, hcl.1⟩]
    · rw [if_neg hcl, if_neg]
      rintro ⟨h4, h5⟩
      rw [List.mem_range] at h4
      omega
  -- need a pseudo token?
  have hneed : needPseudo d ((List.range (min (c + d.maxTokenLen) ws.length - c)).filterMap
        (fun m => d.trie.value (slice ws c (c + m + 1)).flatten)) = some (d.trie.value ws[c]).isNone := by
      cases hv : d.trie.value ws[c] with
      | some v =>
        have hv' : d.trie.value (slice ws c (c + 1)).flatten = some v := by rw [hsucc]; simpa using hv
        have hl := hmaxpos (c + 1) v (by omega) hv' (by omega)
        obtain ⟨t, ht, htx, _⟩ := hs.slice h (by omega) hv'
        have hr : List.range (min (c + d.maxTokenLen) ws.length - c)
            = 0 :: (List.range (min (c + d.maxTokenLen) ws.length - c - 1)).map (· + 1) := by
          have : min (c + d.maxTokenLen) ws.length - c = (min (c + d.maxTokenLen) ws.length - c - 1) + 1 := by omega
          rw [this, List.range_succ_eq_map]; simp
        rw [hr]
        simp only [List.filterMap_cons, Nat.add_zero, hv']
        rw [hsucc] at htx
        simp [needPseudo, ht, htx]
      | none =>
        unfold needPseudo
        split
        · rfl
        · rename_i v rest hl
          have hvm : v ∈ (List.range (min (c + d.maxTokenLen) ws.length - c)).filterMap
              (fun m => d.trie.value (slice ws c (c + m + 1)).flatten) := by rw [hl]; simp
          obtain ⟨m, hm, hvv⟩ := List.mem_filterMap.1 hvm
          rw [List.mem_range] at hm
          obtain ⟨t, ht, htx, _⟩ := hs.slice h (by omega) hvv
          rw [ht]
          have hlen : t.text.length = m + 1 := by rw [htx, slice_length _ _ _ (by omega)]; omega
          have : m ≠ 0 := by
            rintro rfl
            rw [Nat.add_zero, hsucc] at hvv
            simp [hv] at hvv
          simp [hlen]; omega
  -- assemble
  have hsplit : segStep d ws sm c js = (if (d.trie.value ws[c]).isNone then
      (js1[c]?).map fun j => js1.set c (updateJumper j (baseOf js c) (.pseudo ws[c]) F32.c32) else some js1) := by
    unfold segStep
    simp only [Option.bind_eq_bind, hbase, Option.bind_some, hlk, h1, hneed]
    cases (d.trie.value ws[c]).isNone
    · rfl
    · simp only [cond_true, if_true, addPseudo, Option.bind_eq_bind]
      rw [List.getElem?_eq_getElem hc, Option.bind_some]
      cases js1[c]? <;> rfl
  rw [hsplit]
  have hc1 : c < js1.length := by omega
  cases hv : d.trie.value ws[c] with
  | some v =>
    have hv' : d.trie.value (slice ws c (c + 1)).flatten = some v := by rw [hsucc]; simpa using hv
    simp only [Option.isNone_some, Bool.false_eq_true, if_false]
    refine ⟨js1, rfl, h2, ?_⟩
    intro l
    rw [hjs1 l, stepped, edge]
    by_cases hcl : c ≤ l ∧ l < ws.length
    · rw [if_pos hcl, if_pos (by omega)]
      cases hvl : d.trie.value (slice ws c (l + 1)).flatten with
      | none =>
        have : l ≠ c := by rintro rfl; rw [hv'] at hvl; simp at hvl
        rw [if_neg (by omega)]
      | some v' =>
        simp only
        by_cases hex : sm = true ∧ c = 0 ∧ l + 1 = ws.length
        · simp only [if_pos hex]
        · simp only [if_neg hex]
          obtain ⟨t, ht, _, _⟩ := hs.slice h (by omega) hvl
          rw [ht]
          cases js[l]? <;> rfl
    · rw [if_neg hcl, if_neg (by omega)]
  | none =>
    have hv' : d.trie.value (slice ws c (c + 1)).flatten = none := by rw [hsucc]; simpa using hv
    simp only [Option.isNone_none, if_true]
    rw [List.getElem?_eq_getElem hc1]
    refine ⟨_, rfl, by simpa using h2, ?_⟩
    intro l
    rw [stepped, edge]
    by_cases hlc : l = c
    · subst hlc
      rw [List.getElem?_set_self hc1, if_pos (by omega), hv']
      simp only [if_true]
      have := hjs1 l
      rw [if_pos (by omega), hv'] at this
      simp only at this
      rw [List.getElem?_eq_getElem hc1] at this
      rw [← this, List.getElem?_eq_getElem hc]
      rfl
    · rw [List.getElem?_set_ne (Ne.symm hlc), hjs1 l]
      by_cases hcl : c ≤ l ∧ l < ws.length
      · rw [if_pos hcl, if_pos (by omega)]
        cases hvl : d.trie.value (slice ws c (l + 1)).flatten with
        | none => rw [if_neg (by omega)]
        | some v' =>
          simp only
          by_cases hex : sm = true ∧ c = 0 ∧ l + 1 = ws.length
          · simp only [if_pos hex]
          · simp only [if_neg hex]
            obtain ⟨t, ht, _, _⟩ := hs.slice h (by omega) hvl
            rw [ht]
            cases js[l]? <;> rfl
      · rw [if_neg hcl, if_neg (by omega)]

end Gse
