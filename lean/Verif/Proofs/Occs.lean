import Verif.Proofs.Dag
import Mathlib.Data.List.Basic

/-! # FindAllOccs and Analyze -/

namespace Gse
open Spec Trie

set_option linter.unusedSectionVars false
set_option linter.unusedSimpArgs false

theorem lastIndex_spec (sub s : Bytes) :
    (∀ i, lastIndex sub s = some i → OccAt s sub i ∧ ∀ j, OccAt s sub j → j ≤ i) ∧
    (lastIndex sub s = none → ∀ j, ¬ OccAt s sub j) := by
  induction s with
  | nil =>
    unfold lastIndex
    by_cases h : sub = []
    · subst h
      simp [OccAt]
    · simp only [h, if_false]
      refine ⟨by simp, fun _ j hj => ?_⟩
      obtain ⟨_, h2⟩ := hj
      simp at h2
      exact h h2
  | cons b t ih =>
    have hsucc : ∀ j, OccAt (b :: t) sub (j + 1) ↔ OccAt t sub j := by
      intro j; simp [OccAt]
    unfold lastIndex
    cases hl : lastIndex sub t with
    | some i =>
      simp only [Option.some.injEq, reduceCtorEq, false_imp_iff, and_true]
      rintro _ rfl
      obtain ⟨h1, h2⟩ := ih.1 i hl
      refine ⟨(hsucc i).2 h1, ?_⟩
      intro j hj
      cases j with
      | zero => omega
      | succ j => have := h2 j ((hsucc j).1 hj); omega
    | none =>
      have h0 := ih.2 hl
      simp only
      by_cases hp : sub <+: b :: t
      · rw [if_pos (by simpa using hp)]
        refine ⟨?_, by simp⟩
        rintro i hi
        simp at hi; subst hi
        refine ⟨⟨by simp, by simpa using hp⟩, ?_⟩
        intro j hj
        cases j with
        | zero => omega
        | succ j => exact absurd ((hsucc j).1 hj) (h0 j)
      · rw [if_neg (by simpa using hp)]
        refine ⟨by simp, fun _ j hj => ?_⟩
        cases j with
        | zero => exact hp (by simpa using hj.2)
        | succ j => exact h0 j ((hsucc j).1 hj)

theorem occAt_take {data sub : Bytes} {index m : Nat} (hi : index ≤ data.length) :
    OccAt (data.take index) sub m ↔ OccAt data sub m ∧ m + sub.length ≤ index := by
  unfold OccAt
  constructor
  · rintro ⟨h1, h2⟩
    have hl := h2.length_le
    simp at h1 hl
    refine ⟨⟨by omega, ?_⟩, by omega⟩
    rw [List.drop_take] at h2
    exact h2.trans (List.take_prefix _ _)
  · rintro ⟨⟨h1, h2⟩, h3⟩
    refine ⟨by simp; omega, ?_⟩
    rw [List.drop_take, List.prefix_take_iff]
    exact ⟨h2, by omega⟩

theorem occsFrom_eq (data sub : Bytes) (hs : sub ≠ []) (n index : Nat) (hi : index ≤ data.length) (hn : index < n) :
    ∃ l, occsFrom data sub n index = some l ∧ RightOccs data sub index l := by
  have hlen : 0 < sub.length := List.length_pos_iff.2 hs
  induction n generalizing index with
  | zero => omega
  | succ n ih =>
    unfold occsFrom
    obtain ⟨h1, h2⟩ := lastIndex_spec sub (data.take index)
    cases hl : lastIndex sub (data.take index) with
    | none =>
      refine ⟨[], rfl, .nil fun m hm hle => ?_⟩
      exact h2 hl m ((occAt_take hi).2 ⟨hm, hle⟩)
    | some m =>
      obtain ⟨a, b⟩ := h1 m hl
      obtain ⟨a1, a2⟩ := (occAt_take hi).1 a
      obtain ⟨l, e1, e2⟩ := ih m (by omega) (by omega)
      refine ⟨m :: l, by simp [e1], .cons a1 a2 (fun m' hm' hle => b m' ((occAt_take hi).2 ⟨hm', hle⟩)) e2⟩

theorem lastIndex_empty (s : Bytes) : lastIndex [] s = some s.length := by
  induction s with
  | nil => rfl
  | cons b t ih => simp [lastIndex, ih]

theorem occsFrom_empty (data : Bytes) (n index : Nat) : occsFrom data [] n index = none := by
  induction n generalizing index with
  | zero => rfl
  | succ n ih =>
    unfold occsFrom
    rw [lastIndex_empty]
    simp [ih]

theorem rightOccs_unique {data sub : Bytes} {index : Nat} {l l' : List Nat} (h : RightOccs data sub index l) (h' : RightOccs data sub index l') :
    l = l' := by
  induction h generalizing l' with
  | nil h1 =>
    cases h' with
    | nil _ => rfl
    | cons a b _ _ => exact absurd b (h1 _ a)
  | cons a b c _ ih =>
    cases h' with
    | nil h1 => exact absurd b (h1 _ a)
    | cons a' b' c' d' =>
      have h1 := c _ a' b'
      have h2 := c' _ a b
      have e := Nat.le_antisymm h1 h2
      subst e
      rw [ih d']

theorem rightOccs_mem {data sub : Bytes} {index : Nat} {l : List Nat} (h : RightOccs data sub index l) :
    ∀ m ∈ l, OccAt data sub m ∧ m + sub.length ≤ index := by
  induction h with
  | nil _ => simp
  | cons a b _ _ ih =>
    intro m hm
    rcases List.mem_cons.1 hm with rfl | hm
    · exact ⟨a, b⟩
    · have := ih m hm
      exact ⟨this.1, by omega⟩

theorem rightOccs_pairwise {data sub : Bytes} {index : Nat} {l : List Nat} (h : RightOccs data sub index l) :
    l.Pairwise fun a b => b + sub.length ≤ a := by
  induction h with
  | nil _ => simp
  | cons _ _ _ d ih =>
    rw [List.pairwise_cons]
    exact ⟨fun b hb => (rightOccs_mem d b hb).2, ih⟩

/-- Every occurrence overlaps a reported one that does not start before it. -/
theorem rightOccs_complete {data sub : Bytes} {index : Nat} {l : List Nat} (h : RightOccs data sub index l) (hs : sub ≠ []) (m : Nat)
    (hm : OccAt data sub m) (hi : m + sub.length ≤ index) : ∃ r ∈ l, m ≤ r ∧ r < m + sub.length := by
  have hlen : 0 < sub.length := List.length_pos_iff.2 hs
  induction h with
  | nil h1 => exact absurd hi (h1 m hm)
  | @cons index r l a b c d ih =>
    by_cases hr : m + sub.length ≤ r
    · obtain ⟨x, hx, h'⟩ := ih hr
      exact ⟨x, by simp [hx], h'⟩
    · exact ⟨r, by simp, c m hm hi, by omega⟩

/-- The list of right-to-left occurrences. -/
def occList (data sub : Bytes) : List Nat := (occsFrom data sub (data.length + 2) data.length).getD []

theorem occList_eq {data sub : Bytes} (hs : sub ≠ []) :
    occsFrom data sub (data.length + 2) data.length = some (occList data sub) ∧ RightOccs data sub data.length (occList data sub) := by
  obtain ⟨l, h1, h2⟩ := occsFrom_eq data sub hs (data.length + 2) data.length (Nat.le_refl _) (by omega)
  unfold occList
  rw [h1]
  exact ⟨rfl, h2⟩

theorem findAllOccs_eq (data : Bytes) (searches : List Bytes) (h : ∀ s ∈ searches, s ≠ []) :
    findAllOccs data searches = some (searches.map fun s => (s, occList data s)) := by
  unfold findAllOccs
  apply mapOpt_eq_map
  intro s hs
  rw [(occList_eq (h s hs)).1]
  rfl

theorem occsOf_eq (data : Bytes) (searches : List Bytes) (k : Bytes) :
    occsOf (searches.map fun s => (s, occList data s)) k = (List.replicate (searches.count k) (occList data k)).flatten := by
  unfold occsOf
  induction searches with
  | nil => rfl
  | cons s ss ih =>
    rw [List.map_cons, List.filter_cons]
    by_cases h : s = k
    · subst h
      simp only [decide_true, if_true, List.flatMap_cons, ih, List.count_cons_self, List.replicate_succ, List.flatten_cons]
    · rw [if_neg (by simpa using h), ih, List.count_cons_of_ne h]

theorem replicate_flatten_get {α : Type} (l : List α) (hl : l ≠ []) (c j : Nat) (hj : j < c) :
    ∃ x, (List.replicate c l).flatten[j]? = some x ∧ l[j % l.length]? = some x := by
  have hpos : 0 < l.length := List.length_pos_iff.2 hl
  have key : ∀ c j, j < c * l.length → (List.replicate c l).flatten[j]? = l[j % l.length]? := by
    intro c
    induction c with
    | zero => intro j h; simp at h
    | succ c ih =>
      intro j h
      rw [List.replicate_succ, List.flatten_cons]
      by_cases hj : j < l.length
      · rw [List.getElem?_append_left hj, Nat.mod_eq_of_lt hj]
      · rw [List.getElem?_append_right (by omega), ih (j - l.length) (by rw [Nat.succ_mul] at h; omega)]
        congr 1
        exact (Nat.mod_eq_sub_mod (by omega)).symm
  have hlt : j % l.length < l.length := Nat.mod_lt _ hpos
  have : j < c * l.length := Nat.lt_of_lt_of_le hj (Nat.le_mul_of_pos_right c hpos)
  exact ⟨l[j % l.length], by rw [key c j this]; simp [hlt], by simp [hlt]⟩

variable {F D : Type} [F64 F] [F32 D] [Narrow F D]

theorem find_total {d : Dictionary F D} (h : IdxOK d) (w : Bytes) : ∃ f p b, d.find w = some (f, p, b) := by
  cases hs : storedTok d w with
  | some tok => exact ⟨_, _, _, find_stored hs⟩
  | none =>
    by_cases hn : StartsStored d w
    · by_cases hw : w = []
      · subst hw
        have hv := (storedTok_none h).1 hs
        exact ⟨F64.ofNat 0, [], false, by simp [Dictionary.find, jump, isNode, hv]⟩
      · exact ⟨_, _, _, find_starts h hw hs hn⟩
    · exact ⟨_, _, _, find_unknown h hs hn⟩

/-- What is true of the tokens whichever way the offsets are found. -/
def AzBasic (d : Dictionary F D) (k : Nat) (words : List Bytes) (az : List (AnalyzeToken F)) : Prop :=
  az.length = words.length ∧ ∀ (i : Nat) (t : AnalyzeToken F), az[i]? = some t → t.position = k + i ∧ words[i]? = some t.text ∧
    ∃ b, d.find t.text = some (t.freq, t.pos, b)

theorem AzBasic.cons {d : Dictionary F D} {k : Nat} {v : Bytes} {rest : List Bytes} {az : List (AnalyzeToken F)} {s e : Nat} {f : F} {p : Bytes} {b : Bool}
    (h : AzBasic d (k + 1) rest az) (hf : d.find v = some (f, p, b)) : AzBasic d k (v :: rest) (⟨k, s, e, v, f, p⟩ :: az) := by
  refine ⟨by simp [h.1], ?_⟩
  intro i t ht
  cases i with
  | zero => simp at ht; subst ht; exact ⟨rfl, rfl, b, hf⟩
  | succ i =>
    obtain ⟨h1, h2, h3⟩ := h.2 i t (by simpa using ht)
    exact ⟨by omega, by simpa using h2, h3⟩

theorem analyze_empty_loop {d : Dictionary F D} (hd : IdxOK d) (by' : Bool) (all : List (Bytes × List Nat)) (rest : List Bytes)
    (k : Nat) (hk : 0 < k) (seen : List Bytes) (start stop : Nat) :
    ∃ az, analyzeLoop d [] by' all k rest seen start stop = some az ∧ AzBasic d k rest az ∧
      ∀ (i : Nat) (t : AnalyzeToken F), az[i]? = some t → t.start = stop + ((rest.take i).map (azLen by')).sum ∧ t.stop = t.start + azLen by' t.text := by
  induction rest generalizing k seen start stop with
  | nil => exact ⟨[], rfl, ⟨rfl, by simp⟩, by simp⟩
  | cons v rest ih =>
    obtain ⟨f, p, b, hf⟩ := find_total hd v
    obtain ⟨az, h1, h2, h3⟩ := ih (k + 1) (by omega) (seen ++ [v]) stop (stop + azLen by' v)
    refine ⟨⟨k, stop, stop + azLen by' v, v, f, p⟩ :: az, ?_, h2.cons hf, ?_⟩
    · unfold analyzeLoop
      simp [hk, hf, h1]
    · intro i t ht
      cases i with
      | zero => simp at ht; subst ht; simp
      | succ i =>
        obtain ⟨a, b⟩ := h3 i t (by simpa using ht)
        refine ⟨?_, b⟩
        rw [a]; simp; omega

/-- The start of a word in the text: the occurrence for its rank among equal words, or what the token before had. -/
def startOf (t1 : Bytes) (before : List Bytes) (prev : Nat) (w : Bytes) : Nat :=
  if occList t1 w = [] then prev else (occList t1 w).getD (before.count w % (occList t1 w).length) 0

theorem analyze_text_loop {d : Dictionary F D} (hd : IdxOK d) (by' : Bool) (t1 : Bytes) (ht1 : t1 ≠ []) (words : List Bytes) (rest : List Bytes)
    (k : Nat) (seen : List Bytes) (hw : words = seen ++ rest) (start stop : Nat) :
    ∃ az, analyzeLoop d t1 by' (words.map fun s => (s, occList t1 s)) k rest seen start stop = some az ∧ AzBasic d k rest az ∧
      ∀ (i : Nat) (t : AnalyzeToken F), az[i]? = some t →
        t.start = startOf t1 (seen ++ rest.take i) (if i = 0 then start else ((az[i - 1]?).map (·.start)).getD 0) t.text ∧
        t.stop = t.start + t.text.length := by
  induction rest generalizing k seen start stop with
  | nil => exact ⟨[], rfl, ⟨rfl, by simp⟩, by simp⟩
  | cons v rest ih =>
    obtain ⟨f, p, b, hf⟩ := find_total hd v
    have hpair : (if (occsOf (words.map fun s => (s, occList t1 s)) v).length > 0 then
        (occsOf (words.map fun s => (s, occList t1 s)) v)[seen.count v]?.map fun s => (s, s + v.length)
      else some (start, start + v.length)) = some (startOf t1 seen start v, startOf t1 seen start v + v.length) := by
      rw [occsOf_eq]
      by_cases ho : occList t1 v = []
      · rw [ho, if_neg (by simp)]
        simp [startOf, ho]
      · have hc : seen.count v < words.count v := by rw [hw]; simp
        obtain ⟨x, e1, e2⟩ := replicate_flatten_get (occList t1 v) ho (words.count v) (seen.count v) hc
        have hlen : (List.replicate (words.count v) (occList t1 v)).flatten.length > 0 := by
          have := (List.getElem?_eq_some_iff.1 e1).1
          omega
        rw [if_pos hlen, e1]
        simp [startOf, ho, List.getD_eq_getElem?_getD, e2]
    obtain ⟨az, h1, h2, h3⟩ := ih (k + 1) (seen ++ [v]) (by simp [hw]) (startOf t1 seen start v) (startOf t1 seen start v + v.length)
    refine ⟨⟨k, startOf t1 seen start v, startOf t1 seen start v + v.length, v, f, p⟩ :: az, ?_, h2.cons hf, ?_⟩
    · unfold analyzeLoop
      simp only [ht1, if_false]
      rw [hpair]
      simp only [hf, h1]
      rfl
    · intro i t ht
      cases i with
      | zero => simp at ht; subst ht; simp
      | succ i =>
        obtain ⟨a, b⟩ := h3 i t (by simpa using ht)
        refine ⟨?_, b⟩
        rw [a]
        cases i with
        | zero => simp
        | succ i => simp

end Gse
