import Verif.Proofs.DagBest

/-! # Full mode and search mode -/

namespace Gse
open Spec Trie

set_option linter.unusedSectionVars false
set_option linter.unusedSimpArgs false

variable {F D : Type} [F64 F] [F32 D] [Narrow F D]

theorem zip_range_map {α : Type} (f : Nat → α) (n : Nat) :
    (List.range n).zip ((List.range n).map f) = (List.range n).map fun k => (k, f k) := by
  apply List.ext_getElem
  · simp
  · intro i h1 h2; simp

/-- The items `cutAll` emits at position `k` when the last item so far ends at `st`. -/
def emits (d : Dictionary F D) (rs : List Rune) (k st : Nat) : List (Nat × Nat) :=
  if endsFrom d rs k (k + 1) = [] then (if st ≤ k then [(k, k + 1)] else [])
  else (endsFrom d rs k (k + 1)).map fun j => (k, j + 1)

theorem endsFrom_split {d : Dictionary F D} {rs : List Rune} {k : Nat} (hk : k < rs.length) :
    endsFrom d rs k k = (if posWord d (slice rs k (k + 1)) then [k] else []) ++ endsFrom d rs k (k + 1) := by
  unfold endsFrom
  have : List.range' k (rs.length - k) = k :: List.range' (k + 1) (rs.length - (k + 1)) := by
    obtain ⟨m, hm⟩ : ∃ m, rs.length - k = m + 1 := ⟨rs.length - k - 1, by omega⟩
    rw [hm, List.range'_succ]
    congr 2; omega
  rw [this, List.filter_cons]
  split <;> rfl

theorem filter_gt {d : Dictionary F D} {rs : List Rune} {k : Nat} (hk : k < rs.length) :
    (dagSpec d rs k).filter (fun j => j > k) = endsFrom d rs k (k + 1) := by
  have hgt : (endsFrom d rs k (k + 1)).filter (fun j => decide (j > k)) = endsFrom d rs k (k + 1) := by
    rw [List.filter_eq_self]
    intro j hj
    have := (mem_endsFrom.1 hj).1
    simp; omega
  unfold dagSpec
  rw [endsFrom_split hk]
  cases hp : posWord d (slice rs k (k + 1)) with
  | true =>
    rw [if_neg (by simp)]
    rw [List.filter_append, hgt]
    simp
  | false =>
    by_cases he : endsFrom d rs k (k + 1) = []
    · simp [he]
    · simp only [Bool.false_eq_true, if_false, List.nil_append]
      rw [if_neg he, hgt]

theorem cutAllLoop_step {d : Dictionary F D} {rs : List Rune} {k : Nat} (hk : k < rs.length) (rest : List (Nat × List Nat)) (st : Nat) :
    cutAllLoop ((k, dagSpec d rs k) :: rest) st = emits d rs k st ++ cutAllLoop rest (lastEnd (emits d rs k st) st) := by
  rw [cutAllLoop]
  simp only
  rw [filter_gt hk]
  by_cases he : endsFrom d rs k (k + 1) = []
  · have hd : dagSpec d rs k = [k] := by
      unfold dagSpec
      rw [endsFrom_split hk, he]
      cases posWord d (slice rs k (k + 1)) <;> simp
    unfold emits
    rw [if_pos he]
    by_cases hs : st ≤ k
    · rw [if_pos ⟨by simp [hd], by omega⟩, if_pos hs]
      simp [hd, lastEnd]
    · rw [if_neg (by simp; omega), if_neg hs, he]
      simp [lastEnd]
  · have hl : (((endsFrom d rs k (k + 1)).getLast?.map (· + 1)).getD st) = lastEnd (emits d rs k st) st := by
      unfold lastEnd emits
      rw [if_neg he]
      simp [List.getLast?_map, Function.comp_def]
    have hem : emits d rs k st = (endsFrom d rs k (k + 1)).map fun j => (k, j + 1) := by
      unfold emits; rw [if_neg he]
    split
    · rename_i h
      obtain ⟨h1, h2⟩ := h
      -- the only end is the one above k
      have : dagSpec d rs k = endsFrom d rs k (k + 1) := by
        have hf := filter_gt (d := d) hk
        obtain ⟨j, hj⟩ := List.length_eq_one_iff.1 h1
        rw [hj] at hf ⊢
        by_cases hjk : j > k
        · simpa [hjk] using hf
        · simp [hjk] at hf
          exact absurd hf he
      rw [← hl, hem]
      obtain ⟨j, hj⟩ := List.length_eq_one_iff.1 h1
      rw [← this, hj]
      simp
    · rw [hl, hem]

/-- The items found from position `k` on. -/
def itemsFrom (d : Dictionary F D) (rs : List Rune) (k st : Nat) : List (Nat × Nat) :=
  cutAllLoop ((List.range' k (rs.length - k)).map fun k => (k, dagSpec d rs k)) st

theorem itemsFrom_step {d : Dictionary F D} {rs : List Rune} {k st : Nat} (hk : k < rs.length) :
    itemsFrom d rs k st = emits d rs k st ++ itemsFrom d rs (k + 1) (lastEnd (emits d rs k st) st) := by
  unfold itemsFrom
  have : List.range' k (rs.length - k) = k :: List.range' (k + 1) (rs.length - (k + 1)) := by
    obtain ⟨m, hm⟩ : ∃ m, rs.length - k = m + 1 := ⟨rs.length - k - 1, by omega⟩
    rw [hm, List.range'_succ]
    congr 2; omega
  rw [this, List.map_cons, cutAllLoop_step hk]

theorem itemsFrom_end {d : Dictionary F D} {rs : List Rune} {k st : Nat} (hk : rs.length ≤ k) : itemsFrom d rs k st = [] := by
  unfold itemsFrom
  rw [show rs.length - k = 0 by omega]
  rfl

theorem mem_emits {d : Dictionary F D} {rs : List Rune} {k st : Nat} {p : Nat × Nat} (hk : k < rs.length) (h : p ∈ emits d rs k st) :
    p.1 = k ∧ k < p.2 ∧ p.2 ≤ rs.length := by
  unfold emits at h
  split at h
  · split at h
    · simp at h; subst h; simp; omega
    · simp at h
  · rw [List.mem_map] at h
    obtain ⟨j, hj, rfl⟩ := h
    have := mem_endsFrom.1 hj
    simp; omega

theorem items_mem {d : Dictionary F D} {rs : List Rune} (m k st : Nat) (hm : rs.length - k ≤ m) :
    ∀ p ∈ itemsFrom d rs k st, k ≤ p.1 ∧ p.1 < p.2 ∧ p.2 ≤ rs.length := by
  induction m generalizing k st with
  | zero => rw [itemsFrom_end (by omega)]; simp
  | succ m ih =>
    by_cases hk : k < rs.length
    · rw [itemsFrom_step hk]
      intro p hp
      rcases List.mem_append.1 hp with hp | hp
      · have := mem_emits hk hp; omega
      · have := ih (k + 1) _ (by omega) p hp; omega
    · rw [itemsFrom_end (by omega)]; simp

theorem endsFrom_sorted {d : Dictionary F D} {rs : List Rune} {k i : Nat} : (endsFrom d rs k i).Pairwise (· < ·) :=
  List.Pairwise.filter _ (List.pairwise_lt_range' ..)

theorem emits_sorted {d : Dictionary F D} {rs : List Rune} {k st : Nat} : (emits d rs k st).Pairwise Before := by
  unfold emits
  split
  · split <;> simp
  · rw [List.pairwise_map]
    exact endsFrom_sorted.imp fun h => .inr ⟨rfl, by simpa using h⟩

theorem items_sorted {d : Dictionary F D} {rs : List Rune} (m k st : Nat) (hm : rs.length - k ≤ m) :
    (itemsFrom d rs k st).Pairwise Before := by
  induction m generalizing k st with
  | zero => rw [itemsFrom_end (by omega)]; simp
  | succ m ih =>
    by_cases hk : k < rs.length
    · rw [itemsFrom_step hk, List.pairwise_append]
      refine ⟨emits_sorted, ih _ _ (by omega), ?_⟩
      intro a ha b hb
      have h1 := mem_emits hk ha
      have h2 := items_mem m (k + 1) _ (by omega) b hb
      exact .inl (by omega)
    · rw [itemsFrom_end (by omega)]; simp

theorem mem_emits_long {d : Dictionary F D} {rs : List Rune} {k st b : Nat} (hb : k + 2 ≤ b) :
    (k, b) ∈ emits d rs k st ↔ b ≤ rs.length ∧ posWord d (slice rs k b) = true := by
  have key : b - 1 ∈ endsFrom d rs k (k + 1) ↔ b ≤ rs.length ∧ posWord d (slice rs k b) = true := by
    rw [mem_endsFrom, show b - 1 + 1 = b by omega]
    constructor
    · rintro ⟨h1, h2, h3⟩; exact ⟨by omega, h3⟩
    · rintro ⟨h1, h2⟩; exact ⟨by omega, by omega, h2⟩
  rw [← key]
  unfold emits
  split
  · rename_i h
    rw [h]
    split
    · simp; omega
    · simp
  · rw [List.mem_map]
    constructor
    · rintro ⟨j, hj, e⟩
      simp at e
      rw [show b - 1 = j by omega]; exact hj
    · intro h
      exact ⟨b - 1, h, by simp; omega⟩

theorem items_long {d : Dictionary F D} {rs : List Rune} (m k st : Nat) (hm : rs.length - k ≤ m) (a b : Nat) (hab : a + 2 ≤ b) :
    (a, b) ∈ itemsFrom d rs k st ↔ k ≤ a ∧ b ≤ rs.length ∧ posWord d (slice rs a b) = true := by
  induction m generalizing k st with
  | zero => rw [itemsFrom_end (by omega)]; simp; omega
  | succ m ih =>
    by_cases hk : k < rs.length
    · rw [itemsFrom_step hk, List.mem_append, ih (k + 1) _ (by omega)]
      by_cases hak : a = k
      · subst hak
        rw [mem_emits_long hab]
        constructor
        · rintro (h | h)
          · exact ⟨Nat.le_refl _, h⟩
          · omega
        · rintro ⟨_, h⟩; exact .inl h
      · constructor
        · rintro (h | h)
          · exact absurd (mem_emits hk h).1 hak
          · exact ⟨by omega, h.2⟩
        · rintro ⟨h1, h2⟩; exact .inr ⟨by omega, h2⟩
    · rw [itemsFrom_end (by omega)]; simp; omega

theorem lastEnd_mem (ps : List (Nat × Nat)) (st : Nat) (h : ps ≠ []) : ∃ p ∈ ps, lastEnd ps st = p.2 := by
  obtain ⟨p, hp⟩ : ∃ p, ps.getLast? = some p := by
    cases e : ps.getLast? with
    | none => simp at e; exact absurd e h
    | some p => exact ⟨p, rfl⟩
  exact ⟨p, List.mem_of_getLast? hp, by simp [lastEnd, hp]⟩

theorem items_cover {d : Dictionary F D} {rs : List Rune} (m k st : Nat) (hm : rs.length - k ≤ m) (i : Nat) (hi : k ≤ i) (hin : i < rs.length) :
    i < st ∨ ∃ p ∈ itemsFrom d rs k st, p.1 ≤ i ∧ i < p.2 := by
  induction m generalizing k st with
  | zero => omega
  | succ m ih =>
    have hk : k < rs.length := by omega
    rw [itemsFrom_step hk]
    by_cases he : emits d rs k st = []
    · have hst : k < st := by
        unfold emits at he
        split at he
        · split at he
          · simp at he
          · omega
        · rename_i h; simp at he; exact absurd he h
      by_cases hik : i = k
      · exact .inl (by omega)
      · rw [he]
        have := ih (k + 1) (lastEnd [] st) (by omega) (by omega)
        simpa [lastEnd] using this
    · obtain ⟨p, hp, hl⟩ := lastEnd_mem (emits d rs k st) st he
      have hpk := mem_emits hk hp
      by_cases hip : i < p.2
      · exact .inr ⟨p, List.mem_append_left _ hp, by omega, hip⟩
      · rw [hl]
        rcases ih (k + 1) p.2 (by omega) (by omega) with h | ⟨q, hq, h⟩
        · exact absurd h hip
        · exact .inr ⟨q, List.mem_append_right _ hq, h⟩

theorem filter_all {α : Type} (p : α → Bool) (l : List α) (h : ∀ x ∈ l, p x = true) : l.filter p = l := List.filter_eq_self.2 h
theorem filter_none {α : Type} (p : α → Bool) (l : List α) (h : ∀ x ∈ l, p x = false) : l.filter p = [] := by
  rw [List.filter_eq_nil_iff]; intro x hx; simp [h x hx]

theorem lastEnd_append (a b : List (Nat × Nat)) (st : Nat) : lastEnd (a ++ b) st = lastEnd b (lastEnd a st) := by
  unfold lastEnd
  rw [List.getLast?_append]
  cases b.getLast? <;> simp

theorem items_single {d : Dictionary F D} {rs : List Rune} (m k st : Nat) (hm : rs.length - k ≤ m) (a : Nat) :
    (a, a + 1) ∈ itemsFrom d rs k st ↔ k ≤ a ∧ a < rs.length ∧ (∀ b, a + 2 ≤ b → b ≤ rs.length → posWord d (slice rs a b) = false) ∧
      lastEnd ((itemsFrom d rs k st).filter fun p => p.1 < a) st ≤ a := by
  induction m generalizing k st with
  | zero => rw [itemsFrom_end (by omega)]; simp; omega
  | succ m ih =>
    by_cases hk : k < rs.length
    · have hrest : ∀ p ∈ itemsFrom d rs (k + 1) (lastEnd (emits d rs k st) st), k + 1 ≤ p.1 := fun p hp =>
        (items_mem m (k + 1) _ (by omega) p hp).1
      rw [itemsFrom_step hk]
      by_cases hak : a = k
      · subst hak
        have hf : (emits d rs a st ++ itemsFrom d rs (a + 1) (lastEnd (emits d rs a st) st)).filter (fun p => decide (p.1 < a)) = [] := by
          apply filter_none
          intro p hp
          rcases List.mem_append.1 hp with hp | hp
          · have := mem_emits hk hp; simp; omega
          · have := hrest p hp; simp; omega
        rw [hf, List.mem_append]
        have hno : (a, a + 1) ∉ itemsFrom d rs (a + 1) (lastEnd (emits d rs a st) st) := by
          intro h; have := hrest _ h; simp at this; omega
        have hem : (a, a + 1) ∈ emits d rs a st ↔ endsFrom d rs a (a + 1) = [] ∧ st ≤ a := by
          unfold emits
          split
          · split <;> simp [*]
          · rename_i h
            rw [List.mem_map]
            constructor
            · rintro ⟨j, hj, e⟩
              have := (mem_endsFrom.1 hj).1
              simp at e; omega
            · rintro ⟨h', _⟩; exact absurd h' h
        have hends : endsFrom d rs a (a + 1) = [] ↔ ∀ b, a + 2 ≤ b → b ≤ rs.length → posWord d (slice rs a b) = false := by
          rw [List.eq_nil_iff_forall_not_mem]
          constructor
          · intro h b hb hbn
            have := h (b - 1)
            rw [mem_endsFrom, show b - 1 + 1 = b by omega] at this
            cases hp : posWord d (slice rs a b) with
            | false => rfl
            | true => exact absurd ⟨by omega, by omega, hp⟩ this
          · intro h j hj
            obtain ⟨h1, h2, h3⟩ := mem_endsFrom.1 hj
            rw [h (j + 1) (by omega) (by omega)] at h3
            simp at h3
        constructor
        · rintro (h | h)
          · obtain ⟨h1, h2⟩ := hem.1 h
            exact ⟨Nat.le_refl _, hk, hends.1 h1, by simpa [lastEnd] using h2⟩
          · exact absurd h hno
        · rintro ⟨_, _, h1, h2⟩
          exact .inl (hem.2 ⟨hends.2 h1, by simpa [lastEnd] using h2⟩)
      · by_cases hlt : a < k
        · constructor
          · intro h
            rcases List.mem_append.1 h with h | h
            · exact absurd (mem_emits hk h).1 hak
            · have := hrest _ h; simp at this; omega
          · rintro ⟨h, _⟩; omega
        · have hf : (emits d rs k st ++ itemsFrom d rs (k + 1) (lastEnd (emits d rs k st) st)).filter (fun p => decide (p.1 < a)) =
              emits d rs k st ++ (itemsFrom d rs (k + 1) (lastEnd (emits d rs k st) st)).filter (fun p => decide (p.1 < a)) := by
            rw [List.filter_append]
            congr 1
            apply filter_all
            intro p hp
            have := mem_emits hk hp; simp; omega
          rw [hf, lastEnd_append, List.mem_append, ih (k + 1) _ (by omega)]
          constructor
          · rintro (h | ⟨h1, h2⟩)
            · exact absurd (mem_emits hk h).1 hak
            · exact ⟨by omega, h2⟩
          · rintro ⟨h1, h2⟩
            exact .inr ⟨by omega, h2⟩
    · rw [itemsFrom_end (by omega)]; simp; omega

theorem cutAll_eq [Unicode] {d : Dictionary F D} (h : IdxOK d) (cfg : SplitCfg) (s : Bytes) :
    cutAll cfg d s = some ((itemsFrom d (dagRunes cfg s) 0 0).map fun p => encode (slice (dagRunes cfg s) p.1 p.2)) := by
  unfold cutAll
  simp only [getDag_eq h, Option.map_some, List.length_map, List.length_range, zip_range_map]
  unfold itemsFrom
  rw [List.range_eq_range']
  rfl

/-! ## Search mode -/

theorem gramsFrom_eq {d : Dictionary F D} (h : IdxOK d) (rs : List Rune) (n : Nat) (hn : 0 < n) (is : List Nat)
    (his : ∀ i ∈ is, i < rs.length) :
    gramsFrom d rs n is = some ((is.filter fun i => posWord d (slice rs i (i + n))).map fun i => encode (slice rs i (i + n))) := by
  induction is with
  | nil => rfl
  | cons i is ih =>
    obtain ⟨f, p, b, h1, h2, h3, _⟩ := findRunes_spec (t := slice rs i (i + n)) h (slice_ne_nil _ _ _ (his i (by simp)) (by omega))
    unfold gramsFrom
    rw [h1, ih fun j hj => his j (by simp [hj])]
    simp only [h3, Option.map_some, List.filter_cons]
    cases hp : posWord d (slice rs i (i + n)) with
    | false => simp
    | true =>
      have : b = true := h2.2 (posWord_starts hp List.prefix_rfl)
      simp [this]

theorem grams_eq {d : Dictionary F D} (h : IdxOK d) (rs : List Rune) (n : Nat) (hn : 0 < n) : grams d rs n = some (gramsOf d rs n) := by
  unfold grams gramsOf
  split
  · rfl
  · rename_i hl
    rw [gramsFrom_eq h rs n hn _ (by simp; omega), show rs.length - n + 1 = rs.length + 1 - n by omega]

theorem searchWord_eq {d : Dictionary F D} (h : IdxOK d) (w : Bytes) :
    searchWord d w = some (gramsOf d (runes w) 2 ++ gramsOf d (runes w) 3 ++ [w]) := by
  unfold searchWord
  rw [grams_eq h _ 2 (by omega), grams_eq h _ 3 (by omega)]

end Gse
