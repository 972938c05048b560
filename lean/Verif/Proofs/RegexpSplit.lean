import Verif.Spec.RegexpSplit
import Verif.Proofs.Dag

namespace Gse

open Spec

set_option linter.unusedSectionVars false

theorem Spec.Matches.le {b n : Nat} {ms : List (Nat × Nat)} (h : Matches b n ms) : b ≤ n := by
  induction h with
  | nil h => exact h
  | cons h1 h2 _ ih => omega

theorem Spec.Matches.take {b n : Nat} {ms : List (Nat × Nat)} (h : Matches b n ms) (k : Nat) : Matches b n (ms.take k) := by
  induction h generalizing k with
  | nil h => simp; exact .nil h
  | cons h1 h2 h3 ih =>
    cases k with
    | zero => exact .nil (Nat.le_trans h1 (Nat.le_trans h2 h3.le))
    | succ k => exact .cons h1 h2 (ih k)

theorem slice_self {α : Type} (s : List α) (b : Nat) : slice s b b = [] := by simp [slice]

theorem slice_append_slice {α : Type} (s : List α) {a b c : Nat} (h1 : a ≤ b) (h2 : b ≤ c) : slice s a b ++ slice s b c = slice s a c := by
  unfold slice
  have : c - a = (b - a) + (c - b) := by omega
  rw [this, List.take_add, List.drop_drop]
  congr 3; omega

theorem slice_append_drop {α : Type} (s : List α) {a b : Nat} (h1 : a ≤ b) : slice s a b ++ s.drop b = s.drop a :=
  (drop_eq_slice_append s a b h1).symm

/-- The end of the loop: nothing is lost when the last piece is dropped. -/
theorem splitEnd {s : Bytes} {begin end_ : Nat} {strs : List Bytes} (hb : begin ≤ s.length)
    (he : end_ ≤ begin) (hz : strs.flatten = s.take begin) :
    ∃ out, regexpSplitEnd s begin end_ strs = some out ∧ out.flatten = s := by
  unfold regexpSplitEnd
  split
  · exact ⟨_, rfl, by simp [hz]⟩
  · rename_i h
    have : end_ = s.length := by simpa using h
    exact ⟨_, rfl, by rw [hz, List.take_of_length_le (by omega)]⟩

/-- With groups nothing is lost. -/
theorem splitLoop_flatten {s : Bytes} {n : Int} : ∀ {ms : List (Nat × Nat)} {begin end_ : Nat} {strs : List Bytes},
    Matches begin s.length ms → end_ ≤ begin → strs.flatten = s.take begin →
    ∃ out, regexpSplitLoop true s n ms begin end_ strs = some out ∧ out.flatten = s := by
  intro ms
  induction ms with
  | nil => intro begin end_ strs h1 h2 h3; exact splitEnd h1.le h2 h3
  | cons m ms ih =>
    intro begin end_ strs h1 h2 h3
    have hb := h1.le
    cases h1 with
    | cons ha hb' hc =>
    have hle := hc.le
    unfold regexpSplitLoop
    split
    · exact splitEnd hb h2 h3
    · rw [if_neg (by omega), if_pos rfl, if_pos ⟨hb', hle⟩]
      refine ih hc hb' ?_
      have e1 : s.take m.2 = s.take begin ++ slice s begin m.2 := by
        conv => lhs; rw [show m.2 = begin + (m.2 - begin) by omega, List.take_add]
        rfl
      split
      · rw [List.flatten_append, List.flatten_append, h3, e1, ← slice_append_slice s ha hb']
        simp
      · rename_i hz
        have hz : m.2 = 0 := by simpa using hz
        have h0 : begin = 0 := by omega
        have h1 : m.1 = 0 := by omega
        simp [h3, hz, h0, h1, slice]

theorem splitLoop_alternates {s : Bytes} : ∀ {ms : List (Nat × Nat)} {begin end_ : Nat} {strs : List Bytes} {n : Int}, n < 0 →
    Matches begin s.length ms → (∀ m ∈ ms, m.1 < m.2) → end_ < s.length →
    ∃ out, regexpSplitLoop true s n ms begin end_ strs = some (strs ++ out) ∧ Alternates s begin ms out := by
  intro ms
  induction ms with
  | nil =>
    intro begin end_ strs n hn h1 _ h2
    exact ⟨_, by unfold regexpSplitLoop regexpSplitEnd; rw [if_pos (by omega), if_pos h1.le], .last⟩
  | cons m ms ih =>
    intro begin end_ strs n hn h1 hne h2
    cases h1 with
    | cons ha hb hc =>
    have hle := hc.le
    have hm := hne m (by simp)
    unfold regexpSplitLoop
    rw [if_neg (by omega), if_neg (by omega), if_pos rfl, if_pos ⟨hb, hle⟩, if_pos (by omega)]
    obtain ⟨out, h3, h4⟩ := ih (end_ := m.1) (strs := strs ++ [slice s begin m.1] ++ [slice s m.1 m.2]) hn hc (fun x hx => hne x (by simp [hx])) (by omega)
    exact ⟨_, by rw [h3]; simp, .next h4⟩

theorem splitLoop_gaps {s : Bytes} : ∀ {ms : List (Nat × Nat)} {begin end_ : Nat} {strs : List Bytes} {n : Int}, n < 0 →
    Matches begin s.length ms → (∀ m ∈ ms, m.1 < m.2) → end_ < s.length →
    ∃ out, regexpSplitLoop false s n ms begin end_ strs = some (strs ++ out) ∧ Gaps s begin ms out := by
  intro ms
  induction ms with
  | nil =>
    intro begin end_ strs n hn h1 _ h2
    exact ⟨_, by unfold regexpSplitLoop regexpSplitEnd; rw [if_pos (by omega), if_pos h1.le], .last⟩
  | cons m ms ih =>
    intro begin end_ strs n hn h1 hne h2
    cases h1 with
    | cons ha hb hc =>
    have hle := hc.le
    have hm := hne m (by simp)
    unfold regexpSplitLoop
    rw [if_neg (by omega), if_neg (by omega), if_neg (by simp), if_pos (by omega)]
    obtain ⟨out, h3, h4⟩ := ih (end_ := m.1) (strs := strs ++ [slice s begin m.1]) hn hc (fun x hx => hne x (by simp [hx])) (by omega)
    exact ⟨_, by rw [h3]; simp, .next h4⟩

/-- How many pieces a limit leaves. -/
theorem splitLoop_length {groups : Bool} {s : Bytes} {n : Nat} (hn : 0 < n) : ∀ {ms : List (Nat × Nat)} {begin end_ : Nat} {strs out : List Bytes},
    regexpSplitLoop groups s n ms begin end_ strs = some out → strs.length ≤ (if groups then n else n - 1) →
    out.length ≤ (if groups then n + 1 else n) := by
  intro ms
  induction ms with
  | nil =>
    intro begin end_ strs out h hl
    unfold regexpSplitLoop regexpSplitEnd at h
    split at h
    · split at h
      · rw [← Option.some.inj h]; cases groups <;> simp at hl ⊢ <;> omega
      · simp at h
    · rw [← Option.some.inj h]; cases groups <;> simp at hl ⊢ <;> omega
  | cons m ms ih =>
    intro begin end_ strs out h hl
    unfold regexpSplitLoop at h
    split at h
    · unfold regexpSplitEnd at h
      split at h
      · split at h
        · rw [← Option.some.inj h]; cases groups <;> simp at hl ⊢ <;> omega
        · simp at h
      · rw [← Option.some.inj h]; cases groups <;> simp at hl ⊢ <;> omega
    · rename_i hlim
      split at h
      · simp at h
      · cases groups with
        | true =>
          simp only [if_true] at h hl ih ⊢
          split at h
          · refine ih h ?_
            split <;> simp <;> omega
          · simp at h
        | false =>
          simp only [Bool.false_eq_true, if_false] at h hl ih ⊢
          refine ih h ?_
          split
          · simp; omega
          · omega

theorem findAll_matches {m : Matcher} (hm : ∀ s a b, m s = some (a, b) → a < b ∧ b ≤ s.length) :
    ∀ (n : Nat) (s : Bytes) (off : Nat), Matches off (off + s.length) (findAll m n s off) ∧ ∀ x ∈ findAll m n s off, x.1 < x.2 := by
  intro n
  induction n with
  | zero => intro s off; exact ⟨.nil (by omega), by simp [findAll]⟩
  | succ n ih =>
    intro s off
    unfold findAll
    cases h : m s with
    | none => exact ⟨.nil (by omega), by simp⟩
    | some p =>
      obtain ⟨a, b⟩ := p
      obtain ⟨h1, h2⟩ := hm s a b h
      obtain ⟨h3, h4⟩ := ih (s.drop b) (off + b)
      have e : off + b + (s.drop b).length = off + s.length := by simp; omega
      rw [e] at h3
      refine ⟨.cons (by simp) (by simp; omega) h3, ?_⟩
      intro x hx
      rcases List.mem_cons.1 hx with rfl | hx
      · simpa using h1
      · exact h4 x hx

end Gse
