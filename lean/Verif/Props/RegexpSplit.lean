import Verif.Proofs.RegexpSplit

/-! # C49: RegexpSplit -/

namespace Gse
open Spec

/-- C49: with a group nothing is lost: for every list of matches, empty ones included, and every limit but 0 the pieces join
to the text. -/
theorem C49_lossless (nonEmpty : Bool) (all : Bytes → List (Nat × Nat)) (s : Bytes) (n : Int) (hn : n ≠ 0)
    (hm : Matches 0 s.length (all s)) : ∃ out, regexpSplit nonEmpty true all s n = some out ∧ out.flatten = s := by
  unfold regexpSplit
  rw [if_neg hn]
  split
  · rename_i h; exact ⟨_, rfl, by simp [h.2]⟩
  · refine splitLoop_flatten ?_ (Nat.le_refl _) (by simp)
    split
    · exact hm
    · exact hm.take _

/-- C49: without a limit and with non-empty matches the pieces are alternately gaps and matches, beginning and ending with
a gap, which may be empty. -/
theorem C49_alternates (all : Bytes → List (Nat × Nat)) (s : Bytes) (n : Int) (hn : n < 0)
    (hm : Matches 0 s.length (all s)) (hne : ∀ m ∈ all s, m.1 < m.2) :
    ∃ out, regexpSplit true true all s n = some out ∧ Alternates s 0 (all s) out := by
  unfold regexpSplit
  rw [if_neg (by omega)]
  by_cases hs : s = []
  · rw [if_pos ⟨rfl, hs⟩]
    refine ⟨_, rfl, ?_⟩
    have : all s = [] := by
      cases hall : all s with
      | nil => rfl
      | cons m ms =>
        rw [hall] at hm hne
        cases hm with
        | cons _ _ h3 => have := h3.le; have := hne m (by simp); simp [hs] at *; omega
    rw [this]
    have := Alternates.last (s := s) (b := 0)
    simpa [hs] using this
  · rw [if_neg (by simp [hs]), if_pos hn]
    have := List.length_pos_of_ne_nil hs
    obtain ⟨out, h1, h2⟩ := splitLoop_alternates (strs := []) (end_ := 0) hn hm hne this
    exact ⟨out, by simpa using h1, h2⟩

/-- C49: without a group the pieces are the gaps. -/
theorem C49_gaps (all : Bytes → List (Nat × Nat)) (s : Bytes) (n : Int) (hn : n < 0) (hs : s ≠ [])
    (hm : Matches 0 s.length (all s)) (hne : ∀ m ∈ all s, m.1 < m.2) :
    ∃ out, regexpSplit true false all s n = some out ∧ Gaps s 0 (all s) out := by
  unfold regexpSplit
  rw [if_neg (by omega), if_neg (by simp [hs]), if_pos hn]
  have := List.length_pos_of_ne_nil hs
  obtain ⟨out, h1, h2⟩ := splitLoop_gaps (strs := []) (end_ := 0) hn hm hne this
  exact ⟨out, by simpa using h1, h2⟩

/-- C49: a limit `n > 0` leaves at most `n` pieces, with a group at most `n + 1`. -/
theorem C49_limit (nonEmpty groups : Bool) (all : Bytes → List (Nat × Nat)) (s : Bytes) (n : Nat) (hn : 0 < n) (out : List Bytes)
    (h : regexpSplit nonEmpty groups all s n = some out) : out.length ≤ if groups then n + 1 else n := by
  unfold regexpSplit at h
  rw [if_neg (by omega)] at h
  split at h
  · rw [← Option.some.inj h]; cases groups <;> simp; omega
  · refine splitLoop_length hn h ?_
    cases groups <;> simp

/-- C49: `RegexpSplit(re, s, -1)` for the expressions used by package pos. -/
theorem C49_findAll (m : Matcher) (hm : ∀ s a b, m s = some (a, b) → a < b ∧ b ≤ s.length) (s : Bytes) :
    ∃ out, splitBy m s = some out ∧ out.flatten = s ∧ Alternates s 0 (findAll m s.length s 0) out := by
  have h := findAll_matches hm s.length s 0
  rw [Nat.zero_add] at h
  obtain ⟨o1, h1, h2⟩ := C49_lossless true (fun s => findAll m s.length s 0) s (-1) (by omega) h.1
  obtain ⟨o2, h3, h4⟩ := C49_alternates (fun s => findAll m s.length s 0) s (-1) (by omega) h.1 h.2
  rw [h1] at h3
  obtain rfl := Option.some.inj h3
  exact ⟨o1, h1, h2, h4⟩

/-- Matches of `b*` in "abba". -/
example : Matches 0 (str "abba").length [(0, 0), (1, 3), (4, 4)] := by
  repeat' constructor
example : regexpSplit true true (fun _ => [(0, 0), (1, 3), (4, 4)]) (str "abba") (-1) = some [[], str "a", str "bb", str "a", []] := by
  decide +kernel
example : regexpSplit true true (fun _ => [(0, 1), (2, 3)]) (str "xax") 2 = some [[], str "x", str "ax"] ∧
    regexpSplit true false (fun _ => [(0, 1), (2, 3)]) (str "xax") 2 = some [[], str "ax"] := by
  refine ⟨?_, ?_⟩ <;> decide +kernel
example : splitBy (fun s => if 120 ∈ s then some (s.idxOf 120, s.idxOf 120 + 1) else none) (str "axbxx") =
    some [str "a", str "x", str "b", str "x", [], str "x", []] := by decide +kernel

end Gse
