import Verif.Model.GoStr

/-! Correctness of the library functions of Model/GoStr.lean against their documentation. -/

namespace Gse

/-- `strings.Split(s, sep)` from the documentation: cut at the leftmost occurrence, go on after it. -/
inductive SplitAt (sep : Bytes) : Bytes → List Bytes → Prop
  | last (s : Bytes) (h : ∀ i, ¬ sep <+: s.drop i) : SplitAt sep s [s]
  | cut (a t : Bytes) (l : List Bytes) (h : ∀ i < a.length, ¬ sep <+: (a ++ sep ++ t).drop i) (r : SplitAt sep t l) :
      SplitAt sep (a ++ sep ++ t) (a :: l)

theorem splitStrAux_spec (sep : Bytes) (hs : sep ≠ []) : ∀ (n : Nat) (cur s : Bytes), s.length < n →
    (∀ i < cur.length, ¬ sep <+: (cur ++ s).drop i) → SplitAt sep (cur ++ s) (splitStrAux sep n cur s) := by
  intro n
  induction n with
  | zero => intro cur s h; omega
  | succ n ih =>
    intro cur s h hc
    unfold splitStrAux
    split
    · rename_i hp
      obtain ⟨t, rfl⟩ := List.isPrefixOf_iff_prefix.1 hp
      have hl : 0 < sep.length := List.length_pos_iff.2 hs
      rw [List.drop_left, ← List.append_assoc]
      rw [← List.append_assoc] at hc
      exact .cut cur t _ hc (ih [] t (by simp at h; omega) (by simp))
    · rename_i hp
      rw [List.isPrefixOf_iff_prefix] at hp
      cases s with
      | nil =>
        simp only [List.append_nil] at *
        refine .last _ fun i => ?_
        by_cases hi : i < cur.length
        · exact hc i hi
        · rw [List.drop_eq_nil_of_le (by omega)]; exact hp
      | cons b t =>
        have := ih (cur ++ [b]) t (by simp at h; omega) ?_
        · simpa using this
        · intro i hi
          simp only [List.append_assoc, List.singleton_append]
          by_cases he : i < cur.length
          · exact hc i he
          · have : i = cur.length := by simp at hi; omega
            subst this
            simpa using hp

theorem splitStr_spec (s sep : Bytes) (hs : sep ≠ []) : SplitAt sep s (splitStr s sep) := by
  simpa [splitStr] using splitStrAux_spec sep hs (s.length + 1) [] s (by omega) (by simp)

/-- The specification has one solution. -/
theorem SplitAt.unique {sep : Bytes} : ∀ {s : Bytes} {l l' : List Bytes}, SplitAt sep s l → SplitAt sep s l' → l = l' := by
  intro s l l' h
  induction h generalizing l' with
  | last s h =>
    intro h'
    cases h' with
    | last => rfl
    | cut a t l' h2 _ => exact absurd (by simp) (h a.length)
  | cut a t l h _ ih =>
    intro h'
    generalize hs : a ++ sep ++ t = s at h'
    cases h' with
    | last _ h2 => subst hs; exact absurd (by simp) (h2 a.length)
    | cut a' t' l' h2 r =>
      have hl : a.length = a'.length := by
        apply Nat.le_antisymm
        · apply Nat.le_of_not_lt
          intro hlt
          apply h a'.length hlt
          rw [hs]; simp
        · apply Nat.le_of_not_lt
          intro hlt
          apply h2 a.length hlt
          rw [← hs]; simp
      simp only [List.append_assoc] at hs
      have := List.append_inj hs hl
      obtain ⟨e1, e2⟩ := this
      subst e1
      have := List.append_cancel_left e2
      subst this
      rw [ih r]

theorem splitStr_eq {s sep : Bytes} {l : List Bytes} (hs : sep ≠ []) (h : SplitAt sep s l) : splitStr s sep = l :=
  (splitStr_spec s sep hs).unique h

theorem SplitAt.join {sep s : Bytes} {l : List Bytes} (h : SplitAt sep s l) : (List.intersperse sep l).flatten = s := by
  induction h with
  | last s h => simp
  | cut a t l h r ih =>
    cases r with
    | last => simp
    | cut => simpa using ih

theorem SplitAt.ne_nil {sep s : Bytes} {l : List Bytes} (h : SplitAt sep s l) : l ≠ [] := by
  cases h <;> simp

theorem splitStr_ne_nil (s : Bytes) {sep : Bytes} (hs : sep ≠ []) : splitStr s sep ≠ [] := (splitStr_spec s sep hs).ne_nil

/-- With a one-byte separator, splitting distributes over a separator. -/
theorem splitStr_byte (c : UInt8) (a b : Bytes) : splitStr (a ++ [c] ++ b) [c] = splitStr a [c] ++ splitStr b [c] := by
  refine splitStr_eq (by simp) ?_
  have hb := splitStr_spec b [c] (by simp)
  have ha := splitStr_spec a [c] (by simp)
  generalize splitStr a [c] = la at *
  generalize splitStr b [c] = lb at *
  induction ha with
  | last s h =>
    refine .cut s b lb (fun i hi hp => ?_) hb
    apply h i
    rw [List.append_assoc, List.drop_append_of_le_length (by omega)] at hp
    obtain ⟨x, l', hx⟩ : ∃ x l', s.drop i = x :: l' := by
      cases hx : s.drop i with
      | nil => rw [List.drop_eq_nil_iff] at hx; omega
      | cons x l' => exact ⟨x, l', rfl⟩
    rw [hx] at hp ⊢
    simp [List.cons_prefix_cons] at hp ⊢
    exact hp
  | cut a' t l h r ih =>
    simp only [List.append_assoc, List.cons_append, List.nil_append] at ih ⊢
    have := SplitAt.cut (sep := [c]) a' (t ++ c :: b) (l ++ lb) (fun i hi hp => ?_) ih
    · simpa using this
    · apply h i hi
      rw [List.append_assoc, List.drop_append_of_le_length (by omega)] at hp
      rw [List.append_assoc, List.drop_append_of_le_length (by omega)]
      obtain ⟨x, l', hx⟩ : ∃ x l', a'.drop i = x :: l' := by
        cases hx : a'.drop i with
        | nil => rw [List.drop_eq_nil_iff] at hx; omega
        | cons x l' => exact ⟨x, l', rfl⟩
      rw [hx] at hp ⊢
      simp [List.cons_prefix_cons] at hp ⊢
      exact hp

/-- A text without the separator is one part. -/
theorem splitStr_single {s sep : Bytes} (hs : sep ≠ []) (h : ∀ i, ¬ sep <+: s.drop i) : splitStr s sep = [s] :=
  splitStr_eq hs (.last s h)

theorem containsStr_iff (s sub : Bytes) : containsStr s sub = true ↔ sub <:+: s := by
  induction s with
  | nil => simp [containsStr]
  | cons b t ih =>
    simp only [containsStr, Bool.or_eq_true, List.isPrefixOf_iff_prefix, ih, List.infix_cons_iff]

end Gse
