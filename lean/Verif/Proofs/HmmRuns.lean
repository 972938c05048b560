import Verif.Proofs.HmmCut

/-! The default patterns find runs of Han characters, numbers and words. -/

namespace Gse
open Spec

/-- Decoding a prefix gives the same rune or U+FFFD. -/
theorem decodeRune_prefix (q t : Bytes) : decodeRune q = decodeRune (q ++ t) ∨ (decodeRune q).1 = runeError := by
  rcases q with _ | ⟨b0, q⟩
  · right; rfl
  by_cases h : (decodeRune (b0 :: q ++ t)).2 ≤ (b0 :: q).length
  · left; exact decodeRune_take_append _ _ h (by simp)
  · right
    revert h
    simp only [List.cons_append, decodeRune]
    split
    · simp
    split
    · simp
    rcases q with _ | ⟨b1, q⟩
    · simp
    simp only [List.cons_append]
    split
    · simp
    split
    · simp
    rcases q with _ | ⟨b2, q⟩
    · simp
    simp only [List.cons_append]
    split
    · simp
    split
    · simp
    rcases q with _ | ⟨b3, q⟩
    · simp
    simp only [List.cons_append]
    split <;> simp

theorem runes_mem_drop {q : Bytes} {r : Rune} (h : r ∈ runes q) : ∃ i, i < q.length ∧ r = (decodeRune (q.drop i)).1 := by
  induction q using chars_induction with
  | nil => simp [runes_nil] at h
  | step p hp ih =>
    rw [runes_cons p hp] at h
    rcases List.mem_cons.1 h with e | h
    · exact ⟨0, List.length_pos_of_ne_nil hp, by simpa using e⟩
    · obtain ⟨i, hi, e⟩ := ih h
      refine ⟨(decodeRune p).2 + i, by simp at hi; omega, ?_⟩
      rw [e, List.drop_drop]

/-- No Han character starts in the first `a` bytes. -/
def NoHan [U : Unicode] (p : Bytes) (a : Nat) : Prop := ∀ i, i < a → U.isHan (decodeRune (p.drop i)).1 = false

variable [U : Unicode] [OK : UnicodeOK]

theorem runes_noHan {p : Bytes} {a : Nat} (h : NoHan p a) : ∀ r ∈ runes (p.take a), U.isHan r = false := by
  intro r hr
  obtain ⟨i, hi, e⟩ := runes_mem_drop hr
  have hi' : i < a := by simp at hi; omega
  have e2 : p.drop i = (p.take a).drop i ++ p.drop a := by
    conv => lhs; rw [← List.take_append_drop a p]
    rw [List.drop_append_of_le_length (by omega)]
  rcases decodeRune_prefix ((p.take a).drop i) (p.drop a) with h1 | h1
  · rw [e, h1, ← e2]; exact h i hi'
  · rw [e, h1]; exact OK.err_han

omit U OK in
/-- Inside a character there are only continuation bytes. -/
theorem inside_any (p : Bytes) (i : Nat) (h0 : 0 < i) (E : Bytes → Prop)
    (cont : ∀ (b : UInt8) (t : Bytes), 0x80 ≤ b.toNat → b.toNat ≤ 0xBF → E (b :: t)) : i < (decodeRune p).2 → E (p.drop i) := by
  have snd : ∀ c0 c1 : Nat, ¬ (decide (c1 < sndLo c0) || decide (sndHi c0 < c1)) = true → 0x80 ≤ c1 ∧ c1 ≤ 0xBF := by
    intro c0 c1 h
    simp only [Bool.or_eq_true, decide_eq_true_eq, not_or, Nat.not_lt] at h
    unfold sndLo sndHi at h
    (repeat' split at h) <;> omega
  have thd : ∀ c : Nat, ¬ (!isCont c) = true → 0x80 ≤ c ∧ c ≤ 0xBF := by
    intro c h; simpa [isCont] using h
  rcases p with _ | ⟨b0, t⟩
  · simp [decodeRune]
  simp only [decodeRune]
  split
  · intro h; simp at h; omega
  split
  · intro h; simp at h; omega
  rcases t with _ | ⟨b1, t1⟩
  · intro h; simp at h; omega
  simp only
  split
  · intro h; simp at h; omega
  rename_i hs
  have hs := snd _ _ hs
  split
  · intro h
    have : i = 1 := by simp at h; omega
    subst this
    exact cont b1 t1 hs.1 hs.2
  rcases t1 with _ | ⟨b2, t2⟩
  · intro h; simp at h; omega
  simp only
  split
  · intro h; simp at h; omega
  rename_i ht
  have ht := thd _ ht
  split
  · intro h
    have : i = 1 ∨ i = 2 := by simp at h; omega
    rcases this with rfl | rfl
    · exact cont b1 _ hs.1 hs.2
    · exact cont b2 _ ht.1 ht.2
  rcases t2 with _ | ⟨b3, t3⟩
  · intro h; simp at h; omega
  simp only
  split
  · intro h; simp at h; omega
  rename_i hf
  have hf := thd _ hf
  intro h
  have : i = 1 ∨ i = 2 ∨ i = 3 := by simp at h; omega
  rcases this with rfl | rfl | rfl
  · exact cont b1 _ hs.1 hs.2
  · exact cont b2 _ ht.1 ht.2
  · exact cont b3 _ hf.1 hf.2

omit U OK in
/-- Inside a character there is no Han character. -/
theorem inside_err (p : Bytes) (i : Nat) (h0 : 0 < i) (h : i < (decodeRune p).2) : (decodeRune (p.drop i)).1 = runeError := by
  apply inside_any p i h0 (fun q => (decodeRune q).1 = runeError) _ h
  intro b t h1 h2
  have e1 : ¬ b.toNat < 0x80 := by omega
  have e2 : b.toNat < 0xC2 := by omega
  simp [decodeRune, e1, e2]

omit U OK in
theorem inside_cont (p : Bytes) (i : Nat) (h0 : 0 < i) (h : i < (decodeRune p).2) (c : UInt8) (hc : (p.drop i).head? = some c) :
    isCont c.toNat = true := by
  revert hc
  apply inside_any p i h0 (fun q => q.head? = some c → isCont c.toNat = true) _ h
  intro b t h1 h2 e
  obtain rfl : b = c := by simpa using e
  simp [isCont, h1, h2]

theorem noHan_step {p : Bytes} {a : Nat} (h1 : U.isHan (decodeRune p).1 = false) (h2 : NoHan (p.drop (decodeRune p).2) a) :
    NoHan p ((decodeRune p).2 + a) := by
  intro i hi
  by_cases h0 : i = 0
  · subst h0; simpa using h1
  by_cases hlt : i < (decodeRune p).2
  · rw [inside_err p i (by omega) hlt]; exact OK.err_han
  · have := h2 (i - (decodeRune p).2) (by omega)
    rw [List.drop_drop] at this
    rwa [show (decodeRune p).2 + (i - (decodeRune p).2) = i by omega] at this

theorem findHan_spec (n : Nat) (p : Bytes) (off : Nat) (hn : p.length ≤ n) :
    (findHan n p off = none ∧ NoHan p p.length) ∨
      ∃ a, findHan n p off = some (off + a, off + a + hanLen (p.drop a).length (p.drop a)) ∧ NoHan p a ∧ StartsHan (p.drop a) := by
  induction n generalizing p off with
  | zero =>
    have : p = [] := List.length_eq_zero_iff.1 (by omega)
    subst this
    exact Or.inl ⟨rfl, by intro i hi; simp at hi⟩
  | succ n ih =>
    cases p with
    | nil => exact Or.inl ⟨rfl, by intro i hi; simp at hi⟩
    | cons b t =>
      rw [findHan]
      by_cases hh : U.isHan (decodeRune (b :: t)).1 = true
      · right
        refine ⟨0, by rw [if_pos hh]; simp, by intro i hi; omega, by simp [StartsHan, hh]⟩
      · rw [if_neg hh]
        have hpos := decodeRune_size_pos (b :: t) (by simp)
        have hle := decodeRune_size_le (b :: t)
        have hf : U.isHan (decodeRune (b :: t)).1 = false := by simpa using hh
        rcases ih ((b :: t).drop (decodeRune (b :: t)).2) (off + (decodeRune (b :: t)).2) (by
          rw [List.length_drop]; omega) with ⟨h1, h2⟩ | ⟨a, h1, h2, h3⟩
        · left
          refine ⟨h1, ?_⟩
          have := noHan_step hf h2
          rwa [List.length_drop, show (decodeRune (b :: t)).2 + ((b :: t).length - (decodeRune (b :: t)).2) = (b :: t).length by omega] at this
        · right
          refine ⟨(decodeRune (b :: t)).2 + a, ?_, noHan_step hf h2, by rwa [List.drop_drop] at h3⟩
          rw [h1, List.drop_drop, Nat.add_assoc]

theorem hanLen_spec (n : Nat) (p : Bytes) (hn : p.length ≤ n) :
    hanLen n p ≤ p.length ∧ (∀ r ∈ runes (p.take (hanLen n p)), U.isHan r = true) ∧ ValidText (p.take (hanLen n p)) ∧
      ¬ StartsHan (p.drop (hanLen n p)) ∧ (StartsHan p → 0 < hanLen n p) := by
  induction n generalizing p with
  | zero =>
    have : p = [] := List.length_eq_zero_iff.1 (by omega)
    subst this
    simp [hanLen, runes_nil, StartsHan, ValidText]
  | succ n ih =>
    cases p with
    | nil => simp [hanLen, runes_nil, StartsHan, ValidText]
    | cons b t =>
      rw [hanLen]
      by_cases hh : U.isHan (decodeRune (b :: t)).1 = true
      · rw [if_pos hh]
        have hpos := decodeRune_size_pos (b :: t) (by simp)
        have hle := decodeRune_size_le (b :: t)
        have hne : (decodeRune (b :: t)).1 ≠ runeError := by
          intro e; rw [e, OK.err_han] at hh; simp at hh
        have henc := encode_decode (b :: t) hne
        obtain ⟨h1, h2, h3, h4, _⟩ := ih ((b :: t).drop (decodeRune (b :: t)).2) (by rw [List.length_drop]; omega)
        generalize hk : hanLen n ((b :: t).drop (decodeRune (b :: t)).2) = k at *
        have htake : (b :: t).take ((decodeRune (b :: t)).2 + k) =
            encodeRune (decodeRune (b :: t)).1 ++ ((b :: t).drop (decodeRune (b :: t)).2).take k := by
          rw [henc, List.take_add]
        have hru : runes ((b :: t).take ((decodeRune (b :: t)).2 + k)) =
            (decodeRune (b :: t)).1 :: runes (((b :: t).drop (decodeRune (b :: t)).2).take k) := by
          rw [htake, runes_cons _ (by simp [encodeRune_ne_nil]), decodeRune_encodeRune _ (decodeRune_valid _)]
          simp
        refine ⟨by rw [List.length_drop] at h1; omega, ?_, ?_, ?_, by omega⟩
        · rw [hru]
          intro r hr
          rcases List.mem_cons.1 hr with e | hr
          · rw [e]; exact hh
          · exact h2 r hr
        · rw [ValidText, hru, encode_cons, h3, htake]
        · rw [← List.drop_drop]; exact h4
      · rw [if_neg hh]
        refine ⟨by omega, by simp [runes_nil], by simp [ValidText, runes_nil], ?_, ?_⟩
        · simp [StartsHan, hh]
        · simp [StartsHan, hh]

omit U OK in
theorem forall_byte {P : UInt8 → Prop} (h : ∀ n : Fin 256, P (UInt8.ofNat n.val)) (b : UInt8) : P b := by
  have := h ⟨b.toNat, b.toNat_lt⟩
  simpa using this

omit U OK in
theorem alnumByte_eq : alnumByte = alnumB := by
  funext b
  revert b
  exact forall_byte (by decide +kernel)

omit U OK in
theorem digitByte_eq : digitByte = digitB := by
  funext b
  revert b
  exact forall_byte (by decide +kernel)

omit U OK in
theorem findSkip_spec (p : Bytes) (off : Nat) :
    (findSkip p off = none ∧ ∀ b ∈ p, alnumB b = false) ∨
      ∃ a, a ≤ p.length ∧ findSkip p off = some (off + a, off + a + skipLen (p.drop a)) ∧ (∀ b ∈ p.take a, alnumB b = false) ∧
        StartsAlnum (p.drop a) := by
  induction p generalizing off with
  | nil => left; simp [findSkip]
  | cons b t ih =>
    rw [findSkip, alnumByte_eq]
    by_cases h : alnumB b = true
    · right
      exact ⟨0, by omega, by rw [if_pos h]; simp, by simp, b, t, by simp, h⟩
    · rw [if_neg h]
      have hf : alnumB b = false := by simpa using h
      rcases ih (off + 1) with ⟨h1, h2⟩ | ⟨a, ha, h1, h2, h3⟩
      · left
        exact ⟨h1, by simpa [hf] using h2⟩
      · right
        refine ⟨a + 1, by simpa using ha, ?_, ?_, ?_⟩
        · rw [h1, List.drop_succ_cons, show off + 1 + a = off + (a + 1) by omega]
        · simpa [hf] using h2
        · simpa using h3

omit U OK in
theorem drop_takeWhile {α : Type} (p : α → Bool) (s : List α) : s.drop (s.takeWhile p).length = s.dropWhile p := by
  induction s with
  | nil => rfl
  | cons a s ih =>
    rw [List.takeWhile_cons, List.dropWhile_cons]
    split <;> simp [ih]

omit U OK in
theorem take_takeWhile {α : Type} (p : α → Bool) (s : List α) : s.take (s.takeWhile p).length = s.takeWhile p := by
  induction s with
  | nil => rfl
  | cons a s ih =>
    rw [List.takeWhile_cons]
    split <;> simp [ih]

omit U OK in
theorem mem_takeWhile {α : Type} {p : α → Bool} {s : List α} {x : α} (h : x ∈ s.takeWhile p) : p x = true := by
  induction s with
  | nil => simp at h
  | cons a s ih =>
    rw [List.takeWhile_cons] at h
    split at h
    · rcases List.mem_cons.1 h with rfl | h
      · assumption
      · exact ih h
    · simp at h

omit U OK in
theorem dropWhile_head {α : Type} {p : α → Bool} {s : List α} : ∀ b t, s.dropWhile p = b :: t → p b = false := by
  intro b t h
  have := List.head?_dropWhile_not p s
  rw [h] at this
  simpa using this

omit U OK in
theorem digit_alnum {b : UInt8} (h : digitB b = true) : alnumB b = true := by
  rw [← alnumByte_eq]; rw [← digitByte_eq] at h; simp [alnumByte, h]

omit OK in
/-- The match of the skip pattern at the front is the next run. -/
theorem skip_run {s : Bytes} (h : StartsAlnum s) :
    0 < skipLen s ∧ skipLen s ≤ s.length ∧
      ∀ l, HmmRuns (s.drop (skipLen s)) l → HmmRuns s ((.skip, s.take (skipLen s)) :: l) := by
  unfold skipLen
  rw [alnumByte_eq, digitByte_eq]
  simp only
  split
  · rename_i hc
    obtain ⟨h1, h2, h3⟩ := hc
    obtain ⟨t, ht⟩ : ∃ t, s.drop (s.takeWhile digitB).length = 46 :: t := by
      cases hd : s.drop (s.takeWhile digitB).length with
      | nil => rw [hd] at h2; simp at h2
      | cons b t => rw [hd] at h2; simp at h2; exact ⟨t, by rw [h2]⟩
    have hdt : s.drop ((s.takeWhile digitB).length + 1) = t := by rw [← List.drop_drop, ht]; rfl
    rw [hdt] at h3 ⊢
    have hs : s = s.takeWhile digitB ++ str "." ++ t.takeWhile digitB ++ t.dropWhile digitB := by
      rw [List.append_assoc, List.takeWhile_append_dropWhile, List.append_assoc]
      conv => lhs; rw [← List.take_append_drop (s.takeWhile digitB).length s, take_takeWhile, ht]
      rfl
    have hlen : (s.takeWhile digitB ++ str "." ++ t.takeWhile digitB).length =
        (s.takeWhile digitB).length + 1 + (t.takeWhile digitB).length := by
      simp [str]; omega
    have htk : s.take ((s.takeWhile digitB).length + 1 + (t.takeWhile digitB).length) =
        s.takeWhile digitB ++ str "." ++ t.takeWhile digitB := by
      rw [← hlen]; conv => lhs; arg 2; rw [hs]
      exact List.take_left
    have hdr : s.drop ((s.takeWhile digitB).length + 1 + (t.takeWhile digitB).length) = t.dropWhile digitB := by
      rw [← hlen]; conv => lhs; arg 2; rw [hs]
      exact List.drop_left
    refine ⟨by omega, ?_, ?_⟩
    · rw [← hlen]
      conv => rhs; rw [hs]
      rw [List.length_append (bs := t.dropWhile digitB)]; omega
    · intro l hl
      rw [hdr] at hl
      rw [htk]
      have := HmmRuns.number h1 h3 (fun b hb => mem_takeWhile hb) (fun b hb => mem_takeWhile hb) (rest := t.dropWhile digitB) (by
        rintro ⟨b, t', e, hb⟩
        rw [dropWhile_head b t' e] at hb; simp at hb) hl
      rwa [← hs] at this
  · rename_i hc
    obtain ⟨b, t, rfl, hb⟩ := h
    have hne : (b :: t).takeWhile alnumB ≠ [] := by simp [hb]
    refine ⟨List.length_pos_of_ne_nil hne, List.Sublist.length_le (List.takeWhile_sublist _), ?_⟩
    intro l hl
    rw [take_takeWhile]
    rw [drop_takeWhile] at hl
    have := HmmRuns.alnum hne (fun b hb => mem_takeWhile hb) (rest := (b :: t).dropWhile alnumB) (by
        rintro ⟨b', t', e, hb'⟩
        rw [dropWhile_head b' t' e] at hb'; simp at hb') (by
        rintro ⟨hdig, u, e, hu⟩
        apply hc
        have hw : (b :: t).takeWhile digitB = (b :: t).takeWhile alnumB := by
          have e1 : (b :: t) = (b :: t).takeWhile alnumB ++ (b :: t).dropWhile alnumB := List.takeWhile_append_dropWhile.symm
          conv => lhs; rw [e1]
          rw [List.takeWhile_append_of_pos hdig, e]
          simp [str]
          rfl
        rw [hw]
        refine ⟨hne, ?_, ?_⟩
        · rw [drop_takeWhile, e]; rfl
        · rw [← List.drop_drop, drop_takeWhile, e]
          obtain ⟨b'', t'', rfl, hb''⟩ := hu
          simp [str, hb'']) hl
    rwa [List.takeWhile_append_dropWhile] at this

theorem regHan_range (s : Bytes) (a b : Nat) (h : regHan s = some (a, b)) : a < b ∧ b ≤ s.length ∧ (a = 0 → ValidText (s.take b)) := by
  rcases findHan_spec s.length s 0 (Nat.le_refl _) with ⟨h1, _⟩ | ⟨a', h1, h2, h3⟩
  · rw [regHan, h1] at h; simp at h
  · rw [regHan, h1] at h
    simp only [Nat.zero_add, Option.some.injEq, Prod.mk.injEq] at h
    obtain ⟨rfl, rfl⟩ := h
    obtain ⟨g1, _, g3, _, g5⟩ := hanLen_spec (s.drop a').length (s.drop a') (Nat.le_refl _)
    have := g5 h3
    refine ⟨by omega, by rw [List.length_drop] at g1 this ⊢; omega, ?_⟩
    rintro rfl
    simpa using g3

theorem encode_runes_han {s : Bytes} (h : ∀ r ∈ runes s, U.isHan r = true) : ValidText s := by
  induction s using chars_induction with
  | nil => rfl
  | step p hp ih =>
    rw [runes_cons p hp] at h
    have h1 : (decodeRune p).1 ≠ runeError := by
      intro e
      have := h _ (List.mem_cons_self ..)
      rw [e, OK.err_han] at this; simp at this
    rw [ValidText, runes_cons p hp, encode_cons, encode_decode p h1, ih (fun r hr => h r (by simp [hr])), List.take_append_drop]

omit OK in
theorem hmmRuns_flatten {s : Bytes} {runs : List (RunKind × Bytes)} (h : HmmRuns s runs) :
    (runs.map (·.2)).flatten = s ∧ ∀ k w, (k, w) ∈ runs → w ≠ [] := by
  induction h with
  | nil => simp
  | han h1 _ _ _ ih =>
    refine ⟨by simp [ih.1], ?_⟩
    intro k w hw
    rcases List.mem_cons.1 hw with e | hw
    · cases e; exact h1
    · exact ih.2 k w hw
  | number h1 _ _ _ _ _ ih =>
    refine ⟨by simp [ih.1], ?_⟩
    intro k w hw
    rcases List.mem_cons.1 hw with e | hw
    · cases e; simp [h1]
    · exact ih.2 k w hw
  | alnum h1 _ _ _ _ ih =>
    refine ⟨by simp [ih.1], ?_⟩
    intro k w hw
    rcases List.mem_cons.1 hw with e | hw
    · cases e; exact h1
    · exact ih.2 k w hw
  | other h1 _ _ _ _ ih =>
    refine ⟨by simp [ih.1], ?_⟩
    intro k w hw
    rcases List.mem_cons.1 hw with e | hw
    · cases e; exact h1
    · exact ih.2 k w hw

variable {F D : Type} [F64 F] [F32 D]

/-- With the default patterns the loop follows the runs of the text. -/
theorem hmmCut_runs (c : HmmConst F) (em : EmitModel F) :
    CutInv (internalCut c em) regHan regSkip (fun _ => True)
      fun s out => ∃ runs outs, HmmRuns s runs ∧ List.Forall₂ (RunWords c em) runs outs ∧ out = outs.flatten := by
  have hH : ∀ s a b, regHan s = some (a, b) → NoHan s a ∧ StartsHan (s.drop a) ∧ a ≤ s.length ∧
      b = a + hanLen (s.drop a).length (s.drop a) := by
    intro s a b h
    rcases findHan_spec s.length s 0 (Nat.le_refl _) with ⟨h1, _⟩ | ⟨a', h1, h2, h3⟩
    · rw [regHan, h1] at h; simp at h
    · rw [regHan, h1] at h
      simp only [Nat.zero_add, Option.some.injEq, Prod.mk.injEq] at h
      obtain ⟨rfl, rfl⟩ := h
      refine ⟨h2, h3, ?_, rfl⟩
      by_contra hlt
      exact h3.1 (List.drop_eq_nil_of_le (by omega))
  have hHn : ∀ s, regHan s = none → NoHan s s.length := by
    intro s h
    rcases findHan_spec s.length s 0 (Nat.le_refl _) with ⟨_, h2⟩ | ⟨a', h1, _⟩
    · exact h2
    · rw [regHan, h1] at h; simp at h
  have hS : ∀ s a b, regSkip s = some (a, b) → (∀ x ∈ s.take a, alnumB x = false) ∧ StartsAlnum (s.drop a) ∧ a ≤ s.length ∧
      b = a + skipLen (s.drop a) := by
    intro s a b h
    rcases findSkip_spec s 0 with ⟨h1, _⟩ | ⟨a', ha, h1, h2, h3⟩
    · rw [regSkip, h1] at h; simp at h
    · rw [regSkip, h1] at h
      simp only [Nat.zero_add, Option.some.injEq, Prod.mk.injEq] at h
      obtain ⟨rfl, rfl⟩ := h
      exact ⟨h2, h3, ha, rfl⟩
  have hSn : ∀ s, regSkip s = none → ∀ x ∈ s, alnumB x = false := by
    intro s h
    rcases findSkip_spec s 0 with ⟨_, h2⟩ | ⟨a', ha, h1, _⟩
    · exact h2
    · rw [regSkip, h1] at h; simp at h
  have otherRun : ∀ s k, 0 < k → k ≤ s.length → NoHan s k → (∀ x ∈ s.take k, alnumB x = false) →
      (s.drop k = [] ∨ StartsHan (s.drop k) ∨ StartsAlnum (s.drop k)) → ∀ runs, HmmRuns (s.drop k) runs →
      HmmRuns s ((.other, s.take k) :: runs) := by
    intro s k hk hk2 h1 h2 h3 runs hr
    have := HmmRuns.other (s := s.take k) (rest := s.drop k) (take_ne_nil hk hk2) (runes_noHan h1) h2 h3 hr
    rwa [List.take_append_drop] at this
  constructor
  · intro s a b _ h
    obtain ⟨_, h2, h3, h4⟩ := hH s a b h
    obtain ⟨g1, _, _, _, g5⟩ := hanLen_spec (s.drop a).length (s.drop a) (Nat.le_refl _)
    have := g5 h2
    rw [List.length_drop] at g1 h4 this
    omega
  · intro s a b _ h
    obtain ⟨_, h2, h3, h4⟩ := hS s a b h
    obtain ⟨g1, g2, _⟩ := skip_run h2
    rw [List.length_drop] at g2
    omega
  · exact ⟨[], [], HmmRuns.nil, List.Forall₂.nil, rfl⟩
  · intro s b _ h
    refine ⟨trivial, ?_⟩
    obtain ⟨_, h2, h3, h4⟩ := hH s 0 b h
    simp only [List.drop_zero, Nat.zero_add] at h2 h4
    subst h4
    obtain ⟨g1, g2, g3, g4, g5⟩ := hanLen_spec s.length s (Nat.le_refl _)
    have hne : s.take (hanLen s.length s) ≠ [] := take_ne_nil (g5 h2) g1
    obtain ⟨v, ts, ws, e1, e2, e3⟩ := internalCut_words c em (s.take (hanLen s.length s)) (by rw [Ne, runes_eq_nil]; exact hne)
    refine ⟨_, e3, ?_⟩
    rintro out ⟨runs, outs, r1, r2, rfl⟩
    refine ⟨(.han, s.take (hanLen s.length s)) :: runs, ws.map encode :: outs, ?_, .cons (.han e1 e2) r2, rfl⟩
    have := HmmRuns.han hne g2 g4 r1
    rwa [List.take_append_drop] at this
  · intro s b _ _ h
    refine ⟨trivial, ?_⟩
    obtain ⟨_, h2, h3, h4⟩ := hS s 0 b h
    simp only [List.drop_zero, Nat.zero_add] at h2 h4
    subst h4
    rintro out ⟨runs, outs, r1, r2, rfl⟩
    exact ⟨(.skip, s.take (skipLen s)) :: runs, [s.take (skipLen s)] :: outs, (skip_run h2).2.2 runs r1, .cons .skip r2, rfl⟩
  · intro s _ hne h1 h2
    refine ⟨[(.other, s)], [[s]], ?_, .cons .other .nil, rfl⟩
    have := otherRun s s.length (List.length_pos_of_ne_nil hne) (Nat.le_refl _) (hHn s h1) (by simpa using hSn s h2) (by simp) []
      (by simpa using HmmRuns.nil)
    simpa using this
  · intro s l _ hj hpos
    refine ⟨trivial, ?_⟩
    rintro out ⟨runs, outs, r1, r2, rfl⟩
    refine ⟨(.other, s.take l.1) :: runs, [s.take l.1] :: outs, ?_, .cons .other r2, rfl⟩
    rcases locJudge_mem hj with ⟨e, hq⟩ | ⟨e, hq⟩
    · obtain ⟨a1, a2, a3, _⟩ := hH s l.1 l.2 e
      refine otherRun s l.1 hpos a3 a1 ?_ (Or.inr (Or.inl a2)) runs r1
      cases hs : regSkip s with
      | none => intro x hx; exact hSn s hs x (List.mem_of_mem_take hx)
      | some q =>
        obtain ⟨b1, _, _, _⟩ := hS s q.1 q.2 hs
        have := hq q hs
        intro x hx
        apply b1 x
        exact (List.take_subset_take_left (l := s) (by omega : l.1 ≤ q.1)) hx
    · obtain ⟨a1, a2, a3, _⟩ := hS s l.1 l.2 e
      refine otherRun s l.1 hpos a3 ?_ a1 (Or.inr (Or.inr a2)) runs r1
      cases hs : regHan s with
      | none => intro i hi; exact hHn s hs i (by omega)
      | some q =>
        obtain ⟨b1, _, _, _⟩ := hH s q.1 q.2 hs
        have := hq q hs
        intro i hi; exact b1 i (by omega)

end Gse
