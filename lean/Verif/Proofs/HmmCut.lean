import Verif.Proofs.Hmm

/-! The loop of `hmm.Cut` and the default patterns. -/

namespace Gse
open Spec

theorem take_ne_nil {α : Type} {s : List α} {n : Nat} (h1 : 0 < n) (h2 : n ≤ s.length) : s.take n ≠ [] := by
  intro e
  have := congrArg List.length e
  rw [List.length_take, List.length_nil] at this
  omega

/-- One round of the loop keeps `P` for the text left and extends an output related by `R`. -/
structure CutInv (internal : Bytes → Option (List Bytes)) (word skip : Matcher) (P : Bytes → Prop) (R : Bytes → List Bytes → Prop) :
    Prop where
  rangeW : ∀ s a b, P s → word s = some (a, b) → a < b ∧ b ≤ s.length
  rangeS : ∀ s a b, P s → skip s = some (a, b) → a < b ∧ b ≤ s.length
  nil : R [] []
  stepW : ∀ s b, P s → word s = some (0, b) → P (s.drop b) ∧ ∃ ws, internal (s.take b) = some ws ∧
    ∀ out, R (s.drop b) out → R s (ws ++ out)
  stepS : ∀ s b, P s → (∀ b', word s ≠ some (0, b')) → skip s = some (0, b) → P (s.drop b) ∧
    ∀ out, R (s.drop b) out → R s (s.take b :: out)
  last : ∀ s, P s → s ≠ [] → word s = none → skip s = none → R s [s]
  gap : ∀ s l, P s → locJudge (word s) (skip s) = some l → 0 < l.1 → P (s.drop l.1) ∧
    ∀ out, R (s.drop l.1) out → R s (s.take l.1 :: out)

theorem locJudge_mem {p q : Option (Nat × Nat)} {l : Nat × Nat} (h : locJudge p q = some l) :
    (p = some l ∧ ∀ l', q = some l' → l.1 < l'.1) ∨ (q = some l ∧ ∀ l', p = some l' → l.1 ≤ l'.1) := by
  cases p with
  | none =>
    cases q with
    | none => simp [locJudge] at h
    | some q => simp [locJudge] at h; simp [h]
  | some p =>
    cases q with
    | none => simp [locJudge] at h; simp [h]
    | some q =>
      simp only [locJudge] at h
      split at h
      · rename_i hlt
        simp only [Option.some.injEq] at h
        subst h
        exact Or.inl ⟨rfl, by intro l' e; simp at e; rw [← e]; exact hlt⟩
      · rename_i hlt
        simp only [Option.some.injEq] at h
        subst h
        exact Or.inr ⟨rfl, by intro l' e; simp at e; rw [← e]; omega⟩

theorem hmmCutLoop_inv {internal : Bytes → Option (List Bytes)} {word skip : Matcher} {P : Bytes → Prop}
    {R : Bytes → List Bytes → Prop} (I : CutInv internal word skip P R) (n : Nat) (s : Bytes) (acc : List Bytes) (hP : P s)
    (hn : s.length < n) : ∃ out, hmmCutLoop internal word skip n s acc = some (some (acc ++ out)) ∧ R s out := by
  induction n generalizing s acc with
  | zero => omega
  | succ n ih =>
    rw [hmmCutLoop]
    by_cases h1 : (word s).isNone = true ∧ s = []
    · rw [if_pos h1]
      obtain ⟨_, rfl⟩ := h1
      exact ⟨[], by simp, I.nil⟩
    rw [if_neg h1]
    by_cases h2 : (word s).map (·.1) = some 0
    · rw [if_pos h2]
      obtain ⟨⟨a, b⟩, hw, ha⟩ := Option.map_eq_some_iff.1 h2
      simp only at ha
      subst ha
      obtain ⟨hp, ws, hi, hR⟩ := I.stepW s b hP hw
      have hr := I.rangeW s 0 b hP hw
      obtain ⟨out, h3, h4⟩ := ih (s.drop b) (acc ++ ws) hp (by simp; omega)
      simp only [hw, Option.map_some, Option.getD_some, hi]
      exact ⟨ws ++ out, by rw [h3]; simp, hR out h4⟩
    rw [if_neg h2]
    have hw0 : ∀ b', word s ≠ some (0, b') := by
      intro b' e; rw [e] at h2; simp at h2
    by_cases h3 : (skip s).isNone = true ∧ s = []
    · rw [if_pos h3]
      obtain ⟨_, rfl⟩ := h3
      exact ⟨[], by simp, I.nil⟩
    rw [if_neg h3]
    have hgap : (∀ b', skip s ≠ some (0, b')) →
        ∃ out, cutJudge (fun t a => hmmCutLoop internal word skip n t a) (word s) (skip s) s acc = some (some (acc ++ out)) ∧ R s out := by
      intro hs0
      unfold cutJudge
      cases hj : locJudge (word s) (skip s) with
      | none =>
        have hww : word s = none ∧ skip s = none := by
          cases hw : word s <;> cases hsk : skip s <;> simp [hw, hsk, locJudge] at hj ⊢
          split at hj <;> simp at hj
        have hne : s ≠ [] := by
          rintro rfl; exact h1 ⟨by simp [hww.1], rfl⟩
        exact ⟨[s], rfl, I.last s hP hne hww.1 hww.2⟩
      | some l =>
        have hpos : 0 < l.1 ∧ l.1 ≤ s.length := by
          rcases locJudge_mem hj with ⟨e, _⟩ | ⟨e, _⟩
          · refine ⟨Nat.pos_of_ne_zero ?_, ?_⟩
            · intro h0; exact hw0 l.2 (by rw [e, ← h0])
            · have := I.rangeW s l.1 l.2 hP e; omega
          · refine ⟨Nat.pos_of_ne_zero ?_, ?_⟩
            · intro h0; exact hs0 l.2 (by rw [e, ← h0])
            · have := I.rangeS s l.1 l.2 hP e; omega
        obtain ⟨hp, hR⟩ := I.gap s l hP hj hpos.1
        obtain ⟨out, h4, h5⟩ := ih (s.drop l.1) (acc ++ [s.take l.1]) hp (by simp; omega)
        exact ⟨s.take l.1 :: out, by simp only; rw [h4]; simp, hR out h5⟩
    by_cases h4 : (skip s).map (·.1) = some 0
    · rw [if_pos h4]
      obtain ⟨⟨a, b⟩, hs, ha⟩ := Option.map_eq_some_iff.1 h4
      simp only at ha
      subst ha
      obtain ⟨hp, hR⟩ := I.stepS s b hP hw0 hs
      have hr := I.rangeS s 0 b hP hs
      obtain ⟨out, h5, h6⟩ := ih (s.drop b) (acc ++ [s.take b]) hp (by simp; omega)
      simp only [hs, Option.map_some, Option.getD_some]
      have hne : s.take b ≠ [] := take_ne_nil hr.1 hr.2
      rw [if_pos hne]
      exact ⟨s.take b :: out, by rw [h5]; simp, hR out h6⟩
    · rw [if_neg h4]
      exact hgap (fun b' e => h4 (by rw [e]; rfl))

/-! ## Well-formed text -/

theorem validText_encode {rs : List Rune} (h : ∀ r ∈ rs, validRune r = true) : ValidText (encode rs) := by
  rw [ValidText, runes_encode rs h]

theorem validText_drop {s : Bytes} {n : Nat} (h1 : ValidText s) (h2 : ValidText (s.take n)) : ValidText (s.drop n) := by
  have key : ∀ (rs : List Rune) (t : Bytes), (∀ r ∈ rs, validRune r = true) → ValidText (encode rs ++ t) → ValidText t := by
    intro rs
    induction rs with
    | nil => intro t _ h; simpa using h
    | cons r rs ih =>
      intro t hv h
      apply ih t (fun r hr => hv r (by simp [hr]))
      have hr := hv r (by simp)
      rw [encode_cons, List.append_assoc] at h
      unfold ValidText at h
      rw [runes_cons _ (by simp [encodeRune_ne_nil]), decodeRune_encodeRune r hr] at h
      simpa [ValidText] using h
  apply key (runes (s.take n)) (s.drop n) (runes_valid _)
  rw [h2, List.take_append_drop]; exact h1

theorem validText_append {x y : Bytes} (hx : ValidText x) (hy : ValidText y) : ValidText (x ++ y) := by
  rw [← hx, ← hy, ← encode_append]
  apply validText_encode
  intro r hr
  rcases List.mem_append.1 hr with h | h
  · exact runes_valid _ r h
  · exact runes_valid _ r h

theorem encodeRune_high {r : Rune} (h : ¬ r < 128) : ∀ b ∈ encodeRune r, ¬ b.toNat < 128 := by
  unfold encodeRune
  rw [if_neg h]
  have : ∀ n, 128 ≤ n → n < 256 → ¬ (UInt8.ofNat n).toNat < 128 := by
    intro n h1 h2; rw [toNat_ofNat_lt h2]; omega
  split
  · intro b hb
    simp only [List.mem_cons, List.not_mem_nil, or_false] at hb
    rcases hb with rfl | rfl <;> apply this <;> omega
  split
  · simp
  split
  · intro b hb
    simp only [List.mem_cons, List.not_mem_nil, or_false] at hb
    rcases hb with rfl | rfl | rfl <;> apply this <;> omega
  · rename_i hv _
    simp [validRune] at hv
    intro b hb
    simp only [List.mem_cons, List.not_mem_nil, or_false] at hb
    rcases hb with rfl | rfl | rfl | rfl <;> apply this <;> omega

/-- An ASCII byte of well-formed text is a character. -/
theorem validText_take_ascii {s : Bytes} {a : Nat} {b : UInt8} (hs : ValidText s) (h : s[a]? = some b) (hb : b.toNat < 128) :
    ValidText (s.take a) ∧ ValidText (s.take (a + 1)) := by
  have key : ∀ (rs : List Rune) (a : Nat), (∀ r ∈ rs, validRune r = true) → (encode rs)[a]? = some b →
      ValidText ((encode rs).take a) ∧ ValidText ((encode rs).take (a + 1)) := by
    intro rs
    induction rs with
    | nil => intro a _ h; simp at h
    | cons r rs ih =>
      intro a hv h
      have hr : ValidText (encodeRune r) := by
        have := validText_encode (rs := [r]) (by simpa using hv r (by simp))
        simpa using this
      rw [encode_cons] at h ⊢
      by_cases hlt : a < (encodeRune r).length
      · rw [List.getElem?_append_left hlt] at h
        have hmem := List.mem_of_getElem? h
        have hr128 : r < 128 := by
          by_contra hn
          exact encodeRune_high hn b hmem hb
        have e : encodeRune r = [UInt8.ofNat r] := by simp [encodeRune, hr128]
        have ha : a = 0 := by rw [e] at hlt; simpa using hlt
        subst ha
        refine ⟨by simp [ValidText, runes_nil], ?_⟩
        rw [e] at hr ⊢
        simpa using hr
      · rw [List.getElem?_append_right (by omega)] at h
        obtain ⟨i1, i2⟩ := ih (a - (encodeRune r).length) (fun x hx => hv x (by simp [hx])) h
        rw [List.take_append, List.take_append, List.take_of_length_le (l := encodeRune r) (i := a) (by omega),
          List.take_of_length_le (l := encodeRune r) (i := a + 1) (by omega),
          show a + 1 - (encodeRune r).length = a - (encodeRune r).length + 1 by omega]
        exact ⟨validText_append hr i1, validText_append hr i2⟩
  have := key (runes s) a (runes_valid s) (by rw [hs]; exact h)
  rwa [hs] at this

theorem runes_eq_nil {s : Bytes} : runes s = [] ↔ s = [] := by
  constructor
  · intro h
    by_contra hs
    rw [runes_cons s hs] at h; simp at h
  · rintro rfl; rfl

variable {F D : Type} [F64 F] [F32 D]

theorem flatten_map_encode (ws : List (List Rune)) : (ws.map encode).flatten = encode ws.flatten := by
  induction ws with
  | nil => rfl
  | cons w ws ih => simp [encode_append, ih]

/-- Nothing is lost when matches are not empty and the word pattern finds well-formed text. -/
theorem hmmCut_lossless (c : HmmConst F) (em : EmitModel F) {word skip : Matcher} {P : Bytes → Prop}
    (hw : ∀ s a b, P s → word s = some (a, b) → a < b ∧ b ≤ s.length ∧ P (s.drop a) ∧ P (s.drop b) ∧ (a = 0 → ValidText (s.take b)))
    (hs : ∀ s a b, P s → skip s = some (a, b) → a < b ∧ b ≤ s.length ∧ P (s.drop a) ∧ P (s.drop b)) :
    CutInv (internalCut c em) word skip P fun s out => out.flatten = s ∧ ∀ w ∈ out, w ≠ [] where
  rangeW s a b hP h := ⟨(hw s a b hP h).1, (hw s a b hP h).2.1⟩
  rangeS s a b hP h := ⟨(hs s a b hP h).1, (hs s a b hP h).2.1⟩
  nil := by simp
  stepW s b hP h := by
    obtain ⟨hr1, hr2, _, hp, hv⟩ := hw s 0 b hP h
    have hv := hv rfl
    refine ⟨hp, ?_⟩
    obtain ⟨v, ts, ws, _, h2, h3⟩ := internalCut_words c em (s.take b) (by
      rw [Ne, runes_eq_nil]; exact take_ne_nil hr1 hr2)
    obtain ⟨e, hne⟩ := tagWords_flatten h2
    refine ⟨_, h3, ?_⟩
    rintro out ⟨h4, h5⟩
    constructor
    · rw [List.flatten_append, h4, flatten_map_encode, e, hv, List.take_append_drop]
    · intro w hw'
      rcases List.mem_append.1 hw' with h | h
      · obtain ⟨u, hu, rfl⟩ := List.mem_map.1 h
        have := hne u hu
        cases u with
        | nil => simp at this
        | cons r u => simp [encodeRune_ne_nil]
      · exact h5 w h
  stepS s b hP _ h := by
    obtain ⟨hr1, hr2, _, hp⟩ := hs s 0 b hP h
    refine ⟨hp, ?_⟩
    rintro out ⟨h4, h5⟩
    refine ⟨by simp [h4], ?_⟩
    intro w hw'
    rcases List.mem_cons.1 hw' with rfl | h
    · exact take_ne_nil hr1 hr2
    · exact h5 w h
  last s _ hne _ _ := by simp [hne]
  gap s l hP h hl := by
    have hv : P (s.drop l.1) ∧ l.1 ≤ s.length := by
      rcases locJudge_mem h with ⟨e, _⟩ | ⟨e, _⟩
      · obtain ⟨h1, h2, h3, _⟩ := hw s l.1 l.2 hP e
        exact ⟨h3, by omega⟩
      · obtain ⟨h1, h2, h3, _⟩ := hs s l.1 l.2 hP e
        exact ⟨h3, by omega⟩
    refine ⟨hv.1, ?_⟩
    rintro out ⟨h4, h5⟩
    refine ⟨by simp [h4], ?_⟩
    intro w hw'
    rcases List.mem_cons.1 hw' with rfl | h
    · exact take_ne_nil hl hv.2
    · exact h5 w h

/-! ## The default patterns -/

/-- A character that decodes properly is the encoding of its rune. -/
theorem encode_decode (p : Bytes) (h : (decodeRune p).1 ≠ runeError) : encodeRune (decodeRune p).1 = p.take (decodeRune p).2 := by
  revert h
  unfold decodeRune
  split
  · simp
  · rename_i b0 t
    have hb0 := b0.toNat_lt
    split
    · rename_i h1
      intro _
      simp only [encodeRune, h1, if_true, List.take_succ_cons, List.take_zero, List.cons.injEq, and_true]
      exact UInt8.ofNat_toNat
    split
    · simp
    rename_i h1 h2
    simp at h2
    split
    · simp
    · rename_i b1 t1
      split
      · simp
      rename_i h3
      simp only [Bool.or_eq_true, decide_eq_true_eq, not_or, Nat.not_lt] at h3
      have h4 := b1.toNat_lt
      have hlo : 0x80 ≤ b1.toNat := by
        have := h3.1; unfold sndLo at this; split at this <;> (try split at this) <;> omega
      have hhi : b1.toNat ≤ 0xBF := by
        have := h3.2; unfold sndHi at this; split at this <;> (try split at this) <;> omega
      split
      · rename_i h5
        intro _
        have e1 : ¬ (b0.toNat % 32 * 64 + b1.toNat % 64 < 0x80) := by omega
        have e2 : b0.toNat % 32 * 64 + b1.toNat % 64 < 0x800 := by omega
        simp only [encodeRune, e1, e2, if_true, if_false, List.take_succ_cons, List.take_zero, List.cons.injEq, and_true]
        constructor
        · apply UInt8.toNat_inj.1; rw [toNat_ofNat_lt (by omega)]; omega
        · apply UInt8.toNat_inj.1; rw [toNat_ofNat_lt (by omega)]; omega
      rename_i h5
      split
      · simp
      · rename_i b2 t2
        have hb2 := b2.toNat_lt
        split
        · simp
        rename_i h6
        simp [isCont] at h6
        split
        · rename_i h7
          intro _
          have hv : validRune (b0.toNat % 16 * 4096 + b1.toNat % 64 * 64 + b2.toNat % 64) = true := by
            simp [validRune]
            simp only [sndLo, sndHi] at h3
            by_cases hED : b0.toNat = 0xED
            · simp [hED] at *; omega
            · omega
          have e1 : ¬ (b0.toNat % 16 * 4096 + b1.toNat % 64 * 64 + b2.toNat % 64 < 0x80) := by
            simp only [sndLo] at h3
            by_cases hE0 : b0.toNat = 0xE0
            · simp [hE0] at *; omega
            · omega
          have e2 : ¬ (b0.toNat % 16 * 4096 + b1.toNat % 64 * 64 + b2.toNat % 64 < 0x800) := by
            simp only [sndLo] at h3
            by_cases hE0 : b0.toNat = 0xE0
            · simp [hE0] at *; omega
            · omega
          have e3 : b0.toNat % 16 * 4096 + b1.toNat % 64 * 64 + b2.toNat % 64 < 0x10000 := by omega
          simp only [encodeRune, e1, e2, e3, hv, Bool.not_true, Bool.false_eq_true, if_true, if_false, List.take_succ_cons, List.take_zero,
            List.cons.injEq, and_true]
          refine ⟨?_, ?_, ?_⟩
          · apply UInt8.toNat_inj.1; rw [toNat_ofNat_lt (by omega)]; omega
          · apply UInt8.toNat_inj.1; rw [toNat_ofNat_lt (by omega)]; omega
          · apply UInt8.toNat_inj.1; rw [toNat_ofNat_lt (by omega)]; omega
        rename_i h7
        split
        · simp
        · rename_i b3 t3
          have hb3 := b3.toNat_lt
          split
          · simp
          rename_i h8
          simp [isCont] at h8
          intro _
          have hv : validRune (b0.toNat % 8 * 262144 + b1.toNat % 64 * 4096 + b2.toNat % 64 * 64 + b3.toNat % 64) = true := by
            simp [validRune]
            simp only [sndLo, sndHi] at h3
            by_cases hF0 : b0.toNat = 0xF0
            · simp [hF0] at *; omega
            · by_cases hF4 : b0.toNat = 0xF4
              · simp [hF4] at *; omega
              · omega
          have e3 : ¬ (b0.toNat % 8 * 262144 + b1.toNat % 64 * 4096 + b2.toNat % 64 * 64 + b3.toNat % 64 < 0x10000) := by
            simp only [sndLo] at h3
            by_cases hF0 : b0.toNat = 0xF0
            · simp [hF0] at *; omega
            · omega
          have e1 : ¬ (b0.toNat % 8 * 262144 + b1.toNat % 64 * 4096 + b2.toNat % 64 * 64 + b3.toNat % 64 < 0x80) := by omega
          have e2 : ¬ (b0.toNat % 8 * 262144 + b1.toNat % 64 * 4096 + b2.toNat % 64 * 64 + b3.toNat % 64 < 0x800) := by omega
          simp only [encodeRune, e1, e2, e3, hv, Bool.not_true, Bool.false_eq_true, if_false, List.take_succ_cons, List.take_zero,
            List.cons.injEq, and_true]
          refine ⟨?_, ?_, ?_, ?_⟩
          · apply UInt8.toNat_inj.1; rw [toNat_ofNat_lt (by omega)]; omega
          · apply UInt8.toNat_inj.1; rw [toNat_ofNat_lt (by omega)]; omega
          · apply UInt8.toNat_inj.1; rw [toNat_ofNat_lt (by omega)]; omega
          · apply UInt8.toNat_inj.1; rw [toNat_ofNat_lt (by omega)]; omega

end Gse
