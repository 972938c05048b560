import Verif.Spec.Json
import Verif.Proofs.HmmCut
import Verif.Proofs.TrimCut

/-! Reading back what `json.Marshal` writes. -/

namespace Gse

open Spec

theorem readChars_one {m : Nat} {b : UInt8} {x : Bytes} (h1 : b ≠ 34) (h2 : b ≠ 92) (h3 : ¬ b.toNat < 32) :
    readChars (m + 1) (b :: x) = (readChars m x).map fun r => (b :: r.1, r.2) := by
  simp [readChars, h1, h2, h3]

theorem readChars_escape {m : Nat} {x e y : Bytes} (h : readEscape x = some (e, y)) :
    readChars (m + 1) (92 :: x) = (readChars m y).map fun r => (e ++ r.1, r.2) := by
  simp [readChars, h]

theorem readEscape_hex {x y : Bytes} {r : Nat} (h : hex4 x = some (r, y)) (hr : validRune r = true) :
    readEscape (117 :: x) = some (encodeRune r, y) := by
  show (hex4 x).bind _ = _
  rw [h, Option.bind_some, if_pos hr]

theorem hex_byte : ∀ b : UInt8, hexVal (hexDigit (b.toNat / 16)) = some (b.toNat / 16) ∧ hexVal (hexDigit (b.toNat % 16)) = some (b.toNat % 16) := by
  exact forall_byte (P := fun b => hexVal (hexDigit (b.toNat / 16)) = some (b.toNat / 16) ∧ hexVal (hexDigit (b.toNat % 16)) = some (b.toNat % 16))
    (by decide +kernel)

theorem encodeRune_byte (b : UInt8) (h : b.toNat < 128) : encodeRune b.toNat = [b] := by
  simp [encodeRune, h]

/-- An ASCII byte is read back. -/
theorem readChars_byte (short : Bool) (b : UInt8) (hb : b.toNat < 128) (m : Nat) (x : Bytes) :
    readChars (m + 1) (jsonByte short b ++ x) = (readChars m x).map fun r => (b :: r.1, r.2) := by
  unfold jsonByte
  split
  · rename_i h
    rcases h with rfl | rfl
    · exact readChars_escape (x := 34 :: x) (e := [34]) rfl
    · exact readChars_escape (x := 92 :: x) (e := [92]) rfl
  rename_i h0
  split
  · rename_i h; subst h; exact readChars_escape (x := 110 :: x) (e := [10]) rfl
  split
  · rename_i h; subst h; exact readChars_escape (x := 114 :: x) (e := [13]) rfl
  split
  · rename_i h; subst h; exact readChars_escape (x := 116 :: x) (e := [9]) rfl
  split
  · rename_i h; rw [h.2]; exact readChars_escape (x := 98 :: x) (e := [8]) rfl
  split
  · rename_i h; rw [h.2]; exact readChars_escape (x := 102 :: x) (e := [12]) rfl
  split
  · obtain ⟨e1, e2⟩ := hex_byte b
    refine readChars_escape (x := 117 :: 48 :: 48 :: hexDigit (b.toNat / 16) :: hexDigit (b.toNat % 16) :: x) (e := [b]) ?_
    have hv : ((0 * 16 + 0) * 16 + b.toNat / 16) * 16 + b.toNat % 16 = b.toNat := by omega
    have e3 : hex4 (48 :: 48 :: hexDigit (b.toNat / 16) :: hexDigit (b.toNat % 16) :: x) = some (b.toNat, x) := by
      simp only [hex4, e1, e2, show hexVal 48 = some 0 from by decide]
      rw [hv]
    have e4 : validRune b.toNat = true := by simp [validRune]; omega
    show (hex4 _).bind _ = _
    rw [e3]
    simp [e4, encodeRune_byte b hb]
  · rename_i h
    simp only [not_or] at h h0
    exact readChars_one h0.1 h0.2 h.1

/-- Bytes beyond ASCII are copied. -/
theorem readChars_raw (l : Bytes) (hl : ∀ b ∈ l, ¬ b.toNat < 128) (m : Nat) (x : Bytes) :
    readChars (m + l.length) (l ++ x) = (readChars m x).map fun r => (l ++ r.1, r.2) := by
  induction l with
  | nil => simp
  | cons b l ih =>
    have hb := hl b (by simp)
    rw [List.length_cons, ← Nat.add_assoc, List.cons_append,
      readChars_one (by rintro rfl; exact hb (by decide)) (by rintro rfl; exact hb (by decide)) (by omega),
      ih fun c hc => hl c (by simp [hc])]
    rw [Option.map_map]; rfl

theorem readChars_mono {m n : Nat} {x : Bytes} {r : Bytes × Bytes} (h : readChars m x = some r) (hmn : m ≤ n) : readChars n x = some r := by
  induction m generalizing n x r with
  | zero => simp [readChars] at h
  | succ m ih =>
    obtain ⟨n, rfl⟩ : ∃ k, n = k + 1 := ⟨n - 1, by omega⟩
    have hmn' : m ≤ n := by omega
    cases x with
    | nil => simp [readChars] at h
    | cons b t =>
      simp only [readChars] at h ⊢
      split at h
      · rename_i hb; rw [if_pos hb]; exact h
      rename_i hb; rw [if_neg hb]
      split at h
      · rename_i hb2
        rw [if_pos hb2]
        obtain ⟨p, h1, h2⟩ := Option.bind_eq_some_iff.1 h
        obtain ⟨q, h3, h4⟩ := Option.map_eq_some_iff.1 h2
        rw [h1, Option.bind_some, ih h3 hmn', ← h4]; rfl
      rename_i hb2; rw [if_neg hb2]
      split at h
      · simp at h
      rename_i hb3; rw [if_neg hb3]
      obtain ⟨q, h3, h4⟩ := Option.map_eq_some_iff.1 h
      rw [ih h3 hmn', ← h4]; rfl

/-- A character that is U+FFFD and not malformed. -/
theorem decode_fffd (p : Bytes) (h : (decodeRune p).1 = runeError) (h2 : (decodeRune p).2 ≠ 1) (hp : p ≠ []) :
    p.take (decodeRune p).2 = encodeRune runeError := by
  revert h h2
  unfold decodeRune
  split
  · exact absurd rfl hp
  · rename_i b0 t
    have hb0 := b0.toNat_lt
    split
    · simp
    split
    · simp
    rename_i h1 h2
    simp at h2
    split
    · simp
    · rename_i b1 t1
      split
      · simp
      rename_i h3
      simp only [Bool.or_eq_true, decide_eq_true_eq, not_or, Nat.not_lt] at h3
      have h4 := b1.toNat_lt
      have hlo : 0x80 ≤ b1.toNat := by
        have := h3.1; unfold sndLo at this; split at this <;> (try split at this) <;> omega
      have hhi : b1.toNat ≤ 0xBF := by
        have := h3.2; unfold sndHi at this; split at this <;> (try split at this) <;> omega
      split
      · intro h; simp [runeError] at h; omega
      rename_i h5
      split
      · simp
      · rename_i b2 t2
        split
        · simp
        rename_i h6
        simp [isCont] at h6
        split
        · rename_i h7
          intro h _
          simp only [runeError] at h
          have e0 : b0 = 0xEF := UInt8.toNat_inj.1 (by show b0.toNat = 0xEF; omega)
          have e1 : b1 = 0xBF := UInt8.toNat_inj.1 (by show b1.toNat = 0xBF; omega)
          have e2 : b2 = 0xBD := UInt8.toNat_inj.1 (by show b2.toNat = 0xBD; omega)
          subst e0 e1 e2
          rfl
        rename_i h7
        split
        · simp
        · rename_i b3 t3
          split
          · simp
          · intro h
            simp [runeError] at h
            have hlo2 : b0.toNat = 0xF0 → 0x90 ≤ b1.toNat := by
              intro e; have := h3.1; simp [sndLo, e] at this; omega
            omega

theorem runes_step {b : UInt8} {t : Bytes} : utf8 (b :: t) = encodeRune (decodeRune (b :: t)).1 ++ utf8 ((b :: t).drop (decodeRune (b :: t)).2) := by
  rw [utf8, runes_cons _ (by simp), encode_cons]; rfl

theorem take_ge_128 {b : UInt8} {t : Bytes} (hb : ¬ b.toNat < 128)
    (he : ¬ ((decodeRune (b :: t)).1 = runeError ∧ (decodeRune (b :: t)).2 = 1)) :
    encodeRune (decodeRune (b :: t)).1 = (b :: t).take (decodeRune (b :: t)).2 ∧ ∀ c ∈ (b :: t).take (decodeRune (b :: t)).2, ¬ c.toNat < 128 := by
  have e : encodeRune (decodeRune (b :: t)).1 = (b :: t).take (decodeRune (b :: t)).2 := by
    by_cases h : (decodeRune (b :: t)).1 = runeError
    · rw [decode_fffd _ h (fun h2 => he ⟨h, h2⟩) (by simp), h]
    · exact encode_decode _ h
  refine ⟨e, ?_⟩
  rw [← e]
  apply encodeRune_high
  intro hr
  have hk := decodeRune_size_pos (b :: t) (by simp)
  obtain ⟨k, hk⟩ : ∃ k, (decodeRune (b :: t)).2 = k + 1 := ⟨(decodeRune (b :: t)).2 - 1, by omega⟩
  rw [hk, List.take_succ_cons] at e
  simp only [encodeRune, hr, if_true, List.cons.injEq] at e
  apply hb
  rw [← e.1, toNat_ofNat_lt (by omega)]
  exact hr

/-- What is between the quotes is read back. -/
theorem readChars_json (short : Bool) (rest : Bytes) : ∀ (n : Nat) (s : Bytes), s.length ≤ n → ∀ m, s.length < m →
    readChars m (jsonChars short n s ++ 34 :: rest) = some (utf8 s, rest) := by
  intro n
  induction n with
  | zero =>
    intro s hs m hm
    obtain rfl : s = [] := List.length_eq_zero_iff.1 (by omega)
    obtain ⟨m, rfl⟩ : ∃ k, m = k + 1 := ⟨m - 1, by simp at hm; omega⟩
    simp [jsonChars, readChars, utf8, runes_nil]
  | succ n ih =>
    intro s hs m hm
    cases s with
    | nil =>
      obtain ⟨m, rfl⟩ : ∃ k, m = k + 1 := ⟨m - 1, by simp at hm; omega⟩
      simp [jsonChars, readChars, utf8, runes_nil]
    | cons b t =>
      simp only [List.length_cons] at hs hm
      obtain ⟨m, rfl⟩ : ∃ k, m = k + 1 := ⟨m - 1, by omega⟩
      simp only [jsonChars]
      by_cases hb : b.toNat < 128
      · rw [if_pos hb, List.append_assoc, readChars_byte short b hb, ih t (by omega) m (by omega), runes_step]
        have hd : decodeRune (b :: t) = (b.toNat, 1) := by simp [decodeRune, hb]
        simp [hd, encodeRune_byte b hb]
      · rw [if_neg hb, runes_step]
        have h1 := decodeRune_size_pos (b :: t) (by simp)
        have h2 := decodeRune_size_le (b :: t)
        simp only [List.length_cons] at h2
        have hi := ih ((b :: t).drop (decodeRune (b :: t)).2) (by simp; omega)
        generalize hK : (decodeRune (b :: t)).2 = K at *
        split
        · rename_i he
          rw [List.append_assoc]
          have := readChars_escape (m := m) (x := str "ufffd" ++ (jsonChars short n ((b :: t).drop K) ++ 34 :: rest))
            (e := encodeRune runeError) (y := jsonChars short n ((b :: t).drop K) ++ 34 :: rest) (by
              rw [show str "ufffd" = [117, 102, 102, 102, 100] from by decide]
              exact readEscape_hex rfl (by decide))
          rw [show str "\\ufffd" ++ (jsonChars short n ((b :: t).drop K) ++ 34 :: rest) =
            92 :: (str "ufffd" ++ (jsonChars short n ((b :: t).drop K) ++ 34 :: rest)) from rfl, this, hi m (by simp; omega), he.1]
          rfl
        rename_i he
        split
        · rename_i hr
          rw [List.append_assoc]
          have := readChars_escape (m := m) (x := str "u2028" ++ (jsonChars short n ((b :: t).drop K) ++ 34 :: rest))
            (e := encodeRune 0x2028) (y := jsonChars short n ((b :: t).drop K) ++ 34 :: rest) (by
              rw [show str "u2028" = [117, 50, 48, 50, 56] from by decide]
              exact readEscape_hex rfl (by decide))
          rw [show str "\\u2028" ++ (jsonChars short n ((b :: t).drop K) ++ 34 :: rest) =
            92 :: (str "u2028" ++ (jsonChars short n ((b :: t).drop K) ++ 34 :: rest)) from rfl, this, hi m (by simp; omega), hr]
          rfl
        split
        · rename_i hr
          rw [List.append_assoc]
          have := readChars_escape (m := m) (x := str "u2029" ++ (jsonChars short n ((b :: t).drop K) ++ 34 :: rest))
            (e := encodeRune 0x2029) (y := jsonChars short n ((b :: t).drop K) ++ 34 :: rest) (by
              rw [show str "u2029" = [117, 50, 48, 50, 57] from by decide]
              exact readEscape_hex rfl (by decide))
          rw [show str "\\u2029" ++ (jsonChars short n ((b :: t).drop K) ++ 34 :: rest) =
            92 :: (str "u2029" ++ (jsonChars short n ((b :: t).drop K) ++ 34 :: rest)) from rfl, this, hi m (by simp; omega), hr]
          rfl
        · obtain ⟨e1, e2⟩ := take_ge_128 hb (by rw [hK]; exact he)
          rw [hK] at e1 e2
          have hlen : ((b :: t).take K).length = K := by rw [List.length_take, List.length_cons]; omega
          have := readChars_raw _ e2 (m + 1 - K) (jsonChars short n ((b :: t).drop K) ++ 34 :: rest)
          rw [hlen, Nat.sub_add_cancel (by omega)] at this
          rw [List.append_assoc, this, hi (m + 1 - K) (by simp; omega), e1]
          rfl

/-- Nothing gets shorter. -/
theorem jsonChars_length (short : Bool) : ∀ (n : Nat) (s : Bytes), s.length ≤ n → s.length ≤ (jsonChars short n s).length := by
  intro n
  induction n with
  | zero => intro s hs; omega
  | succ n ih =>
    intro s hs
    cases s with
    | nil => simp
    | cons b t =>
      simp only [List.length_cons] at hs
      simp only [jsonChars]
      split
      · have : 1 ≤ (jsonByte short b).length := by
          unfold jsonByte
          (repeat' split) <;> simp [str]
        have := ih t (by omega)
        simp; omega
      · rename_i hb
        have h1 := decodeRune_size_pos (b :: t) (by simp)
        have h2 := decodeRune_size_le (b :: t)
        simp only [List.length_cons] at h2
        have := ih ((b :: t).drop (decodeRune (b :: t)).2) (by simp; omega)
        rw [List.length_drop, List.length_cons] at this
        have h4 : (decodeRune (b :: t)).2 ≤ 4 := by
          unfold decodeRune; (repeat' split) <;> simp_all
        rw [List.length_append, List.length_cons]
        have h5 : (decodeRune (b :: t)).2 ≤ (if (decodeRune (b :: t)).1 = runeError ∧ (decodeRune (b :: t)).2 = 1 then str "\\ufffd"
            else if (decodeRune (b :: t)).1 = 0x2028 then str "\\u2028" else if (decodeRune (b :: t)).1 = 0x2029 then str "\\u2029"
            else (b :: t).take (decodeRune (b :: t)).2).length := by
          split
          · show _ ≤ 6; omega
          split
          · show _ ≤ 6; omega
          split
          · show _ ≤ 6; omega
          · rw [List.length_take, List.length_cons]; omega
        omega

theorem readString_json (short : Bool) (s rest : Bytes) : readString (jsonString short s ++ rest) = some (utf8 s, rest) := by
  unfold jsonString
  rw [List.cons_append, List.append_assoc]
  show readChars (jsonChars short s.length s ++ 34 :: rest).length (jsonChars short s.length s ++ 34 :: rest) = _
  refine readChars_json short rest _ s (Nat.le_refl _) _ ?_
  have := jsonChars_length short _ s (Nat.le_refl _)
  simp; omega

/-! ### Values -/

/-- What may follow a value: no further digit. -/
def NoDigit (rest : Bytes) : Prop := ∀ b, rest.head? = some b → jsonDigit b = false

theorem readMember_json (short : Bool) (k : Bytes) (value : Bytes → Option (JVal × Bytes)) (x : Bytes) :
    readMember value (jsonString short k ++ 58 :: x) = (value x).map fun r => ((utf8 k, r.1), r.2) := by
  unfold readMember
  rw [readString_json]
  rfl

theorem marshal_head (short : Bool) (v : JVal) (h : NumsOK v) : ∃ b t, v.marshal short = b :: t ∧ b ≠ 93 ∧ b ≠ 125 ∧ b ≠ 44 := by
  cases v with
  | null => exact ⟨110, _, rfl, by decide⟩
  | num ds =>
    rw [NumsOK] at h
    rcases ds with _ | ⟨b, t⟩
    · exact absurd rfl h.1
    · refine ⟨b, t, by rw [JVal.marshal], ?_⟩
      have hb := h.2 b (by simp)
      refine ⟨?_, ?_, ?_⟩ <;> rintro rfl <;> revert hb <;> decide
  | text s => exact ⟨34, _, by rw [JVal.marshal]; rfl, by decide⟩
  | arr l =>
    cases l with
    | nil => exact ⟨91, _, by rw [JVal.marshal]; rfl, by decide⟩
    | cons v l => exact ⟨91, _, by rw [JVal.marshal], by decide⟩
  | obj l =>
    cases l with
    | nil => exact ⟨123, _, by rw [JVal.marshal]; rfl, by decide⟩
    | cons k v l => exact ⟨123, _, by rw [JVal.marshal], by decide⟩

theorem takeWhile_digits {ds rest : Bytes} (h : ∀ b ∈ ds, jsonDigit b = true) (hr : NoDigit rest) :
    (ds ++ rest).takeWhile jsonDigit = ds ∧ (ds ++ rest).dropWhile jsonDigit = rest := by
  induction ds with
  | nil =>
    cases rest with
    | nil => simp
    | cons b t =>
      have := hr b rfl
      simp [this]
  | cons b ds ih =>
    have hb := h b (by simp)
    have := ih fun c hc => h c (by simp [hc])
    simp [hb, this]

theorem readVal_null (n : Nat) (rest : Bytes) : readVal (n + 1) (str "null" ++ rest) = some (.null, rest) := by
  show readVal (n + 1) (110 :: 117 :: 108 :: 108 :: rest) = _
  rw [readVal, if_pos rfl]
  have : (117 :: 108 :: 108 :: rest : Bytes).take 3 = str "ull" := by
    show [117, 108, 108] = str "ull"
    decide
  rw [if_pos this]; rfl

theorem readVal_num (n : Nat) (ds rest : Bytes) (h : ds ≠ [] ∧ ∀ b ∈ ds, jsonDigit b = true) (hr : NoDigit rest) :
    readVal (n + 1) (ds ++ rest) = some (.num ds, rest) := by
  rcases ds with _ | ⟨b, t⟩
  · exact absurd rfl h.1
  have hb := h.2 b (by simp)
  obtain ⟨e1, e2⟩ := takeWhile_digits h.2 hr
  rw [List.cons_append] at e1 e2 ⊢
  rw [readVal, if_neg (by rintro rfl; revert hb; decide), if_neg (by rintro rfl; revert hb; decide), if_neg (by rintro rfl; revert hb; decide),
    if_neg (by rintro rfl; revert hb; decide), if_pos hb, e1, e2]

theorem noDigit_cons {b : UInt8} {t : Bytes} (h : jsonDigit b = false) : NoDigit (b :: t) := by
  intro c hc
  simp only [List.head?_cons, Option.some.injEq] at hc
  rw [← hc]; exact h

theorem rest_noDigit_arr (short : Bool) (l : JArr) (rest : Bytes) : NoDigit (l.rest short ++ rest) := by
  cases l <;> rw [JArr.rest] <;> exact noDigit_cons (by decide)

theorem rest_noDigit_obj (short : Bool) (l : JObj) (rest : Bytes) : NoDigit (l.rest short ++ rest) := by
  cases l <;> rw [JObj.rest] <;> exact noDigit_cons (by decide)

theorem readVal_open {n : Nat} {t : Bytes} (h : t.head? ≠ some 93) :
    readVal (n + 1) (91 :: t) = (readVal n t).bind fun r => (readElems n r.2).map fun r' => (.arr (.cons r.1 r'.1), r'.2) := by
  rw [readVal, if_neg (by decide), if_neg (by decide), if_pos rfl, if_neg h]

theorem readVal_brace {n : Nat} {t : Bytes} (h : t.head? ≠ some 125) :
    readVal (n + 1) (123 :: t) =
      (readMember (readVal n) t).bind fun r => (readMembers n r.2).map fun r' => (.obj (.cons r.1.1 r.1.2 r'.1), r'.2) := by
  rw [readVal, if_neg (by decide), if_neg (by decide), if_neg (by decide), if_pos rfl, if_neg h]

theorem readVal_empty_arr (n : Nat) (t : Bytes) : readVal (n + 1) (91 :: 93 :: t) = some (.arr .nil, t) := by
  rw [readVal, if_neg (by decide), if_neg (by decide), if_pos rfl, if_pos (by rfl)]; rfl

theorem readVal_empty_obj (n : Nat) (t : Bytes) : readVal (n + 1) (123 :: 125 :: t) = some (.obj .nil, t) := by
  rw [readVal, if_neg (by decide), if_neg (by decide), if_neg (by decide), if_pos rfl, if_pos (by rfl)]; rfl

theorem readVal_quote (n : Nat) (t : Bytes) : readVal (n + 1) (34 :: t) = (readString (34 :: t)).map fun r => (.text r.1, r.2) := by
  rw [readVal, if_neg (by decide), if_pos rfl]

mutual
theorem readVal_json (short : Bool) : ∀ (v : JVal), NumsOK v → ∀ (n : Nat) (rest : Bytes), NoDigit rest → (v.marshal short).length ≤ n →
    readVal n (v.marshal short ++ rest) = some (carried v, rest)
  | .null, _, n, rest, _, hn => by
    rw [JVal.marshal] at hn ⊢
    obtain ⟨n, rfl⟩ : ∃ k, n = k + 1 := ⟨n - 1, by have : (str "null").length = 4 := by decide
                                                   omega⟩
    rw [readVal_null, carried]
  | .num ds, h, n, rest, hr, hn => by
    rw [JVal.marshal] at hn ⊢
    rw [NumsOK] at h
    have := List.length_pos_iff.2 h.1
    obtain ⟨n, rfl⟩ : ∃ k, n = k + 1 := ⟨n - 1, by omega⟩
    rw [readVal_num n ds rest h hr, carried]
  | .text s, _, n, rest, _, hn => by
    rw [JVal.marshal] at hn ⊢
    obtain ⟨n, rfl⟩ : ∃ k, n = k + 1 := ⟨n - 1, by simp [jsonString] at hn; omega⟩
    have e := readString_json short s rest
    unfold jsonString at e ⊢
    rw [List.cons_append] at e ⊢
    rw [readVal_quote, e, carried]; rfl
  | .arr .nil, _, n, rest, _, hn => by
    rw [JVal.marshal] at hn ⊢
    obtain ⟨n, rfl⟩ : ∃ k, n = k + 1 := ⟨n - 1, by have : (str "[]").length = 2 := by decide
                                                   omega⟩
    show readVal (n + 1) (91 :: 93 :: rest) = _
    rw [readVal_empty_arr, carried, carriedArr]
  | .arr (.cons v l), h, n, rest, _, hn => by
    rw [JVal.marshal] at hn ⊢
    simp only [List.length_cons, List.length_append] at hn
    obtain ⟨n, rfl⟩ : ∃ k, n = k + 1 := ⟨n - 1, by omega⟩
    rw [NumsOK, NumsOKArr] at h
    obtain ⟨b, t, e, hb, _⟩ := marshal_head short v h.1
    rw [List.cons_append, List.append_assoc, readVal_open (by rw [e]; simpa using hb),
      readVal_json short v h.1 n _ (rest_noDigit_arr short l rest) (by omega), Option.bind_some,
      readElems_json short l h.2 n rest (by omega), carried, carriedArr]
    rfl
  | .obj .nil, _, n, rest, _, hn => by
    rw [JVal.marshal] at hn ⊢
    obtain ⟨n, rfl⟩ : ∃ k, n = k + 1 := ⟨n - 1, by have : (str "{}").length = 2 := by decide
                                                   omega⟩
    show readVal (n + 1) (123 :: 125 :: rest) = _
    rw [readVal_empty_obj, carried, carriedObj]
  | .obj (.cons k v l), h, n, rest, _, hn => by
    rw [JVal.marshal] at hn ⊢
    simp only [List.length_cons, List.length_append] at hn
    obtain ⟨n, rfl⟩ : ∃ k, n = k + 1 := ⟨n - 1, by omega⟩
    rw [NumsOK, NumsOKObj] at h
    rw [List.cons_append, List.append_assoc, readVal_brace (by simp [jsonString]), List.cons_append, readMember_json, List.append_assoc,
      readVal_json short v h.1 n _ (rest_noDigit_obj short l rest) (by omega), Option.map_some, Option.bind_some,
      readMembers_json short l h.2 n rest (by omega), carried, carriedObj]
    rfl
theorem readElems_json (short : Bool) : ∀ (l : JArr), NumsOKArr l → ∀ (n : Nat) (rest : Bytes), (l.rest short).length ≤ n →
    readElems n (l.rest short ++ rest) = some (carriedArr l, rest)
  | .nil, _, n, rest, hn => by
    rw [JArr.rest] at hn ⊢
    obtain ⟨n, rfl⟩ : ∃ k, n = k + 1 := ⟨n - 1, by simp at hn; omega⟩
    show readElems (n + 1) (93 :: rest) = _
    rw [readElems, if_pos rfl, carriedArr]
  | .cons v l, h, n, rest, hn => by
    rw [JArr.rest] at hn ⊢
    simp only [List.length_cons, List.length_append] at hn
    obtain ⟨n, rfl⟩ : ∃ k, n = k + 1 := ⟨n - 1, by omega⟩
    rw [NumsOKArr] at h
    rw [List.cons_append, List.append_assoc, readElems, if_neg (by decide), if_pos rfl,
      readVal_json short v h.1 n _ (rest_noDigit_arr short l rest) (by omega), Option.bind_some,
      readElems_json short l h.2 n rest (by omega), carriedArr]
    rfl
theorem readMembers_json (short : Bool) : ∀ (l : JObj), NumsOKObj l → ∀ (n : Nat) (rest : Bytes), (l.rest short).length ≤ n →
    readMembers n (l.rest short ++ rest) = some (carriedObj l, rest)
  | .nil, _, n, rest, hn => by
    rw [JObj.rest] at hn ⊢
    obtain ⟨n, rfl⟩ : ∃ k, n = k + 1 := ⟨n - 1, by simp at hn; omega⟩
    show readMembers (n + 1) (125 :: rest) = _
    rw [readMembers, if_pos rfl, carriedObj]
  | .cons k v l, h, n, rest, hn => by
    rw [JObj.rest] at hn ⊢
    simp only [List.length_cons, List.length_append] at hn
    obtain ⟨n, rfl⟩ : ∃ k, n = k + 1 := ⟨n - 1, by omega⟩
    rw [NumsOKObj] at h
    rw [List.cons_append, List.append_assoc, readMembers, if_neg (by decide), if_pos rfl, List.cons_append, readMember_json, List.append_assoc,
      readVal_json short v h.1 n _ (rest_noDigit_obj short l rest) (by omega), Option.map_some, Option.bind_some,
      readMembers_json short l h.2 n rest (by omega), carriedObj]
    rfl
end

theorem readJson_marshal (short : Bool) (v : JVal) (h : NumsOK v) : readJson (v.marshal short) = some (carried v) := by
  have := readVal_json short v h (v.marshal short).length [] (by intro b hb; simp at hb) (Nat.le_refl _)
  rw [List.append_nil] at this
  rw [readJson, this]

end Gse
