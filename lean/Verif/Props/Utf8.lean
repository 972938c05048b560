import Verif.Spec.Utf8
import Verif.Proofs.Trim
import Verif.Proofs.GoStr
import Verif.Proofs.Encode

/-! # C81: characters, blanks -/

namespace Gse
open Spec

set_option linter.unusedSectionVars false

theorem byte_eq {a : UInt8} {n : Nat} (h : a.toNat = n) : UInt8.ofNat n = a := by
  subst h; simp

theorem utf8_iff (r : Rune) (bs : Bytes) : Utf8 r bs ↔ validRune r = true ∧ bs = encodeRune r := by
  constructor
  · intro h
    cases h with
    | one a ha =>
      refine ⟨by simp [validRune]; omega, ?_⟩
      unfold encodeRune
      rw [if_pos ha, byte_eq rfl]
    | two a b x y hx hy ha hb hlo =>
      refine ⟨by simp [validRune]; omega, ?_⟩
      unfold encodeRune
      rw [if_neg (by omega), if_pos (by omega), byte_eq (a := a) (by omega), byte_eq (a := b) (by omega)]
    | three a b c x y z hx hy hz ha hb hc hlo hs =>
      have hv : validRune (x * 4096 + y * 64 + z) = true := by simp [validRune]; omega
      refine ⟨hv, ?_⟩
      unfold encodeRune
      rw [if_neg (by omega), if_neg (by omega), hv, if_neg (by simp), if_pos (by omega), byte_eq (a := a) (by omega), byte_eq (a := b) (by omega),
        byte_eq (a := c) (by omega)]
    | four a b c d x y z w hx hy hz hw ha hb hc hd hlo hhi =>
      have hv : validRune (x * 262144 + y * 4096 + z * 64 + w) = true := by simp [validRune]; omega
      refine ⟨hv, ?_⟩
      unfold encodeRune
      rw [if_neg (by omega), if_neg (by omega), hv, if_neg (by simp), if_neg (by omega), byte_eq (a := a) (by omega), byte_eq (a := b) (by omega),
        byte_eq (a := c) (by omega), byte_eq (a := d) (by omega)]
  · rintro ⟨hv, rfl⟩
    have hv' := hv
    simp only [validRune, Bool.or_eq_true, Bool.and_eq_true, decide_eq_true_eq] at hv'
    unfold encodeRune
    split
    · have := Utf8.one (UInt8.ofNat r) (by rw [toNat_ofNat_lt (by omega)]; assumption)
      rwa [toNat_ofNat_lt (by omega)] at this
    split
    · have := Utf8.two (UInt8.ofNat (0xC0 + r / 64)) (UInt8.ofNat (0x80 + r % 64)) (r / 64) (r % 64) (by omega) (by omega)
        (toNat_ofNat_lt (by omega)) (toNat_ofNat_lt (by omega)) (by omega)
      rwa [show r / 64 * 64 + r % 64 = r by omega] at this
    split
    · next h => simp [hv] at h
    split
    · have := Utf8.three (UInt8.ofNat (0xE0 + r / 4096)) (UInt8.ofNat (0x80 + r / 64 % 64)) (UInt8.ofNat (0x80 + r % 64)) (r / 4096) (r / 64 % 64) (r % 64)
        (by omega) (by omega) (by omega) (toNat_ofNat_lt (by omega)) (toNat_ofNat_lt (by omega)) (toNat_ofNat_lt (by omega)) (by omega) (by omega)
      rwa [show r / 4096 * 4096 + r / 64 % 64 * 64 + r % 64 = r by omega] at this
    · have := Utf8.four (UInt8.ofNat (0xF0 + r / 262144)) (UInt8.ofNat (0x80 + r / 4096 % 64)) (UInt8.ofNat (0x80 + r / 64 % 64)) (UInt8.ofNat (0x80 + r % 64))
        (r / 262144) (r / 4096 % 64) (r / 64 % 64) (r % 64) (by omega) (by omega) (by omega) (by omega) (toNat_ofNat_lt (by omega)) (toNat_ofNat_lt (by omega))
        (toNat_ofNat_lt (by omega)) (toNat_ofNat_lt (by omega)) (by omega) (by omega)
      rwa [show r / 262144 * 262144 + r / 4096 % 64 * 4096 + r / 64 % 64 * 64 + r % 64 = r by omega] at this

theorem snd_facts (c : Nat) : 0x80 ≤ sndLo c ∧ (c = 0xE0 → sndLo c = 0xA0) ∧ (c = 0xF0 → sndLo c = 0x90) ∧ sndHi c ≤ 0xBF ∧
    (c = 0xED → sndHi c = 0x9F) ∧ (c = 0xF4 → sndHi c = 0x8F) := by
  refine ⟨?_, ?_, ?_, ?_, ?_, ?_⟩
  · unfold sndLo; split; omega; split <;> omega
  · rintro rfl; rfl
  · rintro rfl; rfl
  · unfold sndHi; split; omega; split <;> omega
  · rintro rfl; rfl
  · rintro rfl; rfl

theorem decode_cases (b0 : UInt8) (t : Bytes) : decodeRune (b0 :: t) = (0xFFFD, 1) ∨ ∃ bs, Utf8 (decodeRune (b0 :: t)).1 bs ∧ bs <+: b0 :: t := by
  have h0 := b0.toNat_lt
  unfold decodeRune
  dsimp only
  split
  · next h => exact .inr ⟨[b0], .one b0 h, t, rfl⟩
  split
  · exact .inl rfl
  next h1 h2 =>
  simp only [Bool.or_eq_true, decide_eq_true_eq, not_or, Nat.not_lt] at h2
  split
  · exact .inl rfl
  next b1 t1 =>
  have g1 := b1.toNat_lt
  split
  · exact .inl rfl
  next h3 =>
  simp only [Bool.or_eq_true, decide_eq_true_eq, not_or, Nat.not_lt] at h3
  obtain ⟨k1, k2, k3, k4, k5, k6⟩ := snd_facts b0.toNat
  have c1 : 0x80 ≤ b1.toNat ∧ b1.toNat ≤ 0xBF := by omega
  split
  · next h4 =>
    refine .inr ⟨[b0, b1], ?_, t1, rfl⟩
    exact .two b0 b1 _ _ (by omega) (by omega) (by omega) (by omega) (by omega)
  next h4 =>
  split
  · exact .inl rfl
  next b2 t2 =>
  split
  · exact .inl rfl
  next h5 =>
  simp only [isCont, Bool.not_eq_true, Bool.not_eq_false', Bool.and_eq_true, decide_eq_true_eq] at h5
  split
  · next h6 =>
    refine .inr ⟨[b0, b1, b2], ?_, t2, rfl⟩
    refine .three b0 b1 b2 _ _ _ (by omega) (by omega) (by omega) (by omega) (by omega) (by omega) ?_ ?_
    · rcases Nat.lt_or_eq_of_le (show 0xE0 ≤ b0.toNat by omega) with q | q
      · omega
      · have := k2 q.symm; omega
    · by_cases q : b0.toNat = 0xED
      · have := k5 q; omega
      · omega
  next h6 =>
  split
  · exact .inl rfl
  next b3 t3 =>
  split
  · exact .inl rfl
  next h7 =>
  simp only [isCont, Bool.not_eq_true, Bool.not_eq_false', Bool.and_eq_true, decide_eq_true_eq] at h7
  refine .inr ⟨[b0, b1, b2, b3], ?_, t3, rfl⟩
  refine .four b0 b1 b2 b3 _ _ _ _ (by omega) (by omega) (by omega) (by omega) (by omega) (by omega) (by omega) (by omega) ?_ ?_
  · by_cases q : b0.toNat = 0xF0
    · have := k3 q; omega
    · omega
  · by_cases q : b0.toNat = 0xF4
    · have := k6 q; omega
    · omega

/-- C81: the decoder of the model reads the encoding at the front, and one byte as U+FFFD when there is none. -/
theorem C81_decode (s : Bytes) (hs : s ≠ []) : (∃ bs rest, s = bs ++ rest ∧ Utf8 (decodeRune s).1 bs ∧ (decodeRune s).2 = bs.length) ∨
    (NoCharAt s ∧ decodeRune s = (0xFFFD, 1)) := by
  by_cases h : ∃ r bs, Utf8 r bs ∧ bs <+: s
  · obtain ⟨r, bs, hu, rest, rfl⟩ := h
    obtain ⟨hv, rfl⟩ := (utf8_iff r bs).mp hu
    rw [decodeRune_encodeRune r hv rest]
    exact .inl ⟨_, rest, rfl, hu, rfl⟩
  · refine .inr ⟨fun r bs hu hp => h ⟨r, bs, hu, hp⟩, ?_⟩
    obtain ⟨b, t, rfl⟩ := List.exists_cons_of_ne_nil hs
    rcases decode_cases b t with hd | ⟨bs, hu, hp⟩
    · exact hd
    · exact absurd ⟨_, bs, hu, hp⟩ h

/-- An encoding at the front is the only one there. -/
theorem utf8_decode {r : Rune} {bs : Bytes} (h : Utf8 r bs) (t : Bytes) : decodeRune (bs ++ t) = (r, bs.length) := by
  obtain ⟨hv, rfl⟩ := (utf8_iff r bs).mp h
  exact decodeRune_encodeRune r hv t

theorem utf8_ne {r : Rune} {bs : Bytes} (h : Utf8 r bs) : bs ≠ [] := by cases h <;> simp

/-- C81: `[]rune(s)` are the characters of the string, a byte that starts no encoding counting as U+FFFD. -/
theorem C81_runes (s : Bytes) (rs : List Rune) : CharsOf s rs ↔ runes s = rs := by
  constructor
  · intro h
    induction h with
    | nil => rfl
    | @char r bs t rs hu _ ih => rw [runes_cons _ (by simp [utf8_ne hu]), utf8_decode hu t]; simp [ih]
    | @bad b t rs hn _ ih =>
      rcases C81_decode (b :: t) (by simp) with ⟨bs, rest, he, hu, _⟩ | ⟨_, hd⟩
      · exact absurd ⟨rest, he.symm⟩ (hn _ _ hu)
      · rw [runes_cons _ (by simp), hd]; simp [ih]
  · rintro rfl
    induction hn : s.length using Nat.strongRecOn generalizing s with
    | _ n ih =>
      by_cases hs : s = []
      · subst hs; exact .nil
      · rw [runes_cons s hs]
        rcases C81_decode s hs with ⟨bs, rest, he, hu, hk⟩ | ⟨hno, hd⟩
        · rw [hk]
          have hl := List.length_pos_iff.mpr (utf8_ne hu)
          generalize (decodeRune s).1 = r at hu
          subst he
          rw [List.drop_left]
          exact .char hu (ih _ (by simp at hn; omega) rest rfl)
        · obtain ⟨b, t, rfl⟩ := List.exists_cons_of_ne_nil hs
          rw [hd]
          exact .bad hno (ih _ (by simp at hn; omega) t rfl)

/-- C81: `string(r)` is the encoding of the character, and that of U+FFFD when the number has none. -/
theorem C81_encode (r : Rune) : Utf8 r (encodeRune r) ∨ ((∀ bs, ¬ Utf8 r bs) ∧ Utf8 0xFFFD (encodeRune r)) := by
  by_cases hv : validRune r = true
  · exact .inl ((utf8_iff _ _).mpr ⟨hv, rfl⟩)
  · refine .inr ⟨fun bs h => hv ((utf8_iff _ _).mp h).1, (utf8_iff _ _).mpr ⟨by decide, ?_⟩⟩
    have h1 : ¬ r < 0x800 := by
      intro h; apply hv; simp [validRune]; omega
    simp only [Bool.not_eq_true] at hv
    unfold encodeRune
    rw [if_neg (by omega), if_neg h1, hv]
    rfl

/-- The characters of a string are determined. -/
theorem C81_unique (s : Bytes) (rs rs' : List Rune) (h : CharsOf s rs) (h' : CharsOf s rs') : rs = rs' := by
  rw [← (C81_runes s rs).mp h, (C81_runes s rs').mp h']

/-! ## Blanks -/

theorem utf8_bytes {r : Rune} {bs : Bytes} (h : Utf8 r bs) : bs.length ≤ 4 ∧ ∃ a t, bs = a :: t ∧ isCont a.toNat = false ∧ ∀ b ∈ t, isCont b.toNat = true := by
  cases h with
  | one a h => exact ⟨by simp, a, [], rfl, by simp [isCont]; omega, by simp⟩
  | two a b x y hx hy ha hb _ => exact ⟨by simp, a, [b], rfl, by simp [isCont]; omega, by simp [isCont]; omega⟩
  | three a b c x y z hx hy hz ha hb hc _ _ => exact ⟨by simp, a, [b, c], rfl, by simp [isCont]; omega, by simp [isCont]; omega⟩
  | four a b c d x y z w hx hy hz hw ha hb hc hd _ _ => exact ⟨by simp, a, [b, c, d], rfl, by simp [isCont]; omega, by simp [isCont]; omega⟩

theorem getD_end (p bs : Bytes) (k : Nat) (hk : k ≤ bs.length) : (p ++ bs).getD ((p ++ bs).length - k) 0 = bs.getD (bs.length - k) 0 := by
  simp only [List.getD_eq_getElem?_getD, List.length_append]
  rw [List.getElem?_append_right (by omega), show p.length + bs.length - k - p.length = bs.length - k by omega]

theorem find_last (p bs : Bytes) (r : Rune) (h : Utf8 r bs) :
    ([1, 2, 3, 4].find? fun k => decide (k ≤ (p ++ bs).length) && !isCont (((p ++ bs).getD ((p ++ bs).length - k) 0).toNat)) = some bs.length := by
  obtain ⟨hl, a, t, rfl, ha, ht⟩ := utf8_bytes h
  have key : ∀ k, 0 < k → k ≤ (a :: t).length → (decide (k ≤ (p ++ a :: t).length) && !isCont (((p ++ a :: t).getD ((p ++ a :: t).length - k) 0).toNat))
      = !isCont (((a :: t).getD ((a :: t).length - k) 0).toNat) := by
    intro k h0 hk
    rw [getD_end p (a :: t) k hk, decide_eq_true (by simp only [List.length_append]; omega), Bool.true_and]
  match t, hl, ht with
  | [], _, _ =>
    rw [List.find?_cons_of_pos (by rw [key 1 (by omega) (by simp)]; simp [ha])]; rfl
  | [b], _, ht =>
    have hb := ht b (by simp)
    rw [List.find?_cons_of_neg (by rw [key 1 (by omega) (by simp)]; simp [hb]), List.find?_cons_of_pos (by rw [key 2 (by omega) (by simp)]; simp [ha])]; rfl
  | [b, c], _, ht =>
    have hb := ht b (by simp)
    have hc := ht c (by simp)
    rw [List.find?_cons_of_neg (by rw [key 1 (by omega) (by simp)]; simp [hc]), List.find?_cons_of_neg (by rw [key 2 (by omega) (by simp)]; simp [hb]),
      List.find?_cons_of_pos (by rw [key 3 (by omega) (by simp)]; simp [ha])]; rfl
  | [b, c, d], _, ht =>
    have hb := ht b (by simp)
    have hc := ht c (by simp)
    have hd := ht d (by simp)
    rw [List.find?_cons_of_neg (by rw [key 1 (by omega) (by simp)]; simp [hd]), List.find?_cons_of_neg (by rw [key 2 (by omega) (by simp)]; simp [hc]),
      List.find?_cons_of_neg (by rw [key 3 (by omega) (by simp)]; simp [hb]),
      List.find?_cons_of_pos (by rw [key 4 (by omega) (by simp)]; simp [ha])]; rfl

theorem decodeLast_char (p bs : Bytes) (r : Rune) (h : Utf8 r bs) : decodeLastRune (p ++ bs) = (r, bs.length) := by
  have hne : p ++ bs ≠ [] := by simp [utf8_ne h]
  unfold decodeLastRune
  rw [if_neg hne, find_last p bs r h]
  have h2 : (p ++ bs).drop ((p ++ bs).length - bs.length) = bs := by simp
  have h3 := utf8_decode h []
  rw [List.append_nil] at h3
  dsimp only
  rw [h2, h3]
  simp

theorem decodeLast_none (s : Bytes) (hs : s ≠ []) (h : ∀ r bs, Utf8 r bs → ¬ bs <:+ s) : decodeLastRune s = (0xFFFD, 1) := by
  unfold decodeLastRune
  rw [if_neg hs]
  split
  · rfl
  next k hk =>
  have hk1 := List.find?_some hk
  have hk2 := List.mem_of_find?_eq_some hk
  simp only [Bool.and_eq_true, decide_eq_true_eq] at hk1
  have hpos : 0 < k := by simp at hk2; omega
  dsimp only
  split
  · next hn =>
    obtain ⟨b0, t, e⟩ : ∃ b0 t, s.drop (s.length - k) = b0 :: t := by
      cases e : s.drop (s.length - k) with
      | nil => simp at e; omega
      | cons b0 t => exact ⟨b0, t, rfl⟩
    have hlen : (s.drop (s.length - k)).length = k := by rw [List.length_drop]; omega
    rw [e] at hn hlen ⊢
    rcases C81_decode (b0 :: t) (by simp) with ⟨bs, rest, e2, hu, hl⟩ | ⟨_, hd⟩
    · exfalso
      have hr : rest = [] := by
        have := congrArg List.length e2
        rw [List.length_append] at this
        exact List.length_eq_zero_iff.mp (by omega)
      subst hr
      rw [List.append_nil] at e2
      refine h _ bs hu ?_
      rw [← e2, ← e]
      exact List.drop_suffix _ _
    · rw [hd]
  · rfl

section trim
variable [U : Unicode]

theorem blanks_append {a b : Bytes} (ha : Blanks a) (hb : Blanks b) : Blanks (a ++ b) := by
  induction ha with
  | nil => exact hb
  | cons hu hs _ ih => rw [List.append_assoc]; exact .cons hu hs ih

theorem blanks_one {r : Rune} {bs : Bytes} (hu : Utf8 r bs) (hs : U.isSpace r = true) : Blanks bs := by
  have := Blanks.cons hu hs .nil
  rwa [List.append_nil] at this

theorem blanks_last {b : Bytes} (hb : Blanks b) : b = [] ∨ ∃ c r bs, b = c ++ bs ∧ Blanks c ∧ Utf8 r bs ∧ U.isSpace r = true := by
  induction hb with
  | nil => exact .inl rfl
  | @cons r bs t hu hs ht ih =>
    rcases ih with rfl | ⟨c, r', bs', rfl, hc, hu', hs'⟩
    · exact .inr ⟨[], r, bs, by simp, .nil, hu, hs⟩
    · exact .inr ⟨bs ++ c, r', bs', by simp, .cons hu hs hc, hu', hs'⟩

theorem blanks_start {b : Bytes} (hb : Blanks b) : ∀ c, b.head? = some c → isCont c.toNat = false := by
  cases hb with
  | nil => simp
  | cons hu _ _ =>
    obtain ⟨_, a, t, rfl, ha, _⟩ := utf8_bytes hu
    simpa using ha

theorem trimLeft_blanks {a : Bytes} (ha : Blanks a) : ∀ (n : Nat) (x : Bytes), (a ++ x).length ≤ n → ∃ m, x.length ≤ m ∧ trimLeft n (a ++ x) = trimLeft m x := by
  induction ha with
  | nil => intro n x h; exact ⟨n, h, rfl⟩
  | @cons r bs t hu hs _ ih =>
    intro n x h
    have hd := utf8_decode hu (t ++ x)
    obtain ⟨_, b0, bt, rfl, _, _⟩ := utf8_bytes hu
    rcases n with _ | n
    · simp at h
    have e : trimLeft (n + 1) (b0 :: bt ++ t ++ x) = trimLeft n (t ++ x) := by
      rw [List.append_assoc]
      rw [List.cons_append] at hd ⊢
      rw [trimLeft, hd, if_pos hs]
      simp
    rw [e]
    exact ih n x (by simp at h ⊢; omega)

theorem trimLeft_stop (hU : U.isSpace 0xFFFD = false) (n : Nat) (x : Bytes) (h : ∀ r bs, Utf8 r bs → U.isSpace r = true → ¬ bs <+: x) : trimLeft n x = x := by
  rcases n with _ | n
  · rfl
  rcases x with _ | ⟨b, t⟩
  · rfl
  rw [trimLeft, if_neg]
  intro hs
  rcases C81_decode (b :: t) (by simp) with ⟨bs, rest, e, hu, _⟩ | ⟨_, hd⟩
  · exact h _ bs hu hs ⟨rest, e.symm⟩
  · rw [hd, hU] at hs; cases hs

theorem trimRight_blank (n : Nat) (x : Bytes) {r : Rune} {bs : Bytes} (hu : Utf8 r bs) (hs : U.isSpace r = true) :
    trimRight (n + 1) (x ++ bs) = trimRight n x := by
  rw [trimRight, if_neg (by simp [utf8_ne hu]), decodeLast_char x bs r hu, if_pos hs]
  simp

theorem trimRight_stop (hU : U.isSpace 0xFFFD = false) (n : Nat) (x : Bytes) (h : ∀ r bs, Utf8 r bs → U.isSpace r = true → ¬ bs <:+ x) : trimRight n x = x := by
  rcases n with _ | n
  · rfl
  rw [trimRight]
  split
  · next e => exact e.symm
  next hx =>
  rw [if_neg]
  intro hs
  by_cases hc : ∃ r bs, Utf8 r bs ∧ bs <:+ x
  · obtain ⟨r, bs, hu, p, rfl⟩ := hc
    rw [decodeLast_char p bs r hu] at hs
    exact h r bs hu hs ⟨p, rfl⟩
  · rw [decodeLast_none x hx (fun r bs hu hb => hc ⟨r, bs, hu, hb⟩), hU] at hs
    cases hs

theorem trimRight_blanks : ∀ (k n : Nat) (x b : Bytes), b.length = k → Blanks b → (x ++ b).length ≤ n → ∃ m, x.length ≤ m ∧ trimRight n (x ++ b) = trimRight m x := by
  intro k
  induction k using Nat.strongRecOn with
  | _ k ih =>
    intro n x b hk hb hn
    rcases blanks_last hb with rfl | ⟨c, r, bs, rfl, hc, hu, hs⟩
    · exact ⟨n, by simpa using hn, by simp⟩
    have hpos : 0 < bs.length := List.length_pos_of_ne_nil (utf8_ne hu)
    rcases n with _ | n
    · simp only [List.length_append] at hn; omega
    rw [← List.append_assoc, trimRight_blank n (x ++ c) hu hs]
    exact ih c.length (by simp at hk; omega) n x c rfl hc (by simp at hn ⊢; omega)

theorem trimLeft_spec (hU : U.isSpace 0xFFFD = false) : ∀ (n : Nat) (x : Bytes), x.length ≤ n →
    ∃ a, x = a ++ trimLeft n x ∧ Blanks a ∧ ∀ r bs, Utf8 r bs → U.isSpace r = true → ¬ bs <+: trimLeft n x := by
  intro n
  induction n with
  | zero =>
    intro x h
    obtain rfl := List.length_eq_zero_iff.mp (Nat.le_zero.mp h)
    exact ⟨[], rfl, .nil, fun r bs hu _ hp => utf8_ne hu (List.prefix_nil.mp hp)⟩
  | succ n ih =>
    intro x h
    by_cases hc : ∃ r bs, Utf8 r bs ∧ U.isSpace r = true ∧ bs <+: x
    · obtain ⟨r, bs, hu, hs, y, rfl⟩ := hc
      have hd := utf8_decode hu y
      have e : trimLeft (n + 1) (bs ++ y) = trimLeft n y := by
        obtain ⟨_, b0, bt, rfl, _, _⟩ := utf8_bytes hu
        rw [List.cons_append] at hd ⊢
        rw [trimLeft, hd, if_pos hs]
        simp
      have hpos : 0 < bs.length := List.length_pos_of_ne_nil (utf8_ne hu)
      obtain ⟨a, h1, h2, h3⟩ := ih y (by simp at h; omega)
      refine ⟨bs ++ a, ?_, .cons hu hs h2, ?_⟩
      · rw [e, List.append_assoc, ← h1]
      · rwa [e]
    · have hc' : ∀ r bs, Utf8 r bs → U.isSpace r = true → ¬ bs <+: x := fun r bs hu hs hp => hc ⟨r, bs, hu, hs, hp⟩
      rw [trimLeft_stop hU _ _ hc']
      exact ⟨[], rfl, .nil, hc'⟩

theorem trimRight_spec (hU : U.isSpace 0xFFFD = false) : ∀ (n : Nat) (x : Bytes), x.length ≤ n →
    ∃ b, x = trimRight n x ++ b ∧ Blanks b ∧ ∀ r bs, Utf8 r bs → U.isSpace r = true → ¬ bs <:+ trimRight n x := by
  intro n
  induction n with
  | zero =>
    intro x h
    obtain rfl := List.length_eq_zero_iff.mp (Nat.le_zero.mp h)
    exact ⟨[], rfl, .nil, fun r bs hu _ hp => utf8_ne hu (List.suffix_nil.mp hp)⟩
  | succ n ih =>
    intro x h
    by_cases hc : ∃ r bs, Utf8 r bs ∧ U.isSpace r = true ∧ bs <:+ x
    · obtain ⟨r, bs, hu, hs, y, rfl⟩ := hc
      have hpos : 0 < bs.length := List.length_pos_of_ne_nil (utf8_ne hu)
      obtain ⟨b, h1, h2, h3⟩ := ih y (by simp at h; omega)
      rw [trimRight_blank n y hu hs]
      exact ⟨b ++ bs, by rw [← List.append_assoc, ← h1], blanks_append h2 (blanks_one hu hs), h3⟩
    · have hc' : ∀ r bs, Utf8 r bs → U.isSpace r = true → ¬ bs <:+ x := fun r bs hu hs hp => hc ⟨r, bs, hu, hs, hp⟩
      rw [trimRight_stop hU _ _ hc']
      exact ⟨[], by simp, .nil, hc'⟩

/-- C81: what the programs take from a field of a dictionary line (`strings.TrimSpace`) is the field without the encoded blanks at both
ends, and nothing else is removed; the result is determined by that. -/
theorem C81_trim (hU : U.isSpace 0xFFFD = false) (s t : Bytes) : TrimmedOf s t ↔ trimSpace s = t := by
  constructor
  · rintro ⟨a, b, rfl, ha, hb, ht⟩
    obtain ⟨m, hm, e1⟩ := trimLeft_blanks ha (a ++ t ++ b).length (t ++ b) (by simp)
    unfold trimSpace
    rw [List.append_assoc] at e1 ⊢
    dsimp only
    rw [e1]
    by_cases h0 : t = []
    · subst h0
      obtain ⟨m', hm', e2⟩ := trimLeft_blanks hb m [] (by simpa using hm)
      rw [List.append_nil] at e2
      rw [List.nil_append, e2]
      cases m' <;> simp [trimLeft, trimRight]
    · rw [trimLeft_stop hU m (t ++ b)]
      · obtain ⟨m', _, e2⟩ := trimRight_blanks b.length (t ++ b).length t b rfl hb (Nat.le_refl _)
        rw [e2, trimRight_stop hU m' t fun r bs hu hs => (ht r bs hu hs).2]
      · intro r bs hu hs hp
        refine (ht r bs hu hs).1 ?_
        obtain ⟨y, e⟩ := hp
        have hd := utf8_decode hu y
        rw [e, decodeRune_append_start t b h0 (blanks_start hb)] at hd
        have hl := decodeRune_size_le t
        rw [hd] at hl
        exact List.prefix_of_prefix_length_le ⟨y, e⟩ (List.prefix_append t b) hl
  · rintro rfl
    obtain ⟨a, h1, h2, h3⟩ := trimLeft_spec hU s.length s (Nat.le_refl _)
    obtain ⟨b, h4, h5, h6⟩ := trimRight_spec hU (trimLeft s.length s).length (trimLeft s.length s) (Nat.le_refl _)
    refine ⟨a, b, ?_, h2, h5, fun r bs hu hs => ⟨fun hp => ?_, h6 r bs hu hs⟩⟩
    · unfold trimSpace
      rw [List.append_assoc, ← h4, ← h1]
    · refine h3 r bs hu hs (hp.trans ?_)
      exact ⟨b, h4.symm⟩

end trim

/-- C81: `strings.Trim(s, "\n")` takes away exactly the newlines at both ends. -/
theorem C81_newlines (s t : Bytes) : trimNewlines s = t ↔
    ∃ a b, s = a ++ t ++ b ∧ (∀ c ∈ a, c = 10) ∧ (∀ c ∈ b, c = 10) ∧ t.head? ≠ some 10 ∧ t.getLast? ≠ some 10 := by
  have drop_all : ∀ (a x : Bytes), (∀ c ∈ a, c = 10) → (a ++ x).dropWhile (· == 10) = x.dropWhile (· == 10) := by
    intro a x ha
    rw [List.dropWhile_append_of_pos (fun c hc => by simp [ha c hc])]
  have drop_stop : ∀ (x : Bytes), x.head? ≠ some 10 → x.dropWhile (· == 10) = x := by
    intro x hx
    cases x with
    | nil => rfl
    | cons c x => rw [List.dropWhile_cons_of_neg]; simpa using hx
  have drop_head : ∀ (x : Bytes), (x.dropWhile (· == 10)).head? ≠ some 10 := by
    intro x
    induction x with
    | nil => simp
    | cons c x ih =>
      by_cases h : c = 10
      · rw [List.dropWhile_cons_of_pos (by simp [h])]; exact ih
      · rw [List.dropWhile_cons_of_neg (by simp [h])]; simpa using h
  have drop_split : ∀ (x : Bytes), ∃ a, x = a ++ x.dropWhile (· == 10) ∧ ∀ c ∈ a, c = 10 := by
    intro x
    refine ⟨x.takeWhile (· == 10), List.takeWhile_append_dropWhile.symm, ?_⟩
    intro c hc
    simpa using List.mem_takeWhile_imp hc
  constructor
  · rintro rfl
    obtain ⟨a, e1, ha⟩ := drop_split s
    obtain ⟨b, e2, hb⟩ := drop_split (s.dropWhile (· == 10)).reverse
    have e3 : s.dropWhile (· == 10) = trimNewlines s ++ b.reverse := by
      have := congrArg List.reverse e2
      rwa [List.reverse_reverse, List.reverse_append] at this
    refine ⟨a, b.reverse, ?_, ha, fun c hc => hb c (List.mem_reverse.mp hc), ?_, ?_⟩
    · rw [List.append_assoc, ← e3, ← e1]
    · intro h
      refine drop_head s ?_
      rw [e3, List.head?_append, h]; rfl
    · unfold trimNewlines
      rw [List.getLast?_reverse]
      exact drop_head _
  · rintro ⟨a, b, rfl, ha, hb, h1, h2⟩
    unfold trimNewlines
    rw [List.append_assoc, drop_all a _ ha]
    by_cases h0 : t = []
    · subst h0
      have := drop_all b [] hb
      rw [List.append_nil] at this
      rw [List.nil_append, this]; rfl
    · rw [drop_stop (t ++ b), List.reverse_append, drop_all b.reverse _ (fun c hc => hb c (List.mem_reverse.mp hc)), drop_stop, List.reverse_reverse]
      · rwa [List.head?_reverse]
      · cases t with
        | nil => exact absurd rfl h0
        | cons c t => simpa using h1

/-! ## Cases -/

section examples
attribute [local instance] sampleUnicode

/-- A string with a character of each length and two bytes that start none. -/
example : CharsOf (str "a" ++ encode [0xE9, 0x4E2D, 0x1F600] ++ [0xC0, 0x80]) [97, 0xE9, 0x4E2D, 0x1F600, 0xFFFD, 0xFFFD] :=
  (C81_runes _ _).mpr (by decide +kernel)

/-- An over-long pattern and a surrogate are not encodings. -/
example : ¬ Utf8 0 [0xC0, 0x80] ∧ ∀ bs, ¬ Utf8 0xD800 bs :=
  ⟨fun h => by simpa [encodeRune] using ((utf8_iff _ _).mp h).2, fun bs h => by simpa [validRune] using ((utf8_iff _ _).mp h).1⟩

/-- Blanks of one and of two bytes at both ends; the continuation byte of a cut-off blank stays. -/
example : TrimmedOf (str " " ++ encode [0xA0] ++ str "a b" ++ [0xA0] ++ encode [0x85] ++ str "\t") (str "a b" ++ [0xA0]) :=
  (C81_trim (by decide +kernel) _ _).mpr (by decide +kernel)

example : trimNewlines (str "\n\na\nb\n") = str "a\nb" := by decide +kernel
end examples

end Gse
