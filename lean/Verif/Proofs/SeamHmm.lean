import Verif.Proofs.Seam
import Verif.Proofs.HmmRuns
import Verif.Spec.SeamHmm

/-! HMM cuts and seams. -/

set_option linter.unusedSectionVars false

namespace Gse
open Spec

/-! ### Runs are determined by the text -/

theorem span_unique {α : Type} (p : α → Bool) : ∀ (x1 x2 r1 r2 : List α), (∀ b ∈ x1, p b = true) → (∀ b ∈ x2, p b = true) →
    (∀ b, r1.head? = some b → p b = false) → (∀ b, r2.head? = some b → p b = false) → x1 ++ r1 = x2 ++ r2 → x1 = x2 ∧ r1 = r2
  | [], [], _, _, _, _, _, _, e => ⟨rfl, e⟩
  | [], c :: x2, r1, r2, _, h2, h3, _, e => by
    have := h3 c (by simp at e; simp [e])
    rw [h2 c (by simp)] at this; cases this
  | c :: x1, [], r1, r2, h1, _, _, h4, e => by
    have := h4 c (by simp at e; simp [← e])
    rw [h1 c (by simp)] at this; cases this
  | c :: x1, c' :: x2, r1, r2, h1, h2, h3, h4, e => by
    simp only [List.cons_append, List.cons.injEq] at e
    obtain ⟨a, b⟩ := span_unique p x1 x2 r1 r2 (fun b hb => h1 b (by simp [hb])) (fun b hb => h2 b (by simp [hb])) h3 h4 e.2
    exact ⟨by rw [e.1, a], b⟩

theorem not_startsAlnum {s : Bytes} (h : ¬ StartsAlnum s) : ∀ b, s.head? = some b → alnumB b = false := by
  intro b hb
  cases s with
  | nil => simp at hb
  | cons c s =>
    simp at hb; subst hb
    cases hc : alnumB c with
    | false => rfl
    | true => exact absurd ⟨c, s, rfl, hc⟩ h

theorem not_startsDigit {s : Bytes} (h : ¬ StartsDigit s) : ∀ b, s.head? = some b → digitB b = false := by
  intro b hb
  cases s with
  | nil => simp at hb
  | cons c s =>
    simp at hb; subst hb
    cases hc : digitB c with
    | false => rfl
    | true => exact absurd ⟨c, s, rfl, hc⟩ h

theorem alnum_ascii {b : UInt8} (h : alnumB b = true) : b.toNat < 128 := by
  exact forall_byte (P := fun b => alnumB b = true → b.toNat < 128) (by decide +kernel) b h

theorem ascii_notCont {b : UInt8} (h : b.toNat < 128) : isCont b.toNat = false := by
  simp [isCont]; omega

variable [U : Unicode] [OK : UnicodeOK]

omit OK in
theorem startsHan_append {a b : Bytes} (ha : a ≠ []) (hb : ∀ c, b.head? = some c → isCont c.toNat = false) : StartsHan (a ++ b) ↔ StartsHan a := by
  simp [StartsHan, decodeRune_append_start a b ha hb, ha]

/-- A Han character does not begin with a continuation byte. -/
theorem startsHan_begins {s : Bytes} (h : StartsHan s) : ∀ c, s.head? = some c → isCont c.toNat = false := by
  intro c hc
  cases s with
  | nil => simp at hc
  | cons b t =>
    simp at hc; subst hc
    cases hb : isCont b.toNat with
    | false => rfl
    | true =>
      have : (decodeRune (b :: t)).1 = runeError := by
        simp only [isCont, Bool.and_eq_true, decide_eq_true_eq] at hb
        simp only [decodeRune]
        rw [if_neg (by omega), if_pos (by simp; omega)]
      have h2 := h.2
      rw [this, OK.err_han] at h2; cases h2

omit U OK in
theorem startsAlnum_begins {s : Bytes} (h : StartsAlnum s) : ∀ c, s.head? = some c → isCont c.toNat = false := by
  obtain ⟨b, t, rfl, hb⟩ := h
  intro c hc
  simp at hc; subst hc
  exact ascii_notCont (alnum_ascii hb)

omit U OK in
theorem runes_valid_append {x : Bytes} (h : ValidText x) (y : Bytes) : runes (x ++ y) = runes x ++ runes y := by
  have : ∀ rs : List Rune, (∀ r ∈ rs, validRune r = true) → runes (encode rs ++ y) = rs ++ runes y := by
    intro rs
    induction rs with
    | nil => intro _; simp [encode]
    | cons r rs ih =>
      intro hv
      rw [encode_cons, List.append_assoc, runes_cons _ (by simp [encodeRune_ne_nil]), decodeRune_encodeRune _ (hv r (by simp))]
      simp [ih fun r hr => hv r (by simp [hr])]
  conv => lhs; rw [← h]
  exact this _ (runes_valid x)

/-- A text of Han characters starts with one. -/
theorem startsHan_of_runes {x rest : Bytes} (h : x ≠ []) (hx : ∀ r ∈ runes x, U.isHan r = true) : StartsHan (x ++ rest) := by
  refine ⟨by simp [h], ?_⟩
  rw [runes_cons x h] at hx
  have h1 := hx (decodeRune x).1 (by simp)
  rcases decodeRune_prefix x rest with e | e
  · rw [← e]; exact h1
  · rw [e, OK.err_han] at h1; cases h1

theorem not_startsHan_alnum {s : Bytes} (h : StartsAlnum s) : ¬ StartsHan s := by
  obtain ⟨b, t, rfl, hb⟩ := h
  intro ⟨_, h2⟩
  have := alnum_ascii hb
  have e : (decodeRune (b :: t)).1 = b.toNat := by
    simp only [decodeRune]; rw [if_pos (by omega)]
  rw [e, OK.han_ascii _ this] at h2; cases h2

theorem han_span {x1 x2 r1 r2 : Bytes} (h1 : ∀ r ∈ runes x1, U.isHan r = true) (h2 : ∀ r ∈ runes x2, U.isHan r = true)
    (g1 : ¬ StartsHan r1) (e : x1 ++ r1 = x2 ++ r2) : x2.length ≤ x1.length := by
  refine Nat.le_of_not_lt fun hl => g1 ?_
  obtain ⟨z, rfl⟩ : x1 <+: x2 := by
    have a : x1 <+: x2 ++ r2 := ⟨r1, e⟩
    exact List.prefix_of_prefix_length_le a (List.prefix_append ..) (by omega)
  rw [List.append_assoc, List.append_cancel_left_eq] at e
  rw [e]
  refine startsHan_of_runes (by intro hz; subst hz; simp at hl) fun r hr => h2 r ?_
  rw [runes_valid_append (encode_runes_han h1)]
  simp [hr]

theorem other_span {x1 x2 r1 r2 : Bytes} (h2 : ∀ r ∈ runes x2, U.isHan r = false) (k2 : ∀ b ∈ x2, alnumB b = false)
    (g1 : r1 = [] ∨ StartsHan r1 ∨ StartsAlnum r1) (g2 : r2 = [] ∨ StartsHan r2 ∨ StartsAlnum r2) (e : x1 ++ r1 = x2 ++ r2) : x2.length ≤ x1.length := by
  refine Nat.le_of_not_lt fun hl => ?_
  obtain ⟨z, rfl⟩ : x1 <+: x2 := by
    have a : x1 <+: x2 ++ r2 := ⟨r1, e⟩
    exact List.prefix_of_prefix_length_le a (List.prefix_append ..) (by omega)
  rw [List.append_assoc, List.append_cancel_left_eq] at e
  have hz : z ≠ [] := by intro hz; subst hz; simp at hl
  have hr2 : ∀ c, r2.head? = some c → isCont c.toNat = false := by
    rcases g2 with rfl | g2 | g2
    · simp
    · exact startsHan_begins g2
    · exact startsAlnum_begins g2
  rcases g1 with rfl | g1 | g1
  · simp [hz] at e
  · rw [e] at g1
    have gz := (startsHan_append hz hr2).1 g1
    have : (decodeRune z).1 ∈ runes (x1 ++ z) := by
      rw [runes_append_start x1 z (startsHan_begins gz), runes_cons z hz]; simp
    have h3 := h2 _ this
    rw [gz.2] at h3; cases h3
  · obtain ⟨b, t, rfl, hb⟩ := g1
    cases z with
    | nil => exact hz rfl
    | cons c z =>
      simp only [List.cons_append, List.cons.injEq] at e
      have := k2 c (by simp)
      rw [← e.1, hb] at this; cases this

omit U OK in
theorem eq_of_spans {x1 x2 r1 r2 : Bytes} (e : x1 ++ r1 = x2 ++ r2) (h1 : x2.length ≤ x1.length) (h2 : x1.length ≤ x2.length) : x1 = x2 ∧ r1 = r2 :=
  List.append_inj e (by omega)

/-- How a text is divided into runs is determined by the text. -/
theorem hmmRuns_unique {s : Bytes} {l1 : List (RunKind × Bytes)} (h1 : HmmRuns s l1) : ∀ {l2 : List (RunKind × Bytes)}, HmmRuns s l2 → l1 = l2 := by
  have dotA : alnumB 46 = false := by decide +kernel
  have dotD : digitB 46 = false := by decide +kernel
  have num_alnum : ∀ {x y rest : Bytes}, x ≠ [] → (∀ b ∈ x, digitB b = true) → StartsAlnum (x ++ str "." ++ y ++ rest) := by
    intro x y rest hx hd
    obtain ⟨c, x, rfl⟩ := List.exists_cons_of_ne_nil hx
    exact ⟨c, _, by simp; rfl, digit_alnum (hd c (by simp))⟩
  have al_alnum : ∀ {x rest : Bytes}, x ≠ [] → (∀ b ∈ x, alnumB b = true) → StartsAlnum (x ++ rest) := by
    intro x rest hx hd
    obtain ⟨c, x, rfl⟩ := List.exists_cons_of_ne_nil hx
    exact ⟨c, _, by simp; rfl, hd c (by simp)⟩
  have ot_alnum : ∀ {x rest : Bytes}, x ≠ [] → (∀ b ∈ x, alnumB b = false) → ¬ StartsAlnum (x ++ rest) := by
    rintro x rest hx hd ⟨b, t, e, hb⟩
    obtain ⟨c, x, rfl⟩ := List.exists_cons_of_ne_nil hx
    simp only [List.cons_append, List.cons.injEq] at e
    have := hd c (by simp)
    rw [e.1, hb] at this; cases this
  have ot_han : ∀ {x rest : Bytes}, x ≠ [] → (∀ r ∈ runes x, U.isHan r = false) → (rest = [] ∨ StartsHan rest ∨ StartsAlnum rest) →
      ¬ StartsHan (x ++ rest) := by
    intro x rest hx hd hr h
    have hr2 : ∀ c, rest.head? = some c → isCont c.toNat = false := by
      rcases hr with rfl | g2 | g2
      · simp
      · exact startsHan_begins g2
      · exact startsAlnum_begins g2
    have gz := (startsHan_append hx hr2).1 h
    have h3 := hd (decodeRune x).1 (by rw [runes_cons x hx]; simp)
    rw [gz.2] at h3; cases h3
  have mixed : ∀ {x y s r1 r2 : Bytes}, (∀ b ∈ x, digitB b = true) → y ≠ [] → (∀ b ∈ y, digitB b = true) → (∀ b ∈ s, alnumB b = true) →
      ¬ StartsAlnum r2 → ¬ ((∀ b ∈ s, digitB b = true) ∧ ∃ t, r2 = str "." ++ t ∧ StartsDigit t) → x ++ str "." ++ y ++ r1 ≠ s ++ r2 := by
    intro x y s r1 r2 hx hy hyd hs hr hn e
    have e' : x ++ (str "." ++ (y ++ r1)) = s ++ r2 := by simpa using e
    obtain ⟨a, b⟩ := span_unique alnumB _ _ _ _ (fun b hb => digit_alnum (hx b hb)) hs (by intro b hb; simp [str] at hb; subst hb; exact dotA)
      (not_startsAlnum hr) e'
    subst a
    refine hn ⟨hx, y ++ r1, b.symm, ?_⟩
    obtain ⟨c, y, rfl⟩ := List.exists_cons_of_ne_nil hy
    exact ⟨c, _, by simp; rfl, hyd c (by simp)⟩
  induction h1 with
  | nil =>
    intro l2 h2
    generalize he : ([] : Bytes) = z at h2
    cases h2 with
    | nil => rfl
    | han h _ _ _ => simp at he; exact absurd he.1.symm (by simpa using h)
    | number h _ _ _ _ _ => simp [str] at he
    | alnum h _ _ _ _ => simp at he; exact absurd he.1.symm (by simpa using h)
    | other h _ _ _ _ => simp at he; exact absurd he.1.symm (by simpa using h)
  | @han s rest l a1 a2 a3 _ ih =>
    intro l2 h2
    have H := startsHan_of_runes (rest := rest) a1 a2
    generalize he : s ++ rest = z at h2 H
    cases h2 with
    | nil => simp at he; exact absurd he.1 a1
    | han b1 b2 b3 b4 =>
      obtain ⟨rfl, rfl⟩ := eq_of_spans he (han_span a2 b2 a3 he) (han_span b2 a2 b3 he.symm)
      rw [ih b4]
    | number b1 _ b3 _ _ _ => exact absurd H (not_startsHan_alnum (num_alnum b1 b3))
    | alnum b1 b2 _ _ _ => exact absurd H (not_startsHan_alnum (al_alnum b1 b2))
    | other b1 b2 _ b4 _ => exact absurd H (ot_han b1 b2 b4)
  | @number x y rest l a1 a2 a3 a4 a5 _ ih =>
    intro l2 h2
    have H := num_alnum (y := y) (rest := rest) a1 a3
    generalize he : x ++ str "." ++ y ++ rest = z at h2 H
    cases h2 with
    | nil => simp [str] at he
    | han b1 b2 _ _ => exact absurd (startsHan_of_runes b1 b2) (not_startsHan_alnum H)
    | @number x' y' rest' _ b1 b2 b3 b4 b5 b6 =>
      have e' : x ++ (str "." ++ (y ++ rest)) = x' ++ (str "." ++ (y' ++ rest')) := by simpa using he
      obtain ⟨rfl, e2⟩ := span_unique digitB _ _ _ _ a3 b3 (by intro b hb; simp [str] at hb; subst hb; exact dotD)
        (by intro b hb; simp [str] at hb; subst hb; exact dotD) e'
      obtain ⟨rfl, rfl⟩ := span_unique digitB _ _ _ _ a4 b4 (not_startsDigit a5) (not_startsDigit b5) (List.append_cancel_left e2)
      rw [ih b6]
    | alnum b1 b2 b3 b4 _ => exact absurd he (mixed a3 a2 a4 b2 b3 b4)
    | other b1 _ b3 _ _ => exact absurd H (ot_alnum b1 b3)
  | @alnum s rest l a1 a2 a3 a4 _ ih =>
    intro l2 h2
    have H := al_alnum (rest := rest) a1 a2
    generalize he : s ++ rest = z at h2 H
    cases h2 with
    | nil => simp at he; exact absurd he.1 a1
    | han b1 b2 _ _ => exact absurd (startsHan_of_runes b1 b2) (not_startsHan_alnum H)
    | number b1 b2 b3 b4 b5 _ => exact absurd he.symm (mixed b3 b2 b4 a2 a3 a4)
    | alnum b1 b2 b3 b4 b5 =>
      obtain ⟨rfl, rfl⟩ := span_unique alnumB _ _ _ _ a2 b2 (not_startsAlnum a3) (not_startsAlnum b3) he
      rw [ih b5]
    | other b1 _ b3 _ _ => exact absurd H (ot_alnum b1 b3)
  | @other s rest l a1 a2 a3 a4 _ ih =>
    intro l2 h2
    have H := ot_alnum (rest := rest) a1 a3
    have H2 := ot_han a1 a2 a4
    generalize he : s ++ rest = z at h2 H H2
    cases h2 with
    | nil => simp at he; exact absurd he.1 a1
    | han b1 b2 _ _ => exact absurd (startsHan_of_runes b1 b2) H2
    | number b1 _ b3 _ _ _ => exact absurd (num_alnum b1 b3) H
    | alnum b1 b2 _ _ _ => exact absurd (al_alnum b1 b2) H
    | other b1 b2 b3 b4 b5 =>
      obtain ⟨rfl, rfl⟩ := eq_of_spans he (other_span b2 b3 a4 b4 he) (other_span a2 a3 b4 a4 he.symm)
      rw [ih b5]

/-! ### Runs of a text with a seam -/

omit OK in
theorem kindSeam_tail {s rest b : Bytes} (h : KindSeam (s ++ rest) b) (_ : rest ≠ []) (e : runes (s ++ rest) = runes s ++ runes rest) : KindSeam rest b where
  begins := h.begins
  kinds := by
    intro u v hu hv
    refine h.kinds u v ?_ hv
    rw [e, List.getLast?_append, hu]
    rfl
  point := by
    intro x y hx hy
    obtain ⟨h1, h2⟩ := h.point x y hx hy
    exact ⟨fun ⟨a, b⟩ => h1 ⟨a.trans (List.suffix_append ..), b⟩, fun ⟨a, b⟩ => h2 ⟨a.trans (List.suffix_append ..), b⟩⟩

omit U OK in
theorem validText_alnum {s : Bytes} (h : ∀ b ∈ s, b.toNat < 128) : ValidText s := by
  rw [ValidText, runes_ascii s h]
  induction s with
  | nil => rfl
  | cons b s ih =>
    rw [List.map_cons, encode_cons, ih fun c hc => h c (by simp [hc])]
    have := h b (by simp)
    simp [encodeRune, this]

omit U OK in
theorem decodeRune_ge {b : UInt8} {t : Bytes} (h : 128 ≤ b.toNat) : 128 ≤ (decodeRune (b :: t)).1 := by
  by_cases e : (decodeRune (b :: t)).1 = runeError
  · rw [e]; decide
  · have h1 := encode_decode (b :: t) e
    refine Nat.le_of_not_lt fun hlt => ?_
    have hp := decodeRune_size_pos (b :: t) (by simp)
    generalize (decodeRune (b :: t)).2 = n at *
    generalize (decodeRune (b :: t)).1 = r at *
    cases n with
    | zero => omega
    | succ n =>
      rw [List.take_succ_cons] at h1
      have : encodeRune r = [UInt8.ofNat r] := by simp [encodeRune, hlt]
      rw [this] at h1
      simp only [List.cons.injEq] at h1
      rw [← h1.1] at h
      simp at h
      omega

omit U OK in
theorem asciiAlnum_lt {r : Rune} (h : asciiAlnum r = true) : r < 128 := by rw [asciiAlnum_iff] at h; omega

omit U OK in
theorem runes_head {b : Bytes} (h : b ≠ []) : (runes b).head? = some (decodeRune b).1 := by rw [runes_cons b h]; rfl

theorem runeKind_alnum {b : UInt8} (h : alnumB b = true) : runeKind b.toNat = .skip := by
  have h1 := alnum_ascii h
  have h2 : asciiAlnum b.toNat = true := h
  simp [runeKind, OK.han_ascii _ h1, h2]

omit U OK in
theorem last_ascii {s : Bytes} (hs : s ≠ []) (h : ∀ b ∈ s, b.toNat < 128) : ∃ b ∈ s, (runes s).getLast? = some b.toNat ∧ [b] <:+ s := by
  rw [runes_ascii s h]
  refine ⟨s.getLast hs, List.getLast_mem hs, ?_, ?_⟩
  · rw [List.getLast?_map, List.getLast?_eq_some_getLast hs]; rfl
  · exact ⟨s.dropLast, List.dropLast_append_getLast hs⟩

omit U OK in
theorem begins_of_seam [Unicode] {a b : Bytes} (h : KindSeam a b) : ∀ c, b.head? = some c → isCont c.toNat = false := beginsChar_cont h.begins

theorem not_startsAlnum_seam {s b : Bytes} (hs : s ≠ []) (h : ∀ c ∈ s, alnumB c = true) (k : KindSeam s b) : ¬ StartsAlnum b := by
  rintro ⟨c, t, rfl, hc⟩
  obtain ⟨x, hx, h1, _⟩ := last_ascii hs fun c hc => alnum_ascii (h c hc)
  refine k.kinds _ c.toNat h1 ?_ ?_
  · rw [runes_head (by simp)]
    have := alnum_ascii hc
    simp only [decodeRune]; rw [if_pos (by omega)]
  · rw [runeKind_alnum (h x hx), runeKind_alnum hc]

theorem hmmRuns_seam {a : Bytes} {la : List (RunKind × Bytes)} (h : HmmRuns a la) : ∀ {b : Bytes} {lb : List (RunKind × Bytes)}, KindSeam a b →
    HmmRuns b lb → HmmRuns (a ++ b) (la ++ lb) := by
  induction h with
  | nil => intro b lb _ hb; simpa using hb
  | @han s rest l a1 a2 a3 _ ih =>
    intro b lb hk hb
    rw [List.append_assoc, List.cons_append]
    have hv := encode_runes_han a2
    by_cases hr : rest = []
    · subst hr
      refine HmmRuns.han a1 a2 ?_ (ih ⟨hk.begins, by simp [runes_nil], by simp⟩ hb)
      rw [List.append_nil] at hk
      rw [List.nil_append]
      intro ⟨h1, h2⟩
      have hne : runes s ≠ [] := by rw [runes_cons s a1]; simp
      refine hk.kinds _ _ (List.getLast?_eq_some_getLast hne) (runes_head h1) ?_
      simp [runeKind, h2, a2 _ (List.getLast_mem hne)]
    · refine HmmRuns.han a1 a2 ?_ (ih (kindSeam_tail hk hr (runes_valid_append hv rest)) hb)
      rw [startsHan_append hr (begins_of_seam hk)]
      exact a3
  | @number x y rest l a1 a2 a3 a4 a5 _ ih =>
    intro b lb hk hb
    rw [List.append_assoc, List.cons_append]
    have hd : ∀ c ∈ x ++ str "." ++ y, c.toNat < 128 := by
      intro c hc
      simp only [List.mem_append] at hc
      rcases hc with (hc | hc) | hc
      · exact alnum_ascii (digit_alnum (a3 c hc))
      · simp [str] at hc; subst hc; decide
      · exact alnum_ascii (digit_alnum (a4 c hc))
    have hv := validText_alnum hd
    by_cases hr : rest = []
    · subst hr
      refine HmmRuns.number a1 a2 a3 a4 ?_ (ih ⟨hk.begins, by simp [runes_nil], by simp⟩ hb)
      rw [List.append_nil] at hk
      rw [List.nil_append]
      rintro ⟨c, t, rfl, hc⟩
      have e : runes (x ++ str "." ++ y) = runes (x ++ str ".") ++ runes y := by
        refine runes_valid_append (validText_alnum fun c hc => hd c ?_) y
        exact List.mem_append_left _ hc
      exact not_startsAlnum_seam a2 (fun c hc => digit_alnum (a4 c hc)) (kindSeam_tail hk a2 e) ⟨c, t, rfl, digit_alnum hc⟩
    · refine HmmRuns.number a1 a2 a3 a4 ?_ (ih (kindSeam_tail hk hr (runes_valid_append hv rest)) hb)
      rintro ⟨c, t, e, hc⟩
      obtain ⟨c', rest, rfl⟩ := List.exists_cons_of_ne_nil hr
      simp only [List.cons_append, List.cons.injEq] at e
      exact a5 ⟨c', rest, rfl, by rw [e.1]; exact hc⟩
  | @alnum s rest l a1 a2 a3 a4 _ ih =>
    intro b lb hk hb
    rw [List.append_assoc, List.cons_append]
    have hv := validText_alnum fun c hc => alnum_ascii (a2 c hc)
    obtain ⟨z, hz, _, hzs⟩ := last_ascii a1 fun c hc => alnum_ascii (a2 c hc)
    by_cases hr : rest = []
    · subst hr
      rw [List.append_nil] at hk
      refine HmmRuns.alnum a1 a2 ?_ ?_ (ih ⟨hk.begins, by simp [runes_nil], by simp⟩ hb)
      · rw [List.nil_append]
        exact not_startsAlnum_seam a1 a2 hk
      · rintro ⟨h1, t, h2, c, t', rfl, hc⟩
        rw [List.nil_append] at h2
        exact (hk.point z c (h1 z hz) hc).1 ⟨hzs, t', by rw [h2]; rfl⟩
    · refine HmmRuns.alnum a1 a2 ?_ ?_ (ih (kindSeam_tail hk hr (runes_valid_append hv rest)) hb)
      · rintro ⟨c, t, e, hc⟩
        obtain ⟨c', rest, rfl⟩ := List.exists_cons_of_ne_nil hr
        simp only [List.cons_append, List.cons.injEq] at e
        exact a3 ⟨c', rest, rfl, by rw [e.1]; exact hc⟩
      · rintro ⟨h1, t, h2, c, t', rfl, hc⟩
        obtain ⟨c', rest, rfl⟩ := List.exists_cons_of_ne_nil hr
        simp only [str, List.cons_append] at h2
        have h3 : c' :: (rest ++ b) = 46 :: c :: t' := h2
        clear h2
        simp only [List.cons.injEq] at h3
        obtain ⟨rfl, h2⟩ := h3
        cases rest with
        | nil =>
          refine (hk.point z c (h1 z hz) hc).2 ⟨?_, t', by simpa using h2.symm⟩
          obtain ⟨w, hw⟩ := hzs
          exact ⟨w, by rw [← hw]; simp⟩
        | cons c'' rest =>
          simp only [List.cons_append, List.cons.injEq] at h2
          exact a4 ⟨h1, c'' :: rest, rfl, c'', rest, rfl, by rw [h2.1]; exact hc⟩
  | @other s rest l a1 a2 a3 a4 _ ih =>
    intro b lb hk hb
    rw [List.append_assoc, List.cons_append]
    by_cases hr : rest = []
    · subst hr
      rw [List.append_nil] at hk
      refine HmmRuns.other a1 a2 a3 ?_ (ih ⟨hk.begins, by simp [runes_nil], by simp⟩ hb)
      rw [List.nil_append]
      by_cases hbe : b = []
      · exact .inl hbe
      right
      have hne : runes s ≠ [] := by rw [runes_cons s a1]; simp
      have hkk := hk.kinds _ _ (List.getLast?_eq_some_getLast hne) (runes_head hbe)
      have hs : runeKind ((runes s).getLast hne) = .other := by
        have e1 := a2 _ (List.getLast_mem hne)
        have e2 : asciiAlnum ((runes s).getLast hne) = false := by
          obtain ⟨i, hi, e⟩ := runes_mem_drop (List.getLast_mem hne)
          rw [e]
          obtain ⟨c, t, hd⟩ := List.exists_cons_of_ne_nil (l := s.drop i) (by intro h; simp at h; omega)
          have hc := a3 c (List.mem_of_mem_drop (i := i) (by rw [hd]; simp))
          rw [hd]
          by_cases hlt : c.toNat < 128
          · simp only [decodeRune]; rw [if_pos (by omega)]; exact hc
          · have := decodeRune_ge (b := c) (t := t) (by omega)
            cases ha : asciiAlnum (decodeRune (c :: t)).1 with
            | false => rfl
            | true => exact absurd (asciiAlnum_lt ha) (by omega)
        simp [runeKind, e1, e2]
      rw [hs] at hkk
      by_cases hh : U.isHan (decodeRune b).1 = true
      · exact .inl ⟨hbe, hh⟩
      · right
        cases ha : asciiAlnum (decodeRune b).1 with
        | false => exact absurd (by simp [runeKind, hh, ha]) hkk
        | true =>
          obtain ⟨c, t, rfl⟩ := List.exists_cons_of_ne_nil hbe
          refine ⟨c, t, rfl, ?_⟩
          by_cases hlt : c.toNat < 128
          · simp only [decodeRune] at ha; rw [if_pos (by omega)] at ha; exact ha
          · have := decodeRune_ge (b := c) (t := t) (by omega)
            exact absurd (asciiAlnum_lt ha) (by omega)
    · have hrb : ∀ c, rest.head? = some c → isCont c.toNat = false := by
        rcases a4 with rfl | g2 | g2
        · simp
        · exact startsHan_begins g2
        · exact startsAlnum_begins g2
      refine HmmRuns.other a1 a2 a3 ?_ (ih (kindSeam_tail hk hr (runes_append_start s rest hrb)) hb)
      rcases a4 with h | h | ⟨c, t, rfl, hc⟩
      · exact absurd h hr
      · exact .inr (.inl ((startsHan_append hr (begins_of_seam hk)).2 h))
      · exact .inr (.inr ⟨c, t ++ b, rfl, hc⟩)

/-! ### The words of the runs -/

omit U OK in
theorem tagWords_unique {rs : List Rune} {ts : List Tag} {ws : List (List Rune)} (h : TagWords rs ts ws) :
    ∀ {ws' : List (List Rune)}, TagWords rs ts ws' → ws = ws' := by
  have en : ∀ t : Tag, EndsWord t ↔ ¬ (t != .E && t != .S) = true := by intro t; cases t <;> simp [EndsWord]
  induction h with
  | nil =>
    intro ws' h'
    generalize e1 : ([] : List Rune) = a at h'
    generalize e2 : ([] : List Tag) = b at h'
    cases h' with
    | nil => rfl
    | word _ _ _ _ => simp at e2
    | rest h _ _ => exact absurd e1.symm h
  | @word w rest inner ts last ws a1 a2 a3 _ ih =>
    intro ws' h'
    generalize e1 : w ++ rest = a at h'
    generalize e2 : inner ++ last :: ts = b at h'
    cases h' with
    | nil => simp at e2
    | @word w' rest' inner' ts' last' _ b1 b2 b3 b4 =>
      obtain ⟨rfl, e3⟩ := span_unique (fun t : Tag => t != .E && t != .S) inner inner' (last :: ts) (last' :: ts')
        (fun t ht => Classical.byContradiction fun hn => a2 t ht ((en t).2 hn)) (fun t ht => Classical.byContradiction fun hn => b2 t ht ((en t).2 hn))
        (by intro t ht; simp at ht; subst ht; simpa using (en _).1 a3) (by intro t ht; simp at ht; subst ht; simpa using (en _).1 b3) e2
      simp only [List.cons.injEq] at e3
      obtain ⟨rfl, rfl⟩ := e3
      obtain ⟨rfl, rfl⟩ := List.append_inj e1 (by omega)
      rw [ih b4]
    | rest b1 b2 b3 => exact absurd a3 (b3 last (by rw [← e2]; simp))
  | @rest w ts a1 a2 a3 =>
    intro ws' h'
    cases h' with
    | nil => exact absurd rfl a1
    | word b1 b2 b3 b4 => exact absurd b3 (a3 _ (by simp))
    | rest _ _ _ => rfl

variable {F D : Type} [F64 F] [F32 D] [Narrow F D]

omit U OK in
theorem runWords_unique {c : HmmConst F} {em : EmitModel F} {r : RunKind × Bytes} {o o' : List Bytes} (h : RunWords c em r o) (h' : RunWords c em r o') :
    o = o' := by
  cases h with
  | han h1 h2 =>
    cases h' with
    | han g1 g2 =>
      rw [h1] at g1
      cases g1
      rw [tagWords_unique h2 g2]
  | skip => cases h'; rfl
  | other => cases h'; rfl

omit U OK in
theorem forall2_unique {α β : Type} {R : α → β → Prop} (hu : ∀ a b b', R a b → R a b' → b = b') {l : List α} {x : List β} (h : List.Forall₂ R l x) :
    ∀ {y : List β}, List.Forall₂ R l y → x = y := by
  induction h with
  | nil => intro y hy; cases hy; rfl
  | cons h1 _ ih =>
    intro y hy
    cases hy with
    | cons g1 g2 => rw [hu _ _ _ h1 g1, ih g2]

/-! ### Pending characters at a seam -/

omit U OK in
/-- The pending characters after some pieces. -/
def trail (buf : List Rune) : List (List Rune) → List Rune
  | [] => buf
  | f :: r => if f.length = 1 then trail (buf ++ f) r else trail [] r

omit U OK in
/-- The leading single characters. -/
def lead : List (List Rune) → List Rune
  | [] => []
  | f :: r => if f.length = 1 then f ++ lead r else []

/-- One result after the other. -/
def catO (a b : Option (List Bytes)) : Option (List Bytes) := a.bind fun x => b.map (x ++ ·)

omit U OK in
theorem catO_assoc (a b c : Option (List Bytes)) : catO (catO a b) c = catO a (catO b c) := by
  cases a <;> cases b <;> cases c <;> simp [catO]

omit U OK in
theorem catO_nil (a : Option (List Bytes)) : catO (some []) a = a := by cases a <;> simp [catO]

omit U OK in
theorem catO_nil_right (a : Option (List Bytes)) : catO a (some []) = a := by cases a <;> simp [catO]

omit U OK in
theorem hmmLoop_cons {d : Dictionary F D} (cut : Bytes → Option (List Bytes)) (f : List Rune) (r : List (List Rune)) (buf : List Rune) (h : f.length ≠ 1) :
    hmmLoop d cut (f :: r) buf = catO (flushBuf d cut buf) (catO (some [encode f]) (hmmLoop d cut r [])) := by
  rw [hmmLoop, if_neg h]
  cases flushBuf d cut buf <;> cases hmmLoop d cut r [] <;> simp [catO]

omit U OK in
theorem hmmLoop_lead {d : Dictionary F D} (cut : Bytes → Option (List Bytes)) : ∀ (y : List (List Rune)),
    ∃ rest, ∀ buf, hmmLoop d cut y buf = catO (flushBuf d cut (buf ++ lead y)) rest
  | [] => ⟨some [], fun buf => by simp [hmmLoop, lead, catO_nil_right]⟩
  | f :: r => by
    by_cases h : f.length = 1
    · obtain ⟨rest, hr⟩ := hmmLoop_lead (d := d) cut r
      refine ⟨rest, fun buf => ?_⟩
      rw [hmmLoop, if_pos h, hr, lead, if_pos h, List.append_assoc]
    · refine ⟨catO (some [encode f]) (hmmLoop d cut r []), fun buf => ?_⟩
      rw [hmmLoop_cons cut f r buf h, lead, if_neg h, List.append_nil]

omit U OK in
/-- The pieces of two parts, when what is pending at the seam may be flushed in two. -/
theorem hmmLoop_seam {d : Dictionary F D} (cut : Bytes → Option (List Bytes)) (y : List (List Rune)) : ∀ (x : List (List Rune)) (buf : List Rune) (o : Option (List Bytes)),
    flushBuf d cut (trail buf x ++ lead y) = catO o (flushBuf d cut (lead y)) →
    (o = flushBuf d cut (trail buf x) → hmmLoop d cut (x ++ y) buf = catO (hmmLoop d cut x buf) (hmmLoop d cut y [])) ∧
    ∃ z, hmmLoop d cut (x ++ y) buf = catO z (hmmLoop d cut y [])
  | [], buf, o, h => by
    obtain ⟨rest, hr⟩ := hmmLoop_lead (d := d) cut y
    simp only [trail] at h
    have e : hmmLoop d cut ([] ++ y) buf = catO o (hmmLoop d cut y []) := by
      rw [List.nil_append, hr, hr, h, List.nil_append, catO_assoc]
    exact ⟨fun ho => by rw [e, ho]; rfl, o, e⟩
  | f :: x, buf, o, h => by
    by_cases hf : f.length = 1
    · simp only [trail, if_pos hf] at h
      obtain ⟨h1, z, hz⟩ := hmmLoop_seam cut y x (buf ++ f) o h
      refine ⟨fun ho => ?_, z, ?_⟩
      · simp only [trail, if_pos hf] at ho
        rw [List.cons_append, hmmLoop, if_pos hf, h1 ho, hmmLoop, if_pos hf]
      · rw [List.cons_append, hmmLoop, if_pos hf, hz]
    · simp only [trail, if_neg hf] at h
      obtain ⟨h1, z, hz⟩ := hmmLoop_seam cut y x [] o h
      refine ⟨fun ho => ?_, catO (flushBuf d cut buf) (catO (some [encode f]) z), ?_⟩
      · simp only [trail, if_neg hf] at ho
        rw [List.cons_append, hmmLoop_cons cut f _ buf hf, hmmLoop_cons cut f _ buf hf, h1 ho, ← catO_assoc, ← catO_assoc, ← catO_assoc]
      · rw [List.cons_append, hmmLoop_cons cut f _ buf hf, hz, ← catO_assoc, ← catO_assoc, ← catO_assoc]

omit U OK in
/-- The pending characters are the last pieces, all of them single. -/
theorem trail_spec : ∀ (x : List (List Rune)) (p : List (List Rune)), (∀ t ∈ p, t.length = 1) → (∀ t ∈ x, t ≠ []) →
    ∃ u g, p ++ x = u ++ g ∧ trail p.flatten x = g.flatten ∧ (∀ t ∈ g, t.length = 1) ∧ (∀ t, u.getLast? = some t → t.length ≠ 1)
  | [], p, hp, _ => ⟨[], p, by simp, rfl, hp, by simp⟩
  | f :: x, p, hp, hx => by
    by_cases hf : f.length = 1
    · obtain ⟨u, g, h1, h2, h3, h4⟩ := trail_spec x (p ++ [f]) (by
        intro t ht
        rcases List.mem_append.1 ht with ht | ht
        · exact hp t ht
        · simp at ht; subst ht; exact hf) fun t ht => hx t (by simp [ht])
      refine ⟨u, g, by simpa using h1, ?_, h3, h4⟩
      rw [trail, if_pos hf, ← h2]
      simp
    · obtain ⟨u, g, h1, h2, h3, h4⟩ := trail_spec x [] (by simp) fun t ht => hx t (by simp [ht])
      rw [List.nil_append] at h1
      refine ⟨p ++ f :: u, g, by rw [h1]; simp, by rw [trail, if_neg hf, ← h2]; rfl, h3, ?_⟩
      intro t ht
      rw [List.getLast?_append, List.getLast?_cons] at ht
      simp at ht
      cases hu : u.getLast? with
      | none => rw [hu] at ht; simp at ht; subst ht; exact hf
      | some t' => rw [hu] at ht; simp at ht; subst ht; exact h4 t' hu

omit U OK in
theorem lead_spec : ∀ (y : List (List Rune)), ∃ g v, y = g ++ v ∧ lead y = g.flatten ∧ (∀ t ∈ g, t.length = 1) ∧ (∀ t, v.head? = some t → t.length ≠ 1)
  | [] => ⟨[], [], by simp [lead]⟩
  | f :: y => by
    by_cases hf : f.length = 1
    · obtain ⟨g, v, h1, h2, h3, h4⟩ := lead_spec y
      refine ⟨f :: g, v, by rw [h1]; rfl, by rw [lead, if_pos hf, h2]; rfl, ?_, h4⟩
      intro t ht
      rcases List.mem_cons.1 ht with rfl | ht
      · exact hf
      · exact h3 t ht
    · exact ⟨[], f :: y, rfl, by rw [lead, if_neg hf]; rfl, by simp, by rintro t ht; simp at ht; subst ht; exact hf⟩

omit U OK in
/-- Several characters that are not a stored word go to the HMM. -/
theorem flushBuf_hmm {d : Dictionary F D} (hi : IdxOK d) (cut : Bytes → Option (List Bytes)) {buf : List Rune} (h2 : 2 ≤ buf.length) (hk : ¬ Kept d buf) :
    flushBuf d cut buf = cut (encode buf) := by
  have hne : buf ≠ [] := by intro e; subst e; simp at h2
  rw [flushBuf, if_neg (by omega), if_neg (by omega), hmmBuf, findRunes]
  cases hs : storedTok d (encode buf) with
  | some tok =>
    rw [find_stored hs]
    have : F64.eq tok.freq (F64.ofNat 0) = true := by
      cases he : F64.eq tok.freq (F64.ofNat 0) with
      | true => rfl
      | false => exact absurd ⟨tok, hs, he⟩ hk
    simp [this]
  | none =>
    by_cases hn : StartsStored d (encode buf)
    · rw [find_starts hi (encode_ne_nil hne) hs hn]
      simp [F64.zero_eq_zero]
    · rw [find_unknown hi hs hn]
      simp

omit U OK in
/-- Several characters that are a stored word are left single. -/
theorem flushBuf_kept {d : Dictionary F D} (cut : Bytes → Option (List Bytes)) {buf : List Rune} (h2 : 2 ≤ buf.length) (hk : Kept d buf) :
    flushBuf d cut buf = some (buf.map encodeRune) := by
  obtain ⟨tok, hs, he⟩ := hk
  rw [flushBuf, if_neg (by omega), if_neg (by omega), hmmBuf, findRunes, find_stored hs]
  simp [he]

end Gse
