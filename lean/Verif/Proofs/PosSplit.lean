import Verif.Spec.Pos
import Verif.Proofs.RegexpSplit
import Verif.Proofs.HmmCut
import Verif.Proofs.DagBest

/-! # Blocks of the part-of-speech cut -/

namespace Gse
open Spec

set_option linter.unusedSectionVars false
set_option linter.unusedSimpArgs false

/-! ## Splitting by an expression -/

/-- The pieces of a text, by repeated search. -/
inductive Blocks (m : Matcher) : Bytes → List Bytes → Prop
  | last {s : Bytes} : m s = none → Blocks m s [s]
  | next {s : Bytes} {a b : Nat} {l : List Bytes} : m s = some (a, b) → Blocks m (s.drop b) l →
      Blocks m s (s.take a :: slice s a b :: l)

/-- Matches are not empty and inside the text. -/
def MatchRange (m : Matcher) : Prop := ∀ s a b, m s = some (a, b) → a < b ∧ b ≤ s.length

theorem slice_off (S : Bytes) (off a b : Nat) : slice S (off + a) (off + b) = slice (S.drop off) a b := by
  unfold slice
  rw [List.drop_drop]; congr 1; omega

theorem blocks_of_alternates {m : Matcher} (hm : MatchRange m) (S : Bytes) : ∀ (n : Nat) (s : Bytes) (off : Nat) (out : List Bytes),
    S.drop off = s → s.length ≤ n → Alternates S off (findAll m n s off) out → Blocks m s out := by
  intro n
  induction n with
  | zero =>
    intro s off out hs hn h
    have : s = [] := List.length_eq_zero_iff.1 (by omega)
    subst this
    have hnone : m [] = none := by
      cases e : m [] with
      | none => rfl
      | some p => have := hm [] p.1 p.2 e; simp at this; omega
    cases h
    rw [hs]; exact .last hnone
  | succ n ih =>
    intro s off out hs hn h
    unfold findAll at h
    cases e : m s with
    | none =>
      rw [e] at h
      cases h
      rw [hs]; exact .last e
    | some p =>
      obtain ⟨a, b⟩ := p
      rw [e] at h
      obtain ⟨h1, h2⟩ := hm s a b e
      cases h with
      | next h3 =>
        have h4 := ih (s.drop b) (off + b) _ (by rw [← hs, List.drop_drop]) (by simp; omega) h3
        have e1 : slice S off (off + a) = s.take a := by
          have := slice_off S off 0 a
          simp only [Nat.add_zero] at this
          rw [this, hs]; simp [slice]
        simp only
        rw [e1, slice_off, hs]
        exact .next e h4

theorem splitBy_blocks {m : Matcher} (hm : MatchRange m) (s : Bytes) : ∃ out, splitBy m s = some out ∧ Blocks m s out := by
  have h := findAll_matches hm s.length s 0
  rw [Nat.zero_add] at h
  unfold splitBy regexpSplit
  rw [if_neg (by omega)]
  by_cases hs : s = []
  · rw [if_pos ⟨rfl, hs⟩]
    subst hs
    refine ⟨_, rfl, .last ?_⟩
    cases e : m [] with
    | none => rfl
    | some p => have := hm [] p.1 p.2 e; simp at this; omega
  · rw [if_neg (by simp [hs]), if_pos (by omega)]
    obtain ⟨out, h1, h2⟩ := splitLoop_alternates (strs := []) (end_ := 0) (n := -1) (by omega) h.1 h.2 (List.length_pos_of_ne_nil hs)
    exact ⟨out, by simpa using h1, blocks_of_alternates hm s s.length s 0 out (by simp) (Nat.le_refl _) h2⟩

theorem blocks_flatten {m : Matcher} (hm : MatchRange m) {s : Bytes} {l : List Bytes} (h : Blocks m s l) : l.flatten = s := by
  induction h with
  | last _ => simp
  | @next s a b l e _ ih =>
    have := hm s a b e
    rw [List.flatten_cons, List.flatten_cons, ih, slice_append_drop _ (by omega), List.take_append_drop]

/-! ## ASCII bytes are characters -/

theorem decodeRune_ascii (b : UInt8) (v : Bytes) (hb : b.toNat < 128) : decodeRune (b :: v) = (b.toNat, 1) := by
  simp [decodeRune, hb]

theorem decodeRune_before_ascii (u : Bytes) (b : UInt8) (v : Bytes) (hu : u ≠ []) (hb : b.toNat < 128) :
    (decodeRune (u ++ b :: v)).2 ≤ u.length := by
  have lo : ∀ n, 128 ≤ sndLo n := by intro n; unfold sndLo; split <;> (try split) <;> omega
  have hc : isCont b.toNat = false := by simp [isCont]; omega
  match u, hu with
  | [a0], _ =>
    simp only [decodeRune, List.cons_append, List.nil_append]
    have := lo a0.toNat
    have : b.toNat < sndLo a0.toNat := by omega
    split
    · simp
    split
    · simp
    simp [this]
  | [a0, a1], _ =>
    simp only [decodeRune, List.cons_append, List.nil_append, hc]
    (repeat' split) <;> simp_all
  | [a0, a1, a2], _ =>
    simp only [decodeRune, List.cons_append, List.nil_append, hc]
    (repeat' split) <;> simp_all
  | a0 :: a1 :: a2 :: a3 :: a', _ =>
    simp only [decodeRune, List.cons_append]
    (repeat' split) <;> simp

/-- The characters of a text around an ASCII byte. -/
theorem chars_ascii (u : Bytes) (b : UInt8) (v : Bytes) (hb : b.toNat < 128) : chars (u ++ b :: v) = chars u ++ [b] :: chars v := by
  induction u using chars_induction with
  | nil =>
    rw [List.nil_append, chars_cons _ (by simp), decodeRune_ascii b v hb]
    simp
  | step u hu ih =>
    have h1 := decodeRune_before_ascii u b v hu hb
    have h2 := decodeRune_take_append u (b :: v) h1 hu
    rw [chars_cons (u ++ b :: v) (by simp), chars_cons u hu, ← h2]
    have h3 := decodeRune_size_le u
    rw [List.take_append_of_le_length h3, List.drop_append_of_le_length h3, ih]
    rfl

theorem mem_chars_ascii {s : Bytes} {b : UInt8} (h : b ∈ s) (hb : b.toNat < 128) : [b] ∈ chars s := by
  obtain ⟨u, v, rfl⟩ := List.append_of_mem h
  rw [chars_ascii u b v hb]; simp

theorem chars_before_ascii (u v : Bytes) (hv : ∀ b t, v = b :: t → b.toNat < 128) : chars (u ++ v) = chars u ++ chars v := by
  cases v with
  | nil => simp
  | cons b t =>
    have := hv b t rfl
    have h0 := chars_ascii [] b t this
    simp at h0
    rw [chars_ascii u b t this, h0]

theorem charRune_ascii (b : UInt8) (hb : b.toNat < 128) : charRune [b] = b.toNat := by
  simp [charRune, decodeRune, hb]

/-- A character with an ASCII rune is one byte. -/
theorem char_of_ascii_rune {s u : Bytes} (h : u ∈ chars s) (hr : charRune u < 128) : u = [UInt8.ofNat (charRune u)] := by
  have h1 := chars_isChar h
  have h2 := encode_decode u (by unfold charRune at hr; unfold runeError; omega)
  rw [h1.2, List.take_length] at h2
  unfold charRune at hr ⊢
  have h3 : encodeRune (decodeRune u).1 = [UInt8.ofNat (decodeRune u).1] := by simp [encodeRune, hr]
  rw [h3] at h2
  exact h2.symm

/-! ## Runs of a class -/

theorem classLen_spec (p : Rune → Bool) : ∀ (n : Nat) (s : Bytes), s.length ≤ n →
    ∃ us vs, chars s = us ++ vs ∧ us.flatten.length = classLen p n s ∧ (∀ u ∈ us, p (charRune u) = true) ∧
      (∀ v vs', vs = v :: vs' → p (charRune v) = false) := by
  intro n
  induction n with
  | zero =>
    intro s hs
    have : s = [] := List.length_eq_zero_iff.1 (by omega)
    subst this
    exact ⟨[], [], by simp, by simp [classLen], by simp, by simp⟩
  | succ n ih =>
    intro s hs
    cases s with
    | nil => exact ⟨[], [], by simp, by simp [classLen], by simp, by simp⟩
    | cons b t =>
      have hne : b :: t ≠ [] := by simp
      have h1 := decodeRune_size_pos (b :: t) hne
      have h2 := decodeRune_size_le (b :: t)
      have hcr : charRune ((b :: t).take (decodeRune (b :: t)).2) = (decodeRune (b :: t)).1 := by
        rw [charRune, decodeRune_of_take _ hne]
      unfold classLen
      rw [chars_cons _ hne]
      split
      · rename_i hp
        obtain ⟨us, vs, e1, e2, e3, e4⟩ := ih ((b :: t).drop (decodeRune (b :: t)).2) (by simp at hs ⊢; omega)
        refine ⟨(b :: t).take (decodeRune (b :: t)).2 :: us, vs, by rw [e1]; rfl, ?_, ?_, e4⟩
        · rw [List.flatten_cons, List.length_append, e2, List.length_take]
          omega
        · intro u hu
          rcases List.mem_cons.1 hu with rfl | hu
          · rw [hcr]; exact hp
          · exact e3 u hu
      · rename_i hp
        refine ⟨[], _, rfl, by simp, by simp, ?_⟩
        intro v vs' e
        rw [← (List.cons.inj e).1, hcr]
        simpa using hp

theorem findClass_spec (p : Rune → Bool) : ∀ (n : Nat) (s : Bytes) (off : Nat), s.length ≤ n →
    (findClass p n s off = none ∧ ∀ u ∈ chars s, p (charRune u) = false) ∨
    ∃ xs us vs, findClass p n s off = some (off + xs.flatten.length, off + (xs ++ us).flatten.length) ∧ chars s = xs ++ us ++ vs ∧
      (∀ u ∈ xs, p (charRune u) = false) ∧ us ≠ [] ∧ (∀ u ∈ us, p (charRune u) = true) ∧
      (∀ v vs', vs = v :: vs' → p (charRune v) = false) := by
  intro n
  induction n with
  | zero =>
    intro s off hs
    have : s = [] := List.length_eq_zero_iff.1 (by omega)
    subst this
    exact .inl ⟨rfl, by simp⟩
  | succ n ih =>
    intro s off hs
    cases s with
    | nil => exact .inl ⟨rfl, by simp⟩
    | cons b t =>
      have hne : b :: t ≠ [] := by simp
      have h1 := decodeRune_size_pos (b :: t) hne
      have h2 := decodeRune_size_le (b :: t)
      have hcr : charRune ((b :: t).take (decodeRune (b :: t)).2) = (decodeRune (b :: t)).1 := by
        rw [charRune, decodeRune_of_take _ hne]
      unfold findClass
      split
      · rename_i hp
        obtain ⟨us, vs, e1, e2, e3, e4⟩ := classLen_spec p (b :: t).length (b :: t) (Nat.le_refl _)
        refine .inr ⟨[], us, vs, by rw [← e2]; simp, by simpa using e1, by simp, ?_, e3, e4⟩
        rintro rfl
        rw [chars_cons _ hne] at e1
        simp at e1
        have := e4 _ _ e1.symm
        rw [hcr, hp] at this
        simp at this
      · rename_i hp
        have hp : p (decodeRune (b :: t)).1 = false := by simpa using hp
        rcases ih ((b :: t).drop (decodeRune (b :: t)).2) (off + (decodeRune (b :: t)).2) (by simp at hs ⊢; omega) with
          ⟨e1, e2⟩ | ⟨xs, us, vs, e1, e2, e3, e4, e5, e6⟩
        · refine .inl ⟨e1, ?_⟩
          rw [chars_cons _ hne]
          intro u hu
          rcases List.mem_cons.1 hu with rfl | hu
          · rw [hcr]; exact hp
          · exact e2 u hu
        · refine .inr ⟨(b :: t).take (decodeRune (b :: t)).2 :: xs, us, vs, ?_, ?_, ?_, e4, e5, e6⟩
          · rw [e1]
            have hl : ((b :: t).take (decodeRune (b :: t)).2).length = (decodeRune (b :: t)).2 := by
              rw [List.length_take]; omega
            simp only [List.flatten_cons, List.cons_append, List.length_append, hl]
            simp only [Nat.add_assoc]
          · rw [chars_cons _ hne, e2]; simp
          · intro u hu
            rcases List.mem_cons.1 hu with rfl | hu
            · rw [hcr]; exact hp
            · exact e3 u hu

/-- The first run of a class. -/
theorem classRun_spec (p : Rune → Bool) (s : Bytes) :
    (classRun p s = none ∧ ∀ u ∈ chars s, p (charRune u) = false) ∨
    ∃ a b us, classRun p s = some (a, b) ∧ a < b ∧ b ≤ s.length ∧ chars s = chars (s.take a) ++ us ++ chars (s.drop b) ∧
      us = chars (slice s a b) ∧
      (∀ u ∈ chars (s.take a), p (charRune u) = false) ∧ us ≠ [] ∧ (∀ u ∈ us, p (charRune u) = true) ∧
      (∀ v vs', chars (s.drop b) = v :: vs' → p (charRune v) = false) := by
  rcases findClass_spec p s.length s 0 (Nat.le_refl _) with h | ⟨xs, us, vs, e1, e2, e3, e4, e5, e6⟩
  · exact .inl h
  · refine .inr ⟨xs.flatten.length, (xs ++ us).flatten.length, us, by unfold classRun; rw [e1]; simp, ?_, ?_, ?_⟩
    · obtain ⟨u, us', rfl⟩ := List.exists_cons_of_ne_nil e4
      have hu := chars_ne_nil (p := s) (u := u) (by rw [e2]; simp)
      have := List.length_pos_of_ne_nil hu
      simp; omega
    · have := congrArg (fun l => l.flatten.length) e2
      simp only [chars_flatten] at this
      rw [this]; simp
    · have hs : s = xs.flatten ++ us.flatten ++ vs.flatten := by
        have := congrArg List.flatten e2
        rw [chars_flatten] at this; simpa using this
      have ht : s.take xs.flatten.length = xs.flatten := by
        rw [hs, List.append_assoc, List.take_left]
      have hd : s.drop (xs ++ us).flatten.length = vs.flatten := by
        rw [hs, List.flatten_append, List.drop_left]
      have hsl : slice s xs.flatten.length (xs ++ us).flatten.length = us.flatten := by
        unfold slice
        rw [hs, List.append_assoc, List.drop_left]
        rw [List.flatten_append, List.length_append, Nat.add_sub_cancel_left, List.take_left]
      rw [ht, hd, hsl]
      have c1 : chars xs.flatten = xs := chars_append_left (p := s) (b := us ++ vs) (by rw [e2]; simp)
      have c2 : chars vs.flatten = vs := chars_append_right e2
      have c3 : chars us.flatten = us := chars_infix e2
      rw [c1, c2, c3]
      exact ⟨e2, rfl, e3, e4, e5, e6⟩

theorem classRun_range (p : Rune → Bool) : MatchRange (classRun p) := by
  intro s a b h
  rcases classRun_spec p s with ⟨e, _⟩ | ⟨a', b', us, e, h1, h2, _⟩
  · rw [e] at h; simp at h
  · rw [e] at h; simp at h; omega

theorem classRun_isSome (p : Rune → Bool) (s : Bytes) : (classRun p s).isSome = (chars s).any fun u => p (charRune u) := by
  rcases classRun_spec p s with ⟨e, h⟩ | ⟨a', b', us, e, h1, h2, h3, _, _, h4, h5, _⟩
  · rw [e]
    symm
    simpa using h
  · rw [e]
    obtain ⟨u, us', rfl⟩ := List.exists_cons_of_ne_nil h4
    symm
    simp only [Option.isSome_some, List.any_eq_true]
    exact ⟨u, by rw [h3]; simp, h5 u (by simp)⟩

/-! ## White space -/

theorem findSpace_spec (s : Bytes) (off : Nat) :
    (findSpace s off = none ∧ ∀ b ∈ s, spaceByte b = false) ∨
    ∃ u b v, s = u ++ b :: v ∧ (∀ c ∈ u, spaceByte c = false) ∧ spaceByte b = true ∧
      findSpace s off = some (off + u.length, off + u.length + if b = 13 ∧ v.head? = some 10 then 2 else 1) := by
  induction s generalizing off with
  | nil => exact .inl ⟨rfl, by simp⟩
  | cons c t ih =>
    unfold findSpace
    by_cases hc : spaceByte c = true
    · rw [if_pos hc]
      refine .inr ⟨[], c, t, rfl, by simp, hc, ?_⟩
      by_cases h : c = 13 ∧ t.head? = some 10
      · obtain ⟨h1, h2⟩ := h
        simp [h1, h2]
      · rw [if_neg h]
        have : (c == 13 && t.head? == some 10) = false := by
          rw [Bool.eq_false_iff]
          simpa using h
        simp [this]
    · rw [if_neg hc]
      rcases ih (off + 1) with ⟨e1, e2⟩ | ⟨u, b, v, e1, e2, e3, e4⟩
      · refine .inl ⟨e1, ?_⟩
        intro b hb
        rcases List.mem_cons.1 hb with rfl | hb
        · simpa using hc
        · exact e2 b hb
      · refine .inr ⟨c :: u, b, v, by rw [e1]; rfl, ?_, e3, ?_⟩
        · intro b hb
          rcases List.mem_cons.1 hb with rfl | hb
          · simpa using hc
          · exact e2 b hb
        · rw [e4]; simp only [List.length_cons]; congr 2 <;> omega

theorem reSkipInternal_range : MatchRange reSkipInternal := by
  intro s a b h
  unfold reSkipInternal at h
  rcases findSpace_spec s 0 with ⟨e, _⟩ | ⟨u, c, v, e, _, _, h'⟩
  · rw [e] at h; simp at h
  · rw [h'] at h
    simp only [Option.some.injEq, Prod.mk.injEq, Nat.zero_add] at h
    obtain ⟨rfl, rfl⟩ := h
    rw [e]
    split
    · rename_i hc
      cases v with
      | nil => simp at hc
      | cons => simp
    · simp

theorem spaceByte_ascii {b : UInt8} (h : spaceByte b = true) : b.toNat < 128 := by
  simp [spaceByte] at h
  rcases h with ((((rfl | rfl) | rfl) | rfl) | rfl) <;> decide

variable [U : Unicode]

theorem hanInternalClass_iff (u : Bytes) : hanInternalClass (charRune u) = posChar u := by
  unfold hanInternalClass posChar alnumRune
  have h1 : engFrag [charRune u] = asciiAlnum (charRune u) := by
    rw [Bool.eq_iff_iff, engFrag_iff]
    constructor
    · rintro ⟨r, e, h⟩; simp at e; rw [e]; exact h
    · intro h; exact ⟨_, rfl, h⟩
  have h2 : ([43, 35, 38, 46, 95] : List Nat).contains (charRune u) = (str "+#&._").any (fun b => b.toNat = charRune u) := by
    rw [show str "+#&._" = [43, 35, 38, 46, 95] by decide, Bool.eq_iff_iff]
    simp
    omega
  rw [h1, h2, Bool.or_assoc, Bool.or_assoc]
  congr 1
  exact Bool.or_comm _ _

/-- A character of a text that is none of the dictionary characters and not white space. -/
theorem otherItem_eq {x u : Bytes} (hx : ∀ u ∈ chars x, posChar u = false) (hu : u ∈ chars x) :
    otherItem x (charRune u) = ⟨encodeRune (charRune u), str "x"⟩ := by
  have hnum : reNumMatch (encodeRune (charRune u)) = false := by
    unfold reNumMatch
    rw [Bool.eq_false_iff]
    intro h
    rw [List.any_eq_true] at h
    obtain ⟨b, hb, hd⟩ := h
    have hlt : b.toNat < 128 := by
      simp only [Bool.or_eq_true, beq_iff_eq, digitByte, Bool.and_eq_true, decide_eq_true_eq] at hd
      rcases hd with rfl | hd
      · decide
      · omega
    by_cases hr : charRune u < 128
    · have e : encodeRune (charRune u) = [UInt8.ofNat (charRune u)] := by simp [encodeRune, hr]
      rw [e] at hb
      simp at hb
      have hbn : b.toNat = charRune u := by rw [hb, toNat_ofNat_lt (by omega)]
      have h0 := hx u hu
      unfold posChar at h0
      simp only [Bool.or_eq_false_iff] at h0
      simp only [Bool.or_eq_true, beq_iff_eq, digitByte, Bool.and_eq_true, decide_eq_true_eq] at hd
      rcases hd with rfl | hd
      · have := h0.1.2
        rw [show str "+#&._" = [43, 35, 38, 46, 95] by decide] at this
        simp [← hbn] at this
      · have := (asciiAlnum_iff (charRune u)).2 (by omega)
        rw [h0.2] at this; simp at this
    · exact encodeRune_high hr b hb hlt
  have heng : reEngMatch x = false := by
    unfold reEngMatch
    rw [Bool.eq_false_iff]
    intro h
    rw [List.any_eq_true] at h
    obtain ⟨b, hb, hd⟩ := h
    simp only [alnumByte, digitByte, Bool.or_eq_true, Bool.and_eq_true, decide_eq_true_eq] at hd
    have h0 := hx [b] (mem_chars_ascii hb (by omega))
    unfold posChar at h0
    rw [charRune_ascii b (by omega)] at h0
    have := (asciiAlnum_iff b.toNat).2 (by omega)
    simp [this] at h0
  simp [otherItem, hnum, heng]

theorem posOut_chars {cut : Bytes → Option (List SegPos)} {rest : List Bytes} {l : List SegPos} (us : List Bytes)
    (h : PosOut cut rest l) (h1 : ∀ u ∈ us, posChar u = false) (h2 : ∀ u ∈ us, u ≠ str "\r") :
    PosOut cut (us ++ rest) (us.map (fun u => ⟨encodeRune (charRune u), str "x"⟩) ++ l) := by
  induction us with
  | nil => exact h
  | cons u us ih =>
    refine .char (h1 u (by simp)) (fun e => absurd e (h2 u (by simp))) (ih (fun v hv => h1 v (by simp [hv])) (fun v hv => h2 v (by simp [hv])))

theorem spaceItems_plain {cut : Bytes → Option (List SegPos)} {x : Bytes} (hx : ∀ u ∈ chars x, posChar u = false)
    (hs : ∀ b ∈ x, spaceByte b = false) {rest : List Bytes} {l : List SegPos} (h : PosOut cut rest l) :
    PosOut cut (chars x ++ rest) (spaceItems x ++ l) := by
  have hnone : (reSkipInternal x).isSome = false := by
    unfold reSkipInternal
    rcases findSpace_spec x 0 with ⟨e, _⟩ | ⟨u, b, v, e, _, h3, _⟩
    · simp [e]
    · have := hs b (by simp [e]); rw [h3] at this; simp at this
  have he : spaceItems x = (chars x).map fun u => ⟨encodeRune (charRune u), str "x"⟩ := by
    unfold spaceItems
    rw [hnone, if_neg (by simp), runes_eq_chars, List.map_map]
    apply List.map_congr_left
    intro u hu
    exact otherItem_eq hx hu
  rw [he]
  refine posOut_chars _ h hx ?_
  intro u hu e
  subst e
  have : (13 : UInt8) ∈ x := by
    rw [← chars_flatten x]
    exact List.mem_flatten.2 ⟨_, hu, by decide⟩
  have := hs 13 this
  simp [spaceByte] at this

/-- A block without dictionary characters. -/
theorem blocks_space {cut : Bytes → Option (List SegPos)} {x : Bytes} {ps : List Bytes} (hb : Blocks reSkipInternal x ps)
    (hx : ∀ u ∈ chars x, posChar u = false) {rest : List Bytes} {l : List SegPos} (h : PosOut cut rest l)
    (hr : rest.head? ≠ some (str "\n")) : PosOut cut (chars x ++ rest) (ps.flatMap spaceItems ++ l) := by
  induction hb with
  | @last s e =>
    rcases findSpace_spec s 0 with ⟨_, h2⟩ | ⟨u, b, v, _, _, _, h'⟩
    · simpa using spaceItems_plain hx h2 h
    · unfold reSkipInternal at e; rw [h'] at e; simp at e
  | @next s a b ps e hb ih =>
    rcases findSpace_spec s 0 with ⟨h1, _⟩ | ⟨u, c, v, h1, h2, h3, h4⟩
    · unfold reSkipInternal at e; rw [h1] at e; simp at e
    · unfold reSkipInternal at e
      rw [h4] at e
      simp only [Option.some.injEq, Prod.mk.injEq, Nat.zero_add] at e
      obtain ⟨rfl, rfl⟩ := e
      have hc := spaceByte_ascii h3
      have hch := chars_ascii u c v hc
      rw [← h1] at hch
      have htake : s.take u.length = u := by rw [h1]; simp
      have hxu : ∀ w ∈ chars u, posChar w = false := fun w hw => hx w (by rw [hch]; simp [hw])
      rw [htake]
      by_cases hcr : c = 13 ∧ v.head? = some 10
      · rw [if_pos hcr] at ih ⊢
        obtain ⟨rfl, hv⟩ := hcr
        obtain ⟨v', rfl⟩ : ∃ v', v = 10 :: v' := by
          cases v with
          | nil => simp at hv
          | cons d v' => simp at hv; exact ⟨v', by rw [hv]⟩
        have hd : s.drop (u.length + 2) = v' := by rw [h1]; simp [List.drop_append]
        have hsl : slice s u.length (u.length + 2) = str "\r\n" := by
          rw [h1]; simp [slice]; decide
        have hcv : chars (10 :: v') = [10] :: chars v' := by simpa using chars_ascii [] 10 v' (by decide)
        rw [hd] at ih
        rw [hsl]
        have h5 := ih (fun w hw => hx w (by rw [hch, hcv]; simp [hw]))
        have h6 := spaceItems_plain hxu h2 (PosOut.break h5)
        rw [hch, hcv]
        have e1 : spaceItems (str "\r\n") = [⟨str "\r\n", str "x"⟩] := by decide
        simp only [List.flatMap_cons, e1]
        simpa [show str "\r" = [13] by decide, show str "\n" = [10] by decide] using h6
      · rw [if_neg hcr] at ih ⊢
        have hd : s.drop (u.length + 1) = v := by rw [h1]; simp [List.drop_append]
        have hsl : slice s u.length (u.length + 1) = [c] := by
          rw [h1]; simp [slice]
        rw [hd] at ih
        rw [hsl]
        have h5 := ih (fun w hw => hx w (by rw [hch]; simp [hw]))
        have e1 : spaceItems [c] = [⟨[c], str "x"⟩] := by
          simp [spaceItems, reSkipInternal, findSpace, h3]
        have hcpos : posChar [c] = false := hx [c] (by rw [hch]; simp)
        have h7 : PosOut cut ([c] :: (chars v ++ rest)) (⟨encodeRune (charRune [c]), str "x"⟩ :: (ps.flatMap spaceItems ++ l)) := by
          refine .char hcpos ?_ h5
          intro ec
          have ec : c = 13 := by simpa [show str "\r" = [13] by decide] using ec
          intro hh
          cases v with
          | nil => simp at hh; exact hr (by simp [hh])
          | cons d v' =>
            have hn := decodeRune_size_pos (d :: v') (by simp)
            rw [chars_cons _ (by simp)] at hh
            simp only [List.cons_append, List.head?_cons, Option.some.injEq] at hh
            have h8 : d = 10 := by
              have := congrArg List.head? hh
              rw [show str "\n" = [10] by decide] at this
              obtain ⟨k, hk⟩ : ∃ k, (decodeRune (d :: v')).2 = k + 1 := ⟨_, (Nat.succ_pred_eq_of_pos hn).symm⟩
              rw [hk] at this
              simpa using this
            exact hcr ⟨ec, by simp [h8]⟩
        have e2 : encodeRune (charRune [c]) = [c] := by
          rw [charRune_ascii c hc]
          simp [encodeRune, hc]
        rw [e2] at h7
        have h6 := spaceItems_plain hxu h2 h7
        rw [hch]
        simp only [List.flatMap_cons, e1]
        simpa using h6

theorem posBlock_plain {cut : Bytes → Option (List SegPos)} {x : Bytes} (hx : ∀ u ∈ chars x, posChar u = false) :
    ∃ ps, Blocks reSkipInternal x ps ∧ posBlock cut x = some (ps.flatMap spaceItems) := by
  obtain ⟨ps, h1, h2⟩ := splitBy_blocks reSkipInternal_range x
  refine ⟨ps, h2, ?_⟩
  unfold posBlock reHanInternal
  rw [classRun_isSome]
  have : ((chars x).any fun u => hanInternalClass (charRune u)) = false := by
    rw [List.any_eq_false]
    intro u hu
    rw [hanInternalClass_iff, hx u hu]; simp
  rw [this, if_neg (by simp), h1]
  rfl

/-- What `Cut` returns, block by block. -/
theorem posCutWith_out [UnicodeOK] {cut : Bytes → Option (List SegPos)} (s : Bytes)
    (hcut : ∀ v, v ≠ [] → chars v <:+: chars s → (∀ u ∈ chars v, posChar u = true) → ∃ o, cut v = some o) :
    ∃ out, posCutWith cut s = some out ∧ PosOut cut (chars s) out := by
  have hnl : ∀ {u : Bytes}, posChar u = true → u ≠ str "\n" := by
    rintro u h rfl
    have : charRune (str "\n") = 10 := by decide
    unfold posChar at h
    rw [this, UnicodeOK.han_ascii 10 (by omega)] at h
    revert h
    decide
  have key : ∀ blks, Blocks reHanInternal s blks → ∃ out, (mapOpt (posBlock cut) blks).map List.flatten = some out ∧ PosOut cut (chars s) out := by
    intro blks hb
    induction hb with
    | @last s e =>
      rcases classRun_spec (hanInternalClass (U := U)) s with ⟨_, h2⟩ | ⟨a, b, us, h', _⟩
      · have hx : ∀ u ∈ chars s, posChar u = false := fun u hu => by rw [← hanInternalClass_iff]; exact h2 u hu
        obtain ⟨ps, h3, h4⟩ := posBlock_plain (cut := cut) hx
        refine ⟨ps.flatMap spaceItems, by simp [mapOpt, h4], ?_⟩
        simpa using blocks_space h3 hx (PosOut.nil (cut := cut)) (by simp)
      · unfold reHanInternal at e; rw [h'] at e; simp at e
    | @next s a b blks e hb ih =>
      rcases classRun_spec (hanInternalClass (U := U)) s with ⟨h1, _⟩ | ⟨a', b', us, h', c1, c2, c3, c4, c5, c6, c7, c8⟩
      · unfold reHanInternal at e; rw [h1] at e; simp at e
      · unfold reHanInternal at e
        rw [h'] at e
        simp only [Option.some.injEq, Prod.mk.injEq] at e
        obtain ⟨rfl, rfl⟩ := e
        have f1 : chars (s.drop b') <:+: chars s := by rw [c3]; exact (List.suffix_append _ _).isInfix
        have f2 : us <:+: chars s := by rw [c3]; exact ⟨_, _, rfl⟩
        obtain ⟨out, i1, i2⟩ := ih fun v h1 h2 => hcut v h1 (h2.trans f1)
        have hx : ∀ u ∈ chars (s.take a'), posChar u = false := fun u hu => by rw [← hanInternalClass_iff]; exact c5 u hu
        have hus : ∀ u ∈ us, posChar u = true := fun u hu => by rw [← hanInternalClass_iff]; exact c7 u hu
        obtain ⟨ps, h3, h4⟩ := posBlock_plain (cut := cut) hx
        have hsl : us.flatten = slice s a' b' := by rw [c4, chars_flatten]
        have hslne : slice s a' b' ≠ [] := by
          intro e; rw [c4, e] at c6; exact c6 rfl
        obtain ⟨o, ho⟩ := hcut (slice s a' b') hslne (by rw [← c4]; exact f2) (by rw [← c4]; exact hus)
        have hblk : posBlock cut (slice s a' b') = some o := by
          unfold posBlock reHanInternal
          rw [classRun_isSome, ← c4]
          obtain ⟨u, us', rfl⟩ := List.exists_cons_of_ne_nil c6
          have : ((u :: us').any fun u => hanInternalClass (charRune u)) = true := by
            rw [List.any_eq_true]; exact ⟨u, by simp, c7 u (by simp)⟩
          rw [this, if_pos rfl]; exact ho
        obtain ⟨ol, hol, rfl⟩ := Option.map_eq_some_iff.1 i1
        refine ⟨ps.flatMap spaceItems ++ (o ++ ol.flatten), ?_, ?_⟩
        · simp [mapOpt, h4, hblk, hol]
        · have h5 : PosOut cut (us ++ chars (s.drop b')) (o ++ ol.flatten) := by
            refine .run c6 hus ?_ (by rw [hsl]; exact ho) i2
            rintro ⟨u, rest, e, hu⟩
            have := c8 u rest e
            rw [hanInternalClass_iff, hu] at this
            simp at this
          rw [c3, List.append_assoc]
          refine blocks_space h3 hx h5 ?_
          obtain ⟨u, us', rfl⟩ := List.exists_cons_of_ne_nil c6
          simp only [List.cons_append, List.head?_cons, ne_eq, Option.some.injEq]
          exact hnl (hus u (by simp))
  obtain ⟨blks, h1, h2⟩ := splitBy_blocks (classRun_range (hanInternalClass (U := U))) s
  obtain ⟨out, h3, h4⟩ := key blks h2
  refine ⟨out, ?_, h4⟩
  unfold posCutWith reHanInternal
  rw [h1]
  exact h3

/-- Nothing is lost when `cut` loses nothing. -/
theorem posOut_join {cut : Bytes → Option (List SegPos)} {us : List Bytes} {out : List SegPos} (h : PosOut cut us out)
    (hch : ∀ u ∈ us, IsChar u)
    (hcut : ∀ vs o, vs <:+: us → cut vs.flatten = some o → (o.map SegPos.text).flatten = encode (vs.map charRune)) :
    (out.map SegPos.text).flatten = encode (us.map charRune) := by
  induction h with
  | nil => rfl
  | @run vs rest o l h1 h2 h3 h4 h5 ih =>
    rw [List.map_append, List.flatten_append, List.map_append, encode_append,
      hcut vs o (List.prefix_append _ _).isInfix h4,
      ih (fun u hu => hch u (by simp [hu])) (fun ws o' hw => hcut ws o' (hw.trans (List.suffix_append _ _).isInfix))]
  | @«break» rest l h5 ih =>
    rw [List.map_cons, List.flatten_cons,
      ih (fun u hu => hch u (by simp [hu])) (fun ws o' hw => hcut ws o' (hw.trans (List.suffix_append [str "\r", str "\n"] rest).isInfix))]
    simp only [List.map_cons, encode_cons]
    have e1 : encodeRune (charRune (str "\r")) = str "\r" := by decide
    have e2 : encodeRune (charRune (str "\n")) = str "\n" := by decide
    rw [e1, e2, show str "\r\n" = str "\r" ++ str "\n" by decide, List.append_assoc]
  | @char u rest l h1 h2 h5 ih =>
    rw [List.map_cons, List.flatten_cons,
      ih (fun u hu => hch u (by simp [hu])) (fun ws o' hw => hcut ws o' (hw.trans (List.suffix_cons u rest).isInfix))]
    simp only [List.map_cons, encode_cons]

end Gse
