import Verif.Spec.Trim
import Verif.Proofs.Encode
import Verif.Proofs.HmmRuns
import Mathlib.Data.List.TakeWhile

namespace Gse

open Spec

set_option linter.unusedSectionVars false

/-! ## Character filters -/

theorem foldl_encode (p : Rune → Bool) : ∀ (rs : List Rune) (acc : Bytes),
    rs.foldl (fun new value => if p value then new ++ encodeRune value else new) acc = acc ++ encode (rs.filter p) := by
  intro rs
  induction rs with
  | nil => intro acc; simp [encode]
  | cons r rs ih =>
    intro acc
    rw [List.foldl_cons, ih, List.filter_cons]
    split
    · simp [encode]
    · rfl

theorem runes_encode_filter (p : Rune → Bool) (s : Bytes) : runes (encode ((runes s).filter p)) = (runes s).filter p :=
  runes_encode _ fun r hr => runes_valid s r (List.mem_filter.1 hr).1

theorem encode_filter_idem (p : Rune → Bool) (s : Bytes) :
    encode ((runes (encode ((runes s).filter p))).filter p) = encode ((runes s).filter p) := by
  rw [runes_encode_filter, List.filter_filter]; simp

/-- Cutting before a byte that continues no character does not change the characters. -/
theorem decodeRune_append_start (a b : Bytes) (ha : a ≠ []) (hb : ∀ c, b.head? = some c → isCont c.toNat = false) :
    decodeRune (a ++ b) = decodeRune a := by
  by_cases h : (decodeRune (a ++ b)).2 ≤ a.length
  · exact (decodeRune_take_append a b h ha).symm
  · exfalso
    rw [Nat.not_le] at h
    have hl := decodeRune_size_le (a ++ b)
    rcases b with _ | ⟨c, b⟩
    · simp at hl h; omega
    have hc := hb c rfl
    have h2 := inside_cont (a ++ c :: b) a.length (List.length_pos_of_ne_nil ha) h c (by simp)
    rw [h2] at hc; cases hc

theorem runes_append_start : ∀ (a b : Bytes), (∀ c, b.head? = some c → isCont c.toNat = false) →
    runes (a ++ b) = runes a ++ runes b := by
  intro a b hb
  induction a using chars_induction with
  | nil => simp [runes_nil]
  | step p hp ih =>
    rw [runes_cons p hp, runes_cons (p ++ b) (by simp [hp]), decodeRune_append_start p b hp hb, List.cons_append,
      List.drop_append_of_le_length (decodeRune_size_le p), ih]


/-! ## Tags -/

theorem tagEndByte_iff (c : UInt8) : tagEndByte c = true ↔
    (c ∈ str "0123456789" ∨ c ∈ str "ABCDEFGHIJKLMNOPQRSTUVWXYZ" ∨ c ∈ str "abcdefghijklmnopqrstuvwxyz" ∨ c ∈ str "_|=\"") := by
  revert c
  apply forall_byte
  decide +kernel

theorem tagEndByte_ne {c : UInt8} (h : tagEndByte c = true) : c ≠ 62 ∧ c ≠ 60 := by
  constructor <;> (rintro rfl; revert h; decide +kernel)

theorem takeWhile_append_stop {p : UInt8 → Bool} {x y : Bytes} {c : UInt8} (hx : ∀ b ∈ x, p b = true) (hc : p c = false) :
    (x ++ c :: y).takeWhile p = x := by
  rw [List.takeWhile_append_of_pos hx]
  simp [hc]

/-- A text up to its first `>`. -/
theorem tagLen_front {x y : Bytes} (hx : (62 : UInt8) ∉ x) :
    tagLen (60 :: x ++ 62 :: y) = if (∃ c, x.getLast? = some c ∧ tagEndByte c = true) then some (x.length + 2) else none := by
  have h1 : (x ++ 62 :: y).takeWhile (fun c => c != 62) = x := by
    apply takeWhile_append_stop
    · intro b hb; rw [bne_iff_ne]; rintro rfl; exact hx hb
    · rfl
  simp only [List.cons_append, tagLen, h1, if_true, List.drop_left]
  rcases x.getLast? with _ | c <;> simp

theorem tagLen_noend {x : Bytes} {b : UInt8} (hx : (62 : UInt8) ∉ x) : tagLen (b :: x) = none := by
  simp only [tagLen]
  have : x.takeWhile (fun c => c != 62) = x := by
    rw [List.takeWhile_eq_self_iff]
    intro b hb; rw [bne_iff_ne]; rintro rfl; exact hx hb
  rw [this]
  split
  · simp only [List.drop_length]
    split
    · next h => simp at h
    · rfl
  · rfl

/-- A text is a `<` and a first `>`, or cannot begin with a tag. -/
theorem tag_cases (s : Bytes) : (∃ x y, s = 60 :: x ++ 62 :: y ∧ (62 : UInt8) ∉ x) ∨
    (tagLen s = none ∧ ∀ w, IsTag w → ¬ w <+: s) := by
  rcases s with _ | ⟨b, t⟩
  · right
    refine ⟨rfl, ?_⟩
    rintro w ⟨x, c, rfl, _⟩ h
    simp at h
  by_cases hb : b = 60
  · subst hb
    by_cases h : (62 : UInt8) ∈ t
    · left
      obtain ⟨x, y, e, hx⟩ := List.eq_append_cons_of_mem h
      exact ⟨x, y, by rw [e]; rfl, hx⟩
    · right
      refine ⟨tagLen_noend h, ?_⟩
      rintro w ⟨x, c, rfl, _⟩ h'
      obtain ⟨r, hr⟩ := h'
      rw [List.append_assoc, List.cons_append, List.cons.injEq] at hr
      apply h
      rw [← hr.2]; simp
  · right
    refine ⟨by simp [tagLen, hb], ?_⟩
    rintro w ⟨x, c, rfl, _⟩ h'
    obtain ⟨r, hr⟩ := h'
    rw [List.append_assoc, List.cons_append, List.cons.injEq] at hr
    exact hb hr.1.symm

/-- The front of a text with a first `>` at a known place. -/
theorem isTag_front {x y w : Bytes} (hx : (62 : UInt8) ∉ x) (hw : IsTag w) (h : w <+: 60 :: x ++ 62 :: y) :
    w = 60 :: x ++ [62] ∧ ∃ c, x.getLast? = some c ∧ tagEndByte c = true := by
  obtain ⟨z, c, rfl, hz, hc⟩ := hw
  rw [← tagEndByte_iff] at hc
  obtain ⟨r, hr⟩ := h
  simp only [List.cons_append, List.cons.injEq, true_and, List.append_assoc] at hr
  have hzc : (62 : UInt8) ∉ z ++ [c] := by
    simp only [List.mem_append, List.mem_singleton, not_or]
    exact ⟨hz, fun e => (tagEndByte_ne hc).1 e.symm⟩
  have key : z ++ [c] = x := by
    have e1 : (z ++ [c] ++ 62 :: r).takeWhile (fun c => c != 62) = z ++ [c] := by
      apply takeWhile_append_stop
      · intro b hb; rw [bne_iff_ne]; rintro rfl; exact hzc hb
      · rfl
    have e2 : (x ++ 62 :: y).takeWhile (fun c => c != 62) = x := by
      apply takeWhile_append_stop
      · intro b hb; rw [bne_iff_ne]; rintro rfl; exact hx hb
      · rfl
    rw [← e1, ← e2, ← hr]; simp
  subst key
  exact ⟨by simp, c, by simp, hc⟩

theorem tagLen_some {s : Bytes} {k : Nat} (h : tagLen s = some k) : ∃ w r, IsTag w ∧ s = w ++ r ∧ w.length = k := by
  rcases tag_cases s with ⟨x, y, rfl, hx⟩ | ⟨h', _⟩
  · rw [tagLen_front hx] at h
    split at h
    · next hc =>
      obtain ⟨c, h1, h2⟩ := hc
      obtain ⟨z, rfl⟩ := List.getLast?_eq_some_iff.1 h1
      obtain rfl := Option.some.inj h
      refine ⟨60 :: z ++ [c, 62], y, ⟨z, c, rfl, fun h => hx (by simp [h]), (tagEndByte_iff c).1 h2⟩, by simp, by simp⟩
    · cases h
  · rw [h'] at h; cases h

theorem tagLen_none {s : Bytes} (h : tagLen s = none) : ∀ w, IsTag w → ¬ w <+: s := by
  rcases tag_cases s with ⟨x, y, rfl, hx⟩ | ⟨_, h'⟩
  · intro w hw h2
    obtain ⟨_, hc⟩ := isTag_front hx hw h2
    rw [tagLen_front hx, if_pos hc] at h
    cases h
  · exact h'

theorem tagLen_none_iff {s : Bytes} : tagLen s = none ↔ ∀ w, IsTag w → ¬ w <+: s := by
  constructor
  · exact tagLen_none
  · intro h
    rcases e : tagLen s with _ | k
    · rfl
    · obtain ⟨w, r, hw, rfl, _⟩ := tagLen_some e
      exact absurd (List.prefix_append w r) (h w hw)

theorem filterHtmlLoop_spec : ∀ (n : Nat) (s : Bytes), s.length < n → WithoutTags s (filterHtmlLoop n s) := by
  intro n
  induction n with
  | zero => intro s h; omega
  | succ n ih =>
    intro s h
    rcases s with _ | ⟨b, t⟩
    · exact .nil
    simp only [filterHtmlLoop]
    split
    · next k hk =>
      obtain ⟨w, r, hw, e, rfl⟩ := tagLen_some hk
      rw [e, List.drop_left]
      apply WithoutTags.tag hw
      apply ih
      have : (b :: t).length = w.length + r.length := by rw [e]; simp
      obtain ⟨x, c, rfl, _⟩ := hw
      simp at this h; omega
    · next hk =>
      exact .keep (tagLen_none hk) (ih t (by simpa using h))

theorem filterHtml_spec (s : Bytes) : WithoutTags s (filterHtml s) := filterHtmlLoop_spec _ s (by omega)

theorem isTag_prefix_unique {w w' s : Bytes} (hw : IsTag w) (hw' : IsTag w') (h : w <+: s) (h' : w' <+: s) : w = w' := by
  rcases tag_cases s with ⟨x, y, rfl, hx⟩ | ⟨_, h2⟩
  · rw [(isTag_front hx hw h).1, (isTag_front hx hw' h').1]
  · exact absurd h (h2 w hw)

theorem Spec.WithoutTags.unique {s o o' : Bytes} (h : WithoutTags s o) (h' : WithoutTags s o') : o = o' := by
  induction h generalizing o' with
  | nil =>
    generalize hs : ([] : Bytes) = s at h'
    cases h' with
    | nil => rfl
    | tag hw _ =>
      obtain ⟨x, c, rfl, _⟩ := hw
      simp at hs
    | keep => simp at hs
  | @tag w rest out hw _ ih =>
    generalize hs : w ++ rest = s at h'
    cases h' with
    | nil =>
      obtain ⟨x, c, rfl, _⟩ := hw
      simp at hs
    | @tag w' rest' _ hw' h2 =>
      have : w = w' := isTag_prefix_unique hw hw' (List.prefix_append w rest) (by rw [hs]; exact List.prefix_append _ _)
      subst this
      rw [List.append_cancel_left_eq] at hs
      subst hs
      exact ih h2
    | keep hn _ => exact absurd (by rw [← hs]; exact List.prefix_append w rest) (hn w hw)
  | @keep b rest out hn _ ih =>
    generalize hs : b :: rest = s at h'
    cases h' with
    | nil => simp at hs
    | @tag w' rest' _ hw' h2 => exact absurd (by rw [hs]; exact List.prefix_append _ _) (hn w' hw')
    | keep _ h2 =>
      obtain ⟨rfl, rfl⟩ := List.cons.inj hs
      rw [ih h2]

theorem Spec.WithoutTags.sublist {s o : Bytes} (h : WithoutTags s o) : o.Sublist s := by
  induction h with
  | nil => exact .slnil
  | tag _ _ ih => exact List.Sublist.trans ih (List.sublist_append_right _ _)
  | keep _ _ ih => exact ih.cons_cons _

theorem Spec.WithoutTags.of_noTag : ∀ {s : Bytes}, NoTag s → WithoutTags s s := by
  intro s
  induction s with
  | nil => intro _; exact .nil
  | cons b t ih =>
    intro h
    exact .keep (fun w hw hp => h w hw hp.isInfix) (ih fun w hw hi => h w hw (hi.trans (List.suffix_cons b t).isInfix))

/-- A chunk that is not removable is copied up to its `>`. -/
theorem withoutTags_chunk {y : Bytes} : ∀ {x o : Bytes}, (62 : UInt8) ∉ x → (¬ ∃ c, x.getLast? = some c ∧ tagEndByte c = true) →
    WithoutTags (x ++ 62 :: y) o → ∃ o', o = x ++ 62 :: o' := by
  intro x
  induction x with
  | nil =>
    intro o _ _ h
    generalize hs : ([] : Bytes) ++ 62 :: y = s at h
    cases h with
    | nil => simp at hs
    | tag hw _ =>
      obtain ⟨x, c, rfl, _⟩ := hw
      simp at hs
    | @keep b rest out _ _ =>
      obtain ⟨rfl, _⟩ := List.cons.inj hs
      exact ⟨out, rfl⟩
  | cons a x ih =>
    intro o hx hl h
    have hx' : (62 : UInt8) ∉ x := fun h => hx (by simp [h])
    have hl' : ¬ ∃ c, x.getLast? = some c ∧ tagEndByte c = true := by
      rintro ⟨c, h1, h2⟩
      exact hl ⟨c, by rw [List.getLast?_cons, h1]; rfl, h2⟩
    generalize hs : (a :: x) ++ 62 :: y = s at h
    cases h with
    | nil => simp at hs
    | @tag w rest _ hw _ =>
      exfalso
      have ha : a = 60 := by
        obtain ⟨z, c, rfl, _⟩ := hw
        simp at hs
        exact hs.1
      subst ha
      exact hl' (isTag_front (w := w) hx' hw (y := y) (by rw [hs]; exact List.prefix_append _ _)).2
    | @keep b rest out _ h2 =>
      rw [List.cons_append] at hs
      obtain ⟨rfl, rfl⟩ := List.cons.inj hs
      obtain ⟨o', rfl⟩ := ih hx' hl' h2
      exact ⟨o', rfl⟩

theorem Spec.WithoutTags.noTag {s o : Bytes} (h : WithoutTags s o) : NoTag o := by
  induction h with
  | nil =>
    rintro w ⟨x, c, rfl, _⟩ h
    simp at h
  | tag _ _ ih => exact ih
  | @keep b rest out hn hr ih =>
    intro w hw hi
    rcases List.infix_cons_iff.1 hi with hp | hi
    · rcases tag_cases (b :: rest) with ⟨x, y, e, hx⟩ | ⟨h1, h2⟩
      · rw [List.cons_append] at e
        obtain ⟨rfl, rfl⟩ := List.cons.inj e
        have hl : ¬ ∃ c, x.getLast? = some c ∧ tagEndByte c = true := by
          intro hc
          have := tagLen_none_iff.2 hn
          rw [← List.cons_append, tagLen_front hx, if_pos hc] at this
          cases this
        obtain ⟨o', rfl⟩ := withoutTags_chunk hx hl hr
        exact hl (isTag_front hx hw (by simpa using hp)).2
      · rcases tag_cases (b :: out) with ⟨x, y, e, hx⟩ | ⟨h3, h4⟩
        · rw [List.cons_append] at e
          obtain ⟨rfl, rfl⟩ := List.cons.inj e
          have : (62 : UInt8) ∈ rest := hr.sublist.subset (by simp)
          obtain ⟨x', y', e', hx'⟩ := List.eq_append_cons_of_mem this
          subst e'
          have hl : ¬ ∃ c, x'.getLast? = some c ∧ tagEndByte c = true := by
            intro hc
            have := tagLen_none_iff.2 hn
            rw [← List.cons_append, tagLen_front hx', if_pos hc] at this
            cases this
          obtain ⟨o', ho⟩ := withoutTags_chunk hx' hl hr
          rw [ho] at hp
          exact hl (isTag_front hx' hw (by simpa using hp)).2
        · exact h4 w hw hp
    · exact ih w hw hi

/-! ## Digit runs -/

theorem numByte_iff (c : UInt8) : numByte c = true ↔ IsDigit c := by
  revert c
  apply forall_byte
  unfold IsDigit
  decide +kernel

theorem takeWhile_head_ne {p : UInt8 → Bool} {b : UInt8} {t : Bytes} (h : p b = true) : (b :: t).takeWhile p = b :: t.takeWhile p := by
  simp [h]

/-- The first run of a text and the rest. -/
theorem splitNum_step (b : UInt8) (t : Bytes) : ∃ x y,
    (if numByte b then (b :: t).takeWhile numByte else (b :: t).takeWhile fun c => !numByte c) = b :: x ∧ t = x ++ y ∧
    (∀ c ∈ b :: x, numByte c = numByte b) ∧ ∀ c, y.head? = some c → numByte c ≠ numByte b := by
  refine ⟨t.takeWhile (fun c => numByte c == numByte b), t.dropWhile (fun c => numByte c == numByte b), ?_,
    (List.takeWhile_append_dropWhile).symm, ?_, ?_⟩
  · by_cases h : numByte b = true
    · simp [h]
    · simp [Bool.eq_false_iff.2 h]
  · intro c hc
    rcases List.mem_cons.1 hc with rfl | hc
    · rfl
    · simpa using mem_takeWhile hc
  · intro c hc
    have := List.head?_dropWhile_not (fun c => numByte c == numByte b) t
    rw [hc] at this
    simpa using this

/-- The runs in terms of the model's digit test: uniform, and each followed by a run of the other kind. -/
theorem splitNumLoop_spec : ∀ (n : Nat) (s : Bytes), s.length < n →
    (splitNumLoop n s).flatten = s ∧
    (∀ w ∈ splitNumLoop n s, ∃ b x, w = b :: x ∧ ∀ c ∈ w, numByte c = numByte b) ∧
    (∀ a x y b, splitNumLoop n s = a ++ x :: y :: b → ∀ c ∈ x, ∀ c' ∈ y, numByte c ≠ numByte c') ∧
    (∀ w, (splitNumLoop n s).head? = some w → w.head? = s.head?) := by
  intro n
  induction n with
  | zero => intro s h; omega
  | succ n ih =>
    intro s hs
    rcases s with _ | ⟨b, t⟩
    · simp [splitNumLoop]
    obtain ⟨x, y, e1, rfl, h3, h4⟩ := splitNum_step b t
    have e : splitNumLoop (n + 1) (b :: (x ++ y)) = (b :: x) :: splitNumLoop n y := by
      simp only [splitNumLoop]
      rw [e1]
      congr 2
      simp
    obtain ⟨i1, i2, i3, i4⟩ := ih y (by simp at hs; omega)
    rw [e]
    refine ⟨by simp [i1], ?_, ?_, by simp⟩
    · intro w hw
      rcases List.mem_cons.1 hw with rfl | hw
      · exact ⟨b, x, rfl, h3⟩
      · exact i2 w hw
    · intro a u v r h c hc c' hc'
      rcases a with _ | ⟨a0, a⟩
      · rw [List.nil_append] at h
        obtain ⟨rfl, hv⟩ := List.cons.inj h
        obtain ⟨d, z, rfl, h5⟩ := i2 v (by rw [hv]; simp)
        have := i4 (d :: z) (by rw [hv]; rfl)
        have := h4 d (by rw [← this]; rfl)
        rw [h3 c hc, h5 c' hc']
        exact this.symm
      · rw [List.cons_append] at h
        exact i3 a u v r (List.cons.inj h).2 c hc c' hc'

theorem splitNum_spec (s : Bytes) : NumRuns s (splitNum s) := by
  obtain ⟨h1, h2, h3, _⟩ := splitNumLoop_spec (s.length + 1) s (by omega)
  have ne : ∀ w ∈ splitNum s, w ≠ [] := by
    intro w hw
    obtain ⟨b, x, rfl, _⟩ := h2 w hw
    simp
  refine ⟨h1, ne, ?_, ?_⟩
  · intro w hw
    obtain ⟨b, x, rfl, h⟩ := h2 w hw
    by_cases hb : numByte b = true
    · left; intro c hc; rw [← numByte_iff, h c hc]; exact hb
    · right; intro c hc; rw [← numByte_iff, h c hc]; exact hb
  · intro a x y b e
    have key := h3 a x y b e
    obtain ⟨c, x', rfl, hx⟩ := h2 x (by rw [splitNum] at e; rw [e]; simp)
    obtain ⟨c', y', rfl, hy⟩ := h2 y (by rw [splitNum] at e; rw [e]; simp)
    have hk := key c (by simp) c' (by simp)
    have all : ∀ (d : UInt8) (z : Bytes), (∀ f ∈ d :: z, numByte f = numByte d) → ((∀ f ∈ d :: z, IsDigit f) ↔ numByte d = true) := by
      intro d z h
      constructor
      · intro h'; rw [numByte_iff]; exact h' d (by simp)
      · intro h' f hf; rw [← numByte_iff, h f hf]; exact h'
    rw [all c x' hx, all c' y' hy]
    revert hk
    cases numByte c <;> cases numByte c' <;> simp

/-- Only one list consists of the runs of a text. -/
theorem Spec.NumRuns.unique : ∀ {o o' : List Bytes} {s : Bytes}, NumRuns s o → NumRuns s o' → o = o' := by
  have tl : ∀ {x : Bytes} {o : List Bytes}, NumRuns (x ++ o.flatten) (x :: o) → NumRuns o.flatten o := by
    intro x o h
    refine ⟨rfl, fun w hw => h.ne w (by simp [hw]), fun w hw => h.uniform w (by simp [hw]), ?_⟩
    intro a u v b e
    exact h.alternate (x :: a) u v b (by rw [e]; rfl)
  -- the first run ends where the kind changes
  have len : ∀ {x z r : Bytes} {o : List Bytes}, NumRuns (x ++ o.flatten) (x :: o) → x ++ o.flatten = z ++ r → z ≠ [] →
      ((∀ c ∈ z, IsDigit c) ∨ (∀ c ∈ z, ¬ IsDigit c)) → z.length ≤ x.length := by
    intro x z r o h e hz hu
    rcases o with _ | ⟨y, o⟩
    · have := congrArg List.length e; simp at this; omega
    by_contra hlt
    rw [Nat.not_le] at hlt
    have hx := h.ne x (by simp)
    have hy := h.ne y (by simp)
    obtain ⟨a, x', rfl⟩ := List.exists_cons_of_ne_nil hx
    obtain ⟨b, y', rfl⟩ := List.exists_cons_of_ne_nil hy
    have hpre : a :: x' ++ [b] <+: z := by
      rw [List.prefix_iff_eq_take]
      have e3 := congrArg (List.take (a :: x').length.succ) e
      rw [List.take_append_of_le_length (by omega : (a :: x').length.succ ≤ z.length)] at e3
      rw [List.length_append, List.length_singleton, ← Nat.succ_eq_add_one, ← e3]
      simp [List.take_append, List.take_of_length_le]
    have ha : a ∈ z := hpre.subset (by simp)
    have hb : b ∈ z := hpre.subset (by simp)
    have h1 := h.uniform (a :: x') (by simp)
    have h2 := h.uniform (b :: y') (by simp)
    have h3 := h.alternate [] (a :: x') (b :: y') o rfl
    rcases hu with hu | hu
    · have hA : ∀ c ∈ a :: x', IsDigit c := h1.resolve_right fun h => h a (by simp) (hu a ha)
      have hB : ∀ c ∈ b :: y', IsDigit c := h2.resolve_right fun h => h b (by simp) (hu b hb)
      exact h3.1 hA hB
    · have hA : ¬ ∀ c ∈ a :: x', IsDigit c := fun h => hu a ha (h a (by simp))
      have hB : ¬ ∀ c ∈ b :: y', IsDigit c := fun h => hu b hb (h b (by simp))
      exact hA (h3.2 hB)
  intro o
  induction o with
  | nil =>
    intro o' s h h'
    rcases o' with _ | ⟨y, o'⟩
    · rfl
    · have h1 := h.flat
      have h2 := h'.flat
      rw [← h1] at h2
      have := h'.ne y (by simp)
      simp at h2
      exact absurd h2.1 this
  | cons x o ih =>
    intro o' s h h'
    rcases o' with _ | ⟨y, o'⟩
    · have h1 := h.flat
      have h2 := h'.flat
      rw [← h2] at h1
      simp at h1
      exact absurd h1.1 (h.ne x (by simp))
    have e1 : x ++ o.flatten = s := by simpa using h.flat
    have e2 : y ++ o'.flatten = s := by simpa using h'.flat
    have hx : x = y := by
      have l1 : y.length ≤ x.length := len (r := o'.flatten) (by rw [e1]; exact h) (by rw [e1, e2]) (h'.ne y (by simp)) (h'.uniform y (by simp))
      have l2 : x.length ≤ y.length := len (r := o.flatten) (by rw [e2]; exact h') (by rw [e1, e2]) (h.ne x (by simp)) (h.uniform x (by simp))
      rw [← e2] at e1
      exact (List.append_inj e1 (by omega)).1
    subst hx
    have : o.flatten = o'.flatten := by rw [← e2] at e1; simpa using e1
    congr 1
    exact ih (tl (by rw [e1]; exact h)) (by rw [this]; exact tl (by rw [e2]; exact h'))

/-! ## Trims -/

section
variable [U : Unicode]

theorem notPunct_eq (rs : List Rune) : notPunct rs = rs.any wordRune := by
  induction rs with
  | nil => rfl
  | cons r rs ih =>
    simp only [notPunct, List.any_cons, ih, wordRune]
    cases (!U.isSpace r && !U.isPunct r) <;> rfl

theorem trimPunctKeep_eq (s : Bytes) : trimPunctKeep s = (runes s).any wordRune := by
  unfold trimPunctKeep
  rcases runes s with _ | ⟨r, rs⟩
  · rfl
  · simp only [notPunct_eq, List.any_cons]
    by_cases h : wordRune r = true
    · have h' : (!U.isSpace r && !U.isPunct r) = true := h
      simp [h, h']
    · have h' : ¬ (!U.isSpace r && !U.isPunct r) = true := h
      simp only [h, h']
      rcases rs with _ | ⟨r', rs⟩
      · simp
      · simp only [List.length_cons, Bool.false_or, Bool.false_eq_true, if_false]
        cases (r' :: rs).any wordRune <;> simp

theorem trimPunct_eq (l : List Bytes) : trimPunct l = l.filter fun s => (runes s).any wordRune := by
  induction l with
  | nil => rfl
  | cons s l ih => simp only [trimPunct, trimPunctKeep_eq, ih, List.filter_cons]

theorem stop_eq (m : StopMap) (l : List Bytes) : stop m l = l.filter fun v => !m.isStop v && v ≠ [] := by
  induction l with
  | nil => rfl
  | cons s l ih => simp only [stop, ih, List.filter_cons]

theorem filterSymbol_eq (s : Bytes) : filterSymbol s = encode ((runes s).filter plainRune) := by
  rw [filterSymbol, show (fun (new : Bytes) (value : Rune) => if (!U.isSymbol value && !U.isSpace value && !U.isPunct value) = true then
    new ++ encodeRune value else new) = fun new value => if plainRune value then new ++ encodeRune value else new from rfl, foldl_encode]
  simp

theorem filterSymbol_idem (s : Bytes) : filterSymbol (filterSymbol s) = filterSymbol s := by
  simp only [filterSymbol_eq, encode_filter_idem]

theorem trimSymbol_eq (l : List Bytes) : trimSymbol l = (l.map filterSymbol).filter fun v => v ≠ [] := by
  induction l with
  | nil => rfl
  | cons s l ih => simp only [trimSymbol, ih, List.map_cons, List.filter_cons, decide_eq_true_eq]

theorem trim_eq (notStop : Bool) (m : StopMap) (l : List Bytes) :
    trim notStop m l = (l.map filterSymbol).filter fun v => decide (v ≠ []) && (notStop || !m.isStop v) := by
  induction l with
  | nil => rfl
  | cons s l ih =>
    simp only [trim, ih, List.map_cons, List.filter_cons]
    cases notStop <;> cases m.isStop (filterSymbol s) <;> simp

theorem trimPos_eq (notStop : Bool) (m : StopMap) (l : List SegPos) :
    trimPos notStop m l = l.filter fun p => decide (filterSymbol p.text ≠ []) && (notStop || !m.isStop (filterSymbol p.text)) := by
  induction l with
  | nil => rfl
  | cons s l ih =>
    simp only [trimPos, ih, List.filter_cons]
    cases notStop <;> cases m.isStop (filterSymbol s.text) <;> simp

theorem trimPosPunct_eq (notStop : Bool) (m : StopMap) (l : List SegPos) :
    trimPosPunct notStop m l =
      (l.filter (fun p => (notStop || !m.isStop p.text) && ((runes p.text).head?.map wordRune).getD false),
       l.map fun p => if !notStop && m.isStop p.text then { p with text := [] } else p) := by
  induction l with
  | nil => rfl
  | cons p l ih =>
    simp only [trimPosPunct, ih, List.map_cons, List.filter_cons]
    by_cases h : (!notStop && m.isStop p.text) = true
    · have h2 : (notStop || !m.isStop p.text) = false := by revert h; cases notStop <;> cases m.isStop p.text <;> simp
      simp only [h, h2, if_true, runes_nil, Bool.false_and]
      rfl
    · have h2 : (notStop || !m.isStop p.text) = true := by revert h; cases notStop <;> cases m.isStop p.text <;> simp
      simp only [h, h2, Bool.true_and]
      rcases e : runes p.text with _ | ⟨r, rs⟩
      · simp [e]
      · simp only [Bool.false_eq_true, if_false, e, List.head?_cons, Option.map_some, Option.getD_some, wordRune]
        split <;> simp_all

theorem trimOnePos_eq (pos : Bytes) : ∀ (se re : List SegPos), trimOnePos pos se re = re ++ se.filter fun p => p.pos ≠ pos := by
  intro se
  induction se with
  | nil => intro re; simp [trimOnePos]
  | cons p se ih =>
    intro re
    simp only [trimOnePos, ih, List.filter_cons]
    by_cases h : p.pos = pos <;> simp [h]

theorem trimWithPosLoop_eq : ∀ (ps : List Bytes) (se re : List SegPos),
    trimWithPosLoop ps false se re = re.filter fun p => p.pos ∉ ps := by
  intro ps
  induction ps with
  | nil => intro se re; simp [trimWithPosLoop]
  | cons pos ps ih =>
    intro se re
    simp only [trimWithPosLoop, ih, trimOnePos_eq, List.nil_append, List.filter_filter, Bool.false_eq_true, if_false]
    apply List.filter_congr
    intro p _
    by_cases h : p.pos = pos <;> simp [h]

theorem trimWithPos_eq (se : List SegPos) (ps : List Bytes) (h : ps ≠ []) :
    trimWithPos se ps = se.filter fun p => p.pos ∉ ps := by
  rcases ps with _ | ⟨pos, ps⟩
  · exact absurd rfl h
  · simp only [trimWithPos, trimWithPosLoop, if_true, trimWithPosLoop_eq, trimOnePos_eq, List.nil_append, List.filter_filter]
    apply List.filter_congr
    intro p _
    by_cases h : p.pos = pos <;> simp [h]

theorem filterEmoji_eq (s : Bytes) : filterEmoji s = encode ((runes s).filter fun r => decide (r < 0x10000)) := by
  have h := foldl_encode (fun r => decide ((decodeRune (encodeRune r)).2 ≤ 3)) (runes s) []
  simp only [decide_eq_true_eq, List.nil_append] at h
  rw [filterEmoji, h]
  congr 1
  apply List.filter_congr
  intro r hr
  have hv := runes_valid s r hr
  have e := decodeRune_encodeRune r hv []
  rw [List.append_nil] at e
  rw [e, encodeRune_length r hv]
  simp only [decide_eq_decide]
  (repeat' split) <;> omega

theorem filterLang_some (s lang : Bytes) (table : Rune → Bool) (h : U.script lang = some table) :
    filterLang s lang = some (encode ((runes s).filter fun r => U.isLetter r || table r)) := by
  have gen : ∀ (rs : List Rune) (acc : Bytes), rs.foldlM (langStep lang) acc =
      some (acc ++ encode (rs.filter fun r => U.isLetter r || table r)) := by
    intro rs
    induction rs with
    | nil => intro acc; simp [encode]
    | cons r rs ih =>
      intro acc
      rw [List.foldlM_cons, List.filter_cons]
      simp only [langStep, h]
      by_cases h1 : U.isLetter r = true
      · simp only [h1, if_true, Bool.true_or]
        rw [Option.bind_eq_bind, Option.bind_some, ih]
        simp [encode]
      · simp only [h1, Bool.false_eq_true, if_false]
        rw [Option.bind_eq_bind, Option.bind_some, ih]
        by_cases h2 : table r = true
        · simp [h2, encode]
        · simp [eq_false_of_ne_true h2]
  simpa [filterLang] using gen (runes s) []

theorem filterLang_none (s lang : Bytes) (h : U.script lang = none) :
    filterLang s lang = if (runes s).all U.isLetter then some (encode (runes s)) else none := by
  have gen : ∀ (rs : List Rune) (acc : Bytes), rs.foldlM (langStep lang) acc =
      if rs.all U.isLetter then some (acc ++ encode rs) else none := by
    intro rs
    induction rs with
    | nil => intro acc; simp [encode]
    | cons r rs ih =>
      intro acc
      rw [List.foldlM_cons, List.all_cons]
      simp only [langStep, h]
      by_cases h1 : U.isLetter r = true
      · simp only [h1, if_true, Bool.true_and]
        rw [Option.bind_eq_bind, Option.bind_some, ih]
        simp [encode]
      · simp [eq_false_of_ne_true h1]
  simpa [filterLang] using gen (runes s) []

theorem foldl_append_eq {α : Type} (f : Rune → List α) : ∀ (rs : List Rune) (acc : List α),
    rs.foldl (fun new v => new ++ f v) acc = acc ++ rs.flatMap f := by
  intro rs
  induction rs with
  | nil => simp
  | cons r rs ih => intro acc; simp [ih]

theorem range_eq (s : Bytes) : range s = (runes s).map encodeRune := by
  rw [range, foldl_append_eq (fun v => [encodeRune v])]
  simp
  induction runes s with
  | nil => rfl
  | cons r rs ih => simp [ih]

theorem rangeText_eq (s : Bytes) : rangeText s = (runes s).flatMap fun r => encodeRune r ++ [32] := by
  rw [rangeText, foldl_append_eq (fun v => encodeRune v ++ str " ")]
  rfl

end

end Gse
