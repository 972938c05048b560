import Verif.Props.Output
import Verif.Props.Load
import Verif.Proofs.TrimCut
import Verif.Proofs.Case

/-! # Whole characters, and how many items -/

namespace Gse
open Spec

set_option linter.unusedSectionVars false

/-! ## Characters of well-formed text -/

theorem validText_chars {s : Bytes} (h : ValidText s) : ∀ u ∈ chars s, ∃ r, validRune r = true ∧ u = encodeRune r := by
  induction s using chars_induction with
  | nil => simp
  | step p hp ih =>
    obtain ⟨h1, h2⟩ := validText_step h hp
    intro u hu
    rw [chars_cons p hp] at hu
    rcases List.mem_cons.mp hu with rfl | hu
    · exact ⟨_, decodeRune_valid p, h1.symm⟩
    · exact ih h2 u hu

theorem validText_flatten {l : List Bytes} (h : ∀ w ∈ l, ValidText w) : ValidText l.flatten := by
  induction l with
  | nil => rfl
  | cons w l ih => exact validText_append (h w (by simp)) (ih fun w hw => h w (by simp [hw]))

variable [Unicode]

theorem validText_lower {u : Bytes} {r : Rune} (h : u = encodeRune r) : ValidText (u.map lowerAscii) := by
  subst h
  by_cases hr : r < 128
  · refine validText_ascii fun b hb => ?_
    have e : encodeRune r = [UInt8.ofNat r] := by simp [encodeRune, hr]
    rw [e] at hb
    simp only [List.map_cons, List.map_nil, List.mem_singleton] at hb
    subst hb
    have h2 : (UInt8.ofNat r).toNat = r := by simp; omega
    rw [lowerAscii_toNat]
    split <;> omega
  · have e : (encodeRune r).map lowerAscii = encodeRune r := by
      have h1 : ∀ b ∈ encodeRune r, lowerAscii b = b := fun b hb => lowerAscii_of_ge (by have := encodeRune_high hr b hb; omega)
      rw [List.map_congr_left h1, List.map_id']
    rw [e, ← show encode [r] = encodeRune r by simp [encode]]
    exact validText_encode_any [r]


theorem normChar_length (cfg : SplitCfg) (u : Bytes) : (normChar cfg u).length = u.length := by
  unfold normChar; split <;> simp

theorem normChars_length (cfg : SplitCfg) (us : List Bytes) : (us.flatMap (normChar cfg)).length = us.flatten.length := by
  induction us with
  | nil => rfl
  | cons u us ih => simp [ih, normChar_length]

theorem validText_norm (cfg : SplitCfg) {s : Bytes} (h : ValidText s) : ∀ u ∈ chars s, ValidText (normChar cfg u) := by
  intro u hu
  obtain ⟨r, _, e⟩ := validText_chars h u hu
  unfold normChar
  split
  · exact validText_lower e
  · rw [e, ← show encode [r] = encodeRune r by simp [encode]]
    exact validText_encode_any [r]

/-- The words of a well-formed text are well-formed. -/
theorem split_valid (cfg : SplitCfg) {s : Bytes} (h : ValidText s) : ∀ w ∈ splitTextToWords cfg s, ValidText w := by
  intro w hw
  obtain ⟨gs, hg, e⟩ := C02_split_spec cfg s
  rw [e] at hw
  obtain ⟨g, hgm, rfl⟩ := List.mem_map.mp hw
  rw [List.flatMap_def]
  refine validText_flatten fun x hx => ?_
  obtain ⟨u, hu, rfl⟩ := List.mem_map.mp hx
  exact validText_norm cfg h u (by rw [← hg.cover]; exact List.mem_flatten.mpr ⟨g, hgm, hu⟩)

/-- A text has no more words than characters. -/
theorem split_count (cfg : SplitCfg) (s : Bytes) : (splitTextToWords cfg s).length ≤ (runes s).length := by
  obtain ⟨gs, hg, e⟩ := C02_split_spec cfg s
  rw [e, runes_eq_chars, List.length_map, List.length_map, ← hg.cover]
  have : ∀ l : List (List Bytes), (∀ g ∈ l, g ≠ []) → l.length ≤ l.flatten.length := by
    intro l hl
    induction l with
    | nil => simp
    | cons g l ih =>
      have h1 := List.length_pos_iff.mpr (hl g (by simp))
      have h2 := ih fun g hg => hl g (by simp [hg])
      simp only [List.flatten_cons, List.length_cons, List.length_append]; omega
  refine this gs fun g hgm => ?_
  rcases hg.kind g hgm with ⟨u, rfl, _⟩ | ⟨h, _⟩
  · simp
  · exact h

theorem norm_flatten_length (cfg : SplitCfg) (ga : List (List Bytes)) :
    ((ga.map fun g => g.flatMap (normChar cfg)).flatten).length = ga.flatten.flatten.length := by
  rw [← normChars_length cfg ga.flatten]
  congr 1
  induction ga with
  | nil => rfl
  | cons g ga ih => rw [List.map_cons, List.flatten_cons, ih, List.flatten_cons, List.flatMap_append]

/-- Some of the words in a row take up the bytes of some of the characters in a row. -/
theorem split_boundary (cfg : SplitCfg) (s : Bytes) (w1 w2 w3 : List Bytes) (h : splitTextToWords cfg s = w1 ++ w2 ++ w3) :
    ∃ A B C : List Bytes, chars s = A ++ B ++ C ∧ w1.flatten.length = A.flatten.length ∧ w2.flatten.length = B.flatten.length := by
  obtain ⟨gs, hg, e⟩ := C02_split_spec cfg s
  rw [e] at h
  obtain ⟨gab, gc, rfl, h2, rfl⟩ := List.map_eq_append_iff.mp h
  obtain ⟨ga, gb, rfl, rfl, rfl⟩ := List.map_eq_append_iff.mp h2
  exact ⟨ga.flatten, gb.flatten, gc.flatten, by rw [← hg.cover]; simp, norm_flatten_length cfg ga, norm_flatten_length cfg gb⟩

/-! ## Counting -/

omit [Unicode] in
/-- Well-formed items that are not empty are no more than the characters. -/
theorem count_valid {out : List Bytes} (h : ∀ w ∈ out, w ≠ [] ∧ ValidText w) : out.length ≤ (runes out.flatten).length := by
  rw [runes_flatten_valid fun w hw => (h w hw).2]
  induction out with
  | nil => simp
  | cons w out ih =>
    have h1 := ih fun w hw => h w (by simp [hw])
    have h2 : 0 < (runes w).length := by
      rw [List.length_pos_iff]
      intro e
      have := (h w (by simp)).2
      rw [ValidText, e] at this
      exact (h w (by simp)).1 this.symm
    simp only [List.flatMap_cons, List.length_cons, List.length_append]; omega

variable {F D : Type} [F64 F] [F32 D] [Narrow F D]

theorem tiles_words {d : Dictionary F D} : ∀ {segs : List Seg} {ts : List (Token F D)},
    List.Forall₂ (fun (g : Seg) t => d.deref g.tok = some t ∧ g.stop = g.start + t.text.flatten.length) segs ts →
    ∀ {p q : Nat}, Tiles p q segs → ∀ g ∈ segs, ∃ t ∈ ts, d.deref g.tok = some t ∧ g.stop = g.start + t.text.flatten.length ∧
      ∃ pre post, wordsOf ts = pre ++ t.text ++ post ∧ g.start = p + pre.flatten.length := by
  intro segs ts h
  induction h with
  | nil => intro p q _ g hg; simp at hg
  | @cons s t segs ts h1 h2 ih =>
    intro p q ht g hg
    cases ht with
    | cons e1 e2 e3 =>
      rcases List.mem_cons.1 hg with rfl | hg
      · exact ⟨t, by simp, h1.1, h1.2, [], wordsOf ts, by simp [wordsOf], by simp [e1]⟩
      · obtain ⟨t', h3, h4, h5, pre, post, h6, h7⟩ := ih e3 g hg
        refine ⟨t', by simp [h3], h4, h5, t.text ++ pre, post, ?_, ?_⟩
        · have : wordsOf (t :: ts) = t.text ++ wordsOf ts := by simp [wordsOf]
          rw [this, h6]; simp
        · rw [h7, h1.2, e1, List.flatten_append, List.length_append]; omega

/-! ## Sub-segments -/

/-- What a token was cut into. -/
def Parts (d : Dictionary F D) (t : Token F D) : Prop := t.segments = [] ∨ ∃ full : List (Seg × List Bytes), 2 ≤ full.length ∧
  (full.map (·.2)).flatten = t.text ∧ (∀ p ∈ full, (d.deref p.1.tok).map (·.text) = some p.2 ∧ p.2 ≠ [] ∧ p.2.length < t.text.length) ∧
  t.segments = (full.filter fun p => !kanaWord p.2).map (·.1)

def PartsInv (d : Dictionary F D) : Prop := ∀ t ∈ d.tokens, Parts d t

theorem parts_mono {d d' : Dictionary F D} (h : ∀ r t, d.deref r = some t → d'.deref r = some t) {t : Token F D} (hs : Parts d t) : Parts d' t := by
  rcases hs with hs | ⟨full, h1, h2, h3, h4⟩
  · exact .inl hs
  · refine .inr ⟨full, h1, h2, fun p hp => ⟨?_, (h3 p hp).2⟩, h4⟩
    obtain ⟨t', ht, e⟩ := Option.map_eq_some_iff.mp (h3 p hp).1
    rw [h _ _ ht]; simp [e]

theorem parts_add {d : Dictionary F D} (h : PartsInv d) (tok : Token F D) (ht : tok.segments = []) : PartsInv (d.addToken tok).1 := by
  intro t hm
  rcases addToken_mem d tok t hm with hm | rfl
  · exact parts_mono (addToken_deref d tok) (h t hm)
  · exact .inl ht

theorem parts_tokens {d d' : Dictionary F D} (h : PartsInv d) (e : d'.tokens = d.tokens) : PartsInv d' := by
  intro t hm
  rw [e] at hm
  refine parts_mono ?_ (h t hm)
  intro r t hr
  cases r with
  | pseudo w => exact hr
  | idx i => simpa [Dictionary.deref, e] using hr

theorem parts_calc [UnicodeOK] {cfg : SplitCfg} {ops : List (DictOp F)} {d d' : Dictionary F D} (hr : runOps cfg ops Dictionary.new = some d)
    (hc : calcToken d = some d') : PartsInv d' := by
  intro t ht
  rcases C15_subsegments cfg ops d d' hr hc t ht with ⟨_, h⟩ | ⟨full, h1, _, h2, h3, h4⟩
  · exact .inl h
  · exact .inr ⟨full, h1, h2, fun p hp => ⟨(h3 p hp).1, (h3 p hp).2.1, (h3 p hp).2.2.1⟩, h4⟩

theorem parts_step [UnicodeOK] {cfg : SplitCfg} {pre : List (DictOp F)} {d d' : Dictionary F D} (hp : runOps cfg pre Dictionary.new = some d)
    (h : PartsInv d) {op : DictOp F} (hs : op.step cfg d = some d') : PartsInv d' := by
  cases op with
  | add t f p =>
    simp [DictOp.step] at hs
    subst hs
    exact parts_add h _ rfl
  | addForce t f p =>
    simp only [DictOp.step, segAddTokenForce, Option.map_map, Option.map_eq_some_iff] at hs
    obtain ⟨d2, h1, h2⟩ := hs
    simp at h2; subst h2
    refine parts_calc (cfg := cfg) (ops := pre ++ [.add t f p]) ?_ h1
    rw [runOps_append, hp]
    simp [runOps, DictOp.step]
  | remove t =>
    simp only [DictOp.step, segRemoveToken, Option.map_eq_some_iff] at hs
    obtain ⟨⟨d2, e⟩, h1, h2⟩ := hs
    simp at h2; subst h2
    exact parts_tokens h (removeToken_tokens h1)
  | reAdd t f p =>
    simp only [DictOp.step, segReAddToken, Option.map_eq_some_iff] at hs
    obtain ⟨⟨d2, e⟩, h1, h2⟩ := hs
    simp at h2; subst h2
    cases hr : d.removeToken (toToken cfg t f p) with
    | none => simp [hr] at h1
    | some x =>
      obtain ⟨d3, e3⟩ := x
      have h3 := parts_tokens h (removeToken_tokens hr)
      rw [hr] at h1
      cases e3 with
      | true => simp at h1; rw [← h1.1]; exact h3
      | false =>
        simp at h1
        have : d2 = (d3.addToken (toToken cfg t f p)).1 := by rw [h1]
        rw [this]
        exact parts_add h3 _ rfl
  | recalc => exact parts_calc hp hs

theorem parts_run [UnicodeOK] {cfg : SplitCfg} (ops : List (DictOp F)) : ∀ {pre : List (DictOp F)} {d d' : Dictionary F D},
    runOps cfg pre Dictionary.new = some d → PartsInv d → runOps cfg ops d = some d' → PartsInv d' := by
  induction ops with
  | nil => intro pre d d' _ h hr; simp [runOps] at hr; subst hr; exact h
  | cons op ops ih =>
    intro pre d d' hp h hr
    simp only [runOps, Option.bind_eq_some_iff] at hr
    obtain ⟨d1, h1, h2⟩ := hr
    refine ih (pre := pre ++ [op]) ?_ (parts_step hp h h1) h2
    rw [runOps_append, hp]
    simp [runOps, h1]

theorem parts_reachable [UnicodeOK] {cfg : SplitCfg} {ops : List (DictOp F)} {d : Dictionary F D}
    (hr : runOps cfg ops Dictionary.new = some d) : PartsInv d :=
  parts_run ops (pre := []) rfl (by intro t ht; simp [Dictionary.new] at ht) hr

theorem deref_parts {d : Dictionary F D} (h : PartsInv d) {r : TokRef} {t : Token F D} (hr : d.deref r = some t) : Parts d t := by
  cases r with
  | idx i => exact h t (List.mem_of_getElem? hr)
  | pseudo w =>
    simp [Dictionary.deref] at hr
    subst hr
    exact .inl rfl

/-! ## Expansion -/

theorem sum_flatten (full : List (Seg × List Bytes)) : (full.map fun p => p.2.length).sum = (full.map (·.2)).flatten.length := by
  induction full with
  | nil => rfl
  | cons p full ih => simp [ih]

theorem sum_bytes (full : List (Seg × List Bytes)) : (full.map fun p => p.2.flatten.length).sum = (full.map (·.2)).flatten.flatten.length := by
  induction full with
  | nil => rfl
  | cons p full ih => simp only [List.map_cons, List.sum_cons, ih, List.flatten_cons, List.flatten_append, List.length_append]

theorem sum_sublist (f : Seg × List Bytes → Nat) {a b : List (Seg × List Bytes)} (h : a.Sublist b) : (a.map f).sum ≤ (b.map f).sum := by
  induction h with
  | slnil => simp
  | cons x _ ih => simp; omega
  | cons_cons x _ ih => simp; omega

theorem dropWhile_parts (f : Seg → Bool) : ∀ l : List (Seg × List Bytes), ∃ rest, rest.Sublist l ∧ (l.map (·.1)).dropWhile f = rest.map (·.1) ∧
    ∀ p r, rest = p :: r → f p.1 = false
  | [] => ⟨[], .slnil, rfl, by simp⟩
  | p :: l => by
    by_cases h : f p.1 = true
    · obtain ⟨rest, h1, h2, h3⟩ := dropWhile_parts f l
      exact ⟨rest, h1.cons p, by rw [List.map_cons, List.dropWhile_cons_of_pos h, h2], h3⟩
    · refine ⟨p :: l, .refl _, by rw [List.map_cons, List.dropWhile_cons_of_neg h], ?_⟩
      rintro q r e
      obtain ⟨rfl, rfl⟩ := List.cons.inj e
      simpa using h

theorem infix_part {full : List (Seg × List Bytes)} {p : Seg × List Bytes} (h : p ∈ full) : p.2 <:+: (full.map (·.2)).flatten := by
  obtain ⟨a, b, rfl⟩ := List.append_of_mem h
  exact ⟨(a.map (·.2)).flatten, (b.map (·.2)).flatten, by simp⟩

/-- What the expansion of a token can be. -/
structure Bounded (t : Token F D) (o : List SegPos) : Prop where
  count : o.length ≤ max 1 (2 * t.text.length - 3)
  words : ∀ x ∈ o, ∃ ws : List Bytes, ws ≠ [] ∧ ws <:+: t.text ∧ x.text = ws.flatten
  bytes : (o.map fun x => x.text.length).sum ≤ t.text.length * t.text.flatten.length

theorem expand_bounded {d : Dictionary F D} (h : PartsInv d) : ∀ (n : Nat) (r : TokRef) (o : List SegPos) (t : Token F D),
    tokenToPos d n r = some o → d.deref r = some t → t.text ≠ [] → Bounded t o := by
  intro n
  induction n with
  | zero => intro r o t h; simp [tokenToPos] at h
  | succ n ih =>
    intro r o t ho ht hne
    obtain ⟨t', os, e1, e2, e3⟩ := C18_exact d n r o ho
    rw [ht] at e1; cases e1
    have hL := List.length_pos_iff.mpr hne
    have self : ∃ ws : List Bytes, ws ≠ [] ∧ ws <:+: t.text ∧ t.text.flatten = ws.flatten := ⟨t.text, hne, List.infix_rfl, rfl⟩
    have base : os = [] → Bounded t o := by
      rintro rfl
      subst e3
      refine ⟨by simp only [List.flatten_nil, List.nil_append, List.length_singleton]; omega, ?_, ?_⟩
      · intro x hx
        simp only [List.flatten_nil, List.nil_append, List.mem_singleton] at hx
        subst hx; exact self
      · simp only [List.flatten_nil, List.nil_append, List.map_cons, List.map_nil, List.sum_cons, List.sum_nil, Nat.add_zero]
        exact Nat.le_mul_of_pos_left _ hL
    rcases deref_parts h ht with hs | ⟨full, p1, p2, p3, p4⟩
    · rw [hs] at e2
      exact base (by cases e2; rfl)
    · obtain ⟨rest, s1, s2, s3⟩ := dropWhile_parts (terminalSeg d) (full.filter fun p => !kanaWord p.2)
      rw [p4, s2, List.forall₂_map_left_iff] at e2
      have hmem : ∀ p ∈ rest, p ∈ full ∧ kanaWord p.2 = false := by
        intro p hp
        have := List.mem_filter.mp (s1.subset hp)
        exact ⟨this.1, by simpa using this.2⟩
      have hsub : rest.Sublist full := s1.trans List.filter_sublist
      have key : ∀ p o', p ∈ rest → tokenToPos d n p.1.tok = some o' → ∃ t', d.deref p.1.tok = some t' ∧ t'.text = p.2 ∧ Bounded t' o' := by
        intro p o' hp ho'
        obtain ⟨q1, q2, _⟩ := p3 p (hmem p hp).1
        obtain ⟨t', q3, q4⟩ := Option.map_eq_some_iff.mp q1
        exact ⟨t', q3, q4, ih _ _ _ ho' q3 (by rw [q4]; exact q2)⟩
      -- sums over all sub-segments shown
      have sums : ∀ {rest : List (Seg × List Bytes)} {os : List (List SegPos)}, List.Forall₂ (fun p o' => tokenToPos d n p.1.tok = some o') rest os →
          (∀ p o', p ∈ rest → tokenToPos d n p.1.tok = some o' → ∃ t', d.deref p.1.tok = some t' ∧ t'.text = p.2 ∧ Bounded t' o') →
          (∀ p ∈ rest, p ∈ full) →
          os.flatten.length ≤ (rest.map fun p => 2 * p.2.length - 1).sum ∧
          (∀ x ∈ os.flatten, ∃ ws : List Bytes, ws ≠ [] ∧ ws <:+: t.text ∧ x.text = ws.flatten) ∧
          (os.flatten.map fun x => x.text.length).sum ≤ (rest.map fun p => (t.text.length - 1) * p.2.flatten.length).sum := by
        intro rest os h2
        induction h2 with
        | nil => intro _ _; simp
        | @cons p o' rest os hpo _ ih2 =>
          intro hk hf
          obtain ⟨t', q1, q2, q3⟩ := hk p o' (by simp) hpo
          obtain ⟨i1, i2, i3⟩ := ih2 (fun p o' hp => hk p o' (by simp [hp])) (fun p hp => hf p (by simp [hp]))
          obtain ⟨_, f2, f3⟩ := p3 p (hf p (by simp))
          have hlp := List.length_pos_iff.mpr f2
          refine ⟨?_, ?_, ?_⟩
          · have := q3.count
            rw [q2] at this
            simp only [List.flatten_cons, List.length_append, List.map_cons, List.sum_cons]
            omega
          · intro x hx
            rw [List.flatten_cons, List.mem_append] at hx
            rcases hx with hx | hx
            · obtain ⟨ws, w1, w2, w3⟩ := q3.words x hx
              refine ⟨ws, w1, ?_, w3⟩
              rw [q2] at w2
              rw [← p2]
              exact w2.trans (infix_part (hf p (by simp)))
            · exact i2 x hx
          · have := q3.bytes
            rw [q2] at this
            have h5 : p.2.length * p.2.flatten.length ≤ (t.text.length - 1) * p.2.flatten.length := Nat.mul_le_mul_right _ (by omega)
            simp only [List.flatten_cons, List.map_append, List.sum_append, List.map_cons, List.sum_cons]
            omega
      have hfull : (full.map fun p => 2 * p.2.length - 1).sum + full.length = 2 * t.text.length := by
        rw [← p2, ← sum_flatten]
        have : ∀ l : List (Seg × List Bytes), (∀ p ∈ l, p.2 ≠ []) → (l.map fun p => 2 * p.2.length - 1).sum + l.length = 2 * (l.map fun p => p.2.length).sum := by
          intro l hl
          induction l with
          | nil => rfl
          | cons p l ih =>
            have h1 := List.length_pos_iff.mpr (hl p (by simp))
            have h2 := ih fun p hp => hl p (by simp [hp])
            simp only [List.map_cons, List.sum_cons, List.length_cons]
            omega
        exact this full fun p hp => (p3 p hp).2.1
      cases hrest : rest with
      | nil => rw [hrest] at e2; exact base (by cases e2; rfl)
      | cons p rest' =>
        rw [hrest] at e2
        cases e2 with
        | @cons _ o1 _ os' hpo hrs =>
          obtain ⟨t1, q1, q2, q3⟩ := key p o1 (by simp [hrest]) hpo
          have hsm := sums hrs (fun p o' hp => key p o' (by simp [hrest, hp])) (fun q hq => (hmem q (by simp [hrest, hq])).1)
          have hsa := sums (.cons hpo hrs) (fun p o' hp => key p o' (by rw [hrest]; exact hp)) (fun q hq => (hmem q (by rw [hrest]; exact hq)).1)
          -- the first one shown has two words at least
          have htwo : 2 ≤ p.2.length := by
            have hpf := (hmem p (by simp [hrest])).1
            have hpk := (hmem p (by simp [hrest])).2
            have hpne := List.length_pos_iff.mpr (p3 p hpf).2.1
            have hterm := s3 p rest' hrest
            simp only [terminalSeg, q1] at hterm
            by_contra hlt
            have h1 : p.2.length = 1 := by omega
            obtain ⟨w, hw⟩ := List.length_eq_one_iff.mp h1
            have hseg : t1.segments = [] := by
              rcases deref_parts h q1 with hs | ⟨full', a1, a2, a3, _⟩
              · exact hs
              · exfalso
                have : full'.length ≤ (full'.map (·.2)).flatten.length := by
                  rw [← sum_flatten]
                  clear * - a3
                  induction full' with
                  | nil => simp
                  | cons q l ih =>
                    have := List.length_pos_iff.mpr (a3 q (by simp)).2.1
                    have := ih fun p hp => a3 p (by simp [hp])
                    simp only [List.map_cons, List.sum_cons, List.length_cons]
                    omega
                rw [a2, q2] at this
                omega
            rw [hw] at hpk
            rw [hseg, q2, hw] at hterm
            simp only [kanaWord] at hpk
            simp [hpk] at hterm
          subst e3
          refine ⟨?_, ?_, ?_⟩
          · have h1 := q3.count
            rw [q2] at h1
            have h2 := sum_sublist (fun p => 2 * p.2.length - 1) hsub
            rw [hrest] at h2
            simp only [List.map_cons, List.sum_cons] at h2
            have h3 := hsm.1
            simp only [List.flatten_cons, List.length_append, List.length_cons, List.length_nil]
            omega
          · intro x hx
            rw [List.mem_append] at hx
            rcases hx with hx | hx
            · exact hsa.2.1 x hx
            · rw [List.mem_singleton.mp hx]; exact self
          · have h2 := sum_sublist (fun p => (t.text.length - 1) * p.2.flatten.length) hsub
            rw [hrest] at h2
            have h3 : (full.map fun p => (t.text.length - 1) * p.2.flatten.length).sum = (t.text.length - 1) * t.text.flatten.length := by
              rw [← p2, ← sum_bytes]
              generalize (full.map (·.2)).flatten.length - 1 = k
              clear * -
              induction full with
              | nil => rfl
              | cons p l ih => simp only [List.map_cons, List.sum_cons, ih, Nat.mul_add]
            have h4 := hsa.2.2
            have h5 : (t.text.length - 1) * t.text.flatten.length + t.text.flatten.length = t.text.length * t.text.flatten.length := by
              rw [← Nat.succ_mul]; congr 1; omega
            rw [List.map_append, List.sum_append]
            simp only [List.map_cons, List.map_nil, List.sum_cons, List.sum_nil, Nat.add_zero] at h2 h4 ⊢
            omega

end Gse
