import Verif.Proofs.PosSplit
import Verif.Proofs.PosViterbi
import Verif.Proofs.Trim

/-! # Words from states, and `cutDetail` -/

namespace Gse
open Spec

set_option linter.unusedSectionVars false
set_option linter.unusedSimpArgs false

variable {F : Type} [F64 F]

/-! ## Words from states -/

theorem posTag_of {t : Nat} {a : Tag} (h : StateTag t a) : posTag t = some a := by
  unfold StateTag at h
  unfold posTag
  rw [h]
  cases a <;> rfl

theorem stateTag_inj {t : Nat} {a b : Tag} (h : StateTag t a) (h' : StateTag t b) : a = b := by
  have := posTag_of h
  rw [posTag_of h'] at this
  simpa using this.symm

theorem endsState_iff {t : Nat} {a : Tag} (h : StateTag t a) : EndsState t ↔ a = .E ∨ a = .S := by
  unfold EndsState
  constructor
  · rintro (h' | h')
    · exact .inl (stateTag_inj h h')
    · exact .inr (stateTag_inj h h')
  · rintro (rfl | rfl)
    · exact .inl h
    · exact .inr h

/-- Neighbouring states are legal. -/
def LegalStates (x y : Nat) : Prop := ∃ a b, StateTag x a ∧ StateTag y b ∧ Legal a b

/-- The words with the leftover one, as `posAssemble` makes them. -/
def posFinish (T : PosTables F) (rs : List Rune) (ts : List Nat) (r : List SegPos × Nat) : Option (List SegPos) :=
  if r.2 < rs.length then (ts[r.2]?.bind fun t => T.poss[t % 100]?).map fun p => r.1 ++ [⟨encode (rs.drop r.2), p⟩] else some r.1

theorem posAssemble_eq (T : PosTables F) (rs : List Rune) (ts : List Nat) :
    posAssemble T rs ts = (posWords T rs 0 rs ts 0 0).bind (posFinish T rs ts) := by
  unfold posAssemble
  cases posWords T rs 0 rs ts 0 0 <;> rfl

theorem posFinish_cons (T : PosTables F) (rs : List Rune) (ts : List Nat) (x : SegPos) (r : List SegPos × Nat) :
    posFinish T rs ts (x :: r.1, r.2) = (posFinish T rs ts r).map (x :: ·) := by
  unfold posFinish
  simp only
  split
  · rw [Option.map_map]; congr 1
  · rfl

theorem posWords_legal (T : PosTables F) (rs : List Rune) (ts0 : List Nat) (cs : List Rune) (ts pt : List Nat) (i begin' next : Nat)
    (hcs : rs.drop i = cs)
    (hi : i ≤ rs.length) (hlen : ts.length = cs.length) (hc : List.IsChain LegalStates ts) (hn : next ≤ i) (hpt : pt.length = i - next)
    (hpe : ∀ t ∈ pt, ¬ EndsState t) (ht0 : ts0.drop next = pt ++ ts)
    (htag : ∀ t ∈ pt ++ ts, (∃ a, StateTag t a) ∧ t % 100 < T.poss.length)
    (hb : (next < i ∧ begin' = next ∧ ∀ t ∈ ts.head?, StateTag t .M ∨ StateTag t .E) ∨
      (next = i ∧ (begin' = i ∨ ∀ t ∈ ts.head?, StateTag t .B ∨ StateTag t .S))) :
    ∃ ws, StateWords T.poss (rs.drop next) (pt ++ ts) ws ∧
      (posWords T rs i cs ts begin' next).bind (posFinish T rs ts0) = some ws := by
  induction ts generalizing cs pt i begin' next with
  | nil =>
    have hcn : cs = [] := List.length_eq_zero_iff.1 (by simpa using hlen.symm)
    subst hcn
    have hi' : i = rs.length := by
      have := congrArg List.length hcs; simp at this; omega
    rw [List.append_nil] at ht0 htag ⊢
    simp only [posWords, Option.bind_some]
    unfold posFinish
    by_cases hlt : next < rs.length
    · cases pt with
      | nil => simp at hpt; omega
      | cons t pt =>
        have e1 : ts0[next]? = some t := by
          have := congrArg List.head? ht0
          rw [List.head?_drop] at this
          simpa using this
        have e2 : T.poss[t % 100]? = some (T.poss[t % 100]'(htag t (by simp)).2) := List.getElem?_eq_getElem _
        refine ⟨_, StateWords.rest (by simp at hpt ⊢; omega) hpe e2, ?_⟩
        simp [hlt, e1, e2]
    · have : pt = [] := List.length_eq_zero_iff.1 (by omega)
      subst this
      refine ⟨[], ?_, by simp [hlt]⟩
      rw [List.drop_eq_nil_of_le (by omega)]; exact StateWords.nil
  | cons t ts ih =>
    cases cs with
    | nil => simp at hlen
    | cons c cs =>
    have hlen' : ts.length = cs.length := by simpa using hlen
    have hcs' := drop_of_drop_cons hcs
    have hi' : i + 1 ≤ rs.length := by
      have := congrArg List.length hcs; simp at this; omega
    have hc' : List.IsChain LegalStates ts := hc.tail
    obtain ⟨⟨a, ha⟩, hposs⟩ := htag t (by simp)
    have e2 : T.poss[t % 100]? = some (T.poss[t % 100]'hposs) := List.getElem?_eq_getElem _
    generalize T.poss[t % 100]'hposs = p at e2
    have hhead : ∀ u ∈ ts.head?, ∃ b, StateTag u b ∧ Legal a b := by
      intro u hu
      cases ts with
      | nil => simp at hu
      | cons u' ts =>
        simp only [List.head?_cons, Option.mem_def, Option.some.injEq] at hu
        subst hu
        obtain ⟨a', b, h1, h2, h3⟩ := (List.isChain_cons_cons.1 hc).1
        rw [stateTag_inj ha h1]
        exact ⟨b, h2, h3⟩
    have htag' : ∀ u ∈ ts, (∃ a, StateTag u a) ∧ u % 100 < T.poss.length := fun u hu => htag u (by simp [hu])
    have hd1 : ∀ k, k = i + 1 → ts0.drop k = ts := by
      rintro k rfl
      have : ts0.drop (i + 1) = (ts0.drop next).drop (pt.length + 1) := by
        rw [List.drop_drop]; congr 1; omega
      rw [this, ht0, show pt ++ t :: ts = (pt ++ [t]) ++ ts by simp, List.drop_append_of_le_length (by simp)]
      simp
    have hdn : rs.drop next = slice rs next i ++ c :: cs := by
      rw [← hcs]
      have : rs.drop i = (rs.drop next).drop (i - next) := by rw [List.drop_drop]; congr 1; omega
      rw [this, slice, List.take_append_drop]
    have hdn' : rs.drop next = slice rs next (i + 1) ++ rs.drop (i + 1) := by
      rw [hdn, slice_snoc rs next i c cs hcs hn, hcs']; simp
    have hsl : (slice rs next (i + 1)).length = pt.length + 1 := by
      simp [slice]; omega
    cases a with
    | B =>
      have hnext : next = i := by
        rcases hb with ⟨_, _, h⟩ | ⟨h, _⟩
        · rcases h t (by simp) with h | h <;> exact absurd (stateTag_inj ha h) (by decide)
        · exact h
      subst hnext
      have hpt0 : pt = [] := List.length_eq_zero_iff.1 (by omega)
      subst hpt0
      obtain ⟨ws, h1, h2⟩ := ih cs [t] (next + 1) next next hcs' hi' hlen' hc' (by omega) (by simp)
        (by intro u hu; simp at hu; subst hu; rw [endsState_iff ha]; simp) (by simpa using ht0) (by simpa using htag)
        (Or.inl ⟨by omega, rfl, fun u hu => by
          obtain ⟨b, hb, hl⟩ := hhead u hu
          cases hl
          · exact .inl hb
          · exact .inr hb⟩)
      exact ⟨ws, by simpa using h1, by simpa [posWords, posTag_of ha] using h2⟩
    | M =>
      have hbn : begin' = next := by
        rcases hb with ⟨_, h, _⟩ | ⟨h, h' | h'⟩
        · exact h
        · omega
        · rcases h' t (by simp) with h | h <;> exact absurd (stateTag_inj ha h) (by decide)
      obtain ⟨ws, h1, h2⟩ := ih cs (pt ++ [t]) (i + 1) begin' next hcs' hi' hlen' hc' (by omega) (by simp; omega)
        (by
          intro u hu
          rcases List.mem_append.1 hu with h | h
          · exact hpe u h
          · simp at h; subst h; rw [endsState_iff ha]; simp) (by simpa using ht0) (by simpa using htag)
        (Or.inl ⟨by omega, hbn, fun u hu => by
          obtain ⟨b, hb, hl⟩ := hhead u hu
          cases hl
          · exact .inl hb
          · exact .inr hb⟩)
      exact ⟨ws, by simpa using h1, by simpa [posWords, posTag_of ha] using h2⟩
    | E =>
      have hbn : begin' = next := by
        rcases hb with ⟨_, h, _⟩ | ⟨h, h' | h'⟩
        · exact h
        · omega
        · rcases h' t (by simp) with h | h <;> exact absurd (stateTag_inj ha h) (by decide)
      obtain ⟨ws, h1, h2⟩ := ih cs [] (i + 1) begin' (i + 1) hcs' hi' hlen' hc' (by omega) (by simp) (by simp)
        (by simpa using hd1 _ rfl) (by simpa using htag')
        (Or.inr ⟨rfl, Or.inr fun u hu => by
          obtain ⟨b, hb, hl⟩ := hhead u hu
          cases hl
          · exact .inl hb
          · exact .inr hb⟩)
      refine ⟨⟨encode (slice rs next (i + 1)), p⟩ :: ws, ?_, ?_⟩
      · rw [hdn']
        exact StateWords.word hsl hpe (Or.inl ha) e2 (by simpa using h1)
      · simp only [posWords, posTag_of ha, e2]
        cases hw : posWords T rs (i + 1) cs ts begin' (i + 1) with
        | none => rw [hw] at h2; simp at h2
        | some r =>
          rw [hw] at h2
          simp only [Option.map_some, Option.bind_some] at h2 ⊢
          rw [posFinish_cons, h2, hbn]; rfl
    | S =>
      have hnext : next = i := by
        rcases hb with ⟨_, _, h⟩ | ⟨h, _⟩
        · rcases h t (by simp) with h | h <;> exact absurd (stateTag_inj ha h) (by decide)
        · exact h
      subst hnext
      have hpt0 : pt = [] := List.length_eq_zero_iff.1 (by omega)
      subst hpt0
      obtain ⟨ws, h1, h2⟩ := ih cs [] (next + 1) begin' (next + 1) hcs' hi' hlen' hc' (by omega) (by simp) (by simp)
        (by simpa using hd1 _ rfl) (by simpa using htag')
        (Or.inr ⟨rfl, Or.inr fun u hu => by
          obtain ⟨b, hb, hl⟩ := hhead u hu
          cases hl
          · exact .inl hb
          · exact .inr hb⟩)
      refine ⟨⟨encode (slice rs next (next + 1)), p⟩ :: ws, ?_, ?_⟩
      · rw [hdn']
        exact StateWords.word hsl hpe (Or.inr ha) e2 (by simpa using h1)
      · simp only [posWords, posTag_of ha, e2]
        cases hw : posWords T rs (next + 1) cs ts begin' (next + 1) with
        | none => rw [hw] at h2; simp at h2
        | some r =>
          rw [hw] at h2
          simp only [Option.map_some, Option.bind_some] at h2 ⊢
          rw [posFinish_cons, h2, slice_snoc rs next next c cs hcs (by omega), slice_self]
          simp [encode_cons]

theorem posSet_tag {T : PosTables F} (hT : PosTablesOK T) : ∀ (rs : List Rune) (y : Nat), posSet T rs y →
    (∃ a, StateTag y a) ∧ y % 100 < T.poss.length := by
  intro rs
  induction rs using List.reverseRecOn with
  | nil => intro y h; exact h.elim
  | append_singleton rs r ih =>
    intro y h
    by_cases hn : rs = []
    · subst hn
      exact hT.tag y (.inl ⟨r, h⟩)
    · rw [posSet_snoc T rs r hn] at h
      obtain ⟨x, _, hx⟩ := h.1
      exact hT.tag y (.inr ⟨x, hx⟩)

theorem posAssemble_path {T : PosTables F} (hT : PosTablesOK T) {rs : List Rune} {ts : List Nat} (h : IsPosPath T rs ts) :
    ∃ ws, StateWords T.poss rs ts ws ∧ posAssemble T rs ts = some ws := by
  obtain ⟨ws, h1, h2⟩ := posWords_legal T rs ts rs ts [] 0 0 0 (by simp) (by omega) h.length
    (h.chain.imp fun a b hab => hT.legal a b hab) (by omega) (by simp) (by simp) (by simp)
    (by
      intro t ht
      simp at ht
      obtain ⟨p, q, e⟩ := List.append_of_mem ht
      exact posSet_tag hT _ t (h.allowed p t q e))
    (Or.inr ⟨rfl, Or.inl rfl⟩)
  exact ⟨ws, by simpa using h1, by rw [posAssemble_eq]; exact h2⟩

theorem stateWords_join {poss : List Bytes} {rs : List Rune} {ts : List Nat} {ws : List SegPos} (h : StateWords poss rs ts ws) :
    (ws.map SegPos.text).flatten = encode rs := by
  induction h with
  | nil => rfl
  | word _ _ _ _ _ ih => simp [ih, encode_append]
  | rest _ _ _ => simp

theorem stateWords_nil {poss : List Bytes} {rs : List Rune} {ts : List Nat} {ws : List SegPos} (h : StateWords poss rs ts ws) (e : ts = []) :
    ws = [] := by
  cases h with
  | nil => rfl
  | word => simp at e
  | rest => simp at e

theorem stateWords_unique {poss : List Bytes} {rs : List Rune} {ts : List Nat} {ws ws' : List SegPos} (h : StateWords poss rs ts ws)
    (h' : StateWords poss rs ts ws') : ws = ws' := by
  have key : ∀ {inner inner' ts ts' : List Nat} {last last' : Nat}, (∀ t ∈ inner, ¬ EndsState t) → EndsState last →
      (∀ t ∈ inner', ¬ EndsState t) → EndsState last' → inner ++ last :: ts = inner' ++ last' :: ts' →
      inner = inner' ∧ last = last' ∧ ts = ts' := by
    intro inner
    induction inner with
    | nil =>
      intro inner' ts ts' last last' _ hl hi' _ e
      cases inner' with
      | nil => simpa using e
      | cons a inner' =>
        simp only [List.nil_append, List.cons_append, List.cons.injEq] at e
        exact absurd (e.1 ▸ hl) (hi' a (by simp))
    | cons b inner ih =>
      intro inner' ts ts' last last' hi hl hi' hl' e
      cases inner' with
      | nil =>
        simp only [List.nil_append, List.cons_append, List.cons.injEq] at e
        exact absurd (e.1 ▸ hl') (hi b (by simp))
      | cons a inner' =>
        simp only [List.cons_append, List.cons.injEq] at e
        obtain ⟨h1, h2, h3⟩ := ih (fun t ht => hi t (by simp [ht])) hl (fun t ht => hi' t (by simp [ht])) hl' e.2
        exact ⟨by rw [e.1, h1], h2, h3⟩
  induction h generalizing ws' with
  | nil => exact (stateWords_nil h' rfl).symm
  | @word w rest inner ts last p ws hl hi hla hp _ ih =>
    generalize er : w ++ rest = r at h'
    generalize et : inner ++ last :: ts = t at h'
    cases h' with
    | nil => simp at et
    | @word w' rest' inner' ts' last' p' ws2 hl' hi' hla' hp' h2 =>
      obtain ⟨rfl, rfl, rfl⟩ := key hi hla hi' hla' et
      obtain ⟨rfl, rfl⟩ := List.append_inj er (by omega)
      rw [hp] at hp'
      simp only [Option.some.injEq] at hp'
      subst hp'
      rw [ih h2]
    | @rest w' t0 ts' p' hl' hi' hp' =>
      exact absurd hla (hi' last (by rw [← et]; simp))
  | @rest w t0 ts p hl hi hp =>
    generalize et : t0 :: ts = t at h'
    cases h' with
    | nil => simp at et
    | @word w' rest' inner' ts' last' p' ws2 hl' hi' hla' hp' h2 =>
      exact absurd hla' (hi last' (by rw [et]; simp))
    | @rest w' t0' ts' p' hl' hi' hp' =>
      simp only [List.cons.injEq] at et
      rw [← et.1, hp] at hp'
      simp only [Option.some.injEq] at hp'
      rw [hp']

variable {T : PosTables F} {bound : Nat} {size : Nat → F → Prop}

theorem cutDetailInternal_words (ch : Choice) (hT : PosTablesOK T) (hf : PosFinite T bound size) (s : Bytes) (hs : s ≠ [])
    (hb : 2 * (runes s).length ≤ bound) :
    ∃ ts ws, posViterbi ch T (runes s) = some ts ∧ IsPosPath T (runes s) ts ∧ StateWords T.poss (runes s) ts ws ∧
      cutDetailInternal ch T s = some ws := by
  obtain ⟨ts, h1, h2⟩ := posViterbi_path ch hT hf (runes s) (by rwa [ne_eq, runes_eq_nil]) hb
  obtain ⟨ws, h3, h4⟩ := posAssemble_path hT h2
  exact ⟨ts, ws, h1, h2, h3, by unfold cutDetailInternal; rw [h1]; exact h4⟩

/-! ## The expressions of `cutDetail` -/

/-- ASCII characters that `Cut` hands to the dictionary. -/
def plainByte (b : UInt8) : Bool := alnumByte b || [43, 35, 38, 46, 95].contains b

theorem findSkipDetail_spec (s : Bytes) (off : Nat) (hs : ∀ b ∈ s, plainByte b = true) :
    (findSkipDetail s off = none ∧ ∀ b ∈ s, skipByte b = false) ∨
    ∃ x y z, s = x ++ y ++ z ∧ findSkipDetail s off = some (off + x.length, off + x.length + y.length) ∧ (∀ b ∈ x, skipByte b = false) ∧
      y ≠ [] ∧ (∀ b ∈ y, skipByte b = true) ∧ ∀ b ∈ z.head?, skipByte b = false := by
  induction s generalizing off with
  | nil => exact .inl ⟨rfl, by simp⟩
  | cons b t ih =>
    by_cases hb : skipByte b = true
    · right
      refine ⟨[], (b :: t).takeWhile skipByte, (b :: t).dropWhile skipByte, by simp, by simp [findSkipDetail, hb], by simp,
        by simp [hb], fun c hc => List.all_eq_true.1 List.all_takeWhile c hc, ?_⟩
      intro c hc
      cases e : (b :: t).dropWhile skipByte with
      | nil => rw [e] at hc; simp at hc
      | cons d l =>
        rw [e] at hc
        simp at hc
        subst hc
        have := List.head_dropWhile_not skipByte (l := b :: t) (by rw [e]; simp)
        simpa [e] using this
    · have hb' : skipByte b = false := by simpa using hb
      have h93 : t.head? ≠ some 93 := by
        intro e
        cases t with
        | nil => simp at e
        | cons c t =>
          simp at e
          subst e
          have := hs 93 (by simp)
          revert this; decide
      have e0 : findSkipDetail (b :: t) off = findSkipDetail t (off + 1) := by
        simp [findSkipDetail, hb', h93]
      rcases ih (off + 1) (fun c hc => hs c (by simp [hc])) with ⟨h1, h2⟩ | ⟨x, y, z, h1, h2, h3, h4⟩
      · left
        refine ⟨by rw [e0, h1], ?_⟩
        intro c hc
        rcases List.mem_cons.1 hc with rfl | hc
        · exact hb'
        · exact h2 c hc
      · right
        refine ⟨b :: x, y, z, by simp [h1], ?_, ?_, h4⟩
        · rw [e0, h2, List.length_cons, show off + 1 + x.length = off + (x.length + 1) by omega]
        · intro c hc
          rcases List.mem_cons.1 hc with rfl | hc
          · exact hb'
          · exact h3 c hc

theorem findSkipDetail_range (s : Bytes) (off a b : Nat) (h : findSkipDetail s off = some (a, b)) : off ≤ a ∧ a < b ∧ b ≤ off + s.length := by
  induction s generalizing off with
  | nil => simp [findSkipDetail] at h
  | cons c t ih =>
    unfold findSkipDetail at h
    by_cases h1 : skipByte c = true
    · rw [if_pos h1] at h
      simp only [Option.some.injEq, Prod.mk.injEq] at h
      have : ((c :: t).takeWhile skipByte).length ≤ (c :: t).length := (List.takeWhile_sublist _).length_le
      have h3 : 0 < ((c :: t).takeWhile skipByte).length := by simp [h1]
      omega
    · rw [if_neg h1] at h
      by_cases h2 : (colonByte c && t.head? == some 93) = true
      · rw [if_pos h2] at h
        simp only [Option.some.injEq, Prod.mk.injEq] at h
        have : (t.takeWhile (· == 93)).length ≤ t.length := (List.takeWhile_sublist _).length_le
        simp only [List.length_cons]
        omega
      · rw [if_neg h2] at h
        have := ih (off + 1) h
        simp only [List.length_cons]
        omega

theorem reSkipDetail_range : MatchRange reSkipDetail := by
  intro s a b h
  have := findSkipDetail_range s 0 a b h
  omega

theorem chars_plain (s : Bytes) (hs : ∀ b ∈ s, b.toNat < 128) : chars s = s.map fun b => [b] := by
  induction s with
  | nil => rfl
  | cons b t ih =>
    have := chars_ascii [] b t (hs b (by simp))
    rw [List.nil_append] at this
    rw [this, ih (fun c hc => hs c (by simp [hc]))]
    simp

theorem plainByte_ascii {b : UInt8} (h : plainByte b = true) : b.toNat < 128 := by
  simp only [plainByte, Bool.or_eq_true, alnumByte, digitByte, Bool.and_eq_true, decide_eq_true_eq] at h
  rcases h with h | h
  · omega
  · simp at h
    rcases h with rfl | rfl | rfl | rfl | rfl <;> decide

theorem numChar_byte {b : UInt8} (h : plainByte b = true) : numChar [b] = skipByte b := by
  have := plainByte_ascii h
  unfold numChar
  rw [charRune_ascii b this]
  exact forall_byte (P := fun b => plainByte b = true → ((str ".0123456789").any fun c => c.toNat = b.toNat) = skipByte b)
    (by decide +kernel) b h

theorem flatten_bytes (s : Bytes) : (s.map fun b => [b]).flatten = s := by
  induction s with
  | nil => rfl
  | cons b t ih => simp [ih]

theorem skipItem_num {x : Bytes} (hx : x ≠ []) (hs : ∀ b ∈ x, plainByte b = true) (hk : ∀ b ∈ x, skipByte b = true) :
    skipItem x = ⟨x, str "m"⟩ := by
  unfold skipItem
  have : reNumMatch x = true := by
    obtain ⟨b, t, rfl⟩ := List.exists_cons_of_ne_nil hx
    have h1 := hs b (by simp)
    have h2 := hk b (by simp)
    have : (b == 46 || digitByte b) = true :=
      forall_byte (P := fun b => plainByte b = true → skipByte b = true → (b == 46 || digitByte b) = true) (by decide +kernel) b h1 h2
    unfold reNumMatch
    rw [List.any_cons, this]; rfl
  rw [this]; rfl

theorem skipItem_other {x : Bytes} (hs : ∀ b ∈ x, plainByte b = true) (hk : ∀ b ∈ x, skipByte b = false) :
    skipItem x = ⟨x, if (x.map fun b => [b]).any fun u => asciiAlnum (charRune u) then str "eng" else str "x"⟩ := by
  unfold skipItem
  have h1 : reNumMatch x = false := by
    unfold reNumMatch
    rw [List.any_eq_false]
    intro b hb hc
    have := hk b hb
    unfold skipByte at this
    rw [Bool.or_eq_false_iff, Bool.or_eq_false_iff] at this
    rw [this.1.2, this.2] at hc
    simp at hc
  have h2 : reEngMatch x = (x.map fun b => [b]).any fun u => asciiAlnum (charRune u) := by
    unfold reEngMatch
    rw [List.any_map, Bool.eq_iff_iff, List.any_eq_true, List.any_eq_true]
    have : ∀ b ∈ x, alnumByte b = asciiAlnum (charRune [b]) := by
      intro b hb
      rw [charRune_ascii b (plainByte_ascii (hs b hb)), Bool.eq_iff_iff, asciiAlnum_iff]
      simp only [alnumByte, digitByte, Bool.or_eq_true, Bool.and_eq_true, decide_eq_true_eq]
      omega
    constructor
    · rintro ⟨b, hb, h⟩; exact ⟨b, hb, by rw [this b hb] at h; exact h⟩
    · rintro ⟨b, hb, h⟩; exact ⟨b, hb, by rw [this b hb]; exact h⟩
  rw [h1, h2]
  simp

/-! ## `cutDetail` -/

section detail
variable [U : Unicode] [UnicodeOK]

theorem han_byte {b : UInt8} (h : b.toNat < 128) : U.isHan (charRune [b]) = false := by
  rw [charRune_ascii b h]; exact UnicodeOK.han_ascii _ h

theorem other_piece {cut : Bytes → Option (List SegPos)} {x : Bytes} (hs : ∀ b ∈ x, plainByte b = true) (hk : ∀ b ∈ x, skipByte b = false)
    {rest : List Bytes} {l : List SegPos} (hr : ∀ u ∈ rest.head?, U.isHan (charRune u) = true ∨ numChar u = true) (h : DetailOut cut rest l) :
    DetailOut cut (x.map (fun b => [b]) ++ rest) (([x].filter fun x => x.length ≠ 0).map skipItem ++ l) := by
  by_cases hx : x = []
  · subst hx; simpa using h
  · have : x.length ≠ 0 := fun e => hx (List.length_eq_zero_iff.1 e)
    have e1 : ([x].filter fun x => decide (x.length ≠ 0)) = [x] := by rw [List.filter_cons_of_pos (by simpa using this)]; rfl
    rw [e1, List.map_singleton, skipItem_other hs hk]
    have := DetailOut.other (cut := cut) (us := x.map fun b => [b]) (fun e => hx (List.map_eq_nil_iff.1 e)) (by
      intro u hu
      obtain ⟨b, hb, rfl⟩ := List.mem_map.1 hu
      exact ⟨han_byte (plainByte_ascii (hs b hb)), by rw [numChar_byte (hs b hb)]; exact hk b hb⟩) hr h
    rw [flatten_bytes] at this
    exact this

theorem skip_pieces {cut : Bytes → Option (List SegPos)} {x : Bytes} {ps : List Bytes} (hb : Blocks reSkipDetail x ps)
    (hs : ∀ b ∈ x, plainByte b = true)
    {rest : List Bytes} {l : List SegPos} (hr : ∀ u ∈ rest.head?, U.isHan (charRune u) = true ∧ numChar u = false) (h : DetailOut cut rest l) :
    DetailOut cut (x.map (fun b => [b]) ++ rest) ((ps.filter fun x => x.length ≠ 0).map skipItem ++ l) := by
  induction hb with
  | @last s e =>
    rcases findSkipDetail_spec s 0 hs with ⟨_, h2⟩ | ⟨x, y, z, _, h2, _⟩
    · exact other_piece hs h2 (fun u hu => .inl (hr u hu).1) h
    · unfold reSkipDetail at e; rw [h2] at e; simp at e
  | @next s a b ps e _ ih =>
    rcases findSkipDetail_spec s 0 hs with ⟨h2, _⟩ | ⟨x, y, z, h1, h2, h3, h4, h5, h6⟩
    · unfold reSkipDetail at e; rw [h2] at e; simp at e
    · unfold reSkipDetail at e
      rw [h2] at e
      simp only [Option.some.injEq, Prod.mk.injEq, Nat.zero_add] at e
      obtain ⟨rfl, rfl⟩ := e
      have e1 : s.take x.length = x := by rw [h1]; simp
      have e2 : slice s x.length (x.length + y.length) = y := by rw [h1]; simp [slice]
      have e3 : s.drop (x.length + y.length) = z := by rw [h1]; simp
      rw [e1, e2]
      rw [e3] at ih
      have hz : ∀ b ∈ z, plainByte b = true := fun b hb => hs b (by rw [h1]; simp [hb])
      have hy : ∀ b ∈ y, plainByte b = true := fun b hb => hs b (by rw [h1]; simp [hb])
      have hx : ∀ b ∈ x, plainByte b = true := fun b hb => hs b (by rw [h1]; simp [hb])
      have i2 := ih hz
      have hnum := DetailOut.num (cut := cut) (us := y.map fun b => [b]) (fun e => h4 (List.map_eq_nil_iff.1 e)) (by
        intro u hu
        obtain ⟨b, hb, rfl⟩ := List.mem_map.1 hu
        rw [numChar_byte (hy b hb)]; exact h5 b hb) (by
        intro u hu
        cases z with
        | nil => simp at hu; exact (hr u (by simpa using hu)).2
        | cons c z =>
          simp at hu
          subst hu
          rw [numChar_byte (hz c (by simp))]; exact h6 c (by simp)) i2
      rw [flatten_bytes] at hnum
      have hoth := other_piece hx h3 (rest := y.map (fun b => [b]) ++ (z.map (fun b => [b]) ++ rest)) (by
        intro u hu
        obtain ⟨c, y', rfl⟩ := List.exists_cons_of_ne_nil h4
        simp at hu
        subst hu
        right
        rw [numChar_byte (hy c (by simp))]; exact h5 c (by simp)) hnum
      have hyl : y.length ≠ 0 := fun e => h4 (List.length_eq_zero_iff.1 e)
      have ef : ((x :: y :: ps).filter fun x => decide (x.length ≠ 0)).map skipItem =
          ([x].filter fun x => decide (x.length ≠ 0)).map skipItem ++ (⟨y, str "m"⟩ :: (ps.filter fun x => decide (x.length ≠ 0)).map skipItem) := by
        rw [← skipItem_num h4 hy h5]
        by_cases hx0 : x.length ≠ 0
        · rw [List.filter_cons_of_pos (by simpa using hx0), List.filter_cons_of_pos (by simpa using hyl),
            List.filter_cons_of_pos (by simpa using hx0)]
          rfl
        · rw [List.filter_cons_of_neg (by simpa using hx0), List.filter_cons_of_pos (by simpa using hyl),
            List.filter_cons_of_neg (by simpa using hx0)]
          rfl
      rw [ef, h1]
      simpa using hoth

theorem plain_of_chars {x : Bytes} (h1 : ∀ u ∈ chars x, posChar u = true) (h2 : ∀ u ∈ chars x, U.isHan (charRune u) = false) :
    (∀ b ∈ x, plainByte b = true) ∧ chars x = x.map fun b => [b] := by
  have hlt : ∀ u ∈ chars x, charRune u < 128 ∧ ((str "+#&._").any (fun b => b.toNat = charRune u) = true ∨ asciiAlnum (charRune u) = true) := by
    intro u hu
    have h3 := h1 u hu
    unfold posChar at h3
    rw [h2 u hu, Bool.false_or, Bool.or_eq_true] at h3
    refine ⟨?_, h3⟩
    rcases h3 with h3 | h3
    · rw [show str "+#&._" = [43, 35, 38, 46, 95] by decide] at h3
      simp at h3
      omega
    · have := (asciiAlnum_iff _).1 h3
      omega
  have hch : ∀ u ∈ chars x, ∃ b, u = [b] ∧ plainByte b = true := by
    intro u hu
    obtain ⟨h3, h4⟩ := hlt u hu
    refine ⟨_, char_of_ascii_rune hu h3, ?_⟩
    rcases h4 with h4 | h4
    · rw [show str "+#&._" = [43, 35, 38, 46, 95] by decide] at h4
      simp at h4
      rcases h4 with h | h | h | h | h <;> rw [← h] <;> decide
    · have := (asciiAlnum_iff _).1 h4
      simp only [plainByte, alnumByte, digitByte, Bool.or_eq_true, Bool.and_eq_true, decide_eq_true_eq]
      left
      rw [toNat_ofNat_lt (by omega)]
      omega
  have hb : ∀ b ∈ x, plainByte b = true := by
    intro b hb
    rw [← chars_flatten x, List.mem_flatten] at hb
    obtain ⟨u, hu, hbu⟩ := hb
    obtain ⟨c, rfl, hc⟩ := hch u hu
    simp at hbu
    rw [hbu]; exact hc
  exact ⟨hb, chars_plain x fun b h => plainByte_ascii (hb b h)⟩

theorem numChar_han {u : Bytes} (h : U.isHan (charRune u) = true) : numChar u = false := by
  rw [Bool.eq_false_iff]
  intro hc
  unfold numChar at hc
  rw [show str ".0123456789" = [46, 48, 49, 50, 51, 52, 53, 54, 55, 56, 57] by decide] at hc
  have : charRune u < 128 := by simp at hc; omega
  rw [UnicodeOK.han_ascii _ this] at h
  simp at h

theorem detailBlock_plain {ch : Choice} {x : Bytes} (h2 : ∀ u ∈ chars x, U.isHan (charRune u) = false) :
    ∃ ps, Blocks reSkipDetail x ps ∧ cutDetailBlock ch T x = some ((ps.filter fun x => x.length ≠ 0).map skipItem) := by
  obtain ⟨ps, h3, h4⟩ := splitBy_blocks reSkipDetail_range x
  refine ⟨ps, h4, ?_⟩
  unfold cutDetailBlock reHanDetail
  rw [classRun_isSome]
  have : ((chars x).any fun u => U.isHan (charRune u)) = false := by
    rw [List.any_eq_false]
    intro u hu
    rw [h2 u hu]; simp
  rw [this, h3]; simp

theorem cutDetail_out (ch : Choice) (s : Bytes) (hs : ∀ u ∈ chars s, posChar u = true)
    (hcut : ∀ v, v ≠ [] → chars v <:+: chars s → ∃ o, cutDetailInternal ch T v = some o) :
    ∃ out, cutDetail ch T s = some out ∧ DetailOut (cutDetailInternal ch T) (chars s) out := by
  have key : ∀ blks, Blocks reHanDetail s blks → ∃ out, (mapOpt (cutDetailBlock ch T) blks).map List.flatten = some out ∧
      DetailOut (cutDetailInternal ch T) (chars s) out := by
    intro blks hb
    induction hb with
    | @last s e =>
      rcases classRun_spec U.isHan s with ⟨_, h2⟩ | ⟨a, b, us, h', _⟩
      · obtain ⟨ps, h3, h4⟩ := detailBlock_plain (T := T) (ch := ch) h2
        obtain ⟨h5, h6⟩ := plain_of_chars hs h2
        refine ⟨(ps.filter fun x => x.length ≠ 0).map skipItem, by simp [mapOpt, h4], ?_⟩
        rw [h6]
        simpa using skip_pieces h3 h5 (rest := []) (by simp) (DetailOut.nil (cut := cutDetailInternal ch T))
      · unfold reHanDetail at e; rw [h'] at e; simp at e
    | @next s a b blks e hb ih =>
      rcases classRun_spec U.isHan s with ⟨h1, _⟩ | ⟨a', b', us, h', c1, c2, c3, c4, c5, c6, c7, c8⟩
      · unfold reHanDetail at e; rw [h1] at e; simp at e
      · unfold reHanDetail at e
        rw [h'] at e
        simp only [Option.some.injEq, Prod.mk.injEq] at e
        obtain ⟨rfl, rfl⟩ := e
        have i1 : chars (s.drop b') <:+: chars s := by rw [c3]; exact (List.suffix_append _ _).isInfix
        have i2 : us <:+: chars s := by rw [c3]; exact ⟨_, _, rfl⟩
        have i3 : chars (s.take a') <:+: chars s := by rw [c3, List.append_assoc]; exact (List.prefix_append _ _).isInfix
        obtain ⟨out, o1, o2⟩ := ih (fun u hu => hs u (i1.subset hu)) (fun v hv h => hcut v hv (h.trans i1))
        have hx : ∀ u ∈ chars (s.take a'), posChar u = true := fun u hu => hs u (i3.subset hu)
        obtain ⟨ps, h3, h4⟩ := detailBlock_plain (T := T) (ch := ch) c5
        obtain ⟨h5, h6⟩ := plain_of_chars hx c5
        have hsl : us.flatten = slice s a' b' := by rw [c4, chars_flatten]
        have hslne : slice s a' b' ≠ [] := by
          intro e; rw [c4, e] at c6; exact c6 rfl
        obtain ⟨o, ho⟩ := hcut (slice s a' b') hslne (by rw [← c4]; exact i2)
        have hblk : cutDetailBlock ch T (slice s a' b') = some o := by
          unfold cutDetailBlock reHanDetail
          rw [classRun_isSome, ← c4]
          obtain ⟨u, us', rfl⟩ := List.exists_cons_of_ne_nil c6
          have : ((u :: us').any fun u => U.isHan (charRune u)) = true := by
            rw [List.any_eq_true]; exact ⟨u, by simp, c7 u (by simp)⟩
          rw [this, if_pos rfl]; exact ho
        obtain ⟨ol, hol, rfl⟩ := Option.map_eq_some_iff.1 o1
        refine ⟨(ps.filter fun x => x.length ≠ 0).map skipItem ++ (o ++ ol.flatten), ?_, ?_⟩
        · simp [mapOpt, h4, hblk, hol]
        · have h7 : DetailOut (cutDetailInternal ch T) (us ++ chars (s.drop b')) (o ++ ol.flatten) := by
            refine .han c6 c7 ?_ (by rw [hsl]; exact ho) o2
            intro u hu
            cases e : chars (s.drop b') with
            | nil => rw [e] at hu; simp at hu
            | cons v vs =>
              rw [e] at hu
              simp at hu
              subst hu
              exact c8 v vs e
          rw [c3, List.append_assoc, h6]
          refine skip_pieces h3 h5 ?_ h7
          obtain ⟨u, us', rfl⟩ := List.exists_cons_of_ne_nil c6
          intro v hv
          simp at hv
          subst hv
          exact ⟨c7 u (by simp), numChar_han (c7 u (by simp))⟩
  obtain ⟨blks, h1, h2⟩ := splitBy_blocks (classRun_range U.isHan) s
  obtain ⟨out, h3, h4⟩ := key blks h2
  refine ⟨out, ?_, h4⟩
  unfold cutDetail reHanDetail
  rw [h1]
  exact h3

/-- Nothing is lost by `cutDetail` when the state model loses nothing. -/
theorem detailOut_join {cut : Bytes → Option (List SegPos)} {us : List Bytes} {out : List SegPos} (h : DetailOut cut us out)
    (hs : ∀ u ∈ us, IsChar u ∧ posChar u = true)
    (hcut : ∀ vs o, vs <:+: us → cut vs.flatten = some o → (o.map SegPos.text).flatten = encode (vs.map charRune)) :
    (out.map SegPos.text).flatten = encode (us.map charRune) := by
  have hpl : ∀ vs : List Bytes, (∀ u ∈ vs, IsChar u ∧ posChar u = true) → (∀ u ∈ vs, U.isHan (charRune u) = false) →
      vs.flatten = encode (vs.map charRune) := by
    intro vs h1 h2
    induction vs with
    | nil => rfl
    | cons u vs ih =>
      rw [List.flatten_cons, List.map_cons, encode_cons, ← ih (fun v hv => h1 v (by simp [hv])) (fun v hv => h2 v (by simp [hv]))]
      congr 1
      have hc := (h1 u (by simp)).1
      have hr : charRune u < 128 := by
        have h3 := (h1 u (by simp)).2
        unfold posChar at h3
        rw [h2 u (by simp), Bool.false_or, Bool.or_eq_true] at h3
        rcases h3 with h3 | h3
        · rw [show str "+#&._" = [43, 35, 38, 46, 95] by decide] at h3
          simp at h3; omega
        · have := (asciiAlnum_iff _).1 h3
          omega
      have h2 := encode_decode u (by unfold charRune at hr; unfold runeError; omega)
      rw [hc.2, List.take_length] at h2
      exact h2.symm
  induction h with
  | nil => rfl
  | @han vs rest o l h1 h2 h3 h4 h5 ih =>
    rw [List.map_append, List.flatten_append, List.map_append, encode_append,
      hcut vs o (List.prefix_append _ _).isInfix h4,
      ih (fun u hu => hs u (by simp [hu])) (fun ws o' hw => hcut ws o' (hw.trans (List.suffix_append _ _).isInfix))]
  | @num vs rest l h1 h2 h3 h5 ih =>
    rw [List.map_cons, List.flatten_cons, List.map_append, encode_append,
      ih (fun u hu => hs u (by simp [hu])) (fun ws o' hw => hcut ws o' (hw.trans (List.suffix_append _ _).isInfix))]
    congr 1
    refine hpl vs (fun u hu => hs u (by simp [hu])) (fun u hu => ?_)
    rw [Bool.eq_false_iff]
    intro hc
    have := numChar_han hc
    rw [h2 u hu] at this
    simp at this
  | @other vs rest l h1 h2 h3 h5 ih =>
    rw [List.map_cons, List.flatten_cons, List.map_append, encode_append,
      ih (fun u hu => hs u (by simp [hu])) (fun ws o' hw => hcut ws o' (hw.trans (List.suffix_append _ _).isInfix))]
    congr 1
    exact hpl vs (fun u hu => hs u (by simp [hu])) (fun u hu => (h2 u hu).1)

end detail

end Gse
