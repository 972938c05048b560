import Verif.Spec.Both
import Verif.Props.Scale
import Verif.Props.Flags

/-!
# `Segment` and `Cut` on the same text

C91: without rounding, for a text all of whose characters are stored, `Slice` and `Cut(str, false)` solve the same problem: they write
it in words with the same greatest probability, and differ at most in which of several equally probable writings they return.
-/

namespace Gse
open Spec

set_option linter.unusedSectionVars false

section
variable [ParseFn] [U : Unicode]

theorem split_plain {cfg : SplitCfg} {rs : List Rune} (h : ∀ r ∈ rs, PlainChar cfg r) :
    splitTextToWords cfg (encode rs) = rs.map encodeRune := by
  have hp : ∀ u ∈ rs.map encodeRune, wordChar cfg u = false := by
    intro u hu
    obtain ⟨r, hr, rfl⟩ := List.mem_map.1 hu
    simpa [encode] using (h r hr).single
  rw [splitTextToWords_eq, chars_encode rs fun r hr => (h r hr).valid]
  have : grpAll cfg (rs.map encodeRune) = (rs.map encodeRune).map fun u => [u] := by
    unfold grpAll
    split
    · rfl
    · exact grp_plain cfg _ hp
  rw [this, List.map_map]
  refine (List.map_congr_left fun u hu => ?_).trans (List.map_id _)
  exact emit_nonword cfg u (hp u hu)

theorem dagText_plain {cfg : SplitCfg} {rs : List Rune} (h : ∀ r ∈ rs, PlainChar cfg r) : dagText cfg (encode rs) = rs := by
  unfold dagText
  rw [runes_encode rs fun r hr => (h r hr).valid]
  split
  · next hl => exact (List.map_congr_left fun r hr => (h r hr).lower hl).trans (List.map_id _)
  · rfl

/-- The token is the word, with the same share of the total. -/
def Spells (d : Dictionary EReal EReal) (t : Token EReal EReal) (p : List Rune) : Prop :=
  t.text = p.map encodeRune ∧ tokenShare d t = share d p

theorem spells_prod {d : Dictionary EReal EReal} {ts : List (Token EReal EReal)} {ps : List (List Rune)} (h : List.Forall₂ (Spells d) ts ps) :
    (ts.map (tokenShare d)).prod = likelihood d ps ∧ wordsOf ts = ps.flatten.map encodeRune := by
  induction h with
  | nil => exact ⟨rfl, rfl⟩
  | cons h1 _ ih =>
    refine ⟨?_, ?_⟩
    · simp only [likelihood, List.map_cons, List.prod_cons] at ih ⊢
      rw [h1.2, ih.1]
    · have := ih.2
      simp only [wordsOf, List.map_cons, List.flatten_cons, List.map_append] at this ⊢
      rw [h1.1, this]

theorem flatten_runes (p : List Rune) : (p.map encodeRune).flatten = encode p := by
  rw [encode, List.flatMap_def]

theorem posWord_stored {d : Dictionary EReal EReal} {p : List Rune} (h : posWord d p = true) :
    ∃ t, storedTok d (encode p) = some t ∧ 0 < t.freq := by
  unfold posWord at h
  cases hs : storedTok d (encode p) with
  | none => rw [hs] at h; cases h
  | some t =>
    rw [hs] at h
    refine ⟨t, rfl, ?_⟩
    simpa [F64.lt, F64.ofNat] using h

theorem stored_spells [UnicodeOK] {cfg : SplitCfg} {d : Dictionary EReal EReal} (hw : d.WF cfg) {p : List Rune} (hp : ∀ r ∈ p, PlainChar cfg r)
    {t : Token EReal EReal} (ht : storedTok d (encode p) = some t) : Spells d t p := by
  obtain ⟨h1, h2⟩ := storedTok_split hw ht
  refine ⟨h1.trans (split_plain hp), ?_⟩
  unfold tokenShare share pieceFreq
  rw [if_pos (by rw [h2, ht]), ht]

theorem seg_of_writing [UnicodeOK] {cfg : SplitCfg} {d : Dictionary EReal EReal} (hw : d.WF cfg) {rs : List Rune} (hp : ∀ r ∈ rs, PlainChar cfg r)
    {ps : List (List Rune)} (h : IsWriting d rs ps) : ∃ ts, IsSegmentation d (rs.map encodeRune) ts ∧ List.Forall₂ (Spells d) ts ps := by
  suffices hs : ∃ ts, (∀ t ∈ ts, IsPiece d t) ∧ List.Forall₂ (Spells d) ts ps by
    obtain ⟨ts, h1, h2⟩ := hs
    exact ⟨ts, ⟨by rw [(spells_prod h2).2, h.1], h1⟩, h2⟩
  have hsub : ∀ p ∈ ps, ∀ r ∈ p, PlainChar cfg r := by
    intro p hpm r hr
    exact hp r (by rw [← h.1]; exact List.mem_flatten.2 ⟨p, hpm, hr⟩)
  have hpos := h.2
  clear h hp
  induction ps with
  | nil => exact ⟨[], by simp, .nil⟩
  | cons p ps ih =>
    obtain ⟨ts, h1, h2⟩ := ih (fun q hq => hsub q (by simp [hq])) (fun q hq => hpos q (by simp [hq]))
    obtain ⟨hne, hq⟩ := hpos p (by simp)
    obtain ⟨t, ht, _⟩ := posWord_stored hq
    have hsp := stored_spells hw (hsub p (by simp)) ht
    refine ⟨t :: ts, ?_, .cons hsp h2⟩
    intro x hx
    rcases List.mem_cons.1 hx with rfl | hx
    · exact ⟨by rw [hsp.1]; simpa using hne, .inl (by rw [hsp.1, flatten_runes, ht])⟩
    · exact h1 x hx

theorem writing_of_seg [UnicodeOK] {cfg : SplitCfg} {d : Dictionary EReal EReal} (hw : d.WF cfg)
    (ha : ∀ u t, storedTok d u = some t → Amount t.freq) :
    ∀ (ts : List (Token EReal EReal)) (rs : List Rune), (∀ r ∈ rs, PlainChar cfg r) → (∀ r ∈ rs, posWord d [r] = true) →
      IsSegmentation d (rs.map encodeRune) ts → (ts.map (tokenShare d)).prod ≠ 0 →
      ∃ ps, IsWriting d rs ps ∧ List.Forall₂ (Spells d) ts ps
  | [], rs, _, _, hs, _ => by
    have : rs = [] := by simpa [wordsOf] using hs.1.symm
    subst this
    exact ⟨[], ⟨rfl, by simp⟩, .nil⟩
  | t :: ts, rs, hp, hk, hs, hne => by
    have hcat : rs.map encodeRune = t.text ++ wordsOf ts := by rw [← hs.1]; simp [wordsOf]
    obtain ⟨p, rest, rfl, hp1, hp2⟩ := List.map_eq_append_iff.1 hcat
    rw [List.map_cons, List.prod_cons] at hne
    obtain ⟨ps, h1, h2⟩ := writing_of_seg hw ha ts rest (fun r hr => hp r (by simp [hr])) (fun r hr => hk r (by simp [hr]))
      ⟨hp2.symm, fun x hx => hs.2 x (by simp [hx])⟩ (right_ne_zero_of_mul hne)
    obtain ⟨hn, hst⟩ := hs.2 t (by simp)
    have hpn : p ≠ [] := by rintro rfl; exact hn hp1.symm
    have hfl : t.text.flatten = encode p := by rw [← hp1, flatten_runes]
    have hst' : storedTok d (encode p) = some t := by
      rcases hst with h | ⟨w, hwt, hwn⟩
      · rwa [hfl] at h
      · exfalso
        have htx : t.text = [w] := by rw [hwt]; rfl
        rw [htx] at hp1
        obtain ⟨r, rfl⟩ : ∃ r, p = [r] := by
          have := congrArg List.length hp1
          exact List.length_eq_one_iff.1 (by simpa using this)
        obtain ⟨x, hx, _⟩ := posWord_stored (hk r (by simp))
        have : w = encode [r] := by simpa [encode] using hp1.symm
        rw [this, hx] at hwn
        cases hwn
    have hsp := stored_spells hw (fun r hr => hp r (by simp [hr])) hst'
    have hpw : posWord d p = true := by
      obtain ⟨x, hx, ex⟩ := ha _ _ hst'
      have h0 : tokenShare d t ≠ 0 := left_ne_zero_of_mul hne
      unfold tokenShare at h0
      rw [if_pos (by rwa [hfl]), ex, EReal.toReal_coe] at h0
      have hx0 : x ≠ 0 := by rintro rfl; simp at h0
      unfold posWord
      rw [hst', Option.any_some, ex]
      have : 0 < x := lt_of_le_of_ne hx (Ne.symm hx0)
      simpa [F64.lt, F64.ofNat] using this
    refine ⟨p :: ps, ⟨by simp [h1.1], ?_⟩, .cons hsp h2⟩
    intro q hq
    rcases List.mem_cons.1 hq with rfl | hq
    · exact ⟨hpn, hpw⟩
    · exact h1.2 q hq

theorem forall₂_split {α β : Type} {R : α → β → Prop} : ∀ {a : List β} {p : β} {b : List β} {ts : List α}, List.Forall₂ R ts (a ++ p :: b) →
    ∃ ta t tb, ts = ta ++ t :: tb ∧ List.Forall₂ R ta a ∧ R t p ∧ List.Forall₂ R tb b
  | [], p, b, _, h => by
    cases h with
    | cons h1 h2 => exact ⟨[], _, _, rfl, .nil, h1, h2⟩
  | x :: a, p, b, _, h => by
    cases h with
    | cons h1 h2 =>
      obtain ⟨ta, t, tb, rfl, h3, h4, h5⟩ := forall₂_split h2
      exact ⟨_ :: ta, t, tb, rfl, .cons h1 h3, h4, h5⟩

/-- All characters one by one. -/
theorem singles_writing {d : Dictionary EReal EReal} {rs : List Rune} (hk : ∀ r ∈ rs, posWord d [r] = true) : IsWriting d rs (rs.map fun r => [r]) := by
  refine ⟨by induction rs with
    | nil => rfl
    | cons r rs ih => simp [ih fun x hx => hk x (by simp [hx])], ?_⟩
  intro p hp
  obtain ⟨r, hr, rfl⟩ := List.mem_map.1 hp
  exact ⟨by simp, hk r hr⟩

theorem writing_pos {d : Dictionary EReal EReal} {T : ℝ} (hT : 0 < T) (eT : d.totalFreq = (T : EReal))
    (ha : ∀ u t, storedTok d u = some t → Amount t.freq) {rs : List Rune} {ps : List (List Rune)} (h : IsWriting d rs ps) : 0 < likelihood d ps := by
  unfold likelihood
  apply List.prod_pos
  intro x hx
  obtain ⟨p, hp, rfl⟩ := List.mem_map.1 hx
  obtain ⟨t, h1, h2⟩ := posWord_stored (h.2 p hp).2
  obtain ⟨y, hy, ey⟩ := ha _ _ h1
  unfold share pieceFreq
  rw [h1]
  show 0 < t.freq.toReal / d.totalFreq.toReal
  rw [ey, eT, EReal.toReal_coe, EReal.toReal_coe]
  rw [ey] at h2
  have : 0 < y := by exact_mod_cast h2
  positivity

theorem toSlice_tokens {d : Dictionary EReal EReal} (fuel : Nat) : ∀ (segs : List Seg) (ts : List (Token EReal EReal)),
    segs.map (fun g => d.deref g.tok) = ts.map some → toSlice d fuel segs false = some (ts.map fun t => t.text.flatten) := by
  intro segs
  unfold toSlice
  simp only [Bool.false_eq_true, if_false, textSliceToString_eq, Option.map_some]
  induction segs with
  | nil => intro ts h; cases ts with
    | nil => rfl
    | cons t ts => simp at h
  | cons g segs ih =>
    intro ts h
    cases ts with
    | nil => simp at h
    | cons t ts =>
      simp only [List.map_cons, List.cons.injEq] at h
      simp [concatOpt, h.1, ih ts h.2]

/-- What the theorems below ask of the dictionary: it has been filled with frequencies from zero up and recalculated, the total is at least 1, and
no stored word is the whole of the total. -/
structure Filled (cfg : SplitCfg) (ops : List (DictOp EReal)) (d0 d : Dictionary EReal EReal) : Prop where
  run : runOps cfg ops Dictionary.new = some d0
  freqs : FreqsExact ops
  total : 1 ≤ d0.totalFreq
  recalc : calcToken d0 = some d
  notAll : ∀ w t, storedTok d w = some t → t.freq ≠ d.totalFreq

theorem Filled.run' {cfg : SplitCfg} {ops : List (DictOp EReal)} {d0 d : Dictionary EReal EReal} (h : Filled cfg ops d0 d) :
    runOps cfg (ops ++ [.recalc]) Dictionary.new = some d := by
  rw [runOps_append, h.run]; simpa [runOps, DictOp.step] using h.recalc

theorem Filled.amounts {cfg : SplitCfg} {ops : List (DictOp EReal)} {d0 d : Dictionary EReal EReal} (h : Filled cfg ops d0 d) :
    (∀ u t, storedTok d u = some t → Amount t.freq) ∧ ∃ T : ℝ, 0 < T ∧ d.totalFreq = (T : EReal) := by
  have hc := counts_run h.run h.freqs
  refine ⟨?_, ?_⟩
  · intro u x hu
    have hm : x ∈ d.tokens := by
      obtain ⟨v, _, hv⟩ := Option.bind_eq_some_iff.1 hu
      exact List.mem_of_getElem? hv
    obtain ⟨i, hi⟩ := List.mem_iff_getElem?.1 hm
    obtain ⟨x0, e0, e1, _⟩ := calcToken_exact h.recalc hi
    rw [e1]
    exact (hc.freq x0 (List.mem_of_getElem? e0)).1
  · obtain ⟨T, _, eT⟩ := hc.total
    have h1 := h.total
    rw [eT] at h1
    have : (1 : ℝ) ≤ T := by exact_mod_cast h1
    exact ⟨T, by linarith, by rw [(calcToken_same h.recalc).total, eT]⟩

theorem Filled.pos {cfg : SplitCfg} {ops : List (DictOp EReal)} {d0 d : Dictionary EReal EReal} (h : Filled cfg ops d0 d) : 0 < d0.totalFreq :=
  lt_of_lt_of_le (by norm_num) h.total

/-- C91: without rounding, for a text of which every character is a stored word, `Slice` returns the most probable way of writing it as stored
words; of several, the one that ends in the longest word, and so back to the front. -/
theorem C91_segment [UnicodeOK] (cfg : SplitCfg) (ops : List (DictOp EReal)) (d0 d : Dictionary EReal EReal) (h : Filled cfg ops d0 d)
    (rs : List Rune) (hp : ∀ r ∈ rs, PlainChar cfg r) (hk : ∀ r ∈ rs, posWord d [r] = true) (fuel : Nat) :
    ∃ ps, segSlice cfg d fuel (encode rs) false = some (ps.map encode) ∧ BestByLast d rs ps := by
  obtain ⟨ha, T, hT, eT⟩ := h.amounts
  have hw : d.WF cfg := Reachable.wf ⟨_, h.run'⟩
  obtain ⟨segs, ts, h1, h2, h3⟩ := C11_shortest cfg _ d h.run' (posDist_exact h.run h.freqs h.pos h.recalc h.notAll) (encode rs)
  obtain ⟨segs', ts', g1, g2, g3, g4⟩ := C11_exact cfg _ d0 d h.run h.freqs h.pos h.recalc h.notAll (encode rs)
  have e : ts' = ts := by
    rw [h1] at g1; cases g1
    rw [h2] at g2
    exact (List.map_injective_iff.2 (Option.some_injective _) g2).symm
  subst e
  rw [split_plain hp] at g3 g4 h3
  have hne : (ts'.map (tokenShare d)).prod ≠ 0 := by
    obtain ⟨us, u1, u2⟩ := seg_of_writing hw hp (singles_writing hk)
    have := g4 us u1
    rw [(spells_prod u2).1] at this
    exact (lt_of_lt_of_le (writing_pos hT eT ha (singles_writing hk)) this).ne'
  obtain ⟨ps, p1, p2⟩ := writing_of_seg hw ha ts' rs hp hk g3 hne
  refine ⟨ps, ?_, p1, ?_⟩
  · unfold segSlice
    rw [h1]
    show toSlice d fuel segs false = _
    rw [toSlice_tokens fuel segs ts' h2]
    congr 1
    clear * - p2
    induction p2 with
    | nil => rfl
    | cons h1 _ ih => rw [List.map_cons, List.map_cons, ih, h1.1, flatten_runes]
  · rintro a p b rfl a' p' hw'
    obtain ⟨ta, t, tb, rfl, q1, q2, q3⟩ := forall₂_split p2
    have qq : List.Forall₂ (Spells d) (ta ++ [t]) (a ++ [p]) := List.rel_append q1 (.cons q2 .nil)
    have hsub : ∀ r ∈ (a ++ [p]).flatten, r ∈ rs := by
      intro r hr
      rw [← p1.1]
      simp only [List.flatten_append, List.flatten_cons, List.mem_append] at hr ⊢
      rcases hr with hr | hr | hr
      · exact .inl hr
      · exact .inr (.inl hr)
      · simp at hr
    obtain ⟨us, u1, u2⟩ := seg_of_writing hw (fun r hr => hp r (hsub r hr)) hw'
    obtain ⟨ua, u, ub, rfl, v1, v2, v3⟩ := forall₂_split u2
    cases v3
    obtain ⟨c1, c2⟩ := cost_share h.run h.freqs h.pos h.recalc (ua ++ [u]) u1.2
    obtain ⟨e1, e2⟩ := cost_share h.run h.freqs h.pos h.recalc (ta ++ [t]) (fun x hx => h3.seg.2 x (by
      rcases List.mem_append.1 hx with hx | hx
      · simp [hx]
      · simp at hx; simp [hx]))
    have hseg : IsSegmentation d (wordsOf (ta ++ [t])) (ua ++ [u]) := by rw [(spells_prod qq).2]; exact u1
    have hc := h3.cheapest ta t tb rfl ua u hseg (by simp)
    rw [exact_gt_false, c2, e2, shareDist_le e1 c1, (spells_prod u2).1, (spells_prod qq).1] at hc
    rcases lt_or_eq_of_le hc with hlt | heq
    · exact .inl hlt
    · refine .inr ⟨heq, ?_⟩
      have hl := h3.longest ta t tb rfl ua u hseg (by simp) (by
        rw [exact_gt_false, c2, e2, shareDist_le c1 e1, (spells_prod u2).1, (spells_prod qq).1]
        exact heq.ge)
      rw [v2.1, q2.1] at hl
      simpa using hl

theorem route_of_writing {d : Dictionary EReal EReal} : ∀ {ps : List (List Rune)} {rs : List Rune}, IsWriting d rs ps → IsRoute d rs ps
  | [], rs, h => by
    have : rs = [] := h.1.symm
    subst this
    exact .nil
  | p :: ps, rs, h => by
    have : rs = p ++ ps.flatten := h.1.symm
    subst this
    exact .cons (h.2 p (by simp)).1 (.inl (h.2 p (by simp)).2) (route_of_writing ⟨rfl, fun q hq => h.2 q (by simp [hq])⟩)

theorem writing_of_route {d : Dictionary EReal EReal} {rs : List Rune} {ps : List (List Rune)} (h : IsRoute d rs ps)
    (hk : ∀ r ∈ rs, posWord d [r] = true) : IsWriting d rs ps := by
  induction h with
  | nil => exact ⟨rfl, by simp⟩
  | @cons t rest ps hne h1 _ ih =>
    obtain ⟨i1, i2⟩ := ih fun r hr => hk r (by simp [hr])
    refine ⟨by simp [i1], ?_⟩
    intro q hq
    rcases List.mem_cons.1 hq with rfl | hq
    · refine ⟨hne, ?_⟩
      rcases h1 with h1 | ⟨hl, hns⟩
      · exact h1
      · obtain ⟨r, rfl⟩ := List.length_eq_one_iff.1 hl
        exact hk r (by simp)
    · exact i2 q hq

/-- C91: and `Cut(str, false)` returns the most probable way of writing it; of several, the one that begins with the longest word, and so on to the
end. -/
theorem C91_cut [UnicodeOK] (cfg : SplitCfg) (ops : List (DictOp EReal)) (d0 d : Dictionary EReal EReal) (h : Filled cfg ops d0 d)
    (rs : List Rune) (hp : ∀ r ∈ rs, PlainChar cfg r) (hk : ∀ r ∈ rs, posWord d [r] = true) :
    ∃ ps, cutDAGNoHMM cfg d (encode rs) = some (ps.map encode) ∧ BestByFirst d rs ps := by
  have hf : FreqsExact (ops ++ [.recalc]) := by
    intro op hop f hf
    rcases List.mem_append.1 hop with ho | ho
    · exact h.freqs op ho f hf
    · simp at ho; subst ho; cases hf
  have h1 : 1 ≤ d.totalFreq := by rw [(calcToken_same h.recalc).total]; exact h.total
  have hc := counts_run h.run' hf
  obtain ⟨ps, gs, b1, b2, b3⟩ := C27_best cfg _ d h.run' (goodScores_exact hc h1) (encode rs)
  rw [dagText_plain hp] at b1
  have hw := writing_of_route b1.route hk
  refine ⟨ps, ?_, hw, ?_⟩
  · rw [b3, runs_noEng _ b2]
    rintro q hq ⟨r, rfl, hr⟩
    have := (hp r (by rw [← hw.1]; exact List.mem_flatten.2 ⟨_, hq, by simp⟩)).notEng
    rw [hr] at this; cases this
  · rintro a p b rfl p' b' hw'
    have hr' := route_of_writing hw'
    have hc1 := b1.highest a (p :: b) rfl _ hr'
    rw [score_lt hc h1] at hc1
    rcases lt_or_eq_of_le hc1 with hlt | heq
    · exact .inl hlt
    · exact .inr ⟨heq, b1.longest a p b rfl p' b' hr' ((score_lt hc h1 _ _).2 heq.ge)⟩

theorem bestByLast_greatest {d : Dictionary EReal EReal} {rs : List Rune} {ps qs : List (List Rune)} (h : BestByLast d rs ps) (hq : IsWriting d rs qs) :
    likelihood d qs ≤ likelihood d ps := by
  rcases List.eq_nil_or_concat ps with rfl | ⟨a, p, rfl⟩
  · have : qs = [] := by
      have e : rs = [] := h.1.1.symm
      subst e
      cases qs with
      | nil => rfl
      | cons q qs => exact absurd (by have := hq.1; simp at this; exact this.1) (hq.2 q (by simp)).1
    rw [this]
  · rw [List.concat_eq_append] at h ⊢
    rcases List.eq_nil_or_concat qs with rfl | ⟨a', p', rfl⟩
    · have e : rs = [] := hq.1.symm
      subst e
      exact absurd (by have := h.1.1; simp at this; exact this.2) (h.1.2 p (by simp)).1
    · rw [List.concat_eq_append] at hq ⊢
      rcases h.2 a p [] rfl a' p' (by rw [h.1.1]; exact hq) with hl | hl
      · exact hl.le
      · exact hl.1.le

theorem bestByFirst_greatest {d : Dictionary EReal EReal} {rs : List Rune} {ps qs : List (List Rune)} (h : BestByFirst d rs ps) (hq : IsWriting d rs qs) :
    likelihood d qs ≤ likelihood d ps := by
  cases ps with
  | nil =>
    have : qs = [] := by
      have e : rs = [] := h.1.1.symm
      subst e
      cases qs with
      | nil => rfl
      | cons q qs => exact absurd (by have := hq.1; simp at this; exact this.1) (hq.2 q (by simp)).1
    rw [this]
  | cons p b =>
    cases qs with
    | nil =>
      have e : rs = [] := hq.1.symm
      subst e
      exact absurd (by have := h.1.1; simp at this; exact this.1) (h.1.2 p (by simp)).1
    | cons p' b' =>
      rcases h.2 [] p b rfl p' b' (by rw [h.1.1]; exact hq) with hl | hl
      · exact hl.le
      · exact hl.1.le

/-- C91: so `Slice` and `Cut(str, false)` write the text with the same probability, and no way of writing it is more probable; when only one way is
as probable, they return the same words. -/
theorem C91_agree [UnicodeOK] (cfg : SplitCfg) (ops : List (DictOp EReal)) (d0 d : Dictionary EReal EReal) (h : Filled cfg ops d0 d)
    (rs : List Rune) (hp : ∀ r ∈ rs, PlainChar cfg r) (hk : ∀ r ∈ rs, posWord d [r] = true) (fuel : Nat) :
    ∃ ps qs, segSlice cfg d fuel (encode rs) false = some (ps.map encode) ∧ cutDAGNoHMM cfg d (encode rs) = some (qs.map encode) ∧
      IsWriting d rs ps ∧ IsWriting d rs qs ∧ likelihood d ps = likelihood d qs ∧ (∀ us, IsWriting d rs us → likelihood d us ≤ likelihood d ps) ∧
      ((∀ us, IsWriting d rs us → likelihood d us = likelihood d ps → us = ps) →
        segSlice cfg d fuel (encode rs) false = cutDAGNoHMM cfg d (encode rs)) := by
  obtain ⟨ps, h1, h2⟩ := C91_segment cfg ops d0 d h rs hp hk fuel
  obtain ⟨qs, g1, g2⟩ := C91_cut cfg ops d0 d h rs hp hk
  have e : likelihood d ps = likelihood d qs := le_antisymm (bestByFirst_greatest g2 h2.1) (bestByLast_greatest h2 g2.1)
  refine ⟨ps, qs, h1, g1, h2.1, g2.1, e, fun us hu => bestByLast_greatest h2 hu, fun hu => ?_⟩
  rw [h1, g1, hu qs g2.1 e.symm]

/-- C91: every word that either returns is also in the result of `CutAll`, unless it is a single character. -/
theorem C91_cutAll [UnicodeOK] (cfg : SplitCfg) (ops : List (DictOp EReal)) (d : Dictionary EReal EReal) (hr : runOps cfg ops Dictionary.new = some d)
    (rs : List Rune) (hp : ∀ r ∈ rs, PlainChar cfg r) (ps : List (List Rune)) (h : IsWriting d rs ps) (p : List Rune) (hm : p ∈ ps) (h2 : 2 ≤ p.length) :
    ∃ ws, cutAll cfg d (encode rs) = some ws ∧ encode p ∈ ws := by
  obtain ⟨ranges, h1, _, _, h4, _⟩ := C24_occurrences cfg ops d hr (encode rs)
  refine ⟨_, h1, ?_⟩
  rw [dagText_plain hp] at h4 ⊢
  obtain ⟨a, b, rfl⟩ := List.append_of_mem hm
  have hrs : rs = a.flatten ++ (p ++ b.flatten) := by rw [← h.1]; simp
  have hsl : slice rs a.flatten.length (a.flatten.length + p.length) = p := by
    rw [hrs, slice]; simp
  refine List.mem_map.2 ⟨(a.flatten.length, a.flatten.length + p.length), (h4 _ _ (by omega)).2 ⟨?_, ?_⟩, ?_⟩
  · rw [hrs]; rw [List.length_append, List.length_append]; omega
  · rw [hsl]; exact (h.2 p (by simp)).2
  · simp only [hsl]

end

/-! ### Examples -/

section examples
attribute [local instance] sampleUnicode sampleUnicodeOK sampleParse

/-- 中, 国 and 人 once each, 中国 with frequency `x`, 国人 with `y`. -/
noncomputable def duelEntries (x y : ℝ) : List (Bytes × EReal × Bytes) :=
  [(zhong, ((1 : ℝ) : EReal), []), (guo, ((1 : ℝ) : EReal), []), (ren, ((1 : ℝ) : EReal), []), (zhong ++ guo, (x : EReal), []),
    (guo ++ ren, (y : EReal), [])]

theorem duel_nodup (x y : ℝ) : ((duelEntries x y).map fun e => normText {} e.1).Nodup := by
  simp only [duelEntries, List.map_cons, List.map_nil]
  decide +kernel

theorem duel_content (x y : ℝ) (k : Bytes) : (absRun {} (adds (duelEntries x y))).content k =
    if k = zhong then some (((1 : ℝ) : EReal), []) else if k = guo then some (((1 : ℝ) : EReal), []) else
    if k = ren then some (((1 : ℝ) : EReal), []) else if k = zhong ++ guo then some ((x : EReal), []) else
    if k = guo ++ ren then some ((y : EReal), []) else none := by
  rw [(adds_run {} _ (duel_nodup x y)).1]
  obtain ⟨h1, h2, h3, _⟩ := people_norm
  obtain ⟨h4, _, h5⟩ := tie_norm
  simp only [duelEntries, find_step, h1, h2, h3, h4, h5, List.find?_nil, Option.map_none]

theorem duel_filled (x y : ℝ) (hx : 0 < x) (hy : 0 < y) : ∃ d0 d : Dictionary EReal EReal, Filled {} (adds (duelEntries x y)) d0 d ∧
    d.totalFreq = ((x + y + 3 : ℝ) : EReal) ∧
    ∀ k, (storedTok d k).map (fun t => (t.freq, t.pos)) = (absRun {} (adds (duelEntries x y))).content k := by
  obtain ⟨d0, hr⟩ : ∃ d : Dictionary EReal EReal, runOps {} (adds (duelEntries x y)) Dictionary.new = some d := ⟨_, rfl⟩
  obtain ⟨d, hd⟩ := calcToken_total (wf_run _ (Dictionary.wf_new _) hr)
  have hf : FreqsExact (adds (duelEntries x y)) := by
    intro op hop f hf
    obtain ⟨e, he, rfl⟩ := List.mem_map.1 hop
    simp only [opFreq, Option.some.injEq] at hf
    subst hf
    simp only [duelEntries, List.mem_cons, List.not_mem_nil, or_false] at he
    rcases he with rfl | rfl | rfl | rfl | rfl
    · exact ⟨1, by norm_num, rfl⟩
    · exact ⟨1, by norm_num, rfl⟩
    · exact ⟨1, by norm_num, rfl⟩
    · exact ⟨x, hx.le, rfl⟩
    · exact ⟨y, hy.le, rfl⟩
  have hT0 : d0.totalFreq = ((x + y + 3 : ℝ) : EReal) := by
    rw [(C06_counters {} _ (by simp [adds, duelEntries, Trie.valueLimit]) d0 hr).2.1, (adds_run {} _ (duel_nodup x y)).2]
    simp only [duelEntries, List.map_cons, List.map_nil, List.foldl_cons, List.foldl_nil, F64.add, F64.ofNat]
    norm_cast
    ring
  have hT : d.totalFreq = ((x + y + 3 : ℝ) : EReal) := by rw [(calcToken_same hd).total, hT0]
  have hrr : runOps {} (adds (duelEntries x y) ++ [.recalc]) Dictionary.new = some d := by
    rw [runOps_append, hr]; simpa [runOps, DictOp.step] using hd
  have cont : ∀ k, (storedTok d k).map (fun t => (t.freq, t.pos)) = (absRun {} (adds (duelEntries x y))).content k := by
    intro k
    rw [storedTok_content (by simp [adds, duelEntries, Trie.valueLimit]) hrr k, absRun_snoc]
    rfl
  refine ⟨d0, d, ⟨hr, hf, ?_, hd, ?_⟩, hT, cont⟩
  · rw [hT0]; exact_mod_cast (by linarith : (1 : ℝ) ≤ x + y + 3)
  · intro w t hw
    have := cont w
    rw [hw, duel_content] at this
    rw [hT]
    simp only [Option.map_some] at this
    repeat' split at this
    all_goals simp only [Option.some.injEq, Prod.mk.injEq, reduceCtorEq] at this
    all_goals rw [this.1]
    · exact_mod_cast (by linarith : (1 : ℝ) ≠ x + y + 3)
    · exact_mod_cast (by linarith : (1 : ℝ) ≠ x + y + 3)
    · exact_mod_cast (by linarith : (1 : ℝ) ≠ x + y + 3)
    · exact_mod_cast (by linarith : x ≠ x + y + 3)
    · exact_mod_cast (by linarith : y ≠ x + y + 3)

theorem people_plain : ∀ r ∈ [0x4E2D, 0x56FD, 0x4EBA], PlainChar {} r := by
  intro r hr
  simp only [List.mem_cons, List.not_mem_nil, or_false] at hr
  rcases hr with rfl | rfl | rfl
  all_goals exact ⟨by decide +kernel, by decide +kernel, fun _ => by decide +kernel, by decide +kernel⟩

/-- What there is to choose from. -/
theorem duel_writings {x y : ℝ} (hx : 0 < x) (hy : 0 < y) {d : Dictionary EReal EReal} (hT : d.totalFreq = ((x + y + 3 : ℝ) : EReal))
    (cont : ∀ k, (storedTok d k).map (fun t => (t.freq, t.pos)) = (absRun {} (adds (duelEntries x y))).content k) :
    (∀ r ∈ [0x4E2D, 0x56FD, 0x4EBA], posWord d [r] = true) ∧
    (∀ ps, IsWriting d [0x4E2D, 0x56FD, 0x4EBA] ps → ps = [[0x4E2D], [0x56FD], [0x4EBA]] ∨ ps = [[0x4E2D, 0x56FD], [0x4EBA]] ∨ ps = [[0x4E2D], [0x56FD, 0x4EBA]]) ∧
    IsWriting d [0x4E2D, 0x56FD, 0x4EBA] [[0x4E2D, 0x56FD], [0x4EBA]] ∧ IsWriting d [0x4E2D, 0x56FD, 0x4EBA] [[0x4E2D], [0x56FD, 0x4EBA]] ∧
    likelihood d [[0x4E2D], [0x56FD], [0x4EBA]] = 1 / (x + y + 3) ^ 3 ∧ likelihood d [[0x4E2D, 0x56FD], [0x4EBA]] = x / (x + y + 3) ^ 2 ∧
    likelihood d [[0x4E2D], [0x56FD, 0x4EBA]] = y / (x + y + 3) ^ 2 := by
  have get : ∀ (p : List Rune) (f : ℝ), 0 < f → (absRun {} (adds (duelEntries x y))).content (encode p) = some ((f : EReal), []) →
      posWord d p = true ∧ share d p = f / (x + y + 3) := by
    intro p f hf h
    have := cont (encode p)
    rw [h] at this
    simp only [Option.map_eq_some_iff, Prod.mk.injEq] at this
    obtain ⟨t, h1, h2, _⟩ := this
    refine ⟨?_, ?_⟩
    · simp only [posWord, h1, Option.any_some, h2]
      simpa [F64.lt, F64.ofNat] using hf
    · unfold share pieceFreq
      rw [h1, hT]
      simp only [h2, EReal.toReal_coe]
  obtain ⟨a1, b1⟩ := get [0x4E2D] 1 (by norm_num) (by rw [duel_content, if_pos (by decide +kernel)])
  obtain ⟨a2, b2⟩ := get [0x56FD] 1 (by norm_num) (by rw [duel_content, if_neg (by decide +kernel), if_pos (by decide +kernel)])
  obtain ⟨a3, b3⟩ := get [0x4EBA] 1 (by norm_num) (by
    rw [duel_content, if_neg (by decide +kernel), if_neg (by decide +kernel), if_pos (by decide +kernel)])
  obtain ⟨a4, b4⟩ := get [0x4E2D, 0x56FD] x hx (by
    rw [duel_content, if_neg (by decide +kernel), if_neg (by decide +kernel), if_neg (by decide +kernel), if_pos (by decide +kernel)])
  obtain ⟨a5, b5⟩ := get [0x56FD, 0x4EBA] y hy (by
    rw [duel_content, if_neg (by decide +kernel), if_neg (by decide +kernel), if_neg (by decide +kernel), if_neg (by decide +kernel), if_pos (by decide +kernel)])
  have n3 : posWord d [0x4E2D, 0x56FD, 0x4EBA] = false := by
    have := cont (encode [0x4E2D, 0x56FD, 0x4EBA])
    rw [duel_content, if_neg (by decide +kernel), if_neg (by decide +kernel), if_neg (by decide +kernel), if_neg (by decide +kernel),
      if_neg (by decide +kernel)] at this
    simp only [Option.map_eq_none_iff] at this
    simp only [posWord, this, Option.any_none]
  have hT0 : (x + y + 3) ≠ 0 := by positivity
  refine ⟨?_, ?_, ?_, ?_, ?_, ?_, ?_⟩
  · intro r hr
    simp only [List.mem_cons, List.not_mem_nil, or_false] at hr
    rcases hr with rfl | rfl | rfl <;> assumption
  · intro ps h
    rcases comp3 h.1 fun p hp => (h.2 p hp).1 with e | e | e | e
    · exact .inl e
    · exact .inr (.inl e)
    · exact .inr (.inr e)
    · have := (h.2 _ (by rw [e]; exact List.mem_singleton.2 rfl)).2
      rw [n3] at this; cases this
  · refine ⟨rfl, ?_⟩
    intro p hp
    simp only [List.mem_cons, List.not_mem_nil, or_false] at hp
    rcases hp with rfl | rfl
    · exact ⟨by simp, a4⟩
    · exact ⟨by simp, a3⟩
  · refine ⟨rfl, ?_⟩
    intro p hp
    simp only [List.mem_cons, List.not_mem_nil, or_false] at hp
    rcases hp with rfl | rfl
    · exact ⟨by simp, a1⟩
    · exact ⟨by simp, a5⟩
  · simp only [likelihood, List.map_cons, List.map_nil, List.prod_cons, List.prod_nil, b1, b2, b3]
    field_simp
  · simp only [likelihood, List.map_cons, List.map_nil, List.prod_cons, List.prod_nil, b4, b3]
    field_simp
  · simp only [likelihood, List.map_cons, List.map_nil, List.prod_cons, List.prod_nil, b1, b5]
    field_simp

/-- C91: two writings can be equally probable, and then the two calls may differ: with 中, 国, 人, 中国 and 国人 stored with frequency 1 each, `Slice` gives 中
and 国人 for 中国人, and `Cut` gives 中国 and 人. Without rounding. -/
theorem C91_tie : ∃ d0 d : Dictionary EReal EReal, Filled {} (adds (duelEntries 1 1)) d0 d ∧ (∀ r ∈ [0x4E2D, 0x56FD, 0x4EBA], posWord d [r] = true) ∧
    segSlice {} d 2 (encode [0x4E2D, 0x56FD, 0x4EBA]) false = some [zhong, guo ++ ren] ∧
    cutDAGNoHMM {} d (encode [0x4E2D, 0x56FD, 0x4EBA]) = some [zhong ++ guo, ren] := by
  obtain ⟨d0, d, hd, hT, cont⟩ := duel_filled 1 1 (by norm_num) (by norm_num)
  obtain ⟨hk, hall, w1, w2, l1, l2, l3⟩ := duel_writings (by norm_num) (by norm_num) hT cont
  refine ⟨d0, d, hd, hk, ?_, ?_⟩
  · obtain ⟨ps, h1, h2⟩ := C91_segment {} _ d0 d hd _ people_plain hk 2
    rcases hall ps h2.1 with rfl | rfl | rfl
    · have := bestByLast_greatest h2 w1
      rw [l1, l2] at this
      norm_num at this
    · rcases h2.2 [[0x4E2D, 0x56FD]] [0x4EBA] [] rfl [[0x4E2D]] [0x56FD, 0x4EBA] w2 with h | h
      · simp only [List.cons_append, List.nil_append] at h
        rw [l2, l3] at h
        norm_num at h
      · have := h.2; simp at this
    · rw [h1]; decide +kernel
  · obtain ⟨ps, h1, h2⟩ := C91_cut {} _ d0 d hd _ people_plain hk
    rcases hall ps h2.1 with rfl | rfl | rfl
    · have := bestByFirst_greatest h2 w1
      rw [l1, l2] at this
      norm_num at this
    · rw [h1]; decide +kernel
    · rcases h2.2 [] [0x4E2D] [[0x56FD, 0x4EBA]] rfl [0x4E2D, 0x56FD] [[0x4EBA]] w1 with h | h
      · rw [l2, l3] at h
        norm_num at h
      · have := h.2; simp at this

/-- The hypotheses of `C91_agree` hold with a single most probable writing: with 中国 twice. -/
example : ∃ d0 d : Dictionary EReal EReal, Filled {} (adds (duelEntries 2 1)) d0 d ∧
    segSlice {} d 2 (encode [0x4E2D, 0x56FD, 0x4EBA]) false = cutDAGNoHMM {} d (encode [0x4E2D, 0x56FD, 0x4EBA]) := by
  obtain ⟨d0, d, hd, hT, cont⟩ := duel_filled 2 1 (by norm_num) (by norm_num)
  obtain ⟨hk, hall, w1, w2, l1, l2, l3⟩ := duel_writings (by norm_num) (by norm_num) hT cont
  obtain ⟨ps, qs, _, _, h1, _, _, h3, h4⟩ := C91_agree {} _ d0 d hd _ people_plain hk 2
  refine ⟨d0, d, hd, h4 fun us hu e => ?_⟩
  have hp := h3 _ w1
  rcases hall ps h1 with rfl | rfl | rfl
  · rw [l1, l2] at hp; norm_num at hp
  · rcases hall us hu with rfl | rfl | rfl
    · rw [l1, l2] at e; norm_num at e
    · rfl
    · rw [l3, l2] at e; norm_num at e
  · rw [l3, l2] at hp; norm_num at hp


/-- C91: with one character that is not stored the two calls may differ though no two writings are equally probable, for they charge such a character
differently: with 中国 stored with frequency 8, 中 and 国人 with 2, and 人 not stored, `Slice` gives 中 and 国人 for 中国人, and `Cut` gives 中国 and
人. Without rounding. -/
theorem C91_unknown : ∃ d0 d : Dictionary EReal EReal, Filled {} (adds (tieEntries 1)) d0 d ∧
    segSlice {} d 2 (zhong ++ guo ++ ren) false = some [zhong, guo ++ ren] ∧ cutDAGNoHMM {} d (zhong ++ guo ++ ren) = some [zhong ++ guo, ren] := by
  obtain ⟨d0, hr⟩ : ∃ d : Dictionary EReal EReal, runOps {} (adds (tieEntries 1)) Dictionary.new = some d := ⟨_, rfl⟩
  obtain ⟨d, hd⟩ := calcToken_total (wf_run _ (Dictionary.wf_new _) hr)
  have hf : FreqsExact (adds (tieEntries 1)) := by
    intro op hop f hf
    obtain ⟨e, he, rfl⟩ := List.mem_map.1 hop
    simp only [opFreq, Option.some.injEq] at hf
    subst hf
    simp only [tieEntries, List.mem_cons, List.not_mem_nil, or_false] at he
    rcases he with rfl | rfl | rfl
    · exact ⟨1 * 8, by norm_num, rfl⟩
    · exact ⟨1 * 2, by norm_num, rfl⟩
    · exact ⟨1 * 2, by norm_num, rfl⟩
  have hT0 := tie_total 1 hr
  have hT : d.totalFreq = ((1 * 12 : ℝ) : EReal) := by rw [(calcToken_same hd).total, hT0]
  have hrr : runOps {} (adds (tieEntries 1) ++ [.recalc]) Dictionary.new = some d := by
    rw [runOps_append, hr]; simpa [runOps, DictOp.step] using hd
  have hwf : d.WF {} := Reachable.wf ⟨_, hrr⟩
  have cont : ∀ k, (storedTok d k).map (fun t => (t.freq, t.pos)) = (absRun {} (adds (tieEntries 1))).content k := by
    intro k
    rw [storedTok_content (by simp [adds, tieEntries, Trie.valueLimit]) hrr k, absRun_snoc]
    rfl
  have hF : Filled {} (adds (tieEntries 1)) d0 d := by
    refine ⟨hr, hf, ?_, hd, ?_⟩
    · rw [hT0]; exact_mod_cast (by norm_num : (1 : ℝ) ≤ 1 * 12)
    · intro w t hw
      have := cont w
      rw [hw, tie_content] at this
      rw [hT]
      simp only [Option.map_some] at this
      repeat' split at this
      all_goals simp only [Option.some.injEq, Prod.mk.injEq, reduceCtorEq] at this
      all_goals rw [this.1]
      · exact_mod_cast (by norm_num : (1 * 8 : ℝ) ≠ 1 * 12)
      · exact_mod_cast (by norm_num : (1 * 2 : ℝ) ≠ 1 * 12)
      · exact_mod_cast (by norm_num : (1 * 2 : ℝ) ≠ 1 * 12)
  refine ⟨d0, d, hF, ?_, ?_⟩
  · have get : ∀ k (f : ℝ), (absRun {} (adds (tieEntries 1))).content k = some ((f : EReal), []) → ∃ t, storedTok d k = some t ∧ t.freq = (f : EReal) := by
      intro k f h
      have := cont k
      rw [h] at this
      simp only [Option.map_eq_some_iff, Prod.mk.injEq] at this
      obtain ⟨t, h1, h2, _⟩ := this
      exact ⟨t, h1, h2⟩
    have no : ∀ k, (absRun {} (adds (tieEntries 1))).content k = none → storedTok d k = none := by
      intro k h
      have := cont k
      rw [h] at this
      simpa using this
    obtain ⟨t1, s1, f1⟩ := get (zhong ++ guo) (1 * 8) (by rw [tie_content, if_pos rfl])
    obtain ⟨t2, s2, f2⟩ := get zhong (1 * 2) (by rw [tie_content, if_neg (by decide +kernel), if_pos rfl])
    obtain ⟨t3, s3, f3⟩ := get (guo ++ ren) (1 * 2) (by rw [tie_content, if_neg (by decide +kernel), if_neg (by decide +kernel), if_pos rfl])
    have o1 : storedTok d guo = none := no _ (by
      rw [tie_content, if_neg (by decide +kernel), if_neg (by decide +kernel), if_neg (by decide +kernel)])
    have o2 : storedTok d ren = none := no _ (by
      rw [tie_content, if_neg (by decide +kernel), if_neg (by decide +kernel), if_neg (by decide +kernel)])
    have o3 : storedTok d (zhong ++ guo ++ ren) = none := no _ (by
      rw [tie_content, if_neg (by decide +kernel), if_neg (by decide +kernel), if_neg (by decide +kernel)])
    have x2 : t2.text = [zhong] := by rw [(storedTok_split hwf s2).1]; decide +kernel
    have x3 : t3.text = [guo, ren] := by rw [(storedTok_split hwf s3).1]; decide +kernel
    have hsplit : splitTextToWords {} (zhong ++ guo ++ ren) = [zhong, guo, ren] := by decide +kernel
    have sh : ∀ t tk : Token EReal EReal, ∀ (f : ℝ), IsPiece d t → storedTok d t.text.flatten = some tk → tk.freq = (f : EReal) → tokenShare d t = f / (1 * 12) := by
      intro t tk f ht h1 h2
      have : storedTok d t.text.flatten = some t := by
        rcases ht.2 with h | ⟨u, hu, hn⟩
        · exact h
        · have e : t.text.flatten = u := by rw [hu]; simp [unknownTok]
          rw [e, hn] at h1; cases h1
      have e : tk = t := by rw [this] at h1; cases h1; rfl
      unfold tokenShare
      rw [if_pos this, ← e, h2, hT, EReal.toReal_coe, EReal.toReal_coe]
    have un : ∀ t : Token EReal EReal, storedTok d t.text.flatten = none → tokenShare d t = (2 ^ 32)⁻¹ := by
      intro t h
      unfold tokenShare
      rw [if_neg (by rw [h]; simp)]
    have pB : IsSegmentation d [zhong, guo, ren] [t2, t3] := by
      refine ⟨by simp [wordsOf, x2, x3], ?_⟩
      intro t ht
      simp only [List.mem_cons, List.not_mem_nil, or_false] at ht
      rcases ht with rfl | rfl
      · exact ⟨by simp [x2], .inl (by rw [x2]; simpa using s2)⟩
      · exact ⟨by simp [x3], .inl (by rw [x3]; simpa using s3)⟩
    have lB : ([t2, t3].map (tokenShare d)).prod = 1 / 36 := by
      simp only [List.map_cons, List.map_nil, List.prod_cons, List.prod_nil]
      rw [sh t2 t2 _ (pB.2 _ (by simp)) (by rw [x2]; simpa using s2) f2, sh t3 t3 _ (pB.2 _ (by simp)) (by rw [x3]; simpa using s3) f3]
      norm_num
    obtain ⟨segs, ts, a1, a2, a3, a4⟩ := C11_exact {} _ d0 d hr hf hF.pos hd hF.notAll (zhong ++ guo ++ ren)
    rw [hsplit] at a3 a4
    have hmax := a4 _ pB
    rw [lB] at hmax
    have hflat : (ts.map fun t : Token EReal EReal => t.text).flatten = [zhong, guo, ren] := a3.1
    unfold segSlice
    rw [a1]
    show toSlice d 2 segs false = _
    rw [toSlice_tokens 2 segs ts a2]
    rcases comp3 hflat (by
      intro y hy
      obtain ⟨t, ht, rfl⟩ := List.mem_map.1 hy
      exact (a3.2 t ht).1) with h | h | h | h
    · exfalso
      obtain ⟨u1, u2, u3, rfl⟩ := List.length_eq_three.1 (by simpa using congrArg List.length h)
      simp only [List.map_cons, List.map_nil, List.cons.injEq, and_true] at h
      simp only [List.map_cons, List.map_nil, List.prod_cons, List.prod_nil] at hmax
      rw [sh u1 t2 _ (a3.2 _ (by simp)) (by rw [h.1]; simpa using s2) f2, un u2 (by rw [h.2.1]; simpa using o1), un u3 (by rw [h.2.2]; simpa using o2)] at hmax
      norm_num at hmax
    · exfalso
      obtain ⟨u1, u2, rfl⟩ := List.length_eq_two.1 (by simpa using congrArg List.length h)
      simp only [List.map_cons, List.map_nil, List.cons.injEq, and_true] at h
      simp only [List.map_cons, List.map_nil, List.prod_cons, List.prod_nil] at hmax
      rw [sh u1 t1 _ (a3.2 _ (by simp)) (by rw [h.1]; simpa using s1) f1, un u2 (by rw [h.2]; simpa using o2)] at hmax
      norm_num at hmax
    · obtain ⟨u1, u2, rfl⟩ := List.length_eq_two.1 (by simpa using congrArg List.length h)
      simp only [List.map_cons, List.map_nil, List.cons.injEq, and_true] at h
      simp [h.1, h.2]
    · exfalso
      obtain ⟨u1, rfl⟩ := List.length_eq_one_iff.1 (by simpa using congrArg List.length h)
      simp only [List.map_cons, List.map_nil, List.cons.injEq, and_true] at h
      rcases (a3.2 u1 (by simp)).2 with hc | ⟨u, hu, _⟩
      · rw [h] at hc
        have : [zhong, guo, ren].flatten = zhong ++ guo ++ ren := by simp
        rw [this, o3] at hc; cases hc
      · rw [hu] at h; simp [unknownTok] at h
  · have hsame := C89_cuts {} (adds (tieEntries 1)) (adds (tieEntries 1) ++ [.recalc]) (by simp [adds, tieEntries, Trie.valueLimit])
      (by simp [adds, tieEntries, Trie.valueLimit]) d0 d hr hrr (by rw [absRun_snoc]; rfl) (by rw [absRun_snoc]; rfl)
    have := hsame.cut 0 (fun _ => none) (zhong ++ guo ++ ren) false
    simp only [cut] at this
    have h2 := (tie_cut 1 (le_refl _) d0 hr).1 (by norm_num)
    have e : cutDAGNoHMM {} d0 (zhong ++ guo ++ ren) = cutDAGNoHMM {} d (zhong ++ guo ++ ren) := by simpa using this
    rw [← e]
    exact h2

end examples
end Gse
