import Verif.Proofs.Encode

/-! `SplitTextToWords` computes the documented grouping, and splitting is stable. -/

namespace Gse
open Spec

set_option linter.unusedSectionVars false

variable [U : Unicode]

theorem lowByte_eq (b : UInt8) : lowByte b = lowerAscii b := by
  simp only [lowByte, lowerAscii, Bool.and_eq_true, decide_eq_true_eq]
  split
  · grind
  · rfl

theorem toLowerBytes_eq (t : Bytes) : toLowerBytes t = t.map lowerAscii := by
  simp [toLowerBytes, funext lowByte_eq]

/-- Grouping of characters, computed left to right with a pending run. -/
def grp (cfg : SplitCfg) : List Bytes → List Bytes → List (List Bytes)
  | P, [] => if P = [] then [] else [P]
  | P, u :: us => if wordChar cfg u then grp cfg (P ++ [u]) us
      else (if P = [] then [] else [P]) ++ [u] :: grp cfg [] us

def grpAll (cfg : SplitCfg) (us : List Bytes) : List (List Bytes) :=
  if cfg.alphaNum then us.map fun u => [u] else grp cfg [] us

/-- The text of a group. -/
def emit (cfg : SplitCfg) (g : List Bytes) : Bytes := g.flatMap (normChar cfg)

theorem toLow_run (cfg : SplitCfg) (P : List Bytes) (h : ∀ u ∈ P, wordChar cfg u = true) :
    toLow cfg P.flatten = emit cfg P := by
  induction P with
  | nil => simp [toLow, toLowerBytes, emit]
  | cons u P ih =>
    have ih := ih (fun v hv => h v (by simp [hv]))
    have hu := h u (by simp)
    simp only [emit, List.flatMap_cons, List.flatten_cons] at *
    rw [← ih]
    simp only [normChar, hu, toLow]
    cases cfg.toLower <;> simp [toLowerBytes_eq]

theorem alnumAt_eq (cfg : SplitCfg) (p : Bytes) (hp : p ≠ []) :
    alnumAt cfg (decodeRune p).1 (decodeRune p).2 = wordChar cfg (p.take (decodeRune p).2) := by
  have h2 := decodeRune_size_le p
  simp only [alnumAt, wordChar, charRune, decodeRune_of_take p hp, List.length_take]
  congr 2
  simp; omega

theorem emit_nonword (cfg : SplitCfg) (u : Bytes) (h : wordChar cfg u = false) : emit cfg [u] = u := by
  simp [emit, normChar, h]

theorem emit_word_single (cfg : SplitCfg) (u : Bytes) (h : wordChar cfg u = true) : emit cfg [u] = toLow cfg u := by
  have := toLow_run cfg [u] (by simpa using h)
  simpa using this.symm

theorem slice_mid {α : Type} (a b c : List α) (m n : Nat) (hm : m = a.length) (hn : n = a.length + b.length) :
    slice (a ++ b ++ c) m n = b := by
  subst hm hn
  simp [slice]

theorem splitLoop_alphaNum (cfg : SplitCfg) (ha : cfg.alphaNum = true) (rest : Bytes) :
    ∀ (text done : Bytes) (fuel start : Nat) (inAl : Bool) (out : List Bytes),
      text = done ++ rest → rest.length ≤ fuel →
      splitLoop cfg text fuel done.length start inAl out
        = out ++ (chars rest).map (fun u => emit cfg [u]) := by
  induction rest using chars_induction with
  | nil =>
    intro text done fuel start inAl out ht hf
    cases fuel with
    | zero => simp [splitLoop, ha]
    | succ f => simp [splitLoop, ha, ht]
  | step p hp ih =>
    intro text done fuel start inAl out ht hf
    have h1 := decodeRune_size_pos p hp
    have h2 := decodeRune_size_le p
    have hlen : 0 < p.length := List.length_pos_iff.2 hp
    cases fuel with
    | zero => omega
    | succ f =>
      have hd : text.drop done.length = p := by simp [ht]
      have hlt : done.length < text.length := by rw [ht]; simp; omega
      have hs : slice text done.length (done.length + (decodeRune p).2) = p.take (decodeRune p).2 := by
        simp [slice, hd]
      have hlen2 : done.length + (decodeRune p).2 = (done ++ p.take (decodeRune p).2).length := by
        simp; omega
      rw [splitLoop, if_pos hlt, hd]
      dsimp only
      rw [alnumAt_eq cfg p hp, hs, chars_cons p hp, List.map_cons]
      simp only [ha]
      cases hw : wordChar cfg (p.take (decodeRune p).2) with
      | true =>
        simp only [if_true]
        rw [hlen2, ih text (done ++ p.take (decodeRune p).2) f _ _ _ (by simp [ht]) (by simp; omega),
          emit_word_single cfg _ hw]
        simp
      | false =>
        simp
        rw [hlen2, ih text (done ++ p.take (decodeRune p).2) f _ _ _ (by simp [ht]) (by simp; omega),
          emit_nonword cfg _ hw]
        simp

theorem splitLoop_runs (cfg : SplitCfg) (ha : cfg.alphaNum = false) (rest : Bytes) :
    ∀ (text done : Bytes) (P : List Bytes) (fuel start cur : Nat) (inAl : Bool) (out : List Bytes),
      text = done ++ P.flatten ++ rest → cur = (done ++ P.flatten).length → rest.length ≤ fuel →
      (∀ u ∈ P, wordChar cfg u = true ∧ u ≠ []) →
      (inAl = false → P = []) →
      (inAl = true → start = done.length ∧ (P = [] → done = [])) →
      splitLoop cfg text fuel cur start inAl out
        = out ++ (grp cfg P (chars rest)).map (emit cfg) := by
  induction rest using chars_induction with
  | nil =>
    intro text done P fuel start cur inAl out ht hc hf hP h0 h1
    have h0len : splitLoop cfg text fuel cur start inAl out = splitLoop cfg text 0 cur start inAl out := by
      cases fuel with
      | zero => rfl
      | succ f =>
        have hnl : ¬ cur < text.length := by simp [ht, hc]
        rw [splitLoop.eq_2, if_neg hnl]
    rw [h0len]
    cases inAl with
    | false => simp [splitLoop, h0 rfl, grp]
    | true =>
      obtain ⟨hs, hd⟩ := h1 rfl
      by_cases hPn : P = []
      · have := hd hPn
        subst hPn this
        simp at hc
        simp [splitLoop, grp, hc]
      · have hfl : P.flatten ≠ [] := by
          obtain ⟨u, P', rfl⟩ := List.exists_cons_of_ne_nil hPn
          have := (hP u (by simp)).2
          simp [this]
        have hne : cur ≠ 0 := by
          have := List.length_pos_iff.2 hfl
          rw [hc, List.length_append]; omega
        have hsl : slice text start cur = P.flatten := by
          rw [ht]; exact slice_mid _ _ _ _ _ hs (by simp [hc])
        simp only [splitLoop, ha, hsl, chars_nil, grp, hPn]
        simp [hne, toLow_run cfg P (fun u hu => (hP u hu).1)]
  | step p hp ih =>
    intro text done P fuel start cur inAl out ht hc hf hP h0 h1
    have hz1 := decodeRune_size_pos p hp
    have hz2 := decodeRune_size_le p
    have hlen : 0 < p.length := List.length_pos_iff.2 hp
    cases fuel with
    | zero => omega
    | succ f =>
      have hd : text.drop cur = p := by rw [ht, hc]; simp
      have hlt : cur < text.length := by rw [ht, hc]; simp; omega
      have hs : slice text cur (cur + (decodeRune p).2) = p.take (decodeRune p).2 := by
        simp [slice, hd]
      have hune := take_size_ne_nil p hp
      have htk : (p.take (decodeRune p).2).length = (decodeRune p).2 := by simp; omega
      rw [splitLoop, if_pos hlt, hd]
      dsimp only
      rw [alnumAt_eq cfg p hp, hs, chars_cons p hp]
      simp only [ha]
      cases hw : wordChar cfg (p.take (decodeRune p).2) with
      | true =>
        simp only [if_true, grp, hw]
        cases inAl with
        | false =>
          have hPn := h0 rfl
          subst hPn
          refine ih text done [p.take (decodeRune p).2] f _ _ true _ (by simp [ht]) (by rw [hc]; simp; omega) (by simp; omega)
            (by simpa using ⟨hw, by simpa using hune⟩) (by simp) (by simp [hc]) |>.trans ?_
          simp
        | true =>
          obtain ⟨hst, hdn⟩ := h1 rfl
          refine ih text done (P ++ [p.take (decodeRune p).2]) f _ _ true _ (by simp [ht]) (by rw [hc]; simp; omega) (by simp; omega)
            ?_ (by simp) (by simp [hst]) |>.trans ?_
          · intro u hu
            rcases List.mem_append.1 hu with h | h
            · exact hP u h
            · simp only [List.mem_singleton] at h; subst h; exact ⟨hw, hune⟩
          · simp
      | false =>
        simp only [grp, hw]
        have key : (if inAl = true then if (decide (cur ≠ 0) && !false) = true then out ++ [toLow cfg (slice text start cur)] else out else out)
            = out ++ (if P = [] then [] else [P]).map (emit cfg) := by
          cases inAl with
          | false => simp [h0 rfl]
          | true =>
            obtain ⟨hst, hdn⟩ := h1 rfl
            by_cases hPn : P = []
            · have := hdn hPn
              subst hPn this
              simp at hc
              simp [hc]
            · have hfl : P.flatten ≠ [] := by
                obtain ⟨u, P', rfl⟩ := List.exists_cons_of_ne_nil hPn
                have := (hP u (by simp)).2
                simp [this]
              have hne : cur ≠ 0 := by
                have := List.length_pos_iff.2 hfl
                rw [hc, List.length_append]; omega
              have hsl : slice text start cur = P.flatten := by
                rw [ht]; exact slice_mid _ _ _ _ _ hst (by simp [hc])
              simp [hne, hPn, hsl, toLow_run cfg P (fun u hu => (hP u hu).1)]
        simp only [Bool.false_eq_true, if_false]
        rw [key]
        refine ih text (done ++ P.flatten ++ p.take (decodeRune p).2) [] f _ _ false _ (by simp [ht])
          (by rw [hc]; simp; omega) (by simp; omega) (by simp) (by simp) (by simp) |>.trans ?_
        simp [emit_nonword cfg _ hw]

/-- The loop computes the grouping of the characters. -/
theorem splitTextToWords_eq (cfg : SplitCfg) (t : Bytes) :
    splitTextToWords cfg t = (grpAll cfg (chars t)).map (emit cfg) := by
  unfold splitTextToWords grpAll
  cases ha : cfg.alphaNum with
  | true =>
    have := splitLoop_alphaNum cfg ha t t [] t.length 0 true [] (by simp) (by simp)
    simp only [List.length_nil] at this
    simp [this, Function.comp_def]
  | false =>
    have := splitLoop_runs cfg ha t t [] [] t.length 0 0 true [] (by simp) (by simp) (by simp) (by simp) (by simp) (by simp)
    simp [this]

/-! ### The computed grouping is the unique documented one -/

/-- Kind and maximality, the parts of `IsGrouping` not mentioning the text. -/
structure GrOK (cfg : SplitCfg) (gs : List (List Bytes)) : Prop where
  kind : ∀ g ∈ gs, (∃ u, g = [u] ∧ wordChar cfg u = false) ∨
    (g ≠ [] ∧ (∀ u ∈ g, wordChar cfg u = true) ∧ (cfg.alphaNum = true → g.length = 1))
  maximal : cfg.alphaNum = false → ∀ l g h r, gs = l ++ g :: h :: r →
    ¬ ((∀ u ∈ g, wordChar cfg u = true) ∧ (∀ u ∈ h, wordChar cfg u = true))

theorem GrOK.infix {cfg : SplitCfg} {a b c : List (List Bytes)} (h : GrOK cfg (a ++ b ++ c)) : GrOK cfg b := by
  refine ⟨fun g hg => h.kind g (by simp [hg]), fun ha l g k r e => ?_⟩
  subst e
  exact h.maximal ha (a ++ l) g k (r ++ c) (by simp)

theorem grp_run (cfg : SplitCfg) (R rest : List Bytes) (h : ∀ u ∈ R, wordChar cfg u = true) :
    ∀ P, grp cfg P (R ++ rest) = grp cfg (P ++ R) rest := by
  induction R with
  | nil => simp
  | cons u R ih =>
    intro P
    have ih := ih (fun v hv => h v (by simp [hv]))
    simp [grp, h u (by simp), ih]

theorem grpAll_unique (cfg : SplitCfg) (gs : List (List Bytes)) (h : GrOK cfg gs) :
    grpAll cfg gs.flatten = gs := by
  unfold grpAll
  induction gs with
  | nil => simp [grp]
  | cons g gs ih =>
    have hinf : GrOK cfg gs := by
      have h' : GrOK cfg ([g] ++ gs ++ []) := by simpa using h
      exact h'.infix
    have ih := ih hinf
    cases ha : cfg.alphaNum with
    | true =>
      simp only [ha, if_true] at ih ⊢
      rw [List.flatten_cons, List.map_append, ih]
      rcases h.kind g (by simp) with ⟨u, rfl, _⟩ | ⟨_, _, h3⟩
      · simp
      · obtain ⟨u, rfl⟩ := List.length_eq_one_iff.1 (h3 ha)
        simp
    | false =>
      simp only [ha, Bool.false_eq_true, if_false] at ih ⊢
      rw [List.flatten_cons]
      rcases h.kind g (by simp) with ⟨u, rfl, hu⟩ | ⟨hne, hw, _⟩
      · simp [grp, hu, ih]
      · rw [grp_run cfg g _ hw, List.nil_append]
        cases gs with
        | nil => simp [grp, hne]
        | cons g2 gs2 =>
          have hmax := h.maximal ha [] g g2 gs2 rfl
          rcases h.kind g2 (by simp) with ⟨u, rfl, hu⟩ | ⟨hne2, hw2, _⟩
          · simp only [List.flatten_cons, List.cons_append, List.nil_append] at ih ⊢
            simp only [grp, hu] at ih ⊢
            simp only [hne]
            simp at ih ⊢
            exact ih
          · exact absurd ⟨hw, hw2⟩ hmax

theorem grp_flatten (cfg : SplitCfg) (us : List Bytes) : ∀ P, (grp cfg P us).flatten = P ++ us := by
  induction us with
  | nil => intro P; by_cases h : P = [] <;> simp [grp, h]
  | cons u us ih =>
    intro P
    by_cases hw : wordChar cfg u = true
    · simp [grp, hw, ih]
    · by_cases h : P = [] <;> simp [grp, hw, h, ih]

theorem grpAll_flatten (cfg : SplitCfg) (us : List Bytes) : (grpAll cfg us).flatten = us := by
  unfold grpAll
  split
  · induction us with
    | nil => rfl
    | cons u us ih => simp [ih]
  · simp [grp_flatten]

theorem grp_kind (cfg : SplitCfg) (ha : cfg.alphaNum = false) (us : List Bytes) :
    ∀ P, (∀ u ∈ P, wordChar cfg u = true) → ∀ g ∈ grp cfg P us,
      (∃ u, g = [u] ∧ wordChar cfg u = false) ∨
      (g ≠ [] ∧ (∀ u ∈ g, wordChar cfg u = true) ∧ (cfg.alphaNum = true → g.length = 1)) := by
  induction us with
  | nil =>
    intro P hP g hg
    by_cases h : P = []
    · simp [grp, h] at hg
    · simp [grp, h] at hg
      subst hg
      exact .inr ⟨h, hP, by simp [ha]⟩
  | cons u us ih =>
    intro P hP g hg
    by_cases hw : wordChar cfg u = true
    · simp only [grp, hw, if_true] at hg
      refine ih (P ++ [u]) ?_ g hg
      intro v hv
      rcases List.mem_append.1 hv with h | h
      · exact hP v h
      · simp at h; exact h ▸ hw
    · simp only [grp, hw] at hg
      simp only [Bool.false_eq_true, if_false] at hg
      rcases List.mem_append.1 hg with h | h
      · by_cases hp : P = []
        · simp [hp] at h
        · simp [hp] at h
          subst h
          exact .inr ⟨hp, hP, by simp [ha]⟩
      · rcases List.mem_cons.1 h with h | h
        · exact .inl ⟨u, h, by simpa using hw⟩
        · exact ih [] (by simp) g h

theorem grp_maximal (cfg : SplitCfg) (us : List Bytes) :
    ∀ P, ∀ l g h r, grp cfg P us = l ++ g :: h :: r →
    ¬ ((∀ u ∈ g, wordChar cfg u = true) ∧ (∀ u ∈ h, wordChar cfg u = true)) := by
  induction us with
  | nil =>
    intro P l g h r e
    by_cases hp : P = []
    · simp [grp, hp] at e
    · simp [grp, hp] at e
      have := congrArg List.length e
      simp at this
      omega
  | cons u us ih =>
    intro P l g h r e
    by_cases hw : wordChar cfg u = true
    · simp only [grp, hw, if_true] at e
      exact ih _ l g h r e
    · simp only [grp, hw] at e
      simp only [Bool.false_eq_true, if_false] at e
      by_cases hp : P = []
      · simp only [hp, if_true, List.nil_append] at e
        cases l with
        | nil =>
          simp at e
          intro hh
          have := hh.1 u (by simp [← e.1])
          exact hw this
        | cons a l =>
          simp at e
          exact ih [] l g h r e.2
      · simp only [hp, if_false] at e
        cases l with
        | nil =>
          simp at e
          intro hh
          have := hh.2 u (by simp [← e.2.1])
          exact hw this
        | cons a l =>
          simp at e
          cases l with
          | nil =>
            simp at e
            intro hh
            have := hh.1 u (by simp [← e.2.1])
            exact hw this
          | cons a l =>
            simp at e
            exact ih [] l g h r e.2.2

theorem grpAll_ok (cfg : SplitCfg) (us : List Bytes) : GrOK cfg (grpAll cfg us) := by
  unfold grpAll
  cases ha : cfg.alphaNum with
  | true =>
    refine ⟨?_, by simp [ha]⟩
    intro g hg
    simp at hg
    obtain ⟨u, hu, rfl⟩ := hg
    cases hw : wordChar cfg u with
    | true => exact .inr ⟨by simp, by simp [hw], by simp⟩
    | false => exact .inl ⟨u, rfl, hw⟩
  | false =>
    simp only [Bool.false_eq_true, if_false]
    exact ⟨grp_kind cfg ha us [] (by simp), fun _ => grp_maximal cfg us []⟩

/-! ### Stability -/

section stable
variable [UnicodeOK]

theorem normChar_lowEq (cfg : SplitCfg) (u : Bytes) : List.Forall₂ LowEq u (normChar cfg u) := by
  unfold normChar
  split
  · rename_i hh; clear hh
    induction u with
    | nil => exact .nil
    | cons b u ih => exact .cons (.inr rfl) ih
  · rename_i hh; clear hh
    induction u with
    | nil => exact .nil
    | cons b u ih => exact .cons (.inl rfl) ih

theorem forall2_flatMap {us : List Bytes} (f : Bytes → Bytes) (h : ∀ u ∈ us, List.Forall₂ LowEq u (f u)) :
    List.Forall₂ LowEq us.flatten (us.flatMap f) := by
  induction us with
  | nil => exact .nil
  | cons u us ih =>
    simp only [List.flatten_cons, List.flatMap_cons]
    exact List.rel_append (h u (by simp)) (ih fun v hv => h v (by simp [hv]))

theorem eq_of_flatten_lengths {a b : List Bytes} (h : List.Forall₂ (fun x y => x.length = y.length) a b)
    (e : a.flatten = b.flatten) : a = b := by
  induction h with
  | nil => rfl
  | cons h1 _ ih =>
    simp only [List.flatten_cons] at e
    obtain ⟨e1, e2⟩ := List.append_inj e h1
    rw [e1, ih e2]

theorem forall2_comp_len {us vs : List Bytes} (f : Bytes → Bytes) (hf : ∀ u ∈ us, (f u).length = u.length)
    (h : List.Forall₂ (List.Forall₂ LowEq) us vs) :
    List.Forall₂ (fun x y => x.length = y.length) vs (us.map f) := by
  induction h with
  | nil => exact .nil
  | cons h1 _ ih =>
    refine .cons ?_ (ih fun u hu => hf u (by simp [hu]))
    rw [hf _ (by simp)]
    exact h1.length_eq.symm

/-- The characters of normalised characters are the normalised characters. -/
theorem chars_norm (cfg : SplitCfg) (us : List Bytes) (h : chars us.flatten = us) :
    chars (us.flatMap (normChar cfg)) = us.map (normChar cfg) := by
  have h1 := forall2_flatMap (us := us) (normChar cfg) (fun u _ => normChar_lowEq cfg u)
  have h2 := chars_lowEq h1
  rw [h] at h2
  apply eq_of_flatten_lengths (forall2_comp_len _ (fun u _ => (normChar_lowEq cfg u).length_eq.symm) h2)
  rw [chars_flatten]; rfl

theorem wordChar_lowEq (cfg : SplitCfg) {u v : Bytes} (h : List.Forall₂ LowEq u v) :
    wordChar cfg v = wordChar cfg u := by
  have h1 := decodeRune_lowEq h
  have hl := h.length_eq
  simp only [wordChar, charRune, ← hl]
  rcases h1.2 with h2 | ⟨ha, hb, h2, _⟩
  · rw [h2]
  · have l1 := UnicodeOK.upper_letter _ ha hb
    have l2 := UnicodeOK.lower_letter ((decodeRune v).1) (by omega) (by omega)
    rw [l1.1, l1.2, l2.1, l2.2]

theorem lowerAscii_idem (b : UInt8) : lowerAscii (lowerAscii b) = lowerAscii b := by
  apply UInt8.toNat_inj.1
  have h1 := lowerAscii_toNat b
  have h2 := lowerAscii_toNat (lowerAscii b)
  split at h1 <;> split at h2 <;> omega

theorem normChar_idem (cfg : SplitCfg) (u : Bytes) : normChar cfg (normChar cfg u) = normChar cfg u := by
  have h := wordChar_lowEq cfg (normChar_lowEq cfg u)
  by_cases hc : wordChar cfg u = true ∧ cfg.toLower = true
  · have e : normChar cfg u = u.map lowerAscii := by simp [normChar, hc]
    rw [e] at h ⊢
    rw [normChar, h, if_pos hc]
    simp [lowerAscii_idem]
  · have e : normChar cfg u = u := by rw [normChar, if_neg hc]
    rw [e, e]

/-- Consecutive words of a split re-split to themselves. -/
theorem split_infix (cfg : SplitCfg) (t : Bytes) (l ws r : List Bytes)
    (h : splitTextToWords cfg t = l ++ ws ++ r) : splitTextToWords cfg ws.flatten = ws := by
  rw [splitTextToWords_eq] at h
  obtain ⟨gl, gr, hg, hl, hr⟩ := List.map_eq_append_iff.1 h
  obtain ⟨ga, gb, hg2, hl2, hr2⟩ := List.map_eq_append_iff.1 hl
  subst hg2
  have hcov := grpAll_flatten cfg (chars t)
  rw [hg] at hcov
  simp only [List.flatten_append] at hcov
  have hch : chars gb.flatten.flatten = gb.flatten := chars_infix hcov.symm
  have hflat : ws.flatten = gb.flatten.flatMap (normChar cfg) := by
    rw [← hr2]
    clear hr2 hch hcov hg hl
    induction gb with
    | nil => rfl
    | cons g gb ih => simp [emit, ih]
  have hch2 := chars_norm cfg _ hch
  rw [splitTextToWords_eq, hflat, hch2]
  have hok : GrOK cfg gb := by
    have := grpAll_ok cfg (chars t)
    rw [hg] at this
    exact this.infix
  have hok2 : GrOK cfg (gb.map (List.map (normChar cfg))) := by
    have hwc : ∀ u, wordChar cfg (normChar cfg u) = wordChar cfg u := fun u => wordChar_lowEq cfg (normChar_lowEq cfg u)
    constructor
    · intro g hg
      obtain ⟨g0, hg0, rfl⟩ := List.mem_map.1 hg
      rcases hok.kind g0 hg0 with ⟨u, rfl, hu⟩ | ⟨h1, h2, h3⟩
      · exact .inl ⟨normChar cfg u, by simp, by rw [hwc, hu]⟩
      · refine .inr ⟨by simpa using h1, ?_, by simpa using h3⟩
        intro u hu
        obtain ⟨u0, hu0, rfl⟩ := List.mem_map.1 hu
        rw [hwc]; exact h2 u0 hu0
    · intro ha l g k r e hh
      obtain ⟨l0, r0, e1, e2, e3⟩ := List.map_eq_append_iff.1 e
      obtain ⟨g0, r1, e4, e5, e6⟩ := List.map_eq_cons_iff.1 e3
      obtain ⟨k0, r2, e7, e8, e9⟩ := List.map_eq_cons_iff.1 e6
      subst e5 e8 e7 e4
      refine hok.maximal ha l0 g0 k0 r2 e1 ⟨fun u hu => ?_, fun u hu => ?_⟩
      · rw [← hwc]; exact hh.1 _ (List.mem_map_of_mem hu)
      · rw [← hwc]; exact hh.2 _ (List.mem_map_of_mem hu)
  have hfl2 : gb.flatten.map (normChar cfg) = (gb.map (List.map (normChar cfg))).flatten := by
    rw [List.map_flatten]
  rw [hfl2, grpAll_unique cfg _ hok2, ← hr2, List.map_map]
  apply List.map_congr_left
  intro g _
  simp [emit, List.flatMap_map, normChar_idem]

/-- Split coherence: consecutive words of one split that spell the same bytes as another split are the
same words. -/
theorem split_coherent (cfg : SplitCfg) (t t' : Bytes) (l ws r : List Bytes)
    (h : splitTextToWords cfg t = l ++ ws ++ r)
    (e : ws.flatten = (splitTextToWords cfg t').flatten) : ws = splitTextToWords cfg t' := by
  have h1 := split_infix cfg t l ws r h
  have h2 := split_infix cfg t' [] (splitTextToWords cfg t') [] (by simp)
  rw [← h1, e, h2]

end stable

/-- Words are never empty. -/
theorem split_ne_nil (cfg : SplitCfg) (t w : Bytes) (h : w ∈ splitTextToWords cfg t) : w ≠ [] := by
  rw [splitTextToWords_eq] at h
  obtain ⟨g, hg, rfl⟩ := List.mem_map.1 h
  have hok := grpAll_ok cfg (chars t)
  have hne : g ≠ [] := by
    rcases hok.kind g hg with ⟨u, rfl, _⟩ | ⟨h, _⟩
    · simp
    · exact h
  obtain ⟨u, g', rfl⟩ := List.exists_cons_of_ne_nil hne
  have hu : u ∈ chars t := by
    have := grpAll_flatten cfg (chars t)
    rw [← this]
    exact List.mem_flatten_of_mem hg (by simp)
  have := chars_ne_nil hu
  simp [emit, normChar]
  intro e
  split at e <;> simp_all

end Gse
