import Verif.Spec.Seam
import Verif.Proofs.Best
import Verif.Proofs.TrimCut
import Verif.Proofs.DagAll

/-! # Cutting a text in two -/

namespace Gse
open Spec

set_option linter.unusedSectionVars false

variable {F D : Type} [F64 F] [F32 D] [Narrow F D]

/-! ### Words -/

theorem beginsChar_cont {b : Bytes} (h : BeginsChar b) : ∀ c, b.head? = some c → isCont c.toNat = false := by
  intro c hc
  have := h c hc
  simp only [isCont, Bool.and_eq_false_iff, decide_eq_false_iff_not]
  omega

/-- Grouping the characters of two texts with a seam between them. -/
theorem grp_seam [Unicode] (cfg : SplitCfg) : ∀ (us vs P : List Bytes),
    (∀ u v, (P ++ us).getLast? = some u → vs.head? = some v → ¬ (wordChar cfg u = true ∧ wordChar cfg v = true)) → (∀ u ∈ P, wordChar cfg u = true) →
    grp cfg P (us ++ vs) = grp cfg P us ++ grp cfg [] vs
  | [], vs, P, h, hP => by
    cases vs with
    | nil => simp [grp]
    | cons v vs =>
      rcases List.eq_nil_or_concat P with rfl | ⟨P', u, rfl⟩
      · simp [grp]
      · rw [List.concat_eq_append] at *
        have := h u v (by simp) rfl
        have hv : wordChar cfg v = false := by
          cases hw : wordChar cfg v with
          | false => rfl
          | true => exact absurd ⟨hP u (by simp), hw⟩ this
        simp [grp, hv]
  | u :: us, vs, P, h, hP => by
    simp only [List.cons_append, grp]
    split
    · rename_i hu
      exact grp_seam cfg us vs (P ++ [u]) (fun a b ha hb => h a b (by simpa using ha) hb) (by
        intro x hx
        rcases List.mem_append.1 hx with hx | hx
        · exact hP x hx
        · simp at hx; rw [hx]; exact hu)
    · rename_i hu
      rw [grp_seam cfg us vs [] (fun a b ha hb => by
        refine h a b ?_ hb
        rw [List.getLast?_append_cons]
        cases us with
        | nil => simp at ha
        | cons x us => rw [List.getLast?_cons_cons]; simpa using ha) (by simp)]
      simp

/-- The words of a text with a seam. -/
theorem split_seam [Unicode] {cfg : SplitCfg} {a b : Bytes} (h : IsSeam cfg a b) :
    splitTextToWords cfg (a ++ b) = splitTextToWords cfg a ++ splitTextToWords cfg b := by
  rw [splitTextToWords_eq, splitTextToWords_eq, splitTextToWords_eq, chars_append_start a b (beginsChar_cont h.1), ← List.map_append]
  congr 1
  unfold grpAll
  cases ha : cfg.alphaNum with
  | true => simp
  | false =>
    simp only [Bool.false_eq_true, if_false]
    exact grp_seam cfg _ _ [] (by simpa using h.2 ha) (by simp)

/-! ### Segments -/

theorem wordsOf_two (a b : List (Token F D)) : wordsOf (a ++ b) = wordsOf a ++ wordsOf b := by simp [wordsOf]

theorem seg_seam {d : Dictionary F D} {r : List Bytes} : ∀ (ts : List (Token F D)) (l : List Bytes), IsSegmentation d (l ++ r) ts → NoSpan d l r →
    ∃ p q, ts = p ++ q ∧ IsSegmentation d l p ∧ IsSegmentation d r q
  | [], l, h, _ => by
    have := h.1
    simp only [wordsOf, List.map_nil, List.flatten_nil] at this
    obtain ⟨rfl, rfl⟩ := List.append_eq_nil_iff.1 this.symm
    exact ⟨[], [], rfl, ⟨rfl, by simp⟩, ⟨rfl, by simp⟩⟩
  | t :: ts, l, h, hn => by
    have ht := h.2 t (by simp)
    have he : t.text ++ wordsOf ts = l ++ r := by rw [← h.1]; simp [wordsOf]
    by_cases hl : l = []
    · subst hl
      exact ⟨[], t :: ts, rfl, ⟨rfl, by simp⟩, by simpa using h⟩
    · rcases List.append_eq_append_iff.1 he with ⟨m, e1, e2⟩ | ⟨m, e1, e2⟩
      · -- the token ends before the seam
        obtain ⟨p, q, g1, g2, g3⟩ := seg_seam ts m ⟨e2, fun x hx => h.2 x (by simp [hx])⟩ (by
          intro w t' hw x y e hx hy ⟨s1, s2⟩
          exact hn w t' hw x y e hx hy ⟨by rw [e1]; exact s1.trans (List.suffix_append _ _), s2⟩)
        refine ⟨t :: p, q, by rw [g1]; rfl, ⟨?_, ?_⟩, g3⟩
        · rw [e1, ← g2.1]; simp [wordsOf]
        · intro x hx
          rcases List.mem_cons.1 hx with rfl | hx
          · exact ht
          · exact g2.2 x hx
      · by_cases hm : m = []
        · subst hm
          simp only [List.append_nil, List.nil_append] at e1 e2
          refine ⟨[t], ts, rfl, ⟨?_, by simpa using ht⟩, ⟨e2.symm, fun x hx => h.2 x (by simp [hx])⟩⟩
          simp [wordsOf, e1]
        · exfalso
          rcases ht.2 with hs | ⟨w, e, _⟩
          · exact hn _ t hs l m e1 hl hm ⟨List.suffix_refl _, ⟨_, e2.symm⟩⟩
          · have := congrArg List.length e1
            rw [e] at this
            simp [unknownTok] at this
            have h1 := List.length_pos_iff.2 hl
            have h2 := List.length_pos_iff.2 hm
            omega

theorem best_prefix {d : Dictionary F D} {ws : List Bytes} {p q : List (Token F D)} (h : IsBest d false ws (p ++ q)) :
    IsBest d false (wordsOf p) p := by
  refine ⟨⟨rfl, fun x hx => h.seg.2 x (by simp [hx])⟩, by simp, ?_, ?_⟩
  · intro p0 t0 q0 e p' t' halt _
    exact h.cheapest p0 t0 (q0 ++ q) (by simp [e]) p' t' halt (by simp)
  · intro p0 t0 q0 e p' t' halt _
    exact h.longest p0 t0 (q0 ++ q) (by simp [e]) p' t' halt (by simp)

section shift
variable [F32Shift D]
open F32Shift

theorem fin_piece {d : Dictionary F D} {ws : List Bytes} (hd : FinDist d ws) {ts : List (Token F D)} (h : IsSegmentation d ws ts) :
    ∀ t ∈ ts, fin t.distance := by
  intro t ht
  rcases (h.2 t ht).2 with g | ⟨w, rfl, _⟩
  · refine hd _ _ g ?_
    obtain ⟨a, b, rfl⟩ := List.append_of_mem ht
    exact ⟨wordsOf a, wordsOf b, by rw [← h.1]; simp [wordsOf]⟩
  · exact fin_c32

theorem foldl_cost : ∀ (ts : List (Token F D)), (∀ t ∈ ts, fin t.distance) → ∀ c : D, fin c →
    fin (cost ts) ∧ ts.foldl (fun c t => F32.add c t.distance) c = F32.add c (cost ts)
  | [], _, c, hc => ⟨fin_zero, by simp [cost, add_zero hc]⟩
  | t :: ts, h, c, hc => by
    have ht := h t (by simp)
    have h1 := foldl_cost ts (fun x hx => h x (by simp [hx])) (F32.add c t.distance) (fin_add hc ht)
    have h2 := foldl_cost ts (fun x hx => h x (by simp [hx])) (F32.add F32.zero t.distance) (fin_add fin_zero ht)
    have e : cost (t :: ts) = F32.add t.distance (cost ts) := by
      simp only [cost, List.foldl_cons]
      rw [h2.2, zero_add ht]; rfl
    refine ⟨by rw [e]; exact fin_add ht h1.1, ?_⟩
    rw [List.foldl_cons, h1.2, e, add_assoc hc ht h1.1]

theorem cost_append {p q : List (Token F D)} (hp : ∀ t ∈ p, fin t.distance) (hq : ∀ t ∈ q, fin t.distance) :
    cost (p ++ q) = F32.add (cost p) (cost q) := by
  have := (foldl_cost p hp F32.zero fin_zero).1
  rw [cost, List.foldl_append]
  exact (foldl_cost q hq _ this).2

theorem finDist_part {d : Dictionary F D} {ws us : List Bytes} (h : FinDist d ws) (hu : us <:+: ws) : FinDist d us :=
  fun w t ht hi => h w t ht (hi.trans hu)

theorem best_suffix {d : Dictionary F D} {ws : List Bytes} {p q : List (Token F D)} (hdp : FinDist d (wordsOf p)) (hdq : FinDist d (wordsOf q))
    (h : IsBest d false ws (p ++ q)) : IsBest d false (wordsOf q) q := by
  have hp : IsSegmentation d (wordsOf p) p := ⟨rfl, fun t ht => h.seg.2 t (by simp [ht])⟩
  have hq : ∀ t ∈ q, IsPiece d t := fun t ht => h.seg.2 t (by simp [ht])
  have fp := fin_piece hdp hp
  have fin_cost : ∀ us : List (Token F D), (∀ t ∈ us, fin t.distance) → fin (cost us) := fun us hu => (foldl_cost us hu F32.zero fin_zero).1
  have alt : ∀ q1 t q2, q = q1 ++ t :: q2 → ∀ p' t', IsSegmentation d (wordsOf (q1 ++ [t])) (p' ++ [t']) →
      (∀ x ∈ q1 ++ [t], fin x.distance) ∧ (∀ x ∈ p' ++ [t'], fin x.distance) ∧
      IsSegmentation d (wordsOf (p ++ q1 ++ [t])) (p ++ p' ++ [t']) := by
    intro q1 t q2 e p' t' halt
    have hd : FinDist d (wordsOf (q1 ++ [t])) := finDist_part hdq ⟨[], wordsOf q2, by rw [e]; simp [wordsOf]⟩
    refine ⟨fin_piece hd ⟨rfl, fun x hx => hq x (by rw [e]; simp at hx ⊢; tauto)⟩, fin_piece hd halt, ?_, ?_⟩
    · rw [List.append_assoc, List.append_assoc, wordsOf_two p, wordsOf_two p, halt.1]
    · intro x hx
      rw [List.append_assoc] at hx
      rcases List.mem_append.1 hx with hx | hx
      · exact hp.2 x hx
      · exact halt.2 x hx
  refine ⟨⟨rfl, hq⟩, by simp, ?_, ?_⟩
  · intro q1 t q2 e p' t' halt _
    obtain ⟨h1, h2, h3⟩ := alt q1 t q2 e p' t' halt
    have := h.cheapest (p ++ q1) t q2 (by simp [e]) (p ++ p') t' h3 (by simp)
    rw [List.append_assoc, List.append_assoc, cost_append fp h1, cost_append fp h2, gt_add (fin_cost _ h1) (fin_cost _ h2) (fin_cost _ fp)] at this
    exact this
  · intro q1 t q2 e p' t' halt _ hg
    obtain ⟨h1, h2, h3⟩ := alt q1 t q2 e p' t' halt
    refine h.longest (p ++ q1) t q2 (by simp [e]) (p ++ p') t' h3 (by simp) ?_
    rw [List.append_assoc, List.append_assoc, cost_append fp h1, cost_append fp h2, gt_add (fin_cost _ h2) (fin_cost _ h1) (fin_cost _ fp)]
    exact hg

end shift

theorem positions_append {d : Dictionary F D} : ∀ (r1 r2 : List TokRef) (ts : List (Token F D)) (_ : r1.map d.deref = ts.map some) (k : Nat),
    positions d (r1 ++ r2) k = (positions d r1 k).bind fun s1 => (positions d r2 (k + (wordsOf ts).flatten.length)).map fun s2 => s1 ++ s2
  | [], r2, ts, h, k => by
    cases ts with
    | nil => simp [positions, wordsOf]
    | cons => simp at h
  | r :: r1, r2, [], h, k => by simp at h
  | r :: r1, r2, t :: ts, h, k => by
    simp only [List.map_cons, List.cons.injEq] at h
    simp only [List.cons_append, positions, h.1, Option.bind_eq_bind, Option.bind_some, textSliceByteLen_eq]
    rw [positions_append r1 r2 ts h.2]
    have : k + (wordsOf (t :: ts)).flatten.length = k + t.text.flatten.length + (wordsOf ts).flatten.length := by
      simp [wordsOf]; omega
    rw [this]
    generalize positions d r1 (k + t.text.flatten.length) = o1
    generalize positions d r2 (k + t.text.flatten.length + (wordsOf ts).flatten.length) = o2
    cases o1 <;> cases o2 <;> rfl

theorem positions_shift {d : Dictionary F D} (n : Nat) : ∀ (rs : List TokRef) (k : Nat),
    positions d rs (k + n) = (positions d rs k).map (List.map (shiftSeg n))
  | [], k => by simp [positions]
  | r :: rs, k => by
    simp only [positions, Option.bind_eq_bind]
    cases d.deref r with
    | none => simp
    | some t =>
      simp only [Option.bind_some]
      rw [show k + n + textSliceByteLen t.text = k + textSliceByteLen t.text + n by omega, positions_shift n rs]
      cases positions d rs (k + textSliceByteLen t.text) <;> simp [shiftSeg]

/-! ### In search mode -/

theorem best_two {d : Dictionary F D} {l r : List Bytes} (hl : l ≠ []) (hr : r ≠ []) (hn : NoSpan d l r) {ts : List (Token F D)}
    (h : IsBest d true (l ++ r) ts) : IsBest d false (l ++ r) ts := by
  have two : ∀ us, IsSegmentation d (l ++ r) us → us.length ≠ 1 := by
    intro us hu h1
    obtain ⟨p, q, rfl, g1, g2⟩ := seg_seam us l hu hn
    have hp : p ≠ [] := by rintro rfl; exact hl g1.1.symm
    have hq : q ≠ [] := by rintro rfl; exact hr g2.1.symm
    have := List.length_pos_iff.2 hp
    have := List.length_pos_iff.2 hq
    simp at h1; omega
  have key : ∀ p t q, ts = p ++ t :: q → ∀ p' t', IsSegmentation d (wordsOf (p ++ [t])) (p' ++ [t']) → q = [] → p' ≠ [] := by
    rintro p t q e p' t' ha rfl rfl
    rw [show wordsOf (p ++ [t]) = l ++ r by rw [← h.seg.1, e]] at ha
    exact two _ ha (by simp)
  exact ⟨h.seg, by simp, fun p t q e p' t' ha _ => h.cheapest p t q e p' t' ha (fun _ => key p t q e p' t' ha),
    fun p t q e p' t' ha _ => h.longest p t q e p' t' ha (fun _ => key p t q e p' t' ha)⟩

/-! ### Routes -/

theorem noSpan_tail {d : Dictionary F D} {t l r : List Rune} (h : NoSpanRunes d (t ++ l) r) : NoSpanRunes d l r :=
  fun x y hx hy s1 s2 => h x y hx hy (s1.trans (List.suffix_append _ _)) s2

theorem startsWord_seam {d : Dictionary F D} {l r : List Rune} (hl : l ≠ []) (h : NoSpanRunes d l r) : StartsWord d (l ++ r) ↔ StartsWord d l := by
  constructor
  · rintro ⟨u, ⟨v, e⟩, hu, hp⟩
    rcases List.append_eq_append_iff.1 e with ⟨m, e1, e2⟩ | ⟨m, e1, e2⟩
    · exact ⟨u, ⟨m, e1.symm⟩, hu, hp⟩
    · by_cases hm : m = []
      · exact ⟨u, by rw [e1, hm]; simp, hu, hp⟩
      · rw [e1, h l m hl hm (List.suffix_refl _) ⟨v, e2.symm⟩] at hp
        cases hp
  · rintro ⟨u, hu, h1, h2⟩
    exact ⟨u, hu.trans (List.prefix_append _ _), h1, h2⟩

theorem route_join {d : Dictionary F D} {r : List Rune} {q : List (List Rune)} (hq : IsRoute d r q) {l : List Rune} {p : List (List Rune)}
    (hp : IsRoute d l p) : NoSpanRunes d l r → IsRoute d (l ++ r) (p ++ q) := by
  induction hp with
  | nil => intro _; simpa using hq
  | @cons t rest ps ht hk _ ih =>
    intro hn
    rw [List.append_assoc, List.cons_append]
    refine .cons ht ?_ (ih (noSpan_tail hn))
    rcases hk with hk | ⟨h1, h2⟩
    · exact .inl hk
    · refine .inr ⟨h1, ?_⟩
      rw [← List.append_assoc, startsWord_seam (by simp [ht]) hn]
      exact h2

theorem route_seam {d : Dictionary F D} {r : List Rune} : ∀ (ps : List (List Rune)) (l : List Rune), IsRoute d (l ++ r) ps → NoSpanRunes d l r →
    ∃ p q, ps = p ++ q ∧ IsRoute d l p ∧ IsRoute d r q
  | [], l, h, _ => by
    have := isRoute_flatten h
    obtain ⟨rfl, rfl⟩ := List.append_eq_nil_iff.1 this.symm
    exact ⟨[], [], rfl, .nil, .nil⟩
  | t :: ps, l, h, hn => by
    by_cases hl : l = []
    · subst hl; exact ⟨[], t :: ps, rfl, .nil, h⟩
    · generalize e : l ++ r = text at h
      cases h with
      | @cons _ rest _ ht hk hrest =>
        rcases List.append_eq_append_iff.1 e with ⟨m, e1, e2⟩ | ⟨m, e1, e2⟩
        · by_cases hm : m = []
          · subst hm
            simp only [List.append_nil, List.nil_append] at e1 e2
            subst e1 e2
            refine ⟨[t], ps, rfl, ?_, hrest⟩
            suffices h : IsRoute d (t ++ []) [t] by rwa [List.append_nil] at h
            refine .cons ht ?_ .nil
            rcases hk with hk | ⟨h1, h2⟩
            · exact .inl hk
            · exact .inr ⟨h1, by rw [List.append_nil, ← startsWord_seam (d := d) hl hn]; exact h2⟩
          · exfalso
            rcases hk with hk | ⟨h1, _⟩
            · rw [e1, hn l m hl hm (List.suffix_refl _) ⟨_, e2.symm⟩] at hk; cases hk
            · rw [e1] at h1
              have a := List.length_pos_iff.2 hl
              have b := List.length_pos_iff.2 hm
              simp at h1; omega
        · subst e1 e2
          obtain ⟨p, q, rfl, g1, g2⟩ := route_seam ps m hrest (noSpan_tail hn)
          refine ⟨t :: p, q, rfl, .cons ht ?_ g1, g2⟩
          rcases hk with hk | ⟨h1, h2⟩
          · exact .inl hk
          · refine .inr ⟨h1, ?_⟩
            rw [← startsWord_seam (r := r) (by simp [ht]) hn, List.append_assoc]
            exact h2

theorem best_route_suffix {T : F} {d : Dictionary F D} {text : List Rune} {p q : List (List Rune)} (h : IsBestRouteBy T d text (p ++ q))
    (hq : IsRoute d q.flatten q) : IsBestRouteBy T d q.flatten q :=
  ⟨hq, fun a b e => h.highest (p ++ a) b (by simp [e]), fun a t b e => h.longest (p ++ a) t b (by simp [e])⟩

section shift64
variable [F64Shift F] {T : F}
open F64Shift

theorem fin_score {d : Dictionary F D} : ∀ (ps : List (List Rune)), (∀ t ∈ ps, fin (pieceScoreBy T d t)) → fin (scoreBy T d ps)
  | [], _ => fin_zero
  | t :: ps, h => fin_add (h t (by simp)) (fin_score ps fun x hx => h x (by simp [hx]))

theorem score_append {d : Dictionary F D} {q : List (List Rune)} (hq : ∀ t ∈ q, fin (pieceScoreBy T d t)) :
    ∀ (p : List (List Rune)), (∀ t ∈ p, fin (pieceScoreBy T d t)) → scoreBy T d (p ++ q) = F64.add (scoreBy T d p) (scoreBy T d q)
  | [], _ => (zero_add (fin_score q hq)).symm
  | t :: p, h => by
    have h2 : ∀ x ∈ p, fin (pieceScoreBy T d x) := fun x hx => h x (by simp [hx])
    have := score_append hq p h2
    show F64.add _ (scoreBy T d (p ++ q)) = F64.add (F64.add _ (scoreBy T d p)) _
    rw [this, add_assoc (h t (by simp)) (fin_score p h2) (fin_score q hq)]

theorem route_swap {d : Dictionary F D} {b b' : List (List Rune)} (hb : IsRoute d b.flatten b') : ∀ {a : List (List Rune)} {text : List Rune},
    IsRoute d text (a ++ b) → IsRoute d text (a ++ b')
  | [], text, h => by
    have := isRoute_flatten h
    simp only [List.nil_append] at this ⊢
    rw [← this]; exact hb
  | t :: a, text, h => by
    cases h with
    | cons h1 h2 h3 => exact .cons h1 h2 (route_swap hb h3)

theorem best_route_prefix {d : Dictionary F D} {l r : List Rune} (hl : FinScoresBy T d l) (hr : FinScoresBy T d r) (hn : NoSpanRunes d l r)
    {p q : List (List Rune)} (hp : IsRoute d l p) (hq : IsRoute d r q) (h : IsBestRouteBy T d (l ++ r) (p ++ q)) : IsBestRouteBy T d l p := by
  have fq := hr q hq
  have fl := isRoute_flatten hp
  have fr := isRoute_flatten hq
  have tail : ∀ a b, p = a ++ b → NoSpanRunes d b.flatten r := by
    intro a b e
    rw [← fl, e, List.flatten_append] at hn
    exact noSpan_tail hn
  have fp := hl p hp
  have alt : ∀ a b, p = a ++ b → ∀ b', IsRoute d b.flatten b' → ∀ t ∈ b', fin (pieceScoreBy T d t) := by
    intro a b e b' hb' t ht
    refine hl (a ++ b') (route_swap hb' (by rw [← e]; exact hp)) t (by simp [ht])
  refine ⟨hp, ?_, ?_⟩
  · intro a b e b' hb'
    have h1 : ∀ x ∈ b, fin (pieceScoreBy T d x) := fun x hx => fp x (by simp [e, hx])
    have h2 := alt a b e b' hb'
    have := h.highest a (b ++ q) (by simp [e]) (b' ++ q) (by
      rw [List.flatten_append, fr]; exact route_join hq hb' (tail a b e))
    change F64.lt (scoreBy T d (b ++ q)) (scoreBy T d (b' ++ q)) = false at this
    rwa [score_append fq b h1, score_append fq b' h2, lt_add (fin_score _ h1) (fin_score _ h2) (fin_score _ fq)] at this
  · intro a t b e t' b' hb' hs
    have h1 : ∀ x ∈ t :: b, fin (pieceScoreBy T d x) := fun x hx => fp x (by rw [e]; simp at hx ⊢; tauto)
    have h2 := alt a (t :: b) e (t' :: b') hb'
    refine h.longest a t (b ++ q) (by simp [e]) t' (b' ++ q) ?_ ?_
    · have := route_join hq hb' (tail a (t :: b) e)
      rw [← List.cons_append, List.flatten_append, fr]; simpa using this
    · change F64.lt (scoreBy T d ((t' :: b') ++ q)) (scoreBy T d ((t :: b) ++ q)) = false
      rw [score_append fq _ h1, score_append fq _ h2, lt_add (fin_score _ h2) (fin_score _ h1) (fin_score _ fq)]
      exact hs

end shift64

theorem noHmmLoop_seam (y : List (List Rune)) : ∀ (x : List (List Rune)) (buf : List Rune),
    (∀ f, y.head? = some f → engFrag f = true → (x = [] → buf = []) ∧ ∀ g, x.getLast? = some g → engFrag g = false) →
    noHmmLoop (x ++ y) buf = noHmmLoop x buf ++ noHmmLoop y []
  | [], buf, h => by
    cases y with
    | nil => simp [noHmmLoop]
    | cons f y =>
      simp only [List.nil_append, noHmmLoop]
      by_cases hf : engFrag f = true
      · simp [hf, (h f rfl hf).1 rfl]
      · simp [hf]
  | g :: x, buf, h => by
    simp only [List.cons_append, noHmmLoop]
    have last : ∀ f, y.head? = some f → engFrag f = true → ∀ g', x.getLast? = some g' → engFrag g' = false := by
      intro f hf he g' hg'
      refine (h f hf he).2 g' ?_
      cases x with
      | nil => simp at hg'
      | cons a x => rw [List.getLast?_cons_cons]; exact hg'
    split
    · rename_i hg
      refine noHmmLoop_seam y x _ fun f hf he => ⟨?_, last f hf he⟩
      rintro rfl
      rw [(h f hf he).2 g (by simp)] at hg; cases hg
    · rw [noHmmLoop_seam y x [] fun f hf he => ⟨fun _ => rfl, last f hf he⟩]
      simp

/-! ### Full mode -/

theorem slice_left {α : Type} (l r : List α) (k j : Nat) (h : j ≤ l.length) : slice (l ++ r) k j = slice l k j := by
  by_cases hk : k ≤ l.length
  · rw [slice_eq_take_drop, slice_eq_take_drop, List.drop_append_of_le_length hk, List.take_append_of_le_length (by simp; omega)]
  · rw [slice_eq_take_drop, slice_eq_take_drop, show j - k = 0 by omega]; simp

theorem slice_right {α : Type} (l r : List α) (k j : Nat) : slice (l ++ r) (l.length + k) (l.length + j) = slice r k j := by
  rw [slice_eq_take_drop, slice_eq_take_drop, List.drop_append, show l.length + j - (l.length + k) = j - k by omega, List.drop_eq_nil_of_le (by omega)]
  simp

theorem endsFrom_left {d : Dictionary F D} {l r : List Rune} (hn : NoSpanRunes d l r) {k i : Nat} (hk : k < l.length) (hi : i ≤ l.length) :
    endsFrom d (l ++ r) k i = endsFrom d l k i := by
  unfold endsFrom
  have : List.range' i ((l ++ r).length - i) = List.range' i (l.length - i) ++ List.range' l.length r.length := by
    rw [show (l ++ r).length - i = (l.length - i) + r.length by simp; omega, ← List.range'_append,
      show i + 1 * (l.length - i) = l.length by omega]
  rw [this, List.filter_append]
  have h2 : (List.range' l.length r.length).filter (fun j => posWord d (slice (l ++ r) k (j + 1))) = [] := by
    rw [List.filter_eq_nil_iff]
    intro j hj
    rw [List.mem_range'_1] at hj
    have : slice (l ++ r) k (j + 1) = l.drop k ++ r.take (j + 1 - l.length) := by
      rw [slice_eq_take_drop, List.drop_append_of_le_length (by omega), List.take_append, List.take_of_length_le (by simp; omega)]
      congr 2; simp; omega
    rw [this, hn _ _ (by rw [← List.length_pos_iff]; simp; omega) (by rw [← List.length_pos_iff]; simp; omega) (List.drop_suffix _ _) (List.take_prefix _ _)]
    simp
  rw [h2, List.append_nil]
  apply List.filter_congr
  intro j hj
  rw [List.mem_range'_1] at hj
  rw [slice_left l r k (j + 1) (by omega)]

theorem endsFrom_right {d : Dictionary F D} (l r : List Rune) (k i : Nat) :
    endsFrom d (l ++ r) (l.length + k) (l.length + i) = (endsFrom d r k i).map (l.length + ·) := by
  unfold endsFrom
  rw [show (l ++ r).length - (l.length + i) = r.length - i by simp; omega]
  rw [show List.range' (l.length + i) (r.length - i) = (List.range' i (r.length - i)).map (l.length + ·) by
    rw [List.map_add_range'], List.filter_map]
  congr 1
  apply List.filter_congr
  intro j _
  simp only [Function.comp]
  rw [Nat.add_assoc, slice_right]

theorem emits_left {d : Dictionary F D} {l r : List Rune} (hn : NoSpanRunes d l r) {k : Nat} (st : Nat) (hk : k < l.length) :
    emits d (l ++ r) k st = emits d l k st := by
  unfold emits; rw [endsFrom_left hn hk (by omega)]

/-- An item moved to the right. -/
def movePair (n : Nat) (p : Nat × Nat) : Nat × Nat := (n + p.1, n + p.2)

theorem emits_right {d : Dictionary F D} (l r : List Rune) (k st : Nat) :
    emits d (l ++ r) (l.length + k) st = (emits d r k (st - l.length)).map (movePair l.length) := by
  unfold emits
  rw [Nat.add_assoc, endsFrom_right]
  by_cases he : endsFrom d r k (k + 1) = []
  · simp only [he, List.map_nil, if_true]
    by_cases hs : st ≤ l.length + k
    · rw [if_pos hs, if_pos (by omega)]; simp [movePair]
    · rw [if_neg hs, if_neg (by omega)]; rfl
  · rw [if_neg he, if_neg (by simpa using he)]
    simp [movePair, Function.comp_def, Nat.add_assoc]

theorem lastEnd_right (n : Nat) (ps : List (Nat × Nat)) (st : Nat) : lastEnd (ps.map (movePair n)) st - n = lastEnd ps (st - n) := by
  unfold lastEnd
  rw [List.getLast?_map]
  cases ps.getLast? <;> simp [movePair]

theorem itemsFrom_right {d : Dictionary F D} (l r : List Rune) : ∀ (m k st : Nat), r.length - k ≤ m →
    itemsFrom d (l ++ r) (l.length + k) st = (itemsFrom d r k (st - l.length)).map (movePair l.length)
  | 0, k, st, h => by rw [itemsFrom_end (by simp; omega), itemsFrom_end (by omega)]; rfl
  | m + 1, k, st, h => by
    by_cases hk : k < r.length
    · rw [itemsFrom_step (by simp; omega), itemsFrom_step hk, emits_right, List.map_append, Nat.add_assoc, itemsFrom_right l r m (k + 1) _ (by omega),
        lastEnd_right]
    · rw [itemsFrom_end (by simp; omega), itemsFrom_end (by omega)]; rfl

theorem itemsFrom_seam {d : Dictionary F D} {l r : List Rune} (hn : NoSpanRunes d l r) : ∀ (m k st : Nat), l.length - k ≤ m → k ≤ l.length → st ≤ l.length →
    itemsFrom d (l ++ r) k st = itemsFrom d l k st ++ (itemsFrom d r 0 0).map (movePair l.length)
  | 0, k, st, h, hk, hs => by
    have := itemsFrom_right (d := d) l r r.length 0 st (by omega)
    rw [itemsFrom_end (rs := l) (by omega), show k = l.length + 0 by omega, this, show st - l.length = 0 by omega]
    rfl
  | m + 1, k, st, h, hk, hs => by
    by_cases hlt : k < l.length
    · rw [itemsFrom_step (by simp; omega), itemsFrom_step hlt, emits_left hn st hlt, itemsFrom_seam hn m (k + 1) _ (by omega) (by omega), List.append_assoc]
      by_cases he : emits d l k st = []
      · rw [he]; simpa [lastEnd] using hs
      · obtain ⟨p, hp, e⟩ := lastEnd_mem (emits d l k st) st he
        rw [e]; exact (mem_emits hlt hp).2.2
    · exact itemsFrom_seam hn m k st (by omega) hk hs

end Gse
