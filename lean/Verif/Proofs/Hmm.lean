import Mathlib.Data.List.Induction
import Verif.Proofs.Encode
import Verif.Spec.Hmm

/-! Viterbi paths and word assembly. -/

namespace Gse
open Spec

theorem legal_prev {y0 y : Tag} : Legal y0 y ↔ y0 = (prevStatus y).1 ∨ y0 = (prevStatus y).2 := by
  constructor
  · intro h; cases h <;> simp [prevStatus]
  · intro h; cases y <;> simp [prevStatus] at h <;> rcases h with rfl | rfl <;> constructor

theorem byte_inj {a b : Tag} (h : tagRank a = tagRank b) : a = b := by
  cases a <;> cases b <;> simp [tagRank] at h ⊢

theorem byte_lt (a b : Tag) : a.byte < b.byte ↔ tagRank a < tagRank b := by
  cases a <;> cases b <;> decide

theorem not_endsWord {t : Tag} : ¬ EndsWord t ↔ t = .B ∨ t = .M := by
  cases t <;> simp [EndsWord]

variable {F D : Type} [F64 F] [F32 D]

theorem scoreFrom_append (c : HmmConst F) (em : EmitModel F) (v : F) (y0 : Tag) (ps : List (Rune × Tag)) (p q : Rune × Tag) :
    scoreFrom c em v y0 (ps ++ [p, q]) =
      F64.add (F64.add (scoreFrom c em v y0 (ps ++ [p])) (c.trans p.2 q.2)) (emitOf c em q.2 q.1) := by
  induction ps generalizing v y0 with
  | nil => rfl
  | cons x xs ih => exact ih _ _

theorem pairScore_append (c : HmmConst F) (em : EmitModel F) (ps : List (Rune × Tag)) (p q : Rune × Tag) :
    pairScore c em (ps ++ [p, q]) =
      F64.add (F64.add (pairScore c em (ps ++ [p])) (c.trans p.2 q.2)) (emitOf c em q.2 q.1) := by
  cases ps with
  | nil => rfl
  | cons x xs => exact scoreFrom_append c em _ _ xs p q

theorem tagScore_append (c : HmmConst F) (em : EmitModel F) (obs : List Rune) (r0 r : Rune) (ts : List Tag) (y0 y : Tag)
    (h : ts.length = obs.length) :
    tagScore c em (obs ++ [r0, r]) (ts ++ [y0, y]) =
      F64.add (F64.add (tagScore c em (obs ++ [r0]) (ts ++ [y0])) (c.trans y0 y)) (emitOf c em y r) := by
  unfold tagScore
  rw [List.zip_append h.symm, List.zip_append h.symm]
  exact pairScore_append c em _ _ _

/-- The tags after the last character do not count. -/
theorem tagScore_take (c : HmmConst F) (em : EmitModel F) (obs rest : List Rune) (ts : List Tag) (h : ts.length ≤ obs.length) :
    tagScore c em (obs ++ rest) ts = tagScore c em obs ts := by
  unfold tagScore
  congr 1
  induction obs generalizing ts with
  | nil => cases ts with
    | nil => simp
    | cons t ts => simp at h
  | cons o obs ih => cases ts with
    | nil => simp
    | cons t ts => simp at h ⊢; exact ih ts h

@[simp] theorem vtbFirst_get (c : HmmConst F) (em : EmitModel F) (r : Rune) (y : Tag) : (vtbFirst c em r).get y = vtbStart c em r y := by
  cases y <;> rfl
@[simp] theorem vtbStep_get (c : HmmConst F) (em : EmitModel F) (col : Column F) (r : Rune) (y : Tag) :
    (vtbStep c em col r).get y = vtbNext c em col r y := by
  cases y <;> rfl

theorem probTop_mem (a b : F × Tag) : probTop a b = a ∨ probTop a b = b := by
  unfold probTop; split <;> simp

/-- Structure of the paths of a column. -/
structure ColPath (c : HmmConst F) (em : EmitModel F) (obs : List Rune) (col : Column F) : Prop where
  path : ∀ y, ∃ p, (col.get y).2 = p ++ [y] ∧ p.length + 1 = obs.length ∧ List.IsChain Legal (p ++ [y])
  score : ∀ y, (col.get y).1 = tagScore c em obs (col.get y).2

theorem colPath_first (c : HmmConst F) (em : EmitModel F) (r : Rune) : ColPath c em [r] (vtbFirst c em r) where
  path y := ⟨[], by simp [vtbStart]⟩
  score y := by simp [vtbStart, tagScore, pairScore, scoreFrom]

theorem chain_snoc {p : List Tag} {y0 y : Tag} (h : List.IsChain Legal (p ++ [y0])) (hl : Legal y0 y) :
    List.IsChain Legal (p ++ [y0] ++ [y]) := by
  rw [List.isChain_append]
  exact ⟨h, List.isChain_singleton _, by simp [hl]⟩

theorem colPath_step {c : HmmConst F} {em : EmitModel F} {obs : List Rune} {r0 : Rune} {col : Column F} (r : Rune)
    (h : ColPath c em (obs ++ [r0]) col) : ColPath c em (obs ++ [r0, r]) (vtbStep c em col r) := by
  have key : ∀ y, ∃ y0, Legal y0 y ∧ ((vtbStep c em col r).get y).1 = (vtbCand c em col r y y0).1 ∧
      ((vtbStep c em col r).get y).2 = (col.get y0).2 ++ [y] := by
    intro y
    simp only [vtbStep_get, vtbNext]
    rcases probTop_mem (vtbCand c em col r y (prevStatus y).1) (vtbCand c em col r y (prevStatus y).2) with e | e <;> rw [e]
    · exact ⟨_, legal_prev.2 (Or.inl rfl), rfl, rfl⟩
    · exact ⟨_, legal_prev.2 (Or.inr rfl), rfl, rfl⟩
  constructor
  · intro y
    obtain ⟨y0, hl, _, h2⟩ := key y
    obtain ⟨p, e, hp, hc⟩ := h.path y0
    refine ⟨p ++ [y0], by rw [h2, e], by simp at hp ⊢; omega, chain_snoc hc hl⟩
  · intro y
    obtain ⟨y0, hl, h1, h2⟩ := key y
    obtain ⟨p, e, hp, hc⟩ := h.path y0
    rw [h1, h2, vtbCand, h.score y0, e, List.append_assoc]
    exact (tagScore_append c em obs r0 r p y0 y (by simp at hp; exact hp)).symm

theorem foldl_col {P : List Rune → Column F → Prop} (c : HmmConst F) (em : EmitModel F) (first : ∀ r, P [r] (vtbFirst c em r))
    (step : ∀ obs r0 r col, P (obs ++ [r0]) col → P (obs ++ [r0, r]) (vtbStep c em col r)) (r : Rune) (rs : List Rune) :
    P (r :: rs) (rs.foldl (vtbStep c em) (vtbFirst c em r)) := by
  induction rs using List.reverseRecOn with
  | nil => exact first r
  | append_singleton rs x ih =>
    rw [List.foldl_append]
    have hne : r :: rs ≠ [] := by simp
    obtain ⟨obs, r0, e⟩ : ∃ obs r0, r :: rs = obs ++ [r0] := ⟨_, _, (List.dropLast_append_getLast hne).symm⟩
    have := step obs r0 x _ (e ▸ ih)
    have e2 : r :: (rs ++ [x]) = obs ++ [r0, x] := by
      rw [← List.cons_append, e]; simp
    rw [e2]; exact this

/-- `Viterbi` returns a tagging and its score. -/
theorem viterbi_tagging (c : HmmConst F) (em : EmitModel F) (obs : List Rune) (h : obs ≠ []) :
    ∃ v ts, viterbi c em obs = some (v, ts) ∧ IsTagging obs ts ∧ v = tagScore c em obs ts := by
  cases obs with
  | nil => simp at h
  | cons r rs =>
    have hc := foldl_col (P := ColPath c em) c em (colPath_first c em) (fun obs r0 r col h => colPath_step r h) r rs
    refine ⟨_, _, rfl, ?_⟩
    generalize rs.foldl (vtbStep c em) (vtbFirst c em r) = col at hc
    have hy : ∃ y, EndsWord y ∧ (probTop (col.e.1, Tag.E) (col.s.1, Tag.S)) = ((col.get y).1, y) := by
      rcases probTop_mem (col.e.1, Tag.E) (col.s.1, Tag.S) with e | e <;> rw [e]
      · exact ⟨.E, Or.inl rfl, rfl⟩
      · exact ⟨.S, Or.inr rfl, rfl⟩
    obtain ⟨y, hy, e⟩ := hy
    rw [e]
    obtain ⟨p, e2, hp, hch⟩ := hc.path y
    refine ⟨⟨?_, ?_, ?_⟩, hc.score y⟩
    · simp [e2]; simp at hp; exact hp
    · rw [e2]; exact hch
    · simp [e2, hy]

section best

variable [L : F64Laws F]

theorem good_emitOf {c : HmmConst F} {em : EmitModel F} (g : GoodModel c em) (y : Tag) (r : Rune) : F64Laws.good (emitOf c em y r) := by
  unfold emitOf
  cases h : em y r with
  | none => exact g.minFloat
  | some v => exact g.emit y r v h

theorem good_scoreFrom {c : HmmConst F} {em : EmitModel F} (g : GoodModel c em) (v : F) (y0 : Tag) (ps : List (Rune × Tag))
    (hv : F64Laws.good v) : F64Laws.good (scoreFrom c em v y0 ps) := by
  induction ps generalizing v y0 with
  | nil => exact hv
  | cons p ps ih => exact ih _ _ (L.good_add (L.good_add hv (g.trans _ _)) (good_emitOf g _ _))

theorem good_tagScore {c : HmmConst F} {em : EmitModel F} (g : GoodModel c em) (obs : List Rune) (ts : List Tag) :
    F64Laws.good (tagScore c em obs ts) := by
  unfold tagScore
  cases obs.zip ts with
  | nil => exact L.good_zero
  | cons p ps => exact good_scoreFrom g _ _ _ (L.good_add (good_emitOf g _ _) (g.start _))

theorem add_mono_right {a b c : F} (ha : L.good a) (hb : L.good b) (hc : L.good c) (h : F64.lt a b = false) :
    F64.lt (F64.add a c) (F64.add b c) = false := by
  rw [L.add_comm ha hc, L.add_comm hb hc]; exact L.add_mono ha hb hc h

theorem le_trans64 {a b c : F} (ha : L.good a) (hb : L.good b) (hc : L.good c) (h1 : F64.lt a b = false) (h2 : F64.lt b c = false) :
    F64.lt a c = false := by
  by_contra h
  rw [Bool.not_eq_false] at h
  rcases L.lt_cotrans ha hb hc h with h | h <;> simp_all

theorem lt_irrefl64 {a : F} (ha : L.good a) : F64.lt a a = false := by
  by_contra h
  rw [Bool.not_eq_false] at h
  have := L.lt_asymm ha ha h
  simp_all

/-- The chosen candidate is not below the others, and among equals has the larger state. -/
theorem probTop_best {a b : F × Tag} (ha : L.good a.1) (hb : L.good b.1) :
    ∀ x, x = a ∨ x = b → F64.lt (probTop a b).1 x.1 = false ∧
      (F64.lt x.1 (probTop a b).1 = false → tagRank x.2 ≤ tagRank (probTop a b).2) := by
  have haa := lt_irrefl64 ha
  have hbb := lt_irrefl64 hb
  have e := L.eq_iff ha hb
  have h1 := @L.lt_asymm _ _ ha hb
  intro x hx
  unfold probTop probLess
  simp only [byte_lt]
  cases heq : F64.eq a.1 b.1 with
  | true =>
    obtain ⟨e1, e2⟩ := e.1 heq
    by_cases hlt : tagRank a.2 < tagRank b.2
    · simp only [hlt, decide_true, if_true]
      rcases hx with rfl | rfl
      · exact ⟨e2, fun _ => Nat.le_of_lt hlt⟩
      · exact ⟨hbb, fun _ => Nat.le_refl _⟩
    · simp only [hlt, decide_false, if_true, Bool.false_eq_true, if_false]
      rcases hx with rfl | rfl
      · exact ⟨haa, fun _ => Nat.le_refl _⟩
      · exact ⟨e1, fun _ => Nat.le_of_not_lt hlt⟩
  | false =>
    rw [heq] at e
    simp only [Bool.false_eq_true, if_false]
    cases hlt : F64.lt a.1 b.1 with
    | true =>
      have := h1 hlt
      simp only [if_true]
      rcases hx with rfl | rfl
      · exact ⟨this, fun h => absurd hlt (by simp [h])⟩
      · exact ⟨hbb, fun _ => Nat.le_refl _⟩
    | false =>
      simp only [Bool.false_eq_true, if_false]
      rcases hx with rfl | rfl
      · exact ⟨haa, fun _ => Nat.le_refl _⟩
      · refine ⟨hlt, fun h => ?_⟩
        exact absurd (e.2 ⟨hlt, h⟩) (by simp)

/-- Optimality of the tags of a path, at every character but the last choice of end state. -/
def PathBest (c : HmmConst F) (em : EmitModel F) (obs : List Rune) (ts : List Tag) : Prop :=
  ∀ p y q, ts = p ++ y :: q → ∀ p', p'.length = p.length → List.IsChain Legal (p' ++ [y]) →
    F64.lt (tagScore c em obs (p ++ [y])) (tagScore c em obs (p' ++ [y])) = false ∧
    (F64.lt (tagScore c em obs (p' ++ [y])) (tagScore c em obs (p ++ [y])) = false →
      ∀ t t', p.getLast? = some t → p'.getLast? = some t' → tagRank t' ≤ tagRank t)

theorem colBest_first {c : HmmConst F} {em : EmitModel F} (g : GoodModel c em) (r : Rune) (y : Tag) :
    PathBest c em [r] ((vtbFirst c em r).get y).2 := by
  intro p y' q e p' hl hc
  simp only [vtbFirst_get, vtbStart] at e
  cases p with
  | cons a p => simp at e
  | nil =>
    have hp' : p' = [] := List.length_eq_zero_iff.1 hl
    subst hp'
    exact ⟨lt_irrefl64 (good_tagScore g _ _), fun _ t t' h => by simp at h⟩

theorem chain_split {p' : List Tag} {y : Tag} (hp' : p' ≠ []) (hc : List.IsChain Legal (p' ++ [y])) :
    ∃ p0 y0, p' = p0 ++ [y0] ∧ Legal y0 y ∧ List.IsChain Legal (p0 ++ [y0]) := by
  refine ⟨p'.dropLast, p'.getLast hp', (List.dropLast_append_getLast hp').symm, ?_, ?_⟩
  · rw [List.isChain_append] at hc
    exact hc.2.2 _ (by simp [List.getLast?_eq_getLast_of_ne_nil hp']) _ (by simp)
  · rw [List.dropLast_append_getLast hp']
    exact (List.isChain_append.1 hc).1

theorem colBest_step {c : HmmConst F} {em : EmitModel F} (g : GoodModel c em) {obs : List Rune} {r0 : Rune} {col : Column F} (r : Rune)
    (h : ColPath c em (obs ++ [r0]) col) (hb : ∀ y, PathBest c em (obs ++ [r0]) (col.get y).2) (y : Tag) :
    PathBest c em (obs ++ [r0, r]) ((vtbStep c em col r).get y).2 := by
  have hgc : ∀ y0, L.good (vtbCand c em col r y y0).1 := by
    intro y0
    refine L.good_add (L.good_add ?_ (g.trans _ _)) (good_emitOf g _ _)
    rw [h.score]; exact good_tagScore g _ _
  have htop := probTop_best (hgc (prevStatus y).1) (hgc (prevStatus y).2)
  have hsel : ∃ y0, Legal y0 y ∧
      probTop (vtbCand c em col r y (prevStatus y).1) (vtbCand c em col r y (prevStatus y).2) = vtbCand c em col r y y0 := by
    rcases probTop_mem (vtbCand c em col r y (prevStatus y).1) (vtbCand c em col r y (prevStatus y).2) with e | e
    · exact ⟨_, legal_prev.2 (Or.inl rfl), e⟩
    · exact ⟨_, legal_prev.2 (Or.inr rfl), e⟩
  obtain ⟨y0, hl0, hsel⟩ := hsel
  obtain ⟨p0, e0, hp0, hc0⟩ := h.path y0
  have hstepget : ((vtbStep c em col r).get y).2 = (col.get y0).2 ++ [y] := by
    simp only [vtbStep_get, vtbNext, hsel]; rfl
  rw [hstepget]
  rw [hsel] at htop
  have htop' : ∀ y1, Legal y1 y → F64.lt (vtbCand c em col r y y0).1 (vtbCand c em col r y y1).1 = false ∧
      (F64.lt (vtbCand c em col r y y1).1 (vtbCand c em col r y y0).1 = false → tagRank y1 ≤ tagRank y0) := by
    intro y1 hl1
    have := htop (vtbCand c em col r y y1) (by rcases legal_prev.1 hl1 with e | e <;> rw [e] <;> simp)
    exact this
  have hsc : ∀ y1, (vtbCand c em col r y y1).1 = tagScore c em (obs ++ [r0, r]) ((col.get y1).2 ++ [y]) := by
    intro y1
    obtain ⟨p1, e1, hp1, _⟩ := h.path y1
    rw [vtbCand, h.score y1, e1, List.append_assoc]
    exact (tagScore_append c em obs r0 r p1 y1 y (by simp at hp1; exact hp1)).symm
  intro p y' q e p' hl hc
  rcases List.eq_nil_or_concat q with rfl | ⟨q', z, rfl⟩
  · -- the last tag
    have := List.append_inj' e rfl
    obtain ⟨rfl, hyy⟩ := this
    simp only [List.cons.injEq, and_true] at hyy
    subst hyy
    have hp'ne : p' ≠ [] := by
      rintro rfl
      rw [e0] at hl; simp at hl
    obtain ⟨p1, y1, rfl, hl1, hc1⟩ := chain_split hp'ne hc
    -- the best path to y1 is not below p1 ++ [y1]
    obtain ⟨b1, eb1, hb1, _⟩ := h.path y1
    have hlen1 : p1.length = b1.length := by
      rw [e0] at hl; simp at hl hp0 hb1; omega
    have hle := (hb y1 b1 y1 [] eb1 p1 hlen1 hc1).1
    have hlp1 : p1.length = obs.length := by simp at hb1; omega
    have hstep : F64.lt (tagScore c em (obs ++ [r0, r]) ((col.get y1).2 ++ [y])) (tagScore c em (obs ++ [r0, r]) (p1 ++ [y1] ++ [y])) = false := by
      rw [eb1, List.append_assoc, List.append_assoc]
      simp only [List.singleton_append]
      rw [tagScore_append c em obs r0 r b1 y1 y (by omega), tagScore_append c em obs r0 r p1 y1 y hlp1]
      have gg := fun ts => good_tagScore g (obs ++ [r0]) ts
      exact add_mono_right (L.good_add (gg _) (g.trans _ _)) (L.good_add (gg _) (g.trans _ _)) (good_emitOf g _ _)
        (add_mono_right (gg _) (gg _) (g.trans _ _) hle)
    obtain ⟨ht1, ht2⟩ := htop' y1 hl1
    rw [hsc y0, hsc y1] at ht1 ht2
    have gg := fun ts => good_tagScore g (obs ++ [r0, r]) ts
    refine ⟨le_trans64 (gg _) (gg _) (gg _) ht1 hstep, ?_⟩
    intro hge t t' htt htt'
    have e1 : t' = y1 := by simpa using htt'.symm
    have e2 : t = y0 := by rw [e0] at htt; simpa using htt.symm
    subst e1 e2
    exact ht2 (le_trans64 (gg _) (gg _) (gg _) hstep hge)
  · -- an earlier tag
    have e' : (col.get y0).2 ++ [y] = (p ++ y' :: q') ++ [z] := by simpa using e
    have := List.append_inj' e' rfl
    have hlen : (p ++ [y']).length ≤ (obs ++ [r0]).length := by
      have h2 := congrArg List.length this.1
      rw [e0] at h2; simp at h2 hp0 ⊢; omega
    have hlen' : (p' ++ [y']).length ≤ (obs ++ [r0]).length := by simp at hlen ⊢; omega
    have := hb y0 p y' q' this.1 p' hl hc
    have e3 : obs ++ [r0, r] = (obs ++ [r0]) ++ [r] := by simp
    rw [e3, tagScore_take c em _ [r] _ hlen, tagScore_take c em _ [r] _ hlen']
    exact this

theorem viterbi_best {c : HmmConst F} {em : EmitModel F} (g : GoodModel c em) {obs : List Rune} {v : F} {ts : List Tag}
    (h : viterbi c em obs = some (v, ts)) : IsBestTagging c em obs ts := by
  cases obs with
  | nil => simp [viterbi] at h
  | cons r rs =>
    obtain ⟨v', ts', h1, h2, h3⟩ := viterbi_tagging c em (r :: rs) (by simp)
    rw [h1] at h
    simp only [Option.some.injEq, Prod.mk.injEq] at h
    obtain ⟨e1, e2⟩ := h
    subst e2
    clear e1
    rename' ts' => ts
    have hc := foldl_col (P := fun obs col => ColPath c em obs col ∧ ∀ y, PathBest c em obs (col.get y).2) c em
      (fun r => ⟨colPath_first c em r, fun y => colBest_first g r y⟩)
      (fun obs r0 r col h => ⟨colPath_step r h.1, colBest_step g r h.1 h.2⟩) r rs
    simp only [viterbi] at h1
    generalize rs.foldl (vtbStep c em) (vtbFirst c em r) = col at hc h1
    simp only [Option.some.injEq, Prod.mk.injEq] at h1
    obtain ⟨hcp, hcb⟩ := hc
    have gg := fun ts => good_tagScore g (r :: rs) ts
    have ge : L.good (col.get .E).1 := by rw [hcp.score]; exact gg _
    have gs : L.good (col.get .S).1 := by rw [hcp.score]; exact gg _
    have hbest := probTop_best (a := (col.e.1, Tag.E)) (b := (col.s.1, Tag.S)) ge gs
    have hy : ∃ y, EndsWord y ∧ (probTop (col.e.1, Tag.E) (col.s.1, Tag.S)) = ((col.get y).1, y) := by
      rcases probTop_mem (col.e.1, Tag.E) (col.s.1, Tag.S) with e | e <;> rw [e]
      · exact ⟨.E, Or.inl rfl, rfl⟩
      · exact ⟨.S, Or.inr rfl, rfl⟩
    obtain ⟨y, hyw, e⟩ := hy
    rw [e] at h1 hbest
    simp only at h1
    obtain ⟨hv, hts⟩ := h1
    obtain ⟨p, ep, hp, hch⟩ := hcp.path y
    have hfin : ∀ ts', IsTagging (r :: rs) ts' →
        F64.lt (tagScore c em (r :: rs) ts) (tagScore c em (r :: rs) ts') = false ∧
        (F64.lt (tagScore c em (r :: rs) ts') (tagScore c em (r :: rs) ts) = false →
          ∀ t t', ts.getLast? = some t → ts'.getLast? = some t' → tagRank t' ≤ tagRank t) := by
      intro ts' ht'
      have hne : ts' ≠ [] := by
        rintro rfl; have := ht'.length; simp at this
      obtain ⟨p', y', rfl⟩ : ∃ p' y', ts' = p' ++ [y'] := ⟨_, _, (List.dropLast_append_getLast hne).symm⟩
      have hy' : EndsWord y' := ht'.last y' (by simp)
      obtain ⟨b, eb, hbl, _⟩ := hcp.path y'
      have hl : p'.length = b.length := by have := ht'.length; simp at this hbl; omega
      have h1 := (hcb y' b y' [] eb p' hl ht'.legal).1
      have hx := hbest ((col.get y').1, y') (by
        rcases hy' with rfl | rfl
        · exact Or.inl rfl
        · exact Or.inr rfl)
      simp only [hcp.score] at hx
      rw [← eb] at h1
      rw [← hts]
      refine ⟨le_trans64 (gg _) (gg _) (gg _) hx.1 h1, ?_⟩
      intro hge t t' htt htt'
      rw [ep] at htt
      simp only [List.getLast?_append, List.getLast?_singleton, Option.some_or, Option.some.injEq] at htt htt'
      subst htt htt'
      exact hx.2 (le_trans64 (gg _) (gg _) (gg _) h1 hge)
    refine ⟨h2, fun ts' h => (hfin ts' h).1, fun ts' h => (hfin ts' h).2, ?_, ?_⟩
    · intro p y' q e' p' hl hc
      exact (hcb y p y' q (hts.trans e') p' hl hc).1
    · intro p y' q e' p' hl hc
      exact (hcb y p y' q (hts.trans e') p' hl hc).2

omit L in
/-- There is only one best tagging. -/
theorem bestTagging_unique {c : HmmConst F} {em : EmitModel F} {obs : List Rune} {ts ts' : List Tag}
    (h : IsBestTagging c em obs ts) (h' : IsBestTagging c em obs ts') : ts = ts' := by
  have hlen : ts.length = ts'.length := h.tagging.length.trans h'.tagging.length.symm
  have step : ∀ p p' q, p.length = p'.length → ts = p ++ q → ts' = p' ++ q → p.getLast? = p'.getLast? := by
    intro p p' q hl e e'
    rcases List.eq_nil_or_concat p with rfl | ⟨p0, t, rfl⟩
    · have : p' = [] := List.length_eq_zero_iff.1 (by simpa using hl.symm)
      rw [this]
    rcases List.eq_nil_or_concat p' with rfl | ⟨p0', t', rfl⟩
    · simp at hl
    cases q with
    | nil =>
      simp only [List.append_nil] at e e'
      have h1 := h.tie ts' h'.tagging (h'.highest ts h.tagging) t t' (by simp [e]) (by simp [e'])
      have h2 := h'.tie ts h.tagging (h.highest ts' h'.tagging) t' t (by simp [e']) (by simp [e])
      simp [byte_inj (Nat.le_antisymm h2 h1)]
    | cons y q =>
      have hc : List.IsChain Legal (p0 ++ [t] ++ [y]) := by
        have := h.tagging.legal
        rw [e] at this
        exact (List.isChain_append.1 (by simpa using this : List.IsChain Legal ((p0 ++ [t] ++ [y]) ++ q))).1
      have hc' : List.IsChain Legal (p0' ++ [t'] ++ [y]) := by
        have := h'.tagging.legal
        rw [e'] at this
        exact (List.isChain_append.1 (by simpa using this : List.IsChain Legal ((p0' ++ [t'] ++ [y]) ++ q))).1
      have h1 := h.tie' _ y q (by simpa using e) (p0' ++ [t']) (by simpa using hl.symm) hc'
        (h'.highest' _ y q (by simpa using e') (p0 ++ [t]) (by simpa using hl) hc) t t' (by simp) (by simp)
      have h2 := h'.tie' _ y q (by simpa using e') (p0 ++ [t]) (by simpa using hl) hc
        (h.highest' _ y q (by simpa using e) (p0' ++ [t']) (by simpa using hl.symm) hc') t' t (by simp) (by simp)
      simp [byte_inj (Nat.le_antisymm h2 h1)]
  have : ∀ n, ∀ p p' q, p.length = n → p'.length = n → ts = p ++ q → ts' = p' ++ q → ts = ts' := by
    intro n
    induction n with
    | zero =>
      intro p p' q hp hp' e e'
      rw [List.length_eq_zero_iff.1 hp] at e
      rw [List.length_eq_zero_iff.1 hp'] at e'
      rw [e, e']
    | succ n ih =>
      intro p p' q hp hp' e e'
      have hs := step p p' q (hp.trans hp'.symm) e e'
      have hpn : p ≠ [] := by rintro rfl; simp at hp
      have hpn' : p' ≠ [] := by rintro rfl; simp at hp'
      rw [List.getLast?_eq_getLast_of_ne_nil hpn, List.getLast?_eq_getLast_of_ne_nil hpn', Option.some.injEq] at hs
      refine ih p.dropLast p'.dropLast (p.getLast hpn :: q) (by simp [hp]) (by simp [hp']) ?_ ?_
      · rw [e]
        conv => lhs; rw [← List.dropLast_append_getLast hpn]
        simp
      · rw [e']
        conv => lhs; rw [← List.dropLast_append_getLast hpn']
        simp [hs]
  exact this ts.length ts ts' [] rfl hlen.symm (by simp) (by simp)

end best

theorem slice_snoc {α : Type} (rs : List α) (a i : Nat) (c : α) (cs : List α) (h : rs.drop i = c :: cs) (ha : a ≤ i) :
    slice rs a (i + 1) = slice rs a i ++ [c] := by
  unfold slice
  have h1 : i + 1 - a = (i - a) + 1 := by omega
  have h2 : (rs.drop a)[i - a]? = some c := by
    rw [List.getElem?_drop, show a + (i - a) = i by omega]
    have := congrArg List.head? h
    simpa [List.head?_drop] using this
  rw [h1, List.take_add_one, h2]; rfl

theorem slice_self {α : Type} (rs : List α) (a : Nat) : slice rs a a = [] := by simp [slice]

theorem drop_of_drop_cons {α : Type} {rs : List α} {i : Nat} {c : α} {cs : List α} (h : rs.drop i = c :: cs) : rs.drop (i + 1) = cs := by
  have : rs.drop (i + 1) = (rs.drop i).drop 1 := by rw [List.drop_drop]
  rw [this, h]; rfl

theorem wordsLoop_legal (rs : List Rune) (cs : List Rune) (ts pt : List Tag) (i begin' next : Nat) (hcs : rs.drop i = cs)
    (hi : i ≤ rs.length) (hlen : ts.length = cs.length) (hc : List.IsChain Legal ts) (hn : next ≤ i) (hpt : pt.length = i - next)
    (hpe : ∀ t ∈ pt, ¬ EndsWord t)
    (hb : (next < i ∧ begin' = next ∧ ∀ t ∈ ts.head?, t = .M ∨ t = .E) ∨ (next = i ∧ (begin' = i ∨ ∀ t ∈ ts.head?, t = .B ∨ t = .S))) :
    ∃ ws, TagWords (rs.drop next) (pt ++ ts) ws ∧
      ((wordsLoop rs i cs ts begin' next).map fun r => if r.2 < rs.length then r.1 ++ [encode (rs.drop r.2)] else r.1) =
        some (ws.map encode) := by
  induction ts generalizing cs pt i begin' next with
  | nil =>
    have hcn : cs = [] := List.length_eq_zero_iff.1 (by simpa using hlen.symm)
    subst hcn
    have hi' : i = rs.length := by
      have := congrArg List.length hcs; simp at this; omega
    simp only [wordsLoop, Option.map_some, List.append_nil, List.nil_append, Option.some.injEq]
    by_cases hlt : next < rs.length
    · refine ⟨[rs.drop next], TagWords.rest (by simp; omega) (by simp; omega) hpe, by simp [hlt]⟩
    · have : pt = [] := List.length_eq_zero_iff.1 (by omega)
      subst this
      refine ⟨[], ?_, by simp [hlt]⟩
      rw [List.drop_eq_nil_of_le (by omega)]; exact TagWords.nil
  | cons t ts ih =>
    cases cs with
    | nil => simp at hlen
    | cons c cs =>
    have hlen' : ts.length = cs.length := by simpa using hlen
    have hcs' := drop_of_drop_cons hcs
    have hi' : i + 1 ≤ rs.length := by
      have := congrArg List.length hcs; simp at this; omega
    have hc' : List.IsChain Legal ts := hc.tail
    have hhead : ∀ u ∈ ts.head?, Legal t u := by
      intro u hu
      cases ts with
      | nil => simp at hu
      | cons u' ts =>
        simp only [List.head?_cons, Option.mem_def, Option.some.injEq] at hu
        subst hu
        exact (List.isChain_cons_cons.1 hc).1
    have hdn : rs.drop next = slice rs next i ++ c :: cs := by
      rw [← hcs]
      have : rs.drop i = (rs.drop next).drop (i - next) := by rw [List.drop_drop]; congr 1; omega
      rw [this, slice, List.take_append_drop]
    have hdn' : rs.drop next = slice rs next (i + 1) ++ rs.drop (i + 1) := by
      rw [hdn, slice_snoc rs next i c cs hcs hn, hcs']; simp
    have hsl : (slice rs next (i + 1)).length = pt.length + 1 := by
      simp [slice]; omega
    cases t with
    | B =>
      have hnext : next = i := by
        rcases hb with ⟨_, _, h⟩ | ⟨h, _⟩
        · simp at h
        · exact h
      subst hnext
      have hpt0 : pt = [] := List.length_eq_zero_iff.1 (by omega)
      subst hpt0
      obtain ⟨ws, h1, h2⟩ := ih cs [.B] (next + 1) next next hcs' hi' hlen' hc' (by omega) (by simp) (by simp [EndsWord])
        (Or.inl ⟨by omega, rfl, fun u hu => by have := hhead u hu; cases this <;> simp⟩)
      exact ⟨ws, by simpa using h1, by simpa [wordsLoop] using h2⟩
    | M =>
      have hbn : begin' = next := by
        rcases hb with ⟨_, h, _⟩ | ⟨h, h' | h'⟩
        · exact h
        · omega
        · simp at h'
      obtain ⟨ws, h1, h2⟩ := ih cs (pt ++ [.M]) (i + 1) begin' next hcs' hi' hlen' hc' (by omega) (by simp; omega)
        (by
          intro u hu
          rcases List.mem_append.1 hu with h | h
          · exact hpe u h
          · simp at h; subst h; simp [EndsWord])
        (Or.inl ⟨by omega, hbn, fun u hu => by have := hhead u hu; cases this <;> simp⟩)
      exact ⟨ws, by simpa using h1, by simpa [wordsLoop] using h2⟩
    | E =>
      have hbn : begin' = next := by
        rcases hb with ⟨_, h, _⟩ | ⟨h, h' | h'⟩
        · exact h
        · omega
        · simp at h'
      obtain ⟨ws, h1, h2⟩ := ih cs [] (i + 1) begin' (i + 1) hcs' hi' hlen' hc' (by omega) (by simp) (by simp)
        (Or.inr ⟨rfl, Or.inr fun u hu => by have := hhead u hu; cases this <;> simp⟩)
      refine ⟨slice rs next (i + 1) :: ws, ?_, ?_⟩
      · rw [hdn']
        exact TagWords.word hsl hpe (Or.inl rfl) (by simpa using h1)
      · simp only [wordsLoop, Option.map_map]
        cases hw : wordsLoop rs (i + 1) cs ts begin' (i + 1) with
        | none => rw [hw] at h2; simp at h2
        | some r =>
          rw [hw] at h2
          simp only [Option.map_some, Option.some.injEq, Function.comp_apply, List.map_cons] at h2 ⊢
          rw [← h2, hbn]
          split <;> simp
    | S =>
      have hnext : next = i := by
        rcases hb with ⟨_, _, h⟩ | ⟨h, _⟩
        · simp at h
        · exact h
      subst hnext
      have hpt0 : pt = [] := List.length_eq_zero_iff.1 (by omega)
      subst hpt0
      obtain ⟨ws, h1, h2⟩ := ih cs [] (next + 1) begin' (next + 1) hcs' hi' hlen' hc' (by omega) (by simp) (by simp)
        (Or.inr ⟨rfl, Or.inr fun u hu => by have := hhead u hu; cases this <;> simp⟩)
      refine ⟨slice rs next (next + 1) :: ws, ?_, ?_⟩
      · rw [hdn']
        exact TagWords.word hsl hpe (Or.inr rfl) (by simpa using h1)
      · simp only [wordsLoop, Option.map_map]
        cases hw : wordsLoop rs (next + 1) cs ts begin' (next + 1) with
        | none => rw [hw] at h2; simp at h2
        | some r =>
          rw [hw] at h2
          simp only [Option.map_some, Option.some.injEq, Function.comp_apply, List.map_cons] at h2 ⊢
          rw [← h2, slice_snoc rs next next c cs hcs (by omega), slice_self]
          split <;> simp

theorem assemble_legal (rs : List Rune) (ts : List Tag) (hl : ts.length = rs.length) (hc : List.IsChain Legal ts) :
    ∃ ws, TagWords rs ts ws ∧ assemble rs ts = some (ws.map encode) := by
  obtain ⟨ws, h1, h2⟩ := wordsLoop_legal rs rs ts [] 0 0 0 (by simp) (by omega) hl hc (by omega) (by simp) (by simp)
    (Or.inr ⟨rfl, Or.inl rfl⟩)
  exact ⟨ws, by simpa using h1, by simpa [assemble] using h2⟩

theorem tagWords_flatten {rs : List Rune} {ts : List Tag} {ws : List (List Rune)} (h : TagWords rs ts ws) :
    ws.flatten = rs ∧ ∀ w ∈ ws, w ≠ [] := by
  induction h with
  | nil => simp
  | @word w rest inner ts last ws hl _ _ _ ih =>
    refine ⟨by simp [ih.1], ?_⟩
    intro u hu
    rcases List.mem_cons.1 hu with rfl | hu
    · rintro rfl; simp at hl
    · exact ih.2 u hu
  | rest h _ _ => simp [h]

/-- `internalCut` of a text with characters. -/
theorem internalCut_words (c : HmmConst F) (em : EmitModel F) (s : Bytes) (h : runes s ≠ []) :
    ∃ v ts ws, viterbi c em (runes s) = some (v, ts) ∧ TagWords (runes s) ts ws ∧
      internalCut c em s = some (ws.map encode) := by
  obtain ⟨v, ts, h1, h2, _⟩ := viterbi_tagging c em (runes s) h
  obtain ⟨ws, h3, h4⟩ := assemble_legal (runes s) ts h2.length h2.legal
  exact ⟨v, ts, ws, h1, h3, by rw [internalCut, h1]; exact h4⟩

end Gse
