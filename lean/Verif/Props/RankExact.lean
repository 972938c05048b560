import Verif.Spec.RankExact
import Verif.Props.TextRank
import Mathlib.Tactic.FieldSimp
import Mathlib.Tactic.Linarith

/-!
# C122: without rounding TextRank has one ranking, and its reverse
-/

namespace Gse
open Spec

section exact
attribute [local instance] ratF64 ratRound

/-- The summands of the edges at a word. -/
theorem nbrs_sum (f : Bytes → ℚ) (es : List ((Bytes × Bytes) × ℚ)) (n : Bytes) :
    ((nbrs es n).map fun e => e.2 * f e.1).sum =
      ((es.filter fun e => e.1.1 = n).map fun e => e.2 * f e.1.2).sum + ((es.filter fun e => e.1.2 = n).map fun e => e.2 * f e.1.1).sum := by
  induction es with
  | nil => simp [nbrs]
  | cons e es ih =>
    have : nbrs (e :: es) n = ((if e.1.1 = n then [(e.1.2, e.2)] else []) ++ (if e.1.2 = n then [(e.1.1, e.2)] else [])) ++ nbrs es n := rfl
    rw [this, List.map_append, List.sum_append, ih, List.filter_cons, List.filter_cons]
    by_cases h1 : e.1.1 = n <;> by_cases h2 : e.1.2 = n <;> simp [h1, h2] <;> ring

theorem foldl_sum {α : Type} (g : α → ℚ) (l : List α) (z : ℚ) : l.foldl (fun s e => s + g e) z = z + (l.map g).sum := by
  induction l generalizing z with
  | nil => simp
  | cons a l ih => rw [List.foldl_cons, ih, List.map_cons, List.sum_cons]; ring

theorem sum_filter_zero {α : Type} (p : α → Bool) (g : α → ℚ) (l : List α) (h : ∀ x ∈ l, p x = false → g x = 0) : ((l.filter p).map g).sum = (l.map g).sum := by
  induction l with
  | nil => rfl
  | cons a l ih =>
    have ih := ih fun x hx => h x (by simp [hx])
    rw [List.filter_cons]
    cases hp : p a with
    | true => simp [ih]
    | false => simp [ih, h a (by simp) hp]

theorem edges_out {allow : List Bytes} {items : List SegPos} {es : List ((Bytes × Bytes) × ℚ)} {words : List Bytes} (he : IsEdges allow items es)
    (hw : IsRankWords allow items words) (f : Bytes → ℚ) (n : Bytes) :
    ((es.filter fun e => e.1.1 = n).map fun e => e.2 * f e.1.2).sum = (words.map fun m => (coCount allow items n m : ℚ) * f m).sum := by
  have hn : es.Nodup := List.Nodup.of_map _ he.nodup
  have hp : (es.filter fun e => e.1.1 = n).Perm ((words.filter fun m => decide (0 < coCount allow items n m)).map fun m => ((n, m), (coCount allow items n m : ℚ))) := by
    refine (List.perm_ext_iff_of_nodup (hn.filter _) ?_).2 ?_
    · refine ((rankWords_nodup hw).filter _).map fun a b e => ?_
      simp only [Prod.mk.injEq, true_and] at e
      exact e.1
    · rintro ⟨⟨a, b⟩, v⟩
      rw [List.mem_filter, he.mem, List.mem_map]
      constructor
      · rintro ⟨⟨h1, h2⟩, h3⟩
        simp only [decide_eq_true_eq] at h3
        subst h3
        exact ⟨b, by rw [List.mem_filter]; exact ⟨(hw.mem b).2 ⟨a, .inr h1⟩, by simpa using h1⟩, by rw [h2]; rfl⟩
      · rintro ⟨m, h1, h2⟩
        rw [List.mem_filter, decide_eq_true_eq] at h1
        simp only [Prod.mk.injEq] at h2
        obtain ⟨⟨rfl, rfl⟩, rfl⟩ := h2
        exact ⟨⟨h1.2, rfl⟩, by simp⟩
  rw [(hp.map _).sum_eq, List.map_map]
  refine sum_filter_zero _ _ _ fun x _ hx => ?_
  simp only [decide_eq_false_iff_not, not_lt, Nat.le_zero] at hx
  rw [Function.comp_apply]
  simp [hx]

theorem edges_in {allow : List Bytes} {items : List SegPos} {es : List ((Bytes × Bytes) × ℚ)} {words : List Bytes} (he : IsEdges allow items es)
    (hw : IsRankWords allow items words) (f : Bytes → ℚ) (n : Bytes) :
    ((es.filter fun e => e.1.2 = n).map fun e => e.2 * f e.1.1).sum = (words.map fun m => (coCount allow items m n : ℚ) * f m).sum := by
  have hn : es.Nodup := List.Nodup.of_map _ he.nodup
  have hp : (es.filter fun e => e.1.2 = n).Perm ((words.filter fun m => decide (0 < coCount allow items m n)).map fun m => ((m, n), (coCount allow items m n : ℚ))) := by
    refine (List.perm_ext_iff_of_nodup (hn.filter _) ?_).2 ?_
    · refine ((rankWords_nodup hw).filter _).map fun a b e => ?_
      simp only [Prod.mk.injEq, and_true] at e
      exact e.1
    · rintro ⟨⟨a, b⟩, v⟩
      rw [List.mem_filter, he.mem, List.mem_map]
      constructor
      · rintro ⟨⟨h1, h2⟩, h3⟩
        simp only [decide_eq_true_eq] at h3
        subst h3
        exact ⟨a, by rw [List.mem_filter]; exact ⟨(hw.mem a).2 ⟨b, .inl h1⟩, by simpa using h1⟩, by rw [h2]; rfl⟩
      · rintro ⟨m, h1, h2⟩
        rw [List.mem_filter, decide_eq_true_eq] at h1
        simp only [Prod.mk.injEq] at h2
        obtain ⟨⟨rfl, rfl⟩, rfl⟩ := h2
        exact ⟨⟨h1.2, rfl⟩, by simp⟩
  rw [(hp.map _).sum_eq, List.map_map]
  refine sum_filter_zero _ _ _ fun x _ hx => ?_
  simp only [decide_eq_false_iff_not, not_lt, Nat.le_zero] at hx
  rw [Function.comp_apply]
  simp [hx]

theorem nbrs_tie {allow : List Bytes} {items : List SegPos} {es : List ((Bytes × Bytes) × ℚ)} {words : List Bytes} (he : IsEdges allow items es)
    (hw : IsRankWords allow items words) (f : Bytes → ℚ) (n : Bytes) :
    ((nbrs es n).map fun e => e.2 * f e.1).sum = (words.map fun m => tie allow items n m * f m).sum := by
  rw [nbrs_sum, edges_out he hw, edges_in he hw, ← List.sum_map_add]
  congr 1
  apply List.map_congr_left
  intro m _
  unfold tie
  ring

theorem out_exact {allow : List Bytes} {items : List SegPos} {es : List ((Bytes × Bytes) × ℚ)} {words : List Bytes} (he : IsEdges allow items es)
    (hw : IsRankWords allow items words) (n : Bytes) : outWeight es n = tieSum allow items words n := by
  have h := nbrs_tie he hw (fun _ => 1) n
  unfold outWeight tieSum
  show (nbrs es n).foldl (fun s e => s + e.2) ((0 : Nat) : ℚ) = _
  rw [foldl_sum (fun e : Bytes × ℚ => e.2)]
  simpa using h

theorem new_exact (K : RankConst ℚ) {allow : List Bytes} {items : List SegPos} {es : List ((Bytes × Bytes) × ℚ)} {words : List Bytes}
    (he : IsEdges allow items es) (hw : IsRankWords allow items words) (v : Bytes → ℚ) (n : Bytes) :
    rankNew K es v n = valueNew K allow items words v n := by
  unfold rankNew valueNew
  show K.rest + K.damp * ((nbrs es n).foldl (fun s e => s + e.2 / outWeight es e.1 * v e.1) ((0 : Nat) : ℚ)) = _
  rw [foldl_sum (fun e : Bytes × ℚ => e.2 / outWeight es e.1 * v e.1)]
  have h := nbrs_tie he hw (fun m => v m / tieSum allow items words m) n
  have e1 : ((nbrs es n).map fun e => e.2 / outWeight es e.1 * v e.1) = (nbrs es n).map fun e => e.2 * (v e.1 / tieSum allow items words e.1) := by
    apply List.map_congr_left
    intro e _
    rw [out_exact he hw]
    ring
  have e2 : (words.map fun m => tie allow items n m / tieSum allow items words m * v m) = words.map fun m => tie allow items n m * (v m / tieSum allow items words m) := by
    apply List.map_congr_left
    intro e _
    ring
  rw [e1, e2, h]
  simp

/-- The values that `rank` computes from the edges, in whatever order they are read, are those of the formula. -/
theorem value_exact (K : RankConst ℚ) {allow : List Bytes} {items : List SegPos} {es : List ((Bytes × Bytes) × ℚ)} {words : List Bytes}
    (he : IsEdges allow items es) (hw : IsRankWords allow items words) : rankValue K es words = valueOf K allow items words := by
  unfold rankValue valueOf
  have : rankRound K es words = valueRound K allow items words := by
    funext v
    unfold rankRound valueRound
    congr 1
    funext u n
    rw [new_exact K he hw]
  rw [this]
  rfl

theorem rankWords_unique {allow : List Bytes} {items : List SegPos} {words words' : List Bytes} (h : IsRankWords allow items words)
    (h' : IsRankWords allow items words') : words = words' := by
  have hp : words.Perm words' := (List.perm_ext_iff_of_nodup (rankWords_nodup h) (rankWords_nodup h')).2 fun w => by rw [h.mem, h'.mem]
  refine hp.eq_of_pairwise (le := TextBefore) ?_ h.ordered h'.ordered
  intro a b _ _ h1 h2
  have h1 := (bytesLt_iff _ _).2 h1
  have h2 := (bytesLt_iff _ _).2 h2
  rw [bytesLt_asymm h1] at h2; simp at h2

theorem rat_lt {a b : ℚ} : F64.lt a b = true ↔ a < b := by simp [F64.lt]
theorem rat_lt_false {a b : ℚ} : F64.lt a b = false ↔ b ≤ a := by simp [F64.lt]

/-- The result of one call, without rounding: by falling values and positive, or by rising values, which then are distinct, and negative. -/
theorem ranked (ch : Choice) (K : RankConst ℚ) (hK : RankConstOK K) (allow : List Bytes) (items : List SegPos) (hlen : 4 * items.length ≤ 2 ^ 40)
    (words : List Bytes) (hw : IsRankWords allow items words) :
    ((rankAll ch K allow items).map (·.text)).Perm words ∧
    ((ch.iter 2 (rankMap ch K allow items)).map Prod.fst).Perm words ∧
    (∀ p ∈ rankMap ch K allow items, p.2 = valueOf K allow items words p.1) ∧
    (¬ Descending (((ch.iter 2 (rankMap ch K allow items)).map Prod.fst).map (valueOf K allow items words)) →
      ((rankAll ch K allow items).map (·.text)).Pairwise (Falling (valueOf K allow items words)) ∧ ∀ t ∈ rankAll ch K allow items, 0 < t.weight) ∧
    (Descending (((ch.iter 2 (rankMap ch K allow items)).map Prod.fst).map (valueOf K allow items words)) →
      ((rankAll ch K allow items).map (·.text)).Pairwise (Rising (valueOf K allow items words)) ∧ ∀ t ∈ rankAll ch K allow items, t.weight < 0) := by
  obtain ⟨words', lo, hi, h1, h2, _⟩ := ranking_exact ch K hK allow items hlen
  obtain rfl := rankWords_unique hw h1.isWords
  obtain ⟨_, words', h1', _, _, h4⟩ := rankMap_spec ch K allow items (Nat.le_trans hlen (by norm_num))
  obtain rfl := rankWords_unique hw h1'
  have ev := value_exact K h1.isEdges h1.isWords
  obtain ⟨d1, d2⟩ := C46_direction K hK allow items hlen _ _ _ lo hi _ h1
  rw [ev] at d1 d2 h4
  have wt := h1.weight
  rw [ev] at wt
  -- the divisor
  have sc : ∀ x : ℚ, scaled lo hi x = (x - lo / 10) / (hi - lo / 10) := fun x => by simp [scaled, F64.div, F64.sub, F64.ofNat]
  have hmem : ∀ t ∈ rankAll ch K allow items, lo ≤ valueOf K allow items words t.text ∧ 0 < lo := by
    intro t ht
    have hm : t.text ∈ words := h1.texts.mem_iff.1 (List.mem_map_of_mem ht)
    have hl := h1.isLo (List.ne_nil_of_mem hm)
    rw [ev] at hl
    refine ⟨rat_lt_false.1 (hl.2 _ (List.mem_map_of_mem (h1.perm.mem_iff.2 hm))), ?_⟩
    obtain ⟨w, hw', e⟩ := List.mem_map.1 hl.1
    have := (rank_good (K := K) hK h1.isEdges h1.isWords hlen w (h1.perm.mem_iff.1 hw')).2.1
    rw [ev] at this
    rw [← e]
    exact lt_of_lt_of_le (by positivity) this
  refine ⟨h1.texts, h1.perm, h4, fun hd => ?_, fun hd => ?_⟩
  · refine ⟨?_, fun t ht => (d1 hd t ht).1⟩
    rw [List.pairwise_map]
    refine h2.imp_of_mem fun {a b} ha hb hab => ?_
    have pa : 0 < a.weight := (d1 hd a ha).1
    have ea := wt a ha
    have eb := wt b hb
    rw [sc] at ea eb
    obtain ⟨la, l0⟩ := hmem a ha
    have hden : 0 < hi - lo / 10 := by
      by_contra hn
      have : a.weight ≤ 0 := by rw [ea]; exact div_nonpos_of_nonneg_of_nonpos (by linarith) (not_lt.1 hn)
      linarith
    have cmp : ∀ x y : ℚ, (x - lo / 10) / (hi - lo / 10) < (y - lo / 10) / (hi - lo / 10) ↔ x < y := by
      intro x y
      rw [div_lt_div_iff_of_pos_right hden]
      constructor <;> intro h <;> linarith
    rcases hab with h | ⟨h, h', h''⟩
    · rw [rat_lt, ea, eb, cmp] at h
      exact .inl h
    · rw [rat_lt_false, ea, eb] at h h'
      refine .inr ⟨?_, h''⟩
      have e1 := (cmp (valueOf K allow items words b.text) (valueOf K allow items words a.text)).not.1 (not_lt.2 h)
      have e2 := (cmp (valueOf K allow items words a.text) (valueOf K allow items words b.text)).not.1 (not_lt.2 h')
      linarith
  · refine ⟨?_, fun t ht => (d2 hd t ht).1⟩
    have hinj : ∀ a ∈ words, ∀ b ∈ words, valueOf K allow items words a = valueOf K allow items words b → a = b := by
      have : (((ch.iter 2 (rankMap ch K allow items)).map Prod.fst).map (valueOf K allow items words)).Nodup :=
        hd.imp fun {a b} h e => by rw [rat_lt, e] at h; exact lt_irrefl _ h
      intro a ha b hb
      exact List.inj_on_of_nodup_map this (h1.perm.mem_iff.2 ha) (h1.perm.mem_iff.2 hb)
    have hnd : ((rankAll ch K allow items).map (·.text)).Nodup := h1.texts.nodup_iff.2 (rankWords_nodup hw)
    rw [List.Nodup, List.pairwise_map] at hnd
    rw [List.pairwise_map]
    refine (h2.and hnd).imp_of_mem fun {a b} ha hb ⟨hab, hne⟩ => ?_
    have pa : a.weight < 0 := (d2 hd a ha).1
    have ea := wt a ha
    have eb := wt b hb
    rw [sc] at ea eb
    obtain ⟨la, l0⟩ := hmem a ha
    have hden : hi - lo / 10 < 0 := by
      by_contra hn
      have : 0 ≤ a.weight := by rw [ea]; exact div_nonneg (by linarith) (not_lt.1 hn)
      linarith
    have cmp : ∀ x y : ℚ, (x - lo / 10) / (hi - lo / 10) < (y - lo / 10) / (hi - lo / 10) ↔ y < x := by
      intro x y
      rw [div_lt_div_right_of_neg hden]
      constructor <;> intro h <;> linarith
    rcases hab with h | ⟨h, h', _⟩
    · rw [rat_lt, ea, eb, cmp] at h
      exact h
    · exfalso
      rw [rat_lt_false, ea, eb] at h h'
      have e1 := (cmp (valueOf K allow items words b.text) (valueOf K allow items words a.text)).not.1 (not_lt.2 h)
      have e2 := (cmp (valueOf K allow items words a.text) (valueOf K allow items words b.text)).not.1 (not_lt.2 h')
      exact hne (hinj _ (h1.texts.mem_iff.1 (List.mem_map_of_mem ha)) _ (h1.texts.mem_iff.1 (List.mem_map_of_mem hb)) (by linarith))

theorem falling_unique {v : Bytes → ℚ} {l l' : List Bytes} (hp : l.Perm l') (h : l.Pairwise (Falling v)) (h' : l'.Pairwise (Falling v)) : l = l' := by
  refine hp.eq_of_pairwise (le := Falling v) ?_ h h'
  intro a b _ _ h1 h2
  rcases h1 with h1 | ⟨_, t1⟩ <;> rcases h2 with h2 | ⟨_, t2⟩
  · exact absurd h1 (not_lt.2 h2.le)
  · linarith
  · linarith
  · have t1 := (bytesLt_iff _ _).2 t1
    have t2 := (bytesLt_iff _ _).2 t2
    rw [bytesLt_asymm t1] at t2; simp at t2

theorem rising_reverse {v : Bytes → ℚ} {l : List Bytes} (h : l.Pairwise (Rising v)) : l.reverse.Pairwise (Falling v) :=
  List.pairwise_reverse.2 (h.imp fun h => .inl h)

/-- The first `topK` of a list, and all for `topK ≤ 0`. -/
theorem texts_cut (ch : Choice) (K : RankConst ℚ) (allow : List Bytes) (items : List SegPos) (topK : Int) :
    (textRankItems ch K items topK allow).map (·.text) =
      if 0 < topK then ((rankAll ch K allow items).map (·.text)).take topK.toNat else (rankAll ch K allow items).map (·.text) := by
  rw [textRankItems_eq]
  split
  · rw [List.map_take]
  · rfl

theorem mem_cut {ch : Choice} {K : RankConst ℚ} {allow : List Bytes} {items : List SegPos} {topK : Int} {t : WordWeight ℚ}
    (h : t ∈ textRankItems ch K items topK allow) : t ∈ rankAll ch K allow items := by
  rw [textRankItems_eq] at h
  split at h
  · exact List.mem_of_mem_take h
  · exact h

/-- C122: without rounding there is for every text one list of its words by falling value (equal values: the later text first), the values being
those of the formula, such that every call of TextRank, in whatever order maps are visited and however it sorts, either lists the words in this
order with positive weights, or, only if no two words have the same value, in the opposite order with negative weights. -/
theorem C122_two (K : RankConst ℚ) (hK : RankConstOK K) (allow : List Bytes) (items : List SegPos) (hlen : 4 * items.length ≤ 2 ^ 40) :
    ∃ words full, IsRankWords allow items words ∧ full.Perm words ∧ full.Pairwise (Falling (valueOf K allow items words)) ∧ ∀ (ch : Choice) (topK : Int),
      ((textRankItems ch K items topK allow).map (·.text) = (if 0 < topK then full.take topK.toNat else full) ∧
        ∀ t ∈ textRankItems ch K items topK allow, 0 < t.weight) ∨
      ((∀ a ∈ words, ∀ b ∈ words, valueOf K allow items words a = valueOf K allow items words b → a = b) ∧
        (textRankItems ch K items topK allow).map (·.text) = (if 0 < topK then full.reverse.take topK.toNat else full.reverse) ∧
        ∀ t ∈ textRankItems ch K items topK allow, t.weight < 0) := by
  obtain ⟨words, _, _, h0, _, _⟩ := ranking_exact choiceA K hK allow items hlen
  have hw := h0.isWords
  obtain ⟨full, hf, hs⟩ : ∃ full : List Bytes, full.Perm words ∧ full.Pairwise (Falling (valueOf K allow items words)) := by
    obtain ⟨a, _, _, b, c⟩ := ranked choiceA K hK allow items hlen words hw
    by_cases hd : Descending (((choiceA.iter 2 (rankMap choiceA K allow items)).map Prod.fst).map (valueOf K allow items words))
    · exact ⟨_, (List.reverse_perm _).trans a, rising_reverse (c hd).1⟩
    · exact ⟨_, a, (b hd).1⟩
  refine ⟨words, full, hw, hf, hs, fun ch topK => ?_⟩
  obtain ⟨a, _, _, b, c⟩ := ranked ch K hK allow items hlen words hw
  rw [texts_cut]
  by_cases hd : Descending (((ch.iter 2 (rankMap ch K allow items)).map Prod.fst).map (valueOf K allow items words))
  · right
    obtain ⟨c1, c2⟩ := c hd
    have e : (rankAll ch K allow items).map (·.text) = full.reverse := by
      rw [← falling_unique ((List.reverse_perm _).trans (a.trans hf.symm)) (rising_reverse c1) hs, List.reverse_reverse]
    refine ⟨?_, by rw [e], fun t ht => c2 t (mem_cut ht)⟩
    have hnd : (((rankAll ch K allow items).map (·.text)).map (valueOf K allow items words)).Nodup := by
      rw [List.Nodup, List.pairwise_map]
      exact c1.imp fun {x y} (h : _ < _) e => by rw [e] at h; exact lt_irrefl _ h
    intro x hx y hy
    exact List.inj_on_of_nodup_map hnd (a.mem_iff.2 hx) (a.mem_iff.2 hy)
  · left
    obtain ⟨b1, b2⟩ := b hd
    have e := falling_unique (a.trans hf.symm) b1 hs
    exact ⟨by rw [e], fun t ht => b2 t (mem_cut ht)⟩

/-- C122: so two calls that return all words list them in the same order or in opposite orders, and in the same if two words have the same value. -/
theorem C122_orders (K : RankConst ℚ) (hK : RankConstOK K) (allow : List Bytes) (items : List SegPos) (hlen : 4 * items.length ≤ 2 ^ 40) (ch ch' : Choice) :
    ((textRankItems ch' K items 0 allow).map (·.text) = (textRankItems ch K items 0 allow).map (·.text) ∨
      (textRankItems ch' K items 0 allow).map (·.text) = ((textRankItems ch K items 0 allow).map (·.text)).reverse) ∧
    ∀ words, IsRankWords allow items words → ∀ a ∈ words, ∀ b ∈ words, a ≠ b → valueOf K allow items words a = valueOf K allow items words b →
      ∀ topK, (textRankItems ch' K items topK allow).map (·.text) = (textRankItems ch K items topK allow).map (·.text) := by
  obtain ⟨words, full, hw, _, _, h⟩ := C122_two K hK allow items hlen
  constructor
  · have e1 := h ch 0
    have e2 := h ch' 0
    simp only [lt_irrefl, if_false] at e1 e2
    rcases e1 with ⟨e1, _⟩ | ⟨_, e1, _⟩ <;> rcases e2 with ⟨e2, _⟩ | ⟨_, e2, _⟩ <;> simp [e1, e2]
  · intro words' hw' a ha b hb hne hv topK
    obtain rfl := rankWords_unique hw hw'
    rcases h ch topK with ⟨e1, _⟩ | ⟨hi, _⟩
    · rcases h ch' topK with ⟨e2, _⟩ | ⟨hi, _⟩
      · rw [e1, e2]
      · exact absurd (hi a ha b hb hv) hne
    · exact absurd (hi a ha b hb hv) hne

/-! ### Both orders occur -/

/-- The elements of a list at the given places. -/
def pick {α : Type} (idx : List Nat) (l : List α) : List α := idx.filterMap (l[·]?)

theorem pick_perm {α : Type} {idx : List Nat} {l : List α} (h : idx.Perm (List.range l.length)) : (pick idx l).Perm l := by
  have e : (List.range l.length).filterMap (l[·]?) = l := by
    clear h
    induction l using List.reverseRecOn with
    | nil => rfl
    | append_singleton l a ih =>
      rw [List.length_append, List.length_singleton, List.range_succ, List.filterMap_append]
      have : (List.range l.length).filterMap ((l ++ [a])[·]?) = (List.range l.length).filterMap (l[·]?) := by
        apply List.filterMap_congr
        intro i hi
        rw [List.getElem?_append_left (List.mem_range.1 hi)]
      rw [this, ih]
      simp
  have := h.filterMap (l[·]?)
  rw [e] at this
  exact this

theorem pick_exists {α : Type} [DecidableEq α] {l l' : List α} (hn : l.Nodup) (hp : l'.Perm l) : ∃ idx : List Nat, idx.Perm (List.range l.length) ∧ pick idx l = l' := by
  refine ⟨l'.map fun x => l.idxOf x, ?_, ?_⟩
  · refine (hp.map _).trans ?_
    have : (l.map fun x => l.idxOf x) = List.range l.length := by
      apply List.ext_getElem (by simp)
      intro i h1 h2
      simp only [List.getElem_map, List.getElem_range]
      exact hn.idxOf_getElem i (by simpa using h1)
    rw [this]
  · unfold pick
    rw [List.filterMap_map]
    have : ∀ x ∈ l', ((fun i => l[i]?) ∘ fun x => l.idxOf x) x = some x := by
      intro x hx
      have hm := hp.mem_iff.1 hx
      simp only [Function.comp_apply]
      rw [List.getElem?_eq_getElem (List.idxOf_lt_length_of_mem hm), List.getElem_idxOf]
    rw [List.filterMap_congr this]
    simp

/-- A choice that differs from another only in the order of the one map from which `rank` takes the smallest and the largest value. -/
def visitBy (ch : Choice) (N : Nat) (idx : List Nat) (h : idx.Perm (List.range N)) : Choice :=
  { ch with
    iter := fun n m => if n = 2 ∧ m.length = N then pick idx m else ch.iter n m
    iter_perm := fun n m => by
      split
      · rename_i e
        exact pick_perm (by rw [e.2]; exact h)
      · exact ch.iter_perm n m }

/-- C122: if no two words have the same value, and there are two words or more, both orders occur for every text: a change in the order in which
one map is visited, and nothing else, turns the list of a call around. -/
theorem C122_both (K : RankConst ℚ) (hK : RankConstOK K) (allow : List Bytes) (items : List SegPos) (hlen : 4 * items.length ≤ 2 ^ 40)
    (words : List Bytes) (hw : IsRankWords allow items words) (h2 : 2 ≤ words.length)
    (hi : ∀ a ∈ words, ∀ b ∈ words, valueOf K allow items words a = valueOf K allow items words b → a = b) (ch : Choice) :
    ∃ ch' : Choice, (∀ {K V : Type} (n : Nat) (m : GoMap K V), n ≠ 2 → ch'.iter n m = ch.iter n m) ∧
      (∀ {α : Type} (less : α → α → Bool) (l : List α), ch'.sort less l = ch.sort less l) ∧
      (textRankItems ch' K items 0 allow).map (·.text) = ((textRankItems ch K items 0 allow).map (·.text)).reverse ∧
      (textRankItems ch' K items 0 allow).map (·.text) ≠ (textRankItems ch K items 0 allow).map (·.text) := by
  obtain ⟨a, p2, hv, b, c⟩ := ranked ch K hK allow items hlen words hw
  set M := rankMap ch K allow items with hM
  have hnd : M.Nodup := by
    obtain ⟨_, _, _, h, _⟩ := rankMap_spec ch K allow items (Nat.le_trans hlen (by norm_num))
    exact List.Nodup.of_map _ h
  have hval : ∀ l : List (Bytes × ℚ), l.Perm M → (l.map Prod.fst).map (valueOf K allow items words) = l.map (·.2) := by
    intro l hl
    rw [List.map_map]
    apply List.map_congr_left
    intro p hp
    exact (hv p (hl.mem_iff.1 hp)).symm
  have hfst : (M.map Prod.fst).Perm words := ((ch.iter_perm 2 M).map _).symm.trans p2
  have hinj : ∀ p ∈ M, ∀ q ∈ M, p.2 = q.2 → p.1 = q.1 := fun p hp q hq e =>
    hi _ (hfst.mem_iff.1 (List.mem_map_of_mem hp)) _ (hfst.mem_iff.1 (List.mem_map_of_mem hq)) (by rw [← hv p hp, ← hv q hq, e])
  -- visiting the map in any order that one likes
  have visit : ∀ l : List (Bytes × ℚ), l.Perm M → ∃ ch' : Choice, (∀ {K V : Type} (n : Nat) (m : GoMap K V), n ≠ 2 → ch'.iter n m = ch.iter n m) ∧
      (∀ {α : Type} (less : α → α → Bool) (l : List α), ch'.sort less l = ch.sort less l) ∧ rankMap ch' K allow items = M ∧ ch'.iter 2 M = l := by
    intro l hl
    obtain ⟨idx, hx, e⟩ := pick_exists hnd hl
    refine ⟨visitBy ch M.length idx hx, fun n m hn => if_neg fun h => hn h.1, fun _ _ => rfl, ?_, ?_⟩
    · rfl
    · show (if 2 = 2 ∧ M.length = M.length then pick idx M else _) = l
      rw [if_pos ⟨rfl, rfl⟩, e]
  have len : 2 ≤ M.length := by rw [← List.length_map (f := Prod.fst), hfst.length_eq]; exact h2
  have ne : ∀ {L : List Bytes}, L.Perm words → L.reverse ≠ L := by
    intro L hL e
    have hn : L.Nodup := hL.nodup_iff.2 (rankWords_nodup hw)
    have hl : 2 ≤ L.length := by rw [hL.length_eq]; exact h2
    match L, hl with
    | x :: y :: L, _ =>
      have h1 : (x :: y :: L).reverse.head? = some x := by rw [e]; rfl
      rw [List.head?_reverse] at h1
      have h3 : x ∈ y :: L := by
        rw [List.getLast?_cons_cons] at h1
        exact List.mem_of_getLast? h1
      exact (List.nodup_cons.1 hn).1 h3
  by_cases hd : Descending (((ch.iter 2 M).map Prod.fst).map (valueOf K allow items words))
  · -- the list was by rising values: visit the map the other way round
    obtain ⟨ch', v1, v2, v3, v4⟩ := visit (ch.iter 2 M).reverse ((List.reverse_perm _).trans (ch.iter_perm 2 M))
    obtain ⟨a', _, _, b', _⟩ := ranked ch' K hK allow items hlen words hw
    rw [v3, v4] at b'
    have hd' : ¬ Descending (((ch.iter 2 M).reverse.map Prod.fst).map (valueOf K allow items words)) := by
      intro h
      rw [List.map_reverse, List.map_reverse, Descending, List.pairwise_reverse] at h
      have hl : 2 ≤ (((ch.iter 2 M).map Prod.fst).map (valueOf K allow items words)).length := by
        rw [List.length_map, List.length_map, (ch.iter_perm 2 M).length_eq]; exact len
      have both := List.Pairwise.and hd h
      match ((ch.iter 2 M).map Prod.fst).map (valueOf K allow items words), hl, both with
      | x :: y :: L, _, both =>
        obtain ⟨q1, q2⟩ := (List.pairwise_cons.1 both).1 y (by simp)
        rw [rat_lt] at q1 q2
        exact absurd q1 (not_lt.2 q2.le)
    have e := falling_unique (a'.trans ((List.reverse_perm _).trans a).symm) (b' hd').1 (rising_reverse (c hd).1)
    refine ⟨ch', v1, v2, ?_⟩
    rw [texts_cut, texts_cut, if_neg (lt_irrefl _), if_neg (lt_irrefl _)]
    exact ⟨e, by rw [e]; exact ne a⟩
  · -- the list was by falling values: visit the map in descending order
    have sp := List.mergeSort_perm M (fun p q => decide (q.2 ≤ p.2))
    obtain ⟨ch', v1, v2, v3, v4⟩ := visit (M.mergeSort fun p q => decide (q.2 ≤ p.2)) sp
    obtain ⟨a', _, _, _, c'⟩ := ranked ch' K hK allow items hlen words hw
    rw [v3, v4] at c'
    have hd' : Descending (((M.mergeSort fun p q => decide (q.2 ≤ p.2)).map Prod.fst).map (valueOf K allow items words)) := by
      rw [hval _ sp, Descending, List.pairwise_map]
      have so := List.pairwise_mergeSort (le := fun p q : Bytes × ℚ => decide (q.2 ≤ p.2))
        (fun a b c => by simp only [decide_eq_true_eq]; intro h1 h2; exact h2.trans h1)
        (fun a b => by simp only [Bool.or_eq_true, decide_eq_true_eq]; exact le_total _ _) M
      refine (so.and (sp.nodup_iff.2 hnd)).imp_of_mem fun {p q} hp hq ⟨h, hne⟩ => ?_
      rw [rat_lt]
      refine lt_of_le_of_ne (by simpa using h) fun e => hne ?_
      exact Prod.ext (hinj p (sp.mem_iff.1 hp) q (sp.mem_iff.1 hq) e.symm) e.symm
    have e := falling_unique (((List.reverse_perm _).trans a').trans a.symm) (rising_reverse (c' hd').1) (b hd).1
    refine ⟨ch', v1, v2, ?_⟩
    rw [texts_cut, texts_cut, if_neg (lt_irrefl _), if_neg (lt_irrefl _)]
    have e' : (rankAll ch' K allow items).map (·.text) = ((rankAll ch K allow items).map (·.text)).reverse := by rw [← e, List.reverse_reverse]
    exact ⟨e', by rw [e']; exact ne a⟩

/-- The words of the text of three items, and their values: distinct, so that both orders occur. -/
example : IsRankWords [str "n"] twoItems [str "a", str "b"] ∧ 4 * twoItems.length ≤ 2 ^ 40 ∧ RankConstOK ratConst ∧
    valueOf ratConst [str "n"] twoItems [str "a", str "b"] (str "a") < valueOf ratConst [str "n"] twoItems [str "a", str "b"] (str "b") ∧
    valueOf ratConst [str "n"] rankItems [str "one", str "three", str "two"] (str "three") ≠ valueOf ratConst [str "n"] rankItems [str "one", str "three", str "two"] (str "two") := by
  refine ⟨?_, by decide, ratConst_ok, by decide +kernel, by decide +kernel⟩
  obtain ⟨_, words, h, _⟩ := rankMap_spec choiceA ratConst [str "n"] twoItems (by decide)
  rwa [two_words h] at h

/-- Two words that stand beside a third one only have the same value, so that there is one order. -/
def tieItems : List SegPos :=
  [⟨str "a", str "n"⟩, ⟨str "c", str "n"⟩, ⟨str "x", str "u"⟩, ⟨str "x", str "u"⟩, ⟨str "x", str "u"⟩, ⟨str "x", str "u"⟩, ⟨str "b", str "n"⟩, ⟨str "c", str "n"⟩]
example : valueOf ratConst [str "n"] tieItems [str "a", str "b", str "c"] (str "a") = valueOf ratConst [str "n"] tieItems [str "a", str "b", str "c"] (str "b") ∧
    (textRankItems choiceA ratConst tieItems 0 [str "n"]).map (·.text) = [str "c", str "b", str "a"] ∧
    (textRankItems choiceB ratConst tieItems 0 [str "n"]).map (·.text) = [str "c", str "b", str "a"] := by
  refine ⟨?_, ?_, ?_⟩ <;> decide +kernel

end exact
end Gse
