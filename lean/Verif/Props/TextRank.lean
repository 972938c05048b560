import Mathlib.Data.List.Permutation
import Verif.Proofs.RankRange
import Verif.Props.Pos

/-! # C46: TextRank -/

namespace Gse
open Spec

set_option linter.unusedSectionVars false

section
variable {F D : Type} [F64 F] [F32 D] [Narrow F D]

theorem coCount_word {allow : List Bytes} {items : List SegPos} {a b : Bytes} (h : 0 < coCount allow items a b) :
    a ∈ items.map (·.text) ∧ b ∈ items.map (·.text) := by
  unfold coCount at h
  obtain ⟨j, hj⟩ := List.exists_mem_of_length_pos h
  rw [List.mem_flatMap] at hj
  obtain ⟨i, _, hj⟩ := hj
  rw [List.mem_filter, decide_eq_true_eq] at hj
  obtain ⟨_, _, _, ⟨p, hp, _, rfl⟩, ⟨q, hq, _, rfl⟩⟩ := hj
  exact ⟨List.mem_map_of_mem (List.mem_of_getElem? hp), List.mem_map_of_mem (List.mem_of_getElem? hq)⟩

theorem rankWords_nodup {allow : List Bytes} {items : List SegPos} {words : List Bytes} (h : IsRankWords allow items words) : words.Nodup :=
  h.ordered.imp fun {a b} hab => by
    rintro rfl
    have := (bytesLt_iff _ _).2 hab
    rw [bytesLt_asymm this] at this; simp at this

theorem rankWords_length {allow : List Bytes} {items : List SegPos} {words : List Bytes} (h : IsRankWords allow items words) :
    words.length ≤ items.length := by
  have hs : words ⊆ items.map (·.text) := by
    intro w hw
    obtain ⟨v, hv | hv⟩ := (h.mem w).1 hw
    · exact (coCount_word hv).1
    · exact (coCount_word hv).2
  have := ((rankWords_nodup h).subperm hs).length_le
  rwa [List.length_map] at this

theorem rank_good [F64Round F] {K : RankConst F} (hK : RankConstOK K) {allow : List Bytes} {items : List SegPos}
    {es : List ((Bytes × Bytes) × F)} {words : List Bytes} (he : IsEdges allow items es) (hw : IsRankWords allow items words)
    (hlen : 4 * items.length ≤ 2 ^ 40) : ∀ w ∈ words, F64Round.fin (rankValue K es words w) ∧
      1 / 2 ^ 60 ≤ F64Round.val (rankValue K es words w) ∧ F64Round.val (rankValue K es words w) ≤ 2 ^ 42 := by
  intro w h
  obtain ⟨e1, e2⟩ := edges_ofNat he
  have hsum := edgeCounts_sum he
  have hs : ∀ n, outN (edgeCounts allow items es) n ≤ 2 ^ 41 := by
    intro n; have := outN_le (edgeCounts allow items es) n; omega
  have hout : ∀ n ∈ words, 1 ≤ outN (edgeCounts allow items es) n := by
    intro n hn
    obtain ⟨v, hv⟩ := (hw.mem n).1 hn
    exact word_out he hv
  have := rankValue_good e2 hs hK words hout (List.ne_nil_of_mem h) (by have := rankWords_length hw; omega) w (hout w h)
  rw [← e1] at this
  refine ⟨this.fin, this.ge, this.le.trans ?_⟩
  have hq : (outN (edgeCounts allow items es) w : ℚ) ≤ 2 ^ 41 := by exact_mod_cast hs w
  linarith

/-- C46: whatever the arithmetic, the order of maps and the sorting algorithm, TextRank lists words of the graph (those that
stand within four items of another word, or again of themselves, both with an allowed tag), none twice: all of them for
`topK ≤ 0`, and `topK` of them or all if there are less otherwise. -/
theorem C46_words [F64Count F] (ch : Choice) (K : RankConst F) (allow : List Bytes) (items : List SegPos) (hlen : 4 * items.length ≤ 2 ^ 53)
    (topK : Int) : ∃ words, IsRankWords allow items words ∧
      ((textRankItems ch K items topK allow).map (·.text)).Nodup ∧
      (∀ t ∈ textRankItems ch K items topK allow, t.text ∈ words) ∧
      (textRankItems ch K items topK allow).length = if 0 < topK then min topK.toNat words.length else words.length := by
  obtain ⟨_, words, h1, h2, h3, _⟩ := rankMap_spec ch K allow items hlen
  have hp : ((rankAll ch K allow items).map (·.text)).Perm words := by
    refine ((ch.sort_perm _ _).map _).trans ?_
    rw [List.map_map]
    exact ((ch.iter_perm 3 _).map _).trans h3
  have hn : ((rankAll ch K allow items).map (·.text)).Nodup := hp.nodup_iff.2 (rankWords_nodup h1)
  have hl : (rankAll ch K allow items).length = words.length := by rw [← hp.length_eq, List.length_map]
  refine ⟨words, h1, ?_⟩
  rw [textRankItems_eq]
  split
  · refine ⟨?_, ?_, ?_⟩
    · rw [List.map_take]; exact hn.sublist (List.take_sublist _ _)
    · intro t ht
      exact hp.mem_iff.1 (List.mem_map_of_mem (List.mem_of_mem_take ht))
    · rw [List.length_take, hl]
  · exact ⟨hn, fun t ht => hp.mem_iff.1 (List.mem_map_of_mem ht), hl⟩

theorem scaled_good [F64Round F] {lo den x : F} {y : ℚ} (fl : F64Round.fin lo) (l0 : 1 / 2 ^ 60 ≤ F64Round.val lo)
    (fx : F64Round.fin x) (x0 : F64Round.val lo ≤ F64Round.val x) (x1 : F64Round.val x ≤ 2 ^ 42) (fd : F64Round.fin den)
    (hy : y = F64Round.val den) (d0 : y ≠ 0) (d1 : 1 / 2 ^ 70 ≤ |y|) :
    let l := F64Round.rnd F (F64Round.val lo / 10)
    let w := F64.div (F64.sub x (F64.div lo (F64.ofNat 10))) den
    F64Round.fin w ∧ F64Round.val w = F64Round.rnd F (F64Round.rnd F (F64Round.val x - l) / y) ∧
      F64Round.val lo / 3 ≤ F64Round.rnd F (F64Round.val x - l) := by
  intro l w
  subst hy
  have l1 := x0.trans x1
  have lp : 0 < F64Round.val lo := lt_of_lt_of_le (by positivity) l0
  obtain ⟨f10, v10⟩ := F64Round.ofNat_val (F := F) 10 (by norm_num)
  have q0 : 1 / 2 ^ 200 ≤ F64Round.val lo / 10 := by
    refine le_trans ?_ (div_le_div_of_nonneg_right l0 (by norm_num)); norm_num
  obtain ⟨f1, v1⟩ := F64Round.div_val fl f10 (by rw [v10]; norm_num) (by
    rw [v10, Nat.cast_ofNat, abs_of_pos (by positivity)]
    have : (2 : ℚ) ^ 42 ≤ 2 ^ 200 := by norm_num
    linarith)
  rw [v10, Nat.cast_ofNat] at v1
  obtain ⟨r1, r2⟩ := rnd_half (F := F) q0
  have hxl : F64Round.val lo * (4 / 5) ≤ F64Round.val x - l := by
    have : l ≤ 2 * (F64Round.val lo / 10) := r2
    linarith
  have hxl2 : F64Round.val x - l ≤ 2 ^ 42 := by
    have : F64Round.val lo / 10 / 2 ≤ l := r1
    linarith
  have hxl0 : 1 / 2 ^ 200 ≤ F64Round.val x - l := by
    have : (1 : ℚ) / 2 ^ 200 ≤ 1 / 2 ^ 60 * (4 / 5) := by norm_num
    linarith
  obtain ⟨f2, v2⟩ := F64Round.sub_val fx f1 (by
    rw [v1, abs_of_pos (lt_of_lt_of_le (by positivity) hxl0)]
    exact hxl2.trans (by norm_num))
  rw [v1] at v2
  obtain ⟨s1, s2⟩ := rnd_half (F := F) hxl0
  obtain ⟨f3, v3⟩ := F64Round.div_val f2 fd d0 (by
    rw [v2, abs_div, abs_of_nonneg (rnd_nonneg (le_trans (by positivity) hxl0))]
    rw [div_le_iff₀ (by positivity)]
    have h1 : F64Round.rnd F (F64Round.val x - l) ≤ 2 * 2 ^ 42 := s2.trans (by linarith)
    have h2 : (2 : ℚ) * 2 ^ 42 ≤ 2 ^ 200 * (1 / 2 ^ 70) := by norm_num
    have h3 : (2 : ℚ) ^ 200 * (1 / 2 ^ 70) ≤ 2 ^ 200 * |F64Round.val den| := by gcongr
    linarith)
  rw [v2] at v3
  exact ⟨f3, v3, by linarith⟩

/-- The smallest value divided by 10, subtracted from the divisor. -/
theorem divisor_good [F64Round F] {lo hi : F} (fl : F64Round.fin lo) (l0 : 1 / 2 ^ 60 ≤ F64Round.val lo) (l1 : F64Round.val lo ≤ 2 ^ 42)
    (fh : F64Round.fin hi) (h : (F64Round.val lo ≤ F64Round.val hi ∧ F64Round.val hi ≤ 2 ^ 42) ∨ (0 < F64Round.val hi ∧ F64Round.val hi ≤ 1 / 2 ^ 200)) :
    let den := F64.sub hi (F64.div lo (F64.ofNat 10))
    F64Round.fin den ∧ (F64Round.val lo ≤ F64Round.val hi → 1 / 2 ^ 70 ≤ F64Round.val den ∧ F64Round.val den ≤ 2 ^ 43) ∧
      (F64Round.val hi ≤ 1 / 2 ^ 200 → F64Round.val den ≤ -(1 / 2 ^ 70) ∧ -2 ^ 43 ≤ F64Round.val den) := by
  intro den
  have lp : 0 < F64Round.val lo := lt_of_lt_of_le (by positivity) l0
  obtain ⟨f10, v10⟩ := F64Round.ofNat_val (F := F) 10 (by norm_num)
  have q0 : 1 / 2 ^ 200 ≤ F64Round.val lo / 10 := by
    refine le_trans ?_ (div_le_div_of_nonneg_right l0 (by norm_num)); norm_num
  have b1 : (2 : ℚ) ^ 42 ≤ 2 ^ 200 := by norm_num
  have b2 : (1 : ℚ) / 2 ^ 200 ≤ 1 / 2 ^ 70 := by norm_num
  have b3 : (1 : ℚ) / 2 ^ 70 * 200 ≤ 1 / 2 ^ 60 := by norm_num
  have b4 : (0 : ℚ) < 1 / 2 ^ 70 := by positivity
  have b5 : (1 : ℚ) / 2 ^ 70 ≤ 2 ^ 42 := by norm_num
  have b6 : (2 : ℚ) ^ 43 = 2 * 2 ^ 42 := by norm_num
  have b7 : (1 : ℚ) / 2 ^ 200 * 200 ≤ 1 / 2 ^ 70 := by norm_num
  have b8 : (1 : ℚ) / 2 ^ 70 ≤ 1 := by norm_num
  rw [b6]
  obtain ⟨f1, v1⟩ := F64Round.div_val fl f10 (by rw [v10]; norm_num) (by
    rw [v10, Nat.cast_ofNat, abs_of_pos (by positivity)]
    linarith)
  rw [v10, Nat.cast_ofNat] at v1
  obtain ⟨r1, r2⟩ := rnd_half (F := F) q0
  obtain ⟨fd, vd⟩ := F64Round.sub_val fh f1 (by
    rw [v1, abs_le]
    rcases h with ⟨h1, h2⟩ | ⟨h1, h2⟩ <;> constructor <;> linarith)
  rw [v1] at vd
  refine ⟨fd, fun h1 => ?_, fun h1 => ?_⟩
  · have e1 : 1 / 2 ^ 200 ≤ F64Round.val hi - F64Round.rnd F (F64Round.val lo / 10) := by linarith
    obtain ⟨s1, s2⟩ := rnd_half (F := F) e1
    rw [vd]
    constructor
    · linarith
    · rcases h with ⟨_, h2⟩ | ⟨_, h2⟩ <;> linarith
  · have e1 : 1 / 2 ^ 200 ≤ -(F64Round.val hi - F64Round.rnd F (F64Round.val lo / 10)) := by linarith
    obtain ⟨s1, s2⟩ := rnd_neg (F := F) e1
    rw [vd]
    constructor
    · linarith
    · rcases h with ⟨_, h2⟩ | ⟨_, h2⟩ <;> linarith

/-- What can be said of the parts of a ranking. -/
theorem ranking_parts [F64Round F] {K : RankConst F} (hK : RankConstOK K) {allow : List Bytes} {items : List SegPos}
    {es : List ((Bytes × Bytes) × F)} {words seen : List Bytes} {lo hi : F} (he : IsEdges allow items es) (hw : IsRankWords allow items words)
    (hp : seen.Perm words) (hlen : 4 * items.length ≤ 2 ^ 40)
    (isLo : IsLeastSeen (seen.map (rankValue K es words)) lo) (isHi : IsTopSeen K (seen.map (rankValue K es words)) hi) :
    (∀ w ∈ words, F64Round.fin (scaled lo hi (rankValue K es words w))) ∧
    (¬ Descending (seen.map (rankValue K es words)) → ∀ w ∈ words, 0 < F64Round.val (scaled lo hi (rankValue K es words w)) ∧
      ∀ w' ∈ words, GoesWith (rankValue K es words w) (rankValue K es words w') (scaled lo hi (rankValue K es words w))
        (scaled lo hi (rankValue K es words w'))) ∧
    (Descending (seen.map (rankValue K es words)) → ∀ w ∈ words, F64Round.val (scaled lo hi (rankValue K es words w)) < 0 ∧
      ∀ w' ∈ words, GoesAgainst (rankValue K es words w) (rankValue K es words w') (scaled lo hi (rankValue K es words w))
        (scaled lo hi (rankValue K es words w'))) := by
  have hg := rank_good (K := K) hK he hw hlen
  have hm : ∀ x ∈ seen.map (rankValue K es words), F64Round.fin x ∧ 1 / 2 ^ 60 ≤ F64Round.val x ∧ F64Round.val x ≤ 2 ^ 42 := by
    intro x hx
    obtain ⟨w, h1, rfl⟩ := List.mem_map.1 hx
    exact hg w (hp.mem_iff.1 h1)
  obtain ⟨l1, l2⟩ := isLo
  obtain ⟨fl, l0, lm⟩ := hm lo l1
  have hlow : ∀ w ∈ words, F64Round.val lo ≤ F64Round.val (rankValue K es words w) := fun w h =>
    (lt_false_iff (hg w h).1 fl).1 (l2 _ (List.mem_map_of_mem (hp.mem_iff.2 h)))
  have htop : F64Round.fin hi ∧ ((F64Round.val lo ≤ F64Round.val hi ∧ F64Round.val hi ≤ 2 ^ 42) ∨
      (0 < F64Round.val hi ∧ F64Round.val hi ≤ 1 / 2 ^ 200)) ∧
      (¬ Descending (seen.map (rankValue K es words)) → F64Round.val lo ≤ F64Round.val hi) ∧
      (Descending (seen.map (rankValue K es words)) → F64Round.val hi ≤ 1 / 2 ^ 200) := by
    rcases isHi with ⟨h1, _⟩ | ⟨h1, rfl⟩
    · obtain ⟨a, b, c⟩ := hm hi (notLow_mem h1)
      have := (lt_false_iff a fl).1 (l2 _ (notLow_mem h1))
      exact ⟨a, .inl ⟨this, c⟩, fun _ => this, fun hd => absurd h1 (descending_iff.1 hd hi)⟩
    · exact ⟨hK.fin_tiny, .inr ⟨hK.tiny_pos, hK.tiny_le⟩, fun hd => absurd (descending_iff.2 h1) hd, fun _ => hK.tiny_le⟩
  obtain ⟨fh, h3, h4, h5⟩ := htop
  obtain ⟨fd, d1, d2⟩ := divisor_good fl l0 lm fh h3
  have hd : ∀ w ∈ words, ∀ y : ℚ, y = F64Round.val (F64.sub hi (F64.div lo (F64.ofNat 10))) → y ≠ 0 → 1 / 2 ^ 70 ≤ |y| → _ := fun w h y hy h6 h7 =>
    scaled_good (y := y) fl l0 (hg w h).1 (hlow w h) (hg w h).2.2 fd hy h6 h7
  have b0 : (0 : ℚ) < 1 / 2 ^ 70 := by positivity
  have b1 : (2 : ℚ) ^ 43 * (1 / 2 ^ 200) ≤ 1 / 2 ^ 60 / 3 := by norm_num
  have lp : 0 < F64Round.val lo := lt_of_lt_of_le (by positivity) l0
  have gap : ∀ w ∈ words, ∀ {x' : ℚ}, F64Round.val (rankValue K es words w) * (1 + 1 / 2 ^ 40) ≤ x' →
      F64Round.rnd F (F64Round.val (rankValue K es words w) - F64Round.rnd F (F64Round.val lo / 10)) * (1 + 1 / 2 ^ 41) ≤
        F64Round.rnd F (x' - F64Round.rnd F (F64Round.val lo / 10)) := by
    intro w h x' hx
    have q0 : 1 / 2 ^ 200 ≤ F64Round.val lo / 10 := by
      refine le_trans ?_ (div_le_div_of_nonneg_right l0 (by norm_num)); norm_num
    obtain ⟨r1, r2⟩ := rnd_half (F := F) q0
    have b2 : (1 : ℚ) / 2 ^ 200 ≤ 1 / 2 ^ 60 / 10 := by norm_num
    refine rnd_gap ?_ (by unfold ulp; norm_num) (by norm_num) ?_
    · have := hlow w h
      linarith
    · have e : (2 : ℚ) * (1 / 2 ^ 41) = 1 / 2 ^ 40 := by norm_num
      rw [e, sub_mul]
      have : 0 ≤ F64Round.rnd F (F64Round.val lo / 10) * (1 / 2 ^ 40) := mul_nonneg (by linarith) (by positivity)
      linarith
  refine ⟨fun w h => ?_, fun hnd w h => ?_, fun hde w h => ?_⟩
  · rcases h3 with ⟨h6, _⟩ | ⟨_, h6⟩
    · obtain ⟨e1, e2⟩ := d1 h6
      exact (hd w h _ rfl (by linarith) (by rw [abs_of_nonneg (by linarith)]; exact e1)).1
    · obtain ⟨e1, e2⟩ := d2 h6
      exact (hd w h _ rfl (by linarith) (by rw [abs_of_neg (by linarith)]; linarith)).1
  · obtain ⟨e1, e2⟩ := d1 (h4 hnd)
    have hy : 0 < F64Round.val (F64.sub hi (F64.div lo (F64.ofNat 10))) := by linarith
    have hden := fun w h => hd w h _ rfl hy.ne' (by rw [abs_of_pos hy]; exact e1)
    obtain ⟨_, v1, v2⟩ := hden w h
    unfold scaled
    have hpos : 1 / 2 ^ 200 ≤ F64Round.rnd F (F64Round.val (rankValue K es words w) - F64Round.rnd F (F64Round.val lo / 10)) /
        F64Round.val (F64.sub hi (F64.div lo (F64.ofNat 10))) := by
      rw [le_div_iff₀ hy]
      have : 1 / 2 ^ 200 * F64Round.val (F64.sub hi (F64.div lo (F64.ofNat 10))) ≤ 1 / 2 ^ 200 * 2 ^ 43 := by gcongr
      linarith
    constructor
    · rw [v1]; exact rnd_pos hpos
    · intro w' h'
      unfold GoesWith
      rw [(hden w' h').2.1, v1]
      refine ⟨fun hle => F64Round.rnd_mono (div_le_div_of_nonneg_right (F64Round.rnd_mono (by linarith)) hy.le), fun hlt => ?_⟩
      have hg2 := gap w h hlt
      refine rnd_lt (g := 1 / 2 ^ 41) hpos (by unfold ulp; norm_num) ?_
      rw [div_mul_eq_mul_div]
      exact div_le_div_of_nonneg_right hg2 hy.le
  · obtain ⟨e1, e2⟩ := d2 (h5 hde)
    have hy : F64Round.val (F64.sub hi (F64.div lo (F64.ofNat 10))) < 0 := by linarith
    have hden := fun w h => hd w h _ rfl hy.ne (by rw [abs_of_neg hy]; linarith)
    obtain ⟨_, v1, v2⟩ := hden w h
    unfold scaled
    have hq : F64Round.rnd F (F64Round.val (rankValue K es words w) - F64Round.rnd F (F64Round.val lo / 10)) /
        F64Round.val (F64.sub hi (F64.div lo (F64.ofNat 10))) ≤ -(1 / 2 ^ 200) := by
      rw [le_neg, ← div_neg, le_div_iff₀ (by linarith)]
      have : 1 / 2 ^ 200 * -F64Round.val (F64.sub hi (F64.div lo (F64.ofNat 10))) ≤ 1 / 2 ^ 200 * 2 ^ 43 := by
        apply mul_le_mul_of_nonneg_left _ (by positivity); linarith
      linarith
    constructor
    · rw [v1]
      have := (rnd_neg (F := F) (le_neg.1 hq)).1
      have : (0 : ℚ) < 1 / 2 ^ 200 := by positivity
      linarith
    · intro w' h'
      unfold GoesAgainst
      rw [(hden w' h').2.1, v1]
      refine ⟨fun hle => F64Round.rnd_mono (div_le_div_of_nonpos_of_le hy.le (F64Round.rnd_mono (by linarith))), fun hlt => ?_⟩
      have hg2 := gap w h hlt
      refine rnd_lt_neg (g := 1 / 2 ^ 41) hq (by unfold ulp; norm_num) ?_
      rw [div_mul_eq_mul_div]
      exact div_le_div_of_nonpos_of_le hy.le hg2

theorem rank_range [F64Round F] {K : RankConst F} (hK : RankConstOK K) {x : F} (hx : F64Round.fin x) (h0 : 1 / 2 ^ 60 ≤ F64Round.val x)
    (h1 : F64Round.val x ≤ 2 ^ 42) : RankRange K x := by
  refine ⟨F64Round.fin_num hx, (F64Round.lt_iff hx hK.fin_max).2 ?_, (F64Round.lt_iff hK.fin_tiny hx).2 ?_⟩
  · have : (2 : ℚ) ^ 42 < 2 ^ 200 := by norm_num
    linarith [hK.max_ge]
  · have : (1 : ℚ) / 2 ^ 200 < 1 / 2 ^ 60 := by norm_num
    linarith [hK.tiny_le]

theorem ranking_exact [F64Round F] (ch : Choice) (K : RankConst F) (hK : RankConstOK K) (allow : List Bytes) (items : List SegPos)
    (hlen : 4 * items.length ≤ 2 ^ 40) :
    ∃ words lo hi, IsRanking K allow items (readEdges ch allow items) words ((ch.iter 2 (rankMap ch K allow items)).map Prod.fst) lo hi
        (rankAll ch K allow items) ∧ (rankAll ch K allow items).Pairwise Above ∧ ∀ t ∈ rankAll ch K allow items, F64Round.fin t.weight := by
  obtain ⟨he, words, h1, h2, h3, h4⟩ := rankMap_spec ch K allow items (Nat.le_trans hlen (by norm_num))
  have hseen : ((ch.iter 2 (rankMap ch K allow items)).map Prod.fst).Perm words := ((ch.iter_perm 2 _).map _).trans h3
  have hvals : (ch.iter 2 (rankMap ch K allow items)).map (·.2) =
      ((ch.iter 2 (rankMap ch K allow items)).map Prod.fst).map (rankValue K (readEdges ch allow items) words) := by
    rw [List.map_map]
    apply List.map_congr_left
    intro p hp
    exact h4 p ((ch.iter_perm 2 _).subset hp)
  have hg := rank_good (K := K) hK he h1 hlen
  obtain ⟨m1, m2⟩ := minMax_spec K ((ch.iter 2 (rankMap ch K allow items)).map (·.2)) (by
    intro v hv
    rw [hvals] at hv
    obtain ⟨w, hw, rfl⟩ := List.mem_map.1 hv
    obtain ⟨a, b, c⟩ := hg w (hseen.mem_iff.1 hw)
    exact rank_range hK a b c)
  have hlo : words ≠ [] → IsLeastSeen (((ch.iter 2 (rankMap ch K allow items)).map Prod.fst).map (rankValue K (readEdges ch allow items) words))
      (minMax K ((ch.iter 2 (rankMap ch K allow items)).map (·.2))).1 := by
    intro h0
    have := m1 (by
      intro e
      rw [List.map_eq_nil_iff] at e
      rw [e] at hseen
      exact h0 (List.nil_perm.1 hseen))
    rwa [hvals] at this ⊢
  have hhi : IsTopSeen K (((ch.iter 2 (rankMap ch K allow items)).map Prod.fst).map (rankValue K (readEdges ch allow items) words))
      (minMax K ((ch.iter 2 (rankMap ch K allow items)).map (·.2))).2 := by
    rwa [hvals] at m2 ⊢
  have hmem : ∀ t ∈ (ch.iter 3 (rankMap ch K allow items)).map (fun p => (⟨p.1, rankWeight (minMax K ((ch.iter 2 (rankMap ch K allow items)).map (·.2))) p.2⟩ : WordWeight F)),
      t.text ∈ words ∧ t.weight = scaled (minMax K ((ch.iter 2 (rankMap ch K allow items)).map (·.2))).1
        (minMax K ((ch.iter 2 (rankMap ch K allow items)).map (·.2))).2 (rankValue K (readEdges ch allow items) words t.text) := by
    intro t ht
    obtain ⟨p, hp, rfl⟩ := List.mem_map.1 ht
    have hp' := (ch.iter_perm 3 _).subset hp
    exact ⟨h3.mem_iff.1 (List.mem_map_of_mem hp'), by rw [← h4 p hp']; rfl⟩
  have hfin : ∀ t ∈ (ch.iter 3 (rankMap ch K allow items)).map (fun p => (⟨p.1, rankWeight (minMax K ((ch.iter 2 (rankMap ch K allow items)).map (·.2))) p.2⟩ : WordWeight F)),
      F64Round.fin t.weight := by
    intro t ht
    obtain ⟨a, b⟩ := hmem t ht
    have h0 := List.ne_nil_of_mem a
    rw [b]
    exact (ranking_parts hK he h1 hseen hlen (hlo h0) hhi).1 _ a
  have hsort : ∀ t, t ∈ rankAll ch K allow items ↔ _ := fun t => (ch.sort_perm (fun a b => WordWeight.less b a) _).mem_iff
  have htexts : ((ch.iter 3 (rankMap ch K allow items)).map (fun p => (⟨p.1, rankWeight (minMax K ((ch.iter 2 (rankMap ch K allow items)).map (·.2))) p.2⟩ : WordWeight F))).map (·.text) =
      (ch.iter 3 (rankMap ch K allow items)).map Prod.fst := by rw [List.map_map]; rfl
  refine ⟨words, _, _, ⟨he, h1, hseen, hlo, hhi, ?_, ?_⟩, ?_, ?_⟩
  · refine ((ch.sort_perm _ _).map _).trans ?_
    rw [htexts]
    exact ((ch.iter_perm 3 _).map _).trans h3
  · intro t ht
    exact (hmem t ((hsort t).1 ht)).2
  · refine sorted_above ch ?_ fun t ht => F64Round.fin_num (hfin t ht)
    rw [htexts]
    exact (((ch.iter_perm 3 _).map _).nodup_iff).2 h2
  · intro t ht
    exact hfin t ((hsort t).1 ht)

/-- C46: `TextRank` ranks the words of the graph by scaled values. The values are those of ten rounds of TextRank on the graph
of the co-occurrences, read in some order; the divisor comes from the values as they are visited in some order; the words are
listed by decreasing weight (equal weights: the later text first), and the first `topK` are returned. All weights are finite. -/
theorem C46_ranking [F64Round F] (ch : Choice) (K : RankConst F) (hK : RankConstOK K) (allow : List Bytes) (items : List SegPos)
    (hlen : 4 * items.length ≤ 2 ^ 40) :
    ∃ es words seen lo hi full, IsRanking K allow items es words seen lo hi full ∧ full.Pairwise Above ∧
      (∀ t ∈ full, F64Round.fin t.weight) ∧
      ∀ topK, textRankItems ch K items topK allow = if 0 < topK then full.take topK.toNat else full := by
  obtain ⟨words, lo, hi, h1, h2, h3⟩ := ranking_exact ch K hK allow items hlen
  exact ⟨_, words, _, lo, hi, _, h1, h2, h3, textRankItems_eq ch K allow items⟩

/-- C46: the direction of a ranking hangs on the order in which the values are visited. Unless they come in strictly
descending order, all weights are positive and go with the values; if they do, all weights are negative and go against the
values: the ranking is upside down. -/
theorem C46_direction [F64Round F] (K : RankConst F) (hK : RankConstOK K) (allow : List Bytes) (items : List SegPos)
    (hlen : 4 * items.length ≤ 2 ^ 40) (es : List ((Bytes × Bytes) × F)) (words seen : List Bytes) (lo hi : F) (full : List (WordWeight F))
    (h : IsRanking K allow items es words seen lo hi full) :
    (¬ Descending (seen.map (rankValue K es words)) → ∀ t ∈ full, 0 < F64Round.val t.weight ∧
      ∀ t' ∈ full, GoesWith (rankValue K es words t.text) (rankValue K es words t'.text) t.weight t'.weight) ∧
    (Descending (seen.map (rankValue K es words)) → ∀ t ∈ full, F64Round.val t.weight < 0 ∧
      ∀ t' ∈ full, GoesAgainst (rankValue K es words t.text) (rankValue K es words t'.text) t.weight t'.weight) := by
  have hw : ∀ t ∈ full, t.text ∈ words := fun t ht => h.texts.mem_iff.1 (List.mem_map_of_mem ht)
  constructor
  · intro hd t ht
    have h0 := List.ne_nil_of_mem (hw t ht)
    obtain ⟨_, h2, _⟩ := ranking_parts hK h.isEdges h.isWords h.perm hlen (h.isLo h0) h.isHi
    obtain ⟨a, b⟩ := h2 hd _ (hw t ht)
    rw [h.weight t ht]
    exact ⟨a, fun t' ht' => by rw [h.weight t' ht']; exact b _ (hw t' ht')⟩
  · intro hd t ht
    have h0 := List.ne_nil_of_mem (hw t ht)
    obtain ⟨_, _, h2⟩ := ranking_parts hK h.isEdges h.isWords h.perm hlen (h.isLo h0) h.isHi
    obtain ⟨a, b⟩ := h2 hd _ (hw t ht)
    rw [h.weight t ht]
    exact ⟨a, fun t' ht' => by rw [h.weight t' ht']; exact b _ (hw t' ht')⟩

/-- C46: a graph with a single word: its weight is negative. -/
theorem C46_single [F64Round F] (ch : Choice) (K : RankConst F) (hK : RankConstOK K) (allow : List Bytes) (items : List SegPos)
    (hlen : 4 * items.length ≤ 2 ^ 40) (w : Bytes) (hw : IsRankWords allow items [w]) (topK : Int) :
    ∃ x, textRankItems ch K items topK allow = [⟨w, x⟩] ∧ F64Round.val x < 0 := by
  obtain ⟨es, words, seen, lo, hi, full, h1, h2, h3, h4⟩ := C46_ranking ch K hK allow items hlen
  have e : words = [w] := List.perm_singleton.1 ((List.perm_ext_iff_of_nodup (rankWords_nodup h1.isWords) (by simp)).2 fun x => by
    rw [h1.isWords.mem, ← hw.mem])
  subst e
  have e2 := List.perm_singleton.1 h1.perm
  subst e2
  have e3 := List.perm_singleton.1 h1.texts
  obtain ⟨⟨t, x⟩, hfull, ht⟩ := List.map_eq_singleton_iff.1 e3
  simp only at ht
  subst ht
  subst hfull
  refine ⟨x, ?_, ?_⟩
  · rw [h4]
    split
    · rw [List.take_of_length_le]; simp; omega
    · rfl
  · exact ((C46_direction K hK allow items hlen es _ _ lo hi _ h1).2 (by simp [Descending]) _ (List.mem_singleton.2 rfl)).1

/-! ### A text ranked in two ways -/

/-- Three items with the tag "n". -/
def twoItems : List SegPos := [⟨str "a", str "n"⟩, ⟨str "b", str "n"⟩, ⟨str "b", str "n"⟩]

theorem two_count : ∀ x y, coCount [str "n"] twoItems x y =
    if x = str "a" ∧ y = str "b" then 2 else if x = str "b" ∧ y = str "b" then 1 else 0 := by
  intro x y
  rw [← rankPairs_count]
  have e : rankPairs [str "n"] twoItems = [(str "a", str "b"), (str "a", str "b"), (str "b", str "b")] := by decide
  rw [e]
  by_cases h1 : x = str "a" ∧ y = str "b"
  · rw [if_pos h1, h1.1, h1.2]; decide
  · rw [if_neg h1]
    by_cases h2 : x = str "b" ∧ y = str "b"
    · rw [if_pos h2, h2.1, h2.2]; decide
    · rw [if_neg h2, List.count_eq_zero]
      simp only [List.mem_cons, Prod.mk.injEq, List.not_mem_nil, or_false]
      tauto

theorem two_words {words : List Bytes} (h : IsRankWords [str "n"] twoItems words) : words = [str "a", str "b"] := by
  have hm : ∀ w, w ∈ words ↔ w ∈ [str "a", str "b"] := by
    intro w
    rw [h.mem]
    simp only [two_count, List.mem_cons, List.not_mem_nil, or_false]
    constructor
    · rintro ⟨v, h | h⟩
      · split at h
        · rename_i h'; exact .inl h'.1
        · split at h
          · rename_i h'; exact .inr h'.1
          · simp at h
      · split at h
        · rename_i h'; exact .inr h'.2
        · split at h
          · rename_i h'; exact .inr h'.2
          · simp at h
    · rintro (rfl | rfl)
      · exact ⟨str "b", .inl (by simp)⟩
      · exact ⟨str "a", .inr (by simp)⟩
  have hp : words.Perm [str "a", str "b"] := (List.perm_ext_iff_of_nodup (rankWords_nodup h) (by decide)).2 hm
  refine hp.eq_of_pairwise (le := TextBefore) ?_ h.ordered ?_
  · intro a b _ _ h1 h2
    have h1 := (bytesLt_iff _ _).2 h1
    have h2 := (bytesLt_iff _ _).2 h2
    rw [bytesLt_asymm h1] at h2; simp at h2
  · simp [← bytesLt_iff]; decide

theorem two_edges {es : List ((Bytes × Bytes) × F)} (h : IsEdges [str "n"] twoItems es) :
    es = [((str "a", str "b"), F64.ofNat 2), ((str "b", str "b"), F64.ofNat 1)] ∨
    es = [((str "b", str "b"), F64.ofNat 1), ((str "a", str "b"), F64.ofNat 2)] := by
  have hp : es.Perm [((str "a", str "b"), F64.ofNat 2), ((str "b", str "b"), F64.ofNat 1)] := by
    refine (List.perm_ext_iff_of_nodup (List.Nodup.of_map _ h.nodup) ?_).2 ?_
    · refine List.nodup_cons.2 ⟨?_, by simp⟩
      simp only [List.mem_singleton, Prod.mk.injEq]
      rintro ⟨⟨h1, _⟩, _⟩
      revert h1; decide
    · rintro ⟨⟨a, b⟩, v⟩
      rw [h.mem, two_count]
      simp only [List.mem_cons, Prod.mk.injEq, List.not_mem_nil, or_false]
      have hab : str "a" ≠ str "b" := by decide
      by_cases h1 : a = str "a" ∧ b = str "b"
      · rw [if_pos h1]
        simp [h1.1, h1.2, hab]
      · rw [if_neg h1]
        by_cases h2 : a = str "b" ∧ b = str "b"
        · rw [if_pos h2]
          simp [h2.1, h2.2, hab.symm]
        · rw [if_neg h2]
          simp only [lt_irrefl, false_and, false_iff]
          tauto
  exact List.perm_pair.1 hp

theorem ratio_mul_near [F64Round F] {c o : Nat} (hc : c ≤ o) (ho0 : 0 < o) (ho : o ≤ 16) {x : F} (fx : F64Round.fin x) (x0 : 0 ≤ F64Round.val x)
    (x1 : F64Round.val x ≤ 8) :
    F64Round.fin (F64.mul (F64.div (F64.ofNat c) (F64.ofNat o)) x) ∧ 0 ≤ F64Round.val (F64.mul (F64.div (F64.ofNat c) (F64.ofNat o)) x) ∧
      (c : ℚ) / o * F64Round.val x - 1 / 10 ^ 10 ≤ F64Round.val (F64.mul (F64.div (F64.ofNat c) (F64.ofNat o)) x) ∧
      F64Round.val (F64.mul (F64.div (F64.ofNat c) (F64.ofNat o)) x) ≤ (c : ℚ) / o * F64Round.val x + 1 / 10 ^ 10 := by
  obtain ⟨fh, h0, h1, h2⟩ := ratio_near (F := F) (c := c) (o := o) (hc.trans ho) ho0 ho
  have hq : (c : ℚ) / o ≤ 1 := by
    rw [div_le_one (by exact_mod_cast ho0)]; exact_mod_cast hc
  generalize (c : ℚ) / o = q at *
  have e1 : (q - 1 / 2 ^ 40) * F64Round.val x ≤ F64Round.val (F64.div (F64.ofNat c : F) (F64.ofNat o)) * F64Round.val x := by gcongr
  have e2 : F64Round.val (F64.div (F64.ofNat c : F) (F64.ofNat o)) * F64Round.val x ≤ (q + 1 / 2 ^ 40) * F64Round.val x := by gcongr
  have e3 : q * F64Round.val x ≤ 1 * 8 := mul_le_mul hq x1 x0 (by norm_num)
  obtain ⟨ft, t0, t1, t2⟩ := mul_near fh fx h0 x0 (by linarith)
  exact ⟨ft, t0, by linarith, by linarith⟩

theorem new_near [F64Round F] {K : RankConst F} (hK : RankConstOK K) {S : F} (fS : F64Round.fin S) (S0 : 0 ≤ F64Round.val S)
    (S1 : F64Round.val S ≤ 12) :
    F64Round.fin (F64.add K.rest (F64.mul K.damp S)) ∧ 0 ≤ F64Round.val (F64.add K.rest (F64.mul K.damp S)) ∧
      F64Round.val K.rest + F64Round.val K.damp * F64Round.val S - 1 / 10 ^ 10 ≤ F64Round.val (F64.add K.rest (F64.mul K.damp S)) ∧
      F64Round.val (F64.add K.rest (F64.mul K.damp S)) ≤ F64Round.val K.rest + F64Round.val K.damp * F64Round.val S + 1 / 10 ^ 10 := by
  have dp : 0 ≤ F64Round.val K.damp := le_trans (by norm_num) hK.damp_ge
  have rp : 0 ≤ F64Round.val K.rest := le_trans (by norm_num) hK.rest_ge
  have e : F64Round.val K.damp * F64Round.val S ≤ 851 / 1000 * 12 := mul_le_mul hK.damp_le S1 S0 (by norm_num)
  obtain ⟨fm, m0, m1, m2⟩ := mul_near hK.fin_damp fS dp S0 (by linarith)
  obtain ⟨fa, a0, a1, a2⟩ := add_near hK.fin_rest fm rp m0 (by linarith [hK.rest_le])
  exact ⟨fa, a0, by linarith, by linarith⟩

theorem two_near [F64Round F] {K : RankConst F} (hK : RankConstOK K) {x y z : F} (fx : F64Round.fin x) (x0 : 0 ≤ F64Round.val x)
    (x1 : F64Round.val x ≤ 8)
    (hy : y = F64.add K.rest (F64.mul K.damp (F64.add (F64.ofNat 0) (F64.mul (F64.div (F64.ofNat 2) (F64.ofNat 4)) x))))
    (hz : z = F64.add K.rest (F64.mul K.damp (F64.add (F64.add (F64.add (F64.ofNat 0)
        (F64.mul (F64.div (F64.ofNat 2) (F64.ofNat 2)) y)) (F64.mul (F64.div (F64.ofNat 1) (F64.ofNat 4)) x))
        (F64.mul (F64.div (F64.ofNat 1) (F64.ofNat 4)) x))) ∨
      z = F64.add K.rest (F64.mul K.damp (F64.add (F64.add (F64.add (F64.ofNat 0)
        (F64.mul (F64.div (F64.ofNat 1) (F64.ofNat 4)) x)) (F64.mul (F64.div (F64.ofNat 1) (F64.ofNat 4)) x))
        (F64.mul (F64.div (F64.ofNat 2) (F64.ofNat 2)) y)))) :
    F64Round.val y * (1 + 1 / 2 ^ 40) ≤ F64Round.val z := by
  obtain ⟨f0, v0⟩ := F64Round.ofNat_val (F := F) 0 (by norm_num)
  rw [Nat.cast_zero] at v0
  have damp_le := hK.damp_le
  have damp_ge := hK.damp_ge
  have rest_le := hK.rest_le
  have rest_ge := hK.rest_ge
  obtain ⟨ft, t0, t1, t2⟩ := ratio_mul_near (c := 2) (o := 4) (by norm_num) (by norm_num) (by norm_num) fx x0 x1
  have c1 : ((2 : ℕ) : ℚ) / (4 : ℕ) = 1 / 2 := by norm_num
  rw [c1] at t1 t2
  obtain ⟨fs, s0, s1, s2⟩ := add_near f0 ft (by rw [v0]) t0 (by linarith)
  rw [v0] at s1 s2
  obtain ⟨fa, a0, a1, a2⟩ := new_near hK fs s0 (by linarith)
  rw [← hy] at fa a0 a1 a2
  clear hy
  generalize F64.add (F64.ofNat 0) (F64.mul (F64.div (F64.ofNat 2) (F64.ofNat 4)) x) = s at *
  have m3 : F64Round.val K.damp * F64Round.val s ≤ F64Round.val K.damp * (1 / 2 * F64Round.val x + 1 / 10 ^ 9) :=
    mul_le_mul_of_nonneg_left (by linarith) (by linarith)
  have m4 : F64Round.val K.damp * F64Round.val s ≤ 851 / 1000 * 5 := mul_le_mul damp_le (by linarith) s0 (by norm_num)
  have m5 : 0 ≤ F64Round.val K.damp * F64Round.val s := mul_nonneg (by linarith) s0
  obtain ⟨fp, p0, p1, p2⟩ := ratio_mul_near (c := 2) (o := 2) (by norm_num) (by norm_num) (by norm_num) fa a0 (by linarith)
  obtain ⟨fr, r0, r1, r2⟩ := ratio_mul_near (c := 1) (o := 4) (by norm_num) (by norm_num) (by norm_num) fx x0 x1
  have c2 : ((2 : ℕ) : ℚ) / (2 : ℕ) = 1 := by norm_num
  have c3 : ((1 : ℕ) : ℚ) / (4 : ℕ) = 1 / 4 := by norm_num
  rw [c2, one_mul] at p1 p2
  rw [c3] at r1 r2
  generalize F64.mul (F64.div (F64.ofNat 2 : F) (F64.ofNat 2)) y = p at *
  generalize F64.mul (F64.div (F64.ofNat 1 : F) (F64.ofNat 4)) x = r at *
  have fin : ∀ S : F, F64Round.fin S → 0 ≤ F64Round.val S → F64Round.val S ≤ 12 →
      F64Round.val y + 1 / 2 * F64Round.val x - 1 / 10 ^ 8 ≤ F64Round.val S →
      F64Round.val y * (1 + 1 / 2 ^ 40) ≤ F64Round.val (F64.add K.rest (F64.mul K.damp S)) := by
    intro S fS S0 S1 S2
    obtain ⟨_, _, A1, A2⟩ := new_near hK fS S0 S1
    have M3 : F64Round.val K.damp * (F64Round.val y + 1 / 2 * F64Round.val x - 1 / 10 ^ 8) ≤ F64Round.val K.damp * F64Round.val S :=
      mul_le_mul_of_nonneg_left S2 (by linarith)
    have M4 : 849 / 1000 * F64Round.val y ≤ F64Round.val K.damp * F64Round.val y := by gcongr
    rw [mul_sub, mul_add] at M3
    rw [mul_add] at m3
    linarith
  rcases hz with hz | hz
  · rw [hz]
    obtain ⟨b1, b2, b3, b4⟩ := add_near f0 fp (by rw [v0]) p0 (by linarith)
    rw [v0] at b3 b4
    obtain ⟨c1, c2, c3, c4⟩ := add_near b1 fr b2 r0 (by linarith)
    obtain ⟨e1, e2, e3, e4⟩ := add_near c1 fr c2 r0 (by linarith)
    exact fin _ e1 e2 (by linarith) (by linarith)
  · rw [hz]
    obtain ⟨b1, b2, b3, b4⟩ := add_near f0 fr (by rw [v0]) r0 (by linarith)
    rw [v0] at b3 b4
    obtain ⟨c1, c2, c3, c4⟩ := add_near b1 fr b2 r0 (by linarith)
    obtain ⟨e1, e2, e3, e4⟩ := add_near c1 fp c2 p0 (by linarith)
    exact fin _ e1 e2 (by linarith) (by linarith)

/-- The word "b" gets a clearly larger value than "a". -/
theorem two_values [F64Round F] {K : RankConst F} (hK : RankConstOK K) {es : List ((Bytes × Bytes) × F)} (he : IsEdges [str "n"] twoItems es) :
    F64Round.val (rankValue K es [str "a", str "b"] (str "a")) * (1 + 1 / 2 ^ 40) ≤ F64Round.val (rankValue K es [str "a", str "b"] (str "b")) := by
  have hab : str "a" ≠ str "b" := by decide
  have hw : IsRankWords [str "n"] twoItems [str "a", str "b"] := by
    obtain ⟨_, words, h, _⟩ := rankMap_spec choiceA K [str "n"] twoItems (by decide)
    rwa [two_words h] at h
  obtain ⟨e1, e2⟩ := edges_ofNat he
  have hsum := edgeCounts_sum he
  have hs : ∀ n, outN (edgeCounts [str "n"] twoItems es) n ≤ 2 ^ 41 := by
    intro n; have := outN_le (edgeCounts [str "n"] twoItems es) n
    have h3 : twoItems.length = 3 := rfl
    omega
  have hout : ∀ n ∈ [str "a", str "b"], 1 ≤ outN (edgeCounts [str "n"] twoItems es) n := by
    intro n hn
    obtain ⟨v, hv⟩ := (hw.mem n).1 hn
    exact word_out he hv
  have hgood := rankValue_good_iter e2 hs hK [str "a", str "b"] hout (by simp) (by decide) 9
  rw [← e1] at hgood
  unfold rankValue
  rw [Function.iterate_succ_apply']
  generalize (rankRound K es [str "a", str "b"])^[9] (fun _ => F64.div (F64.ofNat 1) (F64.ofNat [str "a", str "b"].length)) = v at *
  have hob : outN (edgeCounts [str "n"] twoItems es) (str "b") = 4 := by
    rcases two_edges he with rfl | rfl <;> simp [edgeCounts, two_count, outN, nbrs, hab, hab.symm]
  have gb := hgood (str "b") (by omega)
  obtain ⟨fx, x0, x1⟩ := gb
  rw [hob] at x1
  have hua : rankRound K es [str "a", str "b"] v (str "a") = rankNew K es v (str "a") := by
    simp [rankRound, Function.update_of_ne hab]
  have hub : rankRound K es [str "a", str "b"] v (str "b") =
      rankNew K es (Function.update v (str "a") (rankNew K es v (str "a"))) (str "b") := by
    simp [rankRound]
  rw [hua, hub]
  generalize hx : v (str "b") = x at *
  have wa : outWeight es (str "a") = F64.ofNat 2 := by
    rcases two_edges he with rfl | rfl <;>
      simp [outWeight, nbrs, hab.symm, F64Count.ofNat_add]
  have wb : outWeight es (str "b") = F64.ofNat 4 := by
    rcases two_edges he with rfl | rfl <;>
      simp [outWeight, nbrs, hab, F64Count.ofNat_add]
  have na : rankNew K es v (str "a") = F64.add K.rest (F64.mul K.damp (F64.add (F64.ofNat 0) (F64.mul (F64.div (F64.ofNat 2) (F64.ofNat 4)) x))) := by
    unfold rankNew
    have : nbrs es (str "a") = [(str "b", F64.ofNat 2)] := by
      rcases two_edges he with rfl | rfl <;> simp [nbrs, hab.symm]
    rw [this]
    simp [wb, hx]
  have nb : ∀ u : Bytes → F, u (str "b") = x →
      rankNew K es u (str "b") = F64.add K.rest (F64.mul K.damp (F64.add (F64.add (F64.add (F64.ofNat 0)
        (F64.mul (F64.div (F64.ofNat 2) (F64.ofNat 2)) (u (str "a")))) (F64.mul (F64.div (F64.ofNat 1) (F64.ofNat 4)) x))
        (F64.mul (F64.div (F64.ofNat 1) (F64.ofNat 4)) x))) ∨
      rankNew K es u (str "b") = F64.add K.rest (F64.mul K.damp (F64.add (F64.add (F64.add (F64.ofNat 0)
        (F64.mul (F64.div (F64.ofNat 1) (F64.ofNat 4)) x)) (F64.mul (F64.div (F64.ofNat 1) (F64.ofNat 4)) x))
        (F64.mul (F64.div (F64.ofNat 2) (F64.ofNat 2)) (u (str "a"))))) := by
    intro u hu
    rcases two_edges he with h | h
    · left
      have : nbrs es (str "b") = [(str "a", F64.ofNat 2), (str "b", F64.ofNat 1), (str "b", F64.ofNat 1)] := by
        rw [h]; simp [nbrs, hab]
      unfold rankNew
      rw [this]
      simp [wa, wb, hu]
    · right
      have : nbrs es (str "b") = [(str "b", F64.ofNat 1), (str "b", F64.ofNat 1), (str "a", F64.ofNat 2)] := by
        rw [h]; simp [nbrs, hab]
      unfold rankNew
      rw [this]
      simp [wa, wb, hu]
  have nb := nb (Function.update v (str "a") (rankNew K es v (str "a"))) (by rw [Function.update_of_ne hab.symm]; exact hx)
  rw [Function.update_self] at nb
  have d0 : (0 : ℚ) < 1 / 2 ^ 60 := by positivity
  exact two_near hK fx (by linarith) (x1.trans (by norm_num)) na nb

/-- C46: there is a text such that, whatever the order of maps and the sorting algorithm, a change in the order in which one map is
visited, and nothing else, turns the ranking upside down. -/
theorem C46_opposite [F64Round F] (K : RankConst F) (hK : RankConstOK K) (ch : Choice) :
    ∃ ch' : Choice, (∀ {K V : Type} (n : Nat) (m : GoMap K V), n ≠ 2 → ch'.iter n m = ch.iter n m) ∧
      (∀ {α : Type} (less : α → α → Bool) (l : List α), ch'.sort less l = ch.sort less l) ∧
      ((textRankItems ch K twoItems 0 [str "n"]).map (·.text) = [str "a", str "b"] ∧
        (textRankItems ch' K twoItems 0 [str "n"]).map (·.text) = [str "b", str "a"] ∨
       (textRankItems ch K twoItems 0 [str "n"]).map (·.text) = [str "b", str "a"] ∧
        (textRankItems ch' K twoItems 0 [str "n"]).map (·.text) = [str "a", str "b"]) := by
  have key : ∀ c : Choice, (((c.iter 2 (rankMap c K [str "n"] twoItems)).map Prod.fst = [str "a", str "b"]) →
        (textRankItems c K twoItems 0 [str "n"]).map (·.text) = [str "b", str "a"]) ∧
      (((c.iter 2 (rankMap c K [str "n"] twoItems)).map Prod.fst = [str "b", str "a"]) →
        (textRankItems c K twoItems 0 [str "n"]).map (·.text) = [str "a", str "b"]) ∧
      (((c.iter 2 (rankMap c K [str "n"] twoItems)).map Prod.fst = [str "a", str "b"]) ∨
        ((c.iter 2 (rankMap c K [str "n"] twoItems)).map Prod.fst = [str "b", str "a"])) := by
    intro c
    obtain ⟨words, lo, hi, h1, h2, h3⟩ := ranking_exact c K hK [str "n"] twoItems (by decide)
    have hw := two_words h1.isWords
    subst hw
    have hv := two_values hK h1.isEdges
    have hg := rank_good (K := K) hK h1.isEdges h1.isWords (by decide)
    obtain ⟨fa, a0, _⟩ := hg (str "a") (by simp)
    obtain ⟨fb, b0, _⟩ := hg (str "b") (by simp)
    have ap : 0 < F64Round.val (rankValue K (readEdges c [str "n"] twoItems) [str "a", str "b"] (str "a")) := lt_of_lt_of_le (by positivity) a0
    have hlt : F64Round.val (rankValue K (readEdges c [str "n"] twoItems) [str "a", str "b"] (str "a")) <
        F64Round.val (rankValue K (readEdges c [str "n"] twoItems) [str "a", str "b"] (str "b")) := by
      rw [mul_add] at hv
      have : 0 < F64Round.val (rankValue K (readEdges c [str "n"] twoItems) [str "a", str "b"] (str "a")) * (1 / 2 ^ 40) := mul_pos ap (by positivity)
      linarith
    obtain ⟨d1, d2⟩ := C46_direction K hK [str "n"] twoItems (by decide) _ _ _ lo hi _ h1
    have hfull : ∃ xa xb, rankAll c K [str "n"] twoItems = [⟨str "a", xa⟩, ⟨str "b", xb⟩] ∨
        rankAll c K [str "n"] twoItems = [⟨str "b", xb⟩, ⟨str "a", xa⟩] := by
      rcases List.perm_pair.1 h1.texts with e | e
      · obtain ⟨⟨t, x⟩, l, e1, e2, e3⟩ := List.map_eq_cons_iff.1 e
        obtain ⟨⟨t', x'⟩, e4, e5⟩ := List.map_eq_singleton_iff.1 e3
        simp only at e2 e5
        subst e2 e5 e4
        exact ⟨x, x', .inl e1⟩
      · obtain ⟨⟨t, x⟩, l, e1, e2, e3⟩ := List.map_eq_cons_iff.1 e
        obtain ⟨⟨t', x'⟩, e4, e5⟩ := List.map_eq_singleton_iff.1 e3
        simp only at e2 e5
        subst e2 e5 e4
        exact ⟨x', x, .inr e1⟩
    obtain ⟨xa, xb, hfull⟩ := hfull
    rw [textRankItems_eq, if_neg (by omega)]
    have ma : (⟨str "a", xa⟩ : WordWeight F) ∈ rankAll c K [str "n"] twoItems := by rcases hfull with h | h <;> rw [h] <;> simp
    have mb : (⟨str "b", xb⟩ : WordWeight F) ∈ rankAll c K [str "n"] twoItems := by rcases hfull with h | h <;> rw [h] <;> simp
    have fxa := h3 _ ma
    have fxb := h3 _ mb
    refine ⟨fun hs => ?_, fun hs => ?_, List.perm_pair.1 h1.perm⟩
    · rw [hs] at d1
      have hw := ((d1 (by
        simp only [Descending, List.map_cons, List.map_nil, List.pairwise_cons, List.mem_singleton, forall_eq, not_and]
        intro h
        rw [(lt_false_iff fb fa).2 hlt.le] at h; simp at h) _ ma).2 _ mb).2 hv
      rcases hfull with h | h
      · rw [h] at h2
        have := (List.pairwise_cons.1 h2).1 _ (List.mem_singleton.2 rfl)
        unfold Above at this
        rw [(lt_false_iff fxb fxa).2 hw.le, (F64Round.lt_iff fxa fxb).2 hw] at this
        simp at this
      · rw [h]; rfl
    · rw [hs] at d2
      have hw := ((d2 (by
        simp only [Descending, List.map_cons, List.map_nil, List.pairwise_cons, List.mem_singleton, forall_eq]
        exact ⟨(F64Round.lt_iff fa fb).2 hlt, by simp⟩) _ ma).2 _ mb).2 hv
      rcases hfull with h | h
      · rw [h]; rfl
      · rw [h] at h2
        have := (List.pairwise_cons.1 h2).1 _ (List.mem_singleton.2 rfl)
        unfold Above at this
        rw [(lt_false_iff fxa fxb).2 hw.le, (F64Round.lt_iff fxb fxa).2 hw] at this
        simp at this
  let ch' : Choice :=
    { ch with
      iter := fun n m => if n = 2 then (ch.iter 2 m).reverse else ch.iter n m
      iter_perm := fun n m => by
        split
        · exact (List.reverse_perm _).trans (ch.iter_perm 2 m)
        · exact ch.iter_perm n m }
  have hmap : rankMap ch' K [str "n"] twoItems = rankMap ch K [str "n"] twoItems := rfl
  have hit : (ch'.iter 2 (rankMap ch' K [str "n"] twoItems)).map Prod.fst = ((ch.iter 2 (rankMap ch K [str "n"] twoItems)).map Prod.fst).reverse := by
    rw [hmap, ← List.map_reverse]; rfl
  refine ⟨ch', fun n m hn => if_neg hn, fun _ _ => rfl, ?_⟩
  obtain ⟨k1, k2, k3⟩ := key ch
  obtain ⟨k1', k2', _⟩ := key ch'
  rcases k3 with h | h
  · right
    exact ⟨k1 h, k2' (by rw [hit, h]; rfl)⟩
  · left
    exact ⟨k2 h, k1' (by rw [hit, h]; rfl)⟩

theorem textRank_of [Unicode] [UnicodeOK] {d : Dictionary F D} (hi : IdxOK d) (ch' ch : Choice) (K : RankConst F) (T : PosTables F) (hT : PosTablesOK T) (bound : Nat)
    (size : Nat → F → Prop) (hf : PosFinite T bound size) (s : Bytes) (hb : 2 * (runes s).length ≤ bound) (hs : s.length ≤ 2 ^ 36)
    (topK : Int) (allow : List Bytes) :
    ∃ items, posCut ch' T d s true = some items ∧ 4 * items.length ≤ 2 ^ 40 ∧
      textRankWithPOS ch' ch K T d s topK allow = some (textRankItems ch K items topK allow) := by
  obtain ⟨items, h1, h2, _, _⟩ := posCut_true_of hi ch' T hT bound size hf s hb
  have h3 := posCut_true_ne hi ch' T hT bound size hf s hb items h1
  refine ⟨items, h1, ?_, ?_⟩
  · have e1 := items_length_le (l := items.map SegPos.text) (by
      intro w hw
      obtain ⟨p, hp, rfl⟩ := List.mem_map.1 hw
      exact h3 p hp)
    rw [h2, List.length_map] at e1
    have e2 := encode_length_le (runes s)
    have e3 := runes_length_le s
    omega
  · unfold textRankWithPOS; rw [h1]; rfl

/-- C46: `TextRankWithPOS` returns for every text within the bounds, and ranks the items of `Cut(text, true)`, so that the theorems
above apply. -/
theorem C46_returns [Unicode] [UnicodeOK] (cfg : SplitCfg) (ops : List (DictOp F)) (d : Dictionary F D)
    (hr : runOps cfg ops Dictionary.new = some d) (ch' ch : Choice) (K : RankConst F) (T : PosTables F) (hT : PosTablesOK T) (bound : Nat)
    (size : Nat → F → Prop) (hf : PosFinite T bound size) (s : Bytes) (hb : 2 * (runes s).length ≤ bound) (hs : s.length ≤ 2 ^ 36)
    (topK : Int) (allow : List Bytes) :
    ∃ items, posCut ch' T d s true = some items ∧ 4 * items.length ≤ 2 ^ 40 ∧
      textRankWithPOS ch' ch K T d s topK allow = some (textRankItems ch K items topK allow) :=
  textRank_of (idxOK_of_run hr) ch' ch K T hT bound size hf s hb hs topK allow

end

/-! ### Examples -/

section examples
attribute [local instance] sampleUnicode sampleUnicodeOK sampleF32 ratF64 ratCount ratNarrow

/-- Exact arithmetic satisfies the assumptions on rounding. -/
@[instance_reducible] def ratRound : F64Round Rat :=
  { ratCount with
    fin := fun _ => True
    val := id
    rnd := id
    rnd_mono := monotone_id
    rnd_zero := rfl
    rnd_err := by intro q; simp only [id, sub_self, abs_zero]; positivity
    fin_num := fun _ => trivial
    lt_iff := by intro x y _ _; simp [F64.lt]
    ofNat_val := fun n _ => ⟨trivial, rfl⟩
    add_val := fun _ _ _ => ⟨trivial, rfl⟩
    sub_val := fun _ _ _ => ⟨trivial, rfl⟩
    mul_val := fun _ _ _ => ⟨trivial, rfl⟩
    div_val := fun _ _ _ _ => ⟨trivial, rfl⟩ }

attribute [local instance] ratRound

def ratConst : RankConst Rat := ⟨17 / 20, 3 / 20, 2 ^ 200, 1 / 2 ^ 200⟩

theorem ratConst_ok : RankConstOK ratConst :=
  ⟨trivial, by show (849 / 1000 : ℚ) ≤ 17 / 20; norm_num, by show (17 / 20 : ℚ) ≤ 851 / 1000; norm_num, trivial,
    by show (149 / 1000 : ℚ) ≤ 3 / 20; norm_num, by show (3 / 20 : ℚ) ≤ 151 / 1000; norm_num, trivial, le_refl _, trivial,
    by show (0 : ℚ) < 1 / 2 ^ 200; positivity, le_refl _⟩

def rankItems : List SegPos :=
  [⟨str "one", str "n"⟩, ⟨str "of", str "p"⟩, ⟨str "two", str "n"⟩, ⟨str "one", str "n"⟩, ⟨str "is", str "v"⟩, ⟨str "it", str "r"⟩, ⟨str "three", str "n"⟩]

example : (textRankItems choiceB ratConst rankItems 2 [str "n", str "v"]).map (·.text) = [str "one", str "two"] := by decide +kernel
example : (textRankItems choiceB ratConst rankItems 0 [str "n", str "v"]).map (·.text) =
    [str "one", str "two", str "is", str "three"] := by decide +kernel
example : (textRankItems choiceA ratConst rankItems 0 [str "n", str "v"]).map (·.text) =
    [str "three", str "is", str "two", str "one"] := by decide +kernel
example : coCount [str "n", str "v"] rankItems (str "one") (str "two") = 1 ∧ coCount [str "n", str "v"] rankItems (str "one") (str "one") = 1 ∧
    coCount [str "n", str "v"] rankItems (str "two") (str "three") = 1 ∧ coCount [str "n", str "v"] rankItems (str "one") (str "of") = 0 := by
  refine ⟨?_, ?_, ?_, ?_⟩ <;> decide +kernel
example : (textRankItems choiceA ratConst twoItems 0 [str "n"]).map (·.text) = [str "b", str "a"] ∧
    (textRankItems choiceB ratConst twoItems 0 [str "n"]).map (·.text) = [str "a", str "b"] := by
  refine ⟨?_, ?_⟩ <;> decide +kernel
example : 4 * rankItems.length ≤ 2 ^ 40 := by decide

end examples
end Gse
