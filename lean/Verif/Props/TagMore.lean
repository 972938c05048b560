import Verif.Spec.TagMore
import Verif.Props.TagBag

/-!
# C106: naming a word more often does not cost it its place among the keywords
-/

namespace Gse
open Spec

variable {F D : Type} [F64 F] [F32 D] [Narrow F D]

section more
variable [Unicode]

omit [Unicode] [F32 D] [Narrow F D] in
theorem idfOf_nonneg {median : F} {d : Dictionary F D} (h : NonNegIdf median d) (w : Bytes) : F64.lt (idfOf median d w) (F64.ofNat 0) = false := by
  unfold idfOf
  cases hs : storedTok d w with
  | some tok => exact h.2 w tok hs
  | none =>
    simp only
    split
    · exact F64.zero_lt_zero
    · exact h.1

omit [Unicode] [F32 D] [Narrow F D] in
theorem idfOf_num [F64Count F] {median : F} {d : Dictionary F D} (h : NumIdf median d) (w : Bytes) : F64Count.num (idfOf median d w) := by
  unfold idfOf
  cases hs : storedTok d w with
  | some tok => exact h.2 w tok hs
  | none =>
    simp only
    split
    · exact F64Count.num_zero
    · exact h.1

omit [F32 D] [Narrow F D] in
theorem weight_share [F64Count F] (hq : ShareLaw F) {isStop : Bytes → Bool} {l l' : List Bytes} (hl : l.length ≤ 2 ^ 53) (hl' : l'.length ≤ 2 ^ 53)
    {median : F} {d : Dictionary F D} (hn : NumIdf median d) {v w : Bytes} (hv : TagWord isStop v) (hw : TagWord isStop w)
    (h0 : F64.lt (idfOf median d v) (F64.ofNat 0) = false)
    (hf : F64.lt (idfOf median d w) (idfOf median d v) = false) (cv : 0 < tagCount l v) (cw : 0 < tagCount l' w)
    (hs : tagCount l v * tagTotal isStop l' ≤ tagCount l' w * tagTotal isStop l) :
    F64.lt (tagWeight isStop median d l' w) (tagWeight isStop median d l v) = false := by
  have t1 := tagCount_le_total (items := l) hv
  have t2 := tagCount_le_total (items := l') hw
  have u1 := tagTotal_le isStop l
  have u2 := tagTotal_le isStop l'
  exact hq _ _ _ _ _ _ (idfOf_num hn v) (idfOf_num hn w) h0 hf cv t1 (by omega) cw t2 (by omega) hs

omit [Unicode] [F32 D] [Narrow F D] in
theorem lt_self [F64Count F] {x : F} (h : F64Count.num x) : F64.lt x x = false := by
  cases hx : F64.lt x x with
  | false => rfl
  | true => rw [← hx]; exact F64Count.lt_asymm h h hx

/-- C106: a word that may become a tag, is named at least as often as a tag, and has at least its IDF value is a tag as well and not of less
weight, or has exactly the same weight and was left out for want of room, being earlier in the order of texts. -/
theorem C106_outranks [UnicodeOK] [F64Count F] (hq : ShareLaw F) (ch : Choice) (cfg : SplitCfg) (ops : List (DictOp F)) (d : Dictionary F D)
    (hr : runOps cfg ops Dictionary.new = some d) (c : HmmConst F) (em : EmitModel F)
    (isStop : Bytes → Bool) (icfg : SplitCfg) (iops : List (DictOp F)) (i : Idf F D) (di : Dictionary F D) (hi : runOps icfg iops Dictionary.new = some di)
    (hd : i.dict = some di) (hn : NumIdf i.median di) (s : Bytes) (hs : 4 * s.length ≤ 2 ^ 53) (l : List Bytes)
    (hl : cutDAGHmm cfg d c em s [] = some l) (k : Nat) (tags : List (WordWeight F))
    (ht : extractTags ch cfg d c em (some isStop) (some i) s k = some tags) (t : WordWeight F) (htt : t ∈ tags) (w : Bytes) (hw : TagWord isStop w)
    (h0 : F64.lt (idfOf i.median di t.text) (F64.ofNat 0) = false) (hf : F64.lt (idfOf i.median di w) (idfOf i.median di t.text) = false)
    (hc : tagCount l t.text ≤ tagCount l w) :
    (∃ u ∈ tags, u.text = w ∧ F64.lt u.weight t.weight = false ∧ (F64.lt t.weight u.weight = true → ∃ x y z, tags = x ++ u :: y ++ t :: z)) ∨
    (tags.length = k ∧ TextBefore w t.text ∧ F64.eq (tagWeight isStop i.median di l w) t.weight = true) := by
  have hlen := extractTags_items cfg ops d hr c em s hs hl
  obtain ⟨it, tags', e1, e2, e3⟩ := C45_top ch cfg ops d hr c em isStop icfg iops i di hi hd hn s hs k
  rw [hl] at e1
  obtain rfl := Option.some.inj e1
  rw [ht] at e2
  obtain rfl := Option.some.inj e2
  obtain ⟨tw, tx⟩ := e3.word t htt
  have ct := tagCount_pos.2 tx
  have cw : 0 < tagCount l w := by omega
  have hwt := weight_share hq hlen hlen hn tw hw h0 hf ct cw (Nat.mul_le_mul_right _ hc)
  rw [← e3.weight t htt] at hwt
  obtain ⟨x, hx, rfl⟩ := tagCount_pos.1 cw
  have nt : F64Count.num t.weight := by rw [e3.weight t htt]; exact num_tagWeight hlen hn tw ct
  have nw : F64Count.num (tagWeight isStop i.median di l (trimSpace x)) := num_tagWeight hlen hn hw cw
  rcases e3.complete x hx hw with ⟨u, hu, e⟩ | ⟨h1, h2⟩
  · left
    have eu := e3.weight u hu
    rw [e] at eu
    refine ⟨u, hu, e, by rw [eu]; exact hwt, fun hlt => ?_⟩
    have hne : u ≠ t := by
      rintro rfl
      rw [lt_self nt] at hlt
      cases hlt
    obtain ⟨p, q, rfl⟩ := List.append_of_mem htt
    rcases List.mem_append.1 hu with hp | hp
    · obtain ⟨y, z, rfl⟩ := List.append_of_mem hp
      exact ⟨y, z, q, rfl⟩
    · rcases List.mem_cons.1 hp with rfl | hp
      · exact absurd rfl hne
      · exfalso
        have := (List.pairwise_cons.1 (List.pairwise_append.1 e3.ordered).2.1).1 u hp
        rcases this with h | ⟨h, h', _⟩
        · rw [eu] at h; rw [hwt] at h; cases h
        · rw [h'] at hlt; cases hlt
  · right
    have := h2 t htt
    rcases this with h | ⟨h, h', h''⟩
    · simp only at h; rw [hwt] at h; cases h
    · exact ⟨h1, h'', (F64Count.eq_iff nw nt).2 ⟨h, h'⟩⟩

/-- Whoever is before a word that has gained was before it already. -/
theorem gain_keeps [F64Count F] (hq : ShareLaw F) (ch ch' : Choice) {isStop : Bytes → Bool} {l l' : List Bytes} (hl : l.length ≤ 2 ^ 53) (hl' : l'.length ≤ 2 ^ 53)
    {i : Idf F D} {d : Dictionary F D} (hd : i.dict = some d) (h : IdxOK d) (hn : NumIdf i.median d) (hp : NonNegIdf i.median d) {w : Bytes}
    (hw : TagWord isStop w) (hc : 0 < tagCount l w) (hc' : 0 < tagCount l' w) (hg : Gains isStop w l l') (k : Nat) :
    ∃ tags tags', extractWords ch (some isStop) (some i) l k = some tags ∧ extractWords ch' (some isStop) (some i) l' k = some tags' ∧
      ∀ a t b, tags = a ++ t :: b → t.text = w → ∃ a' t' b', tags' = a' ++ t' :: b' ∧ t'.text = w ∧ F64.lt t'.weight t.weight = false ∧
        a'.length ≤ a.length ∧ ∀ u' ∈ a', ∃ u ∈ a, u.text = u'.text := by
  obtain ⟨S, h1, h2, h3, h4, h5⟩ := extract_top ch (isStop := isStop) hl hd h hn k
  obtain ⟨S', h1', h2', h3', h4', h5'⟩ := extract_top ch' (isStop := isStop) hl' hd h hn k
  refine ⟨_, _, h5, h5', fun a t b e ht => ?_⟩
  have hS : S = a ++ t :: (b ++ S.drop k) := by
    conv_lhs => rw [← List.take_append_drop k S, e]
    simp
  have hak : a.length < k := by
    have := congrArg List.length e
    rw [List.length_take, List.length_append, List.length_cons] at this
    omega
  have htS : t ∈ S := by rw [hS]; simp
  obtain ⟨t1, t2, t3⟩ := (h4 t).1 htS
  have ht' : (⟨w, tagWeight isStop i.median d l' w⟩ : WordWeight F) ∈ S' := (h4' _).2 ⟨hw, hc', rfl⟩
  obtain ⟨A, B, hA⟩ := List.append_of_mem ht'
  have hwt : F64.lt (tagWeight isStop i.median d l' w) (tagWeight isStop i.median d l w) = false :=
    weight_share hq hl hl' hn hw hw (idfOf_nonneg hp w) (lt_self (idfOf_num hn w)) hc hc' hg.1
  rw [ht] at t3
  have sub : ∀ u' ∈ A, ∃ u ∈ a, u.text = u'.text := by
    intro u' hu'
    have huS' : u' ∈ S' := by rw [hA]; exact List.mem_append.2 (.inl hu')
    obtain ⟨v1, v2, v3⟩ := (h4' u').1 huS'
    have hab : Above u' ⟨w, tagWeight isStop i.median d l' w⟩ := by
      rw [hA] at h1'
      exact (List.pairwise_append.1 h1').2.2 u' hu' _ (by simp)
    have hne : u'.text ≠ w := by
      intro e
      rw [hA] at h3'
      rw [List.map_append, List.nodup_append] at h3'
      exact h3'.2.2 _ (List.mem_map_of_mem hu') w (by simp) e
    have hgv := hg.2 _ v1 hne
    have v4 : 0 < tagCount l u'.text := by
      by_contra hz
      have z : tagCount l u'.text = 0 := by omega
      rw [z, Nat.zero_mul] at hgv
      have : 0 < tagCount l' u'.text * tagTotal isStop l := Nat.mul_pos v2 (lt_of_lt_of_le hc (tagCount_le_total hw))
      omega
    have hvw : F64.lt (tagWeight isStop i.median d l u'.text) (tagWeight isStop i.median d l' u'.text) = false :=
      weight_share hq hl' hl hn v1 v1 (idfOf_nonneg hp _) (lt_self (idfOf_num hn _)) v2 v4 hgv
    have huS : (⟨u'.text, tagWeight isStop i.median d l u'.text⟩ : WordWeight F) ∈ S := (h4 _).2 ⟨v1, v4, rfl⟩
    have n1 := h2 _ huS
    have n2 := h2 _ htS
    have n3 := h2' _ huS'
    have n4 := h2' _ ht'
    simp only at n1 n4
    have hab2 : Above (⟨u'.text, tagWeight isStop i.median d l u'.text⟩ : WordWeight F) t := by
      rw [v3] at n3
      rw [Above, t3, ht]
      rw [t3] at n2
      unfold Above at hab
      rw [v3] at hab
      simp only at hab ⊢
      -- old weight of u ≥ new weight of u ≥ new weight of w ≥ old weight of w
      by_cases hlt : F64.lt (tagWeight isStop i.median d l w) (tagWeight isStop i.median d l u'.text) = true
      · exact .inl hlt
      rw [Bool.not_eq_true] at hlt
      have key : F64.lt (tagWeight isStop i.median d l' w) (tagWeight isStop i.median d l' u'.text) = false := by
        cases hx : F64.lt (tagWeight isStop i.median d l' w) (tagWeight isStop i.median d l' u'.text) with
        | false => rfl
        | true =>
          rcases F64Count.lt_cotrans n4 n2 n3 hx with h | h
          · rw [hwt] at h; cases h
          · rcases F64Count.lt_cotrans n2 n1 n3 h with h | h
            · rw [hlt] at h; cases h
            · rw [hvw] at h; cases h
      rcases hab with hx | ⟨_, hy, hz⟩
      · rw [key] at hx; cases hx
      · refine .inr ⟨hlt, ?_, hz⟩
        cases hx : F64.lt (tagWeight isStop i.median d l u'.text) (tagWeight isStop i.median d l w) with
        | false => rfl
        | true =>
          rcases F64Count.lt_cotrans n1 n3 n2 hx with h | h
          · rw [hvw] at h; cases h
          · rcases F64Count.lt_cotrans n3 n4 n2 h with h | h
            · rw [hy] at h; cases h
            · rw [hwt] at h; cases h
    refine ⟨⟨u'.text, tagWeight isStop i.median d l u'.text⟩, ?_, rfl⟩
    rw [hS] at huS
    rcases List.mem_append.1 huS with hm | hm
    · exact hm
    · exfalso
      rcases List.mem_cons.1 hm with e | hm
      · rw [← e] at ht; exact hne ht
      · rw [hS] at h1
        have := (List.pairwise_cons.1 (List.pairwise_append.1 h1).2.1).1 _ hm
        exact above_asymm n2 n1 this hab2
  have hlen : A.length ≤ a.length := by
    have nd : (A.map (·.text)).Nodup := by
      rw [hA, List.map_append] at h3'
      exact (List.nodup_append.1 h3').1
    have : A.map (·.text) ⊆ a.map (·.text) := by
      intro x hx
      obtain ⟨u', hu', rfl⟩ := List.mem_map.1 hx
      obtain ⟨u, hu, e⟩ := sub u' hu'
      exact List.mem_map.2 ⟨u, hu, e⟩
    simpa using (nd.subperm this).length_le
  refine ⟨A, ⟨w, tagWeight isStop i.median d l' w⟩, B.take (k - A.length - 1), ?_, rfl, by rw [t3]; exact hwt, hlen, sub⟩
  rw [hA, List.take_append]
  obtain ⟨j, hj⟩ : ∃ j, k - A.length = j + 1 := ⟨k - A.length - 1, by omega⟩
  rw [List.take_of_length_le (by omega), hj, List.take_succ_cons]
  simp

/-- C106: a tag of one text whose share among the words that may become tags has not fallen in another, while that of no other word has
risen, is a tag of the other text for the same number of tags, with a weight that is not less and with nobody before it who was not
before it already. -/
theorem C106_gains [UnicodeOK] [F64Count F] (hq : ShareLaw F) (ch ch' : Choice) (cfg cfg' : SplitCfg) (ops ops' : List (DictOp F)) (d d' : Dictionary F D)
    (hr : runOps cfg ops Dictionary.new = some d) (hr' : runOps cfg' ops' Dictionary.new = some d') (c c' : HmmConst F) (em em' : EmitModel F)
    (isStop : Bytes → Bool) (icfg : SplitCfg) (iops : List (DictOp F)) (i : Idf F D) (di : Dictionary F D) (hi : runOps icfg iops Dictionary.new = some di)
    (hd : i.dict = some di) (hn : NumIdf i.median di) (hp : NonNegIdf i.median di) (s s' : Bytes) (hs : 4 * s.length ≤ 2 ^ 53) (hs' : 4 * s'.length ≤ 2 ^ 53)
    (l l' : List Bytes) (hl : cutDAGHmm cfg d c em s [] = some l) (hl' : cutDAGHmm cfg' d' c' em' s' [] = some l') (w : Bytes)
    (hc : 0 < tagCount l' w) (hg : Gains isStop w l l') (k : Nat) :
    ∃ tags tags', extractTags ch cfg d c em (some isStop) (some i) s k = some tags ∧ extractTags ch' cfg' d' c' em' (some isStop) (some i) s' k = some tags' ∧
      ∀ a t b, tags = a ++ t :: b → t.text = w → ∃ a' t' b', tags' = a' ++ t' :: b' ∧ t'.text = w ∧ F64.lt t'.weight t.weight = false ∧
        a'.length ≤ a.length ∧ ∀ u' ∈ a', ∃ u ∈ a, u.text = u'.text := by
  have b1 := extractTags_items cfg ops d hr c em s hs hl
  have b2 := extractTags_items cfg' ops' d' hr' c' em' s' hs' hl'
  rw [extractTags, extractTags, hl, hl', Option.bind_some, Option.bind_some]
  by_cases hw : TagWord isStop w ∧ 0 < tagCount l w
  · exact gain_keeps hq ch ch' b1 b2 hd (idxOK_of_run hi) hn hp hw.1 hw.2 hc hg k
  · obtain ⟨S, h1, h2, h3, h4, h5⟩ := extract_top ch (isStop := isStop) b1 hd (idxOK_of_run hi) hn k
    obtain ⟨S', h1', h2', h3', h4', h5'⟩ := extract_top ch' (isStop := isStop) b2 hd (idxOK_of_run hi) hn k
    refine ⟨_, _, h5, h5', fun a t b e ht => absurd ?_ hw⟩
    have : t ∈ S := List.mem_of_mem_take (i := k) (by rw [e]; simp)
    obtain ⟨x, y, _⟩ := (h4 t).1 this
    rw [ht] at x y
    exact ⟨x, y⟩

theorem total_more {isStop : Bytes → Bool} {w : Bytes} (hw : TagWord isStop w) {l l' : List Bytes} (h1 : tagCount l w ≤ tagCount l' w)
    (h2 : ∀ v, TagWord isStop v → v ≠ w → tagCount l' v = tagCount l v) :
    tagTotal isStop l' = tagTotal isStop l + (tagCount l' w - tagCount l w) := by
  have hp : (tagBag isStop l').Perm (tagBag isStop l ++ List.replicate (tagCount l' w - tagCount l w) w) := by
    rw [List.perm_iff_count]
    intro v
    rw [List.count_append, tagBag_count, tagBag_count, List.count_replicate]
    by_cases e : v = w
    · subst e
      simp only [hw, if_true, beq_self_eq_true]
      omega
    · have e' : ¬ w = v := fun h => e h.symm
      simp only [beq_iff_eq, e', if_false, Nat.add_zero]
      split
      · rename_i hv; exact h2 v hv e
      · rfl
  have := hp.length_eq
  rwa [List.length_append, List.length_replicate, tagBag_length, tagBag_length] at this

/-- Naming one word more often, all others as before, is a gain for that word. -/
theorem gains_of_more {isStop : Bytes → Bool} {w : Bytes} (hw : TagWord isStop w) {l l' : List Bytes} (h1 : tagCount l w ≤ tagCount l' w)
    (h2 : ∀ v, TagWord isStop v → v ≠ w → tagCount l' v = tagCount l v) : Gains isStop w l l' := by
  have ht := total_more hw h1 h2
  refine ⟨?_, fun v hv hne => ?_⟩
  · have := tagCount_le_total (items := l) hw
    rw [ht]
    obtain ⟨e, he⟩ := Nat.exists_eq_add_of_le h1
    rw [he, Nat.add_sub_cancel_left, Nat.mul_add, Nat.add_mul]
    exact Nat.add_le_add_left (by rw [Nat.mul_comm e]; exact Nat.mul_le_mul_right _ this) _
  · rw [h2 v hv hne, ht]
    exact Nat.mul_le_mul_left _ (Nat.le_add_right _ _)

/-- C106: a tag keeps or improves its place when the text names it more often and every other word that may become a tag as often as before. -/
theorem C106_more [UnicodeOK] [F64Count F] (hq : ShareLaw F) (ch ch' : Choice) (cfg cfg' : SplitCfg) (ops ops' : List (DictOp F)) (d d' : Dictionary F D)
    (hr : runOps cfg ops Dictionary.new = some d) (hr' : runOps cfg' ops' Dictionary.new = some d') (c c' : HmmConst F) (em em' : EmitModel F)
    (isStop : Bytes → Bool) (icfg : SplitCfg) (iops : List (DictOp F)) (i : Idf F D) (di : Dictionary F D) (hi : runOps icfg iops Dictionary.new = some di)
    (hd : i.dict = some di) (hn : NumIdf i.median di) (hp : NonNegIdf i.median di) (s s' : Bytes) (hs : 4 * s.length ≤ 2 ^ 53) (hs' : 4 * s'.length ≤ 2 ^ 53)
    (l l' : List Bytes) (hl : cutDAGHmm cfg d c em s [] = some l) (hl' : cutDAGHmm cfg' d' c' em' s' [] = some l') (w : Bytes)
    (h1 : tagCount l w ≤ tagCount l' w) (h2 : ∀ v, TagWord isStop v → v ≠ w → tagCount l' v = tagCount l v) (k : Nat) :
    ∃ tags tags', extractTags ch cfg d c em (some isStop) (some i) s k = some tags ∧ extractTags ch' cfg' d' c' em' (some isStop) (some i) s' k = some tags' ∧
      ∀ a t b, tags = a ++ t :: b → t.text = w → ∃ a' t' b', tags' = a' ++ t' :: b' ∧ t'.text = w ∧ F64.lt t'.weight t.weight = false ∧
        a'.length ≤ a.length ∧ ∀ u' ∈ a', ∃ u ∈ a, u.text = u'.text := by
  by_cases hw : TagWord isStop w ∧ 0 < tagCount l w
  · exact C106_gains hq ch ch' cfg cfg' ops ops' d d' hr hr' c c' em em' isStop icfg iops i di hi hd hn hp s s' hs hs' l l' hl hl' w (by omega)
      (gains_of_more hw.1 h1 h2) k
  · have b1 := extractTags_items cfg ops d hr c em s hs hl
    have b2 := extractTags_items cfg' ops' d' hr' c' em' s' hs' hl'
    rw [extractTags, extractTags, hl, hl', Option.bind_some, Option.bind_some]
    obtain ⟨S, _, _, _, h4, h5⟩ := extract_top ch (isStop := isStop) b1 hd (idxOK_of_run hi) hn k
    obtain ⟨S', _, _, _, _, h5'⟩ := extract_top ch' (isStop := isStop) b2 hd (idxOK_of_run hi) hn k
    refine ⟨_, _, h5, h5', fun a t b e ht => absurd ?_ hw⟩
    have : t ∈ S := List.mem_of_mem_take (i := k) (by rw [e]; simp)
    obtain ⟨x, y, _⟩ := (h4 t).1 this
    rw [ht] at x y
    exact ⟨x, y⟩

/-- C106: writing a text behind another, where a text may be cut in two and where every word of the added text that may become a tag is `w`,
costs `w` nothing. -/
theorem C106_append [UnicodeOK] [F64Laws F] [F64Shift F] [F64Count F] (hq : ShareLaw F) (ch ch' : Choice) (cfg : SplitCfg) (ops : List (DictOp F)) (d : Dictionary F D)
    (hr : runOps cfg ops Dictionary.new = some d) (hg : GoodScores d) (c : HmmConst F) (em : EmitModel F)
    (isStop : Bytes → Bool) (icfg : SplitCfg) (iops : List (DictOp F)) (i : Idf F D) (di : Dictionary F D) (hi : runOps icfg iops Dictionary.new = some di)
    (hd : i.dict = some di) (hn : NumIdf i.median di) (hp : NonNegIdf i.median di) (a b : Bytes) (hs : 4 * (a.length + b.length) ≤ 2 ^ 53) (hb : BeginsChar b)
    (hk : KindSeamRunes (dagText cfg a) (dagText cfg b)) (hx : NoSpanRunes d (dagText cfg a) (dagText cfg b)) (hx' : NoSpanKept d (dagText cfg a) (dagText cfg b))
    (fa : EndFree d (dagText cfg a)) (fb : StartFree d (dagText cfg b)) (sa : FinScores d (dagText cfg a)) (sb : FinScores d (dagText cfg b)) (w : Bytes)
    (hw : ∀ l, cutDAGHmm cfg d c em b [] = some l → ∀ x ∈ l, TagWord isStop (trimSpace x) → trimSpace x = w) (k : Nat) :
    ∃ tags tags', extractTags ch cfg d c em (some isStop) (some i) a k = some tags ∧ extractTags ch' cfg d c em (some isStop) (some i) (a ++ b) k = some tags' ∧
      ∀ p t q, tags = p ++ t :: q → t.text = w → ∃ p' t' q', tags' = p' ++ t' :: q' ∧ t'.text = w ∧ F64.lt t'.weight t.weight = false ∧
        p'.length ≤ p.length ∧ ∀ u' ∈ p', ∃ u ∈ p, u.text = u'.text := by
  obtain ⟨x, y, h1, h2, h3⟩ := C88_cut_exact cfg ops d hr hg c em a b hb hk hx hx' fa fb sa sb
  refine C106_more hq ch ch' cfg cfg ops ops d d hr hr c c em em isStop icfg iops i di hi hd hn hp _ _ (by omega) (by simpa using hs) _ _ h1 h3 w
    (by rw [tagCount_append]; omega) (fun v hv hne => ?_) k
  rw [tagCount_append, Nat.add_eq_left]
  by_contra hc
  obtain ⟨z, hz, rfl⟩ := tagCount_pos.1 (Nat.pos_of_ne_zero hc)
  exact hne (hw y h2 z hz hv)

end more

/-! ### IEEE arithmetic -/

section ieee
variable {M : MathFns}

open Datum in
theorem ofNat_div_val {a b : Nat} (ha : 1 ≤ a) (hab : a ≤ b) (hb : b ≤ 2 ^ 53) :
    ∃ t, Datum.div f64 (ofNat f64 a) (ofNat f64 b) = .fin t (f64.round ((a : ℚ) / b)) ∧ t = false ∧ 0 < f64.round ((a : ℚ) / b) := by
  have hl : ∀ n ≤ 2 ^ 53, n < 2 ^ f64.emax := fun n hn => lt_of_le_of_lt hn (Nat.pow_lt_pow_right (by norm_num) (by decide))
  rw [ofNat_exact (f := f64) (n := a) (show a ≤ 2 ^ 53 by omega) (hl _ (by omega)),
    ofNat_exact (f := f64) (n := b) (show b ≤ 2 ^ 53 by omega) (hl _ (by omega))]
  have hb0 : (0 : ℚ) < b := by exact_mod_cast (show 0 < b by omega)
  have ha0 : (1 : ℚ) ≤ a := by exact_mod_cast ha
  have hba : (b : ℚ) ≤ 2 ^ 53 := by exact_mod_cast hb
  have hle : (1 : ℚ) / 2 ^ 53 ≤ (a : ℚ) / b := by
    rw [div_le_div_iff₀ (by positivity) hb0]; nlinarith
  have hr : (1 : ℚ) / 2 ^ 53 ≤ f64.round ((a : ℚ) / b) := by
    have h1 := f64.round_mono hle
    have h2 : f64.round ((2 : ℚ) ^ (-53 : ℤ)) = 2 ^ (-53 : ℤ) := f64.round_zpow (by decide)
    have h3 : (2 : ℚ) ^ (-53 : ℤ) = 1 / 2 ^ 53 := by norm_num
    rw [h3] at h2
    rw [h2] at h1; exact h1
  have hr0 : 0 < f64.round ((a : ℚ) / b) := lt_of_lt_of_le (by positivity) hr
  have hq0 : 0 < (a : ℚ) / b := lt_of_lt_of_le (by positivity) hle
  have h1 : (a : ℚ) / b ≤ 1 := by rw [div_le_one hb0]; exact_mod_cast hab
  have hlt : |f64.round ((a : ℚ) / b)| < 2 ^ f64.emax := round_lt (by rw [abs_of_pos hq0]; exact h1.trans (one_le_pow₀ (by norm_num)))
  refine ⟨false, ?_, rfl, hr0⟩
  show (if (b : ℚ) = 0 then _ else _) = _
  rw [if_neg hb0.ne', make, if_neg hq0.ne', if_neg (not_le.mpr hlt)]
  simp [hq0.le]

open Datum in
/-- C106: IEEE arithmetic keeps the order of shares and of products. -/
theorem C106_share_ieee : ShareLaw (Binary64 M) := by
  intro f f' a b a' b' hf hf' h0 hff ha hab hb ha' hab' hb' hs
  obtain ⟨t, e, rfl, hp⟩ := ofNat_div_val ha hab hb
  obtain ⟨t', e', rfl, hp'⟩ := ofNat_div_val ha' hab' hb'
  show Datum.lt (Datum.mul f64 f'.datum (Datum.div f64 (ofNat f64 a') (ofNat f64 b'))) (Datum.mul f64 f.datum (Datum.div f64 (ofNat f64 a) (ofNat f64 b))) = false
  have h0' : Datum.lt f.datum (ofNat f64 0) = false := h0
  have hff' : Datum.lt f'.datum f.datum = false := hff
  have hz : ofNat f64 0 = .fin false 0 := by simp [ofNat, make]
  rw [hz] at h0'
  have hm : f64.round ((a : ℚ) / b) ≤ f64.round ((a' : ℚ) / b') := by
    apply f64.round_mono
    rw [div_le_div_iff₀ (by exact_mod_cast (show 0 < b by omega)) (by exact_mod_cast (show 0 < b' by omega))]
    exact_mod_cast hs
  rw [e, e']
  cases hx : f.datum with
  | nan => exact absurd hx hf
  | inf s =>
    rw [hx] at h0' hff'
    have hs : s = false := by simpa [Datum.lt] using h0'
    subst hs
    cases hy : f'.datum with
    | nan => exact absurd hy hf'
    | inf s' =>
      rw [hy] at hff'
      have hs' : s' = false := by simpa [Datum.lt] using hff'
      subst hs'
      simp [Datum.mul, hp.ne', hp'.ne', Datum.lt]
    | fin s' q' => rw [hy] at hff'; simp [Datum.lt] at hff'
  | fin s q =>
    rw [hx] at h0' hff'
    have hq : 0 ≤ q := by simpa [Datum.lt] using h0'
    cases hy : f'.datum with
    | nan => exact absurd hy hf'
    | inf s' =>
      rw [hy] at hff'
      have hs' : s' = false := by simpa [Datum.lt] using hff'
      subst hs'
      simp only [Datum.mul, if_neg hp'.ne']
      cases h : make f64 (s ^^ false) (q * f64.round ((a : ℚ) / b)) <;> simp [Datum.lt]
    | fin s' q' =>
      rw [hy] at hff'
      have hq' : q ≤ q' := by simpa [Datum.lt] using hff'
      simp only [Datum.mul]
      exact make_mono (f := f64) (mul_le_mul hq' hm hp.le (hq.trans hq'))

/-- C106 for IEEE arithmetic: no IDF value NaN or below zero. -/
theorem C106_ieee [Unicode] [UnicodeOK] (ch ch' : Choice) (cfg cfg' : SplitCfg) (ops ops' : List (DictOp (Binary64 M))) (d d' : Dictionary (Binary64 M) Binary32)
    (hr : runOps cfg ops Dictionary.new = some d) (hr' : runOps cfg' ops' Dictionary.new = some d') (c c' : HmmConst (Binary64 M)) (em em' : EmitModel (Binary64 M))
    (isStop : Bytes → Bool) (icfg : SplitCfg) (iops : List (DictOp (Binary64 M))) (i : Idf (Binary64 M) Binary32) (di : Dictionary (Binary64 M) Binary32)
    (hi : runOps icfg iops Dictionary.new = some di) (hd : i.dict = some di) (hm : i.median.datum ≠ .nan ∧ F64.lt i.median (F64.ofNat 0) = false)
    (hn : ∀ op ∈ iops, ∀ f, opFreq op = some f → f.datum ≠ .nan ∧ F64.lt f (F64.ofNat 0) = false) (s s' : Bytes) (hs : 4 * s.length ≤ 2 ^ 53) (hs' : 4 * s'.length ≤ 2 ^ 53)
    (l l' : List Bytes) (hl : cutDAGHmm cfg d c em s [] = some l) (hl' : cutDAGHmm cfg' d' c' em' s' [] = some l') (w : Bytes)
    (h1 : tagCount l w ≤ tagCount l' w) (h2 : ∀ v, TagWord isStop v → v ≠ w → tagCount l' v = tagCount l v) (k : Nat) :
    ∃ tags tags', extractTags ch cfg d c em (some isStop) (some i) s k = some tags ∧ extractTags ch' cfg' d' c' em' (some isStop) (some i) s' k = some tags' ∧
      ∀ a t b, tags = a ++ t :: b → t.text = w → ∃ a' t' b', tags' = a' ++ t' :: b' ∧ t'.text = w ∧ F64.lt t'.weight t.weight = false ∧
        a'.length ≤ a.length ∧ ∀ u' ∈ a', ∃ u ∈ a, u.text = u'.text := by
  have hinv := totalInv_run (P := fun f : Binary64 M => f.datum ≠ .nan ∧ F64.lt f (F64.ofNat 0) = false) iops (totalInv_new _) hn hi
  exact C106_more C106_share_ieee ch ch' cfg cfg' ops ops' d d' hr hr' c c' em em' isStop icfg iops i di hi hd
    ⟨hm.1, fun w tok h => (hinv.all tok (storedTok_mem h)).1⟩ ⟨hm.2, fun w tok h => (hinv.all tok (storedTok_mem h)).2⟩ s s' hs hs' l l' hl hl' w h1 h2 k

end ieee

section examples
attribute [local instance] sampleUnicode sampleUnicodeOK sampleF32 ratF64 ratCount ratNarrow

/-- Rationals keep the order of shares. -/
theorem share_rat : ShareLaw Rat := by
  intro f f' a b a' b' _ _ h0 hff ha hab _ ha' hab' _ hs
  have h0' : (0 : ℚ) ≤ f := by simpa [F64.lt, F64.ofNat] using h0
  have hff' : f ≤ f' := by simpa [F64.lt] using hff
  show decide (f' * ((a' : ℚ) / b') < f * ((a : ℚ) / b)) = false
  rw [decide_eq_false_iff_not, not_lt]
  refine mul_le_mul hff' ?_ (by positivity) (h0'.trans hff')
  rw [div_le_div_iff₀ (by exact_mod_cast (show 0 < b by omega)) (by exact_mod_cast (show 0 < b' by omega))]
  exact_mod_cast hs

/-- The word cd is third of three; named twice more it is first. -/
def moreA : List Bytes := [str "ab", str "xyz", str "cd", str "q"]
def moreB : List Bytes := [str "cd", str "the", str "cd", str "xyz", str "cd", str "cd", str "ab", str "cd"]
example : TagWord idfStop (str "cd") ∧ tagCount moreA (str "cd") ≤ tagCount moreB (str "cd") ∧ tagTotal idfStop moreA = 3 ∧ tagTotal idfStop moreB = 7 ∧
    (∀ v ∈ (moreA ++ moreB).map trimSpace, TagWord idfStop v → v ≠ str "cd" → tagCount moreB v = tagCount moreA v) ∧
    NonNegIdf (3 : Rat) idfDict ∧
    extractWords choiceA (some idfStop) (some ⟨3, [], some idfDict⟩) moreA 5 = some [⟨str "xyz", 4 / 3⟩, ⟨str "ab", 2 / 3⟩, ⟨str "cd", 1 / 3⟩] ∧
    extractWords choiceB (some idfStop) (some ⟨3, [], some idfDict⟩) moreB 5 = some [⟨str "cd", 5 / 7⟩, ⟨str "xyz", 4 / 7⟩, ⟨str "ab", 2 / 7⟩] := by
  refine ⟨by decide +kernel, by decide +kernel, by decide +kernel, by decide +kernel, by decide +kernel, ⟨by decide +kernel, fun w tok h => ?_⟩, by decide +kernel, by decide +kernel⟩
  have := storedTok_mem h
  have all : ∀ t ∈ idfDict.tokens, F64.lt t.freq (F64.ofNat 0 : Rat) = false := by decide +kernel
  exact all tok this

/-- With an IDF value below zero naming a word more often costs it its place. -/
theorem C106_negative : extractWords choiceA (some fun _ => false) (some ⟨-1, [], some (Dictionary.new : Dictionary Rat Int)⟩) [str "ab", str "cd", str "cd"] 1 =
      some [⟨str "ab", -1 / 3⟩] ∧
    extractWords choiceA (some fun _ => false) (some ⟨-1, [], some (Dictionary.new : Dictionary Rat Int)⟩) [str "ab", str "cd", str "cd", str "ab", str "ab"] 1 =
      some [⟨str "cd", -2 / 5⟩] := by decide +kernel

end examples

section append
attribute [local instance] sampleUnicode sampleUnicodeOK sampleF64 sampleF32 sampleNarrow sampleLaws64 sampleShift64 intCount

theorem share_int : ShareLaw Int := by
  intro f f' a b a' b' _ _ h0 hff ha hab _ ha' hab' _ hs
  have h0' : (0 : Int) ≤ f := by simpa [F64.lt, F64.ofNat] using h0
  have hff' : f ≤ f' := by simpa [F64.lt] using hff
  show decide (f' * ((a' : Int) / b') < f * ((a : Int) / b)) = false
  rw [decide_eq_false_iff_not, not_lt]
  have key : a / b ≤ a' / b' := by
    rw [← Nat.mul_div_mul_right a b (show 0 < b' by omega), ← Nat.mul_div_mul_right a' b' (show 0 < b by omega), Nat.mul_comm b b']
    exact Nat.div_le_div_right hs
  have key' : (a : Int) / b ≤ (a' : Int) / b' := by exact_mod_cast key
  have hz : (0 : Int) ≤ (a : Int) / b := by positivity
  exact mul_le_mul hff' key' hz (h0'.trans hff')

/-- The text 人中国 and a space, followed by 人人中国 and a space: all conditions of `C106_append`. -/
example : ∃ d : Dictionary Int Int, runOps {} seamOps Dictionary.new = some d ∧ ∀ ch ch' : Choice, ∀ k : Nat, ∃ tags tags',
    extractTags ch {} d hmmConst hmmEmit (some fun _ => false) (some ⟨3, [], some d⟩) (encode [0x4EBA, 0x4E2D, 0x56FD, 32]) k = some tags ∧
    extractTags ch' {} d hmmConst hmmEmit (some fun _ => false) (some ⟨3, [], some d⟩) (encode [0x4EBA, 0x4E2D, 0x56FD, 32] ++ encode [0x4EBA, 0x4EBA, 0x4E2D, 0x56FD, 32]) k = some tags' ∧
    ∀ p t q, tags = p ++ t :: q → t.text = encode [0x4E2D, 0x56FD] → ∃ p' t' q', tags' = p' ++ t' :: q' ∧ t'.text = encode [0x4E2D, 0x56FD] ∧
      F64.lt t'.weight t.weight = false ∧ p'.length ≤ p.length ∧ ∀ u' ∈ p', ∃ u ∈ p, u.text = u'.text := by
  have hrun : (runOps (D := Int) {} seamOps Dictionary.new).isSome = true := by decide +kernel
  obtain ⟨d, hd⟩ := Option.isSome_iff_exists.1 hrun
  have ea : dagText {} (encode [0x4EBA, 0x4E2D, 0x56FD, 32]) = [0x4EBA, 0x4E2D, 0x56FD, 32] := by decide +kernel
  have eb : dagText {} (encode [0x4EBA, 0x4EBA, 0x4E2D, 0x56FD, 32]) = [0x4EBA, 0x4EBA, 0x4E2D, 0x56FD, 32] := by decide +kernel
  have hsep := sep_of_tokens hd 32 32 (by decide) (by
    have hall : ((runOps (D := Int) {} seamOps Dictionary.new).map fun d => d.tokens.all fun t => !t.text.flatten.contains 32) = some true := by decide +kernel
    rw [hd] at hall
    exact Option.some.inj hall)
  have hns := C88_separator d (dagText {} (encode [0x4EBA, 0x4E2D, 0x56FD, 32])) (dagText {} (encode [0x4EBA, 0x4EBA, 0x4E2D, 0x56FD, 32])) 32 (.inl (by decide +kernel)) hsep
  have hpos : ∀ w tok, storedTok d w = some tok → F64.lt tok.freq (F64.ofNat 0 : Int) = false := by
    intro w tok h
    have hall : ((runOps (D := Int) {} seamOps Dictionary.new).map fun d => d.tokens.all fun t => !F64.lt t.freq (F64.ofNat 0 : Int)) = some true := by decide +kernel
    rw [hd] at hall
    simpa using List.all_eq_true.1 (Option.some.inj hall) tok (storedTok_mem h)
  refine ⟨d, hd, fun ch ch' k => C106_append share_int ch ch' {} seamOps d hd (fun _ _ _ => trivial) hmmConst hmmEmit _ {} seamOps ⟨3, [], some d⟩ d hd rfl
    ⟨trivial, fun _ _ _ => trivial⟩ ⟨rfl, hpos⟩ _ _ (by decide +kernel) (encode_begins _) ⟨?_, ?_⟩ hns.1 hns.2 ?_ ?_ (fun _ _ _ _ => trivial) (fun _ _ _ _ => trivial)
    _ (fun l hl x hx _ => ?_) k⟩
  · intro u v hu hv
    rw [ea] at hu; rw [eb] at hv; cases hu; cases hv
    decide +kernel
  · intro x y hx hy
    rw [ea, eb]
    refine ⟨?_, ?_⟩
    · rintro ⟨_, ⟨z, hz⟩⟩; simp at hz
    · rintro ⟨_, ⟨z, hz⟩⟩; simp at hz; omega
  · refine endFree_of ?_
    have : ((runOps (D := Int) {} seamOps Dictionary.new).map fun d => (dagText {} (encode [0x4EBA, 0x4E2D, 0x56FD, 32])).tails.all fun u =>
        decide (u.length < 2) || (storedTok d (encode u)).isNone) = some true := by decide +kernel
    rw [hd] at this
    intro u hu hl
    have := List.all_eq_true.1 (Option.some.inj this) u hu
    simp at this ⊢
    exact this.resolve_left (by omega)
  · refine startFree_of ?_
    have : ((runOps (D := Int) {} seamOps Dictionary.new).map fun d => (dagText {} (encode [0x4EBA, 0x4EBA, 0x4E2D, 0x56FD, 32])).inits.all fun u =>
        decide (u.length < 2) || (storedTok d (encode u)).isNone) = some true := by decide +kernel
    rw [hd] at this
    intro u hu hl
    have := List.all_eq_true.1 (Option.some.inj this) u hu
    simp at this ⊢
    exact this.resolve_left (by omega)
  · have : ((runOps (D := Int) {} seamOps Dictionary.new).bind fun d => (cutDAGHmm {} d hmmConst hmmEmit (encode [0x4EBA, 0x4EBA, 0x4E2D, 0x56FD, 32]) []).map fun l =>
        l.all fun x => decide (TagWord (fun _ => false) (trimSpace x) → trimSpace x = encode [0x4E2D, 0x56FD])) = some true := by decide +kernel
    rw [hd, Option.bind_some, hl] at this
    have := List.all_eq_true.1 (Option.some.inj this) x hx
    simp only [decide_eq_true_eq] at this
    exact this (by assumption)

end append

end Gse
