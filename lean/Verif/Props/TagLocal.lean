import Verif.Spec.TagLocal
import Verif.Props.TagStop

/-!
# C121: keywords depend on the IDF values of the words of the text
-/

namespace Gse
open Spec

variable {F D : Type} [F64 F] [F32 D] [Narrow F D]

section localIdf
variable [Unicode]

theorem tagTotal_same {l : List Bytes} {isStop isStop' : Bytes → Bool} (h : SameStops l isStop isStop') : tagTotal isStop l = tagTotal isStop' l := by
  unfold tagTotal
  congr 1
  apply List.filter_congr
  intro x hx
  simp only [TagWord, h x hx]

/-- The result is determined by the candidates and the values of their words. -/
theorem extract_idf [F64Count F] (ch ch' : Choice) {isStop isStop' : Bytes → Bool} {l : List Bytes} (hl : l.length ≤ 2 ^ 53)
    {i i' : Idf F D} {d d' : Dictionary F D} (hd : i.dict = some d) (hd' : i'.dict = some d') (h : IdxOK d) (h' : IdxOK d')
    (hn : NumIdf i.median d) (hn' : NumIdf i'.median d') (hs : SameStops l isStop isStop') (hi : SameIdf isStop l i.median i'.median d d') (k : Nat) :
    extractWords ch (some isStop) (some i) l k = extractWords ch' (some isStop') (some i') l k := by
  obtain ⟨S, h1, h2, h3, h4, h5⟩ := extract_top ch (isStop := isStop) hl hd h hn k
  obtain ⟨S', h1', h2', h3', h4', h5'⟩ := extract_top ch' (isStop := isStop') hl hd' h' hn' k
  have hw : ∀ w, 0 < tagCount l w → (TagWord isStop' w ↔ TagWord isStop w) := by
    intro w hc
    obtain ⟨x, hx, rfl⟩ := tagCount_pos.1 hc
    simp only [TagWord, hs x hx]
  have hm : ∀ t, t ∈ S' ↔ t ∈ S := by
    intro t
    rw [h4, h4']
    have key : TagWord isStop t.text → 0 < tagCount l t.text →
        tagWeight isStop i.median d l t.text = tagWeight isStop' i'.median d' l t.text := by
      intro a b
      obtain ⟨x, hx, e⟩ := tagCount_pos.1 b
      unfold tagWeight
      rw [tagTotal_same hs, ← e, hi x hx (by rw [e]; exact a)]
    constructor
    · rintro ⟨a, b, c⟩
      have a' := (hw _ b).1 a
      exact ⟨a', b, by rw [key a' b, c]⟩
    · rintro ⟨a, b, c⟩
      exact ⟨(hw _ b).2 a, b, by rw [← key a b, c]⟩
  have e : S' = S := by
    have := top_unique S S.length S' h2 h1 (fun t ht => (hm t).1 ht) h1' ?_ (fun x hx => Or.inl ((hm x).2 hx))
    · simpa using this
    · have : S'.Perm S := (List.perm_ext_iff_of_nodup (List.Nodup.of_map _ h3') (List.Nodup.of_map _ h3)).2 hm
      exact this.length_eq.le
  rw [h5, h5', e]

/-- C121: two extracters that cut a text alike, whose stop words agree on the words of the text, and whose IDF tables give the words of the text
that may become tags the same values return the same tags, weights and order included, whatever else is in the tables. -/
theorem C121_local [UnicodeOK] [F64Count F] (ch ch' : Choice) (cfg cfg' : SplitCfg) (ops : List (DictOp F)) (d d' : Dictionary F D)
    (hr : runOps cfg ops Dictionary.new = some d) (c c' : HmmConst F) (em em' : EmitModel F) (isStop isStop' : Bytes → Bool)
    (icfg icfg' : SplitCfg) (iops iops' : List (DictOp F)) (i i' : Idf F D) (di di' : Dictionary F D) (hi : runOps icfg iops Dictionary.new = some di)
    (hi' : runOps icfg' iops' Dictionary.new = some di') (hd : i.dict = some di) (hd' : i'.dict = some di') (hn : NumIdf i.median di)
    (hn' : NumIdf i'.median di') (s : Bytes) (hs : 4 * s.length ≤ 2 ^ 53) (l : List Bytes) (hl : cutDAGHmm cfg d c em s [] = some l)
    (hl' : cutDAGHmm cfg' d' c' em' s [] = some l) (hst : SameStops l isStop isStop') (hid : SameIdf isStop l i.median i'.median di di') (k : Nat) :
    ∃ tags, extractTags ch cfg d c em (some isStop) (some i) s k = some tags ∧ extractTags ch' cfg' d' c' em' (some isStop') (some i') s k = some tags ∧
      IsTopTags isStop i.median di l k tags := by
  have b := extractTags_items cfg ops d hr c em s hs hl
  obtain ⟨it, tags, e1, e2, e3⟩ := C45_top ch cfg ops d hr c em isStop icfg iops i di hi hd hn s hs k
  rw [hl] at e1
  obtain rfl := Option.some.inj e1
  refine ⟨tags, e2, ?_, e3⟩
  rw [← e2, extractTags, extractTags, hl, hl', Option.bind_some, Option.bind_some]
  exact (extract_idf ch ch' b hd hd' (idxOK_of_run hi) (idxOK_of_run hi') hn hn' hst hid k).symm

/-- Whoever is before a word whose value has gained was before it already. -/
theorem idf_keeps [F64Count F] (hq : ShareLaw F) (ch ch' : Choice) {isStop : Bytes → Bool} {l : List Bytes} (hl : l.length ≤ 2 ^ 53)
    {i i' : Idf F D} {d d' : Dictionary F D} (hd : i.dict = some d) (hd' : i'.dict = some d') (h : IdxOK d) (h' : IdxOK d')
    (hn : NumIdf i.median d) (hn' : NumIdf i'.median d') (hp : NonNegIdf i.median d) (hp' : NonNegIdf i'.median d') {w : Bytes}
    (hg : GainsIdf isStop l w i.median i'.median d d') (k : Nat) :
    ∃ tags tags', extractWords ch (some isStop) (some i) l k = some tags ∧ extractWords ch' (some isStop) (some i') l k = some tags' ∧
      ∀ a t b, tags = a ++ t :: b → t.text = w → ∃ a' t' b', tags' = a' ++ t' :: b' ∧ t'.text = w ∧ F64.lt t'.weight t.weight = false ∧
        a'.length ≤ a.length ∧ ∀ u' ∈ a', ∃ u ∈ a, u.text = u'.text := by
  obtain ⟨S, h1, h2, h3, h4, h5⟩ := extract_top ch (isStop := isStop) hl hd h hn k
  obtain ⟨S', h1', h2', h3', h4', h5'⟩ := extract_top ch' (isStop := isStop) hl hd' h' hn' k
  refine ⟨_, _, h5, h5', fun a t b e ht => ?_⟩
  have hS : S = a ++ t :: (b ++ S.drop k) := by
    conv_lhs => rw [← List.take_append_drop k S, e]
    simp
  have hak : a.length < k := by
    have := congrArg List.length e
    rw [List.length_take, List.length_append, List.length_cons] at this
    omega
  have htS : t ∈ S := by rw [hS]; simp
  obtain ⟨t1, t2, t3⟩ := (h4 t).1 htS
  rw [ht] at t1 t2 t3
  have ht' : (⟨w, tagWeight isStop i'.median d' l w⟩ : WordWeight F) ∈ S' := (h4' _).2 ⟨t1, t2, rfl⟩
  obtain ⟨A, B, hA⟩ := List.append_of_mem ht'
  have up : ∀ {m m' : F} {d d' : Dictionary F D} {v : Bytes}, NumIdf m d → NumIdf m' d' → NonNegIdf m d → TagWord isStop v → 0 < tagCount l v →
      F64.lt (idfOf m' d' v) (idfOf m d v) = false → F64.lt (tagWeight isStop m' d' l v) (tagWeight isStop m d l v) = false := by
    intro m m' d d' v a1 a2 a3 a4 a5 a6
    have q1 := tagCount_le_total (items := l) a4
    have q2 := tagTotal_le isStop l
    exact hq _ _ _ _ _ _ (idfOf_num a1 v) (idfOf_num a2 v) (idfOf_nonneg a3 v) a6 a5 q1 (by omega) a5 q1 (by omega) le_rfl
  have hwt : F64.lt (tagWeight isStop i'.median d' l w) (tagWeight isStop i.median d l w) = false := up hn hn' hp t1 t2 hg.1
  have sub : ∀ u' ∈ A, ∃ u ∈ a, u.text = u'.text := by
    intro u' hu'
    have huS' : u' ∈ S' := by rw [hA]; exact List.mem_append.2 (.inl hu')
    obtain ⟨v1, v2, v3⟩ := (h4' u').1 huS'
    have hab : Above u' ⟨w, tagWeight isStop i'.median d' l w⟩ := by
      rw [hA] at h1'
      exact (List.pairwise_append.1 h1').2.2 u' hu' _ (by simp)
    have hne : u'.text ≠ w := by
      intro e
      rw [hA] at h3'
      rw [List.map_append, List.nodup_append] at h3'
      exact h3'.2.2 _ (List.mem_map_of_mem hu') w (by simp) e
    have hvw : F64.lt (tagWeight isStop i.median d l u'.text) (tagWeight isStop i'.median d' l u'.text) = false := by
      obtain ⟨x, hx, ex⟩ := tagCount_pos.1 v2
      have := hg.2 x hx (by rw [ex]; exact v1) (by rw [ex]; exact hne)
      rw [ex] at this
      exact up hn' hn hp' v1 v2 this
    have huS : (⟨u'.text, tagWeight isStop i.median d l u'.text⟩ : WordWeight F) ∈ S := (h4 _).2 ⟨v1, v2, rfl⟩
    have n1 := h2 _ huS
    have n2 := h2 _ htS
    have n3 := h2' _ huS'
    have n4 := h2' _ ht'
    simp only at n1 n4
    have hab2 : Above (⟨u'.text, tagWeight isStop i.median d l u'.text⟩ : WordWeight F) t := by
      rw [v3] at n3
      rw [Above, t3, ht]
      rw [t3] at n2
      unfold Above at hab
      rw [v3] at hab
      simp only at hab ⊢
      by_cases hlt : F64.lt (tagWeight isStop i.median d l w) (tagWeight isStop i.median d l u'.text) = true
      · exact .inl hlt
      rw [Bool.not_eq_true] at hlt
      have key : F64.lt (tagWeight isStop i'.median d' l w) (tagWeight isStop i'.median d' l u'.text) = false := by
        cases hx : F64.lt (tagWeight isStop i'.median d' l w) (tagWeight isStop i'.median d' l u'.text) with
        | false => rfl
        | true =>
          rcases F64Count.lt_cotrans n4 n2 n3 hx with h | h
          · rw [hwt] at h; cases h
          · rcases F64Count.lt_cotrans n2 n1 n3 h with h | h
            · rw [hlt] at h; cases h
            · rw [hvw] at h; cases h
      rcases hab with hx | ⟨_, hy, hz⟩
      · rw [key] at hx; cases hx
      · refine .inr ⟨hlt, ?_, hz⟩
        cases hx : F64.lt (tagWeight isStop i.median d l u'.text) (tagWeight isStop i.median d l w) with
        | false => rfl
        | true =>
          rcases F64Count.lt_cotrans n1 n3 n2 hx with h | h
          · rw [hvw] at h; cases h
          · rcases F64Count.lt_cotrans n3 n4 n2 h with h | h
            · rw [hy] at h; cases h
            · rw [hwt] at h; cases h
    refine ⟨⟨u'.text, tagWeight isStop i.median d l u'.text⟩, ?_, rfl⟩
    rw [hS] at huS
    rcases List.mem_append.1 huS with hm | hm
    · exact hm
    · exfalso
      rcases List.mem_cons.1 hm with e | hm
      · rw [← e] at ht; exact hne ht
      · rw [hS] at h1
        have := (List.pairwise_cons.1 (List.pairwise_append.1 h1).2.1).1 _ hm
        exact above_asymm n2 n1 this hab2
  have hlen : A.length ≤ a.length := by
    have nd : (A.map (·.text)).Nodup := by
      rw [hA, List.map_append] at h3'
      exact (List.nodup_append.1 h3').1
    have : A.map (·.text) ⊆ a.map (·.text) := by
      intro x hx
      obtain ⟨u', hu', rfl⟩ := List.mem_map.1 hx
      obtain ⟨u, hu, e⟩ := sub u' hu'
      exact List.mem_map.2 ⟨u, hu, e⟩
    simpa using (nd.subperm this).length_le
  refine ⟨A, ⟨w, tagWeight isStop i'.median d' l w⟩, B.take (k - A.length - 1), ?_, rfl, by rw [t3]; exact hwt, hlen, sub⟩
  rw [hA, List.take_append]
  obtain ⟨j, hj⟩ : ∃ j, k - A.length = j + 1 := ⟨k - A.length - 1, by omega⟩
  rw [List.take_of_length_le (by omega), hj, List.take_succ_cons]
  simp

/-- C121: a tag whose IDF value has not fallen from one table to another, while that of no other word of the text has risen, is a tag with the
other table as well for the same number of tags, with a weight that is not less and with nobody before it who was not before it already. -/
theorem C121_raise [UnicodeOK] [F64Count F] (hq : ShareLaw F) (ch ch' : Choice) (cfg : SplitCfg) (ops : List (DictOp F)) (d : Dictionary F D)
    (hr : runOps cfg ops Dictionary.new = some d) (c : HmmConst F) (em : EmitModel F) (isStop : Bytes → Bool)
    (icfg icfg' : SplitCfg) (iops iops' : List (DictOp F)) (i i' : Idf F D) (di di' : Dictionary F D) (hi : runOps icfg iops Dictionary.new = some di)
    (hi' : runOps icfg' iops' Dictionary.new = some di') (hd : i.dict = some di) (hd' : i'.dict = some di') (hn : NumIdf i.median di)
    (hn' : NumIdf i'.median di') (hp : NonNegIdf i.median di) (hp' : NonNegIdf i'.median di') (s : Bytes) (hs : 4 * s.length ≤ 2 ^ 53) (l : List Bytes)
    (hl : cutDAGHmm cfg d c em s [] = some l) (w : Bytes) (hg : GainsIdf isStop l w i.median i'.median di di') (k : Nat) :
    ∃ tags tags', extractTags ch cfg d c em (some isStop) (some i) s k = some tags ∧ extractTags ch' cfg d c em (some isStop) (some i') s k = some tags' ∧
      ∀ a t b, tags = a ++ t :: b → t.text = w → ∃ a' t' b', tags' = a' ++ t' :: b' ∧ t'.text = w ∧ F64.lt t'.weight t.weight = false ∧
        a'.length ≤ a.length ∧ ∀ u' ∈ a', ∃ u ∈ a, u.text = u'.text := by
  have b := extractTags_items cfg ops d hr c em s hs hl
  rw [extractTags, extractTags, hl, Option.bind_some, Option.bind_some]
  exact idf_keeps hq ch ch' b hd hd' (idxOK_of_run hi) (idxOK_of_run hi') hn hn' hp hp' hg k

/-! ### Adding to the table -/

omit [Narrow F D] in
theorem stored_segAdd (cfg : SplitCfg) {d : Dictionary F D} (t : Bytes) (f : F) (p : Bytes) {k : Bytes} {tok : Token F D}
    (h : storedTok d k = some tok) : storedTok (segAddToken cfg d t f p).1 k = some tok := by
  unfold segAddToken Dictionary.addToken
  dsimp only
  rw [Trie.get_eq]
  cases hv : d.trie.value (textSliceToBytes (toToken (D := D) cfg t f p).text) with
  | some v => exact h
  | none =>
    simp only
    cases hi : d.trie.insert (textSliceToBytes (toToken (D := D) cfg t f p).text) d.numTokens with
    | none => exact h
    | some t' =>
      simp only
      unfold storedTok at h ⊢
      rw [Option.bind_eq_some_iff] at h ⊢
      obtain ⟨v, h1, h2⟩ := h
      refine ⟨v, ?_, by rw [List.getElem?_append_left (List.getElem?_eq_some_iff.1 h2).1]; exact h2⟩
      rw [Trie.value_insert hi, if_neg ?_]
      · exact h1
      · rintro rfl; rw [hv] at h1; cases h1

theorem addTokens_run (ch : Choice) (cfg : SplitCfg) : ∀ (cs : List (Bytes × F × Bytes)) (i i' : Idf F D) (d : Dictionary F D), i.dict = some d →
    i.addTokens ch cfg cs = some i' → ∃ d', i'.dict = some d' ∧ runOps cfg (cs.map fun c => .add c.1 c.2.1 c.2.2) d = some d' ∧
      ∀ k tok, storedTok d k = some tok → storedTok d' k = some tok
  | [], i, i', d, hd, h => by
    cases h
    exact ⟨d, hd, rfl, fun _ _ h => h⟩
  | c :: cs, i, i', d, hd, h => by
    simp only [Idf.addTokens, Option.bind_eq_some_iff] at h
    obtain ⟨⟨j, e⟩, h1, h2⟩ := h
    have hj : j.dict = some (segAddToken cfg d c.1 c.2.1 c.2.2).1 := by
      unfold Idf.addToken at h1
      rw [hd] at h1
      simp only at h1
      split at h1
      · cases h1
      · cases h1; rfl
    obtain ⟨d', a1, a2, a3⟩ := addTokens_run ch cfg cs j i' _ hj h2
    exact ⟨d', a1, a2, fun k tok hk => a3 k tok (stored_segAdd cfg _ _ _ hk)⟩

/-- C121: once every word of a text that may become a tag is in the IDF table, no call of `AddToken` on the table, for whatever words and
values, changes the tags of the text, though the calls change the median. -/
theorem C121_settled [UnicodeOK] [F64Count F] (ch ch' ch'' : Choice) (cfg : SplitCfg) (ops : List (DictOp F)) (d : Dictionary F D)
    (hr : runOps cfg ops Dictionary.new = some d) (c : HmmConst F) (em : EmitModel F) (isStop : Bytes → Bool)
    (icfg : SplitCfg) (iops : List (DictOp F)) (i : Idf F D) (di : Dictionary F D) (hi : runOps icfg iops Dictionary.new = some di)
    (hd : i.dict = some di) (hm : F64Count.num i.median) (hf : ∀ x ∈ i.freqs, F64Count.num x) (hn : ∀ op ∈ iops, ∀ f, opFreq op = some f → F64Count.num f)
    (cs : List (Bytes × F × Bytes)) (hc : ∀ x ∈ cs, F64Count.num x.2.1)
    (s : Bytes) (hs : 4 * s.length ≤ 2 ^ 53) (l : List Bytes) (hl : cutDAGHmm cfg d c em s [] = some l)
    (hk : ∀ x ∈ l, TagWord isStop (trimSpace x) → storedTok di (trimSpace x) ≠ none) (k : Nat) :
    ∃ i' tags, i.addTokens ch'' icfg cs = some i' ∧ extractTags ch cfg d c em (some isStop) (some i) s k = some tags ∧
      extractTags ch' cfg d c em (some isStop) (some i') s k = some tags ∧ IsTopTags isStop i.median di l k tags := by
  obtain ⟨i', e1, _⟩ := addTokens_isSome ch'' (cfg := icfg) (cs := cs) (i := i) (by rw [hd]; simp)
  obtain ⟨di', e2, e3, e4⟩ := addTokens_run ch'' icfg cs i i' di hd e1
  have hi' : runOps icfg (iops ++ cs.map fun c => .add c.1 c.2.1 c.2.2) Dictionary.new = some di' := by rw [runOps_append, hi]; exact e3
  have inv := totalInv_run (P := F64Count.num) iops (totalInv_new _) hn hi
  have inv' := totalInv_run (P := F64Count.num) _ inv (by
    intro op ho f h
    obtain ⟨x, hx, rfl⟩ := List.mem_map.1 ho
    cases h
    exact hc x hx) e3
  have hmid : F64Count.num i'.median := by
    obtain ⟨_, b2⟩ := addTokens_middle ch'' e1 hf hc
    by_cases hcs : cs = []
    · subst hcs
      cases e1
      exact hm
    · rcases List.mem_append.1 (b2 hcs).1 with h | h
      · exact hf _ h
      · obtain ⟨x, hx, e⟩ := List.mem_map.1 h
        rw [← e]; exact hc x hx
  obtain ⟨tags, t1, t2, t3⟩ := C121_local ch ch' cfg cfg ops d d hr c c em em isStop isStop icfg icfg iops _ i i' di di' hi hi' hd e2
    ⟨hm, fun w tok h => inv.all tok (storedTok_mem h)⟩ ⟨hmid, fun w tok h => inv'.all tok (storedTok_mem h)⟩ s hs l hl hl (fun _ _ => rfl)
    (by
      intro x hx hw
      obtain ⟨tok, ht⟩ := Option.ne_none_iff_exists'.1 (hk x hx hw)
      unfold idfOf
      rw [ht, e4 _ _ ht]) k
  exact ⟨i', tags, e1, t1, t2, t3⟩

end localIdf

/-! ### IEEE arithmetic -/

section ieee
variable {M : MathFns}

/-- C121 for IEEE arithmetic: no IDF value NaN or below zero. -/
theorem C121_ieee [Unicode] [UnicodeOK] (ch ch' : Choice) (cfg : SplitCfg) (ops : List (DictOp (Binary64 M))) (d : Dictionary (Binary64 M) Binary32)
    (hr : runOps cfg ops Dictionary.new = some d) (c : HmmConst (Binary64 M)) (em : EmitModel (Binary64 M)) (isStop : Bytes → Bool)
    (icfg icfg' : SplitCfg) (iops iops' : List (DictOp (Binary64 M))) (i i' : Idf (Binary64 M) Binary32) (di di' : Dictionary (Binary64 M) Binary32)
    (hi : runOps icfg iops Dictionary.new = some di) (hi' : runOps icfg' iops' Dictionary.new = some di') (hd : i.dict = some di) (hd' : i'.dict = some di')
    (hm : i.median.datum ≠ .nan ∧ F64.lt i.median (F64.ofNat 0) = false) (hm' : i'.median.datum ≠ .nan ∧ F64.lt i'.median (F64.ofNat 0) = false)
    (hn : ∀ op ∈ iops ++ iops', ∀ f, opFreq op = some f → f.datum ≠ .nan ∧ F64.lt f (F64.ofNat 0) = false) (s : Bytes) (hs : 4 * s.length ≤ 2 ^ 53)
    (l : List Bytes) (hl : cutDAGHmm cfg d c em s [] = some l) (w : Bytes) (hg : GainsIdf isStop l w i.median i'.median di di') (k : Nat) :
    ∃ tags tags', extractTags ch cfg d c em (some isStop) (some i) s k = some tags ∧ extractTags ch' cfg d c em (some isStop) (some i') s k = some tags' ∧
      ∀ a t b, tags = a ++ t :: b → t.text = w → ∃ a' t' b', tags' = a' ++ t' :: b' ∧ t'.text = w ∧ F64.lt t'.weight t.weight = false ∧
        a'.length ≤ a.length ∧ ∀ u' ∈ a', ∃ u ∈ a, u.text = u'.text := by
  have inv := totalInv_run (P := fun f : Binary64 M => f.datum ≠ .nan ∧ F64.lt f (F64.ofNat 0) = false) iops (totalInv_new _)
    (fun o ho => hn o (List.mem_append.2 (.inl ho))) hi
  have inv' := totalInv_run (P := fun f : Binary64 M => f.datum ≠ .nan ∧ F64.lt f (F64.ofNat 0) = false) iops' (totalInv_new _)
    (fun o ho => hn o (List.mem_append.2 (.inr ho))) hi'
  exact C121_raise C106_share_ieee ch ch' cfg ops d hr c em isStop icfg icfg' iops iops' i i' di di' hi hi' hd hd'
    ⟨hm.1, fun w tok h => (inv.all tok (storedTok_mem h)).1⟩ ⟨hm'.1, fun w tok h => (inv'.all tok (storedTok_mem h)).1⟩
    ⟨hm.2, fun w tok h => (inv.all tok (storedTok_mem h)).2⟩ ⟨hm'.2, fun w tok h => (inv'.all tok (storedTok_mem h)).2⟩ s hs l hl w hg k

end ieee

section examples
attribute [local instance] sampleUnicode sampleUnicodeOK sampleF32 ratF64 ratCount ratNarrow

/-- A table with other words and another median, but with the same values for the words ab and cd; and one in which cd has gained. -/
def otherOps : List (DictOp Rat) := [.add (str "zz") 9 [], .add (str "cd") 1 [], .add (str "qrs") 7 [], .add (str "ab") 2 []]
def otherDict : Dictionary Rat Int := (runOps {} otherOps Dictionary.new).getD Dictionary.new
def gainOps : List (DictOp Rat) := [.add (str "cd") 5 [], .add (str "ab") 2 []]
def gainDict : Dictionary Rat Int := (runOps {} gainOps Dictionary.new).getD Dictionary.new
def localItems : List Bytes := [str "cd", str "ab ", str "the", str "q", str "ab"]

example : (∀ x ∈ localItems, TagWord idfStop (trimSpace x) → (storedTok idfDict (trimSpace x)).map (·.freq) = (storedTok otherDict (trimSpace x)).map (·.freq) ∧
      storedTok idfDict (trimSpace x) ≠ none) ∧
    extractWords choiceA (some idfStop) (some ⟨3, [], some idfDict⟩) localItems 5 = some [⟨str "ab", 4 / 3⟩, ⟨str "cd", 1 / 3⟩] ∧
    extractWords choiceB (some idfStop) (some ⟨8, [1], some otherDict⟩) localItems 5 = some [⟨str "ab", 4 / 3⟩, ⟨str "cd", 1 / 3⟩] ∧
    extractWords choiceB (some idfStop) (some ⟨8, [1], some gainDict⟩) localItems 5 = some [⟨str "cd", 5 / 3⟩, ⟨str "ab", 4 / 3⟩] ∧
    ((Idf.loaded idfDict).addTokens choiceA {} [(str "ab", 9, []), (str "n1", 7, [])]).bind (fun i => extractWords choiceA (some idfStop) (some i) localItems 5) =
      some [⟨str "ab", 4 / 3⟩, ⟨str "cd", 1 / 3⟩] ∧
    ((Idf.loaded idfDict).addTokens choiceA {} [(str "ab", 9, []), (str "n1", 7, [])]).map (·.median) = some (9 : Rat) := by decide +kernel

example : SameIdf idfStop localItems (3 : Rat) 8 idfDict otherDict ∧ GainsIdf idfStop localItems (str "cd") (3 : Rat) 8 idfDict gainDict := by
  have e1 : ∀ w ∈ [str "cd", str "ab"], (storedTok idfDict w).map (·.freq) = (storedTok otherDict w).map (·.freq) ∧ (storedTok idfDict w).isSome = true := by decide +kernel
  have e2 : (storedTok idfDict (str "cd")).map (·.freq) = some 1 ∧ (storedTok gainDict (str "cd")).map (·.freq) = some 5 ∧
    (storedTok idfDict (str "ab")).map (·.freq) = some 2 ∧ (storedTok gainDict (str "ab")).map (·.freq) = some 2 := by decide +kernel
  have e3 : ∀ x ∈ localItems, TagWord idfStop (trimSpace x) → trimSpace x ∈ [str "cd", str "ab"] := by decide +kernel
  have val : ∀ (m : Rat) (d : Dictionary Rat Int) (w : Bytes) (v : Rat), (storedTok d w).map (·.freq) = some v → idfOf m d w = v := by
    intro m d w v h
    unfold idfOf
    cases hs : storedTok d w with
    | none => rw [hs] at h; cases h
    | some tok => rw [hs] at h; exact Option.some.inj h
  refine ⟨fun x hx hw => ?_, ?_, fun x hx hw hne => ?_⟩
  · obtain ⟨a, b⟩ := e1 _ (e3 x hx hw)
    obtain ⟨tok, ht⟩ := Option.isSome_iff_exists.1 b
    rw [val 3 _ _ tok.freq (by rw [ht]; rfl), val 8 otherDict _ tok.freq (by rw [← a, ht]; rfl)]
  · rw [val 8 _ _ _ e2.2.1, val 3 _ _ _ e2.1]; decide
  · have := e3 x hx hw
    simp only [List.mem_cons, List.not_mem_nil, or_false] at this
    rcases this with h | h
    · exact absurd h hne
    · rw [h, val 8 _ _ _ e2.2.2.2, val 3 _ _ _ e2.2.2.1]; decide

/-- A word of the text that is not in the table is weighed with the median, which the words added for other texts move. -/
theorem C121_moved : ((Idf.loaded idfDict).addTokens choiceA {} [(str "n1", 1, [])]).bind (fun i => extractWords choiceA (some idfStop) (some i) [str "pq", str "ab"] 1) =
      some [⟨str "ab", 1⟩] ∧
    ((Idf.loaded idfDict).addTokens choiceA {} [(str "n1", 1, []), (str "n1", 7, [])]).bind (fun i => extractWords choiceA (some idfStop) (some i) [str "pq", str "ab"] 1) =
      some [⟨str "pq", 7 / 2⟩] := by decide +kernel

end examples

end Gse
