import Verif.Spec.TagBag
import Verif.Props.IeeeRest
import Verif.Props.SeamHmm

/-!
# C104: keywords depend on how often the words occur, not on where
-/

namespace Gse
open Spec

variable {F D : Type} [F64 F] [F32 D] [Narrow F D]

section bag
variable [Unicode]

/-- The words of the items that may become tags, in order. -/
def tagBag (isStop : Bytes → Bool) (items : List Bytes) : List Bytes := (items.map trimSpace).filter fun w => decide (TagWord isStop w)

theorem tagBag_length (isStop : Bytes → Bool) (items : List Bytes) : (tagBag isStop items).length = tagTotal isStop items := by
  unfold tagBag tagTotal
  rw [List.filter_map, List.length_map]
  rfl

theorem tagBag_count (isStop : Bytes → Bool) (items : List Bytes) (w : Bytes) :
    (tagBag isStop items).count w = if TagWord isStop w then tagCount items w else 0 := by
  unfold tagBag
  split
  · rename_i h
    rw [List.count_filter (by simpa using h)]
    unfold tagCount
    rw [List.count_eq_countP, List.countP_map, List.countP_eq_length_filter]
    congr 2
    funext x
    simp [beq_eq_decide]
  · rename_i h
    rw [List.count_eq_zero]
    intro hm
    exact h (by simpa using (List.mem_filter.1 hm).2)

theorem total_proportional {isStop : Bytes → Bool} {m n : Nat} {l l' : List Bytes} (h : Proportional isStop m n l l') :
    m * tagTotal isStop l = n * tagTotal isStop l' := by
  have hp : ((List.replicate m (tagBag isStop l)).flatten).Perm ((List.replicate n (tagBag isStop l')).flatten) := by
    rw [List.perm_iff_count]
    intro w
    simp only [List.count_flatten, List.map_replicate, List.sum_replicate, smul_eq_mul, tagBag_count]
    by_cases hw : TagWord isStop w
    · simpa [hw] using h.2.2 w hw
    · simp [hw]
  have := hp.length_eq
  simpa [List.length_flatten, tagBag_length] using this

/-- The result is determined by the candidates and their weights. -/
theorem extract_same [F64Count F] (ch ch' : Choice) {isStop : Bytes → Bool} {l l' : List Bytes} (hl : l.length ≤ 2 ^ 53) (hl' : l'.length ≤ 2 ^ 53)
    {i : Idf F D} {d : Dictionary F D} (hd : i.dict = some d) (h : IdxOK d) (hn : NumIdf i.median d)
    (hc : ∀ w, TagWord isStop w → (0 < tagCount l w ↔ 0 < tagCount l' w))
    (hw : ∀ w, TagWord isStop w → 0 < tagCount l w → tagWeight isStop i.median d l w = tagWeight isStop i.median d l' w) (k : Nat) :
    extractWords ch (some isStop) (some i) l k = extractWords ch' (some isStop) (some i) l' k := by
  obtain ⟨S, h1, h2, h3, h4, h5⟩ := extract_top ch (isStop := isStop) hl hd h hn k
  obtain ⟨S', h1', h2', h3', h4', h5'⟩ := extract_top ch' (isStop := isStop) hl' hd h hn k
  have hm : ∀ t, t ∈ S' ↔ t ∈ S := by
    intro t
    rw [h4, h4']
    constructor
    · rintro ⟨a, b, c⟩
      have b' := (hc _ a).2 b
      exact ⟨a, b', by rw [hw _ a b', c]⟩
    · rintro ⟨a, b, c⟩
      exact ⟨a, (hc _ a).1 b, by rw [← hw _ a b, c]⟩
  have e : S' = S := by
    have := top_unique S S.length S' h2 h1 (fun t ht => (hm t).1 ht) h1' ?_ (fun x hx => Or.inl ((hm x).2 hx))
    · simpa using this
    · have : S'.Perm S := (List.perm_ext_iff_of_nodup (List.Nodup.of_map _ h3') (List.Nodup.of_map _ h3)).2 hm
      exact this.length_eq.le
  rw [h5, h5', e]

omit [F32 D] [Narrow F D] in
theorem weight_proportional (hq : RatioLaw F) {isStop : Bytes → Bool} {m n : Nat} {l l' : List Bytes} (h : Proportional isStop m n l l')
    (hl : l.length ≤ 2 ^ 53) (hl' : l'.length ≤ 2 ^ 53) (median : F) (d : Dictionary F D) {w : Bytes} (hw : TagWord isStop w) (hc : 0 < tagCount l w) :
    tagWeight isStop median d l w = tagWeight isStop median d l' w := by
  unfold tagWeight
  have h1 := h.2.2 w hw
  have h2 := total_proportional h
  have t1 := tagCount_le_total (items := l) hw
  have t2 := tagCount_le_total (items := l') hw
  have u1 := tagTotal_le isStop l
  have u2 := tagTotal_le isStop l'
  have hc' : 0 < tagCount l' w := by
    have : 0 < n * tagCount l' w := by rw [← h1]; exact Nat.mul_pos h.1 hc
    exact Nat.pos_of_mul_pos_left this
  congr 1
  refine hq _ _ _ _ (by omega) (by omega) (by omega) (by omega) (by omega) (by omega) ?_
  have : (m * n) * (tagCount l w * tagTotal isStop l') = (m * n) * (tagCount l' w * tagTotal isStop l) := by
    calc (m * n) * (tagCount l w * tagTotal isStop l') = (m * tagCount l w) * (n * tagTotal isStop l') := by ring
      _ = (n * tagCount l' w) * (m * tagTotal isStop l) := by rw [h1, h2]
      _ = _ := by ring
  exact Nat.eq_of_mul_eq_mul_left (Nat.mul_pos h.1 h.2.1) this

/-- Everything about `Cut(text, true)` that `ExtractTags` uses: the items, at most four for a byte of the text. -/
theorem extractTags_items [UnicodeOK] (cfg : SplitCfg) (ops : List (DictOp F)) (d : Dictionary F D) (hr : runOps cfg ops Dictionary.new = some d)
    (c : HmmConst F) (em : EmitModel F) (s : Bytes) (hs : 4 * s.length ≤ 2 ^ 53) {l : List Bytes} (hl : cutDAGHmm cfg d c em s [] = some l) : l.length ≤ 2 ^ 53 := by
  obtain ⟨l', h1, h2⟩ := cut_length_le cfg ops d hr c em s
  rw [hl] at h1
  obtain rfl := Option.some.inj h1
  omega

/-- C104: two texts that `Cut` with HMM cuts into words such that every word that may become a tag has the same share in both give the same
tags with the same weights in the same order, for every number `k`, whatever else the texts hold, wherever the words are, and whichever
dictionaries and models the texts are cut with. -/
theorem C104_shares [UnicodeOK] [F64Count F] (hq : RatioLaw F) (ch ch' : Choice) (cfg cfg' : SplitCfg) (ops ops' : List (DictOp F)) (d d' : Dictionary F D)
    (hr : runOps cfg ops Dictionary.new = some d) (hr' : runOps cfg' ops' Dictionary.new = some d') (c c' : HmmConst F) (em em' : EmitModel F)
    (isStop : Bytes → Bool) (icfg : SplitCfg) (iops : List (DictOp F)) (i : Idf F D) (di : Dictionary F D) (hi : runOps icfg iops Dictionary.new = some di)
    (hd : i.dict = some di) (hn : NumIdf i.median di) (s s' : Bytes) (hs : 4 * s.length ≤ 2 ^ 53) (hs' : 4 * s'.length ≤ 2 ^ 53) (l l' : List Bytes)
    (hl : cutDAGHmm cfg d c em s [] = some l) (hl' : cutDAGHmm cfg' d' c' em' s' [] = some l') (m n : Nat) (hp : Proportional isStop m n l l') (k : Nat) :
    extractTags ch cfg d c em (some isStop) (some i) s k = extractTags ch' cfg' d' c' em' (some isStop) (some i) s' k := by
  have b1 := extractTags_items cfg ops d hr c em s hs hl
  have b2 := extractTags_items cfg' ops' d' hr' c' em' s' hs' hl'
  rw [extractTags, extractTags, hl, hl', Option.bind_some, Option.bind_some]
  refine extract_same ch ch' b1 b2 hd (idxOK_of_run hi) hn (fun w hw => ?_) (fun w hw h => weight_proportional hq hp b1 b2 _ _ hw h) k
  have := hp.2.2 w hw
  constructor
  · intro h
    exact Nat.pos_of_mul_pos_left (show 0 < n * tagCount l' w by rw [← this]; exact Nat.mul_pos hp.1 h)
  · intro h
    exact Nat.pos_of_mul_pos_left (show 0 < m * tagCount l w by rw [this]; exact Nat.mul_pos hp.2.1 h)

/-- C104: without any assumption on quotients when every word that may become a tag is equally often in both. -/
theorem C104_counts [UnicodeOK] [F64Count F] (ch ch' : Choice) (cfg cfg' : SplitCfg) (ops ops' : List (DictOp F)) (d d' : Dictionary F D)
    (hr : runOps cfg ops Dictionary.new = some d) (hr' : runOps cfg' ops' Dictionary.new = some d') (c c' : HmmConst F) (em em' : EmitModel F)
    (isStop : Bytes → Bool) (icfg : SplitCfg) (iops : List (DictOp F)) (i : Idf F D) (di : Dictionary F D) (hi : runOps icfg iops Dictionary.new = some di)
    (hd : i.dict = some di) (hn : NumIdf i.median di) (s s' : Bytes) (hs : 4 * s.length ≤ 2 ^ 53) (hs' : 4 * s'.length ≤ 2 ^ 53) (l l' : List Bytes)
    (hl : cutDAGHmm cfg d c em s [] = some l) (hl' : cutDAGHmm cfg' d' c' em' s' [] = some l')
    (hp : ∀ w, TagWord isStop w → tagCount l w = tagCount l' w) (k : Nat) :
    extractTags ch cfg d c em (some isStop) (some i) s k = extractTags ch' cfg' d' c' em' (some isStop) (some i) s' k := by
  have b1 := extractTags_items cfg ops d hr c em s hs hl
  have b2 := extractTags_items cfg' ops' d' hr' c' em' s' hs' hl'
  have ht : tagTotal isStop l = tagTotal isStop l' := by
    simpa using total_proportional (m := 1) (n := 1) ⟨by omega, by omega, fun w hw => by simpa using hp w hw⟩
  rw [extractTags, extractTags, hl, hl', Option.bind_some, Option.bind_some]
  exact extract_same ch ch' b1 b2 hd (idxOK_of_run hi) hn (fun w hw => by rw [hp w hw])
    (fun w hw h => by unfold tagWeight; rw [hp w hw, ht]) k

/-- C104: a smaller `topK` gives the beginning of what a larger one gives. -/
theorem C104_prefix [UnicodeOK] [F64Count F] (ch ch' : Choice) (cfg : SplitCfg) (ops : List (DictOp F)) (d : Dictionary F D)
    (hr : runOps cfg ops Dictionary.new = some d) (c : HmmConst F) (em : EmitModel F) (isStop : Bytes → Bool) (icfg : SplitCfg) (iops : List (DictOp F))
    (i : Idf F D) (di : Dictionary F D) (hi : runOps icfg iops Dictionary.new = some di) (hd : i.dict = some di) (hn : NumIdf i.median di)
    (s : Bytes) (hs : 4 * s.length ≤ 2 ^ 53) (k k' : Nat) (hk : k ≤ k') :
    ∃ tags, extractTags ch' cfg d c em (some isStop) (some i) s k' = some tags ∧ extractTags ch cfg d c em (some isStop) (some i) s k = some (tags.take k) := by
  obtain ⟨items, h1, hl⟩ := cut_length_le cfg ops d hr c em s
  have hlen : items.length ≤ 2 ^ 53 := Nat.le_trans hl hs
  obtain ⟨S, h4, h5, h6, h7, h8⟩ := extract_top ch' (isStop := isStop) hlen hd (idxOK_of_run hi) hn k'
  refine ⟨S.take k', by rw [extractTags, h1]; exact h8, ?_⟩
  obtain ⟨it, tags, e1, e2, e3⟩ := C45_top ch cfg ops d hr c em isStop icfg iops i di hi hd hn s hs k
  rw [h1] at e1
  obtain rfl := Option.some.inj e1
  rw [e2, isTopTags_unique h4 h5 h7 e3, List.take_take, Nat.min_eq_left hk]

theorem tagCount_append (a b : List Bytes) (w : Bytes) : tagCount (a ++ b) w = tagCount a w + tagCount b w := by
  simp [tagCount]

/-- C104: two parts between which the text may be cut may change places, and a part without words that may become tags may be left out; no
rounding. -/
theorem C104_parts [UnicodeOK] [F64Laws F] [F64Shift F] [F64Count F] (ch ch' : Choice) (cfg : SplitCfg) (ops : List (DictOp F)) (d : Dictionary F D)
    (hr : runOps cfg ops Dictionary.new = some d) (hg : GoodScores d) (c : HmmConst F) (em : EmitModel F)
    (isStop : Bytes → Bool) (icfg : SplitCfg) (iops : List (DictOp F)) (i : Idf F D) (di : Dictionary F D) (hi : runOps icfg iops Dictionary.new = some di)
    (hd : i.dict = some di) (hn : NumIdf i.median di) (a b : Bytes) (hs : 4 * (a.length + b.length) ≤ 2 ^ 53) (hb : BeginsChar b)
    (hk : KindSeamRunes (dagText cfg a) (dagText cfg b)) (hx : NoSpanRunes d (dagText cfg a) (dagText cfg b)) (hx' : NoSpanKept d (dagText cfg a) (dagText cfg b))
    (fa : EndFree d (dagText cfg a)) (fb : StartFree d (dagText cfg b)) (sa : FinScores d (dagText cfg a)) (sb : FinScores d (dagText cfg b)) (k : Nat) :
    (BeginsChar a → KindSeamRunes (dagText cfg b) (dagText cfg a) → NoSpanRunes d (dagText cfg b) (dagText cfg a) → NoSpanKept d (dagText cfg b) (dagText cfg a) →
      EndFree d (dagText cfg b) → StartFree d (dagText cfg a) →
      extractTags ch cfg d c em (some isStop) (some i) (a ++ b) k = extractTags ch' cfg d c em (some isStop) (some i) (b ++ a) k) ∧
    ((∀ l, cutDAGHmm cfg d c em b [] = some l → ∀ w ∈ l, ¬ TagWord isStop (trimSpace w)) →
      extractTags ch cfg d c em (some isStop) (some i) (a ++ b) k = extractTags ch' cfg d c em (some isStop) (some i) a k) := by
  obtain ⟨x, y, h1, h2, h3⟩ := C88_cut_exact cfg ops d hr hg c em a b hb hk hx hx' fa fb sa sb
  constructor
  · intro ha hk2 hx2 hx2' fb2 fa2
    obtain ⟨y2, x2, g1, g2, g3⟩ := C88_cut_exact cfg ops d hr hg c em b a ha hk2 hx2 hx2' fb2 fa2 sb sa
    rw [h2] at g1
    obtain rfl := Option.some.inj g1
    rw [h1] at g2
    obtain rfl := Option.some.inj g2
    exact C104_counts ch ch' cfg cfg ops ops d d hr hr c c em em isStop icfg iops i di hi hd hn _ _ (by simpa using hs) (by simpa [Nat.add_comm] using hs)
      _ _ h3 g3 (fun w _ => by rw [tagCount_append, tagCount_append, Nat.add_comm]) k
  · intro h
    refine C104_counts ch ch' cfg cfg ops ops d d hr hr c c em em isStop icfg iops i di hi hd hn _ _ (by simpa using hs) (by omega)
      _ _ h3 h1 (fun w hw => ?_) k
    rw [tagCount_append, Nat.add_eq_left]
    by_contra hc
    obtain ⟨z, hz, rfl⟩ := tagCount_pos.1 (Nat.pos_of_ne_zero hc)
    exact h y h2 z hz hw

/-- C104: a text written twice has the tags of the text. -/
theorem C104_twice [UnicodeOK] [F64Laws F] [F64Shift F] [F64Count F] (hq : RatioLaw F) (ch ch' : Choice) (cfg : SplitCfg) (ops : List (DictOp F)) (d : Dictionary F D)
    (hr : runOps cfg ops Dictionary.new = some d) (hg : GoodScores d) (c : HmmConst F) (em : EmitModel F)
    (isStop : Bytes → Bool) (icfg : SplitCfg) (iops : List (DictOp F)) (i : Idf F D) (di : Dictionary F D) (hi : runOps icfg iops Dictionary.new = some di)
    (hd : i.dict = some di) (hn : NumIdf i.median di) (a : Bytes) (hs : 4 * (a.length + a.length) ≤ 2 ^ 53) (hb : BeginsChar a)
    (hk : KindSeamRunes (dagText cfg a) (dagText cfg a)) (hx : NoSpanRunes d (dagText cfg a) (dagText cfg a)) (hx' : NoSpanKept d (dagText cfg a) (dagText cfg a))
    (fa : EndFree d (dagText cfg a)) (fb : StartFree d (dagText cfg a)) (sa : FinScores d (dagText cfg a)) (k : Nat) :
    extractTags ch cfg d c em (some isStop) (some i) (a ++ a) k = extractTags ch' cfg d c em (some isStop) (some i) a k := by
  obtain ⟨x, y, h1, h2, h3⟩ := C88_cut_exact cfg ops d hr hg c em a a hb hk hx hx' fa fb sa sa
  rw [h1] at h2
  obtain rfl := Option.some.inj h2
  exact C104_shares hq ch ch' cfg cfg ops ops d d hr hr c c em em isStop icfg iops i di hi hd hn _ _ (by simpa using hs) (by omega) _ _ h3 h1 1 2
    ⟨by omega, by omega, fun w _ => by rw [tagCount_append]; omega⟩ k

end bag

/-! ### IEEE arithmetic -/

section ieee
variable {M : MathFns}

open Datum in
/-- C104: IEEE division of whole numbers up to 2^53 depends on the ratio only: it rounds the quotient once. -/
theorem C104_ratio_ieee : RatioLaw (Binary64 M) := by
  intro a b a' b' hb hb' h1 h2 h3 h4 h
  have hl : ∀ n ≤ 2 ^ 53, n < 2 ^ f64.emax := fun n hn => lt_of_le_of_lt hn (Nat.pow_lt_pow_right (by norm_num) (by decide))
  refine Binary64.ext (Num64.ext ?_)
  show Datum.div f64 (ofNat f64 a) (ofNat f64 b) = Datum.div f64 (ofNat f64 a') (ofNat f64 b')
  rw [ofNat_exact (f := f64) (n := a) h1 (hl _ h1), ofNat_exact (f := f64) (n := b) h2 (hl _ h2),
    ofNat_exact (f := f64) (n := a') h3 (hl _ h3), ofNat_exact (f := f64) (n := b') h4 (hl _ h4)]
  have p : (b : ℚ) ≠ 0 := by exact_mod_cast hb.ne'
  have p' : (b' : ℚ) ≠ 0 := by exact_mod_cast hb'.ne'
  show (if (b : ℚ) = 0 then _ else _) = (if (b' : ℚ) = 0 then _ else _)
  rw [if_neg p, if_neg p']
  congr 1
  rw [div_eq_div_iff p p']
  exact_mod_cast h

/-- C104 for IEEE arithmetic, no IDF value NaN. -/
theorem C104_ieee [Unicode] [UnicodeOK] (ch ch' : Choice) (cfg cfg' : SplitCfg) (ops ops' : List (DictOp (Binary64 M))) (d d' : Dictionary (Binary64 M) Binary32)
    (hr : runOps cfg ops Dictionary.new = some d) (hr' : runOps cfg' ops' Dictionary.new = some d') (c c' : HmmConst (Binary64 M)) (em em' : EmitModel (Binary64 M))
    (isStop : Bytes → Bool) (icfg : SplitCfg) (iops : List (DictOp (Binary64 M))) (i : Idf (Binary64 M) Binary32) (di : Dictionary (Binary64 M) Binary32)
    (hi : runOps icfg iops Dictionary.new = some di) (hd : i.dict = some di) (hm : i.median.datum ≠ .nan)
    (hn : ∀ op ∈ iops, ∀ f, opFreq op = some f → f.datum ≠ .nan) (s s' : Bytes) (hs : 4 * s.length ≤ 2 ^ 53) (hs' : 4 * s'.length ≤ 2 ^ 53) (l l' : List Bytes)
    (hl : cutDAGHmm cfg d c em s [] = some l) (hl' : cutDAGHmm cfg' d' c' em' s' [] = some l') (m n : Nat) (hp : Proportional isStop m n l l') (k : Nat) :
    extractTags ch cfg d c em (some isStop) (some i) s k = extractTags ch' cfg' d' c' em' (some isStop) (some i) s' k := by
  have hinv := totalInv_run (P := fun f : Binary64 M => f.datum ≠ .nan) iops (totalInv_new _) hn hi
  exact C104_shares C104_ratio_ieee ch ch' cfg cfg' ops ops' d d' hr hr' c c' em em' isStop icfg iops i di hi hd ⟨hm, fun w tok h => hinv.all tok (storedTok_mem h)⟩
    s s' hs hs' l l' hl hl' m n hp k

end ieee

section examples
attribute [local instance] sampleUnicode sampleUnicodeOK sampleF32 ratF64 ratCount ratNarrow

/-- Rationals have quotients that depend on the ratio only. -/
theorem ratio_rat : RatioLaw Rat := by
  intro a b a' b' hb hb' _ _ _ _ h
  show (a : ℚ) / b = (a' : ℚ) / b'
  rw [div_eq_div_iff (by exact_mod_cast hb.ne') (by exact_mod_cast hb'.ne')]
  exact_mod_cast h

/-- Three items of one text for two of another, among stop words, single letters and blanks. -/
def bagA : List Bytes := [str "ab", str "cd", str "ab ", str "the", str "ab", str "cd", str "ab"]
def bagB : List Bytes := [str "q", str "cd", str " ab", str "ab"]
theorem bag_proportional : Proportional idfStop 1 2 bagA bagB := by
  refine ⟨by omega, by omega, fun w hw => ?_⟩
  by_cases h1 : w = str "ab"
  · subst h1; decide +kernel
  by_cases h2 : w = str "cd"
  · subst h2; decide +kernel
  have z : ∀ l : List Bytes, (∀ x ∈ l, trimSpace x ≠ w) → tagCount l w = 0 := by
    intro l h
    by_contra hc
    obtain ⟨x, hx, e⟩ := tagCount_pos.1 (Nat.pos_of_ne_zero hc)
    exact h x hx e
  have e1 : bagA.map trimSpace = [str "ab", str "cd", str "ab", str "the", str "ab", str "cd", str "ab"] := by decide +kernel
  have e2 : bagB.map trimSpace = [str "q", str "cd", str "ab", str "ab"] := by decide +kernel
  have h3 : w ≠ str "the" := by rintro rfl; exact absurd hw.2 (by decide +kernel)
  have h4 : w ≠ str "q" := by rintro rfl; exact absurd hw.1 (by decide +kernel)
  rw [z bagA, z bagB]
  · intro x hx e
    have := List.mem_map_of_mem (f := trimSpace) hx
    rw [e2, e] at this
    simp only [List.mem_cons, List.not_mem_nil, or_false] at this
    tauto
  · intro x hx e
    have := List.mem_map_of_mem (f := trimSpace) hx
    rw [e1, e] at this
    simp only [List.mem_cons, List.not_mem_nil, or_false] at this
    tauto
example : extractWords choiceA (some idfStop) (some ⟨3, [], some idfDict⟩) bagA 5 = extractWords choiceB (some idfStop) (some ⟨3, [], some idfDict⟩) bagB 5 ∧
    extractWords choiceA (some idfStop) (some ⟨3, [], some idfDict⟩) bagA 5 = some [⟨str "ab", 4 / 3⟩, ⟨str "cd", 1 / 3⟩] := by
  refine ⟨?_, ?_⟩ <;> decide +kernel

end examples

section twice
attribute [local instance] sampleUnicode sampleUnicodeOK sampleF64 sampleF32 sampleNarrow sampleLaws64 sampleShift64

/-- Whole numbers satisfy the assumptions too. -/
@[instance_reducible] def intCount : F64Count Int :=
  { num := fun _ => True
    lt_asymm := by intro a b _ _; simp only [F64.lt, decide_eq_true_eq, decide_eq_false_iff_not]; omega
    lt_cotrans := by intro a b c _ _ _; simp only [F64.lt, decide_eq_true_eq]; omega
    eq_iff := by intro a b _ _; simp only [F64.lt, F64.eq, decide_eq_true_eq, decide_eq_false_iff_not]; omega
    ofNat_add := by intro a b _; simp [F64.add, F64.ofNat]
    num_zero := trivial
    num_ratio := by intros; trivial }
attribute [local instance] intCount

theorem ratio_int : RatioLaw Int := by
  intro a b a' b' hb hb' _ _ _ _ h
  show (a : Int) / b = (a' : Int) / b'
  have key : a / b = a' / b' := by
    rw [← Nat.mul_div_mul_right a b hb', h, Nat.mul_comm b b', ← Nat.mul_div_mul_right a' b' hb, Nat.mul_comm b' b]
  exact_mod_cast key

/-- The text 人中国 and a space, twice: all conditions of `C104_twice`. -/
example : ∃ d : Dictionary Int Int, runOps {} seamOps Dictionary.new = some d ∧ ∀ ch ch' : Choice, ∀ k : Nat,
    extractTags ch {} d hmmConst hmmEmit (some fun _ => false) (some ⟨3, [], some d⟩) (encode [0x4EBA, 0x4E2D, 0x56FD, 32] ++ encode [0x4EBA, 0x4E2D, 0x56FD, 32]) k =
      extractTags ch' {} d hmmConst hmmEmit (some fun _ => false) (some ⟨3, [], some d⟩) (encode [0x4EBA, 0x4E2D, 0x56FD, 32]) k ∧
    extractTags choiceA {} d hmmConst hmmEmit (some fun _ => false) (some ⟨3, [], some d⟩) (encode [0x4EBA, 0x4E2D, 0x56FD, 32]) 5 =
      some [⟨encode [0x4E2D, 0x56FD], 2⟩] := by
  have hrun : (runOps (D := Int) {} seamOps Dictionary.new).isSome = true := by decide +kernel
  obtain ⟨d, hd⟩ := Option.isSome_iff_exists.1 hrun
  have ea : dagText {} (encode [0x4EBA, 0x4E2D, 0x56FD, 32]) = [0x4EBA, 0x4E2D, 0x56FD, 32] := by decide +kernel
  have hsep := sep_of_tokens hd 32 32 (by decide) (by
    have hall : ((runOps (D := Int) {} seamOps Dictionary.new).map fun d => d.tokens.all fun t => !t.text.flatten.contains 32) = some true := by decide +kernel
    rw [hd] at hall
    exact Option.some.inj hall)
  have hns := C88_separator d (dagText {} (encode [0x4EBA, 0x4E2D, 0x56FD, 32])) (dagText {} (encode [0x4EBA, 0x4E2D, 0x56FD, 32])) 32 (.inl (by decide +kernel)) hsep
  refine ⟨d, hd, fun ch ch' k => ⟨C104_twice ratio_int ch ch' {} seamOps d hd (fun _ _ _ => trivial) hmmConst hmmEmit _ {} seamOps ⟨3, [], some d⟩ d hd rfl
    ⟨trivial, fun _ _ _ => trivial⟩ _ (by decide +kernel) (encode_begins _) ⟨?_, ?_⟩ hns.1 hns.2 ?_ ?_ (fun _ _ _ _ => trivial) k, ?_⟩⟩
  · intro u v hu hv
    rw [ea] at hu hv; cases hu; cases hv
    decide +kernel
  · intro x y hx hy
    rw [ea]
    refine ⟨?_, ?_⟩
    · rintro ⟨_, ⟨z, hz⟩⟩; simp at hz
    · rintro ⟨_, ⟨z, hz⟩⟩; simp at hz; omega
  · refine endFree_of ?_
    have : ((runOps (D := Int) {} seamOps Dictionary.new).map fun d => (dagText {} (encode [0x4EBA, 0x4E2D, 0x56FD, 32])).tails.all fun u =>
        decide (u.length < 2) || (storedTok d (encode u)).isNone) = some true := by decide +kernel
    rw [hd] at this
    intro u hu hl
    have := List.all_eq_true.1 (Option.some.inj this) u hu
    simp at this ⊢
    exact this.resolve_left (by omega)
  · refine startFree_of ?_
    have : ((runOps (D := Int) {} seamOps Dictionary.new).map fun d => (dagText {} (encode [0x4EBA, 0x4E2D, 0x56FD, 32])).inits.all fun u =>
        decide (u.length < 2) || (storedTok d (encode u)).isNone) = some true := by decide +kernel
    rw [hd] at this
    intro u hu hl
    have := List.all_eq_true.1 (Option.some.inj this) u hu
    simp at this ⊢
    exact this.resolve_left (by omega)
  · have : ((runOps (D := Int) {} seamOps Dictionary.new).bind fun d =>
        extractTags choiceA {} d hmmConst hmmEmit (some fun _ => false) (some ⟨3, [], some d⟩) (encode [0x4EBA, 0x4E2D, 0x56FD, 32]) 5) =
      some [⟨encode [0x4E2D, 0x56FD], 2⟩] := by decide +kernel
    rw [hd] at this
    exact this

end twice


end Gse
