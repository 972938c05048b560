import Verif.Spec.TagStop
import Verif.Props.TagMore

/-!
# C109: more stop words among the keywords
-/

namespace Gse
open Spec

variable {F D : Type} [F64 F] [F32 D] [Narrow F D]

section stops
variable [Unicode]

omit [Unicode] in
theorem tagWord_less {isStop isStop' : Bytes → Bool} (h : MoreStops isStop isStop') {w : Bytes} (hw : TagWord isStop' w) : TagWord isStop w := by
  refine ⟨hw.1, ?_⟩
  cases hs : isStop w with
  | false => rfl
  | true => have := h w hs; rw [hw.2] at this; cases this

omit [Unicode] in
theorem tagWord_iff {isStop isStop' : Bytes → Bool} (h : MoreStops isStop isStop') (w : Bytes) : TagWord isStop' w ↔ TagWord isStop w ∧ isStop' w = false :=
  ⟨fun hw => ⟨tagWord_less h hw, hw.2⟩, fun ⟨a, b⟩ => ⟨a.1, b⟩⟩

theorem tagTotal_less {isStop isStop' : Bytes → Bool} (h : MoreStops isStop isStop') (l : List Bytes) : tagTotal isStop' l ≤ tagTotal isStop l := by
  unfold tagTotal
  refine (List.monotone_filter_right l fun x hx => ?_).length_le
  simp only [decide_eq_true_eq] at hx ⊢
  exact tagWord_less h hx

/-- The whole ranking after more stop words is the old one without them. -/
theorem ranking_stops [F64Count F] (hq : DivisorLaw F) (ch ch' : Choice) {isStop isStop' : Bytes → Bool} (hm : MoreStops isStop isStop') {l : List Bytes}
    (hl : l.length ≤ 2 ^ 53) {i : Idf F D} {d : Dictionary F D} (hd : i.dict = some d) (h : IdxOK d) (hn : NumIdf i.median d) (k : Nat) :
    ∃ S S' : List (WordWeight F), extractWords ch (some isStop) (some i) l k = some (S.take k) ∧ extractWords ch' (some isStop') (some i) l k = some (S'.take k) ∧
      S'.map (·.text) = (S.map (·.text)).filter fun w => !isStop' w := by
  obtain ⟨S, h1, h2, h3, h4, h5⟩ := extract_top ch (isStop := isStop) hl hd h hn k
  obtain ⟨S', h1', h2', h3', h4', h5'⟩ := extract_top ch' (isStop := isStop') hl hd h hn k
  refine ⟨S, S', h5, h5', ?_⟩
  have hT := tagTotal_le isStop l
  have hT' := tagTotal_le isStop' l
  -- the old ranking without the stop words, with the new weights
  let Q : List (WordWeight F) := (S.filter fun t => !isStop' t.text).map fun t => ⟨t.text, tagWeight isStop' i.median d l t.text⟩
  have hQt : Q.map (·.text) = (S.map (·.text)).filter fun w => !isStop' w := by
    simp only [Q, List.map_map, List.filter_map]
    rfl
  have hmem : ∀ t, t ∈ Q ↔ t ∈ S' := by
    intro t
    rw [h4' t]
    simp only [Q, List.mem_map, List.mem_filter, h4]
    constructor
    · rintro ⟨u, ⟨⟨u1, u2, u3⟩, u4⟩, rfl⟩
      exact ⟨(tagWord_iff hm _).2 ⟨u1, by simpa using u4⟩, u2, rfl⟩
    · rintro ⟨t1, t2, t3⟩
      refine ⟨⟨t.text, tagWeight isStop i.median d l t.text⟩, ⟨⟨tagWord_less hm t1, t2, rfl⟩, by simpa using t1.2⟩, ?_⟩
      obtain ⟨x, y⟩ := t
      simp only at t3
      rw [t3]
  have hnd : (Q.map (·.text)).Nodup := by rw [hQt]; exact h3.filter _
  have hord : Q.Pairwise Above := by
    simp only [Q]
    rw [List.pairwise_map]
    refine (h1.filter _).imp_of_mem fun {a b} ha hb hab => ?_
    obtain ⟨ha1, ha2⟩ := List.mem_filter.1 ha
    obtain ⟨hb1, hb2⟩ := List.mem_filter.1 hb
    obtain ⟨a1, a2, a3⟩ := (h4 a).1 ha1
    obtain ⟨b1, b2, b3⟩ := (h4 b).1 hb1
    have wa : TagWord isStop' a.text := (tagWord_iff hm _).2 ⟨a1, by simpa using ha2⟩
    have wb : TagWord isStop' b.text := (tagWord_iff hm _).2 ⟨b1, by simpa using hb2⟩
    have ca := tagCount_le_total (items := l) a1
    have cb := tagCount_le_total (items := l) b1
    have ca' := tagCount_le_total (items := l) wa
    have cb' := tagCount_le_total (items := l) wb
    have e1 := hq _ _ _ _ _ _ (idfOf_num hn a.text) (idfOf_num hn b.text) a2 ca ca' b2 cb cb' (by omega) (by omega)
    have e2 := hq _ _ _ _ _ _ (idfOf_num hn b.text) (idfOf_num hn a.text) b2 cb cb' a2 ca ca' (by omega) (by omega)
    unfold Above at hab ⊢
    rw [a3, b3] at hab
    unfold tagWeight at hab ⊢
    rw [e1, e2] at hab
    exact hab
  rw [← hQt]
  congr 1
  have np : S'.Perm Q := by
    rw [List.perm_ext_iff_of_nodup]
    · intro t; exact (hmem t).symm
    · exact h3'.of_map _
    · exact hnd.of_map _
  refine np.eq_of_pairwise ?_ h1' hord
  intro a b ha hb hab hba
  exact absurd hba (above_asymm (h2' a ha) (h2' b ((hmem b).1 hb)) hab)

/-- C109: more stop words, no rounding: the tags that are not stop words now are the first tags, in the same order. What comes behind them is
no stop word either, and for enough room the tags are just the old ones without the stop words. -/
theorem C109_order [UnicodeOK] [F64Count F] (hq : DivisorLaw F) (ch ch' : Choice) (cfg : SplitCfg) (ops : List (DictOp F)) (d : Dictionary F D)
    (hr : runOps cfg ops Dictionary.new = some d) (c : HmmConst F) (em : EmitModel F) (isStop isStop' : Bytes → Bool) (hm : MoreStops isStop isStop')
    (icfg : SplitCfg) (iops : List (DictOp F)) (i : Idf F D) (di : Dictionary F D) (hi : runOps icfg iops Dictionary.new = some di)
    (hd : i.dict = some di) (hn : NumIdf i.median di) (s : Bytes) (hs : 4 * s.length ≤ 2 ^ 53) (k : Nat) :
    ∃ tags tags', extractTags ch cfg d c em (some isStop) (some i) s k = some tags ∧ extractTags ch' cfg d c em (some isStop') (some i) s k = some tags' ∧
      (tags.map (·.text)).filter (fun w => !isStop' w) <+: tags'.map (·.text) ∧
      (tags.length < k → tags'.map (·.text) = (tags.map (·.text)).filter fun w => !isStop' w) := by
  obtain ⟨l, _, hl, _, _⟩ := C45_top ch cfg ops d hr c em isStop icfg iops i di hi hd hn s hs k
  have b := extractTags_items cfg ops d hr c em s hs hl
  rw [extractTags, extractTags, hl, Option.bind_some, Option.bind_some]
  obtain ⟨S, S', e1, e2, e3⟩ := ranking_stops hq ch ch' hm b hd (idxOK_of_run hi) hn k
  refine ⟨_, _, e1, e2, ?_, ?_⟩
  · rw [List.map_take, List.map_take, e3]
    have hpre : ((S.map (·.text)).take k).filter (fun w => !isStop' w) <+: (S.map (·.text)).filter fun w => !isStop' w :=
      (List.take_prefix k _).filter _
    rw [List.prefix_take_iff]
    refine ⟨hpre, ?_⟩
    exact le_trans (List.length_filter_le ..) (List.length_take_le ..)
  · intro hlt
    have : S.length < k := by
      rw [List.length_take] at hlt
      omega
    have e4 : S'.length ≤ S.length := by
      have := congrArg List.length e3
      rw [List.length_map] at this
      rw [this]
      exact le_trans (List.length_filter_le ..) (by rw [List.length_map])
    rw [List.take_of_length_le (by omega), List.take_of_length_le (by omega), e3]

/-- C109: with rounding as well, a word that is a tag before and after has no less weight after. -/
theorem C109_weight [UnicodeOK] [F64Count F] (hq : ShareLaw F) (ch ch' : Choice) (cfg : SplitCfg) (ops : List (DictOp F)) (d : Dictionary F D)
    (hr : runOps cfg ops Dictionary.new = some d) (c : HmmConst F) (em : EmitModel F) (isStop isStop' : Bytes → Bool) (hm : MoreStops isStop isStop')
    (icfg : SplitCfg) (iops : List (DictOp F)) (i : Idf F D) (di : Dictionary F D) (hi : runOps icfg iops Dictionary.new = some di)
    (hd : i.dict = some di) (hn : NumIdf i.median di) (hp : NonNegIdf i.median di) (s : Bytes) (hs : 4 * s.length ≤ 2 ^ 53) (k k' : Nat) :
    ∃ tags tags', extractTags ch cfg d c em (some isStop) (some i) s k = some tags ∧ extractTags ch' cfg d c em (some isStop') (some i) s k' = some tags' ∧
      (∀ t' ∈ tags', isStop' t'.text = false) ∧ ∀ t ∈ tags, ∀ t' ∈ tags', t.text = t'.text → F64.lt t'.weight t.weight = false := by
  obtain ⟨l, tags, hl, e1, e2⟩ := C45_top ch cfg ops d hr c em isStop icfg iops i di hi hd hn s hs k
  obtain ⟨l', tags', hl', e1', e2'⟩ := C45_top ch' cfg ops d hr c em isStop' icfg iops i di hi hd hn s hs k'
  rw [hl] at hl'
  obtain rfl := Option.some.inj hl'
  have b := extractTags_items cfg ops d hr c em s hs hl
  refine ⟨tags, tags', e1, e1', fun t' ht' => (e2'.word t' ht').1.2, fun t ht t' ht' e => ?_⟩
  rw [e2.weight t ht, e2'.weight t' ht', e]
  obtain ⟨w1, x1⟩ := e2'.word t' ht'
  have c0 := tagCount_pos.2 x1
  have w0 := tagWord_less hm w1
  have t1 := tagCount_le_total (items := l) w0
  have t2 := tagCount_le_total (items := l) w1
  have u1 := tagTotal_le isStop l
  have u2 := tagTotal_le isStop' l
  exact hq _ _ _ _ _ _ (idfOf_num hn _) (idfOf_num hn _) (idfOf_nonneg hp _) (lt_self (idfOf_num hn _)) c0 t1 (by omega) c0 t2 (by omega)
    (Nat.mul_le_mul_left _ (tagTotal_less hm l))

end stops

/-! ### IEEE arithmetic -/

section ieee
variable {M : MathFns}

/-- C109: the weights with IEEE arithmetic. -/
theorem C109_weight_ieee [Unicode] [UnicodeOK] (ch ch' : Choice) (cfg : SplitCfg) (ops : List (DictOp (Binary64 M))) (d : Dictionary (Binary64 M) Binary32)
    (hr : runOps cfg ops Dictionary.new = some d) (c : HmmConst (Binary64 M)) (em : EmitModel (Binary64 M)) (isStop isStop' : Bytes → Bool) (hm : MoreStops isStop isStop')
    (icfg : SplitCfg) (iops : List (DictOp (Binary64 M))) (i : Idf (Binary64 M) Binary32) (di : Dictionary (Binary64 M) Binary32)
    (hi : runOps icfg iops Dictionary.new = some di) (hd : i.dict = some di) (hmd : i.median.datum ≠ .nan ∧ F64.lt i.median (F64.ofNat 0) = false)
    (hn : ∀ op ∈ iops, ∀ f, opFreq op = some f → f.datum ≠ .nan ∧ F64.lt f (F64.ofNat 0) = false) (s : Bytes) (hs : 4 * s.length ≤ 2 ^ 53) (k k' : Nat) :
    ∃ tags tags', extractTags ch cfg d c em (some isStop) (some i) s k = some tags ∧ extractTags ch' cfg d c em (some isStop') (some i) s k' = some tags' ∧
      (∀ t' ∈ tags', isStop' t'.text = false) ∧ ∀ t ∈ tags, ∀ t' ∈ tags', t.text = t'.text → F64.lt t'.weight t.weight = false := by
  have hinv := totalInv_run (P := fun f : Binary64 M => f.datum ≠ .nan ∧ F64.lt f (F64.ofNat 0) = false) iops (totalInv_new _) hn hi
  exact C109_weight C106_share_ieee ch ch' cfg ops d hr c em isStop isStop' hm icfg iops i di hi hd
    ⟨hmd.1, fun w tok h => (hinv.all tok (storedTok_mem h)).1⟩ ⟨hmd.2, fun w tok h => (hinv.all tok (storedTok_mem h)).2⟩ s hs k k'

end ieee

/-! ### Examples -/

section examples
attribute [local instance] sampleUnicode sampleUnicodeOK sampleF32 ratF64 ratCount ratNarrow

/-- Rationals do not round. -/
theorem divisor_rat : DivisorLaw Rat := by
  intro f g a b t t' _ _ ha hat hat' _ _ _ _ _
  show decide (f * ((a : ℚ) / t) < g * ((b : ℚ) / t)) = decide (f * ((a : ℚ) / t') < g * ((b : ℚ) / t'))
  have p : (0 : ℚ) < t := by exact_mod_cast (show 0 < t by omega)
  have p' : (0 : ℚ) < t' := by exact_mod_cast (show 0 < t' by omega)
  rw [decide_eq_decide, ← mul_div_assoc, ← mul_div_assoc, ← mul_div_assoc, ← mul_div_assoc, div_lt_div_iff_of_pos_right p, div_lt_div_iff_of_pos_right p']

/-- The word cd becomes a stop word. -/
def stopCd (w : Bytes) : Bool := idfStop w || w == str "cd"

example : MoreStops idfStop stopCd := by intro w h; simp [stopCd, h]

example : extractWords choiceA (some idfStop) (some ⟨3, [], some idfDict⟩) moreB 5 = some [⟨str "cd", 5 / 7⟩, ⟨str "xyz", 4 / 7⟩, ⟨str "ab", 2 / 7⟩] ∧
    extractWords choiceB (some stopCd) (some ⟨3, [], some idfDict⟩) moreB 5 = some [⟨str "xyz", 2⟩, ⟨str "ab", 1⟩] ∧
    extractWords choiceA (some idfStop) (some ⟨3, [], some idfDict⟩) moreB 1 = some [⟨str "cd", 5 / 7⟩] ∧
    extractWords choiceA (some stopCd) (some ⟨3, [], some idfDict⟩) moreB 1 = some [⟨str "xyz", 2⟩] := by
  decide +kernel

end examples

section rounding
attribute [local instance] sampleUnicode sampleUnicodeOK

/-- Functions of package math that are not called here. -/
def noMath : MathFns := ⟨id, id, id, fun _ => (⟨Datum.ofNat f64 0, Datum.ofNat_ok 0⟩, true)⟩

/-- The word ab with IDF value 3, all others 1. -/
def roundOps : List (DictOp (Binary64 noMath)) := [.add (str "zz") (F64.ofNat 1) [], .add (str "ab") (F64.ofNat 3) []]
def roundWords : List Bytes := [str "ab", str "cd", str "cd", str "cd", str "zz", str "zz", str "zz", str "zz", str "zz", str "zz"]

def roundTags (stop : Bytes → Bool) : Option (List Bytes) :=
  (runOps (D := Binary32) {} roundOps Dictionary.new).bind fun d =>
    (extractWords choiceA (some stop) (some ⟨F64.ofNat 1, [], some d⟩) roundWords 5).map fun l => l.map (·.text)

/-- C109: with rounding the order of the other words may change: 3·(1/10) is more than 3/10 with IEEE arithmetic, 3·(1/4) is 3/4. -/
theorem C109_rounding : roundTags (fun _ => false) = some [str "zz", str "ab", str "cd"] ∧ roundTags (fun w => w == str "zz") = some [str "cd", str "ab"] := by
  decide +kernel

end rounding
end Gse
