import Verif.Spec.Calls
import Verif.Proofs.CostCalc
import Verif.Proofs.Load
import Verif.Props.ConcChange

/-! # C113: the work of calls that change the dictionary -/

namespace Gse
open Spec Trie

set_option linter.unusedSectionVars false

section
variable {F D : Type} [F64 F] [F32 D] [Narrow F D] [Unicode]

theorem DictOp.step_result (cfg : SplitCfg) (d : Dictionary F D) (op : DictOp F) : op.step cfg d = (op.result cfg d).map (·.1) := by
  cases op <;> simp [DictOp.step, DictOp.result, Option.map_map, Function.comp_def]

theorem within_toToken {sh : Mem F D} {cfg : SplitCfg} (hfl : sh .flags = some (.flags cfg)) {text : Slice} {s : Bytes} (ht : HoldsBytes sh text s) (freq : F) (pos : Bytes) :
    within sh (toTokenP text freq pos : Prog F D (Token F D)) noMem (17 * s.length + 5) := by
  have h1 : byteLen (splitTextToWords cfg s) = s.length := by rw [byteLen_flatten]; exact (C01_split_bytes cfg s).1
  have h2 := length_le_byteLen _ fun w hw => C02_words_nonempty cfg s w hw
  rw [h1] at h2
  refine within_bind (15 * s.length + 5) (2 * s.length) (by omega) (by rw [ht.1]; exact (cap_split text).within) (wp_mono ?_ _ _ (wp_split hfl ht (o := noMem) (fun _ _ _ => rfl)))
  rintro r o' ⟨g1, g2, g3⟩
  have g3' : ∀ k w, (splitTextToWords cfg s)[k]? = some w → ∃ x, view sh o' (.cell r.arr (0 + k)) = some (.word x) ∧ HoldsBytes (view sh o') x w := by
    simpa [WordsAt] using g3
  refine within_bind (2 * s.length) 0 (by omega) ?_ ?_
  · rw [g2]; exact within_mono _ _ (by omega) (within_rdWords _ 0 g3')
  · rw [g2]; exact wp_rdWords _ 0 g3' trivial

theorem cap_dictRemove (token : Token F D) : Cap (dictRemoveP token) 2 (fun _ => True) := by
  unfold dictRemoveP
  refine cap_bind 1 1 (by omega) cap_rdTrie fun t _ => ?_
  split
  · exact cap_ret trivial
  · exact cap_bind 1 0 (by omega) (cap_put _ _) fun _ _ => trivial
  · trivial

/-! ## The table only grows -/

/-- The table and its bound for the length of a word only grow, by one word at most. -/
structure TableGrows (d d' : Dictionary F D) (n : Nat) : Prop where
  texts : ∃ l, l.length ≤ n ∧ d'.tokens.map (·.text) = d.tokens.map (·.text) ++ l
  maxLen : d.maxTokenLen ≤ d'.maxTokenLen

theorem TableGrows.refl (d : Dictionary F D) (n : Nat) : TableGrows d d n := ⟨⟨[], by simp, by simp⟩, le_refl _⟩

theorem TableGrows.trans {a b c : Dictionary F D} {n m : Nat} (h : TableGrows a b n) (h' : TableGrows b c m) : TableGrows a c (n + m) := by
  obtain ⟨⟨l, l1, l2⟩, h1⟩ := h
  obtain ⟨⟨k, k1, k2⟩, h2⟩ := h'
  exact ⟨⟨l ++ k, by simp; omega, by rw [k2, l2, List.append_assoc]⟩, le_trans h1 h2⟩

theorem TableGrows.mono {a b : Dictionary F D} {n m : Nat} (h : TableGrows a b n) (hn : n ≤ m) : TableGrows a b m := by
  obtain ⟨⟨l, l1, l2⟩, h1⟩ := h
  exact ⟨⟨l, by omega, l2⟩, h1⟩

theorem TableGrows.length {a b : Dictionary F D} {n : Nat} (h : TableGrows a b n) : a.tokens.length ≤ b.tokens.length ∧ b.tokens.length ≤ a.tokens.length + n := by
  obtain ⟨⟨l, l1, l2⟩, _⟩ := h
  have := congrArg List.length l2
  simp at this; omega

theorem TableGrows.bytes {a b : Dictionary F D} {n : Nat} (h : TableGrows a b n) : tableBytes a ≤ tableBytes b := by
  obtain ⟨⟨l, l1, l2⟩, _⟩ := h
  have e : ∀ d : Dictionary F D, tableBytes d = ((d.tokens.map (·.text)).map fun t => t.flatten.length).sum := fun d => by
    simp [tableBytes, List.map_map, Function.comp_def]
  rw [e a, e b, l2]; simp

theorem grows_table_core {d d' : Dictionary F D} (h : SameCore d d') : TableGrows d d' 0 := by
  refine ⟨⟨[], by simp, ?_⟩, by rw [h.maxLen]⟩
  have := congrArg (List.map fun x : List Bytes × F × Bytes => x.1) h.tokens
  simpa [List.map_map, Function.comp_def, Token.core] using this

theorem grows_table_added (d : Dictionary F D) (t : Token F D) : TableGrows d (d.addToken t).1 1 := by
  unfold Dictionary.addToken
  simp only
  split
  · exact TableGrows.refl _ _
  · split
    · exact TableGrows.refl _ _
    · refine ⟨⟨[_], by simp, by simp; rfl⟩, ?_⟩
      simp only
      split <;> omega

theorem grows_table_add (cfg : SplitCfg) (d : Dictionary F D) (s : Bytes) (f : F) (p : Bytes) : TableGrows d (segAddToken cfg d s f p).1 1 := grows_table_added d _

theorem grows_table_removed {d d' : Dictionary F D} {t : Token F D} {e : Bool} (h : d.removeToken t = some (d', e)) : TableGrows d d' 0 := by
  unfold Dictionary.removeToken at h
  split at h
  · cases h; exact TableGrows.refl _ _
  · cases h; exact ⟨⟨[], by simp, by simp⟩, le_refl _⟩
  · cases h

theorem grows_table_remove {cfg : SplitCfg} {d d' : Dictionary F D} {s : Bytes} {e : Bool} (h : segRemoveToken cfg d s = some (d', e)) : TableGrows d d' 0 := grows_table_removed h

theorem grows_table_step {cfg : SplitCfg} {d d' : Dictionary F D} {op : DictOp F} {e : Bool} (h : op.result cfg d = some (d', e)) : TableGrows d d' 1 := by
  cases op with
  | add s f p => obtain rfl : (segAddToken cfg d s f p).1 = d' := congrArg Prod.fst (Option.some.inj h); exact grows_table_add cfg d s f p
  | addForce s f p =>
    simp only [DictOp.result, segAddTokenForce, Option.map_eq_some_iff] at h
    obtain ⟨d1, h1, h2⟩ := h
    cases h2
    exact (grows_table_add cfg d s f p).trans (grows_table_core (calcToken_same h1))
  | remove s => exact (grows_table_remove h).mono (by omega)
  | reAdd s f p =>
    simp only [DictOp.result, segReAddToken] at h
    split at h
    · cases h
    · next h1 => cases h; exact (grows_table_removed h1).mono (by omega)
    · next h1 =>
      have e1 := congrArg Prod.fst (Option.some.inj h)
      simp only at e1
      rw [← e1]
      have := (grows_table_removed h1).trans (grows_table_added _ (toToken cfg s f p))
      simpa using this
  | recalc =>
    simp only [DictOp.result, Option.map_eq_some_iff] at h
    obtain ⟨d1, h1, h2⟩ := h
    cases h2
    exact (grows_table_core (calcToken_same h1)).mono (by omega)

/-! ## One call -/

theorem Spec.HistoryOK.bytes {o o' : Mem F D} (h : ∀ a i x, o (.cell a i) = some x → o' (.cell a i) = some x) {r : Slice} {s : Bytes} (hb : HoldsBytes o r s) : HoldsBytes o' r s :=
  ⟨hb.1, fun k b hk => h _ _ _ (hb.2 k b hk)⟩

theorem noDict (l : Loc) : l.dict = true → (noMem : Mem F D) l = none := fun _ => rfl

theorem wp_op {o : Mem F D} {cfg : SplitCfg} {d d' : Dictionary F D} {e : Bool} {x : Slice × DictOp F} {xs : List (Slice × DictOp F)} (h : HistoryOK o cfg d (x :: xs))
    (hx : x.2.result cfg d = some (d', e)) : wp noMem (x.2.prog x.1) o (fun e' o' => e' = e ∧ HoldsSegmenter o' cfg (some d') ∧ o' .totalFreq = some (.freq d'.totalFreq) ∧
      ∀ a i x, o (.cell a i) = some x → o' (.cell a i) = some x) := by
  have hr : HasRoom o d.tokens.length := h.room 0 (by simp)
  have hown : ∀ j, j < d.tokens.length → (o (.dist j)).isSome ∧ (o (.subs j)).isSome :=
    fun j hj => ⟨by rw [h.segmenter.dist d rfl j _ (List.getElem?_eq_getElem hj)]; rfl, h.subs j hj⟩
  have hS := h.segmenter; have hf := h.totalFreq; have ht := h.texts x (by simp)
  rw [← view_noMem o] at hS hf hr ht
  obtain ⟨r, op⟩ := x
  simp only at ht hx
  cases op with
  | add s f p =>
    obtain ⟨rfl, rfl⟩ : (segAddToken cfg d s f p).1 = d' ∧ (segAddToken cfg d s f p).2 = e := ⟨congrArg Prod.fst (Option.some.inj hx), congrArg Prod.snd (Option.some.inj hx)⟩
    refine wp_mono ?_ _ _ (wp_addToken_own noDict hS hf hr (ht (by simp)) f p)
    rintro e o' ⟨h1, h2, h3, h4⟩
    simp only [view_noMem] at h2 h3 h4
    exact ⟨h1, h2, h3, h4⟩
  | remove s => 
    refine wp_mono ?_ _ _ (wp_removeToken_own noDict hS hf (ht (by simp)) hx)
    rintro e o' ⟨h1, h2, h3, h4⟩
    simp only [view_noMem] at h2 h3 h4
    exact ⟨h1, h2, h3, h4⟩
  | reAdd s f p => 
    refine wp_mono ?_ _ _ (wp_reAddToken_own noDict hS hf hr (ht (by simp)) hx)
    rintro e o' ⟨h1, h2, h3, h4⟩
    simp only [view_noMem] at h2 h3 h4
    exact ⟨h1, h2, h3, h4⟩
  | recalc =>
    simp only [DictOp.result, Option.map_eq_some_iff] at hx
    obtain ⟨d1, h1, h2⟩ := hx
    cases h2
    refine wp_bind (wp_mono ?_ _ _ (wp_calcToken hS.toHoldsTable hf hown h1))
    rintro _ o' ⟨g1, g2, g3⟩
    simp only [view_noMem] at g1 g2 g3 hf
    exact ⟨rfl, g1, by rw [(calcToken_same h1).total]; exact g3 _ _ hf (by simp) (by simp), fun a i x hx => g3 _ _ hx (by simp) (by simp)⟩
  | addForce s f p =>
    simp only [DictOp.result, segAddTokenForce, Option.map_eq_some_iff] at hx
    obtain ⟨d1, h1, h2⟩ := hx
    cases h2
    refine wp_bind (wp_mono ?_ _ _ (wp_owned _ _ (wp_addToken_own noDict hS hf hr (ht (by simp)) f p)))
    rintro err m' ⟨⟨rfl, h2, h3, h4⟩, h5⟩
    refine wp_bind (wp_mono ?_ _ _ (wp_calcToken h2.toHoldsTable h3 (fun j hj => ?_) h1))
    · rintro _ o' ⟨g1, g2, g3⟩
      simp only [view_noMem] at g1 g2 g3 h3 h4
      exact ⟨rfl, g1, by rw [(calcToken_same h1).total]; exact g3 _ _ h3 (by simp) (by simp), fun a i x hx => g3 _ _ (h4 _ _ _ hx) (by simp) (by simp)⟩
    · have hgl := (grows_table_add cfg d s f p).length.2
      simp only [DictOp.text] at hj
      by_cases e : j = d.tokens.length
      · subst e; rw [view_noMem] at hr; exact ⟨h5 _ hr.dist, h5 _ hr.subs⟩
      · have := hown j (by omega)
        exact ⟨h5 _ this.1, h5 _ this.2⟩

theorem Spec.HistoryOK.next {o o' : Mem F D} {cfg : SplitCfg} {d d' : Dictionary F D} {e : Bool} {x : Slice × DictOp F} {xs : List (Slice × DictOp F)} (h : HistoryOK o cfg d (x :: xs))
    (hx : x.2.result cfg d = some (d', e)) (h1 : HoldsSegmenter o' cfg (some d')) (h2 : o' .totalFreq = some (.freq d'.totalFreq))
    (h3 : ∀ a i x, o (.cell a i) = some x → o' (.cell a i) = some x) (h4 : ∀ l, (o l).isSome → (o' l).isSome) : HistoryOK o' cfg d' xs := by
  have hl := (grows_table_step hx).length
  have hroom : ∀ k, k < xs.length + 1 → HasRoom o' (d.tokens.length + k) := fun k hk =>
    have := h.room k (by simpa using hk)
    ⟨h4 _ this.tok, h4 _ this.dist, h4 _ this.subs⟩
  refine ⟨h1, h2, fun i hi => ?_, fun k hk => ?_, fun y hy hne => HistoryOK.bytes h3 (h.texts y (by simp [hy]) hne)⟩
  · by_cases e : i < d.tokens.length
    · exact h4 _ (h.subs i e)
    · obtain rfl : i = d.tokens.length := by omega
      exact (hroom 0 (by omega)).subs
  · rcases Nat.lt_or_ge d.tokens.length d'.tokens.length with e | e
    · have := hroom (k + 1) (by omega)
      rwa [show d.tokens.length + (k + 1) = d'.tokens.length + k by omega] at this
    · have := hroom k (by omega)
      rwa [show d.tokens.length + k = d'.tokens.length + k by omega] at this

theorem wp_op_next {o : Mem F D} {cfg : SplitCfg} {d d' : Dictionary F D} {e : Bool} {x : Slice × DictOp F} {xs : List (Slice × DictOp F)} (h : HistoryOK o cfg d (x :: xs))
    (hx : x.2.result cfg d = some (d', e)) : wp noMem (x.2.prog x.1) o (fun e' o' => e' = e ∧ HistoryOK o' cfg d' xs) := by
  refine wp_mono ?_ _ _ (wp_owned _ _ (wp_op h hx))
  rintro e' o' ⟨⟨g1, g2, g3, g4⟩, g5⟩
  exact ⟨g1, h.next hx g2 g3 g4 g5⟩

/-- The work of a recalculation. -/
theorem calcBound_le (d : Dictionary F D) : calcBound d ≤ 11 * d.maxTokenLen * tableBytes d + 27 * tableBytes d + (d.maxTokenLen + 22) * d.numTokens + 4 := by
  unfold calcBound tableBytes Dictionary.numTokens
  suffices ∀ (L : Nat) (l : List (Token F D)), (l.map fun t => subsBound L (byteLen t.text) + 3).sum =
      11 * L * (l.map fun t => t.text.flatten.length).sum + 27 * (l.map fun t => t.text.flatten.length).sum + (L + 22) * l.length by
    rw [this]
  intro L l
  induction l with
  | nil => simp
  | cons t l ih =>
    rw [List.map_cons, List.sum_cons, ih]
    simp only [List.map_cons, List.sum_cons, List.length_cons, subsBound, byteLen_flatten]
    ring

/-- The work of a recalculation of this table, or of a smaller one. -/
def Spec.recalcWork (d : Dictionary F D) : Nat := 11 * d.maxTokenLen * tableBytes d + 27 * tableBytes d + (d.maxTokenLen + 22) * d.numTokens + 4

theorem recalcWork_mono {a b : Dictionary F D} {n : Nat} (h : TableGrows a b n) : recalcWork a ≤ recalcWork b := by
  have h1 := h.maxLen
  have h2 := h.bytes
  have h3 : a.numTokens ≤ b.numTokens := h.length.1
  unfold recalcWork
  gcongr

theorem within_op [UnicodeOK] {o : Mem F D} {cfg : SplitCfg} {d d' : Dictionary F D} {e : Bool} {x : Slice × DictOp F} {xs : List (Slice × DictOp F)} (hwf : d.WF cfg)
    (h : HistoryOK o cfg d (x :: xs)) (hx : x.2.result cfg d = some (d', e)) :
    within noMem (x.2.prog x.1) o (17 * x.2.text.length + 22 + if x.2.recalculates then recalcWork d' else 0) := by
  have hr : HasRoom o d.tokens.length := h.room 0 (by simp)
  have hown : ∀ j, j < d.tokens.length → (o (.dist j)).isSome ∧ (o (.subs j)).isSome :=
    fun j hj => ⟨by rw [h.segmenter.dist d rfl j _ (List.getElem?_eq_getElem hj)]; rfl, h.subs j hj⟩
  have hS := h.segmenter; have hf := h.totalFreq; have ht := h.texts x (by simp)
  rw [← view_noMem o] at hS hf hr ht
  obtain ⟨r, op⟩ := x
  simp only at ht hx
  cases op with
  | add s f p => exact within_mono _ _ (by simp [DictOp.text, DictOp.recalculates, addBound]) (within_addToken hS (ht (by simp)) f p)
  | remove s =>
    refine within_fresh (17 * s.length + 5) 3 (by simp only [DictOp.text]; omega) (within_toToken hS.flags (ht (by simp)) _ _) (wp_toToken hS.flags (ht (by simp)) (o := noMem) (fun _ _ _ => rfl)) ?_
    rintro _ y ⟨_, rfl⟩ ha
    refine within_bind 1 2 (by omega) (cap_rdBool _).within (wp_read (grows_fresh ha _ _ hS.segDict) (wp_ret ?_))
    simp only [Option.isNone_some, Bool.false_eq_true, if_false]
    exact (cap_dictRemove _).within
  | reAdd s f p =>
    refine within_fresh (17 * s.length + 5) 17 (by simp only [DictOp.text]; omega) (within_toToken hS.flags (ht (by simp)) _ _) (wp_toToken hS.flags (ht (by simp)) (o := noMem) (fun _ _ _ => rfl)) ?_
    rintro _ y ⟨_, rfl⟩ ha
    refine within_bind 1 16 (by omega) (cap_rdBool _).within (wp_read (grows_fresh ha _ _ hS.segDict) (wp_ret ?_))
    simp only [Option.isNone_some, Bool.false_eq_true, if_false]
    refine Cap.within (Q := fun _ => True) (cap_bind 2 14 (by omega) (cap_dictRemove _) fun e _ => ?_)
    split
    · exact cap_ret trivial
    · refine cap_bind 1 13 (by omega) (cap_rdBool _) fun b _ => ?_
      split
      · trivial
      · exact cap_dictAdd _
  | recalc =>
    simp only [DictOp.result, Option.map_eq_some_iff] at hx
    obtain ⟨d1, h1, h2⟩ := hx
    cases h2
    have hle := recalcWork_mono (grows_table_core (calcToken_same h1))
    have := calcBound_le d
    refine within_bind (calcBound d) 0 ?_ (within_calcToken hwf hS.toHoldsTable hf hown h1) (wp_mono (fun _ _ _ => trivial) _ _ (wp_calcToken hS.toHoldsTable hf hown h1))
    simp only [DictOp.recalculates, if_true]
    unfold recalcWork at *
    omega
  | addForce s f p =>
    simp only [DictOp.result, segAddTokenForce, Option.map_eq_some_iff] at hx
    obtain ⟨d1, h1, h2⟩ := hx
    cases h2
    have hle := recalcWork_mono (grows_table_core (calcToken_same h1))
    have := calcBound_le (segAddToken cfg d s f p).1
    refine within_bind (addBound s.length) (calcBound (segAddToken cfg d s f p).1) ?_ (within_addToken hS (ht (by simp)) f p)
      (wp_mono ?_ _ _ (wp_owned _ _ (wp_addToken_own noDict hS hf hr (ht (by simp)) f p)))
    · simp only [DictOp.recalculates, if_true, DictOp.text, addBound]
      unfold recalcWork at *
      omega
    rintro err m' ⟨⟨rfl, h2, h3, h4⟩, h5⟩
    have hown' : ∀ j, j < (segAddToken cfg d s f p).1.tokens.length → (m' (.dist j)).isSome ∧ (m' (.subs j)).isSome := fun j hj => by
      have hgl := (grows_table_add cfg d s f p).length.2
      by_cases e : j = d.tokens.length
      · subst e; rw [view_noMem] at hr; exact ⟨h5 _ hr.dist, h5 _ hr.subs⟩
      · have := hown j (by omega)
        exact ⟨h5 _ this.1, h5 _ this.2⟩
    exact within_bind _ 0 (le_refl _) (within_calcToken (Dictionary.wf_addToken hwf _ ⟨s, rfl⟩) h2.toHoldsTable h3 hown' h1)
      (wp_mono (fun _ _ _ => trivial) _ _ (wp_calcToken h2.toHoldsTable h3 hown' h1))

theorem exceeds_op {o : Mem F D} {cfg : SplitCfg} {d d' : Dictionary F D} {e : Bool} {x : Slice × DictOp F} {xs : List (Slice × DictOp F)}
    (h : HistoryOK o cfg d (x :: xs)) (hx : x.2.result cfg d = some (d', e)) :
    exceeds noMem (x.2.prog x.1) o (if x.2.recalculates then 8 * d'.numTokens + 4 else 0) := by
  have hr : HasRoom o d.tokens.length := h.room 0 (by simp)
  have hown : ∀ j, j < d.tokens.length → (o (.dist j)).isSome ∧ (o (.subs j)).isSome :=
    fun j hj => ⟨by rw [h.segmenter.dist d rfl j _ (List.getElem?_eq_getElem hj)]; rfl, h.subs j hj⟩
  have hS := h.segmenter; have hf := h.totalFreq; have ht := h.texts x (by simp)
  rw [← view_noMem o] at hS hf hr ht
  obtain ⟨r, op⟩ := x
  simp only at ht hx
  cases op with
  | add s f p => exact Least.exceeds _ _ (least_zero _)
  | remove s => exact Least.exceeds _ _ (least_zero _)
  | reAdd s f p => exact Least.exceeds _ _ (least_zero _)
  | recalc =>
    simp only [DictOp.result, Option.map_eq_some_iff] at hx
    obtain ⟨d1, h1, h2⟩ := hx
    cases h2
    have := (calcToken_same h1).length
    exact exceeds_bind (8 * d.tokens.length + 4) 0 (by simp [DictOp.recalculates, Dictionary.numTokens, this]) (exceeds_calcToken hS.toHoldsTable hf hown)
      (wp_mono (fun _ _ _ => rfl) _ _ (wp_calcToken hS.toHoldsTable hf hown h1))
  | addForce s f p =>
    simp only [DictOp.result, segAddTokenForce, Option.map_eq_some_iff] at hx
    obtain ⟨d1, h1, h2⟩ := hx
    cases h2
    have hl := (calcToken_same h1).length
    refine exceeds_bind 0 (8 * (segAddToken cfg d s f p).1.tokens.length + 4) (by simp [DictOp.recalculates, Dictionary.numTokens, hl]) (Least.exceeds _ _ (least_zero _))
      (wp_mono ?_ _ _ (wp_owned _ _ (wp_addToken_own noDict hS hf hr (ht (by simp)) f p)))
    rintro err m' ⟨⟨rfl, h2, h3, h4⟩, h5⟩
    have hown' : ∀ j, j < (segAddToken cfg d s f p).1.tokens.length → (m' (.dist j)).isSome ∧ (m' (.subs j)).isSome := fun j hj => by
      have hgl := (grows_table_add cfg d s f p).length.2
      by_cases e : j = d.tokens.length
      · subst e; rw [view_noMem] at hr; exact ⟨h5 _ hr.dist, h5 _ hr.subs⟩
      · have := hown j (by omega)
        exact ⟨h5 _ this.1, h5 _ this.2⟩
    exact exceeds_bind _ 0 (le_refl _) (exceeds_calcToken h2.toHoldsTable h3 hown') (wp_mono (fun _ _ _ => rfl) _ _ (wp_calcToken h2.toHoldsTable h3 hown' h1))

/-! ## All calls -/

theorem run_cons {cfg : SplitCfg} {d d' : Dictionary F D} {op : DictOp F} {ops : List (DictOp F)} (h : runOps cfg (op :: ops) d = some d') :
    ∃ d1 e, op.result cfg d = some (d1, e) ∧ op.step cfg d = some d1 ∧ runOps cfg ops d1 = some d' := by
  obtain ⟨d1, h1, h2⟩ := Option.bind_eq_some_iff.mp (show (op.step cfg d).bind (runOps cfg ops) = some d' from h)
  rw [DictOp.step_result] at h1
  obtain ⟨⟨d2, e⟩, h3, rfl⟩ := Option.map_eq_some_iff.mp h1
  exact ⟨d2, e, h3, by rw [DictOp.step_result, h3]; rfl, h2⟩

theorem grows_table_run {cfg : SplitCfg} : ∀ (ops : List (DictOp F)) {d d' : Dictionary F D}, runOps cfg ops d = some d' → TableGrows d d' ops.length
  | [], d, d', h => by cases h; exact TableGrows.refl _ _
  | op :: ops, d, d', h => by
    obtain ⟨d1, e, h1, _, h2⟩ := run_cons h
    exact ((grows_table_step h1).trans (grows_table_run ops h2)).mono (by simp; omega)

theorem wp_calls {cfg : SplitCfg} : ∀ (xs : List (Slice × DictOp F)) {o : Mem F D} {d d' : Dictionary F D}, HistoryOK o cfg d xs → runOps cfg (xs.map (·.2)) d = some d' →
    wp noMem (callsP xs) o (fun es o' => es = answers cfg (xs.map (·.2)) d ∧ Changed o' cfg d')
  | [], o, d, d', h, hr => by cases hr; exact ⟨rfl, h.segmenter, h.totalFreq⟩
  | x :: xs, o, d, d', h, hr => by
    obtain ⟨d1, e, h1, _, h2⟩ := run_cons hr
    refine wp_bind (wp_mono ?_ _ _ (wp_op_next h h1))
    rintro _ o1 ⟨rfl, g⟩
    refine wp_bind (wp_mono ?_ _ _ (wp_calls xs g h2))
    rintro _ o2 ⟨rfl, g2⟩
    exact ⟨by simp [answers, h1], g2⟩

theorem within_calls [UnicodeOK] {cfg : SplitCfg} : ∀ (xs : List (Slice × DictOp F)) {o : Mem F D} {d d' : Dictionary F D}, d.WF cfg → HistoryOK o cfg d xs →
    runOps cfg (xs.map (·.2)) d = some d' →
    within noMem (callsP xs) o ((xs.map fun x => 17 * x.2.text.length + 22).sum + recalcs (xs.map (·.2)) * recalcWork d')
  | [], _, _, _, _, _, _ => trivial
  | x :: xs, o, d, d', hwf, h, hr => by
    obtain ⟨d1, e, h1, h1', h2⟩ := run_cons hr
    have hle := recalcWork_mono (grows_table_run _ h2)
    refine within_bind (17 * x.2.text.length + 22 + if x.2.recalculates then recalcWork d1 else 0) ((xs.map fun x => 17 * x.2.text.length + 22).sum + recalcs (xs.map (·.2)) * recalcWork d') ?_
      (within_op hwf h h1) (wp_mono ?_ _ _ (wp_op_next h h1))
    · simp only [recalcs, List.map_cons, List.sum_cons, List.countP_cons]
      split
      · rw [Nat.add_mul, Nat.one_mul]; omega
      · simp only [Nat.add_zero]; omega
    · rintro _ o1 ⟨rfl, g⟩
      have hwf1 : d1.WF cfg := wf_run [x.2] hwf (by simp [runOps, h1'])
      exact within_bind _ 0 (le_refl _) (within_calls xs hwf1 g h2) (wp_mono (fun _ _ _ => trivial) _ _ (wp_calls xs g h2))

/-- The sum of what the recalculations cost at least: 8 for every word of the table at that time, and 4. -/
def leastWork (cfg : SplitCfg) : List (DictOp F) → Dictionary F D → Nat
  | [], _ => 0
  | op :: ops, d => match op.step cfg d with
    | some d' => (if op.recalculates then 8 * d'.numTokens + 4 else 0) + leastWork cfg ops d'
    | none => 0

theorem exceeds_calls {cfg : SplitCfg} : ∀ (xs : List (Slice × DictOp F)) {o : Mem F D} {d d' : Dictionary F D}, HistoryOK o cfg d xs → runOps cfg (xs.map (·.2)) d = some d' →
    exceeds noMem (callsP xs) o (leastWork cfg (xs.map (·.2)) d)
  | [], _, _, _, _, _ => rfl
  | x :: xs, o, d, d', h, hr => by
    obtain ⟨d1, e, h1, h1', h2⟩ := run_cons hr
    refine exceeds_bind (if x.2.recalculates then 8 * d1.numTokens + 4 else 0) (leastWork cfg (xs.map (·.2)) d1) (by simp [leastWork, h1']) (exceeds_op h h1) (wp_mono ?_ _ _ (wp_op_next h h1))
    rintro _ o1 ⟨rfl, g⟩
    exact exceeds_bind _ 0 (le_refl _) (exceeds_calls xs g h2) (wp_mono (fun _ _ _ => rfl) _ _ (wp_calls xs g h2))

theorem isolated_calls {m : Mem F D} {cfg : SplitCfg} {xs : List (Slice × DictOp F)} {d d' : Dictionary F D} (h : HistoryOK m cfg d xs) (hr : runOps cfg (xs.map (·.2)) d = some d') :
    Isolated noMem (startCallsOn m xs) (fun i => if i = 0 then m else noMem) (fun _ es o' => es = answers cfg (xs.map (·.2)) d ∧ Changed o' cfg d') := by
  refine ⟨fun l x h => (by cases h), ?_, fun _ _ _ _ => rfl, ?_, ?_⟩
  · intro i l x h
    split at h
    · exact h
    · cases h
  · intro i j l x hij h
    split at h
    · next hi => rw [if_neg (by omega)]; rfl
    · cases h
  · intro i p hp
    match i with
    | 0 =>
      simp only [startCallsOn, List.getElem?_cons_zero, Option.some.injEq] at hp
      subst hp
      exact wp_calls xs h hr
    | i + 1 => simp [startCallsOn] at hp

/-- C113: a goroutine that makes any calls one after another, alone, never panics; when it has returned, the errors and the dictionary in memory are those of the sequential functions. -/
theorem C113_alone [UnicodeOK] (cfg : SplitCfg) (d d' : Dictionary F D) (m : Mem F D) (xs : List (Slice × DictOp F)) (h : HistoryOK m cfg d xs)
    (hr : runOps cfg (xs.map (·.2)) d = some d') (tr : List (Nat × Access)) (c' : Config F D (List Bool)) (hx : Exec (startCallsOn m xs) tr c') :
    c'.threads ≠ [.panic] ∧ ∀ es, c'.threads = [.ret es] → es = answers cfg (xs.map (·.2)) d ∧ Changed c'.mem cfg d' := by
  obtain ⟨own, hI', _, _⟩ := isolated_exec (isolated_calls h hr) hx
  refine ⟨fun hp => hI'.goes 0 .panic (by rw [hp]; rfl), fun r hr => ?_⟩
  obtain ⟨h1, h2⟩ := hI'.goes 0 (.ret r) (by rw [hr]; rfl)
  exact ⟨h1, h2.grow fun l x hx => hI'.mine 0 l x hx⟩

/-- C113: at every moment the work of the goroutine is bounded: by a multiple of the texts of its calls, and for every `CalcToken` and `AddTokenForce` by a product of the length of the longest word
and the bytes of all words that were ever stored. -/
theorem C113_work [UnicodeOK] (cfg : SplitCfg) (ops : List (DictOp F)) (d d' : Dictionary F D) (hd : runOps cfg ops Dictionary.new = some d) (m : Mem F D) (xs : List (Slice × DictOp F))
    (h : HistoryOK m cfg d xs) (hr : runOps cfg (xs.map (·.2)) d = some d') (tr : List (Nat × Access)) (c' : Config F D (List Bool)) (hx : Exec (startCallsOn m xs) tr c') :
    work 0 tr ≤ (xs.map fun x => 17 * x.2.text.length + 22).sum +
      recalcs (xs.map (·.2)) * (11 * d'.maxTokenLen * tableBytes d' + 27 * tableBytes d' + (d'.maxTokenLen + 22) * d'.numTokens + 4) := by
  have hb : ∀ (i : Nat) p, (startCallsOn m xs).threads[i]? = some p → within noMem p ((fun i => if i = 0 then m else noMem) i)
      ((fun _ => (xs.map fun x => 17 * x.2.text.length + 22).sum + recalcs (xs.map (·.2)) * recalcWork d') i) := by
    intro i p hp
    match i with
    | 0 =>
      simp only [startCallsOn, List.getElem?_cons_zero, Option.some.injEq] at hp
      subst hp
      exact within_calls xs (Reachable.wf ⟨ops, hd⟩) h hr
    | i + 1 => simp [startCallsOn] at hp
  obtain ⟨own', _, hw⟩ := exec_work (isolated_calls h hr) _ hb hx
  have hi : 0 < c'.threads.length := by rw [exec_threads hx]; simp [startCallsOn]
  exact (hw 0 _ (List.getElem?_eq_getElem hi)).1

/-- C113: calls of `AddToken`, `RemoveToken` and `ReAddToken` cost as much as their texts, however large the dictionary is. -/
theorem C113_cheap [UnicodeOK] (cfg : SplitCfg) (ops : List (DictOp F)) (d d' : Dictionary F D) (hd : runOps cfg ops Dictionary.new = some d) (m : Mem F D) (xs : List (Slice × DictOp F))
    (h : HistoryOK m cfg d xs) (hr : runOps cfg (xs.map (·.2)) d = some d') (hn : ∀ x ∈ xs, x.2.recalculates = false)
    (tr : List (Nat × Access)) (c' : Config F D (List Bool)) (hx : Exec (startCallsOn m xs) tr c') :
    work 0 tr ≤ (xs.map fun x => 17 * x.2.text.length + 22).sum := by
  have := C113_work cfg ops d d' hd m xs h hr tr c' hx
  have h0 : recalcs (xs.map (·.2)) = 0 := by
    unfold recalcs
    rw [List.countP_eq_zero]
    intro op hop
    obtain ⟨x, h1, rfl⟩ := List.mem_map.mp hop
    simp [hn x h1]
  rw [h0] at this
  simpa using this

theorem least_exec {cfg : SplitCfg} {d d' : Dictionary F D} {m : Mem F D} {xs : List (Slice × DictOp F)} (h : HistoryOK m cfg d xs) (hr : runOps cfg (xs.map (·.2)) d = some d')
    {tr : List (Nat × Access)} {c' : Config F D (List Bool)} (hx : Exec (startCallsOn m xs) tr c') {es : List Bool} (he : c'.threads = [.ret es]) :
    leastWork cfg (xs.map (·.2)) d ≤ work 0 tr := by
  have hb : ∀ (i : Nat) p, (startCallsOn m xs).threads[i]? = some p → exceeds noMem p ((fun i => if i = 0 then m else noMem) i) ((fun _ => leastWork cfg (xs.map (·.2)) d) i) := by
    intro i p hp
    match i with
    | 0 =>
      simp only [startCallsOn, List.getElem?_cons_zero, Option.some.injEq] at hp
      subst hp
      exact exceeds_calls xs h hr
    | i + 1 => simp [startCallsOn] at hp
  obtain ⟨own', _, hw⟩ := exec_least (isolated_calls h hr) _ hb hx
  have : leastWork cfg (xs.map (·.2)) d - work 0 tr = 0 := hw 0 (.ret es) (by rw [he]; rfl)
  omega

theorem leastWork_recalcs {cfg : SplitCfg} : ∀ (ops : List (DictOp F)) {d d' : Dictionary F D}, runOps cfg ops d = some d' → recalcs ops * (8 * d.numTokens + 4) ≤ leastWork cfg ops d
  | [], _, _, _ => by simp [recalcs]
  | op :: ops, d, d', h => by
    obtain ⟨d1, e, h1, h1', h2⟩ := run_cons h
    have ih := leastWork_recalcs ops h2
    have hl : d.numTokens ≤ d1.numTokens := (grows_table_step h1).length.1
    have := Nat.mul_le_mul_left (recalcs ops) (show 8 * d.numTokens + 4 ≤ 8 * d1.numTokens + 4 by omega)
    simp only [leastWork, h1']
    unfold recalcs at *
    rw [List.countP_cons]
    split
    · rw [Nat.add_mul, Nat.one_mul]; omega
    · simp only [Nat.add_zero]; omega

/-- C113: every `CalcToken` and every `AddTokenForce`, also for a word that is stored already, costs at least 8 accesses for every word that was ever stored. -/
theorem C113_least [UnicodeOK] (cfg : SplitCfg) (d d' : Dictionary F D) (m : Mem F D) (xs : List (Slice × DictOp F)) (h : HistoryOK m cfg d xs)
    (hr : runOps cfg (xs.map (·.2)) d = some d') (tr : List (Nat × Access)) (c' : Config F D (List Bool)) (hx : Exec (startCallsOn m xs) tr c')
    (es : List Bool) (he : c'.threads = [.ret es]) : recalcs (xs.map (·.2)) * (8 * d.numTokens + 4) ≤ work 0 tr :=
  le_trans (leastWork_recalcs _ hr) (least_exec h hr hx he)

theorem leastWork_forced {cfg : SplitCfg} : ∀ (ops : List (DictOp F)) {d d' : Dictionary F D}, (∀ op ∈ ops, op.recalculates = true) → runOps cfg ops d = some d' →
    d'.numTokens = d.numTokens + ops.length → 4 * ops.length ^ 2 + 8 * d.numTokens * ops.length ≤ leastWork cfg ops d
  | [], _, _, _, _, _ => by simp
  | op :: ops, d, d', hop, h, hn => by
    obtain ⟨d1, e, h1, h1', h2⟩ := run_cons h
    have l1 : d1.numTokens ≤ d.numTokens + 1 := (grows_table_step h1).length.2
    have l2 : d'.numTokens ≤ d1.numTokens + ops.length := (grows_table_run ops h2).length.2
    simp only [List.length_cons] at hn
    have l3 : d1.numTokens = d.numTokens + 1 := by omega
    have ih := leastWork_forced ops (fun x hx => hop x (by simp [hx])) h2 (by omega)
    simp only [leastWork, h1', hop op (by simp), if_true, List.length_cons]
    rw [l3] at ih ⊢
    have e1 : 4 * (ops.length + 1) ^ 2 + 8 * d.numTokens * (ops.length + 1) = 4 * ops.length ^ 2 + 8 * (d.numTokens + 1) * ops.length + 8 * d.numTokens + 4 := by ring
    omega

/-- C113: storing `N` new words with `AddTokenForce` one by one costs at least `4 N²`, and `8 N` for every word that was there before. -/
theorem C113_quadratic [UnicodeOK] (cfg : SplitCfg) (d d' : Dictionary F D) (m : Mem F D) (xs : List (Slice × DictOp F)) (h : HistoryOK m cfg d xs)
    (hf : ∀ x ∈ xs, ∃ s f p, x.2 = .addForce s f p) (hr : runOps cfg (xs.map (·.2)) d = some d') (hn : d'.numTokens = d.numTokens + xs.length)
    (tr : List (Nat × Access)) (c' : Config F D (List Bool)) (hx : Exec (startCallsOn m xs) tr c') (es : List Bool) (he : c'.threads = [.ret es]) :
    4 * xs.length ^ 2 + 8 * d.numTokens * xs.length ≤ work 0 tr := by
  have := leastWork_forced (xs.map (·.2)) (d := d) (d' := d') ?_ hr (by simpa using hn)
  · simp only [List.length_map] at this
    exact le_trans this (least_exec h hr hx he)
  · intro op hop
    obtain ⟨x, h1, rfl⟩ := List.mem_map.mp hop
    obtain ⟨s, f, p, e⟩ := hf x h1
    rw [e]; rfl

theorem forces_core [UnicodeOK] (cfg : SplitCfg) : ∀ (ws : List (Bytes × F × Bytes)) {a b : Dictionary F D}, a.WF cfg → SameCore b a → ws ≠ [] →
    runOps cfg (ws.map fun w => DictOp.addForce w.1 w.2.1 w.2.2) a = runOps cfg ((ws.map fun w => DictOp.add w.1 w.2.1 w.2.2) ++ [.recalc]) b
  | [], _, _, _, _, h => absurd rfl h
  | w :: ws, a, b, hwf, h, _ => by
    have hs : SameCore (segAddToken cfg b w.1 w.2.1 w.2.2).1 (segAddToken cfg a w.1 w.2.1 w.2.2).1 := addToken_same h _
    have hwf1 : (segAddToken cfg a w.1 w.2.1 w.2.2).1.WF cfg := Dictionary.wf_addToken hwf _ ⟨w.1, rfl⟩
    obtain ⟨a1, h1⟩ := calcToken_total hwf1
    have hc := calcToken_same h1
    simp only [List.map_cons, List.cons_append, runOps, DictOp.step, segAddTokenForce, h1, Option.map_some, Option.bind_some]
    cases ws with
    | nil =>
      simp only [List.map_nil, List.nil_append, runOps, DictOp.step]
      rw [← calcToken_congr hs, h1]; rfl
    | cons v ws => exact forces_core cfg (v :: ws) (hc.wf hwf1) (hs.trans hc) (by simp)

/-- C113: storing words with `AddToken` and then recalculating once makes the same dictionary, and costs as much as their texts and one recalculation. -/
theorem C113_batch [UnicodeOK] (cfg : SplitCfg) (ops : List (DictOp F)) (d d' : Dictionary F D) (hd : runOps cfg ops Dictionary.new = some d)
    (ws : List (Bytes × F × Bytes)) (hne : ws ≠ []) (hr : runOps cfg (ws.map fun w => DictOp.addForce w.1 w.2.1 w.2.2) d = some d') :
    runOps cfg ((ws.map fun w => DictOp.add w.1 w.2.1 w.2.2) ++ [.recalc]) d = some d' ∧
    ∀ (m : Mem F D) (xs : List (Slice × DictOp F)), HistoryOK m cfg d xs → xs.map (·.2) = (ws.map fun w => DictOp.add w.1 w.2.1 w.2.2) ++ [.recalc] →
      ∀ tr c', Exec (startCallsOn m xs) tr c' → work 0 tr ≤ (ws.map fun w => 17 * w.1.length + 22).sum +
        (11 * d'.maxTokenLen * tableBytes d' + 27 * tableBytes d' + (d'.maxTokenLen + 22) * d'.numTokens + 26) := by
  have h1 : runOps cfg ((ws.map fun w => DictOp.add w.1 w.2.1 w.2.2) ++ [.recalc]) d = some d' := by
    rw [← forces_core cfg ws (Reachable.wf ⟨ops, hd⟩) (SameCore.refl d) hne]; exact hr
  refine ⟨h1, fun m xs h hxs tr c' hx => ?_⟩
  have := C113_work cfg ops d d' hd m xs h (by rw [hxs]; exact h1) tr c' hx
  have e1 : recalcs (xs.map (·.2)) = 1 := by
    rw [hxs]; simp [recalcs, List.countP_append, List.countP_map, Function.comp_def, DictOp.recalculates]
  have e2 : (xs.map fun x => 17 * x.2.text.length + 22) = (ws.map fun w => 17 * w.1.length + 22) ++ [22] := by
    have := congrArg (List.map fun op : DictOp F => 17 * op.text.length + 22) hxs
    simpa [List.map_map, Function.comp_def, DictOp.text] using this
  rw [e1, e2, List.sum_append] at this
  simp only [List.sum_singleton, Nat.one_mul] at this
  omega

/-- Memory with room for as many tokens as one likes. -/
def spacious (m : Mem F D) (f : F) : Mem F D := fun l =>
  match l with
  | .tok i => (m (.tok i)).or (some (.token ⟨[], f, []⟩))
  | .dist i => (m (.dist i)).or (some (.dist F32.zero))
  | .subs i => (m (.subs i)).or (some (.subs ⟨0, 0, 0⟩))
  | l => m l

theorem spacious_ok (cfg : SplitCfg) (d : Dictionary F D) (f : F) (inputs : List Bytes) (xs : List (Slice × DictOp F))
    (h : ∀ x ∈ xs, x.2 ≠ .recalc → HoldsBytes (memOf cfg (some d) inputs) x.1 x.2.text) : HistoryOK (spacious (memOf cfg (some d) inputs) f) cfg d xs := by
  have hS := memOf_segmenter cfg (some d) inputs
  refine ⟨⟨⟨hS.flags, hS.segDict, hS.maxLen, hS.trie, hS.tokHdr, fun d' e i t ht => ?_⟩, fun d' e i t ht => ?_⟩, rfl, fun i _ => ?_, fun k _ => ⟨?_, ?_, ?_⟩, fun x hx hne => ⟨(h x hx hne).1, fun k b hk => (h x hx hne).2 k b hk⟩⟩
  · simp [spacious, hS.tok d' e i t ht]
  · simp [spacious, hS.dist d' e i t ht]
  all_goals simp only [spacious]; cases memOf cfg (some d) inputs _ <;> rfl

end

section examples
attribute [local instance] sampleUnicode sampleUnicodeOK sampleF64 sampleF32 sampleNarrow

/-- Two words stored by a goroutine with `AddTokenForce`, in a dictionary that has one word; and the same with `AddToken` and one `CalcToken`. -/
def forcedCalls : List (Slice × DictOp Int) := [(⟨0, 0, 2⟩, .addForce (str "go") 5 []), (⟨1, 0, 1⟩, .addForce (str "w") 7 [])]
def batchCalls : List (Slice × DictOp Int) := [(⟨0, 0, 2⟩, .add (str "go") 5 []), (⟨1, 0, 1⟩, .add (str "w") 7 []), (⟨0, 0, 0⟩, .recalc)]

example : ∃ d d' : Dictionary Int Int, runOps {} [.add (str "a") 9 []] Dictionary.new = some d ∧ runOps {} (forcedCalls.map (·.2)) d = some d' ∧
    (∀ tr c' es, Exec (startCallsOn (spacious (memOf {} (some d) [str "go", str "w"]) 0) forcedCalls) tr c' → c'.threads = [.ret es] →
      es = [false, false] ∧ Changed c'.mem {} d' ∧ 4 * 2 ^ 2 + 8 * 1 * 2 ≤ work 0 tr ∧ 2 * (8 * 1 + 4) ≤ work 0 tr) ∧
    (∀ tr c', Exec (startCallsOn (spacious (memOf {} (some d) [str "go", str "w"]) 0) batchCalls) tr c' → c'.threads ≠ [.panic] ∧ work 0 tr ≤ (17 * 2 + 22) + (17 * 1 + 22) + (11 * 1 * 4 + 27 * 4 + (1 + 22) * 3 + 26)) ∧
    (∀ tr c', Exec (startCallsOn (spacious (memOf {} (some d) [str "go", str "w"]) 0) (batchCalls.take 2)) tr c' → work 0 tr ≤ (17 * 2 + 22) + (17 * 1 + 22)) := by
  have h : (runOps (F := Int) (D := Int) {} [.add (str "a") 9 []] Dictionary.new).isSome := by decide +kernel
  obtain ⟨d, hd⟩ := Option.isSome_iff_exists.mp h
  have key : (runOps (F := Int) (D := Int) {} [.add (str "a") 9 []] Dictionary.new).map
      (fun d => (d.numTokens, answers {} (forcedCalls.map (·.2)) d, (runOps {} (forcedCalls.map (·.2)) d).map fun d' => (d'.numTokens, d'.maxTokenLen, tableBytes d'))) =
      some (1, [false, false], some (3, 1, 4)) := by decide +kernel
  rw [hd] at key
  simp only [Option.map_some, Option.some.injEq, Prod.mk.injEq, Option.map_eq_some_iff] at key
  obtain ⟨k1, k2, d', hd', k3, k4, k5⟩ := key
  have hin : ∀ xs : List (Slice × DictOp Int), xs = forcedCalls ∨ xs = batchCalls ∨ xs = batchCalls.take 2 →
      HistoryOK (spacious (memOf {} (some d) [str "go", str "w"]) 0) {} d xs := by
    intro xs hxs
    refine spacious_ok {} d 0 _ _ fun x hx hne => ?_
    have : x.1 = ⟨0, 0, 2⟩ ∧ x.2.text = str "go" ∨ x.1 = ⟨1, 0, 1⟩ ∧ x.2.text = str "w" := by
      rcases hxs with rfl | rfl | rfl <;> simp only [forcedCalls, batchCalls, List.take, List.mem_cons, List.not_mem_nil, or_false] at hx
      · rcases hx with rfl | rfl
        · exact .inl ⟨rfl, rfl⟩
        · exact .inr ⟨rfl, rfl⟩
      · rcases hx with rfl | rfl | rfl
        · exact .inl ⟨rfl, rfl⟩
        · exact .inr ⟨rfl, rfl⟩
        · exact absurd rfl hne
      · rcases hx with rfl | rfl
        · exact .inl ⟨rfl, rfl⟩
        · exact .inr ⟨rfl, rfl⟩
    rcases this with ⟨e1, e2⟩ | ⟨e1, e2⟩
    · rw [e1, e2]; exact memOf_input _ _ _ 0 (str "go") rfl
    · rw [e1, e2]; exact memOf_input _ _ _ 1 (str "w") rfl
  obtain ⟨b1, b2⟩ := C113_batch {} _ d d' hd [(str "go", 5, []), (str "w", 7, [])] (by simp) hd'
  refine ⟨d, d', hd, hd', fun tr c' es hx he => ?_, fun tr c' hx => ⟨?_, ?_⟩, fun tr c' hx => ?_⟩
  · obtain ⟨g1, g2⟩ := (C113_alone {} d d' _ _ (hin _ (.inl rfl)) hd' tr c' hx).2 es he
    rw [k2] at g1
    have q := C113_quadratic {} d d' _ _ (hin _ (.inl rfl)) (by
      intro x hx'
      simp only [forcedCalls, List.mem_cons, List.not_mem_nil, or_false] at hx'
      rcases hx' with rfl | rfl <;> exact ⟨_, _, _, rfl⟩) hd' (by rw [k1, k3]; rfl) tr c' hx es he
    have l := C113_least {} d d' _ _ (hin _ (.inl rfl)) hd' tr c' hx es he
    rw [k1] at q l
    exact ⟨g1, g2, q, l⟩
  · exact (C113_alone {} d d' _ _ (hin _ (.inr (.inl rfl))) b1 tr c' hx).1
  · have := b2 _ batchCalls (hin _ (.inr (.inl rfl))) rfl tr c' hx
    rw [k3, k4, k5] at this
    exact this
  · obtain ⟨d2, hd2⟩ : ∃ d2, runOps {} ((batchCalls.take 2).map (·.2)) d = some d2 := ⟨_, rfl⟩
    exact C113_cheap {} _ d d2 hd _ _ (hin _ (.inr (.inr rfl))) hd2 (by
      intro x hx'
      simp only [batchCalls, List.take, List.mem_cons, List.not_mem_nil, or_false] at hx'
      rcases hx' with rfl | rfl <;> rfl) tr c' hx

end examples
end Gse
