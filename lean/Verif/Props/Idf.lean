import Mathlib.Algebra.Order.Ring.Rat
import Verif.Proofs.Idf
import Verif.Props.Hmm
import Verif.Props.Trim

/-! # C45, C47, C48, C63, C64: keyword extraction -/

namespace Gse
open Spec

set_option linter.unusedSectionVars false

section
variable [U : Unicode]
variable {F D : Type} [F64 F] [F32 D] [Narrow F D]

/-! ### Sizes -/

theorem encodeRune_le (r : Rune) : (encodeRune r).length ≤ 4 := by
  unfold encodeRune
  repeat' split
  all_goals simp

theorem encode_length_le (l : List Rune) : (encode l).length ≤ 4 * l.length := by
  induction l with
  | nil => simp [encode]
  | cons r l ih => rw [encode_cons, List.length_append, List.length_cons]; have := encodeRune_le r; omega

theorem items_length_le : ∀ {l : List Bytes}, (∀ w ∈ l, w ≠ []) → l.length ≤ l.flatten.length := by
  intro l
  induction l with
  | nil => simp
  | cons a l ih =>
    intro h
    have h1 := List.length_pos_of_ne_nil (h a (by simp))
    have h2 := ih fun c hc => h c (by simp [hc])
    rw [List.flatten_cons, List.length_append, List.length_cons]; omega

theorem runes_length_le (s : Bytes) : (runes s).length ≤ s.length := by
  rw [runes_eq_chars, List.length_map]
  have := items_length_le (l := chars s) fun c hc => chars_ne_nil hc
  rwa [chars_flatten] at this

theorem cut_length_le [UnicodeOK] (cfg : SplitCfg) (ops : List (DictOp F)) (d : Dictionary F D)
    (hr : runOps cfg ops Dictionary.new = some d) (c : HmmConst F) (em : EmitModel F) (s : Bytes) :
    ∃ items, cutDAGHmm cfg d c em s [] = some items ∧ items.length ≤ 4 * s.length := by
  obtain ⟨items, h1, h2, h3⟩ := C28_any cfg ops d hr (fun t => hmmCut c em t []) (fun t _ => C30_lossless c em t) s
  refine ⟨items, h1, ?_⟩
  have e1 := items_length_le h3
  rw [h2] at e1
  have e2 := encode_length_le (dagText cfg s)
  have e3 : (dagText cfg s).length ≤ s.length := by
    unfold dagText; split
    · rw [List.length_map]; exact runes_length_le s
    · exact runes_length_le s
  omega

/-! ### ExtractTags -/

/-- C45: `ExtractTags` returns for every text, every number `k ≥ 0`, every order in which maps are ranged over and every
sorting algorithm; its result is the `k` first candidates: the distinct items of `Cut(text, true)` of two characters or more
that are no stop words, in decreasing weight (equal weights: the later text first), and no omitted candidate comes before a
returned one. -/
theorem C45_top [UnicodeOK] [F64Count F] (ch : Choice) (cfg : SplitCfg) (ops : List (DictOp F)) (d : Dictionary F D)
    (hr : runOps cfg ops Dictionary.new = some d) (c : HmmConst F) (em : EmitModel F) (isStop : Bytes → Bool)
    (icfg : SplitCfg) (iops : List (DictOp F)) (i : Idf F D) (di : Dictionary F D) (hi : runOps icfg iops Dictionary.new = some di)
    (hd : i.dict = some di) (hn : NumIdf i.median di) (s : Bytes) (hs : 4 * s.length ≤ 2 ^ 53) (k : Nat) :
    ∃ items tags, cutDAGHmm cfg d c em s [] = some items ∧ extractTags ch cfg d c em (some isStop) (some i) s k = some tags ∧
      IsTopTags isStop i.median di items k tags := by
  obtain ⟨items, h1, hl⟩ := cut_length_le cfg ops d hr c em s
  have hlen : items.length ≤ 2 ^ 53 := Nat.le_trans hl hs
  obtain ⟨S, h4, h5, h6, h7, h8⟩ := extract_top ch (isStop := isStop) hlen hd (idxOK_of_run hi) hn k
  refine ⟨items, S.take k, h1, ?_, isTopTags_take h4 h6 h7 k⟩
  rw [extractTags, h1]
  exact h8

/-- C45: the result is the same for any two orders and sorting algorithms. -/
theorem C45_deterministic [UnicodeOK] [F64Count F] (ch ch' : Choice) (cfg : SplitCfg) (ops : List (DictOp F)) (d : Dictionary F D)
    (hr : runOps cfg ops Dictionary.new = some d) (c : HmmConst F) (em : EmitModel F) (isStop : Bytes → Bool)
    (icfg : SplitCfg) (iops : List (DictOp F)) (i : Idf F D) (di : Dictionary F D) (hi : runOps icfg iops Dictionary.new = some di)
    (hd : i.dict = some di) (hn : NumIdf i.median di) (s : Bytes) (hs : 4 * s.length ≤ 2 ^ 53) (k : Nat) :
    extractTags ch cfg d c em (some isStop) (some i) s k = extractTags ch' cfg d c em (some isStop) (some i) s k := by
  obtain ⟨items, tags, h1, h2, h3⟩ := C45_top ch cfg ops d hr c em isStop icfg iops i di hi hd hn s hs k
  obtain ⟨items', tags', h1', h2', h3'⟩ := C45_top ch' cfg ops d hr c em isStop icfg iops i di hi hd hn s hs k
  rw [h1] at h1'
  obtain rfl := Option.some.inj h1'
  have hlen : items.length ≤ 2 ^ 53 := by
    obtain ⟨it, e1, e2⟩ := cut_length_le cfg ops d hr c em s
    rw [h1] at e1
    obtain rfl := Option.some.inj e1
    exact Nat.le_trans e2 hs
  obtain ⟨S, h4, h5, h6, h7, h8⟩ := extract_top ch (isStop := isStop) hlen hd (idxOK_of_run hi) hn k
  rw [h2, h2', isTopTags_unique h4 h5 h7 h3, isTopTags_unique h4 h5 h7 h3']

/-- C45: the top tags are unique, so `C45_top` says all about the result. -/
theorem C45_unique [F64Count F] (isStop : Bytes → Bool) (iops : List (DictOp F)) (icfg : SplitCfg) (median : F) (di : Dictionary F D)
    (hi : runOps icfg iops Dictionary.new = some di) (hn : NumIdf median di) (items : List Bytes) (hlen : items.length ≤ 2 ^ 53) (k : Nat)
    (t t' : List (WordWeight F)) (h : IsTopTags isStop median di items k t) (h' : IsTopTags isStop median di items k t') (ch : Choice) :
    t = t' := by
  obtain ⟨S, h4, h5, h6, h7, h8⟩ := extract_top ch (isStop := isStop) (i := ⟨median, [], some di⟩) hlen rfl (idxOK_of_run hi) hn k
  rw [isTopTags_unique h4 h5 h7 h, isTopTags_unique h4 h5 h7 h']

/-- C45: a negative `topK` always panics. -/
theorem C45_negative (ch : Choice) (cfg : SplitCfg) (d : Dictionary F D) (c : HmmConst F) (em : EmitModel F)
    (stop : Option (Bytes → Bool)) (idf : Option (Idf F D)) (s : Bytes) (k : Int) (hk : k < 0) :
    extractTags ch cfg d c em stop idf s k = none := by
  unfold extractTags
  cases cutDAGHmm cfg d c em s [] with
  | none => rfl
  | some items =>
    simp only [Option.bind_some]
    unfold extractWords
    split
    · rfl
    · split
      · rfl
      · unfold topTags
        simp only
        rw [if_pos (by omega), if_pos hk]

/-! ### The median -/

/-- C47: after any calls of `AddToken` on an `Idf` with a dictionary, none panics, and the fallback weight is in the middle of
all frequencies added: at most half of them are smaller, less than half larger. Rejected and repeated words count. -/
theorem C47_median [F64Count F] (ch : Choice) (cfg : SplitCfg) (d : Dictionary F D) (cs : List (Bytes × F × Bytes))
    (hn : ∀ c ∈ cs, F64Count.num c.2.1) (hne : cs ≠ []) :
    ∃ i', (Idf.loaded d).addTokens ch cfg cs = some i' ∧ i'.freqs.Perm (cs.map (·.2.1)) ∧ IsMiddle (cs.map (·.2.1)) i'.median := by
  obtain ⟨i', h, _⟩ := addTokens_isSome ch (cfg := cfg) (cs := cs) (i := (Idf.loaded d : Idf F D)) (by simp [Idf.loaded])
  obtain ⟨h1, h2⟩ := addTokens_middle ch h (by simp [Idf.loaded, Idf.new]) hn
  exact ⟨i', h, by simpa [Idf.loaded, Idf.new] using h1, by simpa [Idf.loaded, Idf.new] using h2 hne⟩

/-- C47: `AddToken` on a value made by `NewIdf` alone panics. -/
theorem C47_new (ch : Choice) (cfg : SplitCfg) (w p : Bytes) (f : F) : (Idf.new : Idf F D).addToken ch cfg w f p = none := rfl

/-- C63: loading an IDF dictionary does not set the fallback weight: a word that neither is nor begins a loaded word weighs
0 times its share, however rare it is. -/
theorem C63_unknown (d : Dictionary F D) (ops : List (DictOp F)) (cfg : SplitCfg) (hr : runOps cfg ops Dictionary.new = some d)
    (w : Bytes) (hw : ¬ StartsStored d w) (share : F) :
    weighWord (some (Idf.loaded d)) (w, share) = some ⟨w, F64.mul (F64.ofNat 0) share⟩ := by
  have h := idxOK_of_run hr
  have hs : storedTok d w = none := by
    cases hs : storedTok d w with
    | none => rfl
    | some tok => exact absurd ⟨w, tok, hs, List.prefix_refl _⟩ hw
  simp [weighWord, Idf.freq, Idf.loaded, find_unknown h hs hw, Idf.new]

/-- C63: a word that only begins loaded words weighs 0 times its share even when the median is set. -/
theorem C63_prefix (ops : List (DictOp F)) (cfg : SplitCfg) (d : Dictionary F D) (hr : runOps cfg ops Dictionary.new = some d)
    (i : Idf F D) (hd : i.dict = some d) (w : Bytes) (hne : w ≠ []) (hw : StartsStored d w) (hs : storedTok d w = none) (share : F) :
    weighWord (some i) (w, share) = some ⟨w, F64.mul (F64.ofNat 0) share⟩ := by
  simp [weighWord, Idf.freq, hd, find_starts (idxOK_of_run hr) hne hs hw]

end

/-! ### Shared stop words -/

section stop
variable [Unicode]

theorem stopNames_exists (join : Bytes → Bytes) (arg : Option Bytes) : ∃ names, StopNames join arg names := by
  have hs := splitStr_spec (arg.getD (join (str "dict/zh/stop_word.txt"))) [44, 32] (by decide)
  generalize splitStr (arg.getD (join (str "dict/zh/stop_word.txt"))) [44, 32] = l at hs
  generalize hx : arg.getD (join (str "dict/zh/stop_word.txt")) = x at hs
  cases l with
  | nil => cases hs
  | cons n ns =>
    by_cases h : n = str "zh"
    · exact ⟨_, n, ns, hx ▸ hs, Or.inl ⟨h, rfl⟩⟩
    · exact ⟨_, n, ns, hx ▸ hs, Or.inr ⟨h, rfl⟩⟩

theorem idfStop_step {join : Bytes → Bytes} {w : Bytes} {ops : List IdfStopOp} {op : IdfStopOp} {h h' : StopHeap}
    (hi : StopInv join w ops h) (hr : op.run join h = some h') :
    w ∈ h'.global ↔ IdfStopAdds join ops op w ∨ (w ∈ h.global ∧ ∀ i, op ≠ .remove i w) := by
  have hi' := stopInv_step hi hr
  cases op with
  | new =>
    simp only [IdfStopOp.run, Option.some.injEq] at hr
    subst hr
    simp [IdfStopAdds]
  | add j v =>
    simp only [IdfStopOp.run] at hr
    split at hr
    · obtain rfl := Option.some.inj hr
      simp [IdfStopAdds, StopMap.mem_put, eq_comm]
    · simp at hr
  | remove j v =>
    simp only [IdfStopOp.run] at hr
    split at hr
    · obtain rfl := Option.some.inj hr
      have hno : ¬ IdfStopAdds join ops (.remove j v) w := by rintro (⟨_, e⟩ | ⟨_, _, _, _, e, _⟩) <;> cases e
      simp only [hno, false_or, List.mem_filter, bne_iff_ne, ne_eq]
      apply and_congr_right
      intro _
      constructor
      · intro hne i e
        exact hne (IdfStopOp.remove.inj e).2.symm
      · intro hall e
        exact hall j (by rw [e])
    · simp at hr
  | load j fs arg =>
    obtain ⟨names, hnames⟩ := stopNames_exists join arg
    have herr := fun m => C60_error join fs m arg names hnames
    simp only [IdfStopOp.run] at hr
    cases hj : h.segs[j]? with
    | none => simp [hj] at hr
    | some mj =>
      have hjl : j < h.segs.length := (List.getElem?_eq_some_iff.1 hj).1
      rw [hj] at hr
      simp only at hr
      split at hr
      · rename_i hfail
        obtain rfl := Option.some.inj hr
        have hno : ¬ IdfStopAdds join ops (.load j fs arg) w := by
          rintro (⟨_, e⟩ | ⟨j', fs', arg', names', e, h1, h2, _⟩)
          · cases e
          · obtain ⟨rfl, rfl, rfl⟩ := IdfStopOp.load.inj e
            obtain ⟨f, hf, hz⟩ := (C60_error join fs mj arg names' h1).1 hfail
            exact h2 f hf hz
        simp [hno]
      · rename_i hok
        obtain rfl := Option.some.inj hr
        have hseg := hi'.seg j (StopMap.loadStop join fs mj arg).1 (by simp [List.getElem?_set_self hjl])
        simp only [StopMap.mem_foldl_put]
        have e : w ∈ ((StopMap.loadStop join fs mj arg).1.getD []) ↔ StopMap.isStop (StopMap.loadStop join fs mj arg).1 w = true := by
          rw [StopMap.isStop_iff]; rfl
        rw [e, hseg]
        have : IdfStopAdds join ops (.load j fs arg) w ↔ ReadBy join j w (ops ++ [.load j fs arg]) := by
          constructor
          · rintro (⟨_, e⟩ | ⟨j', fs', arg', names', e, h1, h2, h3⟩)
            · cases e
            · obtain ⟨rfl, rfl, rfl⟩ := IdfStopOp.load.inj e
              exact h3
          · intro h3
            refine Or.inr ⟨j, fs, arg, names, rfl, hnames, fun f hf hz => hok ((herr mj).2 ⟨f, hf, hz⟩), h3⟩
        rw [this]
        simp

/-- C48: `IsStopWord` answers the same through every value made by `NewStopWord`: a word is a stop word exactly when it is
built in or was added by a call on any value, and no later call on any value removed it. -/
theorem C48_shared (join : Bytes → Bytes) (builtin : List Bytes) (ops : List IdfStopOp) (h : StopHeap)
    (hr : idfStopRun join ops ⟨builtin, []⟩ = some h) (i : Nat) (w : Bytes) (b : Bool) (hb : h.isStopWord i w = some b) :
    b = true ↔ (w ∈ builtin ∧ ∀ o ∈ ops, ∀ j, o ≠ .remove j w) ∨
      ∃ pre op post, ops = pre ++ op :: post ∧ IdfStopAdds join pre op w ∧ ∀ o ∈ post, ∀ j, o ≠ .remove j w := by
  have hmem : b = true ↔ w ∈ h.global := by
    unfold StopHeap.isStopWord at hb
    split at hb
    · rw [← Option.some.inj hb]; simp
    · simp at hb
  rw [hmem]
  clear hmem hb b i
  induction ops using List.reverseRecOn generalizing h with
  | nil =>
    simp only [idfStopRun, Option.some.injEq] at hr
    subst hr
    simp
  | append_singleton ops op ih =>
    rw [idfStopRun_append, Option.bind_eq_some_iff] at hr
    obtain ⟨h0, h1, h2⟩ := hr
    simp only [idfStopRun, Option.bind_fun_some] at h2
    rw [idfStop_step (stopInv_run h1) h2]
    simp only [propext (ih h0 h1)]
    constructor
    · rintro (h3 | ⟨⟨h3, h4⟩ | ⟨pre, o, post, rfl, h4, h5⟩, h6⟩)
      · exact Or.inr ⟨ops, op, [], rfl, h3, by simp⟩
      · left
        refine ⟨h3, fun o ho => ?_⟩
        rcases List.mem_append.1 ho with ho | ho
        · exact h4 o ho
        · rw [List.mem_singleton] at ho; rw [ho]; exact h6
      · right
        refine ⟨pre, o, post ++ [op], by simp, h4, fun x hx => ?_⟩
        rcases List.mem_append.1 hx with hx | hx
        · exact h5 x hx
        · rw [List.mem_singleton] at hx; rw [hx]; exact h6
    · rintro (⟨h3, h4⟩ | ⟨pre, o, post, e, h4, h5⟩)
      · exact Or.inr ⟨Or.inl ⟨h3, fun o ho => h4 o (by simp [ho])⟩, h4 op (by simp)⟩
      · rcases post.eq_nil_or_concat with rfl | ⟨post', x, rfl⟩
        · obtain ⟨rfl, e2⟩ := List.append_inj' e rfl
          obtain rfl := (List.cons.inj e2).1
          exact Or.inl h4
        · rw [List.concat_eq_append] at e h5
          have e' : ops ++ [op] = (pre ++ o :: post') ++ [x] := by simpa using e
          obtain ⟨rfl, e2⟩ := List.append_inj' e' rfl
          obtain rfl := (List.cons.inj e2).1
          exact Or.inr ⟨Or.inr ⟨pre, o, post', rfl, h4, fun y hy => h5 y (by simp [hy])⟩, h5 op (by simp)⟩

/-- C48: a call returns exactly when it is made on a value that was made before; then all values answer the same. -/
theorem C48_values (join : Bytes → Bytes) (builtin : List Bytes) (ops : List IdfStopOp) (h : StopHeap)
    (hr : idfStopRun join ops ⟨builtin, []⟩ = some h) (i j : Nat) (w : Bytes)
    (hi : i < (ops.filter fun o => o matches .new).length) (hj : j < (ops.filter fun o => o matches .new).length) :
    ∃ b, h.isStopWord i w = some b ∧ h.isStopWord j w = some b := by
  have hlen : h.segs.length = (ops.filter fun o => o matches .new).length := by
    clear hi hj
    induction ops using List.reverseRecOn generalizing h with
    | nil =>
      simp only [idfStopRun, Option.some.injEq] at hr
      subst hr
      rfl
    | append_singleton ops op ih =>
      rw [idfStopRun_append, Option.bind_eq_some_iff] at hr
      obtain ⟨h0, h1, h2⟩ := hr
      simp only [idfStopRun, Option.bind_fun_some] at h2
      rw [List.filter_append, List.length_append, ← ih h0 h1]
      cases op with
      | new => simp only [IdfStopOp.run, Option.some.injEq] at h2; subst h2; simp
      | add j v =>
        simp only [IdfStopOp.run] at h2
        split at h2
        · obtain rfl := Option.some.inj h2; simp
        · simp at h2
      | remove j v =>
        simp only [IdfStopOp.run] at h2
        split at h2
        · obtain rfl := Option.some.inj h2; simp
        · simp at h2
      | load j fs arg =>
        simp only [IdfStopOp.run] at h2
        split at h2
        · simp at h2
        · split at h2 <;> (obtain rfl := Option.some.inj h2; simp)
  exact ⟨decide (w ∈ h.global), by simp [StopHeap.isStopWord, hlen, hi], by simp [StopHeap.isStopWord, hlen, hj]⟩

/-- C64: a word once read by `LoadDict` through a value, even by a call that failed, and removed since, becomes a stop word
again with the next successful `LoadDict` through that value, whatever that call loads. -/
theorem C64_returns (join : Bytes → Bytes) (builtin : List Bytes) (ops : List IdfStopOp) (i : Nat) (fs : Bytes → Option Bytes)
    (arg : Option Bytes) (names : List Bytes) (w : Bytes) (hread : ReadBy join i w ops) (hn : StopNames join arg names)
    (hok : ∀ f ∈ names, fs f ≠ none) (h : StopHeap) (hr : idfStopRun join (ops ++ [.load i fs arg]) ⟨builtin, []⟩ = some h)
    (j : Nat) (b : Bool) (hb : h.isStopWord j w = some b) : b = true := by
  rw [C48_shared join builtin _ h hr j w b hb]
  exact Or.inr ⟨ops, .load i fs arg, [], rfl, Or.inr ⟨i, fs, arg, names, rfl, hn, hok, readBy_snoc.2 (Or.inl hread)⟩, by simp⟩

end stop

/-! ### Examples -/

section examples

/-- Insertion. -/
def insertBy {α : Type} (less : α → α → Bool) (x : α) : List α → List α
  | [] => [x]
  | y :: ys => if less x y then x :: y :: ys else y :: insertBy less x ys

theorem insertBy_perm {α : Type} (less : α → α → Bool) (x : α) (l : List α) : (insertBy less x l).Perm (x :: l) := by
  induction l with
  | nil => exact .refl _
  | cons y ys ih =>
    simp only [insertBy]
    split
    · exact .refl _
    · exact (ih.cons y).trans (.swap _ _ _)

theorem insertBy_sorted {α : Type} (less : α → α → Bool) (x : α) (l : List α) (h : StrictWeakOn less (x :: l))
    (hl : l.Pairwise fun a b => less b a = false) : (insertBy less x l).Pairwise fun a b => less b a = false := by
  induction l with
  | nil => simp [insertBy]
  | cons y ys ih =>
    rw [List.pairwise_cons] at hl
    simp only [insertBy]
    split
    · rename_i hxy
      rw [List.pairwise_cons, List.pairwise_cons]
      refine ⟨fun z hz => ?_, hl⟩
      rcases List.mem_cons.1 hz with rfl | hz
      · exact h.1 x (by simp) _ (by simp) hxy
      · rw [Bool.eq_false_iff]
        intro hzx
        rcases h.2 z (by simp [hz]) y (by simp) x (by simp) hzx with h1 | h1
        · rw [hl.1 z hz] at h1; simp at h1
        · rw [h.1 x (by simp) y (by simp) hxy] at h1; simp at h1
    · rename_i hxy
      rw [List.pairwise_cons]
      have hm : ∀ a ∈ x :: ys, a ∈ x :: y :: ys := fun a ha => by rcases List.mem_cons.1 ha with e | e <;> simp [e]
      refine ⟨fun z hz => ?_, ih ⟨fun a ha b hb => h.1 a (hm a ha) b (hm b hb), fun a ha b hb c hc =>
        h.2 a (hm a ha) b (hm b hb) c (hm c hc)⟩ hl.2⟩
      · rcases List.mem_cons.1 ((insertBy_perm less x ys).subset hz) with rfl | hz
        · simpa using hxy
        · exact hl.1 z hz

theorem insertSort_perm {α : Type} (less : α → α → Bool) (l : List α) : (l.foldr (insertBy less) []).Perm l := by
  induction l with
  | nil => exact .refl _
  | cons a l ih => exact (insertBy_perm less a _).trans (ih.cons a)

theorem insertSort_sorted {α : Type} (less : α → α → Bool) (l : List α) (h : StrictWeakOn less l) :
    (l.foldr (insertBy less) []).Pairwise fun a b => less b a = false := by
  induction l with
  | nil => exact .nil
  | cons a l ih =>
    refine insertBy_sorted less a _ ?_ (ih ⟨fun x hx y hy => h.1 x (by simp [hx]) y (by simp [hy]),
      fun x hx y hy z hz => h.2 x (by simp [hx]) y (by simp [hy]) z (by simp [hz])⟩)
    have hm : ∀ x ∈ a :: l.foldr (insertBy less) [], x ∈ a :: l := fun x hx => ((insertSort_perm less l).cons a).subset hx
    exact ⟨fun x hx y hy => h.1 x (hm x hx) y (hm y hy), fun x hx y hy z hz => h.2 x (hm x hx) y (hm y hy) z (hm z hz)⟩

/-- Maps in order of insertion, insertion sort. -/
def choiceA : Choice where
  iter _ m := m
  iter_perm _ _ := .refl _
  sort less l := l.foldr (insertBy less) []
  sort_perm := insertSort_perm
  sort_sorted := insertSort_sorted

/-- Maps in reverse order, insertion sort of the reverse. -/
def choiceB : Choice where
  iter _ m := m.reverse
  iter_perm _ m := m.reverse_perm
  sort less l := l.reverse.foldr (insertBy less) []
  sort_perm less l := (insertSort_perm less _).trans l.reverse_perm
  sort_sorted less l h := insertSort_sorted less _ ⟨fun a ha b hb => h.1 a (by simpa using ha) b (by simpa using hb),
    fun a ha b hb c hc => h.2 a (by simpa using ha) b (by simpa using hb) c (by simpa using hc)⟩

/-- Exact rational arithmetic. -/
@[instance_reducible] def ratF64 : F64 Rat where
  ofNat n := n
  add := (· + ·)
  sub := (· - ·)
  mul := (· * ·)
  div := (· / ·)
  lt a b := decide (a < b)
  eq a b := decide (a = b)
  log x := Nat.log2 x.floor.toNat
  log2 x := Nat.log2 x.floor.toNat
  exp x := 2 ^ x.floor.toNat
  parse _ := (0, true)
  trunc x := x.floor
  zero_eq_zero := by decide
  zero_lt_zero := by decide

/-- Rationals satisfy the assumptions. -/
@[instance_reducible] def ratCount : @F64Count Rat ratF64 :=
  letI := ratF64
  { num := fun _ => True
    lt_asymm := by intro a b _ _; simp only [F64.lt, decide_eq_true_eq, decide_eq_false_iff_not]; exact fun h h' => lt_asymm h h'
    lt_cotrans := by
      intro a b c _ _ _; simp only [F64.lt, decide_eq_true_eq]; exact fun h => (lt_or_ge a b).imp_right fun h' => lt_of_le_of_lt h' h
    eq_iff := by
      intro a b _ _; simp only [F64.lt, F64.eq, decide_eq_true_eq, decide_eq_false_iff_not]
      exact ⟨fun h => by subst h; exact ⟨lt_irrefl _, lt_irrefl _⟩, fun h => le_antisymm (not_lt.1 h.2) (not_lt.1 h.1)⟩
    ofNat_add := by intro a b _; simp [F64.add, F64.ofNat]
    num_zero := trivial
    num_ratio := by intros; trivial }

attribute [local instance] sampleUnicode sampleUnicodeOK sampleF32 ratF64 ratCount
@[instance_reducible] def ratNarrow : Narrow Rat Int := ⟨fun x => x.floor⟩
attribute [local instance] ratNarrow

/-- IDF values of three words. -/
def idfOps : List (DictOp Rat) := [.add (str "ab") 2 [], .add (str "cd") 1 [], .add (str "xyz") 4 []]
def idfDict : Dictionary Rat Int := (runOps {} idfOps Dictionary.new).getD Dictionary.new
theorem idfDict_run : runOps {} idfOps (Dictionary.new : Dictionary Rat Int) = some idfDict := by
  have : (runOps {} idfOps (Dictionary.new : Dictionary Rat Int)).isSome = true := by decide +kernel
  obtain ⟨d, hd⟩ := Option.isSome_iff_exists.1 this
  rw [idfDict, hd]; rfl
example : NumIdf (3 : Rat) idfDict := ⟨trivial, fun _ _ _ => trivial⟩

/-- Items with blanks, a stop word, a single letter, an unknown word and a beginning of a stored word. -/
def idfItems : List Bytes := [str "cd", str "ab ", str "the", str "q", str "cd", str "xy", str "pq", str "ab"]
def idfStop : Bytes → Bool := fun w => w == str "the"

example : extractWords choiceA (some idfStop) (some ⟨3, [], some idfDict⟩) idfItems 3 =
    some [⟨str "ab", 2 / 3⟩, ⟨str "pq", 1 / 2⟩, ⟨str "cd", 1 / 3⟩] := by decide +kernel
example : extractWords choiceB (some idfStop) (some ⟨3, [], some idfDict⟩) idfItems 3 =
    some [⟨str "ab", 2 / 3⟩, ⟨str "pq", 1 / 2⟩, ⟨str "cd", 1 / 3⟩] := by decide +kernel
example : ¬ StartsStored idfDict (str "pq") ∧ StartsStored idfDict (str "xy") := by
  have h := idxOK_of_run idfDict_run
  constructor
  · intro hc
    have := (startsStored_iff h (by decide)).1 hc
    revert this; decide +kernel
  · exact (startsStored_iff h (by decide)).2 (by decide +kernel)
example : ((Idf.loaded idfDict).addTokens choiceA {} [(str "a1", 7, []), (str "b1", 1, []), (str "a1", 5, []), (str "c1", 2, [])]).map (fun i => (i.median, i.freqs)) =
    some ((5 : Rat), [1, 2, 5, 7]) := by decide +kernel

/-- A word removed and back again. -/
def idfStopOps : List IdfStopOp :=
  [.new, .load 0 (fun _ => some (str "foo\nbar")) (some (str "f")), .remove 0 (str "foo"), .new]
example : ((idfStopRun id idfStopOps ⟨[str "the"], []⟩).bind fun h => h.isStopWord 1 (str "foo")) = some false ∧
    ((idfStopRun id (idfStopOps ++ [.load 0 (fun _ => some (str "x1")) (some (str "g"))]) ⟨[str "the"], []⟩).bind fun h => h.isStopWord 1 (str "foo")) =
      some true := by refine ⟨?_, ?_⟩ <;> decide +kernel
example : ReadBy id 0 (str "foo") idfStopOps ∧ StopNames id (some (str "g")) [str "g"] := by
  have hsp : ∀ b : UInt8, b ≠ 44 → SplitAt [44, 32] [b] [[b]] := by
    intro b hb
    apply SplitAt.last
    intro i h
    have := h.subset (show (44 : UInt8) ∈ [44, 32] by simp)
    have := List.mem_of_mem_drop this
    simp at this
    exact hb this.symm
  refine ⟨.mk [.new] _ _ [str "f"] [.remove 0 (str "foo"), .new] ⟨str "f", [], hsp _ (by decide), Or.inr ⟨by decide, rfl⟩⟩ ?_,
    str "g", [], hsp _ (by decide), Or.inr ⟨by decide, rfl⟩⟩
  refine ⟨[], str "f", [], str "foo\nbar", rfl, by simp, rfl, by decide, [str "foo", str "bar"], ?_, [], str "foo", [str "bar"], rfl, ?_,
    Or.inr ⟨rfl, by decide⟩⟩
  · have : splitStr (str "foo\nbar") [10] = [str "foo", str "bar"] := by decide +kernel
    rw [← this]; exact splitStr_spec _ _ (by decide)
  · decide

end examples

end Gse
