import Verif.Proofs.Output
import Verif.Props.Dict

/-! # C15–C19, C38, C42: sub-segments and output functions -/

namespace Gse
open Spec Trie

set_option linter.unusedSectionVars false

/-- C42: `Join` is concatenation, for every number of parts. -/
theorem C42_join (text : List Bytes) : join text = some text.flatten := join_eq text

/-- C42: `Equals` never panics and is equality with the concatenated text. -/
theorem C42_equals (text : List Bytes) (s : Bytes) : tokenEquals text s = some (decide (text.flatten = s)) := tokenEquals_eq text s

/-- C42: `Equals(s)` iff `Text() == s`. -/
theorem C42_equals_text (text : List Bytes) (s : Bytes) : tokenEquals text s = some true ↔ textSliceToString text = some s := by
  rw [tokenEquals_eq, textSliceToString_eq]; simp

example : tokenEquals [str "ab", str "c"] (str "abc") = some true ∧ tokenEquals [str "ab", str "c"] (str "abd") = some false ∧
    tokenEquals [] [] = some true := by decide +kernel

/-! ### Joins -/

theorem foldl_join {α : Type} (f : α → Bytes) (sep : Bytes) (l : List α) : ∀ (pre : List α) (acc : Bytes),
    (List.range' pre.length l.length).foldl (fun r i =>
      match (pre ++ l)[i]? with
      | none => r
      | some s => if i + 1 = (pre ++ l).length then r ++ f s else r ++ (f s ++ sep)) acc =
    acc ++ sep.intercalate (l.map f) := by
  induction l with
  | nil => intro pre acc; simp [List.intercalate]
  | cons a l ih =>
    intro pre acc
    rw [List.length_cons, List.range'_succ, List.foldl_cons]
    have e : pre ++ a :: l = (pre ++ [a]) ++ l := by simp
    have hl : (pre ++ [a]).length = pre.length + 1 := by simp
    have := ih (pre ++ [a])
    rw [← e, hl] at this
    rw [this]
    have hg : (pre ++ a :: l)[pre.length]? = some a := by simp
    rw [hg]
    simp only
    cases l with
    | nil => simp [List.intercalate]
    | cons b l =>
      rw [if_neg (by simp)]
      simp [List.intercalate]

/-- C38: `CutStr` is the join of the list with the separator. -/
theorem C38_cutStr (strs : List Bytes) (sep : Bytes) : cutStr strs sep = sep.intercalate strs := by
  unfold cutStr
  have := foldl_join id sep strs [] []
  simp only [List.nil_append, List.length_nil, List.map_id, id, ← List.range_eq_range'] at this
  refine Eq.trans (congrArg (fun f => List.foldl f [] _) ?_) this
  funext r i; cases strs[i]? <;> rfl

/-- C38: `PosStr` is the join of `text/pos`, or of the texts alone with `SkipPos`. -/
theorem C38_posStr (skip : Bool) (ps : List SegPos) (sep : Bytes) :
    posStr skip ps sep = sep.intercalate (ps.map fun p => if skip then p.text else p.text ++ str "/" ++ p.pos) := by
  unfold posStr
  have := foldl_join (fun p : SegPos => if !skip then p.text ++ (str "/" ++ p.pos) else p.text) sep ps [] []
  simp only [List.nil_append, List.length_nil, ← List.range_eq_range'] at this
  refine Eq.trans (congrArg (fun f => List.foldl f [] _) ?_) (this.trans ?_)
  · funext r i; cases ps[i]? <;> rfl
  · congr 2
    funext p
    cases skip <;> simp

theorem intercalate_inj (c : UInt8) : ∀ (xs ys : List Bytes), xs ≠ [] → ys ≠ [] → (∀ x ∈ xs, c ∉ x) → (∀ y ∈ ys, c ∉ y) →
    [c].intercalate xs = [c].intercalate ys → xs = ys := by
  have hd : ∀ (x y r s : Bytes), c ∉ x → c ∉ y → x ++ c :: r = y ++ c :: s → x = y ∧ r = s := by
    intro x
    induction x with
    | nil =>
      intro y r s _ hy h
      cases y with
      | nil => simp at h; exact ⟨rfl, h⟩
      | cons b y => simp at h; simp [h.1] at hy
    | cons a x ih =>
      intro y r s hx hy h
      cases y with
      | nil => simp at h; simp [h.1] at hx
      | cons b y =>
        simp at h hx hy
        obtain ⟨h1, h2⟩ := ih y r s hx.2 hy.2 h.2
        exact ⟨by rw [h.1, h1], h2⟩
  intro xs
  induction xs with
  | nil => intro ys h; exact absurd rfl h
  | cons x xs ih =>
    intro ys _ hne hx hy h
    cases ys with
    | nil => exact absurd rfl hne
    | cons y ys =>
      cases xs with
      | nil =>
        cases ys with
        | nil => simpa [List.intercalate] using h
        | cons y' ys =>
          exfalso
          simp [List.intercalate] at h
          apply hx x (by simp)
          rw [h]; simp
      | cons x' xs =>
        cases ys with
        | nil =>
          exfalso
          simp [List.intercalate] at h
          apply hy y (by simp)
          rw [← h]; simp
        | cons y' ys =>
          have e : ∀ (a b : Bytes) (l : List Bytes), [c].intercalate (a :: b :: l) = a ++ c :: [c].intercalate (b :: l) := by
            intro a b l; simp [List.intercalate]
          rw [e, e] at h
          obtain ⟨h1, h2⟩ := hd _ _ _ _ (hx x (by simp)) (hy y (by simp)) h
          rw [h1, ih (y' :: ys) (by simp) (by simp) (fun z hz => hx z (by simp [hz])) (fun z hz => hy z (by simp [hz])) h2]

/-- C38: with a one-byte separator that occurs in no item, a non-empty list can be recovered from its `CutStr`. -/
theorem C38_recover (c : UInt8) (xs ys : List Bytes) (hx : xs ≠ []) (hy : ys ≠ []) (hcx : ∀ x ∈ xs, c ∉ x) (hcy : ∀ y ∈ ys, c ∉ y)
    (h : cutStr xs [c] = cutStr ys [c]) : xs = ys := by
  rw [C38_cutStr, C38_cutStr] at h
  exact intercalate_inj c xs ys hx hy hcx hcy h

example : cutStr [str "a", str "bc", str "d"] = str "a bc d" ∧ cutStr [str "a"] (str ",") = str "a" ∧
    posStr false [⟨str "a", str "n"⟩, ⟨str "b", str "v"⟩] = str "a/n b/v" ∧
    posStr true [⟨str "a", str "n"⟩, ⟨str "b", str "v"⟩] (str ", ") = str "a, b" := by decide +kernel

section
variable {F D : Type} [F64 F] [F32 D] [Narrow F D] [Unicode]

/-! ### Sub-segments -/

/-- One word with a kana character. -/
def kanaWord : List Bytes → Bool
  | [w] => (runes w).any Unicode.isKana
  | _ => false

theorem keepSub_kana {d : Dictionary F D} {s : Seg} {t : Token F D} (h : d.deref s.tok = some t) (hne : t.text ≠ []) :
    keepSub d s = some (!kanaWord t.text) := by
  unfold keepSub
  simp only [h, Option.bind_eq_bind, Option.bind_some]
  match e : t.text with
  | [] => exact absurd e hne
  | [w] => rfl
  | a :: b :: r => rfl

theorem filter_kana {d : Dictionary F D} {segs : List Seg} {ts : List (Token F D)}
    (h : List.Forall₂ (fun (g : Seg) t => d.deref g.tok = some t ∧ g.stop = g.start + t.text.flatten.length) segs ts)
    (hne : ∀ x ∈ ts, x.text ≠ []) {r : List Seg} (hf : filterOpt (keepSub d) segs = some r) :
    r = ((segs.zip (ts.map (·.text))).filter fun p => !kanaWord p.2).map (·.1) := by
  induction h generalizing r with
  | nil => simp [filterOpt] at hf; simp [hf]
  | @cons s x segs ts h _ ih =>
    simp only [filterOpt, Option.bind_eq_bind, Option.bind_eq_some_iff] at hf
    obtain ⟨b, hb, r', hr', e⟩ := hf
    rw [keepSub_kana h.1 (hne x (by simp))] at hb
    have := ih (fun y hy => hne y (by simp [hy])) hr'
    simp at hb e
    subst e
    simp only [List.map_cons, List.zip_cons_cons, List.filter_cons]
    rw [hb, this]
    cases b <;> simp

/-- C15: after a recalculation the sub-segments of each token are a tiling of the token's bytes by at least two stored or
unknown words, each with strictly fewer words than the token, from which exactly the one-word kana pieces are left out; a
token of at most one word has none. -/
theorem C15_subsegments [UnicodeOK] (cfg : SplitCfg) (ops : List (DictOp F)) (d d' : Dictionary F D)
    (hr : runOps cfg ops Dictionary.new = some d) (hc : calcToken d = some d') (t : Token F D) (ht : t ∈ d'.tokens) :
    (t.text.length ≤ 1 ∧ t.segments = []) ∨
    ∃ full : List (Seg × List Bytes), 2 ≤ full.length ∧ Tiles 0 t.text.flatten.length (full.map (·.1)) ∧
      (full.map (·.2)).flatten = t.text ∧
      (∀ p ∈ full, (d'.deref p.1.tok).map (·.text) = some p.2 ∧ p.2 ≠ [] ∧ p.2.length < t.text.length ∧
        p.2.flatten = slice t.text.flatten p.1.start p.1.stop) ∧
      t.segments = (full.filter fun p => !kanaWord p.2).map (·.1) := by
  have hwf : d.WF cfg := Reachable.wf ⟨ops, hr⟩
  rcases calc_token hwf hc t ht with h | ⟨segs, ts, h1, h2, h3, h4, h5⟩
  · exact .inl h
  right
  have hsame : SameCore (withDistances d) d' := (withDistances_same d).symm.trans (calcToken_same hc)
  have hlen := h3.length_eq
  refine ⟨segs.zip (ts.map (·.text)), by simp; omega, ?_, ?_, ?_, ?_⟩
  · rw [List.map_fst_zip (by simp; omega)]; exact h4
  · rw [List.map_snd_zip (by simp; omega)]; exact h2.1
  · have hgen : ∀ {segs : List Seg} {ts : List (Token F D)},
        List.Forall₂ (fun (g : Seg) t => (withDistances d).deref g.tok = some t ∧ g.stop = g.start + t.text.flatten.length) segs ts →
        ∀ p ∈ segs.zip (ts.map (·.text)), ∃ t ∈ ts, p.2 = t.text ∧ (withDistances d).deref p.1.tok = some t := by
      intro segs ts h
      induction h with
      | nil => simp
      | cons h _ ih =>
        intro p hp
        simp only [List.map_cons, List.zip_cons_cons, List.mem_cons] at hp
        rcases hp with rfl | hp
        · exact ⟨_, by simp, rfl, h.1⟩
        · obtain ⟨t, h1, h2⟩ := ih p hp
          exact ⟨t, by simp [h1], h2⟩
    intro p hp
    obtain ⟨t2, hm, e1, e2⟩ := hgen h3 p hp
    obtain ⟨t3, e3, e4, _⟩ := hsame.deref e2
    have hs : p.1 ∈ segs := (List.of_mem_zip (a := p.1) (b := p.2) (by simpa using hp)).1
    obtain ⟨t4, _, e5, e6⟩ := tiles_text h3 (pre := []) rfl h4 p.1 hs
    rw [e2] at e5
    cases e5
    rw [List.nil_append, h2.1] at e6
    exact ⟨by rw [e3, e1]; simp [e4], by rw [e1]; exact (h2.2 t2 hm).1, by rw [e1]; exact pieces_shorter h2 h1 t2 hm, by rw [e1, e6]⟩
  · have hne : ∀ x ∈ ts, x.text ≠ [] := fun x hx => (h2.2 x hx).1
    exact filter_kana h3 hne h5

theorem tiles_pairwise {p q : Nat} {segs : List Seg} (h : Tiles p q segs) : segs.Pairwise fun a b => a.stop ≤ b.start := by
  induction h with
  | nil => exact List.Pairwise.nil
  | cons _ _ h3 ih => exact List.Pairwise.cons (fun s hs => (tiles_mem h3 s hs).1) ih

/-- C15: sub-segments lie inside their token, in order, without overlap. -/
theorem C15_ordered [UnicodeOK] (cfg : SplitCfg) (ops : List (DictOp F)) (d d' : Dictionary F D)
    (hr : runOps cfg ops Dictionary.new = some d) (hc : calcToken d = some d') (t : Token F D) (ht : t ∈ d'.tokens) :
    t.segments.Pairwise (fun a b => a.stop ≤ b.start) ∧ ∀ s ∈ t.segments, s.start < s.stop ∧ s.stop ≤ t.text.flatten.length := by
  rcases C15_subsegments cfg ops d d' hr hc t ht with ⟨_, h⟩ | ⟨full, _, h1, _, _, h2⟩
  · simp [h]
  · have hsub : t.segments.Sublist (full.map (·.1)) := by rw [h2]; exact (List.filter_sublist).map _
    exact ⟨(tiles_pairwise h1).sublist hsub, fun s hs => (tiles_mem h1 s (hsub.subset hs)).2⟩

/-- C15: without kana the sub-segments tile the token exactly. -/
theorem C15_tile_exact [UnicodeOK] (cfg : SplitCfg) (ops : List (DictOp F)) (d d' : Dictionary F D)
    (hr : runOps cfg ops Dictionary.new = some d) (hc : calcToken d = some d') (t : Token F D) (ht : t ∈ d'.tokens)
    (h2 : 2 ≤ t.text.length) (hk : ∀ w ∈ t.text, ∀ r ∈ runes w, Unicode.isKana r = false) :
    2 ≤ t.segments.length ∧ Tiles 0 t.text.flatten.length t.segments := by
  rcases C15_subsegments cfg ops d d' hr hc t ht with ⟨h, _⟩ | ⟨full, h0, h1, h3, h4, h5⟩
  · omega
  · have : full.filter (fun p => !kanaWord p.2) = full := by
      rw [List.filter_eq_self]
      intro p hp
      have hin : ∀ w ∈ p.2, w ∈ t.text := by
        intro w hw
        rw [← h3]
        exact List.mem_flatten.2 ⟨p.2, List.mem_map.2 ⟨p, hp, rfl⟩, hw⟩
      unfold kanaWord
      split
      · rename_i w e
        have := hk w (hin w (by rw [e]; simp))
        simpa using this
      · rfl
    rw [h5, this]
    exact ⟨by simpa using h0, h1⟩

/-! ### Expansion -/

/-- C17: `ToSlice` lists the texts of `ToPos`, in both modes (including panics). -/
theorem C17_slice_pos (d : Dictionary F D) (fuel : Nat) (segs : List Seg) (mode : Bool) :
    toSlice d fuel segs mode = (toPos d fuel segs mode).map fun o => o.map (·.text) := by
  have e : (fun o : List SegPos => o.map (·.text)) = fun o => o.flatMap fun p => [p.text] := by
    funext o; rw [List.map_eq_flatMap]
  rw [e]
  unfold toSlice toPos
  cases mode with
  | true => exact concatOpt_map _ (fun s => tokenToSlice_eq_pos d fuel s.tok) segs
  | false =>
    refine concatOpt_map _ (fun s => ?_) segs
    cases d.deref s.tok <;> simp [textSliceToString_eq]

/-- C17: `ToString` is the concatenation of `text/pos ` over `ToPos`, in both modes. -/
theorem C17_string_pos (d : Dictionary F D) (fuel : Nat) (segs : List Seg) (mode : Bool) :
    toString' d fuel segs mode = (toPos d fuel segs mode).map fun o => o.flatMap fun p => p.text ++ str "/" ++ p.pos ++ str " " := by
  unfold toString' toPos
  cases mode with
  | true => exact concatOpt_map (fun p : SegPos => slashed p.text p.pos) (fun s => tokenToString_eq_pos d fuel s.tok) segs
  | false =>
    refine concatOpt_map (fun p : SegPos => slashed p.text p.pos) (fun s => ?_) segs
    cases d.deref s.tok <;> simp [textSliceToString_eq]


theorem subLoop_congr {α : Type} {d : Dictionary F D} {rec rec' : TokRef → Option (List α)}
    (h : ∀ r o, rec r = some o → rec' r = some o) : ∀ (segs : List Seg) (only : Bool) (o : List α),
    subLoop d rec segs only = some o → subLoop d rec' segs only = some o := by
  intro segs
  induction segs with
  | nil => intro only o ho; exact ho
  | cons s ss ih =>
    intro only o ho
    unfold subLoop at ho ⊢
    cases hnt : nonTerminal d s with
    | none => rw [hnt] at ho; simp at ho
    | some nt =>
      rw [hnt] at ho
      simp only at ho ⊢
      split
      · rename_i hc; rw [if_pos hc] at ho; exact ih _ _ ho
      · rename_i hc
        rw [if_neg hc] at ho
        cases hr : rec s.tok with
        | none => rw [hr] at ho; simp at ho
        | some o1 =>
          rw [hr] at ho
          simp only [Option.map_eq_some_iff] at ho
          obtain ⟨o2, h1, h2⟩ := ho
          rw [h _ _ hr]
          simp only
          rw [ih _ _ h1]
          simp [h2]

theorem tokenToPos_succ (d : Dictionary F D) : ∀ (n : Nat) (r : TokRef) (o : List SegPos),
    tokenToPos d n r = some o → tokenToPos d (n + 1) r = some o := by
  intro n
  induction n with
  | zero => intro r o h; simp [tokenToPos] at h
  | succ n ih =>
    intro r o h
    rw [tokenToPos] at h ⊢
    cases hd : d.deref r with
    | none => rw [hd] at h; simp at h
    | some t =>
      rw [hd] at h
      simp only at h ⊢
      cases hs : subLoop d (tokenToPos d n) t.segments true with
      | none => rw [hs] at h; simp at h
      | some o1 =>
        rw [hs] at h
        rw [subLoop_congr ih _ _ _ hs]
        exact h

theorem tokenToPos_mono (d : Dictionary F D) {n m : Nat} (hnm : n ≤ m) {r : TokRef} {o : List SegPos}
    (h : tokenToPos d n r = some o) : tokenToPos d m r = some o := by
  induction hnm with
  | refl => exact h
  | step _ ih => exact tokenToPos_succ d _ _ _ ih

theorem tokenToPos_total {d : Dictionary F D} (h : SubInv d) {r : TokRef} {t : Token F D} (hr : d.deref r = some t) :
    ∃ o, ∀ n, t.text.length < n → tokenToPos d n r = some o := by
  obtain ⟨o, ho⟩ := tokenToSlice_total h (t.text.length + 1) r t hr (by omega)
  rw [tokenToSlice_eq_pos] at ho
  obtain ⟨p, hp, _⟩ := Option.map_eq_some_iff.1 ho
  exact ⟨p, fun n hn => tokenToPos_mono d hn hp⟩

/-- C16: expanding any token of any dictionary built through the API terminates normally: the recursion depth is bounded
by the number of words of the token, for all three output functions. -/
theorem C16_expansion_terminates [UnicodeOK] (cfg : SplitCfg) (ops : List (DictOp F)) (d : Dictionary F D)
    (hr : runOps cfg ops Dictionary.new = some d) (r : TokRef) (t : Token F D) (ht : d.deref r = some t) :
    ∃ o, ∀ fuel, t.text.length < fuel → tokenToPos d fuel r = some o ∧ tokenToSlice d fuel r = some (o.map (·.text)) ∧
      tokenToString d fuel r = some (o.flatMap fun p => slashed p.text p.pos) := by
  obtain ⟨o, ho⟩ := tokenToPos_total (subInv_reachable hr) ht
  refine ⟨o, fun n hn => ⟨ho n hn, ?_, ?_⟩⟩
  · rw [tokenToSlice_eq_pos, ho n hn]; simp [← List.map_eq_flatMap]
  · rw [tokenToString_eq_pos, ho n hn]; rfl

theorem concatOpt_total {β : Type} {f : Seg → Option (List β)} {segs : List Seg} (h : ∀ s ∈ segs, ∃ o, f s = some o) :
    ∃ o, concatOpt f segs = some o := by
  induction segs with
  | nil => exact ⟨[], rfl⟩
  | cons s ss ih =>
    obtain ⟨o, ho⟩ := h s (by simp)
    obtain ⟨o', ho'⟩ := ih fun x hx => h x (by simp [hx])
    exact ⟨o ++ o', by simp [concatOpt, ho, ho']⟩

theorem concatOpt_congr {β : Type} {f g : Seg → Option (List β)} {segs : List Seg} (h : ∀ s ∈ segs, f s = g s) :
    concatOpt f segs = concatOpt g segs := by
  induction segs with
  | nil => rfl
  | cons s ss ih => simp [concatOpt, h s (by simp), ih fun x hx => h x (by simp [hx])]

theorem wordsOf_le {t : Token F D} {ts : List (Token F D)} (h : t ∈ ts) : t.text.length ≤ (wordsOf ts).length := by
  obtain ⟨a, b, rfl⟩ := List.append_of_mem h
  simp [wordsOf]; omega

/-- C16: so `Slice`, `Pos` and `String` return for every text in both modes (with a recursion depth of at most the
number of words of the text). -/
theorem C16_output_total [UnicodeOK] (cfg : SplitCfg) (ops : List (DictOp F)) (d : Dictionary F D)
    (hr : runOps cfg ops Dictionary.new = some d) (s : Bytes) (mode : Bool) :
    ∃ o, ∀ fuel, (splitTextToWords cfg s).length < fuel → segPos cfg d fuel s mode = some o ∧
      segSlice cfg d fuel s mode = some (o.map (·.text)) ∧
      segString cfg d fuel s mode = some (o.flatMap fun p => slashed p.text p.pos) := by
  obtain ⟨segs, hs, hlen⟩ : ∃ segs, internalSegment cfg (some d) s mode = some segs ∧
      ∀ g ∈ segs, ∃ t, d.deref g.tok = some t ∧ t.text.length ≤ (splitTextToWords cfg s).length := by
    by_cases hsm : mode = true ∧ (splitTextToWords cfg s).length = 1
    · refine ⟨[], ?_, by simp⟩
      rw [internalSegment_eq, segmentWords, if_pos (by simpa using hsm)]
    · obtain ⟨segs, ts, h1, h2, h3, h4, _⟩ := segment_tokens hr s mode hsm
      refine ⟨segs, h1, ?_⟩
      intro g hg
      obtain ⟨t, ht, hd, _⟩ := tiles_text h2 (pre := []) rfl h4 g hg
      exact ⟨t, hd, by rw [← h3.1]; exact wordsOf_le ht⟩
  have hpos : ∃ o, ∀ fuel, (splitTextToWords cfg s).length < fuel → toPos d fuel segs mode = some o := by
    cases mode with
    | false =>
      obtain ⟨o, ho⟩ := concatOpt_total (segs := segs)
        (f := fun s => (d.deref s.tok).bind fun t => (textSliceToString t.text).map fun x => [(⟨x, t.pos⟩ : SegPos)]) (by
          intro g hg
          obtain ⟨t, ht, _⟩ := hlen g hg
          exact ⟨[⟨t.text.flatten, t.pos⟩], by simp [ht, textSliceToString_eq]⟩)
      exact ⟨o, fun _ _ => by simp [toPos, ho]⟩
    | true =>
      obtain ⟨o, ho⟩ := concatOpt_total (segs := segs) (f := fun g => tokenToPos d ((splitTextToWords cfg s).length + 1) g.tok) (by
          intro g hg
          obtain ⟨t, ht, hl⟩ := hlen g hg
          obtain ⟨o, ho⟩ := tokenToPos_total (subInv_reachable hr) ht
          exact ⟨o, ho _ (by omega)⟩)
      refine ⟨o, fun fuel hf => ?_⟩
      rw [toPos, if_pos rfl, ← ho]
      apply concatOpt_congr
      intro g hg
      obtain ⟨t, ht, hl⟩ := hlen g hg
      obtain ⟨o, ho⟩ := tokenToPos_total (subInv_reachable hr) ht
      rw [ho _ (by omega), ho _ (by omega)]
  obtain ⟨o, ho⟩ := hpos
  refine ⟨o, fun fuel hf => ?_⟩
  have h1 := C17_slice_pos d fuel segs mode
  have h2 := C17_string_pos d fuel segs mode
  rw [ho fuel hf] at h1 h2
  simp only [segPos, segSlice, segString, hs, Option.bind_some, ho fuel hf, h1, h2, Option.map_some, slashed, and_self]

/-! ### Search mode adds sub-words -/

/-- C18: on the same segments, search mode outputs the normal texts in order, each preceded only by parts of it. -/
theorem C18_search_adds [UnicodeOK] (cfg : SplitCfg) (ops : List (DictOp F)) (d : Dictionary F D)
    (hr : runOps cfg ops Dictionary.new = some d) (fuel : Nat) (segs : List Seg) (a b : List Bytes)
    (ha : toSlice d fuel segs false = some a) (hb : toSlice d fuel segs true = some b) :
    ∃ groups : List (List Bytes × Bytes), a = groups.map (·.2) ∧ b = groups.flatMap (fun g => g.1 ++ [g.2]) ∧
      ∀ g ∈ groups, ∀ x ∈ g.1, x <:+: g.2 := by
  have hinv := subInv_reachable hr
  simp only [toSlice, if_true, Bool.false_eq_true, if_false] at ha hb
  induction segs generalizing a b with
  | nil =>
    simp [concatOpt] at ha hb
    exact ⟨[], by simp [ha], by simp [hb], by simp⟩
  | cons s ss ih =>
    unfold concatOpt at ha hb
    cases hd : d.deref s.tok with
    | none => simp [hd] at ha
    | some t =>
      simp only [hd, Option.bind_some, textSliceToString_eq, Option.map_some, Option.map_eq_some_iff] at ha
      obtain ⟨a', ha', rfl⟩ := ha
      cases hts : tokenToSlice d fuel s.tok with
      | none => rw [hts] at hb; simp at hb
      | some o =>
        rw [hts] at hb
        simp only [Option.map_eq_some_iff] at hb
        obtain ⟨b', hb', rfl⟩ := hb
        obtain ⟨groups, h1, h2, h3⟩ := ih a' b' (by simpa [textSliceToString_eq] using ha') hb'
        obtain ⟨pre, h4, h5⟩ := tokenToSlice_parts hinv fuel s.tok t o hd hts
        refine ⟨(pre, t.text.flatten) :: groups, by simp [h1], by simp [h2, h4], ?_⟩
        intro g hg
        rcases List.mem_cons.1 hg with rfl | hg
        · exact h5
        · exact h3 g hg

/-- C18: in particular the normal output is a subsequence of the search output of the same segments. -/
theorem C18_subsequence [UnicodeOK] (cfg : SplitCfg) (ops : List (DictOp F)) (d : Dictionary F D)
    (hr : runOps cfg ops Dictionary.new = some d) (fuel : Nat) (segs : List Seg) (a b : List Bytes)
    (ha : toSlice d fuel segs false = some a) (hb : toSlice d fuel segs true = some b) : a.Sublist b := by
  obtain ⟨groups, rfl, rfl, h⟩ := C18_search_adds cfg ops d hr fuel segs a b ha hb
  clear ha hb h
  induction groups with
  | nil => simp
  | cons g gs ih =>
    rw [List.map_cons, List.flatMap_cons]
    exact (List.sublist_append_right g.1 [g.2]).append ih

/-- A sub-segment shown only after one that is not terminal: at most one sub-segment of its own, and no kana in its first
word. -/
def terminalSeg (d : Dictionary F D) (s : Seg) : Bool :=
  match d.deref s.tok with
  | none => false
  | some t => decide (t.segments.length ≤ 1) && !((t.text.headD []) |> runes).any Unicode.isKana

/-- C18: exactly what is shown for a token: the expansions, in order, of its sub-segments from the first one that is not
terminal on (nothing when all are terminal), then the token itself. -/
theorem C18_exact (d : Dictionary F D) (n : Nat) (r : TokRef) (o : List SegPos) (h : tokenToPos d (n + 1) r = some o) :
    ∃ t os, d.deref r = some t ∧
      List.Forall₂ (fun (s : Seg) o' => tokenToPos d n s.tok = some o') (t.segments.dropWhile (terminalSeg d)) os ∧
      o = os.flatten ++ [⟨t.text.flatten, t.pos⟩] := by
  have after : ∀ (segs : List Seg) (x : List SegPos), subLoop d (tokenToPos d n) segs false = some x →
      ∃ os, List.Forall₂ (fun (s : Seg) o' => tokenToPos d n s.tok = some o') segs os ∧ x = os.flatten := by
    intro segs
    induction segs with
    | nil => intro x hx; simp [subLoop] at hx; exact ⟨[], .nil, by simp [hx]⟩
    | cons s ss ih =>
      intro x hx
      unfold subLoop at hx
      cases hn : nonTerminal d s with
      | none => simp [hn] at hx
      | some nt =>
        simp only [hn, Bool.false_and, Bool.false_eq_true, if_false] at hx
        cases ho : tokenToPos d n s.tok with
        | none => simp [ho] at hx
        | some o1 =>
          simp only [ho, Option.map_eq_some_iff] at hx
          obtain ⟨y, hy, rfl⟩ := hx
          obtain ⟨os, h1, rfl⟩ := ih y hy
          exact ⟨o1 :: os, .cons ho h1, by simp⟩
  have before : ∀ (segs : List Seg) (x : List SegPos), subLoop d (tokenToPos d n) segs true = some x →
      ∃ os, List.Forall₂ (fun (s : Seg) o' => tokenToPos d n s.tok = some o') (segs.dropWhile (terminalSeg d)) os ∧ x = os.flatten := by
    intro segs
    induction segs with
    | nil => intro x hx; simp [subLoop] at hx; exact ⟨[], .nil, by simp [hx]⟩
    | cons s ss ih =>
      intro x hx
      have hx0 := hx
      unfold subLoop at hx
      cases hn : nonTerminal d s with
      | none => simp [hn] at hx
      | some nt =>
        have ht : terminalSeg d s = !nt := by
          unfold nonTerminal at hn
          unfold terminalSeg
          cases hd : d.deref s.tok with
          | none => simp [hd] at hn
          | some t =>
            simp only [hd] at hn ⊢
            by_cases hl : t.segments.length > 1
            · simp only [hl, if_true, Option.some.injEq] at hn
              have : ¬ t.segments.length ≤ 1 := by omega
              simp [← hn, this]
            · simp only [hl, if_false] at hn
              have : t.segments.length ≤ 1 := by omega
              cases he : t.text with
              | nil => simp [he] at hn
              | cons w ws =>
                simp only [he, Option.some.injEq] at hn
                simp [this, ← hn, isJp]
        cases nt with
        | false =>
          simp only [hn, Bool.true_and, Bool.not_false, if_true] at hx
          simp only [List.dropWhile_cons, ht, Bool.not_false, if_true]
          exact ih x hx
        | true =>
          simp only [List.dropWhile_cons, ht, Bool.not_true, Bool.false_eq_true, if_false]
          refine after (s :: ss) x ?_
          unfold subLoop
          simpa [hn] using hx
  unfold tokenToPos at h
  cases hd : d.deref r with
  | none => simp [hd] at h
  | some t =>
    simp only [hd] at h
    cases hs : subLoop d (tokenToPos d n) t.segments true with
    | none => simp [hs] at h
    | some x =>
      simp only [hs, textSliceToString_eq, Option.map_some, Option.some.injEq] at h
      obtain ⟨os, h1, rfl⟩ := before _ _ hs
      exact ⟨t, os, rfl, h1, h.symm⟩

/-! ### Recalculation -/

/-- C19: recalculating twice is recalculating once (the whole dictionary value is unchanged). -/
theorem C19_calc_idempotent (d d' : Dictionary F D) (h : calcToken d = some d') : calcToken d' = some d' := calcToken_idem h

/-- C19: `AddTokenForce` of a present word is a recalculation and reports no error. -/
theorem C19_force_present (cfg : SplitCfg) (ops : List (DictOp F)) (hl : ops.length ≤ Trie.valueLimit)
    (d : Dictionary F D) (hr : runOps cfg ops Dictionary.new = some d) (t : Bytes) (f : F) (p : Bytes)
    (hp : (absRun cfg ops).content (normText cfg t) ≠ none) :
    segAddTokenForce cfg d t f p = (calcToken d).map fun d' => (d', false) := by
  unfold segAddTokenForce
  rw [C04_add_present cfg ops hl d hr t f p hp]

end

section examples
attribute [local instance] sampleUnicode sampleUnicodeOK sampleF64 sampleF32 sampleNarrow sampleLaws

/-- A dictionary with nested words: "ab c d" contains "ab c" and "d". -/
def nestOps : List (DictOp Int) :=
  [.add (str "ab") 20 (str "n"), .add (str "ab c") 900 (str "v"), .add (str "c") 2 [], .add (str " d") 7 [],
   .add (str "ab c d") 1000 (str "a"), .recalc]

/-- The sub-segments of the nested words. -/
example : ((runOps (D := Int) {} nestOps Dictionary.new).map fun d => d.tokens.map fun t => t.segments.map fun s => (s.start, s.stop)) =
    some [[], [(0, 2), (2, 3), (3, 4)], [], [(0, 1), (1, 2)], [(0, 4), (4, 6)]] := by decide +kernel

example : ((runOps (D := Int) {} nestOps Dictionary.new).bind fun d => segSlice {} d 10 (str "ab c d!") true) =
    some [str "ab c", str " d", str "ab c d", str "!"] := by decide +kernel
example : ((runOps (D := Int) {} nestOps Dictionary.new).bind fun d => segString {} d 10 (str "ab c d!") false) =
    some (str "ab c d/a !/x ") := by decide +kernel

end examples
end Gse
