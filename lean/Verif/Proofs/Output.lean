import Verif.Model.Output
import Verif.Proofs.Path
import Verif.Props.Segment

/-! Output functions: joins, sub-segments, recursive expansion. -/

namespace Gse

set_option linter.unusedSectionVars false
open Spec Trie

theorem goCopy_fit (done s : Bytes) (k : Nat) (h : s.length ≤ k) :
    goCopy (done ++ List.replicate k 0) done.length s = some (done ++ s ++ List.replicate (k - s.length) 0, s.length) := by
  unfold goCopy
  rw [if_neg (by simp)]
  have : min ((done ++ List.replicate k (0 : UInt8)).length - done.length) s.length = s.length := by simp; omega
  simp only [this]
  simp [List.drop_append]

theorem joinLoop_eq (ss : List Bytes) : ∀ (done : Bytes) (k : Nat), k = ss.flatten.length →
    joinLoop ss (done ++ List.replicate k 0) done.length = some (done ++ ss.flatten) := by
  induction ss with
  | nil => intro done k hk; simp at hk; subst hk; simp [joinLoop]
  | cons s ss ih =>
    intro done k hk
    simp only [List.flatten_cons, List.length_append] at hk
    simp only [joinLoop, Option.bind_eq_bind]
    rw [goCopy_fit _ _ _ (by omega)]
    simp only [Option.bind_some]
    have := ih (done ++ s) (k - s.length) (by omega)
    rw [List.length_append] at this
    rw [this]
    simp

theorem foldl_len (l : List Bytes) (n : Nat) : l.foldl (fun n w => n + w.length) n = n + l.flatten.length := by
  induction l generalizing n with
  | nil => simp
  | cons a l ih => simp only [List.foldl_cons]; rw [ih]; simp only [List.flatten_cons, List.length_append]; omega

theorem join_eq (text : List Bytes) : join text = some text.flatten := by
  unfold join
  split
  · rfl
  · simp
  · simp
  · simp
  · rename_i a rest _ _ _
    dsimp only
    rw [foldl_len, Nat.zero_add]
    have h := goCopy_fit [] a (a :: rest).flatten.length (by simp)
    simp only [List.nil_append, List.length_nil] at h
    rw [h]
    simp only [Option.bind_eq_bind, Option.bind_some]
    rw [joinLoop_eq rest a _ (by simp)]
    simp

theorem textSliceToString_eq (text : List Bytes) : textSliceToString text = some text.flatten := join_eq text

/-! ### Equals -/

theorem equalsWord_spec (str : Bytes) : ∀ (w : Bytes) (i : Nat), i + w.length ≤ str.length →
    equalsWord str w i = some (if slice str i (i + w.length) = w then some (i + w.length) else none) := by
  intro w
  induction w with
  | nil => intro i _; simp [equalsWord, slice]
  | cons b bs ih =>
    intro i hi
    simp only [List.length_cons] at hi
    have hi' : i < str.length := by omega
    simp only [equalsWord, List.getElem?_eq_getElem hi']
    have hs : slice str i (i + (b :: bs).length) = str[i] :: slice str (i + 1) (i + 1 + bs.length) := by
      simp only [slice, List.length_cons]
      rw [List.drop_eq_getElem_cons hi']
      have e1 : i + (bs.length + 1) - i = bs.length + 1 := by omega
      have e2 : i + 1 + bs.length - (i + 1) = bs.length := by omega
      rw [e1, e2, List.take_succ_cons]
    rw [hs]
    by_cases hb : b = str[i]
    · subst hb
      simp only [ne_eq, not_true_eq_false, if_false]
      rw [ih (i + 1) (by omega)]
      have : i + 1 + bs.length = i + (str[i] :: bs).length := by simp; omega
      simp only [this, List.cons.injEq, true_and]
    · simp only [ne_eq, hb, not_false_eq_true, if_true, List.cons.injEq]
      rw [if_neg (by intro h; exact hb h.1.symm)]

theorem equalsLoop_spec (str : Bytes) : ∀ (ws : List Bytes) (i : Nat), i + ws.flatten.length = str.length →
    equalsLoop str ws i = some (decide (str.drop i = ws.flatten)) := by
  intro ws
  induction ws with
  | nil => intro i hi; simp at hi; subst hi; simp [equalsLoop]
  | cons w ws ih =>
    intro i hi
    simp only [List.flatten_cons, List.length_append] at hi
    simp only [equalsLoop]
    rw [equalsWord_spec str w i (by omega)]
    have hsplit : str.drop i = slice str i (i + w.length) ++ str.drop (i + w.length) := by
      rw [slice, Nat.add_sub_cancel_left, ← List.drop_drop, List.take_append_drop]
    have hl : (slice str i (i + w.length)).length = w.length := by rw [slice_length _ _ _ (by omega)]; omega
    by_cases h : slice str i (i + w.length) = w
    · rw [if_pos h]
      simp only
      rw [ih _ (by omega), hsplit, h]
      simp
    · rw [if_neg h]
      simp only [Option.some.injEq]
      symm
      rw [decide_eq_false_iff_not, hsplit]
      intro e
      exact h (List.append_inj e hl).1

theorem tokenEquals_eq (text : List Bytes) (str : Bytes) : tokenEquals text str = some (decide (text.flatten = str)) := by
  unfold tokenEquals
  rw [textSliceByteLen_eq]
  split
  · rename_i h
    simp only [Option.some.injEq]; symm
    rw [decide_eq_false_iff_not]
    rintro rfl; exact h rfl
  · rename_i h
    have h : text.flatten.length = str.length := by omega
    rw [equalsLoop_spec str text 0 (by omega)]
    simp [eq_comm]

/-! ### Sub-segments over histories -/

variable {F D : Type} [F64 F] [F32 D] [Narrow F D] [Unicode]

/-- What sub-segments look like at any time. -/
structure SubOK (d : Dictionary F D) (t : Token F D) (s : Seg) : Prop where
  ok : ∃ t', d.deref s.tok = some t' ∧ t'.text ≠ [] ∧ t'.text.length < t.text.length ∧
    s.start < s.stop ∧ t'.text.flatten = slice t.text.flatten s.start s.stop ∧ s.stop ≤ t.text.flatten.length

/-- Invariant of every reachable dictionary. -/
def SubInv (d : Dictionary F D) : Prop := ∀ t ∈ d.tokens, ∀ s ∈ t.segments, SubOK d t s

theorem filterOpt_some {α : Type} {p : α → Option Bool} {l r : List α} (h : filterOpt p l = some r) :
    ∃ bs, mapOpt p l = some bs ∧ r = ((l.zip bs).filter (·.2)).map (·.1) := by
  induction l generalizing r with
  | nil => simp [filterOpt] at h; subst h; exact ⟨[], rfl, rfl⟩
  | cons a l ih =>
    simp only [filterOpt, Option.bind_eq_bind, Option.bind_eq_some_iff] at h
    obtain ⟨b, hb, r', hr', e⟩ := h
    obtain ⟨bs, h1, h2⟩ := ih hr'
    refine ⟨b :: bs, by simp [mapOpt, hb, h1], ?_⟩
    simp at e
    subst e
    cases b <;> simp [h2]

theorem filterOpt_sub {α : Type} {p : α → Option Bool} {l r : List α} (h : filterOpt p l = some r) :
    r.Sublist l ∧ ∀ a ∈ r, p a = some true := by
  induction l generalizing r with
  | nil => simp [filterOpt] at h; subst h; simp
  | cons a l ih =>
    simp only [filterOpt, Option.bind_eq_bind, Option.bind_eq_some_iff] at h
    obtain ⟨b, hb, r', hr', e⟩ := h
    obtain ⟨h1, h2⟩ := ih hr'
    simp at e
    subst e
    cases b with
    | true => exact ⟨by simpa using h1, by simpa [hb] using h2⟩
    | false => exact ⟨by simpa using h1.cons a, by simpa using h2⟩

/-- `keepSub` on a token. -/
theorem keepSub_eq {d : Dictionary F D} {s : Seg} {t : Token F D} (h : d.deref s.tok = some t) :
    keepSub d s = some (decide (t.text ≠ []) && !(decide (t.text.length = 1) && (t.text.head?.map isJp).getD false)) := by
  unfold keepSub
  simp only [h, Option.bind_eq_bind, Option.bind_some]
  match t.text with
  | [] => simp
  | [w] => simp
  | a :: b :: r => simp

/-- The pieces of a token's own text in search mode are strictly shorter than the token. -/
theorem pieces_shorter {d : Dictionary F D} {ws : List Bytes} {ts : List (Token F D)} (h : IsSegmentation d ws ts)
    (h2 : 2 ≤ ts.length) : ∀ t ∈ ts, t.text.length < ws.length := by
  intro t ht
  obtain ⟨a, b, rfl⟩ := List.append_of_mem ht
  have hlen : ws.length = (wordsOf a).length + t.text.length + (wordsOf b).length := by
    rw [← h.1]; simp [wordsOf]; omega
  have hne : ∀ l : List (Token F D), (∀ x ∈ l, x ∈ a ++ t :: b) → l ≠ [] → 0 < (wordsOf l).length := by
    intro l hl hn
    obtain ⟨x, l', rfl⟩ := List.exists_cons_of_ne_nil hn
    have := List.length_pos_iff.2 (h.2 x (hl x (by simp))).1
    simp [wordsOf]; omega
  by_cases ha : a = []
  · have hb : b ≠ [] := by rintro rfl; subst ha; simp at h2
    have := hne b (by intro x hx; simp [hx]) hb
    omega
  · have := hne a (by intro x hx; simp [hx]) ha
    omega

theorem tiles_mem {p q : Nat} {segs : List Seg} (h : Tiles p q segs) : ∀ s ∈ segs, p ≤ s.start ∧ s.start < s.stop ∧ s.stop ≤ q := by
  have hle : ∀ {p q : Nat} {segs : List Seg}, Tiles p q segs → p ≤ q := by
    intro p q segs h
    induction h with
    | nil => omega
    | cons _ _ _ ih => omega
  induction h with
  | nil => simp
  | cons h1 h2 h3 ih =>
    intro s hs
    have := hle h3
    rcases List.mem_cons.1 hs with rfl | hs
    · omega
    · have := ih s hs; omega

/-- Recalculation: what each token's sub-segments are. -/
theorem calc_token [UnicodeOK] {cfg : SplitCfg} {d : Dictionary F D} (hwf : d.WF cfg) {d' : Dictionary F D} (h : calcToken d = some d') :
    ∀ t' ∈ d'.tokens, (t'.text.length ≤ 1 ∧ t'.segments = []) ∨
      ∃ segs ts, 2 ≤ ts.length ∧ IsSegmentation (withDistances d) t'.text ts ∧
        List.Forall₂ (fun (g : Seg) t => (withDistances d).deref g.tok = some t ∧ g.stop = g.start + t.text.flatten.length) segs ts ∧
        Tiles 0 t'.text.flatten.length segs ∧
        filterOpt (keepSub (withDistances d)) segs = some t'.segments := by
  have hwf1 := withDistances_wf hwf
  simp only [calcToken, Option.bind_eq_bind, Option.bind_eq_some_iff] at h
  obtain ⟨toks, hts, e⟩ := h
  simp at e
  subst e
  have hf := mapOpt_some hts
  intro t' ht'
  obtain ⟨i, hi⟩ := List.mem_iff_getElem?.1 ht'
  simp only at hi
  have hi1 : i < toks.length := (List.getElem?_eq_some_iff.1 hi).1
  have hi2 : i < (withDistances d).tokens.length := by rw [hf.length_eq]; exact hi1
  have hfi : ∃ t, t ∈ (withDistances d).tokens ∧ ((segmentWords (some (withDistances d)) t.text true).bind fun segs =>
      (filterOpt (keepSub (withDistances d)) segs).bind fun kept => some { t with segments := kept }) = some t' := by
    refine ⟨(withDistances d).tokens[i], List.getElem_mem hi2, ?_⟩
    have := List.forall₂_iff_get.1 hf
    have h1 := this.2 i hi2 hi1
    simp only [List.get_eq_getElem] at h1
    have h2 : toks[i] = t' := (List.getElem?_eq_some_iff.1 hi).2
    rw [h2] at h1
    exact h1
  obtain ⟨t, ht, hb⟩ := hfi
  simp only [Option.bind_eq_some_iff] at hb
  obtain ⟨segs, hs, kept, hk, e⟩ := hb
  simp at e
  have hsplit : IsSplitText cfg t.text := by obtain ⟨s, hs⟩ := hwf1.split t ht; exact ⟨s, hs.symm⟩
  have htx : t'.text = t.text := by rw [← e]
  have hks : t'.segments = kept := by rw [← e]
  rw [htx, hks]
  by_cases hl : t.text.length = 1
  · left
    rw [segmentWords, if_pos (by simp [hl])] at hs
    simp at hs; subst hs
    simp [filterOpt] at hk
    exact ⟨by omega, hk⟩
  · obtain ⟨segs', ts, h1, h2, h3, h4, _, h6, h7, h8⟩ := segmentWords_spec hwf1.coh hsplit (sm := true) (by simp [hl])
    rw [hs] at h1
    cases h1
    by_cases h0 : t.text.length = 0
    · left
      have : t.text = [] := List.length_eq_zero_iff.1 h0
      rw [this] at h6
      simp at h6
      cases h6 with
      | nil => simp [filterOpt] at hk; exact ⟨by omega, hk⟩
      | cons a b c => exfalso; have := tiles_mem (Tiles.cons a b c) _ (List.mem_cons_self ..); omega
    · right
      refine ⟨segs, ts, h8 rfl (by omega), h4, ?_, h6, hk⟩
      exact forall_deref h2 h3 h7


theorem SameCore.deref {d d' : Dictionary F D} (h : SameCore d d') {r : TokRef} {t : Token F D} (ht : d.deref r = some t) :
    ∃ t', d'.deref r = some t' ∧ t'.text = t.text ∧ t'.freq = t.freq ∧ t'.pos = t.pos := by
  cases r with
  | idx i => exact h.get_some ht
  | pseudo w => exact ⟨t, ht, rfl, rfl, rfl⟩

theorem subInv_calc [UnicodeOK] {cfg : SplitCfg} {d : Dictionary F D} (hwf : d.WF cfg) {d' : Dictionary F D} (h : calcToken d = some d') :
    SubInv d' := by
  have hsame : SameCore (withDistances d) d' := (withDistances_same d).symm.trans (calcToken_same h)
  intro t' ht' s hs
  rcases calc_token hwf h t' ht' with ⟨_, h1⟩ | ⟨segs, ts, h1, h2, h3, h4, h5⟩
  · rw [h1] at hs; simp at hs
  · have hsub := filterOpt_sub h5
    have hsm : s ∈ segs := hsub.1.subset hs
    obtain ⟨t, ht, hd, htx⟩ := tiles_text h3 (pre := []) rfl h4 s hsm
    obtain ⟨t2, hd2, htx2, _⟩ := hsame.deref hd
    have := tiles_mem h4 s hsm
    rw [List.nil_append, h2.1] at htx
    exact ⟨t2, hd2, by rw [htx2]; exact (h2.2 t ht).1, by rw [htx2]; exact pieces_shorter h2 h1 t ht, this.2.1, by rw [htx2, htx], this.2.2⟩

theorem subOK_mono {d d' : Dictionary F D} (h : ∀ r t, d.deref r = some t → d'.deref r = some t) {t : Token F D} {s : Seg}
    (hs : SubOK d t s) : SubOK d' t s := by
  obtain ⟨t', h1, h2⟩ := hs.ok
  exact ⟨t', h _ _ h1, h2⟩

theorem addToken_deref (d : Dictionary F D) (tok : Token F D) : ∀ r t, d.deref r = some t → (d.addToken tok).1.deref r = some t := by
  intro r t h
  unfold Dictionary.addToken
  dsimp only
  split
  · exact h
  · split
    · exact h
    · cases r with
      | pseudo w => exact h
      | idx i =>
        simp only [Dictionary.deref] at h ⊢
        rw [List.getElem?_append_left (List.getElem?_eq_some_iff.1 h).1, h]

theorem addToken_mem (d : Dictionary F D) (tok : Token F D) : ∀ t ∈ (d.addToken tok).1.tokens, t ∈ d.tokens ∨ t = tok := by
  unfold Dictionary.addToken
  dsimp only
  split
  · intro t h; exact .inl h
  · split
    · intro t h; exact .inl h
    · intro t h
      simp at h
      exact h

theorem subInv_add {d : Dictionary F D} (h : SubInv d) (tok : Token F D) (ht : tok.segments = []) : SubInv (d.addToken tok).1 := by
  intro t hm s hs
  rcases addToken_mem d tok t hm with hm | rfl
  · exact subOK_mono (addToken_deref d tok) (h t hm s hs)
  · rw [ht] at hs; simp at hs

theorem removeToken_tokens {d d' : Dictionary F D} {tok : Token F D} {e : Bool} (h : d.removeToken tok = some (d', e)) :
    d'.tokens = d.tokens := by
  unfold Dictionary.removeToken at h
  split at h
  · simp at h; rw [← h.1]
  · simp at h; rw [← h.1]
  · simp at h

theorem subInv_tokens {d d' : Dictionary F D} (h : SubInv d) (e : d'.tokens = d.tokens) : SubInv d' := by
  intro t hm s hs
  rw [e] at hm
  refine subOK_mono ?_ (h t hm s hs)
  intro r t hr
  cases r with
  | pseudo w => exact hr
  | idx i => simpa [Dictionary.deref, e] using hr

theorem subInv_step [UnicodeOK] {cfg : SplitCfg} {d d' : Dictionary F D} (hwf : d.WF cfg) (h : SubInv d) {op : DictOp F}
    (hs : op.step cfg d = some d') : SubInv d' := by
  cases op with
  | add t f p =>
    simp [DictOp.step] at hs
    subst hs
    exact subInv_add h _ rfl
  | addForce t f p =>
    simp only [DictOp.step, segAddTokenForce, Option.map_map, Option.map_eq_some_iff] at hs
    obtain ⟨d2, h1, h2⟩ := hs
    simp at h2; subst h2
    exact subInv_calc (Dictionary.wf_addToken hwf _ ⟨t, rfl⟩) h1
  | remove t =>
    simp only [DictOp.step, segRemoveToken, Option.map_eq_some_iff] at hs
    obtain ⟨⟨d2, e⟩, h1, h2⟩ := hs
    simp at h2; subst h2
    exact subInv_tokens h (removeToken_tokens h1)
  | reAdd t f p =>
    simp only [DictOp.step, segReAddToken, Option.map_eq_some_iff] at hs
    obtain ⟨⟨d2, e⟩, h1, h2⟩ := hs
    simp at h2; subst h2
    cases hr : d.removeToken (toToken cfg t f p) with
    | none => simp [hr] at h1
    | some x =>
      obtain ⟨d3, e3⟩ := x
      have h3 := subInv_tokens h (removeToken_tokens hr)
      rw [hr] at h1
      cases e3 with
      | true => simp at h1; rw [← h1.1]; exact h3
      | false =>
        simp at h1
        have : d2 = (d3.addToken (toToken cfg t f p)).1 := by rw [h1]
        rw [this]
        exact subInv_add h3 _ rfl
  | recalc => exact subInv_calc hwf hs

theorem subInv_run [UnicodeOK] {cfg : SplitCfg} (ops : List (DictOp F)) : ∀ {d d' : Dictionary F D}, d.WF cfg → SubInv d →
    runOps cfg ops d = some d' → SubInv d' := by
  induction ops with
  | nil => intro d d' _ h hr; simp [runOps] at hr; subst hr; exact h
  | cons op ops ih =>
    intro d d' hwf h hr
    simp only [runOps, Option.bind_eq_some_iff] at hr
    obtain ⟨d1, h1, h2⟩ := hr
    exact ih (wf_step hwf h1) (subInv_step hwf h h1) h2

theorem subInv_reachable [UnicodeOK] {cfg : SplitCfg} {ops : List (DictOp F)} {d : Dictionary F D}
    (hr : runOps cfg ops Dictionary.new = some d) : SubInv d :=
  subInv_run ops (Dictionary.wf_new cfg) (by intro t ht; simp [Dictionary.new] at ht) hr

theorem deref_segments {d : Dictionary F D} (h : SubInv d) {r : TokRef} {t : Token F D} (hr : d.deref r = some t) :
    ∀ s ∈ t.segments, SubOK d t s := by
  cases r with
  | idx i => exact h t (List.mem_of_getElem? hr)
  | pseudo w =>
    simp [Dictionary.deref] at hr
    subst hr
    simp

/-! ### Expansion -/

theorem subLoop_total {α : Type} {d : Dictionary F D} {rec : TokRef → Option (List α)} {t : Token F D} : ∀ (segs : List Seg) (only : Bool),
    (∀ s ∈ segs, SubOK d t s ∧ ∃ o, rec s.tok = some o) → ∃ o, subLoop d rec segs only = some o := by
  intro segs
  induction segs with
  | nil => intro only _; exact ⟨[], rfl⟩
  | cons s ss ih =>
    intro only h
    obtain ⟨hs, o, ho⟩ := h s (by simp)
    obtain ⟨t', h1, h2, _⟩ := hs.ok
    have hnt : ∃ nt, nonTerminal d s = some nt := by
      unfold nonTerminal
      rw [h1]
      simp only
      split
      · exact ⟨_, rfl⟩
      · obtain ⟨w, r, e⟩ := List.exists_cons_of_ne_nil h2
        rw [e]; exact ⟨_, rfl⟩
    obtain ⟨nt, hnt⟩ := hnt
    unfold subLoop
    rw [hnt]
    simp only
    split
    · exact ih true fun x hx => h x (by simp [hx])
    · rw [ho]
      obtain ⟨o', ho'⟩ := ih false fun x hx => h x (by simp [hx])
      exact ⟨o ++ o', by simp [ho']⟩

theorem tokenToSlice_total {d : Dictionary F D} (h : SubInv d) : ∀ (n : Nat) (r : TokRef) (t : Token F D), d.deref r = some t →
    t.text.length < n → ∃ o, tokenToSlice d n r = some o := by
  intro n
  induction n with
  | zero => intro r t _ hn; omega
  | succ n ih =>
    intro r t hr hn
    obtain ⟨o, ho⟩ := subLoop_total (d := d) (rec := tokenToSlice d n) (t := t) t.segments true (by
      intro s hs
      have hok := deref_segments h hr s hs
      obtain ⟨t', h1, _, h3, _⟩ := hok.ok
      exact ⟨hok, ih _ _ h1 (by omega)⟩)
    exact ⟨o ++ [t.text.flatten], by simp [tokenToSlice, hr, ho, textSliceToString_eq]⟩

theorem subLoop_map {α β : Type} {d : Dictionary F D} (g : α → List β) {rec : TokRef → Option (List α)} {rec' : TokRef → Option (List β)}
    (h : ∀ r, rec' r = (rec r).map fun o => o.flatMap g) : ∀ (segs : List Seg) (only : Bool),
    subLoop d rec' segs only = (subLoop d rec segs only).map fun o => o.flatMap g := by
  intro segs
  induction segs with
  | nil => intro only; rfl
  | cons s ss ih =>
    intro only
    unfold subLoop
    cases nonTerminal d s with
    | none => rfl
    | some nt =>
      simp only
      split
      · exact ih true
      · rw [h s.tok]
        cases rec s.tok with
        | none => rfl
        | some o =>
          simp only [Option.map_some]
          rw [ih false]
          cases subLoop d rec ss false <;> simp

theorem tokenToSlice_eq_pos (d : Dictionary F D) : ∀ n r, tokenToSlice d n r = (tokenToPos d n r).map fun o => o.flatMap fun p => [p.text] := by
  intro n
  induction n with
  | zero => intro r; rfl
  | succ n ih =>
    intro r
    unfold tokenToSlice tokenToPos
    cases d.deref r with
    | none => rfl
    | some t =>
      simp only
      rw [subLoop_map (fun p : SegPos => [p.text]) (rec := tokenToPos d n) ih]
      cases subLoop d (tokenToPos d n) t.segments true with
      | none => rfl
      | some o => simp [textSliceToString_eq]

theorem tokenToString_eq_pos (d : Dictionary F D) : ∀ n r, tokenToString d n r = (tokenToPos d n r).map fun o => o.flatMap fun p => slashed p.text p.pos := by
  intro n
  induction n with
  | zero => intro r; rfl
  | succ n ih =>
    intro r
    unfold tokenToString tokenToPos
    cases d.deref r with
    | none => rfl
    | some t =>
      simp only
      rw [subLoop_map (fun p : SegPos => slashed p.text p.pos) (rec := tokenToPos d n) ih]
      cases subLoop d (tokenToPos d n) t.segments true with
      | none => rfl
      | some o => simp [textSliceToString_eq]

theorem concatOpt_map {α β : Type} (g : α → List β) {f : Seg → Option (List α)} {f' : Seg → Option (List β)}
    (h : ∀ s, f' s = (f s).map fun o => o.flatMap g) (segs : List Seg) :
    concatOpt f' segs = (concatOpt f segs).map fun o => o.flatMap g := by
  induction segs with
  | nil => rfl
  | cons s ss ih =>
    unfold concatOpt
    rw [h s]
    cases f s with
    | none => rfl
    | some o =>
      simp only [Option.map_some]
      rw [ih]
      cases concatOpt f ss <;> simp

theorem subLoop_mem {α : Type} {d : Dictionary F D} {rec : TokRef → Option (List α)} : ∀ (segs : List Seg) (only : Bool) (o : List α),
    subLoop d rec segs only = some o → ∀ x ∈ o, ∃ s ∈ segs, ∃ o', rec s.tok = some o' ∧ x ∈ o' := by
  intro segs
  induction segs with
  | nil => intro only o h x hx; simp [subLoop] at h; subst h; simp at hx
  | cons s ss ih =>
    intro only o h x hx
    unfold subLoop at h
    cases hnt : nonTerminal d s with
    | none => rw [hnt] at h; simp at h
    | some nt =>
      rw [hnt] at h
      simp only at h
      split at h
      · obtain ⟨s', h1, h2⟩ := ih true o h x hx
        exact ⟨s', by simp [h1], h2⟩
      · cases hr : rec s.tok with
        | none => rw [hr] at h; simp at h
        | some o1 =>
          rw [hr] at h
          simp only [Option.map_eq_some_iff] at h
          obtain ⟨o2, h1, rfl⟩ := h
          rcases List.mem_append.1 hx with hx | hx
          · exact ⟨s, by simp, o1, hr, hx⟩
          · obtain ⟨s', h3, h4⟩ := ih false o2 h1 x hx
            exact ⟨s', by simp [h3], h4⟩

theorem slice_infix {α : Type} (l : List α) (a b : Nat) : slice l a b <:+: l := by
  unfold slice
  exact (List.take_prefix _ _).isInfix.trans (List.drop_suffix _ _).isInfix

theorem tokenToSlice_parts {d : Dictionary F D} (h : SubInv d) : ∀ (n : Nat) (r : TokRef) (t : Token F D) (o : List Bytes),
    d.deref r = some t → tokenToSlice d n r = some o → ∃ pre, o = pre ++ [t.text.flatten] ∧ ∀ x ∈ pre, x <:+: t.text.flatten := by
  intro n
  induction n with
  | zero => intro r t o _ h1; simp [tokenToSlice] at h1
  | succ n ih =>
    intro r t o hr h1
    unfold tokenToSlice at h1
    rw [hr] at h1
    simp only [textSliceToString_eq, Option.map_some] at h1
    cases hs : subLoop d (tokenToSlice d n) t.segments true with
    | none => rw [hs] at h1; simp at h1
    | some pre =>
      rw [hs] at h1
      simp at h1
      refine ⟨pre, h1.symm, ?_⟩
      intro x hx
      obtain ⟨s, hsm, o', h2, h3⟩ := subLoop_mem _ _ _ hs x hx
      obtain ⟨t', h4, _, _, _, h5, _⟩ := (deref_segments h hr s hsm).ok
      obtain ⟨pre', h6, h7⟩ := ih _ _ _ h4 h2
      have hin : t'.text.flatten <:+: t.text.flatten := by rw [h5]; exact slice_infix _ _ _
      rw [h6] at h3
      rcases List.mem_append.1 h3 with h3 | h3
      · exact (h7 x h3).trans hin
      · simp at h3; subst h3; exact hin

/-! ### Recalculation twice -/

/-- Agreement on everything the path search reads. -/
structure SameTD (d d' : Dictionary F D) : Prop where
  trie : d'.trie = d.trie
  maxLen : d'.maxTokenLen = d.maxTokenLen
  get : ∀ i : Nat, (d'.tokens[i]?).map (fun t : Token F D => (t.text, t.distance)) = (d.tokens[i]?).map fun t : Token F D => (t.text, t.distance)

theorem SameTD.cases {d d' : Dictionary F D} (h : SameTD d d') (i : Nat) :
    (d.tokens[i]? = none ∧ d'.tokens[i]? = none) ∨
    ∃ t t', d.tokens[i]? = some t ∧ d'.tokens[i]? = some t' ∧ t'.text = t.text ∧ t'.distance = t.distance := by
  have := h.get i
  cases h1 : d.tokens[i]? with
  | none =>
    rw [h1] at this
    simp only [Option.map_none, Option.map_eq_none_iff] at this
    exact .inl ⟨rfl, this⟩
  | some t =>
    rw [h1] at this
    simp only [Option.map_some, Option.map_eq_some_iff] at this
    obtain ⟨t', h2, h3⟩ := this
    simp at h3
    exact .inr ⟨t, t', rfl, h2, h3⟩

theorem SameTD.deref {d d' : Dictionary F D} (h : SameTD d d') (r : TokRef) :
    (d.deref r = none ∧ d'.deref r = none) ∨
    ∃ t t', d.deref r = some t ∧ d'.deref r = some t' ∧ t'.text = t.text ∧ t'.distance = t.distance := by
  cases r with
  | idx i => exact h.cases i
  | pseudo w => exact .inr ⟨_, _, rfl, rfl, rfl, rfl⟩

theorem SameTD.length {d d' : Dictionary F D} (h : SameTD d d') : d'.tokens.length = d.tokens.length := by
  apply Nat.le_antisymm
  · apply Nat.le_of_not_lt
    intro hlt
    rcases h.cases d.tokens.length with ⟨_, h2⟩ | ⟨t, t', h1, _⟩
    · simp at h2; omega
    · simp at h1
  · apply Nat.le_of_not_lt
    intro hlt
    rcases h.cases d'.tokens.length with ⟨h2, _⟩ | ⟨t, t', _, h1, _⟩
    · simp at h2; omega
    · simp at h1

theorem SameTD.lookup {d d' : Dictionary F D} (h : SameTD d d') (cap : Nat) : ∀ ws id acc, d'.lookupLoop cap ws id acc = d.lookupLoop cap ws id acc := by
  intro ws
  induction ws with
  | nil => intro id acc; rfl
  | cons w ws ih =>
    intro id acc
    unfold Dictionary.lookupLoop
    rw [h.trie, h.length]
    cases d.trie.jump w id with
    | none => rfl
    | some id' =>
      simp only
      cases d.trie.value id' with
      | none => exact ih _ _
      | some v => simp only [ih]

theorem SameTD.updateAll {d d' : Dictionary F D} (h : SameTD d d') (n : Nat) (sm : Bool) (c : Nat) (base : D) :
    ∀ vs js, updateAll d' n sm c base vs js = updateAll d n sm c base vs js := by
  intro vs
  induction vs with
  | nil => intro js; rfl
  | cons v vs ih =>
    intro js
    unfold Gse.updateAll
    rcases h.cases v with ⟨h1, h2⟩ | ⟨t, t', h1, h2, h3, h4⟩
    · rw [h1, h2]
    · rw [h1, h2]
      simp only [h3, h4, ih]

theorem SameTD.needPseudo {d d' : Dictionary F D} (h : SameTD d d') (vs : List Nat) : needPseudo d' vs = needPseudo d vs := by
  unfold Gse.needPseudo
  cases vs with
  | nil => rfl
  | cons v vs =>
    simp only
    rcases h.cases v with ⟨h1, h2⟩ | ⟨t, t', h1, h2, h3, h4⟩
    · rw [h1, h2]
    · rw [h1, h2]; simp [h3]

theorem SameTD.segLoop {d d' : Dictionary F D} (h : SameTD d d') (text : List Bytes) (sm : Bool) :
    ∀ k c js, segLoop d' text sm k c js = segLoop d text sm k c js := by
  intro k
  induction k with
  | zero => intro c js; rfl
  | succ k ih =>
    intro c js
    unfold Gse.segLoop segStep Dictionary.lookupTokens
    simp only [h.lookup, h.updateAll, h.needPseudo, h.maxLen, ih]

theorem SameTD.countSegs {d d' : Dictionary F D} (h : SameTD d d') (js : List (Jumper D)) :
    ∀ fuel n num, countSegs d' js fuel n num = countSegs d js fuel n num := by
  intro fuel
  induction fuel with
  | zero => intro n num; cases n <;> rfl
  | succ f ih =>
    intro n num
    cases n with
    | zero => rfl
    | succ n =>
      unfold Gse.countSegs
      cases js[n]? with
      | none => rfl
      | some j =>
        simp only [Option.bind_eq_bind, Option.bind_some]
        cases j.token with
        | none => rfl
        | some r =>
          simp only [Option.bind_some]
          rcases h.deref r with ⟨h1, h2⟩ | ⟨t, t', h1, h2, h3, h4⟩
          · rw [h1, h2]; rfl
          · rw [h1, h2]; simp [h3, ih]

theorem SameTD.fillSegs {d d' : Dictionary F D} (h : SameTD d d') (js : List (Jumper D)) :
    ∀ fuel n num out, fillSegs d' js fuel n num out = fillSegs d js fuel n num out := by
  intro fuel
  induction fuel with
  | zero => intro n num out; cases n <;> rfl
  | succ f ih =>
    intro n num out
    cases n with
    | zero => rfl
    | succ n =>
      unfold Gse.fillSegs
      cases js[n]? with
      | none => rfl
      | some j =>
        simp only [Option.bind_eq_bind, Option.bind_some]
        cases j.token with
        | none => rfl
        | some r =>
          simp only [Option.bind_some]
          rcases h.deref r with ⟨h1, h2⟩ | ⟨t, t', h1, h2, h3, h4⟩
          · rw [h1, h2]; rfl
          · rw [h1, h2]; simp only [Option.bind_some, h3, ih]

theorem SameTD.positions {d d' : Dictionary F D} (h : SameTD d d') : ∀ refs p, positions d' refs p = positions d refs p := by
  intro refs
  induction refs with
  | nil => intro p; rfl
  | cons r rs ih =>
    intro p
    unfold Gse.positions
    rcases h.deref r with ⟨h1, h2⟩ | ⟨t, t', h1, h2, h3, h4⟩
    · rw [h1, h2]; rfl
    · rw [h1, h2]; simp only [Option.bind_eq_bind, Option.bind_some, h3, ih]

theorem SameTD.segmentWords {d d' : Dictionary F D} (h : SameTD d d') (text : List Bytes) (sm : Bool) :
    segmentWords (some d') text sm = segmentWords (some d) text sm := by
  unfold Gse.segmentWords
  simp only [h.segLoop, h.countSegs, h.fillSegs, h.positions]

theorem SameTD.keepSub {d d' : Dictionary F D} (h : SameTD d d') : keepSub d' = keepSub d := by
  funext s
  unfold Gse.keepSub
  rcases h.deref s.tok with ⟨h1, h2⟩ | ⟨t, t', h1, h2, h3, h4⟩
  · rw [h1, h2]
  · rw [h1, h2]; simp only [Option.bind_eq_bind, Option.bind_some, h3]

theorem mapOpt_get {α β : Type} {f : α → Option β} {l : List α} {l' : List β} (h : mapOpt f l = some l') (i : Nat) :
    (l[i]? = none ∧ l'[i]? = none) ∨ ∃ a b, l[i]? = some a ∧ l'[i]? = some b ∧ f a = some b := by
  have := mapOpt_some h
  clear h
  induction this generalizing i with
  | nil => simp
  | cons h _ ih =>
    cases i with
    | zero => right; exact ⟨_, _, rfl, rfl, h⟩
    | succ i => simpa using ih i

theorem mapOpt_fix {α : Type} {f : α → Option α} {l : List α} (h : ∀ a ∈ l, f a = some a) : mapOpt f l = some l := by
  induction l with
  | nil => rfl
  | cons a l ih => simp [mapOpt, h a (by simp), ih fun x hx => h x (by simp [hx])]

theorem calcToken_idem {d d' : Dictionary F D} (h : calcToken d = some d') : calcToken d' = some d' := by
  have h0 := h
  simp only [calcToken, Option.bind_eq_bind, Option.bind_eq_some_iff] at h
  obtain ⟨toks, hts, e⟩ := h
  simp at e
  -- every new token
  have hnew : ∀ (i : Nat) (t' : Token F D), toks[i]? = some t' → ∃ t : Token F D, d.tokens[i]? = some t ∧
      ∃ segs kept, segmentWords (some (withDistances d)) t.text true = some segs ∧ filterOpt (keepSub (withDistances d)) segs = some kept ∧
      t' = { t with distance := F32.sub (Narrow.narrow (F64.log2 d.totalFreq)) (Narrow.narrow (F64.log2 t.freq)), segments := kept } := by
    intro i t' ht'
    rcases mapOpt_get hts i with ⟨_, h2⟩ | ⟨a, b, h1, h2, h3⟩
    · rw [h2] at ht'; simp at ht'
    · rw [h2] at ht'; cases ht'
      simp only [withDistances, List.getElem?_map, Option.map_eq_some_iff] at h1
      obtain ⟨t, h4, h5⟩ := h1
      refine ⟨t, h4, ?_⟩
      simp only [Option.bind_eq_some_iff] at h3
      obtain ⟨segs, h6, kept, h7, h8⟩ := h3
      subst h5
      simp at h8
      exact ⟨segs, kept, h6, h7, h8.symm⟩
  have hd'tok : d'.tokens = toks := by rw [← e]
  have hd'tot : d'.totalFreq = d.totalFreq := by rw [← e]; rfl
  have hwd : withDistances d' = d' := by
    have : (withDistances d').tokens = d'.tokens := by
      unfold withDistances
      simp only
      apply List.ext_getElem?
      intro i
      rw [List.getElem?_map]
      cases ht : d'.tokens[i]? with
      | none => rfl
      | some t' =>
        rw [hd'tok] at ht
        obtain ⟨t, _, segs, kept, _, _, e2⟩ := hnew i t' ht
        rw [e2, hd'tot]
        rfl
    cases d'
    simp [withDistances] at this ⊢
    exact this
  have hsame : SameTD (withDistances d) d' := by
    refine ⟨by rw [← e], by rw [← e], ?_⟩
    intro i
    rw [hd'tok]
    rcases mapOpt_get hts i with ⟨h1, h2⟩ | ⟨a, b, h1, h2, h3⟩
    · rw [h1, h2]
    · rw [h1, h2]
      simp only [Option.bind_eq_some_iff] at h3
      obtain ⟨segs, h6, kept, h7, h8⟩ := h3
      simp at h8
      subst h8
      rfl
  simp only [calcToken, Option.bind_eq_bind]
  rw [hwd, mapOpt_fix, Option.bind_some]
  intro t' ht'
  obtain ⟨i, hi⟩ := List.mem_iff_getElem?.1 ht'
  rw [hd'tok] at hi
  obtain ⟨t, _, segs, kept, h2, h3, e2⟩ := hnew i t' hi
  have htx : t'.text = t.text := by rw [e2]
  rw [hsame.segmentWords, htx, h2, Option.bind_some, hsame.keepSub, h3, Option.bind_some]
  rw [e2]

end Gse
