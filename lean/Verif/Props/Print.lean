import Verif.Spec.Print
import Verif.Proofs.Total
import Verif.Proofs.PosSplit
import Verif.Props.Output

/-!
# C105: what `String` prints can be read back
-/

namespace Gse
open Spec

/-! ### Reading back -/

theorem cut_at (c : UInt8) : ∀ {x y r r' : Bytes}, c ∉ x → c ∉ y → x ++ c :: r = y ++ c :: r' → x = y ∧ r = r' := by
  intro x
  induction x with
  | nil =>
    intro y r r' _ hy h
    cases y with
    | nil => simp at h; exact ⟨rfl, h⟩
    | cons b y => simp at h; exact absurd (by simp [h.1]) hy
  | cons a x ih =>
    intro y r r' hx hy h
    cases y with
    | nil => simp at h; exact absurd (by simp [h.1]) hx
    | cons b y =>
      simp at h
      obtain ⟨h1, h2⟩ := ih (fun hm => hx (by simp [hm])) (fun hm => hy (by simp [hm])) h.2
      exact ⟨by rw [h.1, h1], h2⟩

theorem word_at {x y r r' : Bytes} (hx : WordPrints x) (hy : WordPrints y) (h : x ++ 47 :: r = y ++ 47 :: r') : x = y ∧ r = r' := by
  have no : ∀ {z : Bytes} {r r' : Bytes}, WordPrints z → 47 ∉ z → [47] ++ 47 :: r = z ++ 47 :: r' → False := by
    intro z r r' hz hn h
    cases z with
    | nil => exact hz.1 rfl
    | cons b z => simp at h; exact hn (by simp [← h.1])
  rcases hx.2 with h1 | rfl <;> rcases hy.2 with h2 | rfl
  · exact cut_at 47 h1 h2 h
  · exact (no hx h1 h.symm).elim
  · exact (no hy h2 h).elim
  · simpa using h

/-- Items that can be read back. -/
def ItemPrints (p : SegPos) : Prop := WordPrints p.text ∧ TagPrints p.pos

/-- C105: the printed form of items determines them. -/
theorem C105_items : ∀ (l l' : List SegPos), (∀ p ∈ l, ItemPrints p) → (∀ p ∈ l', ItemPrints p) →
    (l.flatMap fun p => slashed p.text p.pos) = (l'.flatMap fun p => slashed p.text p.pos) → l = l' := by
  have ne : ∀ (p : SegPos) (l : List SegPos), ItemPrints p → ((p :: l).flatMap fun p => slashed p.text p.pos) ≠ [] := by
    intro p l _ h; simp [slashed, str] at h
  intro l
  induction l with
  | nil =>
    intro l' _ h' h
    cases l' with
    | nil => rfl
    | cons p l' => exact absurd h.symm (ne p l' (h' p (by simp)))
  | cons p l ih =>
    intro l' hl h' h
    cases l' with
    | nil => exact absurd h (ne p l (hl p (by simp)))
    | cons q l' =>
      have hp := hl p (by simp)
      have hq := h' q (by simp)
      have e : p.text ++ 47 :: (p.pos ++ 32 :: l.flatMap fun p => slashed p.text p.pos) =
          q.text ++ 47 :: (q.pos ++ 32 :: l'.flatMap fun p => slashed p.text p.pos) := by
        simpa [slashed, str, List.flatMap_cons] using h
      obtain ⟨e1, e2⟩ := word_at hp.1 hq.1 e
      obtain ⟨e3, e4⟩ := cut_at 32 hp.2 hq.2 e2
      rw [ih l' (fun x hx => hl x (by simp [hx])) (fun x hx => h' x (by simp [hx])) e4]
      congr 1
      cases p; cases q; simp_all

/-- C105: `PosStr` with a blank between the items determines them too. -/
theorem C105_posStr (l l' : List SegPos) (h : ∀ p ∈ l, ItemPrints p) (h' : ∀ p ∈ l', ItemPrints p)
    (e : posStr false l (str " ") = posStr false l' (str " ")) : l = l' := by
  have key : ∀ l : List SegPos, l ≠ [] → posStr false l (str " ") ++ [32] = l.flatMap fun p => slashed p.text p.pos := by
    intro l
    rw [C38_posStr]
    simp only [Bool.false_eq_true, if_false]
    induction l with
    | nil => intro h; exact absurd rfl h
    | cons p l ih =>
      intro _
      cases l with
      | nil => simp [slashed, str]
      | cons q l =>
        have := ih (by simp)
        rw [List.flatMap_cons, ← this]
        simp [slashed, str, List.intercalate_cons_cons]
  have ne : ∀ l : List SegPos, l ≠ [] → posStr false l (str " ") ≠ [] := by
    intro l hl
    rw [C38_posStr]
    cases l with
    | nil => exact absurd rfl hl
    | cons p l =>
      cases l with
      | nil => simp [str]
      | cons q l => simp [str, List.intercalate_cons_cons]
  by_cases h1 : l = []
  · by_cases h2 : l' = []
    · rw [h1, h2]
    · subst h1
      exact absurd (e.symm.trans (by simp [posStr])) (ne l' h2)
  · by_cases h2 : l' = []
    · subst h2
      exact absurd (e.trans (by simp [posStr])) (ne l h1)
    · exact C105_items l l' h h' (by rw [← key l h1, ← key l' h2, e])

/-! ### Items of a segmentation -/

section items
variable {F D : Type} [F64 F] [F32 D] [Narrow F D] [Unicode]

theorem split_prints (hu : SlashPlain) (cfg : SplitCfg) (s w : Bytes) (h : w ∈ splitTextToWords cfg s) : WordPrints w := by
  refine ⟨C02_words_nonempty cfg s w h, ?_⟩
  by_cases hm : 47 ∈ w
  · right
    obtain ⟨gs, hg, e⟩ := C02_split_spec cfg s
    rw [e] at h
    obtain ⟨g, h1, rfl⟩ := List.mem_map.1 h
    obtain ⟨u, h2, h3⟩ := List.mem_flatMap.1 hm
    have hu1 : 47 ∈ u := by
      unfold normChar at h3
      split at h3
      · obtain ⟨b, h4, h5⟩ := List.mem_map.1 h3
        have : b = 47 := by
          unfold lowerAscii at h5
          split at h5
          · rename_i hb
            have h6 := congrArg UInt8.toNat h5
            rw [UInt8.toNat_add] at h6
            have : (32 : UInt8).toNat = 32 := rfl
            have : (47 : UInt8).toNat = 47 := rfl
            omega
          · exact h5
        rwa [← this]
      · exact h3
    have hin : u ∈ chars s := by rw [← hg.cover]; exact List.mem_flatten.2 ⟨g, h1, h2⟩
    have hc : chars u = [u] := by
      obtain ⟨a, b, e⟩ := List.append_of_mem hin
      have := chars_append_right (p := s) (a := a) (b := u :: b) e
      have := chars_append_left (p := (u :: b).flatten) (a := [u]) (b := b) (by simpa using this)
      simpa using this
    have := mem_chars_ascii hu1 (by decide)
    rw [hc] at this
    have hu2 : u = [47] := (List.mem_singleton.1 this).symm
    have hw : wordChar cfg u = false := by
      subst hu2
      have : charRune [47] = 47 := charRune_ascii 47 (by decide)
      simp [wordChar, this, hu.1, hu.2]
    rcases hg.kind g h1 with ⟨v, rfl, _⟩ | ⟨_, h4, _⟩
    · have : u = v := by simpa using h2
      subst this
      rw [List.flatMap_cons, List.flatMap_nil, List.append_nil, normChar, if_neg (by simp [hw]), hu2]
    · rw [h4 u h2] at hw; cases hw
  · exact .inl hm

/-- Every token of the table prints. -/
def TableInv (d : Dictionary F D) : Prop := ∀ t ∈ d.tokens, (47 ∉ t.text.flatten ∨ t.text.flatten = [47]) ∧ TagPrints t.pos

omit [F64 F] [F32 D] [Narrow F D] [Unicode] in
theorem tableInv_same {d d' : Dictionary F D} (h : TableInv d) (s : SameCore d d') : TableInv d' := by
  intro t ht
  have : t.core ∈ d'.tokens.map Token.core := List.mem_map_of_mem ht
  rw [s.tokens] at this
  obtain ⟨u, hu, e⟩ := List.mem_map.1 this
  simp [Token.core] at e
  have := h u hu
  rwa [e.1, e.2.2] at this

theorem tableInv_add {d : Dictionary F D} (h : TableInv d) (t : Token F D) (ht : (47 ∉ t.text.flatten ∨ t.text.flatten = [47]) ∧ TagPrints t.pos) :
    TableInv (d.addToken t).1 := by
  intro u hu
  rcases addToken_mem d t u hu with h1 | rfl
  · exact h u h1
  · exact ht

omit [F64 F] [F32 D] [Narrow F D] [Unicode] in
theorem tableInv_remove {d : Dictionary F D} (h : TableInv d) (t : Token F D) {r : Dictionary F D × Bool} (hr : d.removeToken t = some r) : TableInv r.1 := by
  unfold Dictionary.removeToken at hr
  cases hd : d.trie.delete (textSliceToBytes t.text) with
  | noPath => rw [hd] at hr; cases hr; exact h
  | ok t' => rw [hd] at hr; cases hr; exact h
  | unspecified => rw [hd] at hr; cases hr

theorem tableInv_step {cfg : SplitCfg} {d d' : Dictionary F D} {op : DictOp F} (h : TableInv d) (hp : OpPrints cfg op)
    (hr : op.step cfg d = some d') : TableInv d' := by
  have tk : ∀ t f p, (47 ∉ normText cfg t ∨ normText cfg t = [47]) ∧ TagPrints p →
      (47 ∉ (toToken cfg t f p : Token F D).text.flatten ∨ (toToken cfg t f p : Token F D).text.flatten = [47]) ∧ TagPrints (toToken cfg t f p : Token F D).pos := by
    intro t f p h
    simpa [toToken, C01_split_lossless] using h
  cases op with
  | add t f p => cases hr; exact tableInv_add h _ (tk t f p hp)
  | addForce t f p =>
    simp only [DictOp.step, segAddTokenForce, Option.map_map, Option.map_eq_some_iff] at hr
    obtain ⟨x, h1, h2⟩ := hr
    simp only [Function.comp] at h2
    subst h2
    exact tableInv_same (tableInv_add h _ (tk t f p hp)) (calcToken_same h1)
  | remove t =>
    simp only [DictOp.step, segRemoveToken, Option.map_eq_some_iff] at hr
    obtain ⟨x, h1, h2⟩ := hr
    subst h2
    exact tableInv_remove h _ h1
  | reAdd t f p =>
    simp only [DictOp.step, Option.map_eq_some_iff] at hr
    obtain ⟨x, h1, h2⟩ := hr
    subst h2
    unfold segReAddToken at h1
    cases hr1 : d.removeToken (toToken cfg t f p) with
    | none => rw [hr1] at h1; cases h1
    | some r =>
      obtain ⟨d1, b⟩ := r
      have h2 := tableInv_remove h _ hr1
      rw [hr1] at h1
      cases b with
      | true => cases h1; exact h2
      | false => cases h1; exact tableInv_add h2 _ (tk t f p hp)
  | recalc => exact tableInv_same h (calcToken_same hr)

theorem tableInv_run {cfg : SplitCfg} : ∀ (ops : List (DictOp F)) {d d' : Dictionary F D}, TableInv d → (∀ op ∈ ops, OpPrints cfg op) →
    runOps cfg ops d = some d' → TableInv d'
  | [], _, _, h, _, hr => by cases hr; exact h
  | op :: ops, d, d', h, hp, hr => by
    simp only [runOps, Option.bind_eq_some_iff] at hr
    obtain ⟨d1, h1, h2⟩ := hr
    exact tableInv_run ops (tableInv_step h (hp op (by simp)) h1) (fun o ho => hp o (by simp [ho])) h2

omit [F32 D] [Narrow F D] [Unicode] in
theorem deref_tag [F32 D] {d : Dictionary F D} (h : TableInv d) {r : TokRef} {t : Token F D} (hr : d.deref r = some t) : TagPrints t.pos := by
  cases r with
  | idx i => exact (h t (List.mem_of_getElem? hr)).2
  | pseudo w =>
    simp only [Dictionary.deref, Option.some.injEq] at hr
    subst hr
    show 32 ∉ str "x"
    decide

omit [Unicode] in
theorem infix_prints {x y : Bytes} (h : WordPrints y) (hx : x ≠ []) (hi : x <:+: y) : WordPrints x := by
  refine ⟨hx, ?_⟩
  rcases h.2 with h1 | rfl
  · exact .inl fun hm => h1 (hi.subset hm)
  · right
    have := hi.length_le
    cases x with
    | nil => exact absurd rfl hx
    | cons a x =>
      cases x with
      | nil =>
        have := hi.subset (show a ∈ [a] by simp)
        simpa using this
      | cons b x => simp at this

theorem expansion_prints {d : Dictionary F D} (hs : SubInv d) (ht : TableInv d) : ∀ (n : Nat) (r : TokRef) (t : Token F D) (o : List SegPos),
    d.deref r = some t → WordPrints t.text.flatten → tokenToPos d n r = some o → ∀ p ∈ o, ItemPrints p := by
  intro n
  induction n with
  | zero => intro r t o _ _ h1; simp [tokenToPos] at h1
  | succ n ih =>
    intro r t o hr hw h1
    unfold tokenToPos at h1
    rw [hr] at h1
    simp only [textSliceToString_eq, Option.map_some] at h1
    cases hl : subLoop d (tokenToPos d n) t.segments true with
    | none => rw [hl] at h1; simp at h1
    | some pre =>
      rw [hl] at h1
      simp at h1
      subst h1
      intro p hp
      rcases List.mem_append.1 hp with hp | hp
      · obtain ⟨s, hsm, o', h2, h3⟩ := subLoop_mem _ _ _ hl p hp
        obtain ⟨t', h4, _, _, h6, h5, h7⟩ := (deref_segments hs hr s hsm).ok
        refine ih _ _ _ h4 (infix_prints hw ?_ (by rw [h5]; exact slice_infix _ _ _)) h2 p h3
        intro e
        rw [h5] at e
        have := congrArg List.length e
        rw [slice, List.length_take, List.length_drop, List.length_nil] at this
        omega
      · simp at hp
        subst hp
        exact ⟨hw, deref_tag ht hr⟩

/-- The items of `Pos` print. -/
theorem pos_prints [UnicodeOK] (hu : SlashPlain) (cfg : SplitCfg) (ops : List (DictOp F)) (d : Dictionary F D)
    (hr : runOps cfg ops Dictionary.new = some d) (hp : ∀ op ∈ ops, OpPrints cfg op) (s : Bytes) (mode : Bool) (fuel : Nat) (o : List SegPos)
    (ho : segPos cfg d fuel s mode = some o) : ∀ p ∈ o, ItemPrints p := by
  have ht := tableInv_run ops (show TableInv (Dictionary.new : Dictionary F D) by simp [TableInv, Dictionary.new]) hp hr
  have hs := subInv_reachable hr
  by_cases hsm : mode = true ∧ (splitTextToWords cfg s).length = 1
  · rw [segPos, internalSegment_eq, segmentWords, if_pos (by simpa using hsm)] at ho
    obtain ⟨rfl, _⟩ := hsm
    have : o = [] := by simpa [toPos, concatOpt] using ho.symm
    simp [this]
  obtain ⟨segs, ts, h1, h2, h3, h4, _⟩ := segment_tokens hr s mode hsm
  rw [segPos, h1, Option.bind_some] at ho
  have hw : ∀ g ∈ segs, ∃ t, d.deref g.tok = some t ∧ WordPrints t.text.flatten := by
    intro g hg
    obtain ⟨t, hm, hd, _⟩ := tiles_text h2 (pre := []) rfl h4 g hg
    refine ⟨t, hd, ?_⟩
    have hin : ∀ w ∈ t.text, w ∈ splitTextToWords cfg s := by
      intro w hw
      rw [← h3.1]
      obtain ⟨a, b, rfl⟩ := List.append_of_mem hm
      simp [wordsOf, hw]
    have hne : t.text.flatten ≠ [] := by
      intro e
      cases htx : t.text with
      | nil => exact (h3.2 t hm).1 htx
      | cons w l =>
        rw [htx] at e
        simp at e
        exact C02_words_nonempty cfg s w (hin w (by simp [htx])) e.1
    refine ⟨hne, ?_⟩
    cases hg' : g.tok with
    | idx i =>
      rw [hg'] at hd
      exact (ht t (List.mem_of_getElem? hd)).1
    | pseudo w =>
      rw [hg'] at hd
      simp only [Dictionary.deref, Option.some.injEq] at hd
      subst hd
      have := split_prints hu cfg s w (hin w (by simp))
      simpa using this.2
  clear h1 h2 h4
  have key : ∀ (f : Seg → Option (List SegPos)), (∀ g ∈ segs, ∀ o, f g = some o → ∀ p ∈ o, ItemPrints p) → ∀ o, concatOpt f segs = some o → ∀ p ∈ o, ItemPrints p := by
    clear ho hw
    intro f
    induction segs with
    | nil => intro _ o h; cases h; simp
    | cons g gs ih =>
      intro hf o h
      unfold concatOpt at h
      cases hfg : f g with
      | none => rw [hfg] at h; cases h
      | some a =>
        rw [hfg] at h
        simp only [Option.map_eq_some_iff] at h
        obtain ⟨b, hb, rfl⟩ := h
        intro p hp
        rcases List.mem_append.1 hp with h1 | h1
        · exact hf g (by simp) a hfg p h1
        · exact ih (fun g hg => hf g (by simp [hg])) b hb p h1
  cases mode with
  | true =>
    rw [toPos, if_pos rfl] at ho
    refine key _ (fun g hg o' ho' => ?_) o ho
    obtain ⟨t, h5, h6⟩ := hw g hg
    exact expansion_prints hs ht fuel g.tok t o' h5 h6 ho'
  | false =>
    rw [toPos, if_neg (by simp)] at ho
    refine key _ (fun g hg o' ho' => ?_) o ho
    obtain ⟨t, h5, h6⟩ := hw g hg
    rw [h5] at ho'
    simp [textSliceToString_eq] at ho'
    subst ho'
    intro p hp
    simp at hp
    subst hp
    exact ⟨h6, deref_tag ht h5⟩

/-- C105: when no word with a slash inside and no tag with a blank was ever added, equal results of `String` come from equal words and tags,
in either mode, also from different segmenters. -/
theorem C105_string [UnicodeOK] (hu : SlashPlain) (cfg cfg' : SplitCfg) (ops ops' : List (DictOp F)) (d d' : Dictionary F D)
    (hr : runOps cfg ops Dictionary.new = some d) (hr' : runOps cfg' ops' Dictionary.new = some d')
    (hp : ∀ op ∈ ops, OpPrints cfg op) (hp' : ∀ op ∈ ops', OpPrints cfg' op) (s s' : Bytes) (mode mode' : Bool) (fuel : Nat)
    (hf : (splitTextToWords cfg s).length < fuel) (hf' : (splitTextToWords cfg' s').length < fuel)
    (h : segString cfg d fuel s mode = segString cfg' d' fuel s' mode') :
    segPos cfg d fuel s mode = segPos cfg' d' fuel s' mode' ∧ segSlice cfg d fuel s mode = segSlice cfg' d' fuel s' mode' := by
  obtain ⟨o, ho⟩ := C16_output_total cfg ops d hr s mode
  obtain ⟨o', ho'⟩ := C16_output_total cfg' ops' d' hr' s' mode'
  obtain ⟨a1, a2, a3⟩ := ho fuel hf
  obtain ⟨b1, b2, b3⟩ := ho' fuel hf'
  rw [a3, b3] at h
  have := C105_items o o' (pos_prints hu cfg ops d hr hp s mode fuel o a1) (pos_prints hu cfg' ops' d' hr' hp' s' mode' fuel o' b1) (Option.some.inj h)
  rw [a1, b1, a2, b2, this]
  exact ⟨rfl, rfl⟩

/-- C105: and outside search mode from the same text, lower case aside. -/
theorem C105_text [UnicodeOK] (hu : SlashPlain) (cfg cfg' : SplitCfg) (ops ops' : List (DictOp F)) (d d' : Dictionary F D)
    (hr : runOps cfg ops Dictionary.new = some d) (hr' : runOps cfg' ops' Dictionary.new = some d')
    (hp : ∀ op ∈ ops, OpPrints cfg op) (hp' : ∀ op ∈ ops', OpPrints cfg' op) (s s' : Bytes) (fuel : Nat)
    (hf : (splitTextToWords cfg s).length < fuel) (hf' : (splitTextToWords cfg' s').length < fuel)
    (h : segString cfg d fuel s false = segString cfg' d' fuel s' false) :
    normText cfg s = normText cfg' s' ∧ (cfg.toLower = false → cfg'.toLower = false → s = s') := by
  have e := (C105_string hu cfg cfg' ops ops' d d' hr hr' hp hp' s s' false false fuel hf hf' h).2
  have key : ∀ (cfg : SplitCfg) (ops : List (DictOp F)) (d : Dictionary F D), runOps cfg ops Dictionary.new = some d → ∀ s,
      (segSlice cfg d fuel s false).map List.flatten = some (normText cfg s) := by
    intro cfg ops d hr s
    obtain ⟨segs, ts, h1, h2, h3, _⟩ := C09_segment_text cfg ops d hr s
    rw [segSlice, h1, Option.bind_some, toSlice]
    simp only [Bool.false_eq_true, if_false]
    rw [← h3]
    clear h1 h3
    rename_i h4
    clear h4
    induction segs generalizing ts with
    | nil => cases ts with
      | nil => simp [concatOpt]
      | cons t ts => simp at h2
    | cons g gs ih => cases ts with
      | nil => simp at h2
      | cons t ts =>
        simp only [List.map_cons, List.cons.injEq] at h2
        have := ih ts h2.2
        simp only [Option.map_eq_some_iff] at this
        obtain ⟨a, h5, h6⟩ := this
        unfold concatOpt
        rw [h2.1]
        rw [Option.bind_some, textSliceToString_eq, Option.map_some]
        simp only [h5, Option.map_some, List.cons_append, List.nil_append, List.flatten_cons, h6, List.map_cons, textSliceToBytes_eq]
  have e1 := key cfg ops d hr s
  have e2 := key cfg' ops' d' hr' s'
  rw [e, e2] at e1
  have e3 := Option.some.inj e1
  refine ⟨e3.symm, fun l1 l2 => ?_⟩
  rw [← C01_split_lossless, ← C01_split_lossless, C01_split_exact cfg' l2, C01_split_exact cfg l1] at e3
  exact e3.symm

end items

section examples
attribute [local instance] sampleUnicode sampleUnicodeOK sampleF64 sampleF32 sampleNarrow

example : SlashPlain := ⟨by decide, by decide⟩

/-- A slash alone and a word with a blank inside print well. -/
def printOps : List (DictOp Int) := [.add (str "Space Needle") 8 (str "n"), .add (str "/") 8 (str "w/y"), .add (encode [0x4E2D, 0x56FD]) 8 (str "ns"), .recalc]
example : ∀ op ∈ printOps, OpPrints {} op := by
  intro op h
  simp only [printOps, List.mem_cons, List.not_mem_nil, or_false] at h
  rcases h with rfl | rfl | rfl | rfl
  · refine ⟨.inl ?_, ?_⟩
    · decide +kernel
    · show (32 : UInt8) ∉ _
      decide
  · refine ⟨.inr ?_, ?_⟩
    · decide +kernel
    · show (32 : UInt8) ∉ _
      decide
  · refine ⟨.inl ?_, ?_⟩
    · decide +kernel
    · show (32 : UInt8) ∉ _
      decide
  · trivial
example : ((runOps (D := Int) {} printOps Dictionary.new).bind fun d => segString {} d 9 (str "SPACE needle/" ++ encode [0x4E2D, 0x56FD]) false) =
    some (str "space needle/n //w/y " ++ encode [0x4E2D, 0x56FD] ++ str "/ns ") := by decide +kernel

/-- The stored word 中/x 国. -/
def mixOps : List (DictOp Int) := [.add (encode [0x4E2D] ++ str "/x " ++ encode [0x56FD]) 8 (str "x"), .add (str "zz") 8 [], .recalc]

/-- C105: a stored word with a slash and a blank inside prints like two words. -/
theorem C105_slash : ∃ (d : Dictionary Int Int) (s s' : Bytes), runOps {} mixOps Dictionary.new = some d ∧
    segString {} d 9 s false = segString {} d 9 s' false ∧ segString {} d 9 s false ≠ none ∧ segSlice {} d 9 s false ≠ segSlice {} d 9 s' false := by
  have hrun : (runOps (D := Int) {} mixOps Dictionary.new).isSome = true := by decide +kernel
  obtain ⟨d, hd⟩ := Option.isSome_iff_exists.1 hrun
  refine ⟨d, encode [0x4E2D, 0x56FD], encode [0x4E2D] ++ str "/x " ++ encode [0x56FD], hd, ?_, ?_, ?_⟩
  · have : ((runOps (D := Int) {} mixOps Dictionary.new).map fun d => decide (segString {} d 9 (encode [0x4E2D, 0x56FD]) false =
      segString {} d 9 (encode [0x4E2D] ++ str "/x " ++ encode [0x56FD]) false)) = some true := by decide +kernel
    rw [hd] at this
    simpa using this
  · have : ((runOps (D := Int) {} mixOps Dictionary.new).map fun d => (segString {} d 9 (encode [0x4E2D, 0x56FD]) false).isSome) = some true := by decide +kernel
    rw [hd] at this
    intro e
    rw [Option.map_some, e] at this
    simp at this
  · have : ((runOps (D := Int) {} mixOps Dictionary.new).map fun d => decide (segSlice {} d 9 (encode [0x4E2D, 0x56FD]) false =
      segSlice {} d 9 (encode [0x4E2D] ++ str "/x " ++ encode [0x56FD]) false)) = some false := by decide +kernel
    rw [hd] at this
    simpa using this

/-- The items of the printed forms above. -/
example : ItemPrints ⟨str "space needle", str "n"⟩ ∧ ItemPrints ⟨str "/", str "w/y"⟩ := by
  refine ⟨⟨⟨by decide, .inl (by decide)⟩, ?_⟩, ⟨⟨by decide, .inr (by decide)⟩, ?_⟩⟩ <;> show (32 : UInt8) ∉ _ <;> decide

end examples

end Gse
