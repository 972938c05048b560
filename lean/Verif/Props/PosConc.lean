import Verif.Proofs.PosMem
import Verif.Props.ConcChange
import Verif.Props.TextRank
import Verif.Props.PosShipped

/-! # C101: taggers and text rankers in goroutines -/

namespace Gse
open Spec Prog Trie

set_option linter.unusedSectionVars false

section
variable {F D : Type} [F64 F] [F32 D] [Narrow F D] [Unicode]

/-- A call that uses a segmenter, or a tagger or text ranker made with it. -/
inductive TagCall (F : Type)
  | use (y : UseCall)
  | cut (ch : Choice) (T : PosTables F) (s : Bytes) (hmm : Bool)
  | rank (ch' ch : Choice) (K : RankConst F) (T : PosTables F) (s : Bytes) (topK : Int) (allow : List Bytes)

/-- What such a call returns. -/
inductive TagAnswer (F : Type)
  | use (a : Answer F)
  | items (o : List SegPos)
  | ranked (o : List (WordWeight F))

namespace TagCall

/-- The call as a program. -/
def prog (c : HmmConst F) : TagCall F → Prog F D (TagAnswer F)
  | .use y => (y.prog c).bind fun a => .ret (.use a)
  | .cut ch T s hmm => (posCutP ch T s hmm).bind fun o => .ret (.items o)
  | .rank ch' ch K T s topK allow => (textRankP ch' ch K T s topK allow).bind fun o => .ret (.ranked o)

/-- `a`, read in memory `m`, is what the call returns when it is made alone. -/
def Alone (cfg : SplitCfg) (d : Dictionary F D) (c : HmmConst F) (em : EmitModel F) (m : Mem F D) : TagCall F → TagAnswer F → Prop
  | .use y, .use a => y.Alone cfg d c em m a
  | .cut ch T s hmm, .items o => posCut ch T d s hmm = some o
  | .rank ch' ch K T s topK allow, .ranked o => textRankWithPOS ch' ch K T d s topK allow = some o
  | _, _ => False

/-- The call returns when it is made alone. -/
def Returns (cfg : SplitCfg) (d : Dictionary F D) (c : HmmConst F) (em : EmitModel F) : TagCall F → Prop
  | .use y => y.Returns cfg d c em
  | .cut ch T s hmm => posCut ch T d s hmm ≠ none
  | .rank ch' ch K T s topK allow => textRankWithPOS ch' ch K T d s topK allow ≠ none

/-- The input of the call is in memory. -/
def HasInput (m : Mem F D) : TagCall F → Prop
  | .use y => y.HasInput m
  | _ => True

/-- The call has no patterns of its own, and a state model of a tagger has good tables and does not overflow on the text. -/
def Good : TagCall F → Prop
  | .use y => y.NoPatterns
  | .cut _ T s hmm => hmm = true → PosTablesOK T ∧ ∃ bound size, PosFinite T bound size ∧ 2 * (runes s).length ≤ bound
  | .rank _ _ _ T s _ _ => PosTablesOK T ∧ (∃ bound size, PosFinite T bound size ∧ 2 * (runes s).length ≤ bound) ∧ s.length ≤ 2 ^ 36

/-- The call must ask the dictionary: for a tagger and a ranker, a character of the text is Chinese, a letter or digit of ASCII or one of `+#&._`. -/
def Asking : TagCall F → Prop
  | .use y => y.Asking
  | .cut _ _ s _ | .rank _ _ _ _ s _ _ => ∃ u ∈ chars s, posChar u = true

/-- The call has nothing to ask the dictionary. -/
def Quiet : TagCall F → Prop
  | .use y => y.OnlyHmm
  | .cut _ _ s _ | .rank _ _ _ _ s _ _ => ∀ u ∈ chars s, posChar u = false

/-- The call reads no distance. -/
def NoWord (cfg : SplitCfg) (d : Dictionary F D) : TagCall F → Prop
  | .use y => y.NoWord cfg d
  | _ => True

end TagCall

/-- The goroutines that make these calls. -/
def startTag (m : Mem F D) (c : HmmConst F) (calls : List (TagCall F)) : Config F D (TagAnswer F) := ⟨m, calls.map fun x => x.prog c⟩

/-- Memory holds the segmenter, the HMM model and the inputs, and no call panics when made alone. -/
structure TagOK (m : Mem F D) (cfg : SplitCfg) (d : Dictionary F D) (c : HmmConst F) (em : EmitModel F) (calls : List (TagCall F)) : Prop where
  segmenter : HoldsSegmenter m cfg (some d)
  totalFreq : m .totalFreq = some (.freq d.totalFreq)
  emit : m .emit = some (.emit em)
  inputs : ∀ x ∈ calls, x.HasInput m
  alone : ∀ x ∈ calls, x.Returns cfg d c em

theorem wp_yields_map {α β : Type} {m : Mem F D} {p : Prog F D α} {v : α} {f : α → β} {P : β → Mem F D → Prop} (h : Yields m p v)
    (hP : P (f v) (fun _ => none)) : wp m (p.bind fun a => .ret (f a)) (fun _ => none) P := by
  refine wp_bind' _ _ (wp_mono ?_ _ _ (yields_wp (fun _ _ _ => rfl) p h))
  rintro _ _ ⟨rfl, rfl⟩
  exact hP

/-- A call in memory that holds what it needs, given `Segment`. -/
theorem wp_tag {sh : Mem F D} {cfg : SplitCfg} {d : Dictionary F D} {c : HmmConst F} {em : EmitModel F} (hd : HoldsDict sh cfg d) (he : sh .emit = some (.emit em))
    (x : TagCall F) (ha : x.Returns cfg d c em)
    (hseg : ∀ input text mode segs, x = .use (.segment input text mode) → internalSegment cfg (some d) text mode = some segs →
      wp sh (segmentP input mode) (fun _ => none) fun r o => HoldsSegs (view sh o) r segs) :
    wp sh (x.prog c) (fun _ => none) fun a o => x.Alone cfg d c em (view sh o) a := by
  cases x with
  | use y =>
    exact wp_bind' _ _ (wp_mono (fun a o h => h) _ _ (wp_use hd he y ha fun input text mode segs e => hseg input text mode segs (by rw [e])))
  | cut ch T s hmm =>
    obtain ⟨o, ho⟩ := Option.ne_none_iff_exists'.mp ha
    exact wp_yields_map (yields_posCut hd ch T s hmm o ho) ho
  | rank ch' ch K T s topK allow =>
    obtain ⟨o, ho⟩ := Option.ne_none_iff_exists'.mp ha
    exact wp_yields_map (yields_textRank hd ch' ch K T s topK allow o ho) ho

theorem TagCall.Alone.grow {cfg : SplitCfg} {d : Dictionary F D} {c : HmmConst F} {em : EmitModel F} {m m' : Mem F D} (hg : Grows m m') {x : TagCall F} {a : TagAnswer F}
    (h : x.Alone cfg d c em m a) : x.Alone cfg d c em m' a := by
  cases x <;> cases a <;> first
    | exact h
    | exact UseCall.Alone.grow hg h

theorem isolated_tag {m : Mem F D} {cfg : SplitCfg} {d : Dictionary F D} {c : HmmConst F} {em : EmitModel F} {calls : List (TagCall F)}
    (h : TagOK m cfg d c em calls) : Isolated m (startTag m c calls) (fun _ _ => none)
      (fun i a o => ∀ x, calls[i]? = some x → x.Alone cfg d c em (view m o) a) := by
  refine ⟨fun l x hx => hx, by simp, by simp, by simp, ?_⟩
  intro i p hp
  simp only [startTag, List.getElem?_map, Option.map_eq_some_iff] at hp
  obtain ⟨x, hx, rfl⟩ := hp
  have hmem := List.mem_of_getElem? hx
  have hin := h.inputs x hmem
  refine wp_mono ?_ _ _ (wp_tag ⟨h.segmenter.toHoldsTable, h.totalFreq⟩ h.emit x (h.alone x hmem) fun input text mode segs e hs => ?_)
  · intro a o ha x' hx'
    rw [hx] at hx'; cases hx'; exact ha
  · subst e
    exact wp_segment h.segmenter hin (fun _ _ _ => rfl) hs

/-- C101: goroutines that tag, rank, cut, segment and look up with one segmenter: under every interleaving there is no data race, at every moment the segmenter, the HMM
model and the inputs are unchanged, no goroutine has panicked, and every goroutine that has returned returned what its call returns alone. -/
theorem C101_result (m : Mem F D) (cfg : SplitCfg) (d : Dictionary F D) (c : HmmConst F) (em : EmitModel F) (calls : List (TagCall F))
    (h : TagOK m cfg d c em calls) (tr : List (Nat × Access)) (c' : Config F D (TagAnswer F)) (hx : Exec (startTag m c calls) tr c') :
    RaceFree tr ∧ (∀ l x, m l = some x → c'.mem l = some x) ∧ (∀ i : Nat, c'.threads[i]? ≠ some .panic) ∧
    ∀ (i : Nat) (a : TagAnswer F) (x : TagCall F), c'.threads[i]? = some (.ret a) → calls[i]? = some x → x.Alone cfg d c em c'.mem a := by
  obtain ⟨own, hI, _, _⟩ := isolated_exec (isolated_tag h) hx
  exact ⟨isolated_raceFree (isolated_tag h) hx, hI.shared, fun i hp => hI.goes i _ hp, fun i a x hr hc => (hI.goes i _ hr x hc).grow (hI.grows i)⟩

/-- C101: an execution that cannot go on has brought every call to its end, with the result it has alone. -/
theorem C101_complete (m : Mem F D) (hm : ∃ n, m.Below n) (cfg : SplitCfg) (d : Dictionary F D) (c : HmmConst F) (em : EmitModel F) (calls : List (TagCall F))
    (h : TagOK m cfg d c em calls) (tr : List (Nat × Access)) (c' : Config F D (TagAnswer F)) (hx : Exec (startTag m c calls) tr c')
    (hend : ∀ i e c'', ¬ Step c' i e c'') (i : Nat) (x : TagCall F) (hc : calls[i]? = some x) :
    ∃ a, c'.threads[i]? = some (.ret a) ∧ x.Alone cfg d c em c'.mem a := by
  obtain ⟨_, _, h2, h3⟩ := C101_result m cfg d c em calls h tr c' hx
  obtain ⟨p, hp, hpe⟩ := exec_ended hx hm hend (i := i) (by simpa [startTag] using (List.getElem?_eq_some_iff.mp hc).1)
  rcases hpe with ⟨a, rfl⟩ | rfl
  · exact ⟨a, hp, h3 i a x hp hc⟩
  · exact absurd hp (h2 i)

theorem tag_returns [UnicodeOK] {cfg : SplitCfg} {ops : List (DictOp F)} {d : Dictionary F D} (hr : runOps cfg ops Dictionary.new = some d)
    {m : Mem F D} (c : HmmConst F) {em : EmitModel F} (hs : HoldsSegmenter m cfg (some d)) (hf : m .totalFreq = some (.freq d.totalFreq))
    (he : m .emit = some (.emit em)) (x : TagCall F) (hi : x.HasInput m) (hg : x.Good) : x.Returns cfg d c em := by
  cases x with
  | use y => exact (C73_history cfg ops d hr m c em [y] hs hf he (by intro z hz; cases List.mem_singleton.mp hz; exact hi)
      (by intro z hz; cases List.mem_singleton.mp hz; exact hg)).alone y (by simp)
  | cut ch T s hmm =>
    cases hmm with
    | false => obtain ⟨o, ho, _⟩ := C50_no_hmm cfg ops d hr ch T s; simp [TagCall.Returns, ho]
    | true =>
      obtain ⟨h1, bound, size, h2, h3⟩ := hg rfl
      obtain ⟨o, ho, _⟩ := C50_hmm cfg ops d hr ch T h1 bound size h2 s h3; simp [TagCall.Returns, ho]
  | rank ch' ch K T s topK allow =>
    obtain ⟨h1, ⟨bound, size, h2, h3⟩, h4⟩ := hg
    obtain ⟨o, _, _, ho⟩ := C46_returns cfg ops d hr ch' ch K T h1 bound size h2 s h3 h4 topK allow
    simp [TagCall.Returns, ho]

/-- C101: a segmenter made by any history of dictionary calls meets the hypothesis about calls made alone. -/
theorem C101_history [UnicodeOK] (cfg : SplitCfg) (ops : List (DictOp F)) (d : Dictionary F D) (hr : runOps cfg ops Dictionary.new = some d)
    (m : Mem F D) (c : HmmConst F) (em : EmitModel F) (calls : List (TagCall F)) (hs : HoldsSegmenter m cfg (some d)) (hf : m .totalFreq = some (.freq d.totalFreq))
    (he : m .emit = some (.emit em)) (hi : ∀ x ∈ calls, x.HasInput m) (hg : ∀ x ∈ calls, x.Good) : TagOK m cfg d c em calls :=
  ⟨hs, hf, he, hi, fun x hx => tag_returns hr c hs hf he x (hi x hx) (hg x hx)⟩

/-! ## Beside a change -/

/-- Goroutine 0 makes the change and ends with `err != nil`; goroutine `i + 1` makes the call number `i`. -/
def startTagChange (m : Mem F D) (x : ChangeCall F) (c : HmmConst F) (calls : List (TagCall F)) : Config F D (Bool ⊕ TagAnswer F) :=
  ⟨m, (x.prog.bind fun e => .ret (.inl e)) :: calls.map fun y => (y.prog c).bind fun a => .ret (.inr a)⟩

/-- Memory holds the segmenter, its dictionary with room for another token, the HMM model and all inputs. -/
structure TagChangeOK (m : Mem F D) (cfg : SplitCfg) (d : Dictionary F D) (em : EmitModel F) (x : ChangeCall F) (calls : List (TagCall F)) : Prop where
  change : ChangeOK m cfg d em x []
  inputs : ∀ y ∈ calls, y.HasInput m

theorem any_class [UnicodeOK] (s : Bytes) : (runes s).any hanInternalClass = (chars s).any posChar := by
  rw [runes_eq_chars, List.any_map]
  congr 1
  funext u
  exact hanInternalClass_iff u

/-- On a text with nothing to look up, a tagger returns the same in every memory. -/
theorem yields_quiet [UnicodeOK] (ch : Choice) (T : PosTables F) (s : Bytes) (hmm : Bool) (h : ∀ u ∈ chars s, posChar u = false) :
    ∃ o, (∀ m : Mem F D, Yields m (posCutP ch T s hmm) o) ∧ ∀ d : Dictionary F D, posCut ch T d s hmm = some o := by
  have hany : (classRun hanInternalClass s).isSome = false := by
    rw [classRun_isSome, List.any_eq_false]
    intro u hu
    rw [hanInternalClass_iff, h u hu]; simp
  have hn : reHanInternal s = none := Option.isNone_iff_eq_none.mp (Option.isSome_eq_false_iff.mp hany)
  obtain ⟨blks, hb, hB⟩ := splitBy_blocks (m := reHanInternal) (classRun_range hanInternalClass) s
  have hblk : ∀ blk ∈ blks, reHanInternal blk = none := by
    cases hB with
    | last _ =>
      intro blk hblk
      cases List.mem_singleton.mp hblk; exact hn
    | next hm _ => rw [hn] at hm; cases hm
  have key : ∀ l : List Bytes, (∀ blk ∈ l, reHanInternal blk = none) → ∃ os : List (List SegPos),
      (∀ (m : Mem F D) cut, Yields m (mapP (posBlockP cut) l) os) ∧ ∀ cut, mapOpt (posBlock cut) l = some os := by
    intro l
    induction l with
    | nil => intro _; exact ⟨[], fun _ _ => rfl, fun _ => rfl⟩
    | cons a l ih =>
      intro hl
      obtain ⟨os, h1, h2⟩ := ih fun b hb => hl b (by simp [hb])
      obtain ⟨xs, hxs, _⟩ := splitBy_blocks reSkipInternal_range a
      have ha := hl a (by simp)
      refine ⟨xs.flatMap spaceItems :: os, fun m cut => ?_, fun cut => ?_⟩
      · have hpb : Yields m (posBlockP cut a) (xs.flatMap spaceItems) := by
          unfold posBlockP
          rw [if_neg (by rw [ha]; simp)]
          exact yields_bind (yields_lift hxs) rfl
        exact yields_bind hpb (yields_bind (h1 m cut) rfl)
      · have hpb : posBlock cut a = some (xs.flatMap spaceItems) := by
          unfold posBlock
          rw [if_neg (by rw [ha]; simp), hxs]; rfl
        simp [mapOpt, hpb, h2]
  obtain ⟨os, h1, h2⟩ := key blks hblk
  refine ⟨os.flatten, fun m => yields_bind (yields_lift hb) (yields_bind (h1 m _) rfl), fun d => ?_⟩
  show (splitBy reHanInternal s).bind _ = _
  rw [hb]
  show (mapOpt _ blks).map _ = _
  rw [h2]; rfl

/-- C101: beside taggers and rankers whose texts have nothing to look up (and beside `HMMCut`), every change is safe: under every interleaving there is no data race and no
panic, every call returns what it returns alone, and once the change has returned, its error and the dictionary are those of the sequential function. -/
theorem C101_quiet [UnicodeOK] (m : Mem F D) (cfg : SplitCfg) (d d' : Dictionary F D) (err : Bool) (c : HmmConst F) (em : EmitModel F) (x : ChangeCall F)
    (calls : List (TagCall F)) (h : TagChangeOK m cfg d em x calls) (hx : x.alone cfg d = some (d', err)) (hc : ∀ y ∈ calls, y.Quiet)
    (tr : List (Nat × Access)) (c' : Config F D (Bool ⊕ TagAnswer F)) (he : Exec (startTagChange m x c calls) tr c') :
    RaceFree tr ∧ (∀ i : Nat, c'.threads[i]? ≠ some .panic) ∧ (∀ r, c'.threads[0]? = some (.ret r) → r = .inl err ∧ Changed c'.mem cfg d') ∧
      ∀ (i : Nat) y r, calls[i]? = some y → c'.threads[i + 1]? = some (.ret r) → ∃ a, r = .inr a ∧ y.Alone cfg d c em c'.mem a := by
  have hv : view (restPart m) (dictPart m) = m := by
    funext l
    unfold view dictPart restPart
    cases l.dict <;> cases m l <;> simp
  have hS := h.change.segmenter; have ht := h.change.totalFreq; have hr := h.change.room; have hw := h.change.word
  rw [← hv] at hS ht hr hw
  have hI : Isolated (restPart m) (startTagChange m x c calls) (fun i => if i = 0 then dictPart m else noMem)
      (fun i r o => if i = 0 then r = .inl err ∧ Changed (view (restPart m) o) cfg d'
        else ∀ y, calls[i - 1]? = some y → ∃ a, r = .inr a ∧ y.Alone cfg d c em (view (restPart m) o) a) := by
    refine ⟨?_, ?_, ?_, ?_, ?_⟩
    · intro l x hx
      unfold restPart at hx
      split at hx
      · cases hx
      · exact hx
    · intro i l x hx
      split at hx
      · unfold dictPart at hx
        split at hx
        · exact hx
        · cases hx
      · cases hx
    · intro i l x hx
      split at hx
      · unfold dictPart at hx
        split at hx
        · next hl => unfold restPart; rw [if_pos hl]
        · cases hx
      · cases hx
    · intro i j l x hij hx
      split at hx
      · next hi => rw [if_neg (by omega)]; rfl
      · cases hx
    · intro i p hp
      match i with
      | 0 =>
        simp only [startTagChange, List.getElem?_cons_zero, Option.some.injEq] at hp
        subst hp
        simp only [if_true]
        refine wp_bind' _ _ (wp_mono ?_ _ _ (wp_change (fun l hl => by simp [restPart, hl]) hS ht hr hw hx))
        rintro e o ⟨rfl, h2⟩
        exact ⟨rfl, h2⟩
      | i + 1 =>
        simp only [startTagChange, List.getElem?_cons_succ, List.getElem?_map, Option.map_eq_some_iff] at hp
        obtain ⟨y, hy, rfl⟩ := hp
        rw [if_neg (by omega)]
        have ho := hc y (List.mem_of_getElem? hy)
        have key : wp (restPart m) (y.prog c) noMem fun a o => y.Alone cfg d c em (view (restPart m) o) a := by
          cases y with
          | use y =>
            cases y with
            | hmmCut s reg =>
              obtain rfl : reg = [] := ho
              obtain ⟨ws, hws, _⟩ := C30_lossless c em s
              exact wp_bind' _ _ (use_words (yields_hmmCut c (show restPart m .emit = _ from h.change.emit) s [] ws hws) hws)
            | _ => exact ho.elim
          | cut ch T s hmm =>
            obtain ⟨o, h1, h2⟩ := yields_quiet (F := F) (D := D) ch T s hmm ho
            exact wp_yields_map (h1 _) (h2 d)
          | rank ch' ch K T s topK allow =>
            obtain ⟨o, h1, h2⟩ := yields_quiet (F := F) (D := D) ch' T s true ho
            refine wp_yields_map (v := textRankItems ch K o topK allow) (yields_bind (h1 _) rfl) ?_
            show (posCut ch' T d s true).map _ = _
            rw [h2]; rfl
        refine wp_bind' _ _ (wp_mono ?_ _ _ key)
        intro a o ha
        simp only [wp, if_neg (show ¬ (i + 1 = 0) by omega)]
        intro y' hy'
        simp only [Nat.add_sub_cancel] at hy'
        rw [hy] at hy'; cases hy'
        exact ⟨_, rfl, ha⟩
  obtain ⟨own, hI', _, _⟩ := isolated_exec hI he
  refine ⟨isolated_raceFree hI he, fun i hp => hI'.goes i _ hp, fun r hr0 => ?_, fun i y r hyi hri => ?_⟩
  · have key := hI'.goes 0 _ hr0
    simp only [wp, if_true] at key
    exact ⟨key.1, key.2.grow (hI'.grows 0)⟩
  · have key := hI'.goes (i + 1) _ hri
    simp only [wp] at key
    rw [if_neg (by omega)] at key
    obtain ⟨a, h1, h2⟩ := key y (by simpa using hyi)
    exact ⟨a, h1, h2.grow (hI'.grows (i + 1))⟩

/-- A tagger reads the trie, whatever happens to the dictionary meanwhile. -/
theorem obeys_posCut [UnicodeOK] {m : Mem F D} {n : Nat} (h1 : m .segDict = some (.bool false)) (ch : Choice) (T : PosTables F) (s : Bytes) (hmm : Bool)
    (h : ∃ u ∈ chars s, posChar u = true) : Obeys (adding m n) (.rd .trie) false (posCutP ch T s hmm) noMem := by
  have hR : ∀ l' x, l' ≠ .trie → restPart m l' = some x → (adding m n).loc l' ∧ ∀ y, (adding m n).val l' y → y = x :=
    fun l x _ hx => adding_stable m n l x hx
  refine asks_obeys hR _ _ (asks_posCut (show restPart m .segDict = _ from h1) ch T s hmm ?_)
  rw [any_class]
  exact List.any_eq_true.mpr h

theorem guarded_tag {R : Rely F D} {m own : Mem F D} {c : HmmConst F} {x : ChangeCall F} {calls : List (TagCall F)} {es : Nat → Access}
    (hs : ∀ l x, m l = some x → R.val l x) (hl : ∀ l, R.loc l → (m l).isSome) (ho : ∀ l x, own l = some x → m l = some x)
    (h0 : Obeys R (es 0) false (x.prog (D := D)) own) (h1 : ∀ (i : Nat) y, calls[i]? = some y → Obeys R (es (i + 1)) false (y.prog c) noMem) :
    Guarded R es (startTagChange m x c calls) [] (fun i => if i = 0 then own else noMem) fun _ => false := by
  refine ⟨?_, ?_, ?_, ?_, fun i hi => by cases hi⟩
  · intro l hll
    obtain ⟨x, hx⟩ := Option.isSome_iff_exists.mp (hl l hll)
    exact ⟨x, hx, hs l x hx⟩
  · intro i l x hx
    split at hx
    · exact ho l x hx
    · cases hx
  · intro i j l x hij hx
    split at hx
    · next hi => rw [if_neg (by omega)]; rfl
    · cases hx
  · intro i p hp
    match i with
    | 0 =>
      simp only [startTagChange, List.getElem?_cons_zero, Option.some.injEq] at hp
      subst hp
      exact .inl (obeys_map _ _ _ h0)
    | i + 1 =>
      simp only [startTagChange, List.getElem?_cons_succ, List.getElem?_map, Option.map_eq_some_iff] at hp
      obtain ⟨y, hy, rfl⟩ := hp
      exact .inl (obeys_map _ _ _ (h1 i y hy))

/-- C101: a change that has something to do is a data race beside every tagger or ranker with a text that has something to look up, and beside every other call that asks the
dictionary, under every interleaving: whenever the goroutine that changes and one that asks have both ended, they have accessed one part of the dictionary with one of them writing. -/
theorem C101_race [UnicodeOK] (cfg : SplitCfg) (ops : List (DictOp F)) (d : Dictionary F D) (hr : runOps cfg ops Dictionary.new = some d) (m : Mem F D)
    (c : HmmConst F) (em : EmitModel F) (x : ChangeCall F) (calls : List (TagCall F)) (h : TagChangeOK m cfg d em x calls) (hx : x.Effective cfg d) (hw : x.text ≠ [])
    (hc : ∀ y ∈ calls, y.Asking) (tr : List (Nat × Access)) (c' : Config F D (Bool ⊕ TagAnswer F)) (he : Exec (startTagChange m x c calls) tr c')
    (i : Nat) (p q : Prog F D (Bool ⊕ TagAnswer F)) (hp : c'.threads[0]? = some p) (hpe : Ended p) (hq : c'.threads[i + 1]? = some q) (hqe : Ended q) :
    ¬ RaceFree tr := by
  have hwf := Reachable.wf ⟨ops, hr⟩
  have hS := h.change.segmenter
  have hC : Changing (adding m d.maxTokenLen) (restPart m) cfg :=
    ⟨adding_stable m _, hS.flags, hS.segDict, by simp [adding, hS.maxLen d rfl],
      fun c hc => by obtain ⟨n, hn, _⟩ := hc.2 rfl; exact ⟨n, hn⟩, by simp [adding, hS.trie d rfl]⟩
  have hs : ∀ l x, m l = some x → (adding m d.maxTokenLen).val l x := by
    intro l x hx
    refine ⟨fun _ => hx, ?_⟩
    rintro rfl
    rw [hS.maxLen d rfl] at hx
    exact ⟨d.maxTokenLen, (Option.some.inj hx).symm, Nat.le_refl _⟩
  have ho : ∀ l x, dictPart m l = some x → m l = some x := by
    intro l x hx
    unfold dictPart at hx
    split at hx
    · exact hx
    · cases hx
  -- the location at which the change meets a call
  let meet : TagCall F → Loc := fun y => match y with
    | .use (.segment _ _ _) => if d.maxTokenLen = 0 then .maxLen else .trie
    | _ => .trie
  have h1 : ∀ (j : Nat) y, calls[j]? = some y → Obeys (adding m d.maxTokenLen) (.rd (meet y)) false (y.prog c) noMem := by
    intro j y hj
    have hy := hc y (List.mem_of_getElem? hj)
    have hin := h.inputs y (List.mem_of_getElem? hj)
    cases y with
    | use y =>
      cases y with
      | segment input text mode =>
        obtain ⟨rfl, ht⟩ := hy
        have hin' : HoldsBytes (restPart m) input text := hin
        show Obeys _ (.rd (if d.maxTokenLen = 0 then .maxLen else .trie)) _ _ _
        split
        · exact obeys_map _ _ _ (obeys_map _ _ _ (obeys_segment_maxLen hC hin' ht))
        · next h0 =>
          refine obeys_map _ _ _ (obeys_map _ _ _ (obeys_segment_trie hC (fun n hn => ?_) hin' ht fun e => ht (split_eq_nil e)))
          obtain ⟨n', e, hle⟩ := hn.2 rfl
          cases e; omega
      | _ => exact obeys_map _ _ _ (obeys_use c hS.flags hS.segDict _ hy (by simp))
    | cut ch T s hmm => exact obeys_map _ _ _ (obeys_posCut hS.segDict ch T s hmm hy)
    | rank ch' ch K T s topK allow => exact obeys_map _ _ _ (obeys_map _ _ _ (obeys_posCut hS.segDict ch' T s true hy))
  have h0 : ∀ l, (l = .trie ∨ (l = .maxLen ∧ d.maxTokenLen = 0)) → Obeys (adding m d.maxTokenLen) (.wr l) false (x.prog (D := D)) (dictPart m) := by
    intro l hl
    cases x with
    | add r s f p =>
      refine obeys_addToken hS h.change.totalFreq h.change.room h.change.word f p hx _ ?_
      rcases hl with rfl | ⟨rfl, h0⟩
      · exact .inl rfl
      · exact .inr ⟨rfl, by rw [h0]; exact List.length_pos_iff.mpr fun e => hw (split_eq_nil e)⟩
    | remove r s =>
      obtain ⟨v, t', hv, hd⟩ := stored_delete hx
      rcases hl with rfl | ⟨rfl, h0⟩
      · exact obeys_removeToken hS h.change.word hd
      · exact absurd h0 (maxLen_pos hwf hv (norm_ne hw))
    | reAdd r s f p =>
      obtain ⟨v, t', hv, hd⟩ := stored_delete hx
      rcases hl with rfl | ⟨rfl, h0⟩
      · exact obeys_reAddToken hS h.change.totalFreq h.change.room h.change.word f p hd
      · exact absurd h0 (maxLen_pos hwf hv (norm_ne hw))
  have hlen := exec_threads he
  have hi : i < calls.length := by
    have := (List.getElem?_eq_some_iff.mp hq).1
    rw [hlen] at this
    simpa [startTagChange] using this
  have hmeet : ∀ y, meet y = .trie ∨ (meet y = .maxLen ∧ d.maxTokenLen = 0) := by
    intro y
    cases y with
    | use y =>
      cases y with
      | segment input text mode =>
        show (if d.maxTokenLen = 0 then Loc.maxLen else Loc.trie) = .trie ∨ ((if d.maxTokenLen = 0 then Loc.maxLen else Loc.trie) = .maxLen ∧ _)
        by_cases h0 : d.maxTokenLen = 0 <;> simp [h0]
      | _ => exact .inl rfl
    | _ => exact .inl rfl
  intro hrf
  obtain ⟨own, done, hg'⟩ := guarded_exec (guarded_tag (es := fun j => if j = 0 then .wr (meet calls[i]) else .rd (((calls[j - 1]?).map meet).getD .trie)) hs (fun _ h => h) ho
    (by simpa using h0 _ (hmeet _)) fun j y hj => by
      have := h1 j y hj
      simpa [hj] using this) he
  have w := guarded_ended hg' hp hpe
  have r := guarded_ended hg' hq hqe
  simp only [if_true] at w
  rw [if_neg (by omega)] at r
  simp only [Nat.add_sub_cancel, List.getElem?_eq_getElem hi, Option.map_some, Option.getD_some] at r
  exact hrf 0 _ (i + 1) _ w r (by omega) rfl

/-- C101: and every execution that cannot go on is one in which all goroutines have ended, so it has a race. -/
theorem C101_race_complete [UnicodeOK] (cfg : SplitCfg) (ops : List (DictOp F)) (d : Dictionary F D) (hr : runOps cfg ops Dictionary.new = some d) (m : Mem F D)
    (hm : ∃ n, m.Below n) (c : HmmConst F) (em : EmitModel F) (x : ChangeCall F) (calls : List (TagCall F)) (h : TagChangeOK m cfg d em x calls)
    (hx : x.Effective cfg d) (hw : x.text ≠ []) (hc : ∀ y ∈ calls, y.Asking) (hne : calls ≠ []) (tr : List (Nat × Access)) (c' : Config F D (Bool ⊕ TagAnswer F))
    (he : Exec (startTagChange m x c calls) tr c') (hend : ∀ i e c'', ¬ Step c' i e c'') : ¬ RaceFree tr := by
  have hpos := List.length_pos_iff.mpr hne
  obtain ⟨p, h1, h2⟩ := exec_ended he hm hend (i := 0) (by simp [startTagChange])
  obtain ⟨q, h3, h4⟩ := exec_ended he hm hend (i := 0 + 1) (by simp [startTagChange]; omega)
  exact C101_race cfg ops d hr m c em x calls h hx hw hc tr c' he 0 p q h1 h2 h3 h4

/-! ## Beside `AddTokenForce` -/

/-- Goroutine 0 runs `AddTokenForce` and ends with `err != nil`; goroutine `i + 1` makes the call number `i`. -/
def startTagForce (m : Mem F D) (add : AddCall F) (c : HmmConst F) (calls : List (TagCall F)) : Config F D (Bool ⊕ TagAnswer F) :=
  ⟨m, ((addTokenForceP add.input add.freq add.pos).bind fun e => .ret (.inl e)) :: calls.map fun y => (y.prog c).bind fun a => .ret (.inr a)⟩

/-- C101: taggers and rankers never read a distance, so `AddTokenForce` of a word that the dictionary has already is safe beside them, and beside the other calls with the same
property: under every interleaving there is no data race, no panic, every call returns what it returns alone, and once `AddTokenForce` has returned the dictionary is the
recomputed one. -/
theorem C101_force [UnicodeOK] (cfg : SplitCfg) (ops : List (DictOp F)) (d : Dictionary F D) (hr : runOps cfg ops Dictionary.new = some d)
    (m : Mem F D) (c : HmmConst F) (em : EmitModel F) (add : AddCall F) (calls : List (TagCall F)) (h : ForceOK m cfg d add []) (he : m .emit = some (.emit em))
    (hi : ∀ x ∈ calls, x.HasInput m) (hn : ∀ x ∈ calls, x.Good) (hno : ∀ x ∈ calls, x.NoWord cfg d)
    (hk : (segAddToken cfg d add.text add.freq add.pos).1.numTokens = d.numTokens) :
    ∃ d' err, segAddTokenForce cfg d add.text add.freq add.pos = some (d', err) ∧
      ∀ tr c', Exec (startTagForce m add c calls) tr c' → RaceFree tr ∧ (∀ i : Nat, c'.threads[i]? ≠ some .panic) ∧
        (∀ r, c'.threads[0]? = some (.ret r) → r = .inl err ∧ Forced c'.mem cfg d') ∧
        ∀ (i : Nat) x r, calls[i]? = some x → c'.threads[i + 1]? = some (.ret r) → ∃ a, r = .inr a ∧ x.Alone cfg d c em c'.mem a := by
  have hwf := Reachable.wf ⟨ops, hr⟩
  obtain ⟨d', hd'⟩ := calcToken_total hwf
  refine ⟨d', _, by rw [segAddTokenForce, segAddToken_known hk, hd']; rfl, fun tr c' hx => ?_⟩
  have hT := h.segmenter.toHoldsTable
  have hTs : HoldsTable (stillPart m) cfg (some d) := ⟨hT.flags, hT.segDict, hT.maxLen, hT.trie, hT.tokHdr, hT.tok⟩
  have hT' := hT; have ht' := h.word; have hf' := h.totalFreq
  rw [← view_still m] at hT' ht' hf'
  have hI : Isolated (stillPart m) (startTagForce m add c calls) (fun i => if i = 0 then calcPart m else noMem)
      (fun i r o => if i = 0 then r = .inl (segAddToken cfg d add.text add.freq add.pos).2 ∧ Forced (view (stillPart m) o) cfg d'
        else ∀ x, calls[i - 1]? = some x → ∃ a, r = .inr a ∧ x.Alone cfg d c em (view (stillPart m) o) a) := by
    refine ⟨?_, ?_, ?_, ?_, ?_⟩
    · intro l x hx
      unfold stillPart at hx
      split at hx
      · cases hx
      · exact hx
    · intro i l x hx
      split at hx
      · unfold calcPart at hx
        split at hx
        · exact hx
        · cases hx
      · cases hx
    · intro i l x hx
      split at hx
      · unfold calcPart at hx
        split at hx
        · next hl => unfold stillPart; rw [if_pos hl]
        · cases hx
      · cases hx
    · intro i j l x hij hx
      split at hx
      · next hi => rw [if_neg (by omega)]; rfl
      · cases hx
    · intro i p hp
      match i with
      | 0 =>
        simp only [startTagForce, List.getElem?_cons_zero, Option.some.injEq] at hp
        subst hp
        simp only [if_true]
        refine wp_bind' _ _ ?_
        unfold addTokenForceP
        refine wp_bind (wp_mono ?_ _ _ (wp_addToken_known hT' ht' add.freq add.pos hk))
        rintro err o ⟨rfl, h2, h3⟩
        refine wp_mono ?_ _ _ (wp_forced (hT'.grow h3) (h3 _ _ hf') (fun j hj => ?_) hd' _)
        · rintro e o' ⟨rfl, hfo⟩
          exact ⟨rfl, hfo⟩
        · obtain ⟨x, hx⟩ := Option.isSome_iff_exists.mp (h.own j hj).1
          obtain ⟨y, hy⟩ := Option.isSome_iff_exists.mp (h.own j hj).2
          rw [h2 (.dist j) x (by simp [calcPart, Loc.calc, hx]), h2 (.subs j) y (by simp [calcPart, Loc.calc, hy])]
          exact ⟨rfl, rfl⟩
      | i + 1 =>
        simp only [startTagForce, List.getElem?_cons_succ, List.getElem?_map, Option.map_eq_some_iff] at hp
        obtain ⟨x, hc, rfl⟩ := hp
        have hmem := List.mem_of_getElem? hc
        have hret := tag_returns hr c h.segmenter h.totalFreq he x (hi x hmem) (hn x hmem)
        have hin := hi x hmem
        rw [if_neg (by omega)]
        refine wp_bind' _ _ (wp_mono ?_ _ _ (wp_tag ⟨hTs, h.totalFreq⟩ (show stillPart m .emit = _ from he) x hret fun input text mode segs e hs => ?_))
        · intro a o ha
          simp only [wp, if_neg (show ¬ (i + 1 = 0) by omega)]
          intro x' hx'
          simp only [Nat.add_sub_cancel] at hx'
          rw [hc] at hx'; cases hx'
          exact ⟨a, rfl, ha⟩
        · subst e
          exact wp_segment_nil hTs (show HoldsBytes (stillPart m) input text from hin) (fun _ _ _ => rfl) hs
            (fun d0 e => by cases e; exact lookAt_nil hwf (hno _ hmem))
  obtain ⟨own, hI', _, _⟩ := isolated_exec hI hx
  refine ⟨isolated_raceFree hI hx, fun i hp => hI'.goes i _ hp, fun r hr0 => ?_, fun i x r hxi hri => ?_⟩
  · have key := hI'.goes 0 _ hr0
    simp only [wp, if_true] at key
    exact ⟨key.1, key.2.grow (hI'.grows 0)⟩
  · have key := hI'.goes (i + 1) _ hri
    simp only [wp] at key
    rw [if_neg (by omega)] at key
    obtain ⟨a, h1, h2⟩ := key x (by simpa using hxi)
    exact ⟨a, h1, h2.grow (hI'.grows (i + 1))⟩

end

section shipped
variable [Unicode] {M : MathFns} (em : Nat → Rune → Option (Binary64 M)) (hem : ∀ y r v, em y r = some v → SizeAt 334 1 v ∧ v.datum.NonPos)
include hem

/-- C101: with the tables of the code and any emissions up to zero, the hypothesis of `C101_history` on taggers and rankers is met for every text of up to 2^52 characters
and 2^36 bytes. -/
theorem C101_shipped (s : Bytes) :
    (∀ ch hmm, 2 * (runes s).length ≤ 2 ^ 53 → (TagCall.cut ch (shippedPos em) s hmm).Good) ∧
    ∀ ch' ch K topK allow, s.length ≤ 2 ^ 36 → (TagCall.rank ch' ch K (shippedPos em) s topK allow).Good :=
  ⟨fun _ _ h _ => ⟨shippedPos_ok, _, _, (shippedPos_values hem).finite, h⟩,
    fun _ _ _ _ _ h => ⟨shippedPos_ok, ⟨_, _, (shippedPos_values hem).finite, by have := runes_length_le s; omega⟩, h⟩⟩

end shipped

section examples
attribute [local instance] sampleUnicode sampleUnicodeOK sampleF64 sampleF32 sampleNarrow

/-- A table without states. -/
def noTables : PosTables Int := ⟨[], fun _ => [], fun _ => none, fun _ _ => none, 0, 0, fun _ => none, []⟩

/-- A dictionary with one word "w". Tagging and ranking "w" while others cut it is safe. Adding "go" and removing "w" race with tagging "w", with ranking "w" and with looking
"w" up under every complete interleaving. They are safe beside tagging and ranking "!?". Forcing "w" in again is safe beside tagging "w". -/
example : ∃ (d : Dictionary Int Int), runOps {} [.add (str "w") 9 [], .recalc] Dictionary.new = some d ∧
    let m := roomy (memOf {} (some d) [str "w", str "go"]) d
    let add : ChangeCall Int := .add ⟨1, 0, 2⟩ (str "go") 5 []
    let asking : List (TagCall Int) := [.cut choiceA noTables (str "w") true, .rank choiceA choiceA ⟨0, 0, 0, 0⟩ noTables (str "w") 3 [], .use (.find (str "w"))]
    let quiet : List (TagCall Int) := [.cut choiceA noTables (str "!?") true, .rank choiceA choiceA ⟨0, 0, 0, 0⟩ noTables (str "!?") 3 []]
    (∀ tr c', Exec (startTag m hmmConst [.cut choiceA noTables (str "w") false, .use (.cut (str "w") true)]) tr c' → RaceFree tr) ∧
    (∀ tr c', Exec (startTagChange m add hmmConst asking) tr c' → (∀ i e c'', ¬ Step c' i e c'') → ¬ RaceFree tr) ∧
    (∀ tr c', Exec (startTagChange m (.remove ⟨0, 0, 1⟩ (str "w")) hmmConst asking) tr c' → (∀ i e c'', ¬ Step c' i e c'') → ¬ RaceFree tr) ∧
    (∀ tr c', Exec (startTagChange m add hmmConst quiet) tr c' → RaceFree tr) ∧
    ∀ tr c', Exec (startTagForce ((subsy m d.tokens.length).put .emit (.emit hmmEmit)) ⟨⟨0, 0, 1⟩, str "w", 5, []⟩ hmmConst
      [.cut choiceA noTables (str "w") false]) tr c' → RaceFree tr := by
  have h : (runOps (F := Int) (D := Int) {} [.add (str "w") 9 [], .recalc] Dictionary.new).isSome := by decide +kernel
  obtain ⟨d, hd⟩ := Option.isSome_iff_exists.mp h
  have hn : d.numTokens = 1 ∧ (segAddToken {} d (str "go") 5 []).1.numTokens = 2 ∧ (segAddToken {} d (str "w") 5 []).1.numTokens = 1 ∧ (d.valueOf (str "w")).2 = false := by
    have : (runOps (F := Int) (D := Int) {} [.add (str "w") 9 [], .recalc] Dictionary.new).map
        (fun d => (d.numTokens, (segAddToken {} d (str "go") 5 []).1.numTokens, (segAddToken {} d (str "w") 5 []).1.numTokens, (d.valueOf (str "w")).2)) = some (1, 2, 1, false) := by decide +kernel
    rw [hd] at this
    simpa using this
  obtain ⟨h1, h2, h2', h3⟩ := hn
  have hb := roomy_below {} d [str "w", str "go"]
  have hw0 := memOf_input {} (some d) [str "w", str "go"] 0 (str "w") rfl
  have hw1 := memOf_input {} (some d) [str "w", str "go"] 1 (str "go") rfl
  have hnw : normText {} (str "w") = str "w" := by decide +kernel
  have hadd := changeOK_roomy {} d _ (.add ⟨1, 0, 2⟩ (str "go") 5 []) [] hw1 (by simp)
  have hrem := changeOK_roomy {} d _ (.remove ⟨0, 0, 1⟩ (str "w")) [] hw0 (by simp)
  have hask : ∀ y ∈ ([.cut choiceA noTables (str "w") true, .rank choiceA choiceA ⟨0, 0, 0, 0⟩ noTables (str "w") 3 [], .use (.find (str "w"))] : List (TagCall Int)), y.Asking := by
    intro y hy
    simp only [List.mem_cons, List.not_mem_nil, or_false] at hy
    rcases hy with rfl | rfl | rfl
    · exact ⟨str "w", by decide +kernel, by decide +kernel⟩
    · exact ⟨str "w", by decide +kernel, by decide +kernel⟩
    · trivial
  have hinp : ∀ (m : Mem Int Int), ∀ y ∈ ([.cut choiceA noTables (str "w") true, .rank choiceA choiceA ⟨0, 0, 0, 0⟩ noTables (str "w") 3 [], .use (.find (str "w"))] : List (TagCall Int)), y.HasInput m := by
    intro m y hy
    simp only [List.mem_cons, List.not_mem_nil, or_false] at hy
    rcases hy with rfl | rfl | rfl <;> trivial
  have hq : ∀ u ∈ chars (str "!?"), posChar u = false := by decide +kernel
  refine ⟨d, hd, fun tr c' hx => ?_, fun tr c' hx he => ?_, fun tr c' hx he => ?_, fun tr c' hx => ?_, fun tr c' hx => ?_⟩
  · refine (C101_result _ {} d hmmConst _ _ (C101_history {} _ d hd _ hmmConst _ _ hadd.segmenter hadd.totalFreq hadd.emit ?_ ?_) tr c' hx).1
    all_goals
      intro y hy
      simp only [List.mem_cons, List.not_mem_nil, or_false] at hy
      rcases hy with rfl | rfl
    · trivial
    · trivial
    · exact fun e => by cases e
    · trivial
  · exact C101_race_complete {} _ d hd _ ⟨_, hb⟩ hmmConst _ _ _ ⟨hadd, hinp _⟩ (show (segAddToken {} d (str "go") 5 []).1.numTokens ≠ d.numTokens by rw [h1, h2]; decide)
      (by decide) hask (by simp) tr c' hx he
  · exact C101_race_complete {} _ d hd _ ⟨_, hb⟩ hmmConst _ _ _ ⟨hrem, hinp _⟩ (by show (d.valueOf (normText {} (str "w"))).2 = false; rw [hnw]; exact h3)
      (by decide) hask (by simp) tr c' hx he
  · refine (C101_quiet _ {} d _ _ hmmConst _ _ _ ⟨hadd, ?_⟩ rfl ?_ tr c' hx).1
    all_goals
      intro y hy
      simp only [List.mem_cons, List.not_mem_nil, or_false] at hy
      rcases hy with rfl | rfl
    · trivial
    · trivial
    · exact hq
    · exact hq
  · have h0 := subsy_ok {} d [str "w", str "go"] ⟨⟨0, 0, 1⟩, str "w", (5 : Int), []⟩ [] hw0 (by simp)
    have hok : ForceOK ((subsy (roomy (memOf {} (some d) [str "w", str "go"]) d) d.tokens.length).put .emit (.emit hmmEmit)) {} d ⟨⟨0, 0, 1⟩, str "w", (5 : Int), []⟩ [] := by
      refine ⟨⟨⟨h0.segmenter.flags, h0.segmenter.segDict, h0.segmenter.maxLen, h0.segmenter.trie, h0.segmenter.tokHdr, h0.segmenter.tok⟩, h0.segmenter.dist⟩, h0.totalFreq,
        ⟨h0.room.tok, h0.room.dist, h0.room.subs⟩, h0.subs, h0.word, by simp⟩
    obtain ⟨_, _, _, key⟩ := C101_force {} _ d hd _ hmmConst hmmEmit _ [.cut choiceA noTables (str "w") false] hok (put_same _ _ _)
      (by intro y hy; cases List.mem_singleton.mp hy; trivial) (by intro y hy; cases List.mem_singleton.mp hy; exact fun e => by cases e)
      (by intro y hy; cases List.mem_singleton.mp hy; trivial) (by show (segAddToken {} d (str "w") 5 []).1.numTokens = _; rw [h1, h2'])
    exact (key tr c' hx).1

end examples
end Gse
