import Verif.Model.RemoveMem
import Verif.Proofs.RaceCalc
import Verif.Proofs.RacePanic

/-!
# `RemoveToken` and `ReAddToken` over memory: refinement, and the accesses they must make
-/

namespace Gse

set_option linter.unusedSectionVars false

variable {F D : Type} [F64 F] [F32 D]

/-- Only the trie is replaced. -/
theorem HoldsSegmenter.put_trie {m : Mem F D} {cfg : SplitCfg} {d : Dictionary F D} (h : HoldsSegmenter m cfg (some d)) (t : Trie) :
    HoldsSegmenter (m.put .trie (.trie t)) cfg (some { d with trie := t }) := by
  refine ⟨⟨?_, ?_, ?_, ?_, ?_, ?_⟩, ?_⟩
  · simpa [Mem.put] using h.flags
  · simpa [Mem.put] using h.segDict
  · rintro _ ⟨⟩; simpa [Mem.put] using h.maxLen d rfl
  · rintro _ ⟨⟩; simp [Mem.put]
  · rintro _ ⟨⟩; simpa [Mem.put] using h.tokHdr d rfl
  · rintro _ ⟨⟩ i t ht; simpa [Mem.put] using h.tok d rfl i t ht
  · rintro _ ⟨⟩ i t ht; simpa [Mem.put] using h.dist d rfl i t ht

theorem HasRoom.put_trie {m : Mem F D} {n : Nat} (h : HasRoom m n) (t : Trie) : HasRoom (m.put .trie (.trie t)) n :=
  ⟨by simpa [Mem.put] using h.tok, by simpa [Mem.put] using h.dist, by simpa [Mem.put] using h.subs⟩

/-- `RemoveToken` of the dictionary in memory. -/
theorem wp_dictRemove {m : Mem F D} {cfg : SplitCfg} {d d' : Dictionary F D} {err : Bool} (hS : HoldsSegmenter m cfg (some d)) (token : Token F D)
    (h : d.removeToken token = some (d', err)) :
    wp noMem (dictRemoveP token) m (fun e m' => e = err ∧ HoldsSegmenter m' cfg (some d') ∧ (∀ l, l ≠ .trie → m' l = m l)) := by
  unfold Dictionary.removeToken at h
  unfold dictRemoveP
  refine wp_bind (wp_read (by rw [view_noMem]; exact hS.trie d rfl) (wp_ret ?_))
  split at h
  · next hd => cases h; rw [hd]; exact ⟨rfl, hS, fun _ _ => rfl⟩
  · next t hd =>
    cases h
    rw [hd]
    refine wp_bind (wp_put (by rw [hS.trie d rfl]; rfl) ?_)
    exact ⟨rfl, hS.put_trie t, fun l hl => by simp [Mem.put, hl]⟩
  · cases h

theorem writes_dictRemove {P : Loc → Prop} (h : P .trie) (token : Token F D) : Writes P (dictRemoveP token) := by
  refine writes_bind _ (by intro c; cases c <;> trivial) fun t => ?_
  show Writes P (match t.delete (textSliceToBytes token.text) with | .noPath => _ | .ok t' => _ | .unspecified => _)
  split
  · trivial
  · exact ⟨h, trivial⟩
  · trivial

/-- `RemoveToken` when the dictionary is own memory. -/
theorem wp_removeToken_own [Unicode] {sh o : Mem F D} (hsh : ∀ l : Loc, l.dict = true → sh l = none) {cfg : SplitCfg} {d d' : Dictionary F D} {err : Bool}
    (hS : HoldsSegmenter (view sh o) cfg (some d)) (hf : view sh o .totalFreq = some (.freq d.totalFreq)) {text : Slice} {s : Bytes}
    (ht : HoldsBytes (view sh o) text s) (h : segRemoveToken cfg d s = some (d', err)) :
    wp sh (removeTokenP text) o (fun e o' => e = err ∧ HoldsSegmenter (view sh o') cfg (some d') ∧ view sh o' .totalFreq = some (.freq d'.totalFreq) ∧
      ∀ a i x, view sh o (.cell a i) = some x → view sh o' (.cell a i) = some x) := by
  refine wp_fresh (wp_toToken hS.flags ht (o := noMem) (fun _ _ _ => rfl)) ?_
  rintro _ x ⟨_, rfl⟩ ha
  have hg := grows_fresh ha
  refine wp_bind (wp_read (hg _ _ hS.segDict) (wp_ret ?_))
  simp only [Option.isNone_some, Bool.false_eq_true, if_false]
  have hw : Writes (fun l => l.dict = true) (dictRemoveP (toToken cfg s (F64.ofNat 0) [] : Token F D)) := writes_dictRemove (P := fun l => l.dict = true) rfl _
  refine wp_mono ?_ _ _ (wp_unmerge hsh _ _ hw (wp_dictRemove (hS.grow hg) _ h))
  rintro e o' ⟨h1, h2, h3⟩
  refine ⟨h1, h2, ?_, fun a i x h => by rw [h3 _ (by simp)]; exact hg _ _ h⟩
  rw [h3 _ (by simp), hg _ _ hf]
  unfold segRemoveToken Dictionary.removeToken at h
  split at h <;> cases h <;> rfl

/-- `ReAddToken` when the dictionary is own memory. -/
theorem wp_reAddToken_own [Unicode] {sh o : Mem F D} (hsh : ∀ l : Loc, l.dict = true → sh l = none) {cfg : SplitCfg} {d d' : Dictionary F D} {err : Bool}
    (hS : HoldsSegmenter (view sh o) cfg (some d)) (hf : view sh o .totalFreq = some (.freq d.totalFreq)) (hroom : HasRoom (view sh o) d.tokens.length)
    {text : Slice} {s : Bytes} (ht : HoldsBytes (view sh o) text s) {freq : F} {pos : Bytes} (h : segReAddToken cfg d s freq pos = some (d', err)) :
    wp sh (reAddTokenP text freq pos) o (fun e o' => e = err ∧ HoldsSegmenter (view sh o') cfg (some d') ∧ view sh o' .totalFreq = some (.freq d'.totalFreq) ∧
      ∀ a i x, view sh o (.cell a i) = some x → view sh o' (.cell a i) = some x) := by
  refine wp_fresh (wp_toToken hS.flags ht (o := noMem) (fun _ _ _ => rfl)) ?_
  rintro _ x ⟨_, rfl⟩ ha
  have hg := grows_fresh ha
  refine wp_bind (wp_read (hg _ _ hS.segDict) (wp_ret ?_))
  simp only [Option.isNone_some, Bool.false_eq_true, if_false]
  have hw : Writes (fun l => l.dict = true) (dictRemoveP (toToken cfg s freq pos : Token F D)) := writes_dictRemove (P := fun l => l.dict = true) rfl _
  have hwa : Writes (fun l => l.dict = true) (dictAddP (toToken cfg s freq pos : Token F D)) := writes_dictAdd (P := fun l => l.dict = true) ⟨rfl, rfl, rfl, rfl, fun _ => ⟨rfl, rfl, rfl⟩⟩ _
  unfold segReAddToken at h
  split at h
  · cases h
  · next d1 hr =>
    cases h
    refine wp_bind (wp_mono ?_ _ _ (wp_unmerge hsh _ _ hw (wp_dictRemove (hS.grow hg) _ hr)))
    rintro e o' ⟨rfl, h2, h3⟩
    refine ⟨rfl, h2, ?_, fun a i x h => by rw [h3 _ (by simp)]; exact hg _ _ h⟩
    rw [h3 _ (by simp), hg _ _ hf]
    unfold Dictionary.removeToken at hr
    split at hr <;> cases hr; rfl
  · next d1 hr =>
    obtain ⟨rfl, rfl⟩ : (d1.addToken (toToken cfg s freq pos)).1 = d' ∧ (d1.addToken (toToken cfg s freq pos)).2 = err :=
      ⟨congrArg Prod.fst (Option.some.inj h), congrArg Prod.snd (Option.some.inj h)⟩
    refine wp_bind (wp_mono ?_ _ _ (wp_unmerge hsh _ _ hw (wp_dictRemove (hS.grow hg) _ hr)))
    rintro e o' ⟨rfl, h2, h3⟩
    simp only [Bool.false_eq_true, if_false]
    refine wp_bind (wp_read h2.segDict (wp_ret ?_))
    simp only [Option.isNone_some, Bool.false_eq_true, if_false]
    have hlen : d1.tokens.length = d.tokens.length ∧ d1.totalFreq = d.totalFreq := by
      unfold Dictionary.removeToken at hr
      split at hr <;> cases hr; exact ⟨rfl, rfl⟩
    have hroom' : HasRoom (view sh o') d1.tokens.length := by
      have := hroom.grow hg
      rw [hlen.1]
      exact ⟨by rw [h3 _ (by simp)]; exact this.tok, by rw [h3 _ (by simp)]; exact this.dist, by rw [h3 _ (by simp)]; exact this.subs⟩
    refine wp_mono ?_ _ _ (wp_unmerge hsh _ _ hwa (wp_dictAdd h2 (by rw [h3 _ (by simp), hg _ _ hf, hlen.2]) hroom' _))
    rintro e o'' ⟨h4, h5, h6, h7⟩
    exact ⟨h4, h5, h6, fun a i x h => by rw [h7, h3 _ (by simp)]; exact hg _ _ h⟩

/-! ## Words that are not there -/

/-- `RemoveToken` of an unknown word writes nothing. -/
theorem wp_removeToken_none [Unicode] {sh o : Mem F D} {cfg : SplitCfg} {d : Dictionary F D} (hT : HoldsTable (view sh o) cfg (some d))
    {text : Slice} {s : Bytes} (ht : HoldsBytes (view sh o) text s) (hk : d.trie.delete (textSliceToBytes (splitTextToWords cfg s)) = .noPath) :
    wp sh (removeTokenP text) o (fun e o' => e = true ∧ Grows o o' ∧ Grows (view sh o) (view sh o')) := by
  refine wp_fresh (wp_toToken hT.flags ht (o := noMem) (fun _ _ _ => rfl)) ?_
  rintro _ x ⟨_, rfl⟩ ha
  have hg := grows_fresh ha
  have ho := grows_own ha
  refine wp_bind (wp_read (hg _ _ hT.segDict) (wp_ret ?_))
  simp only [Option.isNone_some, Bool.false_eq_true, if_false]
  unfold dictRemoveP
  refine wp_bind (wp_read (hg _ _ (hT.trie d rfl)) (wp_ret ?_))
  show wp sh (match d.trie.delete (textSliceToBytes (splitTextToWords cfg s)) with | .noPath => _ | .ok t' => _ | .unspecified => _) _ _
  rw [hk]
  exact ⟨rfl, ho, hg⟩

/-- `ReAddToken` of an unknown word writes nothing. -/
theorem wp_reAddToken_none [Unicode] {sh o : Mem F D} {cfg : SplitCfg} {d : Dictionary F D} (hT : HoldsTable (view sh o) cfg (some d))
    {text : Slice} {s : Bytes} (ht : HoldsBytes (view sh o) text s) (freq : F) (pos : Bytes)
    (hk : d.trie.delete (textSliceToBytes (splitTextToWords cfg s)) = .noPath) :
    wp sh (reAddTokenP text freq pos) o (fun e o' => e = true ∧ Grows o o' ∧ Grows (view sh o) (view sh o')) := by
  refine wp_fresh (wp_toToken hT.flags ht (o := noMem) (fun _ _ _ => rfl)) ?_
  rintro _ x ⟨_, rfl⟩ ha
  have hg := grows_fresh ha
  have ho := grows_own ha
  refine wp_bind (wp_read (hg _ _ hT.segDict) (wp_ret ?_))
  simp only [Option.isNone_some, Bool.false_eq_true, if_false]
  unfold dictRemoveP
  refine wp_bind (wp_bind (wp_read (hg _ _ (hT.trie d rfl)) (wp_ret ?_)))
  show wp sh (match d.trie.delete (textSliceToBytes (splitTextToWords cfg s)) with | .noPath => _ | .ok t' => _ | .unspecified => _) _ _
  rw [hk]
  exact ⟨rfl, ho, hg⟩

/-! ## The trie is written -/

/-- After the word has been split: read the dictionary pointer, then go on with own memory that holds the dictionary. -/
theorem obeys_token [Unicode] {m : Mem F D} {cfg : SplitCfg} {d : Dictionary F D} (hS : HoldsSegmenter m cfg (some d))
    {input : Slice} {s : Bytes} (ht : HoldsBytes m input s) (freq : F) (pos : Bytes) {f : Token F D → Prog F D Bool}
    (hf : ∀ o : Mem F D, (∀ l x, l.dict = true → m l = some x → o l = some x) → (∀ l, l.dict = false → (m l).isSome → o l = none) →
      Obeys (adding m d.maxTokenLen) (.wr .trie) false (f (toToken cfg s freq pos)) o) :
    Obeys (adding m d.maxTokenLen) (.wr .trie) false (toTokenP input freq pos >>= f) (dictPart m) := by
  have hcell : ∀ a i, restPart m (.cell a i) = m (.cell a i) := fun _ _ => rfl
  have htr : HoldsBytes (restPart m) input s := ⟨ht.1, fun k b hb => by rw [hcell]; exact ht.2 k b hb⟩
  have hd : ∀ l x, restPart m l = some x → dictPart m l = none := by
    intro l x h
    unfold restPart at h; unfold dictPart
    split at h
    · cases h
    · next hl => rw [if_neg hl]
  have h0 : view (dictPart m) noMem = dictPart m := by funext l; simp [view, noMem]
  rw [← h0]
  refine obeys_wp (adding_stable m _) hd (fun _ _ => rfl) ?_ _ _
    (wp_toToken (sh := restPart m) (cfg := cfg) (by simpa [restPart, Loc.dict] using hS.flags) htr (o := noMem) (fun _ _ _ => rfl)) (fun l h => by cases h) (fun _ _ h => by cases h)
  rintro t o ⟨_, rfl⟩ hp _
  have hnone : ∀ l, (m l).isSome → o l = none := fun l h => hp.none h
  refine hf _ (fun l x h1 h2 => ?_) fun l h1 h2 => ?_
  · have : o l = none := hnone l (by rw [h2]; rfl)
    simp [view, this, dictPart, h1, h2]
  · have : o l = none := hnone l h2
    simp [view, this, dictPart, h1]

/-- The dictionary pointer is not nil, whatever happens to the dictionary. -/
theorem obeys_segDict {m o : Mem F D} {n : Nat} {done : Bool} {f : Bool → Prog F D Bool} (hS : m .segDict = some (.bool false)) (ho : o .segDict = none)
    (h : Obeys (adding m n) (.wr .trie) done (f false) o) : Obeys (adding m n) (.wr .trie) done (Prog.rdBool .segDict >>= f) o := by
  refine obeys_read (l := .segDict) ho (by simp [adding, hS]) fun c hc => ?_
  have hc' : c = .bool false := by
    have := hc.1 rfl
    rw [hS] at this; exact (Option.some.inj this).symm
  subst hc'
  rw [show (done || decide (Access.wr Loc.trie = Access.rd Loc.segDict)) = done by simp]
  exact h

theorem val_trie (m : Mem F D) (n : Nat) (t : Trie) : (adding m n).val .trie (.trie t) := ⟨(fun h => by cases h), fun h => by cases h⟩

/-- `RemoveToken` of a stored word writes the trie. -/
theorem obeys_removeToken [Unicode] {m : Mem F D} {cfg : SplitCfg} {d : Dictionary F D} (hS : HoldsSegmenter m cfg (some d))
    {input : Slice} {s : Bytes} (ht : HoldsBytes m input s) {t' : Trie} (hd : d.trie.delete (textSliceToBytes (splitTextToWords cfg s)) = .ok t') :
    Obeys (adding m d.maxTokenLen) (.wr .trie) false (removeTokenP input) (dictPart m) := by
  refine obeys_token hS ht _ _ fun o h1 h2 => ?_
  refine obeys_segDict hS.segDict (h2 _ rfl (by rw [hS.segDict]; rfl)) ?_
  show Obeys _ _ _ (dictRemoveP _) _
  unfold dictRemoveP
  refine obeys_own (h1 _ _ rfl (hS.trie d rfl)) ?_
  show Obeys _ _ _ (match d.trie.delete (textSliceToBytes (splitTextToWords cfg s)) with | .noPath => _ | .ok t' => _ | .unspecified => _) _
  rw [hd]
  exact obeys_put (by rw [h1 _ _ rfl (hS.trie d rfl)]; rfl) (fun _ => val_trie _ _ _) rfl

/-- `ReAddToken` of a stored word writes the trie. -/
theorem obeys_reAddToken [Unicode] {m : Mem F D} {cfg : SplitCfg} {d : Dictionary F D} (hS : HoldsSegmenter m cfg (some d))
    (hf : m .totalFreq = some (.freq d.totalFreq)) (hroom : HasRoom m d.tokens.length)
    {input : Slice} {s : Bytes} (ht : HoldsBytes m input s) (freq : F) (pos : Bytes) {t' : Trie} (hd : d.trie.delete (textSliceToBytes (splitTextToWords cfg s)) = .ok t') :
    Obeys (adding m d.maxTokenLen) (.wr .trie) false (reAddTokenP input freq pos) (dictPart m) := by
  refine obeys_token hS ht _ _ fun o h1 h2 => ?_
  have hn := h2 .segDict rfl (by rw [hS.segDict]; rfl)
  refine obeys_segDict hS.segDict hn ?_
  show Obeys _ _ _ (dictRemoveP _ >>= _) _
  unfold dictRemoveP
  refine obeys_own (h1 _ _ rfl (hS.trie d rfl)) ?_
  show Obeys _ _ _ (Prog.bind (match d.trie.delete (textSliceToBytes (splitTextToWords cfg s)) with | .noPath => _ | .ok t' => _ | .unspecified => _) _) _
  rw [hd]
  refine ⟨by rw [h1 _ _ rfl (hS.trie d rfl)]; rfl, fun _ => val_trie _ _ _, ?_⟩
  refine obeys_segDict hS.segDict (by simpa [Mem.put] using hn) ?_
  show Obeys _ _ _ (dictAddP _) _
  unfold dictAddP
  refine obeys_own (c := .trie t') (by simp [Mem.put]) ?_
  show Obeys _ _ true (match t'.get (textSliceToBytes (splitTextToWords cfg s)) with | some _ => _ | none => _) _
  cases hg : t'.get (textSliceToBytes (splitTextToWords cfg s)) with
  | some v => rfl
  | none =>
    simp only
    have own : ∀ l x, l.dict = true → l ≠ .trie → m l = some x → (o.put .trie (.trie t')) l = some x := by
      intro l x h3 h4 h5
      rw [put_other _ _ h4]; exact h1 l x h3 h5
    have room : ∀ l, l.dict = true → l ≠ .trie → (m l).isSome → ((o.put .trie (.trie t')) l).isSome := by
      intro l h3 h4 h5
      obtain ⟨x, hx⟩ := Option.isSome_iff_exists.mp h5
      rw [own l x h3 h4 hx]; rfl
    cases hi : t'.insert (textSliceToBytes (splitTextToWords cfg s)) d.tokens.length with
    | none =>
      unfold insertP
      refine obeys_own (own _ _ rfl (by simp) (hS.tokHdr d rfl)) ?_
      refine obeys_own (c := .trie t') (by simp [Mem.put]) ?_
      show Obeys _ _ true (match t'.insert (textSliceToBytes (splitTextToWords cfg s)) d.tokens.length with | none => _ | some _ => _) _
      rw [hi]; rfl
    | some t2 =>
      exact Obeys_mono _ _ _ _ (obeys_insert (d := { d with trie := t' }) (own _ _ rfl (by simp) (hS.maxLen d rfl)) (by simp [Mem.put])
        (own _ _ rfl (by simp) (hS.tokHdr d rfl))
        ⟨room _ rfl (by simp) hroom.tok, room _ rfl (by simp) hroom.dist, room _ rfl (by simp) hroom.subs⟩ (own _ _ rfl (by simp) hf) hi _ (.inl rfl))

end Gse
