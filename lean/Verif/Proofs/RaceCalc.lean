import Verif.Proofs.RaceAdd
import Verif.Proofs.CalcMem

/-!
# `AddTokenForce` beside goroutines that segment
-/

namespace Gse

set_option linter.unusedSectionVars false

variable {F D α β : Type}

/-! ## Sequencing -/

/-- Whatever the own memory is asked to hold at a shared location is allowed. -/
def Allowed (R : Rely F D) (o : Mem F D) : Prop := ∀ l, (o l).isSome → R.loc l → ∀ c, R.val l c

theorem Allowed.put {R : Rely F D} {o : Mem F D} (h : Allowed R o) {l : Loc} (hl : (o l).isSome) (c : Cell F D) : Allowed R (o.put l c) := by
  intro l' hl' hloc
  by_cases e : l' = l
  · subst e; exact h _ hl hloc
  · rw [put_other _ _ e] at hl'; exact h l' hl' hloc

theorem Allowed.extend {R : Rely F D} {o : Mem F D} (h : Allowed R o) {a : Nat} (cs : List (Cell F D)) (hna : ∀ i, ¬ R.loc (.cell a i)) : Allowed R (o.extend a cs) := by
  intro l hl hloc
  by_cases e : ∃ n, l = .cell a n
  · obtain ⟨n, rfl⟩ := e; exact absurd hloc (hna n)
  · rw [extend_other _ _ (fun n hn => e ⟨n, hn⟩)] at hl; exact h l hl hloc

theorem Obeys_or {R : Rely F D} {e : Access} {done b : Bool} {p : Prog F D α} {o : Mem F D} (h : Obeys R e done p o) : Obeys R e (done || b) p o := by
  cases done with
  | true => exact h
  | false =>
    cases b with
    | false => exact h
    | true => exact Obeys_mono R e _ _ h

/-- Begin with a part that leaves the shared memory `sh` and the own memory `t` alone, and may write all of its other own memory. -/
theorem obeys_owned {R : Rely F D} {e : Access} {done : Bool} {sh t : Mem F D} {f : α → Prog F D β}
    (hR : ∀ l x, sh l = some x → R.loc l ∧ ∀ y, R.val l y → y = x) {Q : α → Mem F D → Prop}
    (hf : ∀ a o, Q a o → Allowed R o → Obeys R e done (f a) (view t o)) :
    ∀ (p : Prog F D α) (o : Mem F D), wp (view sh t) p o Q → Allowed R o → Obeys R e done (p.bind f) (view t o)
  | .ret a, o, hp, ha => hf a o hp ha
  | .panic, _, hp, _ => hp.elim
  | .read l k, o, ⟨c, hc, hp⟩, ha => by
    have ih := obeys_owned hR hf (k c) o hp ha
    rw [view_view] at hc
    rcases view_some.mp hc with h1 | ⟨h1, h2⟩
    · exact .inr (.inl ⟨c, h1, Obeys_or ih⟩)
    · refine .inr (.inr ⟨h1, (hR l c h2).1, fun y hy => ?_⟩)
      rw [(hR l c h2).2 y hy]; exact Obeys_or ih
  | .write l c k, o, ⟨hl, hp⟩, ha => by
    have ih := obeys_owned hR hf k (o.put l c) hp (ha.put hl c)
    obtain ⟨x, hx⟩ := Option.isSome_iff_exists.mp hl
    refine ⟨by rw [view_own hx]; rfl, fun h => ha l hl h c, ?_⟩
    rw [← view_put]; exact Obeys_or ih
  | .alloc cs k, o, hp, ha => by
    intro a hu hna
    obtain ⟨h1, h2⟩ := unused_view hu
    have h3 : sh.Unused a := by
      intro i
      cases hx : sh (.cell a i) with
      | none => rfl
      | some y => exact absurd (hR _ y hx).1 (hna i)
    rw [← view_extend o cs h2]
    exact obeys_owned hR hf (k a) _ (hp a h1 (unused_view_iff.mpr ⟨h2, h3⟩)) (ha.extend cs hna)

/-- Begin with a part of which both the result and the access are known. The own memory has a shared location. -/
theorem obeys_seq {R : Rely F D} {e : Access} {sh : Mem F D} {f : α → Prog F D β}
    (hR : ∀ l x, sh l = some x → R.loc l ∧ ∀ y, R.val l y → y = x) {Q : α → Mem F D → Prop}
    (hf : ∀ a o, Q a o → Obeys R e true (f a) o) {l0 : Loc} (hl0 : R.loc l0) :
    ∀ (p : Prog F D α) (o : Mem F D) (done : Bool), wp sh p o Q → Obeys R e done p o → (o l0).isSome → Obeys R e done (p.bind f) o
  | .ret a, o, done, hp, ho, _ => by
    have : done = true := ho
    subst this; exact hf a o hp
  | .panic, _, _, hp, _, _ => hp.elim
  | .read l k, o, done, ⟨c, hc, hp⟩, ho, h0 => by
    rcases ho with ⟨_, h2, _⟩ | ⟨c', hc', ho⟩ | ⟨h1, h2, ho⟩
    · exact absurd hl0 (h2 _ h0)
    · rw [view_own hc'] at hc; cases hc
      exact .inr (.inl ⟨c, hc', obeys_seq hR hf hl0 (k c) o _ hp ho h0⟩)
    · rcases view_some.mp hc with h3 | ⟨_, h3⟩
      · rw [h1] at h3; cases h3
      · refine .inr (.inr ⟨h1, h2, fun y hy => ?_⟩)
        have e := (hR l c h3).2 y hy
        subst e
        exact obeys_seq hR hf hl0 (k y) o _ hp (ho y hy) h0
  | .write l c k, o, done, ⟨_, hp⟩, ⟨h1, h2, h3⟩, h0 => by
    refine ⟨h1, h2, obeys_seq hR hf hl0 k _ _ hp h3 ?_⟩
    by_cases e : l0 = l
    · subst e; rw [put_same]; rfl
    · rw [put_other _ _ e]; exact h0
  | .alloc cs k, o, done, hp, ho, h0 => fun a hu hna => by
    have h3 : sh.Unused a := by
      intro i
      cases hx : sh (.cell a i) with
      | none => rfl
      | some y => exact absurd (hR _ y hx).1 (hna i)
    refine obeys_seq hR hf hl0 (k a) _ _ (hp a hu h3) (ho a hu hna) ?_
    obtain ⟨x, hx⟩ := Option.isSome_iff_exists.mp h0
    rw [extend_unused cs hu hx]; rfl

/-! ## `AddToken` in own memory -/

variable [F64 F] [F32 D]

/-- `AddToken` when the dictionary is own memory. -/
theorem wp_addToken_own [Unicode] {sh o : Mem F D} (hsh : ∀ l : Loc, l.dict = true → sh l = none) {cfg : SplitCfg} {d : Dictionary F D}
    (hS : HoldsSegmenter (view sh o) cfg (some d)) (hf : view sh o .totalFreq = some (.freq d.totalFreq))
    (hroom : HasRoom (view sh o) d.tokens.length) {text : Slice} {s : Bytes} (ht : HoldsBytes (view sh o) text s) (freq : F) (pos : Bytes) :
    wp sh (addTokenP text freq pos) o (fun e o' => e = (segAddToken cfg d s freq pos).2 ∧ HoldsSegmenter (view sh o') cfg (some (segAddToken cfg d s freq pos).1) ∧
      view sh o' .totalFreq = some (.freq (segAddToken cfg d s freq pos).1.totalFreq) ∧ ∀ a i x, view sh o (.cell a i) = some x → view sh o' (.cell a i) = some x) := by
  refine wp_fresh (wp_toToken hS.flags ht (o := noMem) (fun _ _ _ => rfl)) ?_
  rintro _ x ⟨_, rfl⟩ ha
  have hg := grows_fresh ha
  refine wp_bind (wp_read (hg _ _ hS.segDict) (wp_ret ?_))
  simp only [Option.isNone_some, Bool.false_eq_true, if_false]
  have hw : Writes (fun l => l.dict = true) (dictAddP (toToken cfg s freq pos : Token F D)) := writes_dictAdd (P := fun l => l.dict = true) ⟨rfl, rfl, rfl, rfl, fun _ => ⟨rfl, rfl, rfl⟩⟩ _
  refine wp_mono ?_ _ _ (wp_unmerge hsh _ _ hw (wp_dictAdd (hS.grow hg) (hg _ _ hf) (hroom.grow hg) _))
  rintro e o' ⟨h1, h2, h3, h4⟩
  exact ⟨h1, h2, h3, fun a i x h => by rw [h4]; exact hg _ _ h⟩

/-- A word that is known, or that cannot be stored. -/
theorem addToken_known {d : Dictionary F D} {token : Token F D} (h : (d.addToken token).1.numTokens = d.numTokens) :
    (∃ v, d.trie.get (textSliceToBytes token.text) = some v ∧ d.addToken token = (d, false)) ∨
    (d.trie.get (textSliceToBytes token.text) = none ∧ d.trie.insert (textSliceToBytes token.text) d.tokens.length = none ∧ d.addToken token = (d, true)) := by
  cases hg : d.trie.get (textSliceToBytes token.text) with
  | some v => exact .inl ⟨v, rfl, by simp [Dictionary.addToken, hg]⟩
  | none =>
    cases hi : d.trie.insert (textSliceToBytes token.text) d.tokens.length with
    | none => exact .inr ⟨rfl, rfl, by simp [Dictionary.addToken, hg, Dictionary.numTokens, hi]⟩
    | some t' => simp [Dictionary.addToken, hg, Dictionary.numTokens, hi] at h

theorem segAddToken_known [Unicode] {cfg : SplitCfg} {d : Dictionary F D} {s : Bytes} {freq : F} {pos : Bytes}
    (h : (segAddToken cfg d s freq pos).1.numTokens = d.numTokens) : (segAddToken cfg d s freq pos).1 = d := by
  rcases addToken_known h with ⟨v, _, h⟩ | ⟨_, _, h⟩
  · exact congrArg Prod.fst h
  · exact congrArg Prod.fst h

/-- `AddToken` of a known word writes nothing. -/
theorem wp_addToken_known [Unicode] {sh o : Mem F D} {cfg : SplitCfg} {d : Dictionary F D} (hT : HoldsTable (view sh o) cfg (some d))
    {text : Slice} {s : Bytes} (ht : HoldsBytes (view sh o) text s) (freq : F) (pos : Bytes) (hk : (segAddToken cfg d s freq pos).1.numTokens = d.numTokens) :
    wp sh (addTokenP text freq pos) o (fun e o' => e = (segAddToken cfg d s freq pos).2 ∧ Grows o o' ∧ Grows (view sh o) (view sh o')) := by
  refine wp_fresh (wp_toToken hT.flags ht (o := noMem) (fun _ _ _ => rfl)) ?_
  rintro _ x ⟨_, rfl⟩ ha
  have hg := grows_fresh ha
  have ho := grows_own ha
  refine wp_bind (wp_read (hg _ _ hT.segDict) (wp_ret ?_))
  simp only [Option.isNone_some, Bool.false_eq_true, if_false]
  unfold segAddToken at hk ⊢
  generalize (toToken cfg s freq pos : Token F D) = token at hk ⊢
  unfold dictAddP
  refine wp_bind (wp_read (hg _ _ (hT.trie d rfl)) (wp_ret ?_))
  rcases addToken_known hk with ⟨v, h1, h2⟩ | ⟨h1, h2, h3⟩
  · rw [h1, h2]; exact ⟨rfl, ho, hg⟩
  · rw [h1, h3]
    simp only
    unfold insertP
    refine wp_bind (wp_read (hg _ _ (hT.tokHdr d rfl)) (wp_ret ?_))
    refine wp_bind (wp_read (hg _ _ (hT.trie d rfl)) (wp_ret ?_))
    rw [h2]; exact ⟨rfl, ho, hg⟩

theorem HoldsTable.grow {m m' : Mem F D} {cfg : SplitCfg} {dict : Option (Dictionary F D)} (h : HoldsTable m cfg dict) (hg : Grows m m') : HoldsTable m' cfg dict :=
  ⟨hg _ _ h.flags, hg _ _ h.segDict, fun d e => hg _ _ (h.maxLen d e), fun d e => hg _ _ (h.trie d e), fun d e => hg _ _ (h.tokHdr d e),
    fun d e i t ht => hg _ _ (h.tok d e i t ht)⟩

variable [Narrow F D]

/-! ## Adding a new word by force -/

/-- Distances and sub-segments. -/
def Loc.calc : Loc → Bool
  | .dist _ | .subs _ => true
  | _ => false

/-- `AddTokenForce` of a new word, see `obeys_addToken`. -/
theorem obeys_addTokenForce [Unicode] {m : Mem F D} {cfg : SplitCfg} {d d' : Dictionary F D} (hS : HoldsSegmenter m cfg (some d))
    (hf : m .totalFreq = some (.freq d.totalFreq)) (hroom : HasRoom m d.tokens.length) (hsubs : ∀ i, i < d.tokens.length → (m (.subs i)).isSome)
    {input : Slice} {s : Bytes} (ht : HoldsBytes m input s)
    (freq : F) (pos : Bytes) (hnew : (segAddToken cfg d s freq pos).1.numTokens ≠ d.numTokens) (hc : calcToken (segAddToken cfg d s freq pos).1 = some d') (e : Access)
    (he : e = .wr .trie ∨ (e = .wr .maxLen ∧ d.maxTokenLen < (splitTextToWords cfg s).length)) :
    Obeys (adding m d.maxTokenLen) e false (addTokenForceP input freq pos) (dictPart m) := by
  have hm : view (restPart m) (dictPart m) = m := by
    funext l; simp only [view, restPart, dictPart]; cases h : l.dict <;> simp
  have hS' := hS; have hf' := hf; have hroom' := hroom; have ht' := ht
  rw [← hm] at hS' hf' hroom' ht'
  have hsh : ∀ l : Loc, l.dict = true → restPart m l = none := fun l h => by simp [restPart, h]
  have hw := wp_apart _ _ (fun l x h => by
    unfold restPart at h; unfold dictPart
    split at h
    · cases h
    · next hl => rw [if_neg hl]) (wp_owned _ _ (wp_addToken_own hsh hS' hf' hroom' ht' freq pos))
  refine obeys_seq (adding_stable m _) ?_ (l0 := .trie) (by simp [adding, hS.trie d rfl]) _ _ _ hw
    (obeys_addToken hS hf hroom ht freq pos hnew e he) (by simp [dictPart, Loc.dict, hS.trie d rfl])
  rintro err o ⟨⟨⟨rfl, h2, h3, _⟩, h5⟩, h6⟩
  -- the part of the dictionary that stays from now on, and the part that is written
  let t : Mem F D := fun l => if l.dict && !l.calc then o l else none
  let w : Mem F D := fun l => if l.dict && !l.calc then none else o l
  have ho : o = view t w := by
    funext l; simp only [view, t, w]; cases h : (l.dict && !l.calc) <;> simp
  have hlen : (segAddToken cfg d s freq pos).1.tokens.length ≤ d.tokens.length + 1 := by
    unfold segAddToken Dictionary.addToken
    simp only
    split
    · simp
    · split
      · simp
      · simp
  have hown : ∀ j, j < (segAddToken cfg d s freq pos).1.tokens.length → (w (.dist j)).isSome ∧ (w (.subs j)).isSome := by
    intro j hj
    have hd : (m (.dist j)).isSome ∧ (m (.subs j)).isSome := by
      by_cases e : j = d.tokens.length
      · subst e; exact ⟨hroom.dist, hroom.subs⟩
      · have hj' : j < d.tokens.length := by omega
        exact ⟨by rw [hS.dist d rfl j _ (List.getElem?_eq_getElem hj')]; rfl, hsubs j hj'⟩
    exact ⟨h5 _ (by simpa [dictPart, Loc.dict] using hd.1), h5 _ (by simpa [dictPart, Loc.dict] using hd.2)⟩
  rw [ho] at h2 h3 ⊢
  rw [← view_view] at h2 h3
  refine obeys_owned (adding_stable m _) (f := fun _ => .ret (segAddToken cfg d s freq pos).2) (Q := fun _ _ => True) (fun _ _ _ _ => (rfl : true = true)) _ _ (wp_mono (fun _ _ _ => trivial) _ _ (wp_calcToken h2.toHoldsTable h3 hown hc)) ?_
  intro l hl hloc c
  refine ⟨fun hdict => ?_, ?_⟩
  · exfalso
    simp only [w, hdict, Bool.false_and, Bool.false_eq_true, if_false] at hl
    obtain ⟨x, hx⟩ := Option.isSome_iff_exists.mp hloc
    rw [h6 l x (by simp [restPart, hdict, hx])] at hl
    cases hl
  · rintro rfl
    simp [w, Loc.dict, Loc.calc] at hl

end Gse
