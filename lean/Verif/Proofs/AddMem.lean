import Verif.Model.AddMem
import Verif.Proofs.SegMem

/-!
# `addTokenP` alone computes what `AddToken` computes
-/

namespace Gse

variable {F D α β : Type}

/-- No memory. -/
def noMem : Mem F D := fun _ => none

theorem view_noMem (m : Mem F D) : view noMem m = m := by
  funext l; simp [view, noMem]

theorem view_put (sh o : Mem F D) (l : Loc) (c : Cell F D) : view sh (o.put l c) = (view sh o).put l c := by
  funext l'; simp only [view, Mem.put]; split <;> rfl

theorem view_extend {sh : Mem F D} (o : Mem F D) {a : Nat} (cs : List (Cell F D)) (hs : sh.Unused a) :
    view sh (o.extend a cs) = (view sh o).extend a cs := by
  funext l
  cases l with
  | cell a' i =>
    simp only [view, Mem.extend]
    split
    · next h => subst h; rw [hs i]; simp
    · rfl
  | _ => rfl

theorem unused_view {sh o : Mem F D} {a : Nat} (h : (view sh o).Unused a) : o.Unused a ∧ sh.Unused a := by
  constructor <;> intro i <;> have := h i <;> simp only [view, Option.or_eq_none_iff] at this
  · exact this.1
  · exact this.2

/-- A program that leaves the shared memory alone also runs with all memory as its own. -/
theorem wp_merge {sh : Mem F D} {Q : α → Mem F D → Prop} : ∀ (p : Prog F D α) (o : Mem F D), wp sh p o Q →
    wp noMem p (view sh o) (fun a m => ∃ o', m = view sh o' ∧ Q a o')
  | .ret _, o, h => ⟨o, rfl, h⟩
  | .panic, _, h => h
  | .read _ k, o, ⟨c, hc, h⟩ => ⟨c, by rw [view_noMem]; exact hc, wp_merge (k c) o h⟩
  | .write l c k, o, ⟨hl, h⟩ => by
    refine ⟨?_, ?_⟩
    · obtain ⟨x, hx⟩ := Option.isSome_iff_exists.mp hl
      rw [view_own hx]; rfl
    · rw [← view_put]; exact wp_merge k _ h
  | .alloc cs k, o, h => by
    intro a ha _
    obtain ⟨h1, h2⟩ := unused_view ha
    rw [← view_extend o cs h2]
    exact wp_merge (k a) _ (h a h1 h2)

section words
variable {sh o : Mem F D}

theorem wp_rdWords {a : Nat} {Q : List Bytes → Mem F D → Prop} : ∀ (ws : List Bytes) (i : Nat),
    (∀ k w, ws[k]? = some w → ∃ s, view sh o (.cell a (i + k)) = some (.word s) ∧ HoldsBytes (view sh o) s w) → Q ws o →
      wp sh (Prog.rdWords a i ws.length) o Q := by
  intro ws
  induction ws generalizing Q with
  | nil => intro i _ hq; exact hq
  | cons w ws ih =>
    intro i h hq
    obtain ⟨s, h1, h2⟩ := h 0 w rfl
    refine wp_bind (wp_read h1 (wp_ret ?_))
    refine wp_bind (wp_rdSlice h2 ?_)
    refine wp_bind (ih (i + 1) (fun k w' hw => ?_) hq)
    have := h (k + 1) w' hw
    rwa [show i + (k + 1) = i + 1 + k by omega] at this

theorem wp_put {l : Loc} {c : Cell F D} {Q : Unit → Mem F D → Prop} (h : (o l).isSome) (hq : Q () (o.put l c)) :
    wp sh (Prog.put l c) o Q := ⟨h, hq⟩

end words

theorem HasRoom.grow {m m' : Mem F D} {n : Nat} (h : HasRoom m n) (hg : Grows m m') : HasRoom m' n := by
  have key : ∀ l, (m l).isSome → (m' l).isSome := by
    intro l hl
    obtain ⟨x, hx⟩ := Option.isSome_iff_exists.mp hl
    rw [hg _ _ hx]; rfl
  exact ⟨key _ h.tok, key _ h.dist, key _ h.subs⟩

variable [F64 F] [F32 D]

omit [F64 F] in
theorem wp_toToken [Unicode] {sh : Mem F D} {cfg : SplitCfg} (hf : sh .flags = some (.flags cfg))
    {text : Slice} {s : Bytes} (ht : HoldsBytes sh text s) {o : Mem F D} (ha : Apart sh o) {freq : F} {pos : Bytes} :
    wp sh (toTokenP text freq pos) o (fun t o' => Apart sh o' ∧ t = toToken cfg s freq pos) := by
  refine wp_bind (wp_mono ?_ _ _ (wp_split hf ht ha))
  rintro r o' ⟨h1, h2, h3⟩
  refine wp_bind ?_
  rw [h2]
  exact wp_rdWords _ 0 (by simpa [WordsAt] using h3) ⟨h1, rfl⟩

omit [F32 D] in
/-- Memory after `AddToken` alone: the dictionary with the token, and all else that was there before. -/
theorem wp_dictAdd {m : Mem F D} {cfg : SplitCfg} {d : Dictionary F D} (hS : HoldsSegmenter m cfg (some d)) (ht : m .totalFreq = some (.freq d.totalFreq))
    (hroom : HasRoom m d.tokens.length) (token : Token F D) :
    wp noMem (dictAddP token) m (fun e m' => e = (d.addToken token).2 ∧ HoldsSegmenter m' cfg (some (d.addToken token).1) ∧
      m' .totalFreq = some (.freq (d.addToken token).1.totalFreq) ∧ ∀ a i, m' (.cell a i) = m (.cell a i)) := by
  have rd : ∀ {m : Mem F D} {l : Loc} {x : Cell F D}, m l = some x → view noMem m l = some x := by
    intro m l x h; rw [view_noMem]; exact h
  have h1 := hS.maxLen d rfl
  have h2 := hS.trie d rfl
  have h3 := hS.tokHdr d rfl
  have h4 := hS.tok d rfl
  have h6 := hS.dist d rfl
  unfold dictAddP
  refine wp_bind (wp_read (rd h2) (wp_ret ?_))
  cases hg : d.trie.get (textSliceToBytes token.text) with
  | some v =>
    rw [show d.addToken token = (d, false) by simp [Dictionary.addToken, hg]]
    exact ⟨rfl, hS, ht, fun _ _ => rfl⟩
  | none =>
    simp only
    unfold insertP
    refine wp_bind (wp_read (rd h3) (wp_ret ?_))
    refine wp_bind (wp_read (rd h2) (wp_ret ?_))
    cases hi : d.trie.insert (textSliceToBytes token.text) d.tokens.length with
    | none =>
      rw [show d.addToken token = (d, true) by simp [Dictionary.addToken, hg, Dictionary.numTokens, hi]]
      exact ⟨rfl, hS, ht, fun _ _ => rfl⟩
    | some t' =>
      rw [show d.addToken token = ({ d with trie := t', tokens := d.tokens ++ [token], totalFreq := F64.add d.totalFreq token.freq, maxTokenLen := if token.text.length > d.maxTokenLen then token.text.length else d.maxTokenLen }, false) by
        simp [Dictionary.addToken, hg, Dictionary.numTokens, hi]]
      simp only
      refine wp_bind (wp_put (by rw [h2]; rfl) ?_)
      refine wp_bind (wp_read (rd (x := .nat d.tokens.length) (by simp [Mem.put, h3])) (wp_ret ?_))
      refine wp_bind (wp_put (by simpa [Mem.put] using hroom.tok) ?_)
      refine wp_bind (wp_put (by simpa [Mem.put] using hroom.dist) ?_)
      refine wp_bind (wp_put (by simpa [Mem.put] using hroom.subs) ?_)
      refine wp_bind (wp_put (by simp [Mem.put, h3]) ?_)
      refine wp_bind (wp_read (rd (x := .freq d.totalFreq) (by simp [Mem.put, ht])) (wp_ret ?_))
      refine wp_bind (wp_put (by simp [Mem.put, ht]) ?_)
      refine wp_bind (wp_read (rd (x := .nat d.maxTokenLen) (by simp [Mem.put, h1])) (wp_ret ?_))
      have htok : ∀ (i : Nat) (t : Token F D), (d.tokens ++ [token])[i]? = some t →
          (if i = d.tokens.length then some (Cell.token ⟨token.text, token.freq, token.pos⟩) else m (.tok i)) = some (.token ⟨t.text, t.freq, t.pos⟩) := by
        intro i t h
        split
        · next hi => subst hi; simp at h; rw [h]
        · next hi =>
          rw [List.getElem?_append] at h
          split at h
          · exact h4 i t h
          · rw [List.getElem?_eq_none (by simp; omega)] at h; cases h
      have hdist : ∀ (i : Nat) (t : Token F D), (d.tokens ++ [token])[i]? = some t →
          (if i = d.tokens.length then some (Cell.dist token.distance) else m (.dist i)) = some (.dist t.distance) := by
        intro i t h
        split
        · next hi => subst hi; simp at h; rw [h]
        · next hi =>
          rw [List.getElem?_append] at h
          split at h
          · exact h6 i t h
          · rw [List.getElem?_eq_none (by simp; omega)] at h; cases h
      split
      · next hlt =>
        refine wp_bind (wp_put (by simp [Mem.put, h1]) ?_)
        refine ⟨rfl, ⟨⟨?_, ?_, ?_, ?_, ?_, ?_⟩, ?_⟩, ?_, ?_⟩
        · simpa [Mem.put] using hS.flags
        · simpa [Mem.put] using hS.segDict
        · rintro _ ⟨⟩; simp [Mem.put]
        · rintro _ ⟨⟩; simp [Mem.put]
        · rintro _ ⟨⟩; simp [Mem.put]
        · rintro _ ⟨⟩; simpa [Mem.put] using htok
        · rintro _ ⟨⟩; simpa [Mem.put] using hdist
        · simp [Mem.put]
        · intro a i; simp [Mem.put]
      · next hlt =>
        refine ⟨rfl, ⟨⟨?_, ?_, ?_, ?_, ?_, ?_⟩, ?_⟩, ?_, ?_⟩
        · simpa [Mem.put] using hS.flags
        · simpa [Mem.put] using hS.segDict
        · rintro _ ⟨⟩; simpa [Mem.put] using h1
        · rintro _ ⟨⟩; simp [Mem.put]
        · rintro _ ⟨⟩; simp [Mem.put]
        · rintro _ ⟨⟩; simpa [Mem.put] using htok
        · rintro _ ⟨⟩; simpa [Mem.put] using hdist
        · simp [Mem.put]
        · intro a i; simp [Mem.put]

omit [F64 F] [F32 D] in
/-- Memory growing keeps the segmenter. -/
theorem HoldsSegmenter.grow {m m' : Mem F D} {cfg : SplitCfg} {dict : Option (Dictionary F D)} (h : HoldsSegmenter m cfg dict) (hg : Grows m m') :
    HoldsSegmenter m' cfg dict :=
  ⟨⟨hg _ _ h.flags, hg _ _ h.segDict, fun d e => hg _ _ (h.maxLen d e), fun d e => hg _ _ (h.trie d e), fun d e => hg _ _ (h.tokHdr d e),
    fun d e i t ht => hg _ _ (h.tok d e i t ht)⟩, fun d e i t ht => hg _ _ (h.dist d e i t ht)⟩

theorem wp_addToken [Unicode] {m : Mem F D} {cfg : SplitCfg} {d : Dictionary F D} (hS : HoldsSegmenter m cfg (some d)) (hf : m .totalFreq = some (.freq d.totalFreq))
    (hroom : HasRoom m d.tokens.length) {text : Slice} {s : Bytes} (ht : HoldsBytes m text s) (freq : F) (pos : Bytes) :
    wp noMem (addTokenP text freq pos) m (fun e m' => e = (segAddToken cfg d s freq pos).2 ∧ HoldsSegmenter m' cfg (some (segAddToken cfg d s freq pos).1) ∧
      m' .totalFreq = some (.freq (segAddToken cfg d s freq pos).1.totalFreq) ∧ ∀ a i x, m (.cell a i) = some x → m' (.cell a i) = some x) := by
  refine wp_bind ?_
  have h0 := wp_merge _ _ (wp_toToken hS.flags ht (o := noMem) (fun _ _ _ => rfl) (freq := freq) (pos := pos))
  have hv : view m noMem = m := by funext l; simp [view, noMem]
  rw [hv] at h0
  refine wp_mono ?_ _ _ h0
  rintro _ _ ⟨o', rfl, ha, rfl⟩
  have hg : Grows m (view m o') := fun l x h => view_shared ha h
  refine wp_bind (wp_read (c := .bool false) (by rw [view_noMem]; exact hg _ _ hS.segDict) (wp_ret ?_))
  simp only [Bool.false_eq_true, if_false]
  refine wp_mono ?_ _ _ (wp_dictAdd (hS.grow hg) (hg _ _ hf) (hroom.grow hg) _)
  rintro e m' ⟨h1, h2, h3, h4⟩
  exact ⟨h1, h2, h3, fun a i x h => by rw [h4]; exact hg _ _ h⟩

end Gse
