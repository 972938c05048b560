import Verif.Proofs.RaceSeg

/-!
# `AddToken` beside goroutines that segment
-/

namespace Gse

variable {F D α β : Type}

/-- A dictionary location that `AddToken` writes. -/
def Loc.dict : Loc → Bool
  | .maxLen | .trie | .tokHdr | .tok _ | .dist _ | .subs _ | .totalFreq => true
  | _ => false

/-- The dictionary in memory. -/
def dictPart (m : Mem F D) : Mem F D := fun l => if l.dict then m l else none

/-- All the rest. -/
def restPart (m : Mem F D) : Mem F D := fun l => if l.dict then none else m l

/-- While a word is added, the rest of memory stays and the greatest word length does not sink. -/
def adding (m : Mem F D) (len : Nat) : Rely F D where
  loc l := (m l).isSome
  val l c := (l.dict = false → m l = some c) ∧ (l = .maxLen → ∃ n, c = .nat n ∧ len ≤ n)

theorem adding_stable (m : Mem F D) (len : Nat) : ∀ l x, restPart m l = some x → (adding m len).loc l ∧ ∀ y, (adding m len).val l y → y = x := by
  intro l x hx
  unfold restPart at hx
  split at hx
  · cases hx
  · next h =>
    refine ⟨by simp [adding, hx], fun y hy => ?_⟩
    have := hy.1 (by simpa using h)
    rw [hx] at this; exact (Option.some.inj this).symm

theorem obeys_map {R : Rely F D} {e : Access} {f : α → β} : ∀ (p : Prog F D α) (o : Mem F D) (done : Bool), Obeys R e done p o →
    Obeys R e done (p.bind fun a => .ret (f a)) o
  | .ret _, _, _, h => h
  | .panic, _, _, h => h
  | .read l k, o, done, h => by
    rcases h with ⟨h1, h2, h3⟩ | ⟨c, hc, ho⟩ | ⟨h1, h2, ho⟩
    · exact .inl ⟨h1, h2, fun c => quiet_bind (k c) o (h3 c) fun _ _ _ => trivial⟩
    · exact .inr (.inl ⟨c, hc, obeys_map (k c) o _ ho⟩)
    · exact .inr (.inr ⟨h1, h2, fun c hc => obeys_map (k c) o _ (ho c hc)⟩)
  | .write l c k, o, done, ⟨h1, h2, h3⟩ => ⟨h1, h2, obeys_map k _ _ h3⟩
  | .alloc cs k, o, done, h => fun a h1 h2 => obeys_map (k a) _ _ (h a h1 h2)

section
variable {R : Rely F D} {e : Access}

theorem obeys_own {done : Bool} {l : Loc} {k : Cell F D → Prog F D α} {o : Mem F D} {c : Cell F D} (ho : o l = some c)
    (h : Obeys R e (done || decide (e = .rd l)) (k c) o) : Obeys R e done (.read l k) o := .inr (.inl ⟨c, ho, h⟩)

theorem obeys_put {done : Bool} {l : Loc} {c : Cell F D} {f : Unit → Prog F D α} {o : Mem F D} (ho : (o l).isSome) (hv : R.loc l → R.val l c)
    (h : Obeys R e (done || decide (e = .wr l)) (f ()) (o.put l c)) : Obeys R e done (Prog.put l c >>= f) o := ⟨ho, hv, h⟩

end

variable [F64 F] [F32 D]

omit [F32 D] in
/-- `insertP` with own memory `o` that holds the dictionary. -/
theorem obeys_insert {m o : Mem F D} {d : Dictionary F D} {token : Token F D} {t' : Trie}
    (h1 : o .maxLen = some (.nat d.maxTokenLen)) (h2 : o .trie = some (.trie d.trie)) (h3 : o .tokHdr = some (.nat d.tokens.length))
    (h4 : HasRoom o d.tokens.length) (h5 : o .totalFreq = some (.freq d.totalFreq))
    (hi : d.trie.insert (textSliceToBytes token.text) d.tokens.length = some t') (e : Access)
    (he : e = .wr .trie ∨ (e = .wr .maxLen ∧ d.maxTokenLen < token.text.length)) :
    Obeys (adding m d.maxTokenLen) e false (insertP token) o := by
  have hrd : ∀ l, decide (e = .rd l) = false := by rintro l; rcases he with rfl | ⟨rfl, _⟩ <;> rfl
  have val : ∀ {l : Loc} {c : Cell F D}, l.dict = true → l ≠ .maxLen → (adding m d.maxTokenLen).val l c := by
    intro l c h1 h2
    exact ⟨(fun h => by rw [h1] at h; cases h), fun h => absurd h h2⟩
  unfold insertP
  refine obeys_own h3 ?_
  refine obeys_own h2 ?_
  rw [hrd, hrd]
  show Obeys _ _ _ (match d.trie.insert (textSliceToBytes token.text) d.tokens.length with | none => _ | some t' => _) _
  rw [hi]
  refine obeys_put (by rw [h2]; rfl) (fun _ => val rfl (by simp)) ?_
  refine obeys_own (c := .nat d.tokens.length) (by simp [Mem.put, h3]) ?_
  rw [hrd]
  refine obeys_put (by simpa [Mem.put] using h4.tok) (fun _ => val rfl (by simp)) ?_
  refine obeys_put (by simpa [Mem.put] using h4.dist) (fun _ => val rfl (by simp)) ?_
  refine obeys_put (by simpa [Mem.put] using h4.subs) (fun _ => val rfl (by simp)) ?_
  refine obeys_put (by simp [Mem.put, h3]) (fun _ => val rfl (by simp)) ?_
  refine obeys_own (c := .freq d.totalFreq) (by simp [Mem.put, h5]) ?_
  rw [hrd]
  refine obeys_put (by simp [Mem.put, h5]) (fun _ => val rfl (by simp)) ?_
  refine obeys_own (c := .nat d.maxTokenLen) (by simp [Mem.put, h1]) ?_
  rw [hrd]
  show Obeys _ _ _ (if token.text.length > d.maxTokenLen then _ else _) _
  split
  · next hlt =>
    refine obeys_put (by simp [Mem.put, h1]) (fun _ => ⟨(fun h => by cases h), fun _ => ⟨_, rfl, by omega⟩⟩) ?_
    rcases he with rfl | ⟨rfl, _⟩
    · rfl
    · rfl
  · next hlt =>
    rcases he with rfl | ⟨rfl, h⟩
    · rfl
    · omega

/-- `AddToken` of a new word writes the trie and, if the word is longer than all others, the greatest word length. -/
theorem obeys_addToken [Unicode] {m : Mem F D} {cfg : SplitCfg} {d : Dictionary F D} (hS : HoldsSegmenter m cfg (some d))
    (hf : m .totalFreq = some (.freq d.totalFreq)) (hroom : HasRoom m d.tokens.length) {input : Slice} {s : Bytes} (ht : HoldsBytes m input s)
    (freq : F) (pos : Bytes) (hnew : (segAddToken cfg d s freq pos).1.numTokens ≠ d.numTokens) (e : Access)
    (he : e = .wr .trie ∨ (e = .wr .maxLen ∧ d.maxTokenLen < (splitTextToWords cfg s).length)) :
    Obeys (adding m d.maxTokenLen) e false (addTokenP input freq pos) (dictPart m) := by
  have hrd : ∀ l, decide (e = .rd l) = false := by rintro l; rcases he with rfl | ⟨rfl, _⟩ <;> rfl
  have hcell : ∀ a i, restPart m (.cell a i) = m (.cell a i) := fun _ _ => rfl
  have htr : HoldsBytes (restPart m) input s := ⟨ht.1, fun k b hb => by rw [hcell]; exact ht.2 k b hb⟩
  have hd : ∀ l x, restPart m l = some x → dictPart m l = none := by
    intro l x h
    unfold restPart at h; unfold dictPart
    split at h
    · cases h
    · next hl => rw [if_neg hl]
  have h0 : view (dictPart m) noMem = dictPart m := by funext l; simp [view, noMem]
  rw [← h0]
  refine obeys_wp (adding_stable m _) hd (fun _ _ => rfl) ?_ _ _
    (wp_toToken (sh := restPart m) (cfg := cfg) (by simpa [restPart, Loc.dict] using hS.flags) htr (o := noMem) (fun _ _ _ => rfl)) (fun l h => by cases h) (fun _ _ h => by cases h)
  rintro t o ⟨_, rfl⟩ hp _
  have hnone : ∀ l, (m l).isSome → o l = none := fun l h => hp.none h
  have own : ∀ l x, l.dict = true → m l = some x → view (dictPart m) o l = some x := by
    intro l x h1 h2
    have : o l = none := hnone l (by rw [h2]; rfl)
    simp [view, this, dictPart, h1, h2]
  refine obeys_read (l := .segDict) ?_ (by simp [adding, hS.segDict]) fun c hc => ?_
  · have : o .segDict = none := hnone _ (by rw [hS.segDict]; rfl)
    simp [view, this, dictPart, Loc.dict]
  have hc' : c = .bool false := by
    have := hc.1 rfl
    rw [hS.segDict] at this; exact (Option.some.inj this).symm
  subst hc'
  rw [hrd]
  show Obeys _ _ _ (dictAddP _) _
  unfold dictAddP
  refine obeys_own (own _ _ rfl (hS.trie d rfl)) ?_
  rw [hrd]
  unfold segAddToken at hnew
  generalize htok : (toToken cfg s freq pos : Token F D) = token at hnew ⊢
  have htext : token.text = splitTextToWords cfg s := by rw [← htok]; rfl
  cases hg : d.trie.get (textSliceToBytes token.text) with
  | some v => exact absurd (by simp [Dictionary.addToken, hg]) hnew
  | none =>
    cases hi : d.trie.insert (textSliceToBytes token.text) d.tokens.length with
    | none => exact absurd (by simp [Dictionary.addToken, hg, Dictionary.numTokens, hi]) hnew
    | some t' =>
      show Obeys _ _ _ (match d.trie.get (textSliceToBytes token.text) with | some _ => _ | none => _) _
      rw [hg]
      have room : ∀ l, l.dict = true → (m l).isSome → (view (dictPart m) o l).isSome := by
        intro l h1 h2
        obtain ⟨x, hx⟩ := Option.isSome_iff_exists.mp h2
        rw [own l x h1 hx]; rfl
      refine obeys_insert (own _ _ rfl (hS.maxLen d rfl)) (own _ _ rfl (hS.trie d rfl)) (own _ _ rfl (hS.tokHdr d rfl))
        ⟨room _ rfl hroom.tok, room _ rfl hroom.dist, room _ rfl hroom.subs⟩ (own _ _ rfl hf) hi e ?_
      rw [htext]; exact he

end Gse
