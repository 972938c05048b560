import Verif.Spec.Local
import Verif.Proofs.Dag
import Verif.Proofs.CostCut
import Verif.Proofs.Content
import Verif.Proofs.Output

/-!
# Dictionaries that agree on one text
-/

namespace Gse
open Spec

set_option linter.unusedSectionVars false

section
variable {F D : Type} [F64 F] [F32 D] [Narrow F D]

theorem slice_isInfix {α : Type} (l : List α) (a b : Nat) : slice l a b <:+: l :=
  (List.take_prefix _ _).isInfix.trans (List.drop_suffix _ _).isInfix

/-- The frequencies of the runs of characters of `rs` agree. -/
def FreqOn (d d' : Dictionary F D) (rs : List Rune) : Prop :=
  ∀ x, x <:+: rs → (storedTok d (encode x)).map (·.freq) = (storedTok d' (encode x)).map (·.freq)

/-- The same characters of `rs` are found. -/
def CharsOn (d d' : Dictionary F D) (rs : List Rune) : Prop := ∀ r ∈ rs, StartsStored d (encode [r]) ↔ StartsStored d' (encode [r])

variable {d d' : Dictionary F D} {rs : List Rune}

theorem FreqOn.posWord (h : FreqOn d d' rs) {x : List Rune} (hx : x <:+: rs) : posWord d x = posWord d' x := by
  have := h x hx
  unfold Spec.posWord
  cases h1 : storedTok d (encode x) <;> cases h2 : storedTok d' (encode x) <;> simp_all

theorem FreqOn.pieceFreq (h : FreqOn d d' rs) (hc : CharsOn d d' rs) {x : List Rune} (hx : x <:+: rs)
    (hp : Spec.posWord d x = true ∨ x.length = 1) : pieceFreq d x = pieceFreq d' x := by
  have he := h x hx
  unfold Spec.pieceFreq
  cases h1 : storedTok d (encode x) with
  | some t => rw [h1] at he; cases h2 : storedTok d' (encode x) <;> simp_all
  | none =>
    rw [h1] at he
    cases h2 : storedTok d' (encode x) with
    | some t => rw [h2] at he; cases he
    | none =>
      rcases hp with hp | hp
      · simp [Spec.posWord, h1] at hp
      · obtain ⟨r, rfl⟩ := List.length_eq_one_iff.1 hp
        have := hc r (hx.subset (by simp))
        by_cases hs : StartsStored d (encode [r])
        · simp only [if_pos hs, if_pos (this.1 hs)]
        · simp only [if_neg hs, if_neg (mt this.2 hs)]

theorem FreqOn.getDag (h : FreqOn d d' rs) (hi : IdxOK d) (hi' : IdxOK d') : getDag d rs = getDag d' rs := by
  rw [getDag_eq hi, getDag_eq hi']
  congr 1
  refine List.map_congr_left fun k _ => ?_
  unfold dagSpec endsFrom
  simp only [h.posWord (slice_isInfix rs _ _)]

theorem routeAt_on (h : FreqOn d d' rs) (hc : CharsOn d d' rs) (hi : IdxOK d) (hi' : IdxOK d') (T : F) (k : Nat) (hk : k < rs.length) (R : List (Nat × Route F)) :
    ∀ (l : List Nat) (v : Option (Route F)), (∀ i ∈ l, k ≤ i ∧ i < rs.length ∧ (posWord d (slice rs k (i + 1)) = true ∨ i = k)) → routeAt d rs T k R l v = routeAt d' rs T k R l v
  | [], _, _ => rfl
  | i :: l, v, hl => by
    obtain ⟨h1, h2, h3⟩ := hl i (by simp)
    have hne : slice rs k (i + 1) ≠ [] := slice_ne_nil _ _ _ hk (by omega)
    obtain ⟨f, p, b, e1, _, _, e4⟩ := findRunes_spec hi hne
    obtain ⟨f', p', b', e1', _, _, e4'⟩ := findRunes_spec hi' hne
    have e : (if b = true then f else F64.ofNat 1) = if b' = true then f' else F64.ofNat 1 := by
      rw [e4, e4']
      refine h.pieceFreq hc (slice_isInfix _ _ _) (h3.imp_right fun e => ?_)
      subst e
      simp [slice]; omega
    unfold routeAt routeCand
    simp only [e1, e1', e]
    exact routeAt_on h hc hi hi' T k hk R l _ fun j hj => hl j (by simp [hj])

theorem dagSpec_ends {d : Dictionary F D} {rs : List Rune} {k i : Nat} (hk : k < rs.length) (hi : i ∈ dagSpec d rs k) :
    k ≤ i ∧ i < rs.length ∧ (posWord d (slice rs k (i + 1)) = true ∨ i = k) := by
  unfold dagSpec at hi
  split at hi
  · simp at hi; omega
  · unfold endsFrom at hi
    rw [List.mem_filter, List.mem_range'_1] at hi
    exact ⟨by omega, by omega, .inl hi.2⟩

theorem calcLoop_on (h : FreqOn d d' rs) (hc : CharsOn d d' rs) (hi : IdxOK d) (hi' : IdxOK d') (T : F) :
    ∀ n, n ≤ rs.length → ∀ R : List (Nat × Route F), calcLoop d rs T (List.map (dagSpec d rs) (List.range rs.length)) n R =
      calcLoop d' rs T (List.map (dagSpec d rs) (List.range rs.length)) n R := by
  intro n
  induction n with
  | zero => intros; rfl
  | succ k ih =>
    intro hk R
    unfold calcLoop
    have e : (List.map (dagSpec d rs) (List.range rs.length)).getD k [] = dagSpec d rs k := by
      simp [List.getD, show k < rs.length by omega]
    rw [e, routeAt_on h hc hi hi' _ k (by omega) R _ _ fun i hi => dagSpec_ends (by omega) hi]
    cases routeAt d' rs T k R (dagSpec d rs k) none with
    | none => rfl
    | some v => cases v <;> simp only [ih (by omega)]

theorem calcRoutes_on (h : FreqOn d d' rs) (hc : CharsOn d d' rs) (hi : IdxOK d) (hi' : IdxOK d') (ht : F64.log d.totalFreq = F64.log d'.totalFreq) :
    calcRoutes d rs = calcRoutes d' rs := by
  unfold calcRoutes
  rw [← h.getDag hi hi', getDag_eq hi, ← ht]
  exact calcLoop_on h hc hi hi' _ _ (Nat.le_refl _) _

theorem flushBuf_on (h : FreqOn d d' rs) (hi : IdxOK d) (hi' : IdxOK d') (cut : Bytes → Option (List Bytes)) {buf : List Rune} (hb : buf <:+: rs) :
    flushBuf d cut buf = flushBuf d' cut buf := by
  unfold flushBuf hmmBuf findRunes
  split
  · rfl
  split
  · rfl
  have hne : buf ≠ [] := by rintro rfl; simp at *
  have he := h buf hb
  have none_case : ∀ {e : Dictionary F D}, IdxOK e → storedTok e (encode buf) = none → ∃ b, e.find (encode buf) = some (F64.ofNat 0, [], b) := by
    intro e he hs
    by_cases hn : StartsStored e (encode buf)
    · exact ⟨_, find_starts he (encode_ne_nil hne) hs hn⟩
    · exact ⟨_, find_unknown he hs hn⟩
  cases h1 : storedTok d (encode buf) with
  | some t =>
    rw [h1] at he
    cases h2 : storedTok d' (encode buf) with
    | none => rw [h2] at he; cases he
    | some t' =>
      rw [h2] at he
      simp only [Option.map_some, Option.some.injEq] at he
      rw [find_stored h1, find_stored h2]
      simp only [he]
  | none =>
    rw [h1] at he
    cases h2 : storedTok d' (encode buf) with
    | some t => rw [h2] at he; cases he
    | none =>
      obtain ⟨b, e1⟩ := none_case hi h1
      obtain ⟨b', e2⟩ := none_case hi' h2
      rw [e1, e2]
      simp [F64.zero_eq_zero]

theorem hmmLoop_on (h : FreqOn d d' rs) (hi : IdxOK d) (hi' : IdxOK d') (cut : Bytes → Option (List Bytes)) :
    ∀ (frags : List (List Rune)) (buf : List Rune), buf ++ frags.flatten <:+: rs → hmmLoop d cut frags buf = hmmLoop d' cut frags buf
  | [], buf, hb => flushBuf_on h hi hi' cut (by simpa using hb)
  | frag :: rest, buf, hb => by
    unfold hmmLoop
    split
    · exact hmmLoop_on h hi hi' cut rest _ (by simpa using hb)
    · rw [flushBuf_on h hi hi' cut ((List.prefix_append _ _).isInfix.trans hb),
        hmmLoop_on h hi hi' cut rest [] (by
          refine List.IsInfix.trans ?_ hb
          rw [List.nil_append, List.flatten_cons, ← List.append_assoc]
          exact (List.suffix_append _ _).isInfix)]

variable [Unicode]

theorem cutDAGNoHMM_on {cfg : SplitCfg} {s : Bytes} (h : FreqOn d d' (dagRunes cfg s)) (hc : CharsOn d d' (dagRunes cfg s)) (hi : IdxOK d) (hi' : IdxOK d')
    (ht : F64.log d.totalFreq = F64.log d'.totalFreq) : cutDAGNoHMM cfg d s = cutDAGNoHMM cfg d' s := by
  unfold cutDAGNoHMM
  simp only
  rw [calcRoutes_on h hc hi hi' ht]

theorem cutDAG_on {cfg : SplitCfg} {s : Bytes} (h : FreqOn d d' (dagRunes cfg s)) (hc : CharsOn d d' (dagRunes cfg s)) (hi : IdxOK d) (hi' : IdxOK d')
    (ht : F64.log d.totalFreq = F64.log d'.totalFreq) (cut : Bytes → Option (List Bytes)) : cutDAG cfg d cut s = cutDAG cfg d' cut s := by
  unfold cutDAG
  simp only
  rw [calcRoutes_on h hc hi hi' ht]
  cases calcRoutes d' (dagRunes cfg s) with
  | none => rfl
  | some R =>
    dsimp only
    cases hw : walk (dagRunes cfg s) R (dagRunes cfg s).length 0 with
    | none => rfl
    | some frags =>
      have := walk_flatten _ _ _ _ _ hw
      exact hmmLoop_on h hi hi' cut frags [] (by rw [List.nil_append, this]; exact List.infix_rfl)

theorem cutAll_on {cfg : SplitCfg} {s : Bytes} (h : FreqOn d d' (dagRunes cfg s)) (hi : IdxOK d) (hi' : IdxOK d') : cutAll cfg d s = cutAll cfg d' s := by
  unfold cutAll
  simp only
  rw [h.getDag hi hi']

/-! ### Without a recalculation -/

/-- The second dictionary has the entries of the first under their old numbers. -/
def Keeps (d d' : Dictionary F D) : Prop := ∀ (v : Nat) (t : Token F D), d.tokens[v]? = some t → d'.tokens[v]? = some t

theorem Keeps.deref (h : Keeps d d') {r : TokRef} {t : Token F D} (hr : d.deref r = some t) : d'.deref r = some t := by
  cases r with
  | idx i => exact h _ _ hr
  | pseudo w => exact hr

theorem subLoop_keeps {α : Type} (h : Keeps d d') {rec rec' : TokRef → Option (List α)} : ∀ (l : List Seg) (only : Bool),
    (∀ s ∈ l, (∃ t, d.deref s.tok = some t) ∧ rec s.tok = rec' s.tok) → subLoop d rec l only = subLoop d' rec' l only
  | [], _, _ => rfl
  | s :: l, only, hl => by
    obtain ⟨⟨t, e1⟩, e2⟩ := hl s (by simp)
    have e3 : nonTerminal d s = nonTerminal d' s := by
      unfold nonTerminal
      rw [e1, h.deref e1]
    have hl' : ∀ x ∈ l, (∃ t, d.deref x.tok = some t) ∧ rec x.tok = rec' x.tok := fun x hx => hl x (by simp [hx])
    unfold subLoop
    rw [e3, e2, subLoop_keeps h l true hl', subLoop_keeps h l false hl']

theorem tokenToSlice_keeps (hs : SubInv d) (h : Keeps d d') : ∀ (n : Nat) (r : TokRef), (∃ t, d.deref r = some t) → tokenToSlice d n r = tokenToSlice d' n r
  | 0, _, _ => rfl
  | n + 1, r, ⟨t, hr⟩ => by
    unfold tokenToSlice
    rw [hr, h.deref hr]
    simp only
    rw [subLoop_keeps h t.segments true fun s hm => by
      obtain ⟨t', e, _⟩ := (deref_segments hs hr s hm).ok
      exact ⟨⟨t', e⟩, tokenToSlice_keeps hs h n _ ⟨t', e⟩⟩]

theorem tokenToPos_keeps (hs : SubInv d) (h : Keeps d d') : ∀ (n : Nat) (r : TokRef), (∃ t, d.deref r = some t) → tokenToPos d n r = tokenToPos d' n r
  | 0, _, _ => rfl
  | n + 1, r, ⟨t, hr⟩ => by
    unfold tokenToPos
    rw [hr, h.deref hr]
    simp only
    rw [subLoop_keeps h t.segments true fun s hm => by
      obtain ⟨t', e, _⟩ := (deref_segments hs hr s hm).ok
      exact ⟨⟨t', e⟩, tokenToPos_keeps hs h n _ ⟨t', e⟩⟩]

theorem tokenToString_keeps (hs : SubInv d) (h : Keeps d d') : ∀ (n : Nat) (r : TokRef), (∃ t, d.deref r = some t) → tokenToString d n r = tokenToString d' n r
  | 0, _, _ => rfl
  | n + 1, r, ⟨t, hr⟩ => by
    unfold tokenToString
    rw [hr, h.deref hr]
    simp only
    rw [subLoop_keeps h t.segments true fun s hm => by
      obtain ⟨t', e, _⟩ := (deref_segments hs hr s hm).ok
      exact ⟨⟨t', e⟩, tokenToString_keeps hs h n _ ⟨t', e⟩⟩]

/-- Agreement in numbers: the words `P` holds of have the same numbers, and nothing was taken from the table. -/
theorem sameStore_keeps {cfg : SplitCfg} {P : Bytes → Prop} (hw : d.WF cfg) (hw' : d'.WF cfg) (hv : ∀ k, P k → d.trie.value k = d'.trie.value k) (hk : Keeps d d') :
    SameStore cfg P Eq d d' ∧ SameDist P d d' := by
  have key : ∀ k v v' (t t' : Token F D), P k → d.trie.value k = some v → d'.trie.value k = some v' → d.tokens[v]? = some t → d'.tokens[v']? = some t' → t = t' := by
    intro k v v' t t' hP e1 e2 e3 e4
    rw [hv k hP, e2] at e1
    cases e1
    rw [hk _ _ e3] at e4
    exact Option.some.inj e4
  refine ⟨⟨hw, hw', fun k hP => by rw [hv k hP], ?_⟩, ?_⟩
  · intro k v v' t t' hP e1 e2 e3 e4
    rw [key k v v' t t' hP e1 e2 e3 e4]
    exact ⟨rfl, rfl⟩
  · intro k v v' t t' hP e1 e2 e3 e4
    rw [key k v v' t t' hP e1 e2 e3 e4]

theorem segs_keeps {P : Bytes → Prop} (hv : ∀ k, P k → d.trie.value k = d'.trie.value k) {l l' : List Seg} (h : List.Forall₂ (SegSim P d d') l l') : l = l' := by
  induction h with
  | nil => rfl
  | @cons s s' _ _ hs _ ih =>
    obtain ⟨e1, e2, e3⟩ := hs
    have : s.tok = s'.tok := by
      revert e3
      generalize s.tok = r
      generalize s'.tok = r'
      intro e3
      cases e3 with
      | pseudo w => rfl
      | idx hk h1 h2 => rw [hv _ hk, h2] at h1; cases h1; rfl
    rw [ih]
    congr 1
    cases s; cases s'; simp_all

end
end Gse
