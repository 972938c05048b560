import Verif.Proofs.RemoveMem
import Verif.Proofs.CutMemCrash
import Verif.Props.ConcCalc

/-! # C93: a goroutine that adds, removes or re-adds a word beside goroutines that cut or look up -/

namespace Gse
open Spec Prog Trie

set_option linter.unusedSectionVars false

section
variable {F D α : Type} [F64 F] [F32 D] [Narrow F D] [Unicode]

/-- A call that changes the dictionary: where its text lies, the bytes it holds, frequency and part of speech. -/
inductive ChangeCall (F : Type)
  | add (input : Slice) (text : Bytes) (freq : F) (pos : Bytes)
  | remove (input : Slice) (text : Bytes)
  | reAdd (input : Slice) (text : Bytes) (freq : F) (pos : Bytes)

namespace ChangeCall

/-- Where the text lies. -/
def input : ChangeCall F → Slice
  | .add r _ _ _ | .remove r _ | .reAdd r _ _ _ => r

/-- The bytes of the text. -/
def text : ChangeCall F → Bytes
  | .add _ s _ _ | .remove _ s | .reAdd _ s _ _ => s

/-- The call as a program; it ends with `err != nil`. -/
def prog : ChangeCall F → Prog F D Bool
  | .add r _ f p => addTokenP r f p
  | .remove r _ => removeTokenP r
  | .reAdd r _ f p => reAddTokenP r f p

/-- What the call does when it is made alone. -/
def alone (cfg : SplitCfg) (d : Dictionary F D) : ChangeCall F → Option (Dictionary F D × Bool)
  | .add _ s f p => some (segAddToken cfg d s f p)
  | .remove _ s => segRemoveToken cfg d s
  | .reAdd _ s f p => segReAddToken cfg d s f p

/-- The call has something to do: the word to be added is new (and there is room for it), or the word to be removed or added again is stored. -/
def Effective (cfg : SplitCfg) (d : Dictionary F D) : ChangeCall F → Prop
  | .add _ s f p => (segAddToken cfg d s f p).1.numTokens ≠ d.numTokens
  | .remove _ s | .reAdd _ s _ _ => (d.valueOf (normText cfg s)).2 = false

/-- The call has nothing to do: the word to be added is known, or there is no path for the word to be removed or added again. -/
def Idle (cfg : SplitCfg) (d : Dictionary F D) : ChangeCall F → Prop
  | .add _ s f p => (segAddToken cfg d s f p).1.numTokens = d.numTokens
  | .remove _ s | .reAdd _ s _ _ => d.find (normText cfg s) = some (F64.ofNat 0, [], false) ∧ normText cfg s ≠ []

end ChangeCall

/-- Goroutine 0 makes the change and ends with `err != nil`; goroutine `i + 1` makes the call number `i`. -/
def startChange (m : Mem F D) (x : ChangeCall F) (c : HmmConst F) (calls : List UseCall) : Config F D (Bool ⊕ Answer F) :=
  ⟨m, (x.prog.bind fun e => .ret (.inl e)) :: calls.map fun y => (y.prog c).bind fun a => .ret (.inr a)⟩

/-- Memory holds the segmenter, its dictionary with room for another token, the HMM model and all inputs. -/
structure ChangeOK (m : Mem F D) (cfg : SplitCfg) (d : Dictionary F D) (em : EmitModel F) (x : ChangeCall F) (calls : List UseCall) : Prop where
  segmenter : HoldsSegmenter m cfg (some d)
  totalFreq : m .totalFreq = some (.freq d.totalFreq)
  room : HasRoom m d.tokens.length
  emit : m .emit = some (.emit em)
  word : HoldsBytes m x.input x.text
  inputs : ∀ y ∈ calls, y.HasInput m

/-- What memory holds after the change. -/
structure Changed (m : Mem F D) (cfg : SplitCfg) (d' : Dictionary F D) : Prop where
  segmenter : HoldsSegmenter m cfg (some d')
  totalFreq : m .totalFreq = some (.freq d'.totalFreq)

theorem Changed.grow {m m' : Mem F D} {cfg : SplitCfg} {d' : Dictionary F D} (h : Changed m cfg d') (hg : Grows m m') : Changed m' cfg d' :=
  ⟨h.segmenter.grow hg, hg _ _ h.totalFreq⟩

theorem key_norm (cfg : SplitCfg) (s : Bytes) : textSliceToBytes (splitTextToWords cfg s) = normText cfg s := by
  rw [textSliceToBytes_eq, flatten_split]

/-- The change, when the dictionary is own memory. -/
theorem wp_change {sh o : Mem F D} (hsh : ∀ l : Loc, l.dict = true → sh l = none) {cfg : SplitCfg} {d d' : Dictionary F D} {err : Bool} {x : ChangeCall F}
    (hS : HoldsSegmenter (view sh o) cfg (some d)) (hf : view sh o .totalFreq = some (.freq d.totalFreq)) (hroom : HasRoom (view sh o) d.tokens.length)
    (hw : HoldsBytes (view sh o) x.input x.text) (h : x.alone cfg d = some (d', err)) :
    wp sh x.prog o (fun e o' => e = err ∧ Changed (view sh o') cfg d') := by
  cases x with
  | add r s f p =>
    obtain ⟨rfl, rfl⟩ : (segAddToken cfg d s f p).1 = d' ∧ (segAddToken cfg d s f p).2 = err := ⟨congrArg Prod.fst (Option.some.inj h), congrArg Prod.snd (Option.some.inj h)⟩
    refine wp_mono ?_ _ _ (wp_addToken_own hsh hS hf hroom hw f p)
    rintro e o' ⟨h1, h2, h3, _⟩
    exact ⟨h1, h2, h3⟩
  | remove r s =>
    refine wp_mono ?_ _ _ (wp_removeToken_own hsh hS hf hw h)
    rintro e o' ⟨h1, h2, h3, _⟩
    exact ⟨h1, h2, h3⟩
  | reAdd r s f p =>
    refine wp_mono ?_ _ _ (wp_reAddToken_own hsh hS hf hroom hw h)
    rintro e o' ⟨h1, h2, h3, _⟩
    exact ⟨h1, h2, h3⟩

/-! ## Nothing but the HMM beside it -/

/-- A call of `HMMCut` with the patterns of the package. -/
def UseCall.OnlyHmm : UseCall → Prop
  | .hmmCut _ reg => reg = []
  | _ => False

/-- C93: beside goroutines that only call `HMMCut`, which has no dictionary, every change is safe; so it is alone. Under every interleaving there
is no data race and no panic, every `HMMCut` returns what it returns alone, and once the change has returned, its error and the dictionary
are those of the sequential function. -/
theorem C93_hmm [UnicodeOK] (m : Mem F D) (cfg : SplitCfg) (d d' : Dictionary F D) (err : Bool) (c : HmmConst F) (em : EmitModel F) (x : ChangeCall F)
    (calls : List UseCall) (h : ChangeOK m cfg d em x calls) (hx : x.alone cfg d = some (d', err)) (hc : ∀ y ∈ calls, y.OnlyHmm)
    (tr : List (Nat × Access)) (c' : Config F D (Bool ⊕ Answer F)) (he : Exec (startChange m x c calls) tr c') :
    RaceFree tr ∧ (∀ i : Nat, c'.threads[i]? ≠ some .panic) ∧ (∀ r, c'.threads[0]? = some (.ret r) → r = .inl err ∧ Changed c'.mem cfg d') ∧
      ∀ (i : Nat) y r, calls[i]? = some y → c'.threads[i + 1]? = some (.ret r) → ∃ a, r = .inr a ∧ y.Alone cfg d c em c'.mem a := by
  have hv : view (restPart m) (dictPart m) = m := by
    funext l
    unfold view dictPart restPart
    cases l.dict <;> cases m l <;> simp
  have hS := h.segmenter; have ht := h.totalFreq; have hr := h.room; have hw := h.word
  rw [← hv] at hS ht hr hw
  have hI : Isolated (restPart m) (startChange m x c calls) (fun i => if i = 0 then dictPart m else noMem)
      (fun i r o => if i = 0 then r = .inl err ∧ Changed (view (restPart m) o) cfg d'
        else ∀ y, calls[i - 1]? = some y → ∃ a, r = .inr a ∧ y.Alone cfg d c em (view (restPart m) o) a) := by
    refine ⟨?_, ?_, ?_, ?_, ?_⟩
    · intro l x hx
      unfold restPart at hx
      split at hx
      · cases hx
      · exact hx
    · intro i l x hx
      split at hx
      · unfold dictPart at hx
        split at hx
        · exact hx
        · cases hx
      · cases hx
    · intro i l x hx
      split at hx
      · unfold dictPart at hx
        split at hx
        · next hl => unfold restPart; rw [if_pos hl]
        · cases hx
      · cases hx
    · intro i j l x hij hx
      split at hx
      · next hi => rw [if_neg (by omega)]; rfl
      · cases hx
    · intro i p hp
      match i with
      | 0 =>
        simp only [startChange, List.getElem?_cons_zero, Option.some.injEq] at hp
        subst hp
        simp only [if_true]
        refine wp_bind' _ _ (wp_mono ?_ _ _ (wp_change (fun l hl => by simp [restPart, hl]) hS ht hr hw hx))
        rintro e o ⟨rfl, h2⟩
        exact ⟨rfl, h2⟩
      | i + 1 =>
        simp only [startChange, List.getElem?_cons_succ, List.getElem?_map, Option.map_eq_some_iff] at hp
        obtain ⟨y, hy, rfl⟩ := hp
        rw [if_neg (by omega)]
        have ho := hc y (List.mem_of_getElem? hy)
        cases y with
        | hmmCut s reg =>
          obtain rfl : reg = [] := ho
          obtain ⟨ws, hws, _⟩ := C30_lossless c em s
          refine wp_bind' _ _ (use_words (yields_hmmCut c (show restPart m .emit = _ from h.emit) s [] ws hws) ?_)
          simp only [wp, if_neg (show ¬ (i + 1 = 0) by omega)]
          intro y' hy'
          simp only [Nat.add_sub_cancel] at hy'
          rw [hy] at hy'; cases hy'
          exact ⟨_, rfl, hws⟩
        | _ => exact ho.elim
  obtain ⟨own, hI', _, _⟩ := isolated_exec hI he
  refine ⟨isolated_raceFree hI he, fun i hp => hI'.goes i _ hp, fun r hr0 => ?_, fun i y r hyi hri => ?_⟩
  · have key := hI'.goes 0 _ hr0
    simp only [wp, if_true] at key
    exact ⟨key.1, key.2.grow (hI'.grows 0)⟩
  · have key := hI'.goes (i + 1) _ hri
    simp only [wp] at key
    rw [if_neg (by omega)] at key
    obtain ⟨a, h1, h2⟩ := key y (by simpa using hyi)
    exact ⟨a, h1, h2.grow (hI'.grows (i + 1))⟩

/-! ## Changes that change nothing -/

theorem idle_delete {cfg : SplitCfg} {d : Dictionary F D} {s : Bytes} (h : d.find (normText cfg s) = some (F64.ofNat 0, [], false)) (hne : normText cfg s ≠ []) :
    d.trie.delete (textSliceToBytes (splitTextToWords cfg s)) = .noPath := by
  rw [key_norm]
  unfold Dictionary.find at h
  unfold Trie.delete
  cases hj : d.trie.jump (normText cfg s) [] with
  | none => rfl
  | some id =>
    exfalso
    have hid : id = normText cfg s := by
      unfold Trie.jump at hj
      split at hj
      · simpa using hj.symm
      · cases hj
    subst hid
    rw [hj] at h
    simp only at h
    split at h
    · rw [if_pos hne] at h; simp at h
    · split at h
      · cases h
      · simp at h

/-- C93: a change that has nothing to do (adding a word that is there, removing or re-adding one that the trie has no path for) is safe beside every
call: no data race, no panic, every call returns what it returns alone, and the dictionary stays as it is. -/
theorem C93_idle [UnicodeOK] (cfg : SplitCfg) (ops : List (DictOp F)) (d : Dictionary F D) (hr : runOps cfg ops Dictionary.new = some d) (m : Mem F D)
    (c : HmmConst F) (em : EmitModel F) (x : ChangeCall F) (calls : List UseCall) (h : ChangeOK m cfg d em x calls) (hi : x.Idle cfg d)
    (hn : ∀ y ∈ calls, y.NoPatterns) (tr : List (Nat × Access)) (c' : Config F D (Bool ⊕ Answer F)) (he : Exec (startChange m x c calls) tr c') :
    RaceFree tr ∧ (∀ i : Nat, c'.threads[i]? ≠ some .panic) ∧ (∀ r, c'.threads[0]? = some (.ret r) → ∃ err, r = .inl err ∧ x.alone cfg d = some (d, err)) ∧
      Changed c'.mem cfg d ∧ ∀ (i : Nat) y r, calls[i]? = some y → c'.threads[i + 1]? = some (.ret r) → ∃ a, r = .inr a ∧ y.Alone cfg d c em c'.mem a := by
  have hU := C73_history cfg ops d hr m c em calls h.segmenter h.totalFreq h.emit h.inputs hn
  have hv : view m noMem = m := by funext l; simp [view, noMem]
  have hT := h.segmenter.toHoldsTable; have hw := h.word
  have hw0 : wp m x.prog noMem (fun e _ => x.alone cfg d = some (d, e)) := by
    rw [← hv] at hT hw
    cases x with
    | add r s f p =>
      refine wp_mono ?_ _ _ (wp_addToken_known hT hw f p hi)
      rintro e o ⟨rfl, _⟩
      simp only [ChangeCall.alone, Option.some.injEq]
      exact Prod.ext (segAddToken_known hi) rfl
    | remove r s =>
      have hd := idle_delete hi.1 hi.2
      refine wp_mono ?_ _ _ (wp_removeToken_none hT hw hd)
      rintro e o ⟨rfl, _⟩
      show segRemoveToken cfg d s = _
      unfold segRemoveToken Dictionary.removeToken
      show (match d.trie.delete (textSliceToBytes (splitTextToWords cfg s)) with | .noPath => _ | .ok t => _ | .unspecified => _) = _
      rw [hd]
    | reAdd r s f p =>
      have hd := idle_delete hi.1 hi.2
      refine wp_mono ?_ _ _ (wp_reAddToken_none hT hw f p hd)
      rintro e o ⟨rfl, _⟩
      have hrm : d.removeToken (toToken cfg s f p) = some (d, true) := by
        unfold Dictionary.removeToken
        show (match d.trie.delete (textSliceToBytes (splitTextToWords cfg s)) with | .noPath => _ | .ok t => _ | .unspecified => _) = _
        rw [hd]
      show segReAddToken cfg d s f p = _
      rw [segReAddToken, hrm]
  have hI : Isolated m (startChange m x c calls) (fun _ => noMem)
      (fun i r o => if i = 0 then ∃ err, r = .inl err ∧ x.alone cfg d = some (d, err)
        else ∀ y, calls[i - 1]? = some y → ∃ a, r = .inr a ∧ y.Alone cfg d c em (view m o) a) := by
    refine ⟨fun l x hx => hx, (by intro i l x hx; cases hx), (by intro i l x hx; cases hx), (by intro i j l x _ hx; cases hx), ?_⟩
    intro i p hp
    match i with
    | 0 =>
      simp only [startChange, List.getElem?_cons_zero, Option.some.injEq] at hp
      subst hp
      simp only [if_true]
      refine wp_bind' _ _ (wp_mono ?_ _ _ hw0)
      intro e o h1
      exact ⟨e, rfl, h1⟩
    | i + 1 =>
      simp only [startChange, List.getElem?_cons_succ, List.getElem?_map, Option.map_eq_some_iff] at hp
      obtain ⟨y, hy, rfl⟩ := hp
      have hmem := List.mem_of_getElem? hy
      refine wp_bind' _ _ (wp_mono ?_ _ _ (wp_use hU.dict h.emit y (hU.alone y hmem) fun input text mode segs e hs => ?_))
      · intro a o ha
        simp only [wp, if_neg (show ¬ (i + 1 = 0) by omega)]
        intro y' hy'
        simp only [Nat.add_sub_cancel] at hy'
        rw [hy] at hy'; cases hy'
        exact ⟨a, rfl, ha⟩
      · subst e
        exact wp_segment h.segmenter (h.inputs _ hmem) (fun _ _ _ => rfl) hs
  obtain ⟨own, hI', _, _⟩ := isolated_exec hI he
  refine ⟨isolated_raceFree hI he, fun i hp => hI'.goes i _ hp, fun r hr0 => ?_, ⟨h.segmenter.grow hI'.shared, hI'.shared _ _ h.totalFreq⟩, fun i y r hyi hri => ?_⟩
  · have key := hI'.goes 0 _ hr0
    simpa only [wp, if_true] using key
  · have key := hI'.goes (i + 1) _ hri
    simp only [wp] at key
    rw [if_neg (by omega)] at key
    obtain ⟨a, h1, h2⟩ := key y (by simpa using hyi)
    exact ⟨a, h1, h2.grow (hI'.grows (i + 1))⟩

/-! ## Every execution has a race -/

/-- A call that must ask the dictionary. -/
def UseCall.Asking : UseCall → Prop
  | .segment _ text mode => mode = false ∧ text ≠ []
  | .cut s _ | .cutDAG s _ | .cutAll s | .cutSearch s _ => s ≠ []
  | .find _ => True
  | .hmmCut _ _ => False

theorem dagRunes_ne [UnicodeOK] (cfg : SplitCfg) {s : Bytes} (h : s ≠ []) : dagRunes cfg s ≠ [] := by
  rw [dagRunes_eq]
  unfold dagText
  have : runes s ≠ [] := fun e => h (runes_eq_nil.mp e)
  split
  · simpa using this
  · exact this

/-- A call other than `Segment` reads the trie, whatever happens to the dictionary meanwhile. -/
theorem obeys_use [UnicodeOK] {m : Mem F D} {cfg : SplitCfg} {n : Nat} (c : HmmConst F) (h0 : m .flags = some (.flags cfg)) (h1 : m .segDict = some (.bool false))
    (y : UseCall) (hy : y.Asking) (hs : ∀ input text mode, y ≠ .segment input text mode) :
    Obeys (adding m n) (.rd .trie) false (y.prog c) noMem := by
  have hR : ∀ l' x, l' ≠ .trie → restPart m l' = some x → (adding m n).loc l' ∧ ∀ y, (adding m n).val l' y → y = x :=
    fun l x _ hx => adding_stable m n l x hx
  have h0' : restPart m .flags = some (.flags cfg) := h0
  have h1' : restPart m .segDict = some (.bool false) := h1
  cases y with
  | segment input text mode => exact absurd rfl (hs input text mode)
  | cut s hmm => exact obeys_map _ _ _ (asks_obeys hR _ _ (asks_cut c h0' h1' s hmm (dagRunes_ne cfg hy)))
  | cutDAG s reg => exact obeys_map _ _ _ (asks_obeys hR _ _ (asks_cutDAG' c h0' h1' s reg (dagRunes_ne cfg hy)))
  | cutAll s => exact obeys_map _ _ _ (asks_obeys hR _ _ (asks_cutAll h0' h1' s (dagRunes_ne cfg hy)))
  | cutSearch s hmm => exact obeys_map _ _ _ (asks_obeys hR _ _ (asks_cutSearch c h0' h1' s hmm (dagRunes_ne cfg hy)))
  | hmmCut s reg => exact hy.elim
  | find w => exact obeys_map _ _ _ (asks_obeys hR _ _ (asks_find h1' w))

/-- The goroutines at the start, with the accesses they must make. -/
theorem guarded_change {R : Rely F D} {m own : Mem F D} {c : HmmConst F} {x : ChangeCall F} {calls : List UseCall} {es : Nat → Access}
    (hs : ∀ l x, m l = some x → R.val l x) (hl : ∀ l, R.loc l → (m l).isSome) (ho : ∀ l x, own l = some x → m l = some x)
    (h0 : Obeys R (es 0) false (x.prog (D := D)) own) (h1 : ∀ (i : Nat) y, calls[i]? = some y → Obeys R (es (i + 1)) false (y.prog c) noMem) :
    Guarded R es (startChange m x c calls) [] (fun i => if i = 0 then own else noMem) fun _ => false := by
  refine ⟨?_, ?_, ?_, ?_, fun i hi => by cases hi⟩
  · intro l hll
    obtain ⟨x, hx⟩ := Option.isSome_iff_exists.mp (hl l hll)
    exact ⟨x, hx, hs l x hx⟩
  · intro i l x hx
    split at hx
    · exact ho l x hx
    · cases hx
  · intro i j l x hij hx
    split at hx
    · next hi => rw [if_neg (by omega)]; rfl
    · cases hx
  · intro i p hp
    match i with
    | 0 =>
      simp only [startChange, List.getElem?_cons_zero, Option.some.injEq] at hp
      subst hp
      exact .inl (obeys_map _ _ _ h0)
    | i + 1 =>
      simp only [startChange, List.getElem?_cons_succ, List.getElem?_map, Option.map_eq_some_iff] at hp
      obtain ⟨y, hy, rfl⟩ := hp
      exact .inl (obeys_map _ _ _ (h1 i y hy))

theorem stored_delete {cfg : SplitCfg} {d : Dictionary F D} {s : Bytes} (h : (d.valueOf (normText cfg s)).2 = false) :
    ∃ v t', d.trie.value (normText cfg s) = some v ∧ d.trie.delete (textSliceToBytes (splitTextToWords cfg s)) = .ok t' := by
  obtain ⟨v, hv⟩ := (valueOf_ok d _).mp h
  rw [key_norm]
  rcases Trie.delete_cases d.trie (normText cfg s) with ⟨h1, _⟩ | ⟨v', t', h1, h2⟩ | ⟨_, h1, _⟩
  · rw [Trie.isNode_of_value hv] at h1; cases h1
  · exact ⟨v', t', h1, h2⟩
  · rw [hv] at h1; cases h1

theorem norm_ne [UnicodeOK] {cfg : SplitCfg} {s : Bytes} (h : s ≠ []) : normText cfg s ≠ [] := by
  intro e
  rw [← flatten_split, List.flatten_eq_nil_iff] at e
  cases hw : splitTextToWords cfg s with
  | nil => exact h (split_eq_nil hw)
  | cons w ws => exact split_ne_nil cfg s w (by rw [hw]; simp) (e w (by rw [hw]; simp))

theorem maxLen_pos {cfg : SplitCfg} {d : Dictionary F D} (hwf : d.WF cfg) {k : Bytes} {v : Nat} (hv : d.trie.value k = some v) (hk : k ≠ []) : d.maxTokenLen ≠ 0 := by
  obtain ⟨t, ht, hf⟩ := hwf.entry k v hv
  have := hwf.maxLen t (List.mem_of_getElem? ht)
  intro e
  have h0 : t.text = [] := List.length_eq_zero_iff.mp (by omega)
  rw [h0] at hf
  exact hk hf.symm

/-- C93: a change that has something to do is a data race beside every call that asks the dictionary, under every interleaving: whenever the goroutine that
changes and one that asks have both ended, they have accessed one part of the dictionary (the trie as a whole, or the length of the longest word) with one of them
writing. -/
theorem C93_race [UnicodeOK] (cfg : SplitCfg) (ops : List (DictOp F)) (d : Dictionary F D) (hr : runOps cfg ops Dictionary.new = some d) (m : Mem F D)
    (c : HmmConst F) (em : EmitModel F) (x : ChangeCall F) (calls : List UseCall) (h : ChangeOK m cfg d em x calls) (hx : x.Effective cfg d) (hw : x.text ≠ [])
    (hc : ∀ y ∈ calls, y.Asking) (tr : List (Nat × Access)) (c' : Config F D (Bool ⊕ Answer F)) (he : Exec (startChange m x c calls) tr c')
    (i : Nat) (p q : Prog F D (Bool ⊕ Answer F)) (hp : c'.threads[0]? = some p) (hpe : Ended p) (hq : c'.threads[i + 1]? = some q) (hqe : Ended q) :
    ¬ RaceFree tr := by
  have hwf := Reachable.wf ⟨ops, hr⟩
  have hC : Changing (adding m d.maxTokenLen) (restPart m) cfg :=
    ⟨adding_stable m _, h.segmenter.flags, h.segmenter.segDict, by simp [adding, h.segmenter.maxLen d rfl],
      fun c hc => by obtain ⟨n, hn, _⟩ := hc.2 rfl; exact ⟨n, hn⟩, by simp [adding, h.segmenter.trie d rfl]⟩
  have hs : ∀ l x, m l = some x → (adding m d.maxTokenLen).val l x := by
    intro l x hx
    refine ⟨fun _ => hx, ?_⟩
    rintro rfl
    rw [h.segmenter.maxLen d rfl] at hx
    exact ⟨d.maxTokenLen, (Option.some.inj hx).symm, Nat.le_refl _⟩
  have ho : ∀ l x, dictPart m l = some x → m l = some x := by
    intro l x hx
    unfold dictPart at hx
    split at hx
    · exact hx
    · cases hx
  -- the location at which the change meets a call
  let meet : UseCall → Loc := fun y => match y with
    | .segment _ _ _ => if d.maxTokenLen = 0 then .maxLen else .trie
    | _ => .trie
  have h1 : ∀ (j : Nat) y, calls[j]? = some y → Obeys (adding m d.maxTokenLen) (.rd (meet y)) false (y.prog c) noMem := by
    intro j y hj
    have hy := hc y (List.mem_of_getElem? hj)
    have hin := h.inputs y (List.mem_of_getElem? hj)
    cases y with
    | segment input text mode =>
      obtain ⟨rfl, ht⟩ := hy
      have hin' : HoldsBytes (restPart m) input text := hin
      show Obeys _ (.rd (if d.maxTokenLen = 0 then .maxLen else .trie)) _ _ _
      split
      · exact obeys_map _ _ _ (obeys_segment_maxLen hC hin' ht)
      · next h0 =>
        refine obeys_map _ _ _ (obeys_segment_trie hC (fun n hn => ?_) hin' ht fun e => ht (split_eq_nil e))
        obtain ⟨n', e, hle⟩ := hn.2 rfl
        cases e; omega
    | _ => exact obeys_use c h.segmenter.flags h.segmenter.segDict _ hy (by simp)
  have h0 : ∀ l, (l = .trie ∨ (l = .maxLen ∧ d.maxTokenLen = 0)) → Obeys (adding m d.maxTokenLen) (.wr l) false (x.prog (D := D)) (dictPart m) := by
    intro l hl
    cases x with
    | add r s f p =>
      refine obeys_addToken h.segmenter h.totalFreq h.room h.word f p hx _ ?_
      rcases hl with rfl | ⟨rfl, h0⟩
      · exact .inl rfl
      · exact .inr ⟨rfl, by rw [h0]; exact List.length_pos_iff.mpr fun e => hw (split_eq_nil e)⟩
    | remove r s =>
      obtain ⟨v, t', hv, hd⟩ := stored_delete hx
      rcases hl with rfl | ⟨rfl, h0⟩
      · exact obeys_removeToken h.segmenter h.word hd
      · exact absurd h0 (maxLen_pos hwf hv (norm_ne hw))
    | reAdd r s f p =>
      obtain ⟨v, t', hv, hd⟩ := stored_delete hx
      rcases hl with rfl | ⟨rfl, h0⟩
      · exact obeys_reAddToken h.segmenter h.totalFreq h.room h.word f p hd
      · exact absurd h0 (maxLen_pos hwf hv (norm_ne hw))
  have hlen := exec_threads he
  have hi : i < calls.length := by
    have := (List.getElem?_eq_some_iff.mp hq).1
    rw [hlen] at this
    simpa [startChange] using this
  have hmeet : ∀ y, meet y = .trie ∨ (meet y = .maxLen ∧ d.maxTokenLen = 0) := by
    intro y
    cases y with
    | segment input text mode =>
      show (if d.maxTokenLen = 0 then Loc.maxLen else Loc.trie) = .trie ∨ ((if d.maxTokenLen = 0 then Loc.maxLen else Loc.trie) = .maxLen ∧ _)
      by_cases h0 : d.maxTokenLen = 0 <;> simp [h0]
    | _ => exact .inl rfl
  intro hrf
  obtain ⟨own, done, hg'⟩ := guarded_exec (guarded_change (es := fun j => if j = 0 then .wr (meet calls[i]) else .rd (((calls[j - 1]?).map meet).getD .trie)) hs (fun _ h => h) ho
    (by simpa using h0 _ (hmeet _)) fun j y hj => by
      have := h1 j y hj
      simpa [hj] using this) he
  have w := guarded_ended hg' hp hpe
  have r := guarded_ended hg' hq hqe
  simp only [if_true] at w
  rw [if_neg (by omega)] at r
  simp only [Nat.add_sub_cancel, List.getElem?_eq_getElem hi, Option.map_some, Option.getD_some] at r
  exact hrf 0 _ (i + 1) _ w r (by omega) rfl

/-- C93: and every execution that cannot go on is one in which all goroutines have ended, so it has a race. -/
theorem C93_complete [UnicodeOK] (cfg : SplitCfg) (ops : List (DictOp F)) (d : Dictionary F D) (hr : runOps cfg ops Dictionary.new = some d) (m : Mem F D)
    (hm : ∃ n, m.Below n) (c : HmmConst F) (em : EmitModel F) (x : ChangeCall F) (calls : List UseCall) (h : ChangeOK m cfg d em x calls)
    (hx : x.Effective cfg d) (hw : x.text ≠ []) (hc : ∀ y ∈ calls, y.Asking) (hne : calls ≠ []) (tr : List (Nat × Access)) (c' : Config F D (Bool ⊕ Answer F))
    (he : Exec (startChange m x c calls) tr c') (hend : ∀ i e c'', ¬ Step c' i e c'') : ¬ RaceFree tr := by
  have hpos := List.length_pos_iff.mpr hne
  obtain ⟨p, h1, h2⟩ := exec_ended he hm hend (i := 0) (by simp [startChange])
  obtain ⟨q, h3, h4⟩ := exec_ended he hm hend (i := 0 + 1) (by simp [startChange]; omega)
  exact C93_race cfg ops d hr m c em x calls h hx hw hc tr c' he 0 p q h1 h2 h3 h4

/-! ## Half of a change -/

/-- The change puts a new entry into the table. -/
def ChangeCall.Growing (cfg : SplitCfg) (d : Dictionary F D) (x : ChangeCall F) : Prop :=
  ∃ d' err, x.alone cfg d = some (d', err) ∧ d'.numTokens ≠ d.numTokens

theorem reach_dictRemove {ts : List (Prog F D α)} {i : Nat} (hi : i < ts.length) {m : Mem F D} {cfg : SplitCfg} {d : Dictionary F D} (hS : HoldsSegmenter m cfg (some d))
    {token : Token F D} {t' : Trie} (hd : d.trie.delete (textSliceToBytes token.text) = .ok t') (f : Bool → Prog F D α) :
    Reach ⟨m, ts.set i ((dictRemoveP token).bind f)⟩ ⟨m.put .trie (.trie t'), ts.set i (f false)⟩ := by
  unfold dictRemoveP
  have h1 := reach_read hi (k := fun c => ((match c with | .trie t => Prog.ret t | _ => .panic).bind fun t =>
    (match t.delete (textSliceToBytes token.text) with
      | .noPath => .ret true
      | .ok t' => do put .trie (.trie t'); .ret false
      | .unspecified => .panic : Prog F D Bool)).bind f) (hS.trie d rfl)
  simp only [Prog.bind] at h1
  rw [hd] at h1
  exact h1.trans (reach_write hi (by rw [hS.trie d rfl]; rfl))

theorem reach_dictAdd {ts : List (Prog F D α)} {i : Nat} (hi : i < ts.length) {m : Mem F D} {cfg : SplitCfg} {d : Dictionary F D} (hS : HoldsSegmenter m cfg (some d))
    {token : Token F D} {t' : Trie} (hget : d.trie.get (textSliceToBytes token.text) = none) (hins : d.trie.insert (textSliceToBytes token.text) d.tokens.length = some t')
    (f : Bool → Prog F D α) : ∃ p, Reach ⟨m, ts.set i ((dictAddP token).bind f)⟩ ⟨m.put .trie (.trie t'), ts.set i p⟩ := by
  have hr0 : Reach ⟨m, ts.set i ((dictAddP token).bind f)⟩ ⟨m, ts.set i ((dictAddP token).bind f)⟩ := Reach.refl _
  unfold dictAddP at hr0 ⊢
  have hr2 := hr0.trans (reach_read hi (hS.trie d rfl))
  simp only [Prog.bind] at hr2
  rw [hget] at hr2
  simp only [insertP] at hr2
  have hr3 := hr2.trans (reach_read hi (hS.tokHdr d rfl))
  have hr4 := hr3.trans (reach_read hi (hS.trie d rfl))
  simp only [Prog.bind] at hr4
  rw [hins] at hr4
  exact ⟨_, hr4.trans (reach_write hi (by rw [hS.trie d rfl]; rfl))⟩

/-- The goroutine that changes, up to the point where it has made its token. -/
theorem reach_token {ts : List (Prog F D α)} {i : Nat} (hi : i < ts.length) {m : Mem F D} (hm : ∃ n, m.Below n) {cfg : SplitCfg} {d : Dictionary F D}
    (hS : HoldsSegmenter m cfg (some d)) {r : Slice} {s : Bytes} (hw : HoldsBytes m r s) (freq : F) (pos : Bytes) (g : Token F D → Prog F D Bool) (f : Bool → Prog F D α) :
    ∃ m', Grows m m' ∧ Reach ⟨m, ts.set i (((toTokenP r freq pos).bind g).bind f)⟩ ⟨m', ts.set i ((g (toToken cfg s freq pos)).bind f)⟩ := by
  have hv : view m noMem = m := by funext l; simp [view, noMem]
  obtain ⟨token, o1, ⟨ha, rfl⟩, hr⟩ := reach_wp hi (f := fun t => (g t).bind f) _ _
    (wp_toToken (sh := m) (cfg := cfg) hS.flags hw (o := noMem) (fun _ _ _ => rfl) (freq := freq) (pos := pos)) (by rw [hv]; exact hm)
  rw [hv, ← bind_assoc_prog] at hr
  exact ⟨_, fun l x h => view_shared ha h, hr⟩

/-- `RemoveToken` or `ReAddToken` of a stored word, up to the point where the word is out of the trie. -/
theorem reach_gap (m : Mem F D) (hm : ∃ n, m.Below n) (cfg : SplitCfg) (d : Dictionary F D) (c : HmmConst F) (em : EmitModel F) (r : Slice) (s : Bytes) (freq : F) (pos : Bytes)
    (calls : List UseCall) (h : ChangeOK m cfg d em (.reAdd r s freq pos) calls) {t' : Trie} (hd : d.trie.delete (textSliceToBytes (splitTextToWords cfg s)) = .ok t') :
    ∃ m1, Grows m m1 ∧ Reach (startChange m (.reAdd r s freq pos) c calls) ⟨m1.put .trie (.trie t'), (startChange m (.reAdd r s freq pos) c calls).threads.set 0
      ((Prog.bind (Prog.rdBool .segDict) fun nil => if nil then .panic else dictAddP (toToken cfg s freq pos)).bind fun e => .ret (.inl e))⟩ := by
  have h0 : 0 < (startChange m (.reAdd r s freq pos) c calls).threads.length := by simp [startChange]
  obtain ⟨m1, hg, hr⟩ := reach_token h0 hm h.segmenter h.word freq pos
    (fun token => Prog.bind (Prog.rdBool .segDict) fun nil => if nil then .panic else (dictRemoveP token).bind fun err => if err then .ret true else
      Prog.bind (Prog.rdBool .segDict) fun nil => if nil then .panic else dictAddP token) (fun e => .ret (.inl e))
  change Reach (startChange m (.reAdd r s freq pos) c calls) _ at hr
  have hS := h.segmenter.grow hg
  have hr1 := hr.trans (reach_read h0 hS.segDict)
  simp only [Option.isNone_some, Prog.bind, Bool.false_eq_true, if_false] at hr1
  rw [bind_assoc_prog] at hr1
  have hr2 := hr1.trans (reach_dictRemove h0 hS hd _)
  exact ⟨m1, hg, hr2⟩

/-- `AddToken` or `ReAddToken`, up to the point where the word is in the trie and not in the table. -/
theorem reach_grow (m : Mem F D) (hm : ∃ n, m.Below n) (cfg : SplitCfg) (d : Dictionary F D) (c : HmmConst F) (em : EmitModel F) (x : ChangeCall F) (calls : List UseCall)
    (h : ChangeOK m cfg d em x calls) (hx : x.Growing cfg d) :
    ∃ (m1 : Mem F D) (t' : Trie) (p : Prog F D (Bool ⊕ Answer F)), t'.value (normText cfg x.text) = some d.tokens.length ∧
      HoldsSegmenter m1 cfg (some { d with trie := t' }) ∧ (∀ a i x, m (.cell a i) = some x → m1 (.cell a i) = some x) ∧
      Reach (startChange m x c calls) ⟨m1, (startChange m x c calls).threads.set 0 p⟩ := by
  have h0 : 0 < (startChange m x c calls).threads.length := by simp [startChange]
  obtain ⟨d', err, ha, hne⟩ := hx
  cases x with
  | add r s freq pos =>
    obtain ⟨m1, hg, hr⟩ := reach_token h0 hm h.segmenter h.word freq pos
      (fun token => Prog.bind (Prog.rdBool .segDict) fun nil => if nil then .panic else dictAddP token) (fun e => .ret (.inl e))
    change Reach (startChange m (.add r s freq pos) c calls) _ at hr
    have hS := h.segmenter.grow hg
    have hr1 := hr.trans (reach_read h0 hS.segDict)
    simp only [Option.isNone_some, Prog.bind, Bool.false_eq_true, if_false] at hr1
    have hd' : (d.addToken (toToken cfg s freq pos)).1 = d' := congrArg Prod.fst (Option.some.inj ha)
    subst hd'
    cases hget : d.trie.get (textSliceToBytes (splitTextToWords cfg s)) with
    | some v => exact absurd (by simp [Dictionary.addToken, toToken, hget]) hne
    | none =>
      cases hi : d.trie.insert (textSliceToBytes (splitTextToWords cfg s)) d.tokens.length with
      | none => exact absurd (by simp [Dictionary.addToken, toToken, hget, Dictionary.numTokens, hi]) hne
      | some t' =>
        obtain ⟨p, hr2⟩ := reach_dictAdd h0 hS (token := toToken cfg s freq pos) hget hi _
        have hval := Trie.value_insert hi (textSliceToBytes (splitTextToWords cfg s))
        rw [if_pos rfl, key_norm] at hval
        exact ⟨_, t', p, hval, hS.put_trie t', fun a i x hx => by simpa [Mem.put] using hg _ _ hx, hr1.trans hr2⟩
  | remove r s =>
    exfalso
    apply hne
    simp only [ChangeCall.alone, segRemoveToken, Dictionary.removeToken] at ha
    split at ha
    · cases ha; rfl
    · cases ha; rfl
    · cases ha
  | reAdd r s freq pos =>
    simp only [ChangeCall.alone, segReAddToken, Dictionary.removeToken] at ha
    cases hd : d.trie.delete (textSliceToBytes (toToken (F := F) (D := D) cfg s freq pos).text) with
    | noPath => rw [hd] at ha; cases ha; exact absurd rfl hne
    | unspecified => rw [hd] at ha; cases ha
    | ok t0 =>
      rw [hd] at ha
      have hd' : ({ d with trie := t0 }.addToken (toToken cfg s freq pos)).1 = d' := congrArg Prod.fst (Option.some.inj ha)
      subst hd'
      obtain ⟨m1, hg, hr⟩ := reach_gap m hm cfg d c em r s freq pos calls h hd
      have hS : HoldsSegmenter (m1.put .trie (.trie t0)) cfg (some { d with trie := t0 }) := (h.segmenter.grow hg).put_trie t0
      have hr1 := hr.trans (reach_read h0 hS.segDict)
      simp only [Option.isNone_some, Prog.bind, Bool.false_eq_true, if_false] at hr1
      cases hget : t0.get (textSliceToBytes (splitTextToWords cfg s)) with
      | some v => exact absurd (by simp [Dictionary.addToken, toToken, hget, Dictionary.numTokens]) hne
      | none =>
        cases hi : t0.insert (textSliceToBytes (splitTextToWords cfg s)) d.tokens.length with
        | none => exact absurd (by simp [Dictionary.addToken, toToken, hget, Dictionary.numTokens, hi]) hne
        | some t' =>
          obtain ⟨p, hr2⟩ := reach_dictAdd h0 hS (token := toToken cfg s freq pos) hget hi _
          have hval := Trie.value_insert hi (textSliceToBytes (splitTextToWords cfg s))
          rw [if_pos rfl, key_norm] at hval
          exact ⟨_, t', p, hval, hS.put_trie t', fun a i x hx => by simpa [Mem.put] using hg _ _ hx, hr1.trans hr2⟩

/-- The call comes across the word `k` while it works. -/
def UseCall.Meets (cfg : SplitCfg) (k : Bytes) : UseCall → Prop
  | .cut s _ | .cutDAG s _ | .cutAll s | .cutSearch s _ => ∃ pre w post, dagText cfg s = pre ++ w ++ post ∧ encode w = k
  | .find w => w = k
  | _ => False

/-- The goroutine of one call of `startChange`, set back. -/
theorem startChange_self {m : Mem F D} {x : ChangeCall F} {c : HmmConst F} {calls : List UseCall} {i : Nat} {y : UseCall} (hy : calls[i]? = some y) (p : Prog F D (Bool ⊕ Answer F)) :
    ((startChange m x c calls).threads.set 0 p).set (i + 1) ((y.prog c).bind fun a => .ret (.inr a)) = (startChange m x c calls).threads.set 0 p := by
  apply List.ext_getElem?
  intro n
  rw [List.getElem?_set]
  split
  · next e =>
    obtain ⟨hlt, rfl⟩ := List.getElem?_eq_some_iff.mp hy
    subst e; simp [startChange, hlt]
  · rfl

/-- C93: adding a new word, or re-adding one, makes a call that comes across it panic under some interleaving: the word is in the trie before its entry is in the table, and
an index out of range is the result for a call that asks in between. -/
theorem C93_panic [UnicodeOK] (m : Mem F D) (hm : ∃ n, m.Below n) (cfg : SplitCfg) (d : Dictionary F D) (c : HmmConst F) (em : EmitModel F) (x : ChangeCall F)
    (calls : List UseCall) (h : ChangeOK m cfg d em x calls) (hx : x.Growing cfg d) (hw : x.text ≠ []) (i : Nat) (y : UseCall) (hy : calls[i]? = some y)
    (hmeet : y.Meets cfg (normText cfg x.text)) : ∃ tr c', Exec (startChange m x c calls) tr c' ∧ c'.threads[i + 1]? = some .panic := by
  obtain ⟨m1, t', p, hval, hS, _, hr⟩ := reach_grow m hm cfg d c em x calls h hx
  have hk : normText cfg x.text ≠ [] := norm_ne hw
  have hT := hS.toHoldsTable
  have hcr : Crashes m1 (y.prog (D := D) c) := by
    have pieces : ∀ s, (∃ pre w post, dagText cfg s = pre ++ w ++ post ∧ encode w = normText cfg x.text) →
        ∃ pre w post, dagRunes cfg s = pre ++ w ++ post ∧ w ≠ [] ∧ t'.value (encode w) = some d.tokens.length := by
      rintro s ⟨pre, w, post, h1, h2⟩
      refine ⟨pre, w, post, by rw [dagRunes_eq, h1], ?_, by rw [h2]; exact hval⟩
      rintro rfl
      exact hk h2.symm
    cases y with
    | segment input text mode => exact hmeet.elim
    | hmmCut s reg => exact hmeet.elim
    | cut s hmm => obtain ⟨pre, w, post, h1, h2, h3⟩ := pieces s hmeet; exact crashes_bind _ (crashes_cut c hT s hmm h1 h2 h3 (Nat.le_refl _))
    | cutDAG s reg => obtain ⟨pre, w, post, h1, h2, h3⟩ := pieces s hmeet; exact crashes_bind _ (crashes_cutDAG c hT s reg h1 h2 h3 (Nat.le_refl _))
    | cutAll s => obtain ⟨pre, w, post, h1, h2, h3⟩ := pieces s hmeet; exact crashes_bind _ (crashes_cutAll hT s h1 h2 h3 (Nat.le_refl _))
    | cutSearch s hmm => obtain ⟨pre, w, post, h1, h2, h3⟩ := pieces s hmeet; exact crashes_bind _ (crashes_cutSearch c hT s hmm h1 h2 h3 (Nat.le_refl _))
    | find w =>
      obtain rfl : w = _ := hmeet
      exact crashes_bind _ (crashes_find hT hk hval (Nat.le_refl _))
  have hi : i + 1 < ((startChange m x c calls).threads.set 0 p).length := by
    have := (List.getElem?_eq_some_iff.mp hy).1
    simp [startChange]; omega
  have hr2 := reach_crashes hi _ (crashes_bind (f := fun a => .ret (.inr a)) _ hcr)
  rw [startChange_self hy] at hr2
  obtain ⟨tr, hx⟩ := hr.trans hr2
  exact ⟨tr, _, hx, set_get hi _⟩

/-- C93: `ReAddToken` of a stored word is two changes: beside it, every call has an interleaving in which it returns what it returns with the word removed, though the word is
in the dictionary before and after. -/
theorem C93_gap [UnicodeOK] (cfg : SplitCfg) (ops : List (DictOp F)) (d : Dictionary F D) (hr : runOps cfg ops Dictionary.new = some d) (m : Mem F D)
    (hm : ∃ n, m.Below n) (c : HmmConst F) (em : EmitModel F) (r : Slice) (s : Bytes) (freq : F) (pos : Bytes) (calls : List UseCall)
    (h : ChangeOK m cfg d em (.reAdd r s freq pos) calls) (hs : (d.valueOf (normText cfg s)).2 = false) (i : Nat) (y : UseCall) (hy : calls[i]? = some y) (hn : y.NoPatterns) :
    ∃ d0, segRemoveToken cfg d s = some (d0, false) ∧ ∃ tr c' a, Exec (startChange m (.reAdd r s freq pos) c calls) tr c' ∧
      c'.threads[i + 1]? = some (.ret (.inr a)) ∧ y.Alone cfg d0 c em c'.mem a := by
  obtain ⟨v, t', hv, hd⟩ := stored_delete hs
  have hd0 : segRemoveToken cfg d s = some ({ d with trie := t' }, false) := by
    unfold segRemoveToken Dictionary.removeToken
    show (match d.trie.delete (textSliceToBytes (splitTextToWords cfg s)) with | .noPath => _ | .ok t => _ | .unspecified => _) = _
    rw [hd]
  refine ⟨_, hd0, ?_⟩
  obtain ⟨m1, hg, hreach⟩ := reach_gap m hm cfg d c em r s freq pos calls h hd
  have hS : HoldsSegmenter (m1.put .trie (.trie t')) cfg (some { d with trie := t' }) := (h.segmenter.grow hg).put_trie t'
  have hin : y.HasInput (m1.put .trie (.trie t')) := by
    have := h.inputs y (List.mem_of_getElem? hy)
    cases y with
    | segment input text mode => exact ⟨this.1, fun k b hb => by simpa [Mem.put] using hg _ _ (this.2 k b hb)⟩
    | _ => trivial
  have he : (m1.put .trie (.trie t')) .emit = some (.emit em) := by simpa [Mem.put] using hg _ _ h.emit
  have hU := C73_history cfg (ops ++ [.remove s]) { d with trie := t' } (by rw [runOps_append, hr]; simp [runOps, DictOp.step, hd0]) (m1.put .trie (.trie t')) c em [y] hS
    (by simpa [Mem.put] using hg _ _ h.totalFreq) he (by simpa using hin) (by simpa using hn)
  have hwp := wp_use hU.dict he y (hU.alone y (by simp)) fun input text mode segs e hs => by
    subst e
    exact wp_segment hS hin (fun _ _ _ => rfl) hs
  have hb : ∃ n, (m1.put .trie (.trie t') : Mem F D).Below n := by obtain ⟨tr, hx⟩ := hreach; exact exec_below hx hm
  have hv : view (m1.put .trie (.trie t')) noMem = m1.put .trie (.trie t') := by funext l; simp [view, noMem]
  generalize (Prog.bind (Prog.bind (Prog.rdBool .segDict) fun nil => if nil then .panic else dictAddP (toToken cfg s freq pos)) fun e => Prog.ret (Sum.inl e) : Prog F D (Bool ⊕ Answer F)) = p at hreach
  have hi : i + 1 < ((startChange m (.reAdd r s freq pos) c calls).threads.set 0 p).length := by
    have := (List.getElem?_eq_some_iff.mp hy).1
    simp [startChange]; omega
  obtain ⟨a, o', ha, hr2⟩ := reach_wp hi (f := fun a => .ret (.inr a)) _ _ hwp (by rw [show view (m1.put .trie (.trie t')) (fun _ => none) = _ from hv]; exact hb)
  rw [show view (m1.put .trie (.trie t')) (fun _ => none) = _ from hv, startChange_self hy] at hr2
  obtain ⟨tr, hx⟩ := hreach.trans hr2
  exact ⟨tr, _, a, hx, set_get hi _, ha⟩

/-- C93: so looking a stored word up while it is added again may find it with frequency 0 and no part of speech. -/
theorem C93_gap_find [UnicodeOK] (cfg : SplitCfg) (ops : List (DictOp F)) (d : Dictionary F D) (hr : runOps cfg ops Dictionary.new = some d) (m : Mem F D)
    (hm : ∃ n, m.Below n) (c : HmmConst F) (em : EmitModel F) (r : Slice) (s : Bytes) (freq : F) (pos : Bytes) (calls : List UseCall)
    (h : ChangeOK m cfg d em (.reAdd r s freq pos) calls) (hs : (d.valueOf (normText cfg s)).2 = false) (i : Nat) (hy : calls[i]? = some (.find (normText cfg s))) :
    ∃ tr c' ok, Exec (startChange m (.reAdd r s freq pos) c calls) tr c' ∧ c'.threads[i + 1]? = some (.ret (.inr (.found (F64.ofNat 0, [], ok)))) := by
  obtain ⟨d0, h0, tr, c', a, hx, hc, ha⟩ := C93_gap cfg ops d hr m hm c em r s freq pos calls h hs i _ hy trivial
  obtain ⟨v, t', hv, hd⟩ := stored_delete hs
  have hv0 : d0.trie.value (normText cfg s) = none := by
    unfold segRemoveToken Dictionary.removeToken at h0
    change (match d.trie.delete (textSliceToBytes (splitTextToWords cfg s)) with | .noPath => _ | .ok t => _ | .unspecified => _) = _ at h0
    rw [hd] at h0
    cases h0
    have := Trie.value_delete hd (normText cfg s)
    rwa [key_norm, if_pos rfl] at this
  cases a with
  | found y =>
    have hf : d0.find (normText cfg s) = some y := ha
    obtain ⟨f, p, ok⟩ := y
    unfold Dictionary.find at hf
    cases hj : d0.trie.jump (normText cfg s) [] with
    | none => rw [hj] at hf; cases hf; exact ⟨tr, c', _, hx, hc⟩
    | some id =>
      have hid : id = normText cfg s := by
        unfold Trie.jump at hj
        split at hj
        · simpa using hj.symm
        · cases hj
      subst hid
      rw [hj] at hf
      simp only [hv0] at hf
      split at hf <;> (cases hf; exact ⟨tr, c', _, hx, hc⟩)
  | segs r => exact ha.elim
  | words ws => exact ha.elim

end

section examples
attribute [local instance] sampleUnicode sampleUnicodeOK sampleF64 sampleF32 sampleNarrow

theorem changeOK_roomy (cfg : SplitCfg) (d : Dictionary Int Int) (inputs : List Bytes) (x : ChangeCall Int) (calls : List UseCall)
    (hw : HoldsBytes (memOf cfg (some d) inputs) x.input x.text) (hi : ∀ y ∈ calls, y.HasInput (roomy (memOf cfg (some d) inputs) d)) :
    ChangeOK (roomy (memOf cfg (some d) inputs) d) cfg d (fun _ _ => none) x calls := by
  have h := roomy_ok cfg d inputs ⟨x.input, x.text, 0, []⟩ [] hw (by simp)
  exact ⟨h.segmenter, h.totalFreq, h.room, by simp [roomy, Mem.put, memOf], h.word, hi⟩

/-- A dictionary with one word "w". Adding "go" and removing "w" race with cutting "go w", looking "w" up and segmenting "go w" under every complete interleaving, and beside
adding "go", cutting "go w" and looking "go" up panic under some. Looking "w" up while it is added again finds frequency 0 in between. Removing "go", which is not there, is safe,
and so is adding "go" beside the HMM. -/
example : ∃ (d : Dictionary Int Int), runOps {} [.add (str "w") 9 [], .recalc] Dictionary.new = some d ∧
    let m := roomy (memOf {} (some d) [str "w", str "go", str "go w"]) d
    let add : ChangeCall Int := .add ⟨1, 0, 2⟩ (str "go") 5 []
    let readers : List UseCall := [.cut (str "go w") true, .find (str "w"), .segment ⟨2, 0, 4⟩ (str "go w") false]
    (∀ tr c', Exec (startChange m add hmmConst readers) tr c' → (∀ i e c'', ¬ Step c' i e c'') → ¬ RaceFree tr) ∧
    (∀ tr c', Exec (startChange m (.remove ⟨0, 0, 1⟩ (str "w")) hmmConst readers) tr c' → (∀ i e c'', ¬ Step c' i e c'') → ¬ RaceFree tr) ∧
    (∃ tr c', Exec (startChange m add hmmConst [.cut (str "go w") true, .find (str "go")]) tr c' ∧ c'.threads[1]? = some .panic) ∧
    (∃ tr c', Exec (startChange m add hmmConst [.cut (str "go w") true, .find (str "go")]) tr c' ∧ c'.threads[2]? = some .panic) ∧
    (∃ tr c' ok, Exec (startChange m (.reAdd ⟨0, 0, 1⟩ (str "w") 7 []) hmmConst [.find (str "w")]) tr c' ∧ c'.threads[1]? = some (.ret (.inr (.found (0, [], ok))))) ∧
    (∀ tr c', Exec (startChange m (.remove ⟨1, 0, 2⟩ (str "go")) hmmConst readers) tr c' → RaceFree tr) ∧
    ∀ tr c', Exec (startChange m add hmmConst [.hmmCut hmmText []]) tr c' → RaceFree tr := by
  have h : (runOps (F := Int) (D := Int) {} [.add (str "w") 9 [], .recalc] Dictionary.new).isSome := by decide +kernel
  obtain ⟨d, hd⟩ := Option.isSome_iff_exists.mp h
  have hn : d.numTokens = 1 ∧ (segAddToken {} d (str "go") 5 []).1.numTokens = 2 ∧ (d.valueOf (str "w")).2 = false := by
    have : (runOps (F := Int) (D := Int) {} [.add (str "w") 9 [], .recalc] Dictionary.new).map
        (fun d => (d.numTokens, (segAddToken {} d (str "go") 5 []).1.numTokens, (d.valueOf (str "w")).2)) = some (1, 2, false) := by decide +kernel
    rw [hd] at this
    simpa using this
  have h4 : d.find (str "go") = some (0, [], false) := by
    have : (runOps (F := Int) (D := Int) {} [.add (str "w") 9 [], .recalc] Dictionary.new).bind (fun d => d.find (str "go")) = some (0, [], false) := by decide +kernel
    rw [hd] at this
    simpa using this
  obtain ⟨h1, h2, h3⟩ := hn
  have hb := roomy_below {} d [str "w", str "go", str "go w"]
  have hw0 := memOf_input {} (some d) [str "w", str "go", str "go w"] 0 (str "w") rfl
  have hw1 := memOf_input {} (some d) [str "w", str "go", str "go w"] 1 (str "go") rfl
  have hw2 := memOf_input {} (some d) [str "w", str "go", str "go w"] 2 (str "go w") rfl
  have hnw : normText {} (str "w") = str "w" := by decide +kernel
  have hng : normText {} (str "go") = str "go" := by decide +kernel
  have hin : ∀ y ∈ ([.cut (str "go w") true, .find (str "w"), .segment ⟨2, 0, 4⟩ (str "go w") false] : List UseCall),
      y.HasInput (roomy (memOf {} (some d) [str "w", str "go", str "go w"]) d) := by
    intro y hy
    simp only [List.mem_cons, List.not_mem_nil, or_false] at hy
    rcases hy with rfl | rfl | rfl
    · trivial
    · trivial
    · exact ⟨hw2.1, fun k b hk => by simpa [roomy, Mem.put] using hw2.2 k b hk⟩
  have hask : ∀ y ∈ ([.cut (str "go w") true, .find (str "w"), .segment ⟨2, 0, 4⟩ (str "go w") false] : List UseCall), y.Asking := by
    intro y hy
    simp only [List.mem_cons, List.not_mem_nil, or_false] at hy
    rcases hy with rfl | rfl | rfl
    · show str "go w" ≠ []; decide
    · trivial
    · exact ⟨rfl, by decide⟩
  have hgrow : (ChangeCall.add ⟨1, 0, 2⟩ (str "go") 5 [] : ChangeCall Int).Growing {} d := ⟨(segAddToken {} d (str "go") 5 []).1, (segAddToken {} d (str "go") 5 []).2, rfl, by rw [h1, h2]; decide⟩
  have hok2 : ChangeOK (roomy (memOf {} (some d) [str "w", str "go", str "go w"]) d) {} d (fun _ _ => none) (.add ⟨1, 0, 2⟩ (str "go") 5 [])
      [.cut (str "go w") true, .find (str "go")] := changeOK_roomy {} d _ (.add ⟨1, 0, 2⟩ (str "go") 5 []) _ hw1 (by
    intro y hy
    simp only [List.mem_cons, List.not_mem_nil, or_false] at hy
    rcases hy with rfl | rfl <;> trivial)
  refine ⟨d, hd, fun tr c' hx he => ?_, fun tr c' hx he => ?_, ?_, ?_, ?_, fun tr c' hx => ?_, fun tr c' hx => ?_⟩
  · exact C93_complete {} _ d hd _ ⟨_, hb⟩ hmmConst _ (.add ⟨1, 0, 2⟩ (str "go") 5 []) _ (changeOK_roomy {} d _ (.add ⟨1, 0, 2⟩ (str "go") 5 []) _ hw1 hin)
      (show (segAddToken {} d (str "go") 5 []).1.numTokens ≠ d.numTokens by rw [h1, h2]; decide) (by decide) hask (by simp) tr c' hx he
  · exact C93_complete {} _ d hd _ ⟨_, hb⟩ hmmConst _ (.remove ⟨0, 0, 1⟩ (str "w")) _ (changeOK_roomy {} d _ (.remove ⟨0, 0, 1⟩ (str "w")) _ hw0 hin) (by show (d.valueOf (normText {} (str "w"))).2 = false; rw [hnw]; exact h3)
      (by decide) hask (by simp) tr c' hx he
  · exact C93_panic _ ⟨_, hb⟩ {} d hmmConst _ _ _ hok2 hgrow (by decide) 0 _ rfl
      ⟨[], runes (str "go"), runes (str " w"), by decide +kernel, by show _ = normText {} (str "go"); rw [hng]; decide +kernel⟩
  · exact C93_panic _ ⟨_, hb⟩ {} d hmmConst _ _ _ hok2 hgrow (by decide) 1 _ rfl (by show _ = normText {} (str "go"); rw [hng])
  · exact C93_gap_find {} _ d hd _ ⟨_, hb⟩ hmmConst (fun _ _ => none) ⟨0, 0, 1⟩ (str "w") 7 [] [.find (str "w")]
      (changeOK_roomy {} d _ (.reAdd ⟨0, 0, 1⟩ (str "w") 7 []) _ hw0 (by intro y hy; cases List.mem_singleton.mp hy; trivial)) (by rw [hnw]; exact h3) 0 (by rw [hnw]; rfl)
  · refine (C93_idle {} _ d hd _ hmmConst _ (.remove ⟨1, 0, 2⟩ (str "go")) _ (changeOK_roomy {} d _ (.remove ⟨1, 0, 2⟩ (str "go")) _ hw1 hin) ⟨?_, ?_⟩ ?_ tr c' hx).1
    · rw [hng]; exact h4
    · rw [hng]; decide
    · intro y hy
      simp only [List.mem_cons, List.not_mem_nil, or_false] at hy
      rcases hy with rfl | rfl | rfl <;> trivial
  · exact (C93_hmm _ {} d _ _ hmmConst _ (.add ⟨1, 0, 2⟩ (str "go") 5 []) _ (changeOK_roomy {} d _ (.add ⟨1, 0, 2⟩ (str "go") 5 []) _ hw1 (by intro y hy; cases List.mem_singleton.mp hy; trivial)) rfl
      (by intro y hy; cases List.mem_singleton.mp hy; rfl) tr c' hx).1
end examples
end Gse
