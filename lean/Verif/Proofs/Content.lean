import Verif.Proofs.Segment
import Verif.Proofs.History
import Verif.Proofs.CalcMem
import Verif.Model.Dag
import Verif.Spec.Segment

/-!
# Dictionaries with the same content

Two dictionaries that store the same words with the same frequencies and tags, under whatever numbers.
-/

namespace Gse
open Spec

set_option linter.unusedSectionVars false

section
variable {F D : Type} [F64 F] [F32 D] [Narrow F D] [Unicode]

/-- Among the words that `P` holds of: the same words with the same tags, and frequencies related by `R`. -/
structure SameStore (cfg : SplitCfg) (P : Bytes → Prop) (R : F → F → Prop) (d d' : Dictionary F D) : Prop where
  wf : d.WF cfg
  wf' : d'.WF cfg
  none_iff : ∀ k, P k → (d.trie.value k = none ↔ d'.trie.value k = none)
  entry : ∀ k v v' t t', P k → d.trie.value k = some v → d'.trie.value k = some v' → d.tokens[v]? = some t → d'.tokens[v']? = some t' →
    R t.freq t'.freq ∧ t.pos = t'.pos

/-- Also the same distances. -/
def SameDist (P : Bytes → Prop) (d d' : Dictionary F D) : Prop :=
  ∀ k v v' t t', P k → d.trie.value k = some v → d'.trie.value k = some v' → d.tokens[v]? = some t → d'.tokens[v']? = some t' → t.distance = t'.distance

/-- References to the same word. -/
inductive RefSim (P : Bytes → Prop) (d d' : Dictionary F D) : TokRef → TokRef → Prop
  | pseudo (w : Bytes) : RefSim P d d' (.pseudo w) (.pseudo w)
  | idx {k : Bytes} {v v' : Nat} (hk : P k) (h : d.trie.value k = some v) (h' : d'.trie.value k = some v') : RefSim P d d' (.idx v) (.idx v')

/-- Segments of the same word at the same place. -/
def SegSim (P : Bytes → Prop) (d d' : Dictionary F D) (s s' : Seg) : Prop := s.start = s'.start ∧ s.stop = s'.stop ∧ RefSim P d d' s.tok s'.tok

theorem agree_of_content {cfg : SplitCfg} {P : Bytes → Prop} {ops ops' : List (DictOp F)} (hl : ops.length ≤ Trie.valueLimit) (hl' : ops'.length ≤ Trie.valueLimit)
    {d d' : Dictionary F D} (hr : runOps cfg ops Dictionary.new = some d) (hr' : runOps cfg ops' Dictionary.new = some d')
    (hc : ∀ k, P k → (absRun cfg ops).content k = (absRun cfg ops').content k) : SameStore cfg P Eq d d' := by
  have h : Rep cfg d (absRun cfg ops) := rep_run ops (rep_new cfg) (by simpa [Dictionary.numTokens, Dictionary.new] using hl) hr
  have h' : Rep cfg d' (absRun cfg ops') := rep_run ops' (rep_new cfg) (by simpa [Dictionary.numTokens, Dictionary.new] using hl') hr'
  refine ⟨h.wf, h'.wf, fun k hk => by rw [h.value_none_iff, h'.value_none_iff, hc k hk], ?_⟩
  intro k v v' t t' hk e1 e2 e3 e4
  have a := h.content k
  have b := h'.content k
  rw [e1] at a
  rw [e2, ← hc k hk, ← a] at b
  simp [e3, e4] at b
  exact ⟨b.1.symm, b.2.symm⟩

theorem Dictionary.WF.text_split [UnicodeOK] {cfg : SplitCfg} {d : Dictionary F D} (hw : d.WF cfg) {k : Bytes} {v : Nat} {t : Token F D} (e1 : d.trie.value k = some v)
    (e3 : d.tokens[v]? = some t) : t.text = splitTextToWords cfg k := by
  obtain ⟨t', h1, h2⟩ := hw.entry k v e1
  rw [e3] at h1; cases h1
  obtain ⟨s, hs⟩ := hw.split t (List.mem_of_getElem? e3)
  have := split_infix cfg s [] t.text [] (by simpa using hs.symm)
  rw [h2] at this
  exact this.symm

theorem SameStore.text [UnicodeOK] {cfg : SplitCfg} {P : Bytes → Prop} {R : F → F → Prop} {d d' : Dictionary F D} (h : SameStore cfg P R d d') {k : Bytes} {v v' : Nat}
    {t t' : Token F D} (e1 : d.trie.value k = some v) (e2 : d'.trie.value k = some v') (e3 : d.tokens[v]? = some t) (e4 : d'.tokens[v']? = some t') : t.text = t'.text := by
  rw [h.wf.text_split e1 e3, h.wf'.text_split e2 e4]

/-- What `deref` finds through two references to the same word. -/
theorem deref_sim [UnicodeOK] {cfg : SplitCfg} {P : Bytes → Prop} {R : F → F → Prop} {d d' : Dictionary F D} (h : SameStore cfg P R d d') {r r' : TokRef} (hr : RefSim P d d' r r') :
    ∃ t t', d.deref r = some t ∧ d'.deref r' = some t' ∧ t.text = t'.text ∧ t.pos = t'.pos := by
  cases hr with
  | pseudo w => exact ⟨_, _, rfl, rfl, rfl, rfl⟩
  | idx hk h1 h2 =>
    obtain ⟨t, e1, _⟩ := h.wf.entry _ _ h1
    obtain ⟨t', e2, _⟩ := h.wf'.entry _ _ h2
    exact ⟨t, t', e1, e2, h.text h1 h2 e1 e2, (h.entry _ _ _ _ _ hk h1 h2 e1 e2).2⟩

/-! ### The search -/

/-- Entries of the table that correspond. -/
def JSim (P : Bytes → Prop) (d d' : Dictionary F D) (j j' : Jumper D) : Prop := j.minDistance = j'.minDistance ∧ Option.Rel (RefSim P d d') j.token j'.token

theorem edge_sim [UnicodeOK] {cfg : SplitCfg} {P : Bytes → Prop} {R : F → F → Prop} {d d' : Dictionary F D} (h : SameStore cfg P R d d') (hd : SameDist P d d') (ws : List Bytes) (hP : ∀ c k, P (slice ws c k).flatten) (sm : Bool) (c k : Nat) :
    Option.Rel (fun e e' => RefSim P d d' e.1 e'.1 ∧ e.2 = e'.2) (edge d ws sm c k) (edge d' ws sm c k) := by
  unfold edge
  split
  · cases e1 : d.trie.value (slice ws c k).flatten with
    | none =>
      rw [(h.none_iff _ (hP c k)).1 e1]
      dsimp only
      split
      · cases ws[c]? with
        | none => exact .none
        | some w => exact .some ⟨.pseudo w, rfl⟩
      · exact .none
    | some v =>
      cases e2 : d'.trie.value (slice ws c k).flatten with
      | none => rw [(h.none_iff _ (hP c k)).2 e2] at e1; cases e1
      | some v' =>
        dsimp only
        split
        · exact .none
        · obtain ⟨t, e3, _⟩ := h.wf.entry _ _ e1
          obtain ⟨t', e4, _⟩ := h.wf'.entry _ _ e2
          rw [e3, e4]
          exact .some ⟨RefSim.idx (hP c k) e1 e2, hd _ _ _ _ _ (hP c k) e1 e2 e3 e4⟩
  · exact .none

theorem updateJumper_sim {d d' : Dictionary F D} {j j' : Jumper D} (hj : JSim P d d' j j') (base dist : D) {r r' : TokRef} (hr : RefSim P d d' r r') :
    JSim P d d' (updateJumper j base r dist) (updateJumper j' base r' dist) := by
  unfold updateJumper
  rw [hj.1]
  dsimp only
  split
  · exact ⟨rfl, .some hr⟩
  · exact hj

theorem getElem?_rel {α β : Type} {R : α → β → Prop} {l : List α} {l' : List β} (h : List.Forall₂ R l l') (i : Nat) : Option.Rel R l[i]? l'[i]? := by
  induction h generalizing i with
  | nil => simp
  | cons a _ ih =>
    cases i with
    | zero => exact .some a
    | succ i => simpa using ih i

theorem forall₂_of_getElem? {α β : Type} {R : α → β → Prop} : ∀ {l : List α} {l' : List β}, (∀ i : Nat, Option.Rel R l[i]? l'[i]?) → List.Forall₂ R l l'
  | [], [], _ => .nil
  | [], b :: _, h => by have := h 0; simp at this
  | a :: _, [], h => by have := h 0; simp at this
  | a :: l, b :: l', h => by
    refine .cons ?_ (forall₂_of_getElem? fun i => by simpa using h (i + 1))
    simpa using h 0

theorem segStep_sim [UnicodeOK] {cfg : SplitCfg} {P : Bytes → Prop} {R : F → F → Prop} {d d' : Dictionary F D} (h : SameStore cfg P R d d') (hd : SameDist P d d') {ws : List Bytes} (hs : IsSplitText cfg ws) (hP : ∀ c k, P (slice ws c k).flatten)
    (sm : Bool) (c : Nat) (hc : c < ws.length) {js js' : List (Jumper D)} (hlen : js.length = ws.length) (hj : List.Forall₂ (JSim P d d') js js') :
    ∃ ks ks', segStep d ws sm c js = some ks ∧ segStep d' ws sm c js' = some ks' ∧ ks.length = ws.length ∧ List.Forall₂ (JSim P d d') ks ks' := by
  obtain ⟨ks, a1, a2, a3⟩ := segStep_spec h.wf.coh hs sm c hc js hlen
  obtain ⟨ks', b1, b2, b3⟩ := segStep_spec h.wf'.coh hs sm c hc js' (hj.length_eq ▸ hlen)
  refine ⟨ks, ks', a1, b1, a2, forall₂_of_getElem? fun l => ?_⟩
  rw [a3, b3]
  have hb : baseOf js c = baseOf js' c := by
    unfold baseOf
    split
    · rfl
    · have := getElem?_rel hj (c - 1)
      revert this
      cases js[c - 1]? <;> cases js'[c - 1]? <;> intro this <;> cases this
      · rfl
      · rename_i hh; exact hh.1
  unfold stepped
  rw [hb]
  have he := edge_sim h hd ws hP sm c (l + 1)
  have hjl := getElem?_rel hj l
  revert he
  cases edge d ws sm c (l + 1) <;> cases edge d' ws sm c (l + 1) <;> intro he <;> cases he
  · exact hjl
  · rename_i e e' hh
    obtain ⟨r, x⟩ := e
    obtain ⟨r', x'⟩ := e'
    dsimp only at hh ⊢
    rw [hh.2]
    revert hjl
    cases js[l]? <;> cases js'[l]? <;> intro hjl <;> cases hjl
    · exact .none
    · rename_i hh2
      exact .some (updateJumper_sim hh2 _ _ hh.1)

theorem segLoop_sim [UnicodeOK] {cfg : SplitCfg} {P : Bytes → Prop} {R : F → F → Prop} {d d' : Dictionary F D} (h : SameStore cfg P R d d') (hd : SameDist P d d') {ws : List Bytes} (hs : IsSplitText cfg ws) (hP : ∀ c k, P (slice ws c k).flatten)
    (sm : Bool) : ∀ (k c : Nat), c + k = ws.length → ∀ {js js' : List (Jumper D)}, js.length = ws.length → List.Forall₂ (JSim P d d') js js' →
    ∃ ks ks', segLoop d ws sm k c js = some ks ∧ segLoop d' ws sm k c js' = some ks' ∧ ks.length = ws.length ∧ List.Forall₂ (JSim P d d') ks ks'
  | 0, _, _, js, js', hl, hj => ⟨js, js', rfl, rfl, hl, hj⟩
  | k + 1, c, hc, js, js', hl, hj => by
    obtain ⟨ks, ks', a1, a2, a3, a4⟩ := segStep_sim h hd hs hP sm c (by omega) hl hj
    obtain ⟨ls, ls', b1, b2, b3, b4⟩ := segLoop_sim h hd hs hP sm k (c + 1) (by omega) a3 a4
    exact ⟨ls, ls', by simp [segLoop, a1, b1], by simp [segLoop, a2, b2], b3, b4⟩

theorem countSegs_sim [UnicodeOK] {cfg : SplitCfg} {P : Bytes → Prop} {R : F → F → Prop} {d d' : Dictionary F D} (h : SameStore cfg P R d d') {js js' : List (Jumper D)} (hj : List.Forall₂ (JSim P d d') js js') :
    ∀ (fuel n num : Nat), countSegs d js fuel n num = countSegs d' js' fuel n num
  | _, 0, _ => by simp [countSegs]
  | 0, _ + 1, _ => by simp [countSegs]
  | fuel + 1, n + 1, num => by
    have := getElem?_rel hj n
    unfold countSegs
    revert this
    cases js[n]? <;> cases js'[n]? <;> intro this <;> cases this
    · rfl
    · rename_i j j' hh
      obtain ⟨x, r⟩ := j
      obtain ⟨x', r'⟩ := j'
      obtain ⟨_, hr⟩ := hh
      dsimp only at hr
      cases hr with
      | none => rfl
      | some hr =>
        obtain ⟨t, t', e1, e2, e3, _⟩ := deref_sim h hr
        simp only [Option.bind_eq_bind, Option.bind_some, e1, e2, e3]
        exact countSegs_sim h hj fuel _ _

theorem rel_set {α β : Type} {R : α → β → Prop} {l : List α} {l' : List β} (h : List.Forall₂ R l l') {a : α} {b : β} (hab : R a b) (i : Nat) :
    List.Forall₂ R (l.set i a) (l'.set i b) := by
  induction h generalizing i with
  | nil => simp
  | cons h1 h2 ih =>
    cases i with
    | zero => exact .cons hab h2
    | succ i => exact .cons h1 (ih i)

theorem fillSegs_sim [UnicodeOK] {cfg : SplitCfg} {P : Bytes → Prop} {R : F → F → Prop} {d d' : Dictionary F D} (h : SameStore cfg P R d d') {js js' : List (Jumper D)} (hj : List.Forall₂ (JSim P d d') js js') :
    ∀ (fuel n num : Nat) {out out' : List TokRef}, List.Forall₂ (RefSim P d d') out out' →
      Option.Rel (List.Forall₂ (RefSim P d d')) (fillSegs d js fuel n num out) (fillSegs d' js' fuel n num out')
  | _, 0, _, out, out', ho => by simpa [fillSegs] using ho
  | 0, _ + 1, _, _, _, _ => by simp [fillSegs]
  | fuel + 1, n + 1, num, out, out', ho => by
    have := getElem?_rel hj n
    unfold fillSegs
    revert this
    cases js[n]? <;> cases js'[n]? <;> intro this <;> cases this
    · exact .none
    · rename_i j j' hh
      obtain ⟨x, r⟩ := j
      obtain ⟨x', r'⟩ := j'
      obtain ⟨_, hr⟩ := hh
      dsimp only at hr
      cases hr with
      | none => exact .none
      | some hr =>
        obtain ⟨t, t', e1, e2, e3, _⟩ := deref_sim h hr
        simp only [Option.bind_eq_bind, Option.bind_some, e1, e2, e3, ho.length_eq]
        split
        · exact .none
        · exact fillSegs_sim h hj fuel _ _ (rel_set ho hr _)

theorem positions_sim [UnicodeOK] {cfg : SplitCfg} {P : Bytes → Prop} {R : F → F → Prop} {d d' : Dictionary F D} (h : SameStore cfg P R d d') {rs rs' : List TokRef} (hr : List.Forall₂ (RefSim P d d') rs rs') :
    ∀ p, Option.Rel (List.Forall₂ (SegSim P d d')) (positions d rs p) (positions d' rs' p) := by
  induction hr with
  | nil => intro p; exact .some .nil
  | cons hr _ ih =>
    intro p
    obtain ⟨t, t', e1, e2, e3, _⟩ := deref_sim h hr
    unfold positions
    simp only [Option.bind_eq_bind, e1, e2, Option.bind_some, e3]
    have := ih (p + textSliceByteLen t'.text)
    revert this
    generalize positions d _ _ = a
    generalize positions d' _ _ = b
    intro this
    cases this with
    | none => exact .none
    | some hab => exact .some (.cons ⟨rfl, rfl, hr⟩ hab)

theorem segmentWords_sim [UnicodeOK] {cfg : SplitCfg} {P : Bytes → Prop} {R : F → F → Prop} {d d' : Dictionary F D} (h : SameStore cfg P R d d') (hd : SameDist P d d') {ws : List Bytes} (hs : IsSplitText cfg ws) (hP : ∀ c k, P (slice ws c k).flatten)
    (sm : Bool) : Option.Rel (List.Forall₂ (SegSim P d d')) (segmentWords (some d) ws sm) (segmentWords (some d') ws sm) := by
  unfold segmentWords
  split
  · exact .some .nil
  · dsimp only
    have hj : List.Forall₂ (JSim P d d') (List.replicate ws.length ⟨F32.zero, none⟩) (List.replicate ws.length ⟨F32.zero, none⟩) :=
      List.forall₂_same.2 fun j hj => by rw [List.eq_of_mem_replicate hj]; exact ⟨rfl, .none⟩
    obtain ⟨ks, ks', a1, a2, _, a4⟩ := segLoop_sim h hd hs hP sm ws.length 0 (by omega) (by simp) hj
    simp only [Option.bind_eq_bind, a1, a2, Option.bind_some, countSegs_sim h a4]
    cases countSegs d' ks' (ws.length + 1) ws.length 0 with
    | none => exact .none
    | some num =>
      simp only [Option.bind_some]
      have := fillSegs_sim h a4 (ws.length + 1) ws.length num (out := List.replicate num (.pseudo [])) (out' := List.replicate num (.pseudo []))
        (List.forall₂_same.2 fun r hr => by rw [List.eq_of_mem_replicate hr]; exact .pseudo _)
      revert this
      generalize fillSegs d _ _ _ _ _ = a
      generalize fillSegs d' _ _ _ _ _ = b
      intro this
      cases this with
      | none => exact .none
      | some hab => exact positions_sim h hab 0

theorem internalSegment_sim [UnicodeOK] {cfg : SplitCfg} {P : Bytes → Prop} {R : F → F → Prop} {d d' : Dictionary F D} (h : SameStore cfg P R d d') (hd : SameDist P d d') (s : Bytes) (hP : ∀ c k, P (slice (splitTextToWords cfg s) c k).flatten) (sm : Bool) :
    Option.Rel (List.Forall₂ (SegSim P d d')) (internalSegment cfg (some d) s sm) (internalSegment cfg (some d') s sm) := by
  unfold internalSegment
  split
  · exact .some .nil
  · exact segmentWords_sim h hd ⟨s, rfl⟩ hP sm

/-! ### Recalculating -/

theorem RefSim.mono {d d' e e' : Dictionary F D} (h1 : e.trie = d.trie) (h2 : e'.trie = d'.trie) {r r' : TokRef} (h : RefSim P d d' r r') : RefSim P e e' r r' := by
  cases h with
  | pseudo w => exact .pseudo w
  | idx hk a b => exact .idx hk (h1 ▸ a) (h2 ▸ b)

theorem SegSim.mono {d d' e e' : Dictionary F D} (h1 : e.trie = d.trie) (h2 : e'.trie = d'.trie) {r r' : Seg} (h : SegSim P d d' r r') : SegSim P e e' r r' :=
  ⟨h.1, h.2.1, h.2.2.mono h1 h2⟩

theorem SameStore.withDistances {cfg : SplitCfg} {P : Bytes → Prop} {R : F → F → Prop} {d d' : Dictionary F D} (h : SameStore cfg P R d d') :
    SameStore cfg P R (withDistances d) (withDistances d') := by
  refine ⟨(withDistances_same d).wf h.wf, (withDistances_same d').wf h.wf', h.none_iff, ?_⟩
  intro k v v' t t' hk e1 e2 e3 e4
  simp only [Gse.withDistances, List.getElem?_map, Option.map_eq_some_iff] at e3 e4
  obtain ⟨a, a1, rfl⟩ := e3
  obtain ⟨b, b1, rfl⟩ := e4
  exact h.entry k v v' a b hk e1 e2 a1 b1

/-- The distances agree when the formula gives the same for related frequencies. -/
theorem sameDist_withDistances {cfg : SplitCfg} {P : Bytes → Prop} {R : F → F → Prop} {d d' : Dictionary F D} (h : SameStore cfg P R d d')
    (hR : ∀ k t t', P k → storedTok d k = some t → storedTok d' k = some t' → R t.freq t'.freq →
      F32.sub (Narrow.narrow (F64.log2 d.totalFreq)) (Narrow.narrow (F64.log2 t.freq)) =
      (F32.sub (Narrow.narrow (F64.log2 d'.totalFreq)) (Narrow.narrow (F64.log2 t'.freq)) : D)) : SameDist P (Gse.withDistances d) (Gse.withDistances d') := by
  intro k v v' t t' hk e1 e2 e3 e4
  simp only [Gse.withDistances, List.getElem?_map, Option.map_eq_some_iff] at e3 e4
  obtain ⟨a, a1, rfl⟩ := e3
  obtain ⟨b, b1, rfl⟩ := e4
  have s1 : storedTok d k = some a := by unfold storedTok; rw [show d.trie.value k = some v from e1]; exact a1
  have s2 : storedTok d' k = some b := by unfold storedTok; rw [show d'.trie.value k = some v' from e2]; exact b1
  exact hR k a b hk s1 s2 (h.entry k v v' a b hk e1 e2 a1 b1).1

theorem filterOpt_sim [UnicodeOK] {cfg : SplitCfg} {P : Bytes → Prop} {R : F → F → Prop} {d d' : Dictionary F D} (h : SameStore cfg P R d d') {l l' : List Seg} (hl : List.Forall₂ (SegSim P d d') l l') :
    Option.Rel (List.Forall₂ (SegSim P d d')) (filterOpt (keepSub d) l) (filterOpt (keepSub d') l') := by
  induction hl with
  | nil => exact .some .nil
  | @cons g g' _ _ hs _ ih =>
    unfold filterOpt
    have hk := hs.2.2
    obtain ⟨t, t', e1, e2, e3, _⟩ := deref_sim h hk
    have : keepSub d g = keepSub d' g' := by
      unfold keepSub
      rw [e1, e2]
      simp only [Option.bind_eq_bind, Option.bind_some, e3]
    rw [this]
    cases keepSub d' g' with
    | none => exact .none
    | some b =>
      simp only [Option.bind_eq_bind, Option.bind_some]
      revert ih
      generalize filterOpt (keepSub d) _ = x
      generalize filterOpt (keepSub d') _ = y
      intro ih
      cases ih with
      | none => exact .none
      | some hab =>
        cases b with
        | false => exact .some hab
        | true => exact .some (.cons hs hab)

/-- Sub-segments that correspond. -/
def SubsSim (P : Bytes → Prop) (d d' : Dictionary F D) : Prop :=
  ∀ k v v' t t', P k → d.trie.value k = some v → d'.trie.value k = some v' → d.tokens[v]? = some t → d'.tokens[v']? = some t' →
    List.Forall₂ (SegSim P d d') t.segments t'.segments

theorem calcToken_sim [UnicodeOK] {cfg : SplitCfg} {P : Bytes → Prop} {R : F → F → Prop} {d d' e e' : Dictionary F D} (h : SameStore cfg P R d d') (hwd : SameDist P (withDistances d) (withDistances d'))
    (hcl : ∀ k, P k → ∀ c e, P (slice (splitTextToWords cfg k) c e).flatten) (he : calcToken d = some e) (he' : calcToken d' = some e') : SameStore cfg P R e e' ∧ SameDist P e e' ∧ SubsSim P e e' := by
  obtain ⟨_, c1, c2, c3, c4, c5⟩ := calcToken_subs he
  obtain ⟨_, c1', c2', c3', c4', c5'⟩ := calcToken_subs he'
  have hw := h.withDistances
  have wt : (withDistances d).trie = d.trie := rfl
  have wt' : (withDistances d').trie = d'.trie := rfl
  refine ⟨⟨(calcToken_same he).wf h.wf, (calcToken_same he').wf h.wf', ?_, ?_⟩, ?_, ?_⟩
  · intro k hk; rw [c1, c1']; exact h.none_iff k hk
  · intro k v v' t t' hk e1 e2 e3 e4
    obtain ⟨a, a1, _, a3, a4, _⟩ := c5 v t e3
    obtain ⟨b, b1, _, b3, b4, _⟩ := c5' v' t' e4
    rw [c1] at e1; rw [c1'] at e2
    have := hw.entry k v v' a b hk e1 e2 a1 b1
    rw [a3, a4, b3, b4]
    exact this
  · intro k v v' t t' hk e1 e2 e3 e4
    obtain ⟨a, a1, _, _, _, a5, _⟩ := c5 v t e3
    obtain ⟨b, b1, _, _, _, b5, _⟩ := c5' v' t' e4
    rw [c1] at e1; rw [c1'] at e2
    rw [a5, b5]
    exact hwd k v v' a b hk e1 e2 a1 b1
  · intro k v v' t t' hk e1 e2 e3 e4
    obtain ⟨a, a1, _, _, _, _, a6⟩ := c5 v t e3
    obtain ⟨b, b1, _, _, _, _, b6⟩ := c5' v' t' e4
    rw [c1] at e1; rw [c1'] at e2
    have htx := hw.text (k := k) e1 e2 a1 b1
    have hsp := hw.wf.text_split e1 a1
    have hseg := segmentWords_sim hw hwd (ws := a.text) ⟨k, hsp.symm⟩ (by rw [hsp]; exact hcl k hk) true
    have : Option.Rel (List.Forall₂ (SegSim P (withDistances d) (withDistances d'))) (subsOf (withDistances d) a) (subsOf (withDistances d') b) := by
      unfold subsOf
      rw [← htx]
      revert hseg
      generalize segmentWords (some (withDistances d)) _ _ = x
      generalize segmentWords (some (withDistances d')) _ _ = y
      intro hseg
      cases hseg with
      | none => exact .none
      | some hab => exact filterOpt_sim hw hab
    rw [a6, b6] at this
    cases this with
    | some h => exact h.imp fun _ _ hh => hh.mono (c1.trans wt.symm) (c1'.trans wt'.symm)

/-! ### Output -/

theorem nonTerminal_sim [UnicodeOK] {cfg : SplitCfg} {P : Bytes → Prop} {R : F → F → Prop} {d d' : Dictionary F D} (h : SameStore cfg P R d d') (hb : SubsSim P d d') {s s' : Seg} (hs : SegSim P d d' s s') :
    nonTerminal d s = nonTerminal d' s' := by
  unfold nonTerminal
  obtain ⟨_, _, hr⟩ := hs
  revert hr
  generalize s.tok = r
  generalize s'.tok = r'
  intro hr
  cases hr with
  | pseudo w => rfl
  | idx hk h1 h2 =>
    obtain ⟨t, e1, _⟩ := h.wf.entry _ _ h1
    obtain ⟨t', e2, _⟩ := h.wf'.entry _ _ h2
    simp only [Dictionary.deref, e1, e2, (hb _ _ _ _ _ hk h1 h2 e1 e2).length_eq, h.text h1 h2 e1 e2]

theorem subLoop_sim [UnicodeOK] {α : Type} {cfg : SplitCfg} {P : Bytes → Prop} {R : F → F → Prop} {d d' : Dictionary F D} (h : SameStore cfg P R d d') (hb : SubsSim P d d') {f f' : TokRef → Option (List α)}
    (hf : ∀ r r', RefSim P d d' r r' → f r = f' r') {l l' : List Seg} (hl : List.Forall₂ (SegSim P d d') l l') : ∀ only, subLoop d f l only = subLoop d' f' l' only := by
  induction hl with
  | nil => intro _; rfl
  | @cons g g' _ _ hs _ ih =>
    intro only
    unfold subLoop
    rw [nonTerminal_sim h hb hs, hf _ _ hs.2.2]
    cases nonTerminal d' g' with
    | none => rfl
    | some nt => simp only [ih]

/-- The tokens behind two references to the same word. -/
theorem deref_subs [UnicodeOK] {cfg : SplitCfg} {P : Bytes → Prop} {R : F → F → Prop} {d d' : Dictionary F D} (h : SameStore cfg P R d d') (hb : SubsSim P d d') {r r' : TokRef} (hr : RefSim P d d' r r') :
    ∃ t t', d.deref r = some t ∧ d'.deref r' = some t' ∧ t.text = t'.text ∧ t.pos = t'.pos ∧ List.Forall₂ (SegSim P d d') t.segments t'.segments := by
  cases hr with
  | pseudo w => exact ⟨_, _, rfl, rfl, rfl, rfl, .nil⟩
  | idx hk h1 h2 =>
    obtain ⟨t, e1, _⟩ := h.wf.entry _ _ h1
    obtain ⟨t', e2, _⟩ := h.wf'.entry _ _ h2
    exact ⟨t, t', e1, e2, h.text h1 h2 e1 e2, (h.entry _ _ _ _ _ hk h1 h2 e1 e2).2, hb _ _ _ _ _ hk h1 h2 e1 e2⟩

theorem tokenToSlice_sim [UnicodeOK] {cfg : SplitCfg} {P : Bytes → Prop} {R : F → F → Prop} {d d' : Dictionary F D} (h : SameStore cfg P R d d') (hb : SubsSim P d d') :
    ∀ n r r', RefSim P d d' r r' → tokenToSlice d n r = tokenToSlice d' n r'
  | 0, _, _, _ => rfl
  | n + 1, r, r', hr => by
    obtain ⟨t, t', e1, e2, e3, e5, e6⟩ := deref_subs h hb hr
    unfold tokenToSlice
    rw [e1, e2]
    dsimp only
    rw [subLoop_sim h hb (tokenToSlice_sim h hb n) e6, e3]

theorem tokenToPos_sim [UnicodeOK] {cfg : SplitCfg} {P : Bytes → Prop} {R : F → F → Prop} {d d' : Dictionary F D} (h : SameStore cfg P R d d') (hb : SubsSim P d d') :
    ∀ n r r', RefSim P d d' r r' → tokenToPos d n r = tokenToPos d' n r'
  | 0, _, _, _ => rfl
  | n + 1, r, r', hr => by
    obtain ⟨t, t', e1, e2, e3, e5, e6⟩ := deref_subs h hb hr
    unfold tokenToPos
    rw [e1, e2]
    dsimp only
    rw [subLoop_sim h hb (tokenToPos_sim h hb n) e6, e3, e5]

theorem tokenToString_sim [UnicodeOK] {cfg : SplitCfg} {P : Bytes → Prop} {R : F → F → Prop} {d d' : Dictionary F D} (h : SameStore cfg P R d d') (hb : SubsSim P d d') :
    ∀ n r r', RefSim P d d' r r' → tokenToString d n r = tokenToString d' n r'
  | 0, _, _, _ => rfl
  | n + 1, r, r', hr => by
    obtain ⟨t, t', e1, e2, e3, e5, e6⟩ := deref_subs h hb hr
    unfold tokenToString
    rw [e1, e2]
    dsimp only
    rw [subLoop_sim h hb (tokenToString_sim h hb n) e6, e3, e5]

theorem concatOpt_sim {β : Type} {d d' : Dictionary F D} {f f' : Seg → Option (List β)} (hf : ∀ s s', SegSim P d d' s s' → f s = f' s') {l l' : List Seg}
    (hl : List.Forall₂ (SegSim P d d') l l') : concatOpt f l = concatOpt f' l' := by
  induction hl with
  | nil => rfl
  | cons hs _ ih => unfold concatOpt; rw [hf _ _ hs, ih]

theorem toSlice_sim [UnicodeOK] {cfg : SplitCfg} {P : Bytes → Prop} {R : F → F → Prop} {d d' : Dictionary F D} (h : SameStore cfg P R d d') (hb : SubsSim P d d') (fuel : Nat) {l l' : List Seg}
    (hl : List.Forall₂ (SegSim P d d') l l') (mode : Bool) : toSlice d fuel l mode = toSlice d' fuel l' mode := by
  unfold toSlice
  split
  · exact concatOpt_sim (fun s s' hs => tokenToSlice_sim h hb fuel _ _ hs.2.2) hl
  · refine concatOpt_sim (fun s s' hs => ?_) hl
    obtain ⟨t, t', e1, e2, e3, _⟩ := deref_sim h hs.2.2
    rw [e1, e2]
    simp only [Option.bind_some, e3]

theorem toPos_sim [UnicodeOK] {cfg : SplitCfg} {P : Bytes → Prop} {R : F → F → Prop} {d d' : Dictionary F D} (h : SameStore cfg P R d d') (hb : SubsSim P d d') (fuel : Nat) {l l' : List Seg}
    (hl : List.Forall₂ (SegSim P d d') l l') (mode : Bool) : toPos d fuel l mode = toPos d' fuel l' mode := by
  unfold toPos
  split
  · exact concatOpt_sim (fun s s' hs => tokenToPos_sim h hb fuel _ _ hs.2.2) hl
  · refine concatOpt_sim (fun s s' hs => ?_) hl
    obtain ⟨t, t', e1, e2, e3, e5⟩ := deref_sim h hs.2.2
    rw [e1, e2]
    simp only [Option.bind_some, e3, e5]

theorem toString_sim [UnicodeOK] {cfg : SplitCfg} {P : Bytes → Prop} {R : F → F → Prop} {d d' : Dictionary F D} (h : SameStore cfg P R d d') (hb : SubsSim P d d') (fuel : Nat) {l l' : List Seg}
    (hl : List.Forall₂ (SegSim P d d') l l') (mode : Bool) : toString' d fuel l mode = toString' d' fuel l' mode := by
  unfold toString'
  split
  · exact concatOpt_sim (fun s s' hs => tokenToString_sim h hb fuel _ _ hs.2.2) hl
  · refine concatOpt_sim (fun s s' hs => ?_) hl
    obtain ⟨t, t', e1, e2, e3, e5⟩ := deref_sim h hs.2.2
    rw [e1, e2]
    simp only [Option.bind_some, e3, e5]

/-! ### What works through `Find` -/

theorem SameStore.find_rel {cfg : SplitCfg} {R : F → F → Prop} (h0 : R (F64.ofNat 0) (F64.ofNat 0)) {d d' : Dictionary F D} (h : SameStore cfg (fun _ => True) R d d')
    (w : Bytes) : Option.Rel (fun e e' => R e.1 e'.1 ∧ e.2 = e'.2) (d.find w) (d'.find w) := by
  have hn : ∀ p, d.trie.isNode p = d'.trie.isNode p := by
    intro p
    rw [Bool.eq_iff_iff, Trie.isNode_iff, Trie.isNode_iff]
    refine or_congr Iff.rfl ⟨?_, ?_⟩
    · rintro ⟨k, v, hv, hp⟩
      obtain ⟨v', hv'⟩ := Option.ne_none_iff_exists'.1 fun e => by rw [(h.none_iff k trivial).2 e] at hv; cases hv
      exact ⟨k, v', hv', hp⟩
    · rintro ⟨k, v, hv, hp⟩
      obtain ⟨v', hv'⟩ := Option.ne_none_iff_exists'.1 fun e => by rw [(h.none_iff k trivial).1 e] at hv; cases hv
      exact ⟨k, v', hv', hp⟩
  unfold Dictionary.find
  have hj : d.trie.jump w [] = d'.trie.jump w [] := by unfold Trie.jump; rw [hn]
  rw [hj]
  cases hj' : d'.trie.jump w [] with
  | none => exact .some ⟨h0, rfl⟩
  | some id =>
    dsimp only
    cases e1 : d.trie.value id with
    | none =>
      rw [(h.none_iff id trivial).1 e1]
      dsimp only
      split <;> exact .some ⟨h0, rfl⟩
    | some v =>
      cases e2 : d'.trie.value id with
      | none => rw [(h.none_iff id trivial).2 e2] at e1; cases e1
      | some v' =>
        obtain ⟨t, a1, _⟩ := h.wf.entry _ _ e1
        obtain ⟨t', b1, _⟩ := h.wf'.entry _ _ e2
        obtain ⟨c1, c2⟩ := h.entry _ _ _ _ _ trivial e1 e2 a1 b1
        simp only [a1, b1]
        exact .some ⟨c1, by rw [c2]⟩

theorem SameStore.find {cfg : SplitCfg} {d d' : Dictionary F D} (h : SameStore cfg (fun _ => True) Eq d d') : d.find = d'.find := by
  funext w
  have := h.find_rel rfl w
  revert this
  generalize d.find w = a
  generalize d'.find w = b
  intro this
  cases this with
  | none => rfl
  | some hab => exact congrArg some (Prod.ext hab.1 hab.2)

variable {d d' : Dictionary F D}

theorem dagEnds_find (hf : d.find = d'.find) (rs : List Rune) (k : Nat) : ∀ n i, dagEnds d rs k n i = dagEnds d' rs k n i
  | 0, _ => rfl
  | n + 1, i => by
    unfold dagEnds
    simp only [findRunes, hf, dagEnds_find hf rs k n]

theorem getDag_find (hf : d.find = d'.find) (rs : List Rune) : getDag d rs = getDag d' rs := by
  unfold getDag
  congr 1
  funext k
  unfold dagAt
  rw [dagEnds_find hf]

theorem routeAt_find (hf : d.find = d'.find) (rs : List Rune) (logT : F) (idx : Nat) (routes : List (Nat × Route F)) :
    ∀ is v, routeAt d rs logT idx routes is v = routeAt d' rs logT idx routes is v
  | [], _ => rfl
  | i :: is, v => by
    unfold routeAt
    simp only [routeCand, findRunes, hf, routeAt_find hf rs logT idx routes is]

theorem calcLoop_find (hf : d.find = d'.find) (rs : List Rune) (logT : F) (dag : List (List Nat)) :
    ∀ k routes, calcLoop d rs logT dag k routes = calcLoop d' rs logT dag k routes
  | 0, _ => rfl
  | k + 1, routes => by
    unfold calcLoop
    simp only [routeAt_find hf, calcLoop_find hf rs logT dag k]

theorem calcRoutes_find (hf : d.find = d'.find) (ht : d.totalFreq = d'.totalFreq) (rs : List Rune) : calcRoutes d rs = calcRoutes d' rs := by
  unfold calcRoutes
  simp only [getDag_find hf, ht, calcLoop_find hf]

theorem cutDAGNoHMM_find (hf : d.find = d'.find) (ht : d.totalFreq = d'.totalFreq) (cfg : SplitCfg) (s : Bytes) : cutDAGNoHMM cfg d s = cutDAGNoHMM cfg d' s := by
  unfold cutDAGNoHMM
  simp only [calcRoutes_find hf ht]

theorem hmmLoop_find (hf : d.find = d'.find) (cut : Bytes → Option (List Bytes)) : ∀ ps buf, hmmLoop d cut ps buf = hmmLoop d' cut ps buf
  | [], buf => by simp only [hmmLoop, flushBuf, hmmBuf, findRunes, hf]
  | f :: ps, buf => by
    unfold hmmLoop
    simp only [flushBuf, hmmBuf, findRunes, hf, hmmLoop_find hf cut ps]

theorem cutDAG_find (hf : d.find = d'.find) (ht : d.totalFreq = d'.totalFreq) (cfg : SplitCfg) (cut : Bytes → Option (List Bytes)) (s : Bytes) :
    cutDAG cfg d cut s = cutDAG cfg d' cut s := by
  unfold cutDAG
  simp only [calcRoutes_find hf ht, hmmLoop_find hf]

theorem cutAll_find (hf : d.find = d'.find) (cfg : SplitCfg) (s : Bytes) : cutAll cfg d s = cutAll cfg d' s := by
  unfold cutAll
  simp only [getDag_find hf]

theorem gramsFrom_find (hf : d.find = d'.find) (rs : List Rune) (incr : Nat) : ∀ is, gramsFrom d rs incr is = gramsFrom d' rs incr is
  | [] => rfl
  | i :: is => by
    unfold gramsFrom
    simp only [findRunes, hf, gramsFrom_find hf rs incr is]

theorem searchWord_find (hf : d.find = d'.find) (w : Bytes) : searchWord d w = searchWord d' w := by
  unfold searchWord grams
  simp only [gramsFrom_find hf]

theorem suggestProd_find (hf : d.find = d'.find) (total : F) : ∀ ws freq, suggestProd d total ws freq = suggestProd d' total ws freq
  | [], _ => rfl
  | w :: ws, freq => by
    unfold suggestProd
    simp only [hf, suggestProd_find hf total ws]

theorem suggestFreq_find (hf : d.find = d'.find) (ht : d.totalFreq = d'.totalFreq) (cfg : SplitCfg) (ws : List Bytes) :
    suggestFreq cfg d ws = suggestFreq cfg d' ws := by
  unfold suggestFreq
  simp only [suggestProd_find hf, cutDAGNoHMM_find hf ht, hf, ht]

theorem analyzeLoop_find (hf : d.find = d'.find) (t1 : Bytes) (by' : Bool) (all : List (Bytes × List Nat)) :
    ∀ (ws : List Bytes) (k : Nat) (seen : List Bytes) (start stop : Nat), analyzeLoop d t1 by' all k ws seen start stop = analyzeLoop d' t1 by' all k ws seen start stop
  | [], _, _, _, _ => by simp [analyzeLoop]
  | w :: ws, k, seen, start, stop => by
    unfold analyzeLoop
    simp only [hf, analyzeLoop_find hf t1 by' all ws]

theorem analyze_find (hf : d.find = d'.find) (cfg : SplitCfg) (text : List Bytes) (t1 : Bytes) (by' : Bool) :
    analyze cfg d text t1 by' = analyze cfg d' text t1 by' := by
  unfold analyze
  simp only [analyzeLoop_find hf]

end
end Gse
