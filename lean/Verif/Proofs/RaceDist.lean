import Verif.Proofs.RaceCalc

/-!
# `AddTokenForce` of a known word beside goroutines that segment

Only distances and sub-segments are written.
-/

namespace Gse

set_option linter.unusedSectionVars false

variable {F D α β : Type}

/-- The distances and sub-segments. -/
def calcPart (m : Mem F D) : Mem F D := fun l => if l.calc then m l else none

/-- All the rest. -/
def stillPart (m : Mem F D) : Mem F D := fun l => if l.calc then none else m l

theorem view_still (m : Mem F D) : view (stillPart m) (calcPart m) = m := by
  funext l; simp only [view, stillPart, calcPart]; cases h : l.calc <;> simp

/-- Distances and sub-segments change; the rest of memory stays. -/
def recalc (m : Mem F D) : Rely F D where
  loc l := (m l).isSome
  val l c := l.calc = false → m l = some c

theorem recalc_stable (m : Mem F D) : ∀ l x, stillPart m l = some x → (recalc m).loc l ∧ ∀ y, (recalc m).val l y → y = x := by
  intro l x hx
  unfold stillPart at hx
  split at hx
  · cases hx
  · next h =>
    refine ⟨by simp [recalc, hx], fun y hy => ?_⟩
    have := hy (by simpa using h)
    rw [hx] at this; exact (Option.some.inj this).symm

theorem recalc_allowed {m o : Mem F D} (ha : Apart (stillPart m) o) : Allowed (recalc m) o := by
  intro l hl hloc c hc
  obtain ⟨x, hx⟩ := Option.isSome_iff_exists.mp hloc
  have : stillPart m l = some x := by simp [stillPart, hc, hx]
  rw [ha l x this] at hl; cases hl

/-- Reading what stays. -/
theorem obeys_still {R : Rely F D} {e : Access} {done : Bool} {sh o : Mem F D} (hR : ∀ l x, sh l = some x → R.loc l ∧ ∀ y, R.val l y → y = x) (ha : Apart sh o)
    {l : Loc} {x : Cell F D} (hl : sh l = some x) {k : Cell F D → Prog F D α} (h : Obeys R e done (k x) o) : Obeys R e done (.read l k) o :=
  .inr (.inr ⟨ha l x hl, (hR l x hl).1, fun y hy => by rw [(hR l x hl).2 y hy]; exact Obeys_or h⟩)

variable [F64 F] [F32 D] [Narrow F D] {cfg : SplitCfg} {d : Dictionary F D}

theorem obeys_distLoop {m : Mem F D} (hT : HoldsTable (stillPart m) cfg (some d)) (lt : D) {v : Nat} (hv : v < d.tokens.length) :
    ∀ (k i : Nat) (o : Mem F D) (done : Bool), i + k = d.tokens.length → Apart (stillPart m) o → (∀ j, j < d.tokens.length → (o (.dist j)).isSome) →
      (done = true ∨ i ≤ v) → Obeys (recalc m) (.wr (.dist v)) done (distLoopP lt k i) o := by
  intro k
  induction k with
  | zero =>
    intro i o done hi _ _ hd
    rcases hd with hd | hd
    · exact hd
    · omega
  | succ k ih =>
    intro i o done hi ha hown hd
    have hlt : i < d.tokens.length := by omega
    unfold distLoopP
    refine obeys_still (recalc_stable m) ha (hT.tokHdr d rfl) ?_
    simp only [Prog.bind]
    rw [if_pos hlt]
    refine obeys_still (recalc_stable m) ha (hT.tok d rfl i _ (List.getElem?_eq_getElem hlt)) ?_
    refine obeys_put (hown i hlt) (fun h => recalc_allowed ha _ (hown i hlt) h _) ?_
    refine ih (i + 1) _ _ (by omega) (ha.put _ (hown i hlt)) ?_ ?_
    · intro j hj
      by_cases e : j = i
      · subst e; rw [put_same]; rfl
      · rw [put_other _ _ (by intro h; cases h; exact e rfl)]; exact hown j hj
    · rcases hd with hd | hd
      · exact .inl (by simp [hd])
      · by_cases e : v = i
        · subst e; exact .inl (by simp)
        · exact .inr (by omega)

/-- `AddTokenForce` of a word that the dictionary has, or cannot take, writes every distance. -/
theorem obeys_addTokenForce_known [Unicode] {m : Mem F D} {d' : Dictionary F D} (hT : HoldsTable m cfg (some d))
    (hf : m .totalFreq = some (.freq d.totalFreq)) (hown : ∀ i, i < d.tokens.length → (m (.dist i)).isSome ∧ (m (.subs i)).isSome)
    {input : Slice} {s : Bytes} (ht : HoldsBytes m input s) (freq : F) (pos : Bytes)
    (hk : (segAddToken cfg d s freq pos).1.numTokens = d.numTokens) (hc : calcToken d = some d') {v : Nat} (hv : v < d.tokens.length) :
    Obeys (recalc m) (.wr (.dist v)) false (addTokenForceP input freq pos) (calcPart m) := by
  have ha0 : Apart (stillPart m) (calcPart m) := by
    intro l x h
    unfold stillPart at h; unfold calcPart
    split at h
    · cases h
    · next hl => rw [if_neg hl]
  have hT' := hT; have ht' := ht
  rw [← view_still m] at hT' ht'
  have hTs : HoldsTable (stillPart m) cfg (some d) :=
    ⟨hT.flags, hT.segDict, hT.maxLen, hT.trie, hT.tokHdr, hT.tok⟩
  have hw := wp_apart _ _ ha0 (wp_addToken_known hT' ht' freq pos hk)
  rw [← view_none (stillPart m)] at hw
  have := obeys_owned (t := noMem) (recalc_stable m) (e := .wr (.dist v)) (done := false) (f := fun err => calcTokenP.bind fun _ => .ret err) ?_ _ _ hw (recalc_allowed ha0)
  · rw [view_noMem] at this; exact this
  · rintro err o ⟨⟨_, h2, h3⟩, h4⟩ hal
    rw [view_noMem]
    rw [view_none] at h3 h4
    rw [view_still] at h3
    have hown1 : ∀ j, j < d.tokens.length → (o (.dist j)).isSome ∧ (o (.subs j)).isSome := by
      intro j hj
      obtain ⟨x, hx⟩ := Option.isSome_iff_exists.mp (hown j hj).1
      obtain ⟨y, hy⟩ := Option.isSome_iff_exists.mp (hown j hj).2
      rw [h2 (.dist j) x (by simp [calcPart, Loc.calc, hx]), h2 (.subs j) y (by simp [calcPart, Loc.calc, hy])]
      exact ⟨rfl, rfl⟩
    have hT1 := hT.grow h3
    have hf1 := h3 _ _ hf
    obtain ⟨hall, _⟩ := calcToken_subs hc
    unfold calcTokenP
    show Obeys _ _ _ (Prog.bind (Prog.bind distancesP _) _) _
    rw [bind_assoc_prog]
    refine obeys_seq (recalc_stable m) ?_ (l0 := .dist v) (hown v hv).1 _ _ _
      (wp_apart _ _ h4 (wp_owned _ _ (wp_distances hT1 hf1 fun j hj => (hown1 j hj).1))) ?_ (hown1 v hv).1
    · rintro _ o2 ⟨⟨⟨g1, g2, g3⟩, g4⟩, g5⟩
      have hl : (withDistances d).tokens.length = d.tokens.length := by simp [withDistances]
      have hw2 : wp (view (stillPart m) noMem) ((Prog.rdNat .tokHdr).bind fun n => subsLoopP n 0) o2 (fun _ _ => True) := by
        rw [view_none]
        refine wp_bind (wp_read (g3.tokHdr _ rfl) (wp_ret ?_))
        exact wp_mono (fun _ _ _ => trivial) _ _ (wp_subsLoop _ 0 o2 (by omega) g3 (fun j hj => g4 _ (hown1 j (by omega)).2) hall (fun j t hj => by omega))
      have := obeys_owned (t := noMem) (recalc_stable m) (e := .wr (.dist v)) (done := true) (f := fun _ => .ret err) (fun _ _ _ _ => (rfl : true = true)) _ _ hw2 (recalc_allowed g5)
      rw [view_noMem] at this; exact this
    · unfold distancesP
      refine obeys_still (recalc_stable m) h4 hTs.segDict ?_
      simp only [Option.isNone_some, Prog.bind, Bool.false_eq_true, if_false]
      refine obeys_still (recalc_stable m) h4 (show stillPart m .totalFreq = _ from hf) ?_
      refine obeys_still (recalc_stable m) h4 (hTs.tokHdr d rfl) ?_
      exact obeys_distLoop hTs _ hv _ _ _ _ (by omega) h4 (fun j hj => (hown1 j hj).1) (.inr (by omega))

/-! ## `Segment` when distances change -/

section
variable {sh : Mem F D} {a b j : Nat} {text : List Bytes}

/-- The words that may begin at position `c`. -/
def lookAt (d : Dictionary F D) (text : List Bytes) (c : Nat) : Option (List Nat) :=
  d.lookupTokens (slice text c (min (c + d.maxTokenLen) text.length)) d.maxTokenLen

/-- One round at a position where no word begins reads no distance. -/
theorem wp_segStep_nil {js : List (Jumper D)} {o : Mem F D} (hT : HoldsTable sh cfg (some d)) (hI : LoopInv sh a b d.maxTokenLen j text js o) (hn : js.length = text.length)
    {sm : Bool} {current : Nat} (hc : current < text.length) (h0 : lookAt d text current = some []) {js' : List (Jumper D)} (h : segStep d text sm current js = some js') :
    wp sh (segStepP a b d.maxTokenLen j text.length sm current) o
      (fun _ o' => LoopInv sh a b d.maxTokenLen j text js' o' ∧ js'.length = text.length) := by
  unfold segStep at h
  obtain ⟨base, h1, h⟩ := Option.bind_eq_some_iff.mp h
  obtain ⟨found, h2, h⟩ := Option.bind_eq_some_iff.mp h
  obtain ⟨js1, h3, h⟩ := Option.bind_eq_some_iff.mp h
  obtain ⟨need, h4, h⟩ := Option.bind_eq_some_iff.mp h
  have : found = [] := by
    have := h2.symm.trans h0
    exact Option.some.inj this
  subst this
  unfold segStepP
  refine wp_bind (wp_base hI h1 ?_)
  refine wp_bind (wp_read (view_shared hI.apart (hT.maxLen d rfl)) (wp_ret ?_))
  refine wp_bind (wp_mono ?_ _ _ (wp_lookup hT _ current [] [] o (by omega) h2 hI (by intro k v hv; simp at hv)))
  rintro num o1 ⟨rfl, hI1, hB1⟩
  simp only [updateAll, Option.some.injEq] at h3
  subst h3
  simp only [needPseudo, Option.some.injEq] at h4
  subst h4
  refine wp_bind (wp_ret ?_)
  refine wp_bind (wp_ret ?_)
  simp only [cond_true] at h
  unfold addPseudo at h
  obtain ⟨w, hw, h⟩ := Option.bind_eq_some_iff.mp h
  obtain ⟨x, hx, h⟩ := Option.bind_eq_some_iff.mp h
  simp only [Option.some.injEq] at h; subst h
  obtain ⟨s, hs, hsw⟩ := hI1.words _ w hw
  refine wp_bind (wp_read hs (wp_ret ?_))
  refine wp_mono ?_ _ _ (wp_updateJumper hI1 hB1 hx base F32.c32 (r := .pseudo w) (RefIs.pseudo s w hsw))
  rintro _ o3 ⟨hI3, _⟩
  exact ⟨hI3, by simpa using hn⟩

theorem wp_segLoop_nil (hT : HoldsTable sh cfg (some d)) {sm : Bool} {js' : List (Jumper D)} (h0 : ∀ c, c < text.length → lookAt d text c = some []) :
    ∀ (k current : Nat) (js : List (Jumper D)) (o : Mem F D), current + k = text.length → js.length = text.length →
      LoopInv sh a b d.maxTokenLen j text js o → segLoop d text sm k current js = some js' →
      wp sh (segLoopP a b d.maxTokenLen j text.length sm k current) o (fun _ o' => LoopInv sh a b d.maxTokenLen j text js' o') := by
  intro k
  induction k with
  | zero => intro current js o _ _ hI h; simp only [segLoop, Option.some.injEq] at h; subst h; exact hI
  | succ k ih =>
    intro current js o hk hn hI h
    unfold segLoop at h
    obtain ⟨js1, h1, h⟩ := Option.bind_eq_some_iff.mp h
    unfold segLoopP
    refine wp_bind (wp_mono ?_ _ _ (wp_segStep_nil hT hI hn (by omega) (h0 _ (by omega)) h1))
    rintro _ o1 ⟨hI1, hn1⟩
    exact ih (current + 1) js1 o1 (by omega) hn1 hI1 h

/-- `Segment` of a text without words of the dictionary reads no distance. -/
theorem wp_segment_nil [Unicode] {dict : Option (Dictionary F D)} {o : Mem F D} (hT : HoldsTable sh cfg dict) {r : Slice} {s : Bytes} (hr : HoldsBytes sh r s) (ha : Apart sh o)
    {sm : Bool} {segs : List Seg} (h : internalSegment cfg dict s sm = some segs)
    (h0 : ∀ d, dict = some d → ∀ c, c < (splitTextToWords cfg s).length → lookAt d (splitTextToWords cfg s) c = some []) :
    wp sh (segmentP r sm) o (fun x o' => HoldsSegs (view sh o') x segs) := by
  unfold internalSegment at h
  unfold segmentP
  rw [← hr.1]
  split at h
  · next hc =>
    rw [if_pos hc]
    simp only [Option.some.injEq] at h; subst h
    exact holdsSegs_nil _
  · next hc =>
    rw [if_neg hc]
    refine wp_bind (wp_mono ?_ _ _ (wp_split hT.flags hr ha))
    rintro x o' ⟨h1, h2, h3⟩
    refine wp_segmentWords_of hT h1 h2 h3 h fun d b j js' o hd hI hl => ?_
    subst hd
    exact wp_segLoop_nil hT (h0 d rfl) _ 0 _ o (by omega) (by simp) hI hl

variable {R : Rely F D}

/-- The first word found: its distance is read. -/
theorem obeys_updateAll (hR : ∀ l x, sh l = some x → R.loc l ∧ ∀ y, R.val l y → y = x) (hT : HoldsTable sh cfg (some d)) {o : Mem F D} (hp : Private R o) (ha : Apart sh o)
    {n v : Nat} {vs : List Nat} {current : Nat} {base : D} {js js' : List (Jumper D)} (hn : js.length = n) (hj : Arr o j n) (hB : BufAt o b (v :: vs))
    (h : updateAll d n false current base (v :: vs) js = some js') (k : Nat) :
    v < d.tokens.length ∧ Obeys R (.rd (.dist v)) false (updateAllP b j n false current base (k + 1) 0) o := by
  unfold updateAll at h
  cases ht : d.tokens[v]? with
  | none => rw [ht] at h; cases h
  | some t =>
    rw [ht] at h
    refine ⟨(List.getElem?_eq_some_iff.mp ht).1, ?_⟩
    simp only [Bool.not_false, Bool.true_or, if_true] at h
    split at h
    · cases h
    · next h0 =>
      cases hx : js[current + t.text.length - 1]? with
      | none => rw [hx] at h; cases h
      | some x =>
        have hlt := (List.getElem?_eq_some_iff.mp hx).1
        unfold updateAllP
        refine obeys_own (hB 0 v rfl) ?_
        refine obeys_still hR ha (hT.tok d rfl v t ht) ?_
        simp only [Prog.bind, Bool.not_false, Bool.true_or, if_true]
        rw [if_neg (by omega)]
        refine .inl ⟨.inr rfl, hp, fun c => ?_⟩
        refine quiet_bind _ _ (by cases c <;> trivial) fun y o1 h1 => ?_
        have hj1 := hj.wider h1
        refine quiet_then (quiet_updateJumper hj1 (by omega) _ _ _) fun _ o2 h2 => ?_
        exact quiet_updateAll _ _ _ (hj1.wider h2)

theorem LoopInv.arr {cap : Nat} {js : List (Jumper D)} {o : Mem F D} (h : LoopInv sh a b cap j text js o) : Arr o j js.length := by
  intro i hi
  obtain ⟨p, hp, _⟩ := h.jumpers i _ (List.getElem?_eq_getElem hi)
  rw [hp]; rfl

theorem LoopInv.arrBuf {cap : Nat} {js : List (Jumper D)} {o : Mem F D} (h : LoopInv sh a b cap j text js o) : Arr o b cap := by
  intro i hi
  obtain ⟨p, hp⟩ := h.buf i hi
  rw [hp]; rfl

theorem updateAll_length {n : Nat} {sm : Bool} {current : Nat} {base : D} : ∀ (found : List Nat) {js js' : List (Jumper D)},
    updateAll d n sm current base found js = some js' → js'.length = js.length
  | [], js, js', h => by simp only [updateAll, Option.some.injEq] at h; subst h; rfl
  | v :: vs, js, js', h => by
    unfold updateAll at h
    split at h
    · cases h
    · split at h
      · split at h
        · cases h
        · split at h
          · cases h
          · rw [updateAll_length vs h, List.length_set]
      · exact updateAll_length vs h

theorem segStep_length {sm : Bool} {current : Nat} {js js' : List (Jumper D)} (h : segStep d text sm current js = some js') : js'.length = js.length := by
  unfold segStep at h
  obtain ⟨base, h1, h⟩ := Option.bind_eq_some_iff.mp h
  obtain ⟨found, h2, h⟩ := Option.bind_eq_some_iff.mp h
  obtain ⟨js1, h3, h⟩ := Option.bind_eq_some_iff.mp h
  obtain ⟨need, h4, h⟩ := Option.bind_eq_some_iff.mp h
  rw [← updateAll_length found h3]
  cases need with
  | false => simp only [cond_false, Option.some.injEq] at h; subst h; rfl
  | true =>
    simp only [cond_true] at h
    unfold addPseudo at h
    obtain ⟨w, hw, h⟩ := Option.bind_eq_some_iff.mp h
    obtain ⟨x, hx, h⟩ := Option.bind_eq_some_iff.mp h
    simp only [Option.some.injEq] at h; subst h
    simp

theorem segStep_first {sm : Bool} {current : Nat} {js js' : List (Jumper D)} (h : segStep d text sm current js = some js') {v : Nat} {vs : List Nat}
    (h0 : lookAt d text current = some (v :: vs)) : v < d.tokens.length := by
  unfold segStep at h
  obtain ⟨base, h1, h⟩ := Option.bind_eq_some_iff.mp h
  obtain ⟨found, h2, h⟩ := Option.bind_eq_some_iff.mp h
  obtain ⟨js1, h3, h⟩ := Option.bind_eq_some_iff.mp h
  have : found = v :: vs := by
    have := h2.symm.trans h0
    exact Option.some.inj this
  subst this
  unfold updateAll at h3
  cases ht : d.tokens[v]? with
  | none => rw [ht] at h3; cases h3
  | some t => exact (List.getElem?_eq_some_iff.mp ht).1

theorem obeys_segStep_dist (hR : ∀ l x, sh l = some x → R.loc l ∧ ∀ y, R.val l y → y = x) (hT : HoldsTable sh cfg (some d)) {js : List (Jumper D)}
    (hn : js.length = text.length) {current : Nat} (hc : current < text.length) {v : Nat} {vs : List Nat} (h0 : lookAt d text current = some (v :: vs)) {js' : List (Jumper D)}
    (h : segStep d text false current js = some js') {o : Mem F D} (hp : Private R o) (hI : LoopInv sh a b d.maxTokenLen j text js o) :
    Obeys R (.rd (.dist v)) false (segStepP a b d.maxTokenLen j text.length false current) o := by
  unfold segStep at h
  obtain ⟨base, h1, h⟩ := Option.bind_eq_some_iff.mp h
  obtain ⟨found, h2, h⟩ := Option.bind_eq_some_iff.mp h
  obtain ⟨js1, h3, h⟩ := Option.bind_eq_some_iff.mp h
  have : found = v :: vs := by
    have := h2.symm.trans h0
    exact Option.some.inj this
  subst this
  unfold segStepP
  refine obeys_wp' hR (Q := fun x o' => x = base ∧ o' = o) ?_ (wp_base hI h1 ⟨rfl, rfl⟩) hp
  rintro _ _ ⟨rfl, rfl⟩ hp
  refine obeys_still hR hI.apart (hT.maxLen d rfl) ?_
  show Obeys R _ _ (lookupP a b d.maxTokenLen (min (current + d.maxTokenLen) text.length - current) current [] 0 >>= _) _
  refine obeys_wp' hR ?_ (wp_lookup hT _ current [] [] _ (by omega) h2 hI (by intro k v hv; simp at hv)) hp
  rintro num o1 ⟨rfl, hI1, hB1⟩ hp1
  have hj1 : Arr o1 j text.length := by rw [← hn]; exact hI1.arr
  refine obeys_then _ _ _ hp1 (obeys_updateAll hR hT hp1 hI1.apart hn hj1 hB1 h3 vs.length).2 fun _ o2 w2 => ?_
  refine quiet_then (quiet_needPseudo o2 _ _) fun need o3 w3 => ?_
  split
  · refine quiet_then (quiet_rdWord o3 _ _) fun w o4 w4 => ?_
    exact quiet_updateJumper (((hj1.wider w2).wider w3).wider w4) hc _ _ _
  · trivial

theorem obeys_segLoop_dist (hR : ∀ l x, sh l = some x → R.loc l ∧ ∀ y, R.val l y → y = x) (hT : HoldsTable sh cfg (some d)) :
    ∀ (k current : Nat) (js js' : List (Jumper D)), current + k = text.length → js.length = text.length → segLoop d text false k current js = some js' →
      (∃ c, current ≤ c ∧ c < text.length ∧ lookAt d text c ≠ some []) →
      ∃ v, v < d.tokens.length ∧ ∀ a b j o, Private R o → LoopInv sh a b d.maxTokenLen j text js o →
        Obeys R (.rd (.dist v)) false (segLoopP a b d.maxTokenLen j text.length false k current) o := by
  intro k
  induction k with
  | zero => rintro current js js' h1 h2 h3 ⟨c, h4, h5, _⟩; omega
  | succ k ih =>
    rintro current js js' hk hn h ⟨c, hc1, hc2, hc3⟩
    unfold segLoop at h
    obtain ⟨js1, h1, h⟩ := Option.bind_eq_some_iff.mp h
    have hlk : ∃ found, lookAt d text current = some found := by
      unfold segStep at h1
      obtain ⟨base, _, h1⟩ := Option.bind_eq_some_iff.mp h1
      obtain ⟨found, h2, _⟩ := Option.bind_eq_some_iff.mp h1
      exact ⟨found, h2⟩
    obtain ⟨found, hf⟩ := hlk
    have hlen : js1.length = text.length := (segStep_length h1).trans hn
    cases found with
    | nil =>
      have : c ≠ current := by rintro rfl; exact hc3 hf
      obtain ⟨v, hv, ho⟩ := ih (current + 1) js1 js' (by omega) hlen h ⟨c, by omega, hc2, hc3⟩
      refine ⟨v, hv, fun a b j o hp hI => ?_⟩
      refine obeys_wp' hR ?_ (wp_segStep_nil hT hI hn (by omega) hf h1) hp
      rintro _ o1 ⟨hI1, _⟩ hp1
      exact ho a b j o1 hp1 hI1
    | cons v vs =>
      refine ⟨v, ?_, fun a b j o hp hI => ?_⟩
      · exact segStep_first h1 hf
      · have hj : Arr o j text.length := by rw [← hn]; exact hI.arr
        refine obeys_then _ _ _ hp (obeys_segStep_dist hR hT hn (by omega) hf h1 hp hI) fun _ o1 w1 => ?_
        exact quiet_segLoop _ _ _ (hI.arrBuf.wider w1) (hj.wider w1) (by omega)

/-- `Segment` of a text with a word of the dictionary reads a distance. -/
theorem obeys_segment_dist [Unicode] (hR : ∀ l x, sh l = some x → R.loc l ∧ ∀ y, R.val l y → y = x) (hT : HoldsTable sh cfg (some d)) {r : Slice} {s : Bytes}
    (hr : HoldsBytes sh r s) (hs : s ≠ []) {segs : List Seg} (h : internalSegment cfg (some d) s false = some segs)
    (h0 : ∃ c, c < (splitTextToWords cfg s).length ∧ lookAt d (splitTextToWords cfg s) c ≠ some []) :
    ∃ v, v < d.tokens.length ∧ Obeys R (.rd (.dist v)) false (segmentP (F := F) (D := D) r false) noMem := by
  have hp : Private R (noMem : Mem F D) := fun l h => by cases h
  have happ : ∀ {o : Mem F D}, Private R o → Apart sh o := fun hp l x hx => hp.none (hR l x hx).1
  unfold internalSegment at h
  rw [if_neg (by simpa using hs)] at h
  unfold segmentWords at h
  rw [if_neg (by simp)] at h
  obtain ⟨js', h1, _⟩ := Option.bind_eq_some_iff.mp h
  obtain ⟨c, h2, h3⟩ := h0
  obtain ⟨v, hv, ho⟩ := obeys_segLoop_dist hR hT _ 0 _ js' (by omega) (by simp) h1 ⟨c, by omega, h2, h3⟩
  refine ⟨v, hv, ?_⟩
  unfold segmentP
  rw [if_neg (by rw [← hr.1]; simpa using hs)]
  refine obeys_wp' hR ?_ (wp_split hT.flags hr (happ hp)) hp
  rintro x o ⟨ha, hlen, hw⟩ hpo
  unfold segmentWordsP
  rw [hlen]
  simp only [Bool.false_and, Bool.false_eq_true, if_false]
  refine obeys_make fun j hju hjn => ?_
  have hp1 := hpo.extend (List.replicate (splitTextToWords cfg s).length (.jumper ⟨F32.zero, none⟩)) hjn
  refine obeys_still hR (happ hp1) hT.segDict ?_
  refine obeys_still hR (happ hp1) (hT.maxLen d rfl) ?_
  refine obeys_make fun b hbu hbn => ?_
  have hp2 := hp1.extend (List.replicate d.maxTokenLen (.ref none)) hbn
  have hg1 := view_grows (happ hp1) (grows_extend (List.replicate (splitTextToWords cfg s).length (.jumper ⟨F32.zero, none⟩)) hju)
  have hg2 := view_grows (happ hp2) (grows_extend (List.replicate d.maxTokenLen (.ref none)) hbu)
  refine obeys_then _ _ _ hp2 (?_ : Obeys R (.rd (.dist v)) false (segLoopP x.arr b d.maxTokenLen j (splitTextToWords cfg s).length false (splitTextToWords cfg s).length 0) _) fun _ o1 _ => quiet_segEnd o1
  refine ho _ _ _ _ hp2 ⟨happ hp2, ?_, ?_, ?_⟩
  · exact (hw.keep hg1.bytes fun l s hs => hg1 l _ hs).keep hg2.bytes fun l s hs => hg2 l _ hs
  · intro k hk
    exact ⟨none, by rw [extend_cell, List.getElem?_replicate, if_pos hk]⟩
  · intro k x hx
    rw [List.getElem?_replicate] at hx
    split at hx
    · next hk =>
      simp only [Option.some.injEq] at hx; subst hx
      refine ⟨none, ?_, trivial⟩
      apply grows_extend _ hbu
      rw [extend_cell, List.getElem?_replicate, if_pos hk]
    · cases hx

end

end Gse
