import Verif.Proofs.Race
import Verif.Proofs.AddMem

/-!
# `Segment` beside a goroutine that changes the dictionary
-/

namespace Gse

set_option linter.unusedSectionVars false

variable {F D α β : Type}

/-- The array `a` of length `n` is own memory. -/
def Arr (o : Mem F D) (a n : Nat) : Prop := ∀ i, i < n → (o (.cell a i)).isSome

/-- More memory. -/
def Wider (o o' : Mem F D) : Prop := ∀ l, (o l).isSome → (o' l).isSome

theorem Arr.wider {o o' : Mem F D} {a n : Nat} (h : Arr o a n) (hw : Wider o o') : Arr o' a n := fun i hi => hw _ (h i hi)

theorem wider_put (o : Mem F D) (l : Loc) (c : Cell F D) : Wider o (o.put l c) := by
  intro l' hl'
  by_cases e : l' = l
  · subst e; rw [put_same]; rfl
  · rw [put_other _ _ e]; exact hl'

theorem wider_extend {o : Mem F D} {a : Nat} (cs : List (Cell F D)) (ha : o.Unused a) : Wider o (o.extend a cs) := by
  intro l hl
  obtain ⟨x, hx⟩ := Option.isSome_iff_exists.mp hl
  rw [extend_unused cs ha hx]; rfl

theorem arr_extend (o : Mem F D) (a : Nat) (n : Nat) (c : Cell F D) : Arr (o.extend a (List.replicate n c)) a n := by
  intro i hi; rw [extend_cell, List.getElem?_replicate, if_pos hi]; rfl

theorem quiet_then {f : α → Prog F D β} {p : Prog F D α} {o : Mem F D} (hp : Quiet p o) (h : ∀ a o', Wider o o' → Quiet (f a) o') :
    Quiet (p >>= f) o := quiet_bind p o hp h

theorem quiet_make {cs : List (Cell F D)} {f : Nat → Prog F D β} {o : Mem F D} (h : ∀ a, o.Unused a → Quiet (f a) (o.extend a cs)) :
    Quiet (Prog.make cs >>= f) o := h

theorem quiet_read {l : Loc} {k : Cell F D → Prog F D α} {o : Mem F D} (h : ∀ c, Quiet (k c) o) : Quiet (.read l k) o := h

section reads
variable (o : Mem F D)

theorem quiet_rdNat (l : Loc) : Quiet (Prog.rdNat (F := F) (D := D) l) o := by intro c; cases c <;> trivial
theorem quiet_rdTrie : Quiet (Prog.rdTrie (F := F) (D := D)) o := by intro c; cases c <;> trivial
theorem quiet_rdTok (i : Nat) : Quiet (Prog.rdTok (F := F) (D := D) i) o := by intro c; cases c <;> trivial
theorem quiet_rdDist (i : Nat) : Quiet (Prog.rdDist (F := F) (D := D) i) o := by intro c; cases c <;> trivial
theorem quiet_rdByte (a i : Nat) : Quiet (Prog.rdByte (F := F) (D := D) a i) o := by intro c; cases c <;> trivial
theorem quiet_rdWord (a i : Nat) : Quiet (Prog.rdWord (F := F) (D := D) a i) o := by intro c; cases c <;> trivial
theorem quiet_rdJumper (a i : Nat) : Quiet (Prog.rdJumper (F := F) (D := D) a i) o := by intro c; cases c <;> trivial
theorem quiet_rdRef (a i : Nat) : Quiet (Prog.rdRef (F := F) (D := D) a i) o := by intro c; cases c <;> trivial
theorem quiet_rdSeg (a i : Nat) : Quiet (Prog.rdSeg (F := F) (D := D) a i) o := by intro c; cases c <;> trivial

theorem quiet_rdBytes (a : Nat) : ∀ (n i : Nat) (o : Mem F D), Quiet (Prog.rdBytes (F := F) (D := D) a i n) o
  | 0, _, _ => trivial
  | n + 1, i, o => quiet_then (quiet_rdByte o a i) fun _ o' _ => quiet_then (quiet_rdBytes a n (i + 1) o') fun _ _ _ => trivial

end reads

theorem quiet_wr {o : Mem F D} {a i n : Nat} {c : Cell F D} (h : Arr o a n) (hi : i < n) : Quiet (Prog.wr a i c) o := ⟨h i hi, trivial⟩

theorem quiet_lookup {a b cap : Nat} : ∀ (k i : Nat) (id : Bytes) (num : Nat) (o : Mem F D), Arr o b cap → Quiet (lookupP a b cap k i id num) o := by
  intro k
  induction k with
  | zero => intros; trivial
  | succ k ih =>
    intro i id num o hb
    unfold lookupP
    refine quiet_then (quiet_rdWord o a i) fun w o1 h1 => ?_
    refine quiet_then (quiet_rdBytes _ _ _ o1) fun bs o2 h2 => ?_
    refine quiet_then (quiet_rdTrie o2) fun t o3 h3 => ?_
    have hb3 := ((hb.wider h1).wider h2).wider h3
    split
    · trivial
    · refine quiet_then (quiet_rdTrie o3) fun t o4 h4 => ?_
      split
      · exact ih _ _ _ _ (hb3.wider h4)
      · refine quiet_then (quiet_rdNat o4 _) fun n o5 h5 => ?_
        split
        · next hc =>
          refine quiet_then (quiet_wr ((hb3.wider h4).wider h5) hc.1) fun _ o6 h6 => ?_
          exact ih _ _ _ _ (((hb3.wider h4).wider h5).wider h6)
        · trivial

section
variable [F64 F] [F32 D]

theorem quiet_deref (o : Mem F D) (r : Option MRef) : Quiet (derefP (F := F) (D := D) r) o := by
  unfold derefP
  split
  · trivial
  · exact quiet_then (quiet_rdTok o _) fun _ _ _ => trivial
  · trivial

theorem quiet_dist (o : Mem F D) (r : Option MRef) : Quiet (distP (F := F) (D := D) r) o := by
  unfold distP
  split
  · trivial
  · exact quiet_rdDist o _
  · trivial

theorem quiet_updateJumper {o : Mem F D} {j n i : Nat} (hj : Arr o j n) (hi : i < n) (base : D) (r : Option MRef) (x : D) :
    Quiet (updateJumperP j i base r x) o := by
  unfold updateJumperP
  refine quiet_then (quiet_rdJumper o j i) fun y o1 h1 => ?_
  split
  · exact quiet_wr (hj.wider h1) hi
  · trivial

theorem quiet_updateAll {b j n : Nat} {sm : Bool} {current : Nat} {base : D} : ∀ (k i : Nat) (o : Mem F D), Arr o j n →
    Quiet (updateAllP b j n sm current base k i) o := by
  intro k
  induction k with
  | zero => intros; trivial
  | succ k ih =>
    intro i o hj
    unfold updateAllP
    refine quiet_then (quiet_rdRef o b i) fun r o1 h1 => ?_
    refine quiet_then (quiet_deref o1 r) fun x o2 h2 => ?_
    have hj2 := (hj.wider h1).wider h2
    split
    · split
      · trivial
      · next hc =>
        refine quiet_then (quiet_dist o2 r) fun y o3 h3 => ?_
        have hj3 := hj2.wider h3
        refine quiet_then (quiet_updateJumper hj3 (by omega) _ _ _) fun _ o4 h4 => ?_
        exact ih _ _ (hj3.wider h4)
    · exact ih _ _ hj2

theorem quiet_base (o : Mem F D) (j current : Nat) : Quiet (baseP (F := F) (D := D) j current) o := by
  unfold baseP
  split
  · trivial
  · exact quiet_then (quiet_rdJumper o _ _) fun _ _ _ => trivial

theorem quiet_needPseudo (o : Mem F D) (b num : Nat) : Quiet (needPseudoP (F := F) (D := D) b num) o := by
  unfold needPseudoP
  split
  · trivial
  · exact quiet_then (quiet_rdRef o _ _) fun r o1 _ => quiet_then (quiet_deref o1 r) fun _ _ _ => trivial

/-- The end of a round, after the look-up. -/
theorem quiet_segRest {a b j n : Nat} {sm : Bool} {current : Nat} {base : D} (num : Nat) {o : Mem F D} (hj : Arr o j n) (hc : current < n) :
    Quiet (do
      updateAllP b j n sm current base num 0
      let need ← needPseudoP (F := F) (D := D) b num
      if need then do
        let w ← Prog.rdWord a current
        updateJumperP j current base (some (.pseudo w)) F32.c32
      else .ret ()) o := by
  refine quiet_then (quiet_updateAll _ _ _ hj) fun _ o1 h1 => ?_
  refine quiet_then (quiet_needPseudo o1 _ _) fun need o2 h2 => ?_
  split
  · refine quiet_then (quiet_rdWord o2 _ _) fun w o3 h3 => ?_
    exact quiet_updateJumper (((hj.wider h1).wider h2).wider h3) hc _ _ _
  · trivial

theorem quiet_segStep {a b cap j n : Nat} {sm : Bool} {current : Nat} {o : Mem F D} (hb : Arr o b cap) (hj : Arr o j n) (hc : current < n) :
    Quiet (segStepP (F := F) (D := D) a b cap j n sm current) o := by
  unfold segStepP
  refine quiet_then (quiet_base o _ _) fun base o1 h1 => ?_
  refine quiet_then (quiet_rdNat o1 _) fun len o2 h2 => ?_
  refine quiet_then (quiet_lookup _ _ _ _ o2 ((hb.wider h1).wider h2)) fun num o3 h3 => ?_
  exact quiet_segRest num (((hj.wider h1).wider h2).wider h3) hc

theorem quiet_segLoop {a b cap j n : Nat} {sm : Bool} : ∀ (k current : Nat) (o : Mem F D), Arr o b cap → Arr o j n → current + k ≤ n →
    Quiet (segLoopP (F := F) (D := D) a b cap j n sm k current) o := by
  intro k
  induction k with
  | zero => intros; trivial
  | succ k ih =>
    intro current o hb hj hc
    refine quiet_then (quiet_segStep hb hj (by omega)) fun _ o1 h1 => ?_
    exact ih _ _ (hb.wider h1) (hj.wider h1) (by omega)

theorem quiet_count {j : Nat} : ∀ (fuel n num : Nat) (o : Mem F D), Quiet (countP (F := F) (D := D) j fuel n num) o := by
  intro fuel
  induction fuel with
  | zero => intro n num o; cases n <;> (unfold countP; trivial)
  | succ fuel ih =>
    intro n num o
    cases n with
    | zero => unfold countP; trivial
    | succ n =>
      unfold countP
      refine quiet_then (quiet_rdJumper o _ _) fun x o1 h1 => ?_
      refine quiet_then (quiet_deref o1 _) fun y o2 h2 => ?_
      exact ih _ _ _

theorem quiet_fill {j q len : Nat} : ∀ (fuel n num : Nat) (o : Mem F D), Arr o q len → Quiet (fillP (F := F) (D := D) j q len fuel n num) o := by
  intro fuel
  induction fuel with
  | zero => intro n num o _; cases n <;> (unfold fillP; trivial)
  | succ fuel ih =>
    intro n num o hq
    cases n with
    | zero => unfold fillP; trivial
    | succ n =>
      unfold fillP
      refine quiet_then (quiet_rdJumper o _ _) fun x o1 h1 => ?_
      refine quiet_then (quiet_deref o1 _) fun y o2 h2 => ?_
      split
      · trivial
      · next hc =>
        have hq2 := (hq.wider h1).wider h2
        refine quiet_then (quiet_wr hq2 (by omega)) fun _ o3 h3 => ?_
        exact ih _ _ _ (hq2.wider h3)

theorem quiet_positions {q n : Nat} : ∀ (k i p : Nat) (o : Mem F D), Arr o q n → i + k ≤ n → Quiet (positionsP (F := F) (D := D) q k i p) o := by
  intro k
  induction k with
  | zero => intros; trivial
  | succ k ih =>
    intro i p o hq hi
    refine quiet_then (quiet_rdSeg o _ _) fun x o1 h1 => ?_
    refine quiet_then (quiet_deref o1 _) fun y o2 h2 => ?_
    have hq2 := (hq.wider h1).wider h2
    refine quiet_then (quiet_wr hq2 (by omega)) fun _ o3 h3 => ?_
    exact ih _ _ _ (hq2.wider h3) (by omega)

/-- The end of `segmentWordsP`, after the forward loop. -/
theorem quiet_segEnd {j n : Nat} (o : Mem F D) :
    Quiet (do
      let num ← countP (F := F) (D := D) j (n + 1) n 0
      let q ← Prog.make (List.replicate num (.seg ⟨0, 0, none⟩))
      fillP j q num (n + 1) n num
      positionsP q num 0 0
      Prog.ret (Slice.mk q 0 num)) o := by
  refine quiet_then (quiet_count _ _ _ o) fun num o1 h1 => ?_
  refine quiet_make fun q hq => ?_
  refine quiet_then (quiet_fill _ _ _ _ (arr_extend o1 q num _)) fun _ o2 h2 => ?_
  refine quiet_then (quiet_positions _ _ _ _ ((arr_extend o1 q num _).wider h2) (by omega)) fun _ o3 h3 => ?_
  trivial

/-! ## The access that must be made -/

variable {R : Rely F D} {e : Access}

theorem quiet_obeys : ∀ (p : Prog F D α) (o : Mem F D), Private R o → Quiet p o → Obeys R e true p o
  | .ret _, _, _, _ => rfl
  | .panic, _, _, _ => rfl
  | .read _ _, _, hp, hq => .inl ⟨.inl rfl, hp, hq⟩
  | .write l c k, o, hp, ⟨h1, h2⟩ => by
    refine ⟨h1, fun h => absurd h (hp l h1), ?_⟩
    refine quiet_obeys k _ ?_ h2
    intro l' hl'
    by_cases e : l' = l
    · subst e; exact hp _ h1
    · rw [put_other _ _ e] at hl'; exact hp l' hl'
  | .alloc cs k, o, hp, hq => fun a ha hna => quiet_obeys (k a) _ (by
      intro l hl hloc
      by_cases e : ∃ n, l = .cell a n
      · obtain ⟨n, rfl⟩ := e; exact hna n hloc
      · rw [extend_other _ _ (fun n hn => e ⟨n, hn⟩)] at hl; exact hp l hl hloc) (hq a ha)

/-- A part that makes the access, then a part that writes only its own memory. -/
theorem obeys_then {f : α → Prog F D β} : ∀ (p : Prog F D α) (o : Mem F D) (done : Bool), Private R o → Obeys R e done p o →
    (∀ a o', Wider o o' → Quiet (f a) o') → Obeys R e done (p.bind f) o
  | .ret a, o, done, hp, ho, h => by
    have : done = true := ho
    subst this; exact quiet_obeys _ _ hp (h a o fun _ h => h)
  | .panic, _, _, _, ho, _ => ho
  | .read l k, o, done, hp, ho, h => by
    rcases ho with ⟨h1, h2, h3⟩ | ⟨c, hc, ho⟩ | ⟨h1, h2, ho⟩
    · exact .inl ⟨h1, h2, fun c => quiet_bind (k c) o (h3 c) h⟩
    · exact .inr (.inl ⟨c, hc, obeys_then (k c) o _ hp ho h⟩)
    · exact .inr (.inr ⟨h1, h2, fun c hc => obeys_then (k c) o _ hp (ho c hc) h⟩)
  | .write l c k, o, done, hp, ⟨h1, h2, h3⟩, h => by
    refine ⟨h1, h2, obeys_then k _ _ ?_ h3 fun a o' ho => h a o' fun l' hl' => ho l' (wider_put o l c l' hl')⟩
    intro l' hl'
    by_cases e : l' = l
    · subst e; exact hp _ h1
    · rw [put_other _ _ e] at hl'; exact hp l' hl'
  | .alloc cs k, o, done, hp, ho, h => fun a ha hna => obeys_then (k a) _ _ (by
      intro l hl hloc
      by_cases e : ∃ n, l = .cell a n
      · obtain ⟨n, rfl⟩ := e; exact hna n hloc
      · rw [extend_other _ _ (fun n hn => e ⟨n, hn⟩)] at hl; exact hp l hl hloc) (ho a ha hna)
      fun b o' hw => h b o' fun l hl => hw l (wider_extend cs ha l hl)

/-- `obeys_wp` without memory in front. -/
theorem obeys_wp' {done : Bool} {sh : Mem F D} {f : α → Prog F D β} (hR : ∀ l x, sh l = some x → R.loc l ∧ ∀ y, R.val l y → y = x)
    {Q : α → Mem F D → Prop} (hf : ∀ a o, Q a o → Private R o → Obeys R e done (f a) o) {p : Prog F D α} {o : Mem F D} (hw : wp sh p o Q)
    (hp : Private R o) : Obeys R e done (p >>= f) o := by
  have := obeys_wp (e := e) (done := done) (f := f) (d := noMem) hR (fun _ _ _ => rfl) (fun _ _ => rfl)
    (fun a o h1 h2 _ => by rw [view_noMem]; exact hf a o h1 h2) p o hw hp (fun _ _ _ => rfl)
  rwa [view_noMem] at this

/-- Reading a shared location. -/
theorem obeys_read {done : Bool} {l : Loc} {k : Cell F D → Prog F D α} {o : Mem F D} (ho : o l = none) (hl : R.loc l)
    (h : ∀ c, R.val l c → Obeys R e (done || decide (e = .rd l)) (k c) o) : Obeys R e done (.read l k) o := .inr (.inr ⟨ho, hl, h⟩)

theorem Private.extend {o : Mem F D} {a : Nat} (cs : List (Cell F D)) (hp : Private R o) (hna : ∀ i, ¬ R.loc (.cell a i)) : Private R (o.extend a cs) := by
  intro l hl hloc
  by_cases e : ∃ n, l = .cell a n
  · obtain ⟨n, rfl⟩ := e; exact hna n hloc
  · rw [extend_other _ _ (fun n hn => e ⟨n, hn⟩)] at hl; exact hp l hl hloc

theorem Private.none {o : Mem F D} (hp : Private R o) {l : Loc} (hl : R.loc l) : o l = none := by
  cases h : o l with
  | none => rfl
  | some x => exact absurd hl (hp l (by rw [h]; rfl))

/-- What is stable while the dictionary changes: the memory `sh`, and which locations the dictionary has. -/
structure Changing (R : Rely F D) (sh : Mem F D) (cfg : SplitCfg) : Prop where
  stable : ∀ l x, sh l = some x → R.loc l ∧ ∀ y, R.val l y → y = x
  flags : sh .flags = some (.flags cfg)
  segDict : sh .segDict = some (.bool false)
  maxLen : R.loc .maxLen
  maxLen_nat : ∀ c, R.val .maxLen c → ∃ n, c = .nat n
  trie : R.loc .trie

/-- Enough of the look-up to come to the trie. -/
theorem obeys_lookup {sh : Mem F D} {cfg : SplitCfg} (hC : Changing R sh cfg) {a b cap k : Nat} {id : Bytes} {num : Nat} {o : Mem F D} (hp : Private R o)
    (hb : Arr o b cap) {s : Slice} {w : Bytes} (hs : view sh o (.cell a 0) = some (.word s)) (hw : HoldsBytes (view sh o) s w) :
    Obeys R (.rd .trie) false (lookupP a b cap (k + 1) 0 id num) o := by
  unfold lookupP
  refine obeys_wp' hC.stable (Q := fun x o' => x = s ∧ o' = o) ?_ (wp_read hs (wp_ret ⟨rfl, rfl⟩)) hp
  rintro _ _ ⟨rfl, rfl⟩ hp
  refine obeys_wp' hC.stable (Q := fun x o' => x = w ∧ o' = _) ?_ (wp_rdSlice hw ⟨rfl, rfl⟩) hp
  rintro _ _ ⟨rfl, rfl⟩ hp
  refine .inl ⟨.inr rfl, hp, fun c => ?_⟩
  refine quiet_bind _ _ (by cases c <;> trivial) fun t o1 h1 => ?_
  split
  · trivial
  · refine quiet_then (quiet_rdTrie o1) fun t o4 h4 => ?_
    split
    · exact quiet_lookup _ _ _ _ _ ((hb.wider h1).wider h4)
    · refine quiet_then (quiet_rdNat o4 _) fun n o5 h5 => ?_
      split
      · next hc =>
        refine quiet_then (quiet_wr (((hb.wider h1).wider h4).wider h5) hc.1) fun _ o6 h6 => ?_
        exact quiet_lookup _ _ _ _ _ ((((hb.wider h1).wider h4).wider h5).wider h6)
      · trivial

theorem obeys_make {done : Bool} {cs : List (Cell F D)} {f : Nat → Prog F D β} {o : Mem F D}
    (h : ∀ a, o.Unused a → (∀ i, ¬ R.loc (.cell a i)) → Obeys R e done (f a) (o.extend a cs)) : Obeys R e done (Prog.make cs >>= f) o := h

theorem obeys_rdNat {done : Bool} {l : Loc} {f : Nat → Prog F D β} {o : Mem F D} (ho : o l = none) (hl : R.loc l) (hn : ∀ c, R.val l c → ∃ n, c = .nat n)
    (h : ∀ n, R.val l (.nat n) → Obeys R e (done || decide (e = .rd l)) (f n) o) : Obeys R e done (Prog.rdNat l >>= f) o := by
  refine obeys_read ho hl fun c hc => ?_
  obtain ⟨n, rfl⟩ := hn c hc
  exact h n hc

theorem Changing.apart {sh : Mem F D} {cfg : SplitCfg} (hC : Changing R sh cfg) {o : Mem F D} (hp : Private R o) : Apart sh o :=
  fun l x hx => hp.none (hC.stable l x hx).1

theorem obeys_segStep {sh : Mem F D} {cfg : SplitCfg} (hC : Changing R sh cfg) (hmin : ∀ n, R.val .maxLen (.nat n) → 1 ≤ n)
    {a b cap j n : Nat} {sm : Bool} {o : Mem F D} (hp : Private R o) (hb : Arr o b cap) (hj : Arr o j n) (hn : 0 < n) {s : Slice} {w : Bytes}
    (hs : view sh o (.cell a 0) = some (.word s)) (hw : HoldsBytes (view sh o) s w) :
    Obeys R (.rd .trie) false (segStepP (F := F) (D := D) a b cap j n sm 0) o := by
  unfold segStepP
  show Obeys R (.rd .trie) false (Prog.bind (.ret _) _) o
  refine obeys_rdNat (hp.none hC.maxLen) hC.maxLen hC.maxLen_nat fun len hl => ?_
  have h1 := hmin len hl
  obtain ⟨k, hk⟩ : ∃ k, min (0 + len) n - 0 = k + 1 := ⟨min (0 + len) n - 1, by omega⟩
  rw [hk]
  refine obeys_then _ _ _ hp (obeys_lookup hC hp hb hs hw) fun num o1 h1 => ?_
  exact quiet_segRest num (hj.wider h1) hn

theorem obeys_segmentWords {sh : Mem F D} {cfg : SplitCfg} (hC : Changing R sh cfg) (hmin : ∀ n, R.val .maxLen (.nat n) → 1 ≤ n)
    {r : Slice} {ws : List Bytes} (hlen : r.len = ws.length) (hne : ws ≠ []) {o : Mem F D} (hp : Private R o) (hws : WordsAt (view sh o) r.arr ws) :
    Obeys R (.rd .trie) false (segmentWordsP (F := F) (D := D) r false) o := by
  unfold segmentWordsP
  simp only [Bool.false_and, Bool.false_eq_true, if_false]
  refine obeys_make fun j hju hjn => ?_
  have hp1 := hp.extend (List.replicate r.len (.jumper ⟨F32.zero, none⟩)) hjn
  refine obeys_wp' hC.stable (Q := fun x o' => x = false ∧ o' = o.extend j (List.replicate r.len (.jumper ⟨F32.zero, none⟩))) ?_
    (wp_read (view_shared (hC.apart hp1) hC.segDict) (wp_ret ⟨rfl, rfl⟩)) hp1
  rintro _ _ ⟨rfl, rfl⟩ _
  simp only [Bool.false_eq_true, if_false]
  refine obeys_rdNat (hp1.none hC.maxLen) hC.maxLen hC.maxLen_nat fun cap _ => ?_
  refine obeys_make fun b hbu hbn => ?_
  have hp2 := hp1.extend (List.replicate cap (.ref none)) hbn
  have hj1 := arr_extend o j r.len (.jumper ⟨F32.zero, none⟩)
  have hj2 := hj1.wider (wider_extend (List.replicate cap (.ref none)) hbu)
  have hg : Grows (view sh o) (view sh ((o.extend j (List.replicate r.len (.jumper ⟨F32.zero, none⟩))).extend b (List.replicate cap (.ref none)))) :=
    view_grows (hC.apart hp2) ((grows_extend _ hju).trans (grows_extend _ hbu))
  obtain ⟨w, ws', rfl⟩ := List.exists_cons_of_ne_nil hne
  obtain ⟨s, hs, hw⟩ := hws 0 w rfl
  refine obeys_then _ _ _ hp2 (?_ : Obeys R (.rd .trie) false (segLoopP r.arr b cap j r.len false r.len 0) _) fun _ o1 _ => quiet_segEnd o1
  obtain ⟨k, hk⟩ : ∃ k, r.len = k + 1 := ⟨ws'.length, by simpa using hlen⟩
  have : segLoopP (F := F) (D := D) r.arr b cap j r.len false r.len 0 =
      Prog.bind (segStepP r.arr b cap j r.len false 0) fun _ => segLoopP r.arr b cap j r.len false k 1 := by
    conv_lhs => rw [show segLoopP (F := F) (D := D) r.arr b cap j r.len false r.len 0 = segLoopP r.arr b cap j r.len false (k + 1) 0 by rw [← hk]]
    rfl
  rw [this]
  refine obeys_then _ _ _ hp2 (obeys_segStep hC hmin hp2 (arr_extend _ b cap _) hj2 (by omega) (hg _ _ hs) (hw.keep hg.bytes)) fun _ o1 h1 => ?_
  exact quiet_segLoop _ _ _ ((arr_extend _ b cap _).wider h1) (hj2.wider h1) (by omega)

/-- `Segment` comes to read the trie, if the greatest word length is never zero. -/
theorem obeys_segment_trie [Unicode] {sh : Mem F D} {cfg : SplitCfg} (hC : Changing R sh cfg) (hmin : ∀ n, R.val .maxLen (.nat n) → 1 ≤ n)
    {r : Slice} {s : Bytes} (hr : HoldsBytes sh r s) (hs : s ≠ []) (hws : splitTextToWords cfg s ≠ []) :
    Obeys R (.rd .trie) false (segmentP (F := F) (D := D) r false) noMem := by
  have hp : Private R (noMem : Mem F D) := fun l h => by cases h
  unfold segmentP
  rw [if_neg (by rw [← hr.1]; simpa using hs)]
  refine obeys_wp' hC.stable ?_ (wp_split hC.flags hr (hC.apart hp)) hp
  rintro x o ⟨_, h2, h3⟩ hpo
  exact obeys_segmentWords hC hmin h2 hws hpo h3

/-- `Segment` reads the greatest word length. -/
theorem obeys_segment_maxLen [Unicode] {sh : Mem F D} {cfg : SplitCfg} (hC : Changing R sh cfg) {r : Slice} {s : Bytes} (hr : HoldsBytes sh r s) (hs : s ≠ []) :
    Obeys R (.rd .maxLen) false (segmentP (F := F) (D := D) r false) noMem := by
  have hp : Private R (noMem : Mem F D) := fun l h => by cases h
  unfold segmentP
  rw [if_neg (by rw [← hr.1]; simpa using hs)]
  refine obeys_wp' hC.stable ?_ (wp_split hC.flags hr (hC.apart hp)) hp
  rintro x o ⟨_, _, _⟩ hpo
  unfold segmentWordsP
  simp only [Bool.false_and, Bool.false_eq_true, if_false]
  refine obeys_make fun j hju hjn => ?_
  have hp1 := hpo.extend (List.replicate x.len (.jumper ⟨F32.zero, none⟩)) hjn
  refine obeys_wp' hC.stable (Q := fun y o' => y = false ∧ o' = o.extend j (List.replicate x.len (.jumper ⟨F32.zero, none⟩))) ?_
    (wp_read (view_shared (hC.apart hp1) hC.segDict) (wp_ret ⟨rfl, rfl⟩)) hp1
  rintro _ _ ⟨rfl, rfl⟩ _
  simp only [Bool.false_eq_true, if_false]
  refine .inl ⟨.inr rfl, hp1, fun c => ?_⟩
  refine quiet_bind _ _ (by cases c <;> trivial) fun cap o1 h1 => ?_
  refine quiet_make fun b hbu => ?_
  have hj := ((arr_extend o j x.len (.jumper ⟨F32.zero, none⟩)).wider h1).wider (wider_extend (List.replicate cap (.ref none)) hbu)
  refine quiet_then (quiet_segLoop _ _ _ (arr_extend o1 b cap _) hj (by omega)) fun _ o2 _ => quiet_segEnd o2

end

end Gse
