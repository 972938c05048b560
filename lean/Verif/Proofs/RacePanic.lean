import Verif.Proofs.RaceAdd
import Verif.Proofs.Dict
import Verif.Proofs.SegMemLoop

/-!
# Interleavings in which a goroutine panics

`fails` is to a panic what `wp` is to a return. Both are carried over to executions of one goroutine while the others wait.
-/

namespace Gse

variable {F D α β : Type}

/-- Started with own memory `o` beside `sh`, the program panics. -/
def fails (sh : Mem F D) : Prog F D α → Mem F D → Prop
  | .ret _, _ => False
  | .panic, _ => True
  | .read l k, o => ∃ c, view sh o l = some c ∧ fails sh (k c) o
  | .write l c k, o => (o l).isSome ∧ fails sh k (o.put l c)
  | .alloc cs k, o => ∀ a, o.Unused a → sh.Unused a → fails sh (k a) (o.extend a cs)

theorem fails_bind' {sh : Mem F D} {f : α → Prog F D β} : ∀ (p : Prog F D α) (o : Mem F D), fails sh p o → fails sh (p.bind f) o
  | .ret _, _, h => h.elim
  | .panic, _, _ => trivial
  | .read _ k, o, ⟨c, hc, h⟩ => ⟨c, hc, fails_bind' (k c) o h⟩
  | .write _ _ k, _, ⟨hl, h⟩ => ⟨hl, fails_bind' k _ h⟩
  | .alloc _ k, _, h => fun a h1 h2 => fails_bind' (k a) _ (h a h1 h2)

theorem fails_bind {sh : Mem F D} {f : α → Prog F D β} {p : Prog F D α} {o : Mem F D} (h : fails sh p o) : fails sh (p >>= f) o := fails_bind' p o h

theorem fails_wp' {sh : Mem F D} {f : α → Prog F D β} : ∀ (p : Prog F D α) (o : Mem F D), wp sh p o (fun a o' => fails sh (f a) o') → fails sh (p.bind f) o
  | .ret _, _, h => h
  | .panic, _, h => h.elim
  | .read _ k, o, ⟨c, hc, h⟩ => ⟨c, hc, fails_wp' (k c) o h⟩
  | .write _ _ k, _, ⟨hl, h⟩ => ⟨hl, fails_wp' k _ h⟩
  | .alloc _ k, _, h => fun a h1 h2 => fails_wp' (k a) _ (h a h1 h2)

theorem fails_wp {sh : Mem F D} {f : α → Prog F D β} {p : Prog F D α} {o : Mem F D} (h : wp sh p o (fun a o' => fails sh (f a) o')) : fails sh (p >>= f) o :=
  fails_wp' p o h

/-! ## One goroutine goes on -/

/-- Some execution leads from one state to the other. -/
def Reach (c c' : Config F D α) : Prop := ∃ tr, Exec c tr c'

theorem Reach.refl (c : Config F D α) : Reach c c := ⟨[], .refl c⟩

theorem Reach.trans {c c' c'' : Config F D α} (h : Reach c c') (h' : Reach c' c'') : Reach c c'' := by
  obtain ⟨tr, h⟩ := h
  obtain ⟨tr', h'⟩ := h'
  induction h' with
  | refl => exact ⟨_, h⟩
  | step _ hs ih => obtain ⟨tr2, h2⟩ := ih; exact ⟨_, h2.step hs⟩

theorem Step.reach {c c' : Config F D α} {i : Nat} {e : Access} (h : Step c i e c') : Reach c c' := ⟨_, (Exec.refl c).step h⟩

section
variable {ts : List (Prog F D α)} {i : Nat}

theorem set_get (hi : i < ts.length) (p : Prog F D α) : (ts.set i p)[i]? = some p := by simp [hi]

theorem reach_read (hi : i < ts.length) {m : Mem F D} {l : Loc} {k : Cell F D → Prog F D α} {x : Cell F D} (h : m l = some x) :
    Reach ⟨m, ts.set i (.read l k)⟩ ⟨m, ts.set i (k x)⟩ := by
  have := (Step.read (c := ⟨m, ts.set i (.read l k)⟩) (set_get hi _) h).reach
  simpa using this

theorem reach_write (hi : i < ts.length) {m : Mem F D} {l : Loc} {c : Cell F D} {k : Prog F D α} (h : (m l).isSome) :
    Reach ⟨m, ts.set i (.write l c k)⟩ ⟨m.put l c, ts.set i k⟩ := by
  have := (Step.write (c := ⟨m, ts.set i (.write l c k)⟩) (set_get hi _) h).reach
  simpa using this

theorem reach_alloc (hi : i < ts.length) {m : Mem F D} {cs : List (Cell F D)} {k : Nat → Prog F D α} {a : Nat} (h : m.Unused a) :
    Reach ⟨m, ts.set i (.alloc cs k)⟩ ⟨m.extend a cs, ts.set i (k a)⟩ := by
  have := (Step.alloc (c := ⟨m, ts.set i (.alloc cs k)⟩) (set_get hi _) h).reach
  simpa using this

theorem below_put {m : Mem F D} {n : Nat} (hb : m.Below n) {l : Loc} (hl : (m l).isSome) (c : Cell F D) : (m.put l c).Below n := by
  intro a ha j
  rw [put_other _ _ (by rintro rfl; rw [hb a ha j] at hl; cases hl)]
  exact hb a ha j

theorem below_extend {m : Mem F D} {n a : Nat} (hb : m.Below n) (cs : List (Cell F D)) : (m.extend a cs).Below (max n (a + 1)) := by
  intro a' ha' j
  have : a' ≠ a := by omega
  simp only [Mem.extend, this, if_false]
  exact hb a' (by omega) j

/-- A part that `wp` speaks of can be run to its end. -/
theorem reach_wp (hi : i < ts.length) {sh : Mem F D} {f : β → Prog F D α} {Q : β → Mem F D → Prop} : ∀ (p : Prog F D β) (o : Mem F D), wp sh p o Q →
    (∃ n, (view sh o).Below n) → ∃ a o', Q a o' ∧ Reach ⟨view sh o, ts.set i (p.bind f)⟩ ⟨view sh o', ts.set i (f a)⟩
  | .ret a, o, h, _ => ⟨a, o, h, Reach.refl _⟩
  | .panic, _, h, _ => h.elim
  | .read l k, o, ⟨c, hc, h⟩, hb => by
    obtain ⟨a, o', hq, hr⟩ := reach_wp hi (f := f) (k c) o h hb
    exact ⟨a, o', hq, (reach_read hi hc).trans hr⟩
  | .write l c k, o, ⟨hl, h⟩, ⟨n, hb⟩ => by
    have hv : (view sh o l).isSome := by
      obtain ⟨x, hx⟩ := Option.isSome_iff_exists.mp hl
      rw [view_own hx]; rfl
    obtain ⟨a, o', hq, hr⟩ := reach_wp hi (f := f) k (o.put l c) h ⟨n, by rw [view_put]; exact below_put hb hv c⟩
    rw [view_put] at hr
    exact ⟨a, o', hq, (reach_write hi hv).trans hr⟩
  | .alloc cs k, o, h, ⟨n, hb⟩ => by
    obtain ⟨h1, h2⟩ := unused_view (hb n (Nat.le_refl n))
    obtain ⟨a, o', hq, hr⟩ := reach_wp hi (f := f) (k n) (o.extend n cs) (h n h1 h2) ⟨_, by rw [view_extend o cs h2]; exact below_extend hb cs⟩
    rw [view_extend o cs h2] at hr
    exact ⟨a, o', hq, (reach_alloc hi (hb n (Nat.le_refl n))).trans hr⟩

/-- A program that `fails` speaks of can be run to its panic. -/
theorem reach_fails (hi : i < ts.length) {sh : Mem F D} : ∀ (p : Prog F D α) (o : Mem F D), fails sh p o →
    (∃ n, (view sh o).Below n) → ∃ m', Reach ⟨view sh o, ts.set i p⟩ ⟨m', ts.set i .panic⟩
  | .ret a, o, h, _ => h.elim
  | .panic, o, _, _ => ⟨_, Reach.refl _⟩
  | .read l k, o, ⟨c, hc, h⟩, hb => by
    obtain ⟨m', hr⟩ := reach_fails hi (k c) o h hb
    exact ⟨m', (reach_read hi hc).trans hr⟩
  | .write l c k, o, ⟨hl, h⟩, ⟨n, hb⟩ => by
    have hv : (view sh o l).isSome := by
      obtain ⟨x, hx⟩ := Option.isSome_iff_exists.mp hl
      rw [view_own hx]; rfl
    obtain ⟨m', hr⟩ := reach_fails hi k (o.put l c) h ⟨n, by rw [view_put]; exact below_put hb hv c⟩
    rw [view_put] at hr
    exact ⟨m', (reach_write hi hv).trans hr⟩
  | .alloc cs k, o, h, ⟨n, hb⟩ => by
    obtain ⟨h1, h2⟩ := unused_view (hb n (Nat.le_refl n))
    obtain ⟨m', hr⟩ := reach_fails hi (k n) (o.extend n cs) (h n h1 h2) ⟨_, by rw [view_extend o cs h2]; exact below_extend hb cs⟩
    rw [view_extend o cs h2] at hr
    exact ⟨m', (reach_alloc hi (hb n (Nat.le_refl n))).trans hr⟩

end

/-! ## `Segment` with a trie that is ahead of the table -/

/-- A word the trie knows and the table does not yet: looking it up is out of range. -/
theorem lookup_ahead {d : Dictionary F D} {key : Bytes} (hv : d.trie.value key = some d.tokens.length) (cap : Nat) (rest : List Bytes) :
    ∀ (ws : List Bytes) (id : Bytes) (acc : List Nat), id ++ ws.flatten = key → ws ≠ [] → d.lookupLoop cap (ws ++ rest) id acc = none
  | [], _, _, _, h => absurd rfl h
  | w :: ws, id, acc, hk, _ => by
    have hn : d.trie.isNode (id ++ w) = true := Trie.isNode_prefix (Trie.isNode_of_value hv) ⟨ws.flatten, by simpa using hk⟩
    simp only [List.cons_append, Dictionary.lookupLoop, Trie.jump, hn, if_true]
    cases ws with
    | nil =>
      have : id ++ w = key := by simpa using hk
      rw [this, hv]
      simp
    | cons w' ws =>
      have ih := fun acc => lookup_ahead hv cap rest (w' :: ws) (id ++ w) acc (by simpa using hk) (by simp)
      cases d.trie.value (id ++ w) with
      | none => exact ih _
      | some v =>
        simp only
        split
        · exact ih _
        · rfl

section
variable {sh : Mem F D} {cfg : SplitCfg} {d : Dictionary F D} {a b cap j : Nat} {text : List Bytes} {js : List (Jumper D)}

theorem fails_lookup (hS : HoldsTable sh cfg (some d)) :
    ∀ (k i : Nat) (id : Bytes) (acc : List Nat) (o : Mem F D), i + k ≤ text.length → d.lookupLoop cap ((text.drop i).take k) id acc = none →
      LoopInv sh a b cap j text js o → fails sh (lookupP a b cap k i id acc.length) o := by
  intro k
  induction k with
  | zero =>
    intro i id acc o _ hl _
    simp [Dictionary.lookupLoop] at hl
  | succ k ih =>
    intro i id acc o hik hl hI
    obtain ⟨w, hw, he⟩ := drop_take_cons hik
    rw [he] at hl
    obtain ⟨s, hs, hsw⟩ := hI.words i w hw
    unfold lookupP
    refine fails_wp (wp_read hs (wp_ret ?_))
    refine fails_wp (wp_rdSlice hsw ?_)
    refine fails_wp (wp_read (view_shared hI.apart (hS.trie d rfl)) (wp_ret ?_))
    unfold Dictionary.lookupLoop at hl
    cases hj : d.trie.jump w id with
    | none => rw [hj] at hl; cases hl
    | some id' =>
      rw [hj] at hl
      simp only at hl ⊢
      refine fails_wp (wp_read (view_shared hI.apart (hS.trie d rfl)) (wp_ret ?_))
      cases hv : d.trie.value id' with
      | none =>
        rw [hv] at hl
        exact ih (i + 1) id' acc o (by omega) hl hI
      | some v =>
        rw [hv] at hl
        simp only at hl ⊢
        refine fails_wp (wp_read (view_shared hI.apart (hS.tokHdr d rfl)) (wp_ret ?_))
        split at hl
        · next hc =>
          rw [if_pos hc]
          obtain ⟨r0, h0⟩ := hI.buf acc.length hc.1
          refine fails_wp (wp_wr (by rw [h0]; rfl) ?_)
          have := ih (i + 1) id' (acc ++ [v]) _ (by omega) hl (hI.putRef hc.1 (some (.idx v)))
          simpa using this
        · next hc => rw [if_neg hc]; trivial

variable [F64 F] [F32 D]

omit [F64 F] in
theorem fails_segmentWords (hS : HoldsSegmenter sh cfg (some d)) {r : Slice} {o : Mem F D} (ha : Apart sh o) (hlen : r.len = text.length) (hne : text ≠ [])
    (hw : WordsAt (view sh o) r.arr text) (h : d.lookupLoop d.maxTokenLen (text.take (min d.maxTokenLen text.length)) [] [] = none) :
    fails sh (segmentWordsP r false) o := by
  unfold segmentWordsP
  rw [hlen]
  simp only [Bool.false_and, Bool.false_eq_true, if_false]
  refine fails_wp (wp_make fun j hoj hsj => ?_)
  have ha1 := ha.extend (List.replicate text.length (Cell.jumper ⟨F32.zero, none⟩)) hsj
  refine fails_wp (wp_read (view_shared ha1 hS.segDict) (wp_ret ?_))
  simp only [Option.isNone_some, Bool.false_eq_true, if_false]
  refine fails_wp (wp_read (view_shared ha1 (hS.maxLen d rfl)) (wp_ret ?_))
  refine fails_wp (wp_make fun b hob hsb => ?_)
  have ha2 := ha1.extend (List.replicate d.maxTokenLen (Cell.ref none)) hsb
  have hg1 := view_grows ha1 (grows_extend (List.replicate text.length (Cell.jumper ⟨F32.zero, none⟩)) hoj)
  have hg2 := view_grows ha2 (grows_extend (List.replicate d.maxTokenLen (Cell.ref none)) hob)
  refine fails_bind ?_
  obtain ⟨n, hn⟩ : ∃ n, text.length = n + 1 := ⟨text.length - 1, by have := List.length_pos_iff.mpr hne; omega⟩
  have hI : LoopInv sh r.arr b d.maxTokenLen j text (List.replicate text.length ⟨F32.zero, none⟩)
      ((o.extend j (List.replicate text.length (Cell.jumper ⟨F32.zero, none⟩))).extend b (List.replicate d.maxTokenLen (Cell.ref none))) := by
    refine ⟨ha2, ?_, ?_, ?_⟩
    · exact (hw.keep hg1.bytes fun l s hs => hg1 l _ hs).keep hg2.bytes fun l s hs => hg2 l _ hs
    · intro k hk
      exact ⟨none, by rw [extend_cell, List.getElem?_replicate, if_pos hk]⟩
    · intro k x hx
      rw [List.getElem?_replicate] at hx
      split at hx
      · next hk =>
        simp only [Option.some.injEq] at hx; subst hx
        refine ⟨none, ?_, trivial⟩
        apply grows_extend _ hob
        rw [extend_cell, List.getElem?_replicate, if_pos hk]
      · cases hx
  rw [show segLoopP (F := F) (D := D) r.arr b d.maxTokenLen j text.length false text.length 0 =
    segLoopP r.arr b d.maxTokenLen j text.length false (n + 1) 0 by rw [← hn]]
  refine fails_bind (p := segStepP r.arr b d.maxTokenLen j text.length false 0) ?_
  unfold segStepP
  refine fails_wp (wp_base hI (base := F32.zero) rfl ?_)
  refine fails_wp (wp_read (view_shared ha2 (hS.maxLen d rfl)) (wp_ret ?_))
  refine fails_bind (fails_lookup hS.toHoldsTable _ 0 [] [] _ (by omega) ?_ hI)
  simpa using h

omit [F64 F] in
theorem fails_segment [Unicode] (hS : HoldsSegmenter sh cfg (some d)) {r : Slice} {s : Bytes} (hr : HoldsBytes sh r s) (hs : s ≠ [])
    (hne : splitTextToWords cfg s ≠ [])
    (h : d.lookupLoop d.maxTokenLen ((splitTextToWords cfg s).take (min d.maxTokenLen (splitTextToWords cfg s).length)) [] [] = none) :
    fails sh (segmentP r false) noMem := by
  unfold segmentP
  rw [if_neg (by rw [← hr.1]; simpa using hs)]
  refine fails_wp (wp_mono ?_ _ _ (wp_split hS.flags hr (o := noMem) (fun _ _ _ => rfl)))
  rintro x o' ⟨h1, h2, h3⟩
  exact fails_segmentWords hS h1 h2 hne h3 h

end

end Gse
