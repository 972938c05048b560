import Verif.Model.CalcMem
import Verif.Spec.ConcCalc
import Verif.Proofs.AddMem
import Verif.Proofs.SegMemLoop

/-!
# `calcTokenP` computes what `CalcToken` computes
-/

namespace Gse

set_option linter.unusedSectionVars false

variable {F D α β : Type}

/-! ## General facts about `wp` -/

theorem wp_apart {sh : Mem F D} {Q : α → Mem F D → Prop} : ∀ (p : Prog F D α) (o : Mem F D), Apart sh o → wp sh p o Q →
    wp sh p o (fun a o' => Q a o' ∧ Apart sh o')
  | .ret _, _, ha, h => ⟨h, ha⟩
  | .panic, _, _, h => h
  | .read _ k, o, ha, ⟨c, hc, h⟩ => ⟨c, hc, wp_apart (k c) o ha h⟩
  | .write _ _ k, _, ha, ⟨hl, h⟩ => ⟨hl, wp_apart k _ (ha.put _ hl) h⟩
  | .alloc _ k, _, ha, h => fun a h1 h2 => wp_apart (k a) _ (ha.extend _ h2) (h a h1 h2)

/-- What is owned stays owned. -/
theorem wp_owned {sh : Mem F D} {Q : α → Mem F D → Prop} : ∀ (p : Prog F D α) (o : Mem F D), wp sh p o Q →
    wp sh p o (fun a o' => Q a o' ∧ ∀ l, (o l).isSome → (o' l).isSome)
  | .ret _, _, h => ⟨h, fun _ h => h⟩
  | .panic, _, h => h
  | .read _ k, o, ⟨c, hc, h⟩ => ⟨c, hc, wp_owned (k c) o h⟩
  | .write l c k, o, ⟨hl, h⟩ => ⟨hl, wp_mono (fun a o' ⟨h1, h2⟩ => ⟨h1, fun l' hl' => h2 l' (by
      by_cases e : l' = l
      · subst e; rw [put_same]; rfl
      · rw [put_other _ _ e]; exact hl')⟩) _ _ (wp_owned k _ h)⟩
  | .alloc cs k, o, h => fun a h1 h2 => wp_mono (fun b o' ⟨g1, g2⟩ => ⟨g1, fun l' hl' => g2 l' (by
      obtain ⟨x, hx⟩ := Option.isSome_iff_exists.mp hl'
      rw [extend_unused cs h1 hx]; rfl)⟩) _ _ (wp_owned (k a) _ (h a h1 h2))

theorem view_view (sh d o : Mem F D) : view (view sh d) o = view sh (view d o) := by
  funext l; simp [view, Option.or_assoc]

theorem unused_view_iff {sh o : Mem F D} {a : Nat} : (view sh o).Unused a ↔ o.Unused a ∧ sh.Unused a :=
  ⟨unused_view, fun ⟨h1, h2⟩ i => by simp [view, h1 i, h2 i]⟩

/-- A program that leaves part of its own memory alone. -/
theorem wp_front {sh d : Mem F D} {Q : α → Mem F D → Prop} : ∀ (p : Prog F D α) (o : Mem F D), wp (view sh d) p o Q →
    wp sh p (view d o) (fun a m => ∃ o', m = view d o' ∧ Q a o')
  | .ret _, o, h => ⟨o, rfl, h⟩
  | .panic, _, h => h
  | .read _ k, o, ⟨c, hc, h⟩ => ⟨c, by rw [← view_view]; exact hc, wp_front (k c) o h⟩
  | .write l c k, o, ⟨hl, h⟩ => by
    refine ⟨?_, ?_⟩
    · obtain ⟨x, hx⟩ := Option.isSome_iff_exists.mp hl
      rw [view_own hx]; rfl
    · rw [← view_put]; exact wp_front k _ h
  | .alloc cs k, o, h => by
    intro a ha hs
    obtain ⟨h1, h2⟩ := unused_view ha
    rw [← view_extend o cs h2]
    exact wp_front (k a) _ (h a h1 (unused_view_iff.mpr ⟨h2, hs⟩))

theorem view_none (m : Mem F D) : view m noMem = m := by funext l; simp [view, noMem]

/-- A part that only allocates, and writes what it has allocated: all that was there stays. -/
theorem wp_fresh {sh o : Mem F D} {p : Prog F D α} {f : α → Prog F D β} {Q : α → Mem F D → Prop} {R : β → Mem F D → Prop}
    (hp : wp (view sh o) p noMem Q)
    (hf : ∀ a x, Q a x → Apart (view sh o) x → wp sh (f a) (view o x) R) : wp sh (p >>= f) o R := by
  have h := wp_front p noMem (wp_apart p noMem (fun _ _ _ => rfl) hp)
  rw [view_none] at h
  refine wp_bind (wp_mono ?_ _ _ h)
  rintro a _ ⟨x, rfl, hq, ha⟩
  exact hf a x hq ha

theorem grows_fresh {sh o x : Mem F D} (ha : Apart (view sh o) x) : Grows (view sh o) (view sh (view o x)) := by
  rw [← view_view]
  exact fun l y h => view_shared ha h

theorem grows_own {sh o x : Mem F D} (ha : Apart (view sh o) x) : Grows o (view o x) := by
  intro l y h
  have : x l = none := ha l y (view_own h)
  simp [view, this, h]

/-- A part that only reads. -/
theorem wp_reads {sh o : Mem F D} {p : Prog F D α} {f : α → Prog F D β} {a : α} {R : β → Mem F D → Prop}
    (hp : wp sh p o (fun b o' => b = a ∧ o' = o)) (hf : wp sh (f a) o R) : wp sh (p >>= f) o R := by
  refine wp_bind (wp_mono ?_ _ _ hp)
  rintro _ _ ⟨rfl, rfl⟩
  exact hf

/-- All writes of the program are to such locations. -/
def Writes (P : Loc → Prop) : Prog F D α → Prop
  | .ret _ => True
  | .panic => True
  | .read _ k => ∀ c, Writes P (k c)
  | .write l _ k => P l ∧ Writes P k
  | .alloc _ _ => False

theorem writes_bind {P : Loc → Prop} {f : α → Prog F D β} : ∀ (p : Prog F D α), Writes P p → (∀ a, Writes P (f a)) → Writes P (p.bind f)
  | .ret a, _, h => h a
  | .panic, _, _ => trivial
  | .read _ k, hp, h => fun c => writes_bind (k c) (hp c) h
  | .write _ _ k, hp, h => ⟨hp.1, writes_bind k hp.2 h⟩

/-- A program that writes only what is not shared. -/
theorem wp_unmerge {sh : Mem F D} {P : Loc → Prop} (hP : ∀ l, P l → sh l = none) {Q : α → Mem F D → Prop} :
    ∀ (p : Prog F D α) (o : Mem F D), Writes P p → wp noMem p (view sh o) Q → wp sh p o (fun a o' => Q a (view sh o'))
  | .ret _, _, _, h => h
  | .panic, _, _, h => h
  | .read _ k, o, hw, ⟨c, hc, h⟩ => ⟨c, by rw [view_noMem] at hc; exact hc, wp_unmerge hP (k c) o (hw c) h⟩
  | .write l c k, o, hw, ⟨hl, h⟩ => by
    refine ⟨?_, ?_⟩
    · simpa [view, hP l hw.1] using hl
    · rw [← view_put] at h; exact wp_unmerge hP k _ hw.2 h

variable [F64 F] [F32 D]

theorem writes_dictAdd {P : Loc → Prop} (h : P .trie ∧ P .tokHdr ∧ P .totalFreq ∧ P .maxLen ∧ ∀ i, P (.tok i) ∧ P (.dist i) ∧ P (.subs i)) (token : Token F D) :
    Writes P (dictAddP token) := by
  obtain ⟨h1, h2, h3, h4, h5⟩ := h
  have rn : ∀ l, Writes P (Prog.rdNat (F := F) (D := D) l) := by intro l c; cases c <;> trivial
  have rt : Writes P (Prog.rdTrie (F := F) (D := D)) := by intro c; cases c <;> trivial
  have rf : ∀ l, Writes P (Prog.rdFreq (F := F) (D := D) l) := by intro l c; cases c <;> trivial
  have wr : ∀ l c, P l → Writes P (Prog.put (F := F) (D := D) l c) := fun l c h => ⟨h, trivial⟩
  unfold dictAddP
  refine writes_bind _ rt fun t => ?_
  split
  · trivial
  · unfold insertP
    refine writes_bind _ (rn _) fun n => writes_bind _ rt fun t => ?_
    split
    · trivial
    · refine writes_bind _ (wr _ _ h1) fun _ => writes_bind _ (rn _) fun n => writes_bind _ (wr _ _ (h5 n).1) fun _ => writes_bind _ (wr _ _ (h5 n).2.1) fun _ =>
        writes_bind _ (wr _ _ (h5 n).2.2) fun _ => writes_bind _ (wr _ _ h2) fun _ => writes_bind _ (rf _) fun f => writes_bind _ (wr _ _ h3) fun _ => writes_bind _ (rn _) fun m => ?_
      split
      · exact writes_bind _ (wr _ _ h4) fun _ => trivial
      · trivial

/-! ## The distances -/

variable [Narrow F D] {cfg : SplitCfg} {d : Dictionary F D}

/-- Only distances have changed. -/
def SameButDist (o o' : Mem F D) : Prop := ∀ l, (∀ i, l ≠ .dist i) → o' l = o l

theorem wp_distLoop {sh : Mem F D} (lt : D) : ∀ (k i : Nat) (o : Mem F D), i + k = d.tokens.length → HoldsTable (view sh o) cfg (some d) →
    (∀ j, j < d.tokens.length → (o (.dist j)).isSome) →
    (∀ j t, j < i → d.tokens[j]? = some t → o (.dist j) = some (.dist (F32.sub lt (Narrow.narrow (F64.log2 t.freq))))) →
    wp sh (distLoopP lt k i) o (fun _ o' => SameButDist o o' ∧ (∀ j, j < d.tokens.length → (o' (.dist j)).isSome) ∧
      ∀ j t, d.tokens[j]? = some t → o' (.dist j) = some (.dist (F32.sub lt (Narrow.narrow (F64.log2 t.freq))))) := by
  intro k
  induction k with
  | zero =>
    intro i o hi _ hown hdone
    refine ⟨fun _ _ => rfl, hown, fun j t ht => hdone j t ?_ ht⟩
    have := (List.getElem?_eq_some_iff.mp ht).1
    omega
  | succ k ih =>
    intro i o hi hT hown hdone
    have hlt : i < d.tokens.length := by omega
    unfold distLoopP
    refine wp_bind (wp_read (hT.tokHdr d rfl) (wp_ret ?_))
    rw [if_pos hlt]
    have ht := List.getElem?_eq_getElem hlt
    refine wp_bind (wp_read (hT.tok d rfl i _ ht) (wp_ret ?_))
    refine wp_bind (wp_put (hown i hlt) ?_)
    have hv : ∀ l, (∀ j, l ≠ .dist j) → view sh (o.put (.dist i) (.dist (F32.sub lt (Narrow.narrow (F64.log2 d.tokens[i].freq))))) l = view sh o l :=
      fun l hl => view_put_other _ (hl i)
    refine wp_mono ?_ _ _ (ih (i + 1) _ (by omega) ⟨?_, ?_, ?_, ?_, ?_, ?_⟩ ?_ ?_)
    · rintro _ o' ⟨h1, h2, h3⟩
      exact ⟨fun l hl => (h1 l hl).trans (put_other _ _ (hl i)), h2, h3⟩
    · rw [hv _ (by simp)]; exact hT.flags
    · rw [hv _ (by simp)]; exact hT.segDict
    · intro d' hd'; rw [hv _ (by simp)]; exact hT.maxLen d' hd'
    · intro d' hd'; rw [hv _ (by simp)]; exact hT.trie d' hd'
    · intro d' hd'; rw [hv _ (by simp)]; exact hT.tokHdr d' hd'
    · intro d' hd' j t htj; rw [hv _ (by simp)]; exact hT.tok d' hd' j t htj
    · intro j hj
      by_cases e : j = i
      · subst e; rw [put_same]; rfl
      · rw [put_other _ _ (by intro h; cases h; exact e rfl)]; exact hown j hj
    · intro j t hj htj
      by_cases e : j = i
      · subst e; rw [ht] at htj; cases htj; exact put_same _ _ _
      · rw [put_other _ _ (by intro h; cases h; exact e rfl)]; exact hdone j t (by omega) htj

theorem wp_distances {sh o : Mem F D} (hT : HoldsTable (view sh o) cfg (some d)) (hf : view sh o .totalFreq = some (.freq d.totalFreq))
    (hown : ∀ j, j < d.tokens.length → (o (.dist j)).isSome) :
    wp sh distancesP o (fun _ o' => SameButDist o o' ∧ (∀ j, j < d.tokens.length → (o' (.dist j)).isSome) ∧ HoldsSegmenter (view sh o') cfg (some (withDistances d))) := by
  unfold distancesP
  refine wp_bind (wp_read hT.segDict (wp_ret ?_))
  simp only [Option.isNone_some, Bool.false_eq_true, if_false]
  refine wp_bind (wp_read hf (wp_ret ?_))
  refine wp_bind (wp_read (hT.tokHdr d rfl) (wp_ret ?_))
  refine wp_mono ?_ _ _ (wp_distLoop (d := d) _ d.tokens.length 0 o (by omega) hT hown (fun j t h => by omega))
  rintro _ o' ⟨h1, h2, h3⟩
  have hv : ∀ l, (∀ j, l ≠ .dist j) → view sh o' l = view sh o l := fun l hl => by simp only [view, h1 l hl]
  refine ⟨h1, h2, ⟨?_, ?_, ?_, ?_, ?_, ?_⟩, ?_⟩
  · rw [hv _ (by simp)]; exact hT.flags
  · rw [hv _ (by simp)]; exact hT.segDict
  · rintro _ ⟨⟩; rw [hv _ (by simp)]; exact hT.maxLen d rfl
  · rintro _ ⟨⟩; rw [hv _ (by simp)]; exact hT.trie d rfl
  · rintro _ ⟨⟩; rw [hv _ (by simp), hT.tokHdr d rfl]; simp [withDistances]
  · rintro _ ⟨⟩ i t ht
    rw [hv _ (by simp)]
    simp only [withDistances, List.getElem?_map, Option.map_eq_some_iff] at ht
    obtain ⟨t0, ht0, rfl⟩ := ht
    exact hT.tok d rfl i t0 ht0
  · rintro _ ⟨⟩ i t ht
    simp only [withDistances, List.getElem?_map, Option.map_eq_some_iff] at ht
    obtain ⟨t0, ht0, rfl⟩ := ht
    exact view_own (h3 i t0 ht0)

/-! ## The sub-segments -/

section
variable {sh o : Mem F D}

theorem wp_words : ∀ (ws : List Bytes) (o : Mem F D), Apart sh o →
    wp sh (wordsP ws) o (fun ss o' => Apart sh o' ∧ Grows o o' ∧ List.Forall₂ (fun s w => HoldsBytes (view sh o') s w) ss ws)
  | [], o, ha => ⟨ha, Grows.refl o, .nil⟩
  | w :: ws, o, ha => by
    refine wp_bind (wp_make fun a ho hs => ?_)
    have ha1 := ha.extend (w.map Cell.byte) hs
    refine wp_bind (wp_mono ?_ _ _ (wp_words ws _ ha1))
    rintro ss o' ⟨h1, h2, h3⟩
    refine ⟨h1, (grows_extend _ ho).trans h2, .cons ⟨rfl, fun k b hb => ?_⟩ h3⟩
    refine view_own (h2 _ _ ?_)
    simp only [Nat.zero_add]
    rw [extend_cell]; simp [hb]

theorem wp_text (ws : List Bytes) (ha : Apart sh o) : wp sh (textP ws) o (fun r o' => Apart sh o' ∧ r.len = ws.length ∧ WordsAt (view sh o') r.arr ws) := by
  refine wp_bind (wp_mono ?_ _ _ (wp_words ws o ha))
  rintro ss o' ⟨h1, _, h3⟩
  refine wp_bind (wp_make fun a ho hs => ?_)
  have h1' := h1.extend (ss.map Cell.word) hs
  refine ⟨h1', h3.length_eq, fun k w hk => ?_⟩
  obtain ⟨x, hx, hw⟩ := forall2_get h3 k w hk
  refine ⟨x, view_own ?_, hw.keep (view_grows h1' (grows_extend _ ho)).bytes⟩
  rw [extend_cell]; simp [hx]

variable [Unicode]

theorem wp_keepSub (hT : HoldsTable (view sh o) cfg (some d)) {a i : Nat} {s : Seg} {p : MRef}
    (hs : view sh o (.cell a i) = some (.seg ⟨s.start, s.stop, some p⟩)) (hp : RefIs (view sh o) p s.tok) {b : Bool} (h : keepSub d s = some b) :
    wp sh (keepSubP a i) o (fun b' o' => b' = b ∧ o' = o) := by
  unfold keepSub at h
  obtain ⟨t, ht, h⟩ := Option.bind_eq_some_iff.mp h
  unfold keepSubP
  refine wp_bind (wp_read hs (wp_ret ?_))
  have fin : (match t.text with | [] => false | [w] => !isJp w | _ => true) = b := by
    split at h <;> simp_all
  refine wp_reads (a := t.text) ?_ ⟨fin, rfl⟩
  cases hst : s.tok with
  | idx v =>
    rw [hst] at hp ht
    cases hp
    exact wp_bind (wp_read (hT.tok d rfl v t ht) ⟨rfl, rfl⟩)
  | pseudo w =>
    rw [hst] at hp ht
    cases hp with
    | pseudo s' _ hw =>
      simp only [Dictionary.deref, Option.some.injEq] at ht
      subst ht
      exact wp_bind (wp_rdSlice hw ⟨rfl, rfl⟩)

/-- The array `a` holds these segments from index `i` on. -/
def SegsAt (m : Mem F D) (a i : Nat) (ss : List Seg) : Prop :=
  ∀ k s, ss[k]? = some s → ∃ p, m (.cell a (i + k)) = some (.seg ⟨s.start, s.stop, some p⟩) ∧ RefIs m p s.tok

theorem SegsAt.tail {m : Mem F D} {a i : Nat} {s : Seg} {ss : List Seg} (h : SegsAt m a i (s :: ss)) : SegsAt m a (i + 1) ss := by
  intro k x hx
  have := h (k + 1) x (by simpa using hx)
  rwa [show i + (k + 1) = i + 1 + k by omega] at this

theorem wp_countSubs (hT : HoldsTable (view sh o) cfg (some d)) {a : Nat} : ∀ (ss kept : List Seg) (i num : Nat), filterOpt (keepSub d) ss = some kept →
    SegsAt (view sh o) a i ss → wp sh (countSubsP a ss.length i num) o (fun n o' => n = num + kept.length ∧ o' = o)
  | [], kept, i, num, h, _ => by
    simp only [filterOpt, Option.some.injEq] at h
    subst h; exact ⟨rfl, rfl⟩
  | s :: ss, kept, i, num, h, hs => by
    unfold filterOpt at h
    obtain ⟨b, h1, h⟩ := Option.bind_eq_some_iff.mp h
    obtain ⟨r, h2, h⟩ := Option.bind_eq_some_iff.mp h
    obtain ⟨p, hp, hr⟩ := hs 0 s rfl
    refine wp_reads (wp_keepSub hT hp hr h1) ?_
    refine wp_mono ?_ _ _ (wp_countSubs hT ss r (i + 1) _ h2 hs.tail)
    rintro n _ ⟨rfl, rfl⟩
    refine ⟨?_, rfl⟩
    simp only [Option.some.injEq] at h; subst h
    cases b
    · simp
    · simp; omega

/-- Only the array `q` has changed. -/
def SameButArr (q : Nat) (o o' : Mem F D) : Prop := ∀ l, (∀ j, l ≠ .cell q j) → o' l = o l

theorem wp_fillSubs {m0 : Mem F D} {t a q n : Nat} (hT : HoldsTable m0 cfg (some d)) (hsub : m0 (.subs t) = some (.subs ⟨q, 0, n⟩)) (hq : ∀ j, ∀ x, m0 (.cell q j) = some x → ∃ y, x = .segPtr y) :
    ∀ (ss kept : List Seg) (i j : Nat) (o : Mem F D), filterOpt (keepSub d) ss = some kept → SegsAt m0 a i ss → j + kept.length ≤ n → 
    (∀ l, (∀ j, l ≠ .cell q j) → view sh o l = m0 l) → (∀ k, k < n → (o (.cell q k)).isSome) →
    wp sh (fillSubsP t a ss.length i j) o (fun _ o' => SameButArr q o o' ∧ (∀ k, k < j → o' (.cell q k) = o (.cell q k)) ∧
      ∀ k s, kept[k]? = some s → ∃ b p, o' (.cell q (j + k)) = some (.segPtr (some (a, b))) ∧ m0 (.cell a b) = some (.seg ⟨s.start, s.stop, some p⟩) ∧ RefIs m0 p s.tok)
  | [], kept, i, j, o, h, _, _, _, _ => by
    simp only [filterOpt, Option.some.injEq] at h
    subst h
    exact ⟨fun _ _ => rfl, fun _ _ => rfl, fun k s hs => by simp at hs⟩
  | s :: ss, kept, i, j, o, h, hs, hlen, hv, hown => by
    unfold filterOpt at h
    obtain ⟨b, h1, h⟩ := Option.bind_eq_some_iff.mp h
    obtain ⟨r, h2, h⟩ := Option.bind_eq_some_iff.mp h
    simp only [Option.some.injEq] at h
    obtain ⟨p, hp, hr⟩ := hs 0 s rfl
    rw [Nat.add_zero] at hp
    -- what is not in the array `q` is as in `m0`
    have hT' : HoldsTable (view sh o) cfg (some d) :=
      ⟨by rw [hv _ (by simp)]; exact hT.flags, by rw [hv _ (by simp)]; exact hT.segDict, fun d' e => by rw [hv _ (by simp)]; exact hT.maxLen d' e,
        fun d' e => by rw [hv _ (by simp)]; exact hT.trie d' e, fun d' e => by rw [hv _ (by simp)]; exact hT.tokHdr d' e,
        fun d' e i t ht => by rw [hv _ (by simp)]; exact hT.tok d' e i t ht⟩
    have hcell : ∀ l x, m0 l = some x → (∀ y, x ≠ .segPtr y) → view sh o l = some x := by
      intro l x hx hne
      rw [hv l ?_]; · exact hx
      rintro k rfl
      obtain ⟨y, rfl⟩ := hq k x hx
      exact hne y rfl
    have hp' := hcell _ _ hp (by simp)
    have hr' : RefIs (view sh o) p s.tok := hr.keep fun l b hb => hcell _ _ hb (by simp)
    unfold fillSubsP
    refine wp_reads (wp_keepSub hT' hp' hr' h1) ?_
    cases b with
    | false =>
      simp only [Bool.false_eq_true, if_false] at h ⊢
      subst h
      exact wp_fillSubs hT hsub hq ss r (i + 1) j o h2 hs.tail hlen hv hown
    | true =>
      simp only [if_true] at h ⊢
      subst h
      simp only [List.length_cons] at hlen
      refine wp_bind (wp_read (by rw [hv _ (by simp)]; exact hsub) (wp_ret ?_))
      simp only
      rw [if_pos (by omega), Nat.zero_add]
      refine wp_bind (wp_wr (hown j (by omega)) ?_)
      refine wp_mono ?_ _ _ (wp_fillSubs hT hsub hq ss r (i + 1) (j + 1) _ h2 hs.tail (by omega) ?_ ?_)
      · rintro _ o' ⟨g1, g2, g3⟩
        refine ⟨fun l hl => (g1 l hl).trans (put_other _ _ (hl j)), ?_, ?_⟩
        · intro k hk
          rw [g2 k (by omega), put_other _ _ (by intro e; cases e; omega)]
        · intro k x hx
          cases k with
          | zero =>
            simp only [List.getElem?_cons_zero, Option.some.injEq] at hx
            subst hx
            exact ⟨i, p, by rw [Nat.add_zero, g2 j (by omega)]; exact put_same _ _ _, hp, hr⟩
          | succ k =>
            obtain ⟨b, p', x1, x2⟩ := g3 k x (by simpa using hx)
            exact ⟨b, p', by rw [show j + (k + 1) = j + 1 + k by omega]; exact x1, x2⟩
      · intro l hl
        rw [view_put_other _ (hl j)]; exact hv l hl
      · intro k hk
        by_cases e : k = j
        · subst e; rw [put_same]; rfl
        · rw [put_other _ _ (by intro e'; cases e'; exact e rfl)]; exact hown k hk

end

/-- All that was there is there, except for the sub-segments of token `i`. -/
def KeptBut (i : Nat) (m m' : Mem F D) : Prop := ∀ l x, m l = some x → l ≠ .subs i → m' l = some x

theorem RefIs.cells {m m' : Mem F D} (h : ∀ a i b, m (.cell a i) = some (.byte b) → m' (.cell a i) = some (.byte b)) {p : MRef} {r : TokRef} (hw : RefIs m p r) : RefIs m' p r := by
  cases hw with
  | idx i => exact .idx i
  | pseudo s w hw => exact .pseudo s w ⟨hw.1, fun k b hb => h _ _ _ (hw.2 k b hb)⟩

theorem HoldsPtrs.keep {m m' : Mem F D} (h : ∀ a i x, m (.cell a i) = some x → m' (.cell a i) = some x) {r : Slice} {segs : List Seg} (hp : HoldsPtrs m r segs) :
    HoldsPtrs m' r segs := by
  refine ⟨hp.1, fun k s hs => ?_⟩
  obtain ⟨a, i, p, h1, h2, h3⟩ := hp.2 k s hs
  exact ⟨a, i, p, h _ _ _ h1, h _ _ _ h2, h3.cells fun a i b hb => h _ _ _ hb⟩

theorem HoldsSegmenter.keptBut {m m' : Mem F D} {dict : Option (Dictionary F D)} {i : Nat} (h : HoldsSegmenter m cfg dict) (hk : KeptBut i m m') : HoldsSegmenter m' cfg dict :=
  ⟨⟨hk _ _ h.flags (by simp), hk _ _ h.segDict (by simp), fun d e => hk _ _ (h.maxLen d e) (by simp), fun d e => hk _ _ (h.trie d e) (by simp),
    fun d e => hk _ _ (h.tokHdr d e) (by simp), fun d e i t ht => hk _ _ (h.tok d e i t ht) (by simp)⟩, fun d e i t ht => hk _ _ (h.dist d e i t ht) (by simp)⟩

theorem wp_subsStep [Unicode] {sh o : Mem F D} (hS : HoldsSegmenter (view sh o) cfg (some d)) {i : Nat} {t : Token F D} (ht : d.tokens[i]? = some t)
    (hown : (o (.subs i)).isSome) {segs kept : List Seg} (h1 : segmentWords (some d) t.text true = some segs) (h2 : filterOpt (keepSub d) segs = some kept) :
    wp sh (subsStepP i) o (fun _ o' => KeptBut i (view sh o) (view sh o') ∧ ∃ r, view sh o' (.subs i) = some (.subs r) ∧ HoldsPtrs (view sh o') r kept) := by
  have hlt := (List.getElem?_eq_some_iff.mp ht).1
  unfold subsStepP
  refine wp_bind (wp_read (hS.tokHdr d rfl) (wp_ret ?_))
  rw [if_pos hlt]
  refine wp_bind (wp_read (hS.tok d rfl i t ht) (wp_ret ?_))
  refine wp_fresh (wp_text t.text fun _ _ _ => rfl) ?_
  rintro r x1 ⟨_, hlen, hw⟩ ha1
  have g1 := grows_fresh ha1
  rw [view_view] at hw
  have own1 := grows_own ha1
  generalize view o x1 = o1 at hw g1 own1
  refine wp_fresh (Q := fun x o' => HoldsSegs (view (view sh o1) o') x segs) (wp_segmentWords (hS.grow g1) (fun _ _ _ => rfl) hlen (by show WordsAt (view (view sh o1) noMem) _ _; rw [view_none]; exact hw) h1) ?_
  intro r2 x2 hsegs ha2
  have g2 := g1.trans (grows_fresh ha2)
  rw [view_view] at hsegs
  have own2 := own1.trans (grows_own ha2)
  generalize view o1 x2 = o2 at hsegs g2 own2
  have hS2 := hS.grow g2
  have hat : SegsAt (view sh o2) r2.arr r2.off segs := hsegs.2
  rw [hsegs.1]
  refine wp_reads (wp_countSubs hS2.toHoldsTable segs kept r2.off 0 h2 hat) ?_
  rw [Nat.zero_add]
  refine wp_bind (wp_make fun q hq hs => ?_)
  have hqv : (view sh o2).Unused q := unused_view_iff.mpr ⟨hq, hs⟩
  have hne : ∀ {l x}, view sh o2 l = some x → ∀ j, l ≠ .cell q j := by
    rintro l x hx j rfl; rw [hqv j] at hx; cases hx
  have hown2 : (o2 (.subs i)).isSome := by
    obtain ⟨y, hy⟩ := Option.isSome_iff_exists.mp hown
    rw [own2 _ _ hy]; rfl
  refine wp_bind (wp_put (by rw [extend_other _ _ (by simp)]; exact hown2) ?_)
  generalize ho4 : (o2.extend q (List.replicate kept.length (Cell.segPtr none))).put (.subs i) (.subs ⟨q, 0, kept.length⟩) = o4
  have hcell : ∀ j, o4 (.cell q j) = (List.replicate kept.length (Cell.segPtr none))[j]? := by
    intro j; rw [← ho4, put_other _ _ (by simp), extend_cell]
  have hq4 : ∀ j x, view sh o4 (.cell q j) = some x → ∃ y, x = .segPtr y := by
    intro j x hx
    simp only [view, hcell, hs j, List.getElem?_replicate] at hx
    split at hx
    · exact ⟨none, by simpa using hx.symm⟩
    · cases hx
  have hrest : ∀ l, l ≠ .subs i → (∀ j, l ≠ .cell q j) → o4 l = o2 l := by
    intro l h1 h2; rw [← ho4, put_other _ _ h1, extend_other _ _ h2]
  have hk4 : KeptBut i (view sh o2) (view sh o4) := by
    intro l x hx hl
    have : o4 l = o2 l := hrest l hl (hne hx)
    simp only [view, this]; exact hx
  have hsub4 : o4 (.subs i) = some (.subs ⟨q, 0, kept.length⟩) := by rw [← ho4]; exact put_same _ _ _
  have hat4 : SegsAt (view sh o4) r2.arr r2.off segs := by
    intro k s hk
    obtain ⟨p, p1, p2⟩ := hat k s hk
    exact ⟨p, hk4 _ _ p1 (by simp), p2.cells fun a j b hb => hk4 _ _ hb (by simp)⟩
  refine wp_mono ?_ _ _ (wp_fillSubs (m0 := view sh o4) (hS2.keptBut hk4).toHoldsTable (view_own hsub4) ?_ segs kept r2.off 0 o4 h2 hat4 (by omega) (fun _ _ => rfl) ?_)
  · rintro _ o5 ⟨f1, _, f3⟩
    have h45 : KeptBut i (view sh o2) (view sh o5) := by
      intro l x hx hl
      have h4 := hk4 l x hx hl
      have : o5 l = o4 l := f1 l (hne hx)
      simp only [view, this]; exact h4
    refine ⟨fun l x hx hl => h45 l x (g2 l x hx) hl, ⟨q, 0, kept.length⟩, view_own (by rw [f1 _ (by simp)]; exact hsub4), rfl, fun k s hk => ?_⟩
    obtain ⟨b, p, p1, p2, p3⟩ := f3 k s hk
    have keep : ∀ a j x, view sh o4 (.cell a j) = some x → (∀ y, x ≠ .segPtr y) → view sh o5 (.cell a j) = some x := by
      intro a j x hx hno
      have : o5 (.cell a j) = o4 (.cell a j) := f1 _ (by
        rintro j' e; cases e
        obtain ⟨y, rfl⟩ := hq4 _ x hx
        exact hno y rfl)
      simp only [view, this]; exact hx
    exact ⟨r2.arr, b, p, view_own (by simpa using p1), keep _ _ _ p2 (by simp), p3.cells fun a j y hy => keep _ _ _ hy (by simp)⟩
  · exact hq4
  · intro k hk
    rw [hcell, List.getElem?_replicate, if_pos hk]; rfl

omit [F64 F] [F32 D] [Narrow F D] in
theorem mapOpt_at {γ δ : Type} {f : γ → Option δ} : ∀ {l : List γ} {r : List δ}, mapOpt f l = some r →
    r.length = l.length ∧ ∀ (i : Nat) a, l[i]? = some a → ∃ b, f a = some b ∧ r[i]? = some b
  | [], r, h => by
    simp only [mapOpt, Option.some.injEq] at h
    subst h; exact ⟨rfl, fun i a h => by simp at h⟩
  | a :: l, r, h => by
    unfold mapOpt at h
    obtain ⟨b, h1, h⟩ := Option.bind_eq_some_iff.mp h
    obtain ⟨r', h2, h⟩ := Option.bind_eq_some_iff.mp h
    simp only [Option.some.injEq] at h
    subst h
    obtain ⟨g1, g2⟩ := mapOpt_at h2
    refine ⟨by simp [g1], fun i x hx => ?_⟩
    cases i with
    | zero => simp only [List.getElem?_cons_zero, Option.some.injEq] at hx; subst hx; exact ⟨b, h1, rfl⟩
    | succ i => exact g2 i x (by simpa using hx)

/-- All that was there is there, except for sub-segments. -/
def KeptButSubs (m m' : Mem F D) : Prop := ∀ l x, m l = some x → (∀ i, l ≠ .subs i) → m' l = some x

/-- The sub-segments that `CalcToken` gives a token. -/
def subsOf [Unicode] (d : Dictionary F D) (t : Token F D) : Option (List Seg) := (segmentWords (some d) t.text true).bind (filterOpt (keepSub d))

theorem wp_subsLoop [Unicode] {sh : Mem F D} : ∀ (k i : Nat) (o : Mem F D), i + k = d.tokens.length → HoldsSegmenter (view sh o) cfg (some d) →
    (∀ j, j < d.tokens.length → (o (.subs j)).isSome) → (∀ t ∈ d.tokens, subsOf d t ≠ none) →
    (∀ j t, j < i → d.tokens[j]? = some t → ∃ r kept, subsOf d t = some kept ∧ view sh o (.subs j) = some (.subs r) ∧ HoldsPtrs (view sh o) r kept) →
    wp sh (subsLoopP k i) o (fun _ o' => KeptButSubs (view sh o) (view sh o') ∧
      ∀ j t, d.tokens[j]? = some t → ∃ r kept, subsOf d t = some kept ∧ view sh o' (.subs j) = some (.subs r) ∧ HoldsPtrs (view sh o') r kept) := by
  intro k
  induction k with
  | zero =>
    intro i o hi _ _ _ hdone
    refine ⟨fun l x hx _ => hx, fun j t ht => hdone j t ?_ ht⟩
    have := (List.getElem?_eq_some_iff.mp ht).1
    omega
  | succ k ih =>
    intro i o hi hS hown hall hdone
    have hlt : i < d.tokens.length := by omega
    have ht := List.getElem?_eq_getElem hlt
    obtain ⟨kept, hk⟩ := Option.ne_none_iff_exists'.mp (hall _ (List.getElem_mem hlt))
    obtain ⟨segs, h1, h2⟩ := Option.bind_eq_some_iff.mp hk
    unfold subsLoopP
    refine wp_bind (wp_mono ?_ _ _ (wp_owned _ _ (wp_subsStep hS ht (hown i hlt) h1 h2)))
    rintro _ o1 ⟨⟨g1, r, g2, g3⟩, g4⟩
    refine wp_mono ?_ _ _ (ih (i + 1) o1 (by omega) (hS.keptBut g1) (fun j hj => g4 _ (hown j hj)) hall ?_)
    · rintro _ o2 ⟨f1, f2⟩
      exact ⟨fun l x hx hl => f1 l x (g1 l x hx (hl i)) hl, f2⟩
    · intro j t hj htj
      by_cases e : j = i
      · subst e
        rw [ht] at htj; cases htj
        exact ⟨r, kept, hk, g2, g3⟩
      · obtain ⟨r', kept', e1, e2, e3⟩ := hdone j t (by omega) htj
        exact ⟨r', kept', e1, g1 _ _ e2 (by simpa using e), e3.keep fun a b x hx => g1 _ _ hx (by simp)⟩

/-- All that was there is there, except for distances and sub-segments. -/
def KeptButCalc (m m' : Mem F D) : Prop := ∀ l x, m l = some x → (∀ i, l ≠ .dist i) → (∀ i, l ≠ .subs i) → m' l = some x

theorem calcToken_subs [Unicode] {d d' : Dictionary F D} (h : calcToken d = some d') : (∀ t ∈ (withDistances d).tokens, subsOf (withDistances d) t ≠ none) ∧
    d'.trie = d.trie ∧ d'.maxTokenLen = d.maxTokenLen ∧ d'.totalFreq = d.totalFreq ∧ d'.tokens.length = d.tokens.length ∧
    ∀ (i : Nat) (t' : Token F D), d'.tokens[i]? = some t' → ∃ t, (withDistances d).tokens[i]? = some t ∧ t'.text = t.text ∧ t'.freq = t.freq ∧ t'.pos = t.pos ∧ t'.distance = t.distance ∧
      subsOf (withDistances d) t = some t'.segments := by
  unfold calcToken at h
  simp only at h
  obtain ⟨toks, h1, h⟩ := Option.bind_eq_some_iff.mp h
  simp only [Option.some.injEq] at h
  subst h
  obtain ⟨g1, g2⟩ := mapOpt_at h1
  have key : ∀ (i : Nat) t, (withDistances d).tokens[i]? = some t → ∃ kept, subsOf (withDistances d) t = some kept ∧ toks[i]? = some { t with segments := kept } := by
    intro i t ht
    obtain ⟨b, hb, hr⟩ := g2 i t ht
    obtain ⟨segs, e1, hb⟩ := Option.bind_eq_some_iff.mp hb
    obtain ⟨kept, e2, hb⟩ := Option.bind_eq_some_iff.mp hb
    simp only [Option.some.injEq] at hb
    subst hb
    exact ⟨kept, by simp [subsOf, e1, e2], hr⟩
  refine ⟨?_, rfl, rfl, rfl, by simp [g1, withDistances], ?_⟩
  · intro t ht
    obtain ⟨i, hi⟩ := List.mem_iff_getElem?.mp ht
    obtain ⟨kept, hk, _⟩ := key i t hi
    rw [hk]; simp
  · intro i t' ht'
    have hlt := (List.getElem?_eq_some_iff.mp ht').1
    simp only at hlt ht'
    rw [g1] at hlt
    have ht := List.getElem?_eq_getElem hlt
    obtain ⟨kept, hk, hr⟩ := key i _ ht
    rw [hr] at ht'; cases ht'
    exact ⟨_, ht, rfl, rfl, rfl, rfl, hk⟩

/-- `CalcToken` in own memory that has all distances and sub-segments. -/
theorem wp_calcToken [Unicode] {sh o : Mem F D} {d d' : Dictionary F D} (hT : HoldsTable (view sh o) cfg (some d)) (hf : view sh o .totalFreq = some (.freq d.totalFreq))
    (hown : ∀ j, j < d.tokens.length → (o (.dist j)).isSome ∧ (o (.subs j)).isSome) (h : calcToken d = some d') :
    wp sh calcTokenP o (fun _ o' => HoldsSegmenter (view sh o') cfg (some d') ∧ HoldsSubs (view sh o') d' ∧ KeptButCalc (view sh o) (view sh o')) := by
  obtain ⟨hall, c1, c2, c3, c4, c5⟩ := calcToken_subs h
  have hwl : (withDistances d).tokens.length = d.tokens.length := by simp [withDistances]
  unfold calcTokenP
  refine wp_bind (wp_mono ?_ _ _ (wp_owned _ _ (wp_distances hT hf fun j hj => (hown j hj).1)))
  rintro _ o1 ⟨⟨g1, g2, g3⟩, g4⟩
  refine wp_bind (wp_read (g3.tokHdr _ rfl) (wp_ret ?_))
  refine wp_mono ?_ _ _ (wp_subsLoop _ 0 o1 (by omega) g3 (fun j hj => g4 _ (hown j (by omega)).2) hall (fun j t hj => by omega))
  rintro _ o2 ⟨f1, f2⟩
  refine ⟨⟨⟨f1 _ _ g3.flags (by simp), f1 _ _ g3.segDict (by simp), ?_, ?_, ?_, ?_⟩, ?_⟩, ?_, ?_⟩
  · rintro _ ⟨⟩; rw [c2]; exact f1 _ _ (g3.maxLen (withDistances d) rfl) (by simp)
  · rintro _ ⟨⟩; rw [c1]; exact f1 _ _ (g3.trie (withDistances d) rfl) (by simp)
  · rintro _ ⟨⟩; rw [c4, ← hwl]; exact f1 _ _ (g3.tokHdr _ rfl) (by simp)
  · rintro _ ⟨⟩ i t' ht'
    obtain ⟨t, t1, t2, t3, t4, _, _⟩ := c5 i t' ht'
    rw [t2, t3, t4]; exact f1 _ _ (g3.tok _ rfl i t t1) (by simp)
  · rintro _ ⟨⟩ i t' ht'
    obtain ⟨t, t1, _, _, _, t5, _⟩ := c5 i t' ht'
    rw [t5]; exact f1 _ _ (g3.dist _ rfl i t t1) (by simp)
  · intro i t' ht'
    obtain ⟨t, t1, _, _, _, _, t6⟩ := c5 i t' ht'
    obtain ⟨r, kept, e1, e2, e3⟩ := f2 i t t1
    rw [t6] at e1; cases e1
    exact ⟨r, e2, e3⟩
  · intro l x hx hd hs
    have : o1 l = o l := g1 l hd
    exact f1 l x (by simp only [view, this]; exact hx) hs

end Gse
