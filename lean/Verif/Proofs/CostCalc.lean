import Verif.Proofs.Cost
import Verif.Proofs.CalcMem
import Verif.Proofs.Path
import Verif.Props.Segment

/-!
# How much work `AddToken` and `CalcToken` do

`exceeds sh p o n`: started with own memory `o` beside the shared memory `sh`, the program `p` has done work `n` at least when it returns.
`Least p n`: the same whatever the memory holds.
-/

namespace Gse
open Spec

set_option linter.unusedSectionVars false

variable {F D α β : Type}

/-- See the head of this file. -/
def exceeds (sh : Mem F D) : Prog F D α → Mem F D → Nat → Prop
  | .ret _, _, n => n = 0
  | .panic, _, _ => True
  | .read l k, o, n => ∀ c, view sh o l = some c → exceeds sh (k c) o (n - 1)
  | .write l c k, o, n => exceeds sh k (o.put l c) (n - 1)
  | .alloc cs k, o, n => ∀ a, o.Unused a → sh.Unused a → exceeds sh (k a) (o.extend a cs) (n - (cs.length + 1))

/-- See the head of this file. -/
def Least : Prog F D α → Nat → Prop
  | .ret _, n => n = 0
  | .panic, _ => True
  | .read _ k, n => ∀ c, Least (k c) (n - 1)
  | .write _ _ k, n => Least k (n - 1)
  | .alloc cs k, n => ∀ a, Least (k a) (n - (cs.length + 1))

theorem exceeds_mono {sh : Mem F D} : ∀ (p : Prog F D α) (o : Mem F D) {n m : Nat}, m ≤ n → exceeds sh p o n → exceeds sh p o m
  | .ret _, _, _, _, h, e => by have : _ = 0 := e; show _ = 0; omega
  | .panic, _, _, _, _, _ => trivial
  | .read _ k, o, _, _, h, h2 => fun c hc => exceeds_mono (k c) o (by omega) (h2 c hc)
  | .write _ _ k, _, _, _, h, h2 => exceeds_mono k _ (by omega) h2
  | .alloc _ k, _, _, _, h, h2 => fun a h1 h3 => exceeds_mono (k a) _ (by omega) (h2 a h1 h3)

theorem exceeds_bind' {sh : Mem F D} {f : α → Prog F D β} {m : Nat} : ∀ (p : Prog F D α) (o : Mem F D) {n : Nat}, exceeds sh p o n →
    wp sh p o (fun x o' => exceeds sh (f x) o' m) → exceeds sh (p.bind f) o (n + m)
  | .ret _, _, n, e, h => by have : n = 0 := e; subst this; rw [Nat.zero_add]; exact h
  | .panic, _, _, _, h => h.elim
  | .read _ k, o, _, h2, ⟨c0, hc0, hw⟩ => fun c hc => by
      rw [hc0] at hc; cases hc
      exact exceeds_mono _ _ (by omega) (exceeds_bind' (k c0) o (h2 c0 hc0) hw)
  | .write l c k, o, n, h2, ⟨_, hw⟩ => by
      show exceeds sh (k.bind f) (o.put l c) (n + m - 1)
      exact exceeds_mono _ _ (by omega) (exceeds_bind' k _ h2 hw)
  | .alloc _ k, _, _, h2, hw => fun a h1 h3 => exceeds_mono _ _ (by omega) (exceeds_bind' (k a) _ (h2 a h1 h3) (hw a h1 h3))

theorem exceeds_bind {sh : Mem F D} {f : α → Prog F D β} {p : Prog F D α} {o : Mem F D} (n m : Nat) {t : Nat} (ht : t ≤ n + m) (hp : exceeds sh p o n)
    (h : wp sh p o (fun x o' => exceeds sh (f x) o' m)) : exceeds sh (p >>= f) o t := exceeds_mono _ _ ht (exceeds_bind' p o hp h)

theorem least_mono : ∀ (p : Prog F D α) {n m : Nat}, m ≤ n → Least p n → Least p m
  | .ret _, _, _, h, e => by have : _ = 0 := e; show _ = 0; omega
  | .panic, _, _, _, _ => trivial
  | .read _ k, _, _, h, h2 => fun c => least_mono (k c) (by omega) (h2 c)
  | .write _ _ k, _, _, h, h2 => least_mono k (by omega) h2
  | .alloc _ k, _, _, h, h2 => fun a => least_mono (k a) (by omega) (h2 a)

theorem least_zero : ∀ (p : Prog F D α), Least p 0
  | .ret _ => rfl
  | .panic => trivial
  | .read _ k => fun c => by rw [Nat.zero_sub]; exact least_zero (k c)
  | .write _ _ k => by show Least k (0 - 1); rw [Nat.zero_sub]; exact least_zero k
  | .alloc _ k => fun a => by rw [Nat.zero_sub]; exact least_zero (k a)

theorem least_bind' {f : α → Prog F D β} {m : Nat} (hf : ∀ x, Least (f x) m) : ∀ (p : Prog F D α) {n : Nat}, Least p n → Least (p.bind f) (n + m)
  | .ret a, n, e => by have : n = 0 := e; subst this; rw [Nat.zero_add]; exact hf a
  | .panic, _, _ => trivial
  | .read _ k, _, h2 => fun c => least_mono _ (by omega) (least_bind' hf (k c) (h2 c))
  | .write l c k, n, h2 => by
      show Least (k.bind f) (n + m - 1)
      exact least_mono _ (by omega) (least_bind' hf k h2)
  | .alloc _ k, _, h2 => fun a => least_mono _ (by omega) (least_bind' hf (k a) (h2 a))

theorem least_bind {f : α → Prog F D β} {p : Prog F D α} (n m : Nat) {t : Nat} (ht : t ≤ n + m) (hp : Least p n) (hf : ∀ x, Least (f x) m) :
    Least (p >>= f) t := least_mono _ ht (least_bind' hf p hp)

theorem Least.exceeds {sh : Mem F D} : ∀ (p : Prog F D α) (o : Mem F D) {n : Nat}, Least p n → exceeds sh p o n
  | .ret _, _, _, h => h
  | .panic, _, _, _ => trivial
  | .read _ k, o, _, h => fun c _ => Least.exceeds (k c) o (h c)
  | .write _ _ k, _, _, h => Least.exceeds k _ h
  | .alloc _ k, _, _, h => fun a _ _ => Least.exceeds (k a) _ (h a)

/-! ## Any interleaving -/

theorem local_exceeds {sh : Mem F D} {p p' : Prog F D α} {o o' : Mem F D} {e : Access} (h : Local sh p o e p' o') {n : Nat} (hw : exceeds sh p o n) :
    exceeds sh p' o' (n - e.weight) := by
  cases h with
  | read hx => exact hw _ hx
  | write => exact hw
  | alloc h1 h2 => exact hw _ h1 h2

theorem exec_least {sh : Mem F D} {c c' : Config F D α} {own : Nat → Mem F D} {Q : Nat → α → Mem F D → Prop} {tr : List (Nat × Access)} (hI : Isolated sh c own Q)
    (bound : Nat → Nat) (hb : ∀ i p, c.threads[i]? = some p → exceeds sh p (own i) (bound i)) (hx : Exec c tr c') :
    ∃ own', Isolated sh c' own' Q ∧ (∀ i p, c'.threads[i]? = some p → exceeds sh p (own' i) (bound i - work i tr)) := by
  induction hx with
  | refl => exact ⟨own, hI, fun i p hp => by simpa [work] using hb i p hp⟩
  | @step tr c1 i e c2 _ hst ih =>
    obtain ⟨o1, h1, h2⟩ := ih
    obtain ⟨o2, g1, _, _, ⟨p, p', hp, hp', hl⟩, g5⟩ := isolated_step h1 hst
    refine ⟨o2, g1, fun j q hq => ?_⟩
    rw [work_append]
    by_cases hj : j = i
    · subst hj
      rw [hp'] at hq; cases hq
      have w4 := local_exceeds hl (h2 j p hp)
      simp only [if_true]
      exact exceeds_mono _ _ (by omega) w4
    · rw [if_neg (fun h => hj h.symm)]
      obtain ⟨e1, e2⟩ := g5 j hj
      rw [e1] at hq
      rw [e2]
      exact h2 j q hq

/-! ## Parts that only allocate, parts that only read -/

theorem within_front {sh d : Mem F D} : ∀ (p : Prog F D α) (o : Mem F D) {n : Nat}, within (view sh d) p o n → within sh p (view d o) n
  | .ret _, _, _, _ => trivial
  | .panic, _, _, _ => trivial
  | .read _ k, o, _, ⟨h1, h2⟩ => ⟨h1, fun c hc => within_front (k c) o (h2 c (by rw [view_view]; exact hc))⟩
  | .write l c k, o, _, ⟨h1, h2⟩ => ⟨h1, by rw [← view_put]; exact within_front k _ h2⟩
  | .alloc cs k, o, _, ⟨h1, h2⟩ => ⟨h1, fun a ha hs => by
      obtain ⟨g1, g2⟩ := unused_view ha
      rw [← view_extend o cs g2]
      exact within_front (k a) _ (h2 a g1 (unused_view_iff.mpr ⟨g2, hs⟩))⟩

theorem within_fresh {sh o : Mem F D} {p : Prog F D α} {f : α → Prog F D β} {Q : α → Mem F D → Prop} (n m : Nat) {t : Nat} (ht : n + m ≤ t)
    (hn : within (view sh o) p noMem n) (hp : wp (view sh o) p noMem Q)
    (hf : ∀ a x, Q a x → Apart (view sh o) x → within sh (f a) (view o x) m) : within sh (p >>= f) o t := by
  have h := wp_front p noMem (wp_apart p noMem (fun _ _ _ => rfl) hp)
  have h' := within_front p noMem hn
  rw [view_none] at h h'
  refine within_bind n m ht h' (wp_mono ?_ _ _ h)
  rintro a _ ⟨x, rfl, hq, ha⟩
  exact hf a x hq ha

theorem within_reads {sh o : Mem F D} {p : Prog F D α} {f : α → Prog F D β} {a : α} (n m : Nat) {t : Nat} (ht : n + m ≤ t)
    (hn : within sh p o n) (hp : wp sh p o (fun b o' => b = a ∧ o' = o)) (hf : within sh (f a) o m) : within sh (p >>= f) o t := by
  refine within_bind n m ht hn (wp_mono ?_ _ _ hp)
  rintro _ _ ⟨rfl, rfl⟩
  exact hf

section caps
open Prog

theorem cap_put (l : Loc) (c : Cell F D) : Cap (put l c) 1 (fun _ => True) := ⟨le_refl _, trivial⟩
theorem cap_rdFreq (l : Loc) : Cap (rdFreq l : Prog F D F) 1 (fun _ => True) := cap_rd _ _ fun c => by cases c <;> trivial
theorem cap_rdSubs (i : Nat) : Cap (rdSubs i : Prog F D Slice) 1 (fun _ => True) := cap_rd _ _ fun c => by cases c <;> trivial

theorem cap_words : ∀ (ws : List Bytes), Cap (wordsP ws : Prog F D (List Slice)) (byteLen ws + ws.length) (fun ss => ss.length = ws.length)
  | [] => rfl
  | w :: ws => by
    refine cap_bind (w.length + 1) (byteLen ws + ws.length) (by simp [byteLen]; omega) (by simpa using cap_make (w.map (Cell.byte (F := F) (D := D)))) fun a _ => ?_
    exact cap_bind (byteLen ws + ws.length) 0 (by omega) (cap_words ws) fun ss h => cap_ret (by simp [h])

theorem cap_text (ws : List Bytes) : Cap (textP ws : Prog F D Slice) (byteLen ws + 2 * ws.length + 1) (fun _ => True) := by
  refine cap_bind (byteLen ws + ws.length) (ws.length + 1) (by omega) (cap_words ws) fun ss h => ?_
  refine cap_bind (Q := fun _ => True) (ws.length + 1) 0 (by omega) ?_ fun a _ => trivial
  rw [← h]; simpa using cap_make (ss.map (Cell.word (F := F) (D := D)))

variable [F64 F] [F32 D]

theorem cap_dictAdd (token : Token F D) : Cap (dictAddP token) 13 (fun _ => True) := by
  unfold dictAddP
  refine cap_bind 1 12 (by omega) cap_rdTrie fun t _ => ?_
  split
  · trivial
  · unfold insertP
    refine cap_bind 1 11 (by omega) (cap_rdNat _) fun n _ => cap_bind 1 10 (by omega) cap_rdTrie fun t _ => ?_
    split
    · trivial
    · refine cap_bind 1 9 (by omega) (cap_put _ _) fun _ _ => cap_bind 1 8 (by omega) (cap_rdNat _) fun _ _ => cap_bind 1 7 (by omega) (cap_put _ _) fun _ _ =>
        cap_bind 1 6 (by omega) (cap_put _ _) fun _ _ => cap_bind 1 5 (by omega) (cap_put _ _) fun _ _ => cap_bind 1 4 (by omega) (cap_put _ _) fun _ _ =>
        cap_bind 1 3 (by omega) (cap_rdFreq _) fun _ _ => cap_bind 1 2 (by omega) (cap_put _ _) fun _ _ => cap_bind 1 1 (by omega) (cap_rdNat _) fun _ _ => ?_
      split
      · exact cap_bind 1 0 (by omega) (cap_put _ _) fun _ _ => trivial
      · trivial

theorem cap_distLoop [Narrow F D] (lt : D) : ∀ (k i : Nat), Cap (distLoopP lt k i : Prog F D Unit) (3 * k) (fun _ => True)
  | 0, _ => trivial
  | k + 1, i => by
    refine cap_bind 1 (3 * k + 2) (by omega) (cap_rdNat _) fun n _ => ?_
    split
    · exact cap_bind 1 (3 * k + 1) (by omega) (cap_rdTok i) fun t _ => cap_bind 1 (3 * k) (by omega) (cap_put _ _) fun _ _ => cap_distLoop lt k (i + 1)
    · trivial

theorem least_distLoop [Narrow F D] (lt : D) : ∀ (k i : Nat), Least (distLoopP lt k i : Prog F D Unit) (3 * k)
  | 0, _ => rfl
  | k + 1, i => by
    refine least_bind 1 (3 * k + 2) (by omega) (fun c => by cases c <;> trivial) fun n => ?_
    split
    · exact least_bind 1 (3 * k + 1) (by omega) (fun c => by cases c <;> trivial) fun t => least_bind 1 (3 * k) (by omega) (by trivial) fun _ => least_distLoop lt k (i + 1)
    · trivial

theorem least_subsStep [Unicode] (i : Nat) : Least (subsStepP i : Prog F D Unit) 5 := by
  refine least_bind 1 4 (by omega) (fun c => by cases c <;> trivial) fun n => ?_
  split
  · refine least_bind 1 3 (by omega) (fun c => by cases c <;> trivial) fun t => least_bind 1 2 (by omega) ?_ fun text => ?_
    · exact least_bind 0 1 (by omega) (least_zero _) fun ss => least_bind 1 0 (by omega) (fun a => show 1 - _ = 0 by omega) fun _ => least_zero _
    · refine least_bind 0 2 (by omega) (least_zero _) fun segs => least_bind 0 2 (by omega) (least_zero _) fun num => ?_
      exact least_bind 1 1 (by omega) (fun a => show 1 - _ = 0 by omega) fun a => least_bind 1 0 (by omega) (by trivial) fun _ => least_zero _
  · trivial

theorem least_subsLoop [Unicode] : ∀ (k i : Nat), Least (subsLoopP k i : Prog F D Unit) (5 * k)
  | 0, _ => rfl
  | k + 1, i => least_bind 5 (5 * k) (by omega) (least_subsStep i) fun _ => least_subsLoop k (i + 1)

end caps

/-! ## `CalcToken` -/

variable [F64 F] [F32 D] [Narrow F D] {cfg : SplitCfg} {d : Dictionary F D}

/-- What it costs to read the text of a token. -/
def refCost : TokRef → Nat
  | .idx _ => 1
  | .pseudo w => w.length

section
variable {sh o : Mem F D} [Unicode]

theorem within_keepSub {a i : Nat} {s : Seg} {p : MRef}
    (hs : view sh o (.cell a i) = some (.seg ⟨s.start, s.stop, some p⟩)) (hp : RefIs (view sh o) p s.tok) :
    within sh (keepSubP a i) o (refCost s.tok + 1) := by
  unfold keepSubP
  refine within_bind 1 (refCost s.tok) (by omega) (cap_rdSeg _ _).within (wp_read hs (wp_ret ?_))
  show within sh (segTextP (some p) >>= fun ws => .ret _) o (refCost s.tok)
  have h : Cap (segTextP (some p) : Prog F D (List Bytes)) (refCost s.tok) (fun _ => True) := by
    cases hst : s.tok with
    | idx v => rw [hst] at hp; cases hp; exact cap_bind 1 0 (by simp [refCost]) (cap_rdTok v) fun _ _ => trivial
    | pseudo w =>
      rw [hst] at hp
      cases hp with
      | pseudo s' _ hw => exact cap_bind w.length 0 (by simp [refCost]) (by rw [hw.1]; exact cap_rdBytes _ _ _) fun _ _ => cap_ret trivial
  exact (cap_bind (R := fun _ => True) (refCost s.tok) 0 (by omega) h fun _ _ => cap_ret trivial).within

theorem within_countSubs (hT : HoldsTable (view sh o) cfg (some d)) {a : Nat} : ∀ (ss kept : List Seg) (i num : Nat), filterOpt (keepSub d) ss = some kept →
    SegsAt (view sh o) a i ss → within sh (countSubsP a ss.length i num) o ((ss.map fun s => refCost s.tok).sum + ss.length)
  | [], _, _, _, _, _ => trivial
  | s :: ss, kept, i, num, h, hs => by
    unfold filterOpt at h
    obtain ⟨b, h1, h⟩ := Option.bind_eq_some_iff.mp h
    obtain ⟨r, h2, h⟩ := Option.bind_eq_some_iff.mp h
    obtain ⟨p, hp, hr⟩ := hs 0 s rfl
    exact within_reads (refCost s.tok + 1) ((ss.map fun s => refCost s.tok).sum + ss.length) (by simp; omega) (within_keepSub hp hr) (wp_keepSub hT hp hr h1)
      (within_countSubs hT ss r (i + 1) _ h2 hs.tail)

theorem within_fillSubs {m0 : Mem F D} {t a q n : Nat} (hT : HoldsTable m0 cfg (some d)) (hsub : m0 (.subs t) = some (.subs ⟨q, 0, n⟩)) (hq : ∀ j, ∀ x, m0 (.cell q j) = some x → ∃ y, x = .segPtr y) :
    ∀ (ss kept : List Seg) (i j : Nat) (o : Mem F D), filterOpt (keepSub d) ss = some kept → SegsAt m0 a i ss → j + kept.length ≤ n →
    (∀ l, (∀ j, l ≠ .cell q j) → view sh o l = m0 l) → (∀ k, k < n → (o (.cell q k)).isSome) →
    within sh (fillSubsP t a ss.length i j) o ((ss.map fun s => refCost s.tok).sum + 3 * ss.length)
  | [], _, _, _, _, _, _, _, _, _ => trivial
  | s :: ss, kept, i, j, o, h, hs, hlen, hv, hown => by
    unfold filterOpt at h
    obtain ⟨b, h1, h⟩ := Option.bind_eq_some_iff.mp h
    obtain ⟨r, h2, h⟩ := Option.bind_eq_some_iff.mp h
    simp only [Option.some.injEq] at h
    obtain ⟨p, hp, hr⟩ := hs 0 s rfl
    rw [Nat.add_zero] at hp
    have hT' : HoldsTable (view sh o) cfg (some d) :=
      ⟨by rw [hv _ (by simp)]; exact hT.flags, by rw [hv _ (by simp)]; exact hT.segDict, fun d' e => by rw [hv _ (by simp)]; exact hT.maxLen d' e,
        fun d' e => by rw [hv _ (by simp)]; exact hT.trie d' e, fun d' e => by rw [hv _ (by simp)]; exact hT.tokHdr d' e,
        fun d' e i t ht => by rw [hv _ (by simp)]; exact hT.tok d' e i t ht⟩
    have hcell : ∀ l x, m0 l = some x → (∀ y, x ≠ .segPtr y) → view sh o l = some x := by
      intro l x hx hne
      rw [hv l ?_]; · exact hx
      rintro k rfl
      obtain ⟨y, rfl⟩ := hq k x hx
      exact hne y rfl
    have hp' := hcell _ _ hp (by simp)
    have hr' : RefIs (view sh o) p s.tok := hr.keep fun l b hb => hcell _ _ hb (by simp)
    unfold fillSubsP
    refine within_reads (refCost s.tok + 1) ((ss.map fun s => refCost s.tok).sum + 3 * ss.length + 2) (by simp; omega) (within_keepSub hp' hr') (wp_keepSub hT' hp' hr' h1) ?_
    cases b with
    | false =>
      simp only [Bool.false_eq_true, if_false] at h ⊢
      subst h
      exact within_mono _ _ (by omega) (within_fillSubs hT hsub hq ss r (i + 1) j o h2 hs.tail hlen hv hown)
    | true =>
      simp only [if_true] at h ⊢
      subst h
      simp only [List.length_cons] at hlen
      refine within_bind 1 ((ss.map fun s => refCost s.tok).sum + 3 * ss.length + 1) (by omega) (cap_rdSubs _).within
        (wp_read (by rw [hv _ (by simp)]; exact hsub) (wp_ret ?_))
      simp only
      rw [if_pos (by omega), Nat.zero_add]
      refine within_bind 1 ((ss.map fun s => refCost s.tok).sum + 3 * ss.length) (by omega) (cap_wr _ _ _).within (wp_wr (hown j (by omega)) ?_)
      refine within_fillSubs hT hsub hq ss r (i + 1) (j + 1) _ h2 hs.tail (by omega) ?_ ?_
      · intro l hl
        rw [view_put_other _ (hl j)]; exact hv l hl
      · intro k hk
        by_cases e : k = j
        · subst e; rw [put_same]; rfl
        · rw [put_other _ _ (by intro e'; cases e'; exact e rfl)]; exact hown k hk

end

/-- The segments of a text are no more than its words, and reading their texts costs no more than its bytes. -/
theorem segs_cost [Unicode] [UnicodeOK] (hwf : d.Coh cfg) {ws : List Bytes} (hs : IsSplitText cfg ws) {sm : Bool} {segs : List Seg}
    (h : segmentWords (some d) ws sm = some segs) : (segs.map fun s => refCost s.tok).sum ≤ byteLen ws ∧ segs.length ≤ ws.length := by
  by_cases hsm : sm = true ∧ ws.length = 1
  · rw [segmentWords, if_pos (by simpa using hsm)] at h
    cases h; simp
  · obtain ⟨segs', ts, h1, h2, h3, ⟨h4, h5⟩, h6⟩ := segmentWords_spec hwf hs hsm
    rw [h1] at h; obtain rfl : segs' = segs := Option.some.inj h
    have hne : ∀ t ∈ ts, ∀ w ∈ t.text, w ≠ [] := by
      intro t ht w hw
      obtain ⟨s, rfl⟩ := hs
      exact C02_words_nonempty cfg s w (by rw [← h4, wordsOf]; exact List.mem_flatten.mpr ⟨_, List.mem_map.mpr ⟨t, ht, rfl⟩, hw⟩)
    have e1 : (segs'.map fun s => refCost s.tok) = ts.map fun t => refCost (refOf d t) := by
      have := congrArg (List.map refCost) h2
      simpa [List.map_map, Function.comp_def] using this
    have e2 : segs'.length = ts.length := by simpa using congrArg List.length h2
    have hd : ∀ t ∈ ts, d.deref (refOf d t) = some t := by
      rw [List.map_map] at h3
      intro t ht
      have := List.map_inj_left.1 h3 t ht
      simpa using this
    rw [e1, e2, ← h4]
    clear h1 h2 h3 h4 h6 e1 e2
    induction ts with
    | nil => simp [wordsOf, byteLen]
    | cons t ts ih =>
      obtain ⟨i1, i2⟩ := ih (fun x hx => h5 x (by simp [hx])) (fun x hx => hne x (by simp [hx])) (fun x hx => hd x (by simp [hx]))
      have hw : wordsOf (t :: ts) = t.text ++ wordsOf ts := by simp [wordsOf]
      have hl := List.length_pos_iff.mpr (h5 t (by simp)).1
      have hb := length_le_byteLen t.text (hne t (by simp))
      have hc : refCost (refOf d t) ≤ byteLen t.text := by
        have hx := hd t (by simp)
        unfold refOf at hx ⊢
        split
        · simp [refCost]; omega
        · simp [refCost, byteLen, List.length_flatten]
      rw [hw, byteLen_append]
      simp only [List.map_cons, List.sum_cons, List.length_cons, List.length_append]
      omega

/-- The work of `CalcToken` on one token of `B` bytes, with length bound `L`. -/
def subsBound (L B : Nat) : Nat := 11 * L * B + 27 * B + L + 19

theorem within_subsStep [Unicode] [UnicodeOK] {sh o : Mem F D} (hwf : d.Coh cfg) (hS : HoldsSegmenter (view sh o) cfg (some d)) {i : Nat} {t : Token F D} (ht : d.tokens[i]? = some t)
    (hst : IsSplitText cfg t.text) (hown : (o (.subs i)).isSome) {segs kept : List Seg} (h1 : segmentWords (some d) t.text true = some segs) (h2 : filterOpt (keepSub d) segs = some kept) :
    within sh (subsStepP i) o (subsBound d.maxTokenLen (byteLen t.text)) := by
  have hlt := (List.getElem?_eq_some_iff.mp ht).1
  obtain ⟨c1, c2⟩ := segs_cost hwf hst h1
  have hn : t.text.length ≤ byteLen t.text := by
    obtain ⟨s, hs⟩ := hst
    exact length_le_byteLen _ fun w hw => C02_words_nonempty cfg s w (by rw [hs]; exact hw)
  have hkl : kept.length ≤ segs.length := by
    clear c1 c2 h1
    induction segs generalizing kept with
    | nil => simp [filterOpt] at h2; subst h2; simp
    | cons s ss ih =>
      unfold filterOpt at h2
      obtain ⟨b, _, h⟩ := Option.bind_eq_some_iff.mp h2
      obtain ⟨r, h3, h⟩ := Option.bind_eq_some_iff.mp h
      have := ih h3
      simp only [Option.some.injEq] at h; subst h
      cases b <;> simp <;> omega
  have hbound : 1 + (1 + ((byteLen t.text + 2 * t.text.length + 1) + ((d.maxTokenLen * byteLen t.text + t.text.length * (10 * d.maxTokenLen + 7) + 10 * t.text.length + d.maxTokenLen + 14) +
      ((byteLen t.text + t.text.length) + ((t.text.length + 1) + (1 + (byteLen t.text + 3 * t.text.length))))))) ≤ subsBound d.maxTokenLen (byteLen t.text) := by
    have := Nat.mul_le_mul_right (10 * d.maxTokenLen + 7) hn
    have e : byteLen t.text * (10 * d.maxTokenLen + 7) = 10 * d.maxTokenLen * byteLen t.text + 7 * byteLen t.text := by ring
    have e2 : 11 * d.maxTokenLen * byteLen t.text = 10 * d.maxTokenLen * byteLen t.text + d.maxTokenLen * byteLen t.text := by ring
    unfold subsBound
    omega
  refine within_mono _ _ hbound ?_
  unfold subsStepP
  refine within_bind _ _ (le_refl _) (cap_rdNat _).within (wp_read (hS.tokHdr d rfl) (wp_ret ?_))
  rw [if_pos hlt]
  refine within_bind _ _ (le_refl _) (cap_rdTok _).within (wp_read (hS.tok d rfl i t ht) (wp_ret ?_))
  refine within_fresh _ _ (le_refl _) (cap_text t.text).within (wp_text t.text fun _ _ _ => rfl) ?_
  rintro r x1 ⟨_, hlen, hw⟩ ha1
  have g1 := grows_fresh ha1
  rw [view_view] at hw
  have own1 := grows_own ha1
  generalize view o x1 = o1 at hw g1 own1
  have hw' : WordsAt (view (view sh o1) noMem) r.arr t.text := by rw [view_none]; exact hw
  refine within_fresh (Q := fun x o' => HoldsSegs (view (view sh o1) o') x segs) _ _ (le_refl _)
    (within_segmentWords (hS.grow g1) (fun _ _ _ => rfl) hlen hw' h1) (wp_segmentWords (hS.grow g1) (fun _ _ _ => rfl) hlen hw' h1) ?_
  intro r2 x2 hsegs ha2
  have g2 := g1.trans (grows_fresh ha2)
  rw [view_view] at hsegs
  have own2 := own1.trans (grows_own ha2)
  generalize view o1 x2 = o2 at hsegs g2 own2
  have hS2 := hS.grow g2
  have hat : SegsAt (view sh o2) r2.arr r2.off segs := hsegs.2
  rw [hsegs.1]
  refine within_reads _ _ (le_refl _) (within_mono _ _ (by omega) (within_countSubs hS2.toHoldsTable segs kept r2.off 0 h2 hat)) (wp_countSubs hS2.toHoldsTable segs kept r2.off 0 h2 hat) ?_
  rw [Nat.zero_add]
  refine within_bind _ _ (le_refl _) (within_mono (n := kept.length + 1) _ _ (by omega) (by simpa using (cap_make (List.replicate kept.length (Cell.segPtr none))).within)) (wp_make fun q hq hs => ?_)
  have hqv : (view sh o2).Unused q := unused_view_iff.mpr ⟨hq, hs⟩
  have hne : ∀ {l x}, view sh o2 l = some x → ∀ j, l ≠ .cell q j := by
    rintro l x hx j rfl; rw [hqv j] at hx; cases hx
  have hown2 : (o2 (.subs i)).isSome := by
    obtain ⟨y, hy⟩ := Option.isSome_iff_exists.mp hown
    rw [own2 _ _ hy]; rfl
  refine within_bind _ _ (le_refl _) (cap_put _ _).within (wp_put (by rw [extend_other _ _ (by simp)]; exact hown2) ?_)
  generalize ho4 : (o2.extend q (List.replicate kept.length (Cell.segPtr none))).put (.subs i) (.subs ⟨q, 0, kept.length⟩) = o4
  have hcell : ∀ j, o4 (.cell q j) = (List.replicate kept.length (Cell.segPtr none))[j]? := by
    intro j; rw [← ho4, put_other _ _ (by simp), extend_cell]
  have hq4 : ∀ j x, view sh o4 (.cell q j) = some x → ∃ y, x = .segPtr y := by
    intro j x hx
    simp only [view, hcell, hs j, List.getElem?_replicate] at hx
    split at hx
    · exact ⟨none, by simpa using hx.symm⟩
    · cases hx
  have hrest : ∀ l, l ≠ .subs i → (∀ j, l ≠ .cell q j) → o4 l = o2 l := by
    intro l h1 h2; rw [← ho4, put_other _ _ h1, extend_other _ _ h2]
  have hk4 : KeptBut i (view sh o2) (view sh o4) := by
    intro l x hx hl
    have : o4 l = o2 l := hrest l hl (hne hx)
    simp only [view, this]; exact hx
  have hsub4 : o4 (.subs i) = some (.subs ⟨q, 0, kept.length⟩) := by rw [← ho4]; exact put_same _ _ _
  have hat4 : SegsAt (view sh o4) r2.arr r2.off segs := by
    intro k s hk
    obtain ⟨p, p1, p2⟩ := hat k s hk
    exact ⟨p, hk4 _ _ p1 (by simp), p2.cells fun a j b hb => hk4 _ _ hb (by simp)⟩
  refine within_mono _ _ (by omega) (within_fillSubs (m0 := view sh o4) (hS2.keptBut hk4).toHoldsTable (view_own hsub4) hq4 segs kept r2.off 0 o4 h2 hat4 (by omega) (fun _ _ => rfl) ?_)
  intro k hk
  rw [hcell, List.getElem?_replicate, if_pos hk]; rfl

theorem within_subsLoop [Unicode] [UnicodeOK] (hwf : d.Coh cfg) (hst : ∀ t ∈ d.tokens, IsSplitText cfg t.text) {sh : Mem F D} : ∀ (k i : Nat) (o : Mem F D), i + k = d.tokens.length →
    HoldsSegmenter (view sh o) cfg (some d) → (∀ j, j < d.tokens.length → (o (.subs j)).isSome) → (∀ t ∈ d.tokens, subsOf d t ≠ none) →
    within sh (subsLoopP k i) o (((d.tokens.drop i).map fun t => subsBound d.maxTokenLen (byteLen t.text)).sum) := by
  intro k
  induction k with
  | zero => intro i o _ _ _ _; trivial
  | succ k ih =>
    intro i o hi hS hown hall
    have hlt : i < d.tokens.length := by omega
    have ht := List.getElem?_eq_getElem hlt
    obtain ⟨kept, hk⟩ := Option.ne_none_iff_exists'.mp (hall _ (List.getElem_mem hlt))
    obtain ⟨segs, h1, h2⟩ := Option.bind_eq_some_iff.mp hk
    rw [List.drop_eq_getElem_cons hlt, List.map_cons, List.sum_cons]
    unfold subsLoopP
    refine within_bind _ _ (le_refl _) (within_subsStep hwf hS ht (hst _ (List.getElem_mem hlt)) (hown i hlt) h1 h2)
      (wp_mono ?_ _ _ (wp_owned _ _ (wp_subsStep hS ht (hown i hlt) h1 h2)))
    rintro _ o1 ⟨⟨g1, r, g2, g3⟩, g4⟩
    exact ih (i + 1) o1 (by omega) (hS.keptBut g1) (fun j hj => g4 _ (hown j hj)) hall

/-- The work of `CalcToken`. -/
def calcBound (d : Dictionary F D) : Nat := (d.tokens.map fun t => subsBound d.maxTokenLen (byteLen t.text) + 3).sum + 4

theorem within_distances {sh o : Mem F D} (hT : HoldsTable (view sh o) cfg (some d)) (hf : view sh o .totalFreq = some (.freq d.totalFreq)) :
    within sh distancesP o (3 * d.tokens.length + 3) := by
  unfold distancesP
  refine within_bind 1 (3 * d.tokens.length + 2) (by omega) (cap_rdBool _).within (wp_read hT.segDict (wp_ret ?_))
  simp only [Option.isNone_some, Bool.false_eq_true, if_false]
  refine within_bind 1 (3 * d.tokens.length + 1) (by omega) (cap_rdFreq _).within (wp_read hf (wp_ret ?_))
  refine within_bind 1 (3 * d.tokens.length) (by omega) (cap_rdNat _).within (wp_read (hT.tokHdr d rfl) (wp_ret ?_))
  exact (cap_distLoop _ _ _).within

theorem exceeds_distances {sh o : Mem F D} (hT : HoldsTable (view sh o) cfg (some d)) (hf : view sh o .totalFreq = some (.freq d.totalFreq)) :
    exceeds sh distancesP o (3 * d.tokens.length + 3) := by
  unfold distancesP
  refine exceeds_bind 1 (3 * d.tokens.length + 2) (by omega) (Least.exceeds _ _ fun c => by cases c <;> trivial) (wp_read hT.segDict (wp_ret ?_))
  simp only [Option.isNone_some, Bool.false_eq_true, if_false]
  refine exceeds_bind 1 (3 * d.tokens.length + 1) (by omega) (Least.exceeds _ _ fun c => by cases c <;> trivial) (wp_read hf (wp_ret ?_))
  refine exceeds_bind 1 (3 * d.tokens.length) (by omega) (Least.exceeds _ _ fun c => by cases c <;> trivial) (wp_read (hT.tokHdr d rfl) (wp_ret ?_))
  exact Least.exceeds _ _ (least_distLoop _ _ _)

theorem within_calcToken [Unicode] [UnicodeOK] {sh o : Mem F D} {d d' : Dictionary F D} (hwf : d.WF cfg) (hT : HoldsTable (view sh o) cfg (some d))
    (hf : view sh o .totalFreq = some (.freq d.totalFreq)) (hown : ∀ j, j < d.tokens.length → (o (.dist j)).isSome ∧ (o (.subs j)).isSome) (h : calcToken d = some d') :
    within sh calcTokenP o (calcBound d) := by
  obtain ⟨hall, _⟩ := calcToken_subs h
  have hwl : (withDistances d).tokens.length = d.tokens.length := by simp [withDistances]
  have hsum : (d.tokens.map fun t => subsBound d.maxTokenLen (byteLen t.text) + 3).sum = (d.tokens.map fun t => subsBound d.maxTokenLen (byteLen t.text)).sum + 3 * d.tokens.length := by
    induction d.tokens with
    | nil => rfl
    | cons t l ih => simp only [List.map_cons, List.sum_cons, ih, List.length_cons]; omega
  unfold calcTokenP
  refine within_bind _ ((d.tokens.map fun t => subsBound d.maxTokenLen (byteLen t.text)).sum + 1) (by unfold calcBound; omega) (within_distances hT hf)
    (wp_mono ?_ _ _ (wp_owned _ _ (wp_distances hT hf fun j hj => (hown j hj).1)))
  rintro _ o1 ⟨⟨g1, g2, g3⟩, g4⟩
  refine within_bind 1 ((d.tokens.map fun t => subsBound d.maxTokenLen (byteLen t.text)).sum) (by omega) (cap_rdNat _).within (wp_read (g3.tokHdr _ rfl) (wp_ret ?_))
  have hwf' : (withDistances d).WF cfg := withDistances_wf hwf
  refine within_mono _ _ ?_ (within_subsLoop hwf'.coh (fun t ht => ?_) _ 0 o1 (by omega) g3 (fun j hj => g4 _ (hown j (by omega)).2) hall)
  · simp [withDistances, List.map_map, Function.comp_def]
  · obtain ⟨s, hs⟩ := hwf'.split t ht
    exact ⟨s, hs.symm⟩

theorem exceeds_calcToken [Unicode] {sh o : Mem F D} {d : Dictionary F D} (hT : HoldsTable (view sh o) cfg (some d))
    (hf : view sh o .totalFreq = some (.freq d.totalFreq)) (hown : ∀ j, j < d.tokens.length → (o (.dist j)).isSome ∧ (o (.subs j)).isSome) :
    exceeds sh calcTokenP o (8 * d.tokens.length + 4) := by
  have hwl : (withDistances d).tokens.length = d.tokens.length := by simp [withDistances]
  unfold calcTokenP
  refine exceeds_bind (3 * d.tokens.length + 3) (5 * d.tokens.length + 1) (by omega) (exceeds_distances hT hf) (wp_mono ?_ _ _ (wp_distances hT hf fun j hj => (hown j hj).1))
  rintro _ o1 ⟨g1, g2, g3⟩
  refine exceeds_bind 1 (5 * d.tokens.length) (by omega) (Least.exceeds _ _ fun c => by cases c <;> trivial) (wp_read (g3.tokHdr _ rfl) (wp_ret ?_))
  rw [hwl]
  exact Least.exceeds _ _ (least_subsLoop _ _)

/-! ## `AddToken` -/

theorem within_rdWords {sh o : Mem F D} {a : Nat} : ∀ (ws : List Bytes) (i : Nat),
    (∀ k w, ws[k]? = some w → ∃ s, view sh o (.cell a (i + k)) = some (.word s) ∧ HoldsBytes (view sh o) s w) →
      within sh (Prog.rdWords a i ws.length) o (byteLen ws + ws.length) := by
  intro ws
  induction ws with
  | nil => intro i _; trivial
  | cons w ws ih =>
    intro i h
    obtain ⟨s, h1, h2⟩ := h 0 w rfl
    have hr : ∀ k w', ws[k]? = some w' → ∃ s, view sh o (.cell a (i + 1 + k)) = some (.word s) ∧ HoldsBytes (view sh o) s w' := by
      intro k w' hw
      have := h (k + 1) w' hw
      rwa [show i + (k + 1) = i + 1 + k by omega] at this
    refine within_bind 1 (w.length + byteLen ws + ws.length) (by simp [byteLen]; omega) (cap_rdWord _ _).within (wp_read h1 (wp_ret ?_))
    refine within_bind w.length (byteLen ws + ws.length) (by omega) (by rw [h2.1]; exact (cap_rdBytes _ _ _).within) (wp_rdSlice h2 ?_)
    exact within_bind (byteLen ws + ws.length) 0 (by omega) (ih (i + 1) hr) (wp_rdWords ws (i + 1) hr trivial)

/-- The work of `AddToken` on a word of `B` bytes. -/
def addBound (B : Nat) : Nat := 17 * B + 19

theorem within_addToken [Unicode] {sh o : Mem F D} (hS : HoldsSegmenter (view sh o) cfg (some d)) {text : Slice} {s : Bytes} (ht : HoldsBytes (view sh o) text s) (freq : F) (pos : Bytes) :
    within sh (addTokenP text freq pos) o (addBound s.length) := by
  have h1 : byteLen (splitTextToWords cfg s) = s.length := by rw [byteLen_flatten]; exact (C01_split_bytes cfg s).1
  have h2 := length_le_byteLen _ fun w hw => C02_words_nonempty cfg s w hw
  rw [h1] at h2
  refine within_fresh (17 * s.length + 5) 14 (by unfold addBound; omega) ?_ (wp_toToken hS.flags ht (o := noMem) (fun _ _ _ => rfl)) ?_
  · refine within_bind (15 * s.length + 5) (2 * s.length) (by omega) (by rw [ht.1]; exact (cap_split text).within) (wp_mono ?_ _ _ (wp_split hS.flags ht (o := noMem) (fun _ _ _ => rfl)))
    rintro r o' ⟨g1, g2, g3⟩
    have g3' : ∀ k w, (splitTextToWords cfg s)[k]? = some w → ∃ x, view (view sh o) o' (.cell r.arr (0 + k)) = some (.word x) ∧ HoldsBytes (view (view sh o) o') x w := by
      simpa [WordsAt] using g3
    refine within_bind (2 * s.length) 0 (by omega) ?_ ?_
    · rw [g2]; exact within_mono _ _ (by omega) (within_rdWords _ 0 g3')
    · rw [g2]; exact wp_rdWords _ 0 g3' trivial
  · rintro _ x ⟨_, rfl⟩ ha
    have hg := grows_fresh ha
    refine within_bind 1 13 (by omega) (cap_rdBool _).within (wp_read (hg _ _ hS.segDict) (wp_ret ?_))
    simp only [Option.isNone_some, Bool.false_eq_true, if_false]
    exact (cap_dictAdd _).within

end Gse
