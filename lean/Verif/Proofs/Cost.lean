import Verif.Proofs.SegMemLoop
import Verif.Spec.Cost
import Verif.Props.Split
import Mathlib.Tactic.Ring

/-!
# How much work a program does

`within sh p o n`: started with own memory `o` beside the shared memory `sh`, the program `p` does work `n` at most.
`Cap p n Q`: the same whatever the memory holds, and the result has `Q`.
-/

namespace Gse

set_option linter.unusedSectionVars false

variable {F D α β : Type}

/-- See the head of this file. -/
def within (sh : Mem F D) : Prog F D α → Mem F D → Nat → Prop
  | .ret _, _, _ => True
  | .panic, _, _ => True
  | .read l k, o, n => 1 ≤ n ∧ ∀ c, view sh o l = some c → within sh (k c) o (n - 1)
  | .write l c k, o, n => 1 ≤ n ∧ within sh k (o.put l c) (n - 1)
  | .alloc cs k, o, n => cs.length + 1 ≤ n ∧ ∀ a, o.Unused a → sh.Unused a → within sh (k a) (o.extend a cs) (n - (cs.length + 1))

/-- See the head of this file. -/
def Cap : Prog F D α → Nat → (α → Prop) → Prop
  | .ret a, _, Q => Q a
  | .panic, _, _ => True
  | .read _ k, n, Q => 1 ≤ n ∧ ∀ c, Cap (k c) (n - 1) Q
  | .write _ _ k, n, Q => 1 ≤ n ∧ Cap k (n - 1) Q
  | .alloc cs k, n, Q => cs.length + 1 ≤ n ∧ ∀ a, Cap (k a) (n - (cs.length + 1)) Q

theorem within_mono {sh : Mem F D} : ∀ (p : Prog F D α) (o : Mem F D) {n m : Nat}, n ≤ m → within sh p o n → within sh p o m
  | .ret _, _, _, _, _, _ => trivial
  | .panic, _, _, _, _, _ => trivial
  | .read _ k, o, _, _, h, ⟨h1, h2⟩ => ⟨by omega, fun c hc => within_mono (k c) o (by omega) (h2 c hc)⟩
  | .write _ _ k, _, _, _, h, ⟨h1, h2⟩ => ⟨by omega, within_mono k _ (by omega) h2⟩
  | .alloc _ k, _, _, _, h, ⟨h1, h2⟩ => ⟨by omega, fun a ha hs => within_mono (k a) _ (by omega) (h2 a ha hs)⟩

theorem within_bind' {sh : Mem F D} {f : α → Prog F D β} {m : Nat} : ∀ (p : Prog F D α) (o : Mem F D) {n : Nat}, within sh p o n →
    wp sh p o (fun x o' => within sh (f x) o' m) → within sh (p.bind f) o (n + m)
  | .ret _, _, _, _, h => within_mono _ _ (by omega) h
  | .panic, _, _, _, h => h.elim
  | .read _ k, o, _, ⟨h1, h2⟩, ⟨c0, hc0, hw⟩ => ⟨by omega, fun c hc => by
      rw [hc0] at hc; cases hc
      exact within_mono _ _ (by omega) (within_bind' (k c0) o (h2 c0 hc0) hw)⟩
  | .write _ _ k, _, _, ⟨h1, h2⟩, ⟨_, hw⟩ => ⟨by omega, within_mono _ _ (by omega) (within_bind' k _ h2 hw)⟩
  | .alloc _ k, _, _, ⟨h1, h2⟩, hw => ⟨by omega, fun a ha hs =>
      within_mono _ _ (by omega) (within_bind' (k a) _ (h2 a ha hs) (hw a ha hs))⟩

theorem within_bind {sh : Mem F D} {f : α → Prog F D β} {p : Prog F D α} {o : Mem F D} (n m : Nat) {t : Nat} (ht : n + m ≤ t) (hp : within sh p o n)
    (h : wp sh p o (fun x o' => within sh (f x) o' m)) : within sh (p >>= f) o t := within_mono _ _ ht (within_bind' p o hp h)

theorem cap_mono {Q R : α → Prop} (hq : ∀ a, Q a → R a) : ∀ (p : Prog F D α) {n m : Nat}, n ≤ m → Cap p n Q → Cap p m R
  | .ret _, _, _, _, h => hq _ h
  | .panic, _, _, _, _ => trivial
  | .read _ k, _, _, h, ⟨h1, h2⟩ => ⟨by omega, fun c => cap_mono hq (k c) (by omega) (h2 c)⟩
  | .write _ _ k, _, _, h, ⟨h1, h2⟩ => ⟨by omega, cap_mono hq k (by omega) h2⟩
  | .alloc _ k, _, _, h, ⟨h1, h2⟩ => ⟨by omega, fun a => cap_mono hq (k a) (by omega) (h2 a)⟩

theorem cap_bind' {f : α → Prog F D β} {m : Nat} {Q : α → Prop} {R : β → Prop} (hf : ∀ x, Q x → Cap (f x) m R) :
    ∀ (p : Prog F D α) {n : Nat}, Cap p n Q → Cap (p.bind f) (n + m) R
  | .ret a, _, h => cap_mono (fun _ h => h) _ (by omega) (hf a h)
  | .panic, _, _ => trivial
  | .read _ k, _, ⟨h1, h2⟩ => ⟨by omega, fun c => cap_mono (fun _ h => h) _ (by omega) (cap_bind' hf (k c) (h2 c))⟩
  | .write _ _ k, _, ⟨h1, h2⟩ => ⟨by omega, cap_mono (fun _ h => h) _ (by omega) (cap_bind' hf k h2)⟩
  | .alloc _ k, _, ⟨h1, h2⟩ => ⟨by omega, fun a => cap_mono (fun _ h => h) _ (by omega) (cap_bind' hf (k a) (h2 a))⟩

theorem cap_bind {f : α → Prog F D β} {p : Prog F D α} {Q : α → Prop} {R : β → Prop} (n m : Nat) {t : Nat} (ht : n + m ≤ t) (hp : Cap p n Q)
    (hf : ∀ x, Q x → Cap (f x) m R) : Cap (p >>= f) t R := cap_mono (fun _ h => h) _ ht (cap_bind' hf p hp)

theorem Cap.within' {sh : Mem F D} {Q : α → Prop} : ∀ (p : Prog F D α) (o : Mem F D) {n : Nat}, Cap p n Q → within sh p o n
  | .ret _, _, _, _ => trivial
  | .panic, _, _, _ => trivial
  | .read _ k, o, _, ⟨h1, h2⟩ => ⟨h1, fun c _ => Cap.within' (k c) o (h2 c)⟩
  | .write _ _ k, _, _, ⟨h1, h2⟩ => ⟨h1, Cap.within' k _ h2⟩
  | .alloc _ k, _, _, ⟨h1, h2⟩ => ⟨h1, fun a _ _ => Cap.within' (k a) _ (h2 a)⟩

theorem Cap.within {sh : Mem F D} {Q : α → Prop} {p : Prog F D α} {o : Mem F D} {n : Nat} (h : Cap p n Q) : within sh p o n := Cap.within' p o h

/-! ## Any interleaving -/

theorem work_append (i : Nat) (tr : List (Nat × Access)) (j : Nat) (e : Access) :
    work i (tr ++ [(j, e)]) = work i tr + if j = i then e.weight else 0 := by
  unfold work
  by_cases h : j = i <;> simp [List.filter_append, h]

theorem local_within {sh : Mem F D} {p p' : Prog F D α} {o o' : Mem F D} {e : Access} (h : Local sh p o e p' o') {n : Nat} (hw : within sh p o n) :
    e.weight ≤ n ∧ within sh p' o' (n - e.weight) := by
  cases h with
  | read hx => exact ⟨hw.1, hw.2 _ hx⟩
  | write => exact hw
  | alloc ho hs => exact ⟨hw.1, hw.2 _ ho hs⟩

/-- In any execution, a goroutine does no more work than its program may. -/
theorem exec_work {sh : Mem F D} {c c' : Config F D α} {own : Nat → Mem F D} {Q : Nat → α → Mem F D → Prop} {tr : List (Nat × Access)} (hI : Isolated sh c own Q)
    (bound : Nat → Nat) (hb : ∀ i p, c.threads[i]? = some p → within sh p (own i) (bound i)) (hx : Exec c tr c') :
    ∃ own', Isolated sh c' own' Q ∧ (∀ i p, c'.threads[i]? = some p → work i tr ≤ bound i ∧ within sh p (own' i) (bound i - work i tr)) := by
  induction hx with
  | refl => exact ⟨own, hI, fun i p hp => ⟨by simp [work], by simpa [work] using hb i p hp⟩⟩
  | @step tr c1 i e c2 _ hst ih =>
    obtain ⟨o1, h1, h2⟩ := ih
    obtain ⟨o2, g1, _, _, ⟨p, p', hp, hp', hl⟩, g5⟩ := isolated_step h1 hst
    refine ⟨o2, g1, fun j q hq => ?_⟩
    rw [work_append]
    by_cases hj : j = i
    · subst hj
      rw [hp'] at hq; cases hq
      obtain ⟨w1, w2⟩ := h2 j p hp
      obtain ⟨w3, w4⟩ := local_within hl w2
      simp only [if_true]
      exact ⟨by omega, within_mono _ _ (by omega) w4⟩
    · rw [if_neg (fun h => hj h.symm)]
      obtain ⟨e1, e2⟩ := g5 j hj
      rw [e1] at hq
      rw [e2]
      exact h2 j q hq

/-! ## Bounds that hold whatever the memory holds -/

section caps
open Prog

theorem cap_ret {a : α} {n : Nat} {Q : α → Prop} (h : Q a) : Cap (.ret a : Prog F D α) n Q := h

theorem cap_rd {γ : Type} (l : Loc) (g : Cell F D → Prog F D γ) (h : ∀ c, Cap (g c) 0 (fun _ => True)) : Cap (.read l g) 1 (fun _ => True) :=
  ⟨le_refl _, h⟩

theorem cap_rdFlags : Cap (rdFlags : Prog F D SplitCfg) 1 (fun _ => True) := cap_rd _ _ fun c => by cases c <;> trivial
theorem cap_rdBool (l : Loc) : Cap (rdBool l : Prog F D Bool) 1 (fun _ => True) := cap_rd _ _ fun c => by cases c <;> trivial
theorem cap_rdNat (l : Loc) : Cap (rdNat l : Prog F D Nat) 1 (fun _ => True) := cap_rd _ _ fun c => by cases c <;> trivial
theorem cap_rdTrie : Cap (rdTrie : Prog F D Trie) 1 (fun _ => True) := cap_rd _ _ fun c => by cases c <;> trivial
theorem cap_rdTok (i : Nat) : Cap (rdTok i : Prog F D (MTok F)) 1 (fun _ => True) := cap_rd _ _ fun c => by cases c <;> trivial
theorem cap_rdDist (i : Nat) : Cap (rdDist i : Prog F D D) 1 (fun _ => True) := cap_rd _ _ fun c => by cases c <;> trivial
theorem cap_rdByte (a i : Nat) : Cap (rdByte a i : Prog F D UInt8) 1 (fun _ => True) := cap_rd _ _ fun c => by cases c <;> trivial
theorem cap_rdWord (a i : Nat) : Cap (rdWord a i : Prog F D Slice) 1 (fun _ => True) := cap_rd _ _ fun c => by cases c <;> trivial
theorem cap_rdJumper (a i : Nat) : Cap (rdJumper a i : Prog F D (MJumper D)) 1 (fun _ => True) := cap_rd _ _ fun c => by cases c <;> trivial
theorem cap_rdRef (a i : Nat) : Cap (rdRef a i : Prog F D (Option MRef)) 1 (fun _ => True) := cap_rd _ _ fun c => by cases c <;> trivial
theorem cap_rdSeg (a i : Nat) : Cap (rdSeg a i : Prog F D MSeg) 1 (fun _ => True) := cap_rd _ _ fun c => by cases c <;> trivial
theorem cap_wr (a i : Nat) (c : Cell F D) : Cap (wr a i c) 1 (fun _ => True) := ⟨le_refl _, trivial⟩
theorem cap_make (cs : List (Cell F D)) : Cap (make cs) (cs.length + 1) (fun _ => True) := ⟨le_refl _, fun _ => trivial⟩

theorem cap_rdBytes (a : Nat) : ∀ (n i : Nat), Cap (rdBytes a i n : Prog F D Bytes) n (fun bs => bs.length = n)
  | 0, _ => rfl
  | n + 1, i => cap_bind 1 n (by omega) (cap_rdByte a i) fun _ _ =>
      cap_bind n 0 (by omega) (cap_rdBytes a n (i + 1)) fun bs h => cap_ret (by simp [h])

theorem cap_lowLoop (s : Slice) (a : Nat) : ∀ (n i : Nat), Cap (lowLoopP s a i n : Prog F D Unit) (2 * n) (fun _ => True)
  | 0, _ => trivial
  | n + 1, i => cap_bind 1 (2 * n + 1) (by omega) (cap_rdByte _ _) fun _ _ =>
      cap_bind 1 (2 * n) (by omega) (cap_wr _ _ _) fun _ _ => cap_lowLoop s a n (i + 1)

theorem cap_toLow (s : Slice) : Cap (toLowP s : Prog F D Slice) (3 * s.len + 2) (fun _ => True) := by
  refine cap_bind 1 (3 * s.len + 1) (by omega) cap_rdFlags fun c _ => ?_
  split
  · refine cap_bind (s.len + 1) (2 * s.len) (by omega) (by simpa using cap_make (List.replicate s.len (.byte 0))) fun a _ => ?_
    exact cap_bind (2 * s.len) 0 (by omega) (cap_lowLoop s a s.len 0) fun _ _ => trivial
  · trivial

/-- Bytes of the word that is being collected. -/
def pending (inAl : Bool) (start current : Nat) : Nat := if inAl then current - start else 0

theorem cap_splitLoop [Unicode] (text : Slice) : ∀ (fuel current start : Nat) (inAl : Bool) (out : List Slice), current ≤ text.len →
    Cap (splitLoopP text fuel current start inAl out : Prog F D (List Slice))
      (7 * fuel + 3 + 3 * pending inAl start current + 6 * (text.len - current)) (fun r => r.length ≤ out.length + 2 * fuel + 1) := by
  intro fuel
  have base : ∀ (f current start : Nat) (inAl : Bool) (out : List Slice),
      Cap (splitLoopP text 0 current start inAl out : Prog F D (List Slice))
        (7 * f + 3 + 3 * pending inAl start current + 6 * (text.len - current)) (fun r => r.length ≤ out.length + 2 * f + 1) := by
    intro f current start inAl out
    unfold splitLoopP
    refine cap_bind 1 (2 + 3 * pending inAl start current) (by omega) cap_rdFlags fun c _ => ?_
    split
    · next h =>
      split
      · have hin : inAl = true := by revert h; cases inAl <;> simp
        subst hin
        refine cap_bind (3 * (current - start) + 2) 0 (by simp [pending]; omega) (cap_toLow (text.sub start current)) fun w _ => cap_ret ?_
        simp
      · exact cap_ret (by omega)
    · exact cap_ret (by omega)
  induction fuel with
  | zero => intro current start inAl out _; exact base 0 current start inAl out
  | succ fuel ih =>
    intro current start inAl out hc
    unfold splitLoopP
    split
    · next hlt =>
      refine cap_bind (min 4 (text.len - current)) (7 * fuel + 6 + 3 * pending inAl start current + 6 * (text.len - current)) (by omega)
        (cap_rdBytes _ _ _) fun bs hbs => ?_
      refine cap_bind 1 (7 * fuel + 5 + 3 * pending inAl start current + 6 * (text.len - current)) (by omega) cap_rdFlags fun c _ => ?_
      have hsz : current + (decodeRune bs).2 ≤ text.len := by
        have := decodeRune_size_le bs
        omega
      generalize (decodeRune bs).2 = size at hsz ⊢
      generalize (decodeRune bs).1 = r
      have fin : ∀ (start' : Nat) (inAl' : Bool) (out' : List Slice) (m : Nat), out'.length ≤ out.length + 2 →
          7 * fuel + 3 + 3 * pending inAl' start' (current + size) + 6 * (text.len - (current + size)) ≤ m →
          Cap (splitLoopP text fuel (current + size) start' inAl' out' : Prog F D (List Slice)) m (fun r => r.length ≤ out.length + 2 * (fuel + 1) + 1) :=
        fun start' inAl' out' m ho hm => cap_mono (fun r hr => by omega) _ hm (ih _ start' inAl' out' hsz)
      have hp : pending true (if !inAl then current else start) (current + size) ≤ pending inAl start current + size := by
        cases inAl <;> simp [pending]; omega
      simp only
      split
      · split
        · refine cap_bind (3 * size + 2) (7 * fuel + 3 + 3 * pending inAl start current + 3 * size + 6 * (text.len - (current + size))) (by omega)
            (by simpa [Slice.sub] using cap_toLow (text.sub current (current + size))) fun w _ => ?_
          exact fin _ _ _ _ (by simp) (by omega)
        · exact fin _ _ _ _ (by simp) (by omega)
      · split
        · next h =>
          have hin : inAl = true := by revert h; cases inAl <;> simp
          subst hin
          refine cap_bind (3 * (current - start) + 2) (7 * fuel + 3 + 6 * (text.len - (current + size))) (by simp [pending]; omega)
            (cap_toLow (text.sub start current)) fun w _ => ?_
          exact fin _ _ _ _ (by simp) (by simp [pending])
        · exact fin _ _ _ _ (by simp) (by simp [pending]; omega)
    · exact base (fuel + 1) current start inAl out

theorem cap_split [Unicode] (text : Slice) : Cap (splitP text : Prog F D Slice) (15 * text.len + 5) (fun _ => True) := by
  refine cap_bind (13 * text.len + 3) (2 * text.len + 2) (by omega)
    (cap_mono (fun _ h => h) _ ?_ (cap_splitLoop text text.len 0 0 true [] (by omega))) fun ws hws => ?_
  · simp [pending]; omega
  · simp only [List.length_nil] at hws
    exact cap_bind (ws.length + 1) 0 (by omega) (by simpa using cap_make (ws.map Cell.word)) fun _ _ => trivial

variable [F64 F] [F32 D]

theorem cap_deref (r : Option MRef) : Cap (derefP r : Prog F D (Nat × Nat)) 1 (fun _ => True) := by
  match r with
  | none => trivial
  | some (.idx v) => exact cap_bind 1 0 (by omega) (cap_rdTok v) fun _ _ => trivial
  | some (.pseudo s) => trivial

theorem cap_dist (r : Option MRef) : Cap (distP r : Prog F D D) 1 (fun _ => True) := by
  match r with
  | none => trivial
  | some (.idx v) => exact cap_rdDist v
  | some (.pseudo s) => trivial

theorem cap_updateJumper (j i : Nat) (base : D) (r : Option MRef) (y : D) : Cap (updateJumperP j i base r y : Prog F D Unit) 2 (fun _ => True) := by
  refine cap_bind 1 1 (by omega) (cap_rdJumper _ _) fun x _ => ?_
  split
  · exact cap_wr _ _ _
  · trivial

theorem cap_updateAll (b j n : Nat) (sm : Bool) (current : Nat) (base : D) :
    ∀ (k i : Nat), Cap (updateAllP b j n sm current base k i : Prog F D Unit) (5 * k) (fun _ => True)
  | 0, _ => trivial
  | k + 1, i => by
    refine cap_bind 1 (5 * k + 4) (by omega) (cap_rdRef _ _) fun r _ => ?_
    refine cap_bind 1 (5 * k + 3) (by omega) (cap_deref r) fun x _ => ?_
    split
    · split
      · trivial
      · refine cap_bind 1 (5 * k + 2) (by omega) (cap_dist r) fun y _ => ?_
        exact cap_bind 2 (5 * k) (by omega) (cap_updateJumper _ _ _ _ _) fun _ _ => cap_updateAll b j n sm current base k (i + 1)
    · exact cap_mono (fun _ h => h) _ (by omega) (cap_updateAll b j n sm current base k (i + 1))

theorem cap_base (j current : Nat) : Cap (baseP j current : Prog F D D) 1 (fun _ => True) := by
  unfold baseP
  split
  · trivial
  · exact cap_bind 1 0 (by omega) (cap_rdJumper _ _) fun _ _ => trivial

theorem cap_needPseudo (b num : Nat) : Cap (needPseudoP b num : Prog F D Bool) 2 (fun _ => True) := by
  unfold needPseudoP
  split
  · trivial
  · exact cap_bind 1 1 (by omega) (cap_rdRef _ _) fun r _ => cap_bind 1 0 (by omega) (cap_deref r) fun _ _ => trivial

theorem cap_count (j : Nat) : ∀ (fuel n num : Nat), Cap (countP j fuel n num : Prog F D Nat) (2 * fuel) (fun r => r ≤ num + fuel)
  | _, 0, num => by unfold countP; exact cap_ret (by omega)
  | 0, _ + 1, _ => trivial
  | fuel + 1, n + 1, num => by
    refine cap_bind 1 (2 * fuel + 1) (by omega) (cap_rdJumper _ _) fun x _ => ?_
    refine cap_bind 1 (2 * fuel) (by omega) (cap_deref _) fun y _ => ?_
    exact cap_mono (fun r h => by omega) _ (le_refl _) (cap_count j fuel _ (num + 1))

theorem cap_fill (j o len : Nat) : ∀ (fuel n num : Nat), Cap (fillP j o len fuel n num : Prog F D Unit) (3 * fuel) (fun _ => True)
  | _, 0, num => by unfold fillP; trivial
  | 0, _ + 1, _ => trivial
  | fuel + 1, n + 1, num => by
    refine cap_bind 1 (3 * fuel + 2) (by omega) (cap_rdJumper _ _) fun x _ => ?_
    refine cap_bind 1 (3 * fuel + 1) (by omega) (cap_deref _) fun y _ => ?_
    split
    · trivial
    · exact cap_bind 1 (3 * fuel) (by omega) (cap_wr _ _ _) fun _ _ => cap_fill j o len fuel _ _

theorem cap_positions (o : Nat) : ∀ (k i p : Nat), Cap (positionsP o k i p : Prog F D Unit) (3 * k) (fun _ => True)
  | 0, _, _ => trivial
  | k + 1, i, p => by
    refine cap_bind 1 (3 * k + 2) (by omega) (cap_rdSeg _ _) fun s _ => ?_
    refine cap_bind 1 (3 * k + 1) (by omega) (cap_deref _) fun y _ => ?_
    exact cap_bind 1 (3 * k) (by omega) (cap_wr _ _ _) fun _ _ => cap_positions o k (i + 1) _

end caps

/-! ## The path search -/

section search
open Prog
variable [F64 F] [F32 D] [Narrow F D] {sh : Mem F D} {cfg : SplitCfg} {d : Dictionary F D} {a b cap j : Nat} {text : List Bytes} {js : List (Jumper D)}
  {o : Mem F D}

/-- Bytes of some words. -/
def byteLen (ws : List Bytes) : Nat := (ws.map List.length).sum

theorem byteLen_cons (w : Bytes) (ws : List Bytes) : byteLen (w :: ws) = w.length + byteLen ws := by simp [byteLen]

theorem byteLen_append (l ws : List Bytes) : byteLen (l ++ ws) = byteLen l + byteLen ws := by simp [byteLen]

theorem lookupLoop_length : ∀ (ws : List Bytes) (id : Bytes) (acc found : List Nat), d.lookupLoop cap ws id acc = some found →
    found.length ≤ acc.length + ws.length
  | [], _, _, _, h => by simp only [Dictionary.lookupLoop, Option.some.injEq] at h; subst h; simp
  | w :: ws, id, acc, found, h => by
    unfold Dictionary.lookupLoop at h
    split at h
    · simp only [Option.some.injEq] at h; subst h; simp
    · split at h
      · split at h
        · have := lookupLoop_length ws _ _ _ h
          simp only [List.length_append, List.length_cons, List.length_nil] at this ⊢; omega
        · cases h
      · have := lookupLoop_length ws _ _ _ h
        simp only [List.length_cons]; omega

theorem within_lookup (hS : HoldsTable sh cfg (some d)) {found : List Nat} :
    ∀ (k i : Nat) (id : Bytes) (acc : List Nat) (o : Mem F D), i + k ≤ text.length → d.lookupLoop cap ((text.drop i).take k) id acc = some found →
      LoopInv sh a b cap j text js o →
      within sh (lookupP a b cap k i id acc.length) o (byteLen ((text.drop i).take k) + 5 * k) := by
  intro k
  induction k with
  | zero => intro i id acc o _ hl hI; trivial
  | succ k ih =>
    intro i id acc o hik hl hI
    obtain ⟨w, hw, he⟩ := drop_take_cons hik
    rw [he] at hl ⊢
    obtain ⟨s, hs, hsw⟩ := hI.words i w hw
    have hlen := hsw.1
    generalize hrest : byteLen ((text.drop (i + 1)).take k) = rest
    rw [show byteLen (w :: (text.drop (i + 1)).take k) = w.length + rest by rw [← hrest]; simp [byteLen]]
    unfold lookupP
    refine within_bind 1 (w.length + rest + 5 * k + 4) (by omega) (cap_rdWord _ _).within (wp_read hs (wp_ret ?_))
    refine within_bind w.length (rest + 5 * k + 4) (by omega) (by rw [hlen]; exact (cap_rdBytes _ _ _).within) (wp_rdSlice hsw ?_)
    refine within_bind 1 (rest + 5 * k + 3) (by omega) cap_rdTrie.within (wp_read (view_shared hI.apart (hS.trie d rfl)) (wp_ret ?_))
    unfold Dictionary.lookupLoop at hl
    cases hj : d.trie.jump w id with
    | none => trivial
    | some id' =>
      rw [hj] at hl
      simp only at hl ⊢
      refine within_bind 1 (rest + 5 * k + 2) (by omega) cap_rdTrie.within (wp_read (view_shared hI.apart (hS.trie d rfl)) (wp_ret ?_))
      cases hv : d.trie.value id' with
      | none =>
        rw [hv] at hl
        exact within_mono _ _ (by omega) (ih (i + 1) id' acc o (by omega) hl hI)
      | some v =>
        rw [hv] at hl
        simp only at hl ⊢
        refine within_bind 1 (rest + 5 * k + 1) (by omega) (cap_rdNat _).within (wp_read (view_shared hI.apart (hS.tokHdr d rfl)) (wp_ret ?_))
        split at hl
        · next hc =>
          rw [if_pos hc]
          obtain ⟨r0, h0⟩ := hI.buf acc.length hc.1
          refine within_bind 1 (rest + 5 * k) (by omega) (cap_wr _ _ _).within (wp_wr (by rw [h0]; rfl) ?_)
          have := ih (i + 1) id' (acc ++ [v]) _ (by omega) hl (hI.putRef hc.1 (some (.idx v)))
          rw [hrest] at this
          simpa using this
        · cases hl

/-- The words looked up from `current` on. -/
def window (L : Nat) (text : List Bytes) (current : Nat) : List Bytes := (text.drop current).take (min (current + L) text.length - current)

theorem within_segStep (hS : HoldsSegmenter sh cfg (some d)) (hI : LoopInv sh a b d.maxTokenLen j text js o) (hn : js.length = text.length)
    {sm : Bool} {current : Nat} (hc : current < text.length) {js' : List (Jumper D)} (h : segStep d text sm current js = some js') :
    within sh (segStepP a b d.maxTokenLen j text.length sm current) o (byteLen (window d.maxTokenLen text current) + 10 * d.maxTokenLen + 7) := by
  unfold segStep at h
  obtain ⟨base, h1, h⟩ := Option.bind_eq_some_iff.mp h
  obtain ⟨found, h2, h⟩ := Option.bind_eq_some_iff.mp h
  obtain ⟨js1, h3, h⟩ := Option.bind_eq_some_iff.mp h
  obtain ⟨need, h4, h⟩ := Option.bind_eq_some_iff.mp h
  have hfound : found.length ≤ d.maxTokenLen := by
    have := lookupLoop_length _ _ _ _ h2
    simp only [slice, List.length_take, List.length_nil] at this; omega
  unfold segStepP
  generalize hbl : byteLen (window d.maxTokenLen text current) = bl
  refine within_bind 1 (bl + 10 * d.maxTokenLen + 6) (by omega) (cap_base _ _).within (wp_base hI h1 ?_)
  refine within_bind 1 (bl + 10 * d.maxTokenLen + 5) (by omega) (cap_rdNat _).within (wp_read (view_shared hI.apart (hS.maxLen d rfl)) (wp_ret ?_))
  have hwin : byteLen ((text.drop current).take (min (current + d.maxTokenLen) text.length - current)) = bl := hbl
  refine within_bind (bl + 5 * (min (current + d.maxTokenLen) text.length - current)) (5 * d.maxTokenLen + 5) (by omega) ?_
    (wp_mono ?_ _ _ (wp_lookup hS.toHoldsTable _ current [] [] o (by omega) h2 hI (by intro k v hv; simp at hv)))
  · have := within_lookup hS.toHoldsTable _ current [] [] o (by omega) h2 hI
    rw [hwin] at this; exact this
  rintro num o1 ⟨rfl, hI1, hB1⟩
  refine within_bind (5 * found.length) 5 (by omega) (cap_updateAll _ _ _ _ _ _ _ _).within
    (wp_mono ?_ _ _ (wp_updateAll hS found.length 0 js o1 (by omega) hn h3 hI1 hB1))
  rintro _ o2 ⟨hI2, hB2, hn2⟩
  refine within_bind 2 3 (by omega) (cap_needPseudo _ _).within (wp_needPseudo hS.toHoldsTable hI2.apart hB2 h4 ?_)
  cases need with
  | false => trivial
  | true =>
    exact (cap_bind 1 2 (by omega) (cap_rdWord _ _) fun _ _ => cap_updateJumper _ _ _ _ _).within

/-- Work of the lookups from `current` for `k` more positions. -/
def windows (L : Nat) (text : List Bytes) : Nat → Nat → Nat
  | 0, _ => 0
  | k + 1, current => byteLen (window L text current) + windows L text k (current + 1)

theorem within_segLoop (hS : HoldsSegmenter sh cfg (some d)) {sm : Bool} {js' : List (Jumper D)} :
    ∀ (k current : Nat) (js : List (Jumper D)) (o : Mem F D), current + k = text.length → js.length = text.length →
      LoopInv sh a b d.maxTokenLen j text js o → segLoop d text sm k current js = some js' →
      within sh (segLoopP a b d.maxTokenLen j text.length sm k current) o (windows d.maxTokenLen text k current + k * (10 * d.maxTokenLen + 7)) := by
  intro k
  induction k with
  | zero => intro current js o _ _ hI h; trivial
  | succ k ih =>
    intro current js o hk hn hI h
    unfold segLoop at h
    obtain ⟨js1, h1, h⟩ := Option.bind_eq_some_iff.mp h
    unfold segLoopP windows
    refine within_bind (byteLen (window d.maxTokenLen text current) + 10 * d.maxTokenLen + 7) (windows d.maxTokenLen text k (current + 1) + k * (10 * d.maxTokenLen + 7))
      (by have := Nat.succ_mul k (10 * d.maxTokenLen + 7); simp only [Nat.succ_eq_add_one] at this; rw [this]; omega) (within_segStep hS hI hn (by omega) h1) (wp_mono ?_ _ _ (wp_segStep hS hI hn (by omega) h1))
    rintro _ o1 ⟨hI1, hn1⟩
    exact ih (current + 1) js1 o1 (by omega) hn1 hI1 h

theorem byteLen_take_succ (l : List Bytes) (n : Nat) : byteLen (l.take (n + 1)) = byteLen (l.take n) + ((l[n]?).map List.length).getD 0 := by
  induction l generalizing n with
  | nil => simp [byteLen]
  | cons w l ih =>
    cases n with
    | zero => simp [byteLen]
    | succ n =>
      have := ih n
      simp only [byteLen, List.take_succ_cons, List.map_cons, List.sum_cons, List.getElem?_cons_succ] at this ⊢
      omega

/-- Every word is in `L` windows at most. -/
theorem windows_le (text : List Bytes) : ∀ (k current L : Nat), current + k = text.length → windows L text k current ≤ L * byteLen (text.drop current) := by
  have hwin : ∀ L current, window L text current = (text.drop current).take L := by
    intro L current
    unfold window
    rw [List.take_eq_take_iff]; simp; omega
  have hshift : ∀ (k current L : Nat), current + k = text.length →
      windows (L + 1) text k current ≤ windows L text k current + byteLen ((text.drop current).drop L) := by
    intro k
    induction k with
    | zero => intro current L _; simp [windows]
    | succ k ih =>
      intro current L hk
      have h1 := ih (current + 1) L (by omega)
      simp only [windows, hwin, byteLen_take_succ]
      have h2 : byteLen ((text.drop current).drop L) = (((text.drop current)[L]?).map List.length).getD 0 + byteLen ((text.drop (current + 1)).drop L) := by
        rw [List.drop_drop, List.drop_drop, List.getElem?_drop]
        cases h : text[current + L]? with
        | none =>
          have := List.getElem?_eq_none_iff.mp h
          rw [List.drop_eq_nil_of_le (by omega), List.drop_eq_nil_of_le (by omega)]; simp [byteLen]
        | some w =>
          obtain ⟨hlt, rfl⟩ := List.getElem?_eq_some_iff.mp h
          rw [List.drop_eq_getElem_cons hlt, show current + 1 + L = current + L + 1 by omega, byteLen_cons]; rfl
      omega
  intro k current L hk
  induction L with
  | zero =>
    have : ∀ k current, windows 0 text k current = 0 := by
      intro k
      induction k with
      | zero => intro _; rfl
      | succ k ih => intro c; simp [windows, ih, hwin, byteLen]
    rw [this]; omega
  | succ L ih =>
    have h1 := hshift k current L hk
    have h2 : byteLen ((text.drop current).drop L) ≤ byteLen (text.drop current) := by
      conv => rhs; rw [← List.take_append_drop L (text.drop current), byteLen_append]
      omega
    rw [Nat.succ_mul]; omega

/-- The length bound a segmenter works with. -/
def maxLenOf : Option (Dictionary F D) → Nat
  | none => 0
  | some d => d.maxTokenLen

theorem within_segmentWords {dict : Option (Dictionary F D)} (hS : HoldsSegmenter sh cfg dict) {r : Slice} (ha : Apart sh o) (hlen : r.len = text.length)
    (hw : WordsAt (view sh o) r.arr text) {sm : Bool} {segs : List Seg} (h : segmentWords dict text sm = some segs) :
    within sh (segmentWordsP r sm) o
      (maxLenOf dict * byteLen text + text.length * (10 * maxLenOf dict + 7) + 10 * text.length + maxLenOf dict + 14) := by
  unfold segmentWords at h
  unfold segmentWordsP
  rw [hlen]
  split at h
  · next hc => rw [if_pos hc]; trivial
  · next hc =>
    rw [if_neg hc]
    generalize hloop : maxLenOf dict * byteLen text + text.length * (10 * maxLenOf dict + 7) = loop
    refine within_bind (text.length + 1) (loop + 9 * text.length + maxLenOf dict + 13) (by omega)
      (by simpa using (cap_make (List.replicate text.length (Cell.jumper ⟨F32.zero, none⟩))).within) (wp_make fun j hoj hsj => ?_)
    have ha1 := ha.extend (List.replicate text.length (Cell.jumper ⟨F32.zero, none⟩)) hsj
    refine within_bind 1 (loop + 9 * text.length + maxLenOf dict + 12) (by omega) (cap_rdBool _).within
      (wp_read (view_shared ha1 hS.segDict) (wp_ret ?_))
    cases dict with
    | none => trivial
    | some d =>
      obtain ⟨js, h1, h⟩ := Option.bind_eq_some_iff.mp h
      simp only [maxLenOf] at hloop ⊢
      refine within_bind 1 (loop + 9 * text.length + d.maxTokenLen + 11) (by omega) (cap_rdNat _).within
        (wp_read (view_shared ha1 (hS.maxLen d rfl)) (wp_ret ?_))
      refine within_bind (d.maxTokenLen + 1) (loop + 9 * text.length + 10) (by omega)
        (by simpa using (cap_make (List.replicate d.maxTokenLen (Cell.ref none))).within) (wp_make fun b hob hsb => ?_)
      have ha2 := ha1.extend (List.replicate d.maxTokenLen (Cell.ref none)) hsb
      have hg1 := view_grows ha1 (grows_extend (List.replicate text.length (Cell.jumper ⟨F32.zero, none⟩)) hoj)
      have hg2 := view_grows ha2 (grows_extend (List.replicate d.maxTokenLen (Cell.ref none)) hob)
      have hI : LoopInv sh r.arr b d.maxTokenLen j text (List.replicate text.length ⟨F32.zero, none⟩)
          ((o.extend j (List.replicate text.length (Cell.jumper ⟨F32.zero, none⟩))).extend b (List.replicate d.maxTokenLen (Cell.ref none))) := by
        refine ⟨ha2, (hw.keep hg1.bytes fun l s hs => hg1 l _ hs).keep hg2.bytes fun l s hs => hg2 l _ hs, ?_, ?_⟩
        · intro k hk
          exact ⟨none, by rw [extend_cell, List.getElem?_replicate, if_pos hk]⟩
        · intro k x hx
          rw [List.getElem?_replicate] at hx
          split at hx
          · next hk =>
            simp only [Option.some.injEq] at hx; subst hx
            refine ⟨none, ?_, trivial⟩
            apply grows_extend _ hob
            rw [extend_cell, List.getElem?_replicate, if_pos hk]
          · cases hx
      have hwl := windows_le text text.length 0 d.maxTokenLen (by omega)
      rw [List.drop_zero] at hwl
      refine within_bind loop (9 * text.length + 10) (by omega)
        (within_mono _ _ (by omega) (within_segLoop hS text.length 0 _ _ (by omega) (by simp) hI h1))
        (wp_mono ?_ _ _ (wp_segLoop hS text.length 0 _ _ (by omega) (by simp) hI h1))
      intro _ o3 _
      refine Cap.within (Q := fun _ => True) ?_
      refine cap_bind (2 * (text.length + 1)) (7 * text.length + 8) (by omega) (cap_count j (text.length + 1) text.length 0) fun num hnum => ?_
      refine cap_bind (num + 1) (6 * text.length + 6) (by omega) (by simpa using cap_make (List.replicate num (Cell.seg ⟨0, 0, none⟩))) fun q _ => ?_
      refine cap_bind (3 * (text.length + 1)) (3 * text.length + 3) (by omega) (cap_fill _ _ _ _ _ _) fun _ _ => ?_
      exact cap_bind (3 * num) 0 (by omega) (cap_positions _ _ _ _) fun _ _ => trivial

theorem byteLen_flatten (ws : List Bytes) : byteLen ws = ws.flatten.length := by simp [byteLen, List.length_flatten]

theorem length_le_byteLen : ∀ (ws : List Bytes), (∀ w ∈ ws, w ≠ []) → ws.length ≤ byteLen ws
  | [], _ => by simp
  | w :: ws, h => by
    have h1 := length_le_byteLen ws fun x hx => h x (List.mem_cons_of_mem _ hx)
    have h2 := List.length_pos_iff.mpr (h w (List.mem_cons_self ..))
    simp only [byteLen, List.map_cons, List.sum_cons, List.length_cons] at h1 ⊢; omega

/-- The work of one call on a text of `B` bytes with length bound `L`. -/
def segmentBound (L B : Nat) : Nat := 11 * L * B + 32 * B + L + 19

theorem segmentBound_eq (L B : Nat) : 15 * B + 5 + (L * B + B * (10 * L + 7) + 10 * B + L + 14) = segmentBound L B := by
  unfold segmentBound; ring

theorem within_segment [Unicode] {dict : Option (Dictionary F D)} (hS : HoldsSegmenter sh cfg dict) {r : Slice} {s : Bytes} (hr : HoldsBytes sh r s) (ha : Apart sh o)
    {sm : Bool} {segs : List Seg} (h : internalSegment cfg dict s sm = some segs) :
    within sh (segmentP r sm) o (segmentBound (maxLenOf dict) s.length) := by
  unfold internalSegment at h
  unfold segmentP
  rw [← hr.1]
  split at h
  · next hc => rw [if_pos hc]; trivial
  · next hc =>
    rw [if_neg hc]
    have h1 : byteLen (splitTextToWords cfg s) = s.length := by rw [byteLen_flatten]; exact (C01_split_bytes cfg s).1
    have h2 := length_le_byteLen _ fun w hw => C02_words_nonempty cfg s w hw
    rw [h1] at h2
    refine within_bind (15 * s.length + 5) (maxLenOf dict * s.length + s.length * (10 * maxLenOf dict + 7) + 10 * s.length + maxLenOf dict + 14)
      (t := segmentBound (maxLenOf dict) s.length) (segmentBound_eq _ _).le (by rw [hr.1]; exact (cap_split r).within) (wp_mono ?_ _ _ (wp_split hS.flags hr ha))
    rintro x o' ⟨g1, g2, g3⟩
    refine within_mono _ _ ?_ (within_segmentWords hS g1 g2 g3 h)
    rw [h1]
    have := Nat.mul_le_mul_right (10 * maxLenOf dict + 7) h2
    omega

end search
end Gse
