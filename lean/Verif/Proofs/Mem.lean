import Verif.Model.SegMem
import Mathlib.Logic.Hydra

/-!
# Programs that write only memory of their own

`wp sh p o Q`: started with own memory `o` beside the read-only shared memory `sh`, the program `p` does not panic,
reads only `sh` and its own memory, writes only its own memory, and ends with `Q`. Programs with this property do not
notice each other (`isolated`).
-/

namespace Gse

variable {F D α β : Type}

/-- What a goroutine sees: its own memory, then the shared one. -/
def view (sh o : Mem F D) : Mem F D := fun l => (o l).or (sh l)

/-- See the head of this file. -/
def wp (sh : Mem F D) : Prog F D α → Mem F D → (α → Mem F D → Prop) → Prop
  | .ret a, o, Q => Q a o
  | .panic, _, _ => False
  | .read l k, o, Q => ∃ c, view sh o l = some c ∧ wp sh (k c) o Q
  | .write l c k, o, Q => (o l).isSome ∧ wp sh k (o.put l c) Q
  | .alloc cs k, o, Q => ∀ a, o.Unused a → sh.Unused a → wp sh (k a) (o.extend a cs) Q

theorem wp_mono {sh : Mem F D} {Q R : α → Mem F D → Prop} (h : ∀ a o, Q a o → R a o) :
    ∀ (p : Prog F D α) (o : Mem F D), wp sh p o Q → wp sh p o R
  | .ret _, _, hp => h _ _ hp
  | .panic, _, hp => hp
  | .read _ k, o, ⟨c, hc, hp⟩ => ⟨c, hc, wp_mono h (k c) o hp⟩
  | .write _ _ k, _, ⟨hl, hp⟩ => ⟨hl, wp_mono h k _ hp⟩
  | .alloc _ k, _, hp => fun a h1 h2 => wp_mono h (k a) _ (hp a h1 h2)

theorem wp_bind' {sh : Mem F D} {f : α → Prog F D β} {Q : β → Mem F D → Prop} :
    ∀ (p : Prog F D α) (o : Mem F D), wp sh p o (fun a o' => wp sh (f a) o' Q) → wp sh (p.bind f) o Q
  | .ret _, _, hp => hp
  | .panic, _, hp => hp
  | .read _ k, o, ⟨c, hc, hp⟩ => ⟨c, hc, wp_bind' (k c) o hp⟩
  | .write _ _ k, _, ⟨hl, hp⟩ => ⟨hl, wp_bind' k _ hp⟩
  | .alloc _ k, _, hp => fun a h1 h2 => wp_bind' (k a) _ (hp a h1 h2)

theorem wp_bind {sh : Mem F D} {f : α → Prog F D β} {Q : β → Mem F D → Prop} {p : Prog F D α} {o : Mem F D}
    (h : wp sh p o (fun a o' => wp sh (f a) o' Q)) : wp sh (p >>= f) o Q := wp_bind' p o h

theorem wp_ret {sh : Mem F D} {Q : α → Mem F D → Prop} {a : α} {o : Mem F D} (h : Q a o) : wp sh (.ret a) o Q := h

/-! ## Any interleaving -/

/-- Every goroutine has memory of its own, apart from the shared one and from the others', and goes on as `wp` says. -/
structure Isolated (sh : Mem F D) (c : Config F D α) (own : Nat → Mem F D) (Q : Nat → α → Mem F D → Prop) : Prop where
  shared : ∀ l x, sh l = some x → c.mem l = some x
  mine : ∀ i l x, own i l = some x → c.mem l = some x
  apart : ∀ i l x, own i l = some x → sh l = none
  disjoint : ∀ i j l x, i ≠ j → own i l = some x → own j l = none
  goes : ∀ i p, c.threads[i]? = some p → wp sh p (own i) (Q i)

/-- What an access may touch. -/
def Access.Fits (sh : Mem F D) (own : Mem F D) : Access → Prop
  | .rd l => (view sh own l).isSome
  | .wr l => (own l).isSome
  | .al _ _ => True

theorem view_some {sh o : Mem F D} {l : Loc} {x : Cell F D} :
    view sh o l = some x ↔ o l = some x ∨ (o l = none ∧ sh l = some x) := by
  unfold view; cases h : o l <;> simp

theorem put_same (m : Mem F D) (l : Loc) (c : Cell F D) : m.put l c l = some c := by simp [Mem.put]

theorem put_other (m : Mem F D) {l l' : Loc} (c : Cell F D) (h : l' ≠ l) : m.put l c l' = m l' := by simp [Mem.put, h]

theorem extend_cell (m : Mem F D) (a i : Nat) (cs : List (Cell F D)) : m.extend a cs (.cell a i) = cs[i]? := by
  simp [Mem.extend]

theorem extend_other (m : Mem F D) {a : Nat} (cs : List (Cell F D)) {l : Loc} (h : ∀ i, l ≠ .cell a i) :
    m.extend a cs l = m l := by
  cases l with
  | cell a' i =>
    have : a' ≠ a := by rintro rfl; exact h i rfl
    simp [Mem.extend, this]
  | _ => rfl

theorem extend_unused {m : Mem F D} {a : Nat} (cs : List (Cell F D)) (hu : m.Unused a) {l : Loc} {x : Cell F D}
    (h : m l = some x) : m.extend a cs l = some x := by
  rw [extend_other _ _ (by rintro i rfl; rw [hu i] at h; cases h)]; exact h

/-- What a step is for the goroutine that makes it. -/
inductive Local (sh : Mem F D) : Prog F D α → Mem F D → Access → Prog F D α → Mem F D → Prop
  | read {l k o x} : view sh o l = some x → Local sh (.read l k) o (.rd l) (k x) o
  | write {l x k o} : Local sh (.write l x k) o (.wr l) k (o.put l x)
  | alloc {cs k o a} : o.Unused a → sh.Unused a → Local sh (.alloc cs k) o (.al a cs.length) (k a) (o.extend a cs)

theorem threads_set {γ : Type} {l : List γ} {i : Nat} {p : γ} (h : l[i]? = some p) (q : γ) :
    (l.set i q)[i]? = some q ∧ ∀ j, j ≠ i → (l.set i q)[j]? = l[j]? := by
  have hi := (List.getElem?_eq_some_iff.mp h).1
  exact ⟨by simp [hi], fun j hj => by rw [List.getElem?_set_ne (Ne.symm hj)]⟩

/-- One step keeps the goroutines isolated, and touches only what it may. -/
theorem isolated_step {sh : Mem F D} {c c' : Config F D α} {own : Nat → Mem F D} {Q : Nat → α → Mem F D → Prop} {i : Nat}
    {e : Access} (hI : Isolated sh c own Q) (hs : Step c i e c') :
    ∃ own', Isolated sh c' own' Q ∧ (∀ j l, (own j l).isSome → (own' j l).isSome) ∧ e.Fits sh (own i) ∧
      (∃ p p', c.threads[i]? = some p ∧ c'.threads[i]? = some p' ∧ Local sh p (own i) e p' (own' i)) ∧
      ∀ j, j ≠ i → c'.threads[j]? = c.threads[j]? ∧ own' j = own j := by
  cases hs with
  | @read l k x ht hm =>
    obtain ⟨c0, hc, hw⟩ := hI.goes i _ ht
    have hx : c0 = x := by
      rcases view_some.mp hc with h | ⟨_, h⟩
      · have := hI.mine i l c0 h; rw [hm] at this; exact (Option.some.inj this).symm
      · have := hI.shared l c0 h; rw [hm] at this; exact (Option.some.inj this).symm
    subst hx
    refine ⟨own, ⟨hI.shared, hI.mine, hI.apart, hI.disjoint, ?_⟩, fun _ _ h => h, by simp [Access.Fits, hc],
      ⟨_, _, ht, (threads_set ht _).1, .read hc⟩, fun j hj => ⟨(threads_set ht _).2 j hj, rfl⟩⟩
    intro j p hp
    rw [List.getElem?_set] at hp
    split at hp
    · next hij =>
      subst hij
      split at hp
      · cases hp; exact hw
      · cases hp
    · exact hI.goes j p hp
  | @readBad l k ht hm =>
    obtain ⟨c0, hc, _⟩ := hI.goes i _ ht
    rcases view_some.mp hc with h | ⟨_, h⟩
    · rw [hI.mine i l c0 h] at hm; cases hm
    · rw [hI.shared l c0 h] at hm; cases hm
  | @write l x k ht hm =>
    obtain ⟨hl, hw⟩ := hI.goes i _ ht
    obtain ⟨y, hy⟩ := Option.isSome_iff_exists.mp hl
    have hself : ∀ j, (if j = i then (own i).put l x else own j) l = if j = i then some x else own j l := by
      intro j; split
      · exact put_same _ _ _
      · rfl
    refine ⟨fun j => if j = i then (own i).put l x else own j, ⟨?_, ?_, ?_, ?_, ?_⟩, ?_, hl,
      ⟨_, _, ht, (threads_set ht _).1, by simpa using Local.write⟩, fun j hj => ⟨(threads_set ht _).2 j hj, if_neg hj⟩⟩
    · intro l' z hz
      have : l' ≠ l := by rintro rfl; rw [hI.apart i l' y hy] at hz; cases hz
      show c.mem.put l x l' = _
      rw [put_other _ _ this]; exact hI.shared l' z hz
    · intro j l' z hz
      show c.mem.put l x l' = _
      by_cases hl' : l' = l
      · subst hl'
        rw [put_same]
        simp only [hself] at hz
        split at hz
        · exact hz
        · next hji => rw [hI.disjoint i j l' y (fun h => hji h.symm) hy] at hz; cases hz
      · rw [put_other _ _ hl']
        split at hz
        · rw [put_other _ _ hl'] at hz; exact hI.mine i l' z hz
        · exact hI.mine j l' z hz
    · intro j l' z hz
      by_cases hl' : l' = l
      · subst hl'; exact hI.apart i l' y hy
      · split at hz
        · rw [put_other _ _ hl'] at hz; exact hI.apart i l' z hz
        · exact hI.apart j l' z hz
    · intro j j' l' z hne hz
      by_cases hl' : l' = l
      · subst hl'
        simp only [hself] at hz ⊢
        split at hz
        · next hji => subst hji; rw [if_neg (fun h => hne h.symm)]; exact hI.disjoint j j' l' y hne hy
        · next hji => rw [hI.disjoint i j l' y (fun h => hji h.symm) hy] at hz; cases hz
      · have hz' : own j l' = some z := by
          split at hz
          · next h => subst h; rw [put_other _ _ hl'] at hz; exact hz
          · exact hz
        split
        · next h => subst h; rw [put_other _ _ hl']; exact hI.disjoint j _ l' z hne hz'
        · exact hI.disjoint j j' l' z hne hz'
    · intro j p hp
      simp only [List.getElem?_set] at hp
      split at hp
      · next hij =>
        subst hij
        split at hp
        · cases hp; simpa using hw
        · cases hp
      · next hij => simp only [if_neg (fun h => hij (Eq.symm h))]; exact hI.goes j p hp
    · intro j l' h
      by_cases hl' : l' = l
      · subst hl'; simp only [hself]; split
        · rfl
        · exact h
      · simp only; split
        · next hji => subst hji; rw [put_other _ _ hl']; exact h
        · exact h
  | @writeBad l x k ht hm =>
    obtain ⟨hl, _⟩ := hI.goes i _ ht
    obtain ⟨y, hy⟩ := Option.isSome_iff_exists.mp hl
    rw [hI.mine i l y hy] at hm; cases hm
  | @alloc cs k a ht hu =>
    have hw := hI.goes i _ ht
    have hou : ∀ j, (own j).Unused a := by
      intro j n
      cases h : own j (.cell a n) with
      | none => rfl
      | some z => have := hI.mine j _ z h; rw [hu n] at this; cases this
    have hsu : sh.Unused a := by
      intro n
      cases h : sh (.cell a n) with
      | none => rfl
      | some z => have := hI.shared _ z h; rw [hu n] at this; cases this
    have hnew : ∀ l z, (own i).extend a cs l = some z → own i l = some z ∨ ∃ n, l = .cell a n ∧ cs[n]? = some z := by
      intro l z hz
      by_cases h : ∃ n, l = .cell a n
      · obtain ⟨n, rfl⟩ := h; rw [extend_cell] at hz; exact Or.inr ⟨n, rfl, hz⟩
      · rw [extend_other _ _ (fun n hn => h ⟨n, hn⟩)] at hz; exact Or.inl hz
    refine ⟨fun j => if j = i then (own i).extend a cs else own j, ⟨?_, ?_, ?_, ?_, ?_⟩, ?_, trivial,
      ⟨_, _, ht, (threads_set ht _).1, by simpa using Local.alloc (hou i) hsu⟩, fun j hj => ⟨(threads_set ht _).2 j hj, if_neg hj⟩⟩
    · intro l z hz; exact extend_unused cs hu (hI.shared l z hz)
    · intro j l z hz
      split at hz
      · rcases hnew l z hz with h | ⟨n, rfl, h⟩
        · exact extend_unused cs hu (hI.mine i l z h)
        · show c.mem.extend a cs (.cell a n) = _; rw [extend_cell]; exact h
      · exact extend_unused cs hu (hI.mine j l z hz)
    · intro j l z hz
      split at hz
      · rcases hnew l z hz with h | ⟨n, rfl, h⟩
        · exact hI.apart i l z h
        · exact hsu n
      · exact hI.apart j l z hz
    · intro j j' l z hne hz
      split at hz
      · next hji =>
        subst hji
        rw [if_neg (fun h => hne h.symm)]
        rcases hnew l z hz with h | ⟨n, rfl, h⟩
        · exact hI.disjoint j j' l z hne h
        · exact hou j' n
      · split
        · next hji' =>
          subst hji'
          rw [extend_other _ _ (by rintro n rfl; rw [hou j n] at hz; cases hz)]
          exact hI.disjoint j _ l z hne hz
        · exact hI.disjoint j j' l z hne hz
    · intro j p hp
      simp only [List.getElem?_set] at hp
      split at hp
      · next hij =>
        subst hij
        split at hp
        · cases hp; simpa using hw a (hou i) hsu
        · cases hp
      · next hij => simp only [if_neg (fun h => hij (Eq.symm h))]; exact hI.goes j p hp
    · intro j l h
      simp only; split
      · next hji =>
        subst hji
        obtain ⟨z, hz⟩ := Option.isSome_iff_exists.mp h
        rw [extend_unused cs (hou j) hz]; rfl
      · exact h

/-- A finite execution keeps the goroutines isolated, and every access touches only what it may. -/
theorem isolated_exec {sh : Mem F D} {c c' : Config F D α} {own : Nat → Mem F D} {Q : Nat → α → Mem F D → Prop}
    {tr : List (Nat × Access)} (hI : Isolated sh c own Q) (hs : Exec c tr c') :
    ∃ own', Isolated sh c' own' Q ∧ (∀ j l, (own j l).isSome → (own' j l).isSome) ∧
      ∀ i e, (i, e) ∈ tr → e.Fits sh (own' i) := by
  induction hs with
  | refl => exact ⟨own, hI, fun _ _ h => h, by simp⟩
  | @step tr c1 i e c2 _ hst ih =>
    obtain ⟨o1, h1, h2, h3⟩ := ih
    obtain ⟨o2, g1, g2, g3, _⟩ := isolated_step h1 hst
    have grow : ∀ j (e : Access), e.Fits sh (o1 j) → e.Fits sh (o2 j) := by
      intro j e he
      cases e with
      | rd l =>
        obtain ⟨x, hx⟩ := Option.isSome_iff_exists.mp he
        rcases view_some.mp hx with h | ⟨_, h⟩
        · obtain ⟨y, hy⟩ := Option.isSome_iff_exists.mp (g2 j l (by rw [h]; rfl))
          simp [Access.Fits, view, hy]
        · simp only [Access.Fits, view, h]; cases o2 j l <;> rfl
      | wr l => exact g2 j l he
      | al a n => trivial
    refine ⟨o2, g1, fun j l h => g2 j l (h2 j l h), ?_⟩
    intro j e' hmem
    rcases List.mem_append.mp hmem with h | h
    · exact grow j e' (h3 j e' h)
    · cases List.mem_singleton.mp h; exact grow _ _ g3

/-! ## Every execution ends -/

/-- `q` is what remains of `p` after one access. -/
inductive Smaller : Prog F D α → Prog F D α → Prop
  | read (l) (k : Cell F D → Prog F D α) (x) : Smaller (k x) (.read l k)
  | readBad (l) (k : Cell F D → Prog F D α) : Smaller .panic (.read l k)
  | write (l x) (k : Prog F D α) : Smaller k (.write l x k)
  | writeBad (l x) (k : Prog F D α) : Smaller .panic (.write l x k)
  | alloc (cs) (k : Nat → Prog F D α) (a) : Smaller (k a) (.alloc cs k)

theorem acc_panic : Acc Smaller (Prog.panic : Prog F D α) := ⟨_, fun _ h => nomatch h⟩

theorem smaller_wf : WellFounded (Smaller : Prog F D α → Prog F D α → Prop) := by
  refine ⟨fun p => ?_⟩
  induction p with
  | ret a => exact ⟨_, fun _ h => nomatch h⟩
  | panic => exact acc_panic
  | read l k ih => exact ⟨_, fun q h => by cases h with | read _ _ x => exact ih x | readBad => exact acc_panic⟩
  | write l x k ih => exact ⟨_, fun q h => by cases h with | write => exact ih | writeBad => exact acc_panic⟩
  | alloc cs k ih => exact ⟨_, fun q h => by cases h with | alloc _ _ a => exact ih a⟩

theorem step_smaller {c c' : Config F D α} {i : Nat} {e : Access} (h : Step c i e c') :
    ∃ p q, c.threads[i]? = some p ∧ c'.threads = c.threads.set i q ∧ Smaller q p := by
  cases h with
  | read ht _ => exact ⟨_, _, ht, rfl, .read ..⟩
  | readBad ht _ => exact ⟨_, _, ht, rfl, .readBad ..⟩
  | write ht _ => exact ⟨_, _, ht, rfl, .write ..⟩
  | writeBad ht _ => exact ⟨_, _, ht, rfl, .writeBad ..⟩
  | alloc ht _ => exact ⟨_, _, ht, rfl, .alloc ..⟩

theorem coe_set {γ : Type} : ∀ (l : List γ) (i : Nat) (p q : γ), l[i]? = some p →
    ((l.set i q : List γ) : Multiset γ) + {p} = (l : Multiset γ) + {q}
  | [], _, _, _, h => by simp at h
  | a :: l, 0, p, q, h => by
    simp only [List.getElem?_cons_zero, Option.some.injEq] at h
    subst h
    simp only [List.set_cons_zero, ← Multiset.cons_coe, ← Multiset.singleton_add]
    rw [add_comm, ← add_assoc, add_assoc, add_comm {q} (l : Multiset γ), ← add_assoc]
  | a :: l, i + 1, p, q, h => by
    simp only [List.getElem?_cons_succ] at h
    have := coe_set l i p q h
    simp only [List.set_cons_succ, ← Multiset.cons_coe, ← Multiset.singleton_add, add_assoc]
    rw [this]

/-- No execution goes on for ever. -/
theorem steps_wf : WellFounded (fun c' c : Config F D α => ∃ i e, Step c i e c') := by
  have h := InvImage.wf (fun c : Config F D α => (c.threads : Multiset (Prog F D α))) (smaller_wf (F := F) (D := D) (α := α)).cutExpand
  refine Subrelation.wf ?_ h
  rintro c' c ⟨i, e, hs⟩
  obtain ⟨p, q, hp, hq, hlt⟩ := step_smaller hs
  refine ⟨{q}, p, ?_, ?_⟩
  · intro a ha; rw [Multiset.mem_singleton] at ha; subst ha; exact hlt
  · show (c'.threads : Multiset _) + {p} = (c.threads : Multiset _) + {q}
    rw [hq]; exact coe_set _ _ _ _ hp

/-! ## Finite memories always have room -/

/-- Only arrays below `n` are in use. -/
def Mem.Below (m : Mem F D) (n : Nat) : Prop := ∀ a, n ≤ a → m.Unused a

theorem step_below {c c' : Config F D α} {i : Nat} {e : Access} (h : Step c i e c') (hb : ∃ n, c.mem.Below n) :
    ∃ n, c'.mem.Below n := by
  obtain ⟨n, hn⟩ := hb
  cases h with
  | read => exact ⟨n, hn⟩
  | readBad => exact ⟨n, hn⟩
  | @write l x k _ hm =>
    refine ⟨n, fun a ha j => ?_⟩
    show c.mem.put l x _ = none
    rw [put_other _ _ (by rintro rfl; rw [hn a ha j] at hm; cases hm)]; exact hn a ha j
  | writeBad => exact ⟨n, hn⟩
  | @alloc cs k a _ _ =>
    refine ⟨max n (a + 1), fun b hb j => ?_⟩
    show c.mem.extend a cs (.cell b j) = none
    rw [extend_other _ _ (by intro i h; cases h; omega)]; exact hn b (by omega) j

theorem exec_below {c c' : Config F D α} {tr : List (Nat × Access)} (h : Exec c tr c') (hb : ∃ n, c.mem.Below n) :
    ∃ n, c'.mem.Below n := by
  induction h with
  | refl => exact hb
  | step _ hs ih => exact step_below hs ih

/-- A goroutine that has neither returned nor panicked can always go on. -/
theorem can_step {c : Config F D α} (hb : ∃ n, c.mem.Below n) {i : Nat} {p : Prog F D α} (hp : c.threads[i]? = some p)
    (hr : ∀ a, p ≠ .ret a) (hq : p ≠ .panic) : ∃ e c', Step c i e c' := by
  cases p with
  | ret a => exact absurd rfl (hr a)
  | panic => exact absurd rfl hq
  | read l k =>
    cases h : c.mem l with
    | none => exact ⟨_, _, .readBad hp h⟩
    | some x => exact ⟨_, _, .read hp h⟩
  | write l x k =>
    cases h : c.mem l with
    | none => exact ⟨_, _, .writeBad hp h⟩
    | some y => exact ⟨_, _, .write hp (by rw [h]; rfl)⟩
  | alloc cs k =>
    obtain ⟨n, hn⟩ := hb
    exact ⟨_, _, .alloc hp (hn n (le_refl n))⟩

end Gse
