import Verif.Spec.Alone
import Verif.Proofs.CalcMem
import Verif.Proofs.RemoveMem

/-! # An execution without a data race, seen from one goroutine -/

namespace Gse
open Spec

set_option linter.unusedSectionVars false

variable {F D α β : Type}

theorem ownAccesses_append (i j : Nat) (e : Access) (tr : List (Nat × Access)) :
    ownAccesses i (tr ++ [(j, e)]) = ownAccesses i tr ++ if j = i then [(0, e)] else [] := by
  unfold ownAccesses
  rw [List.filter_append, List.map_append]
  by_cases h : j = i <;> simp [h]

/-- Goroutine `i` of the execution, and the same goroutine alone. -/
structure GoesAlone (c : Config F D α) (tr : List (Nat × Access)) (c' : Config F D α) (i : Nat) (p : Prog F D α) (a : Config F D α) : Prop where
  run : Exec ⟨c.mem, [p]⟩ (ownAccesses i tr) a
  same : ∃ q, c'.threads[i]? = some q ∧ a.threads = [q]
  within : ∀ l, (a.mem l).isSome → (c'.mem l).isSome
  agree : ∀ l, (a.mem l).isSome → (∀ j, j ≠ i → (j, .wr l) ∉ tr) → a.mem l = c'.mem l

theorem step_grows {c c' : Config F D α} {i : Nat} {e : Access} (h : Step c i e c') : ∀ l, (c.mem l).isSome → (c'.mem l).isSome := by
  intro l hl
  cases h with
  | read _ _ => exact hl
  | readBad _ _ => exact hl
  | @write l' x k _ _ =>
    show (c.mem.put l' x l).isSome
    by_cases e : l = l'
    · subst e; rw [put_same]; rfl
    · rw [put_other _ _ e]; exact hl
  | writeBad _ _ => exact hl
  | @alloc cs k a _ hu =>
    show (c.mem.extend a cs l).isSome
    obtain ⟨y, hy⟩ := Option.isSome_iff_exists.mp hl
    rw [extend_unused cs hu hy]; rfl

/-- A step of another goroutine that does not write leaves what is there. -/
theorem step_keeps {c c' : Config F D α} {i : Nat} {e : Access} (h : Step c i e c') : ∀ l, (c.mem l).isSome → e ≠ .wr l → c'.mem l = c.mem l := by
  intro l hl hne
  cases h with
  | read _ _ => rfl
  | readBad _ _ => rfl
  | @write l' x k _ _ =>
    show c.mem.put l' x l = c.mem l
    exact put_other _ _ (by rintro rfl; exact hne rfl)
  | writeBad _ _ => rfl
  | @alloc cs k a _ hu =>
    show c.mem.extend a cs l = c.mem l
    obtain ⟨y, hy⟩ := Option.isSome_iff_exists.mp hl
    rw [extend_unused cs hu hy, hy]

theorem step_other {c c' : Config F D α} {i j : Nat} {e : Access} (h : Step c i e c') (hj : j ≠ i) : c'.threads[j]? = c.threads[j]? := by
  have hij : i ≠ j := fun h => hj h.symm
  cases h <;> simp [hij]

theorem alone_step {c c1 c2 : Config F D α} {tr : List (Nat × Access)} {i : Nat} {e : Access} {p : Prog F D α} {a : Config F D α} (hsafe : SafeAlone c.mem p)
    (hf : GoesAlone c tr c1 i p a) (hs : Step c1 i e c2) (hrf : RaceFree (tr ++ [(i, e)])) : ∃ a', GoesAlone c (tr ++ [(i, e)]) c2 i p a' := by
  obtain ⟨run, ⟨q, hq, ha⟩, hin, hag⟩ := hf
  obtain ⟨am, at'⟩ := a
  simp only at ha hin hag
  subst ha
  have hown : ownAccesses i (tr ++ [(i, e)]) = ownAccesses i tr ++ [(0, e)] := by rw [ownAccesses_append, if_pos rfl]
  have hnw : ∀ l, e = .rd l ∨ e = .wr l → ∀ j, j ≠ i → (j, .wr l) ∉ tr := by
    intro l he j hj hm
    rcases he with rfl | rfl
    · exact hrf j (.wr l) i (.rd l) (List.mem_append_left _ hm) (by simp) hj (by simp [Conflict])
    · exact hrf j (.wr l) i (.wr l) (List.mem_append_left _ hm) (by simp) hj (by simp [Conflict])
  have hno : ∀ e' c'', Step ⟨am, [q]⟩ 0 e' c'' → c''.threads ≠ [.panic] := fun e' c'' h' => hsafe _ _ (.step run h')
  have hlt := (List.getElem?_eq_some_iff.mp hq).1
  have key : ∀ (e' : Access) (q' : Prog F D α) (am' m' : Mem F D), e' = e → c2 = ⟨m', c1.threads.set i q'⟩ → Step ⟨am, [q]⟩ 0 e' ⟨am', [q']⟩ →
      (∀ l, (am' l).isSome → (m' l).isSome) → (∀ l, (am' l).isSome → (∀ j, j ≠ i → (j, .wr l) ∉ tr) → am' l = m' l) →
      ∃ a', GoesAlone c (tr ++ [(i, e)]) c2 i p a' := by
    rintro e' q' am' m' rfl rfl hst h1 h2
    refine ⟨⟨am', [q']⟩, ?_, ⟨q', by simp [hlt], rfl⟩, h1, fun l hl hw => h2 l hl fun j hj hm => hw j hj (List.mem_append_left _ hm)⟩
    rw [hown]
    exact .step run hst
  cases hs with
  | @read l k x ht hx =>
    rw [ht] at hq; cases hq
    cases hl : am l with
    | none => exact absurd rfl (hno _ _ (.readBad (c := ⟨am, [.read l k]⟩) (i := 0) rfl hl))
    | some y =>
      have := hag l (by rw [hl]; rfl) (hnw l (.inl rfl))
      rw [hl, hx] at this; cases this
      exact key _ (k x) am _ rfl rfl (.read (c := ⟨am, [.read l k]⟩) (i := 0) rfl hl) hin hag
  | @readBad l k ht hx =>
    rw [ht] at hq; cases hq
    cases hl : am l with
    | none => exact absurd rfl (hno _ _ (.readBad (c := ⟨am, [.read l k]⟩) (i := 0) rfl hl))
    | some y =>
      have := hin l (by rw [hl]; rfl)
      rw [hx] at this; cases this
  | @write l x k ht hx =>
    rw [ht] at hq; cases hq
    cases hl : am l with
    | none => exact absurd rfl (hno _ _ (.writeBad (c := ⟨am, [.write l x k]⟩) (i := 0) rfl hl))
    | some y =>
      refine key _ k (am.put l x) _ rfl rfl (.write (c := ⟨am, [.write l x k]⟩) (i := 0) rfl (by show (am l).isSome = true; rw [hl]; rfl)) (fun l' hl' => ?_) (fun l' hl' hw => ?_)
      · by_cases e : l' = l
        · subst e; rw [put_same]; rfl
        · rw [put_other _ _ e] at hl' ⊢; exact hin l' hl'
      · by_cases e : l' = l
        · subst e; rw [put_same, put_same]
        · rw [put_other _ _ e] at hl' ⊢; rw [put_other _ _ e]; exact hag l' hl' hw
  | @writeBad l x k ht hx =>
    rw [ht] at hq; cases hq
    cases hl : am l with
    | none => exact absurd rfl (hno _ _ (.writeBad (c := ⟨am, [.write l x k]⟩) (i := 0) rfl hl))
    | some y =>
      have := hin l (by rw [hl]; rfl)
      rw [hx] at this; cases this
  | @alloc cs k b ht hu =>
    rw [ht] at hq; cases hq
    have hu' : am.Unused b := by
      intro j
      cases hl : am (.cell b j) with
      | none => rfl
      | some y =>
        have := hin _ (by rw [hl]; rfl)
        rw [hu j] at this; cases this
    refine key _ (k b) (am.extend b cs) _ rfl rfl (.alloc (c := ⟨am, [.alloc cs k]⟩) (i := 0) rfl hu') (fun l hl => ?_) (fun l hl hw => ?_)
    · by_cases e : ∃ j, l = .cell b j
      · obtain ⟨j, rfl⟩ := e
        rw [extend_cell] at hl ⊢; exact hl
      · rw [extend_other _ _ (fun j h => e ⟨j, h⟩)] at hl ⊢; exact hin l hl
    · by_cases e : ∃ j, l = .cell b j
      · obtain ⟨j, rfl⟩ := e
        rw [extend_cell, extend_cell]
      · rw [extend_other _ _ (fun j h => e ⟨j, h⟩)] at hl ⊢
        rw [extend_other _ _ (fun j h => e ⟨j, h⟩)]; exact hag l hl hw

theorem alone_other {c c1 c2 : Config F D α} {tr : List (Nat × Access)} {i j : Nat} {e : Access} {p : Prog F D α} {a : Config F D α}
    (hf : GoesAlone c tr c1 j p a) (hs : Step c1 i e c2) (hj : j ≠ i) : GoesAlone c (tr ++ [(i, e)]) c2 j p a := by
  obtain ⟨run, ⟨q, hq, ha⟩, hin, hag⟩ := hf
  refine ⟨?_, ⟨q, by rw [step_other hs hj]; exact hq, ha⟩, fun l hl => step_grows hs l (hin l hl), fun l hl hw => ?_⟩
  · rw [ownAccesses_append, if_neg (fun h => hj h.symm), List.append_nil]; exact run
  · rw [step_keeps hs l (hin l hl) (by rintro rfl; exact hw i (fun h => hj h.symm) (by simp))]
    exact hag l hl fun k hk hm => hw k hk (List.mem_append_left _ hm)

theorem alone_exec {c c' : Config F D α} {tr : List (Nat × Access)} (hx : Exec c tr c') (hrf : RaceFree tr)
    (hsafe : ∀ p ∈ c.threads, SafeAlone c.mem p) : ∀ (i : Nat) p, c.threads[i]? = some p → ∃ a, GoesAlone c tr c' i p a := by
  induction hx with
  | refl =>
    intro i p hp
    exact ⟨⟨c.mem, [p]⟩, .refl _, ⟨p, hp, rfl⟩, fun _ h => h, fun _ _ _ => rfl⟩
  | @step tr c1 j e c2 _ hst ih =>
    intro i p hp
    obtain ⟨a, ha⟩ := ih (fun i e j f h1 h2 => hrf i e j f (List.mem_append_left _ h1) (List.mem_append_left _ h2)) i p hp
    by_cases hij : i = j
    · subst hij
      exact alone_step (hsafe p (List.mem_of_getElem? hp)) ha hst hrf
    · exact ⟨a, alone_other ha hst hij⟩

/-! ## One goroutine alone -/

theorem alone_wp {Q : α → Mem F D → Prop} {p : Prog F D α} {m : Mem F D} (h : wp noMem p m Q) {tr : List (Nat × Access)} {c' : Config F D α}
    (hx : Exec ⟨m, [p]⟩ tr c') : ∃ q, c'.threads = [q] ∧ wp noMem q c'.mem Q := by
  induction hx with
  | refl => exact ⟨p, rfl, h⟩
  | @step tr c1 i e c2 _ hs ih =>
    obtain ⟨q, hq, hw⟩ := ih
    obtain ⟨m1, t1⟩ := c1
    simp only at hq hw
    subst hq
    have hi : ∀ {r}, [q][i]? = some r → i = 0 ∧ q = r := by
      intro r hr
      cases i with
      | zero => exact ⟨rfl, by simpa using hr⟩
      | succ i => simp at hr
    cases hs with
    | read ht hv =>
      obtain ⟨rfl, rfl⟩ := hi ht
      obtain ⟨y, hy, hw⟩ := hw
      rw [view_noMem] at hy
      rw [show m1 _ = _ from hv] at hy; cases hy
      exact ⟨_, rfl, hw⟩
    | readBad ht hv =>
      obtain ⟨rfl, rfl⟩ := hi ht
      obtain ⟨y, hy, hw⟩ := hw
      rw [view_noMem, show m1 _ = _ from hv] at hy; cases hy
    | write ht hv =>
      obtain ⟨rfl, rfl⟩ := hi ht
      exact ⟨_, rfl, hw.2⟩
    | writeBad ht hv =>
      obtain ⟨rfl, rfl⟩ := hi ht
      have := hw.1
      rw [show m1 _ = _ from hv] at this; cases this
    | alloc ht hu =>
      obtain ⟨rfl, rfl⟩ := hi ht
      exact ⟨_, rfl, hw _ hu fun _ => rfl⟩

theorem safe_wp {Q : α → Mem F D → Prop} {p : Prog F D α} {m : Mem F D} (h : wp noMem p m Q) : SafeAlone m p := by
  intro tr c hx hp
  obtain ⟨q, hq, hw⟩ := alone_wp h hx
  rw [hp] at hq; cases hq
  exact hw

/-- Alone, the program makes the access `e` before it ends, unless it has made it already. -/
def Makes (e : Access) : Bool → Prog F D α → Mem F D → Prop
  | done, .ret _, _ => done = true
  | done, .panic, _ => done = true
  | done, .read l k, o => ∀ c, o l = some c → Makes e (done || decide (e = .rd l)) (k c) o
  | done, .write l c k, o => Makes e (done || decide (e = .wr l)) k (o.put l c)
  | done, .alloc cs k, o => ∀ a, o.Unused a → Makes e done (k a) (o.extend a cs)

theorem makes_true (e : Access) : ∀ (p : Prog F D α) (o : Mem F D), Makes e true p o
  | .ret _, _ => rfl
  | .panic, _ => rfl
  | .read _ k, o => fun c _ => by rw [Bool.true_or]; exact makes_true e (k c) o
  | .write _ _ k, _ => by show Makes e (true || _) k _; rw [Bool.true_or]; exact makes_true e k _
  | .alloc _ k, _ => fun a _ => makes_true e (k a) _

theorem makes_or {e : Access} {done b : Bool} {p : Prog F D α} {o : Mem F D} (h : Makes e done p o) : Makes e (done || b) p o := by
  cases b with
  | false => rw [Bool.or_false]; exact h
  | true => rw [Bool.or_true]; exact makes_true e p o

theorem makes_bind' {e : Access} {f : α → Prog F D β} : ∀ (p : Prog F D α) (o : Mem F D) {done : Bool}, wp noMem p o (fun x o' => Makes e done (f x) o') → Makes e done (p.bind f) o
  | .ret _, _, _, h => h
  | .panic, _, _, h => h.elim
  | .read _ k, o, _, ⟨c0, hc0, hw⟩ => fun c hc => by
      rw [view_noMem, hc] at hc0; cases hc0
      exact makes_or (makes_bind' (k c0) o hw)
  | .write l c k, o, done, ⟨_, hw⟩ => by
      show Makes e (done || _) (k.bind f) (o.put l c)
      exact makes_or (makes_bind' k _ hw)
  | .alloc _ k, _, _, hw => fun a h1 => makes_bind' (k a) _ (hw a h1 fun _ => rfl)

theorem makes_bind {e : Access} {f : α → Prog F D β} {p : Prog F D α} {o : Mem F D} {done : Bool} (h : wp noMem p o (fun x o' => Makes e done (f x) o')) :
    Makes e done (p >>= f) o := makes_bind' p o h

theorem makes_left' {e : Access} {f : α → Prog F D β} : ∀ (p : Prog F D α) (o : Mem F D) {done : Bool}, Makes e done p o → Makes e done (p.bind f) o
  | .ret _, _, _, h => by obtain rfl : _ = true := h; exact makes_true e _ _
  | .panic, _, _, h => h
  | .read _ k, o, _, h => fun c hc => makes_left' (k c) o (h c hc)
  | .write _ _ k, _, _, h => makes_left' (f := f) k _ h
  | .alloc _ k, _, _, h => fun a h1 => makes_left' (k a) _ (h a h1)

theorem makes_left {e : Access} {f : α → Prog F D β} {p : Prog F D α} {o : Mem F D} {done : Bool} (h : Makes e done p o) : Makes e done (p >>= f) o := makes_left' p o h

theorem makes_fresh {e : Access} {o : Mem F D} {p : Prog F D α} {f : α → Prog F D β} {Q : α → Mem F D → Prop} {done : Bool} (hp : wp o p noMem Q)
    (hf : ∀ a x, Q a x → Apart o x → Makes e done (f a) (view o x)) : Makes e done (p >>= f) o := by
  rw [← view_noMem o] at hp
  have h := wp_front p noMem (wp_apart p noMem (fun _ _ _ => rfl) hp)
  rw [view_none] at h
  refine makes_bind (wp_mono ?_ _ _ h)
  rintro a _ ⟨x, rfl, hq, ha⟩
  rw [view_noMem] at ha
  exact hf a x hq ha

theorem alone_makes {e : Access} {p : Prog F D α} {m : Mem F D} (h : Makes e false p m) {tr : List (Nat × Access)} {c' : Config F D α}
    (hx : Exec ⟨m, [p]⟩ tr c') (hns : ∀ c tr, Exec ⟨m, [p]⟩ tr c → c.threads ≠ [.panic]) : ∃ q done, c'.threads = [q] ∧ Makes e done q c'.mem ∧ (done = true → (0, e) ∈ tr) := by
  induction hx with
  | refl => exact ⟨p, false, rfl, h, by simp⟩
  | @step tr c1 i e' c2 hx1 hs ih =>
    obtain ⟨q, done, hq, hw, hd⟩ := ih
    have hns' := hns _ _ (.step hx1 hs)
    obtain ⟨m1, t1⟩ := c1
    simp only at hq hw
    subst hq
    have hi : ∀ {r}, [q][i]? = some r → i = 0 ∧ q = r := by
      intro r hr
      cases i with
      | zero => exact ⟨rfl, by simpa using hr⟩
      | succ i => simp at hr
    have hdone : ∀ {f : Access}, (done || decide (e = f)) = true → (0, e) ∈ tr ++ [(0, f)] := by
      intro f hf
      rcases Bool.or_eq_true_iff.mp hf with h1 | h1
      · exact List.mem_append_left _ (hd h1)
      · rw [of_decide_eq_true h1]; simp
    cases hs with
    | read ht hv =>
      obtain ⟨rfl, rfl⟩ := hi ht
      exact ⟨_, _, rfl, hw _ hv, hdone⟩
    | readBad ht hv =>
      obtain ⟨rfl, rfl⟩ := hi ht
      exact absurd rfl hns'
    | write ht hv =>
      obtain ⟨rfl, rfl⟩ := hi ht
      exact ⟨_, _, rfl, hw, hdone⟩
    | writeBad ht hv =>
      obtain ⟨rfl, rfl⟩ := hi ht
      exact absurd rfl hns'
    | alloc ht hu =>
      obtain ⟨rfl, rfl⟩ := hi ht
      exact ⟨_, done, rfl, hw _ hu, fun h => List.mem_append_left _ (hd h)⟩

end Gse
