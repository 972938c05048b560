import Verif.Spec.Order
import Verif.Props.Alone

/-! # C115: goroutines without a data race do what they do one after another, in any order -/

namespace Gse
open Spec

set_option linter.unusedSectionVars false

section
variable {F D α β : Type}

theorem exec_join {c c1 c2 : Config F D α} {t u : List (Nat × Access)} (h : Exec c t c1) (g : Exec c1 u c2) : Exec c (t ++ u) c2 := by
  induction g with
  | refl => simpa using h
  | step _ hs ih => rw [← List.append_assoc]; exact .step ih hs

theorem exec_last {c c2 : Config F D α} {t : List (Nat × Access)} {i : Nat} {e : Access} (h : Exec c (t ++ [(i, e)]) c2) : ∃ c1, Exec c t c1 ∧ Step c1 i e c2 := by
  generalize hu : t ++ [(i, e)] = u at h
  cases h with
  | refl => simp at hu
  | step h1 h2 =>
    obtain ⟨rfl, h⟩ := List.append_inj' hu rfl
    cases h
    exact ⟨_, h1, h2⟩

theorem exec_parts {c c2 : Config F D α} {t : List (Nat × Access)} : ∀ {u : List (Nat × Access)}, Exec c (t ++ u) c2 → ∃ c1, Exec c t c1 ∧ Exec c1 u c2 := by
  intro u
  induction u using List.reverseRecOn generalizing c2 with
  | nil => intro h; exact ⟨c2, by simpa using h, .refl _⟩
  | append_singleton u x ih =>
    intro h
    rw [← List.append_assoc] at h
    obtain ⟨c1, h1, h2⟩ := exec_last h
    obtain ⟨c0, h3, h4⟩ := ih h1
    exact ⟨c0, h3, .step h4 h2⟩

theorem same_number {c c' : Config F D α} {tr : List (Nat × Access)} (h : Exec c tr c') : c'.threads.length = c.threads.length := by
  induction h with
  | refl => rfl
  | step _ hs ih => cases hs <;> simpa using ih

theorem its_number {c c' : Config F D α} {tr : List (Nat × Access)} (h : Exec c tr c') : ∀ x ∈ tr, x.1 < c.threads.length := by
  induction h with
  | refl => simp
  | @step tr c1 j e c2 h1 hs ih =>
    intro x hx
    rcases List.mem_append.mp hx with hx | hx
    · exact ih x hx
    · obtain rfl : x = (j, e) := by simpa using hx
      rw [← same_number h1]
      cases hs <;> exact (List.getElem?_eq_some_iff.mp ‹_›).1

theorem RaceFree.sub {t u : List (Nat × Access)} (h : RaceFree t) (hs : ∀ x ∈ u, x ∈ t) : RaceFree u :=
  fun i e j f hi hj => h i e j f (hs _ hi) (hs _ hj)

/-- An access of a goroutine that is safe alone is to a location that was there before the last step of another goroutine. -/
theorem step_there {c0 c c1 c2 : Config F D α} {tr : List (Nat × Access)} (hx : Exec c0 tr c) (hrf : RaceFree tr) (hsafe : ∀ p ∈ c0.threads, SafeAlone c0.mem p)
    {i j : Nat} {e f : Access} (hij : i ≠ j) (h1 : Step c i e c1) (h2 : Step c1 j f c2) (l : Loc) (hl : f = .rd l ∨ f = .wr l) : (c.mem l).isSome := by
  have hlt : j < c0.threads.length := by
    have hj : j < c1.threads.length := by cases h2 <;> exact (List.getElem?_eq_some_iff.mp ‹_›).1
    have := same_number (.step hx h1)
    omega
  obtain ⟨a, run, ⟨q, hq, ha⟩, hin, _⟩ := alone_exec hx hrf hsafe j _ (List.getElem?_eq_getElem hlt)
  have hq1 : c1.threads[j]? = some q := by rw [step_other h1 (Ne.symm hij)]; exact hq
  have hno : ∀ e' c'', Step a 0 e' c'' → c''.threads ≠ [.panic] := fun e' c'' h' => hsafe _ (List.getElem_mem hlt) _ _ (.step run h')
  obtain ⟨am, at'⟩ := a
  simp only at ha hin
  subst ha
  by_contra hc
  have hn : am l = none := by
    cases h : am l with
    | none => rfl
    | some y => exact absurd (hin l (by rw [h]; rfl)) hc
  cases h2 with
  | read ht _ | readBad ht _ =>
    rw [ht] at hq1; cases hq1
    obtain rfl : _ = l := by simpa using hl
    exact hno _ _ (.readBad (c := ⟨am, [.read _ _]⟩) (i := 0) rfl hn) rfl
  | write ht _ | writeBad ht _ =>
    rw [ht] at hq1; cases hq1
    obtain rfl : _ = l := by simpa using hl
    exact hno _ _ (.writeBad (c := ⟨am, [.write _ _ _]⟩) (i := 0) rfl hn) rfl
  | alloc ht _ => simp at hl

theorem put_comm (m : Mem F D) {l l' : Loc} (x y : Cell F D) (h : l ≠ l') : (m.put l x).put l' y = (m.put l' y).put l x := by
  funext k
  by_cases e : k = l <;> by_cases e' : k = l'
  · exact absurd (e.symm.trans e') h
  · subst e; rw [put_other _ _ e', put_same, put_same]
  · subst e'; rw [put_same, put_other _ _ e, put_same]
  · rw [put_other _ _ e', put_other _ _ e, put_other _ _ e, put_other _ _ e']

theorem put_extend (m : Mem F D) {l : Loc} (x : Cell F D) {a : Nat} (cs : List (Cell F D)) (h : ∀ i, l ≠ .cell a i) : (m.put l x).extend a cs = (m.extend a cs).put l x := by
  funext k
  by_cases e : ∃ i, k = .cell a i
  · obtain ⟨i, rfl⟩ := e
    rw [extend_cell, put_other _ _ (fun e => h i e.symm), extend_cell]
  · have e' : ∀ i, k ≠ .cell a i := fun i h => e ⟨i, h⟩
    rw [extend_other _ _ e']
    by_cases e : k = l
    · subst e; rw [put_same, put_same]
    · rw [put_other _ _ e, put_other _ _ e, extend_other _ _ e']

theorem extend_comm (m : Mem F D) {a b : Nat} (cs ds : List (Cell F D)) (h : a ≠ b) : (m.extend a cs).extend b ds = (m.extend b ds).extend a cs := by
  funext k
  by_cases e : ∃ i, k = .cell a i
  · obtain ⟨i, rfl⟩ := e
    rw [extend_cell, extend_other _ _ (by intro j hj; cases hj; exact h rfl), extend_cell]
  · have e' : ∀ i, k ≠ .cell a i := fun i h => e ⟨i, h⟩
    rw [extend_other _ cs e']
    by_cases e : ∃ i, k = .cell b i
    · obtain ⟨i, rfl⟩ := e; rw [extend_cell, extend_cell]
    · have e2 : ∀ i, k ≠ .cell b i := fun i h => e ⟨i, h⟩
      rw [extend_other _ _ e2, extend_other _ _ e', extend_other _ _ e2]

theorem unused_put {m : Mem F D} {l : Loc} {x : Cell F D} {a : Nat} (hl : (m l).isSome) : (m.put l x).Unused a ↔ m.Unused a := by
  constructor <;> intro h i
  · have := h i
    by_cases e : Loc.cell a i = l
    · rw [e, put_same] at this; cases this
    · rwa [put_other _ _ e] at this
  · by_cases e : Loc.cell a i = l
    · rw [← e, h i] at hl; cases hl
    · rw [put_other _ _ e]; exact h i

/-- Two steps of different goroutines without a conflict may be made in the other order. -/
theorem step_swap {c0 c c1 c2 : Config F D α} {tr : List (Nat × Access)} (hx : Exec c0 tr c) (hsafe : ∀ p ∈ c0.threads, SafeAlone c0.mem p)
    {i j : Nat} {e f : Access} (hij : i ≠ j) (h1 : Step c i e c1) (h2 : Step c1 j f c2) (hrf : RaceFree (tr ++ [(i, e)] ++ [(j, f)])) (hfr : FreshAddresses (tr ++ [(i, e)] ++ [(j, f)])) :
    ∃ c1', Step c j f c1' ∧ Step c1' i e c2 := by
  have hji := Ne.symm hij
  have hrf0 : RaceFree tr := hrf.sub fun x hx => by simp [hx]
  have hcf : ¬ Conflict e f := hrf i e j f (by simp) (by simp) hij
  have hthere := step_there hx hrf0 hsafe hij h1 h2
  have hfirst : ∀ l, e = .rd l ∨ e = .wr l → (c.mem l).isSome := by
    intro l hl
    have hlt : i < c0.threads.length := by
      have hj : i < c.threads.length := by cases h1 <;> exact (List.getElem?_eq_some_iff.mp ‹_›).1
      have := same_number hx
      omega
    obtain ⟨q, a, hq, hne, _⟩ := C114_alone _ _ _ (.step hx h1) (hrf.sub fun x hx => by simp at hx ⊢; tauto) hsafe i _ (List.getElem?_eq_getElem hlt)
    cases h1 with
    | read ht hv | write ht hv =>
      obtain rfl : _ = l := by simpa using hl
      first | exact hv | (rw [hv]; rfl)
    | readBad ht hv | writeBad ht hv =>
      have hi := (List.getElem?_eq_some_iff.mp ht).1
      simp only [List.getElem?_set_self hi, Option.some.injEq] at hq
      exact absurd hq.symm hne
    | alloc ht hv => simp at hl
  have hthr : ∀ {q}, (c.threads.set i q)[j]? = c.threads[j]? := by intro q; simp [hij]
  have hthr' : ∀ {q}, (c.threads.set j q)[i]? = c.threads[i]? := by intro q; simp [hji]
  have hset : ∀ (p q : Prog F D α), (c.threads.set i p).set j q = (c.threads.set j q).set i p := fun p q => List.set_comm _ _ hij
  have hal : ∀ a n k, e = .al a n → f = .al a k → False := fun a n k he hf => hij (hfr i j a n k (by simp [he]) (by simp [hf]))
  cases h1 with
  | readBad _ hv => have := hfirst _ (.inl rfl); rw [hv] at this; cases this
  | writeBad _ hv => have := hfirst _ (.inr rfl); rw [hv] at this; cases this
  | @read l k x ht hv =>
    cases h2 with
    | readBad _ hv' => have := hthere _ (.inl rfl); rw [show c.mem _ = _ from hv'] at this; cases this
    | writeBad _ hv' => have := hthere _ (.inr rfl); rw [show c.mem _ = _ from hv'] at this; cases this
    | @read l' k' x' ht' hv' =>
      simp only [hthr] at ht'
      refine ⟨_, .read ht' hv', ?_⟩
      rw [hset]
      exact .read (c := ⟨c.mem, c.threads.set j (k' x')⟩) (by rw [hthr']; exact ht) hv
    | @write l' x' k' ht' hv' =>
      simp only [hthr] at ht'
      refine ⟨_, .write ht' hv', ?_⟩
      rw [hset]
      exact .read (c := ⟨c.mem.put l' x', c.threads.set j k'⟩) (by rw [hthr']; exact ht) (by show c.mem.put l' x' l = _; rw [put_other _ _ (by rintro rfl; exact hcf rfl)]; exact hv)
    | @alloc cs k' a ht' hu =>
      simp only [hthr] at ht'
      refine ⟨_, .alloc ht' hu, ?_⟩
      rw [hset]
      exact .read (c := ⟨c.mem.extend a cs, c.threads.set j (k' a)⟩) (by rw [hthr']; exact ht) (extend_unused cs hu hv)
  | @write l x k ht hv =>
    cases h2 with
    | @readBad l' _ _ hv' => have := step_grows (.write ht hv) _ (hthere _ (.inl rfl)); rw [hv'] at this; cases this
    | @writeBad l' _ _ _ hv' => have := step_grows (.write ht hv) _ (hthere _ (.inr rfl)); rw [hv'] at this; cases this
    | @read l' k' x' ht' hv' =>
      simp only [hthr] at ht'
      simp only at hv'
      rw [put_other _ _ (by rintro rfl; exact hcf rfl)] at hv'
      refine ⟨_, .read ht' hv', ?_⟩
      rw [hset]
      exact .write (c := ⟨c.mem, c.threads.set j (k' x')⟩) (by rw [hthr']; exact ht) hv
    | @write l' x' k' ht' hv' =>
      simp only [hthr] at ht'
      have hne : l ≠ l' := by rintro rfl; exact hcf rfl
      refine ⟨_, .write ht' (hthere _ (.inr rfl)), ?_⟩
      rw [hset, put_comm _ _ _ hne]
      exact .write (c := ⟨c.mem.put l' x', c.threads.set j k'⟩) (by rw [hthr']; exact ht) (by show (c.mem.put l' x' l).isSome = true; rw [put_other _ _ hne]; exact hv)
    | @alloc cs k' a ht' hu =>
      simp only [hthr] at ht'
      have hu' : c.mem.Unused a := (unused_put hv).mp hu
      have hne : ∀ i, l ≠ .cell a i := by rintro i rfl; rw [hu' i] at hv; cases hv
      refine ⟨_, .alloc ht' hu', ?_⟩
      rw [hset, put_extend _ _ _ hne]
      exact .write (c := ⟨c.mem.extend a cs, c.threads.set j (k' a)⟩) (by rw [hthr']; exact ht) (by show (c.mem.extend a cs l).isSome = true; rw [extend_other _ _ hne]; exact hv)
  | @alloc cs k a ht hu =>
    cases h2 with
    | @readBad l' _ _ hv' => have := step_grows (.alloc ht hu) _ (hthere _ (.inl rfl)); rw [hv'] at this; cases this
    | @writeBad l' _ _ _ hv' => have := step_grows (.alloc ht hu) _ (hthere _ (.inr rfl)); rw [hv'] at this; cases this
    | @read l' k' x' ht' hv' =>
      simp only [hthr] at ht'
      have hc := hthere _ (.inl rfl)
      obtain ⟨y, hy⟩ := Option.isSome_iff_exists.mp hc
      have := extend_unused cs hu hy
      rw [show c.mem.extend a cs l' = _ from hv'] at this; cases this
      refine ⟨_, .read ht' hy, ?_⟩
      rw [hset]
      exact .alloc (c := ⟨c.mem, c.threads.set j (k' _)⟩) (by rw [hthr']; exact ht) hu
    | @write l' x' k' ht' hv' =>
      simp only [hthr] at ht'
      have hc := hthere _ (.inr rfl)
      have hne : ∀ i, l' ≠ .cell a i := by rintro i rfl; rw [hu i] at hc; cases hc
      refine ⟨_, .write ht' hc, ?_⟩
      rw [hset, ← put_extend _ _ _ hne]
      exact .alloc (c := ⟨c.mem.put l' x', c.threads.set j k'⟩) (by rw [hthr']; exact ht) ((unused_put hc).mpr hu)
    | @alloc ds k' b ht' hu2 =>
      simp only [hthr] at ht'
      have hne : a ≠ b := by rintro rfl; exact hal _ _ _ rfl rfl
      have hu' : c.mem.Unused b := fun i => by
        have := hu2 i
        simp only at this
        rwa [extend_other _ _ (by intro j hj; cases hj; exact hne rfl)] at this
      refine ⟨_, .alloc ht' hu', ?_⟩
      rw [hset, extend_comm _ _ _ hne]
      exact .alloc (c := ⟨c.mem.extend b ds, c.threads.set j (k' b)⟩) (by rw [hthr']; exact ht)
        (fun i => by show c.mem.extend b ds (.cell a i) = none; rw [extend_other _ _ (by intro j hj; cases hj; exact hne rfl)]; exact hu i)

theorem move_last {c c' : Config F D α} (hsafe : ∀ p ∈ c.threads, SafeAlone c.mem p) {i : Nat} {e : Access} : ∀ (u t : List (Nat × Access)), Exec c (t ++ [(i, e)] ++ u) c' →
    RaceFree (t ++ [(i, e)] ++ u) → FreshAddresses (t ++ [(i, e)] ++ u) → (∀ x ∈ u, x.1 ≠ i) → Exec c (t ++ u ++ [(i, e)]) c'
  | [], t, h, _, _, _ => by simpa using h
  | (j, f) :: u, t, h, hrf, hfr, hu => by
    rw [show t ++ [(i, e)] ++ (j, f) :: u = (t ++ [(i, e)] ++ [(j, f)]) ++ u by simp] at h
    obtain ⟨c2, h2, h3⟩ := exec_parts h
    obtain ⟨c1, h1, s2⟩ := exec_last h2
    obtain ⟨c0, h0, s1⟩ := exec_last h1
    have hij : i ≠ j := fun h => hu (j, f) (by simp) h.symm
    have sub : ∀ x ∈ t ++ [(i, e)] ++ [(j, f)], x ∈ t ++ [(i, e)] ++ (j, f) :: u := fun x hx => by simp at hx ⊢; tauto
    obtain ⟨c1', g1, g2⟩ := step_swap h0 hsafe hij s1 s2 (hrf.sub sub) (fun i j a n k h1 h2 => hfr i j a n k (sub _ h1) (sub _ h2))
    have := exec_join (Exec.step (.step h0 g1) g2) h3
    have sub' : ∀ x ∈ t ++ [(j, f)] ++ [(i, e)] ++ u, x ∈ t ++ [(i, e)] ++ (j, f) :: u := fun x hx => by simp at hx ⊢; tauto
    have := move_last hsafe u (t ++ [(j, f)]) this (hrf.sub sub') (fun i j a n k h1 h2 => hfr i j a n k (sub' _ h1) (sub' _ h2)) (fun x hx => hu x (by simp [hx]))
    simpa using this

theorem own_nil {tr : List (Nat × Access)} (h : ∀ i, ownAccesses i tr = []) : tr = [] := by
  cases tr with
  | nil => rfl
  | cons x tr => have := h x.1; simp [ownAccesses] at this

theorem own_join (i : Nat) (t u : List (Nat × Access)) : ownAccesses i (t ++ u) = ownAccesses i t ++ ownAccesses i u := by
  simp [ownAccesses]

theorem own_none {i : Nat} {t : List (Nat × Access)} (h : ∀ x ∈ t, x.1 ≠ i) : ownAccesses i t = [] := by
  simp only [ownAccesses, List.map_eq_nil_iff, List.filter_eq_nil_iff, beq_iff_eq]
  exact h

/-- The last access of a goroutine. -/
theorem own_last {i : Nat} {e : Access} {t : List (Nat × Access)} : ∀ {s : List (Nat × Access)}, ownAccesses i s = t ++ [(0, e)] →
    ∃ a u, s = a ++ [(i, e)] ++ u ∧ ownAccesses i a = t ∧ ∀ x ∈ u, x.1 ≠ i := by
  intro s
  induction s using List.reverseRecOn with
  | nil => intro h; simp [ownAccesses] at h
  | append_singleton s x ih =>
    obtain ⟨j, f⟩ := x
    intro h
    rw [ownAccesses_append] at h
    by_cases hj : j = i
    · subst hj
      rw [if_pos rfl] at h
      obtain ⟨h1, h2⟩ := List.append_inj' h rfl
      cases h2
      exact ⟨s, [], by simp, h1, by simp⟩
    · rw [if_neg hj, List.append_nil] at h
      obtain ⟨a, u, rfl, h2, h3⟩ := ih h
      exact ⟨a, u ++ [(j, f)], by simp, h2, fun x hx => by
        rcases List.mem_append.mp hx with hx | hx
        · exact h3 x hx
        · obtain rfl : x = (j, f) := by simpa using hx
          exact hj⟩

/-- **C115.** Goroutines that are safe alone and run without a data race: the same accesses in any other interleaving are an execution too, and it ends in the same state of all goroutines and of memory. -/
theorem C115_orders (c c' : Config F D α) (tr : List (Nat × Access)) (hx : Exec c tr c') (hrf : RaceFree tr) (hfr : FreshAddresses tr) (hsafe : ∀ p ∈ c.threads, SafeAlone c.mem p)
    (tr' : List (Nat × Access)) (hown : ∀ i, ownAccesses i tr' = ownAccesses i tr) : Exec c tr' c' := by
  induction tr' using List.reverseRecOn generalizing tr c' with
  | nil =>
    obtain rfl := own_nil fun i => (hown i).symm
    exact hx
  | append_singleton t x ih =>
    obtain ⟨i, e⟩ := x
    have hi := hown i
    rw [ownAccesses_append, if_pos rfl] at hi
    obtain ⟨a, u, rfl, h2, h3⟩ := own_last hi.symm
    have h4 := move_last hsafe u a hx hrf hfr h3
    obtain ⟨c1, h5, h6⟩ := exec_last h4
    have sub : ∀ x ∈ a ++ u, x ∈ a ++ [(i, e)] ++ u := fun x hx => by simp at hx ⊢; tauto
    refine .step (ih c1 (a ++ u) h5 (hrf.sub sub) (fun i j a n k h1 h2 => hfr i j a n k (sub _ h1) (sub _ h2)) fun j => ?_) h6
    by_cases hj : j = i
    · subst hj; rw [own_join, h2, own_none h3, List.append_nil]
    · have := hown j
      rw [ownAccesses_append, if_neg (Ne.symm hj), List.append_nil, own_join, ownAccesses_append, if_neg (Ne.symm hj), List.append_nil] at this
      rw [own_join]; exact this

theorem own_filter (i j : Nat) (tr : List (Nat × Access)) : ownAccesses i (tr.filter fun x => x.1 == j) = if j = i then ownAccesses i tr else [] := by
  by_cases h : j = i
  · subst h; simp [ownAccesses]
  · rw [if_neg h]
    exact own_none fun x hx => by
      have := (List.mem_filter.mp hx).2
      simp only [beq_iff_eq] at this
      omega

theorem own_serial {i : Nat} {tr : List (Nat × Access)} : ∀ {order : List Nat}, order.Nodup → ownAccesses i (serial order tr) = if i ∈ order then ownAccesses i tr else []
  | [], _ => by simp [serial, ownAccesses]
  | j :: order, h => by
    obtain ⟨h1, h2⟩ := List.nodup_cons.mp h
    have ih := own_serial (i := i) (tr := tr) h2
    rw [serial, List.flatMap_cons, own_join, own_filter, ← serial, ih]
    by_cases e : j = i
    · subst e; rw [if_pos rfl, if_neg h1, List.append_nil, if_pos (by simp)]
    · rw [if_neg e, List.nil_append]
      simp [Ne.symm e]

/-- **C115.** In particular the goroutines may have run one after another, in any order. -/
theorem C115_serial (c c' : Config F D α) (tr : List (Nat × Access)) (hx : Exec c tr c') (hrf : RaceFree tr) (hfr : FreshAddresses tr) (hsafe : ∀ p ∈ c.threads, SafeAlone c.mem p)
    (order : List Nat) (hd : order.Nodup) (hall : ∀ i, i < c.threads.length → i ∈ order) : Exec c (serial order tr) c' := by
  refine C115_orders c c' tr hx hrf hfr hsafe _ fun i => ?_
  rw [own_serial hd]
  split
  · rfl
  · next hi => exact (own_none fun x hx' h => hi (hall i (by rw [← h]; exact its_number hx _ hx'))).symm

/-- A stretch of an execution in which one goroutine moves is that goroutine alone. -/
theorem exec_one {i : Nat} {c c' : Config F D α} {tr : List (Nat × Access)} (hx : Exec c tr c') (h : ∀ x ∈ tr, x.1 = i) {p : Prog F D α} (hp : c.threads[i]? = some p) :
    ∃ q, c'.threads = c.threads.set i q ∧ Exec ⟨c.mem, [p]⟩ (ownAccesses i tr) ⟨c'.mem, [q]⟩ := by
  have hlt := (List.getElem?_eq_some_iff.mp hp).1
  induction hx with
  | refl =>
    refine ⟨p, ?_, .refl _⟩
    rw [← (List.getElem?_eq_some_iff.mp hp).2, List.set_getElem_self]
  | @step tr c1 j e c2 _ hs ih =>
    obtain ⟨q, h1, h2⟩ := ih fun x hx => h x (List.mem_append_left _ hx)
    obtain rfl : j = i := h (j, e) (by simp)
    obtain ⟨m1, t1⟩ := c1
    simp only at h1 h2
    subst h1
    have get : ∀ {r}, (c.threads.set j q)[j]? = some r → q = r := fun hr => by simpa [hlt] using hr
    rw [ownAccesses_append, if_pos rfl]
    cases hs with
    | read ht hv => obtain rfl := get ht; exact ⟨_, by simp, .step h2 (.read (c := ⟨m1, [_]⟩) (i := 0) rfl hv)⟩
    | readBad ht hv => obtain rfl := get ht; exact ⟨_, by simp, .step h2 (.readBad (c := ⟨m1, [_]⟩) (i := 0) rfl hv)⟩
    | write ht hv => obtain rfl := get ht; exact ⟨_, by simp, .step h2 (.write (c := ⟨m1, [_]⟩) (i := 0) rfl hv)⟩
    | writeBad ht hv => obtain rfl := get ht; exact ⟨_, by simp, .step h2 (.writeBad (c := ⟨m1, [_]⟩) (i := 0) rfl hv)⟩
    | alloc ht hv => obtain rfl := get ht; exact ⟨_, by simp, .step h2 (.alloc (c := ⟨m1, [_]⟩) (i := 0) rfl hv)⟩

theorem exec_still {c c' : Config F D α} {tr : List (Nat × Access)} (hx : Exec c tr c') {i : Nat} (h : ∀ x ∈ tr, x.1 ≠ i) : c'.threads[i]? = c.threads[i]? := by
  induction hx with
  | refl => rfl
  | @step tr c1 j e c2 _ hs ih =>
    rw [step_other hs (Ne.symm (h (j, e) (by simp)))]
    exact ih fun x hx => h x (List.mem_append_left _ hx)

/-- **C115.** An address that was given out for an array with an element is not given to another goroutine. -/
theorem C115_fresh (c c' : Config F D α) (tr : List (Nat × Access)) (hx : Exec c tr c') (hne : ∀ i a, (i, Access.al a 0) ∉ tr) : FreshAddresses tr := by
  suffices (∀ i a n, (i, .al a n) ∈ tr → (c'.mem (.cell a 0)).isSome) ∧ FreshAddresses tr from this.2
  induction hx with
  | refl => exact ⟨by simp, fun _ _ _ _ _ h => by simp at h⟩
  | @step tr c1 j e c2 _ hs ih =>
    obtain ⟨h1, h2⟩ := ih fun i a h => hne i a (List.mem_append_left _ h)
    have hnew : ∀ a n, e = .al a n → c1.mem.Unused a ∧ (c2.mem (.cell a 0)).isSome := by
      rintro a n rfl
      have h0 : n ≠ 0 := by rintro rfl; exact hne j a (by simp)
      cases hs with
      | @alloc cs k _ _ hu =>
        refine ⟨hu, ?_⟩
        show (c1.mem.extend a cs (.cell a 0)).isSome
        rw [extend_cell, List.getElem?_eq_getElem (by omega)]; rfl
    refine ⟨fun i a n h => ?_, fun i j' a n k hi hj => ?_⟩
    · rcases List.mem_append.mp h with h | h
      · exact step_grows hs _ (h1 i a n h)
      · simp only [List.mem_singleton, Prod.mk.injEq] at h
        exact (hnew a n h.2.symm).2
    · have old : ∀ i n, (i, .al a n) ∈ tr → ∀ k, e ≠ .al a k := fun i n h k he => by
        have := h1 i a n h
        rw [(hnew a k he).1 0] at this; cases this
      rcases List.mem_append.mp hi with hi | hi <;> rcases List.mem_append.mp hj with hj | hj
      · exact h2 i j' a n k hi hj
      · simp only [List.mem_singleton, Prod.mk.injEq] at hj
        exact absurd hj.2.symm (old i n hi k)
      · simp only [List.mem_singleton, Prod.mk.injEq] at hi
        exact absurd hi.2.symm (old j' k hj n)
      · simp only [List.mem_singleton, Prod.mk.injEq] at hi hj
        exact hi.1.trans hj.1.symm

theorem can_end_fresh (c c1 : Config F D α) (tr : List (Nat × Access)) (hx : Exec c tr c1) (hf : FreshAddresses tr) (hb : ∃ n, c1.mem.Below n ∧ ∀ i a k, (i, .al a k) ∈ tr → a < n) :
    ∃ tr' c', Exec c (tr ++ tr') c' ∧ FreshAddresses (tr ++ tr') ∧ ∀ i e c'', ¬ Step c' i e c'' := by
  induction c1 using (steps_wf (F := F) (D := D) (α := α)).induction generalizing tr with
  | _ c1 ih =>
    by_cases h : ∃ i e c3, Step c1 i e c3
    · obtain ⟨i, e, c3, hs⟩ := h
      obtain ⟨n, hn, hlt⟩ := hb
      obtain ⟨e, c3, hs, he⟩ : ∃ e c3, Step c1 i e c3 ∧ ∀ a k, e = .al a k → a = n := by
        cases hs with
        | read ht hv => exact ⟨_, _, .read ht hv, by simp⟩
        | readBad ht hv => exact ⟨_, _, .readBad ht hv, by simp⟩
        | write ht hv => exact ⟨_, _, .write ht hv, by simp⟩
        | writeBad ht hv => exact ⟨_, _, .writeBad ht hv, by simp⟩
        | alloc ht _ => exact ⟨_, _, .alloc ht (hn n (le_refl n)), by rintro a k h; cases h; rfl⟩
      have hold : ∀ i' a k, (i', .al a k) ∈ tr ++ [(i, e)] → (i', .al a k) ∈ tr ∨ (i' = i ∧ a = n) := by
        intro i' a k h
        rcases List.mem_append.mp h with h | h
        · exact .inl h
        · simp only [List.mem_singleton, Prod.mk.injEq] at h
          exact .inr ⟨h.1, he a k h.2.symm⟩
      obtain ⟨tr', c4, h1, h2, h3⟩ := ih c3 ⟨i, e, hs⟩ _ (hx.step hs) (fun i1 i2 a n1 n2 g1 g2 => by
          rcases hold _ _ _ g1 with k1 | ⟨k1, e1⟩ <;> rcases hold _ _ _ g2 with k2 | ⟨k2, e2⟩
          · exact hf i1 i2 a n1 n2 k1 k2
          · have := hlt _ _ _ k1; omega
          · have := hlt _ _ _ k2; omega
          · omega) (by
          obtain ⟨n', hn'⟩ := step_below hs ⟨n, hn⟩
          refine ⟨max n' (n + 1), fun a ha => hn' a (by omega), fun i' a k h => ?_⟩
          rcases hold _ _ _ h with h | ⟨_, h⟩
          · have := hlt _ _ _ h; omega
          · omega)
      exact ⟨(i, e) :: tr', c4, by simpa using h1, by simpa using h2, h3⟩
    · exact ⟨[], c1, by simpa using hx, by simpa using hf, fun i e c'' hs => h ⟨i, e, c'', hs⟩⟩

/-- **C115.** So a goroutine may have run after all others had come as far as they came. -/
theorem C115_last (c c' : Config F D α) (tr : List (Nat × Access)) (hx : Exec c tr c') (hrf : RaceFree tr) (hfr : FreshAddresses tr) (hsafe : ∀ p ∈ c.threads, SafeAlone c.mem p)
    (i : Nat) (p : Prog F D α) (hp : c.threads[i]? = some p) :
    ∃ m1 q, Exec c (tr.filter fun x => x.1 != i) ⟨m1, c'.threads.set i p⟩ ∧ c'.threads[i]? = some q ∧ Exec ⟨m1, [p]⟩ (ownAccesses i tr) ⟨c'.mem, [q]⟩ := by
  have h := C115_orders c c' tr hx hrf hfr hsafe ((tr.filter fun x => x.1 != i) ++ tr.filter fun x => x.1 == i) fun j => by
    rw [own_join, own_filter]
    by_cases e : i = j
    · subst e
      rw [if_pos rfl, own_none (fun x hx => by have := (List.mem_filter.mp hx).2; simpa using this), List.nil_append]
    · rw [if_neg e, List.append_nil]
      unfold ownAccesses
      rw [List.filter_filter]
      congr 2
      funext x
      by_cases e' : x.1 = j
      · simp [e', Ne.symm e]
      · simp [e']
  obtain ⟨c1, h1, h2⟩ := exec_parts h
  have hp1 : c1.threads[i]? = some p := by
    rw [exec_still h1 (fun x hx => by have := (List.mem_filter.mp hx).2; simpa using this)]; exact hp
  obtain ⟨q, h3, h4⟩ := exec_one h2 (fun x hx => by have := (List.mem_filter.mp hx).2; simpa using this) hp1
  have hlt := (List.getElem?_eq_some_iff.mp hp1).1
  rw [own_filter, if_pos rfl] at h4
  refine ⟨c1.mem, q, ?_, by rw [h3]; simp [hlt], h4⟩
  rw [h3, List.set_set]
  obtain ⟨m1, t1⟩ := c1
  simp only at hp1 hlt ⊢
  rw [← (List.getElem?_eq_some_iff.mp hp1).2, List.set_getElem_self]
  exact h1

end

section
variable {F D : Type} [F64 F] [F32 D] [Narrow F D] [Unicode]

theorem run_serial {cfg : SplitCfg} {xs : List (Slice × DictOp F)} {es : List Bool} {tr : List (Nat × Access)} {c' : Config F D Bool} (hend : c'.threads = es.map .ret) :
    ∀ (order : List Nat) (c : Config F D Bool) (d d' : Dictionary F D), order.Nodup → (∀ i ∈ order, c.threads[i]? = (xs[i]?).map fun x => x.2.prog x.1) → (∀ i ∈ order, i < xs.length) →
      HistoryOK c.mem cfg d (order.filterMap (xs[·]?)) → Exec c (serial order tr) c' → runOps cfg ((order.filterMap (xs[·]?)).map (·.2)) d = some d' →
      HoldsSegmenter c'.mem cfg (some d') ∧ c'.mem .totalFreq = some (.freq d'.totalFreq) ∧ answers cfg ((order.filterMap (xs[·]?)).map (·.2)) d = order.filterMap (es[·]?)
  | [], c, d, d', _, _, _, h, hx, hr => by
    obtain rfl : d = d' := by simpa [runOps] using hr
    have hx' : Exec c [] c' := hx
    obtain rfl : c = c' := by
      generalize hu : ([] : List (Nat × Access)) = u at hx'
      cases hx' with
      | refl => rfl
      | step => simp at hu
    exact ⟨h.segmenter, h.totalFreq, rfl⟩
  | i :: order, c, d, d', hnd, hth, hlt, h, hx, hr => by
    obtain ⟨hi, hnd'⟩ := List.nodup_cons.mp hnd
    have hil := hlt i (by simp)
    have hxi : xs[i]? = some xs[i] := List.getElem?_eq_getElem hil
    rw [List.filterMap_cons, hxi] at h hr ⊢
    simp only [List.map_cons] at h hr ⊢
    obtain ⟨d1, e, h1, _, h2⟩ := run_cons hr
    rw [serial, List.flatMap_cons, ← serial] at hx
    obtain ⟨c1, g1, g2⟩ := exec_parts hx
    have hp : c.threads[i]? = some (xs[i].2.prog xs[i].1) := by rw [hth i (by simp), hxi]; rfl
    obtain ⟨q, g3, g4⟩ := exec_one g1 (fun x hx => by have := (List.mem_filter.mp hx).2; simpa using this) hp
    have hstill := exec_still g2 (i := i) fun x hx => by
      obtain ⟨j, hj, hx⟩ := List.mem_flatMap.mp hx
      have := (List.mem_filter.mp hx).2
      rintro rfl
      simp only [beq_iff_eq] at this
      exact hi (this ▸ hj)
    have hlt' := (List.getElem?_eq_some_iff.mp hp).1
    rw [g3, List.getElem?_set_self hlt', hend, List.getElem?_map] at hstill
    obtain ⟨e', he1, he2⟩ := Option.map_eq_some_iff.mp hstill
    subst he2
    obtain ⟨q, k1, k2⟩ := alone_wp (wp_op_next h h1) g4
    simp only [List.cons.injEq, and_true] at k1
    subst k1
    obtain ⟨rfl, k3⟩ := k2
    obtain ⟨r1, r2, r3⟩ := run_serial hend order c1 d1 d' hnd' (fun j hj => by
        rw [g3, List.getElem?_set_ne (by rintro rfl; exact hi hj)]
        exact hth j (by simp [hj])) (fun j hj => hlt j (by simp [hj])) k3 g2 h2
    refine ⟨r1, r2, ?_⟩
    rw [List.filterMap_cons, he1]
    simp only [answers, h1, r3]

theorem Spec.HistoryOK.single {m : Mem F D} {cfg : SplitCfg} {d : Dictionary F D} {xs : List (Slice × DictOp F)} (h : HistoryOK m cfg d xs) {x : Slice × DictOp F} (hx : x ∈ xs) : HistoryOK m cfg d [x] :=
  ⟨h.segmenter, h.totalFreq, h.subs, fun k hk => h.room k (by
    have := List.length_pos_of_mem hx
    simp at hk; omega), fun y hy => h.texts y (by simp at hy; subst hy; exact hx)⟩

/-- **C115.** Goroutines that make one call each on the same dictionary, and have all returned, without a data race: whatever order one names, the dictionary in memory is the one these calls make one after
another in that order, and every call returned what it returns there. -/
theorem C115_calls (m : Mem F D) (cfg : SplitCfg) (d : Dictionary F D) (xs : List (Slice × DictOp F)) (h : HistoryOK m cfg d xs) (hs : ∀ x ∈ xs, (x.2.result cfg d).isSome)
    (tr : List (Nat × Access)) (c' : Config F D Bool) (hx : Exec (startEach m xs) tr c') (hrf : RaceFree tr) (hfr : FreshAddresses tr) (es : List Bool) (hend : c'.threads = es.map .ret)
    (order : List Nat) (hp : order.Perm (List.range xs.length)) (d' : Dictionary F D) (hr : runOps cfg ((order.filterMap (xs[·]?)).map (·.2)) d = some d') :
    HoldsSegmenter c'.mem cfg (some d') ∧ c'.mem .totalFreq = some (.freq d'.totalFreq) ∧ answers cfg ((order.filterMap (xs[·]?)).map (·.2)) d = order.filterMap (es[·]?) := by
  have hnd : order.Nodup := hp.nodup_iff.mpr List.nodup_range
  have hmem : ∀ i, i ∈ order ↔ i < xs.length := fun i => by rw [hp.mem_iff, List.mem_range]
  have hser := C115_serial _ c' tr hx hrf hfr (safe_each (fun x hx => h.single hx) hs) order hnd fun i hi => (hmem i).mpr (by simpa [startEach] using hi)
  refine run_serial hend order _ d d' hnd (fun i _ => by simp [startEach]) (fun i hi => (hmem i).mp hi) ⟨h.segmenter, h.totalFreq, h.subs, fun k hk => h.room k ?_, fun x hx => h.texts x ?_⟩ hser hr
  · have h1 := List.length_filterMap_le (xs[·]?) order
    have h2 := hp.length_eq
    rw [List.length_range] at h2
    omega
  · obtain ⟨i, _, hi⟩ := List.mem_filterMap.mp hx
    exact List.mem_of_getElem? hi

/-- Two dictionaries in the same memory. -/
theorem holds_unique {m : Mem F D} {cfg : SplitCfg} {d e : Dictionary F D} (h : HoldsSegmenter m cfg (some d)) (g : HoldsSegmenter m cfg (some e)) :
    d.trie = e.trie ∧ d.maxTokenLen = e.maxTokenLen ∧ d.tokens.map (fun t => (t.text, t.freq, t.pos, t.distance)) = e.tokens.map fun t => (t.text, t.freq, t.pos, t.distance) := by
  have h1 := (h.trie d rfl).symm.trans (g.trie e rfl)
  have h2 := (h.maxLen d rfl).symm.trans (g.maxLen e rfl)
  have h3 := (h.tokHdr d rfl).symm.trans (g.tokHdr e rfl)
  cases h1' : d.trie; cases h2' : e.trie
  simp only [Option.some.injEq, Cell.trie.injEq, Cell.nat.injEq] at h1 h2 h3
  rw [h1', h2'] at h1
  refine ⟨h1, h2, List.ext_getElem (by simpa using h3) fun i hi hj => ?_⟩
  simp only [List.length_map] at hi hj
  have k1 := (h.tok d rfl i _ (List.getElem?_eq_getElem hi)).symm.trans (g.tok e rfl i _ (List.getElem?_eq_getElem hj))
  have k2 := (h.dist d rfl i _ (List.getElem?_eq_getElem hi)).symm.trans (g.dist e rfl i _ (List.getElem?_eq_getElem hj))
  simp only [Option.some.injEq, Cell.token.injEq, Cell.dist.injEq] at k1 k2
  simp only [List.getElem_map]
  injection k1 with a b c
  rw [a, b, c, k2]

/-- **C115.** Calls of which no two collide may be made one after another in any order: the stored words, their frequencies, tags and distances, and what each call returns, are the same. -/
theorem C115_commute (cfg : SplitCfg) (d : Dictionary F D) (ops : List (DictOp F)) (hs : ∀ op ∈ ops, (op.result cfg d).isSome)
    (hc : ∀ (i j : Nat) x y, i ≠ j → ops[i]? = some x → ops[j]? = some y → ¬ Collide cfg d x y) :
    ∃ es : List Bool, ∀ order1 order2 : List Nat, order1.Perm (List.range ops.length) → order2.Perm (List.range ops.length) → ∀ d1 d2 : Dictionary F D,
      runOps cfg (order1.filterMap (ops[·]?)) d = some d1 → runOps cfg (order2.filterMap (ops[·]?)) d = some d2 →
      answers cfg (order1.filterMap (ops[·]?)) d = order1.filterMap (es[·]?) ∧ d1.trie = d2.trie ∧ d1.totalFreq = d2.totalFreq ∧ d1.maxTokenLen = d2.maxTokenLen ∧
      d1.tokens.map (fun t => (t.text, t.freq, t.pos, t.distance)) = d2.tokens.map fun t => (t.text, t.freq, t.pos, t.distance) := by
  have hb : (spacious (memOf cfg (some d) (ops.map DictOp.text)) d.totalFreq).Below (ops.map DictOp.text).length := fun a ha i => memOf_below cfg (some d) (ops.map DictOp.text) a ha i
  generalize hxs : ops.mapIdx (fun i op => ((⟨i, 0, op.text.length⟩ : Slice), op)) = xs
  have hxop : ∀ i : Nat, (xs[i]?).map (·.2) = ops[i]? := fun i => by
    rw [← hxs, List.getElem?_mapIdx, Option.map_map]
    cases ops[i]? <;> rfl
  have hlen : xs.length = ops.length := by rw [← hxs]; simp
  have hmem : ∀ x ∈ xs, x.2 ∈ ops := fun x hx => by
    obtain ⟨i, hi⟩ := List.mem_iff_getElem?.mp hx
    have := hxop i
    rw [hi] at this
    exact List.mem_of_getElem? this.symm
  have hok : HistoryOK (spacious (memOf cfg (some d) (ops.map DictOp.text)) d.totalFreq) cfg d xs := by
    refine spacious_ok cfg d _ _ xs fun x hx _ => ?_
    obtain ⟨i, hi⟩ := List.mem_iff_getElem?.mp hx
    rw [← hxs, List.getElem?_mapIdx] at hi
    obtain ⟨op, h1, rfl⟩ := Option.map_eq_some_iff.mp hi
    exact memOf_input _ _ _ i op.text (by simp [h1])
  have hs' : ∀ x ∈ xs, (x.2.result cfg d).isSome := fun x hx => hs _ (hmem x hx)
  obtain ⟨tr, c', hx, hfr, hend⟩ := can_end_fresh _ _ [] (Exec.refl (startEach (spacious (memOf cfg (some d) (ops.map DictOp.text)) d.totalFreq) xs)) (fun _ _ _ _ _ h => by simp at h)
    ⟨_, hb, by simp⟩
  simp only [List.nil_append] at hx hfr
  have hrf : RaceFree tr := by
    refine C114_free _ cfg d xs (fun x hx => hok.single hx) hs' (fun i j x y hij hi hj => ?_) tr c' hx
    have h1 := hxop i
    have h2 := hxop j
    rw [hi] at h1; rw [hj] at h2
    exact hc i j x.2 y.2 hij h1.symm h2.symm
  have hnp := (C114_calls _ cfg d xs (fun x hx => hok.single hx) hs' tr c' hx hrf).1
  obtain ⟨es, hes⟩ : ∃ es : List Bool, c'.threads = es.map .ret := by
    have : ∀ p ∈ c'.threads, ∃ e : Bool, p = .ret e := fun p hp => by
      obtain ⟨i, hi⟩ := List.mem_iff_getElem?.mp hp
      obtain ⟨q, hq, he⟩ := exec_ended hx ⟨_, hb⟩ hend (i := i) (by
        have := (List.getElem?_eq_some_iff.mp hi).1
        rwa [same_number hx] at this)
      rw [hi] at hq; cases hq
      rcases he with ⟨a, rfl⟩ | rfl
      · exact ⟨a, rfl⟩
      · exact absurd hi (hnp i)
    generalize c'.threads = ts at this
    clear hend hnp hfr hrf hx
    induction ts with
    | nil => exact ⟨[], rfl⟩
    | cons p ts ih =>
      obtain ⟨e, rfl⟩ := this p (by simp)
      obtain ⟨es, rfl⟩ := ih fun q hq => this q (by simp [hq])
      exact ⟨e :: es, rfl⟩
  have horder : ∀ order : List Nat, (order.filterMap (xs[·]?)).map (·.2) = order.filterMap (ops[·]?) := fun order => by
    rw [List.map_filterMap]
    congr 1
    funext i
    exact hxop i
  refine ⟨es, fun o1 o2 p1 p2 d1 d2 r1 r2 => ?_⟩
  rw [← hlen] at p1 p2
  obtain ⟨a1, a2, a3⟩ := C115_calls _ cfg d xs hok hs' tr c' hx hrf hfr es hes o1 p1 d1 (by rw [horder]; exact r1)
  obtain ⟨b1, b2, _⟩ := C115_calls _ cfg d xs hok hs' tr c' hx hrf hfr es hes o2 p2 d2 (by rw [horder]; exact r2)
  obtain ⟨e1, e2, e3⟩ := holds_unique a1 b1
  rw [horder] at a3
  rw [a2] at b2
  simp only [Option.some.injEq, Cell.freq.injEq] at b2
  exact ⟨a3, e1, b2, e2, e3⟩

end

section examples
attribute [local instance] sampleUnicode sampleUnicodeOK sampleF64 sampleF32 sampleNarrow

/-- Removing the only word beside `CalcToken`: no complete execution races, both orders give the dictionary in memory, which still has the token but no longer finds it. -/
example : ∃ d : Dictionary Int Int, runOps {} [.add (str "a") 9 []] Dictionary.new = some d ∧
    ∃ d1 d2 : Dictionary Int Int, runOps {} [.remove (str "a"), .recalc] d = some d1 ∧ runOps {} [.recalc, .remove (str "a")] d = some d2 ∧
      d1.numTokens = 1 ∧ d1.trie = d2.trie ∧
      ∀ tr c', Exec (startEach (spacious (memOf {} (some d) [str "a", str "z"]) 0) takeCalls) tr c' → RaceFree tr → FreshAddresses tr → ∀ es : List Bool, c'.threads = es.map .ret →
        HoldsSegmenter c'.mem {} (some d1) ∧ HoldsSegmenter c'.mem {} (some d2) ∧ es.length = 2 := by
  have h : (runOps (F := Int) (D := Int) {} [.add (str "a") 9 []] Dictionary.new).isSome := by decide +kernel
  obtain ⟨d, hd⟩ := Option.isSome_iff_exists.mp h
  have key : (runOps (F := Int) (D := Int) {} [.add (str "a") 9 []] Dictionary.new).map
      (fun d => ((runOps {} [.remove (str "a"), .recalc] d).map (·.numTokens), (runOps {} [.recalc, .remove (str "a")] d).map (·.numTokens),
        (segRemoveToken {} d (str "a")).map (·.2), (calcToken d).isSome)) = some (some 1, some 1, some false, true) := by decide +kernel
  rw [hd] at key
  simp only [Option.map_some, Option.some.injEq, Prod.mk.injEq] at key
  obtain ⟨k1, k2, k3, k4⟩ := key
  obtain ⟨d1, h1, n1⟩ := Option.map_eq_some_iff.mp k1
  obtain ⟨d2, h2, n2⟩ := Option.map_eq_some_iff.mp k2
  have ok : HistoryOK (spacious (memOf {} (some d) [str "a", str "z"]) 0) {} d takeCalls := by
    refine spacious_ok {} d 0 _ _ fun x hx hne => ?_
    simp only [takeCalls, List.mem_cons, List.not_mem_nil, or_false] at hx
    rcases hx with rfl | rfl
    · exact memOf_input _ _ _ 0 (str "a") rfl
    · exact absurd rfl hne
  have res : ∀ x ∈ takeCalls, (x.2.result {} d).isSome := by
    intro x hx
    simp only [takeCalls, List.mem_cons, List.not_mem_nil, or_false] at hx
    rcases hx with rfl | rfl
    · show (segRemoveToken {} d (str "a")).isSome
      rw [← Option.isSome_map, k3]; rfl
    · simpa [DictOp.result] using k4
  have both : ∀ tr c', Exec (startEach (spacious (memOf {} (some d) [str "a", str "z"]) 0) takeCalls) tr c' → RaceFree tr → FreshAddresses tr → ∀ es : List Bool, c'.threads = es.map .ret →
        HoldsSegmenter c'.mem {} (some d1) ∧ HoldsSegmenter c'.mem {} (some d2) ∧ es.length = 2 := fun tr c' hx hrf hfr es hes => by
    refine ⟨(C115_calls _ {} d takeCalls ok res tr c' hx hrf hfr es hes [0, 1] (List.Perm.refl _) d1 h1).1,
      (C115_calls _ {} d takeCalls ok res tr c' hx hrf hfr es hes [1, 0] (List.Perm.swap _ _ _) d2 h2).1, ?_⟩
    have := same_number hx
    rw [hes] at this
    simpa [startEach, takeCalls] using this
  refine ⟨d, hd, d1, d2, h1, h2, n1, ?_, both⟩
  have hk : (runOps (F := Int) (D := Int) {} [.add (str "a") 9 []] Dictionary.new).map (fun d => d.tokens.map (·.text.length)) = some [1] := by decide +kernel
  rw [hd] at hk
  simp only [Option.map_some, Option.some.injEq] at hk
  obtain ⟨_, hall⟩ := C115_commute {} d [.remove (str "a"), .recalc] (fun op hop => by
      simp only [List.mem_cons, List.not_mem_nil, or_false] at hop
      rcases hop with rfl | rfl
      · exact res (⟨0, 0, 1⟩, .remove (str "a")) (by simp [takeCalls])
      · exact res (⟨0, 0, 0⟩, .recalc) (by simp [takeCalls])) (by
    have hone : ∀ t ∈ d.tokens, t.text.length ≤ 1 := fun t ht => by
      have := List.mem_map_of_mem (f := fun t : Token Int Int => t.text.length) ht
      rw [hk] at this
      simp at this; omega
    intro i j x y hij hi hj hc
    have hxy : (x = .remove (str "a") ∧ y = .recalc) ∨ (x = .recalc ∧ y = .remove (str "a")) := by
      match i, j with
      | 0, 0 => exact absurd rfl hij
      | 1, 1 => exact absurd rfl hij
      | 0, 1 => simp at hi hj; exact .inl ⟨hi.symm, hj.symm⟩
      | 1, 0 => simp at hi hj; exact .inr ⟨hi.symm, hj.symm⟩
      | i + 2, _ => simp at hi
      | _, j + 2 => simp at hj
    rcases hxy with ⟨rfl, rfl⟩ | ⟨rfl, rfl⟩ <;> rcases hc with ⟨c1, c2, _⟩ | ⟨⟨s, f, p, c1⟩, _⟩ | ⟨⟨⟨s, f, p, c1⟩, _⟩, c2⟩
    · cases c1
    · simp at c1
    · rcases c2 with c2 | ⟨t, ht, c2⟩
      · exact c2 rfl
      · have := hone t ht; omega
    · cases c2
    · simp at c1
    · simp at c1)
  exact (hall [0, 1] [1, 0] (List.Perm.refl _) (List.Perm.swap _ _ _) d1 d2 h1 h2).2.1

/-- Two goroutines that add the same new word with different frequencies collide, and there the order shows. -/
example : (runOps (F := Int) (D := Int) {} [.add (str "a") 5 [], .add (str "a") 6 []] Dictionary.new).map (fun d => d.tokens.map (·.freq)) = some [5] ∧
    (runOps (F := Int) (D := Int) {} [.add (str "a") 6 [], .add (str "a") 5 []] Dictionary.new).map (fun d => d.tokens.map (·.freq)) = some [6] := by decide +kernel

end examples

end Gse
