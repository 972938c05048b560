import Verif.Proofs.SegMem

/-!
# Programs that must make an access, whatever the others do

For goroutines that do write memory others read. `Rely` says which locations are read by others and what values they can
hold at any time; `Obeys` says of a program that it keeps to this and makes a given access before it ends.
-/

namespace Gse

variable {F D α β : Type}

/-- Locations seen by several goroutines, and the values they can hold. -/
structure Rely (F D : Type) where
  loc : Loc → Prop
  val : Loc → Cell F D → Prop

/-- Own memory that nobody else sees. -/
def Private (R : Rely F D) (o : Mem F D) : Prop := ∀ l, (o l).isSome → ¬ R.loc l

/-- The program writes only its own memory, whatever values it reads. -/
def Quiet : Prog F D α → Mem F D → Prop
  | .ret _, _ => True
  | .panic, _ => True
  | .read _ k, o => ∀ c, Quiet (k c) o
  | .write l c k, o => (o l).isSome ∧ Quiet k (o.put l c)
  | .alloc cs k, o => ∀ a, o.Unused a → Quiet (k a) (o.extend a cs)

/-- The program keeps to `R` and makes the access `e` before it ends, unless it has made it already. -/
def Obeys (R : Rely F D) (e : Access) : Bool → Prog F D α → Mem F D → Prop
  | done, .ret _, _ => done = true
  | done, .panic, _ => done = true
  | done, .read l k, o =>
    ((done = true ∨ e = .rd l) ∧ Private R o ∧ ∀ c, Quiet (k c) o) ∨
    (∃ c, o l = some c ∧ Obeys R e (done || decide (e = .rd l)) (k c) o) ∨
    (o l = none ∧ R.loc l ∧ ∀ c, R.val l c → Obeys R e (done || decide (e = .rd l)) (k c) o)
  | done, .write l c k, o => (o l).isSome ∧ (R.loc l → R.val l c) ∧ Obeys R e (done || decide (e = .wr l)) k (o.put l c)
  | done, .alloc cs k, o => ∀ a, o.Unused a → (∀ i, ¬ R.loc (.cell a i)) → Obeys R e done (k a) (o.extend a cs)

theorem Obeys_mono (R : Rely F D) (e : Access) : ∀ (p : Prog F D α) (o : Mem F D), Obeys R e false p o → Obeys R e true p o
  | .ret _, _, _ => rfl
  | .panic, _, _ => rfl
  | .read l k, o, h => by
    rcases h with ⟨_, h2, h3⟩ | ⟨y, hy, ho⟩ | ⟨h1, hl, ho⟩
    · exact .inl ⟨.inl rfl, h2, h3⟩
    · refine .inr (.inl ⟨y, hy, ?_⟩)
      cases hd : decide (e = .rd l) with
      | false => rw [hd] at ho; exact Obeys_mono R e _ _ ho
      | true => rw [hd] at ho; exact ho
    · refine .inr (.inr ⟨h1, hl, fun c hc => ?_⟩)
      have := ho c hc
      cases hd : decide (e = .rd l) with
      | false => rw [hd] at this; exact Obeys_mono R e _ _ this
      | true => rw [hd] at this; exact this
  | .write l c k, o, ⟨h1, h2, h3⟩ => by
    refine ⟨h1, h2, ?_⟩
    cases hd : decide (e = .wr l) with
    | false => rw [hd] at h3; exact Obeys_mono R e _ _ h3
    | true => rw [hd] at h3; exact h3
  | .alloc cs k, o, h => fun a h1 h2 => Obeys_mono R e _ _ (h a h1 h2)

/-- What holds of a goroutine at any time. -/
def Goes (R : Rely F D) (e : Access) (done : Bool) (p : Prog F D α) (o : Mem F D) : Prop :=
  Obeys R e done p o ∨ (done = true ∧ Private R o ∧ Quiet p o)

/-- What holds of a state at any time. -/
structure Guarded (R : Rely F D) (es : Nat → Access) (c : Config F D α) (tr : List (Nat × Access)) (own : Nat → Mem F D) (done : Nat → Bool) : Prop where
  shared : ∀ l, R.loc l → ∃ x, c.mem l = some x ∧ R.val l x
  mine : ∀ i l x, own i l = some x → c.mem l = some x
  disjoint : ∀ i j l x, i ≠ j → own i l = some x → own j l = none
  goes : ∀ i p, c.threads[i]? = some p → Goes R (es i) (done i) p (own i)
  seen : ∀ i, done i = true → (i, es i) ∈ tr

/-- One goroutine has gone on; the others are as before. -/
theorem Guarded.next {R : Rely F D} {es : Nat → Access} {c : Config F D α} {tr : List (Nat × Access)} {own : Nat → Mem F D} {done : Nat → Bool}
    (h : Guarded R es c tr own done) {i : Nat} {m : Mem F D} {p : Prog F D α} {o : Mem F D} {e : Access}
    (hs : ∀ l, R.loc l → ∃ x, m l = some x ∧ R.val l x) (hm : ∀ l x, o l = some x → m l = some x)
    (hoth : ∀ j l x, j ≠ i → own j l = some x → m l = some x ∧ o l = none)
    (hg : Goes R (es i) (done i || decide (es i = e)) p o) :
    ∃ own' done', Guarded R es ⟨m, c.threads.set i p⟩ (tr ++ [(i, e)]) own' done' := by
  refine ⟨fun j => if j = i then o else own j, fun j => if j = i then (done i || decide (es i = e)) else done j, hs, ?_, ?_, ?_, ?_⟩
  · intro j l x hx
    split at hx
    · exact hm l x hx
    · next hj => exact (hoth j l x hj hx).1
  · intro j k l x hjk hx
    split at hx
    · next hj =>
      rw [if_neg (by rintro rfl; exact hjk hj)]
      cases hk : own k l with
      | none => rfl
      | some y =>
        have := (hoth k l y (by rintro rfl; exact hjk hj) hk).2
        rw [this] at hx; cases hx
    · next hj =>
      split
      · exact (hoth j l x hj hx).2
      · exact h.disjoint j k l x hjk hx
  · intro j q hq
    simp only [List.getElem?_set] at hq ⊢
    split at hq
    · next hij =>
      subst hij
      split at hq
      · cases hq; simpa using hg
      · cases hq
    · next hij =>
      rw [if_neg (fun h => hij h.symm), if_neg (fun h => hij h.symm)]
      exact h.goes j q hq
  · intro j hj
    split at hj
    · next hji =>
      subst hji
      rcases Bool.or_eq_true_iff.mp hj with h1 | h1
      · exact List.mem_append_left _ (h.seen j h1)
      · have := of_decide_eq_true h1
        rw [← this]; simp
    · exact List.mem_append_left _ (h.seen j hj)

theorem guarded_step {R : Rely F D} {es : Nat → Access} {c c' : Config F D α} {tr : List (Nat × Access)} {own : Nat → Mem F D} {done : Nat → Bool}
    (h : Guarded R es c tr own done) {i : Nat} {e : Access} (hs : Step c i e c') :
    ∃ own' done', Guarded R es c' (tr ++ [(i, e)]) own' done' := by
  have hkeep : ∀ j l x, j ≠ i → own j l = some x → c.mem l = some x ∧ own i l = none := fun j l x hj hx =>
    ⟨h.mine j l x hx, h.disjoint j i l x hj hx⟩
  cases hs with
  | @read l k x ht hm =>
    refine h.next h.shared (fun l x => h.mine i l x) hkeep ?_
    rcases h.goes i _ ht with ho | ⟨h1, h2, h3⟩
    · rcases ho with ⟨h1, h2, h3⟩ | ⟨y, hy, ho⟩ | ⟨_, hl, ho⟩
      · refine .inr ⟨?_, h2, h3 x⟩
        rcases h1 with h1 | h1
        · simp [h1]
        · simp [h1]
      · have := h.mine i l y hy
        rw [hm] at this; cases this
        exact .inl ho
      · obtain ⟨y, hy, hv⟩ := h.shared l hl
        rw [hm] at hy; cases hy
        exact .inl (ho x hv)
    · exact .inr ⟨by simp [h1], h2, h3 x⟩
  | @readBad l k ht hm =>
    refine h.next h.shared (fun l x => h.mine i l x) hkeep ?_
    rcases h.goes i _ ht with ho | ⟨h1, h2, h3⟩
    · rcases ho with ⟨h1, h2, h3⟩ | ⟨y, hy, ho⟩ | ⟨_, hl, ho⟩
      · refine .inr ⟨?_, h2, trivial⟩
        rcases h1 with h1 | h1
        · simp [h1]
        · simp [h1]
      · have := h.mine i l y hy
        rw [hm] at this; cases this
      · obtain ⟨y, hy, hv⟩ := h.shared l hl
        rw [hm] at hy; cases hy
    · exact .inr ⟨by simp [h1], h2, trivial⟩
  | @write l x k ht hm =>
    have key : (own i l).isSome ∧ (R.loc l → R.val l x) ∧ Goes R (es i) (done i || decide (es i = .wr l)) k ((own i).put l x) := by
      rcases h.goes i _ ht with ⟨h1, h2, h3⟩ | ⟨h1, h2, h3, h4⟩
      · exact ⟨h1, h2, .inl h3⟩
      · refine ⟨h3, fun hl => absurd hl (h2 l h3), .inr ⟨by simp [h1], ?_, h4⟩⟩
        intro l' hl'
        by_cases e : l' = l
        · subst e; exact h2 _ h3
        · rw [put_other _ _ e] at hl'; exact h2 l' hl'
    obtain ⟨h1, h2, h3⟩ := key
    obtain ⟨y, hy⟩ := Option.isSome_iff_exists.mp h1
    refine h.next ?_ ?_ ?_ h3
    · intro l' hl'
      by_cases e : l' = l
      · subst e; exact ⟨x, put_same _ _ _, h2 hl'⟩
      · rw [put_other _ _ e]; exact h.shared l' hl'
    · intro l' z hz
      by_cases e : l' = l
      · subst e; rw [put_same] at hz ⊢; exact hz
      · rw [put_other _ _ e] at hz ⊢; exact h.mine i l' z hz
    · intro j l' z hj hz
      have e : l' ≠ l := by
        rintro rfl
        rw [h.disjoint j i l' z hj hz] at hy; cases hy
      rw [put_other _ _ e, put_other _ _ e]
      exact hkeep j l' z hj hz
  | @writeBad l x k ht hm =>
    exfalso
    have key : (own i l).isSome := by
      rcases h.goes i _ ht with ⟨h1, _⟩ | ⟨_, _, h3, _⟩
      · exact h1
      · exact h3
    obtain ⟨y, hy⟩ := Option.isSome_iff_exists.mp key
    rw [h.mine i l y hy] at hm; cases hm
  | @alloc cs k a ht hu =>
    have hou : ∀ j, (own j).Unused a := by
      intro j n
      cases hx : own j (.cell a n) with
      | none => rfl
      | some y => have := h.mine j _ y hx; rw [hu n] at this; cases this
    have hnl : ∀ n, ¬ R.loc (.cell a n) := by
      intro n hn
      obtain ⟨y, hy, _⟩ := h.shared _ hn
      rw [hu n] at hy; cases hy
    have hne : ∀ {l : Loc} {x : Cell F D}, c.mem l = some x → ∀ n, l ≠ .cell a n := by
      rintro l x hx n rfl; rw [hu n] at hx; cases hx
    refine h.next ?_ ?_ ?_ (e := .al a cs.length) (p := k a) (o := (own i).extend a cs) ?_
    · intro l hl
      obtain ⟨y, hy, hv⟩ := h.shared l hl
      exact ⟨y, by rw [extend_other _ _ (hne hy)]; exact hy, hv⟩
    · intro l z hz
      by_cases e : ∃ n, l = .cell a n
      · obtain ⟨n, rfl⟩ := e
        rw [extend_cell] at hz ⊢; exact hz
      · rw [extend_other _ _ (fun n hn => e ⟨n, hn⟩)] at hz ⊢; exact h.mine i l z hz
    · intro j l z hj hz
      have := hkeep j l z hj hz
      rw [extend_other _ _ (hne this.1), extend_other _ _ (hne this.1)]; exact this
    · rcases h.goes i _ ht with ho | ⟨h1, h2, h3⟩
      · have := ho a (hou i) hnl
        cases hd : (done i || decide (es i = Access.al a cs.length)) with
        | false =>
          have : done i = false := by cases hdi : done i <;> simp_all
          rw [this] at ho; exact .inl (ho a (hou i) hnl)
        | true =>
          cases hdi : done i with
          | true => rw [hdi] at this; exact .inl this
          | false =>
            rw [hdi] at this hd
            exact .inl (Obeys_mono R (es i) _ _ this)
      · refine .inr ⟨by simp [h1], ?_, h3 a (hou i)⟩
        intro l hl hloc
        by_cases e : ∃ n, l = .cell a n
        · obtain ⟨n, rfl⟩ := e; exact hnl n hloc
        · rw [extend_other _ _ (fun n hn => e ⟨n, hn⟩)] at hl; exact h2 l hl hloc

theorem guarded_exec {R : Rely F D} {es : Nat → Access} {c c' : Config F D α} {tr : List (Nat × Access)} {own : Nat → Mem F D}
    (h : Guarded R es c [] own fun _ => false) (hx : Exec c tr c') : ∃ own' done', Guarded R es c' tr own' done' := by
  induction hx with
  | refl => exact ⟨_, _, h⟩
  | step _ hs ih =>
    obtain ⟨o, dn, hg⟩ := ih
    exact guarded_step hg hs

/-- A goroutine that has ended has made its access. -/
theorem guarded_ended {R : Rely F D} {es : Nat → Access} {c : Config F D α} {tr : List (Nat × Access)} {own : Nat → Mem F D} {done : Nat → Bool}
    (h : Guarded R es c tr own done) {i : Nat} {p : Prog F D α} (hp : c.threads[i]? = some p) (he : (∃ a, p = .ret a) ∨ p = .panic) :
    (i, es i) ∈ tr := by
  refine h.seen i ?_
  rcases h.goes i p hp with ho | ⟨h1, _⟩
  · rcases he with ⟨a, rfl⟩ | rfl
    · exact ho
    · exact ho
  · exact h1

/-! ## Sequencing -/

theorem bind_assoc_prog {γ : Type} {f : α → Prog F D β} {g : β → Prog F D γ} : ∀ p : Prog F D α, (p.bind f).bind g = p.bind fun a => (f a).bind g
  | .ret _ => rfl
  | .panic => rfl
  | .read l k => congrArg (Prog.read l) (funext fun c => bind_assoc_prog (k c))
  | .write l c k => congrArg (Prog.write l c) (bind_assoc_prog k)
  | .alloc cs k => congrArg (Prog.alloc cs) (funext fun a => bind_assoc_prog (k a))

/-- Begin with a part that leaves the shared memory `sh` alone. The own memory is `o` and, in front of it, `d`, which
that part does not touch. -/
theorem obeys_wp {R : Rely F D} {e : Access} {done : Bool} {sh d : Mem F D} {f : α → Prog F D β}
    (hR : ∀ l x, sh l = some x → R.loc l ∧ ∀ y, R.val l y → y = x) (hd : ∀ l x, sh l = some x → d l = none)
    (hda : ∀ a i, d (.cell a i) = none) {Q : α → Mem F D → Prop}
    (hf : ∀ a o, Q a o → Private R o → (∀ l x, o l = some x → d l = none) → Obeys R e done (f a) (view d o)) :
    ∀ (p : Prog F D α) (o : Mem F D), wp sh p o Q → Private R o → (∀ l x, o l = some x → d l = none) →
      Obeys R e done (p.bind f) (view d o)
  | .ret a, o, hp, hpr, hdj => hf a o hp hpr hdj
  | .panic, _, hp, _, _ => hp.elim
  | .read l k, o, ⟨c, hc, hp⟩, hpr, hdj => by
    have ih := obeys_wp hR hd hda hf (k c) o hp hpr hdj
    have ih' : Obeys R e (done || decide (e = .rd l)) ((k c).bind f) (view d o) := by
      cases done with
      | true => exact ih
      | false =>
        cases decide (e = .rd l) with
        | false => exact ih
        | true => exact Obeys_mono R e _ _ ih
    rcases view_some.mp hc with h1 | ⟨h1, h2⟩
    · exact .inr (.inl ⟨c, view_own h1, ih'⟩)
    · refine .inr (.inr ⟨by simp [view, h1, hd l c h2], (hR l c h2).1, fun y hy => ?_⟩)
      rw [(hR l c h2).2 y hy]; exact ih'
  | .write l c k, o, ⟨hl, hp⟩, hpr, hdj => by
    obtain ⟨x, hx⟩ := Option.isSome_iff_exists.mp hl
    have ih := obeys_wp hR hd hda hf k (o.put l c) hp
      (by
        intro l' hl'
        by_cases e : l' = l
        · subst e; exact hpr _ hl
        · rw [put_other _ _ e] at hl'; exact hpr l' hl')
      (by
        intro l' y hy
        by_cases e : l' = l
        · subst e; exact hdj _ x hx
        · rw [put_other _ _ e] at hy; exact hdj l' y hy)
    refine ⟨by rw [view_own hx]; rfl, fun h => absurd h (hpr l hl), ?_⟩
    have hv : view d (o.put l c) = (view d o).put l c := by
      funext l'; simp only [view, Mem.put]; split <;> rfl
    rw [← hv]
    cases done with
    | true => exact ih
    | false =>
      cases decide (e = .wr l) with
      | false => exact ih
      | true => exact Obeys_mono R e _ _ ih
  | .alloc cs k, o, hp, hpr, hdj => by
    intro a ha hna
    have h1 : o.Unused a := by
      intro i; have := ha i; simp only [view, Option.or_eq_none_iff] at this; exact this.1
    have h2 : sh.Unused a := by
      intro i
      cases hx : sh (.cell a i) with
      | none => rfl
      | some y => exact absurd (hR _ y hx).1 (hna i)
    have ih := obeys_wp hR hd hda hf (k a) (o.extend a cs) (hp a h1 h2)
      (by
        intro l hl hloc
        by_cases e : ∃ n, l = .cell a n
        · obtain ⟨n, rfl⟩ := e; exact hna n hloc
        · rw [extend_other _ _ (fun n hn => e ⟨n, hn⟩)] at hl; exact hpr l hl hloc)
      (by
        intro l y hy
        by_cases e : ∃ n, l = .cell a n
        · obtain ⟨n, rfl⟩ := e; exact hda a n
        · rw [extend_other _ _ (fun n hn => e ⟨n, hn⟩)] at hy; exact hdj l y hy)
    have hv : view d (o.extend a cs) = (view d o).extend a cs := by
      funext l
      cases l with
      | cell a' i =>
        simp only [view, Mem.extend]
        split
        · next h => subst h; rw [hda]; simp
        · rfl
      | _ => rfl
    rw [← hv]; exact ih

theorem quiet_bind {f : α → Prog F D β} : ∀ (p : Prog F D α) (o : Mem F D), Quiet p o →
    (∀ a o', (∀ l, (o l).isSome → (o' l).isSome) → Quiet (f a) o') → Quiet (p.bind f) o
  | .ret a, o, _, h => h a o fun _ h => h
  | .panic, _, _, _ => trivial
  | .read _ k, o, hp, h => fun c => quiet_bind (k c) o (hp c) h
  | .write l c k, o, ⟨hl, hp⟩, h => ⟨hl, quiet_bind k _ hp fun a o' ho => h a o' fun l' hl' => ho l' (by
      by_cases e : l' = l
      · subst e; rw [put_same]; rfl
      · rw [put_other _ _ e]; exact hl')⟩
  | .alloc cs k, o, hp, h => fun a ha => quiet_bind (k a) _ (hp a ha) fun b o' ho => h b o' fun l' hl' => ho l' (by
      obtain ⟨x, hx⟩ := Option.isSome_iff_exists.mp hl'
      rw [extend_unused cs ha hx]; rfl)

end Gse
