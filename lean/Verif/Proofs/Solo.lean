import Verif.Model.Mem

/-! # One goroutine by itself -/

namespace Gse

variable {F D α β : Type}

/-- Whatever addresses are allocated, the program ends by itself as `Q` says: with a result or (`none`) with a panic, and
a memory. -/
def Solo (Q : Option α → Mem F D → Prop) : Prog F D α → Mem F D → Prop
  | .ret a, m => Q (some a) m
  | .panic, m => Q none m
  | .read l k, m => (∀ x, m l = some x → Solo Q (k x) m) ∧ (m l = none → Q none m)
  | .write l x k, m => ((m l).isSome → Solo Q k (m.put l x)) ∧ (m l = none → Q none m)
  | .alloc cs k, m => ∀ a, m.Unused a → Solo Q (k a) (m.extend a cs)

theorem solo_bind {Q : Option β → Mem F D → Prop} {f : α → Prog F D β} : ∀ (p : Prog F D α) {m : Mem F D},
    Solo (fun r m => match r with
      | some a => Solo Q (f a) m
      | none => Q none m) p m → Solo Q (p.bind f) m
  | .ret _, _, h => h
  | .panic, _, h => h
  | .read _ k, _, h => ⟨fun x hx => solo_bind (k x) (h.1 x hx), h.2⟩
  | .write _ _ k, _, h => ⟨fun hx => solo_bind k (h.1 hx), h.2⟩
  | .alloc _ k, _, h => fun a ha => solo_bind (k a) (h a ha)

theorem solo_mono {Q R : Option α → Mem F D → Prop} (hQ : ∀ r m, Q r m → R r m) : ∀ (p : Prog F D α) {m : Mem F D}, Solo Q p m → Solo R p m
  | .ret _, _, h => hQ _ _ h
  | .panic, _, h => hQ _ _ h
  | .read _ k, _, h => ⟨fun x hx => solo_mono hQ (k x) (h.1 x hx), fun hn => hQ _ _ (h.2 hn)⟩
  | .write _ _ k, _, h => ⟨fun hx => solo_mono hQ k (h.1 hx), fun hn => hQ _ _ (h.2 hn)⟩
  | .alloc _ k, _, h => fun a ha => solo_mono hQ (k a) (h a ha)

theorem solo_exec {Q : Option α → Mem F D → Prop} {p : Prog F D α} {m : Mem F D} (h : Solo Q p m) {tr : List (Nat × Access)} {c' : Config F D α}
    (hx : Exec ⟨m, [p]⟩ tr c') : ∃ q, c'.threads = [q] ∧ Solo Q q c'.mem := by
  induction hx with
  | refl => exact ⟨p, rfl, h⟩
  | @step tr c' i e c'' _ hs ih =>
    obtain ⟨q, hq, hS⟩ := ih
    have zero : ∀ {r : Prog F D α}, c'.threads[i]? = some r → i = 0 ∧ r = q := by
      intro r hr
      rw [hq] at hr
      cases i with
      | zero => simp at hr; exact ⟨rfl, hr.symm⟩
      | succ i => simp at hr
    cases hs with
    | read h1 h2 => obtain ⟨rfl, rfl⟩ := zero h1; exact ⟨_, by rw [hq]; rfl, hS.1 _ h2⟩
    | readBad h1 h2 => obtain ⟨rfl, rfl⟩ := zero h1; exact ⟨.panic, by rw [hq]; rfl, hS.2 h2⟩
    | write h1 h2 => obtain ⟨rfl, rfl⟩ := zero h1; exact ⟨_, by rw [hq]; rfl, hS.1 h2⟩
    | writeBad h1 h2 => obtain ⟨rfl, rfl⟩ := zero h1; exact ⟨.panic, by rw [hq]; rfl, hS.2 h2⟩
    | alloc h1 h2 => obtain ⟨rfl, rfl⟩ := zero h1; exact ⟨_, by rw [hq]; rfl, hS _ h2⟩

end Gse
