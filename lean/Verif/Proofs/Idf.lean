import Mathlib.Data.List.Nodup
import Mathlib.Data.List.Perm.Basic
import Mathlib.Data.List.Induction
import Verif.Spec.Idf
import Verif.Proofs.Dag
import Verif.Proofs.Stop

namespace Gse

open Spec

set_option linter.unusedSectionVars false

/-! ## Text order -/

theorem bytesLt_iff (a b : Bytes) : bytesLt a b = true ↔ TextBefore a b := by
  unfold TextBefore
  induction a generalizing b with
  | nil => cases b <;> simp [bytesLt]
  | cons x a ih =>
    cases b with
    | nil => simp [bytesLt]
    | cons y b =>
      simp only [bytesLt]
      split
      · rename_i h; exact ⟨fun _ => List.Lex.rel h, fun _ => rfl⟩
      · rename_i h
        split
        · rename_i h2
          constructor
          · simp
          · intro h3; cases h3 <;> omega
        · rename_i h2
          have e : x = y := by
            have : x.toNat = y.toNat := by omega
            exact UInt8.toNat_inj.1 this
          subst e
          rw [ih]
          constructor
          · exact List.Lex.cons
          · intro h3
            cases h3 with
            | cons h => exact h
            | rel h => omega

theorem bytesLt_asymm : ∀ {a b : Bytes}, bytesLt a b = true → bytesLt b a = false := by
  intro a
  induction a with
  | nil => intro b h; cases b <;> simp_all [bytesLt]
  | cons x a ih =>
    intro b h
    cases b with
    | nil => simp [bytesLt] at h
    | cons y b =>
      simp only [bytesLt] at h ⊢
      split at h
      · rename_i h1; rw [if_neg (by omega), if_pos h1]
      · split at h
        · simp at h
        · rename_i h1 h2; rw [if_neg h2, if_neg h1, ih h]

theorem bytesLt_total : ∀ {a b : Bytes}, bytesLt a b = false → bytesLt b a = false → a = b := by
  intro a
  induction a with
  | nil => intro b h h'; cases b <;> simp_all [bytesLt]
  | cons x a ih =>
    intro b h h'
    cases b with
    | nil => simp [bytesLt] at h'
    | cons y b =>
      simp only [bytesLt] at h h'
      split at h
      · simp at h
      · rename_i h1
        rw [if_neg h1] at h'
        split at h
        · rename_i h2; rw [if_pos h2] at h'; simp at h'
        · rename_i h2
          rw [if_neg h2] at h'
          have : x = y := UInt8.toNat_inj.1 (by omega)
          rw [this, ih h h']

theorem bytesLt_cotrans : ∀ {a b c : Bytes}, bytesLt a c = true → bytesLt a b = true ∨ bytesLt b c = true := by
  intro a
  induction a with
  | nil => intro b c h; cases b <;> cases c <;> simp_all [bytesLt]
  | cons x a ih =>
    intro b c h
    cases c with
    | nil => simp [bytesLt] at h
    | cons z c =>
      cases b with
      | nil => right; rfl
      | cons y b =>
        simp only [bytesLt] at h ⊢
        split at h
        · rename_i h1
          by_cases h2 : x.toNat < y.toNat
          · simp [h2]
          · right; rw [if_pos (by omega)]
        · split at h
          · simp at h
          · by_cases h2 : x.toNat < y.toNat
            · simp [h2]
            · by_cases h3 : y.toNat < x.toNat
              · right; rw [if_pos (by omega)]
              · rcases ih (b := b) h with h4 | h4
                · left; rw [if_neg h2, if_neg h3, h4]
                · right; rw [if_neg (by omega), if_neg (by omega), h4]

variable {F D : Type} [F64 F] [F32 D] [Narrow F D]

theorem less_iff [F64Count F] {a b : WordWeight F} (ha : F64Count.num a.weight) (hb : F64Count.num b.weight) :
    WordWeight.less b a = true ↔ Above a b := by
  unfold WordWeight.less Above
  rw [← bytesLt_iff]
  have he := F64Count.eq_iff hb ha
  cases hq : F64.eq b.weight a.weight with
  | true => have := he.1 hq; simp [this.1, this.2]
  | false =>
    simp only [Bool.false_eq_true, if_false]
    constructor
    · exact Or.inl
    · rintro (h | ⟨h1, h2, _⟩)
      · exact h
      · rw [he.2 ⟨h1, h2⟩] at hq; simp at hq

theorem less_strictWeak [F64Count F] {l : List (WordWeight F)} (h : ∀ t ∈ l, F64Count.num t.weight) :
    StrictWeakOn (fun a b => WordWeight.less b a) l := by
  constructor
  · intro a ha b hb hab
    have hab' := (less_iff (h a ha) (h b hb)).1 hab
    rw [Bool.eq_false_iff]
    intro hba
    have hba' := (less_iff (h b hb) (h a ha)).1 hba
    unfold Above at hab' hba'
    simp only [← bytesLt_iff] at hab' hba'
    rcases hab' with h1 | ⟨h1, h2, h3⟩
    · have := F64Count.lt_asymm (h b hb) (h a ha) h1
      rcases hba' with h4 | ⟨_, h4, _⟩ <;> simp_all
    · rcases hba' with h4 | ⟨_, _, h4⟩
      · simp_all
      · rw [bytesLt_asymm h3] at h4; simp at h4
  · intro a ha b hb c hc hac
    have na := h a ha; have nb := h b hb; have nc := h c hc
    simp only [less_iff na nb, less_iff nb nc, less_iff na nc] at hac ⊢
    unfold Above at *
    simp only [← bytesLt_iff] at *
    rcases hac with h1 | ⟨h1, h2, h3⟩
    · rcases F64Count.lt_cotrans nc nb na h1 with h4 | h4
      · exact Or.inr (Or.inl h4)
      · exact Or.inl (Or.inl h4)
    · by_cases hab : F64.lt b.weight a.weight = true
      · exact Or.inl (Or.inl hab)
      by_cases hbc : F64.lt c.weight b.weight = true
      · exact Or.inr (Or.inl hbc)
      rw [Bool.not_eq_true] at hab hbc
      have hab2 : F64.lt a.weight b.weight = false := by
        rw [Bool.eq_false_iff]; intro h5
        rcases F64Count.lt_cotrans na nc nb h5 with h6 | h6 <;> simp_all
      have hbc2 : F64.lt b.weight c.weight = false := by
        rw [Bool.eq_false_iff]; intro h5
        rcases F64Count.lt_cotrans nb na nc h5 with h6 | h6 <;> simp_all
      rcases bytesLt_cotrans (b := b.text) h3 with h4 | h4
      · exact Or.inr (Or.inr ⟨hbc, hbc2, h4⟩)
      · exact Or.inl (Or.inr ⟨hab, hab2, h4⟩)

/-- Two items with numbers as weights are in order one way or the other, or have the same text. -/
theorem above_total {a b : WordWeight F} (h : ¬ Above a b) (h' : ¬ Above b a) : a.text = b.text := by
  unfold Above at h h'
  simp only [← bytesLt_iff] at h h'
  by_cases h1 : F64.lt b.weight a.weight = true
  · exact absurd (Or.inl h1) h
  by_cases h2 : F64.lt a.weight b.weight = true
  · exact absurd (Or.inl h2) h'
  rw [Bool.not_eq_true] at h1 h2
  apply bytesLt_total
  · rw [Bool.eq_false_iff]; intro h3; exact h' (Or.inr ⟨h2, h1, h3⟩)
  · rw [Bool.eq_false_iff]; intro h3; exact h (Or.inr ⟨h1, h2, h3⟩)

theorem above_asymm [F64Count F] {a b : WordWeight F} (ha : F64Count.num a.weight) (hb : F64Count.num b.weight)
    (h : Above a b) : ¬ Above b a := by
  have := (less_strictWeak (l := [a, b]) (by simp [ha, hb])).1 a (by simp) b (by simp) ((less_iff ha hb).2 h)
  intro h'
  simp only [(less_iff hb ha).2 h'] at this
  simp at this

/-! ## Maps -/

section maps
variable {K V W : Type} [DecidableEq K]

theorem lookup_mem {m : GoMap K V} (hn : (m.map Prod.fst).Nodup) {k : K} {v : V} : m.lookup k = some v ↔ (k, v) ∈ m := by
  induction m with
  | nil => simp
  | cons p m ih =>
    obtain ⟨k', v'⟩ := p
    simp only [List.map_cons, List.nodup_cons] at hn
    rw [List.lookup_cons]
    by_cases h : k = k'
    · subst h
      simp only [BEq.rfl, Option.some.injEq, List.mem_cons, Prod.mk.injEq, true_and]
      constructor
      · rintro rfl; exact Or.inl rfl
      · rintro (rfl | h)
        · rfl
        · exact absurd (List.mem_map_of_mem h) hn.1
    · have : (k == k') = false := by simpa using h
      simp only [this, ih hn.2, List.mem_cons, Prod.mk.injEq, h, false_and, false_or]

theorem lookup_none {m : GoMap K V} {k : K} : m.lookup k = none ↔ k ∉ m.map Prod.fst := by
  induction m with
  | nil => simp
  | cons p m ih =>
    rw [List.lookup_cons]
    by_cases h : k = p.1
    · simp [h]
    · have : (k == p.1) = false := by simpa using h
      simp [this, ih, h]

theorem get_map (f : V → W) (m : GoMap K V) (k : K) : GoMap.get (m.map fun p => (p.1, f p.2)) k = (GoMap.get m k).map f := by
  induction m with
  | nil => rfl
  | cons p m ih =>
    rw [GoMap.get, GoMap.get, List.map_cons, List.lookup_cons, List.lookup_cons]
    by_cases h : k = p.1
    · simp [h]
    · have h : (k == p.1) = false := by simpa using h
      simp only [h]
      exact ih

theorem set_present {a b : GoMap K V} {k : K} {v v' : V} (hn : ((a ++ (k, v) :: b).map Prod.fst).Nodup) :
    GoMap.set (a ++ (k, v) :: b) k v' = a ++ (k, v') :: b := by
  have h : (List.lookup k (a ++ (k, v) :: b)).isSome := by
    rw [(lookup_mem hn (v := v)).2 (by simp)]; rfl
  rw [GoMap.set, if_pos h]
  simp only [List.map_append, List.map_cons, List.nodup_append, List.nodup_cons] at hn
  have key : ∀ l : GoMap K V, (∀ p ∈ l, p.1 ≠ k) → l.map (fun p => if p.1 = k then (k, v') else p) = l := by
    intro l hl
    conv => rhs; rw [← List.map_id l]
    apply List.map_congr_left
    intro p hp
    simp [hl p hp]
  rw [List.map_append, List.map_cons, key a, key b]
  · simp
  · intro p hp e; exact hn.2.1.1 (e ▸ List.mem_map_of_mem hp)
  · intro p hp e; exact hn.2.2 p.1 (List.mem_map_of_mem hp) k (by simp) e

theorem set_absent {m : GoMap K V} {k : K} {v : V} (h : k ∉ m.map Prod.fst) : m.set k v = m ++ [(k, v)] := by
  rw [GoMap.set, lookup_none.2 h]; simp

theorem perm_map_lift {α β : Type} {g : α → β} {l l' : List β} (h : l.Perm l') : ∀ m : List α, l' = m.map g → ∃ m' : List α, m'.Perm m ∧ l = m'.map g := by
  induction h with
  | nil => intro m hm; exact ⟨[], by rw [List.map_eq_nil_iff.1 hm.symm], rfl⟩
  | cons x h ih =>
    intro m hm
    cases m with
    | nil => simp at hm
    | cons y m =>
      simp only [List.map_cons, List.cons.injEq] at hm
      obtain ⟨m', h1, h2⟩ := ih m hm.2
      exact ⟨y :: m', h1.cons y, by simp [hm.1, h2]⟩
  | swap x y l =>
    intro m hm
    rcases m with _ | ⟨p, _ | ⟨q, m⟩⟩
    · simp at hm
    · simp at hm
    · simp only [List.map_cons, List.cons.injEq] at hm
      exact ⟨q :: p :: m, List.Perm.swap _ _ _, by simp [hm]⟩
  | trans _ _ ih1 ih2 =>
    intro m hm
    obtain ⟨m', h1, h2⟩ := ih2 m hm
    obtain ⟨m'', h3, h4⟩ := ih1 m' h2
    exact ⟨m'', h3.trans h1, h4⟩

theorem foldl_set (g : V → V) : ∀ (L m : GoMap K V), (L.map Prod.fst).Nodup → (m.map Prod.fst).Nodup →
    (∀ p ∈ L, p.1 ∈ m.map Prod.fst) →
    L.foldl (fun m p => m.set p.1 (g p.2)) m = m.map fun q => (q.1, ((L.lookup q.1).map g).getD q.2) := by
  intro L
  induction L with
  | nil => intro m _ _ _; simp
  | cons p L ih =>
    intro m hL hm hmem
    simp only [List.map_cons, List.nodup_cons] at hL
    obtain ⟨⟨k, v⟩, hv, hk⟩ := List.mem_map.1 (hmem p (by simp))
    obtain rfl : k = p.1 := hk
    obtain ⟨a, b, e⟩ := List.append_of_mem hv
    subst e
    rw [List.foldl_cons, set_present hm, ih _ hL.2 (by simpa using hm) (fun q hq => by
      have := hmem q (by simp [hq]); simpa using this)]
    have ha : ∀ q ∈ a ++ b, q.1 ≠ p.1 := by
      simp only [List.map_append, List.map_cons, List.nodup_append, List.nodup_cons] at hm
      intro q hq e
      rcases List.mem_append.1 hq with hq | hq
      · exact hm.2.2 q.1 (List.mem_map_of_mem hq) p.1 (by simp) e
      · exact hm.2.1.1 (e ▸ List.mem_map_of_mem hq)
    have key : ∀ l : GoMap K V, (∀ q ∈ l, q.1 ≠ p.1) →
        l.map (fun q => (q.1, ((L.lookup q.1).map g).getD q.2)) =
        l.map fun q => (q.1, (((p :: L).lookup q.1).map g).getD q.2) := by
      intro l hl
      apply List.map_congr_left
      intro q hq
      have : (q.1 == p.1) = false := by simpa using hl q hq
      rw [List.lookup_cons, this]
    rw [List.map_append, List.map_cons, List.map_append, List.map_cons, key a (fun q hq => ha q (by simp [hq])),
      key b (fun q hq => ha q (by simp [hq])), lookup_none.2 hL.1, List.lookup_cons]
    simp

end maps

/-! ## Counting words -/

section count
variable [Unicode]

/-- The frequency map after the first loop, as counts. -/
structure CountInv (isStop : Bytes → Bool) (items : List Bytes) (m : GoMap Bytes Nat) : Prop where
  nodup : (m.map Prod.fst).Nodup
  mem : ∀ w n, (w, n) ∈ m ↔ TagWord isStop w ∧ 0 < n ∧ n = tagCount items w
  sum : (m.map Prod.snd).sum = tagTotal isStop items

theorem tagCount_snoc (items : List Bytes) (x w : Bytes) :
    tagCount (items ++ [x]) w = tagCount items w + if trimSpace x = w then 1 else 0 := by
  unfold tagCount
  rw [List.filter_append, List.length_append]
  by_cases h : trimSpace x = w <;> simp [h]

theorem tagTotal_snoc (isStop : Bytes → Bool) (items : List Bytes) (x : Bytes) :
    tagTotal isStop (items ++ [x]) = tagTotal isStop items + if TagWord isStop (trimSpace x) then 1 else 0 := by
  unfold tagTotal
  rw [List.filter_append, List.length_append]
  by_cases h : TagWord isStop (trimSpace x) <;> simp [h]

/-- Counts as floats. -/
def toFreq (m : GoMap Bytes Nat) : GoMap Bytes F := m.map fun p => (p.1, F64.ofNat p.2)

theorem toFreq_keys (m : GoMap Bytes Nat) : (toFreq (F := F) m).map Prod.fst = m.map Prod.fst := by simp [toFreq]

theorem toFreq_lookup (m : GoMap Bytes Nat) (k : Bytes) : GoMap.get (toFreq (F := F) m) k = (GoMap.get m k).map F64.ofNat :=
  get_map _ _ _

theorem tagTotal_le (isStop : Bytes → Bool) (items : List Bytes) : tagTotal isStop items ≤ items.length := List.length_filter_le _ _

theorem tagCount_le (items : List Bytes) (w : Bytes) : tagCount items w ≤ items.length := List.length_filter_le _ _

theorem countWord_step [F64Count F] {isStop : Bytes → Bool} {items : List Bytes} {m : GoMap Bytes Nat} (h : CountInv isStop items m)
    (x : Bytes) (hlen : items.length + 1 ≤ 2 ^ 53) :
    ∃ m', countWord (some isStop) (toFreq (F := F) m) x = some (toFreq m') ∧ CountInv isStop (items ++ [x]) m' := by
  have stay : ¬ TagWord isStop (trimSpace x) → CountInv isStop (items ++ [x]) m := by
    intro hn
    refine ⟨h.nodup, ?_, by rw [h.sum, tagTotal_snoc, if_neg hn]; rfl⟩
    intro w n
    rw [h.mem]
    refine and_congr_right fun hw => ?_
    have : trimSpace x ≠ w := fun e => hn (e ▸ hw)
    rw [tagCount_snoc, if_neg this]; rfl
  unfold countWord
  by_cases h1 : (runes (trimSpace x)).length < 2
  · exact ⟨m, by simp [h1], stay fun hw => by have := hw.1; omega⟩
  by_cases h2 : isStop (trimSpace x) = true
  · exact ⟨m, by simp [h1, h2], stay fun hw => by have := hw.2; simp [h2] at this⟩
  have ht : TagWord isStop (trimSpace x) := ⟨by omega, by simpa using h2⟩
  simp only [h1, if_false, h2, Bool.false_eq_true]
  rw [toFreq_lookup]
  cases hl : GoMap.get m (trimSpace x) with
  | none =>
    have hk := lookup_none.1 hl
    have hz : tagCount items (trimSpace x) = 0 := by
      by_contra hc
      exact hk (List.mem_map.2 ⟨(_, _), (h.mem _ _).2 ⟨ht, Nat.pos_of_ne_zero hc, rfl⟩, rfl⟩)
    refine ⟨m ++ [(trimSpace x, 1)], ?_, ?_, ?_, ?_⟩
    · simp only [Option.map_none]
      rw [set_absent (by rwa [toFreq_keys])]
      simp [toFreq]
    · rw [List.map_append, List.nodup_append]
      exact ⟨h.nodup, by simp, by intro a ha b hb; simp at hb; rw [hb]; intro e; exact hk (e ▸ ha)⟩
    · intro w n
      rw [List.mem_append, h.mem, tagCount_snoc]
      by_cases e : trimSpace x = w
      · subst e
        simp only [hz, List.mem_singleton, Prod.mk.injEq, true_and, if_true, ht]
        omega
      · simp only [e, if_false, List.mem_singleton, Prod.mk.injEq, Ne.symm e, false_and, or_false, Nat.add_zero]
    · rw [List.map_append, List.sum_append, h.sum, tagTotal_snoc, if_pos ht]; rfl
  | some n =>
    have hm := (lookup_mem h.nodup).1 hl
    obtain ⟨_, hn0, hn⟩ := (h.mem _ _).1 hm
    obtain ⟨a, b, rfl⟩ := List.append_of_mem hm
    have hnd := h.nodup
    refine ⟨a ++ (trimSpace x, n + 1) :: b, ?_, ?_, ?_, ?_⟩
    · simp only [Option.map_some]
      have e : toFreq (F := F) (a ++ (trimSpace x, n) :: b) = toFreq a ++ (trimSpace x, F64.ofNat n) :: toFreq b := by simp [toFreq]
      rw [e, set_present (by rw [← e, toFreq_keys]; exact hnd), F64Count.ofNat_add n 1 (by
        have := tagCount_le items (trimSpace x); omega)]
      simp [toFreq]
    · simpa using hnd
    · intro w k
      have hmem := h.mem w k
      rw [tagCount_snoc]
      simp only [List.map_append, List.map_cons, List.nodup_append, List.nodup_cons] at hnd
      by_cases e : trimSpace x = w
      · subst e
        simp only [List.mem_append, List.mem_cons, Prod.mk.injEq, true_and, if_true, ht, ← hn]
        have h3 : (trimSpace x, k) ∉ a := fun hq => hnd.2.2 _ (List.mem_map_of_mem hq) _ (by simp) rfl
        have h4 : (trimSpace x, k) ∉ b := fun hq => hnd.2.1.1 (List.mem_map_of_mem (f := Prod.fst) hq)
        simp only [h3, h4, false_or, or_false]
        omega
      · simp only [e, if_false, Nat.add_zero]
        rw [← hmem]
        simp [Ne.symm e]
    · have := h.sum
      rw [tagTotal_snoc, if_pos ht, ← this]
      simp; omega

theorem countWords_inv [F64Count F] {isStop : Bytes → Bool} (items : List Bytes) (hlen : items.length ≤ 2 ^ 53) :
    ∃ m, items.foldlM (countWord (some isStop)) ([] : GoMap Bytes F) = some (toFreq m) ∧ CountInv isStop items m := by
  have key : ∀ (post pre : List Bytes) (m : GoMap Bytes Nat), CountInv isStop pre m → (pre ++ post).length ≤ 2 ^ 53 →
      ∃ m', post.foldlM (countWord (some isStop)) (toFreq (F := F) m) = some (toFreq m') ∧ CountInv isStop (pre ++ post) m' := by
    intro post
    induction post with
    | nil => intro pre m h _; exact ⟨m, rfl, by simpa using h⟩
    | cons x post ih =>
      intro pre m h hl
      obtain ⟨m1, h1, h2⟩ := countWord_step (F := F) h x (by simp at hl; omega)
      obtain ⟨m2, h3, h4⟩ := ih (pre ++ [x]) m1 h2 (by simpa using hl)
      refine ⟨m2, ?_, by simpa using h4⟩
      rw [List.foldlM_cons, h1]
      exact h3
  obtain ⟨m, h1, h2⟩ := key items [] [] ⟨by simp, by intro w n; simp [tagCount]; omega, by simp [tagTotal]⟩ (by simpa using hlen)
  exact ⟨m, h1, by simpa using h2⟩

theorem foldl_ofNat [F64Count F] (m : GoMap Bytes Nat) (s : Nat) (h : s + (m.map Prod.snd).sum ≤ 2 ^ 53) :
    (toFreq (F := F) m).foldl (fun total p => F64.add total p.2) (F64.ofNat s) = F64.ofNat (s + (m.map Prod.snd).sum) := by
  induction m generalizing s with
  | nil => simp [toFreq]
  | cons p m ih =>
    simp only [List.map_cons, List.sum_cons] at h
    simp only [toFreq, List.map_cons, List.foldl_cons, List.sum_cons]
    rw [F64Count.ofNat_add s p.2 (by omega)]
    have := ih (s + p.2) (by omega)
    rw [toFreq] at this
    rw [this, Nat.add_assoc]

theorem sumFreq_eq [F64Count F] (ch : Choice) {isStop : Bytes → Bool} {items : List Bytes} {m : GoMap Bytes Nat}
    (h : CountInv isStop items m) (hlen : items.length ≤ 2 ^ 53) :
    sumFreq (F := F) ch (toFreq m) = F64.ofNat (tagTotal isStop items) := by
  obtain ⟨m', h1, h2⟩ := perm_map_lift (ch.iter_perm 0 (toFreq (F := F) m)) m rfl
  have hs : (m'.map Prod.snd).sum = tagTotal isStop items := by rw [← h.sum]; exact (h1.map _).sum_nat
  unfold sumFreq
  rw [h2]
  have := foldl_ofNat (F := F) m' 0 (by rw [hs]; have := tagTotal_le isStop items; omega)
  rw [toFreq] at this
  rw [this, hs, Nat.zero_add]

theorem normFreq_eq (ch : Choice) (total : F) (m : GoMap Bytes F) (h : (m.map Prod.fst).Nodup) :
    normFreq ch total m = m.map fun p => (p.1, F64.div p.2 total) := by
  unfold normFreq
  have hp := ch.iter_perm 1 m
  have hn : ((ch.iter 1 m).map Prod.fst).Nodup := ((hp.map Prod.fst).nodup_iff).2 h
  rw [foldl_set (fun v => F64.div v total) _ _ hn h (fun p hp' => List.mem_map_of_mem (hp.subset hp'))]
  apply List.map_congr_left
  intro p hp'
  rw [(lookup_mem hn).2 (hp.symm.subset hp')]
  rfl

end count

/-! ## Weighing, sorting, cutting off -/

section weigh
variable [Unicode]

theorem tagCount_pos {items : List Bytes} {w : Bytes} : 0 < tagCount items w ↔ ∃ x ∈ items, trimSpace x = w := by
  unfold tagCount
  rw [List.length_pos_iff_exists_mem]
  simp

theorem tagCount_le_total {isStop : Bytes → Bool} {items : List Bytes} {w : Bytes} (h : TagWord isStop w) :
    tagCount items w ≤ tagTotal isStop items := by
  unfold tagCount tagTotal
  induction items with
  | nil => simp
  | cons x l ih =>
    by_cases e : trimSpace x = w
    · simp only [List.filter_cons, e, decide_true, h, if_true, List.length_cons]; omega
    · rw [List.filter_cons_of_neg (by simpa using e)]
      rw [List.filter_cons]
      split
      · simp only [List.length_cons]; omega
      · exact ih

theorem tagWord_ne {isStop : Bytes → Bool} {w : Bytes} (h : TagWord isStop w) : w ≠ [] := by
  rintro rfl; have := h.1; simp [runes_nil] at this

theorem num_tagWeight [F64Count F] {isStop : Bytes → Bool} {items : List Bytes} (hlen : items.length ≤ 2 ^ 53) {median : F}
    {d : Dictionary F D} (hn : NumIdf median d) {w : Bytes} (hw : TagWord isStop w) (hc : 0 < tagCount items w) :
    F64Count.num (tagWeight isStop median d items w) := by
  apply F64Count.num_ratio _ _ _ _ hc (tagCount_le_total hw) (Nat.le_trans (tagTotal_le _ _) hlen)
  unfold idfOf
  cases hs : storedTok d w with
  | some tok => exact hn.2 w tok hs
  | none =>
    by_cases hq : StartsStored d w
    · simp only [hq, if_true]; exact F64Count.num_zero
    · simp only [hq, if_false]; exact hn.1

theorem weighWord_eq {i : Idf F D} {d : Dictionary F D} (hd : i.dict = some d) (h : IdxOK d) {p : Bytes × F} (hp : p.1 ≠ []) :
    weighWord (some i) p = some ⟨p.1, F64.mul (idfOf i.median d p.1) p.2⟩ := by
  unfold weighWord Idf.freq idfOf
  simp only [hd, Option.bind_some]
  cases hs : storedTok d p.1 with
  | some tok => rw [find_stored hs]; rfl
  | none =>
    by_cases hn : StartsStored d p.1
    · rw [find_starts h hp hs hn]; simp [hn]
    · rw [find_unknown h hs hn]; simp [hn]

/-- The list before sorting: every candidate once, with its weight. -/
theorem weighed [F64Count F] (ch : Choice) {isStop : Bytes → Bool} {items : List Bytes} (hlen : items.length ≤ 2 ^ 53)
    {i : Idf F D} {d : Dictionary F D} (hd : i.dict = some d) (h : IdxOK d) :
    ∃ ws : List (WordWeight F), (ws.map (·.text)).Nodup ∧
      (∀ t, t ∈ ws ↔ TagWord isStop t.text ∧ 0 < tagCount items t.text ∧ t.weight = tagWeight isStop i.median d items t.text) ∧
      ∀ topK, extractWords ch (some isStop) (some i) items topK = topTags ch ws topK := by
  obtain ⟨m, h1, h2⟩ := countWords_inv (F := F) (isStop := isStop) items hlen
  set T := tagTotal isStop items with hT
  have hm : normFreq ch (sumFreq ch (toFreq (F := F) m)) (toFreq m) = m.map fun p => (p.1, F64.div (F64.ofNat p.2) (F64.ofNat T)) := by
    rw [sumFreq_eq ch h2 hlen, normFreq_eq ch _ _ (by rw [toFreq_keys]; exact h2.nodup)]
    simp [toFreq, hT]
  obtain ⟨m', h3, h4⟩ := perm_map_lift (ch.iter_perm 2 (m.map fun p => (p.1, (F64.div (F64.ofNat p.2) (F64.ofNat T) : F)))) m rfl
  have hmem : ∀ w n, (w, n) ∈ m' ↔ TagWord isStop w ∧ 0 < n ∧ n = tagCount items w := fun w n => by rw [h3.mem_iff]; exact h2.mem w n
  refine ⟨m'.map fun p => ⟨p.1, F64.mul (idfOf i.median d p.1) (F64.div (F64.ofNat p.2) (F64.ofNat T))⟩, ?_, ?_, ?_⟩
  · rw [List.map_map]
    exact ((h3.map Prod.fst).nodup_iff).2 h2.nodup
  · intro t
    rw [List.mem_map]
    constructor
    · rintro ⟨⟨w, n⟩, hp, rfl⟩
      obtain ⟨h5, h6, rfl⟩ := (hmem w n).1 hp
      exact ⟨h5, h6, rfl⟩
    · rintro ⟨h5, h6, h7⟩
      refine ⟨(t.text, tagCount items t.text), (hmem _ _).2 ⟨h5, h6, rfl⟩, ?_⟩
      obtain ⟨w, x⟩ := t
      simp only at h7
      rw [h7]
      rfl
  · intro topK
    unfold extractWords
    rw [h1]
    simp only [hm, h4]
    rw [mapOpt_eq_map (g := fun p => ⟨p.1, F64.mul (idfOf i.median d p.1) p.2⟩)]
    · simp [List.map_map, Function.comp_def]
    · intro p hp
      obtain ⟨q, hq, rfl⟩ := List.mem_map.1 hp
      exact weighWord_eq hd h (tagWord_ne ((hmem q.1 q.2).1 hq).1)

/-- The `k` first of a sorted list, said without the list's order. -/
theorem top_unique [F64Count F] : ∀ (S : List (WordWeight F)) (k : Nat) (tags : List (WordWeight F)),
    (∀ t ∈ S, F64Count.num t.weight) → S.Pairwise Above → (∀ t ∈ tags, t ∈ S) → tags.Pairwise Above → tags.length ≤ k →
    (∀ x ∈ S, x ∈ tags ∨ (tags.length = k ∧ ∀ t ∈ tags, Above t x)) → tags = S.take k := by
  intro S
  induction S with
  | nil =>
    intro k tags _ _ h1 _ _ _
    have e : tags = [] := List.eq_nil_iff_forall_not_mem.2 fun t ht => by have := h1 t ht; simp at this
    rw [e]; simp
  | cons a S ih =>
    intro k tags hn hS h1 h2 h3 h4
    cases k with
    | zero => simp only [Nat.le_zero, List.length_eq_zero_iff] at h3; simp [h3]
    | succ k =>
      rw [List.pairwise_cons] at hS
      have irr : ∀ t ∈ a :: S, ¬ Above t t := fun t ht h => above_asymm (hn t ht) (hn t ht) h h
      have first : ∀ t ∈ tags, ¬ Above t a := by
        intro t ht h
        rcases List.mem_cons.1 (h1 t ht) with rfl | h5
        · exact irr _ (by simp) h
        · exact above_asymm (hn a (by simp)) (hn t (by simp [h5])) (hS.1 t h5) h
      have ha : a ∈ tags := by
        rcases h4 a (by simp) with h | ⟨h5, h6⟩
        · exact h
        · cases tags with
          | nil => simp at h5
          | cons t l => exact absurd (h6 t (by simp)) (first t (by simp))
      cases tags with
      | nil => simp at ha
      | cons t l =>
        rw [List.pairwise_cons] at h2
        have e : a = t := by
          rcases List.mem_cons.1 ha with e | h
          · exact e
          · exact absurd (h2.1 a h) (first t (by simp))
        subst e
        rw [List.take_succ_cons]
        congr 1
        apply ih k l (fun t ht => hn t (by simp [ht])) hS.2
        · intro t ht
          rcases List.mem_cons.1 (h1 t (by simp [ht])) with rfl | h
          · exact absurd (h2.1 _ ht) (irr _ (by simp))
          · exact h
        · exact h2.2
        · simpa using h3
        · intro x hx
          rcases h4 x (by simp [hx]) with h | ⟨h5, h6⟩
          · rcases List.mem_cons.1 h with rfl | h
            · exact absurd (hS.1 _ hx) (irr _ (by simp))
            · exact Or.inl h
          · exact Or.inr ⟨by simpa using h5, fun t ht => h6 t (by simp [ht])⟩

omit [Unicode] in
theorem sorted_above [F64Count F] (ch : Choice) {ws : List (WordWeight F)} (hd : (ws.map (·.text)).Nodup)
    (hn : ∀ t ∈ ws, F64Count.num t.weight) : (ch.sort (fun a b => WordWeight.less b a) ws).Pairwise Above := by
  have hp := ch.sort_perm (fun a b => WordWeight.less b a) ws
  have h1 := ch.sort_sorted _ ws (less_strictWeak hn)
  have h2 : ((ch.sort (fun a b => WordWeight.less b a) ws).map (·.text)).Nodup := ((hp.map _).nodup_iff).2 hd
  rw [List.Nodup, List.pairwise_map] at h2
  refine (h1.and h2).imp_of_mem ?_
  intro a b ha hb ⟨h3, h4⟩
  by_contra hc
  refine h4 (above_total hc fun h => ?_)
  rw [(less_iff (hn b (hp.subset hb)) (hn a (hp.subset ha))).2 h] at h3
  simp at h3

theorem extract_top [F64Count F] (ch : Choice) {isStop : Bytes → Bool} {items : List Bytes} (hlen : items.length ≤ 2 ^ 53)
    {i : Idf F D} {d : Dictionary F D} (hd : i.dict = some d) (h : IdxOK d) (hn : NumIdf i.median d) (k : Nat) :
    ∃ S : List (WordWeight F), S.Pairwise Above ∧ (∀ t ∈ S, F64Count.num t.weight) ∧ (S.map (·.text)).Nodup ∧
      (∀ t, t ∈ S ↔ TagWord isStop t.text ∧ 0 < tagCount items t.text ∧ t.weight = tagWeight isStop i.median d items t.text) ∧
      extractWords ch (some isStop) (some i) items k = some (S.take k) := by
  obtain ⟨ws, h1, h2, h3⟩ := weighed ch (isStop := isStop) hlen hd h
  have hnum : ∀ t ∈ ws, F64Count.num t.weight := by
    intro t ht
    obtain ⟨h4, h5, h6⟩ := (h2 t).1 ht
    rw [h6]; exact num_tagWeight hlen hn h4 h5
  have hp := ch.sort_perm (fun a b => WordWeight.less b a) ws
  refine ⟨_, sorted_above ch h1 hnum, fun t ht => hnum t (hp.subset ht), ((hp.map _).nodup_iff).2 h1, fun t => by rw [hp.mem_iff]; exact h2 t, ?_⟩
  rw [h3, topTags]
  split
  · rw [if_neg (by omega)]; simp
  · rename_i h4
    rw [List.take_of_length_le (by omega)]

theorem isTopTags_take [F64Count F] {isStop : Bytes → Bool} {items : List Bytes} {median : F} {d : Dictionary F D} {S : List (WordWeight F)}
    (h1 : S.Pairwise Above) (h2 : (S.map (·.text)).Nodup)
    (h3 : ∀ t, t ∈ S ↔ TagWord isStop t.text ∧ 0 < tagCount items t.text ∧ t.weight = tagWeight isStop median d items t.text) (k : Nat) :
    IsTopTags isStop median d items k (S.take k) := by
  have hmem : ∀ t ∈ S.take k, t ∈ S := fun t ht => List.mem_of_mem_take ht
  refine ⟨fun t ht => ?_, fun t ht => ((h3 t).1 (hmem t ht)).2.2, ?_, h1.sublist (List.take_sublist _ _), List.length_take_le _ _, ?_⟩
  · obtain ⟨h4, h5, _⟩ := (h3 t).1 (hmem t ht)
    exact ⟨h4, tagCount_pos.1 h5⟩
  · exact h2.sublist ((List.take_sublist _ _).map _)
  · intro x hx hw
    have hS : (⟨trimSpace x, tagWeight isStop median d items (trimSpace x)⟩ : WordWeight F) ∈ S :=
      (h3 _).2 ⟨hw, tagCount_pos.2 ⟨x, hx, rfl⟩, rfl⟩
    rw [← List.take_append_drop k S, List.mem_append] at hS
    rcases hS with h4 | h4
    · exact Or.inl ⟨_, h4, rfl⟩
    · right
      have : k < S.length := by
        by_contra hc
        rw [List.drop_eq_nil_of_le (by omega)] at h4; simp at h4
      refine ⟨by rw [List.length_take]; omega, fun t ht => ?_⟩
      rw [← List.take_append_drop k S, List.pairwise_append] at h1
      exact h1.2.2 t ht _ h4

theorem isTopTags_unique [F64Count F] {isStop : Bytes → Bool} {items : List Bytes} {median : F} {d : Dictionary F D} {S : List (WordWeight F)}
    (h1 : S.Pairwise Above) (hn : ∀ t ∈ S, F64Count.num t.weight)
    (h3 : ∀ t, t ∈ S ↔ TagWord isStop t.text ∧ 0 < tagCount items t.text ∧ t.weight = tagWeight isStop median d items t.text) {k : Nat}
    {tags : List (WordWeight F)} (ht : IsTopTags isStop median d items k tags) : tags = S.take k := by
  refine top_unique S k tags hn h1 (fun t h => (h3 t).2 ⟨(ht.word t h).1, tagCount_pos.2 (ht.word t h).2, ht.weight t h⟩) ht.ordered ht.most ?_
  intro x hx
  obtain ⟨h4, h5, h6⟩ := (h3 x).1 hx
  obtain ⟨y, hy, e⟩ := tagCount_pos.1 h5
  rcases ht.complete y hy (by rwa [e]) with ⟨t, h7, h8⟩ | ⟨h7, h8⟩
  · left
    have : t = x := by
      obtain ⟨a, b⟩ := t
      obtain ⟨a', b'⟩ := x
      have := ht.weight _ h7
      simp only at h8 this h6 e
      subst e
      rw [this, h6, h8]
    exact this ▸ h7
  · right
    refine ⟨h7, fun t h => ?_⟩
    have := h8 t h
    rw [e, ← h6] at this
    exact this

end weigh

/-! ## The median -/

section median

theorem num_irrefl [F64Count F] {a : F} (h : F64Count.num a) : F64.lt a a = false := by
  rw [Bool.eq_false_iff]; intro h'; rw [F64Count.lt_asymm h h h'] at h'; simp at h'

theorem float64Less_num [F64Count F] {a b : F} (h : F64Count.num a) : float64Less a b = F64.lt a b := by
  have : F64.eq a a = true := (F64Count.eq_iff h h).2 ⟨num_irrefl h, num_irrefl h⟩
  simp [float64Less, this]

theorem sort_floats [F64Count F] (ch : Choice) {l : List F} (h : ∀ x ∈ l, F64Count.num x) :
    (ch.sort float64Less l).Pairwise fun a b => F64.lt b a = false := by
  have hp := ch.sort_perm float64Less l
  refine (ch.sort_sorted float64Less l ⟨?_, ?_⟩).imp_of_mem ?_
  · intro a ha b hb
    rw [float64Less_num (h a ha), float64Less_num (h b hb)]
    exact F64Count.lt_asymm (h a ha) (h b hb)
  · intro a ha b hb c hc
    rw [float64Less_num (h a ha), float64Less_num (h a ha), float64Less_num (h b hb)]
    exact F64Count.lt_cotrans (h a ha) (h b hb) (h c hc)
  · intro a b _ hb
    rw [float64Less_num (h b (hp.subset hb))]
    exact id

theorem isMiddle_perm {l l' : List F} (h : l.Perm l') {m : F} (hm : IsMiddle l m) : IsMiddle l' m := by
  obtain ⟨h1, h2, h3⟩ := hm
  rw [(h.filter _).length_eq, h.length_eq] at h2 h3
  exact ⟨h.subset h1, h2, h3⟩

theorem sorted_middle [F64Count F] {l : List F} (hn : ∀ x ∈ l, F64Count.num x) (h : l.Pairwise fun a b => F64.lt b a = false)
    {m : F} (hm : l[l.length / 2]? = some m) : IsMiddle l m := by
  obtain ⟨hlt, hget⟩ := List.getElem?_eq_some_iff.1 hm
  have hmem : m ∈ l := List.mem_of_getElem? hm
  have e : l = l.take (l.length / 2) ++ m :: l.drop (l.length / 2 + 1) := by
    conv => lhs; rw [← List.take_append_drop (l.length / 2) l]
    rw [List.drop_eq_getElem_cons hlt, hget]
  have hirr := num_irrefl (hn m hmem)
  rw [e, List.pairwise_append, List.pairwise_cons] at h
  obtain ⟨_, ⟨h2, _⟩, h3⟩ := h
  refine ⟨hmem, ?_, ?_⟩
  · have : l.filter (fun x => F64.lt x m) = (l.take (l.length / 2)).filter fun x => F64.lt x m := by
      conv => lhs; rw [e]
      have h4 : (l.drop (l.length / 2 + 1)).filter (fun x => F64.lt x m) = [] := List.filter_eq_nil_iff.2 fun x hx => by simp [h2 x hx]
      rw [List.filter_append, List.filter_cons_of_neg (by simp [hirr]), h4, List.append_nil]
    rw [this]
    exact Nat.le_trans (List.length_filter_le _ _) (List.length_take_le _ _)
  · have : l.filter (fun x => F64.lt m x) = (l.drop (l.length / 2 + 1)).filter fun x => F64.lt m x := by
      conv => lhs; rw [e]
      have h4 : (l.take (l.length / 2)).filter (fun x => F64.lt m x) = [] := List.filter_eq_nil_iff.2 fun x hx => by
        simp [h3 x hx m (by simp)]
      rw [List.filter_append, List.filter_cons_of_neg (by simp [hirr]), h4, List.nil_append]
    rw [this]
    exact Nat.lt_of_le_of_lt (List.length_filter_le _ _) (by simp; omega)

theorem addToken_freqs [Unicode] (ch : Choice) {cfg : SplitCfg} {i i' : Idf F D} {w p : Bytes} {f : F} {e : Bool}
    (h : i.addToken ch cfg w f p = some (i', e)) :
    i'.freqs = ch.sort float64Less (i.freqs ++ [f]) ∧ i'.freqs[i'.freqs.length / 2]? = some i'.median := by
  unfold Idf.addToken at h
  split at h
  · simp at h
  · simp only at h
    split at h
    · simp at h
    · rename_i hm
      simp only [Option.some.injEq, Prod.mk.injEq] at h
      obtain ⟨rfl, _⟩ := h
      exact ⟨rfl, hm⟩

theorem addTokens_middle [Unicode] [F64Count F] (ch : Choice) {cfg : SplitCfg} : ∀ {cs : List (Bytes × F × Bytes)} {i i' : Idf F D},
    i.addTokens ch cfg cs = some i' → (∀ x ∈ i.freqs, F64Count.num x) → (∀ c ∈ cs, F64Count.num c.2.1) →
    (i'.freqs.Perm (i.freqs ++ cs.map (·.2.1))) ∧ (cs ≠ [] → IsMiddle (i.freqs ++ cs.map (·.2.1)) i'.median) := by
  intro cs
  induction cs with
  | nil => intro i i' h _ _; simp only [Idf.addTokens, Option.some.injEq] at h; subst h; simp
  | cons c cs ih =>
    intro i i' h hi hc
    simp only [Idf.addTokens, Option.bind_eq_some_iff] at h
    obtain ⟨⟨j, e⟩, h1, h2⟩ := h
    obtain ⟨h3, h4⟩ := addToken_freqs ch h1
    have hp : j.freqs.Perm (i.freqs ++ [c.2.1]) := by rw [h3]; exact ch.sort_perm _ _
    have hj : ∀ x ∈ j.freqs, F64Count.num x := by
      intro x hx
      rcases List.mem_append.1 (hp.subset hx) with h | h
      · exact hi x h
      · rw [List.mem_singleton] at h; rw [h]; exact hc c (by simp)
    obtain ⟨h5, h6⟩ := ih h2 hj (fun x hx => hc x (by simp [hx]))
    have hp' : (j.freqs ++ cs.map (·.2.1)).Perm (i.freqs ++ (c :: cs).map (·.2.1)) := by
      rw [List.map_cons, ← List.singleton_append, ← List.append_assoc]
      exact hp.append_right _
    refine ⟨h5.trans hp', fun _ => isMiddle_perm hp' ?_⟩
    by_cases hcs : cs = []
    · subst hcs
      simp only [Idf.addTokens, Option.some.injEq] at h2
      subst h2
      simp only [List.map_nil, List.append_nil]
      refine sorted_middle hj ?_ h4
      rw [h3]
      exact sort_floats ch fun x hx => hj x (hp.symm.subset hx)
    · exact h6 hcs

/-- No call panics once there is a dictionary. -/
theorem addTokens_isSome [Unicode] (ch : Choice) {cfg : SplitCfg} : ∀ {cs : List (Bytes × F × Bytes)} {i : Idf F D},
    i.dict ≠ none → ∃ i', i.addTokens ch cfg cs = some i' ∧ i'.dict ≠ none := by
  intro cs
  induction cs with
  | nil => intro i h; exact ⟨i, rfl, h⟩
  | cons c cs ih =>
    intro i h
    cases hd : i.dict with
    | none => exact absurd hd h
    | some d =>
      have hl : (ch.sort float64Less (i.freqs ++ [c.2.1])).length = i.freqs.length + 1 := by rw [(ch.sort_perm _ _).length_eq]; simp
      obtain ⟨m, hm⟩ : ∃ m, (ch.sort float64Less (i.freqs ++ [c.2.1]))[(ch.sort float64Less (i.freqs ++ [c.2.1])).length / 2]? = some m :=
        ⟨_, List.getElem?_eq_getElem (by omega)⟩
      have : ∃ j e, i.addToken ch cfg c.1 c.2.1 c.2.2 = some (j, e) ∧ j.dict ≠ none := by
        unfold Idf.addToken
        simp only [hd, hm]
        exact ⟨_, _, rfl, by simp⟩
      obtain ⟨j, e, h1, h2⟩ := this
      obtain ⟨i', h3, h4⟩ := ih h2
      exact ⟨i', by simp [Idf.addTokens, h1, h3], h4⟩

end median

/-! ## Shared stop words -/

section stop

theorem idfStopRun_append {join : Bytes → Bytes} (a b : List IdfStopOp) (h : StopHeap) :
    idfStopRun join (a ++ b) h = (idfStopRun join a h).bind (idfStopRun join b) := by
  induction a generalizing h with
  | nil => rfl
  | cons o a ih =>
    simp only [List.cons_append, idfStopRun]
    cases o.run join h with
    | none => rfl
    | some h' => simp [ih]

theorem readBy_snoc {join : Bytes → Bytes} {i : Nat} {w : Bytes} {ops : List IdfStopOp} {op : IdfStopOp} :
    ReadBy join i w (ops ++ [op]) ↔
      ReadBy join i w ops ∨ ∃ fs arg names, op = .load i fs arg ∧ StopNames join arg names ∧ StopFiles fs names w := by
  constructor
  · intro h
    generalize e : ops ++ [op] = l at h
    cases h with
    | mk a fs arg names b h1 h2 =>
      rcases b.eq_nil_or_concat with rfl | ⟨b', x, rfl⟩
      · obtain ⟨rfl, e2⟩ := List.append_inj' e rfl
        exact Or.inr ⟨fs, arg, names, (List.cons.inj e2).1, h1, h2⟩
      · rw [List.concat_eq_append] at e
        have e' : ops ++ [op] = (a ++ .load i fs arg :: b') ++ [x] := by simpa using e
        obtain ⟨rfl, _⟩ := List.append_inj' e' rfl
        exact Or.inl (.mk a fs arg names b' h1 h2)
  · rintro (h | ⟨fs, arg, names, rfl, h1, h2⟩)
    · cases h with
      | mk a fs arg names b h1 h2 =>
        have := ReadBy.mk (i := i) a fs arg names (b ++ [op]) h1 h2
        simpa using this
    · exact .mk ops fs arg names [] h1 h2

/-- What every value has read. -/
structure StopInv (join : Bytes → Bytes) (w : Bytes) (ops : List IdfStopOp) (h : StopHeap) : Prop where
  seg : ∀ i m, h.segs[i]? = some m → (StopMap.isStop m w = true ↔ ReadBy join i w ops)
  out : ∀ i, h.segs.length ≤ i → ¬ ReadBy join i w ops

theorem stopInv_step {join : Bytes → Bytes} {w : Bytes} {ops : List IdfStopOp} {op : IdfStopOp} {h h' : StopHeap}
    (hi : StopInv join w ops h) (hr : op.run join h = some h') : StopInv join w (ops ++ [op]) h' := by
  have other : ∀ i, (∀ fs arg, op ≠ .load i fs arg) → (ReadBy join i w (ops ++ [op]) ↔ ReadBy join i w ops) := by
    intro i hne
    rw [readBy_snoc]
    constructor
    · rintro (h | ⟨fs, arg, _, e, _⟩)
      · exact h
      · exact absurd e (hne fs arg)
    · exact Or.inl
  cases op with
  | new =>
    simp only [IdfStopOp.run, Option.some.injEq] at hr
    subst hr
    constructor
    · intro i m hm
      rw [other i (by simp)]
      simp only at hm
      rw [List.getElem?_append] at hm
      split at hm
      · exact hi.seg i m hm
      · rename_i hlt
        have : m = none := by
          cases hk : i - h.segs.length with
          | zero => rw [hk] at hm; simpa using hm.symm
          | succ k => rw [hk] at hm; simp at hm
        subst this
        exact ⟨by simp [StopMap.isStop], fun hc => absurd hc (hi.out i (by omega))⟩
    · intro i hl
      rw [other i (by simp)]
      exact hi.out i (by simp at hl; omega)
  | add j v =>
    simp only [IdfStopOp.run] at hr
    split at hr
    · obtain rfl := Option.some.inj hr
      exact ⟨fun i m hm => by rw [other i (by simp)]; exact hi.seg i m hm, fun i hl => by rw [other i (by simp)]; exact hi.out i hl⟩
    · simp at hr
  | remove j v =>
    simp only [IdfStopOp.run] at hr
    split at hr
    · obtain rfl := Option.some.inj hr
      exact ⟨fun i m hm => by rw [other i (by simp)]; exact hi.seg i m hm, fun i hl => by rw [other i (by simp)]; exact hi.out i hl⟩
    · simp at hr
  | load j fs arg =>
    simp only [IdfStopOp.run] at hr
    cases hj : h.segs[j]? with
    | none => simp [hj] at hr
    | some mj =>
      have hjl : j < h.segs.length := (List.getElem?_eq_some_iff.1 hj).1
      have hs : h'.segs = h.segs.set j (StopMap.loadStop join fs mj arg).1 := by
        rw [hj] at hr
        simp only at hr
        split at hr <;> (obtain rfl := Option.some.inj hr; rfl)
      constructor
      · intro i m hm
        rw [hs] at hm
        by_cases e : i = j
        · subst e
          rw [List.getElem?_set_self hjl] at hm
          obtain rfl := Option.some.inj hm
          rw [StopMap.mem_loadStop, readBy_snoc, hi.seg i mj hj, or_comm]
          apply or_congr_right
          constructor
          · rintro ⟨names, h1, h2⟩; exact ⟨fs, arg, names, rfl, h1, h2⟩
          · rintro ⟨fs', arg', names, e, h1, h2⟩
            obtain ⟨-, rfl, rfl⟩ := IdfStopOp.load.inj e
            exact ⟨names, h1, h2⟩
        · rw [List.getElem?_set_ne (by omega)] at hm
          rw [other i (by intro fs' arg' e'; exact e (IdfStopOp.load.inj e').1.symm)]
          exact hi.seg i m hm
      · intro i hl
        rw [hs, List.length_set] at hl
        rw [other i (by intro fs' arg' e'; have := (IdfStopOp.load.inj e').1; omega)]
        exact hi.out i hl

theorem stopInv_run {join : Bytes → Bytes} {w : Bytes} {g0 : List Bytes} {ops : List IdfStopOp} {h : StopHeap}
    (hr : idfStopRun join ops ⟨g0, []⟩ = some h) : StopInv join w ops h := by
  induction ops using List.reverseRecOn generalizing h with
  | nil =>
    simp only [idfStopRun, Option.some.injEq] at hr
    subst hr
    refine ⟨by simp, fun i _ hc => ?_⟩
    generalize e : ([] : List IdfStopOp) = l at hc
    cases hc
    simp at e
  | append_singleton ops op ih =>
    rw [idfStopRun_append, Option.bind_eq_some_iff] at hr
    obtain ⟨h0, h1, h2⟩ := hr
    simp only [idfStopRun, Option.bind_fun_some] at h2
    exact stopInv_step (ih h1) h2

end stop

end Gse
