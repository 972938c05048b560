import Verif.Spec.Trim
import Mathlib.Data.List.Induction

namespace Gse

open Spec

set_option linter.unusedSectionVars false

namespace StopMap

theorem mem_put {l : List Bytes} {w v : Bytes} : v ∈ put l w ↔ v = w ∨ v ∈ l := by
  unfold put; split
  · constructor
    · exact Or.inr
    · rintro (h | h)
      · rw [h]; assumption
      · exact h
  · simp

theorem mem_foldl_put {v : Bytes} : ∀ {ws l : List Bytes}, v ∈ ws.foldl put l ↔ v ∈ ws ∨ v ∈ l := by
  intro ws
  induction ws with
  | nil => simp
  | cons a ws ih => intro l; rw [List.foldl_cons, ih, mem_put, List.mem_cons]; tauto

/-- The keys of a map. -/
theorem isStop_iff {m : StopMap} {w : Bytes} : m.isStop w = true ↔ w ∈ m.make := by
  cases m <;> simp [isStop, make]

theorem isStop_some {l : List Bytes} {w : Bytes} : isStop (some l) w = true ↔ w ∈ l := by simp [isStop]

section
variable [U : Unicode]

theorem mem_foldl_strLine {v : Bytes} : ∀ {ls l : List Bytes},
    v ∈ ls.foldl strLine l ↔ (v ≠ [] ∧ ∃ x ∈ ls, v = trimSpace x) ∨ v ∈ l := by
  intro ls
  induction ls with
  | nil => simp
  | cons a ls ih =>
    intro l
    rw [List.foldl_cons, ih]
    have e : v ∈ strLine l a ↔ (v ≠ [] ∧ v = trimSpace a) ∨ v ∈ l := by
      simp only [strLine]
      split
      · next h =>
        rw [mem_put]
        constructor
        · rintro (h' | h')
          · exact Or.inl ⟨by rw [h']; exact h, h'⟩
          · exact Or.inr h'
        · rintro (⟨_, h'⟩ | h')
          · exact Or.inl h'
          · exact Or.inr h'
      · next h =>
        constructor
        · exact Or.inr
        · rintro (⟨h1, h'⟩ | h')
          · rw [← h'] at h; exact absurd h1 h
          · exact h'
    rw [e]
    simp only [List.mem_cons]
    constructor
    · rintro (⟨h, x, hx, ex⟩ | ⟨h, ex⟩ | h)
      · exact Or.inl ⟨h, x, Or.inr hx, ex⟩
      · exact Or.inl ⟨h, a, Or.inl rfl, ex⟩
      · exact Or.inr h
    · rintro (⟨h, x, rfl | hx, ex⟩ | h)
      · exact Or.inr (Or.inl ⟨h, ex⟩)
      · exact Or.inl ⟨h, x, hx, ex⟩
      · exact Or.inr (Or.inr h)

theorem stopText_iff {d w : Bytes} : StopText d w ↔ w ≠ [] ∧ ∃ x ∈ splitStr d (str "\n"), w = trimSpace x := by
  have hs := splitStr_spec d [10] (by decide)
  constructor
  · rintro ⟨h, ls, h1, h2⟩
    refine ⟨h, ?_⟩
    rw [show str "\n" = [10] from by decide, splitStr_eq (by decide) h1]; exact h2
  · rintro ⟨h, h2⟩
    exact ⟨h, _, hs, by rw [show str "\n" = [10] from by decide] at h2; exact h2⟩

theorem isStop_loadStopStr {m : StopMap} {d w : Bytes} :
    (m.loadStopStr d).isStop w = true ↔ StopText d w ∨ m.isStop w = true := by
  rw [loadStopStr, isStop_some, mem_foldl_strLine, stopText_iff, isStop_iff]

theorem isStop_foldl_loadStopStr {w : Bytes} : ∀ {ps : List Bytes} {m : StopMap},
    (ps.foldl loadStopStr m).isStop w = true ↔ (∃ p ∈ ps, StopText p w) ∨ m.isStop w = true := by
  intro ps
  induction ps with
  | nil => simp
  | cons a ps ih =>
    intro m
    rw [List.foldl_cons, ih, isStop_loadStopStr]
    simp only [List.mem_cons, exists_eq_or_imp]
    rw [or_left_comm, or_assoc]

theorem foldl_loadStopStr_isSome : ∀ {ps : List Bytes} {m : StopMap}, m.isSome = true ∨ ps ≠ [] →
    (ps.foldl loadStopStr m).isSome = true := by
  intro ps
  induction ps with
  | nil => intro m h; simpa using h
  | cons a ps ih => intro m _; exact ih (Or.inl rfl)

end

theorem dropCR_eq {l w : Bytes} : dropCR l = w ↔ (l = w ++ [13] ∨ (l = w ∧ ¬ [13] <:+ w)) := by
  unfold dropCR
  split
  · next h =>
    obtain ⟨x, hx⟩ := List.getLast?_eq_some_iff.1 h
    subst hx
    constructor
    · intro e; left; simpa using e
    · rintro (e | ⟨e, h⟩)
      · rw [e]; simp
      · exfalso; apply h; rw [← e]; exact List.suffix_append _ _
  · next h =>
    constructor
    · intro e
      right
      refine ⟨e, ?_⟩
      rintro ⟨x, hx⟩
      apply h; rw [e, ← hx]; simp
    · rintro (e | ⟨e, _⟩)
      · exfalso; apply h; rw [e]; simp
      · exact e

theorem mem_scanLines {w : Bytes} (hw : w ≠ []) : ∀ {ls : List Bytes},
    w ∈ scanLines ls ↔ ∃ a l b, ls = a ++ l :: b ∧ (∀ x ∈ a ++ [l], x.length < 65536) ∧ dropCR l = w := by
  intro ls
  have step : ∀ (l : Bytes) (t : List Bytes),
      (∃ a l' b, l :: t = a ++ l' :: b ∧ (∀ x ∈ a ++ [l'], x.length < 65536) ∧ dropCR l' = w) ↔
      l.length < 65536 ∧ (dropCR l = w ∨ ∃ a l' b, t = a ++ l' :: b ∧ (∀ x ∈ a ++ [l'], x.length < 65536) ∧ dropCR l' = w) := by
    intro l t
    constructor
    · rintro ⟨a, l', b, e, h, hd⟩
      rcases a with _ | ⟨a0, a⟩
      · obtain ⟨rfl, rfl⟩ := List.cons.inj (by simpa using e)
        exact ⟨h _ (by simp), Or.inl hd⟩
      · rw [List.cons_append] at e
        obtain ⟨rfl, rfl⟩ := List.cons.inj e
        exact ⟨h _ (by simp), Or.inr ⟨a, l', b, rfl, fun x hx => h x (by simp at hx ⊢; tauto), hd⟩⟩
    · rintro ⟨h, hd | ⟨a, l', b, rfl, h', hd⟩⟩
      · exact ⟨[], l, t, rfl, by simpa using h, hd⟩
      · refine ⟨l :: a, l', b, rfl, ?_, hd⟩
        intro x hx
        rw [List.cons_append] at hx
        rcases List.mem_cons.1 hx with rfl | hx
        · exact h
        · exact h' x hx
  induction ls with
  | nil => simp [scanLines]
  | cons l t ih =>
    rw [step]
    rcases t with _ | ⟨l2, t⟩
    · simp only [scanLines]
      split
      · next h =>
        simp only [List.not_mem_nil, false_iff, not_and, not_or]
        intro hl
        rcases h with rfl | h
        · exact ⟨fun e => hw (by rw [← e]; rfl), by simp⟩
        · omega
      · next h =>
        rw [not_or, Nat.not_le] at h
        rw [List.mem_singleton]
        constructor
        · intro e; exact ⟨h.2, Or.inl e.symm⟩
        · rintro ⟨_, e | ⟨a, l', b, e, _⟩⟩
          · exact e.symm
          · simp at e
    · simp only [← propext ih]
      simp only [scanLines]
      split
      · next h => simp only [List.not_mem_nil, false_iff, not_and]; intro h'; omega
      · next h =>
        rw [List.mem_cons]
        constructor
        · rintro (e | h')
          · exact ⟨by omega, Or.inl e.symm⟩
          · exact ⟨by omega, Or.inr h'⟩
        · rintro ⟨_, e | h'⟩
          · exact Or.inl e.symm
          · exact Or.inr h'

theorem mem_loadFile {l : List Bytes} {c w : Bytes} : w ∈ loadFile l c ↔ StopFile c w ∨ w ∈ l := by
  have hs := splitStr_spec c [10] (by decide)
  have gen : ∀ (ts l : List Bytes), w ∈ ts.foldl (fun l text => if text ≠ [] then put l text else l) l ↔
      (w ≠ [] ∧ w ∈ ts) ∨ w ∈ l := by
    intro ts
    induction ts with
    | nil => simp
    | cons a ts ih =>
      intro l
      rw [List.foldl_cons, ih, List.mem_cons]
      split
      · next h =>
        rw [mem_put]
        constructor
        · rintro (⟨h1, h2⟩ | rfl | h1)
          · exact Or.inl ⟨h1, Or.inr h2⟩
          · exact Or.inl ⟨h, Or.inl rfl⟩
          · exact Or.inr h1
        · tauto
      · next h =>
        rw [not_not] at h
        subst h
        tauto
  rw [loadFile, gen, StopFile, show str "\n" = [10] from by decide]
  apply or_congr_left
  constructor
  · rintro ⟨h, h1⟩
    obtain ⟨a, l', b, e, h2, h3⟩ := (mem_scanLines h).1 h1
    exact ⟨h, _, hs, a, l', b, e, h2, (dropCR_eq).1 h3⟩
  · rintro ⟨h, ls, h1, a, l', b, e, h2, h3⟩
    refine ⟨h, (mem_scanLines h).2 ⟨a, l', b, ?_, h2, (dropCR_eq).2 h3⟩⟩
    rw [splitStr_eq (by decide) h1, e]

theorem mem_loadFiles {fs : Bytes → Option Bytes} {w : Bytes} : ∀ {names l : List Bytes},
    w ∈ (loadFiles fs names l).1 ↔ StopFiles fs names w ∨ w ∈ l := by
  intro names
  induction names with
  | nil => intro l; simp [loadFiles, StopFiles]
  | cons f names ih =>
    intro l
    have step : StopFiles fs (f :: names) w ↔ ∃ c, fs f = some c ∧ (StopFile c w ∨ StopFiles fs names w) := by
      constructor
      · rintro ⟨a, g, b, c, e, h1, h2, h3⟩
        rcases a with _ | ⟨a0, a⟩
        · obtain ⟨rfl, rfl⟩ := List.cons.inj (by simpa using e)
          exact ⟨c, h2, Or.inl h3⟩
        · rw [List.cons_append] at e
          obtain ⟨rfl, rfl⟩ := List.cons.inj e
          obtain ⟨c', hc'⟩ := h1 f (by simp)
          exact ⟨c', hc', Or.inr ⟨a, g, b, c, rfl, fun x hx => h1 x (by simp [hx]), h2, h3⟩⟩
      · rintro ⟨c, hc, h | ⟨a, g, b, c', rfl, h1, h2, h3⟩⟩
        · exact ⟨[], f, names, c, rfl, by simp, hc, h⟩
        · refine ⟨f :: a, g, b, c', rfl, ?_, h2, h3⟩
          intro x hx
          rcases List.mem_cons.1 hx with rfl | hx
          · exact ⟨c, hc⟩
          · exact h1 x hx
    rw [step]
    simp only [loadFiles]
    cases hf : fs f with
    | none => simp
    | some c => simp only [ih, mem_loadFile, Option.some.injEq, exists_eq_left']; tauto

theorem mem_loadStop {join : Bytes → Bytes} {fs : Bytes → Option Bytes} {m : StopMap} {arg : Option Bytes} {w : Bytes} :
    (m.loadStop join fs arg).1.isStop w = true ↔ (∃ names, StopNames join arg names ∧ StopFiles fs names w) ∨ m.isStop w = true := by
  have hs := splitStr_spec (arg.getD (join (str "dict/zh/stop_word.txt"))) [44, 32] (by decide)
  simp only [loadStop, isStop_some]
  rw [mem_loadFiles, isStop_iff, show str ", " = [44, 32] from by decide]
  apply or_congr_left
  constructor
  · intro h
    refine ⟨_, ?_, h⟩
    split
    · next n ns e =>
      rw [e] at hs
      refine ⟨n, ns, hs, ?_⟩
      split
      · next hn => exact Or.inl ⟨hn, rfl⟩
      · next hn => exact Or.inr ⟨hn, rfl⟩
    · next e => exact absurd e (splitStr_ne_nil _ (by decide))
  · rintro ⟨names, ⟨n, ns, h1, h2⟩, h3⟩
    rw [splitStr_eq (by decide) h1]
    rcases h2 with ⟨hn, rfl⟩ | ⟨hn, rfl⟩
    · simpa [hn] using h3
    · simpa [hn] using h3

end StopMap

section
variable [U : Unicode]

theorem isStop_loadStopEmbed {E : StopEnv} {m : StopMap} {arg : Option Bytes} {w : Bytes} :
    (m.loadStopEmbed E.stopDict arg).isStop w = true ↔ StopAdds E (.loadEmbed arg) w ∨ m.isStop w = true := by
  rcases arg with _ | d
  · simp only [StopMap.loadStopEmbed, StopAdds, StopMap.isStop_loadStopStr]
  have hs := splitStr_spec d [44, 32] (by decide)
  simp only [StopMap.loadStopEmbed, StopAdds, show str ", " = [44, 32] from by decide]
  split
  · next h =>
    rw [containsStr_iff] at h
    rw [StopMap.isStop_foldl_loadStopStr]
    by_cases hz : containsStr d (str "zh,") = true
    · have hz' := (containsStr_iff _ _).1 hz
      simp only [hz, if_true, h, hz', not_true, false_and, true_and, false_or, StopMap.isStop_loadStopStr]
      rcases hl : splitStr d [44, 32] with _ | ⟨p0, ps⟩
      · exact absurd hl (splitStr_ne_nil _ (by decide))
      rw [hl] at hs
      have : (∃ p0 ps, SplitAt [44, 32] d (p0 :: ps) ∧ ∃ p ∈ ps, StopText p w) ↔ ∃ p ∈ ps, StopText p w := by
        constructor
        · rintro ⟨q0, qs, h1, h2⟩
          have := hs.unique h1
          obtain ⟨rfl, rfl⟩ := List.cons.inj this
          exact h2
        · intro h; exact ⟨p0, ps, hs, h⟩
      rw [this]
      simp only [List.drop_succ_cons, List.drop_zero]
      rw [or_left_comm, or_assoc]
    · have hz' : ¬ str "zh," <:+: d := by rw [← containsStr_iff]; exact hz
      simp only [hz, h, hz', not_true, not_false_eq_true, false_and, true_and, false_or, or_false]
      have : (∃ ps, SplitAt [44, 32] d ps ∧ ∃ p ∈ ps, StopText p w) ↔ ∃ p ∈ splitStr d [44, 32], StopText p w := by
        constructor
        · rintro ⟨q, h1, h2⟩
          rw [hs.unique h1]; exact h2
        · intro h; exact ⟨_, hs, h⟩
      rw [this]
      simp
  · next h =>
    rw [containsStr_iff] at h
    simp only [h, not_false_eq_true, true_and, false_and, or_false, StopMap.isStop_loadStopStr]

theorem loadStopEmbed_isSome {s : Bytes} {m : StopMap} {arg : Option Bytes} : (m.loadStopEmbed s arg).isSome = true := by
  rcases arg with _ | d
  · rfl
  simp only [StopMap.loadStopEmbed]
  split
  · by_cases hz : containsStr d (str "zh,") = true
    · simp only [hz, if_true]
      exact StopMap.foldl_loadStopStr_isSome (Or.inl rfl)
    · simp only [hz]
      exact StopMap.foldl_loadStopStr_isSome (Or.inr (by simpa using splitStr_ne_nil d (by decide)))
  · rfl

theorem isStop_step {E : StopEnv} {m m' : StopMap} {op : StopOp} {w : Bytes} (h : op.run E m = some m') :
    m'.isStop w = true ↔ StopAdds E op w ∨ (m.isStop w = true ∧ ¬ StopRemoves op w) := by
  cases op with
  | loadArr ws =>
    obtain rfl := Option.some.inj h
    rw [StopMap.isStop_iff (m := m)]
    simp only [StopMap.loadStopArr, StopMap.isStop_some, StopMap.mem_foldl_put, StopAdds, StopRemoves]
    simp
  | addArr ws =>
    obtain rfl := Option.some.inj h
    rw [StopMap.isStop_iff (m := m)]
    simp only [StopMap.addStopArr, StopMap.loadStopArr, StopMap.isStop_some, StopMap.mem_foldl_put, StopAdds, StopRemoves]
    simp
  | add v =>
    rcases m with _ | l
    · simp [StopOp.run, StopMap.addStop] at h
    · simp only [StopOp.run, StopMap.addStop, Option.some.injEq] at h
      subst h
      simp only [StopMap.isStop_some, StopMap.mem_put, StopAdds, StopRemoves]
      simp
  | remove v =>
    obtain rfl := Option.some.inj h
    rcases m with _ | l
    · simp [StopMap.removeStop, StopMap.isStop, StopAdds]
    · simp only [StopMap.removeStop, StopMap.isStop_some, StopAdds, StopRemoves, List.mem_filter, bne_iff_ne, false_or]
      exact and_congr_right fun _ => ⟨fun h e => h e.symm, fun h e => h e.symm⟩
  | empty =>
    obtain rfl := Option.some.inj h
    simp [StopMap.emptyStop, StopMap.isStop, StopAdds, StopRemoves]
  | loadStr d =>
    obtain rfl := Option.some.inj h
    rw [StopMap.isStop_loadStopStr]
    simp [StopAdds, StopRemoves]
  | loadEmbed arg =>
    obtain rfl := Option.some.inj h
    rw [isStop_loadStopEmbed]
    simp [StopRemoves]
  | load fs arg =>
    obtain rfl := Option.some.inj h
    rw [StopMap.mem_loadStop]
    simp [StopAdds, StopRemoves]

theorem stopRun_append {E : StopEnv} (a b : List StopOp) (m : StopMap) :
    stopRun E (a ++ b) m = (stopRun E a m).bind (stopRun E b) := by
  induction a generalizing m with
  | nil => rfl
  | cons op a ih =>
    simp only [List.cons_append, stopRun]
    cases op.run E m with
    | none => rfl
    | some m' => exact ih m'

theorem isStop_run {E : StopEnv} {ops : List StopOp} {m : StopMap} {w : Bytes} (h : stopRun E ops none = some m) :
    m.isStop w = true ↔ ∃ a op b, ops = a ++ op :: b ∧ StopAdds E op w ∧ ∀ o ∈ b, ¬ StopRemoves o w := by
  induction ops using List.reverseRecOn generalizing m with
  | nil =>
    obtain rfl := Option.some.inj h
    simp [StopMap.isStop]
  | append_singleton ops op ih =>
    rw [stopRun_append] at h
    obtain ⟨m1, h1, h2⟩ := Option.bind_eq_some_iff.1 h
    simp only [stopRun] at h2
    have h3 : op.run E m1 = some m := by
      cases e : op.run E m1 with
      | none => rw [e] at h2; simp at h2
      | some x => rw [e] at h2; simpa using h2
    rw [isStop_step h3, ih h1]
    constructor
    · rintro (h | ⟨⟨a, o, b, rfl, h4, h5⟩, h6⟩)
      · exact ⟨ops, op, [], rfl, h, by simp⟩
      · refine ⟨a, o, b ++ [op], by simp, h4, ?_⟩
        intro x hx
        rcases List.mem_append.1 hx with hx | hx
        · exact h5 x hx
        · rw [List.mem_singleton] at hx; rw [hx]; exact h6
    · rintro ⟨a, o, b, e, h4, h5⟩
      rcases b.eq_nil_or_concat with rfl | ⟨b', x, rfl⟩
      · obtain ⟨rfl, e⟩ := List.append_inj' e rfl
        obtain rfl : op = o := by simpa using e
        exact Or.inl h4
      · rw [List.concat_eq_append] at h5 e
        have e' : ops ++ [op] = (a ++ o :: b') ++ [x] := by simpa using e
        obtain ⟨rfl, e2⟩ := List.append_inj' e' rfl
        obtain rfl : op = x := by simpa using e2
        exact Or.inr ⟨⟨a, o, b', rfl, h4, fun y hy => h5 y (by simp [hy])⟩, h5 op (by simp)⟩

theorem isSome_step {E : StopEnv} {m m' : StopMap} {op : StopOp} (h : op.run E m = some m') :
    m'.isSome = true ↔ (m.isSome = true ∨ ((∀ w, op ≠ .add w) ∧ (∀ w, op ≠ .remove w))) ∧ op ≠ .empty := by
  cases op with
  | loadArr ws => obtain rfl := Option.some.inj h; simp [StopMap.loadStopArr]
  | addArr ws => obtain rfl := Option.some.inj h; simp [StopMap.addStopArr, StopMap.loadStopArr]
  | add v =>
    rcases m with _ | l
    · simp [StopOp.run, StopMap.addStop] at h
    · simp only [StopOp.run, StopMap.addStop, Option.some.injEq] at h
      subst h; simp
  | remove v =>
    obtain rfl := Option.some.inj h
    rcases m with _ | l <;> simp [StopMap.removeStop]
  | empty => obtain rfl := Option.some.inj h; simp [StopMap.emptyStop]
  | loadStr d => obtain rfl := Option.some.inj h; simp [StopMap.loadStopStr]
  | loadEmbed arg => obtain rfl := Option.some.inj h; simp [loadStopEmbed_isSome]
  | load fs arg => obtain rfl := Option.some.inj h; simp [StopMap.loadStop]

theorem isSome_run {E : StopEnv} {ops : List StopOp} {m : StopMap} (h : stopRun E ops none = some m) :
    m.isSome = true ↔ HasStopList ops := by
  induction ops using List.reverseRecOn generalizing m with
  | nil =>
    obtain rfl := Option.some.inj h
    simp [HasStopList]
  | append_singleton ops op ih =>
    rw [stopRun_append] at h
    obtain ⟨m1, h1, h2⟩ := Option.bind_eq_some_iff.1 h
    simp only [stopRun] at h2
    have h3 : op.run E m1 = some m := by
      cases e : op.run E m1 with
      | none => rw [e] at h2; simp at h2
      | some x => rw [e] at h2; simpa using h2
    rw [isSome_step h3, ih h1]
    constructor
    · rintro ⟨⟨a, c, b, rfl, h4, h5, h6⟩ | ⟨h4, h5⟩, h7⟩
      · refine ⟨a, c, b ++ [op], by simp, h4, h5, ?_⟩
        intro o ho
        rw [← List.cons_append] at ho
        rcases List.mem_append.1 ho with ho | ho
        · exact h6 o ho
        · rw [List.mem_singleton] at ho; rw [ho]; exact h7
      · exact ⟨ops, op, [], rfl, h4, h5, by simpa using h7⟩
    · rintro ⟨a, c, b, e, h4, h5, h6⟩
      rcases b.eq_nil_or_concat with rfl | ⟨b', x, rfl⟩
      · obtain ⟨rfl, e⟩ := List.append_inj' e rfl
        obtain rfl : op = c := by simpa using e
        exact ⟨Or.inr ⟨h4, h5⟩, h6 op (by simp)⟩
      · rw [List.concat_eq_append] at h6 e
        have e' : ops ++ [op] = (a ++ c :: b') ++ [x] := by simpa using e
        obtain ⟨rfl, e2⟩ := List.append_inj' e' rfl
        obtain rfl : op = x := by simpa using e2
        refine ⟨Or.inl ⟨a, c, b', rfl, h4, h5, fun y hy => h6 y ?_⟩, h6 op (by simp)⟩
        rcases List.mem_cons.1 hy with rfl | hy
        · simp
        · simp [hy]

theorem run_none {E : StopEnv} {m : StopMap} {op : StopOp} : op.run E m = none ↔ m = none ∧ ∃ w, op = .add w := by
  cases op <;> simp [StopOp.run]
  next w => cases m <;> simp [StopMap.addStop]

theorem stopRun_none {E : StopEnv} {ops : List StopOp} :
    stopRun E ops none = none ↔ ∃ a w b, ops = a ++ .add w :: b ∧ ¬ HasStopList a := by
  induction ops using List.reverseRecOn with
  | nil => simp [stopRun]
  | append_singleton ops op ih =>
    rw [stopRun_append]
    constructor
    · intro h
      rcases e : stopRun E ops none with _ | m
      · obtain ⟨a, w, b, e2, h2⟩ := ih.1 e
        exact ⟨a, w, b ++ [op], by simp [e2], h2⟩
      · rw [e] at h
        simp only [Option.bind_some, stopRun, Option.bind_fun_some] at h
        obtain ⟨hm, w, rfl⟩ := run_none.1 h
        refine ⟨ops, w, [], rfl, ?_⟩
        rw [← isSome_run e, hm]; simp
    · rintro ⟨a, w, b, e, h⟩
      rcases b.eq_nil_or_concat with rfl | ⟨b', x, rfl⟩
      · obtain ⟨rfl, e⟩ := List.append_inj' e rfl
        obtain rfl : op = .add w := by simpa using e
        rcases e2 : stopRun E ops none with _ | m
        · rfl
        · have : m = none := by
            cases m with
            | none => rfl
            | some l => exact absurd ((isSome_run e2).1 rfl) h
          subst this
          rfl
      · rw [List.concat_eq_append] at e
        have e' : ops ++ [op] = (a ++ .add w :: b') ++ [x] := by simpa using e
        obtain ⟨rfl, _⟩ := List.append_inj' e' rfl
        rw [ih.2 ⟨a, w, b', rfl, h⟩]; rfl

end

end Gse
