import Verif.Proofs.Copy

/-! # C74: copies of a segmenter -/

namespace Gse
open Spec

set_option linter.unusedSectionVars false

section main
variable {F D : Type} [F64 F] [F32 D] [Narrow F D] [Unicode] {E : CallEnv}

/-- C74: a call on variable `i` does to it what the method does to a segmenter on its own: calls that are not about the stop words
change the struct and its dictionary and leave the stop words, calls on the stop words leave the rest. -/
theorem C74_call_self {ops : List (WorldOp F)} {w w' : World F D} (hw : ({} : World F D).run E ops = some w) {i : Nat} {c : SegOp F}
    (h : w.call E i c = some w') : ∃ v v', w.vars[i]? = some v ∧ w'.vars[i]? = some v' ∧ c.run E (w.seg v) = some (w'.seg v') ∧
      (∀ op, c = .stop op → op.run E.stop (w.stopMap v) = some (w'.stopMap v')) ∧ ((∀ op, c ≠ .stop op) → w'.stopMap v' = w.stopMap v) := by
  have hI := Inv.start hw
  unfold World.call at h
  obtain ⟨v, hv, h⟩ := Option.bind_eq_some_iff.mp h
  have hi := (List.getElem?_eq_some_iff.mp hv).1
  by_cases hc : ∃ op, c = .stop op
  · obtain ⟨op, rfl⟩ := hc
    obtain ⟨m, hm, h⟩ := Option.map_eq_some_iff.mp h
    obtain ⟨r, e1, e2, e3, e4, _⟩ := World.storeStop_spec hv (fun k hk => hI.stop.ltp k (by
      rw [← hk]; exact List.mem_map_of_mem (List.mem_of_getElem? hv))) h
    refine ⟨v, { v with stop := r }, hv, by rw [e1]; simp [hi], ?_, ?_, fun hn => absurd rfl (hn op)⟩
    · simp only [SegOp.run, World.seg, e2, e3]
    · intro op' e
      cases e
      rw [hm, ← e4]; rfl
  · have hc : ∀ op, c ≠ .stop op := fun op e => hc ⟨op, e⟩
    have h : (c.run E (w.seg v)).map (w.storeDict i v (c.fresh (w.seg v))) = some w' := by
      cases c with
      | stop op => exact absurd rfl (hc op)
      | _ => exact h
    obtain ⟨s, hs, h⟩ := Option.map_eq_some_iff.mp h
    obtain ⟨r, e1, e2, e3, e4, _⟩ := World.storeDict_spec (fun k hk => hI.dict.ltp k (by
      rw [← hk]; exact List.mem_map_of_mem (List.mem_of_getElem? hv))) h
    refine ⟨v, v.update r s, hv, by rw [e1]; simp [hi], ?_, fun op e => absurd e (hc op), fun _ => by simp [World.stopMap, SegVar.update, e2]⟩
    · rw [hs]
      have : s.cfg.toLower = w'.toLower := by rw [SegOp.run_lower hs, e3]; rfl
      congr 1
      cases s with
      | mk d l ds mf tf lnf cfg => cases cfg; simp_all [World.seg, SegVar.update]

/-- C74: and it panics exactly when the method does. -/
theorem C74_call_panic (w : World F D) {i : Nat} {v : SegVar F} (hv : w.vars[i]? = some v) (c : SegOp F) :
    w.call E i c = none ↔ c.run E (w.seg v) = none ∨ ∃ op, c = .stop op ∧ op.run E.stop (w.stopMap v) = none := by
  unfold World.call
  rw [hv, Option.bind_some]
  cases c with
  | stop op => simp [SegOp.run]
  | _ => simp

/-- C74: what a call on one variable does to another: everything stays as it was, except that when the two still have the same
dictionary after the call, the other sees the new content, and the same for the stop words. -/
theorem C74_call_other {ops : List (WorldOp F)} {w w' : World F D} (hw : ({} : World F D).run E ops = some w) {i j : Nat} {c : SegOp F}
    (h : w.call E i c = some w') (hij : i ≠ j) {oi oj : Owner} (hoi : (owners (ops ++ [WorldOp.call i c]))[i]? = some oi)
    (hoj : (owners (ops ++ [WorldOp.call i c]))[j]? = some oj) {u : SegVar F} (hu : w.vars[j]? = some u) {v' : SegVar F} (hv' : w'.vars[i]? = some v') :
    w'.vars[j]? = some u ∧
    w'.seg u = (if oi.dict = oj.dict then { w.seg u with dict := (w'.seg v').dict } else w.seg u) ∧
    w'.stopMap u = (if oi.stop = oj.stop then w'.stopMap v' else w.stopMap u) := by
  have hI := Inv.start hw
  have hI' : Inv w' (owners (ops ++ [WorldOp.call i c])) (ops ++ [WorldOp.call i c]).length := by
    refine Inv.start (E := E) ?_
    rw [World.run_append, hw, Option.bind_some]
    simp [World.run, WorldOp.step, h]
  have key : w'.vars[j]? = some u ∧ w'.toLower = w.toLower ∧
      (v'.dict ≠ u.dict → u.dict.bind (w'.dicts[·]?) = u.dict.bind (w.dicts[·]?)) ∧
      (v'.stop ≠ u.stop → u.stop.bind (w'.stops[·]?) = u.stop.bind (w.stops[·]?)) := by
    unfold World.call at h
    obtain ⟨v, hv, h⟩ := Option.bind_eq_some_iff.mp h
    have hi := (List.getElem?_eq_some_iff.mp hv).1
    have kd : ∀ k, u.dict = some k → k < w.dicts.length := fun k hk => hI.dict.ltp k (by
      rw [← hk]; exact List.mem_map_of_mem (List.mem_of_getElem? hu))
    have ks : ∀ k, u.stop = some k → k < w.stops.length := fun k hk => hI.stop.ltp k (by
      rw [← hk]; exact List.mem_map_of_mem (List.mem_of_getElem? hu))
    by_cases hc : ∃ op, c = .stop op
    · obtain ⟨op, rfl⟩ := hc
      obtain ⟨m, hm, h⟩ := Option.map_eq_some_iff.mp h
      obtain ⟨r, e1, e2, e3, e4, e5⟩ := World.storeStop_spec hv (fun k hk => hI.stop.ltp k (by
        rw [← hk]; exact List.mem_map_of_mem (List.mem_of_getElem? hv))) h
      have : v' = { v with stop := r } := by rw [e1] at hv'; simpa [hi] using hv'.symm
      subst this
      refine ⟨by rw [e1]; simp [hij, hu], e3, fun _ => by rw [e2], fun hne => ?_⟩
      cases hk : u.stop with
      | none => rfl
      | some k => exact e5 k (ks k hk) (by rw [← hk]; exact hne)
    · have hc : ∀ op, c ≠ .stop op := fun op e => hc ⟨op, e⟩
      have h : (c.run E (w.seg v)).map (w.storeDict i v (c.fresh (w.seg v))) = some w' := by
        cases c with
        | stop op => exact absurd rfl (hc op)
        | _ => exact h
      obtain ⟨s, hs, h⟩ := Option.map_eq_some_iff.mp h
      obtain ⟨r, e1, e2, e3, e4, e5⟩ := World.storeDict_spec (fun k hk => hI.dict.ltp k (by
        rw [← hk]; exact List.mem_map_of_mem (List.mem_of_getElem? hv))) h
      have : v' = v.update r s := by rw [e1] at hv'; simpa [hi] using hv'.symm
      subst this
      refine ⟨by rw [e1]; simp [hij, hu], e3, fun hne => ?_, fun _ => by rw [e2]⟩
      cases hk : u.dict with
      | none => rfl
      | some k => exact e5 k (kd k hk) (by rw [← hk]; exact hne)
  obtain ⟨hu', hl, hd, hs⟩ := key
  have li := (List.getElem?_eq_some_iff.mp hv').1
  have lj := (List.getElem?_eq_some_iff.mp hu').1
  have sd : v'.dict = u.dict ↔ oi.dict = oj.dict := by
    have := hI'.dict.same i j (by simpa using li) (by simpa using lj)
    simpa [hv', hu', hoi, hoj] using this
  have ss : v'.stop = u.stop ↔ oi.stop = oj.stop := by
    have := hI'.stop.same i j (by simpa using li) (by simpa using lj)
    simpa [hv', hu', hoi, hoj] using this
  refine ⟨hu', ?_, ?_⟩
  · split
    · next e => rw [← sd] at e; simp [World.seg, hl, e]
    · next e => rw [← sd] at e; simp [World.seg, hl, hd e]
  · split
    · next e => rw [← ss] at e; simp [World.stopMap, e]
    · next e => rw [← ss] at e; simp [World.stopMap, hs e]

/-- C74: a variable has no dictionary exactly when the specification says so, and likewise for the stop words. -/
theorem C74_nil {ops : List (WorldOp F)} {w : World F D} (hw : ({} : World F D).run E ops = some w) {i : Nat} {v : SegVar F} {o : Owner}
    (hv : w.vars[i]? = some v) (ho : (owners ops)[i]? = some o) :
    ((w.seg v).dict = none ↔ o.dict = none) ∧ (w.stopMap v = none ↔ o.stop = none) ∧ (w.seg v).load = o.load := by
  have hI := Inv.start hw
  have h1 := (hI.seg_dict hv).trans (hI.dict_isSome hv ho)
  have h2 := (hI.stopMap_isSome hv).trans (hI.stop_isSome hv ho)
  have h3 := hI.load_eq hv ho
  refine ⟨?_, ?_, h3⟩
  · cases h : (w.seg v).dict <;> cases h' : o.dict <;> simp_all
  · cases h : w.stopMap v <;> cases h' : o.stop <;> simp_all

/-- C74: two variables with the same owner see the same dictionary, after any program. -/
theorem C74_shared {ops : List (WorldOp F)} {w : World F D} (hw : ({} : World F D).run E ops = some w) {i j : Nat} {v u : SegVar F} {oi oj : Owner}
    (hv : w.vars[i]? = some v) (hu : w.vars[j]? = some u) (hoi : (owners ops)[i]? = some oi) (hoj : (owners ops)[j]? = some oj) :
    (oi.dict = oj.dict → (w.seg v).dict = (w.seg u).dict) ∧ (oi.stop = oj.stop → w.stopMap v = w.stopMap u) := by
  have hI := Inv.start hw
  have li := (List.getElem?_eq_some_iff.mp hv).1
  have lj := (List.getElem?_eq_some_iff.mp hu).1
  have sd : v.dict = u.dict ↔ oi.dict = oj.dict := by
    have := hI.dict.same i j (by simpa using li) (by simpa using lj)
    simpa [hv, hu, hoi, hoj] using this
  have ss : v.stop = u.stop ↔ oi.stop = oj.stop := by
    have := hI.stop.same i j (by simpa using li) (by simpa using lj)
    simpa [hv, hu, hoi, hoj] using this
  refine ⟨fun e => ?_, fun e => ?_⟩
  · rw [← sd] at e; simp [World.seg, e]
  · rw [← ss] at e; simp [World.stopMap, e]

/-- C74: a copy of a segmenter that has a dictionary (an assignment, or the argument of `WithGse`) keeps having the same dictionary as
the original, whatever is called on either, until one of them is assigned to or emptied or `LoadDict` is called on a segmenter that
was filled in another way. -/
theorem C74_copy_shares {ops ops' : List (WorldOp F)} {i j : Nat} {w : World F D} (hw : ({} : World F D).run E (ops ++ WorldOp.assign j i :: ops') = some w)
    {o : Owner} (ho : (owners ops)[i]? = some o) (hd : o.dict ≠ none) (h : ∀ op ∈ ops', KeepsBoth i j o.load op) :
    ∃ v u d, w.vars[i]? = some v ∧ w.vars[j]? = some u ∧ (w.seg v).dict = some d ∧ (w.seg u).dict = some d := by
  have hI := Inv.start hw
  obtain ⟨k, hk⟩ := Option.ne_none_iff_exists'.mp hd
  obtain ⟨h1, h2⟩ := ownStep_assign (F := F) (n := ops.length) ho (assign_lt hw)
  obtain ⟨oi, oj, e1, e2, e3, e4⟩ := ownersFrom_keeps (ops := ops') (n := ops.length + 1) h1 h2 hk hk rfl rfl h
  rw [← owners_copy] at e1 e2
  have li := hI.length ▸ (List.getElem?_eq_some_iff.mp e1).1
  have lj := hI.length ▸ (List.getElem?_eq_some_iff.mp e2).1
  have hs := (C74_shared hw (List.getElem?_eq_getElem li) (List.getElem?_eq_getElem lj) e1 e2).1 (e3.trans e4.symm)
  have hn := mt (C74_nil hw (List.getElem?_eq_getElem li) e1).1.mp (by rw [e3]; simp)
  obtain ⟨d, hd⟩ := Option.ne_none_iff_exists'.mp hn
  exact ⟨_, _, d, List.getElem?_eq_getElem li, List.getElem?_eq_getElem lj, hd, hs ▸ hd⟩

/-- C74: so does the map of stop words, when there is one at the time of the copy, until one of the two calls `EmptyStop`. -/
theorem C74_copy_shares_stop {ops ops' : List (WorldOp F)} {i j : Nat} {w : World F D}
    (hw : ({} : World F D).run E (ops ++ WorldOp.assign j i :: ops') = some w)
    {o : Owner} (ho : (owners ops)[i]? = some o) (hd : o.stop ≠ none) (h : ∀ op ∈ ops', KeepsStop i j op) :
    ∃ v u, w.vars[i]? = some v ∧ w.vars[j]? = some u ∧ ∀ x, (w.stopMap v).isStop x = (w.stopMap u).isStop x := by
  have hI := Inv.start hw
  obtain ⟨k, hk⟩ := Option.ne_none_iff_exists'.mp hd
  obtain ⟨h1, h2⟩ := ownStep_assign (F := F) (n := ops.length) ho (assign_lt hw)
  obtain ⟨oi, oj, e1, e2, e3, e4⟩ := ownersFrom_keepsStop (ops := ops') (n := ops.length + 1) h1 h2 hk hk h
  rw [← owners_copy] at e1 e2
  have li := hI.length ▸ (List.getElem?_eq_some_iff.mp e1).1
  have lj := hI.length ▸ (List.getElem?_eq_some_iff.mp e2).1
  have hs := (C74_shared hw (List.getElem?_eq_getElem li) (List.getElem?_eq_getElem lj) e1 e2).2 (e3.trans e4.symm)
  exact ⟨_, _, List.getElem?_eq_getElem li, List.getElem?_eq_getElem lj, fun x => by rw [hs]⟩

/-- C74: two variables that do not have the same dictionary never come to share one unless one of them is assigned to: then a call on one
leaves the other as it is, at any later time. The same holds for the stop words. -/
theorem C74_apart {ops ops' : List (WorldOp F)} {i j : Nat} (hij : i ≠ j) {oi oj : Owner} (hoi : (owners ops)[i]? = some oi) (hoj : (owners ops)[j]? = some oj)
    (h : ∀ op ∈ ops', NoAssign i op ∧ NoAssign j op) {c : SegOp F} {w w' : World F D}
    (hw : ({} : World F D).run E (ops ++ ops') = some w) (hw' : w.call E i c = some w') {u : SegVar F} (hu : w.vars[j]? = some u) :
    w'.vars[j]? = some u ∧
    (oi.dict = none ∨ oj.dict = none ∨ oi.dict ≠ oj.dict → w'.seg u = w.seg u) ∧
    (oi.stop = none ∨ oj.stop = none ∨ oi.stop ≠ oj.stop → w'.stopMap u = w.stopMap u) := by
  have hb := below_owners ops
  obtain ⟨oi', oj', e1, e2, e3, e4⟩ := ownersFrom_apart hij (ops := ops' ++ [WorldOp.call i c]) hb hoi hoj (by
    intro op hop
    simp only [List.mem_append, List.mem_singleton] at hop
    rcases hop with hop | rfl
    · exact h op hop
    · exact ⟨trivial, trivial⟩)
  have e : ownersFrom ops.length (ops' ++ [WorldOp.call i c]) (owners ops) = owners (ops ++ ops' ++ [WorldOp.call i c]) := by
    rw [List.append_assoc]
    simp only [owners, ownersFrom_append, Nat.zero_add]
  rw [e] at e1 e2
  obtain ⟨v, v', hv, hv', _⟩ := C74_call_self hw hw'
  obtain ⟨h1, h2, h3⟩ := C74_call_other hw hw' hij e1 e2 hu hv'
  have hwn : ({} : World F D).run E (ops ++ ops' ++ [WorldOp.call i c]) = some w' := by
    rw [World.run_append, hw, Option.bind_some]
    simp [World.run, WorldOp.step, hw']
  obtain ⟨ni1, ni2, _⟩ := C74_nil hwn hv' e1
  obtain ⟨nj1, nj2, _⟩ := C74_nil hwn h1 e2
  refine ⟨h1, fun ha => ?_, fun ha => ?_⟩
  · rw [h2]
    split
    · next he =>
      have hn : oi'.dict = none ∧ oj'.dict = none := by
        rcases e3 ha with h | h | h
        · exact ⟨h, he ▸ h⟩
        · exact ⟨he.trans h, h⟩
        · exact absurd he h
      rw [if_pos he, ni1.mpr hn.1] at h2
      have hj0 : u.dict = none := by
        have hI := Inv.start hwn
        have := hI.dict_isSome h1 e2
        rw [hn.2] at this
        simpa using this
      rw [ni1.mpr hn.1]
      simp [World.seg, hj0]
    · rfl
  · rw [h3]
    split
    · next he =>
      have hn : oi'.stop = none ∧ oj'.stop = none := by
        rcases e4 ha with h | h | h
        · exact ⟨h, he ▸ h⟩
        · exact ⟨he.trans h, h⟩
        · exact absurd he h
      have hj0 : u.stop = none := by
        have hI := Inv.start hwn
        have := hI.stop_isSome h1 e2
        rw [hn.2] at this
        simpa using this
      rw [ni2.mpr hn.1]
      simp [World.stopMap, hj0]
    · rfl

/-- C74: `LoadDict` on a segmenter that was filled with `LoadDictStr`, `LoadDictMap` or `LoadDictEmbed` throws the dictionary away: the
segmenter has afterwards what the files contain, a copy has what it had, and from then on the two are apart (`C74_apart`). -/
theorem C74_load_replaces {ops : List (WorldOp F)} {w w' : World F D} (hw : ({} : World F D).run E ops = some w) {i j : Nat} (hij : i ≠ j) {oi oj : Owner}
    (hoi : (owners ops)[i]? = some oi) (hoj : (owners ops)[j]? = some oj) (hl : oi.load = false) {fs : Bytes → Option Bytes} {files : Option Bytes}
    (h : w.call E i (.loadDict fs files) = some w') {v u : SegVar F} (hv : w.vars[i]? = some v) (hu : w.vars[j]? = some u) :
    (∃ v' e, w'.vars[i]? = some v' ∧
      ({ w.seg v with dict := none } : Segmenter F D).loadDict E.mid E.stop.join fs files = some (w'.seg v', e)) ∧
    w'.vars[j]? = some u ∧ w'.seg u = w.seg u ∧
    ∃ oi' oj', (owners (ops ++ [WorldOp.call i (.loadDict fs files)]))[i]? = some oi' ∧
      (owners (ops ++ [WorldOp.call i (.loadDict fs files)]))[j]? = some oj' ∧ oi'.dict ≠ none ∧ oi'.dict ≠ oj'.dict := by
  have e1 : (owners (ops ++ [WorldOp.call i (.loadDict fs files)]))[i]? = some { oi with dict := some ops.length, load := true } := by
    rw [owners_snoc, ownStep_own (op := WorldOp.call i (.loadDict fs files)) hoi trivial]
    simp [ownOne, ownCall, hl]
  have e2 : (owners (ops ++ [WorldOp.call i (.loadDict fs files)]))[j]? = some oj := by
    rw [owners_snoc, ownStep_own (op := WorldOp.call i (.loadDict fs files)) hoj trivial]
    simp [ownOne, hij]
  have hne : some ops.length ≠ oj.dict := fun e => by
    have := (below_owners ops oj (List.mem_of_getElem? hoj)).1 _ e.symm
    omega
  obtain ⟨v0, v', hv0, hv', hr, _⟩ := C74_call_self hw h
  cases hv.symm.trans hv0
  obtain ⟨h1, h2, _⟩ := C74_call_other hw h hij e1 e2 hu hv'
  refine ⟨⟨v', ?_⟩, h1, ?_, _, _, e1, e2, by simp, hne⟩
  · obtain ⟨⟨s, e⟩, hs, e'⟩ := Option.map_eq_some_iff.mp hr
    refine ⟨e, hv', ?_⟩
    cases e'
    have : (w.seg v).load = false := by rw [(C74_nil hw hv hoi).2.2, hl]
    unfold Segmenter.loadDict at hs ⊢
    simp only [this] at hs ⊢
    exact hs
  · rw [h2, if_neg hne]

/-- C74: `Empty` leaves `Load` as it is, so `LoadDict` on a segmenter that was loaded by `LoadDict` and emptied has no dictionary to fill:
it panics, or reports that a file cannot be opened. -/
theorem C74_empty_then_load {s s' : Segmenter F D} {mid : Segmenter.ScanErr} {join : Bytes → Bytes} {fs : Bytes → Option Bytes} {files : Option Bytes} {e : Bool}
    (hl : s.load = true) (h : s.empty.loadDict mid join fs files = some (s', e)) : e = true ∧ s'.dict = none := by
  have hk := (Segmenter.loadDict_kept h).2.2
  have hd : s'.dict = none := by simpa [Segmenter.empty, hl] using hk
  refine ⟨?_, hd⟩
  unfold Segmenter.loadDict at h
  obtain ⟨r, _, h⟩ := Option.bind_eq_some_iff.mp h
  split at h
  · next he => cases h; exact he
  · obtain ⟨s2, h2, e2⟩ := Option.map_eq_some_iff.mp h
    cases e2
    have := Segmenter.keeps_recalc h2
    rw [this.1.2.2.symm, hd] at this
    cases this.2

/-- C74: stop words that are loaded after the copy are not shared when there were none before: the copy keeps having none. -/
theorem C74_stop_late {ops : List (WorldOp F)} {w w' : World F D} {i j : Nat} (hij : i ≠ j) (hw : ({} : World F D).run E (ops ++ [WorldOp.assign j i]) = some w)
    {o : Owner} (ho : (owners ops)[i]? = some o) (hs : o.stop = none) {op : StopOp} (h : w.call E i (.stop op) = some w') :
    ∃ u, w'.vars[j]? = some u ∧ ∀ x, (w'.stopMap u).isStop x = false := by
  obtain ⟨h1, h2⟩ := ownStep_assign (F := F) (n := ops.length) ho (assign_lt hw)
  rw [← owners_snoc] at h1 h2
  have lj := (Inv.start hw).length ▸ (List.getElem?_eq_some_iff.mp h2).1
  have hu := List.getElem?_eq_getElem lj
  have := C74_apart (ops := ops ++ [WorldOp.assign j i]) (ops' := []) hij h1 h2 (fun _ h => (nomatch h)) (c := .stop op) (by rwa [List.append_nil]) h hu
  refine ⟨_, this.1, fun x => ?_⟩
  rw [this.2.2 (.inl hs), (C74_nil hw hu h2).2.1.mpr hs]
  rfl

end main

section examples
attribute [local instance] sampleUnicode sampleF64 sampleF32 sampleNarrow

/-- Files for the examples: one, with one word. -/
def copyFiles (p : Bytes) : Option Bytes := if p = str "f" then some (str "cat 7 n\n") else none

def copyEnv : CallEnv where
  mid := .none
  embedded := ⟨str "ja 1 n", str "zhs 2 n", str "zht 3 n"⟩
  stop := ⟨str "the\nof", fun p => str "/d/" ++ p⟩

/-- What each variable finds for a word, and what it takes for a stop word. -/
def copyShow (words stops : List Bytes) (w : World Int Int) : List (List (Option Bool) × List Bool) :=
  w.vars.map fun v => (words.map fun x => (w.seg v).dict.bind fun d => (d.find x).map (·.2.2), stops.map (w.stopMap v).isStop)

/-- A segmenter filled from a string, copied; a word added through the original and one removed through the copy: both see both. -/
example : (World.run copyEnv [.new, .new, .call 0 (.loadStr (str "ab 5 n\ncd 6 n")), .assign 1 0,
      .call 0 (.dict (.add (str "ef") 3 (str "x"))), .call 1 (.dict (.remove (str "cd")))] ({} : World Int Int)).map
    (copyShow [str "ab", str "cd", str "ef"] []) =
    some [([some true, some false, some true], []), ([some true, some false, some true], [])] := by decide +kernel

example : owners ([.new, .new, .call 0 (.loadStr (str "ab 5 n\ncd 6 n")), .assign 1 0,
      .call 0 (.dict (.add (str "ef") 3 (str "x"))), .call 1 (.dict (.remove (str "cd")))] : List (WorldOp Int)) =
    [⟨some 2, false, none⟩, ⟨some 2, false, none⟩] := by decide +kernel

/-- `LoadDict` on the original (filled from a string): it has the file only, the copy keeps the string, and later words do not cross. -/
example : (World.run copyEnv [.new, .new, .call 0 (.loadStr (str "ab 5 n\ncd 6 n")), .assign 1 0,
      .call 0 (.loadDict copyFiles (some (str "f"))), .call 0 (.dict (.add (str "ef") 3 (str "x")))] ({} : World Int Int)).map
    (copyShow [str "ab", str "cat", str "ef"] []) =
    some [([some false, some true, some true], []), ([some true, some false, some false], [])] := by decide +kernel

/-- `LoadDict`, copy, `LoadDict` again: the copy sees the second file. -/
example : (World.run copyEnv [.new, .new, .call 0 (.loadDict (fun _ => some (str "ab 5 n\n")) (some (str "f"))), .assign 1 0,
      .call 0 (.loadDict copyFiles (some (str "f")))] ({} : World Int Int)).map (copyShow [str "ab", str "cat"] []) =
    some [([some true, some true], []), ([some true, some true], [])] := by decide +kernel

/-- A copy made before the first load shares nothing. -/
example : (World.run copyEnv [.new, .new, .assign 1 0, .call 0 (.loadStr (str "ab 5 n"))] ({} : World Int Int)).map (copyShow [str "ab"] []) =
    some [([some true], []), ([none], [])] := by decide +kernel

/-- `LoadDict`, `Empty`, `LoadDict` panics; with a file that cannot be opened it does not. -/
example : (World.run copyEnv [.new, .call 0 (.loadDict copyFiles (some (str "f"))), .call 0 .empty,
    .call 0 (.loadDict copyFiles (some (str "f")))] ({} : World Int Int)).isNone = true := by decide +kernel

example : ((World.run copyEnv [.new, .call 0 (.loadDict copyFiles (some (str "f"))), .call 0 .empty,
    .call 0 (.loadDict copyFiles (some (str "g")))] ({} : World Int Int)).map (copyShow [str "cat"] [])) = some [([none], [])] := by decide +kernel

/-- Stop words: loaded before the copy they are shared, loaded after it they are not. -/
example : (World.run copyEnv [.new, .new, .call 0 (.stop (.loadArr [str "the"])), .assign 1 0, .call 1 (.stop (.add (str "of")))]
    ({} : World Int Int)).map (copyShow [] [str "the", str "of"]) = some [([], [true, true]), ([], [true, true])] := by decide +kernel

example : (World.run copyEnv [.new, .new, .assign 1 0, .call 0 (.stop (.loadArr [str "the"]))]
    ({} : World Int Int)).map (copyShow [] [str "the"]) = some [([], [true]), ([], [false])] := by decide +kernel

/-- Flags are not shared though the dictionary is: the word is stored in the form the caller's flags give. -/
example : (World.run copyEnv [.new, .new, .call 0 (.loadStr (str "ab 5 n")), .assign 1 0, .call 1 (.flags true true true),
    .call 1 (.dict (.add (str "x9") 3 []))] ({} : World Int Int)).map (fun w => w.vars.map fun v => ((w.seg v).cfg.alphaNum, (w.seg v).dict.isSome)) =
    some [(false, true), (true, true)] := by decide +kernel

/-- The steps of the first example satisfy the hypotheses of `C74_copy_shares`. -/
example : ∀ op ∈ ([.call 0 (.dict (.add (str "ef") 3 (str "x"))), .call 1 (.dict (.remove (str "cd")))] : List (WorldOp Int)),
    KeepsBoth 0 1 false op := by
  intro op hop
  simp only [List.mem_cons, List.not_mem_nil, or_false] at hop
  rcases hop with rfl | rfl <;> trivial

end examples
end Gse
