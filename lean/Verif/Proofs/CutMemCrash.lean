import Verif.Proofs.CutMemAsk
import Verif.Proofs.RacePanic
import Verif.Proofs.Dag

/-!
# Reading programs that panic, and `Cut` with a trie that is ahead of the table
-/

namespace Gse
open Prog

set_option linter.unusedSectionVars false

variable {F D α β : Type}

/-- Run on this memory, the program panics without having written anything. -/
def Crashes (m : Mem F D) : Prog F D α → Prop
  | .panic => True
  | .read l k => m l = none ∨ ∃ c, m l = some c ∧ Crashes m (k c)
  | _ => False

/-- A program that only reads returns or panics. -/
theorem ends_or_crashes (m : Mem F D) : ∀ (p : Prog F D α), Reads p → (∃ v, Yields m p v) ∨ Crashes m p
  | .ret a, _ => .inl ⟨a, rfl⟩
  | .panic, _ => .inr trivial
  | .read l k, h => by
    cases hc : m l with
    | none => exact .inr (.inl hc)
    | some c =>
      rcases ends_or_crashes m (k c) (h c) with ⟨v, hv⟩ | hr
      · exact .inl ⟨v, c, hc, hv⟩
      · exact .inr (.inr ⟨c, hc, hr⟩)
  | .write .., h => h.elim
  | .alloc .., h => h.elim

theorem crashes_bind {m : Mem F D} {f : α → Prog F D β} : ∀ (p : Prog F D α), Crashes m p → Crashes m (p.bind f)
  | .ret _, h => h.elim
  | .panic, _ => trivial
  | .read _ k, h => by
    rcases h with h | ⟨c, hc, h⟩
    · exact .inl h
    · exact .inr ⟨c, hc, crashes_bind (k c) h⟩
  | .write .., h => h.elim
  | .alloc .., h => h.elim

/-- What a sequence returns, its first part has returned something before. -/
theorem yields_inv' {m : Mem F D} {f : α → Prog F D β} {b : β} : ∀ (p : Prog F D α), Yields m (p.bind f) b → ∃ a, Yields m p a ∧ Yields m (f a) b
  | .ret a, h => ⟨a, rfl, h⟩
  | .panic, h => h.elim
  | .read _ k, ⟨c, hc, h⟩ => by
    obtain ⟨a, h1, h2⟩ := yields_inv' (k c) h
    exact ⟨a, ⟨c, hc, h1⟩, h2⟩
  | .write .., h => h.elim
  | .alloc .., h => h.elim

theorem yields_inv {m : Mem F D} {f : α → Prog F D β} {b : β} {p : Prog F D α} (h : Yields m (p >>= f) b) : ∃ a, Yields m p a ∧ Yields m (f a) b := yields_inv' p h

theorem yields_unique {m : Mem F D} {a b : α} : ∀ (p : Prog F D α), Yields m p a → Yields m p b → a = b
  | .ret _, h1, h2 => by rw [← (show _ = a from h1), ← (show _ = b from h2)]
  | .panic, h, _ => h.elim
  | .read _ k, ⟨c, hc, h1⟩, ⟨c', hc', h2⟩ => by
    rw [hc] at hc'; cases hc'
    exact yields_unique (k c) h1 h2
  | .write .., h, _ => h.elim
  | .alloc .., h, _ => h.elim

theorem yields_mapP {m : Mem F D} {f : α → Prog F D β} : ∀ (l : List α) (bs : List β), Yields m (mapP f l) bs → ∀ a ∈ l, ∃ b, Yields m (f a) b
  | [], _, _, _, h => by cases h
  | a :: l, bs, hy, x, hx => by
    obtain ⟨b, h1, h2⟩ := yields_inv hy
    rcases List.mem_cons.mp hx with rfl | hx
    · exact ⟨b, h1⟩
    · obtain ⟨bs', h3, _⟩ := yields_inv h2
      exact yields_mapP l bs' h3 x hx

theorem reach_crashes {ts : List (Prog F D α)} {i : Nat} (hi : i < ts.length) {m : Mem F D} : ∀ (p : Prog F D α), Crashes m p →
    Reach ⟨m, ts.set i p⟩ ⟨m, ts.set i .panic⟩
  | .panic, _ => Reach.refl _
  | .ret _, h => h.elim
  | .read l k, h => by
    rcases h with h | ⟨c, hc, h⟩
    · have := (Step.readBad (c := ⟨m, ts.set i (.read l k)⟩) (set_get hi _) h).reach
      simpa using this
    · exact (reach_read hi hc).trans (reach_crashes hi (k c) h)
  | .write .., h => h.elim
  | .alloc .., h => h.elim

variable [F64 F] [F32 D] [Narrow F D]

section
variable {m : Mem F D} {cfg : SplitCfg} {d : Dictionary F D}

/-- `Find` of a path of the trie finds something, and if it is a key then its index is in range. -/
theorem yields_find_inv (h : HoldsTable m cfg (some d)) {w : Bytes} {x : F × Bytes × Bool} (hw : w ≠ []) (hn : d.trie.isNode w = true)
    (hy : Yields m (findP w) x) : x.2.2 = true ∧ ∀ v, d.trie.value w = some v → v < d.tokens.length := by
  obtain ⟨b, h1, hy⟩ := yields_inv hy
  obtain rfl := yields_unique _ h1 (yields_bool h.segDict)
  obtain ⟨t, h1, hy⟩ := yields_inv hy
  obtain rfl := yields_unique _ h1 (yields_trie (h.trie d rfl))
  have hj : d.trie.jump w [] = some w := by simp [Trie.jump, hn]
  rw [hj] at hy
  obtain ⟨t, h1, hy⟩ := yields_inv hy
  obtain rfl := yields_unique _ h1 (yields_trie (h.trie d rfl))
  cases hv : d.trie.value w with
  | none =>
    rw [hv] at hy
    simp only [ne_eq, hw, not_false_eq_true, if_true] at hy
    obtain rfl : _ = x := hy
    exact ⟨rfl, fun v e => by cases e⟩
  | some v =>
    rw [hv] at hy
    obtain ⟨n, h1, hy⟩ := yields_inv hy
    obtain rfl := yields_unique _ h1 (yields_nat (h.tokHdr d rfl))
    split at hy
    · next hlt =>
      refine ⟨?_, fun v' e => by cases e; exact hlt⟩
      obtain ⟨y, _, hy⟩ := yields_inv hy
      obtain ⟨n, h1, hy⟩ := yields_inv hy
      obtain rfl := yields_unique _ h1 (yields_nat (h.tokHdr d rfl))
      rw [if_pos hlt] at hy
      obtain ⟨z, _, hy⟩ := yields_inv hy
      obtain rfl : _ = x := hy
      rfl
    · exact hy.elim

theorem slice_mono {rs : List Rune} {k i e : Nat} (h : i ≤ e) : slice rs k i <+: slice rs k e := by
  unfold slice
  exact ⟨((rs.drop k).take (e - k)).drop (i - k), by
    conv_rhs => rw [← List.take_append_drop (i - k) ((rs.drop k).take (e - k))]
    rw [List.take_take, min_eq_left (by omega)]⟩

/-- The inner loop of `getDag` comes to every key that begins at `k`. -/
theorem yields_dagEnds_inv (h : HoldsTable m cfg (some d)) (rs : List Rune) (k e : Nat) (he : e ≤ rs.length) {v : Nat}
    (hv : d.trie.value (encode (slice rs k e)) = some v) : ∀ (n i : Nat) (l : List Nat), k ≤ i → i < e → Yields m (dagEndsP (F := F) (D := D) rs k n i) l →
      v < d.tokens.length
  | 0, _, _, _, _, hy => hy.elim
  | n + 1, i, l, hk, hi, hy => by
    obtain ⟨x, h1, hy⟩ := yields_inv hy
    have hne : encode (slice rs k (i + 1)) ≠ [] := by
      refine encode_ne_nil fun h0 => ?_
      have := congrArg List.length h0
      simp only [slice, List.length_take, List.length_drop, List.length_nil] at this
      omega
    obtain ⟨r, hr⟩ := slice_mono (rs := rs) (k := k) (show i + 1 ≤ e by omega)
    have hnode : d.trie.isNode (encode (slice rs k (i + 1))) = true :=
      Trie.isNode_prefix (Trie.isNode_of_value hv) ⟨encode r, by rw [← hr, encode_append]⟩
    obtain ⟨hok, hin⟩ := yields_find_inv h hne hnode h1
    rcases Nat.lt_or_ge (i + 1) e with hlt | hge
    · simp only [hok, Bool.not_true, Bool.false_eq_true, if_false] at hy
      rw [if_neg (by omega)] at hy
      obtain ⟨rest, h2, _⟩ := yields_inv hy
      exact yields_dagEnds_inv h rs k e he hv n (i + 1) rest (by omega) hlt h2
    · have : i + 1 = e := by omega
      subst this
      exact hin v hv

/-- `getDag` of a text with a key of the trie whose index is out of range panics. -/
theorem getDag_ahead (h : HoldsTable m cfg (some d)) (rs : List Rune) {v : Nat} {pre w post : List Rune} (hrs : rs = pre ++ w ++ post) (hw : w ≠ [])
    (hv : d.trie.value (encode w) = some v) (hlt : d.tokens.length ≤ v) : ∀ l, ¬ Yields m (getDagP (F := F) (D := D) rs) l := by
  intro l hy
  have hl : 0 < w.length := List.length_pos_iff.mpr hw
  have hlen : rs.length = pre.length + w.length + post.length := by rw [hrs]; simp; omega
  obtain ⟨b, hb⟩ := yields_mapP _ _ hy pre.length (List.mem_range.mpr (by omega))
  obtain ⟨ends, h1, _⟩ := yields_inv hb
  have hs : slice rs pre.length (pre.length + w.length) = w := by
    unfold slice
    rw [hrs, List.append_assoc, List.drop_left, Nat.add_sub_cancel_left, List.take_left]
  have := yields_dagEnds_inv h rs pre.length (pre.length + w.length) (by omega) (v := v) (by rw [hs]; exact hv) _ _ _ (Nat.le_refl _) (by omega) h1
  omega

variable [Unicode] (c : HmmConst F) {v : Nat} {pre w post : List Rune}

theorem crashes_cutAll (h : HoldsTable m cfg (some d)) (s : Bytes) (hrs : dagRunes cfg s = pre ++ w ++ post) (hw : w ≠ [])
    (hv : d.trie.value (encode w) = some v) (hlt : d.tokens.length ≤ v) : Crashes m (cutAllP (F := F) (D := D) s) := by
  rcases ends_or_crashes m _ (reads_cutAll s) with ⟨r, hy⟩ | hr
  · obtain ⟨b, h1, hy⟩ := yields_inv hy
    obtain rfl := yields_unique _ h1 (yields_flags h.flags)
    obtain ⟨dag, h1, _⟩ := yields_inv hy
    exact absurd h1 (getDag_ahead h _ hrs hw hv hlt dag)
  · exact hr

theorem routes_ahead (h : HoldsTable m cfg (some d)) (rs : List Rune) (hrs : rs = pre ++ w ++ post) (hw : w ≠ [])
    (hv : d.trie.value (encode w) = some v) (hlt : d.tokens.length ≤ v) : ∀ l, ¬ Yields m (calcRoutesP (F := F) (D := D) rs) l := by
  intro l hy
  obtain ⟨dag, h1, _⟩ := yields_inv hy
  exact getDag_ahead h rs hrs hw hv hlt dag h1

theorem crashes_cutDAG (h : HoldsTable m cfg (some d)) (s : Bytes) (reg : List Matcher) (hrs : dagRunes cfg s = pre ++ w ++ post) (hw : w ≠ [])
    (hv : d.trie.value (encode w) = some v) (hlt : d.tokens.length ≤ v) : Crashes m (cutDAGP (F := F) (D := D) c s reg) := by
  rcases ends_or_crashes m _ (reads_cutDAG c s reg) with ⟨r, hy⟩ | hr
  · obtain ⟨b, h1, hy⟩ := yields_inv hy
    obtain rfl := yields_unique _ h1 (yields_flags h.flags)
    obtain ⟨routes, h1, _⟩ := yields_inv hy
    exact absurd h1 (routes_ahead h _ hrs hw hv hlt routes)
  · exact hr

theorem crashes_cut (h : HoldsTable m cfg (some d)) (s : Bytes) (hmm : Bool) (hrs : dagRunes cfg s = pre ++ w ++ post) (hw : w ≠ [])
    (hv : d.trie.value (encode w) = some v) (hlt : d.tokens.length ≤ v) : Crashes m (cutP (F := F) (D := D) c s hmm) := by
  cases hmm with
  | true => exact crashes_cutDAG c h s [] hrs hw hv hlt
  | false =>
    rcases ends_or_crashes m _ (reads_cutDAGNoHMM s) with ⟨r, hy⟩ | hr
    · obtain ⟨b, h1, hy⟩ := yields_inv hy
      obtain rfl := yields_unique _ h1 (yields_flags h.flags)
      obtain ⟨routes, h1, _⟩ := yields_inv hy
      exact absurd h1 (routes_ahead h _ hrs hw hv hlt routes)
    · exact hr

theorem crashes_cutSearch (h : HoldsTable m cfg (some d)) (s : Bytes) (hmm : Bool) (hrs : dagRunes cfg s = pre ++ w ++ post) (hw : w ≠ [])
    (hv : d.trie.value (encode w) = some v) (hlt : d.tokens.length ≤ v) : Crashes m (cutSearchP (F := F) (D := D) c s hmm) :=
  crashes_bind _ (crashes_cut c h s hmm hrs hw hv hlt)

theorem crashes_find (h : HoldsTable m cfg (some d)) {w : Bytes} (hw : w ≠ []) (hv : d.trie.value w = some v) (hlt : d.tokens.length ≤ v) :
    Crashes m (findP (F := F) (D := D) w) := by
  rcases ends_or_crashes m _ (reads_find w) with ⟨x, hy⟩ | hr
  · have := (yields_find_inv h hw (Trie.isNode_of_value hv) hy).2 v hv
    omega
  · exact hr

/-! ## The trie is read -/

theorem asks_find (h1 : m .segDict = some (.bool false)) (w : Bytes) : Asks m .trie (findP (F := F) (D := D) w) := by
  refine .inr ⟨by simp, _, h1, ?_⟩
  refine .inl ⟨rfl, fun t o => ?_⟩
  have hr := reads_find (F := F) (D := D) w
  exact ((hr (.bool false)) t).quiet _ o

theorem asks_getDag (h1 : m .segDict = some (.bool false)) {rs : List Rune} (h : rs ≠ []) : Asks m .trie (getDagP (F := F) (D := D) rs) := by
  obtain ⟨n, hn⟩ : ∃ n, rs.length = n + 1 := ⟨rs.length - 1, by have := List.length_pos_iff.mpr h; omega⟩
  unfold getDagP
  rw [hn, List.range_succ_eq_map]
  refine asks_left (asks_left ?_ fun _ => trivial) fun _ => (reads_map (fun k => (reads_dagEnds rs k _ _).bind fun _ => reads_ret _) _).bind fun _ => reads_ret _
  rw [hn]
  refine asks_left (asks_find h1 _) fun x => ?_
  have := reads_dagEnds (F := F) (D := D) rs 0 n 1
  split
  · trivial
  · split
    · trivial
    · exact this.bind fun _ => trivial

theorem asks_routes (h1 : m .segDict = some (.bool false)) {rs : List Rune} (h : rs ≠ []) : Asks m .trie (calcRoutesP (F := F) (D := D) rs) := by
  refine asks_left (asks_getDag h1 h) fun dag => (reads_bool _).bind fun b => ?_
  split
  · trivial
  · exact (reads_freq _).bind fun x => reads_calcLoop rs _ dag _ _

theorem asks_cutAll (h0 : m .flags = some (.flags cfg)) (h1 : m .segDict = some (.bool false)) (s : Bytes) (h : dagRunes cfg s ≠ []) :
    Asks m .trie (cutAllP (F := F) (D := D) s) :=
  asks_right (yields_flags h0) reads_flags (fun _ => (reads_getDag _).bind fun _ => trivial) (asks_left (asks_getDag h1 h) fun _ => trivial)

theorem asks_cutDAG' (h0 : m .flags = some (.flags cfg)) (h1 : m .segDict = some (.bool false)) (s : Bytes) (reg : List Matcher) (h : dagRunes cfg s ≠ []) :
    Asks m .trie (cutDAGP (F := F) (D := D) c s reg) := by
  have hr : ∀ cfg' (routes : List (Nat × Route F)), Reads (liftP (walk (dagRunes cfg' s) routes (dagRunes cfg' s).length 0) >>= fun frags => hmmLoopP (F := F) (D := D) c reg frags []) :=
    fun _ _ => (reads_lift _).bind fun _ => reads_hmmLoop c reg _ _
  exact asks_right (yields_flags h0) reads_flags (fun cfg' => (reads_calcRoutes _).bind fun routes => hr cfg' routes) (asks_left (asks_routes h1 h) fun routes => hr cfg routes)

theorem asks_cut (h0 : m .flags = some (.flags cfg)) (h1 : m .segDict = some (.bool false)) (s : Bytes) (hmm : Bool) (h : dagRunes cfg s ≠ []) :
    Asks m .trie (cutP (F := F) (D := D) c s hmm) := by
  cases hmm with
  | true => exact asks_cutDAG' c h0 h1 s [] h
  | false =>
    have hr : ∀ cfg' (routes : List (Nat × Route F)), Reads (liftP (walk (dagRunes cfg' s) routes (dagRunes cfg' s).length 0) >>= fun frags => (.ret (noHmmLoop frags []) : Prog F D _)) :=
      fun _ _ => (reads_lift _).bind fun _ => trivial
    exact asks_right (yields_flags h0) reads_flags (fun cfg' => (reads_calcRoutes _).bind fun routes => hr cfg' routes) (asks_left (asks_routes h1 h) fun routes => hr cfg routes)

theorem asks_cutSearch (h0 : m .flags = some (.flags cfg)) (h1 : m .segDict = some (.bool false)) (s : Bytes) (hmm : Bool) (h : dagRunes cfg s ≠ []) :
    Asks m .trie (cutSearchP (F := F) (D := D) c s hmm) := by
  refine asks_left (asks_cut c h0 h1 s hmm h) fun ws => (reads_map (fun w => ?_) _).bind fun _ => trivial
  exact (reads_grams _ _).bind fun _ => (reads_grams _ _).bind fun _ => trivial

end
end Gse
