import Verif.Proofs.TextRank
import Verif.Proofs.Round

/-! # The values of TextRank stay in a range -/

namespace Gse
open Spec

set_option linter.unusedSectionVars false

/-! ### Integer weights -/

theorem nbrs_map {V W : Type} (f : V → W) (es : List ((Bytes × Bytes) × V)) (n : Bytes) :
    nbrs (es.map fun e => (e.1, f e.2)) n = (nbrs es n).map fun p => (p.1, f p.2) := by
  unfold nbrs
  rw [List.flatMap_map, List.map_flatMap]
  apply List.flatMap_congr
  intro e _
  rw [List.map_append]
  congr 1 <;> split <;> rfl

theorem nbrs_symm {W : Type} {es : List ((Bytes × Bytes) × W)} {n b : Bytes} {w : W} (h : (b, w) ∈ nbrs es n) : (n, w) ∈ nbrs es b := by
  unfold nbrs at h ⊢
  rw [List.mem_flatMap] at h ⊢
  obtain ⟨e, he, h⟩ := h
  refine ⟨e, he, ?_⟩
  rw [List.mem_append] at h ⊢
  rcases h with h | h
  · right
    split at h
    · rename_i hn
      simp only [List.mem_singleton, Prod.mk.injEq] at h
      rw [if_pos h.1.symm, h.2, hn]; simp
    · simp at h
  · left
    split at h
    · rename_i hn
      simp only [List.mem_singleton, Prod.mk.injEq] at h
      rw [if_pos h.1.symm, h.2, hn]; simp
    · simp at h

/-- The total weight of a word as a natural number. -/
def outN (ns : List ((Bytes × Bytes) × Nat)) (n : Bytes) : Nat := ((nbrs ns n).map (·.2)).sum

theorem outN_le (ns : List ((Bytes × Bytes) × Nat)) (n : Bytes) : outN ns n ≤ 2 * (ns.map (·.2)).sum := by
  unfold outN
  induction ns with
  | nil => simp [nbrs]
  | cons e ns ih =>
    have : nbrs (e :: ns) n = ((if e.1.1 = n then [(e.1.2, e.2)] else []) ++ (if e.1.2 = n then [(e.1.1, e.2)] else [])) ++ nbrs ns n := rfl
    rw [this, List.map_append, List.sum_append, List.map_cons, List.sum_cons]
    have h : (((if e.1.1 = n then [(e.1.2, e.2)] else []) ++ (if e.1.2 = n then [(e.1.1, e.2)] else [])).map (·.2)).sum ≤ 2 * e.2 := by
      split <;> split <;> simp <;> omega
    omega

theorem le_outN {ns : List ((Bytes × Bytes) × Nat)} {n b : Bytes} {c : Nat} (h : (b, c) ∈ nbrs ns n) : c ≤ outN ns b :=
  List.single_le_sum (by simp) _ (List.mem_map.2 ⟨_, nbrs_symm h, rfl⟩)

theorem nbrs_pos {ns : List ((Bytes × Bytes) × Nat)} (hp : ∀ e ∈ ns, 1 ≤ e.2) {n : Bytes} : ∀ p ∈ nbrs ns n, 1 ≤ p.2 := by
  intro p h
  unfold nbrs at h
  rw [List.mem_flatMap] at h
  obtain ⟨e, he, h⟩ := h
  have := hp e he
  rw [List.mem_append] at h
  rcases h with h | h
  all_goals
    split at h
    · simp only [List.mem_singleton] at h
      rw [h]; exact this
    · simp at h

theorem length_le_sum : ∀ {l : List Nat}, (∀ x ∈ l, 1 ≤ x) → l.length ≤ l.sum := by
  intro l
  induction l with
  | nil => simp
  | cons a l ih =>
    intro h
    have h1 := h a (by simp)
    have h2 := ih fun x hx => h x (by simp [hx])
    rw [List.length_cons, List.sum_cons]; omega

theorem sum_count_le {α : Type} [BEq α] [LawfulBEq α] {ks : List α} (hn : ks.Nodup) (L : List α) : (ks.map fun k => L.count k).sum ≤ L.length := by
  induction L with
  | nil => simp
  | cons x L ih =>
    have h1 : ∀ {ks : List α}, ks.Nodup → (ks.map fun k => (x :: L).count k).sum ≤ (ks.map fun k => L.count k).sum + 1 := by
      intro ks
      induction ks with
      | nil => simp
      | cons k ks ih2 =>
        intro hn
        rw [List.nodup_cons] at hn
        simp only [List.map_cons, List.sum_cons]
        by_cases hk : x = k
        · subst hk
          have h3 : (ks.map fun k => (x :: L).count k) = ks.map fun k => L.count k := by
            apply List.map_congr_left
            intro y hy
            rw [List.count_cons_of_ne]
            intro e; exact hn.1 (by simpa [e] using hy)
          rw [h3, List.count_cons_self]; omega
        · have := ih2 hn.2
          rw [List.count_cons_of_ne hk]; omega
    have := h1 hn
    rw [List.length_cons]; omega

section
variable {F : Type} [F64 F]

/-- The co-occurrences with natural numbers. -/
def edgeCounts (allow : List Bytes) (items : List SegPos) (es : List ((Bytes × Bytes) × F)) : List ((Bytes × Bytes) × Nat) :=
  es.map fun e => (e.1, coCount allow items e.1.1 e.1.2)

theorem edges_ofNat {allow : List Bytes} {items : List SegPos} {es : List ((Bytes × Bytes) × F)} (h : IsEdges allow items es) :
    es = (edgeCounts allow items es).map (fun e => (e.1, (F64.ofNat e.2 : F))) ∧ ∀ e ∈ edgeCounts allow items es, 1 ≤ e.2 := by
  constructor
  · unfold edgeCounts
    rw [List.map_map]
    conv_lhs => rw [← List.map_id es]
    apply List.map_congr_left
    rintro ⟨⟨a, b⟩, v⟩ he
    have := (h.mem a b v).1 he
    simp [this.2]
  · intro e he
    unfold edgeCounts at he
    rw [List.mem_map] at he
    obtain ⟨⟨⟨a, b⟩, v⟩, he, rfl⟩ := he
    exact ((h.mem a b v).1 he).1

theorem edgeCounts_sum {allow : List Bytes} {items : List SegPos} {es : List ((Bytes × Bytes) × F)} (h : IsEdges allow items es) :
    ((edgeCounts allow items es).map (·.2)).sum ≤ 4 * items.length := by
  have e : (edgeCounts allow items es).map (·.2) = (es.map Prod.fst).map fun k => (rankPairs allow items).count k := by
    unfold edgeCounts
    rw [List.map_map, List.map_map]
    apply List.map_congr_left
    rintro ⟨⟨a, b⟩, v⟩ _
    simp [rankPairs_count]
  rw [e]
  exact Nat.le_trans (sum_count_le h.nodup _) (rankPairs_length _ _)

end

section
variable {F : Type} [F64 F] [F64Round F]

theorem outWeight_ofNat {ns : List ((Bytes × Bytes) × Nat)} (hs : ∀ n, outN ns n ≤ 2 ^ 53) (n : Bytes) :
    outWeight (ns.map fun e => (e.1, (F64.ofNat e.2 : F))) n = F64.ofNat (outN ns n) := by
  unfold outWeight
  rw [nbrs_map (fun c : Nat => (F64.ofNat c : F))]
  have key : ∀ (l : List (Bytes × Nat)) (a : Nat), a + (l.map (·.2)).sum ≤ 2 ^ 53 →
      (l.map fun p => (p.1, (F64.ofNat p.2 : F))).foldl (fun s e => F64.add s e.2) (F64.ofNat a) = F64.ofNat (a + (l.map (·.2)).sum) := by
    intro l
    induction l with
    | nil => intro a _; rfl
    | cons p l ih =>
      intro a h
      rw [List.map_cons, List.sum_cons] at h
      rw [List.map_cons, List.foldl_cons, F64Count.ofNat_add _ _ (by omega), ih _ (by omega), List.map_cons, List.sum_cons, Nat.add_assoc]
  rw [key _ 0 (by rw [Nat.zero_add]; exact hs n), Nat.zero_add]
  rfl

/-- A value of the expected size. -/
structure GoodRank (ns : List ((Bytes × Bytes) × Nat)) (n : Bytes) (x : F) : Prop where
  fin : F64Round.fin x
  ge : 1 / 2 ^ 60 ≤ F64Round.val x
  le : F64Round.val x ≤ 2 * (outN ns n : ℚ)

theorem rank_term {c o : Nat} (hc : 1 ≤ c) (hco : c ≤ o) (ho : o ≤ 2 ^ 41) {y : F} (hy : F64Round.fin y) (h1 : 1 / 2 ^ 60 ≤ F64Round.val y)
    (h2 : F64Round.val y ≤ 2 * (o : ℚ)) :
    F64Round.fin (F64.mul (F64.div (F64.ofNat c) (F64.ofNat o)) y) ∧ 0 ≤ F64Round.val (F64.mul (F64.div (F64.ofNat c) (F64.ofNat o)) y) ∧
      F64Round.val (F64.mul (F64.div (F64.ofNat c) (F64.ofNat o)) y) ≤ 2 * (c : ℚ) * (1 + 4 * ulp) := by
  have hu := ulp_pos
  have hu2 : ulp ≤ 1 / 16 := by unfold ulp; norm_num
  have hcq : (1 : ℚ) ≤ c := by exact_mod_cast hc
  have hcoq : (c : ℚ) ≤ o := by exact_mod_cast hco
  have hoq : (o : ℚ) ≤ 2 ^ 41 := by exact_mod_cast ho
  have ho0 : (0 : ℚ) < o := by linarith
  obtain ⟨fc, vc⟩ := F64Round.ofNat_val (F := F) c (by omega)
  obtain ⟨fo, vo⟩ := F64Round.ofNat_val (F := F) o (by omega)
  have q1 : (c : ℚ) / o ≤ 1 := (div_le_one ho0).2 hcoq
  have q0 : (1 : ℚ) / 2 ^ 41 ≤ (c : ℚ) / o := by
    rw [div_le_div_iff₀ (by positivity) ho0]
    calc 1 * (o : ℚ) ≤ 2 ^ 41 := by linarith
      _ ≤ c * 2 ^ 41 := by nlinarith
  have qpos : (0 : ℚ) < (c : ℚ) / o := by positivity
  obtain ⟨fd, vd⟩ := F64Round.div_val fc fo (by rw [vo]; exact ho0.ne') (by
    rw [vc, vo, abs_of_pos qpos]; exact q1.trans (by norm_num))
  rw [vc, vo] at vd
  obtain ⟨r1, r2⟩ := rnd_rel (F := F) (q := (c : ℚ) / o) (le_trans (by norm_num) q0)
  have y0 : 0 < F64Round.val y := lt_of_lt_of_le (by positivity) h1
  have p2 : F64Round.val (F64.div (F64.ofNat c : F) (F64.ofNat o)) * F64Round.val y ≤ 2 * (c : ℚ) * (1 + ulp) := by
    rw [vd]
    calc _ ≤ ((c : ℚ) / o * (1 + ulp)) * (2 * o) := by
          apply mul_le_mul r2 h2 y0.le; positivity
      _ = 2 * (c : ℚ) * (1 + ulp) := by field_simp
  have p1 : 0 ≤ F64Round.val (F64.div (F64.ofNat c : F) (F64.ofNat o)) * F64Round.val y := by
    apply mul_nonneg _ y0.le
    rw [vd]; exact rnd_nonneg qpos.le
  have hc41 : (c : ℚ) ≤ 2 ^ 41 := hcoq.trans hoq
  obtain ⟨fm, vm⟩ := F64Round.mul_val fd hy (by
    rw [abs_of_nonneg p1]
    refine p2.trans ?_
    calc 2 * (c : ℚ) * (1 + ulp) ≤ 2 * 2 ^ 41 * (1 + 1 / 16) := by gcongr
      _ ≤ 2 ^ 200 := by norm_num)
  refine ⟨fm, ?_, ?_⟩
  · rw [vm]; exact rnd_nonneg p1
  · rw [vm]
    have hz : (1 : ℚ) / 2 ^ 200 ≤ 2 * (c : ℚ) * (1 + ulp) := by
      have : (1 : ℚ) / 2 ^ 200 ≤ 1 := by norm_num
      nlinarith
    refine (F64Round.rnd_mono p2).trans ((rnd_rel (F := F) hz).2.trans ?_)
    have : (1 + ulp) * (1 + ulp) ≤ 1 + 4 * ulp := by nlinarith
    rw [mul_assoc]
    gcongr

theorem rank_sum {ns : List ((Bytes × Bytes) × Nat)} (hs : ∀ n, outN ns n ≤ 2 ^ 41) {v : Bytes → F} (l : List (Bytes × Nat))
    (hl : ∀ p ∈ l, 1 ≤ p.2 ∧ p.2 ≤ outN ns p.1 ∧ GoodRank ns p.1 (v p.1)) (s : F) (C k : Nat) (hk : k + l.length ≤ 2 ^ 42)
    (hC : C + (l.map (·.2)).sum ≤ 2 ^ 42) (fs : F64Round.fin s) (s0 : 0 ≤ F64Round.val s)
    (s1 : F64Round.val s ≤ 2 * (C : ℚ) * (1 + 4 * ulp * (k + 1))) :
    let r := l.foldl (fun s e => F64.add s (F64.mul (F64.div (F64.ofNat e.2) (F64.ofNat (outN ns e.1))) (v e.1))) s
    F64Round.fin r ∧ 0 ≤ F64Round.val r ∧
      F64Round.val r ≤ 2 * ((C + (l.map (·.2)).sum : Nat) : ℚ) * (1 + 4 * ulp * ((k + l.length : Nat) + 1)) := by
  have hu := ulp_pos
  induction l generalizing s C k with
  | nil => exact ⟨fs, s0, by simpa using s1⟩
  | cons p l ih =>
    obtain ⟨c1, c2, g⟩ := hl p (by simp)
    rw [List.length_cons] at hk
    rw [List.map_cons, List.sum_cons] at hC
    obtain ⟨ft, t0, t1⟩ := rank_term c1 c2 (hs _) g.fin g.ge g.le
    have hcq : (1 : ℚ) ≤ p.2 := by exact_mod_cast c1
    have hkq : (0 : ℚ) ≤ k := Nat.cast_nonneg k
    have hkq2 : (k : ℚ) + 1 ≤ 2 ^ 42 := by exact_mod_cast (by omega : k + 1 ≤ 2 ^ 42)
    have hCq0 : (0 : ℚ) ≤ C := Nat.cast_nonneg C
    have hCq : (C : ℚ) + p.2 ≤ 2 ^ 42 := by exact_mod_cast (by omega : C + p.2 ≤ 2 ^ 42)
    have hB : 4 * ulp * ((k : ℚ) + 1) ≤ 1 := by
      calc 4 * ulp * ((k : ℚ) + 1) ≤ 4 * ulp * 2 ^ 42 := by gcongr
        _ ≤ 1 := by unfold ulp; norm_num
    have hB0 : 4 * ulp ≤ 4 * ulp * ((k : ℚ) + 1) := by nlinarith
    have z1 : F64Round.val s + F64Round.val (F64.mul (F64.div (F64.ofNat p.2) (F64.ofNat (outN ns p.1))) (v p.1)) ≤
        2 * ((C : ℚ) + p.2) * (1 + 4 * ulp * (k + 1)) := by
      have : 2 * (p.2 : ℚ) * (1 + 4 * ulp) ≤ 2 * (p.2 : ℚ) * (1 + 4 * ulp * (k + 1)) := by gcongr
      linarith
    have z0 : 0 ≤ F64Round.val s + F64Round.val (F64.mul (F64.div (F64.ofNat p.2) (F64.ofNat (outN ns p.1))) (v p.1)) := add_nonneg s0 t0
    have zc : 2 * ((C : ℚ) + p.2) * (1 + 4 * ulp * (k + 1)) ≤ 2 ^ 200 := by
      calc 2 * ((C : ℚ) + p.2) * (1 + 4 * ulp * (k + 1)) ≤ 2 * 2 ^ 42 * (1 + 1) := by gcongr
        _ ≤ 2 ^ 200 := by norm_num
    have zc0 : (1 : ℚ) ≤ 2 * ((C : ℚ) + p.2) * (1 + 4 * ulp * (k + 1)) := by nlinarith
    obtain ⟨fa, va⟩ := F64Round.add_val fs ft (by rw [abs_of_nonneg z0]; exact z1.trans zc)
    rw [List.foldl_cons]
    have := ih (fun q hq => hl q (by simp [hq])) _ (C + p.2) (k + 1) (by omega) (by omega) fa (by rw [va]; exact rnd_nonneg z0) (by
      rw [va]
      refine (F64Round.rnd_mono z1).trans ((rnd_rel (F := F) (le_trans (by norm_num) zc0)).2.trans ?_)
      push_cast
      rw [mul_assoc]
      have : (1 + 4 * ulp * ((k : ℚ) + 1)) * (1 + ulp) ≤ 1 + 4 * ulp * ((k : ℚ) + 1 + 1) := by nlinarith
      gcongr)
    rw [List.map_cons, List.sum_cons, List.length_cons]
    have e1 : C + (p.2 + (l.map (·.2)).sum) = C + p.2 + (l.map (·.2)).sum := by omega
    have e2 : k + (l.length + 1) = k + 1 + l.length := by omega
    rw [e1, e2]
    exact this

theorem rankNew_good {ns : List ((Bytes × Bytes) × Nat)} (hp : ∀ e ∈ ns, 1 ≤ e.2) (hs : ∀ n, outN ns n ≤ 2 ^ 41) {K : RankConst F}
    (hK : RankConstOK K) {v : Bytes → F} {n : Bytes} (hv : ∀ p ∈ nbrs ns n, GoodRank ns p.1 (v p.1)) (ho : 1 ≤ outN ns n) :
    GoodRank ns n (rankNew K (ns.map fun e => (e.1, (F64.ofNat e.2 : F))) v n) := by
  have hu := ulp_pos
  have hu2 : ulp ≤ 1 / 10000 := by unfold ulp; norm_num
  unfold rankNew
  rw [nbrs_map (fun c : Nat => (F64.ofNat c : F)), List.foldl_map]
  simp only [outWeight_ofNat (F := F) (fun n => (hs n).trans (by norm_num))]
  obtain ⟨f0, v0⟩ := F64Round.ofNat_val (F := F) 0 (by omega)
  have hlen : (nbrs ns n).length ≤ outN ns n := by
    have := length_le_sum (l := (nbrs ns n).map (·.2)) (by
      intro x hx
      rw [List.mem_map] at hx
      obtain ⟨p, hp', rfl⟩ := hx
      exact nbrs_pos hp p hp')
    rwa [List.length_map] at this
  have h41 := hs n
  obtain ⟨fs, s0, s1⟩ := rank_sum hs (v := v) (nbrs ns n)
    (fun p hp' => ⟨nbrs_pos hp p hp', le_outN (n := n) (b := p.1) (c := p.2) hp', hv p hp'⟩) (F64.ofNat 0) 0 0
    (by rw [Nat.zero_add]; exact hlen.trans (h41.trans (by norm_num))) (by rw [Nat.zero_add]; exact h41.trans (by norm_num)) f0
    (by rw [v0]; simp) (by rw [v0]; simp)
  have ho' : (1 : ℚ) ≤ outN ns n := by exact_mod_cast ho
  have hoq : (outN ns n : ℚ) ≤ 2 ^ 41 := by exact_mod_cast h41
  generalize (nbrs ns n).foldl (fun s e => F64.add s (F64.mul (F64.div (F64.ofNat e.2) (F64.ofNat (outN ns e.1))) (v e.1))) (F64.ofNat 0) = s at *
  have s2 : F64Round.val s ≤ (outN ns n : ℚ) * (201 / 100) := by
    refine s1.trans ?_
    rw [Nat.zero_add, Nat.zero_add]
    have hl : (((nbrs ns n).length : ℚ) + 1) ≤ 2 ^ 42 := by exact_mod_cast (by omega : (nbrs ns n).length + 1 ≤ 2 ^ 42)
    have h2 : 1 + 4 * ulp * (((nbrs ns n).length : ℚ) + 1) ≤ 1 + 4 * ulp * 2 ^ 42 := by gcongr
    have h3 : 2 * (1 + 4 * ulp * 2 ^ 42) ≤ 201 / 100 := by unfold ulp; norm_num
    have h4 : outN ns n = ((nbrs ns n).map (·.2)).sum := rfl
    rw [← h4]
    calc 2 * (outN ns n : ℚ) * (1 + 4 * ulp * (((nbrs ns n).length : ℚ) + 1)) ≤ 2 * (outN ns n : ℚ) * (1 + 4 * ulp * 2 ^ 42) := by gcongr
      _ = (outN ns n : ℚ) * (2 * (1 + 4 * ulp * 2 ^ 42)) := by ring
      _ ≤ (outN ns n : ℚ) * (201 / 100) := by gcongr
  have d0 : 0 ≤ F64Round.val K.damp := le_trans (by norm_num) hK.damp_ge
  have m0 : 0 ≤ F64Round.val K.damp * F64Round.val s := mul_nonneg d0 s0
  have m1 : F64Round.val K.damp * F64Round.val s ≤ (outN ns n : ℚ) * (172 / 100) := by
    calc F64Round.val K.damp * F64Round.val s ≤ (851 / 1000) * ((outN ns n : ℚ) * (201 / 100)) :=
          mul_le_mul hK.damp_le s2 s0 (by norm_num)
      _ ≤ (outN ns n : ℚ) * (172 / 100) := by linarith
  obtain ⟨fm, vm⟩ := F64Round.mul_val hK.fin_damp fs (by
    rw [abs_of_nonneg m0]
    refine m1.trans ?_
    calc (outN ns n : ℚ) * (172 / 100) ≤ 2 ^ 41 * (172 / 100) := by gcongr
      _ ≤ 2 ^ 200 := by norm_num)
  have r0 : 0 ≤ F64Round.val (F64.mul K.damp s) := by rw [vm]; exact rnd_nonneg m0
  have r1 : F64Round.val (F64.mul K.damp s) ≤ (outN ns n : ℚ) * (173 / 100) := by
    rw [vm]
    have : (1 : ℚ) / 2 ^ 200 ≤ (outN ns n : ℚ) * (172 / 100) := by
      have : (1 : ℚ) / 2 ^ 200 ≤ 1 := by norm_num
      linarith
    refine (F64Round.rnd_mono m1).trans ((rnd_rel (F := F) this).2.trans ?_)
    nlinarith
  have a0 : 149 / 1000 ≤ F64Round.val K.rest + F64Round.val (F64.mul K.damp s) := by linarith [hK.rest_ge]
  have a1 : F64Round.val K.rest + F64Round.val (F64.mul K.damp s) ≤ (outN ns n : ℚ) * (19 / 10) := by linarith [hK.rest_le]
  obtain ⟨fa, va⟩ := F64Round.add_val hK.fin_rest fm (by
    rw [abs_of_nonneg (le_trans (by norm_num) a0)]
    refine a1.trans ?_
    calc (outN ns n : ℚ) * (19 / 10) ≤ 2 ^ 41 * (19 / 10) := by gcongr
      _ ≤ 2 ^ 200 := by norm_num)
  refine ⟨fa, ?_, ?_⟩
  · rw [va]
    refine le_trans ?_ (F64Round.rnd_mono a0)
    refine le_trans ?_ (rnd_rel (F := F) (q := 149 / 1000) (by norm_num)).1
    calc (1 : ℚ) / 2 ^ 60 ≤ 149 / 1000 * (1 - 1 / 10000) := by norm_num
      _ ≤ _ := by gcongr
  · rw [va]
    have : (1 : ℚ) / 2 ^ 200 ≤ (outN ns n : ℚ) * (19 / 10) := by
      have : (1 : ℚ) / 2 ^ 200 ≤ 1 := by norm_num
      linarith
    refine (F64Round.rnd_mono a1).trans ((rnd_rel (F := F) this).2.trans ?_)
    nlinarith

theorem rankRound_good {ns : List ((Bytes × Bytes) × Nat)} (hp : ∀ e ∈ ns, 1 ≤ e.2) (hs : ∀ n, outN ns n ≤ 2 ^ 41) {K : RankConst F}
    (hK : RankConstOK K) (words : List Bytes) (hw : ∀ n ∈ words, 1 ≤ outN ns n) {v : Bytes → F} (hv : ∀ n, 1 ≤ outN ns n → GoodRank ns n (v n)) :
    ∀ n, 1 ≤ outN ns n → GoodRank ns n (rankRound K (ns.map fun e => (e.1, (F64.ofNat e.2 : F))) words v n) := by
  unfold rankRound
  induction words generalizing v with
  | nil => exact hv
  | cons a words ih =>
    rw [List.foldl_cons]
    refine ih (fun n hn => hw n (by simp [hn])) ?_
    intro n hn
    by_cases h : n = a
    · subst h
      rw [Function.update_self]
      exact rankNew_good hp hs hK (fun p hp' => hv _ ((nbrs_pos hp p hp').trans (le_outN (n := n) (b := p.1) (c := p.2) hp'))) hn
    · rw [Function.update_of_ne h]; exact hv n hn

theorem rankValue_good_iter {ns : List ((Bytes × Bytes) × Nat)} (hp : ∀ e ∈ ns, 1 ≤ e.2) (hs : ∀ n, outN ns n ≤ 2 ^ 41) {K : RankConst F}
    (hK : RankConstOK K) (words : List Bytes) (hw : ∀ n ∈ words, 1 ≤ outN ns n) (h0 : words ≠ []) (hl : words.length ≤ 2 ^ 42) (x : Nat) :
    ∀ n, 1 ≤ outN ns n → GoodRank ns n ((rankRound K (ns.map fun e => (e.1, (F64.ofNat e.2 : F))) words)^[x]
      (fun _ => F64.div (F64.ofNat 1) (F64.ofNat words.length)) n) := by
  have start : ∀ n, 1 ≤ outN ns n → GoodRank ns n (F64.div (F64.ofNat 1 : F) (F64.ofNat words.length)) := by
    intro n hn
    have hl0 := List.length_pos_of_ne_nil h0
    have hlq : (1 : ℚ) ≤ words.length := by exact_mod_cast hl0
    have hlq2 : (words.length : ℚ) ≤ 2 ^ 42 := by exact_mod_cast hl
    have hnq : (1 : ℚ) ≤ outN ns n := by exact_mod_cast hn
    obtain ⟨f1, v1⟩ := F64Round.ofNat_val (F := F) 1 (by omega)
    obtain ⟨f2, v2⟩ := F64Round.ofNat_val (F := F) words.length (hl.trans (by norm_num))
    have q0 : (1 : ℚ) / 2 ^ 42 ≤ 1 / words.length := by gcongr
    have q1 : (1 : ℚ) / words.length ≤ 1 := by rw [div_le_one (by linarith)]; exact hlq
    obtain ⟨fd, vd⟩ := F64Round.div_val f1 f2 (by rw [v2]; linarith) (by
      rw [v1, v2, Nat.cast_one, abs_of_pos (by positivity)]; exact q1.trans (by norm_num))
    rw [v1, v2, Nat.cast_one] at vd
    obtain ⟨r1, r2⟩ := rnd_rel (F := F) (q := (1 : ℚ) / words.length) (le_trans (by norm_num) q0)
    have hu2 : ulp ≤ 1 / 2 := by unfold ulp; norm_num
    refine ⟨fd, ?_, ?_⟩
    · rw [vd]
      refine le_trans ?_ r1
      calc (1 : ℚ) / 2 ^ 60 ≤ 1 / 2 ^ 42 * (1 - 1 / 2) := by norm_num
        _ ≤ _ := by gcongr
    · rw [vd]
      refine r2.trans ?_
      have : 0 ≤ (1 : ℚ) / words.length := by positivity
      have := ulp_pos
      nlinarith
  have key : ∀ (x : Nat) (v : Bytes → F), (∀ n, 1 ≤ outN ns n → GoodRank ns n (v n)) →
      ∀ n, 1 ≤ outN ns n → GoodRank ns n ((rankRound K (ns.map fun e => (e.1, (F64.ofNat e.2 : F))) words)^[x] v n) := by
    intro x
    induction x with
    | zero => intro v hv; exact hv
    | succ x ih => intro v hv; exact ih _ (rankRound_good hp hs hK words hw hv)
  exact key x _ start

theorem rankValue_good {ns : List ((Bytes × Bytes) × Nat)} (hp : ∀ e ∈ ns, 1 ≤ e.2) (hs : ∀ n, outN ns n ≤ 2 ^ 41) {K : RankConst F}
    (hK : RankConstOK K) (words : List Bytes) (hw : ∀ n ∈ words, 1 ≤ outN ns n) (h0 : words ≠ []) (hl : words.length ≤ 2 ^ 42) :
    ∀ n, 1 ≤ outN ns n → GoodRank ns n (rankValue K (ns.map fun e => (e.1, (F64.ofNat e.2 : F))) words n) :=
  rankValue_good_iter hp hs hK words hw h0 hl 10

theorem word_out {allow : List Bytes} {items : List SegPos} {es : List ((Bytes × Bytes) × F)} (h : IsEdges allow items es) {n v : Bytes}
    (hn : 0 < coCount allow items n v ∨ 0 < coCount allow items v n) : 1 ≤ outN (edgeCounts allow items es) n := by
  have key : ∀ a b, 0 < coCount allow items a b → (n = a ∨ n = b) → 1 ≤ outN (edgeCounts allow items es) n := by
    intro a b hab hn
    have hm : ((a, b), coCount allow items a b) ∈ edgeCounts allow items es :=
      List.mem_map.2 ⟨((a, b), F64.ofNat (coCount allow items a b)), (h.mem a b _).2 ⟨hab, rfl⟩, rfl⟩
    have : ∃ y, (y, coCount allow items a b) ∈ nbrs (edgeCounts allow items es) n := by
      rcases hn with rfl | rfl
      · exact ⟨b, List.mem_flatMap.2 ⟨_, hm, by simp⟩⟩
      · exact ⟨a, List.mem_flatMap.2 ⟨_, hm, by simp⟩⟩
    obtain ⟨y, hy⟩ := this
    exact Nat.le_trans hab (le_outN (nbrs_symm hy))
  rcases hn with hn | hn
  · exact key _ _ hn (.inl rfl)
  · exact key _ _ hn (.inr rfl)

end
end Gse
