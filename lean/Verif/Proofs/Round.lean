import Mathlib.Tactic.Ring
import Mathlib.Tactic.Linarith
import Mathlib.Tactic.NormNum
import Mathlib.Tactic.Positivity
import Mathlib.Tactic.GCongr
import Mathlib.Tactic.FieldSimp
import Mathlib.Algebra.Order.Field.Basic
import Verif.Spec.Round

/-! # Rounding: bounds -/

namespace Gse

variable {F : Type} [F64 F] [F64Round F]

/-- Twice the relative error. -/
def ulp : ℚ := 1 / 2 ^ 52

theorem ulp_pos : 0 < ulp := by unfold ulp; positivity

theorem rnd_rel {q : ℚ} (h : 1 / 2 ^ 200 ≤ q) :
    q * (1 - ulp) ≤ F64Round.rnd F q ∧ F64Round.rnd F q ≤ q * (1 + ulp) := by
  have h0 : 0 < q := lt_of_lt_of_le (by positivity) h
  have h1 := F64Round.rnd_err (F := F) q
  rw [abs_of_pos h0] at h1
  have h2 : (1 : ℚ) / 2 ^ 253 ≤ q / 2 ^ 53 := by
    calc (1 : ℚ) / 2 ^ 253 ≤ (1 / 2 ^ 200) / 2 ^ 53 := by norm_num
      _ ≤ q / 2 ^ 53 := by gcongr
  have h3 : q / 2 ^ 53 + q / 2 ^ 53 = q * ulp := by unfold ulp; ring
  rw [abs_le] at h1
  constructor <;> linarith [h1.1, h1.2]

theorem rnd_nonneg {q : ℚ} (h : 0 ≤ q) : 0 ≤ F64Round.rnd F q := by
  rw [← F64Round.rnd_zero (F := F)]; exact F64Round.rnd_mono h

theorem rnd_half {q : ℚ} (h : 1 / 2 ^ 200 ≤ q) : q / 2 ≤ F64Round.rnd F q ∧ F64Round.rnd F q ≤ 2 * q := by
  have h0 : 0 < q := lt_of_lt_of_le (by positivity) h
  obtain ⟨h1, h2⟩ := rnd_rel (F := F) h
  have hu2 : ulp ≤ 1 / 2 := by unfold ulp; norm_num
  constructor <;> nlinarith

theorem rnd_pos {q : ℚ} (h : 1 / 2 ^ 200 ≤ q) : 0 < F64Round.rnd F q := by
  have h0 : 0 < q := lt_of_lt_of_le (by positivity) h
  have := (rnd_rel (F := F) h).1
  have h1 : 0 < q * (1 - ulp) := mul_pos h0 (by unfold ulp; norm_num)
  linarith

theorem rnd_neg {q : ℚ} (h : 1 / 2 ^ 200 ≤ -q) : F64Round.rnd F q ≤ q / 2 ∧ 2 * q ≤ F64Round.rnd F q := by
  have h0 : q < 0 := by have : (0 : ℚ) < 1 / 2 ^ 200 := by positivity
                        linarith
  have h1 := F64Round.rnd_err (F := F) q
  rw [abs_of_neg h0] at h1
  have h2 : (1 : ℚ) / 2 ^ 253 ≤ -q / 2 ^ 53 := by
    calc (1 : ℚ) / 2 ^ 253 ≤ (1 / 2 ^ 200) / 2 ^ 53 := by norm_num
      _ ≤ -q / 2 ^ 53 := by gcongr
  rw [abs_le] at h1
  have h3 : -q / 2 ^ 53 ≤ -q / 4 := by
    have : 0 < -q := by linarith
    gcongr; norm_num
  constructor <;> linarith [h1.1, h1.2]

theorem rnd_rel_neg {q : ℚ} (h : q ≤ -(1 / 2 ^ 200)) :
    q * (1 + ulp) ≤ F64Round.rnd F q ∧ F64Round.rnd F q ≤ q * (1 - ulp) := by
  have h0 : q < 0 := by have : (0 : ℚ) < 1 / 2 ^ 200 := by positivity
                        linarith
  have h1 := F64Round.rnd_err (F := F) q
  rw [abs_of_neg h0] at h1
  have h2 : (1 : ℚ) / 2 ^ 253 ≤ -q / 2 ^ 53 := by
    calc (1 : ℚ) / 2 ^ 253 ≤ (1 / 2 ^ 200) / 2 ^ 53 := by norm_num
      _ ≤ -q / 2 ^ 53 := by gcongr; linarith
  have h3 : -q / 2 ^ 53 + -q / 2 ^ 53 = -q * ulp := by unfold ulp; ring
  rw [abs_le] at h1
  constructor <;> linarith [h1.1, h1.2]

/-- A gap survives rounding. -/
theorem rnd_gap {p q g : ℚ} (hp : 1 / 2 ^ 200 ≤ p) (h8 : 8 * ulp ≤ g) (hg : g ≤ 1) (h : p * (1 + 2 * g) ≤ q) :
    F64Round.rnd F p * (1 + g) ≤ F64Round.rnd F q := by
  have hu := ulp_pos
  have hu2 : ulp ≤ 1 / 2 := by unfold ulp; norm_num
  have p0 : 0 < p := lt_of_lt_of_le (by positivity) hp
  have hq : p ≤ q := by nlinarith
  have r1 := (rnd_rel (F := F) hp).2
  have r2 := (rnd_rel (F := F) (hp.trans hq)).1
  calc F64Round.rnd F p * (1 + g) ≤ p * (1 + ulp) * (1 + g) := by gcongr; linarith
    _ = p * ((1 + ulp) * (1 + g)) := by ring
    _ ≤ p * ((1 + 2 * g) * (1 - ulp)) := by
      apply mul_le_mul_of_nonneg_left _ p0.le
      nlinarith
    _ = p * (1 + 2 * g) * (1 - ulp) := by ring
    _ ≤ q * (1 - ulp) := by gcongr; linarith
    _ ≤ _ := r2

theorem rnd_lt {p q g : ℚ} (hp : 1 / 2 ^ 200 ≤ p) (h8 : 8 * ulp ≤ g) (h : p * (1 + g) ≤ q) :
    F64Round.rnd F p < F64Round.rnd F q := by
  have hu := ulp_pos
  have hu2 : ulp ≤ 1 / 2 := by unfold ulp; norm_num
  have p0 : 0 < p := lt_of_lt_of_le (by positivity) hp
  have hq : p ≤ q := by nlinarith
  have r1 := (rnd_rel (F := F) hp).2
  have r2 := (rnd_rel (F := F) (hp.trans hq)).1
  calc F64Round.rnd F p ≤ p * (1 + ulp) := r1
    _ < p * ((1 + g) * (1 - ulp)) := by
      apply mul_lt_mul_of_pos_left _ p0
      nlinarith
    _ = p * (1 + g) * (1 - ulp) := by ring
    _ ≤ q * (1 - ulp) := by gcongr; linarith
    _ ≤ _ := r2

theorem rnd_lt_neg {p q g : ℚ} (hp : p ≤ -(1 / 2 ^ 200)) (h8 : 8 * ulp ≤ g) (h : q ≤ p * (1 + g)) :
    F64Round.rnd F q < F64Round.rnd F p := by
  have hu := ulp_pos
  have hu2 : ulp ≤ 1 / 2 := by unfold ulp; norm_num
  have p0 : p < 0 := by have : (0 : ℚ) < 1 / 2 ^ 200 := by positivity
                        linarith
  have hq : q ≤ p := by nlinarith
  have r1 := (rnd_rel_neg (F := F) hp).1
  have r2 := (rnd_rel_neg (F := F) (hq.trans hp)).2
  calc F64Round.rnd F q ≤ q * (1 - ulp) := r2
    _ ≤ p * (1 + g) * (1 - ulp) := by
      apply mul_le_mul_of_nonneg_right h; linarith
    _ = p * ((1 + g) * (1 - ulp)) := by ring
    _ < p * (1 + ulp) := by
      apply mul_lt_mul_of_neg_left _ p0
      nlinarith
    _ ≤ _ := r1

theorem rnd_abs {q : ℚ} (h0 : 0 ≤ q) (h1 : q ≤ 16) : q - 1 / 2 ^ 40 ≤ F64Round.rnd F q ∧ F64Round.rnd F q ≤ q + 1 / 2 ^ 40 := by
  have h := F64Round.rnd_err (F := F) q
  rw [abs_of_nonneg h0, abs_le] at h
  have h2 : q / 2 ^ 53 + 1 / 2 ^ 253 ≤ 1 / 2 ^ 40 := by
    calc q / 2 ^ 53 + 1 / 2 ^ 253 ≤ 16 / 2 ^ 53 + 1 / 2 ^ 253 := by gcongr
      _ ≤ 1 / 2 ^ 40 := by norm_num
  constructor <;> linarith [h.1, h.2]

/-- Small nonnegative sums, products and quotients are nearly exact. -/
theorem add_near {x y : F} (fx : F64Round.fin x) (fy : F64Round.fin y) (x0 : 0 ≤ F64Round.val x) (y0 : 0 ≤ F64Round.val y)
    (h : F64Round.val x + F64Round.val y ≤ 16) :
    F64Round.fin (F64.add x y) ∧ 0 ≤ F64Round.val (F64.add x y) ∧ F64Round.val x + F64Round.val y - 1 / 2 ^ 40 ≤ F64Round.val (F64.add x y) ∧
      F64Round.val (F64.add x y) ≤ F64Round.val x + F64Round.val y + 1 / 2 ^ 40 := by
  have h0 := add_nonneg x0 y0
  obtain ⟨f, v⟩ := F64Round.add_val fx fy (by rw [abs_of_nonneg h0]; exact h.trans (by norm_num))
  rw [v]
  exact ⟨f, rnd_nonneg h0, (rnd_abs h0 h).1, (rnd_abs h0 h).2⟩

theorem mul_near {x y : F} (fx : F64Round.fin x) (fy : F64Round.fin y) (x0 : 0 ≤ F64Round.val x) (y0 : 0 ≤ F64Round.val y)
    (h : F64Round.val x * F64Round.val y ≤ 16) :
    F64Round.fin (F64.mul x y) ∧ 0 ≤ F64Round.val (F64.mul x y) ∧ F64Round.val x * F64Round.val y - 1 / 2 ^ 40 ≤ F64Round.val (F64.mul x y) ∧
      F64Round.val (F64.mul x y) ≤ F64Round.val x * F64Round.val y + 1 / 2 ^ 40 := by
  have h0 := mul_nonneg x0 y0
  obtain ⟨f, v⟩ := F64Round.mul_val fx fy (by rw [abs_of_nonneg h0]; exact h.trans (by norm_num))
  rw [v]
  exact ⟨f, rnd_nonneg h0, (rnd_abs h0 h).1, (rnd_abs h0 h).2⟩

theorem ratio_near {c o : Nat} (hc : c ≤ 16) (ho0 : 0 < o) (ho : o ≤ 16) :
    F64Round.fin (F64.div (F64.ofNat c : F) (F64.ofNat o)) ∧ 0 ≤ F64Round.val (F64.div (F64.ofNat c : F) (F64.ofNat o)) ∧
      (c : ℚ) / o - 1 / 2 ^ 40 ≤ F64Round.val (F64.div (F64.ofNat c : F) (F64.ofNat o)) ∧
      F64Round.val (F64.div (F64.ofNat c : F) (F64.ofNat o)) ≤ (c : ℚ) / o + 1 / 2 ^ 40 := by
  obtain ⟨fc, vc⟩ := F64Round.ofNat_val (F := F) c (by omega)
  obtain ⟨fo, vo⟩ := F64Round.ofNat_val (F := F) o (by omega)
  have hoq : (1 : ℚ) ≤ o := by exact_mod_cast ho0
  have hcq : (c : ℚ) ≤ 16 := by exact_mod_cast hc
  have h0 : 0 ≤ (c : ℚ) / o := by positivity
  have h1 : (c : ℚ) / o ≤ 16 := by
    rw [div_le_iff₀ (by linarith)]; linarith
  obtain ⟨f, v⟩ := F64Round.div_val fc fo (by rw [vo]; linarith) (by rw [vc, vo, abs_of_nonneg h0]; exact h1.trans (by norm_num))
  rw [vc, vo] at v
  rw [v]
  exact ⟨f, rnd_nonneg h0, (rnd_abs h0 h1).1, (rnd_abs h0 h1).2⟩

theorem lt_false_iff {x y : F} (hx : F64Round.fin x) (hy : F64Round.fin y) :
    F64.lt x y = false ↔ F64Round.val y ≤ F64Round.val x := by
  rw [← not_lt, ← F64Round.lt_iff hx hy, Bool.not_eq_true]

end Gse
