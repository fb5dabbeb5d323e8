import Verif.Props.TypesAgree
import Verif.Props.QuadOrder
import Verif.Props.QuadInts
import Verif.Props.Ints
import Verif.Props.Order
import Verif.Props.QuadHyper
import Verif.Props.Hyper

/-!
# C97, continued: comparison, conversion from integers, quotients, hyperbolic cosine
-/

namespace Verif

open F64 Prim Util

/-- **C97.** Comparing two Doubles and comparing two Quads of the same values gives the same answer. -/
theorem C97_compare (a b : Double) (A B : Quad) (ha : a.Normalized) (hb : b.Normalized) (hA : A.StrictlyNormalized)
    (hB : B.StrictlyNormalized) (e1 : A.val = a.val) (e2 : B.val = b.val) : Double.partialCmp a b = Quad.partialCmp A B := by
  rw [C12_partialCmp a b ha hb, C53_compare_partial A B hA hB, e1, e2]

/-- **C97.** Converting an `i64` to a Double and to a Quad gives the same number, and so does converting a `u64`. -/
theorem C97_ints (n : ℤ) (m : ℕ) (h1 : -2 ^ 63 ≤ n) (h2 : n < 2 ^ 63) (h3 : m < 2 ^ 64) :
    (Double.ofI64 n).val = (Quad.ofI64 n).val ∧ (Double.ofU64 m).val = (Quad.ofU64 m).val := by
  rw [(C15_i64 n h1 h2).2, (C16_i64 n h1 h2).2, (C15_u64 m h3).2, (C16_u64 m h3).2]
  exact ⟨rfl, rfl⟩

/-- A quotient of two exactly known Quads. -/
theorem qa_div0 {a b : Quad} (ha : a.Normalized) (hb : b.Normalized) (h1 : 1 ≤ |qv a| * 2 ^ 75) (h2 : |qv a| ≤ 2 ^ 75)
    (h3 : 1 ≤ |qv b| * 2 ^ 75) (h4 : |qv b| ≤ 2 ^ 75) :
    QA (a / b) (qv a / qv b) (|qv a / qv b| / 2 ^ 126) (|qv a / qv b| * (1 + 1 / 2 ^ 36)) := by
  have A0 := abs_nonneg (qv a)
  have B0 := abs_nonneg (qv b)
  have hB : 0 < |qv b| := by
    rcases lt_or_eq_of_le B0 with h | h
    · exact h
    · rw [← h, zero_mul] at h3; exact absurd h3 (by norm_num)
  have hT : |qv a / qv b| * |qv b| = |qv a| := by rw [abs_div]; field_simp
  have H : (2:ℝ) ^ 230 ≤ ((hugeQ : ℚ) : ℝ) := by
    have : (2:ℚ) ^ 230 ≤ hugeQ := by rw [hugeQ_eq]; norm_num
    exact_mod_cast this
  have big : ∀ {x y : ℝ}, 0 ≤ y → x ≤ y * 2 ^ 230 → x ≤ y * ((hugeQ : ℚ) : ℝ) := fun hy h => h.trans (mul_le_mul_of_nonneg_left H hy)
  exact (qord_norm ha).exact.div (qord_norm hb).exact (L := |qv b|) (K := |qv a / qv b| * (1 + 1 / 2 ^ 36))
    (g := |qv a / qv b| / 2 ^ 126) hB (by linarith)
    (by norm_num; linarith) (big (by positivity) (by norm_num at h1 ⊢; linarith)) (by norm_num at h2 ⊢; linarith)
    (big (by positivity) (by norm_num at h1 h4 ⊢; linarith)) (big B0 (by norm_num at h2 h3 ⊢; linarith))
    (by
      rw [mul_right_comm |qv a / qv b|, hT, mul_assoc]
      exact mul_le_mul_of_nonneg_left (by norm_num) A0)
    (by
      rw [div_mul_eq_mul_div, hT, mul_zero, add_zero, add_zero]
      clear h1 h2 h3 h4 big H
      norm_num
      linarith)

/-- **C97.** Quotients of Doubles and of Quads with the same values agree within relative `2^-101`. -/
theorem C97_div (a b : Double) (A B : Quad) (ha : a.Normalized) (hb : b.Normalized) (hA : A.Normalized) (hB : B.Normalized)
    (e1 : A.val = a.val) (e2 : B.val = b.val) (h1 : 1 ≤ |a.val| * 2 ^ 75) (h2 : |a.val| ≤ 2 ^ 75)
    (h3 : 1 ≤ |b.val| * 2 ^ 75) (h4 : |b.val| ≤ 2 ^ 75) :
    (a / b).Normalized ∧ (A / B).Fin ∧ |(A / B).val - (a / b).val| ≤ |a.val / b.val| / 2 ^ 101 := by
  have f1 : qv A = rv a := by unfold qv rv; exact_mod_cast e1
  have f2 : qv B = rv b := by unfold qv rv; exact_mod_cast e2
  have k1 : (1:ℝ) ≤ |rv a| * 2 ^ 75 := by unfold rv; exact_mod_cast h1
  have k3 : (1:ℝ) ≤ |rv b| * 2 ^ 75 := by unfold rv; exact_mod_cast h3
  have k2 := rv_le_real h2
  have k4 := rv_le_real h4
  have q := qa_div0 hA hB (by rw [f1]; exact k1) (by rw [f1]; exact k2) (by rw [f2]; exact k3) (by rw [f2]; exact k4)
  rw [f1, f2] at q
  have p := (ap_self ha).div (ap_self hb) (Y := |rv b|) (g := |rv a / rv b| / 2 ^ 102) (by norm_num at k1 ⊢; linarith)
    (by norm_num at k2 ⊢; linarith) (by norm_num at k3 ⊢; linarith) (by linarith) (by norm_num at k4 ⊢; linarith)
    (by rw [mul_zero, add_zero, zero_div, zero_add, add_zero])
  refine ⟨p.1, q.fin, ?_⟩
  have T0 := abs_nonneg (rv a / rv b)
  have q2 := q.err
  have p2 := p.2
  have key : |qv (A / B) - rv (a / b)| ≤ |rv a / rv b| / 2 ^ 101 := by
    clear h1 h2 h3 h4 k1 k2 k3 k4 q p
    generalize |rv a / rv b| = M at *
    exact two_near p2 q2 (by norm_num; linarith)
  unfold qv rv at key
  exact_mod_cast key

/-- **C97.** Hyperbolic cosines of a Double and of a Quad with the same value agree within `(|a| + 13) / 2^102`, relatively. -/
theorem C97_cosh (a : Double) (A : Quad) (ha : a.Normalized) (hA : A.Normalized) (hv : A.val = a.val) (h : |a.val| ≤ 469) :
    ∃ r R, Double.cosh a = some r ∧ Quad.cosh A = some R ∧ r.Normalized ∧ R.Fin ∧
      |(R.val : ℝ) - (r.val : ℝ)| ≤ (|(a.val : ℝ)| + 13) / 2 ^ 102 * Real.cosh (a.val : ℝ) := by
  have hR : |(a.val : ℝ)| ≤ 469 := by exact_mod_cast h
  obtain ⟨r, r1, r2, r3⟩ := C69_cosh a ha (h.trans (by norm_num))
  obtain ⟨R, R1, R2, R3⟩ := C77_quad_cosh A hA (by rw [hv]; exact hR)
  refine ⟨r, R, r1, R1, r2, R2, ?_⟩
  rw [hv] at R3
  refine two_near r3 R3 ?_
  rw [← add_mul]
  refine mul_le_mul_of_nonneg_right ?_ (Real.cosh_pos _).le
  have := abs_nonneg (a.val : ℝ)
  norm_num
  linarith

/-! ## The hypotheses can be met -/

example : (Double.ofI64 (-9007199254740993)).val = (Quad.ofI64 (-9007199254740993)).val :=
  (C97_ints (-9007199254740993) 0 (by norm_num) (by norm_num) (by norm_num)).1

example : |(quadOfPi / quadOfE).val - (Double.PI / Double.E).val| ≤ |Double.PI.val / Double.E.val| / 2 ^ 101 :=
  (C97_div Double.PI Double.E quadOfPi quadOfE (by decide +kernel) (by decide +kernel) (by decide +kernel) (by decide +kernel)
    quadOfPi_val quadOfE_val (by decide +kernel) (by decide +kernel) (by decide +kernel) (by decide +kernel)).2.2

example : ∃ r R, Double.cosh Double.PI = some r ∧ Quad.cosh quadOfPi = some R := by
  obtain ⟨r, R, h1, h2, -⟩ := C97_cosh Double.PI quadOfPi (by decide +kernel) (by decide +kernel) quadOfPi_val (by decide +kernel)
  exact ⟨r, R, h1, h2⟩

example : Double.partialCmp ⟨F64.ofDec false 3 0, F64.powi Double.two (-60)⟩ ⟨F64.ofDec false 3 0, F64.neg (F64.powi Double.two (-60))⟩ =
    Quad.partialCmp ⟨F64.ofDec false 3 0, F64.powi Double.two (-60), F64.zero, F64.zero⟩
      ⟨F64.ofDec false 3 0, F64.neg (F64.powi Double.two (-60)), F64.zero, F64.zero⟩ := by
  have h3 : Is (F64.ofDec false 3 0) (3 * one') := ⟨by decide +kernel, by decide +kernel⟩
  have hs : Is (F64.powi Double.two (-60)) (2 ^ 1014) := ⟨by decide +kernel, by decide +kernel⟩
  have k1 : (2:ℤ) ^ 1023 ∣ 3 * one' := ⟨3 * 2 ^ 51, by decide +kernel⟩
  have k2 : (2:ℤ) ^ (52 + 1023) < |3 * one'| := by decide +kernel
  exact C97_compare _ _ _ _ (by decide +kernel) (by decide +kernel) (strict_of_norm h3 hs k1 k2 (by decide +kernel))
    (strict_of_norm h3 hs.neg k1 k2 (by decide +kernel)) (by decide +kernel) (by decide +kernel)

end Verif
