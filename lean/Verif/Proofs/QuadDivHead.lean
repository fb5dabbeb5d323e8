import Verif.Proofs.QuadSlDiv
import Verif.Proofs.RenormHead

/-!
# The first component of a Quad quotient
-/

namespace Verif

open F64 Prim Util Quad

set_option maxHeartbeats 4000000 in
/-- The second component of a quotient is at most half a unit in the last place of the first, or hardly more. -/
theorem div_head {a b : Quad} {A β W : ℚ} (oa : QS a (1 / 2 ^ 49) (A / 2 ^ 141)) (hA : |U a.c0| ≤ A) (ob : DB b)
    (hβ : |U b.c0| / one' = β) (hW : W * |U b.c0| = A * one') (hq : 100 * A * one' ≤ lim * |U b.c0|)
    (hA0 : 2 ^ 250 ≤ A) (hβA : β * 2 ^ 250 ≤ A) (hA1 : 2 * A ≤ one' * 2 ^ 170) (hA2 : 10 ^ 16 * A ≤ (lim : ℚ)) (hA3 : A ≤ 2 * |U a.c0|) :
    2 * |U (a / b).c1| ≤ 2 ^ expo ((a / b).c0.units : ℚ) + W / 2 ^ 70 := by
  have op := one'_posQ
  have bp := ob.pos
  have hb := ob.nz
  have hβ0 : 0 ≤ β := by rw [← hβ]; positivity
  obtain ⟨X0, hX0⟩ : ∃ X0, |U a.c0| = X0 := ⟨_, rfl⟩
  have nX0 : 0 ≤ X0 := by rw [← hX0]; exact abs_nonneg _
  rw [hX0] at hA hA3
  have hscale : ∀ X : ℚ, X ≤ 100 * A → X * one' ≤ lim * |U b.c0| := fun X h =>
    (mul_le_mul_of_nonneg_right h op.le).trans hq
  obtain ⟨fq0, l0, _, p0, z0⟩ := dquot_db oa (by linarith) ob hX0.le hβ (hscale _ (by linarith))
  obtain ⟨Q1, e1, b1⟩ := dround_db (Y := X0 * (1 + 1 / 2 ^ 52) + β) oa ob hX0.le hβ (hscale _ (by linarith)) le_rfl (by linarith)
    (by linarith) (by linarith) (by linarith)
  have hdiv : a / b = Quad.div a b := rfl
  rw [hdiv]
  unfold Quad.div
  rw [qdiv_main (Is.of_finite oa.f0) (Is.of_finite ob.f0) hb]
  dsimp only
  rw [hX0] at l0
  have l0' : X0 * (1 - 1 / 2 ^ 53) - β / 2 ≤ |pq b.c0.units (F64.div a.c0 b.c0).units| := by
    have := abs_sub_abs_le_abs_sub (U a.c0) (pq b.c0.units (F64.div a.c0 b.c0).units)
    rw [abs_sub_comm (U a.c0), hX0] at this
    linarith
  rw [pq_abs, le_div_iff₀ op] at l0'
  change _ ≤ |U b.c0| * |U (F64.div a.c0 b.c0)| at l0'
  clear l0
  generalize F64.div a.c0 b.c0 = q0 at *
  generalize a - mulF64 b q0 = r1 at *
  have Q1 := Q1.mono (le_refl (1 / 2 ^ 49)) (η' := A * (101 / 100) / 2 ^ 141) (by linarith)
  have b1 : |U r1.c0| ≤ X0 * (13 / 10) / 2 ^ 47 + A / 2 ^ 128 := by linarith
  have e1 := e1.trans (show _ ≤ 4440 * A / 2 ^ 141 by linarith)
  obtain ⟨fq1, _, _, _, z1⟩ := dquot_db Q1 (by linarith) ob b1 hβ (hscale _ (by linarith))
  obtain ⟨Q2, e2, b2⟩ := dround_db (Y := A * (14 / 10) / 2 ^ 47) Q1 ob b1 hβ (hscale _ (by linarith)) (by linarith) (by linarith)
    (by linarith) (by linarith) (by linarith)
  generalize F64.div r1.c0 b.c0 = q1 at *
  generalize r1 - mulF64 b q1 = r2 at *
  have Q2 := Q2.mono (le_refl (1 / 2 ^ 49)) (η' := A / 2 ^ 169) (by linarith)
  have b2 : |U r2.c0| ≤ A * (17 / 10) / 2 ^ 94 := by linarith
  have e2 := e2.trans (show _ ≤ 4450 * A / 2 ^ 141 by linarith)
  obtain ⟨fq2, _, _, _, z2⟩ := dquot_db Q2 (by linarith) ob b2 hβ (hscale _ (by linarith))
  obtain ⟨Q3, e3, b3⟩ := dround_db (Y := A * (18 / 10) / 2 ^ 94) Q2 ob b2 hβ (hscale _ (by linarith)) (by linarith) (by linarith)
    (by linarith) (by linarith) (by linarith)
  generalize F64.div r2.c0 b.c0 = q2 at *
  generalize r2 - mulF64 b q2 = r3 at *
  have Q3 := Q3.mono (le_refl (1 / 2 ^ 49)) (η' := A / 2 ^ 180) (by linarith)
  have b3 : |U r3.c0| ≤ A / 2 ^ 139 := by linarith
  have e3 := e3.trans (show _ ≤ A / 2 ^ 141 by linarith)
  obtain ⟨fq3, _, _, _, z3⟩ := dquot_db Q3 (by linarith) ob b3 hβ (hscale _ (by linarith))
  obtain ⟨Q4, e4, b4⟩ := dround_db (Y := A / 2 ^ 138) Q3 ob b3 hβ (hscale _ (by linarith)) (by linarith) (by linarith)
    (by linarith) (by linarith) (by linarith)
  generalize F64.div r3.c0 b.c0 = q3 at *
  generalize r3 - mulF64 b q3 = r4 at *
  have Q4 := Q4.mono (le_refl (1 / 2 ^ 49)) (η' := A / 2 ^ 180) (by linarith)
  have b4 : |U r4.c0| ≤ A / 2 ^ 160 := by linarith
  have e4 := e4.trans (show _ ≤ A / 2 ^ 141 by linarith)
  obtain ⟨fq4, _, _, p4, z4⟩ := dquot_db Q4 (by linarith) ob b4 hβ (hscale _ (by linarith))
  have p4 := p4.trans (show _ ≤ A / 2 ^ 150 by linarith)
  generalize F64.div r4.c0 b.c0 = q4 at *
  clear Q1 Q2 Q3 Q4 b1 b2 b3 b4
  -- the quotient digits in units of `W`
  have hAn : 0 ≤ A := by linarith
  have hW0 : 0 ≤ W := by
    by_contra h
    push Not at h
    have := mul_neg_of_neg_of_pos h bp
    have := mul_nonneg hAn op.le
    linarith
  obtain ⟨w, hw⟩ : ∃ w, w * |U b.c0| = X0 * one' := ⟨X0 * one' / |U b.c0|, by field_simp⟩
  have hwW : w ≤ W := by
    refine le_of_mul_le_mul_right ?_ bp
    rw [hw, hW]
    exact mul_le_mul_of_nonneg_right hA op.le
  have hw0 : 0 ≤ w := by
    by_contra h
    push Not at h
    have := mul_neg_of_neg_of_pos h bp
    have := mul_nonneg nX0 op.le
    linarith
  have size : ∀ {q : F64} {c d y : ℚ}, |U q| * |U b.c0| ≤ y * one' → y ≤ c * X0 + d * A → |U q| ≤ c * w + d * W := by
    intro q c d y h1 h2
    have h3 : |U q| * |U b.c0| ≤ (c * w + d * W) * |U b.c0| := by
      rw [add_mul, mul_assoc, hw, mul_assoc, hW, ← mul_assoc, ← mul_assoc, ← add_mul]
      exact h1.trans (mul_le_mul_of_nonneg_right h2 op.le)
    exact le_of_mul_le_mul_right h3 bp
  have w0 := size (c := 1 + 1 / 2 ^ 52) (d := 1 / 2 ^ 200) z0 (by linarith)
  have w1 := size (c := 14 / 10 / 2 ^ 47) (d := 2 / 2 ^ 128) z1 (by linarith)
  have w2 := size (c := 0) (d := 18 / 10 / 2 ^ 94) z2 (by linarith)
  have w3 := size (c := 0) (d := 1 / 2 ^ 138) z3 (by linarith)
  have w4 := size (c := 0) (d := 1 / 2 ^ 150) z4 (by linarith)
  rw [zero_mul, zero_add] at w2 w3 w4
  have w0' : w * (1 - 1 / 2 ^ 53) - W / 2 ^ 200 ≤ |U q0| := by
    refine le_of_mul_le_mul_right ?_ bp
    have e : (w * (1 - 1 / 2 ^ 53) - W / 2 ^ 200) * |U b.c0| = (X0 * (1 - 1 / 2 ^ 53) - A / 2 ^ 200) * one' := by
      rw [sub_mul, mul_right_comm, hw, div_mul_eq_mul_div, hW]; ring
    rw [e, mul_comm |U q0|]
    refine le_trans (mul_le_mul_of_nonneg_right ?_ op.le) l0'
    linarith
  have hWl : 100 * W ≤ (lim : ℚ) := by
    have : 100 * W * |U b.c0| ≤ lim * |U b.c0| := by rw [mul_assoc, hW, ← mul_assoc]; exact hq
    exact le_of_mul_le_mul_right this bp
  have n0 := abs_nonneg (U q0)
  have n1 := abs_nonneg (U q1)
  have n2 := abs_nonneg (U q2)
  have n3 := abs_nonneg (U q3)
  have n4 := abs_nonneg (U q4)
  have hwW2 : W ≤ 2 * w := by
    refine le_of_mul_le_mul_right ?_ bp
    rw [mul_assoc, hw, hW, ← mul_assoc]
    exact mul_le_mul_of_nonneg_right hA3 op.le
  have R := renorm5_head (M := W * (9 / 10)) (a := q0) (b := q1) (c := q2) (d := q3) (e := q4) ⟨fq0, by linarith⟩ (by linarith)
    ⟨fq1, by linarith⟩ ⟨fq2, by linarith⟩ ⟨fq3, by linarith⟩ ⟨fq4, by linarith⟩ (by linarith)
  change 2 * |U (renorm5 q0 q1 q2 q3 q4).2.1| ≤ 2 ^ expo ((renorm5 q0 q1 q2 q3 q4).1.units : ℚ) + _
  refine R.trans ?_
  linarith

end Verif
