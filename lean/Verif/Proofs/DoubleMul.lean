import Verif.Proofs.Prod
import Verif.Proofs.Lift

/-!
# Multiplication of Doubles on `F64`
-/

namespace Verif

open F64 Prim Util

theorem quantumQ_ge : (1:ℚ) ≤ quantum := by
  have := quantum_pos
  have h : (1:ℤ) ≤ quantum := by omega
  exact_mod_cast h
theorem lim2Q : (lim2 : ℚ) = 9007199254740992 * quantum := by exact_mod_cast lim2_eq
theorem limQ : (lim : ℚ) = 13510798882111488 * quantum := by exact_mod_cast lim_eq
theorem omegaQ : (omegaUnits : ℚ) = 18014398509481982 * quantum := by exact_mod_cast omega_eq

theorem abs_le_omega_of {n : ℤ} {c : ℚ} (h : |(n : ℚ)| ≤ c) (hc : c ≤ 18014398509481982 * quantum) :
    |n| ≤ omegaUnits := by
  have : |(n : ℚ)| ≤ omegaUnits := by rw [omegaQ]; linarith
  rw [← abs_int_cast] at this
  exact_mod_cast this

theorem abs_add_le_lim {m n : ℤ} {c d : ℚ} (h : |(m : ℚ)| ≤ c) (h' : |(n : ℚ)| ≤ d)
    (hc : c + d ≤ 13510798882111488 * quantum) : |m| + |n| ≤ lim := by
  have : |(m : ℚ)| + |(n : ℚ)| ≤ lim := by rw [limQ]; linarith
  rw [← abs_int_cast, ← abs_int_cast] at this
  exact_mod_cast this

theorem abs_addQ {m n : ℤ} {c d : ℚ} (h : |(m : ℚ)| ≤ c) (h' : |(n : ℚ)| ≤ d) : |((m + n : ℤ) : ℚ)| ≤ c + d := by
  push_cast; exact abs_sum2 h h'

theorem pr_upper (m n : ℤ) : |(pr m n : ℚ)| ≤ |pq m n| * (1 + 1 / 2 ^ 53) + 1 / 2 := by
  have h1 := err_le (pq m n)
  change |pq m n - (pr m n : ℚ)| ≤ _ at h1
  have h2 := tri_l h1
  linarith

theorem pe_upper {m n : ℤ} (hm : Rep m) (hn : Rep n) : |(pe m n : ℚ)| ≤ |pq m n| / 2 ^ 53 + 1 := by
  have h1 := err_le (pq m n)
  change |pq m n - (pr m n : ℚ)| ≤ _ at h1
  have := tri_l (pe_err hm hn)
  linarith

/-- `mul_f64` in units. -/
theorem is_mulF64 {a : Double} {b : F64} {xh xl n : ℤ} (ia : DIs a xh xl) (ib : Is b n) (hx : Norm2 xh xl)
    (hr : |pq xh n| ≤ (lim2 : ℚ)) :
    DIs (Double.mulF64 a b) (rs (pr xh n) (mulFS xh xl n)) (re (pr xh n) (mulFS xh xl n)) ∧
    Norm2 (rs (pr xh n) (mulFS xh xl n)) (re (pr xh n) (mulFS xh xl n)) := by
  have ok := mulF_ok hx ib.rep
  rw [lim2Q] at hr
  have hq := quantumQ_ge
  have hA1 : |pq xl n| ≤ |pq xh n| / 2 ^ 53 := pq_le_left hx.lo_leQ
  have h0 := abs_nonneg (pq xh n)
  have i := is_twoProd ia.1 ib (by rw [omegaQ]; linarith)
  have j := ia.2.mul ib (by change |pq xl n| ≤ _; rw [omegaQ]; linarith)
  change Is _ (pr xl n) at j
  have bE := pe_upper hx.rep_hi ib.rep
  have bT := pr_upper xl n
  have k := i.2.add j (abs_le_omega_of (abs_addQ bE bT) (by linarith))
  change Is _ (mulFS xh xl n) at k
  have bP := pr_upper xh n
  have z := is_quickTwoSum i.1 k ok.1 (abs_add_le_lim bP ok.2.2 (by linarith))
  exact ⟨⟨z.1, z.2⟩, norm2_rs_re' (re_of_grid (rep_rnd _) ok.1)⟩

/-- `Double * Double` in units. -/
theorem is_mulMain {a b : Double} {xh xl yh yl : ℤ} (ia : DIs a xh xl) (ib : DIs b yh yl) (hx : Norm2 xh xl)
    (hy : Norm2 yh yl) (hr : |pq xh yh| ≤ (lim2 : ℚ)) :
    DIs (mulMain a b) (rs (pr xh yh) (mulS xh xl yh yl)) (re (pr xh yh) (mulS xh xl yh yl)) ∧
    Norm2 (rs (pr xh yh) (mulS xh xl yh yl)) (re (pr xh yh) (mulS xh xl yh yl)) := by
  have ok := mul_ok hx hy
  rw [lim2Q] at hr
  have hq := quantumQ_ge
  have hA1 : |pq xl yh| ≤ |pq xh yh| / 2 ^ 53 := pq_le_left hx.lo_leQ
  have hA2 : |pq xh yl| ≤ |pq xh yh| / 2 ^ 53 := by
    rw [pq_comm xh yl, pq_comm xh yh]; exact pq_le_left hy.lo_leQ
  have h0 := abs_nonneg (pq xh yh)
  have i := is_twoProd ia.1 ib.1 (by rw [omegaQ]; linarith)
  have j1 := ia.1.mul ib.2 (by change |pq xh yl| ≤ _; rw [omegaQ]; linarith)
  change Is _ (pr xh yl) at j1
  have j2 := ia.2.mul ib.1 (by change |pq xl yh| ≤ _; rw [omegaQ]; linarith)
  change Is _ (pr xl yh) at j2
  have bE := pe_upper hx.rep_hi hy.rep_hi
  have bT1 := pr_upper xh yl
  have bT2 := pr_upper xl yh
  have k1 := i.2.add j1 (abs_le_omega_of (abs_addQ bE bT1) (by linarith))
  change Is _ (rs (pe xh yh) (pr xh yl)) at k1
  have bS1 : |(rs (pe xh yh) (pr xh yl) : ℚ)| ≤ 3 * |pq xh yh| / 2 ^ 53 + 3 := by
    have := tri_r (rs_errQ (pe xh yh) (pr xh yl))
    have h2 := abs_sum2 bE bT1
    linarith
  have k2 := k1.add j2 (abs_le_omega_of (abs_addQ bS1 bT2) (by linarith))
  change Is _ (mulS xh xl yh yl) at k2
  have bP := pr_upper xh yh
  have z := is_quickTwoSum i.1 k2 ok.1 (abs_add_le_lim bP ok.2.2 (by linarith))
  exact ⟨⟨z.1, z.2⟩, norm2_rs_re' (re_of_grid (rep_rnd _) ok.1)⟩

/-- The result of a multiplication in units, with the error bound. -/
theorem mul_spec {a b : Double} {xh xl yh yl : ℤ} (ia : DIs a xh xl) (ib : DIs b yh yl) (hx : Norm2 xh xl)
    (hy : Norm2 yh yl) (hr : |pq xh yh| ≤ (lim2 : ℚ)) :
    ∃ zh zl, DIs (a * b) zh zl ∧ Norm2 zh zl ∧
      |((zh + zl : ℤ) : ℚ) - exactProd xh xl yh yl| ≤ 9 / 2 ^ 106 * |exactProd xh xl yh yl| + 2 := by
  by_cases h0 : xh = 0
  · subst h0
    have := hx.hi_zero
    subst this
    refine ⟨0, 0, dis_mul_zero_left ia ib.1, norm2_zero_right .zero, ?_⟩
    have : exactProd 0 0 yh yl = 0 := by unfold exactProd pq; simp
    rw [this]; norm_num
  · have z := is_mulMain ia ib hx hy hr
    refine ⟨_, _, (samD_mul_main ia.1 ib.1 h0).dis z.1, z.2, ?_⟩
    rw [rs_add_re]
    have := (mul_ok hx hy).2.1
    push_cast
    exact this

theorem exactProd_val {a b : Double} {xh xl yh yl : ℤ} (ia : DIs a xh xl) (ib : DIs b yh yl) :
    a.val * b.val = exactProd xh xl yh yl / one' := by
  rw [ia.val, ib.val]; unfold exactProd pq
  rw [div_mul_div_comm, div_div]

/-- Lift an error bound with an absolute part of `c` units. -/
theorem lift_abs {Z T k c : ℚ} (h : |Z - T| ≤ k * |T| + c) :
    |Z / one' - T / one'| ≤ k * |T / one'| + c / one' := by
  rw [← sub_div, abs_div, abs_div, abs_of_pos one'_posQ, ← mul_div_assoc, ← add_div]
  exact div_le_div_of_nonneg_right h one'_posQ.le

theorem one'_pow : (one' : ℚ) = 2 ^ 1074 := by unfold one'; push_cast; rfl

theorem range_mul {x y : F64} {m n : ℤ} (hx : Is x m) (hy : Is y n) (h : |x.toRat * y.toRat| ≤ 2 ^ 1023) :
    |pq m n| ≤ (lim2 : ℚ) := by
  rw [hx.toRat, hy.toRat] at h
  have e : pq m n = (m : ℚ) / one' * ((n : ℚ) / one') * one' := by
    unfold pq; have := one'_ne; field_simp
  rw [e, abs_mul, abs_of_pos one'_posQ, lim2_one']
  push_cast
  exact mul_le_mul_of_nonneg_right h one'_posQ.le

end Verif
