import Verif.Proofs.QuadSqrtOf

/-!
# The square root of a Quad that is the result of a cancellation

`K` is the ratio of the slack scale to the value.
-/

namespace Verif

open F64 Prim Util Quad

/-- One step. -/
theorem qsqrt_stepK {a r : Quad} {A R δ K : ℝ} (K1 : 101 / 100 ≤ K) (K2 : K ≤ 69 / 10)
    (ha : QA (mulPwr2 a Double.half) (A / 2) (A / 2 ^ 180) (A * (K * (501 / 1000))))
    (hr : QA r R (R * δ) (R * (26 / 25)))
    (hR : 0 < R) (hAR : A * (R * R) = 1) (h1 : 1 ≤ R * 2 ^ 210 * 2 ^ 208) (h2 : R ≤ 2 ^ 225 * 2 ^ 220) (d0 : 0 ≤ δ) (hδ : δ ≤ 1 / 2 ^ 45) :
    QA (r + (⟨Double.half, F64.zero, F64.zero, F64.zero⟩ - mulPwr2 a Double.half * r.sqr) * r) R
      (R * (16 / 10 * δ ^ 2 + (53 / 100 * K + 105 / 100) / 2 ^ 128)) (R * (101 / 100)) := by
  have hA : 0 < A := by
    by_contra hc
    have : A * (R * R) ≤ 0 := mul_nonpos_of_nonpos_of_nonneg (not_lt.mp hc) (by positivity)
    linarith
  obtain ⟨ρ, hρ⟩ : ∃ ρ, ρ = qv r := ⟨_, rfl⟩
  have he := hr.err
  have h0 : QA r ρ 0 (R * (26 / 25)) := ⟨hr.sz, by rw [hρ]; simp⟩
  rw [← hρ] at he
  obtain ⟨ε, hε⟩ : ∃ ε, ρ = R * (1 + ε) := ⟨ρ / R - 1, by field_simp; ring⟩
  have hε1 : |ε| ≤ δ := by
    rw [hε, show R * (1 + ε) - R = R * ε by ring, abs_mul, abs_of_pos hR] at he
    exact le_of_mul_le_mul_left he hR
  have hε2 := abs_le.mp (hε1.trans hδ)
  have hε2' := hε2
  norm_num at hε2'
  have hεs : ε ^ 2 ≤ δ ^ 2 := by rw [← sq_abs]; exact pow_le_pow_left₀ (abs_nonneg _) hε1 2
  have hεs2 : δ ^ 2 ≤ 1 / 2 ^ 45 * (1 / 2 ^ 45) := by rw [sq]; exact mul_le_mul hδ hδ d0 (by positivity)
  have hεs3 : 0 ≤ ε ^ 2 := sq_nonneg _
  have hρ0 : 0 < ρ := by rw [hε]; exact mul_pos hR (by linarith)
  have hρ1 : ρ ≤ R * (1 + 1 / 2 ^ 45) := by rw [hε]; exact mul_le_mul_of_nonneg_left (by linarith) hR.le
  have hRR : 0 < R * R := mul_pos hR hR
  have hρ2 : ρ ^ 2 = R * R * (1 + 2 * ε + ε ^ 2) := by rw [hε]; ring
  have hρ3 : ρ ^ 2 ≤ R * R * (1 + 1 / 2 ^ 43) := by
    rw [hρ2]; refine mul_le_mul_of_nonneg_left ?_ hRR.le
    norm_num at hεs2 hεs ⊢; linarith
  -- the square
  have q1 : QA r.sqr (ρ ^ 2) (R * R * (109 / 100 / 2 ^ 139)) (R * R * (21 / 20)) := by
    refine h0.sqr ?_ ?_ ?_ ?_ ?_
    · norm_num at h1 ⊢; linarith
    · norm_num at h2 ⊢; linarith
    · clear h1 h2
      rw [show R * (26 / 25) * (R * (26 / 25)) = R * R * (676 / 625) by ring]
      norm_num; linarith
    · linarith
    · clear h1 h2
      rw [show R * (26 / 25) * (R * (26 / 25)) = R * R * (676 / 625) by ring]
      norm_num at hρ3 ⊢; linarith
  have hl : 1 ≤ 27 / 100 * K * (R * (26 / 25)) * (2 ^ 210 * 2 ^ 210 * (2 ^ 210 * 2 ^ 210)) := by
    have RK : R * 1 ≤ R * K := mul_le_mul_of_nonneg_left (by linarith) hR.le
    rw [show 27 / 100 * K * (R * (26 / 25)) = R * K * (27 / 100 * (26 / 25)) by ring]
    norm_num at h1 RK ⊢; linarith
  have hu : R * (26 / 25) ≤ 2 ^ 225 * 2 ^ 225 * 2 ^ 225 * 2 ^ 225 := by
    norm_num at h2 ⊢; linarith
  have hu2 : 27 / 100 * K * (R * (26 / 25)) ≤ 2 ^ 225 * 2 ^ 225 * 2 ^ 225 * 2 ^ 225 := by
    have RK : R * K ≤ R * (69 / 10) := mul_le_mul_of_nonneg_left (by linarith) hR.le
    rw [show 27 / 100 * K * (R * (26 / 25)) = R * K * (27 / 100 * (26 / 25)) by ring]
    norm_num at h2 RK ⊢; linarith
  clear h1 h2
  -- the product with a/2
  have hAρ : A / 2 * ρ ^ 2 = (1 + 2 * ε + ε ^ 2) / 2 := by
    rw [hρ2, show A / 2 * (R * R * (1 + 2 * ε + ε ^ 2)) = A * (R * R) * ((1 + 2 * ε + ε ^ 2) / 2) by ring, hAR, one_mul]
  have K0 : 0 < K := by linarith
  have q2 : QA (mulPwr2 a Double.half * r.sqr) (A / 2 * ρ ^ 2) (12 / 10 * K / 2 ^ 139) (51 / 100 * K) := by
    refine ha.mulW q1 (mul_pos hA (by positivity)) (mul_pos hRR (by norm_num)) ?_ ?_ ?_ ?_ ?_
    · rw [show A * (K * (501 / 1000)) * (R * R * (21 / 20)) = A * (R * R) * (K * (10521 / 20000)) by ring, hAR]; norm_num; linarith
    · rw [show A * (K * (501 / 1000)) * (R * R * (21 / 20)) = A * (R * R) * (K * (10521 / 20000)) by ring, hAR]; norm_num; linarith
    · rw [show A * (K * (501 / 1000)) * (R * R * (21 / 20)) = A * (R * R) * (K * (10521 / 20000)) by ring, abs_of_pos (by linarith : 0 < A / 2),
        abs_of_nonneg (sq_nonneg ρ), show A / 2 * (R * R * (109 / 100 / 2 ^ 139)) = A * (R * R) * (109 / 200 / 2 ^ 139) by ring,
        show ρ ^ 2 * (A / 2 ^ 180) = A / 2 * ρ ^ 2 * (1 / 2 ^ 179) by ring,
        show A / 2 ^ 180 * (R * R * (109 / 100 / 2 ^ 139)) = A * (R * R) * (109 / 100 / 2 ^ 139 / 2 ^ 180) by ring, hAρ, hAR]
      norm_num at hεs2 hεs ⊢; linarith
    · rw [show A * (K * (501 / 1000)) * (R * R * (21 / 20)) = A * (R * R) * (K * (10521 / 20000)) by ring, hAR]; norm_num; linarith
    · rw [show A * (K * (501 / 1000)) * (R * R * (21 / 20)) = A * (R * R) * (K * (10521 / 20000)) by ring, hAR, hAρ,
        abs_of_nonneg (by linarith)]
      norm_num at hεs2 hεs ⊢; linarith
  -- the residual
  have hd : 1 / 2 - A / 2 * ρ ^ 2 = -(ε + ε ^ 2 / 2) := by rw [hAρ]; ring
  have hd1 : |1 / 2 - A / 2 * ρ ^ 2| ≤ 1 / 2 ^ 44 := by
    rw [hd, abs_neg, abs_le]
    norm_num at hεs2 hεs ⊢; constructor <;> linarith
  have q3 : QA (⟨Double.half, F64.zero, F64.zero, F64.zero⟩ - mulPwr2 a Double.half * r.sqr) (1 / 2 - A / 2 * ρ ^ 2)
      (511 / 1000 * K / 2 ^ 128) (27 / 100 * K) := by
    refine qa_half.sub q2 (Z := 51 / 100 * K) (by linarith) le_rfl (by norm_num; linarith) (by norm_num; linarith) (by linarith) ?_
    norm_num at hd1 ⊢; linarith
  -- times r
  have q4 : QA ((⟨Double.half, F64.zero, F64.zero, F64.zero⟩ - mulPwr2 a Double.half * r.sqr) * r) ((1 / 2 - A / 2 * ρ ^ 2) * ρ)
      (R * (512 / 1000 * K / 2 ^ 128)) (R * (15 / 100 * K)) := by
    have RK : R * 1 ≤ R * K := mul_le_mul_of_nonneg_left (by linarith) hR.le
    have hdρ : |(1 / 2 - A / 2 * ρ ^ 2) * ρ| ≤ 1 / 2 ^ 44 * (R * (1 + 1 / 2 ^ 45)) := by
      rw [abs_mul, abs_of_pos hρ0]
      exact mul_le_mul hd1 hρ1 hρ0.le (by positivity)
    refine q3.mulW h0 (by positivity) (mul_pos hR (by norm_num)) hl hu2 ?_ ?_ ?_
    all_goals clear hl hu hu2
    · rw [abs_of_pos hρ0]
      have hρK := mul_le_mul_of_nonneg_right hρ1 K0.le
      norm_num at hρK ⊢; linarith
    · linarith
    · norm_num at hdρ ⊢; linarith
  have q5 : QA (r + (⟨Double.half, F64.zero, F64.zero, F64.zero⟩ - mulPwr2 a Double.half * r.sqr) * r) (ρ + (1 / 2 - A / 2 * ρ ^ 2) * ρ)
      (R * ((52 / 100 * K + 1041 / 1000) / 2 ^ 128)) (R * (101 / 100)) := by
    have RK : R * 1 ≤ R * K := mul_le_mul_of_nonneg_left (by linarith) hR.le
    have RK2 : R * K ≤ R * (69 / 10) := mul_le_mul_of_nonneg_left (by linarith) hR.le
    have e : ρ + (1 / 2 - A / 2 * ρ ^ 2) * ρ = R * (1 - ε ^ 2 * (3 / 2 + ε / 2)) := by
      rw [hd, hε]; ring
    have h5 : ε ^ 2 * (3 / 2 + ε / 2) ≤ ε ^ 2 * (16 / 10) := mul_le_mul_of_nonneg_left (by linarith) hεs3
    have h6 : 0 ≤ ε ^ 2 * (3 / 2 + ε / 2) := mul_nonneg hεs3 (by linarith)
    refine h0.add q4 (Z := R * (26 / 25)) le_rfl (by linarith) hu ?_ ?_ ?_
    all_goals clear hl hu hu2
    · linarith
    · linarith
    · rw [e, abs_mul, abs_of_pos hR, abs_of_nonneg (by norm_num at hεs2 hεs ⊢; linarith)]
      have h7 : R * (1 - ε ^ 2 * (3 / 2 + ε / 2)) ≤ R * 1 := mul_le_mul_of_nonneg_left (by linarith) hR.le
      norm_num at h7 ⊢; linarith
  have hm : |ρ + (1 / 2 - A / 2 * ρ ^ 2) * ρ - R| ≤ R * (16 / 10 * δ ^ 2) := by
    have e : ρ + (1 / 2 - A / 2 * ρ ^ 2) * ρ - R = R * -(ε ^ 2 * (3 / 2 + ε / 2)) := by
      rw [hd, hε]; ring
    rw [e, abs_mul, abs_of_pos hR, abs_neg, abs_of_nonneg (mul_nonneg hεs3 (by linarith))]
    refine mul_le_mul_of_nonneg_left ?_ hR.le
    calc ε ^ 2 * (3 / 2 + ε / 2) ≤ ε ^ 2 * (16 / 10) := mul_le_mul_of_nonneg_left (by linarith) hεs3
      _ ≤ δ ^ 2 * (16 / 10) := mul_le_mul_of_nonneg_right hεs (by norm_num)
      _ = _ := by ring
  refine (q5.move hm).mono ?_ le_rfl
  rw [← mul_add]
  exact mul_le_mul_of_nonneg_left (by linarith) hR.le

/-- The square root of a Quad that is ordered up to a slack. -/
theorem qsqrt_slack (P : Platform) (hP : FloatText P.toStr) {a : Quad} {A K W : ℝ} (hA : qv a = A) (hz : SZ a (A * K)) (h0 : 0 < A)
    (K1 : 101 / 100 ≤ K) (K2 : K ≤ 69 / 10) (W1 : 101 / 100 ≤ W) (W2 : 52 / 100 * K ≤ W)
    (h1 : 1 ≤ A * (2 ^ 210 * 2 ^ 205 * (2 ^ 210 * 2 ^ 205))) (h2 : A ≤ 2 ^ 210 * 2 ^ 205 * (2 ^ 210 * 2 ^ 205)) :
    ∃ r, Quad.sqrt P a = some r ∧ QA r (Real.sqrt A) (Real.sqrt A * ((53 / 100 * K + 106 / 100) / 2 ^ 128)) (Real.sqrt A * W) := by
  have AK : A * 1 ≤ A * K := mul_le_mul_of_nonneg_left (by linarith) h0.le
  have AK2 : A * K ≤ A * (69 / 10) := mul_le_mul_of_nonneg_left (by linarith) h0.le
  obtain ⟨f0, hc⟩ := sz_sub_c0 hz
  rw [hA] at hc
  have hc0 : |A - fr a.c0| ≤ A * (101 / 100 / 2 ^ 48) := by
    have h3 := abs_sub_abs_le_abs_sub (fr a.c0) A
    rw [abs_sub_comm (fr a.c0), abs_of_pos h0] at h3
    norm_num at hc ⊢; linarith
  have hc1 := abs_le.mp hc0
  have hcp : 0 < fr a.c0 := by norm_num at hc1; linarith [hc1.2]
  have hcp' : 0 < a.c0.toRat := by unfold fr at hcp; exact_mod_cast hcp
  obtain ⟨cl1, cl2, cl3, -⟩ := pos_class f0 hcp'
  -- square roots
  have hS : 0 < Real.sqrt A := Real.sqrt_pos.mpr h0
  have hSS : Real.sqrt A * Real.sqrt A = A := Real.mul_self_sqrt h0.le
  have hSc : |Real.sqrt (fr a.c0) - Real.sqrt A| ≤ Real.sqrt A * (101 / 100 / 2 ^ 48) := by
    have p := Real.sqrt_nonneg (fr a.c0)
    have q := Real.mul_self_sqrt hcp.le
    have e : (Real.sqrt (fr a.c0) - Real.sqrt A) * (Real.sqrt (fr a.c0) + Real.sqrt A) = fr a.c0 - A := by
      rw [show (Real.sqrt (fr a.c0) - Real.sqrt A) * (Real.sqrt (fr a.c0) + Real.sqrt A) =
        Real.sqrt (fr a.c0) * Real.sqrt (fr a.c0) - Real.sqrt A * Real.sqrt A by ring, q, hSS]
    have e2 : |Real.sqrt (fr a.c0) - Real.sqrt A| * (Real.sqrt (fr a.c0) + Real.sqrt A) = |A - fr a.c0| := by
      rw [abs_sub_comm A, ← e, abs_mul, abs_of_pos (show 0 < Real.sqrt (fr a.c0) + Real.sqrt A by linarith)]
    have e3 : |Real.sqrt (fr a.c0) - Real.sqrt A| * Real.sqrt A ≤ Real.sqrt A * (101 / 100 / 2 ^ 48) * Real.sqrt A := by
      refine le_trans (mul_le_mul_of_nonneg_left (by linarith) (abs_nonneg _)) (e2.trans_le (hc0.trans (le_of_eq ?_)))
      conv_lhs => rw [← hSS]
      ring
    exact le_of_mul_le_mul_right e3 hS
  obtain ⟨s1, s2⟩ := fr_sqrt f0 hcp
  have hSu : Real.sqrt A ≤ 2 ^ 210 * 2 ^ 205 := by
    rw [Real.sqrt_le_left (by positivity)]
    rw [sq]; exact h2
  have hSl : 1 ≤ Real.sqrt A * (2 ^ 210 * 2 ^ 205) := by
    by_contra hcon
    have h4 := (not_le.mp hcon).le
    have h5 : Real.sqrt A * (2 ^ 210 * 2 ^ 205) * (Real.sqrt A * (2 ^ 210 * 2 ^ 205)) < 1 * 1 :=
      mul_lt_mul'' (not_le.mp hcon) (not_le.mp hcon) (by positivity) (by positivity)
    have e : Real.sqrt A * (2 ^ 210 * 2 ^ 205) * (Real.sqrt A * (2 ^ 210 * 2 ^ 205)) = A * (2 ^ 210 * 2 ^ 205 * (2 ^ 210 * 2 ^ 205)) := by
      conv_rhs => rw [← hSS]
      ring
    rw [e] at h5
    exact absurd h1 (not_le.mpr (by rw [one_mul] at h5; exact h5))
  have hb : QA (mulPwr2 a Double.half) (A / 2) (A / 2 ^ 180) (A * (K * (501 / 1000))) := by
    have := (QA.mk hz (show |qv a - A| ≤ 0 by rw [hA]; simp)).scale scale_half (by
      clear h1
      norm_num at h2 ⊢; linarith) (by
      clear h2
      norm_num at h1 ⊢; linarith)
    push_cast at this
    rw [one_div_mul_eq_div] at this
    exact this.mono (by clear h1 h2; norm_num; linarith) (by clear h1 h2; norm_num; linarith)
  clear h1 h2
  generalize Real.sqrt A = S at *
  have hs0 : |fr (F64.sqrt a.c0) - S| ≤ S * (53 / 100 / 2 ^ 47) := by
    have h3 := abs_le.mp hSc
    have h4 := abs_le.mp s2
    rw [abs_le]
    norm_num at h3 h4 ⊢; constructor <;> linarith [h3.1, h3.2, h4.1, h4.2]
  have hs1 := abs_le.mp hs0
  have hs2 : 0 < fr (F64.sqrt a.c0) := by norm_num at hs1; linarith [hs1.1]
  have hs3 : S / 2 ≤ fr (F64.sqrt a.c0) := by norm_num at hs1; linarith [hs1.1]
  have hs4 : fr (F64.sqrt a.c0) ≤ S * 2 := by norm_num at hs1; linarith [hs1.2]
  obtain ⟨x, hx, xq⟩ := qof_f64 P hP s1 (by
      have h3 : (1:ℝ) ≤ |fr (F64.sqrt a.c0)| * 2 ^ 700 := by
        rw [abs_of_pos hs2]
        have : (2:ℝ) ^ 700 = 2 ^ 210 * 2 ^ 205 * (2 ^ 200 * 2 ^ 85) := by simp only [← pow_add]
        rw [this]
        norm_num at hSl ⊢; linarith
      unfold fr at h3
      exact_mod_cast h3) (by
      have h3 : |fr (F64.sqrt a.c0)| ≤ 2 ^ 890 := by
        rw [abs_of_pos hs2]
        have : (2:ℝ) ^ 890 = 2 ^ 210 * 2 ^ 205 * (2 ^ 200 * 2 ^ 200 * 2 ^ 75) := by simp only [← pow_add]
        rw [this]
        norm_num at hSu ⊢; linarith
      unfold fr at h3
      exact_mod_cast h3)
  unfold Quad.sqrt Quad.preSqrt Quad.isZero Quad.isSignNegative Quad.isInfinite
  rw [if_neg (by rw [cl2]; simp), if_neg (by rw [cl1]; simp), if_neg (by rw [cl3]; simp)]
  dsimp only
  rw [hx]
  refine ⟨_, rfl, ?_⟩
  rw [abs_of_pos hs2] at xq
  have xq' : QA x S (S * (12 / 10 / 2 ^ 47)) (S * (103 / 100)) := by
    refine (xq.move hs0).mono ?_ ?_
    · norm_num at hs1 ⊢; linarith [hs1.2]
    · norm_num at hs1 ⊢; linarith [hs1.2]
  obtain ⟨R, hR⟩ : ∃ R, R = 1 / S := ⟨_, rfl⟩
  have hRp : 0 < R := by rw [hR]; positivity
  have hRS : R * S = 1 := by rw [hR]; field_simp
  have hAR : A * (R * R) = 1 := by rw [← hSS, show S * S * (R * R) = (R * S) * (R * S) by ring, hRS, one_mul]
  have hRl : 1 ≤ R * 2 ^ 210 * 2 ^ 208 := by
    rw [← hRS, mul_assoc]
    refine mul_le_mul_of_nonneg_left (hSu.trans (by norm_num)) hRp.le
  have hRu : R ≤ 2 ^ 225 * 2 ^ 220 := by
    have : R * 1 ≤ R * (S * (2 ^ 210 * 2 ^ 205)) := mul_le_mul_of_nonneg_left hSl hRp.le
    rw [← mul_assoc, hRS, mul_one, one_mul] at this
    exact this.trans (by norm_num)
  have r0 : QA (ONE / x) R (R * (1 / 2 ^ 45)) (R * (26 / 25)) := by
    rw [hR]
    have hh : (2:ℝ) ^ 210 * 2 ^ 205 * 2 ^ 20 ≤ (hugeQ : ℝ) := by
      have : (2:ℚ) ^ 210 * 2 ^ 205 * 2 ^ 20 ≤ hugeQ := by rw [hugeQ_eq]; norm_num
      exact_mod_cast this
    have hh2 : S * (2 ^ 210 * 2 ^ 205 * 2 ^ 20) ≤ S * (hugeQ : ℝ) := mul_le_mul_of_nonneg_left hh hS.le
    refine qa_one.div xq' (L := S * (1 - 1 / 2 ^ 46)) ?_ ?_ ?_ ?_ ?_ ?_ ?_ ?_ ?_
    · exact mul_pos hS (by norm_num)
    · rw [abs_of_pos hS]; norm_num; linarith
    · norm_num; linarith
    · exact huge_le (by norm_num) (by norm_num)
    · norm_num
    · have h6 : (0:ℝ) ≤ (hugeQ : ℝ) := by exact_mod_cast hugeQ_pos.le
      have h7 : S * (103 / 100) ≤ 2 ^ 210 * 2 ^ 205 * 2 ^ 20 := by norm_num at hSu ⊢; linarith
      rw [one_mul]
      exact (h7.trans hh).trans (le_mul_of_one_le_left h6 (by norm_num))
    · rw [show S * (1 - 1 / 2 ^ 46) * (hugeQ : ℝ) = S * hugeQ * (1 - 1 / 2 ^ 46) by ring]
      generalize S * (hugeQ : ℝ) = u at *
      norm_num at hh2 hSl ⊢; linarith
    · rw [show 1 / S * (26 / 25) * (S * (1 - 1 / 2 ^ 46)) = (S / S) * (26 / 25 * (1 - 1 / 2 ^ 46)) by ring, div_self hS.ne']
      norm_num
    · rw [abs_of_pos (show 0 < 1 / S by positivity),
        show 1 / S * (S * (12 / 10 / 2 ^ 47)) = (S / S) * (12 / 10 / 2 ^ 47) by ring,
        show 1 / S * (1 / 2 ^ 45) * (S * (1 - 1 / 2 ^ 46)) = (S / S) * (1 / 2 ^ 45 * (1 - 1 / 2 ^ 46)) by ring, div_self hS.ne']
      norm_num
  have big : R * (101 / 100) ≤ R * (26 / 25) := by linarith
  have r1 := (qsqrt_stepK K1 K2 hb r0 hRp hAR hRl hRu (by positivity) le_rfl).mono
    (mul_le_mul_of_nonneg_left (show 16 / 10 * (1 / 2 ^ 45) ^ 2 + (53 / 100 * K + 105 / 100) / 2 ^ 128 ≤ (1:ℝ) / 2 ^ 88 by norm_num; linarith) hRp.le) big
  have r2 := (qsqrt_stepK K1 K2 hb r1 hRp hAR hRl hRu (by positivity) (by norm_num)).mono
    (mul_le_mul_of_nonneg_left (show 16 / 10 * (1 / 2 ^ 88) ^ 2 + (53 / 100 * K + 105 / 100) / 2 ^ 128 ≤ (53 / 100 * K + 1051 / 1000) / 2 ^ 128 by norm_num; linarith) hRp.le) big
  have r3 := (qsqrt_stepK K1 K2 hb (r2.mono (mul_le_mul_of_nonneg_left (show _ ≤ (1:ℝ) / 2 ^ 88 by norm_num; linarith) hRp.le) le_rfl) hRp hAR hRl hRu (by positivity) (by norm_num)).mono
    (mul_le_mul_of_nonneg_left (show 16 / 10 * (1 / 2 ^ 88) ^ 2 + (53 / 100 * K + 105 / 100) / 2 ^ 128 ≤ (53 / 100 * K + 1051 / 1000) / 2 ^ 128 by norm_num; linarith) hRp.le) le_rfl
  have ea : QA a A 0 (A * K) := QA.mk hz (by rw [hA]; simp)
  have hRA : R * A = S := by rw [← hSS, ← mul_assoc, hRS, one_mul]
  have SK : S * 1 ≤ S * K := mul_le_mul_of_nonneg_left (by linarith) hS.le
  have SK2 : S * K ≤ S * (69 / 10) := mul_le_mul_of_nonneg_left (by linarith) hS.le
  have SW1 : S * (101 / 100) ≤ S * W := mul_le_mul_of_nonneg_left W1 hS.le
  have SW2 : S * (52 / 100 * K) ≤ S * W := mul_le_mul_of_nonneg_left W2 hS.le
  have e1 : R * (101 / 100) * (A * K) = S * K * (101 / 100) := by rw [← hRA]; ring
  have fin := r3.mulW ea (g := S * ((53 / 100 * K + 106 / 100) / 2 ^ 128)) (W := S * W) (mul_pos hRp (by norm_num)) (mul_pos h0 (by linarith)) (by
      rw [e1]
      norm_num at hSl ⊢; linarith) (by
      rw [e1]
      norm_num at hSu ⊢; linarith) (by
      rw [e1, abs_of_pos h0,
        show A * (R * ((53 / 100 * K + 1051 / 1000) / 2 ^ 128)) = R * A * ((53 / 100 * K + 1051 / 1000) / 2 ^ 128) by ring, hRA]
      clear hSl hSu hRl hRu
      norm_num; linarith) (by
      rw [e1]; linarith) (by
      rw [e1, hRA, abs_of_pos hS]
      clear hSl hSu hRl hRu
      norm_num; linarith)
  rw [hRA] at fin
  exact fin

end Verif
