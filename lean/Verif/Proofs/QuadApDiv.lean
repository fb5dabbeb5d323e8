import Verif.Proofs.QuadExp
import Verif.Proofs.QuadSlDiv

/-!
# Division in the error calculus of `Quad`s
-/

namespace Verif

open F64 Prim Util Quad

/-- `2^800`. -/
@[irreducible] def hugeQ : ℚ := 2 ^ 200 * 2 ^ 200 * (2 ^ 200 * 2 ^ 200)

theorem hugeQ_eq : hugeQ = 2 ^ 200 * 2 ^ 200 * (2 ^ 200 * 2 ^ 200) := by unfold hugeQ; rfl

theorem hugeQ_pos : 0 < hugeQ := by unfold hugeQ; norm_num

theorem one'_huge : (one' : ℚ) = hugeQ * 2 ^ 250 * 2 ^ 24 := by
  rw [one'_pow, hugeQ_eq]
  rw [← pow_add, ← pow_add, ← pow_add, ← pow_add]

set_option maxHeartbeats 1000000 in
/-- Division. `L` bounds the divisor from below, `K` is the size of the quotient. -/
theorem QA.div {a b : Quad} {x y e f X Y L K g : ℝ} (ha : QA a x e X) (hb : QA b y f Y) (hL0 : 0 < L) (hL : L ≤ |y| - f)
    (hYL : Y ≤ 2 ^ 9 * L) (lX : 1 ≤ X * hugeQ) (hX : X ≤ 2 ^ 160) (hYX : Y ≤ X * hugeQ) (hXL : X ≤ L * hugeQ)
    (hK : X * (1 + 1 / 2 ^ 38) ≤ K * L) (hg : X / 2 ^ 127 + e + |x / y| * f ≤ g * L) : QA (a / b) (x / y) g K := by
  have op := one'_posQ
  have oR := one'_posR
  have hp := hugeQ_pos
  have hpR : (0:ℝ) < (hugeQ : ℝ) := by exact_mod_cast hp
  have hX0 : 0 < X := pos_of_mul_pos_left (lt_of_lt_of_le one_pos lX) hpR.le
  -- the divisor
  obtain ⟨B, _, B0, B1, B2, B3⟩ := hb.sz.raise (L := 0) (by simpa using hb.sz.nonneg)
  obtain ⟨fb, hc⟩ := sz_sub_c0 hb.sz
  have hby : |y| - f ≤ |qv b| := by
    have := abs_sub_abs_le_abs_sub y (qv b)
    rw [abs_sub_comm] at this
    linarith [hb.err]
  have hcL : L * (1 - 1 / 2 ^ 47) ≤ |fr b.c0| := by
    have := abs_sub_abs_le_abs_sub (qv b) (fr b.c0)
    have h0 := abs_nonneg (fr b.c0)
    norm_num at hc hYL ⊢
    linarith
  obtain ⟨β, hβ⟩ : ∃ β, |U b.c0| / one' = β := ⟨_, rfl⟩
  have hβR : |fr b.c0| = (β : ℝ) := by
    unfold fr
    rw [toRat_U fb, ← hβ]
    push_cast
    rw [abs_div, abs_of_pos (show (0:ℝ) < (one' : ℝ) from by exact_mod_cast one'_pos)]
  rw [hβR] at hcL
  have hβp : (0:ℝ) < (β : ℝ) := lt_of_lt_of_le (by norm_num; linarith) hcL
  have hβ0 : 0 < β := by exact_mod_cast hβp
  have hUb : |U b.c0| = β * one' := by rw [← hβ]; field_simp
  have hβB : β ≤ B := by
    rw [hUb] at B3
    exact le_of_mul_le_mul_right B3 op
  have hβBR : (β : ℝ) ≤ B := by exact_mod_cast hβB
  have hz : b.c0.units ≠ 0 := by
    intro h
    unfold U at hUb
    rw [h] at hUb
    simp only [Int.cast_zero, abs_zero] at hUb
    have := mul_pos hβ0 op
    linarith
  have hB512 : B ≤ 2 ^ 10 * β := by
    have : (B : ℝ) ≤ 2 ^ 10 * (β : ℝ) := by norm_num at hYL hcL ⊢; linarith
    exact_mod_cast this
  have ob : DB b := DB.of_qs B2 hz (by
    rw [hUb]
    have := mul_le_mul_of_nonneg_right hB512 op.le
    linarith)
  -- the dividend
  obtain ⟨LX, u1, u2⟩ := exists_rat_btwn (show X / 2 < X by linarith)
  obtain ⟨A, lA, A0, A1, A2, A3⟩ := ha.sz.raise u2.le
  have hA2 : X ≤ 2 * A := by
    have : (LX : ℝ) ≤ A := by exact_mod_cast lA
    linarith
  have hAh : 1 ≤ 2 * A * hugeQ := by
    have : (1:ℝ) ≤ 2 * (A : ℝ) * hugeQ := lX.trans (mul_le_mul_of_nonneg_right hA2 hpR.le)
    exact_mod_cast this
  have h900 : 10 ^ 14 * (2 ^ 225 * 2 ^ 225 * 2 ^ 225 * 2 ^ 225 * one') ≤ (lim : ℚ) := lim_of_900 le_rfl
  have hbigA : 2 ^ 250 ≤ A * one' := by
    rw [one'_huge]
    have : A * (hugeQ * 2 ^ 250 * 2 ^ 24) = 2 * A * hugeQ * (2 ^ 250 * 2 ^ 23) := by ring
    rw [this]
    refine le_trans ?_ (mul_le_mul_of_nonneg_right hAh (by positivity))
    norm_num
  have hβA : β * 2 ^ 250 ≤ A * one' := by
    have h1 : β ≤ 2 * A * hugeQ := by
      have : (β : ℝ) ≤ 2 * (A : ℝ) * hugeQ := by
        refine hβBR.trans (B1.trans (hYX.trans (mul_le_mul_of_nonneg_right hA2 hpR.le)))
      exact_mod_cast this
    rw [one'_huge]
    have : A * (hugeQ * 2 ^ 250 * 2 ^ 24) = 2 * A * hugeQ * 2 ^ 250 * 2 ^ 23 := by ring
    rw [this]
    refine (mul_le_mul_of_nonneg_right h1 (by positivity)).trans ?_
    exact le_mul_of_one_le_right (by positivity) (by norm_num)
  have hA160 : A ≤ 2 ^ 160 := by
    have : (A : ℝ) ≤ 2 ^ 160 := A1.trans hX
    exact_mod_cast this
  have hAo : A * one' ≤ 2 ^ 160 * one' := mul_le_mul_of_nonneg_right hA160 op.le
  have hq : 100 * (A * one') * one' ≤ lim * |U b.c0| := by
    rw [hUb]
    have h1 : A ≤ 2 * β * hugeQ := by
      have : (A : ℝ) ≤ 2 * (β : ℝ) * hugeQ := by
        refine A1.trans (hXL.trans (mul_le_mul_of_nonneg_right ?_ hpR.le))
        norm_num at hcL; linarith
      exact_mod_cast this
    rw [← mul_assoc (lim : ℚ)]
    refine mul_le_mul_of_nonneg_right ?_ op.le
    refine le_trans ?_ (mul_le_mul_of_nonneg_right h900 hβ0.le)
    have h2 : 100 * (A * one') ≤ 100 * (2 * β * hugeQ * one') :=
      mul_le_mul_of_nonneg_left (mul_le_mul_of_nonneg_right h1 op.le) (by norm_num)
    refine h2.trans ?_
    have e1 : 100 * (2 * β * hugeQ * one') = β * one' * (200 * hugeQ) := by ring
    have e2 : 10 ^ 14 * (2 ^ 225 * 2 ^ 225 * 2 ^ 225 * 2 ^ 225 * (one' : ℚ)) * β = β * one' * (10 ^ 14 * (2 ^ 225 * 2 ^ 225 * 2 ^ 225 * 2 ^ 225)) := by ring
    rw [e1, e2]
    refine mul_le_mul_of_nonneg_left ?_ (by positivity)
    rw [hugeQ_eq]; norm_num
  have hWd : A / β * one' * |U b.c0| = A * one' * one' := by
    rw [hUb]; field_simp
  obtain ⟨Q, qc, er⟩ := div_slack (W := A / β * one') A2 A3 ob hβ hWd hq hbigA hβA (by linarith)
    (by
      refine le_trans ?_ h900
      refine (mul_le_mul_of_nonneg_left hAo (by norm_num)).trans ?_
      have e1 : 10 ^ 16 * (2 ^ 160 * (one' : ℚ)) = 10 ^ 16 * 2 ^ 160 * one' := by ring
      have e2 : 10 ^ 14 * (2 ^ 225 * 2 ^ 225 * 2 ^ 225 * 2 ^ 225 * (one' : ℚ)) = 10 ^ 14 * (2 ^ 225 * 2 ^ 225 * 2 ^ 225 * 2 ^ 225) * one' := by ring
      rw [e1, e2]
      exact mul_le_mul_of_nonneg_right (by norm_num) op.le)
  have hAβ : 0 ≤ A / β * one' := by positivity
  refine ⟨⟨A / β * (1 + 1 / 2 ^ 40), ?_, Q.mono le_rfl ?_, qc.trans (le_of_eq (by ring))⟩, ?_⟩
  · push_cast
    rw [div_mul_eq_mul_div, div_le_iff₀ hβp]
    have hK0 : 0 ≤ K := by
      by_contra hk
      push Not at hk
      have := mul_neg_of_neg_of_pos hk hL0
      have : 0 ≤ X * (1 + 1 / 2 ^ 38) := by positivity
      linarith
    have h1 := mul_le_mul_of_nonneg_left hcL hK0
    have h2 : 0 ≤ K * L := by positivity
    norm_num at h1 hK ⊢
    linarith
  · have : A / β * (1 + 1 / 2 ^ 40) * one' / 2 ^ 141 = A / β * one' * ((1 + 1 / 2 ^ 40) / 2 ^ 141) := by ring
    rw [this, div_eq_mul_one_div]
    exact mul_le_mul_of_nonneg_left (by norm_num) hAβ
  · -- the value
    have hy0 : y ≠ 0 := by
      intro h
      rw [h, abs_zero] at hL
      have := hb.nonneg
      linarith
    have hqb : 0 < |qv b| := by linarith
    have er' : |qv (a / b) * qv b - qv a| ≤ X / 2 ^ 127 := by
      rw [UQ_val Q.fin, UQ_val hb.fin, UQ_val ha.fin] at er
      have e1 : (a / b).val * one' * (b.val * one') / one' - a.val * one' = ((a / b).val * b.val - a.val) * one' := by
        field_simp
      rw [e1, abs_mul, abs_of_pos op] at er
      have e2 : |(a / b).val * b.val - a.val| ≤ A / 2 ^ 127 := by
        refine le_of_mul_le_mul_right (er.trans (le_of_eq ?_)) op
        ring
      have e3 : |qv (a / b) * qv b - qv a| ≤ (A : ℝ) / 2 ^ 127 := by
        unfold qv
        exact_mod_cast e2
      refine e3.trans (div_le_div_of_nonneg_right A1 (by positivity))
    have e4 : qv (a / b) - x / y = ((qv (a / b) * qv b - qv a) + (qv a - x) - x / y * (qv b - y)) / qv b := by
      have : qv b ≠ 0 := abs_pos.mp hqb
      field_simp
      ring
    rw [e4, abs_div, div_le_iff₀ hqb]
    have h1 := abs_sub ((qv (a / b) * qv b - qv a) + (qv a - x)) (x / y * (qv b - y))
    have h2 := abs_add_le (qv (a / b) * qv b - qv a) (qv a - x)
    have h3 : |x / y * (qv b - y)| ≤ |x / y| * f := by
      rw [abs_mul]; exact mul_le_mul_of_nonneg_left hb.err (abs_nonneg _)
    have hg0 : 0 ≤ g := by
      by_contra hk
      push Not at hk
      have h4 := mul_neg_of_neg_of_pos hk hL0
      have h5 : 0 ≤ X / 2 ^ 127 := by positivity
      have h6 := ha.nonneg
      have h7 := mul_nonneg (abs_nonneg (x / y)) hb.nonneg
      linarith
    have h4 : g * L ≤ g * |qv b| := mul_le_mul_of_nonneg_left (by linarith) hg0
    linarith [ha.err]

theorem huge_le {X c : ℝ} (hX : 0 ≤ X) (h : c ≤ X * 2 ^ 190) : c ≤ X * hugeQ := by
  refine h.trans (mul_le_mul_of_nonneg_left ?_ hX)
  have : (2:ℚ) ^ 190 ≤ hugeQ := by rw [hugeQ_eq]; norm_num
  exact_mod_cast this

end Verif
