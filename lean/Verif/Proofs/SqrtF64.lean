import Verif.Proofs.Ln
import Mathlib.Analysis.SpecialFunctions.Pow.Real
import Mathlib.Analysis.SpecialFunctions.Sqrt

/-!
# The `f64` square root is within half a unit in the last place
-/

namespace Verif

open F64

theorem isqrtAux_spec (n : ℕ) : ∀ b r, r * r ≤ n → n < (r + 2 ^ b) * (r + 2 ^ b) →
    isqrtAux n b r * isqrtAux n b r ≤ n ∧ n < (isqrtAux n b r + 1) * (isqrtAux n b r + 1) := by
  intro b
  induction b with
  | zero => intro r h1 h2; simpa [isqrtAux] using ⟨h1, h2⟩
  | succ b ih =>
    intro r h1 h2
    unfold isqrtAux
    split_ifs with h
    · apply ih _ h
      rw [add_assoc, ← two_mul, ← pow_succ']; exact h2
    · exact ih _ h1 (not_le.mp h)

theorem isqrt_spec (n : ℕ) : isqrt n * isqrt n ≤ n ∧ n < (isqrt n + 1) * (isqrt n + 1) := by
  unfold isqrt
  apply isqrtAux_spec _ _ _ (by omega)
  rw [zero_add, ← pow_add]
  have h1 : n < 2 ^ (Nat.log2 n + 1) := Nat.lt_log2_self
  refine lt_of_lt_of_le h1 (Nat.pow_le_pow_right (by norm_num) (by omega))

theorem isqrt_ge {n b : ℕ} (h : b * b ≤ n) : b ≤ isqrt n := by
  by_contra hc
  have h1 := (isqrt_spec n).2
  have : isqrt n + 1 ≤ b := by omega
  have := Nat.mul_le_mul this this
  omega

theorem isqrt_lt {n b : ℕ} (h : n < b * b) : isqrt n < b := by
  by_contra hc
  have h1 := (isqrt_spec n).1
  have : b ≤ isqrt n := by omega
  have := Nat.mul_le_mul this this
  omega

/-- The integer part of the square root computation, for `N ≥ 2^110`. -/
theorem sqrt_round {N : ℕ} (hN : 2 ^ 110 ≤ N) :
    ∃ k q R : ℕ, k = Nat.log2 (isqrt N) - 52 ∧ q = isqrt (N / 4 ^ k) ∧
      R = (if 4 * N < (2 * q + 1) * (2 * q + 1) * 4 ^ k then q else if (2 * q + 1) * (2 * q + 1) * 4 ^ k < 4 * N then q + 1
        else if q % 2 = 0 then q else q + 1) ∧
      R ≤ 2 ^ 53 ∧ |((R * 2 ^ k : ℕ) : ℝ) - Real.sqrt N| ≤ Real.sqrt N / 2 ^ 53 := by
  refine ⟨_, _, _, rfl, rfl, rfl, ?_⟩
  generalize hk : Nat.log2 (isqrt N) - 52 = k
  have hs := isqrt_spec N
  have h0 : 2 ^ 55 ≤ isqrt N := isqrt_ge (by rw [← pow_add]; exact hN)
  have hl1 : 2 ^ Nat.log2 (isqrt N) ≤ isqrt N := Nat.log2_self_le (by omega)
  have hl2 : isqrt N < 2 ^ (Nat.log2 (isqrt N) + 1) := Nat.lt_log2_self
  have hl3 : 55 ≤ Nat.log2 (isqrt N) := by
    by_contra hc
    have : isqrt N < 2 ^ 55 := lt_of_lt_of_le hl2 (Nat.pow_le_pow_right (by norm_num) (by omega))
    omega
  have hk' : Nat.log2 (isqrt N) = 52 + k := by omega
  rw [hk'] at hl1 hl2
  generalize hq : isqrt (N / 4 ^ k) = q
  have hqs := isqrt_spec (N / 4 ^ k)
  rw [hq] at hqs
  have h4 : 0 < 4 ^ k := by positivity
  have hA : q * q * 4 ^ k ≤ N := (Nat.le_div_iff_mul_le h4).mp hqs.1
  have hB : N < (q + 1) * (q + 1) * 4 ^ k := (Nat.div_lt_iff_lt_mul h4).mp hqs.2
  have e4 : 4 ^ k = 2 ^ k * 2 ^ k := by rw [← mul_pow]; norm_num
  -- size of q
  have hq1 : 2 ^ 52 ≤ q := by
    rw [← hq]; apply isqrt_ge
    rw [Nat.le_div_iff_mul_le h4, e4]
    have := Nat.mul_le_mul hl1 hl1
    rw [pow_add] at this
    calc 2 ^ 52 * 2 ^ 52 * (2 ^ k * 2 ^ k) = 2 ^ 52 * 2 ^ k * (2 ^ 52 * 2 ^ k) := by ring
      _ ≤ isqrt N * isqrt N := this
      _ ≤ N := hs.1
  have hq2 : q < 2 ^ 53 := by
    rw [← hq]; apply isqrt_lt
    rw [Nat.div_lt_iff_lt_mul h4, e4]
    have h5 : isqrt N + 1 ≤ 2 ^ (52 + k + 1) := hl2
    have := Nat.mul_le_mul h5 h5
    calc N < (isqrt N + 1) * (isqrt N + 1) := hs.2
      _ ≤ _ := this
      _ = 2 ^ 53 * 2 ^ 53 * (2 ^ k * 2 ^ k) := by rw [show 52 + k + 1 = 53 + k by ring, pow_add]; ring
  -- in the reals
  have hK : (0:ℝ) < 2 ^ k := by positivity
  have eS : (N : ℝ) = (Real.sqrt N) ^ 2 := (Real.sq_sqrt (by positivity)).symm
  have hS0 := Real.sqrt_nonneg (N : ℝ)
  have rA : ((q : ℝ) * 2 ^ k) ≤ Real.sqrt N := by
    apply Real.le_sqrt_of_sq_le
    have : ((q * q * 4 ^ k : ℕ) : ℝ) ≤ N := by exact_mod_cast hA
    rw [e4] at this; push_cast at this
    calc ((q : ℝ) * 2 ^ k) ^ 2 = q * q * (2 ^ k * 2 ^ k) := by ring
      _ ≤ _ := this
  have rB : Real.sqrt N < ((q : ℝ) + 1) * 2 ^ k := by
    rw [Real.sqrt_lt' (by positivity)]
    have : (N : ℝ) < (((q + 1) * (q + 1) * 4 ^ k : ℕ) : ℝ) := by exact_mod_cast hB
    rw [e4] at this; push_cast at this
    calc (N : ℝ) < _ := this
      _ = _ := by ring
  have hhalf : (2:ℝ) ^ k / 2 ≤ Real.sqrt N / 2 ^ 53 := by
    have : (2:ℝ) ^ 52 ≤ q := by exact_mod_cast hq1
    have := mul_le_mul_of_nonneg_right this hK.le
    have h6 : (2:ℝ) ^ 52 * 2 ^ k ≤ Real.sqrt N := this.trans rA
    rw [le_div_iff₀ (by positivity)]
    calc (2:ℝ) ^ k / 2 * 2 ^ 53 = 2 ^ 52 * 2 ^ k := by ring
      _ ≤ _ := h6
  have cmp1 : 4 * N < (2 * q + 1) * (2 * q + 1) * 4 ^ k → Real.sqrt N ≤ ((q : ℝ) + 1 / 2) * 2 ^ k := by
    intro h
    apply Real.sqrt_le_iff.mpr ⟨by positivity, ?_⟩
    have : ((4 * N : ℕ) : ℝ) ≤ (((2 * q + 1) * (2 * q + 1) * 4 ^ k : ℕ) : ℝ) := by exact_mod_cast h.le
    rw [e4] at this; push_cast at this
    have e : (((q : ℝ) + 1 / 2) * 2 ^ k) ^ 2 * 4 = (2 * q + 1) * (2 * q + 1) * (2 ^ k * 2 ^ k) := by ring
    linarith
  have cmp2 : (2 * q + 1) * (2 * q + 1) * 4 ^ k ≤ 4 * N → ((q : ℝ) + 1 / 2) * 2 ^ k ≤ Real.sqrt N := by
    intro h
    apply Real.le_sqrt_of_sq_le
    have : (((2 * q + 1) * (2 * q + 1) * 4 ^ k : ℕ) : ℝ) ≤ ((4 * N : ℕ) : ℝ) := by exact_mod_cast h
    rw [e4] at this; push_cast at this
    have e : (((q : ℝ) + 1 / 2) * 2 ^ k) ^ 2 * 4 = (2 * q + 1) * (2 * q + 1) * (2 ^ k * 2 ^ k) := by ring
    linarith
  have low : Real.sqrt N ≤ ((q : ℝ) + 1 / 2) * 2 ^ k → q ≤ 2 ^ 53 ∧ |((q * 2 ^ k : ℕ) : ℝ) - Real.sqrt N| ≤ Real.sqrt N / 2 ^ 53 := by
    intro h
    refine ⟨by omega, ?_⟩
    push_cast
    rw [abs_of_nonpos (by linarith)]
    refine le_trans ?_ hhalf
    linarith
  have high : ((q : ℝ) + 1 / 2) * 2 ^ k ≤ Real.sqrt N →
      q + 1 ≤ 2 ^ 53 ∧ |(((q + 1) * 2 ^ k : ℕ) : ℝ) - Real.sqrt N| ≤ Real.sqrt N / 2 ^ 53 := by
    intro h
    refine ⟨by omega, ?_⟩
    push_cast
    rw [abs_of_nonneg (by linarith)]
    refine le_trans ?_ hhalf
    linarith
  split_ifs with c1 c2 c3
  · exact low (cmp1 c1)
  · exact high (cmp2 c2.le)
  · have : 4 * N = (2 * q + 1) * (2 * q + 1) * 4 ^ k := by omega
    refine low ?_
    apply Real.sqrt_le_iff.mpr ⟨by positivity, ?_⟩
    have h5 : ((4 * N : ℕ) : ℝ) ≤ (((2 * q + 1) * (2 * q + 1) * 4 ^ k : ℕ) : ℝ) := by exact_mod_cast this.le
    rw [e4] at h5; push_cast at h5
    have e : (((q : ℝ) + 1 / 2) * 2 ^ k) ^ 2 * 4 = (2 * q + 1) * (2 * q + 1) * (2 ^ k * 2 ^ k) := by ring
    linarith
  · exact high (cmp2 (by omega))

theorem fr_sqrt {x : F64} (hx : x.isFinite = true) (hp : 0 < fr x) :
    (F64.sqrt x).isFinite = true ∧ |fr (F64.sqrt x) - Real.sqrt (fr x)| ≤ Real.sqrt (fr x) / 2 ^ 53 := by
  have i := Is.of_finite hx
  generalize x.units = n at i
  obtain ⟨s, m, hm, rfl, en⟩ := i.exists
  have hone : (0:ℝ) < (one' : ℝ) := by exact_mod_cast one'_pos
  rw [fr_is i] at hp ⊢
  have hn : 0 < n := by
    by_contra hc
    have : (n : ℝ) ≤ 0 := by exact_mod_cast not_lt.mp hc
    exact absurd hp (not_lt.mpr (div_nonpos_of_nonpos_of_nonneg this hone.le))
  cases s with
  | true => simp only [if_true] at en; omega
  | false =>
    simp only [Bool.false_eq_true, if_false] at en
    have hm1 : 1 ≤ m := by omega
    unfold F64.sqrt
    dsimp only
    rw [if_neg (by omega), if_neg (by simp)]
    have hN : 2 ^ 110 ≤ m * 2 ^ 1074 := by
      calc 2 ^ 110 ≤ 2 ^ 1074 := Nat.pow_le_pow_right (by norm_num) (by norm_num)
        _ ≤ _ := Nat.le_mul_of_pos_left _ hm1
    obtain ⟨k, q, R, ek, eq, eR, hR, he⟩ := sqrt_round hN
    rw [← ek, ← eq, ← eR]
    have eu : Real.sqrt ((n : ℝ) / (one' : ℝ)) = Real.sqrt ((m * 2 ^ 1074 : ℕ) : ℝ) / (one' : ℝ) := by
      have e1 : (one' : ℝ) = 2 ^ 1074 := one'_powR
      have e2 : (n : ℝ) = (m : ℝ) := by rw [en, Int.cast_natCast]
      rw [e2, e1]
      push_cast
      generalize (2:ℝ) ^ 1074 = K at *
      have hK : 0 < K := e1 ▸ hone
      rw [eq_div_iff hK.ne', ← Real.sqrt_sq hK.le, ← Real.sqrt_mul (by positivity), Real.sqrt_sq hK.le]
      congr 1
      field_simp
    have hi : Is (ofRound false (R * 2 ^ k) 1) (((R * 2 ^ k : ℕ) : ℤ)) := by
      have hrep : Rep ((R * 2 ^ k : ℕ) : ℤ) := ⟨R, k, by rw [Nat.abs_cast]; exact_mod_cast hR, by push_cast; ring⟩
      have h1 : rnd (((R * 2 ^ k : ℕ) : ℤ) : ℚ) = ((R * 2 ^ k : ℕ) : ℤ) := rnd_of_rep hrep
      rw [← h1]
      apply is_ofRound (by norm_num)
      · simp
      · rw [h1, Nat.abs_cast]
        -- size: twice the square root of an f64
        have hlt : (m:ℤ) < ovf := by have := i.lt; rw [abs_of_pos hn, en] at this; exact this
        have hs1 : ((R * 2 ^ k : ℕ) : ℝ) ≤ 2 * Real.sqrt ((m * 2 ^ 1074 : ℕ) : ℝ) := by
          have := (abs_le.mp he).2
          have h0 := Real.sqrt_nonneg ((m * 2 ^ 1074 : ℕ) : ℝ)
          have : Real.sqrt ((m * 2 ^ 1074 : ℕ) : ℝ) / 2 ^ 53 ≤ Real.sqrt ((m * 2 ^ 1074 : ℕ) : ℝ) :=
            div_le_self h0 (one_le_pow₀ (by norm_num))
          linarith
        have hs2 : Real.sqrt ((m * 2 ^ 1074 : ℕ) : ℝ) ≤ 2 ^ 1586 := by
          apply Real.sqrt_le_iff.mpr ⟨pow_nonneg (by norm_num) _, ?_⟩
          have h5 : (m : ℤ) * 2 ^ 1074 ≤ 2 ^ 1586 * 2 ^ 1586 := by
            have : (2:ℤ) ^ 1586 * 2 ^ 1586 = ovf * 2 ^ 1074 := by unfold ovf; rw [← pow_add, ← pow_add]
            rw [this]
            exact mul_le_mul_of_nonneg_right hlt.le (by positivity)
          rw [pow_two]
          exact_mod_cast h5
        have hs3 : ((R * 2 ^ k : ℕ) : ℝ) ≤ 2 * 2 ^ 1586 := hs1.trans (mul_le_mul_of_nonneg_left hs2 (by norm_num))
        have hs4 : ((R * 2 ^ k : ℕ) : ℤ) ≤ 2 * 2 ^ 1586 := by exact_mod_cast hs3
        refine lt_of_le_of_lt hs4 ?_
        unfold ovf
        rw [← pow_succ']
        exact pow_lt_pow_right₀ (by norm_num) (by norm_num)
    refine ⟨hi.1, ?_⟩
    rw [fr_is hi, eu, ← sub_div, abs_div, abs_of_pos hone, div_right_comm]
    apply div_le_div_of_nonneg_right _ hone.le
    exact_mod_cast he

end Verif
