import Verif.Props.Whole
import Verif.Props.Ints
import Verif.Proofs.DoubleDiv

/-!
# Exact quotients and remainders of integer valued Doubles
-/

namespace Verif

open F64 Prim Util

theorem norm2_rnd_sub {k : ℤ} (h : Rep (k - rnd k)) : Norm2 (rnd k) (k - rnd k) where
  rep_hi := rep_rnd _
  rep_lo := h
  rnd_eq := by congr 1; push_cast; ring

/-- The scalar product with an integer divisor is exact. -/
theorem mulF64_int {b : Double} {q : F64} {n k : ℤ} (ib : DIs b (n * one') 0) (iq : Is q k) (hk : 2 ^ 104 ≤ |k|)
    (hn : n ≠ 0) (hr : |n * k| ≤ lim2) :
    ∃ p e, DIs (Double.mulF64 b q) p e ∧ Norm2 p e ∧ p + e = n * k := by
  have hq : pq (n * one') k = ((n * k : ℤ) : ℚ) := by
    unfold pq; have := one'_ne; push_cast; field_simp
  have hex : 1022 ≤ expo ((n * one' : ℤ) : ℚ) := by
    apply le_expo_of_le
    have e : ((2:ℚ) ^ (52 + 1022)) = one' := by rw [one'_pow]
    rw [e]
    push_cast
    rw [abs_mul, abs_of_pos one'_posQ]
    have : (1:ℚ) ≤ |(n:ℚ)| := by rw [← abs_int_cast]; exact_mod_cast abs_ge_one hn
    nlinarith [one'_posQ]
  have hex2 : 52 ≤ expo (k : ℚ) := by
    apply le_expo_of_le
    rw [← abs_int_cast]
    exact_mod_cast hk
  have hpe := pe_exact ib.1.rep iq.rep (by omega)
  rw [hq] at hpe
  have hpr : pr (n * one') k = rnd ((n * k : ℤ) : ℚ) := by unfold pr; rw [hq]
  have hpe' : pe (n * one') k = n * k - rnd ((n * k : ℤ) : ℚ) := by
    rw [hpr] at hpe; exact_mod_cast hpe
  have i := is_twoProd ib.1 iq (by
    rw [hq, ← abs_int_cast]
    have : |n * k| ≤ omegaUnits := hr.trans (by
      rw [lim2_eq, omega_eq]; have := quantum_pos; omega)
    exact_mod_cast this)
  rw [hpr, hpe'] at i
  have j := ib.2.mul_rep iq (k := 0) (by ring) .zero zero_ovf
  have hN := norm2_rnd_sub i.2.rep
  have z := is_quickTwoSum_norm i.1 (i.2.add_zero j) hN
  exact ⟨_, _, ⟨z.1, z.2⟩, hN, by ring⟩

/-- Exact subtraction on a grid. -/
theorem sub_exact_grid {a b : Double} {xh xl yh yl : ℤ} {k : ℕ} (ia : DIs a xh xl) (ib : DIs b yh yl)
    (hx : Norm2 xh xl) (hy : Norm2 yh yl) (dx : (2:ℤ) ^ k ∣ xh + xl) (dy : (2:ℤ) ^ k ∣ yh + yl)
    (bxy : |xh| + |yh| ≤ 2 ^ 105 * 2 ^ k) (hr : |xh| + |yh| ≤ lim2) :
    ∃ zh zl, DIs (a - b) zh zl ∧ Norm2 zh zl ∧ zh + zl = (xh + xl) - (yh + yl) := by
  have hy' := hy.swap_sign
  refine ⟨_, _, is_sub ia ib hx hy hr, norm2_addTail hx hy', ?_⟩
  rw [rs_add_re, add_exact_grid (k := k) hx hy' dx (by
    rw [show -yh + -yl = -(yh + yl) by ring]; exact (dvd_neg).mpr dy) (by rw [abs_neg]; exact bxy)]
  ring

theorem Norm2.eq_of_rep {h l : ℤ} (hn : Norm2 h l) (hr : Rep (h + l)) : l = 0 := by
  have := hn.rnd_eq
  rw [rnd_of_rep hr] at this
  linarith

theorem Norm2.hi_close {h l : ℤ} (hn : Norm2 h l) : |h| * (2 ^ 53 - 1) ≤ |h + l| * 2 ^ 53 := by
  have h1 := hn.lo_le
  have h2 := abs_tri h l
  norm_num at *
  linarith

/-- Sizes for the exact quotient: `Q` is the quotient, `q1` its first approximation. -/
theorem quot_sizes {Q q1 : ℤ} (hQ : 2 ^ 1074 ≤ |Q|) (hd : 2 ^ 51 * |Q - q1| ≤ |Q|) (r1 : Rep q1)
    {n : ℤ} (hn : |n| ≤ 2 ^ 49) (hnQ : |n * Q| ≤ 2 ^ 102 * 2 ^ 1074) :
    ∃ k ≤ 1074, (2:ℤ) ^ k ∣ q1 ∧ |n * Q| ≤ 2 ^ 103 * 2 ^ k ∧ (|Q| ≤ 2 ^ 102 * 2 ^ k ∨ n = 0) := by
  have hex : 1022 ≤ expo (Q : ℚ) := by
    apply le_expo_of_le
    rw [← abs_int_cast]; exact_mod_cast hQ
  have h52 : (2:ℤ) ^ (52 + expo (Q : ℚ)) ≤ |Q| := by
    have := expo_le (Q : ℚ) (by omega)
    rw [← abs_int_cast] at this; exact_mod_cast this
  have h53 : |Q| < (2:ℤ) ^ (53 + expo (Q : ℚ)) := expo_int_lt Q
  have hq1 : |Q| ≤ 2 * |q1| := by
    have h1 := abs_tri q1 (Q - q1)
    have h2 := abs_add_le q1 (Q - q1)
    rw [add_sub_cancel] at h2
    norm_num at hd
    clear hQ h52 h53 hnQ
    have := abs_nonneg (Q - q1)
    omega
  obtain ⟨j, hj⟩ : ∃ j, expo (Q : ℚ) = j + 1 := ⟨expo (Q : ℚ) - 1, by omega⟩
  rw [hj] at h52 h53
  have hp52 : (2:ℤ) ^ (52 + (j + 1)) = 2 * 2 ^ (52 + j) := by rw [← pow_succ']; rfl
  have hdj : (2:ℤ) ^ j ∣ q1 := by
    apply r1.dvd_of_le
    rw [hp52] at h52
    have := h52.trans hq1
    linarith
  rcases le_total j 1074 with h | h
  · have e : (2:ℤ) ^ (53 + (j + 1)) = 2 ^ 54 * 2 ^ j := by rw [← pow_add]; congr 1; omega
    rw [e] at h53
    refine ⟨j, h, hdj, ?_, ?_⟩
    · rw [abs_mul]
      have : |n| * |Q| ≤ 2 ^ 49 * (2 ^ 54 * 2 ^ j) := mul_le_mul hn h53.le (abs_nonneg _) (by positivity)
      refine this.trans (le_of_eq ?_)
      rw [← mul_assoc, ← pow_add]
    · left
      refine h53.le.trans ?_
      apply mul_le_mul_of_nonneg_right (by norm_num) (by positivity)
  · refine ⟨1074, le_refl _, dvd_trans (pow_dvd_pow 2 h) hdj, ?_, ?_⟩
    · refine hnQ.trans ?_
      apply mul_le_mul_of_nonneg_right (by norm_num) (by positivity)
    · by_cases h0 : n = 0
      · exact .inr h0
      · left
        refine le_trans ?_ hnQ
        rw [abs_mul]
        exact le_mul_of_one_le_left (abs_nonneg Q) (abs_ge_one h0)

/-- Division of integer valued Doubles is exact when the quotient is an integer. -/
theorem div_int_exact {a b : Double} {xh xl q n : ℤ} (ia : DIs a xh xl) (hx : Norm2 xh xl) (ib : DIs b (n * one') 0)
    (e : xh + xl = q * n * one') (hn : n ≠ 0) (hn2 : |n| ≤ 2 ^ 49) (hqn : |q * n| ≤ 2 ^ 102) :
    ∃ zh zl, DIs (a / b) zh zl ∧ Norm2 zh zl ∧ zh + zl = q * one' := by
  have hp := one'_pos
  have hpq := one'_posQ
  have eo : one' = 2 ^ 1074 := by unfold one'; rfl
  have hb0 : n * one' ≠ 0 := mul_ne_zero hn hp.ne'
  by_cases hq0 : q = 0
  · subst hq0
    have h0 : xh + xl = 0 := by rw [e]; ring
    have hh : xh = 0 := by
      have := hx.rnd_eq
      rw [h0, rnd_of_rep .zero] at this
      exact this.symm
    subst hh
    rw [zero_add] at h0; subst h0
    exact ⟨0, 0, dis_zero_div ia ib hb0, norm2_zero_right .zero, by ring⟩
  set Q := q * one' with hQ
  have eQ : xh + xl = n * Q := by rw [e, hQ]; ring
  have hQ1 : 2 ^ 1074 ≤ |Q| := by
    rw [hQ, abs_mul, abs_of_pos hp, ← eo]
    have := abs_ge_one hq0
    nlinarith
  have hnQ : |n * Q| ≤ 2 ^ 102 * 2 ^ 1074 := by
    rw [← eo, hQ, show n * (q * one') = q * n * one' by ring, abs_mul, abs_of_pos hp]
    exact mul_le_mul_of_nonneg_right hqn hp.le
  have bh := hx.hi_close
  rw [eQ] at bh
  have hxl := hx.lo_le
  -- the rational quotient
  set X : ℚ := qq xh ((n * one' : ℤ) : ℚ) with hX
  have hnQ0 : (n : ℚ) ≠ 0 := by exact_mod_cast hn
  have eX : X * n = xh := by
    rw [hX]; unfold qq; push_cast; field_simp
  have hna : (0:ℚ) < |(n : ℚ)| := abs_pos.mpr hnQ0
  have eXabs : |X| * |(n : ℚ)| = |(xh : ℚ)| := by rw [← abs_mul, eX]
  have hbQ : |X| * (2 ^ 53 - 1) ≤ |(Q : ℚ)| * 2 ^ 53 := by
    have : ((|xh| * (2 ^ 53 - 1) : ℤ) : ℚ) ≤ ((|n * Q| * 2 ^ 53 : ℤ) : ℚ) := by exact_mod_cast bh
    push_cast at this
    rw [← eXabs, abs_mul] at this
    have h2 : |(n : ℚ)| * (|X| * (2 ^ 53 - 1)) ≤ |(n : ℚ)| * (|(Q : ℚ)| * 2 ^ 53) := by linarith
    exact le_of_mul_le_mul_left h2 hna
  have hlX : 2 ^ 53 * |X - Q| ≤ |X| := by
    have e1 : (X - Q) * n = -xl := by
      have : (xh : ℚ) + xl = n * Q := by exact_mod_cast eQ
      rw [sub_mul, eX]; linarith
    have e2 : |X - Q| * |(n : ℚ)| = |(xl : ℚ)| := by rw [← abs_mul, e1, abs_neg]
    have : ((2 ^ 53 * |xl| : ℤ) : ℚ) ≤ ((|xh| : ℤ) : ℚ) := by exact_mod_cast hxl
    push_cast at this
    rw [← e2, ← eXabs] at this
    have h2 : |(n : ℚ)| * (2 ^ 53 * |X - Q|) ≤ |(n : ℚ)| * |X| := by linarith
    exact le_of_mul_le_mul_left h2 hna
  have hQ1q : (2:ℚ) ^ 1074 ≤ |(Q : ℚ)| := by
    rw [← abs_int_cast]; exact_mod_cast hQ1
  have hXbig : (2:ℚ) ^ 60 ≤ |X| := by
    have h1 : (2:ℚ) ^ 61 ≤ 2 ^ 1074 := pow_le_pow_right₀ (by norm_num) (by norm_num)
    have h2 := h1.trans hQ1q
    have h4 := abs_add_le X (Q - X)
    rw [add_sub_cancel, abs_sub_comm] at h4
    clear hQ1q h1 hQ1 hnQ eo
    norm_num at *
    linarith
  have hr1 := rel_err_rat (x := X) (le_trans (by norm_num) hXbig)
  set q1 := rnd X with hq1
  have hd : 2 ^ 51 * |Q - q1| ≤ |Q| := by
    have h1 := abs_add_le ((Q : ℚ) - X) (X - q1)
    rw [sub_add_sub_cancel, abs_sub_comm (Q : ℚ) X] at h1
    have h2 : (2:ℚ) ^ 51 * |(Q : ℚ) - q1| ≤ |(Q : ℚ)| := by
      have := abs_nonneg X
      clear hQ1q hQ1 hnQ eo
      norm_num at *
      linarith
    have h3 : ((2 ^ 51 * |Q - q1| : ℤ) : ℚ) ≤ ((|Q| : ℤ) : ℚ) := by push_cast; exact h2
    exact_mod_cast h3
  obtain ⟨k, hk, dk, s1, s2⟩ := quot_sizes hQ1 hd (rep_rnd _) hn2 hnQ
  have s2 := s2.resolve_right hn
  have dQ : (2:ℤ) ^ k ∣ Q := by
    refine dvd_trans (pow_dvd_pow 2 hk) ?_
    rw [← eo]; exact ⟨q, mul_comm _ _⟩
  -- a bound for everything
  have hqt : 2 ^ 130 * one' ≤ quantum := by
    unfold one' quantum; rw [← pow_add]; exact pow_le_pow_right₀ (by norm_num) (by norm_num)
  rw [← eo] at hnQ hQ1
  have hQle : |Q| ≤ 2 ^ 102 * one' := by
    refine le_trans ?_ hnQ
    rw [abs_mul n Q]
    exact le_mul_of_one_le_left (abs_nonneg Q) (abs_ge_one hn)
  have hq1le : |q1| ≤ 2 * |Q| := by
    have h2 := abs_add_le Q (q1 - Q)
    rw [add_sub_cancel, abs_sub_comm] at h2
    norm_num at hd
    have := abs_nonneg (Q - q1)
    omega
  have hq1ge : |Q| ≤ 2 * |q1| := by
    have h2 := abs_add_le q1 (Q - q1)
    rw [add_sub_cancel] at h2
    norm_num at hd
    have := abs_nonneg (Q - q1)
    omega
  have h104 : 2 ^ 110 ≤ one' := by rw [eo]; exact pow_le_pow_right₀ (by norm_num) (by norm_num)
  have nd : 2 ^ 51 * |n * (Q - q1)| ≤ |n * Q| := by
    rw [abs_mul, abs_mul]
    have := mul_le_mul_of_nonneg_left hd (abs_nonneg n)
    linarith
  have hnq1 : |n * q1| * 2 ^ 51 ≤ |n * Q| * (2 ^ 51 + 1) := by
    have h2 := abs_add_le (n * Q) (-(n * (Q - q1)))
    rw [show n * Q + -(n * (Q - q1)) = n * q1 by ring, abs_neg] at h2
    norm_num at *
    linarith
  -- step 1
  have i1 : Is (F64.div a.hi b.hi) q1 := ia.1.div ib.1 hb0 (by
    have : |X| ≤ (omegaUnits : ℚ) := by
      have h1 : |(Q : ℚ)| ≤ 2 ^ 102 * one' := by rw [← abs_int_cast]; exact_mod_cast hQle
      have h2 : (2:ℚ) ^ 130 * one' ≤ quantum := by exact_mod_cast hqt
      have h3 : (quantum : ℚ) ≤ omegaUnits := by
        have : quantum ≤ omegaUnits := by rw [omega_eq]; have := quantum_pos; omega
        exact_mod_cast this
      have h5 := abs_nonneg X
      have h6 : (0:ℚ) < one' := hpq
      clear hQ1q eo hX hr1 hlX hXbig hna hnQ0 hq1 hpq hp hnq1 nd h104 hq1ge hq1le s1 s2 bh hd hqn hQ1 hxl
      norm_num at hbQ h1 h2 ⊢
      linarith
    exact this)
  obtain ⟨p, f, ipf, hpf, epf⟩ := mulF64_int ib i1 (by norm_num at h104 ⊢; omega) hn (by
    rw [lim2_eq]; clear hQ1q eo s1 s2 dk dQ hX eX hQ hr1 hXbig hlX hbQ; norm_num at hnq1 hnQ hqt ⊢; linarith [quantum_pos, mul_nonneg (abs_nonneg n) (abs_nonneg q1), mul_nonneg (abs_nonneg n) (abs_nonneg Q)])
  have bp := hpf.hi_close
  rw [epf] at bp
  have szs : |xh| + |p| ≤ 2 ^ 105 * 2 ^ k := by
    clear hQ1q eo hQle hqt hnQ hQ1 s2 dk dQ
    generalize (2:ℤ) ^ k = K at *
    norm_num at *
    have := abs_nonneg xh
    have := abs_nonneg p
    linarith
  obtain ⟨zh, zl, ir, hr, er⟩ := sub_exact_grid (k := k) ia ipf hx hpf (by rw [eQ]; exact dQ.mul_left _)
    (by rw [epf]; exact dk.mul_left _) szs (by
      rw [lim2_eq]; clear hQ1q eo s1 s2 szs dk dQ
      norm_num at *; linarith [quantum_pos, abs_nonneg xh, abs_nonneg p])
  rw [eQ, epf, ← mul_sub] at er
  have hrepnD : Rep (n * (Q - q1)) := by
    apply Rep.of_dvd_le (k := k) ((dvd_sub dQ dk).mul_left _)
    rw [pow_add]
    clear hQ1q eo hQle hqt hnQ hQ1 s2 dk dQ szs
    generalize (2:ℤ) ^ k = K at *
    norm_num at *
    linarith [mul_nonneg (abs_nonneg n) (abs_nonneg Q), mul_nonneg (abs_nonneg n) (abs_nonneg (Q - q1))]
  have hrepD : Rep (Q - q1) := by
    apply Rep.of_dvd_le (k := k) (dvd_sub dQ dk)
    rw [pow_add]
    clear hQ1q eo hQle hqt hnQ hQ1 s1 dk dQ szs
    generalize (2:ℤ) ^ k = K at *
    norm_num at *
    linarith [abs_nonneg Q]
  have ezl : zl = 0 := hr.eq_of_rep (by rw [er]; exact hrepnD)
  subst ezl
  rw [add_zero] at er
  subst er
  -- step 2
  have hDo : |Q - q1| < ovf := by
    have h3 : quantum < ovf := by
      unfold quantum ovf; exact pow_lt_pow_right₀ (by norm_num) (by norm_num)
    clear hQ1q eo s1 s2 szs dk dQ
    norm_num at *
    linarith [abs_nonneg Q]
  have i2 := ir.1.div_rep ib.1 hb0 (k := Q - q1) (by ring) hrepD hDo
  have hnDo : |n * (Q - q1)| < ovf := ir.1.lt
  have im2 : DIs (Double.mulF64 b (F64.div (a - Double.mulF64 b (F64.div a.hi b.hi)).hi b.hi)) (n * (Q - q1)) 0 := by
    have i := is_twoProd_of ib.1 i2 (k := n * (Q - q1)) (by ring) hrepnD hnDo
    have j := ib.2.mul_rep i2 (k := 0) (by ring) .zero zero_ovf
    have z := is_quickTwoSum_norm i.1 (i.2.add_zero j) (norm2_zero_right hrepnD)
    exact ⟨z.1, z.2⟩
  have ir2 := dis_sub_self ir im2
  have i3 := ir2.1.zero_div ib.1 hb0
  rw [div_main_of ia.1 ib.1 hb0]
  have hsum : q1 + (Q - q1) = Q := by ring
  have z := is_renorm3 i1 i2 i3 (by norm_num at hd; omega) (by
      rw [lim2_eq]
      clear hQ1q eo s1 s2 szs dk dQ
      norm_num at *; linarith [abs_nonneg (Q - q1)]) (by rw [abs_zero, mul_zero]; exact abs_nonneg _) (by
      have hre := re_le q1 (Q - q1)
      have h3 := rs_add_re q1 (Q - q1)
      rw [hsum] at hre h3
      have h4 := abs_add_le (rs q1 (Q - q1)) (re q1 (Q - q1))
      rw [h3] at h4
      clear hQ1q eo s1 s2 szs dk dQ
      norm_num at *; linarith [abs_nonneg (re q1 (Q - q1))])
  exact ⟨_, _, ⟨z.1, z.2⟩, norm2_rs_re i1.rep i2.rep, by rw [rs_add_re, hsum]⟩

end Verif
