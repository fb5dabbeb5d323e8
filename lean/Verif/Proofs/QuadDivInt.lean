import Verif.Proofs.Rem
import Verif.Proofs.QuadDivIdent
import Verif.Proofs.QuadIntSum

/-!
# Exact quotients of integer valued Quads
-/

namespace Verif

open F64 Prim Util Quad

/-- The first quotient digit is close to the exact quotient. -/
theorem quot_digit {xh xl n q : ℤ} (hx : Norm2 xh xl) (e : xh + xl = q * n * one') (hn : n ≠ 0) (hq0 : q ≠ 0) :
    2 ^ 51 * |q * one' - rnd (((xh : ℤ) * one' : ℚ) / ((n * one' : ℤ) : ℚ))| ≤ |q * one'| ∧
      |(xh * one' : ℚ) / ((n * one' : ℤ) : ℚ)| ≤ 2 * |((q * one' : ℤ) : ℚ)| := by
  have hp := one'_pos
  have hpq := one'_posQ
  have eo : one' = 2 ^ 1074 := by unfold one'; rfl
  set Q := q * one' with hQ
  have eQ : xh + xl = n * Q := by rw [e, hQ]; ring
  have hQ1 : 2 ^ 1074 ≤ |Q| := by
    rw [hQ, abs_mul, abs_of_pos hp, ← eo]
    have := abs_ge_one hq0
    nlinarith
  have bh := hx.hi_close
  rw [eQ] at bh
  have hxl := hx.lo_le
  set X : ℚ := (xh * one' : ℚ) / ((n * one' : ℤ) : ℚ) with hX
  have hnQ0 : (n : ℚ) ≠ 0 := by exact_mod_cast hn
  have eX : X * n = xh := by
    rw [hX]; push_cast; field_simp
  have hna : (0:ℚ) < |(n : ℚ)| := abs_pos.mpr hnQ0
  have eXabs : |X| * |(n : ℚ)| = |(xh : ℚ)| := by rw [← abs_mul, eX]
  have hbQ : |X| * (2 ^ 53 - 1) ≤ |(Q : ℚ)| * 2 ^ 53 := by
    have : ((|xh| * (2 ^ 53 - 1) : ℤ) : ℚ) ≤ ((|n * Q| * 2 ^ 53 : ℤ) : ℚ) := by exact_mod_cast bh
    push_cast at this
    rw [← eXabs, abs_mul] at this
    have h2 : |(n : ℚ)| * (|X| * (2 ^ 53 - 1)) ≤ |(n : ℚ)| * (|(Q : ℚ)| * 2 ^ 53) := by linarith
    exact le_of_mul_le_mul_left h2 hna
  have hlX : 2 ^ 53 * |X - Q| ≤ |X| := by
    have e1 : (X - Q) * n = -xl := by
      have : (xh : ℚ) + xl = n * Q := by exact_mod_cast eQ
      rw [sub_mul, eX]; linarith
    have e2 : |X - Q| * |(n : ℚ)| = |(xl : ℚ)| := by rw [← abs_mul, e1, abs_neg]
    have : ((2 ^ 53 * |xl| : ℤ) : ℚ) ≤ ((|xh| : ℤ) : ℚ) := by exact_mod_cast hxl
    push_cast at this
    rw [← e2, ← eXabs] at this
    have h2 : |(n : ℚ)| * (2 ^ 53 * |X - Q|) ≤ |(n : ℚ)| * |X| := by linarith
    exact le_of_mul_le_mul_left h2 hna
  have hQ1q : (2:ℚ) ^ 1074 ≤ |(Q : ℚ)| := by
    rw [← abs_int_cast]; exact_mod_cast hQ1
  have hXbig : (2:ℚ) ^ 60 ≤ |X| := by
    have h1 : (2:ℚ) ^ 61 ≤ 2 ^ 1074 := pow_le_pow_right₀ (by norm_num) (by norm_num)
    have h2 := h1.trans hQ1q
    have h4 := abs_add_le X (Q - X)
    rw [add_sub_cancel, abs_sub_comm] at h4
    clear hQ1q h1 hQ1 eo
    norm_num at *
    linarith
  have hr1 := rel_err_rat (x := X) (le_trans (by norm_num) hXbig)
  refine ⟨?_, ?_⟩
  · set q1 := rnd X with hq1
    have h1 := abs_add_le ((Q : ℚ) - X) (X - q1)
    rw [sub_add_sub_cancel, abs_sub_comm (Q : ℚ) X] at h1
    have h2 : (2:ℚ) ^ 51 * |(Q : ℚ) - q1| ≤ |(Q : ℚ)| := by
      have := abs_nonneg X
      clear hQ1q hQ1 eo
      norm_num at *
      linarith
    have h3 : ((2 ^ 51 * |Q - q1| : ℤ) : ℚ) ≤ ((|Q| : ℤ) : ℚ) := by push_cast; exact h2
    exact_mod_cast h3
  · have := abs_nonneg X
    have := abs_nonneg (Q : ℚ)
    clear hQ1q hQ1 eo hXbig hr1
    norm_num at hbQ
    linarith

/-- `renorm5` of two overlapping components whose sum fits in one. -/
theorem is_renorm5_pair {a b c d e : F64} {m n : ℤ} (ia : Is a m) (ib : Is b n) (ic : Is c 0) (id : Is d 0) (ie : Is e 0) (hg : Grid m n)
    (hr : Rep (m + n)) (hl : |m| + |n| ≤ lim) : TIs (renorm5 a b c d e) (m + n, 0, 0, 0) := by
  have zz := norm2_zero_zero
  have t1 := is_quickTwoSum_norm id ie zz
  have t2 := is_quickTwoSum_norm ic t1.1 zz
  have t3 := is_quickTwoSum_norm ib t2.1 (norm2_zero_right ib.rep)
  have t4 := is_quickTwoSum ia t3.1 hg hl
  rw [rs_of_rep hr, re_of_rep hr] at t4
  unfold renorm5
  simp only
  generalize quickTwoSum a (quickTwoSum b (quickTwoSum c (quickTwoSum d e).1).1).1 = S4 at *
  generalize quickTwoSum b (quickTwoSum c (quickTwoSum d e).1).1 = S3 at *
  generalize quickTwoSum c (quickTwoSum d e).1 = S2 at *
  generalize quickTwoSum d e = S1 at *
  obtain ⟨x1, s4⟩ := S1
  obtain ⟨x2, s3⟩ := S2
  obtain ⟨x3, s2⟩ := S3
  obtain ⟨s0, s1⟩ := S4
  dsimp only at *
  have z0 : ∀ {x : F64}, Is x 0 → F64.ne x F64.zero = false := fun i => by
    rw [← Bool.not_eq_true, is_ne_zero i]; simp
  have r0 := norm2_zero_right hr
  rw [z0 t4.2]
  have u1 := is_quickTwoSum_norm t4.1 t3.2 r0
  have u2 := is_quickTwoSum_norm u1.1 t2.2 r0
  have u3 := is_quickTwoSum_norm u2.1 t1.2 r0
  simp only [z0 u1.2, z0 u2.2]
  exact ⟨u3.1, u3.2, is_zero, is_zero⟩

/-- `mul_f64` of an integer divisor is exact. -/
theorem qmulF64_int {b : Quad} {x : F64} {n k : ℤ} (hb : QIs b (n * one', 0, 0, 0)) (iq : Is x k) (hk : 2 ^ 104 ≤ |k|)
    (hn : n ≠ 0) (hr : |n * k| ≤ lim2) :
    ∃ p e, QIs (mulF64 b x) (p, e, 0, 0) ∧ Norm2 p e ∧ p + e = n * k := by
  have hq : pq (n * one') k = ((n * k : ℤ) : ℚ) := by
    unfold pq; have := one'_ne; push_cast; field_simp
  have hex : 1022 ≤ expo ((n * one' : ℤ) : ℚ) := by
    apply le_expo_of_le
    have e : ((2:ℚ) ^ (52 + 1022)) = one' := by rw [one'_pow]
    rw [e]
    push_cast
    rw [abs_mul, abs_of_pos one'_posQ]
    have : (1:ℚ) ≤ |(n:ℚ)| := by rw [← abs_int_cast]; exact_mod_cast abs_ge_one hn
    nlinarith [one'_posQ]
  have hex2 : 52 ≤ expo (k : ℚ) := by
    apply le_expo_of_le
    rw [← abs_int_cast]
    exact_mod_cast hk
  have i0 : Is b.c0 (n * one') := hb.i0
  have hpe := pe_exact i0.rep iq.rep (by omega)
  rw [hq] at hpe
  have hpr : pr (n * one') k = rnd ((n * k : ℤ) : ℚ) := by unfold pr; rw [hq]
  have hpe' : pe (n * one') k = n * k - rnd ((n * k : ℤ) : ℚ) := by
    rw [hpr] at hpe; exact_mod_cast hpe
  have i := is_twoProd i0 iq (by
    rw [hq, ← abs_int_cast]
    have : |n * k| ≤ omegaUnits := hr.trans (by
      rw [lim2_eq, omega_eq]; have := quantum_pos; omega)
    exact_mod_cast this)
  rw [hpr, hpe'] at i
  have hN := norm2_rnd_sub i.2.rep
  have zz := norm2_zero_zero
  have t1 := is_twoProd_of hb.i1 iq (k := 0) (by ring) .zero zero_ovf
  have t2 := is_twoProd_of hb.i2 iq (k := 0) (by ring) .zero zero_ovf
  have t3 := hb.i3.mul_rep iq (k := 0) (by ring) .zero zero_ovf
  have u1 := is_twoSum_zero_left i.2 t1.1
  have u2 := is_twoSum_zero_left t2.1 u1.2
  have u3 := is_twoSum_zero_left u2.1 t1.2
  have u4 := is_twoSum_zero_left u3.2 u2.2
  have v2 := is_twoSum_zero_left t3 u4.1
  have v3 := is_twoSum_zero_left v2.1 t2.2
  have v4 := v2.2.add_zero v3.2
  have w := is_mul_zero u4.2 v4
  have R := is_renorm5_norm i.1 u1.1 u3.1 v3.1 w hN (norm2_zero_right hN.rep_lo) zz
  exact ⟨_, _, ⟨R.i0, R.i1, R.i2, R.i3⟩, hN, by ring⟩

set_option maxHeartbeats 800000 in
/-- Division of integer valued Quads is exact when the quotient is an integer of at most 53 bits. -/
theorem qdiv_int_exact {a b : Quad} {x0 x1 q n : ℤ} (ha : QIs a (x0, x1, 0, 0)) (hx : Norm2 x0 x1) (hb : QIs b (n * one', 0, 0, 0))
    (e : x0 + x1 = q * n * one') (hn : n ≠ 0) (hn2 : |n| ≤ 2 ^ 46) (hq : |q| ≤ 2 ^ 53) (hq0 : q ≠ 0) :
    QIs (a / b) (q * one', 0, 0, 0) := by
  have hp := one'_pos
  have eo : one' = 2 ^ 1074 := by unfold one'; rfl
  have hb0 : n * one' ≠ 0 := mul_ne_zero hn hp.ne'
  obtain ⟨hd, hXb⟩ := quot_digit hx e hn hq0
  have hrq : Rep (q * one') := rep_int hq
  obtain ⟨Q, hQ⟩ : ∃ Q, Q = q * one' := ⟨_, rfl⟩
  rw [← hQ] at hd hXb hrq ⊢
  have eQ : x0 + x1 = n * Q := by rw [e, hQ]; ring
  have hQ1 : one' ≤ |Q| := by
    rw [hQ, abs_mul, abs_of_pos hp]
    exact le_mul_of_one_le_left hp.le (abs_ge_one hq0)
  have hQle : |Q| ≤ 2 ^ 53 * one' := by
    rw [hQ, abs_mul, abs_of_pos hp]; exact mul_le_mul_of_nonneg_right hq hp.le
  have hnQ : |n * Q| ≤ 2 ^ 99 * one' := by
    rw [abs_mul]
    refine (mul_le_mul hn2 hQle (abs_nonneg _) (by positivity)).trans (le_of_eq ?_)
    ring
  have hqt : 2 ^ 200 * one' ≤ quantum := by
    unfold one' quantum; rw [← pow_add]; exact pow_le_pow_right₀ (by norm_num) (by norm_num)
  have hl : 2 ^ 200 * one' ≤ lim := by
    have e1 : lim = 3 * 2 ^ 1022 * 2 ^ 1074 := by unfold lim; rw [mul_assoc, ← pow_add]
    rw [e1, ← eo]
    refine mul_le_mul_of_nonneg_right ?_ hp.le
    have h2 : (2:ℤ) ^ 200 ≤ 2 ^ 1022 := pow_le_pow_right₀ (by norm_num) (by norm_num)
    have h3 : (0:ℤ) < 2 ^ 1022 := by positivity
    clear eo e1
    generalize (2:ℤ) ^ 1022 = P at *
    omega
  have hovf : 2 ^ 200 * one' ≤ ovf := hl.trans lim_lt.le
  have h104 : 2 ^ 110 ≤ one' := by rw [eo]; exact pow_le_pow_right₀ (by norm_num) (by norm_num)
  -- the first digit
  have i1 : Is (F64.div a.c0 b.c0) (rnd ((x0 * one' : ℚ) / ((n * one' : ℤ) : ℚ))) := ha.i0.div hb.i0 hb0 (by
    refine hXb.trans ?_
    have h2 : 2 * |Q| ≤ omegaUnits := by
      rw [omega_eq]
      have := quantum_pos
      omega
    have : ((2 * |Q| : ℤ) : ℚ) ≤ (omegaUnits : ℚ) := by exact_mod_cast h2
    push_cast at this
    exact this)
  have hdrep := rep_rnd ((x0 * one' : ℚ) / ((n * one' : ℤ) : ℚ))
  clear hXb
  generalize rnd ((x0 * one' : ℚ) / ((n * one' : ℤ) : ℚ)) = q1 at *
  obtain ⟨k, hk, dk, s1, s2⟩ := quot_sizes (n := 8 * n) (eo ▸ hQ1) hd hdrep (by rw [abs_mul, abs_of_pos (by norm_num : (0:ℤ) < 8)]; linarith)
    (by
      rw [mul_assoc, abs_mul, abs_of_pos (by norm_num : (0:ℤ) < 8), ← eo]
      have : 0 ≤ one' := hp.le
      linarith)
  have s2 := s2.resolve_right (mul_ne_zero (by norm_num) hn)
  rw [mul_assoc, abs_mul, abs_of_pos (by norm_num : (0:ℤ) < 8)] at s1
  have dQ : (2:ℤ) ^ k ∣ Q := by
    refine dvd_trans (pow_dvd_pow 2 hk) ?_
    rw [← eo, hQ]; exact ⟨q, mul_comm _ _⟩
  have hK : (2:ℤ) ^ k ≤ one' := by rw [eo]; exact pow_le_pow_right₀ (by norm_num) hk
  have hK0 : (0:ℤ) < 2 ^ k := by positivity
  have dQ1 := dvd_sub dQ dk
  have dnQ := dQ.mul_left n
  have dnq := dk.mul_left n
  have dnD := dQ1.mul_left n
  have hD0 := abs_nonneg (Q - q1)
  have hq1le : |q1| ≤ 2 * |Q| := by
    have h2 := abs_add_le Q (q1 - Q)
    rw [add_sub_cancel, abs_sub_comm] at h2
    omega
  have hq1ge : |Q| ≤ 2 * |q1| := by
    have h2 := abs_add_le q1 (Q - q1)
    rw [add_sub_cancel] at h2
    omega
  have nd : 2 ^ 51 * |n * (Q - q1)| ≤ |n * Q| := by
    rw [abs_mul, abs_mul]
    have := mul_le_mul_of_nonneg_left hd (abs_nonneg n)
    linarith
  have hnq1 : |n * q1| ≤ |n * Q| + |n * (Q - q1)| := by
    have h2 := abs_sub (n * Q) (n * (Q - q1))
    rwa [show n * Q - n * (Q - q1) = n * q1 by ring] at h2
  have p1 := abs_nonneg (n * Q)
  have p2 := abs_nonneg (n * (Q - q1))
  have p3 := abs_nonneg Q
  -- the remainder
  obtain ⟨p, f, ipf, hpf, epf⟩ := qmulF64_int hb i1 (by omega) hn (by
    rw [lim2_eq]
    have := quantum_pos
    omega)
  have h1 : ∀ {h l : ℤ}, Norm2 h l → (2:ℤ) ^ k ∣ h + l → (2:ℤ) ^ k ∣ h ∧ (2:ℤ) ^ k ∣ l := by
    intro h l hN hdv
    have h3 : (2:ℤ) ^ k ∣ h := by have := dvd_rnd hdv; rwa [hN.rnd_eq] at this
    exact ⟨h3, by have := dvd_sub hdv h3; simpa using this⟩
  obtain ⟨da0, da1⟩ := h1 hx (eQ ▸ dnQ)
  obtain ⟨dp0, dp1⟩ := h1 hpf (epf ▸ dnq)
  have ipn : QIs (-mulF64 b (F64.div a.c0 b.c0)) (-p, -f, 0, 0) := by
    have := ipf.neg
    simpa using this
  obtain ⟨r0, r1, ir, hr, er⟩ := quad_add_whole (k := k) ha ipn hx hpf.swap_sign da0 da1 ((dvd_neg).mpr dp0) ((dvd_neg).mpr dp1) (by
      rw [show -p + -f = -(p + f) by ring, abs_neg, eQ, epf]
      omega) (by omega)
  rw [eQ, show -p + -f = -(p + f) by ring, epf, ← sub_eq_add_neg, ← mul_sub] at er
  have hrepnD : Rep (n * (Q - q1)) := by
    apply Rep.of_dvd_le (k := k) dnD
    rw [pow_add]
    omega
  have hrepD : Rep (Q - q1) := by
    apply Rep.of_dvd_le (k := k) dQ1
    rw [pow_add]
    omega
  have ezl : r1 = 0 := hr.eq_of_rep (by rw [er]; exact hrepnD)
  rw [ezl, add_zero] at er
  rw [ezl, er] at ir
  change QIs (a - mulF64 b (F64.div a.c0 b.c0)) _ at ir
  have hnDo : |n * (Q - q1)| < ovf := by omega
  have zz := norm2_zero_zero
  -- the second digit
  have i2 := ir.i0.div_rep hb.i0 hb0 (k := Q - q1) (by ring) hrepD (by omega)
  have m2 := is_qmulF64 (k0 := n * (Q - q1)) (k1 := 0) (k2 := 0) (k3 := 0) hb i2 (by ring) (by ring) (by ring) (by ring)
    ⟨norm2_zero_right hrepnD, zz, zz⟩ hnDo
  have r2 := quad_sub_same ir m2 (Norm4.ord ⟨norm2_zero_right hrepnD, zz, zz⟩) (by
    show 2 ^ 50 * |n * (Q - q1)| ≤ lim
    omega)
  have hz : ∀ {r : Quad}, QIs r (0, 0, 0, 0) → Is (F64.div r.c0 b.c0) 0 ∧ QIs (r - mulF64 b (F64.div r.c0 b.c0)) (0, 0, 0, 0) := by
    intro r hr
    have q := hr.i0.zero_div hb.i0 hb0
    have p := is_qmulF64 (k0 := 0) (k1 := 0) (k2 := 0) (k3 := 0) hb q (by ring) (by ring) (by ring) (by ring) ⟨zz, zz, zz⟩ zero_ovf
    refine ⟨q, quad_sub_same hr p ⟨by simp, by simp, by simp⟩ ?_⟩
    show 2 ^ 50 * |(0:ℤ)| ≤ lim
    rw [abs_zero]; omega
  have s2 := hz r2
  have s3 := hz s2.2
  have s4 := hz s3.2
  have R := is_renorm5_pair i1 i2 s2.1 s3.1 s4.1 (Grid.of_abs_le i1.rep i2.rep (by omega)) (by rw [add_sub_cancel]; exact hrq) (by omega)
  rw [add_sub_cancel] at R
  show QIs (Quad.div a b) _
  unfold Quad.div
  rw [qdiv_main ha.i0 hb.i0 hb0]
  exact ⟨R.i0, R.i1, R.i2, R.i3⟩

end Verif
