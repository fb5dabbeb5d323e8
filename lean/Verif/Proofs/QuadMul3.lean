import Verif.Proofs.QuadMul2

/-!
# `Quad` multiplication: the error bound in units
-/

namespace Verif

open F64 Prim Util

/-- Any step of the scale `M / 2^(53 j)`. -/
theorem scale_of {M : ℚ} (h : 2 ^ 250 * 2 ^ 50 ≤ M) :
    Scale (M / 2 ^ 53) (M / 2 ^ 106) (M / 2 ^ 159) (M / 2 ^ 212) (M / 2 ^ 212 / 2 ^ 53) :=
  ⟨by linarith, by linarith, by linarith, by linarith, by linarith, by linarith, by linarith, by linarith, by linarith⟩

theorem rs_bound {m n : ℤ} {A B : ℚ} (hm : |(m : ℚ)| ≤ A) (hn : |(n : ℚ)| ≤ B) :
    |(rs m n : ℚ)| ≤ (A + B) * (1 + 1 / 2 ^ 53) := by
  have h1 := rs_errQ m n
  have h2 := tri_r h1
  have h3 : |(m + n : ℚ)| ≤ A + B := (abs_add_le _ _).trans (add_le_add hm hn)
  have h4 : |(m + n : ℚ)| / 2 ^ 53 ≤ (A + B) / 2 ^ 53 := div_le_div_of_nonneg_right h3 (by positivity)
  linarith

/-- The sum is not much larger than the rounded sum. -/
theorem sum_le_rs {m n : ℤ} {R : ℚ} (h : |(rs m n : ℚ)| ≤ R) : |(m + n : ℚ)| ≤ R * (1 + 1 / 2 ^ 52) := by
  have h1 := tri_l (rs_errQ m n)
  have := abs_nonneg (m + n : ℚ)
  linarith

/-- The parts of a product are multiples of the product of the grids of the factors. -/
theorem prod_dvd {m n : ℤ} (hm : Rep m) (hn : Rep n) {k : ℕ} (h : 1074 + k ≤ expo (m : ℚ) + expo (n : ℚ)) :
    (2:ℤ) ^ k ∣ pe m n := by
  obtain ⟨a, ha⟩ := hm.dvd
  obtain ⟨b, hb⟩ := hn.dvd
  obtain ⟨t, ht⟩ := Nat.exists_eq_add_of_le h
  have e : (2:ℤ) ^ expo (m : ℚ) * 2 ^ expo (n : ℚ) = one' * (2 ^ k * 2 ^ t) := by
    rw [← pow_add, ht, pow_add, pow_add]; unfold one'; ring
  have hmn : m * n = one' * (2 ^ k * (2 ^ t * (a * b))) := by
    calc m * n = (2 ^ expo (m : ℚ) * a) * (2 ^ expo (n : ℚ) * b) := by rw [← ha, ← hb]
      _ = (2 ^ expo (m : ℚ) * 2 ^ expo (n : ℚ)) * (a * b) := by ring
      _ = _ := by rw [e]; ring
  set P : ℤ := 2 ^ k * (2 ^ t * (a * b)) with hP
  have hq : pq m n = (P : ℚ) := by
    unfold pq
    have : (m * n : ℚ) = one' * P := by exact_mod_cast hmn
    rw [this, mul_div_cancel_left₀ _ one'_ne]
  have hpd : (2:ℤ) ^ k ∣ P := ⟨_, hP⟩
  have hpr : (2:ℤ) ^ k ∣ pr m n := by unfold pr; rw [hq]; exact dvd_rnd hpd
  have hpe := pe_exact hm hn (by omega)
  rw [hq] at hpe
  have : pe m n = P - pr m n := by exact_mod_cast hpe
  rw [this]
  exact Int.dvd_sub hpd hpr

theorem expo_sum_of_big {m n : ℤ} {k : ℕ} (h : (2:ℚ) ^ (106 + k) ≤ |pq m n|) :
    1074 + k ≤ expo (m : ℚ) + expo (n : ℚ) := by
  by_contra hc
  push Not at hc
  have h1 := lt_expo (m : ℚ)
  have h2 := lt_expo (n : ℚ)
  have h3 : |(m : ℚ)| * |(n : ℚ)| < 2 ^ (53 + expo (m : ℚ)) * 2 ^ (53 + expo (n : ℚ)) :=
    mul_lt_mul'' h1 h2 (abs_nonneg _) (abs_nonneg _)
  rw [pq_abs, le_div_iff₀ one'_posQ, one'_pow, ← pow_add] at h
  rw [← pow_add] at h3
  have h4 : (2:ℚ) ^ (53 + expo (m : ℚ) + (53 + expo (n : ℚ))) ≤ 2 ^ (106 + k + 1074) :=
    pow_le_pow_right₀ (by norm_num) (by omega)
  exact absurd (h.trans_lt (h3.trans_le h4)) (lt_irrefl _)

set_option maxHeartbeats 2000000 in
/-- The second step of `renorm5` loses nothing: the second summand is on the grid of what is added to it. -/
theorem mul_grid {a b : Quad} (oa : QOrd a) (ob : QOrd b) {l0 r1 r2 r3 r4 : F64} {M : ℚ}
    (hM : |pq a.c0.units b.c0.units| = M) (hbig : 2 ^ 250 * 2 ^ 50 ≤ M) (hl : 1000 * M ≤ (lim : ℚ))
    (hr : mulRs a b l0 = (r1, r2, r3, r4)) (fl : l0.isFinite = true) (hl0 : l0.units = pe a.c0.units b.c0.units)
    (fr1 : Fb r1 (6 * (M / 2 ^ 53))) (fr2 : Fb r2 (30 * (M / 2 ^ 106))) (fr3 : Fb r3 (139 * (M / 2 ^ 159)))
    (fr4 : Fb r4 (1000 * (M / 2 ^ 212)))
    (ur1 : r1.units = rs l0.units (rs (pr a.c0.units b.c1.units) (pr a.c1.units b.c0.units))) :
    Grid r1.units (rs r2.units (rs r3.units r4.units)) := by
  have ra := (Is.of_finite oa.f0).rep
  have rb := (Is.of_finite ob.f0).rep
  have hx3 := rs_bound fr3.le fr4.le
  have hx2 := rs_bound fr2.le hx3
  have rx2 : Rep (rs r2.units (rs r3.units r4.units)) := rep_rnd _
  generalize hX : rs r2.units (rs r3.units r4.units) = X at *
  have hX2 : |(X : ℚ)| ≤ 31 * (M / 2 ^ 106) := by linarith
  by_cases hk : expo (X : ℚ) = 0
  · exact ⟨0, by simp, by simp, by have := expo_int_lt X; rw [hk] at this; exact this⟩
  have hXk := expo_le (X : ℚ) hk
  have hXl := lt_expo (X : ℚ)
  by_cases hab : |X| ≤ |r1.units|
  · exact .of_abs_le fr1.rep rx2 hab
  push Not at hab
  rw [grid_iff]
  refine ⟨rx2, ?_⟩
  generalize hkk : expo (X : ℚ) = k at *
  have hdl : (2:ℤ) ^ k ∣ l0.units := by
    rw [hl0]
    apply prod_dvd ra rb
    apply expo_sum_of_big
    rw [hM]
    have e1 : (2:ℚ) ^ (52 + k) = 2 ^ 52 * 2 ^ k := by rw [pow_add]
    have e2 : (2:ℚ) ^ (106 + k) = 2 ^ 106 * 2 ^ k := by rw [pow_add]
    rw [e1] at hXk
    rw [e2]
    have hT : (0:ℚ) < 2 ^ k := by positivity
    generalize (2:ℚ) ^ k = T at *
    linarith
  rw [ur1]
  by_cases hdu : (2:ℤ) ^ k ∣ rs (pr a.c0.units b.c1.units) (pr a.c1.units b.c0.units)
  · exact dvd_rs hdl hdu
  exfalso
  have hu : |rs (pr a.c0.units b.c1.units) (pr a.c1.units b.c0.units)| < 2 ^ (52 + k) := by
    by_contra hc
    push Not at hc
    exact hdu (Rep.dvd_of_le (rep_rnd _) hc)
  have hone : ¬ (2:ℤ) ^ k ∣ pr a.c0.units b.c1.units ∨ ¬ (2:ℤ) ^ k ∣ pr a.c1.units b.c0.units := by
    by_contra hc
    push Not at hc
    exact hdu (dvd_rs hc.1 hc.2)
  have hhalf : |pr a.c0.units b.c1.units| < 2 ^ (52 + k) ∨ |pr a.c1.units b.c0.units| < 2 ^ (52 + k) := by
    rcases hone with h | h
    · left
      by_contra hc
      push Not at hc
      exact h (Rep.dvd_of_le (rep_rnd _) hc)
    · right
      by_contra hc
      push Not at hc
      exact h (Rep.dvd_of_le (rep_rnd _) hc)
  -- all in rationals
  have e1 : (2:ℚ) ^ (52 + k) = 2 ^ 52 * 2 ^ k := by rw [pow_add]
  have e2 : (2:ℚ) ^ (53 + k) = 2 ^ 53 * 2 ^ k := by rw [pow_add]
  have e1' : (2:ℤ) ^ (52 + k) = 2 ^ 52 * 2 ^ k := by rw [pow_add]
  have huQ : |(rs (pr a.c0.units b.c1.units) (pr a.c1.units b.c0.units) : ℚ)| ≤ 2 ^ 52 * 2 ^ k := by
    rw [← e1]; exact_mod_cast hu.le
  have hsum := sum_le_rs huQ
  have hT1 : (1:ℚ) ≤ 2 ^ k := one_le_pow₀ (by norm_num)
  have hhQ : |(pr a.c0.units b.c1.units : ℚ)| ≤ 2 ^ 52 * 2 ^ k ∨ |(pr a.c1.units b.c0.units : ℚ)| ≤ 2 ^ 52 * 2 ^ k := by
    rw [← e1]
    rcases hhalf with h | h
    · left; exact_mod_cast h.le
    · right; exact_mod_cast h.le
  have hr1Q : |(rs l0.units (rs (pr a.c0.units b.c1.units) (pr a.c1.units b.c0.units)) : ℚ)| ≤ 2 ^ 53 * 2 ^ k := by
    rw [← ur1, ← e2]
    have : |(r1.units : ℚ)| ≤ |(X : ℚ)| := by exact_mod_cast hab.le
    exact this.trans hXl.le
  have hsum2 := sum_le_rs hr1Q
  rw [e1] at hXk
  have hT : (0:ℚ) < 2 ^ k := by positivity
  have p1 : |(pr a.c0.units b.c1.units : ℚ)| ≤ 2 ^ 54 * 2 ^ k ∧ |(pr a.c1.units b.c0.units : ℚ)| ≤ 2 ^ 54 * 2 ^ k := by
    have f := abs_le.mp hsum
    rcases hhQ with h | h
    · have g := abs_le.mp h
      exact ⟨h.trans (by linarith), abs_le.mpr ⟨by linarith, by linarith⟩⟩
    · have g := abs_le.mp h
      exact ⟨abs_le.mpr ⟨by linarith, by linarith⟩, h.trans (by linarith)⟩
  have hl0Q : |U l0| ≤ 2 ^ 54 * 2 ^ k := by
    have f := abs_le.mp hsum2
    have g := abs_le.mp huQ
    unfold U
    exact abs_le.mpr ⟨by linarith, by linarith⟩
  have q01 := pr_lower a.c0.units b.c1.units
  have q10 := pr_lower a.c1.units b.c0.units
  clear hab hu hhalf hone hdu hdl hkk hk e1' e2 e1 hsum hsum2 hr1Q huQ hhQ hXl ur1 hl0
  have hbig' : (2:ℚ) ^ 60 ≤ M / 2 ^ 106 := by
    refine le_trans ?_ (div_le_div_of_nonneg_right hbig (by positivity))
    norm_num
  have hlim : (1000:ℚ) * (2 ^ 55 * 2 ^ k + 10 ^ 16) ≤ (lim : ℚ) := by
    refine le_trans ?_ hl
    clear hbig hl
    generalize (2:ℚ) ^ k = T at *
    linarith
  clear hbig hl
  generalize (2:ℚ) ^ k = T at *
  have sc : Scale (2 ^ 55 * T + 10 ^ 16) (2 ^ 2 * T + 10 ^ 12) (T / 2 ^ 51 + 10 ^ 8) (T / 2 ^ 104 + 10 ^ 4) (T / 2 ^ 157 + 1) :=
    ⟨by linarith, by linarith, by linarith, by linarith, by linarith, by linarith, by linarith, by linarith, by linarith⟩
  obtain ⟨r1', r2', r3', r4', hr', _, fr2', fr3', fr4', _, _⟩ := mulRs_ok oa ob sc hlim
    (q01.trans (by linarith [p1.1])) (q10.trans (by linarith [p1.2])) (l0 := l0) ⟨fl, hl0Q.trans (by linarith)⟩
  rw [hr, Prod.mk.injEq, Prod.mk.injEq, Prod.mk.injEq] at hr'
  obtain ⟨_, h2, h3, h4⟩ := hr'
  rw [← h2] at fr2'
  rw [← h3] at fr3'
  rw [← h4] at fr4'
  have y3 := rs_bound fr3'.le fr4'.le
  have y2 := rs_bound fr2'.le y3
  rw [hX] at y2
  linarith

theorem one_third {M x y : ℚ} (h : |x - y| ≤ M / 2 ^ 53 + 1 / 2) (hM : 2 ^ 250 * 2 ^ 50 ≤ M) (hy : |y| = M) : M ≤ 2 * |x| := by
  have := tri_l h
  linarith

set_option maxHeartbeats 2000000 in
/-- The error of `Quad` multiplication in units. -/
theorem mul_units {a b : Quad} (oa : QOrd a) (ob : QOrd b) {M : ℚ} (hM : |pq a.c0.units b.c0.units| = M)
    (hbig : 2 ^ 250 * 2 ^ 50 ≤ M) (hl : 1000 * M ≤ (lim : ℚ)) (hp : Quad.preMul a b = none) :
    (a * b).Fin ∧ |UQ (a * b) - UP a b| ≤ 201 * (M / 2 ^ 212) := by
  have hM0 : 0 ≤ M := by linarith
  have h00 : |pq a.c0.units b.c0.units| ≤ M := hM.le
  obtain ⟨p0, l0, q0, fp0, fl0, e0, u0, ul0⟩ := qb_prod oa.f0 ob.f0 h00 (by linarith)
  have h01 : |pq a.c0.units b.c1.units| ≤ 2 * (M / 2 ^ 53) := by
    refine (ob.d1.right a.c0.units).trans ?_
    rw [hM]; linarith
  have h10 : |pq a.c1.units b.c0.units| ≤ 2 * (M / 2 ^ 53) := by
    refine (oa.d1.left b.c0.units).trans ?_
    rw [hM]; linarith
  obtain ⟨r1, r2, r3, r4, hr, fr1, fr2, fr3, fr4, er, ur1⟩ :=
    mulRs_ok oa ob (scale_of hbig) (by linarith) h01 h10 (l0 := l0) (fl0.mono (by linarith))
  have hg := mul_grid oa ob hM hbig hl hr fl0.fin ul0 fr1 fr2 fr3 fr4 ur1
  have hlow : M ≤ 2 * |U p0| := by
    refine one_third (y := pq a.c0.units b.c0.units) ?_ hbig hM
    rw [abs_sub_comm]
    unfold U
    rw [u0]
    have := err_le (pq a.c0.units b.c0.units)
    rw [hM] at this
    exact this
  have hs := renorm5_sum hM0 (fp0.mono (by linarith)) hlow (fr1.mono (by linarith)) (fr2.mono (by linarith))
    (fr3.mono (by linarith)) (fr4.mono (by linarith)) hg (by linarith)
  rw [mul_mulRs hp]
  dsimp only
  rw [q0]
  dsimp only
  rw [hr]
  dsimp only
  refine ⟨⟨hs.f0, hs.f1, hs.f2, hs.f3⟩, ?_⟩
  have h1 := abs_le.mp hs.err
  have h2 := abs_le.mp er
  have h3 := abs_le.mp e0
  unfold UQ
  dsimp only
  generalize UP a b = P at *
  generalize pq a.c0.units b.c0.units = Q at *
  exact abs_le.mpr ⟨by linarith, by linarith⟩

end Verif
