import Verif.Model.Alg
import Verif.Proofs.Fract
import Verif.Proofs.DoubleMul

/-!
# Integers as Doubles, exact arithmetic on them
-/

namespace Verif

open F64 Prim Util

/-- Every `2^k` units is below the overflow threshold for `k < 2098`. -/
theorem pow_lt_ovf {k : ℕ} (h : k < 2098) : |(2:ℤ) ^ k| < ovf := by
  rw [abs_of_pos (by positivity)]; unfold ovf
  exact pow_lt_pow_right₀ (by norm_num) h

theorem mul_one'_lt {n : ℤ} {k : ℕ} (h : |n| ≤ 2 ^ k) (hk : k < 1024) : |n * one'| < ovf := by
  have hp := one'_pos
  have h1 : |n * one'| ≤ 2 ^ k * one' := by
    rw [abs_mul, abs_of_pos hp]; exact mul_le_mul_of_nonneg_right h hp.le
  refine lt_of_le_of_lt h1 ?_
  have : (2:ℤ) ^ k * one' = 2 ^ (k + 1074) := by unfold one'; rw [pow_add]
  rw [this]
  exact lt_of_le_of_lt (le_abs_self _) (pow_lt_ovf (by omega))

theorem rep_int {n : ℤ} (h : |n| ≤ 2 ^ 53) : Rep (n * one') := ⟨n, 1074, h, by unfold one'; rfl⟩

/-- `as f64` of an integer with at most 53 bits is exact. -/
theorem is_ofInt {n : ℤ} (h : |n| ≤ 2 ^ 53) : Is (F64.ofInt n) (n * one') := by
  unfold F64.ofInt
  apply is_ofRound_units _ _ (rep_int h) (mul_one'_lt h (by norm_num))
  rw [Nat.cast_mul, one'_nat]
  by_cases hn : n < 0
  · rw [decide_eq_true hn, if_pos rfl, Int.ofNat_natAbs_of_nonpos hn.le]; ring
  · rw [decide_eq_false hn, if_neg (by simp), Int.natAbs_of_nonneg (not_lt.mp hn)]

theorem pow32 : F64.powi Double.two 32 = F64.ofInt (2 ^ 32) := by decide +kernel

/-- The sum of an integer multiple of `2^32` and a smaller integer, by `renorm2`. -/
theorem is_int_pair {x y : ℕ} (hx : x < 2 ^ 32) (hy : y < 2 ^ 32) :
    ∃ zh zl, Is (renorm2 (F64.mul (F64.ofInt x) (F64.powi Double.two 32)) (F64.ofInt y)).1 zh ∧
      Is (renorm2 (F64.mul (F64.ofInt x) (F64.powi Double.two 32)) (F64.ofInt y)).2 zl ∧ Norm2 zh zl ∧
      zh + zl = ((x * 2 ^ 32 + y : ℕ) : ℤ) * one' := by
  have hp := one'_pos
  have ix : Is (F64.ofInt (x:ℤ)) ((x:ℤ) * one') := is_ofInt (by rw [abs_of_nonneg (by positivity)]; omega)
  have iy : Is (F64.ofInt (y:ℤ)) ((y:ℤ) * one') := is_ofInt (by rw [abs_of_nonneg (by positivity)]; omega)
  have i2 : Is (F64.powi Double.two 32) (2 ^ 32 * one') := by rw [pow32]; exact is_ofInt (by norm_num)
  have im : Is (F64.mul (F64.ofInt x) (F64.powi Double.two 32)) ((x:ℤ) * 2 ^ 32 * one') := by
    apply ix.mul_rep i2 (by ring)
    · exact ⟨x, 1106, by rw [abs_of_nonneg (by positivity)]; omega, by
        unfold one'; rw [show (1106:ℕ) = 32 + 1074 from rfl, pow_add]; ring⟩
    · apply mul_one'_lt (k := 64) _ (by norm_num)
      rw [abs_of_nonneg (by positivity)]
      have : (x:ℤ) < 2 ^ 32 := by exact_mod_cast hx
      norm_num at this ⊢
      linarith
  have z := is_qts_whole im iy ⟨_, mul_comm _ _⟩ ⟨_, mul_comm _ _⟩ (by
    rw [abs_of_nonneg (by positivity)]
    apply mul_le_mul_of_nonneg_right _ hp.le
    have : (y:ℤ) < 2 ^ 32 := by exact_mod_cast hy
    norm_num at this ⊢
    linarith)
  refine ⟨_, _, z.1, z.2.1, z.2.2, ?_⟩
  rw [rs_add_re]; push_cast; ring

/-! ### Exact addition on a grid -/

theorem Norm2.dvd {h l : ℤ} {k : ℕ} (hn : Norm2 h l) (hd : (2:ℤ) ^ k ∣ h + l) : (2:ℤ) ^ k ∣ h ∧ (2:ℤ) ^ k ∣ l := by
  have h1 : (2:ℤ) ^ k ∣ h := by
    rw [← hn.rnd_eq]; exact dvd_rnd hd
  exact ⟨h1, (Int.dvd_add_right h1).mp hd⟩

/-- Addition is exact when both operands are multiples of `2^k` and small against it. -/
theorem add_exact_grid {xh xl yh yl : ℤ} {k : ℕ} (hx : Norm2 xh xl) (hy : Norm2 yh yl)
    (dx : (2:ℤ) ^ k ∣ xh + xl) (dy : (2:ℤ) ^ k ∣ yh + yl) (bxy : |xh| + |yh| ≤ 2 ^ 105 * 2 ^ k) :
    addVh xh xl yh yl + addW xh xl yh yl = xh + xl + (yh + yl) := by
  have hk : (0:ℤ) < 2 ^ k := by positivity
  obtain ⟨dxh, dxl⟩ := hx.dvd dx
  obtain ⟨dyh, dyl⟩ := hy.dvd dy
  have lx := hx.lo_le
  have ly := hy.lo_le
  have dre : (2:ℤ) ^ k ∣ re xh yh := dvd_sub (dvd_add dxh dyh) (dvd_rnd (dvd_add dxh dyh))
  have b1 : 2 ^ 53 * |re xh yh| ≤ |xh + yh| := re_le _ _
  have t1 := abs_add_le xh yh
  have t2 := abs_add_le xl yl
  have hlo : |xl| + |yl| ≤ 2 ^ 52 * 2 ^ k := by
    clear dx dy dxh dyh dxl dyl dre b1 t1 t2
    generalize (2:ℤ) ^ k = K at *
    norm_num at lx ly bxy ⊢
    linarith
  have hre : |re xh yh| ≤ 2 ^ 52 * 2 ^ k := by
    clear dx dy dxh dyh dxl dyl dre t2 hlo
    generalize (2:ℤ) ^ k = K at *
    norm_num at b1 bxy ⊢
    linarith
  have hrep : Rep (xl + yl) := by
    apply Rep.of_dvd_le (k := k) (dvd_add dxl dyl)
    rw [pow_add]
    clear dx dy dxh dyh dxl dyl dre
    generalize (2:ℤ) ^ k = K at *
    norm_num at *
    linarith
  have e2 : rs xl yl = xl + yl := rs_of_rep hrep
  have e3 : re xl yl = 0 := re_of_rep hrep
  have hc : Rep (re xh yh + (xl + yl)) := by
    apply Rep.of_dvd_le (k := k) (dvd_add dre (dvd_add dxl dyl))
    have t3 := abs_add_le (re xh yh) (xl + yl)
    rw [pow_add]
    clear dx dy dxh dyh dxl dyl dre
    generalize (2:ℤ) ^ k = K at *
    norm_num at *
    linarith
  apply add_exact_of
  · rw [e2]; exact hc
  · rw [e3, e2, zero_add]
    exact rep_re (rep_rs _ _) hc

/-- Exact sum of two Doubles with whole values. -/
theorem add_int {a b : Double} {xh xl yh yl m n : ℤ} (ia : DIs a xh xl) (ib : DIs b yh yl) (hx : Norm2 xh xl)
    (hy : Norm2 yh yl) (ex : xh + xl = m * one') (ey : yh + yl = n * one') (hm : |m| ≤ 2 ^ 104) (hn : |n| ≤ 2 ^ 104) :
    ∃ zh zl, DIs (a + b) zh zl ∧ Norm2 zh zl ∧ zh + zl = (m + n) * one' := by
  have hp := one'_pos
  have bnd : ∀ {h l m : ℤ}, Norm2 h l → h + l = m * one' → |m| ≤ 2 ^ 104 → |h| ≤ 2 ^ 104 * one' := by
    intro h l m hn e hm
    rw [← hn.rnd_eq]
    apply abs_rnd_le
    · exact ⟨1, 104 + 1074, by norm_num, by rw [pow_add]; unfold one'; ring⟩
    · rw [← abs_int_cast, e, abs_mul, abs_of_pos hp]
      exact_mod_cast mul_le_mul_of_nonneg_right hm hp.le
  have bx := bnd hx ex hm
  have by' := bnd hy ey hn
  have hq : 2 ^ 130 * one' ≤ quantum := by
    unfold one' quantum; rw [← pow_add]; exact pow_le_pow_right₀ (by norm_num) (by norm_num)
  refine ⟨_, _, is_add ia ib hx hy ?_, norm2_addTail hx hy, ?_⟩
  · rw [lim2_eq]; norm_num at bx by' hq ⊢; linarith
  · have eo : one' = 2 ^ 1074 := by unfold one'; rfl
    rw [rs_add_re, add_exact_grid (k := 1074) hx hy, ex, ey]
    · ring
    · rw [ex, ← eo]; exact ⟨_, mul_comm _ _⟩
    · rw [ey, ← eo]; exact ⟨_, mul_comm _ _⟩
    · rw [← eo]; norm_num at bx by' ⊢; linarith

/-! ### Exact multiplication of integers -/

theorem pq_int (a c : ℤ) : pq (a * one') (c * one') = ((a * c * one' : ℤ) : ℚ) := by
  unfold pq
  have := one'_ne
  push_cast
  field_simp

theorem Norm2.int_comps {h l m : ℤ} (hn : Norm2 h l) (e : h + l = m * one') :
    ∃ a b, h = a * one' ∧ l = b * one' ∧ a + b = m ∧ 2 ^ 53 * |b| ≤ |a| := by
  have hp := one'_pos
  have d : (2:ℤ) ^ 1074 ∣ h + l := by
    have eo : one' = 2 ^ 1074 := by unfold one'; rfl
    rw [e, ← eo]; exact ⟨_, mul_comm _ _⟩
  obtain ⟨⟨a, ha⟩, ⟨b, hb⟩⟩ := hn.dvd d
  have eo : (2:ℤ) ^ 1074 = one' := by unfold one'; rfl
  rw [eo, mul_comm] at ha hb
  refine ⟨a, b, ha, hb, ?_, ?_⟩
  · have : (a + b) * one' = m * one' := by rw [← e, ha, hb]; ring
    exact mul_right_cancel₀ hp.ne' this
  · have := hn.lo_le
    rw [ha, hb, abs_mul, abs_mul, abs_of_pos hp, ← mul_assoc] at this
    exact le_of_mul_le_mul_right this hp

/-- A small integer is its own rounding. -/
theorem pr_int {a c : ℤ} (h : |a * c| ≤ 2 ^ 53) : pr (a * one') (c * one') = a * c * one' := by
  unfold pr; rw [pq_int]; exact rnd_of_rep (rep_int h)

theorem abs_ge_one {a : ℤ} (h : a ≠ 0) : 1 ≤ |a| := Int.one_le_abs h

theorem pe_int {a c : ℤ} (ha : a ≠ 0) (hc : c ≠ 0) (ra : Rep (a * one')) (rc : Rep (c * one')) :
    ∃ u v : ℤ, pr (a * one') (c * one') = u * one' ∧ pe (a * one') (c * one') = v * one' ∧ u + v = a * c ∧
      2 ^ 53 * |v| ≤ |a * c| := by
  have hp := one'_pos
  have ex : ∀ {k : ℤ}, k ≠ 0 → 1022 ≤ expo ((k * one' : ℤ) : ℚ) := by
    intro k hk
    apply le_expo_of_le
    have e : ((2:ℚ) ^ (52 + 1022)) = one' := by rw [one'_pow]
    rw [e]
    push_cast
    rw [abs_mul, abs_of_pos one'_posQ]
    have : (1:ℚ) ≤ |(k:ℚ)| := by rw [← abs_int_cast]; exact_mod_cast abs_ge_one hk
    nlinarith [one'_posQ]
  have h1 := pe_exact ra rc (by have := ex ha; have := ex hc; omega)
  rw [pq_int] at h1
  have hd : (2:ℤ) ^ 1074 ∣ a * c * one' := by
    have eo : one' = 2 ^ 1074 := by unfold one'; rfl
    rw [← eo]; exact ⟨_, mul_comm _ _⟩
  have hdr : (2:ℤ) ^ 1074 ∣ pr (a * one') (c * one') := by
    unfold pr; rw [pq_int]; exact dvd_rnd hd
  have eo : (2:ℤ) ^ 1074 = one' := by unfold one'; rfl
  rw [eo] at hdr
  obtain ⟨u, hu⟩ := hdr
  rw [mul_comm one' u] at hu
  have h2 : pe (a * one') (c * one') = a * c * one' - u * one' := by
    rw [hu] at h1; exact_mod_cast h1
  refine ⟨u, a * c - u, hu, by rw [h2]; ring, by ring, ?_⟩
  have h3 := rel_err (a * c * one')
  have h4 : rnd ((a * c * one' : ℤ) : ℚ) = u * one' := by rw [← hu]; unfold pr; rw [pq_int]
  rw [h4, show a * c * one' - u * one' = (a * c - u) * one' by ring, abs_mul, abs_mul (a * c), abs_of_pos hp,
    ← mul_assoc] at h3
  exact le_of_mul_le_mul_right h3 hp

theorem rs_int {u v : ℤ} (h : |u + v| ≤ 2 ^ 53) : rs (u * one') (v * one') = (u + v) * one' := by
  have e : u * one' + v * one' = (u + v) * one' := by ring
  rw [rs_of_rep (by rw [e]; exact rep_int h), e]

/-- Exact product of two Doubles with whole values. -/
theorem mul_int {a b : Double} {xh xl yh yl m n : ℤ} (ia : DIs a xh xl) (ib : DIs b yh yl) (hx : Norm2 xh xl)
    (hy : Norm2 yh yl) (ex : xh + xl = m * one') (ey : yh + yl = n * one') (hmn : |m * n| ≤ 2 ^ 104) :
    ∃ zh zl, DIs (a * b) zh zl ∧ Norm2 zh zl ∧ zh + zl = (m * n) * one' := by
  have hp := one'_pos
  obtain ⟨p, q, rfl, rfl, hpq, lx⟩ := hx.int_comps ex
  obtain ⟨r, s, rfl, rfl, hrs, ly⟩ := hy.int_comps ey
  have hmp : |p| ≤ |m| + |q| := by rw [← hpq]; exact abs_tri _ _
  have hnr : |r| ≤ |n| + |s| := by rw [← hrs]; exact abs_tri _ _
  have nq := abs_nonneg q
  have ns := abs_nonneg s
  by_cases hp0 : p = 0
  · subst hp0
    have : q = 0 := by
      rw [abs_zero] at lx
      have : |q| ≤ 0 := by linarith
      exact abs_nonpos_iff.mp this
    subst this
    rw [zero_mul] at ia
    exact ⟨0, 0, dis_mul_zero_left ia ib.1, norm2_zero_right .zero, by rw [← hpq]; ring⟩
  by_cases hr0 : r = 0
  · subst hr0
    have : s = 0 := by
      rw [abs_zero] at ly
      have : |s| ≤ 0 := by linarith
      exact abs_nonpos_iff.mp this
    subst this
    rw [zero_mul] at ib
    exact ⟨0, 0, dis_mul_zero_right ia ib, norm2_zero_right .zero, by rw [← hrs]; ring⟩
  -- at most one low part
  have hqs : q = 0 ∨ s = 0 := by
    by_contra hc
    push Not at hc
    have h1 := abs_ge_one hc.1
    have h2 := abs_ge_one hc.2
    have hm : 2 ^ 53 - 1 ≤ |m| := by norm_num at lx ⊢; linarith
    have hn' : 2 ^ 53 - 1 ≤ |n| := by norm_num at ly ⊢; linarith
    rw [abs_mul] at hmn
    have : (2 ^ 53 - 1 : ℤ) * (2 ^ 53 - 1) ≤ |m| * |n| := mul_le_mul hm hn' (by norm_num) (abs_nonneg _)
    norm_num at this hmn
    linarith
  have hqs0 : q * s = 0 := by rcases hqs with h | h <;> rw [h] <;> ring
  -- sizes
  have nps : |p * s| * 2 ^ 53 ≤ |p * r| := by
    rw [abs_mul, abs_mul]
    have := mul_le_mul_of_nonneg_left ly (abs_nonneg p)
    linarith
  have nqr : |q * r| * 2 ^ 53 ≤ |p * r| := by
    rw [abs_mul, abs_mul]
    have := mul_le_mul_of_nonneg_right lx (abs_nonneg r)
    linarith
  have hpr : |p * r| ≤ 2 ^ 104 + 2 ^ 53 := by
    have e : m * n = p * r + (p * s + q * r) := by
      rw [← hpq, ← hrs]
      have : (p + q) * (r + s) = p * r + (p * s + q * r) + q * s := by ring
      rw [this, hqs0, add_zero]
    have h1 := abs_tri (p * r) (p * s + q * r)
    rw [← e] at h1
    have h2 := abs_add_le (p * s) (q * r)
    omega
  obtain ⟨u, v, e1, e2, e3, e4⟩ := pe_int hp0 hr0 hx.rep_hi hy.rep_hi
  have bps : |p * s| ≤ 2 ^ 51 + 1 := by omega
  have bqr : |q * r| ≤ 2 ^ 51 + 1 := by omega
  have bv : |v| ≤ 2 ^ 51 + 1 := by omega
  have hS : mulS (p * one') (q * one') (r * one') (s * one') = (v + p * s + q * r) * one' := by
    unfold mulS
    have t1 := abs_add_le v (p * s)
    have t2 := abs_add_le (v + p * s) (q * r)
    rw [e2, pr_int (by omega), rs_int (by omega),
      pr_int (by omega), rs_int (by omega)]
  have z := is_mulMain ia ib hx hy (by
    rw [pq_int, ← abs_int_cast]
    have h1 : |p * r * one'| ≤ lim2 := by
      rw [abs_mul, abs_of_pos hp, lim2_one']
      apply mul_le_mul_of_nonneg_right _ hp.le
      refine hpr.trans ?_
      have : (2:ℤ) ^ 105 ≤ 2 ^ 1023 := pow_le_pow_right₀ (by norm_num) (by norm_num)
      refine le_trans ?_ this
      norm_num
    exact_mod_cast h1)
  have hne : p * one' ≠ 0 := mul_ne_zero hp0 hp.ne'
  refine ⟨_, _, (samD_mul_main ia.1 ib.1 hne).dis z.1, z.2, ?_⟩
  rw [rs_add_re, e1, hS, ← hpq, ← hrs]
  have : u = p * r - v := by linarith
  rw [this]
  have e : (p + q) * (r + s) = p * r + (p * s + q * r) + q * s := by ring
  rw [e, hqs0]; ring

end Verif
