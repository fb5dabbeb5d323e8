import Verif.Proofs.Ident

/-!
# Products: `two_prod`, multiplication by an `f64` and multiplication of Doubles
-/

namespace Verif

open F64 Prim Util

/-- Exact product in units. -/
def pq (m n : ℤ) : ℚ := (m * n : ℚ) / one'
/-- Rounded product. -/
def pr (m n : ℤ) : ℤ := rnd (pq m n)
/-- Rounded error of the product. -/
def pe (m n : ℤ) : ℤ := rnd (pq m n - pr m n)

theorem err_le (x : ℚ) : |x - rnd x| ≤ |x| / 2 ^ 53 + 1 / 2 := by
  have h : 0 ≤ |x| / 2 ^ 53 := by positivity
  rcases err_rat x with h1 | h1 <;> linarith

theorem err_int (n : ℤ) : |(n : ℚ) - rnd n| ≤ |(n : ℚ)| / 2 ^ 53 := by
  have := rel_err n
  have h2 : ((2 ^ 53 * |n - rnd n| : ℤ) : ℚ) ≤ ((|n| : ℤ) : ℚ) := by exact_mod_cast this
  push_cast at h2
  rw [le_div_iff₀ (by positivity)]
  linarith

theorem pq_abs (m n : ℤ) : |pq m n| = |(m : ℚ)| * |(n : ℚ)| / one' := by
  unfold pq; rw [abs_div, abs_mul, abs_of_pos one'_posQ]

theorem pe_exact {m n : ℤ} (hm : Rep m) (hn : Rep n) (h : 1074 ≤ expo (m : ℚ) + expo (n : ℚ)) :
    (pe m n : ℚ) = pq m n - pr m n := by
  have hdv : one' ∣ m * n := by
    obtain ⟨a, ha⟩ := hm.dvd
    obtain ⟨b, hb⟩ := hn.dvd
    obtain ⟨t, ht⟩ := Nat.exists_eq_add_of_le h
    refine ⟨2 ^ t * (a * b), ?_⟩
    have e : (2:ℤ) ^ expo (m : ℚ) * 2 ^ expo (n : ℚ) = one' * 2 ^ t := by
      rw [← pow_add, ht, pow_add]; unfold one'; rfl
    calc m * n = (2 ^ expo (m : ℚ) * a) * (2 ^ expo (n : ℚ) * b) := by rw [← ha, ← hb]
      _ = (2 ^ expo (m : ℚ) * 2 ^ expo (n : ℚ)) * (a * b) := by ring
      _ = _ := by rw [e]; ring
  obtain ⟨k, hk⟩ := hdv
  have hq : pq m n = (k : ℚ) := by
    unfold pq
    rw [div_eq_iff one'_ne]
    have : (m * n : ℚ) = one' * k := by exact_mod_cast hk
    rw [this]; ring
  have hrep : Rep (k - rnd k) := by
    refine rep_err_mul (m := 1074) hm hn ?_ ?_
    · rw [hk]; unfold one'; ring
    · rw [← pow_add]; exact pow_dvd_pow _ h
  unfold pe pr
  rw [hq]
  have : (k : ℚ) - ((rnd (k : ℚ) : ℤ) : ℚ) = ((k - rnd (k : ℚ) : ℤ) : ℚ) := by push_cast; ring
  rw [this, rnd_of_rep hrep]

theorem pq_small {m n : ℤ} (h : expo (m : ℚ) + expo (n : ℚ) < 1074) : |pq m n| < 2 ^ 105 := by
  rw [pq_abs, div_lt_iff₀ one'_posQ]
  have h1 := lt_expo (m : ℚ)
  have h2 := lt_expo (n : ℚ)
  have h3 : |(m : ℚ)| * |(n : ℚ)| < 2 ^ (53 + expo (m : ℚ)) * 2 ^ (53 + expo (n : ℚ)) :=
    mul_lt_mul'' h1 h2 (abs_nonneg _) (abs_nonneg _)
  refine lt_of_lt_of_le h3 ?_
  rw [← pow_add]
  have : (one' : ℚ) = 2 ^ 1074 := by unfold one'; push_cast; rfl
  rw [this, ← pow_add]
  exact pow_le_pow_right₀ (by norm_num) (by omega)

/-- The computed product and error miss the exact product by at most half a unit. -/
theorem pe_err {m n : ℤ} (hm : Rep m) (hn : Rep n) : |pq m n - pr m n - pe m n| ≤ 1 / 2 := by
  by_cases h : 1074 ≤ expo (m : ℚ) + expo (n : ℚ)
  · rw [pe_exact hm hn h]; simp
  · have hs := pq_small (not_le.mp h)
    have h1 : |pq m n - pr m n| ≤ 2 ^ 52 / 2 := abs_sub_rnd (k := 52) (by rw [← Nat.add_comm]; simpa using hs)
    have h2 : |pq m n - pr m n| < 2 ^ (53 + 0) := by
      refine lt_of_le_of_lt h1 ?_; norm_num
    have := abs_sub_rnd h2
    unfold pe
    simpa using this

theorem is_twoProd {a b : F64} {m n : ℤ} (ha : Is a m) (hb : Is b n) (h : |pq m n| ≤ (omegaUnits : ℚ)) :
    Is (twoProd a b).1 (pr m n) ∧ Is (twoProd a b).2 (pe m n) := by
  have i := ha.mul hb h
  refine ⟨i, ?_⟩
  have hb' : |pq m n + ((-(pr m n) : ℤ) : ℚ)| ≤ (omegaUnits : ℚ) := by
    have h1 := err_le (pq m n)
    have e : pq m n + ((-(pr m n) : ℤ) : ℚ) = pq m n - rnd (pq m n) := by unfold pr; push_cast; ring
    rw [e]
    have h2 : (1:ℚ) ≤ omegaUnits := by
      have : (1:ℤ) ≤ omegaUnits := by
        rw [omega_eq]; have := quantum_pos; omega
      exact_mod_cast this
    have h3 : |pq m n| / 2 ^ 53 ≤ omegaUnits / 2 ^ 53 := by
      apply div_le_div_of_nonneg_right h (by positivity)
    have h4 : (omegaUnits : ℚ) / 2 ^ 53 ≤ omegaUnits / 2 := by
      apply div_le_div_of_nonneg_left (by linarith) (by norm_num) (by norm_num)
    linarith
  have j := ha.fma hb i.neg (by exact hb')
  refine j.congr ?_
  unfold pe
  congr 1
  unfold pr pq
  push_cast; ring

/-! ### The common analysis

`q` exact leading product, `p`, `e` its computed parts; the result of adding the rest. -/

theorem abs_int_cast (n : ℤ) : ((|n| : ℤ) : ℚ) = |(n : ℚ)| := by push_cast; rfl

theorem rs_errQ (a b : ℤ) : |(rs a b : ℚ) - (a + b)| ≤ |(a + b : ℚ)| / 2 ^ 53 := by
  have := err_int (a + b)
  unfold rs
  push_cast at this ⊢
  rw [abs_sub_comm]; exact this

theorem rs_add_reQ (a b : ℤ) : (rs a b : ℚ) + re a b = a + b := by
  exact_mod_cast rs_add_re a b

/-- Grid condition when the second operand is small or not larger than the first. -/
theorem grid_of_small {a b : ℤ} (ha : Rep a) (hb : Rep b) (h : |b| < 2 ^ 53 ∨ |b| ≤ |a|) : Grid a b := by
  rcases h with h | h
  · exact ⟨0, by simp, by simp, by simpa using h⟩
  · exact .of_abs_le ha hb h

/-- Units of `mul_f64`: `x * b`. -/
def mulFS (xh xl b : ℤ) : ℤ := rs (pe xh b) (pr xl b)

theorem tri_r {x y d : ℚ} (h : |x - y| ≤ d) : |x| ≤ |y| + d := by
  have := abs_sub_abs_le_abs_sub x y; linarith
theorem tri_l {x y d : ℚ} (h : |x - y| ≤ d) : |y| ≤ |x| + d := by
  have := abs_sub_abs_le_abs_sub y x; rw [abs_sub_comm] at this; linarith
theorem ng {a c : ℚ} (h : |a| ≤ c) : |-a| ≤ c := by rw [abs_neg]; exact h
theorem abs_sum2 {a b c d : ℚ} (h1 : |a| ≤ c) (h2 : |b| ≤ d) : |a + b| ≤ c + d :=
  (abs_add_le a b).trans (add_le_add h1 h2)

theorem Norm2.lo_leQ {xh xl : ℤ} (hx : Norm2 xh xl) : |(xl : ℚ)| ≤ |(xh : ℚ)| / 2 ^ 53 := by
  have := hx.lo_le
  rw [le_div_iff₀ (by positivity)]
  have h2 : ((2 ^ 53 * |xl| : ℤ) : ℚ) ≤ ((|xh| : ℤ) : ℚ) := by exact_mod_cast this
  push_cast at h2; linarith

theorem pq_le_left {xh xl b : ℤ} {c : ℚ} (h : |(xl : ℚ)| ≤ |(xh : ℚ)| / c) : |pq xl b| ≤ |pq xh b| / c := by
  rw [pq_abs, pq_abs, div_right_comm]
  apply div_le_div_of_nonneg_right _ one'_posQ.le
  have := mul_le_mul_of_nonneg_right h (abs_nonneg (b:ℚ))
  linarith [this, div_mul_eq_mul_div |(xh:ℚ)| c |(b:ℚ)|]

theorem pq_comm (m n : ℤ) : pq m n = pq n m := by unfold pq; rw [mul_comm]

theorem small_or_le {S P : ℤ} {Q c d : ℚ} (hS : |(S : ℚ)| ≤ c * Q + d) (hP : Q ≤ |(P : ℚ)| * (1 + 1 / 2 ^ 52) + 1)
    (hc : c ≤ 1 / 2 ^ 40) (hc0 : 0 ≤ c) (hd : d ≤ 2 ^ 20) : |S| < 2 ^ 53 ∨ |S| ≤ |P| := by
  by_contra hcon
  push Not at hcon
  obtain ⟨h1, h2⟩ := hcon
  have h1' : (2:ℚ) ^ 53 ≤ |(S : ℚ)| := by rw [← abs_int_cast]; exact_mod_cast h1
  have h2' : |(P : ℚ)| < |(S : ℚ)| := by rw [← abs_int_cast, ← abs_int_cast]; exact_mod_cast h2
  have h3 : c * Q ≤ 1 / 2 ^ 40 * (|(P : ℚ)| * (1 + 1 / 2 ^ 52) + 1) := by
    have hr : 0 ≤ |(P : ℚ)| * (1 + 1 / 2 ^ 52) + 1 := by positivity
    calc c * Q ≤ c * (|(P : ℚ)| * (1 + 1 / 2 ^ 52) + 1) := mul_le_mul_of_nonneg_left hP hc0
      _ ≤ _ := mul_le_mul_of_nonneg_right hc hr
  have := abs_nonneg (P:ℚ)
  linarith

theorem pr_lower (m n : ℤ) : |pq m n| ≤ |(pr m n : ℚ)| * (1 + 1 / 2 ^ 52) + 1 := by
  have h1 := err_le (pq m n)
  change |pq m n - (pr m n : ℚ)| ≤ _ at h1
  have h2 := tri_r h1
  have := abs_nonneg (pq m n)
  linarith

/-- Analysis of `mul_f64`. -/
theorem mulF_ok {xh xl b : ℤ} (hx : Norm2 xh xl) (hb : Rep b) :
    Grid (pr xh b) (mulFS xh xl b) ∧
    |(pr xh b : ℚ) + mulFS xh xl b - (pq xh b + pq xl b)| ≤ 7 / 2 ^ 107 * |pq xh b + pq xl b| + 17 / 16 ∧
    |(mulFS xh xl b : ℚ)| ≤ 3 / 2 ^ 53 * |pq xh b| + 2 := by
  have hA1 : |pq xl b| ≤ |pq xh b| / 2 ^ 53 := pq_le_left hx.lo_leQ
  have e0 := pe_err hx.rep_hi hb
  have e1 := err_le (pq xh b)
  have e2 := err_le (pq xl b)
  change |pq xh b - (pr xh b : ℚ)| ≤ _ at e1
  change |pq xl b - (pr xl b : ℚ)| ≤ _ at e2
  have e3 := rs_errQ (pe xh b) (pr xl b)
  change |(mulFS xh xl b : ℚ) - _| ≤ _ at e3
  have bE : |(pe xh b : ℚ)| ≤ |pq xh b| / 2 ^ 53 + 1 := by
    have := tri_l e0; linarith
  have bT : |(pr xl b : ℚ)| ≤ |pq xl b| + (|pq xl b| / 2 ^ 53 + 1 / 2) := tri_l e2
  have bET := abs_sum2 bE bT
  have bS := tri_r e3
  have hq := abs_nonneg (pq xh b)
  have hS : |(mulFS xh xl b : ℚ)| ≤ 3 / 2 ^ 53 * |pq xh b| + 2 := by linarith
  refine ⟨grid_of_small (rep_rnd _) (rep_rs _ _)
    (small_or_le hS (pr_lower _ _) (by norm_num) (by norm_num) (by norm_num)), ?_, hS⟩
  have hT : |pq xh b| ≤ |pq xh b + pq xl b| + |pq xl b| := by
    have := abs_add_le (pq xh b + pq xl b) (-pq xl b)
    rw [abs_neg, add_neg_cancel_right] at this; exact this
  have e : (pr xh b : ℚ) + mulFS xh xl b - (pq xh b + pq xl b) =
      (mulFS xh xl b - (pe xh b + pr xl b)) + (-(pq xh b - pr xh b - pe xh b) + -(pq xl b - pr xl b)) := by ring
  rw [e]
  have := abs_sum2 e3 (abs_sum2 (ng e0) (ng e2))
  linarith

/-- Units of the low part added in `Double * Double`. -/
def mulS (xh xl yh yl : ℤ) : ℤ := rs (rs (pe xh yh) (pr xh yl)) (pr xl yh)

/-- Exact product in units. -/
def exactProd (xh xl yh yl : ℤ) : ℚ := pq (xh + xl) (yh + yl)

theorem exactProd_eq (xh xl yh yl : ℤ) : exactProd xh xl yh yl = pq xh yh + pq xh yl + pq xl yh + pq xl yl := by
  unfold exactProd pq; push_cast; ring

theorem exactProd_lower {xh xl yh yl : ℤ} (hx : Norm2 xh xl) (hy : Norm2 yh yl) :
    |pq xh yh| ≤ |exactProd xh xl yh yl| * (1 + 4 / 2 ^ 53) ∧
    |exactProd xh xl yh yl| ≤ |pq xh yh| * (1 + 3 / 2 ^ 53) := by
  have hA1 : |pq xl yh| ≤ |pq xh yh| / 2 ^ 53 := pq_le_left hx.lo_leQ
  have hA2 : |pq xh yl| ≤ |pq xh yh| / 2 ^ 53 := by
    rw [pq_comm xh yl, pq_comm xh yh]; exact pq_le_left hy.lo_leQ
  have hA3 : |pq xl yl| ≤ |pq xl yh| / 2 ^ 53 := by
    rw [pq_comm xl yl, pq_comm xl yh]; exact pq_le_left hy.lo_leQ
  rw [exactProd_eq]
  have t := abs_sum2 (abs_sum2 (le_refl |pq xh yl|) (le_refl |pq xl yh|)) (le_refl |pq xl yl|)
  have h1 : |pq xh yh| ≤ |pq xh yh + pq xh yl + pq xl yh + pq xl yl| + |pq xh yl + pq xl yh + pq xl yl| := by
    have := abs_add_le (pq xh yh + pq xh yl + pq xl yh + pq xl yl) (-(pq xh yl + pq xl yh + pq xl yl))
    rw [abs_neg] at this
    refine le_trans (le_of_eq ?_) this
    congr 1; ring
  have h2 : |pq xh yh + pq xh yl + pq xl yh + pq xl yl| ≤ |pq xh yh| + |pq xh yl + pq xl yh + pq xl yl| := by
    have := abs_add_le (pq xh yh) (pq xh yl + pq xl yh + pq xl yl)
    refine le_trans (le_of_eq ?_) this
    congr 1; ring
  have := abs_nonneg (pq xh yh)
  constructor <;> linarith

/-- Analysis of `Double * Double`. -/
theorem mul_ok {xh xl yh yl : ℤ} (hx : Norm2 xh xl) (hy : Norm2 yh yl) :
    Grid (pr xh yh) (mulS xh xl yh yl) ∧
    |(pr xh yh : ℚ) + mulS xh xl yh yl - exactProd xh xl yh yl| ≤
      9 / 2 ^ 106 * |exactProd xh xl yh yl| + 2 ∧
    |(mulS xh xl yh yl : ℚ)| ≤ 4 / 2 ^ 53 * |pq xh yh| + 3 := by
  have hA1 : |pq xl yh| ≤ |pq xh yh| / 2 ^ 53 := pq_le_left hx.lo_leQ
  have hA2 : |pq xh yl| ≤ |pq xh yh| / 2 ^ 53 := by
    rw [pq_comm xh yl, pq_comm xh yh]; exact pq_le_left hy.lo_leQ
  have hA3 : |pq xl yl| ≤ |pq xl yh| / 2 ^ 53 := by
    rw [pq_comm xl yl, pq_comm xl yh]; exact pq_le_left hy.lo_leQ
  have e0 := pe_err hx.rep_hi hy.rep_hi
  have e1 := err_le (pq xh yl)
  have e2 := err_le (pq xl yh)
  change |pq xh yl - (pr xh yl : ℚ)| ≤ _ at e1
  change |pq xl yh - (pr xl yh : ℚ)| ≤ _ at e2
  have e00 := err_le (pq xh yh)
  change |pq xh yh - (pr xh yh : ℚ)| ≤ _ at e00
  have e3 := rs_errQ (pe xh yh) (pr xh yl)
  have e4 := rs_errQ (rs (pe xh yh) (pr xh yl)) (pr xl yh)
  change |(mulS xh xl yh yl : ℚ) - _| ≤ _ at e4
  have bE : |(pe xh yh : ℚ)| ≤ |pq xh yh| / 2 ^ 53 + 1 := by
    have := tri_l e0; linarith
  have bT1 := tri_l e1
  have bT2 := tri_l e2
  have b1 := abs_sum2 bE bT1
  have b2 := tri_r e3
  have b3 := abs_sum2 b2 bT2
  have b4 := tri_r e4
  have hq := abs_nonneg (pq xh yh)
  have hS : |(mulS xh xl yh yl : ℚ)| ≤ 4 / 2 ^ 53 * |pq xh yh| + 3 := by linarith
  refine ⟨grid_of_small (rep_rnd _) (rep_rs _ _)
    (small_or_le hS (pr_lower _ _) (by norm_num) (by norm_num) (by norm_num)), ?_, hS⟩
  have hT := (exactProd_lower hx hy).1
  have hTn := abs_nonneg (exactProd xh xl yh yl)
  have e : (pr xh yh : ℚ) + mulS xh xl yh yl - exactProd xh xl yh yl =
      (mulS xh xl yh yl - (rs (pe xh yh) (pr xh yl) + pr xl yh)) +
      ((rs (pe xh yh) (pr xh yl) - (pe xh yh + pr xh yl)) +
      (-(pq xh yh - pr xh yh - pe xh yh) + (-(pq xh yl - pr xh yl) + (-(pq xl yh - pr xl yh) + -pq xl yl)))) := by
    rw [exactProd_eq]; ring
  rw [e]
  have := abs_sum2 e4 (abs_sum2 e3 (abs_sum2 (ng e0) (abs_sum2 (ng e1)
    (abs_sum2 (ng e2) (ng hA3)))))
  linarith

end Verif
