import Verif.Proofs.Nroot
import Verif.Props.Powi
import Verif.Props.FromFloat
import Verif.Props.FuncSpecial
import Verif.SpecLibmExp

/-!
# The start value, the Newton step and the result of `nroot` for Doubles
-/

namespace Verif

/-- Exponentials between powers of two. -/
theorem exp_pow_two {s : ℝ} {k : ℕ} (h : |s| ≤ k * 0.6931471803) : Real.exp s ≤ 2 ^ k ∧ 1 ≤ Real.exp s * 2 ^ k := by
  have hl := Real.log_two_gt_d9
  have hk : (k:ℝ) * 0.6931471803 ≤ k * Real.log 2 := mul_le_mul_of_nonneg_left hl.le (Nat.cast_nonneg k)
  have e : (2:ℝ) ^ k = Real.exp (k * Real.log 2) := by
    rw [Real.exp_nat_mul, Real.exp_log (by norm_num)]
  have hs := abs_le.mp h
  rw [e]
  refine ⟨Real.exp_le_exp.mpr (by linarith), ?_⟩
  rw [← Real.exp_add, Real.one_le_exp_iff]
  linarith

/-- Powers with any nonzero integer exponent of 31 bits. -/
theorem powi_any {x : Double} (hx : x.Normalized) {n : ℤ} (hn : n ≠ 0) (hn2 : |n| < 2 ^ 31) (h1 : 1 ≤ |rv x ^ n| * 2 ^ 950)
    (h2 : |rv x ^ n| ≤ 2 ^ 950) :
    ∃ r, x.powi n = some r ∧ Ap r (rv x ^ n) ((|(n:ℝ)| + 1) / 2 ^ 100 * |rv x ^ n|) := by
  have b1 : (2:ℚ) ^ 950 ≤ 2 ^ 960 := pow_le_pow_right₀ (by norm_num) (by norm_num)
  have b2 : (2:ℚ) ^ 950 ≤ 2 ^ 1020 := pow_le_pow_right₀ (by norm_num) (by norm_num)
  rcases lt_or_gt_of_ne hn with h | h
  · obtain ⟨k, rfl⟩ : ∃ k : ℕ, n = -(k:ℤ) := ⟨n.natAbs, by omega⟩
    have hk : 0 < k := by omega
    have hk2 : k < 2 ^ 31 := by rw [abs_neg, Nat.abs_cast] at hn2; exact_mod_cast hn2
    have e : rv x ^ (-(k:ℤ)) = (rv x ^ k)⁻¹ := by rw [zpow_neg, zpow_natCast]
    rw [e] at h1 h2 ⊢
    have hp : 0 < |rv x ^ k| := by
      rcases (abs_nonneg (rv x ^ k)).lt_or_eq with h | h
      · exact h
      · rw [abs_inv, ← h, inv_zero, zero_mul] at h1; exact absurd h1 (by norm_num)
    rw [abs_inv] at h1 h2
    have g1 : 1 ≤ |rv x ^ k| * 2 ^ 950 := by
      rwa [inv_le_iff_one_le_mul₀ hp, mul_comm] at h2
    have g2 : |rv x ^ k| ≤ 2 ^ 950 := by
      have := mul_le_mul_of_nonneg_left h1 hp.le
      rwa [mul_one, ← mul_assoc, mul_inv_cancel₀ hp.ne', one_mul] at this
    have q1 : 1 ≤ |x.val ^ k| * 2 ^ 950 := by unfold rv at g1; exact_mod_cast g1
    have q2 : |x.val ^ k| ≤ 2 ^ 950 := by unfold rv at g2; exact_mod_cast g2
    obtain ⟨r, hr, hN, he⟩ := C59_powi_neg_accurate x k hk hk2 hx (q1.trans (mul_le_mul_of_nonneg_left b1 (abs_nonneg _))) (q2.trans b1)
    refine ⟨r, hr, hN, ?_⟩
    have := (Rat.cast_le (K := ℝ)).mpr he
    push_cast at this
    have e2 : |((-(k:ℤ) : ℤ) : ℝ)| = k := by push_cast; rw [abs_neg, Nat.abs_cast]
    rw [e2]
    unfold rv
    rw [div_mul_eq_mul_div, le_div_iff₀ (by positivity)]
    exact this
  · obtain ⟨k, rfl⟩ : ∃ k : ℕ, n = (k:ℤ) := ⟨n.natAbs, by omega⟩
    have hk : 0 < k := by omega
    have hk2 : k < 2 ^ 31 := by rw [Nat.abs_cast] at hn2; exact_mod_cast hn2
    rw [zpow_natCast] at h1 h2 ⊢
    have q1 : 1 ≤ |x.val ^ k| * 2 ^ 950 := by unfold rv at h1; exact_mod_cast h1
    have q2 : |x.val ^ k| ≤ 2 ^ 950 := by unfold rv at h2; exact_mod_cast h2
    obtain ⟨r, hr, hN, he⟩ := C59_powi_accurate x k hk hk2 hx (q1.trans (mul_le_mul_of_nonneg_left b1 (abs_nonneg _))) (q2.trans b2)
    refine ⟨r, hr, hN, ?_⟩
    have := (Rat.cast_le (K := ℝ)).mpr he
    push_cast at this
    have e2 : |((k:ℤ) : ℝ)| = k := by push_cast; rw [Nat.abs_cast]
    rw [e2]
    unfold rv
    rw [div_mul_eq_mul_div, le_div_iff₀ (by positivity)]
    have h0 : 0 ≤ |(x.val:ℝ) ^ k| := abs_nonneg _
    have h3 := abs_nonneg ((r.val:ℝ) - (x.val:ℝ) ^ k)
    clear he hr q1 q2 b1 b2 h1 h2
    generalize |(x.val:ℝ) ^ k| = G at *
    generalize |(r.val:ℝ) - (x.val:ℝ) ^ k| = D at *
    norm_num at this ⊢
    linarith

/-- The `f64` start value of `nroot`. -/
theorem nroot_start_f64 {P : Platform} (hl : LibmLogs P) (hx : LibmExp P) {h : F64} (hf : h.isFinite = true)
    (hp : 0 < fr h) {A : ℝ} (hA : |A - fr h| ≤ fr h / 2 ^ 53) {n : ℤ} (hn : n ≠ 0) (hn2 : |n| < 2 ^ 31)
    (hL1 : |Real.log A| ≤ 623) (hL2 : |Real.log A| ≤ 208 * |(n:ℝ)|) :
    (P.exp (F64.div (F64.neg (P.ln h)) (F64.ofInt n))).isFinite = true ∧
      1 ≤ |(P.exp (F64.div (F64.neg (P.ln h)) (F64.ofInt n))).toRat| * 2 ^ 306 ∧
      |(P.exp (F64.div (F64.neg (P.ln h)) (F64.ofInt n))).toRat| ≤ 2 ^ 306 ∧
      ∀ v : ℝ, |v - fr (P.exp (F64.div (F64.neg (P.ln h)) (F64.ofInt n)))| ≤
          |fr (P.exp (F64.div (F64.neg (P.ln h)) (F64.ofInt n)))| / 2 ^ 52 →
        |v / Real.exp (-Real.log A / n) - 1| ≤ (6 / 5 * (|Real.log A| / |(n:ℝ)|) + 3 / 2) / 2 ^ 50 := by
  have hA0 : 0 < A := by have := (abs_le.mp hA).1; norm_num at this; linarith
  have hN : 1 ≤ |(n:ℝ)| := by exact_mod_cast Int.one_le_abs hn
  have hNp : 0 < |(n:ℝ)| := by linarith
  have hN0 : (n:ℝ) ≠ 0 := abs_pos.mp hNp
  have hNb : |(n:ℝ)| ≤ 2 ^ 31 := by exact_mod_cast hn2.le
  obtain ⟨l1, l2⟩ := hl.ln h hf (by unfold fr at hp; exact_mod_cast hp)
  rw [← fr_toRat, ← fr_toRat] at l2
  have iN := is_ofInt (n := n) (by rw [abs_lt] at hn2; rw [abs_le]; norm_num at hn2 ⊢; constructor <;> linarith [hn2.1, hn2.2])
  have fN : fr (F64.ofInt n) = n := by
    rw [fr_is iN]; push_cast
    have : (one' : ℝ) ≠ 0 := by exact_mod_cast one'_pos.ne'
    field_simp
  have iln := (Is.of_finite l1).neg
  have fneg : fr (F64.neg (P.ln h)) = -fr (P.ln h) := by
    rw [fr_is iln, fr_is (Is.of_finite l1)]; push_cast; ring
  -- size of the logarithm
  have hHu : |A / fr h - 1| ≤ 1 / 2 ^ 53 := by
    rw [show A / fr h - 1 = (A - fr h) / fr h by field_simp, abs_div, abs_of_pos hp, div_le_iff₀ hp]
    refine hA.trans (le_of_eq (by ring))
  have hlogd : |Real.log A - Real.log (fr h)| ≤ 1 / 100 := by
    rw [← Real.log_div hA0.ne' hp.ne']
    have hpos : 0 < A / fr h := by positivity
    generalize A / fr h = u at *
    have k1 := Real.log_le_sub_one_of_pos hpos
    have k2 := Real.one_sub_inv_le_log_of_pos hpos
    have hu' := abs_le.mp hHu
    have k3 : -(1/100) ≤ 1 - u⁻¹ := by
      have : u⁻¹ ≤ 1 + 1/100 := by
        rw [inv_le_iff_one_le_mul₀ hpos]
        norm_num at hu' ⊢; linarith
      linarith
    rw [abs_le]
    norm_num at hu' k1 k3 ⊢; constructor <;> linarith
  have hlogH : |Real.log (fr h)| ≤ |Real.log A| + 1 / 100 := by
    have := abs_sub_abs_le_abs_sub (Real.log (fr h)) (Real.log A)
    rw [abs_sub_comm] at this; linarith
  have hlb : |fr (P.ln h)| ≤ |Real.log A| + 2 / 100 := by
    have := abs_sub_abs_le_abs_sub (fr (P.ln h)) (Real.log (fr h))
    norm_num at l2 hlogH ⊢; linarith
  have hqb : |-fr (P.ln h) / n| ≤ 209 := by
    rw [abs_div, abs_neg, div_le_iff₀ hNp]; norm_num at hlb ⊢; linarith
  obtain ⟨d1, d2⟩ := fw_div (x := F64.neg (P.ln h)) (y := F64.ofInt n) iln.1 iN.1 (by rw [fN]; exact hN0)
    (by rw [fneg, fN]; exact hqb.trans ((show (209:ℝ) ≤ 2 ^ 8 by norm_num).trans (pow_le_pow_right₀ (by norm_num) (by norm_num))))
  rw [fneg, fN] at d2
  have ht1 : tau ≤ 1 / 2 ^ 120 / |(n:ℝ)| := by
    rw [le_div_iff₀ hNp, le_div_iff₀ (by norm_num)]
    refine le_trans ?_ (tau_mul (k := 151) (by norm_num))
    rw [mul_assoc]
    refine mul_le_mul_of_nonneg_left ?_ tau_pos.le
    norm_num at hNb ⊢; linarith
  have d3 := d2.trans (add_le_add le_rfl ht1)
  generalize hq : F64.div (F64.neg (P.ln h)) (F64.ofInt n) = q at *
  have ht2 : (1:ℝ) / 2 ^ 120 / |(n:ℝ)| ≤ 1 / 2 ^ 120 := div_le_self (by positivity) hN
  have hqq : |fr q| ≤ 210 := by
    have := abs_sub_abs_le_abs_sub (fr q) (-fr (P.ln h) / n)
    norm_num at d3 hqb ht2 ⊢; linarith
  obtain ⟨e1, e2⟩ := hx.exp q d1 (by rw [← fr_toRat]; linarith)
  rw [← fr_toRat, ← fr_toRat] at e2
  have hr := exp_pow_two (s := fr q) (k := 305) (by norm_num; linarith)
  have hE : 0 < Real.exp (fr q) := Real.exp_pos _
  have hEa := abs_le.mp e2
  have hpos : 0 < fr (P.exp q) := by
    have := hEa.1; clear hr; norm_num at this; linarith
  have c1 : 1 ≤ |(P.exp q).toRat| * 2 ^ 306 := by
    have : 1 ≤ |fr (P.exp q)| * 2 ^ 306 := by
      rw [abs_of_pos hpos, pow_succ]
      have h2 : Real.exp (fr q) ≤ 2 * fr (P.exp q) := by have := hEa.1; clear hr; norm_num at this; linarith
      calc (1:ℝ) ≤ _ := hr.2
        _ ≤ 2 * fr (P.exp q) * 2 ^ 305 := mul_le_mul_of_nonneg_right h2 (by positivity)
        _ = _ := by ring
    rw [fr_toRat] at this
    exact_mod_cast this
  have c2 : |(P.exp q).toRat| ≤ 2 ^ 306 := by
    have : |fr (P.exp q)| ≤ 2 ^ 306 := by
      rw [abs_of_pos hpos, pow_succ]
      have h2 : fr (P.exp q) ≤ Real.exp (fr q) * 2 := by have := hEa.2; clear hr; norm_num at this; linarith
      exact h2.trans (mul_le_mul_of_nonneg_right hr.1 (by norm_num))
    rw [fr_toRat] at this
    exact_mod_cast this
  exact ⟨e1, c1, c2, fun v h4 => nroot_seed hp hA hN rfl (by linarith) l2 d3 e2 h4⟩

/-- The start value of `nroot`. -/
theorem nroot_start {P : Platform} (hl : LibmLogs P) (hx : LibmExp P) (ht : FloatText P.toStr) {h : F64} (hf : h.isFinite = true)
    (hp : 0 < fr h) {A : ℝ} (hA : |A - fr h| ≤ fr h / 2 ^ 53) {n : ℤ} (hn : n ≠ 0) (hn2 : |n| < 2 ^ 31)
    (hL1 : |Real.log A| ≤ 623) (hL2 : |Real.log A| ≤ 208 * |(n:ℝ)|) :
    ∃ v, Double.ofF64 P (P.exp (F64.div (F64.neg (P.ln h)) (F64.ofInt n))) = some v ∧ v.Normalized ∧
      |rv v / Real.exp (-Real.log A / n) - 1| ≤ (6 / 5 * (|Real.log A| / |(n:ℝ)|) + 3 / 2) / 2 ^ 50 := by
  obtain ⟨e1, c1, c2, hs⟩ := nroot_start_f64 hl hx hf hp hA hn hn2 hL1 hL2
  generalize P.exp (F64.div (F64.neg (P.ln h)) (F64.ofInt n)) = E at *
  obtain ⟨v, hv, hvN, hve⟩ := C66_accurate P ht E e1
    (c1.trans (mul_le_mul_of_nonneg_left (pow_le_pow_right₀ (by norm_num) (by norm_num)) (abs_nonneg _)))
    (c2.trans (pow_le_pow_right₀ (by norm_num) (by norm_num)))
  refine ⟨v, hv, hvN, hs _ ?_⟩
  rw [le_div_iff₀ (by positivity)]
  unfold rv fr
  exact_mod_cast hve

theorem int_single {x : F64} {n : ℤ} (i : Is x (n * one')) : (⟨x, F64.zero⟩ : Double).Normalized ∧ rv (⟨x, F64.zero⟩ : Double) = n := by
  have i2 : DIs (⟨x, F64.zero⟩ : Double) (n * one') 0 := ⟨i, is_zero⟩
  have nn : Norm2 (n * one') 0 := ⟨i.rep, Rep.zero, by rw [add_zero]; exact rnd_of_rep i.rep⟩
  have oN : (one' : ℝ) ≠ 0 := by exact_mod_cast one'_pos.ne'
  refine ⟨nn.normalized i2, ?_⟩
  unfold rv; rw [i2.val]; push_cast; rw [add_zero]; field_simp

set_option maxHeartbeats 1000000 in
/-- The Newton step of `nroot` and the reciprocal, from the seed on; `x` is negated before the reciprocal for negative arguments. -/
theorem nroot_newton {v r : Double} (hv : v.Normalized) (hr : r.Normalized) {n : ℤ} (hn : n ≠ 0) (hn2 : |n| < 2 ^ 31) {y δ : ℝ}
    (hA : 0 < rv r) (hy : 0 < y) (hyA : rv r * y ^ n = 1) (hA1 : 1 ≤ rv r * 2 ^ 899) (hA2 : rv r ≤ 2 ^ 899) (hy1 : 1 ≤ y * 2 ^ 301)
    (hy2 : y ≤ 2 ^ 301) (he : |rv v / y - 1| ≤ δ) (hδ : |(n:ℝ)| * δ ≤ 1 / 16) :
    ∃ xn, v.powi n = some xn ∧ ∃ x, v + v * (Double.ONE - r * xn) / (⟨F64.ofInt n, F64.zero⟩ : Double) = x ∧
      Ap x.recip y⁻¹ (y⁻¹ * ((6 / 5 * |(n:ℝ)| + 11 / 10) * δ ^ 2 + 1 / 2 ^ 98)) ∧
      Ap (-x).recip (-y⁻¹) (y⁻¹ * ((6 / 5 * |(n:ℝ)| + 11 / 10) * δ ^ 2 + 1 / 2 ^ 98)) := by
  have hN : 1 ≤ |(n:ℝ)| := by exact_mod_cast Int.one_le_abs hn
  have hNp : 0 < |(n:ℝ)| := by linarith
  have hN0 : (n:ℝ) ≠ 0 := abs_pos.mp hNp
  have hNb : |(n:ℝ)| ≤ 2 ^ 31 := by exact_mod_cast hn2.le
  have hδ0 : 0 ≤ δ := (abs_nonneg _).trans he
  have hδ1 : δ ≤ 1 / 16 := le_trans (le_mul_of_one_le_left hδ0 hN) hδ
  have hW := binom_int (e := rv v / y - 1) n hn (le_trans (mul_le_mul_of_nonneg_left he (abs_nonneg _)) hδ)
  rw [add_sub_cancel] at hW
  have hvb : |rv v / y - 1| ≤ 1 / 16 := he.trans hδ1
  have hv0 := abs_le.mp hvb
  have hvy : 15 / 16 * y ≤ rv v ∧ rv v ≤ 17 / 16 * y := by
    have e : rv v = rv v / y * y := by field_simp
    constructor
    · calc 15 / 16 * y ≤ rv v / y * y := mul_le_mul_of_nonneg_right (by linarith) hy.le
        _ = _ := e.symm
    · calc rv v = rv v / y * y := e
        _ ≤ _ := mul_le_mul_of_nonneg_right (by linarith) hy.le
  have hvp : 0 < rv v := by linarith [hvy.1]
  have eW : rv r * rv v ^ n = (rv v / y) ^ n := by
    rw [div_zpow, eq_div_iff (zpow_ne_zero _ hy.ne'), mul_right_comm, hyA, one_mul]
  set W := (rv v / y) ^ n with hWd
  have hWb : |W - 1| ≤ 1 / 8 := by
    have h1 : |(n:ℝ) * (rv v / y - 1)| ≤ 1 / 16 := by
      rw [abs_mul]; exact (mul_le_mul_of_nonneg_left he (abs_nonneg _)).trans hδ
    have h2 : (n:ℝ) ^ 2 * (rv v / y - 1) ^ 2 ≤ 1 / 256 := by
      rw [← mul_pow, ← sq_abs]; nlinarith [abs_nonneg ((n:ℝ) * (rv v / y - 1))]
    have h3 := abs_add_le (W - 1 - n * (rv v / y - 1)) (n * (rv v / y - 1))
    rw [sub_add_cancel] at h3
    linarith
  have hW1 := abs_le.mp hWb
  have hWp : 0 < W := by linarith
  have hvn : rv v ^ n = W / rv r := by rw [← eW]; field_simp
  have hvnp : 0 < rv v ^ n := zpow_pos hvp n
  have p1 : 1 ≤ |rv v ^ n| * 2 ^ 950 := by
    rw [abs_of_pos hvnp, hvn, div_mul_eq_mul_div, le_div_iff₀ hA, one_mul]
    refine hA2.trans ?_
    have h1 : (2:ℝ) ^ 950 = 2 * 2 ^ 949 := by rw [← pow_succ']
    have h2 : (2:ℝ) ^ 899 ≤ 2 ^ 949 := pow_le_pow_right₀ (by norm_num) (by norm_num)
    rw [h1, ← mul_assoc]
    refine h2.trans (le_mul_of_one_le_left (by positivity) (by linarith))
  have p2 : |rv v ^ n| ≤ 2 ^ 950 := by
    rw [abs_of_pos hvnp, hvn, div_le_iff₀ hA]
    have h1 : (2:ℝ) ^ 950 = 2 ^ 51 * 2 ^ 899 := by rw [← pow_add]
    rw [h1]
    have h3 : (2:ℝ) ^ 51 ≤ 2 ^ 51 * (rv r * 2 ^ 899) := le_mul_of_one_le_right (by norm_num) hA1
    calc W ≤ 2 ^ 51 := by norm_num; linarith
      _ ≤ _ := h3
      _ = _ := by ring
  obtain ⟨xn, hxn, hxA⟩ := powi_any hv hn hn2 p1 p2
  refine ⟨xn, hxn, _, rfl, ?_⟩
  obtain ⟨κ, hκ⟩ : ∃ κ : ℝ, κ = (|(n:ℝ)| + 1) / 2 ^ 100 := ⟨_, rfl⟩
  have hκ2 : κ ≤ 1 / 1000 := by rw [hκ]; norm_num at hNb ⊢; linarith
  have h0 : |rv r * rv xn - W| ≤ κ * W := by
    have h1 := hxA.2
    rw [← hκ, abs_of_pos hvnp] at h1
    have h2 : rv r * rv xn - W = rv r * (rv xn - rv v ^ n) := by rw [← eW]; ring
    rw [h2, abs_mul, abs_of_pos hA, ← eW]
    calc _ ≤ rv r * (κ * rv v ^ n) := mul_le_mul_of_nonneg_left h1 hA.le
      _ = _ := by ring
  have h0' : |rv r * rv xn - W| ≤ 1 / 100 := h0.trans (by nlinarith)
  have hxb := abs_le.mp h0'
  have hxb' : |rv r * rv xn| ≤ 2 := by rw [abs_le]; constructor <;> linarith
  have hxN := hxA.1
  clear p1 p2 hvn hxA
  have big : ∀ {z : ℝ} {k : ℕ}, z ≤ 2 ^ k → k ≤ 1020 → z ≤ 2 ^ 1020 := fun h hk => h.trans (pow_le_pow_right₀ (by norm_num) hk)
  have hτ : tau ≤ 1 / 2 ^ 110 := by rw [le_div_iff₀ (by norm_num)]; exact tau_mul (by norm_num)
  have hy1' : (1:ℝ) / 2 ^ 301 ≤ y := by rw [div_le_iff₀ (by positivity)]; exact hy1
  have hτy : tau ≤ 1 / 2 ^ 110 * y := by
    refine le_trans ?_ (mul_le_mul_of_nonneg_left hy1' (by norm_num))
    rw [div_mul_div_comm, one_mul, ← pow_add, le_div_iff₀ (by positivity)]; exact tau_mul (by norm_num)
  have hσ : (1:ℝ) / 2 ^ 1010 ≤ 1 / 2 ^ 110 * y := by
    refine le_trans ?_ (mul_le_mul_of_nonneg_left hy1' (by norm_num))
    rw [div_mul_div_comm, one_mul, ← pow_add]
    exact div_le_div_of_nonneg_left (by norm_num) (by positivity) (pow_le_pow_right₀ (by norm_num) (by norm_num))
  -- the operations
  have hm := rw_mul hr hxN (big (k := 1) (by rw [pow_one]; exact hxb') (by norm_num))
  generalize r * xn = m at *
  obtain ⟨hmN, h1⟩ := hm
  have hmb : |rv m - W| ≤ 2 / 100 := by
    have := abs_sub_le (rv m) (rv r * rv xn) W
    norm_num [-abs_mul] at h1 h0' hτ hxb' ⊢; linarith
  have hmb' := abs_le.mp hmb
  have hm1 : |1 - rv m| ≤ 3 / 20 := by rw [abs_le]; constructor <;> linarith
  have o1 : rv Double.ONE = 1 := by unfold rv; rw [fs_one_ok.2]; norm_num
  have hd := rw_sub (a := Double.ONE) fs_one_ok.1 hmN (big (k := 0) (by rw [o1]; norm_num) (by norm_num))
    (big (k := 1) (by rw [abs_le]; constructor <;> linarith) (by norm_num))
  generalize Double.ONE - m = d at *
  obtain ⟨hdN, h2⟩ := hd
  rw [o1] at h2
  have hdb : |rv d| ≤ 4 / 25 := by
    have := abs_sub_abs_le_abs_sub (rv d) (1 - rv m)
    norm_num at h2 hm1 ⊢; linarith
  have hpb : |rv v * rv d| ≤ 17 / 100 * y := by
    rw [abs_mul, abs_of_pos hvp]
    calc _ ≤ (17 / 16 * y) * (4 / 25) := mul_le_mul hvy.2 hdb (abs_nonneg _) (by linarith)
      _ = _ := by ring
  have y2 : ∀ {z c : ℝ}, z ≤ c * y → c ≤ 2 → z ≤ 2 ^ 302 := fun {z c} h hc => by
    refine h.trans ((mul_le_mul_of_nonneg_right hc hy.le).trans ?_)
    rw [pow_succ']; exact mul_le_mul_of_nonneg_left hy2 (by norm_num)
  have hp := rw_mul hv hdN (big (y2 hpb (by norm_num)) (by norm_num))
  generalize v * d = p at *
  obtain ⟨hpN, h3⟩ := hp
  have hpb2 : |rv p| ≤ 18 / 100 * y := by
    have := abs_sub_abs_le_abs_sub (rv p) (rv v * rv d)
    clear y2 big hy2 hy1 hy1' hA1 hA2 hσ
    norm_num [-abs_mul] at h3 hpb hτy ⊢; linarith
  have iN := is_ofInt (n := n) (by rw [abs_lt] at hn2; rw [abs_le]; norm_num at hn2 ⊢; constructor <;> linarith [hn2.1, hn2.2])
  obtain ⟨hnd, fN⟩ := int_single iN
  generalize (⟨F64.ofInt n, F64.zero⟩ : Double) = nd at *
  have ht := rw_diva hpN hnd ((y2 hpb2 (by norm_num)).trans (pow_le_pow_right₀ (by norm_num) (by norm_num)))
    (by rw [fN]; norm_num at hN ⊢; linarith)
  rw [fN] at ht
  generalize p / nd = t at *
  obtain ⟨htN, h4⟩ := ht
  have hpN1 : |rv p / n| ≤ |rv p| := by rw [abs_div]; exact div_le_self (abs_nonneg _) hN
  have htb : |rv t| ≤ 19 / 100 * y := by
    have := abs_sub_abs_le_abs_sub (rv t) (rv p / n)
    have h4' := h4.trans (add_le_add le_rfl hσ)
    clear y2 big hy2 hy1 hy1' hA1 hA2 hσ h4
    norm_num [-abs_div] at h4' hpb2 hpN1 ⊢; linarith
  have hvtb : |rv v| ≤ 17 / 16 * y := by rw [abs_of_pos hvp]; exact hvy.2
  have hx := rw_add hv htN (big (y2 hvtb (by norm_num)) (by norm_num)) (big (y2 htb (by norm_num)) (by norm_num))
  generalize v + t = x at *
  obtain ⟨hxNo, h5⟩ := hx
  have hvt := abs_le.mp htb
  have hxlo : 7 / 10 * y ≤ rv x ∧ rv x ≤ 13 / 10 * y := by
    have hs : |rv v + rv t| ≤ 5 / 4 * y + 1 / 100 * y := by
      rw [abs_le]; constructor <;> linarith [hvy.1, hvy.2]
    have h5' := abs_le.mp h5
    clear y2 big hy2 hy1 hy1' hA1 hA2 hσ h4
    constructor <;> norm_num at h5' hs ⊢ <;> linarith [h5'.1, h5'.2, hvy.1, hvy.2]
  have hxp : 0 < rv x := by linarith [hxlo.1]
  have hrec : ∀ {z : Double}, z.Normalized → |rv z| = rv x → z.recip.Normalized ∧ |rv z.recip - 1 / rv z| ≤ |1 / rv z| / 2 ^ 102 := by
    intro z hz hzx
    have f1 := fr_hi_two hz
    have f2 : |rv z| ≤ 2 * |fr z.hi| := by
      have h1 := fr_hi_ge hz
      clear y2 big hy2 hy1 hy1' hA1 hA2 hσ h4
      norm_num at h1 ⊢; linarith
    rw [hzx] at f1 f2
    have fp : 0 < |fr z.hi| := by linarith
    have k1 : Double.ONE.hi.toRat = 1 := by decide +kernel
    have g1 : |fr z.hi| ≤ 2 ^ 304 := by
      have e : (2:ℝ) ^ 304 = 2 ^ 3 * 2 ^ 301 := by rw [← pow_add]
      rw [e]
      have := mul_le_mul_of_nonneg_left hy2 (show (0:ℝ) ≤ 2 ^ 3 by norm_num)
      refine le_trans ?_ this
      norm_num; linarith [hxlo.2]
    have g2 : 1 ≤ |fr z.hi| * 2 ^ 304 := by
      have e : (2:ℝ) ^ 304 = 2 ^ 3 * 2 ^ 301 := by rw [← pow_add]
      rw [e]
      refine hy1.trans ?_
      rw [← mul_assoc]
      refine mul_le_mul_of_nonneg_right ?_ (by positivity)
      norm_num; linarith [hxlo.1]
    have g3 : 1 ≤ |(1:ℝ) / fr z.hi| * 2 ^ 962 := by
      rw [abs_div, abs_one, div_mul_eq_mul_div, one_mul, le_div_iff₀ fp, one_mul]
      exact g1.trans (pow_le_pow_right₀ (by norm_num) (by norm_num))
    have g4 : |(1:ℝ) / fr z.hi| ≤ 2 ^ 1020 := by
      rw [abs_div, abs_one, div_le_iff₀ fp, mul_comm]
      exact g2.trans (mul_le_mul_of_nonneg_left (pow_le_pow_right₀ (by norm_num) (by norm_num)) fp.le)
    have q0 : z.hi.toRat ≠ 0 := by
      intro h; rw [fr_toRat, h] at fp; norm_num at fp
    have b1 : (1:ℚ) ≤ 2 ^ 962 := one_le_pow₀ (by norm_num)
    have b2 : (1:ℚ) ≤ 2 ^ 1020 := one_le_pow₀ (by norm_num)
    have q3 : 1 ≤ |1 / z.hi.toRat| * 2 ^ 962 := by rw [fr_toRat] at g3; exact_mod_cast g3
    have q4 : |1 / z.hi.toRat| ≤ 2 ^ 1020 := by rw [fr_toRat] at g4; exact_mod_cast g4
    obtain ⟨c1, c2⟩ := C04_div Double.ONE z fs_one_ok.1 hz q0 (by rw [k1, abs_one, one_mul]; exact b1) (by rw [k1, abs_one]; exact b2)
      (by rw [k1]; exact q3) (by rw [k1]; exact q4)
    refine ⟨c1, ?_⟩
    rw [fs_one_ok.2] at c2
    rw [le_div_iff₀ (by positivity)]
    have := (Rat.cast_le (K := ℝ)).mpr c2.le
    push_cast at this
    unfold rv
    exact this
  have fin : ∀ {ρ : ℝ}, |ρ - 1 / rv x| ≤ |1 / rv x| / 2 ^ 102 →
      |ρ - y⁻¹| ≤ y⁻¹ * ((6 / 5 * |(n:ℝ)| + 11 / 10) * δ ^ 2 + 1 / 2 ^ 98) := by
    intro ρ h6
    have hc := nroot_core (A := rv r) (xn := rv xn) hy hN he hδ hW hκ hκ2 hτ hτy hσ h0 h1 h2 h3 h4 h5 h6
    have e : ρ - y⁻¹ = y⁻¹ * (ρ * y - 1) := by field_simp
    rw [e, abs_mul, abs_of_pos (inv_pos.mpr hy)]
    exact mul_le_mul_of_nonneg_left hc (inv_pos.mpr hy).le
  refine ⟨?_, ?_⟩
  · obtain ⟨c1, c2⟩ := hrec hxNo (abs_of_pos hxp)
    exact ⟨c1, fin c2⟩
  · have ngx := (Ap.exact hxNo).neg
    have en := rv_neg hxNo
    obtain ⟨c1, c2⟩ := hrec ngx.1 (by rw [en, abs_neg, abs_of_pos hxp])
    refine ⟨c1, ?_⟩
    rw [en] at c2
    have := fin (ρ := -rv (-x).recip) (by
      have e1 : -rv (-x).recip - 1 / rv x = -(rv (-x).recip - 1 / -rv x) := by rw [div_neg]; ring
      rw [e1, abs_neg]
      refine c2.trans (le_of_eq ?_)
      rw [div_neg, abs_neg])
    have e2 : rv (-x).recip - -y⁻¹ = -(-rv (-x).recip - y⁻¹) := by ring
    rw [e2, abs_neg]
    exact this


/-- `nroot` for a number given by its root. -/
theorem nroot_all {P : Platform} (hl : LibmLogs P) (hx : LibmExp P) (ht : FloatText P.toStr) {a : Double} (ha : a.Normalized) {n : ℤ}
    (hn0 : n ≠ 0) (hn1 : n ≠ 1) (hn2 : n ≠ 2) (hn : |n| < 2 ^ 31) {R : ℝ} (hR : R ^ n = rv a) (hs : 0 < R ↔ 0 < rv a) (h0 : rv a ≠ 0)
    (hL1 : |Real.log (|rv a|)| ≤ 623) (hL2 : |Real.log (|R|)| ≤ 208) :
    ∃ r, Double.nroot P a n = some r ∧ Ap r R
      (|R| * ((6 / 5 * |(n:ℝ)| + 11 / 10) * ((6 / 5 * |Real.log (|R|)| + 3 / 2) / 2 ^ 50) ^ 2 + 1 / 2 ^ 98)) := by
  have hN : 1 ≤ |(n:ℝ)| := by exact_mod_cast Int.one_le_abs hn0
  have hNp : 0 < |(n:ℝ)| := by linarith
  have hN0 : (n:ℝ) ≠ 0 := abs_pos.mp hNp
  have hNb : |(n:ℝ)| ≤ 2 ^ 31 := by exact_mod_cast hn.le
  have hR0 : R ≠ 0 := by
    rintro rfl; rw [zero_zpow n hn0] at hR; exact h0 hR.symm
  have hRp : 0 < |R| := abs_pos.mpr hR0
  have hap : 0 < |rv a| := abs_pos.mpr h0
  have hlog : Real.log |rv a| = n * Real.log |R| := by
    rw [← hR, abs_zpow, Real.log_zpow]
  have hlq : -Real.log |rv a| / n = -Real.log |R| := by rw [hlog]; field_simp
  have hlr : |Real.log (|rv a|)| / |(n:ℝ)| = |Real.log (|R|)| := by rw [hlog, abs_mul]; field_simp
  have hy : Real.exp (-Real.log |R|) = |R|⁻¹ := by rw [Real.exp_neg, Real.exp_log hRp]
  -- the preamble
  obtain ⟨c1, c2, c3, c4, c5, c6⟩ := class_of ha h0
  have hodd : ¬ (a.isSignNegative = true ∧ n.tmod 2 = 0) := by
    rintro ⟨k1, k2⟩
    have k3 := c4.mp k1
    have ev : Even n := even_iff_two_dvd.mpr (Int.dvd_of_tmod_eq_zero k2)
    have := ev.zpow_pos hR0
    rw [hR] at this; linarith
  have hpre : Double.preNroot P a n = none := by
    unfold Double.preNroot
    rw [if_neg hn0, if_neg hn1, c2, c3]
    simp only [Bool.false_eq_true, if_false, if_neg hn2]
    rw [if_neg]
    intro hc
    rw [Bool.and_eq_true, decide_eq_true_eq] at hc
    exact hodd hc
  obtain ⟨b1, b2⟩ := C41_abs_val a ha
  have hrA : rv a.abs = |rv a| := by unfold rv; rw [b2]; push_cast; rfl
  have hrp : 0 < rv a.abs := by rw [hrA]; exact hap
  obtain ⟨-, -, -, -, d5⟩ := class_pos b1 hrp
  have dfin : a.abs.hi.isFinite = true := by
    obtain ⟨h, l, i, -⟩ := b1.norm2; exact i.1.1
  have hsub := rv_sub_hi b1
  rw [abs_of_pos d5, hrA] at hsub
  have hL3 : |Real.log (|rv a|)| ≤ 208 * |(n:ℝ)| := by
    rw [hlog, abs_mul, mul_comm]; exact mul_le_mul_of_nonneg_right hL2 hNp.le
  obtain ⟨v, hv, hvN, hve⟩ := nroot_start hl hx ht dfin d5 hsub hn0 hn hL1 hL3
  rw [hlq, hlr, hy] at hve
  have z1 := exp_pow_two (s := Real.log |rv a|) (k := 899) (by refine hL1.trans ?_; norm_num)
  rw [Real.exp_log hap] at z1
  have z2 := exp_pow_two (s := -Real.log |R|) (k := 301) (by rw [abs_neg]; refine hL2.trans ?_; norm_num)
  rw [hy] at z2
  obtain ⟨δ, hδ⟩ : ∃ δ, δ = (6 / 5 * |Real.log (|R|)| + 3 / 2) / 2 ^ 50 := ⟨_, rfl⟩
  rw [← hδ] at hve ⊢
  have hδN : |(n:ℝ)| * δ ≤ 1 / 16 := by
    have : δ ≤ 300 / 2 ^ 50 := by
      rw [hδ]; exact div_le_div_of_nonneg_right (by clear z1 z2 hve hδ; linarith) (by norm_num)
    calc _ ≤ 2 ^ 31 * (300 / 2 ^ 50 : ℝ) := mul_le_mul hNb this ((abs_nonneg _).trans hve) (by norm_num)
      _ ≤ _ := by norm_num
  obtain ⟨xn, hxn, x, hxe, hx1, hx2⟩ := nroot_newton hvN b1 hn0 hn (y := |R|⁻¹) (δ := δ) hrp (inv_pos.mpr hRp)
    (by rw [hrA, ← hR, abs_zpow, inv_zpow, mul_inv_cancel₀ (zpow_ne_zero _ hRp.ne')])
    (by rw [hrA]; exact z1.2) (by rw [hrA]; exact z1.1) z2.2 z2.1 hve hδN
  rw [inv_inv] at hx1 hx2
  unfold Double.nroot
  rw [hpre]
  dsimp only
  rw [hv]
  simp only [Option.bind_some, hxn, Option.map_some]
  rw [hxe]
  refine ⟨_, rfl, ?_⟩
  by_cases hsg : a.isSignNegative = true
  · rw [if_pos hsg]
    have hneg : R < 0 := by
      have := c4.mp hsg
      rcases lt_or_gt_of_ne hR0 with h | h
      · exact h
      · linarith [hs.mp h]
    rw [abs_of_neg hneg, neg_neg] at hx2
    rw [abs_of_neg hneg]
    exact hx2
  · rw [if_neg hsg]
    have hpos : 0 < R := by
      apply hs.mpr
      rcases lt_or_gt_of_ne h0 with h | h
      · exact absurd (c4.mpr h) hsg
      · exact h
    rw [abs_of_pos hpos] at hx1 ⊢
    exact hx1

end Verif
