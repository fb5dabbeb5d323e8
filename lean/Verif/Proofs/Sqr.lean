import Verif.Proofs.Ints

/-!
# `sqr` on units
-/

namespace Verif

open F64 Prim Util

/-- Units of the low part added in `sqr`. -/
def sqrS (h l : ℤ) : ℤ := rs (rs (pe h h) (pr (2 * h) l)) (pr l l)

theorem pq_two (h l : ℤ) : pq (2 * h) l = 2 * pq h l := by unfold pq; push_cast; ring

theorem pq_self_nonneg (h : ℤ) : 0 ≤ pq h h := by
  unfold pq; exact div_nonneg (mul_self_nonneg _) one'_posQ.le

/-- Analysis of `sqr`. -/
theorem sqr_ok {h l : ℤ} (hx : Norm2 h l) :
    Grid (pr h h) (sqrS h l) ∧
    |(pr h h : ℚ) + sqrS h l - exactProd h l h l| ≤ 9 / 2 ^ 106 * |exactProd h l h l| + 2 ∧
    |(sqrS h l : ℚ)| ≤ 4 / 2 ^ 53 * |pq h h| + 3 := by
  have hA1 : |pq l h| ≤ |pq h h| / 2 ^ 53 := pq_le_left hx.lo_leQ
  have hA2 : |pq (2 * h) l| ≤ 2 * |pq h h| / 2 ^ 53 := by
    rw [pq_two, abs_mul, pq_comm h l, abs_two]; linarith
  have hA3 : |pq l l| ≤ |pq l h| / 2 ^ 53 := by
    rw [pq_comm l h]; exact pq_le_left hx.lo_leQ
  have e0 := pe_err hx.rep_hi hx.rep_hi
  have e1 := err_le (pq (2 * h) l)
  have e2 := err_le (pq l l)
  change |pq (2 * h) l - (pr (2 * h) l : ℚ)| ≤ _ at e1
  change |pq l l - (pr l l : ℚ)| ≤ _ at e2
  have e00 := err_le (pq h h)
  change |pq h h - (pr h h : ℚ)| ≤ _ at e00
  have e3 := rs_errQ (pe h h) (pr (2 * h) l)
  have e4 := rs_errQ (rs (pe h h) (pr (2 * h) l)) (pr l l)
  change |(sqrS h l : ℚ) - _| ≤ _ at e4
  have bE : |(pe h h : ℚ)| ≤ |pq h h| / 2 ^ 53 + 1 := by
    have := tri_l e0; linarith
  have bT1 := tri_l e1
  have bT2 := tri_l e2
  have b1 := abs_sum2 bE bT1
  have b2 := tri_r e3
  have b3 := abs_sum2 b2 bT2
  have b4 := tri_r e4
  have hq := abs_nonneg (pq h h)
  have hS : |(sqrS h l : ℚ)| ≤ 4 / 2 ^ 53 * |pq h h| + 3 := by linarith
  refine ⟨grid_of_small (rep_rnd _) (rep_rs _ _)
    (small_or_le hS (pr_lower _ _) (by norm_num) (by norm_num) (by norm_num)), ?_, hS⟩
  have hT := (exactProd_lower hx hx).1
  have hTn := abs_nonneg (exactProd h l h l)
  have e : (pr h h : ℚ) + sqrS h l - exactProd h l h l =
      (sqrS h l - (rs (pe h h) (pr (2 * h) l) + pr l l)) +
      ((rs (pe h h) (pr (2 * h) l) - (pe h h + pr (2 * h) l)) +
      (-(pq h h - pr h h - pe h h) + (-(pq (2 * h) l - pr (2 * h) l) + -(pq l l - pr l l)))) := by
    rw [exactProd_eq, pq_two, pq_comm l h]; ring
  rw [e]
  have := abs_sum2 e4 (abs_sum2 e3 (abs_sum2 (ng e0) (abs_sum2 (ng e1) (ng e2))))
  linarith

theorem rnd_eq_zero {x : ℚ} (h : |x| < 1 / 2) : rnd x = 0 := by
  have h1 : |x - rnd x| ≤ 2 ^ 0 / 2 := abs_sub_rnd (k := 0) (by
    have : (1:ℚ) / 2 < 2 ^ (53 + 0) := by norm_num
    exact h.trans this)
  have h2 := tri_l h1
  have h3 : |(rnd x : ℚ)| < 1 := by norm_num at h2; linarith
  rw [← abs_int_cast] at h3
  have h4 : |rnd x| < 1 := by exact_mod_cast h3
  exact Int.abs_lt_one_iff.mp h4

/-- The square is never negative. -/
theorem sqr_nonneg {h l : ℤ} (hx : Norm2 h l) : 0 ≤ pr h h + sqrS h l := by
  have hq := pq_self_nonneg h
  have hp : 0 ≤ pr h h := rnd_nonneg hq
  have hA1 : |pq l h| ≤ |pq h h| / 2 ^ 53 := pq_le_left hx.lo_leQ
  have hA3 : |pq l l| ≤ |pq l h| / 2 ^ 53 := by
    rw [pq_comm l h]; exact pq_le_left hx.lo_leQ
  rw [abs_of_nonneg hq] at hA1
  rcases lt_or_ge (pq h h) (2 ^ 50) with hs | hs
  · have z1 : pr (2 * h) l = 0 := by
      apply rnd_eq_zero
      rw [pq_two, abs_mul, pq_comm h l, abs_two]
      norm_num at hs
      linarith
    have z2 : pr l l = 0 := by
      apply rnd_eq_zero
      norm_num at hs
      linarith
    have eS : sqrS h l = pe h h := by
      unfold sqrS rs
      rw [z1, z2, add_zero, add_zero]
      have r : rnd ((pe h h : ℤ) : ℚ) = pe h h := rnd_of_rep (rep_rnd _)
      rw [r, r]
    rw [eS]
    rcases hp.lt_or_eq with h1 | h1
    · have h2 : |pq h h - (pr h h : ℚ)| ≤ 1 / 2 := by
        have := abs_sub_rnd (x := pq h h) (k := 0) (by
          rw [abs_of_nonneg hq]; norm_num at hs ⊢; linarith)
        change |pq h h - (rnd (pq h h) : ℚ)| ≤ 1 / 2
        simpa using this
      have h3 : |pe h h| ≤ 1 := by
        apply abs_rnd_le
        · exact ⟨1, 0, by norm_num, by norm_num⟩
        · push_cast; linarith
      have := abs_le.mp h3
      omega
    · have : pe h h = 0 := by
        unfold pe; rw [← h1, Int.cast_zero, sub_zero]; exact h1.symm
      rw [this, ← h1]; simp
  · have hS := (sqr_ok hx).2.2
    rw [abs_of_nonneg hq] at hS
    have hl := pr_lower h h
    rw [abs_of_nonneg hq] at hl
    have hp' : |(pr h h : ℚ)| = pr h h := abs_of_nonneg (by exact_mod_cast hp)
    rw [hp'] at hl
    have h5 := (abs_le.mp hS).1
    have : (0:ℚ) ≤ pr h h + sqrS h l := by norm_num at hs hl h5; linarith
    exact_mod_cast this

theorem is_two : Is Double.two (2 * one') := by
  have : Double.two = F64.ofInt 2 := by decide +kernel
  rw [this]; exact is_ofInt (by norm_num)

/-- Multiplication by two is exact. -/
theorem Is.two_mul {a : F64} {h : ℤ} (i : Is a h) (hb : |2 * h| < ovf) : Is (F64.mul Double.two a) (2 * h) := by
  refine is_two.mul_rep i (by ring) ?_ hb
  obtain ⟨m, e, hm, rfl⟩ := i.rep
  exact ⟨m, e + 1, hm, by rw [pow_succ]; ring⟩

theorem lim2_sq {h : ℤ} (hr : |pq h h| ≤ (lim2 : ℚ)) : |2 * h| < ovf := by
  rw [abs_of_nonneg (pq_self_nonneg h)] at hr
  unfold pq at hr
  rw [div_le_iff₀ one'_posQ] at hr
  have hr' : h * h ≤ lim2 * one' := by exact_mod_cast hr
  have e : lim2 * one' ≤ (2 ^ 2090) ^ 2 := by
    rw [lim2_one']; unfold one'
    rw [← pow_add, ← pow_add, ← pow_mul]
    exact pow_le_pow_right₀ (by norm_num) (by norm_num)
  have h2 : h ^ 2 ≤ (2 ^ 2090) ^ 2 := by rw [pow_two]; exact hr'.trans e
  have h3 : |h| ≤ 2 ^ 2090 := abs_le_of_sq_le_sq h2 (by positivity)
  rw [abs_mul, abs_two]
  have e2 : (2:ℤ) ^ 2091 < ovf := by
    unfold ovf
    exact pow_lt_pow_right₀ (by norm_num) (by norm_num)
  have e3 : (2:ℤ) ^ 2091 = 2 * 2 ^ 2090 := by rw [← pow_succ']
  rw [e3] at e2
  generalize (2:ℤ) ^ 2090 = K at *
  clear e h2 hr hr'
  linarith

/-- `sqr` when no shortcut applies. -/
def sqrMain (a : Double) : Double :=
  let (p, e) := twoSqr a.hi
  let (x, y) := renorm2 p (F64.add (F64.add e (F64.mul (F64.mul Double.two a.hi) a.lo)) (F64.mul a.lo a.lo))
  ⟨x, y⟩

theorem sqr_main_of {a : Double} {m : ℤ} (ha : Is a.hi m) : a.sqr = sqrMain a := by
  have : a.isInfinite = false := by
    unfold Double.isInfinite
    unfold Is at ha
    rcases a with ⟨(_ | _ | _), l⟩ <;> simp_all [F64.isInfinite, F64.isFinite]
  unfold Double.sqr Double.preSqr
  rw [this]; rfl

/-- `sqr` in units. -/
theorem is_sqr {a : Double} {h l : ℤ} (ia : DIs a h l) (hx : Norm2 h l) (hr : |pq h h| ≤ (lim2 : ℚ)) :
    DIs a.sqr (rs (pr h h) (sqrS h l)) (re (pr h h) (sqrS h l)) ∧
    Norm2 (rs (pr h h) (sqrS h l)) (re (pr h h) (sqrS h l)) := by
  have ok := sqr_ok hx
  have i2 := ia.1.two_mul (lim2_sq hr)
  rw [lim2Q] at hr
  have hq := quantumQ_ge
  have hA1 : |pq l h| ≤ |pq h h| / 2 ^ 53 := pq_le_left hx.lo_leQ
  have hA2 : |pq (2 * h) l| ≤ 2 * |pq h h| / 2 ^ 53 := by
    rw [pq_two, abs_mul, pq_comm h l, abs_two]; linarith
  have hA3 : |pq l l| ≤ |pq l h| / 2 ^ 53 := by
    rw [pq_comm l h]; exact pq_le_left hx.lo_leQ
  have h0 := abs_nonneg (pq h h)
  have i : Is (twoSqr a.hi).1 (pr h h) ∧ Is (twoSqr a.hi).2 (pe h h) :=
    is_twoProd ia.1 ia.1 (by rw [omegaQ]; linarith)
  have j1 := i2.mul ia.2 (by change |pq (2 * h) l| ≤ _; rw [omegaQ]; linarith)
  change Is _ (pr (2 * h) l) at j1
  have j2 := ia.2.mul ia.2 (by change |pq l l| ≤ _; rw [omegaQ]; linarith)
  change Is _ (pr l l) at j2
  have bE := pe_upper hx.rep_hi hx.rep_hi
  have bT1 := pr_upper (2 * h) l
  have bT2 := pr_upper l l
  have k1 := i.2.add j1 (abs_le_omega_of (abs_addQ bE bT1) (by linarith))
  change Is _ (rs (pe h h) (pr (2 * h) l)) at k1
  have bS1 : |(rs (pe h h) (pr (2 * h) l) : ℚ)| ≤ 4 * |pq h h| / 2 ^ 53 + 3 := by
    have := tri_r (rs_errQ (pe h h) (pr (2 * h) l))
    have h2 := abs_sum2 bE bT1
    linarith
  have k2 := k1.add j2 (abs_le_omega_of (abs_addQ bS1 bT2) (by linarith))
  change Is _ (sqrS h l) at k2
  have bP := pr_upper h h
  have z := is_quickTwoSum i.1 k2 ok.1 (abs_add_le_lim bP ok.2.2 (by linarith))
  refine ⟨?_, norm2_rs_re' (re_of_grid (rep_rnd _) ok.1)⟩
  rw [sqr_main_of ia.1]
  exact ⟨z.1, z.2⟩

theorem sqr_spec {a : Double} {h l : ℤ} (ia : DIs a h l) (hx : Norm2 h l) (hr : |pq h h| ≤ (lim2 : ℚ)) :
    ∃ zh zl, DIs a.sqr zh zl ∧ Norm2 zh zl ∧ 0 ≤ zh + zl ∧
      |((zh + zl : ℤ) : ℚ) - exactProd h l h l| ≤ 9 / 2 ^ 106 * |exactProd h l h l| + 2 := by
  have z := is_sqr ia hx hr
  refine ⟨_, _, z.1, z.2, ?_, ?_⟩
  · rw [rs_add_re]; exact sqr_nonneg hx
  · rw [rs_add_re]
    have := (sqr_ok hx).2.1
    push_cast
    exact this

/-- Exact square of a whole number. -/
theorem sqr_int {a : Double} {h l m : ℤ} (ia : DIs a h l) (hx : Norm2 h l) (e : h + l = m * one')
    (hm : |m * m| ≤ 2 ^ 104) : ∃ zh zl, DIs a.sqr zh zl ∧ Norm2 zh zl ∧ zh + zl = m * m * one' := by
  have hp := one'_pos
  obtain ⟨p, q, rfl, rfl, hpq, lx⟩ := hx.int_comps e
  have hmp : |p| ≤ |m| + |q| := by rw [← hpq]; exact abs_tri _ _
  have nq := abs_nonneg q
  have hm1 : |m| ≤ 2 ^ 52 := by
    by_contra hc
    push Not at hc
    rw [abs_mul] at hm
    have : (2 ^ 52 + 1 : ℤ) * (2 ^ 52 + 1) ≤ |m| * |m| :=
      mul_le_mul (by omega) (by omega) (by norm_num) (abs_nonneg _)
    omega
  have hq0 : q = 0 := by
    by_contra hc
    have h1 := abs_ge_one hc
    omega
  subst hq0
  rw [add_zero] at hpq
  subst hpq
  rw [zero_mul] at ia hx
  have hr : |pq (p * one') (p * one')| ≤ (lim2 : ℚ) := by
    rw [pq_int, ← abs_int_cast]
    have h1 : |p * p * one'| ≤ lim2 := by
      rw [abs_mul, abs_of_pos hp, lim2_one']
      apply mul_le_mul_of_nonneg_right _ hp.le
      have : (2:ℤ) ^ 104 ≤ 2 ^ 1023 := pow_le_pow_right₀ (by norm_num) (by norm_num)
      exact hm.trans this
    exact_mod_cast h1
  have z := is_sqr ia hx hr
  refine ⟨_, _, z.1, z.2, ?_⟩
  rw [rs_add_re]
  have e1 : ∀ k, pr k 0 = 0 := by intro k; unfold pr pq; simp [rnd_zero]
  have e2 : sqrS (p * one') 0 = pe (p * one') (p * one') := by
    unfold sqrS rs
    rw [e1, e1, add_zero, add_zero]
    have r : rnd ((pe (p * one') (p * one') : ℤ) : ℚ) = pe (p * one') (p * one') := rnd_of_rep (rep_rnd _)
    rw [r, r]
  rw [e2]
  by_cases hp0 : p = 0
  · subst hp0
    rw [zero_mul]; unfold pe; rw [e1]; unfold pq; simp [rnd_zero]
  · obtain ⟨u, v, f1, f2, f3, f4⟩ := pe_int hp0 hp0 hx.rep_hi hx.rep_hi
    rw [f1, f2, ← f3]; ring

/-! ### Sign -/

theorem SamD.sqrMain {a b : Double} (h : SamD a b) : SamD (sqrMain a) (sqrMain b) := by
  have t := SamP.twoProd h.1 h.1
  exact SamP.quickTwoSum t.1 ((t.2.add (((sam_rfl _).mul h.1).mul h.2)).add (h.2.mul h.2))

theorem OppD.sqrMain {a b : Double} (h : OppD a b) : SamD (sqrMain a) (sqrMain b) := by
  have mm : ∀ {x y z w : F64}, Opp x y → Opp z w → Sam (F64.mul x z) (F64.mul y w) := by
    intro x y z w h1 h2
    unfold Sam Opp at *
    rw [num_mul, num_mul, h1, h2, Num.mul_neg_left, Num.mul_neg_right, Num.neg_neg]
  have t1 : Sam (twoSqr a.hi).1 (twoSqr b.hi).1 := mm h.1 h.1
  have t2 : Sam (twoSqr a.hi).2 (twoSqr b.hi).2 := by
    unfold twoSqr
    simp only []
    have t1' : Sam (F64.mul a.hi a.hi) (F64.mul b.hi b.hi) := t1
    unfold Sam Opp at *
    rw [num_fma, num_fma, num_neg, num_neg, t1', h.1]
    have := Num.fma_neg_left (num a.hi) (num a.hi).neg (num (F64.mul a.hi a.hi))
    have e2 := Num.fma_neg_right (num a.hi) (num a.hi) (num (F64.mul a.hi a.hi)).neg
    rw [Num.neg_neg] at e2
    rw [this, e2, Num.neg_neg]
  exact SamP.quickTwoSum t1 ((t2.add (mm (Opp.mul_right (sam_rfl _) h.1) h.2)).add (mm h.2 h.2))

theorem isInfinite_num (a : Double) : a.isInfinite = true ↔ ∃ s, num a.hi = .inf s := by
  unfold Double.isInfinite
  rcases a with ⟨(_ | _ | _), l⟩ <;> simp [F64.isInfinite, num]

theorem sqr_eq (a : Double) : a.sqr = if a.isInfinite then Double.INFINITY else sqrMain a := by
  unfold Double.sqr Double.preSqr
  split_ifs <;> rfl

theorem SamD.sqr {a b : Double} (h : SamD a b) : SamD a.sqr b.sqr := by
  have e : a.isInfinite = b.isInfinite := by
    rw [Bool.eq_iff_iff, isInfinite_num, isInfinite_num, h.1]
  rw [sqr_eq, sqr_eq, e]
  split_ifs
  · exact samD_rfl _
  · exact h.sqrMain

theorem OppD.sqr {a b : Double} (h : OppD a b) : SamD a.sqr b.sqr := by
  have e : a.isInfinite = b.isInfinite := by
    rw [Bool.eq_iff_iff, isInfinite_num, isInfinite_num, h.1]
    cases num a.hi <;> simp [Num.neg]
  rw [sqr_eq, sqr_eq, e]
  split_ifs
  · exact samD_rfl _
  · exact h.sqrMain

end Verif
