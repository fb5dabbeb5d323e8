import Verif.Props.Inverse
import Verif.Props.Hyper
import Verif.Props.RemAny
import Verif.Proofs.QuadLnOf
import Verif.Props.Ln

/-!
# C94: functional equations survive in Double arithmetic

`exp(a + b) = exp(a) exp(b)`, `ln(a b) = ln(a) + ln(b)`, `sin² + cos² = 1` and `cosh² - sinh² = 1`, each with both sides
computed by the library. The bounds compare the two computed results with each other.
-/

namespace Verif

open F64 Prim Util

/-- The product of two numbers of moderate size, relative to the exact one. -/
theorem mul_rel_rv {a b : Double} (ha : a.Normalized) (hb : b.Normalized) (a1 : 1 ≤ |rv a| * (2 ^ 225 * 2 ^ 225))
    (a2 : |rv a| ≤ 2 ^ 225 * 2 ^ 225) (b1 : 1 ≤ |rv b| * (2 ^ 225 * 2 ^ 225)) (b2 : |rv b| ≤ 2 ^ 225 * 2 ^ 225) :
    (a * b).Normalized ∧ |rv (a * b) - rv a * rv b| ≤ |rv a * rv b| / 2 ^ 102 := by
  have a1' : 1 ≤ |a.val| * (2 ^ 225 * 2 ^ 225) := by unfold rv at a1; exact_mod_cast a1
  have a2' : |a.val| ≤ 2 ^ 225 * 2 ^ 225 := by unfold rv at a2; exact_mod_cast a2
  have b1' : 1 ≤ |b.val| * (2 ^ 225 * 2 ^ 225) := by unfold rv at b1; exact_mod_cast b1
  have b2' : |b.val| ≤ 2 ^ 225 * 2 ^ 225 := by unfold rv at b2; exact_mod_cast b2
  clear a1 a2 b1 b2
  have hr : |a.hi.toRat * b.hi.toRat| ≤ 2 ^ 1023 := by
    rw [abs_mul]
    refine (mul_le_mul ((hiQ ha).1.trans (mul_le_mul_of_nonneg_left a2' (by norm_num)))
      ((hiQ hb).1.trans (mul_le_mul_of_nonneg_left b2' (by norm_num))) (abs_nonneg _) (by positivity)).trans ?_
    rw [show (2:ℚ) * (2 ^ 225 * 2 ^ 225) * (2 * (2 ^ 225 * 2 ^ 225)) = 2 ^ 902 by
      rw [← pow_add, ← pow_succ', ← pow_add]]
    exact pow_le_pow_right₀ (by norm_num) (by norm_num)
  have hu : 1 ≤ |a.val * b.val| * 2 ^ 969 := by
    have h := mul_le_mul a1' b1' zero_le_one (by positivity)
    rw [abs_mul]
    refine (le_of_eq (one_mul 1).symm).trans (h.trans ?_)
    rw [show |a.val| * (2 ^ 225 * 2 ^ 225) * (|b.val| * (2 ^ 225 * 2 ^ 225)) = |a.val| * |b.val| * 2 ^ 900 by
      rw [show (2:ℚ) ^ 900 = 2 ^ 225 * 2 ^ 225 * (2 ^ 225 * 2 ^ 225) by simp only [← pow_add]]; ring]
    exact mul_le_mul_of_nonneg_left (pow_le_pow_right₀ (by norm_num) (by norm_num)) (by positivity)
  have h := (C03_mul_relative a b ha hb hr hu).le
  refine ⟨(C03_mul a b ha hb hr).1, ?_⟩
  have h2 : |(a * b).val - a.val * b.val| ≤ |a.val * b.val| / 2 ^ 102 := by
    rw [le_div_iff₀ (by norm_num)]; exact h
  unfold rv
  exact_mod_cast h2

theorem exp_250 {x : ℝ} (h : |x| ≤ 250) : Real.exp x ≤ 2 ^ 200 * 2 ^ 200 ∧ 1 ≤ Real.exp x * (2 ^ 200 * 2 ^ 200) := by
  have e5 : Real.exp 5 ≤ 2 ^ 8 := by
    have h1 := Real.exp_one_lt_d9.le
    have : Real.exp 5 = Real.exp 1 ^ 5 := by rw [← Real.exp_nat_mul]; norm_num
    rw [this]
    calc Real.exp 1 ^ 5 ≤ (2.7182818286:ℝ) ^ 5 := pow_le_pow_left₀ (Real.exp_pos 1).le h1 5
      _ ≤ _ := by norm_num
  have e250 : Real.exp 250 ≤ 2 ^ 200 * 2 ^ 200 := by
    have : Real.exp 250 = Real.exp 5 ^ 50 := by rw [← Real.exp_nat_mul]; norm_num
    rw [this]
    calc Real.exp 5 ^ 50 ≤ ((2:ℝ) ^ 8) ^ 50 := pow_le_pow_left₀ (Real.exp_pos 5).le e5 50
      _ = _ := by rw [← pow_mul, ← pow_add]
  obtain ⟨h1, h2⟩ := abs_le.mp h
  refine ⟨(Real.exp_le_exp.mpr h2).trans e250, ?_⟩
  have h3 : Real.exp (-x) ≤ 2 ^ 200 * 2 ^ 200 := (Real.exp_le_exp.mpr (by linarith)).trans e250
  calc (1:ℝ) = Real.exp x * Real.exp (-x) := by rw [← Real.exp_add]; simp
    _ ≤ _ := mul_le_mul_of_nonneg_left h3 (Real.exp_pos x).le

/-- **C94.** `sin² + cos² = 1`: computed from the results of `sin_cos`, for every argument up to `2^45`, within
`(4 |a| + 119) / 2^102`. -/
theorem C94_sin_cos (P : Platform) (hP : FloatText P.toStr) (a : Double) (ha : a.Normalized) (h : |a.val| ≤ 2 ^ 45) :
    ∃ s c, Double.sinCos P a = some (s, c) ∧ (s * s + c * c).Normalized ∧
      |((s * s + c * c).val : ℝ) - 1| ≤ (4 * |(a.val : ℝ)| + 119) / 2 ^ 102 := by
  have g2 := range_rv h
  obtain ⟨s, c, p, -, -, p1, -, -, p2, p3, -⟩ := trig_facts P hP ha g2
  refine ⟨p.1, p.2, p1, ?_⟩
  change _ ∧ |rv _ - 1| ≤ (4 * |rv a| + 119) / 2 ^ 102
  obtain ⟨d, hd⟩ : ∃ d, (|rv a| + 29) / 2 ^ 102 = d := ⟨_, rfl⟩
  rw [hd] at p2 p3
  have x0 := abs_nonneg (rv a)
  have e1 : |rv a| = d * 2 ^ 102 - 29 := by rw [← hd]; ring
  have d0 : 0 ≤ d := by rw [← hd]; positivity
  have d1 : d ≤ 1 / 2 ^ 50 := by rw [← hd]; norm_num at g2 ⊢; linarith
  have d2 : d * d ≤ d * (1 / 2 ^ 50) := mul_le_mul_of_nonneg_left d1 d0
  have h30 : (29:ℝ) / 2 ^ 102 ≤ d := by rw [← hd]; norm_num; linarith
  have hg : 1 * d + 1 * d + d * d + 9 / 2 ^ 106 * ((1 + d) * (1 + d)) + 1 / 2 ^ 250 ≤ 2 * d + 6 / 10 / 2 ^ 102 := by
    norm_num at d1 d2 h30 ⊢; nlinarith
  have l1 : 1 + d ≤ 2 ^ 200 := by norm_num at d1 ⊢; linarith
  have qs := p2.mul p2 (Real.abs_sin_le_one _) (Real.abs_sin_le_one _) l1 l1 hg
  have qc := p3.mul p3 (Real.abs_cos_le_one _) (Real.abs_cos_le_one _) l1 l1 hg
  have sc : Real.sin (rv a) * Real.sin (rv a) + Real.cos (rv a) * Real.cos (rv a) = 1 := by
    have := Real.sin_sq_add_cos_sq (rv a)
    rw [sq, sq] at this; exact this
  have ks : |Real.sin (rv a) * Real.sin (rv a)| ≤ 1 := by
    rw [abs_mul_self]; linarith [mul_self_nonneg (Real.cos (rv a))]
  have kc : |Real.cos (rv a) * Real.cos (rv a)| ≤ 1 := by
    rw [abs_mul_self]; linarith [mul_self_nonneg (Real.sin (rv a))]
  have q := qs.add qc (M := 1) (g := 4 * d + 3 / 2 ^ 102) (by
      refine (add_le_add ks le_rfl).trans ?_
      norm_num at d1 ⊢; linarith) (by
      refine (add_le_add kc le_rfl).trans ?_
      norm_num at d1 ⊢; linarith)
    (by rw [sc]; norm_num) (by norm_num at d1 ⊢; linarith)
  rw [sc] at q
  refine ⟨q.1, q.2.trans (le_of_eq ?_)⟩
  rw [← hd]; ring

example (P : Platform) (h : P.toStr = text17) : ∃ s c, Double.sinCos P Double.E = some (s, c) ∧ (s * s + c * c).Normalized ∧
    |((s * s + c * c).val : ℝ) - 1| ≤ (4 * |((Double.E.val : ℚ) : ℝ)| + 119) / 2 ^ 102 :=
  C94_sin_cos P (h ▸ text17_ok) _ (by decide +kernel) (by decide +kernel)

/-- **C94.** `cosh² - sinh² = 1`: computed from the results of `sinh_cosh`, up to 60 in magnitude, within
`(|a| + 13) / 2^95` of the larger square. -/
theorem C94_sinh_cosh (P : Platform) (hP : FloatText P.toStr) (a : Double) (ha : a.Normalized) (h : |a.val| ≤ 60)
    (h0 : 1 ≤ |a.val| * 2 ^ 900) :
    ∃ s c, Double.sinhCosh P a = some (s, c) ∧ (c * c - s * s).Normalized ∧
      |((c * c - s * s).val : ℝ) - 1| ≤ (|(a.val : ℝ)| + 13) / 2 ^ 95 * Real.cosh (a.val : ℝ) ^ 2 := by
  obtain ⟨s, c, e, ns, nc, hs, hc⟩ := C69_sinh_cosh P hP a ha (h.trans (by norm_num)) h0
  refine ⟨s, c, e, ?_⟩
  change |rv s - Real.sinh (rv a)| ≤ (|rv a| + 12) / 2 ^ 97 * |Real.sinh (rv a)| at hs
  change |rv c - Real.cosh (rv a)| ≤ (|rv a| + 12) / 2 ^ 102 * Real.cosh (rv a) at hc
  change _ ∧ |rv _ - 1| ≤ (|rv a| + 13) / 2 ^ 95 * Real.cosh (rv a) ^ 2
  have hx : |rv a| ≤ 60 := by unfold rv; exact_mod_cast h
  clear h h0
  have x0 := abs_nonneg (rv a)
  have C1 := Real.one_le_cosh (rv a)
  have C2 : Real.cosh (rv a) ≤ 2 ^ 90 := by
    obtain ⟨h1, h2⟩ := abs_le.mp hx
    have e1 := Real.exp_le_exp.mpr h2
    have e2 := Real.exp_le_exp.mpr (show -rv a ≤ 60 by linarith)
    have h3 := Real.exp_one_lt_d9.le
    have h4 : Real.exp 60 = Real.exp 1 ^ 60 := by rw [← Real.exp_nat_mul]; norm_num
    have h5 : Real.exp 1 ^ 60 ≤ (2.7182818286:ℝ) ^ 60 := pow_le_pow_left₀ (Real.exp_pos 1).le h3 60
    have h6 : ((2.7182818286:ℝ) ^ 60) ≤ 2 ^ 90 := by norm_num
    rw [Real.cosh_eq]
    linarith
  have S1 : |Real.sinh (rv a)| ≤ Real.cosh (rv a) := by
    rw [abs_le]; constructor <;> linarith [Real.sinh_lt_cosh (rv a), Real.sinh_lt_cosh (-rv a), Real.sinh_neg (rv a), Real.cosh_neg (rv a)]
  have sc : Real.cosh (rv a) * Real.cosh (rv a) - Real.sinh (rv a) * Real.sinh (rv a) = 1 := by
    have := Real.cosh_sq (rv a)
    rw [sq, sq] at this; linarith
  generalize Real.cosh (rv a) = C at *
  generalize Real.sinh (rv a) = S at *
  generalize |rv a| = x at *
  have ps : Ap s S ((x + 12) / 2 ^ 97 * C) := ⟨ns, hs.trans (mul_le_mul_of_nonneg_left S1 (by positivity))⟩
  have pc : Ap c C ((x + 12) / 2 ^ 102 * C) := ⟨nc, hc⟩
  obtain ⟨ε, hε⟩ : ∃ ε, (x + 12) / 2 ^ 102 = ε := ⟨_, rfl⟩
  have ex : x = ε * 2 ^ 102 - 12 := by rw [← hε]; ring
  have e32 : (x + 12) / 2 ^ 97 = 32 * ε := by rw [← hε]; ring
  rw [hε] at pc
  rw [e32] at ps
  have E0 : 12 / 2 ^ 102 ≤ ε := by rw [← hε]; norm_num; linarith
  have E1 : ε ≤ 1 / 2 ^ 95 := by rw [← hε]; norm_num; linarith
  have E2 : ε * ε ≤ ε * (1 / 2 ^ 95) := mul_le_mul_of_nonneg_left E1 (by linarith [show (0:ℝ) ≤ 12 / 2 ^ 102 by positivity])
  have E00 : 0 ≤ ε := by linarith [show (0:ℝ) ≤ 12 / 2 ^ 102 by positivity]
  have CC1 : 1 ≤ C * C := by nlinarith
  have CC2 : C * C ≤ 2 ^ 180 := by
    have := mul_le_mul C2 C2 (by linarith) (by positivity)
    norm_num at this ⊢; linarith
  have EC : ε * C ≤ 1 / 2 ^ 95 * 2 ^ 90 := mul_le_mul E1 C2 (by linarith) (by positivity)
  have qc := pc.mul pc (X := C) (Y := C) (g := C * C * (2 * ε + 1 / 2 ^ 102)) (by rw [abs_of_pos (by linarith)])
    (by rw [abs_of_pos (by linarith)]) (by norm_num at C2 EC ⊢; linarith) (by norm_num at C2 EC ⊢; linarith) (by
      have e1 : C * (ε * C) + C * (ε * C) + ε * C * (ε * C) + 9 / 2 ^ 106 * ((C + ε * C) * (C + ε * C)) + 1 / 2 ^ 250 =
        C * C * (2 * ε + ε * ε + 9 / 2 ^ 106 * (1 + 2 * ε + ε * ε)) + 1 / 2 ^ 250 := by ring
      have e2 : C * C * (2 * ε + ε * ε + 9 / 2 ^ 106 * (1 + 2 * ε + ε * ε)) ≤ C * C * (2 * ε + 9 / 10 / 2 ^ 102) :=
        mul_le_mul_of_nonneg_left (by norm_num at E1 E2 ⊢; linarith) (by linarith)
      rw [e1]
      have e3 : (1:ℝ) / 2 ^ 250 ≤ C * C * (1 / 10 / 2 ^ 102) := by norm_num; linarith
      have e4 : C * C * (2 * ε + 1 / 2 ^ 102) = C * C * (2 * ε + 9 / 10 / 2 ^ 102) + C * C * (1 / 10 / 2 ^ 102) := by ring
      linarith)
  have qs := ps.mul ps (X := C) (Y := C) (g := C * C * (64 * ε + 1 / 2 ^ 102)) S1 S1
    (by norm_num at C2 EC ⊢; linarith) (by norm_num at C2 EC ⊢; linarith) (by
      have e1 : C * (32 * ε * C) + C * (32 * ε * C) + 32 * ε * C * (32 * ε * C) + 9 / 2 ^ 106 * ((C + 32 * ε * C) * (C + 32 * ε * C)) + 1 / 2 ^ 250 =
        C * C * (64 * ε + 1024 * (ε * ε) + 9 / 2 ^ 106 * (1 + 64 * ε + 1024 * (ε * ε))) + 1 / 2 ^ 250 := by ring
      have e2 : C * C * (64 * ε + 1024 * (ε * ε) + 9 / 2 ^ 106 * (1 + 64 * ε + 1024 * (ε * ε))) ≤ C * C * (64 * ε + 9 / 10 / 2 ^ 102) :=
        mul_le_mul_of_nonneg_left (by norm_num at E1 E2 ⊢; linarith) (by linarith)
      rw [e1]
      have e3 : (1:ℝ) / 2 ^ 250 ≤ C * C * (1 / 10 / 2 ^ 102) := by norm_num; linarith
      have e4 : C * C * (64 * ε + 1 / 2 ^ 102) = C * C * (64 * ε + 9 / 10 / 2 ^ 102) + C * C * (1 / 10 / 2 ^ 102) := by ring
      linarith)
  have SS : |S * S| ≤ C * C := by rw [abs_mul]; exact mul_le_mul S1 S1 (abs_nonneg _) (by linarith)
  have CE : C * C * ε ≤ C * C * (1 / 2 ^ 95) := mul_le_mul_of_nonneg_left E1 (by linarith)
  have CE0 : C * C * (12 / 2 ^ 102) ≤ C * C * ε := mul_le_mul_of_nonneg_left E0 (by linarith)
  have q := qc.sub qs (M := 1) (g := C * C * (68 * ε)) (by
      rw [abs_of_pos (by linarith)]
      norm_num at CC2 CE ⊢; linarith) (by
      norm_num at CC2 CE ⊢; linarith)
    (by rw [sc]; norm_num) (by norm_num at CC2 CE CE0 ⊢; linarith)
  rw [sc] at q
  refine ⟨q.1, q.2.trans ?_⟩
  have e5 : (x + 13) / 2 ^ 95 * C ^ 2 = C * C * (128 * ε + 128 / 2 ^ 102) := by rw [ex]; ring
  rw [e5]
  norm_num at CE0 ⊢
  linarith

example (P : Platform) (h : P.toStr = text17) : ∃ s c, Double.sinhCosh P Double.PI = some (s, c) ∧
    (c * c - s * s).Normalized ∧ |((c * c - s * s).val : ℝ) - 1| ≤
      (|((Double.PI.val : ℚ) : ℝ)| + 13) / 2 ^ 95 * Real.cosh ((Double.PI.val : ℚ) : ℝ) ^ 2 :=
  C94_sinh_cosh P (h ▸ text17_ok) _ (by decide +kernel) (by decide +kernel) (by decide +kernel)

/-- **C94.** `exp(a + b) = exp(a) exp(b)`: for `|a|, |b| ≤ 250` the two ways of computing it agree within
`(3 (|a| + |b|) + 35) / 2^102` of the real exponential. -/
theorem C94_exp_add (a b : Double) (ha : a.Normalized) (hb : b.Normalized) (h1 : |a.val| ≤ 250) (h2 : |b.val| ≤ 250) :
    ∃ r s t, Double.exp (a + b) = some r ∧ Double.exp a = some s ∧ Double.exp b = some t ∧ (s * t).Normalized ∧
      |(r.val : ℝ) - ((s * t).val : ℝ)| ≤ (3 * (|(a.val : ℝ)| + |(b.val : ℝ)|) + 35) / 2 ^ 102 * Real.exp ((a.val : ℝ) + (b.val : ℝ)) := by
  have x1 : |rv a| ≤ 250 := by unfold rv; exact_mod_cast h1
  have y1 : |rv b| ≤ 250 := by unfold rv; exact_mod_cast h2
  clear h1 h2
  change ∃ r s t, _ ∧ _ ∧ _ ∧ _ ∧ |rv r - rv (s * t)| ≤ (3 * (|rv a| + |rv b|) + 35) / 2 ^ 102 * Real.exp (rv a + rv b)
  obtain ⟨a1, a2⟩ := hi_bounds ha x1 251 (by norm_num)
  obtain ⟨b1, b2⟩ := hi_bounds hb y1 251 (by norm_num)
  obtain ⟨s, es, ns, hs⟩ := C63_exp a ha (le_trans (by norm_num) a1) (a2.trans (by norm_num))
  obtain ⟨t, et, nt, ht⟩ := C63_exp b hb (le_trans (by norm_num) b1) (b2.trans (by norm_num))
  change |rv s - Real.exp (rv a)| ≤ (|rv a| + 10) / 2 ^ 102 * Real.exp (rv a) at hs
  change |rv t - Real.exp (rv b)| ≤ (|rv b| + 10) / 2 ^ 102 * Real.exp (rv b) at ht
  obtain ⟨na, da⟩ := C01_add a b ha hb (by
    have := abs_le.mpr ⟨a1, a2⟩
    have := abs_le.mpr ⟨b1, b2⟩
    refine (add_le_add (abs_le.mpr ⟨a1, a2⟩) (abs_le.mpr ⟨b1, b2⟩)).trans ?_
    calc ((251:ℕ) : ℚ) + (251:ℕ) ≤ 2 ^ 10 := by norm_num
      _ ≤ _ := pow_le_pow_right₀ (by norm_num) (by norm_num))
  have da : |rv (a + b) - (rv a + rv b)| ≤ |rv a + rv b| / 2 ^ 103 := by
    have : |(a + b).val - (a.val + b.val)| ≤ |a.val + b.val| / 2 ^ 103 := by
      rw [le_div_iff₀ (by norm_num)]; exact da
    unfold rv
    exact_mod_cast this
  have xy := abs_add_le (rv a) (rv b)
  have x0 := abs_nonneg (rv a)
  have y0 := abs_nonneg (rv b)
  have zb : |rv (a + b)| ≤ |rv a| + |rv b| + 1 := by
    have h3 := abs_sub_abs_le_abs_sub (rv (a + b)) (rv a + rv b)
    norm_num at da
    linarith
  obtain ⟨c1, c2⟩ := hi_bounds na (zb.trans (show _ ≤ (501:ℝ) by linarith)) 502 (by norm_num)
  obtain ⟨r, er, nr, hr⟩ := C63_exp (a + b) na (le_trans (by norm_num) c1) (c2.trans (by norm_num))
  change |rv r - Real.exp (rv (a + b))| ≤ (|rv (a + b)| + 10) / 2 ^ 102 * Real.exp (rv (a + b)) at hr
  have hE := Real.exp_pos (rv a + rv b)
  have hr2 := exp_of_near da hr (by norm_num; linarith) (by positivity)
  obtain ⟨f1, f2⟩ := exp_250 x1
  obtain ⟨g1, g2⟩ := exp_250 y1
  have hEE : Real.exp (rv a + rv b) = Real.exp (rv a) * Real.exp (rv b) := Real.exp_add _ _
  have pX := Real.exp_pos (rv a)
  have pY := Real.exp_pos (rv b)
  refine ⟨r, s, t, er, es, et, ?_⟩
  obtain ⟨ε, hε⟩ : ∃ ε, (|rv a| + 10) / 2 ^ 102 = ε := ⟨_, rfl⟩
  obtain ⟨η, hη⟩ : ∃ η, (|rv b| + 10) / 2 ^ 102 = η := ⟨_, rfl⟩
  rw [hε] at hs
  rw [hη] at ht
  have E1 : ε ≤ 1 / 2 ^ 90 := by rw [← hε]; norm_num; linarith
  have H1 : η ≤ 1 / 2 ^ 90 := by rw [← hη]; norm_num; linarith
  have E0 : 0 ≤ ε := by rw [← hε]; positivity
  have H0 : 0 ≤ η := by rw [← hη]; positivity
  have near : ∀ {u X e : ℝ}, 0 < X → X ≤ 2 ^ 200 * 2 ^ 200 → 1 ≤ X * (2 ^ 200 * 2 ^ 200) → |u - X| ≤ e * X → e ≤ 1 / 2 ^ 90 →
      1 ≤ |u| * (2 ^ 225 * 2 ^ 225) ∧ |u| ≤ 2 ^ 225 * 2 ^ 225 := by
    intro u X e p k1 k2 k3 k4
    have k5 : e * X ≤ 1 / 2 ^ 90 * X := mul_le_mul_of_nonneg_right k4 p.le
    have k6 := abs_le.mp k3
    have k7 : X / 2 ≤ u := by clear k1 k2; norm_num at k5; linarith
    have k8 : u ≤ 2 * X := by clear k1 k2; norm_num at k5; linarith
    have k9 : 0 < u := by clear k1 k2; linarith
    rw [abs_of_pos k9]
    constructor
    · have : X * (2 ^ 200 * 2 ^ 200) ≤ X / 2 * (2 ^ 225 * 2 ^ 225) := by
        rw [div_mul_eq_mul_div, mul_div_assoc]
        exact mul_le_mul_of_nonneg_left (by norm_num) p.le
      exact k2.trans (this.trans (mul_le_mul_of_nonneg_right k7 (by norm_num)))
    · exact k8.trans ((mul_le_mul_of_nonneg_left k1 (by norm_num)).trans (by norm_num))
  obtain ⟨s1, s2⟩ := near pX f1 f2 hs E1
  obtain ⟨t1, t2⟩ := near pY g1 g2 ht H1
  obtain ⟨nm, hm⟩ := mul_rel_rv ns nt s1 s2 t1 t2
  refine ⟨nm, ?_⟩
  clear near s1 s2 t1 t2 f1 f2 g1 g2 a1 a2 b1 b2 c1 c2
  rw [hEE] at hE hr2 ⊢
  have hst : |rv s * rv t - Real.exp (rv a) * Real.exp (rv b)| ≤ (ε + η + ε * η) * (Real.exp (rv a) * Real.exp (rv b)) := by
    generalize Real.exp (rv a) = X at *
    generalize Real.exp (rv b) = Y at *
    have e : rv s * rv t - X * Y = (rv s - X) * (rv t - Y) + (rv s - X) * Y + X * (rv t - Y) := by ring
    rw [e]
    refine (abs_add_three _ _ _).trans ?_
    rw [abs_mul, abs_mul, abs_mul, abs_of_pos pX, abs_of_pos pY]
    have j1 := mul_le_mul hs ht (abs_nonneg _) (by positivity)
    have j2 := mul_le_mul_of_nonneg_right hs pY.le
    have j3 := mul_le_mul_of_nonneg_left ht pX.le
    calc _ ≤ ε * X * (η * Y) + ε * X * Y + X * (η * Y) := by linarith
      _ = _ := by ring
  generalize Real.exp (rv a) * Real.exp (rv b) = E at *
  have d1 : |rv a + rv b| / 2 ^ 103 ≤ (|rv a| + |rv b|) / 2 ^ 103 := div_le_div_of_nonneg_right xy (by positivity)
  have z1 : (|rv (a + b)| + 10) / 2 ^ 102 ≤ (|rv a| + |rv b| + 11) / 2 ^ 102 := div_le_div_of_nonneg_right (by linarith) (by positivity)
  obtain ⟨δ, hδ⟩ : ∃ δ, |rv a + rv b| / 2 ^ 103 = δ := ⟨_, rfl⟩
  obtain ⟨ζ, hζ⟩ : ∃ ζ, (|rv (a + b)| + 10) / 2 ^ 102 = ζ := ⟨_, rfl⟩
  have δ0 : 0 ≤ δ := by rw [← hδ]; positivity
  have ζ0 : 0 ≤ ζ := by rw [← hζ]; positivity
  rw [hδ] at d1 hr2
  rw [hζ] at z1 hr2
  have δ1 : δ ≤ 1 / 2 ^ 90 := by norm_num at d1 ⊢; linarith
  have hab : |rv s * rv t| ≤ E * 2 := by
    have h3 := abs_sub_abs_le_abs_sub (rv s * rv t) E
    rw [abs_of_pos hE] at h3
    have h4 : (ε + η + ε * η) * E ≤ 1 / 2 * E := by
      refine mul_le_mul_of_nonneg_right ?_ hE.le
      have : ε * η ≤ 1 / 2 ^ 90 * (1 / 2 ^ 90) := mul_le_mul E1 H1 H0 (by positivity)
      norm_num at this E1 H1 ⊢; linarith
    linarith
  have q1 : |rv r - rv (s * t)| ≤ |rv r - E| + |rv s * rv t - E| + |rv (s * t) - rv s * rv t| := by
    have e : rv r - rv (s * t) = (rv r - E) - (rv s * rv t - E) - (rv (s * t) - rv s * rv t) := by ring
    rw [e]
    exact (abs_sub _ _).trans (add_le_add (abs_sub _ _) le_rfl)
  have q2 : |rv s * rv t| / 2 ^ 102 ≤ 2 / 2 ^ 102 * E := by
    have := div_le_div_of_nonneg_right hab (show (0:ℝ) ≤ 2 ^ 102 by positivity)
    linarith
  have q3 : (δ + δ ^ 2 + ζ * (1 + δ + δ ^ 2)) + (ε + η + ε * η) + 2 / 2 ^ 102 ≤ (3 * (|rv a| + |rv b|) + 35) / 2 ^ 102 := by
    have δ2 : δ ^ 2 ≤ δ * (1 / 2 ^ 90) := by rw [sq]; exact mul_le_mul_of_nonneg_left δ1 δ0
    have k1 : ζ * (1 + δ + δ ^ 2) ≤ ζ * (1 + 1 / 2 ^ 88) := mul_le_mul_of_nonneg_left (by norm_num at δ1 δ2 ⊢; linarith) ζ0
    have k2 : ε * η ≤ ε * (1 / 2 ^ 90) := mul_le_mul_of_nonneg_left H1 E0
    rw [← hε, ← hη] at *
    norm_num at *
    linarith
  have q4 := mul_le_mul_of_nonneg_right q3 hE.le
  linarith

example : ∃ r s t, Double.exp (Double.PI + Double.LN_10) = some r ∧ Double.exp Double.PI = some s ∧
    Double.exp Double.LN_10 = some t ∧ (s * t).Normalized ∧ |(r.val : ℝ) - ((s * t).val : ℝ)| ≤
      (3 * (|((Double.PI.val : ℚ) : ℝ)| + |((Double.LN_10.val : ℚ) : ℝ)|) + 35) / 2 ^ 102 *
        Real.exp (((Double.PI.val : ℚ) : ℝ) + ((Double.LN_10.val : ℚ) : ℝ)) :=
  C94_exp_add _ _ (by decide +kernel) (by decide +kernel) (by decide +kernel) (by decide +kernel)

/-- **C94.** `ln(a b) = ln(a) + ln(b)`: for positive `a`, `b` with logarithms up to 250 in magnitude the two ways of
computing it agree within `(5 (|ln a| + |ln b|) + 45) / 2^102`. -/
theorem C94_ln_mul (P : Platform) (hP : LibmLogs P) (a b : Double) (ha : a.Normalized) (hb : b.Normalized)
    (pa : 0 < a.val) (pb : 0 < b.val) (h1 : |Real.log (a.val : ℝ)| ≤ 250) (h2 : |Real.log (b.val : ℝ)| ≤ 250) :
    ∃ r s t, Double.ln P (a * b) = some r ∧ Double.ln P a = some s ∧ Double.ln P b = some t ∧ (s + t).Normalized ∧
      |(r.val : ℝ) - ((s + t).val : ℝ)| ≤ (5 * (|Real.log (a.val : ℝ)| + |Real.log (b.val : ℝ)|) + 45) / 2 ^ 102 := by
  have pa' : 0 < rv a := by unfold rv; exact_mod_cast pa
  have pb' : 0 < rv b := by unfold rv; exact_mod_cast pb
  change |Real.log (rv a)| ≤ 250 at h1
  change |Real.log (rv b)| ≤ 250 at h2
  change ∃ r s t, _ ∧ _ ∧ _ ∧ _ ∧ |rv r - rv (s + t)| ≤ (5 * (|Real.log (rv a)| + |Real.log (rv b)|) + 45) / 2 ^ 102
  have l1 := abs_le.mp h1
  have l2 := abs_le.mp h2
  obtain ⟨s, es, ns, hs⟩ := C64_ln P hP a ha pa (le_trans (by norm_num) l1.1) (l1.2.trans (by norm_num))
  obtain ⟨t, et, nt, ht⟩ := C64_ln P hP b hb pb (le_trans (by norm_num) l2.1) (l2.2.trans (by norm_num))
  change |rv s - Real.log (rv a)| ≤ (2 * |Real.log (rv a)| + 13) / 2 ^ 102 at hs
  change |rv t - Real.log (rv b)| ≤ (2 * |Real.log (rv b)| + 13) / 2 ^ 102 at ht
  have side : ∀ {u : ℝ}, 0 < u → |Real.log u| ≤ 250 → 1 ≤ |u| * (2 ^ 225 * 2 ^ 225) ∧ |u| ≤ 2 ^ 225 * 2 ^ 225 := by
    intro u pu hu
    obtain ⟨f1, f2⟩ := exp_250 hu
    rw [Real.exp_log pu] at f1 f2
    rw [abs_of_pos pu]
    exact ⟨f2.trans (mul_le_mul_of_nonneg_left (by norm_num) pu.le), f1.trans (by norm_num)⟩
  obtain ⟨a1, a2⟩ := side pa' h1
  obtain ⟨b1, b2⟩ := side pb' h2
  obtain ⟨nm, hm⟩ := mul_rel_rv ha hb a1 a2 b1 b2
  clear side a1 a2 b1 b2
  have pab : 0 < rv a * rv b := mul_pos pa' pb'
  rw [abs_of_pos pab, div_eq_mul_one_div] at hm
  obtain ⟨pm, hl⟩ := log_near pab hm (by norm_num)
  rw [Real.log_mul pa'.ne' pb'.ne'] at hl
  have xy := abs_add_le (Real.log (rv a)) (Real.log (rv b))
  have x0 := abs_nonneg (Real.log (rv a))
  have y0 := abs_nonneg (Real.log (rv b))
  have zb : |Real.log (rv (a * b))| ≤ |Real.log (rv a)| + |Real.log (rv b)| + 1 := by
    have h3 := abs_sub_abs_le_abs_sub (Real.log (rv (a * b))) (Real.log (rv a) + Real.log (rv b))
    norm_num at hl
    linarith
  have pm' : 0 < (a * b).val := by unfold rv at pm; exact_mod_cast pm
  have l3 := abs_le.mp (zb.trans (show _ ≤ (501:ℝ) by linarith))
  obtain ⟨r, er, nr, hr⟩ := C64_ln P hP (a * b) nm pm' (le_trans (by norm_num) l3.1) (l3.2.trans (by norm_num))
  change |rv r - Real.log (rv (a * b))| ≤ (2 * |Real.log (rv (a * b))| + 13) / 2 ^ 102 at hr
  refine ⟨r, s, t, er, es, et, ?_⟩
  clear l1 l2 l3 pa pb pa' pb' pm pm' hm pab hP er es et
  generalize Real.log (rv a) = x at *
  generalize Real.log (rv b) = y at *
  generalize Real.log (rv (a * b)) = z at *
  have ps : Ap s x ((2 * |x| + 13) / 2 ^ 102) := ⟨ns, hs⟩
  have pt : Ap t y ((2 * |y| + 13) / 2 ^ 102) := ⟨nt, ht⟩
  have q := ps.add pt (M := |x| + |y| + 1) (g := (3 * (|x| + |y|) + 27) / 2 ^ 102) (by
      norm_num; linarith) (by norm_num; linarith) (by linarith) (by norm_num; linarith)
  refine ⟨q.1, ?_⟩
  have e : rv r - rv (s + t) = (rv r - z) + (z - (x + y)) - (rv (s + t) - (x + y)) := by ring
  rw [e]
  refine (abs_sub _ _).trans ((add_le_add (abs_add_le _ _) le_rfl).trans ?_)
  have q2 := q.2
  norm_num at *
  linarith

/-- The hypotheses of `C94_ln_mul` hold for two of the library's constants. -/
theorem ln_mul_nonvacuous : |Real.log ((Double.PI.val : ℚ) : ℝ)| ≤ 250 ∧ |Real.log ((Double.E.val : ℚ) : ℝ)| ≤ 250 := by
  have key : ∀ x : ℚ, 1 ≤ x → x ≤ 4 → |Real.log (x : ℝ)| ≤ 250 := by
    intro x h1 h2
    have h1' : (1:ℝ) ≤ x := by exact_mod_cast h1
    have h2' : (x:ℝ) ≤ 4 := by exact_mod_cast h2
    rw [abs_of_nonneg (Real.log_nonneg h1')]
    have := Real.log_le_sub_one_of_pos (show (0:ℝ) < x by linarith)
    linarith
  exact ⟨key _ (by decide +kernel) (by decide +kernel), key _ (by decide +kernel) (by decide +kernel)⟩

example (P : Platform) (hP : LibmLogs P) : ∃ r s t, Double.ln P (Double.PI * Double.E) = some r ∧
    Double.ln P Double.PI = some s ∧ Double.ln P Double.E = some t ∧ (s + t).Normalized ∧
    |(r.val : ℝ) - ((s + t).val : ℝ)| ≤
      (5 * (|Real.log ((Double.PI.val : ℚ) : ℝ)| + |Real.log ((Double.E.val : ℚ) : ℝ)|) + 45) / 2 ^ 102 :=
  C94_ln_mul P hP _ _ (by decide +kernel) (by decide +kernel) (by decide +kernel) (by decide +kernel)
    ln_mul_nonvacuous.1 ln_mul_nonvacuous.2

end Verif
