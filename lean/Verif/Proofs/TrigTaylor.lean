import Verif.Proofs.TrigSeries
import Verif.Proofs.Ln

/-!
# The Taylor loops of `sin` and `cos`
-/

namespace Verif

/-- Underflow unit of `Approx`. -/
noncomputable def dl : ℝ := 1 / 2 ^ 250

theorem dl_pos : 0 < dl := by unfold dl; positivity

theorem fr_hi_H {d : Double} (h : HalfN d) : |fr d.hi| ≤ 2 * |rv d| ∧ |rv d| ≤ 2 * |fr d.hi| ∧ d.hi.isFinite = true := by
  obtain ⟨a, b, i, n⟩ := h
  have hl := n.lo_le
  have h1 : |b| ≤ |a| - |b| ∧ |b| ≤ |a| := by have := abs_nonneg b; constructor <;> linarith
  have e : rv d = (a : ℝ) / one' + (b : ℝ) / one' := by unfold rv; rw [i.val]; push_cast; ring
  have hp : (0:ℝ) < (one' : ℝ) := by exact_mod_cast one'_pos
  refine ⟨?_, ?_, i.1.1⟩
  · rw [fr_is i.1, e, ← add_div, abs_div, abs_div, abs_of_pos hp, ← mul_div_assoc]
    apply div_le_div_of_nonneg_right _ hp.le
    have h3 : |a| ≤ 2 * |a + b| := by
      have := abs_sub_abs_le_abs_sub a (-b)
      rw [abs_neg, sub_neg_eq_add] at this
      linarith
    exact_mod_cast h3
  · rw [fr_is i.1, e, ← add_div, abs_div, abs_div, abs_of_pos hp, ← mul_div_assoc]
    apply div_le_div_of_nonneg_right _ hp.le
    have h3 : |a + b| ≤ 2 * |a| := by
      have := abs_add_le a b
      linarith
    exact_mod_cast h3

/-- A comparison that succeeds orders the first components. -/
theorem le_hi {a b : Double} (ha : a.hi.isFinite = true) (hb : b.hi.isFinite = true) (h : Double.le a b = true) :
    fr a.hi ≤ fr b.hi := by
  have ia := Is.of_finite ha
  have ib := Is.of_finite hb
  rw [fr_is ia, fr_is ib]
  have hp : (0:ℝ) < (one' : ℝ) := by exact_mod_cast one'_pos
  apply div_le_div_of_nonneg_right _ hp.le
  have : a.hi.units ≤ b.hi.units := by
    unfold Double.le Double.partialCmp at h
    rw [ia.partialCmp ib] at h
    by_contra hc
    rw [not_le, ← compare_gt_iff_gt] at hc
    rw [hc] at h
    simp at h
  exact_mod_cast this

theorem SS_abs {b y : ℝ} (hy : |y| ≤ 1 / 100) (o m : ℕ) : |SS b y o m| ≤ |b| * (102 / 100) := by
  have h : ∀ m, |SS b y o m| ≤ |b| * (∑ j ∈ Finset.range (m + 1), (1 / 100 : ℝ) ^ j) := by
    intro m
    unfold SS
    rw [Finset.mul_sum]
    refine (Finset.abs_sum_le_sum_abs _ _).trans (Finset.sum_le_sum fun j _ => ?_)
    rw [abs_div, abs_mul, abs_pow, Nat.abs_cast]
    have hf : (1:ℝ) ≤ (2 * j + o).factorial := by exact_mod_cast Nat.factorial_pos _
    refine (div_le_self (by positivity) hf).trans ?_
    gcongr
  refine (h m).trans (mul_le_mul_of_nonneg_left ?_ (abs_nonneg _))
  rw [geom_sum_eq (by norm_num)]
  have : (0:ℝ) < (1/100) ^ (m + 1) := by positivity
  rw [div_le_iff_of_neg (by norm_num)]
  generalize ((1:ℝ)/100) ^ (m + 1) = q at *
  norm_num
  linarith

theorem term_abs {b y : ℝ} (hy : |y| ≤ 1 / 100) (m : ℕ) : |b * y ^ m| ≤ |b| * (1 / 100) ^ m := by
  rw [abs_mul, abs_pow]; gcongr

theorem taylorLoop_ap {x thr : Double} {b y : ℝ} {o : ℕ} (ho : o ≤ 1) (hb : |b| ≤ 1) (hy : |y| ≤ 1 / 100)
    (hx : Ap x y (1 / 10 / 2 ^ 106)) (hthr : thr.hi.isFinite = true) (hthr2 : fr thr.hi ≤ |b| * 3 / 2 ^ 105 + 6 * dl) :
    ∀ (d m : ℕ) (r s : Double), m + d = 8 → 1 ≤ d → 2 ≤ 2 * (m + 1) + o - 1 →
    Ap r (b * y ^ m) (|b| * (1 / 4 / 2 ^ 106) + 2 * dl) → Ap s (SS b y o m) (m * (|b| * (83 / 10 / 2 ^ 106) + 3 * dl)) →
    ∀ fuel, d ≤ fuel → ∀ i, i + 3 = 2 * (m + 1) + o → ∃ v, Double.taylorLoop x thr fuel i r s = some v ∧
      ∃ M, Ap v (SS b y o M) (|b| * (67 / 2 ^ 106) + 24 * dl) ∧ |b * y ^ M / (2 * M + o).factorial| ≤ |b| / 2 ^ 97 + 16 * dl := by
  intro d
  induction d with
  | zero => intro m r s h h1; omega
  | succ d ih =>
    intro m r s h h1 h0 hr hs fuel hf i hi
    obtain ⟨fuel, rfl⟩ : ∃ f, fuel = f + 1 := ⟨fuel - 1, by omega⟩
    obtain ⟨c, hc, hcA⟩ := ap_inv_fact (i := i) (by omega)
    simp only [Double.taylorLoop, hc]
    rw [hi] at hcA
    have hd0 := dl_pos
    have hdl : dl = 1 / 2 ^ 250 := rfl
    have hd1 : dl ≤ 1 / 2 ^ 249 := by rw [hdl]; norm_num
    have hb0 := abs_nonneg b
    have hm7 : (m:ℝ) ≤ 7 := by exact_mod_cast (by omega : m ≤ 7)
    have hm0 : (0:ℝ) ≤ m := Nat.cast_nonneg m
    -- the power
    have hR : |b * y ^ m| ≤ |b| := (term_abs hy m).trans (mul_le_of_le_one_right hb0 (pow_le_one₀ (by norm_num) (by norm_num)))
    have hR' : |b * y ^ (m + 1)| ≤ |b| / 100 := by
      rw [pow_succ, ← mul_assoc, abs_mul]
      refine (mul_le_mul hR hy (abs_nonneg _) hb0).trans (le_of_eq (by ring))
    have hr' : Ap (r * x) (b * y ^ (m + 1)) (|b| * (1 / 4 / 2 ^ 106) + 2 * dl) := by
      rw [pow_succ, ← mul_assoc]
      refine hr.mul hx hR hy (by norm_num at hd1 ⊢; linarith) (by norm_num) ?_
      rw [← hdl]
      generalize dl = δ at *
      generalize |b| = β at *
      norm_num at hd1 ⊢
      linarith
    have hF : |1 / ((2 * (m + 1) + o).factorial : ℝ)| ≤ 1 / 6 := by
      rw [abs_div, Nat.abs_cast, abs_one]
      apply one_div_le_one_div_of_le (by norm_num)
      have : Nat.factorial 3 ≤ (2 * (m + 1) + o).factorial := Nat.factorial_le (by omega)
      exact_mod_cast this
    have ht : Ap (r * x * c) (b * y ^ (m + 1) / (2 * (m + 1) + o).factorial) (|b| * (1 / 10 / 2 ^ 106) + 2 * dl) := by
      have := hr'.mul hcA hR' hF (g := |b| * (1 / 10 / 2 ^ 106) + 2 * dl) (by norm_num at hd1 ⊢; linarith) (by norm_num) (by
        rw [← hdl]
        generalize dl = δ at *
        generalize |b| = β at *
        norm_num at hd1 ⊢
        linarith)
      rwa [mul_one_div] at this
    have hS := SS_abs (b := b) hy o m
    have hS' := SS_abs (b := b) hy o (m + 1)
    have hT : |b * y ^ (m + 1) / (2 * (m + 1) + o).factorial| ≤ |b| / 100 := by
      rw [abs_div, Nat.abs_cast]
      have hf : (1:ℝ) ≤ (2 * (m + 1) + o).factorial := by exact_mod_cast Nat.factorial_pos _
      exact (div_le_self (abs_nonneg _) hf).trans hR'
    have hmb : m * (|b| * (83 / 10 / 2 ^ 106) + 3 * dl) ≤ 7 * (|b| * (83 / 10 / 2 ^ 106) + 3 * dl) :=
      mul_le_mul_of_nonneg_right hm7 (by positivity)
    have hs' : Ap (s + r * x * c) (SS b y o (m + 1)) (((m + 1 : ℕ) : ℝ) * (|b| * (83 / 10 / 2 ^ 106) + 3 * dl)) := by
      rw [SS_succ]
      rw [SS_succ] at hS'
      refine hs.add ht ?_ ?_ hS' ?_
      · generalize dl = δ at *
        generalize |b| = β at *
        norm_num at hd1 hmb hS ⊢
        linarith
      · generalize dl = δ at *
        generalize |b| = β at *
        norm_num at hd1 hT ⊢
        linarith
      · push_cast
        rw [add_mul, one_mul]
        generalize (m:ℝ) * (|b| * (83 / 10 / 2 ^ 106) + 3 * dl) = E at *
        generalize dl = δ at *
        generalize |b| = β at *
        norm_num at hd1 hmb ⊢
        linarith
    split_ifs with hst
    · refine ⟨_, rfl, m + 1, hs'.mono ?_, ?_⟩
      · have : (((m + 1 : ℕ) : ℝ)) ≤ 8 := by push_cast; linarith
        refine (mul_le_mul_of_nonneg_right this (by positivity)).trans ?_
        norm_num; linarith
      · rw [Bool.or_eq_true, decide_eq_true_eq] at hst
        rcases hst with hst | hst
        · have : m = 7 := by rw [inv_facts_len] at hst; omega
          subst this
          rw [abs_div, Nat.abs_cast, div_le_iff₀ (by positivity)]
          refine (term_abs hy (7 + 1)).trans ?_
          have hf : Nat.factorial 16 ≤ (2 * (7 + 1) + o).factorial := Nat.factorial_le (by omega)
          have hf' : (Nat.factorial 16 : ℝ) ≤ (2 * (7 + 1) + o).factorial := by exact_mod_cast hf
          refine le_trans ?_ (mul_le_mul_of_nonneg_left hf' (by positivity))
          generalize |b| = β at *
          norm_num [Nat.factorial]
          nlinarith
        · have hn := C41_abs_val _ ht.1
          have h1 := le_hi hn.1.1.1 hthr hst
          have h2 := (fr_hi_H hn.1.halfN).2.1
          have h3 : rv (r * x * c).abs = |rv (r * x * c)| := by unfold rv; rw [hn.2]; push_cast; rfl
          rw [h3, abs_abs] at h2
          have h4 := ht.2
          have h5 := abs_sub_abs_le_abs_sub (b * y ^ (m + 1) / ((2 * (m + 1) + o).factorial : ℝ)) (rv (r * x * c))
          rw [abs_sub_comm (b * y ^ (m + 1) / ((2 * (m + 1) + o).factorial : ℝ))] at h5
          have h6 : 0 ≤ fr (r * x * c).abs.hi := by
            by_contra hc
            have h7 := rv_sub_hi hn.1
            rw [h3, abs_of_neg (not_le.mp hc)] at h7
            have h8 := (abs_le.mp h7).2
            have h9 := abs_nonneg (rv (r * x * c))
            have h10 := not_le.mp hc
            norm_num at h8
            linarith
          rw [abs_of_nonneg h6] at h2
          generalize dl = δ at *
          generalize |b| = β at *
          norm_num at hthr2 h4 h5 ⊢
          linarith
    · have hd : 1 ≤ d := by
        by_contra hd
        apply hst
        have : m = 7 := by omega
        subst this
        rw [inv_facts_len]
        rw [Bool.or_eq_true, decide_eq_true_eq]; left; omega
      exact ih (m + 1) _ _ (by omega) hd (by omega) hr' hs' fuel (by omega) (i + 2) (by omega)

theorem zero_rv {a : Double} (ha : a.Normalized) (h : a.isZero = true) : rv a = 0 := by
  obtain ⟨x, y, i, n⟩ := ha.norm2
  unfold Double.isZero at h
  rw [i.1.eq_iff is_zero] at h
  subst h
  have := n.hi_zero
  subst this
  unfold rv; rw [i.val]; simp

theorem epsD_le : Double.EPSILON.Normalized ∧ |Double.EPSILON.val| ≤ mkRat 101 (100 * 2 ^ 104) := by
  constructor <;> decide +kernel

theorem ap_eps : Ap Double.EPSILON 0 (101 / 100 / 2 ^ 104) := by
  refine ⟨epsD_le.1, ?_⟩
  have := (Rat.cast_le (K := ℝ)).mpr epsD_le.2
  rw [Rat.mkRat_eq_div] at this
  push_cast at this
  rw [sub_zero]
  unfold rv
  refine this.trans (by norm_num)

/-- The argument of the series. -/
theorem neg_sqr_ap {a : Double} (ha : a.Normalized) (hA : |rv a| ≤ 1 / 10) :
    Ap (-a.sqr) (-(rv a) ^ 2) (1 / 10 / 2 ^ 106) ∧ |-(rv a) ^ 2| ≤ 1 / 100 := by
  constructor
  · exact ((Ap.exact ha).sqr hA (by norm_num) (g := 1 / 10 / 2 ^ 106) (by norm_num)).neg
  · rw [abs_neg, abs_pow]
    exact (pow_le_pow_left₀ (abs_nonneg _) hA 2).trans (by norm_num)

/-- `sin_taylor` on the reduced range. -/
theorem sinTaylor_ap {a : Double} (ha : a.Normalized) (hA : |rv a| ≤ 1 / 10) :
    ∃ v, Double.sinTaylor a = some v ∧ Ap v (Real.sin (rv a)) (|rv a| * (78 / 2 ^ 106) + 30 * dl) := by
  have hd0 := dl_pos
  unfold Double.sinTaylor
  split_ifs with hz
  · refine ⟨_, rfl, by decide +kernel, ?_⟩
    rw [zero_rv ha hz]
    have : rv Double.ZERO = 0 := by
      have : Double.ZERO.val = 0 := by decide +kernel
      unfold rv; rw [this]; simp
    rw [this]; simp; exact hd0.le
  · obtain ⟨hx, hy⟩ := neg_sqr_ap ha hA
    -- the threshold
    have hab := C41_abs_val _ ha
    have hab2 : rv a.abs = |rv a| := by unfold rv; rw [hab.2]; push_cast; rfl
    have habA : Ap a.abs (|rv a|) 0 := ⟨hab.1, by rw [hab2]; simp⟩
    have hb0 := abs_nonneg (rv a)
    have hth := (habA.mul ap_eps (X := |rv a|) (Y := 0) (g := |rv a| * (11 / 10 / 2 ^ 104) + dl) (by rw [abs_abs]) (by simp)
      (by norm_num at hA ⊢; linarith) (by norm_num) (by
        have hdl : dl = 1 / 2 ^ 250 := rfl
        rw [← hdl]
        generalize dl = δ at *
        generalize |rv a| = β at *
        norm_num
        linarith)).half (g := |rv a| * (11 / 10 / 2 ^ 105) + 2 * dl) (by
        have hdl : dl = 1 / 2 ^ 250 := rfl
        rw [← hdl]
        generalize dl = δ at *
        generalize |rv a| = β at *
        norm_num
        linarith)
    obtain ⟨f1, f2, f3⟩ := fr_hi_H hth.1
    have f4 := hth.abs_le
    rw [mul_zero, zero_div, abs_zero, zero_add] at f4
    have f5 : fr (Double.mulPwr2 (a.abs * Double.EPSILON) Double.half).hi ≤ |rv a| * 3 / 2 ^ 105 + 6 * dl := by
      refine (le_abs_self _).trans (f1.trans ?_)
      generalize dl = δ at *
      generalize |rv a| = β at *
      norm_num at f4 ⊢
      linarith
    have s0 : SS (rv a) (-(rv a) ^ 2) 1 0 = rv a := by unfold SS; simp
    obtain ⟨v, hv, M, hM, hT⟩ := taylorLoop_ap (o := 1) le_rfl (hA.trans (by norm_num)) hy hx f3 f5 8 0 a a rfl (by norm_num)
      (by norm_num) ((Ap.exact ha).mono (by positivity) |>.congr (by simp)) ((Ap.exact ha).mono (by simp) |>.congr s0.symm) Double.INV_FACTS.length
      (by rw [inv_facts_len]; norm_num) 0 rfl
    refine ⟨v, hv, ?_⟩
    have hrem := sin_rem (hA.trans (by norm_num)) M
    rw [abs_sub_comm] at hrem
    refine (hM.move hrem).mono ?_
    have hA2 : rv a ^ 2 ≤ 1 / 100 := by rw [← sq_abs]; exact (pow_le_pow_left₀ (abs_nonneg _) hA 2).trans (by norm_num)
    have h3 := mul_le_mul hT hA2 (sq_nonneg _) (by positivity)
    generalize |rv a * (-rv a ^ 2) ^ M / ((2 * M + 1).factorial : ℝ)| * rv a ^ 2 = Q at *
    generalize dl = δ at *
    generalize |rv a| = β at *
    norm_num at h3 ⊢
    linarith

/-- `cos_taylor` on the reduced range. -/
theorem cosTaylor_ap {a : Double} (ha : a.Normalized) (hA : |rv a| ≤ 1 / 10) :
    ∃ v, Double.cosTaylor a = some v ∧ Ap v (Real.cos (rv a)) (78 / 2 ^ 106) := by
  have hd0 := dl_pos
  have hd1 : dl ≤ 1 / 2 ^ 249 := by unfold dl; norm_num
  unfold Double.cosTaylor
  split_ifs with hz
  · refine ⟨_, rfl, by decide +kernel, ?_⟩
    rw [zero_rv ha hz]
    have : rv Double.ONE = 1 := by
      have : Double.ONE.val = 1 := by decide +kernel
      unfold rv; rw [this]; simp
    rw [this]; simp; norm_num
  · obtain ⟨hx, hy⟩ := neg_sqr_ap ha hA
    have hth := ap_eps.half (g := 11 / 10 / 2 ^ 105) (by norm_num)
    obtain ⟨f1, f2, f3⟩ := fr_hi_H hth.1
    have f4 := hth.abs_le
    rw [zero_div, abs_zero, zero_add] at f4
    have f5 : fr (Double.mulPwr2 Double.EPSILON Double.half).hi ≤ |(1:ℝ)| * 3 / 2 ^ 105 + 6 * dl := by
      refine (le_abs_self _).trans (f1.trans ?_)
      rw [abs_one]
      norm_num at f4 ⊢
      linarith
    have hhalf := hx.half (g := 1 / 10 / 2 ^ 106) (by norm_num)
    have e1 : (1:ℝ) + -(rv a) ^ 2 / 2 = SS 1 (-(rv a) ^ 2) 0 1 := by
      unfold SS; simp [Finset.sum_range_succ]
    have hS := SS_abs (b := 1) hy 0 1
    have hs := ap_one.toH.add hhalf (M := 102 / 100) (g := 83 / 10 / 2 ^ 106) (by norm_num)
      (by rw [abs_div]; norm_num at hy ⊢; linarith) (by rw [e1]; simpa using hS) (by norm_num)
    rw [e1] at hs
    obtain ⟨v, hv, M, hM, hT⟩ := taylorLoop_ap (b := 1) (o := 0) (by norm_num) (by norm_num) hy hx f3 f5 7 1 (-a.sqr)
      (Double.ONE + Double.mulPwr2 (-a.sqr) Double.half) rfl (by norm_num)
      (by norm_num) ((hx.mono (by norm_num; linarith)).congr (by simp)) (hs.mono (by norm_num; linarith)) Double.INV_FACTS.length
      (by rw [inv_facts_len]; norm_num) 1 rfl
    refine ⟨v, hv, ?_⟩
    have hrem := cos_rem (hA.trans (by norm_num)) M
    rw [abs_sub_comm] at hrem
    refine (hM.move hrem).mono ?_
    have hA2 : rv a ^ 2 ≤ 1 / 100 := by rw [← sq_abs]; exact (pow_le_pow_left₀ (abs_nonneg _) hA 2).trans (by norm_num)
    have h3 := mul_le_mul hT hA2 (sq_nonneg _) (by positivity)
    generalize |1 * (-rv a ^ 2) ^ M / ((2 * M + 0).factorial : ℝ)| * rv a ^ 2 = Q at *
    norm_num at h3 hd1 ⊢
    linarith

end Verif
