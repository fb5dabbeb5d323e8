import Verif.Props.Exp
import Verif.SpecPlatform

/-!
# The error of one Newton step of `ln`, and of its loop
-/

namespace Verif

theorem ap_one : Ap Double.ONE 1 0 := by
  refine ⟨by decide +kernel, ?_⟩
  have : Double.ONE.val = 1 := by decide +kernel
  unfold rv; rw [this]; norm_num

theorem ap_f64 {x : F64} (h : x.isFinite = true) : Ap ⟨x, F64.zero⟩ (fr x) 0 := by
  have i := Is.of_finite h
  have i2 : DIs (⟨x, F64.zero⟩ : Double) x.units 0 := ⟨i, is_zero⟩
  have nn : Norm2 x.units 0 := ⟨i.rep, ⟨0, 0, by norm_num, by norm_num⟩, by rw [add_zero]; exact rnd_of_rep i.rep⟩
  refine ⟨nn.normalized i2, ?_⟩
  have : rv (⟨x, F64.zero⟩ : Double) = fr x := by
    rw [fr_is i]; unfold rv; rw [i2.val]; push_cast; rw [add_zero]
  rw [this]; simp

theorem fr_hi_le {d : Double} (h : d.Normalized) : |fr d.hi| ≤ |rv d| * (1 + 1 / 2 ^ 52) := by
  have h1 := rv_sub_hi h
  have h2 := abs_sub_abs_le_abs_sub (fr d.hi) (rv d)
  rw [abs_sub_comm] at h2
  have h3 := abs_nonneg (fr d.hi)
  have h4 := abs_nonneg (rv d)
  norm_num at h1 ⊢
  linarith

theorem fr_hi_ge {d : Double} (h : d.Normalized) : |rv d| * (1 - 1 / 2 ^ 52) ≤ |fr d.hi| := by
  have h1 := rv_sub_hi h
  have h2 := abs_sub_abs_le_abs_sub (rv d) (fr d.hi)
  have h3 := abs_nonneg (fr d.hi)
  have h4 := abs_nonneg (rv d)
  norm_num at h1 ⊢
  linarith

/-- Division of numbers of moderate size. -/
theorem rv_div {a b : Double} (ha : a.Normalized) (hb : b.Normalized) (h1 : 1 / 2 ^ 120 ≤ |rv a|) (h2 : |rv a| ≤ 2 ^ 120)
    (h3 : 1 / 2 ^ 120 ≤ |rv b|) (h4 : |rv b| ≤ 2 ^ 120) : Ap (a / b) (rv a / rv b) (|rv a / rv b| / 2 ^ 102) := by
  have ga := fr_hi_ge ha
  have gb := fr_hi_ge hb
  have la := fr_hi_le ha
  have lb := fr_hi_le hb
  have a1 : 1 / 2 ^ 121 ≤ |fr a.hi| := by norm_num at h1 ga ⊢; linarith
  have b1 : 1 / 2 ^ 121 ≤ |fr b.hi| := by norm_num at h3 gb ⊢; linarith
  have a2 : |fr a.hi| ≤ 2 ^ 121 := by norm_num at h2 la ⊢; linarith
  have b2 : |fr b.hi| ≤ 2 ^ 121 := by norm_num at h4 lb ⊢; linarith
  have b0 : 0 < |fr b.hi| := lt_of_lt_of_le (by positivity) b1
  have big : (2:ℝ) ^ 242 ≤ 2 ^ 962 := pow_le_pow_right₀ (by norm_num) (by norm_num)
  have big2 : (2:ℝ) ^ 242 ≤ 2 ^ 1020 := pow_le_pow_right₀ (by norm_num) (by norm_num)
  have q1 : 1 ≤ |fr a.hi| * 2 ^ 962 := by
    refine le_trans ?_ (mul_le_mul a1 big (by positivity) (abs_nonneg _))
    norm_num
  have q2 : 1 ≤ |fr a.hi / fr b.hi| * 2 ^ 962 := by
    rw [abs_div]
    have : 1 / 2 ^ 242 ≤ |fr a.hi| / |fr b.hi| := by
      rw [le_div_iff₀ b0]
      refine (mul_le_mul_of_nonneg_left b2 (by positivity)).trans (le_trans ?_ a1)
      norm_num
    refine le_trans ?_ (mul_le_mul this big (by positivity) (by positivity))
    norm_num
  have q3 : |fr a.hi| ≤ 2 ^ 1020 := a2.trans (le_trans (pow_le_pow_right₀ (by norm_num) (by norm_num)) big2)
  have q4 : |fr a.hi / fr b.hi| ≤ 2 ^ 1020 := by
    refine le_trans ?_ big2
    rw [abs_div, div_le_iff₀ b0]
    refine le_trans (a2.trans ?_) (mul_le_mul_of_nonneg_left b1 (by positivity))
    norm_num
  clear big big2
  obtain ⟨n, e⟩ := C04_div a b ha hb
    (by
      intro hc
      have : fr b.hi = 0 := by unfold fr; rw [hc]; norm_num
      rw [this] at b0; simp at b0)
    (by unfold fr at q1; exact_mod_cast q1) (by unfold fr at q3; exact_mod_cast q3)
    (by unfold fr at q2; exact_mod_cast q2) (by unfold fr at q4; exact_mod_cast q4)
  refine ⟨n, ?_⟩
  have := cast_rel 102 e.le
  push_cast at this
  exact this

theorem Ap.div {a b : Double} {x y e f Y g : ℝ} (ha : Ap a x e) (hb : Ap b y f) (h1 : 1 / 2 ^ 120 ≤ |x| - e)
    (h2 : |x| + e ≤ 2 ^ 120) (hY : 1 / 2 ^ 120 ≤ Y) (h3 : Y ≤ |y| - f) (h4 : |y| + f ≤ 2 ^ 120)
    (hg : (e + |x / y| * f) / Y + (|x / y| + (e + |x / y| * f) / Y) / 2 ^ 102 ≤ g) : Ap (a / b) (x / y) g := by
  have he := ha.nonneg
  have hf := hb.nonneg
  have hA : |x| - e ≤ |rv a| := by
    have := abs_sub_abs_le_abs_sub x (rv a)
    rw [abs_sub_comm] at this
    linarith [ha.2]
  have hB : Y ≤ |rv b| := by
    have := abs_sub_abs_le_abs_sub y (rv b)
    rw [abs_sub_comm] at this
    linarith [hb.2]
  have hY0 : 0 < Y := lt_of_lt_of_le (by positivity) hY
  have hB0 : 0 < |rv b| := lt_of_lt_of_le hY0 hB
  have hb0 : rv b ≠ 0 := abs_pos.mp hB0
  have hy0 : y ≠ 0 := by
    intro hc; rw [hc, abs_zero] at h3; linarith
  have s := rv_div ha.1 hb.1 (h1.trans hA) (ha.abs_le.trans h2) (hY.trans hB) (hb.abs_le.trans h4)
  refine ⟨s.1, ?_⟩
  have t1 : |rv a / rv b - x / y| ≤ (e + |x / y| * f) / Y := by
    have e1 : rv a / rv b - x / y = ((rv a - x) - x / y * (rv b - y)) / rv b := by
      field_simp; ring
    rw [e1, abs_div]
    have n1 : |(rv a - x) - x / y * (rv b - y)| ≤ e + |x / y| * f := by
      refine (abs_sub _ _).trans (add_le_add ha.2 ?_)
      rw [abs_mul]; exact mul_le_mul_of_nonneg_left hb.2 (abs_nonneg _)
    exact div_le_div₀ (by positivity) n1 hY0 hB
  have t2 : |rv a / rv b| ≤ |x / y| + (e + |x / y| * f) / Y := by
    have := abs_add_le (rv a / rv b - x / y) (x / y)
    rw [sub_add_cancel] at this; linarith
  have t3 := abs_add_le (rv (a / b) - rv a / rv b) (rv a / rv b - x / y)
  rw [sub_add_sub_cancel] at t3
  have t4 : |rv a / rv b| / 2 ^ 102 ≤ (|x / y| + (e + |x / y| * f) / Y) / 2 ^ 102 :=
    div_le_div_of_nonneg_right t2 (by positivity)
  linarith [s.2]

/-- One Newton step from `x` with error `D` (any `D` up to `2^-30`): the new error is at most `D ^ 2` plus rounding. -/
theorem lnStep {a x : Double} (ha : a.Normalized) (hx : x.Normalized) {L : ℝ} (hA : rv a = Real.exp L)
    (hL1 : -(707:ℝ) ≤ L) (hL2 : L ≤ 599) {D : ℝ} (hD : |rv x - L| ≤ D) (hD30 : D ≤ 1 / 2 ^ 30) :
    ∃ e, Double.exp (-x) = some e ∧ Ap (x + a * e - Double.ONE) L (D ^ 2 + (2 * |L| + 123 / 10) / 2 ^ 102) := by
  have hL : |L| ≤ 707 := abs_le.mpr ⟨hL1, by linarith⟩
  have hxN := (Ap.exact hx).neg
  have hDx := abs_le.mp hD
  have hD0 : 0 ≤ D := (abs_nonneg _).trans hD
  have hrn : rv (-x) = -rv x := rv_neg hx
  have hhi := rv_sub_hi hxN.1
  have hhi2 := fr_hi_le hxN.1
  rw [hrn] at hhi hhi2
  have hxa : |rv x| ≤ |L| + 1 / 2 ^ 30 := by
    have := abs_add_le (rv x - L) L
    rw [sub_add_cancel] at this
    linarith
  have hh : |-rv x - fr (-x).hi| ≤ 1 / 2 ^ 40 := by
    refine hhi.trans ?_
    rw [abs_neg] at hhi2
    norm_num at hxa hhi2 ⊢
    linarith
  have hh' := abs_le.mp hh
  obtain ⟨e, he, hen, hee⟩ := C63_exp (-x) hxN.1
    (by
      have : (-600:ℝ) ≤ fr (-x).hi := by norm_num at hh' hD30; linarith [hh'.1, hh'.2, hDx.1, hDx.2]
      unfold fr at this; exact_mod_cast this)
    (by
      have : fr (-x).hi ≤ (708:ℝ) := by norm_num at hh' hD30; linarith [hh'.1, hh'.2, hDx.1, hDx.2]
      unfold fr at this; exact_mod_cast this)
  refine ⟨e, he, ?_⟩
  change |rv e - Real.exp (rv (-x))| ≤ (|rv (-x)| + 10) / 2 ^ 102 * Real.exp (rv (-x)) at hee
  rw [hrn, abs_neg] at hee
  -- the product a * e is close to exp (L - x)
  have hprod : Real.exp L * Real.exp (-rv x) = Real.exp (L - rv x) := by rw [← Real.exp_add]; rfl
  have hEd : |Real.exp (L - rv x) - 1 - (L - rv x)| ≤ D ^ 2 := by
    have h1 : |L - rv x| ≤ D := by rw [abs_sub_comm]; exact hD
    refine (Real.abs_exp_sub_one_sub_id_le (h1.trans (hD30.trans (by norm_num)))).trans ?_
    rw [← sq_abs]; exact pow_le_pow_left₀ (abs_nonneg _) h1 2
  have hDD : D ^ 2 ≤ 1 / 2 ^ 60 := by
    have := pow_le_pow_left₀ hD0 hD30 2
    norm_num at this ⊢; linarith
  have hE1 : Real.exp (L - rv x) ≤ 100001 / 100000 := by
    have := abs_le.mp hEd
    norm_num at hD30 hDD ⊢; linarith [this.1, this.2, hDx.1, hDx.2]
  have hE0 := Real.exp_pos (L - rv x)
  have hpe : |rv a * rv e - Real.exp (L - rv x)| ≤ (|rv x| + 10) / 2 ^ 102 * Real.exp (L - rv x) := by
    rw [hA, ← hprod, ← mul_sub, abs_mul, abs_of_pos (Real.exp_pos L)]
    calc Real.exp L * |rv e - Real.exp (-rv x)| ≤ Real.exp L * ((|rv x| + 10) / 2 ^ 102 * Real.exp (-rv x)) :=
          mul_le_mul_of_nonneg_left hee (Real.exp_pos _).le
      _ = _ := by ring
  have hx0 := abs_nonneg (rv x)
  have hk : (|rv x| + 10) / 2 ^ 102 ≤ 1 / 2 ^ 60 := by norm_num at hxa ⊢; linarith
  have hpe2 : |rv a * rv e - Real.exp (L - rv x)| ≤ 100001 / 100000 * (|rv x| + 10) / 2 ^ 102 := by
    refine hpe.trans ?_
    have : (|rv x| + 10) / 2 ^ 102 * Real.exp (L - rv x) ≤ (|rv x| + 10) / 2 ^ 102 * (100001 / 100000) :=
      mul_le_mul_of_nonneg_left hE1 (by positivity)
    refine this.trans (le_of_eq (by ring))
  have hpe3 : |rv a * rv e| ≤ 1002 / 1000 := by
    have h1 := abs_add_le (rv a * rv e - Real.exp (L - rv x)) (Real.exp (L - rv x))
    rw [sub_add_cancel, abs_of_pos hE0] at h1
    norm_num [-abs_mul] at hpe2 hk ⊢
    linarith
  have hmul := C03_mul a e ha hen (by
    have h1 := (hi_val ha).1
    have h2 := (hi_val hen).1
    have h3 : |(a.val * e.val : ℚ)| ≤ 2 := by
      have : |((a.val * e.val : ℚ) : ℝ)| ≤ ((2:ℚ):ℝ) := by push_cast; exact hpe3.trans (by norm_num)
      exact_mod_cast this
    have h4 : |a.hi.toRat * e.hi.toRat| ≤ 8 := by
      rw [abs_mul] at h3 ⊢
      have := mul_le_mul h1 h2 (abs_nonneg _) (by positivity)
      refine this.trans ?_
      have : |a.val| * (1 + 1 / 2 ^ 52) * (|e.val| * (1 + 1 / 2 ^ 52)) = |a.val| * |e.val| * ((1 + 1 / 2 ^ 52) * (1 + 1 / 2 ^ 52)) := by ring
      rw [this]
      refine (mul_le_mul_of_nonneg_right h3 (by positivity)).trans (by norm_num)
    refine h4.trans ?_
    have : (2:ℚ) ^ 3 ≤ 2 ^ 1023 := pow_le_pow_right₀ (by norm_num) (by norm_num)
    refine le_trans (by norm_num) this)
  have hme : Ap (a * e) (Real.exp (L - rv x)) ((|rv x| + 112 / 10) / 2 ^ 102) := by
    refine ⟨hmul.1, ?_⟩
    have h1 := (Rat.cast_le (K := ℝ)).mpr hmul.2
    push_cast at h1
    change |rv (a * e) - rv a * rv e| ≤ 9 / 2 ^ 106 * |rv a * rv e| + 2 / 2 ^ 1074 at h1
    have h1' : |rv (a * e) - rv a * rv e| ≤ 9 / 2 ^ 106 * |rv a * rv e| + 1 / 2 ^ 250 := h1.trans (add_le_add le_rfl tiny_le)
    clear h1 hmul
    have h2 := abs_add_le (rv (a * e) - rv a * rv e) (rv a * rv e - Real.exp (L - rv x))
    rw [sub_add_sub_cancel] at h2
    norm_num [-abs_mul] at h1' hpe2 hpe3 hxa ⊢
    linarith
  have s1 := (Ap.exact hx).add hme (M := |rv x| + 11 / 10) (g := (3 / 2 * |rv x| + 118 / 10) / 2 ^ 102)
    (by norm_num at hxa ⊢; linarith) (by rw [abs_of_pos hE0]; norm_num at hxa hE1 ⊢; linarith)
    (by
      have := abs_add_le (rv x) (Real.exp (L - rv x))
      rw [abs_of_pos hE0] at this
      norm_num at hE1 ⊢; linarith)
    (by norm_num at hxa ⊢; linarith)
  have s2 := s1.sub ap_one (M := |L| + 1 / 10) (g := (3 / 2 * |rv x| + 1 / 2 * |L| + 119 / 10) / 2 ^ 102)
    (by
      have := abs_add_le (rv x) (Real.exp (L - rv x))
      rw [abs_of_pos hE0] at this
      norm_num at hxa hE1 ⊢; linarith) (by norm_num)
    (by
      have e1 : rv x + Real.exp (L - rv x) - 1 = L + (Real.exp (L - rv x) - 1 - (L - rv x)) := by ring
      rw [e1]
      refine (abs_add_le _ _).trans (add_le_add le_rfl (hEd.trans (hDD.trans (by norm_num)))))
    (by
      have := abs_nonneg L
      norm_num at hxa ⊢; linarith)
  have e1 : rv x + Real.exp (L - rv x) - 1 - L = Real.exp (L - rv x) - 1 - (L - rv x) := by ring
  refine (s2.move (y := L) (f := D ^ 2) (by rw [e1]; exact hEd)).mono ?_
  have := abs_nonneg L
  norm_num at hxa ⊢
  linarith

/-- The rounding error of a step of `ln` in its range. -/
noncomputable def lnRho (L : ℝ) : ℝ := (2 * |L| + 123 / 10) / 2 ^ 102

theorem lnRho_le {L : ℝ} (hL1 : -(707:ℝ) ≤ L) (hL2 : L ≤ 599) : lnRho L ≤ 1 / 2 ^ 91 := by
  have hL : |L| ≤ 707 := abs_le.mpr ⟨hL1, by linarith⟩
  unfold lnRho; norm_num; linarith

/-- From an iterate within `2^-75` on, whatever the loop returns is accurate. -/
theorem lnLoop_good {a : Double} (ha : a.Normalized) {L : ℝ} (hA : rv a = Real.exp L)
    (hL1 : -(707:ℝ) ≤ L) (hL2 : L ≤ 599) (eps : Double) : ∀ (fuel i : ℕ) (x : Double), i + fuel = 7 → 1 ≤ fuel →
    Ap x L (1 / 2 ^ 74) → ∃ r, Double.lnLoop a eps fuel i x = some r ∧ Ap r L (1 / 2 ^ 148 + lnRho L) := by
  intro fuel
  induction fuel with
  | zero => intro i x h h1; omega
  | succ fuel ih =>
    intro i x h h1 hx
    obtain ⟨e, he, hr⟩ := lnStep ha hx.1 hA hL1 hL2 hx.2 (by norm_num)
    have hr' : Ap (x + a * e - Double.ONE) L (1 / 2 ^ 148 + lnRho L) := hr.mono (by unfold lnRho; norm_num)
    simp only [Double.lnLoop, he]
    split_ifs with hs
    · exact ⟨_, rfl, hr'⟩
    · have hf : 1 ≤ fuel := by
        by_contra hf
        apply hs
        have : i = 6 := by omega
        subst this; simp
      refine ih (i + 1) _ (by omega) hf (hr'.mono ?_)
      have := lnRho_le hL1 hL2
      norm_num at this ⊢; linarith

/-- The whole loop. -/
theorem lnLoop_ap {a x : Double} (ha : a.Normalized) {L : ℝ} (hA : rv a = Real.exp L)
    (hL1 : -(707:ℝ) ≤ L) (hL2 : L ≤ 599) (eps : Double) {D : ℝ} (hx : Ap x L D) (hD : D ≤ 1 / 2 ^ 38)
    (hexit : D ≤ 11 / 10 / 2 ^ 52 ∨ (eps.Normalized ∧ rv eps ≤ 1 / 2 ^ 90)) :
    ∃ r, Double.lnLoop a eps 7 0 x = some r ∧ Ap r L ((2 * |L| + 13) / 2 ^ 102) := by
  obtain ⟨e, he, hr⟩ := lnStep ha hx.1 hA hL1 hL2 hx.2 (hD.trans (by norm_num))
  have hD0 := hx.nonneg
  have hrho := lnRho_le hL1 hL2
  have hr : Ap (x + a * e - Double.ONE) L (D ^ 2 + lnRho L) := hr
  have hr2 : Ap (x + a * e - Double.ONE) L (1 / 2 ^ 75) := by
    refine hr.mono ?_
    have := pow_le_pow_left₀ hD0 hD 2
    norm_num at this hrho ⊢; linarith
  have hgood : ∀ r, Ap r L (1 / 2 ^ 148 + lnRho L) → Ap r L ((2 * |L| + 13) / 2 ^ 102) := by
    intro r h
    refine h.mono ?_
    unfold lnRho; norm_num; linarith
  rw [show (7:ℕ) = 6 + 1 by norm_num]
  simp only [Double.lnLoop, he]
  split_ifs with hs
  · refine ⟨_, rfl, ?_⟩
    rcases hexit with h | ⟨hn, hle⟩
    · refine hr.mono ?_
      have := pow_le_pow_left₀ hD0 h 2
      unfold lnRho; norm_num at this ⊢; linarith
    · have hs' : Double.lt (x - (x + a * e - Double.ONE)).abs eps = true := by
        simpa using hs
      have hL : |L| ≤ 707 := abs_le.mpr ⟨hL1, by linarith⟩
      have hd := rv_sub hx.1.halfN hr2.1.halfN (hx.abs_le.trans (by norm_num at hD ⊢; linarith))
        (hr2.abs_le.trans (by norm_num; linarith))
      have hab := C41_abs_val _ hd.1
      have hlt := (C12_compare _ _ hab.1 hn).1.mp hs'
      rw [hab.2] at hlt
      have h2 : |rv (x - (x + a * e - Double.ONE))| < 1 / 2 ^ 90 := by
        have := (Rat.cast_lt (K := ℝ)).mpr hlt
        push_cast at this
        exact lt_of_lt_of_le this hle
      have hg := hgood (x + a * e - Double.ONE)
      have hst := lnStep ha hx.1 hA hL1 hL2 (D := 1 / 2 ^ 74)
      rw [he] at hst
      generalize hrr : x + a * e - Double.ONE = r at *
      have h3 := abs_sub_abs_le_abs_sub (rv x - rv r) (rv (x - r))
      rw [abs_sub_comm (rv x - rv r)] at h3
      have h4 := hd.2
      have h5 : |rv x - rv r| ≤ 1 / 2 ^ 89 := by
        norm_num at h2 h4 ⊢; linarith
      have h6 : Ap x L (1 / 2 ^ 74) := by
        refine ⟨hx.1, ?_⟩
        have := abs_add_le (rv x - rv r) (rv r - L)
        rw [sub_add_sub_cancel] at this
        have := hr2.2
        norm_num at h5 this ⊢; linarith
      -- the step again, from the better estimate
      obtain ⟨e', he', hr'⟩ := hst h6.2 (by norm_num)
      obtain rfl : e = e' := by injection he'
      rw [hrr] at hr'
      exact hg (hr'.mono (by unfold lnRho; norm_num))
  · exact (lnLoop_good ha hA hL1 hL2 eps 6 1 _ (by norm_num) (by norm_num) (hr2.mono (by norm_num))).imp fun r h => ⟨h.1, hgood r h.2⟩

end Verif
