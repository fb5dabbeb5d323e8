import Verif.Proofs.Sqrt
import Verif.Proofs.TextWitness
import Verif.Props.Roots

/-!
# C67: the accuracy of `sqrt`
-/

namespace Verif

/-- The seed: `1 / sqrt(hi)` in `f64` arithmetic, sent through its decimal text. -/
theorem sqrt_seed1 {s H y1 : ℝ} (hs : 0 < s) (hH : 0 < H) (h0 : |s ^ 2 - H| ≤ H / 2 ^ 53)
    (h1 : |y1 - Real.sqrt H| ≤ Real.sqrt H / 2 ^ 53) : |y1 - s| ≤ 1.54 / 2 ^ 53 * s ∧ 0 < y1 := by
  have hu : 0 < Real.sqrt H := Real.sqrt_pos.mpr hH
  have eu : Real.sqrt H ^ 2 = H := Real.sq_sqrt hH.le
  generalize Real.sqrt H = u at *
  rw [← eu] at h0
  have hsu : 0.9 * u ≤ s := by
    by_contra hc
    push Not at hc
    have h4 := (abs_le.mp h0).1
    have : s ^ 2 ≤ (0.9 * u) ^ 2 := pow_le_pow_left₀ hs.le hc.le 2
    have : 0 < u ^ 2 := by positivity
    norm_num at *
    linarith
  have hsub : |s - u| ≤ 0.53 / 2 ^ 53 * u := by
    have e : s ^ 2 - u ^ 2 = (s - u) * (s + u) := by ring
    rw [e, abs_mul, abs_of_pos (show 0 < s + u by positivity)] at h0
    have : |s - u| * (1.9 * u) ≤ u ^ 2 / 2 ^ 53 := by
      refine le_trans (mul_le_mul_of_nonneg_left ?_ (abs_nonneg _)) h0
      linarith
    have h5 : |s - u| * 1.9 ≤ u / 2 ^ 53 := by
      rw [show |s - u| * (1.9 * u) = |s - u| * 1.9 * u by ring, show u ^ 2 / 2 ^ 53 = u / 2 ^ 53 * u by ring] at this
      exact le_of_mul_le_mul_right this hu
    norm_num at h5 ⊢
    linarith
  have hus : u ≤ 1.001 * s := by
    have := (abs_le.mp hsub).1
    norm_num at this ⊢; linarith
  have hy : |y1 - s| ≤ 1.54 / 2 ^ 53 * s := by
    have e : y1 - s = (y1 - u) - (s - u) := by ring
    rw [e]
    have := abs_sub (y1 - u) (s - u)
    norm_num at this h1 hsub ⊢; linarith
  have hy1 : 0 < y1 := by
    have := (abs_le.mp hy).1
    norm_num at this; linarith
  exact ⟨hy, hy1⟩

theorem sqrt_seed2 {s y1 y2 t : ℝ} (hs : 0 < s) (hy : |y1 - s| ≤ 1.54 / 2 ^ 53 * s) (hy1 : 0 < y1)
    (h2 : |y2 - 1 / y1| ≤ |1 / y1| / 2 ^ 53 + t) (t3 : t * s * 2 ^ 110 ≤ 1) : |y2 * s - 1| ≤ 2.57 / 2 ^ 53 := by
  have hinv : |1 / y1 * s - 1| ≤ 1.55 / 2 ^ 53 := by
    have e : 1 / y1 * s - 1 = -(y1 - s) / y1 := by field_simp; ring
    rw [e, abs_div, abs_neg, abs_of_pos hy1, div_le_iff₀ hy1]
    refine hy.trans ?_
    have := (abs_le.mp hy).1
    norm_num at this ⊢; linarith
  have hi1 : |1 / y1 * s| ≤ 1.001 := by
    have := abs_add_le (1 / y1 * s - 1) 1; rw [sub_add_cancel, abs_one] at this
    norm_num at this hinv ⊢; linarith
  have h2' : |y2 * s - 1 / y1 * s| ≤ 1.01 / 2 ^ 53 := by
    rw [← sub_mul, abs_mul, abs_of_pos hs]
    refine (mul_le_mul_of_nonneg_right h2 hs.le).trans ?_
    rw [add_mul, div_mul_eq_mul_div]
    have e : |1 / y1| * s = |1 / y1 * s| := by rw [abs_mul (1 / y1), abs_of_pos hs]
    rw [e]
    norm_num at hi1 t3 ⊢; linarith
  have hy2 : |y2 * s - 1| ≤ 2.57 / 2 ^ 53 := by
    have := abs_add_le (y2 * s - 1 / y1 * s) (1 / y1 * s - 1); rw [sub_add_sub_cancel] at this
    norm_num at this h2' hinv ⊢; linarith
  exact hy2

theorem sqrt_seed3 {s y2 x : ℝ} (hs : 0 < s) (hy2 : |y2 * s - 1| ≤ 2.57 / 2 ^ 53) (h3 : |x - y2| ≤ |y2| / 2 ^ 52) :
    |x - 1 / s| ≤ 4.6 / 2 ^ 53 / s := by
  have hy3 : |y2 * s| ≤ 1.001 := by
    have := abs_add_le (y2 * s - 1) 1; rw [sub_add_cancel, abs_one] at this
    norm_num at this hy2 ⊢; linarith
  have h3' : |x * s - y2 * s| ≤ 2.01 / 2 ^ 53 := by
    rw [← sub_mul, abs_mul, abs_of_pos hs]
    refine (mul_le_mul_of_nonneg_right h3 hs.le).trans ?_
    rw [div_mul_eq_mul_div]
    have e : |y2| * s = |y2 * s| := by rw [abs_mul, abs_of_pos hs]
    rw [e]
    norm_num at hy3 ⊢; linarith
  have hx : |x * s - 1| ≤ 4.6 / 2 ^ 53 := by
    have := abs_add_le (x * s - y2 * s) (y2 * s - 1); rw [sub_add_sub_cancel] at this
    norm_num at this h3' hy2 ⊢; linarith
  rw [le_div_iff₀ hs]
  have e : (x - 1 / s) * s = x * s - 1 := by field_simp
  rw [← e, abs_mul, abs_of_pos hs] at hx
  exact hx

/-- **C67.** The square root of every normalized Double between `2^-900` and `2^1000` is a normalized Double within a relative
`2^-100` of the real square root, whatever decimal text the platform writes for an `f64` (within `FloatText`). -/
theorem C67_sqrt (P : Platform) (hP : FloatText P.toStr) (a : Double) (ha : a.Normalized)
    (h1 : 1 ≤ a.val * 2 ^ 900) (h2 : a.val ≤ 2 ^ 1000) :
    ∃ r, Double.sqrt P a = some r ∧ r.Normalized ∧
      |(r.val : ℝ) - Real.sqrt (a.val : ℝ)| ≤ Real.sqrt (a.val : ℝ) / 2 ^ 100 := by
  have h1R : 1 ≤ rv a * 2 ^ 900 := by unfold rv; exact_mod_cast h1
  have h2R : rv a ≤ 2 ^ 1000 := by unfold rv; exact_mod_cast h2
  have hpA : 0 < rv a := by
    by_contra hc
    push Not at hc
    have : rv a * 2 ^ 900 ≤ 0 := mul_nonpos_of_nonpos_of_nonneg hc (by positivity)
    exact absurd (h1R.trans this) (by norm_num)
  change ∃ r, Double.sqrt P a = some r ∧ r.Normalized ∧ |rv r - Real.sqrt (rv a)| ≤ Real.sqrt (rv a) / 2 ^ 100
  obtain ⟨-, hz, hinf, hsn, hH⟩ := class_pos ha hpA
  have hf := ha.1.1
  -- the square root and its size
  set s := Real.sqrt (rv a) with hs
  have hs0 : 0 < s := Real.sqrt_pos.mpr hpA
  have es : s ^ 2 = rv a := Real.sq_sqrt hpA.le
  have hs1 : 1 ≤ s * 2 ^ 450 := by
    have : (1:ℝ) ^ 2 ≤ (s * 2 ^ 450) ^ 2 := by
      rw [one_pow, mul_pow, es, ← pow_mul]; exact h1R
    exact le_of_sq_le_sq this (by positivity)
  have hs2 : s ≤ 2 ^ 500 := by
    have : s ^ 2 ≤ (2 ^ 500) ^ 2 := by
      rw [es, ← pow_mul]; exact h2R
    exact le_of_sq_le_sq this (by positivity)
  have t1 : tau * 2 ^ 110 ≤ s := by
    have := tau_mul (k := 560) (by norm_num)
    have e : (2:ℝ) ^ 560 = 2 ^ 110 * 2 ^ 450 := by rw [← pow_add]
    rw [e, ← mul_assoc] at this
    exact le_of_mul_le_mul_right (this.trans hs1) (by positivity)
  have t2 : tau * 2 ^ 110 ≤ s ^ 2 := by
    have := tau_mul (k := 1010) (by norm_num)
    have e : (2:ℝ) ^ 1010 = 2 ^ 110 * 2 ^ 900 := by rw [← pow_add]
    rw [e, ← mul_assoc] at this
    rw [es]
    exact le_of_mul_le_mul_right (this.trans h1R) (by positivity)
  have t3 : tau * s * 2 ^ 110 ≤ 1 := by
    have := tau_mul (k := 610) (by norm_num)
    have e : (2:ℝ) ^ 610 = 2 ^ 500 * 2 ^ 110 := by rw [← pow_add]
    rw [e, ← mul_assoc] at this
    refine le_trans (mul_le_mul_of_nonneg_right (mul_le_mul_of_nonneg_left hs2 tau_pos.le) (by positivity)) this
  -- the seed
  have i1 : Is (F64.ofDec false 1 0) one' := ⟨by decide +kernel, by decide +kernel⟩
  have e1 : fr (F64.ofDec false 1 0) = 1 := by
    rw [fr_is i1]; exact div_self (by exact_mod_cast one'_pos.ne')
  obtain ⟨f1, d1⟩ := fr_sqrt hf hH
  have hd0 : |s ^ 2 - fr a.hi| ≤ fr a.hi / 2 ^ 53 := by
    rw [es]; have := rv_sub_hi ha; rwa [abs_of_pos hH] at this
  obtain ⟨q1, y1p⟩ := sqrt_seed1 hs0 hH hd0 d1
  have q1' := abs_le.mp q1
  generalize hy1 : F64.sqrt a.hi = Y1 at *
  have hlow : s ≤ 2 * fr Y1 := by
    have := q1'.1
    clear t1 t2 t3 hs1 hs2 h1R h2R h1 h2
    norm_num at this; linarith
  have hb1 : |(1:ℝ) / fr Y1| ≤ 2 ^ 451 := by
    rw [abs_of_pos (by positivity), div_le_iff₀ y1p]
    have e : (2:ℝ) ^ 451 = 2 * 2 ^ 450 := by rw [← pow_succ']
    rw [e]
    calc (1:ℝ) ≤ s * 2 ^ 450 := hs1
      _ ≤ 2 * fr Y1 * 2 ^ 450 := mul_le_mul_of_nonneg_right hlow (by positivity)
      _ = _ := by ring
  obtain ⟨f2, d2⟩ := fw_div i1.1 f1 y1p.ne' (by
    rw [e1]; exact hb1.trans (pow_le_pow_right₀ (by norm_num) (by norm_num)))
  rw [e1] at d2
  have q2 := sqrt_seed2 hs0 q1 y1p d2 t3
  generalize hy2 : F64.div (F64.ofDec false 1 0) Y1 = Y2 at *
  have q2' := abs_le.mp q2
  have y2lo : 1 ≤ 2 * (fr Y2 * s) := by
    have := q2'.1
    clear t1 t2 t3 hs1 hs2 h1R h2R h1 h2
    norm_num at this; linarith
  have y2hi : fr Y2 * s ≤ 2 := by
    have := q2'.2
    clear t1 t2 t3 hs1 hs2 h1R h2R h1 h2
    norm_num at this; linarith
  have y2p : 0 < fr Y2 := by
    by_contra hc
    push Not at hc
    have := mul_nonpos_of_nonpos_of_nonneg hc hs0.le
    exact absurd (y2lo.trans (mul_nonpos_of_nonneg_of_nonpos (by norm_num) this)) (by norm_num)
  obtain ⟨v, hv, hvn, hve⟩ := C66_accurate P hP Y2 f2 (by
      have : (1:ℝ) ≤ |fr Y2| * 2 ^ 890 := by
        rw [abs_of_pos y2p]
        calc (1:ℝ) ≤ 2 * (fr Y2 * s) := y2lo
          _ ≤ 2 * (fr Y2 * 2 ^ 500) := mul_le_mul_of_nonneg_left (mul_le_mul_of_nonneg_left hs2 y2p.le) (by norm_num)
          _ = fr Y2 * 2 ^ 501 := by rw [show (2:ℝ) ^ 501 = 2 * 2 ^ 500 by rw [← pow_succ']]; ring
          _ ≤ _ := mul_le_mul_of_nonneg_left (pow_le_pow_right₀ (by norm_num) (by norm_num)) y2p.le
      rw [fr_toRat] at this
      exact_mod_cast this) (by
      have : |fr Y2| ≤ 2 ^ 1000 := by
        rw [abs_of_pos y2p]
        calc fr Y2 ≤ fr Y2 * (s * 2 ^ 450) := le_mul_of_one_le_right y2p.le hs1
          _ = fr Y2 * s * 2 ^ 450 := by ring
          _ ≤ 2 * 2 ^ 450 := mul_le_mul_of_nonneg_right y2hi (by positivity)
          _ = 2 ^ 451 := by rw [← pow_succ']
          _ ≤ _ := pow_le_pow_right₀ (by norm_num) (by norm_num)
      rw [fr_toRat] at this
      exact_mod_cast this)
  have q3 := sqrt_seed3 hs0 q2 (cast_rel 52 hve)
  have q3 : |rv v - 1 / s| ≤ 4.6 / 2 ^ 53 / s := q3
  have q4 : |rv v * s - 1| ≤ 4.6 / 2 ^ 53 := by
    rw [le_div_iff₀ hs0, ← abs_of_pos hs0, ← abs_mul, abs_of_pos hs0] at q3
    rwa [show (rv v - 1 / s) * s = rv v * s - 1 by field_simp] at q3
  have q4' := abs_le.mp q4
  have vlo : 1 ≤ 2 * (rv v * s) := by
    have := q4'.1
    clear t1 t2 t3 hs1 hs2 h1R h2R h1 h2 hb1
    norm_num at this; linarith
  have vhi : rv v * s ≤ 2 := by
    have := q4'.2
    clear t1 t2 t3 hs1 hs2 h1R h2R h1 h2 hb1
    norm_num at this; linarith
  have vp : 0 < rv v := by
    by_contra hc
    push Not at hc
    have := mul_nonpos_of_nonpos_of_nonneg hc hs0.le
    exact absurd (vlo.trans (mul_nonpos_of_nonneg_of_nonpos (by norm_num) this)) (by norm_num)
  -- the five operations
  have eax : rv a * rv v = s * (rv v * s) := by rw [← es]; ring
  have sb : ∀ {c : ℝ}, 0 ≤ c → c ≤ 64 → c * s ≤ 2 ^ 1020 ∧ c * s ^ 2 ≤ 2 ^ 1020 := by
    intro c hc h8
    constructor
    · calc c * s ≤ 64 * 2 ^ 500 := mul_le_mul h8 hs2 hs0.le (by norm_num)
        _ = 2 ^ 506 := by rw [show (64:ℝ) = 2 ^ 6 by norm_num, ← pow_add]
        _ ≤ _ := pow_le_pow_right₀ (by norm_num) (by norm_num)
    · rw [es]
      calc c * rv a ≤ 64 * 2 ^ 1000 := mul_le_mul h8 h2R hpA.le (by norm_num)
        _ = 2 ^ 1006 := by rw [show (64:ℝ) = 2 ^ 6 by norm_num, ← pow_add]
        _ ≤ _ := pow_le_pow_right₀ (by norm_num) (by norm_num)
  have m1 := rw_mul ha hvn (by
    rw [eax, abs_of_pos (by positivity), mul_comm]
    exact (sb (by positivity) (vhi.trans (by norm_num))).1)
  have tau0 := tau_pos
  have u1 : tau ≤ s := le_trans (le_mul_of_one_le_right tau0.le (one_le_pow₀ (by norm_num))) t1
  have u2 : tau ≤ s ^ 2 := le_trans (le_mul_of_one_le_right tau0.le (one_le_pow₀ (by norm_num))) t2
  have u3 : tau * s ≤ 1 := le_trans (le_mul_of_one_le_right (by positivity) (one_le_pow₀ (by norm_num))) t3
  have hvhalf : 1 ≤ |rv v| * 2 ^ 950 := by
    rw [abs_of_pos vp]
    calc (1:ℝ) ≤ 2 * (rv v * s) := vlo
      _ ≤ 2 * (rv v * 2 ^ 500) := mul_le_mul_of_nonneg_left (mul_le_mul_of_nonneg_left hs2 vp.le) (by norm_num)
      _ = rv v * 2 ^ 501 := by rw [show (2:ℝ) ^ 501 = 2 * 2 ^ 500 by rw [← pow_succ']]; ring
      _ ≤ _ := mul_le_mul_of_nonneg_left (pow_le_pow_right₀ (by norm_num) (by norm_num)) vp.le
  obtain ⟨m4n, m4e⟩ := rw_half hvn hvhalf
  generalize hh : Double.mulPwr2 v Double.half = h at *
  have core := fun ax q d p r => sqrt_core (ax := ax) (q := q) (d := d) (h := rv h) (p := p) (r := r) hs0 t1 t2 t3 q3
  clear t1 t2 t3 hs1 hs2 h1R h2R h1 h2 hb1 hvhalf
  have bax : |rv (a * v)| ≤ 4 * s := by
    have := m1.abs_le
    rw [eax, abs_of_pos (show 0 < s * (rv v * s) by positivity)] at this
    have h3 : s * (rv v * s) ≤ s * 2 := mul_le_mul_of_nonneg_left vhi hs0.le
    norm_num at this; linarith
  generalize hax : a * v = ax at *
  have bax2 : rv ax * rv ax ≤ 16 * s ^ 2 := by
    rw [← abs_mul_abs_self]
    refine (mul_le_mul bax bax (abs_nonneg _) (by positivity)).trans (le_of_eq (by ring))
  have m2 := (rw_sqr m1.1 (by
    rw [abs_of_nonneg (mul_self_nonneg _)]
    exact bax2.trans (sb (by norm_num) (by norm_num)).2)).1
  have bq : |rv ax.sqr| ≤ 18 * s ^ 2 := by
    have := m2.abs_le
    rw [abs_of_nonneg (sq_nonneg (rv ax))] at this
    rw [← sq] at bax2
    norm_num at this; linarith
  generalize hq : ax.sqr = q at *
  have m3 := rw_sub ha m2.1 (by
    rw [← es, abs_of_pos (show 0 < s ^ 2 by positivity)]
    simpa using (sb (c := 1) (by norm_num) (by norm_num)).2) (bq.trans (sb (by norm_num) (by norm_num)).2)
  have bd : |rv (a - q)| ≤ 20 * s ^ 2 := by
    have := m3.abs_le
    have h4 := abs_sub (rv a) (rv q)
    rw [← es, abs_of_pos (show 0 < s ^ 2 by positivity)] at h4
    rw [← es] at this
    have : 0 < s ^ 2 := by positivity
    norm_num at *; linarith
  have bh : |rv h| * s ≤ 2 := by
    have h5 := abs_add_le (rv h - rv v / 2) (rv v / 2)
    rw [sub_add_cancel, abs_of_pos (show 0 < rv v / 2 by positivity)] at h5
    have h6 := mul_le_mul_of_nonneg_right (h5.trans (add_le_add m4e le_rfl)) hs0.le
    linarith
  have bdh : |rv (a - q) * rv h| ≤ 40 * s := by
    rw [abs_mul]
    calc |rv (a - q)| * |rv h| ≤ 20 * s ^ 2 * |rv h| := mul_le_mul_of_nonneg_right bd (abs_nonneg _)
      _ = 20 * s * (|rv h| * s) := by ring
      _ ≤ 20 * s * 2 := mul_le_mul_of_nonneg_left bh (by positivity)
      _ = _ := by ring
  generalize hd : a - q = d at *
  have m5 := rw_mul m3.1 m4n (bdh.trans (sb (by norm_num) (by norm_num)).1)
  have bp : |rv (d * h)| ≤ 42 * s := by
    have := m5.abs_le
    norm_num at this bdh ⊢; linarith
  generalize hp : d * h = p at *
  have m6 := rw_add m1.1 m5.1 (bax.trans (sb (by norm_num) (by norm_num)).1) (bp.trans (sb (by norm_num) (by norm_num)).1)
  refine ⟨ax + p, ?_, m6.1, ?_⟩
  · unfold Double.sqrt Double.preSqrt
    rw [if_neg (by rw [hz]; simp), if_neg (by rw [hsn]; simp), if_neg (by rw [hinf]; simp)]
    simp only [hy1, hy2, hv, Option.map_some, hax, hq, hd, hh, hp]
  · have m1' := m1.2
    have m3' := m3.2
    rw [← es] at m1' m3'
    exact core _ _ _ _ _ m1' m2.2 m3' m4e m5.2 m6.2

/-- The hypotheses are met by a platform and a number: the square root of two. -/
example (P : Platform) (h : P.toStr = text17) :
    ∃ r, Double.sqrt P ⟨F64.ofDec false 2 0, F64.zero⟩ = some r ∧ r.Normalized ∧
      |(r.val : ℝ) - Real.sqrt (((⟨F64.ofDec false 2 0, F64.zero⟩ : Double).val : ℚ) : ℝ)|
        ≤ Real.sqrt (((⟨F64.ofDec false 2 0, F64.zero⟩ : Double).val : ℚ) : ℝ) / 2 ^ 100 :=
  C67_sqrt P (h ▸ text17_ok) _ (by decide +kernel) (by decide +kernel) (by decide +kernel)

end Verif
