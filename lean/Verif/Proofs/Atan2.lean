import Verif.Proofs.Atan2Real
import Verif.Props.DivAny
import Verif.Props.InvHyper
import Verif.SpecAtan2

/-!
# The steps of `atan2`
-/

namespace Verif

open F64

/-- Both coordinates between `2^-400` and `2^400` in magnitude. -/
structure Rng (x : ℝ) : Prop where
  lo : 1 ≤ |x| * 2 ^ 400
  hi : |x| ≤ 2 ^ 400

theorem Rng.pos {x : ℝ} (h : Rng x) : 0 < |x| := by
  rcases (abs_nonneg x).lt_or_eq with h1 | h1
  · exact h1
  · have := h.lo; rw [← h1, zero_mul] at this; exact absurd this (by norm_num)

theorem Rng.ne {x : ℝ} (h : Rng x) : x ≠ 0 := abs_pos.mp h.pos

theorem hyp_sq (y x : ℝ) : hyp y x ^ 2 = y ^ 2 + x ^ 2 := by
  unfold hyp; exact Real.sq_sqrt (add_nonneg (sq_nonneg _) (sq_nonneg _))

theorem le_hyp (y x : ℝ) : |y| ≤ hyp y x ∧ |x| ≤ hyp y x := by
  have h0 : 0 ≤ hyp y x := Real.sqrt_nonneg _
  have h := hyp_sq y x
  have h1 := sq_nonneg y
  have h2 := sq_nonneg x
  constructor <;> refine abs_le_of_sq_le_sq ?_ h0 <;> linarith

theorem hyp_le (y x : ℝ) : hyp y x ≤ |y| + |x| := by
  unfold hyp
  rw [Real.sqrt_le_left (by positivity), ← sq_abs y, ← sq_abs x]
  have := mul_nonneg (abs_nonneg y) (abs_nonneg x)
  linarith [add_sq |y| |x|]

theorem hyp_401 {y x : ℝ} (hy : Rng y) (hx : Rng x) : hyp y x ≤ 2 ^ 401 := by
  refine (hyp_le y x).trans ((add_le_add hy.hi hx.hi).trans (le_of_eq ?_))
  rw [← two_mul, ← pow_succ']

theorem rng_div {y h : ℝ} (hy : Rng y) (h0 : 0 < h) (h1 : h ≤ 2 ^ 401) : 1 ≤ |y / h| * 2 ^ 801 := by
  rw [abs_div, abs_of_pos h0, div_mul_eq_mul_div, le_div_iff₀ h0, one_mul]
  refine h1.trans ?_
  rw [show (2:ℝ) ^ 801 = 2 ^ 400 * 2 ^ 401 from by rw [← pow_add], ← mul_assoc]
  exact le_mul_of_one_le_left (by positivity) hy.lo

/-- The angle is not tiny. -/
theorem angle_ge {y x : ℝ} (hy : Rng y) (hx : Rng x) : 1 ≤ |angle y x| * 2 ^ 801 := by
  have h := Real.abs_sin_le_abs (x := angle y x)
  rw [angle_sin] at h
  exact (rng_div hy (hyp_pos (Or.inl hx.ne)) (hyp_401 hy hx)).trans (mul_le_mul_of_nonneg_right h (by positivity))

/-- The angle of the leading components. -/
theorem angle_hi {a b : Double} (ha : a.Normalized) (hb : b.Normalized) (hA : rv a ≠ 0) (hB : rv b ≠ 0) :
    |angle (fr a.hi) (fr b.hi) - angle (rv a) (rv b)| ≤ 1.572 / 2 ^ 52 * |angle (rv a) (rv b)| := by
  have da := rv_sub_hi ha
  have db := rv_sub_hi hb
  have la := fr_hi_le ha
  have sgn : ∀ {d : Double}, d.Normalized → rv d ≠ 0 → 0 < fr d.hi * rv d := by
    intro d hd h0
    obtain ⟨-, -, -, -, pd, h2⟩ := class_of hd h0
    rcases lt_or_gt_of_ne h2 with h3 | h3
    · refine mul_pos_of_neg_of_neg h3 ?_
      rcases lt_or_gt_of_ne h0 with h4 | h4
      · exact h4
      · have := pd.mpr h4; linarith
    · exact mul_pos h3 (pd.mp h3)
  have ga := sgn ha hA
  have gb := sgn hb hB
  have hc := angle_close gb ga.le (by
    constructor
    · intro h; rw [h, zero_mul] at ga; exact absurd ga (lt_irrefl _)
    · intro h; exact absurd h hA)
  have p1 : 0 < hyp (fr a.hi) (fr b.hi) := hyp_pos (Or.inl (by intro h; rw [h, zero_mul] at gb; exact absurd gb (lt_irrefl _)))
  have p2 : 0 < hyp (rv a) (rv b) := hyp_pos (Or.inl hB)
  have l1 := (le_hyp (fr a.hi) (fr b.hi)).2
  have key : |fr a.hi * rv b - fr b.hi * rv a| / (hyp (fr a.hi) (fr b.hi) * hyp (rv a) (rv b)) ≤
      (1 + 1 / 2 ^ 52) / 2 ^ 52 * |angle (rv a) (rv b)| := by
    rw [div_le_iff₀ (mul_pos p1 p2)]
    have hs := Real.abs_sin_le_abs (x := angle (rv a) (rv b))
    rw [angle_sin, abs_div, abs_of_pos p2, div_le_iff₀ p2] at hs
    have e : fr a.hi * rv b - fr b.hi * rv a = fr a.hi * (rv b - fr b.hi) - fr b.hi * (rv a - fr a.hi) := by ring
    have n1 : |fr a.hi * rv b - fr b.hi * rv a| ≤ |fr a.hi| * |fr b.hi| / 2 ^ 52 := by
      rw [e]
      refine (abs_sub _ _).trans ?_
      rw [abs_mul, abs_mul]
      have h1 := mul_le_mul_of_nonneg_left db (abs_nonneg (fr a.hi))
      have h2 := mul_le_mul_of_nonneg_left da (abs_nonneg (fr b.hi))
      have e2 : |fr a.hi| * |fr b.hi| / 2 ^ 52 = |fr a.hi| * (|fr b.hi| / 2 ^ 53) + |fr b.hi| * (|fr a.hi| / 2 ^ 53) := by ring
      rw [e2]; exact add_le_add h1 h2
    refine n1.trans ?_
    have n2 : |fr a.hi| ≤ |angle (rv a) (rv b)| * hyp (rv a) (rv b) * (1 + 1 / 2 ^ 52) :=
      la.trans (mul_le_mul_of_nonneg_right hs (by norm_num))
    have n3 := mul_le_mul n2 l1 (abs_nonneg _) (by positivity)
    calc |fr a.hi| * |fr b.hi| / 2 ^ 52 ≤ |angle (rv a) (rv b)| * hyp (rv a) (rv b) * (1 + 1 / 2 ^ 52) * hyp (fr a.hi) (fr b.hi) / 2 ^ 52 :=
          div_le_div_of_nonneg_right n3 (by positivity)
      _ = _ := by ring
  refine hc.trans ((mul_le_mul_of_nonneg_left key (by norm_num)).trans ?_)
  have := abs_nonneg (angle (rv a) (rv b))
  rw [← mul_assoc]
  refine mul_le_mul_of_nonneg_right ?_ this
  norm_num

/-- The starting value. -/
theorem atan2_start {P : Platform} (hT : FloatText P.toStr) (hA2 : LibmAtan2 P) {a b : Double} (ha : a.Normalized)
    (hb : b.Normalized) (hA : Rng (rv a)) (hB : Rng (rv b)) :
    ∃ z, Double.ofF64 P (P.atan2 a.hi b.hi) = some z ∧ Ap z (angle (rv a) (rv b)) (1.67 / 2 ^ 50 * |angle (rv a) (rv b)|) := by
  have rng : ∀ {d : Double}, d.Normalized → Rng (rv d) → 1 ≤ |d.hi.toRat| * 2 ^ 401 ∧ |d.hi.toRat| ≤ 2 ^ 401 := by
    intro d hd h
    have h1 := two_rv hd
    have h2 := fr_hi_two hd
    constructor
    · have h3 : 1 ≤ |fr d.hi| * 2 ^ 401 := by
        rw [show (2:ℝ) ^ 401 = 2 * 2 ^ 400 from pow_succ' 2 400, ← mul_assoc, mul_comm (|fr d.hi|)]
        exact h.lo.trans (mul_le_mul_of_nonneg_right h1 (by positivity))
      rw [fr_toRat] at h3; exact_mod_cast h3
    · have h3 : |fr d.hi| ≤ 2 ^ 401 := by
        refine h2.trans ?_
        rw [show (2:ℝ) ^ 401 = 2 * 2 ^ 400 from pow_succ' 2 400]
        exact mul_le_mul_of_nonneg_left h.hi (by norm_num)
      rw [fr_toRat] at h3; exact_mod_cast h3
  obtain ⟨p1, p2⟩ := hA2 a.hi b.hi ha.1.1 hb.1.1 (rng ha hA).1 (rng ha hA).2 (rng hb hB).1 (rng hb hB).2
  have h1 := angle_hi ha hb hA.ne hB.ne
  rw [fr_toRat, fr_toRat] at h1
  change |((P.atan2 a.hi b.hi).toRat : ℝ) - angle (a.hi.toRat : ℝ) (b.hi.toRat : ℝ)| ≤ |angle (a.hi.toRat : ℝ) (b.hi.toRat : ℝ)| / 2 ^ 50 at p2
  have g := angle_ge hA hB
  have gp := (angle_pi (rv a) (rv b)).trans Real.pi_le_four
  have n0 := abs_nonneg (angle (rv a) (rv b))
  generalize angle (rv a) (rv b) = θ at *
  generalize angle (a.hi.toRat : ℝ) (b.hi.toRat : ℝ) = φ at *
  generalize hp : P.atan2 a.hi b.hi = p at *
  have hφ : |φ| ≤ |θ| * (1 + 1.572 / 2 ^ 52) := by
    have := abs_sub_abs_le_abs_sub φ θ; norm_num at h1 ⊢; linarith
  have h2 : |(p.toRat : ℝ) - θ| ≤ 1.394 / 2 ^ 50 * |θ| := by
    have := abs_add_le ((p.toRat : ℝ) - φ) (φ - θ)
    rw [sub_add_sub_cancel] at this
    clear g
    norm_num at h1 p2 hφ ⊢; linarith
  have hpu : |(p.toRat : ℝ)| ≤ |θ| * (1 + 1 / 2 ^ 49) := by
    have := abs_sub_abs_le_abs_sub (p.toRat : ℝ) θ; clear g; norm_num at h2 ⊢; linarith
  have hpl : |θ| ≤ 2 * |(p.toRat : ℝ)| := by
    have := abs_sub_abs_le_abs_sub θ (p.toRat : ℝ); rw [abs_sub_comm] at this; clear g; norm_num at h2 ⊢; linarith
  obtain ⟨z, z1, z2, z3⟩ := C66_accurate P hT p p1 (by
      have h3 : (1:ℝ) ≤ |(p.toRat : ℝ)| * 2 ^ 890 := by
        refine g.trans ((mul_le_mul_of_nonneg_right hpl (by positivity)).trans ?_)
        rw [mul_comm 2, mul_assoc, ← pow_succ']
        exact mul_le_mul_of_nonneg_left (pow_le_pow_right₀ (by norm_num) (by norm_num)) (abs_nonneg _)
      exact_mod_cast h3) (by
      have h3 : |(p.toRat : ℝ)| ≤ 2 ^ 1000 := by
        have h4 : |(p.toRat : ℝ)| ≤ 2 ^ 3 := by clear g; norm_num at hpu ⊢; linarith
        exact h4.trans (pow_le_pow_right₀ (by norm_num) (by norm_num))
      exact_mod_cast h3)
  refine ⟨z, z1, z2, ?_⟩
  have z4 : |rv z - (p.toRat : ℝ)| ≤ |(p.toRat : ℝ)| / 2 ^ 52 := by
    rw [le_div_iff₀ (by positivity)]
    have := (Rat.cast_le (K := ℝ)).mpr z3
    push_cast at this; exact this
  have := abs_add_le (rv z - (p.toRat : ℝ)) ((p.toRat : ℝ) - θ)
  rw [sub_add_sub_cancel] at this
  clear g
  norm_num at z4 h2 hpu ⊢; linarith

/-- The length of the vector. -/
theorem hyp_root (P : Platform) (hP : FloatText P.toStr) {a b : Double} (ha : a.Normalized) (hb : b.Normalized)
    (hA : Rng (rv a)) (hB : Rng (rv b)) :
    ∃ q, Double.sqrt P (a.sqr + b.sqr) = some q ∧ Ap q (hyp (rv a) (rv b)) (82 / 2 ^ 106 * hyp (rv a) (rv b)) := by
  have sqb : ∀ {d : Double}, d.Normalized → Rng (rv d) → rv d ^ 2 ≤ 2 ^ 800 ∧ 1 ≤ rv d ^ 2 * 2 ^ 800 := by
    intro d hd h
    constructor
    · rw [← sq_abs]
      refine (pow_le_pow_left₀ (abs_nonneg _) h.hi 2).trans (le_of_eq ?_)
      rw [← pow_mul]
    · have := pow_le_pow_left₀ (by norm_num) h.lo 2
      rw [mul_pow, sq_abs, one_pow, ← pow_mul] at this
      exact this
  obtain ⟨ua, va⟩ := sqb ha hA
  obtain ⟨ub, vb⟩ := sqb hb hB
  have sa := sq_nonneg (rv a)
  have sb := sq_nonneg (rv b)
  have pw : (2:ℝ) ^ 800 ≤ 2 ^ 1020 := pow_le_pow_right₀ (by norm_num) (by norm_num)
  have qa := (rw_sqr ha (by rw [← sq, abs_of_nonneg sa]; exact ua.trans pw)).1
  have qb := (rw_sqr hb (by rw [← sq, abs_of_nonneg sb]; exact ub.trans pw)).1
  have ht0 := tau_pos
  -- the absolute terms are negligible
  have tl : ∀ {v : ℝ}, 1 ≤ v * 2 ^ 800 → tau ≤ v / 2 ^ 120 := by
    intro v hv
    have h := tau_mul (k := 920) (by norm_num)
    rw [le_div_iff₀ (by positivity)]
    have e : tau * 2 ^ 920 = tau * 2 ^ 120 * 2 ^ 800 := by rw [mul_assoc, ← pow_add]
    rw [e] at h
    exact le_of_mul_le_mul_right (h.trans hv) (by positivity)
  have ta := tl va
  have tb := tl vb
  have bnd : ∀ {d : Double}, Ap d.sqr (rv d ^ 2) (9 / 2 ^ 106 * rv d ^ 2 + tau) → 0 ≤ rv d ^ 2 → rv d ^ 2 ≤ 2 ^ 800 → tau ≤ rv d ^ 2 / 2 ^ 120 →
      |rv d.sqr| ≤ 2 ^ 1020 := by
    intro d h h0 h1 h2
    have := h.abs_le
    rw [abs_of_nonneg h0] at this
    have h3 : |rv d.sqr| ≤ 2 * rv d ^ 2 + 1 := by
      clear h1 pw ua ub va vb
      norm_num at this h2 ⊢; linarith
    exact h3.trans (big_sum (k := 1020) (by norm_num) h1 h0).1
  have s := rw_add qa.1 qb.1 (bnd qa sa ua ta) (bnd qb sb ub tb)
  have m : |rv a.sqr + rv b.sqr - (rv a ^ 2 + rv b ^ 2)| ≤ 9.01 / 2 ^ 106 * (rv a ^ 2 + rv b ^ 2) := by
    rw [add_sub_add_comm]
    refine (abs_add_le _ _).trans ((add_le_add qa.2 qb.2).trans ?_)
    clear ua ub va vb pw
    norm_num at ta tb ⊢; linarith
  have s2 := (s.move m).mono (f := 17.1 / 2 ^ 106 * (rv a ^ 2 + rv b ^ 2)) (by
    have h3 := abs_sub_abs_le_abs_sub (rv a.sqr + rv b.sqr) (rv a ^ 2 + rv b ^ 2)
    rw [abs_of_nonneg (show 0 ≤ rv a ^ 2 + rv b ^ 2 from add_nonneg sa sb)] at h3
    clear ua ub va vb pw
    generalize |rv a.sqr + rv b.sqr - (rv a ^ 2 + rv b ^ 2)| = Z at *
    generalize |rv a.sqr + rv b.sqr| = V at *
    norm_num at m ⊢
    linarith)
  have lo : 1 ≤ (rv a ^ 2 + rv b ^ 2) * 2 ^ 890 := va.trans (mul_le_mul (le_add_of_nonneg_right sb)
    (pow_le_pow_right₀ (by norm_num) (by norm_num)) (by positivity) (add_nonneg sa sb))
  have up : rv a ^ 2 + rv b ^ 2 ≤ 2 ^ 900 := by
    refine (add_le_add ua ub).trans ?_
    rw [← two_mul, ← pow_succ']
    exact pow_le_pow_right₀ (by norm_num) (by norm_num)
  obtain ⟨r, r1, r2⟩ := sqrt_up P hP s2 lo up (by
      clear ua ub va vb pw lo up
      norm_num; linarith)
  change Ap r (hyp (rv a) (rv b)) (hyp (rv a) (rv b) * (1.01 / 2 ^ 100) +
    1.01 * (17.1 / 2 ^ 106 * (rv a ^ 2 + rv b ^ 2)) / hyp (rv a) (rv b)) at r2
  refine ⟨r, r1, r2.mono ?_⟩
  have hp := hyp_pos (y := rv a) (Or.inl hB.ne)
  rw [← hyp_sq]
  have e : 1.01 * (17.1 / 2 ^ 106 * hyp (rv a) (rv b) ^ 2) / hyp (rv a) (rv b) = 1.01 * (17.1 / 2 ^ 106) * hyp (rv a) (rv b) := by
    field_simp
  rw [e]
  clear ua ub va vb pw lo up r2 s2
  norm_num; linarith

/-- A coordinate divided by the length. -/
theorem hyp_quot {a r : Double} {R : ℝ} (ha : a.Normalized) (hA : Rng (rv a)) (hR : |rv a| ≤ R) (hR2 : R ≤ 2 ^ 401)
    (hr : Ap r R (82 / 2 ^ 106 * R)) : Ap (a / r) (rv a / R) (98.3 / 2 ^ 106 * |rv a / R|) := by
  have R0 : 0 < R := lt_of_lt_of_le hA.pos hR
  have hv := abs_le.mp hr.2
  have r1 : R * (1 - 82 / 2 ^ 106) ≤ rv r := by linarith [hv.1]
  have r0 : 0 < rv r := lt_of_lt_of_le (mul_pos R0 (by norm_num)) r1
  have ru : rv r ≤ 2 * R := by
    have := hv.2; clear hR2; norm_num at this ⊢; linarith
  have rl : R ≤ 2 * rv r := by clear hR2; norm_num at r1 ⊢; linarith
  have hq : |rv a / rv r - rv a / R| ≤ 82.1 / 2 ^ 106 * |rv a / R| := by
    have e : rv a / rv r - rv a / R = rv a / R * ((R - rv r) / rv r) := by field_simp
    rw [e, abs_mul, mul_comm]
    refine mul_le_mul_of_nonneg_right ?_ (abs_nonneg _)
    rw [abs_div, abs_of_pos r0, div_le_iff₀ r0, abs_sub_comm]
    refine hr.2.trans ?_
    have := mul_le_mul_of_nonneg_left r1 (show (0:ℝ) ≤ 82.1 / 2 ^ 106 by norm_num)
    refine le_trans ?_ this
    rw [mul_comm R, ← mul_assoc]
    exact mul_le_mul_of_nonneg_right (by norm_num) R0.le
  have Q0 : 0 < |rv a / R| := by rw [abs_div]; exact div_pos hA.pos (abs_pos.mpr R0.ne')
  have qu : |rv a / R| ≤ 1 := by rw [abs_div, abs_of_pos R0, div_le_one R0]; exact hR
  have ql := rng_div hA R0 hR2
  have t := abs_sub_abs_le_abs_sub (rv a / rv r) (rv a / R)
  have t2 := abs_sub_abs_le_abs_sub (rv a / R) (rv a / rv r)
  rw [abs_sub_comm] at t2
  have q2 : |rv a / rv r| ≤ 2 := by clear ql hR2; norm_num at hq t ⊢; linarith
  have q3 : |rv a / R| ≤ 2 * |rv a / rv r| := by clear ql hR2; norm_num at hq t2 ⊢; linarith
  have d := rw_divw ha hr.1 r0.ne' (hA.lo.trans (mul_le_mul_of_nonneg_left (pow_le_pow_right₀ (by norm_num) (by norm_num)) (abs_nonneg _)))
    (hA.hi.trans (pow_le_pow_right₀ (by norm_num) (by norm_num))) (by
      refine ql.trans ((mul_le_mul_of_nonneg_right q3 (by positivity)).trans ?_)
      rw [mul_comm 2, mul_assoc, ← pow_succ']
      exact mul_le_mul_of_nonneg_left (pow_le_pow_right₀ (by norm_num) (by norm_num)) (abs_nonneg _))
    (q2.trans (by
      have : (2:ℝ) ^ 1 ≤ 2 ^ 1000 := pow_le_pow_right₀ (by norm_num) (by norm_num)
      rw [pow_one] at this; exact this))
  refine (d.move hq).mono ?_
  clear ql hR2 hA
  generalize |rv a / R| = W at *
  generalize |rv a / rv r| = V at *
  norm_num at hq t ⊢
  linarith

end Verif
