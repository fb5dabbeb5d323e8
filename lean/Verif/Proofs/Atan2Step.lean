import Verif.Proofs.Atan2
import Verif.Props.Trig
import Verif.Props.TrigTiny

/-!
# The Newton step of `atan2`
-/

namespace Verif

open F64

theorem pow_le_1020 {x : ℝ} (h : x ≤ 2 ^ 10) {k : ℕ} (hk : 10 ≤ k) : x ≤ 2 ^ k :=
  h.trans (pow_le_pow_right₀ (by norm_num) hk)

theorem tiny_1010 : (1:ℝ) / 2 ^ 1010 ≤ 1 / 2 ^ 250 :=
  one_div_le_one_div_of_le (by positivity) (pow_le_pow_right₀ (by norm_num) (by norm_num))

/-- The correction `(y - s) / c`. -/
theorem newton_quot {y s c : Double} {S T C ey es ec h : ℝ} (hy : Ap y S ey) (hs : Ap s T es) (hc : Ap c C ec)
    (hS : |S| ≤ 1) (hT : |T| ≤ 1) (hC : 0.706 ≤ |C|) (hd : |S - T| ≤ h) (hh : h ≤ 1 / 2 ^ 40)
    (h1 : ey ≤ 1 / 2 ^ 90) (h2 : es ≤ 1 / 2 ^ 90) (h3 : ec ≤ 1 / 2 ^ 90) :
    Ap ((y - s) / c) ((S - T) / C) (1.43 * (ey + es) + h / 2 ^ 88 + 1 / 2 ^ 250) ∧ |(S - T) / C| ≤ 1.43 * h := by
  have hy1 := hy.abs_le
  have hs1 := hs.abs_le
  have ey0 := hy.nonneg
  have es0 := hs.nonneg
  have ec0 := hc.nonneg
  have h0 : 0 ≤ h := (abs_nonneg _).trans hd
  have m := rw_sub hy.1 hs.1 (pow_le_1020 (by norm_num at h1 ⊢; linarith) (by norm_num))
    (pow_le_1020 (by norm_num at h2 ⊢; linarith) (by norm_num))
  have md : |rv y - rv s - (S - T)| ≤ ey + es := by
    rw [sub_sub_sub_comm]; exact (abs_sub _ _).trans (add_le_add hy.2 hs.2)
  have mt := abs_sub_abs_le_abs_sub (rv y - rv s) (S - T)
  have m2 := m.move md
  -- the numerator
  have hn : Ap (y - s) (S - T) ((ey + es) * (1 + 1 / 2 ^ 103) + h / 2 ^ 103) := m2.mono (by
    generalize |rv y - rv s - (S - T)| = Z at *
    generalize |rv y - rv s| = W at *
    generalize |S - T| = V at *
    norm_num at mt md hd ⊢; linarith)
  clear m m2
  have hn1 := hn.abs_le
  have c1 := abs_sub_abs_le_abs_sub C (rv c)
  rw [abs_sub_comm] at c1
  have c2 : 0.7059 ≤ |rv c| := by
    have := hc.2; generalize |rv c - C| = Z at *; norm_num at c1 h3 hC ⊢; linarith
  have cp : 0 < |rv c| := by linarith
  have Cp : 0 < |C| := by linarith
  have q := rw_diva hn.1 hc.1 (pow_le_1020 (by
      clear c1; generalize |S - T| = V at *; norm_num at hn1 hd h1 h2 hh ⊢; linarith) (by norm_num)) (by norm_num at c2 ⊢; linarith)
  have e : rv (y - s) / rv c - (S - T) / C = (rv (y - s) - (S - T)) / rv c + (S - T) / C * ((C - rv c) / rv c) := by
    field_simp [abs_pos.mp cp, abs_pos.mp Cp]; ring
  have f1 : |(S - T) / C| ≤ 1.43 * h := by
    rw [abs_div, div_le_iff₀ Cp]
    have := mul_le_mul_of_nonneg_left hC h0
    generalize |S - T| = V at *
    norm_num at this ⊢; linarith
  have f2 : |(C - rv c) / rv c| ≤ 1.43 / 2 ^ 90 := by
    rw [abs_div, div_le_iff₀ cp, abs_sub_comm]
    refine hc.2.trans (h3.trans ?_)
    clear c1; norm_num at c2 ⊢; linarith
  have f3 : |(rv (y - s) - (S - T)) / rv c| ≤ 1.418 * ((ey + es) * (1 + 1 / 2 ^ 103) + h / 2 ^ 103) := by
    rw [abs_div, div_le_iff₀ cp]
    refine hn.2.trans ?_
    have h5 := hn.nonneg
    generalize (ey + es) * (1 + 1 / 2 ^ 103) + h / 2 ^ 103 = Z at *
    have := mul_le_mul_of_nonneg_left c2 h5
    norm_num at this ⊢; linarith
  have f4 := mul_le_mul f1 f2 (abs_nonneg _) (by positivity)
  have f5 : |rv (y - s) / rv c - (S - T) / C| ≤ 1.42 * (ey + es) + 3 * (h / 2 ^ 90) := by
    rw [e]
    refine (abs_add_le _ _).trans ?_
    rw [abs_mul ((S - T) / C)]
    generalize |(S - T) / C| * |(C - rv c) / rv c| = Z at *
    generalize |(rv (y - s) - (S - T)) / rv c| = W at *
    norm_num at f3 f4 ⊢; linarith
  refine ⟨(q.move f5).mono ?_, f1⟩
  have f6 := abs_sub_abs_le_abs_sub (rv (y - s) / rv c) ((S - T) / C)
  have t := tiny_1010
  generalize (1:ℝ) / 2 ^ 1010 = t0 at *
  generalize |rv (y - s) / rv c - (S - T) / C| = Z at *
  generalize |rv (y - s) / rv c| = W at *
  generalize |(S - T) / C| = V at *
  clear hn1 hn c1 f4 f3 mt md
  norm_num at t f5 f6 f1 ⊢
  linarith

/-- The final addition or subtraction of the correction. -/
theorem newton_sum {z d : Double} {D θ ed : ℝ} (hz : z.Normalized) (hz1 : |rv z| ≤ 16) (hD : Ap d D ed)
    (he : ed ≤ 1) (hh : |D| ≤ 1) {N : ℝ} (hN : |rv z + D - θ| ≤ N) :
    Ap (z + d) θ (ed * (1 + 1 / 2 ^ 103) + N * (1 + 1 / 2 ^ 103) + |θ| / 2 ^ 103) := by
  have hd := hD.abs_le
  have s := rw_add hz hD.1 (pow_le_1020 (by norm_num; linarith) (by norm_num)) (pow_le_1020 (by norm_num; linarith) (by norm_num))
  have m : |rv z + rv d - θ| ≤ ed + N := by
    have e : rv z + rv d - θ = (rv d - D) + (rv z + D - θ) := by ring
    rw [e]; exact (abs_add_le _ _).trans (add_le_add hD.2 hN)
  refine (s.move m).mono ?_
  have := abs_sub_abs_le_abs_sub (rv z + rv d) θ
  have ed0 := hD.nonneg
  have N0 := (abs_nonneg _).trans hN
  generalize |rv z + rv d - θ| = Z at *
  generalize |rv z + rv d| = W at *
  norm_num at this m ⊢; linarith

theorem newton_dif {z d : Double} {D θ ed : ℝ} (hz : z.Normalized) (hz1 : |rv z| ≤ 16) (hD : Ap d D ed)
    (he : ed ≤ 1) (hh : |D| ≤ 1) {N : ℝ} (hN : |rv z - D - θ| ≤ N) :
    Ap (z - d) θ (ed * (1 + 1 / 2 ^ 103) + N * (1 + 1 / 2 ^ 103) + |θ| / 2 ^ 103) := by
  have hd := hD.abs_le
  have s := rw_sub hz hD.1 (pow_le_1020 (by norm_num; linarith) (by norm_num)) (pow_le_1020 (by norm_num; linarith) (by norm_num))
  have m : |rv z - rv d - θ| ≤ ed + N := by
    have e : rv z - rv d - θ = (rv z - D - θ) - (rv d - D) := by ring
    rw [e]; refine (abs_sub _ _).trans ?_; rw [add_comm]; exact add_le_add hD.2 hN
  refine (s.move m).mono ?_
  have := abs_sub_abs_le_abs_sub (rv z - rv d) θ
  have ed0 := hD.nonneg
  have N0 := (abs_nonneg _).trans hN
  generalize |rv z - rv d - θ| = Z at *
  generalize |rv z - rv d| = W at *
  norm_num at this m ⊢; linarith

/-- The larger of the sine and cosine, as the comparison of the leading components sees it. -/
theorem larger_bd {x y : Double} {X Y : ℝ} (hx : Ap x X (98.3 / 2 ^ 106 * |X|)) (hy : Ap y Y (98.3 / 2 ^ 106 * |Y|))
    (h1 : X ^ 2 + Y ^ 2 = 1) (h : |fr y.hi| ≤ |fr x.hi|) : |Y| ≤ 1.0001 * |X| ∧ 0.707 ≤ |X| := by
  have a1 := hx.abs_le
  have a2 := fr_hi_le hx.1
  have a3 := fr_hi_ge hy.1
  have a4 := abs_sub_abs_le_abs_sub Y (rv y)
  rw [abs_sub_comm] at a4
  have a5 := hy.2
  have nX := abs_nonneg X
  have nY := abs_nonneg Y
  have k1 : |Y| ≤ 1.0001 * |X| := by
    generalize |rv y - Y| = Z at *
    norm_num at a1 a2 a3 a4 a5 ⊢; linarith
  refine ⟨k1, ?_⟩
  by_contra hc
  have hc := not_le.mp hc
  rw [← sq_abs X, ← sq_abs Y] at h1
  have hY : |Y| < 0.7071 := by norm_num at k1 hc ⊢; linarith
  have p1 := mul_self_lt_mul_self nX hc
  have p2 := mul_self_lt_mul_self nY hY
  rw [← sq] at p1 p2
  norm_num at p1 p2 h1; linarith

/-- What follows for the starting value. -/
theorem larger_start {X Y x y h : ℝ} (hk : |Y| ≤ 1.0001 * |X|) (hX : 0.707 ≤ |X|) (dx : |X - x| ≤ h) (dy : |Y - y| ≤ h)
    (hh : h ≤ 1 / 2 ^ 40) : 0.706 ≤ |x| ∧ |y| ≤ 1.001 * |x| := by
  have t1 := abs_sub_abs_le_abs_sub X x
  have t2 := abs_sub_abs_le_abs_sub y Y
  rw [abs_sub_comm] at t2
  norm_num at hk hX dx dy hh t1 t2 ⊢
  constructor <;> linarith

/-- The error of the step, added up. -/
theorem newton_total {θ h es ey N : ℝ} (h0 : 0 ≤ h) (hh : h ≤ 1.67 / 2 ^ 50 * |θ|) (hN : N ≤ 0.501 * h ^ 2) :
    (es ≤ (|θ| + 29.01) / 2 ^ 102 → ey ≤ 98.3 / 2 ^ 106 →
      (1.43 * (ey + es) + h / 2 ^ 88 + 1 / 2 ^ 250) * (1 + 1 / 2 ^ 103) + N * (1 + 1 / 2 ^ 103) + |θ| / 2 ^ 103 ≤
        (52 + 2 * |θ| + 6 * θ ^ 2) / 2 ^ 102) ∧
    (|θ| ≤ 0.089 → 1 ≤ |θ| * 2 ^ 130 → es ≤ |θ| * (104.1 / 2 ^ 106) + 40 * dl → ey ≤ 98.3 / 2 ^ 106 * |θ| →
      (1.43 * (ey + es) + h / 2 ^ 88 + 1 / 2 ^ 250) * (1 + 1 / 2 ^ 103) + N * (1 + 1 / 2 ^ 103) + |θ| / 2 ^ 103 ≤
        |θ| / 2 ^ 97) := by
  have n0 := abs_nonneg θ
  have N2 : N ≤ 1.3973 / 2 ^ 100 * |θ| ^ 2 := by
    refine hN.trans ?_
    have := pow_le_pow_left₀ h0 hh 2
    have hq := sq_nonneg θ
    norm_num [mul_pow] at this ⊢; linarith
  rw [← sq_abs θ]
  generalize |θ| = t at *
  constructor
  · intro h1 h2
    norm_num at h1 h2 hh N2 ⊢; nlinarith [sq_nonneg t]
  · intro h1 h2 h3 h4
    have h5 : t ^ 2 ≤ 0.089 * t := by rw [sq]; exact mul_le_mul_of_nonneg_right h1 n0
    unfold dl at h3
    norm_num at h1 h2 h3 h4 h5 hh N2 ⊢; linarith

/-- The step for a very small angle. -/
theorem atan2_tiny_step {θ : ℝ} {z y sz cz : Double} (ht : |θ| ≤ 1 / 2 ^ 101) (h1 : 1 ≤ |θ| * 2 ^ 850)
    (hz : Ap z θ (1.67 / 2 ^ 50 * |θ|)) (hy : Ap y (Real.sin θ) (98.3 / 2 ^ 106 * |Real.sin θ|))
    (hs : Ap sz (Real.sin (rv z)) (|Real.sin (rv z)| * (11 / 10 / 2 ^ 100))) (hc : Ap cz (Real.cos (rv z)) (103 / 2 ^ 106)) :
    Ap (z + (y - sz) / cz) θ (|θ| / 2 ^ 97) := by
  have t0 := abs_nonneg θ
  have und : (1:ℝ) / 2 ^ 1010 ≤ |θ| / 2 ^ 160 := by
    rw [div_le_div_iff₀ (pow_pos (by norm_num) _) (pow_pos (by norm_num) _)]
    rw [show (2:ℝ) ^ 1010 = 2 ^ 850 * 2 ^ 160 by rw [← pow_add], ← mul_assoc]
    exact mul_le_mul_of_nonneg_right h1 (by positivity)
  clear h1
  have one20 : (1:ℝ) ≤ 2 ^ 1020 := one_le_pow₀ (by norm_num)
  have one9 : (1:ℝ) ≤ 2 ^ 900 := one_le_pow₀ (by norm_num)
  have zb := hz.abs_le
  have zb2 : |rv z| ≤ |θ| * (1001 / 1000) := by norm_num at zb ⊢; linarith
  have zs : |rv z| ≤ 1 / 2 ^ 100 := by norm_num at zb2 ht ⊢; linarith
  have n1 := sin_near (A := θ) (ht.trans (by norm_num))
  have n2 := sin_near zs
  have s1 := Real.abs_sin_le_abs (x := θ)
  have s2 := Real.abs_sin_le_abs (x := rv z)
  have cl : 999 / 1000 ≤ rv cz ∧ |rv cz - 1| ≤ 2 / 2 ^ 99 := by
    have h := Real.one_sub_sq_div_two_le_cos (x := rv z)
    have h' := Real.cos_le_one (rv z)
    have h5 : rv z ^ 2 ≤ (1 / 2 ^ 100) ^ 2 := by rw [← sq_abs]; exact pow_le_pow_left₀ (abs_nonneg _) zs 2
    have h6 := abs_le.mp hc.2
    constructor
    · norm_num at h5 h6 ⊢; linarith [h6.1]
    · rw [abs_le]; norm_num at h5 h6 ⊢; constructor <;> linarith [h6.1, h6.2]
  have cp : 0 < rv cz := by linarith [cl.1]
  -- distances to the argument and to the start value
  have dy : |rv y - θ| ≤ |θ| * (99 / 2 ^ 106) := by
    have h := abs_sub_le (rv y) (Real.sin θ) θ
    have h3 := hy.2
    norm_num at h3 n1 ⊢; linarith
  have dsz : |rv sz - rv z| ≤ |θ| * (71 / 2 ^ 106) := by
    have h := abs_sub_le (rv sz) (Real.sin (rv z)) (rv z)
    have h3 := hs.2
    norm_num at h3 n2 zb2 ⊢; linarith
  have yb : |rv y| ≤ 1 := by
    have := abs_sub_abs_le_abs_sub (rv y) θ
    norm_num at dy ht ⊢; linarith
  have sb : |rv sz| ≤ 1 := by
    have := abs_sub_abs_le_abs_sub (rv sz) (rv z)
    norm_num at dsz zs ht ⊢; linarith
  have w := rw_sub hy.1 hs.1 (yb.trans one20) (sb.trans one20)
  have wd : |rv y - rv sz - (θ - rv z)| ≤ |θ| * (170 / 2 ^ 106) := by
    have h := abs_sub (rv y - θ) (rv sz - rv z)
    rw [show rv y - θ - (rv sz - rv z) = rv y - rv sz - (θ - rv z) by ring] at h
    norm_num at dy dsz ⊢; linarith
  have hz2 := hz.2
  rw [abs_sub_comm] at hz2
  have wb : |rv y - rv sz| ≤ |θ| / 2 ^ 49 := by
    have h := abs_sub_abs_le_abs_sub (rv y - rv sz) (θ - rv z)
    norm_num at wd hz2 ⊢; linarith
  have w2 := w.2
  have wv : |rv (y - sz)| ≤ |θ| / 2 ^ 48 := by
    have h := abs_sub_abs_le_abs_sub (rv (y - sz)) (rv y - rv sz)
    norm_num at w2 wb ⊢; linarith
  have wv1 : |rv (y - sz)| ≤ 1 := by
    clear one20 one9 und; norm_num at wv ht ⊢; linarith
  have c39 : 1 ≤ |rv cz| * 2 ^ 39 := by
    have := cl.1; clear one20 one9 und; rw [abs_of_pos cp]; norm_num at this ⊢; linarith
  have wv2 := wv1.trans one9
  have d := rw_diva w.1 hc.1 wv2 c39
  have d2 := d.2
  have qd : |rv (y - sz) / rv cz - rv (y - sz)| ≤ |θ| / 2 ^ 140 := by
    have e : rv (y - sz) / rv cz - rv (y - sz) = -(rv (y - sz) * (rv cz - 1)) / rv cz := by field_simp; ring
    rw [e, abs_div, abs_neg, abs_mul, abs_of_pos cp, div_le_iff₀ cp]
    have n1 : 0 ≤ |θ| / 2 ^ 48 := div_nonneg t0 (pow_nonneg (by norm_num) _)
    have n2 : 0 ≤ |θ| / 2 ^ 140 := div_nonneg t0 (pow_nonneg (by norm_num) _)
    have h := mul_le_mul wv cl.2 (abs_nonneg _) n1
    have h3 := mul_le_mul_of_nonneg_left cl.1 n2
    clear one20 one9 und wv2 d d2
    refine h.trans (le_trans ?_ h3)
    norm_num; linarith
  have qb : |rv (y - sz) / rv cz| ≤ |θ| / 2 ^ 47 := by
    have h := abs_sub_abs_le_abs_sub (rv (y - sz) / rv cz) (rv (y - sz))
    norm_num at qd wv ⊢; linarith
  have dd : |rv ((y - sz) / cz) - (θ - rv z)| ≤ |θ| * (171 / 2 ^ 106) := by
    have k1 := abs_sub_le (rv ((y - sz) / cz)) (rv (y - sz) / rv cz) (θ - rv z)
    have k2 := abs_sub_le (rv (y - sz) / rv cz) (rv (y - sz)) (θ - rv z)
    have k3 := abs_sub_le (rv (y - sz)) (rv y - rv sz) (θ - rv z)
    clear one20 one9 wv2
    generalize (1:ℝ) / 2 ^ 1010 = ε at *
    generalize |rv (y - sz) / rv cz| = Q at *
    generalize |rv ((y - sz) / cz) - rv (y - sz) / rv cz| = Q1 at *
    norm_num at qd qb w2 wb wd d2 und ⊢
    linarith
  clear und
  have vb : |rv ((y - sz) / cz)| ≤ 1 := by
    have h := abs_sub_abs_le_abs_sub (rv ((y - sz) / cz)) (θ - rv z)
    norm_num at dd hz2 ht ⊢; linarith
  have f := rw_add hz.1 d.1 (le_trans (zs.trans (by norm_num)) one20) (vb.trans one20)
  refine ⟨f.1, ?_⟩
  have f2 := f.2
  have k4 : |rv z + rv ((y - sz) / cz) - θ| ≤ |θ| * (171 / 2 ^ 106) := by
    rw [show rv z + rv ((y - sz) / cz) - θ = rv ((y - sz) / cz) - (θ - rv z) by ring]; exact dd
  have k5 := abs_sub_abs_le_abs_sub (rv z + rv ((y - sz) / cz)) θ
  have k6 := abs_sub_le (rv (z + (y - sz) / cz)) (rv z + rv ((y - sz) / cz)) θ
  clear one20 one9
  generalize |rv z + rv ((y - sz) / cz)| = Q at *
  norm_num at f2 k4 ⊢
  linarith

set_option maxHeartbeats 2000000 in
/-- **The general case of `atan2`.** -/
theorem atan2_core (P : Platform) (hT : FloatText P.toStr) (hA2 : LibmAtan2 P) {a b : Double} (ha : a.Normalized)
    (hb : b.Normalized) (hA : Rng (rv a)) (hB : Rng (rv b)) (hpre : Double.preAtan2 a b = none) :
    ∃ r, Double.atan2 P a b = some r ∧
      Ap r (angle (rv a) (rv b)) ((52 + 2 * |angle (rv a) (rv b)| + 6 * angle (rv a) (rv b) ^ 2) / 2 ^ 102) ∧
      (|angle (rv a) (rv b)| ≤ 0.089 → 1 ≤ |angle (rv a) (rv b)| * 2 ^ 850 →
        Ap r (angle (rv a) (rv b)) (|angle (rv a) (rv b)| / 2 ^ 97)) := by
  obtain ⟨q, q1, q2⟩ := hyp_root P hT ha hb hA hB
  obtain ⟨z, z1, z2⟩ := atan2_start hT hA2 ha hb hA hB
  have gl := le_hyp (rv a) (rv b)
  have gu := hyp_401 hA hB
  have hy := hyp_quot ha hA gl.1 gu q2
  have hx := hyp_quot hb hB gl.2 gu q2
  rw [← angle_sin] at hy
  rw [← angle_cos (Or.inl hB.ne)] at hx
  have g := angle_ge hA hB
  have gp := (angle_pi (rv a) (rv b)).trans Real.pi_le_four
  have gp2 : |angle (rv a) (rv b)| ≤ 3.15 := (angle_pi (rv a) (rv b)).trans (by linarith [pi_bds.2])
  generalize angle (rv a) (rv b) = θ at *
  have zu := z2.abs_le
  have zl := abs_sub_abs_le_abs_sub θ (rv z)
  rw [abs_sub_comm] at zl
  have hz := z2.2
  have θ0 := abs_nonneg θ
  have z16 : |rv z| ≤ 16 := by clear g; norm_num at zu ⊢; linarith
  have z45 : |rv z| ≤ 2 ^ 45 := by clear g; norm_num; linarith
  obtain ⟨_, _, p, -, -, p1, -, -, p2, p3, p4⟩ := trig_facts P hT z2.1 z45
  clear g
  obtain ⟨sz, cz⟩ := p
  dsimp only at p2 p3 p4
  unfold Double.atan2
  rw [hpre]
  dsimp only
  rw [q1, Option.bind_some, z1, Option.bind_some, p1, Option.map_some]
  refine ⟨_, rfl, ?_⟩
  clear q1 z1 q2 gl gu
  -- the sizes
  set h := |θ - rv z| with hdef
  have h0 : 0 ≤ h := abs_nonneg _
  have hh : h ≤ 1.67 / 2 ^ 50 * |θ| := by rw [hdef, abs_sub_comm]; exact hz
  have hh40 : h ≤ 1 / 2 ^ 40 := by norm_num at hh ⊢; linarith
  have hh30 : h ≤ 1 / 2 ^ 30 := by norm_num at hh ⊢; linarith
  have ds : |Real.sin θ - Real.sin (rv z)| ≤ h := Real.abs_sin_sub_sin_le _ _
  have dc : |Real.cos θ - Real.cos (rv z)| ≤ h := Real.abs_cos_sub_cos_le _ _
  have s1 := Real.abs_sin_le_one θ
  have c1 := Real.abs_cos_le_one θ
  have s2 := Real.abs_sin_le_one (rv z)
  have c2 := Real.abs_cos_le_one (rv z)
  have sθ := Real.abs_sin_le_abs (x := θ)
  have zt : |rv z| ≤ |θ| * (1 + 1 / 2 ^ 49) := by norm_num at zu ⊢; linarith
  have ez : (|rv z| + 29) / 2 ^ 102 ≤ (|θ| + 29.01) / 2 ^ 102 := by
    norm_num at zt ⊢; linarith
  have ez90 : (|rv z| + 29) / 2 ^ 102 ≤ 1 / 2 ^ 90 := by norm_num; linarith
  have hcmp : F64.gt (b / q).hi.abs (a / q).hi.abs = true ↔ |fr (a / q).hi| < |fr (b / q).hi| := by
    have f1 := fr_abs hy.1.1.1
    have f2 := fr_abs hx.1.1.1
    unfold F64.gt
    rw [fr_lt f1.1 f2.1, f1.2, f2.2]
  have NT := fun {es ey N : ℝ} => newton_total (es := es) (ey := ey) (N := N) h0 hh
  have ey1 : 98.3 / 2 ^ 106 * |Real.sin θ| ≤ 98.3 / 2 ^ 106 := mul_le_of_le_one_right (by norm_num) s1
  have ex1 : 98.3 / 2 ^ 106 * |Real.cos θ| ≤ 98.3 / 2 ^ 106 := mul_le_of_le_one_right (by norm_num) c1
  have e90 : (98.3:ℝ) / 2 ^ 106 ≤ 1 / 2 ^ 90 := by norm_num
  by_cases hbr : F64.gt (b / q).hi.abs (a / q).hi.abs = true
  · rw [if_pos hbr]
    obtain ⟨l1, l2⟩ := larger_bd hx hy (Real.cos_sq_add_sin_sq θ) (hcmp.mp hbr).le
    obtain ⟨l3, l4⟩ := larger_start l1 l2 dc ds hh40
    have nw := (newton_sin (z := rv z) (θ := θ) (by norm_num at l3 ⊢; linarith) l4 hh30).1
    rw [← sq_abs (θ - rv z), ← hdef] at nw
    refine ⟨?_, ?_⟩
    · obtain ⟨w1, w2⟩ := newton_quot hy p2 p3 s1 s2 l3 ds hh40 (ey1.trans e90) ez90 ez90
      have := (NT le_rfl).1 ez ey1
      refine (newton_sum z2.1 z16 w1 ?_ ?_ nw).mono this
      · norm_num at ez ey1 hh40 ⊢; linarith
      · norm_num at hh40; linarith
    · intro g1 g2
      by_cases tn : |θ| ≤ 1 / 2 ^ 101
      · have t9 : 1 ≤ |rv z| * 2 ^ 900 := by
          have zl2 : |θ| ≤ |rv z| * 2 ^ 50 := by norm_num at zl hz ⊢; linarith
          rw [show (2:ℝ) ^ 900 = 2 ^ 50 * 2 ^ 850 by rw [← pow_add], ← mul_assoc]
          exact g2.trans (mul_le_mul_of_nonneg_right zl2 (pow_nonneg (by norm_num) _))
        have t100 : |rv z| ≤ 1 / 2 ^ 100 := by clear g2 t9; norm_num at zt tn ⊢; linarith
        obtain ⟨_, p', -, e1, -, e2, e3⟩ := trig_tiny P hT z2.1 t9 t100
        rw [p1] at e1
        obtain rfl := Option.some.inj e1
        exact atan2_tiny_step tn g2 z2 hy e2 e3
      replace g2 : 1 ≤ |θ| * 2 ^ 130 := by
        clear g2; rw [not_le] at tn; norm_num at tn ⊢; linarith
      obtain ⟨-, p5, -, p6⟩ := p4 (by norm_num at zt g1 ⊢; linarith)
      have es2 : |rv z| * (104 / 2 ^ 106) + 40 * dl ≤ |θ| * (104.1 / 2 ^ 106) + 40 * dl := by norm_num at zt ⊢; linarith
      have es3 : |rv z| * (104 / 2 ^ 106) + 40 * dl ≤ 1 / 2 ^ 90 := by unfold dl; norm_num at zt g1 ⊢; linarith
      obtain ⟨w1, w2⟩ := newton_quot hy p5 p6 s1 s2 l3 ds hh40 (ey1.trans e90) es3 (by norm_num)
      have := (NT le_rfl).2 g1 g2 es2 (mul_le_mul_of_nonneg_left sθ (by norm_num))
      refine (newton_sum z2.1 z16 w1 ?_ ?_ nw).mono this
      · norm_num at es3 ey1 hh40 ⊢; linarith
      · norm_num at hh40; linarith
  · rw [if_neg hbr]
    have hle := not_lt.mp (fun h => hbr (hcmp.mpr h))
    obtain ⟨l1, l2⟩ := larger_bd hy hx (Real.sin_sq_add_cos_sq θ) hle
    obtain ⟨l3, l4⟩ := larger_start l1 l2 ds dc hh40
    have nw := (newton_cos (z := rv z) (θ := θ) (by norm_num at l3 ⊢; linarith) l4 hh30).1
    rw [← sq_abs (θ - rv z), ← hdef] at nw
    refine ⟨?_, ?_⟩
    · obtain ⟨w1, w2⟩ := newton_quot hx p3 p2 c1 c2 l3 dc hh40 (ex1.trans e90) ez90 ez90
      have := (NT le_rfl).1 ez ex1
      refine (newton_dif z2.1 z16 w1 ?_ ?_ nw).mono this
      · norm_num at ez ex1 hh40 ⊢; linarith
      · norm_num at hh40; linarith
    · intro g1 g2
      clear g2
      norm_num at g1 l2
      linarith

end Verif
