import Verif.Proofs.QuadTrigCore
import Verif.Proofs.QuadSqrtOf
import Verif.Props.Asin

/-!
# The steps of `atan2` for Quads
-/

namespace Verif

open F64 Prim Util Quad

theorem huge_big : (2:ℝ) ^ 200 * 2 ^ 200 * 2 ^ 200 * 2 ^ 200 ≤ (hugeQ : ℝ) := by
  rw [hugeQ_eq]; push_cast; norm_num

/-- The angle changes little when the coordinates change little. -/
theorem angle_rel {y x v u δ : ℝ} (hv : v ≠ 0) (hu : u ≠ 0) (h1 : |y - v| ≤ δ * |v|) (h2 : |x - u| ≤ δ * |u|) (hδ : δ ≤ 1 / 2 ^ 20) :
    |angle y x - angle v u| ≤ 3.15 * δ * |angle v u| := by
  have v0 := abs_pos.mpr hv
  have u0 := abs_pos.mpr hu
  have δ0 : 0 ≤ δ := by
    by_contra hc
    have := mul_neg_of_neg_of_pos (not_le.mp hc) v0
    linarith [abs_nonneg (y - v)]
  have sgn : ∀ {s t : ℝ}, t ≠ 0 → |s - t| ≤ δ * |t| → 0 < s * t := by
    intro s t ht h
    have t0 := abs_pos.mpr ht
    have h3 : δ * |t| ≤ 1 / 2 * |t| := mul_le_mul_of_nonneg_right (hδ.trans (by norm_num)) t0.le
    have h4 := abs_le.mp (h.trans h3)
    rcases lt_or_gt_of_ne ht with h5 | h5
    · rw [abs_of_neg h5] at h4; exact mul_pos_of_neg_of_neg (by linarith [h4.2]) h5
    · rw [abs_of_pos h5] at h4; exact mul_pos (by linarith [h4.1]) h5
  have gy := sgn hv h1
  have gx := sgn hu h2
  have hc := angle_close gx gy.le (by
    constructor
    · intro h; rw [h, zero_mul] at gy; exact absurd gy (lt_irrefl _)
    · intro h; exact absurd h hv)
  have p1 : 0 < hyp y x := hyp_pos (Or.inl (by intro h; rw [h, zero_mul] at gx; exact absurd gx (lt_irrefl _)))
  have p2 : 0 < hyp v u := hyp_pos (Or.inl hu)
  have l1 := (le_hyp y x).2
  have hs := Real.abs_sin_le_abs (x := angle v u)
  rw [angle_sin, abs_div, abs_of_pos p2, div_le_iff₀ p2] at hs
  have n1 : |y * u - x * v| ≤ 2 * δ * (|v| * |u|) := by
    have e : y * u - x * v = (y - v) * u - (x - u) * v := by ring
    rw [e]
    refine (abs_sub _ _).trans ?_
    rw [abs_mul, abs_mul]
    have h3 := mul_le_mul_of_nonneg_right h1 u0.le
    have h4 := mul_le_mul_of_nonneg_right h2 v0.le
    nlinarith
  have n2 : |u| ≤ 1.001 * |x| := by
    have := abs_sub_abs_le_abs_sub u x
    rw [abs_sub_comm] at this
    have h3 : δ * |u| ≤ 1 / 2 ^ 20 * |u| := mul_le_mul_of_nonneg_right hδ u0.le
    norm_num at h3 ⊢; linarith
  have key : |y * u - x * v| / (hyp y x * hyp v u) ≤ 2.002 * δ * |angle v u| := by
    rw [div_le_iff₀ (mul_pos p1 p2)]
    have n3 : |v| * |u| ≤ |angle v u| * hyp v u * (1.001 * hyp y x) :=
      mul_le_mul hs (n2.trans (mul_le_mul_of_nonneg_left l1 (by norm_num))) u0.le (mul_nonneg (abs_nonneg _) p2.le)
    refine n1.trans ((mul_le_mul_of_nonneg_left n3 (by positivity)).trans (le_of_eq ?_))
    ring
  refine hc.trans ((mul_le_mul_of_nonneg_left key (by norm_num)).trans ?_)
  have := mul_nonneg δ0 (abs_nonneg (angle v u))
  generalize |angle v u| = t at *
  nlinarith

/-- A coordinate of a point of which `R` is the distance from the origin. -/
structure QCo (a : Quad) (R : ℝ) : Prop where
  sz : SZ a (R * (102 / 100))
  sz2 : SZ a (|qv a| * 2 ^ 80)
  lo : 1 ≤ |qv a| * 2 ^ 150
  hi : |qv a| ≤ 2 ^ 150

theorem QCo.pos {a : Quad} {R : ℝ} (h : QCo a R) : 0 < |qv a| := by
  rcases (abs_nonneg (qv a)).lt_or_eq with h1 | h1
  · exact h1
  · have := h.lo; rw [← h1, zero_mul] at this; exact absurd this (by norm_num)

theorem QCo.ne {a : Quad} {R : ℝ} (h : QCo a R) : qv a ≠ 0 := abs_pos.mp h.pos

theorem QCo.head {a : Quad} {R : ℝ} (h : QCo a R) : a.c0.isFinite = true ∧ |fr a.c0 - qv a| ≤ 1.01 / 2 ^ 48 * |qv a| := by
  obtain ⟨f, e⟩ := sz_sub_c0 h.sz2
  refine ⟨f, ?_⟩
  have h0 := h.pos
  have h1 := abs_sub_abs_le_abs_sub (fr a.c0) (qv a)
  rw [abs_sub_comm] at e
  generalize |fr a.c0 - qv a| = Z at *
  generalize |fr a.c0| = W at *
  generalize |qv a| = V at *
  norm_num at e ⊢; linarith

theorem qangle_ge {y x : ℝ} (hy : 1 ≤ |y| * 2 ^ 150) (hx : 1 ≤ |x| * 2 ^ 150) (hy' : |y| ≤ 2 ^ 150) (hx' : |x| ≤ 2 ^ 150) :
    1 ≤ |angle y x| * (2 ^ 200 * 2 ^ 101) := by
  have h := Real.abs_sin_le_abs (x := angle y x)
  have p : 0 < hyp y x := hyp_pos (Or.inl (by intro h; rw [h, abs_zero, zero_mul] at hx; norm_num at hx))
  rw [angle_sin, abs_div, abs_of_pos p, div_le_iff₀ p] at h
  have h2 : hyp y x ≤ 2 ^ 151 := (hyp_le y x).trans (by norm_num at hy' hx' ⊢; linarith)
  have h3 := h.trans (mul_le_mul_of_nonneg_left h2 (abs_nonneg _))
  generalize |angle y x| = t at *
  norm_num at h3 hy ⊢; linarith

/-- The starting value. -/
theorem qatan2_start {P : Platform} (hT : FloatText P.toStr) (hA2 : LibmAtan2 P) {a b : Quad} {R : ℝ} (ha : QCo a R) (hb : QCo b R) :
    ∃ z, Quad.ofF64 P (P.atan2 a.c0 b.c0) = some z ∧
      QA z (angle (qv a) (qv b)) (|angle (qv a) (qv b)| / 2 ^ 46) (|angle (qv a) (qv b)| * (1021 / 1000)) := by
  have rng : ∀ {d : Quad}, QCo d R → 1 ≤ |d.c0.toRat| * 2 ^ 401 ∧ |d.c0.toRat| ≤ 2 ^ 401 := by
    intro d h
    obtain ⟨-, h1⟩ := h.head
    have h0 := h.pos
    have h2 := abs_sub_abs_le_abs_sub (fr d.c0) (qv d)
    have h3 := abs_sub_abs_le_abs_sub (qv d) (fr d.c0)
    rw [abs_sub_comm] at h3
    have lo := h.lo
    have hi := h.hi
    have k1 : 1 ≤ |fr d.c0| * 2 ^ 151 := by
      generalize |fr d.c0 - qv d| = Z at *
      generalize |fr d.c0| = W at *
      generalize |qv d| = V at *
      norm_num at h1 lo ⊢; linarith
    have k2 : |fr d.c0| ≤ 2 ^ 151 := by
      generalize |fr d.c0 - qv d| = Z at *
      generalize |fr d.c0| = W at *
      generalize |qv d| = V at *
      norm_num at h1 hi ⊢; linarith
    constructor
    · have h4 := k1.trans (mul_le_mul_of_nonneg_left (pow_le_pow_right₀ (by norm_num) (show 151 ≤ 401 by norm_num)) (abs_nonneg _))
      rw [fr_toRat] at h4; exact_mod_cast h4
    · have h4 := k2.trans (pow_le_pow_right₀ (by norm_num) (show 151 ≤ 401 by norm_num))
      rw [fr_toRat] at h4; exact_mod_cast h4
  obtain ⟨fa, ea⟩ := ha.head
  obtain ⟨fb, eb⟩ := hb.head
  obtain ⟨p1, p2⟩ := hA2 a.c0 b.c0 fa fb (rng ha).1 (rng ha).2 (rng hb).1 (rng hb).2
  have h1 := angle_rel ha.ne hb.ne ea eb (by norm_num)
  rw [fr_toRat, fr_toRat] at h1
  change |((P.atan2 a.c0 b.c0).toRat : ℝ) - angle (a.c0.toRat : ℝ) (b.c0.toRat : ℝ)| ≤ |angle (a.c0.toRat : ℝ) (b.c0.toRat : ℝ)| / 2 ^ 50 at p2
  have g := qangle_ge ha.lo hb.lo ha.hi hb.hi
  have gp := (angle_pi (qv a) (qv b)).trans Real.pi_le_four
  have n0 := abs_nonneg (angle (qv a) (qv b))
  generalize angle (qv a) (qv b) = θ at *
  generalize angle (a.c0.toRat : ℝ) (b.c0.toRat : ℝ) = φ at *
  generalize hp : P.atan2 a.c0 b.c0 = p at *
  have hφ := abs_sub_abs_le_abs_sub φ θ
  have h2 : |(p.toRat : ℝ) - θ| ≤ 3.5 / 2 ^ 48 * |θ| := by
    have := abs_add_le ((p.toRat : ℝ) - φ) (φ - θ)
    rw [sub_add_sub_cancel] at this
    clear g
    generalize |φ| = F at *
    norm_num at h1 p2 hφ ⊢; linarith
  have hpu := abs_sub_abs_le_abs_sub (p.toRat : ℝ) θ
  have hpl : |θ| ≤ 2 * |(p.toRat : ℝ)| := by
    have := abs_sub_abs_le_abs_sub θ (p.toRat : ℝ); rw [abs_sub_comm] at this; clear g; norm_num at h2 ⊢; linarith
  obtain ⟨z, z1, z2⟩ := qof_f64 P hT p1 (by
      have h3 : (1:ℝ) ≤ |(p.toRat : ℝ)| * 2 ^ 700 := by
        refine g.trans ((mul_le_mul_of_nonneg_right hpl (by positivity)).trans ?_)
        rw [mul_comm 2, mul_assoc]
        refine mul_le_mul_of_nonneg_left ?_ (abs_nonneg _)
        rw [← pow_add, ← pow_succ']
        exact pow_le_pow_right₀ (by norm_num) (by norm_num)
      exact_mod_cast h3) (by
      have h3 : |(p.toRat : ℝ)| ≤ 2 ^ 890 := by
        have h4 : |(p.toRat : ℝ)| ≤ 2 ^ 3 := by clear g; norm_num at hpu h2 ⊢; linarith
        exact h4.trans (pow_le_pow_right₀ (by norm_num) (by norm_num))
      exact_mod_cast h3)
  rw [fr_toRat] at z2
  clear g
  refine ⟨z, z1, (z2.move h2).mono ?_ ?_⟩ <;> norm_num at hpu h2 ⊢ <;> linarith

/-- The length of the vector. -/
theorem qhyp_root (P : Platform) (hP : FloatText P.toStr) {a b : Quad} {R : ℝ} (hR : R = hyp (qv a) (qv b)) (ha : QCo a R) (hb : QCo b R) :
    0 < R ∧ ∃ q, Quad.sqrt P (a.sqr + b.sqr) = some q ∧ QA q R (R * (27 / 10 / 2 ^ 128)) (R * (102 / 100)) := by
  have R0 : 0 < R := by rw [hR]; exact hyp_pos (Or.inl hb.ne)
  refine ⟨R0, ?_⟩
  have gl := le_hyp (qv a) (qv b)
  have gs := hyp_sq (qv a) (qv b)
  have gu := hyp_le (qv a) (qv b)
  rw [← hR] at gl gs gu
  have Ru : R ≤ 2 ^ 151 := gu.trans (by have h1 := ha.hi; have h2 := hb.hi; norm_num at h1 h2 ⊢; linarith)
  have Rl : 1 ≤ R * 2 ^ 150 := ha.lo.trans (mul_le_mul_of_nonneg_right gl.1 (by positivity))
  have sq1 : ∀ {d : Quad}, QCo d R → |qv d| ≤ R → QA d.sqr (qv d ^ 2) (R ^ 2 * (1 / 2 ^ 138)) (R ^ 2 * (107 / 100)) := by
    intro d h hd
    have h2 : qv d ^ 2 ≤ R ^ 2 := by rw [← sq_abs]; exact pow_le_pow_left₀ (abs_nonneg _) hd 2
    have e : R * (102 / 100) * (R * (102 / 100)) = R ^ 2 * (10404 / 10000) := by ring
    have s0 := sq_nonneg R
    refine (QA.mk h.sz (by simp) : QA d (qv d) 0 _).sqr ?_ ?_ ?_ ?_ ?_
    · refine Rl.trans ?_
      rw [mul_assoc]
      exact mul_le_mul_of_nonneg_left (by norm_num) R0.le
    · clear Rl; norm_num at Ru ⊢; linarith
    · rw [e]; norm_num; linarith
    · rw [e]; norm_num; linarith
    · rw [e]; norm_num; linarith
  have qa := sq1 ha gl.1
  have qb := sq1 hb gl.2
  have RR : R ^ 2 ≤ 2 ^ 200 * 2 ^ 102 := by
    refine (pow_le_pow_left₀ R0.le Ru 2).trans ?_
    norm_num
  have RL : 1 ≤ R ^ 2 * (2 ^ 200 * 2 ^ 100) := by
    have := one_le_pow₀ (n := 2) Rl
    rw [mul_pow] at this
    refine this.trans (le_of_eq ?_)
    norm_num
  have s0 := sq_nonneg R
  have s := qa.add qb (Z := R ^ 2 * (107 / 100)) (g := R ^ 2 * (108 / 100 / 2 ^ 128)) (W := R ^ 2 * (1001 / 1000)) le_rfl le_rfl
    (by clear RL; norm_num at RR ⊢; linarith) (by clear RR RL; norm_num; linarith) (by clear RR RL; linarith) (by
      rw [← gs, abs_of_nonneg s0]; clear RR RL; norm_num; linarith)
  rw [← gs] at s
  obtain ⟨r, r1, r2⟩ := qsqrt_of hP s (by positivity) (by norm_num) (by linarith) (by
      refine RL.trans (mul_le_mul_of_nonneg_left ?_ s0); norm_num) (by refine RR.trans ?_; norm_num)
  rw [Real.sqrt_sq R0.le] at r2
  exact ⟨r, r1, r2.mono (mul_le_mul_of_nonneg_left (by norm_num) R0.le) le_rfl⟩

/-- A coordinate divided by the length: general bound, and relative bound. -/
theorem qhyp_quot {a r : Quad} {R X : ℝ} (ha : SZ a X) (haX : |qv a| ≤ X) (lo : 1 ≤ X * 2 ^ 150) (hX : X ≤ R * (102 / 100)) (Ru : R ≤ 2 ^ 151)
    (R0 : 0 < R) (hr : QA r R (R * (27 / 10 / 2 ^ 128)) (R * (102 / 100))) :
    QA (a / r) (qv a / R) (X / R * (471 / 100 / 2 ^ 128)) (X / R * (1001 / 1000)) := by
  have hb := huge_big
  have hp : (0:ℝ) < (hugeQ : ℝ) := by exact_mod_cast hugeQ_pos
  have X0 : 0 < X := by
    by_contra hc
    have : X * 2 ^ 150 ≤ 0 := mul_nonpos_of_nonpos_of_nonneg (not_lt.mp hc) (by positivity)
    linarith
  have L2 : 1 ≤ X * hugeQ := lo.trans (mul_le_mul_of_nonneg_left (le_trans (by norm_num) hb) X0.le)
  refine (QA.mk ha (by simp) : QA a (qv a) 0 _).div hr (L := R * (9999 / 10000)) (by positivity) ?_ ?_ L2 ?_ ?_ ?_ ?_ ?_
  · rw [abs_of_pos R0]; clear lo L2 hb Ru; norm_num; linarith
  · clear lo L2 hb Ru; linarith
  · clear lo L2 hb; norm_num at Ru ⊢; linarith
  · refine le_trans ?_ (mul_le_mul_of_nonneg_left hb X0.le)
    clear L2 hb; norm_num at Ru lo ⊢; linarith
  · refine (show X ≤ R * (9999 / 10000) * (2 ^ 200 * 2 ^ 200 * 2 ^ 200 * 2 ^ 200) by clear lo L2 hb Ru; norm_num; linarith).trans
      (mul_le_mul_of_nonneg_left hb (by positivity))
  · rw [show X / R * (1001 / 1000) * (R * (9999 / 10000)) = X * (1001 / 1000 * (9999 / 10000)) by field_simp]
    clear lo L2 hb Ru; norm_num; linarith
  · rw [abs_div, abs_of_pos R0, show |qv a| / R * (R * (27 / 10 / 2 ^ 128)) = |qv a| * (27 / 10 / 2 ^ 128) by field_simp,
      show X / R * (471 / 100 / 2 ^ 128) * (R * (9999 / 10000)) = X * (471 / 100 / 2 ^ 128 * (9999 / 10000)) by field_simp]
    clear lo L2 hb Ru; norm_num; linarith

/-- The correction `(y - s) / c`. -/
theorem qnewton_quot {y s c : Quad} {Y S C ey es ec T L g h : ℝ} (hy : QA y Y ey T) (hs : QA s S es T) (hc : QA c C ec (102 / 100))
    (hL : L ≤ |C| - ec) (hL2 : 1 / 2 ≤ L) (hec : ec ≤ 41 / 2 ^ 128) (hd : |Y - S| ≤ h) (hh : h ≤ T / 2 ^ 40) (T2 : T ≤ 2)
    (lo : 1 ≤ T * (2 ^ 200 * 2 ^ 101)) (he : ey + es ≤ T * (100 / 2 ^ 128)) (hg : ey + es + T * (21 / 10) / 2 ^ 128 ≤ g * L) :
    QA ((y - s) / c) ((Y - S) / C) g (11 / 10 * T) := by
  have hb := huge_big
  have T0 : 0 < T := by
    by_contra hc
    have : T * (2 ^ 200 * 2 ^ 101) ≤ 0 := mul_nonpos_of_nonpos_of_nonneg (not_lt.mp hc) (by positivity)
    linarith
  have hn := hy.sub hs (Z := T) (g := ey + es + T / 2 ^ 128) (W := T * (53 / 100)) le_rfl le_rfl (by clear lo hb; norm_num; linarith)
    le_rfl (by linarith) (by
      generalize |Y - S| = D at *
      clear lo hb; norm_num at hh he ⊢; linarith)
  have ec0 := hc.nonneg
  have C0 : 1 / 2 ≤ |C| := by linarith
  have q1 : |(Y - S) / C| ≤ 2 * h := by
    rw [abs_div, div_le_iff₀ (by linarith)]
    have := mul_le_mul_of_nonneg_left C0 ((abs_nonneg _).trans hd)
    linarith
  have q2 : |(Y - S) / C| * ec ≤ T / 2 ^ 100 := by
    refine (mul_le_mul q1 hec ec0 (by linarith [(abs_nonneg _).trans hd])).trans ?_
    clear lo hb; norm_num at hh ⊢; linarith
  have q3 : |(Y - S) / C| * ec ≤ T / 2 ^ 160 := by
    refine (mul_le_mul q1 hec ec0 (by linarith [(abs_nonneg _).trans hd])).trans ?_
    clear lo hb; norm_num at hh ⊢; linarith
  have L2 : 1 ≤ T * (53 / 100) * hugeQ := by
    refine le_trans ?_ (mul_le_mul_of_nonneg_left hb (by positivity))
    clear hb; norm_num at lo ⊢; linarith
  refine hn.div hc (L := L) (by linarith) hL (by linarith) L2 (by clear lo L2 hb; norm_num; linarith) ?_ ?_ ?_ ?_
  · refine le_trans ?_ (mul_le_mul_of_nonneg_left hb (by positivity))
    clear hb L2; norm_num at lo ⊢; linarith
  · refine le_trans ?_ (mul_le_mul_of_nonneg_left hb (by linarith))
    clear hb L2 lo; norm_num; linarith
  · have := mul_le_mul_of_nonneg_left hL2 (show 0 ≤ 11 / 10 * T by linarith)
    clear hb L2 lo; norm_num at this ⊢; linarith
  · refine le_trans ?_ hg
    generalize |(Y - S) / C| * ec = q at *
    clear hb L2 lo hg; norm_num at q3 ⊢; linarith

/-- The final addition or subtraction of the correction. -/
theorem qnewton_sum {z d : Quad} {D θ ed T Zs Z N : ℝ} (hz : SZ z Zs) (hd : QA d D ed (11 / 10 * T)) (h1 : Zs ≤ Z) (h2 : 11 / 10 * T ≤ Z)
    (hZ : Z ≤ 2 ^ 10) (h3 : 51 / 100 * Z ≤ Zs) (h4 : |θ| + N + N + (ed + Z / 2 ^ 128) + Z / 2 ^ 138 ≤ Zs * (1 - 1 / 2 ^ 40)) :
    (|qv z + D - θ| ≤ N → QA (z + d) θ (ed + Z / 2 ^ 128 + N) Zs) ∧ (|qv z - D - θ| ≤ N → QA (z - d) θ (ed + Z / 2 ^ 128 + N) Zs) := by
  have ez : QA z (qv z) 0 Zs := ⟨hz, by simp⟩
  constructor
  · intro hN
    have N0 := (abs_nonneg _).trans hN
    refine (ez.add hd h1 h2 (hZ.trans (by norm_num)) (by rw [zero_add]) h3 ?_).move hN
    have := abs_sub_abs_le_abs_sub (qv z + D) θ
    linarith
  · intro hN
    have N0 := (abs_nonneg _).trans hN
    refine (ez.sub hd h1 h2 (hZ.trans (by norm_num)) (by rw [zero_add]) h3 ?_).move hN
    have := abs_sub_abs_le_abs_sub (qv z - D) θ
    linarith

/-- The larger of the sine and cosine, as the comparison of the leading components sees it. -/
theorem qlarger_bd {x y : Quad} {X Y ex ey : ℝ} (hx : QA x X ex (103 / 100)) (hy : QA y Y ey (103 / 100)) (e1 : ex ≤ 1 / 2 ^ 120) (e2 : ey ≤ 1 / 2 ^ 120)
    (h1 : X ^ 2 + Y ^ 2 = 1) (h : |fr y.c0| ≤ |fr x.c0|) : |Y| ≤ 1.0001 * |X| ∧ 0.707 ≤ |X| := by
  have a1 := hx.err
  have a2 := hy.err
  obtain ⟨-, a3⟩ := sz_sub_c0 hx.sz
  obtain ⟨-, a4⟩ := sz_sub_c0 hy.sz
  have b1 : |fr x.c0| ≤ |X| * (1 + 1 / 2 ^ 40) + 1 / 2 ^ 110 := by
    have t1 := abs_sub_abs_le_abs_sub (fr x.c0) (qv x)
    have t2 := abs_sub_abs_le_abs_sub (qv x) X
    rw [abs_sub_comm] at t1
    have := abs_nonneg X
    generalize |qv x - fr x.c0| = z1 at *
    generalize |qv x - X| = z2 at *
    generalize |fr x.c0| = z3 at *
    norm_num at a3 a1 e1 ⊢; linarith
  have b2 : |Y| ≤ |fr y.c0| * (1 + 1 / 2 ^ 40) + 1 / 2 ^ 110 := by
    have t1 := abs_sub_abs_le_abs_sub (qv y) (fr y.c0)
    have t2 := abs_sub_abs_le_abs_sub Y (qv y)
    rw [abs_sub_comm] at t2
    have := abs_nonneg (fr y.c0)
    generalize |qv y - fr y.c0| = z1 at *
    generalize |qv y - Y| = z2 at *
    generalize |fr y.c0| = z3 at *
    norm_num at a4 a2 e2 ⊢; linarith
  have nX := abs_nonneg X
  have nY := abs_nonneg Y
  rw [← sq_abs X, ← sq_abs Y] at h1
  have b3 : |Y| ≤ |X| * (1 + 1 / 2 ^ 38) + 1 / 2 ^ 100 := by
    generalize |fr x.c0| = z1 at *
    generalize |fr y.c0| = z2 at *
    norm_num at b1 b2 ⊢; linarith
  clear a1 a2 a3 a4 b1 b2
  have k2 : 0.707 ≤ |X| := by
    by_contra hc
    have hc := not_le.mp hc
    have hY : |Y| < 0.7071 := by norm_num at b3 hc ⊢; linarith
    have p1 := mul_self_lt_mul_self nX hc
    have p2 := mul_self_lt_mul_self nY hY
    rw [← sq] at p1 p2
    norm_num at p1 p2 h1; linarith
  refine ⟨?_, k2⟩
  norm_num at b3 k2 ⊢; linarith

end Verif
