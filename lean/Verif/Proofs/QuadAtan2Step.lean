import Verif.Proofs.QuadAtan2

/-!
# The Newton steps of `atan2` for Quads
-/

namespace Verif

open F64 Prim Util Quad

/-- The step of `Quad.atan2`, as in the model. -/
def qstep (P : Platform) (x y z : Quad) : Option Quad :=
  (Quad.sinCos P z).map fun (sinZ, cosZ) =>
    if F64.gt x.c0.abs y.c0.abs then z + (y - sinZ) / cosZ
    else z - (x - cosZ) / sinZ

theorem qcmp {x y : Quad} (fx : x.c0.isFinite = true) (fy : y.c0.isFinite = true) :
    F64.gt x.c0.abs y.c0.abs = true ↔ |fr y.c0| < |fr x.c0| := by
  have f1 := fr_abs fx
  have f2 := fr_abs fy
  unfold F64.gt
  rw [fr_lt f2.1 f1.1, f1.2, f2.2]

/-- One step, in general. -/
theorem qstep_gen {P : Platform} (hP : FloatText P.toStr) {x y z : Quad} {θ h : ℝ} (hθ : |θ| ≤ 315 / 100)
    (hx : QA x (Real.cos θ) (481 / 100 / 2 ^ 128) (103 / 100)) (hy : QA y (Real.sin θ) (481 / 100 / 2 ^ 128) (103 / 100))
    (hz : QA z θ h (33 / 10)) (hh : h ≤ 1 / 2 ^ 42) :
    ∃ r, qstep P x y z = some r ∧ QA r θ (694 / 10 / 2 ^ 128 + 501 / 1000 * h ^ 2) (33 / 10) := by
  have hzx := hz.abs_le
  obtain ⟨s, c, p, -, -, p1, -, -, p2, p3, -⟩ := qtrig_facts hP hz.sz (by norm_num at hh ⊢; linarith) (by norm_num)
  obtain ⟨sz, cz⟩ := p
  unfold qstep
  rw [p1, Option.map_some]
  dsimp only at p2 p3 ⊢
  refine ⟨_, rfl, ?_⟩
  have h0 := hz.nonneg
  have hv : |θ - qv z| ≤ h := by rw [abs_sub_comm]; exact hz.err
  have ds : |Real.sin θ - Real.sin (qv z)| ≤ h := (Real.abs_sin_sub_sin_le _ _).trans hv
  have dc : |Real.cos θ - Real.cos (qv z)| ≤ h := (Real.abs_cos_sub_cos_le _ _).trans hv
  have hh40 : h ≤ 1 / 2 ^ 40 := by norm_num at hh ⊢; linarith
  have hh30 : |θ - qv z| ≤ 1 / 2 ^ 30 := by norm_num at hh ⊢; linarith
  have hq : (θ - qv z) ^ 2 ≤ h ^ 2 := by rw [← sq_abs]; exact pow_le_pow_left₀ (abs_nonneg _) hv 2
  have hh2 : h ^ 2 ≤ 1 / 2 ^ 80 := by
    have := pow_le_pow_left₀ h0 hh40 2
    norm_num at this ⊢; linarith
  have p2' := p2.mono (show _ ≤ (395 / 10 / 2 ^ 128 : ℝ) by norm_num) (show (102 / 100 : ℝ) ≤ 103 / 100 by norm_num)
  have p3' := p3.mono (show _ ≤ (395 / 10 / 2 ^ 128 : ℝ) by norm_num) (show (102 / 100 : ℝ) ≤ 103 / 100 by norm_num)
  have p2s := p2.mono (show _ ≤ (395 / 10 / 2 ^ 128 : ℝ) by norm_num) le_rfl
  have p3s := p3.mono (show _ ≤ (395 / 10 / 2 ^ 128 : ℝ) by norm_num) le_rfl
  have hcmp := qcmp hx.fin.1 hy.fin.1
  by_cases hbr : F64.gt x.c0.abs y.c0.abs = true
  · rw [if_pos hbr]
    obtain ⟨l1, l2⟩ := qlarger_bd hx hy (by norm_num) (by norm_num) (Real.cos_sq_add_sin_sq θ) (hcmp.mp hbr).le
    obtain ⟨l3, l4⟩ := larger_start l1 l2 dc ds hh40
    have nw := (newton_sin (z := qv z) (θ := θ) (by norm_num at l3 ⊢; linarith) l4 hh30).1
    have w := qnewton_quot (L := 7059 / 10000) (g := 66 / 2 ^ 128) hy p2' p3s (by norm_num at l3 ⊢; linarith) (by norm_num) (by norm_num) ds
      (by norm_num at hh ⊢; linarith) (by norm_num) (by norm_num) (by norm_num) (by norm_num)
    refine ((qnewton_sum (θ := θ) (N := 501 / 1000 * h ^ 2) (Z := 33 / 10) hz.sz w le_rfl (by norm_num) (by norm_num) (by norm_num) (by
      norm_num at hh2 ⊢; linarith)).1 (by norm_num at nw ⊢; linarith)).mono ?_ le_rfl
    norm_num
  · rw [if_neg hbr]
    have hle := not_lt.mp (fun h => hbr (hcmp.mpr h))
    obtain ⟨l1, l2⟩ := qlarger_bd hy hx (by norm_num) (by norm_num) (Real.sin_sq_add_cos_sq θ) hle
    obtain ⟨l3, l4⟩ := larger_start l1 l2 ds dc hh40
    have nw := (newton_cos (z := qv z) (θ := θ) (by norm_num at l3 ⊢; linarith) l4 hh30).1
    have w := qnewton_quot (L := 7059 / 10000) (g := 66 / 2 ^ 128) hx p3' p2s (by norm_num at l3 ⊢; linarith) (by norm_num) (by norm_num) dc
      (by norm_num at hh ⊢; linarith) (by norm_num) (by norm_num) (by norm_num) (by norm_num)
    refine ((qnewton_sum (θ := θ) (N := 501 / 1000 * h ^ 2) (Z := 33 / 10) hz.sz w le_rfl (by norm_num) (by norm_num) (by norm_num) (by
      norm_num at hh2 ⊢; linarith)).2 (by norm_num at nw ⊢; linarith)).mono ?_ le_rfl
    norm_num

/-- One step, for a small angle. -/
theorem qstep_small {P : Platform} (hP : FloatText P.toStr) {x y z : Quad} {θ h : ℝ} (hθ : |θ| ≤ 97 / 100000) (lo : 1 ≤ |θ| * (2 ^ 200 * 2 ^ 101))
    (hx : QA x (Real.cos θ) (481 / 100 / 2 ^ 128) (103 / 100)) (hy : QA y (Real.sin θ) (|θ| * (481 / 100 / 2 ^ 128)) (|θ| * (103 / 100)))
    (hz : QA z θ (|θ| * h) (|θ| * (1025 / 1000))) (hh : h ≤ 1 / 2 ^ 42) :
    ∃ r, qstep P x y z = some r ∧ QA r θ (|θ| * (198 / 10 / 2 ^ 128 + 1 / 1000 * h ^ 2)) (|θ| * (1025 / 1000)) := by
  have hzx := hz.abs_le
  have t0 : 0 < |θ| := by
    rcases (abs_nonneg θ).lt_or_eq with h1 | h1
    · exact h1
    · rw [← h1, zero_mul] at lo; exact absurd lo (by norm_num)
  have h0 : 0 ≤ h := by
    have := hz.nonneg
    exact nonneg_of_mul_nonneg_right this t0
  have th : |θ| * h ≤ |θ| * (1 / 2 ^ 42) := mul_le_mul_of_nonneg_left hh t0.le
  have hzA : |qv z| ≤ |θ| * (1025 / 1000) := by clear lo; norm_num at th ⊢; linarith
  obtain ⟨s, c, p, -, -, p1, -, -, -, -, p4⟩ := qtrig_facts hP hz.sz hzA (by clear lo; norm_num; linarith)
  obtain ⟨-, p2, -, p3⟩ := p4 (by clear lo; norm_num at hθ ⊢; linarith) (by
    refine lo.trans ?_
    rw [mul_assoc |θ|]
    exact mul_le_mul_of_nonneg_left (by norm_num) t0.le)
  obtain ⟨sz, cz⟩ := p
  unfold qstep
  rw [p1, Option.map_some]
  dsimp only at p2 p3 ⊢
  refine ⟨_, rfl, ?_⟩
  have hv : |θ - qv z| ≤ |θ| * h := by rw [abs_sub_comm]; exact hz.err
  have ds : |Real.sin θ - Real.sin (qv z)| ≤ |θ| * h := (Real.abs_sin_sub_sin_le _ _).trans hv
  have hcz : 9999 / 10000 ≤ Real.cos (qv z) := by
    have h1 := Real.one_sub_sq_div_two_le_cos (x := qv z)
    have h2 : qv z ^ 2 ≤ (1 / 1000) ^ 2 := by
      rw [← sq_abs]; exact pow_le_pow_left₀ (abs_nonneg _) (by clear lo; linarith) 2
    norm_num at h2 ⊢; linarith
  have hcz' : |Real.cos (qv z)| = Real.cos (qv z) := abs_of_pos (by linarith)
  have hsz : |Real.sin (qv z)| ≤ 1.001 * |Real.cos (qv z)| := by
    have := Real.abs_sin_le_abs (x := qv z)
    rw [hcz']
    clear lo; norm_num; linarith
  have hcmp := qcmp hx.fin.1 hy.fin.1
  have hbr : F64.gt x.c0.abs y.c0.abs = true := by
    by_contra hbr
    have hle := not_lt.mp (fun h => hbr (hcmp.mpr h))
    have := (qlarger_bd (hy.mono le_rfl (by clear lo; linarith)) hx (by clear lo; norm_num; linarith) (by norm_num) (Real.sin_sq_add_cos_sq θ) hle).2
    have := Real.abs_sin_le_abs (x := θ)
    clear lo; norm_num at *; linarith
  rw [if_pos hbr]
  have nw := (newton_sin (z := qv z) (θ := θ) (by rw [hcz']; linarith) hsz (by clear lo; norm_num at th hθ ⊢; linarith)).1
  have hq : (θ - qv z) ^ 2 ≤ |θ| * (1 / 1000 * h ^ 2) := by
    rw [← sq_abs]
    have h1 := pow_le_pow_left₀ (abs_nonneg _) hv 2
    have h2 : |θ| * (|θ| * h ^ 2) ≤ |θ| * (97 / 100000 * h ^ 2) :=
      mul_le_mul_of_nonneg_left (mul_le_mul_of_nonneg_right hθ (sq_nonneg _)) t0.le
    have h3 := mul_nonneg t0.le (sq_nonneg h)
    nlinarith
  have hh2 : h ^ 2 ≤ 1 / 2 ^ 80 := by
    have := pow_le_pow_left₀ h0 hh 2
    norm_num at this ⊢; linarith
  have hh3 : |θ| * h ^ 2 ≤ |θ| * (1 / 2 ^ 80) := mul_le_mul_of_nonneg_left hh2 t0.le
  have w := qnewton_quot (T := |θ| * (103 / 100)) (L := 99 / 100) (g := |θ| * (186 / 10 / 2 ^ 128)) hy
    (p2.mono (show _ ≤ |θ| * (1135 / 100 / 2 ^ 128) by clear lo; norm_num; linarith) (show _ ≤ |θ| * (103 / 100) by clear lo; norm_num; linarith)) p3
    (by rw [hcz']; clear lo; norm_num; linarith) (by norm_num) (by norm_num) ds (by clear lo; norm_num at th ⊢; linarith) (by clear lo; linarith)
    (by norm_num at lo ⊢; linarith) (by clear lo; norm_num; linarith) (by clear lo; norm_num; linarith)
  clear lo
  refine ((qnewton_sum (θ := θ) (N := 501 / 1000 * (|θ| * (1 / 1000 * h ^ 2))) (Z := |θ| * (114 / 100)) hz.sz w (by linarith) (by linarith) (by norm_num; linarith)
    (by linarith) (by norm_num at hh3 ⊢; linarith)).1 (by norm_num at nw ⊢; linarith)).mono ?_ le_rfl
  have := mul_nonneg t0.le (sq_nonneg h)
  norm_num; linarith

/-- **The general case of `atan2`.** -/
theorem qatan2_core (P : Platform) (hT : FloatText P.toStr) (hA2 : LibmAtan2 P) {a b : Quad} {R : ℝ} (hR : R = hyp (qv a) (qv b))
    (ha : QCo a R) (hb : QCo b R) (hpre : Quad.preAtan2 a b = none) :
    ∃ r, Quad.atan2 P a b = some r ∧
      QA r (angle (qv a) (qv b)) (35 / 2 / 2 ^ 126) (33 / 10) ∧
      (|angle (qv a) (qv b)| ≤ 97 / 100000 → SZ a (|qv a| * (102 / 100)) →
        QA r (angle (qv a) (qv b)) (|angle (qv a) (qv b)| * (5 / 2 ^ 126)) (|angle (qv a) (qv b)| * (1025 / 1000))) := by
  obtain ⟨R0, q, q1, q2⟩ := qhyp_root P hT hR ha hb
  obtain ⟨z, z1, z2⟩ := qatan2_start hT hA2 ha hb
  have gl := le_hyp (qv a) (qv b)
  have gu := hyp_le (qv a) (qv b)
  rw [← hR] at gl gu
  have Ru : R ≤ 2 ^ 151 := gu.trans (by have h1 := ha.hi; have h2 := hb.hi; norm_num at h1 h2 ⊢; linarith)
  have Rl : 1 ≤ R * 2 ^ 150 := ha.lo.trans (mul_le_mul_of_nonneg_right gl.1 (by positivity))
  have Rl2 : 1 ≤ R * (102 / 100) * 2 ^ 150 := by norm_num at Rl ⊢; linarith
  have e1 : R * (102 / 100) / R * (471 / 100 / 2 ^ 128) ≤ 481 / 100 / 2 ^ 128 := by
    rw [mul_div_cancel_left₀ _ R0.ne']; norm_num
  have e2 : R * (102 / 100) / R * (1001 / 1000) ≤ 103 / 100 := by
    rw [mul_div_cancel_left₀ _ R0.ne']; norm_num
  have hy := (qhyp_quot ha.sz (by clear Ru Rl Rl2; linarith [gl.1]) Rl2 le_rfl Ru R0 q2).mono e1 e2
  have hx := (qhyp_quot hb.sz (by clear Ru Rl Rl2; linarith [gl.2]) Rl2 le_rfl Ru R0 q2).mono e1 e2
  have hys : SZ a (|qv a| * (102 / 100)) → QA (a / q) (qv a / R) (|qv a / R| * (481 / 100 / 2 ^ 128)) (|qv a / R| * (103 / 100)) := by
    intro hs
    have p0 := ha.pos
    have k := qhyp_quot hs (by linarith) (by have := ha.lo; norm_num at this ⊢; linarith) (by clear Ru Rl Rl2; linarith [gl.1]) Ru R0 q2
    rw [abs_div, abs_of_pos R0]
    have p1 := div_nonneg p0.le R0.le
    rw [mul_div_right_comm] at k
    refine k.mono ?_ ?_ <;> generalize |qv a| / R = t at * <;> norm_num <;> linarith
  have es := angle_sin (qv a) (qv b)
  have ec := angle_cos (y := qv a) (Or.inl hb.ne)
  rw [← hR] at es ec
  rw [← es] at hy hys
  rw [← ec] at hx
  have g := qangle_ge ha.lo hb.lo ha.hi hb.hi
  have gp2 : |angle (qv a) (qv b)| ≤ 315 / 100 := (angle_pi (qv a) (qv b)).trans (by linarith [pi_bds.2])
  have hm : Quad.atan2 P a b = ((qstep P (b / q) (a / q) z).bind (qstep P (b / q) (a / q))).bind (qstep P (b / q) (a / q)) := by
    unfold Quad.atan2
    rw [hpre]
    dsimp only
    rw [q1, Option.bind_some, z1, Option.bind_some]
    rfl
  rw [hm]
  clear hm es ec gl gu Ru Rl Rl2 e1 e2 hR hpre z1 q1 q2 R0
  generalize angle (qv a) (qv b) = θ at *
  have θ0 := abs_nonneg θ
  obtain ⟨r1, m1, k1⟩ := qstep_gen hT gp2 hx hy (z2.mono (show _ ≤ (1 / 2 ^ 44 : ℝ) by clear g; norm_num; linarith) (by linarith)) (by norm_num)
  obtain ⟨r2, m2, k2⟩ := qstep_gen hT gp2 hx hy (k1.mono (show _ ≤ (1 / 2 ^ 80 : ℝ) by norm_num) le_rfl) (by norm_num)
  obtain ⟨r3, m3, k3⟩ := qstep_gen hT gp2 hx hy (k2.mono (show _ ≤ (1 / 2 ^ 80 : ℝ) by norm_num) le_rfl) (by norm_num)
  rw [m1, Option.bind_some, m2, Option.bind_some, m3]
  refine ⟨r3, rfl, k3.mono (by norm_num) le_rfl, ?_⟩
  intro hs hz
  have hy' := (hys hz).mono (mul_le_mul_of_nonneg_right (Real.abs_sin_le_abs (x := θ)) (by norm_num))
    (mul_le_mul_of_nonneg_right (Real.abs_sin_le_abs (x := θ)) (by norm_num))
  obtain ⟨s1, n1, j1⟩ := qstep_small hT (h := 1 / 2 ^ 46) hs g hx hy' (z2.mono (by rw [mul_one_div]) (by linarith)) (by norm_num)
  obtain ⟨s2, n2, j2⟩ := qstep_small hT (h := 1 / 2 ^ 80) hs g hx hy' (j1.mono (mul_le_mul_of_nonneg_left (by norm_num) θ0) le_rfl) (by norm_num)
  have : s1 = r1 := by rw [m1] at n1; exact (Option.some.inj n1).symm
  subst this
  have : s2 = r2 := by rw [m2] at n2; exact (Option.some.inj n2).symm
  subst this
  obtain ⟨s3, n3, j3⟩ := qstep_small hT (h := 1 / 2 ^ 80) hs g hx hy' (j2.mono (mul_le_mul_of_nonneg_left (by norm_num) θ0) le_rfl) (by norm_num)
  have : s3 = r3 := by rw [m3] at n3; exact (Option.some.inj n3).symm
  subst this
  exact j3.mono (mul_le_mul_of_nonneg_left (by norm_num) θ0) le_rfl

end Verif
