import Verif.Proofs.Renorm5

/-!
# The summation tree of `Quad` multiplication
-/

namespace Verif

open F64 Prim Util

/-- `six_three_sum`. -/
theorem qb_six {a b c d e f : F64} {A B C D E F : ℚ} (fa : Fb a A) (fb : Fb b B) (fc : Fb c C) (fd : Fb d D)
    (fe : Fb e E) (ff : Fb f F) (h : 4 * (A + B + C + D + E + F) ≤ (lim : ℚ)) :
    ∃ r t u, sixThreeSum a b c d e f = (r, t, u) ∧ Fb r ((A + B + C + D + E + F) * (1 + 5 / 2 ^ 53)) ∧
      Fb t ((A + B + C + D + E + F) * (3 / 2 ^ 53 + 30 / 2 ^ 106)) ∧
      Fb u ((A + B + C + D + E + F) * (7 / 2 ^ 106 + 100 / 2 ^ 159)) ∧
      |U r + U t + U u - (U a + U b + U c + U d + U e + U f)| ≤ (A + B + C + D + E + F) * (30 / 2 ^ 159) := by
  have hA := fa.nonneg
  have hB := fb.nonneg
  have hC := fc.nonneg
  have hD := fd.nonneg
  have hE := fe.nonneg
  have hF := ff.nonneg
  obtain ⟨p0, p1, p2, q1, fp0, fp1, fp2, e1, _⟩ := qb_three fa fb fc (by linarith)
  obtain ⟨w0, w1, w2, q2, fw0, fw1, fw2, e2, _⟩ := qb_three fd fe ff (by linarith)
  have hK : A + B + C + D + E + F = (A + B + C) + (D + E + F) := by ring
  rw [hK] at h ⊢
  clear hK
  generalize hK1 : A + B + C = K1 at *
  generalize hK2 : D + E + F = K2 at *
  have k1 : 0 ≤ K1 := by rw [← hK1]; positivity
  have k2 : 0 ≤ K2 := by rw [← hK2]; positivity
  clear hK1 hK2
  obtain ⟨r0, r1, q3, fr0, fr1, e3, _, _⟩ := qb_two fp0 fw0 (by linarith)
  obtain ⟨s0, s1, q4, fs0, fs1, e4, _, _⟩ := qb_two fp1 fw1 (by linarith)
  obtain ⟨t0, t1, q5, ft0, ft1, e5, _, _⟩ := qb_two fs0 fr1 (by linarith)
  obtain ⟨fx, e6⟩ := qb_add fp2 fw2 (by linarith)
  obtain ⟨fy, e7⟩ := qb_add fx fs1 (by linarith)
  obtain ⟨fz, e8⟩ := qb_add fy ft1 (by linarith)
  have e6 := abs_le.mp e6
  have e7 := abs_le.mp e7
  have e8 := abs_le.mp e8
  refine ⟨r0, t0, _, ?_, fr0.mono (by linarith), ft0.mono (by linarith), fz.mono (by linarith),
    abs_le.mpr ⟨by linarith, by linarith⟩⟩
  unfold sixThreeSum
  rw [q1]; dsimp only
  rw [q2]; dsimp only
  rw [q3]; dsimp only
  rw [q4]; dsimp only
  rw [q5]

/-- `nine_two_sum`. -/
theorem qb_nine {a b c d e f g h i : F64} {A B C D E F G H I : ℚ} (fa : Fb a A) (fb : Fb b B) (fc : Fb c C) (fd : Fb d D)
    (fe : Fb e E) (ff : Fb f F) (fg : Fb g G) (fh : Fb h H) (fi : Fb i I)
    (hl : 4 * (A + B + C + D + E + F + G + H + I) ≤ (lim : ℚ)) :
    ∃ r t, nineTwoSum a b c d e f g h i = (r, t) ∧ Fb r ((A + B + C + D + E + F + G + H + I) * (1 + 5 / 2 ^ 53)) ∧
      Fb t ((A + B + C + D + E + F + G + H + I) * (4 / 2 ^ 53 + 50 / 2 ^ 106)) ∧
      |U r + U t - (U a + U b + U c + U d + U e + U f + U g + U h + U i)| ≤
        (A + B + C + D + E + F + G + H + I) * (50 / 2 ^ 106) := by
  have hA := fa.nonneg
  have hB := fb.nonneg
  have hC := fc.nonneg
  have hD := fd.nonneg
  have hE := fe.nonneg
  have hF := ff.nonneg
  have hG := fg.nonneg
  have hH := fh.nonneg
  have hI := fi.nonneg
  obtain ⟨p0, p1, q1, fp0, fp1, e1, _, _⟩ := qb_two fa fb (by linarith)
  obtain ⟨q0, q1', q2, fq0, fq1, e2, _, _⟩ := qb_two fc fd (by linarith)
  obtain ⟨r0, r1, q3, fr0, fr1, e3, _, _⟩ := qb_two fe ff (by linarith)
  obtain ⟨s0, s1, q4, fs0, fs1, e4, _, _⟩ := qb_two fg fh (by linarith)
  have hK : A + B + C + D + E + F + G + H + I = (A + B) + (C + D) + (E + F) + (G + H) + I := by ring
  rw [hK] at hl ⊢
  have k1 : 0 ≤ A + B := by positivity
  have k2 : 0 ≤ C + D := by positivity
  have k3 : 0 ≤ E + F := by positivity
  have k4 : 0 ≤ G + H := by positivity
  generalize A + B = K1 at *
  generalize C + D = K2 at *
  generalize E + F = K3 at *
  generalize G + H = K4 at *
  obtain ⟨t0, t1, q5, ft0, ft1, e5⟩ := qb_four fp0 fp1 fq0 fq1 (by linarith)
  obtain ⟨u0, u1, q6, fu0, fu1, e6⟩ := qb_four fr0 fr1 fs0 fs1 (by linarith)
  obtain ⟨v0, v1, q7, fv0, fv1, e7⟩ := qb_four ft0 ft1 fu0 fu1 (by linarith)
  obtain ⟨w0, w1, q8, fw0, fw1, e8, _, _⟩ := qb_two fv0 fi (by linarith)
  obtain ⟨fx, e9⟩ := qb_add fw1 fv1 (by linarith)
  have e5 := abs_le.mp e5
  have e6 := abs_le.mp e6
  have e7 := abs_le.mp e7
  have e9 := abs_le.mp e9
  refine ⟨w0, _, ?_, fw0.mono (by linarith), fx.mono (by linarith), abs_le.mpr ⟨by linarith, by linarith⟩⟩
  unfold nineTwoSum
  rw [q1]; dsimp only
  rw [q2]; dsimp only
  rw [q3]; dsimp only
  rw [q4]; dsimp only
  rw [q5]; dsimp only
  rw [q6]; dsimp only
  rw [q7]; dsimp only
  rw [q8]

/-- A sum of nine terms. -/
theorem qb_tail {a b c d e f g h i : F64} {A B C D E F G H I : ℚ} (fa : Fb a A) (fb : Fb b B) (fc : Fb c C) (fd : Fb d D)
    (fe : Fb e E) (ff : Fb f F) (fg : Fb g G) (fh : Fb h H) (fi : Fb i I)
    (hl : 4 * (A + B + C + D + E + F + G + H + I) ≤ (lim : ℚ)) :
    Fb (F64.add (F64.add (F64.add (F64.add (F64.add (F64.add (F64.add (F64.add a b) c) d) e) f) g) h) i)
        ((A + B + C + D + E + F + G + H + I) * (1 + 9 / 2 ^ 53)) ∧
      |U (F64.add (F64.add (F64.add (F64.add (F64.add (F64.add (F64.add (F64.add a b) c) d) e) f) g) h) i) -
          (U a + U b + U c + U d + U e + U f + U g + U h + U i)| ≤
        (A + B + C + D + E + F + G + H + I) * (9 / 2 ^ 53) := by
  have hA := fa.nonneg
  have hB := fb.nonneg
  have hC := fc.nonneg
  have hD := fd.nonneg
  have hE := fe.nonneg
  have hF := ff.nonneg
  have hG := fg.nonneg
  have hH := fh.nonneg
  have hI := fi.nonneg
  obtain ⟨f1, e1⟩ := qb_add fa fb (by linarith)
  obtain ⟨f2, e2⟩ := qb_add f1 fc (by linarith)
  obtain ⟨f3, e3⟩ := qb_add f2 fd (by linarith)
  obtain ⟨f4, e4⟩ := qb_add f3 fe (by linarith)
  obtain ⟨f5, e5⟩ := qb_add f4 ff (by linarith)
  obtain ⟨f6, e6⟩ := qb_add f5 fg (by linarith)
  obtain ⟨f7, e7⟩ := qb_add f6 fh (by linarith)
  obtain ⟨f8, e8⟩ := qb_add f7 fi (by linarith)
  have e1 := abs_le.mp e1
  have e2 := abs_le.mp e2
  have e3 := abs_le.mp e3
  have e4 := abs_le.mp e4
  have e5 := abs_le.mp e5
  have e6 := abs_le.mp e6
  have e7 := abs_le.mp e7
  have e8 := abs_le.mp e8
  exact ⟨f8.mono (by linarith), abs_le.mpr ⟨by linarith, by linarith⟩⟩

/-- A descending scale. -/
structure Scale (m1 m2 m3 m4 m5 : ℚ) : Prop where
  e1 : m1 / 2 ^ 53 ≤ m2
  e2 : m2 / 2 ^ 53 ≤ m3
  e3 : m3 / 2 ^ 53 ≤ m4
  e4 : m4 / 2 ^ 53 ≤ m5
  d1 : 10000 * m2 ≤ m1
  d2 : 10000 * m3 ≤ m2
  d3 : 10000 * m4 ≤ m3
  d4 : 10000 * m5 ≤ m4
  one : 1 ≤ m5

set_option maxHeartbeats 2000000 in
theorem mul_core {h1 h2 l0 h3 h4 h5 l1 l2 h6 h7 h8 h9 l3 l4 l5 ha hb hc l6 l7 l8 l9 : F64} {m1 m2 m3 m4 m5 : ℚ}
    (hs : Scale m1 m2 m3 m4 m5) (hl : 1000 * m1 ≤ (lim : ℚ))
    (fh1 : Fb h1 (201 / 100 * m1)) (fh2 : Fb h2 (201 / 100 * m1)) (fl0 : Fb l0 (101 / 100 * m1))
    (fh3 : Fb h3 (401 / 100 * m2)) (fh4 : Fb h4 (401 / 100 * m2)) (fh5 : Fb h5 (401 / 100 * m2))
    (fl1 : Fb l1 (201 / 100 * m2)) (fl2 : Fb l2 (201 / 100 * m2))
    (fh6 : Fb h6 (801 / 100 * m3)) (fh7 : Fb h7 (801 / 100 * m3)) (fh8 : Fb h8 (801 / 100 * m3))
    (fh9 : Fb h9 (801 / 100 * m3)) (fl3 : Fb l3 (401 / 100 * m3)) (fl4 : Fb l4 (401 / 100 * m3))
    (fl5 : Fb l5 (401 / 100 * m3)) (fha : Fb ha (17 * m4)) (fhb : Fb hb (17 * m4)) (fhc : Fb hc (17 * m4))
    (fl6 : Fb l6 (9 * m4)) (fl7 : Fb l7 (9 * m4)) (fl8 : Fb l8 (9 * m4)) (fl9 : Fb l9 (9 * m4)) :
    ∃ r1 t0 t1 r2 t2 t3 r3 t4 r4, threeThreeSum h1 h2 l0 = (r1, t0, t1) ∧
      sixThreeSum t0 h3 h4 h5 l1 l2 = (r2, t2, t3) ∧
      nineTwoSum t1 t2 h6 h7 h8 h9 l3 l4 l5 = (r3, t4) ∧
      F64.add (F64.add (F64.add (F64.add (F64.add (F64.add (F64.add (F64.add t3 t4) ha) hb) hc) l6) l7) l8) l9 = r4 ∧
      Fb r1 (6 * m1) ∧ Fb r2 (30 * m2) ∧ Fb r3 (139 * m3) ∧ Fb r4 (1000 * m4) ∧
      |U r1 + U r2 + U r3 + U r4 - (U h1 + U h2 + U l0 + U h3 + U h4 + U h5 + U l1 + U l2 + U h6 + U h7 + U h8 + U h9 +
        U l3 + U l4 + U l5 + U ha + U hb + U hc + U l6 + U l7 + U l8 + U l9)| ≤ 20000 * m5 ∧
      r1.units = rs l0.units (rs h1.units h2.units) := by
  obtain ⟨s1, s2, s3, s4, d1, d2, d3, d4, one⟩ := hs
  obtain ⟨r1, t0, t1, q1, fr1, ft0, ft1, e1, u1⟩ := qb_three fh1 fh2 fl0 (by linarith)
  have ft0 : Fb t0 (1007 / 100 * m2) := ft0.mono (by linarith)
  have ft1 : Fb t1 (1007 / 100 * m3) := ft1.mono (by linarith)
  obtain ⟨r2, t2, t3, q2, fr2, ft2, ft3, e2⟩ := qb_six ft0 fh3 fh4 fh5 fl1 fl2 (by linarith)
  have ft2 : Fb t2 (79 * m3) := ft2.mono (by linarith)
  have ft3 : Fb t3 (190 * m4) := ft3.mono (by linarith)
  obtain ⟨r3, t4, q3, fr3, ft4, e3⟩ := qb_nine ft1 ft2 fh6 fh7 fh8 fh9 fl3 fl4 fl5 (by linarith)
  have ft4 : Fb t4 (560 * m4) := ft4.mono (by linarith)
  obtain ⟨fr4, e4⟩ := qb_tail ft3 ft4 fha fhb fhc fl6 fl7 fl8 fl9 (by linarith)
  refine ⟨r1, t0, t1, r2, t2, t3, r3, t4, _, q1, q2, q3, rfl, fr1.mono (by linarith), fr2.mono (by linarith),
    fr3.mono (by linarith), fr4.mono (by linarith), ?_, u1⟩
  have e2 := abs_le.mp e2
  have e3 := abs_le.mp e3
  have e4 := abs_le.mp e4
  exact abs_le.mpr ⟨by linarith, by linarith⟩

end Verif
