import Verif.Proofs.QuadIdent
import Verif.Proofs.Ident

/-!
# Exact products and quotients of Quads
-/

namespace Verif

open F64 Prim Util Quad

theorem lim_lt : lim < ovf := by
  unfold lim ovf
  rw [show 2098 = 2096 + 2 by norm_num, pow_add]
  have : (0:ℤ) < 2 ^ 2096 := by positivity
  generalize (2:ℤ) ^ 2096 = P at *
  omega

/-- `renorm5` of normalized components followed by zero changes nothing. -/
theorem is_renorm5_norm {a b c d e : F64} {m n p q : ℤ} (ia : Is a m) (ib : Is b n) (ic : Is c p) (id : Is d q) (ie : Is e 0)
    (n1 : Norm2 m n) (n2 : Norm2 n p) (n3 : Norm2 p q) : TIs (renorm5 a b c d e) (m, n, p, q) := by
  have t1 := is_quickTwoSum_norm id ie (norm2_zero_right n3.rep_lo)
  have t2 := is_quickTwoSum_norm ic t1.1 n3
  have t3 := is_quickTwoSum_norm ib t2.1 n2
  have t4 := is_quickTwoSum_norm ia t3.1 n1
  unfold renorm5
  simp only
  generalize quickTwoSum a (quickTwoSum b (quickTwoSum c (quickTwoSum d e).1).1).1 = S4 at *
  generalize quickTwoSum b (quickTwoSum c (quickTwoSum d e).1).1 = S3 at *
  generalize quickTwoSum c (quickTwoSum d e).1 = S2 at *
  generalize quickTwoSum d e = S1 at *
  obtain ⟨x1, s4⟩ := S1
  obtain ⟨x2, s3⟩ := S2
  obtain ⟨x3, s2⟩ := S3
  obtain ⟨s0, s1⟩ := S4
  dsimp only at *
  by_cases h1 : n = 0
  · have h2 := norm2_chain n2 h1
    have h3 := norm2_chain n3 h2
    subst h1; subst h2; subst h3
    have z0 : ∀ {x : F64}, Is x 0 → F64.ne x F64.zero = false := fun i => by
      rw [← Bool.not_eq_true, is_ne_zero i]; simp
    have r0 := norm2_zero_right n1.rep_hi
    rw [z0 t4.2]
    have u1 := is_quickTwoSum_norm t4.1 t3.2 r0
    have u2 := is_quickTwoSum_norm u1.1 t2.2 r0
    have u3 := is_quickTwoSum_norm u2.1 t1.2 r0
    simp only [z0 u1.2, z0 u2.2]
    exact ⟨u3.1, u3.2, is_zero, is_zero⟩
  · have z0 : ∀ {x : F64}, Is x 0 → F64.ne x F64.zero = false := fun i => by
      rw [← Bool.not_eq_true, is_ne_zero i]; simp
    rw [(is_ne_zero t4.2).mpr h1]
    have u1 := is_quickTwoSum_norm t4.2 t3.2 n2
    simp only [if_true]
    by_cases h2 : p = 0
    · have h3 := norm2_chain n3 h2
      subst h2; subst h3
      have r1 := norm2_zero_right n1.rep_lo
      have u2 := is_quickTwoSum_norm u1.1 t2.2 r1
      have u3 := is_quickTwoSum_norm u2.1 t1.2 r1
      simp only [z0 u1.2, z0 u2.2]
      exact ⟨t4.1, u3.1, u3.2, is_zero⟩
    · rw [(is_ne_zero u1.2).mpr h2]
      have u2 := is_quickTwoSum_norm u1.2 t2.2 n3
      simp only [if_true]
      by_cases h3 : q = 0
      · subst h3
        have u3 := is_quickTwoSum_norm u2.1 t1.2 (norm2_zero_right n2.rep_lo)
        simp only [z0 u2.2]
        exact ⟨t4.1, u1.1, u3.1, u3.2⟩
      · rw [(is_ne_zero u2.2).mpr h3]
        exact ⟨t4.1, u1.1, u2.1, u2.2.add_zero t1.2⟩

theorem is_mul_zero {a b : F64} (ia : Is a 0) (ib : Is b 0) : Is (F64.mul a b) 0 :=
  ia.mul_rep ib (by ring) .zero zero_ovf

/-- `mul_f64` when every product is exact. -/
theorem is_qmulF64 {a : Quad} {x : F64} {m0 m1 m2 m3 n k0 k1 k2 k3 : ℤ} (h : QIs a (m0, m1, m2, m3)) (ix : Is x n)
    (e0 : m0 * n = k0 * one') (e1 : m1 * n = k1 * one') (e2 : m2 * n = k2 * one') (e3 : m3 * n = k3 * one')
    (nk : Norm4 (k0, k1, k2, k3)) (hl : |k0| < ovf) : QIs (mulF64 a x) (k0, k1, k2, k3) := by
  obtain ⟨n1, n2, n3⟩ := nk
  dsimp only at n1 n2 n3
  have l1 := n1.lo_le
  have l2 := n2.lo_le
  have l3 := n3.lo_le
  have p1 := abs_nonneg k1
  have p2 := abs_nonneg k2
  have p3 := abs_nonneg k3
  have t0 := is_twoProd_of h.i0 ix e0 n1.rep_hi hl
  have t1 := is_twoProd_of h.i1 ix e1 n1.rep_lo (by omega)
  have t2 := is_twoProd_of h.i2 ix e2 n2.rep_lo (by omega)
  have t3 := h.i3.mul_rep ix e3 n3.rep_lo (by omega)
  have u1 := is_twoSum_zero_right t1.1 t0.2
  have u2 := is_twoSum_zero_left t2.1 u1.2
  have u3 := is_twoSum_zero_left u2.1 t1.2
  have u4 := is_twoSum_zero_left u3.2 u2.2
  have v2 := is_twoSum_zero_left t3 u4.1
  have v3 := is_twoSum_zero_left v2.1 t2.2
  have v4 := v2.2.add_zero v3.2
  have w := is_mul_zero u4.2 v4
  have R := is_renorm5_norm t0.1 u1.1 u3.1 v3.1 w n1 n2 n3
  exact ⟨R.i0, R.i1, R.i2, R.i3⟩

theorem rs_zero_left' {x : ℤ} (h : Rep x) : rs 0 x = x := by rw [rs_of_rep (by simpa using h), zero_add]
theorem re_zero_left' {x : ℤ} (h : Rep x) : re 0 x = 0 := re_of_rep (by simpa using h)

theorem accZ_zero_zero {t : ℤ} (h : Rep t) : accZ 0 0 t = (0, t, 0) := by
  unfold accZ
  rw [rs_zero_left' h, re_zero_left' h, rs_zero_left' h]
  simp

theorem accZ_mid_zero {u t : ℤ} (n : Norm2 u t) : accZ u 0 t = (0, u, t) := by
  unfold accZ
  rw [rs_zero_left' n.rep_lo, re_zero_left' n.rep_lo, rs_norm n, re_norm n]
  simp

/-- Taking away the leading component. -/
theorem quad_sub_head {a b : Quad} {m0 m1 m2 m3 : ℤ} (h : QIs a (m0, m1, m2, m3)) (n : Norm4 (m0, m1, m2, m3))
    (hb : QIs b (m0, 0, 0, 0)) (hl : 2 ^ 50 * |m0| ≤ lim) : QIs (a - b) (m1, m2, m3, 0) := by
  obtain ⟨n1, n2, n3⟩ := id n
  dsimp only at *
  have l1 := n1.lo_le
  have l2 := n2.lo_le
  have l3 := n3.lo_le
  have p0 := abs_nonneg m0
  have p1 := abs_nonneg m1
  have p2 := abs_nonneg m2
  have p3 := abs_nonneg m3
  by_cases h0 : m0 = 0
  · have h1 := norm2_chain n1 h0
    have h2 := norm2_chain n2 h1
    have h3 := norm2_chain n3 h2
    subst h0; subst h1; subst h2; subst h3
    exact quad_sub_same h hb ⟨by simp, by simp, by simp⟩ hl
  have hn := hb.neg
  have hm0 := abs_pos.mpr h0
  have z1 : Is (-b).c1 0 := by simpa using hn.i1
  have z2 : Is (-b).c2 0 := by simpa using hn.i2
  have z3 : Is (-b).c3 0 := by simpa using hn.i3
  have hp : Picks (rest a 0) (rest (-b) 0) (-m0 :: m0 :: ([m1, m2, m3] ++ List.replicate 3 0)) := by
    refine ⟨by simp [rest], (-b).c0, rest a 0, [(-b).c1, (-b).c2, (-b).c3], pick_right h.i0 hn.i0 (by show _ ≤ |-m0|; rw [abs_neg]),
      hn.i0, by simp [rest], a.c0, [a.c1, a.c2, a.c3], [(-b).c1, (-b).c2, (-b).c3],
      pick_left h.i0 z1 (by rw [abs_zero]; exact hm0), h.i0, ?_⟩
    refine picks_left_zeros (.cons h.i1 (.cons h.i2 (.cons h.i3 .nil))) ?_ ?_ rfl
    · simp only [List.isChain_cons_cons, List.isChain_singleton, and_true]
      exact ⟨norm2_chain n2, norm2_chain n3⟩
    · intro y hy
      simp only [List.mem_cons, List.not_mem_nil, or_false] at hy
      rcases hy with rfl | rfl | rfl
      · exact z1
      · exact z2
      · exact z3
  have e1 : rs (-m0) m0 = 0 := by rw [rs_of_rep (by simpa using Rep.zero)]; ring
  have e2 : re (-m0) m0 = 0 := re_of_rep (by simpa using Rep.zero)
  have hz : ∃ r, loopZ ([m1, m2, m3] ++ List.replicate 3 0) 0 0 [] = some r ∧ r.getD 0 0 = m1 ∧ r.getD 1 0 = m2 ∧
      r.getD 2 0 = m3 ∧ r.getD 3 0 = 0 ∧ ∀ i, |r.getD i 0| ≤ 2 ^ 30 * |m0| := by
    have s1 : loopZ ([m1, m2, m3] ++ List.replicate 3 0) 0 0 [] = loopZ (m3 :: List.replicate 3 0) m1 m2 [] := by
      show loopZ (m1 :: m2 :: m3 :: List.replicate 3 0) 0 0 [] = _
      rw [loopZ_keep (by simp) (accZ_zero_zero n1.rep_lo), loopZ_keep (by simp) (accZ_mid_zero n2)]
    rw [s1]
    by_cases h3 : m3 = 0
    · subst h3
      refine ⟨_, loopZ_zeros n2 (x := []) (by simp) 4, rfl, rfl, rfl, rfl, ?_⟩
      intro i
      match i with
      | 0 => show |m1| ≤ _; omega
      | 1 => show |m2| ≤ _; omega
      | i + 2 => show |(0:ℤ)| ≤ _; simp
    · have h1 : m1 ≠ 0 := fun e => h3 (norm2_chain n3 (norm2_chain n2 e))
      have s2 : loopZ (m3 :: List.replicate 3 0) m1 m2 [] = loopZ (List.replicate 3 0) m2 m3 [m1] := by
        conv => lhs; unfold loopZ
        rw [if_pos (by simp), accZ_norm n2 n3 h3]
        simp [h1]
      rw [s2]
      refine ⟨_, loopZ_zeros n3 (x := [m1]) (by simp) 3, rfl, rfl, rfl, rfl, ?_⟩
      intro i
      match i with
      | 0 => show |m1| ≤ _; omega
      | 1 => show |m2| ≤ _; omega
      | 2 => show |m3| ≤ _; omega
      | i + 3 => show |(0:ℤ)| ≤ _; simp
  obtain ⟨r, hr, r0, r1, r2, r3, hrb⟩ := hz
  have n4 := norm2_zero_right n3.rep_lo
  have := is_quad_add (a := a) (b := -b) (B := |m0|) h.i0.1 hn.i0.1 hp (by simp)
    (.of_abs_le h.i0.rep.neg h.i0.rep (by rw [abs_neg])) (by
      intro k hk
      simp only [List.mem_cons, List.mem_append, List.not_mem_nil, List.mem_replicate, or_false] at hk
      rcases hk with rfl | rfl | (rfl | rfl | rfl) | ⟨_, rfl⟩ <;> first | omega | (rw [abs_neg]) | (rw [abs_zero]; omega)) hl
    (by rw [e1, e2]; exact hr) (by rw [r0, r1, r2, r3]; exact rn4ok_norm n2 n3 n4) hrb
  rw [r0, r1, r2, r3] at this
  have e := rn4_norm (z := (m1, m2, m3, 0)) ⟨n2, n3, n4⟩
  dsimp only at e
  rw [e] at this
  exact this

theorem qdiv_main {a b : Quad} {m n : ℤ} (ha : Is a.c0 m) (hb : Is b.c0 n) (hn : n ≠ 0) : Quad.preDiv a b = none := by
  have n1 : a.isNan = false := ha.not_nan
  have n2 : b.isNan = false := hb.not_nan
  have f1 : a.isInfinite = false := ha.not_inf
  have f2 : b.isInfinite = false := hb.not_inf
  have z : b.isZero = false := by
    show F64.eq b.c0 F64.zero = false
    rw [← Bool.not_eq_true, hb.eq_iff is_zero]
    exact hn
  unfold Quad.preDiv
  rw [n1, n2, f1, f2, z]; simp

/-- Division by a number with one component, when every quotient is exact. -/
theorem quad_div_single {a b : Quad} {m0 m1 m2 m3 n k0 k1 k2 k3 : ℤ} (h : QIs a (m0, m1, m2, m3)) (nm : Norm4 (m0, m1, m2, m3))
    (hb : QIs b (n, 0, 0, 0)) (hn : n ≠ 0) (e0 : m0 * one' = k0 * n) (e1 : m1 * one' = k1 * n) (e2 : m2 * one' = k2 * n)
    (e3 : m3 * one' = k3 * n) (nk : Norm4 (k0, k1, k2, k3)) (hk : |k0| < ovf) (hl : 2 ^ 50 * |m0| ≤ lim) :
    QIs (a / b) (k0, k1, k2, k3) := by
  obtain ⟨n1, n2, n3⟩ := id nm
  obtain ⟨c1, c2, c3⟩ := id nk
  dsimp only at *
  have l1 := n1.lo_le
  have l2 := n2.lo_le
  have l3 := n3.lo_le
  have p1 := abs_nonneg m1
  have p2 := abs_nonneg m2
  have p3 := abs_nonneg m3
  have j1 := c1.lo_le
  have j2 := c2.lo_le
  have j3 := c3.lo_le
  have i1 := abs_nonneg k1
  have i2 := abs_nonneg k2
  have i3 := abs_nonneg k3
  have zz := norm2_zero_zero
  have hov : ∀ {m : ℤ}, 2 ^ 50 * |m| ≤ lim → |m| < ovf := by
    intro m hm
    have hlim := lim_lt
    have hlim0 : (0:ℤ) ≤ 2 ^ 50 := by positivity
    have := abs_nonneg m
    omega
  have key : ∀ {x : F64} {m k : ℤ}, Is x k → m * one' = k * n → Rep m → 2 ^ 50 * |m| ≤ lim → QIs (mulF64 b x) (m, 0, 0, 0) := by
    intro x m k ix e rm hm
    exact is_qmulF64 hb ix (by rw [e]; ring) (by ring) (by ring) (by ring) ⟨norm2_zero_right rm, zz, zz⟩ (hov hm)
  have z3 := norm2_zero_right n3.rep_lo
  have q0 := h.i0.div_rep hb.i0 hn e0 c1.rep_hi hk
  have r0 := quad_sub_head h nm (key q0 e0 n1.rep_hi hl) hl
  have q1 := r0.i0.div_rep hb.i0 hn e1 c1.rep_lo (by omega)
  have r1 := quad_sub_head r0 ⟨n2, n3, z3⟩ (key q1 e1 n1.rep_lo (by omega)) (by omega)
  have q2 := r1.i0.div_rep hb.i0 hn e2 c2.rep_lo (by omega)
  have r2 := quad_sub_head r1 ⟨n3, z3, zz⟩ (key q2 e2 n2.rep_lo (by omega)) (by omega)
  have q3 := r2.i0.div_rep hb.i0 hn e3 c3.rep_lo (by omega)
  have r3 := quad_sub_head r2 ⟨z3, zz, zz⟩ (key q3 e3 n3.rep_lo (by omega)) (by omega)
  have q4 := r3.i0.zero_div hb.i0 hn
  have R := is_renorm5_norm q0 q1 q2 q3 q4 c1 c2 c3
  show QIs (Quad.div a b) _
  unfold Quad.div
  rw [qdiv_main h.i0 hb.i0 hn]
  exact ⟨R.i0, R.i1, R.i2, R.i3⟩

theorem is_quad_one : QIs Quad.ONE (one', 0, 0, 0) := ⟨is_ofDec_one, is_zero, is_zero, is_zero⟩

/-- `a / a` is one. -/
theorem quad_div_self {a b : Quad} {m0 m1 m2 m3 : ℤ} (h : QIs a (m0, m1, m2, m3)) (hb : QIs b (m0, m1, m2, m3))
    (nm : Norm4 (m0, m1, m2, m3)) (hn : m0 ≠ 0) (hl : 2 ^ 50 * |m0| ≤ lim) :
    QIs (a / b) (one', 0, 0, 0) := by
  have zz := norm2_zero_zero
  have hov : |m0| < ovf := by
    have hlim := lim_lt
    have hlim0 : (0:ℤ) ≤ 2 ^ 50 := by positivity
    have := abs_nonneg m0
    omega
  have q0 : Is (F64.div a.c0 b.c0) one' := h.i0.div_rep hb.i0 hn (by ring) rep_one' one'_lt
  have p0 := is_qmulF64 hb q0 rfl rfl rfl rfl nm hov
  have r0 := quad_sub_same h p0 nm.ord hl
  have hz : ∀ {r : Quad}, QIs r (0, 0, 0, 0) → Is (F64.div r.c0 b.c0) 0 ∧ QIs (r - mulF64 b (F64.div r.c0 b.c0)) (0, 0, 0, 0) := by
    intro r hr
    have q := hr.i0.zero_div hb.i0 hn
    have p := is_qmulF64 (k0 := 0) (k1 := 0) (k2 := 0) (k3 := 0) hb q (by ring) (by ring) (by ring) (by ring) ⟨zz, zz, zz⟩ zero_ovf
    refine ⟨q, quad_sub_same hr p ⟨by simp, by simp, by simp⟩ ?_⟩
    show 2 ^ 50 * |(0:ℤ)| ≤ lim
    have := abs_nonneg m0
    rw [abs_zero]; omega
  have s1 := hz r0
  have s2 := hz s1.2
  have s3 := hz s2.2
  have s4 := hz s3.2
  have R := is_renorm5_norm q0 s1.1 s2.1 s3.1 s4.1 (norm2_zero_right rep_one') zz zz
  show QIs (Quad.div a b) _
  unfold Quad.div
  rw [qdiv_main h.i0 hb.i0 hn]
  exact ⟨R.i0, R.i1, R.i2, R.i3⟩

/-- Multiplication by a number with one component, when every product is exact. -/
theorem quad_mul_single {a b : Quad} {m0 m1 m2 m3 n k0 k1 k2 k3 : ℤ} (h : QIs a (m0, m1, m2, m3))
    (hb : QIs b (n, 0, 0, 0)) (hm : m0 ≠ 0) (e0 : m0 * n = k0 * one') (e1 : m1 * n = k1 * one') (e2 : m2 * n = k2 * one')
    (e3 : m3 * n = k3 * one') (nk : Norm4 (k0, k1, k2, k3)) (hk : |k0| < ovf) :
    QIs (a * b) (k0, k1, k2, k3) := by
  obtain ⟨n1, n2, n3⟩ := nk
  dsimp only at n1 n2 n3
  have l1 := n1.lo_le
  have l2 := n2.lo_le
  have l3 := n3.lo_le
  have p1 := abs_nonneg k1
  have p2 := abs_nonneg k2
  have p3 := abs_nonneg k3
  have Z : ∀ {x y : F64} {m : ℤ}, Is x m → Is y 0 → Is (twoProd x y).1 0 ∧ Is (twoProd x y).2 0 := fun ix iy =>
    is_twoProd_of ix iy (by ring) .zero zero_ovf
  have M : ∀ {x y : F64} {m : ℤ}, Is x m → Is y 0 → Is (F64.mul x y) 0 := fun ix iy =>
    ix.mul_rep iy (by ring) .zero zero_ovf
  have P0 := is_twoProd_of h.i0 hb.i0 e0 n1.rep_hi hk
  have P1 := Z h.i0 hb.i1
  have P2 := is_twoProd_of h.i1 hb.i0 e1 n1.rep_lo (by omega)
  have P3 := Z h.i0 hb.i2
  have P4 := Z h.i1 hb.i1
  have P5 := is_twoProd_of h.i2 hb.i0 e2 n2.rep_lo (by omega)
  have P6 := Z h.i0 hb.i3
  have P7 := Z h.i1 hb.i2
  have P8 := Z h.i2 hb.i1
  have P9 := is_twoProd_of h.i3 hb.i0 e3 n3.rep_lo (by omega)
  have Pa := M h.i1 hb.i3
  have Pb := M h.i2 hb.i2
  have Pc := M h.i3 hb.i1
  generalize hp0 : twoProd a.c0 b.c0 = p0 at *
  generalize hp1 : twoProd a.c0 b.c1 = p1 at *
  generalize hp2 : twoProd a.c1 b.c0 = p2 at *
  generalize hp3 : twoProd a.c0 b.c2 = p3 at *
  generalize hp4 : twoProd a.c1 b.c1 = p4 at *
  generalize hp5 : twoProd a.c2 b.c0 = p5 at *
  generalize hp6 : twoProd a.c0 b.c3 = p6 at *
  generalize hp7 : twoProd a.c1 b.c2 = p7 at *
  generalize hp8 : twoProd a.c2 b.c1 = p8 at *
  generalize hp9 : twoProd a.c3 b.c0 = p9 at *
  -- three_three_sum h1 h2 l0
  have T : ∀ {x y z : F64} {k : ℤ}, Is x 0 → Is y k → Is z 0 → Is (threeThreeSum x y z).1 k ∧ Is (threeThreeSum x y z).2.1 0 ∧
      Is (threeThreeSum x y z).2.2 0 := by
    intro x y z k ix iy iz
    have u2 := is_twoSum_zero_left iy ix
    have u3 := is_twoSum_zero_left u2.1 iz
    have u4 := is_twoSum_zero_left u3.2 u2.2
    exact ⟨u3.1, u4.1, u4.2⟩
  have T' : ∀ {x y z : F64} {k : ℤ}, Is x k → Is y 0 → Is z 0 → Is (threeThreeSum x y z).1 k ∧ Is (threeThreeSum x y z).2.1 0 ∧
      Is (threeThreeSum x y z).2.2 0 := by
    intro x y z k ix iy iz
    have u2 := is_twoSum_zero_right ix iy
    have u3 := is_twoSum_zero_left u2.1 iz
    have u4 := is_twoSum_zero_left u3.2 u2.2
    exact ⟨u3.1, u4.1, u4.2⟩
  have S1 := T P1.1 P2.1 P0.2
  generalize hs1 : threeThreeSum p1.1 p2.1 p0.2 = s1 at *
  have S2 : Is (sixThreeSum s1.2.1 p3.1 p4.1 p5.1 p1.2 p2.2).1 k2 ∧ Is (sixThreeSum s1.2.1 p3.1 p4.1 p5.1 p1.2 p2.2).2.1 0 ∧
      Is (sixThreeSum s1.2.1 p3.1 p4.1 p5.1 p1.2 p2.2).2.2 0 := by
    have v1 := T S1.2.1 P3.1 P4.1
    have v2 := T' P5.1 P1.2 P2.2
    have v3 := is_twoSum_zero_left v2.1 v1.1
    have v4 := is_twoSum_zero_left v2.2.1 v1.2.1
    have v5 := is_twoSum_zero_left v3.2 v4.1
    exact ⟨v3.1, v5.1, ((v1.2.2.add_zero v2.2.2).add_zero v4.2).add_zero v5.2⟩
  generalize hs2 : sixThreeSum s1.2.1 p3.1 p4.1 p5.1 p1.2 p2.2 = s2 at *
  have F : ∀ {x y z w : F64} {k : ℤ}, Is x 0 → Is y 0 → Is z k → Is w 0 →
      Is (fourTwoSum x y z w).1 k ∧ Is (fourTwoSum x y z w).2 0 := by
    intro x y z w k ix iy iz iw
    have u := is_twoSum_zero_left iz ix
    exact ⟨u.1, (u.2.add_zero iy).add_zero iw⟩
  have F' : ∀ {x y z w : F64} {k : ℤ}, Is x k → Is y 0 → Is z 0 → Is w 0 →
      Is (fourTwoSum x y z w).1 k ∧ Is (fourTwoSum x y z w).2 0 := by
    intro x y z w k ix iy iz iw
    have u := is_twoSum_zero_right ix iz
    exact ⟨u.1, (u.2.add_zero iy).add_zero iw⟩
  have S3 : Is (nineTwoSum s1.2.2 s2.2.1 p6.1 p7.1 p8.1 p9.1 p3.2 p4.2 p5.2).1 k3 ∧
      Is (nineTwoSum s1.2.2 s2.2.1 p6.1 p7.1 p8.1 p9.1 p3.2 p4.2 p5.2).2 0 := by
    have v1 := is_twoSum_zero_left S2.2.1 S1.2.2
    have v2 := is_twoSum_zero_left P7.1 P6.1
    have v3 := is_twoSum_zero_left P9.1 P8.1
    have v4 := is_twoSum_zero_left P4.2 P3.2
    have v5 := F v1.1 v1.2 v2.1 v2.2
    have v6 := F' v3.1 v3.2 v4.1 v4.2
    have v7 := F v5.1 v5.2 v6.1 v6.2
    have v8 := is_twoSum_zero_right v7.1 P5.2
    exact ⟨v8.1, v8.2.add_zero v7.2⟩
  generalize hs3 : nineTwoSum s1.2.2 s2.2.1 p6.1 p7.1 p8.1 p9.1 p3.2 p4.2 p5.2 = s3 at *
  have S4 := (((((((S2.2.2.add_zero S3.2).add_zero Pa).add_zero Pb).add_zero Pc).add_zero P6.2).add_zero P7.2).add_zero
    P8.2).add_zero P9.2
  have R := is_renorm5_norm P0.1 S1.1 S2.1 S3.1 S4 n1 n2 n3
  have hpre : Quad.preMul a b = none := by
    have q1 : a.isNan = false := h.i0.not_nan
    have q2 : b.isNan = false := hb.i0.not_nan
    have f1 : a.isInfinite = false := h.i0.not_inf
    have f2 : b.isInfinite = false := hb.i0.not_inf
    have z : a.isZero = false := by
      show F64.eq a.c0 F64.zero = false
      rw [← Bool.not_eq_true, h.i0.eq_iff is_zero]
      exact hm
    unfold Quad.preMul
    rw [q1, q2, f1, f2, z]; simp
  show QIs (Quad.mul a b) _
  unfold Quad.mul
  rw [hpre]
  simp only [hp0, hp1, hp2, hp3, hp4, hp5, hp6, hp7, hp8, hp9]
  rw [hs1, hs2, hs3]
  exact ⟨R.i0, R.i1, R.i2, R.i3⟩

/-- Multiplication of a number with one component, when every product is exact. -/
theorem quad_single_mul {a b : Quad} {m0 m1 m2 m3 n k0 k1 k2 k3 : ℤ} (h : QIs a (m0, m1, m2, m3))
    (hb : QIs b (n, 0, 0, 0)) (hm : n ≠ 0) (e0 : m0 * n = k0 * one') (e1 : m1 * n = k1 * one') (e2 : m2 * n = k2 * one')
    (e3 : m3 * n = k3 * one') (nk : Norm4 (k0, k1, k2, k3)) (hk : |k0| < ovf) :
    QIs (b * a) (k0, k1, k2, k3) := by
  obtain ⟨n1, n2, n3⟩ := nk
  dsimp only at n1 n2 n3
  have l1 := n1.lo_le
  have l2 := n2.lo_le
  have l3 := n3.lo_le
  have p1 := abs_nonneg k1
  have p2 := abs_nonneg k2
  have p3 := abs_nonneg k3
  have Z : ∀ {x y : F64} {m : ℤ}, Is x 0 → Is y m → Is (twoProd x y).1 0 ∧ Is (twoProd x y).2 0 := fun ix iy =>
    is_twoProd_of ix iy (by ring) .zero zero_ovf
  have M : ∀ {x y : F64} {m : ℤ}, Is x 0 → Is y m → Is (F64.mul x y) 0 := fun ix iy =>
    ix.mul_rep iy (by ring) .zero zero_ovf
  have P0 := is_twoProd_of hb.i0 h.i0 (by rw [mul_comm]; exact e0) n1.rep_hi hk
  have P1 := is_twoProd_of hb.i0 h.i1 (by rw [mul_comm]; exact e1) n1.rep_lo (by omega)
  have P2 := Z hb.i1 h.i0
  have P3 := is_twoProd_of hb.i0 h.i2 (by rw [mul_comm]; exact e2) n2.rep_lo (by omega)
  have P4 := Z hb.i1 h.i1
  have P5 := Z hb.i2 h.i0
  have P6 := is_twoProd_of hb.i0 h.i3 (by rw [mul_comm]; exact e3) n3.rep_lo (by omega)
  have P7 := Z hb.i1 h.i2
  have P8 := Z hb.i2 h.i1
  have P9 := Z hb.i3 h.i0
  have Pa := M hb.i1 h.i3
  have Pb := M hb.i2 h.i2
  have Pc := M hb.i3 h.i1
  generalize hp0 : twoProd b.c0 a.c0 = p0 at *
  generalize hp1 : twoProd b.c0 a.c1 = p1 at *
  generalize hp2 : twoProd b.c1 a.c0 = p2 at *
  generalize hp3 : twoProd b.c0 a.c2 = p3 at *
  generalize hp4 : twoProd b.c1 a.c1 = p4 at *
  generalize hp5 : twoProd b.c2 a.c0 = p5 at *
  generalize hp6 : twoProd b.c0 a.c3 = p6 at *
  generalize hp7 : twoProd b.c1 a.c2 = p7 at *
  generalize hp8 : twoProd b.c2 a.c1 = p8 at *
  generalize hp9 : twoProd b.c3 a.c0 = p9 at *
  -- three_three_sum h1 h2 l0
  have T : ∀ {x y z : F64} {k : ℤ}, Is x 0 → Is y k → Is z 0 → Is (threeThreeSum x y z).1 k ∧ Is (threeThreeSum x y z).2.1 0 ∧
      Is (threeThreeSum x y z).2.2 0 := by
    intro x y z k ix iy iz
    have u2 := is_twoSum_zero_left iy ix
    have u3 := is_twoSum_zero_left u2.1 iz
    have u4 := is_twoSum_zero_left u3.2 u2.2
    exact ⟨u3.1, u4.1, u4.2⟩
  have T' : ∀ {x y z : F64} {k : ℤ}, Is x k → Is y 0 → Is z 0 → Is (threeThreeSum x y z).1 k ∧ Is (threeThreeSum x y z).2.1 0 ∧
      Is (threeThreeSum x y z).2.2 0 := by
    intro x y z k ix iy iz
    have u2 := is_twoSum_zero_right ix iy
    have u3 := is_twoSum_zero_left u2.1 iz
    have u4 := is_twoSum_zero_left u3.2 u2.2
    exact ⟨u3.1, u4.1, u4.2⟩
  have S1 := T' P1.1 P2.1 P0.2
  generalize hs1 : threeThreeSum p1.1 p2.1 p0.2 = s1 at *
  have S2 : Is (sixThreeSum s1.2.1 p3.1 p4.1 p5.1 p1.2 p2.2).1 k2 ∧ Is (sixThreeSum s1.2.1 p3.1 p4.1 p5.1 p1.2 p2.2).2.1 0 ∧
      Is (sixThreeSum s1.2.1 p3.1 p4.1 p5.1 p1.2 p2.2).2.2 0 := by
    have v1 := T S1.2.1 P3.1 P4.1
    have v2 := T' P5.1 P1.2 P2.2
    have v3 := is_twoSum_zero_right v1.1 v2.1
    have v4 := is_twoSum_zero_left v2.2.1 v1.2.1
    have v5 := is_twoSum_zero_left v3.2 v4.1
    exact ⟨v3.1, v5.1, ((v1.2.2.add_zero v2.2.2).add_zero v4.2).add_zero v5.2⟩
  generalize hs2 : sixThreeSum s1.2.1 p3.1 p4.1 p5.1 p1.2 p2.2 = s2 at *
  have F : ∀ {x y z w : F64} {k : ℤ}, Is x 0 → Is y 0 → Is z k → Is w 0 →
      Is (fourTwoSum x y z w).1 k ∧ Is (fourTwoSum x y z w).2 0 := by
    intro x y z w k ix iy iz iw
    have u := is_twoSum_zero_left iz ix
    exact ⟨u.1, (u.2.add_zero iy).add_zero iw⟩
  have F' : ∀ {x y z w : F64} {k : ℤ}, Is x k → Is y 0 → Is z 0 → Is w 0 →
      Is (fourTwoSum x y z w).1 k ∧ Is (fourTwoSum x y z w).2 0 := by
    intro x y z w k ix iy iz iw
    have u := is_twoSum_zero_right ix iz
    exact ⟨u.1, (u.2.add_zero iy).add_zero iw⟩
  have S3 : Is (nineTwoSum s1.2.2 s2.2.1 p6.1 p7.1 p8.1 p9.1 p3.2 p4.2 p5.2).1 k3 ∧
      Is (nineTwoSum s1.2.2 s2.2.1 p6.1 p7.1 p8.1 p9.1 p3.2 p4.2 p5.2).2 0 := by
    have v1 := is_twoSum_zero_left S2.2.1 S1.2.2
    have v2 := is_twoSum_zero_right P6.1 P7.1
    have v3 := is_twoSum_zero_left P9.1 P8.1
    have v4 := is_twoSum_zero_left P4.2 P3.2
    have v5 := F v1.1 v1.2 v2.1 v2.2
    have v6 := F' v3.1 v3.2 v4.1 v4.2
    have v7 := F' v5.1 v5.2 v6.1 v6.2
    have v8 := is_twoSum_zero_right v7.1 P5.2
    exact ⟨v8.1, v8.2.add_zero v7.2⟩
  generalize hs3 : nineTwoSum s1.2.2 s2.2.1 p6.1 p7.1 p8.1 p9.1 p3.2 p4.2 p5.2 = s3 at *
  have S4 := (((((((S2.2.2.add_zero S3.2).add_zero Pa).add_zero Pb).add_zero Pc).add_zero P6.2).add_zero P7.2).add_zero
    P8.2).add_zero P9.2
  have R := is_renorm5_norm P0.1 S1.1 S2.1 S3.1 S4 n1 n2 n3
  have hpre : Quad.preMul b a = none := by
    have q1 : a.isNan = false := h.i0.not_nan
    have q2 : b.isNan = false := hb.i0.not_nan
    have f1 : a.isInfinite = false := h.i0.not_inf
    have f2 : b.isInfinite = false := hb.i0.not_inf
    have z : b.isZero = false := by
      show F64.eq b.c0 F64.zero = false
      rw [← Bool.not_eq_true, hb.i0.eq_iff is_zero]
      exact hm
    unfold Quad.preMul
    rw [q1, q2, f1, f2, z]; simp
  show QIs (Quad.mul b a) _
  unfold Quad.mul
  rw [hpre]
  simp only [hp0, hp1, hp2, hp3, hp4, hp5, hp6, hp7, hp8, hp9]
  rw [hs1, hs2, hs3]
  exact ⟨R.i0, R.i1, R.i2, R.i3⟩


end Verif
