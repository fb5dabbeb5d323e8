import Verif.Proofs.QuadSlMul
import Verif.Props.Ldexp
import Verif.Proofs.Sqr

/-!
# Scaling by a power of two and squaring, for Quads that are ordered up to a small slack
-/

namespace Verif

open F64 Prim Util Quad

theorem Rep.div_pow {m : ℤ} (h : Rep m) {k : ℕ} {n : ℤ} (e : m = 2 ^ k * n) : Rep n := by
  obtain ⟨c, j, hc, ej⟩ := h
  by_cases hjk : k ≤ j
  · refine ⟨c, j - k, hc, ?_⟩
    have h3 : (2:ℤ) ^ j = 2 ^ k * 2 ^ (j - k) := by rw [← pow_add]; congr 1; omega
    rw [h3, e] at ej
    have : 2 ^ k * n = 2 ^ k * (c * 2 ^ (j - k)) := by rw [ej]; ring
    exact mul_left_cancel₀ (by positivity) this
  · refine .of_small ?_
    have e5 : (2:ℤ) ^ k = 2 ^ j * 2 ^ (k - j) := by rw [← pow_add]; congr 1; omega
    have e6 : c = 2 ^ (k - j) * n := by
      have : 2 ^ j * c = 2 ^ j * (2 ^ (k - j) * n) := by rw [← mul_assoc, ← e5, ← e, ej]; ring
      exact mul_left_cancel₀ (by positivity) this
    rw [e6, abs_mul, abs_of_pos (by positivity)] at hc
    refine le_trans ?_ hc
    exact le_mul_of_one_le_left (abs_nonneg _) (one_le_pow₀ (by norm_num))

/-- Dividing a number by a power of two is off by at most one unit. -/
theorem rnd_div_pow {m : ℤ} (h : Rep m) (k : ℕ) : |(rnd ((m : ℚ) / 2 ^ k) : ℚ) - (m : ℚ) / 2 ^ k| ≤ 1 := by
  by_cases hd : (2:ℤ) ^ k ∣ m
  · obtain ⟨n, e⟩ := hd
    have e3 : (m : ℚ) / 2 ^ k = (n : ℚ) := by rw [e]; push_cast; field_simp
    rw [e3, rnd_of_rep (h.div_pow e)]; simp
  · have hs : |m| < 2 ^ (52 + k) := by
      by_contra hc
      push Not at hc
      exact hd (h.dvd_of_le hc)
    have hq : |(m : ℚ) / 2 ^ k| ≤ 2 ^ 52 := by
      rw [abs_div, abs_of_pos (show (0:ℚ) < 2 ^ k by positivity), div_le_iff₀ (by positivity), ← pow_add]
      exact_mod_cast hs.le
    have := err_le ((m : ℚ) / 2 ^ k)
    rw [abs_sub_comm]
    linarith

/-- Multiplication by a power of two, component by component: exact up to a unit. -/
theorem U_scale {x p : F64} {c : ℚ} (fx : x.isFinite = true) (hp : (∃ k : ℕ, c = 2 ^ k ∧ Is p (2 ^ k * one')) ∨
      (∃ k : ℕ, k ≤ 1074 ∧ c = 1 / 2 ^ k ∧ Is p (2 ^ (1074 - k)))) (hl : |U x| * c ≤ (lim : ℚ)) :
    (F64.mul x p).isFinite = true ∧ |U (F64.mul x p) - c * U x| ≤ 1 ∧ (1 ≤ c → U (F64.mul x p) = c * U x) := by
  have ix := Is.of_finite fx
  have key : ∀ n : ℤ, Is p n → (n : ℚ) = c * one' → Is (F64.mul x p) (rnd (c * U x)) := by
    intro n hn e
    have e' : ((x.units : ℚ) * (n : ℚ)) / one' = c * U x := by
      rw [e]; unfold U; have := one'_ne; field_simp
    have hc : 0 ≤ c := by rcases hp with ⟨k, rfl, _⟩ | ⟨k, _, rfl, _⟩ <;> positivity
    have := ix.mul hn (by
      rw [e', abs_mul, abs_of_nonneg hc, mul_comm]
      exact limQ_le_omega hl)
    rwa [e'] at this
  rcases hp with ⟨k, hc, ip⟩ | ⟨k, hk, hc, ip⟩
  · have i := key _ ip (by rw [hc]; push_cast; rfl)
    have e : c * U x = ((2 ^ k * x.units : ℤ) : ℚ) := by rw [hc]; unfold U; push_cast; ring
    rw [e, rnd_of_rep (by rw [mul_comm]; exact ix.rep.mul_two_pow k)] at i
    rw [U_is i, e]
    exact ⟨i.1, by simp, fun _ => rfl⟩
  · have eo : (one' : ℤ) = 2 ^ k * 2 ^ (1074 - k) := by unfold one'; rw [← pow_add]; congr 1; omega
    have i := key _ ip (by
      rw [hc, eo]; push_cast; field_simp)
    have e : c * U x = (x.units : ℚ) / 2 ^ k := by rw [hc]; unfold U; field_simp
    rw [e] at i
    rw [U_is i, e]
    refine ⟨i.1, rnd_div_pow ix.rep k, fun h1 => ?_⟩
    have : k = 0 := by
      by_contra h0
      rw [hc, le_div_iff₀ (by positivity), one_mul] at h1
      have : (2:ℚ) ^ 1 ≤ 2 ^ k := pow_le_pow_right₀ (by norm_num) (by omega)
      linarith
    subst this
    rw [pow_zero, div_one, rnd_of_rep ix.rep]

/-- Scaling of all components. -/
theorem scale_slack {q : Quad} {p : F64} {c η : ℚ} (h : QS q (1 / 2 ^ 49) η) (hη : 0 ≤ η)
    (hp : (∃ k : ℕ, c = 2 ^ k ∧ Is p (2 ^ k * one')) ∨ (∃ k : ℕ, k ≤ 1074 ∧ c = 1 / 2 ^ k ∧ Is p (2 ^ (1074 - k))))
    (hl : 2 * (|U q.c0| * c + η * c) ≤ (lim : ℚ)) :
    QS (mulPwr2 q p) (1 / 2 ^ 49) (c * η + 2) ∧ |UQ (mulPwr2 q p) - c * UQ q| ≤ 4 ∧
      |U (mulPwr2 q p).c0 - c * U q.c0| ≤ 1 := by
  have hc : 0 ≤ c := by rcases hp with ⟨k, rfl, _⟩ | ⟨k, _, rfl, _⟩ <;> positivity
  have d1 := mul_le_mul_of_nonneg_left h.d1 hc
  have d2 := mul_le_mul_of_nonneg_left h.d2 hc
  have d3 := mul_le_mul_of_nonneg_left h.d3 hc
  have n0 := mul_nonneg hc (abs_nonneg (U q.c0))
  have n1 := mul_nonneg hc (abs_nonneg (U q.c1))
  have n2 := mul_nonneg hc (abs_nonneg (U q.c2))
  have nη := mul_nonneg hc hη
  obtain ⟨f0, e0, _⟩ := U_scale h.f0 hp (by linarith)
  obtain ⟨f1, e1, _⟩ := U_scale h.f1 hp (by linarith)
  obtain ⟨f2, e2, _⟩ := U_scale h.f2 hp (by linarith)
  obtain ⟨f3, e3, _⟩ := U_scale h.f3 hp (by linarith)
  have up : ∀ {y x : ℚ}, |y - c * x| ≤ 1 → |y| ≤ c * |x| + 1 ∧ c * |x| ≤ |y| + 1 := by
    intro y x hyx
    have t : |c * x| = c * |x| := by rw [abs_mul, abs_of_nonneg hc]
    have h1 := abs_sub_abs_le_abs_sub y (c * x)
    have h2 := abs_sub_abs_le_abs_sub (c * x) y
    rw [abs_sub_comm (c * x) y] at h2
    rw [t] at h1 h2
    constructor <;> linarith
  have u0 := up e0
  have u1 := up e1
  have u2 := up e2
  have u3 := up e3
  refine ⟨⟨f0, f1, f2, f3, ?_, ?_, ?_⟩, ?_, e0⟩
  · show |U (F64.mul q.c1 p)| ≤ 1 / 2 ^ 49 * |U (F64.mul q.c0 p)| + _
    linarith [u0.2, u1.1]
  · show |U (F64.mul q.c2 p)| ≤ 1 / 2 ^ 49 * |U (F64.mul q.c1 p)| + _
    linarith [u1.2, u2.1]
  · show |U (F64.mul q.c3 p)| ≤ 1 / 2 ^ 49 * |U (F64.mul q.c2 p)| + _
    linarith [u2.2, u3.1]
  · have g0 := abs_le.mp e0
    have g1 := abs_le.mp e1
    have g2 := abs_le.mp e2
    have g3 := abs_le.mp e3
    show |U (F64.mul q.c0 p) + U (F64.mul q.c1 p) + U (F64.mul q.c2 p) + U (F64.mul q.c3 p) -
      c * (U q.c0 + U q.c1 + U q.c2 + U q.c3)| ≤ 4
    exact abs_le.mpr ⟨by linarith, by linarith⟩

/-- `2.0 * x`. -/
theorem U_twice {x : F64} (fx : x.isFinite = true) (hl : 2 * |U x| ≤ (lim : ℚ)) :
    (F64.mul Double.two x).isFinite = true ∧ U (F64.mul Double.two x) = 2 * U x := by
  have ix := Is.of_finite fx
  have e : (((2 * one' : ℤ) : ℚ) * (x.units : ℚ)) / one' = ((2 ^ 1 * x.units : ℤ) : ℚ) := by
    have := one'_ne; push_cast; field_simp
  have i := is_two.mul ix (by
    rw [e]; push_cast
    rw [abs_mul]
    have : |(2:ℚ) ^ 1| * |(x.units : ℚ)| ≤ lim := by
      rw [pow_one, abs_two]; exact hl
    exact limQ_le_omega this)
  rw [e, rnd_of_rep (by rw [mul_comm]; exact ix.rep.mul_two_pow 1)] at i
  rw [U_is i]
  refine ⟨i.1, ?_⟩
  unfold U; push_cast; ring

theorem pq_twice {x : F64} (fx : x.isFinite = true) (hl : 2 * |U x| ≤ (lim : ℚ)) (y : ℤ) :
    pq (F64.mul Double.two x).units y = 2 * pq x.units y := by
  have h := (U_twice fx hl).2
  unfold U at h
  unfold pq
  rw [h]; ring

theorem UP_self (a : Quad) : UP a a =
    pq a.c0.units a.c0.units + 2 * pq a.c0.units a.c1.units + 2 * pq a.c0.units a.c2.units + pq a.c1.units a.c1.units +
    2 * pq a.c0.units a.c3.units + 2 * pq a.c1.units a.c2.units + 2 * pq a.c1.units a.c3.units +
    pq a.c2.units a.c2.units + 2 * pq a.c2.units a.c3.units + pq a.c3.units a.c3.units := by
  unfold UP UQ U pq
  ring

set_option maxHeartbeats 4000000 in
/-- The square in units, where `A` bounds the leading component. -/
theorem sqr_slack {a : Quad} {A M : ℚ} (oa : QS a (1 / 2 ^ 49) (A / 2 ^ 141))
    (hA : |U a.c0| ≤ A) (hM : A * A / one' = M) (hbig : 2 ^ 230 ≤ M) (hl : 1000 * M ≤ (lim : ℚ)) (hlA : 4 * A ≤ (lim : ℚ)) :
    QS a.sqr (1 / 2 ^ 49) (M / 2 ^ 142) ∧ |UQ a.sqr - UP a a| ≤ M / 2 ^ 139 := by
  obtain ⟨a1, a2, a3⟩ := oa.sizes hA
  have op := one'_posQ
  have na := abs_nonneg (U a.c0)
  have nA := na.trans hA
  have hMo : A * A = M * one' := by rw [← hM]; field_simp
  obtain ⟨m, hm⟩ : ∃ m, |pq a.c0.units a.c0.units| = m := ⟨_, rfl⟩
  have hmo : |U a.c0| * |U a.c0| = m * one' := by
    rw [← hm, pq_abs]; unfold U; field_simp
  have nm : 0 ≤ m := hm ▸ abs_nonneg _
  have hmM : m ≤ M := by
    have := mul_le_mul hA hA na nA
    rw [hmo, hMo] at this
    exact le_of_mul_le_mul_right this op
  have x1 : |U a.c0| * A ≤ M * one' := by rw [← hMo]; exact mul_le_mul_of_nonneg_right hA nA
  have x2 : A * |U a.c0| ≤ M * one' := by rw [← hMo]; exact mul_le_mul_of_nonneg_left hA nA
  have x0 : m * one' ≤ M * one' := mul_le_mul_of_nonneg_right hmM op.le
  have x3 : 0 ≤ m * one' := by positivity
  have x4 : 0 ≤ |U a.c0| * A := by positivity
  have x5 : 0 ≤ A * |U a.c0| := by positivity
  have h01 : |pq a.c0.units a.c1.units| ≤ m / 2 ^ 49 + M / 2 ^ 141 := pq_le_of (le_refl _) a1 (by linarith)
  have h02 : |pq a.c0.units a.c2.units| ≤ m / 2 ^ 98 + M / 2 ^ 140 := pq_le_of (le_refl _) a2 (by linarith)
  have h11 : |pq a.c1.units a.c1.units| ≤ m / 2 ^ 98 + M / 2 ^ 180 := pq_le_of a1 a1 (by linarith)
  have h03 : |pq a.c0.units a.c3.units| ≤ M / 2 ^ 140 := pq_le_of (le_refl _) a3 (by linarith)
  have h12 : |pq a.c1.units a.c2.units| ≤ M / 2 ^ 140 := pq_le_of a1 a2 (by linarith)
  have h13 : |pq a.c1.units a.c3.units| ≤ M / 2 ^ 180 := pq_le_of a1 a3 (by linarith)
  have h22 : |pq a.c2.units a.c2.units| ≤ M / 2 ^ 180 := pq_le_of a2 a2 (by linarith)
  have h23 : |pq a.c2.units a.c3.units| ≤ M / 2 ^ 180 := pq_le_of a2 a3 (by linarith)
  have h33 : |pq a.c3.units a.c3.units| ≤ M / 2 ^ 180 := pq_le_of a3 a3 (by linarith)
  clear x1 x2 x0 x3 x4 x5
  have l0' : 2 * |U a.c0| ≤ (lim : ℚ) := by linarith
  have l1' : 2 * |U a.c1| ≤ (lim : ℚ) := by linarith
  have t0 := pq_twice oa.f0 l0'
  have t1 := pq_twice oa.f1 l1'
  obtain ⟨ft0, _⟩ := U_twice oa.f0 l0'
  obtain ⟨ft1, _⟩ := U_twice oa.f1 l1'
  have w : ∀ {x K : ℚ}, |x| ≤ K → |2 * x| ≤ 2 * K := fun h => by rw [abs_mul, abs_two]; linarith
  have h01' := w h01
  have h02' := w h02
  have h03' := w h03
  have h12' := w h12
  rw [← t0] at h01' h02' h03'
  rw [← t1] at h12'
  obtain ⟨h0, l0, q0, fh0, fl0, e0, _, _⟩ := qb_prod oa.f0 oa.f0 hm.le (by linarith)
  obtain ⟨h1, l1, q1, fh1, fl1, e1, _, _⟩ := qb_prod ft0 oa.f1 h01' (by linarith)
  obtain ⟨h2, l2, q2, fh2, fl2, e2, _, _⟩ := qb_prod ft0 oa.f2 h02' (by linarith)
  obtain ⟨h3, l3, q3, fh3, fl3, e3, _, _⟩ := qb_prod oa.f1 oa.f1 h11 (by linarith)
  obtain ⟨fh4, e4⟩ := qb_mul ft0 oa.f3 h03' (by linarith)
  obtain ⟨fh5, e5⟩ := qb_mul ft1 oa.f2 h12' (by linarith)
  rw [t0] at e1 e2 e4
  rw [t1] at e5
  generalize hh4 : F64.mul (F64.mul Double.two a.c0) a.c3 = h4 at *
  generalize hh5 : F64.mul (F64.mul Double.two a.c1) a.c2 = h5 at *
  have fh1 : Fb h1 (m / 2 ^ 47 + M / 2 ^ 138) := fh1.mono (by linarith)
  have h5l := fl0.le
  have fl0 : Fb l0 (m / 2 ^ 53 + M / 2 ^ 200) := fl0.mono (by linarith)
  have fl1 : Fb l1 (m / 2 ^ 100 + M / 2 ^ 180) := fl1.mono (by linarith)
  have fh2 : Fb h2 (m / 2 ^ 96 + M / 2 ^ 138) := fh2.mono (by linarith)
  have fh3 : Fb h3 (m / 2 ^ 97 + M / 2 ^ 179) := fh3.mono (by linarith)
  have fl2 : Fb l2 (M / 2 ^ 148) := fl2.mono (by linarith)
  have fl3 : Fb l3 (M / 2 ^ 148) := fl3.mono (by linarith)
  have fh4 : Fb h4 (M / 2 ^ 138) := fh4.mono (by linarith)
  have fh5 : Fb h5 (M / 2 ^ 138) := fh5.mono (by linarith)
  obtain ⟨r1, A1, s1, fr1, fA1, g1, _, _⟩ := qb_two fh1 fl0 (by linarith)
  have fr1 : Fb r1 (m / 2 ^ 46 + M / 2 ^ 137) := fr1.mono (by linarith)
  have fA1 : Fb A1 (m / 2 ^ 99 + M / 2 ^ 190) := fA1.mono (by linarith)
  obtain ⟨b0, b1, s2, fb0, fb1, g2, _, _⟩ := qb_two fA1 fl1 (by linarith)
  have fb0 : Fb b0 (m / 2 ^ 98 + M / 2 ^ 179) := fb0.mono (by linarith)
  have fb1 : Fb b1 (M / 2 ^ 150) := fb1.mono (by linarith)
  obtain ⟨c0, c1, s3, fc0, fc1, g3, _, _⟩ := qb_two fh2 fh3 (by linarith)
  have fc0 : Fb c0 (m / 2 ^ 95 + M / 2 ^ 137) := fc0.mono (by linarith)
  have fc1 : Fb c1 (M / 2 ^ 147) := fc1.mono (by linarith)
  obtain ⟨d0, d1, s4, fd0, fd1, g4, _, _⟩ := qb_two fb0 fc0 (by linarith)
  have fd0 : Fb d0 (m / 2 ^ 94 + M / 2 ^ 136) := fd0.mono (by linarith)
  have fd1 : Fb d1 (M / 2 ^ 146) := fd1.mono (by linarith)
  obtain ⟨E0, E1, s5, fE0, fE1, g5, _, _⟩ := qb_two fb1 fc1 (by linarith)
  have fE0 : Fb E0 (M / 2 ^ 146) := fE0.mono (by linarith)
  have fE1 : Fb E1 (M / 2 ^ 199) := fE1.mono (by linarith)
  obtain ⟨f0, f1, s6, ff0, ff1, g6, _, _⟩ := qb_two fd1 fE0 (by linarith)
  have ff0 : Fb f0 (M / 2 ^ 144) := ff0.mono (by linarith)
  have ff1 : Fb f1 (M / 2 ^ 198) := ff1.mono (by linarith)
  obtain ⟨fx, gx⟩ := qb_add fE1 ff1 (by linarith)
  generalize hxx : F64.add E1 f1 = x at *
  have fx : Fb x (M / 2 ^ 197) := fx.mono (by linarith)
  have bf0 := ff0.le
  have bx := fx.le
  have nf0 := abs_nonneg (U f0)
  have nx := abs_nonneg (U x)
  obtain ⟨i0, i1, s7, fi0, fi1, bi0, bi1, g7, _, _, _⟩ := qb_quick_rel ff0.fin fx.fin (by linarith)
  have bd0 := fd0.le
  have nd0 := abs_nonneg (U d0)
  have ni0 := abs_nonneg (U i0)
  have ni1 := abs_nonneg (U i1)
  have bi0 : |U i0| ≤ M / 2 ^ 143 := by linarith
  have bi1 : |U i1| ≤ M / 2 ^ 190 := by linarith
  obtain ⟨r2, j1, s8, fr2, fj1, br2, bj1, g8, _, _, _⟩ := qb_quick_rel fd0.fin fi0 (by linarith)
  have nj1 := abs_nonneg (U j1)
  have nr2 := abs_nonneg (U r2)
  have br2 : |U r2| ≤ m / 2 ^ 93 + M / 2 ^ 135 := by linarith
  have bj1 : |U j1| ≤ M / 2 ^ 146 := by linarith
  obtain ⟨k0, k1, s9, fk0, fk1, bk0, bk1, g9, _, _, _⟩ := qb_quick_rel fi1 fj1 (by linarith)
  have Fk0 : Fb k0 (M / 2 ^ 145) := ⟨fk0, by linarith⟩
  have Fk1 : Fb k1 (M / 2 ^ 197) := ⟨fk1, by linarith⟩
  obtain ⟨m0, m1, s10, fm0, fm1, g10, _, _⟩ := qb_two fh4 fh5 (by linarith)
  obtain ⟨n0, n1, s11, fn0, fn1, g11, _, _⟩ := qb_two fl2 fl3 (by linarith)
  have fm0 : Fb m0 (M / 2 ^ 136) := fm0.mono (by linarith)
  have fm1 : Fb m1 (M / 2 ^ 189) := fm1.mono (by linarith)
  have fn0 : Fb n0 (M / 2 ^ 146) := fn0.mono (by linarith)
  have fn1 : Fb n1 (M / 2 ^ 199) := fn1.mono (by linarith)
  obtain ⟨o0, o1, s12, fo0, fo1, g12, _, _⟩ := qb_two fm0 fn0 (by linarith)
  have fo0 : Fb o0 (M / 2 ^ 135) := fo0.mono (by linarith)
  have fo1 : Fb o1 (M / 2 ^ 188) := fo1.mono (by linarith)
  obtain ⟨r3, Q1, s13, fr3, fQ1, g13, _, _⟩ := qb_two Fk0 fo0 (by linarith)
  have fr3 : Fb r3 (M / 2 ^ 134) := fr3.mono (by linarith)
  have fQ1 : Fb Q1 (M / 2 ^ 187) := fQ1.mono (by linarith)
  obtain ⟨fy1, y1⟩ := qb_add fm1 fn1 (by linarith)
  obtain ⟨fy2, y2⟩ := qb_add fy1 fo1 (by linarith)
  obtain ⟨fy3, y3⟩ := qb_add fy2 Fk1 (by linarith)
  obtain ⟨fy4, y4⟩ := qb_add fy3 fQ1 (by linarith)
  generalize hr4 : F64.add (F64.add (F64.add (F64.add m1 n1) o1) k1) Q1 = r4 at *
  generalize hz3 : F64.add (F64.add (F64.add m1 n1) o1) k1 = z3 at *
  generalize hz2 : F64.add (F64.add m1 n1) o1 = z2 at *
  generalize hz1 : F64.add m1 n1 = z1 at *
  have fr4 : Fb r4 (M / 2 ^ 184) := fy4.mono (by linarith)
  have b0h := fh0.le
  have b1 := fr1.le
  have b3 := fr3.le
  have b4 := fr4.le
  have v1 := abs_nonneg (U r1)
  have v3 := abs_nonneg (U r3)
  have v4 := abs_nonneg (U r4)
  have k0' : m * (1 - 1 / 2 ^ 50) - 2 ≤ |U h0| := by
    have t1 : m ≤ |U h0| + |U l0| + 1 / 2 := by
      rw [← hm]
      have e : pq a.c0.units a.c0.units = U h0 + U l0 - (U h0 + U l0 - pq a.c0.units a.c0.units) := by ring
      rw [e]
      refine (abs_sub _ _).trans ?_
      have := abs_add_le (U h0) (U l0)
      linarith
    linarith
  have dom : (|U r1| + |U r2| + |U r3| + |U r4|) * (101 / 100) ≤ |U h0| ∨ |U r1| + |U r2| + |U r3| + |U r4| ≤ M / 2 ^ 100 := by
    by_cases h : M / 2 ^ 110 ≤ m
    · left; linarith
    · right; push Not at h; linarith
  obtain ⟨R1, R2, _⟩ := renorm5_any (Z := M / 2 ^ 100) fh0.fin fr1.fin fr2 fr3.fin fr4.fin (by linarith) (by linarith) dom
  have hpre : Quad.preSqr a = none := by
    have i1 : a.isInfinite = false := (Is.of_finite oa.f0).not_inf
    unfold Quad.preSqr
    rw [i1]; simp
  have eq : a.sqr = toQ (renorm5 h0 r1 r2 r3 r4) := by
    unfold Quad.sqr
    rw [hpre]; dsimp only
    have tw : ∀ x : F64, twoSqr x = twoProd x x := fun _ => rfl
    rw [tw, tw, q0]; dsimp only
    rw [q1]; dsimp only
    rw [q2]; dsimp only
    rw [q3]; dsimp only
    rw [s1]; dsimp only
    rw [s2]; dsimp only
    rw [s3]; dsimp only
    rw [s4]; dsimp only
    rw [s5]; dsimp only
    rw [s6]; dsimp only
    rw [hxx, s7]; dsimp only
    rw [s8]; dsimp only
    rw [s9]; dsimp only
    rw [hh4, hh5, s10]; dsimp only
    rw [s11]; dsimp only
    rw [s12]; dsimp only
    rw [s13]; dsimp only
    rw [hz1, hz2, hz3, hr4]
    rfl
  rw [eq]
  refine ⟨R2.mono (le_refl _) (by linarith), ?_⟩
  have e := abs_le.mp R1.err
  have eu : UQ (toQ (renorm5 h0 r1 r2 r3 r4)) = U (renorm5 h0 r1 r2 r3 r4).1 + U (renorm5 h0 r1 r2 r3 r4).2.1 +
    U (renorm5 h0 r1 r2 r3 r4).2.2.1 + U (renorm5 h0 r1 r2 r3 r4).2.2.2 := rfl
  rw [eu, UP_self]
  clear s1 s2 s3 s4 s5 s6 s7 s8 s9 s10 s11 s12 s13 q0 q1 q2 q3 R1 R2 eq eu dom
  have e0 := abs_le.mp e0
  have e1 := abs_le.mp e1
  have e2 := abs_le.mp e2
  have e3 := abs_le.mp e3
  have e4 := abs_le.mp e4
  have e5 := abs_le.mp e5
  have g7 := abs_le.mp g7
  have g8 := abs_le.mp g8
  have g9 := abs_le.mp g9
  have gx := abs_le.mp gx
  have y1 := abs_le.mp y1
  have y2 := abs_le.mp y2
  have y3 := abs_le.mp y3
  have y4 := abs_le.mp y4
  have h13 := abs_le.mp h13
  have h22 := abs_le.mp h22
  have h23 := abs_le.mp h23
  have h33 := abs_le.mp h33
  exact abs_le.mpr ⟨by linarith, by linarith⟩

end Verif
