import Verif.Proofs.DoubleMul

/-!
# Division of Doubles

Everything is scaled by `one' / (yh + yl)`, the map from "numerator units" to "quotient units".
-/

namespace Verif

open F64 Prim Util

/-- Exact quotient in units. -/
def qq (n d : ℚ) : ℚ := n * one' / d

theorem Norm2.sum_ne {h l : ℤ} (hn : Norm2 h l) (h0 : h ≠ 0) : ((h : ℚ) + l) ≠ 0 := by
  have h1 := hn.lo_leQ
  have h2 : |(h : ℚ)| ≠ 0 := by rw [abs_ne_zero]; exact_mod_cast h0
  have h3 := abs_nonneg (h : ℚ)
  intro hc
  have : (l : ℚ) = -h := by linarith
  rw [this, abs_neg, le_div_iff₀ (by positivity)] at h1
  have : 0 < |(h:ℚ)| := lt_of_le_of_ne h3 (Ne.symm h2)
  linarith

/-- Replacing the operands by their leading components changes the quotient by about two rounding errors. -/
theorem quot_close {h l yh yl : ℤ} (hn : Norm2 h l) (hy : Norm2 yh yl) (h0 : yh ≠ 0) :
    |qq (h + l) (yh + yl) - qq h yh| ≤ (|qq h yh| + |qq (h + l) (yh + yl)|) / 2 ^ 53 := by
  have hs := hy.sum_ne h0
  have hy0 : (yh : ℚ) ≠ 0 := by exact_mod_cast h0
  have hya : 0 < |(yh : ℚ)| := abs_pos.mpr hy0
  have e : qq (h + l) (yh + yl) - qq h yh = (l * one' - qq (h + l) (yh + yl) * yl) / yh := by
    unfold qq
    field_simp
    ring
  rw [e, abs_div, div_le_iff₀ hya]
  have b1 := hn.lo_leQ
  have b2 := hy.lo_leQ
  have t1 : |(l : ℚ) * one'| ≤ |qq h yh| / 2 ^ 53 * |(yh : ℚ)| := by
    rw [abs_mul]
    have : |qq h yh| * |(yh : ℚ)| = |(h : ℚ)| * |(one' : ℚ)| := by
      rw [← abs_mul, ← abs_mul]; congr 1; unfold qq; field_simp
    calc |(l : ℚ)| * |(one' : ℚ)| ≤ |(h : ℚ)| / 2 ^ 53 * |(one' : ℚ)| := mul_le_mul_of_nonneg_right b1 (abs_nonneg _)
      _ = (|qq h yh| * |(yh : ℚ)|) / 2 ^ 53 := by rw [this]; ring
      _ = _ := by ring
  have t2 : |qq (h + l) (yh + yl) * yl| ≤ |qq (h + l) (yh + yl)| / 2 ^ 53 * |(yh : ℚ)| := by
    rw [abs_mul]
    calc _ ≤ |qq (h + l) (yh + yl)| * (|(yh : ℚ)| / 2 ^ 53) := mul_le_mul_of_nonneg_left b2 (abs_nonneg _)
      _ = _ := by ring
  have := abs_sum2 t1 (ng t2)
  rw [← sub_eq_add_neg] at this
  refine this.trans (le_of_eq ?_)
  ring

theorem qq_pq {yh : ℤ} (h0 : yh ≠ 0) (h : ℤ) : |qq h yh| * |(yh : ℚ)| = |(h : ℚ)| * one' := by
  have hy0 : (yh : ℚ) ≠ 0 := by exact_mod_cast h0
  rw [← abs_mul, ← abs_of_pos one'_posQ, ← abs_mul]; congr 1; unfold qq; field_simp

theorem sub_specQ {a b : Double} {xh xl yh yl : ℤ} (ia : DIs a xh xl) (ib : DIs b yh yl) (hx : Norm2 xh xl)
    (hy : Norm2 yh yl) (hr : |(xh : ℚ)| + |(yh : ℚ)| ≤ lim2) :
    ∃ zh zl, DIs (a - b) zh zl ∧ Norm2 zh zl ∧
      |((zh : ℚ) + zl) - ((xh + xl) - (yh + yl))| ≤ 1 / 2 ^ 103 * |((xh : ℚ) + xl) - (yh + yl)| := by
  obtain ⟨zh, zl, i, n, h⟩ := sub_spec ia ib hx hy (by
    rw [← abs_int_cast, ← abs_int_cast] at hr; exact_mod_cast hr)
  refine ⟨zh, zl, i, n, ?_⟩
  have : ((2 ^ 103 * |zh + zl - (xh + xl - (yh + yl))| : ℤ) : ℚ) ≤ ((|xh + xl - (yh + yl)| : ℤ) : ℚ) := by
    exact_mod_cast h
  push_cast at this
  rw [div_mul_eq_mul_div, le_div_iff₀ (by positivity)]
  linarith

/-- One step of the long division. -/
theorem div_step {r b : Double} {h l yh yl : ℤ} (ir : DIs r h l) (ib : DIs b yh yl) (hn : Norm2 h l) (hy : Norm2 yh yl)
    (h0 : yh ≠ 0) (r1 : |(h : ℚ)| ≤ lim2 / 8) (r2 : |(yh : ℚ)| / one' ≤ lim2 / 8) (r3 : |qq h yh| ≤ lim2 / 8) :
    ∃ q h' l' : ℤ, Is (F64.div r.hi b.hi) q ∧ DIs (r - Double.mulF64 b (F64.div r.hi b.hi)) h' l' ∧ Norm2 h' l' ∧
      (q = rnd (qq h yh)) ∧
      |qq (h + l) (yh + yl) - q| ≤ 13 / 2 ^ 55 * |qq (h + l) (yh + yl)| + 1 / 2 ∧
      |qq (h' + l') (yh + yl) - (qq (h + l) (yh + yl) - q)| ≤
        1 / 2 ^ 103 * |qq (h + l) (yh + yl) - q| + (8 / 2 ^ 107 * |(q : ℚ)| + 18 / 16 * |qq 1 (yh + yl)|) := by
  have hq1 := quantumQ_ge
  have hl2 : (lim2 : ℚ) = 9007199254740992 * quantum := lim2Q
  have iq := ir.1.div ib.1 h0 (by
    change |qq h yh| ≤ _
    rw [omegaQ]; rw [hl2] at r3; linarith)
  change Is _ (rnd (qq h yh)) at iq
  have e1 := err_le (qq h yh)
  set q := rnd (qq h yh) with hqd
  have bq : |(q : ℚ)| ≤ |qq h yh| * (1 + 1 / 2 ^ 53) + 1 / 2 := by have := tri_l e1; linarith
  have hpos := one'_posQ
  have hyn := abs_nonneg (yh : ℚ)
  -- size of the product
  have bp : |pq yh q| ≤ |(h : ℚ)| * (1 + 1 / 2 ^ 53) + |(yh : ℚ)| / one' / 2 := by
    rw [pq_abs, div_le_iff₀ hpos]
    have e2 := qq_pq h0 h
    calc |(yh : ℚ)| * |(q : ℚ)| ≤ |(yh : ℚ)| * (|qq h yh| * (1 + 1 / 2 ^ 53) + 1 / 2) :=
          mul_le_mul_of_nonneg_left bq hyn
      _ = (|qq h yh| * |(yh : ℚ)|) * (1 + 1 / 2 ^ 53) + |(yh : ℚ)| / 2 := by ring
      _ = (|(h : ℚ)| * one') * (1 + 1 / 2 ^ 53) + |(yh : ℚ)| / 2 := by rw [e2]
      _ = _ := by
        have : |(yh : ℚ)| / one' / 2 * one' = |(yh : ℚ)| / 2 := by field_simp
        rw [add_mul, this]; ring
  have hm := is_mulF64 ib iq hy (by rw [hl2]; rw [hl2] at r1 r2; linarith)
  have ok := mulF_ok hy iq.rep
  set P := rs (pr yh q) (mulFS yh yl q) with hP
  set P' := re (pr yh q) (mulFS yh yl q) with hP'
  have hsum : ((P : ℚ) + P') = pr yh q + mulFS yh yl q := rs_add_reQ _ _
  have bP : |(P : ℚ)| ≤ |pq yh q| * (1 + 8 / 2 ^ 53) + 4 := by
    have := tri_r (rs_errQ (pr yh q) (mulFS yh yl q))
    have h2 := abs_sum2 (pr_upper yh q) ok.2.2
    have := abs_nonneg (pq yh q)
    linarith
  obtain ⟨h', l', iz, hz, he⟩ := sub_specQ ir hm.1 hn hm.2 (by rw [hl2]; rw [hl2] at r1 r2; linarith)
  refine ⟨q, h', l', iq, iz, hz, rfl, ?_, ?_⟩
  · have h1 := quot_close hn hy h0
    set R := qq (h + l) (yh + yl)
    set t := qq h yh
    have h2 := tri_l h1
    have e : R - q = (R - t) + (t - q) := by ring
    rw [e]
    have := abs_sum2 h1 e1
    have := abs_nonneg R
    have := abs_nonneg t
    linarith
  · have hs := hy.sum_ne h0
    set Y : ℚ := (yh : ℚ) + yl with hY
    have hT : pq yh q + pq yl q = q * Y / one' := by unfold pq; rw [hY]; ring
    have he2 := ok.2.1
    rw [← hsum, hT] at he2
    -- scale
    have sc : ∀ z : ℚ, qq z Y = z * qq 1 Y := by intro z; unfold qq; ring
    have hk : qq (q * Y / one') Y = q := by
      unfold qq; have := one'_ne; field_simp
    have he' : |qq (h' + l') Y - (qq (h + l) Y - qq (P + P') Y)| ≤ 1 / 2 ^ 103 * |qq (h + l) Y - qq (P + P') Y| := by
      rw [sc, sc (h + l), sc (P + P'), ← sub_mul, ← sub_mul, abs_mul, abs_mul, ← mul_assoc]
      exact mul_le_mul_of_nonneg_right he (abs_nonneg _)
    have he2' : |qq (P + P') Y - q| ≤ 7 / 2 ^ 107 * |(q : ℚ)| + 17 / 16 * |qq 1 Y| := by
      rw [← hk, sc, sc (q * Y / one'), ← sub_mul, abs_mul, abs_mul, ← mul_assoc, ← add_mul]
      exact mul_le_mul_of_nonneg_right he2 (abs_nonneg _)
    clear_value q P P'
    set R := qq (h + l) Y
    set S := qq (P + P') Y
    set R' := qq (h' + l') Y
    have e3 : R - S = (R - q) + -(S - q) := by ring
    have h5 : |R - S| ≤ |R - q| + (7 / 2 ^ 107 * |(q : ℚ)| + 17 / 16 * |qq 1 Y|) := by
      rw [e3]; exact abs_sum2 le_rfl (ng he2')
    have e4 : R' - (R - q) = (R' - (R - S)) + -(S - q) := by ring
    rw [e4]
    have := abs_sum2 he' (ng he2')
    have := abs_nonneg (q : ℚ)
    have := abs_nonneg (qq 1 Y)
    linarith

/-- Adding a tiny number to a representable one rounds back. -/
theorem rnd_absorb {u d : ℤ} (hu : Rep u) (h : 2 ^ 60 * |d| ≤ |u|) (hb : 2 ^ 60 ≤ |u|) :
    rnd ((u + d : ℤ) : ℚ) = u := by
  have hk : 1 ≤ expo (u : ℚ) := by
    apply le_expo_of_le
    rw [← abs_int_cast]
    have : (2:ℤ) ^ (52 + 1) ≤ |u| := le_trans (by norm_num) hb
    exact_mod_cast this
  obtain ⟨k, hk⟩ := Nat.exists_eq_add_of_le' hk
  have hlo : (2:ℤ) ^ (53 + k) ≤ |u| := by
    have := expo_le (u : ℚ) (by omega)
    rw [hk, ← abs_int_cast] at this
    have e : 52 + (k + 1) = 53 + k := by omega
    rw [e] at this
    exact_mod_cast this
  have hup : |u| < 2 ^ (54 + k) := by
    have := expo_int_lt u
    rw [hk] at this
    have e : 53 + (k + 1) = 54 + k := by omega
    rwa [e] at this
  have pk : (0:ℤ) < 2 ^ k := by positivity
  have h54 : (2:ℤ) ^ (54 + k) = 2 ^ 54 * 2 ^ k := pow_add _ _ _
  have h53 : (2:ℤ) ^ (53 + k) = 2 ^ 53 * 2 ^ k := pow_add _ _ _
  rw [h54] at hup
  rw [h53] at hlo
  set w := rnd ((u + d : ℤ) : ℚ) with hw
  have hne := err_nearest (u + d) hu
  rw [← hw] at hne
  have e1 : u + d - u = d := by ring
  rw [e1] at hne
  have t1 : |w - u| ≤ 2 * |d| := by
    have : w - u = d - (u + d - w) := by ring
    rw [this]
    have := abs_sub d (u + d - w)
    linarith
  have hd : 2 * |d| < 2 ^ k := by
    norm_num at h hup ⊢
    linarith
  have hwl : 2 ^ (52 + k) ≤ |w| := by
    rw [pow_add]
    have := abs_sub_abs_le_abs_sub u w
    rw [abs_sub_comm] at this
    norm_num at hlo ⊢
    linarith
  have d1 : (2:ℤ) ^ k ∣ w := (rep_rnd _).dvd_of_le hwl
  have d2 : (2:ℤ) ^ k ∣ u := hu.dvd_of_le (by
    rw [pow_add]; norm_num at hlo ⊢; linarith)
  have d3 : (2:ℤ) ^ k ∣ w - u := dvd_sub d1 d2
  have : w - u = 0 := Int.eq_zero_of_abs_lt_dvd d3 (by linarith)
  linarith

/-- The third quotient digit is absorbed by `renorm3`. -/
theorem is_renorm3 {a b c : F64} {q1 q2 q3 : ℤ} (ha : Is a q1) (hb : Is b q2) (hc : Is c q3)
    (h2 : |q2| ≤ |q1|) (hr : |q1| + |q2| ≤ lim2) (h3 : 2 ^ 60 * |q3| ≤ |rs q1 q2|) (hb' : 2 ^ 60 ≤ |rs q1 q2|) :
    Is (renorm3 a b c).1 (rs q1 q2) ∧ Is (renorm3 a b c).2 (re q1 q2) := by
  have hq := quantum_pos
  rw [lim2_eq] at hr
  have i := is_quickTwoSum ha hb (.of_abs_le ha.rep hb.rep h2) (by rw [lim_eq]; linarith)
  have hn := norm2_rs_re ha.rep hb.rep
  have bu : |rs q1 q2| ≤ 2 * (9007199254740992 * quantum) := by
    have h1 := abs_tri (rs q1 q2) (re q1 q2)
    rw [rs_add_re] at h1
    have h2 := hn.lo_le
    have h3 := abs_add_le q1 q2
    have := abs_nonneg (re q1 q2)
    norm_num at h2
    have h4 : 2 * |re q1 q2| ≤ |rs q1 q2| := by linarith
    linarith
  have hu : |rs q1 q2| ≤ omegaUnits := by
    have := abs_add_le q1 q2
    have hO : |q1 + q2| ≤ omegaUnits := by rw [omega_eq]; linarith
    exact rs_abs_le rep_omega hO
  have hd : |q3| ≤ omegaUnits := by
    have := abs_nonneg q3
    norm_num at h3
    linarith
  set u := rs q1 q2 with hud
  have j0 : Is (F64.add c (F64.add a b)) u := by
    have h1 : rnd ((q3 + u : ℤ) : ℚ) = u := by rw [add_comm]; exact rnd_absorb i.1.rep h3 hb'
    have := hc.add' i.1 (by rw [h1]; exact i.1.lt)
    exact this.congr h1
  have j1 : Is (F64.sub (F64.add c (F64.add a b)) c) u := by
    have h1 : rnd ((u + -q3 : ℤ) : ℚ) = u := rnd_absorb i.1.rep (by rwa [abs_neg]) hb'
    have := j0.add' hc.neg (by rw [h1]; exact i.1.lt)
    exact this.congr h1
  have j2 := i.1.sub_self' j1
  exact is_quickTwoSum_norm j0 (i.2.add_zero j2) hn

/-- Division in units. -/
theorem div_spec {a b : Double} {xh xl yh yl : ℤ} (ia : DIs a xh xl) (ib : DIs b yh yl) (hx : Norm2 xh xl)
    (hy : Norm2 yh yl) (h0 : yh ≠ 0) (r1 : |(xh : ℚ)| ≤ lim2 / 8) (r2 : |qq xh yh| ≤ lim2 / 8)
    (r3 : 2 ^ 112 ≤ |(xh : ℚ)|) (r4 : 2 ^ 112 ≤ |qq xh yh|) :
    ∃ zh zl, DIs (a / b) zh zl ∧ Norm2 zh zl ∧
      |((zh : ℚ) + zl) - qq (xh + xl) (yh + yl)| ≤ 15 / 2 ^ 106 * |qq (xh + xl) (yh + yl)| := by
  have hq1 := quantumQ_ge
  have hl2 : (lim2 : ℚ) = 9007199254740992 * quantum := lim2Q
  have hpos := one'_posQ
  have rY : |(yh : ℚ)| / one' ≤ lim2 / 8 := by
    rw [div_le_iff₀ hpos]
    have e := qq_pq h0 xh
    have h1 : |(yh : ℚ)| ≤ |qq xh yh| * |(yh : ℚ)| := by
      have := abs_nonneg (yh : ℚ)
      have : (1:ℚ) ≤ |qq xh yh| := le_trans (by norm_num) r4
      nlinarith
    rw [e] at h1
    exact h1.trans (mul_le_mul_of_nonneg_right r1 hpos.le)
  obtain ⟨q1, h1, l1, iq1, i1, n1, hq1d, b1, c1⟩ := div_step ia ib hx hy h0 r1 rY r2
  have hs := hy.sum_ne h0
  set Y : ℚ := (yh : ℚ) + yl with hY
  set R := qq (xh + xl) Y with hR
  -- the leading quotient and R are close
  have hc := quot_close hx hy h0
  rw [← hY, ← hR] at hc
  have rR1 := tri_r hc
  have rR2 := tri_l hc
  have nR := abs_nonneg R
  have nt := abs_nonneg (qq xh yh)
  have Rbig : 2 ^ 111 ≤ |R| := by norm_num at r4 hc rR2 ⊢; linarith
  have Rsmall : |R| ≤ lim2 / 8 * (1 + 4 / 2 ^ 53) := by linarith
  -- the scale factor
  have hk : |qq 1 Y| ≤ 1 / 2 ^ 111 * |R| := by
    have e : R = (xh + xl) * qq 1 Y := by rw [hR]; unfold qq; ring
    rw [e, abs_mul, ← mul_assoc]
    have hA : (2:ℚ) ^ 111 ≤ |(xh : ℚ) + xl| := by
      have h1 := hx.lo_leQ
      have h2 := abs_add_le ((xh : ℚ) + xl) (-xl)
      rw [add_neg_cancel_right, abs_neg] at h2
      norm_num at r3 h1 ⊢
      linarith
    have := abs_nonneg (qq 1 Y)
    have h3 : (1:ℚ) ≤ 1 / 2 ^ 111 * |(xh : ℚ) + xl| := by
      rw [div_mul_eq_mul_div, le_div_iff₀ (by positivity)]; linarith
    nlinarith
  have bq1 : |(q1 : ℚ)| ≤ |R| * (1 + 1 / 2 ^ 50) := by have := tri_l b1; norm_num at this Rbig ⊢; linarith
  have bq1' : |R| ≤ |(q1 : ℚ)| * (1 + 1 / 2 ^ 50) := by have := tri_r b1; norm_num at this Rbig ⊢; linarith
  -- sharper first step: the quotient is normal
  have b1s : |R - q1| ≤ 13 / 2 ^ 55 * |R| := by
    have e1 : |qq xh yh - q1| ≤ |qq xh yh| / 2 ^ 53 := by
      have := rel_err_rat (x := qq xh yh) (le_trans (by norm_num) r4)
      rw [← hq1d] at this
      rw [le_div_iff₀ (by positivity)]; linarith
    have e : R - q1 = (R - qq xh yh) + (qq xh yh - q1) := by ring
    rw [e]
    have := abs_sum2 hc e1
    linarith
  have bR1 : |qq (h1 + l1) Y| ≤ 13 / 2 ^ 55 * |R| * (1 + 1 / 2 ^ 48) := by
    have := tri_r c1
    norm_num at this b1s bq1 hk ⊢
    linarith
  have nR1 := abs_nonneg (qq (h1 + l1) Y)
  -- second step
  have hc1 := quot_close n1 hy h0
  rw [← hY] at hc1
  have t1 := tri_l hc1
  have nt1 := abs_nonneg (qq h1 yh)
  have bt1 : |qq h1 yh| ≤ 13 / 2 ^ 55 * |R| * (1 + 1 / 2 ^ 47) := by norm_num at t1 bR1 ⊢; linarith
  have rh1 : |(h1 : ℚ)| ≤ lim2 / 8 := by
    -- |h1| = |qq h1 yh| * |yh| / one' and |xh| = |qq xh yh| * |yh| / one'
    have e1 := qq_pq h0 h1
    have e2 := qq_pq h0 xh
    have : |qq h1 yh| ≤ |qq xh yh| := by norm_num at bt1 rR1 ⊢; linarith
    have h3 := mul_le_mul_of_nonneg_right this (abs_nonneg (yh : ℚ))
    rw [e1, e2] at h3
    exact (le_of_mul_le_mul_right h3 hpos).trans r1
  obtain ⟨q2, h2, l2, iq2, i2, n2, hq2d, b2, c2⟩ := div_step i1 ib n1 hy h0 rh1 rY (by norm_num at bt1 Rsmall ⊢; linarith)
  rw [← hY] at b2 c2
  have bq2 : |(q2 : ℚ)| ≤ 1 / 2 ^ 50 * |R| := by have := tri_l b2; norm_num at this Rbig bR1 ⊢; linarith
  have bR2 : |qq (h2 + l2) Y| ≤ 1 / 2 ^ 100 * |R| := by
    have := tri_r c2
    norm_num at this b2 bq2 hk bR1 Rbig ⊢
    linarith
  have hc2 := quot_close n2 hy h0
  rw [← hY] at hc2
  have t2 := tri_l hc2
  have nt2 := abs_nonneg (qq h2 yh)
  have nR2 := abs_nonneg (qq (h2 + l2) Y)
  have bt2 : |qq h2 yh| ≤ 1 / 2 ^ 99 * |R| := by norm_num at t2 bR2 ⊢; linarith
  have iq3 := i2.1.div ib.1 h0 (by
    change |qq h2 yh| ≤ _
    rw [omegaQ]; rw [hl2] at Rsmall; norm_num at bt2 Rsmall ⊢; linarith)
  change Is _ (rnd (qq h2 yh)) at iq3
  have e3 := err_le (qq h2 yh)
  set q3 := rnd (qq h2 yh)
  have bq3 : |(q3 : ℚ)| ≤ 1 / 2 ^ 98 * |R| := by have := tri_l e3; norm_num at this Rbig bt2 ⊢; linarith
  -- final sum
  have u1 := tri_l (rs_errQ q1 q2)
  have u2 : |(q1 : ℚ)| ≤ |(q1 : ℚ) + q2| + |(q2 : ℚ)| := by
    have := abs_add_le ((q1 : ℚ) + q2) (-q2)
    rwa [add_neg_cancel_right, abs_neg] at this
  have nu := abs_nonneg ((q1 : ℚ) + q2)
  have ub : |R| ≤ 2 * |(rs q1 q2 : ℚ)| := by norm_num at u1 u2 bq2 bq1' ⊢; linarith
  have hfin := is_renorm3 iq1 iq2 iq3
    (by
      have : |(q2 : ℚ)| ≤ |(q1 : ℚ)| := by norm_num at bq2 bq1' ⊢; linarith
      rw [← abs_int_cast, ← abs_int_cast] at this; exact_mod_cast this)
    (by
      have : |(q1 : ℚ)| + |(q2 : ℚ)| ≤ lim2 := by norm_num at bq2 bq1 Rsmall ⊢; linarith
      rw [← abs_int_cast, ← abs_int_cast] at this; exact_mod_cast this)
    (by
      have : 2 ^ 60 * |(q3 : ℚ)| ≤ |(rs q1 q2 : ℚ)| := by norm_num at bq3 ub ⊢; linarith
      rw [← abs_int_cast, ← abs_int_cast] at this; exact_mod_cast this)
    (by
      have : 2 ^ 60 ≤ |(rs q1 q2 : ℚ)| := by norm_num at Rbig ub ⊢; linarith
      rw [← abs_int_cast] at this; exact_mod_cast this)
  refine ⟨rs q1 q2, re q1 q2, ?_, norm2_rs_re iq1.rep iq2.rep, ?_⟩
  · rw [div_main_of ia.1 ib.1 h0]
    exact hfin
  · rw [rs_add_reQ]
    have e : (q1 : ℚ) + q2 - R = -(qq (h1 + l1) Y - q2) + (qq (h1 + l1) Y - (R - q1)) := by ring
    rw [e]
    have := abs_sum2 (ng b2) c1
    norm_num at this bR1 b1s bq1 hk Rbig ⊢
    linarith

end Verif
