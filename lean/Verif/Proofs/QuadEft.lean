import Verif.Proofs.DoubleMul
import Verif.Proofs.QuadInts
import Verif.Proofs.DivWide

/-!
# The building blocks of the `Quad` operations with error bounds

Values are counted in units of the smallest subnormal (`U`); `Fb x K` says that `x` is finite and its magnitude at most
`K` units.
-/

namespace Verif

open F64 Prim Util

/-- The value of `x` in units of `2^-1074`. -/
def U (x : F64) : ℚ := (x.units : ℚ)

/-- `x` is finite and its magnitude at most `K` units. -/
structure Fb (x : F64) (K : ℚ) : Prop where
  fin : x.isFinite = true
  le : |U x| ≤ K

theorem Fb.is {x : F64} {K : ℚ} (h : Fb x K) : Is x x.units := Is.of_finite h.fin
theorem Fb.rep {x : F64} {K : ℚ} (h : Fb x K) : Rep x.units := h.is.rep
theorem Fb.nonneg {x : F64} {K : ℚ} (h : Fb x K) : 0 ≤ K := (abs_nonneg _).trans h.le
theorem Fb.mono {x : F64} {K L : ℚ} (h : Fb x K) (hl : K ≤ L) : Fb x L := ⟨h.fin, h.le.trans hl⟩
theorem Fb.lo {x : F64} {K : ℚ} (h : Fb x K) : -K ≤ U x := (abs_le.mp h.le).1
theorem Fb.up {x : F64} {K : ℚ} (h : Fb x K) : U x ≤ K := (abs_le.mp h.le).2

theorem fb_of_is {x : F64} {n : ℤ} {K : ℚ} (h : Is x n) (hk : |(n : ℚ)| ≤ K) : Fb x K := by
  refine ⟨h.1, ?_⟩; unfold U; rw [h.2]; exact hk

theorem U_is {x : F64} {n : ℤ} (h : Is x n) : U x = n := by unfold U; rw [h.2]

theorem fb_zero {K : ℚ} (h : 0 ≤ K) : Fb F64.zero K := fb_of_is is_zero (by simpa using h)

theorem toRat_U {x : F64} (h : x.isFinite = true) : x.toRat = U x / one' := (Is.of_finite h).toRat

/-- `two_sum` is exact. -/
theorem qb_two {a b : F64} {A B : ℚ} (fa : Fb a A) (fb : Fb b B) (h : A + B ≤ (lim : ℚ)) :
    ∃ s e, twoSum a b = (s, e) ∧ Fb s ((A + B) * (1 + 1 / 2 ^ 53)) ∧ Fb e ((A + B) / 2 ^ 53) ∧
      U s + U e = U a + U b ∧ s.units = rs a.units b.units ∧ e.units = re a.units b.units := by
  have i := is_twoSum fa.is fb.is (by
    have : ((|a.units| + |b.units| : ℤ) : ℚ) ≤ (lim : ℚ) := by
      push_cast
      exact le_trans (add_le_add fa.le fb.le) h
    exact_mod_cast this)
  have hs := rs_errQ a.units b.units
  have hab : |(a.units + b.units : ℚ)| ≤ A + B := (abs_add_le _ _).trans (add_le_add fa.le fb.le)
  have hsum := rs_add_reQ a.units b.units
  have he : |(re a.units b.units : ℚ)| ≤ (A + B) / 2 ^ 53 := by
    have : (re a.units b.units : ℚ) = -((rs a.units b.units : ℚ) - (a.units + b.units)) := by linarith
    rw [this, abs_neg]
    exact hs.trans (div_le_div_of_nonneg_right hab (by positivity))
  refine ⟨(twoSum a b).1, (twoSum a b).2, rfl, fb_of_is i.1 ?_, fb_of_is i.2 he, ?_, i.1.2, i.2.2⟩
  · have : (rs a.units b.units : ℚ) = (a.units + b.units) + -(re a.units b.units : ℚ) := by linarith
    rw [this]
    refine (abs_sum2 hab (ng he)).trans (le_of_eq ?_); ring
  · rw [U_is i.1, U_is i.2]; exact hsum

/-- Rounded addition. -/
theorem qb_add {a b : F64} {A B : ℚ} (fa : Fb a A) (fb : Fb b B) (h : A + B ≤ (lim : ℚ)) :
    Fb (F64.add a b) ((A + B) * (1 + 1 / 2 ^ 53)) ∧ |U (F64.add a b) - (U a + U b)| ≤ (A + B) / 2 ^ 53 := by
  obtain ⟨s, e, h1, h2, h3, h4, _, _⟩ := qb_two fa fb h
  have : F64.add a b = s := by
    have := congrArg Prod.fst h1
    exact this
  rw [this]
  refine ⟨h2, ?_⟩
  have : U s - (U a + U b) = - U e := by linarith
  rw [this]; exact ng h3.le

theorem limQ_le_omega {x : ℚ} (h : x ≤ (lim : ℚ)) : x ≤ (omegaUnits : ℚ) := by
  refine h.trans ?_
  rw [limQ, omegaQ]
  have := quantumQ_ge
  linarith

/-- `two_prod`: the exact product of the values, in units, is `pq`. -/
theorem qb_prod {a b : F64} {K : ℚ} (fa : a.isFinite = true) (fb : b.isFinite = true)
    (hk : |pq a.units b.units| ≤ K) (h : K ≤ (lim : ℚ)) :
    ∃ p e, twoProd a b = (p, e) ∧ Fb p (K * (1 + 1 / 2 ^ 53) + 1 / 2) ∧ Fb e (K / 2 ^ 53 + 1) ∧
      |U p + U e - pq a.units b.units| ≤ 1 / 2 ∧ p.units = pr a.units b.units ∧ e.units = pe a.units b.units := by
  have ia := Is.of_finite fa
  have ib := Is.of_finite fb
  have i := is_twoProd ia ib (hk.trans (limQ_le_omega h))
  refine ⟨(twoProd a b).1, (twoProd a b).2, rfl, fb_of_is i.1 ?_, fb_of_is i.2 ?_, ?_, i.1.2, i.2.2⟩
  · refine (pr_upper _ _).trans ?_
    have : |pq a.units b.units| * (1 + 1 / 2 ^ 53) ≤ K * (1 + 1 / 2 ^ 53) := mul_le_mul_of_nonneg_right hk (by positivity)
    linarith
  · refine (pe_upper ia.rep ib.rep).trans ?_
    have : |pq a.units b.units| / 2 ^ 53 ≤ K / 2 ^ 53 := div_le_div_of_nonneg_right hk (by positivity)
    linarith
  · rw [U_is i.1, U_is i.2]
    have := pe_err ia.rep ib.rep
    rw [← abs_neg]
    refine le_trans (le_of_eq ?_) this
    congr 1; ring

/-- Rounded product. -/
theorem qb_mul {a b : F64} {K : ℚ} (fa : a.isFinite = true) (fb : b.isFinite = true)
    (hk : |pq a.units b.units| ≤ K) (h : K ≤ (lim : ℚ)) :
    Fb (F64.mul a b) (K * (1 + 1 / 2 ^ 53) + 1 / 2) ∧ |U (F64.mul a b) - pq a.units b.units| ≤ K / 2 ^ 53 + 1 / 2 := by
  obtain ⟨p, e, h1, h2, h3, h4, h5, _⟩ := qb_prod fa fb hk h
  have : F64.mul a b = p := congrArg Prod.fst h1
  rw [this]
  refine ⟨h2, ?_⟩
  unfold U
  rw [h5, abs_sub_comm]
  refine (err_le _).trans ?_
  have : |pq a.units b.units| / 2 ^ 53 ≤ K / 2 ^ 53 := div_le_div_of_nonneg_right hk (by positivity)
  linarith

/-- `quick_two_sum` when the grid condition holds. -/
theorem qb_quick {a b : F64} {A B : ℚ} (fa : Fb a A) (fb : Fb b B) (hg : Grid a.units b.units) (h : A + B ≤ (lim : ℚ)) :
    ∃ s e, quickTwoSum a b = (s, e) ∧ Fb s ((A + B) * (1 + 1 / 2 ^ 53)) ∧ Fb e ((A + B) / 2 ^ 53) ∧
      U s + U e = U a + U b ∧ s.units = rs a.units b.units ∧ e.units = re a.units b.units := by
  have i := is_quickTwoSum fa.is fb.is hg (by
    have : ((|a.units| + |b.units| : ℤ) : ℚ) ≤ (lim : ℚ) := by
      push_cast
      exact le_trans (add_le_add fa.le fb.le) h
    exact_mod_cast this)
  obtain ⟨s, e, h1, h2, h3, h4, h5, h6⟩ := qb_two fa fb h
  have e1 : U (quickTwoSum a b).1 = U s := by rw [U_is i.1]; unfold U; rw [h5]
  have e2 : U (quickTwoSum a b).2 = U e := by rw [U_is i.2]; unfold U; rw [h6]
  refine ⟨(quickTwoSum a b).1, (quickTwoSum a b).2, rfl, ⟨i.1.1, by rw [e1]; exact h2.le⟩, ⟨i.2.1, by rw [e2]; exact h3.le⟩, by rw [e1, e2]; exact h4, i.1.2, i.2.2⟩

/-- `quick_two_sum` for any operands: what is lost is at most about a rounding error of the second operand. -/
theorem qb_quick_any {a b : F64} {A B : ℚ} (fa : Fb a A) (fb : Fb b B) (h : 4 * (A + B) ≤ (lim : ℚ)) :
    ∃ s e, quickTwoSum a b = (s, e) ∧ Fb s ((A + B) * (1 + 1 / 2 ^ 53)) ∧ Fb e ((A + B) / 2 ^ 53 + B * (101 / 100 / 2 ^ 53)) ∧
      |U s + U e - (U a + U b)| ≤ B * (101 / 100 / 2 ^ 53) := by
  have hA := fa.nonneg
  have hB := fb.nonneg
  by_cases hab : |b.units| ≤ |a.units|
  · obtain ⟨s, e, h1, h2, h3, h4, _, _⟩ := qb_quick fa fb (.of_abs_le fa.rep fb.rep hab) (by linarith)
    refine ⟨s, e, h1, h2, h3.mono ?_, ?_⟩
    · have : 0 ≤ B * (101 / 100 / 2 ^ 53) := by positivity
      linarith
    · rw [h4, sub_self, abs_zero]; positivity
  · have hab' : |U a| ≤ |U b| := by
      have : |a.units| ≤ |b.units| := by omega
      unfold U; exact_mod_cast this
    obtain ⟨h2, h3⟩ := qb_add fa fb (by linarith)
    set s := F64.add a b with hs
    have hbB := fb.le
    have haB := hab'.trans hbB
    -- sharper bound on the rounding error
    have h3' : |U s - (U a + U b)| ≤ (B + B) / 2 ^ 53 := by
      have fa' : Fb a B := ⟨fa.fin, haB⟩
      obtain ⟨s', e', g1, g2, g3, g4, _, _⟩ := qb_two fa' fb (by
        have : B ≤ A + B := by linarith
        by_cases hBA : B ≤ A
        · linarith
        · linarith)
      have : s = s' := congrArg Prod.fst g1
      rw [this]
      have : U s' - (U a + U b) = - U e' := by linarith
      rw [this]; exact ng g3.le
    have f3 := abs_le.mp h3'
    have fb1 := abs_le.mp hbB
    -- z
    have na : Fb (F64.neg a) A := fb_of_is fa.is.neg (by push_cast; exact ng fa.le)
    have una : U (F64.neg a) = - U a := by rw [U_is fa.is.neg]; push_cast; rfl
    have isub : Is (F64.sub s a) (rnd ((s.units - a.units : ℤ) : ℚ)) := h2.is.sub fa.is (by
      have : |((s.units - a.units : ℤ) : ℚ)| ≤ (omegaUnits : ℚ) := by
        push_cast
        refine limQ_le_omega ((abs_sub _ _).trans ?_)
        have := h2.le
        have := fa.le
        unfold U at *
        linarith
      exact_mod_cast this)
    have ez := err_int (s.units - a.units)
    have uz := U_is isub
    set z := F64.sub s a with hz
    rw [← uz] at ez
    push_cast at ez
    have hsa : |(s.units : ℚ) - a.units| ≤ B * (1 + 2 / 2 ^ 53) := by
      have : (s.units : ℚ) - a.units = U s - U a := rfl
      rw [this]
      exact abs_le.mpr ⟨by linarith, by linarith⟩
    have ez' : |(U s - U a) - U z| ≤ B * (1 + 2 / 2 ^ 53) / 2 ^ 53 :=
      ez.trans (div_le_div_of_nonneg_right hsa (by positivity))
    have f4 := abs_le.mp ez'
    have fz : |U b - U z| ≤ B * (301 / 100 / 2 ^ 53) := by
      refine abs_le.mpr ⟨by linarith, by linarith⟩
    have isub2 : Is (F64.sub b z) (rnd ((b.units - z.units : ℤ) : ℚ)) := fb.is.sub (Is.of_finite isub.1) (by
      have : |((b.units - z.units : ℤ) : ℚ)| ≤ (omegaUnits : ℚ) := by
        push_cast
        refine limQ_le_omega (fz.trans ?_)
        linarith
      exact_mod_cast this)
    have ee := err_int (b.units - z.units)
    have ue := U_is isub2
    rw [← ue] at ee
    push_cast at ee
    have ee' : |(U b - U z) - U (F64.sub b z)| ≤ B * (301 / 100 / 2 ^ 53) / 2 ^ 53 :=
      ee.trans (div_le_div_of_nonneg_right fz (by positivity))
    have f5 := abs_le.mp ee'
    have herr : |U s + U (F64.sub b z) - (U a + U b)| ≤ B * (101 / 100 / 2 ^ 53) :=
      abs_le.mpr ⟨by linarith, by linarith⟩
    refine ⟨s, F64.sub b z, rfl, h2, ⟨isub2.1, ?_⟩, herr⟩
    have f6 := abs_le.mp herr
    have f7 := abs_le.mp h3
    exact abs_le.mpr ⟨by linarith, by linarith⟩

/-- `three_three_sum` is exact. -/
theorem qb_three {a b c : F64} {A B C : ℚ} (fa : Fb a A) (fb : Fb b B) (fc : Fb c C)
    (h : 2 * (A + B + C) ≤ (lim : ℚ)) :
    ∃ s e1 e2, threeThreeSum a b c = (s, e1, e2) ∧ Fb s ((A + B + C) * (1 + 3 / 2 ^ 53)) ∧
      Fb e1 ((A + B + C) * (2 / 2 ^ 53 + 9 / 2 ^ 106)) ∧ Fb e2 ((A + B + C) * (2 / 2 ^ 106 + 9 / 2 ^ 159)) ∧
      U s + U e1 + U e2 = U a + U b + U c ∧ s.units = rs c.units (rs a.units b.units) := by
  have hA := fa.nonneg
  have hB := fb.nonneg
  have hC := fc.nonneg
  obtain ⟨u, v, h1, fu, fv, e1, u1, _⟩ := qb_two fa fb (by linarith)
  obtain ⟨s, w, h2, fs, fw, e2, u2, _⟩ := qb_two fc fu (by linarith)
  obtain ⟨x, y, h3, fx, fy, e3, _, _⟩ := qb_two fv fw (by linarith)
  refine ⟨s, x, y, ?_, fs.mono ?_, fx.mono ?_, fy.mono ?_, by linarith, by rw [u2, u1]⟩
  · unfold threeThreeSum
    rw [h1]; dsimp only
    rw [h2]; dsimp only
    rw [h3]
  · linarith
  · linarith
  · linarith

/-- `four_two_sum`: exact up to the roundings of the low parts. -/
theorem qb_four {a b c d : F64} {A B C D : ℚ} (fa : Fb a A) (fb : Fb b B) (fc : Fb c C) (fd : Fb d D)
    (h : 2 * (A + B + C + D) ≤ (lim : ℚ)) :
    ∃ s e, fourTwoSum a b c d = (s, e) ∧ Fb s ((A + C) * (1 + 1 / 2 ^ 53)) ∧
      Fb e (((A + C) / 2 ^ 53 + B + D) * (1 + 3 / 2 ^ 53)) ∧
      |U s + U e - (U a + U b + U c + U d)| ≤ ((A + C) / 2 ^ 53 + B + D) * (3 / 2 ^ 53) := by
  have hA := fa.nonneg
  have hB := fb.nonneg
  have hC := fc.nonneg
  have hD := fd.nonneg
  obtain ⟨s, v, h1, fs, fv, e1, _, _⟩ := qb_two fa fc (by linarith)
  obtain ⟨f2, e2⟩ := qb_add fv fb (by linarith)
  obtain ⟨f3, e3⟩ := qb_add f2 fd (by linarith)
  have e2 := abs_le.mp e2
  have e3 := abs_le.mp e3
  refine ⟨s, _, ?_, fs, f3.mono ?_, abs_le.mpr ⟨by linarith, by linarith⟩⟩
  · unfold fourTwoSum
    rw [h1]
  · linarith

end Verif
