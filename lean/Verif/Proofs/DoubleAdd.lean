import Verif.Spec
import Verif.Proofs.Prim

/-!
# Addition and subtraction of `Double`
-/

namespace Verif

open F64 Prim Util

/-- `d` has components `h` and `l` (in units). -/
def DIs (d : Double) (h l : ℤ) : Prop := Is d.hi h ∧ Is d.lo l

theorem DIs.neg {d : Double} {h l : ℤ} (i : DIs d h l) : DIs (-d) (-h) (-l) := ⟨i.1.neg, i.2.neg⟩

theorem DIs.unique {d : Double} {h l h' l' : ℤ} (i : DIs d h l) (i' : DIs d h' l') : h = h' ∧ l = l' :=
  ⟨i.1.unique i'.1, i.2.unique i'.2⟩

theorem DIs.val {d : Double} {h l : ℤ} (i : DIs d h l) : d.val = ((h + l : ℤ) : ℚ) / one' := by
  unfold Double.val
  rw [i.1.toRat, i.2.toRat]; push_cast; ring

theorem DIs.fin {d : Double} {h l : ℤ} (i : DIs d h l) : d.Fin := ⟨i.1.1, i.2.1⟩

theorem DIs.of_fin {d : Double} (h : d.Fin) : DIs d d.hi.units d.lo.units := ⟨Is.of_finite h.1, Is.of_finite h.2⟩

theorem Double.Normalized.norm2 {d : Double} (hn : d.Normalized) :
    ∃ h l, DIs d h l ∧ Norm2 h l := by
  obtain ⟨hf, he⟩ := hn
  have i := DIs.of_fin hf
  refine ⟨_, _, i, i.1.rep, i.2.rep, ?_⟩
  set h := d.hi.units
  set l := d.lo.units
  by_cases hlt : |rnd ((h + l : ℤ) : ℚ)| < ovf
  · exact ((i.1.add' i.2 hlt).eq_iff i.1).mp he
  · exfalso
    push Not at hlt
    obtain ⟨s, m, hm, e1, e1'⟩ := i.1.exists
    obtain ⟨t, n, hn', e2, e2'⟩ := i.2.exists
    have : ∃ b, F64.add d.hi d.lo = .inf b := by
      rw [e1, e2]
      unfold F64.add
      simp only []
      unfold ofSum
      have hr : ∀ (b : Bool) (N : ℕ), ((h + l : ℤ) : ℚ) = (if b then -1 else 1) * ((N : ℚ) / ((1:ℕ) : ℚ)) →
          ∃ b, ofRound b N 1 = .inf b := by
        intro b N hN
        exact ⟨b, ofRound_inf (by norm_num) hN hlt⟩
      split_ifs with h1 h2 h3
      · refine ⟨s, ofRound_inf (by norm_num) (q := ((h + l : ℤ) : ℚ)) ?_ hlt⟩
        rw [e1', e2', ← h1]
        cases s
        · simp
        · simp; ring
      · refine ⟨s, ofRound_inf (by norm_num) (q := ((h + l : ℤ) : ℚ)) ?_ hlt⟩
        rw [e1', e2', Nat.cast_sub h2.le]
        cases s <;> cases t <;> simp at h1 ⊢ <;> ring
      · refine ⟨t, ofRound_inf (by norm_num) (q := ((h + l : ℤ) : ℚ)) ?_ hlt⟩
        rw [e1', e2', Nat.cast_sub h3.le]
        cases s <;> cases t <;> simp at h1 ⊢ <;> ring
      · exfalso
        have hmn : m = n := by omega
        have : h + l = 0 := by
          rw [e1', e2', hmn]
          cases s <;> cases t <;> simp at h1 ⊢
        rw [this] at hlt
        simp [rnd_zero] at hlt
        have : 0 < ovf := by unfold ovf; exact Int.pow_pos (by norm_num)
        omega
    obtain ⟨b, hb⟩ := this
    rw [hb] at he
    have hl := i.1.lt
    rw [abs_lt] at hl
    unfold F64.eq at he
    rw [i.1.key] at he
    unfold F64.key at he
    change decide ((if b then -2 ^ 2098 else 2 ^ 2098) = h) = true at he
    rw [decide_eq_true_eq] at he
    unfold ovf at hl
    cases b
    · rw [if_neg (by simp)] at he; rw [← he] at hl; exact lt_irrefl _ hl.2
    · rw [if_pos rfl] at he; rw [← he] at hl; exact lt_irrefl _ hl.1

theorem Norm2.normalized {d : Double} {h l : ℤ} (i : DIs d h l) (hn : Norm2 h l) : d.Normalized := by
  refine ⟨i.fin, ?_⟩
  have hlt : |rnd ((h + l : ℤ) : ℚ)| < ovf := by rw [hn.rnd_eq]; exact i.1.lt
  exact ((i.1.add' i.2 hlt).eq_iff i.1).mpr hn.rnd_eq

theorem normalized_iff {d : Double} {h l : ℤ} (i : DIs d h l) : d.Normalized ↔ Norm2 h l := by
  constructor
  · intro hn
    obtain ⟨h', l', i', hn'⟩ := hn.norm2
    obtain ⟨rfl, rfl⟩ := i.unique i'
    exact hn'
  · exact fun hn => hn.normalized i

/-- Range for Double sums: `|a.hi| + |b.hi| ≤ 2^1023`. -/
@[irreducible] def lim2 : ℤ := 2 ^ 2097

theorem lim2_eq : lim2 = 9007199254740992 * quantum := by
  unfold lim2 quantum
  have : (2:ℤ) ^ 2097 = 2 ^ 53 * 2 ^ 2044 := by rw [← pow_add]
  rw [this]; norm_num

theorem preAdd_none {a b : Double} {xh yh : ℤ} (ha : Is a.hi xh) (hb : Is b.hi yh) : Double.preAdd a b = none := by
  unfold Double.preAdd Double.isNan Double.isInfinite
  rw [ha.not_nan, hb.not_nan, ha.not_inf, hb.not_inf]; simp

theorem preSub_none {a b : Double} {xh yh : ℤ} (ha : Is a.hi xh) (hb : Is b.hi yh) : Double.preSub a b = none := by
  unfold Double.preSub Double.isNan Double.isInfinite
  rw [ha.not_nan, hb.not_nan, ha.not_inf, hb.not_inf]; simp

theorem rs_abs_le {a b B : ℤ} (hB : Rep B) (h : |a + b| ≤ B) : |rs a b| ≤ B :=
  abs_rnd_le hB (by exact_mod_cast h)

/-- The common tail of addition and subtraction. -/
theorem is_addTailH {s0 e0 s1 e1 : F64} {xh xl yh yl : ℤ} (hx : Half2 xh xl) (hy : Half2 yh yl)
    (i0 : Is s0 (rs xh yh)) (j0 : Is e0 (re xh yh)) (i1 : Is s1 (rs xl yl)) (j1 : Is e1 (re xl yl))
    (hr : |xh| + |yh| ≤ lim2) :
    let p := quickTwoSum s0 (F64.add s1 e0)
    let z := renorm2 p.1 (F64.add e1 p.2)
    Is z.1 (rs (addVh xh xl yh yl) (addW xh xl yh yl)) ∧ Is z.2 (re (addVh xh xl yh yl) (addW xh xl yh yl)) := by
  intro p z
  have ok := addOkH hx hy
  rw [lim2_eq] at hr
  have hq := quantum_pos
  have bx := hx.lo_le
  have by' := hy.lo_le
  have n1 := abs_nonneg xl
  have n2 := abs_nonneg yl
  have t0 := abs_add_le xh yh
  have t1 := abs_add_le xl yl
  have b1 : 2 ^ 53 * |re xh yh| ≤ |xh + yh| := re_le _ _
  have b2 : 2 ^ 53 * |re xl yl| ≤ |xl + yl| := re_le _ _
  have t2 : |rs xl yl| ≤ |xl + yl| + |re xl yl| := by rw [← rs_add_re xl yl]; exact abs_tri _ _
  have t3 : |rs xh yh| ≤ |xh + yh| + |re xh yh| := by rw [← rs_add_re xh yh]; exact abs_tri _ _
  have t4 := abs_add_le (re xh yh) (rs xl yl)
  set c := addC xh xl yh yl with hc
  have b3 : 2 ^ 53 * |re (re xh yh) (rs xl yl)| ≤ |re xh yh + rs xl yl| := re_le _ _
  have t5 : |c| ≤ |re xh yh + rs xl yl| + |re (re xh yh) (rs xl yl)| := by
    rw [← rs_add_re (re xh yh) (rs xl yl)]; exact abs_tri _ _
  have n3 := abs_nonneg (re xh yh)
  have n4 := abs_nonneg (re xl yl)
  have n5 := abs_nonneg (re (re xh yh) (rs xl yl))
  have n6 := abs_nonneg (rs xh yh)
  norm_num at bx by' b1 b2 b3
  have ic : Is (F64.add s1 e0) c := by
    have := i1.add j0 (by rw [omega_eq, add_comm]; linarith)
    refine this.congr ?_
    change rs _ _ = rs _ _
    rw [rs_comm]
  have h2 := is_quickTwoSum i0 ic ok.grid1 (by rw [lim_eq]; linarith)
  have b4 : 2 ^ 53 * |addVl xh xl yh yl| ≤ |rs xh yh + c| := re_le _ _
  have t6 := abs_add_le (rs xh yh) c
  have t7 := abs_add_le (re xl yl) (addVl xh xl yh yl)
  have b5 : 2 ^ 53 * |re (re xl yl) (addVl xh xl yh yl)| ≤ |re xl yl + addVl xh xl yh yl| := re_le _ _
  have t8 : |addW xh xl yh yl| ≤ |re xl yl + addVl xh xl yh yl| + |re (re xl yl) (addVl xh xl yh yl)| := by
    rw [← rs_add_re (re xl yl) (addVl xh xl yh yl)]; exact abs_tri _ _
  have t9 : |addVh xh xl yh yl| ≤ |rs xh yh + c| + |addVl xh xl yh yl| := by
    rw [← rs_add_re (rs xh yh) c]; exact abs_tri _ _
  have n7 := abs_nonneg (addVl xh xl yh yl)
  have n8 := abs_nonneg (re (re xl yl) (addVl xh xl yh yl))
  norm_num at b4 b5
  have iw : Is (F64.add e1 p.2) (addW xh xl yh yl) := by
    have := j1.add h2.2 (by
      change |re xl yl + addVl xh xl yh yl| ≤ _
      rw [omega_eq]; linarith)
    exact this
  exact is_quickTwoSum h2.1 iw ok.grid2 (by rw [lim_eq]; linarith)

theorem norm2_addTailH {xh xl yh yl : ℤ} (hx : Half2 xh xl) (hy : Half2 yh yl) :
    Norm2 (rs (addVh xh xl yh yl) (addW xh xl yh yl)) (re (addVh xh xl yh yl) (addW xh xl yh yl)) :=
  norm2_rs_re' (re_of_grid (rep_rs _ _) (addOkH hx hy).grid2)

/-- Result of the addition algorithm in units. -/
theorem is_addH {a b : Double} {xh xl yh yl : ℤ} (ia : DIs a xh xl) (ib : DIs b yh yl) (hx : Half2 xh xl)
    (hy : Half2 yh yl) (hr : |xh| + |yh| ≤ lim2) :
    DIs (a + b) (rs (addVh xh xl yh yl) (addW xh xl yh yl)) (re (addVh xh xl yh yl) (addW xh xl yh yl)) := by
  have bx := hx.lo_le
  have by' := hy.lo_le
  have n1 := abs_nonneg xl
  have n2 := abs_nonneg yl
  norm_num at bx by'
  have hq := quantum_pos
  have hr' := hr
  rw [lim2_eq] at hr'
  have h0 := is_twoSum ia.1 ib.1 (by rw [lim_eq]; linarith)
  have h1 := is_twoSum ia.2 ib.2 (by rw [lim_eq]; linarith)
  have := is_addTailH hx hy h0.1 h0.2 h1.1 h1.2 hr
  change DIs (Double.add a b) _ _
  unfold Double.add
  rw [preAdd_none ia.1 ib.1]
  exact this

/-- Result of the subtraction algorithm in units: the same as adding the negated operand. -/
theorem is_subH {a b : Double} {xh xl yh yl : ℤ} (ia : DIs a xh xl) (ib : DIs b yh yl) (hx : Half2 xh xl)
    (hy : Half2 yh yl) (hr : |xh| + |yh| ≤ lim2) :
    DIs (a - b) (rs (addVh xh xl (-yh) (-yl)) (addW xh xl (-yh) (-yl)))
      (re (addVh xh xl (-yh) (-yl)) (addW xh xl (-yh) (-yl))) := by
  have bx := hx.lo_le
  have by' := hy.lo_le
  have n1 := abs_nonneg xl
  have n2 := abs_nonneg yl
  norm_num at bx by'
  have hq := quantum_pos
  have hr' := hr
  rw [lim2_eq] at hr'
  have h0 := is_twoDiff ia.1 ib.1 (by rw [lim_eq]; linarith)
  have h1 := is_twoDiff ia.2 ib.2 (by rw [lim_eq]; linarith)
  have := is_addTailH hx hy.swap_sign h0.1 h0.2 h1.1 h1.2 (by rw [abs_neg]; exact hr)
  change DIs (Double.sub a b) _ _
  unfold Double.sub
  rw [preSub_none ia.1 ib.1]
  exact this

/-- The result of an addition in units, with the error bound. -/
theorem add_specH {a b : Double} {xh xl yh yl : ℤ} (ia : DIs a xh xl) (ib : DIs b yh yl) (hx : Half2 xh xl)
    (hy : Half2 yh yl) (hr : |xh| + |yh| ≤ lim2) :
    ∃ zh zl, DIs (a + b) zh zl ∧ Norm2 zh zl ∧
      2 ^ 103 * |zh + zl - (xh + xl + (yh + yl))| ≤ |xh + xl + (yh + yl)| := by
  refine ⟨_, _, is_addH ia ib hx hy hr, norm2_addTailH hx hy, ?_⟩
  rw [rs_add_re]
  exact (addOkH hx hy).err

theorem sub_specH {a b : Double} {xh xl yh yl : ℤ} (ia : DIs a xh xl) (ib : DIs b yh yl) (hx : Half2 xh xl)
    (hy : Half2 yh yl) (hr : |xh| + |yh| ≤ lim2) :
    ∃ zh zl, DIs (a - b) zh zl ∧ Norm2 zh zl ∧
      2 ^ 103 * |zh + zl - (xh + xl - (yh + yl))| ≤ |xh + xl - (yh + yl)| := by
  refine ⟨_, _, is_subH ia ib hx hy hr, norm2_addTailH hx hy.swap_sign, ?_⟩
  rw [rs_add_re]
  have := (addOkH hx hy.swap_sign).err
  have e : xh + xl + (-yh + -yl) = xh + xl - (yh + yl) := by ring
  rwa [e] at this

theorem norm2_addTail {xh xl yh yl : ℤ} (hx : Norm2 xh xl) (hy : Norm2 yh yl) :
    Norm2 (rs (addVh xh xl yh yl) (addW xh xl yh yl)) (re (addVh xh xl yh yl) (addW xh xl yh yl)) :=
  norm2_addTailH hx.half hy.half

theorem is_add {a b : Double} {xh xl yh yl : ℤ} (ia : DIs a xh xl) (ib : DIs b yh yl) (hx : Norm2 xh xl)
    (hy : Norm2 yh yl) (hr : |xh| + |yh| ≤ lim2) :
    DIs (a + b) (rs (addVh xh xl yh yl) (addW xh xl yh yl)) (re (addVh xh xl yh yl) (addW xh xl yh yl)) :=
  is_addH ia ib hx.half hy.half hr

theorem is_sub {a b : Double} {xh xl yh yl : ℤ} (ia : DIs a xh xl) (ib : DIs b yh yl) (hx : Norm2 xh xl)
    (hy : Norm2 yh yl) (hr : |xh| + |yh| ≤ lim2) :
    DIs (a - b) (rs (addVh xh xl (-yh) (-yl)) (addW xh xl (-yh) (-yl)))
      (re (addVh xh xl (-yh) (-yl)) (addW xh xl (-yh) (-yl))) :=
  is_subH ia ib hx.half hy.half hr

theorem add_spec {a b : Double} {xh xl yh yl : ℤ} (ia : DIs a xh xl) (ib : DIs b yh yl) (hx : Norm2 xh xl)
    (hy : Norm2 yh yl) (hr : |xh| + |yh| ≤ lim2) :
    ∃ zh zl, DIs (a + b) zh zl ∧ Norm2 zh zl ∧
      2 ^ 103 * |zh + zl - (xh + xl + (yh + yl))| ≤ |xh + xl + (yh + yl)| := add_specH ia ib hx.half hy.half hr

theorem sub_spec {a b : Double} {xh xl yh yl : ℤ} (ia : DIs a xh xl) (ib : DIs b yh yl) (hx : Norm2 xh xl)
    (hy : Norm2 yh yl) (hr : |xh| + |yh| ≤ lim2) :
    ∃ zh zl, DIs (a - b) zh zl ∧ Norm2 zh zl ∧
      2 ^ 103 * |zh + zl - (xh + xl - (yh + yl))| ≤ |xh + xl - (yh + yl)| := sub_specH ia ib hx.half hy.half hr

end Verif
