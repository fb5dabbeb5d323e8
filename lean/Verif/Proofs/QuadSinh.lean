import Verif.Proofs.QuadHyper
import Verif.Props.QuadFromFloat
import Verif.Proofs.HyperLoop

/-!
# The series of `sinh` for Quads
-/

namespace Verif

open F64 Prim Util Quad Consts

/-- The values `1, 3, 5, …` of the counter of the loop of `sinh`. -/
def oddF : ℕ → F64
  | 0 => F64.ofDec false 1 0
  | k + 1 => F64.add (oddF k) Double.two

/-- Its divisors `2 * 3, 4 * 5, …`. -/
def divF (k : ℕ) : F64 := F64.mul (F64.sub (oddF (k + 1)) (F64.ofDec false 1 0)) (oddF (k + 1))

theorem divF_val : ∀ k < 20, (divF k).isFinite = true ∧ (divF k).units = (((2 * k + 2) * (2 * k + 3) : ℕ) : ℤ) * one' ∧
    F64.eq (divF k) F64.zero = false ∧ F64.eq (F64.fract (divF k)) F64.zero = true := by
  decide +kernel

theorem qa_divF (P : Platform) {k : ℕ} (hk : k < 20) : ∃ d, Quad.ofF64 P (divF k) = some d ∧
    QA d ((2 * k + 2) * (2 * k + 3)) 0 ((2 * k + 2) * (2 * k + 3)) := by
  obtain ⟨h1, h2, h3, h4⟩ := divF_val k hk
  refine ⟨_, (C80_quad_special P (divF k)).2.2.2.2.2 h1 h3 h4, ?_⟩
  have h5 : Is (divF k) ((((2 * k + 2) * (2 * k + 3) : ℕ) : ℤ) * one') := ⟨h1, h2⟩
  have := qa_int h5
  push_cast at this
  rw [abs_of_pos (by positivity)] at this
  exact this

theorem quad_le_of_lt {a b : Quad} (fa : a.c0.isFinite = true) (fb : b.c0.isFinite = true) (h : fr a.c0 < fr b.c0) : Quad.le a b = true := by
  have key := (Is.of_finite fa).partialCmp (Is.of_finite fb)
  have hu : a.c0.units < b.c0.units := by
    rw [fr_is (Is.of_finite fa), fr_is (Is.of_finite fb)] at h
    have hp : (0:ℝ) < (one' : ℝ) := by exact_mod_cast one'_pos
    rw [div_lt_div_iff_of_pos_right hp] at h
    exact_mod_cast h
  have : compare a.c0.units b.c0.units = .lt := by rw [compare_lt_iff_lt]; exact hu
  rw [this] at key
  unfold Quad.le Quad.partialCmp
  rw [key]
  rfl


/-- The terms of the series. -/
noncomputable def sinhT (x : ℝ) (k : ℕ) : ℝ := x * (x ^ 2) ^ k / ((2 * k + 1).factorial : ℝ)

theorem sinhT_succ (x : ℝ) (k : ℕ) : sinhT x (k + 1) = sinhT x k * x ^ 2 / ((2 * k + 2) * (2 * k + 3)) := by
  unfold sinhT
  have f0 : ((2 * k + 1).factorial : ℝ) ≠ 0 := by exact_mod_cast Nat.factorial_ne_zero _
  rw [show 2 * (k + 1) + 1 = (2 * k + 1) + 1 + 1 by ring, Nat.factorial_succ, Nat.factorial_succ]
  push_cast
  field_simp
  ring

theorem sinhT_le {x : ℝ} (h : x ^ 2 ≤ 27 / 10000) (k : ℕ) : |sinhT x k| ≤ |x| * (1 / 2048) ^ k := by
  induction k with
  | zero => unfold sinhT; simp
  | succ k ih =>
    rw [sinhT_succ, abs_div, abs_mul, abs_of_nonneg (sq_nonneg x), abs_of_pos (show (0:ℝ) < (2 * k + 2) * (2 * k + 3) by positivity),
      pow_succ (1 / 2048 : ℝ), ← mul_assoc]
    rw [div_le_iff₀ (by positivity)]
    have hd : (6:ℝ) ≤ (2 * k + 2) * (2 * k + 3) := by
      have : (0:ℝ) ≤ k := Nat.cast_nonneg k
      nlinarith
    have h1 : |sinhT x k| * x ^ 2 ≤ |x| * (1 / 2048) ^ k * (27 / 10000) := mul_le_mul ih h (sq_nonneg _) (by positivity)
    refine h1.trans ?_
    have h2 : |x| * (1 / 2048) ^ k * (1 / 2048) * 6 ≤ |x| * (1 / 2048) ^ k * (1 / 2048) * ((2 * k + 2) * (2 * k + 3)) :=
      mul_le_mul_of_nonneg_left hd (by positivity)
    refine le_trans ?_ h2
    have : 0 ≤ |x| * (1 / 2048) ^ k := by positivity
    linarith

theorem sinhS_le {x : ℝ} (h : x ^ 2 ≤ 27 / 10000) (k : ℕ) : |SS x (x ^ 2) 1 k| ≤ |x| * (1001 / 1000 - (1 / 2048) ^ k / 2000) := by
  induction k with
  | zero =>
    unfold SS; simp
    have := abs_nonneg x
    linarith
  | succ k ih =>
    rw [SS_succ]
    refine (abs_add_le _ _).trans ((add_le_add ih (sinhT_le h (k + 1))).trans ?_)
    rw [← mul_add]
    refine mul_le_mul_of_nonneg_left ?_ (abs_nonneg x)
    rw [pow_succ]
    have : (0:ℝ) ≤ (1 / 2048) ^ k := by positivity
    linarith

theorem sinhS_le' {x : ℝ} (h : x ^ 2 ≤ 27 / 10000) (k : ℕ) : |SS x (x ^ 2) 1 k| ≤ |x| * (1001 / 1000) := by
  refine (sinhS_le h k).trans (mul_le_mul_of_nonneg_left ?_ (abs_nonneg x))
  have : (0:ℝ) ≤ (1 / 2048) ^ k := by positivity
  linarith

/-- One term of the loop. -/
theorem qsinh_term {t r d : Quad} {p y u D : ℝ} (hu : 1 ≤ u * (2 ^ 190 * 2 ^ 190 * (2 ^ 190 * 2 ^ 210)))
    (hu1 : u ≤ 1) (ht : QA t p (u / 2 ^ 120) (u * (1001 / 1000)))
    (hp : |p| ≤ u) (hr : QA r y (1 / 2 ^ 145) (1 / 350)) (hy : |y| ≤ 27 / 10000) (hd : QA d D 0 D) (hD : 6 ≤ D) (hD2 : D ≤ 2000) :
    QA (t * r / d) (p * y / D) (u * (1 / 2048) / 2 ^ 120) (u * (1 / 2048) * (1001 / 1000)) := by
  have hu0 : 0 < u := by
    by_contra hc
    have := mul_nonpos_of_nonpos_of_nonneg (not_lt.mp hc) (show (0:ℝ) ≤ 2 ^ 190 * 2 ^ 190 * (2 ^ 190 * 2 ^ 210) by positivity)
    exact absurd (hu.trans this) (by norm_num)
  have hpy : |p| * |y| ≤ u * (27 / 10000) := by exact mul_le_mul hp hy (abs_nonneg _) hu0.le
  have hq : |p * y / D| ≤ u * (27 / 10000) / 6 := by
    rw [abs_div, abs_mul, abs_of_pos (show 0 < D by linarith)]
    exact div_le_div₀ (by positivity) hpy (by norm_num) hD
  have y0 := abs_nonneg y
  have hh : (2:ℝ) ^ 20 ≤ u * hugeQ := by
    have h1 : (2:ℝ) ^ 190 * 2 ^ 190 * (2 ^ 190 * 2 ^ 210) * 2 ^ 20 ≤ hugeQ := by
      have : (2:ℚ) ^ 190 * 2 ^ 190 * (2 ^ 190 * 2 ^ 210) * 2 ^ 20 ≤ hugeQ := by rw [hugeQ_eq]; norm_num
      exact_mod_cast this
    have h2 := mul_le_mul_of_nonneg_left h1 hu0.le
    have h3 := mul_le_mul_of_nonneg_right hu (show (0:ℝ) ≤ 2 ^ 20 by positivity)
    rw [one_mul, mul_assoc u] at h3
    exact h3.trans h2
  have hh2 : (1:ℝ) ≤ hugeQ := by
    have : (1:ℚ) ≤ hugeQ := by rw [hugeQ_eq]; norm_num
    exact_mod_cast this
  have hm := ht.mulW hr (W := u * (2701 / 1000000)) (g := u * (2701 / 1000000 / 2 ^ 120)) (by positivity) (by norm_num)
    (by
      have h1 : (2:ℝ) ^ 190 * 2 ^ 190 * (2 ^ 190 * 2 ^ 210) ≤ 1001 / 1000 * (1 / 350) * (2 ^ 210 * 2 ^ 210 * (2 ^ 210 * 2 ^ 210)) := by
        norm_num
      have h2 := hu.trans (mul_le_mul_of_nonneg_left h1 hu0.le)
      rwa [← mul_assoc, ← mul_assoc u] at h2) (by clear hu hh hh2; norm_num; linarith)
    (by
      have h1 : |p| * (1 / 2 ^ 145) ≤ u * (1 / 2 ^ 145) := mul_le_mul_of_nonneg_right hp (by positivity)
      have h2 : |y| * (u / 2 ^ 120) ≤ 27 / 10000 * (u / 2 ^ 120) := mul_le_mul_of_nonneg_right hy (by positivity)
      clear hu hh hh2
      norm_num at h1 h2 ⊢; linarith)
    (by clear hu hh hh2; norm_num; linarith) (by clear hu hh hh2; rw [abs_mul]; norm_num; linarith)
  clear hu
  have e6 : u * (1 / 2048) * 6 ≤ u * (1 / 2048) * D := mul_le_mul_of_nonneg_left hD (by positivity)
  refine hm.div hd (L := D) (by linarith) (by rw [abs_of_pos (by linarith)]; simp) (by linarith)
    (by norm_num at hh ⊢; linarith) (by norm_num; linarith) (by norm_num at hh ⊢; linarith)
    ?_ (by norm_num at e6 ⊢; linarith) (by norm_num at e6 ⊢; linarith)
  have h3 : D * 1 ≤ D * hugeQ := mul_le_mul_of_nonneg_left hh2 (by linarith)
  linarith

theorem pow_2048 (k : ℕ) (hk : k ≤ 19) : (1:ℝ) / 2 ^ 209 ≤ (1 / 2048) ^ k := by
  have h := pow_le_pow_of_le_one (show (0:ℝ) ≤ 1 / 2048 by norm_num) (by norm_num) hk
  refine le_trans (le_of_eq ?_) h
  norm_num

theorem sz_c0_le {q : Quad} {X : ℝ} (h : SZ q X) : |fr q.c0| ≤ X := by
  obtain ⟨Y, h1, h2, h3⟩ := h
  refine le_trans ?_ h1
  have oR := one'_posR
  unfold fr
  rw [toRat_U h2.f0]
  push_cast at oR ⊢
  rw [abs_div, abs_of_pos oR, div_le_iff₀ oR]
  exact_mod_cast h3

/-- The loop of `sinh`. -/
theorem qsinhLoop_qa (P : Platform) {x : ℝ} {r thr : Quad} (lo : 1 ≤ |x| * (2 ^ 190 * 2 ^ 190 * 2 ^ 190)) (hx : |x| ≤ 51 / 1000)
    (hr : QA r (x ^ 2) (1 / 2 ^ 145) (1 / 350)) (fthr : thr.c0.isFinite = true) (thr1 : |x| / 2 ^ 210 ≤ fr thr.c0)
    (thr2 : fr thr.c0 ≤ |x| / 2 ^ 208) :
    ∀ (j k : ℕ) (t s : Quad), k + j = 20 → 1 ≤ j →
      QA t (sinhT x k) (|x| * (1 / 2048) ^ k / 2 ^ 120) (|x| * (1 / 2048) ^ k * (1001 / 1000)) →
      QA s (SS x (x ^ 2) 1 k) (|x| * (k * (12 / 10 / 2 ^ 128))) (|x| * (1002 / 1000)) →
      ∀ fuel, j ≤ fuel → ∃ v, Quad.sinhLoop P r thr fuel (oddF k) t s = some v ∧
        QA v (Real.sinh x) (|x| * (61 / 10 / 2 ^ 126)) (|x| * (1002 / 1000)) := by
  have x20 : x ^ 2 ≤ 27 / 10000 := by rw [← sq_abs]; exact (pow_le_pow_left₀ (abs_nonneg _) hx 2).trans (by norm_num)
  have b0 := abs_nonneg x
  intro j
  induction j with
  | zero => intro k t s _ h; omega
  | succ j ih =>
    intro k t s hk _ ht hs fuel hf
    obtain ⟨fuel, rfl⟩ : ∃ f, fuel = f + 1 := ⟨fuel - 1, by omega⟩
    obtain ⟨d, hd, qd⟩ := qa_divF P (show k < 20 by omega)
    have hk0 : (0:ℝ) ≤ k := Nat.cast_nonneg k
    have hk19 : (k:ℝ) ≤ 19 := by exact_mod_cast (show k ≤ 19 by omega)
    have u1 : (1 / 2048 : ℝ) ^ k ≤ 1 := pow_le_one₀ (by norm_num) (by norm_num)
    have u0 : (0:ℝ) < (1 / 2048 : ℝ) ^ k := by positivity
    have hu1 : |x| * (1 / 2048) ^ k ≤ |x| * 1 := mul_le_mul_of_nonneg_left u1 b0
    have ht' := qsinh_term (D := (2 * k + 2) * (2 * k + 3)) (by
        have h2 := pow_2048 k (by omega)
        have h3 := mul_le_mul lo h2 (by positivity) (by positivity)
        have h4 : (1:ℝ) / 2 ^ 209 * (2 ^ 210) ≤ |x| * (1 / 2048) ^ k * (2 ^ 190 * 2 ^ 190 * 2 ^ 190) * 2 ^ 210 := by
          refine mul_le_mul_of_nonneg_right ?_ (by positivity)
          refine (le_of_eq (one_mul _).symm).trans (h3.trans (le_of_eq ?_))
          ring
        have h5 : |x| * (1 / 2048) ^ k * (2 ^ 190 * 2 ^ 190 * 2 ^ 190) * 2 ^ 210 = |x| * (1 / 2048) ^ k * (2 ^ 190 * 2 ^ 190 * (2 ^ 190 * 2 ^ 210)) := by
          ring
        rw [h5] at h4
        exact le_trans (by norm_num) h4) (by linarith) ht (sinhT_le x20 k) hr (by rw [abs_of_nonneg (sq_nonneg x)]; exact x20) qd
      (by nlinarith) (by nlinarith)
    rw [← sinhT_succ, mul_assoc (|x|), ← pow_succ] at ht'
    have u0' : (0:ℝ) < (1 / 2048 : ℝ) ^ (k + 1) := by positivity
    have u1' : |x| * (1 / 2048 : ℝ) ^ (k + 1) ≤ |x| * (1 / 2048) := by
      refine mul_le_mul_of_nonneg_left ?_ b0
      rw [pow_succ]; linarith
    have hs' := hs.add ht' (Z := |x| * (1002 / 1000)) (W := |x| * (1002 / 1000)) (g := |x| * (((k + 1 : ℕ) : ℝ) * (12 / 10 / 2 ^ 128))) le_rfl
      (by linarith) (by norm_num; linarith) (by clear lo; push_cast; norm_num; linarith) (by linarith) (by
        have h3 := sinhS_le' x20 (k + 1)
        rw [SS_succ] at h3
        change |SS x (x ^ 2) 1 k + sinhT x (k + 1)| ≤ _ at h3
        have h4 : |x| * ((k:ℝ) + 1) ≤ |x| * 20 := mul_le_mul_of_nonneg_left (by linarith) b0
        clear lo
        push_cast
        norm_num; linarith)
    have e3 : SS x (x ^ 2) 1 k + sinhT x (k + 1) = SS x (x ^ 2) 1 (k + 1) := (SS_succ x (x ^ 2) 1 k).symm
    rw [e3] at hs'
    have eq1 : F64.mul (F64.sub (F64.add (oddF k) Double.two) (ofDec false 1 0)) (F64.add (oddF k) Double.two) = divF k := rfl
    conv => enter [1, v, 1, 1]; unfold Quad.sinhLoop
    dsimp only
    rw [eq1, hd]
    dsimp only
    generalize t * r / d = t' at *
    obtain ⟨ft, ct⟩ := sz_sub_c0 ht'.sz
    obtain ⟨fa, ua⟩ := abs_head ft
    have hfa : fr t'.abs.c0 = |fr t'.c0| := by
      have oR := one'_posR
      unfold fr
      rw [toRat_U fa, toRat_U ft, ua]
      push_cast at oR ⊢
      rw [abs_div, abs_of_pos oR]
    split_ifs with hc
    · refine ⟨_, rfl, ?_⟩
      have h1 := le_head hc fa fthr
      have h2 : |fr t'.c0| ≤ fr thr.c0 := by
        rw [← hfa]
        have oR := one'_posR
        unfold fr
        rw [toRat_U fa, toRat_U fthr]
        push_cast at oR ⊢
        refine div_le_div_of_nonneg_right ?_ oR.le
        exact_mod_cast h1
      have hrem := sinh_rem (A := x) (by linarith) (k + 1)
      change _ ≤ |sinhT x (k + 1)| * x ^ 2 * 2 at hrem
      have h3 : |sinhT x (k + 1)| ≤ |x| / 2 ^ 128 := by
        have e1 := ht'.err
        have e2 := abs_sub_abs_le_abs_sub (sinhT x (k + 1)) (qv t')
        rw [abs_sub_comm] at e2
        have e3 := abs_sub_abs_le_abs_sub (qv t') (fr t'.c0)
        clear lo
        norm_num at *; linarith
      have h4 : |sinhT x (k + 1)| * x ^ 2 ≤ |x| / 2 ^ 128 * (27 / 10000) := mul_le_mul h3 x20 (sq_nonneg _) (div_nonneg b0 (by norm_num))
      rw [abs_sub_comm] at hrem
      refine (hs'.move hrem).mono ?_ le_rfl
      have h5 : |x| * ((k:ℝ) + 1) ≤ |x| * 20 := mul_le_mul_of_nonneg_left (by linarith) b0
      clear lo
      push_cast
      norm_num at h4 h5 ⊢; linarith
    · have hj : 1 ≤ j := by
        by_contra hj
        apply hc
        have h19 : k = 19 := by omega
        subst h19
        apply quad_le_of_lt fa fthr
        rw [hfa]
        refine lt_of_le_of_lt (sz_c0_le ht'.sz) (lt_of_lt_of_le ?_ thr1)
        have hxp : 0 < |x| := by
          by_contra hc
          have h0 : |x| = 0 := le_antisymm (not_lt.mp hc) b0
          rw [h0, zero_mul] at lo; norm_num at lo
        clear lo
        norm_num; linarith
      exact ih (k + 1) t' _ (by omega) hj ht' hs' fuel (by omega)

end Verif
