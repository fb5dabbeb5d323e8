import Verif.Proofs.QuadRel
import Verif.Proofs.QuadTaylor

/-!
# Relative errors of Quad products and powers of numbers that need not be normalized

As in `QuadRel`, with a wider bound of the size, so that results of sums and conversions qualify.
-/

namespace Verif

/-- Approximation with a relative error and a wider bound of the size. -/
def QT (q : Quad) (x k : ℝ) : Prop := QA q x (|x| * (k / 2 ^ 137)) (|x| * (21 / 20))

theorem QT.mono {q : Quad} {x k k' : ℝ} (h : QT q x k) (hk : k ≤ k') : QT q x k' :=
  QA.mono h (mul_le_mul_of_nonneg_left (div_le_div_of_nonneg_right hk (by positivity)) (abs_nonneg _)) le_rfl

theorem QT.one : QT Quad.ONE 1 0 := by
  unfold QT
  exact qa_one.mono (by norm_num) (by norm_num)

theorem QT.norm {a : Quad} (h : a.Normalized) : QT a (qv a) 0 := by
  unfold QT
  refine (qord_norm h).exact.mono (by simp) ?_
  exact mul_le_mul_of_nonneg_left (by norm_num) (abs_nonneg _)

/-- A product. -/
theorem QT.mul {a b : Quad} {x y k j : ℝ} (ha : QT a x k) (hb : QT b y j) (hx : x ≠ 0) (hy : y ≠ 0)
    (l : 1 ≤ |x * y| * (2 ^ 210 * 2 ^ 210 * (2 ^ 210 * 2 ^ 210))) (u : |x * y| ≤ 2 ^ 225 * 2 ^ 225 * 2 ^ 225 * 2 ^ 224)
    (k1 : k ≤ 2 ^ 60) (j0 : 0 ≤ j) (j1 : j ≤ 2 ^ 60) : QT (a * b) (x * y) (k + j + 1 / 2) := by
  have px : 0 < |x| := abs_pos.mpr hx
  have py : 0 < |y| := abs_pos.mpr hy
  have hm : |x * y| = |x| * |y| := abs_mul x y
  have hkj : k * j ≤ 2 ^ 60 * 2 ^ 60 := mul_le_mul k1 j1 j0 (by positivity)
  have p0 : 0 < |x| * |y| := mul_pos px py
  unfold QT at *
  have eX : |x| * (21 / 20) * (|y| * (21 / 20)) = |x| * |y| * (441 / 400) := by ring
  rw [hm] at l u ⊢
  have hq : |x| * |y| * ((k + j + 1 / 2) / 2 ^ 137) ≤ |x| * |y| * (1 / 2 ^ 70) := by
    refine mul_le_mul_of_nonneg_left ?_ p0.le
    norm_num at k1 j1 ⊢; linarith
  have hr : |x| * |y| * (k * j / 2 ^ 137 / 2 ^ 137) ≤ |x| * |y| * (1 / 2 ^ 150) := by
    refine mul_le_mul_of_nonneg_left ?_ p0.le
    norm_num at hkj ⊢; linarith
  refine ha.mulW hb (mul_pos px (by norm_num)) (mul_pos py (by norm_num)) ?_ ?_ ?_ ?_ ?_
  · rw [eX]
    generalize |x| * |y| = p at *
    norm_num at l ⊢; linarith
  · rw [eX]
    generalize |x| * |y| = p at *
    norm_num at u ⊢; linarith
  · rw [eX]
    have e : |x| * (|y| * (j / 2 ^ 137)) + |y| * (|x| * (k / 2 ^ 137)) + |x| * (k / 2 ^ 137) * (|y| * (j / 2 ^ 137)) =
      |x| * |y| * ((k + j) / 2 ^ 137) + |x| * |y| * (k * j / 2 ^ 137 / 2 ^ 137) := by ring
    have e2 : |x| * |y| * ((k + j + 1 / 2) / 2 ^ 137) = |x| * |y| * ((k + j) / 2 ^ 137) + |x| * |y| * (1 / 2 / 2 ^ 137) := by ring
    rw [e, e2]
    generalize |x| * |y| * ((k + j) / 2 ^ 137) = v at *
    generalize |x| * |y| * (k * j / 2 ^ 137 / 2 ^ 137) = w at *
    generalize |x| * |y| = p at *
    clear l u hq
    norm_num at hr ⊢; linarith
  · rw [eX]
    generalize |x| * |y| = p at *
    linarith
  · rw [eX, hm]
    generalize |x| * |y| * ((k + j + 1 / 2) / 2 ^ 137) = v at *
    generalize |x| * |y| = p at *
    clear l u
    norm_num at hq ⊢; linarith

/-- A square. -/
theorem QT.sqr {a : Quad} {x k : ℝ} (ha : QT a x k) (hx : x ≠ 0)
    (l : 1 ≤ |x| * (2 ^ 210 * 2 ^ 210)) (u : |x| ≤ 2 ^ 225 * 2 ^ 224)
    (k0 : 0 ≤ k) (k1 : k ≤ 2 ^ 60) : QT a.sqr (x ^ 2) (k + k + 1 / 2) := by
  have px : 0 < |x| := abs_pos.mpr hx
  have hm : |x ^ 2| = |x| * |x| := by rw [abs_pow, sq]
  have hm2 : x ^ 2 = |x| * |x| := by rw [← hm, abs_of_nonneg (sq_nonneg _)]
  have hkj : k * k ≤ 2 ^ 60 * 2 ^ 60 := mul_le_mul k1 k1 k0 (by positivity)
  have p0 : 0 < |x| * |x| := mul_pos px px
  unfold QT at *
  have eX : |x| * (21 / 20) * (|x| * (21 / 20)) = |x| * |x| * (441 / 400) := by ring
  rw [hm]
  have hq : |x| * |x| * ((k + k + 1 / 2) / 2 ^ 137) ≤ |x| * |x| * (1 / 2 ^ 70) := by
    refine mul_le_mul_of_nonneg_left ?_ p0.le
    norm_num at k1 ⊢; linarith
  have hr : |x| * |x| * (k * k / 2 ^ 137 / 2 ^ 137) ≤ |x| * |x| * (1 / 2 ^ 150) := by
    refine mul_le_mul_of_nonneg_left ?_ p0.le
    norm_num at hkj ⊢; linarith
  refine ha.sqr ?_ ?_ ?_ ?_ ?_
  · norm_num at l ⊢; linarith
  · norm_num at u ⊢; linarith
  · rw [eX]
    have e : 2 * |x| * (|x| * (k / 2 ^ 137)) + |x| * (k / 2 ^ 137) * (|x| * (k / 2 ^ 137)) =
      |x| * |x| * ((k + k) / 2 ^ 137) + |x| * |x| * (k * k / 2 ^ 137 / 2 ^ 137) := by ring
    have e2 : |x| * |x| * ((k + k + 1 / 2) / 2 ^ 137) = |x| * |x| * ((k + k) / 2 ^ 137) + |x| * |x| * (1 / 2 / 2 ^ 137) := by ring
    rw [e, e2]
    generalize |x| * |x| * ((k + k) / 2 ^ 137) = v at *
    generalize |x| * |x| * (k * k / 2 ^ 137 / 2 ^ 137) = w at *
    generalize |x| * |x| = p at *
    clear l u hq
    norm_num at hr ⊢; linarith
  · rw [eX]
    generalize |x| * |x| = p at *
    linarith
  · rw [eX, hm2]
    generalize |x| * |x| * ((k + k + 1 / 2) / 2 ^ 137) = v at *
    generalize |x| * |x| = p at *
    clear l u
    norm_num at hq ⊢; linarith

/-- Positive powers. -/
theorem qpowi_posW {a : Quad} (ha : QT a (qv a) 0) {n : ℕ} (hn : 0 < n) (hn2 : n < 2 ^ 31) (h0 : qv a ≠ 0)
    (h1 : 1 ≤ |qv a| ^ n * (2 ^ 210 * 2 ^ 210 * (2 ^ 210 * 2 ^ 205))) (h2 : |qv a| ^ n ≤ 2 ^ 225 * 2 ^ 225 * 2 ^ 225 * 2 ^ 220) :
    QT (quadPowiPos a n) (qv a ^ n) (n / 2) := by
  unfold quadPowiPos
  split_ifs with h
  · have hp := abs_pos.mpr h0
    have h1' : 1 / (2 ^ 210 * 2 ^ 210 * (2 ^ 210 * 2 ^ 205)) ≤ |qv a| ^ n := by rw [div_le_iff₀ (by positivity)]; exact h1
    have rng : ∀ j ≤ n, _ := fun j hj => pow_between (x := |qv a|) hj (by norm_num) (by norm_num) hp.le h1' h2
    have hn3 : (n : ℝ) ≤ 2 ^ 31 := by exact_mod_cast hn2.le
    refine qpowiLoop_ind (P := fun q k => 0 < k ∧ QT q (qv a ^ k) ((k - 1) / 2)) (Q := fun q k => QT q (qv a ^ k) (k / 2)) (n := n) ?_ ?_
      n n a Quad.ONE 0 1 le_rfl (by simpa using QT.one) ⟨one_pos, by simpa using ha⟩ (by ring)
    · rintro r k ⟨hk, hr⟩ hkn
      refine ⟨by omega, ?_⟩
      have hk1 : (1:ℝ) ≤ k := by exact_mod_cast hk
      have hk2 : (k : ℝ) ≤ 2 ^ 31 := by exact_mod_cast (by omega : k ≤ 2 ^ 31)
      obtain ⟨r1, r2⟩ := rng (2 * k) hkn
      rw [pow_mul', sq] at r1 r2
      have hpk : 0 < |qv a| ^ k := pow_pos hp k
      have := hr.sqr (pow_ne_zero k h0) (by
          rw [abs_pow]
          by_contra hc
          have hc := (not_le.mp hc).le
          have hd : |qv a| ^ k ≤ 1 / (2 ^ 210 * 2 ^ 210) := by rw [le_div_iff₀ (by positivity)]; exact hc
          have := mul_le_mul hd hd hpk.le (by positivity)
          have := r1.trans this
          norm_num at this) (by
          rw [abs_pow]
          by_contra hc
          have hc := (not_le.mp hc).le
          have := mul_le_mul hc hc (by positivity) hpk.le
          have := this.trans r2
          norm_num at this) (by linarith) (by linarith)
      rw [pow_mul']
      refine this.mono ?_
      push_cast; linarith
    · rintro s r j k hs ⟨hk, hr⟩ hjk
      obtain ⟨r1, r2⟩ := rng (j + k) hjk
      have hk1 : (1:ℝ) ≤ k := by exact_mod_cast hk
      have hj0 : (0:ℝ) ≤ j := Nat.cast_nonneg j
      have hk2 : (k : ℝ) ≤ 2 ^ 31 := by exact_mod_cast (by omega : k ≤ 2 ^ 31)
      have hj2 : (j : ℝ) ≤ 2 ^ 31 := by exact_mod_cast (by omega : j ≤ 2 ^ 31)
      have := hs.mul hr (pow_ne_zero j h0) (pow_ne_zero k h0) (by
          rw [← pow_add, abs_pow]
          norm_num at r1 ⊢; linarith) (by
          rw [← pow_add, abs_pow]
          norm_num at r2 ⊢; linarith) (by linarith) (by linarith) (by linarith)
      rw [pow_add]
      refine this.mono ?_
      push_cast; linarith
  · obtain rfl : n = 1 := by omega
    rw [pow_one]
    exact ha.mono (by norm_num)

/-- The reciprocal. -/
theorem QT.recip {a : Quad} {x k : ℝ} (ha : QT a x k) (hx : x ≠ 0) (l : 1 ≤ |x| * (2 ^ 190 * 2 ^ 190 * (2 ^ 190 * 2 ^ 190)))
    (u : |x| ≤ 2 ^ 190 * 2 ^ 190 * (2 ^ 190 * 2 ^ 190)) (k0 : 0 ≤ k) (k1 : k ≤ 2 ^ 60) :
    QT a.recip (1 / x) (k + 1025) := by
  have px : 0 < |x| := abs_pos.mpr hx
  unfold QT at *
  have hh : (2:ℝ) ^ 190 * 2 ^ 190 * (2 ^ 190 * 2 ^ 190) * 2 ^ 20 ≤ (hugeQ : ℝ) := by
    have : (2:ℚ) ^ 190 * 2 ^ 190 * (2 ^ 190 * 2 ^ 190) * 2 ^ 20 ≤ hugeQ := by rw [hugeQ_eq]; norm_num
    exact_mod_cast this
  have e0 : |1 / x| = 1 / |x| := by rw [abs_div, abs_one]
  rw [e0]
  have hk : |x| * (k / 2 ^ 137) ≤ |x| * (1 / 2 ^ 77) := by
    refine mul_le_mul_of_nonneg_left ?_ px.le
    norm_num at k1 ⊢; linarith
  have hlow2 : |x| * (2 ^ 190 * 2 ^ 190 * (2 ^ 190 * 2 ^ 190) * 2 ^ 20) ≤ |x| * hugeQ := mul_le_mul_of_nonneg_left hh px.le
  unfold Quad.recip
  generalize (2:ℝ) ^ 190 * 2 ^ 190 * (2 ^ 190 * 2 ^ 190) = H at *
  refine qa_one.div ha (L := |x| * (1 - 1 / 2 ^ 76)) ?_ ?_ ?_ ?_ ?_ ?_ ?_ ?_ ?_
  · exact mul_pos px (by norm_num)
  · norm_num at hk ⊢; linarith
  · norm_num; linarith
  · exact huge_le (by norm_num) (by norm_num)
  · norm_num
  · rw [one_mul]
    have h6 : (0:ℝ) ≤ (hugeQ : ℝ) := by exact_mod_cast hugeQ_pos.le
    have h7 : |x| * (21 / 20) ≤ H * 2 ^ 20 := by linarith
    refine h7.trans (hh.trans ?_)
    exact le_mul_of_one_le_left h6 (by norm_num)
  · have e1 : |x| * (1 - 1 / 2 ^ 76) * (hugeQ : ℝ) = |x| * hugeQ * (1 - 1 / 2 ^ 76) := by ring
    rw [e1]
    have e2 : |x| * (H * 2 ^ 20) = |x| * H * 2 ^ 20 := by ring
    rw [e2] at hlow2
    generalize |x| * (hugeQ : ℝ) = u at *
    generalize |x| * H = v at *
    norm_num at hlow2 ⊢; linarith
  · have : 1 / |x| * (21 / 20) * (|x| * (1 - 1 / 2 ^ 76)) = 21 / 20 * (1 - 1 / 2 ^ 76) := by field_simp
    rw [this]; norm_num
  · rw [e0]
    have e1 : 1 / |x| * (|x| * (k / 2 ^ 137)) = k / 2 ^ 137 := by field_simp
    have e2 : 1 / |x| * ((k + 1025) / 2 ^ 137) * (|x| * (1 - 1 / 2 ^ 76)) = (k + 1025) / 2 ^ 137 * (1 - 1 / 2 ^ 76) := by field_simp
    rw [e1, e2]
    norm_num at k1 ⊢; linarith

/-- What a non-zero value says about the components. -/
theorem qt_class {a : Quad} (ha : QT a (qv a) 0) (h : qv a ≠ 0) : a.isNan = false ∧ a.isZero = false ∧ a.isInfinite = false := by
  have hf := (sz_sub_c0 ha.sz).1
  obtain ⟨c1, c2⟩ := fsq_fin hf
  refine ⟨c1, ?_, c2⟩
  rw [Bool.eq_false_iff]
  intro hz
  have h1 := isZero_small ha.sz hz
  have h2 := abs_pos.mpr h
  norm_num at h1; linarith

/-- Powers with any nonzero integer exponent of 31 bits. -/
theorem qpowi_any {x : Quad} (hx : QT x (qv x) 0) {n : ℤ} (hn : n ≠ 0) (hn2 : |n| < 2 ^ 31)
    (h1 : 1 ≤ |qv x ^ n| * (2 ^ 190 * 2 ^ 190 * (2 ^ 190 * 2 ^ 190))) (h2 : |qv x ^ n| ≤ 2 ^ 190 * 2 ^ 190 * (2 ^ 190 * 2 ^ 190)) :
    ∃ r, x.powi n = some r ∧ QT r (qv x ^ n) (|(n:ℝ)| / 2 + 1025) := by
  have h0 : qv x ≠ 0 := by
    intro h; rw [h, zero_zpow n hn, abs_zero, zero_mul] at h1; exact absurd h1 (by norm_num)
  obtain ⟨c1, c2, c3⟩ := qt_class hx h0
  rcases lt_or_gt_of_ne hn with h | h
  · obtain ⟨k, rfl⟩ : ∃ k : ℕ, n = -(k:ℤ) := ⟨n.natAbs, by omega⟩
    have hk : 0 < k := by omega
    have hk2 : k < 2 ^ 31 := by rw [abs_neg, Nat.abs_cast] at hn2; exact_mod_cast hn2
    have e : qv x ^ (-(k:ℤ)) = (qv x ^ k)⁻¹ := by rw [zpow_neg, zpow_natCast]
    rw [e] at h1 h2 ⊢
    have hp : 0 < |qv x ^ k| := abs_pos.mpr (pow_ne_zero k h0)
    rw [abs_inv] at h1 h2
    have g1 : 1 ≤ |qv x ^ k| * (2 ^ 190 * 2 ^ 190 * (2 ^ 190 * 2 ^ 190)) := by
      rwa [inv_le_iff_one_le_mul₀ hp, mul_comm] at h2
    have g2 : |qv x ^ k| ≤ 2 ^ 190 * 2 ^ 190 * (2 ^ 190 * 2 ^ 190) := by
      have := mul_le_mul_of_nonneg_left h1 hp.le
      rwa [mul_one, ← mul_assoc, mul_inv_cancel₀ hp.ne', one_mul] at this
    have key := qpowi_posW hx hk hk2 h0 (by
        rw [abs_pow] at g1
        refine g1.trans (mul_le_mul_of_nonneg_left (by norm_num) (by positivity))) (by
        rw [abs_pow] at g2
        exact g2.trans (by norm_num))
    have hn3 : (k : ℝ) ≤ 2 ^ 31 := by exact_mod_cast hk2.le
    have key2 := key.recip (pow_ne_zero k h0) g1 g2 (by positivity) (by linarith)
    refine ⟨(quadPowiPos x k).recip, ?_, ?_⟩
    · rw [quad_powi_main (by omega) hn2 c1 c2 c3, if_pos (by omega), Int.natAbs_neg]
      rfl
    · have e2 : |((-(k:ℤ) : ℤ) : ℝ)| = k := by push_cast; rw [abs_neg, Nat.abs_cast]
      rw [one_div] at key2
      rw [e2]
      exact key2
  · obtain ⟨k, rfl⟩ : ∃ k : ℕ, n = (k:ℤ) := ⟨n.natAbs, by omega⟩
    have hk : 0 < k := by omega
    have hk2 : k < 2 ^ 31 := by rw [Nat.abs_cast] at hn2; exact_mod_cast hn2
    rw [zpow_natCast] at h1 h2 ⊢
    have key := qpowi_posW hx hk hk2 h0 (by
        rw [abs_pow] at h1
        refine h1.trans (mul_le_mul_of_nonneg_left (by norm_num) (by positivity))) (by
        rw [abs_pow] at h2
        exact h2.trans (by norm_num))
    refine ⟨quadPowiPos x k, ?_, key.mono ?_⟩
    · rw [quad_powi_main hn hn2 c1 c2 c3, if_neg (by omega)]
      rfl
    · have e2 : |((k:ℤ) : ℝ)| = k := by push_cast; rw [Nat.abs_cast]
      rw [e2]; linarith

end Verif
