import Verif.Proofs.QuadApDiv
import Verif.Props.QuadLn
import Verif.Props.QuadParse

/-!
# Relative errors of Quad products and powers

`QR q x k`: `q` approximates the non-zero number `x` with a relative error of `k` units of `2^-137`.
-/

namespace Verif

open F64 Prim Util Quad

/-- Approximation with a relative error. -/
def QR (q : Quad) (x k : ℝ) : Prop := QA q x (|x| * (k / 2 ^ 137)) (|x| * (101 / 100))

theorem QR.mono {q : Quad} {x k k' : ℝ} (h : QR q x k) (hk : k ≤ k') : QR q x k' :=
  QA.mono h (mul_le_mul_of_nonneg_left (div_le_div_of_nonneg_right hk (by positivity)) (abs_nonneg _)) le_rfl

theorem QR.one : QR Quad.ONE 1 0 := by
  unfold QR
  exact qa_one.mono (by norm_num) (by norm_num)

theorem QR.norm {a : Quad} (h : a.Normalized) : QR a (qv a) 0 := by
  unfold QR
  refine (qord_norm h).exact.mono (by simp) ?_
  exact mul_le_mul_of_nonneg_left (by norm_num) (abs_nonneg _)

/-- A product. -/
theorem QR.mul {a b : Quad} {x y k j : ℝ} (ha : QR a x k) (hb : QR b y j) (hx : x ≠ 0) (hy : y ≠ 0)
    (l : 1 ≤ |x * y| * (2 ^ 210 * 2 ^ 210 * (2 ^ 210 * 2 ^ 210))) (u : |x * y| ≤ 2 ^ 225 * 2 ^ 225 * 2 ^ 225 * 2 ^ 224)
    (k1 : k ≤ 2 ^ 60) (j0 : 0 ≤ j) (j1 : j ≤ 2 ^ 60) : QR (a * b) (x * y) (k + j + 1 / 2) := by
  have px : 0 < |x| := abs_pos.mpr hx
  have py : 0 < |y| := abs_pos.mpr hy
  have hm : |x * y| = |x| * |y| := abs_mul x y
  have hkj : k * j ≤ 2 ^ 60 * 2 ^ 60 := mul_le_mul k1 j1 j0 (by positivity)
  have p0 : 0 < |x| * |y| := mul_pos px py
  unfold QR at *
  have eX : |x| * (101 / 100) * (|y| * (101 / 100)) = |x| * |y| * (10201 / 10000) := by ring
  rw [hm] at l u ⊢
  have hq : |x| * |y| * ((k + j + 1 / 2) / 2 ^ 137) ≤ |x| * |y| * (1 / 2 ^ 70) := by
    refine mul_le_mul_of_nonneg_left ?_ p0.le
    norm_num at k1 j1 ⊢; linarith
  have hr : |x| * |y| * (k * j / 2 ^ 137 / 2 ^ 137) ≤ |x| * |y| * (1 / 2 ^ 150) := by
    refine mul_le_mul_of_nonneg_left ?_ p0.le
    norm_num at hkj ⊢; linarith
  refine ha.mulW hb (mul_pos px (by norm_num)) (mul_pos py (by norm_num)) ?_ ?_ ?_ ?_ ?_
  · rw [eX]
    generalize |x| * |y| = p at *
    norm_num at l ⊢; linarith
  · rw [eX]
    generalize |x| * |y| = p at *
    norm_num at u ⊢; linarith
  · rw [eX]
    have e : |x| * (|y| * (j / 2 ^ 137)) + |y| * (|x| * (k / 2 ^ 137)) + |x| * (k / 2 ^ 137) * (|y| * (j / 2 ^ 137)) =
      |x| * |y| * ((k + j) / 2 ^ 137) + |x| * |y| * (k * j / 2 ^ 137 / 2 ^ 137) := by ring
    have e2 : |x| * |y| * ((k + j + 1 / 2) / 2 ^ 137) = |x| * |y| * ((k + j) / 2 ^ 137) + |x| * |y| * (1 / 2 / 2 ^ 137) := by ring
    rw [e, e2]
    generalize |x| * |y| * ((k + j) / 2 ^ 137) = v at *
    generalize |x| * |y| * (k * j / 2 ^ 137 / 2 ^ 137) = w at *
    generalize |x| * |y| = p at *
    clear l u hq
    norm_num at hr ⊢; linarith
  · rw [eX]
    generalize |x| * |y| = p at *
    linarith
  · rw [eX, hm]
    generalize |x| * |y| * ((k + j + 1 / 2) / 2 ^ 137) = v at *
    generalize |x| * |y| = p at *
    clear l u
    norm_num at hq ⊢; linarith

/-- A square. -/
theorem QR.sqr {a : Quad} {x k : ℝ} (ha : QR a x k) (hx : x ≠ 0)
    (l : 1 ≤ |x| * (2 ^ 210 * 2 ^ 210)) (u : |x| ≤ 2 ^ 225 * 2 ^ 224)
    (k0 : 0 ≤ k) (k1 : k ≤ 2 ^ 60) : QR a.sqr (x ^ 2) (k + k + 1 / 2) := by
  have px : 0 < |x| := abs_pos.mpr hx
  have hm : |x ^ 2| = |x| * |x| := by rw [abs_pow, sq]
  have hm2 : x ^ 2 = |x| * |x| := by rw [← hm, abs_of_nonneg (sq_nonneg _)]
  have hkj : k * k ≤ 2 ^ 60 * 2 ^ 60 := mul_le_mul k1 k1 k0 (by positivity)
  have p0 : 0 < |x| * |x| := mul_pos px px
  unfold QR at *
  have eX : |x| * (101 / 100) * (|x| * (101 / 100)) = |x| * |x| * (10201 / 10000) := by ring
  rw [hm]
  have hq : |x| * |x| * ((k + k + 1 / 2) / 2 ^ 137) ≤ |x| * |x| * (1 / 2 ^ 70) := by
    refine mul_le_mul_of_nonneg_left ?_ p0.le
    norm_num at k1 ⊢; linarith
  have hr : |x| * |x| * (k * k / 2 ^ 137 / 2 ^ 137) ≤ |x| * |x| * (1 / 2 ^ 150) := by
    refine mul_le_mul_of_nonneg_left ?_ p0.le
    norm_num at hkj ⊢; linarith
  refine ha.sqr ?_ ?_ ?_ ?_ ?_
  · norm_num at l ⊢; linarith
  · norm_num at u ⊢; linarith
  · rw [eX]
    have e : 2 * |x| * (|x| * (k / 2 ^ 137)) + |x| * (k / 2 ^ 137) * (|x| * (k / 2 ^ 137)) =
      |x| * |x| * ((k + k) / 2 ^ 137) + |x| * |x| * (k * k / 2 ^ 137 / 2 ^ 137) := by ring
    have e2 : |x| * |x| * ((k + k + 1 / 2) / 2 ^ 137) = |x| * |x| * ((k + k) / 2 ^ 137) + |x| * |x| * (1 / 2 / 2 ^ 137) := by ring
    rw [e, e2]
    generalize |x| * |x| * ((k + k) / 2 ^ 137) = v at *
    generalize |x| * |x| * (k * k / 2 ^ 137 / 2 ^ 137) = w at *
    generalize |x| * |x| = p at *
    clear l u hq
    norm_num at hr ⊢; linarith
  · rw [eX]
    generalize |x| * |x| = p at *
    linarith
  · rw [eX, hm2]
    generalize |x| * |x| * ((k + k + 1 / 2) / 2 ^ 137) = v at *
    generalize |x| * |x| = p at *
    clear l u
    norm_num at hq ⊢; linarith

/-- The invariant of the loop of `powi`. -/
theorem qpowiLoop_ind {P Q : Quad → ℕ → Prop} {n : ℕ} (hs : ∀ r k, P r k → 2 * k ≤ n → P r.sqr (2 * k))
    (hm : ∀ s r j k, Q s j → P r k → j + k ≤ n → Q (s * r) (j + k)) :
    ∀ (fuel i : ℕ) (r s : Quad) (j k : ℕ), i ≤ fuel → Q s j → P r k → j + i * k = n → Q (Quad.powiLoop fuel i r s) n := by
  intro fuel
  induction fuel with
  | zero =>
    intro i r s j k hi hq hp e
    obtain rfl : i = 0 := by omega
    simp only [zero_mul, add_zero] at e
    subst e
    unfold Quad.powiLoop; exact hq
  | succ fuel ih =>
    intro i r s j k hi hq hp e
    unfold Quad.powiLoop
    by_cases h0 : i > 0
    · rw [if_pos h0]
      dsimp only
      have hdiv : i = 2 * (i / 2) + i % 2 := (Nat.div_add_mod i 2).symm
      have hP : P (if i / 2 > 0 then r.sqr else r) (if i / 2 > 0 then 2 * k else k) := by
        split_ifs with h
        · refine hs r k hp ?_
          have : 2 * k ≤ i * k := Nat.mul_le_mul_right k (by omega)
          omega
        · exact hp
      have hE : (i / 2) * (if i / 2 > 0 then 2 * k else k) = (i / 2) * (2 * k) := by
        split_ifs with h
        · rfl
        · have : i / 2 = 0 := by omega
          rw [this]; simp
      by_cases h1 : i % 2 = 1
      · rw [if_pos h1]
        have e2 : j + k + i / 2 * (2 * k) = n := by
          rw [← e]
          conv_rhs => rw [hdiv, h1]
          ring
        refine ih (i / 2) _ _ (j + k) _ (by omega) (hm s r j k hq hp (by omega)) hP ?_
        rw [hE]; exact e2
      · rw [if_neg h1]
        have h1' : i % 2 = 0 := by omega
        refine ih (i / 2) _ _ j _ (by omega) hq hP ?_
        rw [hE, ← e]
        conv_rhs => rw [hdiv, h1']
        ring
    · rw [if_neg h0]
      obtain rfl : i = 0 := by omega
      simp only [zero_mul, add_zero] at e
      subst e
      exact hq

theorem pow_between {x : ℝ} {n j : ℕ} (hj : j ≤ n) {A B : ℝ} (hA : A ≤ 1) (hB : 1 ≤ B) (h0 : 0 ≤ x) (h1 : A ≤ x ^ n) (h2 : x ^ n ≤ B) :
    A ≤ x ^ j ∧ x ^ j ≤ B := by
  rcases le_total 1 x with h | h
  · exact ⟨hA.trans (one_le_pow₀ h), (pow_le_pow_right₀ h hj).trans h2⟩
  · exact ⟨h1.trans (pow_le_pow_of_le_one h0 h hj), (pow_le_one₀ h0 h).trans hB⟩

/-- Positive powers. -/
theorem qpowi_pos {a : Quad} (ha : a.Normalized) {n : ℕ} (hn : 0 < n) (hn2 : n < 2 ^ 31) (h0 : qv a ≠ 0)
    (h1 : 1 ≤ |qv a| ^ n * (2 ^ 210 * 2 ^ 210 * (2 ^ 210 * 2 ^ 205))) (h2 : |qv a| ^ n ≤ 2 ^ 225 * 2 ^ 225 * 2 ^ 225 * 2 ^ 220) :
    QR (quadPowiPos a n) (qv a ^ n) (n / 2) := by
  unfold quadPowiPos
  split_ifs with h
  · have hp := abs_pos.mpr h0
    have h1' : 1 / (2 ^ 210 * 2 ^ 210 * (2 ^ 210 * 2 ^ 205)) ≤ |qv a| ^ n := by rw [div_le_iff₀ (by positivity)]; exact h1
    have rng : ∀ j ≤ n, _ := fun j hj => pow_between (x := |qv a|) hj (by norm_num) (by norm_num) hp.le h1' h2
    have hn3 : (n : ℝ) ≤ 2 ^ 31 := by exact_mod_cast hn2.le
    refine qpowiLoop_ind (P := fun q k => 0 < k ∧ QR q (qv a ^ k) ((k - 1) / 2)) (Q := fun q k => QR q (qv a ^ k) (k / 2)) (n := n) ?_ ?_
      n n a Quad.ONE 0 1 le_rfl (by simpa using QR.one) ⟨one_pos, by simpa using QR.norm ha⟩ (by ring)
    · rintro r k ⟨hk, hr⟩ hkn
      refine ⟨by omega, ?_⟩
      have hk1 : (1:ℝ) ≤ k := by exact_mod_cast hk
      have hk2 : (k : ℝ) ≤ 2 ^ 31 := by exact_mod_cast (by omega : k ≤ 2 ^ 31)
      obtain ⟨r1, r2⟩ := rng (2 * k) hkn
      rw [pow_mul', sq] at r1 r2
      have hpk : 0 < |qv a| ^ k := pow_pos hp k
      have := hr.sqr (pow_ne_zero k h0) (by
          rw [abs_pow]
          by_contra hc
          have hc := (not_le.mp hc).le
          have hd : |qv a| ^ k ≤ 1 / (2 ^ 210 * 2 ^ 210) := by rw [le_div_iff₀ (by positivity)]; exact hc
          have := mul_le_mul hd hd hpk.le (by positivity)
          have := r1.trans this
          norm_num at this) (by
          rw [abs_pow]
          by_contra hc
          have hc := (not_le.mp hc).le
          have := mul_le_mul hc hc (by positivity) hpk.le
          have := this.trans r2
          norm_num at this) (by linarith) (by linarith)
      rw [pow_mul']
      refine this.mono ?_
      push_cast; linarith
    · rintro s r j k hs ⟨hk, hr⟩ hjk
      obtain ⟨r1, r2⟩ := rng (j + k) hjk
      have hk1 : (1:ℝ) ≤ k := by exact_mod_cast hk
      have hj0 : (0:ℝ) ≤ j := Nat.cast_nonneg j
      have hk2 : (k : ℝ) ≤ 2 ^ 31 := by exact_mod_cast (by omega : k ≤ 2 ^ 31)
      have hj2 : (j : ℝ) ≤ 2 ^ 31 := by exact_mod_cast (by omega : j ≤ 2 ^ 31)
      have := hs.mul hr (pow_ne_zero j h0) (pow_ne_zero k h0) (by
          rw [← pow_add, abs_pow]
          norm_num at r1 ⊢; linarith) (by
          rw [← pow_add, abs_pow]
          norm_num at r2 ⊢; linarith) (by linarith) (by linarith) (by linarith)
      rw [pow_add]
      refine this.mono ?_
      push_cast; linarith
  · obtain rfl : n = 1 := by omega
    rw [pow_one]
    exact (QR.norm ha).mono (by norm_num)

/-- The reciprocal. -/
theorem QR.recip {a : Quad} {x k : ℝ} (ha : QR a x k) (hx : x ≠ 0) (l : 1 ≤ |x| * (2 ^ 190 * 2 ^ 190 * (2 ^ 190 * 2 ^ 190)))
    (u : |x| ≤ 2 ^ 190 * 2 ^ 190 * (2 ^ 190 * 2 ^ 190)) (k0 : 0 ≤ k) (k1 : k ≤ 2 ^ 60) :
    QR a.recip (1 / x) (k + 1025) := by
  have px : 0 < |x| := abs_pos.mpr hx
  unfold QR at *
  have hh : (2:ℝ) ^ 190 * 2 ^ 190 * (2 ^ 190 * 2 ^ 190) * 2 ^ 20 ≤ (hugeQ : ℝ) := by
    have : (2:ℚ) ^ 190 * 2 ^ 190 * (2 ^ 190 * 2 ^ 190) * 2 ^ 20 ≤ hugeQ := by rw [hugeQ_eq]; norm_num
    exact_mod_cast this
  have e0 : |1 / x| = 1 / |x| := by rw [abs_div, abs_one]
  rw [e0]
  have hk : |x| * (k / 2 ^ 137) ≤ |x| * (1 / 2 ^ 77) := by
    refine mul_le_mul_of_nonneg_left ?_ px.le
    norm_num at k1 ⊢; linarith
  have hlow2 : |x| * (2 ^ 190 * 2 ^ 190 * (2 ^ 190 * 2 ^ 190) * 2 ^ 20) ≤ |x| * hugeQ := mul_le_mul_of_nonneg_left hh px.le
  unfold Quad.recip
  generalize (2:ℝ) ^ 190 * 2 ^ 190 * (2 ^ 190 * 2 ^ 190) = H at *
  refine qa_one.div ha (L := |x| * (1 - 1 / 2 ^ 76)) ?_ ?_ ?_ ?_ ?_ ?_ ?_ ?_ ?_
  · exact mul_pos px (by norm_num)
  · norm_num at hk ⊢; linarith
  · norm_num; linarith
  · exact huge_le (by norm_num) (by norm_num)
  · norm_num
  · rw [one_mul]
    have h6 : (0:ℝ) ≤ (hugeQ : ℝ) := by exact_mod_cast hugeQ_pos.le
    have h7 : |x| * (101 / 100) ≤ H * 2 ^ 20 := by linarith
    refine h7.trans (hh.trans ?_)
    exact le_mul_of_one_le_left h6 (by norm_num)
  · have e1 : |x| * (1 - 1 / 2 ^ 76) * (hugeQ : ℝ) = |x| * hugeQ * (1 - 1 / 2 ^ 76) := by ring
    rw [e1]
    have e2 : |x| * (H * 2 ^ 20) = |x| * H * 2 ^ 20 := by ring
    rw [e2] at hlow2
    generalize |x| * (hugeQ : ℝ) = u at *
    generalize |x| * H = v at *
    norm_num at hlow2 ⊢; linarith
  · have : 1 / |x| * (101 / 100) * (|x| * (1 - 1 / 2 ^ 76)) = 101 / 100 * (1 - 1 / 2 ^ 76) := by field_simp
    rw [this]; norm_num
  · rw [e0]
    have e1 : 1 / |x| * (|x| * (k / 2 ^ 137)) = k / 2 ^ 137 := by field_simp
    have e2 : 1 / |x| * ((k + 1025) / 2 ^ 137) * (|x| * (1 - 1 / 2 ^ 76)) = (k + 1025) / 2 ^ 137 * (1 - 1 / 2 ^ 76) := by field_simp
    rw [e1, e2]
    norm_num at k1 ⊢; linarith

end Verif
