import Verif.Props.Laws
import Verif.Props.QuadIdentities

/-!
# C96 for Quads
-/

namespace Verif

open F64 Prim Util

theorem qv_le_real {a : Quad} {n : ℕ} (h : |a.val| ≤ 2 ^ n) : |qv a| ≤ 2 ^ n := by unfold qv; exact_mod_cast h

/-- A sum of two exactly known Quads. -/
theorem qa_add0 {a b : Quad} (ha : a.Normalized) (hb : b.Normalized) (h1 : |qv a| ≤ 2 ^ 200) (h2 : |qv b| ≤ 2 ^ 200) :
    QA (a + b) (qv a + qv b) ((|qv a| + |qv b|) / 2 ^ 127) ((|qv a| + |qv b|) * (1 + 1 / 2 ^ 39)) := by
  have A0 := abs_nonneg (qv a)
  have B0 := abs_nonneg (qv b)
  have ab := abs_add_le (qv a) (qv b)
  refine (qord_norm ha).exact.add (qord_norm hb).exact (Z := (|qv a| + |qv b|) * (1 + 1 / 2 ^ 47))
    (mul_le_mul_of_nonneg_right (by linarith) (by norm_num)) (mul_le_mul_of_nonneg_right (by linarith) (by norm_num))
    (le_trans (mul_le_mul_of_nonneg_right (add_le_add h1 h2) (by norm_num)) (by norm_num)) ?_ ?_ ?_
  all_goals
    clear h1 h2
    norm_num
    linarith

/-- **C96.** Regrouping a sum of three Quads up to `2^200` changes it by at most `(|a| + |b| + |c|) / 2^125`. -/
theorem C96_quad_add_assoc (a b c : Quad) (ha : a.Normalized) (hb : b.Normalized) (hc : c.Normalized) (h1 : |a.val| ≤ 2 ^ 200)
    (h2 : |b.val| ≤ 2 ^ 200) (h3 : |c.val| ≤ 2 ^ 200) :
    (a + b + c).Fin ∧ (a + (b + c)).Fin ∧
      |(a + b + c).val - (a + (b + c)).val| ≤ (|a.val| + |b.val| + |c.val|) / 2 ^ 125 := by
  have k1 := qv_le_real h1
  have k2 := qv_le_real h2
  have k3 := qv_le_real h3
  have p := qa_add0 ha hb k1 k2
  have q := qa_add0 hb hc k2 k3
  have A0 := abs_nonneg (qv a)
  have B0 := abs_nonneg (qv b)
  have C0 := abs_nonneg (qv c)
  have abc := abs_add_three (qv a) (qv b) (qv c)
  have abc' : qv a + (qv b + qv c) = qv a + qv b + qv c := by ring
  obtain ⟨S, hS⟩ : ∃ S, |qv a| + |qv b| + |qv c| = S := ⟨_, rfl⟩
  have S0 : 0 ≤ S := by rw [← hS]; positivity
  have big : S * (1 + 1 / 2 ^ 39) ≤ 2 ^ 225 * 2 ^ 225 * 2 ^ 225 * 2 ^ 225 := by
    refine (mul_le_mul_of_nonneg_right (show S ≤ 2 ^ 200 + 2 ^ 200 + 2 ^ 200 by rw [← hS]; linarith) (by norm_num)).trans (by norm_num)
  clear h1 h2 h3 k1 k2 k3
  have sz : ∀ x : ℝ, x ≤ S → 0 ≤ x → x * (1 + 1 / 2 ^ 47) ≤ S * (1 + 1 / 2 ^ 39) := fun x hx h0 =>
    mul_le_mul hx (by norm_num) (by positivity) S0
  have l := p.add (qord_norm hc).exact (Z := S * (1 + 1 / 2 ^ 39)) (g := S / 2 ^ 126) (W := S * (1 + 1 / 2 ^ 38))
    (mul_le_mul_of_nonneg_right (by linarith) (by norm_num)) (sz _ (by linarith) C0) big
    (by rw [← hS]; norm_num; linarith) (by norm_num; linarith) (by clear big sz; norm_num; linarith)
  have r := (qord_norm ha).exact.add q (Z := S * (1 + 1 / 2 ^ 39)) (g := S / 2 ^ 126) (W := S * (1 + 1 / 2 ^ 38))
    (sz _ (by linarith) A0) (mul_le_mul_of_nonneg_right (by linarith) (by norm_num)) big
    (by rw [← hS]; norm_num; linarith) (by norm_num; linarith) (by rw [abc']; clear big sz; norm_num; linarith)
  rw [abc'] at r
  refine ⟨l.fin, r.fin, ?_⟩
  have e : qv (a + b + c) - qv (a + (b + c)) = (qv (a + b + c) - (qv a + qv b + qv c)) - (qv (a + (b + c)) - (qv a + qv b + qv c)) := by ring
  have key : |qv (a + b + c) - qv (a + (b + c))| ≤ (|qv a| + |qv b| + |qv c|) / 2 ^ 125 := by
    rw [e, hS]
    refine (abs_sub _ _).trans ((add_le_add l.err r.err).trans (le_of_eq ?_))
    ring
  unfold qv at key
  exact_mod_cast key

/-- **C96.** Subtracting from a sum of two Quads what was added gives the other back within `(|a| + |b|) / 2^125`. -/
theorem C96_quad_add_sub_cancel (a b : Quad) (ha : a.Normalized) (hb : b.Normalized) (h1 : |a.val| ≤ 2 ^ 200) (h2 : |b.val| ≤ 2 ^ 200) :
    (a + b - b).Fin ∧ |(a + b - b).val - a.val| ≤ (|a.val| + |b.val|) / 2 ^ 125 := by
  have k1 := qv_le_real h1
  have k2 := qv_le_real h2
  have p := qa_add0 ha hb k1 k2
  have A0 := abs_nonneg (qv a)
  have B0 := abs_nonneg (qv b)
  obtain ⟨S, hS⟩ : ∃ S, |qv a| + |qv b| = S := ⟨_, rfl⟩
  have S0 : 0 ≤ S := by rw [← hS]; positivity
  have big : S * (1 + 1 / 2 ^ 39) ≤ 2 ^ 225 * 2 ^ 225 * 2 ^ 225 * 2 ^ 225 := by
    refine (mul_le_mul_of_nonneg_right (show S ≤ 2 ^ 200 + 2 ^ 200 by rw [← hS]; linarith) (by norm_num)).trans (by norm_num)
  clear h1 h2 k1 k2
  have l := p.sub (qord_norm hb).exact (Z := S * (1 + 1 / 2 ^ 39)) (g := S / 2 ^ 125) (W := S * (1 + 1 / 2 ^ 38))
    (mul_le_mul_of_nonneg_right (by linarith) (by norm_num)) (mul_le_mul (by linarith) (by norm_num) (by norm_num) S0) big
    (by rw [hS]; norm_num; linarith) (by norm_num; linarith)
    (by rw [add_sub_cancel_right]; clear big; norm_num; linarith)
  rw [add_sub_cancel_right] at l
  refine ⟨l.fin, ?_⟩
  have key := l.err
  rw [← hS] at key
  unfold qv at key
  exact_mod_cast key

/-- A product of two exactly known Quads, nonzero. -/
theorem qa_mul0 {a b : Quad} (ha : a.Normalized) (hb : b.Normalized) (h1 : |qv a| ≤ 2 ^ 200) (h2 : |qv b| ≤ 2 ^ 200)
    (h3 : 1 ≤ |qv a| * 2 ^ 200) (h4 : 1 ≤ |qv b| * 2 ^ 200) :
    QA (a * b) (qv a * qv b) (|qv a * qv b| * (11 / 10 / 2 ^ 139)) (|qv a * qv b| * (1 + 1 / 2 ^ 39)) := by
  have A0 := abs_nonneg (qv a)
  have B0 := abs_nonneg (qv b)
  have m := abs_mul (qv a) (qv b)
  have z := abs_nonneg (qv a * qv b)
  have e1 : ∀ c : ℝ, |qv a| * c * (|qv b| * c) = |qv a * qv b| * (c * c) := fun c => by rw [m]; ring
  refine (qord_norm ha).exact.mul (qord_norm hb).exact ?_ ?_ ?_ ?_ ?_ ?_
  · rw [mul_assoc]
    exact h3.trans (mul_le_mul_of_nonneg_left (by norm_num) A0)
  · rw [mul_assoc]
    exact h4.trans (mul_le_mul_of_nonneg_left (by norm_num) B0)
  · rw [e1, m]
    exact (mul_le_mul_of_nonneg_right (mul_le_mul h1 h2 B0 (by positivity)) (by norm_num)).trans (by norm_num)
  all_goals
    clear h1 h2 h3 h4
    rw [e1]
    generalize |qv a * qv b| = w at *
    norm_num
    linarith

/-- **C96.** Regrouping a product of three Quads between `2^-200` and `2^200` changes it by a relative `5 / 2^139` at most. -/
theorem C96_quad_mul_assoc (a b c : Quad) (ha : a.Normalized) (hb : b.Normalized) (hc : c.Normalized)
    (h1 : 1 ≤ |a.val| * 2 ^ 200) (h2 : |a.val| ≤ 2 ^ 200) (h3 : 1 ≤ |b.val| * 2 ^ 200) (h4 : |b.val| ≤ 2 ^ 200)
    (h5 : 1 ≤ |c.val| * 2 ^ 200) (h6 : |c.val| ≤ 2 ^ 200) :
    (a * b * c).Fin ∧ (a * (b * c)).Fin ∧
      |(a * b * c).val - (a * (b * c)).val| * 2 ^ 139 ≤ 5 * |a.val * b.val * c.val| := by
  have lo : ∀ {d : Quad}, 1 ≤ |d.val| * 2 ^ 200 → 1 ≤ |qv d| * 2 ^ 200 := by intro d h; unfold qv; exact_mod_cast h
  have h1 := lo h1
  have h3 := lo h3
  have h5 := lo h5
  have h2 := qv_le_real h2
  have h4 := qv_le_real h4
  have h6 := qv_le_real h6
  have p := qa_mul0 ha hb h2 h4 h1 h3
  have q := qa_mul0 hb hc h4 h6 h3 h5
  have T0 := abs_nonneg (qv a * qv b * qv c)
  -- sizes of the products
  have two : ∀ {x y : ℝ}, 1 ≤ |x| * 2 ^ 200 → 1 ≤ |y| * 2 ^ 200 → 1 ≤ |x * y| * (1 + 1 / 2 ^ 39) * (2 ^ 210 * 2 ^ 210) := by
    intro x y hx hy
    have m := mul_le_mul hx hy zero_le_one (by positivity)
    rw [one_mul, show |x| * 2 ^ 200 * (|y| * 2 ^ 200) = |x * y| * (2 ^ 200 * 2 ^ 200) by rw [abs_mul]; ring] at m
    rw [mul_assoc]
    exact m.trans (mul_le_mul_of_nonneg_left (by norm_num) (abs_nonneg _))
  have three : |qv a * qv b * qv c| ≤ 2 ^ 200 * 2 ^ 200 * 2 ^ 200 := by
    rw [abs_mul, abs_mul]
    exact mul_le_mul (mul_le_mul h2 h4 (abs_nonneg _) (by positivity)) h6 (abs_nonneg _) (by positivity)
  have one : ∀ {x : ℝ}, 1 ≤ |x| * 2 ^ 200 → 1 ≤ |x| * (1 + 1 / 2 ^ 47) * (2 ^ 210 * 2 ^ 210) := by
    intro x hx
    rw [mul_assoc]
    exact hx.trans (mul_le_mul_of_nonneg_left (by norm_num) (abs_nonneg _))
  have big : |qv a * qv b * qv c| * ((1 + 1 / 2 ^ 39) * (1 + 1 / 2 ^ 47)) ≤ 2 ^ 225 * 2 ^ 225 * 2 ^ 225 * 2 ^ 225 :=
    (mul_le_mul_of_nonneg_right three (by norm_num)).trans (by norm_num)
  have ab := two h1 h3
  have bc := two h3 h5
  have la := one h1
  have lc := one h5
  clear h1 h2 h3 h4 h5 h6 two one lo three
  have l : QA (a * b * c) (qv a * qv b * qv c) (|qv a * qv b * qv c| * (22 / 10 / 2 ^ 139)) (|qv a * qv b * qv c| * (1 + 1 / 2 ^ 37)) := by
    have e1 : ∀ s t : ℝ, |qv a * qv b| * s * (|qv c| * t) = |qv a * qv b * qv c| * (s * t) := fun s t => by rw [abs_mul (qv a * qv b)]; ring
    refine p.mul (qord_norm hc).exact ab lc ?_ ?_ ?_ ?_
    · rw [e1]; exact big
    · rw [show |qv a * qv b| * 0 + |qv c| * (|qv a * qv b| * (11 / 10 / 2 ^ 139)) + |qv a * qv b| * (11 / 10 / 2 ^ 139) * 0 =
        |qv a * qv b * qv c| * (11 / 10 / 2 ^ 139) by rw [abs_mul (qv a * qv b)]; ring, e1]
      clear ab bc la lc big e1 p q
      generalize |qv a * qv b * qv c| = T at *
      norm_num
      linarith
    all_goals
      rw [e1]
      clear ab bc la lc big e1 p q
      generalize |qv a * qv b * qv c| = T at *
      norm_num
      linarith
  have r : QA (a * (b * c)) (qv a * qv b * qv c) (|qv a * qv b * qv c| * (22 / 10 / 2 ^ 139)) (|qv a * qv b * qv c| * (1 + 1 / 2 ^ 37)) := by
    have e0 : qv a * qv b * qv c = qv a * (qv b * qv c) := by ring
    have e1 : ∀ s t : ℝ, |qv a| * s * (|qv b * qv c| * t) = |qv a * qv b * qv c| * (s * t) := fun s t => by rw [e0, abs_mul (qv a)]; ring
    rw [e0]
    refine (qord_norm ha).exact.mul q la bc ?_ ?_ ?_ ?_
    · rw [e1]
      exact (le_of_eq (by ring)).trans big
    · rw [show |qv a| * (|qv b * qv c| * (11 / 10 / 2 ^ 139)) + |qv b * qv c| * 0 + 0 * (|qv b * qv c| * (11 / 10 / 2 ^ 139)) =
        |qv a * qv b * qv c| * (11 / 10 / 2 ^ 139) by rw [e0, abs_mul (qv a)]; ring, e1, ← e0]
      clear ab bc la lc big e1 p q e0 l
      generalize |qv a * qv b * qv c| = T at *
      norm_num
      linarith
    all_goals
      rw [e1, ← e0]
      clear ab bc la lc big e1 p q e0 l
      generalize |qv a * qv b * qv c| = T at *
      norm_num
      linarith
  refine ⟨l.fin, r.fin, ?_⟩
  have e : qv (a * b * c) - qv (a * (b * c)) = (qv (a * b * c) - qv a * qv b * qv c) - (qv (a * (b * c)) - qv a * qv b * qv c) := by ring
  have key : |qv (a * b * c) - qv (a * (b * c))| * 2 ^ 139 ≤ 5 * |qv a * qv b * qv c| := by
    have t := (abs_sub _ _).trans (add_le_add l.err r.err)
    rw [← e] at t
    clear l r p q big ab bc la lc e
    generalize |qv a * qv b * qv c| = T at *
    norm_num at t ⊢
    linarith
  unfold qv at key
  exact_mod_cast key

example : |(Quad.PI + Quad.E + Quad.LN_10).val - (Quad.PI + (Quad.E + Quad.LN_10)).val| ≤
    (|Quad.PI.val| + |Quad.E.val| + |Quad.LN_10.val|) / 2 ^ 125 :=
  (C96_quad_add_assoc _ _ _ (by decide +kernel) (by decide +kernel) (by decide +kernel) (by decide +kernel) (by decide +kernel)
    (by decide +kernel)).2.2

example : |(Quad.PI * Quad.E * Quad.LN_10).val - (Quad.PI * (Quad.E * Quad.LN_10)).val| * 2 ^ 139 ≤
    5 * |Quad.PI.val * Quad.E.val * Quad.LN_10.val| :=
  (C96_quad_mul_assoc _ _ _ (by decide +kernel) (by decide +kernel) (by decide +kernel) (by decide +kernel) (by decide +kernel)
    (by decide +kernel) (by decide +kernel) (by decide +kernel) (by decide +kernel)).2.2

/-- **C96.** Multiplication of Quads distributes over addition within `|a| (|b| + |c|) / 2^126`, between `2^-200` and `2^200`. -/
theorem C96_quad_distrib (a b c : Quad) (ha : a.Normalized) (hb : b.Normalized) (hc : c.Normalized)
    (h1 : 1 ≤ |a.val| * 2 ^ 200) (h2 : |a.val| ≤ 2 ^ 200) (h3 : 1 ≤ |b.val| * 2 ^ 200) (h4 : |b.val| ≤ 2 ^ 200)
    (h5 : 1 ≤ |c.val| * 2 ^ 200) (h6 : |c.val| ≤ 2 ^ 200) :
    (a * (b + c)).Fin ∧ (a * b + a * c).Fin ∧
      |(a * (b + c)).val - (a * b + a * c).val| * 2 ^ 126 ≤ |a.val| * (|b.val| + |c.val|) := by
  have lo : ∀ {d : Quad}, 1 ≤ |d.val| * 2 ^ 200 → 1 ≤ |qv d| * 2 ^ 200 := by intro d h; unfold qv; exact_mod_cast h
  have h1 := lo h1
  have h3 := lo h3
  have h5 := lo h5
  have h2 := qv_le_real h2
  have h4 := qv_le_real h4
  have h6 := qv_le_real h6
  have s := qa_add0 hb hc h4 h6
  have p := qa_mul0 ha hb h2 h4 h1 h3
  have q := qa_mul0 ha hc h2 h6 h1 h5
  have A0 := abs_nonneg (qv a)
  have B0 := abs_nonneg (qv b)
  have C0 := abs_nonneg (qv c)
  have e0 : qv a * (qv b + qv c) = qv a * qv b + qv a * qv c := by ring
  have m1 := abs_mul (qv a) (qv b)
  have m2 := abs_mul (qv a) (qv c)
  have m3 := abs_add_le (qv a * qv b) (qv a * qv c)
  have t1 := abs_nonneg (qv a * qv b)
  have t2 := abs_nonneg (qv a * qv c)
  have la : 1 ≤ |qv a| * (1 + 1 / 2 ^ 47) * (2 ^ 210 * 2 ^ 210) := by
    rw [mul_assoc]
    exact h1.trans (mul_le_mul_of_nonneg_left (by norm_num) A0)
  have ls : 1 ≤ (|qv b| + |qv c|) * (1 + 1 / 2 ^ 39) * (2 ^ 210 * 2 ^ 210) := by
    rw [mul_assoc]
    refine (h3.trans (mul_le_mul_of_nonneg_right (show |qv b| ≤ |qv b| + |qv c| by linarith) (by positivity))).trans
      (mul_le_mul_of_nonneg_left (by norm_num) (by linarith))
  have big : (|qv a * qv b| + |qv a * qv c|) * 2 ≤ 2 ^ 225 * 2 ^ 225 * 2 ^ 225 * 2 ^ 225 := by
    rw [m1, m2, ← mul_add]
    refine (mul_le_mul_of_nonneg_right (mul_le_mul h2 (add_le_add h4 h6) (by linarith) (by positivity)) (by norm_num)).trans (by norm_num)
  clear h1 h2 h3 h4 h5 h6 lo
  have e1 : ∀ s t : ℝ, |qv a| * s * ((|qv b| + |qv c|) * t) = (|qv a * qv b| + |qv a * qv c|) * (s * t) := fun s t => by rw [m1, m2]; ring
  have l : QA (a * (b + c)) (qv a * qv b + qv a * qv c) ((|qv a * qv b| + |qv a * qv c|) * (101 / 100 / 2 ^ 127))
      ((|qv a * qv b| + |qv a * qv c|) * (1 + 1 / 2 ^ 37)) := by
    rw [← e0]
    refine (qord_norm ha).exact.mul s la ls ?_ ?_ ?_ ?_
    · rw [e1]
      exact (mul_le_mul_of_nonneg_left (by norm_num) (by linarith)).trans big
    · rw [e1, show |qv a| * ((|qv b| + |qv c|) / 2 ^ 127) + |qv b + qv c| * 0 + 0 * ((|qv b| + |qv c|) / 2 ^ 127) =
        (|qv a * qv b| + |qv a * qv c|) / 2 ^ 127 by rw [m1, m2]; ring]
      clear la ls big e1 s p q m1 m2
      norm_num [-abs_mul]
      generalize |qv a * qv b| = u at *
      generalize |qv a * qv c| = v at *
      linarith
    · rw [e1]
      clear la ls big e1 s p q m1 m2
      generalize |qv a * qv b| = u at *
      generalize |qv a * qv c| = v at *
      norm_num
      linarith
    · rw [e1, e0]
      clear la ls big e1 s p q m1 m2
      generalize |qv a * qv b| = u at *
      generalize |qv a * qv c| = v at *
      norm_num
      linarith
  have r : QA (a * b + a * c) (qv a * qv b + qv a * qv c) ((|qv a * qv b| + |qv a * qv c|) * (101 / 100 / 2 ^ 128))
      ((|qv a * qv b| + |qv a * qv c|) * (1 + 1 / 2 ^ 37)) := by
    refine p.add q (Z := (|qv a * qv b| + |qv a * qv c|) * (1 + 1 / 2 ^ 39)) (mul_le_mul_of_nonneg_right (by linarith) (by norm_num))
      (mul_le_mul_of_nonneg_right (by linarith) (by norm_num)) ((mul_le_mul_of_nonneg_left (by norm_num) (by linarith)).trans big) ?_ ?_ ?_
    all_goals
      clear la ls big e1 s p q m1 m2 l
      generalize |qv a * qv b| = u at *
      generalize |qv a * qv c| = v at *
      norm_num
      linarith
  refine ⟨l.fin, r.fin, ?_⟩
  have e : qv (a * (b + c)) - qv (a * b + a * c) = (qv (a * (b + c)) - (qv a * qv b + qv a * qv c)) -
    (qv (a * b + a * c) - (qv a * qv b + qv a * qv c)) := by ring
  have key : |qv (a * (b + c)) - qv (a * b + a * c)| * 2 ^ 126 ≤ |qv a| * (|qv b| + |qv c|) := by
    rw [mul_add |qv a|, ← m1, ← m2]
    have t := (abs_sub _ _).trans (add_le_add l.err r.err)
    rw [← e] at t
    clear la ls big e1 s p q m1 m2 l r e
    generalize |qv a * qv b| = u at *
    generalize |qv a * qv c| = v at *
    norm_num at t ⊢
    linarith
  unfold qv at key
  exact_mod_cast key

/-- **C96.** Dividing by what was multiplied gives the Quad back within a relative `2^-126`, between `2^-75` and `2^75`. -/
theorem C96_quad_mul_div_cancel (a b : Quad) (ha : a.Normalized) (hb : b.Normalized)
    (h1 : 1 ≤ |a.val| * 2 ^ 75) (h2 : |a.val| ≤ 2 ^ 75) (h3 : 1 ≤ |b.val| * 2 ^ 75) (h4 : |b.val| ≤ 2 ^ 75) :
    (a * b / b).Fin ∧ |(a * b / b).val - a.val| * 2 ^ 126 ≤ |a.val| := by
  have lo : ∀ {d : Quad}, 1 ≤ |d.val| * 2 ^ 75 → 1 ≤ |qv d| * 2 ^ 75 := by intro d h; unfold qv; exact_mod_cast h
  have h1 := lo h1
  have h3 := lo h3
  have h2 := qv_le_real h2
  have h4 := qv_le_real h4
  have p := qa_mul0 ha hb (h2.trans (by norm_num)) (h4.trans (by norm_num))
    (h1.trans (mul_le_mul_of_nonneg_left (by norm_num) (abs_nonneg _))) (h3.trans (mul_le_mul_of_nonneg_left (by norm_num) (abs_nonneg _)))
  have A0 := abs_nonneg (qv a)
  have B0 := abs_nonneg (qv b)
  have m1 := abs_mul (qv a) (qv b)
  have hB : 0 < |qv b| := by
    rcases lt_or_eq_of_le B0 with h | h
    · exact h
    · rw [← h, zero_mul] at h3; exact absurd h3 (by norm_num)
  have hb0 : qv b ≠ 0 := abs_pos.mp hB
  have hq : qv a * qv b / qv b = qv a := by field_simp
  have H : (2:ℝ) ^ 230 ≤ ((hugeQ : ℚ) : ℝ) := by
    have : (2:ℚ) ^ 230 ≤ hugeQ := by rw [hugeQ_eq]; norm_num
    exact_mod_cast this
  have ab1 : 1 ≤ |qv a| * |qv b| * 2 ^ 150 := by
    have := mul_le_mul h1 h3 zero_le_one (by positivity)
    rw [one_mul] at this
    exact this.trans (le_of_eq (by ring))
  have ab0 : 0 ≤ |qv a| * |qv b| := mul_nonneg A0 B0
  have ab2 : |qv a| * |qv b| ≤ 2 ^ 150 := (mul_le_mul h2 h4 B0 (by positivity)).trans (by norm_num)
  rw [m1] at p
  have big : ∀ {x y : ℝ}, 0 ≤ y → x ≤ y * 2 ^ 230 → x ≤ y * ((hugeQ : ℚ) : ℝ) := fun hy h => h.trans (mul_le_mul_of_nonneg_left H hy)
  have d := p.div (qord_norm hb).exact (L := |qv b|) (K := |qv a| * (1 + 1 / 2 ^ 36)) (g := |qv a| * (11 / 10 / 2 ^ 127)) hB (by linarith)
    (by norm_num; linarith) (big (by positivity) (by norm_num at ab1 ⊢; linarith)) (by norm_num at ab2 ⊢; linarith)
    (big (by positivity) (by norm_num at ab1 h4 ⊢; linarith)) (big B0 (by norm_num at ab2 h3 ⊢; linarith))
    (by
      rw [show |qv a| * |qv b| * (1 + 1 / 2 ^ 39) * (1 + 1 / 2 ^ 38) = |qv a| * |qv b| * ((1 + 1 / 2 ^ 39) * (1 + 1 / 2 ^ 38)) by ring,
        show |qv a| * (1 + 1 / 2 ^ 36) * |qv b| = |qv a| * |qv b| * (1 + 1 / 2 ^ 36) by ring]
      exact mul_le_mul_of_nonneg_left (by norm_num) ab0)
    (by
      rw [show |qv a| * (11 / 10 / 2 ^ 127) * |qv b| = |qv a| * |qv b| * (11 / 10 / 2 ^ 127) by ring]
      clear h1 h2 h3 h4 ab1 ab2 H
      generalize |qv a| * |qv b| = T at *
      norm_num
      linarith)
  rw [hq] at d
  refine ⟨d.fin, ?_⟩
  have k := d.err
  have key : |qv (a * b / b) - qv a| * 2 ^ 126 ≤ |qv a| := by
    clear h1 h2 h3 h4 ab1 ab2 H d
    norm_num at k ⊢
    linarith
  unfold qv at key
  exact_mod_cast key

example : |(Quad.PI * (Quad.E + Quad.LN_10)).val - (Quad.PI * Quad.E + Quad.PI * Quad.LN_10).val| * 2 ^ 126 ≤
    |Quad.PI.val| * (|Quad.E.val| + |Quad.LN_10.val|) :=
  (C96_quad_distrib _ _ _ (by decide +kernel) (by decide +kernel) (by decide +kernel) (by decide +kernel) (by decide +kernel)
    (by decide +kernel) (by decide +kernel) (by decide +kernel) (by decide +kernel)).2.2

example : |(Quad.PI * Quad.E / Quad.E).val - Quad.PI.val| * 2 ^ 126 ≤ |Quad.PI.val| :=
  (C96_quad_mul_div_cancel _ _ (by decide +kernel) (by decide +kernel) (by decide +kernel) (by decide +kernel) (by decide +kernel)
    (by decide +kernel)).2

example : |(Quad.PI + Quad.E - Quad.E).val - Quad.PI.val| ≤ (|Quad.PI.val| + |Quad.E.val|) / 2 ^ 125 :=
  (C96_quad_add_sub_cancel _ _ (by decide +kernel) (by decide +kernel) (by decide +kernel) (by decide +kernel)).2

end Verif
