import Verif.Props.Identities
import Verif.Props.Div

/-!
# C96: the laws of arithmetic hold up to rounding
-/

namespace Verif

open F64 Prim Util

theorem ap_self {a : Double} (ha : a.Normalized) : Ap a (rv a) 0 := ⟨ha, by simp⟩

/-- A sum of two exactly known numbers. -/
theorem ap_add0 {a b : Double} (ha : a.Normalized) (hb : b.Normalized) (h1 : |rv a| ≤ 2 ^ 190) (h2 : |rv b| ≤ 2 ^ 190) :
    Ap (a + b) (rv a + rv b) ((|rv a| + |rv b|) / 2 ^ 103) :=
  (ap_self ha).add (ap_self hb) (M := |rv a| + |rv b|) (by norm_num at h1 ⊢; linarith) (by norm_num at h2 ⊢; linarith)
    (abs_add_le _ _) (le_of_eq (by ring))

theorem rv_le_real {a : Double} {n : ℕ} (h : |a.val| ≤ 2 ^ n) : |rv a| ≤ 2 ^ n := by unfold rv; exact_mod_cast h

/-- **C96.** Regrouping a sum of three Doubles up to `2^190` changes it by at most `5 (|a| + |b| + |c|) / 2^103`. -/
theorem C96_add_assoc (a b c : Double) (ha : a.Normalized) (hb : b.Normalized) (hc : c.Normalized) (h1 : |a.val| ≤ 2 ^ 190)
    (h2 : |b.val| ≤ 2 ^ 190) (h3 : |c.val| ≤ 2 ^ 190) :
    (a + b + c).Normalized ∧ (a + (b + c)).Normalized ∧
      |(a + b + c).val - (a + (b + c)).val| ≤ 5 * (|a.val| + |b.val| + |c.val|) / 2 ^ 103 := by
  have k1 := rv_le_real h1
  have k2 := rv_le_real h2
  have k3 := rv_le_real h3
  have p := ap_add0 ha hb k1 k2
  have q := ap_add0 hb hc k2 k3
  have A0 := abs_nonneg (rv a)
  have B0 := abs_nonneg (rv b)
  have C0 := abs_nonneg (rv c)
  have ab := abs_add_le (rv a) (rv b)
  have bc := abs_add_le (rv b) (rv c)
  have abc := abs_add_le (rv a + rv b) (rv c)
  have abc' : rv a + (rv b + rv c) = rv a + rv b + rv c := by ring
  obtain ⟨S, hS⟩ : ∃ S, |rv a| + |rv b| + |rv c| = S := ⟨_, rfl⟩
  have l := p.add (ap_self hc) (M := S) (g := 24 / 10 * S / 2 ^ 103) (by norm_num at k1 k2 ⊢; linarith) (by norm_num at k3 ⊢; linarith)
    (by linarith) (by rw [← hS]; norm_num; linarith)
  have r := (ap_self ha).add q (M := S) (g := 24 / 10 * S / 2 ^ 103) (by norm_num at k1 ⊢; linarith) (by norm_num at k2 k3 ⊢; linarith)
    (by rw [abc']; linarith) (by rw [← hS]; norm_num; linarith)
  rw [abc'] at r
  refine ⟨l.1, r.1, ?_⟩
  have e : rv (a + b + c) - rv (a + (b + c)) = (rv (a + b + c) - (rv a + rv b + rv c)) - (rv (a + (b + c)) - (rv a + rv b + rv c)) := by ring
  have key : |rv (a + b + c) - rv (a + (b + c))| ≤ 5 * (|rv a| + |rv b| + |rv c|) / 2 ^ 103 := by
    rw [e, hS]
    refine (abs_sub _ _).trans ((add_le_add l.2 r.2).trans ?_)
    have S0 : 0 ≤ S := by rw [← hS]; positivity
    norm_num
    linarith
  unfold rv at key
  exact_mod_cast key

/-- **C96.** Taking away what was added gives the number back within `(3 |a| + 2 |b|) / 2^103`, up to `2^190`. -/
theorem C96_add_sub_cancel (a b : Double) (ha : a.Normalized) (hb : b.Normalized) (h1 : |a.val| ≤ 2 ^ 190) (h2 : |b.val| ≤ 2 ^ 190) :
    (a + b - b).Normalized ∧ |(a + b - b).val - a.val| ≤ (3 * |a.val| + 2 * |b.val|) / 2 ^ 103 := by
  have k1 := rv_le_real h1
  have k2 := rv_le_real h2
  have p := ap_add0 ha hb k1 k2
  have A0 := abs_nonneg (rv a)
  have B0 := abs_nonneg (rv b)
  have ab := abs_add_le (rv a) (rv b)
  have l := p.sub (ap_self hb) (M := |rv a|) (g := (3 * |rv a| + 2 * |rv b|) / 2 ^ 103) (by norm_num at k1 k2 ⊢; linarith)
    (by norm_num at k2 ⊢; linarith) (by rw [add_sub_cancel_right]) (by norm_num; linarith)
  rw [add_sub_cancel_right] at l
  refine ⟨l.1, ?_⟩
  have key := l.2
  unfold rv at key
  exact_mod_cast key

/-- **C96.** Multiplication distributes over addition within `36/2^106 |a| (|b| + |c|) + 2^-247`, up to `2^90`. -/
theorem C96_distrib (a b c : Double) (ha : a.Normalized) (hb : b.Normalized) (hc : c.Normalized) (h1 : |a.val| ≤ 2 ^ 90)
    (h2 : |b.val| ≤ 2 ^ 90) (h3 : |c.val| ≤ 2 ^ 90) :
    (a * (b + c)).Normalized ∧ (a * b + a * c).Normalized ∧
      |(a * (b + c)).val - (a * b + a * c).val| ≤ 36 / 2 ^ 106 * (|a.val| * (|b.val| + |c.val|)) + 1 / 2 ^ 247 := by
  have k1 := rv_le_real h1
  have k2 := rv_le_real h2
  have k3 := rv_le_real h3
  clear h1 h2 h3
  have q := ap_add0 hb hc (by norm_num at k2 ⊢; linarith) (by norm_num at k3 ⊢; linarith)
  have A0 := abs_nonneg (rv a)
  have B0 := abs_nonneg (rv b)
  have C0 := abs_nonneg (rv c)
  have e1 : rv a * (rv b + rv c) = rv a * rv b + rv a * rv c := by ring
  have m1 : |rv a| * |rv b| ≤ 2 ^ 180 := (mul_le_mul k1 k2 B0 (by positivity)).trans (by norm_num)
  have m2 : |rv a| * |rv c| ≤ 2 ^ 180 := (mul_le_mul k1 k3 C0 (by positivity)).trans (by norm_num)
  have m10 := mul_nonneg A0 B0
  have m20 := mul_nonneg A0 C0
  have l := (ap_self ha).mul q (X := |rv a|) (Y := |rv b| + |rv c|) (g := 171 / 10 / 2 ^ 106 * (|rv a| * |rv b| + |rv a| * |rv c|) + 1 / 2 ^ 250)
    le_rfl (abs_add_le _ _) (by norm_num at k1 ⊢; linarith) (by norm_num at k2 k3 ⊢; linarith) (by
      rw [show |rv a| * ((|rv b| + |rv c|) / 2 ^ 103) + (|rv b| + |rv c|) * 0 + 0 * ((|rv b| + |rv c|) / 2 ^ 103) +
        9 / 2 ^ 106 * ((|rv a| + 0) * (|rv b| + |rv c| + (|rv b| + |rv c|) / 2 ^ 103)) + 1 / 2 ^ 250 =
        (1 / 2 ^ 103 + 9 / 2 ^ 106 * (1 + 1 / 2 ^ 103)) * (|rv a| * |rv b| + |rv a| * |rv c|) + 1 / 2 ^ 250 by ring]
      exact add_le_add (mul_le_mul_of_nonneg_right (by norm_num) (by linarith)) le_rfl)
  have pb := (ap_self ha).mul (ap_self hb) (X := |rv a|) (Y := |rv b|) (g := 9 / 2 ^ 106 * (|rv a| * |rv b|) + 1 / 2 ^ 250)
    le_rfl le_rfl (by norm_num at k1 ⊢; linarith) (by norm_num at k2 ⊢; linarith) (le_of_eq (by ring))
  have pc := (ap_self ha).mul (ap_self hc) (X := |rv a|) (Y := |rv c|) (g := 9 / 2 ^ 106 * (|rv a| * |rv c|) + 1 / 2 ^ 250)
    le_rfl le_rfl (by norm_num at k1 ⊢; linarith) (by norm_num at k3 ⊢; linarith) (le_of_eq (by ring))
  have r := pb.add pc (M := |rv a| * |rv b| + |rv a| * |rv c|)
    (g := 171 / 10 / 2 ^ 106 * (|rv a| * |rv b| + |rv a| * |rv c|) + 5 / 2 ^ 250)
    (by rw [abs_mul]; norm_num at m1 ⊢; linarith) (by rw [abs_mul]; norm_num at m2 ⊢; linarith)
    ((abs_add_le _ _).trans (le_of_eq (by rw [abs_mul, abs_mul]))) (by norm_num; linarith)
  rw [e1] at l
  refine ⟨l.1, r.1, ?_⟩
  have e : rv (a * (b + c)) - rv (a * b + a * c) = (rv (a * (b + c)) - (rv a * rv b + rv a * rv c)) -
    (rv (a * b + a * c) - (rv a * rv b + rv a * rv c)) := by ring
  have key : |rv (a * (b + c)) - rv (a * b + a * c)| ≤ 36 / 2 ^ 106 * (|rv a| * (|rv b| + |rv c|)) + 1 / 2 ^ 247 := by
    rw [e, mul_add |rv a|]
    refine (abs_sub _ _).trans ((add_le_add l.2 r.2).trans ?_)
    norm_num
    linarith
  unfold rv at key
  refine (Rat.cast_le (K := ℝ)).mp ?_
  push_cast
  exact key

/-- Products of three numbers of moderate size. -/
theorem mul3 {u v w p : ℝ} (h1 : |p - u * v| ≤ |u * v| / 2 ^ 102) {q : ℝ} (h2 : |q - p * w| ≤ |p * w| / 2 ^ 102) :
    |q - u * v * w| ≤ |u * v * w| * (21 / 10 / 2 ^ 102) := by
  have e : q - u * v * w = (q - p * w) + (p - u * v) * w := by ring
  have hp : |p * w| ≤ |u * v * w| * (1 + 1 / 2 ^ 102) := by
    have := abs_sub_abs_le_abs_sub p (u * v)
    rw [abs_mul, abs_mul (u * v)]
    have h3 := mul_le_mul_of_nonneg_right (show |p| ≤ |u * v| * (1 + 1 / 2 ^ 102) by linarith) (abs_nonneg w)
    linarith
  have h4 : |(p - u * v) * w| ≤ |u * v * w| / 2 ^ 102 := by
    rw [abs_mul, abs_mul (u * v)]
    have h3 := mul_le_mul_of_nonneg_right h1 (abs_nonneg w)
    linarith
  rw [e]
  refine (abs_add_le _ _).trans ?_
  have h0 := abs_nonneg (u * v * w)
  have h5 := div_le_div_of_nonneg_right hp (show (0:ℝ) ≤ 2 ^ 102 by positivity)
  clear hp h1
  norm_num at *
  linarith

/-- **C96.** Regrouping a product of three Doubles between `2^-200` and `2^200` changes it by a relative `5 / 2^102` at most. -/
theorem C96_mul_assoc (a b c : Double) (ha : a.Normalized) (hb : b.Normalized) (hc : c.Normalized)
    (h1 : 1 ≤ |a.val| * 2 ^ 200) (h2 : |a.val| ≤ 2 ^ 200) (h3 : 1 ≤ |b.val| * 2 ^ 200) (h4 : |b.val| ≤ 2 ^ 200)
    (h5 : 1 ≤ |c.val| * 2 ^ 200) (h6 : |c.val| ≤ 2 ^ 200) :
    (a * b * c).Normalized ∧ (a * (b * c)).Normalized ∧
      |(a * b * c).val - (a * (b * c)).val| * 2 ^ 102 ≤ 5 * |a.val * b.val * c.val| := by
  have lo : ∀ {d : Double}, 1 ≤ |d.val| * 2 ^ 200 → 1 ≤ |rv d| * 2 ^ 200 := by intro d h; unfold rv; exact_mod_cast h
  have h1 := lo h1
  have h3 := lo h3
  have h5 := lo h5
  have h2 := rv_le_real h2
  have h4 := rv_le_real h4
  have h6 := rv_le_real h6
  have up : ∀ {x : ℝ}, 1 ≤ |x| * 2 ^ 200 → 1 ≤ |x| * (2 ^ 225 * 2 ^ 225) := fun h =>
    h.trans (mul_le_mul_of_nonneg_left (by norm_num) (abs_nonneg _))
  have dn : ∀ {x : ℝ}, |x| ≤ 2 ^ 200 → |x| ≤ 2 ^ 225 * 2 ^ 225 := fun h => h.trans (by norm_num)
  have two : ∀ {d e : Double}, d.Normalized → e.Normalized → 1 ≤ |rv d| * 2 ^ 200 → |rv d| ≤ 2 ^ 200 → 1 ≤ |rv e| * 2 ^ 200 →
      |rv e| ≤ 2 ^ 200 → (d * e).Normalized ∧ |rv (d * e) - rv d * rv e| ≤ |rv d * rv e| / 2 ^ 102 ∧
        1 ≤ |rv (d * e)| * (2 ^ 225 * 2 ^ 225) ∧ |rv (d * e)| ≤ 2 ^ 225 * 2 ^ 225 := by
    intro d e nd ne d1 d2 e1 e2
    obtain ⟨n, k⟩ := mul_rel_rv nd ne (up d1) (dn d2) (up e1) (dn e2)
    refine ⟨n, k, ?_, ?_⟩
    · have m := mul_le_mul d1 e1 zero_le_one (by positivity)
      have ee : |rv d| * 2 ^ 200 * (|rv e| * 2 ^ 200) = |rv d * rv e| * (2 ^ 200 * 2 ^ 200) := by rw [abs_mul]; ring
      rw [ee, one_mul] at m
      have g : |rv d * rv e| / 2 ≤ |rv (d * e)| := by
        have := abs_sub_abs_le_abs_sub (rv d * rv e) (rv (d * e))
        rw [abs_sub_comm] at this
        have h0 := abs_nonneg (rv d * rv e)
        clear d1 d2 e1 e2 m ee
        generalize rv d * rv e = z at *
        norm_num at k
        linarith
      refine m.trans (le_trans ?_ (mul_le_mul_of_nonneg_right g (by positivity)))
      rw [div_mul_eq_mul_div, mul_div_assoc]
      exact mul_le_mul_of_nonneg_left (by norm_num) (abs_nonneg _)
    · have m : |rv d * rv e| ≤ 2 ^ 200 * 2 ^ 200 := by rw [abs_mul]; exact mul_le_mul d2 e2 (abs_nonneg _) (by positivity)
      have g : |rv (d * e)| ≤ 2 * |rv d * rv e| := by
        have := abs_sub_abs_le_abs_sub (rv (d * e)) (rv d * rv e)
        have h0 := abs_nonneg (rv d * rv e)
        clear d1 d2 e1 e2 m
        generalize rv d * rv e = z at *
        norm_num at k
        linarith
      exact g.trans ((mul_le_mul_of_nonneg_left m (by norm_num)).trans (by norm_num))
  obtain ⟨n1, r1, l1, u1⟩ := two ha hb h1 h2 h3 h4
  obtain ⟨n2, r2, l2, u2⟩ := two hb hc h3 h4 h5 h6
  obtain ⟨n3, r3⟩ := mul_rel_rv n1 hc l1 u1 (up h5) (dn h6)
  obtain ⟨n4, r4⟩ := mul_rel_rv ha n2 (up h1) (dn h2) l2 u2
  refine ⟨n3, n4, ?_⟩
  clear two up dn lo l1 l2 u1 u2 h1 h2 h3 h4 h5 h6
  have s1 := mul3 r1 r3
  have s2 : |rv (a * (b * c)) - rv a * rv b * rv c| ≤ |rv a * rv b * rv c| * (21 / 10 / 2 ^ 102) := by
    have := mul3 (w := rv a) r2 (q := rv (a * (b * c))) (by rw [mul_comm (rv (b * c)) (rv a)]; exact r4)
    rw [show rv b * rv c * rv a = rv a * rv b * rv c by ring] at this
    exact this
  have e : rv (a * b * c) - rv (a * (b * c)) = (rv (a * b * c) - rv a * rv b * rv c) - (rv (a * (b * c)) - rv a * rv b * rv c) := by ring
  have key : |rv (a * b * c) - rv (a * (b * c))| * 2 ^ 102 ≤ 5 * |rv a * rv b * rv c| := by
    have t := (abs_sub _ _).trans (add_le_add s1 s2)
    rw [← e] at t
    have h0 := abs_nonneg (rv a * rv b * rv c)
    clear s1 s2 r1 r2 r3 r4 e
    generalize rv a * rv b * rv c = z at *
    norm_num at t ⊢
    linarith
  unfold rv at key
  exact_mod_cast key

/-- **C96.** Dividing by what was multiplied gives the number back within a relative `3 / 2^102`, between `2^-400` and `2^400`. -/
theorem C96_mul_div_cancel (a b : Double) (ha : a.Normalized) (hb : b.Normalized)
    (h1 : 1 ≤ |a.val| * 2 ^ 400) (h2 : |a.val| ≤ 2 ^ 400) (h3 : 1 ≤ |b.val| * 2 ^ 400) (h4 : |b.val| ≤ 2 ^ 400) :
    (a * b / b).Normalized ∧ |(a * b / b).val - a.val| * 2 ^ 102 ≤ 3 * |a.val| := by
  rw [show (2:ℚ) ^ 400 = 2 ^ 200 * 2 ^ 200 by rw [← pow_add]] at h1 h2 h3 h4
  have up : ∀ {d : Double}, 1 ≤ |d.val| * (2 ^ 200 * 2 ^ 200) → 1 ≤ |rv d| * (2 ^ 225 * 2 ^ 225) := by
    intro d h
    have h' : 1 ≤ |rv d| * (2 ^ 200 * 2 ^ 200) := by unfold rv; exact_mod_cast h
    exact h'.trans (mul_le_mul_of_nonneg_left (by norm_num) (abs_nonneg _))
  have dn : ∀ {d : Double}, |d.val| ≤ 2 ^ 200 * 2 ^ 200 → |rv d| ≤ 2 ^ 225 * 2 ^ 225 := by
    intro d h
    have h' : |rv d| ≤ 2 ^ 200 * 2 ^ 200 := by unfold rv; exact_mod_cast h
    exact h'.trans (by norm_num)
  obtain ⟨n, k⟩ := mul_rel_rv ha hb (up h1) (dn h2) (up h3) (dn h4)
  have k : |(a * b).val - a.val * b.val| ≤ |a.val * b.val| / 2 ^ 102 := by unfold rv at k; exact_mod_cast k
  clear up dn
  have A0 := abs_nonneg a.val
  have B0 := abs_nonneg b.val
  have hb0 : b.val ≠ 0 := by
    intro e; rw [e, abs_zero, zero_mul] at h3; exact absurd h3 (by norm_num)
  have hA0 : 0 < |a.val| := by
    rcases lt_or_eq_of_le A0 with h | h
    · exact h
    · rw [← h, zero_mul] at h1; exact absurd h1 (by norm_num)
  have hB0 : 0 < |b.val| := abs_pos.mpr hb0
  have g1 : |a.val| * |b.val| / 2 ≤ |(a * b).val| := by
    have := abs_sub_abs_le_abs_sub (a.val * b.val) (a * b).val
    rw [abs_sub_comm] at this
    have h0 := mul_nonneg A0 B0
    rw [abs_mul] at this k
    clear h1 h2 h3 h4
    norm_num at k
    linarith
  have g2 : |(a * b).val| ≤ 2 * (|a.val| * |b.val|) := by
    have := abs_sub_abs_le_abs_sub (a * b).val (a.val * b.val)
    have h0 := mul_nonneg A0 B0
    rw [abs_mul] at this k
    clear h1 h2 h3 h4
    norm_num at k
    linarith
  obtain ⟨u1, u2⟩ := hiQ n
  obtain ⟨v1, v2⟩ := hiQ hb
  have hbh : 0 < |b.hi.toRat| := by linarith
  have c1 : |(a * b).hi.toRat| ≤ 4 * (|a.val| * |b.val|) := by linarith
  have c2 : |a.val| * |b.val| ≤ 4 * |(a * b).hi.toRat| := by linarith
  have d := C04_div (a * b) b n hb (abs_pos.mp hbh) (by
      have m := mul_le_mul h1 h3 zero_le_one (by positivity)
      rw [one_mul, show |a.val| * (2 ^ 200 * 2 ^ 200) * (|b.val| * (2 ^ 200 * 2 ^ 200)) =
        |a.val| * |b.val| * (2 ^ 200 * 2 ^ 200 * (2 ^ 200 * 2 ^ 200)) by ring] at m
      refine m.trans ((mul_le_mul_of_nonneg_right c2 (by positivity)).trans ?_)
      rw [mul_comm (4:ℚ), mul_assoc]
      refine mul_le_mul_of_nonneg_left ?_ (abs_nonneg _)
      rw [show (2:ℚ) ^ 200 * 2 ^ 200 * (2 ^ 200 * 2 ^ 200) = 2 ^ 800 by simp only [← pow_add], show (4:ℚ) = 2 ^ 2 by norm_num, ← pow_add]
      exact pow_le_pow_right₀ (by norm_num) (by norm_num)) (by
      have m := mul_le_mul h2 h4 B0 (by positivity)
      refine (c1.trans (mul_le_mul_of_nonneg_left m (by norm_num))).trans ?_
      rw [show (2:ℚ) ^ 200 * 2 ^ 200 * (2 ^ 200 * 2 ^ 200) = 2 ^ 800 by simp only [← pow_add], show (4:ℚ) = 2 ^ 2 by norm_num, ← pow_add]
      exact pow_le_pow_right₀ (by norm_num) (by norm_num)) (by
      rw [abs_div]
      have m : |a.val| / 8 ≤ |(a * b).hi.toRat| / |b.hi.toRat| := by
        rw [div_le_div_iff₀ (by norm_num) hbh]
        have := mul_le_mul_of_nonneg_left v1 A0
        linarith
      refine h1.trans (le_trans ?_ (mul_le_mul_of_nonneg_right m (by positivity)))
      rw [div_mul_eq_mul_div, mul_div_assoc]
      refine mul_le_mul_of_nonneg_left ?_ A0
      rw [show (2:ℚ) ^ 200 * 2 ^ 200 = 2 ^ 400 by simp only [← pow_add], le_div_iff₀ (by norm_num), show (8:ℚ) = 2 ^ 3 by norm_num, ← pow_add]
      exact pow_le_pow_right₀ (by norm_num) (by norm_num)) (by
      rw [abs_div]
      have m : |(a * b).hi.toRat| / |b.hi.toRat| ≤ 8 * |a.val| := by
        rw [div_le_iff₀ hbh]
        have := mul_le_mul_of_nonneg_left v2 A0
        linarith
      refine m.trans ((mul_le_mul_of_nonneg_left h2 (by norm_num)).trans ?_)
      rw [show (2:ℚ) ^ 200 * 2 ^ 200 = 2 ^ 400 by simp only [← pow_add], show (8:ℚ) = 2 ^ 3 by norm_num, ← pow_add]
      exact pow_le_pow_right₀ (by norm_num) (by norm_num))
  refine ⟨d.1, ?_⟩
  have d2 := d.2.le
  clear d h1 h2 h3 h4 u1 u2 v1 v2 c1 c2 g1 g2
  have e1 : |(a * b).val / b.val - a.val| ≤ |a.val| / 2 ^ 102 := by
    have : (a * b).val / b.val - a.val = ((a * b).val - a.val * b.val) / b.val := by field_simp
    rw [this, abs_div, div_le_iff₀ hB0]
    rw [abs_mul] at k
    linarith
  have e2 := abs_sub_abs_le_abs_sub ((a * b).val / b.val) a.val
  have e3 := abs_add_le ((a * b / b).val - (a * b).val / b.val) ((a * b).val / b.val - a.val)
  rw [sub_add_sub_cancel] at e3
  generalize (a * b).val / b.val = z at *
  norm_num at d2 e1 e2 e3 ⊢
  linarith

/-- **C96 is not exact**: addition of Doubles is not associative. -/
theorem C96_assoc_refuted : ∃ a b c : Double, a.Normalized ∧ b.Normalized ∧ c.Normalized ∧
    (a + b + c).val ≠ (a + (b + c)).val :=
  ⟨Double.ONE, -Double.ONE, ⟨F64.powi Double.two (-60), F64.powi Double.two (-120)⟩, by decide +kernel⟩

/-- The hypotheses of the theorems above are met by the constants of the library. -/
example : Double.PI.Normalized ∧ Double.E.Normalized ∧ Double.LN_10.Normalized ∧ |Double.PI.val| ≤ 2 ^ 90 ∧ |Double.E.val| ≤ 2 ^ 90 ∧
    |Double.LN_10.val| ≤ 2 ^ 90 ∧ 1 ≤ |Double.PI.val| * 2 ^ 200 ∧ 1 ≤ |Double.E.val| * 2 ^ 200 ∧ 1 ≤ |Double.LN_10.val| * 2 ^ 200 := by
  decide +kernel

example : (Double.PI * Double.E / Double.E).Normalized ∧
    |(Double.PI * Double.E / Double.E).val - Double.PI.val| * 2 ^ 102 ≤ 3 * |Double.PI.val| :=
  C96_mul_div_cancel _ _ (by decide +kernel) (by decide +kernel) (by decide +kernel) (by decide +kernel) (by decide +kernel)
    (by decide +kernel)

example : |(Double.PI + Double.E + Double.LN_10).val - (Double.PI + (Double.E + Double.LN_10)).val| ≤
    5 * (|Double.PI.val| + |Double.E.val| + |Double.LN_10.val|) / 2 ^ 103 :=
  (C96_add_assoc _ _ _ (by decide +kernel) (by decide +kernel) (by decide +kernel) (by decide +kernel) (by decide +kernel)
    (by decide +kernel)).2.2

end Verif
