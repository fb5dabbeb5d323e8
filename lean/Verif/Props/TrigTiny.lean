import Verif.Props.Trig
import Verif.Props.DivAny
import Verif.Proofs.QuadWhole

/-!
# C68: sine and tangent of very small numbers
-/

namespace Verif

open F64

/-- `reduce` leaves small numbers alone. -/
theorem reduce_tiny {a : Double} (ha : a.Normalized) (h2 : |rv a| ≤ 9 / 100) :
    ∃ t, Double.reduce a = (0, 0, t) ∧ t.Normalized ∧ rv t = rv a := by
  obtain ⟨p1, p2⟩ := pi_bds
  obtain ⟨h, l, ia, hn⟩ := ha.norm2
  obtain ⟨w1, w2, w3⟩ := quot_tau ha (h2.trans (by norm_num))
  obtain ⟨Z, z1, -, z3⟩ := round_weak w1.1 w3
  have hw : |rv (a / Double.TAU)| ≤ 1 / 4 := w2 h2
  have hZ := z3 hw
  subst hZ
  have zero_dis : ∀ {d : Double}, Ap d ((0:ℤ):ℝ) 0 → DIs d 0 0 := by
    intro d hd
    obtain ⟨x, y, i, n⟩ := hd.1.norm2
    have e : rv d = 0 := by
      have := hd.2
      rw [Int.cast_zero, sub_zero] at this
      exact abs_eq_zero.mp (le_antisymm this (abs_nonneg _))
    have fz := fr_hi_two hd.1
    rw [e, abs_zero, mul_zero] at fz
    have f0 : fr d.hi = 0 := abs_eq_zero.mp (le_antisymm fz (abs_nonneg _))
    have i1 : Is d.hi 0 := by have := is_of_fr hd.1.1.1 (w := 0) (by rw [f0, Int.cast_zero]); simpa using this
    have x0 : x = 0 := i.1.unique i1
    have l0 := n.two_le
    rw [x0, abs_zero] at l0
    have y0 : y = 0 := by
      have := abs_nonneg y
      exact abs_eq_zero.mp (by omega)
    rw [x0, y0] at i; exact i
  have tn : ∀ {c : Double} {γ : ℝ} , Ap c γ (γ / 2 ^ 104) → ∃ n, Is c.hi n := by
    intro c γ hc
    obtain ⟨x, y, i, -⟩ := hc.1.norm2
    exact ⟨x, i.1⟩
  obtain ⟨n1, i1⟩ := tn ap_TAU2
  obtain ⟨n2, i2⟩ := tn ap_PI_2
  obtain ⟨n3, i3⟩ := tn ap_PI_16
  have d1 := dis_sub_zero ia hn (dis_mul_zero_left (zero_dis z1) i1)
  unfold Double.reduce
  dsimp only
  generalize a - (a / Double.TAU).round * Double.TAU = r at *
  have rvr : ∀ {d : Double}, DIs d h l → rv d = rv a := by
    intro d hd
    unfold rv; rw [hd.val, ia.val]
  have small : ∀ {γ : ℝ} {Q : ℤ}, 0.19 < γ → |rv a - Q * γ| ≤ γ * (1 / 2 + 1 / 2 ^ 40) → Q = 0 := by
    intro γ Q hg h
    by_contra hQ
    have h1 : (1:ℝ) ≤ |(Q:ℝ)| := by exact_mod_cast Int.one_le_abs hQ
    have h3 : |(Q:ℝ)| * γ ≤ |rv a| + |rv a - Q * γ| := by
      have := abs_sub (rv a) (rv a - Q * γ)
      rw [show rv a - (rv a - Q * γ) = Q * γ by ring, abs_mul, abs_of_pos (show 0 < γ by linarith)] at this
      exact this
    have h4 : 1 * γ ≤ |(Q:ℝ)| * γ := mul_le_mul_of_nonneg_right h1 (by linarith)
    norm_num at h h2 hg ⊢
    linarith
  have step : ∀ {d c : Double} {γ : ℝ} {n : ℤ}, DIs d h l → 0.19 < γ → Ap c γ (γ / 2 ^ 104) → Is c.hi n →
      Is (F64.floor (F64.add (F64.div d.hi c.hi) Double.half)) 0 := by
    intro d c γ n hd hg hc hi
    obtain ⟨Q, q1, q2⟩ := quot_floor (hn.normalized hd) (by linarith) hc (by rw [rvr hd]; linarith)
    rw [rvr hd] at q2
    rw [small hg q2, zero_mul] at q1
    exact q1
  have i32 : ∀ {x : F64}, Is x 0 → F64.toI32 x = 0 := fun hx => toI32_of_is (w := 0) (by simpa using hx) (by norm_num)
  have s1 := step d1 (show 0.19 < Real.pi / 2 by norm_num; linarith) ap_PI_2 i2
  generalize F64.floor (F64.add (F64.div r.hi Double.FRAC_PI_2.hi) Double.half) = q at *
  have d2 := dis_sub_zero d1 hn (dis_mul_zero_left (a := ⟨q, F64.zero⟩) ⟨s1, is_zero⟩ i2)
  generalize r - (⟨q, F64.zero⟩ : Double) * Double.FRAC_PI_2 = t at *
  have s2 := step d2 (show 0.19 < Real.pi / 16 by norm_num; linarith) ap_PI_16 i3
  generalize F64.floor (F64.add (F64.div t.hi Double.FRAC_PI_16.hi) Double.half) = q' at *
  have d3 := dis_sub_zero d2 hn (dis_mul_zero_left (a := ⟨q', F64.zero⟩) ⟨s2, is_zero⟩ i3)
  exact ⟨_, by rw [i32 s1, i32 s2], hn.normalized d3, rvr d3⟩

/-- The loop of the sine for a very small argument. -/
theorem tinyLoop {x thr : Double} {b : ℝ} (hb1 : tau * 2 ^ 160 ≤ |b|) (hb2 : |b| ≤ 1) (hx : x.Normalized)
    (hx2 : |rv x| ≤ 1 / 2 ^ 160) : ∀ (fuel i : ℕ) (r s v : Double), i ≤ 16 → r.Normalized → |rv r| ≤ |b| → s.Normalized →
      |rv s - b| ≤ i * (|b| * (51 / 100 / 2 ^ 103)) → Double.taylorLoop x thr fuel i r s = some v →
      v.Normalized ∧ |rv v - b| ≤ |b| * (102 / 100 / 2 ^ 100 * (17 / 16)) := by
  intro fuel
  induction fuel with
  | zero => intro i r s v _ _ _ _ _ h; simp [Double.taylorLoop] at h
  | succ f ih =>
    intro i r s v hi hr hr2 hs hs2 h
    have b0 := abs_nonneg b
    have t0 := tau_pos
    have ht : tau ≤ |b| / 2 ^ 160 := by rw [le_div_iff₀ (by norm_num)]; exact hb1
    have big : (1:ℝ) ≤ 2 ^ 1020 := one_le_pow₀ (by norm_num)
    unfold Double.taylorLoop at h
    dsimp only at h
    by_cases h15 : i < 15
    swap
    · have : Double.INV_FACTS[i]? = none := by
        rw [List.getElem?_eq_none]; rw [inv_facts_len]; omega
      rw [this] at h; exact absurd h (by simp)
    obtain ⟨c, hc, hcA⟩ := ap_inv_fact h15
    rw [hc] at h
    dsimp only at h
    have hc1 : |rv c| ≤ 1 := by
      have h1 := hcA.abs_le
      have h2 : |1 / ((i + 3).factorial : ℝ)| ≤ 1 / 6 := by
        rw [abs_div, Nat.abs_cast, abs_one]
        apply one_div_le_one_div_of_le (by norm_num)
        have : Nat.factorial 3 ≤ (i + 3).factorial := Nat.factorial_le (by omega)
        exact_mod_cast this
      norm_num at h1 h2 ⊢; linarith
    have hP : |rv r * rv x| ≤ |b| / 2 ^ 160 := by
      rw [abs_mul, div_eq_mul_one_div]
      exact mul_le_mul hr2 hx2 (abs_nonneg _) b0
    have m1 := rw_mul hr hx (by refine le_trans (hP.trans ?_) big; norm_num at hb2 ⊢; linarith)
    have r1 : |rv (r * x)| ≤ |b| / 2 ^ 150 := by
      have := m1.abs_le
      clear big hb1
      generalize |rv r * rv x| = w at *
      norm_num at hP this ht ⊢; linarith
    have hP2 : |rv (r * x) * rv c| ≤ |b| / 2 ^ 150 := by
      rw [abs_mul]
      exact (mul_le_of_le_one_right (abs_nonneg _) hc1).trans r1
    have m2 := rw_mul m1.1 hcA.1 (by refine le_trans (hP2.trans ?_) big; norm_num at hb2 ⊢; linarith)
    have r2 : |rv (r * x * c)| ≤ |b| / 2 ^ 140 := by
      have := m2.abs_le
      clear big hb1
      generalize |rv (r * x) * rv c| = w at *
      norm_num at hP2 this ht ⊢; linarith
    have i16 : (i:ℝ) ≤ 16 := by exact_mod_cast hi
    have hs3 : |rv s - b| ≤ 16 * (|b| * (51 / 100 / 2 ^ 103)) := hs2.trans (mul_le_mul_of_nonneg_right i16 (by positivity))
    have sb : |rv s| ≤ |b| + |rv s - b| := by
      have := abs_add_le b (rv s - b); rwa [add_sub_cancel] at this
    have s2 : |rv s| ≤ 2 := by norm_num at hs3 hb2 sb ⊢; linarith
    have two1020 : (2:ℝ) ≤ 2 ^ 1020 := le_self_pow₀ (by norm_num) (by norm_num)
    have a1 := rw_add hs m2.1 (s2.trans two1020) (by refine le_trans (r2.trans ?_) big; norm_num at hb2 ⊢; linarith)
    have a2 := a1.2
    have ab := abs_add_le (rv s) (rv (r * x * c))
    have e1 : |rv (s + r * x * c) - b| ≤ |rv (s + r * x * c) - (rv s + rv (r * x * c))| + (|rv s - b| + |rv (r * x * c)|) := by
      have u1 := abs_sub_le (rv (s + r * x * c)) (rv s + rv (r * x * c)) b
      have u2 := abs_add_le (rv s - b) (rv (r * x * c))
      rw [show rv s - b + rv (r * x * c) = rv s + rv (r * x * c) - b by ring] at u2
      linarith
    have e2 : |rv (s + r * x * c) - b| ≤ ((i + 2 : ℕ) : ℝ) * (|b| * (51 / 100 / 2 ^ 103)) := by
      push_cast
      rw [add_mul]
      clear big two1020 hb1
      generalize (i:ℝ) * (|b| * (51 / 100 / 2 ^ 103)) = E at *
      generalize |rv s + rv (r * x * c)| = w at *
      norm_num at *
      linarith
    by_cases hst : (i + 2 ≥ Double.INV_FACTS.length || Double.le (r * x * c).abs thr) = true
    · rw [if_pos hst] at h
      obtain rfl := Option.some.inj h
      refine ⟨a1.1, e2.trans ?_⟩
      have i16 : (((i + 2 : ℕ)):ℝ) ≤ 17 := by exact_mod_cast (by omega)
      refine (mul_le_mul_of_nonneg_right i16 (by positivity)).trans (le_of_eq ?_)
      generalize |b| = β
      norm_num; ring
    · rw [if_neg hst] at h
      have : i + 2 < 15 := by
        by_contra hc
        apply hst
        rw [Bool.or_eq_true, decide_eq_true_eq, inv_facts_len]; left; omega
      refine ih (i + 2) _ _ v (by omega) m1.1 (r1.trans ?_) a1.1 e2 h
      clear big two1020 hb1
      norm_num; linarith

/-- The sine of a very small number, in terms of the reduced argument. -/
theorem sinTaylor_tiny {t v : Double} (ht : t.Normalized) (h0 : rv t ≠ 0) (h1 : tau * 2 ^ 160 ≤ |rv t|) (h2 : |rv t| ≤ 1 / 2 ^ 100)
    (h : Double.sinTaylor t = some v) : v.Normalized ∧ |rv v - rv t| ≤ |rv t| * (102 / 100 / 2 ^ 100 * (17 / 16)) := by
  obtain ⟨-, hz, -⟩ := class_of ht h0
  unfold Double.sinTaylor at h
  rw [if_neg (by simp [hz])] at h
  dsimp only at h
  have big : (1:ℝ) ≤ 2 ^ 1020 := one_le_pow₀ (by norm_num)
  have t0 := tau_pos
  have t00 := abs_nonneg (rv t)
  have sq : |rv t * rv t| ≤ 1 / 2 ^ 200 := by
    rw [abs_mul]
    refine (mul_le_mul h2 h2 t00 (by norm_num)).trans (by norm_num)
  have ss := (rw_sqr ht (sq.trans (le_trans (by norm_num) big))).1
  have xb : |rv t.sqr| ≤ 1 / 2 ^ 160 := by
    have h3 := ss.abs_le
    have h4 : rv t ^ 2 = |rv t * rv t| := by rw [← sq_abs, pow_two, abs_mul]
    have h5 : tau ≤ |rv t| / 2 ^ 160 := by rw [le_div_iff₀ (by norm_num)]; exact h1
    rw [abs_of_nonneg (sq_nonneg (rv t)), h4] at h3
    clear big h1
    generalize |rv t * rv t| = w at *
    norm_num at *; linarith
  have ns := ss.neg
  have := tinyLoop (x := -t.sqr) h1 (h2.trans (by norm_num)) ns.1 (by rw [rv_neg ss.1, abs_neg]; exact xb) _ 0 t t v (by norm_num)
    ht le_rfl ht (by simp) h
  exact this

theorem tau_le_of {x : ℝ} (h : 1 ≤ |x| * 2 ^ 900) : tau * 2 ^ 160 ≤ |x| := by
  have h1 := tau_mul (k := 1060) (by norm_num)
  have h2 : tau * 2 ^ 160 * 2 ^ 900 ≤ 1 := by rw [mul_assoc, ← pow_add]; exact h1
  have h3 := h2.trans h
  exact le_of_mul_le_mul_right h3 (pow_pos (by norm_num) _)

/-- A small number and its sine. -/
theorem sin_near {A : ℝ} (h : |A| ≤ 1 / 2 ^ 100) : |Real.sin A - A| ≤ |A| / 2 ^ 190 := by
  have h0 := abs_nonneg A
  have key : ∀ x : ℝ, 0 ≤ x → x ≤ 1 → |Real.sin x - x| ≤ x * x ^ 2 := by
    intro x x0 x1
    rcases eq_or_lt_of_le x0 with rfl | xp
    · simp
    · have a1 := Real.sin_le x0
      have a2 := Real.sin_gt_sub_cube xp
      have a3 : 0 ≤ x ^ 3 := by positivity
      rw [abs_le]; constructor <;> nlinarith
  have k := key |A| h0 (h.trans (by norm_num))
  have e : |Real.sin (|A|) - (|A|)| = |Real.sin A - A| := by
    rcases abs_cases A with ⟨e, _⟩ | ⟨e, _⟩ <;> rw [e]
    rw [Real.sin_neg, ← abs_neg]; congr 1; ring
  rw [e] at k
  refine k.trans ?_
  rw [div_eq_mul_one_div]
  refine mul_le_mul_of_nonneg_left ?_ h0
  refine (pow_le_pow_left₀ h0 h 2).trans (by norm_num)

/-- Everything about a very small argument. -/
theorem trig_tiny (P : Platform) (hP : FloatText P.toStr) {a : Double} (ha : a.Normalized) (h1 : 1 ≤ |rv a| * 2 ^ 900)
    (h2 : |rv a| ≤ 1 / 2 ^ 100) : ∃ s p, Double.sin P a = some s ∧ Double.sinCos P a = some p ∧
      Ap s (Real.sin (rv a)) (|Real.sin (rv a)| * (11 / 10 / 2 ^ 100)) ∧
      Ap p.1 (Real.sin (rv a)) (|Real.sin (rv a)| * (11 / 10 / 2 ^ 100)) ∧ Ap p.2 (Real.cos (rv a)) (103 / 2 ^ 106) := by
  have h0 : rv a ≠ 0 := by
    intro h; rw [h, abs_zero, zero_mul] at h1; exact absurd h1 (by norm_num)
  obtain ⟨s, c, p, s1, c1, p1, s2, -, p2, -, sm⟩ := trig_facts P hP ha (h2.trans (by norm_num))
  have m4 := (sm (h2.trans (by norm_num))).2.2.2
  obtain ⟨t, r1, r2, r3⟩ := reduce_tiny ha (h2.trans (by norm_num))
  obtain ⟨-, hz, -⟩ := class_of ha h0
  have hfin : a.isFinite = true := ha.1.1
  have near := sin_near h2
  have t1 := tau_le_of h1
  clear h1
  have fin : ∀ {v : Double}, v.Normalized ∧ |rv v - rv t| ≤ |rv t| * (102 / 100 / 2 ^ 100 * (17 / 16)) →
      Ap v (Real.sin (rv a)) (|Real.sin (rv a)| * (11 / 10 / 2 ^ 100)) := by
    rintro v ⟨h1, h3⟩
    rw [r3] at h3
    refine ⟨h1, ?_⟩
    have b0 := abs_nonneg (rv a)
    have u1 := abs_sub_le (rv v) (rv a) (Real.sin (rv a))
    rw [abs_sub_comm (rv a)] at u1
    have u2 := abs_sub_abs_le_abs_sub (rv a) (Real.sin (rv a))
    rw [abs_sub_comm (rv a)] at u2
    norm_num at near h3 ⊢
    linarith
  have hs : Double.sinTaylor t = some s := by
    have := s1
    unfold Double.sin at this
    rw [show Double.preSin a = none by unfold Double.preSin; simp [hz, hfin], r1] at this
    simpa using this
  have hp : Double.sinTaylor t = some p.1 := by
    have := p1
    unfold Double.sinCos at this
    rw [show Double.preSinCos a = none by unfold Double.preSinCos; simp [hz, hfin], r1] at this
    simp only [Double.sincosTaylor] at this
    obtain ⟨-, hzt, -⟩ := class_of r2 (by rw [r3]; exact h0)
    rw [if_neg (by simp [hzt])] at this
    rw [Option.bind_eq_some_iff] at this
    obtain ⟨q, q1, q2⟩ := this
    rw [Option.bind_eq_some_iff] at q1
    obtain ⟨w, w1, w2⟩ := q1
    rw [Option.map_eq_some_iff] at w2
    obtain ⟨y, -, y2⟩ := w2
    subst y2
    simp only [↓reduceIte, Double.quadrant] at q2
    rw [← Option.some.inj q2]
    exact w1
  refine ⟨s, p, s1, p1, fin (sinTaylor_tiny r2 (by rw [r3]; exact h0) (by rw [r3]; exact t1) (by rw [r3]; exact h2) hs),
    fin (sinTaylor_tiny r2 (by rw [r3]; exact h0) (by rw [r3]; exact t1) (by rw [r3]; exact h2) hp), m4⟩

/-- **C68.** The relative error of the sine stays small down to arguments of magnitude `2^-900`. -/
theorem C68_sin_tiny (P : Platform) (hP : FloatText P.toStr) (a : Double) (ha : a.Normalized)
    (h1 : 1 ≤ |a.val| * 2 ^ 900) (h2 : |a.val| ≤ 9 / 100) :
    ∃ r p, Double.sin P a = some r ∧ Double.sinCos P a = some p ∧
      |(r.val : ℝ) - Real.sin (a.val : ℝ)| ≤ |Real.sin (a.val : ℝ)| / 2 ^ 99 ∧
      |(p.1.val : ℝ) - Real.sin (a.val : ℝ)| ≤ |Real.sin (a.val : ℝ)| / 2 ^ 99 := by
  by_cases hs : |a.val| ≤ 1 / 2 ^ 100
  · have h1' : 1 ≤ |rv a| * 2 ^ 900 := by unfold rv; exact_mod_cast h1
    have hs' : |rv a| ≤ 1 / 2 ^ 100 := by
      unfold rv; have := (Rat.cast_le (K := ℝ)).mpr hs; push_cast at this; exact this
    obtain ⟨s, p, s1, p1, s2, p2, -⟩ := trig_tiny P hP ha h1' hs'
    refine ⟨s, p, s1, p1, s2.2.trans ?_, p2.2.trans ?_⟩ <;>
    · change |Real.sin (rv a)| * _ ≤ |Real.sin (rv a)| / _
      have := abs_nonneg (Real.sin (rv a))
      rw [div_eq_mul_one_div]
      exact mul_le_mul_of_nonneg_left (by norm_num) this
  · refine C68_sin_small P hP a ha ?_ h2
    have := (not_le.mp hs).le
    norm_num at this ⊢; linarith

/-- The Double `10^-200`. -/
def tinyArg : Double := ⟨F64.ofDec false 1 (-200), F64.zero⟩

example (P : Platform) (h : P.toStr = text17) : ∃ r p, Double.sin P tinyArg = some r ∧ Double.sinCos P tinyArg = some p ∧
    |(r.val : ℝ) - Real.sin ((tinyArg.val : ℚ) : ℝ)| ≤ |Real.sin ((tinyArg.val : ℚ) : ℝ)| / 2 ^ 99 ∧
    |(p.1.val : ℝ) - Real.sin ((tinyArg.val : ℚ) : ℝ)| ≤ |Real.sin ((tinyArg.val : ℚ) : ℝ)| / 2 ^ 99 :=
  C68_sin_tiny P (h ▸ text17_ok) _ (by decide +kernel) (by decide +kernel) (by decide +kernel)

/-- **C68.** The same for the tangent, down to `2^-900`. -/
theorem C68_tan_tiny (P : Platform) (hP : FloatText P.toStr) (a : Double) (ha : a.Normalized)
    (h1 : 1 ≤ |a.val| * 2 ^ 900) (h2 : |a.val| ≤ 9 / 100) :
    ∃ r, Double.tan P a = some r ∧ r.Normalized ∧
      |(r.val : ℝ) - Real.tan (a.val : ℝ)| ≤ |Real.tan (a.val : ℝ)| / 2 ^ 98 := by
  by_cases hs : |a.val| ≤ 1 / 2 ^ 100
  swap
  · refine C68_tan_small P hP a ha ?_ h2
    have := (not_le.mp hs).le
    norm_num at this ⊢; linarith
  have h1' : 1 ≤ |rv a| * 2 ^ 900 := by unfold rv; exact_mod_cast h1
  have hs' : |rv a| ≤ 1 / 2 ^ 100 := by
    unfold rv; have := (Rat.cast_le (K := ℝ)).mpr hs; push_cast at this; exact this
  obtain ⟨s, p, s1, p1, s2, p2, p3⟩ := trig_tiny P hP ha h1' hs'
  have near := sin_near hs'
  change ∃ r, Double.tan P a = some r ∧ r.Normalized ∧ |rv r - Real.tan (rv a)| ≤ |Real.tan (rv a)| / 2 ^ 98
  rw [Real.tan_eq_sin_div_cos]
  have b0 := abs_nonneg (rv a)
  have sA : |rv a| * (999 / 1000) ≤ |Real.sin (rv a)| := by
    have u2 := abs_sub_abs_le_abs_sub (rv a) (Real.sin (rv a))
    rw [abs_sub_comm (rv a)] at u2
    clear h1'
    norm_num at near ⊢; linarith
  have sB : |Real.sin (rv a)| ≤ |rv a| := Real.abs_sin_le_abs
  have hc : 0.99 ≤ Real.cos (rv a) := by
    have h := Real.one_sub_sq_div_two_le_cos (x := rv a)
    have h5 : rv a ^ 2 ≤ (1 / 2 ^ 100) ^ 2 := by rw [← sq_abs]; exact pow_le_pow_left₀ (abs_nonneg _) hs' 2
    norm_num at h5 ⊢; linarith
  have hc1 := Real.cos_le_one (rv a)
  -- the underflow term of the division
  have und : (1:ℝ) / 2 ^ 1010 ≤ |rv a| / 2 ^ 110 := by
    rw [div_le_div_iff₀ (pow_pos (by norm_num) _) (pow_pos (by norm_num) _)]
    rw [show (2:ℝ) ^ 1010 = 2 ^ 900 * 2 ^ 110 by rw [← pow_add], ← mul_assoc]
    exact mul_le_mul_of_nonneg_right h1' (by positivity)
  clear h1' h1 h2 hs
  generalize Real.sin (rv a) = S at *
  generalize Real.cos (rv a) = C at *
  have pc : 0.98 ≤ rv p.2 := by
    have := (abs_le.mp p3.2).1
    norm_num at this hc ⊢; linarith
  have pc1 : rv p.2 ≤ 1.01 := by
    have := (abs_le.mp p3.2).2
    norm_num at this hc ⊢; linarith
  have ps := p2.abs_le
  have psb : |rv p.1| ≤ 1 := by norm_num at ps sB hs' ⊢; linarith
  have d := rw_diva p2.1 p3.1 (psb.trans (one_le_pow₀ (by norm_num))) (by
    rw [abs_of_pos (show 0 < rv p.2 by linarith)]; norm_num at pc ⊢; linarith)
  refine ⟨p.1 / p.2, by unfold Double.tan; rw [p1]; rfl, d.1, ?_⟩
  have d2 := d.2
  have S0 := abs_nonneg S
  -- the quotient of the approximations
  have e1 : |rv p.1 / rv p.2 - S / C| ≤ |S / C| * (3 / 2 ^ 100) := by
    have Cp : 0 < C := by linarith
    have Pp : 0 < rv p.2 := by linarith
    rw [div_sub_div _ _ Pp.ne' Cp.ne', abs_div, abs_div, abs_of_pos (mul_pos Pp Cp), abs_of_pos Cp, div_le_iff₀ (mul_pos Pp Cp)]
    have e : |S| / C * (3 / 2 ^ 100) * (rv p.2 * C) = |S| * (3 / 2 ^ 100) * rv p.2 := by field_simp
    rw [e]
    have e2 : rv p.1 * C - rv p.2 * S = (rv p.1 - S) * C + S * (C - rv p.2) := by ring
    rw [e2]
    refine (abs_add_le _ _).trans ?_
    rw [abs_mul, abs_mul, abs_of_pos Cp, abs_sub_comm C]
    have f1 : |rv p.1 - S| * C ≤ |S| * (11 / 10 / 2 ^ 100) * 1 := mul_le_mul p2.2 hc1 Cp.le (by positivity)
    have f2 : |S| * |rv p.2 - C| ≤ |S| * (103 / 2 ^ 106) := mul_le_mul_of_nonneg_left p3.2 S0
    have f3 : |S| * (3 / 2 ^ 100) * 0.98 ≤ |S| * (3 / 2 ^ 100) * rv p.2 := mul_le_mul_of_nonneg_left pc (by positivity)
    refine le_trans ?_ f3
    refine (add_le_add f1 f2).trans ?_
    clear f1 f2 f3
    norm_num; linarith
  have q0 : |S| ≤ |S / C| := by
    rw [abs_div, abs_of_pos (show 0 < C by linarith), le_div_iff₀ (by linarith)]
    exact mul_le_of_le_one_right S0 hc1
  have q1 : |rv p.1 / rv p.2| ≤ |S / C| + |rv p.1 / rv p.2 - S / C| := by
    have := abs_add_le (S / C) (rv p.1 / rv p.2 - S / C); rwa [add_sub_cancel] at this
  have u := abs_sub_le (rv (p.1 / p.2)) (rv p.1 / rv p.2) (S / C)
  generalize (1:ℝ) / 2 ^ 1010 = ε at *
  generalize |S / C| = q at *
  generalize |rv p.1 / rv p.2 - S / C| = w at *
  generalize |rv p.1 / rv p.2| = z at *
  generalize |rv (p.1 / p.2) - rv p.1 / rv p.2| = y at *
  norm_num at *
  linarith

example (P : Platform) (h : P.toStr = text17) : ∃ r, Double.tan P tinyArg = some r ∧ r.Normalized ∧
    |(r.val : ℝ) - Real.tan ((tinyArg.val : ℚ) : ℝ)| ≤ |Real.tan ((tinyArg.val : ℚ) : ℝ)| / 2 ^ 98 :=
  C68_tan_tiny P (h ▸ text17_ok) _ (by decide +kernel) (by decide +kernel) (by decide +kernel)

end Verif
