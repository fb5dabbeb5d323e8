import Verif.Proofs.DoubleDiv

/-!
# Rounding to whole numbers
-/

namespace Verif

open F64 Prim Util

/-- Integer part (floor) of `n` units. -/
def fl (n : ℤ) : ℤ := n / one'
/-- Ceiling of `n` units. -/
def ce (n : ℤ) : ℤ := -fl (-n)
/-- Nearest integer to `n` units, halves away from zero. -/
def ro (n : ℤ) : ℤ := if 0 ≤ n then (2 * n + one') / (2 * one') else -((2 * -n + one') / (2 * one'))

theorem fl_le (n : ℤ) : fl n * one' ≤ n := Int.ediv_mul_le _ one'_ne_zero
theorem lt_fl (n : ℤ) : n < fl n * one' + one' := by
  have := Int.lt_ediv_add_one_mul_self n one'_pos
  unfold fl; linarith

theorem fl_unique {n w : ℤ} (h1 : w * one' ≤ n) (h2 : n < w * one' + one') : fl n = w := by
  have a1 := fl_le n
  have a2 := lt_fl n
  have hp := one'_pos
  have : fl n * one' < (w + 1) * one' := by linarith
  have h3 : fl n < w + 1 := lt_of_mul_lt_mul_right this hp.le
  have : w * one' < (fl n + 1) * one' := by linarith
  have h4 : w < fl n + 1 := lt_of_mul_lt_mul_right this hp.le
  omega

theorem fl_mul (w : ℤ) : fl (w * one') = w := fl_unique le_rfl (by linarith [one'_pos])

theorem fl_of_dvd {n : ℤ} (h : one' ∣ n) : fl n * one' = n := Int.ediv_mul_cancel h

theorem fl_add_mul (w n : ℤ) : fl (w * one' + n) = w + fl n := by
  apply fl_unique
  · have := fl_le n; linarith
  · have := lt_fl n; linarith

/-- The bounds that characterise `ro`. -/
theorem ro_bounds (n : ℤ) : 2 * |n - ro n * one'| ≤ one' := by
  have hp := one'_pos
  have key : ∀ k : ℤ, 0 ≤ k → |k - (2 * k + one') / (2 * one') * one'| * 2 ≤ one' := by
    intro k hk
    have h1 := Int.ediv_mul_le (2 * k + one') (by positivity : 2 * one' ≠ 0)
    have h2 := Int.lt_ediv_add_one_mul_self (2 * k + one') (by positivity : 0 < 2 * one')
    set w := (2 * k + one') / (2 * one')
    have h3 : |(k - w * one') * 2| ≤ one' := abs_le.mpr ⟨by linarith, by linarith⟩
    rw [abs_mul, abs_two] at h3
    exact h3
  unfold ro
  split_ifs with h
  · linarith [key n h]
  · have := key (-n) (by omega)
    rw [← abs_neg] at this
    have e : -(-n - (2 * -n + one') / (2 * one') * one') = n - -((2 * -n + one') / (2 * one')) * one' := by ring
    rw [e] at this
    linarith

theorem ro_neg (n : ℤ) : ro (-n) = -ro n := by
  have hp := one'_pos
  unfold ro
  rcases lt_trichotomy n 0 with h | h | h
  · rw [if_pos (by omega), if_neg (by omega)]; ring
  · subst h
    have : one' / (2 * one') = 0 := Int.ediv_eq_zero_of_lt hp.le (by linarith)
    simp [this]
  · rw [if_neg (by omega), if_pos (by omega)]; simp

/-- Half away from zero, from the bounds. -/
theorem ro_unique_nonneg {n w : ℤ} (hn : 0 ≤ n) (h1 : 2 * w * one' ≤ 2 * n + one') (h2 : 2 * n < 2 * w * one' + one') :
    ro n = w := by
  have hp := one'_pos
  unfold ro
  rw [if_pos hn]
  have a1 := Int.ediv_mul_le (2 * n + one') (by positivity : 2 * one' ≠ 0)
  have a2 := Int.lt_ediv_add_one_mul_self (2 * n + one') (by positivity : 0 < 2 * one')
  set v := (2 * n + one') / (2 * one')
  have h3 : v * (2 * one') < (w + 1) * (2 * one') := by linarith
  have h3 := lt_of_mul_lt_mul_right h3 (by linarith)
  have h4 : w * (2 * one') < (v + 1) * (2 * one') := by linarith
  have h4 := lt_of_mul_lt_mul_right h4 (by linarith)
  omega

theorem ro_mul (w : ℤ) : ro (w * one') = w := by
  have hp := one'_pos
  by_cases h : 0 ≤ w
  · exact ro_unique_nonneg (by positivity) (by linarith) (by linarith)
  · have : ro (-w * one') = -w := ro_unique_nonneg (by
      apply mul_nonneg _ hp.le; omega) (by linarith) (by linarith)
    have e : w * one' = -(-w * one') := by ring
    rw [e, ro_neg, this]; ring

/-! ### Representability -/

/-- A whole number near a representable one (and equal to it when that is whole) is representable. -/
theorem rep_whole {n w : ℤ} (hr : Rep n) (hl : |n| < ovf) (hd : one' ∣ n → w * one' = n) (hn : |w * one' - n| ≤ one') :
    Rep (w * one') ∧ |w * one'| < ovf := by
  by_cases h : one' ∣ n
  · rw [hd h]; exact ⟨hr, hl⟩
  · have hs : |n| < 2 ^ (52 + 1074) := by
      by_contra hc
      exact h (by unfold one'; exact hr.dvd_of_le (not_lt.mp hc))
    have hp := one'_pos
    have e : (2:ℤ) ^ (52 + 1074) = 2 ^ 52 * one' := by rw [pow_add]; unfold one'; rfl
    rw [e] at hs
    have h1 : |w * one'| ≤ 2 ^ 53 * one' := by
      have := abs_sub_abs_le_abs_sub (w * one') n
      linarith
    refine ⟨?_, lt_of_le_of_lt h1 ?_⟩
    · have hw : |w| ≤ 2 ^ 53 := by
        rw [abs_mul, abs_of_pos hp] at h1
        exact le_of_mul_le_mul_right h1 hp
      exact ⟨w, 1074, hw, by unfold one'; rfl⟩
    · unfold one' ovf
      rw [← pow_add]
      exact pow_lt_pow_right₀ (by norm_num) (by norm_num)

theorem natAbs_units {m : ℕ} : ∀ D : ℕ, (m : ℤ) = (m / D : ℕ) * D + (m % D : ℕ) := by
  intro D
  have := Nat.div_add_mod m D
  have h : ((D * (m / D) + m % D : ℕ) : ℤ) = m := by exact_mod_cast this
  push_cast at h
  push_cast
  linarith

theorem is_toWhole {x : F64} {n w : ℤ} {f : Bool → ℕ → ℕ → ℕ} (hx : Is x n) (hd : one' ∣ n → w * one' = n)
    (hn : |w * one' - n| ≤ one')
    (hf : ∀ (s : Bool) (q r : ℕ), (r : ℤ) < one' → (n = if s then -((q : ℤ) * one' + r) else (q : ℤ) * one' + r) →
      w = if s then -(f s q r : ℤ) else f s q r) : Is (toWhole f x) (w * one') := by
  have hw := rep_whole hx.rep hx.lt hd hn
  obtain ⟨s, m, hm, rfl, rfl⟩ := hx.exists
  unfold toWhole
  apply is_ofRound_units s _ hw.1 hw.2
  have hD : ((2 ^ 1074 : ℕ) : ℤ) = one' := one'_nat
  have hlt : m % 2 ^ 1074 < 2 ^ 1074 := Nat.mod_lt _ (pow_pos_nat _)
  have hlt' : ((m % 2 ^ 1074 : ℕ) : ℤ) < one' := by rw [← hD]; exact_mod_cast hlt
  have e := natAbs_units (m := m) (2 ^ 1074)
  rw [hD] at e
  have := hf s (m / 2 ^ 1074) (m % 2 ^ 1074) hlt' (by rw [← e])
  rw [this, Nat.cast_mul, hD]
  cases s <;> simp

theorem is_floor {x : F64} {n : ℤ} (hx : Is x n) : Is x.floor (fl n * one') := by
  apply is_toWhole hx fl_of_dvd
  · have h1 := fl_le n; have h2 := lt_fl n
    rw [abs_le]; constructor <;> linarith
  · intro s q r hr e
    have hr0 : (0:ℤ) ≤ r := by positivity
    have hp := one'_pos
    cases s
    · simp at e ⊢
      rw [e]; exact fl_unique (by linarith) (by linarith)
    · simp at e ⊢
      by_cases h0 : r = 0
      · simp [h0] at e ⊢
        rw [e]; exact fl_unique (by linarith) (by linarith)
      · have : (0:ℤ) < r := by omega
        simp [h0]
        rw [e]; exact fl_unique (by linarith) (by linarith)

theorem is_ceil {x : F64} {n : ℤ} (hx : Is x n) : Is x.ceil (ce n * one') := by
  apply is_toWhole hx
  · intro h
    unfold ce
    have := fl_of_dvd ((dvd_neg).mpr h)
    linarith
  · unfold ce
    have h1 := fl_le (-n); have h2 := lt_fl (-n)
    rw [abs_le]; constructor <;> linarith
  · intro s q r hr e
    have hr0 : (0:ℤ) ≤ r := by positivity
    have hp := one'_pos
    unfold ce
    cases s
    · simp at e ⊢
      by_cases h0 : r = 0
      · simp [h0] at e ⊢
        rw [e, neg_eq_iff_eq_neg]; exact fl_unique (by linarith) (by linarith)
      · have : (0:ℤ) < r := by omega
        simp [h0]
        rw [e, neg_eq_iff_eq_neg]; exact fl_unique (by linarith) (by linarith)
    · simp at e ⊢
      rw [e]; exact fl_unique (by linarith) (by linarith)

theorem is_round {x : F64} {n : ℤ} (hx : Is x n) : Is x.round (ro n * one') := by
  apply is_toWhole hx
  · rintro ⟨c, rfl⟩
    rw [mul_comm one' c, ro_mul]
  · have := ro_bounds n
    rw [abs_sub_comm]
    linarith [abs_nonneg (n - ro n * one')]
  · intro s q r hr e
    have hr0 : (0:ℤ) ≤ r := by positivity
    have hq0 : (0:ℤ) ≤ q := by positivity
    have hp := one'_pos
    have hD : ((2 ^ 1074 : ℕ) : ℤ) = one' := one'_nat
    have key : ro ((q : ℤ) * one' + r) = ((if 2 ^ 1074 ≤ 2 * r then q + 1 else q : ℕ) : ℤ) := by
      clear e
      generalize (2:ℕ) ^ 1074 = D at hD ⊢
      have hc : (D ≤ 2 * r) ↔ one' ≤ 2 * (r : ℤ) := by rw [← hD]; exact_mod_cast Iff.rfl
      apply ro_unique_nonneg (by positivity)
      · split_ifs with h
        · rw [hc] at h; push_cast; linarith
        · linarith
      · split_ifs with h
        · push_cast; linarith
        · rw [hc] at h; linarith
    cases s
    · rw [e]; exact key
    · rw [e]
      rw [if_pos rfl, ro_neg, key, if_pos rfl]

/-! ### Floor -/

theorem Norm2.fl_eq {h l : ℤ} (hn : Norm2 h l) (hl : |h| < ovf) (hd : ¬ one' ∣ h) : fl (h + l) = fl h := by
  have hp := one'_pos
  have a1 := fl_le h
  have a2 := lt_fl h
  have hne : fl h * one' ≠ h := fun e => hd ⟨fl h, by rw [mul_comm]; exact e.symm⟩
  have r1 := (rep_whole hn.rep_hi hl fl_of_dvd (by rw [abs_le]; constructor <;> linarith)).1
  have r2 := (rep_whole (w := fl h + 1) hn.rep_hi hl (fun h' => absurd h' hd)
    (by rw [abs_le]; constructor <;> linarith)).1
  apply fl_unique
  · by_contra hc
    have : rnd ((h + l : ℤ) : ℚ) ≤ fl h * one' := rnd_le_of_le r1 (by
      have : h + l ≤ fl h * one' := by omega
      exact_mod_cast this)
    rw [hn.rnd_eq] at this
    omega
  · by_contra hc
    have : (fl h + 1) * one' ≤ rnd ((h + l : ℤ) : ℚ) := le_rnd_of_le r2 (by
      have : (fl h + 1) * one' ≤ h + l := by linarith
      exact_mod_cast this)
    rw [hn.rnd_eq] at this
    linarith

/-- Non-integral leading component: the other one is below one half. -/
theorem Norm2.lo_small {h l : ℤ} (hn : Norm2 h l) (hd : ¬ one' ∣ h) : 2 * |l| < one' := by
  have hs : |h| < 2 ^ (52 + 1074) := by
    by_contra hc
    exact hd (by unfold one'; exact hn.rep_hi.dvd_of_le (not_lt.mp hc))
  have h1 := hn.lo_le
  have e : (2:ℤ) ^ (52 + 1074) = 2 ^ 52 * one' := by rw [pow_add]; unfold one'; rfl
  rw [e] at hs
  norm_num at hs h1
  linarith

/-- Adding whole numbers by `quick_two_sum`, when the second is not huge. -/
theorem is_qts_whole {a b : F64} {m n : ℤ} (ha : Is a m) (hb : Is b n) (dm : one' ∣ m) (dn : one' ∣ n)
    (hn : |n| ≤ 2 ^ 52 * one') :
    Is (quickTwoSum a b).1 (rs m n) ∧ Is (quickTwoSum a b).2 (re m n) ∧ Norm2 (rs m n) (re m n) := by
  have hp := one'_pos
  have hg : Grid m n := by
    refine ⟨1074, ?_, ?_, ?_⟩
    · unfold one' at dm; exact dm
    · unfold one' at dn; exact dn
    · rw [pow_add]; unfold one' at hn hp
      refine lt_of_le_of_lt hn ?_
      exact mul_lt_mul_of_pos_right (by norm_num) (by positivity)
  by_cases hm : |m| ≤ 2 ^ 120 * one'
  · have z := is_quickTwoSum ha hb hg (by
      have h1 : (2:ℤ) ^ 120 * one' ≤ quantum := by
        unfold one' quantum; rw [← pow_add]; exact pow_le_pow_right₀ (by norm_num) (by norm_num)
      rw [lim_eq]
      norm_num at hn hm h1
      linarith)
    exact ⟨z.1, z.2, norm2_rs_re' (re_of_grid ha.rep hg)⟩
  · have h1 : rnd ((m + n : ℤ) : ℚ) = m := by
      apply rnd_absorb ha.rep
      · norm_num at hm hn ⊢; linarith
      · norm_num at hm ⊢; linarith
    have h2 : rs m n = m := h1
    have h3 : re m n = n := by unfold re; rw [h2]; ring
    have hN : Norm2 m n := ⟨ha.rep, hb.rep, h1⟩
    rw [h2, h3]
    have z := is_quickTwoSum_norm ha hb hN
    exact ⟨z.1, z.2, hN⟩

theorem is_epsilon : Is Double.f64Epsilon (2 ^ 1022) := by
  unfold Double.f64Epsilon
  apply is_ofRound_units false _ (.two_pow _)
  · rw [abs_of_pos (by positivity)]; unfold ovf
    exact pow_lt_pow_right₀ (by norm_num) (by norm_num)
  · rw [if_neg (by simp)]; push_cast; rfl

theorem fl_zero_of {l : ℤ} (h0 : 0 ≤ l) (h1 : l < one') : fl l = 0 := fl_unique (by linarith) (by linarith)
theorem fl_neg_of {l : ℤ} (h0 : l < 0) (h1 : -one' ≤ l) : fl l = -1 := fl_unique (by linarith) (by linarith)

/-- What `renorm2` of the two separately rounded components gives for a whole leading component. -/
theorem whole_pair {a b : F64} {h l w : ℤ} (ha : Is a h) (hb : Is b (w * one')) (hn : Norm2 h l) (hh : one' ∣ h)
    (hd : one' ∣ l → w * one' = l) (hw : |w * one' - l| ≤ one') :
    ∃ zh zl, Is (renorm2 a b).1 zh ∧ Is (renorm2 a b).2 zl ∧ Norm2 zh zl ∧ zh + zl = h + w * one' := by
  by_cases h1 : one' ∣ l
  · have e := hd h1
    rw [e] at hb ⊢
    have z := is_quickTwoSum_norm ha hb hn
    exact ⟨h, l, z.1, z.2, hn, rfl⟩
  · have hs : |l| < 2 ^ (52 + 1074) := by
      by_contra hc
      exact h1 (by unfold one'; exact hn.rep_lo.dvd_of_le (not_lt.mp hc))
    have e : (2:ℤ) ^ (52 + 1074) = 2 ^ 52 * one' := by rw [pow_add]; unfold one'; rfl
    rw [e] at hs
    have hp := one'_pos
    have hwb : |w * one'| ≤ 2 ^ 52 * one' := by
      have h2 := abs_sub_abs_le_abs_sub (w * one') l
      have h3 : |w * one'| < (2 ^ 52 + 1) * one' := by linarith
      rw [abs_mul, abs_of_pos hp] at h3 ⊢
      have := lt_of_mul_lt_mul_right h3 hp.le
      exact mul_le_mul_of_nonneg_right (by omega) hp.le
    have z := is_qts_whole ha hb hh ⟨w, by ring⟩ hwb
    exact ⟨_, _, z.1, z.2.1, z.2.2, rs_add_re _ _⟩

/-- The test `|hi - a.hi| < EPSILON`, in units. -/
theorem eps_cond {x y : F64} {n w : ℤ} (hx : Is x n) (hy : Is y (w * one')) (hw : |w * one' - n| ≤ one') :
    (F64.lt (F64.sub y x).abs Double.f64Epsilon = true → |w * one' - n| < 2 ^ 1022) ∧
    (w * one' = n → F64.lt (F64.sub y x).abs Double.f64Epsilon = true) := by
  have hO : |w * one' - n| ≤ omegaUnits := by
    have h1 : one' ≤ quantum := by unfold one' quantum; exact pow_le_pow_right₀ (by norm_num) (by norm_num)
    have := quantum_pos
    rw [omega_eq]; linarith
  have i := (hy.sub hx hO).abs
  have hlt := i.lt_iff is_epsilon
  constructor
  · intro h
    have h := hlt.mp h
    by_contra hc
    have := le_abs_rnd (x := ((w * one' - n : ℤ) : ℚ)) (.two_pow 1022) (by
      rw [← abs_int_cast]; exact_mod_cast not_lt.mp hc)
    exact absurd h (not_lt.mpr this)
  · intro h
    rw [hlt, h]
    simp [rnd_zero]

/-- Separate rounding of the components, as `floor`, `ceil` and `round` do it. -/
theorem sep_spec {F : F64 → F64} {g : ℤ → ℤ} (hF : ∀ {x : F64} {n : ℤ}, Is x n → Is (F x) (g n * one'))
    (hd : ∀ n, one' ∣ n → g n * one' = n) (hg : ∀ n, |g n * one' - n| ≤ one')
    {a : Double} {h l : ℤ} (ia : DIs a h l) (hn : Norm2 h l) :
    (one' ∣ h → F64.lt (F64.sub (F a.hi) a.hi).abs Double.f64Epsilon = true ∧
      ∃ zh zl, Is (renorm2 (F a.hi) (F a.lo)).1 zh ∧ Is (renorm2 (F a.hi) (F a.lo)).2 zl ∧ Norm2 zh zl ∧
        zh + zl = h + g l * one') ∧
    (¬ one' ∣ h → F64.lt (F64.sub (F a.hi) a.hi).abs Double.f64Epsilon = true → |g h * one' - h| < 2 ^ 1022 ∧
      ∃ zh zl, Is (renorm2 (F a.hi) (F a.lo)).1 zh ∧ Is (renorm2 (F a.hi) (F a.lo)).2 zl ∧ Norm2 zh zl ∧
        zh + zl = (g h + g l) * one') := by
  have ih := hF ia.1
  have il := hF ia.2
  have hc := eps_cond ia.1 ih (hg h)
  refine ⟨fun h1 => ?_, fun h1 h2 => ?_⟩
  · have e := hd h h1
    refine ⟨hc.2 e, ?_⟩
    rw [e] at ih
    exact whole_pair ih il hn h1 (hd l) (hg l)
  · refine ⟨hc.1 h2, ?_⟩
    have hl := hn.lo_small h1
    have hp := one'_pos
    have z := is_qts_whole ih il ⟨_, mul_comm _ _⟩ ⟨_, mul_comm _ _⟩ (by
      have h3 := abs_sub_abs_le_abs_sub (g l * one') l
      have h4 := hg l
      linarith [abs_nonneg l])
    exact ⟨_, _, z.1, z.2.1, z.2.2, by rw [rs_add_re]; ring⟩

theorem floor_spec {a : Double} {h l : ℤ} (ia : DIs a h l) (hn : Norm2 h l) :
    ∃ zh zl, DIs a.floor zh zl ∧ Norm2 zh zl ∧ (zh + zl = fl (h + l) * one' ∨
      (¬ one' ∣ h ∧ l < 0 ∧ h - fl h * one' < 2 ^ 1022 ∧ zh + zl = (fl (h + l) - 1) * one')) := by
  have hp := one'_pos
  have sp := sep_spec (F := F64.floor) (g := fl) is_floor (fun _ => fl_of_dvd) (fun n => by
    have h1 := fl_le n; have h2 := lt_fl n
    rw [abs_le]; constructor <;> linarith) ia hn
  unfold Double.floor
  by_cases hd : one' ∣ h
  · obtain ⟨c, zh, zl, i1, i2, n, e⟩ := sp.1 hd
    simp only [c, if_true]
    refine ⟨zh, zl, ⟨i1, i2⟩, n, .inl ?_⟩
    obtain ⟨w, rfl⟩ := hd
    rw [e, mul_comm one' w, fl_add_mul]; ring
  · have e1 := hn.fl_eq ia.1.lt hd
    by_cases c : F64.lt (F64.sub a.hi.floor a.hi).abs Double.f64Epsilon = true
    · obtain ⟨b, zh, zl, i1, i2, n, e⟩ := sp.2 hd c
      simp only [c, if_true]
      refine ⟨zh, zl, ⟨i1, i2⟩, n, ?_⟩
      have hl := hn.lo_small hd
      rw [e1, e]
      rcases le_or_gt 0 l with h0 | h0
      · rw [abs_of_nonneg h0] at hl
        rw [fl_zero_of h0 (by linarith)]
        left; ring
      · rw [abs_of_neg h0] at hl
        rw [fl_neg_of h0 (by linarith)]
        right
        refine ⟨hd, h0, ?_, rfl⟩
        rw [abs_sub_comm] at b
        exact lt_of_le_of_lt (le_abs_self _) b
    · simp only [c, if_false, Bool.false_eq_true]
      refine ⟨_, 0, ⟨is_floor ia.1, is_zero⟩, norm2_zero_right (is_floor ia.1).rep, .inl ?_⟩
      rw [e1]; ring

theorem ce_add (h l : ℤ) (e : fl (-h + -l) = fl (-h)) : ce (h + l) = ce h := by
  unfold ce
  have : -(h + l) = -h + -l := by ring
  rw [this, e]

theorem ceil_spec {a : Double} {h l : ℤ} (ia : DIs a h l) (hn : Norm2 h l) :
    ∃ zh zl, DIs a.ceil zh zl ∧ Norm2 zh zl ∧ (zh + zl = ce (h + l) * one' ∨
      (¬ one' ∣ h ∧ 0 < l ∧ ce h * one' - h < 2 ^ 1022 ∧ zh + zl = (ce (h + l) + 1) * one')) := by
  have hp := one'_pos
  have sp := sep_spec (F := F64.ceil) (g := ce) is_ceil (fun n hn => by
      unfold ce
      have := fl_of_dvd ((dvd_neg).mpr hn)
      linarith) (fun n => by
    unfold ce
    have h1 := fl_le (-n); have h2 := lt_fl (-n)
    rw [abs_le]; constructor <;> linarith) ia hn
  unfold Double.ceil
  by_cases hd : one' ∣ h
  · obtain ⟨c, zh, zl, i1, i2, n, e⟩ := sp.1 hd
    simp only [c, if_true]
    refine ⟨zh, zl, ⟨i1, i2⟩, n, .inl ?_⟩
    obtain ⟨w, rfl⟩ := hd
    rw [e]
    unfold ce
    have : -(one' * w + l) = -w * one' + -l := by ring
    rw [this, fl_add_mul]; ring
  · have e1 := ce_add h l (hn.swap_sign.fl_eq (by rw [abs_neg]; exact ia.1.lt) (by rwa [dvd_neg]))
    by_cases c : F64.lt (F64.sub a.hi.ceil a.hi).abs Double.f64Epsilon = true
    · obtain ⟨b, zh, zl, i1, i2, n, e⟩ := sp.2 hd c
      simp only [c, if_true]
      refine ⟨zh, zl, ⟨i1, i2⟩, n, ?_⟩
      have hl := hn.lo_small hd
      rw [e1, e]
      rcases lt_or_ge 0 l with h0 | h0
      · rw [abs_of_pos h0] at hl
        have : ce l = 1 := by unfold ce; rw [fl_neg_of (by linarith) (by linarith)]; rfl
        rw [this]
        right
        exact ⟨hd, h0, lt_of_le_of_lt (le_abs_self _) b, rfl⟩
      · rw [abs_of_nonpos h0] at hl
        have : ce l = 0 := by unfold ce; rw [fl_zero_of (by linarith) (by linarith)]; rfl
        rw [this]
        left; ring
    · simp only [c, if_false, Bool.false_eq_true]
      refine ⟨_, 0, ⟨is_ceil ia.1, is_zero⟩, norm2_zero_right (is_ceil ia.1).rep, .inl ?_⟩
      rw [e1]; ring

/-! ### Round -/

/-- One half, in units. -/
@[irreducible] def hf : ℤ := 2 ^ 1073

theorem one'_hf : one' = 2 * hf := by unfold one' hf; exact pow_succ' 2 1073
theorem hf_pos : 0 < hf := by unfold hf; positivity

theorem is_half : Is Double.half hf := by
  have hr : Rep hf := by unfold hf; exact .two_pow _
  have hl : |hf| < ovf := by
    unfold hf; rw [abs_of_pos (by positivity)]; unfold ovf
    exact pow_lt_pow_right₀ (by norm_num) (by norm_num)
  unfold Double.half F64.ofDec
  rw [if_neg (by decide)]
  have h2 : rnd (hf : ℚ) = hf := rnd_of_rep hr
  rw [← h2]
  apply is_ofRound (by norm_num)
  · rw [if_neg (by simp), Nat.cast_mul, one'_natQ, one'_hf]
    push_cast
    norm_num
    ring
  · rw [h2]; exact hl

theorem ro_of_lt {n w : ℤ} (h : 2 * |n - w * one'| < one') : ro n = w := by
  have h1 := ro_bounds n
  have hp := one'_pos
  have : |ro n * one' - w * one'| < one' := by
    have e : ro n * one' - w * one' = (n - w * one') - (n - ro n * one') := by ring
    rw [e]
    have := abs_sub (n - w * one') (n - ro n * one')
    linarith
  rw [← sub_mul, abs_mul, abs_of_pos hp] at this
  have : |ro n - w| < 1 := lt_of_mul_lt_mul_right (by linarith) hp.le
  have := Int.abs_lt_one_iff.mp this
  omega

theorem ro_half_pos {w : ℤ} (hw : 0 ≤ w) : ro (w * one' + hf) = w + 1 := by
  have hp := hf_pos
  have := one'_pos
  have e := one'_hf
  exact ro_unique_nonneg (by positivity) (by linarith) (by linarith)

/-- A component that is not a half-integer cannot cross one. -/
theorem Norm2.ro_eq {h l : ℤ} (hn : Norm2 h l) (hd : ¬ one' ∣ 2 * h) : ro (h + l) = ro h := by
  have hp := hf_pos
  have e := one'_hf
  have hs : |2 * h| < 2 ^ (52 + 1074) := by
    by_contra hc
    refine hd ?_
    have hr2 : Rep (2 * h) := by
      have := hn.rep_hi.mul_two_pow 1
      rwa [pow_one, mul_comm] at this
    unfold one'; exact hr2.dvd_of_le (not_lt.mp hc)
  have e2 : (2:ℤ) ^ (52 + 1074) = 2 ^ 52 * one' := by rw [pow_add]; unfold one'; rfl
  rw [e2, abs_mul, abs_two] at hs
  have hb := ro_bounds h
  set w := ro h with hw
  have hwb : |w * one'| < (2 ^ 51 + 1) * one' := by
    have := abs_sub_abs_le_abs_sub (w * one') h
    rw [abs_sub_comm] at this
    linarith
  have hwb : |w| ≤ 2 ^ 51 := by
    rw [abs_mul, abs_of_pos one'_pos] at hwb
    have := lt_of_mul_lt_mul_right hwb one'_pos.le
    omega
  have hwo : w * one' = 2 * (w * hf) := by rw [e]; ring
  rw [abs_le] at hwb
  have r : ∀ c : ℤ, c = 2 * w + 1 ∨ c = 2 * w - 1 → Rep (c * hf) := by
    intro c hc
    refine ⟨c, 1073, ?_, by unfold hf; rfl⟩
    rw [abs_le]
    norm_num at hwb ⊢
    rcases hc with rfl | rfl <;> constructor <;> linarith
  have hlt : 2 * |h - w * one'| < one' := by
    refine lt_of_le_of_ne hb ?_
    intro hc
    apply hd
    rcases abs_cases (h - w * one') with ⟨h1, _⟩ | ⟨h1, _⟩
    · exact ⟨2 * w + 1, by rw [h1] at hc; linarith⟩
    · exact ⟨2 * w - 1, by rw [h1] at hc; linarith⟩
  have hlt' := abs_lt.mp (show |2 * (h - w * one')| < one' by rw [abs_mul, abs_two]; exact hlt)
  apply ro_of_lt
  have : |2 * (h + l - w * one')| < one' := by
    rw [abs_lt]
    constructor
    · by_contra hc
      have : rnd ((h + l : ℤ) : ℚ) ≤ (2 * w - 1) * hf := rnd_le_of_le (r _ (.inr rfl)) (by
        have : h + l ≤ (2 * w - 1) * hf := by
          have := not_lt.mp hc; rw [hwo, e] at this; linarith
        exact_mod_cast this)
      rw [hn.rnd_eq] at this
      rw [hwo, e] at hlt'; linarith
    · by_contra hc
      have : (2 * w + 1) * hf ≤ rnd ((h + l : ℤ) : ℚ) := le_rnd_of_le (r _ (.inl rfl)) (by
        have : (2 * w + 1) * hf ≤ h + l := by
          have := not_lt.mp hc; rw [hwo, e] at this; linarith
        exact_mod_cast this)
      rw [hn.rnd_eq] at this
      rw [hwo, e] at hlt'; linarith
  rwa [abs_mul, abs_two] at this

theorem ro_zero_of {l : ℤ} (h : 2 * |l| < one') : ro l = 0 := ro_of_lt (by simpa using h)

/-- The test for a half, in units. -/
theorem half_cond {x y : F64} {n w : ℤ} (hx : Is x n) (hy : Is y (w * one')) (hw : 2 * |n - w * one'| ≤ one')
    (hn : ¬ one' ∣ n) :
    (F64.lt (F64.sub (F64.sub y x).abs Double.half).abs Double.f64Epsilon = true → |(|w * one' - n|) - hf| < 2 ^ 1022) ∧
    (|w * one' - n| = hf → F64.lt (F64.sub (F64.sub y x).abs Double.half).abs Double.f64Epsilon = true) := by
  have hp := hf_pos
  have e := one'_hf
  have hr : Rep (w * one' - n) := by
    by_cases h0 : w = 0
    · subst h0; simp only [zero_mul, zero_sub]; exact hx.rep.neg
    · -- |w one' - n| ≤ hf ≤ |n|
      have h1 : one' ≤ |w * one'| := by
        rw [abs_mul, abs_of_pos one'_pos]
        have : 1 ≤ |w| := Int.one_le_abs h0
        nlinarith [one'_pos]
      have h2 := abs_sub_abs_le_abs_sub (w * one') n
      rw [abs_sub_comm] at hw
      have h3 : |w * one' - n| ≤ |n| := by linarith
      have hs : expo (n : ℚ) ≤ 1074 := by
        by_contra hc
        refine hn (dvd_trans ?_ hx.rep.dvd)
        unfold one'
        exact pow_dvd_pow _ (by omega)
      refine Rep.of_dvd_le (k := expo (n : ℚ)) ?_ (h3.trans (expo_int_lt n).le)
      apply dvd_sub _ hx.rep.dvd
      apply Dvd.dvd.mul_left
      unfold one'
      exact pow_dvd_pow _ hs
  have hq : one' ≤ quantum := by unfold one' quantum; exact pow_le_pow_right₀ (by norm_num) (by norm_num)
  have hqp := quantum_pos
  rw [abs_sub_comm] at hw
  have i1 := hy.sub hx (by rw [omega_eq]; linarith [abs_nonneg (w * one' - n)])
  rw [rnd_of_rep hr] at i1
  have hb : |(|w * one' - n|) - hf| ≤ one' := by
    rw [abs_le]; constructor <;> linarith [abs_nonneg (w * one' - n)]
  have i2 := (i1.abs.sub is_half (by rw [omega_eq]; linarith)).abs
  have hlt := i2.lt_iff is_epsilon
  constructor
  · intro h
    have h := hlt.mp h
    by_contra hc
    have := le_abs_rnd (x := ((|w * one' - n| - hf : ℤ) : ℚ)) (.two_pow 1022) (by
      rw [← abs_int_cast]; exact_mod_cast not_lt.mp hc)
    exact absurd h (not_lt.mpr this)
  · intro h
    rw [hlt, h]
    simp [rnd_zero]

theorem is_lit_one : Is (F64.ofDec false 1 0) one' := is_ofDec_one

/-- `round` in units. The three excluded cases are where the code goes wrong. -/
theorem round_spec {a : Double} {h l : ℤ} (ia : DIs a h l) (hn : Norm2 h l)
    (hneg : one' ∣ 2 * h → ¬ one' ∣ h → h < 0 → l = 0)
    (hnear : l < 0 → ¬ one' ∣ 2 * h → 2 ^ 1022 ≤ |(|ro h * one' - h|) - hf|)
    (htie : one' ∣ h → one' ∣ 2 * l → ¬ one' ∣ l → (0 < h ↔ 0 < l)) :
    ∃ zh zl, DIs a.round zh zl ∧ Norm2 zh zl ∧ zh + zl = ro (h + l) * one' := by
  have hp := hf_pos
  have e := one'_hf
  have hro : ∀ n, |ro n * one' - n| ≤ one' := fun n => by
    have := ro_bounds n
    rw [abs_sub_comm]
    linarith [abs_nonneg (n - ro n * one')]
  have hrd : ∀ n, one' ∣ n → ro n * one' = n := by
    rintro n ⟨c, rfl⟩; rw [mul_comm one' c, ro_mul]
  have sp := sep_spec (F := F64.round) (g := ro) is_round hrd hro ia hn
  unfold Double.round
  by_cases hd : one' ∣ h
  · obtain ⟨c, zh, zl, i1, i2, n, es⟩ := sp.1 hd
    simp only [c, if_true]
    refine ⟨zh, zl, ⟨i1, i2⟩, n, ?_⟩
    rw [es]
    suffices hs : ro (h + l) * one' = h + ro l * one' from hs.symm
    obtain ⟨w, hw⟩ := id hd
    rw [mul_comm] at hw
    have hb := ro_bounds l
    by_cases hlt : 2 * |l - ro l * one'| < one'
    · have : ro (h + l) = w + ro l := ro_of_lt (by
        have : h + l - (w + ro l) * one' = l - ro l * one' := by rw [hw]; ring
        rwa [this])
      rw [this, hw]; ring
    · -- tie
      have heq : 2 * |l - ro l * one'| = one' := le_antisymm hb (not_lt.mp hlt)
      have hl2 : one' ∣ 2 * l := by
        rcases abs_cases (l - ro l * one') with ⟨h1, _⟩ | ⟨h1, _⟩
        · exact ⟨2 * ro l + 1, by rw [h1] at heq; linarith⟩
        · exact ⟨2 * ro l - 1, by rw [h1] at heq; linarith⟩
      have hl1 : ¬ one' ∣ l := by
        intro hc
        rw [hrd l hc] at heq
        simp at heq
        linarith [one'_pos]
      have ht := htie hd hl2 hl1
      -- l = (2c+1) hf
      have hnz : l ≠ 0 := by rintro rfl; exact hl1 (dvd_zero _)
      have hhz : h ≠ 0 := by
        rintro rfl; exact hnz hn.hi_zero
      have hll : |l| ≤ |h| := by
        have := hn.lo_le
        norm_num at this
        linarith [abs_nonneg l]
      have main : ∀ (h l w : ℤ), h = w * one' → 0 < h → 0 < l → one' ∣ 2 * l → ¬ one' ∣ l →
          ro (h + l) * one' = h + ro l * one' := by
        intro h l w hw h0 l0 hl2 hl1
        obtain ⟨c, hc⟩ := hl2
        have hc' : l = c * hf := by rw [e] at hc; linarith
        have hodd : c % 2 = 1 := by
          by_contra hcc
          obtain ⟨k, hk⟩ : ∃ k, c = 2 * k := ⟨c / 2, by omega⟩
          exact hl1 ⟨k, by rw [hc', hk, e]; ring⟩
        obtain ⟨k, hk⟩ : ∃ k, c = 2 * k + 1 := ⟨c / 2, by omega⟩
        have hk0 : 0 ≤ k := by
          by_contra hkk
          have : c < 0 := by omega
          have : c * hf < 0 := mul_neg_of_neg_of_pos this hp
          linarith
        have hlk : l = k * one' + hf := by rw [hc', hk, e]; ring
        have hw0 : 0 < w := by
          by_contra hc
          have : w * one' ≤ 0 := mul_nonpos_of_nonpos_of_nonneg (not_lt.mp hc) one'_pos.le
          linarith
        have e1 : h + l = (w + k) * one' + hf := by rw [hw, hlk]; ring
        rw [e1, ro_half_pos (by omega), hlk, ro_half_pos hk0, hw]; ring
      rcases lt_or_gt_of_ne hhz with hh | hh
      · have hl0 : l < 0 := by
          rcases lt_or_gt_of_ne hnz with h1 | h1
          · exact h1
          · exact absurd (ht.mpr h1) (by omega)
        have := main (-h) (-l) (-w) (by rw [hw]; ring) (by omega) (by omega) (by rw [mul_neg, dvd_neg]; exact hl2)
          (by rwa [dvd_neg])
        have e2 : -h + -l = -(h + l) := by ring
        rw [e2, ro_neg, ro_neg] at this
        linarith
      · exact main h l w hw hh (ht.mp hh) hl2 hl1
  · have hls := hn.lo_small hd
    have hl0 : ro l = 0 := ro_zero_of hls
    have hwr := is_round ia.1
    by_cases hh : one' ∣ 2 * h
    · -- exactly a half
      obtain ⟨c, hc⟩ := hh
      have hc' : h = c * hf := by rw [e] at hc; linarith
      have hodd : c % 2 = 1 := by
        by_contra hcc
        obtain ⟨k, hk⟩ : ∃ k, c = 2 * k := ⟨c / 2, by omega⟩
        exact hd ⟨k, by rw [hc', hk, e]; ring⟩
      obtain ⟨k, hk⟩ : ∃ k, c = 2 * k + 1 := ⟨c / 2, by omega⟩
      have hhk : h = k * one' + hf := by rw [hc', hk, e]; ring
      have habs : |ro h * one' - h| = hf := by
        have h1 := hro h
        have hb := ro_bounds h
        -- ro h * one' - h is an odd multiple of hf of size ≤ hf
        rcases le_or_gt 0 k with h0 | h0
        · rw [hhk, ro_half_pos h0]
          have : (k + 1) * one' - (k * one' + hf) = hf := by rw [e]; ring
          rw [this, abs_of_pos hp]
        · have e3 : h = -((-k - 1) * one' + hf) := by rw [hhk, e]; ring
          rw [e3, ro_neg, ro_half_pos (by omega)]
          have : -(-k - 1 + 1) * one' - -((-k - 1) * one' + hf) = -hf := by rw [e]; ring
          rw [this, abs_neg, abs_of_pos hp]
      have c1 : F64.lt (F64.sub a.hi.round a.hi).abs Double.f64Epsilon = false := by
        by_contra hc
        rw [Bool.not_eq_false] at hc
        have := (eps_cond ia.1 hwr (hro h)).1 hc
        rw [habs] at this
        unfold hf at this
        exact absurd this (not_lt.mpr (pow_le_pow_right₀ (by norm_num) (by norm_num)))
      have c2 := (half_cond ia.1 hwr (ro_bounds h) hd).2 habs
      simp only [c1, c2, Bool.false_eq_true, if_false, Bool.true_and]
      rcases lt_trichotomy l 0 with hl | hl | hl
      · have hk0 : 0 ≤ k := by
          by_contra hkk
          have hneg' : h < 0 := by
            rw [hc']
            exact mul_neg_of_neg_of_pos (by omega) hp
          have := hneg ⟨c, hc⟩ hd hneg'
          omega
        have hroh : ro h = k + 1 := by rw [hhk]; exact ro_half_pos hk0
        rw [if_pos ((ia.2.lt_iff is_zero).mpr hl)]
        have hkb : Rep (k * one') ∧ |k * one'| < ovf := rep_whole ia.1.rep ia.1.lt (fun h' => absurd h' hd) (by
          rw [hhk, e, abs_le]; constructor <;> linarith)
        refine ⟨k * one', 0, ⟨hwr.sub_rep is_lit_one ?_ hkb.1 hkb.2, is_zero⟩, norm2_zero_right hkb.1, ?_⟩
        · rw [hroh]; ring
        · rw [abs_of_neg hl] at hls
          have : ro (h + l) = k := ro_of_lt (by
            have e4 : h + l - k * one' = hf + l := by rw [hhk]; ring
            rw [e4, abs_of_pos (by linarith)]; linarith)
          rw [this]; ring
      · subst hl
        rw [if_neg (by rw [(ia.2.lt_iff is_zero)]; omega)]
        exact ⟨_, 0, ⟨hwr, is_zero⟩, norm2_zero_right hwr.rep, by simp⟩
      · have hk0 : 0 ≤ k := by
          by_contra hkk
          have hneg' : h < 0 := by
            rw [hc']
            exact mul_neg_of_neg_of_pos (by omega) hp
          have := hneg ⟨c, hc⟩ hd hneg'
          omega
        have hroh : ro h = k + 1 := by rw [hhk]; exact ro_half_pos hk0
        rw [if_neg (by rw [(ia.2.lt_iff is_zero)]; omega)]
        refine ⟨_, 0, ⟨hwr, is_zero⟩, norm2_zero_right hwr.rep, ?_⟩
        rw [abs_of_pos hl] at hls
        have : ro (h + l) = k + 1 := ro_of_lt (by
          have e4 : h + l - (k + 1) * one' = -(hf - l) := by rw [hhk, e]; ring
          rw [e4, abs_neg, abs_of_pos (by linarith)]; linarith)
        rw [this, hroh]; ring
    · have e1 := hn.ro_eq hh
      by_cases c : F64.lt (F64.sub a.hi.round a.hi).abs Double.f64Epsilon = true
      · obtain ⟨b, zh, zl, i1, i2, n, es⟩ := sp.2 hd c
        simp only [c, if_true]
        refine ⟨zh, zl, ⟨i1, i2⟩, n, ?_⟩
        rw [es, hl0, e1]; ring
      · simp only [c, if_false, Bool.false_eq_true]
        have : (F64.lt (F64.sub (F64.sub a.hi.round a.hi).abs Double.half).abs Double.f64Epsilon &&
            F64.lt a.lo F64.zero) = false := by
          by_contra hc
          rw [Bool.not_eq_false, Bool.and_eq_true] at hc
          have h1 := (half_cond ia.1 hwr (ro_bounds h) hd).1 hc.1
          have h2 := (ia.2.lt_iff is_zero).mp hc.2
          exact absurd h1 (not_lt.mpr (hnear h2 hh))
        rw [this]
        exact ⟨_, 0, ⟨hwr, is_zero⟩, norm2_zero_right hwr.rep, by rw [e1]; ring⟩

end Verif
