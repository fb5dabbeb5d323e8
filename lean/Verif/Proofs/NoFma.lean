import Verif.Proofs.Prod

/-! # Veltkamp splitting and Dekker's product -/

namespace Verif

open F64 Prim

/-- The exact sum of representable numbers. -/
theorem Is.addE {a b : F64} {m n k : ℤ} (ha : Is a m) (hb : Is b n) (hk : m + n = k) (hr : Rep k) (h : |k| ≤ omegaUnits) :
    Is (F64.add a b) k := by
  have := ha.add hb (by rw [hk]; exact h)
  rw [hk, rnd_of_rep hr] at this
  exact this

theorem Is.subE {a b : F64} {m n k : ℤ} (ha : Is a m) (hb : Is b n) (hk : m - n = k) (hr : Rep k) (h : |k| ≤ omegaUnits) :
    Is (F64.sub a b) k := by
  have := ha.sub hb (by rw [hk]; exact h)
  rw [hk, rnd_of_rep hr] at this
  exact this

theorem Is.mulE {a b : F64} {m n k : ℤ} (ha : Is a m) (hb : Is b n) (hk : m * n = k * one') (hr : Rep k) (h : |k| ≤ omegaUnits) :
    Is (F64.mul a b) k := by
  have e : (m * n : ℚ) / one' = (k : ℚ) := by
    rw [div_eq_iff one'_ne]; exact_mod_cast hk
  have := ha.mul hb (by rw [e]; exact_mod_cast h)
  rw [e, rnd_of_rep hr] at this
  exact this

/-- A zero is the positive zero. -/
def PZ (x : F64) (n : ℤ) : Prop := n = 0 → x = F64.zero

theorem ofSum_zero {sa sb : Bool} {A B den : ℕ} (hA : A ≠ 0)
    (hq : (if sa then -(A:ℤ) else A) + (if sb then -(B:ℤ) else B) = 0) : ofSum sa A sb B den = F64.zero := by
  unfold ofSum
  cases sa <;> cases sb <;> simp at hq ⊢ <;> first
    | (exfalso; omega)
    | (have : A = B := by omega
       subst this; simp)

theorem PZ.add {a b : F64} {m n : ℤ} (ha : Is a m) (hb : Is b n) (hz : PZ a m) : PZ (F64.add a b) (m + n) := by
  intro h0
  obtain ⟨s, x, hx, rfl, rfl⟩ := ha.exists
  obtain ⟨t, y, hy, rfl, rfl⟩ := hb.exists
  by_cases hx0 : x = 0
  · subst hx0
    have e := hz (by cases s <;> simp)
    rw [e]
    have hy0 : y = 0 := by cases s <;> cases t <;> simp at h0 ⊢ <;> omega
    subst hy0
    show ofSum false 0 t 0 1 = F64.zero
    cases t <;> decide +kernel
  · unfold F64.add
    exact ofSum_zero hx0 h0

theorem PZ.of_ne {a : F64} {m : ℤ} (h : m ≠ 0) : PZ a m := fun h0 => absurd h0 h

theorem fma_zero {a b c : F64} {m n l : ℤ} (ha : Is a m) (hb : Is b n) (hc : Is c l) (h0 : m * n ≠ 0)
    (h : m * n + l * one' = 0) : F64.fma a b c = F64.zero := by
  obtain ⟨s, x, hx, rfl, rfl⟩ := ha.exists
  obtain ⟨t, y, hy, rfl, rfl⟩ := hb.exists
  obtain ⟨u, z, hz, rfl, rfl⟩ := hc.exists
  unfold F64.fma
  apply ofSum_zero
  · intro h1
    apply h0
    have : (x:ℤ) * y = 0 := by exact_mod_cast h1
    cases s <;> cases t <;> simp at this ⊢ <;> omega
  · rw [← h, ← one'_nat]
    cases s <;> cases t <;> cases u <;> push_cast <;> simp

theorem Is.eq_of_PZ {x y : F64} {n : ℤ} (hx : Is x n) (hy : Is y n) (px : PZ x n) (py : PZ y n) : x = y := by
  by_cases h : n = 0
  · rw [px h, py h]
  · obtain ⟨s, a, ha, rfl, e⟩ := hx.exists
    obtain ⟨t, b, hb, rfl, e'⟩ := hy.exists
    have : s = t ∧ a = b := by
      rw [e] at e'
      cases s <;> cases t <;> simp at e e' ⊢ <;> omega
    obtain ⟨rfl, rfl⟩ := this
    rfl

/-! ### Veltkamp -/

theorem velt_pos {m : ℤ} {i : ℕ} (hd : (2:ℤ) ^ i ∣ m) (h1 : 2 ^ (52 + i) ≤ m) (h2 : m < 2 ^ (53 + i)) (hr : Rep m) :
    ∃ h : ℤ, rnd ((134217729 * m : ℤ) : ℚ) - rnd ((rnd ((134217729 * m : ℤ) : ℚ) - m : ℤ) : ℚ) = h ∧
      (2:ℤ) ^ (27 + i) ∣ h ∧ |m - h| ≤ 2 ^ (26 + i) ∧ |h| ≤ 2 ^ (53 + i) ∧
      |rnd ((134217729 * m : ℤ) : ℚ)| ≤ 2 ^ (81 + i) ∧ |rnd ((rnd ((134217729 * m : ℤ) : ℚ) - m : ℤ) : ℚ)| ≤ 2 ^ (80 + i) := by
  have hU : (0:ℤ) < 2 ^ i := by positivity
  simp only [pow_add] at h1 h2 ⊢
  rcases eq_or_lt_of_le h1 with e | h1
  · -- a power of two
    have r1 : Rep (134217729 * m) := by
      refine ⟨134217729, 52 + i, by norm_num, ?_⟩
      rw [pow_add, ← e]
    have e2 : 134217729 * m - m = 2 ^ (79 + i) := by rw [pow_add, ← e]; ring
    rw [rnd_of_rep r1, e2, rnd_of_rep (Rep.two_pow _)]
    refine ⟨m, by rw [← e2]; ring, ?_, ?_, ?_, ?_, ?_⟩
    · rw [← e, ← pow_add, ← pow_add]; exact pow_dvd_pow _ (by omega)
    · rw [sub_self, abs_zero]; positivity
    · rw [abs_of_pos (by rw [← e]; positivity)]; exact h2.le
    · rw [abs_of_pos (by rw [← e]; positivity)]; generalize (2:ℤ) ^ i = U at *; omega
    · rw [abs_of_pos (by positivity), pow_add]; generalize (2:ℤ) ^ i = U at *; omega
  · obtain ⟨X, rfl⟩ := hd
    have hX1 : (2:ℤ) ^ 52 + 1 ≤ X := by
      by_contra hc
      have : X ≤ 2 ^ 52 := by omega
      have := mul_le_mul_of_nonneg_left this hU.le
      linarith
    have hX2 : X ≤ 2 ^ 53 - 1 := by
      by_contra hc
      have : 2 ^ 53 ≤ X := by omega
      have := mul_le_mul_of_nonneg_left this hU.le
      linarith
    have b1 : |134217729 * (2 ^ i * X)| ≤ 2 ^ (53 + (28 + i)) := by
      rw [abs_of_pos (by positivity)]
      rw [show 53 + (28 + i) = 81 + i by ring, pow_add]
      generalize (2:ℤ) ^ i = U at *
      nlinarith
    have d1 := two_err_le' b1
    have t1 := le_rnd_of_le (x := ((134217729 * (2 ^ i * X) : ℤ) : ℚ)) (Rep.two_pow (79 + i)) (by
      have : (2:ℤ) ^ (79 + i) ≤ 134217729 * (2 ^ i * X) := by
        rw [pow_add]
        generalize (2:ℤ) ^ i = U at *
        nlinarith
      exact_mod_cast this)
    have tr := rep_rnd ((134217729 * (2 ^ i * X) : ℤ) : ℚ)
    generalize rnd ((134217729 * (2 ^ i * X) : ℤ) : ℚ) = t at *
    have td : (2:ℤ) ^ (27 + i) ∣ t := tr.dvd_of_le (by
      rw [abs_of_nonneg (le_trans (by positivity) t1), show 52 + (27 + i) = 79 + i by ring]; exact t1)
    have d1' := abs_le.mp (show |134217729 * (2 ^ i * X) - t| ≤ 2 ^ 27 * 2 ^ i by
      rw [pow_add] at d1
      generalize (2:ℤ) ^ i = U at *
      linarith)
    have l1 : (2:ℤ) ^ 79 * 2 ^ i ≤ t - 2 ^ i * X := by
      generalize (2:ℤ) ^ i = U at *
      nlinarith
    have l2 : t - 2 ^ i * X ≤ 2 ^ 80 * 2 ^ i := by
      generalize (2:ℤ) ^ i = U at *
      nlinarith
    have d2 := two_err_le' (n := t - 2 ^ i * X) (k := 27 + i) (by
      rw [abs_of_nonneg (le_trans (by positivity) l1), show 53 + (27 + i) = 80 + i by ring, pow_add]; exact l2)
    have s1 := le_rnd_of_le (x := ((t - 2 ^ i * X : ℤ) : ℚ)) (Rep.two_pow (79 + i)) (by
      rw [pow_add]; exact_mod_cast l1)
    have s2 := rnd_le_of_le (x := ((t - 2 ^ i * X : ℤ) : ℚ)) (Rep.two_pow (80 + i)) (by
      rw [pow_add]; exact_mod_cast l2)
    have dr := rep_rnd ((t - 2 ^ i * X : ℤ) : ℚ)
    generalize rnd ((t - 2 ^ i * X : ℤ) : ℚ) = d at *
    have dd : (2:ℤ) ^ (27 + i) ∣ d := dr.dvd_of_le (by
      rw [abs_of_nonneg (le_trans (by positivity) s1), show 52 + (27 + i) = 79 + i by ring]; exact s1)
    have d2' := abs_le.mp (show |t - 2 ^ i * X - d| ≤ 2 ^ 26 * 2 ^ i by
      rw [pow_add] at d2
      generalize (2:ℤ) ^ i = U at *
      linarith)
    have hh : (2:ℤ) ^ (27 + i) ∣ t - d := dvd_sub td dd
    refine ⟨t - d, rfl, by rw [← pow_add]; exact hh, ?_, ?_, ?_, ?_⟩
    · rw [abs_le]; constructor <;> linarith [d2'.1, d2'.2]
    · obtain ⟨H, hH⟩ := hh
      rw [pow_add] at hH
      have hH2 : H ≤ 2 ^ 26 := by
        by_contra hc
        have hc : 2 ^ 26 + 1 ≤ H := by omega
        have e : t - d ≤ 2 ^ i * X + 2 ^ 26 * 2 ^ i := by linarith [d2'.1]
        rw [hH] at e
        have := mul_le_mul_of_nonneg_left hc (show (0:ℤ) ≤ 2 ^ 27 * 2 ^ i by positivity)
        generalize (2:ℤ) ^ i = U at *
        nlinarith
      have hH1 : 0 ≤ H := by
        by_contra hc
        have hc : H ≤ -1 := by omega
        have e : 2 ^ i * X - 2 ^ 26 * 2 ^ i ≤ t - d := by linarith [d2'.2]
        rw [hH] at e
        have := mul_le_mul_of_nonneg_left hc (show (0:ℤ) ≤ 2 ^ 27 * 2 ^ i by positivity)
        generalize (2:ℤ) ^ i = U at *
        nlinarith
      rw [hH, abs_of_nonneg (by positivity)]
      generalize (2:ℤ) ^ i = U at *
      nlinarith
    · rw [abs_of_nonneg (le_trans (by positivity) t1)]
      generalize (2:ℤ) ^ i = U at *
      nlinarith [d1'.1]
    · rw [abs_of_nonneg (le_trans (by positivity) s1)]
      rw [pow_add] at s2; exact s2

theorem velt {m : ℤ} {i : ℕ} (hd : (2:ℤ) ^ i ∣ m) (h1 : 2 ^ (52 + i) ≤ |m|) (h2 : |m| < 2 ^ (53 + i)) (hr : Rep m) :
    ∃ h : ℤ, rnd ((134217729 * m : ℤ) : ℚ) - rnd ((rnd ((134217729 * m : ℤ) : ℚ) - m : ℤ) : ℚ) = h ∧
      (2:ℤ) ^ (27 + i) ∣ h ∧ |m - h| ≤ 2 ^ (26 + i) ∧ |h| ≤ 2 ^ (53 + i) ∧
      |rnd ((134217729 * m : ℤ) : ℚ)| ≤ 2 ^ (81 + i) ∧ |rnd ((rnd ((134217729 * m : ℤ) : ℚ) - m : ℤ) : ℚ)| ≤ 2 ^ (80 + i) := by
  rcases le_total 0 m with h | h
  · rw [abs_of_nonneg h] at h1 h2; exact velt_pos hd h1 h2 hr
  · rw [abs_of_nonpos h] at h1 h2
    obtain ⟨g, e, a1, a2, a3, a4, a5⟩ := velt_pos ((dvd_neg).mpr hd) h1 h2 hr.neg
    have e1 : ((134217729 * -m : ℤ) : ℚ) = -((134217729 * m : ℤ) : ℚ) := by push_cast; ring
    rw [e1, rnd_neg] at e a4 a5
    have e2 : ((-rnd ((134217729 * m : ℤ) : ℚ) - -m : ℤ) : ℚ) = -((rnd ((134217729 * m : ℤ) : ℚ) - m : ℤ) : ℚ) := by push_cast; ring
    rw [e2, rnd_neg] at e a5
    rw [abs_neg] at a4 a5
    refine ⟨-g, by linarith, (dvd_neg).mpr a1, ?_, by rw [abs_neg]; exact a3, a4, a5⟩
    rw [← abs_neg, show -(m - -g) = -m - g by ring]; exact a2

/-- The four operations of the splitting. -/
theorem is_split_core {a : F64} {m : ℤ} {i : ℕ} (ia : Is a m) (hd : (2:ℤ) ^ i ∣ m) (h1 : 2 ^ (52 + i) ≤ |m|)
    (h2 : |m| < 2 ^ (53 + i)) (hc : (2:ℤ) ^ (80 + i) + 2 ^ (55 + i) ≤ omegaUnits) :
    ∃ h l : ℤ, Is (F64.sub (F64.mul SPLIT_FACTOR a) (F64.sub (F64.mul SPLIT_FACTOR a) a)) h ∧
      Is (F64.sub a (F64.sub (F64.mul SPLIT_FACTOR a) (F64.sub (F64.mul SPLIT_FACTOR a) a))) l ∧
      m = h + l ∧ (2:ℤ) ^ (27 + i) ∣ h ∧ (2:ℤ) ^ i ∣ l ∧ |l| ≤ 2 ^ (26 + i) ∧ |h| ≤ 2 ^ (53 + i) := by
  obtain ⟨h, e, a1, a2, a3, a4, a5⟩ := velt hd h1 h2 ia.rep
  have hc' : ∀ k : ℕ, k ≤ 80 + i → (2:ℤ) ^ k ≤ omegaUnits := fun k hk => by
    refine (pow_le_pow_right₀ (by norm_num) hk).trans (le_trans ?_ hc)
    have : (0:ℤ) < 2 ^ (55 + i) := by positivity
    linarith
  have iC : Is SPLIT_FACTOR (134217729 * one') := by
    constructor
    · decide +kernel
    · have : SPLIT_FACTOR.units = 134217729 * 2 ^ 1074 := by decide +kernel
      rw [this]; unfold one'; rfl
  have eC : ((134217729 * one' : ℤ) * m : ℚ) / one' = ((134217729 * m : ℤ) : ℚ) := by
    have := one'_ne
    push_cast; field_simp
  have bm : |134217729 * m| ≤ 2 ^ (81 + i) := by
    rw [abs_mul, pow_add]
    rw [pow_add] at h2
    generalize (2:ℤ) ^ i = U at *
    rw [abs_of_pos (by norm_num)]
    have := abs_nonneg m
    norm_num at h2 ⊢
    omega
  have bm' : |134217729 * m| ≤ omegaUnits := by
    refine le_trans ?_ hc
    rw [abs_mul, pow_add, pow_add]
    rw [pow_add] at h2
    generalize (2:ℤ) ^ i = U at *
    rw [abs_of_pos (by norm_num)]
    have := abs_nonneg m
    norm_num at h2 ⊢
    omega
  have it := iC.mul ia (by rw [eC]; exact_mod_cast bm')
  rw [eC] at it
  have bt : |rnd ((134217729 * m : ℤ) : ℚ) - m| ≤ omegaUnits := by
    refine (abs_sub _ _).trans ?_
    have h81 : |rnd ((134217729 * m : ℤ) : ℚ)| + |m| ≤ omegaUnits := by
      have b2 : |rnd ((134217729 * m : ℤ) : ℚ)| ≤ 2 ^ (80 + i) + 2 ^ (53 + i) + 2 ^ (27 + i) := by
        have e1 := two_err_le' (n := 134217729 * m) (k := 28 + i) (by rw [show 53 + (28 + i) = 81 + i by ring]; exact bm)
        have e2 := abs_sub_abs_le_abs_sub (rnd ((134217729 * m : ℤ) : ℚ)) (134217729 * m)
        rw [abs_sub_comm] at e2
        have e3 : |134217729 * m| ≤ 134217729 * 2 ^ (53 + i) := by
          rw [abs_mul, abs_of_pos (by norm_num : (0:ℤ) < 134217729)]
          exact mul_le_mul_of_nonneg_left h2.le (by norm_num)
        rw [pow_add] at e1 e3
        rw [pow_add, pow_add, pow_add]
        generalize (2:ℤ) ^ i = U at *
        linarith
      refine le_trans ?_ hc
      rw [pow_add] at h2
      rw [pow_add, pow_add, pow_add] at b2
      rw [pow_add, pow_add]
      have hU : (0:ℤ) < 2 ^ i := by positivity
      generalize (2:ℤ) ^ i = U at *
      linarith
    exact h81
  have id := it.sub ia bt
  have rh : Rep h := Rep.of_dvd_le a1 (a3.trans (pow_le_pow_right₀ (by norm_num) (by omega)))
  have ih := it.subE id e rh (a3.trans (hc' _ (by omega)))
  have hdl : (2:ℤ) ^ i ∣ m - h := dvd_sub hd (dvd_trans (pow_dvd_pow _ (by omega)) a1)
  have il := ia.subE ih rfl (Rep.of_dvd_le hdl (a2.trans (pow_le_pow_right₀ (by norm_num) (by omega)))) (a2.trans (hc' _ (by omega)))
  exact ⟨h, m - h, ih, il, by ring, a1, hdl, a2, a3⟩

theorem thr_units : SPLIT_THRESHOLD.isFinite = true ∧ 2 ^ 2069 ≤ SPLIT_THRESHOLD.units ∧ SPLIT_THRESHOLD.units ≤ 2 ^ 2070 - 1 := by
  decide +kernel

theorem two_pow_omega {k : ℕ} (hk : k ≤ 2097) : (2:ℤ) ^ k ≤ omegaUnits := by
  refine (pow_le_pow_right₀ (by norm_num) hk).trans ?_
  have : (2:ℤ) ^ 2097 ≤ omegaUnits := by unfold omegaUnits; decide +kernel
  exact this

/-- The splitting, for numbers that are normal and at most `2^1023`. -/
theorem is_split {a : F64} {m : ℤ} {i : ℕ} (ia : Is a m) (hd : (2:ℤ) ^ i ∣ m) (h1 : 2 ^ (52 + i) ≤ |m|)
    (h2 : |m| < 2 ^ (53 + i)) (hm : 53 + i ≤ 2097) :
    ∃ h l : ℤ, Is (split a).1 h ∧ Is (split a).2 l ∧
      m = h + l ∧ (2:ℤ) ^ (27 + i) ∣ h ∧ (2:ℤ) ^ i ∣ l ∧ |l| ≤ 2 ^ (26 + i) ∧ |h| ≤ 2 ^ (53 + i) := by
  unfold split
  split_ifs with hb
  · -- large numbers are scaled down first
    have iT : Is SPLIT_THRESHOLD SPLIT_THRESHOLD.units := Is.of_finite thr_units.1
    have hbig : (2:ℤ) ^ 2069 ≤ |m| := by
      rw [Bool.or_eq_true] at hb
      rcases hb with hb | hb
      · have := (iT.lt_iff ia).mp hb
        exact (thr_units.2.1.trans this.le).trans (le_abs_self m)
      · have := (ia.lt_iff iT.neg).mp hb
        exact (thr_units.2.1.trans (by linarith)).trans (neg_le_abs m)
    have hi : 28 ≤ i := by
      by_contra hc
      have : (2:ℤ) ^ (53 + i) ≤ 2 ^ 2069 := pow_le_pow_right₀ (by norm_num) (by omega)
      linarith
    obtain ⟨j, rfl⟩ := Nat.exists_eq_add_of_le hi
    obtain ⟨X, rfl⟩ := hd
    have iD : Is SPLIT_SHIFT_DOWN (2 ^ 1046) := by
      constructor <;> decide +kernel
    have iU : Is SPLIT_SHIFT_UP (2 ^ 1102) := by
      constructor <;> decide +kernel
    have e28 : (2:ℤ) ^ (28 + j) * X = 2 ^ 28 * (2 ^ j * X) := by rw [pow_add]; ring
    have eabs : |(2:ℤ) ^ (28 + j) * X| = 2 ^ 28 * |2 ^ j * X| := by rw [e28, abs_mul]; norm_num
    have rs : Rep (2 ^ j * X) := by
      refine Rep.of_dvd_le (k := j) (dvd_mul_right _ _) ?_
      rw [eabs, show 53 + (28 + j) = 28 + (53 + j) by ring, pow_add] at h2
      have : (0:ℤ) < 2 ^ 28 := by norm_num
      exact (lt_of_mul_lt_mul_left h2 this.le).le
    have hs2 : |2 ^ j * X| < 2 ^ (53 + j) := by
      rw [eabs, show 53 + (28 + j) = 28 + (53 + j) by ring, pow_add] at h2
      exact lt_of_mul_lt_mul_left h2 (by norm_num)
    have hs1 : 2 ^ (52 + j) ≤ |2 ^ j * X| := by
      rw [eabs, show 52 + (28 + j) = 28 + (52 + j) by ring, pow_add] at h1
      exact le_of_mul_le_mul_left h1 (by norm_num)
    have eone : one' = 2 ^ 28 * 2 ^ 1046 := by unfold one'; rw [← pow_add]
    have is : Is (F64.mul a SPLIT_SHIFT_DOWN) (2 ^ j * X) := by
      refine ia.mulE iD ?_ rs (hs2.le.trans (two_pow_omega (by omega)))
      rw [e28, eone]; ring
    obtain ⟨h, l, ih, il, e, a1, a2, a3, a4⟩ := is_split_core is (dvd_mul_right _ _) hs1 hs2 (by
      have e : (2:ℤ) ^ (80 + j) + 2 ^ (55 + j) ≤ 2 ^ (81 + j) := by
        rw [pow_add, pow_add, pow_add]
        have : (0:ℤ) < 2 ^ j := by positivity
        generalize (2:ℤ) ^ j = U at *
        linarith
      exact e.trans (two_pow_omega (by omega)))
    have eu : (2:ℤ) ^ 1102 = 2 ^ 28 * one' := by unfold one'; rw [← pow_add]
    have rh : Rep (2 ^ 28 * h) := by
      rw [mul_comm]; exact ih.rep.mul_two_pow 28
    have rl : Rep (2 ^ 28 * l) := by
      rw [mul_comm]; exact il.rep.mul_two_pow 28
    have bh : |2 ^ 28 * h| ≤ 2 ^ (53 + (28 + j)) := by
      rw [abs_mul, abs_of_pos (by norm_num : (0:ℤ) < 2 ^ 28), show 53 + (28 + j) = 28 + (53 + j) by ring, pow_add]
      exact mul_le_mul_of_nonneg_left a4 (by norm_num)
    have bl : |2 ^ 28 * l| ≤ 2 ^ (26 + (28 + j)) := by
      rw [abs_mul, abs_of_pos (by norm_num : (0:ℤ) < 2 ^ 28), show 26 + (28 + j) = 28 + (26 + j) by ring, pow_add]
      exact mul_le_mul_of_nonneg_left a3 (by norm_num)
    refine ⟨2 ^ 28 * h, 2 ^ 28 * l, ih.mulE iU ?_ rh (bh.trans (two_pow_omega (by omega))),
      il.mulE iU ?_ rl (bl.trans (two_pow_omega (by omega))), ?_, ?_, ?_, bl, bh⟩
    · rw [eu]; ring
    · rw [eu]; ring
    · rw [e28, e]; ring
    · rw [show 27 + (28 + j) = 28 + (27 + j) by ring, pow_add]; exact mul_dvd_mul_left _ a1
    · rw [pow_add]; exact mul_dvd_mul_left _ a2
  · have iT : Is SPLIT_THRESHOLD SPLIT_THRESHOLD.units := Is.of_finite thr_units.1
    have hsmall : |m| ≤ (2:ℤ) ^ 2070 - 1 := by
      rw [Bool.or_eq_true, not_or] at hb
      have g1 : ¬ SPLIT_THRESHOLD.units < m := fun h => hb.1 ((iT.lt_iff ia).mpr h)
      have g2 : ¬ m < -SPLIT_THRESHOLD.units := fun h => hb.2 ((ia.lt_iff iT.neg).mpr h)
      refine le_trans ?_ thr_units.2.2
      generalize SPLIT_THRESHOLD.units = T at *
      rw [abs_le]; constructor <;> linarith
    have hi : 52 + i ≤ 2069 := by
      by_contra hc
      have : (2:ℤ) ^ 2070 ≤ 2 ^ (52 + i) := pow_le_pow_right₀ (by norm_num) (by omega)
      have h3 : (2:ℤ) ^ 2070 ≤ 2 ^ 2070 - 1 := this.trans (h1.trans hsmall)
      generalize (2:ℤ) ^ 2070 = K at h3
      omega
    have hc : (2:ℤ) ^ (80 + i) + 2 ^ (55 + i) ≤ omegaUnits := by
      have g1 : (2:ℤ) ^ (80 + i) ≤ 2 ^ 2097 := pow_le_pow_right₀ (by norm_num) (by omega)
      have g2 : (2:ℤ) ^ (55 + i) ≤ 2 ^ 2072 := pow_le_pow_right₀ (by norm_num) (by omega)
      have g3 : (2:ℤ) ^ 2097 + 2 ^ 2072 ≤ omegaUnits := by unfold omegaUnits; decide +kernel
      exact (add_le_add g1 g2).trans g3
    exact is_split_core ia hd h1 h2 hc

end Verif
