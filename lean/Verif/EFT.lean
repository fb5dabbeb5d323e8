import Verif.Round

/-!
# Error-free transformations, on integers

Mathematics of the classical algorithms of Dekker, Knuth and Møller for `rnd` (no overflow).
-/

namespace Verif

theorem expo_int_lt (n : ℤ) : |n| < 2 ^ (53 + expo n) := by
  have := lt_expo (n:ℚ)
  exact_mod_cast this

theorem Rep.dvd {n : ℤ} (h : Rep n) : (2:ℤ) ^ expo n ∣ n := rep_iff.mp h

theorem Rep.dvd_of_abs_le {a b : ℤ} (hb : Rep b) (h : |a| ≤ |b|) : (2:ℤ) ^ expo a ∣ b := by
  refine dvd_trans (pow_dvd_pow 2 (expo_mono ?_)) hb.dvd
  exact_mod_cast h

theorem Rep.of_dvd_lt {n : ℤ} {k : ℕ} (hd : (2:ℤ) ^ k ∣ n) (h : |n| < 2 ^ (53 + k)) : Rep n := .of_dvd_le hd h.le

theorem rep_rnd_sub_of_grid {a b : ℤ} {k : ℕ} (ha : Rep a) (hda : (2:ℤ) ^ k ∣ a) (hdb : (2:ℤ) ^ k ∣ b)
    (hb : |b| < 2 ^ (53 + k)) : Rep (a + b - rnd ((a + b : ℤ) : ℚ)) := by
  have h1 : |a + b - rnd ((a + b : ℤ) : ℚ)| ≤ |b| := by
    have := err_nearest (a + b) ha
    simpa using this
  exact Rep.of_dvd_lt (k := k) (Int.dvd_sub (dvd_add hda hdb) (dvd_rnd (dvd_add hda hdb))) (lt_of_le_of_lt h1 hb)

/-- The rounding error of a sum is representable. -/
theorem rep_err_add {a b : ℤ} (ha : Rep a) (hb : Rep b) : Rep (a + b - rnd ((a + b : ℤ) : ℚ)) := by
  rcases le_total |b| |a| with h | h
  · exact rep_rnd_sub_of_grid ha (ha.dvd_of_abs_le h) hb.dvd (expo_int_lt b)
  · have := rep_rnd_sub_of_grid hb (hb.dvd_of_abs_le h) ha.dvd (expo_int_lt a)
    rwa [add_comm a b]

/-- Dekker: under the grid condition the difference `s - a` is representable. -/
theorem rep_fast_diff {a b : ℤ} {k : ℕ} (ha : Rep a) (hda : (2:ℤ) ^ k ∣ a) (hdb : (2:ℤ) ^ k ∣ b)
    (hb : |b| < 2 ^ (53 + k)) : Rep (rnd ((a + b : ℤ) : ℚ) - a) := by
  have hRb : Rep b := .of_dvd_lt hdb hb
  set s := rnd ((a + b : ℤ) : ℚ) with hs
  set K := expo ((a + b : ℤ) : ℚ) with hK
  have hdab : (2:ℤ) ^ k ∣ a + b := dvd_add hda hdb
  have herr : |a + b - s| ≤ |b| := by
    have := err_nearest (a + b) ha
    rwa [show a + b - a = b by ring] at this
  have herrK : 2 * |a + b - s| ≤ 2 ^ K := two_err_le (expo_int_lt (a + b))
  have hKs : (2:ℤ) ^ K ∣ s := expo_dvd_rnd _
  rcases le_or_gt K k with hKk | hKk
  · have : s = a + b := rnd_eq_of_dvd (dvd_trans (pow_dvd_pow 2 hKk) hdab)
    rw [this]; simpa using hRb
  · have htri : |s - a| ≤ |b| + |a + b - s| := by
      have : s - a = b - (a + b - s) := by ring
      rw [this]; exact abs_sub _ _
    by_cases haK : (2:ℤ) ^ K ∣ a
    · refine Rep.of_dvd_le (k := K) (Int.dvd_sub hKs haK) ?_
      have : (2:ℤ) ^ (53 + k + 1) ≤ 2 ^ (53 + K) := pow_le_pow_right₀ (by norm_num) (by omega)
      rw [pow_succ] at this
      omega
    · -- 2^J ∣ a, |a| < 2^(53+J), J < K
      obtain ⟨J, hkJ, hJK, hJa, haJ⟩ : ∃ J, k ≤ J ∧ J < K ∧ (2:ℤ) ^ J ∣ a ∧ |a| < 2 ^ (53 + J) := by
        have hjK : expo (a:ℚ) < K := by
          by_contra hc
          exact haK (dvd_trans (pow_dvd_pow 2 (by omega)) ha.dvd)
        rcases le_total k (expo (a:ℚ)) with h | h
        · exact ⟨_, h, hjK, ha.dvd, expo_int_lt a⟩
        · exact ⟨k, le_rfl, hKk, hda, lt_of_lt_of_le (expo_int_lt a) (pow_le_pow_right₀ (by norm_num) (by omega))⟩
      have hlow : (2:ℤ) ^ (52 + K) ≤ |a + b| := by
        have := expo_le ((a + b : ℤ):ℚ) (by omega)
        exact_mod_cast this
      have habs := abs_add_le a b
      have hbJ : |b| < 2 ^ (53 + J) := lt_of_lt_of_le hb (pow_le_pow_right₀ (by norm_num) (by omega))
      have hKJ : K = J + 1 := by
        by_contra hc
        have : (2:ℤ) ^ (53 + J + 1) ≤ 2 ^ (52 + K) := pow_le_pow_right₀ (by norm_num) (by omega)
        rw [pow_succ] at this
        omega
      refine Rep.of_dvd_le (k := J) (Int.dvd_sub (dvd_trans (pow_dvd_pow 2 hJK.le) hKs) hJa) ?_
      rw [hKJ, pow_succ] at herrK
      rcases lt_or_eq_of_le hkJ with h | h
      · have h1 : (2:ℤ) ^ (53 + k) ≤ 2 ^ (52 + J) := pow_le_pow_right₀ (by norm_num) (by omega)
        have h2 : (2:ℤ) ^ (53 + J) = 2 ^ (52 + J) * 2 := by rw [← pow_succ]; congr 1; omega
        have h3 : (2:ℤ) ^ J ≤ 2 ^ (52 + J) := pow_le_pow_right₀ (by norm_num) (by omega)
        omega
      · subst h
        have := int_le_sub_of_dvd (m := 2 ^ k) ((dvd_abs _ _).mpr hdb) (pow_dvd_pow 2 (by omega) : (2:ℤ) ^ k ∣ 2 ^ (53 + k)) hb
        omega

/-- The grid condition holds when `|b| ≤ |a|`. -/
theorem grid_of_abs_le {a b : ℤ} (ha : Rep a) (hb : Rep b) (h : |b| ≤ |a|) :
    ∃ k : ℕ, (2:ℤ) ^ k ∣ a ∧ (2:ℤ) ^ k ∣ b ∧ |b| < 2 ^ (53 + k) :=
  ⟨expo b, ha.dvd_of_abs_le h, hb.dvd, expo_int_lt b⟩

theorem grid_of_zero {b : ℤ} (hb : Rep b) : ∃ k : ℕ, (2:ℤ) ^ k ∣ 0 ∧ (2:ℤ) ^ k ∣ b ∧ |b| < 2 ^ (53 + k) :=
  ⟨expo b, dvd_zero _, hb.dvd, expo_int_lt b⟩

/-- Fast2Sum is exact under the grid condition. -/
theorem fast_two_sum_exact {a b : ℤ} (ha : Rep a)
    (h : ∃ k : ℕ, (2:ℤ) ^ k ∣ a ∧ (2:ℤ) ^ k ∣ b ∧ |b| < 2 ^ (53 + k)) :
    let s := rnd ((a + b : ℤ) : ℚ)
    let z := rnd ((s - a : ℤ) : ℚ)
    z = s - a ∧ rnd ((b - z : ℤ) : ℚ) = a + b - s := by
  obtain ⟨k, hda, hdb, hb⟩ := h
  intro s z
  have hz : z = s - a := rnd_of_rep (rep_fast_diff ha hda hdb hb)
  refine ⟨hz, ?_⟩
  have : b - z = a + b - s := by rw [hz]; ring
  rw [this]
  exact rnd_of_rep (rep_rnd_sub_of_grid ha hda hdb hb)

/-- 2Sum (Knuth/Møller) is exact for all representable operands. -/
theorem two_sum_exact {a b : ℤ} (ha : Rep a) (hb : Rep b) :
    let s := rnd ((a + b : ℤ) : ℚ)
    let v := rnd ((s - a : ℤ) : ℚ)
    let w := rnd ((s - v : ℤ) : ℚ)
    let t := rnd ((a - w : ℤ) : ℚ)
    let u := rnd ((b - v : ℤ) : ℚ)
    rnd ((t + u : ℤ) : ℚ) = a + b - s := by
  intro s v w t u
  have hE : Rep (a + b - s) := rep_err_add ha hb
  rcases le_or_gt |b| |a| with hab | hab
  · obtain ⟨k, hda, hdb, hlt⟩ := grid_of_abs_le ha hb hab
    have hv : v = s - a := rnd_of_rep (rep_fast_diff ha hda hdb hlt)
    have hw : w = a := by
      have : s - v = a := by rw [hv]; ring
      change rnd _ = _
      rw [this]; exact rnd_of_rep ha
    have ht : t = 0 := by
      change rnd _ = _
      rw [hw]; simp [rnd_zero]
    have hu : u = a + b - s := by
      have : b - v = a + b - s := by rw [hv]; ring
      change rnd _ = _
      rw [this]; exact rnd_of_rep hE
    rw [ht, hu, zero_add]
    exact rnd_of_rep hE
  · have hs : Rep s := rep_rnd _
    set k := expo (a:ℚ)
    have hdb : (2:ℤ) ^ k ∣ b := hb.dvd_of_abs_le hab.le
    have hds : (2:ℤ) ^ k ∣ s := dvd_rnd (dvd_add ha.dvd hdb)
    have hdna : (2:ℤ) ^ k ∣ -a := (dvd_neg).mpr ha.dvd
    have hlt : |(-a)| < 2 ^ (53 + k) := by rw [abs_neg]; exact expo_int_lt a
    have hsa : s - a = s + -a := by ring
    have hvR : Rep (v - s) := by
      have := rep_fast_diff hs hds hdna hlt
      rwa [← hsa] at this
    have hw : w = s - v := by
      change rnd _ = _
      apply rnd_of_rep
      have : s - v = -(v - s) := by ring
      rw [this]; exact hvR.neg
    have hdel : Rep (s - a - v) := by
      have := rep_rnd_sub_of_grid hs hds hdna hlt
      rwa [← hsa] at this
    have ht : t = a - w := by
      change rnd _ = _
      apply rnd_of_rep
      have : a - w = -(s - a - v) := by rw [hw]; ring
      rw [this]; exact hdel.neg
    -- b - v representable
    have hu : u = b - v := by
      change rnd _ = _
      apply rnd_of_rep
      set kb := expo (b:ℚ) with hkb
      have hbl := expo_int_lt b
      rw [← hkb] at hbl
      have h1 : |s - a - v| ≤ |a + b - s| := by
        have := err_nearest (s - a) hb
        have h2 : s - a - b = -(a + b - s) := by ring
        rwa [h2, abs_neg] at this
      have h2 : 2 * |a + b - s| ≤ 2 ^ (kb + 1) := by
        apply two_err_le
        have h3 := abs_add_le a b
        have h4 : (2:ℤ) ^ (53 + (kb + 1)) = 2 ^ (53 + kb) * 2 := by rw [← pow_succ]; congr 1
        omega
      have h3 : |b - v| ≤ 2 ^ (kb + 1) := by
        have : b - v = (a + b - s) + (s - a - v) := by ring
        rw [this]
        have := abs_add_le (a + b - s) (s - a - v)
        omega
      have hdv : (2:ℤ) ^ (kb - 1) ∣ v := by
        by_cases h0 : kb = 0
        · rw [h0]; simp
        · have h4 : (2:ℤ) ^ (52 + kb) ≤ |b| := by
            have := expo_le (b:ℚ) (by omega)
            exact_mod_cast this
          have h5 : (2:ℤ) ^ (52 + (kb - 1)) ≤ |s - a| := by
            have h6 : |b| ≤ |s - a| + |a + b - s| := by
              have : b = (s - a) + (a + b - s) := by ring
              calc |b| = |(s - a) + (a + b - s)| := by rw [← this]
                _ ≤ _ := abs_add_le _ _
            have h7 : (2:ℤ) ^ (52 + kb) = 2 ^ (52 + (kb - 1)) * 2 := by rw [← pow_succ]; congr 1; omega
            have h8 : (2:ℤ) ^ (kb + 1) ≤ 2 ^ (52 + (kb - 1)) := pow_le_pow_right₀ (by norm_num) (by omega)
            have h9 : (0:ℤ) < 2 ^ (52 + (kb - 1)) := by positivity
            omega
          refine dvd_trans (pow_dvd_pow 2 (le_expo_of_le ?_)) (expo_dvd_rnd _)
          exact_mod_cast h5
      refine Rep.of_dvd_le (k := kb - 1) (Int.dvd_sub (dvd_trans (pow_dvd_pow 2 (by omega)) hb.dvd) hdv) ?_
      exact h3.trans (pow_le_pow_right₀ (by norm_num) (by omega))
    have : t + u = a + b - s := by rw [ht, hu, hw]; ring
    rw [this]
    exact rnd_of_rep hE

/-- The rounding error of a product that has no bits below the unit is representable. -/
theorem rep_err_mul {a b n : ℤ} {m : ℕ} (ha : Rep a) (hb : Rep b) (hn : n * 2 ^ m = a * b)
    (hdvd : (2:ℤ) ^ m ∣ 2 ^ expo a * 2 ^ expo b) : Rep (n - rnd n) := by
  have hle : m ≤ expo (a:ℚ) + expo (b:ℚ) := by
    rw [← pow_add] at hdvd
    have h1 := Int.natAbs_dvd_natAbs.mpr hdvd
    rw [Int.natAbs_pow, Int.natAbs_pow] at h1
    exact (Nat.pow_dvd_pow_iff_le_right (by norm_num)).mp h1
  obtain ⟨ca, hca⟩ := ha.dvd
  obtain ⟨cb, hcb⟩ := hb.dvd
  obtain ⟨t, ht⟩ := Nat.exists_eq_add_of_le hle
  have hnt : n = 2 ^ t * (ca * cb) := by
    have h2 : (2:ℤ) ^ m ≠ 0 := by positivity
    apply mul_right_cancel₀ h2
    rw [hn]
    have : (2:ℤ) ^ expo (a:ℚ) * 2 ^ expo (b:ℚ) = 2 ^ m * 2 ^ t := by rw [← pow_add, ← pow_add, ht]
    calc a * b = 2 ^ expo (a:ℚ) * ca * (2 ^ expo (b:ℚ) * cb) := by rw [← hca, ← hcb]
      _ = (2 ^ expo (a:ℚ) * 2 ^ expo (b:ℚ)) * (ca * cb) := by ring
      _ = _ := by rw [this]; ring
  have hd : (2:ℤ) ^ t ∣ n := ⟨_, hnt⟩
  have hlt : |n| < 2 ^ (53 + (53 + t)) := by
    have h1 := expo_int_lt a
    have h2 := expo_int_lt b
    have h3 : |a| * |b| < 2 ^ (53 + expo (a:ℚ)) * 2 ^ (53 + expo (b:ℚ)) := by
      apply mul_lt_mul'' h1 h2 (abs_nonneg _) (abs_nonneg _)
    rw [← abs_mul, ← hn, abs_mul, abs_of_pos (by positivity : (0:ℤ) < 2 ^ m), ← pow_add] at h3
    have h4 : (2:ℤ) ^ (53 + expo (a:ℚ) + (53 + expo (b:ℚ))) = 2 ^ (53 + (53 + t)) * 2 ^ m := by
      rw [← pow_add]; congr 1; omega
    rw [h4] at h3
    exact lt_of_mul_lt_mul_right h3 (by positivity)
  have herr := two_err_le hlt
  refine Rep.of_dvd_lt (k := t) (Int.dvd_sub hd (dvd_rnd hd)) ?_
  have : (0:ℤ) < 2 ^ (53 + t) := by positivity
  omega

end Verif
