import Verif.Proofs.Wide

/-!
# The error of one Karp–Markstein step, over the reals
-/

namespace Verif

/-- The scaled step: `x` near `1`, every operation with its rounding error. -/
theorem sqrt_core_one {x ax q d h p r : ℝ} (hx : |x - 1| ≤ 4.6 / 2 ^ 53)
    (h1 : |ax - x| ≤ 9 / 2 ^ 106 * |x| + 1 / 2 ^ 110)
    (h2 : |q - ax ^ 2| ≤ 9 / 2 ^ 106 * ax ^ 2 + 1 / 2 ^ 110)
    (h3 : |d - (1 - q)| ≤ |1 - q| / 2 ^ 103)
    (h4 : |h - x / 2| ≤ 1 / 2 ^ 110)
    (h5 : |p - d * h| ≤ 9 / 2 ^ 106 * |d * h| + 1 / 2 ^ 110)
    (h6 : |r - (ax + p)| ≤ |ax + p| / 2 ^ 103) : |r - 1| ≤ 1 / 2 ^ 100 := by
  -- `e = x - 1`, `η = ax - 1`
  obtain ⟨e, rfl⟩ : ∃ e, x = 1 + e := ⟨x - 1, by ring⟩
  obtain ⟨η, rfl⟩ : ∃ η, ax = 1 + η := ⟨ax - 1, by ring⟩
  have he : |e| ≤ 4.6 / 2 ^ 53 := by simpa using hx
  have hxle : |1 + e| ≤ 1.0001 := by
    have := abs_add_le 1 e; rw [abs_one] at this; norm_num at this he ⊢; linarith
  have b1 : |η - e| ≤ 9.1 / 2 ^ 106 := by
    have : |1 + η - (1 + e)| = |η - e| := by congr 1; ring
    rw [this] at h1
    norm_num at h1 hxle ⊢; linarith
  have b2 : |η| ≤ 4.61 / 2 ^ 53 := by
    have := abs_add_le (η - e) e; rw [sub_add_cancel] at this
    norm_num at this b1 he ⊢; linarith
  have hη2 : η ^ 2 ≤ 4.61 / 2 ^ 53 * |η| := by
    rw [← sq_abs, sq]; exact mul_le_mul_of_nonneg_right b2 (abs_nonneg _)
  have hη2' : η ^ 2 ≤ 21.26 / 2 ^ 106 := by
    refine hη2.trans ?_
    have := mul_le_mul_of_nonneg_left b2 (show (0:ℝ) ≤ 4.61 / 2 ^ 53 by norm_num)
    refine this.trans (by norm_num)
  have hη20 := sq_nonneg η
  have b3 : (1 + η) ^ 2 ≤ 1.0001 := by
    have : (1 + η) ^ 2 = 1 + 2 * η + η ^ 2 := by ring
    rw [this]
    have := le_abs_self η
    norm_num at b2 hη2' ⊢; linarith
  set D := -2 * η - η ^ 2 with hD
  have b4 : |q - (1 + η) ^ 2| ≤ 9.1 / 2 ^ 106 := by
    refine h2.trans ?_
    norm_num at b3 ⊢; linarith
  have e1 : 1 - q = D - (q - (1 + η) ^ 2) := by rw [hD]; ring
  have bD : |D| ≤ 9.3 / 2 ^ 53 := by
    rw [hD]
    have := abs_sub (-2 * η) (η ^ 2)
    rw [abs_mul, abs_of_nonneg hη20] at this
    norm_num at this b2 hη2' ⊢; linarith
  have bq : |1 - q| ≤ 9.31 / 2 ^ 53 := by
    rw [e1]
    have := abs_sub D (q - (1 + η) ^ 2)
    norm_num at this bD b4 ⊢; linarith
  have b5 : |d - D| ≤ 9.2 / 2 ^ 106 := by
    have e2 : d - D = (d - (1 - q)) - (q - (1 + η) ^ 2) := by rw [hD]; ring
    rw [e2]
    have := abs_sub (d - (1 - q)) (q - (1 + η) ^ 2)
    norm_num at this h3 b4 bq ⊢; linarith
  have bd : |d| ≤ 9.31 / 2 ^ 53 := by
    have := abs_add_le (d - D) D; rw [sub_add_cancel] at this
    norm_num at this b5 bD ⊢; linarith
  have bh : |h| ≤ 0.51 := by
    have := abs_add_le (h - (1 + e) / 2) ((1 + e) / 2); rw [sub_add_cancel, abs_div] at this
    norm_num at this h4 hxle ⊢; linarith
  have bdh : |d * h| ≤ 5 / 2 ^ 53 := by
    rw [abs_mul]
    refine (mul_le_mul bd bh (abs_nonneg _) (by norm_num)).trans (by norm_num)
  have b6 : |p - D * ((1 + e) / 2)| ≤ 4.8 / 2 ^ 106 := by
    have e3 : p - D * ((1 + e) / 2) = (p - d * h) + ((d - D) * h + D * (h - (1 + e) / 2)) := by ring
    rw [e3]
    have t1 := abs_add_le (p - d * h) ((d - D) * h + D * (h - (1 + e) / 2))
    have t2 := abs_add_le ((d - D) * h) (D * (h - (1 + e) / 2))
    rw [abs_mul, abs_mul D] at t2
    have t3 := mul_le_mul b5 bh (abs_nonneg _) (by norm_num)
    have t4 := mul_le_mul bD h4 (abs_nonneg _) (by norm_num)
    norm_num at t1 t2 t3 t4 h5 bdh ⊢
    linarith
  -- the mathematical error of the step
  have e4 : 1 + η + D * ((1 + e) / 2) - 1 = -(η ^ 2 / 2) - η * e - η ^ 2 * e / 2 := by rw [hD]; ring
  have hηe : |η * e| ≤ 21.21 / 2 ^ 106 := by
    rw [abs_mul]
    exact (mul_le_mul b2 he (abs_nonneg _) (by norm_num)).trans (by norm_num)
  have hηe2 : |η ^ 2 * e| ≤ 1 / 2 ^ 106 := by
    rw [abs_mul, abs_of_nonneg hη20]
    exact (mul_le_mul hη2' he (abs_nonneg _) (by norm_num)).trans (by norm_num)
  have b7 : |1 + η + D * ((1 + e) / 2) - 1| ≤ 33 / 2 ^ 106 := by
    rw [e4]
    rw [abs_le] at hηe hηe2 ⊢
    norm_num at hηe hηe2 hη2' ⊢
    constructor <;> linarith [hηe.1, hηe.2, hηe2.1, hηe2.2]
  have b8 : |1 + η + p - 1| ≤ 38 / 2 ^ 106 := by
    have e5 : 1 + η + p - 1 = (1 + η + D * ((1 + e) / 2) - 1) + (p - D * ((1 + e) / 2)) := by ring
    rw [e5]
    have := abs_add_le (1 + η + D * ((1 + e) / 2) - 1) (p - D * ((1 + e) / 2))
    norm_num at this b7 b6 ⊢; linarith
  have b9 : |1 + η + p| ≤ 1.001 := by
    have := abs_add_le (1 + η + p - 1) 1; rw [sub_add_cancel, abs_one] at this
    norm_num at this b8 ⊢; linarith
  have := abs_add_le (r - (1 + η + p)) (1 + η + p - 1)
  rw [sub_add_sub_cancel] at this
  norm_num at this h6 b9 b8 ⊢; linarith

/-- The same for a square root `s` of any size. -/
theorem sqrt_core {s t x ax q d h p r : ℝ} (hs : 0 < s) (t1 : t * 2 ^ 110 ≤ s) (t2 : t * 2 ^ 110 ≤ s ^ 2)
    (t3 : t * s * 2 ^ 110 ≤ 1) (hx : |x - 1 / s| ≤ 4.6 / 2 ^ 53 / s)
    (h1 : |ax - s ^ 2 * x| ≤ 9 / 2 ^ 106 * |s ^ 2 * x| + t)
    (h2 : |q - ax ^ 2| ≤ 9 / 2 ^ 106 * ax ^ 2 + t)
    (h3 : |d - (s ^ 2 - q)| ≤ |s ^ 2 - q| / 2 ^ 103)
    (h4 : |h - x / 2| ≤ t)
    (h5 : |p - d * h| ≤ 9 / 2 ^ 106 * |d * h| + t)
    (h6 : |r - (ax + p)| ≤ |ax + p| / 2 ^ 103) : |r - s| ≤ s / 2 ^ 100 := by
  have hs2 : 0 < s ^ 2 := by positivity
  have scale : ∀ {c u v : ℝ}, 0 < c → |u| ≤ v → |u * c| ≤ v * c := by
    intro c u v hc h
    rw [abs_mul, abs_of_pos hc]; exact mul_le_mul_of_nonneg_right h hc.le
  have is : s * s⁻¹ = 1 := mul_inv_cancel₀ hs.ne'
  have ip : 0 < s⁻¹ := inv_pos.mpr hs
  have i2 : (s⁻¹) ^ 2 = (s ^ 2)⁻¹ := by rw [inv_pow]
  have key := sqrt_core_one (x := x * s) (ax := ax * s⁻¹) (q := q * (s ^ 2)⁻¹) (d := d * (s ^ 2)⁻¹) (h := h * s) (p := p * s⁻¹)
    (r := r * s⁻¹)
    (by
      have := scale hs hx
      rw [sub_mul, one_div, inv_mul_cancel₀ hs.ne', div_mul_cancel₀ _ hs.ne'] at this
      exact this)
    (by
      have := scale ip h1
      have e : ax * s⁻¹ - x * s = (ax - s ^ 2 * x) * s⁻¹ := by field_simp
      rw [e]
      refine this.trans ?_
      rw [add_mul, mul_assoc]
      have e2 : |s ^ 2 * x| * s⁻¹ = |x * s| := by
        rw [abs_mul, abs_mul, abs_of_pos hs2, abs_of_pos hs]; field_simp
      rw [e2]
      gcongr
      rw [← div_eq_mul_inv, div_le_div_iff₀ hs (by positivity)]
      linarith)
    (by
      have := scale (inv_pos.mpr hs2) h2
      have e : q * (s ^ 2)⁻¹ - (ax * s⁻¹) ^ 2 = (q - ax ^ 2) * (s ^ 2)⁻¹ := by field_simp
      rw [e]
      refine this.trans ?_
      rw [add_mul, mul_assoc]
      have e2 : ax ^ 2 * (s ^ 2)⁻¹ = (ax * s⁻¹) ^ 2 := by field_simp
      rw [e2]
      gcongr
      rw [← div_eq_mul_inv, div_le_div_iff₀ hs2 (by positivity)]
      linarith)
    (by
      have := scale (inv_pos.mpr hs2) h3
      have e : d * (s ^ 2)⁻¹ - (1 - q * (s ^ 2)⁻¹) = (d - (s ^ 2 - q)) * (s ^ 2)⁻¹ := by field_simp
      rw [e]
      refine this.trans (le_of_eq ?_)
      have e2 : 1 - q * (s ^ 2)⁻¹ = (s ^ 2 - q) * (s ^ 2)⁻¹ := by field_simp
      rw [e2, abs_mul, abs_of_pos (inv_pos.mpr hs2), div_mul_eq_mul_div])
    (by
      have := scale hs h4
      have e : h * s - x * s / 2 = (h - x / 2) * s := by ring
      rw [e]
      refine this.trans ?_
      rw [le_div_iff₀ (by positivity)]
      exact t3)
    (by
      have := scale ip h5
      have e : p * s⁻¹ - d * (s ^ 2)⁻¹ * (h * s) = (p - d * h) * s⁻¹ := by field_simp
      rw [e]
      refine this.trans ?_
      rw [add_mul, mul_assoc]
      have e2 : |d * h| * s⁻¹ = |d * (s ^ 2)⁻¹ * (h * s)| := by
        rw [show d * (s ^ 2)⁻¹ * (h * s) = d * h * s⁻¹ by field_simp, abs_mul (d * h), abs_of_pos ip]
      rw [e2]
      gcongr
      rw [← div_eq_mul_inv, div_le_div_iff₀ hs (by positivity)]
      linarith)
    (by
      have := scale ip h6
      have e : r * s⁻¹ - (ax * s⁻¹ + p * s⁻¹) = (r - (ax + p)) * s⁻¹ := by ring
      rw [e]
      refine this.trans (le_of_eq ?_)
      rw [← add_mul, abs_mul (ax + p), abs_of_pos ip, div_mul_eq_mul_div])
  have := scale hs key
  rw [sub_mul, mul_assoc, inv_mul_cancel₀ hs.ne', one_mul, mul_one] at this
  refine this.trans (le_of_eq ?_)
  ring

end Verif
