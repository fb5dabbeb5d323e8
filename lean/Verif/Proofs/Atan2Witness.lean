import Verif.Props.Asin

/-!
# The requirement on `f64::atan2` can be met
-/

namespace Verif

/-- Every real number between `2^-900` and 4 in magnitude has an `f64` within `2^-50` of it (relative). -/
theorem exists_fr_wide {t : ℝ} (h1 : 1 ≤ |t| * 2 ^ 900) (h2 : |t| ≤ 4) :
    ∃ x : F64, x.isFinite = true ∧ |fr x - t| ≤ |t| / 2 ^ 50 := by
  have ht : 0 < |t| := by
    rcases (abs_nonneg t).lt_or_eq with h | h
    · exact h
    · rw [← h, zero_mul] at h1; exact absurd h1 (by norm_num)
  obtain ⟨q, hq1, hq2⟩ := exists_rat_btwn (show t < t + |t| / 2 ^ 60 by linarith [div_pos ht (show (0:ℝ) < 2 ^ 60 by norm_num)])
  have hqt : |(q:ℝ) - t| ≤ |t| / 2 ^ 60 := by rw [abs_le]; constructor <;> linarith [div_pos ht (show (0:ℝ) < 2 ^ 60 by norm_num)]
  have hqa : |(q:ℝ)| ≤ |t| * (1 + 1 / 2 ^ 60) := by
    have := abs_add_le ((q:ℝ) - t) t
    rw [sub_add_cancel] at this; clear h1; norm_num at hqt ⊢; linarith
  have hn := (Rat.cast_le (K := ℝ)).mpr (rnd_near (q * one'))
  have e1 : q * (one' : ℚ) / one' = q := by have := one'_ne; field_simp
  rw [e1] at hn
  have hp : (0:ℝ) < (one' : ℝ) := by exact_mod_cast one'_pos
  have ti : (1:ℝ) / one' ≤ |t| / 2 ^ 100 := by
    refine tau_inv.trans ?_
    rw [le_div_iff₀ (by positivity)]
    have h := tau_mul (k := 1000) (by norm_num)
    have e : tau * 2 ^ 1000 = tau * 2 ^ 100 * 2 ^ 900 := by rw [mul_assoc, ← pow_add]
    rw [e] at h
    exact le_of_mul_le_mul_right (h.trans h1) (by positivity)
  have h4 : |((rnd (q * one') : ℤ) : ℝ) / one' - q| ≤ |(q:ℝ)| / 2 ^ 53 + |t| / 2 ^ 100 := by
    push_cast at hn; exact hn.trans (add_le_add le_rfl ti)
  clear hn h1
  have hlt : |rnd (q * one')| < ovf := by
    have h3 : |((rnd (q * one') : ℤ) : ℝ) / one'| ≤ 2 ^ 102 := by
      have := abs_add_le (((rnd (q * one') : ℤ) : ℝ) / one' - q) q
      rw [sub_add_cancel] at this
      norm_num at h4 hqa h2 ⊢; linarith
    rw [abs_div, abs_of_pos hp, div_le_iff₀ hp] at h3
    have h5 : |rnd (q * one')| ≤ 2 ^ 102 * one' := by exact_mod_cast h3
    refine lt_of_le_of_lt h5 ?_
    unfold one' ovf
    rw [← pow_add]
    exact pow_lt_pow_right₀ (by norm_num) (by norm_num)
  obtain ⟨x, ix⟩ := exists_is (rep_rnd (q * one')) hlt
  refine ⟨x, ix.1, ?_⟩
  rw [fr_is ix]
  have := abs_add_le (((rnd (q * one') : ℤ) : ℝ) / one' - q) (q - t)
  rw [sub_add_sub_cancel] at this
  norm_num at h4 hqa hqt ⊢; linarith

open Classical in
/-- A good enough `f64` for the angle, when there is one. -/
noncomputable def goodAngle (y x : F64) : F64 :=
  if h : ∃ r : F64, r.isFinite = true ∧ |fr r - angle (fr y) (fr x)| ≤ |angle (fr y) (fr x)| / 2 ^ 50 then h.choose else F64.zero

/-- The witness platform of the inverse trigonometric functions. -/
noncomputable def angPlatform : Platform := { bothPlatform with atan2 := goodAngle }

/-- The angle of a point with coordinates between `2^-401` and `2^401`. -/
theorem angle_ge2 {y x : ℝ} (hy : 1 ≤ |y| * 2 ^ 401) (hy2 : |y| ≤ 2 ^ 401) (hx2 : |x| ≤ 2 ^ 401) (hx : x ≠ 0) :
    1 ≤ |angle y x| * 2 ^ 900 := by
  have h := Real.abs_sin_le_abs (x := angle y x)
  have p := hyp_pos (y := y) (Or.inl hx)
  have hh : hyp y x ≤ 2 ^ 402 := by
    refine (hyp_le y x).trans ((add_le_add hy2 hx2).trans (le_of_eq ?_))
    rw [← two_mul, ← pow_succ']
  rw [angle_sin, abs_div, abs_of_pos p, div_le_iff₀ p] at h
  have h2 := (h.trans (mul_le_mul_of_nonneg_left hh (abs_nonneg _)))
  have h3 := hy.trans (mul_le_mul_of_nonneg_right h2 (by positivity))
  rw [mul_assoc, ← pow_add] at h3
  exact h3.trans (mul_le_mul_of_nonneg_left (pow_le_pow_right₀ (by norm_num) (by norm_num)) (abs_nonneg _))

theorem angPlatform_ok : LibmAtan2 angPlatform ∧ FloatText angPlatform.toStr := by
  refine ⟨?_, text17_ok⟩
  intro y x hy hx h1 h2 h3 h4
  have c : ∀ z : F64, (z.toRat : ℝ) = fr z := fun z => (fr_toRat (x := z)).symm
  have k1 : 1 ≤ |fr y| * 2 ^ 401 := by rw [← c]; exact_mod_cast h1
  have k2 : |fr y| ≤ 2 ^ 401 := by rw [← c]; exact_mod_cast h2
  have k3 : 1 ≤ |fr x| * 2 ^ 401 := by rw [← c]; exact_mod_cast h3
  have k4 : |fr x| ≤ 2 ^ 401 := by rw [← c]; exact_mod_cast h4
  have hx0 : fr x ≠ 0 := by
    intro h; rw [h, abs_zero, zero_mul] at k3; exact absurd k3 (by norm_num)
  have g := exists_fr_wide (angle_ge2 k1 k2 k4 hx0) ((angle_pi _ _).trans Real.pi_le_four)
  change (goodAngle y x).isFinite = true ∧ |((goodAngle y x).toRat : ℝ) - angle (y.toRat : ℝ) (x.toRat : ℝ)| ≤
    |angle (y.toRat : ℝ) (x.toRat : ℝ)| / 2 ^ 50
  rw [c, c, c]
  have e : goodAngle y x = g.choose := by unfold goodAngle; rw [dif_pos g]
  rw [e]
  exact g.choose_spec

/-! ## The hypotheses of C71 can be met -/

example : ∃ r, Double.atan2 angPlatform Double.PI (-Double.E) = some r ∧ r.Normalized ∧
      |(r.val : ℝ) - Complex.arg ⟨((-Double.E).val : ℚ), (Double.PI.val : ℚ)⟩| ≤
        (52 + 2 * |Complex.arg ⟨((-Double.E).val : ℚ), (Double.PI.val : ℚ)⟩| +
          6 * Complex.arg ⟨((-Double.E).val : ℚ), (Double.PI.val : ℚ)⟩ ^ 2) / 2 ^ 102 :=
  C71_atan2 _ angPlatform_ok.2 angPlatform_ok.1 _ _ (by decide +kernel) (by decide +kernel) (by decide +kernel) (by decide +kernel)
    (by decide +kernel)

example : ∃ r, Double.atan angPlatform Double.PI = some r ∧ r.Normalized ∧
      |(r.val : ℝ) - Real.arctan ((Double.PI.val : ℚ) : ℝ)| ≤
        (52 + 2 * |Real.arctan ((Double.PI.val : ℚ) : ℝ)| + 6 * Real.arctan ((Double.PI.val : ℚ) : ℝ) ^ 2) / 2 ^ 102 ∧
      (|Real.arctan ((Double.PI.val : ℚ) : ℝ)| ≤ 0.089 →
        |(r.val : ℝ) - Real.arctan ((Double.PI.val : ℚ) : ℝ)| ≤ |Real.arctan ((Double.PI.val : ℚ) : ℝ)| / 2 ^ 97) :=
  C71_atan _ angPlatform_ok.2 angPlatform_ok.1 _ (by decide +kernel) (by decide +kernel)

example : ∃ r, Double.asin angPlatform (-Double.FRAC_PI_4) = some r ∧ r.Normalized :=
  let ⟨r, h1, h2, _⟩ := C71_asin _ angPlatform_ok.2 angPlatform_ok.1 (-Double.FRAC_PI_4) (by decide +kernel) (by decide +kernel)
    (by decide +kernel)
  ⟨r, h1, h2⟩

example : ∃ r, Double.acos angPlatform (-Double.FRAC_PI_4) = some r ∧ r.Normalized :=
  let ⟨r, h1, h2, _⟩ := C71_acos _ angPlatform_ok.2 angPlatform_ok.1 (-Double.FRAC_PI_4) (by decide +kernel) (by decide +kernel)
    (by decide +kernel)
  ⟨r, h1, h2⟩

/-- The hypotheses of the small-angle statement are met by the point `(1, 2^-300)`, whose angle is about `2^-300`. -/
example : ∃ r, Double.atan2 angPlatform ⟨F64.powi Double.two (-300), F64.zero⟩ Double.ONE = some r ∧
    |(r.val : ℝ) - Complex.arg ⟨(Double.ONE.val : ℚ), ((⟨F64.powi Double.two (-300), F64.zero⟩ : Double).val : ℚ)⟩| ≤
      |Complex.arg ⟨(Double.ONE.val : ℚ), ((⟨F64.powi Double.two (-300), F64.zero⟩ : Double).val : ℚ)⟩| / 2 ^ 97 := by
  refine C71_atan2_small _ angPlatform_ok.2 angPlatform_ok.1 _ _ (by decide +kernel) (by decide +kernel) (by decide +kernel)
    (by decide +kernel) (by decide +kernel) ?_
  have e1 : Double.ONE.val = 1 := by decide +kernel
  have e2 : 0 < (⟨F64.powi Double.two (-300), F64.zero⟩ : Double).val := by decide +kernel
  have e3 : (⟨F64.powi Double.two (-300), F64.zero⟩ : Double).val ≤ 1 / 1024 := by decide +kernel
  rw [e1]
  generalize (⟨F64.powi Double.two (-300), F64.zero⟩ : Double).val = t at *
  have h := angle_one (t : ℝ)
  unfold angle at h
  push_cast
  rw [h]
  have e3R : (t : ℝ) ≤ 1 / 1024 := by
    have := (Rat.cast_le (K := ℝ)).mpr e3
    push_cast at this; exact this
  have hp : 0 < Real.arctan (t : ℝ) := Real.arctan_pos.mpr (by exact_mod_cast e2)
  rw [abs_of_pos hp]
  have l : Real.arctan (t : ℝ) ≤ t := by
    have := Real.le_tan hp.le (Real.arctan_lt_pi_div_two _)
    rwa [Real.tan_arctan] at this
  norm_num at l e3R ⊢; linarith

end Verif
