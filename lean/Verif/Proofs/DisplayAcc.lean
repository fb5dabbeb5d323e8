import Verif.Proofs.Display
import Verif.Props.AddSub
import Verif.Props.Mul
import Verif.Props.Div
import Verif.Props.Powi
import Verif.Props.Whole

/-! # The digit loop of the formatting code on Doubles -/

namespace Verif.Disp

open Verif F64

theorem is_trunc {x : F64} {n : ℤ} (hx : Is x n) : Is x.trunc (truncQ ((n : ℚ) / one') * one') := by
  have hp := one'_pos
  rw [truncQ_units]
  apply is_toWhole hx
  · intro h
    by_cases h0 : 0 ≤ n
    · rw [if_pos h0]; exact fl_of_dvd h
    · rw [if_neg h0]; unfold ce
      have := fl_of_dvd ((dvd_neg).mpr h)
      linarith
  · by_cases h0 : 0 ≤ n
    · rw [if_pos h0]
      have h1 := fl_le n; have h2 := lt_fl n
      rw [abs_le]; constructor <;> linarith
    · rw [if_neg h0]; unfold ce
      have h1 := fl_le (-n); have h2 := lt_fl (-n)
      rw [abs_le]; constructor <;> linarith
  · intro s q r hr e
    have hr0 : (0:ℤ) ≤ r := by positivity
    have hq0 : (0:ℤ) ≤ (q:ℤ) * one' := by positivity
    cases s
    · simp only [Bool.false_eq_true, if_false] at e ⊢
      rw [if_pos (by linarith), e]; exact fl_unique (by linarith) (by linarith)
    · simp only [if_true] at e ⊢
      by_cases h0 : 0 ≤ n
      · rw [if_pos h0]
        have h1 : (q:ℤ) * one' = 0 := by linarith
        have h2 : (q:ℤ) = 0 := by
          rcases mul_eq_zero.mp h1 with h | h
          · exact h
          · exact absurd h hp.ne'
        rw [h2, neg_zero, e]
        exact fl_unique (by linarith) (by linarith)
      · rw [if_neg h0]; unfold ce
        rw [e, neg_neg, neg_inj]; exact fl_unique (by linarith) (by linarith)

theorem cast_div_eq {m D : ℕ} {w o : ℤ} (hD : (D : ℤ) = o) (ho : o ≠ 0) (h : (m : ℤ) = w * o) : ((m / D : ℕ) : ℤ) = w := by
  rw [Int.natCast_div, hD, h]
  exact Int.mul_ediv_cancel _ ho

theorem toU_whole {y : F64} {w : ℤ} {b : ℕ} (hy : Is y (w * one')) : F64.toU b y = max 0 (min (2 ^ b - 1) w) := by
  obtain ⟨s, m, hm, rfl, he⟩ := hy.exists
  have hD : ((2 ^ 1074 : ℕ) : ℤ) = one' := one'_nat
  have hp := one'_pos
  unfold F64.toU F64.toIntSat
  have key : (if s then -((m / 2 ^ 1074 : ℕ) : ℤ) else ((m / 2 ^ 1074 : ℕ) : ℤ)) = w := by
    cases s
    · simp only [Bool.false_eq_true, if_false] at he ⊢
      exact cast_div_eq hD hp.ne' he.symm
    · simp only [if_true] at he ⊢
      have : (m : ℤ) = (-w) * one' := by linarith
      rw [cast_div_eq hD hp.ne' this, neg_neg]
  dsimp only
  rw [key]

/-- The constant `TEN`. -/
def ten : Double := ⟨F64.ofInt 10, F64.zero⟩

theorem ten_norm : ten.Normalized := by decide +kernel

theorem ten_hi : ten.hi.toRat = 10 := by
  have : ten.hi.units = 10 * one' := by unfold one'; decide +kernel
  unfold F64.toRat
  rw [this, ← one'_pow]; push_cast
  exact mul_div_cancel_right₀ _ one'_ne

theorem ten_val : ten.val = 10 := by
  unfold Double.val
  rw [ten_hi]
  have : ten.lo.toRat = 0 := by unfold F64.toRat; simp [ten, F64.zero, F64.units]
  rw [this, add_zero]

/-- A Double whose first component is a whole number and whose second is zero. -/
theorem whole_double {y : F64} {w : ℤ} (hy : Is y (w * one')) :
    (Double.mk y F64.zero).Normalized ∧ (Double.mk y F64.zero).val = w ∧ y.toRat = w := by
  have hz : Is F64.zero 0 := dis_zero.1
  have hn : Norm2 (w * one') 0 := by
    refine ⟨hy.rep, hz.rep, ?_⟩
    rw [add_zero]; exact rnd_of_rep hy.rep
  have hi : DIs ⟨y, F64.zero⟩ (w * one') 0 := ⟨hy, hz⟩
  have e : y.toRat = w := by
    rw [hy.toRat]; push_cast; exact mul_div_cancel_right₀ _ one'_ne
  refine ⟨hn.normalized hi, ?_, e⟩
  rw [hi.val]; push_cast; rw [add_zero]; exact mul_div_cancel_right₀ _ one'_ne

/-- One round of the digit loop: `(v - trunc v.hi) * 10`. -/
def next (v : Double) : Double := Double.dispOps.mulTen (Double.dispOps.subDigit v v.hi.trunc)

theorem next_spec {v : Double} (hv : v.Normalized) (hb : |v.val| ≤ 11) :
    (next v).Normalized ∧
      |(next v).val - 10 * (v.val - truncQ v.hi.toRat)| ≤ |v.val - truncQ v.hi.toRat| / 2 ^ 98 + 1 / 2 ^ 1000 ∧
      (F64.toU 8 v.hi.trunc).toNat = (min 255 (truncQ v.hi.toRat)).toNat := by
  obtain ⟨a, b, i, hn⟩ := hv.norm2
  have it := is_trunc i.1
  have ea : v.hi.toRat = (a : ℚ) / one' := i.1.toRat
  rw [← ea] at it
  set w := truncQ v.hi.toRat with hw
  obtain ⟨n1, v1, t1⟩ := whole_double it
  have hh := (hi_val hv).1
  have hvh : |v.hi.toRat| ≤ 12 := by
    have : |v.val| * (1 + 1 / 2 ^ 52) ≤ 11 * (1 + 1 / 2 ^ 52) := mul_le_mul_of_nonneg_right hb (by norm_num)
    have e : (11:ℚ) * (1 + 1 / 2 ^ 52) ≤ 12 := by norm_num
    linarith
  have hwb : |(w : ℚ)| ≤ 12 := by
    rw [hw]
    unfold truncQ
    rw [abs_le] at hvh ⊢
    by_cases h0 : 0 ≤ v.hi.toRat
    · rw [if_pos h0]
      have := Int.floor_le v.hi.toRat
      have : (0:ℚ) ≤ (⌊v.hi.toRat⌋ : ℤ) := by exact_mod_cast Int.floor_nonneg.mpr h0
      constructor <;> linarith [hvh.1, hvh.2]
    · rw [if_neg h0]
      have := Int.le_ceil v.hi.toRat
      have : ((⌈v.hi.toRat⌉ : ℤ) : ℚ) ≤ 0 := by exact_mod_cast Int.ceil_nonpos.mpr (by linarith)
      constructor <;> linarith [hvh.1, hvh.2]
  have hbig : (2:ℚ) ^ 10 ≤ 2 ^ 1023 := pow_le_pow_right₀ (by norm_num) (by norm_num)
  obtain ⟨n2, e2⟩ := C02_sub v ⟨v.hi.trunc, F64.zero⟩ hv n1 (by
    dsimp only; rw [t1]
    have : |v.hi.toRat| + |(w:ℚ)| ≤ 2 ^ 10 := by norm_num; linarith
    exact this.trans hbig)
  rw [v1] at e2
  set r := v - (⟨v.hi.trunc, F64.zero⟩ : Double) with hr
  have hvw : |v.val - w| ≤ 23 := by
    have := abs_sub v.val (w:ℚ); linarith
  have hrb : |r.val| ≤ 24 := by
    have h1 : |r.val| ≤ |r.val - (v.val - w)| + |v.val - w| := by
      have := abs_add_le (r.val - (v.val - w)) (v.val - w); rwa [sub_add_cancel] at this
    have h2 : |r.val - (v.val - w)| ≤ |v.val - w| / 2 ^ 103 := by
      rw [le_div_iff₀ (by positivity)]; exact e2
    have h3 : |v.val - w| / 2 ^ 103 ≤ 23 / 2 ^ 103 := div_le_div_of_nonneg_right hvw (by positivity)
    have : (23:ℚ) / 2 ^ 103 ≤ 1 := by norm_num
    linarith
  obtain ⟨n3, e3⟩ := C03_mul r ten n2 ten_norm (by
    rw [ten_hi, abs_mul]
    have h1 := (hi_val n2).1
    have h2 : |r.val| * (1 + 1 / 2 ^ 52) ≤ 24 * (1 + 1 / 2 ^ 52) := mul_le_mul_of_nonneg_right hrb (by norm_num)
    have e : (24:ℚ) * (1 + 1 / 2 ^ 52) ≤ 25 := by norm_num
    have : |r.hi.toRat| * |(10:ℚ)| ≤ 2 ^ 10 := by rw [abs_of_pos (by norm_num : (0:ℚ) < 10)]; norm_num; linarith
    exact this.trans hbig)
  rw [ten_val] at e3
  refine ⟨n3, ?_, ?_⟩
  · change |(r * ten).val - 10 * (v.val - w)| ≤ _
    have h2 : |r.val - (v.val - w)| ≤ |v.val - w| / 2 ^ 103 := by
      rw [le_div_iff₀ (by positivity)]; exact e2
    have h3 : |(r * ten).val - 10 * (v.val - w)| ≤ |(r * ten).val - r.val * 10| + 10 * |r.val - (v.val - w)| := by
      have := abs_add_le ((r * ten).val - r.val * 10) (10 * (r.val - (v.val - w)))
      rw [abs_mul, abs_of_pos (by norm_num : (0:ℚ) < 10)] at this
      rwa [show (r * ten).val - r.val * 10 + 10 * (r.val - (v.val - w)) = (r * ten).val - 10 * (v.val - w) by ring] at this
    have h4 : |r.val| ≤ |v.val - w| * (1 + 1 / 2 ^ 103) := by
      have := abs_add_le (r.val - (v.val - w)) (v.val - w); rw [sub_add_cancel] at this
      linarith
    rw [abs_mul, abs_of_pos (by norm_num : (0:ℚ) < 10)] at e3
    have h5 : (2:ℚ) / 2 ^ 1074 ≤ 1 / 2 ^ 1000 := by
      have : (2:ℚ) ^ 1074 = 2 ^ 74 * 2 ^ 1000 := by rw [← pow_add]
      rw [this, div_mul_eq_div_div]
      exact div_le_div_of_nonneg_right (by norm_num) (by positivity)
    clear hbig
    generalize (2:ℚ) / 2 ^ 1074 = t1 at *
    generalize (1:ℚ) / 2 ^ 1000 = t2 at *
    have hnn := abs_nonneg (v.val - (w:ℚ))
    generalize |v.val - (w:ℚ)| = X at *
    have h6 : 9 / 2 ^ 106 * (|r.val| * 10) ≤ 9 / 2 ^ 106 * (X * (1 + 1 / 2 ^ 103) * 10) := by
      apply mul_le_mul_of_nonneg_left _ (by norm_num)
      linarith
    norm_num at h6 h2 e3 h3 ⊢
    linarith
  · rw [toU_whole it]; norm_num
    omega

theorem val_hi {d : Double} (h : d.Normalized) : |d.val - d.hi.toRat| ≤ |d.hi.toRat| / 2 ^ 53 := by
  obtain ⟨a, b, i, hn⟩ := h.norm2
  have hl := hn.lo_leQ
  have hp := one'_posQ
  have e1 : d.hi.toRat = (a : ℚ) / one' := i.1.toRat
  have e2 : d.val = (a : ℚ) / one' + (b : ℚ) / one' := by rw [i.val]; push_cast; ring
  rw [e1, e2, add_sub_cancel_left, abs_div, abs_div, abs_of_pos hp, div_right_comm]
  exact div_le_div_of_nonneg_right hl hp.le

/-- The bound on the value during the loop. -/
def vmax : ℚ := 10 + 1 / 2 ^ 30

/-- What one round of the loop does, in rational arithmetic. -/
theorem step_spec {v : Double} (hv : v.Normalized) (hb : |v.val| ≤ vmax) :
    ∃ e : ℕ, (F64.toU 8 v.hi.trunc).toNat = e ∧ (next v).Normalized ∧ |(next v).val| ≤ vmax ∧ e ≤ 10 ∧
      (e = 10 → (next v).val ≤ 1 / 2 ^ 20) ∧ (v.val ≤ 1 / 2 ^ 20 → e = 0) ∧
      (e : ℚ) + max (next v).val 0 / 10 ≤ max v.val 0 + 13 / 2 ^ 53 ∧
      max v.val 0 ≤ (e : ℚ) + max (next v).val 0 / 10 + 1 / 2 ^ 98 := by
  unfold vmax at *
  obtain ⟨n1, e1, e2⟩ := next_spec hv (hb.trans (by norm_num))
  have hh := (hi_val hv).1
  have hd := val_hi hv
  have htiny : (1:ℚ) / 2 ^ 1000 ≤ 1 / 2 ^ 110 := by
    apply one_div_le_one_div_of_le (by positivity)
    exact pow_le_pow_right₀ (by norm_num) (by norm_num)
  generalize (1:ℚ) / 2 ^ 1000 = tiny at *
  generalize (next v).val = N at *
  rw [e2]
  generalize v.hi.toRat = h at *
  generalize v.val = V at *
  clear e2
  have hhb : |h| ≤ 10 + 1 / 2 ^ 29 := by
    have : |V| * (1 + 1 / 2 ^ 52) ≤ (10 + 1 / 2 ^ 30) * (1 + 1 / 2 ^ 52) := mul_le_mul_of_nonneg_right hb (by norm_num)
    norm_num at this hh ⊢
    linarith
  have hd2 : |V - h| ≤ 11 / 2 ^ 53 := hd.trans (by
    apply div_le_div_of_nonneg_right _ (by positivity)
    exact hhb.trans (by norm_num))
  rw [abs_le] at hd2 hhb hb
  by_cases h0 : 0 ≤ h
  · have et : truncQ h = ⌊h⌋ := by unfold truncQ; rw [if_pos h0]
    rw [et] at e1 ⊢
    have f1 := Int.floor_le h
    have f2 := Int.lt_floor_add_one h
    have f0 : (0:ℤ) ≤ ⌊h⌋ := Int.floor_nonneg.mpr h0
    have f3 : ⌊h⌋ ≤ 10 := by
      have : ⌊h⌋ < 11 := by
        rw [Int.floor_lt]; push_cast
        have : (10:ℚ) + 1 / 2 ^ 29 < 11 := by norm_num
        linarith [hhb.2]
      omega
    have hV0 : 0 ≤ V := by
      rw [abs_of_nonneg h0] at hd
      have := (abs_le.mp hd).1
      have : h / 2 ^ 53 ≤ h := div_le_self h0 (by norm_num)
      linarith
    obtain ⟨w, hw⟩ := Int.eq_ofNat_of_zero_le f0
    rw [hw] at f1 f2 f3 e1 ⊢
    have ew : (min 255 (w : ℤ)).toNat = w := by omega
    rw [ew]
    push_cast at f1 f2 e1
    have hR : |V - w| ≤ 1 + 11 / 2 ^ 53 := by
      rw [abs_le]; constructor <;> [(norm_num at hd2 ⊢; linarith [hd2.1]); linarith [hd2.2]]
    have hE : |V - w| / 2 ^ 98 ≤ (1 + 11 / 2 ^ 53) / 2 ^ 98 := div_le_div_of_nonneg_right hR (by positivity)
    have hN := abs_le.mp (e1.trans (add_le_add hE htiny))
    rw [abs_le] at hR
    have hN1 : N ≤ 10 * (V - w) + 1 / 2 ^ 97 := by norm_num at hN ⊢; linarith [hN.2]
    have hN2 : 10 * (V - w) - 1 / 2 ^ 97 ≤ N := by norm_num at hN ⊢; linarith [hN.1]
    clear hN hE e1
    have hmV : max V 0 = V := max_eq_left hV0
    rw [hmV]
    refine ⟨w, rfl, n1, ?_, by omega, ?_, ?_, ?_, ?_⟩
    · rw [abs_le]; norm_num at *; constructor <;> linarith [hR.1, hR.2]
    · intro hw10
      rw [hw10] at hN1 f1 f2
      norm_num at *; linarith [hb.2]
    · intro hVs
      by_contra hne
      have : (1:ℚ) ≤ w := by exact_mod_cast Nat.one_le_iff_ne_zero.mpr hne
      norm_num at hd2 hVs; linarith [hd2.1]
    · rcases le_total N 0 with hn | hn
      · rw [max_eq_right hn]; norm_num at *; linarith [hd2.1]
      · rw [max_eq_left hn]; norm_num at *; linarith
    · have := le_max_left N 0
      norm_num at hN2 ⊢; linarith
  · have et : truncQ h = ⌈h⌉ := by unfold truncQ; rw [if_neg h0]
    rw [et] at e1 ⊢
    have f1 := Int.le_ceil h
    have f2 := Int.ceil_lt_add_one h
    have f0 : ⌈h⌉ ≤ 0 := Int.ceil_nonpos.mpr (by linarith)
    have ew : (min 255 ⌈h⌉).toNat = 0 := by omega
    rw [ew]
    have hV0 : V ≤ 0 := by
      rw [abs_of_neg (not_le.mp h0)] at hd
      have := (abs_le.mp hd).2
      have : -h / 2 ^ 53 ≤ -h := div_le_self (by linarith) (by norm_num)
      linarith
    have hR : |V - (⌈h⌉ : ℤ)| ≤ 1 + 11 / 2 ^ 53 := by
      rw [abs_le]; constructor <;> norm_num at hd2 ⊢ <;> linarith [hd2.1, hd2.2]
    have hE : |V - (⌈h⌉ : ℤ)| / 2 ^ 98 ≤ (1 + 11 / 2 ^ 53) / 2 ^ 98 := div_le_div_of_nonneg_right hR (by positivity)
    have hN := abs_le.mp (e1.trans (add_le_add hE htiny))
    rw [abs_le] at hR
    have hN1 : N ≤ 10 * (V - (⌈h⌉ : ℤ)) + 1 / 2 ^ 97 := by norm_num at hN ⊢; linarith [hN.2]
    have hN2 : 10 * (V - (⌈h⌉ : ℤ)) - 1 / 2 ^ 97 ≤ N := by norm_num at hN ⊢; linarith [hN.1]
    clear hN hE e1
    rw [max_eq_right hV0]
    have hmn := le_max_right N 0
    refine ⟨0, rfl, n1, ?_, by omega, by omega, fun _ => rfl, ?_, ?_⟩
    · rw [abs_le]; norm_num at *; constructor <;> linarith [hR.1, hR.2]
    · have hRu : V - (⌈h⌉ : ℤ) ≤ 11 / 2 ^ 53 := by linarith [hd2.2]
      rcases le_total N 0 with hn | hn
      · rw [max_eq_right hn]; norm_num
      · rw [max_eq_left hn]; norm_num at *; linarith
    · push_cast
      have : (0:ℚ) ≤ 1 / 2 ^ 98 := by positivity
      linarith

end Verif.Disp
