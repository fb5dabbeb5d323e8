import Verif.Props.Rem
import Verif.Props.Mul
import Verif.Props.AddSub
import Verif.Props.Div
import Verif.Proofs.Wide

/-!
# C23: the remainder of arbitrary Doubles
-/

namespace Verif

open F64

/-- The leading component and the value are of the same size. -/
theorem hiQ {d : Double} (h : d.Normalized) : |d.hi.toRat| ≤ 2 * |d.val| ∧ |d.val| ≤ 2 * |d.hi.toRat| := by
  have h1 := fr_hi_two h
  have h2 := fr_hi_ge h
  have h3 : |rv d| ≤ 2 * |fr d.hi| := by norm_num at h2 ⊢; linarith
  unfold fr rv at h1 h3
  exact ⟨by exact_mod_cast h1, by exact_mod_cast h3⟩

/-- What `floor` returns for every normalized Double: an integer not above the argument, and less than `1 + 2^-52` below. -/
theorem floor_near {d : Double} (hd : d.Normalized) :
    ∃ n : ℤ, d.floor.Normalized ∧ d.floor.val = n ∧ (n : ℚ) ≤ d.val ∧ d.val ≤ n + 1 + 1 / 2 ^ 52 := by
  obtain ⟨h, l, ia, hn⟩ := hd.norm2
  obtain ⟨zh, zl, iz, hz, e⟩ := floor_spec ia hn
  have hp := one'_posQ
  have a1 : ((fl (h + l) : ℤ) : ℚ) ≤ d.val := by
    rw [ia.val, ← floor_units]; exact Int.floor_le _
  have a2 : d.val < ((fl (h + l) : ℤ) : ℚ) + 1 := by
    rw [ia.val, ← floor_units]; exact Int.lt_floor_add_one _
  rcases e with e | ⟨h1, h2, h3, e⟩
  · exact ⟨_, hz.normalized iz, whole_val iz e, a1, by norm_num; linarith⟩
  · refine ⟨_, hz.normalized iz, whole_val iz e, by push_cast; linarith, ?_⟩
    have hr : Rep (fl h * one') := (is_floor ia.1).rep
    have key : fl h * one' ≤ h + l := by
      by_contra hc
      have hc := not_le.mp hc
      have := rnd_mono (x := ((h + l : ℤ) : ℚ)) (y := ((fl h * one' : ℤ) : ℚ)) (by exact_mod_cast hc.le)
      rw [hn.rnd_eq, rnd_of_rep hr] at this
      have h4 := fl_le h
      exact h1 ⟨fl h, by linarith⟩
    have e2 : fl (h + l) = fl h := by
      have b1 := fl_le (h + l)
      have b2 := lt_fl (h + l)
      have b3 := lt_fl h
      have b4 := fl_le h
      have hp' := one'_pos
      have c1 : fl h * one' < (fl (h + l) + 1) * one' := by linarith
      have c2 : fl (h + l) * one' < (fl h + 1) * one' := by linarith
      have d1 := lt_of_mul_lt_mul_right c1 hp'.le
      have d2 := lt_of_mul_lt_mul_right c2 hp'.le
      omega
    rw [e2]
    have h5 : ((h + l : ℤ) : ℚ) / one' ≤ ((fl h * one' + 2 ^ 1022 : ℤ) : ℚ) / one' := by
      apply div_le_div_of_nonneg_right _ hp.le
      have : h + l ≤ fl h * one' + 2 ^ 1022 := by linarith
      exact_mod_cast this
    have h6 : ((fl h * one' + 2 ^ 1022 : ℤ) : ℚ) / one' = fl h + 1 / 2 ^ 52 := by
      rw [← eps_units, Int.cast_add, add_div, Int.cast_mul, mul_div_assoc, div_self one'_ne, mul_one]
    rw [h6] at h5
    rw [ia.val]
    push_cast at h5 ⊢
    linarith

/-- **C23 (partial).** For all normalized operands between `2^-400` and `2^400` in magnitude, `a % b` is normalized and is
`a - b * n` up to `(|a| + |b|) / 2^100`, where the integer `n` lies below `a / b` by at least `0` and at most `1 + 2^-52`, up
to the rounding `|a / b| / 2^102` of the quotient. So `n` is the floor of the quotient and the result the floored remainder
unless the quotient is that close to an integer (where `C23_refuted` shows that it can indeed be one less). -/
theorem C23_any_partial (a b : Double) (ha : a.Normalized) (hb : b.Normalized) (ha1 : 1 ≤ |a.val| * 2 ^ 400)
    (ha2 : |a.val| ≤ 2 ^ 400) (hb1 : 1 ≤ |b.val| * 2 ^ 400) (hb2 : |b.val| ≤ 2 ^ 400) :
    ∃ n : ℤ, (a % b).Normalized ∧ |(a % b).val - (a.val - b.val * n)| ≤ (|a.val| + |b.val|) / 2 ^ 100 ∧
      -(|a.val / b.val| / 2 ^ 102) ≤ a.val / b.val - n ∧ a.val / b.val - n ≤ 1 + 1 / 2 ^ 52 + |a.val / b.val| / 2 ^ 102 := by
  obtain ⟨p1, p2⟩ := hiQ ha
  obtain ⟨q1, q2⟩ := hiQ hb
  have P400 : (0:ℚ) < 2 ^ 400 := by positivity
  have e401 : (2:ℚ) ^ 401 = 2 * 2 ^ 400 := by rw [pow_succ']
  have A1 : 1 ≤ |a.hi.toRat| * 2 ^ 401 := by
    rw [e401]
    refine ha1.trans ((mul_le_mul_of_nonneg_right p2 P400.le).trans (le_of_eq ?_))
    rw [mul_comm 2, mul_assoc]
  have B1 : 1 ≤ |b.hi.toRat| * 2 ^ 401 := by
    rw [e401]
    refine hb1.trans ((mul_le_mul_of_nonneg_right q2 P400.le).trans (le_of_eq ?_))
    rw [mul_comm 2, mul_assoc]
  have A2 : |a.hi.toRat| ≤ 2 ^ 401 := by rw [e401]; linarith
  have B2 : |b.hi.toRat| ≤ 2 ^ 401 := by rw [e401]; linarith
  have P401 : (0:ℚ) < 2 ^ 401 := by positivity
  have Bp : 0 < |b.hi.toRat| := by
    by_contra hc
    have : |b.hi.toRat| = 0 := le_antisymm (not_lt.mp hc) (abs_nonneg _)
    rw [this, zero_mul] at B1; exact absurd B1 (by norm_num)
  have Bv : 0 < |b.val| := by
    by_contra hc
    have : |b.val| = 0 := le_antisymm (not_lt.mp hc) (abs_nonneg _)
    rw [this, zero_mul] at hb1; exact absurd hb1 (by norm_num)
  have dv := C04_div a b ha hb (abs_pos.mp Bp)
    (A1.trans (mul_le_mul_of_nonneg_left (pow_le_pow_right₀ (by norm_num) (by norm_num)) (abs_nonneg _)))
    (A2.trans (pow_le_pow_right₀ (by norm_num) (by norm_num)))
    (by
      rw [abs_div, div_mul_eq_mul_div, le_div_iff₀ Bp, one_mul]
      refine B2.trans ?_
      have : |a.hi.toRat| * 2 ^ 962 = (|a.hi.toRat| * 2 ^ 401) * (2 ^ 160 * 2 ^ 401) := by
        rw [mul_assoc, ← pow_add, ← pow_add]
      rw [this]
      calc (2:ℚ) ^ 401 ≤ 2 ^ 160 * 2 ^ 401 := le_mul_of_one_le_left P401.le (by norm_num)
        _ ≤ _ := le_mul_of_one_le_left (by positivity) A1)
    (by
      rw [abs_div, div_le_iff₀ Bp]
      refine A2.trans ?_
      have : (2:ℚ) ^ 1020 * |b.hi.toRat| = 2 ^ 218 * 2 ^ 401 * (|b.hi.toRat| * 2 ^ 401) := by
        rw [show (2:ℚ) ^ 1020 = 2 ^ 218 * 2 ^ 401 * 2 ^ 401 by rw [← pow_add, ← pow_add]]; ring
      rw [this]
      calc (2:ℚ) ^ 401 ≤ 2 ^ 218 * 2 ^ 401 := le_mul_of_one_le_left P401.le (by norm_num)
        _ ≤ _ := le_mul_of_one_le_right (by positivity) B1)
  obtain ⟨n, f1, f2, f3, f4⟩ := floor_near dv.1
  have hq := dv.2.le
  have Q0 := abs_nonneg (a.val / b.val)
  -- the quotient
  have qd : |(a / b).val - a.val / b.val| ≤ |a.val / b.val| / 2 ^ 102 := by
    rw [le_div_iff₀ (by norm_num)]; exact hq
  obtain ⟨g1, g2⟩ := abs_le.mp qd
  have l1 : -(|a.val / b.val| / 2 ^ 102) ≤ a.val / b.val - n := by linarith
  have l2 : a.val / b.val - n ≤ 1 + 1 / 2 ^ 52 + |a.val / b.val| / 2 ^ 102 := by linarith
  have bq : |b.val| * |a.val / b.val| = |a.val| := by
    rw [abs_div, mul_div_cancel₀ _ Bv.ne']
  -- the difference
  have df : |a.val - b.val * n| ≤ 2 * |b.val| + |a.val| / 2 ^ 102 := by
    have e : a.val - b.val * n = b.val * (a.val / b.val - n) := by
      rw [mul_sub, mul_div_cancel₀ _ (abs_pos.mp Bv)]
    have : |a.val / b.val - n| ≤ 2 + |a.val / b.val| / 2 ^ 102 := by
      clear ha1 ha2 hb1 hb2 P400 e401 A1 A2 B1 B2 P401
      rw [abs_le]; norm_num at l1 l2 Q0 ⊢; constructor <;> linarith
    rw [e, abs_mul]
    refine (mul_le_mul_of_nonneg_left this Bv.le).trans (le_of_eq ?_)
    rw [mul_add, ← mul_div_assoc, bq]; ring
  have bn : |b.val * n| ≤ 2 * |b.val| + 2 * |a.val| := by
    have h := abs_sub_abs_le_abs_sub (b.val * n) a.val
    rw [abs_sub_comm] at h
    have := abs_nonneg a.val
    clear ha1 ha2 hb1 hb2 P400 e401 A1 A2 B1 B2 P401
    generalize b.val * n = w at *
    norm_num at df ⊢; linarith
  obtain ⟨r1, r2⟩ := hiQ f1
  have hm : |b.hi.toRat * (a / b).floor.hi.toRat| ≤ 2 ^ 403 * 2 ^ 3 := by
    rw [abs_mul]
    have h := mul_le_mul q1 r1 (abs_nonneg _) (by positivity)
    rw [f2] at h
    have h2 : 2 * |b.val| * (2 * |((n:ℤ):ℚ)|) = 4 * |b.val * n| := by rw [abs_mul]; ring
    rw [h2] at h
    rw [show (2:ℚ) ^ 403 = 8 * 2 ^ 400 by rw [show (8:ℚ) = 2 ^ 3 by norm_num, ← pow_add]]
    clear ha1 hb1 e401 A1 A2 B1 B2 P401 h2
    generalize (2:ℚ) ^ 400 = T at *
    norm_num
    linarith
  have ml := C03_mul b (a / b).floor hb f1 (hm.trans (by rw [← pow_add]; exact pow_le_pow_right₀ (by norm_num) (by norm_num)))
  rw [f2] at ml
  obtain ⟨m1, m2⟩ := ml
  have tiny : (2:ℚ) / 2 ^ 1074 ≤ |a.val| / 2 ^ 200 := by
    rw [div_le_div_iff₀ (by positivity) (by positivity)]
    have : |a.val| * 2 ^ 1074 = |a.val| * 2 ^ 400 * (2 ^ 473 * 2 ^ 201) := by rw [mul_assoc, ← pow_add, ← pow_add]
    rw [this]
    calc (2:ℚ) * 2 ^ 200 = 2 ^ 201 := by rw [← pow_succ']
      _ ≤ 2 ^ 473 * 2 ^ 201 := le_mul_of_one_le_left (by positivity) (one_le_pow₀ (by norm_num))
      _ ≤ _ := le_mul_of_one_le_left (by positivity) ha1
  have m3 : |(b * (a / b).floor).val - b.val * n| ≤ (|a.val| + |b.val|) * (19 / 2 ^ 106) := by
    refine m2.trans ?_
    have a0 := abs_nonneg a.val
    clear ha1 ha2 hb1 hb2 P400 e401 A1 A2 B1 B2 P401 hm
    refine (add_le_add le_rfl tiny).trans ?_
    clear tiny m2
    norm_num at bn ⊢; linarith
  obtain ⟨s1, s2⟩ := hiQ m1
  have pb : |(b * (a / b).floor).val| ≤ 3 * (|a.val| + |b.val|) := by
    have h := abs_sub_abs_le_abs_sub (b * (a / b).floor).val (b.val * n)
    have a0 := abs_nonneg a.val
    clear ha1 ha2 hb1 hb2 P400 e401 A1 A2 B1 B2 P401 hm tiny m2
    generalize b.val * n = w at *
    generalize (b * (a / b).floor).val = p at *
    norm_num at m3 bn ⊢; linarith
  have sb := C02_sub a (b * (a / b).floor) ha m1 (by
    have : |a.hi.toRat| + |(b * (a / b).floor).hi.toRat| ≤ 2 ^ 4 * 2 ^ 400 := by
      clear ha1 hb1 e401 A1 A2 B1 B2 P401 hm tiny m2 m3
      generalize (2:ℚ) ^ 400 = T at *
      norm_num; linarith
    exact this.trans (by rw [← pow_add]; exact pow_le_pow_right₀ (by norm_num) (by norm_num)))
  refine ⟨n, sb.1, ?_, l1, l2⟩
  have s3 := sb.2
  change |(a % b).val - (a.val - (b * (a / b).floor).val)| * 2 ^ 103 ≤ |a.val - (b * (a / b).floor).val| at s3
  generalize (b * (a / b).floor).val = p at *
  generalize (a % b).val = r at *
  have t1 := abs_sub_le r (a.val - p) (a.val - b.val * n)
  have t2 : |a.val - p - (a.val - b.val * n)| = |p - b.val * n| := by
    rw [show a.val - p - (a.val - b.val * n) = -(p - b.val * n) by ring, abs_neg]
  rw [t2] at t1
  have t3 : |a.val - p| ≤ |a.val - b.val * n| + |p - b.val * n| := by
    have := abs_sub (a.val - b.val * n) (p - b.val * n)
    rwa [show a.val - b.val * n - (p - b.val * n) = a.val - p by ring] at this
  have a0 := abs_nonneg a.val
  clear ha1 ha2 hb1 hb2 P400 e401 A1 A2 B1 B2 P401 hm tiny m2
  norm_num at s3 m3 df ⊢
  linarith

/-- The hypotheses are met by numbers that are not integers. -/
example : ∃ n : ℤ, (Double.E % Double.FRAC_1_PI).Normalized ∧
    |(Double.E % Double.FRAC_1_PI).val - (Double.E.val - Double.FRAC_1_PI.val * n)|
      ≤ (|Double.E.val| + |Double.FRAC_1_PI.val|) / 2 ^ 100 ∧
    -(|Double.E.val / Double.FRAC_1_PI.val| / 2 ^ 102) ≤ Double.E.val / Double.FRAC_1_PI.val - n ∧
    Double.E.val / Double.FRAC_1_PI.val - n ≤ 1 + 1 / 2 ^ 52 + |Double.E.val / Double.FRAC_1_PI.val| / 2 ^ 102 :=
  C23_any_partial _ _ (by decide +kernel) (by decide +kernel) (by decide +kernel) (by decide +kernel) (by decide +kernel)
    (by decide +kernel)

end Verif
