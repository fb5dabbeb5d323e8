import Verif.Proofs.DisplayTotal

/-!
# What formatting shows, and when it panics (C29, C33, C34, C61)
-/

namespace Verif

open Disp

namespace Disp

/-! ## The digits of a number in the working range -/

theorem digitsVal_set : ∀ (ds : List ℕ) (i v : ℕ), i < ds.length →
    digitsVal (ds.set i v) + ds[i]?.getD 0 * 10 ^ (ds.length - 1 - i) = digitsVal ds + v * 10 ^ (ds.length - 1 - i) := by
  intro ds
  induction ds with
  | nil => intro i v h; simp at h
  | cons d ds ih =>
    intro i v h
    cases i with
    | zero => simp [digitsVal_cons]; ring
    | succ i =>
      simp only [List.length_cons] at h
      rw [List.set_cons_succ, digitsVal_cons, digitsVal_cons, List.length_set, List.getElem?_cons_succ, List.length_cons]
      have := ih i v (by omega)
      rw [show ds.length + 1 - 1 - (i + 1) = ds.length - 1 - i by omega]
      omega

theorem carry_val : ∀ (j : ℕ) (ds r : List ℕ), j < ds.length → carry j ds = some r → digitsVal r = digitsVal ds ∧ r.length = ds.length ∧
    ∀ i, j < i → r[i]?.getD 0 = ds[i]?.getD 0 := by
  intro j
  induction j with
  | zero =>
    intro ds r hj h
    have : ds = r := by simpa [carry] using h
    subst this; exact ⟨rfl, rfl, fun _ _ => rfl⟩
  | succ j ih =>
    intro ds r hj h
    unfold carry at h
    by_cases hten : ds[j + 1]? = some 10
    · rw [if_pos hten, Option.bind_eq_some_iff] at h
      obtain ⟨b, hb, hc⟩ := h
      unfold bump at hb
      have e0 : (ds.set (j + 1) 0)[j]? = some ds[j] := by
        rw [List.getElem?_set_ne (by omega)]; exact List.getElem?_eq_getElem (by omega)
      rw [e0] at hb
      dsimp only at hb
      by_cases hlt : ds[j] < 255
      · rw [if_pos hlt] at hb
        have hb' : (ds.set (j + 1) 0).set j (ds[j] + 1) = b := by simpa using hb
        subst hb'
        obtain ⟨i1, i2, i3⟩ := ih _ r (by simp; omega) hc
        have s1 := digitsVal_set ds (j + 1) 0 (by omega)
        have s2 := digitsVal_set (ds.set (j + 1) 0) j (ds[j] + 1) (by rw [List.length_set]; omega)
        rw [e0, List.length_set] at s2
        rw [hten] at s1
        simp only [Option.getD_some] at s1 s2
        refine ⟨?_, by rw [i2]; simp, ?_⟩
        · rw [i1]
          obtain ⟨t, ht⟩ : ∃ t, ds.length - 1 - (j + 1) = t := ⟨_, rfl⟩
          rw [ht] at s1
          rw [show ds.length - 1 - j = t + 1 by omega] at s2
          have e : (ds[j] + 1) * 10 ^ (t + 1) = ds[j] * 10 ^ (t + 1) + 10 * 10 ^ t := by ring
          rw [e] at s2
          omega
        · intro i hi
          rw [i3 i (by omega), List.getElem?_set_ne (by omega), List.getElem?_set_ne (by omega)]
      · rw [if_neg hlt] at hb; simp at hb
    · rw [if_neg hten] at h
      have : ds = r := by simpa using h
      subst this; exact ⟨rfl, rfl, fun _ _ => rfl⟩

theorem take_val (ds : List ℕ) (len : ℕ) (hl : ds.length = len + 1) :
    digitsVal ds = 10 * digitsVal (ds.take len) + ds[len]?.getD 0 := by
  have h1 : ds = ds.take len ++ [ds[len]] := by
    rw [List.take_append_getElem, List.take_of_length_le (by omega)]
  have h2 := congrArg digitsVal h1
  rw [digitsVal_append, digitsVal_single] at h2
  rw [h2, List.getElem?_eq_getElem (by omega)]
  simp; ring

/-- Dropping one digit changes the value by at most five units of that digit, whatever the digits are. -/
theorem round_val {ds r : List ℕ} {len : ℕ} (h : roundAndTrunc ds len = some r) (h0 : 0 < len) (hl : ds.length = len + 1)
    (h10 : ds[len]?.getD 0 ≤ 10) : 10 * digitsVal r ≤ digitsVal ds + 5 ∧ digitsVal ds ≤ 10 * digitsVal r + 5 := by
  have eg : ds[len]? = some (ds[len]) := List.getElem?_eq_getElem (by omega)
  simp only [roundAndTrunc, eg] at h
  rw [eg] at h10
  simp only [Option.getD_some] at h10
  by_cases h5 : ds[len] ≥ 5
  · rw [if_pos h5, if_neg (by omega), Option.map_eq_some_iff] at h
    obtain ⟨c, hc, rfl⟩ := h
    rw [Option.bind_eq_some_iff] at hc
    obtain ⟨b, hb, hc⟩ := hc
    unfold bump at hb
    have e0 : ds[len - 1]? = some ds[len - 1] := List.getElem?_eq_getElem (by omega)
    rw [e0] at hb
    dsimp only at hb
    by_cases hlt : ds[len - 1] < 255
    · rw [if_pos hlt] at hb
      have hb' : ds.set (len - 1) (ds[len - 1] + 1) = b := by simpa using hb
      subst hb'
      obtain ⟨i1, i2, i3⟩ := carry_val _ _ _ (by rw [List.length_set]; omega) hc
      have s1 := digitsVal_set ds (len - 1) (ds[len - 1] + 1) (by omega)
      rw [e0, show ds.length - 1 - (len - 1) = 1 by omega] at s1
      simp only [Option.getD_some] at s1
      rw [List.length_set, hl] at i2
      have t1 := take_val c len i2
      rw [i3 len (by omega), List.getElem?_set_ne (by omega), eg] at t1
      simp only [Option.getD_some] at t1
      omega
    · rw [if_neg hlt] at hb; simp at hb
  · rw [if_neg h5] at h
    have : ds.take len = r := by simpa using h
    subst this
    have t1 := take_val ds len hl
    rw [eg] at t1
    simp only [Option.getD_some] at t1
    omega

theorem decVal_shift (ds : List ℕ) (k : ℤ) : decVal ds k = decVal ds 0 * 10 ^ k := by
  unfold decVal
  rw [mul_assoc, ← zpow_add₀ (by norm_num)]
  congr 2; ring

/-- The digits the formatting code computes in its working range. -/
theorem digits_spec {x : Double} (hx : x.Normalized) {k : ℤ} (h1 : -288 ≤ k) (h2 : (10:ℚ) ^ k ≤ |x.val| * (1 + 1 / 2 ^ 40))
    (h3 : |x.val| ≤ (10:ℚ) ^ (k + 1) * (1 + 1 / 2 ^ 40)) (h4 : |x.val| ≤ 2 ^ 1019) :
    ∃ ds, extractDigits Double.dispOps x.abs k = some ds ∧ k ≤ 307 ∧ ds.length = 31 ∧ Tame ds.length 1 ds ∧
      |x.val| * (1 - 1 / 2 ^ 88) ≤ decVal ds k ∧ decVal ds k ≤ |x.val| * (1 + 1 / 2 ^ 49) := by
  obtain ⟨p, p1, hk, qn, qb, qe⟩ := start_spec hx h1 h2 h3 h4
  obtain ⟨l1, t1, -, a1, a2⟩ := loop_spec 32 _ qn qb
  have hx0 : ∃ X : ℚ, |x.val| = X ∧ 0 < X := by
    refine ⟨_, rfl, ?_⟩
    have hT : (0:ℚ) < 10 ^ k := zpow_pos (by norm_num) k
    by_contra hc
    have : |x.val| * (1 + 1 / 2 ^ 40) ≤ 0 := mul_nonpos_of_nonpos_of_nonneg (by linarith) (by norm_num)
    linarith
  obtain ⟨X, eX, hX⟩ := hx0
  rw [eX] at h2 h3 h4 qe ⊢
  have i1 : i32? (324 + k) = some (324 + k) := by unfold i32?; rw [if_pos (by omega)]
  have ext : extractDigits Double.dispOps x.abs k = roundAndTrunc (extractLoop Double.dispOps 32 (x.abs / p)) 31 := by
    unfold extractDigits
    rw [p1, Option.bind_some]
    dsimp only
    rw [i1, Option.bind_some]
    have : min (324 + k) ((Double.dispOps.maxAccuracy : ℕ) : ℤ) = 31 := by
      change min (324 + k) 31 = 31; omega
    rw [this, if_neg (by norm_num)]
    rfl
  rw [ext]
  generalize extractLoop Double.dispOps 32 (x.abs / p) = L at *
  rw [← l1] at t1
  obtain ⟨r, r1, r2, r3⟩ := round_tame t1 (by omega) (show 0 < 31 by omega) (by omega)
  refine ⟨r, r1, hk, r2, r3, ?_⟩
  obtain ⟨v1, v2⟩ := round_val r1 (by omega) l1 (t1.1 31 (by omega))
  have w1 : (10:ℚ) * digitsVal r ≤ digitsVal L + 5 := by exact_mod_cast v1
  have w2 : (digitsVal L : ℚ) ≤ 10 * digitsVal r + 5 := by exact_mod_cast v2
  have er : decVal r 0 = digitsVal r / 10 ^ 30 := by
    unfold decVal
    rw [r2, div_eq_mul_inv, show (0:ℤ) + 1 - ((31 : ℕ) : ℤ) = -(30 : ℕ) by norm_num, zpow_neg, zpow_natCast]
  have eL : decVal L 0 = digitsVal L / 10 ^ 31 := by
    unfold decVal
    rw [l1, div_eq_mul_inv, show (0:ℤ) + 1 - ((32 : ℕ) : ℤ) = -(31 : ℕ) by norm_num, zpow_neg, zpow_natCast]
  rw [eL] at a1 a2
  rw [decVal_shift, er]
  have hT : (0:ℚ) < 10 ^ k := zpow_pos (by norm_num) k
  generalize (10:ℚ) ^ k = T at *
  have eXT : X = X / T * T := by field_simp
  have hY : T ≤ X / T * T * (1 + 1 / 2 ^ 40) := by rw [← eXT]; exact h2
  have hY1 : 1 ≤ X / T * (1 + 1 / 2 ^ 40) := by
    have : 1 * T ≤ X / T * (1 + 1 / 2 ^ 40) * T := by linarith
    exact le_of_mul_le_mul_right this hT
  generalize (x.abs / p).val = q at *
  rw [eXT]
  generalize X / T = Y at *
  have hq : 0 < q := by
    have := abs_le.mp qe
    norm_num at *; linarith
  rw [max_eq_left hq.le] at a1 a2
  have qe' := abs_le.mp qe
  generalize (digitsVal r : ℚ) = R at *
  generalize (digitsVal L : ℚ) = S at *
  constructor
  · have : Y * (1 - 1 / 2 ^ 88) ≤ R / 10 ^ 30 := by norm_num at *; linarith
    have := mul_le_mul_of_nonneg_right this hT.le
    linarith
  · have : R / 10 ^ 30 ≤ Y * (1 + 1 / 2 ^ 49) := by norm_num at *; linarith
    have := mul_le_mul_of_nonneg_right this hT.le
    linarith

/-- What is shown, in the working range. -/
theorem show_core (log10 : F64 → F64) (m : Char) (x : Double) (f : Fmt) (k : ℤ) (hx : x.Normalized) (hl : LogOk log10 x.hi x.val k)
    (hk : -288 ≤ k) (hb : |x.val| ≤ 2 ^ 1019) (hw : f.width = none) :
    ∃ ds : List ℕ, (Disp.extractDigits Double.dispOps x.abs k = some ds ∧ ds.length = 31) ∧ |x.val| * (1 - 1 / 2 ^ 88) ≤ decVal ds k ∧ decVal ds k ≤ |x.val| * (1 + 1 / 2 ^ 49) ∧
      (GoodDigits ds k → ∃ t whole p, x.display log10 f = some (signOf x.hi.isSignNegative f.signPlus ++ t) ∧
        PlainText t whole p (f.precision.elim (decVal ds k) (halfUp (decVal ds k))) ∧ (∀ q, f.precision = some q → p = q) ∧
        whole = (max 0 k).toNat + 1 + (if (10:ℚ) ^ ((max 0 k).toNat + 1) ≤
          f.precision.elim (decVal ds k) (halfUp (decVal ds k)) then 1 else 0)) ∧
      (GoodDigits ds 0 → ∃ t whole p, x.displayExp log10 m f = some (signOf x.hi.isSignNegative f.signPlus ++ t ++ m :: i32Text k) ∧
        PlainText t whole p (f.precision.elim (decVal ds 0) (halfUp (decVal ds 0))) ∧ (∀ q, f.precision = some q → p = q) ∧
        whole = 1 + (if (10:ℚ) ≤ f.precision.elim (decVal ds 0) (halfUp (decVal ds 0)) then 1 else 0)) ∧
      (∃ t, x.display log10 f = some t) ∧ ∃ t, x.displayExp log10 m f = some t := by
  obtain ⟨l1, l2, l3⟩ := hl
  obtain ⟨ds, d1, d2, d3, d4, d5, d6⟩ := digits_spec hx hk l2 l3 hb
  have hne : ds ≠ [] := by rintro rfl; simp at d3
  have hv : x.val ≠ 0 := by
    intro h0
    have hT : (0:ℚ) < 10 ^ k := zpow_pos (by norm_num) k
    rw [h0] at l2; simp at l2; linarith
  obtain ⟨c1, c2, c3⟩ := val_class hx hv
  have hf : x.isFinite = true := by rw [(C41_partition x).2.2.2.2.2.1, c1, c3]; rfl
  have ek : exponent Double.dispOps log10 (Double.dispOps.abs x) = k := by
    change F64.toI32 (F64.floor (log10 x.abs.hi)) = k
    rw [abs_hi]; exact l1
  have d1' : extractDigits Double.dispOps (Double.dispOps.abs x) (exponent Double.dispOps log10 (Double.dispOps.abs x)) = some ds := by
    rw [ek]; exact d1
  refine ⟨ds, ⟨d1, d3⟩, d5, d6, ?_, ?_, ?_, ?_⟩
  · intro hg
    have := fixed_core Double.dispOps log10 x f ds (by change 31 ≤ 1000; omega) c1 c3 c2 d1' hne (by rw [ek]; exact hg) hw
    rw [ek] at this
    exact this
  · intro hg
    have := exp_core Double.dispOps log10 m x f ds c1 c3 c2 hf (abs_hi x) d1' hne hg.dig hw
    rw [ek] at this
    exact this
  · obtain ⟨t, ht⟩ := text_total (exp := k) f.precision d4 (by omega) hne (by omega) (by omega)
    change ∃ t, display Double.dispOps log10 x f = some t
    unfold display
    have e1 : Double.dispOps.isNan x = false := c1
    have e2 : Double.dispOps.isInfinite x = false := c3
    have e3 : Double.dispOps.isZero x = false := c2
    dsimp only
    rw [e1, e2, e3]
    simp only [Bool.false_eq_true, if_false]
    unfold fixedText
    dsimp only
    rw [d1', Option.bind_some, ek, ht]
    exact ⟨_, rfl⟩
  · obtain ⟨t, ht⟩ := text_total (exp := 0) f.precision d4 (by omega) hne (by omega) (by omega)
    change ∃ t, displayExp Double.dispOps log10 m x f = some t
    unfold displayExp
    have e1 : Double.dispOps.isNan x = false := c1
    have e2 : Double.dispOps.isInfinite x = false := c3
    have e3 : Double.dispOps.isZero x = false := c2
    dsimp only
    rw [e1, e2, e3]
    simp only [Bool.false_eq_true, if_false]
    unfold expDigitsText
    dsimp only
    rw [d1', Option.bind_some, ht]
    exact ⟨_, rfl⟩

end Disp

/-! ## C61: the printed number is the number -/

/-- **C61** (partial). For a normalized Double between `10^-288` and `2^1019` (with a `log10` that is right up to `2^-40` at
powers of ten), the digit extraction of the formatting code gives 31 decimal digits whose value is between `|x| (1 - 2^-88)` and
`|x| (1 + 2^-49)`; when these are proper digits, `{}` and `{:e}` print that value, rounded half up to the precision asked for.
Missing: the full claim, that the value printed is within `10^-30` of the number, fails (`C61_refuted`), and so does the
claim that the digits are always proper. -/
theorem C61_double_partial (log10 : F64 → F64) (m : Char) (x : Double) (f : Fmt) (k : ℤ) (hx : x.Normalized)
    (hl : LogOk log10 x.hi x.val k) (hk : -288 ≤ k) (hb : |x.val| ≤ 2 ^ 1019) (hw : f.width = none) :
    ∃ ds : List ℕ, (Disp.extractDigits Double.dispOps x.abs k = some ds ∧ ds.length = 31) ∧ |x.val| * (1 - 1 / 2 ^ 88) ≤ decVal ds k ∧ decVal ds k ≤ |x.val| * (1 + 1 / 2 ^ 49) ∧
      (GoodDigits ds k → ∃ t whole p, x.display log10 f = some (signOf x.hi.isSignNegative f.signPlus ++ t) ∧
        PlainText t whole p (f.precision.elim (decVal ds k) (halfUp (decVal ds k))) ∧ (∀ q, f.precision = some q → p = q)) ∧
      (GoodDigits ds 0 → ∃ t whole p, x.displayExp log10 m f = some (signOf x.hi.isSignNegative f.signPlus ++ t ++ m :: i32Text k) ∧
        PlainText t whole p (f.precision.elim (decVal ds 0) (halfUp (decVal ds 0))) ∧ (∀ q, f.precision = some q → p = q)) := by
  obtain ⟨ds, h1, h2, h3, h4, h5, -⟩ := show_core log10 m x f k hx hl hk hb hw
  refine ⟨ds, h1, h2, h3, fun h => ?_, fun h => ?_⟩
  · obtain ⟨t, w, p, a, b, c, d⟩ := h4 h; exact ⟨t, w, p, a, b, c⟩
  · obtain ⟨t, w, p, a, b, c, d⟩ := h5 h; exact ⟨t, w, p, a, b, c⟩

/-- The number `3.25`, decimal exponent `0`. -/
example : LogOk (fun _ => F64.zero) (F64.ofDec false 325 (-2)) (325 / 100) 0 := by
  refine ⟨by decide +kernel, ?_, ?_⟩ <;> norm_num [abs_of_pos]

example : (Double.mk (F64.ofDec false 325 (-2)) F64.zero).Normalized ∧
    (Double.mk (F64.ofDec false 325 (-2)) F64.zero).val = 325 / 100 := by decide +kernel

example : Double.display (fun _ => F64.zero) ⟨F64.ofDec false 325 (-2), F64.zero⟩ {} = some "3.25".toList := by decide +kernel

/-- **C61**, refuted: with a correct decimal exponent, the normalized Double `3 - 2^-60` prints as `3`. -/
theorem C61_refuted : ∃ x : Double, x.Normalized ∧ x.val = 3 - 1 / 1152921504606846976 ∧
    LogOk (fun _ => F64.zero) x.hi x.val 0 ∧ x.display (fun _ => F64.zero) {} = some "3".toList := by
  refine ⟨⟨F64.ofInt 3, F64.neg (F64.ofDec false 867361737988403547205962240695953369140625 (-60))⟩, by decide +kernel, by decide +kernel, ?_,
    by decide +kernel⟩
  have e : (Double.mk (F64.ofInt 3) (F64.neg (F64.ofDec false 867361737988403547205962240695953369140625 (-60)))).val = 3 - 1 / 1152921504606846976 := by
    decide +kernel
  rw [e]
  refine ⟨by decide +kernel, ?_, ?_⟩ <;> norm_num [abs_of_pos]

/-- **C61**, refuted: the normalized Double with components `1.1` (the nearest `f64`) and `-9.71445146547012e-17`, just below
`1.1`, prints as `1.010`. -/
theorem C61_refuted_ten : ∃ x : Double, x.Normalized ∧ 1.0999 ≤ x.val ∧ x.val ≤ 1.1 ∧
    LogOk (fun _ => F64.zero) x.hi x.val 0 ∧ x.display (fun _ => F64.zero) {} = some "1.010".toList := by
  have e : 1.0999 ≤ (Double.mk (F64.ofDec false 11 (-1)) (F64.ofDec true 971445146547012 (-31))).val ∧
      (Double.mk (F64.ofDec false 11 (-1)) (F64.ofDec true 971445146547012 (-31))).val ≤ 1.1 := by
    decide +kernel
  refine ⟨⟨F64.ofDec false 11 (-1), F64.ofDec true 971445146547012 (-31)⟩, by decide +kernel, e.1, e.2, ⟨by decide +kernel, ?_, ?_⟩, by decide +kernel⟩
  all_goals
    rw [abs_of_pos (by have := e.1; norm_num at this; linarith)]
    generalize (Double.mk (F64.ofDec false 11 (-1)) (F64.ofDec true 971445146547012 (-31))).val = v at *
    norm_num at *; linarith

/-! ## C29: precision -/

/-- **C29** (partial), `{:.p}` of `Double`: exactly `p` digits after the point (no point for `p = 0`), in the working range and
when the digits computed are proper digits. Missing: numbers whose computed digits contain a ten (`C29_refuted`) and numbers
outside the range. -/
theorem C29_double_partial (log10 : F64 → F64) (m : Char) (x : Double) (f : Fmt) (p : ℕ) (k : ℤ) (hx : x.Normalized)
    (hl : LogOk log10 x.hi x.val k) (hk : -288 ≤ k) (hb : |x.val| ≤ 2 ^ 1019) (hw : f.width = none) (hp : f.precision = some p) :
    ∃ ds : List ℕ, (Disp.extractDigits Double.dispOps x.abs k = some ds ∧ ds.length = 31) ∧ |x.val| * (1 - 1 / 2 ^ 88) ≤ decVal ds k ∧ decVal ds k ≤ |x.val| * (1 + 1 / 2 ^ 49) ∧
      (GoodDigits ds k → ∃ t whole, x.display log10 f = some (signOf x.hi.isSignNegative f.signPlus ++ t) ∧
        PlainText t whole p (halfUp (decVal ds k) p)) ∧
      (GoodDigits ds 0 → ∃ t whole, x.displayExp log10 m f = some (signOf x.hi.isSignNegative f.signPlus ++ t ++ m :: i32Text k) ∧
        PlainText t whole p (halfUp (decVal ds 0) p)) := by
  obtain ⟨ds, h1, h2, h3, h4, h5, -⟩ := show_core log10 m x f k hx hl hk hb hw
  rw [hp] at h4 h5
  simp only [Option.elim_some] at h4 h5
  refine ⟨ds, h1, h2, h3, fun h => ?_, fun h => ?_⟩
  · obtain ⟨t, w, q, a, b, c, d⟩ := h4 h
    rw [c p rfl] at b; exact ⟨t, w, a, b⟩
  · obtain ⟨t, w, q, a, b, c, d⟩ := h5 h
    rw [c p rfl] at b; exact ⟨t, w, a, b⟩

/-- **C29** (partial), `{:.p}` and `{:.pe}` of `Quad`: exactly `p` digits after the point whenever the digits computed are
proper digits. Missing: the same as for `Double`, and a characterization of the digits. -/
theorem C29_quad_partial (log10 : F64 → F64) (x : Quad) (f : Fmt) (p : ℕ) (ds : List ℕ) (hn : x.isNan = false)
    (hi : x.isInfinite = false) (hz : x.isZero = false) (hw : f.width = none) (hp : f.precision = some p)
    (he : extractDigits Quad.dispOps x.abs (exponent Quad.dispOps log10 x.abs) = some ds) (hne : ds ≠ [])
    (hg : GoodDigits ds (exponent Quad.dispOps log10 x.abs)) :
    ∃ t whole, x.display log10 f = some (signOf x.c0.isSignNegative f.signPlus ++ t) ∧
      PlainText t whole p (halfUp (decVal ds (exponent Quad.dispOps log10 x.abs)) p) := by
  obtain ⟨t, w, q, a, b, c, d⟩ := fixed_core Quad.dispOps log10 x f ds (by change 62 ≤ 1000; omega) hn hi hz he hne hg hw
  rw [hp] at b c
  rw [c p rfl] at b
  exact ⟨t, w, a, b⟩

example : Double.display (fun _ => F64.zero) ⟨F64.ofDec false 3255 (-3), F64.zero⟩ { precision := some 2 } = some "3.25".toList := by
  decide +kernel

example : Quad.display (fun _ => F64.zero) ⟨F64.ofDec false 325 (-2), F64.zero, F64.zero, F64.zero⟩ { precision := some 4 } =
    some "3.2500".toList := by decide +kernel

example : GoodDigits ((extractDigits Quad.dispOps ⟨F64.ofDec false 325 (-2), F64.zero, F64.zero, F64.zero⟩ 0).getD []) 0 := by
  left; decide +kernel

/-- **C29**, refuted: `{:.3}` of a number just below 1.1 prints four digits after the point. -/
theorem C29_refuted : ∃ x : Double, x.Normalized ∧
    x.display (fun _ => F64.zero) { precision := some 3 } = some "1.0100".toList :=
  ⟨⟨F64.ofDec false 11 (-1), F64.ofDec true 971445146547012 (-31)⟩, by decide +kernel, by decide +kernel⟩

/-! ## C33: no panic -/

/-- **C33** (partial). `{}`, `{:e}` and `{:E}` return a text for every normalized Double between `10^-288` and `2^1019`, and
for NaN, infinities and zeros, for all settings. Missing: very small and very large numbers; there it fails for the
smallest (`C33_refuted`). -/
theorem C33_double_partial (log10 : F64 → F64) (m : Char) (x : Double) (f : Fmt)
    (h : x.hi.isNan = true ∨ x.hi.isInfinite = true ∨ F64.eq x.hi F64.zero = true ∨
      ∃ k, x.Normalized ∧ LogOk log10 x.hi x.val k ∧ -288 ≤ k ∧ |x.val| ≤ 2 ^ 1019) :
    (∃ t, x.display log10 f = some t) ∧ ∃ t, x.displayExp log10 m f = some t := by
  have key : (∃ t, x.display log10 { f with width := none } = some t) ∧ ∃ t, x.displayExp log10 m { f with width := none } = some t := by
    rcases h with h | h | h | ⟨k, h1, h2, h3, h4⟩
    · exact ⟨⟨_, (C32_double log10 x _ rfl).1 h⟩, ⟨_, (C32_double_exp log10 m x _ rfl).1 h⟩⟩
    · exact ⟨⟨_, (C32_double log10 x _ rfl).2.1 h⟩, ⟨_, (C32_double_exp log10 m x _ rfl).2.1 h⟩⟩
    · exact ⟨⟨_, (C32_double log10 x _ rfl).2.2.1 h⟩, ⟨_, (C32_double_exp log10 m x _ rfl).2.2.1 h⟩⟩
    · obtain ⟨ds, -, -, -, -, -, h5, h6⟩ := show_core log10 m x { f with width := none } k h1 h2 h3 h4 rfl
      exact ⟨h5, h6⟩
  obtain ⟨⟨t, ht⟩, ⟨s, hs⟩⟩ := key
  constructor
  · have := display_pad Double.dispOps log10 x f
    change x.display log10 f = (x.display log10 { f with width := none }).map _ at this
    rw [this, ht]; exact ⟨_, rfl⟩
  · have := displayExp_pad Double.dispOps log10 m x f
    change x.displayExp log10 m f = (x.displayExp log10 m { f with width := none }).map _ at this
    rw [this, hs]; exact ⟨_, rfl⟩

example : LogOk (fun _ => F64.ofInt 2) (F64.ofInt 12345) 12345 4 ∨ LogOk (fun _ => F64.ofInt 4) (F64.ofInt 12345) 12345 4 := by
  right
  refine ⟨by decide +kernel, ?_, ?_⟩ <;> norm_num [abs_of_pos]

/-- **C33**, refuted: `{}` of the smallest positive number, with a `log10` that gives the correctly rounded logarithm
-323.3, panics. -/
theorem C33_refuted : ∃ x : Double, x.Normalized ∧ 0 < x.val ∧
    x.display (fun _ => F64.ofDec true 3233062153431158 (-13)) {} = none :=
  ⟨⟨.fin false 1 (by decide +kernel), F64.zero⟩, by decide +kernel, by decide +kernel, by decide +kernel⟩

/-! ## C34: exponential form -/

/-- **C34** (partial). In the working range, with proper digits, `{:e}` prints one digit before the point unless the number
shown is ten or more, then it prints two. Missing: the claim fails when rounding reaches ten (`C34_refuted`). -/
theorem C34_double_partial (log10 : F64 → F64) (m : Char) (x : Double) (f : Fmt) (k : ℤ) (hx : x.Normalized)
    (hl : LogOk log10 x.hi x.val k) (hk : -288 ≤ k) (hb : |x.val| ≤ 2 ^ 1019) (hw : f.width = none) :
    ∃ ds : List ℕ, (Disp.extractDigits Double.dispOps x.abs k = some ds ∧ ds.length = 31) ∧ |x.val| * (1 - 1 / 2 ^ 88) ≤ decVal ds k ∧ decVal ds k ≤ |x.val| * (1 + 1 / 2 ^ 49) ∧
      (GoodDigits ds 0 → ∃ t whole p, x.displayExp log10 m f = some (signOf x.hi.isSignNegative f.signPlus ++ t ++ m :: i32Text k) ∧
        PlainText t whole p (f.precision.elim (decVal ds 0) (halfUp (decVal ds 0))) ∧
        whole = if f.precision.elim (decVal ds 0) (halfUp (decVal ds 0)) < 10 then 1 else 2) := by
  obtain ⟨ds, h1, h2, h3, -, h5, -⟩ := show_core log10 m x f k hx hl hk hb hw
  refine ⟨ds, h1, h2, h3, fun h => ?_⟩
  obtain ⟨t, w, p, a, b, c, d⟩ := h5 h
  refine ⟨t, w, p, a, b, ?_⟩
  rw [d]
  generalize f.precision.elim (decVal ds 0) (halfUp (decVal ds 0)) = q
  by_cases hq : q < 10
  · rw [if_pos hq, if_neg (by linarith)]
  · rw [if_neg hq, if_pos (by linarith)]

example : Double.displayExp (fun _ => F64.ofInt 2) 'e' ⟨F64.ofInt 325, F64.zero⟩ {} = some "3.25e2".toList := by decide +kernel

/-- **C34**, refuted: `{:.1e}` of 9.99 prints `10.0e0`. -/
theorem C34_refuted : Double.displayExp (fun _ => F64.zero) 'e' ⟨F64.ofDec false 999 (-2), F64.zero⟩ { precision := some 1 } =
    some "10.0e0".toList := by decide +kernel

end Verif
