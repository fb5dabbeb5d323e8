import Verif.Proofs.Hyper
import Verif.Props.DivAny

/-!
# The Taylor loop of `sinh`
-/

namespace Verif

open F64

theorem eps_bd : mkRat 1 (2 ^ 105) ≤ Double.EPSILON.val ∧ Double.EPSILON.val ≤ mkRat 101 (100 * 2 ^ 104) := by
  constructor <;> decide +kernel

theorem rv_eps_bd : 1 / 2 ^ 105 ≤ rv Double.EPSILON ∧ rv Double.EPSILON ≤ 101 / 100 / 2 ^ 104 := by
  have h1 := (Rat.cast_le (K := ℝ)).mpr eps_bd.1
  have h2 := (Rat.cast_le (K := ℝ)).mpr eps_bd.2
  rw [Rat.mkRat_eq_div] at h1 h2
  push_cast at h1 h2
  unfold rv
  constructor
  · refine le_trans (le_of_eq (by norm_num)) h1
  · refine h2.trans (le_of_eq (by norm_num))

/-- A smaller first component makes a Double smaller. -/
theorem le_of_hi_lt {a b : Double} (ha : a.hi.isFinite = true) (hb : b.hi.isFinite = true) (h : fr a.hi < fr b.hi) :
    Double.le a b = true := by
  have ia := Is.of_finite ha
  have ib := Is.of_finite hb
  rw [fr_is ia, fr_is ib] at h
  have hp : (0:ℝ) < (one' : ℝ) := by exact_mod_cast one'_pos
  rw [div_lt_div_iff_of_pos_right hp] at h
  have h' : a.hi.units < b.hi.units := by exact_mod_cast h
  unfold Double.le Double.partialCmp
  rw [ia.partialCmp ib, compare_lt_iff_lt.mpr h']
  simp

theorem rv_absD {a : Double} (ha : a.Normalized) : a.abs.Normalized ∧ rv a.abs = |rv a| := by
  have hn := C41_abs_val _ ha
  refine ⟨hn.1, ?_⟩
  unfold rv; rw [hn.2]; push_cast; rfl

theorem fr_abs_nonneg {a : Double} (ha : a.Normalized) : 0 ≤ fr a.abs.hi := by
  obtain ⟨hn, h3⟩ := rv_absD ha
  by_contra hc
  have h7 := rv_sub_hi hn
  rw [h3, abs_of_neg (not_le.mp hc)] at h7
  have h8 := (abs_le.mp h7).2
  have h9 := abs_nonneg (rv a)
  have h10 := not_le.mp hc
  norm_num at h8
  linarith

/-- One round of the loop: the next term. -/
theorem sinh_term {t r d : Double} {T y D c : ℝ} (ht : Ap t T (c / 2 ^ 106 * |T|)) (hr : Ap r y (9.01 / 2 ^ 106 * y)) (hd : Ap d D 0)
    (hc0 : 0 ≤ c) (hc : c ≤ 300) (hy0 : 0 < y) (hy : y ≤ 1) (hT : |T| ≤ 1) (hD1 : 1 ≤ D) (hD : D ≤ 1000) (hlow : 1 ≤ |T * y| * 2 ^ 900) :
    Ap (t * r / d) (T * y / D) ((c + 36) / 2 ^ 106 * |T * y / D|) := by
  have hdv : rv d = D := by
    have := hd.2
    rwa [abs_nonpos_iff, sub_eq_zero] at this
  have ht0 : 0 ≤ |T| := abs_nonneg T
  have e0 : |T * y| = |T| * y := by rw [abs_mul, abs_of_pos hy0]
  have hTy1 : |T * y| ≤ 1 := by rw [e0]; exact mul_le_one₀ hT hy0.le hy
  -- the product
  have v1 := ht.2
  have v2 := hr.2
  have hcu : c / 2 ^ 106 ≤ 1 / 2 ^ 96 := by
    rw [div_le_div_iff₀ (by positivity) (by positivity)]; norm_num; linarith
  have hcu0 : 0 ≤ c / 2 ^ 106 := by positivity
  have hmul : |rv t * rv r - T * y| ≤ (c / 2 ^ 106 + 9.02 / 2 ^ 106) * |T * y| := by
    rw [e0]
    have e1 : rv t * rv r - T * y = (rv t - T) * y + T * (rv r - y) + (rv t - T) * (rv r - y) := by ring
    rw [e1]
    refine (abs_add_le _ _).trans ?_
    refine (add_le_add (abs_add_le _ _) le_rfl).trans ?_
    rw [abs_mul, abs_mul, abs_mul, abs_of_pos hy0]
    have m1 := mul_le_mul_of_nonneg_right v1 hy0.le
    have m2 := mul_le_mul_of_nonneg_left v2 ht0
    have m3 := mul_le_mul v1 v2 (abs_nonneg _) (by positivity)
    refine (add_le_add (add_le_add m1 m2) m3).trans ?_
    generalize c / 2 ^ 106 = κ at *
    have e2 : κ * |T| * y + |T| * (9.01 / 2 ^ 106 * y) + κ * |T| * (9.01 / 2 ^ 106 * y) =
      (κ + 9.01 / 2 ^ 106 + κ * (9.01 / 2 ^ 106)) * (|T| * y) := by ring
    rw [e2]
    apply mul_le_mul_of_nonneg_right _ (by positivity)
    norm_num at hcu ⊢
    linarith
  have hq0 : 0 < |T * y| := by
    by_contra hcc
    have h0 : |T * y| = 0 := le_antisymm (not_lt.mp hcc) (abs_nonneg _)
    rw [h0, zero_mul] at hlow; norm_num at hlow
  have hsz : |rv t * rv r| ≤ (1 + 1 / 2 ^ 90) * |T * y| := by
    have := abs_add_le (rv t * rv r - T * y) (T * y)
    rw [sub_add_cancel] at this
    refine this.trans ?_
    have h3 : (c / 2 ^ 106 + 9.02 / 2 ^ 106) ≤ 1 / 2 ^ 90 := by norm_num at hcu ⊢; linarith
    have := mul_le_mul_of_nonneg_right h3 hq0.le
    linarith
  have hp := rw_mul ht.1 hr.1 (hsz.trans (by
    refine le_trans (?_ : _ ≤ (2:ℝ) ^ 1) (pow_le_pow_right₀ (by norm_num) (by norm_num))
    clear hlow
    generalize |T * y| = W at *
    norm_num
    linarith))
  have htau : tau ≤ 1 / 100 / 2 ^ 106 * |T * y| := by
    have h3 := tau_mul (k := 1013) (by norm_num)
    have h4 : tau * 2 ^ 113 ≤ |T * y| := by
      have h5 : tau * 2 ^ 113 * 2 ^ 900 ≤ |T * y| * 2 ^ 900 := by
        rw [mul_assoc, ← pow_add]; exact h3.trans hlow
      exact le_of_mul_le_mul_right h5 (by positivity)
    clear h3 hlow
    generalize |T * y| = W at *
    norm_num at h4 ⊢
    linarith
  have hp2 := (hp.move hmul).mono (f := (c / 2 ^ 106 + 18.1 / 2 ^ 106) * |T * y|) (by
    generalize |T * y| = W at *
    generalize |rv t * rv r| = V at *
    rw [add_mul, add_mul]
    norm_num at hsz htau ⊢
    linarith)
  -- the quotient
  have p1 := hp2.2
  have hplow : |T * y| / 2 ≤ |rv (t * r)| := by
    have h3 := abs_sub_abs_le_abs_sub (T * y) (rv (t * r))
    rw [abs_sub_comm] at h3
    have h4 : (c / 2 ^ 106 + 18.1 / 2 ^ 106) ≤ 1 / 2 := by norm_num at hcu ⊢; linarith
    have := mul_le_mul_of_nonneg_right h4 hq0.le
    linarith
  have hpup : |rv (t * r)| ≤ 2 * |T * y| := by
    have h3 := hp2.abs_le
    have h4 : (c / 2 ^ 106 + 18.1 / 2 ^ 106) ≤ 1 := by norm_num at hcu ⊢; linarith
    have := mul_le_mul_of_nonneg_right h4 hq0.le
    linarith
  have hD0 : 0 < D := by linarith
  have hqv := rw_divw hp2.1 hd.1 (by rw [hdv]; exact hD0.ne') (by
      refine hlow.trans ?_
      refine (mul_le_mul_of_nonneg_right (show |T * y| ≤ |rv (t * r)| * 2 by linarith) (by positivity)).trans ?_
      rw [mul_assoc, ← pow_succ']
      exact mul_le_mul_of_nonneg_left (pow_le_pow_right₀ (by norm_num) (by norm_num)) (abs_nonneg _)) (by
      refine hpup.trans (le_trans (show 2 * |T * y| ≤ 2 ^ 1 by linarith) (pow_le_pow_right₀ (by norm_num) (by norm_num)))) (by
      rw [hdv, abs_div, abs_of_pos hD0]
      refine hlow.trans ?_
      have h3 : |T * y| ≤ |rv (t * r)| / D * 2 ^ 11 := by
        rw [div_mul_eq_mul_div, le_div_iff₀ hD0]
        have := mul_le_mul_of_nonneg_left hD hq0.le
        clear hlow
        generalize |T * y| = W at *
        generalize |rv (t * r)| = V at *
        norm_num; linarith
      refine (mul_le_mul_of_nonneg_right h3 (by positivity)).trans ?_
      rw [mul_assoc, ← pow_add]
      exact mul_le_mul_of_nonneg_left (pow_le_pow_right₀ (by norm_num) (by norm_num)) (by positivity)) (by
      rw [hdv, abs_div, abs_of_pos hD0]
      refine (div_le_self (abs_nonneg _) hD1).trans ?_
      refine hpup.trans (le_trans (show 2 * |T * y| ≤ 2 ^ 1 by linarith) (pow_le_pow_right₀ (by norm_num) (by norm_num))))
  rw [hdv] at hqv
  have m : |rv (t * r) / D - T * y / D| ≤ (c / 2 ^ 106 + 18.1 / 2 ^ 106) * |T * y / D| := by
    rw [← sub_div, abs_div, abs_div (T * y), abs_of_pos hD0, ← mul_div_assoc]
    exact div_le_div_of_nonneg_right p1 hD0.le
  refine (hqv.move m).mono ?_
  have h6 : |rv (t * r) / D| ≤ (1 + 1 / 2 ^ 90) * |T * y / D| := by
    have := abs_add_le (rv (t * r) / D - T * y / D) (T * y / D)
    rw [sub_add_cancel] at this
    refine this.trans ?_
    have h3 : (c / 2 ^ 106 + 18.1 / 2 ^ 106) ≤ 1 / 2 ^ 90 := by norm_num at hcu ⊢; linarith
    have := mul_le_mul_of_nonneg_right h3 (abs_nonneg (T * y / D))
    linarith
  have h7 := abs_nonneg (T * y / D)
  generalize |T * y / D| = W at *
  generalize |rv (t * r) / D| = V at *
  rw [add_div, add_mul, add_mul]
  norm_num at h6 ⊢
  linarith

theorem ap_small {n : ℤ} (h : |n| ≤ 2 ^ 53) : Ap (Double.ofSmallInt n) (n : ℝ) 0 := ap_int (is_ofInt h)

theorem termT_succ (x : ℝ) (m : ℕ) : x * (x ^ 2) ^ (m + 1) / (2 * (m + 1) + 1).factorial =
    x * (x ^ 2) ^ m / (2 * m + 1).factorial * x ^ 2 / ((2 * m + 2 : ℤ) * (2 * m + 3) : ℤ) := by
  have f1 : ((2 * (m + 1) + 1).factorial : ℝ) = (2 * m + 3) * ((2 * m + 2) * (2 * m + 1).factorial) := by
    rw [show 2 * (m + 1) + 1 = 2 * m + 1 + 1 + 1 by ring, Nat.factorial_succ, Nat.factorial_succ]; push_cast; ring
  have f0 : (0:ℝ) < (2 * m + 1).factorial := by exact_mod_cast Nat.factorial_pos _
  rw [f1]
  push_cast
  have h1 : (2 * (m:ℝ) + 3) ≠ 0 := by positivity
  have h2 : (2 * (m:ℝ) + 2) ≠ 0 := by positivity
  field_simp
  ring

theorem loop_ints {m : ℕ} (h : m ≤ 7) : i32? (2 * (m:ℤ) + 1 + 2) = some (2 * (m:ℤ) + 3) ∧
    (2 * (m:ℤ) + 2) * (2 * m + 3) ≤ 272 ∧ (6:ℤ) ≤ (2 * (m:ℤ) + 2) * (2 * m + 3) ∧
    i32? ((2 * (m:ℤ) + 3 - 1) * (2 * m + 3)) = some ((2 * (m:ℤ) + 2) * (2 * (m:ℤ) + 3)) := by
  interval_cases m <;> decide +kernel

theorem sinhLoop_succ {r thr t s : Double} {fuel : ℕ} {m m' d : ℤ} (h1 : i32? (m + 2) = some m') (h2 : i32? ((m' - 1) * m') = some d) :
    Double.sinhLoop r thr (fuel + 1) m t s = if Double.le (t * r / Double.ofSmallInt d).abs thr then some (s + t * r / Double.ofSmallInt d)
      else Double.sinhLoop r thr fuel m' (t * r / Double.ofSmallInt d) (s + t * r / Double.ofSmallInt d) := by
  rw [Double.sinhLoop]
  rw [h1]
  dsimp only
  rw [h2]

theorem loop_low {x T : ℝ} (hx1 : 1 ≤ |x| * 2 ^ 250) (hb0 : 0 < |x|) (hlow : |x| / 2 ^ 109 ≤ |T|) : 1 ≤ |T * x ^ 2| * 2 ^ 900 := by
  rw [abs_mul, abs_pow]
  have l1 : |x| / 2 ^ 109 * |x| ^ 2 ≤ |T| * |x| ^ 2 := mul_le_mul_of_nonneg_right hlow (by positivity)
  have l2 := mul_le_mul_of_nonneg_right l1 (show (0:ℝ) ≤ 2 ^ 900 by positivity)
  refine le_trans ?_ l2
  have l3 : (1:ℝ) ≤ (|x| * 2 ^ 250) ^ 3 := one_le_pow₀ hx1
  refine l3.trans ?_
  rw [mul_pow, ← pow_mul]
  rw [show |x| / 2 ^ 109 * |x| ^ 2 * 2 ^ 900 = |x| ^ 3 * (2 ^ 900 / 2 ^ 109) by ring]
  apply mul_le_mul_of_nonneg_left _ (by positivity)
  rw [le_div_iff₀ (by positivity), ← pow_add]
  exact pow_le_pow_right₀ (by norm_num) (by norm_num)

theorem loop_last {x : ℝ} (hy0 : 0 < x ^ 2) (hy : x ^ 2 ≤ 27 / 10000) (hb0 : 0 < |x|) :
    |x * (x ^ 2) ^ (7 + 1) / ((2 * (7 + 1) + 1).factorial : ℝ)| ≤ |x| / 2 ^ 110 := by
  rw [abs_div, abs_mul, abs_pow, abs_of_pos hy0, Nat.abs_cast]
  have l1 := pow_le_pow_left₀ hy0.le hy 8
  have hf : Nat.factorial 17 = 355687428096000 := by norm_num [Nat.factorial]
  have e : (2 * (7 + 1) + 1).factorial = Nat.factorial 17 := rfl
  rw [e, hf, mul_div_assoc, div_eq_mul_one_div (|x|)]
  apply mul_le_mul_of_nonneg_left _ hb0.le
  norm_num at l1 ⊢
  linarith

set_option maxHeartbeats 1000000 in
theorem sinhLoop_ap {r thr : Double} {x : ℝ} (hx1 : 1 ≤ |x| * 2 ^ 250) (hx : |x| ≤ 51 / 1000) (hr : Ap r (x ^ 2) (9.01 / 2 ^ 106 * x ^ 2))
    (hthr : thr.hi.isFinite = true) (hthr1 : |x| / 2 ^ 107 ≤ fr thr.hi) (hthr2 : fr thr.hi ≤ |x| / 2 ^ 102) :
    ∀ (d m : ℕ) (t s : Double), m + d = 8 → 1 ≤ d →
    |x| / 2 ^ 109 ≤ |x * (x ^ 2) ^ m / (2 * m + 1).factorial| →
    Ap t (x * (x ^ 2) ^ m / (2 * m + 1).factorial) ((36 * m) / 2 ^ 106 * |x * (x ^ 2) ^ m / (2 * m + 1).factorial|) →
    Ap s (SS x (x ^ 2) 1 m) (m * (|x| * (9 / 2 ^ 106))) →
    ∀ fuel, d ≤ fuel → ∃ v, Double.sinhLoop r thr fuel (2 * m + 1) t s = some v ∧
      ∃ M, Ap v (SS x (x ^ 2) 1 M) (|x| * (72 / 2 ^ 106)) ∧
        |x * (x ^ 2) ^ M / (2 * M + 1).factorial| ≤ |x| / 2 ^ 100 := by
  intro d
  induction d with
  | zero => intro m t s h h1; omega
  | succ d ih =>
    intro m t s h h1 hlow ht hs fuel hf
    obtain ⟨fuel, rfl⟩ : ∃ f, fuel = f + 1 := ⟨fuel - 1, by omega⟩
    have hm7 : m ≤ 7 := by omega
    obtain ⟨i1, hmul, hmul0, i2⟩ := loop_ints hm7
    rw [sinhLoop_succ (h1 := i1) (h2 := i2)]
    have hdi : Ap (Double.ofSmallInt ((2 * (m:ℤ) + 2) * (2 * m + 3))) (((2 * (m:ℤ) + 2) * (2 * m + 3) : ℤ) : ℝ) 0 :=
      ap_small ((abs_of_nonneg (le_trans (by norm_num) hmul0)).le.trans (hmul.trans (by norm_num)))
    have hD6 : (6:ℝ) ≤ (((2 * (m:ℤ) + 2) * (2 * m + 3) : ℤ) : ℝ) := by exact_mod_cast hmul0
    have hD272 : (((2 * (m:ℤ) + 2) * (2 * m + 3) : ℤ) : ℝ) ≤ 272 := by exact_mod_cast hmul
    have hb0 : 0 < |x| := by
      by_contra hc
      have h0 : |x| = 0 := le_antisymm (not_lt.mp hc) (abs_nonneg _)
      rw [h0, zero_mul] at hx1; norm_num at hx1
    have hy0 : 0 < x ^ 2 := by rw [← sq_abs]; positivity
    have hy : x ^ 2 ≤ 27 / 10000 := by
      rw [← sq_abs]; exact (pow_le_pow_left₀ hb0.le hx 2).trans (by norm_num)
    have hm7R : (m:ℝ) ≤ 7 := by exact_mod_cast hm7
    have hm0 : (0:ℝ) ≤ m := Nat.cast_nonneg m
    have hT : |x * (x ^ 2) ^ m / ((2 * m + 1).factorial : ℝ)| ≤ |x| := by
      rw [abs_div, abs_mul, abs_pow, abs_of_pos hy0, Nat.abs_cast]
      have hff : (1:ℝ) ≤ (2 * m + 1).factorial := by exact_mod_cast Nat.factorial_pos _
      refine (div_le_self (by positivity) hff).trans (mul_le_of_le_one_right hb0.le (pow_le_one₀ hy0.le (by linarith)))
    have hTy := loop_low hx1 hb0 hlow
    have ht' := sinh_term ht hr hdi (by positivity) (by linarith) hy0 (by linarith) (by linarith) (by linarith)
      (by linarith) hTy
    rw [← termT_succ] at ht'
    have hT' : |x * (x ^ 2) ^ (m + 1) / ((2 * (m + 1) + 1).factorial : ℝ)| ≤ |x| * (1 / 2000) := by
      rw [termT_succ, abs_div, abs_mul, abs_of_pos hy0, abs_of_pos (show (0:ℝ) < (((2 * (m:ℤ) + 2) * (2 * m + 3) : ℤ) : ℝ) by linarith),
        div_le_iff₀ (by linarith)]
      have l1 := mul_le_mul hT hy hy0.le hb0.le
      have l2 := mul_le_mul_of_nonneg_left hD6 (show 0 ≤ |x| * (1/2000) by positivity)
      linarith
    clear hTy hlow
    have hc : (36 * (m:ℝ) + 36) / 2 ^ 106 ≤ 288 / 2 ^ 106 := by
      apply div_le_div_of_nonneg_right _ (by positivity); linarith
    have hS := SS_abs (b := x) (y := x ^ 2) (by rw [abs_of_pos hy0]; linarith) 1 m
    have hS' := SS_abs (b := x) (y := x ^ 2) (by rw [abs_of_pos hy0]; linarith) 1 (m + 1)
    have hte : (36 * (m:ℝ) + 36) / 2 ^ 106 * |x * (x ^ 2) ^ (m + 1) / ((2 * (m + 1) + 1).factorial : ℝ)| ≤ |x| * (0.2 / 2 ^ 106) := by
      refine (mul_le_mul hc hT' (abs_nonneg _) (by positivity)).trans ?_
      generalize |x| = β at *
      norm_num; linarith
    have ht2 := ht'.mono hte
    have hmb : (m:ℝ) * (|x| * (9 / 2 ^ 106)) ≤ 7 * (|x| * (9 / 2 ^ 106)) :=
      mul_le_mul_of_nonneg_right hm7R (by positivity)
    have hs' : Ap (s + t * r / Double.ofSmallInt ((2 * (m:ℤ) + 2) * (2 * m + 3))) (SS x (x ^ 2) 1 (m + 1))
        (((m + 1 : ℕ) : ℝ) * (|x| * (9 / 2 ^ 106))) := by
      clear hx1
      rw [SS_succ]
      rw [SS_succ] at hS'
      refine hs.add ht2 ?_ ?_ hS' ?_
      · generalize |x| = β at *
        norm_num at hmb hS ⊢
        linarith
      · generalize |x * (x ^ 2) ^ (m + 1) / ((2 * (m + 1) + 1).factorial : ℝ)| = Z at *
        generalize |x| = β at *
        norm_num at hT' ⊢
        linarith
      · push_cast
        rw [add_mul, one_mul]
        generalize (m:ℝ) * (|x| * (9 / 2 ^ 106)) = E at *
        generalize |x| = β at *
        norm_num at hmb ⊢
        linarith
    generalize t * r / Double.ofSmallInt ((2 * (m:ℤ) + 2) * (2 * m + 3)) = t' at *
    obtain ⟨na, va⟩ := rv_absD ht'.1
    have g1 := fr_abs_nonneg ht'.1
    have g2 := two_rv na
    have g3 := fr_hi_two na
    rw [va, abs_abs, abs_of_nonneg g1] at g2 g3
    have g4 := ht'.2
    have g5 : (36 * (m:ℝ) + 36) / 2 ^ 106 * |x * (x ^ 2) ^ (m + 1) / ((2 * (m + 1) + 1).factorial : ℝ)| ≤
        1 / 100 * |x * (x ^ 2) ^ (m + 1) / ((2 * (m + 1) + 1).factorial : ℝ)| :=
      mul_le_mul_of_nonneg_right (hc.trans (by norm_num)) (abs_nonneg _)
    have g6 := abs_sub_abs_le_abs_sub (x * (x ^ 2) ^ (m + 1) / ((2 * (m + 1) + 1).factorial : ℝ)) (rv t')
    rw [abs_sub_comm] at g6
    have g7 := abs_sub_abs_le_abs_sub (rv t') (x * (x ^ 2) ^ (m + 1) / ((2 * (m + 1) + 1).factorial : ℝ))
    split_ifs with hst
    · refine ⟨_, rfl, m + 1, hs'.mono ?_, ?_⟩
      · have : (((m + 1 : ℕ) : ℝ)) ≤ 8 := by push_cast; linarith
        refine (mul_le_mul_of_nonneg_right this (by positivity)).trans ?_
        linarith
      · have h1 := le_hi na.1.1 hthr hst
        clear hx1
        generalize |x * (x ^ 2) ^ (m + 1) / ((2 * (m + 1) + 1).factorial : ℝ)| = Z at *
        generalize |rv t' - x * (x ^ 2) ^ (m + 1) / ((2 * (m + 1) + 1).factorial : ℝ)| = Z' at *
        generalize |x| = β at *
        generalize |rv t'| = V at *
        norm_num at hthr2 ⊢
        linarith
    · have hnl : fr thr.hi ≤ fr t'.abs.hi := by
        by_contra hcc
        exact hst (le_of_hi_lt na.1.1 hthr (not_le.mp hcc))
      have hlow' : |x| / 2 ^ 109 ≤ |x * (x ^ 2) ^ (m + 1) / ((2 * (m + 1) + 1).factorial : ℝ)| := by
        clear hx1
        generalize |x * (x ^ 2) ^ (m + 1) / ((2 * (m + 1) + 1).factorial : ℝ)| = Z at *
        generalize |rv t' - x * (x ^ 2) ^ (m + 1) / ((2 * (m + 1) + 1).factorial : ℝ)| = Z' at *
        generalize |x| = β at *
        generalize |rv t'| = V at *
        norm_num at hthr1 ⊢
        linarith
      have hd : 1 ≤ d := by
        by_contra hd
        have : m = 7 := by omega
        subst this
        have := loop_last hy0 hy hb0
        have h3 := hlow'.trans this
        clear hx1
        generalize |x| = β at *
        norm_num at h3
        linarith
      have hnext := ih (m + 1) t' _ (by omega) hd hlow' (by rw [show (36 * ((m + 1 : ℕ):ℝ)) = 36 * m + 36 by push_cast; ring]; exact ht') hs' fuel (by omega)
      have : (2 * ((m + 1 : ℕ):ℤ) + 1) = 2 * m + 3 := by push_cast; ring
      rw [this] at hnext
      exact hnext

/-- `sinh` below its threshold. -/
theorem sinh_small250 {a : Double} (ha : a.Normalized) (h1 : 1 ≤ |rv a| * 2 ^ 250) (h2 : |rv a| ≤ 51 / 1000) :
    ∃ v, Double.sinhLoop a.sqr (a * Double.EPSILON).abs 23172 1 a a = some v ∧
      Ap v (Real.sinh (rv a)) (|rv a| * (73 / 2 ^ 106)) := by
  have b0 : 0 < |rv a| := by
    by_contra hc
    have h0 : |rv a| = 0 := le_antisymm (not_lt.mp hc) (abs_nonneg _)
    rw [h0, zero_mul] at h1; norm_num at h1
  have htau : tau * 2 ^ 120 ≤ |rv a| * |rv a| := by
    have h3 := tau_mul (k := 620) (by norm_num)
    have l := mul_le_mul h1 h1 (by norm_num) (by positivity)
    have l2 : tau * 2 ^ 120 * 2 ^ 500 ≤ |rv a| * |rv a| * 2 ^ 500 := by
      rw [mul_assoc, ← pow_add]
      refine h3.trans (le_trans (le_of_eq (by norm_num)) (l.trans (le_of_eq ?_)))
      rw [show (500:ℕ) = 250 + 250 by norm_num, pow_add]; ring
    exact le_of_mul_le_mul_right l2 (by positivity)
  have ht0 := tau_pos
  have hsq : |rv a| * |rv a| = rv a ^ 2 := by rw [← sq, sq_abs]
  have hb1 : |rv a| * |rv a| ≤ |rv a| := mul_le_of_le_one_right b0.le (by linarith)
  have one20 : (1:ℝ) ≤ 2 ^ 1020 := one_le_pow₀ (by norm_num)
  have hr := (rw_sqr ha (by rw [abs_mul]; exact hb1.trans (le_trans (by linarith) one20))).1.mono (f := 9.01 / 2 ^ 106 * rv a ^ 2) (by
    clear one20 h1
    rw [hsq] at htau
    generalize rv a ^ 2 = Y at *
    norm_num at htau ⊢
    linarith)
  obtain ⟨e1, e2⟩ := rv_eps_bd
  have ex : |rv a * rv Double.EPSILON| = |rv a| * rv Double.EPSILON := by
    rw [abs_mul, abs_of_pos (lt_of_lt_of_le (by positivity) e1)]
  have x1 : |rv a| / 2 ^ 105 ≤ |rv a * rv Double.EPSILON| := by
    rw [ex, div_eq_mul_one_div]; exact mul_le_mul_of_nonneg_left e1 b0.le
  have x2 : |rv a * rv Double.EPSILON| ≤ |rv a| * (101 / 100 / 2 ^ 104) := by
    rw [ex]; exact mul_le_mul_of_nonneg_left e2 b0.le
  have hm := rw_mul ha epsD_le.1 (x2.trans (le_trans (by
    clear one20 h1 htau x1 hr
    generalize |rv a| = β at *
    norm_num; linarith) one20))
  clear one20
  obtain ⟨na, va⟩ := rv_absD hm.1
  have g1 := fr_abs_nonneg hm.1
  have g2 := two_rv na
  have g3 := fr_hi_two na
  rw [va, abs_abs, abs_of_nonneg g1] at g2 g3
  have g4 := hm.2
  have g6 := abs_sub_abs_le_abs_sub (rv a * rv Double.EPSILON) (rv (a * Double.EPSILON))
  rw [abs_sub_comm] at g6
  have g7 := abs_sub_abs_le_abs_sub (rv (a * Double.EPSILON)) (rv a * rv Double.EPSILON)
  have key : |rv a| / 2 ^ 107 ≤ fr (a * Double.EPSILON).abs.hi ∧ fr (a * Double.EPSILON).abs.hi ≤ |rv a| / 2 ^ 102 := by
    clear h1
    generalize |rv (a * Double.EPSILON) - rv a * rv Double.EPSILON| = Z at *
    generalize |rv (a * Double.EPSILON)| = V at *
    generalize |rv a * rv Double.EPSILON| = U at *
    generalize |rv a| * |rv a| = B2 at *
    generalize |rv a| = β at *
    generalize tau = τ at *
    norm_num at *
    constructor <;> linarith
  have s0 : SS (rv a) ((rv a) ^ 2) 1 0 = rv a := by unfold SS; simp
  have t0 : rv a * (rv a ^ 2) ^ 0 / ((2 * 0 + 1).factorial : ℝ) = rv a := by simp
  obtain ⟨v, hv, M, hM, hT⟩ := sinhLoop_ap h1 h2 hr na.1.1 key.1 key.2 8 0 a a rfl (by norm_num) (by
      rw [t0]; exact div_le_self b0.le (one_le_pow₀ (by norm_num)))
    (by rw [t0]; exact (Ap.exact ha).mono (by simp)) ((Ap.exact ha).mono (by simp) |>.congr s0.symm) 23172 (by norm_num)
  refine ⟨v, hv, ?_⟩
  have hrem := sinh_rem (A := rv a) (by linarith) M
  rw [abs_sub_comm] at hrem
  refine (hM.move hrem).mono ?_
  have hA2 : rv a ^ 2 ≤ 27 / 10000 := by rw [← sq_abs]; exact (pow_le_pow_left₀ (abs_nonneg _) h2 2).trans (by norm_num)
  have h3 := mul_le_mul hT hA2 (sq_nonneg _) (by positivity)
  clear h1 g4 g6 g7 hm
  generalize |rv a * (rv a ^ 2) ^ M / ((2 * M + 1).factorial : ℝ)| * rv a ^ 2 = Q at *
  generalize |rv a| = β at *
  norm_num at h3 ⊢
  linarith

/-- For a very small argument the loop stops after one round. -/
theorem sinh_tiny {a : Double} (ha : a.Normalized) (h1 : 1 ≤ |rv a| * 2 ^ 900) (h2 : |rv a| ≤ 1 / 2 ^ 100) :
    ∃ v, Double.sinhLoop a.sqr (a * Double.EPSILON).abs 23172 1 a a = some v ∧
      Ap v (Real.sinh (rv a)) (|rv a| * (73 / 2 ^ 106)) := by
  have b0 : 0 < |rv a| := by
    by_contra hc
    have h0 : |rv a| = 0 := le_antisymm (not_lt.mp hc) (abs_nonneg _)
    rw [h0, zero_mul] at h1; norm_num at h1
  have htau : tau ≤ |rv a| / 2 ^ 160 := by
    rw [le_div_iff₀ (by norm_num)]
    have l1 := tau_mul (k := 1060) (by norm_num)
    have l2 : tau * 2 ^ 160 * 2 ^ 900 ≤ 1 := by rw [mul_assoc, ← pow_add]; exact l1
    exact le_of_mul_le_mul_right (l2.trans h1) (pow_pos (by norm_num) _)
  have und : (1:ℝ) / 2 ^ 1010 ≤ |rv a| / 2 ^ 110 := by
    rw [div_le_div_iff₀ (pow_pos (by norm_num) _) (pow_pos (by norm_num) _)]
    rw [show (2:ℝ) ^ 1010 = 2 ^ 900 * 2 ^ 110 by rw [← pow_add], ← mul_assoc]
    exact mul_le_mul_of_nonneg_right h1 (by positivity)
  clear h1
  have ht0 := tau_pos
  have one20 : (1:ℝ) ≤ 2 ^ 1020 := one_le_pow₀ (by norm_num)
  have one9 : (1:ℝ) ≤ 2 ^ 900 := one_le_pow₀ (by norm_num)
  have h2' : |rv a| ≤ 1 := h2.trans (by norm_num)
  -- the square
  have sq : rv a ^ 2 ≤ |rv a| * (1 / 2 ^ 100) := by
    rw [← sq_abs, pow_two]; exact mul_le_mul_of_nonneg_left h2 b0.le
  have hr := (rw_sqr ha (by rw [← pow_two, abs_of_nonneg (sq_nonneg _)]; exact (sq.trans (by linarith)).trans one20)).1
  have rb : |rv a.sqr| ≤ 1 / 2 ^ 99 := by
    have := hr.abs_le
    rw [abs_of_nonneg (sq_nonneg (rv a))] at this
    clear one20 one9 und
    norm_num at *; linarith
  -- the term
  have p0 : |rv a * rv a.sqr| ≤ |rv a| * (1 / 2 ^ 99) := by
    rw [abs_mul]; exact mul_le_mul_of_nonneg_left rb b0.le
  have rb2 : |rv a.sqr| ≤ |rv a| * (2 / 2 ^ 100) := by
    have := hr.abs_le
    rw [abs_of_nonneg (sq_nonneg (rv a))] at this
    clear one20 one9 und
    norm_num at *; linarith
  have p1 : |rv a * rv a.sqr| ≤ |rv a| * (1 / 2 ^ 198) := by
    rw [abs_mul]
    refine mul_le_mul_of_nonneg_left (rb2.trans ?_) b0.le
    clear one20 one9 und
    norm_num at *; linarith
  have hm := rw_mul ha hr.1 ((p1.trans (by norm_num; linarith)).trans one20)
  have hmb : |rv (a * a.sqr)| ≤ |rv a| / 2 ^ 150 := by
    have := hm.abs_le
    clear one20 one9 und
    generalize |rv a * rv a.sqr| = w at *
    norm_num at *; linarith
  have d6 := ap_small (n := 6) (by norm_num)
  have v6 : rv (Double.ofSmallInt 6) = 6 := by
    have := d6.2
    have e := abs_eq_zero.mp (le_antisymm this (abs_nonneg _))
    push_cast at e; linarith
  have hd := rw_diva hm.1 d6.1 (le_trans (hmb.trans (by norm_num; linarith)) one9) (by rw [v6]; norm_num)
  rw [v6] at hd
  have tb : |rv (a * a.sqr / Double.ofSmallInt 6)| ≤ |rv a| / 2 ^ 109 := by
    have h3 := hd.abs_le
    rw [abs_div, show |(6:ℝ)| = 6 by norm_num] at h3
    generalize |rv (a * a.sqr)| = w at *
    clear one20 one9
    generalize (1:ℝ) / 2 ^ 1010 = ε at *
    norm_num at hmb und h3 ⊢; linarith
  -- the threshold
  obtain ⟨e1, e2⟩ := rv_eps_bd
  have ex : |rv a * rv Double.EPSILON| = |rv a| * rv Double.EPSILON := by
    rw [abs_mul, abs_of_pos (lt_of_lt_of_le (by positivity) e1)]
  have x1 : |rv a| / 2 ^ 105 ≤ |rv a * rv Double.EPSILON| := by
    rw [ex, div_eq_mul_one_div]; exact mul_le_mul_of_nonneg_left e1 b0.le
  have x2 : |rv a * rv Double.EPSILON| ≤ |rv a| * (101 / 100 / 2 ^ 104) := by
    rw [ex]; exact mul_le_mul_of_nonneg_left e2 b0.le
  have hth := rw_mul ha epsD_le.1 (x2.trans (le_trans (by norm_num; linarith) one20))
  clear und
  obtain ⟨na, va⟩ := rv_absD hth.1
  have g1 := fr_abs_nonneg hth.1
  have g2 := two_rv na
  rw [va, abs_abs, abs_of_nonneg g1] at g2
  have g4 := hth.2
  have g6 := abs_sub_abs_le_abs_sub (rv a * rv Double.EPSILON) (rv (a * Double.EPSILON))
  rw [abs_sub_comm] at g6
  have key : |rv a| / 2 ^ 107 ≤ fr (a * Double.EPSILON).abs.hi := by
    clear one20 one9 hr hm hd d6
    generalize |rv (a * Double.EPSILON) - rv a * rv Double.EPSILON| = Z at *
    generalize |rv (a * Double.EPSILON)| = V at *
    generalize |rv a * rv Double.EPSILON| = U at *
    generalize |rv a| = β at *
    generalize tau = τ at *
    norm_num at x1 x2 g2 g4 g6 htau ⊢
    linarith
  -- one round
  have hl := loop_ints (m := 0) (by norm_num)
  have l1 : i32? (1 + 2) = some 3 := by decide +kernel
  have l2 : i32? ((3 - 1) * 3) = some 6 := by decide +kernel
  rw [show (23172:ℕ) = 23171 + 1 by norm_num, sinhLoop_succ l1 l2]
  obtain ⟨nt, vt⟩ := rv_absD hd.1
  have t1 := fr_abs_nonneg hd.1
  have t2 := fr_hi_two nt
  rw [vt, abs_abs, abs_of_nonneg t1] at t2
  rw [if_pos (le_of_hi_lt nt.1.1 na.1.1 (by
    refine lt_of_lt_of_le ?_ key
    clear one20 one9 key
    norm_num at tb t2 ⊢; linarith))]
  refine ⟨_, rfl, ?_⟩
  have ad := rw_add ha hd.1 (h2'.trans one20) (le_trans (tb.trans (by norm_num; linarith)) one20)
  refine ⟨ad.1, ?_⟩
  have hrem := sinh_rem (A := rv a) h2' 0
  have s0 : SS (rv a) ((rv a) ^ 2) 1 0 = rv a := by unfold SS; simp
  have t0 : rv a * (rv a ^ 2) ^ 0 / ((2 * 0 + 1).factorial : ℝ) = rv a := by simp
  rw [s0, t0] at hrem
  have a2 := ad.2
  generalize rv (a * a.sqr / Double.ofSmallInt 6) = T at *
  have u1 := abs_add_le (rv a) T
  have u2 : |rv (a + a * a.sqr / Double.ofSmallInt 6) - Real.sinh (rv a)| ≤
      |rv (a + a * a.sqr / Double.ofSmallInt 6) - (rv a + T)| + (|T| + |Real.sinh (rv a) - rv a|) := by
    have w1 := abs_sub_le (rv (a + a * a.sqr / Double.ofSmallInt 6)) (rv a + T) (Real.sinh (rv a))
    have w2 := abs_sub T (Real.sinh (rv a) - rv a)
    rw [show T - (Real.sinh (rv a) - rv a) = rv a + T - Real.sinh (rv a) by ring] at w2
    linarith
  have q1 : |rv a| * rv a ^ 2 ≤ |rv a| * (1 / 2 ^ 190) := by
    refine mul_le_mul_of_nonneg_left (sq.trans ?_) b0.le
    clear one20 one9
    norm_num at h2 ⊢; linarith
  generalize rv (a + a * a.sqr / Double.ofSmallInt 6) = V at *
  generalize Real.sinh (rv a) = S at *
  clear one20 one9
  generalize |rv a| * rv a ^ 2 = B3 at *
  generalize |rv a + T| = aT at *
  norm_num at tb a2 u1 u2 hrem q1 ⊢
  linarith

/-- The hyperbolic sine of a small number. -/
theorem sinh_small {a : Double} (ha : a.Normalized) (h1 : 1 ≤ |rv a| * 2 ^ 900) (h2 : |rv a| ≤ 51 / 1000) :
    ∃ v, Double.sinhLoop a.sqr (a * Double.EPSILON).abs 23172 1 a a = some v ∧
      Ap v (Real.sinh (rv a)) (|rv a| * (73 / 2 ^ 106)) := by
  by_cases hs : |rv a| ≤ 1 / 2 ^ 100
  · exact sinh_tiny ha h1 hs
  · refine sinh_small250 ha ?_ h2
    have := (not_le.mp hs).le
    norm_num at this ⊢; linarith

end Verif
