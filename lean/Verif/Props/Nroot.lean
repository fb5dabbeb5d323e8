import Verif.Proofs.NrootStep
import Verif.Proofs.Atan2Witness

/-!
# C88: accuracy of `nroot` and `cbrt` for Doubles

The root is given by its defining property: `R` has the sign of the argument and its `n`-th power is the argument.
-/

namespace Verif

theorem log_pow_two {x : ℝ} {k : ℕ} (h0 : 0 < x) (h1 : 1 ≤ x * 2 ^ k) (h2 : x ≤ 2 ^ k) : |Real.log x| ≤ k * 0.6931471808 := by
  have hl := Real.log_two_lt_d9
  have hk : (k:ℝ) * Real.log 2 ≤ k * 0.6931471808 := mul_le_mul_of_nonneg_left hl.le (Nat.cast_nonneg k)
  have g2 := Real.log_le_log h0 h2
  have g1 := Real.log_le_log one_pos h1
  rw [Real.log_mul h0.ne' (by positivity), Real.log_one, Real.log_pow] at g1
  rw [Real.log_pow] at g2
  rw [abs_le]; constructor <;> linarith

/-- **C88.** The `n`-th root of a normalized Double between `2^-898` and `2^898` in magnitude, for every `n` other than 0, 1, 2
with fewer than 32 bits and a root `R` between `2^-300` and `2^300` in magnitude, is returned as a normalized Double; its
relative error is at most `(6/5 |n| + 11/10) δ² + 2^-98`, where `δ = (6/5 |ln |R|| + 3/2) 2^-50` is the error of the `f64`
start value. -/
theorem C88_nroot (P : Platform) (hl : LibmLogs P) (hx : LibmExp P) (ht : FloatText P.toStr) (a : Double) (ha : a.Normalized) (n : ℤ)
    (hn0 : n ≠ 0) (hn1 : n ≠ 1) (hn2 : n ≠ 2) (hn : |n| < 2 ^ 31) (R : ℝ) (hR : R ^ n = (a.val : ℝ)) (hs : 0 < R ↔ 0 < (a.val : ℝ))
    (h1 : 1 ≤ |a.val| * 2 ^ 898) (h2 : |a.val| ≤ 2 ^ 898) (h3 : 1 ≤ |R| * 2 ^ 300) (h4 : |R| ≤ 2 ^ 300) :
    ∃ r, Double.nroot P a n = some r ∧ r.Normalized ∧ |(r.val : ℝ) - R| ≤
      |R| * ((6 / 5 * |(n:ℝ)| + 11 / 10) * ((6 / 5 * |Real.log (|R|)| + 3 / 2) / 2 ^ 50) ^ 2 + 1 / 2 ^ 98) := by
  have g1 : 1 ≤ |rv a| * 2 ^ 898 := by unfold rv; exact_mod_cast h1
  have g2 : |rv a| ≤ 2 ^ 898 := by unfold rv; exact_mod_cast h2
  have g0 : 0 < |rv a| := by
    rcases (abs_nonneg (rv a)).lt_or_eq with h | h
    · exact h
    · rw [← h, zero_mul] at g1; exact absurd g1 (by norm_num)
  have r0 : 0 < |R| := by
    rcases (abs_nonneg R).lt_or_eq with h | h
    · exact h
    · rw [← h, zero_mul] at h3; exact absurd h3 (by norm_num)
  obtain ⟨r, hr, hN, he⟩ := nroot_all hl hx ht ha hn0 hn1 hn2 hn hR hs (abs_pos.mp g0)
    ((log_pow_two g0 g1 g2).trans (by norm_num)) ((log_pow_two r0 h3 h4).trans (by norm_num))
  exact ⟨r, hr, hN, he⟩

/-- **C88**, for `|n|` at least 3, where the size of the root needs no hypothesis. -/
theorem C88_nroot_three (P : Platform) (hl : LibmLogs P) (hx : LibmExp P) (ht : FloatText P.toStr) (a : Double) (ha : a.Normalized)
    (n : ℤ) (hn3 : 3 ≤ |n|) (hn : |n| < 2 ^ 31) (R : ℝ) (hR : R ^ n = (a.val : ℝ)) (hs : 0 < R ↔ 0 < (a.val : ℝ))
    (h1 : 1 ≤ |a.val| * 2 ^ 898) (h2 : |a.val| ≤ 2 ^ 898) :
    |Real.log (|R|)| * |(n:ℝ)| ≤ 623 ∧
    ∃ r, Double.nroot P a n = some r ∧ r.Normalized ∧ |(r.val : ℝ) - R| ≤
      |R| * ((6 / 5 * |(n:ℝ)| + 11 / 10) * ((6 / 5 * |Real.log (|R|)| + 3 / 2) / 2 ^ 50) ^ 2 + 1 / 2 ^ 98) := by
  have g1 : 1 ≤ |rv a| * 2 ^ 898 := by unfold rv; exact_mod_cast h1
  have g2 : |rv a| ≤ 2 ^ 898 := by unfold rv; exact_mod_cast h2
  have g0 : 0 < |rv a| := by
    rcases (abs_nonneg (rv a)).lt_or_eq with h | h
    · exact h
    · rw [← h, zero_mul] at g1; exact absurd g1 (by norm_num)
  have hL : |Real.log (|rv a|)| ≤ 623 := (log_pow_two g0 g1 g2).trans (by norm_num)
  have hlog : Real.log (|rv a|) = n * Real.log (|R|) := by
    rw [show rv a = R ^ n from hR.symm, abs_zpow, Real.log_zpow]
  have hN : 3 ≤ |(n:ℝ)| := by exact_mod_cast hn3
  have hm : |Real.log (|R|)| * |(n:ℝ)| ≤ 623 := by rw [← abs_mul, mul_comm, ← hlog]; exact hL
  have hL2 : |Real.log (|R|)| ≤ 208 := by
    have := mul_le_mul_of_nonneg_left hN (abs_nonneg (Real.log (|R|)))
    linarith
  obtain ⟨r, hr, hN, he⟩ := nroot_all hl hx ht ha (by rintro rfl; norm_num at hn3) (by rintro rfl; norm_num at hn3)
    (by rintro rfl; norm_num at hn3) hn hR hs (abs_pos.mp g0) hL hL2
  exact ⟨hm, r, hr, hN, he⟩

/-- **C88**, for a positive argument the root is `a^(1/n)`. -/
theorem C88_nroot_rpow (P : Platform) (hl : LibmLogs P) (hx : LibmExp P) (ht : FloatText P.toStr) (a : Double) (ha : a.Normalized)
    (n : ℤ) (hn3 : 3 ≤ |n|) (hn : |n| < 2 ^ 31) (h0 : 0 < a.val) (h1 : 1 ≤ a.val * 2 ^ 898) (h2 : a.val ≤ 2 ^ 898) :
    ∃ r, Double.nroot P a n = some r ∧ r.Normalized ∧ |(r.val : ℝ) - (a.val : ℝ) ^ (1 / (n:ℝ))| ≤ (a.val : ℝ) ^ (1 / (n:ℝ)) *
      ((6 / 5 * |(n:ℝ)| + 11 / 10) * ((6 / 5 * (|Real.log (a.val : ℝ)| / |(n:ℝ)|) + 3 / 2) / 2 ^ 50) ^ 2 + 1 / 2 ^ 98) := by
  have hp : (0:ℝ) < (a.val : ℝ) := by exact_mod_cast h0
  have hN : 3 ≤ |(n:ℝ)| := by exact_mod_cast hn3
  have hN0 : (n:ℝ) ≠ 0 := by
    intro h; rw [h, abs_zero] at hN; norm_num at hN
  have hR0 : 0 < (a.val : ℝ) ^ (1 / (n:ℝ)) := Real.rpow_pos_of_pos hp _
  have hR : ((a.val : ℝ) ^ (1 / (n:ℝ))) ^ n = (a.val : ℝ) := by
    rw [← Real.rpow_intCast, ← Real.rpow_mul hp.le, one_div, inv_mul_cancel₀ hN0, Real.rpow_one]
  have hl' : |Real.log ((a.val : ℝ) ^ (1 / (n:ℝ)))| = |Real.log (a.val : ℝ)| / |(n:ℝ)| := by
    rw [Real.log_rpow hp, abs_mul, abs_div, abs_one]; ring
  obtain ⟨-, r, hr, hrN, he⟩ := C88_nroot_three P hl hx ht a ha n hn3 hn _ hR ⟨fun _ => hp, fun _ => hR0⟩
    (by rw [abs_of_pos h0]; exact h1) (by rw [abs_of_pos h0]; exact h2)
  rw [abs_of_pos hR0, hl'] at he
  exact ⟨r, hr, hrN, he⟩

/-- **C88.** The cube root of every normalized Double between `2^-898` and `2^898` in magnitude, of either sign, is accurate to
`2^-81`; between `2^-8` and `2^8` to `2^-93`. -/
theorem C88_cbrt (P : Platform) (hl : LibmLogs P) (hx : LibmExp P) (ht : FloatText P.toStr) (a : Double) (ha : a.Normalized)
    (R : ℝ) (hR : R ^ 3 = (a.val : ℝ)) (h1 : 1 ≤ |a.val| * 2 ^ 898) (h2 : |a.val| ≤ 2 ^ 898) :
    ∃ r, Double.cbrt P a = some r ∧ r.Normalized ∧ |(r.val : ℝ) - R| ≤ |R| / 2 ^ 81 ∧
      (1 ≤ |a.val| * 2 ^ 8 → |a.val| ≤ 2 ^ 8 → |(r.val : ℝ) - R| ≤ |R| / 2 ^ 93) := by
  have hs : 0 < R ↔ 0 < (a.val : ℝ) := by
    rw [← hR]
    exact (Odd.pow_pos_iff (by decide)).symm
  have hR' : R ^ (3:ℤ) = (a.val : ℝ) := by rw [← hR]; exact zpow_ofNat R 3
  have e3 : |((3:ℤ) : ℝ)| = 3 := by norm_num
  obtain ⟨hm, r, hr, hN, he⟩ := C88_nroot_three P hl hx ht a ha 3 (by norm_num) (by norm_num) R hR' hs h1 h2
  rw [e3] at hm he
  refine ⟨r, hr, hN, ?_, ?_⟩
  · refine he.trans ?_
    rw [show |R| / 2 ^ 81 = |R| * (1 / 2 ^ 81) by ring]
    refine mul_le_mul_of_nonneg_left ?_ (abs_nonneg R)
    have h0 := abs_nonneg (Real.log (|R|))
    generalize |Real.log (|R|)| = L at *
    have : ((6 / 5 * L + 3 / 2) / 2 ^ 50) ^ 2 ≤ (251 / 2 ^ 50) ^ 2 := pow_le_pow_left₀ (by positivity)
      (div_le_div_of_nonneg_right (by linarith) (by norm_num)) 2
    generalize ((6 / 5 * L + 3 / 2) / 2 ^ 50) ^ 2 = D at *
    clear h1 h2 he
    norm_num at this ⊢; linarith
  · intro k1 k2
    refine he.trans ?_
    rw [show |R| / 2 ^ 93 = |R| * (1 / 2 ^ 93) by ring]
    refine mul_le_mul_of_nonneg_left ?_ (abs_nonneg R)
    have g1 : 1 ≤ |(a.val:ℝ)| * 2 ^ 8 := by exact_mod_cast k1
    have g2 : |(a.val:ℝ)| ≤ 2 ^ 8 := by exact_mod_cast k2
    have g0 : 0 < |(a.val:ℝ)| := by
      clear h1 h2 k1 k2
      norm_num at g1; linarith
    have hl := log_pow_two g0 g1 g2
    rw [← hR, abs_pow, Real.log_pow, abs_mul] at hl
    clear h1 h2 k1 k2 he g1 g2
    have h0 := abs_nonneg (Real.log (|R|))
    generalize |Real.log (|R|)| = L at *
    have : ((6 / 5 * L + 3 / 2) / 2 ^ 50) ^ 2 ≤ (4 / 2 ^ 50) ^ 2 := pow_le_pow_left₀ (by positivity)
      (div_le_div_of_nonneg_right (by norm_num at hl; linarith) (by norm_num)) 2
    generalize ((6 / 5 * L + 3 / 2) / 2 ^ 50) ^ 2 = D at *
    norm_num at this ⊢; linarith

/-! ## The requirements can be met -/

/-- Every real number between `2^-900` and `2^450` in magnitude has an `f64` within `2^-50` of it (relative). -/
theorem exists_fr_exp {t : ℝ} (h1 : 1 ≤ |t| * 2 ^ 900) (h2 : |t| ≤ 2 ^ 450) :
    ∃ x : F64, x.isFinite = true ∧ |fr x - t| ≤ |t| / 2 ^ 50 := by
  have ht : 0 < |t| := by
    rcases (abs_nonneg t).lt_or_eq with h | h
    · exact h
    · rw [← h, zero_mul] at h1; exact absurd h1 (by norm_num)
  obtain ⟨q, hq1, hq2⟩ := exists_rat_btwn (show t < t + |t| / 2 ^ 60 by linarith [div_pos ht (show (0:ℝ) < 2 ^ 60 by norm_num)])
  have hqt : |(q:ℝ) - t| ≤ |t| / 2 ^ 60 := by rw [abs_le]; constructor <;> linarith [div_pos ht (show (0:ℝ) < 2 ^ 60 by norm_num)]
  have hqa : |(q:ℝ)| ≤ |t| * (1 + 1 / 2 ^ 60) := by
    have := abs_add_le ((q:ℝ) - t) t
    rw [sub_add_cancel] at this; clear h1 h2; norm_num at hqt ⊢; linarith
  have hn := (Rat.cast_le (K := ℝ)).mpr (rnd_near (q * one'))
  have e1 : q * (one' : ℚ) / one' = q := by have := one'_ne; field_simp
  rw [e1] at hn
  have hp : (0:ℝ) < (one' : ℝ) := by exact_mod_cast one'_pos
  have ti : (1:ℝ) / one' ≤ |t| / 2 ^ 100 := by
    refine tau_inv.trans ?_
    rw [le_div_iff₀ (by positivity)]
    have h := tau_mul (k := 1000) (by norm_num)
    have e : tau * 2 ^ 1000 = tau * 2 ^ 100 * 2 ^ 900 := by rw [mul_assoc, ← pow_add]
    rw [e] at h
    exact le_of_mul_le_mul_right (h.trans h1) (by positivity)
  have h4 : |((rnd (q * one') : ℤ) : ℝ) / one' - q| ≤ |(q:ℝ)| / 2 ^ 53 + |t| / 2 ^ 100 := by
    push_cast at hn; exact hn.trans (add_le_add le_rfl ti)
  clear hn h1
  have hlt : |rnd (q * one')| < ovf := by
    have h3 : |((rnd (q * one') : ℤ) : ℝ) / one'| ≤ 2 ^ 451 := by
      have := abs_add_le (((rnd (q * one') : ℤ) : ℝ) / one' - q) q
      rw [sub_add_cancel] at this
      have h5 : |((rnd (q * one') : ℤ) : ℝ) / one'| ≤ 2 * |t| := by
        clear h2
        norm_num [-abs_div] at h4 hqa this ⊢; linarith
      refine h5.trans ?_
      rw [pow_succ']; exact mul_le_mul_of_nonneg_left h2 (by norm_num)
    rw [abs_div, abs_of_pos hp, div_le_iff₀ hp] at h3
    have h5 : |rnd (q * one')| ≤ 2 ^ 451 * one' := by exact_mod_cast h3
    refine lt_of_le_of_lt h5 ?_
    unfold one' ovf
    rw [← pow_add]
    exact pow_lt_pow_right₀ (by norm_num) (by norm_num)
  obtain ⟨x, ix⟩ := exists_is (rep_rnd (q * one')) hlt
  refine ⟨x, ix.1, ?_⟩
  rw [fr_is ix]
  have := abs_add_le (((rnd (q * one') : ℤ) : ℝ) / one' - q) (q - t)
  rw [sub_add_sub_cancel] at this
  clear h2
  norm_num at h4 hqa hqt ⊢; linarith

open Classical in
/-- A good enough `f64` for the exponential, when there is one. -/
noncomputable def goodExp (x : F64) : F64 :=
  if h : ∃ r : F64, r.isFinite = true ∧ |fr r - Real.exp (fr x)| ≤ |Real.exp (fr x)| / 2 ^ 50 then h.choose else F64.zero

/-- The witness platform of the roots. -/
noncomputable def rootPlatform : Platform := { angPlatform with exp := goodExp }

theorem rootPlatform_ok : LibmLogs rootPlatform ∧ LibmExp rootPlatform ∧ FloatText rootPlatform.toStr := by
  refine ⟨?_, ?_, text17_ok⟩
  · exact ⟨logPlatform_ok.ln, logPlatform_ok.log2, logPlatform_ok.log2_zero⟩
  · constructor
    intro x hx hb
    have hb' : |fr x| ≤ 300 := hb
    have hr := exp_pow_two (s := fr x) (k := 450) (by refine hb'.trans ?_; norm_num)
    have g := exists_fr_exp (t := Real.exp (fr x)) (by
      rw [Real.abs_exp]
      exact hr.2.trans (mul_le_mul_of_nonneg_left (pow_le_pow_right₀ (by norm_num) (by norm_num)) (Real.exp_pos _).le))
      (by rw [Real.abs_exp]; exact hr.1)
    have e : goodExp x = g.choose := by unfold goodExp; rw [dif_pos g]
    change (goodExp x).isFinite = true ∧ |fr (goodExp x) - Real.exp (fr x)| ≤ Real.exp (fr x) / 2 ^ 50
    rw [e]
    have := g.choose_spec
    exact ⟨this.1, this.2.trans (le_of_eq (by rw [Real.abs_exp]))⟩

/-- The fifth root of a negative number. -/
example : ∃ R : ℝ, R ^ (5:ℤ) = ((-Double.PI).val : ℝ) ∧ (0 < R ↔ 0 < ((-Double.PI).val : ℝ)) ∧
    ∃ r, Double.nroot rootPlatform (-Double.PI) 5 = some r ∧ r.Normalized := by
  have hn : (-Double.PI).Normalized ∧ (-4 ≤ (-Double.PI).val ∧ (-Double.PI).val ≤ -3) := by decide +kernel
  obtain ⟨hN, b1, b2⟩ := hn
  have hab : |(-Double.PI).val| = -(-Double.PI).val := abs_of_neg (by linarith)
  have hp : (0:ℝ) < -((-Double.PI).val : ℝ) := by
    have : ((-Double.PI).val : ℝ) ≤ -3 := by exact_mod_cast b2
    linarith
  have hR : (-((-((-Double.PI).val : ℝ)) ^ (1 / (5:ℝ)))) ^ (5:ℤ) = ((-Double.PI).val : ℝ) := by
    have : (5:ℤ) = ((5:ℕ) : ℤ) := rfl
    rw [this, zpow_natCast, Odd.neg_pow (by decide), ← Real.rpow_natCast, ← Real.rpow_mul hp.le]
    norm_num
  have hs : 0 < -((-((-Double.PI).val : ℝ)) ^ (1 / (5:ℝ))) ↔ 0 < ((-Double.PI).val : ℝ) := by
    have := Real.rpow_pos_of_pos hp (1 / (5:ℝ))
    constructor <;> intro h <;> linarith
  refine ⟨_, hR, hs, ?_⟩
  obtain ⟨-, r, h1, h2, -⟩ := C88_nroot_three rootPlatform rootPlatform_ok.1 rootPlatform_ok.2.1 rootPlatform_ok.2.2 (-Double.PI) hN 5
    (by norm_num) (by norm_num) _ hR hs
    (by rw [hab]; exact le_trans (by linarith) (le_mul_of_one_le_right (by linarith) (one_le_pow₀ (by norm_num))))
    (by rw [hab]; exact (show -(-Double.PI).val ≤ 2 ^ 2 by linarith).trans (pow_le_pow_right₀ (by norm_num) (by norm_num)))
  exact ⟨r, h1, h2⟩

/-- The cube root of `e`. -/
example : ∃ r, Double.cbrt rootPlatform Double.E = some r ∧ r.Normalized ∧
    |(r.val : ℝ) - (Double.E.val : ℝ) ^ (1 / (3:ℝ))| ≤ |(Double.E.val : ℝ) ^ (1 / (3:ℝ))| / 2 ^ 93 := by
  have hn : Double.E.Normalized ∧ (2 ≤ Double.E.val ∧ Double.E.val ≤ 3) := by decide +kernel
  obtain ⟨hN, b1, b2⟩ := hn
  have hab : |Double.E.val| = Double.E.val := abs_of_pos (by linarith)
  have hp : (0:ℝ) ≤ (Double.E.val : ℝ) := by
    have : 2 ≤ (Double.E.val : ℝ) := by exact_mod_cast b1
    linarith
  obtain ⟨r, h1, h2, -, h3⟩ := C88_cbrt rootPlatform rootPlatform_ok.1 rootPlatform_ok.2.1 rootPlatform_ok.2.2 Double.E hN
    ((Double.E.val : ℝ) ^ (1 / (3:ℝ))) (by rw [← Real.rpow_natCast, ← Real.rpow_mul hp]; norm_num)
    (by rw [hab]; exact le_trans (by linarith) (le_mul_of_one_le_right (by linarith) (one_le_pow₀ (by norm_num))))
    (by rw [hab]; exact (show Double.E.val ≤ 2 ^ 2 by linarith).trans (pow_le_pow_right₀ (by norm_num) (by norm_num)))
  exact ⟨r, h1, h2, h3 (by rw [hab]; linarith) (by rw [hab]; linarith)⟩

end Verif
