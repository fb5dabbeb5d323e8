import Verif.Proofs.NoFma
import Mathlib.Tactic.LinearCombination

/-! # Dekker's product equals the FMA product -/

namespace Verif

open F64 Prim

theorem scale_le {c B W : ℤ} (hW : 0 < W) (h : |c| ≤ B) : |c * W| ≤ B * W := by
  rw [abs_mul, abs_of_pos hW]; exact mul_le_mul_of_nonneg_right h hW.le

theorem abs_mul_le {a b A B : ℤ} (ha : |a| ≤ A) (hb : |b| ≤ B) : |a * b| ≤ A * B := by
  rw [abs_mul]; exact mul_le_mul ha hb (abs_nonneg _) ((abs_nonneg _).trans ha)

/-- The pieces of a splitting as integers. -/
theorem split_ints {a : F64} {m : ℤ} {i : ℕ} (ia : Is a m) (hd : (2:ℤ) ^ i ∣ m) (h1 : 2 ^ (52 + i) ≤ |m|)
    (h2 : |m| < 2 ^ (53 + i)) (hm : 53 + i ≤ 2097) :
    ∃ H L : ℤ, Is (split a).1 (H * 2 ^ 27 * 2 ^ i) ∧ Is (split a).2 (L * 2 ^ i) ∧
      m = (H * 2 ^ 27 + L) * 2 ^ i ∧ |L| ≤ 2 ^ 26 ∧ |H| ≤ 2 ^ 26 ∧ 2 ^ 52 ≤ |H * 2 ^ 27 + L| ∧ |H * 2 ^ 27 + L| < 2 ^ 53 := by
  obtain ⟨h, l, ih, il, e, ⟨H, rfl⟩, ⟨L, rfl⟩, a3, a4⟩ := is_split ia hd h1 h2 hm
  have hU : (0:ℤ) < 2 ^ i := by positivity
  refine ⟨H, L, ih.congr (by rw [pow_add]; ring), il.congr (by ring), by rw [e, pow_add]; ring, ?_, ?_, ?_, ?_⟩
  · rw [abs_mul, abs_of_pos hU, pow_add, mul_comm] at a3
    exact le_of_mul_le_mul_right a3 hU
  · rw [abs_mul, abs_of_pos (by positivity), show 53 + i = 26 + (27 + i) by ring, pow_add 2 26, mul_comm] at a4
    exact le_of_mul_le_mul_right a4 (show (0:ℤ) < 2 ^ (27 + i) by positivity)
  · have e' : m = (H * 2 ^ 27 + L) * 2 ^ i := by rw [e, pow_add]; ring
    rw [e', abs_mul, abs_of_pos hU, pow_add] at h1
    exact le_of_mul_le_mul_right h1 hU
  · have e' : m = (H * 2 ^ 27 + L) * 2 ^ i := by rw [e, pow_add]; ring
    rw [e', abs_mul, abs_of_pos hU, pow_add] at h2
    exact lt_of_mul_lt_mul_right h2 hU.le

/-- The rounded product of two 53-bit numbers. -/
theorem prod_round {X Y : ℤ} {w : ℕ} (hX1 : 2 ^ 52 ≤ |X|) (hX2 : |X| < 2 ^ 53) (hY1 : 2 ^ 52 ≤ |Y|) (hY2 : |Y| < 2 ^ 53) :
    ∃ P : ℤ, rnd ((X * Y * 2 ^ w : ℤ) : ℚ) = P * 2 ^ 52 * 2 ^ w ∧ |P * 2 ^ 52 - X * Y| ≤ 2 ^ 52 ∧ P ≠ 0 ∧ |P| ≤ 2 ^ 54 := by
  have hW : (0:ℤ) < 2 ^ w := by positivity
  have b1 : |X * Y| ≤ 2 ^ 106 := by
    have := abs_mul_le hX2.le hY2.le
    norm_num at this ⊢; exact this
  have b0 : 2 ^ 104 ≤ |X * Y| := by
    rw [abs_mul]
    have := mul_le_mul hX1 hY1 (by norm_num) (abs_nonneg _)
    norm_num at this ⊢; exact this
  have b2 : |X * Y * 2 ^ w| ≤ 2 ^ (53 + (53 + w)) := by
    rw [show 53 + (53 + w) = 106 + w by ring, pow_add]; exact scale_le hW b1
  have b3 : (2:ℤ) ^ (104 + w) ≤ |X * Y * 2 ^ w| := by
    rw [abs_mul, abs_of_pos hW, pow_add]; exact mul_le_mul_of_nonneg_right b0 hW.le
  have e1 := two_err_le' b2
  have r := rep_rnd ((X * Y * 2 ^ w : ℤ) : ℚ)
  have l1 := le_abs_rnd (x := ((X * Y * 2 ^ w : ℤ) : ℚ)) (Rep.two_pow (104 + w)) (by exact_mod_cast b3)
  obtain ⟨P, hP⟩ := r.dvd_of_le (k := 52 + w) (by rw [show 52 + (52 + w) = 104 + w by ring]; exact l1)
  have u1 := abs_rnd_le (x := ((X * Y * 2 ^ w : ℤ) : ℚ)) (Rep.two_pow (53 + (53 + w))) (by exact_mod_cast b2)
  generalize rnd ((X * Y * 2 ^ w : ℤ) : ℚ) = p at *
  have hP' : p = P * 2 ^ 52 * 2 ^ w := by rw [hP, pow_add]; ring
  refine ⟨P, hP', ?_, ?_, ?_⟩
  · rw [hP', ← sub_mul, abs_mul, abs_of_pos hW, pow_add] at e1
    rw [abs_sub_comm]
    have : 2 * |X * Y - P * 2 ^ 52| ≤ 2 ^ 53 := by
      have e2 : 2 * |X * Y - P * 2 ^ 52| * 2 ^ w ≤ 2 ^ 53 * 2 ^ w := by linarith
      exact le_of_mul_le_mul_right e2 hW
    linarith
  · rintro rfl
    rw [hP'] at l1; simp at l1
    have : (0:ℤ) < 2 ^ (104 + w) := by positivity
    linarith
  · rw [hP', abs_mul, abs_mul, abs_of_pos hW, show 53 + (53 + w) = 106 + w by ring, pow_add] at u1
    have := le_of_mul_le_mul_right u1 hW
    norm_num at this ⊢; omega

/-- Dekker's product. -/
theorem dekker {a b : F64} {m n : ℤ} {i j : ℕ} (ia : Is a m) (ib : Is b n)
    (hd : (2:ℤ) ^ i ∣ m) (h1 : 2 ^ (52 + i) ≤ |m|) (h2 : |m| < 2 ^ (53 + i)) (hm : 53 + i ≤ 2097)
    (hd' : (2:ℤ) ^ j ∣ n) (h1' : 2 ^ (52 + j) ≤ |n|) (h2' : |n| < 2 ^ (53 + j)) (hm' : 53 + j ≤ 2097)
    (hl : 1074 ≤ i + j) (hu : i + j ≤ 1074 + 1990) :
    twoProdNoFma a b = twoProd a b := by
  obtain ⟨H, L, ih, il, e, bL, bH, x1, x2⟩ := split_ints ia hd h1 h2 hm
  obtain ⟨K, M, ig, io, e', bM, bK, y1, y2⟩ := split_ints ib hd' h1' h2' hm'
  obtain ⟨w, hw⟩ := Nat.exists_eq_add_of_le hl
  have hW : (0:ℤ) < 2 ^ w := by positivity
  have ew : (2:ℤ) ^ i * 2 ^ j = 2 ^ w * one' := by rw [← pow_add, hw, pow_add]; unfold one'; ring
  obtain ⟨P, hP, bP, hP0, bP'⟩ := prod_round (w := w) x1 x2 y1 y2
  have om : ∀ (c : ℤ), |c| ≤ 2 ^ 107 → |c * 2 ^ w| ≤ omegaUnits := by
    intro c hc
    refine (scale_le hW hc).trans ?_
    rw [← pow_add]; exact two_pow_omega (by omega)
  have eq : (m * n : ℚ) / one' = (((H * 2 ^ 27 + L) * (K * 2 ^ 27 + M) * 2 ^ w : ℤ) : ℚ) := by
    rw [div_eq_iff one'_ne, e, e']
    have : ((H * 2 ^ 27 + L) * 2 ^ i * ((K * 2 ^ 27 + M) * 2 ^ j) : ℤ) = (H * 2 ^ 27 + L) * (K * 2 ^ 27 + M) * 2 ^ w * one' := by
      linear_combination (H * 2 ^ 27 + L) * (K * 2 ^ 27 + M) * ew
    exact_mod_cast this
  have xy : |(H * 2 ^ 27 + L) * (K * 2 ^ 27 + M)| ≤ 2 ^ 106 := by
    have := abs_mul_le x2.le y2.le
    norm_num at this ⊢; exact this
  have ip : Is (F64.mul a b) (P * 2 ^ 52 * 2 ^ w) := by
    have := ia.mul ib (by rw [eq]; exact_mod_cast om _ (xy.trans (by norm_num)))
    rw [eq, hP] at this; exact this
  have bHK := abs_mul_le bH bK
  have bHM := abs_mul_le bH bM
  have bLK := abs_mul_le bL bK
  have bLM := abs_mul_le bL bM
  have ihh : Is (F64.mul (split a).1 (split b).1) (H * K * 2 ^ 54 * 2 ^ w) := by
    refine ih.mulE ig (by linear_combination (H * K * 2 ^ 54) * ew) ⟨H * K, 54 + w, by norm_num at bHK ⊢; omega, by rw [pow_add]; ring⟩ (om _ ?_)
    rw [abs_mul]; norm_num at bHK ⊢; omega
  have ihm : Is (F64.mul (split a).1 (split b).2) (H * M * 2 ^ 27 * 2 ^ w) := by
    refine ih.mulE io (by linear_combination (H * M * 2 ^ 27) * ew) ⟨H * M, 27 + w, by norm_num at bHM ⊢; omega, by rw [pow_add]; ring⟩ (om _ ?_)
    rw [abs_mul]; norm_num at bHM ⊢; omega
  have ilk : Is (F64.mul (split a).2 (split b).1) (L * K * 2 ^ 27 * 2 ^ w) := by
    refine il.mulE ig (by linear_combination (L * K * 2 ^ 27) * ew) ⟨L * K, 27 + w, by norm_num at bLK ⊢; omega, by rw [pow_add]; ring⟩ (om _ ?_)
    rw [abs_mul]; norm_num at bLK ⊢; omega
  have ilm : Is (F64.mul (split a).2 (split b).2) (L * M * 2 ^ w) := by
    refine il.mulE io (by linear_combination (L * M) * ew) ⟨L * M, w, by norm_num at bLM ⊢; omega, by ring⟩ (om _ ?_)
    norm_num at bLM ⊢; omega
  have exy : (H * 2 ^ 27 + L) * (K * 2 ^ 27 + M) = H * K * 2 ^ 54 + H * M * 2 ^ 27 + L * K * 2 ^ 27 + L * M := by ring
  rw [exy] at bP hP eq
  have hne : (P * 2 ^ 52 * 2 ^ w : ℤ) ≠ 0 := by positivity
  generalize H * K = HK at *
  generalize H * M = HM at *
  generalize L * K = LK at *
  generalize L * M = LM at *
  have q1 := abs_le.mp bHK
  have q2 := abs_le.mp bHM
  have q3 := abs_le.mp bLK
  have q4 := abs_le.mp bLM
  have q5 := abs_le.mp bP
  norm_num at q1 q2 q3 q4 q5
  have s1 : Is (F64.sub (F64.mul (split a).1 (split b).1) (F64.mul a b)) ((HK * 4 - P) * 2 ^ 52 * 2 ^ w) := by
    refine ihh.subE ip (by ring) ⟨HK * 4 - P, 52 + w, ?_, by rw [pow_add]; ring⟩ (om _ ?_)
    · rw [abs_le]; norm_num; constructor <;> omega
    · rw [abs_le]; norm_num; constructor <;> omega
  have z1 : PZ (F64.sub (F64.mul (split a).1 (split b).1) (F64.mul a b)) ((HK * 4 - P) * 2 ^ 52 * 2 ^ w) := by
    have hz : PZ (F64.sub (F64.mul (split a).1 (split b).1) (F64.mul a b)) (HK * 2 ^ 54 * 2 ^ w + -(P * 2 ^ 52 * 2 ^ w)) := by
      by_cases h0 : HK * 2 ^ 54 * 2 ^ w = 0
      · intro hh; rw [h0] at hh; omega
      · exact PZ.add ihh ip.neg (PZ.of_ne h0)
    have : HK * 2 ^ 54 * 2 ^ w + -(P * 2 ^ 52 * 2 ^ w) = (HK * 4 - P) * 2 ^ 52 * 2 ^ w := by ring
    rw [this] at hz; exact hz
  have s2 := s1.addE ihm (k := ((HK * 4 - P) * 2 ^ 25 + HM) * 2 ^ 27 * 2 ^ w) (by ring)
    ⟨(HK * 4 - P) * 2 ^ 25 + HM, 27 + w, by rw [abs_le]; norm_num; constructor <;> omega, by rw [pow_add]; ring⟩
    (om _ (by rw [abs_le]; norm_num; constructor <;> omega))
  have z2 := PZ.add s1 ihm z1
  rw [show (HK * 4 - P) * 2 ^ 52 * 2 ^ w + HM * 2 ^ 27 * 2 ^ w = ((HK * 4 - P) * 2 ^ 25 + HM) * 2 ^ 27 * 2 ^ w by ring] at z2
  have s3 := s2.addE ilk (k := ((HK * 4 - P) * 2 ^ 25 + HM + LK) * 2 ^ 27 * 2 ^ w) (by ring)
    ⟨((HK * 4 - P) * 2 ^ 25 + HM + LK) * 2 ^ 27, w, by rw [abs_le]; norm_num; constructor <;> omega, by ring⟩
    (om _ (by rw [abs_le]; norm_num; constructor <;> omega))
  have z3 := PZ.add s2 ilk z2
  rw [show ((HK * 4 - P) * 2 ^ 25 + HM) * 2 ^ 27 * 2 ^ w + LK * 2 ^ 27 * 2 ^ w = ((HK * 4 - P) * 2 ^ 25 + HM + LK) * 2 ^ 27 * 2 ^ w by ring] at z3
  have s4 := s3.addE ilm (k := (HK * 2 ^ 54 + HM * 2 ^ 27 + LK * 2 ^ 27 + LM - P * 2 ^ 52) * 2 ^ w) (by ring)
    ⟨HK * 2 ^ 54 + HM * 2 ^ 27 + LK * 2 ^ 27 + LM - P * 2 ^ 52, w, by rw [abs_le]; norm_num; constructor <;> omega, rfl⟩
    (om _ (by rw [abs_le]; norm_num; constructor <;> omega))
  have z4 := PZ.add s3 ilm z3
  rw [show ((HK * 4 - P) * 2 ^ 25 + HM + LK) * 2 ^ 27 * 2 ^ w + LM * 2 ^ w = (HK * 2 ^ 54 + HM * 2 ^ 27 + LK * 2 ^ 27 + LM - P * 2 ^ 52) * 2 ^ w by ring] at z4
  have iw : 1074 ≤ expo (m : ℚ) + expo (n : ℚ) := by
    have l1 := le_expo_of_le (x := (m : ℚ)) (k := i) (by exact_mod_cast h1)
    have l2 := le_expo_of_le (x := (n : ℚ)) (k := j) (by exact_mod_cast h1')
    omega
  have it := is_twoProd ia ib (by unfold pq; rw [eq]; rw [exy] at xy; exact_mod_cast om _ (xy.trans (by norm_num)))
  have hpe : pe m n = (HK * 2 ^ 54 + HM * 2 ^ 27 + LK * 2 ^ 27 + LM - P * 2 ^ 52) * 2 ^ w := by
    have h := pe_exact ia.rep ib.rep iw
    unfold pr pq at h
    rw [eq, hP] at h
    have h' : pe m n = (HK * 2 ^ 54 + HM * 2 ^ 27 + LK * 2 ^ 27 + LM) * 2 ^ w - P * 2 ^ 52 * 2 ^ w := by exact_mod_cast h
    rw [h']; ring
  refine Prod.ext rfl ?_
  refine s4.eq_of_PZ (it.2.congr hpe) z4 ?_
  intro h0
  have emn : m * n = (HK * 2 ^ 54 + HM * 2 ^ 27 + LK * 2 ^ 27 + LM) * 2 ^ w * one' := by
    rw [div_eq_iff one'_ne] at eq; exact_mod_cast eq
  refine fma_zero ia ib ip.neg ?_ ?_
  · have : |m| ≠ 0 := by have : (0:ℤ) < 2 ^ (52 + i) := by positivity
                         omega
    have : |n| ≠ 0 := by have : (0:ℤ) < 2 ^ (52 + j) := by positivity
                         omega
    have hm0 : m ≠ 0 := by intro h; simp_all
    have hn0 : n ≠ 0 := by intro h; simp_all
    exact mul_ne_zero hm0 hn0
  · rw [emn]; linear_combination one' * h0

/-- Dekker's square. -/
theorem dekker_sqr {a : F64} {m : ℤ} {i : ℕ} (ia : Is a m)
    (hd : (2:ℤ) ^ i ∣ m) (h1 : 2 ^ (52 + i) ≤ |m|) (h2 : |m| < 2 ^ (53 + i)) (hm : 53 + i ≤ 2097)
    (hl : 1074 ≤ i + i) (hu : i + i ≤ 1074 + 1990) :
    twoSqrNoFma a = twoSqr a := by
  obtain ⟨H, L, ih, il, e, bL, bH, x1, x2⟩ := split_ints ia hd h1 h2 hm
  obtain ⟨w, hw⟩ := Nat.exists_eq_add_of_le hl
  have hW : (0:ℤ) < 2 ^ w := by positivity
  have ew : (2:ℤ) ^ i * 2 ^ i = 2 ^ w * one' := by rw [← pow_add, hw, pow_add]; unfold one'; ring
  obtain ⟨P, hP, bP, hP0, bP'⟩ := prod_round (w := w) x1 x2 x1 x2
  have om : ∀ (c : ℤ), |c| ≤ 2 ^ 107 → |c * 2 ^ w| ≤ omegaUnits := by
    intro c hc
    refine (scale_le hW hc).trans ?_
    rw [← pow_add]; exact two_pow_omega (by omega)
  have eq : (m * m : ℚ) / one' = (((H * 2 ^ 27 + L) * (H * 2 ^ 27 + L) * 2 ^ w : ℤ) : ℚ) := by
    rw [div_eq_iff one'_ne, e]
    have : ((H * 2 ^ 27 + L) * 2 ^ i * ((H * 2 ^ 27 + L) * 2 ^ i) : ℤ) = (H * 2 ^ 27 + L) * (H * 2 ^ 27 + L) * 2 ^ w * one' := by
      linear_combination (H * 2 ^ 27 + L) * (H * 2 ^ 27 + L) * ew
    exact_mod_cast this
  have xy : |(H * 2 ^ 27 + L) * (H * 2 ^ 27 + L)| ≤ 2 ^ 106 := by
    have := abs_mul_le x2.le x2.le
    norm_num at this ⊢; exact this
  have ip : Is (F64.mul a a) (P * 2 ^ 52 * 2 ^ w) := by
    have := ia.mul ia (by rw [eq]; exact_mod_cast om _ (xy.trans (by norm_num)))
    rw [eq, hP] at this; exact this
  have bHK := abs_mul_le bH bH
  have bHM := abs_mul_le bH bL
  have bLM := abs_mul_le bL bL
  have ihh : Is (F64.mul (split a).1 (split a).1) (H * H * 2 ^ 54 * 2 ^ w) := by
    refine ih.mulE ih (by linear_combination (H * H * 2 ^ 54) * ew) ⟨H * H, 54 + w, by norm_num at bHK ⊢; omega, by rw [pow_add]; ring⟩ (om _ ?_)
    rw [abs_mul]; norm_num at bHK ⊢; omega
  have i2 : Is (F64.mul (F64.ofInt 2) (split a).1) (H * 2 ^ 28 * 2 ^ i) := by
    have i2 : Is (F64.ofInt 2) (2 * one') := by
      constructor
      · decide +kernel
      · have : (F64.ofInt 2).units = 2 * 2 ^ 1074 := by decide +kernel
        rw [this]; unfold one'; rfl
    refine i2.mulE ih (by ring) ⟨H, 28 + i, by omega, by rw [pow_add]; ring⟩ ?_
    have : |H * 2 ^ 28| ≤ 2 ^ 54 := by rw [abs_mul]; norm_num at bH ⊢; omega
    refine (scale_le (by positivity) this).trans ?_
    rw [← pow_add]; exact two_pow_omega (by omega)
  have ihm : Is (F64.mul (F64.mul (F64.ofInt 2) (split a).1) (split a).2) (H * L * 2 ^ 28 * 2 ^ w) := by
    refine i2.mulE il (by linear_combination (H * L * 2 ^ 28) * ew) ⟨H * L, 28 + w, by norm_num at bHM ⊢; omega, by rw [pow_add]; ring⟩ (om _ ?_)
    rw [abs_mul]; norm_num at bHM ⊢; omega
  have ilm : Is (F64.mul (split a).2 (split a).2) (L * L * 2 ^ w) := by
    refine il.mulE il (by linear_combination (L * L) * ew) ⟨L * L, w, by norm_num at bLM ⊢; omega, by ring⟩ (om _ ?_)
    norm_num at bLM ⊢; omega
  have exy : (H * 2 ^ 27 + L) * (H * 2 ^ 27 + L) = H * H * 2 ^ 54 + H * L * 2 ^ 28 + L * L := by ring
  rw [exy] at bP hP eq
  have hne : (P * 2 ^ 52 * 2 ^ w : ℤ) ≠ 0 := by positivity
  generalize H * H = HK at *
  generalize H * L = HM at *
  generalize L * L = LM at *
  have q1 := abs_le.mp bHK
  have q2 := abs_le.mp bHM
  have q4 := abs_le.mp bLM
  have q5 := abs_le.mp bP
  norm_num at q1 q2 q4 q5
  have s1 : Is (F64.sub (F64.mul (split a).1 (split a).1) (F64.mul a a)) ((HK * 4 - P) * 2 ^ 52 * 2 ^ w) := by
    refine ihh.subE ip (by ring) ⟨HK * 4 - P, 52 + w, ?_, by rw [pow_add]; ring⟩ (om _ ?_)
    · rw [abs_le]; norm_num; constructor <;> omega
    · rw [abs_le]; norm_num; constructor <;> omega
  have z1 : PZ (F64.sub (F64.mul (split a).1 (split a).1) (F64.mul a a)) ((HK * 4 - P) * 2 ^ 52 * 2 ^ w) := by
    have hz : PZ (F64.sub (F64.mul (split a).1 (split a).1) (F64.mul a a)) (HK * 2 ^ 54 * 2 ^ w + -(P * 2 ^ 52 * 2 ^ w)) := by
      by_cases h0 : HK * 2 ^ 54 * 2 ^ w = 0
      · intro hh; rw [h0] at hh; omega
      · exact PZ.add ihh ip.neg (PZ.of_ne h0)
    have : HK * 2 ^ 54 * 2 ^ w + -(P * 2 ^ 52 * 2 ^ w) = (HK * 4 - P) * 2 ^ 52 * 2 ^ w := by ring
    rw [this] at hz; exact hz
  have s2 := s1.addE ihm (k := ((HK * 4 - P) * 2 ^ 24 + HM) * 2 ^ 28 * 2 ^ w) (by ring)
    ⟨(HK * 4 - P) * 2 ^ 24 + HM, 28 + w, by rw [abs_le]; norm_num; constructor <;> omega, by rw [pow_add]; ring⟩
    (om _ (by rw [abs_le]; norm_num; constructor <;> omega))
  have z2 := PZ.add s1 ihm z1
  rw [show (HK * 4 - P) * 2 ^ 52 * 2 ^ w + HM * 2 ^ 28 * 2 ^ w = ((HK * 4 - P) * 2 ^ 24 + HM) * 2 ^ 28 * 2 ^ w by ring] at z2
  have s4 := s2.addE ilm (k := (HK * 2 ^ 54 + HM * 2 ^ 28 + LM - P * 2 ^ 52) * 2 ^ w) (by ring)
    ⟨HK * 2 ^ 54 + HM * 2 ^ 28 + LM - P * 2 ^ 52, w, by rw [abs_le]; norm_num; constructor <;> omega, rfl⟩
    (om _ (by rw [abs_le]; norm_num; constructor <;> omega))
  have z4 := PZ.add s2 ilm z2
  rw [show ((HK * 4 - P) * 2 ^ 24 + HM) * 2 ^ 28 * 2 ^ w + LM * 2 ^ w = (HK * 2 ^ 54 + HM * 2 ^ 28 + LM - P * 2 ^ 52) * 2 ^ w by ring] at z4
  have iw : 1074 ≤ expo (m : ℚ) + expo (m : ℚ) := by
    have l1 := le_expo_of_le (x := (m : ℚ)) (k := i) (by exact_mod_cast h1)
    omega
  have it := is_twoProd ia ia (by unfold pq; rw [eq]; rw [exy] at xy; exact_mod_cast om _ (xy.trans (by norm_num)))
  have hpe : pe m m = (HK * 2 ^ 54 + HM * 2 ^ 28 + LM - P * 2 ^ 52) * 2 ^ w := by
    have h := pe_exact ia.rep ia.rep iw
    unfold pr pq at h
    rw [eq, hP] at h
    have h' : pe m m = (HK * 2 ^ 54 + HM * 2 ^ 28 + LM) * 2 ^ w - P * 2 ^ 52 * 2 ^ w := by exact_mod_cast h
    rw [h']; ring
  refine Prod.ext rfl ?_
  refine s4.eq_of_PZ (it.2.congr hpe) z4 ?_
  intro h0
  have emn : m * m = (HK * 2 ^ 54 + HM * 2 ^ 28 + LM) * 2 ^ w * one' := by
    rw [div_eq_iff one'_ne] at eq; exact_mod_cast eq
  refine fma_zero ia ia ip.neg ?_ ?_
  · have : |m| ≠ 0 := by have : (0:ℤ) < 2 ^ (52 + i) := by positivity
                         omega
    have hm0 : m ≠ 0 := by intro h; simp_all
    exact mul_ne_zero hm0 hm0
  · rw [emn]; linear_combination one' * h0

end Verif
