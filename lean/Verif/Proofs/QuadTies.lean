import Verif.Proofs.QuadWhole

/-!
# Rounding Quads at halves
-/

namespace Verif

open F64 Prim Util

/-- What `round` sees in a component that is a half. -/
theorem tie_tests {x : F64} {n k : ℤ} (hx : Is x n) (hk : n = k * one' + hf) :
    ro n = (if 0 ≤ k then k + 1 else k) ∧ Quad.close x.round x = false ∧ Quad.halfway x.round x = true ∧ ¬ one' ∣ n := by
  have hp := hf_pos
  have e := one'_hf
  have hr : ro n = (if 0 ≤ k then k + 1 else k) := by
    split_ifs with h0
    · rw [hk, ro_half_pos h0]
    · have e3 : n = -((-k - 1) * one' + hf) := by rw [hk, e]; ring
      rw [e3, ro_neg, ro_half_pos (by omega)]; ring
  have habs : |ro n * one' - n| = hf := by
    rw [hr]
    split_ifs with h0
    · rw [show (k + 1) * one' - n = hf by rw [hk, e]; ring, abs_of_pos hp]
    · rw [show k * one' - n = -hf by rw [hk]; ring, abs_neg, abs_of_pos hp]
  have hd : ¬ one' ∣ n := by
    rintro ⟨c, hc⟩
    have : hf * (2 * (c - k) - 1) = 0 := by
      rw [hk, e] at hc; linarith
    rcases mul_eq_zero.mp this with h | h
    · omega
    · omega
  refine ⟨hr, ?_, (half_cond hx (is_round hx) (ro_bounds n) hd).2 habs, hd⟩
  by_contra hc
  have hro : |ro n * one' - n| ≤ one' := by rw [habs, e]; omega
  rw [Bool.not_eq_false] at hc
  have := (eps_cond hx (is_round hx) hro).1 hc
  rw [habs] at this
  unfold hf at this
  exact absurd this (not_lt.mpr (pow_le_pow_right₀ (by norm_num) (by norm_num)))

/-- Rounding a half with a tail. -/
theorem tie_sum {m t : ℤ} (ht : |t| < hf) :
    (t < 0 → ro (m * one' + hf + t) = m) ∧ (0 < t → ro (m * one' + hf + t) = m + 1) ∧
    (0 ≤ m → ro (m * one' + hf) = m + 1) ∧ (m < 0 → ro (m * one' + hf) = m) := by
  have hp := hf_pos
  have e := one'_hf
  have hb := abs_lt.mp ht
  refine ⟨fun h => ro_of_lt ?_, fun h => ro_of_lt ?_, fun h => ro_half_pos h, fun h => ?_⟩
  · rw [show m * one' + hf + t - m * one' = hf + t by ring, abs_of_pos (by omega)]; omega
  · rw [show m * one' + hf + t - (m + 1) * one' = -(hf - t) by rw [e]; ring, abs_neg, abs_of_pos (by omega)]; omega
  · have e3 : m * one' + hf = -((-m - 1) * one' + hf) := by rw [e]; ring
    rw [e3, ro_neg, ro_half_pos (by omega)]; ring

theorem tie_tail {h l : ℤ} {k : ℤ} (hk : h = k * one' + hf) (hn : Norm2 h l) : 2 * |l| ≤ hf := by
  have h1 := hn.lo_le_expo
  have h2 := hn.rep_hi.dvd
  have hX : (2:ℤ) ^ expo (h:ℚ) ∣ hf := by
    have hc : ¬ 1074 ≤ expo (h:ℚ) := by
      intro hcc
      have : one' ∣ h := dvd_trans (by unfold one'; exact pow_dvd_pow 2 hcc) h2
      obtain ⟨c, hc⟩ := this
      have e := one'_hf
      have hp := hf_pos
      have : hf * (2 * (c - k) - 1) = 0 := by
        rw [hk, e] at hc; linarith
      rcases mul_eq_zero.mp this with h | h
      · omega
      · omega
    unfold hf; exact pow_dvd_pow 2 (by omega)
  have := Int.le_of_dvd hf_pos hX
  omega

/-- A half at some level: the component, the next one, and the rest. -/
structure TieAt (W n y r : ℤ) (k : ℤ) : Prop where
  half : n = k * one' + hf
  ok : (0 ≤ k ∧ (y ≠ 0 ∨ 0 ≤ W + k)) ∨ (k < 0 ∧ y = 0 ∧ W + k < 0)

/-- The component `round` stores at a half, and the whole sum. -/
theorem TieAt.spec {W n y r k : ℤ} (T : TieAt W n y r k) {x x' : F64} (hx : Is x n) (hy : Is x' y) (hn : Norm2 n y)
    (hr : 2 ^ 50 * |r| ≤ |y|) :
    ∃ c, Is (if F64.lt x' F64.zero then F64.sub x.round (ofDec false 1 0) else x.round) (c * one') ∧
      ro (W * one' + n + (y + r)) = W + c := by
  obtain ⟨e1, e2⟩ := T
  obtain ⟨t1, -, -, hd⟩ := tie_tests hx e1
  have ht := tie_tail e1 hn
  have hp := hf_pos
  have e := one'_hf
  have h50 : |r| ≤ |y| := by have := abs_nonneg r; norm_num at hr; omega
  have hs : ∀ s : ℤ, |s| < hf → True := fun _ _ => trivial
  have hyr : |y + r| < hf ∨ y = 0 := by
    by_cases h : y = 0
    · exact .inr h
    · left
      have := abs_add_le y r
      have h0 : 0 < |y| := abs_pos.mpr h
      have := abs_nonneg r
      norm_num at hr
      omega
  have eV : W * one' + n + (y + r) = (W + k) * one' + hf + (y + r) := by rw [e1]; ring
  have F := is_round hx
  rw [t1] at F
  have hr0 : y = 0 → r = 0 := by
    intro h; rw [h, abs_zero] at hr; exact abs_nonpos_iff.mp (by have := abs_nonneg r; norm_num at hr; omega)
  rcases lt_trichotomy y 0 with h | h | h
  · rw [if_pos ((hy.lt_iff is_zero).mpr h)]
    have hk0 : 0 ≤ k := by rcases e2 with h' | h' <;> omega
    have hb : |y + r| < hf := by rcases hyr with h' | h' <;> [exact h'; omega]
    have hkb : Rep (k * one') ∧ |k * one'| < ovf := rep_whole hx.rep hx.lt (fun h' => absurd h' hd) (by
      rw [e1, e, abs_le]; constructor <;> linarith)
    rw [if_pos hk0] at F
    refine ⟨k, F.sub_rep is_lit_one (by ring) hkb.1 hkb.2, ?_⟩
    rw [eV]
    refine (tie_sum hb).1 ?_
    have := neg_abs_le r
    have := le_abs_self r
    rw [abs_of_neg h] at hr
    norm_num at hr
    have := abs_nonneg r
    omega
  · rw [if_neg (by rw [hy.lt_iff is_zero]; omega)]
    refine ⟨_, F, ?_⟩
    rw [eV, h, hr0 h, add_zero, add_zero]
    have T := tie_sum (m := W + k) (t := 0) (by rw [abs_zero]; exact hp)
    rcases e2 with h' | h'
    · rw [if_pos h'.1, T.2.2.1 (by rcases h'.2 with h'' | h'' <;> [exact absurd h h''; exact h''])]; ring
    · rw [if_neg (by omega), T.2.2.2 h'.2.2]
  · rw [if_neg (by rw [hy.lt_iff is_zero]; omega)]
    have hk0 : 0 ≤ k := by rcases e2 with h' | h' <;> omega
    have hb : |y + r| < hf := by rcases hyr with h' | h' <;> [exact h'; omega]
    refine ⟨_, F, ?_⟩
    rw [eV, if_pos hk0]
    rw [(tie_sum hb).2.1]
    · ring
    · have := neg_abs_le r
      rw [abs_of_pos h] at hr
      norm_num at hr
      have := abs_nonneg r
      omega

/-- `round` at halves. -/
theorem round_tie_spec {q : Quad} {z0 z1 z2 z3 : ℤ} (iq : QIs q (z0, z1, z2, z3)) (hn : Norm4 (z0, z1, z2, z3))
    (hmax : |z0| ≤ 2 ^ 1000 * one')
    (hs : (∃ k, TieAt 0 z0 z1 (z2 + z3) k) ∨ (∃ w0, z0 = w0 * one' ∧
      ((∃ k, TieAt w0 z1 z2 z3 k) ∨ (∃ w1, z1 = w1 * one' ∧
        ((∃ k, TieAt (w0 + w1) z2 z3 0 k) ∨
          (∃ w2, z2 = w2 * one' ∧ ∃ k, z3 = k * one' + hf ∧ ((0 ≤ k ∧ 0 ≤ w0 + w1 + w2 + k) ∨ (k < 0 ∧ w0 + w1 + w2 + k < 0)))))))) :
    ∃ z, QIs q.round z ∧ sum4 z = ro (z0 + z1 + z2 + z3) * one' := by
  obtain ⟨n01, n12, n23⟩ := hn
  simp only at n01 n12 n23
  obtain ⟨i0, i1, i2, i3⟩ := iq
  simp only at i0 i1 i2 i3
  have hp := one'_pos
  have t01 := n01.two_le
  have t12 := n12.two_le
  have t23 := n23.two_le
  have l12 := n12.lo_le
  have l23 := n23.lo_le
  have p1 := abs_nonneg z1
  have p2 := abs_nonneg z2
  have p3 := abs_nonneg z3
  have s23 := abs_add_le z2 z3
  have F0 := is_round i0
  have F1 := is_round i1
  have F2 := is_round i2
  have F3 := is_round i3
  have hq : 2 ^ 13 * (2 ^ 1000 * one') ≤ lim := by
    unfold one'; rw [← pow_add, ← pow_add]; exact pow_le_lim (by norm_num)
  generalize (2:ℤ) ^ 1000 * one' = M at *
  unfold Quad.round
  rcases hs with ⟨k, T⟩ | ⟨w0, hw0, hs⟩
  · obtain ⟨-, t1, t2, -⟩ := tie_tests i0 T.half
    obtain ⟨c, hc, hV⟩ := T.spec i0 i1 n01 (by norm_num at l12 l23 ⊢; omega)
    simp only [t1, t2, Bool.false_eq_true, if_false, Bool.true_and]
    refine ⟨(c * one', 0, 0, 0), ?_, ?_⟩
    · by_cases hlt : F64.lt q.c1 F64.zero = true
      · rw [if_pos hlt] at hc ⊢; exact ⟨hc, is_zero, is_zero, is_zero⟩
      · rw [if_neg hlt] at hc ⊢; exact ⟨hc, is_zero, is_zero, is_zero⟩
    · rw [show z0 + z1 + z2 + z3 = 0 * one' + z0 + (z1 + (z2 + z3)) by ring, hV]
      unfold sum4; ring
  · have d0 : one' ∣ z0 := ⟨w0, by rw [hw0]; ring⟩
    simp only [close_round i0 d0, if_true]
    rw [ro_dvd d0] at F0
    rcases hs with ⟨k, T⟩ | ⟨w1, hw1, hs⟩
    · obtain ⟨-, t1, t2, -⟩ := tie_tests i1 T.half
      obtain ⟨c, hc, hV⟩ := T.spec i1 i2 n12 (by norm_num at l12 l23 ⊢; omega)
      simp only [t1, t2, Bool.false_eq_true, if_false, Bool.true_and]
      refine ⟨(z0, c * one', 0, 0), ?_, ?_⟩
      · by_cases hlt : F64.lt q.c2 F64.zero = true
        · rw [if_pos hlt] at hc ⊢; exact ⟨F0, hc, is_zero, is_zero⟩
        · rw [if_neg hlt] at hc ⊢; exact ⟨F0, hc, is_zero, is_zero⟩
      · rw [show z0 + z1 + z2 + z3 = w0 * one' + z1 + (z2 + z3) by rw [hw0]; ring, hV]
        unfold sum4; simp only; rw [hw0]; ring
    · have d1 : one' ∣ z1 := ⟨w1, by rw [hw1]; ring⟩
      simp only [close_round i1 d1, if_true]
      rw [ro_dvd d1] at F1
      rcases hs with ⟨k, T⟩ | ⟨w2, hw2, k, hk, h3⟩
      · obtain ⟨-, t1, t2, -⟩ := tie_tests i2 T.half
        obtain ⟨c, hc, hV⟩ := T.spec i2 i3 n23 (by rw [abs_zero]; norm_num)
        simp only [t1, t2, Bool.false_eq_true, if_false, Bool.true_and]
        refine ⟨(z0, z1, c * one', 0), ?_, ?_⟩
        · by_cases hlt : F64.lt q.c3 F64.zero = true
          · rw [if_pos hlt] at hc ⊢; exact ⟨F0, F1, hc, is_zero⟩
          · rw [if_neg hlt] at hc ⊢; exact ⟨F0, F1, hc, is_zero⟩
        · rw [show z0 + z1 + z2 + z3 = (w0 + w1) * one' + z2 + (z3 + 0) by rw [hw0, hw1]; ring, hV]
          unfold sum4; simp only; rw [hw0, hw1]; ring
      · have d2 : one' ∣ z2 := ⟨w2, by rw [hw2]; ring⟩
        simp only [close_round i2 d2, if_true]
        rw [ro_dvd d2] at F2
        have b3 := ro_bound d2 (n := z3) (by omega)
        have ok := rn4ok_1 i0.rep i1.rep i2.rep F3.rep b3 t12 t01
        refine ⟨_, qis_of_renorm4 (is_renorm4 F0 F1 F2 F3 ok (by omega)), ?_⟩
        have T := tie_sum (m := w0 + w1 + w2 + k) (t := 0) (by rw [abs_zero]; exact hf_pos)
        rw [rn4_sum, show z0 + z1 + z2 + z3 = (w0 + w1 + w2 + k) * one' + hf by rw [hw0, hw1, hw2, hk]; ring,
          (tie_tests i3 hk).1]
        rcases h3 with h3 | h3
        · rw [T.2.2.1 h3.2, if_pos h3.1, hw0, hw1, hw2]; ring
        · rw [T.2.2.2 h3.2, if_neg (by omega), hw0, hw1, hw2]; ring

end Verif
