import Verif.Proofs.QuadRelW
import Verif.Proofs.NrootStep
import Verif.Props.QuadFromFloat

/-!
# The Newton steps of `nroot` for Quads
-/

namespace Verif

/-- One exact Newton step squares the relative error. -/
theorem nroot_real {y v N W δ : ℝ} (hy : 0 < y) (hN : 1 ≤ |N|) (he : |v / y - 1| ≤ δ) (hδ : |N| * δ ≤ 1 / 16)
    (hW : |W - 1 - N * (v / y - 1)| ≤ 11 / 10 * N ^ 2 * (v / y - 1) ^ 2) :
    |(v + v * (1 - W) / N) / y - 1| ≤ (6 / 5 * |N| + 1) * δ ^ 2 := by
  have hN0 : N ≠ 0 := by rintro rfl; norm_num at hN
  have hNp : 0 < |N| := by linarith
  have hδ0 : 0 ≤ δ := (abs_nonneg _).trans he
  have hδ1 : δ ≤ 1 / 16 := le_trans (le_mul_of_one_le_left hδ0 hN) hδ
  obtain ⟨e, hee⟩ : ∃ e, e = v / y - 1 := ⟨_, rfl⟩
  obtain ⟨ρ, hρ⟩ : ∃ ρ, ρ = W - 1 - N * e := ⟨_, rfl⟩
  rw [← hee] at he hW
  rw [← hρ] at hW
  have e1 : (v + v * (1 - W) / N) / y - 1 = -e ^ 2 - (1 + e) * (ρ / N) := by
    have hv : v / y = 1 + e := by rw [hee]; ring
    have hw : W = 1 + N * e + ρ := by rw [hρ]; ring
    rw [show (v + v * (1 - W) / N) / y = v / y * (1 + (1 - W) / N) by field_simp, hv, hw]
    field_simp; ring
  rw [e1]
  have h1 := abs_sub (-e ^ 2) ((1 + e) * (ρ / N))
  have h2 : |-e ^ 2| ≤ δ ^ 2 := by
    rw [abs_neg, abs_pow]; exact pow_le_pow_left₀ (abs_nonneg e) he 2
  have h3 : |ρ / N| ≤ 11 / 10 * |N| * δ ^ 2 := by
    rw [abs_div, div_le_iff₀ hNp]
    refine hW.trans ?_
    rw [← sq_abs N, ← sq_abs e]
    have := pow_le_pow_left₀ (abs_nonneg e) he 2
    calc 11 / 10 * |N| ^ 2 * |e| ^ 2 ≤ 11 / 10 * |N| ^ 2 * δ ^ 2 := mul_le_mul_of_nonneg_left this (by positivity)
      _ = _ := by ring
  have h4 : |1 + e| ≤ 17 / 16 := by
    have := abs_le.mp he; rw [abs_le]; constructor <;> linarith
  have h5 : |(1 + e) * (ρ / N)| ≤ 17 / 16 * (11 / 10 * |N| * δ ^ 2) := by
    rw [abs_mul]; exact mul_le_mul h4 h3 (abs_nonneg _) (by norm_num)
  have h6 : 0 ≤ |N| * δ ^ 2 := by positivity
  linarith

set_option maxHeartbeats 1000000 in
/-- One Newton step. -/
theorem qnroot_step {x r nd : Quad} {n : ℤ} (hn : n ≠ 0) (hn2 : |n| < 2 ^ 31) {A y δ : ℝ} (hx : QT x (qv x) 0) (hr : QT r A 0)
    (hnd : QA nd (n:ℝ) 0 |(n:ℝ)|) (hA : 0 < A) (hy : 0 < y) (hyA : A * y ^ n = 1)
    (hA1 : 1 ≤ A * (2 ^ 185 * 2 ^ 190 * (2 ^ 190 * 2 ^ 190))) (hA2 : A ≤ 2 ^ 185 * 2 ^ 190 * (2 ^ 190 * 2 ^ 190))
    (hy1 : 1 ≤ y * 2 ^ 250) (hy2 : y ≤ 2 ^ 159) (he : |qv x / y - 1| ≤ δ) (hδ : |(n:ℝ)| * δ ≤ 1 / 16) :
    ∃ xn, x.powi n = some xn ∧ ∃ x', x + x * (Quad.ONE - r * xn) / nd = x' ∧ QT x' (qv x') 0 ∧ 0 < qv x' ∧
      |qv x' / y - 1| ≤ (6 / 5 * |(n:ℝ)| + 1) * δ ^ 2 + 6 / 2 ^ 128 := by
  have hN : 1 ≤ |(n:ℝ)| := by exact_mod_cast Int.one_le_abs hn
  have hNp : 0 < |(n:ℝ)| := by linarith
  have hN0 : (n:ℝ) ≠ 0 := abs_pos.mp hNp
  have hNb : |(n:ℝ)| ≤ 2 ^ 31 := by exact_mod_cast hn2.le
  have hδ0 : 0 ≤ δ := (abs_nonneg _).trans he
  have hδ1 : δ ≤ 1 / 16 := le_trans (le_mul_of_one_le_left hδ0 hN) hδ
  have hW := binom_int (e := qv x / y - 1) n hn (le_trans (mul_le_mul_of_nonneg_left he (abs_nonneg _)) hδ)
  rw [add_sub_cancel] at hW
  have hv0 := abs_le.mp (he.trans hδ1)
  have hvy : 15 / 16 * y ≤ qv x ∧ qv x ≤ 17 / 16 * y := by
    have e : qv x = qv x / y * y := by field_simp
    constructor
    · calc 15 / 16 * y ≤ qv x / y * y := mul_le_mul_of_nonneg_right (by linarith) hy.le
        _ = _ := e.symm
    · calc qv x = qv x / y * y := e
        _ ≤ _ := mul_le_mul_of_nonneg_right (by linarith) hy.le
  have hvp : 0 < qv x := by linarith [hvy.1]
  have eW : A * qv x ^ n = (qv x / y) ^ n := by
    rw [div_zpow, eq_div_iff (zpow_ne_zero _ hy.ne'), mul_right_comm, hyA, one_mul]
  have hreal := nroot_real hy hN he hδ hW
  have hWb : |(qv x / y) ^ n - 1| ≤ 1 / 8 := by
    have h1 : |(n:ℝ) * (qv x / y - 1)| ≤ 1 / 16 := by
      rw [abs_mul]; exact (mul_le_mul_of_nonneg_left he (abs_nonneg _)).trans hδ
    have h2 : (n:ℝ) ^ 2 * (qv x / y - 1) ^ 2 ≤ 1 / 256 := by
      rw [← mul_pow, ← sq_abs]; nlinarith [abs_nonneg ((n:ℝ) * (qv x / y - 1))]
    have h3 := abs_add_le ((qv x / y) ^ n - 1 - n * (qv x / y - 1)) (n * (qv x / y - 1))
    rw [sub_add_cancel] at h3
    linarith
  generalize (qv x / y) ^ n = W at *
  have hW1 := abs_le.mp hWb
  have hWp : 0 < W := by linarith
  have hvn : qv x ^ n = W / A := by rw [← eW]; field_simp
  have hvnp : 0 < qv x ^ n := zpow_pos hvp n
  obtain ⟨xn, hxn, hxA⟩ := qpowi_any hx hn hn2
    (by
      rw [abs_of_pos hvnp, hvn, div_mul_eq_mul_div, le_div_iff₀ hA, one_mul]
      refine hA2.trans ?_
      norm_num; linarith)
    (by
      rw [abs_of_pos hvnp, hvn, div_le_iff₀ hA]
      norm_num at hA1 ⊢; linarith)
  refine ⟨xn, hxn, _, rfl, ?_⟩
  have hm := hr.mul hxA hA.ne' hvnp.ne' (by rw [eW, abs_of_pos hWp]; norm_num; linarith) (by rw [eW, abs_of_pos hWp]; norm_num; linarith)
    (by norm_num) (by linarith) (by norm_num at hNb ⊢; linarith)
  rw [eW] at hm
  clear hxA hvn hA1 hA2 hxn
  generalize r * xn = m at *
  unfold QT at hm
  rw [abs_of_pos hWp, zero_add] at hm
  obtain ⟨κ, hκ⟩ : ∃ κ : ℝ, κ = (|(n:ℝ)| / 2 + 1025 + 1 / 2) / 2 ^ 137 := ⟨_, rfl⟩
  rw [← hκ] at hm
  have hκ0 : 0 ≤ κ := by rw [hκ]; positivity
  have hκ1 : κ ≤ 1 / 2 ^ 100 := by rw [hκ]; norm_num at hNb ⊢; linarith
  have hWκ : W * κ ≤ 9 / 8 * κ := mul_le_mul_of_nonneg_right (by linarith) hκ0
  have hd := qa_one.sub hm (Z := 12 / 10) (W := 65 / 100) (g := 9 / 8 * κ + 12 / 10 / 2 ^ 128) (by norm_num) (by linarith) (by norm_num)
    (by rw [zero_add]; linarith) (by norm_num) (by
      have : |1 - W| ≤ 1 / 8 := by rw [abs_sub_comm]; exact hWb
      norm_num at hκ1 ⊢; linarith)
  generalize Quad.ONE - m = d at *
  unfold QT at hx
  have hx' := hx
  rw [zero_div, mul_zero, abs_of_pos hvp] at hx'
  have hsm : (1:ℝ) / 2 ^ 250 ≤ y := by rw [div_le_iff₀ (by positivity)]; exact hy1
  obtain ⟨V, hV⟩ : ∃ V, V = qv x := ⟨_, rfl⟩
  rw [← hV] at hx' hvy hvp hreal
  have hV1 : 1 / 2 ^ 251 ≤ V := by norm_num at hsm ⊢; linarith [hvy.1]
  have hV2 : V ≤ 2 ^ 160 := by norm_num at hy2 ⊢; linarith [hvy.2]
  have hVW : |V * (1 - W)| ≤ V * (1 / 8) := by
    rw [abs_mul, abs_of_pos hvp, abs_sub_comm]; exact mul_le_mul_of_nonneg_left hWb hvp.le
  have hVκ : V * κ ≤ V * (1 / 2 ^ 100) := mul_le_mul_of_nonneg_left hκ1 hvp.le
  have hp := hx'.mulW hd (W := V * (2 / 5)) (g := V * (9 / 8 * κ + 12 / 10 / 2 ^ 128 + 1 / 2 ^ 139)) (by linarith) (by norm_num)
    (by norm_num at hV1 ⊢; linarith) (by norm_num at hV2 ⊢; linarith)
    (by rw [abs_of_pos hvp, mul_zero, zero_mul]; norm_num; linarith) (by norm_num; linarith) (by
      rw [mul_add, mul_add, show V * (9 / 8 * κ) = 9 / 8 * (V * κ) by ring]
      norm_num [-abs_mul] at hVW hVκ ⊢; linarith)
  generalize x * d = p at *
  have hhu : (2:ℝ) ^ 200 * 2 ^ 200 * (2 ^ 200 * 2 ^ 200) = (hugeQ : ℝ) := by rw [hugeQ_eq]; push_cast; rfl
  have h300 : (2:ℝ) ^ 255 * 2 ^ 255 ≤ (hugeQ : ℝ) := by rw [← hhu]; norm_num
  have hVh : 2 ^ 255 ≤ V * (hugeQ : ℝ) * 16 := by
    have := mul_le_mul hV1 h300 (by positivity) hvp.le
    norm_num at this ⊢; linarith
  have ht := hp.div hnd (L := |(n:ℝ)|) (K := V * (41 / 100)) (g := V * (43 / 10 / 2 ^ 128)) hNp (by simp)
    (by linarith) (by norm_num at hVh ⊢; linarith) (by linarith)
    (by norm_num at hVh hNb ⊢; linarith)
    (by
      have h1 : V * (2 / 5) ≤ (hugeQ : ℝ) := by refine le_trans ?_ h300; norm_num at hV2 ⊢; linarith
      exact h1.trans (le_mul_of_one_le_left (by exact_mod_cast hugeQ_pos.le) hN))
    (by
      have := le_mul_of_one_le_right (show 0 ≤ V * (41 / 100) by positivity) hN
      refine le_trans ?_ this; norm_num; linarith)
    (by
      rw [mul_zero, add_zero]
      have e1 : V * (2 / 5) / 2 ^ 127 + V * (9 / 8 * κ + 12 / 10 / 2 ^ 128 + 1 / 2 ^ 139) =
        V * (2 / 5 / 2 ^ 127 + (9 / 8 * κ + 12 / 10 / 2 ^ 128 + 1 / 2 ^ 139)) := by ring
      rw [e1, mul_assoc]
      refine mul_le_mul_of_nonneg_left ?_ hvp.le
      rw [hκ]; norm_num; linarith)
  generalize p / nd = t at *
  have hq : |V * (1 - W) / n| ≤ V * (1 / 8) := by
    rw [abs_div]; exact (div_le_self (abs_nonneg _) hN).trans hVW
  have hqb := abs_le.mp hq
  clear hV1 hVh h300 hhu hnd hp hd hm hsm hy1 hy2
  obtain ⟨V', hV'⟩ : ∃ V', V' = V + V * (1 - W) / n := ⟨_, rfl⟩
  have hV'1 : 7 / 8 * V ≤ V' := by rw [hV']; linarith
  have hV'p : 0 < V' := by linarith
  have ha := hx'.add ht (Z := V * (21 / 20)) (W := V' * (101 / 100)) (g := V * (536 / 100 / 2 ^ 128)) le_rfl (by linarith)
    (by
      norm_num at hV2 ⊢; linarith)
    (by norm_num; linarith) (by linarith)
    (by rw [← hV', abs_of_pos hV'p]; norm_num; linarith)
  rw [← hV'] at ha hreal
  generalize x + t = x' at *
  have her := abs_le.mp ha.err
  have hlo : V' * (1 - 1 / 2 ^ 100) ≤ qv x' := by norm_num at her ⊢; linarith [her.1]
  have hxp : 0 < qv x' := by norm_num at hlo; linarith
  refine ⟨?_, hxp, ?_⟩
  · unfold QT
    rw [zero_div, mul_zero, abs_of_pos hxp]
    refine ⟨ha.sz.mono ?_, by simp⟩
    norm_num at hlo ⊢; linarith
  · have e1 : qv x' / y - 1 = (qv x' - V') / y + (V' / y - 1) := by ring
    rw [e1]
    refine (abs_add_le _ _).trans ?_
    have h1 : |(qv x' - V') / y| ≤ 6 / 2 ^ 128 := by
      rw [abs_div, abs_of_pos hy, div_le_iff₀ hy]
      refine ha.err.trans ?_
      norm_num; linarith [hvy.2]
    linarith

end Verif
