import Verif.Proofs.DisplayTotal
import Verif.Props.DisplayShow
import Verif.Props.QuadParseAcc
import Verif.Proofs.QuadReduce
import Verif.Props.QuadAtan

/-! # The digit loop of the formatting code on Quads -/

namespace Verif.Disp

open Verif F64 Prim Util Quad

/-- One round of the digit loop: `(v - trunc v.0) * 10`. -/
def qnext (v : Quad) : Quad := Quad.dispOps.mulTen (Quad.dispOps.subDigit v v.c0.trunc)

theorem qten_qa : QA ⟨F64.ofInt 10, F64.zero, F64.zero, F64.zero⟩ 10 0 10 := by
  have i : Is (F64.ofInt 10) (10 * one') := by
    refine ⟨by decide +kernel, ?_⟩
    unfold one'; decide +kernel
  have := qa_int i
  norm_num at this
  exact this

theorem trunc_bound {h : ℚ} (hh : |h| ≤ 10 + 1 / 2 ^ 29) : |(truncQ h : ℚ)| ≤ 10 := by
  rw [abs_le] at hh
  unfold truncQ
  by_cases h0 : 0 ≤ h
  · rw [if_pos h0]
    have f0 : (0:ℤ) ≤ ⌊h⌋ := Int.floor_nonneg.mpr h0
    have : ⌊h⌋ < 11 := by
      rw [Int.floor_lt]; push_cast; norm_num at hh ⊢; linarith [hh.2]
    rw [abs_of_nonneg (by exact_mod_cast f0)]
    exact_mod_cast (by omega : ⌊h⌋ ≤ 10)
  · rw [if_neg h0]
    have f0 : ⌈h⌉ ≤ 0 := Int.ceil_nonpos.mpr (by linarith)
    have : -11 < ⌈h⌉ := by
      rw [Int.lt_ceil]; push_cast; norm_num at hh ⊢; linarith [hh.1]
    rw [abs_of_nonpos (by exact_mod_cast f0)]
    exact_mod_cast (by omega : -⌈h⌉ ≤ 10)

theorem trunc_sub {h : ℚ} : |h - truncQ h| ≤ 1 := by
  unfold truncQ
  by_cases h0 : 0 ≤ h
  · rw [if_pos h0]
    have := Int.floor_le h; have := Int.lt_floor_add_one h
    rw [abs_le]; constructor <;> linarith
  · rw [if_neg h0]
    have := Int.le_ceil h; have := Int.ceil_lt_add_one h
    rw [abs_le]; constructor <;> linarith

theorem qnext_spec {v : Quad} (hs : SZ v 30) (hb : |v.val| ≤ vmax) :
    SZ (qnext v) 30 ∧ |v.val - v.c0.toRat| ≤ 1 / 2 ^ 44 ∧
      |(qnext v).val - 10 * (v.val - truncQ v.c0.toRat)| ≤ 1 / 2 ^ 119 ∧
      (F64.toU 8 v.c0.trunc).toNat = (min 255 (truncQ v.c0.toRat)).toNat := by
  unfold vmax at hb
  obtain ⟨fc, hc⟩ := sz_sub_c0 hs
  have i := Is.of_finite fc
  have it := is_trunc i
  have ea : v.c0.toRat = (v.c0.units : ℚ) / one' := i.toRat
  rw [← ea] at it
  have hcq : |v.val - v.c0.toRat| ≤ |v.c0.toRat| / 2 ^ 48 + 30 / 2 ^ 138 := by
    unfold qv fr at hc
    apply (Rat.cast_le (K := ℝ)).mp
    push_cast; exact hc
  have hh : |v.c0.toRat| ≤ 10 + 1 / 2 ^ 29 := by
    have := abs_sub_abs_le_abs_sub v.c0.toRat v.val
    rw [abs_sub_comm] at this
    norm_num at hb hcq ⊢; linarith
  have hd : |v.val - v.c0.toRat| ≤ 1 / 2 ^ 44 := hcq.trans (by norm_num at hh ⊢; linarith)
  have hw := trunc_bound hh
  have hw1 := trunc_sub (h := v.c0.toRat)
  set w := truncQ v.c0.toRat with hwd
  have hvw : |v.val - w| ≤ 1 + 1 / 2 ^ 44 := by
    have e : v.val - w = (v.val - v.c0.toRat) + (v.c0.toRat - w) := by ring
    rw [e]
    exact (abs_add_le _ _).trans (by linarith)
  have R1 : |qv v| ≤ 10 + 1 / 2 ^ 30 := by
    have := (Rat.cast_le (K := ℝ)).mpr hb
    push_cast at this; exact this
  have R2 : |(w : ℝ)| ≤ 10 := by exact_mod_cast hw
  have R3 : |qv v - w| ≤ 1 + 1 / 2 ^ 44 := by
    have := (Rat.cast_le (K := ℝ)).mpr hvw
    push_cast at this; exact this
  have qd := qa_int it
  have qs := QA.subV (Z := 30) (V := 11) (W := 57 / 10) (g := 1 / 2 ^ 123) (e := 0) (x := qv v) ⟨hs, by simp⟩ qd le_rfl (by linarith)
    (by norm_num) (by norm_num at R1 ⊢; linarith) (by norm_num; linarith) (by norm_num) (by norm_num) (by norm_num)
    (by norm_num at R3 ⊢; linarith)
  have qm := qs.mul qten_qa (W := 30) (g := 11 / 2 ^ 123) (by norm_num) (by norm_num) (by norm_num) (by norm_num) (by norm_num) (by
    rw [abs_mul]; norm_num at R3 ⊢; linarith)
  refine ⟨qm.sz, hd, ?_, ?_⟩
  · have := qm.err
    have e : |qv (qnext v) - (qv v - w) * 10| ≤ 11 / 2 ^ 123 := this
    unfold qv at e
    have e' : |(qnext v).val - (v.val - w) * 10| ≤ 11 / 2 ^ 123 := by
      apply (Rat.cast_le (K := ℝ)).mp
      push_cast; exact e
    rw [mul_comm 10]
    exact e'.trans (by norm_num)
  · rw [toU_whole it]; norm_num
    omega

/-- What one round of the loop does, in rational arithmetic. -/
theorem qdisp_step {v : Quad} (hs : SZ v 30) (hb : |v.val| ≤ vmax) :
    ∃ e : ℕ, (F64.toU 8 v.c0.trunc).toNat = e ∧ SZ (qnext v) 30 ∧ |(qnext v).val| ≤ vmax ∧ e ≤ 10 ∧
      (e = 10 → (qnext v).val ≤ 1 / 2 ^ 20) ∧ (v.val ≤ 1 / 2 ^ 20 → e = 0) ∧
      (e : ℚ) + max (qnext v).val 0 / 10 ≤ max v.val 0 + 2 / 2 ^ 44 ∧
      max v.val 0 ≤ (e : ℚ) + max (qnext v).val 0 / 10 + 1 / 2 ^ 122 := by
  obtain ⟨n1, hd2, e1, e2⟩ := qnext_spec hs hb
  unfold vmax at *
  generalize (qnext v).val = N at *
  rw [e2]
  generalize v.c0.toRat = h at *
  generalize v.val = V at *
  clear e2 hs
  have hN := abs_le.mp e1
  rw [abs_le] at hd2 hb
  by_cases h0 : 0 ≤ h
  · have et : truncQ h = ⌊h⌋ := by unfold truncQ; rw [if_pos h0]
    rw [et] at hN ⊢
    have f1 := Int.floor_le h
    have f2 := Int.lt_floor_add_one h
    have f0 : (0:ℤ) ≤ ⌊h⌋ := Int.floor_nonneg.mpr h0
    have f3 : ⌊h⌋ ≤ 10 := by
      have : ⌊h⌋ < 11 := by
        rw [Int.floor_lt]; push_cast
        norm_num at hb hd2 ⊢; linarith [hb.2, hd2.1]
      omega
    obtain ⟨w, hw⟩ := Int.eq_ofNat_of_zero_le f0
    rw [hw] at f1 f2 f3 hN ⊢
    have ew : (min 255 (w : ℤ)).toNat = w := by omega
    rw [ew]
    push_cast at f1 f2 hN
    refine ⟨w, rfl, n1, ?_, by omega, ?_, ?_, ?_, ?_⟩
    · rw [abs_le]; norm_num at *; constructor <;> linarith [hd2.1, hd2.2, hN.1, hN.2]
    · intro hw10
      rw [hw10] at hN f1 f2
      norm_num at *; linarith [hb.2, hN.2]
    · intro hVs
      by_contra hne
      have : (1:ℚ) ≤ w := by exact_mod_cast Nat.one_le_iff_ne_zero.mpr hne
      norm_num at hd2 hVs; linarith [hd2.1]
    · have m1 := le_max_left V 0
      generalize max V 0 = M at *
      rcases le_total N 0 with hn | hn
      · rw [max_eq_right hn]; norm_num at *; linarith [hd2.1]
      · rw [max_eq_left hn]; norm_num at *; linarith [hN.2]
    · have hw0 : (0:ℚ) ≤ w := Nat.cast_nonneg w
      have m3 := le_max_left N 0
      have m4 := le_max_right N 0
      generalize max N 0 = M at *
      refine max_le ?_ ?_
      · norm_num at *; linarith [hN.1]
      · positivity
  · have et : truncQ h = ⌈h⌉ := by unfold truncQ; rw [if_neg h0]
    rw [et] at hN ⊢
    have f1 := Int.le_ceil h
    have f2 := Int.ceil_lt_add_one h
    have f0 : ⌈h⌉ ≤ 0 := Int.ceil_nonpos.mpr (by linarith)
    have ew : (min 255 ⌈h⌉).toNat = 0 := by omega
    have f0' : ((⌈h⌉ : ℤ) : ℚ) ≤ 0 := by exact_mod_cast f0
    rw [ew]
    refine ⟨0, rfl, n1, ?_, by omega, by omega, fun _ => rfl, ?_, ?_⟩
    · rw [abs_le]; norm_num at *; constructor <;> linarith [hd2.1, hd2.2, hN.1, hN.2]
    · have m2 := le_max_right V 0
      generalize max V 0 = M at *
      rcases le_total N 0 with hn | hn
      · rw [max_eq_right hn]; norm_num at *; linarith
      · rw [max_eq_left hn]; norm_num at *; linarith [hd2.2, hN.2]
    · push_cast
      clear e1 et ew f0
      generalize ((⌈h⌉ : ℤ) : ℚ) = C at *
      have m3 := le_max_left N 0
      have m4 := le_max_right N 0
      generalize max N 0 = M at *
      refine max_le ?_ ?_
      · norm_num at *; linarith [hN.1]
      · positivity

theorem qloop_spec : ∀ (n : ℕ) (v : Quad), SZ v 30 → |v.val| ≤ vmax →
    (extractLoop Quad.dispOps n v).length = n ∧ Tame n 0 (extractLoop Quad.dispOps n v) ∧
    (v.val ≤ 1 / 2 ^ 20 → (extractLoop Quad.dispOps n v)[0]?.getD 0 = 0) ∧
    decVal (extractLoop Quad.dispOps n v) 0 ≤ max v.val 0 + 3 / 2 ^ 44 ∧
    max v.val 0 ≤ decVal (extractLoop Quad.dispOps n v) 0 + 11 / 10 ^ n + 1 / 2 ^ 121 := by
  intro n
  induction n with
  | zero =>
    intro v hv hb
    have e : extractLoop Quad.dispOps 0 v = [] := rfl
    have e2 : decVal [] 0 = 0 := by simp [decVal, digitsVal]
    rw [e, e2]
    refine ⟨rfl, ⟨by intro i hi; omega, by intro i hi; omega⟩, by simp, ?_, ?_⟩
    · have := le_max_right v.val 0
      have : (0:ℚ) ≤ 3 / 2 ^ 44 := by positivity
      linarith
    · have h1 := le_abs_self v.val
      have h2 : vmax ≤ 11 := by unfold vmax; norm_num
      have : max v.val 0 ≤ 11 := max_le (by linarith) (by norm_num)
      norm_num at *; linarith
  | succ n ih =>
    intro v hv hb
    obtain ⟨e, he, n1, b1, e10, e11, e12, u1, u2⟩ := qdisp_step hv hb
    obtain ⟨l1, t1, z1, a1, a2⟩ := ih (qnext v) n1 b1
    have es : extractLoop Quad.dispOps (n + 1) v = e :: extractLoop Quad.dispOps n (qnext v) := by
      rw [← he]; rfl
    rw [es, decVal_cons]
    generalize extractLoop Quad.dispOps n (qnext v) = L at *
    refine ⟨by simp [l1], ⟨?_, ?_⟩, ?_, ?_, ?_⟩
    · intro i hi
      cases i with
      | zero => simpa using e10
      | succ i => rw [List.getElem?_cons_succ]; exact t1.1 i (by omega)
    · intro i hi
      cases i with
      | zero =>
        intro h10
        rw [List.getElem?_cons_zero] at h10
        rw [List.getElem?_cons_succ, z1 (e11 h10)]
      | succ i => rw [List.getElem?_cons_succ, List.getElem?_cons_succ]; exact t1.2 i (by omega)
    · intro hs; rw [List.getElem?_cons_zero]; exact e12 hs
    · generalize max (qnext v).val 0 = N at *
      generalize max v.val 0 = V at *
      norm_num at *; linarith
    · generalize max (qnext v).val 0 = N at *
      generalize max v.val 0 = V at *
      have e3 : (11:ℚ) / 10 ^ (n + 1) = 11 / 10 ^ n / 10 := by rw [pow_succ]; field_simp
      rw [e3]
      generalize (11:ℚ) / 10 ^ n = t at *
      norm_num at *; linarith

/-! ## The first value of the loop -/

theorem qten_eq : (⟨F64.ofInt 10, F64.zero, F64.zero, F64.zero⟩ : Quad) = Quad.TEN := by decide +kernel

theorem qten_powi (k : ℤ) (h : |k| ≤ 228) :
    ∃ p, Quad.dispOps.tenPowi k = some p ∧ QR p ((10:ℝ) ^ k) 1139 := by
  change ∃ p, Quad.powi ⟨F64.ofInt 10, F64.zero, F64.zero, F64.zero⟩ k = some p ∧ _
  rw [qten_eq]
  by_cases hk0 : k = 0
  · subst hk0
    exact ⟨Quad.ONE, rfl, by rw [zpow_zero]; exact QR.one.mono (by norm_num)⟩
  · obtain ⟨p, p1, p2⟩ := qten_pow k hk0 h
    have : |(k:ℝ)| ≤ 228 := by exact_mod_cast h
    exact ⟨p, p1, p2.mono (by linarith)⟩

theorem qstart_spec {x : Quad} (hx : x.Normalized) {k : ℤ} (h1 : -228 ≤ k) (h2 : (10:ℚ) ^ k ≤ |x.val| * (1 + 1 / 2 ^ 40))
    (h3 : |x.val| ≤ (10:ℚ) ^ (k + 1) * (1 + 1 / 2 ^ 40)) (h4 : |x.val| ≤ 2 ^ 159) :
    ∃ p, Quad.dispOps.tenPowi k = some p ∧ k ≤ 48 ∧ SZ (x.abs / p) 30 ∧ |(x.abs / p).val| ≤ vmax ∧
      |(x.abs / p).val - |x.val| / 10 ^ k| ≤ |x.val| / 10 ^ k / 2 ^ 125 := by
  obtain ⟨an, av⟩ := C41_quad_abs_val x hx
  have hk : k ≤ 48 := by
    by_contra hc
    have e1 : (10:ℚ) ^ (49:ℤ) ≤ 10 ^ k := zpow_le_zpow_right₀ (by norm_num) (by omega)
    norm_num at e1 h4 h2; linarith
  obtain ⟨p, p1, p2⟩ := qten_powi k (abs_le.mpr ⟨by omega, by omega⟩)
  refine ⟨p, p1, hk, ?_⟩
  have hT : (0:ℝ) < 10 ^ k := zpow_pos (by norm_num) k
  have hlow : 1 ≤ (10:ℝ) ^ k * (2 ^ 190 * 2 ^ 190 * (2 ^ 190 * 2 ^ 190)) := by
    have e1 : (10:ℝ) ^ (-228:ℤ) ≤ 10 ^ k := zpow_le_zpow_right₀ (by norm_num) h1
    have e2 : 1 ≤ (10:ℝ) ^ (-228:ℤ) * (2 ^ 190 * 2 ^ 190 * (2 ^ 190 * 2 ^ 190)) := by norm_num
    exact e2.trans (mul_le_mul_of_nonneg_right e1 (by positivity))
  have r2 := (Rat.cast_le (K := ℝ)).mpr h2
  rw [zpow_add₀ (by norm_num), zpow_one] at h3
  have r3 := (Rat.cast_le (K := ℝ)).mpr h3
  have r4 := (Rat.cast_le (K := ℝ)).mpr h4
  push_cast at r2 r3 r4
  have ex := (qord_norm an).exact
  have hqa : qv x.abs = |(x.val : ℝ)| := by unfold qv; rw [av]; push_cast; rfl
  rw [hqa, abs_abs] at ex
  have fin : QA (x.abs / p) (|(x.val : ℝ)| / 10 ^ k) (|(x.val : ℝ)| / 10 ^ k / 2 ^ 125) 11 := by
    clear h2 h3 h4 hqa
    unfold QR at p2
    generalize (10:ℝ) ^ k = T at *
    rw [abs_of_pos hT] at p2
    have hX0 : 0 < |(x.val : ℝ)| := by norm_num at r2; linarith
    generalize |(x.val : ℝ)| = X at *
    have hh : (0:ℝ) ≤ (hugeQ : ℝ) := by exact_mod_cast hugeQ_pos.le
    have hbig : (2:ℝ) ^ 190 * 2 ^ 190 * (2 ^ 190 * 2 ^ 190) * 2 ^ 30 ≤ (hugeQ : ℝ) := by
      refine le_trans ?_ huge_big
      norm_num
    have hX1 : T / 2 ≤ X := by norm_num at r2 ⊢; linarith
    have hTh : 2 ^ 30 ≤ T * hugeQ := by
      have := mul_le_mul_of_nonneg_left hbig hT.le
      refine le_trans ?_ this
      rw [← mul_assoc]
      exact le_mul_of_one_le_left (by norm_num) hlow
    have h2T : T / 2 * hugeQ ≤ X * hugeQ := mul_le_mul_of_nonneg_right hX1 hh
    have hXX : X * hugeQ ≤ X * (1 + 1 / 2 ^ 47) * hugeQ :=
      mul_le_mul_of_nonneg_right (le_mul_of_one_le_right hX0.le (by norm_num)) hh
    have xy : |X / T| * (T * (1139 / 2 ^ 137)) = X * (1139 / 2 ^ 137) := by
      rw [abs_of_pos (by positivity)]; field_simp
    have gl : X / T / 2 ^ 125 * (T * (1 - 1 / 2 ^ 100)) = X * ((1 - 1 / 2 ^ 100) / 2 ^ 125) := by field_simp
    refine QA.div (L := T * (1 - 1 / 2 ^ 100)) ex p2 (by norm_num; linarith) ?_ ?_ ?_ ?_ ?_ ?_ ?_ ?_
    · rw [abs_of_pos hT]; norm_num; linarith
    · norm_num; linarith
    · clear hlow hbig; norm_num at hTh; linarith
    · clear hlow hbig hTh h2T hXX; norm_num at r4 ⊢; linarith
    · clear hlow hbig hTh h2T hXX
      refine huge_le (by positivity) ?_
      norm_num; linarith
    · clear hlow hbig hTh h2T hXX
      refine huge_le (by norm_num; linarith) ?_
      norm_num at r3 ⊢; linarith
    · clear hlow hbig hTh h2T hXX; norm_num at r3 ⊢; linarith
    · rw [xy, gl]; clear hlow hbig hTh h2T hXX; norm_num; linarith
  have er := fin.err
  have erq : |(x.abs / p).val - |x.val| / 10 ^ k| ≤ |x.val| / 10 ^ k / 2 ^ 125 := by
    unfold qv at er
    apply (Rat.cast_le (K := ℝ)).mp
    push_cast; exact er
  refine ⟨fin.sz.mono (by norm_num), ?_, erq⟩
  have hTQ : (0:ℚ) < 10 ^ k := zpow_pos (by norm_num) k
  have r5 : |x.val| / 10 ^ k ≤ 10 * (1 + 1 / 2 ^ 40) := by
    rw [div_le_iff₀ hTQ]; linarith
  have r6 : 0 ≤ |x.val| / 10 ^ k := by positivity
  have f2 := abs_le.mp erq
  unfold vmax
  rw [abs_le]
  generalize |x.val| / 10 ^ k = Y at *
  norm_num at *; constructor <;> linarith

/-- The digits the formatting code computes in its working range. -/
theorem qdigits_spec {x : Quad} (hx : x.Normalized) {k : ℤ} (h1 : -228 ≤ k) (h2 : (10:ℚ) ^ k ≤ |x.val| * (1 + 1 / 2 ^ 40))
    (h3 : |x.val| ≤ (10:ℚ) ^ (k + 1) * (1 + 1 / 2 ^ 40)) (h4 : |x.val| ≤ 2 ^ 159) :
    ∃ ds, extractDigits Quad.dispOps x.abs k = some ds ∧ k ≤ 48 ∧ ds.length = 62 ∧ Tame ds.length 1 ds ∧
      |x.val| * (1 - 1 / 2 ^ 120) ≤ decVal ds k ∧ decVal ds k ≤ |x.val| * (1 + 1 / 2 ^ 42) := by
  obtain ⟨p, p1, hk, qn, qb, qe⟩ := qstart_spec hx h1 h2 h3 h4
  obtain ⟨l1, t1, -, a1, a2⟩ := qloop_spec 63 _ qn qb
  have hx0 : ∃ X : ℚ, |x.val| = X ∧ 0 < X := by
    refine ⟨_, rfl, ?_⟩
    have hT : (0:ℚ) < 10 ^ k := zpow_pos (by norm_num) k
    by_contra hc
    have : |x.val| * (1 + 1 / 2 ^ 40) ≤ 0 := mul_nonpos_of_nonpos_of_nonneg (by linarith) (by norm_num)
    linarith
  obtain ⟨X, eX, hX⟩ := hx0
  rw [eX] at h2 h3 h4 qe ⊢
  have i1 : i32? (324 + k) = some (324 + k) := by unfold i32?; rw [if_pos (by omega)]
  have ext : extractDigits Quad.dispOps x.abs k = roundAndTrunc (extractLoop Quad.dispOps 63 (x.abs / p)) 62 := by
    unfold extractDigits
    rw [p1, Option.bind_some]
    dsimp only
    rw [i1, Option.bind_some]
    have : min (324 + k) ((Quad.dispOps.maxAccuracy : ℕ) : ℤ) = 62 := by
      change min (324 + k) 62 = 62; omega
    rw [this, if_neg (by norm_num)]
    rfl
  rw [ext]
  generalize extractLoop Quad.dispOps 63 (x.abs / p) = L at *
  rw [← l1] at t1
  obtain ⟨r, r1, r2, r3⟩ := round_tame t1 (by omega) (show 0 < 62 by omega) (by omega)
  refine ⟨r, r1, hk, r2, r3, ?_⟩
  obtain ⟨v1, v2⟩ := round_val r1 (by omega) l1 (t1.1 62 (by omega))
  have w1 : (10:ℚ) * digitsVal r ≤ digitsVal L + 5 := by exact_mod_cast v1
  have w2 : (digitsVal L : ℚ) ≤ 10 * digitsVal r + 5 := by exact_mod_cast v2
  have er : decVal r 0 = digitsVal r / 10 ^ 61 := by
    unfold decVal
    rw [r2, div_eq_mul_inv, show (0:ℤ) + 1 - ((62 : ℕ) : ℤ) = -(61 : ℕ) by norm_num, zpow_neg, zpow_natCast]
  have eL : decVal L 0 = digitsVal L / 10 ^ 62 := by
    unfold decVal
    rw [l1, div_eq_mul_inv, show (0:ℤ) + 1 - ((63 : ℕ) : ℤ) = -(62 : ℕ) by norm_num, zpow_neg, zpow_natCast]
  rw [eL] at a1 a2
  rw [decVal_shift, er]
  have hT : (0:ℚ) < 10 ^ k := zpow_pos (by norm_num) k
  generalize (10:ℚ) ^ k = T at *
  have eXT : X = X / T * T := by field_simp
  have hY : T ≤ X / T * T * (1 + 1 / 2 ^ 40) := by rw [← eXT]; exact h2
  have hY1 : 1 ≤ X / T * (1 + 1 / 2 ^ 40) := by
    have : 1 * T ≤ X / T * (1 + 1 / 2 ^ 40) * T := by linarith
    exact le_of_mul_le_mul_right this hT
  generalize (x.abs / p).val = q at *
  rw [eXT]
  generalize X / T = Y at *
  have hq : 0 < q := by
    have := abs_le.mp qe
    norm_num at *; linarith
  rw [max_eq_left hq.le] at a1 a2
  have qe' := abs_le.mp qe
  generalize (digitsVal r : ℚ) = R at *
  generalize (digitsVal L : ℚ) = S at *
  constructor
  · have : Y * (1 - 1 / 2 ^ 120) ≤ R / 10 ^ 61 := by norm_num at *; linarith
    have := mul_le_mul_of_nonneg_right this hT.le
    linarith
  · have : R / 10 ^ 61 ≤ Y * (1 + 1 / 2 ^ 42) := by norm_num at *; linarith
    have := mul_le_mul_of_nonneg_right this hT.le
    linarith

end Verif.Disp
