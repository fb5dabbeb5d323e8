import Verif.Proofs.TrigReduce

/-!
# Sine and cosine of a reduced argument, and their combination with the tables
-/

namespace Verif

open F64

/-- The square root of an approximation of a number near one. -/
theorem sqrt_ap (P : Platform) (hP : FloatText P.toStr) {d : Double} {x e : ℝ} (h : Ap d x e) (h1 : 9 / 10 ≤ x) (h2 : x ≤ 1)
    (he : e ≤ 1 / 2 ^ 90) : ∃ r, Double.sqrt P d = some r ∧ Ap r (Real.sqrt x) (64.01 / 2 ^ 106 + e * (6 / 10)) := by
  have hv := abs_le.mp h.2
  have he0 := h.nonneg
  have b1 : 0.89 ≤ rv d := by norm_num at hv he ⊢; linarith [hv.1]
  have b2 : rv d ≤ 1.00001 := by norm_num at hv he ⊢; linarith [hv.2]
  obtain ⟨r, r1, r2, r3⟩ := C67_sqrt P hP d h.1 (by
      have : (1:ℝ) ≤ rv d * 2 ^ 900 := by
        calc (1:ℝ) ≤ 0.89 * 2 := by norm_num
          _ ≤ rv d * 2 ^ 900 := mul_le_mul b1 (by
            calc (2:ℝ) = 2 ^ 1 := by norm_num
              _ ≤ 2 ^ 900 := pow_le_pow_right₀ (by norm_num) (by norm_num)) (by norm_num) (by linarith)
      unfold rv at this; exact_mod_cast this) (by
      have : rv d ≤ 2 ^ 1000 := by
        calc rv d ≤ 2 := by linarith
          _ = 2 ^ 1 := by norm_num
          _ ≤ 2 ^ 1000 := pow_le_pow_right₀ (by norm_num) (by norm_num)
      unfold rv at this; exact_mod_cast this)
  refine ⟨r, r1, r2, ?_⟩
  change |rv r - Real.sqrt (rv d)| ≤ Real.sqrt (rv d) / 2 ^ 100 at r3
  have s1 : Real.sqrt (rv d) ^ 2 = rv d := Real.sq_sqrt (by linarith)
  have s2 : Real.sqrt x ^ 2 = x := Real.sq_sqrt (by linarith)
  have p1 := Real.sqrt_nonneg (rv d)
  have p2 := Real.sqrt_nonneg x
  have l1 : 0.9 ≤ Real.sqrt (rv d) := by
    apply le_of_sq_le_sq _ p1; rw [s1]; norm_num; linarith
  have l2 : 0.9 ≤ Real.sqrt x := by
    apply le_of_sq_le_sq _ p2; rw [s2]; norm_num; linarith
  have l3 : Real.sqrt (rv d) ≤ 1.0001 := by
    apply le_of_sq_le_sq _ (by norm_num); rw [s1]; norm_num; linarith
  have hd := h.2
  generalize Real.sqrt (rv d) = y at *
  generalize Real.sqrt x = z at *
  rw [← s1, ← s2] at hd
  have hyz : |y - z| ≤ e * (6 / 10) := by
    have e1 : y ^ 2 - z ^ 2 = (y - z) * (y + z) := by ring
    rw [e1, abs_mul, abs_of_pos (show 0 < y + z by linarith)] at hd
    have : |y - z| * 1.8 ≤ e := le_trans (mul_le_mul_of_nonneg_left (by linarith) (abs_nonneg _)) hd
    norm_num at this ⊢; linarith
  have := abs_add_le (rv r - y) (y - z)
  rw [sub_add_sub_cancel] at this
  norm_num at this r3 hyz l3 ⊢
  linarith

theorem sincosTaylor_ap (P : Platform) (hP : FloatText P.toStr) {a : Double} (ha : a.Normalized) (hA : |rv a| ≤ 1 / 10) :
    ∃ s c, Double.sincosTaylor P a = some (s, c) ∧ Ap s (Real.sin (rv a)) (|rv a| * (78 / 2 ^ 106) + 30 * dl) ∧
      Ap c (Real.cos (rv a)) (71 / 2 ^ 106) := by
  have hd0 := dl_pos
  have hd1 : dl ≤ 1 / 2 ^ 240 := by unfold dl; norm_num
  obtain ⟨s, s1, s2⟩ := sinTaylor_ap ha hA
  unfold Double.sincosTaylor
  split_ifs with hz
  · have h0 := zero_rv ha hz
    unfold Double.sinTaylor at s1
    rw [if_pos hz] at s1
    refine ⟨_, _, rfl, ?_, ?_⟩
    · cases s1; exact s2
    · rw [h0, Real.cos_zero]
      exact ap_one.mono (by positivity)
  · rw [s1]
    have hs : |Real.sin (rv a)| ≤ 1 / 10 := Real.abs_sin_le_abs.trans hA
    have s3 := s2.mono (f := 7.81 / 2 ^ 106) (by norm_num at hA hd1 ⊢; linarith)
    have q := s3.sqr hs (by norm_num) (g := 1.8 / 2 ^ 106) (by norm_num)
    have e : (1:ℝ) - Real.sin (rv a) ^ 2 = Real.cos (rv a) ^ 2 := by have := Real.sin_sq_add_cos_sq (rv a); linarith
    have hs2 : Real.sin (rv a) ^ 2 ≤ 1 / 100 := by
      rw [← sq_abs]
      calc _ ≤ (1 / 10 : ℝ) ^ 2 := pow_le_pow_left₀ (abs_nonneg _) hs 2
        _ = _ := by norm_num
    have hs0 := sq_nonneg (Real.sin (rv a))
    have w := ap_one.sub q (M := 1) (g := 9.9 / 2 ^ 106) (by norm_num)
      (by rw [abs_of_nonneg hs0]; norm_num; linarith) (by rw [abs_le]; constructor <;> linarith) (by norm_num)
    obtain ⟨r, r1, r2⟩ := sqrt_ap P hP w (by linarith) (by linarith) (by norm_num)
    refine ⟨s, r, by simp only [Option.bind_some, r1, Option.map_some], s2, ?_⟩
    have hc : 0 ≤ Real.cos (rv a) := by
      apply Real.cos_nonneg_of_neg_pi_div_two_le_of_le <;> linarith [(abs_le.mp hA).1, (abs_le.mp hA).2, pi_bds.1]
    rw [e, Real.sqrt_sq hc] at r2
    exact r2.mono (by norm_num)

theorem tableUV_ap {K : ℤ} (h0 : K ≠ 0) (h4 : |K| ≤ 4) : ∃ u v, Double.tableUV K = some (u, v) ∧
    Ap u (Real.cos (|(K:ℝ)| * (Real.pi / 16))) (2 / 2 ^ 106) ∧ Ap v (Real.sin (|(K:ℝ)| * (Real.pi / 16))) (2 / 2 ^ 106) := by
  have hK : 1 ≤ |K| := Int.one_le_abs h0
  have hn : (|K|.toNat : ℤ) = |K| := Int.toNat_of_nonneg (abs_nonneg _)
  obtain ⟨i, hi⟩ : ∃ i : ℕ, |K|.toNat = i + 1 := ⟨|K|.toNat - 1, by omega⟩
  obtain ⟨s, c, e1, e2, n1, n2⟩ := C49_double_sines.2.2 i (by omega)
  have hc : (|K| : ℤ) = (i : ℤ) + 1 := by omega
  have hc' : |(K:ℝ)| = (i : ℝ) + 1 := by
    have : ((|K| : ℤ) : ℝ) = (((i : ℤ) + 1 : ℤ) : ℝ) := by rw [hc]
    push_cast at this
    exact this
  have nrm : ∀ {l : List Double} (d : Double), (∀ x ∈ l, x.Normalized) → l[i]? = some d → d.Normalized :=
    fun d hl he => hl d (List.mem_of_getElem? he)
  have ap : ∀ {d : Double} {x : ℝ}, d.Normalized → |x| ≤ 1 → Near d.val x 105 → Ap d x (2 / 2 ^ 106) := by
    intro d x hd hx hn
    refine ⟨hd, ?_⟩
    unfold Near at hn
    have : |rv d - x| ≤ 1 / 2 ^ 105 := by
      rw [le_div_iff₀ (by positivity)]; exact hn.trans hx
    exact this.trans (by norm_num)
  refine ⟨c, s, ?_, ?_, ?_⟩
  · unfold Double.tableUV i32?
    rw [if_pos (by norm_num; omega)]
    simp only [Option.bind_some, hi, Nat.add_sub_cancel, e1, e2, Option.map_some]
  · rw [hc']
    exact ap (nrm c (by decide +kernel) e2) (Real.abs_cos_le_one _) n2
  · rw [hc']
    exact ap (nrm s (by decide +kernel) e1) (Real.abs_sin_le_one _) n1

/-- The four products of table values and the sine and cosine of the remainder. -/
structure Prods (u v s c : Double) (U V S C : ℝ) : Prop where
  us : Ap (u * s) (U * S) (9.3 / 2 ^ 106)
  vs : Ap (v * s) (V * S) (9.3 / 2 ^ 106)
  uc : Ap (u * c) (U * C) (82.1 / 2 ^ 106)
  vc : Ap (v * c) (V * C) (82.1 / 2 ^ 106)

theorem prods_ap {u v s c : Double} {U V S C : ℝ} (hu : Ap u U (2 / 2 ^ 106)) (hv : Ap v V (2 / 2 ^ 106))
    (hs : Ap s S (7.82 / 2 ^ 106)) (hc : Ap c C (71 / 2 ^ 106)) (bU : |U| ≤ 1) (bV : |V| ≤ 1) (bS : |S| ≤ 1 / 10)
    (bC : |C| ≤ 1) : Prods u v s c U V S C where
  us := hu.mul hs bU bS (by norm_num) (by norm_num) (by norm_num)
  vs := hv.mul hs bV bS (by norm_num) (by norm_num) (by norm_num)
  uc := hu.mul hc bU bC (by norm_num) (by norm_num) (by norm_num)
  vc := hv.mul hc bV bC (by norm_num) (by norm_num) (by norm_num)

theorem comb_add {a b : Double} {x y z e f : ℝ} (ha : Ap a x e) (hb : Ap b y f) (hef : e + f ≤ 91.4 / 2 ^ 106)
    (hz : x + y = z) (h : |z| ≤ 1) (hx : |x| ≤ 1) (hy : |y| ≤ 1) : Ap (a + b) z (99.5 / 2 ^ 106) := by
  have he := ha.nonneg
  have hf := hb.nonneg
  subst hz
  refine ha.add hb ?_ ?_ h ?_ <;> norm_num at hef ⊢ <;> linarith

theorem comb_sub {a b : Double} {x y z e f : ℝ} (ha : Ap a x e) (hb : Ap b y f) (hef : e + f ≤ 91.4 / 2 ^ 106)
    (hz : x - y = z) (h : |z| ≤ 1) (hx : |x| ≤ 1) (hy : |y| ≤ 1) : Ap (a - b) z (99.5 / 2 ^ 106) := by
  have he := ha.nonneg
  have hf := hb.nonneg
  subst hz
  refine ha.sub hb ?_ ?_ h ?_ <;> norm_num at hef ⊢ <;> linarith

/-- The sine in quadrant `j`. -/
noncomputable def sinQ (j : ℤ) (X : ℝ) : ℝ :=
  if j = 0 then Real.sin X else if j = 1 then Real.cos X else if j = -1 then -Real.cos X else -Real.sin X

/-- The cosine in quadrant `j`. -/
noncomputable def cosQ (j : ℤ) (X : ℝ) : ℝ :=
  if j = 0 then Real.cos X else if j = 1 then -Real.sin X else if j = -1 then Real.sin X else -Real.cos X

theorem sin_quad (X : ℝ) (Z Q : ℤ) (hQ : |Q| ≤ 2 ∨ Q = 6) :
    Real.sin (X + Q * (Real.pi / 2) + Z * (2 * Real.pi)) = sinQ Q X ∧
    Real.cos (X + Q * (Real.pi / 2) + Z * (2 * Real.pi)) = cosQ Q X := by
  rw [Real.sin_add_int_mul_two_pi, Real.cos_add_int_mul_two_pi]
  have hcase : Q = 0 ∨ Q = 1 ∨ Q = -1 ∨ Q = 2 ∨ Q = -2 ∨ Q = 6 := by
    rcases hQ with h | h
    · rw [abs_le] at h; omega
    · simp [h]
  unfold sinQ cosQ
  rcases hcase with h | h | h | h | h | h <;> subst h
  · simp
  · norm_num [Real.sin_add_pi_div_two, Real.cos_add_pi_div_two]
  · have : X + ((-1 : ℤ) : ℝ) * (Real.pi / 2) = X - Real.pi / 2 := by push_cast; ring
    rw [this]
    norm_num [Real.sin_sub_pi_div_two, Real.cos_sub_pi_div_two]
  · have : X + ((2 : ℤ) : ℝ) * (Real.pi / 2) = X + Real.pi := by push_cast; ring
    rw [this]
    norm_num [Real.sin_add_pi, Real.cos_add_pi]
  · have : X + ((-2 : ℤ) : ℝ) * (Real.pi / 2) = X - Real.pi := by push_cast; ring
    rw [this]
    norm_num [Real.sin_sub_pi, Real.cos_sub_pi]
  · have : X + ((6 : ℤ) : ℝ) * (Real.pi / 2) = X + Real.pi + (1:ℤ) * (2 * Real.pi) := by push_cast; ring
    rw [this, Real.sin_add_int_mul_two_pi, Real.cos_add_int_mul_two_pi]
    norm_num [Real.sin_add_pi, Real.cos_add_pi]

theorem sinQ_lip (j : ℤ) (X Y : ℝ) : |sinQ j X - sinQ j Y| ≤ |X - Y| ∧ |cosQ j X - cosQ j Y| ≤ |X - Y| := by
  have s : |Real.sin X - Real.sin Y| ≤ |X - Y| := Real.abs_sin_sub_sin_le X Y
  have c : |Real.cos X - Real.cos Y| ≤ |X - Y| := Real.abs_cos_sub_cos_le X Y
  have s' : |-Real.sin X - -Real.sin Y| ≤ |X - Y| := by rw [← neg_sub', abs_neg]; exact s
  have c' : |-Real.cos X - -Real.cos Y| ≤ |X - Y| := by rw [← neg_sub', abs_neg]; exact c
  unfold sinQ cosQ
  split_ifs <;> exact ⟨by assumption, by assumption⟩

end Verif
