import Verif.Proofs.QuadInts
import Verif.Props.Whole

/-!
# Rounding of Quads to integers
-/

namespace Verif

open F64 Prim Util

/-- Half a unit in the last place: if `h` is what `h + l` rounds to and `h` is a multiple of a small power of two only,
`l` is small. -/
theorem Norm2.lo_le_expo {h l : ℤ} (hn : Norm2 h l) : 2 * |l| ≤ 2 ^ expo (h : ℚ) := by
  have e1 : rs h l = h := hn.rnd_eq
  have e2 : re h l = l := by unfold re; rw [e1]; ring
  have := re_lt_of_rs (a := h) (b := l) (k := expo (h:ℚ)) (by rw [e1]; exact expo_int_lt h)
  rwa [e2] at this

/-- The rounding functions treated here. -/
structure Whole (F : F64 → F64) (g : ℤ → ℤ) : Prop where
  isF : ∀ {x : F64} {n : ℤ}, Is x n → Is (F x) (g n * one')
  dvd : ∀ n, one' ∣ n → g n * one' = n
  near : ∀ n, |g n * one' - n| < one'
  add : ∀ w n, g (w * one' + n) = w + g n
  keep : ∀ (n t : ℤ) (k : ℕ), (2:ℤ) ^ k ∣ n → ¬ one' ∣ n → |t| < 2 ^ k → g (n + t) = g n

theorem fl_keep (n t : ℤ) (k : ℕ) (hk : (2:ℤ) ^ k ∣ n) (hd : ¬ one' ∣ n) (ht : |t| < 2 ^ k) : fl (n + t) = fl n := by
  have hk1 : k < 1074 := by
    by_contra hc
    exact hd (dvd_trans (by unfold one'; exact pow_dvd_pow 2 (not_lt.mp hc)) hk)
  have ho : (2:ℤ) ^ k ∣ one' := by unfold one'; exact pow_dvd_pow 2 hk1.le
  have h1 := fl_le n
  have h2 := lt_fl n
  have d1 : (2:ℤ) ^ k ∣ n - fl n * one' := dvd_sub hk (ho.mul_left _)
  have d2 : (2:ℤ) ^ k ∣ fl n * one' + one' - n := dvd_sub (dvd_add (ho.mul_left _) ho) hk
  have hne : n - fl n * one' ≠ 0 := fun e => hd ⟨fl n, by linarith⟩
  have l1 := Int.le_of_dvd (by omega) d1
  have l2 := Int.le_of_dvd (by omega) d2
  rw [abs_lt] at ht
  exact fl_unique (by linarith) (by linarith)

theorem whole_floor : Whole F64.floor fl where
  isF := is_floor
  dvd := fun _ => fl_of_dvd
  near := fun n => by
    have h1 := fl_le n; have h2 := lt_fl n
    rw [abs_lt]; constructor <;> linarith [one'_pos]
  add := fl_add_mul
  keep := fl_keep

theorem whole_ceil : Whole F64.ceil ce where
  isF := is_ceil
  dvd := fun n hn => by
    unfold ce
    have := fl_of_dvd ((dvd_neg).mpr hn)
    linarith
  near := fun n => by
    unfold ce
    have h1 := fl_le (-n); have h2 := lt_fl (-n)
    rw [abs_lt]; constructor <;> linarith [one'_pos]
  add := fun w n => by
    unfold ce
    have : -(w * one' + n) = -w * one' + -n := by ring
    rw [this, fl_add_mul]; ring
  keep := fun n t k h1 h2 h3 => by
    unfold ce
    have : -(n + t) = -n + -t := by ring
    rw [this, fl_keep (-n) (-t) k (by rwa [dvd_neg]) (by rwa [dvd_neg]) (by rwa [abs_neg])]

/-- A whole number not exceeded by `n` is not exceeded by the rounded `n`. -/
theorem Whole.bound {F : F64 → F64} {g : ℤ → ℤ} (W : Whole F g) {n c : ℤ} (hc : one' ∣ c) (h : |n| ≤ |c|) :
    |g n * one'| ≤ |c| := by
  have h1 := W.near n
  have hp := one'_pos
  have h2 : |g n * one'| < |c| + one' := by
    have := abs_sub_abs_le_abs_sub (g n * one') n
    linarith
  obtain ⟨d, rfl⟩ := hc
  rw [abs_mul, abs_mul, abs_of_pos hp] at *
  have : |g n| * one' < (|d| + 1) * one' := by linarith
  have := lt_of_mul_lt_mul_right this hp.le
  have : |g n| ≤ |d| := by omega
  calc |g n| * one' ≤ |d| * one' := mul_le_mul_of_nonneg_right this hp.le
    _ = one' * |d| := by ring

theorem Whole.sum {F : F64 → F64} {g : ℤ → ℤ} (W : Whole F g) {h n : ℤ} (hh : one' ∣ h) :
    g (h + n) * one' = h + g n * one' := by
  obtain ⟨w, rfl⟩ := hh
  rw [mul_comm one' w, W.add]; ring

/-- The tail after a component that is not whole does not matter. -/
theorem Whole.tail {F : F64 → F64} {g : ℤ → ℤ} (W : Whole F g) {h l t : ℤ} (hn : Norm2 h l) (hd : ¬ one' ∣ h)
    (ht : 2 ^ 52 * |t| ≤ |l|) : g (h + l + t) = g h := by
  have h1 := hn.lo_le_expo
  have h2 := hn.rep_hi.dvd
  have h3 := abs_add_le l t
  have h4 := abs_nonneg t
  have h5 := abs_nonneg l
  have hk : (0:ℤ) < 2 ^ expo (h:ℚ) := by positivity
  rw [add_assoc]
  refine W.keep h (l + t) _ h2 hd ?_
  generalize (2:ℤ) ^ expo (h:ℚ) = K at *
  omega

/-! ### Exactness of the final renormalization -/

theorem rn4ok_1 {a b c d : ℤ} (ra : Rep a) (rb : Rep b) (rc : Rep c) (rd : Rep d) (h1 : |d| ≤ |c|) (h2 : 2 * |c| ≤ |b|)
    (h3 : 2 * |b| ≤ |a|) : Rn4Ok a b c d := by
  have r1 := abs_rs_le_two rc (b := d) h1
  have r2 := abs_rs_le_two rb (b := rs c d) (by omega)
  have n1 := abs_nonneg b
  have n2 := abs_nonneg c
  refine ⟨ra, rb, rc, rd, .of_abs_le rc rd ?_, .of_abs_le rb (rep_rs _ _) ?_, .of_abs_le ra (rep_rs _ _) ?_,
    .of_abs_le ra (rep_rs _ _) ?_⟩ <;> omega

theorem rs_zero_right {x : ℤ} (h : Rep x) : rs x 0 = x := by rw [rs_of_rep (by simpa using h), add_zero]

theorem rn4ok_2 {a b c : ℤ} (ra : Rep a) (rb : Rep b) (rc : Rep c) (h1 : |c| ≤ |b|) (h2 : 2 * |b| ≤ |a|) :
    Rn4Ok a b c 0 := by
  have e := rs_zero_right rc
  have r2 := abs_rs_le_two rb (b := c) h1
  have n1 := abs_nonneg b
  have n2 := abs_nonneg c
  refine ⟨ra, rb, rc, Rep.zero, .of_abs_le rc Rep.zero (by simp), ?_, ?_, ?_⟩ <;> rw [e]
  · exact .of_abs_le rb rc h1
  · exact .of_abs_le ra (rep_rs _ _) (by omega)
  · exact .of_abs_le ra rc (by omega)

theorem rn4ok_3 {a b : ℤ} (ra : Rep a) (rb : Rep b) (h1 : |b| ≤ |a|) : Rn4Ok a b 0 0 := by
  have e := rs_zero_right Rep.zero
  have e2 := rs_zero_right rb
  refine ⟨ra, rb, Rep.zero, Rep.zero, .of_abs_le Rep.zero Rep.zero (by simp), ?_, ?_, ?_⟩ <;> rw [e]
  · exact .of_abs_le rb Rep.zero (by simp)
  · rw [e2]; exact .of_abs_le ra rb h1
  · exact .of_abs_le ra Rep.zero (by simp)

/-- Common shape of `floor` and `ceil`. -/
def sepQuad (F : F64 → F64) (q : Quad) : Quad :=
  let a := F q.c0
  if Quad.close a q.c0 then
    let b := F q.c1
    if Quad.close b q.c1 then
      let c := F q.c2
      if Quad.close c q.c2 then Quad.ofRenorm4 a b c (F q.c3) else Quad.ofRenorm4 a b c F64.zero
    else Quad.ofRenorm4 a b F64.zero F64.zero
  else ⟨a, F64.zero, F64.zero, F64.zero⟩

theorem floor_sepQuad : Quad.floor = sepQuad F64.floor := rfl
theorem ceil_sepQuad : Quad.ceil = sepQuad F64.ceil := rfl

theorem Norm2.two_le {h l : ℤ} (n : Norm2 h l) : 2 * |l| ≤ |h| := by
  have := n.lo_le
  have := abs_nonneg l
  omega

theorem sepQuad_spec {F : F64 → F64} {g : ℤ → ℤ} (W : Whole F g) {q : Quad} {z0 z1 z2 z3 : ℤ}
    (iq : QIs q (z0, z1, z2, z3)) (hn : Norm4 (z0, z1, z2, z3)) (hmax : |z0| ≤ 2 ^ 1000 * one')
    (hs : 2 ^ 1022 ≤ |g z0 * one' - z0| ∨ (one' ∣ z0 ∧ (2 ^ 1022 ≤ |g z1 * one' - z1| ∨ (one' ∣ z1 ∧
      (2 ^ 1022 ≤ |g z2 * one' - z2| ∨ one' ∣ z2))))) :
    ∃ z, QIs (sepQuad F q) z ∧ Ord4 z ∧ sum4 z = g (z0 + z1 + z2 + z3) * one' := by
  obtain ⟨n01, n12, n23⟩ := hn
  simp only at n01 n12 n23
  obtain ⟨i0, i1, i2, i3⟩ := iq
  simp only at i0 i1 i2 i3
  have hp := one'_pos
  have t01 := n01.two_le
  have t12 := n12.two_le
  have t23 := n23.two_le
  have l12 := n12.lo_le
  have l23 := n23.lo_le
  have p1 := abs_nonneg z1
  have p2 := abs_nonneg z2
  have p3 := abs_nonneg z3
  have s23 := abs_add_le z2 z3
  have F0 := W.isF i0
  have F1 := W.isF i1
  have F2 := W.isF i2
  have F3 := W.isF i3
  have nd : ∀ n, 2 ^ 1022 ≤ |g n * one' - n| → ¬ one' ∣ n := fun n h hd => by
    rw [W.dvd n hd, sub_self, abs_zero] at h
    exact absurd h (not_le.mpr (by positivity))
  have hq : 2 ^ 13 * (2 ^ 1000 * one') ≤ lim := by
    unfold one'; rw [← pow_add, ← pow_add]; exact pow_le_lim (by norm_num)
  generalize (2:ℤ) ^ 1000 * one' = M at *
  have cl : ∀ (x : F64) (n : ℤ), Is x n → (one' ∣ n → Quad.close (F x) x = true) ∧
      (2 ^ 1022 ≤ |g n * one' - n| → Quad.close (F x) x = false) := fun x n hx => by
    have := eps_cond hx (W.isF hx) (W.near n).le
    refine ⟨fun h => this.2 (W.dvd n h), fun h => ?_⟩
    by_contra hc
    rw [Bool.not_eq_false] at hc
    exact absurd (this.1 hc) (not_lt.mpr h)
  unfold sepQuad
  rcases hs with h0 | ⟨d0, hs⟩
  · -- first component not whole
    simp only [(cl _ _ i0).2 h0, Bool.false_eq_true, if_false]
    refine ⟨(g z0 * one', 0, 0, 0), ⟨F0, is_zero, is_zero, is_zero⟩, ?_, ?_⟩
    · unfold Ord4; dsimp only; rw [abs_zero]
      exact ⟨by rw [mul_zero]; exact abs_nonneg _, by simp, by simp⟩
    · have := W.tail (t := z2 + z3) n01 (nd _ h0) (by omega)
      rw [show z0 + z1 + z2 + z3 = z0 + z1 + (z2 + z3) by ring, this]
      unfold sum4; ring
  · rw [W.dvd _ d0] at F0
    have b1 := W.bound d0 (n := z1) (by omega)
    have e0 : g (z0 + z1 + z2 + z3) * one' = z0 + g (z1 + z2 + z3) * one' := by
      rw [show z0 + z1 + z2 + z3 = z0 + (z1 + z2 + z3) by ring, W.sum d0]
    simp only [(cl _ _ i0).1 d0, if_true]
    rcases hs with h1 | ⟨d1, hs⟩
    · simp only [(cl _ _ i1).2 h1, Bool.false_eq_true, if_false]
      have ok := rn4ok_3 i0.rep F1.rep b1
      refine ⟨_, qis_of_renorm4 (is_renorm4 F0 F1 is_zero is_zero ok ?_), rn4_ord ok, ?_⟩
      · rw [abs_zero]; omega
      · rw [rn4_sum, e0, W.tail (t := z3) n12 (nd _ h1) (by omega)]; ring
    · rw [W.dvd _ d1] at F1
      have b2 := W.bound d1 (n := z2) (by omega)
      have e1 : g (z1 + z2 + z3) * one' = z1 + g (z2 + z3) * one' := by
        rw [show z1 + z2 + z3 = z1 + (z2 + z3) by ring, W.sum d1]
      simp only [(cl _ _ i1).1 d1, if_true]
      rcases hs with h2 | d2
      · simp only [(cl _ _ i2).2 h2, Bool.false_eq_true, if_false]
        have ok := rn4ok_2 i0.rep i1.rep F2.rep b2 t01
        refine ⟨_, qis_of_renorm4 (is_renorm4 F0 F1 F2 is_zero ok ?_), rn4_ord ok, ?_⟩
        · rw [abs_zero]; omega
        · have := W.tail (t := 0) n23 (nd _ h2) (by simp)
          rw [add_zero] at this
          rw [rn4_sum, e0, e1, this]; ring
      · rw [W.dvd _ d2] at F2
        have b3 := W.bound d2 (n := z3) (by omega)
        simp only [(cl _ _ i2).1 d2, if_true]
        have ok := rn4ok_1 i0.rep i1.rep i2.rep F3.rep b3 t12 t01
        refine ⟨_, qis_of_renorm4 (is_renorm4 F0 F1 F2 F3 ok ?_), rn4_ord ok, ?_⟩
        · omega
        · rw [rn4_sum, e0, e1, W.sum d2]; ring

/-! ### Round -/

theorem ro_keep (n t : ℤ) (k : ℕ) (hk : (2:ℤ) ^ k ∣ n) (hh : 2 * |n - ro n * one'| < one') (hd : ¬ one' ∣ n)
    (ht : |t| < 2 ^ k) (hk2 : ¬ one' ∣ 2 * n) : ro (n + t) = ro n := by
  have hk1 : k < 1073 := by
    by_contra hc
    refine hk2 ?_
    obtain ⟨c, rfl⟩ := dvd_trans (pow_dvd_pow 2 (not_lt.mp hc)) hk
    exact ⟨c, by rw [one'_hf]; unfold hf; ring⟩
  have hf1 : (2:ℤ) ^ k ∣ hf := by unfold hf; exact pow_dvd_pow 2 hk1.le
  have ho : (2:ℤ) ^ k ∣ one' := by rw [one'_hf]; exact hf1.mul_left _
  have e := one'_hf
  have d1 : (2:ℤ) ^ k ∣ hf - |n - ro n * one'| := dvd_sub hf1 ((dvd_abs _ _).mpr (dvd_sub hk (ho.mul_left _)))
  have l1 := Int.le_of_dvd (by omega) d1
  apply ro_of_lt
  have := abs_add_le (n - ro n * one') t
  rw [show n - ro n * one' + t = n + t - ro n * one' by ring] at this
  omega

theorem ro_add_of {w n : ℤ} (h : 2 * |n - ro n * one'| < one') : ro (w * one' + n) = w + ro n := by
  apply ro_of_lt
  rw [show w * one' + n - (w + ro n) * one' = n - ro n * one' by ring]
  exact h

theorem ro_dvd {n : ℤ} (h : one' ∣ n) : ro n * one' = n := by
  obtain ⟨c, rfl⟩ := h; rw [mul_comm one' c, ro_mul]

theorem ro_bound {n c : ℤ} (hc : one' ∣ c) (h : |n| ≤ |c|) : |ro n * one'| ≤ |c| := by
  have h1 := ro_bounds n
  rw [abs_sub_comm] at h1
  have hp := one'_pos
  have h2 : |ro n * one'| < |c| + one' := by
    have := abs_sub_abs_le_abs_sub (ro n * one') n
    linarith [abs_nonneg (ro n * one' - n)]
  obtain ⟨d, rfl⟩ := hc
  rw [abs_mul, abs_mul, abs_of_pos hp] at *
  have : |ro n| * one' < (|d| + 1) * one' := by linarith
  have := lt_of_mul_lt_mul_right this hp.le
  have : |ro n| ≤ |d| := by omega
  calc |ro n| * one' ≤ |d| * one' := mul_le_mul_of_nonneg_right this hp.le
    _ = one' * |d| := by ring

/-- Clearly between integers: neither near an integer nor near a half. -/
structure Clear (n : ℤ) : Prop where
  lo : 2 ^ 1022 ≤ |ro n * one' - n|
  hi : |ro n * one' - n| + 2 ^ 1022 ≤ hf

theorem Clear.strict {n : ℤ} (h : Clear n) : 2 * |n - ro n * one'| < one' := by
  have := h.hi
  rw [abs_sub_comm]
  have e := one'_hf
  have hp : (0:ℤ) < 2 ^ 1022 := by positivity
  generalize (2:ℤ) ^ 1022 = X at *
  omega

theorem Clear.not_dvd {n : ℤ} (h : Clear n) : ¬ one' ∣ n := fun hd => by
  have h := h.lo
  rw [ro_dvd hd, sub_self, abs_zero] at h
  exact absurd h (not_le.mpr (by positivity))

theorem Clear.not_half {n : ℤ} (h : Clear n) : ¬ one' ∣ 2 * n := by
  rintro ⟨c, hc⟩
  have hp := hf_pos
  have e := one'_hf
  have hX : (0:ℤ) < 2 ^ 1022 := by positivity
  have h1 := h.lo
  have h2 := h.hi
  have e1 : ro n * one' - n = (2 * ro n - c) * hf := by rw [e] at hc ⊢; linarith
  rw [e1, abs_mul, abs_of_pos hp] at h1 h2
  generalize (2:ℤ) ^ 1022 = X at *
  have h3 : |2 * ro n - c| * hf < 1 * hf := by linarith
  have h4 := lt_of_mul_lt_mul_right h3 hp.le
  have h5 : |2 * ro n - c| = 0 := by have := abs_nonneg (2 * ro n - c); omega
  rw [h5] at h1
  omega

theorem Clear.tail {h l t : ℤ} (c : Clear h) (hn : Norm2 h l) (ht : 2 ^ 52 * |t| ≤ |l|) : ro (h + l + t) = ro h := by
  have h1 := hn.lo_le_expo
  have h2 := hn.rep_hi.dvd
  have h3 := abs_add_le l t
  have h4 := abs_nonneg t
  have h5 := abs_nonneg l
  have hk : (0:ℤ) < 2 ^ expo (h:ℚ) := by positivity
  rw [add_assoc]
  refine ro_keep h (l + t) _ h2 c.strict c.not_dvd ?_ c.not_half
  generalize (2:ℤ) ^ expo (h:ℚ) = K at *
  omega

theorem Clear.tests {x : F64} {n : ℤ} (c : Clear n) (hx : Is x n) :
    Quad.close x.round x = false ∧ Quad.halfway x.round x = false := by
  have hr := is_round hx
  have hb := ro_bounds n
  have hro : |ro n * one' - n| ≤ one' := by rw [abs_sub_comm]; linarith [abs_nonneg (n - ro n * one')]
  constructor
  · by_contra hc
    rw [Bool.not_eq_false] at hc
    exact absurd ((eps_cond hx hr hro).1 hc) (not_lt.mpr c.lo)
  · by_contra hc
    rw [Bool.not_eq_false] at hc
    have := (half_cond hx hr hb c.not_dvd).1 hc
    have h2 := c.hi
    rw [abs_lt] at this
    generalize (2:ℤ) ^ 1022 = X at *
    omega

theorem close_round {x : F64} {n : ℤ} (hx : Is x n) (h : one' ∣ n) : Quad.close x.round x = true := by
  have hro : |ro n * one' - n| ≤ one' := by rw [ro_dvd h, sub_self, abs_zero]; exact one'_pos.le
  exact (eps_cond hx (is_round hx) hro).2 (ro_dvd h)

theorem round_quad_spec {q : Quad} {z0 z1 z2 z3 : ℤ} (iq : QIs q (z0, z1, z2, z3)) (hn : Norm4 (z0, z1, z2, z3))
    (hmax : |z0| ≤ 2 ^ 1000 * one')
    (hs : Clear z0 ∨ (one' ∣ z0 ∧ (Clear z1 ∨ (one' ∣ z1 ∧
      (Clear z2 ∨ (one' ∣ z2 ∧ 2 * |z3 - ro z3 * one'| < one')))))) :
    ∃ z, QIs q.round z ∧ sum4 z = ro (z0 + z1 + z2 + z3) * one' := by
  obtain ⟨n01, n12, n23⟩ := hn
  simp only at n01 n12 n23
  obtain ⟨i0, i1, i2, i3⟩ := iq
  simp only at i0 i1 i2 i3
  have hp := one'_pos
  have t01 := n01.two_le
  have t12 := n12.two_le
  have t23 := n23.two_le
  have l12 := n12.lo_le
  have l23 := n23.lo_le
  have p1 := abs_nonneg z1
  have p2 := abs_nonneg z2
  have p3 := abs_nonneg z3
  have s23 := abs_add_le z2 z3
  have F0 := is_round i0
  have F1 := is_round i1
  have F2 := is_round i2
  have F3 := is_round i3
  have hq : 2 ^ 13 * (2 ^ 1000 * one') ≤ lim := by
    unfold one'; rw [← pow_add, ← pow_add]; exact pow_le_lim (by norm_num)
  generalize (2:ℤ) ^ 1000 * one' = M at *
  unfold Quad.round
  rcases hs with h0 | ⟨d0, hs⟩
  · simp only [(h0.tests i0).1, (h0.tests i0).2, Bool.false_eq_true, if_false, Bool.false_and]
    refine ⟨(ro z0 * one', 0, 0, 0), ⟨F0, is_zero, is_zero, is_zero⟩, ?_⟩
    rw [show z0 + z1 + z2 + z3 = z0 + z1 + (z2 + z3) by ring, h0.tail n01 (by omega)]
    unfold sum4; ring
  · simp only [close_round i0 d0, if_true]
    rw [ro_dvd d0] at F0
    obtain ⟨w0, hw0⟩ := id d0
    rcases hs with h1 | ⟨d1, hs⟩
    · simp only [(h1.tests i1).1, (h1.tests i1).2, Bool.false_eq_true, if_false, Bool.false_and]
      refine ⟨(z0, ro z1 * one', 0, 0), ⟨F0, F1, is_zero, is_zero⟩, ?_⟩
      have e' := h1.strict
      rw [show z0 + z1 + z2 + z3 = w0 * one' + z1 + (z2 + z3) by rw [hw0]; ring]
      have k1 : ro (w0 * one' + z1 + (z2 + z3)) = w0 + ro z1 := by
        have hk := ro_keep (w0 * one' + z1) (z2 + z3) (expo (z1:ℚ))
        have hexp : (2:ℤ) ^ expo (z1:ℚ) ∣ one' := by
          have h2 := n12.rep_hi.dvd
          by_contra hc
          have : 1074 ≤ expo (z1:ℚ) := by
            by_contra hcc
            exact hc (by unfold one'; exact pow_dvd_pow 2 (by omega))
          exact h1.not_dvd (dvd_trans (by unfold one'; exact pow_dvd_pow 2 this) h2)
        have e0 : ro (w0 * one' + z1) = w0 + ro z1 := ro_add_of e'
        have hl := n12.lo_le_expo
        rw [hk (dvd_add (hexp.mul_left _) n12.rep_hi.dvd) ?_ ?_ ?_ ?_, e0]
        · rw [e0, show w0 * one' + z1 - (w0 + ro z1) * one' = z1 - ro z1 * one' by ring]; exact e'
        · intro hc
          exact h1.not_dvd ((Int.dvd_add_right ⟨w0, mul_comm _ _⟩).mp hc)
        · have hk' : (0:ℤ) < 2 ^ expo (z1:ℚ) := by positivity
          clear hk hexp
          generalize (2:ℤ) ^ expo (z1:ℚ) = K at *
          omega
        · intro hc
          rw [mul_add] at hc
          exact h1.not_half ((Int.dvd_add_right ⟨2 * w0, by ring⟩).mp hc)
      rw [k1]
      unfold sum4; simp only; rw [hw0]; ring
    · simp only [close_round i1 d1, if_true]
      rw [ro_dvd d1] at F1
      obtain ⟨w1, hw1⟩ := id d1
      rcases hs with h2 | ⟨d2, h3⟩
      · simp only [(h2.tests i2).1, (h2.tests i2).2, Bool.false_eq_true, if_false, Bool.false_and]
        refine ⟨(z0, z1, ro z2 * one', 0), ⟨F0, F1, F2, is_zero⟩, ?_⟩
        rw [show z0 + z1 + z2 + z3 = (w0 + w1) * one' + z2 + z3 by rw [hw0, hw1]; ring]
        have e' := h2.strict
        have k1 : ro ((w0 + w1) * one' + z2 + z3) = w0 + w1 + ro z2 := by
          have hk := ro_keep ((w0 + w1) * one' + z2) z3 (expo (z2:ℚ))
          have hexp : (2:ℤ) ^ expo (z2:ℚ) ∣ one' := by
            have h2' := n23.rep_hi.dvd
            by_contra hc
            have : 1074 ≤ expo (z2:ℚ) := by
              by_contra hcc
              exact hc (by unfold one'; exact pow_dvd_pow 2 (by omega))
            exact h2.not_dvd (dvd_trans (by unfold one'; exact pow_dvd_pow 2 this) h2')
          have e0 : ro ((w0 + w1) * one' + z2) = w0 + w1 + ro z2 := ro_add_of e'
          have hl := n23.lo_le_expo
          rw [hk (dvd_add (hexp.mul_left _) n23.rep_hi.dvd) ?_ ?_ ?_ ?_, e0]
          · rw [e0, show (w0 + w1) * one' + z2 - (w0 + w1 + ro z2) * one' = z2 - ro z2 * one' by ring]; exact e'
          · intro hc
            exact h2.not_dvd ((Int.dvd_add_right ⟨w0 + w1, mul_comm _ _⟩).mp hc)
          · have hk' : (0:ℤ) < 2 ^ expo (z2:ℚ) := by positivity
            clear hk hexp
            generalize (2:ℤ) ^ expo (z2:ℚ) = K at *
            omega
          · intro hc
            rw [mul_add] at hc
            exact h2.not_half ((Int.dvd_add_right ⟨2 * (w0 + w1), by ring⟩).mp hc)
        rw [k1]
        unfold sum4; simp only; rw [hw0, hw1]; ring
      · simp only [close_round i2 d2, if_true]
        rw [ro_dvd d2] at F2
        have b3 := ro_bound d2 (n := z3) (by omega)
        have ok := rn4ok_1 i0.rep i1.rep i2.rep F3.rep b3 t12 t01
        obtain ⟨w2, hw2⟩ := id d2
        refine ⟨_, qis_of_renorm4 (is_renorm4 F0 F1 F2 F3 ok (by omega)), ?_⟩
        rw [rn4_sum, show z0 + z1 + z2 + z3 = (w0 + w1 + w2) * one' + z3 by rw [hw0, hw1, hw2]; ring, ro_add_of h3,
          hw0, hw1, hw2]
        ring

end Verif
