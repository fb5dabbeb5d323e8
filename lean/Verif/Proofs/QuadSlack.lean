import Verif.Proofs.QuadAddLoop

/-!
# The merge order of `Quad` addition for operands that are ordered up to a small slack

A computed Quad is known to be ordered only up to an absolute slack: every component is at most `r` times the one before it
plus `η`.
-/

namespace Verif

open F64 Prim Util Quad

/-- Finite components, each at most `r` times the one before it plus `η`. -/
structure QS (q : Quad) (r η : ℚ) : Prop where
  f0 : q.c0.isFinite = true
  f1 : q.c1.isFinite = true
  f2 : q.c2.isFinite = true
  f3 : q.c3.isFinite = true
  d1 : |U q.c1| ≤ r * |U q.c0| + η
  d2 : |U q.c2| ≤ r * |U q.c1| + η
  d3 : |U q.c3| ≤ r * |U q.c2| + η

theorem QS.mono {q : Quad} {r η r' η' : ℚ} (h : QS q r η) (hr : r ≤ r') (hη : η ≤ η') : QS q r' η' :=
  ⟨h.f0, h.f1, h.f2, h.f3, h.d1.trans (add_le_add (mul_le_mul_of_nonneg_right hr (abs_nonneg _)) hη),
    h.d2.trans (add_le_add (mul_le_mul_of_nonneg_right hr (abs_nonneg _)) hη),
    h.d3.trans (add_le_add (mul_le_mul_of_nonneg_right hr (abs_nonneg _)) hη)⟩

theorem QOrd.qs {q : Quad} (h : QOrd q) : QS q (1 / 2 ^ 52) 0 :=
  have key : ∀ {x y : ℚ}, |y| ≤ |x| / 2 ^ 52 → |y| ≤ 1 / 2 ^ 52 * |x| + 0 := fun h => by linarith
  ⟨h.f0, h.f1, h.f2, h.f3, key h.d1, key h.d2, key h.d3⟩

theorem scomp_fin {q : Quad} {r η : ℚ} (o : QS q r η) (i : ℕ) : (comp q i).isFinite = true := by
  match i with
  | 0 => exact o.f0
  | 1 => exact o.f1
  | 2 => exact o.f2
  | 3 => exact o.f3
  | _ + 4 => exact is_zero.1

theorem scomp_dec {q : Quad} {r η : ℚ} (o : QS q r η) (hr : 0 ≤ r) (hη : 0 ≤ η) (i : ℕ) :
    |U (comp q (i + 1))| ≤ r * |U (comp q i)| + η := by
  match i with
  | 0 => exact o.d1
  | 1 => exact o.d2
  | 2 => exact o.d3
  | n + 3 =>
    show |U F64.zero| ≤ _
    rw [U_zero, abs_zero]
    have := mul_nonneg hr (abs_nonneg (U (comp q (n + 3))))
    linarith

theorem scomp_le {q : Quad} {r η S : ℚ} (o : QS q r η) (hr : 0 ≤ r) (hr2 : r ≤ 1 / 4) (hη : 0 ≤ η) (hS : |U q.c0| ≤ S) (i : ℕ) :
    |U (comp q i)| ≤ S * r ^ i + 2 * η := by
  induction i with
  | zero =>
    have : |U (comp q 0)| ≤ S := hS
    rw [pow_zero, mul_one]; linarith
  | succ i ih =>
    refine (scomp_dec o hr hη i).trans ?_
    have h1 := mul_le_mul_of_nonneg_left ih hr
    have h2 := mul_le_mul_of_nonneg_right hr2 hη
    rw [pow_succ]
    linarith

/-- Everything that is left is at most what was taken last from the other operand, up to the slack. -/
structure SMg (a b : Quad) (η : ℚ) (i j : ℕ) : Prop where
  hi : i ≤ 4
  hj : j ≤ 4
  ha : 1 ≤ j → |U (comp a i)| ≤ |U (comp b (j - 1))| + 2 * η
  hb : 1 ≤ i → |U (comp b j)| ≤ |U (comp a (i - 1))| + 2 * η

theorem SMg.symm {a b : Quad} {η : ℚ} {i j : ℕ} (h : SMg a b η i j) : SMg b a η j i := ⟨h.hj, h.hi, h.hb, h.ha⟩

theorem smg_zero (a b : Quad) (η : ℚ) : SMg a b η 0 0 := ⟨by omega, by omega, by omega, by omega⟩

/-- What is assumed of the operands. -/
structure Ops (a b : Quad) (r η : ℚ) : Prop where
  oa : QS a r η
  ob : QS b r η
  hr : 0 ≤ r
  hr2 : r ≤ 1 / 4
  hη : 0 ≤ η

theorem Ops.symm {a b : Quad} {r η : ℚ} (h : Ops a b r η) : Ops b a r η := ⟨h.ob, h.oa, h.hr, h.hr2, h.hη⟩

theorem SMg.left {a b : Quad} {r η : ℚ} (o : Ops a b r η) {i j : ℕ} (h : SMg a b η i j) (hi : i < 4)
    (hc : |U (comp b j)| ≤ |U (comp a i)|) : SMg a b η (i + 1) j := by
  have := o.hη
  refine ⟨by omega, h.hj, fun hj => ?_, fun _ => ?_⟩
  · have h1 := scomp_dec o.oa o.hr o.hη i
    have h2 := h.ha hj
    have h3 : r * |U (comp a i)| ≤ 1 / 4 * (|U (comp b (j - 1))| + 2 * η) :=
      mul_le_mul o.hr2 h2 (abs_nonneg _) (by norm_num)
    have h4 := abs_nonneg (U (comp b (j - 1)))
    linarith
  · rw [Nat.add_sub_cancel]; linarith

theorem SMg.right {a b : Quad} {r η : ℚ} (o : Ops a b r η) {i j : ℕ} (h : SMg a b η i j) (hj : j < 4)
    (hc : |U (comp a i)| ≤ |U (comp b j)|) : SMg a b η i (j + 1) := (h.symm.left o.symm hj hc).symm

/-- Size of the next component. -/
theorem SMg.head_a {a b : Quad} {r η : ℚ} (o : Ops a b r η) {S : ℚ} (hS : 0 ≤ S) (sa : |U a.c0| ≤ S) (sb : |U b.c0| ≤ S)
    {i j k : ℕ} (h : SMg a b η i j) (hk : 2 * k ≤ i + j) : |U (comp a i)| ≤ S * r ^ k + 4 * η := by
  have hη := o.hη
  have mono : ∀ m, k ≤ m → S * r ^ m ≤ S * r ^ k := fun m hm =>
    mul_le_mul_of_nonneg_left (pow_le_pow_of_le_one o.hr (by have := o.hr2; linarith) hm) hS
  by_cases hik : k ≤ i
  · have h1 := scomp_le o.oa o.hr o.hr2 hη sa i
    have h2 := mono i hik
    linarith
  · have h1 := h.ha (by omega)
    have h2 := scomp_le o.ob o.hr o.hr2 hη sb (j - 1)
    have h3 := mono (j - 1) (by omega)
    linarith

/-- One step of the merge. -/
theorem spick_step {a b : Quad} {r η : ℚ} (o : Ops a b r η) {i j : ℕ} (h : SMg a b η i j) (hne : i + j < 8) :
    ∃ t i' j', pick (rest a i) (rest b j) = (t, rest a i', rest b j') ∧ i' + j' = i + j + 1 ∧ SMg a b η i' j' ∧
      t.isFinite = true ∧ (t = comp a i ∨ t = comp b j) ∧ |U (comp a i)| ≤ |U t| ∧ |U (comp b j)| ≤ |U t| ∧
      sumU (rest a i) + sumU (rest b j) = U t + sumU (rest a i') + sumU (rest b j') := by
  have fa := scomp_fin o.oa i
  have fb := scomp_fin o.ob j
  have hhi := h.hi
  have hhj := h.hj
  by_cases hi : i < 4
  · by_cases hj : j < 4
    · rw [rest_cons a hi, rest_cons b hj]
      unfold pick
      dsimp only
      by_cases hc : |U (comp b j)| < |U (comp a i)|
      · rw [if_pos ((gt_abs fa fb).mpr hc)]
        refine ⟨comp a i, i + 1, j, by rw [rest_cons b hj], by omega, h.left o hi hc.le, fa, .inl rfl, le_refl _, hc.le, ?_⟩
        rw [sumU_cons, rest_cons b hj]
      · rw [if_neg (by rw [gt_abs fa fb]; exact hc)]
        push Not at hc
        refine ⟨comp b j, i, j + 1, by rw [rest_cons a hi], by omega, h.right o hj hc, fb, .inr rfl, hc, le_refl _, ?_⟩
        rw [sumU_cons (comp b j), rest_cons a hi]; ring
    · have hj4 : 4 ≤ j := by omega
      have z : |U (comp b j)| = 0 := by rw [comp_zero b hj4, U_zero, abs_zero]
      rw [rest_cons a hi, rest_nil b hj4]
      refine ⟨comp a i, i + 1, j, by rw [rest_nil b hj4]; rfl, by omega, h.left o hi (by rw [z]; exact abs_nonneg _), fa,
        .inl rfl, le_refl _, by rw [z]; exact abs_nonneg _, ?_⟩
      rw [sumU_cons, rest_nil b hj4]
  · have hi4 : 4 ≤ i := by omega
    have hj : j < 4 := by omega
    have z : |U (comp a i)| = 0 := by rw [comp_zero a hi4, U_zero, abs_zero]
    rw [rest_nil a hi4, rest_cons b hj]
    refine ⟨comp b j, i, j + 1, by rw [rest_nil a hi4]; rfl, by omega, h.right o hj (by rw [z]; exact abs_nonneg _), fb,
      .inr rfl, by rw [z]; exact abs_nonneg _, le_refl _, ?_⟩
    rw [sumU_cons, rest_nil a hi4]; simp [sumU_nil]

theorem smem_rest {q : Quad} {r η : ℚ} (o : QS q r η) (hr2 : r ≤ 1 / 4) (hη : 0 ≤ η) {i : ℕ} (hi : i ≤ 4) {y : F64}
    (hy : y ∈ rest q i) : Fb y (|U (comp q i)| + 2 * η) := by
  have step : ∀ {x y : ℚ}, |y| ≤ r * |x| + η → |y| ≤ 1 / 4 * |x| + η := by
    intro x y h
    have := mul_le_mul_of_nonneg_right hr2 (abs_nonneg x)
    linarith
  have h0 := step o.d1
  have h1 := step o.d2
  have h2 := step o.d3
  have n0 := abs_nonneg (U q.c0)
  have n1 := abs_nonneg (U q.c1)
  have n2 := abs_nonneg (U q.c2)
  have e0 : comp q 0 = q.c0 := rfl
  have e1 : comp q 1 = q.c1 := rfl
  have e2 : comp q 2 = q.c2 := rfl
  have e3 : comp q 3 = q.c3 := rfl
  have f0 := o.f0
  have f1 := o.f1
  have f2 := o.f2
  have f3 := o.f3
  interval_cases i
  · simp only [rest, List.mem_cons, List.not_mem_nil, or_false] at hy
    rw [e0]
    rcases hy with rfl | rfl | rfl | rfl
    · exact ⟨f0, by linarith⟩
    · exact ⟨f1, by linarith⟩
    · exact ⟨f2, by linarith⟩
    · exact ⟨f3, by linarith⟩
  · simp only [rest, List.mem_cons, List.not_mem_nil, or_false] at hy
    rw [e1]
    rcases hy with rfl | rfl | rfl
    · exact ⟨f1, by linarith⟩
    · exact ⟨f2, by linarith⟩
    · exact ⟨f3, by linarith⟩
  · simp only [rest, List.mem_cons, List.not_mem_nil, or_false] at hy
    rw [e2]
    rcases hy with rfl | rfl
    · exact ⟨f2, by linarith⟩
    · exact ⟨f3, by linarith⟩
  · simp only [rest, List.mem_cons, List.not_mem_nil, or_false] at hy
    rw [e3]
    rcases hy with rfl
    exact ⟨f3, by linarith⟩
  · exact absurd hy (by simp [rest])

/-- The operands together with the sizes of what comes out of the merge: `T1` after two components, `T2` after four, `T3` after
six. -/
structure Lev (a b : Quad) (r η S T1 T2 T3 : ℚ) : Prop extends Ops a b r η where
  sa : |U a.c0| ≤ S
  sb : |U b.c0| ≤ S
  hl : 100 * S ≤ (lim : ℚ)
  t1 : S * r + 6 * η ≤ T1
  t2 : S * r ^ 2 + 6 * η ≤ T2
  t3 : S * r ^ 3 + 6 * η ≤ T3
  u1 : 2 * S / 2 ^ 53 ≤ T1
  u2 : T1 / 2 ^ 53 ≤ T2
  u3 : T2 / 2 ^ 53 ≤ T3
  s1 : 1000 * T1 ≤ S
  s2 : 1000 * T2 ≤ T1
  s3 : 1000 * T3 ≤ T2

theorem Lev.nonneg {a b : Quad} {r η S T1 T2 T3 : ℚ} (h : Lev a b r η S T1 T2 T3) : 0 ≤ S := (abs_nonneg _).trans h.sa

theorem Lev.n3 {a b : Quad} {r η S T1 T2 T3 : ℚ} (h : Lev a b r η S T1 T2 T3) : 0 ≤ T3 := by
  have h1 := h.nonneg
  have h2 := h.u1
  have h3 := h.u2
  have h4 := h.u3
  have h5 : 0 ≤ 2 * S / 2 ^ 53 := by positivity
  have h6 : 0 ≤ T1 := by linarith
  have h7 : 0 ≤ T1 / 2 ^ 53 := by positivity
  have h8 : 0 ≤ T2 := by linarith
  have h9 : 0 ≤ T2 / 2 ^ 53 := by positivity
  linarith

theorem Lev.step {a b : Quad} {r η S T1 T2 T3 : ℚ} (h : Lev a b r η S T1 T2 T3) {i j : ℕ} (m : SMg a b η i j) (hne : i + j < 8) :
    ∃ t i' j', pick (rest a i) (rest b j) = (t, rest a i', rest b j') ∧ i' + j' = i + j + 1 ∧ SMg a b η i' j' ∧
      t.isFinite = true ∧ ¬ (rest a i = [] ∧ rest b j = []) ∧ (2 ≤ i + j → |U t| ≤ T1) ∧
      (4 ≤ i + j → |U t| ≤ T2) ∧
      sumU (rest a i) + sumU (rest b j) = U t + sumU (rest a i') + sumU (rest b j') := by
  obtain ⟨t, i', j', h1, h2, h3, h4, h5, _, _, h6⟩ := spick_step h.toOps m hne
  have hS := h.nonneg
  have hi := m.hi
  have hj := m.hj
  have hη := h.hη
  have bd : ∀ k, 2 * k ≤ i + j → |U t| ≤ S * r ^ k + 4 * η := by
    intro k hk
    rcases h5 with rfl | rfl
    · exact m.head_a h.toOps hS h.sa h.sb hk
    · exact m.symm.head_a h.toOps.symm hS h.sb h.sa (by omega)
  refine ⟨t, i', j', h1, h2, h3, h4, ?_, fun hk => ?_, fun hk => ?_, h6⟩
  · rintro ⟨ha, hb⟩
    have la := congrArg List.length ha
    have lb := congrArg List.length hb
    rw [rest_length a hi, List.length_nil] at la
    rw [rest_length b hj, List.length_nil] at lb
    omega
  · have k1 := bd 1 (by omega)
    have k2 := h.t1
    rw [pow_one] at k1
    linarith
  · have k1 := bd 2 (by omega)
    have k2 := h.t2
    linarith

/-- What is left after six components. -/
theorem Lev.left {a b : Quad} {r η S T1 T2 T3 : ℚ} (h : Lev a b r η S T1 T2 T3) {i j : ℕ} (m : SMg a b η i j) (hn : 6 ≤ i + j) :
    (∀ y ∈ rest a i, Fb y T3) ∧ (∀ y ∈ rest b j, Fb y T3) ∧ (rest a i).length + (rest b j).length ≤ 2 := by
  have ha := m.head_a h.toOps h.nonneg h.sa h.sb (k := 3) (by omega)
  have hb := m.symm.head_a h.toOps.symm h.nonneg h.sb h.sa (k := 3) (by omega)
  have ht := h.t3
  refine ⟨fun y hy => (smem_rest h.oa h.hr2 h.hη m.hi hy).mono (by linarith),
    fun y hy => (smem_rest h.ob h.hr2 h.hη m.hj hy).mono (by linarith), ?_⟩
  rw [rest_length a m.hi, rest_length b m.hj]
  have := m.hi
  have := m.hj
  omega

end Verif
