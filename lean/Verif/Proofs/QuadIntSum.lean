import Verif.Proofs.QuadIdent

/-!
# Quad sums of whole numbers are exact
-/

namespace Verif

open F64 Prim Util Quad

/-- The first component of a normalized number is on every grid the whole number is on. -/
theorem dvd_head {h l r : ℤ} {k : ℕ} (n : Norm2 h l) (hr : 2 ^ 50 * |r| ≤ |l|) (hd : (2:ℤ) ^ k ∣ h + l + r) : (2:ℤ) ^ k ∣ h := by
  have he := n.rep_hi.dvd
  have hl := n.two_lo
  generalize hE : expo (h : ℚ) = e at *
  by_cases hk : k ≤ e
  · exact (pow_dvd_pow 2 hk).trans he
  · have h1 : (2:ℤ) ^ e ∣ h + l + r := (pow_dvd_pow 2 (by omega)).trans hd
    have h2 : (2:ℤ) ^ e ∣ l + r := by
      have := dvd_sub h1 he
      rwa [show h + l + r - h = l + r by ring] at this
    have h3 : l + r = 0 := by
      apply Int.eq_zero_of_abs_lt_dvd h2
      have := abs_add_le l r
      have := abs_nonneg r
      have : (0:ℤ) < 2 ^ e := by positivity
      omega
    rwa [show h + l + r = h by omega] at hd

theorem whole4 {m0 m1 m2 m3 : ℤ} {k : ℕ} (n1 : Norm2 m0 m1) (n2 : Norm2 m1 m2) (n3 : Norm2 m2 m3)
    (hd : (2:ℤ) ^ k ∣ m0 + m1 + m2 + m3) (hb : |m0 + m1 + m2 + m3| ≤ 2 ^ 104 * 2 ^ k) :
    (2:ℤ) ^ k ∣ m0 ∧ (2:ℤ) ^ k ∣ m1 ∧ m2 = 0 ∧ m3 = 0 := by
  have l1 := n1.lo_le
  have l2 := n2.lo_le
  have l3 := n3.lo_le
  have p0 := abs_nonneg m0
  have p1 := abs_nonneg m1
  have p2 := abs_nonneg m2
  have p3 := abs_nonneg m3
  have t23 := abs_add_le m2 m3
  have d0 : (2:ℤ) ^ k ∣ m0 := dvd_head (r := m2 + m3) n1 (by omega) (by rwa [← add_assoc])
  have hd1 : (2:ℤ) ^ k ∣ m1 + m2 + m3 := by
    have := dvd_sub hd d0
    rwa [show m0 + m1 + m2 + m3 - m0 = m1 + m2 + m3 by ring] at this
  have d1 : (2:ℤ) ^ k ∣ m1 := dvd_head n2 (by omega) hd1
  have hd2 : (2:ℤ) ^ k ∣ m2 + m3 := by
    have := dvd_sub hd1 d1
    rwa [show m1 + m2 + m3 - m1 = m2 + m3 by ring] at this
  have hP : (0:ℤ) < 2 ^ k := by positivity
  generalize (2:ℤ) ^ k = P at *
  have b0 : |m0| ≤ 2 * (2 ^ 104 * P) := by
    have e : |m0| ≤ |m0 + m1 + m2 + m3| + |m1| + |m2 + m3| := by
      have h1 := abs_sub (m0 + m1 + m2 + m3 - m1) (m2 + m3)
      have h2 := abs_sub (m0 + m1 + m2 + m3) m1
      rw [show m0 + m1 + m2 + m3 - m1 - (m2 + m3) = m0 by ring] at h1
      omega
    omega
  have z : m2 + m3 = 0 := by
    apply Int.eq_zero_of_abs_lt_dvd hd2
    omega
  have e : |m2| = |m3| := by rw [show m2 = -m3 by omega, abs_neg]
  have z3 : |m3| = 0 := by omega
  have z2 : |m2| = 0 := by omega
  exact ⟨d0, d1, abs_eq_zero.mp z2, abs_eq_zero.mp z3⟩

/-- Whatever the order of the merge, everything comes out once. -/
theorem picks_exists : ∀ {n : ℕ} {la lb : List F64}, la.length + lb.length = n → (∀ y ∈ la, y.isFinite = true) →
    (∀ y ∈ lb, y.isFinite = true) → ∃ ks, Picks la lb ks ∧ ks.Perm ((la ++ lb).map F64.units) := by
  intro n
  induction n with
  | zero =>
    intro la lb h _ _
    have h1 : la = [] := List.length_eq_zero_iff.mp (by omega)
    have h2 : lb = [] := List.length_eq_zero_iff.mp (by omega)
    exact ⟨[], ⟨h1, h2⟩, by rw [h1, h2]; exact .refl _⟩
  | succ n ih =>
    intro la lb h ha hb
    have left : ∀ x xs, la = x :: xs → pick la lb = (x, xs, lb) →
        ∃ ks, Picks la lb ks ∧ ks.Perm ((la ++ lb).map F64.units) := by
      intro x xs e hp
      subst e
      obtain ⟨ks, h1, h2⟩ := ih (la := xs) (lb := lb) (by simp at h; omega) (fun y hy => ha y (by simp [hy])) hb
      exact ⟨x.units :: ks, ⟨by simp, x, xs, lb, hp, .of_finite (ha x (by simp)), h1⟩, by simpa using h2⟩
    have right : ∀ y ys, lb = y :: ys → pick la lb = (y, la, ys) →
        ∃ ks, Picks la lb ks ∧ ks.Perm ((la ++ lb).map F64.units) := by
      intro y ys e hp
      subst e
      obtain ⟨ks, h1, h2⟩ := ih (la := la) (lb := ys) (by simp at h; omega) ha (fun z hz => hb z (by simp [hz]))
      refine ⟨y.units :: ks, ⟨by simp, y, la, ys, hp, .of_finite (hb y (by simp)), h1⟩, ?_⟩
      refine (List.Perm.cons _ h2).trans ?_
      simp only [List.map_append, List.map_cons]
      exact List.perm_middle.symm
    rcases la with _ | ⟨x, xs⟩
    · rcases lb with _ | ⟨y, ys⟩
      · simp at h
      · exact right y ys rfl rfl
    · rcases lb with _ | ⟨y, ys⟩
      · exact left x xs rfl rfl
      · by_cases hc : F64.gt x.abs y.abs = true
        · exact left x xs rfl (by unfold pick; dsimp only; rw [if_pos hc])
        · exact right y ys rfl (by unfold pick; dsimp only; rw [if_neg hc])

/-- The loop on whole numbers. -/
theorem loopZ_whole {k : ℕ} : ∀ {ks : List ℤ} {u v : ℤ}, Norm2 u v → (2:ℤ) ^ k ∣ u → (2:ℤ) ^ k ∣ v →
    (∀ t ∈ ks, (2:ℤ) ^ k ∣ t ∧ |t| ≤ 2 ^ 51 * 2 ^ k) → |u + v| + (ks.map (|·|)).sum ≤ 2 ^ 104 * 2 ^ k →
    ∃ p q, loopZ ks u v [] = some [p, q] ∧ Norm2 p q ∧ p + q = u + v + ks.sum ∧ |p + q| ≤ 2 ^ 104 * 2 ^ k := by
  intro ks
  induction ks with
  | nil =>
    intro u v n _ _ _ hb
    exact ⟨u, v, rfl, n, by simp, by simpa using hb⟩
  | cons t ks ih =>
    intro u v n du dv ht hb
    obtain ⟨dt, bt⟩ := ht t (by simp)
    rw [List.map_cons, List.sum_cons] at hb
    have hs : 0 ≤ (ks.map (|·|)).sum := List.sum_nonneg (by simp)
    have l1 := n.lo_le
    have p0 := abs_nonneg u
    have p1 := abs_nonneg v
    have p2 := abs_nonneg t
    have hu : |u| ≤ |u + v| + |v| := by
      have := abs_sub (u + v) v
      simpa using this
    have hvt : Rep (v + t) := by
      refine .of_dvd_lt (k := k) (dvd_add dv dt) ?_
      have := abs_add_le v t
      rw [pow_add]
      have : (0:ℤ) < 2 ^ k := by positivity
      omega
    have hz : accZ u v t = (0, rs u (v + t), re u (v + t)) := by
      unfold accZ
      rw [rs_of_rep hvt, re_of_rep hvt]
      simp
    have hsum := rs_add_re u (v + t)
    obtain ⟨p, q, e, n', h1, h2⟩ := ih (norm2_rs_re n.rep_hi hvt) (dvd_rs du (dvd_add dv dt)) (dvd_re du (dvd_add dv dt))
      (fun x hx => ht x (by simp [hx])) (by
        rw [hsum]
        have := abs_add_le (u + v) t
        rw [← add_assoc]
        omega)
    refine ⟨p, q, by rw [loopZ_keep (by simp) hz]; exact e, n', ?_, h2⟩
    rw [h1, hsum, List.sum_cons]; ring

theorem mem_rest_comp {q : Quad} {i : ℕ} {y : F64} (hy : y ∈ rest q i) : ∃ j, y = comp q j := by
  match i with
  | 0 =>
    simp only [rest, List.mem_cons, List.not_mem_nil, or_false] at hy
    rcases hy with rfl | rfl | rfl | rfl
    · exact ⟨0, rfl⟩
    · exact ⟨1, rfl⟩
    · exact ⟨2, rfl⟩
    · exact ⟨3, rfl⟩
  | 1 =>
    simp only [rest, List.mem_cons, List.not_mem_nil, or_false] at hy
    rcases hy with rfl | rfl | rfl
    · exact ⟨1, rfl⟩
    · exact ⟨2, rfl⟩
    · exact ⟨3, rfl⟩
  | 2 =>
    simp only [rest, List.mem_cons, List.not_mem_nil, or_false] at hy
    rcases hy with rfl | rfl
    · exact ⟨2, rfl⟩
    · exact ⟨3, rfl⟩
  | 3 =>
    simp only [rest, List.mem_cons, List.not_mem_nil, or_false] at hy
    exact ⟨3, hy⟩
  | _ + 4 => simp [rest] at hy

theorem comp_dvd {q : Quad} {m0 m1 : ℤ} {P : ℤ} (h : QIs q (m0, m1, 0, 0)) (d0 : P ∣ m0) (d1 : P ∣ m1) (i : ℕ) :
    P ∣ (comp q i).units := by
  match i with
  | 0 => show P ∣ q.c0.units; rw [h.i0.2]; exact d0
  | 1 => show P ∣ q.c1.units; rw [h.i1.2]; exact d1
  | 2 => show P ∣ q.c2.units; rw [h.i2.2]; exact dvd_zero _
  | 3 => show P ∣ q.c3.units; rw [h.i3.2]; exact dvd_zero _
  | _ + 4 => show P ∣ F64.zero.units; rw [is_zero.2]; exact dvd_zero _

theorem sumU_units (l : List F64) : sumU l = ((l.map F64.units).sum : ℤ) := by
  induction l with
  | nil => rfl
  | cons x l ih => rw [sumU_cons, ih]; unfold U; push_cast [List.map_cons, List.sum_cons]; rfl

/-- Adding whole numbers. -/
theorem quad_add_whole {a b : Quad} {m0 m1 n0 n1 : ℤ} {k : ℕ} (ha : QIs a (m0, m1, 0, 0)) (hb : QIs b (n0, n1, 0, 0))
    (na : Norm2 m0 m1) (nb : Norm2 n0 n1) (dm0 : (2:ℤ) ^ k ∣ m0) (dm1 : (2:ℤ) ^ k ∣ m1) (dn0 : (2:ℤ) ^ k ∣ n0)
    (dn1 : (2:ℤ) ^ k ∣ n1) (hB : |m0 + m1| + |n0 + n1| ≤ 2 ^ 102 * 2 ^ k) (hl : 2 ^ 160 * 2 ^ k ≤ lim) :
    ∃ p q, QIs (a + b) (p, q, 0, 0) ∧ Norm2 p q ∧ p + q = m0 + m1 + (n0 + n1) := by
  have oa : QOrd a := qord_of (ha.ordered_iff.mpr (Norm4.ord ⟨na, norm2_zero_right na.rep_lo, norm2_zero_zero⟩))
  have ob : QOrd b := qord_of (hb.ordered_iff.mpr (Norm4.ord ⟨nb, norm2_zero_right nb.rep_lo, norm2_zero_zero⟩))
  have hP : (0:ℤ) < 2 ^ k := by positivity
  have la := na.lo_le
  have lb := nb.lo_le
  have ta : |m0| ≤ |m0 + m1| + |m1| := by have := abs_sub (m0 + m1) m1; simpa using this
  have tb : |n0| ≤ |n0 + n1| + |n1| := by have := abs_sub (n0 + n1) n1; simpa using this
  have a1 := abs_nonneg m1
  have a2 := abs_nonneg n1
  have a3 := abs_nonneg (m0 + m1)
  have a4 := abs_nonneg (n0 + n1)
  have hS : ∃ S : ℤ, |m0| ≤ S ∧ |n0| ≤ S ∧ S ≤ 2 ^ 102 * 2 ^ k + 2 ^ 51 * 2 ^ k :=
    ⟨2 ^ 102 * 2 ^ k + 2 ^ 51 * 2 ^ k, by omega, by omega, le_refl _⟩
  obtain ⟨S, hSa, hSb, hS1⟩ := hS
  have S0 : 0 ≤ S := (abs_nonneg _).trans hSa
  have sa : |U a.c0| ≤ (S : ℚ) := by unfold U; rw [ha.i0.2]; exact_mod_cast hSa
  have sb : |U b.c0| ≤ (S : ℚ) := by unfold U; rw [hb.i0.2]; exact_mod_cast hSb
  have S0q : (0:ℚ) ≤ S := by exact_mod_cast S0
  obtain ⟨t0, i0, j0, hp0, hij0, mg0, ft0, hor0, ga, gb, hsum0⟩ := pick_step oa ob (mg_zero a b) (by omega)
  obtain ⟨t1, i1, j1, hp1, hij1, mg1, ft1, hor1, _, _, hsum1⟩ := pick_step oa ob mg0 (by omega)
  obtain ⟨ks, hks, hperm⟩ := picks_exists (la := rest a i1) (lb := rest b j1) rfl (fun y hy => (mem_rest oa mg1.hi hy).fin)
    (fun y hy => (mem_rest ob mg1.hj hy).fin)
  have hb0 : |t0.units| ≤ S := by
    rcases hor0 with rfl | rfl
    · show |a.c0.units| ≤ S; rw [ha.i0.2]; exact hSa
    · show |b.c0.units| ≤ S; rw [hb.i0.2]; exact hSb
  have hb1 : |t1.units| ≤ |t0.units| := by
    have h1 : |U t1| ≤ |U t0| := by
      have g : ∀ i, |U (comp a i)| ≤ |U t0| := fun i => by
        induction i with
        | zero => exact ga
        | succ i ih => exact (comp_anti oa i).trans ih
      have g' : ∀ j, |U (comp b j)| ≤ |U t0| := fun j => by
        induction j with
        | zero => exact gb
        | succ j ih => exact (comp_anti ob j).trans ih
      rcases hor1 with rfl | rfl
      · exact g _
      · exact g' _
    unfold U at h1; exact_mod_cast h1
  have d0 : (2:ℤ) ^ k ∣ t0.units := by
    rcases hor0 with rfl | rfl
    · exact comp_dvd ha dm0 dm1 _
    · exact comp_dvd hb dn0 dn1 _
  have d1 : (2:ℤ) ^ k ∣ t1.units := by
    rcases hor1 with rfl | rfl
    · exact comp_dvd ha dm0 dm1 _
    · exact comp_dvd hb dn0 dn1 _
  have hks2 : ∀ t ∈ ks, (2:ℤ) ^ k ∣ t ∧ |t| ≤ 2 ^ 51 * 2 ^ k := by
    intro t ht
    have := hperm.mem_iff.mp ht
    obtain ⟨y, hy, rfl⟩ := List.mem_map.mp this
    have conv : |U y| ≤ (S : ℚ) / 2 ^ (52 * 1) → |y.units| ≤ 2 ^ 51 * 2 ^ k := by
      intro h
      rw [le_div_iff₀ (by positivity)] at h
      have h' : |y.units| * 2 ^ (52 * 1) ≤ S := by unfold U at h; exact_mod_cast h
      omega
    rcases List.mem_append.mp hy with h | h
    · refine ⟨?_, conv ((mem_rest oa mg1.hi h).le.trans (mg1.head_a oa ob S0q sa sb (by omega)))⟩
      obtain ⟨i, rfl⟩ := mem_rest_comp h
      exact comp_dvd ha dm0 dm1 _
    · refine ⟨?_, conv ((mem_rest ob mg1.hj h).le.trans (mg1.symm.head_a ob oa S0q sb sa (by omega)))⟩
      obtain ⟨i, rfl⟩ := mem_rest_comp h
      exact comp_dvd hb dn0 dn1 _
  have hlen : ks.length ≤ 6 := by
    rw [hperm.length_eq, List.length_map, List.length_append, rest_length a mg1.hi, rest_length b mg1.hj]
    have := mg1.hi
    have := mg1.hj
    omega
  have hsumabs : (ks.map (|·|)).sum ≤ 6 * (2 ^ 51 * 2 ^ k) := by
    have h1 : (ks.map (|·|)).sum ≤ ks.length * (2 ^ 51 * 2 ^ k) := by
      have := List.sum_le_card_nsmul (ks.map (|·|)) (2 ^ 51 * 2 ^ k) (by
        intro x hx
        obtain ⟨t, ht, rfl⟩ := List.mem_map.mp hx
        exact (hks2 t ht).2)
      simpa using this
    refine h1.trans (mul_le_mul_of_nonneg_right (by exact_mod_cast hlen) (by positivity))
  have i0' := Is.of_finite ft0
  have i1' := Is.of_finite ft1
  have hsum := rs_add_re t0.units t1.units
  obtain ⟨p, q, hz, npq, hpq, hpqb⟩ := loopZ_whole (ks := ks) (norm2_rs_re i0'.rep i1'.rep) (dvd_rs d0 d1) (dvd_re d0 d1) hks2 (by
    rw [hsum]
    have := abs_add_le t0.units t1.units
    omega)
  have p0 := abs_nonneg p
  have q0 := abs_nonneg q
  have lpq := npq.lo_le
  have tp : |p| ≤ |p + q| + |q| := by have := abs_sub (p + q) q; simpa using this
  have npq2 := norm2_zero_right npq.rep_lo
  have R := is_quad_add (B := 2 ^ 105 * 2 ^ k) (ks := ks) oa.f0 ob.f0
    (⟨fun h => by have := h.1; simp [rest] at this, t0, _, _, hp0, i0', fun h => by
        have e1 := congrArg List.length h.1
        have e2 := congrArg List.length h.2
        rw [rest_length a mg0.hi, List.length_nil] at e1
        rw [rest_length b mg0.hj, List.length_nil] at e2
        omega, t1, _, _, hp1, i1', hks⟩) (by omega) (.of_abs_le i0'.rep i1'.rep hb1) (by
      intro t ht
      rcases List.mem_cons.mp ht with rfl | ht
      · omega
      · rcases List.mem_cons.mp ht with rfl | ht
        · omega
        · have := (hks2 t ht).2
          omega) (by omega) hz (rn4ok_norm npq npq2 norm2_zero_zero) (by
      intro i
      match i with
      | 0 => show |p| ≤ _; omega
      | 1 => show |q| ≤ _; omega
      | i + 2 => show |(0:ℤ)| ≤ _; rw [abs_zero]; positivity)
  have e := rn4_norm (z := (p, q, 0, 0)) ⟨npq, npq2, norm2_zero_zero⟩
  dsimp only at e
  have e3 : rn4 ([p, q].getD 0 0) ([p, q].getD 1 0) ([p, q].getD 2 0) ([p, q].getD 3 0) = rn4 p q 0 0 := rfl
  rw [e3, e] at R
  refine ⟨p, q, R, npq, ?_⟩
  have hsk : (ks.sum : ℤ) = ((rest a i1).map F64.units).sum + ((rest b j1).map F64.units).sum := by
    rw [hperm.sum_eq, List.map_append, List.sum_append]
  have hT : (t0.units : ℚ) + t1.units + ks.sum = (m0 + m1 : ℤ) + (n0 + n1 : ℤ) := by
    rw [hsk]
    push_cast
    have e1 := sumU_units (rest a i1)
    have e2 := sumU_units (rest b j1)
    have e4 : sumU (rest a 0) = m0 + m1 := by
      simp only [rest, sumU_cons, sumU_nil]
      unfold U
      rw [ha.i0.2, ha.i1.2, ha.i2.2, ha.i3.2]
      push_cast; ring
    have e5 : sumU (rest b 0) = n0 + n1 := by
      simp only [rest, sumU_cons, sumU_nil]
      unfold U
      rw [hb.i0.2, hb.i1.2, hb.i2.2, hb.i3.2]
      push_cast; ring
    rw [e4, e5] at hsum0
    unfold U at hsum0 hsum1
    linarith
  have hT' : t0.units + t1.units + ks.sum = m0 + m1 + (n0 + n1) := by exact_mod_cast hT
  rw [hpq, hsum, hT']

end Verif
