import Verif.Proofs.QuadAddZ

/-!
# Quad addition of zero, of opposite numbers, and of whole numbers
-/

namespace Verif

open F64 Prim Util Quad

theorem rs_norm {h l : ℤ} (n : Norm2 h l) : rs h l = h := n.rnd_eq

theorem re_norm {h l : ℤ} (n : Norm2 h l) : re h l = l := by
  have := rs_add_re h l
  rw [rs_norm n] at this
  omega

theorem re_zero_right {x : ℤ} (h : Rep x) : re x 0 = 0 := re_of_rep (by simpa using h)

theorem norm2_chain {h l : ℤ} (n : Norm2 h l) (h0 : h = 0) : l = 0 := by
  have := n.lo_le
  rw [h0, abs_zero] at this
  have h1 := abs_nonneg l
  have : |l| = 0 := by omega
  exact abs_eq_zero.mp this

/-- A zero changes nothing. -/
theorem accZ_zero {u v : ℤ} (n : Norm2 u v) : accZ u v 0 = (0, u, v) := by
  unfold accZ
  rw [rs_zero_right n.rep_lo, re_zero_right n.rep_lo, rs_norm n, re_norm n]
  simp

theorem accZ_norm {u v t : ℤ} (n : Norm2 u v) (n' : Norm2 v t) (ht : t ≠ 0) : accZ u v t = (u, v, t) := by
  have hv : v ≠ 0 := fun h => ht (norm2_chain n' h)
  unfold accZ
  rw [rs_norm n', re_norm n', rs_norm n, re_norm n, if_pos ⟨hv, ht⟩]

theorem loopZ_zeros {u v : ℤ} (n : Norm2 u v) {x : List ℤ} (hx : x.length < 3) (k : ℕ) :
    loopZ (List.replicate k 0) u v x = some (x ++ [u, v]) := by
  induction k with
  | zero => show loopZ [] u v x = _; unfold loopZ; rw [if_pos hx]
  | succ k ih =>
    rw [List.replicate_succ]
    unfold loopZ
    rw [if_pos (by omega), accZ_zero n]
    simpa using ih

/-- `renorm4` leaves normalized numbers alone. -/
theorem rn4_norm {z : ℤ × ℤ × ℤ × ℤ} (h : Norm4 z) : rn4 z.1 z.2.1 z.2.2.1 z.2.2.2 = z := by
  obtain ⟨a, b, c, d⟩ := z
  obtain ⟨n1, n2, n3⟩ := h
  dsimp only at *
  unfold rn4
  dsimp only
  rw [rs_norm n3, re_norm n3, rs_norm n2, re_norm n2, rs_norm n1, re_norm n1, rs_norm n2, re_norm n2, rs_norm n3, re_norm n3]
  by_cases hb : b = 0
  · have hc := norm2_chain n2 hb
    have hd := norm2_chain n3 hc
    subst hb; subst hc; subst hd
    simp [rs_zero_right n1.rep_hi, re_zero_right n1.rep_hi]
  · rw [if_pos hb]
    by_cases hc : c = 0
    · have hd := norm2_chain n3 hc
      subst hc; subst hd
      simp [rs_zero_right n1.rep_lo, re_zero_right n1.rep_lo]
    · rw [if_pos hc]

theorem rn4ok_norm {a b c d : ℤ} (n1 : Norm2 a b) (n2 : Norm2 b c) (n3 : Norm2 c d) : Rn4Ok a b c d := by
  have l1 := n1.lo_le
  have l2 := n2.lo_le
  have l3 := n3.lo_le
  have p1 := abs_nonneg a
  have p2 := abs_nonneg b
  have p3 := abs_nonneg c
  have p4 := abs_nonneg d
  refine ⟨n1.rep_hi, n2.rep_hi, n3.rep_hi, n3.rep_lo, .of_abs_le n3.rep_hi n3.rep_lo (by omega), ?_, ?_, ?_⟩
  · rw [rs_norm n3]; exact .of_abs_le n2.rep_hi n3.rep_hi (by omega)
  · rw [rs_norm n3, rs_norm n2]; exact .of_abs_le n1.rep_hi n2.rep_hi (by omega)
  · rw [rs_norm n3]; exact .of_abs_le n1.rep_hi n3.rep_hi (by omega)

/-! ### The merge -/

theorem gt_abs_is {x y : F64} {m n : ℤ} (ix : Is x m) (iy : Is y n) : F64.gt x.abs y.abs = true ↔ |n| < |m| := by
  show F64.lt y.abs x.abs = true ↔ _
  exact iy.abs.lt_iff ix.abs

theorem pick_left {x y : F64} {xs ys : List F64} {m n : ℤ} (ix : Is x m) (iy : Is y n) (h : |n| < |m|) :
    pick (x :: xs) (y :: ys) = (x, xs, y :: ys) := by
  unfold pick
  dsimp only
  rw [if_pos ((gt_abs_is ix iy).mpr h)]

theorem pick_right {x y : F64} {xs ys : List F64} {m n : ℤ} (ix : Is x m) (iy : Is y n) (h : |m| ≤ |n|) :
    pick (x :: xs) (y :: ys) = (y, x :: xs, ys) := by
  unfold pick
  dsimp only
  rw [if_neg (by rw [gt_abs_is ix iy]; omega)]

/-- Merging zeros. -/
theorem picks_zeros : ∀ {la lb : List F64} {k : ℕ}, (∀ y ∈ la, Is y 0) → (∀ y ∈ lb, Is y 0) → la.length + lb.length = k →
    Picks la lb (List.replicate k 0) := by
  intro la lb k
  induction k generalizing la lb with
  | zero =>
    intro _ _ h
    exact ⟨List.length_eq_zero_iff.mp (by omega), List.length_eq_zero_iff.mp (by omega)⟩
  | succ k ih =>
    intro ha hb h
    rw [List.replicate_succ]
    match la, lb with
    | [], [] => simp at h
    | [], y :: ys =>
      exact ⟨by simp, y, [], ys, rfl, hb y (by simp), ih ha (fun z hz => hb z (by simp [hz])) (by simpa using h)⟩
    | x :: xs, [] =>
      exact ⟨by simp, x, xs, [], rfl, ha x (by simp), ih (fun z hz => ha z (by simp [hz])) hb (by simpa using h)⟩
    | x :: xs, y :: ys =>
      refine ⟨by simp, y, x :: xs, ys, pick_right (ha x (by simp)) (hb y (by simp)) (le_refl _), hb y (by simp), ?_⟩
      exact ih ha (fun z hz => hb z (by simp [hz])) (by simp at h ⊢; omega)

/-- Merging a list, once zero always zero, with zeros. -/
theorem picks_left_zeros : ∀ {la : List F64} {ms : List ℤ} {lb : List F64} {k : ℕ}, List.Forall₂ Is la ms →
    List.IsChain (fun m n => m = 0 → n = 0) ms → (∀ y ∈ lb, Is y 0) → lb.length = k → Picks la lb (ms ++ List.replicate k 0) := by
  intro la ms lb k h
  induction h with
  | nil => intro _ hb hk; exact picks_zeros (by simp) hb (by simpa using hk)
  | @cons x m xs ms ix hxs ih =>
    intro hc hb hk
    by_cases hm : m = 0
    · have hz : ∀ z ∈ ms, z = 0 := by
        subst hm
        clear ih hxs
        induction ms with
        | nil => simp
        | cons q ms ih2 =>
          rw [List.isChain_cons_cons] at hc
          have hq := hc.1 rfl
          subst hq
          intro z hz
          rcases List.mem_cons.mp hz with h | h
          · exact h
          · exact ih2 hc.2 z h
      have e : m :: ms ++ List.replicate k 0 = List.replicate (xs.length + 1 + k) 0 := by
        have : m :: ms = List.replicate (xs.length + 1) 0 := by
          rw [List.replicate_succ, hm, hxs.length_eq]
          congr 1
          exact List.eq_replicate_of_mem hz
        rw [this, List.replicate_append_replicate]
      rw [e]
      have key : ∀ {l : List F64} {ns : List ℤ}, List.Forall₂ Is l ns → (∀ z ∈ ns, z = 0) → ∀ y ∈ l, Is y 0 := by
        intro l ns hl
        induction hl with
        | nil => simp
        | cons h1 _ ih3 =>
          intro hz y hy
          rcases List.mem_cons.mp hy with h | h
          · subst h; have := hz _ List.mem_cons_self; subst this; exact h1
          · exact ih3 (fun z hz' => hz z (by simp [hz'])) y h
      refine picks_zeros ?_ hb (by simp [hk])
      intro y hy
      rcases List.mem_cons.mp hy with h | h
      · subst h; subst hm; exact ix
      · exact key hxs hz y h
    · have hc' : List.IsChain (fun m n => m = 0 → n = 0) ms := hc.tail
      match lb, hb, hk with
      | [], hb, hk => exact ⟨by simp, x, xs, [], rfl, ix, ih hc' hb hk⟩
      | y :: ys, hb, hk =>
        exact ⟨by simp, x, xs, y :: ys, pick_left ix (hb y (by simp)) (by rw [abs_zero]; exact abs_pos.mpr hm), ix,
          ih hc' hb hk⟩

/-- `a + 0` has the components of `a`. -/
theorem quad_add_zero {a : Quad} {z : ℤ × ℤ × ℤ × ℤ} (h : QIs a z) (n : Norm4 z) (hl : 2 ^ 50 * |z.1| ≤ lim) :
    QIs (a + Quad.ZERO) z := by
  obtain ⟨m0, m1, m2, m3⟩ := z
  obtain ⟨n1, n2, n3⟩ := id n
  dsimp only at *
  have l1 := n1.lo_le
  have l2 := n2.lo_le
  have l3 := n3.lo_le
  have p0 := abs_nonneg m0
  have p1 := abs_nonneg m1
  have p2 := abs_nonneg m2
  have p3 := abs_nonneg m3
  have hp : Picks (rest a 0) (rest Quad.ZERO 0) (m0 :: m1 :: ([m2, m3] ++ List.replicate 4 0)) :=
    picks_left_zeros (la := rest a 0) (ms := [m0, m1, m2, m3])
      (.cons h.i0 (.cons h.i1 (.cons h.i2 (.cons h.i3 .nil))))
      (by simp only [List.isChain_cons_cons, List.isChain_singleton, and_true]
          exact ⟨norm2_chain n1, norm2_chain n2, norm2_chain n3⟩)
      (by intro y hy
          have : y = F64.zero := by
            have e : rest Quad.ZERO 0 = [F64.zero, F64.zero, F64.zero, F64.zero] := rfl
            rw [e] at hy
            simpa using hy
          rw [this]; exact is_zero) rfl
  have hz : ∃ r, loopZ ([m2, m3] ++ List.replicate 4 0) m0 m1 [] = some r ∧ r.getD 0 0 = m0 ∧ r.getD 1 0 = m1 ∧
      r.getD 2 0 = m2 ∧ r.getD 3 0 = m3 ∧ ∀ i, |r.getD i 0| ≤ 2 ^ 30 * |m0| := by
    by_cases h2 : m2 = 0
    · have h3 := norm2_chain n3 h2
      subst h2; subst h3
      refine ⟨_, loopZ_zeros n1 (x := []) (by simp) 6, rfl, rfl, rfl, rfl, ?_⟩
      intro i
      match i with
      | 0 => show |m0| ≤ _; omega
      | 1 => show |m1| ≤ _; omega
      | i + 2 => show |(0:ℤ)| ≤ _; simp
    · have e1 : loopZ ([m2, m3] ++ List.replicate 4 0) m0 m1 [] = loopZ (m3 :: List.replicate 4 0) m1 m2 [m0] := by
        show loopZ (m2 :: (m3 :: List.replicate 4 0)) m0 m1 [] = _
        conv => lhs; unfold loopZ
        have h0 : m0 ≠ 0 := fun e => h2 (norm2_chain n2 (norm2_chain n1 e))
        rw [if_pos (by simp), accZ_norm n1 n2 h2]
        simp [h0]
      have h1 : m1 ≠ 0 := fun e => h2 (norm2_chain n2 e)
      rw [e1]
      by_cases h3 : m3 = 0
      · subst h3
        refine ⟨_, loopZ_zeros n2 (x := [m0]) (by simp) 5, rfl, rfl, rfl, rfl, ?_⟩
        intro i
        match i with
        | 0 => show |m0| ≤ _; omega
        | 1 => show |m1| ≤ _; omega
        | 2 => show |m2| ≤ _; omega
        | i + 3 => show |(0:ℤ)| ≤ _; simp
      · have e2 : loopZ (m3 :: List.replicate 4 0) m1 m2 [m0] = loopZ (List.replicate 4 0) m2 m3 [m0, m1] := by
          conv => lhs; unfold loopZ
          rw [if_pos (by simp), accZ_norm n2 n3 h3]
          simp [h1]
        rw [e2]
        refine ⟨_, loopZ_zeros n3 (x := [m0, m1]) (by simp) 4, rfl, rfl, rfl, rfl, ?_⟩
        intro i
        match i with
        | 0 => show |m0| ≤ _; omega
        | 1 => show |m1| ≤ _; omega
        | 2 => show |m2| ≤ _; omega
        | 3 => show |m3| ≤ _; omega
        | i + 4 => show |(0:ℤ)| ≤ _; simp
  obtain ⟨r, hr, r0, r1, r2, r3, hrb⟩ := hz
  have := is_quad_add (B := |m0|) h.i0.1 is_zero.1 hp (by simp) (.of_abs_le n1.rep_hi n1.rep_lo (by omega)) (by
      intro k hk
      simp only [List.mem_cons, List.mem_append, List.not_mem_nil, List.mem_replicate, or_false] at hk
      rcases hk with rfl | rfl | (rfl | rfl) | ⟨_, rfl⟩ <;> first | omega | (rw [abs_zero]; omega)) hl
    (by rw [rs_norm n1, re_norm n1]; exact hr) (by rw [r0, r1, r2, r3]; exact rn4ok_norm n1 n2 n3) hrb
  rw [r0, r1, r2, r3] at this
  have e := rn4_norm n
  dsimp only at e
  rwa [e] at this

/-- Merging a list with its opposite. -/
theorem picks_opp : ∀ {la lb : List F64} {ms : List ℤ}, List.Forall₂ Is la ms → List.Forall₂ Is lb (ms.map (-·)) →
    List.IsChain (fun m n => |n| < |m| ∨ (m = 0 ∧ n = 0)) ms → Picks la lb (ms.flatMap fun m => [-m, m]) := by
  intro la lb ms ha
  induction ha generalizing lb with
  | nil =>
    intro hb _
    cases hb
    exact ⟨rfl, rfl⟩
  | @cons x m xs ms ix hxs ih =>
    intro hb hc
    cases hb with
    | @cons y _ ys _ iy hys =>
    have hc' := hc.tail
    show Picks (x :: xs) (y :: ys) (-m :: m :: ms.flatMap fun m => [-m, m])
    refine ⟨by simp, y, x :: xs, ys, pick_right ix iy (by rw [abs_neg]), iy, by simp, ?_⟩
    match xs, ms, ys, hxs, hys with
    | [], _, ys, hxs, hys =>
      cases hxs
      cases hys
      exact ⟨x, [], [], rfl, ix, rfl, rfl⟩
    | x2 :: xs, m2 :: ms, y2 :: ys, hxs, hys =>
      have h1 := hc
      rw [List.isChain_cons_cons] at h1
      cases hys with
      | cons iy2 hys' =>
      rcases h1.1 with h | ⟨h, h2⟩
      · exact ⟨x, x2 :: xs, y2 :: ys, pick_left ix iy2 (by rw [abs_neg]; exact h), ix, ih (.cons iy2 hys') hc'⟩
      · subst h; subst h2
        have hz : ∀ z ∈ ms, z = 0 := by
          have hcc := h1.2
          clear ih hxs hys' hc hc' h1
          induction ms with
          | nil => simp
          | cons q ms ih2 =>
            rw [List.isChain_cons_cons] at hcc
            have hq : q = 0 := by
              rcases hcc.1 with h | h
              · rw [abs_zero] at h; exact absurd h (not_lt.mpr (abs_nonneg _))
              · exact h.2
            subst hq
            intro z hz
            rcases List.mem_cons.mp hz with h | h
            · exact h
            · exact ih2 hcc.2 z h
        have key : ∀ {l : List F64} {ns : List ℤ}, List.Forall₂ Is l ns → (∀ z ∈ ns, z = 0) → ∀ y ∈ l, Is y 0 := by
          intro l ns hl
          induction hl with
          | nil => simp
          | cons h1 _ ih3 =>
            intro hz y hy
            rcases List.mem_cons.mp hy with h | h
            · subst h; have := hz _ List.mem_cons_self; subst this; exact h1
            · exact ih3 (fun z hz' => hz z (by simp [hz'])) y h
        have hzero : ∀ y ∈ x :: x2 :: xs, Is y 0 := key (.cons ix hxs) (by simpa using hz)
        have hzero2 : ∀ y ∈ y2 :: ys, Is y 0 := key (.cons iy2 hys') (by
          intro z hz'
          rcases List.mem_cons.mp hz' with h | h
          · rw [h]; rfl
          · obtain ⟨w, hw, rfl⟩ := List.mem_map.mp h
            rw [hz w hw]; rfl)
        have hP := picks_zeros hzero hzero2 rfl
        have e : (0:ℤ) :: ((0:ℤ) :: ms).flatMap (fun m => [-m, m]) =
            List.replicate ((x :: x2 :: xs).length + (y2 :: ys).length) 0 := by
          have l1 := hxs.length_eq
          have l2 := hys'.length_eq
          rw [List.eq_replicate_iff]
          constructor
          · simp only [List.length_cons, List.length_flatMap, List.length_nil, List.map_const', List.sum_replicate,
              List.length_map] at l1 l2 ⊢
            simp only [smul_eq_mul]
            omega
          · intro q hq
            simp only [List.mem_cons, List.mem_flatMap, List.not_mem_nil, or_false] at hq
            rcases hq with h | ⟨w, hw, h⟩
            · exact h
            · have hw0 : w = 0 := by
                rcases hw with h | h
                · exact h
                · exact hz w h
              rcases h with h | h <;> rw [h, hw0] ; rfl
        rw [← e] at hP
        exact hP.2

theorem loopZ_keep {k u v y z : ℤ} {ks x : List ℤ} (hx : x.length < 4) (h : accZ u v k = (0, y, z)) :
    loopZ (k :: ks) u v x = loopZ ks y z x := by
  conv => lhs; unfold loopZ
  rw [if_pos hx, h]
  simp

/-- Summing opposite numbers one after the other. -/
theorem loopZ_opp : ∀ {ms : List ℤ}, (∀ m ∈ ms, Rep m) → loopZ (ms.flatMap fun m => [-m, m]) 0 0 [] = some [0, 0] := by
  intro ms
  induction ms with
  | nil => intro _; rfl
  | cons m ms ih =>
    intro h
    have hr := h m (by simp)
    have z1 : ∀ x : ℤ, Rep x → rs 0 x = x := fun x hx => by rw [rs_of_rep (by simpa using hx), zero_add]
    have z2 : ∀ x : ℤ, Rep x → re 0 x = 0 := fun x hx => re_of_rep (by simpa using hx)
    have a1 : accZ 0 0 (-m) = (0, -m, 0) := by
      unfold accZ
      rw [z1 _ hr.neg, z2 _ hr.neg, z1 _ hr.neg]
      simp
    have a2 : accZ (-m) 0 m = (0, 0, 0) := by
      have e1 : rs (-m) m = 0 := by rw [rs_of_rep (by simpa using Rep.zero)]; ring
      have e2 : re (-m) m = 0 := re_of_rep (by simpa using Rep.zero)
      unfold accZ
      rw [z1 _ hr, z2 _ hr, e1, e2]
      simp
    show loopZ (-m :: m :: ms.flatMap fun m => [-m, m]) 0 0 [] = _
    rw [loopZ_keep (by simp) a1, loopZ_keep (by simp) a2]
    exact ih (fun m hm => h m (by simp [hm]))

/-- The difference of numbers with the same components is zero. -/
theorem quad_sub_same {a b : Quad} {z : ℤ × ℤ × ℤ × ℤ} (h : QIs a z) (hb : QIs b z) (o : Ord4 z) (hl : 2 ^ 50 * |z.1| ≤ lim) :
    QIs (a - b) (0, 0, 0, 0) := by
  obtain ⟨m0, m1, m2, m3⟩ := z
  obtain ⟨l1, l2, l3⟩ := o
  dsimp only at *
  have p0 := abs_nonneg m0
  have p1 := abs_nonneg m1
  have p2 := abs_nonneg m2
  have p3 := abs_nonneg m3
  have ch : ∀ {m n : ℤ}, 2 ^ 52 * |n| ≤ |m| → |n| < |m| ∨ (m = 0 ∧ n = 0) := by
    intro m n h
    have := abs_nonneg n
    by_cases hn : n = 0
    · by_cases hm : m = 0
      · exact .inr ⟨hm, hn⟩
      · left; rw [hn, abs_zero]; exact abs_pos.mpr hm
    · left
      have := abs_pos.mpr hn
      omega
  have hn := hb.neg
  have hp : Picks (rest a 0) (rest (-b) 0) ([m0, m1, m2, m3].flatMap fun m => [-m, m]) :=
    picks_opp (la := rest a 0) (lb := rest (-b) 0) (.cons h.i0 (.cons h.i1 (.cons h.i2 (.cons h.i3 .nil))))
      (.cons hn.i0 (.cons hn.i1 (.cons hn.i2 (.cons hn.i3 .nil))))
      (by simp only [List.isChain_cons_cons, List.isChain_singleton, and_true]
          exact ⟨ch l1, ch l2, ch l3⟩)
  have hrep : ∀ m ∈ [m1, m2, m3], Rep m := by
    intro m hm
    simp only [List.mem_cons, List.not_mem_nil, or_false] at hm
    rcases hm with rfl | rfl | rfl
    · exact h.i1.rep
    · exact h.i2.rep
    · exact h.i3.rep
  have e1 : rs (-m0) m0 = 0 := by rw [rs_of_rep (by simpa using Rep.zero)]; ring
  have e2 : re (-m0) m0 = 0 := re_of_rep (by simpa using Rep.zero)
  have := is_quad_add (a := a) (b := -b) (k0 := -m0) (k1 := m0) (ks := [m1, m2, m3].flatMap fun m => [-m, m]) (B := |m0|)
    (r := [0, 0]) h.i0.1 hn.i0.1 hp (by simp) (.of_abs_le h.i0.rep.neg h.i0.rep (by rw [abs_neg])) (by
      intro k hk
      simp only [List.flatMap_cons, List.flatMap_nil, List.mem_cons, List.mem_append, List.not_mem_nil, or_false] at hk
      rcases hk with rfl | rfl | (rfl | rfl) | (rfl | rfl) | (rfl | rfl) <;> (try rw [abs_neg]) <;> omega) hl
    (by rw [e1, e2]; exact loopZ_opp hrep)
    (rn4ok_norm norm2_zero_zero norm2_zero_zero norm2_zero_zero) (by
      intro i
      match i with
      | 0 => show |(0:ℤ)| ≤ _; simp
      | 1 => show |(0:ℤ)| ≤ _; simp
      | i + 2 => show |(0:ℤ)| ≤ _; simp)
  have e := rn4_norm (z := (0, 0, 0, 0)) ⟨norm2_zero_zero, norm2_zero_zero, norm2_zero_zero⟩
  dsimp only at e
  show QIs (a + -b) _
  have e3 : rn4 ([0, 0].getD 0 0) ([0, 0].getD 1 0) ([0, 0].getD 2 0) ([0, 0].getD 3 0) = rn4 0 0 0 0 := rfl
  rw [e3, e] at this
  exact this

/-- `a - a` is zero. -/
theorem quad_sub_self {a : Quad} {z : ℤ × ℤ × ℤ × ℤ} (h : QIs a z) (o : Ord4 z) (hl : 2 ^ 50 * |z.1| ≤ lim) :
    QIs (a - a) (0, 0, 0, 0) := quad_sub_same h h o hl

end Verif
