import Verif.Proofs.QuadIntSum
import Verif.Props.QuadAdd
import Verif.Proofs.Same
import Verif.Props.QuadBasic

/-!
# C50: identities of Quad addition; C40: sums of whole Quads
-/

namespace Verif

open F64 Prim Util

theorem sameQuad_of_is {a b : Quad} {z : ℤ × ℤ × ℤ × ℤ} (h : QIs a z) (h' : QIs b z) : SameQuad a b :=
  ⟨.inr ((h.i0.eq_iff h'.i0).mpr rfl), .inr ((h.i1.eq_iff h'.i1).mpr rfl), .inr ((h.i2.eq_iff h'.i2).mpr rfl),
    .inr ((h.i3.eq_iff h'.i3).mpr rfl)⟩

theorem lim_of_le {x : F64} {m : ℤ} (i : Is x m) (h : |x.toRat| ≤ 2 ^ 970) : 2 ^ 50 * |m| ≤ lim := by
  rw [i.toRat, abs_div, abs_of_pos one'_posQ, div_le_iff₀ one'_posQ, one'_pow, ← pow_add] at h
  have h' : |m| ≤ 2 ^ (970 + 1074) := by exact_mod_cast h
  have e : lim = 3 * 2 ^ 52 * 2 ^ (970 + 1074) := by
    unfold lim; rw [mul_assoc, ← pow_add]
  rw [e]
  clear h e
  have : (0:ℤ) < 2 ^ (970 + 1074) := by positivity
  generalize (2:ℤ) ^ (970 + 1074) = P at *
  omega

/-- **C50.** `a + 0` is `a`, component by component, for all normalized Quads up to `2^970`. -/
theorem C50_add_zero (a : Quad) (h : a.Normalized) (hb : |a.c0.toRat| ≤ 2 ^ 970) : SameQuad (a + Quad.ZERO) a := by
  have q := QIs.of_fin h.1
  exact sameQuad_of_is (quad_add_zero q (q.normalized_iff.mp h) (lim_of_le q.i0 hb)) q

/-- **C50.** `a - 0` is `a`, component by component, for all normalized Quads up to `2^970`. -/
theorem C50_sub_zero (a : Quad) (h : a.Normalized) (hb : |a.c0.toRat| ≤ 2 ^ 970) : SameQuad (a - Quad.ZERO) a := by
  have q := QIs.of_fin h.1
  have n := q.normalized_iff.mp h
  have h1 : SameQuad (- -a - - -Quad.ZERO) (-(-a - -Quad.ZERO)) := C50_sub_neg (-a) (-Quad.ZERO)
  rw [C06_quad_neg_neg, C06_quad_neg_neg] at h1
  have e : -a - -Quad.ZERO = -a + Quad.ZERO := by
    rw [C50_sub_eq_add_neg, C06_quad_neg_neg]
  rw [e] at h1
  have q' := quad_add_zero q.neg n.neg (by show 2 ^ 50 * |-_| ≤ lim; rw [abs_neg]; exact lim_of_le q.i0 hb)
  have q2 := q'.neg
  rw [neg_neg] at q2
  have h2 := sameQuad_of_is q2 q
  obtain ⟨a0, a1, a2, a3⟩ := h1
  obtain ⟨b0, b1, b2, b3⟩ := h2
  rw [sameF64_iff] at *
  refine ⟨?_, ?_, ?_, ?_⟩ <;> rw [sameF64_iff] at *
  · exact a0.trans b0
  · exact a1.trans b1
  · exact a2.trans b2
  · exact a3.trans b3

/-- **C50.** `a - a` is zero in every component, for all ordered (so for all normalized) Quads up to `2^970`. -/
theorem C50_sub_self (a : Quad) (h : a.Ordered) (hb : |a.c0.toRat| ≤ 2 ^ 970) : SameQuad (a - a) Quad.ZERO := by
  have q := QIs.of_fin h.1
  exact sameQuad_of_is (quad_sub_self q (q.ordered_iff.mp h) (lim_of_le q.i0 hb)) ⟨is_zero, is_zero, is_zero, is_zero⟩

example : Quad.PI.Normalized ∧ Quad.PI.Ordered ∧ |Quad.PI.c0.toRat| ≤ 2 ^ 970 := by decide +kernel

/-- **C50.** Subtraction is as accurate as addition. -/
theorem C50_sub_accurate (a b : Quad) (ha : a.Ordered) (hb : b.Ordered)
    (ha' : |a.c0.toRat| ≤ 2 ^ 1016) (hb' : |b.c0.toRat| ≤ 2 ^ 1016) :
    (a - b).Fin ∧ |(a - b).val - (a.val - b.val)| ≤ max |a.val| |b.val| / 2 ^ 150 := by
  have qb := QIs.of_fin hb.1
  have ob : (-b).Ordered := qb.neg.ordered_iff.mpr (qb.ordered_iff.mp hb).neg
  have hv : (-b).val = -b.val := by rw [qb.neg.val, qb.val, sum4_neg]; push_cast; ring
  have hn : |(-b).c0.toRat| ≤ 2 ^ 1016 := by
    rw [qb.neg.i0.toRat]
    show |((-b.c0.units : ℤ) : ℚ) / one'| ≤ _
    rw [qb.i0.toRat] at hb'
    rw [show (((-b.c0.units : ℤ) : ℚ) / one') = -(((b.c0.units : ℤ) : ℚ) / one') by push_cast; ring, abs_neg]
    exact hb'
  have := C50_accurate a (-b) ha ob ha' hn
  rw [hv, abs_neg, ← sub_eq_add_neg] at this
  exact this

example : Quad.PI.Ordered ∧ Quad.E.Ordered ∧ |Quad.PI.c0.toRat| ≤ 2 ^ 1016 ∧ |Quad.E.c0.toRat| ≤ 2 ^ 1016 := by
  decide +kernel

/-! ### C40 -/

/-- Normalized Quads with whole exact values. -/
def WholesQ (l : List Quad) (ns : List ℤ) : Prop :=
  List.Forall₂ (fun (q : Quad) (n : ℤ) => q.Normalized ∧ q.val = (n : ℚ)) l ns

theorem quad_whole_iff {q : Quad} {n : ℤ} (h : q.Normalized) (e : q.val = n) (hb : |n| ≤ 2 ^ 102) :
    ∃ m0 m1, QIs q (m0, m1, 0, 0) ∧ Norm2 m0 m1 ∧ one' ∣ m0 ∧ one' ∣ m1 ∧ m0 + m1 = n * one' := by
  have i := QIs.of_fin h.1
  have n4 := i.normalized_iff.mp h
  obtain ⟨n1, n2, n3⟩ := n4
  dsimp only at n1 n2 n3
  have es : q.c0.units + q.c1.units + q.c2.units + q.c3.units = n * one' := by
    rw [i.val, div_eq_iff one'_ne] at e
    unfold sum4 at e
    exact_mod_cast e
  have eo : one' = 2 ^ 1074 := by unfold one'; rfl
  rw [eo] at es ⊢
  obtain ⟨d0, d1, z2, z3⟩ := whole4 (k := 1074) n1 n2 n3 (by rw [es]; exact Dvd.intro_left n rfl) (by
    rw [es, abs_mul, abs_of_pos (by positivity : (0:ℤ) < 2 ^ 1074)]
    exact mul_le_mul_of_nonneg_right (hb.trans (by norm_num)) (by positivity))
  rw [z2, z3] at i es
  exact ⟨_, _, i, n1, d0, d1, by linarith⟩

theorem quad_add_int {a b : Quad} {m n : ℤ} (ha : a.Normalized) (ea : a.val = m) (hb : b.Normalized) (eb : b.val = n)
    (h : |m| + |n| ≤ 2 ^ 102) : (a + b).Normalized ∧ (a + b).val = ((m + n : ℤ) : ℚ) := by
  have h1 := abs_nonneg m
  have h2 := abs_nonneg n
  obtain ⟨m0, m1, ia, na, da0, da1, sa⟩ := quad_whole_iff ha ea (by omega)
  obtain ⟨n0, n1, ib, nb, db0, db1, sb⟩ := quad_whole_iff hb eb (by omega)
  have eo : one' = 2 ^ 1074 := by unfold one'; rfl
  obtain ⟨p, q, iq, npq, e⟩ := quad_add_whole (k := 1074) ia ib na nb (eo ▸ da0) (eo ▸ da1) (eo ▸ db0) (eo ▸ db1) (by
      rw [sa, sb, eo, abs_mul, abs_mul, abs_of_pos (by positivity : (0:ℤ) < 2 ^ 1074), ← add_mul]
      exact mul_le_mul_of_nonneg_right h (by positivity)) (by
      unfold lim
      have e1 : (2:ℤ) ^ 2096 = 2 ^ 160 * 2 ^ 1074 * 2 ^ 862 := by rw [← pow_add, ← pow_add]
      rw [e1]
      have h3 : (1:ℤ) ≤ 2 ^ 862 := one_le_pow₀ (by norm_num)
      have h4 : (0:ℤ) ≤ 2 ^ 160 * 2 ^ 1074 := by positivity
      clear ea eb sa sb
      generalize (2:ℤ) ^ 160 * 2 ^ 1074 = P at *
      generalize (2:ℤ) ^ 862 = Q at *
      nlinarith)
  refine ⟨iq.normalized_iff.mpr ⟨npq, norm2_zero_right npq.rep_lo, norm2_zero_zero⟩, ?_⟩
  rw [iq.val]
  unfold sum4
  dsimp only
  rw [show p + q + 0 + 0 = (m + n) * one' by rw [add_zero, add_zero, e, sa, sb]; ring]
  push_cast
  rw [mul_div_assoc, div_self one'_ne, mul_one]

theorem foldl_quad_add_int {l : List Quad} {ns : List ℤ} (h : WholesQ l ns) :
    ∀ {s : Quad} {m : ℤ}, s.Normalized → s.val = m → |m| + (ns.map (|·|)).sum ≤ 2 ^ 102 →
      (l.foldl (fun a b => a + b) s).Normalized ∧ (l.foldl (fun a b => a + b) s).val = ((m + ns.sum : ℤ) : ℚ) := by
  induction h with
  | nil => intro s m hs e _; simpa using ⟨hs, e⟩
  | @cons d n l ns h1 h2 ih =>
    intro s m hs e hb
    rw [List.map_cons, List.sum_cons] at hb
    have hn : 0 ≤ (ns.map (|·|)).sum := List.sum_nonneg (by simp)
    obtain ⟨k1, k2⟩ := quad_add_int hs e h1.1 h1.2 (by omega)
    have := ih k1 k2 (by have := abs_add_le m n; omega)
    rw [List.foldl_cons, List.sum_cons, ← add_assoc]
    exact this

/-- **C40.** Quad `sum()` of any number of whole items is the exact sum, as long as the absolute values of the items add
up to at most `2^102`. -/
theorem C40_quad_sum_int (l : List Quad) (ns : List ℤ) (h : WholesQ l ns) (hb : (ns.map (|·|)).sum ≤ 2 ^ 102) :
    (Quad.sum l).Normalized ∧ (Quad.sum l).val = ((ns.sum : ℤ) : ℚ) := by
  have h0 : Quad.ZERO.Normalized ∧ Quad.ZERO.val = ((0:ℤ) : ℚ) := by decide +kernel
  have := foldl_quad_add_int h h0.1 h0.2 (by simpa using hb)
  simpa [Quad.sum] using this

example : WholesQ [Quad.ofU64 (2 ^ 64 - 1), Quad.ofI64 (-7), Quad.ofU64 (2 ^ 63 + 1)] [2 ^ 64 - 1, -7, 2 ^ 63 + 1] ∧
    (([2 ^ 64 - 1, -7, 2 ^ 63 + 1] : List ℤ).map (|·|)).sum ≤ 2 ^ 102 := by
  refine ⟨.cons ?_ (.cons ?_ (.cons ?_ .nil)), ?_⟩ <;> decide +kernel

end Verif
