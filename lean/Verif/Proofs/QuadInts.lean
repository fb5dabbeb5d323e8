import Verif.SpecQuad
import Verif.Proofs.Renorm4
import Verif.Proofs.Ints

/-!
# Integers as Quads
-/

namespace Verif

open F64 Prim Util

/-- Units of the components of a Quad. -/
def QIs (q : Quad) (z : ℤ × ℤ × ℤ × ℤ) : Prop := TIs (q.c0, q.c1, q.c2, q.c3) z

theorem QIs.fin {q : Quad} {z : ℤ × ℤ × ℤ × ℤ} (h : QIs q z) : q.Fin := ⟨h.i0.1, h.i1.1, h.i2.1, h.i3.1⟩

theorem QIs.val {q : Quad} {z : ℤ × ℤ × ℤ × ℤ} (h : QIs q z) : q.val = (sum4 z : ℚ) / one' := by
  unfold Quad.val sum4
  rw [h.i0.toRat, h.i1.toRat, h.i2.toRat, h.i3.toRat]
  push_cast
  ring

theorem QIs.of_fin {q : Quad} (h : q.Fin) : QIs q (q.c0.units, q.c1.units, q.c2.units, q.c3.units) :=
  ⟨.of_finite h.1, .of_finite h.2.1, .of_finite h.2.2.1, .of_finite h.2.2.2⟩


theorem toRat_le_iff {x y : F64} {m n : ℤ} (hx : Is x m) (hy : Is y n) (c : ℤ) :
    (c:ℚ) * |x.toRat| ≤ |y.toRat| ↔ c * |m| ≤ |n| := by
  have h := one'_posQ
  rw [hx.toRat, hy.toRat, abs_div, abs_div, abs_of_pos h, ← mul_div_assoc, div_le_div_iff_of_pos_right h]
  exact_mod_cast Iff.rfl

theorem QIs.ordered_iff {q : Quad} {z : ℤ × ℤ × ℤ × ℤ} (h : QIs q z) : q.Ordered ↔ Ord4 z := by
  unfold Quad.Ordered Ord4
  have e1 := toRat_le_iff h.i1 h.i0 (2 ^ 52)
  have e2 := toRat_le_iff h.i2 h.i1 (2 ^ 52)
  have e3 := toRat_le_iff h.i3 h.i2 (2 ^ 52)
  rw [← e1, ← e2, ← e3]
  push_cast
  exact and_iff_right h.fin

/-- Pairwise normalized. -/
def Norm4 (z : ℤ × ℤ × ℤ × ℤ) : Prop := Norm2 z.1 z.2.1 ∧ Norm2 z.2.1 z.2.2.1 ∧ Norm2 z.2.2.1 z.2.2.2

theorem eq_add_iff {x y : F64} {m n : ℤ} (hx : Is x m) (hy : Is y n) :
    F64.eq (F64.add x y) x = true ↔ Norm2 m n := by
  have h : DIs ⟨x, y⟩ m n := ⟨hx, hy⟩
  constructor
  · intro e
    have hn : (⟨x, y⟩ : Double).Normalized := ⟨h.fin, e⟩
    obtain ⟨a, b, i, k⟩ := hn.norm2
    rw [hx.unique i.1, hy.unique i.2]; exact k
  · intro k; exact (k.normalized h).2

theorem QIs.normalized_iff {q : Quad} {z : ℤ × ℤ × ℤ × ℤ} (h : QIs q z) : q.Normalized ↔ Norm4 z := by
  unfold Quad.Normalized Norm4
  rw [← eq_add_iff h.i0 h.i1, ← eq_add_iff h.i1 h.i2, ← eq_add_iff h.i2 h.i3]
  exact and_iff_right h.fin

theorem Norm4.ord {z : ℤ × ℤ × ℤ × ℤ} (h : Norm4 z) : Ord4 z := by
  have h1 := h.1.lo_le
  have h2 := h.2.1.lo_le
  have h3 := h.2.2.lo_le
  have := abs_nonneg z.2.1
  have := abs_nonneg z.2.2.1
  have := abs_nonneg z.2.2.2
  unfold Ord4
  refine ⟨?_, ?_, ?_⟩ <;> omega

theorem Norm2.neg {h l : ℤ} (n : Norm2 h l) : Norm2 (-h) (-l) :=
  ⟨n.rep_hi.neg, n.rep_lo.neg, by
    rw [show ((-h + -l : ℤ) : ℚ) = -((h + l : ℤ) : ℚ) by push_cast; ring, rnd_neg, n.rnd_eq]⟩

theorem Norm4.neg {z : ℤ × ℤ × ℤ × ℤ} (h : Norm4 z) : Norm4 (-z) := ⟨h.1.neg, h.2.1.neg, h.2.2.neg⟩

/-- `renorm4` of two components. -/
theorem rn4_two {a b : ℤ} (ra : Rep a) (rb : Rep b) : rn4 a b 0 0 = (rs a b, re a b, 0, 0) := by
  have z1 : rs 0 0 = 0 := by rw [rs_of_rep Rep.zero]; rfl
  have z2 : re 0 0 = 0 := re_of_rep Rep.zero
  have z3 : ∀ x, Rep x → rs x 0 = x := fun x hx => by rw [rs_of_rep (by simpa using hx), add_zero]
  have z4 : ∀ x, Rep x → re x 0 = 0 := fun x hx => re_of_rep (by simpa using hx)
  unfold rn4
  simp only [z1, z2, z3 b rb, z4 b rb, z3 _ (rep_rs a b), z4 _ (rep_rs a b), ne_eq, not_true_eq_false, if_false]
  have hre : Rep (re a b) := rep_re ra rb
  rw [z3 _ hre, z4 _ hre]
  simp only [not_true_eq_false, if_false, z3 _ hre, z4 _ hre]
  split_ifs with h
  · rw [h]
  · rfl

theorem norm2_zero_zero : Norm2 0 0 := ⟨Rep.zero, Rep.zero, by rw [add_zero]; exact rnd_of_rep Rep.zero⟩

theorem rn4_two_norm {a b : ℤ} (ra : Rep a) (rb : Rep b) : Norm4 (rn4 a b 0 0) := by
  rw [rn4_two ra rb]
  have h := norm2_rs_re ra rb
  exact ⟨h, norm2_zero_right h.rep_lo, norm2_zero_zero⟩

theorem QIs.neg {q : Quad} {z : ℤ × ℤ × ℤ × ℤ} (h : QIs q z) : QIs (-q) (-z) := ⟨h.i0.neg, h.i1.neg, h.i2.neg, h.i3.neg⟩

theorem Ord4.neg {z : ℤ × ℤ × ℤ × ℤ} (h : Ord4 z) : Ord4 (-z) := by
  unfold Ord4 at *
  simpa [abs_neg] using h

theorem sum4_neg (z : ℤ × ℤ × ℤ × ℤ) : sum4 (-z) = -sum4 z := by
  unfold sum4
  simp only [Prod.fst_neg, Prod.snd_neg]
  ring

theorem grid_of_zero_or {a b : ℤ} (ha : Rep a) (hb : Rep b) (h : a = 0 ∨ |b| ≤ |a|) : Grid a b := by
  rcases h with rfl | h
  · exact Grid.zero_left hb
  · exact Grid.of_abs_le ha hb h

/-- Pieces that do not overlap can be renormalized without loss. -/
theorem rn4ok_of_pieces {a b c d : ℤ} {p0 p1 p2 : ℕ} (ra : Rep a) (rb : Rep b) (rc : Rep c) (rd : Rep d)
    (hd : |d| ≤ 2 ^ p0) (hc : c = 0 ∨ 2 ^ p0 ≤ |c|) (hcd : |c| + |d| ≤ 2 ^ p1) (hb : b = 0 ∨ 2 ^ p1 ≤ |b|)
    (hbc : |b| + 2 ^ p1 ≤ 2 ^ p2) (ha : a = 0 ∨ 2 ^ p2 ≤ |a|) : Rn4Ok a b c d := by
  have t1 := abs_add_le c d
  have u1 : |rs c d| ≤ 2 ^ p1 := abs_rnd_le (Rep.two_pow _) (by
    have : |c + d| ≤ 2 ^ p1 := t1.trans hcd
    exact_mod_cast this)
  have t2 := abs_add_le b (rs c d)
  have u2 : |rs b (rs c d)| ≤ 2 ^ p2 := abs_rnd_le (Rep.two_pow _) (by
    have : |b + rs c d| ≤ 2 ^ p2 := by linarith
    exact_mod_cast this)
  refine ⟨ra, rb, rc, rd, grid_of_zero_or rc rd ?_, grid_of_zero_or rb (rep_rs _ _) ?_, grid_of_zero_or ra (rep_rs _ _) ?_,
    grid_of_zero_or ra (rep_rs _ _) ?_⟩
  · exact hc.imp_right fun h => hd.trans h
  · exact hb.imp_right fun h => u1.trans h
  · exact ha.imp_right fun h => u2.trans h
  · have := abs_nonneg b
    exact ha.imp_right fun h => by linarith

theorem pow_le_lim {k : ℕ} (h : k ≤ 2096) : (2:ℤ) ^ k ≤ lim := by
  unfold lim
  have h1 : (2:ℤ) ^ k ≤ 2 ^ 2096 := pow_le_pow_right₀ (by norm_num) h
  generalize (2:ℤ) ^ 2096 = X at *
  have : (0:ℤ) < 2 ^ k := by positivity
  omega

theorem qis_of_renorm4 {a b c d : F64} {z : ℤ × ℤ × ℤ × ℤ} (h : TIs (renorm4 a b c d) z) :
    QIs (Quad.ofRenorm4 a b c d) z := h

theorem pow64 : F64.powi Double.two 64 = F64.ofInt (2 ^ 64) := by decide +kernel
theorem pow96 : F64.powi Double.two 96 = F64.ofInt (2 ^ 96) := by decide +kernel
theorem is_ofInt_pow (k : ℕ) (hk : k < 1024) : Is (F64.ofInt (2 ^ k)) (2 ^ k * one') := by
  unfold F64.ofInt
  have e : (2:ℤ) ^ k * one' = 2 ^ (k + 1074) := by unfold one'; rw [pow_add]
  apply is_ofRound_units _ _ (by rw [e]; exact Rep.two_pow _) (by rw [e]; exact pow_lt_ovf (by omega))
  rw [Nat.cast_mul, one'_nat, decide_eq_false (not_lt.mpr (by positivity)), if_neg (by simp), Int.natAbs_of_nonneg (by positivity)]

/-- One 32-bit piece of an integer. -/
theorem is_piece {x k : ℕ} {f : F64} (hx : x < 2 ^ 32) (hk : k ≤ 96) (hf : Is f (2 ^ k * one')) :
    Is (F64.mul (F64.ofInt x) f) ((x:ℤ) * 2 ^ k * one') := by
  have ix : Is (F64.ofInt (x:ℤ)) ((x:ℤ) * one') := is_ofInt (by rw [abs_of_nonneg (by positivity)]; omega)
  apply ix.mul_rep hf (by ring)
  · exact ⟨x, k + 1074, by rw [abs_of_nonneg (by positivity)]; omega, by unfold one'; rw [pow_add]; ring⟩
  · apply mul_one'_lt (k := 32 + k) _ (by omega)
    rw [abs_of_nonneg (by positivity), pow_add]
    have : (x:ℤ) ≤ 2 ^ 32 := by exact_mod_cast hx.le
    exact mul_le_mul_of_nonneg_right this (by positivity)

theorem rep_piece {x k : ℕ} (hx : x < 2 ^ 32) : Rep ((x:ℤ) * 2 ^ k * one') :=
  ⟨x, k + 1074, by rw [abs_of_nonneg (by positivity)]; omega, by unfold one'; rw [pow_add]; ring⟩

theorem piece_big {x k : ℕ} : (x:ℤ) * 2 ^ k * one' = 0 ∨ (2:ℤ) ^ (k + 1074) ≤ |(x:ℤ) * 2 ^ k * one'| := by
  rcases Nat.eq_zero_or_pos x with rfl | h
  · left; push_cast; ring
  · right
    rw [abs_of_nonneg (by have := one'_pos; positivity), pow_add, show (2:ℤ) ^ 1074 = one' by unfold one'; rfl]
    have h1 : (1:ℤ) ≤ x := by exact_mod_cast h
    have hp := one'_pos
    exact mul_le_mul_of_nonneg_right (le_mul_of_one_le_left (by positivity) h1) hp.le

theorem piece_le {x k : ℕ} (hx : x < 2 ^ 32) : |(x:ℤ) * 2 ^ k * one'| ≤ (2 ^ 32 - 1) * 2 ^ k * one' := by
  have hp := one'_pos
  rw [abs_of_nonneg (by positivity)]
  have h1 : (x:ℤ) ≤ 2 ^ 32 - 1 := by
    have : (x:ℤ) < 2 ^ 32 := by exact_mod_cast hx
    linarith
  exact mul_le_mul_of_nonneg_right (mul_le_mul_of_nonneg_right h1 (by positivity)) hp.le

/-- Four 32-bit pieces. -/
theorem rn4ok_pieces {w x y z : ℕ} (hw : w < 2 ^ 32) (hx : x < 2 ^ 32) (hy : y < 2 ^ 32) (hz : z < 2 ^ 32) :
    Rn4Ok ((w:ℤ) * 2 ^ 96 * one') ((x:ℤ) * 2 ^ 64 * one') ((y:ℤ) * 2 ^ 32 * one') ((z:ℤ) * 2 ^ 0 * one') := by
  have hp := one'_pos
  have e : ∀ k : ℕ, (2:ℤ) ^ (k + 1074) = 2 ^ k * one' := fun k => by unfold one'; rw [pow_add]
  have l1 := piece_le (k := 64) hx
  have l2 := piece_le (k := 32) hy
  have l3 := piece_le (k := 0) hz
  apply rn4ok_of_pieces (p0 := 32 + 1074) (p1 := 64 + 1074) (p2 := 96 + 1074) (rep_piece hw) (rep_piece hx) (rep_piece hy)
    (rep_piece hz) _ piece_big _ piece_big _ piece_big
  · rw [e]; norm_num at l3 ⊢; linarith
  · rw [e]; norm_num at l3 l2 ⊢; linarith
  · rw [e, e]; norm_num at l1 ⊢; linarith

theorem pieces_lim {w x y z : ℕ} (hw : w < 2 ^ 32) (hx : x < 2 ^ 32) (hy : y < 2 ^ 32) (hz : z < 2 ^ 32) :
    1024 * (|(w:ℤ) * 2 ^ 96 * one'| + |(x:ℤ) * 2 ^ 64 * one'| + |(y:ℤ) * 2 ^ 32 * one'| + |(z:ℤ) * 2 ^ 0 * one'|) ≤ lim := by
  have hp := one'_pos
  have hq : 2 ^ 200 * one' ≤ lim := by
    unfold one'; rw [← pow_add]; exact pow_le_lim (by norm_num)
  have l0 := piece_le (k := 96) hw
  have l1 := piece_le (k := 64) hx
  have l2 := piece_le (k := 32) hy
  have l3 := piece_le (k := 0) hz
  norm_num at l0 l1 l2 l3 hq ⊢
  linarith

/-- `from_u128`. -/
theorem qis_ofU128 (a : ℕ) (h : a < 2 ^ 128) :
    ∃ z, QIs (Quad.ofU128 a) z ∧ Ord4 z ∧ sum4 z = (a:ℤ) * one' := by
  have hz : ∀ n : ℕ, n % 2 ^ 32 < 2 ^ 32 := fun n => Nat.mod_lt _ (by norm_num)
  have i96 : Is (F64.powi Double.two 96) (2 ^ 96 * one') := by rw [pow96]; exact is_ofInt_pow _ (by norm_num)
  have i64 : Is (F64.powi Double.two 64) (2 ^ 64 * one') := by rw [pow64]; exact is_ofInt_pow _ (by norm_num)
  have i32 : Is (F64.powi Double.two 32) (2 ^ 32 * one') := by rw [pow32]; exact is_ofInt_pow _ (by norm_num)
  have ok := rn4ok_pieces (hz (a / 2 ^ 96)) (hz (a / 2 ^ 64)) (hz (a / 2 ^ 32)) (hz a)
  have lm := pieces_lim (hz (a / 2 ^ 96)) (hz (a / 2 ^ 64)) (hz (a / 2 ^ 32)) (hz a)
  have i0 : Is (F64.ofInt ((a % 2 ^ 32 : ℕ) : ℤ)) (((a % 2 ^ 32 : ℕ) : ℤ) * 2 ^ 0 * one') := by
    have := is_ofInt (n := ((a % 2 ^ 32 : ℕ) : ℤ)) (by rw [abs_of_nonneg (by positivity)]; have := hz a; omega)
    exact this.congr (by ring)
  unfold Quad.ofU128
  refine ⟨_, qis_of_renorm4 (is_renorm4 (is_piece (hz _) (by norm_num) i96) (is_piece (hz _) (by norm_num) i64)
    (is_piece (hz _) (by norm_num) i32) i0 ok lm), rn4_ord ok, ?_⟩
  rw [rn4_sum, ← add_mul, ← add_mul, ← add_mul]
  congr 1
  have e : a / 2 ^ 96 % 2 ^ 32 * 2 ^ 96 + a / 2 ^ 64 % 2 ^ 32 * 2 ^ 64 + a / 2 ^ 32 % 2 ^ 32 * 2 ^ 32 + a % 2 ^ 32 * 2 ^ 0 = a := by
    omega
  exact_mod_cast e

/-- `from_u64`. -/
theorem qis_ofU64 (a : ℕ) (h : a < 2 ^ 64) :
    ∃ z, QIs (Quad.ofU64 a) z ∧ Norm4 z ∧ sum4 z = (a:ℤ) * one' := by
  have hz : ∀ n : ℕ, n % 2 ^ 32 < 2 ^ 32 := fun n => Nat.mod_lt _ (by norm_num)
  have i32 : Is (F64.powi Double.two 32) (2 ^ 32 * one') := by rw [pow32]; exact is_ofInt_pow _ (by norm_num)
  have e : ∀ k : ℕ, (2:ℤ) ^ (k + 1074) = 2 ^ k * one' := fun k => by unfold one'; rw [pow_add]
  have hp := one'_pos
  have l1 := piece_le (k := 32) (hz (a / 2 ^ 32))
  have l2 := piece_le (k := 0) (hz a)
  have lm := pieces_lim (w := 0) (x := 0) (by norm_num) (by norm_num) (hz (a / 2 ^ 32)) (hz a)
  have ok : Rn4Ok (((a / 2 ^ 32 % 2 ^ 32 : ℕ) : ℤ) * 2 ^ 32 * one') (((a % 2 ^ 32 : ℕ) : ℤ) * 2 ^ 0 * one') 0 0 := by
    apply rn4ok_of_pieces (p0 := 0) (p1 := 0 + 1074) (p2 := 32 + 1074) (rep_piece (hz _)) (rep_piece (hz _)) Rep.zero
      Rep.zero (by simp) (Or.inl rfl) _ piece_big _ piece_big
    · simp
    · rw [e, e]; norm_num at l2 ⊢; linarith
  have i0 : Is (F64.ofInt ((a % 2 ^ 32 : ℕ) : ℤ)) (((a % 2 ^ 32 : ℕ) : ℤ) * 2 ^ 0 * one') := by
    have := is_ofInt (n := ((a % 2 ^ 32 : ℕ) : ℤ)) (by rw [abs_of_nonneg (by positivity)]; have := hz a; omega)
    exact this.congr (by ring)
  unfold Quad.ofU64
  refine ⟨_, qis_of_renorm4 (is_renorm4 (is_piece (hz _) (by norm_num) i32) i0 is_zero is_zero ok ?_), rn4_two_norm ok.ra ok.rb, ?_⟩
  · simp only [Nat.cast_zero, zero_mul, abs_zero, zero_add, add_zero] at lm ⊢
    exact lm
  · rw [rn4_sum, ← add_mul, add_zero, add_zero]
    congr 1
    have e : a / 2 ^ 32 % 2 ^ 32 * 2 ^ 32 + a % 2 ^ 32 * 2 ^ 0 = a := by omega
    exact_mod_cast e

end Verif
