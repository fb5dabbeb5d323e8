import Verif.Proofs.QuadTies
import Verif.Props.QuadWhole
import Verif.SpecQuadRound

/-!
# C22: `round` of Quads at halves
-/

namespace Verif

open F64 Prim Util

theorem half_units {x : F64} {n : ℤ} (hx : Is x n) (h : Int.fract x.toRat = 1 / 2) : n = fl n * one' + hf := by
  rw [fract_units hx, ← hf_units, div_left_inj' one'_ne] at h
  have : n - fl n * one' = hf := by exact_mod_cast h
  linarith

theorem toRat_pos {x : F64} {n : ℤ} (hx : Is x n) : (0 < x.toRat ↔ 0 < n) ∧ (x.toRat < 0 ↔ n < 0) ∧ (x.toRat = 0 ↔ n = 0) := by
  have hp := one'_posQ
  rw [hx.toRat]
  refine ⟨?_, ?_, ?_⟩
  · rw [div_pos_iff_of_pos_right hp]; exact_mod_cast Iff.rfl
  · rw [div_neg_iff]
    constructor
    · rintro (⟨_, h⟩ | ⟨h, _⟩)
      · linarith
      · exact_mod_cast h
    · intro h; right; exact ⟨by exact_mod_cast h, hp⟩
  · rw [div_eq_zero_iff]
    constructor
    · rintro (h | h)
      · exact_mod_cast h
      · exact absurd h one'_ne
    · intro h; left; exact_mod_cast h

/-- The half described by `TieOk`, in units. -/
theorem tie_at {s c t : F64} {z n y W r : ℤ} (is : Is s z) (ic : Is c n) (it : Is t y)
    (hsum : (0 < z → 0 < W * one' + n) ∧ (z < 0 → W * one' + n < 0)) (h : Quad.TieOk s.toRat c.toRat t.toRat) :
    ∃ k, TieAt W n y r k := by
  obtain ⟨h1, h2⟩ := h
  have e1 := half_units ic h1
  have hp := hf_pos
  have e := one'_hf
  refine ⟨fl n, e1, ?_⟩
  rw [(toRat_pos ic).1, (toRat_pos ic).2.1, (toRat_pos is).1, (toRat_pos is).2.1, ne_eq, (toRat_pos it).2.2] at h2
  have k0 : 0 < n → 0 ≤ fl n := by
    intro h
    by_contra hc
    have : fl n * one' ≤ -1 * one' := mul_le_mul_of_nonneg_right (by omega) one'_pos.le
    omega
  have k1 : n < 0 → fl n < 0 := by
    intro h
    by_contra hc
    have : 0 ≤ fl n * one' := mul_nonneg (by omega) one'_pos.le
    omega
  have s0 : 0 < W * one' + n → 0 ≤ W + fl n := by
    intro h
    by_contra hc
    have : (W + fl n) * one' ≤ -1 * one' := mul_le_mul_of_nonneg_right (by omega) one'_pos.le
    rw [add_mul] at this
    omega
  have s1 : W * one' + n < 0 → W + fl n < 0 := by
    intro h
    by_contra hc
    have : 0 ≤ (W + fl n) * one' := mul_nonneg (by omega) one'_pos.le
    rw [add_mul] at this
    omega
  rcases h2 with ⟨a, b⟩ | ⟨a, b, d⟩
  · left
    refine ⟨k0 a, ?_⟩
    rcases b with b | b
    · exact .inl b
    · exact .inr (s0 (hsum.1 b))
  · exact .inr ⟨k1 a, b, s1 (hsum.2 d)⟩

/-- **C22 (partial), halves.** Quad `round` is the nearest integer, halves away from zero, also when the first component that
is not an integer is a half: a positive one in front of anything, or a negative one at the end of a negative number. For the
other halves the claim is false (`C22_refuted`, `C22_round_refuted`). -/
theorem C22_round_half_partial (q : Quad) (hq : q.Normalized) (hm : |q.c0.toRat| ≤ 2 ^ 1000) (hc : q.RoundTie) :
    q.round.Fin ∧ q.round.val = (roundQ q.val : ℤ) := by
  have i := QIs.of_fin hq.1
  have hn := i.normalized_iff.mp hq
  have hn' := hn
  obtain ⟨n01, n12, n23⟩ := hn'
  simp only at n01 n12 n23
  have l01 := n01.lo_le
  have l12 := n12.lo_le
  have l23 := n23.lo_le
  have hp := one'_pos
  have i0 : Is q.c0 q.c0.units := i.i0
  have i1 : Is q.c1 q.c1.units := i.i1
  have i2 : Is q.c2 q.c2.units := i.i2
  have i3 : Is q.c3 q.c3.units := i.i3
  obtain ⟨z, iz, e⟩ := round_tie_spec i hn (units_max i.i0 hm) (by
    generalize q.c0.units = z0 at *
    generalize q.c1.units = z1 at *
    generalize q.c2.units = z2 at *
    generalize q.c3.units = z3 at *
    have p1 := abs_nonneg z1
    have p2 := abs_nonneg z2
    have p3 := abs_nonneg z3
    norm_num at l01 l12 l23
    have sg : ∀ t, 2 ^ 20 * |t| ≤ |z0| → (0 < z0 → 0 < z0 + t) ∧ (z0 < 0 → z0 + t < 0) := by
      intro t ht
      have := le_abs_self t
      have := neg_abs_le t
      norm_num at ht
      constructor <;> intro h
      · rw [abs_of_pos h] at ht; omega
      · rw [abs_of_neg h] at ht; omega
    have a12 := abs_add_le z1 z2
    have a123 := abs_add_le (z1 + z2) z3
    have wh : ∀ {x : F64} {n : ℤ}, Is x n → Int.fract x.toRat = 0 → ∃ w, n = w * one' := by
      intro x n hx h
      obtain ⟨w, hw⟩ := fract_zero hx h
      exact ⟨w, by rw [hw]; ring⟩
    rcases hc with h | ⟨d, h⟩
    · left
      exact tie_at i0 i0 i1 (by simp) h
    · right
      obtain ⟨w0, hw0⟩ := wh i0 d
      refine ⟨w0, hw0, ?_⟩
      rcases h with h | ⟨d, h⟩
      · left
        refine tie_at i0 i1 i2 ?_ h
        rw [← hw0]; exact sg _ (by norm_num; omega)
      · right
        obtain ⟨w1, hw1⟩ := wh i1 d
        refine ⟨w1, hw1, ?_⟩
        rcases h with h | ⟨d, h⟩
        · left
          refine tie_at i0 i2 i3 ?_ h
          rw [add_mul, ← hw0, ← hw1, add_assoc]; exact sg _ (by norm_num; omega)
        · right
          obtain ⟨w2, hw2⟩ := wh i2 d
          refine ⟨w2, hw2, ?_⟩
          have hz : Is F64.zero 0 := is_zero
          obtain ⟨k, k1, k2⟩ := tie_at (r := 0) (W := w0 + w1 + w2) i0 i3 hz
            (by
              rw [add_mul, add_mul, ← hw0, ← hw1, ← hw2, show z0 + z1 + z2 + z3 = z0 + (z1 + z2 + z3) by ring]
              exact sg _ (by norm_num; omega))
            (by rw [show F64.zero.toRat = 0 from (toRat_pos hz).2.2.mpr rfl]; exact h)
          refine ⟨k, k1, ?_⟩
          rcases k2 with ⟨a, b⟩ | ⟨a, -, b⟩
          · left; exact ⟨a, b.resolve_left (fun h => h rfl)⟩
          · right; exact ⟨a, b⟩)
  refine ⟨iz.fin, ?_⟩
  rw [whole_sum iz e, i.val, round_units]; rfl

/-- `5/2`, `-5/2`, `2^60 + 1/2 - 2^-60` and `-2^120 + 2^60 + 1/2 + 2^-60`. -/
example :
    (let q : Quad := ⟨F64.ofDec false 25 (-1), F64.zero, F64.zero, F64.zero⟩
     q.Normalized ∧ q.RoundTie ∧ q.round.val = 3) ∧
    (let q : Quad := ⟨F64.ofDec true 25 (-1), F64.zero, F64.zero, F64.zero⟩
     q.Normalized ∧ q.RoundTie ∧ q.round.val = -3) ∧
    (let q : Quad := ⟨F64.ofInt (2 ^ 60), F64.ofDec false 5 (-1), (F64.powi Double.two (-60)).neg, F64.zero⟩
     q.Normalized ∧ q.RoundTie ∧ q.round.val = 2 ^ 60) ∧
    (let q : Quad := ⟨F64.ofInt (-2 ^ 120), F64.ofInt (2 ^ 60), F64.ofDec false 5 (-1), F64.powi Double.two (-60)⟩
     q.Normalized ∧ q.RoundTie ∧ q.round.val = -2 ^ 120 + 2 ^ 60 + 1) := by decide +kernel

/-- The other halves are rounded wrongly: `-1/2 + 2^-120` to `-1`, `-2^60 + 1/2` to `-2^60 + 1`, `2^60 - 1/2` to `2^60 - 1`. -/
theorem C22_round_refuted :
    (let q : Quad := ⟨F64.ofDec true 5 (-1), F64.powi Double.two (-120), F64.zero, F64.zero⟩
     q.Normalized ∧ roundQ q.val = 0 ∧ q.round.val = -1) ∧
    (let q : Quad := ⟨F64.ofInt (-2 ^ 60), F64.ofDec false 5 (-1), F64.zero, F64.zero⟩
     q.Normalized ∧ roundQ q.val = -2 ^ 60 ∧ q.round.val = -2 ^ 60 + 1) ∧
    (let q : Quad := ⟨F64.ofInt (2 ^ 60), F64.ofDec true 5 (-1), F64.zero, F64.zero⟩
     q.Normalized ∧ roundQ q.val = 2 ^ 60 ∧ q.round.val = 2 ^ 60 - 1) := by decide +kernel

end Verif
