import Verif.Proofs.Pow2
import Verif.Props.QuadParse
import Verif.Props.QuadWhole
import Verif.Props.Ints

/-!
# C39: `ldexp` with exponents of 1024 and more

The power of two is computed first, as an `f64`, so it is infinite from 1024 on and zero from -1024 down, whatever the operand.
-/

namespace Verif

open F64 Prim Util

theorem pow2_up {n : ℤ} (h : 1024 ≤ n) (h2 : n < 2 ^ 31) : F64.powi Double.two n = .inf false := by
  obtain ⟨k, rfl⟩ := Int.eq_ofNat_of_zero_le (show 0 ≤ n by omega)
  exact (pow2_big (by omega) (by omega)).1

theorem pow2_down {n : ℤ} (h : n ≤ -1024) (h2 : -2 ^ 31 ≤ n) : F64.powi Double.two n = F64.zero := by
  obtain ⟨k, hk⟩ := Int.eq_ofNat_of_zero_le (show 0 ≤ -n by omega)
  have e : n = -(k : ℤ) := by omega
  rw [e]
  exact (pow2_big (by omega) (by omega)).2

theorem mul_inf {x : F64} (hf : x.isFinite = true) (h : x.toRat ≠ 0) : F64.mul x (.inf false) = .inf x.isSignNegative := by
  cases x with
  | nan s => simp [F64.isFinite] at hf
  | inf s => simp [F64.isFinite] at hf
  | fin s m hm =>
    have : m ≠ 0 := by
      rintro rfl
      apply h
      cases s <;> simp [F64.toRat, F64.units]
    simp [F64.mul, this, F64.isSignNegative]

theorem zero_mul_inf {x : F64} (hf : x.isFinite = true) (h : x.toRat = 0) : (F64.mul x (.inf false)).isNan = true := by
  cases x with
  | nan s => simp [F64.isFinite] at hf
  | inf s => simp [F64.isFinite] at hf
  | fin s m hm =>
    have : m = 0 := by
      have i := Is.of_finite (x := .fin s m hm) rfl
      have h1 := i.toRat
      rw [h, eq_comm, div_eq_zero_iff] at h1
      have h2 := h1.resolve_right one'_ne
      have h3 : (F64.fin s m hm).units = 0 := by exact_mod_cast h2
      cases s <;> simpa [F64.units] using h3
    simp [F64.mul, this, F64.isNan]

theorem mul_zero_fin {x : F64} (hf : x.isFinite = true) : Is (F64.mul x F64.zero) 0 :=
  (Is.of_finite hf).mul_rep is_zero (by ring) .zero zero_ovf

/-- **C39, exponents beyond 1023.** For `1024 ≤ n`, `ldexp` of every nonzero finite Double is an infinity with the sign of the
operand, and `ldexp` of zero is NaN; for `n ≤ -1024`, `ldexp` of every finite Double is exactly zero, however large it is. -/
theorem C39_big (a : Double) (n : ℤ) (ha : a.Fin) :
    (1024 ≤ n → n < 2 ^ 31 → a.hi.toRat ≠ 0 → (a.ldexp n).isInfinite = true ∧ (a.ldexp n).isSignNegative = a.isSignNegative) ∧
    (1024 ≤ n → n < 2 ^ 31 → a.hi.toRat = 0 → (a.ldexp n).isNan = true) ∧
    (n ≤ -1024 → -2 ^ 31 ≤ n → (a.ldexp n).Fin ∧ (a.ldexp n).val = 0) := by
  refine ⟨fun h1 h2 h => ?_, fun h1 h2 h => ?_, fun h1 h2 => ?_⟩
  · have e : (a.ldexp n).hi = .inf a.hi.isSignNegative := by
      show F64.mul a.hi (F64.powi Double.two n) = _
      rw [pow2_up h1 h2, mul_inf ha.1 h]
    exact ⟨by unfold Double.isInfinite; rw [e]; rfl, by unfold Double.isSignNegative; rw [e]; rfl⟩
  · show (F64.mul a.hi (F64.powi Double.two n)).isNan = true
    rw [pow2_up h1 h2]
    exact zero_mul_inf ha.1 h
  · have e1 : Is (a.ldexp n).hi 0 := by
      show Is (F64.mul a.hi (F64.powi Double.two n)) 0
      rw [pow2_down h1 h2]; exact mul_zero_fin ha.1
    have e2 : Is (a.ldexp n).lo 0 := by
      show Is (F64.mul a.lo (F64.powi Double.two n)) 0
      rw [pow2_down h1 h2]; exact mul_zero_fin ha.2
    refine ⟨⟨e1.1, e2.1⟩, ?_⟩
    show (a.ldexp n).hi.toRat + (a.ldexp n).lo.toRat = 0
    rw [e1.toRat, e2.toRat]; simp

example : Double.PI.Normalized ∧ Double.PI.hi.toRat ≠ 0 ∧ (Double.PI.ldexp 1024).isInfinite = true ∧ (Double.PI.ldexp (-1024)).val = 0 := by
  decide +kernel

/-- **C39, Quad exponents beyond 1023.** -/
theorem C39_quad_big (a : Quad) (n : ℤ) (ha : a.Fin) :
    (1024 ≤ n → n < 2 ^ 31 → a.c0.toRat ≠ 0 → (a.ldexp n).isInfinite = true ∧ (a.ldexp n).isSignNegative = a.isSignNegative) ∧
    (1024 ≤ n → n < 2 ^ 31 → a.c0.toRat = 0 → (a.ldexp n).isNan = true) ∧
    (n ≤ -1024 → -2 ^ 31 ≤ n → (a.ldexp n).Fin ∧ (a.ldexp n).val = 0) := by
  refine ⟨fun h1 h2 h => ?_, fun h1 h2 h => ?_, fun h1 h2 => ?_⟩
  · have e : (a.ldexp n).c0 = .inf a.c0.isSignNegative := by
      show F64.mul a.c0 (F64.powi Double.two n) = _
      rw [pow2_up h1 h2, mul_inf ha.1 h]
    exact ⟨by unfold Quad.isInfinite; rw [e]; rfl, by unfold Quad.isSignNegative; rw [e]; rfl⟩
  · show (F64.mul a.c0 (F64.powi Double.two n)).isNan = true
    rw [pow2_up h1 h2]
    exact zero_mul_inf ha.1 h
  · have e1 : QIs (a.ldexp n) (0, 0, 0, 0) := by
      have : a.ldexp n = ⟨F64.mul a.c0 F64.zero, F64.mul a.c1 F64.zero, F64.mul a.c2 F64.zero, F64.mul a.c3 F64.zero⟩ := by
        show Quad.ldexp a n = _
        unfold Quad.ldexp
        dsimp only
        rw [pow2_down h1 h2]
      rw [this]
      exact ⟨mul_zero_fin ha.1, mul_zero_fin ha.2.1, mul_zero_fin ha.2.2.1, mul_zero_fin ha.2.2.2⟩
    refine ⟨⟨e1.i0.1, e1.i1.1, e1.i2.1, e1.i3.1⟩, ?_⟩
    rw [e1.val]; simp [sum4]

example : Quad.PI.Fin ∧ Quad.PI.c0.toRat ≠ 0 ∧ (Quad.PI.ldexp 1024).isInfinite = true ∧ (Quad.PI.ldexp (-1024)).val = 0 := by
  decide +kernel

end Verif
