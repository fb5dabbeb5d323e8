import Verif.Props.Ldexp

/-!
# Powers of two beyond the range of `f64`
-/

namespace Verif

open F64

/-- `x` is `2^p`, or infinity if that overflows. -/
def PV (x : F64) (p : ℕ) : Prop := (p ≤ 1023 ∧ Is x (2 ^ p * one')) ∨ (1024 ≤ p ∧ x = .inf false)

theorem fin_of_pow {x : F64} {i : ℕ} (h : Is x (2 ^ i * one')) : ∃ m hm, x = .fin false m hm ∧ (m : ℤ) = 2 ^ i * one' ∧ m ≠ 0 := by
  obtain ⟨s, m, hm, e, e2⟩ := h.exists
  have hp : (0:ℤ) < 2 ^ i * one' := by have := one'_pos; positivity
  have hs : s = false := by
    cases s with
    | false => rfl
    | true => simp at e2; omega
  subst hs
  have e3 : (2 ^ i * one' : ℤ) = (m : ℤ) := by simpa using e2
  exact ⟨m, hm, e, e3.symm, by omega⟩

theorem PV.mul {x y : F64} {i j : ℕ} (hx : PV x i) (hy : PV y j) : PV (F64.mul x y) (i + j) := by
  have rp : ∀ k : ℕ, Rep (2 ^ k * one') := fun k => ⟨1, k + 1074, by norm_num, by unfold one'; rw [pow_add]; ring⟩
  rcases hx with ⟨a1, a2⟩ | ⟨a1, rfl⟩
  · obtain ⟨m, hm, rfl, em, zm⟩ := fin_of_pow a2
    rcases hy with ⟨b1, b2⟩ | ⟨b1, rfl⟩
    · by_cases hij : i + j ≤ 1023
      · left
        refine ⟨hij, a2.mul_rep b2 (by rw [pow_add]; ring) (rp _) (mul_one'_lt (k := i + j) (by rw [abs_of_pos (by have := one'_pos; positivity)]) (by omega))⟩
      · right
        obtain ⟨n, hn, rfl, en, zn⟩ := fin_of_pow b2
        refine ⟨by omega, ?_⟩
        have e : F64.mul (.fin false m hm) (.fin false n hn) = F64.ofRound (false != false) (m * n) (2 ^ 1074) := rfl
        rw [e]
        have hq : ((2 ^ (i + j) * one' : ℤ) : ℚ) = (if (false != false) = true then -1 else 1) * (((m * n : ℕ) : ℚ) / ((2 ^ 1074 : ℕ) : ℚ)) := by
          have h1 : ((m * n : ℕ) : ℚ) = (2 ^ i * one' : ℚ) * (2 ^ j * one') := by
            push_cast
            rw [show (m : ℚ) = ((m : ℤ) : ℚ) by push_cast; rfl, show (n : ℚ) = ((n : ℤ) : ℚ) by push_cast; rfl, em, en]
            push_cast; rfl
          have h2 : ((2 ^ 1074 : ℕ) : ℚ) = (one' : ℚ) := by unfold one'; rw [Nat.cast_pow, Int.cast_pow]; rfl
          rw [h1, h2]
          have := one'_posQ.ne'
          rw [if_neg (by decide)]
          push_cast
          rw [pow_add]
          field_simp
        have := ofRound_inf (s := false != false) (Nat.two_pow_pos 1074) hq (by
          rw [rnd_of_rep (rp _), abs_of_pos (by have := one'_pos; positivity)]
          unfold ovf one'
          rw [← pow_add]
          exact pow_le_pow_right₀ (by norm_num) (by omega))
        rw [this]; rfl
    · right
      refine ⟨by omega, ?_⟩
      unfold F64.mul
      simp only [if_neg zm]; rfl
  · right
    refine ⟨by omega, ?_⟩
    rcases hy with ⟨b1, b2⟩ | ⟨b1, rfl⟩
    · obtain ⟨n, hn, rfl, en, zn⟩ := fin_of_pow b2
      unfold F64.mul
      simp only [if_neg zn]; rfl
    · rfl

theorem pv_powiAux : ∀ (fuel n : ℕ) {a r : F64} {p q : ℕ}, n < 2 ^ fuel → PV a p → PV r q → 0 < n →
    PV (F64.powiAux fuel n a r) (q + n * p) := by
  intro fuel
  induction fuel with
  | zero => intro n a r p q hn _ _ h0; simp at hn; omega
  | succ fuel ih =>
    intro n a r p q hn ia ir h0
    unfold F64.powiAux
    have e2 : n * p = (n % 2) * p + (n / 2) * (p + p) := by
      have : n = n % 2 + (n / 2) * 2 := by omega
      calc n * p = (n % 2 + (n / 2) * 2) * p := by rw [← this]
        _ = _ := by ring
    have hr : PV (if n % 2 = 1 then F64.mul r a else r) (q + n % 2 * p) := by
      rcases Nat.mod_two_eq_zero_or_one n with h | h
      · rw [h, if_neg (by norm_num), zero_mul, add_zero]; exact ir
      · rw [h, if_pos rfl, one_mul]
        exact ir.mul ia
    simp only []
    by_cases h2 : n / 2 = 0
    · rw [if_pos h2]
      rw [h2, zero_mul, add_zero] at e2
      rw [e2]; exact hr
    · rw [if_neg h2]
      have := ih (n / 2) (by rw [pow_succ] at hn; omega) (ia.mul ia) hr (by omega)
      rw [e2, ← add_assoc]; exact this

/-- `2f64.powi(n)` overflows from 1024 on, and underflows to zero (by way of infinity) from -1024 down. -/
theorem pow2_big {n : ℕ} (h : 1024 ≤ n) (h2 : n < 2 ^ 32) : F64.powi Double.two n = .inf false ∧
    F64.powi Double.two (-n) = F64.zero := by
  have h3 := pv_powiAux 32 n (a := Double.two) (r := F64.ofInt 1) (p := 1) (q := 0) h2
    (Or.inl ⟨by norm_num, by rw [pow_one]; exact is_two⟩) (Or.inl ⟨by norm_num, by rw [pow_zero, one_mul]; exact is_ofInt_one⟩) (by omega)
  rw [zero_add, mul_one] at h3
  have h4 : F64.powiAux 32 n Double.two (F64.ofInt 1) = .inf false := by
    rcases h3 with ⟨h3, -⟩ | ⟨-, h3⟩
    · omega
    · exact h3
  have e1 : ∀ x : F64, x = .inf false → F64.div (F64.ofInt 1) x = F64.zero := by
    rintro x rfl
    decide +kernel
  constructor
  · unfold F64.powi
    rw [if_neg (by omega), Int.natAbs_natCast, h4]
  · unfold F64.powi
    rw [if_pos (by omega), Int.natAbs_neg, Int.natAbs_natCast, h4]
    exact e1 _ rfl

end Verif
