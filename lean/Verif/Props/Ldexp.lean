import Verif.Proofs.Sqr
import Verif.Props.Ints

/-!
# C39: `ldexp`
-/

namespace Verif

open F64 Prim Util

/-- Rounding commutes with scaling by a power of two, on whole numbers of units. -/
theorem rnd_scale (n : ℤ) (k : ℕ) : rnd ((2 ^ k * n : ℤ) : ℚ) = 2 ^ k * rnd (n : ℚ) := by
  by_cases h : |n| < 2 ^ 53
  · have r : Rep n := ⟨n, 0, h.le, by ring⟩
    have r2 : Rep (2 ^ k * n) := ⟨n, k, h.le, by ring⟩
    rw [rnd_of_rep r, rnd_of_rep r2]
  · push Not at h
    have hk : (0:ℚ) < 2 ^ k := by positivity
    have e : expo ((2 ^ k * n : ℤ) : ℚ) = k + expo (n : ℚ) := by
      have h1 : (2:ℚ) ^ 53 ≤ |(n : ℚ)| := by rw [← abs_int_cast]; exact_mod_cast h
      have hne : expo (n : ℚ) ≠ 0 := by
        intro hc
        have := lt_expo (n : ℚ)
        rw [hc] at this
        exact absurd h1 (not_le.mpr this)
      have l := expo_le _ hne
      have u := lt_expo (n : ℚ)
      have ea : |((2 ^ k * n : ℤ) : ℚ)| = 2 ^ k * |(n : ℚ)| := by
        push_cast; rw [abs_mul, abs_of_pos hk]
      apply le_antisymm
      · apply expo_le_of_lt
        rw [ea, show 53 + (k + expo (n : ℚ)) = k + (53 + expo (n : ℚ)) by ring, pow_add 2 k]
        exact mul_lt_mul_of_pos_left u hk
      · apply le_expo_of_le
        rw [ea, show 52 + (k + expo (n : ℚ)) = k + (52 + expo (n : ℚ)) by ring, pow_add 2 k]
        exact mul_le_mul_of_nonneg_left l hk.le
    unfold rnd
    rw [e]
    have e2 : ((2 ^ k * n : ℤ) : ℚ) / 2 ^ (k + expo (n : ℚ)) = (n : ℚ) / 2 ^ expo (n : ℚ) := by
      push_cast; rw [pow_add]; field_simp
    rw [e2, pow_add]
    ring

theorem Norm2.scale {h l : ℤ} (k : ℕ) : Norm2 (2 ^ k * h) (2 ^ k * l) ↔
    (Rep (2 ^ k * h) ∧ Rep (2 ^ k * l) ∧ rnd ((h + l : ℤ) : ℚ) = h) := by
  have hk : (2:ℤ) ^ k ≠ 0 := by positivity
  have e : rnd ((2 ^ k * h + 2 ^ k * l : ℤ) : ℚ) = 2 ^ k * rnd ((h + l : ℤ) : ℚ) := by
    rw [← mul_add]; exact rnd_scale _ _
  constructor
  · intro n
    refine ⟨n.rep_hi, n.rep_lo, ?_⟩
    have := n.rnd_eq
    rw [e] at this
    exact mul_left_cancel₀ hk this
  · rintro ⟨r1, r2, e3⟩
    exact ⟨r1, r2, by rw [e, e3]⟩

/-- `2f64.powi(n)` for `0 ≤ n ≤ 1023`: the loop. -/
theorem is_powiAux : ∀ (fuel n : ℕ) {a r : F64} {p q : ℕ}, n < 2 ^ fuel → Is a (2 ^ p * one') → Is r (2 ^ q * one') →
    q + n * p ≤ 1023 → 0 < n → Is (F64.powiAux fuel n a r) (2 ^ (q + n * p) * one') := by
  intro fuel
  have rp : ∀ k : ℕ, Rep (2 ^ k * one') := fun k => ⟨1, k + 1074, by norm_num, by unfold one'; rw [pow_add]; ring⟩
  have bp : ∀ k : ℕ, k ≤ 1023 → |2 ^ k * one'| < ovf := fun k hk =>
    mul_one'_lt (k := k) (by rw [abs_of_pos (by positivity)]) (by omega)
  have mm : ∀ {x y : F64} {i j : ℕ}, Is x (2 ^ i * one') → Is y (2 ^ j * one') → i + j ≤ 1023 →
      Is (F64.mul x y) (2 ^ (i + j) * one') := fun hx hy hij =>
    hx.mul_rep hy (by rw [pow_add]; ring) (rp _) (bp _ hij)
  induction fuel with
  | zero => intro n a r p q hn _ _ _ h0; simp at hn; omega
  | succ fuel ih =>
    intro n a r p q hn ia ir hb h0
    unfold F64.powiAux
    have e2 : n * p = (n % 2) * p + (n / 2) * (p + p) := by
      have : n = n % 2 + (n / 2) * 2 := by omega
      calc n * p = (n % 2 + (n / 2) * 2) * p := by rw [← this]
        _ = _ := by ring
    have hr : Is (if n % 2 = 1 then F64.mul r a else r) (2 ^ (q + n % 2 * p) * one') := by
      rcases Nat.mod_two_eq_zero_or_one n with h | h
      · rw [h, if_neg (by norm_num), zero_mul, add_zero]; exact ir
      · rw [h, if_pos rfl, one_mul]
        apply mm ir ia
        rw [h] at e2; omega
    simp only []
    by_cases h2 : n / 2 = 0
    · rw [if_pos h2]
      rw [h2, zero_mul, add_zero] at e2
      rw [e2]; exact hr
    · rw [if_neg h2]
      have h3 : 1 * (p + p) ≤ n / 2 * (p + p) := Nat.mul_le_mul_right _ (by omega)
      have := ih (n / 2) (by rw [pow_succ] at hn; omega) (mm ia ia (by omega)) hr (by omega) (by omega)
      rw [e2, ← add_assoc]; exact this

theorem is_ofInt_one : Is (F64.ofInt 1) one' := by
  have := is_ofInt (n := 1) (by norm_num); rwa [one_mul] at this

theorem is_pow2 {n : ℕ} (hn : n ≤ 1023) : Is (F64.powi Double.two n) (2 ^ n * one') := by
  unfold F64.powi
  rw [if_neg (by omega), Int.natAbs_natCast]
  by_cases h0 : n = 0
  · subst h0
    have : F64.powiAux 32 0 Double.two (F64.ofInt 1) = F64.ofInt 1 := by
      unfold F64.powiAux; simp
    rw [this, pow_zero, one_mul]; exact is_ofInt_one
  · have := is_powiAux 32 n (a := Double.two) (r := F64.ofInt 1) (p := 1) (q := 0) (by omega)
      (by rw [pow_one]; exact is_two) (by rw [pow_zero, one_mul]; exact is_ofInt_one) (by omega) (by omega)
    rwa [zero_add, mul_one] at this

theorem is_pow2_neg {n : ℕ} (hn : n ≤ 1023) : Is (F64.powi Double.two (-n)) (2 ^ (1074 - n)) := by
  by_cases h0 : n = 0
  · subst h0
    have := is_pow2 (n := 0) (by omega)
    simpa [one'] using this
  · have h1 := is_pow2 hn
    unfold F64.powi at h1 ⊢
    rw [if_neg (by omega), Int.natAbs_natCast] at h1
    rw [if_pos (by omega), Int.natAbs_neg, Int.natAbs_natCast]
    apply is_ofInt_one.div_rep h1 (by have := one'_pos; positivity)
    · have : one' = 2 ^ (1074 - n) * 2 ^ n := by unfold one'; rw [← pow_add]; congr 1; omega
      calc one' * one' = 2 ^ (1074 - n) * 2 ^ n * one' := by rw [← this]
        _ = _ := by ring
    · exact .two_pow _
    · exact pow_lt_ovf (by omega)

/-- **C39 (part).** For `-1023 ≤ n ≤ 1023` and every finite Double whose scaled components `x[0] * 2^n`, `x[1] * 2^n` are
`f64` numbers (neither too large nor too fine), `ldexp(x, n)` has exactly those components, so its exact value is that of
`x` times `2^n`; and it is normalized when `x` is. Missing: larger `|n|` (see `C39_refuted`). -/
theorem C39_ldexp_partial (a : Double) (n : ℤ) (ha : a.Fin) (h1 : -1023 ≤ n) (h2 : n ≤ 1023) (x y : F64)
    (hx : x.isFinite = true) (hy : y.isFinite = true) (ex : x.toRat = a.hi.toRat * 2 ^ n) (ey : y.toRat = a.lo.toRat * 2 ^ n) :
    (a.ldexp n).hi.toRat = x.toRat ∧ (a.ldexp n).lo.toRat = y.toRat ∧ (a.ldexp n).Fin ∧
    (a.ldexp n).val = a.val * 2 ^ n ∧ (a.Normalized → (a.ldexp n).Normalized) := by
  have i0 : Is a.hi a.hi.units := ⟨ha.1, rfl⟩
  have i1 : Is a.lo a.lo.units := ⟨ha.2, rfl⟩
  have ix : Is x x.units := ⟨hx, rfl⟩
  have iy : Is y y.units := ⟨hy, rfl⟩
  generalize a.hi.units = h at *
  generalize a.lo.units = l at *
  generalize x.units = h' at *
  generalize y.units = l' at *
  rw [i0.toRat, ix.toRat] at ex
  rw [i1.toRat, iy.toRat] at ey
  have hp := one'_ne
  have key : Is (a.ldexp n).hi h' ∧ Is (a.ldexp n).lo l' ∧ (Norm2 h l → Norm2 h' l') := by
    rcases le_or_gt 0 n with hn | hn
    · obtain ⟨k, rfl⟩ := Int.eq_ofNat_of_zero_le hn
      have e1 : h' = 2 ^ k * h := by
        rw [zpow_natCast, div_mul_eq_mul_div, div_left_inj' hp] at ex
        have : (h' : ℚ) = ((2 ^ k * h : ℤ) : ℚ) := by rw [ex]; push_cast; ring
        exact_mod_cast this
      have e2 : l' = 2 ^ k * l := by
        rw [zpow_natCast, div_mul_eq_mul_div, div_left_inj' hp] at ey
        have : (l' : ℚ) = ((2 ^ k * l : ℤ) : ℚ) := by rw [ey]; push_cast; ring
        exact_mod_cast this
      have f := is_pow2 (n := k) (by omega)
      refine ⟨i0.mul_rep f (by rw [e1]; ring) ix.rep (Is.lt ix), i1.mul_rep f (by rw [e2]; ring) iy.rep (Is.lt iy), ?_⟩
      intro hn2
      subst e1 e2
      exact (Norm2.scale k).mpr ⟨ix.rep, iy.rep, hn2.rnd_eq⟩
    · obtain ⟨k, hk⟩ := Int.eq_ofNat_of_zero_le (a := -n) (by omega)
      have hn' : n = -(k : ℤ) := by omega
      subst hn'
      have hk2 : (2:ℚ) ^ k ≠ 0 := by positivity
      have e1 : h = 2 ^ k * h' := by
        rw [zpow_neg, zpow_natCast, div_mul_eq_mul_div, div_left_inj' hp] at ex
        have : (h : ℚ) = ((2 ^ k * h' : ℤ) : ℚ) := by push_cast; rw [ex]; field_simp
        exact_mod_cast this
      have e2 : l = 2 ^ k * l' := by
        rw [zpow_neg, zpow_natCast, div_mul_eq_mul_div, div_left_inj' hp] at ey
        have : (l : ℚ) = ((2 ^ k * l' : ℤ) : ℚ) := by push_cast; rw [ey]; field_simp
        exact_mod_cast this
      have f := is_pow2_neg (n := k) (by omega)
      have eo : one' = 2 ^ k * 2 ^ (1074 - k) := by unfold one'; rw [← pow_add]; congr 1; omega
      refine ⟨i0.mul_rep f (by rw [e1, eo]; ring) ix.rep (Is.lt ix), i1.mul_rep f (by rw [e2, eo]; ring) iy.rep (Is.lt iy), ?_⟩
      intro hn2
      subst e1 e2
      exact ⟨ix.rep, iy.rep, ((Norm2.scale k).mp hn2).2.2⟩
  obtain ⟨k0, k1, k2⟩ := key
  refine ⟨by rw [k0.toRat, ix.toRat], by rw [k1.toRat, iy.toRat], ⟨k0.1, k1.1⟩, ?_, ?_⟩
  · unfold Double.val
    rw [k0.toRat, k1.toRat, ex, ey, i0.toRat, i1.toRat]; ring
  · intro hn
    obtain ⟨u, v, iu, nu⟩ := hn.norm2
    have eu : u = h := by rw [← iu.1.2, ← i0.2]
    have ev : v = l := by rw [← iu.2.2, ← i1.2]
    subst eu ev
    exact (k2 nu).normalized ⟨k0, k1⟩

example : Double.PI.Normalized ∧ (F64.mul Double.PI.hi (F64.ofInt 8)).toRat = Double.PI.hi.toRat * 2 ^ (3 : ℤ) ∧
    (F64.mul Double.PI.lo (F64.ofInt 8)).toRat = Double.PI.lo.toRat * 2 ^ (3 : ℤ) := by decide +kernel

/-- **C39 is false as stated**: beyond `|n| = 1023` the scale factor itself over- or underflows, although the scaled value
is an ordinary number: `ldexp(2^-100, 1024)` should be `2^924` and `ldexp(2^100, -1030)` should be `2^-930`, but the results
are infinity and 0. -/
theorem C39_refuted :
    (Double.ldexp ⟨F64.powi Double.two (-100), F64.zero⟩ 1024).isInfinite = true ∧
    (F64.powi Double.two 924).isFinite = true ∧
    (F64.powi Double.two 924).toRat = (F64.powi Double.two (-100)).toRat * 2 ^ 1024 ∧
    (Double.ldexp ⟨F64.powi Double.two 100, F64.zero⟩ (-1030)).isZero = true ∧
    (F64.powi Double.two (-930)).toRat * 2 ^ 1030 = (F64.powi Double.two 100).toRat := by decide +kernel

end Verif
