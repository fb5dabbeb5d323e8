import Verif.Proofs.Ints
import Verif.Props.Order
import Verif.Props.Special
import Verif.Props.Symmetry

/-!
# C15, C17, C40: integer conversions, conversions back, sums and products over iterators
-/

namespace Verif

open F64 Prim Util

/-- Normalized with a whole exact value. -/
theorem int_of {d : Double} {h l n : ℤ} (i : DIs d h l) (hn : Norm2 h l) (e : h + l = n * one') :
    d.Normalized ∧ d.val = n := by
  refine ⟨hn.normalized i, ?_⟩
  rw [i.val, e]
  push_cast
  rw [mul_div_assoc, div_self one'_ne, mul_one]

theorem of_int {d : Double} {n : ℤ} (h : d.Normalized) (e : d.val = n) :
    ∃ a b, DIs d a b ∧ Norm2 a b ∧ a + b = n * one' := by
  obtain ⟨a, b, i, hn⟩ := h.norm2
  refine ⟨a, b, i, hn, ?_⟩
  rw [i.val, div_eq_iff one'_ne] at e
  exact_mod_cast e

/-- **C15.** `Double::from` of every integer of up to 32 bits (`i8`, `u8`, `i16`, `u16`, `i32`, `u32`). -/
theorem C15_small (a : ℤ) (h1 : -2 ^ 31 ≤ a) (h2 : a < 2 ^ 32) :
    (Double.ofSmallInt a).Normalized ∧ (Double.ofSmallInt a).val = a := by
  have i := is_ofInt (n := a) (by rw [abs_le]; constructor <;> norm_num at * <;> linarith)
  have hd : DIs (Double.ofSmallInt a) (a * one') 0 := by
    unfold Double.ofSmallInt DIs
    simp only []
    constructor
    · exact i
    · exact is_zero
  exact int_of hd (norm2_zero_right i.rep) (by ring)

/-- **C15.** `Double::from` of every `u64`, up to and including `u64::MAX`. -/
theorem C15_u64 (a : ℕ) (h : a < 2 ^ 64) : (Double.ofU64 a).Normalized ∧ (Double.ofU64 a).val = a := by
  obtain ⟨zh, zl, i1, i2, hn, e⟩ := is_int_pair (x := a / 2 ^ 32 % 2 ^ 32) (y := a % 2 ^ 32)
    (Nat.mod_lt _ (by norm_num)) (Nat.mod_lt _ (by norm_num))
  have e' : a / 2 ^ 32 % 2 ^ 32 * 2 ^ 32 + a % 2 ^ 32 = a := by omega
  rw [e'] at e
  exact_mod_cast int_of (d := Double.ofU64 a) ⟨i1, i2⟩ hn e

/-- **C15.** `Double::from` of every `i64`, down to and including `i64::MIN`. -/
theorem C15_i64 (a : ℤ) (h1 : -2 ^ 63 ≤ a) (h2 : a < 2 ^ 63) :
    (Double.ofI64 a).Normalized ∧ (Double.ofI64 a).val = a := by
  have em : (if a = -2 ^ 63 then (2 ^ 63 - 1) + 1 else a.natAbs) = a.natAbs := by split_ifs <;> omega
  unfold Double.ofI64
  rw [em]
  generalize hm : a.natAbs = m
  obtain ⟨zh, zl, i1, i2, hn, e⟩ := is_int_pair (x := m / 2 ^ 32 % 2 ^ 32) (y := m % 2 ^ 32)
    (Nat.mod_lt _ (by norm_num)) (Nat.mod_lt _ (by norm_num))
  have e' : m / 2 ^ 32 % 2 ^ 32 * 2 ^ 32 + m % 2 ^ 32 = m := by omega
  rw [e'] at e
  simp only []
  generalize renorm2 (F64.mul (F64.ofInt ((m / 2 ^ 32 % 2 ^ 32 : ℕ) : ℤ)) (F64.powi Double.two 32))
    (F64.ofInt ((m % 2 ^ 32 : ℕ) : ℤ)) = pq at i1 i2 ⊢
  obtain ⟨p, q⟩ := pq
  by_cases hs : a.sign = -1
  · simp only [hs, if_true]
    refine int_of ⟨i1.neg, i2.neg⟩ hn.swap_sign ?_
    have : a = -(m : ℤ) := by
      have := Int.sign_eq_neg_one_iff_neg.mp hs
      clear e hn i1 i2; omega
    rw [this]; linarith
  · simp only [hs, if_false]
    refine int_of ⟨i1, i2⟩ hn ?_
    have : a = (m : ℤ) := by
      have : ¬ a < 0 := fun hc => hs (Int.sign_eq_neg_one_iff_neg.mpr hc)
      clear e hn i1 i2; omega
    rw [this]; exact e

example : (Double.ofU64 (2 ^ 64 - 1)).lo = F64.ofInt (-1) ∧ (Double.ofI64 (-2 ^ 63)).hi = F64.ofInt (-2 ^ 63) := by
  decide +kernel

/-- **C17.** `f64::from` of a normalized Double is an `f64` nearest to its exact value. -/
theorem C17_to_f64 (d : Double) (h : d.Normalized) : NearestF64 d.toF64 d.val := normalized_nearest d h

/-- **C17.** Converting to the tuple and back gives the same Double, for all components; the tuple holds the components
that indexing returns. -/
theorem C17_tuple (d : Double) (x y : F64) : Double.ofPair d.toPair = d ∧ (Double.ofPair (x, y)).toPair = (x, y) ∧
    d.index 0 = some d.toPair.1 ∧ d.index 1 = some d.toPair.2 := ⟨rfl, rfl, rfl, rfl⟩

example : Double.PI.Normalized ∧ Double.PI.lo ≠ F64.zero := by decide +kernel

/-- The value of a finite list of Doubles is whole, item by item. -/
def Wholes (l : List Double) (ns : List ℤ) : Prop := List.Forall₂ (fun (d : Double) (n : ℤ) => d.Normalized ∧ d.val = (n : ℚ)) l ns

theorem foldl_add_int {l : List Double} {ns : List ℤ} (h : Wholes l ns) :
    ∀ {s : Double} {m : ℤ}, s.Normalized → s.val = m → |m| + (ns.map (|·|)).sum ≤ 2 ^ 104 →
      (l.foldl (fun a b => a + b) s).Normalized ∧ (l.foldl (fun a b => a + b) s).val = ((m + ns.sum : ℤ) : ℚ) := by
  induction h with
  | nil => intro s m hs e _; simpa using ⟨hs, e⟩
  | @cons d n l ns hd _ ih =>
    intro s m hs e hb
    have nn : ∀ ks : List ℤ, 0 ≤ (ks.map (|·|)).sum := fun ks => List.sum_nonneg (by simp)
    have h1 := nn ns
    have a1 := abs_nonneg m
    have a2 := abs_nonneg n
    simp only [List.map_cons, List.sum_cons] at hb
    obtain ⟨xh, xl, ix, nx, ex⟩ := of_int hs e
    obtain ⟨yh, yl, iy, ny, ey⟩ := of_int hd.1 hd.2
    obtain ⟨zh, zl, iz, nz, ez⟩ := add_int ix iy nx ny ex ey (by linarith) (by linarith)
    obtain ⟨g1, g2⟩ := int_of iz nz ez
    have := ih g1 g2 (by have := abs_add_le m n; linarith)
    simp only [List.foldl_cons, List.sum_cons]
    rw [show m + (n + ns.sum) = m + n + ns.sum by ring]
    exact this

/-- **C40.** `sum()` is the left fold of `+` from zero, `product()` the left fold of `*` from one: the empty iterator
gives 0 and 1, and one more item at the end is one more operation. -/
theorem C40_fold (l : List Double) (x : Double) : Double.sum [] = Double.ZERO ∧ Double.product [] = Double.ONE ∧
    Double.sum (l ++ [x]) = Double.sum l + x ∧ Double.product (l ++ [x]) = Double.product l * x := by
  simp [Double.sum, Double.product, List.foldl_append]

/-- **C40.** The sum of any number of integer valued items is the exact sum, as long as the absolute values of the items
add up to at most `2^104`. -/
theorem C40_sum_int (l : List Double) (ns : List ℤ) (h : Wholes l ns) (hb : (ns.map (|·|)).sum ≤ 2 ^ 104) :
    (Double.sum l).Normalized ∧ (Double.sum l).val = ((ns.sum : ℤ) : ℚ) := by
  have h0 : Double.ZERO.Normalized ∧ Double.ZERO.val = ((0:ℤ) : ℚ) := by decide +kernel
  have := foldl_add_int h h0.1 h0.2 (by simpa using hb)
  simpa [Double.sum] using this

theorem foldl_mul_int {l : List Double} {ns : List ℤ} (h : Wholes l ns) :
    ∀ {s : Double} {m : ℤ}, s.Normalized → s.val = m → (∀ k ≤ ns.length, |m * (ns.take k).prod| ≤ 2 ^ 104) →
      (l.foldl (fun a b => a * b) s).Normalized ∧ (l.foldl (fun a b => a * b) s).val = ((m * ns.prod : ℤ) : ℚ) := by
  induction h with
  | nil => intro s m hs e _; simpa using ⟨hs, e⟩
  | @cons d n l ns hd _ ih =>
    intro s m hs e hb
    obtain ⟨xh, xl, ix, nx, ex⟩ := of_int hs e
    obtain ⟨yh, yl, iy, ny, ey⟩ := of_int hd.1 hd.2
    have b1 := hb 1 (by simp)
    simp only [List.take_succ_cons, List.take_zero, List.prod_singleton] at b1
    obtain ⟨zh, zl, iz, nz, ez⟩ := mul_int ix iy nx ny ex ey b1
    obtain ⟨g1, g2⟩ := int_of iz nz ez
    have := ih g1 g2 (fun k hk => by
      have := hb (k + 1) (by simpa using hk)
      rw [List.take_succ_cons, List.prod_cons, ← mul_assoc] at this
      exact this)
    simp only [List.foldl_cons, List.prod_cons]
    rw [← mul_assoc]
    exact this

/-- **C40.** The product of any number of integer valued items is the exact product, as long as every partial product is
at most `2^104` in magnitude. -/
theorem C40_product_int (l : List Double) (ns : List ℤ) (h : Wholes l ns)
    (hb : ∀ k ≤ ns.length, |(ns.take k).prod| ≤ 2 ^ 104) :
    (Double.product l).Normalized ∧ (Double.product l).val = ((ns.prod : ℤ) : ℚ) := by
  have h0 : Double.ONE.Normalized ∧ Double.ONE.val = ((1:ℤ) : ℚ) := by decide +kernel
  have := foldl_mul_int h h0.1 h0.2 (by simpa using hb)
  simpa [Double.product] using this

example : Wholes [Double.ofU64 (2 ^ 64 - 1), Double.ofI64 (-7), Double.ofU64 (2 ^ 63 + 1)] [2 ^ 64 - 1, -7, 2 ^ 63 + 1] ∧
    (([2 ^ 64 - 1, -7, 2 ^ 63 + 1] : List ℤ).map (|·|)).sum ≤ 2 ^ 104 := by
  refine ⟨.cons ?_ (.cons ?_ (.cons ?_ .nil)), ?_⟩ <;> decide +kernel

end Verif
