import Verif.Props.FromFloat
import Mathlib.Data.Int.Log

/-!
# `FloatText` is satisfiable

The text of the first 17 significant digits (rounded down) meets the requirement.
-/

namespace Verif

open Disp

/-- The decimal digits of a number, most significant first. -/
def decDigits (n : ℕ) : List ℕ := (Nat.digits 10 n).reverse

theorem decDigits_le {n : ℕ} : ∀ d ∈ decDigits n, d ≤ 9 := by
  intro d hd
  have := Nat.digits_lt_base (b := 10) (by norm_num) (List.mem_reverse.mp hd)
  omega

theorem digitsVal_rev : ∀ l : List ℕ, digitsVal l.reverse = Nat.ofDigits 10 l := by
  intro l
  induction l with
  | nil => rfl
  | cons d l ih =>
    rw [List.reverse_cons, Disp.digitsVal_append, ih, Nat.ofDigits_cons, digitsVal_single]
    simp; ring

theorem decDigits_val (n : ℕ) : digitsVal (decDigits n) = n := by
  unfold decDigits; rw [digitsVal_rev, Nat.ofDigits_digits]

/-- Text of `n / 10 ^ k`, with a sign. -/
def fixedText (neg : Bool) (n k : ℕ) : List Char :=
  let r := (List.replicate (k + 1) 0 ++ decDigits n).map chr
  (if neg then ['-'] else []) ++ (if k = 0 then r else r.take (r.length - k) ++ '.' :: r.drop (r.length - k))

theorem fixedText_facts (neg : Bool) (n k : ℕ) :
    Mantissa (fixedText neg n k) ∧ (fixedText neg n k).length ≤ (decDigits n).length + k + 3 ∧
    ('-' ∈ fixedText neg n k ↔ neg = true) ∧ fracDigits (fixedText neg n k) = k ∧ intOf (fixedText neg n k) = n ∧
    (0 < k → 2 ≤ (fixedText neg n k).length) := by
  have hd : ∀ c ∈ (List.replicate (k + 1) 0 ++ decDigits n).map chr, IsDigit c := by
    intro c hc
    obtain ⟨d, hd, rfl⟩ := List.mem_map.mp hc
    have : d ≤ 9 := by
      rcases List.mem_append.mp hd with h | h
      · rw [List.eq_of_mem_replicate h]; omega
      · exact decDigits_le d h
    exact (chr_spec d this).1
  have hdo : digitsOf ((List.replicate (k + 1) 0 ++ decDigits n).map chr) = List.replicate (k + 1) 0 ++ decDigits n := by
    apply digitsOf_map
    intro d hd
    rcases List.mem_append.mp hd with h | h
    · rw [List.eq_of_mem_replicate h]; omega
    · exact decDigits_le d h
  have hl : ((List.replicate (k + 1) 0 ++ decDigits n).map chr).length = k + 1 + (decDigits n).length := by simp
  have hv : digitsVal (List.replicate (k + 1) 0 ++ decDigits n) = n := by
    rw [Disp.digitsVal_append, digitsVal_zeros, decDigits_val]; ring
  unfold fixedText
  dsimp only
  generalize hr : (List.replicate (k + 1) 0 ++ decDigits n).map chr = r at *
  have hne : r ≠ [] := by intro h; rw [h] at hl; simp at hl; omega
  have hsd : ∀ c, IsDigit c → c ≠ '-' := by rintro c h rfl; exact absurd h (by decide)
  have hpd : ∀ c, IsDigit c → c ≠ '.' := by rintro c h rfl; exact absurd h (by decide)
  have hmm : '-' ∉ (if k = 0 then r else r.take (r.length - k) ++ '.' :: r.drop (r.length - k)) := by
    intro h
    split_ifs at h
    · exact hsd _ (hd _ h) rfl
    · rcases List.mem_append.mp h with h | h
      · exact hsd _ (hd _ (List.mem_of_mem_take h)) rfl
      · rcases List.mem_cons.mp h with h | h
        · exact absurd h (by decide)
        · exact hsd _ (hd _ (List.mem_of_mem_drop h)) rfl
  have hsg0 : digitsOf (if neg then ['-'] else []) = [] := by cases neg <;> decide
  have all0 : ∀ l : List Char, (∀ c ∈ l, IsDigit c) → l.dropWhile (· ≠ '.') = [] := by
    intro l hl
    rw [List.dropWhile_eq_nil_iff]
    intro c hc; simpa using hpd c (hl c hc)
  have hfil : ∀ l : List Char, (∀ c ∈ l, IsDigit c) → (digitsOf l).length = l.length := by
    intro l hl
    unfold digitsOf
    rw [List.length_map, List.filter_eq_self.mpr (by intro c hc; simpa using hl c hc)]
  refine ⟨?_, ?_, ?_, ?_, ?_, ?_⟩
  · refine (PrintedText.mantissa (t := _) ⟨(if neg then ['-'] else []), r, r.length - k, ?_, hne, hd, ?_⟩).1
    · cases neg <;> simp
    · split_ifs <;> simp
  · split_ifs <;> simp [hl] <;> omega
  · cases neg with
    | true => simp
    | false => simpa using hmm
  · unfold fracDigits
    have e : ((if neg then ['-'] else []) ++ (if k = 0 then r else r.take (r.length - k) ++ '.' :: r.drop (r.length - k))).dropWhile (· ≠ '.')
        = (if k = 0 then r else r.take (r.length - k) ++ '.' :: r.drop (r.length - k)).dropWhile (· ≠ '.') := by
      cases neg <;> rfl
    rw [e]
    split_ifs with h
    · rw [all0 r hd, h]; rfl
    · rw [List.dropWhile_append_of_pos (by
        intro c hc; simpa using hpd c (hd c (List.mem_of_mem_take hc)))]
      rw [List.dropWhile_cons, if_neg (by decide)]
      have : digitsOf ('.' :: r.drop (r.length - k)) = digitsOf (r.drop (r.length - k)) := by
        unfold digitsOf
        rw [List.filter_cons, if_neg (by decide)]
      rw [this, hfil _ (fun c hc => hd c (List.mem_of_mem_drop hc)), List.length_drop]
      omega
  · unfold intOf
    rw [digitsOf_append, hsg0, List.nil_append]
    split_ifs with h
    · rw [hdo, hv]
    · have : digitsOf (r.take (r.length - k) ++ '.' :: r.drop (r.length - k)) = digitsOf r := by
        conv_rhs => rw [← List.take_append_drop (r.length - k) r]
        rw [digitsOf_append, digitsOf_append]
        congr 1
      rw [this, hdo, hv]
  · intro hk
    rw [if_neg (Nat.pos_iff_ne_zero.mp hk), List.length_append, List.length_append, List.length_cons, List.length_take, hl]
    omega

/-- 17 digits of the magnitude of `x`, rounded down, and the exponent of ten of the last one. -/
def dec17 (q : ℚ) : ℕ × ℤ :=
  let e := Int.log 10 q - 16
  ((⌊q / 10 ^ e⌋).toNat, e)

theorem dec17_spec {q : ℚ} (hq : 0 < q) (h1 : 1 ≤ q * 2 ^ 1074) (h2 : q < 2 ^ 1024) :
    (dec17 q).1 < 10 ^ 17 ∧ |((dec17 q).1 : ℚ) * 10 ^ (dec17 q).2 - q| * 2 ^ 53 ≤ q ∧ -341 ≤ (dec17 q).2 ∧ (dec17 q).2 ≤ 293 ∧
    (q < 1 → (dec17 q).2 < 0) := by
  unfold dec17
  dsimp only
  have l1 := Int.zpow_log_le_self (b := 10) (by norm_num) hq
  have l2 := Int.lt_zpow_succ_log_self (b := 10) (by norm_num) q
  push_cast at l1 l2
  generalize hL : Int.log 10 q = L at *
  have hL1 : -325 ≤ L := by
    by_contra hc
    have h3 : (10:ℚ) ^ (L + 1) ≤ 10 ^ (-325 : ℤ) := zpow_le_zpow_right₀ (by norm_num) (by omega)
    have h4 : (10:ℚ) ^ (-325 : ℤ) * 2 ^ 1074 < 1 := by
      rw [show (-325 : ℤ) = -((325 : ℕ) : ℤ) by norm_num, zpow_neg, zpow_natCast, inv_mul_eq_div, div_lt_one (by positivity)]
      have : (2:ℕ) ^ 1074 < 10 ^ 325 := by decide +kernel
      exact_mod_cast this
    have h5 : q * 2 ^ 1074 ≤ 10 ^ (-325 : ℤ) * 2 ^ 1074 := mul_le_mul_of_nonneg_right (l2.le.trans h3) (pow_nonneg (by norm_num) _)
    exact absurd (h1.trans h5) (not_le.mpr h4)
  have hL2 : L ≤ 308 := by
    by_contra hc
    have h3 : (10:ℚ) ^ (309 : ℤ) ≤ 10 ^ L := zpow_le_zpow_right₀ (by norm_num) (by omega)
    have h4 : (2:ℚ) ^ 1024 < 10 ^ (309 : ℤ) := by
      rw [show (309 : ℤ) = ((309 : ℕ) : ℤ) by norm_num, zpow_natCast]
      have : (2:ℕ) ^ 1024 < 10 ^ 309 := by decide +kernel
      exact_mod_cast this
    exact absurd (h3.trans (l1.trans h2.le)) (not_le.mpr h4)
  have hE : (0:ℚ) < 10 ^ (L - 16) := zpow_pos (by norm_num) _
  have e1 : (10:ℚ) ^ L = 10 ^ 16 * 10 ^ (L - 16) := by
    rw [← zpow_natCast, ← zpow_add₀ (by norm_num)]; congr 1; push_cast; ring
  have e2 : (10:ℚ) ^ (L + 1) = 10 ^ 17 * 10 ^ (L - 16) := by
    rw [← zpow_natCast, ← zpow_add₀ (by norm_num)]; congr 1; push_cast; ring
  have hone : q < 1 → L < 0 := by
    intro h
    by_contra hc
    have h3 : (1:ℚ) ≤ 10 ^ L := one_le_zpow₀ (by norm_num) (by omega)
    linarith
  rw [e1] at l1
  rw [e2] at l2
  generalize (10:ℚ) ^ (L - 16) = E at *
  clear h1 h2 e1 e2 hL
  have hq1 : 10 ^ 16 ≤ q / E := by rwa [le_div_iff₀ hE]
  have hq2 : q / E < 10 ^ 17 := by rwa [div_lt_iff₀ hE]
  have f1 := Int.floor_le (q / E)
  have f2 := Int.lt_floor_add_one (q / E)
  have f0 : 0 ≤ ⌊q / E⌋ := Int.floor_nonneg.mpr (le_trans (by norm_num) hq1)
  have eN : (((⌊q / E⌋).toNat : ℕ) : ℚ) = (⌊q / E⌋ : ℤ) := by exact_mod_cast Int.toNat_of_nonneg f0
  refine ⟨?_, ?_, by omega, by omega, fun h => by have := hone h; omega⟩
  · have : (((⌊q / E⌋).toNat : ℕ) : ℚ) < 10 ^ 17 := by rw [eN]; linarith
    exact_mod_cast this
  · rw [eN]
    have e3 : q = q / E * E := by field_simp
    have e4 : ((⌊q / E⌋ : ℤ) : ℚ) * E - q = -(q / E - ⌊q / E⌋) * E := by
      have e5 : (q / E) * E = q := e3.symm
      rw [neg_mul, sub_mul, e5]; ring
    rw [e4, abs_mul, abs_neg, abs_of_nonneg (by linarith), abs_of_pos hE]
    have h5 : (q / E - ⌊q / E⌋) * E ≤ 1 * E := mul_le_mul_of_nonneg_right (by linarith) hE.le
    generalize (q / E - ⌊q / E⌋) * E = w at *
    norm_num at l1 ⊢
    linarith

/-- A text for every `f64`. -/
def text17 (x : F64) : List Char :=
  let d := dec17 |x.toRat|
  if 0 ≤ d.2 then fixedText (decide (x.toRat < 0)) (d.1 * 10 ^ d.2.toNat) 0
  else fixedText (decide (x.toRat < 0)) d.1 (-d.2).toNat

theorem decDigits_length {n k : ℕ} (h : n < 10 ^ k) : (decDigits n).length ≤ k := by
  unfold decDigits
  rw [List.length_reverse]
  exact (Nat.digits_length_le_iff (by norm_num) n).mpr h

theorem text17_ok : FloatText text17 := by
  have rng : ∀ x : F64, x.isFinite = true → x.toRat ≠ 0 → 0 < |x.toRat| ∧ 1 ≤ |x.toRat| * 2 ^ 1074 ∧ |x.toRat| < 2 ^ 1024 := by
    intro x hx h0
    have i := Is.of_finite hx
    generalize x.units = n at i
    refine ⟨abs_pos.mpr h0, ?_, ?_⟩
    · rw [i.toRat, abs_div_one', ← one'_pow, div_mul_cancel₀ _ one'_ne]
      have hn : n ≠ 0 := by rintro rfl; apply h0; rw [i.toRat]; norm_num
      exact_mod_cast Int.one_le_abs hn
    · rw [i.toRat, abs_div_one', div_lt_iff₀ one'_posQ]
      have h1 := i.lt
      have e1 : (2:ℤ) ^ 1024 * one' = ovf := by unfold one' ovf; rw [← pow_add]
      rw [← e1] at h1
      exact_mod_cast h1
  have key : ∀ x : F64, x.isFinite = true → x.toRat ≠ 0 → ∃ N k, text17 x = fixedText (decide (x.toRat < 0)) N k ∧
      (decDigits N).length + k + 3 ≤ 2000 ∧ (k = 0 ∨ N < 10 ^ 17) ∧ |(N : ℚ) / 10 ^ k - (|x.toRat|)| * 2 ^ 53 ≤ |x.toRat| ∧
      (|x.toRat| < 1 → 0 < k) := by
    intro x hx h0
    obtain ⟨a, b, c⟩ := rng x hx h0
    obtain ⟨h1, h2, h3, h4, h5⟩ := dec17_spec a b c
    unfold text17
    dsimp only
    generalize dec17 |x.toRat| = d at *
    obtain ⟨N, e⟩ := d
    dsimp only at *
    split_ifs with he
    · obtain ⟨k, rfl⟩ := Int.eq_ofNat_of_zero_le he
      rw [Int.toNat_natCast]
      refine ⟨_, _, rfl, ?_, Or.inl rfl, ?_, fun h => ?_⟩
      · have : N * 10 ^ k < 10 ^ (17 + 293) := by
          rw [pow_add]
          have : 10 ^ k ≤ 10 ^ 293 := Nat.pow_le_pow_right (by norm_num) (by omega)
          exact Nat.mul_lt_mul_of_lt_of_le h1 this (by positivity)
        have := decDigits_length this
        omega
      · rw [zpow_natCast] at h2
        push_cast
        rw [pow_zero, div_one]; exact h2
      · have := h5 h; omega
    · obtain ⟨k, hk⟩ := Int.eq_ofNat_of_zero_le (a := -e) (by omega)
      have he' : e = -(k : ℤ) := by omega
      subst he'
      rw [neg_neg, Int.toNat_natCast]
      refine ⟨_, _, rfl, ?_, Or.inr h1, ?_, fun h => ?_⟩
      · have := decDigits_length h1
        omega
      · rw [zpow_neg, zpow_natCast, ← div_eq_mul_inv] at h2
        exact h2
      · omega
  refine ⟨?_, ?_, ?_, ?_, ?_, ?_⟩
  · intro x hx h0
    obtain ⟨N, k, e, -⟩ := key x hx h0
    rw [e]; exact (fixedText_facts _ N k).1
  · intro x hx h0
    obtain ⟨N, k, e, h, -⟩ := key x hx h0
    rw [e]; exact (fixedText_facts _ N k).2.1.trans h
  · intro x hx h0
    obtain ⟨N, k, e, h, -⟩ := key x hx h0
    rw [e, (fixedText_facts _ N k).2.2.1]; simp
  · intro x hx h0
    obtain ⟨N, k, e, h, h', -⟩ := key x hx h0
    rw [e, (fixedText_facts _ N k).2.2.2.1, (fixedText_facts _ N k).2.2.2.2.1]; exact h'
  · intro x hx h1
    have h0 : x.toRat ≠ 0 := by
      intro h; rw [h, abs_zero, zero_mul] at h1; norm_num at h1
    obtain ⟨N, k, e, h, h', h2, -⟩ := key x hx h0
    rw [e, (fixedText_facts _ N k).2.2.2.1, (fixedText_facts _ N k).2.2.2.2.1]; exact h2
  · intro x hx h0 h1
    obtain ⟨N, k, e, h, h', h2, h3⟩ := key x hx h0
    rw [e]; exact (fixedText_facts _ N k).2.2.2.2.2 (h3 h1)

/-- The hypotheses of `C66_accurate` are met, by a platform and the `f64` nearest to one tenth. -/
example (P : Platform) (h : P.toStr = text17) :
    ∃ v, Double.ofF64 P (F64.ofRound false (2 ^ 1074) 10) = some v ∧ v.Normalized ∧
      |v.val - (F64.ofRound false (2 ^ 1074) 10).toRat| * 2 ^ 52 ≤ |(F64.ofRound false (2 ^ 1074) 10).toRat| :=
  C66_accurate P (h ▸ text17_ok) _ (by decide +kernel) (by decide +kernel) (by decide +kernel)

end Verif
