import Verif.Props.QuadPowi

/-!
# C79: the accuracy of parsing a Quad
-/

namespace Verif

open F64 Prim Util Quad

theorem qdigit_step0 : (Quad.ops.ofDigit 0 = Quad.ZERO) ∧ ∀ d : Fin 10, (Quad.ZERO * Quad.TEN + Quad.ops.ofDigit d) = Quad.ops.ofDigit d := by
  decide +kernel

theorem qdigit_norm {d : ℕ} (h : d ≤ 9) : (Quad.ops.ofDigit d).Normalized ∧ (Quad.ops.ofDigit d).val = d := by
  have : ∀ d : Fin 10, (Quad.ops.ofDigit d).Normalized ∧ (Quad.ops.ofDigit d).val = (d : ℕ) := by decide +kernel
  exact this ⟨d, by omega⟩

theorem qten_norm : Quad.TEN.Normalized ∧ Quad.TEN.val = 10 := by decide +kernel

theorem qten_rel : QR Quad.TEN 10 0 := by
  have := QR.norm qten_norm.1
  unfold qv at this
  rw [qten_norm.2] at this
  exact_mod_cast this

/-- Leading zeros. -/
theorem qaccum_zero : ∀ (l : List ℕ), digitsVal l = 0 → accum Quad.ops l = Quad.ZERO := by
  intro l
  induction l using List.reverseRecOn with
  | nil => intro _; rfl
  | append_singleton l d ih =>
    intro h
    rw [digitsVal_append] at h
    obtain rfl : d = 0 := by omega
    rw [accum_append, ih (by omega)]
    exact (qdigit_step0.2 0).trans qdigit_step0.1

/-- Reading one more digit. -/
theorem qdigit_step {A : Quad} {N k : ℝ} {d : ℕ} (hA : QR A N k) (hN : 1 ≤ N) (hd : d ≤ 9) (hN2 : 10 * N ≤ 2 ^ 225 * 2 ^ 225 * 2 ^ 225 * 2 ^ 220)
    (k0 : 0 ≤ k) (hk : k ≤ 2 ^ 50) : QR (A * Quad.TEN + Quad.ops.ofDigit d) (10 * N + d) (k + 273) := by
  have h1 := hA.mul qten_rel (by linarith) (by norm_num) (by rw [abs_of_pos (by linarith)]; norm_num; linarith) (by
    rw [abs_of_pos (by linarith)]
    norm_num at hN2 ⊢; linarith) (by linarith) le_rfl (by norm_num)
  rw [add_zero, mul_comm] at h1
  have hd0 : (0:ℝ) ≤ d := Nat.cast_nonneg d
  have hd9 : (d:ℝ) ≤ 9 := by exact_mod_cast hd
  obtain ⟨d1, d2⟩ := qdigit_norm hd
  have h2 : QA (Quad.ops.ofDigit d) (d : ℝ) 0 (d * (1 + 1 / 2 ^ 47)) := by
    have := (qord_norm d1).exact
    unfold qv at this
    rw [d2, Rat.cast_natCast, abs_of_nonneg hd0] at this
    exact this
  unfold QR at *
  rw [abs_of_pos (show 0 < 10 * N by linarith)] at h1
  rw [abs_of_pos (show 0 < 10 * N + d by linarith)]
  have e1 : (10 * N + d) * ((k + 273) / 2 ^ 137) = 10 * N * ((k + 1 / 2) / 2 ^ 137) + d * ((k + 273) / 2 ^ 137) + 10 * N * (272.5 / 2 ^ 137) := by ring
  have e2 : 0 ≤ (d:ℝ) * ((k + 273) / 2 ^ 137) := by positivity
  have e3 : (10 * N + d) * ((k + 273) / 2 ^ 137) ≤ (10 * N + d) * (1 / 2 ^ 80) := by
    refine mul_le_mul_of_nonneg_left ?_ (by linarith)
    norm_num at hk ⊢; linarith
  have e4 : 0 ≤ 10 * N * ((k + 1 / 2) / 2 ^ 137) := by positivity
  have e5 : 10 * N * ((k + 1 / 2) / 2 ^ 137) ≤ 10 * N * (1 / 2 ^ 80) := by
    refine mul_le_mul_of_nonneg_left ?_ (by linarith)
    norm_num at hk ⊢; linarith
  refine h1.addV h2 (Z := 10 * N * (101 / 100)) (V := 10 * N * (101 / 100)) le_rfl ?_ ?_ ?_ ?_ le_rfl ?_ ?_ ?_
  · linarith
  · norm_num at hN2 ⊢; linarith
  · rw [abs_of_pos (by linarith)]
    generalize 10 * N * ((k + 1 / 2) / 2 ^ 137) = v at *
    norm_num at e5 ⊢; linarith
  · rw [abs_of_nonneg hd0]
    norm_num; linarith
  · rw [e1]
    generalize 10 * N * ((k + 1 / 2) / 2 ^ 137) = v at *
    generalize (d:ℝ) * ((k + 273) / 2 ^ 137) = w at *
    clear e1 e3 e5 hN2 hk
    norm_num; linarith
  · norm_num; linarith
  · rw [abs_of_pos (by linarith)]
    generalize (10 * N + d) * ((k + 273) / 2 ^ 137) = v at *
    clear hN2
    norm_num at e3 ⊢; linarith

/-- The digits. -/
theorem qaccum_rel : ∀ (l : List ℕ), (∀ d ∈ l, d ≤ 9) → digitsVal l ≠ 0 → (digitsVal l : ℝ) ≤ 2 ^ 225 * 2 ^ 225 * 2 ^ 225 * 2 ^ 220 →
    l.length ≤ 2 ^ 30 → QR (accum Quad.ops l) (digitsVal l) (273 * l.length) := by
  intro l
  induction l using List.reverseRecOn with
  | nil => intro _ h; exact absurd rfl h
  | append_singleton l d ih =>
    intro hd h0 hb hlen
    rw [digitsVal_append] at hb h0 ⊢
    rw [List.length_append, List.length_singleton] at hlen ⊢
    have hd9 := hd d (by simp)
    rw [accum_append]
    push_cast at hb ⊢
    have hl0 : (0:ℝ) ≤ l.length := Nat.cast_nonneg _
    by_cases hz : digitsVal l = 0
    · rw [qaccum_zero l hz, hz]
      have e : Quad.ops.add (Quad.ops.mul Quad.ZERO Quad.ops.ten) (Quad.ops.ofDigit d) = Quad.ops.ofDigit d :=
        qdigit_step0.2 ⟨d, by omega⟩
      rw [e]
      obtain ⟨d1, d2⟩ := qdigit_norm hd9
      have h1 := QR.norm d1
      unfold qv at h1
      rw [d2, Rat.cast_natCast] at h1
      rw [Nat.cast_zero, mul_zero, zero_add]
      exact h1.mono (by positivity)
    · have hd0 : (0:ℝ) ≤ d := Nat.cast_nonneg d
      have h1 : (1:ℝ) ≤ digitsVal l := by exact_mod_cast Nat.one_le_iff_ne_zero.mpr hz
      have hlq : (l.length : ℝ) ≤ 2 ^ 30 := by exact_mod_cast (by omega : l.length ≤ 2 ^ 30)
      have hq := ih (fun x hx => hd x (List.mem_append_left _ hx)) hz (by
        generalize (2:ℝ) ^ 225 * 2 ^ 225 * 2 ^ 225 * 2 ^ 220 = K at *
        linarith) (by omega)
      refine (qdigit_step hq h1 hd9 (by
        generalize (2:ℝ) ^ 225 * 2 ^ 225 * 2 ^ 225 * 2 ^ 220 = K at *
        linarith) (by positivity) (by clear hb; linarith)).mono (by linarith)

/-- Powers of ten. -/
theorem qten_pow (k : ℤ) (hk0 : k ≠ 0) (hk : |k| ≤ 228) :
    ∃ p, Quad.TEN.powi k = some p ∧ QR p ((10:ℝ) ^ k) (|(k:ℝ)| / 2 + 1025) := by
  have hv : qv Quad.TEN = 10 := by unfold qv; rw [qten_norm.2]; norm_num
  have hne : qv Quad.TEN ≠ 0 := by rw [hv]; norm_num
  have big : ∀ n : ℕ, n ≤ 228 → (10:ℝ) ^ n ≤ 2 ^ 190 * 2 ^ 190 * (2 ^ 190 * 2 ^ 190) := by
    intro n hn
    refine (pow_le_pow_right₀ (by norm_num) hn).trans ?_
    norm_num
  have low : ∀ n : ℕ, (1:ℝ) ≤ 10 ^ n := fun n => one_le_pow₀ (by norm_num)
  have hmain := quad_powi_main (a := Quad.TEN) hk0 (lt_of_le_of_lt hk (by norm_num)) quad_ten_class.1 quad_ten_class.2.1 quad_ten_class.2.2
  refine ⟨_, hmain, ?_⟩
  generalize hn : k.natAbs = n
  have hkb := abs_le.mp hk
  have hn228 : n ≤ 228 := by omega
  have hkq : |(k:ℝ)| = n := by
    rw [← hn, Nat.cast_natAbs, Int.cast_abs]
  have key := qpowi_pos (a := Quad.TEN) (n := n) qten_norm.1 (by omega) (by omega) hne (by
      rw [hv, abs_of_pos (by norm_num)]
      exact one_le_mul_of_one_le_of_one_le (low n) (by norm_num)) (by
      rw [hv, abs_of_pos (by norm_num)]
      exact (big n hn228).trans (by norm_num))
  rw [hv] at key
  rw [hkq]
  have hn0 : (0:ℝ) ≤ n := Nat.cast_nonneg n
  have hn1 : (n:ℝ) ≤ 228 := by exact_mod_cast hn228
  split_ifs with hneg
  · have e : (10:ℝ) ^ k = 1 / 10 ^ n := by
      rw [show k = -(n:ℤ) by omega, zpow_neg, zpow_natCast, one_div]
    rw [e]
    exact key.recip (by positivity) (by
      rw [abs_of_pos (by positivity)]
      exact one_le_mul_of_one_le_of_one_le (low n) (by norm_num)) (by
      rw [abs_of_pos (by positivity)]
      exact big n hn228) (by positivity) (by norm_num; linarith)
  · have e : (10:ℝ) ^ k = 10 ^ n := by
      rw [show k = (n:ℤ) by omega, zpow_natCast]
    rw [e]
    exact key.mono (by linarith)

/-- What a text parses to. -/
theorem qparse_main (s m : List Char) (e k : ℤ) (hl : s.length < 2 ^ 30) (h : NumText (cleaned s) m e)
    (hk : k = e - fracDigits m) (hk2 : |k| ≤ 228) (hN : intOf m ≠ 0) (hN2 : (intOf m : ℝ) ≤ 2 ^ 225 * 2 ^ 225 * 2 ^ 225 * 2 ^ 220)
    (h1 : 1 ≤ (intOf m : ℝ) * 10 ^ k * (2 ^ 210 * 2 ^ 210 * (2 ^ 210 * 2 ^ 205)))
    (h2 : (intOf m : ℝ) * 10 ^ k ≤ 2 ^ 225 * 2 ^ 225 * 2 ^ 225 * 2 ^ 220) :
    ∃ v, Quad.fromStr s = some (.ok v) ∧
      QR v ((if '-' ∈ m then -1 else 1) * (intOf m * 10 ^ k)) (512 * ((digitsOf m).length + |(k:ℝ)| + 3)) := by
  have hkb := abs_le.mp hk2
  have hne : cleaned s ≠ [] := by
    intro hc
    obtain ⟨x, hx, _⟩ := h
    rw [hc] at hx
    obtain ⟨rfl, rfl⟩ := List.append_eq_nil_iff.mp hx.symm
    exact hN rfl
  have hdl := cleaned_digits (s := s) (by omega)
  have hfs := fromStr_num Quad.ops h hne (not_num_special h) hdl
  rw [if_pos (by omega)] at hfs
  have hL : (digitsOf m).length < 2 ^ 30 := by
    obtain ⟨x, hx, _⟩ := h
    have b1 := digitsOf_sub hx
    have b2 := digits_le (cleaned s)
    have b3 := trim_length s
    have b4 : (cleaned s).length = (trim s).length := by unfold cleaned lower; rw [List.length_map]
    omega
  have ar := qaccum_rel (digitsOf m) digitsOf_le hN hN2 hL.le
  change QR _ (intOf m : ℝ) _ at ar
  generalize hA : accum Quad.ops (digitsOf m) = A at *
  have hLq : ((digitsOf m).length : ℝ) ≤ 2 ^ 30 := by exact_mod_cast hL.le
  have hLq0 : (0:ℝ) ≤ (digitsOf m).length := Nat.cast_nonneg _
  generalize ((digitsOf m).length : ℝ) = L at *
  have hNpos : (0:ℝ) < intOf m := by exact_mod_cast Nat.pos_of_ne_zero hN
  have htpos : (0:ℝ) < (10:ℝ) ^ k := zpow_pos (by norm_num) k
  have hkq0 := abs_nonneg (k:ℝ)
  have hkq1 : |(k:ℝ)| ≤ 228 := by exact_mod_cast hk2
  obtain ⟨w, hw, wr⟩ : ∃ w, scaled Quad.ops A k = some w ∧ QR w (intOf m * 10 ^ k) (512 * (L + |(k:ℝ)| + 3)) := by
    unfold scaled
    by_cases hk0 : k = 0
    · rw [if_pos hk0]
      refine ⟨A, rfl, ?_⟩
      rw [hk0, zpow_zero, mul_one]
      exact ar.mono (by norm_num; linarith)
    · rw [if_neg hk0, if_neg (by omega)]
      obtain ⟨p, hp, pr⟩ := qten_pow k hk0 hk2
      change ∃ w, (Quad.TEN.powi k).map _ = _ ∧ _
      rw [hp]
      refine ⟨A * p, rfl, ?_⟩
      have := ar.mul pr hNpos.ne' htpos.ne' (by
        rw [abs_of_pos (mul_pos hNpos htpos)]
        norm_num at h1 ⊢; linarith) (by
        rw [abs_of_pos (mul_pos hNpos htpos)]
        norm_num at h2 ⊢; linarith) (by linarith) (by linarith) (by norm_num; linarith)
      exact this.mono (by linarith)
  have hnv : numValue Quad.ops m e = some (if '-' ∈ m then -w else w) := by
    unfold numValue
    rw [← hk, hA, hw]
    rfl
  rw [hnv] at hfs
  refine ⟨_, hfs, ?_⟩
  by_cases hs : '-' ∈ m
  · rw [if_pos hs, if_pos hs, neg_one_mul]
    unfold QR at *
    rw [abs_neg]
    exact wr.neg
  · rw [if_neg hs, if_neg hs, one_mul]
    exact wr

/-- **C79.** Parsing a Quad is accurate. A number text means `± N * 10^k`, where `N` is the number its digits form and `k` the
exponent less the number of digits after the point. If `N` is not zero and at most `2^895`, `k` is between -228 and 228 and
the value between `2^-835` and `2^895`, the text parses to a finite Quad whose relative error is at most
`(L + |k| + 3) * 2^-128`, where `L` is the number of digits. -/
theorem C79_quad_parse (s m : List Char) (e k : ℤ) (hl : s.length < 2 ^ 30) (h : NumText (cleaned s) m e)
    (hk : k = e - fracDigits m) (hk2 : |k| ≤ 228) (hN : intOf m ≠ 0) (hN2 : (intOf m : ℚ) ≤ 2 ^ 895)
    (h1 : 1 ≤ (intOf m : ℚ) * 10 ^ k * 2 ^ 835) (h2 : (intOf m : ℚ) * 10 ^ k ≤ 2 ^ 895) :
    ∃ v, Quad.fromStr s = some (.ok v) ∧ v.Fin ∧
      |v.val - (if '-' ∈ m then -1 else 1) * (intOf m * 10 ^ k)| * 2 ^ 128 ≤
        ((digitsOf m).length + |k| + 3) * (intOf m * 10 ^ k) := by
  rw [show (2:ℚ) ^ 835 = 2 ^ 210 * 2 ^ 210 * (2 ^ 210 * 2 ^ 205) by simp only [← pow_add]] at h1
  rw [show (2:ℚ) ^ 895 = 2 ^ 225 * 2 ^ 225 * 2 ^ 225 * 2 ^ 220 by simp only [← pow_add]] at h2 hN2
  obtain ⟨v, hv, hq⟩ := qparse_main s m e k hl h hk hk2 hN (by exact_mod_cast hN2)
    (by have := (Rat.cast_le (K := ℝ)).mpr h1; push_cast at this; exact this)
    (by have := (Rat.cast_le (K := ℝ)).mpr h2; push_cast at this; exact this)
  refine ⟨v, hv, QA.fin hq, ?_⟩
  have he := QA.err hq
  have hNpos : (0:ℝ) < intOf m := by exact_mod_cast Nat.pos_of_ne_zero hN
  have htpos : (0:ℝ) < (10:ℝ) ^ k := zpow_pos (by norm_num) k
  have hab : |(if '-' ∈ m then -1 else 1 : ℝ) * (intOf m * 10 ^ k)| = intOf m * 10 ^ k := by
    split_ifs
    · rw [neg_one_mul, abs_neg, abs_of_pos (mul_pos hNpos htpos)]
    · rw [one_mul, abs_of_pos (mul_pos hNpos htpos)]
  rw [hab] at he
  have h4 := mul_le_mul_of_nonneg_right he (show (0:ℝ) ≤ 2 ^ 128 by positivity)
  have h5 : |qv v - (if '-' ∈ m then -1 else 1 : ℝ) * (intOf m * 10 ^ k)| * 2 ^ 128 ≤
      ((digitsOf m).length + |(k:ℝ)| + 3) * (intOf m * 10 ^ k) := by
    refine h4.trans (le_of_eq ?_)
    norm_num; ring
  unfold qv at h5
  split_ifs at h5 ⊢ <;> exact (Rat.cast_le (K := ℝ)).mp (by push_cast; exact h5)

/-- The hypotheses are met by ordinary texts. -/
example : NumText (cleaned " -3.14159265358979323846264338327950288E2".toList) "-3.14159265358979323846264338327950288".toList 2 ∧
    (-33 : ℤ) = 2 - fracDigits "-3.14159265358979323846264338327950288".toList ∧
    intOf "-3.14159265358979323846264338327950288".toList ≠ 0 ∧
    (intOf "-3.14159265358979323846264338327950288".toList : ℚ) ≤ 2 ^ 895 ∧
    1 ≤ (intOf "-3.14159265358979323846264338327950288".toList : ℚ) * 10 ^ (-33 : ℤ) * 2 ^ 835 ∧
    (intOf "-3.14159265358979323846264338327950288".toList : ℚ) * 10 ^ (-33 : ℤ) ≤ 2 ^ 895 := by
  refine ⟨⟨"e2".toList, by decide, ⟨by decide, by decide, by decide, by decide⟩, Or.inr ⟨['2'], rfl, ?_⟩⟩, ?_⟩
  · exact ⟨[], ['2'], rfl, by simp, by simp, by decide, by decide, by norm_num, by norm_num⟩
  · decide +kernel

end Verif
