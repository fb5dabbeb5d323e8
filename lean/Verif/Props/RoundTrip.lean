import Verif.Props.ToQuad
import Verif.Props.QuadParseAcc
import Verif.Props.QuadDisplay

/-!
# C86, C87: numbers through text

Printing a number and reading the text back, as the same type (C87) or, for a Double, as a Quad (C86: this is how
`Quad::from(Double)` works).
-/

namespace Verif

open F64 Disp

/-- Without settings, what is printed and how long it is. -/
theorem fixed_none {α : Type} (ops : Disp.Ops α) (log10 : F64 → F64) (x : α) (ds : List ℕ) (k : ℤ) (hn : ops.isNan x = false)
    (hi : ops.isInfinite x = false) (hz : ops.isZero x = false) (ek : exponent ops log10 (ops.abs x) = k)
    (he : extractDigits ops (ops.abs x) k = some ds) (hne : ds ≠ [])
    (hg : GoodDigits ds k) (h1 : -1000 ≤ k) (h2 : k ≤ 1000) :
    ∃ t whole p, display ops log10 x {} = some (signOf (ops.isSignNegative x) false ++ t) ∧ PlainText t whole p (decVal ds k) ∧
      (p : ℤ) ≤ ds.length + max 0 (-k) ∧ 0 < whole ∧ (whole : ℤ) ≤ max 0 k + 2 := by
  obtain ⟨r, e1, d1, n1, l1, v1⟩ := adjustZeros_spec hg hne (by omega) (by omega)
  obtain ⟨t, e2, ht⟩ := placeDecimal_spec d1 n1 l1
  have l2 : r.length ≤ ds.length + k.natAbs + 1 := by
    unfold adjustZeros at e1
    split_ifs at e1 with h1 h2 h3 <;> dsimp only at e1
    all_goals
      simp only [Option.map_map, Option.map_some, Option.map_eq_some_iff, Function.comp, Option.some.injEq] at e1
    · obtain ⟨n, -, rfl⟩ := e1
      rw [List.length_append, List.length_replicate, List.length_take]; omega
    · obtain ⟨n, -, rfl⟩ := e1
      rw [List.length_append, List.length_replicate, List.length_take]; omega
    · subst e1
      rw [List.length_append, List.length_replicate]; omega
    · subst e1
      rw [List.length_append, List.length_replicate]; omega
  refine ⟨t, _, _, ?_, v1 ▸ ht, by omega, by omega, by split_ifs <;> omega⟩
  unfold display
  dsimp only
  rw [hn, hi, hz]
  simp only [Bool.false_eq_true, if_false]
  unfold Disp.fixedText
  dsimp only
  rw [ek, he, Option.bind_some, e1, Option.bind_some, show adjustPrec r k none = some r from rfl, Option.bind_some, e2, Option.map_some,
    align_none _ _ _ rfl, signText_fst]

/-- A plain text with a sign, read as a number. -/
theorem plain_num {t : List Char} {whole p : ℕ} {q : ℚ} (ht : PlainText t whole p q) (hw : 0 < whole) (neg : Bool) :
    NumText (cleaned (signOf neg false ++ t)) (signOf neg false ++ t) 0 ∧ fracDigits (signOf neg false ++ t) = p ∧
    (intOf (signOf neg false ++ t) : ℚ) / 10 ^ p = q ∧ ('-' ∈ signOf neg false ++ t ↔ neg = true) ∧
    (digitsOf (signOf neg false ++ t)).length = whole + p ∧ (signOf neg false ++ t).length ≤ whole + p + 2 := by
  obtain ⟨ip, fp, e, l1, l2, hd, hq⟩ := ht
  have hsg : digitsOf (signOf neg false) = [] := by cases neg <;> decide
  have hdt : ∀ l : List Char, (∀ c ∈ l, IsDigit c) → (digitsOf l).length = l.length := by
    intro l hl
    unfold digitsOf
    rw [List.length_map, List.filter_eq_self.mpr (fun c hc => by simpa using hl c hc)]
  have hip : ∀ c ∈ ip, IsDigit c := fun c hc => hd c (List.mem_append_left _ hc)
  have hfp : ∀ c ∈ fp, IsDigit c := fun c hc => hd c (List.mem_append_right _ hc)
  have hpt : PrintedText (signOf neg false ++ t) := by
    refine ⟨signOf neg false, ip ++ fp, whole, by cases neg <;> simp [signOf], ?_, hd, ?_⟩
    · intro hc; rw [List.append_eq_nil_iff] at hc; rw [hc.1] at l1; simp at l1; omega
    · by_cases hp : p = 0
      · left
        have : fp = [] := List.length_eq_zero_iff.mp (l2.trans hp)
        rw [e, if_pos hp, this, List.append_nil]
      · right
        rw [e, if_neg hp, ← l1, List.take_left, List.drop_left]
  have hdg : digitsOf (signOf neg false ++ t) = digitsOf (ip ++ fp) := by
    rw [digitsOf_append, hsg, List.nil_append, e]
    by_cases hp : p = 0
    · have : fp = [] := List.length_eq_zero_iff.mp (l2.trans hp)
      rw [if_pos hp, this, List.append_nil]
    · rw [if_neg hp, digitsOf_append, show '.' :: fp = ['.'] ++ fp from rfl, digitsOf_append, digitsOf_append,
        digitsOf_other (by decide), List.nil_append]
  have nodot : ∀ l : List Char, (∀ c ∈ l, IsDigit c) → '.' ∉ l := fun l hl hc => (digit_plain (hl _ hc)).2.2.1 rfl
  have nominus : ∀ l : List Char, (∀ c ∈ l, IsDigit c) → '-' ∉ l := fun l hl hc => (digit_plain (hl _ hc)).2.2.2 (Or.inr rfl)
  have hsd : '.' ∉ signOf neg false := by cases neg <;> decide
  refine ⟨⟨[], ?_, hpt.mantissa.1, Or.inl ⟨rfl, rfl⟩⟩, ?_, ?_, ?_, ?_, ?_⟩
  · rw [hpt.clean, List.append_nil]
  · by_cases hp : p = 0
    · rw [frac_none, hp]
      rw [e, if_pos hp]
      exact fun hc => (List.mem_append.mp hc).elim hsd (nodot ip hip)
    · unfold fracDigits
      rw [e, if_neg hp, ← List.append_assoc, List.dropWhile_append_of_pos, List.dropWhile_cons_of_neg (by simp),
        show '.' :: fp = ['.'] ++ fp from rfl, digitsOf_append, digitsOf_other (by decide), List.nil_append, hdt fp hfp, l2]
      intro c hc
      have : c ≠ '.' := by
        rintro rfl
        exact (List.mem_append.mp hc).elim hsd (nodot ip hip)
      simpa using this
  · unfold intOf at hq ⊢
    rw [hdg]; exact hq
  · have : '-' ∉ t := by
      rw [e]
      split_ifs
      · exact nominus ip hip
      · intro hc
        rcases List.mem_append.mp hc with h | h
        · exact nominus ip hip h
        · rcases List.mem_cons.mp h with h | h
          · exact absurd h (by decide)
          · exact nominus fp hfp h
    rw [List.mem_append]
    constructor
    · rintro (h | h)
      · cases neg
        · exact absurd h (by decide)
        · rfl
      · exact absurd h this
    · rintro rfl; left; decide
  · rw [hdg, hdt _ hd, List.length_append, l1, l2]
  · rw [List.length_append, e]
    have : (signOf neg false).length ≤ 1 := by cases neg <;> decide
    split_ifs
    · omega
    · rw [List.length_append, List.length_cons]; omega


/-- The printed text, read as a number. -/
theorem shown_text {α : Type} (ops : Disp.Ops α) (log10 : F64 → F64) (x : α) (ds : List ℕ) (k : ℤ) (hn : ops.isNan x = false)
    (hi : ops.isInfinite x = false) (hz : ops.isZero x = false) (ek : exponent ops log10 (ops.abs x) = k)
    (he : extractDigits ops (ops.abs x) k = some ds) (hne : ds ≠ []) (hl : ds.length ≤ 100)
    (hg : GoodDigits ds k) (h1 : -1000 ≤ k) (h2 : k ≤ 1000) :
    ∃ (s : List Char) (p : ℕ), display ops log10 x {} = some s ∧ s.length < 2 ^ 30 ∧ NumText (cleaned s) s 0 ∧ -(p:ℤ) = 0 - fracDigits s ∧
      (intOf s : ℚ) * 10 ^ (-(p:ℤ)) = decVal ds k ∧ (intOf s : ℚ) = decVal ds k * 10 ^ p ∧ (p : ℤ) ≤ ds.length + max 0 (-k) ∧
      ((digitsOf s).length : ℤ) ≤ max 0 k + 2 + p ∧ ('-' ∈ s ↔ ops.isSignNegative x = true) := by
  obtain ⟨t, w, p, a, b, c, d, e⟩ := fixed_none ops log10 x ds k hn hi hz ek he hne hg h1 h2
  obtain ⟨f1, f2, f3, f4, f5, f6⟩ := plain_num b d (ops.isSignNegative x)
  have hp : (0:ℚ) < 10 ^ p := by positivity
  refine ⟨_, p, a, by omega, f1, by rw [f2]; ring, ?_, ?_, c, by omega, f4⟩
  · rw [zpow_neg, zpow_natCast, ← f3]; field_simp
  · rw [← f3]; field_simp

/-- Sum of the two errors. -/
theorem text_err {v x q X sg c u w : ℚ} (hX : sg * X = x) (hs : |sg| = 1) (h1 : X * (1 - c) ≤ q) (h2 : q ≤ X * (1 + u)) (hX0 : 0 ≤ X)
    (hcu : c ≤ u) (hw : 0 ≤ w) (h3 : |v - sg * q| ≤ w * q) : |v - x| ≤ X * (u + w * (1 + u)) := by
  have e : v - x = (v - sg * q) + sg * (q - X) := by rw [← hX]; ring
  have h4 : |sg * (q - X)| ≤ X * u := by
    rw [abs_mul, hs, one_mul, abs_le]
    have := mul_le_mul_of_nonneg_left hcu hX0
    constructor <;> nlinarith
  have h5 := mul_le_mul_of_nonneg_left h2 hw
  rw [e]
  refine (abs_add_le _ _).trans ?_
  nlinarith

theorem sgn_val {x : Double} (hx : x.Normalized) : (if x.hi.isSignNegative = true then -1 else 1 : ℚ) * |x.val| = x.val := by
  have h := (C41_abs_val x hx).2
  unfold Double.abs at h
  change (if x.isSignNegative = true then -1 else 1 : ℚ) * |x.val| = x.val
  split_ifs at h ⊢
  · have h2 : (-x).val = -x.val := by
      obtain ⟨a, b, i, n⟩ := hx.norm2
      have hn := i.neg
      rw [hn.val, i.val]; push_cast; ring
    rw [← h, h2]; ring
  · rw [← h, one_mul]

theorem qsgn_val {x : Quad} (hx : x.Normalized) : (if x.c0.isSignNegative = true then -1 else 1 : ℚ) * |x.val| = x.val := by
  have h := (C41_quad_abs_val x hx).2
  unfold Quad.abs at h
  change (if x.isSignNegative = true then -1 else 1 : ℚ) * |x.val| = x.val
  split_ifs at h ⊢
  · rw [← h, (quad_neg_norm x hx).2]; ring
  · rw [← h, one_mul]

/-- Size of the integer the digits form. -/
theorem text_size {X q : ℚ} {k : ℤ} {p n B : ℕ} (hX : X ≤ (10:ℚ) ^ (k + 1) * (1 + 1 / 2 ^ 40)) (hX0 : 0 < X) (hq : q ≤ X * (1 + 1 / 2 ^ 40))
    (hp : (p:ℤ) ≤ n + max 0 (-k)) (hB : X ≤ 2 ^ B) : q * 10 ^ p ≤ 2 ^ (B + 1) * 10 ^ n ∨ q * 10 ^ p ≤ 10 ^ (n + 2) := by
  have z : ∀ n : ℤ, (0:ℚ) < 10 ^ n := fun n => zpow_pos (by norm_num) n
  have hp0 : (0:ℚ) < 10 ^ p := by positivity
  have hq2 : q ≤ 2 * X := hq.trans (by linarith)
  rcases le_or_gt 0 k with hk | hk
  · left
    have : (10:ℚ) ^ p ≤ 10 ^ n := pow_le_pow_right₀ (by norm_num) (by omega)
    calc q * 10 ^ p ≤ (2 * X) * 10 ^ p := mul_le_mul_of_nonneg_right hq2 hp0.le
      _ ≤ (2 * 2 ^ B) * 10 ^ n := by gcongr
      _ = _ := by ring
  · right
    have h1 : q ≤ 10 ^ (k + 2) := by
      rw [show k + 2 = (k + 1) + 1 by ring, zpow_add_one₀ (by norm_num)]
      have := z (k + 1)
      have h2 : X ≤ 10 ^ (k + 1) * 2 := hX.trans (mul_le_mul_of_nonneg_left (by norm_num) this.le)
      linarith
    have h2 : (10:ℚ) ^ p ≤ 10 ^ ((n:ℤ) - k) := by
      rw [← zpow_natCast]; exact zpow_le_zpow_right₀ (by norm_num) (by omega)
    calc q * 10 ^ p ≤ 10 ^ (k + 2) * 10 ^ p := mul_le_mul_of_nonneg_right h1 hp0.le
      _ ≤ 10 ^ (k + 2) * 10 ^ ((n:ℤ) - k) := mul_le_mul_of_nonneg_left h2 (z _).le
      _ = 10 ^ (n + 2) := by
        rw [← zpow_add₀ (by norm_num), ← zpow_natCast]; congr 1; push_cast; ring

/-- The number is not too small. -/
theorem text_low {X q : ℚ} {k : ℤ} {n : ℕ} (hX : (10:ℚ) ^ k ≤ X * (1 + 1 / 2 ^ 40)) (hq : X * (1 - 1 / 2 ^ 40) ≤ q) (hX0 : 0 < X)
    (hk : -(n:ℤ) ≤ k) : 1 ≤ q * 2 ^ (4 * n + 2) := by
  have h1 : ((10:ℚ) ^ n)⁻¹ ≤ 10 ^ k := by
    rw [← zpow_natCast, ← zpow_neg]; exact zpow_le_zpow_right₀ (by norm_num) hk
  have h2 : (10:ℚ) ^ n ≤ 2 ^ (4 * n) := by rw [pow_mul]; exact pow_le_pow_left₀ (by norm_num) (by norm_num) n
  have h3 : (0:ℚ) < 10 ^ n := by positivity
  have h4 : 10 ^ k ≤ q * 4 := by
    have : (0:ℚ) < X := hX0
    linarith
  have h5 := mul_le_mul_of_nonneg_right (h1.trans h4) h3.le
  rw [inv_mul_cancel₀ h3.ne'] at h5
  have hq0 : 0 ≤ q := by linarith
  rw [pow_add]
  calc (1:ℚ) ≤ q * 4 * 10 ^ n := h5
    _ ≤ q * 4 * 2 ^ (4 * n) := mul_le_mul_of_nonneg_left h2 (by linarith)
    _ = _ := by ring


/-! ## C86: `Quad::from(Double)` -/

/-- **C86** (partial). For a normalized Double between `10^-197` and `2^790` (with a `log10` that is right up to `2^-40` at powers
of ten) whose extracted decimal digits are proper digits, `Quad::from` returns a finite Quad within relative `2^-48` of it.
Missing: the full claim, that the value is kept, fails (`C86_refuted`, `C86_refuted_ten`). -/
theorem C86_value_partial (P : Platform) (x : Double) (k : ℤ) (hx : x.Normalized) (hl : LogOk P.log10 x.hi x.val k) (hk : -197 ≤ k)
    (hb : |x.val| ≤ 2 ^ 790) :
    ∃ ds, extractDigits Double.dispOps x.abs k = some ds ∧ (GoodDigits ds k →
      ∃ v, Quad.ofDouble P x = some v ∧ v.Fin ∧ |v.val - x.val| ≤ |x.val| / 2 ^ 48) := by
  obtain ⟨l1, l2, l3⟩ := hl
  obtain ⟨ds, d1, d2, d3, d4, d5, d6⟩ := digits_spec hx (by omega) l2 l3
    (hb.trans (pow_le_pow_right₀ (by norm_num) (by norm_num)))
  refine ⟨ds, d1, fun hg => ?_⟩
  have hne : ds ≠ [] := by rintro rfl; simp at d3
  have hT : (0:ℚ) < 10 ^ k := zpow_pos (by norm_num) k
  have hv : x.val ≠ 0 := by
    intro h0
    rw [h0] at l2; simp at l2; linarith
  obtain ⟨c1, c2, c3⟩ := val_class hx hv
  have ek : exponent Double.dispOps P.log10 (Double.dispOps.abs x) = k := by
    change F64.toI32 (F64.floor (P.log10 x.abs.hi)) = k
    rw [abs_hi]; exact l1
  obtain ⟨s, p, e1, e2, e3, e4, e5, e6, e7, e8, e9⟩ := shown_text Double.dispOps P.log10 x ds k c1 c3 c2 ek d1 hne (by omega) hg
    (by omega) (by omega)
  rw [d3] at e7
  have hX0 : 0 < |x.val| := abs_pos.mpr hv
  have hsv := sgn_val hx
  generalize hXe : |x.val| = X at *
  generalize hqe : decVal ds k = q at *
  have q2 : q ≤ X * (1 + 1 / 2 ^ 40) := d6.trans (mul_le_mul_of_nonneg_left (by norm_num) hX0.le)
  have q1 : X * (1 - 1 / 2 ^ 40) ≤ q := (mul_le_mul_of_nonneg_left (by norm_num) hX0.le).trans d5
  have hq0 : 0 < q := lt_of_lt_of_le (by nlinarith) q1
  have hN0 : intOf s ≠ 0 := by
    intro h0; rw [h0, Nat.cast_zero] at e6
    have : 0 < q * 10 ^ p := by positivity
    linarith
  have hN : (intOf s : ℚ) ≤ 2 ^ 895 := by
    rw [e6]
    rcases text_size l3 hX0 q2 (by exact_mod_cast e7 : (p:ℤ) ≤ (31:ℕ) + max 0 (-k)) hb with h | h
    · refine h.trans ?_
      calc (2:ℚ) ^ (790 + 1) * 10 ^ 31 ≤ 2 ^ (790 + 1) * 2 ^ 103 := mul_le_mul_of_nonneg_left (by norm_num) (by positivity)
        _ = 2 ^ 894 := by rw [← pow_add]
        _ ≤ 2 ^ 895 := pow_le_pow_right₀ (by norm_num) (by norm_num)
    · refine h.trans (?_ : (10:ℚ) ^ (31 + 2) ≤ 2 ^ 895)
      exact (by norm_num : (10:ℚ) ^ (31 + 2) ≤ 2 ^ 120).trans (pow_le_pow_right₀ (by norm_num) (by norm_num))
  have hlow : 1 ≤ q * 2 ^ 835 := by
    refine (text_low (n := 197) l2 q1 hX0 (by omega)).trans (mul_le_mul_of_nonneg_left ?_ hq0.le)
    exact pow_le_pow_right₀ (by norm_num) (by norm_num)
  have hhigh : q ≤ 2 ^ 895 := by
    have : q ≤ 2 ^ (790 + 1) := by
      rw [pow_succ]; refine q2.trans ?_
      exact mul_le_mul hb (by norm_num) (by norm_num) (by positivity)
    exact this.trans (pow_le_pow_right₀ (by norm_num) (by norm_num))
  obtain ⟨v, v1, v2, v3⟩ := C79_quad_parse s s 0 (-(p:ℤ)) e2 e3 e4 (by rw [abs_neg, Nat.abs_cast]; omega) hN0 hN (by rw [e5]; exact hlow)
    (by rw [e5]; exact hhigh)
  clear hN hlow hhigh hb
  refine ⟨v, ?_, v2, ?_⟩
  · unfold Quad.ofDouble
    change (match Disp.display Double.dispOps P.log10 x {} with | none => none | some s => _) = _
    rw [e1]; dsimp only; rw [v1]
  · rw [e5] at v3
    have hpn : p ≤ 228 := by omega
    have hdg : (digitsOf s).length ≤ 600 := by omega
    have hw : (((digitsOf s).length : ℚ) + ((|(-(p:ℤ))| : ℤ) : ℚ) + 3) ≤ 1000 := by
      have a1 : ((digitsOf s).length : ℚ) ≤ 600 := by exact_mod_cast hdg
      have a2 : ((p:ℕ) : ℚ) ≤ 228 := by exact_mod_cast hpn
      rw [abs_neg, Nat.abs_cast, Int.cast_natCast]; linarith
    have hsg : (if '-' ∈ s then -1 else 1 : ℚ) = if x.hi.isSignNegative = true then -1 else 1 := by
      have : ('-' ∈ s) ↔ x.hi.isSignNegative = true := e9
      simp only [this]
    rw [hsg] at v3
    generalize hsge : (if x.hi.isSignNegative = true then -1 else 1 : ℚ) = sg at *
    have hab : |sg| = 1 := by rw [← hsge]; split_ifs <;> norm_num
    have v4 : |v.val - sg * q| ≤ (1000 / 2 ^ 128) * q := by
      have := mul_le_mul_of_nonneg_right hw hq0.le
      have := v3.trans this
      norm_num at this ⊢; linarith
    refine (text_err hsv hab d5 d6 hX0.le (by norm_num) (by norm_num) v4).trans ?_
    exact (mul_le_mul_of_nonneg_left (show _ ≤ (1:ℚ) / 2 ^ 48 by norm_num) hX0.le).trans (le_of_eq (by ring))


/-- What is printed depends on the logarithm only through the decimal exponent. -/
theorem display_log {α : Type} (ops : Disp.Ops α) (l1 l2 : F64 → F64) (x : α)
    (h : F64.toI32 (F64.floor (l1 (ops.hi (ops.abs x)))) = F64.toI32 (F64.floor (l2 (ops.hi (ops.abs x))))) :
    display ops l1 x {} = display ops l2 x {} := by
  have e : exponent ops l1 (ops.abs x) = exponent ops l2 (ops.abs x) := h
  unfold Disp.display Disp.fixedText
  dsimp only
  rw [e]

/-- The number 3.25 is in the range, and its extracted digits are proper. -/
example : (⟨F64.ofDec false 325 (-2), F64.zero⟩ : Double).Normalized ∧
    LogOk (fun _ => F64.zero) (F64.ofDec false 325 (-2)) (⟨F64.ofDec false 325 (-2), F64.zero⟩ : Double).val 0 ∧
    ∃ ds, extractDigits Double.dispOps (⟨F64.ofDec false 325 (-2), F64.zero⟩ : Double).abs 0 = some ds ∧ GoodDigits ds 0 := by
  have e : (⟨F64.ofDec false 325 (-2), F64.zero⟩ : Double).val = 325 / 100 := by decide +kernel
  refine ⟨by decide +kernel, ⟨by decide +kernel, ?_, ?_⟩, 3 :: 2 :: 5 :: List.replicate 28 0, by decide +kernel, Or.inl (by decide)⟩ <;> rw [e] <;>
    norm_num [abs_of_pos]

/-- **C86**, refuted: whatever the platform's logarithm is, as long as it gives the right decimal exponent, `Quad::from` turns the
normalized Double `3 - 2^-60` into `3`. -/
theorem C86_refuted : ∃ x : Double, x.Normalized ∧ x.val = 3 - 1 / 1152921504606846976 ∧
    ∀ P : Platform, LogOk P.log10 x.hi x.val 0 → ∃ v, Quad.ofDouble P x = some v ∧ v.Normalized ∧ v.val = 3 := by
  obtain ⟨x, h1, h2, h3, h4⟩ := C61_refuted
  refine ⟨x, h1, h2, fun P hP => ?_⟩
  obtain ⟨v, e1, e2⟩ : ∃ v, Quad.fromStr "3".toList = some (.ok v) ∧ v.Normalized ∧ v.val = 3 :=
    ⟨⟨F64.ofInt 3, F64.zero, F64.zero, F64.zero⟩, by decide +kernel, by decide +kernel, by decide +kernel⟩
  refine ⟨v, ?_, e2⟩
  have hd : Double.display P.log10 x {} = some "3".toList := by
    rw [← h4]
    apply display_log
    change F64.toI32 (F64.floor (P.log10 x.abs.hi)) = F64.toI32 (F64.floor F64.zero)
    rw [abs_hi, hP.1, ← h3.1]
  unfold Quad.ofDouble
  rw [hd]; dsimp only; rw [e1]

/-- **C86**, refuted: a normalized Double just below `1.1` becomes the Quad nearest to `1.01`, an error of eight percent. -/
theorem C86_refuted_ten : ∃ x : Double, x.Normalized ∧ 1.0999 ≤ x.val ∧ x.val ≤ 1.1 ∧
    ∀ P : Platform, LogOk P.log10 x.hi x.val 0 → ∃ v, Quad.ofDouble P x = some v ∧ v.val < 1.011 := by
  obtain ⟨x, h1, h2, h2', h3, h4⟩ := C61_refuted_ten
  refine ⟨x, h1, h2, h2', fun P hP => ?_⟩
  obtain ⟨v, e1, e2⟩ : ∃ v, Quad.fromStr "1.010".toList = some (.ok v) ∧ v.val < 1.011 := by
    have h : (match Quad.fromStr "1.010".toList with | some (.ok v) => decide (v.val < 1.011) | _ => false) = true := by decide +kernel
    split at h
    · rename_i v hv; exact ⟨v, hv, of_decide_eq_true h⟩
    · cases h
  refine ⟨v, ?_, e2⟩
  have hd : Double.display P.log10 x {} = some "1.010".toList := by
    rw [← h4]
    apply display_log
    change F64.toI32 (F64.floor (P.log10 x.abs.hi)) = F64.toI32 (F64.floor F64.zero)
    rw [abs_hi, hP.1, ← h3.1]
  unfold Quad.ofDouble
  rw [hd]; dsimp only; rw [e1]


/-! ## C87: printing and parsing -/

/-- **C87** (partial), for Doubles between `10^-239` and `2^900` (with a `log10` that is right up to `2^-40` at powers of ten):
when the extracted decimal digits are proper digits, the text `{}` prints parses to a normalized Double within relative `2^-48`.
Missing: the full claim, that the number comes back, fails (`C87_refuted`). -/
theorem C87_double_partial (log10 : F64 → F64) (x : Double) (k : ℤ) (hx : x.Normalized) (hl : LogOk log10 x.hi x.val k) (hk : -239 ≤ k)
    (hb : |x.val| ≤ 2 ^ 900) :
    ∃ ds, extractDigits Double.dispOps x.abs k = some ds ∧ (GoodDigits ds k →
      ∃ s v, x.display log10 {} = some s ∧ Double.fromStr s = some (.ok v) ∧ v.Normalized ∧ |v.val - x.val| ≤ |x.val| / 2 ^ 48) := by
  obtain ⟨l1, l2, l3⟩ := hl
  obtain ⟨ds, d1, d2, d3, d4, d5, d6⟩ := digits_spec hx (by omega) l2 l3
    (hb.trans (pow_le_pow_right₀ (by norm_num) (by norm_num)))
  refine ⟨ds, d1, fun hg => ?_⟩
  have hne : ds ≠ [] := by rintro rfl; simp at d3
  have hT : (0:ℚ) < 10 ^ k := zpow_pos (by norm_num) k
  have hv : x.val ≠ 0 := by
    intro h0
    rw [h0] at l2; simp at l2; linarith
  obtain ⟨c1, c2, c3⟩ := val_class hx hv
  have ek : exponent Double.dispOps log10 (Double.dispOps.abs x) = k := by
    change F64.toI32 (F64.floor (log10 x.abs.hi)) = k
    rw [abs_hi]; exact l1
  obtain ⟨s, p, e1, e2, e3, e4, e5, e6, e7, e8, e9⟩ := shown_text Double.dispOps log10 x ds k c1 c3 c2 ek d1 hne (by omega) hg
    (by omega) (by omega)
  rw [d3] at e7
  have hX0 : 0 < |x.val| := abs_pos.mpr hv
  have hsv := sgn_val hx
  generalize hXe : |x.val| = X at *
  generalize hqe : decVal ds k = q at *
  have q2 : q ≤ X * (1 + 1 / 2 ^ 40) := d6.trans (mul_le_mul_of_nonneg_left (by norm_num) hX0.le)
  have q1 : X * (1 - 1 / 2 ^ 40) ≤ q := (mul_le_mul_of_nonneg_left (by norm_num) hX0.le).trans d5
  have hq0 : 0 < q := lt_of_lt_of_le (by nlinarith) q1
  have hN0 : intOf s ≠ 0 := by
    intro h0; rw [h0, Nat.cast_zero] at e6
    have : 0 < q * 10 ^ p := by positivity
    linarith
  have hN : (intOf s : ℚ) ≤ 2 ^ 1010 := by
    rw [e6]
    rcases text_size l3 hX0 q2 (by exact_mod_cast e7 : (p:ℤ) ≤ (31:ℕ) + max 0 (-k)) hb with h | h
    · refine h.trans ?_
      calc (2:ℚ) ^ (900 + 1) * 10 ^ 31 ≤ 2 ^ (900 + 1) * 2 ^ 103 := mul_le_mul_of_nonneg_left (by norm_num) (by positivity)
        _ = 2 ^ 1004 := by rw [← pow_add]
        _ ≤ 2 ^ 1010 := pow_le_pow_right₀ (by norm_num) (by norm_num)
    · refine h.trans (?_ : (10:ℚ) ^ (31 + 2) ≤ 2 ^ 1010)
      exact (by norm_num : (10:ℚ) ^ (31 + 2) ≤ 2 ^ 120).trans (pow_le_pow_right₀ (by norm_num) (by norm_num))
  have hlow : 1 ≤ q * 2 ^ 960 := by
    refine (text_low (n := 239) l2 q1 hX0 (by omega)).trans (mul_le_mul_of_nonneg_left ?_ hq0.le)
    exact pow_le_pow_right₀ (by norm_num) (by norm_num)
  have hhigh : q ≤ 2 ^ 1020 := by
    have : q ≤ 2 ^ (900 + 1) := by
      rw [pow_succ]; refine q2.trans ?_
      exact mul_le_mul hb (by norm_num) (by norm_num) (by positivity)
    exact this.trans (pow_le_pow_right₀ (by norm_num) (by norm_num))
  obtain ⟨v, v1, v2, v3⟩ := C60_accurate s s 0 (-(p:ℤ)) e2 e3 e4 (by rw [abs_neg, Nat.abs_cast]; omega) hN0 hN (by rw [e5]; exact hlow)
    (by rw [e5]; exact hhigh)
  clear hN hlow hhigh hb
  refine ⟨s, v, e1, v1, v2, ?_⟩
  · rw [e5] at v3
    have hpn : p ≤ 288 := by omega
    have hdg : (digitsOf s).length ≤ 600 := by omega
    have hw : (((digitsOf s).length : ℚ) + ((|(-(p:ℤ))| : ℤ) : ℚ) + 2) ≤ 1000 := by
      have a1 : ((digitsOf s).length : ℚ) ≤ 600 := by exact_mod_cast hdg
      have a2 : ((p:ℕ) : ℚ) ≤ 288 := by exact_mod_cast hpn
      rw [abs_neg, Nat.abs_cast, Int.cast_natCast]; linarith
    have hsg : (if '-' ∈ s then -1 else 1 : ℚ) = if x.hi.isSignNegative = true then -1 else 1 := by
      have : ('-' ∈ s) ↔ x.hi.isSignNegative = true := e9
      simp only [this]
    rw [hsg] at v3
    generalize hsge : (if x.hi.isSignNegative = true then -1 else 1 : ℚ) = sg at *
    have hab : |sg| = 1 := by rw [← hsge]; split_ifs <;> norm_num
    have v4 : |v.val - sg * q| ≤ (1000 / 2 ^ 99) * q := by
      have := mul_le_mul_of_nonneg_right hw hq0.le
      have := v3.trans this
      norm_num at this ⊢; linarith
    refine (text_err hsv hab d5 d6 hX0.le (by norm_num) (by norm_num) v4).trans ?_
    exact (mul_le_mul_of_nonneg_left (show _ ≤ (1:ℚ) / 2 ^ 48 by norm_num) hX0.le).trans (le_of_eq (by ring))


/-- **C87** (partial), for Quads between `10^-166` and `2^159`: as for Doubles, within relative `2^-41`. -/
theorem C87_quad_partial (log10 : F64 → F64) (x : Quad) (k : ℤ) (hx : x.Normalized) (hl : LogOk log10 x.c0 x.val k) (hk : -166 ≤ k)
    (hb : |x.val| ≤ 2 ^ 159) :
    ∃ ds, extractDigits Quad.dispOps x.abs k = some ds ∧ (GoodDigits ds k →
      ∃ s v, x.display log10 {} = some s ∧ Quad.fromStr s = some (.ok v) ∧ v.Fin ∧ |v.val - x.val| ≤ |x.val| / 2 ^ 41) := by
  obtain ⟨l1, l2, l3⟩ := hl
  obtain ⟨ds, d1, d2, d3, d4, d5, d6⟩ := qdigits_spec hx (by omega) l2 l3 hb
  refine ⟨ds, d1, fun hg => ?_⟩
  have hne : ds ≠ [] := by rintro rfl; simp at d3
  have hT : (0:ℚ) < 10 ^ k := zpow_pos (by norm_num) k
  have hv : x.val ≠ 0 := by
    intro h0
    rw [h0] at l2; simp at l2; linarith
  obtain ⟨c1, c2, c3⟩ := qv_class hx hv
  have ek : exponent Quad.dispOps log10 (Quad.dispOps.abs x) = k := by
    change F64.toI32 (F64.floor (log10 x.abs.c0)) = k
    rw [qabs_hi]; exact l1
  obtain ⟨s, p, e1, e2, e3, e4, e5, e6, e7, e8, e9⟩ := shown_text Quad.dispOps log10 x ds k c1 c3 c2 ek d1 hne (by omega) hg
    (by omega) (by omega)
  rw [d3] at e7
  have hX0 : 0 < |x.val| := abs_pos.mpr hv
  have hsv := qsgn_val hx
  generalize hXe : |x.val| = X at *
  generalize hqe : decVal ds k = q at *
  have q2 : q ≤ X * (1 + 1 / 2 ^ 40) := d6.trans (mul_le_mul_of_nonneg_left (by norm_num) hX0.le)
  have q1 : X * (1 - 1 / 2 ^ 40) ≤ q := (mul_le_mul_of_nonneg_left (by norm_num) hX0.le).trans d5
  have hq0 : 0 < q := lt_of_lt_of_le (by nlinarith) q1
  have hN0 : intOf s ≠ 0 := by
    intro h0; rw [h0, Nat.cast_zero] at e6
    have : 0 < q * 10 ^ p := by positivity
    linarith
  have hN : (intOf s : ℚ) ≤ 2 ^ 895 := by
    rw [e6]
    rcases text_size l3 hX0 q2 (by exact_mod_cast e7 : (p:ℤ) ≤ (62:ℕ) + max 0 (-k)) hb with h | h
    · refine h.trans ?_
      calc (2:ℚ) ^ (159 + 1) * 10 ^ 62 ≤ 2 ^ (159 + 1) * 2 ^ 206 := mul_le_mul_of_nonneg_left (by norm_num) (by positivity)
        _ = 2 ^ 366 := by rw [← pow_add]
        _ ≤ 2 ^ 895 := pow_le_pow_right₀ (by norm_num) (by norm_num)
    · refine h.trans (?_ : (10:ℚ) ^ (62 + 2) ≤ 2 ^ 895)
      exact (by norm_num : (10:ℚ) ^ (62 + 2) ≤ 2 ^ 250).trans (pow_le_pow_right₀ (by norm_num) (by norm_num))
  have hlow : 1 ≤ q * 2 ^ 835 := by
    refine (text_low (n := 166) l2 q1 hX0 (by omega)).trans (mul_le_mul_of_nonneg_left ?_ hq0.le)
    exact pow_le_pow_right₀ (by norm_num) (by norm_num)
  have hhigh : q ≤ 2 ^ 895 := by
    have : q ≤ 2 ^ (159 + 1) := by
      rw [pow_succ]; refine q2.trans ?_
      exact mul_le_mul hb (by norm_num) (by norm_num) (by positivity)
    exact this.trans (pow_le_pow_right₀ (by norm_num) (by norm_num))
  obtain ⟨v, v1, v2, v3⟩ := C79_quad_parse s s 0 (-(p:ℤ)) e2 e3 e4 (by rw [abs_neg, Nat.abs_cast]; omega) hN0 hN (by rw [e5]; exact hlow)
    (by rw [e5]; exact hhigh)
  clear hN hlow hhigh hb
  refine ⟨s, v, e1, v1, v2, ?_⟩
  · rw [e5] at v3
    have hpn : p ≤ 228 := by omega
    have hdg : (digitsOf s).length ≤ 600 := by omega
    have hw : (((digitsOf s).length : ℚ) + ((|(-(p:ℤ))| : ℤ) : ℚ) + 3) ≤ 1000 := by
      have a1 : ((digitsOf s).length : ℚ) ≤ 600 := by exact_mod_cast hdg
      have a2 : ((p:ℕ) : ℚ) ≤ 228 := by exact_mod_cast hpn
      rw [abs_neg, Nat.abs_cast, Int.cast_natCast]; linarith
    have hsg : (if '-' ∈ s then -1 else 1 : ℚ) = if x.c0.isSignNegative = true then -1 else 1 := by
      have : ('-' ∈ s) ↔ x.c0.isSignNegative = true := e9
      simp only [this]
    rw [hsg] at v3
    generalize hsge : (if x.c0.isSignNegative = true then -1 else 1 : ℚ) = sg at *
    have hab : |sg| = 1 := by rw [← hsge]; split_ifs <;> norm_num
    have v4 : |v.val - sg * q| ≤ (1000 / 2 ^ 128) * q := by
      have := mul_le_mul_of_nonneg_right hw hq0.le
      have := v3.trans this
      norm_num at this ⊢; linarith
    refine (text_err hsv hab d5 d6 hX0.le (by norm_num) (by norm_num) v4).trans ?_
    exact (mul_le_mul_of_nonneg_left (show _ ≤ (1:ℚ) / 2 ^ 41 by norm_num) hX0.le).trans (le_of_eq (by ring))


/-- **C87**, refuted: the normalized Double `3 - 2^-60` prints as `3`, and that parses to 3; so does the Quad of the same value. -/
theorem C87_refuted : (∃ x : Double, x.Normalized ∧ x.val = 3 - 1 / 1152921504606846976 ∧
      ∀ log10, LogOk log10 x.hi x.val 0 → ∃ s v, x.display log10 {} = some s ∧ Double.fromStr s = some (.ok v) ∧ v.val = 3) ∧
    ∃ x : Quad, x.Normalized ∧ x.val = 3 - 1 / 1152921504606846976 ∧
      ∀ log10, LogOk log10 x.c0 x.val 0 → ∃ s v, x.display log10 {} = some s ∧ Quad.fromStr s = some (.ok v) ∧ v.val = 3 := by
  constructor
  · obtain ⟨x, h1, h2, h3, h4⟩ := C61_refuted
    refine ⟨x, h1, h2, fun log10 hP => ⟨"3".toList, ⟨F64.ofInt 3, F64.zero⟩, ?_, by decide +kernel, by decide +kernel⟩⟩
    rw [← h4]
    apply display_log
    change F64.toI32 (F64.floor (log10 x.abs.hi)) = F64.toI32 (F64.floor F64.zero)
    rw [abs_hi, hP.1, ← h3.1]
  · obtain ⟨x, h1, h2, h3, h4⟩ := C61_quad_refuted
    refine ⟨x, h1, h2, fun log10 hP => ⟨"3".toList, ⟨F64.ofInt 3, F64.zero, F64.zero, F64.zero⟩, ?_, by decide +kernel, by decide +kernel⟩⟩
    rw [← h4]
    apply display_log
    change F64.toI32 (F64.floor (log10 x.abs.c0)) = F64.toI32 (F64.floor F64.zero)
    rw [qabs_hi, hP.1, ← h3.1]

end Verif
