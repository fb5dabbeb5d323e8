import Verif.Proofs.QuadDisp

/-!
# What formatting a Quad shows, and when it panics (C29, C33, C34, C61)
-/

namespace Verif

open Disp

namespace Disp

theorem qabs_hi (x : Quad) : x.abs.c0 = x.c0.abs := by
  unfold Quad.abs Quad.isSignNegative
  obtain ⟨h, a, b, c⟩ := x
  cases h with
  | nan s => cases s <;> rfl
  | inf s => cases s <;> rfl
  | fin s m hm => cases s <;> rfl

/-- What is shown, in the working range. -/
theorem qshow_core (log10 : F64 → F64) (m : Char) (x : Quad) (f : Fmt) (k : ℤ) (hx : x.Normalized) (hl : LogOk log10 x.c0 x.val k)
    (hk : -228 ≤ k) (hb : |x.val| ≤ 2 ^ 159) (hw : f.width = none) :
    ∃ ds : List ℕ, (Disp.extractDigits Quad.dispOps x.abs k = some ds ∧ ds.length = 62) ∧ |x.val| * (1 - 1 / 2 ^ 120) ≤ decVal ds k ∧ decVal ds k ≤ |x.val| * (1 + 1 / 2 ^ 42) ∧
      (GoodDigits ds k → ∃ t whole p, x.display log10 f = some (signOf x.c0.isSignNegative f.signPlus ++ t) ∧
        PlainText t whole p (f.precision.elim (decVal ds k) (halfUp (decVal ds k))) ∧ (∀ q, f.precision = some q → p = q) ∧
        whole = (max 0 k).toNat + 1 + (if (10:ℚ) ^ ((max 0 k).toNat + 1) ≤
          f.precision.elim (decVal ds k) (halfUp (decVal ds k)) then 1 else 0)) ∧
      (GoodDigits ds 0 → ∃ t whole p, x.displayExp log10 m f = some (signOf x.c0.isSignNegative f.signPlus ++ t ++ m :: i32Text k) ∧
        PlainText t whole p (f.precision.elim (decVal ds 0) (halfUp (decVal ds 0))) ∧ (∀ q, f.precision = some q → p = q) ∧
        whole = 1 + (if (10:ℚ) ≤ f.precision.elim (decVal ds 0) (halfUp (decVal ds 0)) then 1 else 0)) ∧
      (∃ t, x.display log10 f = some t) ∧ ∃ t, x.displayExp log10 m f = some t := by
  obtain ⟨l1, l2, l3⟩ := hl
  obtain ⟨ds, d1, d2, d3, d4, d5, d6⟩ := qdigits_spec hx hk l2 l3 hb
  have hne : ds ≠ [] := by rintro rfl; simp at d3
  have hv : x.val ≠ 0 := by
    intro h0
    have hT : (0:ℚ) < 10 ^ k := zpow_pos (by norm_num) k
    rw [h0] at l2; simp at l2; linarith
  obtain ⟨c1, c2, c3⟩ := qv_class hx hv
  have hf : Quad.dispOps.isFinite x = true := hx.1.1
  have ek : exponent Quad.dispOps log10 (Quad.dispOps.abs x) = k := by
    change F64.toI32 (F64.floor (log10 x.abs.c0)) = k
    rw [qabs_hi]; exact l1
  have d1' : extractDigits Quad.dispOps (Quad.dispOps.abs x) (exponent Quad.dispOps log10 (Quad.dispOps.abs x)) = some ds := by
    rw [ek]; exact d1
  refine ⟨ds, ⟨d1, d3⟩, d5, d6, ?_, ?_, ?_, ?_⟩
  · intro hg
    have := fixed_core Quad.dispOps log10 x f ds (by change 62 ≤ 1000; omega) c1 c3 c2 d1' hne (by rw [ek]; exact hg) hw
    rw [ek] at this
    exact this
  · intro hg
    have := exp_core Quad.dispOps log10 m x f ds c1 c3 c2 hf (qabs_hi x) d1' hne hg.dig hw
    rw [ek] at this
    exact this
  · obtain ⟨t, ht⟩ := text_total (exp := k) f.precision d4 (by omega) hne (by omega) (by omega)
    change ∃ t, display Quad.dispOps log10 x f = some t
    unfold display
    have e1 : Quad.dispOps.isNan x = false := c1
    have e2 : Quad.dispOps.isInfinite x = false := c3
    have e3 : Quad.dispOps.isZero x = false := c2
    dsimp only
    rw [e1, e2, e3]
    simp only [Bool.false_eq_true, if_false]
    unfold fixedText
    dsimp only
    rw [d1', Option.bind_some, ek, ht]
    exact ⟨_, rfl⟩
  · obtain ⟨t, ht⟩ := text_total (exp := 0) f.precision d4 (by omega) hne (by omega) (by omega)
    change ∃ t, displayExp Quad.dispOps log10 m x f = some t
    unfold displayExp
    have e1 : Quad.dispOps.isNan x = false := c1
    have e2 : Quad.dispOps.isInfinite x = false := c3
    have e3 : Quad.dispOps.isZero x = false := c2
    dsimp only
    rw [e1, e2, e3]
    simp only [Bool.false_eq_true, if_false]
    unfold expDigitsText
    dsimp only
    rw [d1', Option.bind_some, ht]
    exact ⟨_, rfl⟩

end Disp

/-! ## C61: the printed number is the number -/

/-- **C61** (partial), for Quads between `10^-228` and `2^159` (with a `log10` that is right up to `2^-40` at powers of ten): the
digit extraction of the formatting code gives 62 decimal digits whose value is between `|x| (1 - 2^-120)` and `|x| (1 + 2^-42)`; when these are
proper digits, `{}` and `{:e}` print that value, rounded half up to the precision asked for. Missing: the full claim, that
the value printed is within `10^-61` of the number, fails (`C61_quad_refuted`). -/
theorem C61_quad_partial (log10 : F64 → F64) (m : Char) (x : Quad) (f : Fmt) (k : ℤ) (hx : x.Normalized)
    (hl : LogOk log10 x.c0 x.val k) (hk : -228 ≤ k) (hb : |x.val| ≤ 2 ^ 159) (hw : f.width = none) :
    ∃ ds : List ℕ, (Disp.extractDigits Quad.dispOps x.abs k = some ds ∧ ds.length = 62) ∧ |x.val| * (1 - 1 / 2 ^ 120) ≤ decVal ds k ∧ decVal ds k ≤ |x.val| * (1 + 1 / 2 ^ 42) ∧
      (GoodDigits ds k → ∃ t whole p, x.display log10 f = some (signOf x.c0.isSignNegative f.signPlus ++ t) ∧
        PlainText t whole p (f.precision.elim (decVal ds k) (halfUp (decVal ds k))) ∧ (∀ q, f.precision = some q → p = q)) ∧
      (GoodDigits ds 0 → ∃ t whole p, x.displayExp log10 m f = some (signOf x.c0.isSignNegative f.signPlus ++ t ++ m :: i32Text k) ∧
        PlainText t whole p (f.precision.elim (decVal ds 0) (halfUp (decVal ds 0))) ∧ (∀ q, f.precision = some q → p = q)) := by
  obtain ⟨ds, h1, h2, h3, h4, h5, -⟩ := qshow_core log10 m x f k hx hl hk hb hw
  refine ⟨ds, h1, h2, h3, fun h => ?_, fun h => ?_⟩
  · obtain ⟨t, w, p, a, b, c, d⟩ := h4 h; exact ⟨t, w, p, a, b, c⟩
  · obtain ⟨t, w, p, a, b, c, d⟩ := h5 h; exact ⟨t, w, p, a, b, c⟩

/-- The number pi, decimal exponent `0`. -/
example : LogOk (fun _ => F64.zero) Quad.PI.c0 Quad.PI.val 0 := by
  have : (1:ℚ) ≤ |Quad.PI.val| * (1 + 1 / 2 ^ 40) ∧ |Quad.PI.val| ≤ 10 * (1 + 1 / 2 ^ 40) := by decide +kernel
  exact ⟨by decide +kernel, by simpa using this.1, by simpa using this.2⟩

/-- **C61**, refuted for Quads: with a correct decimal exponent, the normalized Quad `3 - 2^-60` prints as `3`. -/
theorem C61_quad_refuted : ∃ x : Quad, x.Normalized ∧ x.val = 3 - 1 / 1152921504606846976 ∧
    LogOk (fun _ => F64.zero) x.c0 x.val 0 ∧ x.display (fun _ => F64.zero) {} = some "3".toList := by
  have e : (Quad.mk (F64.ofInt 3) (F64.powi Double.two (-60)).neg F64.zero F64.zero).val = 3 - 1 / 1152921504606846976 := by decide +kernel
  refine ⟨⟨F64.ofInt 3, (F64.powi Double.two (-60)).neg, F64.zero, F64.zero⟩, by decide +kernel, e, ⟨by decide +kernel, ?_, ?_⟩, by decide +kernel⟩
  all_goals
    rw [e, abs_of_pos (by norm_num)]
    norm_num

/-! ## C29: precision -/

/-- **C29** (partial), for Quads in the working range: `{:.p}` and `{:.pe}` print exactly `p` digits after the point (no point
for `p = 0`) of the number rounded half up, when the digits computed are proper digits. Missing: the same as for Doubles. -/
theorem C29_quad_range_partial (log10 : F64 → F64) (m : Char) (x : Quad) (f : Fmt) (p : ℕ) (k : ℤ) (hx : x.Normalized)
    (hl : LogOk log10 x.c0 x.val k) (hk : -228 ≤ k) (hb : |x.val| ≤ 2 ^ 159) (hw : f.width = none) (hp : f.precision = some p) :
    ∃ ds : List ℕ, (Disp.extractDigits Quad.dispOps x.abs k = some ds ∧ ds.length = 62) ∧ |x.val| * (1 - 1 / 2 ^ 120) ≤ decVal ds k ∧ decVal ds k ≤ |x.val| * (1 + 1 / 2 ^ 42) ∧
      (GoodDigits ds k → ∃ t whole, x.display log10 f = some (signOf x.c0.isSignNegative f.signPlus ++ t) ∧
        PlainText t whole p (halfUp (decVal ds k) p)) ∧
      (GoodDigits ds 0 → ∃ t whole, x.displayExp log10 m f = some (signOf x.c0.isSignNegative f.signPlus ++ t ++ m :: i32Text k) ∧
        PlainText t whole p (halfUp (decVal ds 0) p)) := by
  obtain ⟨ds, h1, h2, h3, h4, h5, -⟩ := qshow_core log10 m x f k hx hl hk hb hw
  rw [hp] at h4 h5
  simp only [Option.elim_some] at h4 h5
  refine ⟨ds, h1, h2, h3, fun h => ?_, fun h => ?_⟩
  · obtain ⟨t, w, q, a, b, c, d⟩ := h4 h
    rw [c p rfl] at b; exact ⟨t, w, a, b⟩
  · obtain ⟨t, w, q, a, b, c, d⟩ := h5 h
    rw [c p rfl] at b; exact ⟨t, w, a, b⟩

/-- **C29**, refuted for Quads: `{:.3}` of a number just below 1.1 prints four digits after the point. -/
theorem C29_quad_refuted : ∃ x : Quad, x.Normalized ∧
    x.display (fun _ => F64.zero) { precision := some 3 } = some "1.0100".toList :=
  ⟨⟨F64.ofDec false 11 (-1), F64.ofDec true 971445146547012 (-31), F64.zero, F64.zero⟩, by decide +kernel, by decide +kernel⟩

/-! ## C33: no panic -/

/-- **C33** (partial), for Quads: `{}`, `{:e}` and `{:E}` return a text for every normalized Quad between `10^-228` and `2^159`,
and for NaN, infinities and zeros, for all settings. Missing: smaller and larger numbers. -/
theorem C33_quad_partial (log10 : F64 → F64) (m : Char) (x : Quad) (f : Fmt)
    (h : x.c0.isNan = true ∨ x.c0.isInfinite = true ∨ F64.eq x.c0 F64.zero = true ∨
      ∃ k, x.Normalized ∧ LogOk log10 x.c0 x.val k ∧ -228 ≤ k ∧ |x.val| ≤ 2 ^ 159) :
    (∃ t, x.display log10 f = some t) ∧ ∃ t, x.displayExp log10 m f = some t := by
  have key : (∃ t, x.display log10 { f with width := none } = some t) ∧ ∃ t, x.displayExp log10 m { f with width := none } = some t := by
    rcases h with h | h | h | ⟨k, h1, h2, h3, h4⟩
    · exact ⟨⟨_, (C32_quad log10 x _ rfl).1 h⟩, ⟨_, (C32_quad_exp log10 m x _ rfl).1 h⟩⟩
    · exact ⟨⟨_, (C32_quad log10 x _ rfl).2.1 h⟩, ⟨_, (C32_quad_exp log10 m x _ rfl).2.1 h⟩⟩
    · exact ⟨⟨_, (C32_quad log10 x _ rfl).2.2.1 h⟩, ⟨_, (C32_quad_exp log10 m x _ rfl).2.2.1 h⟩⟩
    · obtain ⟨ds, -, -, -, -, -, h5, h6⟩ := qshow_core log10 m x { f with width := none } k h1 h2 h3 h4 rfl
      exact ⟨h5, h6⟩
  obtain ⟨⟨t, ht⟩, ⟨s, hs⟩⟩ := key
  constructor
  · have := display_pad Quad.dispOps log10 x f
    change x.display log10 f = (x.display log10 { f with width := none }).map _ at this
    rw [this, ht]; exact ⟨_, rfl⟩
  · have := displayExp_pad Quad.dispOps log10 m x f
    change x.displayExp log10 m f = (x.displayExp log10 m { f with width := none }).map _ at this
    rw [this, hs]; exact ⟨_, rfl⟩

/-- **C33**, refuted for Quads: `{}` of the smallest positive number, with a `log10` that gives the correctly rounded logarithm
-323.3, panics. -/
theorem C33_quad_refuted : ∃ x : Quad, x.Normalized ∧ 0 < x.val ∧
    x.display (fun _ => F64.ofDec true 3233062153431158 (-13)) {} = none :=
  ⟨⟨.fin false 1 (by decide +kernel), F64.zero, F64.zero, F64.zero⟩, by decide +kernel, by decide +kernel, by decide +kernel⟩

/-! ## C34: exponential form -/

/-- **C34** (partial), for Quads: in the working range, with proper digits, `{:e}` prints one digit before the point unless the
number shown is ten or more, then it prints two. -/
theorem C34_quad_partial (log10 : F64 → F64) (m : Char) (x : Quad) (f : Fmt) (k : ℤ) (hx : x.Normalized)
    (hl : LogOk log10 x.c0 x.val k) (hk : -228 ≤ k) (hb : |x.val| ≤ 2 ^ 159) (hw : f.width = none) :
    ∃ ds : List ℕ, (Disp.extractDigits Quad.dispOps x.abs k = some ds ∧ ds.length = 62) ∧ |x.val| * (1 - 1 / 2 ^ 120) ≤ decVal ds k ∧ decVal ds k ≤ |x.val| * (1 + 1 / 2 ^ 42) ∧
      (GoodDigits ds 0 → ∃ t whole p, x.displayExp log10 m f = some (signOf x.c0.isSignNegative f.signPlus ++ t ++ m :: i32Text k) ∧
        PlainText t whole p (f.precision.elim (decVal ds 0) (halfUp (decVal ds 0))) ∧
        whole = if f.precision.elim (decVal ds 0) (halfUp (decVal ds 0)) < 10 then 1 else 2) := by
  obtain ⟨ds, h1, h2, h3, -, h5, -⟩ := qshow_core log10 m x f k hx hl hk hb hw
  refine ⟨ds, h1, h2, h3, fun h => ?_⟩
  obtain ⟨t, w, p, a, b, c, d⟩ := h5 h
  refine ⟨t, w, p, a, b, ?_⟩
  rw [d]
  generalize f.precision.elim (decVal ds 0) (halfUp (decVal ds 0)) = q
  by_cases hq : q < 10
  · rw [if_pos hq, if_neg (by linarith)]
  · rw [if_neg hq, if_pos (by linarith)]

example : Quad.displayExp (fun _ => F64.ofInt 2) 'e' ⟨F64.ofInt 325, F64.zero, F64.zero, F64.zero⟩ { precision := some 4 } =
    some "3.2500e2".toList := by decide +kernel

/-- **C34**, refuted for Quads: `{:.1e}` of 9.99 prints `10.0e0`. -/
theorem C34_quad_refuted : Quad.displayExp (fun _ => F64.zero) 'e' ⟨F64.ofDec false 999 (-2), F64.zero, F64.zero, F64.zero⟩ { precision := some 1 } =
    some "10.0e0".toList := by decide +kernel

end Verif
