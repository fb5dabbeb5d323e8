import Verif.Proofs.Display

/-!
# Formatting (C29 – C34)

`log10` is the platform's `f64::log10`, any function. The decimal exponent the code works with is
`k = exponent ops log10 |x|`; `extractDigits ops |x| k` are the digits it computes.
-/

namespace Verif

open Disp

namespace Disp

variable {α : Type} (ops : Ops α) (log10 : F64 → F64)

theorem extract_range {v : α} {k : ℤ} {ds : List ℕ} (h : extractDigits ops v k = some ds) (hm : ops.maxAccuracy ≤ 1000) :
    -324 ≤ k ∧ k < 2 ^ 31 - 324 := by
  unfold extractDigits at h
  rw [Option.bind_eq_some_iff] at h
  obtain ⟨d, _, h⟩ := h
  dsimp only at h
  rw [Option.bind_eq_some_iff] at h
  obtain ⟨e, he, h⟩ := h
  unfold i32? at he
  by_cases hc : -2 ^ 31 ≤ 324 + k ∧ 324 + k < 2 ^ 31
  · rw [if_pos hc] at he
    have : 324 + k = e := by simpa using he
    refine ⟨?_, by omega⟩
    by_contra hlt
    rw [if_pos (by omega)] at h
    have hlen : ∀ n (v : α), (extractLoop ops n v).length = n := by
      intro n
      induction n with
      | zero => intro v; rfl
      | succ n ih => intro v; unfold extractLoop; simp [ih]
    unfold roundAndTrunc at h
    rw [List.getElem?_eq_none (by rw [hlen]; omega)] at h
    simp at h
  · rw [if_neg hc] at he; simp at he

/-- A first digit ten shows in the value. -/
theorem head_ten {ds : List ℕ} (hd : Dig ds) (hne : ds ≠ []) (E : ℕ) : ds.head? = some 10 ↔ (10:ℚ) ^ (E + 1) ≤ decVal ds E := by
  have hz : ∀ n : ℤ, (0:ℚ) < 10 ^ n := fun n => zpow_pos (by norm_num) n
  constructor
  · intro h
    rcases hd with hd | ⟨k, rfl⟩
    · have := hd 10 (List.mem_of_mem_head? h); omega
    · have := decVal_append_zeros [10] E k
      rw [List.singleton_append] at this
      rw [this]
      unfold decVal
      rw [digitsVal_single]
      simp only [List.length_singleton]
      push_cast
      rw [show (E:ℤ) + 1 - 1 = E by ring, zpow_natCast, pow_succ]; linarith
  · intro h
    rcases hd with hd | ⟨k, rfl⟩
    · exfalso
      have h1 := digitsVal_lt hd
      unfold decVal at h
      have h2 : (digitsVal ds : ℚ) < 10 ^ ds.length := by exact_mod_cast h1
      have h3 : (digitsVal ds : ℚ) * 10 ^ ((E:ℤ) + 1 - ds.length) < 10 ^ ds.length * 10 ^ ((E:ℤ) + 1 - ds.length) :=
        mul_lt_mul_of_pos_right h2 (hz _)
      rw [← zpow_natCast, ← zpow_add₀ (by norm_num), show (ds.length : ℤ) + ((E:ℤ) + 1 - ds.length) = ((E + 1 : ℕ) : ℤ) by push_cast; ring,
        zpow_natCast] at h3
      exact absurd h (not_le.mpr h3)
    · rfl

/-- The digits as a plain text: the core of both notations. -/
theorem text_core {ds : List ℕ} {exp : ℤ} (f : Fmt) (hg : GoodDigits ds exp) (hne : ds ≠ []) (h1 : -2 ^ 31 < exp)
    (h2 : exp < 2 ^ 31 - 1) :
    ∃ t whole p, ((adjustZeros ds exp).bind fun ds => (adjustPrec ds exp f.precision).bind fun ds => placeDecimal ds exp) = some t ∧
      PlainText t whole p (f.precision.elim (decVal ds exp) (halfUp (decVal ds exp))) ∧ (∀ q, f.precision = some q → p = q) ∧
      whole = (max 0 exp).toNat + 1 + (if (10:ℚ) ^ ((max 0 exp).toNat + 1) ≤
        f.precision.elim (decVal ds exp) (halfUp (decVal ds exp)) then 1 else 0) := by
  have hE : max 0 exp = ((max 0 exp).toNat : ℤ) := by omega
  obtain ⟨r, e1, d1, n1, l1, v1⟩ := adjustZeros_spec hg hne h1 h2
  rw [e1, Option.bind_some]
  cases hp : f.precision with
  | none =>
    obtain ⟨t, e2, ht⟩ := placeDecimal_spec d1 n1 l1
    rw [Option.elim_none, ← v1]
    refine ⟨t, _, _, by rw [show adjustPrec r exp none = some r from rfl, Option.bind_some, e2], ht, by simp, ?_⟩
    have := head_ten d1 n1 (max 0 exp).toNat
    rw [← hE] at this
    simp only [this]
  | some p =>
    obtain ⟨s, e2, d2, n2, l2, v2⟩ := adjustPrec_spec (exp := exp) (p := p) d1 n1
    obtain ⟨t, e3, ht⟩ := placeDecimal_spec d2 n2 (exp := exp) (by omega)
    rw [Option.elim_some, ← v1, ← v2]
    refine ⟨t, _, _, by rw [e2, Option.bind_some, e3], ht, ?_, ?_⟩
    · intro q hq
      have : p = q := by simpa using hq
      omega
    · have := head_ten d2 n2 (max 0 exp).toNat
      rw [← hE] at this
      simp only [this]

theorem signText_fst (x : α) (f : Fmt) : (signText ops x f).1 = signOf (ops.isSignNegative x) f.signPlus := by
  unfold signText signOf; split_ifs <;> rfl

theorem signText_snd (x : α) (f : Fmt) : (if (signText ops x f).2 then 1 else 0) = (signText ops x f).1.length := by
  unfold signText; rcases ops.isSignNegative x <;> rcases f.signPlus <;> rfl

theorem align_none (c : List Char) (s : Bool) (f : Fmt) (h : f.width = none) : alignAndFill c s f = c := by
  unfold alignAndFill; rw [h]

theorem fixed_core (x : α) (f : Fmt) (ds : List ℕ) (hm : ops.maxAccuracy ≤ 1000) (hn : ops.isNan x = false)
    (hi : ops.isInfinite x = false) (hz : ops.isZero x = false)
    (he : extractDigits ops (ops.abs x) (exponent ops log10 (ops.abs x)) = some ds) (hne : ds ≠ [])
    (hg : GoodDigits ds (exponent ops log10 (ops.abs x))) (hw : f.width = none) :
    ∃ t whole p, display ops log10 x f = some (signOf (ops.isSignNegative x) f.signPlus ++ t) ∧
      PlainText t whole p (f.precision.elim (decVal ds (exponent ops log10 (ops.abs x))) (halfUp (decVal ds (exponent ops log10 (ops.abs x))))) ∧
      (∀ q, f.precision = some q → p = q) ∧
      whole = (max 0 (exponent ops log10 (ops.abs x))).toNat + 1 +
        (if (10:ℚ) ^ ((max 0 (exponent ops log10 (ops.abs x))).toNat + 1) ≤
          f.precision.elim (decVal ds (exponent ops log10 (ops.abs x))) (halfUp (decVal ds (exponent ops log10 (ops.abs x)))) then 1 else 0) := by
  have hr := extract_range ops he hm
  obtain ⟨t, w, p, h1, h2, h3, h4⟩ := text_core f hg hne (by omega) (by omega)
  refine ⟨t, w, p, ?_, h2, h3, h4⟩
  unfold display
  dsimp only
  rw [hn, hi, hz]
  simp only [Bool.false_eq_true, if_false]
  unfold fixedText
  dsimp only
  rw [he, Option.bind_some, h1, Option.map_some, align_none _ _ _ hw, signText_fst]

theorem exp_core (m : Char) (x : α) (f : Fmt) (ds : List ℕ) (hn : ops.isNan x = false)
    (hi : ops.isInfinite x = false) (hz : ops.isZero x = false) (hf : ops.isFinite x = true)
    (habs : ops.hi (ops.abs x) = F64.abs (ops.hi x))
    (he : extractDigits ops (ops.abs x) (exponent ops log10 (ops.abs x)) = some ds) (hne : ds ≠ []) (hg : Dig ds)
    (hw : f.width = none) :
    ∃ t whole p, displayExp ops log10 m x f =
        some (signOf (ops.isSignNegative x) f.signPlus ++ t ++ expText m (exponent ops log10 (ops.abs x))) ∧
      PlainText t whole p (f.precision.elim (decVal ds 0) (halfUp (decVal ds 0))) ∧
      (∀ q, f.precision = some q → p = q) ∧
      whole = 1 + (if (10:ℚ) ≤ f.precision.elim (decVal ds 0) (halfUp (decVal ds 0)) then 1 else 0) := by
  obtain ⟨t, w, p, h1, h2, h3, h4⟩ := text_core (exp := 0) f (hg.good le_rfl) hne (by norm_num) (by norm_num)
  refine ⟨t, w, p, ?_, h2, h3, by simpa using h4⟩
  unfold displayExp
  dsimp only
  rw [hn, hi, hz, hf]
  simp only [Bool.false_eq_true, if_false, if_true]
  unfold expDigitsText
  dsimp only
  rw [he, Option.bind_some, h1, Option.map_some, align_none _ _ _ hw, signText_fst]
  unfold exponent
  rw [habs]

/-- The text of zero: `0`, or `0.` and as many zeros as the precision asks for. -/
def zeroSpec (f : Fmt) : List Char :=
  match f.precision with
  | some (p + 1) => "0.".toList ++ List.replicate (p + 1) '0'
  | _ => ['0']

theorem zeroText_eq (f : Fmt) : zeroText f = zeroSpec f := by
  unfold zeroText zeroSpec
  rcases f.precision with _ | _ | p
  · rfl
  · rfl
  · simp

theorem special_core (x : α) (f : Fmt) (hw : f.width = none) :
    (ops.isNan x = true → display ops log10 x f = some (signOf (ops.isSignNegative x) f.signPlus ++ "NaN".toList)) ∧
    (ops.isNan x = false → ops.isInfinite x = true →
      display ops log10 x f = some (signOf (ops.isSignNegative x) f.signPlus ++ "inf".toList)) ∧
    (ops.isNan x = false → ops.isInfinite x = false → ops.isZero x = true →
      display ops log10 x f = some (signOf (ops.isSignNegative x) f.signPlus ++ zeroSpec f)) ∧
    (∀ t, display ops log10 x f = some t → ∃ body, t = signOf (ops.isSignNegative x) f.signPlus ++ body) := by
  unfold display
  dsimp only
  simp only [align_none _ _ _ hw, signText_fst, zeroText_eq]
  refine ⟨?_, ?_, ?_, ?_⟩
  · intro h; rw [if_pos h]; rfl
  · intro h h2; rw [h, if_neg (by simp), if_pos h2]; rfl
  · intro h h2 h3; rw [h, h2, if_neg (by simp), if_neg (by simp), if_pos h3]; rfl
  · intro t ht
    rw [Option.map_eq_some_iff] at ht
    obtain ⟨b, _, hb⟩ := ht
    exact ⟨b, hb.symm⟩

theorem special_exp_core (m : Char) (x : α) (f : Fmt) (hw : f.width = none) :
    (ops.isNan x = true → ops.isFinite x = false →
      displayExp ops log10 m x f = some (signOf (ops.isSignNegative x) f.signPlus ++ "NaN".toList)) ∧
    (ops.isNan x = false → ops.isInfinite x = true → ops.isFinite x = false →
      displayExp ops log10 m x f = some (signOf (ops.isSignNegative x) f.signPlus ++ "inf".toList)) ∧
    (ops.isNan x = false → ops.isInfinite x = false → ops.isZero x = true → ops.isFinite x = true →
      displayExp ops log10 m x f = some (signOf (ops.isSignNegative x) f.signPlus ++ zeroSpec f ++ [m, '0'])) ∧
    (∀ t, displayExp ops log10 m x f = some t → ∃ body, t = signOf (ops.isSignNegative x) f.signPlus ++ body) := by
  unfold displayExp
  dsimp only
  simp only [align_none _ _ _ hw, signText_fst, zeroText_eq]
  refine ⟨?_, ?_, ?_, ?_⟩
  · intro h hf; rw [hf, if_pos h, if_neg (by simp), Option.map_some, List.append_nil]; rfl
  · intro h h2 hf; rw [hf, h, if_neg (by simp), if_pos h2, if_neg (by simp), Option.map_some, List.append_nil]; rfl
  · intro h h2 h3 hf
    simp only [hf, h, h2, h3, Bool.false_eq_true, if_false, if_true, Option.map_some]
    have : expText m 0 = [m, '0'] := by
      unfold expText
      have : i32Text 0 = ['0'] := by decide +kernel
      rw [this]
    rw [this]
  · intro t ht
    rw [Option.map_eq_some_iff] at ht
    obtain ⟨b, _, hb⟩ := ht
    exact ⟨b ++ _, by rw [← hb, List.append_assoc]⟩

/-- Padding: `align_and_fill` does what `Padded` describes. -/
theorem padded (c : List Char) (s : Bool) (f : Fmt) :
    Padded f (if s then 1 else 0) c (alignAndFill c s f) := by
  unfold Padded alignAndFill
  dsimp only
  rcases hw : f.width with _ | w
  · rw [Option.getD_none, Nat.zero_sub]
    refine ⟨0, 0, rfl, ?_⟩
    rcases ha : f.align with _ | a
    · rcases hz : f.zeroPad <;> simp
    · cases a <;> simp
  · rw [Option.getD_some]
    dsimp only
    by_cases hc : c.length < w
    · rw [if_pos hc]
      rcases ha : f.align with _ | a
      · rcases hz : f.zeroPad
        · exact ⟨w - c.length, 0, by omega, by simp⟩
        · exact ⟨w - c.length, 0, by omega, by simp⟩
      · cases a
        · exact ⟨0, w - c.length, by omega, by simp⟩
        · exact ⟨w - c.length, 0, by omega, by simp⟩
        · refine ⟨(w - c.length) / 2, (w - c.length) - (w - c.length) / 2, by omega, ?_⟩
          right; right; left
          exact ⟨rfl, by omega, rfl⟩
    · rw [if_neg hc]
      refine ⟨0, 0, by omega, ?_⟩
      rcases ha : f.align with _ | a
      · rcases hz : f.zeroPad <;> simp
      · cases a <;> simp

theorem _root_.Verif.Padded.length {f : Fmt} {s : ℕ} {c t : List Char} (h : Padded f s c t) :
    t.length = max (f.width.getD 0) c.length := by
  unfold Padded at h
  obtain ⟨l, r, h1, h⟩ := h
  rcases h with ⟨_, h2, rfl⟩ | ⟨_, h2, rfl⟩ | ⟨_, h2, rfl⟩ | ⟨_, _, h2, rfl⟩ | ⟨_, _, h2, rfl⟩
  all_goals simp only [List.length_append, List.length_replicate, List.length_take, List.length_drop]
  all_goals omega

/-- `display` is the text without width, padded; it panics exactly when that does. -/
theorem display_pad (x : α) (f : Fmt) :
    display ops log10 x f =
      (display ops log10 x { f with width := none }).map fun t => alignAndFill t (signText ops x f).2 f := by
  have e1 : signText ops x { f with width := none } = signText ops x f := rfl
  have e2 : zeroText { f with width := none } = zeroText f := rfl
  have e3 : fixedText ops log10 x { f with width := none } = fixedText ops log10 x f := rfl
  unfold display
  rw [e1, e2, e3]
  dsimp only
  rw [Option.map_map]
  rfl

theorem displayExp_pad (m : Char) (x : α) (f : Fmt) :
    displayExp ops log10 m x f =
      (displayExp ops log10 m x { f with width := none }).map fun t => alignAndFill t (signText ops x f).2 f := by
  have e1 : signText ops x { f with width := none } = signText ops x f := rfl
  have e2 : zeroText { f with width := none } = zeroText f := rfl
  have e3 : expDigitsText ops log10 x { f with width := none } = expDigitsText ops log10 x f := rfl
  unfold displayExp
  rw [e1, e2, e3]
  dsimp only
  rw [Option.map_map]
  rfl

theorem pad_spec (x : α) (f : Fmt) (o o' : Option (List Char))
    (h : o = o'.map fun t => alignAndFill t (signText ops x f).2 f) (t : List Char) (ht : o = some t) :
    ∃ nat, o' = some nat ∧ Padded f (signOf (ops.isSignNegative x) f.signPlus).length nat t ∧
      t.length = max (f.width.getD 0) nat.length := by
  rw [ht] at h
  symm at h
  rw [Option.map_eq_some_iff] at h
  obtain ⟨nat, h1, h2⟩ := h
  have hp := padded nat (signText ops x f).2 f
  rw [signText_snd, signText_fst, h2] at hp
  exact ⟨nat, h1, hp, Padded.length hp⟩

end Disp

/-! ## C30: width, fill and alignment -/

/-- C30 for `{}` of `Double`: for every value and all settings, the formatted text is the text without width, padded as
the settings say, and has `max(width, natural length)` characters. -/
theorem C30_double (log10 : F64 → F64) (x : Double) (f : Fmt) (t : List Char) (h : x.display log10 f = some t) :
    ∃ nat, x.display log10 { f with width := none } = some nat ∧
      Padded f (signOf x.isSignNegative f.signPlus).length nat t ∧ t.length = max (f.width.getD 0) nat.length :=
  pad_spec Double.dispOps x f _ _ (display_pad _ _ x f) t h

/-- C30 for `{:e}` and `{:E}` of `Double`. -/
theorem C30_double_exp (log10 : F64 → F64) (m : Char) (x : Double) (f : Fmt) (t : List Char)
    (h : x.displayExp log10 m f = some t) :
    ∃ nat, x.displayExp log10 m { f with width := none } = some nat ∧
      Padded f (signOf x.isSignNegative f.signPlus).length nat t ∧ t.length = max (f.width.getD 0) nat.length :=
  pad_spec Double.dispOps x f _ _ (displayExp_pad _ _ m x f) t h

/-- C30 for `{}` of `Quad`. -/
theorem C30_quad (log10 : F64 → F64) (x : Quad) (f : Fmt) (t : List Char) (h : x.display log10 f = some t) :
    ∃ nat, x.display log10 { f with width := none } = some nat ∧
      Padded f (signOf x.isSignNegative f.signPlus).length nat t ∧ t.length = max (f.width.getD 0) nat.length :=
  pad_spec Quad.dispOps x f _ _ (display_pad _ _ x f) t h

/-- C30 for `{:e}` and `{:E}` of `Quad`. -/
theorem C30_quad_exp (log10 : F64 → F64) (m : Char) (x : Quad) (f : Fmt) (t : List Char)
    (h : x.displayExp log10 m f = some t) :
    ∃ nat, x.displayExp log10 m { f with width := none } = some nat ∧
      Padded f (signOf x.isSignNegative f.signPlus).length nat t ∧ t.length = max (f.width.getD 0) nat.length :=
  pad_spec Quad.dispOps x f _ _ (displayExp_pad _ _ m x f) t h

/-- The settings of `{:+08.2}` on `-3.25`, and a panic-free text. -/
example : Double.display (fun _ => F64.zero) ⟨F64.ofDec true 325 (-2), F64.zero⟩
    { width := some 8, precision := some 2, signPlus := true, zeroPad := true } = some "-0003.25".toList := by decide +kernel

example : Double.display (fun _ => F64.zero) ⟨F64.ofDec false 325 (-2), F64.zero⟩
    { width := some 9, fill := '*', align := some .center } = some "**3.25***".toList := by decide +kernel

/-! ## C31: rounding digits -/

/-- C31: cutting a digit string to `len` digits rounds its value half up; the result again consists of decimal digits,
except that a carry out of the first digit shows as a ten followed by zeros. -/
theorem C31_round (ds : List ℕ) (len : ℕ) (h9 : ∀ d ∈ ds, d ≤ 9) (h0 : 0 < len) (hl : len < ds.length) :
    ∃ r, roundAndTrunc ds len = some r ∧ r.length = len ∧ ((∀ d ∈ r, d ≤ 9) ∨ r = 10 :: List.replicate (len - 1) 0) ∧
      digitsVal r = (digitsVal ds + 5 * 10 ^ (ds.length - len - 1)) / 10 ^ (ds.length - len) := by
  obtain ⟨r, h1, h2, h3, h4⟩ := roundAndTrunc_spec (Or.inl h9) h0 hl
  refine ⟨r, h1, h2, h3.imp id ?_, h4⟩
  rintro ⟨k, rfl⟩
  simp only [List.length_cons, List.length_replicate] at h2
  rw [← h2]; rfl

example : roundAndTrunc [1, 9, 9, 9, 5, 0] 4 = some [2, 0, 0, 0] ∧ roundAndTrunc [9, 9, 9, 5] 3 = some [10, 0, 0] ∧
    roundAndTrunc [1, 2, 4, 9] 2 = some [1, 2] := by decide +kernel

/-! ## C32: signs and special values -/

theorem inf_not_nan {h : F64} (hn : h.isInfinite = true) : h.isNan = false := by
  cases h <;> simp_all [F64.isInfinite, F64.isNan]

theorem inf_not_fin {h : F64} (hn : h.isInfinite = true) : h.isFinite = false := by
  cases h <;> simp_all [F64.isInfinite, F64.isFinite]

theorem nan_not_fin {h : F64} (hn : h.isNan = true) : h.isFinite = false := by
  cases h <;> simp_all [F64.isNan, F64.isFinite]

theorem zero_class {h : F64} (hn : F64.eq h F64.zero = true) :
    h.isNan = false ∧ h.isInfinite = false ∧ h.isFinite = true := by
  cases h with
  | nan s =>
    have : ∀ s, F64.eq (.nan s) F64.zero = false := by decide +kernel
    rw [this s] at hn; simp at hn
  | inf s =>
    have : ∀ s, F64.eq (.inf s) F64.zero = false := by decide +kernel
    rw [this s] at hn; simp at hn
  | fin s m hm => exact ⟨rfl, rfl, rfl⟩

/-- C32 for `{}` of `Double`: NaN, infinities and zeros have the texts `NaN`, `inf` and `0` (with the decimals asked for); every text
starts with the sign: `-` exactly for a set sign bit, `+` exactly when asked for and the sign bit is clear. -/
theorem C32_double (log10 : F64 → F64) (x : Double) (f : Fmt) (hw : f.width = none) :
    (x.hi.isNan = true → x.display log10 f = some (signOf x.hi.isSignNegative f.signPlus ++ "NaN".toList)) ∧
    (x.hi.isInfinite = true → x.display log10 f = some (signOf x.hi.isSignNegative f.signPlus ++ "inf".toList)) ∧
    (F64.eq x.hi F64.zero = true → x.display log10 f = some (signOf x.hi.isSignNegative f.signPlus ++ zeroSpec f)) ∧
    (∀ t, x.display log10 f = some t → ∃ body, t = signOf x.hi.isSignNegative f.signPlus ++ body) := by
  obtain ⟨h1, h2, h3, h4⟩ := special_core Double.dispOps log10 x f hw
  exact ⟨h1, fun h => h2 (inf_not_nan h) h, fun h => h3 (zero_class h).1 (zero_class h).2.1 h, h4⟩

/-- C32 for `{:e}` and `{:E}` of `Double`. -/
theorem C32_double_exp (log10 : F64 → F64) (m : Char) (x : Double) (f : Fmt) (hw : f.width = none) :
    (x.hi.isNan = true → x.displayExp log10 m f = some (signOf x.hi.isSignNegative f.signPlus ++ "NaN".toList)) ∧
    (x.hi.isInfinite = true → x.displayExp log10 m f = some (signOf x.hi.isSignNegative f.signPlus ++ "inf".toList)) ∧
    (F64.eq x.hi F64.zero = true →
      x.displayExp log10 m f = some (signOf x.hi.isSignNegative f.signPlus ++ zeroSpec f ++ [m, '0'])) ∧
    (∀ t, x.displayExp log10 m f = some t → ∃ body, t = signOf x.hi.isSignNegative f.signPlus ++ body) := by
  obtain ⟨h1, h2, h3, h4⟩ := special_exp_core Double.dispOps log10 m x f hw
  exact ⟨fun h => h1 h (nan_not_fin h), fun h => h2 (inf_not_nan h) h (inf_not_fin h),
    fun h => h3 (zero_class h).1 (zero_class h).2.1 h (zero_class h).2.2, h4⟩

/-- C32 for `{}` of `Quad`: NaN, infinities and zeros have the texts `NaN`, `inf` and `0` (with the decimals asked for); every text
starts with the sign: `-` exactly for a set sign bit, `+` exactly when asked for and the sign bit is clear. -/
theorem C32_quad (log10 : F64 → F64) (x : Quad) (f : Fmt) (hw : f.width = none) :
    (x.c0.isNan = true → x.display log10 f = some (signOf x.c0.isSignNegative f.signPlus ++ "NaN".toList)) ∧
    (x.c0.isInfinite = true → x.display log10 f = some (signOf x.c0.isSignNegative f.signPlus ++ "inf".toList)) ∧
    (F64.eq x.c0 F64.zero = true → x.display log10 f = some (signOf x.c0.isSignNegative f.signPlus ++ zeroSpec f)) ∧
    (∀ t, x.display log10 f = some t → ∃ body, t = signOf x.c0.isSignNegative f.signPlus ++ body) := by
  obtain ⟨h1, h2, h3, h4⟩ := special_core Quad.dispOps log10 x f hw
  exact ⟨h1, fun h => h2 (inf_not_nan h) h, fun h => h3 (zero_class h).1 (zero_class h).2.1 h, h4⟩

/-- C32 for `{:e}` and `{:E}` of `Quad`. -/
theorem C32_quad_exp (log10 : F64 → F64) (m : Char) (x : Quad) (f : Fmt) (hw : f.width = none) :
    (x.c0.isNan = true → x.displayExp log10 m f = some (signOf x.c0.isSignNegative f.signPlus ++ "NaN".toList)) ∧
    (x.c0.isInfinite = true → x.displayExp log10 m f = some (signOf x.c0.isSignNegative f.signPlus ++ "inf".toList)) ∧
    (F64.eq x.c0 F64.zero = true →
      x.displayExp log10 m f = some (signOf x.c0.isSignNegative f.signPlus ++ zeroSpec f ++ [m, '0'])) ∧
    (∀ t, x.displayExp log10 m f = some t → ∃ body, t = signOf x.c0.isSignNegative f.signPlus ++ body) := by
  obtain ⟨h1, h2, h3, h4⟩ := special_exp_core Quad.dispOps log10 m x f hw
  exact ⟨fun h => h1 h (nan_not_fin h), fun h => h2 (inf_not_nan h) h (inf_not_fin h),
    fun h => h3 (zero_class h).1 (zero_class h).2.1 h (zero_class h).2.2, h4⟩

example : Double.display (fun _ => F64.zero) ⟨F64.negZero, F64.zero⟩ { precision := some 3 } = some "-0.000".toList := by
  decide +kernel

example : Double.display (fun _ => F64.zero) Double.NEG_INFINITY { signPlus := true } = some "-inf".toList := by decide +kernel

example : Double.displayExp (fun _ => F64.zero) 'e' Double.ZERO { signPlus := true } = some "+0e0".toList := by
  decide +kernel

example : Quad.display (fun _ => F64.zero) Quad.NAN {} = some "NaN".toList := by decide +kernel

end Verif
