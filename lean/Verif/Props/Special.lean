import Verif.Props.Symmetry

/-!
# C08 – C11: infinities, zeros and NaN in the arithmetic of Doubles
-/

namespace Verif

open F64 Prim

/-- `x` is the `f64` `y`: both NaN, or the same number with the same sign bit (so `+0` and `-0` are distinguished). -/
def IdentF64 (x y : F64) : Prop := (x.isNan = true ∧ y.isNan = true) ∨ (x = y)

/-! ### C08 -/

/-- **C08.** With a NaN or infinite operand, `a + b` is what `f64` addition gives for the first components. -/
theorem C08_add (a b : Double) (h : a.isFinite = false ∨ b.isFinite = false) :
    IdentF64 (a + b).hi (F64.add a.hi b.hi) ∧ (a + b).lo = F64.zero := by
  rw [add_eq]
  obtain ⟨ah, al⟩ := a
  obtain ⟨bh, bl⟩ := b
  cases ah with
  | nan s => exact ⟨Or.inl ⟨rfl, rfl⟩, rfl⟩
  | inf s =>
    cases bh with
    | nan t => cases s <;> exact ⟨Or.inl ⟨rfl, rfl⟩, rfl⟩
    | inf t => cases s <;> cases t <;> first | exact ⟨Or.inr rfl, rfl⟩ | exact ⟨Or.inl ⟨rfl, rfl⟩, rfl⟩
    | fin t n hn => cases s <;> exact ⟨Or.inr rfl, rfl⟩
  | fin s m hm =>
    cases bh with
    | nan t => exact ⟨Or.inl ⟨rfl, rfl⟩, rfl⟩
    | inf t => cases t <;> exact ⟨Or.inr rfl, rfl⟩
    | fin t n hn => rcases h with h | h <;> exact absurd h (by simp [Double.isFinite, F64.isFinite])

/-- **C08.** With a NaN or infinite operand, `a - b` is what `f64` subtraction gives for the first components. -/
theorem C08_sub (a b : Double) (h : a.isFinite = false ∨ b.isFinite = false) :
    IdentF64 (a - b).hi (F64.sub a.hi b.hi) ∧ (a - b).lo = F64.zero := by
  rw [sub_eq]
  obtain ⟨ah, al⟩ := a
  obtain ⟨bh, bl⟩ := b
  cases ah with
  | nan s => exact ⟨Or.inl ⟨rfl, rfl⟩, rfl⟩
  | inf s =>
    cases bh with
    | nan t => cases s <;> exact ⟨Or.inl ⟨rfl, rfl⟩, rfl⟩
    | inf t => cases s <;> cases t <;> first | exact ⟨Or.inr rfl, rfl⟩ | exact ⟨Or.inl ⟨rfl, rfl⟩, rfl⟩
    | fin t n hn => cases s <;> exact ⟨Or.inr rfl, rfl⟩
  | fin s m hm =>
    cases bh with
    | nan t => exact ⟨Or.inl ⟨rfl, rfl⟩, rfl⟩
    | inf t => cases t <;> exact ⟨Or.inr rfl, rfl⟩
    | fin t n hn => rcases h with h | h <;> exact absurd h (by simp [Double.isFinite, F64.isFinite])

example : Double.INFINITY.isFinite = false ∧ Double.NAN.isFinite = false := by decide +kernel

/-! ### C09 -/

theorem ofRound_zero (s : Bool) {A d : ℕ} (hA : A = 0) (hd : 0 < d) : ofRound s A d = .fin s 0 isMag_zero := by
  subst hA
  have hm : roundMag 0 d = 0 := by simp [roundMag]
  have hp : 0 < 2 ^ 2098 := pow_pos_nat _
  unfold ofRound
  rw [dif_pos hd, dif_pos (by rw [hm]; exact hp)]
  simp only [hm]

theorem mul_eq_pre (a b : Double) {r : Double} (h : Double.preMul a b = some r) : a * b = r := by
  rw [mul_eq, h]; rfl

/-- **C09 (partial).** With a NaN or infinite operand, or a zero *first* operand, `a * b` is what `f64`
multiplication gives for the first components, sign included.
Missing: a zero second operand with a finite first one, where only the number is right (`C09_mul_zero_right_partial`)
and the sign is not (`C09_refuted`). -/
theorem C09_mul_partial (a b : Double) (h : a.isFinite = false ∨ b.isFinite = false ∨ a.isZero = true) :
    IdentF64 (a * b).hi (F64.mul a.hi b.hi) ∧ (a * b).lo = F64.zero := by
  rw [mul_eq]
  obtain ⟨ah, al⟩ := a
  obtain ⟨bh, bl⟩ := b
  unfold Double.preMul
  cases ah with
  | nan s => exact ⟨Or.inl ⟨rfl, rfl⟩, rfl⟩
  | inf s =>
    cases bh with
    | nan t => cases s <;> exact ⟨Or.inl ⟨rfl, rfl⟩, rfl⟩
    | inf t =>
      simp only [isInf_inf, isNan_inf, isZero_inf, isPos_inf]
      cases s <;> cases t <;> exact ⟨Or.inr rfl, rfl⟩
    | fin t n hn =>
      simp only [isZero_fin, isInf_fin, isNan_fin, isPos_fin, isInf_inf, isNan_inf, isZero_inf, isPos_inf]
      by_cases h0 : n = 0
      · rw [if_neg (by simp), if_neg (by simp), if_pos trivial, if_pos (by simpa using h0)]
        refine ⟨Or.inl ⟨rfl, ?_⟩, rfl⟩
        unfold F64.mul
        simp only []
        rw [if_pos h0]; rfl
      · rw [if_neg (by simp), if_neg (by simp), if_pos trivial, if_neg (by simpa using h0)]
        unfold F64.mul
        simp only []
        rw [if_neg h0]
        cases s <;> cases t <;> exact ⟨Or.inr rfl, rfl⟩
  | fin s m hm =>
    cases bh with
    | nan t => exact ⟨Or.inl ⟨rfl, rfl⟩, rfl⟩
    | inf t =>
      simp only [isZero_fin, isInf_fin, isNan_fin, isPos_fin, isInf_inf, isNan_inf, isZero_inf, isPos_inf]
      by_cases h0 : m = 0
      · rw [if_neg (by simp), if_pos (by simpa using h0), if_pos trivial]
        refine ⟨Or.inl ⟨rfl, ?_⟩, rfl⟩
        unfold F64.mul
        simp only []
        rw [if_pos h0]; rfl
      · rw [if_neg (by simp), if_neg (by simpa using h0), if_neg (by simp), if_pos trivial]
        unfold F64.mul
        simp only []
        rw [if_neg h0]
        cases s <;> cases t <;> exact ⟨Or.inr rfl, rfl⟩
    | fin t n hn =>
      rcases h with h | h | h
      · exact absurd h (by simp [Double.isFinite, F64.isFinite])
      · exact absurd h (by simp [Double.isFinite, F64.isFinite])
      · rw [isZero_fin] at h
        simp only [isZero_fin, isInf_fin, isNan_fin, isPos_fin]
        rw [if_neg (by simp), if_pos h]
        have e : F64.mul (.fin s m hm) (.fin t n hn) = .fin (s != t) 0 isMag_zero := by
          refine ofRound_zero (s != t) ?_ (pow_pos_nat _)
          rw [of_decide_eq_true h, zero_mul]
        rw [e]
        cases s <;> cases t <;> exact ⟨Or.inr rfl, rfl⟩

example : Double.NEG_ZERO.isZero = true := by decide +kernel

/-- **C09.** A zero second operand gives the number zero for every finite first operand. -/
theorem C09_mul_zero_right_partial (a b : Double) (ha : a.Fin) (hb : b.Fin) (hz : b.val = 0) (hn : b.isZero = true) :
    SameDouble (a * b) Double.ZERO := by
  have ib := DIs.of_fin hb
  have h1 : b.hi.units = 0 := (ib.1.eq_iff is_zero).mp hn
  have h2 : b.lo.units = 0 := by
    have := ib.val
    rw [hz, h1, zero_add] at this
    have h3 := this.symm
    rw [div_eq_zero_iff] at h3
    rcases h3 with h3 | h3
    · exact_mod_cast h3
    · exact absurd h3 one'_ne
  rw [h1, h2] at ib
  exact same_of_dis (dis_mul_zero_right (.of_fin ha) ib) dis_zero

example : Double.PI.Fin ∧ Double.NEG_ZERO.Fin ∧ Double.NEG_ZERO.val = 0 ∧ Double.NEG_ZERO.isZero = true := by
  refine ⟨⟨?_, ?_⟩, ⟨?_, ?_⟩, ?_⟩ <;> decide +kernel

/-- C09 fails for the sign when only the second operand is zero: `-1 * 0` gives `+0`, `f64` gives `-0`
(and `1 * -0` gives `+0` too), while `0 * -1` gives `-0`. -/
theorem C09_refuted :
    (Double.NEG_ONE * Double.ZERO).hi.isSignNegative = false ∧
    (F64.mul Double.NEG_ONE.hi Double.ZERO.hi).isSignNegative = true ∧
    (Double.ONE * Double.NEG_ZERO).hi.isSignNegative = false ∧
    (Double.ZERO * Double.NEG_ONE).hi.isSignNegative = true := by decide +kernel

/-! ### C10 -/

/-- **C10 (partial).** With a NaN or infinite operand, or a zero divisor, `a / b` is what `f64` division gives for the
first components, sign included.
Missing: a zero dividend with a finite divisor, where the number is right (`C10_zero_div_partial`) but the sign of the
zero is not (`C10_refuted`). -/
theorem C10_div_partial (a b : Double) (h : a.isFinite = false ∨ b.isFinite = false ∨ b.isZero = true) :
    IdentF64 (a / b).hi (F64.div a.hi b.hi) ∧ (a / b).lo = F64.zero := by
  rw [div_eq]
  obtain ⟨ah, al⟩ := a
  obtain ⟨bh, bl⟩ := b
  unfold Double.preDiv
  cases ah with
  | nan s => exact ⟨Or.inl ⟨rfl, rfl⟩, rfl⟩
  | inf s =>
    cases bh with
    | nan t => cases s <;> exact ⟨Or.inl ⟨rfl, rfl⟩, rfl⟩
    | inf t =>
      simp only [isInf_inf, isNan_inf, isZero_inf, isPos_inf]
      cases s <;> cases t <;> exact ⟨Or.inl ⟨rfl, rfl⟩, rfl⟩
    | fin t n hn =>
      simp only [isZero_fin, isInf_fin, isNan_fin, isPos_fin, isInf_inf, isNan_inf, isZero_inf, isPos_inf, isNeg_inf]
      by_cases h0 : n = 0
      · rw [if_neg (by simp), if_pos (by simpa using h0), if_neg (by simp)]
        cases s <;> cases t <;> exact ⟨Or.inr rfl, rfl⟩
      · rw [if_neg (by simp), if_neg (by simpa using h0), if_pos trivial]
        cases s <;> cases t <;> exact ⟨Or.inr rfl, rfl⟩
  | fin s m hm =>
    cases bh with
    | nan t => exact ⟨Or.inl ⟨rfl, rfl⟩, rfl⟩
    | inf t =>
      simp only [isZero_fin, isInf_fin, isNan_fin, isPos_fin, isInf_inf, isNan_inf, isZero_inf, isPos_inf]
      rw [if_neg (by simp), if_neg (by simp), if_neg (by simp), if_pos trivial]
      cases s <;> cases t <;> exact ⟨Or.inr rfl, rfl⟩
    | fin t n hn =>
      rcases h with h | h | h
      · exact absurd h (by simp [Double.isFinite, F64.isFinite])
      · exact absurd h (by simp [Double.isFinite, F64.isFinite])
      · rw [isZero_fin] at h
        simp only [isZero_fin, isInf_fin, isNan_fin, isPos_fin, isNeg_fin]
        have hn0 : n = 0 := of_decide_eq_true h
        by_cases h0 : m = 0
        · rw [if_neg (by simp), if_pos h, if_pos (by simpa using h0)]
          refine ⟨Or.inl ⟨rfl, ?_⟩, rfl⟩
          unfold F64.div
          simp only []
          rw [if_pos hn0, if_pos h0]; rfl
        · rw [if_neg (by simp), if_pos h, if_neg (by simpa using h0)]
          unfold F64.div
          simp only []
          rw [if_pos hn0, if_neg h0]
          cases s <;> cases t <;> exact ⟨Or.inr rfl, rfl⟩

/-- **C10.** Zero divided by a finite non-zero number is the number zero. -/
theorem C10_zero_div_partial (a b : Double) (ha : a.Normalized) (hz : a.val = 0) (hb : b.Fin) (hn : b.isZero = false) :
    SameDouble (a / b) Double.ZERO := by
  obtain ⟨h, l, i, n⟩ := ha.norm2
  have h3 := i.val
  rw [hz] at h3
  have h4 : h + l = 0 := by
    have h5 := h3.symm
    rw [div_eq_zero_iff] at h5
    rcases h5 with h5 | h5
    · exact_mod_cast h5
    · exact absurd h5 one'_ne
  have hh : h = 0 := by have := n.rnd_eq; rw [h4] at this; simpa [rnd_zero] using this.symm
  subst hh
  have hl := n.hi_zero
  subst hl
  have ib := DIs.of_fin hb
  refine same_of_dis (dis_zero_div i ib ?_) dis_zero
  intro h0
  have : b.isZero = true := (ib.1.eq_iff is_zero).mpr h0
  rw [this] at hn; exact absurd hn (by simp)

example : Double.NEG_ZERO.Normalized ∧ Double.NEG_ZERO.val = 0 ∧ Double.PI.isZero = false := by decide +kernel

/-- C10 fails for the sign of a zero quotient: `-0 / 1` gives `+0`. -/
theorem C10_refuted : (Double.NEG_ZERO / Double.ONE).hi.isSignNegative = false ∧
    (F64.div Double.NEG_ZERO.hi Double.ONE.hi).isSignNegative = true := by decide +kernel

/-! ### C11 -/

theorem isNan_hi_of_ident {x y : F64} (h : IdentF64 x y) (hy : y.isNan = true) : x.isNan = true := by
  rcases h with h | h
  · exact h.1
  · rw [h]; exact hy

theorem not_finite_of_nan {a : Double} (h : a.isNan = true) : a.isFinite = false := by
  obtain ⟨hi, lo⟩ := a
  cases hi <;> simp_all [Double.isNan, Double.isFinite, F64.isNan, F64.isFinite]

theorem nan_hi {a : Double} (h : a.isNan = true) : ∃ s, a.hi = .nan s := by
  obtain ⟨hi, lo⟩ := a
  cases hi <;> simp_all [Double.isNan, F64.isNan]

/-- **C11.** If an operand of `+` is NaN, so is the result. -/
theorem C11_add (a b : Double) (h : a.isNan = true ∨ b.isNan = true) : (a + b).isNan = true := by
  have hf : a.isFinite = false ∨ b.isFinite = false := h.imp not_finite_of_nan not_finite_of_nan
  refine isNan_hi_of_ident (C08_add a b hf).1 ?_
  rcases h with h | h
  · obtain ⟨s, e⟩ := nan_hi h; rw [e]; rfl
  · obtain ⟨s, e⟩ := nan_hi h; rw [e]; cases a.hi <;> rfl

/-- **C11.** If an operand of `-` is NaN, so is the result. -/
theorem C11_sub (a b : Double) (h : a.isNan = true ∨ b.isNan = true) : (a - b).isNan = true := by
  have hf : a.isFinite = false ∨ b.isFinite = false := h.imp not_finite_of_nan not_finite_of_nan
  refine isNan_hi_of_ident (C08_sub a b hf).1 ?_
  rcases h with h | h
  · obtain ⟨s, e⟩ := nan_hi h; rw [e]; rfl
  · obtain ⟨s, e⟩ := nan_hi h; rw [e]; cases a.hi <;> rfl

/-- **C11.** If an operand of `*` is NaN, so is the result. -/
theorem C11_mul (a b : Double) (h : a.isNan = true ∨ b.isNan = true) : (a * b).isNan = true := by
  have hf : a.isFinite = false ∨ b.isFinite = false ∨ a.isZero = true :=
    (h.imp not_finite_of_nan not_finite_of_nan).imp_right Or.inl
  refine isNan_hi_of_ident (C09_mul_partial a b hf).1 ?_
  rcases h with h | h
  · obtain ⟨s, e⟩ := nan_hi h; rw [e]; rfl
  · obtain ⟨s, e⟩ := nan_hi h; rw [e]; cases a.hi <;> rfl

/-- **C11.** If an operand of `/` is NaN, so is the result. -/
theorem C11_div (a b : Double) (h : a.isNan = true ∨ b.isNan = true) : (a / b).isNan = true := by
  have hf : a.isFinite = false ∨ b.isFinite = false ∨ b.isZero = true :=
    (h.imp not_finite_of_nan not_finite_of_nan).imp_right Or.inl
  refine isNan_hi_of_ident (C10_div_partial a b hf).1 ?_
  rcases h with h | h
  · obtain ⟨s, e⟩ := nan_hi h; rw [e]; rfl
  · obtain ⟨s, e⟩ := nan_hi h; rw [e]; cases a.hi <;> rfl

/-- **C11.** If an operand of `%` is NaN, so is the result. -/
theorem C11_rem (a b : Double) (h : a.isNan = true ∨ b.isNan = true) : (a % b).isNan = true := by
  change (a - b * (a / b).floor).isNan = true
  apply C11_sub
  rcases h with h | h
  · exact Or.inl h
  · exact Or.inr (C11_mul _ _ (Or.inl h))

theorem foldl_add_nan (l : List Double) (x : Double) (hx : x.isNan = true) :
    (l.foldl (fun a b => a + b) x).isNan = true := by
  induction l generalizing x with
  | nil => exact hx
  | cons y l ih => exact ih _ (C11_add _ _ (Or.inl hx))

theorem foldl_mul_nan (l : List Double) (x : Double) (hx : x.isNan = true) :
    (l.foldl (fun a b => a * b) x).isNan = true := by
  induction l generalizing x with
  | nil => exact hx
  | cons y l ih => exact ih _ (C11_mul _ _ (Or.inl hx))

/-- **C11.** A sum over a sequence containing a NaN anywhere is NaN. -/
theorem C11_sum (l : List Double) (h : ∃ x ∈ l, x.isNan = true) : (Double.sum l).isNan = true := by
  unfold Double.sum
  generalize Double.ZERO = z
  induction l generalizing z with
  | nil => simp at h
  | cons y l ih =>
    obtain ⟨x, hx, hn⟩ := h
    rw [List.foldl_cons]
    rcases List.mem_cons.mp hx with rfl | hx
    · exact foldl_add_nan _ _ (C11_add _ _ (Or.inr hn))
    · exact ih ⟨x, hx, hn⟩ _

/-- **C11.** A product over a sequence containing a NaN anywhere is NaN. -/
theorem C11_product (l : List Double) (h : ∃ x ∈ l, x.isNan = true) : (Double.product l).isNan = true := by
  unfold Double.product
  generalize Double.ONE = z
  induction l generalizing z with
  | nil => simp at h
  | cons y l ih =>
    obtain ⟨x, hx, hn⟩ := h
    rw [List.foldl_cons]
    rcases List.mem_cons.mp hx with rfl | hx
    · exact foldl_mul_nan _ _ (C11_mul _ _ (Or.inr hn))
    · exact ih ⟨x, hx, hn⟩ _

example : ∃ x ∈ [Double.PI, Double.NAN, Double.E], x.isNan = true := ⟨Double.NAN, by simp, rfl⟩

end Verif
