import Verif.Proofs.Opp

/-!
# Opposite numbers through division
-/

namespace Verif

open F64 Prim Util

/-- Division of a number by a non-zero number of units. -/
def Num.divI : Num → ℤ → Num
  | .nan, _ => .nan
  | .inf s, n => .inf (s != decide (n < 0))
  | .fin m, n => rndNum ((m * one' : ℚ) / n)

theorem num_div {a b : F64} {n : ℤ} (hb : Is b n) (hn : n ≠ 0) : num (F64.div a b) = (num a).divI n := by
  obtain ⟨t, k, hk, rfl, rfl⟩ := hb.exists
  have hk0 : k ≠ 0 := mt sgn_eq_zero.mpr hn
  cases a with
  | nan s => rfl
  | inf s =>
    change Num.inf (s != t) = Num.inf (s != decide ((if t then -(k:ℤ) else k) < 0))
    rw [sgn_lt hk0]
  | fin s m hm =>
    rw [num_fin]
    unfold F64.div
    simp only []
    rw [if_neg hk0]
    change _ = rndNum _
    refine num_ofRound' (Nat.pos_of_ne_zero hk0) ?_
    rw [Nat.cast_mul, one'_natQ]
    cases s <;> cases t <;> simp [neg_div, div_neg]

theorem Num.divI_neg_left (a : Num) (n : ℤ) : a.neg.divI n = (a.divI n).neg := by
  cases a with
  | nan => rfl
  | inf s => change Num.inf _ = Num.inf _; cases s <;> simp
  | fin m =>
    change rndNum (((-m : ℤ) * one' : ℚ) / n) = (rndNum ((m * one' : ℚ) / n)).neg
    rw [← rndNum_neg]; congr 1; push_cast; ring

theorem Num.divI_neg_right (a : Num) {n : ℤ} (hn : n ≠ 0) : a.divI (-n) = (a.divI n).neg := by
  cases a with
  | nan => rfl
  | inf s =>
    change Num.inf (s != decide (-n < 0)) = Num.inf (!(s != decide (n < 0)))
    rw [decide_neg_lt hn]; cases s <;> simp
  | fin m =>
    change rndNum ((m * one' : ℚ) / (-n : ℤ)) = (rndNum ((m * one' : ℚ) / n)).neg
    rw [← rndNum_neg]; congr 1; push_cast; rw [div_neg]

theorem Opp.div_left {a a' b b' : F64} {n : ℤ} (h : Opp a a') (hb : Is b n) (hb' : Is b' n) (hn : n ≠ 0) :
    Opp (F64.div a b) (F64.div a' b') := by
  unfold Opp at *; rw [num_div hb hn, num_div hb' hn, h, Num.divI_neg_left]
theorem Opp.div_right {a a' b b' : F64} {n : ℤ} (h : Sam a a') (hb : Is b n) (hb' : Is b' (-n)) (hn : n ≠ 0) :
    Opp (F64.div a b) (F64.div a' b') := by
  unfold Opp Sam at *; rw [num_div hb hn, num_div hb' (by omega), h, Num.divI_neg_right _ hn]
theorem Sam.div {a a' b b' : F64} {n : ℤ} (h : Sam a a') (hb : Is b n) (hb' : Is b' n) (hn : n ≠ 0) :
    Sam (F64.div a b) (F64.div a' b') := by
  unfold Sam at *; rw [num_div hb hn, num_div hb' hn, h]

theorem OppD.mulF64_left {a a' : Double} {b b' : F64} (h : OppD a a') (h' : Sam b b') :
    OppD (Double.mulF64 a b) (Double.mulF64 a' b') := by
  have hp := OppP.twoProd_left h.1 h'
  have h2 := OppP.quickTwoSum hp.1 (hp.2.add (h.2.mul_left h'))
  exact ⟨h2.1, h2.2⟩
theorem OppD.mulF64_right {a a' : Double} {b b' : F64} (h : SamD a a') (h' : Opp b b') :
    OppD (Double.mulF64 a b) (Double.mulF64 a' b') := by
  have hp := OppP.twoProd_right h.1 h'
  have h2 := OppP.quickTwoSum hp.1 (hp.2.add (Opp.mul_right h.2 h'))
  exact ⟨h2.1, h2.2⟩
theorem SamD.mulF64 {a a' : Double} {b b' : F64} (h : SamD a a') (h' : Sam b b') :
    SamD (Double.mulF64 a b) (Double.mulF64 a' b') := by
  have hp := SamP.twoProd h.1 h'
  have h2 := SamP.quickTwoSum hp.1 (hp.2.add (h.2.mul h'))
  exact ⟨h2.1, h2.2⟩

theorem OppP.renorm3 {a b c a' b' c' : F64} (h : Opp a a') (h' : Opp b b') (h'' : Opp c c') :
    OppP (renorm3 a b c) (renorm3 a' b' c') := by
  have h1 := OppP.quickTwoSum h h'
  have h2 := OppP.quickTwoSum h'' h1.1
  exact OppP.quickTwoSum h2.1 (h1.2.add h2.2)
theorem SamP.renorm3 {a b c a' b' c' : F64} (h : Sam a a') (h' : Sam b b') (h'' : Sam c c') :
    SamP (renorm3 a b c) (renorm3 a' b' c') := by
  have h1 := SamP.quickTwoSum h h'
  have h2 := SamP.quickTwoSum h'' h1.1
  exact SamP.quickTwoSum h2.1 (h1.2.add h2.2)

/-- The part of `div` after the prefix. -/
def divMain (a b : Double) : Double :=
  let q1 := F64.div a.hi b.hi
  let r := a - Double.mulF64 b q1
  let q2 := F64.div r.hi b.hi
  let r2 := r - Double.mulF64 b q2
  let q3 := F64.div r2.hi b.hi
  let z := renorm3 q1 q2 q3
  ⟨z.1, z.2⟩

theorem div_eq (a b : Double) : a / b = (Double.preDiv a b).getD (divMain a b) := by
  change Double.div a b = _
  unfold Double.div
  cases Double.preDiv a b <;> rfl

theorem OppD.divMain_left {a a' b b' : Double} {n : ℤ} (h : OppD a a') (h' : SamD b b') (hb : Is b.hi n)
    (hb' : Is b'.hi n) (hn : n ≠ 0) : OppD (divMain a b) (divMain a' b') := by
  have h1 := h.1.div_left hb hb' hn
  have h2 := h.sub (OppD.mulF64_right h' h1)
  have h3 := h2.1.div_left hb hb' hn
  have h4 := h2.sub (OppD.mulF64_right h' h3)
  have h5 := h4.1.div_left hb hb' hn
  have h6 := OppP.renorm3 h1 h3 h5
  exact ⟨h6.1, h6.2⟩

theorem OppD.divMain_right {a a' b b' : Double} {n : ℤ} (h : SamD a a') (h' : OppD b b') (hb : Is b.hi n)
    (hb' : Is b'.hi (-n)) (hn : n ≠ 0) : OppD (divMain a b) (divMain a' b') := by
  have h1 := Opp.div_right h.1 hb hb' hn
  have m1 := (OppD.mulF64_right (samD_rfl b) h1).opp (OppD.mulF64_left h' (sam_rfl _))
  have h2 := h.sub m1
  have h3 := Opp.div_right h2.1 hb hb' hn
  have m3 := (OppD.mulF64_right (samD_rfl b) h3).opp (OppD.mulF64_left h' (sam_rfl _))
  have h4 := h2.sub m3
  have h5 := Opp.div_right h4.1 hb hb' hn
  have h6 := OppP.renorm3 h1 h3 h5
  exact ⟨h6.1, h6.2⟩

theorem Sam.is {x y : F64} {n : ℤ} (h : Sam x y) (i : Is x n) : Is y n := is_of_num (h.trans (num_of_is i))
theorem Opp.is {x y : F64} {n : ℤ} (h : Opp x y) (i : Is x n) : Is y (-n) :=
  is_of_num (h.trans (by rw [num_of_is i]; rfl))

/-! ### The prefix of division -/

theorem neg_isNan (a : Double) : (-a).isNan = a.isNan := by
  obtain ⟨h, l⟩ := a; cases h <;> rfl
theorem neg_isInfinite (a : Double) : (-a).isInfinite = a.isInfinite := by
  obtain ⟨h, l⟩ := a; cases h <;> rfl
theorem neg_isSignNegative (a : Double) : (-a).isSignNegative = !a.isSignNegative := by
  obtain ⟨h, l⟩ := a; cases h <;> rfl
theorem isSignPositive_eq (a : Double) : a.isSignPositive = !a.isSignNegative := by
  obtain ⟨h, l⟩ := a; cases h <;> rfl
theorem neg_isZero (a : Double) : (-a).isZero = a.isZero := by
  obtain ⟨h, l⟩ := a
  cases h with
  | nan s => rfl
  | inf s => rw [isZero_inf]; exact isZero_inf _ _
  | fin s m hm => rw [isZero_fin]; exact isZero_fin _ _ _ _

theorem preDiv_neg_left (a b : Double) : OptOpp (Double.preDiv a b) (Double.preDiv (-a) b) := by
  unfold Double.preDiv
  simp only [neg_isNan, neg_isInfinite, neg_isSignNegative, isSignPositive_eq, neg_isZero]
  cases a.isNan <;> cases b.isNan <;> first | exact oppD_nan | skip
  cases a.isZero <;> cases b.isZero <;> first | exact oppD_nan | skip
  all_goals
    cases a.isInfinite <;> cases b.isInfinite <;> cases a.isSignNegative <;> cases b.isSignNegative <;>
    first | exact oppD_nan | exact oppD_inf | exact oppD_ninf | exact oppD_zero | exact oppD_nzero | trivial

theorem preDiv_neg_right (a b : Double) : OptOpp (Double.preDiv a b) (Double.preDiv a (-b)) := by
  unfold Double.preDiv
  simp only [neg_isNan, neg_isInfinite, neg_isSignNegative, isSignPositive_eq, neg_isZero]
  cases a.isNan <;> cases b.isNan <;> first | exact oppD_nan | skip
  cases a.isZero <;> cases b.isZero <;> first | exact oppD_nan | skip
  all_goals
    cases a.isInfinite <;> cases b.isInfinite <;> cases a.isSignNegative <;> cases b.isSignNegative <;>
    first | exact oppD_nan | exact oppD_inf | exact oppD_ninf | exact oppD_zero | exact oppD_nzero | trivial

/-- When the prefix does not decide, both leading components are finite and the divisor is not zero. -/
theorem preDiv_none {a b : Double} (h : Double.preDiv a b = none) :
    (∃ m, Is a.hi m) ∧ ∃ n, Is b.hi n ∧ n ≠ 0 := by
  unfold Double.preDiv at h
  have hab : a.isNan = false ∧ b.isNan = false ∧ a.isInfinite = false ∧ b.isInfinite = false ∧ b.isZero = false := by
    revert h
    cases a.isNan <;> cases b.isNan <;> cases a.isInfinite <;> cases b.isInfinite <;> cases b.isZero <;>
      cases a.isZero <;> cases a.isSignNegative <;> cases b.isSignNegative <;> cases a.isSignPositive <;>
      cases b.isSignPositive <;> simp
  obtain ⟨h1, h2, h3, h4, h5⟩ := hab
  obtain ⟨ah, al⟩ := a
  obtain ⟨bh, bl⟩ := b
  cases ah with
  | nan s => simp [Double.isNan, F64.isNan] at h1
  | inf s => simp [Double.isInfinite, F64.isInfinite] at h3
  | fin s m hm =>
    cases bh with
    | nan s => simp [Double.isNan, F64.isNan] at h2
    | inf s => simp [Double.isInfinite, F64.isInfinite] at h4
    | fin t n hn =>
      refine ⟨⟨_, rfl, rfl⟩, _, ⟨rfl, rfl⟩, ?_⟩
      rw [isZero_fin] at h5
      change (if t then -(n:ℤ) else n) ≠ 0
      intro h0
      rw [sgn_eq_zero.mp h0] at h5
      simp at h5

theorem oppD_div_left (a b : Double) : OppD (a / b) (-a / b) := by
  rw [div_eq, div_eq]
  have hp := preDiv_neg_left a b
  cases h1 : Double.preDiv a b with
  | some r =>
    rw [h1] at hp
    cases h2 : Double.preDiv (-a) b with
    | some r' => rw [h2] at hp; exact hp
    | none => rw [h2] at hp; exact hp.elim
  | none =>
    rw [h1] at hp
    cases h2 : Double.preDiv (-a) b with
    | some r' => rw [h2] at hp; exact hp.elim
    | none =>
      obtain ⟨_, n, hb, hn⟩ := preDiv_none h1
      exact OppD.divMain_left (oppD_neg a) (samD_rfl b) hb hb hn

theorem oppD_div_right (a b : Double) : OppD (a / b) (a / -b) := by
  rw [div_eq, div_eq]
  have hp := preDiv_neg_right a b
  cases h1 : Double.preDiv a b with
  | some r =>
    rw [h1] at hp
    cases h2 : Double.preDiv a (-b) with
    | some r' => rw [h2] at hp; exact hp
    | none => rw [h2] at hp; exact hp.elim
  | none =>
    rw [h1] at hp
    cases h2 : Double.preDiv a (-b) with
    | some r' => rw [h2] at hp; exact hp.elim
    | none =>
      obtain ⟨_, n, hb, hn⟩ := preDiv_none h1
      exact OppD.divMain_right (samD_rfl a) (oppD_neg b) hb hb.neg hn

end Verif
