import Verif.Proofs.DoubleAdd

/-!
# Congruence of the operations with respect to "same number"
-/

namespace Verif

open F64 Prim Util

/-- A finite number, an infinity or NaN, forgetting the sign of zero and of NaN. -/
inductive Num where
  | nan
  | inf (neg : Bool)
  | fin (n : ℤ)
deriving DecidableEq

/-- The number denoted by an `f64`. -/
def num : F64 → Num
  | .nan _ => .nan
  | .inf s => .inf s
  | .fin s m _ => .fin (if s then -(m : ℤ) else m)

theorem num_of_is {x : F64} {n : ℤ} (h : Is x n) : num x = .fin n := by
  obtain ⟨s, m, hm, rfl, rfl⟩ := h.exists; rfl

theorem is_of_num {x : F64} {n : ℤ} (h : num x = .fin n) : Is x n := by
  cases x with
  | nan s => simp [num] at h
  | inf s => simp [num] at h
  | fin s m hm => simp [num] at h; rw [is_fin]; exact h.symm

theorem sameF64_iff {x y : F64} : SameF64 x y ↔ num x = num y := by
  unfold SameF64
  have hpos : (0:ℤ) < 2 ^ 2098 := Int.pow_pos (by norm_num)
  cases x with
  | nan s => cases y <;> simp [F64.isNan, F64.eq, F64.key, num]
  | inf s =>
    cases y with
    | nan t => simp [F64.isNan, F64.eq, F64.key, num]
    | inf t =>
      simp only [F64.isNan, F64.eq, F64.key, num]
      generalize (2:ℤ) ^ 2098 = P at hpos
      cases s <;> cases t <;> simp <;> omega
    | fin t n hn =>
      have h1 : (n : ℤ) < 2 ^ 2098 := by
        have := hn.1
        have h2 := (ovf_natCast (m := n)).mpr this
        unfold ovf at h2; exact h2
      simp only [F64.isNan, F64.eq, F64.key, num]
      generalize (2:ℤ) ^ 2098 = P at *
      cases s <;> cases t <;> simp <;> omega
  | fin s m hm =>
    cases y with
    | nan t => simp [F64.isNan, F64.eq, F64.key, num]
    | inf t =>
      have h1 : (m : ℤ) < 2 ^ 2098 := by
        have := hm.1
        have h2 := (ovf_natCast (m := m)).mpr this
        unfold ovf at h2; exact h2
      simp only [F64.isNan, F64.eq, F64.key, num]
      generalize (2:ℤ) ^ 2098 = P at *
      cases s <;> cases t <;> simp <;> omega
    | fin t n hn => simp [F64.isNan, F64.eq, F64.key, num]

/-! ### `ofRound`, `ofSum` -/

theorem num_ofRound {s : Bool} {A d : ℕ} (hd : 0 < d) {q : ℚ}
    (hq : q = (if s then -1 else 1) * ((A : ℚ) / d)) :
    num (ofRound s A d) = if |rnd q| < ovf then .fin (rnd q) else .inf s := by
  by_cases h : |rnd q| < ovf
  · rw [if_pos h]; exact num_of_is (is_ofRound hd hq h)
  · rw [if_neg h, ofRound_inf hd hq (not_lt.mp h)]; rfl

/-- The number obtained by rounding the exact value `q` units, with overflow to infinity. -/
def rndNum (q : ℚ) : Num := if |rnd q| < ovf then .fin (rnd q) else .inf (decide (q < 0))

theorem ovf_pos : 0 < ovf := by unfold ovf; exact Int.pow_pos (by norm_num)

theorem num_ofRound' {s : Bool} {A d : ℕ} (hd : 0 < d) {q : ℚ}
    (hq : q = (if s then -1 else 1) * ((A : ℚ) / d)) : num (ofRound s A d) = rndNum q := by
  rw [num_ofRound hd hq]
  unfold rndNum
  split_ifs with h
  · rfl
  · congr 1
    have hA : (A : ℚ) ≠ 0 := by
      intro h0
      apply h
      have : q = 0 := by rw [hq, h0]; simp
      rw [this, rnd_zero]; simpa using ovf_pos
    have hA' : (0:ℚ) < A := lt_of_le_of_ne (by positivity) (Ne.symm hA)
    have hdq : (0:ℚ) < d := by exact_mod_cast hd
    have hp : (0:ℚ) < (A:ℚ) / d := by positivity
    cases s
    · simp at hq; rw [hq]; simp; exact hp.le
    · simp at hq; rw [hq]; simp; exact hp

theorem num_ofSum {sa sb : Bool} {A B den : ℕ} (hd : 0 < den) {q : ℚ}
    (hq : q = (((if sa then -(A:ℤ) else A) + (if sb then -(B:ℤ) else B) : ℤ) : ℚ) / den) :
    num (ofSum sa A sb B den) = rndNum q := by
  unfold ofSum
  by_cases h1 : sa = sb
  · rw [if_pos h1]
    apply num_ofRound' hd
    subst h1
    rw [hq]
    cases sa
    · simp
    · simp; ring
  rw [if_neg h1]
  by_cases h2 : B < A
  · rw [if_pos h2]
    apply num_ofRound' hd
    rw [Nat.cast_sub h2.le, hq]
    cases sa <;> cases sb <;> simp at h1 ⊢ <;> ring
  rw [if_neg h2]
  by_cases h3 : A < B
  · rw [if_pos h3]
    apply num_ofRound' hd
    rw [Nat.cast_sub h3.le, hq]
    cases sa <;> cases sb <;> simp at h1 ⊢ <;> ring
  rw [if_neg h3]
  have : A = B := by omega
  subst this
  have : q = 0 := by
    rw [hq]
    cases sa <;> cases sb <;> simp at h1 ⊢
  rw [this]
  unfold rndNum
  rw [rnd_zero, if_pos (by simpa using ovf_pos), num_of_is is_zero]

/-! ### Abstract operations -/

/-- Addition on numbers. -/
def Num.add : Num → Num → Num
  | .nan, _ => .nan
  | _, .nan => .nan
  | .inf s, .inf t => if s = t then .inf s else .nan
  | .inf s, .fin _ => .inf s
  | .fin _, .inf t => .inf t
  | .fin m, .fin n => rndNum ((m + n : ℤ) : ℚ)

/-- Negation on numbers. -/
def Num.neg : Num → Num
  | .nan => .nan
  | .inf s => .inf !s
  | .fin n => .fin (-n)

/-- Sign (minus?) and zero test used by products. -/
def Num.isZ : Num → Bool
  | .fin n => n = 0
  | _ => false

/-- Multiplication on numbers. -/
def Num.mul : Num → Num → Num
  | .nan, _ => .nan
  | _, .nan => .nan
  | .inf s, .inf t => .inf (s != t)
  | .inf s, .fin n => if n = 0 then .nan else .inf (s != decide (n < 0))
  | .fin n, .inf t => if n = 0 then .nan else .inf (decide (n < 0) != t)
  | .fin m, .fin n => rndNum ((m * n : ℚ) / one')

/-- Fused multiply-add on numbers. -/
def Num.fma : Num → Num → Num → Num
  | .nan, _, _ => .nan
  | _, .nan, _ => .nan
  | _, _, .nan => .nan
  | .inf s, .inf t, c => Num.add (.inf (s != t)) c
  | .inf s, .fin n, c => if n = 0 then .nan else Num.add (.inf (s != decide (n < 0))) c
  | .fin n, .inf t, c => if n = 0 then .nan else Num.add (.inf (decide (n < 0) != t)) c
  | .fin _, .fin _, .inf u => .inf u
  | .fin m, .fin n, .fin l => rndNum ((m * n : ℚ) / one' + l)

theorem num_fin (s : Bool) (m : ℕ) (h : IsMag m) : num (.fin s m h) = .fin (if s then -(m : ℤ) else m) := rfl
theorem num_inf (s : Bool) : num (.inf s) = .inf s := rfl
theorem num_nan (s : Bool) : num (.nan s) = .nan := rfl

theorem num_add (a b : F64) : num (F64.add a b) = (num a).add (num b) := by
  cases a with
  | nan s => cases b <;> rfl
  | inf s =>
    cases b with
    | nan t => rfl
    | inf t => cases s <;> cases t <;> rfl
    | fin t n hn => rfl
  | fin s m hm =>
    cases b with
    | nan t => rfl
    | inf t => rfl
    | fin t n hn =>
      change num (ofSum s m t n 1) = rndNum _
      apply num_ofSum (by norm_num)
      simp

theorem num_neg (a : F64) : num (F64.neg a) = (num a).neg := by
  cases a with
  | nan s => rfl
  | inf s => rfl
  | fin s m h => cases s <;> simp [F64.neg, num, Num.neg]

theorem num_sub (a b : F64) : num (F64.sub a b) = (num a).add (num b).neg := by
  unfold F64.sub; rw [num_add, num_neg]

theorem sgn_lt {s : Bool} {m : ℕ} (h : m ≠ 0) : decide ((if s then -(m:ℤ) else m) < 0) = s := by
  cases s <;> simp <;> omega

theorem sgn_eq_zero {s : Bool} {m : ℕ} : ((if s then -(m:ℤ) else m) = 0) ↔ m = 0 := by
  cases s <;> simp

theorem num_mul (a b : F64) : num (F64.mul a b) = (num a).mul (num b) := by
  cases a with
  | nan s => cases b <;> rfl
  | inf s =>
    cases b with
    | nan t => rfl
    | inf t => rfl
    | fin t n hn =>
      rw [num_fin, num_inf]
      by_cases h : n = 0
      · subst h; cases t <;> rfl
      · simp only [F64.mul, Num.mul]
        rw [if_neg h, if_neg (mt sgn_eq_zero.mp h), sgn_lt h]; rfl
  | fin s m hm =>
    cases b with
    | nan t => rfl
    | inf t =>
      rw [num_fin, num_inf]
      by_cases h : m = 0
      · subst h; cases s <;> rfl
      · simp only [F64.mul, Num.mul]
        rw [if_neg h, if_neg (mt sgn_eq_zero.mp h), sgn_lt h]; rfl
    | fin t n hn =>
      rw [num_fin, num_fin]
      change num (ofRound (s != t) (m*n) (2^1074)) = rndNum _
      refine num_ofRound' (pow_pos_nat _) ?_
      rw [one'_natQ]
      cases s <;> cases t <;> simp [neg_div]

theorem num_infPlus (a b : F64) (s : Bool) (c : F64) (hc : c.isNan = false) :
    num (F64.fma.infPlus a b s c) = Num.add (.inf s) (num c) := by
  cases c with
  | nan t => simp [F64.isNan] at hc
  | inf t => cases s <;> cases t <;> rfl
  | fin t n hn => rfl

theorem num_fma (a b c : F64) : num (F64.fma a b c) = Num.fma (num a) (num b) (num c) := by
  cases c with
  | nan u => cases a <;> cases b <;> rfl
  | inf u =>
    cases a with
    | nan s => cases b <;> rfl
    | inf s =>
      cases b with
      | nan t => rfl
      | inf t => exact num_infPlus _ _ _ (.inf u) rfl
      | fin t n hn =>
        rw [num_fin, num_inf, num_inf]
        by_cases h : n = 0
        · subst h; cases t <;> rfl
        · simp only [F64.fma, Num.fma]
          rw [if_neg h, if_neg (mt sgn_eq_zero.mp h), sgn_lt h, num_infPlus _ _ _ _ rfl, num_inf]
    | fin s m hm =>
      cases b with
      | nan t => rfl
      | inf t =>
        rw [num_fin, num_inf, num_inf]
        by_cases h : m = 0
        · subst h; cases s <;> rfl
        · simp only [F64.fma, Num.fma]
          rw [if_neg h, if_neg (mt sgn_eq_zero.mp h), sgn_lt h, num_infPlus _ _ _ _ rfl, num_inf]
      | fin t n hn => rfl
  | fin u l hl =>
    cases a with
    | nan s => cases b <;> rfl
    | inf s =>
      cases b with
      | nan t => rfl
      | inf t => rfl
      | fin t n hn =>
        rw [num_fin, num_fin, num_inf]
        by_cases h : n = 0
        · subst h; cases t <;> rfl
        · simp only [F64.fma, Num.fma]
          rw [if_neg h, if_neg (mt sgn_eq_zero.mp h), sgn_lt h, num_infPlus _ _ _ _ rfl, num_fin]
    | fin s m hm =>
      cases b with
      | nan t => rfl
      | inf t =>
        rw [num_fin, num_fin, num_inf]
        by_cases h : m = 0
        · subst h; cases s <;> rfl
        · simp only [F64.fma, Num.fma]
          rw [if_neg h, if_neg (mt sgn_eq_zero.mp h), sgn_lt h, num_infPlus _ _ _ _ rfl, num_fin]
      | fin t n hn =>
        rw [num_fin, num_fin, num_fin]
        change num (ofSum (s != t) (m * n) u (l * 2 ^ 1074) (2 ^ 1074)) = rndNum _
        refine num_ofSum (pow_pos_nat _) ?_
        have hp := one'_ne
        rw [one'_natQ, Nat.cast_mul l, one'_nat]
        generalize one' = P at *
        cases s <;> cases t <;> cases u <;> simp <;> field_simp

/-! ### Negation -/

theorem rndNum_neg (q : ℚ) : rndNum (-q) = (rndNum q).neg := by
  unfold rndNum
  rw [rnd_neg, abs_neg]
  split_ifs with h
  · rfl
  · simp only [Num.neg]
    congr 1
    have hq : q ≠ 0 := by
      rintro rfl
      apply h; rw [rnd_zero]; simpa using ovf_pos
    rcases lt_or_gt_of_ne hq with h1 | h1
    · simp [h1, h1.le]
    · simp [h1, h1.le]

theorem Num.neg_neg (a : Num) : a.neg.neg = a := by cases a <;> simp [Num.neg]

theorem Num.add_neg (a b : Num) : a.neg.add b.neg = (a.add b).neg := by
  cases a with
  | nan => cases b <;> rfl
  | inf s =>
    cases b with
    | nan => rfl
    | inf t => simp only [Num.neg, Num.add]; cases s <;> cases t <;> rfl
    | fin n => rfl
  | fin m =>
    cases b with
    | nan => rfl
    | inf t => rfl
    | fin n =>
      change rndNum ((-m + -n : ℤ) : ℚ) = (rndNum ((m + n : ℤ) : ℚ)).neg
      rw [← rndNum_neg]; congr 1; push_cast; ring

theorem Num.add_comm (a b : Num) : a.add b = b.add a := by
  cases a <;> cases b <;> simp only [Num.add]
  · rename_i s t; cases s <;> cases t <;> rfl
  · rw [_root_.add_comm]

theorem Num.mul_neg_left (a b : Num) : a.neg.mul b = (a.mul b).neg := by
  cases a with
  | nan => cases b <;> rfl
  | inf s =>
    cases b with
    | nan => rfl
    | inf t => simp only [Num.neg, Num.mul]; cases s <;> cases t <;> rfl
    | fin n => simp only [Num.neg, Num.mul]; split_ifs <;> cases s <;> simp [Num.neg]
  | fin m =>
    cases b with
    | nan => rfl
    | inf t =>
      simp only [Num.neg, Num.mul]
      split_ifs with h1 h2 h3
      · rfl
      · omega
      · omega
      · simp only [Num.neg]
        rcases lt_or_gt_of_ne h3 with h | h
        · have : ¬ (-m < 0) := by omega
          cases t <;> simp [h, h.le, this]
        · have h' : -m < 0 := by omega
          have : ¬ (m < 0) := by omega
          cases t <;> simp [h, h.le, this]
    | fin n =>
      change rndNum (((-m : ℤ) * n : ℚ) / one') = (rndNum ((m * n : ℚ) / one')).neg
      rw [← rndNum_neg]; congr 1; push_cast; ring

theorem Num.mul_comm (a b : Num) : a.mul b = b.mul a := by
  cases a <;> cases b <;> simp only [Num.mul]
  · rename_i s t; cases s <;> cases t <;> rfl
  · rename_i s n; split_ifs <;> simp [Bool.xor_comm]
  · rename_i s n; split_ifs <;> simp [Bool.xor_comm]
  · rw [_root_.mul_comm]

theorem Num.mul_neg_right (a b : Num) : a.mul b.neg = (a.mul b).neg := by
  rw [Num.mul_comm, Num.mul_neg_left, Num.mul_comm]

end Verif
