import Verif.Model.Quad
import Verif.Proofs.OppDiv

/-!
# Sign symmetry and congruence of the `Quad` operations

`Sg σ x y`: `y` is the number `x` (when `σ = false`) or its negation (when `σ = true`). Every building block maps related
operands to related results, so each lemma covers congruence and negation symmetry at once.
-/

namespace Verif

open F64 Prim Util

/-- negate when the flag is set -/
def Num.sg (σ : Bool) (n : Num) : Num := if σ then n.neg else n

/-- `y` is `±x` as a number. -/
def Sg (σ : Bool) (x y : F64) : Prop := num y = (num x).sg σ

theorem sg_false {x y : F64} : Sg false x y ↔ Sam x y := Iff.rfl
theorem sg_true {x y : F64} : Sg true x y ↔ Opp x y := Iff.rfl

theorem Sg.add {σ : Bool} {a b a' b' : F64} (h : Sg σ a a') (h' : Sg σ b b') : Sg σ (F64.add a b) (F64.add a' b') := by
  cases σ
  · exact Sam.add h h'
  · exact Opp.add h h'
theorem Sg.neg {σ : Bool} {a a' : F64} (h : Sg σ a a') : Sg σ a.neg a'.neg := by
  cases σ
  · exact Sam.neg h
  · exact Opp.neg h
theorem Sg.sub {σ : Bool} {a b a' b' : F64} (h : Sg σ a a') (h' : Sg σ b b') : Sg σ (F64.sub a b) (F64.sub a' b') :=
  h.add h'.neg

theorem Sg.mul {σ τ : Bool} {a b a' b' : F64} (h : Sg σ a a') (h' : Sg τ b b') :
    Sg (σ ^^ τ) (F64.mul a b) (F64.mul a' b') := by
  cases σ <;> cases τ
  · exact Sam.mul h h'
  · exact Opp.mul_right h h'
  · exact Opp.mul_left h h'
  · have h1 : Opp (F64.mul a b) (F64.mul a' b) := Opp.mul_left h (sam_rfl b)
    have h2 : Opp (F64.mul a' b) (F64.mul a' b') := Opp.mul_right (sam_rfl a') h'
    exact h1.opp h2

theorem Sg.fma {σ τ : Bool} {a b c a' b' c' : F64} (h : Sg σ a a') (h' : Sg τ b b') (h'' : Sg (σ ^^ τ) c c') :
    Sg (σ ^^ τ) (F64.fma a b c) (F64.fma a' b' c') := by
  cases σ <;> cases τ
  · exact Sam.fma h h' h''
  · exact Opp.fma_right h h' h''
  · exact Opp.fma_left h h' h''
  · have h1 : Opp (F64.fma a b c) (F64.fma a' b c.neg) := Opp.fma_left h (sam_rfl b) (opp_neg c)
    have h3 : Opp c.neg c' := by
      have h4 : num c' = num c := h''
      unfold Opp
      rw [num_neg, Num.neg_neg, h4]
    have h2 : Opp (F64.fma a' b c.neg) (F64.fma a' b' c') := Opp.fma_right (sam_rfl a') h' h3
    exact h1.opp h2

/-- related pairs -/
def SgP (σ : Bool) (a b : F64 × F64) : Prop := Sg σ a.1 b.1 ∧ Sg σ a.2 b.2
/-- related triples -/
def SgT (σ : Bool) (a b : F64 × F64 × F64) : Prop := Sg σ a.1 b.1 ∧ Sg σ a.2.1 b.2.1 ∧ Sg σ a.2.2 b.2.2
/-- related quadruples -/
def SgU (σ : Bool) (a b : F64 × F64 × F64 × F64) : Prop :=
  Sg σ a.1 b.1 ∧ Sg σ a.2.1 b.2.1 ∧ Sg σ a.2.2.1 b.2.2.1 ∧ Sg σ a.2.2.2 b.2.2.2
/-- related Quads -/
def SgQ (σ : Bool) (a b : Quad) : Prop := Sg σ a.c0 b.c0 ∧ Sg σ a.c1 b.c1 ∧ Sg σ a.c2 b.c2 ∧ Sg σ a.c3 b.c3

theorem SgP.twoSum {σ : Bool} {a b a' b' : F64} (h : Sg σ a a') (h' : Sg σ b b') :
    SgP σ (twoSum a b) (twoSum a' b') := by
  have h1 := h.add h'
  have h2 := h1.sub h
  exact ⟨h1, (h.sub (h1.sub h2)).add (h'.sub h2)⟩

theorem SgP.quickTwoSum {σ : Bool} {a b a' b' : F64} (h : Sg σ a a') (h' : Sg σ b b') :
    SgP σ (quickTwoSum a b) (quickTwoSum a' b') := by
  have h1 := h.add h'
  exact ⟨h1, h'.sub (h1.sub h)⟩

theorem SgP.twoProd {σ τ : Bool} {a b a' b' : F64} (h : Sg σ a a') (h' : Sg τ b b') :
    SgP (σ ^^ τ) (twoProd a b) (twoProd a' b') := by
  have h1 := h.mul h'
  exact ⟨h1, h.fma h' h1.neg⟩

theorem SgP.twoSqr {σ : Bool} {a a' : F64} (h : Sg σ a a') : SgP false (twoSqr a) (twoSqr a') := by
  have h1 := SgP.twoProd h h
  rw [Bool.xor_self] at h1
  exact h1

theorem SgP.threeTwoSum {σ : Bool} {a b c a' b' c' : F64} (h : Sg σ a a') (h' : Sg σ b b') (h'' : Sg σ c c') :
    SgP σ (threeTwoSum a b c) (threeTwoSum a' b' c') := by
  have h1 := SgP.twoSum h h'
  have h2 := SgP.twoSum h'' h1.1
  exact ⟨h2.1, h1.2.add h2.2⟩

theorem SgT.threeThreeSum {σ : Bool} {a b c a' b' c' : F64} (h : Sg σ a a') (h' : Sg σ b b') (h'' : Sg σ c c') :
    SgT σ (threeThreeSum a b c) (threeThreeSum a' b' c') := by
  have h1 := SgP.twoSum h h'
  have h2 := SgP.twoSum h'' h1.1
  have h3 := SgP.twoSum h1.2 h2.2
  exact ⟨h2.1, h3.1, h3.2⟩

theorem SgP.fourTwoSum {σ : Bool} {a b c d a' b' c' d' : F64} (ha : Sg σ a a') (hb : Sg σ b b') (hc : Sg σ c c')
    (hd : Sg σ d d') : SgP σ (fourTwoSum a b c d) (fourTwoSum a' b' c' d') := by
  have h1 := SgP.twoSum ha hc
  exact ⟨h1.1, (h1.2.add hb).add hd⟩

theorem SgT.sixThreeSum {σ : Bool} {a b c d e f a' b' c' d' e' f' : F64} (ha : Sg σ a a') (hb : Sg σ b b')
    (hc : Sg σ c c') (hd : Sg σ d d') (he : Sg σ e e') (hf : Sg σ f f') :
    SgT σ (sixThreeSum a b c d e f) (sixThreeSum a' b' c' d' e' f') := by
  have p := SgT.threeThreeSum ha hb hc
  have q := SgT.threeThreeSum hd he hf
  have r := SgP.twoSum p.1 q.1
  have s := SgP.twoSum p.2.1 q.2.1
  have t := SgP.twoSum s.1 r.2
  exact ⟨r.1, t.1, ((p.2.2.add q.2.2).add s.2).add t.2⟩

theorem SgP.nineTwoSum {σ : Bool} {a b c d e f g h i a' b' c' d' e' f' g' h' i' : F64} (ha : Sg σ a a')
    (hb : Sg σ b b') (hc : Sg σ c c') (hd : Sg σ d d') (he : Sg σ e e') (hf : Sg σ f f') (hg : Sg σ g g')
    (hh : Sg σ h h') (hi : Sg σ i i') : SgP σ (nineTwoSum a b c d e f g h i) (nineTwoSum a' b' c' d' e' f' g' h' i') := by
  have p := SgP.twoSum ha hb
  have q := SgP.twoSum hc hd
  have r := SgP.twoSum he hf
  have s := SgP.twoSum hg hh
  have t := SgP.fourTwoSum p.1 p.2 q.1 q.2
  have u := SgP.fourTwoSum r.1 r.2 s.1 s.2
  have v := SgP.fourTwoSum t.1 t.2 u.1 u.2
  have w := SgP.twoSum v.1 hi
  exact ⟨w.1, w.2.add v.2⟩

theorem sg_zero (σ : Bool) : Sg σ F64.zero F64.zero := by cases σ <;> rfl

/-- The test `x == 0.0` only looks at the number. -/
theorem eq_zero_iff (x : F64) : F64.eq x F64.zero = true ↔ num x = .fin 0 := by
  have h := @sameF64_iff x F64.zero
  have h0 : num F64.zero = .fin 0 := rfl
  rw [h0] at h
  rw [← h]
  unfold SameF64
  constructor
  · exact Or.inr
  · rintro (⟨_, h2⟩ | h2)
    · exact absurd h2 (by decide +kernel)
    · exact h2

theorem Sg.eq_zero {σ : Bool} {x y : F64} (h : Sg σ x y) : F64.eq y F64.zero = F64.eq x F64.zero := by
  rw [Bool.eq_iff_iff, eq_zero_iff, eq_zero_iff, h]
  cases σ
  · rfl
  · change (num x).neg = .fin 0 ↔ _
    cases num x with
    | nan => simp [Num.neg]
    | inf s => simp [Num.neg]
    | fin n => simp [Num.neg]

theorem Sg.ne_zero {σ : Bool} {x y : F64} (h : Sg σ x y) : F64.ne y F64.zero = F64.ne x F64.zero := by
  unfold F64.ne; rw [h.eq_zero]

theorem SgT.accumulate {σ : Bool} {a b c a' b' c' : F64} (h : Sg σ a a') (h' : Sg σ b b') (h'' : Sg σ c c') :
    SgT σ (accumulate a b c) (accumulate a' b' c') := by
  have h1 := SgP.twoSum h' h''
  have h2 := SgP.twoSum h h1.1
  unfold Util.accumulate
  simp only []
  rw [h1.2.eq_zero, h2.2.eq_zero]
  split_ifs
  · exact ⟨h2.1, h2.2, h1.2⟩
  · exact ⟨sg_zero σ, h2.1, h2.2⟩
  · exact ⟨sg_zero σ, h2.1, h1.2⟩

theorem SgU.renorm4 {σ : Bool} {a b c d a' b' c' d' : F64} (ha : Sg σ a a') (hb : Sg σ b b') (hc : Sg σ c c')
    (hd : Sg σ d d') : SgU σ (renorm4 a b c d) (renorm4 a' b' c' d') := by
  have h1 := SgP.quickTwoSum hc hd
  have h2 := SgP.quickTwoSum hb h1.1
  have h3 := SgP.quickTwoSum ha h2.1
  have h4 := SgP.quickTwoSum h3.2 h2.2
  have h5 := SgP.quickTwoSum h4.2 h1.2
  have h6 := SgP.quickTwoSum h4.1 h1.2
  have h7 := SgP.quickTwoSum h3.1 h2.2
  have h8 := SgP.quickTwoSum h7.2 h1.2
  have h9 := SgP.quickTwoSum h7.1 h1.2
  unfold Util.renorm4
  simp only []
  rw [h3.2.ne_zero, h4.2.ne_zero, h7.2.ne_zero]
  split_ifs
  · exact ⟨h3.1, h4.1, h5.1, h5.2⟩
  · exact ⟨h3.1, h6.1, h6.2, sg_zero σ⟩
  · exact ⟨h7.1, h8.1, h8.2, sg_zero σ⟩
  · exact ⟨h9.1, h9.2, sg_zero σ, sg_zero σ⟩

theorem SgU.renorm5 {σ : Bool} {a b c d e a' b' c' d' e' : F64} (ha : Sg σ a a') (hb : Sg σ b b') (hc : Sg σ c c')
    (hd : Sg σ d d') (he : Sg σ e e') : SgU σ (renorm5 a b c d e) (renorm5 a' b' c' d' e') := by
  have x4 := SgP.quickTwoSum hd he
  have x3 := SgP.quickTwoSum hc x4.1
  have x2 := SgP.quickTwoSum hb x3.1
  have x1 := SgP.quickTwoSum ha x2.1
  have p1 := SgP.quickTwoSum x1.2 x2.2
  have p2 := SgP.quickTwoSum p1.2 x3.2
  have p3 := SgP.quickTwoSum p2.1 x4.2
  have p4 := SgP.quickTwoSum p1.1 x3.2
  have p5 := SgP.quickTwoSum p4.2 x4.2
  have p6 := SgP.quickTwoSum p4.1 x4.2
  have q1 := SgP.quickTwoSum x1.1 x2.2
  have q2 := SgP.quickTwoSum q1.2 x3.2
  have q3 := SgP.quickTwoSum q2.2 x4.2
  have q4 := SgP.quickTwoSum q2.1 x4.2
  have q5 := SgP.quickTwoSum q1.1 x3.2
  have q6 := SgP.quickTwoSum q5.2 x4.2
  have q7 := SgP.quickTwoSum q5.1 x4.2
  unfold Util.renorm5
  simp only []
  rw [x1.2.ne_zero, p1.2.ne_zero, p2.2.ne_zero, p4.2.ne_zero, q1.2.ne_zero, q2.2.ne_zero, q5.2.ne_zero]
  split_ifs
  · exact ⟨x1.1, p1.1, p2.1, p2.2.add x4.2⟩
  · exact ⟨x1.1, p1.1, p3.1, p3.2⟩
  · exact ⟨x1.1, p4.1, p5.1, p5.2⟩
  · exact ⟨x1.1, p6.1, p6.2, sg_zero σ⟩
  · exact ⟨q1.1, q2.1, q3.1, q3.2⟩
  · exact ⟨q1.1, q4.1, q4.2, sg_zero σ⟩
  · exact ⟨q5.1, q6.1, q6.2, sg_zero σ⟩
  · exact ⟨q7.1, q7.2, sg_zero σ, sg_zero σ⟩

/-! ### The merge -/

/-- Magnitude of a number. -/
def Num.abs : Num → Num
  | .nan => .nan
  | .inf _ => .inf false
  | .fin n => .fin |n|

theorem num_abs (x : F64) : num x.abs = (num x).abs := by
  cases x with
  | nan s => rfl
  | inf s => rfl
  | fin s m h => cases s <;> simp [F64.abs, num, Num.abs]

theorem Num.abs_sg (σ : Bool) (n : Num) : (n.sg σ).abs = n.abs := by
  cases σ
  · rfl
  · cases n <;> simp [Num.sg, Num.neg, Num.abs]

/-- `x < y` only looks at the numbers. -/
def Num.lt : Num → Num → Bool
  | .nan, _ => false
  | _, .nan => false
  | .inf s, .inf t => s && !t
  | .inf s, .fin _ => s
  | .fin _, .inf t => !t
  | .fin m, .fin n => decide (m < n)

theorem num_lt (x y : F64) : F64.lt x y = (num x).lt (num y) := by
  have hpos : (0:ℤ) < 2 ^ 2098 := Int.pow_pos (by norm_num)
  cases x with
  | nan s => cases y <;> rfl
  | inf s =>
    cases y with
    | nan t => rfl
    | inf t =>
      simp only [F64.lt, F64.key, num, Num.lt]
      generalize (2:ℤ) ^ 2098 = P at hpos
      cases s <;> cases t <;> simp <;> omega
    | fin t n hn =>
      have h1 : (n : ℤ) < 2 ^ 2098 := by
        have h2 := (ovf_natCast (m := n)).mpr hn.1
        unfold ovf at h2; exact h2
      simp only [F64.lt, F64.key, num, Num.lt]
      generalize (2:ℤ) ^ 2098 = P at *
      cases s <;> cases t <;> simp <;> omega
  | fin s m hm =>
    have h1 : (m : ℤ) < 2 ^ 2098 := by
      have h2 := (ovf_natCast (m := m)).mpr hm.1
      unfold ovf at h2; exact h2
    cases y with
    | nan t => rfl
    | inf t =>
      simp only [F64.lt, F64.key, num, Num.lt]
      generalize (2:ℤ) ^ 2098 = P at *
      cases s <;> cases t <;> simp <;> omega
    | fin t n hn => rfl

theorem Sg.gt_abs {σ : Bool} {x y x' y' : F64} (h : Sg σ x x') (h' : Sg σ y y') :
    F64.gt x'.abs y'.abs = F64.gt x.abs y.abs := by
  unfold F64.gt
  rw [num_lt, num_lt, num_abs, num_abs, num_abs, num_abs, h, h', Num.abs_sg, Num.abs_sg]

/-- related lists -/
def SgL (σ : Bool) : List F64 → List F64 → Prop := List.Forall₂ (Sg σ)

theorem SgL.pick {σ : Bool} {l m l' m' : List F64} (h : SgL σ l l') (h' : SgL σ m m') :
    Sg σ (Quad.pick l m).1 (Quad.pick l' m').1 ∧ SgL σ (Quad.pick l m).2.1 (Quad.pick l' m').2.1 ∧
      SgL σ (Quad.pick l m).2.2 (Quad.pick l' m').2.2 := by
  cases h with
  | nil =>
    cases h' with
    | nil => exact ⟨sg_zero σ, .nil, .nil⟩
    | cons hy hys => exact ⟨hy, .nil, hys⟩
  | cons hx hxs =>
    cases h' with
    | nil => exact ⟨hx, hxs, .nil⟩
    | cons hy hys =>
      simp only [Quad.pick]
      rw [Sg.gt_abs hx hy]
      split_ifs
      · exact ⟨hx, hxs, .cons hy hys⟩
      · exact ⟨hy, .cons hx hxs, hys⟩

theorem SgL.append {σ : Bool} {l m l' m' : List F64} (h : SgL σ l l') (h' : SgL σ m m') : SgL σ (l ++ m) (l' ++ m') := by
  induction h with
  | nil => exact h'
  | cons hx _ ih => exact .cons hx ih

theorem SgL.length {σ : Bool} {l l' : List F64} (h : SgL σ l l') : l'.length = l.length :=
  (List.Forall₂.length_eq h).symm

theorem SgL.isEmpty {σ : Bool} {l l' : List F64} (h : SgL σ l l') : l'.isEmpty = l.isEmpty := by
  cases h <;> rfl

theorem SgL.addLoop {σ : Bool} (fuel : ℕ) : ∀ {u v u' v' : F64} {la lb x la' lb' x' : List F64}, Sg σ u u' → Sg σ v v' →
    SgL σ la la' → SgL σ lb lb' → SgL σ x x' →
    SgL σ (Quad.addLoop fuel u v la lb x).1 (Quad.addLoop fuel u' v' la' lb' x').1 ∧
      SgL σ (Quad.addLoop fuel u v la lb x).2.1 (Quad.addLoop fuel u' v' la' lb' x').2.1 ∧
      SgL σ (Quad.addLoop fuel u v la lb x).2.2 (Quad.addLoop fuel u' v' la' lb' x').2.2 := by
  induction fuel with
  | zero => intro u v u' v' la lb x la' lb' x' _ _ ha hb hx; exact ⟨hx, ha, hb⟩
  | succ fuel ih =>
    intro u v u' v' la lb x la' lb' x' hu hv ha hb hx
    unfold Quad.addLoop
    rw [hx.length, ha.isEmpty, hb.isEmpty]
    have hp := SgL.pick ha hb
    have hacc := SgT.accumulate hu hv hp.1
    by_cases h4 : x.length < 4
    · rw [if_pos h4, if_pos h4]
      by_cases he : (la.isEmpty && lb.isEmpty) = true
      · rw [if_pos he, if_pos he]
        refine ⟨?_, ha, hb⟩
        change SgL σ (if _ then _ else _) (if _ then _ else _)
        split_ifs
        · exact hx.append (.cons hu (.cons hv .nil))
        · exact hx.append (.cons hu .nil)
      · rw [if_neg he, if_neg he]
        simp only []
        rw [hacc.1.ne_zero]
        refine ih hacc.2.1 hacc.2.2 hp.2.1 hp.2.2 ?_
        split_ifs
        · exact hx.append (.cons hacc.1 .nil)
        · exact hx
    · rw [if_neg h4, if_neg h4]
      exact ⟨hx, ha, hb⟩

theorem SgL.getD {σ : Bool} {l l' : List F64} (h : SgL σ l l') (i : ℕ) : Sg σ (l.getD i F64.zero) (l'.getD i F64.zero) := by
  induction h generalizing i with
  | nil => simpa using sg_zero σ
  | cons hx _ ih =>
    cases i with
    | zero => simpa using hx
    | succ i => simpa using ih i

theorem SgL.foldl {σ : Bool} {l l' : List F64} (h : SgL σ l l') {z z' : F64} (hz : Sg σ z z') :
    Sg σ (l.foldl F64.add z) (l'.foldl F64.add z') := by
  induction h generalizing z z' with
  | nil => exact hz
  | cons hx _ ih => exact ih (hz.add hx)

/-! ### Addition -/

/-- The part of `add` after the prefix. -/
def qaddMain (a b : Quad) : Quad :=
  let (u, la, lb) := Quad.pick [a.c0, a.c1, a.c2, a.c3] [b.c0, b.c1, b.c2, b.c3]
  let (v, la, lb) := Quad.pick la lb
  let (u, v) := renorm2 u v
  let (x, la, lb) := Quad.addLoop 8 u v la lb []
  let x3 := lb.foldl F64.add (la.foldl F64.add (x.getD 3 F64.zero))
  let (p, q, r, s) := renorm4 (x.getD 0 F64.zero) (x.getD 1 F64.zero) (x.getD 2 F64.zero) x3
  ⟨p, q, r, s⟩

/-- A result of a prefix function of `Double` as a `Quad`. -/
def upQ (d : Double) : Quad := ⟨d.hi, F64.zero, F64.zero, F64.zero⟩
/-- The leading component of a Quad as a Double. -/
def hdQ (q : Quad) : Double := ⟨q.c0, F64.zero⟩

theorem Quad.preAdd_eq (a b : Quad) : Quad.preAdd a b = (Double.preAdd (hdQ a) (hdQ b)).map upQ := by
  unfold Quad.preAdd Double.preAdd
  change (if (a.isNan || b.isNan) = true then _ else _) = Option.map upQ (if (a.isNan || b.isNan) = true then _ else _)
  have e1 : Double.isInfinite (hdQ a) = a.isInfinite := rfl
  have e2 : Double.isInfinite (hdQ b) = b.isInfinite := rfl
  have e3 : Double.isSignPositive (hdQ a) = a.isSignPositive := rfl
  have e4 : Double.isSignPositive (hdQ b) = b.isSignPositive := rfl
  have e5 : Double.isSignNegative (hdQ b) = b.isSignNegative := rfl
  rw [e1, e2, e3, e4, e5]
  split_ifs <;> rfl

theorem Quad.preMul_eq (a b : Quad) : Quad.preMul a b = (Double.preMul (hdQ a) (hdQ b)).map upQ := by
  unfold Quad.preMul Double.preMul
  have e0 : (Double.isNan (hdQ a)) = a.isNan := rfl
  have e0' : (Double.isNan (hdQ b)) = b.isNan := rfl
  have e1 : Double.isInfinite (hdQ a) = a.isInfinite := rfl
  have e2 : Double.isInfinite (hdQ b) = b.isInfinite := rfl
  have e3 : Double.isSignPositive (hdQ a) = a.isSignPositive := rfl
  have e4 : Double.isSignPositive (hdQ b) = b.isSignPositive := rfl
  have e5 : Double.isZero (hdQ a) = a.isZero := rfl
  have e6 : Double.isZero (hdQ b) = b.isZero := rfl
  rw [e0, e0', e1, e2, e3, e4, e5, e6]
  split_ifs <;> rfl

theorem Quad.preDiv_eq (a b : Quad) : Quad.preDiv a b = (Double.preDiv (hdQ a) (hdQ b)).map upQ := by
  unfold Quad.preDiv Double.preDiv
  have e0 : (Double.isNan (hdQ a)) = a.isNan := rfl
  have e0' : (Double.isNan (hdQ b)) = b.isNan := rfl
  have e1 : Double.isInfinite (hdQ a) = a.isInfinite := rfl
  have e2 : Double.isInfinite (hdQ b) = b.isInfinite := rfl
  have e3 : Double.isSignPositive (hdQ a) = a.isSignPositive := rfl
  have e4 : Double.isSignPositive (hdQ b) = b.isSignPositive := rfl
  have e5 : Double.isZero (hdQ a) = a.isZero := rfl
  have e6 : Double.isZero (hdQ b) = b.isZero := rfl
  have e7 : Double.isSignNegative (hdQ a) = a.isSignNegative := rfl
  rw [e0, e0', e1, e2, e3, e4, e5, e6, e7]
  split_ifs <;> rfl

theorem qadd_eq (a b : Quad) : a + b = ((preAddN (num a.c0) (num b.c0)).map upQ).getD (qaddMain a b) := by
  change Quad.add a b = _
  unfold Quad.add
  rw [Quad.preAdd_eq, preAdd_eq]
  change _ = ((preAddN (num (hdQ a).hi) (num (hdQ b).hi)).map upQ).getD _
  cases (preAddN (num (hdQ a).hi) (num (hdQ b).hi)).map upQ with
  | none => rfl
  | some r => rfl

theorem SgQ.addMain {σ : Bool} {a b a' b' : Quad} (h : SgQ σ a a') (h' : SgQ σ b b') :
    SgQ σ (qaddMain a b) (qaddMain a' b') := by
  have ha : SgL σ [a.c0, a.c1, a.c2, a.c3] [a'.c0, a'.c1, a'.c2, a'.c3] :=
    .cons h.1 (.cons h.2.1 (.cons h.2.2.1 (.cons h.2.2.2 .nil)))
  have hb : SgL σ [b.c0, b.c1, b.c2, b.c3] [b'.c0, b'.c1, b'.c2, b'.c3] :=
    .cons h'.1 (.cons h'.2.1 (.cons h'.2.2.1 (.cons h'.2.2.2 .nil)))
  have p1 := SgL.pick ha hb
  have p2 := SgL.pick p1.2.1 p1.2.2
  have q := SgP.quickTwoSum p1.1 p2.1
  have l := SgL.addLoop 8 q.1 q.2 p2.2.1 p2.2.2 (.nil : SgL σ [] [])
  have f := l.2.2.foldl (l.2.1.foldl (l.1.getD 3))
  exact SgU.renorm4 (l.1.getD 0) (l.1.getD 1) (l.1.getD 2) f

/-- Related options. -/
def OptSg (σ : Bool) : Option Quad → Option Quad → Prop
  | none, none => True
  | some a, some b => SgQ σ a b
  | _, _ => False

theorem SgQ.getD {σ : Bool} {o o' : Option Quad} {a b : Quad} (h : OptSg σ o o') (h' : SgQ σ a b) :
    SgQ σ (o.getD a) (o'.getD b) := by
  cases o <;> cases o'
  · exact h'
  · exact h.elim
  · exact h.elim
  · exact h

theorem OptOpp.up {o o' : Option Double} (h : OptOpp o o') : OptSg true (o.map upQ) (o'.map upQ) := by
  cases o <;> cases o'
  · trivial
  · exact h.elim
  · exact h.elim
  · exact ⟨h.1, sg_zero _, sg_zero _, sg_zero _⟩

theorem OptSam.up {o o' : Option Double} (h : OptSam o o') : OptSg false (o.map upQ) (o'.map upQ) := by
  cases o <;> cases o'
  · trivial
  · exact h.elim
  · exact h.elim
  · exact ⟨h.1, sg_zero _, sg_zero _, sg_zero _⟩

theorem optSg_rfl (o : Option Double) : OptSg false (o.map upQ) (o.map upQ) := by
  cases o
  · trivial
  · exact ⟨rfl, rfl, rfl, rfl⟩

theorem SgQ.add {σ : Bool} {a b a' b' : Quad} (h : SgQ σ a a') (h' : SgQ σ b b') : SgQ σ (a + b) (a' + b') := by
  rw [qadd_eq, qadd_eq]
  refine SgQ.getD ?_ (SgQ.addMain h h')
  rw [h.1, h'.1]
  cases σ
  · exact optSg_rfl _
  · exact (preAddN_opp _ _).up

theorem sgQ_neg (a : Quad) : SgQ true a (-a) := ⟨num_neg _, num_neg _, num_neg _, num_neg _⟩
theorem sgQ_rfl (a : Quad) : SgQ false a a := ⟨rfl, rfl, rfl, rfl⟩

theorem Sg.comp {σ τ : Bool} {x y z : F64} (h : Sg σ x y) (h' : Sg τ y z) : Sg (σ ^^ τ) x z := by
  unfold Sg at *
  rw [h', h]
  cases σ <;> cases τ <;> simp [Num.sg, Num.neg_neg]
theorem Sg.symm {σ : Bool} {x y : F64} (h : Sg σ x y) : Sg σ y x := by
  unfold Sg at *
  rw [h]
  cases σ <;> simp [Num.sg, Num.neg_neg]
theorem SgQ.comp {σ τ : Bool} {x y z : Quad} (h : SgQ σ x y) (h' : SgQ τ y z) : SgQ (σ ^^ τ) x z :=
  ⟨h.1.comp h'.1, h.2.1.comp h'.2.1, h.2.2.1.comp h'.2.2.1, h.2.2.2.comp h'.2.2.2⟩
theorem SgQ.symm {σ : Bool} {x y : Quad} (h : SgQ σ x y) : SgQ σ y x :=
  ⟨h.1.symm, h.2.1.symm, h.2.2.1.symm, h.2.2.2.symm⟩

theorem SgQ.neg {σ : Bool} {a a' : Quad} (h : SgQ σ a a') : SgQ σ (-a) (-a') :=
  ⟨h.1.neg, h.2.1.neg, h.2.2.1.neg, h.2.2.2.neg⟩

theorem SgQ.sub {σ : Bool} {a b a' b' : Quad} (h : SgQ σ a a') (h' : SgQ σ b b') : SgQ σ (a - b) (a' - b') :=
  h.add h'.neg

/-! ### Multiplication -/

/-- The part of `mul` after the prefix. -/
def qmulMain (a b : Quad) : Quad :=
  let (h0, l0) := twoProd a.c0 b.c0
  let (h1, l1) := twoProd a.c0 b.c1
  let (h2, l2) := twoProd a.c1 b.c0
  let (h3, l3) := twoProd a.c0 b.c2
  let (h4, l4) := twoProd a.c1 b.c1
  let (h5, l5) := twoProd a.c2 b.c0
  let (h6, l6) := twoProd a.c0 b.c3
  let (h7, l7) := twoProd a.c1 b.c2
  let (h8, l8) := twoProd a.c2 b.c1
  let (h9, l9) := twoProd a.c3 b.c0
  let ha := F64.mul a.c1 b.c3
  let hb := F64.mul a.c2 b.c2
  let hc := F64.mul a.c3 b.c1
  let r0 := h0
  let (r1, t0, t1) := threeThreeSum h1 h2 l0
  let (r2, t2, t3) := sixThreeSum t0 h3 h4 h5 l1 l2
  let (r3, t4) := nineTwoSum t1 t2 h6 h7 h8 h9 l3 l4 l5
  let r4 := F64.add (F64.add (F64.add (F64.add (F64.add (F64.add (F64.add (F64.add t3 t4) ha) hb) hc) l6) l7) l8) l9
  let (p, q, r, s) := renorm5 r0 r1 r2 r3 r4
  ⟨p, q, r, s⟩

theorem qmul_eq (a b : Quad) : a * b = ((Double.preMul (hdQ a) (hdQ b)).map upQ).getD (qmulMain a b) := by
  change Quad.mul a b = _
  unfold Quad.mul
  rw [Quad.preMul_eq]
  cases (Double.preMul (hdQ a) (hdQ b)).map upQ with
  | none => rfl
  | some r => rfl

theorem SgQ.mulMain {σ τ : Bool} {a b a' b' : Quad} (h : SgQ σ a a') (h' : SgQ τ b b') :
    SgQ (σ ^^ τ) (qmulMain a b) (qmulMain a' b') := by
  have p0 := SgP.twoProd h.1 h'.1
  have p1 := SgP.twoProd h.1 h'.2.1
  have p2 := SgP.twoProd h.2.1 h'.1
  have p3 := SgP.twoProd h.1 h'.2.2.1
  have p4 := SgP.twoProd h.2.1 h'.2.1
  have p5 := SgP.twoProd h.2.2.1 h'.1
  have p6 := SgP.twoProd h.1 h'.2.2.2
  have p7 := SgP.twoProd h.2.1 h'.2.2.1
  have p8 := SgP.twoProd h.2.2.1 h'.2.1
  have p9 := SgP.twoProd h.2.2.2 h'.1
  have ha := Sg.mul h.2.1 h'.2.2.2
  have hb := Sg.mul h.2.2.1 h'.2.2.1
  have hc := Sg.mul h.2.2.2 h'.2.1
  have r1 := SgT.threeThreeSum p1.1 p2.1 p0.2
  have r2 := SgT.sixThreeSum r1.2.1 p3.1 p4.1 p5.1 p1.2 p2.2
  have r3 := SgP.nineTwoSum r1.2.2 r2.2.1 p6.1 p7.1 p8.1 p9.1 p3.2 p4.2 p5.2
  have r4 := (((((((r2.2.2.add r3.2).add ha).add hb).add hc).add p6.2).add p7.2).add p8.2).add p9.2
  exact SgU.renorm5 p0.1 r1.1 r2.1 r3.1 r4

theorem preMul_optSam {a b a' b' : Double} (h : Sam a.hi a'.hi) (h' : Sam b.hi b'.hi) :
    OptSam (Double.preMul a b) (Double.preMul a' b') := by
  have h1 := preMul_eq a b
  have h2 := preMul_eq a' b'
  rw [h, h'] at h2
  revert h1 h2
  cases Double.preMul a b <;> cases Double.preMul a' b' <;> cases preMulN (num a.hi) (num b.hi) <;>
    intro h1 h2
  all_goals first | trivial | exact h1.elim | exact h2.elim | skip
  exact ⟨h2.1.symm.trans h1.1, h2.2.symm.trans h1.2⟩

theorem preMul_optOpp_left {a b a' b' : Double} (h : Opp a.hi a'.hi) (h' : Sam b.hi b'.hi) :
    OptOpp (Double.preMul a b) (Double.preMul a' b') := by
  have h1 := preMul_eq a b
  have h2 := preMul_eq a' b'
  have h3 := preMulN_opp_left (num a.hi) (num b.hi)
  rw [h, h'] at h2
  revert h1 h2 h3
  cases Double.preMul a b <;> cases Double.preMul a' b' <;> cases preMulN (num a.hi) (num b.hi) <;>
    cases preMulN (num a.hi).neg (num b.hi) <;> intro h1 h2 h3
  all_goals first | trivial | exact h1.elim | exact h2.elim | exact h3.elim | skip
  exact (h3.samD (SamD.symm h2)).symm.samD (SamD.symm h1) |>.symm

theorem preMul_optOpp_right {a b a' b' : Double} (h : Sam a.hi a'.hi) (h' : Opp b.hi b'.hi) :
    OptOpp (Double.preMul a b) (Double.preMul a' b') := by
  have h1 := preMul_eq a b
  have h2 := preMul_eq a' b'
  have h3 := preMulN_opp_right (num a.hi) (num b.hi)
  rw [h, h'] at h2
  revert h1 h2 h3
  cases Double.preMul a b <;> cases Double.preMul a' b' <;> cases preMulN (num a.hi) (num b.hi) <;>
    cases preMulN (num a.hi) (num b.hi).neg <;> intro h1 h2 h3
  all_goals first | trivial | exact h1.elim | exact h2.elim | exact h3.elim | skip
  exact (h3.samD (SamD.symm h2)).symm.samD (SamD.symm h1) |>.symm

theorem SgQ.mul_sam {a b a' b' : Quad} (h : SgQ false a a') (h' : SgQ false b b') : SgQ false (a * b) (a' * b') := by
  rw [qmul_eq, qmul_eq]
  exact SgQ.getD (preMul_optSam (a := hdQ a) (b := hdQ b) (a' := hdQ a') (b' := hdQ b') h.1 h'.1).up (SgQ.mulMain h h')
theorem SgQ.mul_left {a b a' b' : Quad} (h : SgQ true a a') (h' : SgQ false b b') : SgQ true (a * b) (a' * b') := by
  rw [qmul_eq, qmul_eq]
  exact SgQ.getD (preMul_optOpp_left (a := hdQ a) (b := hdQ b) (a' := hdQ a') (b' := hdQ b') h.1 h'.1).up (SgQ.mulMain h h')
theorem SgQ.mul_right {a b a' b' : Quad} (h : SgQ false a a') (h' : SgQ true b b') : SgQ true (a * b) (a' * b') := by
  rw [qmul_eq, qmul_eq]
  exact SgQ.getD (preMul_optOpp_right (a := hdQ a) (b := hdQ b) (a' := hdQ a') (b' := hdQ b') h.1 h'.1).up (SgQ.mulMain h h')

/-! ### Division -/


end Verif
