import Verif.Proofs.Same

/-!
# Opposite and equal numbers through the arithmetic

`Opp x y`: `y` is the number `-x` (zero signs ignored). `OppD` is the same for the two components of a `Double`.
-/

namespace Verif

open F64 Prim Util

/-- `y` is the number `-x`. -/
def Opp (x y : F64) : Prop := num y = (num x).neg

/-- Same number. -/
def Sam (x y : F64) : Prop := num y = num x

/-- Component-wise opposite. -/
def OppD (a b : Double) : Prop := Opp a.hi b.hi ∧ Opp a.lo b.lo

/-- Component-wise same. -/
def SamD (a b : Double) : Prop := Sam a.hi b.hi ∧ Sam a.lo b.lo

theorem samD_iff {a b : Double} : SamD a b ↔ SameDouble b a := by
  unfold SamD Sam SameDouble; rw [sameF64_iff, sameF64_iff]

theorem opp_neg (x : F64) : Opp x x.neg := num_neg x
theorem sam_rfl (x : F64) : Sam x x := rfl
theorem samD_rfl (x : Double) : SamD x x := ⟨rfl, rfl⟩
theorem oppD_neg (d : Double) : OppD d (-d) := ⟨num_neg _, num_neg _⟩

theorem Opp.symm {x y : F64} (h : Opp x y) : Opp y x := by unfold Opp at *; rw [h, Num.neg_neg]
theorem OppD.symm {x y : Double} (h : OppD x y) : OppD y x := ⟨h.1.symm, h.2.symm⟩

theorem Opp.sam {x y z : F64} (h : Opp x y) (h' : Sam y z) : Opp x z := by unfold Opp Sam at *; rw [h', h]
theorem Opp.opp {x y z : F64} (h : Opp x y) (h' : Opp y z) : Sam x z := by
  unfold Opp Sam at *; rw [h', h, Num.neg_neg]
theorem OppD.opp {x y z : Double} (h : OppD x y) (h' : OppD y z) : SamD x z := ⟨h.1.opp h'.1, h.2.opp h'.2⟩
theorem SamD.trans {x y z : Double} (h : SamD x y) (h' : SamD y z) : SamD x z :=
  ⟨h'.1.trans h.1, h'.2.trans h.2⟩
theorem SamD.symm {x y : Double} (h : SamD x y) : SamD y x := ⟨h.1.symm, h.2.symm⟩
theorem OppD.samD {x y z : Double} (h : OppD x y) (h' : SamD y z) : OppD x z := ⟨h.1.sam h'.1, h.2.sam h'.2⟩

theorem Opp.add {a b a' b' : F64} (h : Opp a a') (h' : Opp b b') : Opp (F64.add a b) (F64.add a' b') := by
  unfold Opp at *; rw [num_add, num_add, h, h', Num.add_neg]
theorem Sam.add {a b a' b' : F64} (h : Sam a a') (h' : Sam b b') : Sam (F64.add a b) (F64.add a' b') := by
  unfold Sam at *; rw [num_add, num_add, h, h']
theorem Opp.neg {a a' : F64} (h : Opp a a') : Opp a.neg a'.neg := by
  unfold Opp at *; rw [num_neg, num_neg, h]
theorem Sam.neg {a a' : F64} (h : Sam a a') : Sam a.neg a'.neg := by
  unfold Sam at *; rw [num_neg, num_neg, h]
theorem Opp.sub {a b a' b' : F64} (h : Opp a a') (h' : Opp b b') : Opp (F64.sub a b) (F64.sub a' b') := h.add h'.neg
theorem Sam.sub {a b a' b' : F64} (h : Sam a a') (h' : Sam b b') : Sam (F64.sub a b) (F64.sub a' b') := h.add h'.neg

theorem Opp.mul_left {a b a' b' : F64} (h : Opp a a') (h' : Sam b b') : Opp (F64.mul a b) (F64.mul a' b') := by
  unfold Opp Sam at *; rw [num_mul, num_mul, h, h', Num.mul_neg_left]
theorem Opp.mul_right {a b a' b' : F64} (h : Sam a a') (h' : Opp b b') : Opp (F64.mul a b) (F64.mul a' b') := by
  unfold Opp Sam at *; rw [num_mul, num_mul, h, h', Num.mul_neg_right]
theorem Sam.mul {a b a' b' : F64} (h : Sam a a') (h' : Sam b b') : Sam (F64.mul a b) (F64.mul a' b') := by
  unfold Sam at *; rw [num_mul, num_mul, h, h']
theorem Sam.mul_comm (a b : F64) : Sam (F64.mul a b) (F64.mul b a) := by
  unfold Sam; rw [num_mul, num_mul, Num.mul_comm]
theorem Sam.add_comm (a b : F64) : Sam (F64.add a b) (F64.add b a) := by
  unfold Sam; rw [num_add, num_add, Num.add_comm]

theorem Num.fma_neg_left (a b c : Num) : a.neg.fma b c.neg = (a.fma b c).neg := by
  cases a with
  | nan => cases b <;> cases c <;> rfl
  | inf s =>
    cases b with
    | nan => cases c <;> rfl
    | inf t => cases c with
      | nan => rfl
      | inf u => cases s <;> cases t <;> cases u <;> rfl
      | fin l => cases s <;> cases t <;> rfl
    | fin n =>
      by_cases hn : n = 0
      · subst hn; cases c <;> rfl
      · have e : ∀ (s : Bool) (c : Num), c ≠ .nan → Num.fma (.inf s) (.fin n) c =
            Num.add (.inf (s != decide (n < 0))) c := by
          intro s c hc
          cases c with
          | nan => exact absurd rfl hc
          | inf u => simp only [Num.fma]; rw [if_neg hn]
          | fin l => simp only [Num.fma]; rw [if_neg hn]
        cases c with
        | nan => rfl
        | inf u =>
          change Num.fma (.inf !s) (.fin n) (.inf !u) = (Num.fma (.inf s) (.fin n) (.inf u)).neg
          rw [e _ _ (by simp), e _ _ (by simp), ← Num.add_neg]
          cases s <;> simp [Num.neg]
        | fin l =>
          change Num.fma (.inf !s) (.fin n) (.fin (-l)) = (Num.fma (.inf s) (.fin n) (.fin l)).neg
          rw [e _ _ (by simp), e _ _ (by simp), ← Num.add_neg]
          cases s <;> simp [Num.neg]
  | fin m =>
    cases b with
    | nan => cases c <;> rfl
    | inf t =>
      by_cases hm : m = 0
      · subst hm; cases c <;> rfl
      · have e : ∀ (m : ℤ) (c : Num), m ≠ 0 → c ≠ .nan → Num.fma (.fin m) (.inf t) c =
            Num.add (.inf (decide (m < 0) != t)) c := by
          intro m c hm hc
          cases c with
          | nan => exact absurd rfl hc
          | inf u => simp only [Num.fma]; rw [if_neg hm]
          | fin l => simp only [Num.fma]; rw [if_neg hm]
        have hd : decide (-m < 0) = !decide (m < 0) := by
          rcases lt_or_gt_of_ne hm with h | h
          · simp [h, h.le]
          · simp [h, h.le]
        cases c with
        | nan => rfl
        | inf u =>
          change Num.fma (.fin (-m)) (.inf t) (.inf !u) = (Num.fma (.fin m) (.inf t) (.inf u)).neg
          rw [e _ _ (by omega) (by simp), e _ _ hm (by simp), ← Num.add_neg, hd]
          cases t <;> simp [Num.neg]
        | fin l =>
          change Num.fma (.fin (-m)) (.inf t) (.fin (-l)) = (Num.fma (.fin m) (.inf t) (.fin l)).neg
          rw [e _ _ (by omega) (by simp), e _ _ hm (by simp), ← Num.add_neg, hd]
          cases t <;> simp [Num.neg]
    | fin n =>
      cases c with
      | nan => rfl
      | inf u => rfl
      | fin l =>
        change rndNum (((-m : ℤ) * n : ℚ) / one' + (-l : ℤ)) = (rndNum ((m * n : ℚ) / one' + l)).neg
        rw [← rndNum_neg]; congr 1; push_cast; ring

theorem Num.fma_comm (a b c : Num) : a.fma b c = b.fma a c := by
  cases a <;> cases b <;> cases c <;> simp only [Num.fma]
  all_goals first
    | rfl
    | (rename_i s t u; cases s <;> cases t <;> rfl)
    | (split_ifs <;> first | rfl | simp [Bool.xor_comm])
    | (rw [_root_.mul_comm])

theorem Num.fma_neg_right (a b c : Num) : a.fma b.neg c.neg = (a.fma b c).neg := by
  rw [Num.fma_comm, Num.fma_neg_left, Num.fma_comm]

theorem Opp.fma_left {a b c a' b' c' : F64} (h : Opp a a') (h' : Sam b b') (h'' : Opp c c') :
    Opp (F64.fma a b c) (F64.fma a' b' c') := by
  unfold Opp Sam at *; rw [num_fma, num_fma, h, h', h'', Num.fma_neg_left]
theorem Opp.fma_right {a b c a' b' c' : F64} (h : Sam a a') (h' : Opp b b') (h'' : Opp c c') :
    Opp (F64.fma a b c) (F64.fma a' b' c') := by
  unfold Opp Sam at *; rw [num_fma, num_fma, h, h', h'', Num.fma_neg_right]
theorem Sam.fma {a b c a' b' c' : F64} (h : Sam a a') (h' : Sam b b') (h'' : Sam c c') :
    Sam (F64.fma a b c) (F64.fma a' b' c') := by
  unfold Sam at *; rw [num_fma, num_fma, h, h', h'']

/-! ### Primitives -/

/-- Componentwise for pairs. -/
def OppP (a b : F64 × F64) : Prop := Opp a.1 b.1 ∧ Opp a.2 b.2
def SamP (a b : F64 × F64) : Prop := Sam a.1 b.1 ∧ Sam a.2 b.2

theorem OppP.twoSum {a b a' b' : F64} (h : Opp a a') (h' : Opp b b') : OppP (twoSum a b) (twoSum a' b') := by
  have hs := h.add h'
  have hv := hs.sub h
  exact ⟨hs, (h.sub (hs.sub hv)).add (h'.sub hv)⟩
theorem SamP.twoSum {a b a' b' : F64} (h : Sam a a') (h' : Sam b b') : SamP (twoSum a b) (twoSum a' b') := by
  have hs := h.add h'
  have hv := hs.sub h
  exact ⟨hs, (h.sub (hs.sub hv)).add (h'.sub hv)⟩
theorem OppP.twoDiff {a b a' b' : F64} (h : Opp a a') (h' : Opp b b') : OppP (twoDiff a b) (twoDiff a' b') := by
  have hs := h.sub h'
  have hv := hs.sub h
  exact ⟨hs, (h.sub (hs.sub hv)).sub (h'.add hv)⟩
theorem SamP.twoDiff {a b a' b' : F64} (h : Sam a a') (h' : Sam b b') : SamP (twoDiff a b) (twoDiff a' b') := by
  have hs := h.sub h'
  have hv := hs.sub h
  exact ⟨hs, (h.sub (hs.sub hv)).sub (h'.add hv)⟩
theorem OppP.quickTwoSum {a b a' b' : F64} (h : Opp a a') (h' : Opp b b') :
    OppP (quickTwoSum a b) (quickTwoSum a' b') := by
  have hs := h.add h'
  exact ⟨hs, h'.sub (hs.sub h)⟩
theorem SamP.quickTwoSum {a b a' b' : F64} (h : Sam a a') (h' : Sam b b') :
    SamP (quickTwoSum a b) (quickTwoSum a' b') := by
  have hs := h.add h'
  exact ⟨hs, h'.sub (hs.sub h)⟩
theorem OppP.twoProd_left {a b a' b' : F64} (h : Opp a a') (h' : Sam b b') : OppP (twoProd a b) (twoProd a' b') :=
  ⟨h.mul_left h', h.fma_left h' (h.mul_left h').neg⟩
theorem OppP.twoProd_right {a b a' b' : F64} (h : Sam a a') (h' : Opp b b') : OppP (twoProd a b) (twoProd a' b') :=
  ⟨Opp.mul_right h h', Opp.fma_right h h' (Opp.mul_right h h').neg⟩
theorem SamP.twoProd {a b a' b' : F64} (h : Sam a a') (h' : Sam b b') : SamP (twoProd a b) (twoProd a' b') :=
  ⟨h.mul h', h.fma h' (h.mul h').neg⟩

/-- `two_diff(a, b)` and `two_sum(a, -b)` are the same numbers. -/
theorem SamP.twoDiff_twoSum (a b : F64) : SamP (Prim.twoDiff a b) (Prim.twoSum a b.neg) := by
  refine ⟨rfl, ?_⟩
  unfold Prim.twoDiff Prim.twoSum Sam
  simp only []
  set s := F64.sub a b with hs
  have : F64.add a b.neg = s := rfl
  rw [this]
  set v := F64.sub s a
  have e : num (F64.sub b.neg v) = (num (F64.add b v)).neg := by
    rw [num_sub, num_neg, num_add, Num.add_neg]
  rw [num_add, e, num_sub _ (F64.add b v)]

/-! ### The special-case prefixes as functions of the numbers -/

/-- What the `pre_add` prefix does, as a function of numbers. -/
def preAddN : Num → Num → Option Double
  | .nan, _ => some Double.NAN
  | _, .nan => some Double.NAN
  | .inf false, .inf false => some Double.INFINITY
  | .inf true, .inf true => some Double.NEG_INFINITY
  | .inf _, .inf _ => some Double.NAN
  | .inf false, .fin _ => some Double.INFINITY
  | .inf true, .fin _ => some Double.NEG_INFINITY
  | .fin _, .inf false => some Double.INFINITY
  | .fin _, .inf true => some Double.NEG_INFINITY
  | .fin _, .fin _ => none

theorem preAdd_eq (a b : Double) : Double.preAdd a b = preAddN (num a.hi) (num b.hi) := by
  obtain ⟨ah, al⟩ := a
  obtain ⟨bh, bl⟩ := b
  cases ah with
  | nan s => rfl
  | inf s => cases bh with
    | nan t => rfl
    | inf t => cases s <;> cases t <;> rfl
    | fin t n hn => cases s <;> rfl
  | fin s m hm => cases bh with
    | nan t => rfl
    | inf t => cases t <;> rfl
    | fin t n hn => rfl

theorem preSub_eq (a b : Double) : Double.preSub a b = preAddN (num a.hi) (num b.hi).neg := by
  obtain ⟨ah, al⟩ := a
  obtain ⟨bh, bl⟩ := b
  cases ah with
  | nan s => rfl
  | inf s => cases bh with
    | nan t => rfl
    | inf t => cases s <;> cases t <;> rfl
    | fin t n hn => cases s <;> rfl
  | fin s m hm => cases bh with
    | nan t => rfl
    | inf t => cases t <;> rfl
    | fin t n hn => rfl

/-- What the prefix functions do to opposite operands. -/
def OptOpp : Option Double → Option Double → Prop
  | none, none => True
  | some a, some b => OppD a b
  | _, _ => False

theorem oppD_inf : OppD Double.INFINITY Double.NEG_INFINITY := ⟨rfl, rfl⟩
theorem oppD_ninf : OppD Double.NEG_INFINITY Double.INFINITY := ⟨rfl, rfl⟩
theorem oppD_nan : OppD Double.NAN Double.NAN := ⟨rfl, rfl⟩
theorem oppD_zero : OppD Double.ZERO Double.NEG_ZERO := ⟨rfl, rfl⟩
theorem oppD_nzero : OppD Double.NEG_ZERO Double.ZERO := ⟨rfl, rfl⟩

theorem preAddN_opp (m n : Num) : OptOpp (preAddN m n) (preAddN m.neg n.neg) := by
  cases m with
  | nan => exact oppD_nan
  | inf s => cases n with
    | nan => cases s <;> exact oppD_nan
    | inf t => cases s <;> cases t <;> first | exact oppD_inf | exact oppD_ninf | exact oppD_nan
    | fin n => cases s <;> first | exact oppD_inf | exact oppD_ninf
  | fin m => cases n with
    | nan => exact oppD_nan
    | inf t => cases t <;> first | exact oppD_inf | exact oppD_ninf
    | fin n => trivial

theorem preAddN_comm (m n : Num) : preAddN m n = preAddN n m := by
  cases m with
  | nan => cases n with
    | nan => rfl
    | inf s => cases s <;> rfl
    | fin => rfl
  | inf s => cases n with
    | nan => cases s <;> rfl
    | inf t => cases s <;> cases t <;> rfl
    | fin n => cases s <;> rfl
  | fin m => cases n with
    | nan => rfl
    | inf t => cases t <;> rfl
    | fin n => rfl

/-- The part of `add` after the prefix. -/
def addMain (p q : F64 × F64) : Double :=
  let p2 := quickTwoSum p.1 (F64.add q.1 p.2)
  let z := renorm2 p2.1 (F64.add q.2 p2.2)
  ⟨z.1, z.2⟩

theorem OppD.addMain {p q p' q' : F64 × F64} (h : OppP p p') (h' : OppP q q') :
    OppD (addMain p q) (addMain p' q') := by
  have h2 := OppP.quickTwoSum h.1 (h'.1.add h.2)
  have h3 := OppP.quickTwoSum h2.1 (h'.2.add h2.2)
  exact ⟨h3.1, h3.2⟩
theorem SamD.addMain {p q p' q' : F64 × F64} (h : SamP p p') (h' : SamP q q') :
    SamD (addMain p q) (addMain p' q') := by
  have h2 := SamP.quickTwoSum h.1 (h'.1.add h.2)
  have h3 := SamP.quickTwoSum h2.1 (h'.2.add h2.2)
  exact ⟨h3.1, h3.2⟩

theorem add_eq (a b : Double) :
    a + b = (preAddN (num a.hi) (num b.hi)).getD (addMain (twoSum a.hi b.hi) (twoSum a.lo b.lo)) := by
  change Double.add a b = _
  unfold Double.add
  rw [preAdd_eq]
  cases preAddN (num a.hi) (num b.hi) <;> rfl

theorem sub_eq (a b : Double) :
    a - b = (preAddN (num a.hi) (num b.hi).neg).getD (addMain (twoDiff a.hi b.hi) (twoDiff a.lo b.lo)) := by
  change Double.sub a b = _
  unfold Double.sub
  rw [preSub_eq]
  cases preAddN (num a.hi) (num b.hi).neg <;> rfl

theorem OppD.getD {o o' : Option Double} {a b : Double} (h : OptOpp o o') (h' : OppD a b) :
    OppD (o.getD a) (o'.getD b) := by
  cases o <;> cases o' <;> simp only [OptOpp] at h
  · exact h'
  · exact h

theorem OppD.add {a b a' b' : Double} (h : OppD a a') (h' : OppD b b') : OppD (a + b) (a' + b') := by
  rw [add_eq, add_eq, h.1, h'.1]
  exact OppD.getD (preAddN_opp _ _) (OppD.addMain (OppP.twoSum h.1 h'.1) (OppP.twoSum h.2 h'.2))
theorem OppD.sub {a b a' b' : Double} (h : OppD a a') (h' : OppD b b') : OppD (a - b) (a' - b') := by
  rw [sub_eq, sub_eq, h.1, h'.1]
  exact OppD.getD (preAddN_opp _ _) (OppD.addMain (OppP.twoDiff h.1 h'.1) (OppP.twoDiff h.2 h'.2))

theorem SamD.getD {o : Option Double} {a b : Double} (h' : SamD a b) : SamD (o.getD a) (o.getD b) := by
  cases o
  · exact h'
  · exact samD_rfl _

theorem SamD.add {a b a' b' : Double} (h : SamD a a') (h' : SamD b b') : SamD (a + b) (a' + b') := by
  rw [add_eq, add_eq, h.1, h'.1]
  exact SamD.getD (SamD.addMain (SamP.twoSum h.1 h'.1) (SamP.twoSum h.2 h'.2))
theorem SamD.sub {a b a' b' : Double} (h : SamD a a') (h' : SamD b b') : SamD (a - b) (a' - b') := by
  rw [sub_eq, sub_eq, h.1, h'.1]
  exact SamD.getD (SamD.addMain (SamP.twoDiff h.1 h'.1) (SamP.twoDiff h.2 h'.2))

theorem samD_sub_add_neg (a b : Double) : SamD (a - b) (a + -b) := by
  rw [add_eq, sub_eq]
  have : num ((-b).hi) = (num b.hi).neg := num_neg _
  rw [this]
  exact SamD.getD (SamD.addMain (SamP.twoDiff_twoSum _ _) (SamP.twoDiff_twoSum _ _))

/-! ### Multiplication -/

/-- The part of `mul` after the prefix. -/
def mulMain (a b : Double) : Double :=
  let p := twoProd a.hi b.hi
  let z := renorm2 p.1 (F64.add (F64.add p.2 (F64.mul a.hi b.lo)) (F64.mul a.lo b.hi))
  ⟨z.1, z.2⟩

theorem mul_eq (a b : Double) : a * b = (Double.preMul a b).getD (mulMain a b) := by
  change Double.mul a b = _
  unfold Double.mul
  cases Double.preMul a b <;> rfl

theorem OppD.mulMain_left {a b a' b' : Double} (h : OppD a a') (h' : SamD b b') :
    OppD (mulMain a b) (mulMain a' b') := by
  have hp := OppP.twoProd_left h.1 h'.1
  have h2 := OppP.quickTwoSum hp.1 ((hp.2.add (h.1.mul_left h'.2)).add (h.2.mul_left h'.1))
  exact ⟨h2.1, h2.2⟩
theorem OppD.mulMain_right {a b a' b' : Double} (h : SamD a a') (h' : OppD b b') :
    OppD (mulMain a b) (mulMain a' b') := by
  have hp := OppP.twoProd_right h.1 h'.1
  have h2 := OppP.quickTwoSum hp.1 ((hp.2.add (Opp.mul_right h.1 h'.2)).add (Opp.mul_right h.2 h'.1))
  exact ⟨h2.1, h2.2⟩
theorem SamD.mulMain {a b a' b' : Double} (h : SamD a a') (h' : SamD b b') :
    SamD (mulMain a b) (mulMain a' b') := by
  have hp := SamP.twoProd h.1 h'.1
  have h2 := SamP.quickTwoSum hp.1 ((hp.2.add (h.1.mul h'.2)).add (h.2.mul h'.1))
  exact ⟨h2.1, h2.2⟩

/-- What the `pre_mul` prefix does up to the sign of zero, as a function of numbers. -/
def preMulN : Num → Num → Option Double
  | .nan, _ => some Double.NAN
  | _, .nan => some Double.NAN
  | .inf s, .inf t => some (if s = t then Double.INFINITY else Double.NEG_INFINITY)
  | .inf s, .fin n => if n = 0 then some Double.NAN else
      some (if s = decide (n < 0) then Double.INFINITY else Double.NEG_INFINITY)
  | .fin n, .inf s => if n = 0 then some Double.NAN else
      some (if s = decide (n < 0) then Double.INFINITY else Double.NEG_INFINITY)
  | .fin m, .fin _ => if m = 0 then some Double.ZERO else none

/-- Optional results that are the same up to the sign of zero. -/
def OptSam : Option Double → Option Double → Prop
  | none, none => True
  | some a, some b => SamD a b
  | _, _ => False

theorem isZero_fin (s : Bool) (m : ℕ) (h : IsMag m) (l : F64) : Double.isZero ⟨.fin s m h, l⟩ = decide (m = 0) := by
  unfold Double.isZero F64.eq F64.key F64.zero
  cases s <;> simp

theorem isZero_inf (s : Bool) (l : F64) : Double.isZero ⟨.inf s, l⟩ = false := by
  unfold Double.isZero F64.eq F64.key F64.zero
  have : (2:ℤ) ^ 2098 ≠ 0 := by apply pow_ne_zero; norm_num
  simp only []
  generalize (2:ℤ) ^ 2098 = P at *
  cases s <;> simp [this]

theorem isInf_fin (s : Bool) (m : ℕ) (h : IsMag m) (l : F64) : Double.isInfinite ⟨.fin s m h, l⟩ = false := rfl
theorem isNan_fin (s : Bool) (m : ℕ) (h : IsMag m) (l : F64) : Double.isNan ⟨.fin s m h, l⟩ = false := rfl
theorem isPos_fin (s : Bool) (m : ℕ) (h : IsMag m) (l : F64) : Double.isSignPositive ⟨.fin s m h, l⟩ = !s := rfl
theorem isNeg_fin (s : Bool) (m : ℕ) (h : IsMag m) (l : F64) : Double.isSignNegative ⟨.fin s m h, l⟩ = s := rfl
theorem isInf_inf (s : Bool) (l : F64) : Double.isInfinite ⟨.inf s, l⟩ = true := rfl
theorem isNan_inf (s : Bool) (l : F64) : Double.isNan ⟨.inf s, l⟩ = false := rfl
theorem isPos_inf (s : Bool) (l : F64) : Double.isSignPositive ⟨.inf s, l⟩ = !s := rfl
theorem isNeg_inf (s : Bool) (l : F64) : Double.isSignNegative ⟨.inf s, l⟩ = s := rfl

theorem preMul_eq (a b : Double) : OptSam (Double.preMul a b) (preMulN (num a.hi) (num b.hi)) := by
  obtain ⟨ah, al⟩ := a
  obtain ⟨bh, bl⟩ := b
  cases ah with
  | nan s => exact samD_rfl _
  | inf s => cases bh with
    | nan t => cases s <;> exact samD_rfl _
    | inf t =>
      rw [num_inf, num_inf]
      unfold Double.preMul preMulN
      simp only [isInf_inf, isNan_inf, isZero_inf, isPos_inf]
      cases s <;> cases t <;> exact samD_rfl _
    | fin t n hn =>
      rw [num_fin, num_inf]
      unfold Double.preMul preMulN
      simp only [isZero_fin, isInf_fin, isNan_fin, isPos_fin, isInf_inf, isNan_inf, isZero_inf, isPos_inf]
      by_cases h : n = 0
      · rw [if_pos (sgn_eq_zero.mpr h), if_neg (by simp), if_neg (by simp), if_pos trivial, if_pos (by simpa using h)]
        exact samD_rfl _
      · rw [if_neg (mt sgn_eq_zero.mp h), sgn_lt h, if_neg (by simp), if_neg (by simp), if_pos trivial,
          if_neg (by simpa using h)]
        cases s <;> cases t <;> exact samD_rfl _
  | fin s m hm => cases bh with
    | nan t => exact samD_rfl _
    | inf t =>
      rw [num_fin, num_inf]
      unfold Double.preMul preMulN
      simp only [isZero_fin, isInf_fin, isNan_fin, isPos_fin, isInf_inf, isNan_inf, isZero_inf, isPos_inf]
      by_cases h : m = 0
      · rw [if_pos (sgn_eq_zero.mpr h), if_neg (by simp), if_pos (by simpa using h), if_pos trivial]
        exact samD_rfl _
      · rw [if_neg (mt sgn_eq_zero.mp h), sgn_lt h, if_neg (by simp), if_neg (by simpa using h), if_neg (by simp),
          if_pos trivial]
        cases s <;> cases t <;> exact samD_rfl _
    | fin t n hn =>
      rw [num_fin, num_fin]
      unfold Double.preMul preMulN
      simp only [isZero_fin, isInf_fin, isNan_fin, isPos_fin]
      by_cases h : m = 0
      · rw [if_pos (sgn_eq_zero.mpr h), if_neg (by simp), if_pos (by simpa using h)]
        cases s <;> cases t <;> exact ⟨rfl, rfl⟩
      · rw [if_neg (mt sgn_eq_zero.mp h), if_neg (by simp), if_neg (by simpa using h), if_neg (by simp)]
        exact True.intro

theorem samD_mul_getD (a b : Double) : SamD (a * b) ((preMulN (num a.hi) (num b.hi)).getD (mulMain a b)) := by
  rw [mul_eq]
  have := preMul_eq a b
  cases h1 : Double.preMul a b <;> cases h2 : preMulN (num a.hi) (num b.hi) <;> rw [h1, h2] at this
  · exact samD_rfl _
  · exact this.elim
  · exact this.elim
  · exact this

theorem SamD.mul {a b a' b' : Double} (h : SamD a a') (h' : SamD b b') : SamD (a * b) (a' * b') := by
  refine (samD_mul_getD a b).trans (SamD.trans ?_ (samD_mul_getD a' b').symm)
  rw [h.1, h'.1]
  exact SamD.getD (SamD.mulMain h h')

theorem decide_neg_lt {n : ℤ} (h : n ≠ 0) : decide (-n < 0) = !decide (n < 0) := by
  rcases lt_or_gt_of_ne h with h | h
  · simp [h, h.le]
  · simp [h, h.le]

theorem oppD_ite (b : Bool) (s : Bool) :
    OppD (if s = b then Double.INFINITY else Double.NEG_INFINITY)
      (if s = !b then Double.INFINITY else Double.NEG_INFINITY) := by
  cases b <;> cases s <;> first | exact oppD_inf | exact oppD_ninf

theorem oppD_ite' (b : Bool) (s : Bool) :
    OppD (if s = b then Double.INFINITY else Double.NEG_INFINITY)
      (if (!s) = b then Double.INFINITY else Double.NEG_INFINITY) := by
  cases b <;> cases s <;> first | exact oppD_inf | exact oppD_ninf

theorem preMulN_inf_fin (s : Bool) {n : ℤ} (h : n ≠ 0) : preMulN (.inf s) (.fin n) =
    some (if s = decide (n < 0) then Double.INFINITY else Double.NEG_INFINITY) := by
  simp only [preMulN]; rw [if_neg h]
theorem preMulN_fin_inf (s : Bool) {n : ℤ} (h : n ≠ 0) : preMulN (.fin n) (.inf s) =
    some (if s = decide (n < 0) then Double.INFINITY else Double.NEG_INFINITY) := by
  simp only [preMulN]; rw [if_neg h]
theorem preMulN_fin_fin {m n : ℤ} (h : m ≠ 0) : preMulN (.fin m) (.fin n) = none := by
  simp only [preMulN]; rw [if_neg h]

theorem preMulN_opp_left (m n : Num) : OptOpp (preMulN m n) (preMulN m.neg n) := by
  cases m with
  | nan => exact oppD_nan
  | inf s => cases n with
    | nan => exact oppD_nan
    | inf t => exact oppD_ite' _ _
    | fin n =>
      by_cases h : n = 0
      · subst h; exact oppD_nan
      · change OptOpp _ (preMulN (.inf !s) _)
        rw [preMulN_inf_fin _ h, preMulN_inf_fin _ h]; exact oppD_ite' _ _
  | fin m => cases n with
    | nan => exact oppD_nan
    | inf t =>
      by_cases h : m = 0
      · subst h; exact oppD_nan
      · change OptOpp _ (preMulN (.fin (-m)) _)
        rw [preMulN_fin_inf _ h, preMulN_fin_inf _ (by omega), decide_neg_lt h]; exact oppD_ite _ _
    | fin n =>
      by_cases h : m = 0
      · subst h; exact ⟨rfl, rfl⟩
      · change OptOpp _ (preMulN (.fin (-m)) _)
        rw [preMulN_fin_fin h, preMulN_fin_fin (by omega)]; trivial

theorem preMulN_opp_right (m n : Num) : OptOpp (preMulN m n) (preMulN m n.neg) := by
  cases m with
  | nan => exact oppD_nan
  | inf s => cases n with
    | nan => exact oppD_nan
    | inf t =>
      change OppD (if s = t then Double.INFINITY else Double.NEG_INFINITY)
        (if s = !t then Double.INFINITY else Double.NEG_INFINITY)
      exact oppD_ite _ _
    | fin n =>
      by_cases h : n = 0
      · subst h; exact oppD_nan
      · change OptOpp _ (preMulN _ (.fin (-n)))
        rw [preMulN_inf_fin _ h, preMulN_inf_fin _ (by omega), decide_neg_lt h]; exact oppD_ite _ _
  | fin m => cases n with
    | nan => exact oppD_nan
    | inf t =>
      by_cases h : m = 0
      · subst h; exact oppD_nan
      · change OptOpp _ (preMulN _ (.inf !t))
        rw [preMulN_fin_inf _ h, preMulN_fin_inf _ h]; exact oppD_ite' _ _
    | fin n =>
      by_cases h : m = 0
      · subst h; exact ⟨rfl, rfl⟩
      · change OptOpp _ (preMulN _ (.fin (-n)))
        rw [preMulN_fin_fin h, preMulN_fin_fin h]; trivial

theorem OppD.mul_left {a b a' b' : Double} (h : OppD a a') (h' : SamD b b') : OppD (a * b) (a' * b') := by
  have h1 : OppD _ _ := OppD.getD (preMulN_opp_left (num a.hi) (num b.hi)) (OppD.mulMain_left h h')
  have h2 := samD_mul_getD a' b'
  rw [h.1, h'.1] at h2
  have h3 := (samD_mul_getD a b)
  exact (h1.symm.samD h3.symm).symm.samD h2.symm
theorem OppD.mul_right {a b a' b' : Double} (h : SamD a a') (h' : OppD b b') : OppD (a * b) (a' * b') := by
  have h1 : OppD _ _ := OppD.getD (preMulN_opp_right (num a.hi) (num b.hi)) (OppD.mulMain_right h h')
  have h2 := samD_mul_getD a' b'
  rw [h.1, h'.1] at h2
  have h3 := (samD_mul_getD a b)
  exact (h1.symm.samD h3.symm).symm.samD h2.symm

end Verif
