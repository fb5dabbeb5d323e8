import Verif.SpecQuad
import Verif.Proofs.QuadSym
import Verif.Props.Special
import Verif.Props.Order

/-!
# Quad parts of C06, C08 – C11, C13, C17, C41, C56; C50 (symmetries), C52 (refutation)
-/

namespace Verif

open F64 Prim Util

theorem sgQ_same {a b : Quad} (h : SgQ false a b) : SameQuad a b :=
  ⟨sameF64_iff.mpr h.1.symm, sameF64_iff.mpr h.2.1.symm, sameF64_iff.mpr h.2.2.1.symm, sameF64_iff.mpr h.2.2.2.symm⟩

/-! ### C06, C50: symmetries -/

/-- **C06.** Negating a Quad twice gives back the identical Quad. -/
theorem C06_quad_neg_neg (a : Quad) : - -a = a := by
  obtain ⟨p, q, r, s⟩ := a
  change Quad.mk p.neg.neg q.neg.neg r.neg.neg s.neg.neg = ⟨p, q, r, s⟩
  have h : ∀ x : F64, x.neg.neg = x := by intro x; cases x <;> simp [F64.neg]
  rw [h, h, h, h]

/-- **C50.** `(-a) + (-b)` is the number `-(a + b)`, for all Quads. -/
theorem C50_add_neg (a b : Quad) : SameQuad (-a + -b) (-(a + b)) :=
  sgQ_same (((sgQ_neg a).add (sgQ_neg b)).symm.comp (sgQ_neg (a + b)))

/-- **C50.** `a - b` is `a + (-b)`, for all Quads. -/
theorem C50_sub_eq_add_neg (a b : Quad) : a - b = a + -b := rfl

/-- **C50.** `(-a) - (-b)` is the number `-(a - b)`, for all Quads. -/
theorem C50_sub_neg (a b : Quad) : SameQuad (-a - -b) (-(a - b)) :=
  sgQ_same (((sgQ_neg a).sub (sgQ_neg b)).symm.comp (sgQ_neg (a - b)))

/-- **C06.** `(-a) * b` is the number `-(a * b)`, for all Quads. -/
theorem C06_quad_mul_neg_left (a b : Quad) : SameQuad (-a * b) (-(a * b)) :=
  sgQ_same (((sgQ_neg a).mul_left (sgQ_rfl b)).symm.comp (sgQ_neg (a * b)))

/-- **C06.** `a * (-b)` is the number `-(a * b)`, for all Quads. -/
theorem C06_quad_mul_neg_right (a b : Quad) : SameQuad (a * -b) (-(a * b)) :=
  sgQ_same ((SgQ.mul_right (sgQ_rfl a) (sgQ_neg b)).symm.comp (sgQ_neg (a * b)))

/-! ### C08 – C10 -/

theorem head_add (a b : Quad) (h : a.isFinite = false ∨ b.isFinite = false) :
    a + b = upQ (hdQ a + hdQ b) := by
  rw [qadd_eq, add_eq]
  change ((preAddN (num (hdQ a).hi) (num (hdQ b).hi)).map upQ).getD _ = _
  cases hp : preAddN (num (hdQ a).hi) (num (hdQ b).hi) with
  | some r => rfl
  | none =>
    exfalso
    obtain ⟨a0, _, _, _⟩ := a
    obtain ⟨b0, _, _, _⟩ := b
    cases a0 with
    | nan s => exact nomatch hp
    | inf s => cases b0 with
      | nan t => cases s <;> exact nomatch hp
      | inf t => cases s <;> cases t <;> exact nomatch hp
      | fin t n hn => cases s <;> exact nomatch hp
    | fin s m hm => cases b0 with
      | nan t => exact nomatch hp
      | inf t => cases t <;> exact nomatch hp
      | fin t n hn => rcases h with h | h <;> exact nomatch h

/-- **C08.** With a NaN or infinite operand, Quad `a + b` is what `f64` addition gives for the first components. -/
theorem C08_quad_add (a b : Quad) (h : a.isFinite = false ∨ b.isFinite = false) :
    IdentF64 (a + b).c0 (F64.add a.c0 b.c0) ∧ (a + b).c1 = F64.zero ∧ (a + b).c2 = F64.zero ∧ (a + b).c3 = F64.zero := by
  rw [head_add a b h]
  exact ⟨(C08_add (hdQ a) (hdQ b) h).1, rfl, rfl, rfl⟩

theorem neg_isFinite (x : F64) : x.neg.isFinite = x.isFinite := by cases x <;> rfl

/-- **C08.** With a NaN or infinite operand, Quad `a - b` is what `f64` subtraction gives for the first components. -/
theorem C08_quad_sub (a b : Quad) (h : a.isFinite = false ∨ b.isFinite = false) :
    IdentF64 (a - b).c0 (F64.sub a.c0 b.c0) ∧ (a - b).c1 = F64.zero ∧ (a - b).c2 = F64.zero ∧ (a - b).c3 = F64.zero :=
  C08_quad_add a (-b) (h.imp id fun h => by
    change b.c0.neg.isFinite = false
    rw [neg_isFinite]; exact h)

example : Quad.INFINITY.isFinite = false ∧ Quad.NAN.isFinite = false := by decide +kernel

theorem head_mul (a b : Quad) (h : a.isFinite = false ∨ b.isFinite = false ∨ a.isZero = true) :
    a * b = upQ (hdQ a * hdQ b) := by
  rw [qmul_eq, mul_eq]
  cases hp : Double.preMul (hdQ a) (hdQ b) with
  | some r => rfl
  | none =>
    exfalso
    unfold Double.preMul at hp
    have hz : (hdQ a).isZero = a.isZero := rfl
    have hna : a.isFinite = (!(hdQ a).isNan && !(hdQ a).isInfinite) := (C41_partition (hdQ a)).2.2.2.2.2.1
    have hnb : b.isFinite = (!(hdQ b).isNan && !(hdQ b).isInfinite) := (C41_partition (hdQ b)).2.2.2.2.2.1
    rw [hna, hnb, ← hz] at h
    revert h hp
    cases (hdQ a).isNan <;> cases (hdQ b).isNan <;> cases (hdQ a).isInfinite <;> cases (hdQ b).isInfinite <;>
      cases (hdQ a).isZero <;> cases (hdQ b).isZero <;> cases (hdQ a).isSignPositive <;>
      cases (hdQ b).isSignPositive <;> simp

/-- **C09 (partial).** With a NaN or infinite operand, or a zero *first* operand, Quad `a * b` is what `f64`
multiplication gives for the first components, sign included. Missing: a zero second operand (`C09_quad_refuted`). -/
theorem C09_quad_mul_partial (a b : Quad) (h : a.isFinite = false ∨ b.isFinite = false ∨ a.isZero = true) :
    IdentF64 (a * b).c0 (F64.mul a.c0 b.c0) ∧ (a * b).c1 = F64.zero ∧ (a * b).c2 = F64.zero ∧ (a * b).c3 = F64.zero := by
  rw [head_mul a b h]
  exact ⟨(C09_mul_partial (hdQ a) (hdQ b) h).1, rfl, rfl, rfl⟩

/-- C09 fails for the sign when only the second operand is a zero Quad. -/
theorem C09_quad_refuted : (Quad.NEG_ONE * Quad.ZERO).c0.isSignNegative = false ∧
    (F64.mul Quad.NEG_ONE.c0 Quad.ZERO.c0).isSignNegative = true := by decide +kernel

theorem head_div (a b : Quad) (h : a.isFinite = false ∨ b.isFinite = false ∨ b.isZero = true) :
    a / b = upQ (hdQ a / hdQ b) := by
  rw [div_eq]
  change Quad.div a b = _
  unfold Quad.div
  rw [Quad.preDiv_eq]
  cases hp : Double.preDiv (hdQ a) (hdQ b) with
  | some r => rfl
  | none =>
    exfalso
    unfold Double.preDiv at hp
    have hz : (hdQ b).isZero = b.isZero := rfl
    have hna : a.isFinite = (!(hdQ a).isNan && !(hdQ a).isInfinite) := (C41_partition (hdQ a)).2.2.2.2.2.1
    have hnb : b.isFinite = (!(hdQ b).isNan && !(hdQ b).isInfinite) := (C41_partition (hdQ b)).2.2.2.2.2.1
    rw [hna, hnb, ← hz] at h
    revert h hp
    cases (hdQ a).isNan <;> cases (hdQ b).isNan <;> cases (hdQ a).isInfinite <;> cases (hdQ b).isInfinite <;>
      cases (hdQ a).isZero <;> cases (hdQ b).isZero <;> cases (hdQ a).isSignPositive <;>
      cases (hdQ b).isSignPositive <;> cases (hdQ a).isSignNegative <;> simp

/-- **C10, C52 (partial).** With a NaN or infinite operand, or a zero divisor, Quad `a / b` is what `f64` division gives
for the first components, sign included. -/
theorem C10_quad_div_partial (a b : Quad) (h : a.isFinite = false ∨ b.isFinite = false ∨ b.isZero = true) :
    IdentF64 (a / b).c0 (F64.div a.c0 b.c0) ∧ (a / b).c1 = F64.zero ∧ (a / b).c2 = F64.zero ∧ (a / b).c3 = F64.zero := by
  rw [head_div a b h]
  exact ⟨(C10_div_partial (hdQ a) (hdQ b) h).1, rfl, rfl, rfl⟩

/-! ### C11 -/

theorem quad_not_finite_of_nan {a : Quad} (h : a.isNan = true) : a.isFinite = false := by
  obtain ⟨c0, _, _, _⟩ := a
  cases c0 <;> simp_all [Quad.isNan, Quad.isFinite, F64.isNan, F64.isFinite]

theorem upQ_isNan (d : Double) : (upQ d).isNan = d.isNan := rfl

/-- **C11.** If an operand of Quad `+` is NaN, so is the result. -/
theorem C11_quad_add (a b : Quad) (h : a.isNan = true ∨ b.isNan = true) : (a + b).isNan = true := by
  rw [head_add a b (h.imp quad_not_finite_of_nan quad_not_finite_of_nan)]
  exact C11_add (hdQ a) (hdQ b) h

theorem quad_neg_isNan (a : Quad) : (-a).isNan = a.isNan := by
  obtain ⟨c0, _, _, _⟩ := a
  cases c0 <;> rfl

/-- **C11.** If an operand of Quad `-` is NaN, so is the result. -/
theorem C11_quad_sub (a b : Quad) (h : a.isNan = true ∨ b.isNan = true) : (a - b).isNan = true :=
  C11_quad_add a (-b) (h.imp id fun h => (quad_neg_isNan b).trans h)

/-- **C11.** If an operand of Quad `*` is NaN, so is the result. -/
theorem C11_quad_mul (a b : Quad) (h : a.isNan = true ∨ b.isNan = true) : (a * b).isNan = true := by
  rw [head_mul a b ((h.imp quad_not_finite_of_nan quad_not_finite_of_nan).imp_right Or.inl)]
  exact C11_mul (hdQ a) (hdQ b) h

/-- **C11.** If an operand of Quad `/` is NaN, so is the result. -/
theorem C11_quad_div (a b : Quad) (h : a.isNan = true ∨ b.isNan = true) : (a / b).isNan = true := by
  rw [head_div a b ((h.imp quad_not_finite_of_nan quad_not_finite_of_nan).imp_right Or.inl)]
  exact C11_div (hdQ a) (hdQ b) h

/-- **C11.** If an operand of Quad `%` is NaN, so is the result. -/
theorem C11_quad_rem (a b : Quad) (h : a.isNan = true ∨ b.isNan = true) : (a % b).isNan = true := by
  change (a - b * (a / b).floor).isNan = true
  apply C11_quad_sub
  rcases h with h | h
  · exact Or.inl h
  · exact Or.inr (C11_quad_mul _ _ (Or.inl h))

theorem quad_foldl_add_nan (l : List Quad) (x : Quad) (hx : x.isNan = true) :
    (l.foldl (fun a b => a + b) x).isNan = true := by
  induction l generalizing x with
  | nil => exact hx
  | cons y l ih => exact ih _ (C11_quad_add _ _ (Or.inl hx))

theorem quad_foldl_mul_nan (l : List Quad) (x : Quad) (hx : x.isNan = true) :
    (l.foldl (fun a b => a * b) x).isNan = true := by
  induction l generalizing x with
  | nil => exact hx
  | cons y l ih => exact ih _ (C11_quad_mul _ _ (Or.inl hx))

/-- **C11.** A Quad sum over a sequence containing a NaN anywhere is NaN. -/
theorem C11_quad_sum (l : List Quad) (h : ∃ x ∈ l, x.isNan = true) : (Quad.sum l).isNan = true := by
  unfold Quad.sum
  generalize Quad.ZERO = z
  induction l generalizing z with
  | nil => simp at h
  | cons y l ih =>
    obtain ⟨x, hx, hn⟩ := h
    rw [List.foldl_cons]
    rcases List.mem_cons.mp hx with rfl | hx
    · exact quad_foldl_add_nan _ _ (C11_quad_add _ _ (Or.inr hn))
    · exact ih ⟨x, hx, hn⟩ _

/-- **C11.** A Quad product over a sequence containing a NaN anywhere is NaN. -/
theorem C11_quad_product (l : List Quad) (h : ∃ x ∈ l, x.isNan = true) : (Quad.product l).isNan = true := by
  unfold Quad.product
  generalize Quad.ONE = z
  induction l generalizing z with
  | nil => simp at h
  | cons y l ih =>
    obtain ⟨x, hx, hn⟩ := h
    rw [List.foldl_cons]
    rcases List.mem_cons.mp hx with rfl | hx
    · exact quad_foldl_mul_nan _ _ (C11_quad_mul _ _ (Or.inr hn))
    · exact ih ⟨x, hx, hn⟩ _

example : ∃ x ∈ [Quad.PI, Quad.NAN, Quad.E], x.isNan = true := ⟨Quad.NAN, by simp, rfl⟩

/-! ### C13 -/

/-- Answer of a comparison followed by another one if it was `Equal`. -/
def thenO (o r : Option Ordering) : Option Ordering :=
  match o with
  | some .eq => r
  | x => x

/-- Lexicographic comparison of lists of `f64`. -/
def cmpL : List F64 → List F64 → Option Ordering
  | x :: xs, y :: ys => thenO (F64.partialCmp x y) (cmpL xs ys)
  | _, _ => some .eq

/-- The components of a Quad. -/
def comps (q : Quad) : List F64 := [q.c0, q.c1, q.c2, q.c3]

theorem thenO_eq (o : Option Ordering) : thenO o (some .eq) = o := by
  rcases o with _ | o
  · rfl
  · cases o <;> rfl

theorem quad_partialCmp (a b : Quad) : Quad.partialCmp a b = cmpL (comps a) (comps b) := by
  have h : cmpL (comps a) (comps b) = thenO (F64.partialCmp a.c0 b.c0) (thenO (F64.partialCmp a.c1 b.c1)
      (thenO (F64.partialCmp a.c2 b.c2) (thenO (F64.partialCmp a.c3 b.c3) (some .eq)))) := rfl
  rw [h, thenO_eq]
  unfold Quad.partialCmp thenO
  rfl

theorem f64_cmp_eq (x y : F64) : F64.partialCmp x y = some .eq ↔ F64.eq x y = true := by
  unfold F64.partialCmp F64.eq
  cases F64.key x <;> cases F64.key y <;> simp

theorem f64_cmp_swap (x y : F64) : F64.partialCmp y x = (F64.partialCmp x y).map Ordering.swap := by
  unfold F64.partialCmp
  cases hx : F64.key x with
  | none => cases F64.key y <;> rfl
  | some m => cases F64.key y with
    | none => rfl
    | some n =>
      simp only [Option.map]
      rcases lt_trichotomy m n with h | h | h
      · rw [compare_lt_iff_lt.mpr h, compare_gt_iff_gt.mpr h]; rfl
      · subst h; rw [compare_eq_iff_eq.mpr rfl]; rfl
      · rw [compare_lt_iff_lt.mpr h, compare_gt_iff_gt.mpr h]; rfl

theorem f64_cmp_lt (x y : F64) : F64.partialCmp x y = some .lt ↔ ∃ m n, F64.key x = some m ∧ F64.key y = some n ∧ m < n := by
  unfold F64.partialCmp
  cases F64.key x <;> cases F64.key y <;> simp [compare_lt_iff_lt]

theorem f64_cmp_eq' (x y : F64) : F64.partialCmp x y = some .eq ↔ ∃ m, F64.key x = some m ∧ F64.key y = some m := by
  unfold F64.partialCmp
  cases F64.key x <;> cases F64.key y <;> simp [eq_comm (a := Ordering.eq), compare_eq_iff_eq] <;> first | exact eq_comm | skip

theorem thenO_lt {o r : Option Ordering} : thenO o r = some .lt ↔ o = some .lt ∨ (o = some .eq ∧ r = some .lt) := by
  rcases o with _ | o
  · simp [thenO]
  · cases o <;> simp [thenO]

theorem thenO_eq_eq {o r : Option Ordering} : thenO o r = some .eq ↔ o = some .eq ∧ r = some .eq := by
  rcases o with _ | o
  · simp [thenO]
  · cases o <;> simp [thenO]

theorem cmpL_swap (a b : List F64) : cmpL b a = (cmpL a b).map Ordering.swap := by
  induction a generalizing b with
  | nil => cases b <;> rfl
  | cons x xs ih =>
    cases b with
    | nil => rfl
    | cons y ys =>
      unfold cmpL
      rw [f64_cmp_swap x y, ih ys]
      rcases F64.partialCmp x y with _ | o
      · rfl
      · cases o <;> rfl

theorem cmpL_lt_trans (a b c : List F64) (hab : a.length = b.length) (hbc : b.length = c.length)
    (h1 : cmpL a b = some .lt) (h2 : cmpL b c = some .lt) : cmpL a c = some .lt := by
  induction a generalizing b c with
  | nil => cases b <;> simp [cmpL] at h1
  | cons x xs ih =>
    cases b with
    | nil => simp [cmpL] at h1
    | cons y ys =>
      cases c with
      | nil => simp [cmpL] at h2
      | cons z zs =>
        unfold cmpL at h1 h2 ⊢
        rw [thenO_lt] at *
        rcases h1 with h1 | ⟨h1, h1'⟩ <;> rcases h2 with h2 | ⟨h2, h2'⟩
        · left
          rw [f64_cmp_lt] at *
          obtain ⟨m, n, hm, hn, hl⟩ := h1
          obtain ⟨n', p, hn', hp, hl'⟩ := h2
          rw [hn] at hn'; cases hn'
          exact ⟨m, p, hm, hp, by omega⟩
        · left
          rw [f64_cmp_lt] at *
          rw [f64_cmp_eq'] at h2
          obtain ⟨m, n, hm, hn, hl⟩ := h1
          obtain ⟨n', hn', hp⟩ := h2
          rw [hn] at hn'; cases hn'
          exact ⟨m, n, hm, hp, hl⟩
        · left
          rw [f64_cmp_lt] at *
          rw [f64_cmp_eq'] at h1
          obtain ⟨m, hm, hn⟩ := h1
          obtain ⟨n', p, hn', hp, hl'⟩ := h2
          rw [hn] at hn'; cases hn'
          exact ⟨m, p, hm, hp, hl'⟩
        · right
          refine ⟨?_, ih ys zs (by simpa using hab) (by simpa using hbc) h1' h2'⟩
          rw [f64_cmp_eq'] at *
          obtain ⟨m, hm, hn⟩ := h1
          obtain ⟨n', hn', hp⟩ := h2
          rw [hn] at hn'; cases hn'
          exact ⟨m, hm, hp⟩

/-- **C13.** Quad `a == b` exactly when `partial_cmp` says `Equal`, for all Quads. -/
theorem C13_quad_eq_iff (a b : Quad) : Quad.eq a b = true ↔ Quad.partialCmp a b = some .eq := by
  rw [quad_partialCmp]
  unfold Quad.eq comps cmpL cmpL cmpL cmpL cmpL
  simp only [thenO_eq_eq, f64_cmp_eq, Bool.and_eq_true, and_assoc, and_true]

/-- **C13.** Swapping the operands swaps the answer of `partial_cmp`, for all Quads. -/
theorem C13_quad_swap (a b : Quad) : Quad.partialCmp b a = (Quad.partialCmp a b).map Ordering.swap := by
  rw [quad_partialCmp, quad_partialCmp]; exact cmpL_swap _ _

/-- **C13.** `<` is transitive on all Quads. -/
theorem C13_quad_lt_trans (a b c : Quad) (h1 : Quad.lt a b = true) (h2 : Quad.lt b c = true) :
    Quad.lt a c = true := by
  unfold Quad.lt at *
  rw [decide_eq_true_eq, quad_partialCmp] at *
  exact cmpL_lt_trans (comps a) (comps b) (comps c) rfl rfl h1 h2

example : Quad.lt Quad.E Quad.PI = true ∧ Quad.lt Quad.PI Quad.INFINITY = true := by decide +kernel

/-- **C13.** `<=` is `<` or `==`, `a > b` is `b < a`, and `<` excludes `==` and `>`, for all Quads. -/
theorem C13_quad_le_iff (a b : Quad) : Quad.le a b = (Quad.lt a b || Quad.eq a b) ∧ Quad.gt a b = Quad.lt b a ∧
    (Quad.lt a b = true → Quad.eq a b = false ∧ Quad.gt a b = false) := by
  have h := C13_quad_eq_iff a b
  have hs := C13_quad_swap a b
  unfold Quad.le Quad.lt Quad.gt
  rw [hs]
  cases hp : Quad.partialCmp a b with
  | none => rw [hp] at h; simp at h ⊢; exact h
  | some o =>
    rw [hp] at h
    cases o
    · simp at h ⊢; exact h
    · simp at h ⊢; exact h
    · simp at h ⊢; exact h

/-- **C13.** A NaN in a first component makes every comparison of Quads false. -/
theorem C13_quad_nan (a b : Quad) (h : a.isNan = true ∨ b.isNan = true) :
    Quad.partialCmp a b = none ∧ Quad.eq a b = false ∧ Quad.lt a b = false ∧ Quad.le a b = false ∧
    Quad.gt a b = false ∧ Quad.ge a b = false := by
  have h1 : F64.partialCmp a.c0 b.c0 = none := by
    have hk : ∀ x : F64, x.isNan = true → F64.key x = none := by
      intro x hx; cases x <;> first | rfl | exact nomatch hx
    unfold F64.partialCmp
    rcases h with h | h
    · rw [hk _ h]
    · rw [hk _ h]; cases F64.key a.c0 <;> rfl
  have h2 : Quad.partialCmp a b = none := by
    unfold Quad.partialCmp; rw [h1]
  have h3 : Quad.eq a b = false := by
    rw [← Bool.not_eq_true, C13_quad_eq_iff, h2]; simp
  refine ⟨h2, h3, ?_, ?_, ?_, ?_⟩ <;> simp [Quad.lt, Quad.le, Quad.gt, Quad.ge, h2]

example : Quad.NAN.isNan = true := rfl

/-! ### C17 -/

/-- **C17.** Conversions of a Quad to a tuple return its leading components, and converting a tuple to a Quad fills up
with zeros; the four-component round trip is the identity. -/
theorem C17_quad_tuples (q : Quad) (a b c d : F64) :
    q.toF64 = q.c0 ∧ q.toPair = (q.c0, q.c1) ∧ q.toTriple = (q.c0, q.c1, q.c2) ∧
    q.toTuple = (q.c0, q.c1, q.c2, q.c3) ∧ Quad.ofTuple q.toTuple = q ∧
    (Quad.ofTuple (a, b, c, d)).toTuple = (a, b, c, d) ∧ (Quad.ofTriple (a, b, c)).toTuple = (a, b, c, F64.zero) ∧
    (Quad.ofPair (a, b)).toTuple = (a, b, F64.zero, F64.zero) := ⟨rfl, rfl, rfl, rfl, rfl, rfl, rfl, rfl⟩

/-! ### C41 -/

/-- **C41.** Every Quad has exactly one category and the predicates say which. -/
theorem C41_quad_partition (a : Quad) :
    (a.isNan = true ↔ a.classify = .nan) ∧ (a.isInfinite = true ↔ a.classify = .infinite) ∧
    (a.isZero = true ↔ a.classify = .zero) ∧ (a.isSubnormal = true ↔ a.classify = .subnormal) ∧
    (a.isNormal = true ↔ a.classify = .normal) ∧ (a.isFinite = (!a.isNan && !a.isInfinite)) ∧
    (a.isSignPositive = !a.isSignNegative) := C41_partition (hdQ a)

/-- **C41.** `abs` clears the sign bit and keeps the magnitude: it is `a` or `-a`. -/
theorem C41_quad_abs (a : Quad) : a.abs.isSignNegative = false ∧ (a.abs = a ∨ a.abs = -a) := by
  unfold Quad.abs
  cases h : a.isSignNegative
  · simp [h]
  · refine ⟨?_, Or.inr (by simp)⟩
    simp only [if_true]
    have : (-a).isSignNegative = !a.isSignNegative := by
      obtain ⟨c0, _, _, _⟩ := a
      cases c0 <;> rfl
    rw [this, h]; rfl

/-- **C41.** `signum` of NaN is NaN; otherwise it is a normalized Quad of value `-1` or `1` by the sign bit. -/
theorem C41_quad_signum (a : Quad) : (a.isNan = true → a.signum.isNan = true) ∧
    (a.isNan = false → a.signum.Normalized ∧ a.signum.val = if a.isSignNegative then -1 else 1) := by
  unfold Quad.signum
  constructor
  · intro h; rw [if_pos h]; rfl
  · intro h
    rw [if_neg (by simp [h])]
    have h1 : Quad.ONE.Normalized ∧ Quad.ONE.val = 1 := by decide +kernel
    have h2 : Quad.NEG_ONE.Normalized ∧ Quad.NEG_ONE.val = -1 := by decide +kernel
    cases a.isSignNegative
    · simpa using h1
    · simpa using h2

/-! ### C56 -/

/-- **C56.** Indexing returns component `i` for `i < 4` and panics for every other index. -/
theorem C56_quad_index (q : Quad) (i : ℕ) : q.index i = [q.c0, q.c1, q.c2, q.c3][i]? := by
  rcases i with _ | _ | _ | _ | i <;> simp [Quad.index]

end Verif
