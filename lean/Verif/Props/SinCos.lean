import Verif.Model.Func
import Verif.Props.Symmetry

/-!
# C45: `sin_cos` agrees with `sin` and `cos`

Away from the multiples of π/2 (the reduction chooses a table entry, `k ≠ 0`) all three functions evaluate the addition
theorems, with the signs of the quadrant distributed differently. The results are the same numbers, component by component.
-/

namespace Verif

open F64 Prim Util

theorem samD_neg {a b : Double} (h : SamD a b) : SamD (-a) (-b) :=
  ((oppD_neg a).symm.samD h).opp (oppD_neg b)

theorem same_refl (a : Double) : SameDouble a a := samD_iff.mp (samD_rfl a)

/-- `-p * q + r` is `-(p * q - r)`. -/
theorem neg_sub_form (p q r : Double) : SameDouble (-p * q + r) (-(p * q - r)) := by
  apply samD_iff.mp
  have h1 : OppD (p * q - r) (-p * q - -r) := ((oppD_neg p).mul_left (samD_rfl q)).sub (oppD_neg r)
  have h2 : SamD (-p * q - -r) (-p * q + r) := by
    have := samD_sub_add_neg (-p * q) (-r)
    rwa [C06_neg_neg] at this
  exact (oppD_neg (p * q - r)).symm.opp (h1.samD h2)

/-- `-p * q - r` is `-(p * q + r)`. -/
theorem neg_add_form (p q r : Double) : SameDouble (-p * q - r) (-(p * q + r)) := by
  apply samD_iff.mp
  have h1 : OppD (p * q + r) (-p * q + -r) := ((oppD_neg p).mul_left (samD_rfl q)).add (oppD_neg r)
  have h2 : SamD (-p * q + -r) (-p * q - r) := (samD_sub_add_neg _ _).symm
  exact (oppD_neg (p * q + r)).symm.opp (h1.samD h2)

/-- `y - x` is `-(x - y)` unless the operation is close to overflow. -/
theorem swap_form (x y : Double) (h0 : InRange x.hi y.hi) (h1 : InRange x.lo y.lo) : SameDouble (y - x) (-(x - y)) := by
  apply samD_iff.mp
  have e1 : OppD (x - y) (-x - -y) := (oppD_neg x).sub (oppD_neg y)
  have e2 : SamD (-x - -y) (-x + y) := by
    have := samD_sub_add_neg (-x) (-y)
    rwa [C06_neg_neg] at this
  have nf : ∀ z : F64, z.neg.isFinite = z.isFinite ∧ |z.neg.toRat| = |z.toRat| := by
    intro z
    cases z with
    | nan s => exact ⟨rfl, rfl⟩
    | inf s => exact ⟨rfl, rfl⟩
    | fin s m hm =>
      refine ⟨rfl, ?_⟩
      have i := Is.of_finite (x := fin s m hm) rfl
      rw [i.neg.toRat, i.toRat]
      push_cast
      rw [neg_div, abs_neg]
  have r : ∀ p q : F64, InRange p q → InRange p.neg q := by
    intro p q h hp hq
    rw [(nf p).2]
    exact h (by rw [← (nf p).1]; exact hp) hq
  have e3 : SamD (-x + y) (y + -x) := (samD_iff.mpr (C05_add_comm_partial (-x) y (r _ _ h0) (r _ _ h1))).symm
  have e4 : SamD (y + -x) (y - x) := (samD_sub_add_neg _ _).symm
  exact (oppD_neg (x - y)).symm.opp (e1.samD (e2.trans (e3.trans e4)))

/-- **C45.** When the reduction chooses a table entry, `sin_cos` returns a pair exactly when `sin` and `cos` return, and then
its components are what `sin` and `cos` return. (The products `u * sin t` and `v * cos t` must not be near the overflow
threshold, which they never are; that enters in one quadrant only.) -/
theorem C45_table (P : Platform) (a : Double) (j k : ℤ) (t : Double) (hr : Double.reduce a = (j, k, t)) (hk : k ≠ 0)
    (hz : a.isZero = false) (hf : a.isFinite = true)
    (hin : ∀ u v s c, Double.tableUV k = some (u, v) → Double.sincosTaylor P t = some (s, c) →
      InRange (u * s).hi (v * c).hi ∧ InRange (u * s).lo (v * c).lo) :
    (Double.sinCos P a = none → Double.sin P a = none ∧ Double.cos P a = none) ∧
    ∀ s c, Double.sinCos P a = some (s, c) →
      ∃ s' c', Double.sin P a = some s' ∧ Double.cos P a = some c' ∧ SameDouble s' s ∧ SameDouble c' c := by
  unfold Double.sinCos Double.sin Double.cos Double.preSinCos Double.preSin Double.preCos
  simp only [hz, hf, hr, hk, Bool.false_eq_true, if_false, Bool.not_true]
  cases h1 : Double.sincosTaylor P t with
  | none => cases h2 : Double.tableUV k <;> simp
  | some sc =>
    cases h2 : Double.tableUV k with
    | none => simp
    | some uv =>
      obtain ⟨sT, cT⟩ := sc
      obtain ⟨u, v⟩ := uv
      obtain ⟨r0, r1⟩ := hin u v sT cT h2 h1
      simp only [Option.bind_some, Option.map_some, Double.quadrant]
      refine ⟨(by intro h; cases h), ?_⟩
      intro s c he
      refine ⟨_, _, rfl, rfl, ?_⟩
      have f1 : ((1:ℤ) = 0) = False := by simp
      have f2 : ((-1:ℤ) = 0) = False := by simp
      have f3 : ((-1:ℤ) = 1) = False := by simp
      by_cases hk2 : k > 0 <;> by_cases j0 : j = 0 <;> by_cases j1 : j = 1 <;> by_cases j2 : j = -1 <;>
        simp only [hk2, j0, j1, j2, f1, f2, f3, if_true, if_false, Option.some.injEq, Prod.mk.injEq] at he ⊢
      all_goals first
        | omega
        | (obtain ⟨rfl, rfl⟩ := he
           refine ⟨?_, ?_⟩ <;> first
             | with_reducible exact same_refl _
             | with_reducible exact neg_sub_form _ _ _
             | with_reducible exact neg_add_form _ _ _
             | with_reducible exact swap_form _ _ r0 r1)

/-- One is such an operand. -/
example : (Double.reduce Double.ONE).2.1 = -3 ∧ (Double.reduce Double.ONE).1 = 1 ∧ Double.ONE.isZero = false ∧ Double.ONE.isFinite = true := by
  decide +kernel

end Verif
