import Verif.Proofs.QuadSlackMul
import Verif.Proofs.QuadDivIdent

/-!
# Long division of `Quad`s
-/

namespace Verif

open F64 Prim Util Quad

theorem U_neg {x : F64} (h : x.isFinite = true) : U x.neg = -U x := by
  rw [U_is (Is.of_finite h).neg]; unfold U; push_cast; rfl

theorem fin_neg {x : F64} (h : x.isFinite = true) : x.neg.isFinite = true := (Is.of_finite h).neg.1

theorem QS.neg {q : Quad} {r η : ℚ} (h : QS q r η) : QS (-q) r η ∧ UQ (-q) = -UQ q ∧ |U (-q).c0| = |U q.c0| := by
  have e0 := U_neg h.f0
  have e1 := U_neg h.f1
  have e2 := U_neg h.f2
  have e3 := U_neg h.f3
  refine ⟨⟨fin_neg h.f0, fin_neg h.f1, fin_neg h.f2, fin_neg h.f3, ?_, ?_, ?_⟩, ?_, ?_⟩
  · show |U q.c1.neg| ≤ r * |U q.c0.neg| + η
    rw [e0, e1, abs_neg, abs_neg]; exact h.d1
  · show |U q.c2.neg| ≤ r * |U q.c1.neg| + η
    rw [e1, e2, abs_neg, abs_neg]; exact h.d2
  · show |U q.c3.neg| ≤ r * |U q.c2.neg| + η
    rw [e2, e3, abs_neg, abs_neg]; exact h.d3
  · show U q.c0.neg + U q.c1.neg + U q.c2.neg + U q.c3.neg = -(U q.c0 + U q.c1 + U q.c2 + U q.c3)
    rw [e0, e1, e2, e3]; ring
  · show |U q.c0.neg| = _
    rw [e0, abs_neg]

theorem QS.fin {q : Quad} {r η : ℚ} (h : QS q r η) : q.Fin := ⟨h.f0, h.f1, h.f2, h.f3⟩

/-- The leading component is nearly the whole. -/
theorem QS.head {q : Quad} {η : ℚ} (h : QS q (1 / 2 ^ 49) η) (hη : 0 ≤ η) :
    |UQ q - U q.c0| ≤ |U q.c0| / 2 ^ 48 + 4 * η ∧ |U q.c0| ≤ |UQ q| * (1 + 1 / 2 ^ 47) + 5 * η := by
  have d1 := h.d1
  have d2 := h.d2
  have d3 := h.d3
  have n0 := abs_nonneg (U q.c0)
  have h1 : |UQ q - U q.c0| ≤ |U q.c0| / 2 ^ 48 + 4 * η := by
    unfold UQ
    rw [show U q.c0 + U q.c1 + U q.c2 + U q.c3 - U q.c0 = U q.c1 + U q.c2 + U q.c3 by ring]
    refine (abs_add_le _ _).trans ?_
    have := abs_add_le (U q.c1) (U q.c2)
    linarith
  refine ⟨h1, ?_⟩
  have h2 : |U q.c0| ≤ |UQ q| + |UQ q - U q.c0| := by
    have e : U q.c0 = UQ q - (UQ q - U q.c0) := by ring
    calc |U q.c0| = |UQ q - (UQ q - U q.c0)| := by rw [← e]
      _ ≤ _ := abs_sub _ _
  linarith

/-- A remainder step: the difference of two numbers that are ordered up to a slack. -/
theorem sub_step {x p : Quad} {η X : ℚ} (hx : QS x (1 / 2 ^ 49) η) (hp : QS p (1 / 2 ^ 49) η) (hη : 0 ≤ η)
    (bx : |U x.c0| ≤ X) (bp : |U p.c0| ≤ X) (h1 : 200 * X ≤ (lim : ℚ)) (h2 : 10 ^ 13 * η ≤ (lim : ℚ)) :
    QS (x - p) (1 / 2 ^ 49) (X / 2 ^ 142 + η / 2 ^ 30) ∧
    |UQ (x - p) - (UQ x - UQ p)| ≤ X / 2 ^ 137 + 4300 * η := by
  obtain ⟨on, un, hn⟩ := hp.neg
  have hX : 0 ≤ X := (abs_nonneg _).trans bx
  have e : x - p = x + -p := rfl
  rw [e, sub_eq_add_neg (UQ x), ← un]
  rw [← hn] at bp
  by_cases hc : 2 * 10 ^ 10 * η ≤ |U x.c0| ∨ 2 * 10 ^ 10 * η ≤ |U (-p).c0|
  · obtain ⟨S, hSd⟩ : ∃ S, max |U x.c0| |U (-p).c0| = S := ⟨_, rfl⟩
    have hsa : |U x.c0| ≤ S := hSd ▸ le_max_left _ _
    have hsb : |U (-p).c0| ≤ S := hSd ▸ le_max_right _ _
    have hS : S ≤ |U x.c0| ∨ S ≤ |U (-p).c0| := by rw [← hSd]; exact le_max_iff.mp (le_refl _)
    have hSX : S ≤ X := hSd ▸ max_le bx bp
    have hS0 : 0 ≤ S := (abs_nonneg _).trans hsa
    have hSη : 2 * 10 ^ 10 * η ≤ S := by rcases hc with h | h <;> linarith
    have N : Lev x (-p) (1 / 2 ^ 49) η S (S / 2 ^ 49 + 6 * 10 ^ 6 * η) (S / 2 ^ 98 + 6000 * η) (S / 2 ^ 147 + 6 * η) := by
      refine ⟨⟨hx, on, by norm_num, by norm_num, hη⟩, hsa, hsb, by linarith, ?_, ?_, ?_, ?_, ?_, ?_, ?_, ?_, ?_⟩ <;>
        norm_num <;> linarith
    obtain ⟨_, q, _, er⟩ := add_slack N
    refine ⟨q.mono (le_refl _) ?_, (er hS).trans ?_⟩ <;> linarith
  · push Not at hc
    obtain ⟨c1, c2⟩ := hc
    have N : Lev x (-p) (1 / 2 ^ 49) η (2 * 10 ^ 10 * η) (2 * 10 ^ 10 * η / 2 ^ 49 + 6 * 10 ^ 6 * η)
        (2 * 10 ^ 10 * η / 2 ^ 98 + 6000 * η) (2 * 10 ^ 10 * η / 2 ^ 147 + 6 * η) := by
      refine ⟨⟨hx, on, by norm_num, by norm_num, hη⟩, c1.le, c2.le, by linarith, ?_, ?_, ?_, ?_, ?_, ?_, ?_, ?_, ?_⟩ <;>
        norm_num <;> linarith
    obtain ⟨_, q, er, _⟩ := add_slack N
    refine ⟨q.mono (le_refl _) ?_, er.trans ?_⟩ <;> linarith

/-- The exact product of a number with the divisor, in units. -/
def PQ (b : Quad) (q : F64) : ℚ := UQ b * U q / one'

theorem PQ_eq (b : Quad) (q : F64) : PQ b q =
    pq b.c0.units q.units + pq b.c1.units q.units + pq b.c2.units q.units + pq b.c3.units q.units := by
  unfold PQ UQ pq U; ring

/-- One digit of the quotient. -/
theorem dquot {x b : Quad} {η X β : ℚ} (hx : QS x (1 / 2 ^ 49) η) (hη : 0 ≤ η) (ob : QOrd b) (hb : b.c0.units ≠ 0)
    (bx : |U x.c0| ≤ X) (hβ : |U b.c0| / one' = β) (hq : X * one' ≤ lim * |U b.c0|) :
    (F64.div x.c0 b.c0).isFinite = true ∧
    |pq b.c0.units (F64.div x.c0 b.c0).units| ≤ X * (1 + 1 / 2 ^ 52) + β ∧
    |PQ b (F64.div x.c0 b.c0) - UQ x| ≤ X / 2 ^ 47 + β + 4 * η ∧
    |U (F64.div x.c0 b.c0)| * |U b.c0| ≤ (X * (1 + 1 / 2 ^ 52) + β) * one' := by
  have op := one'_posQ
  have bp : 0 < |U b.c0| := by
    apply abs_pos.mpr; unfold U; exact_mod_cast hb
  have nx := abs_nonneg (U x.c0)
  have hX : 0 ≤ X := nx.trans bx
  have h0 : |(x.c0.units * one' : ℚ) / b.c0.units| ≤ lim := by
    rw [abs_div, abs_mul, abs_of_pos op]
    show |U x.c0| * one' / |U b.c0| ≤ lim
    rw [div_le_iff₀ bp]
    refine le_trans ?_ hq
    exact mul_le_mul_of_nonneg_right bx op.le
  have i := (Is.of_finite hx.f0).div (Is.of_finite ob.f0) hb (limQ_le_omega h0)
  have hu := U_is i
  have er := err_le ((x.c0.units * one' : ℚ) / b.c0.units)
  rw [← hu] at er
  obtain ⟨q, hqd⟩ : ∃ q, F64.div x.c0 b.c0 = q := ⟨_, rfl⟩
  rw [hqd] at er i ⊢
  have hβ0 : 0 ≤ β := by rw [← hβ]; positivity
  -- the leading product
  have e1 : |pq b.c0.units q.units - U x.c0| ≤ |U x.c0| / 2 ^ 53 + β / 2 := by
    have hb' : U b.c0 ≠ 0 := by unfold U; exact_mod_cast hb
    have e : pq b.c0.units q.units - U x.c0 = -(((x.c0.units * one' : ℚ) / b.c0.units - U q) * (U b.c0 / one')) := by
      unfold pq
      show U b.c0 * U q / one' - U x.c0 = -((U x.c0 * one' / U b.c0 - U q) * (U b.c0 / one'))
      field_simp
      ring
    rw [e, abs_neg, abs_mul, abs_div (U b.c0), abs_of_pos op, hβ]
    have h1 := mul_le_mul_of_nonneg_right er hβ0
    refine h1.trans (le_of_eq ?_)
    rw [abs_div, abs_mul, abs_of_pos op, add_mul, ← hβ]
    show |U x.c0| * one' / |U b.c0| / 2 ^ 53 * (|U b.c0| / one') + _ = _
    field_simp
  have e1' := abs_le.mp e1
  have hx0 := abs_le.mp (le_refl |U x.c0|)
  have M : |pq b.c0.units q.units| ≤ X * (1 + 1 / 2 ^ 52) + β := by
    have e : pq b.c0.units q.units = (pq b.c0.units q.units - U x.c0) + U x.c0 := by ring
    rw [e]
    refine (abs_add_le _ _).trans ?_
    linarith
  have d1 : |pq b.c1.units q.units| ≤ |pq b.c0.units q.units| / 2 ^ 52 := pq_le_left ob.d1
  have d2 : |pq b.c2.units q.units| ≤ |pq b.c1.units q.units| / 2 ^ 52 := pq_le_left ob.d2
  have d3 : |pq b.c3.units q.units| ≤ |pq b.c2.units q.units| / 2 ^ 52 := pq_le_left ob.d3
  refine ⟨i.1, M, ?_, ?_⟩
  · rw [PQ_eq]
    have t := abs_le.mp (hx.head hη).1
    have d1 := abs_le.mp d1
    have d2' := abs_le.mp d2
    have d3' := abs_le.mp d3
    exact abs_le.mpr ⟨by linarith, by linarith⟩
  · rw [pq_abs, div_le_iff₀ op] at M
    rw [mul_comm]
    exact M

/-- One round of the long division. -/
theorem dround {x b : Quad} {η X Y β : ℚ} (hx : QS x (1 / 2 ^ 49) η) (ob : QOrd b) (hb : b.c0.units ≠ 0)
    (bx : |U x.c0| ≤ X) (hβ : |U b.c0| / one' = β) (hq : X * one' ≤ lim * |U b.c0|)
    (hY : X * (1 + 1 / 2 ^ 52) + β ≤ Y) (hη : 74 * Y / 2 ^ 159 + 1 ≤ η) (hY1 : Y ≤ one' * 2 ^ 200)
    (hY2 : 10 ^ 14 * Y ≤ (lim : ℚ)) (hη2 : 10 ^ 14 * η ≤ (lim : ℚ)) :
    QS (x - mulF64 b (F64.div x.c0 b.c0)) (1 / 2 ^ 49) (Y / 2 ^ 141 + η / 2 ^ 29) ∧
    |UQ (x - mulF64 b (F64.div x.c0 b.c0)) - (UQ x - PQ b (F64.div x.c0 b.c0))| ≤ Y / 2 ^ 136 + 4400 * η ∧
    |U (x - mulF64 b (F64.div x.c0 b.c0)).c0| ≤ Y / 2 ^ 46 + 2 * β + 4500 * η := by
  have hβ0 : 0 ≤ β := by rw [← hβ]; have := one'_posQ; positivity
  have hX : 0 ≤ X := (abs_nonneg _).trans bx
  have hη0 : 0 ≤ η := by linarith
  obtain ⟨fq, M, er, _⟩ := dquot hx hη0 ob hb bx hβ hq
  generalize F64.div x.c0 b.c0 = q at *
  obtain ⟨_, ep, qp, _⟩ := mulf_slack ob fq rfl (M.trans (by linarith)) (by linarith)
  rw [← PQ_eq] at ep
  have qp' := qp.mono (le_refl (1 / 2 ^ 49)) (η' := η) (by linarith)
  have nM := abs_nonneg (pq b.c0.units q.units)
  have hp := (qp'.head hη0).2
  have er' := abs_le.mp er
  have ep' := abs_le.mp ep
  have hPQ : |PQ b q| ≤ Y * (1 + 1 / 2 ^ 40) := by
    rw [PQ_eq]
    have d1 : |pq b.c1.units q.units| ≤ |pq b.c0.units q.units| / 2 ^ 52 := pq_le_left ob.d1
    have d2 : |pq b.c2.units q.units| ≤ |pq b.c1.units q.units| / 2 ^ 52 := pq_le_left ob.d2
    have d3 : |pq b.c3.units q.units| ≤ |pq b.c2.units q.units| / 2 ^ 52 := pq_le_left ob.d3
    refine (abs_add_le _ _).trans ?_
    have := abs_add_le (pq b.c0.units q.units + pq b.c1.units q.units) (pq b.c2.units q.units)
    have := abs_add_le (pq b.c0.units q.units) (pq b.c1.units q.units)
    linarith
  have hUp : |UQ (mulF64 b q)| ≤ Y * (1 + 1 / 2 ^ 39) + 5 * η := by
    have e : UQ (mulF64 b q) = (UQ (mulF64 b q) - PQ b q) + PQ b q := by ring
    rw [e]
    refine (abs_add_le _ _).trans ?_
    linarith
  obtain ⟨Q, er2⟩ := sub_step (X := Y * (1 + 1 / 2 ^ 30) + 11 * η) hx qp' hη0 (by linarith) (by linarith) (by linarith) (by linarith)
  have er2' := abs_le.mp er2
  have Q' := Q.mono (le_refl (1 / 2 ^ 49)) (η' := Y / 2 ^ 141 + η / 2 ^ 29) (by linarith)
  have hd : |UQ (x - mulF64 b q) - (UQ x - PQ b q)| ≤ Y / 2 ^ 136 + 4400 * η :=
    abs_le.mpr ⟨by linarith, by linarith⟩
  refine ⟨Q', hd, ?_⟩
  have hh := (Q'.head (by linarith)).2
  have hr : |UQ (x - mulF64 b q)| ≤ X / 2 ^ 47 + β + Y / 2 ^ 136 + 4404 * η := by
    have e : UQ (x - mulF64 b q) = (UQ (x - mulF64 b q) - (UQ x - PQ b q)) - (PQ b q - UQ x) := by ring
    rw [e]
    refine (abs_sub _ _).trans ?_
    linarith
  linarith

set_option maxHeartbeats 1000000 in
/-- The first round: the dividend is ordered. -/
theorem dround0 {a b : Quad} {A β : ℚ} (oa : QOrd a) (ob : QOrd b) (hb : b.c0.units ≠ 0)
    (bx : |U a.c0| = A) (hβ : |U b.c0| / one' = β) (hq : A * one' ≤ lim * |U b.c0|)
    (hA : 2 ^ 250 ≤ A) (hβA : β * 2 ^ 250 ≤ A) (hA1 : 2 * A ≤ one' * 2 ^ 200) (hA2 : 10 ^ 16 * A ≤ (lim : ℚ)) :
    QS (a - mulF64 b (F64.div a.c0 b.c0)) (1 / 2 ^ 49) (A / 2 ^ 145) ∧
    |UQ (a - mulF64 b (F64.div a.c0 b.c0)) - (UQ a - PQ b (F64.div a.c0 b.c0))| ≤ A / 2 ^ 138 ∧
    |U (a - mulF64 b (F64.div a.c0 b.c0)).c0| ≤ A / 2 ^ 46 := by
  have qa := oa.qs
  have qa0 := qa.mono (show (1:ℚ) / 2 ^ 52 ≤ 1 / 2 ^ 49 by norm_num) (le_refl 0)
  have hβ0 : 0 ≤ β := by rw [← hβ]; have := one'_posQ; positivity
  obtain ⟨fq, M, er, _⟩ := dquot qa0 (le_refl 0) ob hb bx.le hβ hq
  generalize F64.div a.c0 b.c0 = q at *
  obtain ⟨_, ep, qp, qp2⟩ := mulf_slack ob fq rfl (M.trans (by linarith)) (by linarith)
  rw [← PQ_eq] at ep
  have nM := abs_nonneg (pq b.c0.units q.units)
  have er' := abs_le.mp er
  have ep' := abs_le.mp ep
  have t0 := (qa0.head (le_refl 0)).1
  have hUa : A * (1 - 1 / 2 ^ 47) ≤ |UQ a| := by
    have e : U a.c0 = UQ a - (UQ a - U a.c0) := by ring
    have := abs_sub (UQ a) (UQ a - U a.c0)
    rw [← e, bx] at this
    linarith
  have hPQ : |PQ b q| ≤ |pq b.c0.units q.units| * (1 + 1 / 2 ^ 40) := by
    rw [PQ_eq]
    have d1 : |pq b.c1.units q.units| ≤ |pq b.c0.units q.units| / 2 ^ 52 := pq_le_left ob.d1
    have d2 : |pq b.c2.units q.units| ≤ |pq b.c1.units q.units| / 2 ^ 52 := pq_le_left ob.d2
    have d3 : |pq b.c3.units q.units| ≤ |pq b.c2.units q.units| / 2 ^ 52 := pq_le_left ob.d3
    refine (abs_add_le _ _).trans ?_
    have := abs_add_le (pq b.c0.units q.units + pq b.c1.units q.units) (pq b.c2.units q.units)
    have := abs_add_le (pq b.c0.units q.units) (pq b.c1.units q.units)
    linarith
  have hMl : A / 2 ≤ |pq b.c0.units q.units| := by
    have e : UQ a = PQ b q - (PQ b q - UQ a) := by ring
    have := abs_sub (PQ b q) (PQ b q - UQ a)
    rw [← e] at this
    linarith
  have qp1 := (qp2 (by linarith)).mono (le_refl (1 / 2 ^ 51)) (η' := A / 2 ^ 152) (by linarith)
  have hp := ((qp1.mono (show (1:ℚ) / 2 ^ 51 ≤ 1 / 2 ^ 49 by norm_num) (le_refl _)).head (by linarith)).2
  have hUp : |UQ (mulF64 b q)| ≤ A * (1 + 1 / 2 ^ 38) := by
    have e : UQ (mulF64 b q) = (UQ (mulF64 b q) - PQ b q) + PQ b q := by ring
    rw [e]
    refine (abs_add_le _ _).trans ?_
    linarith
  have qa1 := qa.mono (show (1:ℚ) / 2 ^ 52 ≤ 1 / 2 ^ 51 by norm_num) (show 0 ≤ A / 2 ^ 152 by linarith)
  obtain ⟨on, un, hn⟩ := qp1.neg
  obtain ⟨S, hSd⟩ : ∃ S, max |U a.c0| |U (-mulF64 b q).c0| = S := ⟨_, rfl⟩
  have hsa : |U a.c0| ≤ S := hSd ▸ le_max_left _ _
  have hsb : |U (-mulF64 b q).c0| ≤ S := hSd ▸ le_max_right _ _
  have hS : S ≤ |U a.c0| ∨ S ≤ |U (-mulF64 b q).c0| := by rw [← hSd]; exact le_max_iff.mp (le_refl _)
  have hSX : S ≤ A * (1 + 1 / 2 ^ 30) := hSd ▸ max_le (by linarith) (by rw [hn]; linarith)
  have hAS : A ≤ S := bx ▸ hsa
  have N : Lev a (-mulF64 b q) (1 / 2 ^ 51) (A / 2 ^ 152) S (S / 2 ^ 50) (S / 2 ^ 101) (S / 2 ^ 149) := by
    refine ⟨⟨qa1, on, by norm_num, by norm_num, by linarith⟩, hsa, hsb, by linarith, ?_, ?_, ?_, ?_, ?_, ?_, ?_, ?_, ?_⟩ <;>
      norm_num <;> linarith
  obtain ⟨_, Q, _, es⟩ := add_slack N
  have es := es hS
  rw [un] at es
  have e : a - mulF64 b q = a + -mulF64 b q := rfl
  rw [← e] at Q es
  have Q' := Q.mono (le_refl (1 / 2 ^ 49)) (η' := A / 2 ^ 145) (by linarith)
  have es' := abs_le.mp es
  refine ⟨Q', abs_le.mpr ⟨by linarith, by linarith⟩, ?_⟩
  have hh := (Q'.head (by linarith)).2
  have hr : |UQ (a - mulF64 b q)| ≤ A / 2 ^ 46 * (6 / 10) := abs_le.mpr ⟨by linarith, by linarith⟩
  linarith

set_option maxHeartbeats 2000000 in
/-- Division in units. -/
theorem div_units {a b : Quad} {A β : ℚ} (oa : QOrd a) (ob : QOrd b) (hb : b.c0.units ≠ 0)
    (bx : |U a.c0| = A) (hβ : |U b.c0| / one' = β) (hq : 100 * A * one' ≤ lim * |U b.c0|)
    (hA : 2 ^ 250 ≤ A) (hβA : β * 2 ^ 250 ≤ A) (hA1 : 2 * A ≤ one' * 2 ^ 200) (hA2 : 10 ^ 16 * A ≤ (lim : ℚ)) :
    (a / b).Fin ∧ |UQ (a / b) * UQ b / one' - UQ a| ≤ A / 2 ^ 131 := by
  have op := one'_posQ
  have bp : 0 < |U b.c0| := by apply abs_pos.mpr; unfold U; exact_mod_cast hb
  have hA0 : 0 ≤ A := by rw [← bx]; exact abs_nonneg _
  have hβ0 : 0 ≤ β := by rw [← hβ]; positivity
  have hscale : ∀ X : ℚ, X ≤ 100 * A → X * one' ≤ lim * |U b.c0| := fun X h =>
    (mul_le_mul_of_nonneg_right h op.le).trans hq
  have qa0 := oa.qs.mono (show (1:ℚ) / 2 ^ 52 ≤ 1 / 2 ^ 49 by norm_num) (le_refl 0)
  obtain ⟨fq0, _, p0, z0⟩ := dquot qa0 (le_refl 0) ob hb bx.le hβ (hscale _ (by linarith))
  obtain ⟨Q1, e1, b1⟩ := dround0 oa ob hb bx hβ (hscale _ (by linarith)) hA hβA hA1 hA2
  have hdiv : a / b = Quad.div a b := rfl
  rw [hdiv]
  unfold Quad.div
  rw [qdiv_main (Is.of_finite oa.f0) (Is.of_finite ob.f0) hb]
  dsimp only
  generalize F64.div a.c0 b.c0 = q0 at *
  generalize a - mulF64 b q0 = r1 at *
  obtain ⟨fq1, _, _, z1⟩ := dquot Q1 (by linarith) ob hb b1 hβ (hscale _ (by linarith))
  obtain ⟨Q2, e2, b2⟩ := dround (Y := A / 2 ^ 45) Q1 ob hb b1 hβ (hscale _ (by linarith)) (by linarith) (by linarith) (by linarith)
    (by linarith) (by linarith)
  generalize F64.div r1.c0 b.c0 = q1 at *
  generalize r1 - mulF64 b q1 = r2 at *
  have Q2 := Q2.mono (le_refl (1 / 2 ^ 49)) (η' := A / 2 ^ 165) (by linarith)
  have b2 : |U r2.c0| ≤ A / 2 ^ 90 := by linarith
  obtain ⟨fq2, _, _, z2⟩ := dquot Q2 (by linarith) ob hb b2 hβ (hscale _ (by linarith))
  obtain ⟨Q3, e3, b3⟩ := dround (Y := A / 2 ^ 89) Q2 ob hb b2 hβ (hscale _ (by linarith)) (by linarith) (by linarith) (by linarith)
    (by linarith) (by linarith)
  generalize F64.div r2.c0 b.c0 = q2 at *
  generalize r2 - mulF64 b q2 = r3 at *
  have Q3 := Q3.mono (le_refl (1 / 2 ^ 49)) (η' := A / 2 ^ 165) (by linarith)
  have b3 : |U r3.c0| ≤ A / 2 ^ 130 := by linarith
  obtain ⟨fq3, _, _, z3⟩ := dquot Q3 (by linarith) ob hb b3 hβ (hscale _ (by linarith))
  obtain ⟨Q4, e4, b4⟩ := dround (Y := A / 2 ^ 129) Q3 ob hb b3 hβ (hscale _ (by linarith)) (by linarith) (by linarith) (by linarith)
    (by linarith) (by linarith)
  generalize F64.div r3.c0 b.c0 = q3 at *
  generalize r3 - mulF64 b q3 = r4 at *
  have Q4 := Q4.mono (le_refl (1 / 2 ^ 49)) (η' := A / 2 ^ 165) (by linarith)
  have b4 : |U r4.c0| ≤ A / 2 ^ 140 := by linarith
  obtain ⟨fq4, _, p4, z4⟩ := dquot Q4 (by linarith) ob hb b4 hβ (hscale _ (by linarith))
  generalize F64.div r4.c0 b.c0 = q4 at *
  clear Q1 Q2 Q3 Q4 b1 b2 b3 b4
  -- the quotient digits in units of `W`
  obtain ⟨W, hW⟩ : ∃ W, W * |U b.c0| = A * one' := ⟨A * one' / |U b.c0|, by field_simp⟩
  have hW0 : 0 ≤ W := by
    by_contra h
    push Not at h
    have := mul_neg_of_neg_of_pos h bp
    have := mul_nonneg hA0 op.le
    linarith
  have size : ∀ {q : F64} {c y : ℚ}, |U q| * |U b.c0| ≤ y * one' → y ≤ c * A → 0 ≤ c → |U q| ≤ c * W := by
    intro q c y h1 h2 hc
    have h3 : |U q| * |U b.c0| ≤ (c * W) * |U b.c0| := by
      rw [mul_assoc, hW, ← mul_assoc]
      exact h1.trans (mul_le_mul_of_nonneg_right h2 op.le)
    exact le_of_mul_le_mul_right h3 bp
  have w0 := size (c := 1 + 1 / 2 ^ 40) z0 (by linarith) (by norm_num)
  have w1 := size (c := 1 / 2 ^ 45) z1 (by linarith) (by norm_num)
  have w2 := size (c := 1 / 2 ^ 89) z2 (by linarith) (by norm_num)
  have w3 := size (c := 1 / 2 ^ 129) z3 (by linarith) (by norm_num)
  have w4 := size (c := 1 / 2 ^ 139) z4 (by linarith) (by norm_num)
  have bUQ : |UQ b| ≤ |U b.c0| * (1 + 1 / 2 ^ 48) := by
    have := ((ob.qs.mono (show (1:ℚ) / 2 ^ 52 ≤ 1 / 2 ^ 49 by norm_num) (le_refl 0)).head (le_refl 0)).1
    have e : UQ b = (UQ b - U b.c0) + U b.c0 := by ring
    rw [e]
    refine (abs_add_le _ _).trans ?_
    linarith
  have w0' : W * (1 / 2) ≤ |U q0| := by
    have h1 : A * (1 - 1 / 2 ^ 40) ≤ |PQ b q0| := by
      have t0 := (qa0.head (le_refl 0)).1
      have e : U a.c0 = PQ b q0 - (PQ b q0 - UQ a) - (UQ a - U a.c0) := by ring
      have := abs_sub (PQ b q0 - (PQ b q0 - UQ a)) (UQ a - U a.c0)
      have := abs_sub (PQ b q0) (PQ b q0 - UQ a)
      have hx : |PQ b q0 - (PQ b q0 - UQ a) - (UQ a - U a.c0)| = A := by rw [← e, bx]
      linarith
    unfold PQ at h1
    rw [abs_div, abs_mul, abs_of_pos op, le_div_iff₀ op] at h1
    have h2 := mul_le_mul_of_nonneg_right bUQ (abs_nonneg (U q0))
    have h3 : A * one' * (1 - 1 / 2 ^ 40) ≤ |U b.c0| * (|U q0| * (1 + 1 / 2 ^ 48)) := by linarith
    rw [← hW] at h3
    have h4 : |U b.c0| * (W * (1 - 1 / 2 ^ 40)) ≤ |U b.c0| * (|U q0| * (1 + 1 / 2 ^ 48)) := by linarith
    have h5 := le_of_mul_le_mul_left h4 bp
    linarith
  have hWl : 100 * W ≤ (lim : ℚ) := by
    have : 100 * W * |U b.c0| ≤ lim * |U b.c0| := by rw [mul_assoc, hW, ← mul_assoc]; exact hq
    exact le_of_mul_le_mul_right this bp
  have n1 := abs_nonneg (U q1)
  have n2 := abs_nonneg (U q2)
  have n3 := abs_nonneg (U q3)
  have n4 := abs_nonneg (U q4)
  obtain ⟨R, _, _⟩ := renorm5_any (Z := 0) fq0 fq1 fq2 fq3 fq4 (by linarith) (le_refl 0) (.inl (by linarith))
  refine ⟨⟨R.f0, R.f1, R.f2, R.f3⟩, ?_⟩
  have hR : |UQ (toQ (renorm5 q0 q1 q2 q3 q4)) - (U q0 + U q1 + U q2 + U q3 + U q4)| ≤ W / 2 ^ 135 := by
    have e := R.err
    have eu : UQ (toQ (renorm5 q0 q1 q2 q3 q4)) = U (renorm5 q0 q1 q2 q3 q4).1 + U (renorm5 q0 q1 q2 q3 q4).2.1 +
      U (renorm5 q0 q1 q2 q3 q4).2.2.1 + U (renorm5 q0 q1 q2 q3 q4).2.2.2 := rfl
    rw [eu]
    refine e.trans ?_
    linarith
  show |UQ (toQ (renorm5 q0 q1 q2 q3 q4)) * UQ b / one' - UQ a| ≤ _
  have esum : UQ (toQ (renorm5 q0 q1 q2 q3 q4)) * UQ b / one' - UQ a =
      (UQ (toQ (renorm5 q0 q1 q2 q3 q4)) - (U q0 + U q1 + U q2 + U q3 + U q4)) * (UQ b / one') +
      (PQ b q0 + PQ b q1 + PQ b q2 + PQ b q3 + PQ b q4 - UQ a) := by
    unfold PQ; ring
  rw [esum]
  have f1 : |(UQ (toQ (renorm5 q0 q1 q2 q3 q4)) - (U q0 + U q1 + U q2 + U q3 + U q4)) * (UQ b / one')| ≤ A / 2 ^ 134 := by
    rw [abs_mul, abs_div, abs_of_pos op]
    have h1 : |UQ b| / one' ≤ |U b.c0| * (1 + 1 / 2 ^ 48) / one' := div_le_div_of_nonneg_right bUQ op.le
    refine (mul_le_mul hR h1 (by positivity) (by positivity)).trans ?_
    have e : W / 2 ^ 135 * (|U b.c0| * (1 + 1 / 2 ^ 48) / one') = (W * |U b.c0|) / one' * ((1 + 1 / 2 ^ 48) / 2 ^ 135) := by ring
    rw [e, hW, mul_div_assoc, div_self op.ne', mul_one]
    linarith
  have f2 : |PQ b q0 + PQ b q1 + PQ b q2 + PQ b q3 + PQ b q4 - UQ a| ≤ A / 2 ^ 132 := by
    have e1 := abs_le.mp e1
    have e2 := abs_le.mp e2
    have e3 := abs_le.mp e3
    have e4 := abs_le.mp e4
    have p4 := abs_le.mp p4
    exact abs_le.mpr ⟨by linarith, by linarith⟩
  refine (abs_add_le _ _).trans ?_
  linarith

end Verif
