import Verif.Proofs.QuadSlSqr
import Mathlib.Data.Real.Basic

/-!
# Approximation of real numbers by Quads that are ordered up to a small slack

`QA q x e X`: the Quad `q` has finite components, ordered up to a slack of `X / 2^141`, its leading component is at most `X` in
magnitude, and its value is within `e` of the real number `x`.
-/

namespace Verif

open F64 Prim Util Quad

/-- The exact value as a real number. -/
noncomputable def qv (q : Quad) : ℝ := ((q.val : ℚ) : ℝ)

/-- Ordered up to a slack relative to the bound `X` of the leading component. -/
def SZ (q : Quad) (X : ℝ) : Prop :=
  ∃ Y : ℚ, (Y : ℝ) ≤ X ∧ QS q (1 / 2 ^ 49) (Y * one' / 2 ^ 141) ∧ |U q.c0| ≤ Y * one'

/-- `q` approximates `x` with error at most `e`. -/
structure QA (q : Quad) (x e X : ℝ) : Prop where
  sz : SZ q X
  err : |qv q - x| ≤ e

theorem qv_UQ {q : Quad} (h : q.Fin) : qv q = (UQ q : ℝ) / ((one' : ℚ) : ℝ) := by
  unfold qv; rw [quad_val_UQ h]; push_cast; rfl

theorem one'_posR : (0:ℝ) < ((one' : ℚ) : ℝ) := by exact_mod_cast one'_posQ

theorem SZ.mono {q : Quad} {X X' : ℝ} (h : SZ q X) (hX : X ≤ X') : SZ q X' := by
  obtain ⟨Y, h1, h2, h3⟩ := h
  exact ⟨Y, h1.trans hX, h2, h3⟩

theorem SZ.fin {q : Quad} {X : ℝ} (h : SZ q X) : q.Fin := by
  obtain ⟨Y, _, h2, _⟩ := h
  exact h2.fin

/-- The bound may be raised to any rational below `X`. -/
theorem SZ.raise {q : Quad} {X : ℝ} (h : SZ q X) {L : ℚ} (hL : (L : ℝ) ≤ X) :
    ∃ Y : ℚ, L ≤ Y ∧ 0 ≤ Y ∧ (Y : ℝ) ≤ X ∧ QS q (1 / 2 ^ 49) (Y * one' / 2 ^ 141) ∧ |U q.c0| ≤ Y * one' := by
  obtain ⟨Y, h1, h2, h3⟩ := h
  have op := one'_posQ
  have hY : 0 ≤ Y := by
    by_contra hc
    push Not at hc
    have := mul_neg_of_neg_of_pos hc op
    have := abs_nonneg (U q.c0)
    linarith
  have hm : Y * one' ≤ max Y L * one' := mul_le_mul_of_nonneg_right (le_max_left _ _) op.le
  refine ⟨max Y L, le_max_right _ _, hY.trans (le_max_left _ _), ?_, h2.mono (le_refl _) ?_, h3.trans hm⟩
  · rw [Rat.cast_max]; exact max_le h1 hL
  · exact div_le_div_of_nonneg_right hm (by positivity)

theorem SZ.nonneg {q : Quad} {X : ℝ} (h : SZ q X) : 0 ≤ X := by
  obtain ⟨Y, h1, h2, h3⟩ := h
  have hY : 0 ≤ Y := by
    by_contra hc
    push Not at hc
    have := mul_neg_of_neg_of_pos hc one'_posQ
    have := abs_nonneg (U q.c0)
    linarith
  exact (show (0:ℝ) ≤ (Y : ℝ) by exact_mod_cast hY).trans h1

/-- The value is within the bound. -/
theorem SZ.abs_le {q : Quad} {X : ℝ} (h : SZ q X) : |qv q| ≤ X * (1 + 1 / 2 ^ 47) := by
  obtain ⟨Y, _, hY, h1, h2, h3⟩ := h.raise (L := 0) (by simpa using h.nonneg)
  have op := one'_posQ
  have hh := (h2.head (by positivity)).1
  have hUQ : |UQ q| ≤ Y * one' * (1 + 1 / 2 ^ 47) := by
    have e : UQ q = (UQ q - U q.c0) + U q.c0 := by ring
    rw [e]
    refine (abs_add_le _ _).trans ?_
    have : 0 ≤ Y * one' := by positivity
    linarith
  rw [qv_UQ h.fin, abs_div, abs_of_pos one'_posR, div_le_iff₀ one'_posR]
  have : ((|UQ q| : ℚ) : ℝ) ≤ ((Y * one' * (1 + 1 / 2 ^ 47) : ℚ) : ℝ) := by exact_mod_cast hUQ
  push_cast at this
  push_cast
  refine this.trans ?_
  have h5 : (Y : ℝ) * (one' : ℝ) ≤ X * (one' : ℝ) := mul_le_mul_of_nonneg_right h1 (by exact_mod_cast op.le)
  linarith

theorem QA.mono {q : Quad} {x e X e' X' : ℝ} (h : QA q x e X) (he : e ≤ e') (hX : X ≤ X') : QA q x e' X' :=
  ⟨h.sz.mono hX, h.err.trans he⟩

theorem QA.move {q : Quad} {x y e X d : ℝ} (h : QA q x e X) (hd : |x - y| ≤ d) : QA q y (e + d) X :=
  ⟨h.sz, by
    have e1 : qv q - y = (qv q - x) + (x - y) := by ring
    rw [e1]
    exact (abs_add_le _ _).trans (add_le_add h.err hd)⟩

theorem QA.nonneg {q : Quad} {x e X : ℝ} (h : QA q x e X) : 0 ≤ e := (abs_nonneg _).trans h.err

theorem QA.fin {q : Quad} {x e X : ℝ} (h : QA q x e X) : q.Fin := h.sz.fin

theorem QA.abs_le {q : Quad} {x e X : ℝ} (h : QA q x e X) : |qv q| ≤ |x| + e := by
  have := abs_sub_abs_le_abs_sub (qv q) x
  have := h.err
  linarith

/-- How the bound of a result comes from its value. -/
theorem sz_of {q : Quad} {Z : ℚ} {W : ℝ} (h : QS q (1 / 2 ^ 49) (Z * one' / 2 ^ 141 * (51 / 100))) (hZ0 : 0 ≤ Z)
    (hZ : 51 / 100 * (Z : ℝ) ≤ W) (hv : |qv q| + Z / 2 ^ 138 ≤ W * (1 - 1 / 2 ^ 40)) : SZ q W := by
  have op := one'_posQ
  have oR := one'_posR
  have hh := (h.head (by positivity)).2
  refine ⟨max (51 / 100 * Z) (|U q.c0| / one'), ?_, h.mono (le_refl _) ?_, ?_⟩
  · rw [Rat.cast_max]
    refine max_le (by push_cast; exact hZ) ?_
    push_cast
    rw [div_le_iff₀ (by exact_mod_cast op)]
    have h1 : ((|U q.c0| : ℚ) : ℝ) ≤ ((|UQ q| * (1 + 1 / 2 ^ 47) + 5 * (Z * one' / 2 ^ 141 * (51 / 100)) : ℚ) : ℝ) := by
      exact_mod_cast hh
    push_cast at h1
    refine h1.trans ?_
    rw [qv_UQ h.fin, abs_div, abs_of_pos oR] at hv
    have hW : 0 ≤ W := by
      have : (0:ℝ) ≤ (Z : ℝ) := by exact_mod_cast hZ0
      linarith
    push_cast at hv oR
    generalize |((UQ q : ℚ) : ℝ)| = u at *
    have e : u = u / (one' : ℝ) * (one' : ℝ) := by field_simp
    have hu : u ≤ (W * (1 - 1 / 2 ^ 40) - Z / 2 ^ 138) * (one' : ℝ) := by
      rw [e]; exact mul_le_mul_of_nonneg_right (by linarith) oR.le
    have p1 : 0 ≤ W * (one' : ℝ) := by positivity
    have p2 : 0 ≤ (Z : ℝ) * (one' : ℝ) := by
      have : (0:ℝ) ≤ (Z : ℝ) := by exact_mod_cast hZ0
      positivity
    linarith
  · have : 51 / 100 * Z * one' ≤ max (51 / 100 * Z) (|U q.c0| / one') * one' :=
      mul_le_mul_of_nonneg_right (le_max_left _ _) op.le
    linarith
  · rw [← div_le_iff₀ op]; exact le_max_right _ _

theorem lim_big : (2:ℚ) ^ 250 * 2 ^ 250 * 2 ^ 250 * 2 ^ 250 * 2 ^ 20 * one' ≤ lim := by
  unfold lim; push_cast; rw [one'_pow, ← pow_add, ← pow_add, ← pow_add, ← pow_add, ← pow_add]
  have : (2:ℚ) ^ (250 + 250 + 250 + 250 + 20 + 1074) ≤ 2 ^ 2096 := pow_le_pow_right₀ (by norm_num) (by norm_num)
  refine this.trans (le_mul_of_one_le_left (by positivity) (by norm_num))

/-- A number not above `2^900` is far from overflow. -/
theorem lim_of_900 {Z : ℚ} (h : Z ≤ 2 ^ 225 * 2 ^ 225 * 2 ^ 225 * 2 ^ 225) : 10 ^ 14 * (Z * one') ≤ (lim : ℚ) := by
  have op := one'_posQ
  refine le_trans ?_ lim_big
  rw [← mul_assoc]
  refine mul_le_mul_of_nonneg_right ?_ op.le
  refine (mul_le_mul_of_nonneg_left h (by norm_num)).trans ?_
  norm_num

theorem lim_of_900R {Z : ℚ} (h : (Z : ℝ) ≤ 2 ^ 225 * 2 ^ 225 * 2 ^ 225 * 2 ^ 225) : 10 ^ 14 * (Z * one') ≤ (lim : ℚ) :=
  lim_of_900 (by exact_mod_cast h)

/-- The difference of the values in units, as real numbers. -/
theorem qv_err {q : Quad} {V D : ℚ} (hf : q.Fin) (h : |UQ q - V * one'| ≤ D * one') : |qv q - (V : ℝ)| ≤ (D : ℝ) := by
  have oR := one'_posR
  rw [qv_UQ hf]
  have e : (UQ q : ℝ) / ((one' : ℚ) : ℝ) - (V : ℝ) = ((UQ q : ℝ) - V * ((one' : ℚ) : ℝ)) / ((one' : ℚ) : ℝ) := by
    field_simp
  rw [e, abs_div, abs_of_pos oR, div_le_iff₀ oR]
  exact_mod_cast h

theorem UQ_val {q : Quad} (hf : q.Fin) : UQ q = q.val * one' := by
  rw [quad_val_UQ hf]; have := one'_posQ.ne'; field_simp

/-- Addition. -/
theorem QA.add {a b : Quad} {x y e f X Y Z W g : ℝ} (ha : QA a x e X) (hb : QA b y f Y) (hX : X ≤ Z) (hY : Y ≤ Z)
    (hZ : Z ≤ 2 ^ 225 * 2 ^ 225 * 2 ^ 225 * 2 ^ 225) (hg : e + f + Z / 2 ^ 128 ≤ g) (hW : 51 / 100 * Z ≤ W)
    (hV : |x + y| + g + Z / 2 ^ 138 ≤ W * (1 - 1 / 2 ^ 40)) : QA (a + b) (x + y) g W := by
  obtain ⟨A, _, A0, A1, A2, A3⟩ := ha.sz.raise (L := 0) (by simpa using ha.sz.nonneg)
  obtain ⟨B, hAB, B0, B1, B2, B3⟩ := (hb.sz.mono (hY.trans (le_max_left Z (A : ℝ)))).raise (L := A)  (le_max_right _ _)
  have hBZ : (B : ℝ) ≤ Z := B1.trans (max_le le_rfl (A1.trans hX))
  have op := one'_posQ
  have hAB' : A * one' ≤ B * one' := mul_le_mul_of_nonneg_right hAB op.le
  have A2' := A2.mono (le_refl _) (div_le_div_of_nonneg_right hAB' (show (0:ℚ) ≤ 2 ^ 141 by positivity))
  have hl := lim_of_900R (hBZ.trans hZ)
  have p0 : 0 ≤ B * one' := by positivity
  obtain ⟨nb, nu, nh⟩ := B2.neg
  obtain ⟨Q, er⟩ := sub_step (X := B * one') A2' nb (by positivity) (A3.trans hAB') (by rw [nh]; exact B3) (by linarith) (by linarith)
  have hab : a - -b = a + b := by
    show a + - -b = a + b
    have : ∀ z : F64, z.neg.neg = z := fun z => by cases z <;> simp [F64.neg]
    have : - -b = b := by
      show (⟨b.c0.neg.neg, b.c1.neg.neg, b.c2.neg.neg, b.c3.neg.neg⟩ : Quad) = b
      rw [this, this, this, this]
    rw [this]
  rw [hab] at Q er
  rw [nu, sub_neg_eq_add] at er
  have er' : |qv (a + b) - ((a.val + b.val : ℚ) : ℝ)| ≤ ((B / 2 ^ 128 : ℚ) : ℝ) := by
    apply qv_err Q.fin
    rw [UQ_val ha.fin, UQ_val hb.fin, ← add_mul] at er
    refine er.trans ?_
    linarith
  have hval : |qv (a + b) - (x + y)| ≤ g := by
    have e1 : qv (a + b) - (x + y) = (qv (a + b) - ((a.val + b.val : ℚ) : ℝ)) + ((qv a - x) + (qv b - y)) := by
      unfold qv; push_cast; ring
    rw [e1]
    refine (abs_add_le _ _).trans ?_
    have := abs_add_le (qv a - x) (qv b - y)
    have := ha.err
    have := hb.err
    push_cast at er' ⊢
    linarith
  refine ⟨sz_of (Z := B) (Q.mono (le_refl _) (by linarith)) B0 (by linarith) ?_, hval⟩
  have := abs_sub_abs_le_abs_sub (qv (a + b)) (x + y)
  linarith

/-- Addition, with the bound `V` of the values kept apart from the scale `Z` of the slack. -/
theorem QA.addV {a b : Quad} {x y e f X Y Z V W g : ℝ} (ha : QA a x e X) (hb : QA b y f Y) (hX : X ≤ Z) (hY : Y ≤ Z)
    (hZ : Z ≤ 2 ^ 225 * 2 ^ 225 * 2 ^ 225 * 2 ^ 225) (hVx : |x| + e + Z / 2 ^ 138 ≤ V * (1 - 1 / 2 ^ 40))
    (hVy : |y| + f + Z / 2 ^ 138 ≤ V * (1 - 1 / 2 ^ 40)) (hVZ : V ≤ Z)
    (hg : e + f + V / 2 ^ 137 + Z * (4300 / 2 ^ 141) ≤ g) (hW : 51 / 100 * (V + Z / 2 ^ 28) ≤ W)
    (hV : |x + y| + g + (V + Z / 2 ^ 28) / 2 ^ 138 ≤ W * (1 - 1 / 2 ^ 40)) : QA (a + b) (x + y) g W := by
  obtain ⟨A, _, A0, A1, A2, A3⟩ := ha.sz.raise (L := 0) (by simpa using ha.sz.nonneg)
  obtain ⟨B, hAB, B0, B1, B2, B3⟩ := (hb.sz.mono (hY.trans (le_max_left Z (A : ℝ)))).raise (L := A)  (le_max_right _ _)
  have hBZ : (B : ℝ) ≤ Z := B1.trans (max_le le_rfl (A1.trans hX))
  have op := one'_posQ
  have oR := one'_posR
  have hAB' : A * one' ≤ B * one' := mul_le_mul_of_nonneg_right hAB op.le
  have A2' := A2.mono (le_refl _) (div_le_div_of_nonneg_right hAB' (show (0:ℚ) ≤ 2 ^ 141 by positivity))
  have hl := lim_of_900R (hBZ.trans hZ)
  have p0 : 0 ≤ B * one' := by positivity
  -- bounds of the leading components from the values
  have head : ∀ {q : Quad} {z h : ℝ}, QS q (1 / 2 ^ 49) (B * one' / 2 ^ 141) → |qv q - z| ≤ h →
      |z| + h + Z / 2 ^ 138 ≤ V * (1 - 1 / 2 ^ 40) → ((|U q.c0| / one' : ℚ) : ℝ) ≤ V := by
    intro q z h hq h1 h2
    have hh := (hq.head (by positivity)).2
    have h3 : ((|U q.c0| : ℚ) : ℝ) ≤ ((|UQ q| * (1 + 1 / 2 ^ 47) + 5 * (B * one' / 2 ^ 141) : ℚ) : ℝ) := by exact_mod_cast hh
    have h4 := abs_sub_abs_le_abs_sub (qv q) z
    have h5 : |qv q| ≤ V * (1 - 1 / 2 ^ 40) - Z / 2 ^ 138 := by linarith
    rw [qv_UQ hq.fin, abs_div, abs_of_pos oR] at h5
    push_cast at h3 h5 oR ⊢
    rw [div_le_iff₀ oR] at h5 ⊢
    refine h3.trans ?_
    have h6 : (B : ℝ) * (one' : ℝ) ≤ Z * (one' : ℝ) := mul_le_mul_of_nonneg_right hBZ oR.le
    have h7 : 0 ≤ (B : ℝ) * (one' : ℝ) := by exact_mod_cast p0
    have h8 : 0 ≤ V * (one' : ℝ) := by
      have := abs_nonneg z
      have := (abs_nonneg _).trans h1
      have : 0 ≤ Z := (show (0:ℝ) ≤ (B:ℝ) by exact_mod_cast B0).trans hBZ
      have : 0 ≤ V := by linarith
      positivity
    linarith
  have hA := head A2' ha.err hVx
  have hB := head B2 hb.err hVy
  obtain ⟨C, hC⟩ : ∃ C, max (|U a.c0| / (one' : ℚ)) (|U b.c0| / one') = C := ⟨_, rfl⟩
  have hCV : (C : ℝ) ≤ V := by rw [← hC, Rat.cast_max]; exact max_le hA hB
  have cA : |U a.c0| ≤ C * one' := by rw [← div_le_iff₀ op, ← hC]; exact le_max_left _ _
  have cB : |U b.c0| ≤ C * one' := by rw [← div_le_iff₀ op, ← hC]; exact le_max_right _ _
  have C0 : 0 ≤ C * one' := (abs_nonneg _).trans cA
  have C0' : 0 ≤ C := by
    by_contra hc
    have := mul_neg_of_neg_of_pos (not_le.mp hc) op
    linarith
  have hlC := lim_of_900R ((hCV.trans hVZ).trans hZ)
  obtain ⟨nb, nu, nh⟩ := B2.neg
  obtain ⟨Q, er⟩ := sub_step (X := C * one') A2' nb (by positivity) cA (by rw [nh]; exact cB) (by linarith) (by linarith)
  have hab : a - -b = a + b := by
    show a + - -b = a + b
    have : ∀ z : F64, z.neg.neg = z := fun z => by cases z <;> simp [F64.neg]
    have : - -b = b := by
      show (⟨b.c0.neg.neg, b.c1.neg.neg, b.c2.neg.neg, b.c3.neg.neg⟩ : Quad) = b
      rw [this, this, this, this]
    rw [this]
  rw [hab] at Q er
  rw [nu, sub_neg_eq_add] at er
  have er' : |qv (a + b) - ((a.val + b.val : ℚ) : ℝ)| ≤ ((C / 2 ^ 137 + B * (4300 / 2 ^ 141) : ℚ) : ℝ) := by
    apply qv_err Q.fin
    rw [UQ_val ha.fin, UQ_val hb.fin, ← add_mul] at er
    refine er.trans ?_
    linarith
  have hval : |qv (a + b) - (x + y)| ≤ g := by
    have e1 : qv (a + b) - (x + y) = (qv (a + b) - ((a.val + b.val : ℚ) : ℝ)) + ((qv a - x) + (qv b - y)) := by
      unfold qv; push_cast; ring
    rw [e1]
    refine (abs_add_le _ _).trans ?_
    have := abs_add_le (qv a - x) (qv b - y)
    have := ha.err
    have := hb.err
    push_cast at er' ⊢
    linarith
  have hT : ((C + B / 2 ^ 28 : ℚ) : ℝ) ≤ V + Z / 2 ^ 28 := by push_cast; linarith
  refine ⟨sz_of (Z := C + B / 2 ^ 28) (Q.mono (le_refl _) (by linarith)) (by positivity) (by linarith) ?_, hval⟩
  have := abs_sub_abs_le_abs_sub (qv (a + b)) (x + y)
  linarith

theorem QA.neg {a : Quad} {x e X : ℝ} (ha : QA a x e X) : QA (-a) (-x) e X := by
  obtain ⟨A, A1, A2, A3⟩ := ha.sz
  obtain ⟨n1, n2, n3⟩ := A2.neg
  refine ⟨⟨A, A1, n1, by rw [n3]; exact A3⟩, ?_⟩
  have e1 : qv (-a) = - qv a := by
    rw [qv_UQ n1.fin, qv_UQ ha.fin, n2]; push_cast; ring
  rw [e1, ← neg_sub', abs_neg]
  exact ha.err

theorem QA.sub {a b : Quad} {x y e f X Y Z W g : ℝ} (ha : QA a x e X) (hb : QA b y f Y) (hX : X ≤ Z) (hY : Y ≤ Z)
    (hZ : Z ≤ 2 ^ 225 * 2 ^ 225 * 2 ^ 225 * 2 ^ 225) (hg : e + f + Z / 2 ^ 128 ≤ g) (hW : 51 / 100 * Z ≤ W)
    (hV : |x - y| + g + Z / 2 ^ 138 ≤ W * (1 - 1 / 2 ^ 40)) : QA (a - b) (x - y) g W := by
  rw [sub_eq_add_neg] at hV ⊢
  exact ha.add hb.neg hX hY hZ hg hW hV

/-- What a product of approximations is worth. -/
theorem prod_err {p q x y e f : ℝ} (h1 : |p - x| ≤ e) (h2 : |q - y| ≤ f) :
    |p * q - x * y| ≤ |x| * f + |y| * e + e * f := by
  have e1 : p * q - x * y = x * (q - y) + y * (p - x) + (p - x) * (q - y) := by ring
  rw [e1]
  have t1 := abs_add_le (x * (q - y) + y * (p - x)) ((p - x) * (q - y))
  have t2 := abs_add_le (x * (q - y)) (y * (p - x))
  rw [abs_mul, abs_mul] at t2
  rw [abs_mul (p - x)] at t1
  have u1 := mul_le_mul_of_nonneg_left h2 (abs_nonneg x)
  have u2 := mul_le_mul_of_nonneg_left h1 (abs_nonneg y)
  have u3 := mul_le_mul h1 h2 (abs_nonneg _) ((abs_nonneg _).trans h1)
  linarith

/-- The smallest scale for products. -/
theorem scale_420 {X : ℝ} (h : 1 ≤ X * (2 ^ 210 * 2 ^ 210)) : (((1 / (2 ^ 210 * 2 ^ 210) : ℚ)) : ℝ) ≤ X := by
  push_cast
  rw [div_le_iff₀ (by positivity)]
  exact h

theorem prod_big {A B : ℚ} (hA : 1 / (2 ^ 210 * 2 ^ 210) ≤ A) (hB : 1 / (2 ^ 210 * 2 ^ 210) ≤ B) :
    2 ^ 230 ≤ A * one' * (B * one') / one' := by
  have op := one'_posQ
  have e : A * one' * (B * one') / one' = A * B * one' := by field_simp
  rw [e, one'_pow]
  have h1 : (1 / (2 ^ 210 * 2 ^ 210) : ℚ) * (1 / (2 ^ 210 * 2 ^ 210)) ≤ A * B :=
    mul_le_mul hA hB (by positivity) ((by positivity : (0:ℚ) ≤ 1 / (2 ^ 210 * 2 ^ 210)).trans hA)
  refine le_trans ?_ (mul_le_mul_of_nonneg_right h1 (by positivity))
  have h2 : (2:ℚ) ^ 1074 = 2 ^ 234 * (2 ^ 210 * 2 ^ 210 * (2 ^ 210 * 2 ^ 210)) := by
    rw [← pow_add, ← pow_add, ← pow_add]
  rw [h2]
  have hp : (0:ℚ) < 2 ^ 210 := by positivity
  generalize (2:ℚ) ^ 210 = t at *
  field_simp
  norm_num

theorem prod_bigW {A B : ℚ} (h : 1 ≤ 4 * (A * B) * (2 ^ 210 * 2 ^ 210 * (2 ^ 210 * 2 ^ 210))) :
    2 ^ 230 ≤ A * one' * (B * one') / one' := by
  have op := one'_posQ
  have e : A * one' * (B * one') / one' = A * B * one' := by field_simp
  rw [e, one'_pow]
  have h2 : (2:ℚ) ^ 1074 = 2 ^ 234 * (2 ^ 210 * 2 ^ 210 * (2 ^ 210 * 2 ^ 210)) := by
    rw [← pow_add, ← pow_add, ← pow_add]
  rw [h2]
  have e2 : A * B * (2 ^ 234 * (2 ^ 210 * 2 ^ 210 * (2 ^ 210 * 2 ^ 210))) =
      4 * (A * B) * (2 ^ 210 * 2 ^ 210 * (2 ^ 210 * 2 ^ 210)) * 2 ^ 232 := by ring
  rw [e2]
  exact (le_mul_of_one_le_left (by positivity) h).trans' (pow_le_pow_right₀ (by norm_num) (by norm_num))

/-- Multiplication. -/
theorem QA.mulW {a b : Quad} {x y e f X Y W g : ℝ} (ha : QA a x e X) (hb : QA b y f Y)
    (pX : 0 < X) (pY : 0 < Y) (lXY : 1 ≤ X * Y * (2 ^ 210 * 2 ^ 210 * (2 ^ 210 * 2 ^ 210))) (hXY : X * Y ≤ 2 ^ 225 * 2 ^ 225 * 2 ^ 225 * 2 ^ 225)
    (hg : |x| * f + |y| * e + e * f + X * Y / 2 ^ 139 ≤ g) (hW : 51 / 100 * (X * Y) ≤ W)
    (hV : |x * y| + g + X * Y / 2 ^ 138 ≤ W * (1 - 1 / 2 ^ 40)) : QA (a * b) (x * y) g W := by
  obtain ⟨LX, u1, u2⟩ := exists_rat_btwn (show X / 2 < X by linarith)
  obtain ⟨LY, v1, v2⟩ := exists_rat_btwn (show Y / 2 < Y by linarith)
  obtain ⟨A, lA, A0, A1, A2, A3⟩ := ha.sz.raise u2.le
  obtain ⟨B, lB, B0, B1, B2, B3⟩ := hb.sz.raise v2.le
  have op := one'_posQ
  have hAB : ((A * B : ℚ) : ℝ) ≤ X * Y := by
    push_cast
    exact mul_le_mul A1 B1 (by exact_mod_cast B0) ((show (0:ℝ) ≤ (A : ℝ) by exact_mod_cast A0).trans A1)
  have hM : A * one' * (B * one') / one' = A * B * one' := by field_simp
  have hl := lim_of_900R (hAB.trans hXY)
  have p0 : 0 ≤ A * B * one' := by positivity
  have hbig : 2 ^ 230 ≤ A * one' * (B * one') / one' := by
    apply prod_bigW
    have h1 : (LX : ℝ) ≤ A := by exact_mod_cast lA
    have h2 : (LY : ℝ) ≤ B := by exact_mod_cast lB
    have h3 : X / 2 * (Y / 2) ≤ (A : ℝ) * B := mul_le_mul (by linarith) (by linarith) (by linarith) (by linarith)
    have h4 : (1:ℝ) ≤ 4 * ((A : ℝ) * B) * (2 ^ 210 * 2 ^ 210 * (2 ^ 210 * 2 ^ 210)) :=
      lXY.trans (mul_le_mul_of_nonneg_right (by linarith) (by positivity))
    exact (Rat.cast_le (K := ℝ)).mp (by push_cast; exact h4)
  rw [hM] at hbig
  obtain ⟨Q, er⟩ := mul_slack A2 B2 A3 B3 hM hbig (by linarith)
  have er' : |qv (a * b) - ((a.val * b.val : ℚ) : ℝ)| ≤ ((A * B / 2 ^ 139 : ℚ) : ℝ) := by
    apply qv_err Q.fin
    have e1 : UP a b = a.val * b.val * one' := by
      unfold UP
      rw [UQ_val ha.fin, UQ_val hb.fin]; field_simp
    rw [e1] at er
    refine er.trans ?_
    linarith
  have hval : |qv (a * b) - x * y| ≤ g := by
    have e1 : qv (a * b) - x * y = (qv (a * b) - ((a.val * b.val : ℚ) : ℝ)) + (qv a * qv b - x * y) := by
      unfold qv; push_cast; ring
    rw [e1]
    refine (abs_add_le _ _).trans ?_
    have := prod_err ha.err hb.err
    push_cast at er' hAB ⊢
    linarith
  push_cast at hAB
  refine ⟨sz_of (Z := A * B) (Q.mono (le_refl _) (by linarith)) (by positivity) (by push_cast; linarith) ?_, hval⟩
  have := abs_sub_abs_le_abs_sub (qv (a * b)) (x * y)
  push_cast
  linarith

/-- Multiplication of factors that are both not tiny. -/
theorem QA.mul {a b : Quad} {x y e f X Y W g : ℝ} (ha : QA a x e X) (hb : QA b y f Y)
    (lX : 1 ≤ X * (2 ^ 210 * 2 ^ 210)) (lY : 1 ≤ Y * (2 ^ 210 * 2 ^ 210)) (hXY : X * Y ≤ 2 ^ 225 * 2 ^ 225 * 2 ^ 225 * 2 ^ 225)
    (hg : |x| * f + |y| * e + e * f + X * Y / 2 ^ 139 ≤ g) (hW : 51 / 100 * (X * Y) ≤ W)
    (hV : |x * y| + g + X * Y / 2 ^ 138 ≤ W * (1 - 1 / 2 ^ 40)) : QA (a * b) (x * y) g W := by
  have hp : ∀ {z : ℝ}, 1 ≤ z * (2 ^ 210 * 2 ^ 210) → 0 < z := fun h => pos_of_mul_pos_left (lt_of_lt_of_le one_pos h) (by positivity)
  refine ha.mulW hb (hp lX) (hp lY) ?_ hXY hg hW hV
  calc (1:ℝ) = 1 * 1 := (one_mul 1).symm
    _ ≤ X * (2 ^ 210 * 2 ^ 210) * (Y * (2 ^ 210 * 2 ^ 210)) := mul_le_mul lX lY zero_le_one (zero_le_one.trans lX)
    _ = _ := by ring

/-- Squaring. -/
theorem QA.sqr {a : Quad} {x e X W g : ℝ} (ha : QA a x e X)
    (lX : 1 ≤ X * (2 ^ 210 * 2 ^ 210)) (hX : X ≤ 2 ^ 225 * 2 ^ 225)
    (hg : 2 * |x| * e + e * e + X * X / 2 ^ 139 ≤ g) (hW : 51 / 100 * (X * X) ≤ W)
    (hV : x ^ 2 + g + X * X / 2 ^ 138 ≤ W * (1 - 1 / 2 ^ 40)) : QA a.sqr (x ^ 2) g W := by
  obtain ⟨A, lA, A0, A1, A2, A3⟩ := ha.sz.raise (scale_420 lX)
  have op := one'_posQ
  have A0R : (0:ℝ) ≤ (A : ℝ) := by exact_mod_cast A0
  have hAB : ((A * A : ℚ) : ℝ) ≤ X * X := by
    push_cast
    exact mul_le_mul A1 A1 A0R (A0R.trans A1)
  have hM : A * one' * (A * one') / one' = A * A * one' := by field_simp
  have hXX : X * X ≤ 2 ^ 225 * 2 ^ 225 * 2 ^ 225 * 2 ^ 225 := by
    refine (mul_le_mul hX hX (A0R.trans A1) (by positivity)).trans (le_of_eq ?_)
    ring
  have hl := lim_of_900R (hAB.trans hXX)
  have hl2 := lim_of_900R (Z := A) ((A1.trans hX).trans (by
    rw [mul_assoc (2 ^ 225 * 2 ^ 225 : ℝ)]
    exact le_mul_of_one_le_right (by positivity) (by norm_num)))
  have p0 : 0 ≤ A * A * one' := by positivity
  have p1 : 0 ≤ A * one' := by positivity
  have hbig := prod_big lA lA
  rw [hM] at hbig
  obtain ⟨Q, er⟩ := sqr_slack A2 A3 hM hbig (by linarith) (by linarith)
  have er' : |qv a.sqr - ((a.val * a.val : ℚ) : ℝ)| ≤ ((A * A / 2 ^ 139 : ℚ) : ℝ) := by
    apply qv_err Q.fin
    have e1 : UP a a = a.val * a.val * one' := by
      unfold UP
      rw [UQ_val ha.fin]; field_simp
    rw [e1] at er
    refine er.trans ?_
    linarith
  have hval : |qv a.sqr - x ^ 2| ≤ g := by
    have e1 : qv a.sqr - x ^ 2 = (qv a.sqr - ((a.val * a.val : ℚ) : ℝ)) + (qv a * qv a - x * x) := by
      unfold qv; push_cast; ring
    rw [e1]
    refine (abs_add_le _ _).trans ?_
    have := prod_err ha.err ha.err
    push_cast at er' hAB ⊢
    linarith
  push_cast at hAB
  refine ⟨sz_of (Z := A * A) (Q.mono (le_refl _) (by linarith)) (by positivity) (by push_cast; linarith) ?_, hval⟩
  have := abs_sub_abs_le_abs_sub (qv a.sqr) (x ^ 2)
  rw [abs_of_nonneg (sq_nonneg x)] at this
  push_cast
  linarith

theorem lim_top : (2:ℚ) ^ 225 * 2 ^ 225 * 2 ^ 225 * 2 ^ 225 * 2 ^ 122 * 3 * one' ≤ lim := by
  unfold lim; push_cast; rw [one'_pow, mul_right_comm, ← pow_add, ← pow_add, ← pow_add, ← pow_add, ← pow_add, mul_comm]

theorem lim_of_top {Z : ℚ} (h : (Z : ℝ) ≤ 2 ^ 225 * 2 ^ 225 * 2 ^ 225 * 2 ^ 225 * 2 ^ 122 * (149 / 100)) :
    201 / 100 * (Z * one') ≤ (lim : ℚ) := by
  have op := one'_posQ
  refine le_trans ?_ lim_top
  rw [← mul_assoc]
  refine mul_le_mul_of_nonneg_right ?_ op.le
  have h' : Z ≤ 2 ^ 225 * 2 ^ 225 * 2 ^ 225 * 2 ^ 225 * 2 ^ 122 * (149 / 100) :=
    (Rat.cast_le (K := ℝ)).mp (by push_cast; exact h)
  refine (mul_le_mul_of_nonneg_left h' (by norm_num)).trans ?_
  norm_num

/-- Scaling by a power of two. -/
theorem QA.scale {a : Quad} {p : F64} {c : ℚ} {x e X : ℝ} (ha : QA a x e X)
    (hp : (∃ k : ℕ, c = 2 ^ k ∧ Is p (2 ^ k * one')) ∨ (∃ k : ℕ, k ≤ 1074 ∧ c = 1 / 2 ^ k ∧ Is p (2 ^ (1074 - k))))
    (hX : c * X ≤ 2 ^ 225 * 2 ^ 225 * 2 ^ 225 * 2 ^ 225 * 2 ^ 122 * (149 / 100)) (lX : 1 ≤ c * X * (2 ^ 210 * 2 ^ 210 * 2 ^ 210 * 2 ^ 210)) :
    QA (mulPwr2 a p) (c * x) (c * e + c * X / 2 ^ 200) (c * X * (1 + 1 / 2 ^ 50)) := by
  have hc : 0 < c := by rcases hp with ⟨k, rfl, _⟩ | ⟨k, _, rfl, _⟩ <;> positivity
  have hcR : (0:ℝ) < (c : ℝ) := by exact_mod_cast hc
  obtain ⟨A, lA, A0, A1, A2, A3⟩ := ha.sz.raise (L := 1 / (c * (2 ^ 210 * 2 ^ 210 * 2 ^ 210 * 2 ^ 210))) (by
    push_cast
    rw [div_le_iff₀ (by positivity)]
    calc (1:ℝ) ≤ _ := lX
      _ = _ := by ring)
  have op := one'_posQ
  have A0R : (0:ℝ) ≤ (A : ℝ) := by exact_mod_cast A0
  have hcA : ((c * A : ℚ) : ℝ) ≤ c * X := by push_cast; exact mul_le_mul_of_nonneg_left A1 hcR.le
  have hl := lim_of_top (hcA.trans hX)
  have p0 : 0 ≤ c * A * one' := by positivity
  have A3' := mul_le_mul_of_nonneg_right A3 hc.le
  obtain ⟨Q, er, eh⟩ := scale_slack A2 (by positivity) hp (by linarith)
  have hu : 4 ≤ c * A * one' / 2 ^ 205 := by
    rw [div_le_iff₀ (by positivity), mul_comm] at lA
    rw [le_div_iff₀ (by positivity), one'_pow]
    have h2 : (2:ℚ) ^ 1074 = 2 ^ 234 * (2 ^ 210 * 2 ^ 210 * 2 ^ 210 * 2 ^ 210) := by
      rw [← pow_add, ← pow_add, ← pow_add, ← pow_add]
    rw [h2]
    have lA' : (1:ℚ) ≤ c * A * (2 ^ 210 * 2 ^ 210 * 2 ^ 210 * 2 ^ 210) := by linarith
    have e : c * A * (2 ^ 234 * (2 ^ 210 * 2 ^ 210 * 2 ^ 210 * 2 ^ 210)) =
      c * A * (2 ^ 210 * 2 ^ 210 * 2 ^ 210 * 2 ^ 210) * 2 ^ 234 := by ring
    rw [e]
    generalize c * A * (2 ^ 210 * 2 ^ 210 * 2 ^ 210 * 2 ^ 210) = k at *
    linarith
  have hq : (((c * A * (1 + 1 / 2 ^ 50)) : ℚ) : ℝ) ≤ c * X * (1 + 1 / 2 ^ 50) := by
    push_cast at hcA ⊢
    exact mul_le_mul_of_nonneg_right hcA (by positivity)
  refine ⟨⟨c * A * (1 + 1 / 2 ^ 50), hq, Q.mono (le_refl _) (by linarith), ?_⟩, ?_⟩
  · have h1 := abs_sub_abs_le_abs_sub (U (mulPwr2 a p).c0) (c * U a.c0)
    rw [abs_mul, abs_of_pos hc] at h1
    linarith
  · have er' : |qv (mulPwr2 a p) - ((c * a.val : ℚ) : ℝ)| ≤ ((c * A / 2 ^ 200 : ℚ) : ℝ) := by
      apply qv_err Q.fin
      rw [UQ_val ha.fin, ← mul_assoc] at er
      refine er.trans ?_
      linarith
    have e1 : qv (mulPwr2 a p) - c * x = (qv (mulPwr2 a p) - ((c * a.val : ℚ) : ℝ)) + c * (qv a - x) := by
      unfold qv; push_cast; ring
    rw [e1]
    refine (abs_add_le _ _).trans ?_
    rw [abs_mul, abs_of_pos hcR]
    have := mul_le_mul_of_nonneg_left ha.err hcR.le
    push_cast at er' hcA ⊢
    linarith

end Verif
