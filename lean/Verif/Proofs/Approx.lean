import Verif.Props.Powi
import Verif.Props.Ldexp
import Mathlib.Data.Real.Basic
import Mathlib.Algebra.Order.Archimedean.Real.Basic
import Mathlib.Tactic.Linarith
import Mathlib.Tactic.Positivity

/-!
# Absolute error bookkeeping for compositions of Double operations

`rv d` is the exact value as a real number. `Ap d x e`: `d` is normalized and within `e` of `x`; `ApH` is the same for the
weaker "second component at most half an ulp of the first" (what halving a subnormal number leaves).
-/

namespace Verif

/-- The exact value as a real number. -/
noncomputable def rv (d : Double) : ℝ := ((d.val : ℚ) : ℝ)

/-- Second component at most half an ulp of the first. -/
def HalfN (d : Double) : Prop := ∃ h l, DIs d h l ∧ Half2 h l

theorem Double.Normalized.halfN {d : Double} (h : d.Normalized) : HalfN d := by
  obtain ⟨a, b, i, n⟩ := h.norm2
  exact ⟨a, b, i, n.half⟩

def Ap (d : Double) (x e : ℝ) : Prop := d.Normalized ∧ |rv d - x| ≤ e

def ApH (d : Double) (x e : ℝ) : Prop := HalfN d ∧ |rv d - x| ≤ e

theorem Ap.toH {d : Double} {x e : ℝ} (h : Ap d x e) : ApH d x e := ⟨h.1.halfN, h.2⟩

theorem Ap.mono {d : Double} {x e f : ℝ} (h : Ap d x e) (hf : e ≤ f) : Ap d x f := ⟨h.1, h.2.trans hf⟩

theorem Ap.exact {d : Double} (h : d.Normalized) : Ap d (rv d) 0 := ⟨h, by simp⟩

theorem Ap.congr {d : Double} {x y e : ℝ} (h : Ap d x e) (hy : x = y) : Ap d y e := hy ▸ h

theorem Ap.move {d : Double} {x y e f : ℝ} (h : Ap d x e) (hy : |x - y| ≤ f) : Ap d y (e + f) := by
  refine ⟨h.1, ?_⟩
  calc |rv d - y| = |(rv d - x) + (x - y)| := by ring_nf
    _ ≤ |rv d - x| + |x - y| := abs_add_le _ _
    _ ≤ e + f := add_le_add h.2 hy

theorem ApH.abs_le {d : Double} {x e : ℝ} (h : ApH d x e) : |rv d| ≤ |x| + e := by
  have := abs_add_le (rv d - x) x
  rw [sub_add_cancel] at this
  linarith [h.2]

theorem Ap.abs_le {d : Double} {x e : ℝ} (h : Ap d x e) : |rv d| ≤ |x| + e := h.toH.abs_le

theorem Ap.nonneg {d : Double} {x e : ℝ} (h : Ap d x e) : 0 ≤ e := (abs_nonneg _).trans h.2

theorem ApH.nonneg {d : Double} {x e : ℝ} (h : ApH d x e) : 0 ≤ e := (abs_nonneg _).trans h.2

theorem Ap.neg {d : Double} {x e : ℝ} (h : Ap d x e) : Ap (-d) (-x) e := by
  obtain ⟨a, b, i, n⟩ := h.1.norm2
  refine ⟨n.swap_sign.normalized i.neg, ?_⟩
  have e1 : rv (-d) = -rv d := by
    unfold rv
    rw [i.neg.val, i.val]; push_cast; ring
  rw [e1, neg_sub_neg, abs_sub_comm]; exact h.2

theorem rv_neg {d : Double} (h : d.Normalized) : rv (-d) = -rv d := by
  obtain ⟨a, b, i, n⟩ := h.norm2
  unfold rv
  rw [i.neg.val, i.val]; push_cast; ring

/-! ## Size of the first component -/

theorem units_le_of_rv {d : Double} {h l : ℤ} (i : DIs d h l) (n : Half2 h l) {k : ℕ} (hv : |rv d| ≤ 2 ^ k) :
    |h| ≤ 2 ^ (k + 1) * one' := by
  have h1 : |d.val| ≤ 2 ^ k := by
    have : |((d.val : ℚ) : ℝ)| ≤ ((2 ^ k : ℚ) : ℝ) := by push_cast; exact hv
    exact_mod_cast this
  rw [i.val, abs_div_one', div_le_iff₀ one'_posQ] at h1
  have h2 : |h + l| ≤ 2 ^ k * one' := by exact_mod_cast h1
  have h3 := n.lo_le
  have h4 := abs_tri h l
  have h5 := abs_nonneg l
  rw [pow_succ]
  linarith

theorem toRat_le_of_rv {d : Double} {h l : ℤ} (i : DIs d h l) (n : Half2 h l) {k : ℕ} (hv : |rv d| ≤ 2 ^ k) :
    |d.hi.toRat| ≤ 2 ^ (k + 1) := by
  have := units_le_of_rv i n hv
  rw [i.1.toRat, abs_div_one', div_le_iff₀ one'_posQ]
  exact_mod_cast this

/-! ## Addition and subtraction -/

theorem two_le_1023 {x y : ℚ} (hx : |x| ≤ 2 ^ 201) (hy : |y| ≤ 2 ^ 201) : |x| + |y| ≤ 2 ^ 1023 := by
  have : (2:ℚ) ^ 202 ≤ 2 ^ 1023 := pow_le_pow_right₀ (by norm_num) (by norm_num)
  have e : (2:ℚ) ^ 202 = 2 ^ 201 + 2 ^ 201 := by norm_num
  exact (add_le_add hx hy).trans (e ▸ this)

theorem prod_le_1023 {x y : ℚ} (hx : |x| ≤ 2 ^ 201) (hy : |y| ≤ 2 ^ 201) : |x * y| ≤ 2 ^ 1023 := by
  have : (2:ℚ) ^ 402 ≤ 2 ^ 1023 := pow_le_pow_right₀ (by norm_num) (by norm_num)
  have e : (2:ℚ) ^ 402 = 2 ^ 201 * 2 ^ 201 := by rw [← pow_add]
  rw [abs_mul]
  exact (mul_le_mul hx hy (abs_nonneg _) (by positivity)).trans (e ▸ this)

theorem cast_rel {x y : ℚ} (k : ℕ) (h : |x - y| * 2 ^ k ≤ |y|) : |(x : ℝ) - (y : ℝ)| ≤ |(y : ℝ)| / 2 ^ k := by
  rw [le_div_iff₀ (by positivity)]
  exact_mod_cast h

theorem rv_add {a b : Double} (ha : HalfN a) (hb : HalfN b) (h1 : |rv a| ≤ 2 ^ 200) (h2 : |rv b| ≤ 2 ^ 200) :
    Ap (a + b) (rv a + rv b) (|rv a + rv b| / 2 ^ 103) := by
  obtain ⟨xh, xl, ia, hx⟩ := ha
  obtain ⟨yh, yl, ib, hy⟩ := hb
  obtain ⟨zh, zl, iz, hz, he⟩ := add_specH ia ib hx hy
    (range2 ia.1 ib.1 (two_le_1023 (toRat_le_of_rv ia hx h1) (toRat_le_of_rv ib hy h2)))
  refine ⟨hz.normalized iz, ?_⟩
  have := lift_rel (Y := a.val + b.val) 103 iz.val (by rw [ia.val, ib.val, ← add_div]; push_cast; rfl) he
  have := cast_rel _ this
  push_cast at this
  exact this

theorem rv_sub {a b : Double} (ha : HalfN a) (hb : HalfN b) (h1 : |rv a| ≤ 2 ^ 200) (h2 : |rv b| ≤ 2 ^ 200) :
    Ap (a - b) (rv a - rv b) (|rv a - rv b| / 2 ^ 103) := by
  obtain ⟨xh, xl, ia, hx⟩ := ha
  obtain ⟨yh, yl, ib, hy⟩ := hb
  obtain ⟨zh, zl, iz, hz, he⟩ := sub_specH ia ib hx hy
    (range2 ia.1 ib.1 (two_le_1023 (toRat_le_of_rv ia hx h1) (toRat_le_of_rv ib hy h2)))
  refine ⟨hz.normalized iz, ?_⟩
  have := lift_rel (Y := a.val - b.val) 103 iz.val (by rw [ia.val, ib.val, ← sub_div]; push_cast; rfl) he
  have := cast_rel _ this
  push_cast at this
  exact this

theorem tiny_le : (2:ℝ) / 2 ^ 1074 ≤ 1 / 2 ^ 250 := by
  have : (2:ℝ) ^ 1074 = 2 ^ 251 * 2 ^ 823 := by rw [← pow_add]
  rw [this]
  have h : (1:ℝ) ≤ 2 ^ 823 := one_le_pow₀ (by norm_num)
  generalize (2:ℝ) ^ 823 = P at *
  rw [div_le_div_iff₀ (by positivity) (by positivity)]
  have : (2:ℝ) * 2 ^ 250 = 2 ^ 251 := by norm_num
  rw [this, one_mul]
  exact le_mul_of_one_le_right (by positivity) h

theorem rv_mul {a b : Double} (ha : a.Normalized) (hb : b.Normalized) (h1 : |rv a| ≤ 2 ^ 200) (h2 : |rv b| ≤ 2 ^ 200) :
    Ap (a * b) (rv a * rv b) (9 / 2 ^ 106 * |rv a * rv b| + 1 / 2 ^ 250) := by
  obtain ⟨xh, xl, ia, hx⟩ := ha.halfN
  obtain ⟨yh, yl, ib, hy⟩ := hb.halfN
  obtain ⟨hn, he⟩ := C03_mul a b ha hb (prod_le_1023 (toRat_le_of_rv ia hx h1) (toRat_le_of_rv ib hy h2))
  refine ⟨hn, ?_⟩
  have := (Rat.cast_le (K := ℝ)).mpr he
  push_cast at this
  exact this.trans (add_le_add le_rfl tiny_le)

theorem rv_sqr {a : Double} (ha : a.Normalized) (h1 : |rv a| ≤ 2 ^ 200) :
    Ap a.sqr (rv a ^ 2) (9 / 2 ^ 106 * rv a ^ 2 + 1 / 2 ^ 250) ∧ 0 ≤ rv a.sqr := by
  obtain ⟨xh, xl, ia, hx⟩ := ha.halfN
  obtain ⟨hn, h0, he⟩ := C36_sqr a ha (prod_le_1023 (toRat_le_of_rv ia hx h1) (toRat_le_of_rv ia hx h1))
  refine ⟨⟨hn, ?_⟩, ?_⟩
  · have := (Rat.cast_le (K := ℝ)).mpr he
    push_cast at this
    exact this.trans (add_le_add le_rfl tiny_le)
  · unfold rv; exact_mod_cast h0

/-! ## Combination rules -/

theorem ApH.add {a b : Double} {x y e f M g : ℝ} (ha : ApH a x e) (hb : ApH b y f) (h1 : |x| + e ≤ 2 ^ 200)
    (h2 : |y| + f ≤ 2 ^ 200) (hM : |x + y| ≤ M) (hg : e + f + (M + e + f) / 2 ^ 103 ≤ g) : Ap (a + b) (x + y) g := by
  have s := rv_add ha.1 hb.1 (ha.abs_le.trans h1) (hb.abs_le.trans h2)
  refine ⟨s.1, ?_⟩
  have t1 : |rv a + rv b - (x + y)| ≤ e + f := by
    calc _ = |(rv a - x) + (rv b - y)| := by ring_nf
      _ ≤ _ := (abs_add_le _ _).trans (add_le_add ha.2 hb.2)
  have t2 : |rv a + rv b| ≤ M + e + f := by
    have := abs_add_le (rv a + rv b - (x + y)) (x + y)
    rw [sub_add_cancel] at this; linarith
  have t3 : |rv (a + b) - (x + y)| ≤ |rv (a + b) - (rv a + rv b)| + |rv a + rv b - (x + y)| := by
    have := abs_add_le (rv (a + b) - (rv a + rv b)) (rv a + rv b - (x + y))
    rwa [sub_add_sub_cancel] at this
  have t4 : |rv a + rv b| / 2 ^ 103 ≤ (M + e + f) / 2 ^ 103 := div_le_div_of_nonneg_right t2 (by positivity)
  linarith [s.2]

theorem ApH.sub {a b : Double} {x y e f M g : ℝ} (ha : ApH a x e) (hb : ApH b y f) (h1 : |x| + e ≤ 2 ^ 200)
    (h2 : |y| + f ≤ 2 ^ 200) (hM : |x - y| ≤ M) (hg : e + f + (M + e + f) / 2 ^ 103 ≤ g) : Ap (a - b) (x - y) g := by
  have s := rv_sub ha.1 hb.1 (ha.abs_le.trans h1) (hb.abs_le.trans h2)
  refine ⟨s.1, ?_⟩
  have t1 : |rv a - rv b - (x - y)| ≤ e + f := by
    calc _ = |(rv a - x) - (rv b - y)| := by ring_nf
      _ ≤ _ := (abs_sub _ _).trans (add_le_add ha.2 hb.2)
  have t2 : |rv a - rv b| ≤ M + e + f := by
    have := abs_add_le (rv a - rv b - (x - y)) (x - y)
    rw [sub_add_cancel] at this; linarith
  have t3 : |rv (a - b) - (x - y)| ≤ |rv (a - b) - (rv a - rv b)| + |rv a - rv b - (x - y)| := by
    have := abs_add_le (rv (a - b) - (rv a - rv b)) (rv a - rv b - (x - y))
    rwa [sub_add_sub_cancel] at this
  have t4 : |rv a - rv b| / 2 ^ 103 ≤ (M + e + f) / 2 ^ 103 := div_le_div_of_nonneg_right t2 (by positivity)
  linarith [s.2]

theorem Ap.add {a b : Double} {x y e f M g : ℝ} (ha : Ap a x e) (hb : Ap b y f) (h1 : |x| + e ≤ 2 ^ 200)
    (h2 : |y| + f ≤ 2 ^ 200) (hM : |x + y| ≤ M) (hg : e + f + (M + e + f) / 2 ^ 103 ≤ g) : Ap (a + b) (x + y) g :=
  ha.toH.add hb.toH h1 h2 hM hg

theorem Ap.sub {a b : Double} {x y e f M g : ℝ} (ha : Ap a x e) (hb : Ap b y f) (h1 : |x| + e ≤ 2 ^ 200)
    (h2 : |y| + f ≤ 2 ^ 200) (hM : |x - y| ≤ M) (hg : e + f + (M + e + f) / 2 ^ 103 ≤ g) : Ap (a - b) (x - y) g :=
  ha.toH.sub hb.toH h1 h2 hM hg

theorem Ap.mul {a b : Double} {x y e f X Y g : ℝ} (ha : Ap a x e) (hb : Ap b y f) (hX : |x| ≤ X) (hY : |y| ≤ Y)
    (h1 : X + e ≤ 2 ^ 200) (h2 : Y + f ≤ 2 ^ 200)
    (hg : X * f + Y * e + e * f + 9 / 2 ^ 106 * ((X + e) * (Y + f)) + 1 / 2 ^ 250 ≤ g) : Ap (a * b) (x * y) g := by
  have b1 : |rv a| ≤ X + e := ha.abs_le.trans (by linarith)
  have b2 : |rv b| ≤ Y + f := hb.abs_le.trans (by linarith)
  have s := rv_mul ha.1 hb.1 (b1.trans h1) (b2.trans h2)
  refine ⟨s.1, ?_⟩
  have he := ha.nonneg
  have hf := hb.nonneg
  have hX0 := (abs_nonneg x).trans hX
  have hY0 := (abs_nonneg y).trans hY
  have t1 : |rv a * rv b - x * y| ≤ X * f + Y * e + e * f := by
    calc |rv a * rv b - x * y| = |x * (rv b - y) + (rv a - x) * y + (rv a - x) * (rv b - y)| := by ring_nf
      _ ≤ |x * (rv b - y)| + |(rv a - x) * y| + |(rv a - x) * (rv b - y)| := abs_add_three _ _ _
      _ = |x| * |rv b - y| + |rv a - x| * |y| + |rv a - x| * |rv b - y| := by simp only [abs_mul]
      _ ≤ X * f + e * Y + e * f := by
        have := mul_le_mul hX hb.2 (abs_nonneg _) hX0
        have := mul_le_mul ha.2 hY (abs_nonneg _) he
        have := mul_le_mul ha.2 hb.2 (abs_nonneg _) he
        linarith
      _ = _ := by ring
  have t2 : |rv a * rv b| ≤ (X + e) * (Y + f) := by
    rw [abs_mul]; exact mul_le_mul b1 b2 (abs_nonneg _) (by linarith)
  have t3 : |rv (a * b) - x * y| ≤ |rv (a * b) - rv a * rv b| + |rv a * rv b - x * y| := by
    have := abs_add_le (rv (a * b) - rv a * rv b) (rv a * rv b - x * y)
    rwa [sub_add_sub_cancel] at this
  have t4 := mul_le_mul_of_nonneg_left t2 (show (0:ℝ) ≤ 9 / 2 ^ 106 by positivity)
  linarith [s.2]

theorem Ap.sqr {a : Double} {x e X g : ℝ} (ha : Ap a x e) (hX : |x| ≤ X) (h1 : X + e ≤ 2 ^ 200)
    (hg : 2 * X * e + e * e + 9 / 2 ^ 106 * ((X + e) * (X + e)) + 1 / 2 ^ 250 ≤ g) : Ap a.sqr (x ^ 2) g := by
  have b1 : |rv a| ≤ X + e := ha.abs_le.trans (by linarith)
  have s := (rv_sqr ha.1 (b1.trans h1)).1
  refine ⟨s.1, ?_⟩
  have he := ha.nonneg
  have hX0 := (abs_nonneg x).trans hX
  have t1 : |rv a ^ 2 - x ^ 2| ≤ 2 * X * e + e * e := by
    calc |rv a ^ 2 - x ^ 2| = |2 * (x * (rv a - x)) + (rv a - x) * (rv a - x)| := by ring_nf
      _ ≤ |2 * (x * (rv a - x))| + |(rv a - x) * (rv a - x)| := abs_add_le _ _
      _ = 2 * (|x| * |rv a - x|) + |rv a - x| * |rv a - x| := by rw [abs_mul, abs_mul, abs_mul]; norm_num
      _ ≤ 2 * (X * e) + e * e := by
        have := mul_le_mul hX ha.2 (abs_nonneg _) hX0
        have := mul_le_mul ha.2 ha.2 (abs_nonneg _) he
        linarith
      _ = _ := by ring
  have t2 : rv a ^ 2 ≤ (X + e) * (X + e) := by
    rw [← sq_abs, pow_two]; exact mul_le_mul b1 b1 (abs_nonneg _) (by linarith)
  have t3 : |rv a.sqr - x ^ 2| ≤ |rv a.sqr - rv a ^ 2| + |rv a ^ 2 - x ^ 2| := by
    have := abs_add_le (rv a.sqr - rv a ^ 2) (rv a ^ 2 - x ^ 2)
    rwa [sub_add_sub_cancel] at this
  have t4 := mul_le_mul_of_nonneg_left t2 (show (0:ℝ) ≤ 9 / 2 ^ 106 by positivity)
  linarith [s.2]

/-! ## Multiplication by powers of two -/

theorem rnd_half_err {n : ℤ} (hn : Rep n) : |2 * rnd ((n : ℚ) / 2) - n| ≤ 1 := by
  by_cases h : |n| < 2 ^ 53
  · have h1 : |(n : ℚ) / 2| < 2 ^ (53 + 0) := by
      rw [abs_div]
      have : |(n : ℚ)| < 2 ^ 53 := by exact_mod_cast h
      norm_num
      norm_num at this
      linarith
    have h2 := abs_sub_rnd h1
    have h3 : |((2 * rnd ((n : ℚ) / 2) - n : ℤ) : ℚ)| ≤ 1 := by
      push_cast
      rw [abs_le] at h2 ⊢
      norm_num at h2
      constructor <;> linarith
    exact_mod_cast h3
  · have h1 : (2:ℤ) ^ 1 ∣ n := hn.dvd_of_le (by push Not at h; exact h)
    obtain ⟨m, rfl⟩ := h1
    have hm : Rep m := by
      obtain ⟨c, k, hc, e⟩ := hn
      rcases k with _ | k
      · rw [pow_zero, mul_one] at e
        exact ⟨m, 0, by rw [← e, abs_mul] at hc; norm_num at hc; have := abs_nonneg m; norm_num; linarith, by ring⟩
      · exact ⟨c, k, hc, by rw [pow_succ (2:ℤ) k, pow_one] at e; linarith⟩
    have e : (((2:ℤ) ^ 1 * m : ℤ) : ℚ) / 2 = (m : ℚ) := by push_cast; ring
    rw [e, rnd_of_rep hm]; norm_num

theorem rnd_half_one : rnd ((1 : ℚ) / 2) = 0 := by decide +kernel

theorem expo_half_ge {h h' : ℤ} (he : expo (h : ℚ) ≠ 0) (e : h = 2 * h') : expo (h : ℚ) - 1 ≤ expo (h' : ℚ) := by
  apply le_expo_of_le
  have := expo_le (h : ℚ) he
  rw [e] at this ⊢
  obtain ⟨k, hk⟩ := Nat.exists_eq_succ_of_ne_zero (e ▸ he)
  rw [hk] at this ⊢
  push_cast at this ⊢
  rw [abs_mul, Nat.succ_eq_add_one, ← add_assoc, pow_succ] at this
  norm_num at this ⊢
  linarith

theorem half2_half {h l : ℤ} (n : Norm2 h l) : Half2 (rnd ((h : ℚ) / 2)) (rnd ((l : ℚ) / 2)) := by
  refine ⟨rep_rnd _, rep_rnd _, ?_⟩
  have h2 := n.two_lo
  by_cases hE : expo (h : ℚ) = 0
  · rw [hE] at h2
    have hl : l = 0 := by
      have := abs_nonneg l
      have : |l| = 0 := by omega
      exact abs_eq_zero.mp this
    subst hl
    have : rnd (((0:ℤ) : ℚ) / 2) = 0 := by norm_num [rnd_zero]
    rw [this]; simp
  · have hd := n.rep_hi.dvd
    obtain ⟨k, hk⟩ := Nat.exists_eq_succ_of_ne_zero hE
    have hd2 : (2:ℤ) ∣ h := dvd_trans (by rw [hk, pow_succ]; exact Dvd.intro_left _ rfl) hd
    obtain ⟨h', e⟩ := hd2
    have e1 := rnd_half_err n.rep_hi
    have e2 : rnd ((h : ℚ) / 2) = h' := by
      have := abs_le.mp e1
      omega
    have e3 := expo_half_ge hE e
    rw [e2]
    have hle : (2:ℤ) ^ k ≤ 2 ^ expo (h' : ℚ) := pow_le_pow_right₀ (by norm_num) (by omega)
    refine le_trans ?_ hle
    rw [hk, Nat.succ_eq_add_one, pow_succ] at h2
    rcases k with _ | k
    · -- |l| ≤ 1
      have hl : |l| ≤ 1 := by simpa using h2
      have : l = 0 ∨ l = 1 ∨ l = -1 := by have := abs_le.mp hl; omega
      rcases this with rfl | rfl | rfl
      · have : rnd (((0:ℤ) : ℚ) / 2) = 0 := by norm_num [rnd_zero]
        rw [this]; simp
      · have : rnd (((1:ℤ) : ℚ) / 2) = 0 := by push_cast; exact rnd_half_one
        rw [this]; simp
      · have : rnd (((-1:ℤ) : ℚ) / 2) = 0 := by push_cast; rw [neg_div, rnd_neg, rnd_half_one]; rfl
        rw [this]; simp
    · have hl : |l| ≤ 2 ^ (k + 1) := by omega
      have hq : |(l : ℚ) / 2| ≤ 2 ^ k := by
        rw [abs_div]
        have : |(l : ℚ)| ≤ 2 ^ (k + 1) := by exact_mod_cast hl
        rw [pow_succ] at this
        norm_num
        linarith
      have := abs_rnd_le_two_pow hq
      rw [pow_succ]
      linarith

theorem big_le_omega : (2:ℚ) ^ 1022 * one' ≤ omegaUnits := by
  have : (2:ℤ) ^ 1022 * one' ≤ omegaUnits := by
    unfold one' omegaUnits
    rw [← pow_add, show 1022 + 1074 = 2045 + 51 by norm_num, pow_add]
    apply mul_le_mul_of_nonneg_left (by norm_num)
    exact pow_nonneg (by norm_num) _
  exact_mod_cast this

theorem half_range {m : ℤ} {x : F64} (i : Is x m) : |((m : ℚ) * (hf : ℤ)) / one'| ≤ (omegaUnits : ℚ) := by
  have e : ((m : ℚ) * (hf : ℤ)) / one' = m / 2 := by
    have h0 : (hf : ℚ) ≠ 0 := by have := hf_pos; positivity
    rw [one'_hf]; push_cast
    field_simp
  rw [e, abs_div]
  have h1 := i.lt
  have h2 : ovf ≤ 2 * omegaUnits := by
    unfold ovf omegaUnits
    rw [show 2098 = 2045 + 53 by norm_num, pow_add, ← mul_assoc, mul_comm (2:ℤ), mul_assoc]
    apply mul_le_mul_of_nonneg_left (by norm_num)
    exact pow_nonneg (by norm_num) _
  have h3 : |m| ≤ 2 * omegaUnits := by linarith
  have h4 : |(m:ℚ)| ≤ 2 * (omegaUnits : ℚ) := by exact_mod_cast h3
  norm_num
  linarith

theorem Is.half {m : ℤ} {x : F64} (i : Is x m) : Is (F64.mul x Double.half) (rnd ((m : ℚ) / 2)) := by
  have := i.mul is_half (half_range i)
  have e : ((m : ℚ) * (hf : ℤ)) / one' = m / 2 := by
    have h0 : (hf : ℚ) ≠ 0 := by have := hf_pos; positivity
    rw [one'_hf]; push_cast
    field_simp
  rwa [e] at this

/-- Halving. -/
theorem rv_half {d : Double} (h : d.Normalized) :
    HalfN (Double.mulPwr2 d Double.half) ∧ |rv (Double.mulPwr2 d Double.half) - rv d / 2| ≤ 1 / 2 ^ 250 := by
  obtain ⟨a, b, i, n⟩ := h.norm2
  have i' : DIs (Double.mulPwr2 d Double.half) (rnd ((a : ℚ) / 2)) (rnd ((b : ℚ) / 2)) := ⟨i.1.half, i.2.half⟩
  refine ⟨⟨_, _, i', half2_half n⟩, ?_⟩
  have e1 := rnd_half_err n.rep_hi
  have e2 := rnd_half_err n.rep_lo
  have e3 : |(Double.mulPwr2 d Double.half).val - d.val / 2| ≤ 1 / one' := by
    rw [i'.val, i.val, div_div, mul_comm, ← div_div, ← sub_div, abs_div, abs_of_pos one'_posQ]
    apply div_le_div_of_nonneg_right _ one'_posQ.le
    generalize rnd ((a : ℚ) / 2) = u at *
    generalize rnd ((b : ℚ) / 2) = v at *
    rw [abs_le] at e1 e2 ⊢
    have a1 : (-1:ℚ) ≤ 2 * u - a := by exact_mod_cast e1.1
    have a2 : (2 * u - a : ℚ) ≤ 1 := by exact_mod_cast e1.2
    have a3 : (-1:ℚ) ≤ 2 * v - b := by exact_mod_cast e2.1
    have a4 : (2 * v - b : ℚ) ≤ 1 := by exact_mod_cast e2.2
    push_cast
    constructor <;> linarith
  have e4 := (Rat.cast_le (K := ℝ)).mpr e3
  rw [one'_pow] at e4
  push_cast at e4
  refine e4.trans (le_trans ?_ tiny_le)
  apply div_le_div_of_nonneg_right (by norm_num)
  exact pow_nonneg (by norm_num) _

theorem Ap.half {d : Double} {x e g : ℝ} (h : Ap d x e) (hg : e / 2 + 1 / 2 ^ 250 ≤ g) :
    ApH (Double.mulPwr2 d Double.half) (x / 2) g := by
  obtain ⟨h1, h2⟩ := rv_half h.1
  refine ⟨h1, ?_⟩
  have := abs_add_le (rv (Double.mulPwr2 d Double.half) - rv d / 2) (rv d / 2 - x / 2)
  rw [sub_add_sub_cancel] at this
  have e : |rv d / 2 - x / 2| = |rv d - x| / 2 := by rw [← sub_div, abs_div]; norm_num
  rw [e] at this
  have := h.2
  linarith

/-- Doubling is exact. -/
theorem rv_two {d : Double} (h : d.Normalized) (hv : |rv d| ≤ 2 ^ 200) :
    (Double.mulPwr2 d Double.two).Normalized ∧ rv (Double.mulPwr2 d Double.two) = 2 * rv d := by
  obtain ⟨a, b, i, n⟩ := h.norm2
  have hb := units_le_of_rv i n.half hv
  have hl := n.lo_le
  have hO := big_le_omega
  have big : ∀ m : ℤ, |m| ≤ 2 ^ 201 * one' → |((m : ℚ) * ((2 * one' : ℤ) : ℚ)) / one'| ≤ (omegaUnits : ℚ) := by
    intro m hm
    have e : ((m : ℚ) * ((2 * one' : ℤ) : ℚ)) / one' = 2 * m := by
      have := one'_ne; push_cast; field_simp
    rw [e, abs_mul]
    refine le_trans ?_ hO
    have h1 : |(m : ℚ)| ≤ 2 ^ 201 * one' := by exact_mod_cast hm
    have h2 : (2:ℚ) ^ 202 ≤ 2 ^ 1022 := pow_le_pow_right₀ (by norm_num) (by norm_num)
    have h3 := mul_le_mul_of_nonneg_right h2 one'_posQ.le
    refine le_trans ?_ h3
    norm_num at h1 ⊢
    linarith
  have hb2 : |b| ≤ 2 ^ 201 * one' := by
    have h0 := abs_nonneg b
    have h1 : |b| ≤ |a| := by clear hO big hb; linarith
    exact h1.trans hb
  have i1 := i.1.mul is_two (big a hb)
  have i2 := i.2.mul is_two (big b hb2)
  have e : ∀ m : ℤ, ((m : ℚ) * ((2 * one' : ℤ) : ℚ)) / one' = ((2 ^ 1 * m : ℤ) : ℚ) := by
    intro m
    have := one'_ne; push_cast; field_simp
  rw [e, rnd_of_rep (by rw [mul_comm]; exact n.rep_hi.mul_two_pow 1)] at i1
  rw [e, rnd_of_rep (by rw [mul_comm]; exact n.rep_lo.mul_two_pow 1)] at i2
  have i' : DIs (Double.mulPwr2 d Double.two) (2 ^ 1 * a) (2 ^ 1 * b) := ⟨i1, i2⟩
  refine ⟨((Norm2.scale 1).mpr ⟨i'.1.rep, i'.2.rep, n.rnd_eq⟩).normalized i', ?_⟩
  unfold rv
  rw [i'.val, i.val]; push_cast; ring

theorem Ap.two {d : Double} {x e : ℝ} (h : Ap d x e) (hb : |x| + e ≤ 2 ^ 200) :
    Ap (Double.mulPwr2 d Double.two) (2 * x) (2 * e) := by
  obtain ⟨h1, h2⟩ := rv_two h.1 (h.abs_le.trans hb)
  refine ⟨h1, ?_⟩
  rw [h2, ← mul_sub, abs_mul]
  have := h.2
  norm_num
  linarith

/-! ## Scaling by a power of two -/

theorem norm2_shift {h l : ℤ} (n : Norm2 h l) (k : ℕ) {h' : ℤ} (e : h = 2 ^ k * h') (hb : 2 ^ 112 ≤ |h'|) :
    Norm2 h' (rnd ((l : ℚ) / 2 ^ k)) := by
  have hk : (2:ℤ) ^ k ≠ 0 := by positivity
  have hkQ : (2:ℚ) ^ k ≠ 0 := by positivity
  have rh : Rep h' := by
    have := n.rep_hi
    rw [rep_iff]
    have d := n.rep_hi.dvd_of_le (k := expo (h' : ℚ) + k) (by
      by_cases hE : expo (h' : ℚ) = 0
      · exfalso
        have := lt_expo (h' : ℚ)
        rw [hE] at this
        have h2 : |h'| < 2 ^ (53 + 0) := by exact_mod_cast this
        have : (2:ℤ) ^ (53 + 0) ≤ 2 ^ 112 := by norm_num
        linarith
      · have := expo_le (h' : ℚ) hE
        have h1 : (2:ℤ) ^ (52 + expo (h' : ℚ)) ≤ |h'| := by exact_mod_cast this
        rw [e, abs_mul, abs_of_pos (by positivity), ← add_assoc, pow_add, mul_comm]
        exact mul_le_mul_of_nonneg_left h1 (by positivity))
    rw [e, pow_add, mul_comm] at d
    exact (mul_dvd_mul_iff_left hk).mp d
  by_cases hd : (2:ℤ) ^ k ∣ l
  · obtain ⟨l', rfl⟩ := hd
    have e2 : (((2:ℤ) ^ k * l' : ℤ) : ℚ) / 2 ^ k = (l' : ℚ) := by push_cast; field_simp
    subst e
    have s := (Norm2.scale k).mp n
    have r : rnd ((h' : ℚ) + l') = h' := by have := s.2.2; push_cast at this; exact this
    have hl : 2 * |l'| ≤ 2 ^ expo (h' : ℚ) := by
      have := n.two_lo
      have e3 : expo (((2:ℤ) ^ k * h' : ℤ) : ℚ) ≤ expo (h' : ℚ) + k := by
        apply expo_le_of_lt
        have := lt_expo (h' : ℚ)
        push_cast
        rw [abs_mul, abs_of_pos (by positivity), ← add_assoc, pow_add _ _ k, mul_comm]
        exact mul_lt_mul_of_pos_right this (by positivity)
      have e4 : (2:ℤ) ^ expo (((2:ℤ) ^ k * h' : ℤ) : ℚ) ≤ 2 ^ (expo (h' : ℚ) + k) := pow_le_pow_right₀ (by norm_num) e3
      rw [abs_mul, abs_of_pos (show (0:ℤ) < 2 ^ k by positivity)] at this
      rw [pow_add] at e4
      have e5 : 2 ^ k * (2 * |l'|) ≤ 2 ^ k * 2 ^ expo (h' : ℚ) := by linarith
      exact le_of_mul_le_mul_left e5 (by positivity)
    have rl : Rep l' := by
      by_cases hz : |l'| ≤ 2 ^ 53
      · exact .of_small hz
      · obtain ⟨c, j, hc, ej⟩ := n.rep_lo
        by_cases hjk : k ≤ j
        · refine ⟨c, j - k, hc, ?_⟩
          have : (2:ℤ) ^ j = 2 ^ k * 2 ^ (j - k) := by rw [← pow_add]; congr 1; omega
          rw [this] at ej
          have : 2 ^ k * l' = 2 ^ k * (c * 2 ^ (j - k)) := by rw [ej]; ring
          exact mul_left_cancel₀ hk this
        · exfalso; apply hz
          have e5 : (2:ℤ) ^ k = 2 ^ j * 2 ^ (k - j) := by rw [← pow_add]; congr 1; omega
          have e6 : c = 2 ^ (k - j) * l' := by
            have : 2 ^ j * c = 2 ^ j * (2 ^ (k - j) * l') := by rw [← mul_assoc, ← e5, ej]; ring
            exact mul_left_cancel₀ (by positivity) this
          rw [e6, abs_mul, abs_of_pos (by positivity)] at hc
          refine le_trans ?_ hc
          exact le_mul_of_one_le_left (abs_nonneg _) (one_le_pow₀ (by norm_num))
    rw [e2, rnd_of_rep rl]
    exact ⟨rh, rl, by push_cast; exact r⟩
  · -- the low part is small
    have hs : |l| < 2 ^ (52 + k) := by
      by_contra hc
      push Not at hc
      exact hd (n.rep_lo.dvd_of_le hc)
    have hq : |(l : ℚ) / 2 ^ k| ≤ 2 ^ 52 := by
      rw [abs_div, abs_of_pos (show (0:ℚ) < 2 ^ k by positivity), div_le_iff₀ (by positivity), ← pow_add]
      exact_mod_cast hs.le
    have hr := abs_rnd_le_two_pow hq
    refine ⟨rh, rep_rnd _, rnd_absorb rh ?_ ?_⟩
    · have : (2:ℤ) ^ 60 * 2 ^ 52 = 2 ^ 112 := by norm_num
      calc 2 ^ 60 * |rnd ((l : ℚ) / 2 ^ k)| ≤ 2 ^ 60 * 2 ^ 52 := mul_le_mul_of_nonneg_left hr (by norm_num)
        _ = 2 ^ 112 := this
        _ ≤ _ := hb
    · exact le_trans (by norm_num) hb

/-! ## `f64` operations as real numbers -/

/-- The value of an `f64` as a real number. -/
noncomputable def fr (x : F64) : ℝ := ((x.toRat : ℚ) : ℝ)

theorem one'_powR : ((one' : ℤ) : ℝ) = 2 ^ 1074 := by unfold one'; push_cast; rfl

theorem fr_is {x : F64} {m : ℤ} (i : Is x m) : fr x = (m : ℝ) / (one' : ℝ) := by
  unfold fr; rw [i.toRat]; push_cast; rfl

theorem rnd_near (q : ℚ) : |((rnd q : ℤ) : ℚ) / one' - q / one'| ≤ |q / one'| / 2 ^ 53 + 1 / one' := by
  rw [← sub_div, abs_div, abs_div, abs_of_pos one'_posQ, div_right_comm, ← add_div]
  apply div_le_div_of_nonneg_right _ one'_posQ.le
  rw [abs_sub_comm]
  have := abs_nonneg q
  rcases err_rat q with h | h
  · linarith
  · have : 0 ≤ |q| / 2 ^ 53 := by positivity
    linarith

theorem one'_invR : (1:ℝ) / (one' : ℝ) ≤ 1 / 2 ^ 250 := by
  rw [one'_powR]
  refine le_trans ?_ tiny_le
  apply div_le_div_of_nonneg_right (by norm_num)
  exact pow_nonneg (by norm_num) _

/-- A rounded result as a real number. -/
theorem fr_rnd {z : F64} {q : ℚ} (i : Is z (rnd q)) {t : ℝ} (ht : t = ((q / one' : ℚ) : ℝ)) :
    z.isFinite = true ∧ |fr z - t| ≤ |t| / 2 ^ 53 + 1 / 2 ^ 250 := by
  refine ⟨i.1, ?_⟩
  have := (Rat.cast_le (K := ℝ)).mpr (rnd_near q)
  push_cast at this
  rw [fr_is i, ht]
  push_cast
  exact this.trans (add_le_add le_rfl one'_invR)

theorem fr_add {x y : F64} (hx : x.isFinite = true) (hy : y.isFinite = true) (h : |fr x + fr y| ≤ 2 ^ 1022) :
    (F64.add x y).isFinite = true ∧ |fr (F64.add x y) - (fr x + fr y)| ≤ |fr x + fr y| / 2 ^ 53 := by
  have ix := Is.of_finite hx
  have iy := Is.of_finite hy
  generalize x.units = m at ix
  generalize y.units = n at iy
  rw [fr_is ix, fr_is iy] at h ⊢
  have hq : |((m + n : ℤ) : ℚ)| ≤ 2 ^ 1022 * one' := by
    have : |((m + n : ℤ) : ℝ) / one'| ≤ 2 ^ 1022 := by push_cast; rw [add_div]; exact h
    rw [abs_div, abs_of_pos (show (0:ℝ) < (one' : ℝ) by exact_mod_cast one'_pos),
      div_le_iff₀ (by exact_mod_cast one'_pos)] at this
    exact_mod_cast this
  have hO := hq.trans big_le_omega
  have i := ix.add iy (by exact_mod_cast hO)
  refine ⟨i.1, ?_⟩
  rw [fr_is i, ← add_div, ← sub_div, abs_div, abs_div, div_right_comm]
  apply div_le_div_of_nonneg_right _ (abs_nonneg _)
  have := rel_err (m + n)
  rw [le_div_iff₀ (by positivity), mul_comm, abs_sub_comm]
  exact_mod_cast this

theorem fr_sub {x y : F64} (hx : x.isFinite = true) (hy : y.isFinite = true) (h : |fr x - fr y| ≤ 2 ^ 1022) :
    (F64.sub x y).isFinite = true ∧ |fr (F64.sub x y) - (fr x - fr y)| ≤ |fr x - fr y| / 2 ^ 53 := by
  have iy := Is.of_finite hy
  have e : fr y.neg = -fr y := by rw [fr_is iy.neg, fr_is iy]; push_cast; ring
  have := fr_add hx iy.neg.1 (by rw [e]; rw [← sub_eq_add_neg]; exact h)
  rw [e, ← sub_eq_add_neg] at this
  exact this

theorem fr_mul {x y : F64} (hx : x.isFinite = true) (hy : y.isFinite = true) (h : |fr x * fr y| ≤ 2 ^ 1022) :
    (F64.mul x y).isFinite = true ∧ |fr (F64.mul x y) - fr x * fr y| ≤ |fr x * fr y| / 2 ^ 53 + 1 / 2 ^ 250 := by
  have ix := Is.of_finite hx
  have iy := Is.of_finite hy
  generalize x.units = m at ix
  generalize y.units = n at iy
  have e : fr x * fr y = (((m * n : ℚ) / one' / one' : ℚ) : ℝ) := by
    rw [fr_is ix, fr_is iy]; push_cast; ring
  rw [e] at h
  have hq : |(m * n : ℚ) / one'| ≤ 2 ^ 1022 * one' := by
    have : |(m * n : ℚ) / one' / one'| ≤ 2 ^ 1022 := by exact_mod_cast h
    rwa [abs_div _ (one' : ℚ), abs_of_pos one'_posQ, div_le_iff₀ one'_posQ] at this
  exact fr_rnd (ix.mul iy (hq.trans big_le_omega)) e

theorem fr_div {x y : F64} (hx : x.isFinite = true) (hy : y.isFinite = true) (h0 : fr y ≠ 0) (h : |fr x / fr y| ≤ 2 ^ 1022) :
    (F64.div x y).isFinite = true ∧ |fr (F64.div x y) - fr x / fr y| ≤ |fr x / fr y| / 2 ^ 53 + 1 / 2 ^ 250 := by
  have ix := Is.of_finite hx
  have iy := Is.of_finite hy
  generalize x.units = m at ix
  generalize y.units = n at iy
  have hn : n ≠ 0 := by
    rintro rfl; apply h0; rw [fr_is iy]; simp
  have e : fr x / fr y = ((((m : ℚ) * one' / n) / one' : ℚ) : ℝ) := by
    have h1 : (one' : ℝ) ≠ 0 := by exact_mod_cast one'_pos.ne'
    have h2 : (n : ℝ) ≠ 0 := by exact_mod_cast hn
    rw [fr_is ix, fr_is iy]; push_cast; field_simp
  rw [e] at h
  have hq : |(m : ℚ) * one' / n| ≤ 2 ^ 1022 * one' := by
    have : |(m : ℚ) * one' / n / one'| ≤ 2 ^ 1022 := by exact_mod_cast h
    rwa [abs_div _ (one' : ℚ), abs_of_pos one'_posQ, div_le_iff₀ one'_posQ] at this
  exact fr_rnd (ix.div iy hn (hq.trans big_le_omega)) e

theorem fr_floor {x : F64} (hx : x.isFinite = true) :
    x.floor.isFinite = true ∧ fr x.floor = (⌊fr x⌋ : ℝ) := by
  have ix := Is.of_finite hx
  generalize x.units = m at ix
  have i := is_floor ix
  have hp : (0:ℝ) < (one' : ℝ) := by exact_mod_cast one'_pos
  refine ⟨i.1, ?_⟩
  rw [fr_is i, fr_is ix]
  have : ⌊(m : ℝ) / one'⌋ = fl m := by
    rw [Int.floor_eq_iff]
    have h1 := fl_le m
    have h2 := lt_fl m
    constructor
    · rw [le_div_iff₀ hp]; exact_mod_cast h1
    · rw [div_lt_iff₀ hp, add_mul, one_mul]; exact_mod_cast h2
  rw [this]; push_cast
  field_simp

theorem toI32_of_is {x : F64} {w : ℤ} (i : Is x (w * one')) (hw : |w| < 2 ^ 31) : F64.toI32 x = w := by
  obtain ⟨s, m, h, rfl, e⟩ := i.exists
  unfold F64.toI32 F64.toIntSat
  have hw' := abs_lt.mp hw
  have key : ∀ v : ℤ, (m : ℤ) = v * one' → ((m / 2 ^ 1074 : ℕ) : ℤ) = v := by
    intro v hv
    rw [Int.natCast_div, one'_nat, hv]
    exact Int.mul_ediv_cancel _ one'_pos.ne'
  cases s
  · have := key w (by simpa using e.symm)
    simp only [Bool.false_eq_true, if_false]
    rw [this]; omega
  · have := key (-w) (by
      have : -(m : ℤ) = w * one' := by simpa using e.symm
      rw [neg_mul, ← this, neg_neg])
    simp only [if_true]
    rw [this]; omega

theorem is_of_fr {x : F64} (hx : x.isFinite = true) {w : ℤ} (h : fr x = (w : ℝ)) : Is x (w * one') := by
  have ix := Is.of_finite hx
  generalize x.units = m at ix
  rw [fr_is ix, div_eq_iff (by exact_mod_cast one'_pos.ne')] at h
  have : m = w * one' := by exact_mod_cast h
  rwa [this] at ix

/-- Scaling a number of moderate size: normalized, and exact up to the smallest subnormal. -/
theorem rv_ldexp {d : Double} (h : d.Normalized) (h1 : 1 / 4 ≤ |rv d|) (h2 : |rv d| ≤ 3 / 2) (n : ℤ) (hn1 : -900 ≤ n)
    (hn2 : n ≤ 1021) :
    (d.ldexp n).Normalized ∧ |rv (d.ldexp n) - rv d * 2 ^ n| ≤ 1 / 2 ^ 1074 := by
  obtain ⟨a, b, i, nn⟩ := h.norm2
  have hl := nn.lo_le
  have eR : rv d = ((a + b : ℤ) : ℝ) / (one' : ℝ) := by unfold rv; rw [i.val]; push_cast; rfl
  have ha : |a| ≤ 2 ^ 1 * one' := by
    rw [eR, abs_div, abs_of_pos (show (0:ℝ) < (one' : ℝ) by exact_mod_cast one'_pos),
      div_le_iff₀ (show (0:ℝ) < (one' : ℝ) by exact_mod_cast one'_pos)] at h2
    have h3 : 2 * |((a + b : ℤ) : ℝ)| ≤ 3 * (one' : ℝ) := by linarith
    have h4 : 2 * |a + b| ≤ 3 * one' := by exact_mod_cast h3
    have h5 := abs_tri a b
    have h6 := abs_nonneg b
    have h7 := abs_nonneg a
    linarith
  have ha' : one' ≤ 8 * |a| := by
    have : (1:ℝ) / 4 ≤ |((a + b : ℤ) : ℝ) / (one' : ℝ)| := by
      rwa [eR] at h1
    rw [abs_div, abs_of_pos (show (0:ℝ) < (one' : ℝ) by exact_mod_cast one'_pos),
      le_div_iff₀ (show (0:ℝ) < (one' : ℝ) by exact_mod_cast one'_pos)] at this
    have h3 : (one' : ℝ) ≤ 4 * |((a + b : ℤ) : ℝ)| := by linarith
    have h4 : one' ≤ 4 * |a + b| := by exact_mod_cast h3
    have h5 := abs_add_le a b
    have h6 := abs_nonneg b
    linarith
  have hb : |b| ≤ |a| := by have := abs_nonneg b; linarith
  rcases le_or_gt 0 n with hn | hn
  · obtain ⟨k, rfl⟩ := Int.eq_ofNat_of_zero_le hn
    have hk : k ≤ 1021 := by omega
    have f := is_pow2 (n := k) (by omega)
    have e : ∀ m : ℤ, ((m : ℚ) * ((2 ^ k * one' : ℤ) : ℚ)) / one' = ((2 ^ k * m : ℤ) : ℚ) := by
      intro m
      have := one'_ne; push_cast; field_simp
    have big : ∀ m : ℤ, |m| ≤ |a| → |((m : ℚ) * ((2 ^ k * one' : ℤ) : ℚ)) / one'| ≤ (omegaUnits : ℚ) := by
      intro m hm
      rw [e]
      have h3 : |2 ^ k * m| ≤ 2 ^ 1022 * one' := by
        rw [abs_mul, abs_of_pos (show (0:ℤ) < 2 ^ k by positivity)]
        have h4 : (2:ℤ) ^ k ≤ 2 ^ 1021 := pow_le_pow_right₀ (by norm_num) hk
        have h5 : (2:ℤ) ^ 1022 = 2 ^ 1021 * 2 ^ 1 := by rw [← pow_add]
        have h6 : |m| ≤ 2 ^ 1 * one' := by
          exact hm.trans ha
        rw [h5, mul_assoc]
        exact mul_le_mul h4 h6 (abs_nonneg _) (by positivity)
      refine le_trans ?_ big_le_omega
      exact_mod_cast h3
    have i1 := i.1.mul f (big a le_rfl)
    have i2 := i.2.mul f (big b hb)
    rw [e, rnd_of_rep (by rw [mul_comm]; exact nn.rep_hi.mul_two_pow k)] at i1
    rw [e, rnd_of_rep (by rw [mul_comm]; exact nn.rep_lo.mul_two_pow k)] at i2
    have i' : DIs (d.ldexp (k : ℤ)) (2 ^ k * a) (2 ^ k * b) := ⟨i1, i2⟩
    refine ⟨((Norm2.scale k).mpr ⟨i'.1.rep, i'.2.rep, nn.rnd_eq⟩).normalized i', ?_⟩
    have e2 : rv (d.ldexp (k : ℤ)) = rv d * 2 ^ (k : ℤ) := by
      unfold rv
      rw [i'.val, i.val, zpow_natCast]; push_cast; ring
    rw [e2, sub_self, abs_zero]
    apply div_nonneg zero_le_one
    exact pow_nonneg (by norm_num) _
  · obtain ⟨k, hk'⟩ := Int.eq_ofNat_of_zero_le (a := -n) (by omega)
    have hn' : n = -(k : ℤ) := by omega
    subst hn'
    have hk : k ≤ 900 := by omega
    have f := is_pow2_neg (n := k) (by omega)
    have eo : one' = 2 ^ k * 2 ^ (1074 - k) := by unfold one'; rw [← pow_add]; congr 1; omega
    have hp : (0:ℚ) < 2 ^ (1074 - k) := by positivity
    have hp2 : (0:ℚ) < 2 ^ k := by positivity
    have e : ∀ m : ℤ, ((m : ℚ) * ((2 ^ (1074 - k) : ℤ) : ℚ)) / one' = (m : ℚ) / 2 ^ k := by
      intro m
      rw [eo]; push_cast; field_simp
    have big : ∀ m : ℤ, |m| ≤ |a| → |((m : ℚ) * ((2 ^ (1074 - k) : ℤ) : ℚ)) / one'| ≤ (omegaUnits : ℚ) := by
      intro m hm
      rw [e, abs_div, abs_of_pos hp2]
      have h3 : |m| ≤ 2 ^ 1022 * one' := by
        refine (hm.trans ha).trans ?_
        apply mul_le_mul_of_nonneg_right _ one'_pos.le
        exact pow_le_pow_right₀ (by norm_num) (by norm_num)
      refine le_trans (div_le_self (abs_nonneg _) (one_le_pow₀ (by norm_num))) (le_trans ?_ big_le_omega)
      exact_mod_cast h3
    have i1 := i.1.mul f (big a le_rfl)
    have i2 := i.2.mul f (big b hb)
    rw [e] at i1 i2
    -- the leading component is divisible
    have hab : (2:ℤ) ^ (52 + 1019) ≤ |a| := by
      have : one' = 8 * 2 ^ (52 + 1019) := by
        unfold one'
        rw [show (8:ℤ) = 2 ^ 3 by norm_num, ← pow_add]
      rw [this] at ha'
      exact le_of_mul_le_mul_left ha' (by norm_num)
    have hdvd : (2:ℤ) ^ k ∣ a := dvd_trans (pow_dvd_pow 2 (by omega)) (nn.rep_hi.dvd_of_le hab)
    obtain ⟨a', ea⟩ := hdvd
    have ra : rnd ((a : ℚ) / 2 ^ k) = a' := by
      have hr : Rep a' := by
        obtain ⟨a2, ea2⟩ : (2:ℤ) ^ 1019 ∣ a := nn.rep_hi.dvd_of_le hab
        have := nn.rep_hi
        -- divide out
        obtain ⟨c, j, hc, ej⟩ := this
        by_cases hjk : k ≤ j
        · refine ⟨c, j - k, hc, ?_⟩
          have h3 : (2:ℤ) ^ j = 2 ^ k * 2 ^ (j - k) := by rw [← pow_add]; congr 1; omega
          rw [h3, ea] at ej
          have : 2 ^ k * a' = 2 ^ k * (c * 2 ^ (j - k)) := by rw [ej]; ring
          exact mul_left_cancel₀ (by positivity) this
        · refine .of_small ?_
          have e5 : (2:ℤ) ^ k = 2 ^ j * 2 ^ (k - j) := by rw [← pow_add]; congr 1; omega
          have e6 : c = 2 ^ (k - j) * a' := by
            have : 2 ^ j * c = 2 ^ j * (2 ^ (k - j) * a') := by rw [← mul_assoc, ← e5, ← ea, ej]; ring
            exact mul_left_cancel₀ (by positivity) this
          rw [e6, abs_mul, abs_of_pos (by positivity)] at hc
          refine le_trans ?_ hc
          exact le_mul_of_one_le_left (abs_nonneg _) (one_le_pow₀ (by norm_num))
      have e3 : (a : ℚ) / 2 ^ k = (a' : ℚ) := by rw [ea]; push_cast; field_simp
      rw [e3, rnd_of_rep hr]
    rw [ra] at i1
    have ha2 : (2:ℤ) ^ 112 ≤ |a'| := by
      rw [ea, abs_mul, abs_of_pos (show (0:ℤ) < 2 ^ k by positivity)] at hab
      have h3 : (2:ℤ) ^ k * 2 ^ 112 ≤ 2 ^ (52 + 1019) := by
        rw [← pow_add]; exact pow_le_pow_right₀ (by norm_num) (by omega)
      exact le_of_mul_le_mul_left (h3.trans hab) (by positivity)
    have nn' := norm2_shift nn k ea ha2
    have i' : DIs (d.ldexp (-(k : ℤ))) a' (rnd ((b : ℚ) / 2 ^ k)) := ⟨i1, i2⟩
    refine ⟨nn'.normalized i', ?_⟩
    -- the error is that of the low part
    have hbs : |(b : ℚ) / 2 ^ k - rnd ((b : ℚ) / 2 ^ k)| ≤ 1 := by
      by_cases hd : (2:ℤ) ^ (52 + k) ≤ |b|
      · obtain ⟨b', eb⟩ := nn.rep_lo.dvd_of_le hd
        have hr : Rep b' := by
          obtain ⟨c, j, hc, ej⟩ := nn.rep_lo
          by_cases hjk : k ≤ j
          · refine ⟨c, j - k, hc, ?_⟩
            have h3 : (2:ℤ) ^ j = 2 ^ k * 2 ^ (j - k) := by rw [← pow_add]; congr 1; omega
            rw [h3, eb] at ej
            have : 2 ^ k * b' = 2 ^ k * (c * 2 ^ (j - k)) := by rw [ej]; ring
            exact mul_left_cancel₀ (by positivity) this
          · refine .of_small ?_
            have e5 : (2:ℤ) ^ k = 2 ^ j * 2 ^ (k - j) := by rw [← pow_add]; congr 1; omega
            have e6 : c = 2 ^ (k - j) * b' := by
              have : 2 ^ j * c = 2 ^ j * (2 ^ (k - j) * b') := by rw [← mul_assoc, ← e5, ← eb, ej]; ring
              exact mul_left_cancel₀ (by positivity) this
            rw [e6, abs_mul, abs_of_pos (by positivity)] at hc
            refine le_trans ?_ hc
            exact le_mul_of_one_le_left (abs_nonneg _) (one_le_pow₀ (by norm_num))
        have e3 : (b : ℚ) / 2 ^ k = (b' : ℚ) := by rw [eb]; push_cast; field_simp
        rw [e3, rnd_of_rep hr, sub_self]; norm_num
      · push Not at hd
        have hq : |(b : ℚ) / 2 ^ k| < 2 ^ (53 + 0) := by
          rw [abs_div, abs_of_pos hp2, div_lt_iff₀ hp2]
          have : |(b : ℚ)| < 2 ^ (52 + k) := by exact_mod_cast hd
          rw [pow_add] at this
          have : (2:ℚ) ^ 52 * 2 ^ k ≤ 2 ^ (53 + 0) * 2 ^ k := mul_le_mul_of_nonneg_right (by norm_num) hp2.le
          linarith
        have := abs_sub_rnd hq
        refine this.trans (by norm_num)
    have e4 : (d.ldexp (-(k : ℤ))).val - d.val / 2 ^ k = -((b : ℚ) / 2 ^ k - rnd ((b : ℚ) / 2 ^ k)) / one' := by
      rw [i'.val, i.val, ea]; push_cast; field_simp; ring
    have e5 : |(d.ldexp (-(k : ℤ))).val - d.val / 2 ^ k| ≤ 1 / one' := by
      rw [e4, abs_div, abs_neg, abs_of_pos one'_posQ]
      exact div_le_div_of_nonneg_right hbs one'_posQ.le
    have e6 := (Rat.cast_le (K := ℝ)).mpr e5
    rw [one'_pow] at e6
    push_cast at e6
    rw [zpow_neg, zpow_natCast, ← div_eq_mul_inv]
    exact e6

end Verif
