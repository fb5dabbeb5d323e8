import Verif.Props.Sqrt
import Verif.Props.DivAny
import Mathlib.Analysis.SpecialFunctions.Exp

/-!
# The Newton step of `nroot` over the reals

The `n`-th root is computed as the reciprocal of `y = a^(-1/n)`; one Newton step from an `f64` value of `y` squares its relative
error and multiplies it by about `|n|/2`.
-/

namespace Verif

/-! ### The binomial estimate -/

theorem binom_pos {e : ℝ} (n : ℕ) (h : (n:ℝ) * |e| ≤ 1 / 16) : |(1 + e) ^ n - 1 - n * e| ≤ 5 / 8 * (n:ℝ) ^ 2 * e ^ 2 := by
  induction n with
  | zero => simp
  | succ n ih =>
    have hn : (0:ℝ) ≤ n := Nat.cast_nonneg n
    have he := abs_nonneg e
    push_cast at h
    have ih := ih (by nlinarith)
    have e1 : (1 + e) ^ (n + 1) - 1 - ((n + 1 : ℕ) : ℝ) * e = (1 + e) * ((1 + e) ^ n - 1 - n * e) + n * e ^ 2 := by
      push_cast; ring
    rw [e1]
    have h1 : |1 + e| ≤ 1 + |e| := by simpa using abs_add_le 1 e
    have h2 : |(1 + e) * ((1 + e) ^ n - 1 - n * e)| ≤ (1 + |e|) * (5 / 8 * (n:ℝ) ^ 2 * e ^ 2) := by
      rw [abs_mul]; exact mul_le_mul h1 ih (abs_nonneg _) (by linarith)
    refine (abs_add_le _ _).trans ?_
    rw [abs_of_nonneg (show 0 ≤ (n:ℝ) * e ^ 2 by positivity)]
    have h3 : |e| * (5 / 8 * (n:ℝ) ^ 2 * e ^ 2) ≤ 1 / 16 * (5 / 8 * n * e ^ 2) := by
      have : (n:ℝ) * |e| ≤ 1 / 16 := by nlinarith
      calc |e| * (5 / 8 * (n:ℝ) ^ 2 * e ^ 2) = (n * |e|) * (5 / 8 * n * e ^ 2) := by ring
        _ ≤ _ := mul_le_mul_of_nonneg_right this (by positivity)
    push_cast
    have := sq_nonneg e
    have : 0 ≤ (n:ℝ) * e ^ 2 := by positivity
    nlinarith

theorem binom_neg {e : ℝ} (n : ℕ) (h : (n:ℝ) * |e| ≤ 1 / 16) (h0 : |e| ≤ 1 / 16) :
    |((1 + e) ^ n)⁻¹ - 1 + n * e| ≤ 11 / 10 * (n:ℝ) ^ 2 * e ^ 2 := by
  have hpos : 0 < 1 + e := by have := (abs_le.mp h0).1; linarith
  induction n with
  | zero => simp
  | succ n ih =>
    have hn : (0:ℝ) ≤ n := Nat.cast_nonneg n
    have he := abs_nonneg e
    push_cast at h
    have hne : (n:ℝ) * |e| ≤ 1 / 16 := by nlinarith
    have ih := ih hne
    generalize hS : ((1 + e) ^ n)⁻¹ - 1 + n * e = S at ih
    have hinv : ((1 + e) ^ n)⁻¹ = 1 - n * e + S := by rw [← hS]; ring
    have e1 : ((1 + e) ^ (n + 1))⁻¹ - 1 + ((n + 1 : ℕ) : ℝ) * e = (S + (n + 1) * e ^ 2) / (1 + e) := by
      rw [pow_succ, mul_inv, hinv, eq_div_iff hpos.ne']
      push_cast
      field_simp
      ring
    rw [e1, abs_div, abs_of_pos hpos, div_le_iff₀ hpos]
    have h2 : |S + (n + 1) * e ^ 2| ≤ 11 / 10 * (n:ℝ) ^ 2 * e ^ 2 + (n + 1) * e ^ 2 := by
      refine (abs_add_le _ _).trans ?_
      rw [abs_of_nonneg (show 0 ≤ ((n:ℝ) + 1) * e ^ 2 by positivity)]; linarith
    refine h2.trans ?_
    push_cast
    have l1 : 1 - |e| ≤ 1 + e := by have := neg_abs_le e; linarith
    have : 11 / 10 * ((n:ℝ) + 1) ^ 2 * e ^ 2 * (1 - |e|) ≤ 11 / 10 * ((n:ℝ) + 1) ^ 2 * e ^ 2 * (1 + e) :=
      mul_le_mul_of_nonneg_left l1 (by positivity)
    refine le_trans ?_ this
    have h3 : (n + 1) * |e| * (11 / 10 * ((n:ℝ) + 1) * e ^ 2) ≤ 1 / 16 * (11 / 10 * ((n:ℝ) + 1) * e ^ 2) :=
      mul_le_mul_of_nonneg_right h (by positivity)
    have : 0 ≤ (n:ℝ) * e ^ 2 := by positivity
    nlinarith [sq_nonneg e]

theorem binom_int {e : ℝ} (n : ℤ) (hn : n ≠ 0) (h : |(n:ℝ)| * |e| ≤ 1 / 16) : |(1 + e) ^ n - 1 - n * e| ≤ 11 / 10 * (n:ℝ) ^ 2 * e ^ 2 := by
  obtain ⟨m, rfl | rfl⟩ := n.eq_nat_or_neg
  · simp only [Int.cast_natCast, Nat.abs_cast, zpow_natCast] at h ⊢
    refine (binom_pos m h).trans ?_
    have : 0 ≤ (m:ℝ) ^ 2 * e ^ 2 := by positivity
    linarith
  · simp only [Int.cast_neg, Int.cast_natCast, abs_neg, Nat.abs_cast, zpow_neg, zpow_natCast] at h ⊢
    have hm : (1:ℝ) ≤ m := by
      have : m ≠ 0 := by rintro rfl; simp at hn
      exact_mod_cast Nat.one_le_iff_ne_zero.mpr this
    have := binom_neg m h (le_trans (le_mul_of_one_le_left (abs_nonneg e) hm) h)
    rw [show ((1 + e) ^ m)⁻¹ - 1 - -(m:ℝ) * e = ((1 + e) ^ m)⁻¹ - 1 + m * e by ring, neg_sq]
    exact this

/-! ### The Newton step, scaled to a root near one -/

set_option maxHeartbeats 800000 in
theorem nroot_core_one {N e W xn m d p t x r δ κ θ : ℝ} (hN : 1 ≤ |N|) (he : |e| ≤ δ) (hδ : |N| * δ ≤ 1 / 16)
    (hW : |W - 1 - N * e| ≤ 11 / 10 * N ^ 2 * e ^ 2) (hκ : κ = (|N| + 1) / 2 ^ 100) (hκ2 : κ ≤ 1 / 1000) (hθ2 : θ ≤ 1 / 2 ^ 110)
    (h0 : |xn - W| ≤ κ * W) (h1 : |m - xn| ≤ 9 / 2 ^ 106 * |xn| + θ) (h2 : |d - (1 - m)| ≤ |1 - m| / 2 ^ 103)
    (h3 : |p - (1 + e) * d| ≤ 9 / 2 ^ 106 * |(1 + e) * d| + θ) (h4 : |t - p / N| ≤ |p / N| / 2 ^ 102 + θ)
    (h5 : |x - (1 + e + t)| ≤ |1 + e + t| / 2 ^ 103) (h6 : |r - 1 / x| ≤ |1 / x| / 2 ^ 102) :
    |r - 1| ≤ (6 / 5 * |N| + 11 / 10) * δ ^ 2 + 1 / 2 ^ 98 := by
  have hN0 : N ≠ 0 := by rintro rfl; norm_num at hN
  have hδ0 : 0 ≤ δ := (abs_nonneg e).trans he
  have hδ1 : δ ≤ 1 / 16 := le_trans (le_mul_of_one_le_left hδ0 hN) hδ
  have hNe : |N * e| ≤ 1 / 16 := by rw [abs_mul]; exact (mul_le_mul_of_nonneg_left he (abs_nonneg N)).trans hδ
  have hR0 : N ^ 2 * e ^ 2 ≤ 1 / 256 := by
    have : N ^ 2 * e ^ 2 = |N * e| ^ 2 := by rw [sq_abs]; ring
    rw [this]; nlinarith [abs_nonneg (N * e)]
  have hR1 : N ^ 2 * e ^ 2 ≤ |N| ^ 2 * δ ^ 2 := by
    rw [← sq_abs N, ← sq_abs e]; exact mul_le_mul_of_nonneg_left (pow_le_pow_left₀ (abs_nonneg e) he 2) (by positivity)
  set R := W - 1 - N * e with hRd
  have eW : W = 1 + N * e + R := by rw [hRd]; ring
  have hRb : |R| ≤ 11 / 2560 := hW.trans (by linarith)
  have hRn : |R / N| ≤ 11 / 10 * (|N| * δ ^ 2) := by
    rw [abs_div, div_le_iff₀ (by linarith)]
    refine hW.trans ?_
    calc 11 / 10 * N ^ 2 * e ^ 2 = 11 / 10 * (N ^ 2 * e ^ 2) := by ring
      _ ≤ 11 / 10 * (|N| ^ 2 * δ ^ 2) := by linarith
      _ = _ := by ring
  have b1 := abs_le.mp hNe
  have b2 := abs_le.mp hRb
  have be := abs_le.mp (he.trans hδ1)
  have hW1 : |W - 1| ≤ 0.067 := by rw [eW, abs_le]; constructor <;> norm_num <;> linarith
  have bW := abs_le.mp hW1
  have κ0 : 2 / 2 ^ 100 ≤ κ := by rw [hκ]; apply div_le_div_of_nonneg_right (by linarith) (by positivity)
  have κN : κ / |N| ≤ 2 / 2 ^ 100 := by
    rw [hκ, div_div, div_le_div_iff₀ (by positivity) (by positivity)]
    nlinarith [show (0:ℝ) < 2 ^ 100 by positivity]
  -- m
  have c1 : |xn - W| ≤ 1.07 * κ := h0.trans (by norm_num at bW ⊢; nlinarith)
  have bxn : |xn| ≤ 1.08 := by
    have := abs_le.mp c1
    rw [abs_le]; norm_num at this bW hκ2 ⊢; constructor <;> linarith
  have c2 : |m - W| ≤ 1.16 * κ := by
    have := abs_add_le (m - xn) (xn - W)
    rw [sub_add_sub_cancel] at this
    norm_num at this h1 bxn κ0 hθ2 c1 ⊢; linarith
  have bm : |1 - m| ≤ 0.069 := by
    have := abs_le.mp c2
    rw [abs_le]; norm_num at this bW hκ2 ⊢; constructor <;> linarith
  have c3 : |d - (1 - W)| ≤ 1.17 * κ := by
    have e1 : d - (1 - W) = (d - (1 - m)) - (m - W) := by ring
    rw [e1]
    have := abs_sub (d - (1 - m)) (m - W)
    norm_num at this h2 bm c2 κ0 ⊢; linarith
  have bd : |d| ≤ 0.07 := by
    have := abs_le.mp c3
    rw [abs_le]; norm_num at this bW hκ2 ⊢; constructor <;> linarith
  have bd' := abs_le.mp bd
  have b1e : |1 + e| ≤ 1.0625 := by rw [abs_le]; norm_num at be ⊢; constructor <;> linarith
  have bXd : |(1 + e) * d| ≤ 0.08 := by
    rw [abs_mul]
    refine (mul_le_mul b1e bd (abs_nonneg _) (by norm_num)).trans (by norm_num)
  have c4 : |p - (1 + e) * d| ≤ 1 / 2 ^ 105 := by
    generalize (1 + e) * d = y at *
    norm_num at h3 bXd hθ2 ⊢; linarith
  have bp : |p| ≤ 0.09 := by
    have := abs_add_le (p - (1 + e) * d) ((1 + e) * d)
    rw [sub_add_cancel] at this
    generalize (1 + e) * d = y at *
    norm_num at this c4 bXd ⊢; linarith
  have bpN : |p / N| ≤ 0.09 := by
    rw [abs_div, div_le_iff₀ (by linarith)]
    norm_num at bp ⊢; nlinarith
  have c5 : |t - p / N| ≤ 1 / 2 ^ 105 := by
    generalize p / N = y at *
    norm_num at h4 bpN hθ2 ⊢; linarith
  -- the sum
  have ident : 1 + e + t - 1 = -e ^ 2 - (1 + e) * (R / N) + ((1 + e) * ((d - (1 - W)) / N) + (p - (1 + e) * d) / N + (t - p / N)) := by
    rw [eW]; field_simp; ring
  have k1 : |(1 + e) * (R / N)| ≤ 1.0625 * (11 / 10 * (|N| * δ ^ 2)) := by
    rw [abs_mul]; exact mul_le_mul b1e hRn (abs_nonneg _) (by norm_num)
  have k2 : |(1 + e) * ((d - (1 - W)) / N)| ≤ 1.0625 * (1.17 * (2 / 2 ^ 100)) := by
    rw [abs_mul]
    refine mul_le_mul b1e ?_ (abs_nonneg _) (by norm_num)
    rw [abs_div]
    refine (div_le_div_of_nonneg_right c3 (abs_nonneg N)).trans ?_
    rw [mul_div_assoc]; exact mul_le_mul_of_nonneg_left κN (by norm_num)
  have k3 : |(p - (1 + e) * d) / N| ≤ 1 / 2 ^ 105 := by
    rw [abs_div]
    exact (div_le_self (abs_nonneg _) hN).trans c4
  have k4 : e ^ 2 ≤ δ ^ 2 := by rw [← sq_abs e]; exact pow_le_pow_left₀ (abs_nonneg e) he 2
  have s1 : |1 + e + t - 1| ≤ δ ^ 2 + 1.17 * (|N| * δ ^ 2) + 2.6 / 2 ^ 100 := by
    rw [ident, abs_le]
    have a1 := abs_le.mp k1
    have a2 := abs_le.mp k2
    have a3 := abs_le.mp k3
    have a4 := abs_le.mp c5
    have := sq_nonneg e
    have : 0 ≤ |N| * δ ^ 2 := by positivity
    clear h0 h1 h2 h3 h4 h5 h6 c1 c2 c3 c4 c5 k1 k2 k3 hW hR0 hR1 hRn hRd eW ident
    norm_num at a1 a2 a3 a4 ⊢
    constructor <;> linarith
  have hNδ : |N| * δ ^ 2 ≤ 1 / 256 := by
    calc |N| * δ ^ 2 = (|N| * δ) * δ := by ring
      _ ≤ 1 / 16 * (1 / 16) := mul_le_mul hδ hδ1 hδ0 (by norm_num)
      _ = _ := by norm_num
  have hδδ : δ ^ 2 ≤ |N| * δ ^ 2 := le_mul_of_one_le_left (sq_nonneg δ) hN
  have hδ0' := sq_nonneg δ
  clear h0 h1 h2 h3 h4 c1 c2 c3 c4 c5 k1 k2 k3 hW hR0 hR1 hRn hRd eW ident bd bd' bXd bp bpN bm bxn bW hW1 b1 b2 hRb
  have hgoal : (6 / 5 * |N| + 11 / 10) * δ ^ 2 = 6 / 5 * (|N| * δ ^ 2) + 11 / 10 * δ ^ 2 := by ring
  rw [hgoal]
  generalize 1 + e + t = z at *
  generalize |N| * δ ^ 2 = F at *
  generalize δ ^ 2 = D at *
  clear κ0 κN hκ2 hκ hθ2 hδ hδ1 hδ0 he be hNe hN hN0 b1e hgoal k4
  have bz : |z| ≤ 1.01 ∧ |z - 1| ≤ 0.009 := by
    have h8 : |z - 1| ≤ 0.009 := by norm_num at s1 ⊢; linarith
    refine ⟨?_, h8⟩
    have := abs_le.mp h8
    rw [abs_le]; norm_num at this ⊢; constructor <;> linarith
  have s2 : |x - 1| ≤ D + 1.17 * F + 2.75 / 2 ^ 100 := by
    have := abs_add_le (x - z) (z - 1)
    rw [sub_add_sub_cancel] at this
    have b := bz.1
    norm_num at this h5 b s1 ⊢; linarith
  have bx : |x - 1| ≤ 0.0095 := by norm_num at s2 ⊢; linarith
  have bx' := abs_le.mp bx
  have hx : 0.99 ≤ x := by norm_num at bx' ⊢; linarith
  have hx0 : 0 < x := by norm_num at hx; linarith
  have i1 : |1 / x - 1| ≤ 1.0102 * |x - 1| := by
    have e1 : 1 / x - 1 = -((x - 1) / x) := by field_simp; ring
    rw [e1, abs_neg, abs_div, abs_of_pos hx0, div_le_iff₀ hx0]
    have := abs_nonneg (x - 1)
    norm_num at hx ⊢; nlinarith
  have i2 : |1 / x| ≤ 1.02 := by
    rw [abs_of_pos (by positivity), div_le_iff₀ hx0]; norm_num at hx ⊢; linarith
  have := abs_add_le (r - 1 / x) (1 / x - 1)
  rw [sub_add_sub_cancel] at this
  generalize 1 / x = y at *
  norm_num at this h6 i1 i2 s2 ⊢
  linarith

/-- The same for a root of any size. -/
theorem nroot_core {y v A N W xn m d p t x r δ κ τ σ : ℝ} (hy : 0 < y) (hN : 1 ≤ |N|) (he : |v / y - 1| ≤ δ) (hδ : |N| * δ ≤ 1 / 16)
    (hW : |W - 1 - N * (v / y - 1)| ≤ 11 / 10 * N ^ 2 * (v / y - 1) ^ 2) (hκ : κ = (|N| + 1) / 2 ^ 100) (hκ2 : κ ≤ 1 / 1000)
    (hτ : τ ≤ 1 / 2 ^ 110) (hτy : τ ≤ 1 / 2 ^ 110 * y) (hσ : σ ≤ 1 / 2 ^ 110 * y)
    (h0 : |A * xn - W| ≤ κ * W) (h1 : |m - A * xn| ≤ 9 / 2 ^ 106 * |A * xn| + τ) (h2 : |d - (1 - m)| ≤ |1 - m| / 2 ^ 103)
    (h3 : |p - v * d| ≤ 9 / 2 ^ 106 * |v * d| + τ) (h4 : |t - p / N| ≤ |p / N| / 2 ^ 102 + σ)
    (h5 : |x - (v + t)| ≤ |v + t| / 2 ^ 103) (h6 : |r - 1 / x| ≤ |1 / x| / 2 ^ 102) :
    |r * y - 1| ≤ (6 / 5 * |N| + 11 / 10) * δ ^ 2 + 1 / 2 ^ 98 := by
  have hc : ∀ z : ℝ, |z / y| = |z| / y := fun z => by rw [abs_div, abs_of_pos hy]
  have hp : ∀ {a b : ℝ}, a ≤ b → a / y ≤ b / y := fun h => div_le_div_of_nonneg_right h hy.le
  refine nroot_core_one (N := N) (e := v / y - 1) (W := W) (xn := A * xn) (m := m) (d := d) (p := p / y) (t := t / y) (x := x / y)
    (κ := κ) (θ := 1 / 2 ^ 110) hN he hδ hW hκ hκ2 le_rfl h0 (h1.trans (by linarith)) h2 ?_ ?_ ?_ ?_
  · have e1 : p / y - (1 + (v / y - 1)) * d = (p - v * d) / y := by field_simp; ring
    have e2 : (1 + (v / y - 1)) * d = v * d / y := by field_simp; ring
    rw [e1, e2, hc, hc]
    refine (hp h3).trans ?_
    rw [add_div, mul_div_assoc]
    have : τ / y ≤ 1 / 2 ^ 110 := by rw [div_le_iff₀ hy]; exact hτy
    linarith
  · have e1 : t / y - p / y / N = (t - p / N) / y := by field_simp
    have e2 : p / y / N = p / N / y := by field_simp
    rw [e1, e2, hc, hc]
    refine (hp h4).trans ?_
    rw [add_div, div_right_comm]
    have : σ / y ≤ 1 / 2 ^ 110 := by rw [div_le_iff₀ hy]; exact hσ
    linarith
  · have e1 : x / y - (1 + (v / y - 1) + t / y) = (x - (v + t)) / y := by field_simp; ring
    have e2 : 1 + (v / y - 1) + t / y = (v + t) / y := by field_simp; ring
    rw [e1, e2, hc, hc, div_right_comm]
    exact hp h5
  · have e1 : r * y - 1 / (x / y) = (r - 1 / x) * y := by
      rw [one_div_div]; ring
    have e2 : 1 / (x / y) = 1 / x * y := by rw [one_div_div]; ring
    rw [e1, e2, abs_mul, abs_mul, abs_of_pos hy]
    refine (mul_le_mul_of_nonneg_right h6 hy.le).trans (le_of_eq (by ring))

/-! ### The seed -/

/-- Logarithm of the first component, quotient, exponential, text. -/
theorem nroot_seed {A H l q E v N L : ℝ} (hH : 0 < H) (hA : |A - H| ≤ H / 2 ^ 53) (hN : 1 ≤ |N|) (hL : |Real.log A| = L) (hL2 : L ≤ 1000)
    (h1 : |l - Real.log H| ≤ |Real.log H| / 2 ^ 50) (h2 : |q - -l / N| ≤ |-l / N| / 2 ^ 53 + 1 / 2 ^ 120 / |N|)
    (h3 : |E - Real.exp q| ≤ Real.exp q / 2 ^ 50) (h4 : |v - E| ≤ |E| / 2 ^ 52) :
    |v / Real.exp (-Real.log A / N) - 1| ≤ (6 / 5 * (L / |N|) + 3 / 2) / 2 ^ 50 := by
  have hA0 : 0 < A := by have := (abs_le.mp hA).1; norm_num at this; linarith
  have hN0 : N ≠ 0 := by rintro rfl; norm_num at hN
  have g1 : |Real.log A - Real.log H| ≤ 1.01 / 2 ^ 53 := by
    rw [← Real.log_div hA0.ne' hH.ne']
    have hu : |A / H - 1| ≤ 1 / 2 ^ 53 := by
      rw [show A / H - 1 = (A - H) / H by field_simp, abs_div, abs_of_pos hH, div_le_iff₀ hH]
      refine hA.trans (le_of_eq (by ring))
    have hpos : 0 < A / H := by positivity
    generalize A / H = u at *
    have k1 := Real.log_le_sub_one_of_pos hpos
    have k2 := Real.one_sub_inv_le_log_of_pos hpos
    have hu' := abs_le.mp hu
    have k3 : -(1.01 / 2 ^ 53) ≤ 1 - u⁻¹ := by
      have : u⁻¹ ≤ 1 + 1.01 / 2 ^ 53 := by
        rw [inv_le_iff_one_le_mul₀ hpos]
        norm_num at hu' ⊢; linarith
      linarith
    rw [abs_le]
    norm_num at *; constructor <;> linarith
  have hLn : |Real.log H| ≤ L + 1.01 / 2 ^ 53 := by
    have := abs_sub (Real.log A) (Real.log A - Real.log H)
    rw [sub_sub_cancel, hL] at this; linarith
  have hL0 : 0 ≤ L := hL ▸ abs_nonneg _
  have g2 : |l - Real.log A| ≤ (L + 0.14) / 2 ^ 50 := by
    have := abs_sub (l - Real.log H) (Real.log A - Real.log H)
    rw [sub_sub_sub_cancel_right] at this
    norm_num at this h1 hLn g1 ⊢; linarith
  have g3 : |l| ≤ L + 0.01 := by
    have := abs_add_le (l - Real.log A) (Real.log A)
    rw [sub_add_cancel, hL] at this
    norm_num at this g2 ⊢; linarith
  have g4 : |q - -Real.log A / N| ≤ (1.13 * L + 0.15) / |N| / 2 ^ 50 := by
    have e1 : q - -Real.log A / N = (q - -l / N) - (l - Real.log A) / N := by field_simp; ring
    rw [e1]
    refine (abs_sub _ _).trans ?_
    have k1 : |-l / N| = |l| / |N| := by rw [abs_div, abs_neg]
    rw [k1] at h2
    have k2 : |(l - Real.log A) / N| ≤ (L + 0.14) / 2 ^ 50 / |N| := by
      rw [abs_div]; exact div_le_div_of_nonneg_right g2 (abs_nonneg N)
    have k3 : |l| / |N| ≤ (L + 0.01) / |N| := div_le_div_of_nonneg_right g3 (abs_nonneg N)
    rw [div_right_comm (L + 0.14)] at k2
    have k4 : (L + 0.01) / |N| / 2 ^ 53 + 1 / 2 ^ 120 / |N| + (L + 0.14) / |N| / 2 ^ 50 ≤ (1.13 * L + 0.15) / |N| / 2 ^ 50 := by
      have : 0 < |N| := by linarith
      rw [div_div, div_div, div_div, div_div, ← sub_nonneg]
      have e2 : (1.13 * L + 0.15) / (|N| * 2 ^ 50) - ((L + 0.01) / (|N| * 2 ^ 53) + 1 / (2 ^ 120 * |N|) + (L + 0.14) / (|N| * 2 ^ 50)) =
          ((1.13 * L + 0.15) / 2 ^ 50 - ((L + 0.01) / 2 ^ 53 + 1 / 2 ^ 120 + (L + 0.14) / 2 ^ 50)) / |N| := by field_simp
      rw [e2]
      apply div_nonneg _ this.le
      norm_num; linarith
    linarith
  have hLN : (1.13 * L + 0.15) / |N| ≤ 1.13 * (L / |N|) + 0.15 := by
    rw [add_div, mul_div_assoc]
    have : 0.15 / |N| ≤ 0.15 := div_le_self (by norm_num) hN
    linarith
  have hLN0 : 0 ≤ L / |N| := by positivity
  have hLN1 : L / |N| ≤ 1000 := (div_le_self hL0 hN).trans hL2
  have g5 : |q - -Real.log A / N| ≤ (1.13 * (L / |N|) + 0.15) / 2 ^ 50 := g4.trans (div_le_div_of_nonneg_right hLN (by positivity))
  generalize hη : q - -Real.log A / N = η at *
  have hq : Real.exp q = Real.exp (-Real.log A / N) * Real.exp η := by rw [← Real.exp_add, ← hη]; congr 1; ring
  have hy : 0 < Real.exp (-Real.log A / N) := Real.exp_pos _
  generalize Real.exp (-Real.log A / N) = y at *
  generalize L / |N| = M at *
  have hηs : |η| ≤ 1 / 2 ^ 35 := by norm_num at g5 ⊢; linarith
  have hexp : |Real.exp η - 1| ≤ 1.01 * |η| := by
    have k1 := Real.abs_exp_sub_one_sub_id_le (x := η) (by norm_num at hηs ⊢; linarith)
    have k2 : η ^ 2 ≤ 0.001 * |η| := by
      rw [← sq_abs, sq]; exact mul_le_mul_of_nonneg_right (by norm_num at hηs ⊢; linarith) (abs_nonneg _)
    have := abs_add_le (Real.exp η - 1 - η) η
    rw [sub_add_cancel] at this
    norm_num at this k2 ⊢; linarith [abs_nonneg η]
  generalize Real.exp η = X at *
  have hX : |X - 1| ≤ 1.01 * ((1.13 * M + 0.15) / 2 ^ 50) := hexp.trans (mul_le_mul_of_nonneg_left g5 (by norm_num))
  have hX' := abs_le.mp hX
  have hXb : X ≤ 1.001 ∧ 0 < X := by norm_num at hX' ⊢; constructor <;> linarith
  rw [hq] at h3
  have j1 : |E / y - X| ≤ 1.001 / 2 ^ 50 := by
    rw [show E / y - X = (E - y * X) / y by field_simp, abs_div, abs_of_pos hy, div_le_iff₀ hy]
    refine h3.trans ?_
    have := mul_le_mul_of_nonneg_left hXb.1 hy.le
    norm_num at this ⊢; linarith
  have j1' := abs_le.mp j1
  have j2 : |E / y| ≤ 1.01 := by rw [abs_le]; norm_num at j1' hXb ⊢; constructor <;> linarith [hXb.1, hXb.2]
  have j3 : |v / y - E / y| ≤ 1.01 / 2 ^ 52 := by
    rw [← sub_div, abs_div, abs_of_pos hy]
    refine (div_le_div_of_nonneg_right h4 hy.le).trans ?_
    rw [div_right_comm]
    rw [abs_div, abs_of_pos hy] at j2
    exact div_le_div_of_nonneg_right j2 (by positivity)
  have e1 : v / y - 1 = (v / y - E / y) + (E / y - X) + (X - 1) := by ring
  rw [e1]
  refine (abs_add_three _ _ _).trans ?_
  norm_num at j1 j3 hX ⊢
  linarith

end Verif
