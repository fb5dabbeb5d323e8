import Mathlib.Tactic.Ring
import Mathlib.Tactic.Linarith
import Mathlib.Tactic.Positivity
import Mathlib.Tactic.NormNum
import Mathlib.Tactic.FieldSimp
import Mathlib.Data.Rat.Floor
import Mathlib.Data.Nat.Log
import Mathlib.Algebra.Order.Floor.Ring
import Mathlib.Algebra.Order.Floor.Semifield

/-!
# Rounding to 53 significant bits

Pure mathematics used by the model of `f64`. All magnitudes are measured in units of `2^-1074`, the smallest
positive subnormal binary64 number. In these units every finite binary64 value is an integer `c * 2^k` with
`|c| ≤ 2^53`, and IEEE-754 "round to nearest, ties to even" is the function `rnd` below (without the overflow rule,
which is applied in `Verif.F64`).
-/

namespace Verif

/-- Nearest integer, ties to even. -/
def rne (x : ℚ) : ℤ :=
  if 2 * Int.fract x < 1 then ⌊x⌋
  else if 1 < 2 * Int.fract x then ⌊x⌋ + 1
  else if ⌊x⌋ % 2 = 0 then ⌊x⌋ else ⌊x⌋ + 1

/-- Exponent (of the last place, in units) used for a value of magnitude `|x|`. -/
def expo (x : ℚ) : ℕ := Nat.log2 ⌊|x|⌋₊ - 52

/-- Round to nearest, ties to even, to 53 significant bits with unbounded upper exponent range. -/
def rnd (x : ℚ) : ℤ := rne (x / 2 ^ expo x) * 2 ^ expo x

/-- Integers (numbers of units) that have at most 53 significant bits. -/
def Rep (n : ℤ) : Prop := ∃ (c : ℤ) (k : ℕ), |c| ≤ 2 ^ 53 ∧ n = c * 2 ^ k

/-! ## `rne` -/

theorem rne_int (n : ℤ) : rne n = n := by
  unfold rne; simp

theorem rne_bounds (x : ℚ) : ⌊x⌋ ≤ rne x ∧ rne x ≤ ⌊x⌋ + 1 := by
  unfold rne; split_ifs <;> constructor <;> omega

theorem abs_sub_rne (x : ℚ) : |x - rne x| ≤ 1 / 2 := by
  have h := Int.floor_add_fract x
  have h0 := Int.fract_nonneg x
  have h1 := Int.fract_lt_one x
  unfold rne
  split_ifs with h2 h3 h4 <;> rw [abs_le] <;> push_cast <;> constructor <;> linarith

theorem rne_mono {x y : ℚ} (h : x ≤ y) : rne x ≤ rne y := by
  have hf := Int.floor_mono h
  rcases lt_or_eq_of_le hf with hlt | heq
  · have := (rne_bounds x).2
    have := (rne_bounds y).1
    omega
  · have hx := Int.floor_add_fract x
    have hy := Int.floor_add_fract y
    rw [heq] at hx
    have hfr : Int.fract x ≤ Int.fract y := by linarith
    unfold rne
    rw [heq]
    split_ifs <;> first | omega | (exfalso; linarith)

theorem rne_neg (x : ℚ) : rne (-x) = - rne x := by
  by_cases hx : Int.fract x = 0
  · have : x = ((⌊x⌋ : ℤ) : ℚ) := by
      have := Int.floor_add_fract x
      linarith
    rw [this]
    have h2 : -((⌊x⌋ : ℤ) : ℚ) = ((-⌊x⌋ : ℤ) : ℚ) := by push_cast; ring
    rw [h2, rne_int, rne_int]
  · have hfr : Int.fract (-x) = 1 - Int.fract x := Int.fract_neg hx
    have hfl : ⌊-x⌋ = -⌊x⌋ - 1 := by
      have h1 := Int.floor_add_fract x
      have h2 := Int.floor_add_fract (-x)
      have : ((⌊-x⌋ : ℤ) : ℚ) = ((-⌊x⌋ - 1 : ℤ) : ℚ) := by push_cast; linarith
      exact_mod_cast this
    unfold rne
    rw [hfr, hfl]
    split_ifs <;> first | omega | (exfalso; linarith)

/-! ## `expo` -/

theorem expo_neg (x : ℚ) : expo (-x) = expo x := by unfold expo; rw [abs_neg]

theorem lt_expo (x : ℚ) : |x| < 2 ^ (53 + expo x) := by
  have h1 : |x| < (⌊|x|⌋₊ : ℚ) + 1 := Nat.lt_floor_add_one _
  have h2 : ⌊|x|⌋₊ < 2 ^ (53 + expo x) := by
    unfold expo
    calc ⌊|x|⌋₊ < 2 ^ (Nat.log2 ⌊|x|⌋₊ + 1) := Nat.lt_log2_self
      _ ≤ 2 ^ (53 + (Nat.log2 ⌊|x|⌋₊ - 52)) := Nat.pow_le_pow_right (by norm_num) (by omega)
  have h3 : (⌊|x|⌋₊ : ℚ) + 1 ≤ 2 ^ (53 + expo x) := by exact_mod_cast h2
  linarith

theorem expo_le (x : ℚ) (h : expo x ≠ 0) : 2 ^ (52 + expo x) ≤ |x| := by
  have h0 : ⌊|x|⌋₊ ≠ 0 := by
    intro h'
    apply h
    unfold expo
    rw [h']; simp
  have h2 : 2 ^ (52 + expo x) ≤ ⌊|x|⌋₊ := by
    have : 52 + expo x = Nat.log2 ⌊|x|⌋₊ := by unfold expo at *; omega
    rw [this]
    exact Nat.log2_self_le h0
  have h3 : (2 ^ (52 + expo x) : ℚ) ≤ (⌊|x|⌋₊ : ℚ) := by exact_mod_cast h2
  exact h3.trans (Nat.floor_le (abs_nonneg x))

theorem expo_le_of_lt {x : ℚ} {k : ℕ} (h : |x| < 2 ^ (53 + k)) : expo x ≤ k := by
  by_contra hc
  push Not at hc
  have h1 := expo_le x (by omega)
  have h2 : (2:ℚ) ^ (53 + k) ≤ 2 ^ (52 + expo x) := pow_le_pow_right₀ (by norm_num) (by omega)
  linarith

theorem le_expo_of_le {x : ℚ} {k : ℕ} (h : 2 ^ (52 + k) ≤ |x|) : k ≤ expo x := by
  by_contra hc
  push Not at hc
  have h1 := lt_expo x
  have h2 : (2:ℚ) ^ (53 + expo x) ≤ 2 ^ (52 + k) := pow_le_pow_right₀ (by norm_num) (by omega)
  linarith

theorem expo_mono {x y : ℚ} (h : |x| ≤ |y|) : expo x ≤ expo y :=
  expo_le_of_lt (lt_of_le_of_lt h (lt_expo y))

/-! ## `rnd` -/

theorem rnd_neg (x : ℚ) : rnd (-x) = - rnd x := by
  unfold rnd
  rw [expo_neg, neg_div, rne_neg]; ring

theorem rnd_zero : rnd 0 = 0 := by
  unfold rnd rne; simp

/-- The rounding error is at most half a unit in the last place. -/
theorem abs_sub_rnd_expo (x : ℚ) : |x - rnd x| ≤ 2 ^ expo x / 2 := by
  have h := abs_sub_rne (x / 2 ^ expo x)
  have hp : (0:ℚ) < 2 ^ expo x := by positivity
  have e : x - rnd x = (x / 2 ^ expo x - rne (x / 2 ^ expo x)) * 2 ^ expo x := by
    unfold rnd; push_cast; field_simp
  rw [e, abs_mul, abs_of_pos hp]
  nlinarith

theorem abs_sub_rnd {x : ℚ} {k : ℕ} (h : |x| < 2 ^ (53 + k)) : |x - rnd x| ≤ 2 ^ k / 2 := by
  have h1 := abs_sub_rnd_expo x
  have h2 : (2:ℚ) ^ expo x ≤ 2 ^ k := pow_le_pow_right₀ (by norm_num) (expo_le_of_lt h)
  linarith

theorem expo_dvd_rnd (x : ℚ) : (2:ℤ) ^ expo x ∣ rnd x := ⟨_, by unfold rnd; rw [mul_comm]⟩

theorem rnd_eq_of_dvd {n : ℤ} (h : (2:ℤ) ^ expo n ∣ n) : rnd n = n := by
  unfold rnd
  generalize expo (n:ℚ) = e at *
  obtain ⟨c, rfl⟩ := h
  have : (((2 ^ e * c : ℤ)) : ℚ) / 2 ^ e = (c : ℚ) := by
    push_cast; field_simp
  rw [this, rne_int, mul_comm]

theorem rnd_eq_of_dvd_lt {n : ℤ} {k : ℕ} (hd : (2:ℤ) ^ k ∣ n) (h : |n| < 2 ^ (53 + k)) : rnd n = n := by
  apply rnd_eq_of_dvd
  refine dvd_trans (pow_dvd_pow 2 (expo_le_of_lt (k := k) ?_)) hd
  exact_mod_cast h

/-- A value in range and on a grid is representable. -/
theorem Rep.of_dvd_le {n : ℤ} {k : ℕ} (hd : (2:ℤ) ^ k ∣ n) (h : |n| ≤ 2 ^ (53 + k)) : Rep n := by
  obtain ⟨c, rfl⟩ := hd
  refine ⟨c, k, ?_, by ring⟩
  rw [abs_mul, abs_of_pos (by positivity : (0:ℤ) < 2 ^ k), pow_add, mul_comm] at h
  exact le_of_mul_le_mul_right h (by positivity)

theorem rnd_of_rep {n : ℤ} (h : Rep n) : rnd n = n := by
  obtain ⟨c, k, hc, rfl⟩ := h
  rcases lt_or_eq_of_le hc with hlt | heq
  · apply rnd_eq_of_dvd_lt (k := k) (Dvd.intro_left _ rfl)
    rw [abs_mul, abs_of_pos (by positivity : (0:ℤ) < 2 ^ k), pow_add]
    exact mul_lt_mul_of_pos_right hlt (by positivity)
  · apply rnd_eq_of_dvd_lt (k := k + 1)
    · have h2 : (2:ℤ) ∣ c := by rw [← dvd_abs, heq]; norm_num
      obtain ⟨d, rfl⟩ := h2
      exact ⟨d, by ring⟩
    · rw [abs_mul, abs_of_pos (by positivity : (0:ℤ) < 2 ^ k), heq, ← pow_add]
      exact pow_lt_pow_right₀ (by norm_num) (by omega)

theorem rep_iff {n : ℤ} : Rep n ↔ (2:ℤ) ^ expo n ∣ n := by
  constructor
  · intro h
    rw [← rnd_of_rep h]
    have := expo_dvd_rnd (n : ℚ)
    rw [rnd_of_rep h] at this ⊢
    exact this
  · intro h
    apply Rep.of_dvd_le h
    exact_mod_cast (lt_expo (n:ℚ)).le

theorem Rep.neg {n : ℤ} (h : Rep n) : Rep (-n) := by
  obtain ⟨c, k, hc, rfl⟩ := h
  exact ⟨-c, k, by rwa [abs_neg], by ring⟩

theorem Rep.zero : Rep 0 := ⟨0, 0, by norm_num, by norm_num⟩

theorem Rep.two_pow (m : ℕ) : Rep (2 ^ m) := ⟨1, m, by norm_num, by ring⟩

theorem Rep.of_small {n : ℤ} (h : |n| ≤ 2 ^ 53) : Rep n := ⟨n, 0, h, by ring⟩

theorem Rep.mul_two_pow {n : ℤ} (h : Rep n) (m : ℕ) : Rep (n * 2 ^ m) := by
  obtain ⟨c, k, hc, rfl⟩ := h
  exact ⟨c, k + m, hc, by ring⟩

theorem rep_neg_iff {n : ℤ} : Rep (-n) ↔ Rep n := ⟨fun h => by simpa using h.neg, Rep.neg⟩

theorem abs_rnd_le_expo (x : ℚ) : |rnd x| ≤ 2 ^ (53 + expo x) := by
  unfold rnd
  have h1 := lt_expo x
  generalize expo x = e at *
  have hp : (0:ℚ) < 2 ^ e := by positivity
  rw [abs_lt] at h1
  rw [abs_mul, abs_of_pos (by positivity : (0:ℤ) < 2 ^ e), pow_add]
  apply mul_le_mul_of_nonneg_right _ (by positivity)
  have hu : rne (x / 2 ^ e) ≤ 2 ^ 53 := by
    have : x / 2 ^ e ≤ ((2 ^ 53 : ℤ) : ℚ) := by
      have h3 := pow_add (2:ℚ) 53 e
      rw [div_le_iff₀ hp, Int.cast_pow, Int.cast_ofNat, ← h3]; exact h1.2.le
    calc rne (x / 2 ^ e) ≤ rne ((2 ^ 53 : ℤ) : ℚ) := rne_mono this
      _ = 2 ^ 53 := rne_int _
  have hl : -2 ^ 53 ≤ rne (x / 2 ^ e) := by
    have : ((-2 ^ 53 : ℤ) : ℚ) ≤ x / 2 ^ e := by
      have h3 := pow_add (2:ℚ) 53 e
      rw [le_div_iff₀ hp, Int.cast_neg, Int.cast_pow, Int.cast_ofNat, neg_mul, ← h3]; exact h1.1.le
    calc (-2 ^ 53 : ℤ) = rne ((-2 ^ 53 : ℤ) : ℚ) := (rne_int _).symm
      _ ≤ _ := rne_mono this
  exact abs_le.mpr ⟨hl, hu⟩

theorem rep_rnd (x : ℚ) : Rep (rnd x) := Rep.of_dvd_le (expo_dvd_rnd x) (abs_rnd_le_expo x)

theorem rnd_nonneg {x : ℚ} (h : 0 ≤ x) : 0 ≤ rnd x := by
  unfold rnd
  apply mul_nonneg _ (by positivity)
  have : rne ((0:ℤ):ℚ) ≤ rne (x / 2 ^ expo x) := rne_mono (by push_cast; positivity)
  rwa [rne_int] at this

theorem rnd_mono_nonneg {x y : ℚ} (hx : 0 ≤ x) (h : x ≤ y) : rnd x ≤ rnd y := by
  have hy : 0 ≤ y := hx.trans h
  have he : expo x ≤ expo y := expo_mono (by rwa [abs_of_nonneg hx, abs_of_nonneg hy])
  rcases lt_or_eq_of_le he with hlt | heq
  · have h1 := (abs_le.mp (abs_rnd_le_expo x)).2
    have h2 : (2:ℤ) ^ (53 + expo x) ≤ 2 ^ (52 + expo y) := pow_le_pow_right₀ (by norm_num) (by omega)
    have h3 : (2:ℤ) ^ (52 + expo y) ≤ rnd y := by
      have := expo_le y (by omega)
      rw [abs_of_nonneg hy] at this
      unfold rnd
      generalize expo y = e at *
      rw [pow_add]
      apply mul_le_mul_of_nonneg_right _ (by positivity)
      have h4 : ((2 ^ 52 : ℤ) : ℚ) ≤ y / 2 ^ e := by
        have h3 := pow_add (2:ℚ) 52 e
        rw [le_div_iff₀ (by positivity), Int.cast_pow, Int.cast_ofNat, ← h3]; exact this
      calc (2 ^ 52 : ℤ) = rne ((2 ^ 52 : ℤ) : ℚ) := (rne_int _).symm
        _ ≤ _ := rne_mono h4
    omega
  · unfold rnd
    rw [heq]
    apply mul_le_mul_of_nonneg_right _ (by positivity)
    apply rne_mono
    gcongr

theorem rnd_mono {x y : ℚ} (h : x ≤ y) : rnd x ≤ rnd y := by
  rcases le_total 0 x with hx | hx
  · exact rnd_mono_nonneg hx h
  · rcases le_total 0 y with hy | hy
    · have h1 := rnd_nonneg hy
      have h2 := rnd_nonneg (x := -x) (by linarith)
      rw [rnd_neg] at h2
      omega
    · have := rnd_mono_nonneg (x := -y) (y := -x) (by linarith) (by linarith)
      rw [rnd_neg, rnd_neg] at this
      omega

theorem rnd_le_of_le {x : ℚ} {n : ℤ} (hn : Rep n) (h : x ≤ n) : rnd x ≤ n := by
  have := rnd_mono h
  rwa [rnd_of_rep hn] at this

theorem le_rnd_of_le {x : ℚ} {n : ℤ} (hn : Rep n) (h : (n:ℚ) ≤ x) : n ≤ rnd x := by
  have := rnd_mono h
  rwa [rnd_of_rep hn] at this

theorem abs_rnd_le {x : ℚ} {n : ℤ} (hn : Rep n) (h : |x| ≤ n) : |rnd x| ≤ n := by
  rw [abs_le] at *
  constructor
  · have := le_rnd_of_le hn.neg (x := x) (by push_cast; exact h.1)
    omega
  · exact rnd_le_of_le hn h.2

theorem le_abs_rnd {x : ℚ} {n : ℤ} (hn : Rep n) (h : (n:ℚ) ≤ |x|) : n ≤ |rnd x| := by
  rcases le_total 0 x with hx | hx
  · rw [abs_of_nonneg hx] at h
    exact (le_rnd_of_le hn h).trans (le_abs_self _)
  · rw [abs_of_nonpos hx] at h
    have := le_rnd_of_le hn h
    rw [rnd_neg] at this
    exact this.trans (neg_le_abs _)

theorem abs_rnd_le_two_pow {x : ℚ} {m : ℕ} (h : |x| ≤ 2 ^ m) : |rnd x| ≤ 2 ^ m :=
  abs_rnd_le (Rep.two_pow m) (by push_cast; exact h)

/-- Rounding an integer keeps its divisibility by powers of two. -/
theorem dvd_rnd {n : ℤ} {j : ℕ} (h : (2:ℤ) ^ j ∣ n) : (2:ℤ) ^ j ∣ rnd n := by
  rcases le_total j (expo n) with hj | hj
  · exact dvd_trans (pow_dvd_pow 2 hj) (expo_dvd_rnd _)
  · rw [rnd_eq_of_dvd (dvd_trans (pow_dvd_pow 2 hj) h)]; exact h

/-- A representable number that is large enough is on the corresponding grid. -/
theorem Rep.dvd_of_le {n : ℤ} (h : Rep n) {k : ℕ} (hk : 2 ^ (52 + k) ≤ |n|) : (2:ℤ) ^ k ∣ n := by
  have h1 := rep_iff.mp h
  refine dvd_trans (pow_dvd_pow 2 (le_expo_of_le ?_)) h1
  exact_mod_cast hk

theorem int_le_sub_of_dvd {a b : ℤ} {m : ℤ} (ha : m ∣ a) (hb : m ∣ b) (h : a < b) : a + m ≤ b := by
  obtain ⟨c, hc⟩ := Int.dvd_sub hb ha
  rcases le_or_gt m 0 with hm | hm
  · linarith
  · have : 0 < c := by
      by_contra hcn
      have : m * c ≤ 0 := mul_nonpos_of_nonneg_of_nonpos hm.le (by omega)
      omega
    nlinarith

/-- `rnd x` is a nearest representable value. -/
theorem rnd_nearest_nonneg {x : ℚ} (hx : 0 ≤ x) {y : ℤ} (hy : Rep y) : |x - rnd x| ≤ |x - y| := by
  have herr := abs_sub_rnd_expo x
  rcases le_total x y with hxy | hxy
  · have h1 := rnd_le_of_le hy hxy
    have h1' : (rnd x : ℚ) ≤ y := by exact_mod_cast h1
    rw [abs_sub_comm x (y:ℚ), abs_of_nonneg (by linarith : (0:ℚ) ≤ y - x)]
    rcases le_total x (rnd x) with h2 | h2
    · rw [abs_sub_comm, abs_of_nonneg (by linarith)]; linarith
    · rw [abs_of_nonneg (by linarith)] at *
      rcases lt_or_eq_of_le h1 with hlt | heq
      · have hd : (2:ℤ) ^ expo x ∣ y := by
          by_cases he : expo x = 0
          · rw [he]; simp
          · apply hy.dvd_of_le
            have h3 := expo_le x he
            rw [abs_of_nonneg hx] at h3
            have : (2 ^ (52 + expo x) : ℚ) ≤ |(y:ℚ)| := (h3.trans hxy).trans (le_abs_self _)
            exact_mod_cast this
        have := int_le_sub_of_dvd (expo_dvd_rnd x) hd hlt
        have : (rnd x : ℚ) + 2 ^ expo x ≤ y := by exact_mod_cast this
        linarith
      · rw [← heq] at hxy ⊢
        linarith
  · have h1 := le_rnd_of_le hy hxy
    have h1' : (y : ℚ) ≤ rnd x := by exact_mod_cast h1
    rw [abs_of_nonneg (by linarith : (0:ℚ) ≤ x - y)]
    rcases le_total (rnd x : ℚ) x with h2 | h2
    · rw [abs_of_nonneg (by linarith)]; linarith
    · rw [abs_sub_comm] at herr ⊢
      rw [abs_of_nonneg (by linarith)] at *
      by_cases hxr : x = rnd x
      · linarith
      rcases lt_or_eq_of_le h1 with hlt | heq
      · -- y ≤ x ≤ rnd x, y < rnd x
        have key : (y : ℚ) + 2 ^ expo x ≤ rnd x := by
          by_cases he : expo x = 0
          · rw [he]; exact_mod_cast hlt
          · by_cases hbig : 2 ^ (52 + expo x) ≤ |y|
            · have := int_le_sub_of_dvd (hy.dvd_of_le hbig) (expo_dvd_rnd x) hlt
              exact_mod_cast this
            · push Not at hbig
              have h3 := expo_le x he
              rw [abs_of_nonneg hx] at h3
              have h4 : (2:ℤ) ^ (52 + expo x) ≤ rnd x := le_rnd_of_le (Rep.two_pow _) (by push_cast; exact h3)
              have hd : (2:ℤ) ^ expo x ∣ 2 ^ (52 + expo x) := pow_dvd_pow 2 (by omega)
              rcases lt_or_eq_of_le h4 with h5 | h5
              · have h6 := int_le_sub_of_dvd hd (expo_dvd_rnd x) h5
                have h7 := (abs_lt.mp hbig).2
                have : y + 2 ^ expo x ≤ rnd x := by linarith
                exact_mod_cast this
              · exfalso
                apply hxr
                have : (rnd x : ℚ) = 2 ^ (52 + expo x) := by rw [← h5]; push_cast; rfl
                linarith
        linarith
      · have : (y:ℚ) = rnd x := by exact_mod_cast heq
        linarith

/-- `rnd x` is a nearest representable value. -/
theorem rnd_nearest (x : ℚ) {y : ℤ} (hy : Rep y) : |x - rnd x| ≤ |x - y| := by
  rcases le_total 0 x with hx | hx
  · exact rnd_nearest_nonneg hx hy
  · have := rnd_nearest_nonneg (x := -x) (by linarith) hy.neg
    rw [rnd_neg] at this
    push_cast at this
    rw [← abs_neg (x - rnd x), ← abs_neg (x - y)]
    convert this using 2 <;> ring

/-! ## Integer versions -/

theorem err_nearest (n : ℤ) {y : ℤ} (hy : Rep y) : |n - rnd n| ≤ |n - y| := by
  have := rnd_nearest (n : ℚ) hy
  exact_mod_cast this

theorem two_err_le {n : ℤ} {k : ℕ} (h : |n| < 2 ^ (53 + k)) : 2 * |n - rnd n| ≤ 2 ^ k := by
  have h1 := abs_sub_rnd (x := n) (k := k) (by exact_mod_cast h)
  have h2 : (2:ℚ) * |(n:ℚ) - rnd n| ≤ 2 ^ k := by linarith
  exact_mod_cast h2

/-- Error bound also at the closed end of the binade. -/
theorem two_err_le' {n : ℤ} {k : ℕ} (h : |n| ≤ 2 ^ (53 + k)) : 2 * |n - rnd n| ≤ 2 ^ k := by
  rcases lt_or_eq_of_le h with h1 | h1
  · exact two_err_le h1
  · have : Rep n := by
      rcases abs_choice n with h2 | h2
      · rw [← h2, h1]; exact Rep.two_pow _
      · have h3 : n = - 2 ^ (53 + k) := by omega
        rw [h3]; exact (Rep.two_pow _).neg
    rw [rnd_of_rep this]; simp

/-- Relative error of rounding for integers of any size: at most `2^-53`. -/
theorem rel_err (n : ℤ) : 2 ^ 53 * |n - rnd n| ≤ |n| := by
  by_cases he : expo (n:ℚ) = 0
  · have h1 := two_err_le (n := n) (k := 0) (by have := lt_expo (n:ℚ); rw [he] at this; exact_mod_cast this)
    have h2 : |n - rnd n| = 0 := by
      have := abs_nonneg (n - rnd n)
      omega
    rw [h2]; simp
  · have h1 := abs_sub_rnd_expo (n:ℚ)
    have h2 := expo_le (n:ℚ) he
    have h3 : (2:ℚ) ^ 53 * |(n:ℚ) - rnd n| ≤ |(n:ℚ)| := by
      have h4 := pow_add (2:ℚ) 52 (expo (n:ℚ))
      rw [h4] at h2
      norm_num at h2 ⊢
      linarith
    exact_mod_cast h3

/-- Relative error of rounding for rationals in the normal range. -/
theorem rel_err_rat {x : ℚ} (hx : 2 ^ 52 ≤ |x|) : 2 ^ 53 * |x - rnd x| ≤ |x| := by
  have h1 := abs_sub_rnd_expo x
  have h2 : 2 ^ (52 + expo x) ≤ |x| := by
    by_cases he : expo x = 0
    · rw [he]; exact hx
    · exact expo_le x he
  have h4 := pow_add (2:ℚ) 52 (expo x)
  rw [h4] at h2
  norm_num at h2 ⊢
  linarith

/-- Error of rounding a rational: relative plus half a unit. -/
theorem err_rat (x : ℚ) : |x - rnd x| ≤ |x| / 2 ^ 53 ∨ |x - rnd x| ≤ 1 / 2 := by
  by_cases he : expo x = 0
  · right
    have := abs_sub_rnd_expo x
    rw [he] at this; simpa using this
  · left
    have h2 := expo_le x he
    have : (2:ℚ) ^ 52 ≤ 2 ^ (52 + expo x) := pow_le_pow_right₀ (by norm_num) (by omega)
    have := rel_err_rat (this.trans h2)
    rw [le_div_iff₀ (by positivity)]
    linarith

end Verif
