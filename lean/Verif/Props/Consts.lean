import Verif.Proofs.Consts
import Verif.SpecQuad
import Verif.F64Lemmas
import Verif.EFT
import Mathlib.Analysis.SpecialFunctions.Log.Base

/-!
# The published constants against the real numbers they name (C48)

Generated by `tools/gen_consts.py`, which only chooses the rational approximations; every bound is checked by the kernel.
The constants themselves are those of the model (`src/double/aconsts.rs`, `src/quad/aconsts.rs`).
-/

namespace Verif

open Real Consts

/-- `v` is the real number `c` up to a relative error of `2^-n`. -/
def Near (v : ℚ) (c : ℝ) (n : ℕ) : Prop := |(v : ℝ) - c| * 2 ^ n ≤ |c|

/-- No finite `f64` is closer to the real number `c` than `x`: `x` is `c` correctly rounded. -/
def RoundedReal (x : F64) (c : ℝ) : Prop :=
  x.isFinite = true ∧ ∀ y : F64, y.isFinite = true → |(x.toRat : ℝ) - c| ≤ |(y.toRat : ℝ) - c|

namespace Consts

/-- The accuracy of the approximations below. -/
def dlt : ℚ := mkRat 1 (10 ^ 70)

theorem exact_approx (n : ℚ) : |((n : ℚ) : ℝ) - (n : ℝ)| ≤ (eps : ℝ) := by
  rw [sub_self, abs_zero]; exact_mod_cast eps_pos.le

theorem wide {c : ℝ} {A B δ : ℚ} (h : |c - (B : ℝ)| ≤ (δ : ℝ)) (h1 : A - B ≤ δ) (h2 : B - A ≤ δ) (h3 : 2 * δ ≤ dlt) :
    |c - (A : ℝ)| ≤ (dlt : ℝ) := by
  have h' := abs_le.mp h
  have h1' : (A : ℝ) - (B : ℝ) ≤ (δ : ℝ) := by exact_mod_cast h1
  have h2' : (B : ℝ) - (A : ℝ) ≤ (δ : ℝ) := by exact_mod_cast h2
  have h3' : 2 * (δ : ℝ) ≤ (dlt : ℝ) := by exact_mod_cast h3
  rw [abs_le]; constructor <;> linarith [h'.1, h'.2]

theorem near {c : ℝ} {A v b : ℚ} (n : ℕ) (h : |c - (A : ℝ)| ≤ (dlt : ℝ)) (h1 : v - A ≤ b) (h2 : A - v ≤ b)
    (h3 : (b + dlt) * (2 ^ n : ℕ) ≤ A - dlt) : Near v c n := (near_of dlt h h1 h2 n h3).trans (le_abs_self c)

theorem nearest_of {x : F64} {c : ℝ} {L U : ℚ} (hx : x.isFinite = true) (hL : (L : ℝ) ≤ c) (hU : c ≤ (U : ℝ))
    (h1 : rnd (L * ((2 ^ 1074 : ℕ) : ℚ)) = x.units) (h2 : rnd (U * ((2 ^ 1074 : ℕ) : ℚ)) = x.units) : RoundedReal x c := by
  refine ⟨hx, fun y hy => ?_⟩
  have key : ∀ V : ℚ, rnd (V * ((2 ^ 1074 : ℕ) : ℚ)) = x.units → |V - x.toRat| ≤ |V - y.toRat| := by
    intro V hV
    have hr : Rep y.units := by
      cases y with
      | nan s => simp [F64.isFinite] at hy
      | inf s => simp [F64.isFinite] at hy
      | fin s m hm =>
        obtain ⟨n, i⟩ : ∃ n, Is (.fin s m hm) n := ⟨_, rfl, rfl⟩
        rw [show (F64.fin s m hm).units = n from i.2]
        exact i.rep
    have := rnd_nearest (V * ((2 ^ 1074 : ℕ) : ℚ)) hr
    rw [hV] at this
    have hp : (0:ℚ) < ((2 ^ 1074 : ℕ) : ℚ) := by exact_mod_cast Nat.two_pow_pos 1074
    have e : ∀ z : F64, V - z.toRat = (V * ((2 ^ 1074 : ℕ) : ℚ) - z.units) / ((2 ^ 1074 : ℕ) : ℚ) := by
      intro z
      unfold F64.toRat
      rw [show ((2:ℚ) ^ 1074) = ((2 ^ 1074 : ℕ) : ℚ) by rw [Nat.cast_pow, Nat.cast_ofNat]]
      generalize ((2 ^ 1074 : ℕ) : ℚ) = T at *
      field_simp
    rw [e, e, abs_div, abs_div]
    exact div_le_div_of_nonneg_right this (abs_nonneg _)
  have kL := key L h1
  have kU := key U h2
  have kL' : |(L : ℝ) - (x.toRat : ℝ)| ≤ |(L : ℝ) - (y.toRat : ℝ)| := by exact_mod_cast kL
  have kU' : |(U : ℝ) - (x.toRat : ℝ)| ≤ |(U : ℝ) - (y.toRat : ℝ)| := by exact_mod_cast kU
  generalize (x.toRat : ℝ) = X at *
  generalize (y.toRat : ℝ) = Y at *
  clear h1 h2 key
  rw [← sq_le_sq] at kL' kU' ⊢
  have a : (Y - X) * (2 * (L:ℝ) - (X + Y)) ≤ 0 := by nlinarith
  have b : (Y - X) * (2 * (U:ℝ) - (X + Y)) ≤ 0 := by nlinarith
  rcases le_total X Y with h | h
  · have : (Y - X) * (2 * c - (X + Y)) ≤ (Y - X) * (2 * (U:ℝ) - (X + Y)) := mul_le_mul_of_nonneg_left (by linarith) (by linarith)
    nlinarith
  · have : (X - Y) * (X + Y - 2 * c) ≤ (X - Y) * (X + Y - 2 * (L:ℝ)) := mul_le_mul_of_nonneg_left (by linarith) (by linarith)
    nlinarith

/-- The part of `c` not covered by the components before `x` is `c - s`; `x` is that part correctly rounded. -/
theorem nearest {x : F64} {c : ℝ} {A : ℚ} (s : ℚ) (h : |c - (A : ℝ)| ≤ (dlt : ℝ)) (hx : x.isFinite = true)
    (h1 : rnd ((A - dlt - s) * ((2 ^ 1074 : ℕ) : ℚ)) = x.units) (h2 : rnd ((A + dlt - s) * ((2 ^ 1074 : ℕ) : ℚ)) = x.units) :
    RoundedReal x (c - (s : ℝ)) := by
  have h' := abs_le.mp h
  refine nearest_of hx ?_ ?_ h1 h2
  · push_cast; linarith [h'.1]
  · push_cast; linarith [h'.2]

/-- A better second component refutes correct rounding. -/
theorem not_nearest {x y : F64} {c : ℝ} {A : ℚ} (s : ℚ) (h : |c - (A : ℝ)| ≤ (dlt : ℝ)) (hy : y.isFinite = true)
    (h1 : (y.toRat + s - A) + 2 * dlt < x.toRat + s - A ∨ (y.toRat + s - A) + 2 * dlt < A - (x.toRat + s))
    (h2 : (A - (y.toRat + s)) + 2 * dlt < x.toRat + s - A ∨ (A - (y.toRat + s)) + 2 * dlt < A - (x.toRat + s)) :
    ¬ RoundedReal x (c - (s : ℝ)) := by
  rintro ⟨-, hn⟩
  have hn := hn y hy
  have h' := abs_le.mp h
  have g1 : ((y.toRat : ℝ) + (s : ℝ) - (A : ℝ)) + 2 * (dlt : ℝ) < (x.toRat : ℝ) + (s : ℝ) - (A : ℝ) ∨ ((y.toRat : ℝ) + (s : ℝ) - (A : ℝ)) + 2 * (dlt : ℝ) < (A : ℝ) - ((x.toRat : ℝ) + (s : ℝ)) :=
    h1.imp (fun h => by exact_mod_cast h) (fun h => by exact_mod_cast h)
  have g2 : ((A : ℝ) - ((y.toRat : ℝ) + (s : ℝ))) + 2 * (dlt : ℝ) < (x.toRat : ℝ) + (s : ℝ) - (A : ℝ) ∨ ((A : ℝ) - ((y.toRat : ℝ) + (s : ℝ))) + 2 * (dlt : ℝ) < (A : ℝ) - ((x.toRat : ℝ) + (s : ℝ)) :=
    h2.imp (fun h => by exact_mod_cast h) (fun h => by exact_mod_cast h)
  generalize (x.toRat : ℝ) = X at *
  generalize (y.toRat : ℝ) = Y at *
  have l1 := le_abs_self (X - (c - (s:ℝ)))
  have l2 := neg_abs_le (X - (c - (s:ℝ)))
  rcases abs_cases (Y - (c - (s:ℝ))) with ⟨e, -⟩ | ⟨e, -⟩ <;> rcases g1 with g1 | g1 <;> rcases g2 with g2 | g2 <;>
    linarith [h'.1, h'.2]

def A_PI : ℚ := mkRat 314159265358979323846264338327950288419716939937510582097494459230781640629 (10 ^ 74)

theorem ap_PI : |π - (A_PI : ℝ)| ≤ (dlt : ℝ) := by
  have h := scale_approx pi_approx (mkRat 1 1) (by decide +kernel)
  have e : ((mkRat 1 1 : ℚ) : ℝ) * π = π := by rw [Rat.mkRat_eq_div]; push_cast; ring
  rw [e] at h
  exact wide h (by decide +kernel) (by decide +kernel) (by decide +kernel)

def A_TAU : ℚ := mkRat 628318530717958647692528676655900576839433879875021164194988918461563281257 (10 ^ 74)

theorem ap_TAU : |2 * π - (A_TAU : ℝ)| ≤ (dlt : ℝ) := by
  have h := scale_approx pi_approx (mkRat 2 1) (by decide +kernel)
  have e : ((mkRat 2 1 : ℚ) : ℝ) * π = 2 * π := by rw [Rat.mkRat_eq_div]; push_cast; ring
  rw [e] at h
  exact wide h (by decide +kernel) (by decide +kernel) (by decide +kernel)

def A_FRAC_PI_2 : ℚ := mkRat 157079632679489661923132169163975144209858469968755291048747229615390820314 (10 ^ 74)

theorem ap_FRAC_PI_2 : |π / 2 - (A_FRAC_PI_2 : ℝ)| ≤ (dlt : ℝ) := by
  have h := scale_approx pi_approx (mkRat 1 2) (by decide +kernel)
  have e : ((mkRat 1 2 : ℚ) : ℝ) * π = π / 2 := by rw [Rat.mkRat_eq_div]; push_cast; ring
  rw [e] at h
  exact wide h (by decide +kernel) (by decide +kernel) (by decide +kernel)

def A_FRAC_PI_3 : ℚ := mkRat 104719755119659774615421446109316762806572313312503527365831486410260546876 (10 ^ 74)

theorem ap_FRAC_PI_3 : |π / 3 - (A_FRAC_PI_3 : ℝ)| ≤ (dlt : ℝ) := by
  have h := scale_approx pi_approx (mkRat 1 3) (by decide +kernel)
  have e : ((mkRat 1 3 : ℚ) : ℝ) * π = π / 3 := by rw [Rat.mkRat_eq_div]; push_cast; ring
  rw [e] at h
  exact wide h (by decide +kernel) (by decide +kernel) (by decide +kernel)

def A_FRAC_PI_4 : ℚ := mkRat 78539816339744830961566084581987572104929234984377645524373614807695410157 (10 ^ 74)

theorem ap_FRAC_PI_4 : |π / 4 - (A_FRAC_PI_4 : ℝ)| ≤ (dlt : ℝ) := by
  have h := scale_approx pi_approx (mkRat 1 4) (by decide +kernel)
  have e : ((mkRat 1 4 : ℚ) : ℝ) * π = π / 4 := by rw [Rat.mkRat_eq_div]; push_cast; ring
  rw [e] at h
  exact wide h (by decide +kernel) (by decide +kernel) (by decide +kernel)

def A_FRAC_PI_6 : ℚ := mkRat 52359877559829887307710723054658381403286156656251763682915743205130273438 (10 ^ 74)

theorem ap_FRAC_PI_6 : |π / 6 - (A_FRAC_PI_6 : ℝ)| ≤ (dlt : ℝ) := by
  have h := scale_approx pi_approx (mkRat 1 6) (by decide +kernel)
  have e : ((mkRat 1 6 : ℚ) : ℝ) * π = π / 6 := by rw [Rat.mkRat_eq_div]; push_cast; ring
  rw [e] at h
  exact wide h (by decide +kernel) (by decide +kernel) (by decide +kernel)

def A_FRAC_PI_8 : ℚ := mkRat 39269908169872415480783042290993786052464617492188822762186807403847705079 (10 ^ 74)

theorem ap_FRAC_PI_8 : |π / 8 - (A_FRAC_PI_8 : ℝ)| ≤ (dlt : ℝ) := by
  have h := scale_approx pi_approx (mkRat 1 8) (by decide +kernel)
  have e : ((mkRat 1 8 : ℚ) : ℝ) * π = π / 8 := by rw [Rat.mkRat_eq_div]; push_cast; ring
  rw [e] at h
  exact wide h (by decide +kernel) (by decide +kernel) (by decide +kernel)

def A_FRAC_PI_16 : ℚ := mkRat 19634954084936207740391521145496893026232308746094411381093403701923852539 (10 ^ 74)

theorem ap_FRAC_PI_16 : |π / 16 - (A_FRAC_PI_16 : ℝ)| ≤ (dlt : ℝ) := by
  have h := scale_approx pi_approx (mkRat 1 16) (by decide +kernel)
  have e : ((mkRat 1 16 : ℚ) : ℝ) * π = π / 16 := by rw [Rat.mkRat_eq_div]; push_cast; ring
  rw [e] at h
  exact wide h (by decide +kernel) (by decide +kernel) (by decide +kernel)

def A_FRAC_3_PI_2 : ℚ := mkRat 471238898038468985769396507491925432629575409906265873146241688846172460943 (10 ^ 74)

theorem ap_FRAC_3_PI_2 : |3 * π / 2 - (A_FRAC_3_PI_2 : ℝ)| ≤ (dlt : ℝ) := by
  have h := scale_approx pi_approx (mkRat 3 2) (by decide +kernel)
  have e : ((mkRat 3 2 : ℚ) : ℝ) * π = 3 * π / 2 := by rw [Rat.mkRat_eq_div]; push_cast; ring
  rw [e] at h
  exact wide h (by decide +kernel) (by decide +kernel) (by decide +kernel)

def A_FRAC_3_PI_4 : ℚ := mkRat 235619449019234492884698253745962716314787704953132936573120844423086230471 (10 ^ 74)

theorem ap_FRAC_3_PI_4 : |3 * π / 4 - (A_FRAC_3_PI_4 : ℝ)| ≤ (dlt : ℝ) := by
  have h := scale_approx pi_approx (mkRat 3 4) (by decide +kernel)
  have e : ((mkRat 3 4 : ℚ) : ℝ) * π = 3 * π / 4 := by rw [Rat.mkRat_eq_div]; push_cast; ring
  rw [e] at h
  exact wide h (by decide +kernel) (by decide +kernel) (by decide +kernel)

def A_FRAC_5_PI_4 : ℚ := mkRat 392699081698724154807830422909937860524646174921888227621868074038477050786 (10 ^ 74)

theorem ap_FRAC_5_PI_4 : |5 * π / 4 - (A_FRAC_5_PI_4 : ℝ)| ≤ (dlt : ℝ) := by
  have h := scale_approx pi_approx (mkRat 5 4) (by decide +kernel)
  have e : ((mkRat 5 4 : ℚ) : ℝ) * π = 5 * π / 4 := by rw [Rat.mkRat_eq_div]; push_cast; ring
  rw [e] at h
  exact wide h (by decide +kernel) (by decide +kernel) (by decide +kernel)

def A_FRAC_7_PI_4 : ℚ := mkRat 549778714378213816730962592073913004734504644890643518670615303653867871100 (10 ^ 74)

theorem ap_FRAC_7_PI_4 : |7 * π / 4 - (A_FRAC_7_PI_4 : ℝ)| ≤ (dlt : ℝ) := by
  have h := scale_approx pi_approx (mkRat 7 4) (by decide +kernel)
  have e : ((mkRat 7 4 : ℚ) : ℝ) * π = 7 * π / 4 := by rw [Rat.mkRat_eq_div]; push_cast; ring
  rw [e] at h
  exact wide h (by decide +kernel) (by decide +kernel) (by decide +kernel)

def A_FRAC_1_PI : ℚ := mkRat 31830988618379067153776752674502872406891929148091289749533468811779359527 (10 ^ 74)

theorem ap_FRAC_1_PI : |1 / π - (A_FRAC_1_PI : ℝ)| ≤ (dlt : ℝ) := by
  have h := div_approx (A := A_FRAC_1_PI) (exact_approx 1) pi_approx (by decide +kernel) (by decide +kernel) (by decide +kernel) (by decide +kernel)
  rw [Rat.cast_one] at h
  exact wide h (by decide +kernel) (by decide +kernel) (by decide +kernel)

def A_FRAC_2_PI : ℚ := mkRat 63661977236758134307553505349005744813783858296182579499066937623558719054 (10 ^ 74)

theorem ap_FRAC_2_PI : |2 / π - (A_FRAC_2_PI : ℝ)| ≤ (dlt : ℝ) := by
  have h := div_approx (A := A_FRAC_2_PI) (exact_approx 2) pi_approx (by decide +kernel) (by decide +kernel) (by decide +kernel) (by decide +kernel)
  rw [Rat.cast_ofNat] at h
  exact wide h (by decide +kernel) (by decide +kernel) (by decide +kernel)

def A_FRAC_2_SQRT_PI : ℚ := mkRat 112837916709551257389615890312154517168810125865799771368817144342128493688 (10 ^ 74)

theorem ap_FRAC_2_SQRT_PI : |2 / √π - (A_FRAC_2_SQRT_PI : ℝ)| ≤ (dlt : ℝ) := by
  have h := two_sqrt_pi_approx (A := A_FRAC_2_SQRT_PI) (by decide +kernel) (by decide +kernel) (by decide +kernel)
  exact wide h (by decide +kernel) (by decide +kernel) (by decide +kernel)

def A_SQRT_2 : ℚ := mkRat 141421356237309504880168872420969807856967187537694807317667973799073247846 (10 ^ 74)

theorem ap_SQRT_2 : |√2 - (A_SQRT_2 : ℝ)| ≤ (dlt : ℝ) := by
  exact wide sqrt2_approx (by decide +kernel) (by decide +kernel) (by decide +kernel)

def A_FRAC_1_SQRT_2 : ℚ := mkRat 70710678118654752440084436210484903928483593768847403658833986899536623923 (10 ^ 74)

theorem ap_FRAC_1_SQRT_2 : |1 / √2 - (A_FRAC_1_SQRT_2 : ℝ)| ≤ (dlt : ℝ) := by
  have h := div_approx (A := A_FRAC_1_SQRT_2) (exact_approx 1) sqrt2_approx (by decide +kernel) (by decide +kernel) (by decide +kernel) (by decide +kernel)
  rw [Rat.cast_one] at h
  exact wide h (by decide +kernel) (by decide +kernel) (by decide +kernel)

def A_E : ℚ := mkRat 271828182845904523536028747135266249775724709369995957496696762772407663035 (10 ^ 74)

theorem ap_E : |Real.exp 1 - (A_E : ℝ)| ≤ (dlt : ℝ) := by
  exact wide exp_approx (by decide +kernel) (by decide +kernel) (by decide +kernel)

def A_LOG2_10 : ℚ := mkRat 332192809488736234787031942948939017586483139302458061205475639581593477661 (10 ^ 74)

theorem ap_LOG2_10 : |Real.logb 2 10 - (A_LOG2_10 : ℝ)| ≤ (dlt : ℝ) := by
  have h := div_approx (A := A_LOG2_10) log10_approx log2_approx (by decide +kernel) (by decide +kernel) (by decide +kernel) (by decide +kernel)
  rw [Real.logb]
  exact wide h (by decide +kernel) (by decide +kernel) (by decide +kernel)

def A_LOG2_E : ℚ := mkRat 144269504088896340735992468100189213742664595415298593413544940693110921918 (10 ^ 74)

theorem ap_LOG2_E : |Real.logb 2 (Real.exp 1) - (A_LOG2_E : ℝ)| ≤ (dlt : ℝ) := by
  have h := div_approx (A := A_LOG2_E) (exact_approx 1) log2_approx (by decide +kernel) (by decide +kernel) (by decide +kernel) (by decide +kernel)
  rw [Rat.cast_one] at h
  rw [Real.logb, Real.log_exp]
  exact wide h (by decide +kernel) (by decide +kernel) (by decide +kernel)

def A_LOG10_2 : ℚ := mkRat 30102999566398119521373889472449302676818988146210854131042746112710818927 (10 ^ 74)

theorem ap_LOG10_2 : |Real.logb 10 2 - (A_LOG10_2 : ℝ)| ≤ (dlt : ℝ) := by
  have h := div_approx (A := A_LOG10_2) log2_approx log10_approx (by decide +kernel) (by decide +kernel) (by decide +kernel) (by decide +kernel)
  rw [Real.logb]
  exact wide h (by decide +kernel) (by decide +kernel) (by decide +kernel)

def A_LOG10_E : ℚ := mkRat 43429448190325182765112891891660508229439700580366656611445378316586464921 (10 ^ 74)

theorem ap_LOG10_E : |Real.logb 10 (Real.exp 1) - (A_LOG10_E : ℝ)| ≤ (dlt : ℝ) := by
  have h := div_approx (A := A_LOG10_E) (exact_approx 1) log10_approx (by decide +kernel) (by decide +kernel) (by decide +kernel) (by decide +kernel)
  rw [Rat.cast_one] at h
  rw [Real.logb, Real.log_exp]
  exact wide h (by decide +kernel) (by decide +kernel) (by decide +kernel)

def A_LN_2 : ℚ := mkRat 69314718055994530941723212145817656807550013436025525412068000949339362197 (10 ^ 74)

theorem ap_LN_2 : |Real.log 2 - (A_LN_2 : ℝ)| ≤ (dlt : ℝ) := by
  exact wide log2_approx (by decide +kernel) (by decide +kernel) (by decide +kernel)

def A_LN_10 : ℚ := mkRat 230258509299404568401799145468436420760110148862877297603332790096757260968 (10 ^ 74)

theorem ap_LN_10 : |Real.log 10 - (A_LN_10 : ℝ)| ≤ (dlt : ℝ) := by
  exact wide log10_approx (by decide +kernel) (by decide +kernel) (by decide +kernel)

end Consts

/-! ## Accuracy -/

/-- **C48.** Every constant of `Double` is the real number it names up to a relative error of `2^-104`. -/
theorem C48_double_values :
    Near Double.PI.val π 104 ∧
    Near Double.TAU.val (2 * π) 104 ∧
    Near Double.FRAC_PI_2.val (π / 2) 104 ∧
    Near Double.FRAC_PI_3.val (π / 3) 104 ∧
    Near Double.FRAC_PI_4.val (π / 4) 104 ∧
    Near Double.FRAC_PI_6.val (π / 6) 104 ∧
    Near Double.FRAC_PI_8.val (π / 8) 104 ∧
    Near Double.FRAC_PI_16.val (π / 16) 104 ∧
    Near Double.FRAC_3_PI_2.val (3 * π / 2) 104 ∧
    Near Double.FRAC_3_PI_4.val (3 * π / 4) 104 ∧
    Near Double.FRAC_5_PI_4.val (5 * π / 4) 104 ∧
    Near Double.FRAC_7_PI_4.val (7 * π / 4) 104 ∧
    Near Double.FRAC_1_PI.val (1 / π) 104 ∧
    Near Double.FRAC_2_PI.val (2 / π) 104 ∧
    Near Double.FRAC_2_SQRT_PI.val (2 / √π) 104 ∧
    Near Double.SQRT_2.val (√2) 104 ∧
    Near Double.FRAC_1_SQRT_2.val (1 / √2) 104 ∧
    Near Double.E.val (Real.exp 1) 104 ∧
    Near Double.LOG2_10.val (Real.logb 2 10) 104 ∧
    Near Double.LOG2_E.val (Real.logb 2 (Real.exp 1)) 104 ∧
    Near Double.LOG10_2.val (Real.logb 10 2) 104 ∧
    Near Double.LOG10_E.val (Real.logb 10 (Real.exp 1)) 104 ∧
    Near Double.LN_2.val (Real.log 2) 104 ∧
    Near Double.LN_10.val (Real.log 10) 104 := by
  refine ⟨?_, ?_, ?_, ?_, ?_, ?_, ?_, ?_, ?_, ?_, ?_, ?_, ?_, ?_, ?_, ?_, ?_, ?_, ?_, ?_, ?_, ?_, ?_, ?_⟩
  · exact near (b := mkRat 1 (2 ^ 104) * (A_PI - mkRat 1 (10 ^ 30))) 104 ap_PI (by decide +kernel) (by decide +kernel) (by decide +kernel)
  · exact near (b := mkRat 1 (2 ^ 104) * (A_TAU - mkRat 1 (10 ^ 30))) 104 ap_TAU (by decide +kernel) (by decide +kernel) (by decide +kernel)
  · exact near (b := mkRat 1 (2 ^ 104) * (A_FRAC_PI_2 - mkRat 1 (10 ^ 30))) 104 ap_FRAC_PI_2 (by decide +kernel) (by decide +kernel) (by decide +kernel)
  · exact near (b := mkRat 1 (2 ^ 104) * (A_FRAC_PI_3 - mkRat 1 (10 ^ 30))) 104 ap_FRAC_PI_3 (by decide +kernel) (by decide +kernel) (by decide +kernel)
  · exact near (b := mkRat 1 (2 ^ 104) * (A_FRAC_PI_4 - mkRat 1 (10 ^ 30))) 104 ap_FRAC_PI_4 (by decide +kernel) (by decide +kernel) (by decide +kernel)
  · exact near (b := mkRat 1 (2 ^ 104) * (A_FRAC_PI_6 - mkRat 1 (10 ^ 30))) 104 ap_FRAC_PI_6 (by decide +kernel) (by decide +kernel) (by decide +kernel)
  · exact near (b := mkRat 1 (2 ^ 104) * (A_FRAC_PI_8 - mkRat 1 (10 ^ 30))) 104 ap_FRAC_PI_8 (by decide +kernel) (by decide +kernel) (by decide +kernel)
  · exact near (b := mkRat 1 (2 ^ 104) * (A_FRAC_PI_16 - mkRat 1 (10 ^ 30))) 104 ap_FRAC_PI_16 (by decide +kernel) (by decide +kernel) (by decide +kernel)
  · exact near (b := mkRat 1 (2 ^ 104) * (A_FRAC_3_PI_2 - mkRat 1 (10 ^ 30))) 104 ap_FRAC_3_PI_2 (by decide +kernel) (by decide +kernel) (by decide +kernel)
  · exact near (b := mkRat 1 (2 ^ 104) * (A_FRAC_3_PI_4 - mkRat 1 (10 ^ 30))) 104 ap_FRAC_3_PI_4 (by decide +kernel) (by decide +kernel) (by decide +kernel)
  · exact near (b := mkRat 1 (2 ^ 104) * (A_FRAC_5_PI_4 - mkRat 1 (10 ^ 30))) 104 ap_FRAC_5_PI_4 (by decide +kernel) (by decide +kernel) (by decide +kernel)
  · exact near (b := mkRat 1 (2 ^ 104) * (A_FRAC_7_PI_4 - mkRat 1 (10 ^ 30))) 104 ap_FRAC_7_PI_4 (by decide +kernel) (by decide +kernel) (by decide +kernel)
  · exact near (b := mkRat 1 (2 ^ 104) * (A_FRAC_1_PI - mkRat 1 (10 ^ 30))) 104 ap_FRAC_1_PI (by decide +kernel) (by decide +kernel) (by decide +kernel)
  · exact near (b := mkRat 1 (2 ^ 104) * (A_FRAC_2_PI - mkRat 1 (10 ^ 30))) 104 ap_FRAC_2_PI (by decide +kernel) (by decide +kernel) (by decide +kernel)
  · exact near (b := mkRat 1 (2 ^ 104) * (A_FRAC_2_SQRT_PI - mkRat 1 (10 ^ 30))) 104 ap_FRAC_2_SQRT_PI (by decide +kernel) (by decide +kernel) (by decide +kernel)
  · exact near (b := mkRat 1 (2 ^ 104) * (A_SQRT_2 - mkRat 1 (10 ^ 30))) 104 ap_SQRT_2 (by decide +kernel) (by decide +kernel) (by decide +kernel)
  · exact near (b := mkRat 1 (2 ^ 104) * (A_FRAC_1_SQRT_2 - mkRat 1 (10 ^ 30))) 104 ap_FRAC_1_SQRT_2 (by decide +kernel) (by decide +kernel) (by decide +kernel)
  · exact near (b := mkRat 1 (2 ^ 104) * (A_E - mkRat 1 (10 ^ 30))) 104 ap_E (by decide +kernel) (by decide +kernel) (by decide +kernel)
  · exact near (b := mkRat 1 (2 ^ 104) * (A_LOG2_10 - mkRat 1 (10 ^ 30))) 104 ap_LOG2_10 (by decide +kernel) (by decide +kernel) (by decide +kernel)
  · exact near (b := mkRat 1 (2 ^ 104) * (A_LOG2_E - mkRat 1 (10 ^ 30))) 104 ap_LOG2_E (by decide +kernel) (by decide +kernel) (by decide +kernel)
  · exact near (b := mkRat 1 (2 ^ 104) * (A_LOG10_2 - mkRat 1 (10 ^ 30))) 104 ap_LOG10_2 (by decide +kernel) (by decide +kernel) (by decide +kernel)
  · exact near (b := mkRat 1 (2 ^ 104) * (A_LOG10_E - mkRat 1 (10 ^ 30))) 104 ap_LOG10_E (by decide +kernel) (by decide +kernel) (by decide +kernel)
  · exact near (b := mkRat 1 (2 ^ 104) * (A_LN_2 - mkRat 1 (10 ^ 30))) 104 ap_LN_2 (by decide +kernel) (by decide +kernel) (by decide +kernel)
  · exact near (b := mkRat 1 (2 ^ 104) * (A_LN_10 - mkRat 1 (10 ^ 30))) 104 ap_LN_10 (by decide +kernel) (by decide +kernel) (by decide +kernel)

/-- **C48.** Every constant of `Quad` is the real number it names up to a relative error of `2^-214`. -/
theorem C48_quad_values :
    Near Quad.PI.val π 214 ∧
    Near Quad.TAU.val (2 * π) 214 ∧
    Near Quad.FRAC_PI_2.val (π / 2) 214 ∧
    Near Quad.FRAC_PI_3.val (π / 3) 214 ∧
    Near Quad.FRAC_PI_4.val (π / 4) 214 ∧
    Near Quad.FRAC_PI_6.val (π / 6) 214 ∧
    Near Quad.FRAC_PI_8.val (π / 8) 214 ∧
    Near Quad.FRAC_PI_16.val (π / 16) 214 ∧
    Near Quad.FRAC_3_PI_2.val (3 * π / 2) 214 ∧
    Near Quad.FRAC_3_PI_4.val (3 * π / 4) 214 ∧
    Near Quad.FRAC_5_PI_4.val (5 * π / 4) 214 ∧
    Near Quad.FRAC_7_PI_4.val (7 * π / 4) 214 ∧
    Near Quad.FRAC_1_PI.val (1 / π) 214 ∧
    Near Quad.FRAC_2_PI.val (2 / π) 214 ∧
    Near Quad.FRAC_2_SQRT_PI.val (2 / √π) 214 ∧
    Near Quad.SQRT_2.val (√2) 214 ∧
    Near Quad.FRAC_1_SQRT_2.val (1 / √2) 214 ∧
    Near Quad.E.val (Real.exp 1) 214 ∧
    Near Quad.LOG2_10.val (Real.logb 2 10) 214 ∧
    Near Quad.LOG2_E.val (Real.logb 2 (Real.exp 1)) 214 ∧
    Near Quad.LOG10_2.val (Real.logb 10 2) 214 ∧
    Near Quad.LOG10_E.val (Real.logb 10 (Real.exp 1)) 214 ∧
    Near Quad.LN_2.val (Real.log 2) 214 ∧
    Near Quad.LN_10.val (Real.log 10) 214 := by
  refine ⟨?_, ?_, ?_, ?_, ?_, ?_, ?_, ?_, ?_, ?_, ?_, ?_, ?_, ?_, ?_, ?_, ?_, ?_, ?_, ?_, ?_, ?_, ?_, ?_⟩
  · exact near (b := mkRat 9 (10 * 2 ^ 214) * A_PI) 214 ap_PI (by decide +kernel) (by decide +kernel) (by decide +kernel)
  · exact near (b := mkRat 9 (10 * 2 ^ 214) * A_TAU) 214 ap_TAU (by decide +kernel) (by decide +kernel) (by decide +kernel)
  · exact near (b := mkRat 9 (10 * 2 ^ 214) * A_FRAC_PI_2) 214 ap_FRAC_PI_2 (by decide +kernel) (by decide +kernel) (by decide +kernel)
  · exact near (b := mkRat 9 (10 * 2 ^ 214) * A_FRAC_PI_3) 214 ap_FRAC_PI_3 (by decide +kernel) (by decide +kernel) (by decide +kernel)
  · exact near (b := mkRat 9 (10 * 2 ^ 214) * A_FRAC_PI_4) 214 ap_FRAC_PI_4 (by decide +kernel) (by decide +kernel) (by decide +kernel)
  · exact near (b := mkRat 9 (10 * 2 ^ 214) * A_FRAC_PI_6) 214 ap_FRAC_PI_6 (by decide +kernel) (by decide +kernel) (by decide +kernel)
  · exact near (b := mkRat 9 (10 * 2 ^ 214) * A_FRAC_PI_8) 214 ap_FRAC_PI_8 (by decide +kernel) (by decide +kernel) (by decide +kernel)
  · exact near (b := mkRat 9 (10 * 2 ^ 214) * A_FRAC_PI_16) 214 ap_FRAC_PI_16 (by decide +kernel) (by decide +kernel) (by decide +kernel)
  · exact near (b := mkRat 9 (10 * 2 ^ 214) * A_FRAC_3_PI_2) 214 ap_FRAC_3_PI_2 (by decide +kernel) (by decide +kernel) (by decide +kernel)
  · exact near (b := mkRat 9 (10 * 2 ^ 214) * A_FRAC_3_PI_4) 214 ap_FRAC_3_PI_4 (by decide +kernel) (by decide +kernel) (by decide +kernel)
  · exact near (b := mkRat 9 (10 * 2 ^ 214) * A_FRAC_5_PI_4) 214 ap_FRAC_5_PI_4 (by decide +kernel) (by decide +kernel) (by decide +kernel)
  · exact near (b := mkRat 9 (10 * 2 ^ 214) * A_FRAC_7_PI_4) 214 ap_FRAC_7_PI_4 (by decide +kernel) (by decide +kernel) (by decide +kernel)
  · exact near (b := mkRat 9 (10 * 2 ^ 214) * A_FRAC_1_PI) 214 ap_FRAC_1_PI (by decide +kernel) (by decide +kernel) (by decide +kernel)
  · exact near (b := mkRat 9 (10 * 2 ^ 214) * A_FRAC_2_PI) 214 ap_FRAC_2_PI (by decide +kernel) (by decide +kernel) (by decide +kernel)
  · exact near (b := mkRat 9 (10 * 2 ^ 214) * A_FRAC_2_SQRT_PI) 214 ap_FRAC_2_SQRT_PI (by decide +kernel) (by decide +kernel) (by decide +kernel)
  · exact near (b := mkRat 9 (10 * 2 ^ 214) * A_SQRT_2) 214 ap_SQRT_2 (by decide +kernel) (by decide +kernel) (by decide +kernel)
  · exact near (b := mkRat 9 (10 * 2 ^ 214) * A_FRAC_1_SQRT_2) 214 ap_FRAC_1_SQRT_2 (by decide +kernel) (by decide +kernel) (by decide +kernel)
  · exact near (b := mkRat 9 (10 * 2 ^ 214) * A_E) 214 ap_E (by decide +kernel) (by decide +kernel) (by decide +kernel)
  · exact near (b := mkRat 9 (10 * 2 ^ 214) * A_LOG2_10) 214 ap_LOG2_10 (by decide +kernel) (by decide +kernel) (by decide +kernel)
  · exact near (b := mkRat 9 (10 * 2 ^ 214) * A_LOG2_E) 214 ap_LOG2_E (by decide +kernel) (by decide +kernel) (by decide +kernel)
  · exact near (b := mkRat 9 (10 * 2 ^ 214) * A_LOG10_2) 214 ap_LOG10_2 (by decide +kernel) (by decide +kernel) (by decide +kernel)
  · exact near (b := mkRat 9 (10 * 2 ^ 214) * A_LOG10_E) 214 ap_LOG10_E (by decide +kernel) (by decide +kernel) (by decide +kernel)
  · exact near (b := mkRat 9 (10 * 2 ^ 214) * A_LN_2) 214 ap_LN_2 (by decide +kernel) (by decide +kernel) (by decide +kernel)
  · exact near (b := mkRat 9 (10 * 2 ^ 214) * A_LN_10) 214 ap_LN_10 (by decide +kernel) (by decide +kernel) (by decide +kernel)

/-! ## Normalization -/

/-- **C48.** The finite constants of `Double` are normalized. -/
theorem C48_double_normalized : ∀ x ∈ [Double.PI, Double.TAU, Double.FRAC_PI_2, Double.FRAC_PI_3, Double.FRAC_PI_4, Double.FRAC_PI_6, Double.FRAC_PI_8, Double.FRAC_PI_16, Double.FRAC_3_PI_2, Double.FRAC_3_PI_4, Double.FRAC_5_PI_4, Double.FRAC_7_PI_4, Double.FRAC_1_PI, Double.FRAC_2_PI, Double.FRAC_2_SQRT_PI, Double.SQRT_2, Double.FRAC_1_SQRT_2, Double.E, Double.LOG2_10, Double.LOG2_E, Double.LOG10_2, Double.LOG10_E, Double.LN_2, Double.LN_10, Double.EPSILON, Double.MIN, Double.MAX, Double.MIN_POSITIVE, Double.ONE, Double.NEG_ONE, Double.ZERO, Double.NEG_ZERO], x.Normalized := by decide +kernel

/-- **C48.** The finite constants of `Quad` are normalized. -/
theorem C48_quad_normalized : ∀ x ∈ [Quad.PI, Quad.TAU, Quad.FRAC_PI_2, Quad.FRAC_PI_3, Quad.FRAC_PI_4, Quad.FRAC_PI_6, Quad.FRAC_PI_8, Quad.FRAC_PI_16, Quad.FRAC_3_PI_2, Quad.FRAC_3_PI_4, Quad.FRAC_5_PI_4, Quad.FRAC_7_PI_4, Quad.FRAC_1_PI, Quad.FRAC_2_PI, Quad.FRAC_2_SQRT_PI, Quad.SQRT_2, Quad.FRAC_1_SQRT_2, Quad.E, Quad.LOG2_10, Quad.LOG2_E, Quad.LOG10_2, Quad.LOG10_E, Quad.LN_2, Quad.LN_10, Quad.EPSILON, Quad.MIN, Quad.MAX, Quad.MIN_POSITIVE, Quad.ONE, Quad.NEG_ONE, Quad.ZERO, Quad.NEG_ZERO], x.Normalized := by decide +kernel

/-! ## Correct rounding -/

/-- **C48.** The first component of every constant of `Double` is the real number correctly rounded to `f64`. -/
theorem C48_double_first :
    RoundedReal Double.PI.hi π ∧
    RoundedReal Double.TAU.hi (2 * π) ∧
    RoundedReal Double.FRAC_PI_2.hi (π / 2) ∧
    RoundedReal Double.FRAC_PI_3.hi (π / 3) ∧
    RoundedReal Double.FRAC_PI_4.hi (π / 4) ∧
    RoundedReal Double.FRAC_PI_6.hi (π / 6) ∧
    RoundedReal Double.FRAC_PI_8.hi (π / 8) ∧
    RoundedReal Double.FRAC_PI_16.hi (π / 16) ∧
    RoundedReal Double.FRAC_3_PI_2.hi (3 * π / 2) ∧
    RoundedReal Double.FRAC_3_PI_4.hi (3 * π / 4) ∧
    RoundedReal Double.FRAC_5_PI_4.hi (5 * π / 4) ∧
    RoundedReal Double.FRAC_7_PI_4.hi (7 * π / 4) ∧
    RoundedReal Double.FRAC_1_PI.hi (1 / π) ∧
    RoundedReal Double.FRAC_2_PI.hi (2 / π) ∧
    RoundedReal Double.FRAC_2_SQRT_PI.hi (2 / √π) ∧
    RoundedReal Double.SQRT_2.hi (√2) ∧
    RoundedReal Double.FRAC_1_SQRT_2.hi (1 / √2) ∧
    RoundedReal Double.E.hi (Real.exp 1) ∧
    RoundedReal Double.LOG2_10.hi (Real.logb 2 10) ∧
    RoundedReal Double.LOG2_E.hi (Real.logb 2 (Real.exp 1)) ∧
    RoundedReal Double.LOG10_2.hi (Real.logb 10 2) ∧
    RoundedReal Double.LOG10_E.hi (Real.logb 10 (Real.exp 1)) ∧
    RoundedReal Double.LN_2.hi (Real.log 2) ∧
    RoundedReal Double.LN_10.hi (Real.log 10) := by
  have z : ∀ c : ℝ, c - ((0:ℚ) : ℝ) = c := by intro c; simp
  refine ⟨?_, ?_, ?_, ?_, ?_, ?_, ?_, ?_, ?_, ?_, ?_, ?_, ?_, ?_, ?_, ?_, ?_, ?_, ?_, ?_, ?_, ?_, ?_, ?_⟩
  · rw [← z π]; exact nearest 0 ap_PI (by decide +kernel) (by decide +kernel) (by decide +kernel)
  · rw [← z (2 * π)]; exact nearest 0 ap_TAU (by decide +kernel) (by decide +kernel) (by decide +kernel)
  · rw [← z (π / 2)]; exact nearest 0 ap_FRAC_PI_2 (by decide +kernel) (by decide +kernel) (by decide +kernel)
  · rw [← z (π / 3)]; exact nearest 0 ap_FRAC_PI_3 (by decide +kernel) (by decide +kernel) (by decide +kernel)
  · rw [← z (π / 4)]; exact nearest 0 ap_FRAC_PI_4 (by decide +kernel) (by decide +kernel) (by decide +kernel)
  · rw [← z (π / 6)]; exact nearest 0 ap_FRAC_PI_6 (by decide +kernel) (by decide +kernel) (by decide +kernel)
  · rw [← z (π / 8)]; exact nearest 0 ap_FRAC_PI_8 (by decide +kernel) (by decide +kernel) (by decide +kernel)
  · rw [← z (π / 16)]; exact nearest 0 ap_FRAC_PI_16 (by decide +kernel) (by decide +kernel) (by decide +kernel)
  · rw [← z (3 * π / 2)]; exact nearest 0 ap_FRAC_3_PI_2 (by decide +kernel) (by decide +kernel) (by decide +kernel)
  · rw [← z (3 * π / 4)]; exact nearest 0 ap_FRAC_3_PI_4 (by decide +kernel) (by decide +kernel) (by decide +kernel)
  · rw [← z (5 * π / 4)]; exact nearest 0 ap_FRAC_5_PI_4 (by decide +kernel) (by decide +kernel) (by decide +kernel)
  · rw [← z (7 * π / 4)]; exact nearest 0 ap_FRAC_7_PI_4 (by decide +kernel) (by decide +kernel) (by decide +kernel)
  · rw [← z (1 / π)]; exact nearest 0 ap_FRAC_1_PI (by decide +kernel) (by decide +kernel) (by decide +kernel)
  · rw [← z (2 / π)]; exact nearest 0 ap_FRAC_2_PI (by decide +kernel) (by decide +kernel) (by decide +kernel)
  · rw [← z (2 / √π)]; exact nearest 0 ap_FRAC_2_SQRT_PI (by decide +kernel) (by decide +kernel) (by decide +kernel)
  · rw [← z (√2)]; exact nearest 0 ap_SQRT_2 (by decide +kernel) (by decide +kernel) (by decide +kernel)
  · rw [← z (1 / √2)]; exact nearest 0 ap_FRAC_1_SQRT_2 (by decide +kernel) (by decide +kernel) (by decide +kernel)
  · rw [← z (Real.exp 1)]; exact nearest 0 ap_E (by decide +kernel) (by decide +kernel) (by decide +kernel)
  · rw [← z (Real.logb 2 10)]; exact nearest 0 ap_LOG2_10 (by decide +kernel) (by decide +kernel) (by decide +kernel)
  · rw [← z (Real.logb 2 (Real.exp 1))]; exact nearest 0 ap_LOG2_E (by decide +kernel) (by decide +kernel) (by decide +kernel)
  · rw [← z (Real.logb 10 2)]; exact nearest 0 ap_LOG10_2 (by decide +kernel) (by decide +kernel) (by decide +kernel)
  · rw [← z (Real.logb 10 (Real.exp 1))]; exact nearest 0 ap_LOG10_E (by decide +kernel) (by decide +kernel) (by decide +kernel)
  · rw [← z (Real.log 2)]; exact nearest 0 ap_LN_2 (by decide +kernel) (by decide +kernel) (by decide +kernel)
  · rw [← z (Real.log 10)]; exact nearest 0 ap_LN_10 (by decide +kernel) (by decide +kernel) (by decide +kernel)

/-- **C62** (partial). For `PI` and four more constants of `Double` the second component is the remainder correctly rounded: they are
the correctly rounded pairs. -/
theorem C62_double_second_partial :
    RoundedReal Double.PI.lo (π - (Double.PI.hi.toRat : ℝ)) ∧
    RoundedReal Double.FRAC_PI_6.lo (π / 6 - (Double.FRAC_PI_6.hi.toRat : ℝ)) ∧
    RoundedReal Double.FRAC_2_PI.lo (2 / π - (Double.FRAC_2_PI.hi.toRat : ℝ)) ∧
    RoundedReal Double.FRAC_2_SQRT_PI.lo (2 / √π - (Double.FRAC_2_SQRT_PI.hi.toRat : ℝ)) ∧
    RoundedReal Double.FRAC_1_SQRT_2.lo (1 / √2 - (Double.FRAC_1_SQRT_2.hi.toRat : ℝ)) := by
  refine ⟨?_, ?_, ?_, ?_, ?_⟩
  · exact nearest _ ap_PI (by decide +kernel) (by decide +kernel) (by decide +kernel)
  · exact nearest _ ap_FRAC_PI_6 (by decide +kernel) (by decide +kernel) (by decide +kernel)
  · exact nearest _ ap_FRAC_2_PI (by decide +kernel) (by decide +kernel) (by decide +kernel)
  · exact nearest _ ap_FRAC_2_SQRT_PI (by decide +kernel) (by decide +kernel) (by decide +kernel)
  · exact nearest _ ap_FRAC_1_SQRT_2 (by decide +kernel) (by decide +kernel) (by decide +kernel)

/-- **C48.** The first three components of every constant of `Quad` are correctly rounded: each is the remainder after the
components before it, correctly rounded. -/
theorem C48_quad_first :
    (RoundedReal Quad.PI.c0 π ∧ RoundedReal Quad.PI.c1 (π - ((Quad.PI.c0.toRat : ℚ) : ℝ)) ∧
      RoundedReal Quad.PI.c2 (π - ((Quad.PI.c0.toRat + Quad.PI.c1.toRat : ℚ) : ℝ))) ∧
    (RoundedReal Quad.TAU.c0 (2 * π) ∧ RoundedReal Quad.TAU.c1 (2 * π - ((Quad.TAU.c0.toRat : ℚ) : ℝ)) ∧
      RoundedReal Quad.TAU.c2 (2 * π - ((Quad.TAU.c0.toRat + Quad.TAU.c1.toRat : ℚ) : ℝ))) ∧
    (RoundedReal Quad.FRAC_PI_2.c0 (π / 2) ∧ RoundedReal Quad.FRAC_PI_2.c1 (π / 2 - ((Quad.FRAC_PI_2.c0.toRat : ℚ) : ℝ)) ∧
      RoundedReal Quad.FRAC_PI_2.c2 (π / 2 - ((Quad.FRAC_PI_2.c0.toRat + Quad.FRAC_PI_2.c1.toRat : ℚ) : ℝ))) ∧
    (RoundedReal Quad.FRAC_PI_3.c0 (π / 3) ∧ RoundedReal Quad.FRAC_PI_3.c1 (π / 3 - ((Quad.FRAC_PI_3.c0.toRat : ℚ) : ℝ)) ∧
      RoundedReal Quad.FRAC_PI_3.c2 (π / 3 - ((Quad.FRAC_PI_3.c0.toRat + Quad.FRAC_PI_3.c1.toRat : ℚ) : ℝ))) ∧
    (RoundedReal Quad.FRAC_PI_4.c0 (π / 4) ∧ RoundedReal Quad.FRAC_PI_4.c1 (π / 4 - ((Quad.FRAC_PI_4.c0.toRat : ℚ) : ℝ)) ∧
      RoundedReal Quad.FRAC_PI_4.c2 (π / 4 - ((Quad.FRAC_PI_4.c0.toRat + Quad.FRAC_PI_4.c1.toRat : ℚ) : ℝ))) ∧
    (RoundedReal Quad.FRAC_PI_6.c0 (π / 6) ∧ RoundedReal Quad.FRAC_PI_6.c1 (π / 6 - ((Quad.FRAC_PI_6.c0.toRat : ℚ) : ℝ)) ∧
      RoundedReal Quad.FRAC_PI_6.c2 (π / 6 - ((Quad.FRAC_PI_6.c0.toRat + Quad.FRAC_PI_6.c1.toRat : ℚ) : ℝ))) ∧
    (RoundedReal Quad.FRAC_PI_8.c0 (π / 8) ∧ RoundedReal Quad.FRAC_PI_8.c1 (π / 8 - ((Quad.FRAC_PI_8.c0.toRat : ℚ) : ℝ)) ∧
      RoundedReal Quad.FRAC_PI_8.c2 (π / 8 - ((Quad.FRAC_PI_8.c0.toRat + Quad.FRAC_PI_8.c1.toRat : ℚ) : ℝ))) ∧
    (RoundedReal Quad.FRAC_PI_16.c0 (π / 16) ∧ RoundedReal Quad.FRAC_PI_16.c1 (π / 16 - ((Quad.FRAC_PI_16.c0.toRat : ℚ) : ℝ)) ∧
      RoundedReal Quad.FRAC_PI_16.c2 (π / 16 - ((Quad.FRAC_PI_16.c0.toRat + Quad.FRAC_PI_16.c1.toRat : ℚ) : ℝ))) ∧
    (RoundedReal Quad.FRAC_3_PI_2.c0 (3 * π / 2) ∧ RoundedReal Quad.FRAC_3_PI_2.c1 (3 * π / 2 - ((Quad.FRAC_3_PI_2.c0.toRat : ℚ) : ℝ)) ∧
      RoundedReal Quad.FRAC_3_PI_2.c2 (3 * π / 2 - ((Quad.FRAC_3_PI_2.c0.toRat + Quad.FRAC_3_PI_2.c1.toRat : ℚ) : ℝ))) ∧
    (RoundedReal Quad.FRAC_3_PI_4.c0 (3 * π / 4) ∧ RoundedReal Quad.FRAC_3_PI_4.c1 (3 * π / 4 - ((Quad.FRAC_3_PI_4.c0.toRat : ℚ) : ℝ)) ∧
      RoundedReal Quad.FRAC_3_PI_4.c2 (3 * π / 4 - ((Quad.FRAC_3_PI_4.c0.toRat + Quad.FRAC_3_PI_4.c1.toRat : ℚ) : ℝ))) ∧
    (RoundedReal Quad.FRAC_5_PI_4.c0 (5 * π / 4) ∧ RoundedReal Quad.FRAC_5_PI_4.c1 (5 * π / 4 - ((Quad.FRAC_5_PI_4.c0.toRat : ℚ) : ℝ)) ∧
      RoundedReal Quad.FRAC_5_PI_4.c2 (5 * π / 4 - ((Quad.FRAC_5_PI_4.c0.toRat + Quad.FRAC_5_PI_4.c1.toRat : ℚ) : ℝ))) ∧
    (RoundedReal Quad.FRAC_7_PI_4.c0 (7 * π / 4) ∧ RoundedReal Quad.FRAC_7_PI_4.c1 (7 * π / 4 - ((Quad.FRAC_7_PI_4.c0.toRat : ℚ) : ℝ)) ∧
      RoundedReal Quad.FRAC_7_PI_4.c2 (7 * π / 4 - ((Quad.FRAC_7_PI_4.c0.toRat + Quad.FRAC_7_PI_4.c1.toRat : ℚ) : ℝ))) ∧
    (RoundedReal Quad.FRAC_1_PI.c0 (1 / π) ∧ RoundedReal Quad.FRAC_1_PI.c1 (1 / π - ((Quad.FRAC_1_PI.c0.toRat : ℚ) : ℝ)) ∧
      RoundedReal Quad.FRAC_1_PI.c2 (1 / π - ((Quad.FRAC_1_PI.c0.toRat + Quad.FRAC_1_PI.c1.toRat : ℚ) : ℝ))) ∧
    (RoundedReal Quad.FRAC_2_PI.c0 (2 / π) ∧ RoundedReal Quad.FRAC_2_PI.c1 (2 / π - ((Quad.FRAC_2_PI.c0.toRat : ℚ) : ℝ)) ∧
      RoundedReal Quad.FRAC_2_PI.c2 (2 / π - ((Quad.FRAC_2_PI.c0.toRat + Quad.FRAC_2_PI.c1.toRat : ℚ) : ℝ))) ∧
    (RoundedReal Quad.FRAC_2_SQRT_PI.c0 (2 / √π) ∧ RoundedReal Quad.FRAC_2_SQRT_PI.c1 (2 / √π - ((Quad.FRAC_2_SQRT_PI.c0.toRat : ℚ) : ℝ)) ∧
      RoundedReal Quad.FRAC_2_SQRT_PI.c2 (2 / √π - ((Quad.FRAC_2_SQRT_PI.c0.toRat + Quad.FRAC_2_SQRT_PI.c1.toRat : ℚ) : ℝ))) ∧
    (RoundedReal Quad.SQRT_2.c0 (√2) ∧ RoundedReal Quad.SQRT_2.c1 (√2 - ((Quad.SQRT_2.c0.toRat : ℚ) : ℝ)) ∧
      RoundedReal Quad.SQRT_2.c2 (√2 - ((Quad.SQRT_2.c0.toRat + Quad.SQRT_2.c1.toRat : ℚ) : ℝ))) ∧
    (RoundedReal Quad.FRAC_1_SQRT_2.c0 (1 / √2) ∧ RoundedReal Quad.FRAC_1_SQRT_2.c1 (1 / √2 - ((Quad.FRAC_1_SQRT_2.c0.toRat : ℚ) : ℝ)) ∧
      RoundedReal Quad.FRAC_1_SQRT_2.c2 (1 / √2 - ((Quad.FRAC_1_SQRT_2.c0.toRat + Quad.FRAC_1_SQRT_2.c1.toRat : ℚ) : ℝ))) ∧
    (RoundedReal Quad.E.c0 (Real.exp 1) ∧ RoundedReal Quad.E.c1 (Real.exp 1 - ((Quad.E.c0.toRat : ℚ) : ℝ)) ∧
      RoundedReal Quad.E.c2 (Real.exp 1 - ((Quad.E.c0.toRat + Quad.E.c1.toRat : ℚ) : ℝ))) ∧
    (RoundedReal Quad.LOG2_10.c0 (Real.logb 2 10) ∧ RoundedReal Quad.LOG2_10.c1 (Real.logb 2 10 - ((Quad.LOG2_10.c0.toRat : ℚ) : ℝ)) ∧
      RoundedReal Quad.LOG2_10.c2 (Real.logb 2 10 - ((Quad.LOG2_10.c0.toRat + Quad.LOG2_10.c1.toRat : ℚ) : ℝ))) ∧
    (RoundedReal Quad.LOG2_E.c0 (Real.logb 2 (Real.exp 1)) ∧ RoundedReal Quad.LOG2_E.c1 (Real.logb 2 (Real.exp 1) - ((Quad.LOG2_E.c0.toRat : ℚ) : ℝ)) ∧
      RoundedReal Quad.LOG2_E.c2 (Real.logb 2 (Real.exp 1) - ((Quad.LOG2_E.c0.toRat + Quad.LOG2_E.c1.toRat : ℚ) : ℝ))) ∧
    (RoundedReal Quad.LOG10_2.c0 (Real.logb 10 2) ∧ RoundedReal Quad.LOG10_2.c1 (Real.logb 10 2 - ((Quad.LOG10_2.c0.toRat : ℚ) : ℝ)) ∧
      RoundedReal Quad.LOG10_2.c2 (Real.logb 10 2 - ((Quad.LOG10_2.c0.toRat + Quad.LOG10_2.c1.toRat : ℚ) : ℝ))) ∧
    (RoundedReal Quad.LOG10_E.c0 (Real.logb 10 (Real.exp 1)) ∧ RoundedReal Quad.LOG10_E.c1 (Real.logb 10 (Real.exp 1) - ((Quad.LOG10_E.c0.toRat : ℚ) : ℝ)) ∧
      RoundedReal Quad.LOG10_E.c2 (Real.logb 10 (Real.exp 1) - ((Quad.LOG10_E.c0.toRat + Quad.LOG10_E.c1.toRat : ℚ) : ℝ))) ∧
    (RoundedReal Quad.LN_2.c0 (Real.log 2) ∧ RoundedReal Quad.LN_2.c1 (Real.log 2 - ((Quad.LN_2.c0.toRat : ℚ) : ℝ)) ∧
      RoundedReal Quad.LN_2.c2 (Real.log 2 - ((Quad.LN_2.c0.toRat + Quad.LN_2.c1.toRat : ℚ) : ℝ))) ∧
    (RoundedReal Quad.LN_10.c0 (Real.log 10) ∧ RoundedReal Quad.LN_10.c1 (Real.log 10 - ((Quad.LN_10.c0.toRat : ℚ) : ℝ)) ∧
      RoundedReal Quad.LN_10.c2 (Real.log 10 - ((Quad.LN_10.c0.toRat + Quad.LN_10.c1.toRat : ℚ) : ℝ))) := by
  have z : ∀ c : ℝ, c - ((0:ℚ) : ℝ) = c := by intro c; simp
  refine ⟨⟨?_, ?_, ?_⟩, ⟨?_, ?_, ?_⟩, ⟨?_, ?_, ?_⟩, ⟨?_, ?_, ?_⟩, ⟨?_, ?_, ?_⟩, ⟨?_, ?_, ?_⟩, ⟨?_, ?_, ?_⟩, ⟨?_, ?_, ?_⟩, ⟨?_, ?_, ?_⟩, ⟨?_, ?_, ?_⟩, ⟨?_, ?_, ?_⟩, ⟨?_, ?_, ?_⟩, ⟨?_, ?_, ?_⟩, ⟨?_, ?_, ?_⟩, ⟨?_, ?_, ?_⟩, ⟨?_, ?_, ?_⟩, ⟨?_, ?_, ?_⟩, ⟨?_, ?_, ?_⟩, ⟨?_, ?_, ?_⟩, ⟨?_, ?_, ?_⟩, ⟨?_, ?_, ?_⟩, ⟨?_, ?_, ?_⟩, ⟨?_, ?_, ?_⟩, ⟨?_, ?_, ?_⟩⟩
  · rw [← z π]; exact nearest 0 ap_PI (by decide +kernel) (by decide +kernel) (by decide +kernel)
  · exact nearest _ ap_PI (by decide +kernel) (by decide +kernel) (by decide +kernel)
  · exact nearest _ ap_PI (by decide +kernel) (by decide +kernel) (by decide +kernel)
  · rw [← z (2 * π)]; exact nearest 0 ap_TAU (by decide +kernel) (by decide +kernel) (by decide +kernel)
  · exact nearest _ ap_TAU (by decide +kernel) (by decide +kernel) (by decide +kernel)
  · exact nearest _ ap_TAU (by decide +kernel) (by decide +kernel) (by decide +kernel)
  · rw [← z (π / 2)]; exact nearest 0 ap_FRAC_PI_2 (by decide +kernel) (by decide +kernel) (by decide +kernel)
  · exact nearest _ ap_FRAC_PI_2 (by decide +kernel) (by decide +kernel) (by decide +kernel)
  · exact nearest _ ap_FRAC_PI_2 (by decide +kernel) (by decide +kernel) (by decide +kernel)
  · rw [← z (π / 3)]; exact nearest 0 ap_FRAC_PI_3 (by decide +kernel) (by decide +kernel) (by decide +kernel)
  · exact nearest _ ap_FRAC_PI_3 (by decide +kernel) (by decide +kernel) (by decide +kernel)
  · exact nearest _ ap_FRAC_PI_3 (by decide +kernel) (by decide +kernel) (by decide +kernel)
  · rw [← z (π / 4)]; exact nearest 0 ap_FRAC_PI_4 (by decide +kernel) (by decide +kernel) (by decide +kernel)
  · exact nearest _ ap_FRAC_PI_4 (by decide +kernel) (by decide +kernel) (by decide +kernel)
  · exact nearest _ ap_FRAC_PI_4 (by decide +kernel) (by decide +kernel) (by decide +kernel)
  · rw [← z (π / 6)]; exact nearest 0 ap_FRAC_PI_6 (by decide +kernel) (by decide +kernel) (by decide +kernel)
  · exact nearest _ ap_FRAC_PI_6 (by decide +kernel) (by decide +kernel) (by decide +kernel)
  · exact nearest _ ap_FRAC_PI_6 (by decide +kernel) (by decide +kernel) (by decide +kernel)
  · rw [← z (π / 8)]; exact nearest 0 ap_FRAC_PI_8 (by decide +kernel) (by decide +kernel) (by decide +kernel)
  · exact nearest _ ap_FRAC_PI_8 (by decide +kernel) (by decide +kernel) (by decide +kernel)
  · exact nearest _ ap_FRAC_PI_8 (by decide +kernel) (by decide +kernel) (by decide +kernel)
  · rw [← z (π / 16)]; exact nearest 0 ap_FRAC_PI_16 (by decide +kernel) (by decide +kernel) (by decide +kernel)
  · exact nearest _ ap_FRAC_PI_16 (by decide +kernel) (by decide +kernel) (by decide +kernel)
  · exact nearest _ ap_FRAC_PI_16 (by decide +kernel) (by decide +kernel) (by decide +kernel)
  · rw [← z (3 * π / 2)]; exact nearest 0 ap_FRAC_3_PI_2 (by decide +kernel) (by decide +kernel) (by decide +kernel)
  · exact nearest _ ap_FRAC_3_PI_2 (by decide +kernel) (by decide +kernel) (by decide +kernel)
  · exact nearest _ ap_FRAC_3_PI_2 (by decide +kernel) (by decide +kernel) (by decide +kernel)
  · rw [← z (3 * π / 4)]; exact nearest 0 ap_FRAC_3_PI_4 (by decide +kernel) (by decide +kernel) (by decide +kernel)
  · exact nearest _ ap_FRAC_3_PI_4 (by decide +kernel) (by decide +kernel) (by decide +kernel)
  · exact nearest _ ap_FRAC_3_PI_4 (by decide +kernel) (by decide +kernel) (by decide +kernel)
  · rw [← z (5 * π / 4)]; exact nearest 0 ap_FRAC_5_PI_4 (by decide +kernel) (by decide +kernel) (by decide +kernel)
  · exact nearest _ ap_FRAC_5_PI_4 (by decide +kernel) (by decide +kernel) (by decide +kernel)
  · exact nearest _ ap_FRAC_5_PI_4 (by decide +kernel) (by decide +kernel) (by decide +kernel)
  · rw [← z (7 * π / 4)]; exact nearest 0 ap_FRAC_7_PI_4 (by decide +kernel) (by decide +kernel) (by decide +kernel)
  · exact nearest _ ap_FRAC_7_PI_4 (by decide +kernel) (by decide +kernel) (by decide +kernel)
  · exact nearest _ ap_FRAC_7_PI_4 (by decide +kernel) (by decide +kernel) (by decide +kernel)
  · rw [← z (1 / π)]; exact nearest 0 ap_FRAC_1_PI (by decide +kernel) (by decide +kernel) (by decide +kernel)
  · exact nearest _ ap_FRAC_1_PI (by decide +kernel) (by decide +kernel) (by decide +kernel)
  · exact nearest _ ap_FRAC_1_PI (by decide +kernel) (by decide +kernel) (by decide +kernel)
  · rw [← z (2 / π)]; exact nearest 0 ap_FRAC_2_PI (by decide +kernel) (by decide +kernel) (by decide +kernel)
  · exact nearest _ ap_FRAC_2_PI (by decide +kernel) (by decide +kernel) (by decide +kernel)
  · exact nearest _ ap_FRAC_2_PI (by decide +kernel) (by decide +kernel) (by decide +kernel)
  · rw [← z (2 / √π)]; exact nearest 0 ap_FRAC_2_SQRT_PI (by decide +kernel) (by decide +kernel) (by decide +kernel)
  · exact nearest _ ap_FRAC_2_SQRT_PI (by decide +kernel) (by decide +kernel) (by decide +kernel)
  · exact nearest _ ap_FRAC_2_SQRT_PI (by decide +kernel) (by decide +kernel) (by decide +kernel)
  · rw [← z (√2)]; exact nearest 0 ap_SQRT_2 (by decide +kernel) (by decide +kernel) (by decide +kernel)
  · exact nearest _ ap_SQRT_2 (by decide +kernel) (by decide +kernel) (by decide +kernel)
  · exact nearest _ ap_SQRT_2 (by decide +kernel) (by decide +kernel) (by decide +kernel)
  · rw [← z (1 / √2)]; exact nearest 0 ap_FRAC_1_SQRT_2 (by decide +kernel) (by decide +kernel) (by decide +kernel)
  · exact nearest _ ap_FRAC_1_SQRT_2 (by decide +kernel) (by decide +kernel) (by decide +kernel)
  · exact nearest _ ap_FRAC_1_SQRT_2 (by decide +kernel) (by decide +kernel) (by decide +kernel)
  · rw [← z (Real.exp 1)]; exact nearest 0 ap_E (by decide +kernel) (by decide +kernel) (by decide +kernel)
  · exact nearest _ ap_E (by decide +kernel) (by decide +kernel) (by decide +kernel)
  · exact nearest _ ap_E (by decide +kernel) (by decide +kernel) (by decide +kernel)
  · rw [← z (Real.logb 2 10)]; exact nearest 0 ap_LOG2_10 (by decide +kernel) (by decide +kernel) (by decide +kernel)
  · exact nearest _ ap_LOG2_10 (by decide +kernel) (by decide +kernel) (by decide +kernel)
  · exact nearest _ ap_LOG2_10 (by decide +kernel) (by decide +kernel) (by decide +kernel)
  · rw [← z (Real.logb 2 (Real.exp 1))]; exact nearest 0 ap_LOG2_E (by decide +kernel) (by decide +kernel) (by decide +kernel)
  · exact nearest _ ap_LOG2_E (by decide +kernel) (by decide +kernel) (by decide +kernel)
  · exact nearest _ ap_LOG2_E (by decide +kernel) (by decide +kernel) (by decide +kernel)
  · rw [← z (Real.logb 10 2)]; exact nearest 0 ap_LOG10_2 (by decide +kernel) (by decide +kernel) (by decide +kernel)
  · exact nearest _ ap_LOG10_2 (by decide +kernel) (by decide +kernel) (by decide +kernel)
  · exact nearest _ ap_LOG10_2 (by decide +kernel) (by decide +kernel) (by decide +kernel)
  · rw [← z (Real.logb 10 (Real.exp 1))]; exact nearest 0 ap_LOG10_E (by decide +kernel) (by decide +kernel) (by decide +kernel)
  · exact nearest _ ap_LOG10_E (by decide +kernel) (by decide +kernel) (by decide +kernel)
  · exact nearest _ ap_LOG10_E (by decide +kernel) (by decide +kernel) (by decide +kernel)
  · rw [← z (Real.log 2)]; exact nearest 0 ap_LN_2 (by decide +kernel) (by decide +kernel) (by decide +kernel)
  · exact nearest _ ap_LN_2 (by decide +kernel) (by decide +kernel) (by decide +kernel)
  · exact nearest _ ap_LN_2 (by decide +kernel) (by decide +kernel) (by decide +kernel)
  · rw [← z (Real.log 10)]; exact nearest 0 ap_LN_10 (by decide +kernel) (by decide +kernel) (by decide +kernel)
  · exact nearest _ ap_LN_10 (by decide +kernel) (by decide +kernel) (by decide +kernel)
  · exact nearest _ ap_LN_10 (by decide +kernel) (by decide +kernel) (by decide +kernel)

/-- **C62**, refuted in part: the second components of `SQRT_2`, `E`, `LN_2`, `TAU` and `FRAC_PI_2` of `Double` are not the
correctly rounded remainders. -/
theorem C62_refuted :
    ¬ RoundedReal Double.SQRT_2.lo (√2 - (Double.SQRT_2.hi.toRat : ℝ)) ∧
    ¬ RoundedReal Double.E.lo (Real.exp 1 - (Double.E.hi.toRat : ℝ)) ∧
    ¬ RoundedReal Double.LN_2.lo (Real.log 2 - (Double.LN_2.hi.toRat : ℝ)) ∧
    ¬ RoundedReal Double.TAU.lo (2 * π - (Double.TAU.hi.toRat : ℝ)) ∧
    ¬ RoundedReal Double.FRAC_PI_2.lo (π / 2 - (Double.FRAC_PI_2.hi.toRat : ℝ)) := by
  refine ⟨?_, ?_, ?_, ?_, ?_⟩
  · exact not_nearest (y := (F64.ofDec true 9667293313452913 (-32))) _ ap_SQRT_2 (by decide +kernel) (by decide +kernel) (by decide +kernel)
  · exact not_nearest (y := (F64.ofDec false 14456468917292502 (-32))) _ ap_E (by decide +kernel) (by decide +kernel) (by decide +kernel)
  · exact not_nearest (y := (F64.ofDec false 23190468138462996 (-33))) _ ap_LN_2 (by decide +kernel) (by decide +kernel) (by decide +kernel)
  · exact not_nearest (y := (F64.ofDec false 24492935982947064 (-32))) _ ap_TAU (by decide +kernel) (by decide +kernel) (by decide +kernel)
  · exact not_nearest (y := (F64.ofDec false 6123233995736766 (-32))) _ ap_FRAC_PI_2 (by decide +kernel) (by decide +kernel) (by decide +kernel)

/-! ## Consistency -/

/-- **C48.** The `Quad` constants extend the `Double` constants: the first components agree for every constant. -/
theorem C48_agree : ∀ p ∈ [(Double.PI.hi, Quad.PI.c0), (Double.TAU.hi, Quad.TAU.c0), (Double.FRAC_PI_2.hi, Quad.FRAC_PI_2.c0), (Double.FRAC_PI_3.hi, Quad.FRAC_PI_3.c0), (Double.FRAC_PI_4.hi, Quad.FRAC_PI_4.c0), (Double.FRAC_PI_6.hi, Quad.FRAC_PI_6.c0), (Double.FRAC_PI_8.hi, Quad.FRAC_PI_8.c0), (Double.FRAC_PI_16.hi, Quad.FRAC_PI_16.c0), (Double.FRAC_3_PI_2.hi, Quad.FRAC_3_PI_2.c0), (Double.FRAC_3_PI_4.hi, Quad.FRAC_3_PI_4.c0), (Double.FRAC_5_PI_4.hi, Quad.FRAC_5_PI_4.c0), (Double.FRAC_7_PI_4.hi, Quad.FRAC_7_PI_4.c0), (Double.FRAC_1_PI.hi, Quad.FRAC_1_PI.c0), (Double.FRAC_2_PI.hi, Quad.FRAC_2_PI.c0), (Double.FRAC_2_SQRT_PI.hi, Quad.FRAC_2_SQRT_PI.c0), (Double.SQRT_2.hi, Quad.SQRT_2.c0), (Double.FRAC_1_SQRT_2.hi, Quad.FRAC_1_SQRT_2.c0), (Double.E.hi, Quad.E.c0), (Double.LOG2_10.hi, Quad.LOG2_10.c0), (Double.LOG2_E.hi, Quad.LOG2_E.c0), (Double.LOG10_2.hi, Quad.LOG10_2.c0), (Double.LOG10_E.hi, Quad.LOG10_E.c0), (Double.LN_2.hi, Quad.LN_2.c0), (Double.LN_10.hi, Quad.LN_10.c0)], p.1 = p.2 := by decide +kernel

/-- **C48.** Relations between the constants of `Quad` that hold exactly. -/
theorem C48_quad_consistent : Quad.TAU.val = 2 * Quad.PI.val ∧ Quad.PI.val = 2 * Quad.FRAC_PI_2.val ∧
    Quad.FRAC_PI_4.val = 2 * Quad.FRAC_PI_8.val ∧ Quad.FRAC_PI_8.val = 2 * Quad.FRAC_PI_16.val ∧
    Quad.FRAC_2_PI.val = 2 * Quad.FRAC_1_PI.val := by decide +kernel

/-- **C62**, refuted in part: `TAU` of `Double` is not twice `PI`, although that is representable. -/
theorem C62_refuted_tau : Double.TAU.val ≠ 2 * Double.PI.val ∧
    (Double.mk (F64.add Double.PI.hi Double.PI.hi) (F64.add Double.PI.lo Double.PI.lo)).val = 2 * Double.PI.val := by decide +kernel

end Verif
