#!/usr/bin/env python3
"""Generate lean/Verif/Props/Consts.lean: the constants of the crate against the real numbers they name.
The Lean kernel checks everything; this script only chooses rational approximations."""
from decimal import Decimal as D, getcontext
getcontext().prec = 150
def arctan_inv(n):
    s, t, k = D(0), D(1) / n, 0
    while t > D(10) ** -145:
        s += t / (2 * k + 1) if k % 2 == 0 else -t / (2 * k + 1)
        t /= n * n; k += 1
    return s
pi = 4 * (4 * arctan_inv(5) - arctan_inv(239))
e = D(1).exp(); ln2 = D(2).ln(); ln10 = D(10).ln()
def q(v): return f"mkRat {int((v * D(10) ** 74).to_integral_value())} (10 ^ 74)"
C = []  # name, real expression, value, proof of the approximation
def scale(name, expr, num, den):
    C.append((name, expr, pi * num / den,
      f"""  have h := scale_approx pi_approx (mkRat {num} {den}) (by decide +kernel)
  have e : ((mkRat {num} {den} : ℚ) : ℝ) * π = {expr} := by rw [Rat.mkRat_eq_div]; push_cast; ring
  rw [e] at h
  exact wide h (by decide +kernel) (by decide +kernel) (by decide +kernel)"""))
scale('PI', 'π', 1, 1); scale('TAU', '2 * π', 2, 1); scale('FRAC_PI_2', 'π / 2', 1, 2); scale('FRAC_PI_3', 'π / 3', 1, 3)
scale('FRAC_PI_4', 'π / 4', 1, 4); scale('FRAC_PI_6', 'π / 6', 1, 6); scale('FRAC_PI_8', 'π / 8', 1, 8); scale('FRAC_PI_16', 'π / 16', 1, 16)
scale('FRAC_3_PI_2', '3 * π / 2', 3, 2); scale('FRAC_3_PI_4', '3 * π / 4', 3, 4); scale('FRAC_5_PI_4', '5 * π / 4', 5, 4); scale('FRAC_7_PI_4', '7 * π / 4', 7, 4)
def div(name, expr, v, pn, pq, pth, qq, qth, rew=''):
    C.append((name, expr, v, f"""  have h := div_approx (A := A_{name}) {pth} {qth} (by decide +kernel) (by decide +kernel) (by decide +kernel) (by decide +kernel)
{rew}  exact wide h (by decide +kernel) (by decide +kernel) (by decide +kernel)"""))
one = '(exact_approx 1)'
div('FRAC_1_PI', '1 / π', 1 / pi, '1', '1', one, 'piA', 'pi_approx', "  rw [Rat.cast_one] at h\n")
div('FRAC_2_PI', '2 / π', 2 / pi, '2', '2', '(exact_approx 2)', 'piA', 'pi_approx', "  rw [Rat.cast_ofNat] at h\n")
C.append(('FRAC_2_SQRT_PI', '2 / √π', 2 / pi.sqrt(), "  have h := two_sqrt_pi_approx (A := A_FRAC_2_SQRT_PI) (by decide +kernel) (by decide +kernel) (by decide +kernel)\n  exact wide h (by decide +kernel) (by decide +kernel) (by decide +kernel)"))
C.append(('SQRT_2', '√2', D(2).sqrt(), "  exact wide sqrt2_approx (by decide +kernel) (by decide +kernel) (by decide +kernel)"))
div('FRAC_1_SQRT_2', '1 / √2', 1 / D(2).sqrt(), '1', '1', one, 'sqrt2A', 'sqrt2_approx', "  rw [Rat.cast_one] at h\n")
C.append(('E', 'Real.exp 1', e, "  exact wide exp_approx (by decide +kernel) (by decide +kernel) (by decide +kernel)"))
div('LOG2_10', 'Real.logb 2 10', ln10 / ln2, '', '', 'log10_approx', '', 'log2_approx', "  rw [Real.logb]\n")
div('LOG2_E', 'Real.logb 2 (Real.exp 1)', 1 / ln2, '', '', one, '', 'log2_approx', "  rw [Rat.cast_one] at h\n  rw [Real.logb, Real.log_exp]\n")
div('LOG10_2', 'Real.logb 10 2', ln2 / ln10, '', '', 'log2_approx', '', 'log10_approx', "  rw [Real.logb]\n")
div('LOG10_E', 'Real.logb 10 (Real.exp 1)', 1 / ln10, '', '', one, '', 'log10_approx', "  rw [Rat.cast_one] at h\n  rw [Real.logb, Real.log_exp]\n")
C.append(('LN_2', 'Real.log 2', ln2, "  exact wide log2_approx (by decide +kernel) (by decide +kernel) (by decide +kernel)"))
C.append(('LN_10', 'Real.log 10', ln10, "  exact wide log10_approx (by decide +kernel) (by decide +kernel) (by decide +kernel)"))

o = []
w = o.append
w('''import Verif.Proofs.Consts
import Verif.SpecQuad
import Verif.F64Lemmas
import Verif.EFT
import Mathlib.Analysis.SpecialFunctions.Log.Base

/-!
# The published constants against the real numbers they name (C48)

Generated by `tools/gen_consts.py`, which only chooses the rational approximations; every bound is checked by the kernel.
The constants themselves are those of the model (`src/double/aconsts.rs`, `src/quad/aconsts.rs`).
-/

namespace Verif

open Real Consts

/-- `v` is the real number `c` up to a relative error of `2^-n`. -/
def Near (v : ℚ) (c : ℝ) (n : ℕ) : Prop := |(v : ℝ) - c| * 2 ^ n ≤ |c|

/-- No finite `f64` is closer to the real number `c` than `x`: `x` is `c` correctly rounded. -/
def RoundedReal (x : F64) (c : ℝ) : Prop :=
  x.isFinite = true ∧ ∀ y : F64, y.isFinite = true → |(x.toRat : ℝ) - c| ≤ |(y.toRat : ℝ) - c|

namespace Consts

/-- The accuracy of the approximations below. -/
def dlt : ℚ := mkRat 1 (10 ^ 70)

theorem exact_approx (n : ℚ) : |((n : ℚ) : ℝ) - (n : ℝ)| ≤ (eps : ℝ) := by
  rw [sub_self, abs_zero]; exact_mod_cast eps_pos.le

theorem wide {c : ℝ} {A B δ : ℚ} (h : |c - (B : ℝ)| ≤ (δ : ℝ)) (h1 : A - B ≤ δ) (h2 : B - A ≤ δ) (h3 : 2 * δ ≤ dlt) :
    |c - (A : ℝ)| ≤ (dlt : ℝ) := by
  have h' := abs_le.mp h
  have h1' : (A : ℝ) - (B : ℝ) ≤ (δ : ℝ) := by exact_mod_cast h1
  have h2' : (B : ℝ) - (A : ℝ) ≤ (δ : ℝ) := by exact_mod_cast h2
  have h3' : 2 * (δ : ℝ) ≤ (dlt : ℝ) := by exact_mod_cast h3
  rw [abs_le]; constructor <;> linarith [h'.1, h'.2]

theorem near {c : ℝ} {A v b : ℚ} (n : ℕ) (h : |c - (A : ℝ)| ≤ (dlt : ℝ)) (h1 : v - A ≤ b) (h2 : A - v ≤ b)
    (h3 : (b + dlt) * (2 ^ n : ℕ) ≤ A - dlt) : Near v c n := (near_of dlt h h1 h2 n h3).trans (le_abs_self c)

theorem nearest_of {x : F64} {c : ℝ} {L U : ℚ} (hx : x.isFinite = true) (hL : (L : ℝ) ≤ c) (hU : c ≤ (U : ℝ))
    (h1 : rnd (L * ((2 ^ 1074 : ℕ) : ℚ)) = x.units) (h2 : rnd (U * ((2 ^ 1074 : ℕ) : ℚ)) = x.units) : RoundedReal x c := by
  refine ⟨hx, fun y hy => ?_⟩
  have key : ∀ V : ℚ, rnd (V * ((2 ^ 1074 : ℕ) : ℚ)) = x.units → |V - x.toRat| ≤ |V - y.toRat| := by
    intro V hV
    have hr : Rep y.units := by
      cases y with
      | nan s => simp [F64.isFinite] at hy
      | inf s => simp [F64.isFinite] at hy
      | fin s m hm =>
        obtain ⟨n, i⟩ : ∃ n, Is (.fin s m hm) n := ⟨_, rfl, rfl⟩
        rw [show (F64.fin s m hm).units = n from i.2]
        exact i.rep
    have := rnd_nearest (V * ((2 ^ 1074 : ℕ) : ℚ)) hr
    rw [hV] at this
    have hp : (0:ℚ) < ((2 ^ 1074 : ℕ) : ℚ) := by exact_mod_cast Nat.two_pow_pos 1074
    have e : ∀ z : F64, V - z.toRat = (V * ((2 ^ 1074 : ℕ) : ℚ) - z.units) / ((2 ^ 1074 : ℕ) : ℚ) := by
      intro z
      unfold F64.toRat
      rw [show ((2:ℚ) ^ 1074) = ((2 ^ 1074 : ℕ) : ℚ) by rw [Nat.cast_pow, Nat.cast_ofNat]]
      generalize ((2 ^ 1074 : ℕ) : ℚ) = T at *
      field_simp
    rw [e, e, abs_div, abs_div]
    exact div_le_div_of_nonneg_right this (abs_nonneg _)
  have kL := key L h1
  have kU := key U h2
  have kL' : |(L : ℝ) - (x.toRat : ℝ)| ≤ |(L : ℝ) - (y.toRat : ℝ)| := by exact_mod_cast kL
  have kU' : |(U : ℝ) - (x.toRat : ℝ)| ≤ |(U : ℝ) - (y.toRat : ℝ)| := by exact_mod_cast kU
  generalize (x.toRat : ℝ) = X at *
  generalize (y.toRat : ℝ) = Y at *
  clear h1 h2 key
  rw [← sq_le_sq] at kL' kU' ⊢
  have a : (Y - X) * (2 * (L:ℝ) - (X + Y)) ≤ 0 := by nlinarith
  have b : (Y - X) * (2 * (U:ℝ) - (X + Y)) ≤ 0 := by nlinarith
  rcases le_total X Y with h | h
  · have : (Y - X) * (2 * c - (X + Y)) ≤ (Y - X) * (2 * (U:ℝ) - (X + Y)) := mul_le_mul_of_nonneg_left (by linarith) (by linarith)
    nlinarith
  · have : (X - Y) * (X + Y - 2 * c) ≤ (X - Y) * (X + Y - 2 * (L:ℝ)) := mul_le_mul_of_nonneg_left (by linarith) (by linarith)
    nlinarith

/-- The part of `c` not covered by the components before `x` is `c - s`; `x` is that part correctly rounded. -/
theorem nearest {x : F64} {c : ℝ} {A : ℚ} (s : ℚ) (h : |c - (A : ℝ)| ≤ (dlt : ℝ)) (hx : x.isFinite = true)
    (h1 : rnd ((A - dlt - s) * ((2 ^ 1074 : ℕ) : ℚ)) = x.units) (h2 : rnd ((A + dlt - s) * ((2 ^ 1074 : ℕ) : ℚ)) = x.units) :
    RoundedReal x (c - (s : ℝ)) := by
  have h' := abs_le.mp h
  refine nearest_of hx ?_ ?_ h1 h2
  · push_cast; linarith [h'.1]
  · push_cast; linarith [h'.2]

/-- A better second component refutes correct rounding. -/
theorem not_nearest {x y : F64} {c : ℝ} {A : ℚ} (s : ℚ) (h : |c - (A : ℝ)| ≤ (dlt : ℝ)) (hy : y.isFinite = true)
    (h1 : (y.toRat + s - A) + 2 * dlt < x.toRat + s - A ∨ (y.toRat + s - A) + 2 * dlt < A - (x.toRat + s))
    (h2 : (A - (y.toRat + s)) + 2 * dlt < x.toRat + s - A ∨ (A - (y.toRat + s)) + 2 * dlt < A - (x.toRat + s)) :
    ¬ RoundedReal x (c - (s : ℝ)) := by
  rintro ⟨-, hn⟩
  have hn := hn y hy
  have h' := abs_le.mp h
  have g1 : ((y.toRat : ℝ) + (s : ℝ) - (A : ℝ)) + 2 * (dlt : ℝ) < (x.toRat : ℝ) + (s : ℝ) - (A : ℝ) ∨ ((y.toRat : ℝ) + (s : ℝ) - (A : ℝ)) + 2 * (dlt : ℝ) < (A : ℝ) - ((x.toRat : ℝ) + (s : ℝ)) :=
    h1.imp (fun h => by exact_mod_cast h) (fun h => by exact_mod_cast h)
  have g2 : ((A : ℝ) - ((y.toRat : ℝ) + (s : ℝ))) + 2 * (dlt : ℝ) < (x.toRat : ℝ) + (s : ℝ) - (A : ℝ) ∨ ((A : ℝ) - ((y.toRat : ℝ) + (s : ℝ))) + 2 * (dlt : ℝ) < (A : ℝ) - ((x.toRat : ℝ) + (s : ℝ)) :=
    h2.imp (fun h => by exact_mod_cast h) (fun h => by exact_mod_cast h)
  generalize (x.toRat : ℝ) = X at *
  generalize (y.toRat : ℝ) = Y at *
  have l1 := le_abs_self (X - (c - (s:ℝ)))
  have l2 := neg_abs_le (X - (c - (s:ℝ)))
  rcases abs_cases (Y - (c - (s:ℝ))) with ⟨e, -⟩ | ⟨e, -⟩ <;> rcases g1 with g1 | g1 <;> rcases g2 with g2 | g2 <;>
    linarith [h'.1, h'.2]
''')
for n, ex, v, pr in C:
    w(f"def A_{n} : ℚ := {q(v)}\n\ntheorem ap_{n} : |{ex} - (A_{n} : ℝ)| ≤ (dlt : ℝ) := by\n{pr}\n")
w("end Consts\n")
def par(ex): return ex if ex.replace('π','p').isalnum() else f"({ex})"
w("/-! ## Accuracy -/\n")
w("/-- **C48.** Every constant of `Double` is the real number it names up to a relative error of `2^-104`. -/\ntheorem C48_double_values :")
w("    " + " ∧\n    ".join(f"Near Double.{n}.val {par(ex)} 104" for n, ex, v, pr in C) + " := by")
w("  refine ⟨" + ", ".join("?_" for _ in C) + "⟩")
import fractions
for n, ex, v, pr in C:
    w(f"  · exact near (b := mkRat 1 (2 ^ 104) * (A_{n} - mkRat 1 (10 ^ 30))) 104 ap_{n} (by decide +kernel) (by decide +kernel) (by decide +kernel)")
w("")
w("/-- **C48.** Every constant of `Quad` is the real number it names up to a relative error of `2^-214`. -/\ntheorem C48_quad_values :")
w("    " + " ∧\n    ".join(f"Near Quad.{n}.val {par(ex)} 214" for n, ex, v, pr in C) + " := by")
w("  refine ⟨" + ", ".join("?_" for _ in C) + "⟩")
for n, ex, v, pr in C:
    w(f"  · exact near (b := mkRat 9 (10 * 2 ^ 214) * A_{n}) 214 ap_{n} (by decide +kernel) (by decide +kernel) (by decide +kernel)")
w("")
w("/-! ## Normalization -/\n")
others = ['EPSILON','MIN','MAX','MIN_POSITIVE','ONE','NEG_ONE','ZERO','NEG_ZERO']
names = [c[0] for c in C] + others
for ty in ['Double','Quad']:
    w(f"/-- **C48.** The finite constants of `{ty}` are normalized. -/\ntheorem C48_{ty.lower()}_normalized : ∀ x ∈ [" + ", ".join(f"{ty}.{n}" for n in names) + f"], x.Normalized := by decide +kernel\n")
w("/-! ## Correct rounding -/\n")
w("/-- **C48.** The first component of every constant of `Double` is the real number correctly rounded to `f64`. -/\ntheorem C48_double_first :")
w("    " + " ∧\n    ".join(f"RoundedReal Double.{n}.hi {par(ex)}" for n, ex, v, pr in C) + " := by")
w("  have z : ∀ c : ℝ, c - ((0:ℚ) : ℝ) = c := by intro c; simp")
w("  refine ⟨" + ", ".join("?_" for _ in C) + "⟩")
for n, ex, v, pr in C:
    w(f"  · rw [← z {par(ex)}]; exact nearest 0 ap_{n} (by decide +kernel) (by decide +kernel) (by decide +kernel)")
w("")
good = ['PI','FRAC_PI_6','FRAC_2_PI','FRAC_2_SQRT_PI','FRAC_1_SQRT_2']
d = {c[0]: c for c in C}
w("/-- **C62** (partial). For `PI` and four more constants of `Double` the second component is the remainder correctly rounded: they are\nthe correctly rounded pairs. -/\ntheorem C62_double_second_partial :")
w("    " + " ∧\n    ".join(f"RoundedReal Double.{n}.lo ({d[n][1]} - (Double.{n}.hi.toRat : ℝ))" for n in good) + " := by")
w("  refine ⟨" + ", ".join("?_" for _ in good) + "⟩")
for n in good:
    w(f"  · exact nearest _ ap_{n} (by decide +kernel) (by decide +kernel) (by decide +kernel)")
w("")
w("/-- **C48.** The first three components of every constant of `Quad` are correctly rounded: each is the remainder after the\ncomponents before it, correctly rounded. -/\ntheorem C48_quad_first :")
def qp(n, ex):
    p = f"Quad.{n}"
    return (f"(RoundedReal {p}.c0 {par(ex)} ∧ RoundedReal {p}.c1 ({ex} - (({p}.c0.toRat : ℚ) : ℝ)) ∧\n"
            f"      RoundedReal {p}.c2 ({ex} - (({p}.c0.toRat + {p}.c1.toRat : ℚ) : ℝ)))")
w("    " + " ∧\n    ".join(qp(n, ex) for n, ex, v, pr in C) + " := by")
w("  have z : ∀ c : ℝ, c - ((0:ℚ) : ℝ) = c := by intro c; simp")
w("  refine ⟨" + ", ".join("⟨?_, ?_, ?_⟩" for _ in C) + "⟩")
for n, ex, v, pr in C:
    w(f"  · rw [← z {par(ex)}]; exact nearest 0 ap_{n} (by decide +kernel) (by decide +kernel) (by decide +kernel)")
    w(f"  · exact nearest _ ap_{n} (by decide +kernel) (by decide +kernel) (by decide +kernel)")
    w(f"  · exact nearest _ ap_{n} (by decide +kernel) (by decide +kernel) (by decide +kernel)")
w("")
# refutations
from fractions import Fraction as F
import re, math
src = open('/repo/src/double/aconsts.rs').read()
def lit(f):
    n, k = F(f), 0
    t = repr(f).lower(); neg = t.startswith('-'); t = t.lstrip('-')
    m, ee = (t.split('e') + ['0'])[:2]; ee = int(ee)
    if '.' in m:
        a, b = m.split('.'); ee -= len(b); m = a + b
    return f"(F64.ofDec {'true' if neg else 'false'} {int(m)} ({ee}))"
bad = ['SQRT_2','E','LN_2','TAU','FRAC_PI_2']
w("/-- **C62**, refuted in part: the second components of `SQRT_2`, `E`, `LN_2`, `TAU` and `FRAC_PI_2` of `Double` are not the\ncorrectly rounded remainders. -/\ntheorem C62_refuted :")
w("    " + " ∧\n    ".join(f"¬ RoundedReal Double.{n}.lo ({d[n][1]} - (Double.{n}.hi.toRat : ℝ))" for n in bad) + " := by")
w("  refine ⟨" + ", ".join("?_" for _ in bad) + "⟩")
for n in bad:
    m = re.search(r'pub const %s: Double = Double\(([^)]*)\)' % n, src)
    hi = float(m.group(1).split(',')[0])
    best = float(F(d[n][2]) - F(hi))
    w(f"  · exact not_nearest (y := {lit(best)}) _ ap_{n} (by decide +kernel) (by decide +kernel) (by decide +kernel)")
w("")
w("/-! ## Consistency -/\n")
w('''/-- **C48.** The `Quad` constants extend the `Double` constants: the first components agree for every constant. -/
theorem C48_agree : ∀ p ∈ [''' + ", ".join(f"(Double.{n}.hi, Quad.{n}.c0)" for n in [c[0] for c in C]) + '''], p.1 = p.2 := by decide +kernel

/-- **C48.** Relations between the constants of `Quad` that hold exactly. -/
theorem C48_quad_consistent : Quad.TAU.val = 2 * Quad.PI.val ∧ Quad.PI.val = 2 * Quad.FRAC_PI_2.val ∧
    Quad.FRAC_PI_4.val = 2 * Quad.FRAC_PI_8.val ∧ Quad.FRAC_PI_8.val = 2 * Quad.FRAC_PI_16.val ∧
    Quad.FRAC_2_PI.val = 2 * Quad.FRAC_1_PI.val := by decide +kernel

/-- **C62**, refuted in part: `TAU` of `Double` is not twice `PI`, although that is representable. -/
theorem C62_refuted_tau : Double.TAU.val ≠ 2 * Double.PI.val ∧
    (Double.mk (F64.add Double.PI.hi Double.PI.hi) (F64.add Double.PI.lo Double.PI.lo)).val = 2 * Double.PI.val := by decide +kernel

end Verif''')
open('/verif/lean/Verif/Props/Consts.lean', 'w').write("\n".join(o) + "\n")
