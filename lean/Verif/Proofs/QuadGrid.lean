import Verif.Proofs.QuadSym
import Verif.Proofs.QuadIntSum

/-!
# Quad sums and products stay on the grid of their operands

`Gr k x`: if `x` is a number at all, it is a multiple of `2 ^ k` units. Rounding never leaves such a grid, so neither does
anything that is built from sums, differences and (with the grids adding up) products.
-/

namespace Verif

open F64 Prim Util

/-- If `x` is finite, it is a multiple of `2 ^ k` units. -/
def Gr (k : ℕ) (x : F64) : Prop := (2:ℤ) ^ k ∣ x.units

theorem gr_zero (k : ℕ) : Gr k F64.zero := by unfold Gr; rw [show F64.zero.units = 0 from rfl]; exact dvd_zero _

theorem gr_ofRound {k : ℕ} (s : Bool) {num den : ℕ} (hd : 0 < den) (h : den * 2 ^ k ∣ num) : Gr k (ofRound s num den) := by
  obtain ⟨c, rfl⟩ := h
  have e : (((den * 2 ^ k * c : ℕ) : ℚ) / den) = (((2:ℤ) ^ k * c : ℤ) : ℚ) := by
    have : (den : ℚ) ≠ 0 := by exact_mod_cast hd.ne'
    push_cast
    field_simp
  have h1 := rnd_eq_roundMag (den * 2 ^ k * c) hd
  rw [e] at h1
  have h2 : (2:ℤ) ^ k ∣ (roundMag (den * 2 ^ k * c) den : ℤ) := by
    rw [← h1]; exact dvd_rnd (dvd_mul_right _ _)
  unfold Gr ofRound
  rw [dif_pos hd]
  split_ifs
  · show (2:ℤ) ^ k ∣ F64.units (.fin s _ _)
    unfold F64.units
    dsimp only
    split_ifs
    · exact (dvd_neg).mpr h2
    · exact h2
  · exact dvd_zero _

theorem gr_ofSum {k : ℕ} (s t : Bool) {A B den : ℕ} (hd : 0 < den) (hA : den * 2 ^ k ∣ A) (hB : den * 2 ^ k ∣ B) :
    Gr k (ofSum s A t B den) := by
  unfold ofSum
  split_ifs
  · exact gr_ofRound s hd (dvd_add hA hB)
  · exact gr_ofRound s hd (Nat.dvd_sub hA hB)
  · exact gr_ofRound t hd (Nat.dvd_sub hB hA)
  · exact gr_zero k

theorem gr_nan (k : ℕ) (s : Bool) : Gr k (.nan s) := dvd_zero _
theorem gr_inf (k : ℕ) (s : Bool) : Gr k (.inf s) := dvd_zero _

theorem gr_fin {k : ℕ} {s : Bool} {m : ℕ} {h} : Gr k (.fin s m h) ↔ 2 ^ k ∣ m := by
  unfold Gr F64.units
  dsimp only
  have e : (2:ℤ) ^ k ∣ (m : ℤ) ↔ 2 ^ k ∣ m := by exact_mod_cast Int.natCast_dvd_natCast
  split_ifs
  · rw [dvd_neg, e]
  · exact e

theorem Gr.add {k : ℕ} {a b : F64} (ha : Gr k a) (hb : Gr k b) : Gr k (F64.add a b) := by
  cases a <;> cases b <;> simp only [F64.add]
  case fin.fin => exact gr_ofSum _ _ one_pos (by rw [one_mul]; exact gr_fin.mp ha) (by rw [one_mul]; exact gr_fin.mp hb)
  all_goals (try split_ifs) <;> first | exact gr_nan _ _ | exact gr_inf _ _

theorem Gr.neg {k : ℕ} {a : F64} (ha : Gr k a) : Gr k a.neg := by
  cases a with
  | nan => exact gr_nan _ _
  | inf => exact gr_inf _ _
  | fin s m h => exact gr_fin.mpr (gr_fin.mp ha)

theorem Gr.sub {k : ℕ} {a b : F64} (ha : Gr k a) (hb : Gr k b) : Gr k (F64.sub a b) := ha.add hb.neg

theorem gr_prod {i j k m n : ℕ} (h : i + j = k + 1074) (hm : 2 ^ i ∣ m) (hn : 2 ^ j ∣ n) : 2 ^ 1074 * 2 ^ k ∣ m * n := by
  have e : (2:ℕ) ^ 1074 * 2 ^ k = 2 ^ i * 2 ^ j := by rw [← pow_add, ← pow_add, h, add_comm]
  rw [e]; exact mul_dvd_mul hm hn

theorem Gr.mul {i j k : ℕ} {a b : F64} (h : i + j = k + 1074) (ha : Gr i a) (hb : Gr j b) : Gr k (F64.mul a b) := by
  cases a <;> cases b <;> simp only [F64.mul]
  case fin.fin => exact gr_ofRound _ (by positivity) (gr_prod h (gr_fin.mp ha) (gr_fin.mp hb))
  all_goals (try split_ifs) <;> first | exact gr_nan _ _ | exact gr_inf _ _

theorem gr_infPlus (k : ℕ) (a b : F64) (s : Bool) (c : F64) : Gr k (F64.fma.infPlus a b s c) := by
  cases c <;> simp only [F64.fma.infPlus] <;> (try split_ifs) <;> first | exact gr_nan _ _ | exact gr_inf _ _

theorem Gr.fma {i j k : ℕ} {a b c : F64} (h : i + j = k + 1074) (ha : Gr i a) (hb : Gr j b) (hc : Gr k c) :
    Gr k (F64.fma a b c) := by
  cases a <;> cases b <;> cases c <;> simp only [F64.fma]
  case fin.fin.fin =>
    refine gr_ofSum _ _ (by positivity) (gr_prod h (gr_fin.mp ha) (gr_fin.mp hb)) ?_
    rw [mul_comm]; exact Nat.mul_dvd_mul_right (gr_fin.mp hc) _
  all_goals (try split_ifs) <;> first | exact gr_nan _ _ | exact gr_inf _ _ | exact gr_infPlus _ _ _ _ _

/-! ### Building blocks -/

/-- pairs on the grid -/
def GrP (k : ℕ) (a : F64 × F64) : Prop := Gr k a.1 ∧ Gr k a.2
/-- triples on the grid -/
def GrT (k : ℕ) (a : F64 × F64 × F64) : Prop := Gr k a.1 ∧ Gr k a.2.1 ∧ Gr k a.2.2
/-- quadruples on the grid -/
def GrU (k : ℕ) (a : F64 × F64 × F64 × F64) : Prop := Gr k a.1 ∧ Gr k a.2.1 ∧ Gr k a.2.2.1 ∧ Gr k a.2.2.2
/-- Quads on the grid -/
def GrQ (k : ℕ) (a : Quad) : Prop := Gr k a.c0 ∧ Gr k a.c1 ∧ Gr k a.c2 ∧ Gr k a.c3

section
variable {k : ℕ}

theorem GrP.twoSum {a b : F64} (h : Gr k a) (h' : Gr k b) : GrP k (twoSum a b) := by
  have h1 := h.add h'
  have h2 := h1.sub h
  exact ⟨h1, (h.sub (h1.sub h2)).add (h'.sub h2)⟩

theorem GrP.quickTwoSum {a b : F64} (h : Gr k a) (h' : Gr k b) : GrP k (quickTwoSum a b) := by
  have h1 := h.add h'
  exact ⟨h1, h'.sub (h1.sub h)⟩

theorem GrP.twoProd {i j : ℕ} {a b : F64} (e : i + j = k + 1074) (h : Gr i a) (h' : Gr j b) : GrP k (twoProd a b) := by
  have h1 := Gr.mul e h h'
  exact ⟨h1, Gr.fma e h h' h1.neg⟩

theorem GrT.threeThreeSum {a b c : F64} (h : Gr k a) (h' : Gr k b) (h'' : Gr k c) : GrT k (threeThreeSum a b c) := by
  have h1 := GrP.twoSum h h'
  have h2 := GrP.twoSum h'' h1.1
  have h3 := GrP.twoSum h1.2 h2.2
  exact ⟨h2.1, h3.1, h3.2⟩

theorem GrP.fourTwoSum {a b c d : F64} (ha : Gr k a) (hb : Gr k b) (hc : Gr k c) (hd : Gr k d) :
    GrP k (fourTwoSum a b c d) := by
  have h1 := GrP.twoSum ha hc
  exact ⟨h1.1, (h1.2.add hb).add hd⟩

theorem GrT.sixThreeSum {a b c d e f : F64} (ha : Gr k a) (hb : Gr k b) (hc : Gr k c) (hd : Gr k d) (he : Gr k e)
    (hf : Gr k f) : GrT k (sixThreeSum a b c d e f) := by
  have p := GrT.threeThreeSum ha hb hc
  have q := GrT.threeThreeSum hd he hf
  have r := GrP.twoSum p.1 q.1
  have s := GrP.twoSum p.2.1 q.2.1
  have t := GrP.twoSum s.1 r.2
  exact ⟨r.1, t.1, ((p.2.2.add q.2.2).add s.2).add t.2⟩

theorem GrP.nineTwoSum {a b c d e f g h i : F64} (ha : Gr k a) (hb : Gr k b) (hc : Gr k c) (hd : Gr k d) (he : Gr k e)
    (hf : Gr k f) (hg : Gr k g) (hh : Gr k h) (hi : Gr k i) : GrP k (nineTwoSum a b c d e f g h i) := by
  have p := GrP.twoSum ha hb
  have q := GrP.twoSum hc hd
  have r := GrP.twoSum he hf
  have s := GrP.twoSum hg hh
  have t := GrP.fourTwoSum p.1 p.2 q.1 q.2
  have u := GrP.fourTwoSum r.1 r.2 s.1 s.2
  have v := GrP.fourTwoSum t.1 t.2 u.1 u.2
  have w := GrP.twoSum v.1 hi
  exact ⟨w.1, w.2.add v.2⟩

theorem GrT.accumulate {a b c : F64} (h : Gr k a) (h' : Gr k b) (h'' : Gr k c) : GrT k (accumulate a b c) := by
  have h1 := GrP.twoSum h' h''
  have h2 := GrP.twoSum h h1.1
  unfold Util.accumulate
  simp only []
  split_ifs
  · exact ⟨h2.1, h2.2, h1.2⟩
  · exact ⟨gr_zero k, h2.1, h2.2⟩
  · exact ⟨gr_zero k, h2.1, h1.2⟩

theorem GrU.renorm4 {a b c d : F64} (ha : Gr k a) (hb : Gr k b) (hc : Gr k c) (hd : Gr k d) : GrU k (renorm4 a b c d) := by
  have h1 := GrP.quickTwoSum hc hd
  have h2 := GrP.quickTwoSum hb h1.1
  have h3 := GrP.quickTwoSum ha h2.1
  have h4 := GrP.quickTwoSum h3.2 h2.2
  have h5 := GrP.quickTwoSum h4.2 h1.2
  have h6 := GrP.quickTwoSum h4.1 h1.2
  have h7 := GrP.quickTwoSum h3.1 h2.2
  have h8 := GrP.quickTwoSum h7.2 h1.2
  have h9 := GrP.quickTwoSum h7.1 h1.2
  unfold Util.renorm4
  simp only []
  split_ifs
  · exact ⟨h3.1, h4.1, h5.1, h5.2⟩
  · exact ⟨h3.1, h6.1, h6.2, gr_zero k⟩
  · exact ⟨h7.1, h8.1, h8.2, gr_zero k⟩
  · exact ⟨h9.1, h9.2, gr_zero k, gr_zero k⟩

theorem GrU.renorm5 {a b c d e : F64} (ha : Gr k a) (hb : Gr k b) (hc : Gr k c) (hd : Gr k d) (he : Gr k e) :
    GrU k (renorm5 a b c d e) := by
  have x4 := GrP.quickTwoSum hd he
  have x3 := GrP.quickTwoSum hc x4.1
  have x2 := GrP.quickTwoSum hb x3.1
  have x1 := GrP.quickTwoSum ha x2.1
  have p1 := GrP.quickTwoSum x1.2 x2.2
  have p2 := GrP.quickTwoSum p1.2 x3.2
  have p3 := GrP.quickTwoSum p2.1 x4.2
  have p4 := GrP.quickTwoSum p1.1 x3.2
  have p5 := GrP.quickTwoSum p4.2 x4.2
  have p6 := GrP.quickTwoSum p4.1 x4.2
  have q1 := GrP.quickTwoSum x1.1 x2.2
  have q2 := GrP.quickTwoSum q1.2 x3.2
  have q3 := GrP.quickTwoSum q2.2 x4.2
  have q4 := GrP.quickTwoSum q2.1 x4.2
  have q5 := GrP.quickTwoSum q1.1 x3.2
  have q6 := GrP.quickTwoSum q5.2 x4.2
  have q7 := GrP.quickTwoSum q5.1 x4.2
  unfold Util.renorm5
  simp only []
  split_ifs
  · exact ⟨x1.1, p1.1, p2.1, p2.2.add x4.2⟩
  · exact ⟨x1.1, p1.1, p3.1, p3.2⟩
  · exact ⟨x1.1, p4.1, p5.1, p5.2⟩
  · exact ⟨x1.1, p6.1, p6.2, gr_zero k⟩
  · exact ⟨q1.1, q2.1, q3.1, q3.2⟩
  · exact ⟨q1.1, q4.1, q4.2, gr_zero k⟩
  · exact ⟨q5.1, q6.1, q6.2, gr_zero k⟩
  · exact ⟨q7.1, q7.2, gr_zero k, gr_zero k⟩

/-! ### The merge -/

/-- lists on the grid -/
def GrL (k : ℕ) (l : List F64) : Prop := ∀ x ∈ l, Gr k x

theorem GrL.cons {x : F64} {l : List F64} (h : Gr k x) (h' : GrL k l) : GrL k (x :: l) := by
  intro y hy
  rcases List.mem_cons.mp hy with rfl | hy
  · exact h
  · exact h' y hy
theorem grl_nil : GrL k [] := by intro y hy; simp at hy
theorem GrL.append {l m : List F64} (h : GrL k l) (h' : GrL k m) : GrL k (l ++ m) := by
  intro y hy
  rcases List.mem_append.mp hy with hy | hy
  · exact h y hy
  · exact h' y hy
theorem GrL.head {x : F64} {l : List F64} (h : GrL k (x :: l)) : Gr k x := h x (by simp)
theorem GrL.tail {x : F64} {l : List F64} (h : GrL k (x :: l)) : GrL k l := fun y hy => h y (by simp [hy])

theorem GrL.pick {l m : List F64} (h : GrL k l) (h' : GrL k m) :
    Gr k (Quad.pick l m).1 ∧ GrL k (Quad.pick l m).2.1 ∧ GrL k (Quad.pick l m).2.2 := by
  cases l with
  | nil =>
    cases m with
    | nil => exact ⟨gr_zero k, h, h'⟩
    | cons y ys => exact ⟨h'.head, h, h'.tail⟩
  | cons x xs =>
    cases m with
    | nil => exact ⟨h.head, h.tail, h'⟩
    | cons y ys =>
      simp only [Quad.pick]
      split_ifs
      · exact ⟨h.head, h.tail, h'⟩
      · exact ⟨h'.head, h, h'.tail⟩

theorem GrL.addLoop (fuel : ℕ) : ∀ {u v : F64} {la lb x : List F64}, Gr k u → Gr k v → GrL k la → GrL k lb → GrL k x →
    GrL k (Quad.addLoop fuel u v la lb x).1 ∧ GrL k (Quad.addLoop fuel u v la lb x).2.1 ∧
      GrL k (Quad.addLoop fuel u v la lb x).2.2 := by
  induction fuel with
  | zero => intro u v la lb x _ _ ha hb hx; exact ⟨hx, ha, hb⟩
  | succ fuel ih =>
    intro u v la lb x hu hv ha hb hx
    unfold Quad.addLoop
    have hp := GrL.pick ha hb
    have hacc := GrT.accumulate hu hv hp.1
    by_cases h4 : x.length < 4
    · rw [if_pos h4]
      by_cases he : (la.isEmpty && lb.isEmpty) = true
      · rw [if_pos he]
        refine ⟨?_, ha, hb⟩
        change GrL k (if _ then _ else _)
        split_ifs
        · exact hx.append (.cons hu (.cons hv grl_nil))
        · exact hx.append (.cons hu grl_nil)
      · rw [if_neg he]
        simp only []
        refine ih hacc.2.1 hacc.2.2 hp.2.1 hp.2.2 ?_
        split_ifs
        · exact hx.append (.cons hacc.1 grl_nil)
        · exact hx
    · rw [if_neg h4]
      exact ⟨hx, ha, hb⟩

theorem GrL.getD {l : List F64} (h : GrL k l) (i : ℕ) : Gr k (l.getD i F64.zero) := by
  induction l generalizing i with
  | nil => simpa using gr_zero k
  | cons x xs ih =>
    cases i with
    | zero => simpa using h.head
    | succ i => simpa using ih h.tail i

theorem GrL.foldl {l : List F64} (h : GrL k l) {z : F64} (hz : Gr k z) : Gr k (l.foldl F64.add z) := by
  induction l generalizing z with
  | nil => exact hz
  | cons x xs ih => exact ih h.tail (hz.add h.head)

/-! ### Addition and multiplication -/

theorem GrQ.addMain {a b : Quad} (h : GrQ k a) (h' : GrQ k b) : GrQ k (qaddMain a b) := by
  have ha : GrL k [a.c0, a.c1, a.c2, a.c3] := .cons h.1 (.cons h.2.1 (.cons h.2.2.1 (.cons h.2.2.2 grl_nil)))
  have hb : GrL k [b.c0, b.c1, b.c2, b.c3] := .cons h'.1 (.cons h'.2.1 (.cons h'.2.2.1 (.cons h'.2.2.2 grl_nil)))
  have p1 := GrL.pick ha hb
  have p2 := GrL.pick p1.2.1 p1.2.2
  have q := GrP.quickTwoSum p1.1 p2.1
  have l := GrL.addLoop 8 q.1 q.2 p2.2.1 p2.2.2 grl_nil
  have f := l.2.2.foldl (l.2.1.foldl (l.1.getD 3))
  exact GrU.renorm4 (l.1.getD 0) (l.1.getD 1) (l.1.getD 2) f

/-- Special results are not finite or zero, so they are on every grid. -/
theorem gr_of_units {x : F64} (h : x.units = 0) : Gr k x := by unfold Gr; rw [h]; exact dvd_zero _

theorem GrQ.add {a b : Quad} (h : GrQ k a) (h' : GrQ k b) : GrQ k (a + b) := by
  rw [qadd_eq]
  cases ho : preAddN (num a.c0) (num b.c0) with
  | none => exact GrQ.addMain h h'
  | some r =>
    have : Gr k r.hi := by
      revert ho
      generalize num a.c0 = x
      generalize num b.c0 = y
      rcases x with _ | (_ | _) | _ <;> rcases y with _ | (_ | _) | _ <;> simp only [preAddN] <;> intro ho <;> cases ho <;>
        exact dvd_zero _
    exact ⟨this, gr_zero k, gr_zero k, gr_zero k⟩

theorem GrQ.neg {a : Quad} (h : GrQ k a) : GrQ k (-a) := ⟨h.1.neg, h.2.1.neg, h.2.2.1.neg, h.2.2.2.neg⟩
theorem GrQ.sub {a b : Quad} (h : GrQ k a) (h' : GrQ k b) : GrQ k (a - b) := h.add h'.neg

theorem GrQ.mulMain {i j : ℕ} {a b : Quad} (e : i + j = k + 1074) (h : GrQ i a) (h' : GrQ j b) : GrQ k (qmulMain a b) := by
  have p0 := GrP.twoProd e h.1 h'.1
  have p1 := GrP.twoProd e h.1 h'.2.1
  have p2 := GrP.twoProd e h.2.1 h'.1
  have p3 := GrP.twoProd e h.1 h'.2.2.1
  have p4 := GrP.twoProd e h.2.1 h'.2.1
  have p5 := GrP.twoProd e h.2.2.1 h'.1
  have p6 := GrP.twoProd e h.1 h'.2.2.2
  have p7 := GrP.twoProd e h.2.1 h'.2.2.1
  have p8 := GrP.twoProd e h.2.2.1 h'.2.1
  have p9 := GrP.twoProd e h.2.2.2 h'.1
  have ha := Gr.mul e h.2.1 h'.2.2.2
  have hb := Gr.mul e h.2.2.1 h'.2.2.1
  have hc := Gr.mul e h.2.2.2 h'.2.1
  have r1 := GrT.threeThreeSum p1.1 p2.1 p0.2
  have r2 := GrT.sixThreeSum r1.2.1 p3.1 p4.1 p5.1 p1.2 p2.2
  have r3 := GrP.nineTwoSum r1.2.2 r2.2.1 p6.1 p7.1 p8.1 p9.1 p3.2 p4.2 p5.2
  have r4 := (((((((r2.2.2.add r3.2).add ha).add hb).add hc).add p6.2).add p7.2).add p8.2).add p9.2
  exact GrU.renorm5 p0.1 r1.1 r2.1 r3.1 r4

theorem GrQ.mul {i j : ℕ} {a b : Quad} (e : i + j = k + 1074) (h : GrQ i a) (h' : GrQ j b) : GrQ k (a * b) := by
  rw [qmul_eq]
  cases ho : Double.preMul (hdQ a) (hdQ b) with
  | none => exact GrQ.mulMain e h h'
  | some r =>
    have : Gr k r.hi := by
      revert ho
      unfold Double.preMul
      split_ifs <;> intro ho <;> cases ho <;> exact dvd_zero _
    exact ⟨this, gr_zero k, gr_zero k, gr_zero k⟩

theorem GrQ.units {a : Quad} (h : GrQ k a) : (2:ℤ) ^ k ∣ a.c0.units + a.c1.units + a.c2.units + a.c3.units :=
  dvd_add (dvd_add (dvd_add h.1 h.2.1) h.2.2.1) h.2.2.2

end

/-- The components of a normalized number are on every grid the number is on. -/
theorem norm4_dvd {m0 m1 m2 m3 : ℤ} {k : ℕ} (n1 : Norm2 m0 m1) (n2 : Norm2 m1 m2) (n3 : Norm2 m2 m3)
    (hd : (2:ℤ) ^ k ∣ m0 + m1 + m2 + m3) : (2:ℤ) ^ k ∣ m0 ∧ (2:ℤ) ^ k ∣ m1 ∧ (2:ℤ) ^ k ∣ m2 ∧ (2:ℤ) ^ k ∣ m3 := by
  have l1 := n1.lo_le
  have l2 := n2.lo_le
  have l3 := n3.lo_le
  have p0 := abs_nonneg m0
  have p1 := abs_nonneg m1
  have p2 := abs_nonneg m2
  have p3 := abs_nonneg m3
  have t23 := abs_add_le m2 m3
  have d0 : (2:ℤ) ^ k ∣ m0 := dvd_head (r := m2 + m3) n1 (by omega) (by rwa [← add_assoc])
  have hd1 : (2:ℤ) ^ k ∣ m1 + m2 + m3 := by
    have := dvd_sub hd d0
    rwa [show m0 + m1 + m2 + m3 - m0 = m1 + m2 + m3 by ring] at this
  have d1 : (2:ℤ) ^ k ∣ m1 := dvd_head n2 (by omega) hd1
  have hd2 : (2:ℤ) ^ k ∣ m2 + m3 := by
    have := dvd_sub hd1 d1
    rwa [show m1 + m2 + m3 - m1 = m2 + m3 by ring] at this
  have d2 : (2:ℤ) ^ k ∣ m2 := dvd_head (r := 0) n3 (by simp) (by rwa [add_zero])
  have d3 : (2:ℤ) ^ k ∣ m3 := by
    have := dvd_sub hd2 d2
    rwa [show m2 + m3 - m2 = m3 by ring] at this
  exact ⟨d0, d1, d2, d3⟩

end Verif
