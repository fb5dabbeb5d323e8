import Verif.Proofs.QuadAcc
import Verif.Proofs.QuadMul2
import Mathlib.Tactic.IntervalCases

/-!
# The merge order of `Quad` addition
-/

namespace Verif

open F64 Prim Util Quad

/-- Component `i` (zero beyond the fourth). -/
def comp (q : Quad) : ℕ → F64
  | 0 => q.c0
  | 1 => q.c1
  | 2 => q.c2
  | 3 => q.c3
  | _ => F64.zero

/-- The components from `i` on. -/
def rest (q : Quad) : ℕ → List F64
  | 0 => [q.c0, q.c1, q.c2, q.c3]
  | 1 => [q.c1, q.c2, q.c3]
  | 2 => [q.c2, q.c3]
  | 3 => [q.c3]
  | _ => []

theorem rest_cons (q : Quad) {i : ℕ} (h : i < 4) : rest q i = comp q i :: rest q (i + 1) := by
  interval_cases i <;> rfl

theorem rest_nil (q : Quad) {i : ℕ} (h : 4 ≤ i) : rest q i = [] := by
  obtain ⟨k, rfl⟩ := Nat.exists_eq_add_of_le h
  rw [Nat.add_comm]; rfl

theorem comp_zero (q : Quad) {i : ℕ} (h : 4 ≤ i) : comp q i = F64.zero := by
  obtain ⟨k, rfl⟩ := Nat.exists_eq_add_of_le h
  rw [Nat.add_comm]; rfl

theorem rest_length (q : Quad) {i : ℕ} (h : i ≤ 4) : (rest q i).length = 4 - i := by
  interval_cases i <;> rfl

/-- Sum of the components from `i` on, in units. -/
def sumU (l : List F64) : ℚ := (l.map U).sum

theorem sumU_nil : sumU [] = 0 := rfl
theorem sumU_cons (x : F64) (l : List F64) : sumU (x :: l) = U x + sumU l := by simp [sumU]

theorem U_zero : U F64.zero = 0 := by rw [U_is is_zero]; simp

theorem comp_fin {q : Quad} (o : QOrd q) (i : ℕ) : (comp q i).isFinite = true := by
  match i with
  | 0 => exact o.f0
  | 1 => exact o.f1
  | 2 => exact o.f2
  | 3 => exact o.f3
  | _ + 4 => exact is_zero.1

theorem comp_dec {q : Quad} (o : QOrd q) (i : ℕ) : |U (comp q (i + 1))| ≤ |U (comp q i)| / 2 ^ 52 := by
  match i with
  | 0 => exact o.d1
  | 1 => exact o.d2
  | 2 => exact o.d3
  | _ + 3 =>
    show |U F64.zero| ≤ _
    rw [U_zero, abs_zero]; positivity

theorem comp_anti {q : Quad} (o : QOrd q) (i : ℕ) : |U (comp q (i + 1))| ≤ |U (comp q i)| :=
  (comp_dec o i).trans (div_le_self (abs_nonneg _) (by norm_num))

theorem comp_le {q : Quad} (o : QOrd q) {S : ℚ} (hS : |U q.c0| ≤ S) (i : ℕ) : |U (comp q i)| ≤ S / 2 ^ (52 * i) := by
  induction i with
  | zero => simpa [comp] using hS
  | succ i ih =>
    refine (comp_dec o i).trans ((div_le_div_of_nonneg_right ih (by positivity)).trans (le_of_eq ?_))
    rw [div_div, ← pow_add]
    congr 2

/-- Everything that is left is at most what was taken last from the other operand. -/
structure Mg (a b : Quad) (i j : ℕ) : Prop where
  hi : i ≤ 4
  hj : j ≤ 4
  ha : 1 ≤ j → |U (comp a i)| ≤ |U (comp b (j - 1))|
  hb : 1 ≤ i → |U (comp b j)| ≤ |U (comp a (i - 1))|

theorem Mg.symm {a b : Quad} {i j : ℕ} (h : Mg a b i j) : Mg b a j i := ⟨h.hj, h.hi, h.hb, h.ha⟩

theorem mg_zero (a b : Quad) : Mg a b 0 0 := ⟨by omega, by omega, by omega, by omega⟩

theorem Mg.left {a b : Quad} (oa : QOrd a) {i j : ℕ} (h : Mg a b i j) (hi : i < 4) (hc : |U (comp b j)| ≤ |U (comp a i)|) :
    Mg a b (i + 1) j :=
  ⟨by omega, h.hj, fun hj => (comp_anti oa i).trans (h.ha hj), fun _ => by simpa using hc⟩

theorem Mg.right {a b : Quad} (ob : QOrd b) {i j : ℕ} (h : Mg a b i j) (hj : j < 4) (hc : |U (comp a i)| ≤ |U (comp b j)|) :
    Mg a b i (j + 1) := (h.symm.left ob hj hc).symm

theorem gt_abs {x y : F64} (fx : x.isFinite = true) (fy : y.isFinite = true) :
    F64.gt x.abs y.abs = true ↔ |U y| < |U x| := by
  have ix := (Is.of_finite fx).abs
  have iy := (Is.of_finite fy).abs
  show F64.lt y.abs x.abs = true ↔ _
  rw [iy.lt_iff ix]
  unfold U
  exact_mod_cast Iff.rfl

/-- Size of the next component. -/
theorem Mg.head_a {a b : Quad} (oa : QOrd a) (ob : QOrd b) {S : ℚ} (hS : 0 ≤ S) (sa : |U a.c0| ≤ S) (sb : |U b.c0| ≤ S)
    {i j k : ℕ} (h : Mg a b i j) (hk : 2 * k ≤ i + j) : |U (comp a i)| ≤ S / 2 ^ (52 * k) := by
  have mono : ∀ m, k ≤ m → S / 2 ^ (52 * m) ≤ S / 2 ^ (52 * k) := fun m hm =>
    div_le_div_of_nonneg_left hS (by positivity) (pow_le_pow_right₀ (by norm_num) (by omega))
  by_cases hik : k ≤ i
  · exact (comp_le oa sa i).trans (mono i hik)
  · exact (h.ha (by omega)).trans ((comp_le ob sb (j - 1)).trans (mono _ (by omega)))

/-- One step of the merge. -/
theorem pick_step {a b : Quad} (oa : QOrd a) (ob : QOrd b) {i j : ℕ} (h : Mg a b i j) (hne : i + j < 8) :
    ∃ t i' j', pick (rest a i) (rest b j) = (t, rest a i', rest b j') ∧ i' + j' = i + j + 1 ∧ Mg a b i' j' ∧
      t.isFinite = true ∧ (t = comp a i ∨ t = comp b j) ∧ |U (comp a i)| ≤ |U t| ∧ |U (comp b j)| ≤ |U t| ∧
      sumU (rest a i) + sumU (rest b j) = U t + sumU (rest a i') + sumU (rest b j') := by
  have fa := comp_fin oa i
  have fb := comp_fin ob j
  have hhi := h.hi
  have hhj := h.hj
  by_cases hi : i < 4
  · by_cases hj : j < 4
    · rw [rest_cons a hi, rest_cons b hj]
      unfold pick
      dsimp only
      by_cases hc : |U (comp b j)| < |U (comp a i)|
      · rw [if_pos ((gt_abs fa fb).mpr hc)]
        refine ⟨comp a i, i + 1, j, by rw [rest_cons b hj], by omega, h.left oa hi hc.le, fa, .inl rfl, le_refl _, hc.le, ?_⟩
        rw [sumU_cons, rest_cons b hj]
      · rw [if_neg (by rw [gt_abs fa fb]; exact hc)]
        push Not at hc
        refine ⟨comp b j, i, j + 1, by rw [rest_cons a hi], by omega, h.right ob hj hc, fb, .inr rfl, hc, le_refl _, ?_⟩
        rw [sumU_cons (comp b j), rest_cons a hi]; ring
    · have hj4 : 4 ≤ j := by omega
      have z : |U (comp b j)| = 0 := by rw [comp_zero b hj4, U_zero, abs_zero]
      rw [rest_cons a hi, rest_nil b hj4]
      refine ⟨comp a i, i + 1, j, by rw [rest_nil b hj4]; rfl, by omega, h.left oa hi (by rw [z]; exact abs_nonneg _), fa,
        .inl rfl, le_refl _, by rw [z]; exact abs_nonneg _, ?_⟩
      rw [sumU_cons, rest_nil b hj4]
  · have hi4 : 4 ≤ i := by omega
    have hj : j < 4 := by omega
    have z : |U (comp a i)| = 0 := by rw [comp_zero a hi4, U_zero, abs_zero]
    rw [rest_nil a hi4, rest_cons b hj]
    refine ⟨comp b j, i, j + 1, by rw [rest_nil a hi4]; rfl, by omega, h.right ob hj (by rw [z]; exact abs_nonneg _), fb,
      .inr rfl, by rw [z]; exact abs_nonneg _, le_refl _, ?_⟩
    rw [sumU_cons, rest_nil a hi4]; simp [sumU_nil]

theorem mem_rest {q : Quad} (o : QOrd q) {i : ℕ} (hi : i ≤ 4) {y : F64} (hy : y ∈ rest q i) : Fb y |U (comp q i)| := by
  have h0 := comp_anti o 0
  have h1 := comp_anti o 1
  have h2 := comp_anti o 2
  have e0 : comp q 0 = q.c0 := rfl
  have e1 : comp q 1 = q.c1 := rfl
  have e2 : comp q 2 = q.c2 := rfl
  have e3 : comp q 3 = q.c3 := rfl
  have f0 := o.f0
  have f1 := o.f1
  have f2 := o.f2
  have f3 := o.f3
  simp only [Nat.reduceAdd, e0, e1, e2, e3] at h0 h1 h2
  interval_cases i
  · simp only [rest, List.mem_cons, List.not_mem_nil, or_false] at hy
    rw [e0]
    rcases hy with rfl | rfl | rfl | rfl
    · exact ⟨f0, le_refl _⟩
    · exact ⟨f1, h0⟩
    · exact ⟨f2, h1.trans h0⟩
    · exact ⟨f3, h2.trans (h1.trans h0)⟩
  · simp only [rest, List.mem_cons, List.not_mem_nil, or_false] at hy
    rw [e1]
    rcases hy with rfl | rfl | rfl
    · exact ⟨f1, le_refl _⟩
    · exact ⟨f2, h1⟩
    · exact ⟨f3, h2.trans h1⟩
  · simp only [rest, List.mem_cons, List.not_mem_nil, or_false] at hy
    rw [e2]
    rcases hy with rfl | rfl
    · exact ⟨f2, le_refl _⟩
    · exact ⟨f3, h2⟩
  · simp only [rest, List.mem_cons, List.not_mem_nil, or_false] at hy
    rw [e3]
    rcases hy with rfl
    exact ⟨f3, le_refl _⟩
  · exact absurd hy (by simp [rest])

/-- Adding at most two small numbers. -/
theorem fold_two {l m : List F64} {s : F64} {K c : ℚ} (fs : Fb s K) (hl : ∀ y ∈ l, Fb y c) (hm : ∀ y ∈ m, Fb y c)
    (hn : l.length + m.length ≤ 2) (hc : 0 ≤ c) (hlim : 5 * (K + 2 * c) ≤ (lim : ℚ)) :
    Fb (m.foldl F64.add (l.foldl F64.add s)) ((K + 2 * c) * (1 + 3 / 2 ^ 53)) ∧
      |U (m.foldl F64.add (l.foldl F64.add s)) - (U s + sumU l + sumU m)| ≤ (K + 2 * c) * (3 / 2 ^ 53) := by
  have hK := fs.nonneg
  have one : ∀ {s y : F64} {K : ℚ}, Fb s K → Fb y c → 4 * (K + c) ≤ (lim : ℚ) →
      Fb (F64.add s y) ((K + c) * (1 + 1 / 2 ^ 53)) ∧ |U (F64.add s y) - (U s + U y)| ≤ (K + c) / 2 ^ 53 := by
    intro s y K fs fy h
    have := fs.nonneg
    exact qb_add fs fy (by linarith)
  have two : ∀ {p q : F64}, Fb p c → Fb q c → Fb (F64.add (F64.add s p) q) ((K + 2 * c) * (1 + 3 / 2 ^ 53)) ∧
      |U (F64.add (F64.add s p) q) - (U s + U p + U q)| ≤ (K + 2 * c) * (3 / 2 ^ 53) := by
    intro p q fp fq
    obtain ⟨f1, e1⟩ := one fs fp (by linarith)
    obtain ⟨f2, e2⟩ := one f1 fq (by linarith)
    have e1 := abs_le.mp e1
    have e2 := abs_le.mp e2
    exact ⟨f2.mono (by linarith), abs_le.mpr ⟨by linarith, by linarith⟩⟩
  have single : ∀ {p : F64}, Fb p c → Fb (F64.add s p) ((K + 2 * c) * (1 + 3 / 2 ^ 53)) ∧
      |U (F64.add s p) - (U s + U p)| ≤ (K + 2 * c) * (3 / 2 ^ 53) := by
    intro p fp
    obtain ⟨f1, e1⟩ := one fs fp (by linarith)
    have e1 := abs_le.mp e1
    exact ⟨f1.mono (by linarith), abs_le.mpr ⟨by linarith, by linarith⟩⟩
  have h2 : 0 ≤ (K + 2 * c) * (3 / 2 ^ 53) := by positivity
  match l, m, hn with
  | [], [], _ =>
    simp only [List.foldl_nil, sumU_nil, add_zero, sub_self, abs_zero]
    exact ⟨fs.mono (by linarith), h2⟩
  | [p], [], _ =>
    simp only [List.foldl_nil, List.foldl_cons, sumU_nil, sumU_cons, add_zero]
    exact single (hl p (by simp))
  | [], [p], _ =>
    simp only [List.foldl_nil, List.foldl_cons, sumU_nil, sumU_cons, add_zero]
    exact single (hm p (by simp))
  | [p], [q], _ =>
    simp only [List.foldl_nil, List.foldl_cons, sumU_nil, sumU_cons, add_zero]
    exact two (hl p (by simp)) (hm q (by simp))
  | [p, q], [], _ =>
    simp only [List.foldl_nil, List.foldl_cons, sumU_nil, sumU_cons, add_zero, ← add_assoc]
    exact two (hl p (by simp)) (hl q (by simp))
  | [], [p, q], _ =>
    simp only [List.foldl_nil, List.foldl_cons, sumU_nil, sumU_cons, add_zero, ← add_assoc]
    exact two (hm p (by simp)) (hm q (by simp))
  | [], _ :: _ :: _ :: _, h => simp at h
  | [_], _ :: _ :: _, h => simp only [List.length_cons, List.length_nil] at h; omega
  | [_, _], _ :: _, h => simp only [List.length_cons, List.length_nil] at h; omega
  | _ :: _ :: _ :: _, _, h => simp at h; omega

end Verif
