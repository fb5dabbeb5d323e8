import Verif.Proofs.QuadSlack
import Verif.Proofs.QuadAddLoop2

/-!
# The accumulation loop of `Quad` addition for operands that are ordered up to a small slack

The same analysis as in `QuadAddLoop`, `QuadAddLoop2`, with the sizes `T1`, `T2`, `T3` of what is merged kept apart from the
size `S` of the operands. `g` is true when nothing is known about the leading component.
-/

namespace Verif

open F64 Prim Util Quad

/-- What the loop hands to `renorm4`. -/
structure SOutp (g : Prop) (S T1 T2 T3 T : ℚ) (r : List F64 × List F64 × List F64) : Prop where
  f0 : Fb (r.1.getD 0 F64.zero) (3 * S)
  f1 : Fb (r.1.getD 1 F64.zero) (22 * T1)
  f2 : Fb (r.1.getD 2 F64.zero) (58 * T2)
  f3 : Fb (r.1.getD 3 F64.zero) (25 * T2)
  la : ∀ y ∈ r.2.1, Fb y (T3)
  lb : ∀ y ∈ r.2.2, Fb y (T3)
  len : r.2.1.length + r.2.2.length ≤ 2
  dom : g ∨ S / 4 ≤ |U (r.1.getD 0 F64.zero)| ∨
    (|U (r.1.getD 1 F64.zero)| ≤ 4 * |U (r.1.getD 0 F64.zero)| / 2 ^ 53 + 25 * T2 ∧
     |U (r.1.getD 2 F64.zero)| ≤ 4 * |U (r.1.getD 0 F64.zero)| / 2 ^ 53 + 25 * T2 ∧
     |U (r.1.getD 3 F64.zero)| ≤ 4 * |U (r.1.getD 0 F64.zero)| / 2 ^ 53 + 25 * T2)
  sum : |U (r.1.getD 0 F64.zero) + U (r.1.getD 1 F64.zero) + U (r.1.getD 2 F64.zero) + U (r.1.getD 3 F64.zero) +
    sumU r.2.1 + sumU r.2.2 - T| ≤ 25 * T3

/-- The first component dominates, or is as small as what follows. -/
def SDom (g : Prop) (S T2 : ℚ) (n : ℕ) (x0 u v : F64) : Prop :=
  g ∨ S / 4 ≤ |U x0| ∨
    (4 ≤ n ∧ |U u| + |U v| + (8 - (n : ℚ)) * (5 * T2 + |U x0| / 2 ^ 53 / 50) ≤ 4 * |U x0| / 2 ^ 53 + 25 * T2)

def SDomX (g : Prop) (S T2 : ℚ) (x0 y : F64) : Prop := g ∨ S / 4 ≤ |U x0| ∨ |U y| ≤ 4 * |U x0| / 2 ^ 53 + 25 * T2

theorem SDom.fst {g : Prop} {S T2 : ℚ} {n : ℕ} {x0 u v : F64} (h : SDom g S T2 n x0 u v) (hS : 0 ≤ T2) (hn : n ≤ 8) : SDomX g S T2 x0 u := by
  rcases h with h | h | ⟨_, h⟩
  · exact .inl h
  · exact .inr (.inl h)
  · right; right
    have : 0 ≤ (8 - (n : ℚ)) * (5 * T2 + |U x0| / 2 ^ 53 / 50) := by
      have : (n : ℚ) ≤ 8 := by exact_mod_cast hn
      apply mul_nonneg <;> [linarith; positivity]
    have := abs_nonneg (U v)
    linarith

theorem SDom.snd {g : Prop} {S T2 : ℚ} {n : ℕ} {x0 u v : F64} (h : SDom g S T2 n x0 u v) (hS : 0 ≤ T2) (hn : n ≤ 8) : SDomX g S T2 x0 v := by
  have : SDom g S T2 n x0 v u := by
    rcases h with h | h | ⟨h4, h⟩
    · exact .inl h
    · exact .inr (.inl h)
    · exact .inr <| .inr ⟨h4, by linarith⟩
  exact this.fst hS hn

/-- One round keeps domination. -/
theorem SDom.next {g : Prop} {S T2 : ℚ} {n : ℕ} {x0 u v t y z : F64} (h : SDom g S T2 n x0 u v) (hS : 0 ≤ T2) (hn : n < 8)
    (ht : 4 ≤ n → |U t| ≤ T2)
    (hyz : |U y| + |U z| ≤ (|U u| + |U v| + |U t|) * (1 + 6 / 2 ^ 53)) : SDom g S T2 (n + 1) x0 y z := by
  rcases h with h | h | ⟨h4, h⟩
  · exact .inl h
  · exact .inr (.inl h)
  · right; right
    refine ⟨by omega, ?_⟩
    have ht := ht h4
    have h0 : 0 ≤ (8 - ((n : ℚ) + 1)) * (5 * T2 + |U x0| / 2 ^ 53 / 50) := by
      have : (n : ℚ) + 1 ≤ 8 := by exact_mod_cast hn
      apply mul_nonneg <;> [linarith; positivity]
    have := abs_nonneg (U x0)
    push_cast
    linarith

theorem SDomX.of_round {g : Prop} {S T2 : ℚ} {n : ℕ} {x0 u v t y : F64} (h : SDom g S T2 n x0 u v) (hS : 0 ≤ T2) (hn : n < 8)
    (ht : 4 ≤ n → |U t| ≤ T2)
    (hy : |U y| ≤ (|U u| + |U v| + |U t|) * (1 + 6 / 2 ^ 53)) : SDomX g S T2 x0 y := by
  have hz : U F64.zero = 0 := U_zero
  have : SDom g S T2 (n + 1) x0 y F64.zero := h.next hS hn ht (by rw [hz, abs_zero, add_zero]; exact hy)
  exact this.fst hS (by omega)
set_option maxHeartbeats 1000000 in
/-- Three components are out. -/
theorem sloop3 {g : Prop} {a b : Quad} {r η S T1 T2 T3 : ℚ} (N : Lev a b r η S T1 T2 T3) {x0 x1 x2 : F64} (g0 : Fb x0 (3 * S)) (g1 : Fb x1 (22 * T1))
    (g2 : Fb x2 (58 * T2)) (d1 : SDomX g S T2 x0 x1) (d2 : SDomX g S T2 x0 x2) (fuel : ℕ) :
    ∀ (u v : F64) (i j : ℕ), SMg a b η i j → 5 ≤ i + j → 9 ≤ fuel + (i + j) →
      Fb u (5 * (((i + j : ℕ) : ℚ) - 4) * T2) → Fb v (20 * T3) → SDom g S T2 (i + j) x0 u v →
      SOutp g S T1 T2 T3 (U x0 + U x1 + U x2 + U u + U v + sumU (rest a i) + sumU (rest b j))
        (addLoop fuel u v (rest a i) (rest b j) [x0, x1, x2]) := by
  have hS := N.nonneg
  have n3 := N.n3
  have s1 := N.s1
  have s2 := N.s2
  have s3 := N.s3
  have u1 := N.u1
  have u2 := N.u2
  have u3 := N.u3
  have n2 : 0 ≤ T2 := by linarith
  have n1 : 0 ≤ T1 := by linarith
  have hl := N.hl
  have dom : ∀ x3, SDomX g S T2 x0 x3 → (g ∨ S / 4 ≤ |U x0| ∨
    (|U x1| ≤ 4 * |U x0| / 2 ^ 53 + 25 * T2 ∧ |U x2| ≤ 4 * |U x0| / 2 ^ 53 + 25 * T2 ∧
     |U x3| ≤ 4 * |U x0| / 2 ^ 53 + 25 * T2)) := by
    intro x3 d3
    rcases d1 with d1 | d1 | d1
    · exact .inl d1
    · exact .inr (.inl d1)
    rcases d2 with d2 | d2 | d2
    · exact .inl d2
    · exact .inr (.inl d2)
    rcases d3 with d3 | d3 | d3
    · exact .inl d3
    · exact .inr (.inl d3)
    exact .inr <| .inr ⟨d1, d2, d3⟩
  induction fuel with
  | zero => intro u v i j m _ h9; have := m.hi; have := m.hj; omega
  | succ fuel ih =>
    intro u v i j m h5 h9 fu fv D
    by_cases h8 : i + j < 8
    · obtain ⟨t, i', j', hp, hij, m', ft, hne, ht1, ht2, hsum⟩ := N.step m h8
      have ht := ht2 (by omega)
      have c7 : ((i + j : ℕ) : ℚ) ≤ 7 := by exact_mod_cast (by omega : i + j ≤ 7)
      have nS1 := mul_le_mul_of_nonneg_right c7 hS
      have nT1 := mul_le_mul_of_nonneg_right c7 n1
      have nT2 := mul_le_mul_of_nonneg_right c7 n2
      have hu := fu.le
      have hv := fv.le
      have nu := abs_nonneg (U u)
      have nv := abs_nonneg (U v)
      have nt := abs_nonneg (U t)
      rcases qb_acc (exact_fb fu) (exact_fb fv) ⟨ft, le_refl _⟩ (by linarith) with
        ⟨s, y, z, ha, fs, fy, fz, hs, hs0, hv0, hys, hzs⟩ | ⟨s, z, ha, fs, fz, hs, hor⟩
      · rw [addLoop_step (by simp) hne hp ha, hs0, if_pos rfl, addLoop_full _ _ _ _ _ _ (by simp)]
        obtain ⟨l1, l2, l3⟩ := N.left m' (by omega)
        have e1 := fy.le
        have e2 := fz.le
        refine ⟨g0, g1, g2, fs.mono (by linarith), l1, l2, l3, dom s ?_, ?_⟩
        · exact .of_round D n2 h8 ht2 (fs.le.trans (by linarith))
        · show |U x0 + U x1 + U x2 + U s + sumU (rest a i') + sumU (rest b j') - _| ≤ _
          have e1 := abs_le.mp e1
          have e2 := abs_le.mp e2
          exact abs_le.mpr ⟨by linarith, by linarith⟩
      · rw [addLoop_step (by simp) hne hp ha, ne_zero_zero, if_neg (by simp)]
        have hz := fz.le
        have hss := fs.le
        have := ih s z i' j' m' (by omega) (by omega) (fs.mono (by rw [hij]; push_cast at nS1 nT1 nT2 hu ⊢; linarith)) (fz.mono (by linarith))
          (by rw [hij]; exact D.next n2 h8 ht2 (by linarith))
        rw [show U x0 + U x1 + U x2 + U u + U v + sumU (rest a i) + sumU (rest b j) =
          U x0 + U x1 + U x2 + U s + U z + sumU (rest a i') + sumU (rest b j') by linarith]
        exact this
    · have hi := m.hi
      have hj := m.hj
      have c8 : ((i + j : ℕ) : ℚ) ≤ 8 := by exact_mod_cast (by omega : i + j ≤ 8)
      have nS1 := mul_le_mul_of_nonneg_right c8 hS
      have nT1 := mul_le_mul_of_nonneg_right c8 n1
      have nT2 := mul_le_mul_of_nonneg_right c8 n2
      rw [rest_nil a (by omega), rest_nil b (by omega), addLoop_empty (by omega) _ _ _ (by simp), sumU_nil]
      rw [if_neg (by simp)]
      refine ⟨g0, g1, g2, fu.mono (by linarith), by simp, by simp, by simp, dom u (D.fst n2 (by omega)), ?_⟩
      show |U x0 + U x1 + U x2 + U u + 0 + 0 - _| ≤ _
      have e := abs_le.mp fv.le
      exact abs_le.mpr ⟨by linarith, by linarith⟩

set_option maxHeartbeats 1000000 in
/-- Two components are out. -/
theorem sloop2 {g : Prop} {a b : Quad} {r η S T1 T2 T3 : ℚ} (N : Lev a b r η S T1 T2 T3) {x0 x1 : F64} (g0 : Fb x0 (3 * S)) (g1 : Fb x1 (22 * T1))
    (d1 : SDomX g S T2 x0 x1) (fuel : ℕ) :
    ∀ (u v : F64) (i j : ℕ), SMg a b η i j → 4 ≤ i + j → 9 ≤ fuel + (i + j) →
      Fb u ((25 + 8 * (((i + j : ℕ) : ℚ) - 4)) * T2) → Fb v (3 * T2) → SDom g S T2 (i + j) x0 u v →
      SOutp g S T1 T2 T3 (U x0 + U x1 + U u + U v + sumU (rest a i) + sumU (rest b j))
        (addLoop fuel u v (rest a i) (rest b j) [x0, x1]) := by
  have hS := N.nonneg
  have n3 := N.n3
  have s1 := N.s1
  have s2 := N.s2
  have s3 := N.s3
  have u1 := N.u1
  have u2 := N.u2
  have u3 := N.u3
  have n2 : 0 ≤ T2 := by linarith
  have n1 : 0 ≤ T1 := by linarith
  have hl := N.hl
  induction fuel with
  | zero => intro u v i j m _ h9; have := m.hi; have := m.hj; omega
  | succ fuel ih =>
    intro u v i j m h5 h9 fu fv D
    by_cases h8 : i + j < 8
    · obtain ⟨t, i', j', hp, hij, m', ft, hne, ht1, ht2, hsum⟩ := N.step m h8
      have ht := ht2 (by omega)
      have c7 : ((i + j : ℕ) : ℚ) ≤ 7 := by exact_mod_cast (by omega : i + j ≤ 7)
      have nS1 := mul_le_mul_of_nonneg_right c7 hS
      have nT1 := mul_le_mul_of_nonneg_right c7 n1
      have nT2 := mul_le_mul_of_nonneg_right c7 n2
      have c3 : (4:ℚ) ≤ ((i + j : ℕ) : ℚ) := by exact_mod_cast h5
      have nS2 := mul_le_mul_of_nonneg_right c3 hS
      have mT1 := mul_le_mul_of_nonneg_right c3 n1
      have mT2 := mul_le_mul_of_nonneg_right c3 n2
      have hu := fu.le
      have hv := fv.le
      have nu := abs_nonneg (U u)
      have nv := abs_nonneg (U v)
      have nt := abs_nonneg (U t)
      rcases qb_acc (exact_fb fu) (exact_fb fv) ⟨ft, le_refl _⟩ (by linarith) with
        ⟨s, y, z, ha, fs, fy, fz, hs, hs0, hv0, hys, hzs⟩ | ⟨s, z, ha, fs, fz, hs, hor⟩
      · rw [addLoop_step (by simp) hne hp ha, hs0, if_pos rfl]
        have e1 := fy.le
        have e2 := fz.le
        have := sloop3 N g0 g1 (fs.mono (by linarith)) d1 (.of_round D n2 h8 ht2 (fs.le.trans (by linarith))) fuel y z i' j' m'
          (by omega) (by omega) (fy.mono (by rw [hij]; push_cast at nS1 nS2 nT1 nT2 mT1 mT2 hu ⊢; linarith)) (fz.mono (by linarith))
          (by rw [hij]; exact D.next n2 h8 ht2 (by linarith))
        rw [show U x0 + U x1 + U u + U v + sumU (rest a i) + sumU (rest b j) =
          U x0 + U x1 + U s + U y + U z + sumU (rest a i') + sumU (rest b j') by linarith]
        exact this
      · rw [addLoop_step (by simp) hne hp ha, ne_zero_zero, if_neg (by simp)]
        have hz := fz.le
        have hss := fs.le
        have := ih s z i' j' m' (by omega) (by omega) (fs.mono (by rw [hij]; push_cast at nS1 nS2 nT1 nT2 mT1 mT2 hu ⊢; linarith)) (fz.mono (by linarith))
          (by rw [hij]; exact D.next n2 h8 ht2 (by linarith))
        rw [show U x0 + U x1 + U u + U v + sumU (rest a i) + sumU (rest b j) =
          U x0 + U x1 + U s + U z + sumU (rest a i') + sumU (rest b j') by linarith]
        exact this
    · have hi := m.hi
      have hj := m.hj
      have c8 : ((i + j : ℕ) : ℚ) ≤ 8 := by exact_mod_cast (by omega : i + j ≤ 8)
      have nS1 := mul_le_mul_of_nonneg_right c8 hS
      have nT1 := mul_le_mul_of_nonneg_right c8 n1
      have nT2 := mul_le_mul_of_nonneg_right c8 n2
      rw [rest_nil a (by omega), rest_nil b (by omega), addLoop_empty (by omega) _ _ _ (by simp), sumU_nil]
      rw [if_pos (by simp)]
      refine ⟨g0, g1, fu.mono (by linarith), fv.mono (by linarith), by simp, by simp, by simp, ?_, ?_⟩
      · show g ∨ S / 4 ≤ |U x0| ∨ (|U x1| ≤ 4 * |U x0| / 2 ^ 53 + 25 * T2 ∧ |U u| ≤ 4 * |U x0| / 2 ^ 53 + 25 * T2 ∧
          |U v| ≤ 4 * |U x0| / 2 ^ 53 + 25 * T2)
        rcases d1 with d1 | d1 | d1
        · exact .inl d1
        · exact .inr (.inl d1)
        rcases D.fst n2 (by omega) with d2 | d2 | d2
        · exact .inl d2
        · exact .inr (.inl d2)
        rcases D.snd n2 (by omega) with d3 | d3 | d3
        · exact .inl d3
        · exact .inr (.inl d3)
        exact .inr <| .inr ⟨d1, d2, d3⟩
      · show |U x0 + U x1 + U u + U v + 0 + 0 - _| ≤ _
        exact abs_le.mpr ⟨by linarith, by linarith⟩

set_option maxHeartbeats 1000000 in
/-- One component is out. -/
theorem sloop1 {g : Prop} {a b : Quad} {r η S T1 T2 T3 : ℚ} (N : Lev a b r η S T1 T2 T3) {x0 : F64} (g0 : Fb x0 (3 * S)) (fuel : ℕ) :
    ∀ (u v : F64) (i j : ℕ), SMg a b η i j → 3 ≤ i + j → 9 ≤ fuel + (i + j) →
      Fb u (3 * (((i + j : ℕ) : ℚ) - 2) * T1) → Fb v (25 * T2) → SDom g S T2 (i + j) x0 u v →
      SOutp g S T1 T2 T3 (U x0 + U u + U v + sumU (rest a i) + sumU (rest b j))
        (addLoop fuel u v (rest a i) (rest b j) [x0]) := by
  have hS := N.nonneg
  have n3 := N.n3
  have s1 := N.s1
  have s2 := N.s2
  have s3 := N.s3
  have u1 := N.u1
  have u2 := N.u2
  have u3 := N.u3
  have n2 : 0 ≤ T2 := by linarith
  have n1 : 0 ≤ T1 := by linarith
  have hl := N.hl
  induction fuel with
  | zero => intro u v i j m _ h9; have := m.hi; have := m.hj; omega
  | succ fuel ih =>
    intro u v i j m h5 h9 fu fv D
    by_cases h8 : i + j < 8
    · obtain ⟨t, i', j', hp, hij, m', ft, hne, ht1, ht2, hsum⟩ := N.step m h8
      have ht := ht1 (by omega)
      have c7 : ((i + j : ℕ) : ℚ) ≤ 7 := by exact_mod_cast (by omega : i + j ≤ 7)
      have nS1 := mul_le_mul_of_nonneg_right c7 hS
      have nT1 := mul_le_mul_of_nonneg_right c7 n1
      have nT2 := mul_le_mul_of_nonneg_right c7 n2
      have c3 : (3:ℚ) ≤ ((i + j : ℕ) : ℚ) := by exact_mod_cast h5
      have nS2 := mul_le_mul_of_nonneg_right c3 hS
      have mT1 := mul_le_mul_of_nonneg_right c3 n1
      have mT2 := mul_le_mul_of_nonneg_right c3 n2
      have hu := fu.le
      have hv := fv.le
      have nu := abs_nonneg (U u)
      have nv := abs_nonneg (U v)
      have nt := abs_nonneg (U t)
      rcases qb_acc (exact_fb fu) (exact_fb fv) ⟨ft, le_refl _⟩ (by linarith) with
        ⟨s, y, z, ha, fs, fy, fz, hs, hs0, hv0, hys, hzs⟩ | ⟨s, z, ha, fs, fz, hs, hor⟩
      · rw [addLoop_step (by simp) hne hp ha, hs0, if_pos rfl]
        have e1 := fy.le
        have e2 := fz.le
        have := sloop2 N g0 (fs.mono (by linarith)) (.of_round D n2 h8 ht2 (fs.le.trans (by linarith))) fuel y z i' j' m'
          (by omega) (by omega) (fy.mono (by rw [hij]; push_cast at nS1 nS2 nT1 nT2 mT1 mT2 hu ⊢; linarith)) (fz.mono (by linarith))
          (by rw [hij]; exact D.next n2 h8 ht2 (by linarith))
        rw [show U x0 + U u + U v + sumU (rest a i) + sumU (rest b j) =
          U x0 + U s + U y + U z + sumU (rest a i') + sumU (rest b j') by linarith]
        exact this
      · rw [addLoop_step (by simp) hne hp ha, ne_zero_zero, if_neg (by simp)]
        have hz := fz.le
        have hss := fs.le
        have := ih s z i' j' m' (by omega) (by omega) (fs.mono (by rw [hij]; push_cast at nS1 nS2 nT1 nT2 mT1 mT2 hu ⊢; linarith)) (fz.mono (by linarith))
          (by rw [hij]; exact D.next n2 h8 ht2 (by linarith))
        rw [show U x0 + U u + U v + sumU (rest a i) + sumU (rest b j) =
          U x0 + U s + U z + sumU (rest a i') + sumU (rest b j') by linarith]
        exact this
    · have hi := m.hi
      have hj := m.hj
      have c8 : ((i + j : ℕ) : ℚ) ≤ 8 := by exact_mod_cast (by omega : i + j ≤ 8)
      have nS1 := mul_le_mul_of_nonneg_right c8 hS
      have nT1 := mul_le_mul_of_nonneg_right c8 n1
      have nT2 := mul_le_mul_of_nonneg_right c8 n2
      rw [rest_nil a (by omega), rest_nil b (by omega), addLoop_empty (by omega) _ _ _ (by simp), sumU_nil]
      rw [if_pos (by simp)]
      have z0 : |U F64.zero| = 0 := by rw [U_zero, abs_zero]
      refine ⟨g0, fu.mono (by linarith), fv.mono (by linarith), ⟨is_zero.1, ?_⟩, by simp, by simp, by simp, ?_, ?_⟩
      · show |U F64.zero| ≤ _
        rw [z0]; positivity
      · show g ∨ S / 4 ≤ |U x0| ∨ (|U u| ≤ 4 * |U x0| / 2 ^ 53 + 25 * T2 ∧ |U v| ≤ 4 * |U x0| / 2 ^ 53 + 25 * T2 ∧
          |U F64.zero| ≤ 4 * |U x0| / 2 ^ 53 + 25 * T2)
        rcases D.fst n2 (by omega) with d2 | d2 | d2
        · exact .inl d2
        · exact .inr (.inl d2)
        rcases D.snd n2 (by omega) with d3 | d3 | d3
        · exact .inl d3
        · exact .inr (.inl d3)
        exact .inr <| .inr ⟨d2, d3, by rw [z0]; positivity⟩
      · show |U x0 + U u + U v + U F64.zero + 0 + 0 - _| ≤ _
        rw [U_zero]
        exact abs_le.mpr ⟨by linarith, by linarith⟩

set_option maxHeartbeats 1000000 in
/-- Nothing is out yet. -/
theorem sloop0 {g : Prop} {a b : Quad} {r η S T1 T2 T3 : ℚ} (N : Lev a b r η S T1 T2 T3) (fuel : ℕ) :
    ∀ (u v : F64) (i j : ℕ), SMg a b η i j → 2 ≤ i + j → 9 ≤ fuel + (i + j) →
      Fb u ((2 + ((i + j : ℕ) : ℚ) / 100) * S) → Fb v (3 * T1) →
      (i + j = 2 → v.units ≠ 0 → g ∨ 49 / 100 * S ≤ |U u|) →
      (3 ≤ i + j → |U v| ≤ |U u| / 2 ^ 53 ∨ |U v| ≤ 6 * T2) →
      SOutp g S T1 T2 T3 (U u + U v + sumU (rest a i) + sumU (rest b j))
        (addLoop fuel u v (rest a i) (rest b j) []) := by
  have hS := N.nonneg
  have n3 := N.n3
  have s1 := N.s1
  have s2 := N.s2
  have s3 := N.s3
  have u1 := N.u1
  have u2 := N.u2
  have u3 := N.u3
  have n2 : 0 ≤ T2 := by linarith
  have n1 : 0 ≤ T1 := by linarith
  have hl := N.hl
  induction fuel with
  | zero => intro u v i j m _ h9; have := m.hi; have := m.hj; omega
  | succ fuel ih =>
    intro u v i j m h5 h9 fu fv hbig hsm
    by_cases h8 : i + j < 8
    · obtain ⟨t, i', j', hp, hij, m', ft, hne, ht1, ht2, hsum⟩ := N.step m h8
      have ht := ht1 (by omega)
      have c7 : ((i + j : ℕ) : ℚ) ≤ 7 := by exact_mod_cast (by omega : i + j ≤ 7)
      have nS1 := mul_le_mul_of_nonneg_right c7 hS
      have nT1 := mul_le_mul_of_nonneg_right c7 n1
      have nT2 := mul_le_mul_of_nonneg_right c7 n2
      have c3 : (2:ℚ) ≤ ((i + j : ℕ) : ℚ) := by exact_mod_cast h5
      have nS2 := mul_le_mul_of_nonneg_right c3 hS
      have mT1 := mul_le_mul_of_nonneg_right c3 n1
      have mT2 := mul_le_mul_of_nonneg_right c3 n2
      have hu := fu.le
      have hv := fv.le
      have nu := abs_nonneg (U u)
      have nv := abs_nonneg (U v)
      have nt := abs_nonneg (U t)
      rcases qb_acc (exact_fb fu) (exact_fb fv) ⟨ft, le_refl _⟩ (by linarith) with
        ⟨s, y, z, ha, fs, fy, fz, hs, hs0, hv0, hys, hzs⟩ | ⟨s, z, ha, fs, fz, hs, hor⟩
      · rw [addLoop_step (by simp) hne hp ha, hs0, if_pos rfl]
        have e1 := fy.le
        have e2 := fz.le
        have ns := abs_nonneg (U s)
        have D : SDom g S T2 (i' + j') s y z := by
          rw [hij]
          by_cases h2 : i + j = 2
          · rcases hbig h2 hv0 with hb | hb
            · exact .inl hb
            right; left
            have t1 : |U u| ≤ |U s| + |U y| + |U z| + |U v| + |U t| := by
              have : U u = U s + U y + U z - U v - U t := by linarith
              rw [this]
              refine (abs_sub _ _).trans ?_
              have := abs_sub (U s + U y + U z) (U v)
              have := abs_add_le (U s + U y) (U z)
              have := abs_add_le (U s) (U y)
              linarith
            linarith
          · right; right
            refine ⟨by omega, ?_⟩
            have n3 : (8 - ((i + j + 1 : ℕ) : ℚ)) * (5 * T2 + |U s| / 2 ^ 53 / 50) ≤
                4 * (5 * T2 + |U s| / 2 ^ 53 / 50) := by
              apply mul_le_mul_of_nonneg_right _ (by positivity)
              have : (3 : ℚ) ≤ ((i + j : ℕ) : ℚ) := by exact_mod_cast (by omega : 3 ≤ i + j)
              push_cast at this ⊢
              linarith
            linarith
        have := sloop1 N (fs.mono (by linarith)) fuel y z i' j' m'
          (by omega) (by omega) (fy.mono (by rw [hij]; push_cast at nS1 nS2 nT1 nT2 mT1 mT2 hu ⊢; linarith)) (fz.mono (by linarith)) D
        rw [show U u + U v + sumU (rest a i) + sumU (rest b j) =
          U s + U y + U z + sumU (rest a i') + sumU (rest b j') by linarith]
        exact this
      · rw [addLoop_step (by simp) hne hp ha, ne_zero_zero, if_neg (by simp)]
        have hz := fz.le
        have hss := fs.le
        have := ih s z i' j' m' (by omega) (by omega) (fs.mono (by rw [hij]; push_cast at nS1 nS2 nT1 nT2 mT1 mT2 hu ⊢; linarith)) (fz.mono (by linarith))
          (by omega) (fun _ => hor.imp id (fun h => by linarith))
        rw [show U u + U v + sumU (rest a i) + sumU (rest b j) =
          U s + U z + sumU (rest a i') + sumU (rest b j') by linarith]
        exact this
    · have hi := m.hi
      have hj := m.hj
      have c8 : ((i + j : ℕ) : ℚ) ≤ 8 := by exact_mod_cast (by omega : i + j ≤ 8)
      have nS1 := mul_le_mul_of_nonneg_right c8 hS
      have nT1 := mul_le_mul_of_nonneg_right c8 n1
      have nT2 := mul_le_mul_of_nonneg_right c8 n2
      rw [rest_nil a (by omega), rest_nil b (by omega), addLoop_empty (by omega) _ _ _ (by simp), sumU_nil]
      rw [if_pos (by simp)]
      have z0 : |U F64.zero| = 0 := by rw [U_zero, abs_zero]
      have nu := abs_nonneg (U u)
      refine ⟨fu.mono (by linarith), fv.mono (by linarith), ⟨is_zero.1, ?_⟩, ⟨is_zero.1, ?_⟩, by simp, by simp, by simp, .inr (.inr ?_), ?_⟩
      · show |U F64.zero| ≤ _
        rw [z0]; positivity
      · show |U F64.zero| ≤ _
        rw [z0]; positivity
      · show |U v| ≤ 4 * |U u| / 2 ^ 53 + 25 * T2 ∧ |U F64.zero| ≤ 4 * |U u| / 2 ^ 53 + 25 * T2 ∧
          |U F64.zero| ≤ 4 * |U u| / 2 ^ 53 + 25 * T2
        refine ⟨?_, by rw [z0]; positivity, by rw [z0]; positivity⟩
        rcases hsm (by omega) with h | h <;> linarith
      · show |U u + U v + U F64.zero + U F64.zero + 0 + 0 - _| ≤ _
        rw [U_zero]
        exact abs_le.mpr ⟨by linarith, by linarith⟩

end Verif
