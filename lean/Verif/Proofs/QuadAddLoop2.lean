import Verif.Proofs.QuadAddLoop

/-!
# The accumulation loop of `Quad` addition, component by component
-/

namespace Verif

open F64 Prim Util Quad

theorem ne_zero_zero : F64.ne F64.zero F64.zero = false := (ne_zero_false is_zero.1).mpr U_zero

set_option maxHeartbeats 1000000 in
/-- Three components are out. -/
theorem loop3 {a b : Quad} {S : ℚ} (N : Nxt a b S) {x0 x1 x2 : F64} (g0 : Fb x0 (3 * S)) (g1 : Fb x1 (22 * S / 2 ^ 53))
    (g2 : Fb x2 (58 * S / 2 ^ 106)) (d1 : DomX S x0 x1) (d2 : DomX S x0 x2) (fuel : ℕ) :
    ∀ (u v : F64) (i j : ℕ), Mg a b i j → 5 ≤ i + j → 9 ≤ fuel + (i + j) →
      Fb u (5 * (((i + j : ℕ) : ℚ) - 4) * S / 2 ^ 106) → Fb v (20 * S / 2 ^ 159) → Dom S (i + j) x0 u v →
      Outp S (U x0 + U x1 + U x2 + U u + U v + sumU (rest a i) + sumU (rest b j))
        (addLoop fuel u v (rest a i) (rest b j) [x0, x1, x2]) := by
  have hS := N.nonneg
  have hl := N.hl
  have dom : ∀ x3, DomX S x0 x3 → (S / 4 ≤ |U x0| ∨
    (|U x1| ≤ 4 * |U x0| / 2 ^ 53 + 25 * S / 2 ^ 106 ∧ |U x2| ≤ 4 * |U x0| / 2 ^ 53 + 25 * S / 2 ^ 106 ∧
     |U x3| ≤ 4 * |U x0| / 2 ^ 53 + 25 * S / 2 ^ 106)) := by
    intro x3 d3
    rcases d1 with d1 | d1
    · exact .inl d1
    rcases d2 with d2 | d2
    · exact .inl d2
    rcases d3 with d3 | d3
    · exact .inl d3
    exact .inr ⟨d1, d2, d3⟩
  induction fuel with
  | zero => intro u v i j m _ h9; have := m.hi; have := m.hj; omega
  | succ fuel ih =>
    intro u v i j m h5 h9 fu fv D
    by_cases h8 : i + j < 8
    · obtain ⟨t, i', j', hp, hij, m', ft, hne, ht1, ht2, hsum⟩ := N.step m h8
      have ht := ht2 (by omega)
      have nS1 : ((i + j : ℕ) : ℚ) * S ≤ 7 * S := mul_le_mul_of_nonneg_right (by exact_mod_cast (by omega : i + j ≤ 7)) hS
      have hu := fu.le
      have hv := fv.le
      have nu := abs_nonneg (U u)
      have nv := abs_nonneg (U v)
      have nt := abs_nonneg (U t)
      rcases qb_acc (exact_fb fu) (exact_fb fv) ⟨ft, le_refl _⟩ (by linarith) with
        ⟨s, y, z, ha, fs, fy, fz, hs, hs0, hv0, hys, hzs⟩ | ⟨s, z, ha, fs, fz, hs, hor⟩
      · rw [addLoop_step (by simp) hne hp ha, hs0, if_pos rfl, addLoop_full _ _ _ _ _ _ (by simp)]
        obtain ⟨l1, l2, l3⟩ := N.left m' (by omega)
        have e1 := fy.le
        have e2 := fz.le
        refine ⟨g0, g1, g2, fs.mono (by linarith), l1, l2, l3, dom s ?_, ?_⟩
        · exact .of_round D hS h8 ht2 (fs.le.trans (by linarith))
        · show |U x0 + U x1 + U x2 + U s + sumU (rest a i') + sumU (rest b j') - _| ≤ _
          have e1 := abs_le.mp e1
          have e2 := abs_le.mp e2
          exact abs_le.mpr ⟨by linarith, by linarith⟩
      · rw [addLoop_step (by simp) hne hp ha, ne_zero_zero, if_neg (by simp)]
        have hz := fz.le
        have hss := fs.le
        have := ih s z i' j' m' (by omega) (by omega) (fs.mono (by rw [hij]; push_cast at nS1 hu ⊢; linarith)) (fz.mono (by linarith))
          (by rw [hij]; exact D.next hS h8 ht2 (by linarith))
        rw [show U x0 + U x1 + U x2 + U u + U v + sumU (rest a i) + sumU (rest b j) =
          U x0 + U x1 + U x2 + U s + U z + sumU (rest a i') + sumU (rest b j') by linarith]
        exact this
    · have hi := m.hi
      have hj := m.hj
      have nS1 : ((i + j : ℕ) : ℚ) * S ≤ 8 * S := mul_le_mul_of_nonneg_right (by exact_mod_cast (by omega : i + j ≤ 8)) hS
      rw [rest_nil a (by omega), rest_nil b (by omega), addLoop_empty (by omega) _ _ _ (by simp), sumU_nil]
      rw [if_neg (by simp)]
      refine ⟨g0, g1, g2, fu.mono (by linarith), by simp, by simp, by simp, dom u (D.fst hS (by omega)), ?_⟩
      show |U x0 + U x1 + U x2 + U u + 0 + 0 - _| ≤ _
      have e := abs_le.mp fv.le
      exact abs_le.mpr ⟨by linarith, by linarith⟩

set_option maxHeartbeats 1000000 in
/-- Two components are out. -/
theorem loop2 {a b : Quad} {S : ℚ} (N : Nxt a b S) {x0 x1 : F64} (g0 : Fb x0 (3 * S)) (g1 : Fb x1 (22 * S / 2 ^ 53))
    (d1 : DomX S x0 x1) (fuel : ℕ) :
    ∀ (u v : F64) (i j : ℕ), Mg a b i j → 4 ≤ i + j → 9 ≤ fuel + (i + j) →
      Fb u ((25 + 8 * (((i + j : ℕ) : ℚ) - 4)) * S / 2 ^ 106) → Fb v (3 * S / 2 ^ 106) → Dom S (i + j) x0 u v →
      Outp S (U x0 + U x1 + U u + U v + sumU (rest a i) + sumU (rest b j))
        (addLoop fuel u v (rest a i) (rest b j) [x0, x1]) := by
  have hS := N.nonneg
  have hl := N.hl
  induction fuel with
  | zero => intro u v i j m _ h9; have := m.hi; have := m.hj; omega
  | succ fuel ih =>
    intro u v i j m h5 h9 fu fv D
    by_cases h8 : i + j < 8
    · obtain ⟨t, i', j', hp, hij, m', ft, hne, ht1, ht2, hsum⟩ := N.step m h8
      have ht := ht2 (by omega)
      have nS1 : ((i + j : ℕ) : ℚ) * S ≤ 7 * S := mul_le_mul_of_nonneg_right (by exact_mod_cast (by omega : i + j ≤ 7)) hS
      have nS2 : 4 * S ≤ ((i + j : ℕ) : ℚ) * S := mul_le_mul_of_nonneg_right (by exact_mod_cast h5) hS
      have hu := fu.le
      have hv := fv.le
      have nu := abs_nonneg (U u)
      have nv := abs_nonneg (U v)
      have nt := abs_nonneg (U t)
      rcases qb_acc (exact_fb fu) (exact_fb fv) ⟨ft, le_refl _⟩ (by linarith) with
        ⟨s, y, z, ha, fs, fy, fz, hs, hs0, hv0, hys, hzs⟩ | ⟨s, z, ha, fs, fz, hs, hor⟩
      · rw [addLoop_step (by simp) hne hp ha, hs0, if_pos rfl]
        have e1 := fy.le
        have e2 := fz.le
        have := loop3 N g0 g1 (fs.mono (by linarith)) d1 (.of_round D hS h8 ht2 (fs.le.trans (by linarith))) fuel y z i' j' m'
          (by omega) (by omega) (fy.mono (by rw [hij]; push_cast at nS1 nS2 hu ⊢; linarith)) (fz.mono (by linarith))
          (by rw [hij]; exact D.next hS h8 ht2 (by linarith))
        rw [show U x0 + U x1 + U u + U v + sumU (rest a i) + sumU (rest b j) =
          U x0 + U x1 + U s + U y + U z + sumU (rest a i') + sumU (rest b j') by linarith]
        exact this
      · rw [addLoop_step (by simp) hne hp ha, ne_zero_zero, if_neg (by simp)]
        have hz := fz.le
        have hss := fs.le
        have := ih s z i' j' m' (by omega) (by omega) (fs.mono (by rw [hij]; push_cast at nS1 nS2 hu ⊢; linarith)) (fz.mono (by linarith))
          (by rw [hij]; exact D.next hS h8 ht2 (by linarith))
        rw [show U x0 + U x1 + U u + U v + sumU (rest a i) + sumU (rest b j) =
          U x0 + U x1 + U s + U z + sumU (rest a i') + sumU (rest b j') by linarith]
        exact this
    · have hi := m.hi
      have hj := m.hj
      have nS1 : ((i + j : ℕ) : ℚ) * S ≤ 8 * S := mul_le_mul_of_nonneg_right (by exact_mod_cast (by omega : i + j ≤ 8)) hS
      rw [rest_nil a (by omega), rest_nil b (by omega), addLoop_empty (by omega) _ _ _ (by simp), sumU_nil]
      rw [if_pos (by simp)]
      refine ⟨g0, g1, fu.mono (by linarith), fv.mono (by linarith), by simp, by simp, by simp, ?_, ?_⟩
      · show S / 4 ≤ |U x0| ∨ (|U x1| ≤ 4 * |U x0| / 2 ^ 53 + 25 * S / 2 ^ 106 ∧ |U u| ≤ 4 * |U x0| / 2 ^ 53 + 25 * S / 2 ^ 106 ∧
          |U v| ≤ 4 * |U x0| / 2 ^ 53 + 25 * S / 2 ^ 106)
        rcases d1 with d1 | d1
        · exact .inl d1
        rcases D.fst hS (by omega) with d2 | d2
        · exact .inl d2
        rcases D.snd hS (by omega) with d3 | d3
        · exact .inl d3
        exact .inr ⟨d1, d2, d3⟩
      · show |U x0 + U x1 + U u + U v + 0 + 0 - _| ≤ _
        exact abs_le.mpr ⟨by linarith, by linarith⟩

set_option maxHeartbeats 1000000 in
/-- One component is out. -/
theorem loop1 {a b : Quad} {S : ℚ} (N : Nxt a b S) {x0 : F64} (g0 : Fb x0 (3 * S)) (fuel : ℕ) :
    ∀ (u v : F64) (i j : ℕ), Mg a b i j → 3 ≤ i + j → 9 ≤ fuel + (i + j) →
      Fb u (3 * (((i + j : ℕ) : ℚ) - 2) * S / 2 ^ 53) → Fb v (25 * S / 2 ^ 106) → Dom S (i + j) x0 u v →
      Outp S (U x0 + U u + U v + sumU (rest a i) + sumU (rest b j))
        (addLoop fuel u v (rest a i) (rest b j) [x0]) := by
  have hS := N.nonneg
  have hl := N.hl
  induction fuel with
  | zero => intro u v i j m _ h9; have := m.hi; have := m.hj; omega
  | succ fuel ih =>
    intro u v i j m h5 h9 fu fv D
    by_cases h8 : i + j < 8
    · obtain ⟨t, i', j', hp, hij, m', ft, hne, ht1, ht2, hsum⟩ := N.step m h8
      have ht := ht1 (by omega)
      have nS1 : ((i + j : ℕ) : ℚ) * S ≤ 7 * S := mul_le_mul_of_nonneg_right (by exact_mod_cast (by omega : i + j ≤ 7)) hS
      have nS2 : 3 * S ≤ ((i + j : ℕ) : ℚ) * S := mul_le_mul_of_nonneg_right (by exact_mod_cast h5) hS
      have hu := fu.le
      have hv := fv.le
      have nu := abs_nonneg (U u)
      have nv := abs_nonneg (U v)
      have nt := abs_nonneg (U t)
      rcases qb_acc (exact_fb fu) (exact_fb fv) ⟨ft, le_refl _⟩ (by linarith) with
        ⟨s, y, z, ha, fs, fy, fz, hs, hs0, hv0, hys, hzs⟩ | ⟨s, z, ha, fs, fz, hs, hor⟩
      · rw [addLoop_step (by simp) hne hp ha, hs0, if_pos rfl]
        have e1 := fy.le
        have e2 := fz.le
        have := loop2 N g0 (fs.mono (by linarith)) (.of_round D hS h8 ht2 (fs.le.trans (by linarith))) fuel y z i' j' m'
          (by omega) (by omega) (fy.mono (by rw [hij]; push_cast at nS1 nS2 hu ⊢; linarith)) (fz.mono (by linarith))
          (by rw [hij]; exact D.next hS h8 ht2 (by linarith))
        rw [show U x0 + U u + U v + sumU (rest a i) + sumU (rest b j) =
          U x0 + U s + U y + U z + sumU (rest a i') + sumU (rest b j') by linarith]
        exact this
      · rw [addLoop_step (by simp) hne hp ha, ne_zero_zero, if_neg (by simp)]
        have hz := fz.le
        have hss := fs.le
        have := ih s z i' j' m' (by omega) (by omega) (fs.mono (by rw [hij]; push_cast at nS1 nS2 hu ⊢; linarith)) (fz.mono (by linarith))
          (by rw [hij]; exact D.next hS h8 ht2 (by linarith))
        rw [show U x0 + U u + U v + sumU (rest a i) + sumU (rest b j) =
          U x0 + U s + U z + sumU (rest a i') + sumU (rest b j') by linarith]
        exact this
    · have hi := m.hi
      have hj := m.hj
      have nS1 : ((i + j : ℕ) : ℚ) * S ≤ 8 * S := mul_le_mul_of_nonneg_right (by exact_mod_cast (by omega : i + j ≤ 8)) hS
      rw [rest_nil a (by omega), rest_nil b (by omega), addLoop_empty (by omega) _ _ _ (by simp), sumU_nil]
      rw [if_pos (by simp)]
      have z0 : |U F64.zero| = 0 := by rw [U_zero, abs_zero]
      refine ⟨g0, fu.mono (by linarith), fv.mono (by linarith), ⟨is_zero.1, ?_⟩, by simp, by simp, by simp, ?_, ?_⟩
      · show |U F64.zero| ≤ _
        rw [z0]; positivity
      · show S / 4 ≤ |U x0| ∨ (|U u| ≤ 4 * |U x0| / 2 ^ 53 + 25 * S / 2 ^ 106 ∧ |U v| ≤ 4 * |U x0| / 2 ^ 53 + 25 * S / 2 ^ 106 ∧
          |U F64.zero| ≤ 4 * |U x0| / 2 ^ 53 + 25 * S / 2 ^ 106)
        rcases D.fst hS (by omega) with d2 | d2
        · exact .inl d2
        rcases D.snd hS (by omega) with d3 | d3
        · exact .inl d3
        exact .inr ⟨d2, d3, by rw [z0]; positivity⟩
      · show |U x0 + U u + U v + U F64.zero + 0 + 0 - _| ≤ _
        rw [U_zero]
        exact abs_le.mpr ⟨by linarith, by linarith⟩

set_option maxHeartbeats 1000000 in
/-- Nothing is out yet. -/
theorem loop0 {a b : Quad} {S : ℚ} (N : Nxt a b S) (fuel : ℕ) :
    ∀ (u v : F64) (i j : ℕ), Mg a b i j → 2 ≤ i + j → 9 ≤ fuel + (i + j) →
      Fb u ((2 + ((i + j : ℕ) : ℚ) / 100) * S) → Fb v (3 * S / 2 ^ 53) →
      (i + j = 2 → v.units ≠ 0 → 49 / 100 * S ≤ |U u|) →
      (3 ≤ i + j → |U v| ≤ |U u| / 2 ^ 53 ∨ |U v| ≤ 6 * S / 2 ^ 106) →
      Outp S (U u + U v + sumU (rest a i) + sumU (rest b j))
        (addLoop fuel u v (rest a i) (rest b j) []) := by
  have hS := N.nonneg
  have hl := N.hl
  induction fuel with
  | zero => intro u v i j m _ h9; have := m.hi; have := m.hj; omega
  | succ fuel ih =>
    intro u v i j m h5 h9 fu fv hbig hsm
    by_cases h8 : i + j < 8
    · obtain ⟨t, i', j', hp, hij, m', ft, hne, ht1, ht2, hsum⟩ := N.step m h8
      have ht := ht1 (by omega)
      have nS1 : ((i + j : ℕ) : ℚ) * S ≤ 7 * S := mul_le_mul_of_nonneg_right (by exact_mod_cast (by omega : i + j ≤ 7)) hS
      have nS2 : 2 * S ≤ ((i + j : ℕ) : ℚ) * S := mul_le_mul_of_nonneg_right (by exact_mod_cast h5) hS
      have hu := fu.le
      have hv := fv.le
      have nu := abs_nonneg (U u)
      have nv := abs_nonneg (U v)
      have nt := abs_nonneg (U t)
      rcases qb_acc (exact_fb fu) (exact_fb fv) ⟨ft, le_refl _⟩ (by linarith) with
        ⟨s, y, z, ha, fs, fy, fz, hs, hs0, hv0, hys, hzs⟩ | ⟨s, z, ha, fs, fz, hs, hor⟩
      · rw [addLoop_step (by simp) hne hp ha, hs0, if_pos rfl]
        have e1 := fy.le
        have e2 := fz.le
        have ns := abs_nonneg (U s)
        have D : Dom S (i' + j') s y z := by
          rw [hij]
          by_cases h2 : i + j = 2
          · left
            have hb := hbig h2 hv0
            have t1 : |U u| ≤ |U s| + |U y| + |U z| + |U v| + |U t| := by
              have : U u = U s + U y + U z - U v - U t := by linarith
              rw [this]
              refine (abs_sub _ _).trans ?_
              have := abs_sub (U s + U y + U z) (U v)
              have := abs_add_le (U s + U y) (U z)
              have := abs_add_le (U s) (U y)
              linarith
            linarith
          · right
            refine ⟨by omega, ?_⟩
            have n3 : (8 - ((i + j + 1 : ℕ) : ℚ)) * (5 * S / 2 ^ 106 + |U s| / 2 ^ 53 / 50) ≤
                4 * (5 * S / 2 ^ 106 + |U s| / 2 ^ 53 / 50) := by
              apply mul_le_mul_of_nonneg_right _ (by positivity)
              have : (3 : ℚ) ≤ ((i + j : ℕ) : ℚ) := by exact_mod_cast (by omega : 3 ≤ i + j)
              push_cast at this ⊢
              linarith
            linarith
        have := loop1 N (fs.mono (by linarith)) fuel y z i' j' m'
          (by omega) (by omega) (fy.mono (by rw [hij]; push_cast at nS1 nS2 hu ⊢; linarith)) (fz.mono (by linarith)) D
        rw [show U u + U v + sumU (rest a i) + sumU (rest b j) =
          U s + U y + U z + sumU (rest a i') + sumU (rest b j') by linarith]
        exact this
      · rw [addLoop_step (by simp) hne hp ha, ne_zero_zero, if_neg (by simp)]
        have hz := fz.le
        have hss := fs.le
        have := ih s z i' j' m' (by omega) (by omega) (fs.mono (by rw [hij]; push_cast at nS1 nS2 hu ⊢; linarith)) (fz.mono (by linarith))
          (by omega) (fun _ => hor.imp id (fun h => by linarith))
        rw [show U u + U v + sumU (rest a i) + sumU (rest b j) =
          U s + U z + sumU (rest a i') + sumU (rest b j') by linarith]
        exact this
    · have hi := m.hi
      have hj := m.hj
      have nS1 : ((i + j : ℕ) : ℚ) * S ≤ 8 * S := mul_le_mul_of_nonneg_right (by exact_mod_cast (by omega : i + j ≤ 8)) hS
      rw [rest_nil a (by omega), rest_nil b (by omega), addLoop_empty (by omega) _ _ _ (by simp), sumU_nil]
      rw [if_pos (by simp)]
      have z0 : |U F64.zero| = 0 := by rw [U_zero, abs_zero]
      have nu := abs_nonneg (U u)
      refine ⟨fu.mono (by linarith), fv.mono (by linarith), ⟨is_zero.1, ?_⟩, ⟨is_zero.1, ?_⟩, by simp, by simp, by simp, .inr ?_, ?_⟩
      · show |U F64.zero| ≤ _
        rw [z0]; positivity
      · show |U F64.zero| ≤ _
        rw [z0]; positivity
      · show |U v| ≤ 4 * |U u| / 2 ^ 53 + 25 * S / 2 ^ 106 ∧ |U F64.zero| ≤ 4 * |U u| / 2 ^ 53 + 25 * S / 2 ^ 106 ∧
          |U F64.zero| ≤ 4 * |U u| / 2 ^ 53 + 25 * S / 2 ^ 106
        refine ⟨?_, by rw [z0]; positivity, by rw [z0]; positivity⟩
        rcases hsm (by omega) with h | h <;> linarith
      · show |U u + U v + U F64.zero + U F64.zero + 0 + 0 - _| ≤ _
        rw [U_zero]
        exact abs_le.mpr ⟨by linarith, by linarith⟩

end Verif
