import Verif.Proofs.QuadAddLoop2
import Verif.Proofs.QuadWhole

/-!
# `Quad` addition on integer units
-/

namespace Verif

open F64 Prim Util Quad

/-- `accumulate` on units. -/
def accZ (u v t : ℤ) : ℤ × ℤ × ℤ :=
  if re u (rs v t) ≠ 0 ∧ re v t ≠ 0 then (rs u (rs v t), re u (rs v t), re v t)
  else (0, rs u (rs v t), if re v t = 0 then re u (rs v t) else re v t)

theorem is_acc {u v t : F64} {m n k : ℤ} (iu : Is u m) (iv : Is v n) (it : Is t k) (h : 4 * (|m| + |n| + |k|) ≤ lim) :
    Is (accumulate u v t).1 (accZ m n k).1 ∧ Is (accumulate u v t).2.1 (accZ m n k).2.1 ∧
      Is (accumulate u v t).2.2 (accZ m n k).2.2 := by
  have a1 := abs_nonneg m
  have a2 := abs_nonneg n
  have a3 := abs_nonneg k
  obtain ⟨i1, i2⟩ := is_twoSum iv it (by omega)
  have b1 := abs_rs_le n k
  obtain ⟨i3, i4⟩ := is_twoSum iu i1 (by omega)
  have e4 := i4.eq_iff is_zero
  have e2 := i2.eq_iff is_zero
  have hA : accumulate u v t = (if !(F64.eq (twoSum u (twoSum v t).1).2 F64.zero || F64.eq (twoSum v t).2 F64.zero) then
      ((twoSum u (twoSum v t).1).1, (twoSum u (twoSum v t).1).2, (twoSum v t).2)
      else (F64.zero, (twoSum u (twoSum v t).1).1,
        if F64.eq (twoSum v t).2 F64.zero then (twoSum u (twoSum v t).1).2 else (twoSum v t).2)) := rfl
  by_cases h4 : re m (rs n k) = 0
  · have hz : accZ m n k = (0, rs m (rs n k), if re n k = 0 then re m (rs n k) else re n k) := by
      unfold accZ; rw [if_neg (fun h => h.1 h4)]
    rw [hz, hA, e4.mpr h4]
    refine ⟨is_zero, i3, ?_⟩
    by_cases h2 : re n k = 0
    · rw [e2.mpr h2]
      show Is (twoSum u (twoSum v t).1).2 (if re n k = 0 then re m (rs n k) else re n k)
      rw [if_pos h2]
      exact i4
    · have n2 : F64.eq (twoSum v t).2 F64.zero = false := by rw [← Bool.not_eq_true, e2]; exact h2
      rw [n2]
      show Is (twoSum v t).2 (if re n k = 0 then re m (rs n k) else re n k)
      rw [if_neg h2]
      exact i2
  · have n4 : F64.eq (twoSum u (twoSum v t).1).2 F64.zero = false := by rw [← Bool.not_eq_true, e4]; exact h4
    by_cases h2 : re n k = 0
    · have hz : accZ m n k = (0, rs m (rs n k), re m (rs n k)) := by
        unfold accZ; rw [if_neg (fun h => h.2 h2), if_pos h2]
      rw [hz, hA, n4, e2.mpr h2]
      exact ⟨is_zero, i3, i4⟩
    · have n2 : F64.eq (twoSum v t).2 F64.zero = false := by rw [← Bool.not_eq_true, e2]; exact h2
      have hz : accZ m n k = (rs m (rs n k), re m (rs n k), re n k) := by
        unfold accZ; rw [if_pos ⟨h4, h2⟩]
      rw [hz, hA, n4, n2]
      exact ⟨i3, i4, i2⟩

/-- The merge of two lists, as the integers that come out. -/
def Picks : List F64 → List F64 → List ℤ → Prop
  | la, lb, [] => la = [] ∧ lb = []
  | la, lb, k :: ks => ¬ (la = [] ∧ lb = []) ∧ ∃ t la' lb', pick la lb = (t, la', lb') ∧ Is t k ∧ Picks la' lb' ks

/-- The loop on units; `none` when four components are out before the end. -/
def loopZ : List ℤ → ℤ → ℤ → List ℤ → Option (List ℤ)
  | [], u, v, x => if x.length < 3 then some (x ++ [u, v]) else if x.length = 3 ∧ v = 0 then some (x ++ [u]) else none
  | k :: ks, u, v, x =>
    if x.length < 4 then
      loopZ ks (accZ u v k).2.1 (accZ u v k).2.2 (if (accZ u v k).1 ≠ 0 then x ++ [(accZ u v k).1] else x)
    else none

theorem accZ_bound {u v t B : ℤ} (hu : |u| ≤ B) (hv : |v| ≤ B) (ht : |t| ≤ B) :
    |(accZ u v t).2.1| ≤ 16 * B ∧ |(accZ u v t).2.2| ≤ 16 * B := by
  have b1 := abs_rs_le v t
  have b2 := abs_re_le v t
  have b3 := abs_rs_le u (rs v t)
  have b4 := abs_re_le u (rs v t)
  have := abs_nonneg u
  unfold accZ
  split_ifs <;> dsimp only <;> constructor <;> omega

theorem is_loop {ks : List ℤ} : ∀ {fuel : ℕ} {u v : F64} {la lb x : List F64} {m n B : ℤ} {xs r : List ℤ},
    Is u m → Is v n → Picks la lb ks → List.Forall₂ Is x xs → ks.length + 1 ≤ fuel → (∀ k ∈ ks, |k| ≤ B) → |m| ≤ B → |n| ≤ B →
    16 ^ (ks.length + 1) * B ≤ lim → loopZ ks m n xs = some r →
    ∃ y, addLoop fuel u v la lb x = (y, [], []) ∧ List.Forall₂ Is y r := by
  induction ks with
  | nil =>
    intro fuel u v la lb x m n B xs r iu iv hp hx hf _ _ _ _ hz
    obtain ⟨rfl, rfl⟩ := hp
    have hl := hx.length_eq
    unfold loopZ at hz
    by_cases h3 : xs.length < 3
    · rw [if_pos h3, Option.some.injEq] at hz
      rw [addLoop_empty (by omega) _ _ _ (by omega), if_pos (by omega), ← hz]
      exact ⟨_, rfl, List.rel_append hx (.cons iu (.cons iv .nil))⟩
    · rw [if_neg h3] at hz
      split_ifs at hz with h4
      rw [Option.some.injEq] at hz
      rw [addLoop_empty (by omega) _ _ _ (by omega), if_neg (by omega), ← hz]
      exact ⟨_, rfl, List.rel_append hx (.cons iu .nil)⟩
  | cons k ks ih =>
    intro fuel u v la lb x m n B xs r iu iv hp hx hf hk hm hn hB hz
    obtain ⟨hne, t, la', lb', hpk, it, hp'⟩ := hp
    have hl := hx.length_eq
    obtain ⟨f, rfl⟩ : ∃ f, fuel = f + 1 := ⟨fuel - 1, by simp at hf; omega⟩
    unfold loopZ at hz
    by_cases h4 : xs.length < 4
    case neg => rw [if_neg h4] at hz; exact absurd hz (by simp)
    rw [if_pos h4] at hz
    have hkB := hk k (by simp)
    have B0 : 0 ≤ B := (abs_nonneg m).trans hm
    have h256 : 256 * B ≤ lim := by
      refine le_trans ?_ hB
      apply mul_le_mul_of_nonneg_right _ B0
      rw [List.length_cons]
      calc (256:ℤ) = 16 ^ 2 := by norm_num
        _ ≤ 16 ^ (ks.length + 1 + 1) := pow_le_pow_right₀ (by norm_num) (by omega)
    obtain ⟨j1, j2, j3⟩ := is_acc iu iv it (by omega)
    rw [addLoop_step (by omega) hne hpk (s := (accumulate u v t).1) (y := (accumulate u v t).2.1) (z := (accumulate u v t).2.2) rfl]
    obtain ⟨b1, b2⟩ := accZ_bound hm hn hkB
    have hx' : List.Forall₂ Is (if F64.ne (accumulate u v t).1 F64.zero = true then x ++ [(accumulate u v t).1] else x)
        (if (accZ m n k).1 ≠ 0 then xs ++ [(accZ m n k).1] else xs) := by
      by_cases h0 : (accZ m n k).1 ≠ 0
      · rw [if_pos h0, if_pos ((is_ne_zero j1).mpr h0)]
        exact List.rel_append hx (.cons j1 .nil)
      · rw [if_neg h0, if_neg (by rw [is_ne_zero j1]; exact h0)]
        exact hx
    refine ih (B := 16 * B) j2 j3 hp' hx' (by simp at hf; omega) (fun q hq => (hk q (by simp [hq])).trans (by omega)) b1 b2 ?_ hz
    rw [List.length_cons, pow_succ] at hB
    linarith

theorem forall_getD {x : List F64} {xs : List ℤ} (h : List.Forall₂ Is x xs) (i : ℕ) :
    Is (x.getD i F64.zero) (xs.getD i 0) := by
  induction h generalizing i with
  | nil => simpa using is_zero
  | cons h _ ih =>
    cases i with
    | zero => simpa using h
    | succ i => simpa using ih i

/-- Addition on units: what is merged, the loop, `renorm4`. -/
theorem is_quad_add {a b : Quad} {k0 k1 B : ℤ} {ks r : List ℤ} (oa : a.c0.isFinite = true) (ob : b.c0.isFinite = true)
    (hp : Picks (rest a 0) (rest b 0) (k0 :: k1 :: ks)) (hlen : ks.length ≤ 7) (hg : Grid k0 k1)
    (hB : ∀ k ∈ k0 :: k1 :: ks, |k| ≤ B) (hl : 2 ^ 50 * B ≤ lim) (hz : loopZ ks (rs k0 k1) (re k0 k1) [] = some r)
    (hok : Rn4Ok (r.getD 0 0) (r.getD 1 0) (r.getD 2 0) (r.getD 3 0))
    (hr : ∀ i, |r.getD i 0| ≤ 2 ^ 30 * B) :
    QIs (a + b) (rn4 (r.getD 0 0) (r.getD 1 0) (r.getD 2 0) (r.getD 3 0)) := by
  obtain ⟨_, t0, la0, lb0, hp0, i0, _, t1, la1, lb1, hp1, i1, hp2⟩ := hp
  have b0 := hB k0 (by simp)
  have b1 := hB k1 (by simp)
  have B0 : 0 ≤ B := (abs_nonneg _).trans b0
  obtain ⟨iu, iv⟩ := is_quickTwoSum i0 i1 hg (by omega)
  have c1 := abs_rs_le k0 k1
  have c2 := abs_re_le k0 k1
  obtain ⟨y, hy, hf⟩ := is_loop (fuel := 8) (x := []) iu iv hp2 .nil (by omega) (B := 4 * B)
    (fun k hk => (hB k (by simp [hk])).trans (by omega)) (by omega) (by omega) (by
      have : (16:ℤ) ^ (ks.length + 1) * (4 * B) ≤ 16 ^ 8 * (4 * B) :=
        mul_le_mul_of_nonneg_right (pow_le_pow_right₀ (by norm_num) (by omega)) (by omega)
      omega) hz
  have R := is_renorm4 (forall_getD hf 0) (forall_getD hf 1) (forall_getD hf 2) (forall_getD hf 3) hok (by
    have := hr 0; have := hr 1; have := hr 2; have := hr 3; omega)
  have hval : a + b = ⟨(renorm4 (y.getD 0 F64.zero) (y.getD 1 F64.zero) (y.getD 2 F64.zero) (y.getD 3 F64.zero)).1,
      (renorm4 (y.getD 0 F64.zero) (y.getD 1 F64.zero) (y.getD 2 F64.zero) (y.getD 3 F64.zero)).2.1,
      (renorm4 (y.getD 0 F64.zero) (y.getD 1 F64.zero) (y.getD 2 F64.zero) (y.getD 3 F64.zero)).2.2.1,
      (renorm4 (y.getD 0 F64.zero) (y.getD 1 F64.zero) (y.getD 2 F64.zero) (y.getD 3 F64.zero)).2.2.2⟩ := by
    show Quad.add a b = _
    have n1 : a.isNan = false := (Is.of_finite oa).not_nan
    have n2 : b.isNan = false := (Is.of_finite ob).not_nan
    have f1 : a.isInfinite = false := (Is.of_finite oa).not_inf
    have f2 : b.isInfinite = false := (Is.of_finite ob).not_inf
    have hpre : Quad.preAdd a b = none := by unfold Quad.preAdd; rw [n1, n2, f1, f2]; simp
    unfold Quad.add
    rw [hpre]
    dsimp only
    have h00 : pick [a.c0, a.c1, a.c2, a.c3] [b.c0, b.c1, b.c2, b.c3] = (t0, la0, lb0) := hp0
    rw [h00]; dsimp only
    rw [hp1]; dsimp only
    unfold renorm2
    rw [show quickTwoSum t0 t1 = ((quickTwoSum t0 t1).1, (quickTwoSum t0 t1).2) from rfl]
    dsimp only
    rw [hy]
    rfl
  rw [hval]
  exact ⟨R.i0, R.i1, R.i2, R.i3⟩

end Verif
