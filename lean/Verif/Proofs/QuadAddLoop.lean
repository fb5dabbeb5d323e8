import Verif.Proofs.QuadMerge

/-!
# The accumulation loop of `Quad` addition
-/

namespace Verif

open F64 Prim Util Quad

theorem addLoop_full (fuel : ℕ) (u v : F64) (la lb x : List F64) (h : x.length = 4) :
    addLoop fuel u v la lb x = (x, la, lb) := by
  cases fuel with
  | zero => rfl
  | succ n =>
    unfold addLoop
    rw [if_neg (by omega)]

theorem addLoop_empty {fuel : ℕ} (hf : 1 ≤ fuel) (u v : F64) (x : List F64) (h : x.length < 4) :
    addLoop fuel u v [] [] x = (if x.length < 3 then x ++ [u, v] else x ++ [u], [], []) := by
  obtain ⟨n, rfl⟩ : ∃ n, fuel = n + 1 := ⟨fuel - 1, by omega⟩
  unfold addLoop
  rw [if_pos h]
  rfl

theorem addLoop_step {fuel : ℕ} {u v t : F64} {la lb la' lb' x : List F64} (h : x.length < 4)
    (hne : ¬ (la = [] ∧ lb = [])) (hp : pick la lb = (t, la', lb')) {s y z : F64} (ha : accumulate u v t = (s, y, z)) :
    addLoop (fuel + 1) u v la lb x = addLoop fuel y z la' lb' (if F64.ne s F64.zero then x ++ [s] else x) := by
  conv => lhs; unfold addLoop
  rw [if_pos h, if_neg (by simpa [List.isEmpty_iff] using hne), hp]
  dsimp only
  rw [ha]

/-- What the loop hands to `renorm4`. -/
structure Outp (S T : ℚ) (r : List F64 × List F64 × List F64) : Prop where
  f0 : Fb (r.1.getD 0 F64.zero) (3 * S)
  f1 : Fb (r.1.getD 1 F64.zero) (22 * S / 2 ^ 53)
  f2 : Fb (r.1.getD 2 F64.zero) (58 * S / 2 ^ 106)
  f3 : Fb (r.1.getD 3 F64.zero) (25 * S / 2 ^ 106)
  la : ∀ y ∈ r.2.1, Fb y (8 * S / 2 ^ 159)
  lb : ∀ y ∈ r.2.2, Fb y (8 * S / 2 ^ 159)
  len : r.2.1.length + r.2.2.length ≤ 2
  dom : S / 4 ≤ |U (r.1.getD 0 F64.zero)| ∨
    (|U (r.1.getD 1 F64.zero)| ≤ 4 * |U (r.1.getD 0 F64.zero)| / 2 ^ 53 + 25 * S / 2 ^ 106 ∧
     |U (r.1.getD 2 F64.zero)| ≤ 4 * |U (r.1.getD 0 F64.zero)| / 2 ^ 53 + 25 * S / 2 ^ 106 ∧
     |U (r.1.getD 3 F64.zero)| ≤ 4 * |U (r.1.getD 0 F64.zero)| / 2 ^ 53 + 25 * S / 2 ^ 106)
  sum : |U (r.1.getD 0 F64.zero) + U (r.1.getD 1 F64.zero) + U (r.1.getD 2 F64.zero) + U (r.1.getD 3 F64.zero) +
    sumU r.2.1 + sumU r.2.2 - T| ≤ 25 * S / 2 ^ 159

/-- The merge, with all that is needed about the next component. -/
structure Nxt (a b : Quad) (S : ℚ) : Prop where
  oa : QOrd a
  ob : QOrd b
  sa : |U a.c0| ≤ S
  sb : |U b.c0| ≤ S
  hl : 100 * S ≤ (lim : ℚ)

theorem Nxt.nonneg {a b : Quad} {S : ℚ} (h : Nxt a b S) : 0 ≤ S := (abs_nonneg _).trans h.sa

theorem Nxt.step {a b : Quad} {S : ℚ} (h : Nxt a b S) {i j : ℕ} (m : Mg a b i j) (hne : i + j < 8) :
    ∃ t i' j', pick (rest a i) (rest b j) = (t, rest a i', rest b j') ∧ i' + j' = i + j + 1 ∧ Mg a b i' j' ∧
      t.isFinite = true ∧ ¬ (rest a i = [] ∧ rest b j = []) ∧ (2 ≤ i + j → |U t| ≤ 2 * S / 2 ^ 53) ∧
      (4 ≤ i + j → |U t| ≤ 4 * S / 2 ^ 106) ∧
      sumU (rest a i) + sumU (rest b j) = U t + sumU (rest a i') + sumU (rest b j') := by
  obtain ⟨t, i', j', h1, h2, h3, h4, h5, _, _, h6⟩ := pick_step h.oa h.ob m hne
  have hS := h.nonneg
  have hi := m.hi
  have hj := m.hj
  have bd : ∀ k, 2 * k ≤ i + j → |U t| ≤ S / 2 ^ (52 * k) := by
    intro k hk
    rcases h5 with rfl | rfl
    · exact m.head_a h.oa h.ob hS h.sa h.sb hk
    · exact m.symm.head_a h.ob h.oa hS h.sb h.sa (by omega)
  refine ⟨t, i', j', h1, h2, h3, h4, ?_, fun h => ?_, fun h => ?_, h6⟩
  · rintro ⟨ha, hb⟩
    have la := congrArg List.length ha
    have lb := congrArg List.length hb
    rw [rest_length a hi, List.length_nil] at la
    rw [rest_length b hj, List.length_nil] at lb
    omega
  · refine (bd 1 (by omega)).trans (le_of_eq ?_)
    norm_num; ring
  · refine (bd 2 (by omega)).trans (le_of_eq ?_)
    norm_num; ring

/-- What is left after six components. -/
theorem Nxt.left {a b : Quad} {S : ℚ} (h : Nxt a b S) {i j : ℕ} (m : Mg a b i j) (hn : 6 ≤ i + j) :
    (∀ y ∈ rest a i, Fb y (8 * S / 2 ^ 159)) ∧ (∀ y ∈ rest b j, Fb y (8 * S / 2 ^ 159)) ∧
      (rest a i).length + (rest b j).length ≤ 2 := by
  have e : S / 2 ^ (52 * 3) = 8 * S / 2 ^ 159 := by norm_num; ring
  have ha := m.head_a h.oa h.ob h.nonneg h.sa h.sb (k := 3) (by omega)
  have hb := m.symm.head_a h.ob h.oa h.nonneg h.sb h.sa (k := 3) (by omega)
  rw [e] at ha hb
  refine ⟨fun y hy => (mem_rest h.oa m.hi hy).mono ha, fun y hy => (mem_rest h.ob m.hj hy).mono hb, ?_⟩
  rw [rest_length a m.hi, rest_length b m.hj]
  have := m.hi
  have := m.hj
  omega

theorem exact_fb {u : F64} {K : ℚ} (f : Fb u K) : Fb u |U u| := ⟨f.fin, le_refl _⟩

theorem rest_end {q : Quad} {i j : ℕ} (hi : i ≤ 4) (hj : j ≤ 4) (h : 8 ≤ i + j) : rest q i = [] ∧ rest q j = [] :=
  ⟨rest_nil q (by omega), rest_nil q (by omega)⟩

/-- The first component dominates, or is as small as what follows. -/
def Dom (S : ℚ) (n : ℕ) (x0 u v : F64) : Prop :=
  S / 4 ≤ |U x0| ∨
    (4 ≤ n ∧ |U u| + |U v| + (8 - (n : ℚ)) * (5 * S / 2 ^ 106 + |U x0| / 2 ^ 53 / 50) ≤ 4 * |U x0| / 2 ^ 53 + 25 * S / 2 ^ 106)

def DomX (S : ℚ) (x0 y : F64) : Prop := S / 4 ≤ |U x0| ∨ |U y| ≤ 4 * |U x0| / 2 ^ 53 + 25 * S / 2 ^ 106

theorem Dom.fst {S : ℚ} {n : ℕ} {x0 u v : F64} (h : Dom S n x0 u v) (hS : 0 ≤ S) (hn : n ≤ 8) : DomX S x0 u := by
  rcases h with h | ⟨_, h⟩
  · exact .inl h
  · right
    have : 0 ≤ (8 - (n : ℚ)) * (5 * S / 2 ^ 106 + |U x0| / 2 ^ 53 / 50) := by
      have : (n : ℚ) ≤ 8 := by exact_mod_cast hn
      apply mul_nonneg <;> [linarith; positivity]
    have := abs_nonneg (U v)
    linarith

theorem Dom.snd {S : ℚ} {n : ℕ} {x0 u v : F64} (h : Dom S n x0 u v) (hS : 0 ≤ S) (hn : n ≤ 8) : DomX S x0 v := by
  have : Dom S n x0 v u := by
    rcases h with h | ⟨h4, h⟩
    · exact .inl h
    · exact .inr ⟨h4, by linarith⟩
  exact this.fst hS hn

/-- One round keeps domination. -/
theorem Dom.next {S : ℚ} {n : ℕ} {x0 u v t y z : F64} (h : Dom S n x0 u v) (hS : 0 ≤ S) (hn : n < 8)
    (ht : 4 ≤ n → |U t| ≤ 4 * S / 2 ^ 106)
    (hyz : |U y| + |U z| ≤ (|U u| + |U v| + |U t|) * (1 + 6 / 2 ^ 53)) : Dom S (n + 1) x0 y z := by
  rcases h with h | ⟨h4, h⟩
  · exact .inl h
  · right
    refine ⟨by omega, ?_⟩
    have ht := ht h4
    have h0 : 0 ≤ (8 - ((n : ℚ) + 1)) * (5 * S / 2 ^ 106 + |U x0| / 2 ^ 53 / 50) := by
      have : (n : ℚ) + 1 ≤ 8 := by exact_mod_cast hn
      apply mul_nonneg <;> [linarith; positivity]
    have := abs_nonneg (U x0)
    push_cast
    linarith

theorem DomX.of_round {S : ℚ} {n : ℕ} {x0 u v t y : F64} (h : Dom S n x0 u v) (hS : 0 ≤ S) (hn : n < 8)
    (ht : 4 ≤ n → |U t| ≤ 4 * S / 2 ^ 106)
    (hy : |U y| ≤ (|U u| + |U v| + |U t|) * (1 + 6 / 2 ^ 53)) : DomX S x0 y := by
  have hz : U F64.zero = 0 := U_zero
  have : Dom S (n + 1) x0 y F64.zero := h.next hS hn ht (by rw [hz, abs_zero, add_zero]; exact hy)
  exact this.fst hS (by omega)

end Verif
