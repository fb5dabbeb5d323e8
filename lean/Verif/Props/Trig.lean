import Verif.Proofs.TrigComb
import Verif.Props.SinCos

/-!
# C68: the accuracy of `sin`, `cos`, `sin_cos` and `tan`, and what follows for C44 and C45
-/

namespace Verif

open F64

/-- The table values and products for a nonzero `k`. -/
theorem comb_facts (P : Platform) (hP : FloatText P.toStr) {t : Double} {k : ℤ} (ht : t.Normalized) (hT : |rv t| ≤ 1 / 10)
    (hk : |k| ≤ 4) (h0 : k ≠ 0) : ∃ u v s c, Double.tableUV k = some (u, v) ∧ Double.sincosTaylor P t = some (s, c) ∧
    Prods u v s c (Real.cos (|(k:ℝ)| * (Real.pi / 16))) (Real.sin (|(k:ℝ)| * (Real.pi / 16))) (Real.sin (rv t)) (Real.cos (rv t)) ∧
    Prods (-u) (-v) s c (-Real.cos (|(k:ℝ)| * (Real.pi / 16))) (-Real.sin (|(k:ℝ)| * (Real.pi / 16))) (Real.sin (rv t))
      (Real.cos (rv t)) := by
  have hd0 := dl_pos
  have hd1 : dl ≤ 1 / 2 ^ 240 := by unfold dl; norm_num
  obtain ⟨u, v, e1, hu, hv⟩ := tableUV_ap h0 hk
  obtain ⟨s, c, e2, hs, hc⟩ := sincosTaylor_ap P hP ht hT
  have hs' := hs.mono (f := 7.82 / 2 ^ 106) (by norm_num at hT hd1 ⊢; linarith)
  refine ⟨u, v, s, c, e1, e2, ?_, ?_⟩
  · exact prods_ap hu hv hs' hc (Real.abs_cos_le_one _) (Real.abs_sin_le_one _) (Real.abs_sin_le_abs.trans hT)
      (Real.abs_cos_le_one _)
  · exact prods_ap hu.neg hv.neg hs' hc (by rw [abs_neg]; exact Real.abs_cos_le_one _)
      (by rw [abs_neg]; exact Real.abs_sin_le_one _) (Real.abs_sin_le_abs.trans hT) (Real.abs_cos_le_one _)

theorem prod_le_one {x y : ℝ} (hx : |x| ≤ 1) (hy : |y| ≤ 1) : |x * y| ≤ 1 := by
  rw [abs_mul]; exact mul_le_one₀ hx (abs_nonneg _) hy

theorem sin_core (P : Platform) (hP : FloatText P.toStr) {a t : Double} {j k : ℤ} (hpre : Double.preSin a = none)
    (hred : Double.reduce a = (j, k, t)) (ht : t.Normalized) (hT : |rv t| ≤ 1 / 10) (hk : |k| ≤ 4) :
    ∃ r, Double.sin P a = some r ∧ Ap r (sinQ j (rv t + k * (Real.pi / 16))) (100 / 2 ^ 106) ∧
      (j = 0 → k = 0 → Ap r (Real.sin (rv t)) (|rv t| * (78 / 2 ^ 106) + 30 * dl)) := by
  have hd0 := dl_pos
  have hd1 : dl ≤ 1 / 2 ^ 240 := by unfold dl; norm_num
  unfold Double.sin
  rw [hpre, hred]
  dsimp only
  by_cases h0 : k = 0
  · subst h0
    rw [if_pos rfl]
    have e : rv t + ((0:ℤ):ℝ) * (Real.pi / 16) = rv t := by push_cast; ring
    rw [e]
    obtain ⟨s, s1, s2⟩ := sinTaylor_ap ht hT
    obtain ⟨c, c1, c2⟩ := cosTaylor_ap ht hT
    have s2' := s2.mono (f := 100 / 2 ^ 106) (by norm_num at hT hd1 ⊢; linarith)
    have c2' := c2.mono (f := 100 / 2 ^ 106) (by norm_num)
    rw [s1, c1]
    unfold sinQ
    split_ifs with q1 q2 q3
    · exact ⟨_, rfl, s2', fun _ _ => s2⟩
    · exact ⟨_, rfl, c2', fun h => absurd h q1⟩
    · exact ⟨_, rfl, c2'.neg, fun h => absurd h q1⟩
    · exact ⟨_, rfl, s2'.neg, fun h => absurd h q1⟩
  · rw [if_neg h0]
    obtain ⟨u, v, s, c, e1, e2, pp, pn⟩ := comb_facts P hP ht hT hk h0
    rw [e1, e2]
    simp only [Option.bind_some, Option.map_some]
    have bU := Real.abs_cos_le_one (|(k:ℝ)| * (Real.pi / 16))
    have bV := Real.abs_sin_le_one (|(k:ℝ)| * (Real.pi / 16))
    have bS := Real.abs_sin_le_one (rv t)
    have bC := Real.abs_cos_le_one (rv t)
    have bU' : |-Real.cos (|(k:ℝ)| * (Real.pi / 16))| ≤ 1 := by rw [abs_neg]; exact bU
    have bV' : |-Real.sin (|(k:ℝ)| * (Real.pi / 16))| ≤ 1 := by rw [abs_neg]; exact bV
    refine ⟨_, rfl, ?_, fun _ h => absurd h h0⟩
    unfold sinQ
    have fin : ∀ {r : Double} {x : ℝ}, Ap r x (99.5 / 2 ^ 106) → Ap r x (100 / 2 ^ 106) := fun h => h.mono (by norm_num)
    by_cases hp : k > 0
    · rw [if_pos hp]
      have hk' : |(k:ℝ)| = k := abs_of_pos (by exact_mod_cast hp)
      rw [hk'] at pp pn bU bV bU' bV'
      have es := Real.sin_add (rv t) (k * (Real.pi / 16))
      have ec := Real.cos_add (rv t) (k * (Real.pi / 16))
      have bs := Real.abs_sin_le_one (rv t + k * (Real.pi / 16))
      have bc := Real.abs_cos_le_one (rv t + k * (Real.pi / 16))
      split_ifs with q1 q2 q3 <;> apply fin
      · exact comb_add pp.us pp.vc (by norm_num) (by rw [es]; ring) bs (prod_le_one bU bS) (prod_le_one bV bC)
      · exact comb_sub pp.uc pp.vs (by norm_num) (by rw [ec]; ring) bc (prod_le_one bU bC) (prod_le_one bV bS)
      · exact comb_add pn.uc pp.vs (by norm_num) (by rw [ec]; ring) (by rw [abs_neg]; exact bc) (prod_le_one bU' bC)
          (prod_le_one bV bS)
      · exact comb_sub pn.us pp.vc (by norm_num) (by rw [es]; ring) (by rw [abs_neg]; exact bs) (prod_le_one bU' bS)
          (prod_le_one bV bC)
    · rw [if_neg hp]
      have hneg : (k:ℝ) < 0 := by
        have : k < 0 := by omega
        exact_mod_cast this
      have hk' : |(k:ℝ)| = -k := abs_of_neg hneg
      rw [hk'] at pp pn bU bV bU' bV'
      have e : rv t + k * (Real.pi / 16) = rv t - -k * (Real.pi / 16) := by ring
      rw [e]
      have es := Real.sin_sub (rv t) (-k * (Real.pi / 16))
      have ec := Real.cos_sub (rv t) (-k * (Real.pi / 16))
      have bs := Real.abs_sin_le_one (rv t - -k * (Real.pi / 16))
      have bc := Real.abs_cos_le_one (rv t - -k * (Real.pi / 16))
      split_ifs with q1 q2 q3 <;> apply fin
      · exact comb_sub pp.us pp.vc (by norm_num) (by rw [es]; ring) bs (prod_le_one bU bS) (prod_le_one bV bC)
      · exact comb_add pp.uc pp.vs (by norm_num) (by rw [ec]; ring) bc (prod_le_one bU bC) (prod_le_one bV bS)
      · exact comb_sub pn.uc pp.vs (by norm_num) (by rw [ec]; ring) (by rw [abs_neg]; exact bc) (prod_le_one bU' bC)
          (prod_le_one bV bS)
      · exact comb_add pn.us pp.vc (by norm_num) (by rw [es]; ring) (by rw [abs_neg]; exact bs) (prod_le_one bU' bS)
          (prod_le_one bV bC)

theorem cos_core (P : Platform) (hP : FloatText P.toStr) {a t : Double} {j k : ℤ} (hpre : Double.preCos a = none)
    (hred : Double.reduce a = (j, k, t)) (ht : t.Normalized) (hT : |rv t| ≤ 1 / 10) (hk : |k| ≤ 4) :
    ∃ r, Double.cos P a = some r ∧ Ap r (cosQ j (rv t + k * (Real.pi / 16))) (100 / 2 ^ 106) := by
  have hd0 := dl_pos
  have hd1 : dl ≤ 1 / 2 ^ 240 := by unfold dl; norm_num
  unfold Double.cos
  rw [hpre, hred]
  dsimp only
  by_cases h0 : k = 0
  · subst h0
    rw [if_pos rfl]
    have e : rv t + ((0:ℤ):ℝ) * (Real.pi / 16) = rv t := by push_cast; ring
    rw [e]
    obtain ⟨s, s1, s2⟩ := sinTaylor_ap ht hT
    obtain ⟨c, c1, c2⟩ := cosTaylor_ap ht hT
    have s2' := s2.mono (f := 100 / 2 ^ 106) (by norm_num at hT hd1 ⊢; linarith)
    have c2' := c2.mono (f := 100 / 2 ^ 106) (by norm_num)
    rw [s1, c1]
    unfold cosQ
    split_ifs with q1 q2 q3
    · exact ⟨_, rfl, c2'⟩
    · exact ⟨_, rfl, s2'.neg⟩
    · exact ⟨_, rfl, s2'⟩
    · exact ⟨_, rfl, c2'.neg⟩
  · rw [if_neg h0]
    obtain ⟨u, v, s, c, e1, e2, pp, pn⟩ := comb_facts P hP ht hT hk h0
    rw [e1, e2]
    simp only [Option.bind_some, Option.map_some]
    have bU := Real.abs_cos_le_one (|(k:ℝ)| * (Real.pi / 16))
    have bV := Real.abs_sin_le_one (|(k:ℝ)| * (Real.pi / 16))
    have bS := Real.abs_sin_le_one (rv t)
    have bC := Real.abs_cos_le_one (rv t)
    have bU' : |-Real.cos (|(k:ℝ)| * (Real.pi / 16))| ≤ 1 := by rw [abs_neg]; exact bU
    refine ⟨_, rfl, ?_⟩
    unfold cosQ
    have fin : ∀ {r : Double} {x : ℝ}, Ap r x (99.5 / 2 ^ 106) → Ap r x (100 / 2 ^ 106) := fun h => h.mono (by norm_num)
    by_cases hp : k > 0
    · rw [if_pos hp]
      have hk' : |(k:ℝ)| = k := abs_of_pos (by exact_mod_cast hp)
      rw [hk'] at pp pn bU bV bU'
      have es := Real.sin_add (rv t) (k * (Real.pi / 16))
      have ec := Real.cos_add (rv t) (k * (Real.pi / 16))
      have bs := Real.abs_sin_le_one (rv t + k * (Real.pi / 16))
      have bc := Real.abs_cos_le_one (rv t + k * (Real.pi / 16))
      split_ifs with q1 q2 q3 <;> apply fin
      · exact comb_sub pp.uc pp.vs (by norm_num) (by rw [ec]; ring) bc (prod_le_one bU bC) (prod_le_one bV bS)
      · exact comb_sub pn.us pp.vc (by norm_num) (by rw [es]; ring) (by rw [abs_neg]; exact bs) (prod_le_one bU' bS)
          (prod_le_one bV bC)
      · exact comb_add pp.us pp.vc (by norm_num) (by rw [es]; ring) bs (prod_le_one bU bS) (prod_le_one bV bC)
      · exact comb_add pn.uc pp.vs (by norm_num) (by rw [ec]; ring) (by rw [abs_neg]; exact bc) (prod_le_one bU' bC)
          (prod_le_one bV bS)
    · rw [if_neg hp]
      have hneg : (k:ℝ) < 0 := by
        have : k < 0 := by omega
        exact_mod_cast this
      have hk' : |(k:ℝ)| = -k := abs_of_neg hneg
      rw [hk'] at pp pn bU bV bU'
      have e : rv t + k * (Real.pi / 16) = rv t - -k * (Real.pi / 16) := by ring
      rw [e]
      have es := Real.sin_sub (rv t) (-k * (Real.pi / 16))
      have ec := Real.cos_sub (rv t) (-k * (Real.pi / 16))
      have bs := Real.abs_sin_le_one (rv t - -k * (Real.pi / 16))
      have bc := Real.abs_cos_le_one (rv t - -k * (Real.pi / 16))
      split_ifs with q1 q2 q3 <;> apply fin
      · exact comb_add pp.uc pp.vs (by norm_num) (by rw [ec]; ring) bc (prod_le_one bU bC) (prod_le_one bV bS)
      · exact comb_sub pp.vc pp.us (by norm_num) (by rw [es]; ring) (by rw [abs_neg]; exact bs) (prod_le_one bV bC)
          (prod_le_one bU bS)
      · exact comb_sub pp.us pp.vc (by norm_num) (by rw [es]; ring) bs (prod_le_one bU bS) (prod_le_one bV bC)
      · exact comb_sub pn.uc pp.vs (by norm_num) (by rw [ec]; ring) (by rw [abs_neg]; exact bc) (prod_le_one bU' bC)
          (prod_le_one bV bS)

theorem quadrant_ap {s c : Double} {X e : ℝ} (j : ℤ) (hs : Ap s (Real.sin X) e) (hc : Ap c (Real.cos X) e) :
    Ap (Double.quadrant j s c).1 (sinQ j X) e ∧ Ap (Double.quadrant j s c).2 (cosQ j X) e := by
  unfold Double.quadrant sinQ cosQ
  split_ifs
  · exact ⟨hs, hc⟩
  · exact ⟨hc, hs.neg⟩
  · exact ⟨hc.neg, hs⟩
  · exact ⟨hs.neg, hc.neg⟩

theorem sinCos_core (P : Platform) (hP : FloatText P.toStr) {a t : Double} {j k : ℤ} (hpre : Double.preSinCos a = none)
    (hred : Double.reduce a = (j, k, t)) (ht : t.Normalized) (hT : |rv t| ≤ 1 / 10) (hk : |k| ≤ 4) :
    ∃ r, Double.sinCos P a = some r ∧ Ap r.1 (sinQ j (rv t + k * (Real.pi / 16))) (100 / 2 ^ 106) ∧
      Ap r.2 (cosQ j (rv t + k * (Real.pi / 16))) (100 / 2 ^ 106) ∧
      (j = 0 → k = 0 → Ap r.1 (Real.sin (rv t)) (|rv t| * (78 / 2 ^ 106) + 30 * dl)) := by
  have hd0 := dl_pos
  have hd1 : dl ≤ 1 / 2 ^ 240 := by unfold dl; norm_num
  unfold Double.sinCos
  rw [hpre, hred]
  dsimp only
  by_cases h0 : k = 0
  · subst h0
    obtain ⟨s, c, e2, hs, hc⟩ := sincosTaylor_ap P hP ht hT
    rw [e2]
    simp only [Option.bind_some, if_true]
    have e : rv t + ((0:ℤ):ℝ) * (Real.pi / 16) = rv t := by push_cast; ring
    rw [e]
    have s2' := hs.mono (f := 100 / 2 ^ 106) (by norm_num at hT hd1 ⊢; linarith)
    have c2' := hc.mono (f := 100 / 2 ^ 106) (by norm_num)
    have q := quadrant_ap j s2' c2'
    refine ⟨_, rfl, q.1, q.2, ?_⟩
    rintro rfl -
    exact hs
  · obtain ⟨u, v, s, c, e1, e2, pp, pn⟩ := comb_facts P hP ht hT hk h0
    rw [e1, e2]
    simp only [Option.bind_some, Option.map_some, if_neg h0]
    have bU := Real.abs_cos_le_one (|(k:ℝ)| * (Real.pi / 16))
    have bV := Real.abs_sin_le_one (|(k:ℝ)| * (Real.pi / 16))
    have bS := Real.abs_sin_le_one (rv t)
    have bC := Real.abs_cos_le_one (rv t)
    have fin : ∀ {r : Double} {x : ℝ}, Ap r x (99.5 / 2 ^ 106) → Ap r x (100 / 2 ^ 106) := fun h => h.mono (by norm_num)
    by_cases hp : k > 0
    · rw [if_pos hp]
      have hk' : |(k:ℝ)| = k := abs_of_pos (by exact_mod_cast hp)
      rw [hk'] at pp pn bU bV
      have es := Real.sin_add (rv t) (k * (Real.pi / 16))
      have ec := Real.cos_add (rv t) (k * (Real.pi / 16))
      have bs := Real.abs_sin_le_one (rv t + k * (Real.pi / 16))
      have bc := Real.abs_cos_le_one (rv t + k * (Real.pi / 16))
      have q := quadrant_ap j
        (fin (comb_add pp.us pp.vc (by norm_num) (by rw [es]; ring) bs (prod_le_one bU bS) (prod_le_one bV bC)))
        (fin (comb_sub pp.uc pp.vs (by norm_num) (by rw [ec]; ring) bc (prod_le_one bU bC) (prod_le_one bV bS)))
      exact ⟨_, rfl, q.1, q.2, fun _ h => absurd h h0⟩
    · rw [if_neg hp]
      have hneg : (k:ℝ) < 0 := by
        have : k < 0 := by omega
        exact_mod_cast this
      have hk' : |(k:ℝ)| = -k := abs_of_neg hneg
      rw [hk'] at pp pn bU bV
      have e : rv t + k * (Real.pi / 16) = rv t - -k * (Real.pi / 16) := by ring
      rw [e]
      have es := Real.sin_sub (rv t) (-k * (Real.pi / 16))
      have ec := Real.cos_sub (rv t) (-k * (Real.pi / 16))
      have bs := Real.abs_sin_le_one (rv t - -k * (Real.pi / 16))
      have bc := Real.abs_cos_le_one (rv t - -k * (Real.pi / 16))
      have q := quadrant_ap j
        (fin (comb_sub pp.us pp.vc (by norm_num) (by rw [es]; ring) bs (prod_le_one bU bS) (prod_le_one bV bC)))
        (fin (comb_add pp.uc pp.vs (by norm_num) (by rw [ec]; ring) bc (prod_le_one bU bC) (prod_le_one bV bS)))
      exact ⟨_, rfl, q.1, q.2, fun _ h => absurd h h0⟩

theorem abs_val_rv {a : Double} : |(a.val : ℝ)| = |rv a| := rfl

theorem rv_zero_isZero {a : Double} (ha : a.Normalized) (h : rv a = 0) : a.isZero = true := by
  have h1 := fr_hi_two ha
  rw [h, abs_zero, mul_zero, abs_nonpos_iff] at h1
  have i := Is.of_finite ha.1.1
  unfold Double.isZero
  rw [i.eq_iff is_zero]
  rw [fr_is i, div_eq_zero_iff] at h1
  rcases h1 with h1 | h1
  · exact_mod_cast h1
  · exact absurd h1 (by exact_mod_cast one'_pos.ne')

/-- Everything about the three functions on the range, in one place. -/
theorem trig_facts (P : Platform) (hP : FloatText P.toStr) {a : Double} (ha : a.Normalized)
    (h2 : |rv a| ≤ 2 ^ 45) : ∃ s c p, Double.sin P a = some s ∧ Double.cos P a = some c ∧ Double.sinCos P a = some p ∧
      Ap s (Real.sin (rv a)) ((|rv a| + 29) / 2 ^ 102) ∧ Ap c (Real.cos (rv a)) ((|rv a| + 29) / 2 ^ 102) ∧
      Ap p.1 (Real.sin (rv a)) ((|rv a| + 29) / 2 ^ 102) ∧ Ap p.2 (Real.cos (rv a)) ((|rv a| + 29) / 2 ^ 102) ∧
      (|rv a| ≤ 9 / 100 → Ap s (Real.sin (rv a)) (|rv a| * (104 / 2 ^ 106) + 40 * dl) ∧
        Ap p.1 (Real.sin (rv a)) (|rv a| * (104 / 2 ^ 106) + 40 * dl) ∧ Ap c (Real.cos (rv a)) (103 / 2 ^ 106) ∧
        Ap p.2 (Real.cos (rv a)) (103 / 2 ^ 106)) := by
  have hd0 := dl_pos
  have hd1 : dl ≤ 1 / 2 ^ 240 := by unfold dl; norm_num
  by_cases hne : rv a = 0
  · have hz := rv_zero_isZero ha hne
    refine ⟨a, Double.ONE, (Double.ZERO, Double.ONE), ?_, ?_, ?_, ?_⟩
    · unfold Double.sin Double.preSin; rw [if_pos hz]
    · unfold Double.cos Double.preCos; rw [if_pos hz]
    · unfold Double.sinCos Double.preSinCos; rw [if_pos hz]
    have z0 : Ap a 0 0 := by have := Ap.exact ha; rwa [hne] at this
    have z1 : Ap Double.ZERO 0 0 := by
      have h := Ap.exact (show Double.ZERO.Normalized by decide +kernel)
      have e : rv Double.ZERO = 0 := by
        unfold rv
        rw [show Double.ZERO.val = 0 by decide +kernel, Rat.cast_zero]
      rwa [e] at h
    have z2 : Ap Double.ONE 1 0 := ap_one
    rw [hne, Real.sin_zero, Real.cos_zero, abs_zero]
    refine ⟨z0.mono (by positivity), z2.mono (by positivity), z1.mono (by positivity), z2.mono (by positivity), fun _ =>
      ⟨z0.mono (by linarith), z1.mono (by linarith), z2.mono (by positivity), z2.mono (by positivity)⟩⟩
  obtain ⟨-, hz, -⟩ := class_of ha hne
  have hfin : a.isFinite = true := ha.1.1
  obtain ⟨Z, Q, K, t, hr, hQ, hK, ht, hT', hsm⟩ := reduce_spec ha h2
  have hT : |rv t| ≤ 1 / 10 := hT'.trans (by norm_num)
  have hA0 := abs_nonneg (rv a)
  have eA : rv a = (rv a - Z * (2 * Real.pi) - Q * (Real.pi / 2) - K * (Real.pi / 16) + K * (Real.pi / 16)) +
      Q * (Real.pi / 2) + Z * (2 * Real.pi) := by ring
  have sq := sin_quad (rv a - Z * (2 * Real.pi) - Q * (Real.pi / 2) - K * (Real.pi / 16) + K * (Real.pi / 16)) Z Q hQ
  rw [← eA] at sq
  have lp := sinQ_lip Q (rv t + K * (Real.pi / 16))
    (rv a - Z * (2 * Real.pi) - Q * (Real.pi / 2) - K * (Real.pi / 16) + K * (Real.pi / 16))
  rw [← sq.1, ← sq.2, add_sub_add_right_eq_sub] at lp
  have ht2 := ht.2
  obtain ⟨s, s1, s2, s3⟩ := sin_core P hP (a := a) (by unfold Double.preSin; simp [hz, hfin]) hr ht.1 hT hK
  obtain ⟨c, c1, c2⟩ := cos_core P hP (a := a) (by unfold Double.preCos; simp [hz, hfin]) hr ht.1 hT hK
  obtain ⟨p, p1, p2, p3, p4⟩ := sinCos_core P hP (a := a) (by unfold Double.preSinCos; simp [hz, hfin]) hr ht.1 hT hK
  have fin : ∀ {r : Double} {x y : ℝ}, Ap r x (100 / 2 ^ 106) → |x - y| ≤ (14 * |rv a| + 350) / 2 ^ 106 →
      Ap r y ((|rv a| + 29) / 2 ^ 102) := by
    intro r x y h hxy
    refine (h.move hxy).mono ?_
    norm_num
    linarith
  refine ⟨s, c, p, s1, c1, p1, fin s2 (lp.1.trans ht2), fin c2 (lp.2.trans ht2), fin p2 (lp.1.trans ht2),
    fin p3 (lp.2.trans ht2), ?_⟩
  intro hs
  obtain ⟨rfl, rfl, rfl, h5⟩ := hsm hs
  have lip : |Real.sin (rv t) - Real.sin (rv a)| ≤ |rv a| * (25 / 2 ^ 106) + 5 * dl := (Real.abs_sin_sub_sin_le _ _).trans h5
  have e3 : rv t + ((0:ℤ):ℝ) * (Real.pi / 16) = rv t := by push_cast; ring
  have lic : |cosQ 0 (rv t + ((0:ℤ):ℝ) * (Real.pi / 16)) - Real.cos (rv a)| ≤ |rv a| * (25 / 2 ^ 106) + 5 * dl := by
    rw [e3]
    unfold cosQ
    rw [if_pos rfl]
    exact (Real.abs_cos_sub_cos_le _ _).trans h5
  have tA : |rv t| ≤ |rv a| + (|rv a| * (25 / 2 ^ 106) + 5 * dl) := by
    have := abs_add_le (rv t - rv a) (rv a)
    rw [sub_add_cancel] at this
    linarith
  have b1 : |rv t| * (78 / 2 ^ 106) + 30 * dl + (|rv a| * (25 / 2 ^ 106) + 5 * dl) ≤ |rv a| * (104 / 2 ^ 106) + 40 * dl := by
    norm_num at tA ⊢
    linarith
  have b2 : 100 / 2 ^ 106 + (|rv a| * (25 / 2 ^ 106) + 5 * dl) ≤ 103 / 2 ^ 106 := by
    norm_num at hs hd1 ⊢
    linarith
  exact ⟨((s3 rfl rfl).move lip).mono b1, ((p4 rfl rfl).move lip).mono b1, (c2.move lic).mono b2, (p3.move lic).mono b2⟩

theorem range_rv {a : Double} (h2 : |a.val| ≤ 2 ^ 45) : |rv a| ≤ 2 ^ 45 := by
  unfold rv; exact_mod_cast h2

/-- **C68.** The sine of every normalized Double of magnitude at most `2^45` is a normalized Double within
`(|a| + 29) 2^-102` of the real sine. -/
theorem C68_sin (P : Platform) (hP : FloatText P.toStr) (a : Double) (ha : a.Normalized)
    (h2 : |a.val| ≤ 2 ^ 45) :
    ∃ r, Double.sin P a = some r ∧ r.Normalized ∧
      |(r.val : ℝ) - Real.sin (a.val : ℝ)| ≤ (|(a.val : ℝ)| + 29) / 2 ^ 102 := by
  have g2 := range_rv h2
  obtain ⟨s, c, p, s1, c1, p1, s2, -⟩ := trig_facts P hP ha g2
  exact ⟨s, s1, s2.1, s2.2⟩

/-- **C68.** The same for the cosine. -/
theorem C68_cos (P : Platform) (hP : FloatText P.toStr) (a : Double) (ha : a.Normalized)
    (h2 : |a.val| ≤ 2 ^ 45) :
    ∃ r, Double.cos P a = some r ∧ r.Normalized ∧
      |(r.val : ℝ) - Real.cos (a.val : ℝ)| ≤ (|(a.val : ℝ)| + 29) / 2 ^ 102 := by
  have g2 := range_rv h2
  obtain ⟨s, c, p, s1, c1, p1, -, c2, -⟩ := trig_facts P hP ha g2
  exact ⟨c, c1, c2.1, c2.2⟩

/-- **C68.** The same for both results of `sin_cos`. -/
theorem C68_sin_cos (P : Platform) (hP : FloatText P.toStr) (a : Double) (ha : a.Normalized)
    (h2 : |a.val| ≤ 2 ^ 45) :
    ∃ s c, Double.sinCos P a = some (s, c) ∧ s.Normalized ∧ c.Normalized ∧
      |(s.val : ℝ) - Real.sin (a.val : ℝ)| ≤ (|(a.val : ℝ)| + 29) / 2 ^ 102 ∧
      |(c.val : ℝ) - Real.cos (a.val : ℝ)| ≤ (|(a.val : ℝ)| + 29) / 2 ^ 102 := by
  have g2 := range_rv h2
  obtain ⟨s, c, p, s1, c1, p1, -, -, p2, p3, -⟩ := trig_facts P hP ha g2
  exact ⟨p.1, p.2, p1, p2.1, p3.1, p2.2, p3.2⟩

/-- For a small argument the sine is close to the argument. -/
theorem sin_small {A : ℝ} (h : |A| ≤ 9 / 100) : 99 / 100 * |A| ≤ |Real.sin A| := by
  have key : ∀ x : ℝ, 0 ≤ x → x ≤ 9 / 100 → 99 / 100 * x ≤ Real.sin x := by
    intro x h0 h1
    rcases eq_or_lt_of_le h0 with rfl | hp
    · simp
    · have := Real.sin_gt_sub_cube hp
      have : x ^ 3 ≤ x * (9 / 100) ^ 2 := by
        rw [show x ^ 3 = x * x ^ 2 by ring]
        exact mul_le_mul_of_nonneg_left (pow_le_pow_left₀ h0 h1 2) h0
      norm_num at this
      linarith
  rcases le_total 0 A with h0 | h0
  · rw [abs_of_nonneg h0] at h ⊢
    exact (key A h0 h).trans (le_abs_self _)
  · rw [abs_of_nonpos h0] at h ⊢
    have := key (-A) (by linarith) h
    rw [Real.sin_neg] at this
    exact this.trans (neg_le_abs _)

theorem rel_small {A e : ℝ} (h : |A| ≤ 9 / 100) (h3 : 1 ≤ |A| * 2 ^ 130) (he : e ≤ |A| * (104 / 2 ^ 106) + 40 * dl) :
    e ≤ |Real.sin A| / 2 ^ 99 := by
  have := sin_small h
  refine he.trans ?_
  unfold dl
  norm_num at h3 this ⊢
  linarith

/-- **C68.** Near zero the sine has a small relative error. -/
theorem C68_sin_small (P : Platform) (hP : FloatText P.toStr) (a : Double) (ha : a.Normalized)
    (h1 : 1 ≤ |a.val| * 2 ^ 130) (h2 : |a.val| ≤ 9 / 100) :
    ∃ r p, Double.sin P a = some r ∧ Double.sinCos P a = some p ∧
      |(r.val : ℝ) - Real.sin (a.val : ℝ)| ≤ |Real.sin (a.val : ℝ)| / 2 ^ 99 ∧
      |(p.1.val : ℝ) - Real.sin (a.val : ℝ)| ≤ |Real.sin (a.val : ℝ)| / 2 ^ 99 := by
  have g2 := range_rv (a := a) (h2.trans (by norm_num))
  have h2' : |rv a| ≤ 9 / 100 := by unfold rv; have := (Rat.cast_le (K := ℝ)).mpr h2; push_cast at this; exact this
  have h1' : 1 ≤ |rv a| * 2 ^ 130 := by unfold rv; have := (Rat.cast_le (K := ℝ)).mpr h1; push_cast at this; exact this
  obtain ⟨s, c, p, s1, c1, p1, -, -, -, -, sm⟩ := trig_facts P hP ha g2
  obtain ⟨m1, m2, -⟩ := sm h2'
  exact ⟨s, p, s1, p1, rel_small h2' h1' m1.2, rel_small h2' h1' m2.2⟩

/-- Near zero (relative accuracy), and at the constant `E` (absolute accuracy). -/
example (P : Platform) (h : P.toStr = text17) : ∃ r, Double.sin P Double.E = some r ∧ r.Normalized ∧
    |(r.val : ℝ) - Real.sin ((Double.E.val : ℚ) : ℝ)| ≤ (|((Double.E.val : ℚ) : ℝ)| + 29) / 2 ^ 102 :=
  C68_sin P (h ▸ text17_ok) _ (by decide +kernel) (by decide +kernel)

example (P : Platform) (h : P.toStr = text17) : ∃ r p, Double.sin P Double.EPSILON = some r ∧
    Double.sinCos P Double.EPSILON = some p ∧
    |(r.val : ℝ) - Real.sin ((Double.EPSILON.val : ℚ) : ℝ)| ≤ |Real.sin ((Double.EPSILON.val : ℚ) : ℝ)| / 2 ^ 99 ∧
    |(p.1.val : ℝ) - Real.sin ((Double.EPSILON.val : ℚ) : ℝ)| ≤ |Real.sin ((Double.EPSILON.val : ℚ) : ℝ)| / 2 ^ 99 :=
  C68_sin_small P (h ▸ text17_ok) _ (by decide +kernel) (by decide +kernel) (by decide +kernel)

/-- **C68.** The tangent, as long as neither the sine nor the cosine is of the size of their errors. -/
theorem C68_tan (P : Platform) (hP : FloatText P.toStr) (a : Double) (ha : a.Normalized)
    (h2 : |a.val| ≤ 2 ^ 45)
    (h3 : 2 * ((|(a.val : ℝ)| + 29) / 2 ^ 102) ≤ |Real.sin (a.val : ℝ)|)
    (h4 : 2 * ((|(a.val : ℝ)| + 29) / 2 ^ 102) ≤ |Real.cos (a.val : ℝ)|) :
    ∃ r, Double.tan P a = some r ∧ r.Normalized ∧
      |(r.val : ℝ) - Real.tan (a.val : ℝ)|
        ≤ 3 * ((|(a.val : ℝ)| + 29) / 2 ^ 102) * (1 + |Real.tan (a.val : ℝ)|) / |Real.cos (a.val : ℝ)| := by
  have g2 := range_rv h2
  obtain ⟨s, c, p, s1, c1, p1, -, -, p2, p3, -⟩ := trig_facts P hP ha g2
  change 2 * ((|rv a| + 29) / 2 ^ 102) ≤ |Real.sin (rv a)| at h3
  change 2 * ((|rv a| + 29) / 2 ^ 102) ≤ |Real.cos (rv a)| at h4
  change ∃ r, Double.tan P a = some r ∧ r.Normalized ∧ |rv r - Real.tan (rv a)|
        ≤ 3 * ((|rv a| + 29) / 2 ^ 102) * (1 + |Real.tan (rv a)|) / |Real.cos (rv a)|
  have hE : 29 / 2 ^ 102 ≤ (|rv a| + 29) / 2 ^ 102 := by
    apply div_le_div_of_nonneg_right _ (by positivity)
    linarith [abs_nonneg (rv a)]
  have hE2 : (|rv a| + 29) / 2 ^ 102 ≤ 1 := by norm_num at g2 ⊢; linarith
  have bs := Real.abs_sin_le_one (rv a)
  have bc := Real.abs_cos_le_one (rv a)
  rw [Real.tan_eq_sin_div_cos]
  generalize (|rv a| + 29) / 2 ^ 102 = E at *
  generalize Real.sin (rv a) = S at *
  generalize Real.cos (rv a) = C at *
  have hC : 0 < |C| := lt_of_lt_of_le (by norm_num at hE ⊢; linarith) h4
  have d := p2.div p3 (Y := |C| / 2) (g := 3 * E * (1 + |S / C|) / |C|) (by norm_num at hE ⊢; linarith)
    (by norm_num; linarith) (by norm_num at hE ⊢; linarith) (by linarith) (by norm_num; linarith) (by
      have e1 : (E + |S / C| * E) / (|C| / 2) = 2 * E * (1 + |S / C|) / |C| := by field_simp
      rw [e1]
      have e2 : 3 * E * (1 + |S / C|) / |C| = 2 * E * (1 + |S / C|) / |C| + E * (1 + |S / C|) / |C| := by ring
      rw [e2]
      refine add_le_add le_rfl ?_
      have t0 := abs_nonneg (S / C)
      have hE0 : 0 < E := by norm_num at hE; linarith
      have e3 : |S / C| ≤ (1 + |S / C|) / |C| := by
        rw [le_div_iff₀ hC]
        calc |S / C| * |C| ≤ |S / C| * 1 := mul_le_mul_of_nonneg_left bc t0
          _ ≤ _ := by linarith
      have e4 : 2 * E * (1 + |S / C|) / |C| ≤ 2 * ((1 + |S / C|) / |C|) := by
        rw [mul_div_assoc]
        exact mul_le_mul_of_nonneg_right (by linarith) (by positivity)
      rw [div_le_iff₀ (by positivity)]
      have e5 : E * (1 + |S / C|) / |C| * 2 ^ 102 = (E * 2 ^ 102) * ((1 + |S / C|) / |C|) := by ring
      rw [e5]
      have e6 : 3 ≤ E * 2 ^ 102 := by norm_num at hE ⊢; linarith
      calc |S / C| + 2 * E * (1 + |S / C|) / |C| ≤ 3 * ((1 + |S / C|) / |C|) := by linarith
        _ ≤ _ := mul_le_mul_of_nonneg_right e6 (by positivity))
  refine ⟨p.1 / p.2, ?_, d.1, d.2⟩
  unfold Double.tan
  rw [p1]
  rfl

/-- **C68.** Near zero the tangent has a small relative error. -/
theorem C68_tan_small (P : Platform) (hP : FloatText P.toStr) (a : Double) (ha : a.Normalized)
    (h1 : 1 ≤ |a.val| * 2 ^ 115) (h2 : |a.val| ≤ 9 / 100) :
    ∃ r, Double.tan P a = some r ∧ r.Normalized ∧
      |(r.val : ℝ) - Real.tan (a.val : ℝ)| ≤ |Real.tan (a.val : ℝ)| / 2 ^ 98 := by
  have g2 := range_rv (a := a) (h2.trans (by norm_num))
  have h2' : |rv a| ≤ 9 / 100 := by unfold rv; have := (Rat.cast_le (K := ℝ)).mpr h2; push_cast at this; exact this
  have h1' : 1 ≤ |rv a| * 2 ^ 115 := by unfold rv; have := (Rat.cast_le (K := ℝ)).mpr h1; push_cast at this; exact this
  obtain ⟨s, c, p, s1, c1, p1, -, -, -, -, sm⟩ := trig_facts P hP ha g2
  clear g2
  obtain ⟨-, m2, -, m4⟩ := sm h2'
  have hs := sin_small h2'
  have bs : |Real.sin (rv a)| ≤ |rv a| := Real.abs_sin_le_abs
  have bc := Real.abs_cos_le_one (rv a)
  have hc : 0.99 ≤ |Real.cos (rv a)| := by
    have h := Real.one_sub_sq_div_two_le_cos (x := rv a)
    have h5 : rv a ^ 2 ≤ (9 / 100) ^ 2 := by rw [← sq_abs]; exact pow_le_pow_left₀ (abs_nonneg _) h2' 2
    refine le_trans ?_ (le_abs_self _)
    norm_num at h5 ⊢; linarith
  change ∃ r, Double.tan P a = some r ∧ r.Normalized ∧ |rv r - Real.tan (rv a)| ≤ |Real.tan (rv a)| / 2 ^ 98
  rw [Real.tan_eq_sin_div_cos]
  have he : |rv a| * (104 / 2 ^ 106) + 40 * dl ≤ |Real.sin (rv a)| * (106 / 2 ^ 106) := by
    unfold dl; norm_num at h1' hs ⊢; linarith
  have m2' := m2.mono he
  have hs0 : 1 / 2 ^ 116 ≤ |Real.sin (rv a)| := by norm_num at h1' hs ⊢; linarith
  generalize Real.sin (rv a) = S at *
  generalize Real.cos (rv a) = C at *
  have hSC : |S| ≤ |S / C| := by
    rw [abs_div, le_div_iff₀ (by linarith)]
    exact mul_le_of_le_one_right (abs_nonneg _) bc
  have d := m2'.div m4 (Y := 0.98) (g := |S / C| / 2 ^ 98) (by norm_num at hs0 ⊢; linarith) (by norm_num; linarith)
    (by norm_num) (by norm_num at hc ⊢; linarith) (by norm_num; linarith) (by norm_num at hSC ⊢; linarith)
  refine ⟨p.1 / p.2, ?_, d.1, d.2⟩
  unfold Double.tan
  rw [p1]
  rfl

example (P : Platform) (h : P.toStr = text17) : ∃ r, Double.tan P Double.EPSILON = some r ∧ r.Normalized ∧
    |(r.val : ℝ) - Real.tan ((Double.EPSILON.val : ℚ) : ℝ)| ≤ |Real.tan ((Double.EPSILON.val : ℚ) : ℝ)| / 2 ^ 98 :=
  C68_tan_small P (h ▸ text17_ok) _ (by decide +kernel) (by decide +kernel) (by decide +kernel)

/-- **C44.** No table is indexed out of range for arguments of magnitude at most `2^45`: the four functions return.
(The claim for all finite arguments is false, see `C44_refuted`.) -/
theorem C44_total_partial (P : Platform) (hP : FloatText P.toStr) (a : Double) (ha : a.Normalized)
    (h2 : |a.val| ≤ 2 ^ 45) :
    (Double.sin P a).isSome ∧ (Double.cos P a).isSome ∧ (Double.sinCos P a).isSome ∧ (Double.tan P a).isSome := by
  have g2 := range_rv h2
  obtain ⟨s, c, p, s1, c1, p1, -⟩ := trig_facts P hP ha g2
  rw [s1, c1, p1]
  unfold Double.tan
  rw [p1]
  exact ⟨rfl, rfl, rfl, rfl⟩

/-- The Double `7e85`. -/
def trigBad : Double := ⟨F64.ofDec false 7 85, F64.zero⟩

/-- **C44 is false in general**: at `7e85` the reduction leaves a huge remainder, `k` saturates at the smallest `i32` and its
absolute value overflows, so `sin` and `cos` panic on every platform. -/
theorem C44_refuted (P : Platform) : trigBad.Normalized ∧ Double.sin P trigBad = none ∧ Double.cos P trigBad = none := by
  have hr : (Double.reduce trigBad).1 = 2147483647 ∧ (Double.reduce trigBad).2.1 = -2147483648 := by decide +kernel
  refine ⟨by decide +kernel, ?_, ?_⟩
  · have h0 : Double.preSin trigBad = none := by decide +kernel
    unfold Double.sin
    rw [h0]
    generalize Double.reduce trigBad = d at hr
    obtain ⟨j, k, t⟩ := d
    obtain ⟨rfl, rfl⟩ := hr
    rfl
  · have h0 : Double.preCos trigBad = none := by decide +kernel
    unfold Double.cos
    rw [h0]
    generalize Double.reduce trigBad = d at hr
    obtain ⟨j, k, t⟩ := d
    obtain ⟨rfl, rfl⟩ := hr
    rfl

theorem two_bound {d : Double} {x e : ℝ} (h : Ap d x e) (hx : |x| ≤ 1) (he : e ≤ 1) :
    |d.hi.toRat| ≤ 4 ∧ |d.lo.toRat| ≤ 4 := by
  have h1 := h.abs_le
  have h2 := fr_hi_two h.1
  have h3 := rv_sub_hi h.1
  have e1 : |fr d.hi| ≤ 4 := by linarith
  obtain ⟨m, l, i, nn⟩ := h.1.norm2
  have fl : fr d.lo = rv d - fr d.hi := by
    rw [fr_is i.1, fr_is i.2]; unfold rv; rw [i.val]; push_cast; ring
  have e2 : |fr d.lo| ≤ 4 := by
    rw [fl]
    refine h3.trans ?_
    rw [div_le_iff₀ (by positivity)]
    norm_num; linarith
  rw [fr_toRat] at e1 e2
  exact ⟨by exact_mod_cast e1, by exact_mod_cast e2⟩

/-- **C45.** For every argument of magnitude at most `2^45` which is further than a tenth from all multiples of
`π/2`, `sin_cos` returns exactly what `sin` and `cos` return. -/
theorem C45_same (P : Platform) (hP : FloatText P.toStr) (a : Double) (ha : a.Normalized)
    (h2 : |a.val| ≤ 2 ^ 45)
    (h3 : ∀ n : ℤ, 1 / 10 ≤ |(a.val : ℝ) - n * (Real.pi / 2)|) :
    ∃ s c s' c', Double.sinCos P a = some (s, c) ∧ Double.sin P a = some s' ∧ Double.cos P a = some c' ∧
      SameDouble s' s ∧ SameDouble c' c := by
  have g2 := range_rv h2
  have hne : rv a ≠ 0 := by
    intro hc
    have := h3 0
    change 1 / 10 ≤ |rv a - ((0:ℤ):ℝ) * (Real.pi / 2)| at this
    rw [hc] at this
    norm_num at this
  obtain ⟨-, hz, -⟩ := class_of ha hne
  obtain ⟨s, c, p, s1, c1, p1, -⟩ := trig_facts P hP ha g2
  obtain ⟨Z, Q, K, t, hr, hQ, hK, ht, hT, hsm⟩ := reduce_spec ha g2
  have hK0 : K ≠ 0 := by
    rintro rfl
    have h4 := h3 (4 * Z + Q)
    change 1 / 10 ≤ |rv a - ((4 * Z + Q : ℤ) : ℝ) * (Real.pi / 2)| at h4
    have e : rv a - ((4 * Z + Q : ℤ) : ℝ) * (Real.pi / 2)
        = rv a - Z * (2 * Real.pi) - Q * (Real.pi / 2) - ((0:ℤ):ℝ) * (Real.pi / 16) := by push_cast; ring
    rw [e] at h4
    have h5 := ht.2
    generalize rv a - Z * (2 * Real.pi) - Q * (Real.pi / 2) - ((0:ℤ):ℝ) * (Real.pi / 16) = Y at h4 h5
    have h6 := abs_sub_abs_le_abs_sub Y (rv t)
    rw [abs_sub_comm Y (rv t)] at h6
    norm_num at h4 h5 h6 g2 hT
    linarith
  have hfin : a.isFinite = true := ha.1.1
  have tab := C45_table P a Q K t hr hK0 hz hfin (by
    intro u v s' c' hu hs'
    obtain ⟨u2, v2, s2, c2, e1, e2, pp, -⟩ := comb_facts P hP ht.1 (hT.trans (by norm_num)) hK hK0
    rw [e1] at hu
    rw [e2] at hs'
    cases hu
    cases hs'
    have b1 := two_bound pp.us (prod_le_one (Real.abs_cos_le_one _) (Real.abs_sin_le_one _)) (by norm_num)
    have b2 := two_bound pp.vc (prod_le_one (Real.abs_sin_le_one _) (Real.abs_cos_le_one _)) (by norm_num)
    have big : (8:ℚ) ≤ 3 * 2 ^ 1022 := by
      calc (8:ℚ) ≤ 3 * 2 ^ 3 := by norm_num
        _ ≤ 3 * 2 ^ 1022 := mul_le_mul_of_nonneg_left (pow_le_pow_right₀ (by norm_num) (by norm_num)) (by norm_num)
    refine ⟨fun _ _ => le_trans ?_ big, fun _ _ => le_trans ?_ big⟩
    · linarith [b1.1, b2.1]
    · linarith [b1.2, b2.2])
  obtain ⟨s', c', t1, t2, t3, t4⟩ := tab.2 p.1 p.2 p1
  exact ⟨p.1, p.2, s', c', p1, t1, t2, t3, t4⟩

/-- **C45.** Near the multiples of `π/2` as well, the pair returned by `sin_cos` is close to what `sin` and `cos` return. -/
theorem C45_close (P : Platform) (hP : FloatText P.toStr) (a : Double) (ha : a.Normalized)
    (h2 : |a.val| ≤ 2 ^ 45) :
    ∃ s c s' c', Double.sinCos P a = some (s, c) ∧ Double.sin P a = some s' ∧ Double.cos P a = some c' ∧
      |(s'.val : ℝ) - s.val| ≤ (|(a.val : ℝ)| + 29) / 2 ^ 101 ∧ |(c'.val : ℝ) - c.val| ≤ (|(a.val : ℝ)| + 29) / 2 ^ 101 := by
  have g2 := range_rv h2
  obtain ⟨s, c, p, s1, c1, p1, s2, c2, p2, p3, -⟩ := trig_facts P hP ha g2
  refine ⟨p.1, p.2, s, c, p1, s1, c1, ?_, ?_⟩
  · change |rv s - rv p.1| ≤ (|rv a| + 29) / 2 ^ 101
    have e : rv s - rv p.1 = (rv s - Real.sin (rv a)) - (rv p.1 - Real.sin (rv a)) := by ring
    rw [e]
    refine (abs_sub _ _).trans ((add_le_add s2.2 p2.2).trans (le_of_eq ?_))
    ring
  · change |rv c - rv p.2| ≤ (|rv a| + 29) / 2 ^ 101
    have e : rv c - rv p.2 = (rv c - Real.cos (rv a)) - (rv p.2 - Real.cos (rv a)) := by ring
    rw [e]
    refine (abs_sub _ _).trans ((add_le_add c2.2 p3.2).trans (le_of_eq ?_))
    ring

theorem one_val : ((Double.ONE.val : ℚ) : ℝ) = 1 := by
  have : Double.ONE.val = 1 := by decide +kernel
  rw [this]; norm_num

/-- The hypotheses of `C45_same` and `C68_tan` are met at one. -/
example (P : Platform) (h : P.toStr = text17) : ∃ s c s' c', Double.sinCos P Double.ONE = some (s, c) ∧
    Double.sin P Double.ONE = some s' ∧ Double.cos P Double.ONE = some c' ∧ SameDouble s' s ∧ SameDouble c' c := by
  refine C45_same P (h ▸ text17_ok) _ (by decide +kernel) (by decide +kernel) fun n => ?_
  rw [one_val]
  obtain ⟨p1, p2⟩ := pi_bds
  rcases le_or_gt n 0 with hn | hn
  · have : (n:ℝ) ≤ 0 := by exact_mod_cast hn
    have : (n:ℝ) * (Real.pi / 2) ≤ 0 := mul_nonpos_of_nonpos_of_nonneg this (by linarith)
    refine le_trans ?_ (le_abs_self _)
    linarith
  · have : (1:ℝ) ≤ n := by exact_mod_cast hn
    have : 1 * (Real.pi / 2) ≤ (n:ℝ) * (Real.pi / 2) := mul_le_mul_of_nonneg_right this (by linarith)
    refine le_trans ?_ (neg_le_abs _)
    linarith

example (P : Platform) (h : P.toStr = text17) : ∃ r, Double.tan P Double.ONE = some r ∧ r.Normalized ∧
    |(r.val : ℝ) - Real.tan ((Double.ONE.val : ℚ) : ℝ)|
      ≤ 3 * ((|((Double.ONE.val : ℚ) : ℝ)| + 29) / 2 ^ 102) * (1 + |Real.tan ((Double.ONE.val : ℚ) : ℝ)|) /
        |Real.cos ((Double.ONE.val : ℚ) : ℝ)| := by
  refine C68_tan P (h ▸ text17_ok) _ (by decide +kernel) (by decide +kernel) ?_ ?_
  · rw [one_val]
    have := Real.sin_gt_sub_cube (x := 1) (by norm_num)
    refine le_trans ?_ (le_abs_self _)
    norm_num at this ⊢; linarith
  · rw [one_val]
    have := Real.one_sub_sq_div_two_le_cos (x := 1)
    refine le_trans ?_ (le_abs_self _)
    norm_num at this ⊢; linarith

end Verif
