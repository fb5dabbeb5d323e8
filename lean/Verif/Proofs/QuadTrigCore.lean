import Verif.Proofs.QuadReduce
import Verif.Props.Trig

/-!
# Sine and cosine of Quads: the reduced argument combined with the tables
-/

namespace Verif

open F64 Prim Util Quad Consts

theorem qtableUV {K : ℤ} (h0 : K ≠ 0) (h4 : |K| ≤ 256) : ∃ u v, Quad.tableUV K = some (u, v) ∧
    QA u (Real.cos (|(K:ℝ)| * (Real.pi / 1024))) (1 / 2 ^ 210) (10001 / 10000) ∧
    QA v (Real.sin (|(K:ℝ)| * (Real.pi / 1024))) (1 / 2 ^ 210) (10001 / 10000) := by
  have hK : 1 ≤ |K| := Int.one_le_abs h0
  have hn : (|K|.toNat : ℤ) = |K| := Int.toNat_of_nonneg (abs_nonneg _)
  obtain ⟨i, hi⟩ : ∃ i : ℕ, |K|.toNat = i + 1 := ⟨|K|.toNat - 1, by omega⟩
  obtain ⟨s, c, e1, e2, n1, n2⟩ := C49_quad_sines.2.2 i (by omega)
  have hc : (|K| : ℤ) = (i : ℤ) + 1 := by omega
  have hc' : |(K:ℝ)| = (i : ℝ) + 1 := by
    have : ((|K| : ℤ) : ℝ) = (((i : ℤ) + 1 : ℤ) : ℝ) := by rw [hc]
    push_cast at this
    exact this
  have nrm := C49_normalized.2
  have ap : ∀ {d : Quad} {x : ℝ}, d.Normalized → |x| ≤ 1 → Near d.val x 210 → QA d x (1 / 2 ^ 210) (10001 / 10000) := by
    intro d x hd hx hn
    unfold Near at hn
    have h : |qv d - x| ≤ 1 / 2 ^ 210 := by
      rw [le_div_iff₀ (by positivity)]; exact hn.trans hx
    exact qa_of hd h (by norm_num; linarith)
  refine ⟨c, s, ?_, ?_, ?_⟩
  · unfold Quad.tableUV i32?
    rw [if_pos (by norm_num; omega)]
    simp only [Option.bind_some, hi, Nat.add_sub_cancel, e1, e2, Option.map_some]
  · rw [hc']
    exact ap (nrm c (List.mem_append.mpr (Or.inr (List.mem_of_getElem? e2)))) (Real.abs_cos_le_one _) n2
  · rw [hc']
    exact ap (nrm s (List.mem_append.mpr (Or.inl (List.mem_of_getElem? e1)))) (Real.abs_sin_le_one _) n1

/-- The four products of table values and the sine and cosine of the remainder. -/
structure QProds (u v s c : Quad) (U V S C : ℝ) : Prop where
  us : QA (u * s) (U * S) (33 / 10 / 2 ^ 128) (1001 / 1000)
  vs : QA (v * s) (V * S) (33 / 10 / 2 ^ 128) (1001 / 1000)
  uc : QA (u * c) (U * C) (271 / 100 / 2 ^ 128) (1001 / 1000)
  vc : QA (v * c) (V * C) (271 / 100 / 2 ^ 128) (1001 / 1000)

theorem qprod1 {u s : Quad} {U S e g Y : ℝ} (hu : QA u U (1 / 2 ^ 210) (10001 / 10000)) (hs : QA s S e Y) (bU : |U| ≤ 1) (bS : |S| ≤ 1)
    (hY : Y ≤ 102 / 100) (hY2 : 1 / 10 ≤ Y) (hg : e + 1 / 2 ^ 138 ≤ g) (hg2 : g ≤ 4 / 2 ^ 128) : QA (u * s) (U * S) g (1001 / 1000) := by
  have he0 := hs.nonneg
  have h1 : |U| * e ≤ 1 * e := mul_le_mul_of_nonneg_right bU he0
  have h2 : |S| * (1 / 2 ^ 210) ≤ 1 * (1 / 2 ^ 210) := mul_le_mul_of_nonneg_right bS (by positivity)
  have h3 : |U * S| ≤ 1 := prod_le_one bU bS
  refine hu.mul hs (by norm_num) (by norm_num; linarith) (by norm_num; linarith) ?_ (by linarith) ?_
  · generalize |U| * e = T at *
    generalize |S| * (1 / 2 ^ 210) = T2 at *
    norm_num at h2 hg ⊢; linarith
  · generalize |U * S| = T at *
    norm_num at hg2 ⊢; linarith

theorem qprods {u v s c : Quad} {U V S C : ℝ} (hu : QA u U (1 / 2 ^ 210) (10001 / 10000)) (hv : QA v V (1 / 2 ^ 210) (10001 / 10000))
    (hs : QA s S (41 / 100 * (803 / 100 / 2 ^ 128)) (41 / 100 * (1001 / 1000))) (hc : QA c C (27 / 10 / 2 ^ 128) (102 / 100)) (bU : |U| ≤ 1) (bV : |V| ≤ 1) (bS : |S| ≤ 1)
    (bC : |C| ≤ 1) : QProds u v s c U V S C where
  us := qprod1 hu hs bU bS (by norm_num) (by norm_num) (by norm_num) (by norm_num)
  vs := qprod1 hv hs bV bS (by norm_num) (by norm_num) (by norm_num) (by norm_num)
  uc := qprod1 hu hc bU bC (by norm_num) (by norm_num) (by norm_num) (by norm_num)
  vc := qprod1 hv hc bV bC (by norm_num) (by norm_num) (by norm_num) (by norm_num)

theorem qcomb_add {a b : Quad} {x y z e f : ℝ} (ha : QA a x e (1001 / 1000)) (hb : QA b y f (1001 / 1000)) (hef : e + f ≤ 602 / 100 / 2 ^ 128)
    (hz : x + y = z) (h : |z| ≤ 1) : QA (a + b) z (71 / 10 / 2 ^ 128) (1001 / 1000) := by
  subst hz
  refine ha.add hb le_rfl le_rfl (by norm_num) ?_ (by norm_num) ?_ <;> norm_num at hef ⊢ <;> linarith

theorem qcomb_sub {a b : Quad} {x y z e f : ℝ} (ha : QA a x e (1001 / 1000)) (hb : QA b y f (1001 / 1000)) (hef : e + f ≤ 602 / 100 / 2 ^ 128)
    (hz : x - y = z) (h : |z| ≤ 1) : QA (a - b) z (71 / 10 / 2 ^ 128) (1001 / 1000) := by
  subst hz
  refine ha.sub hb le_rfl le_rfl (by norm_num) ?_ (by norm_num) ?_ <;> norm_num at hef ⊢ <;> linarith

/-- The table values and products for a nonzero `k`. -/
theorem qcomb_facts {P : Platform} (hP : FloatText P.toStr) {t : Quad} {k : ℤ} (ht : SZ t (41 / 100)) (hT : |qv t| ≤ 1 / 600)
    (hk : |k| ≤ 256) (h0 : k ≠ 0) : ∃ u v s c, Quad.tableUV k = some (u, v) ∧ Quad.sincosTaylor P t = some (s, c) ∧
    QProds u v s c (Real.cos (|(k:ℝ)| * (Real.pi / 1024))) (Real.sin (|(k:ℝ)| * (Real.pi / 1024))) (Real.sin (qv t)) (Real.cos (qv t)) ∧
    QProds (-u) (-v) s c (-Real.cos (|(k:ℝ)| * (Real.pi / 1024))) (-Real.sin (|(k:ℝ)| * (Real.pi / 1024))) (Real.sin (qv t))
      (Real.cos (qv t)) := by
  have LX : (1:ℝ) ≤ 41 / 100 * (2 ^ 200 * 2 ^ 200 * 2 ^ 200) := by norm_num
  obtain ⟨u, v, e1, hu, hv⟩ := qtableUV h0 hk
  obtain ⟨s, c, e2, hs, hc⟩ := qsincosTaylor hP ht LX (by norm_num) hT (hT.trans (by norm_num))
  refine ⟨u, v, s, c, e1, e2, ?_, ?_⟩
  · exact qprods hu hv hs hc (Real.abs_cos_le_one _) (Real.abs_sin_le_one _) (Real.abs_sin_le_one _) (Real.abs_cos_le_one _)
  · exact qprods hu.neg hv.neg hs hc (by rw [abs_neg]; exact Real.abs_cos_le_one _)
      (by rw [abs_neg]; exact Real.abs_sin_le_one _) (Real.abs_sin_le_one _) (Real.abs_cos_le_one _)

theorem qsin_core (P : Platform) (hP : FloatText P.toStr) {a t : Quad} {j k : ℤ} (hpre : Quad.preSin a = none)
    (hred : Quad.reduce a = (j, k, t)) (ht : SZ t (41 / 100)) (hT : |qv t| ≤ 1 / 600) (hk : |k| ≤ 256) :
    ∃ r, Quad.sin P a = some r ∧ QA r (sinQ j (qv t + k * (Real.pi / 1024))) (81 / 10 / 2 ^ 128) (102 / 100) ∧
      (j = 0 → k = 0 → ∀ X, SZ t X → 1 ≤ X * (2 ^ 200 * 2 ^ 200 * 2 ^ 200) → X ≤ 43 / 100 → |qv t| ≤ X →
        QA r (Real.sin (qv t)) (X * (803 / 100 / 2 ^ 128)) (X * (1001 / 1000))) := by
  have LX : (1:ℝ) ≤ 41 / 100 * (2 ^ 200 * 2 ^ 200 * 2 ^ 200) := by norm_num
  unfold Quad.sin
  rw [hpre, hred]
  dsimp only
  by_cases h0 : k = 0
  · subst h0
    rw [if_pos rfl]
    have e : qv t + ((0:ℤ):ℝ) * (Real.pi / 1024) = qv t := by push_cast; ring
    rw [e]
    obtain ⟨s, s1, s2⟩ := qsinTaylor ht LX (by norm_num) hT (hT.trans (by norm_num))
    obtain ⟨c, c1, c2⟩ := qcosTaylor ht (by norm_num) hT
    have s2' := s2.mono (e' := 81 / 10 / 2 ^ 128) (X' := 102 / 100) (by norm_num) (by norm_num)
    have c2' := c2.mono (e' := 81 / 10 / 2 ^ 128) (X' := 102 / 100) (by norm_num) (by norm_num)
    rw [s1, c1]
    unfold sinQ
    split_ifs with q1 q2 q3
    · refine ⟨_, rfl, s2', fun _ _ X h1 h2 h3 h4 => ?_⟩
      obtain ⟨s', s1', s2''⟩ := qsinTaylor h1 h2 h3 hT h4
      rw [s1] at s1'
      cases s1'
      exact s2''
    · exact ⟨_, rfl, c2', fun h => absurd h q1⟩
    · exact ⟨_, rfl, c2'.neg, fun h => absurd h q1⟩
    · exact ⟨_, rfl, s2'.neg, fun h => absurd h q1⟩
  · rw [if_neg h0]
    obtain ⟨u, v, s, c, e1, e2, pp, pn⟩ := qcomb_facts hP ht hT hk h0
    rw [e1, e2]
    simp only [Option.bind_some, Option.map_some]
    refine ⟨_, rfl, ?_, fun _ h => absurd h h0⟩
    unfold sinQ
    have fin : ∀ {r : Quad} {x : ℝ}, QA r x (71 / 10 / 2 ^ 128) (1001 / 1000) → QA r x (81 / 10 / 2 ^ 128) (102 / 100) := fun h => h.mono (by norm_num) (by norm_num)
    by_cases hp : k > 0
    · rw [if_pos hp]
      have hk' : |(k:ℝ)| = k := abs_of_pos (by exact_mod_cast hp)
      rw [hk'] at pp pn
      have es := Real.sin_add (qv t) (k * (Real.pi / 1024))
      have ec := Real.cos_add (qv t) (k * (Real.pi / 1024))
      have bs := Real.abs_sin_le_one (qv t + k * (Real.pi / 1024))
      have bc := Real.abs_cos_le_one (qv t + k * (Real.pi / 1024))
      split_ifs with q1 q2 q3 <;> apply fin
      · exact qcomb_add pp.us pp.vc (by norm_num) (by rw [es]; ring) bs
      · exact qcomb_sub pp.uc pp.vs (by norm_num) (by rw [ec]; ring) bc
      · exact qcomb_add pn.uc pp.vs (by norm_num) (by rw [ec]; ring) (by rw [abs_neg]; exact bc)
      · exact qcomb_sub pn.us pp.vc (by norm_num) (by rw [es]; ring) (by rw [abs_neg]; exact bs)
    · rw [if_neg hp]
      have hneg : (k:ℝ) < 0 := by
        have : k < 0 := by omega
        exact_mod_cast this
      have hk' : |(k:ℝ)| = -k := abs_of_neg hneg
      rw [hk'] at pp pn
      have e : qv t + k * (Real.pi / 1024) = qv t - -k * (Real.pi / 1024) := by ring
      rw [e]
      have es := Real.sin_sub (qv t) (-k * (Real.pi / 1024))
      have ec := Real.cos_sub (qv t) (-k * (Real.pi / 1024))
      have bs := Real.abs_sin_le_one (qv t - -k * (Real.pi / 1024))
      have bc := Real.abs_cos_le_one (qv t - -k * (Real.pi / 1024))
      split_ifs with q1 q2 q3 <;> apply fin
      · exact qcomb_sub pp.us pp.vc (by norm_num) (by rw [es]; ring) bs
      · exact qcomb_add pp.uc pp.vs (by norm_num) (by rw [ec]; ring) bc
      · exact qcomb_sub pn.uc pp.vs (by norm_num) (by rw [ec]; ring) (by rw [abs_neg]; exact bc)
      · exact qcomb_add pn.us pp.vc (by norm_num) (by rw [es]; ring) (by rw [abs_neg]; exact bs)

theorem qcos_core (P : Platform) (hP : FloatText P.toStr) {a t : Quad} {j k : ℤ} (hpre : Quad.preCos a = none)
    (hred : Quad.reduce a = (j, k, t)) (ht : SZ t (41 / 100)) (hT : |qv t| ≤ 1 / 600) (hk : |k| ≤ 256) :
    ∃ r, Quad.cos P a = some r ∧ QA r (cosQ j (qv t + k * (Real.pi / 1024))) (81 / 10 / 2 ^ 128) (102 / 100) := by
  have LX : (1:ℝ) ≤ 41 / 100 * (2 ^ 200 * 2 ^ 200 * 2 ^ 200) := by norm_num
  unfold Quad.cos
  rw [hpre, hred]
  dsimp only
  by_cases h0 : k = 0
  · subst h0
    rw [if_pos rfl]
    have e : qv t + ((0:ℤ):ℝ) * (Real.pi / 1024) = qv t := by push_cast; ring
    rw [e]
    obtain ⟨s, s1, s2⟩ := qsinTaylor ht LX (by norm_num) hT (hT.trans (by norm_num))
    obtain ⟨c, c1, c2⟩ := qcosTaylor ht (by norm_num) hT
    have s2' := s2.mono (e' := 81 / 10 / 2 ^ 128) (X' := 102 / 100) (by norm_num) (by norm_num)
    have c2' := c2.mono (e' := 81 / 10 / 2 ^ 128) (X' := 102 / 100) (by norm_num) (by norm_num)
    rw [s1, c1]
    unfold cosQ
    split_ifs with q1 q2 q3
    · exact ⟨_, rfl, c2'⟩
    · exact ⟨_, rfl, s2'.neg⟩
    · exact ⟨_, rfl, s2'⟩
    · exact ⟨_, rfl, c2'.neg⟩
  · rw [if_neg h0]
    obtain ⟨u, v, s, c, e1, e2, pp, pn⟩ := qcomb_facts hP ht hT hk h0
    rw [e1, e2]
    simp only [Option.bind_some, Option.map_some]
    refine ⟨_, rfl, ?_⟩
    unfold cosQ
    have fin : ∀ {r : Quad} {x : ℝ}, QA r x (71 / 10 / 2 ^ 128) (1001 / 1000) → QA r x (81 / 10 / 2 ^ 128) (102 / 100) := fun h => h.mono (by norm_num) (by norm_num)
    by_cases hp : k > 0
    · rw [if_pos hp]
      have hk' : |(k:ℝ)| = k := abs_of_pos (by exact_mod_cast hp)
      rw [hk'] at pp pn
      have es := Real.sin_add (qv t) (k * (Real.pi / 1024))
      have ec := Real.cos_add (qv t) (k * (Real.pi / 1024))
      have bs := Real.abs_sin_le_one (qv t + k * (Real.pi / 1024))
      have bc := Real.abs_cos_le_one (qv t + k * (Real.pi / 1024))
      split_ifs with q1 q2 q3 <;> apply fin
      · exact qcomb_sub pp.uc pp.vs (by norm_num) (by rw [ec]; ring) bc
      · exact qcomb_sub pn.us pp.vc (by norm_num) (by rw [es]; ring) (by rw [abs_neg]; exact bs)
      · exact qcomb_add pp.us pp.vc (by norm_num) (by rw [es]; ring) bs
      · exact qcomb_add pn.uc pp.vs (by norm_num) (by rw [ec]; ring) (by rw [abs_neg]; exact bc)
    · rw [if_neg hp]
      have hneg : (k:ℝ) < 0 := by
        have : k < 0 := by omega
        exact_mod_cast this
      have hk' : |(k:ℝ)| = -k := abs_of_neg hneg
      rw [hk'] at pp pn
      have e : qv t + k * (Real.pi / 1024) = qv t - -k * (Real.pi / 1024) := by ring
      rw [e]
      have es := Real.sin_sub (qv t) (-k * (Real.pi / 1024))
      have ec := Real.cos_sub (qv t) (-k * (Real.pi / 1024))
      have bs := Real.abs_sin_le_one (qv t - -k * (Real.pi / 1024))
      have bc := Real.abs_cos_le_one (qv t - -k * (Real.pi / 1024))
      split_ifs with q1 q2 q3 <;> apply fin
      · exact qcomb_add pp.uc pp.vs (by norm_num) (by rw [ec]; ring) bc
      · exact qcomb_sub pp.vc pp.us (by norm_num) (by rw [es]; ring) (by rw [abs_neg]; exact bs)
      · exact qcomb_sub pp.us pp.vc (by norm_num) (by rw [es]; ring) bs
      · exact qcomb_sub pn.uc pp.vs (by norm_num) (by rw [ec]; ring) (by rw [abs_neg]; exact bc)

theorem qquadrant_ap {s c : Quad} {X e Y : ℝ} (j : ℤ) (hs : QA s (Real.sin X) e Y) (hc : QA c (Real.cos X) e Y) :
    QA (Quad.quadrant j s c).1 (sinQ j X) e Y ∧ QA (Quad.quadrant j s c).2 (cosQ j X) e Y := by
  unfold Quad.quadrant sinQ cosQ
  split_ifs
  · exact ⟨hs, hc⟩
  · exact ⟨hc, hs.neg⟩
  · exact ⟨hc.neg, hs⟩
  · exact ⟨hs.neg, hc.neg⟩

theorem qsinCos_core (P : Platform) (hP : FloatText P.toStr) {a t : Quad} {j k : ℤ} (hpre : Quad.preSinCos a = none)
    (hred : Quad.reduce a = (j, k, t)) (ht : SZ t (41 / 100)) (hT : |qv t| ≤ 1 / 600) (hk : |k| ≤ 256) :
    ∃ r, Quad.sinCos P a = some r ∧ QA r.1 (sinQ j (qv t + k * (Real.pi / 1024))) (81 / 10 / 2 ^ 128) (102 / 100) ∧
      QA r.2 (cosQ j (qv t + k * (Real.pi / 1024))) (81 / 10 / 2 ^ 128) (102 / 100) ∧
      (j = 0 → k = 0 → ∀ X, SZ t X → 1 ≤ X * (2 ^ 200 * 2 ^ 200 * 2 ^ 200) → X ≤ 43 / 100 → |qv t| ≤ X →
        QA r.1 (Real.sin (qv t)) (X * (803 / 100 / 2 ^ 128)) (X * (1001 / 1000))) := by
  have LX : (1:ℝ) ≤ 41 / 100 * (2 ^ 200 * 2 ^ 200 * 2 ^ 200) := by norm_num
  unfold Quad.sinCos
  rw [hpre, hred]
  dsimp only
  by_cases h0 : k = 0
  · subst h0
    obtain ⟨s, c, e2, hs, hc⟩ := qsincosTaylor hP ht LX (by norm_num) hT (hT.trans (by norm_num))
    rw [e2]
    simp only [Option.bind_some, if_true]
    have e : qv t + ((0:ℤ):ℝ) * (Real.pi / 1024) = qv t := by push_cast; ring
    rw [e]
    have s2' := hs.mono (e' := 81 / 10 / 2 ^ 128) (X' := 102 / 100) (by norm_num) (by norm_num)
    have c2' := hc.mono (e' := 81 / 10 / 2 ^ 128) (X' := 102 / 100) (by norm_num) (by norm_num)
    have q := qquadrant_ap j s2' c2'
    refine ⟨_, rfl, q.1, q.2, ?_⟩
    rintro rfl - X h1 h2 h3 h4
    obtain ⟨s', c', e2', s2'', -⟩ := qsincosTaylor hP h1 h2 h3 hT h4
    rw [e2] at e2'
    cases e2'
    exact s2''
  · obtain ⟨u, v, s, c, e1, e2, pp, pn⟩ := qcomb_facts hP ht hT hk h0
    rw [e1, e2]
    simp only [Option.bind_some, Option.map_some, if_neg h0]
    have fin : ∀ {r : Quad} {x : ℝ}, QA r x (71 / 10 / 2 ^ 128) (1001 / 1000) → QA r x (81 / 10 / 2 ^ 128) (102 / 100) := fun h => h.mono (by norm_num) (by norm_num)
    by_cases hp : k > 0
    · rw [if_pos hp]
      have hk' : |(k:ℝ)| = k := abs_of_pos (by exact_mod_cast hp)
      rw [hk'] at pp pn
      have es := Real.sin_add (qv t) (k * (Real.pi / 1024))
      have ec := Real.cos_add (qv t) (k * (Real.pi / 1024))
      have bs := Real.abs_sin_le_one (qv t + k * (Real.pi / 1024))
      have bc := Real.abs_cos_le_one (qv t + k * (Real.pi / 1024))
      have q := qquadrant_ap j
        (fin (qcomb_add pp.us pp.vc (by norm_num) (by rw [es]; ring) bs))
        (fin (qcomb_sub pp.uc pp.vs (by norm_num) (by rw [ec]; ring) bc))
      exact ⟨_, rfl, q.1, q.2, fun _ h => absurd h h0⟩
    · rw [if_neg hp]
      have hneg : (k:ℝ) < 0 := by
        have : k < 0 := by omega
        exact_mod_cast this
      have hk' : |(k:ℝ)| = -k := abs_of_neg hneg
      rw [hk'] at pp pn
      have e : qv t + k * (Real.pi / 1024) = qv t - -k * (Real.pi / 1024) := by ring
      rw [e]
      have es := Real.sin_sub (qv t) (-k * (Real.pi / 1024))
      have ec := Real.cos_sub (qv t) (-k * (Real.pi / 1024))
      have bs := Real.abs_sin_le_one (qv t - -k * (Real.pi / 1024))
      have bc := Real.abs_cos_le_one (qv t - -k * (Real.pi / 1024))
      have q := qquadrant_ap j
        (fin (qcomb_sub pp.us pp.vc (by norm_num) (by rw [es]; ring) bs))
        (fin (qcomb_add pp.uc pp.vs (by norm_num) (by rw [ec]; ring) bc))
      exact ⟨_, rfl, q.1, q.2, fun _ h => absurd h h0⟩


/-- Everything about the three functions on the range, in one place. -/
theorem qtrig_facts {P : Platform} (hP : FloatText P.toStr) {a : Quad} {A : ℝ} (ha : SZ a A) (hx : |qv a| ≤ A) (h2 : A ≤ 2 ^ 30) :
    ∃ s c p, Quad.sin P a = some s ∧ Quad.cos P a = some c ∧ Quad.sinCos P a = some p ∧
      QA s (Real.sin (qv a)) ((13 / 10 * A + 352 / 10) / 2 ^ 128) (102 / 100) ∧ QA c (Real.cos (qv a)) ((13 / 10 * A + 352 / 10) / 2 ^ 128) (102 / 100) ∧
      QA p.1 (Real.sin (qv a)) ((13 / 10 * A + 352 / 10) / 2 ^ 128) (102 / 100) ∧ QA p.2 (Real.cos (qv a)) ((13 / 10 * A + 352 / 10) / 2 ^ 128) (102 / 100) ∧
      (A ≤ 1 / 1000 → 1 ≤ A * (2 ^ 200) ^ 3 → QA s (Real.sin (qv a)) (A * (1107 / 100 / 2 ^ 128)) (A * (1003 / 1000)) ∧
        QA p.1 (Real.sin (qv a)) (A * (1107 / 100 / 2 ^ 128)) (A * (1003 / 1000)) ∧ QA c (Real.cos (qv a)) (82 / 10 / 2 ^ 128) (102 / 100) ∧
        QA p.2 (Real.cos (qv a)) (82 / 10 / 2 ^ 128) (102 / 100)) := by
  have hA0 := ha.nonneg
  have hfin : a.isFinite = true := (sz_sub_c0 ha).1
  by_cases hz : a.isZero = true
  · have h0 := isZero_small ha hz
    have q0 : QA Quad.ZERO (Real.sin (qv a)) (A / 2 ^ 138) 0 := by
      refine ⟨sz_zero le_rfl, ?_⟩
      rw [qv_ZERO, zero_sub, abs_neg]
      exact Real.abs_sin_le_abs.trans h0
    have q1 : QA Quad.ONE (Real.cos (qv a)) (1 / 2 ^ 130) (101 / 100) := by
      have hc : |Real.cos (qv a) - 1| ≤ 1 / 2 ^ 130 := by
        have hl := Real.abs_cos_sub_cos_le (qv a) 0
        have h3 := Real.one_sub_sq_div_two_le_cos (x := qv a)
        have h4 := Real.cos_le_one (qv a)
        have h5 : |qv a| ≤ 1 / 2 ^ 107 := h0.trans (by norm_num at h2 ⊢; linarith)
        have h6 : qv a ^ 2 ≤ (1 / 2 ^ 107) ^ 2 := by rw [← sq_abs]; exact pow_le_pow_left₀ (abs_nonneg _) h5 2
        rw [abs_le]
        norm_num at h6 ⊢
        constructor <;> linarith
      have h := (qa_one.move (y := Real.cos (qv a)) (d := 1 / 2 ^ 130) (by rw [abs_sub_comm]; exact hc))
      exact h.mono (by rw [zero_add]) (by norm_num)
    refine ⟨Quad.ZERO, Quad.ONE, (Quad.ZERO, Quad.ONE), ?_, ?_, ?_, ?_, ?_, ?_, ?_, ?_⟩
    · unfold Quad.sin Quad.preSin; simp [hz]
    · unfold Quad.cos Quad.preCos; simp [hz]
    · unfold Quad.sinCos Quad.preSinCos; simp [hz]
    · exact q0.mono (by norm_num; linarith) (by norm_num)
    · exact q1.mono (by norm_num; linarith) (by norm_num)
    · exact q0.mono (by norm_num; linarith) (by norm_num)
    · exact q1.mono (by norm_num; linarith) (by norm_num)
    · intro _ _
      exact ⟨q0.mono (by norm_num; linarith) (by positivity), q0.mono (by norm_num; linarith) (by positivity),
        q1.mono (by norm_num) (by norm_num), q1.mono (by norm_num) (by norm_num)⟩
  rw [Bool.not_eq_true] at hz
  obtain ⟨Z, Q, K, t, hr, hQ, hK, ht, hT, hsm⟩ := qreduce_spec ha hx h2
  have eA : qv a = (qv a - Z * (2 * Real.pi) - Q * (Real.pi / 2) - K * (Real.pi / 1024) + K * (Real.pi / 1024)) +
      Q * (Real.pi / 2) + Z * (2 * Real.pi) := by ring
  have sq := sin_quad (qv a - Z * (2 * Real.pi) - Q * (Real.pi / 2) - K * (Real.pi / 1024) + K * (Real.pi / 1024)) Z Q hQ
  rw [← eA] at sq
  have lp := sinQ_lip Q (qv t + K * (Real.pi / 1024))
    (qv a - Z * (2 * Real.pi) - Q * (Real.pi / 2) - K * (Real.pi / 1024) + K * (Real.pi / 1024))
  rw [← sq.1, ← sq.2, add_sub_add_right_eq_sub] at lp
  have ht2 := ht.err
  obtain ⟨s, s1, s2, s3⟩ := qsin_core P hP (a := a) (by unfold Quad.preSin; simp [hz, hfin]) hr ht.sz hT hK
  obtain ⟨c, c1, c2⟩ := qcos_core P hP (a := a) (by unfold Quad.preCos; simp [hz, hfin]) hr ht.sz hT hK
  obtain ⟨p, p1, p2, p3, p4⟩ := qsinCos_core P hP (a := a) (by unfold Quad.preSinCos; simp [hz, hfin]) hr ht.sz hT hK
  have fin : ∀ {r : Quad} {x y : ℝ}, QA r x (81 / 10 / 2 ^ 128) (102 / 100) → |x - y| ≤ (13 / 10 * A + 27) / 2 ^ 128 →
      QA r y ((13 / 10 * A + 352 / 10) / 2 ^ 128) (102 / 100) := by
    intro r x y h hxy
    refine (h.move hxy).mono ?_ le_rfl
    norm_num
    linarith
  refine ⟨s, c, p, s1, c1, p1, fin s2 (lp.1.trans ht2), fin c2 (lp.2.trans ht2), fin p2 (lp.1.trans ht2),
    fin p3 (lp.2.trans ht2), ?_⟩
  intro hs hs2
  obtain ⟨rfl, rfl, rfl, h5⟩ := hsm hs hs2
  have h6 := h5.err
  have lip : |Real.sin (qv t) - Real.sin (qv a)| ≤ A * (302 / 100 / 2 ^ 128) := (Real.abs_sin_sub_sin_le _ _).trans h6
  have e3 : qv t + ((0:ℤ):ℝ) * (Real.pi / 1024) = qv t := by push_cast; ring
  have lic : |cosQ 0 (qv t + ((0:ℤ):ℝ) * (Real.pi / 1024)) - Real.cos (qv a)| ≤ A * (302 / 100 / 2 ^ 128) := by
    rw [e3]
    unfold cosQ
    rw [if_pos rfl]
    exact (Real.abs_cos_sub_cos_le _ _).trans h6
  have l2 : 1 ≤ A * (1001 / 1000) * (2 ^ 200 * 2 ^ 200 * 2 ^ 200) := by
    refine hs2.trans ?_
    rw [mul_assoc]
    exact mul_le_mul_of_nonneg_left (by norm_num) hA0
  clear hs2
  have tA : |qv t| ≤ A * (1001 / 1000) := by
    have := h5.abs_le
    norm_num at this ⊢; linarith
  have l3 : A * (1001 / 1000) ≤ 43 / 100 := by linarith
  have S3 := s3 rfl rfl _ h5.sz l2 l3 tA
  have P4 := p4 rfl rfl _ h5.sz l2 l3 tA
  have b1 : A * (1001 / 1000) * (803 / 100 / 2 ^ 128) + A * (302 / 100 / 2 ^ 128) ≤ A * (1107 / 100 / 2 ^ 128) := by
    clear l2
    norm_num
    linarith
  have b2 : 81 / 10 / 2 ^ 128 + A * (302 / 100 / 2 ^ 128) ≤ 82 / 10 / 2 ^ 128 := by
    clear l2
    norm_num at hs ⊢
    linarith
  exact ⟨(S3.move lip).mono b1 (by linarith), (P4.move lip).mono b1 (by linarith), (c2.move lic).mono b2 le_rfl, (p3.move lic).mono b2 le_rfl⟩

end Verif
