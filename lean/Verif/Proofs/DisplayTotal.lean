import Verif.Proofs.DisplayAcc
import Verif.Props.Display
import Verif.Props.Parse

/-! # Formatting never panics in the working range -/

namespace Verif.Disp

open Verif

/-! ## Digit lists with tens that are followed by small digits -/

/-- The first `n` entries are at most ten and a ten is followed by a digit at most `c`. -/
def Tame (n c : ℕ) (ds : List ℕ) : Prop :=
  (∀ i < n, ds[i]?.getD 0 ≤ 10) ∧ ∀ i, i + 1 < n → ds[i]?.getD 0 = 10 → ds[i + 1]?.getD 0 ≤ c

theorem bump_eq {ds : List ℕ} {j : ℕ} (hj : j < ds.length) (h : ds[j]?.getD 0 ≤ 10) :
    bump ds j = some (ds.set j (ds[j]?.getD 0 + 1)) := by
  unfold bump
  rw [List.getElem?_eq_getElem hj] at h ⊢
  simp only [Option.getD_some] at h ⊢
  rw [if_pos (by omega)]

theorem carry_tame (c n : ℕ) (hc : c ≤ 4) : ∀ (j : ℕ) (ds : List ℕ), j < n → n ≤ ds.length → (∀ i < n, ds[i]?.getD 0 ≤ 10) →
    (∀ i, i + 1 < j → ds[i]?.getD 0 = 10 → ds[i + 1]?.getD 0 ≤ c) →
    (∀ i, i + 1 = j → ds[i]?.getD 0 = 10 → ds[i + 1]?.getD 0 ≤ c + 1) →
    (j + 1 < n → ds[j]?.getD 0 = 10 → ds[j + 1]?.getD 0 = 0) →
    (∀ i, j < i → i + 1 < n → ds[i]?.getD 0 = 10 → ds[i + 1]?.getD 0 ≤ c + 1) →
    ∃ r, carry j ds = some r ∧ r.length = ds.length ∧ Tame n (c + 1) r := by
  intro j
  induction j with
  | zero =>
    intro ds hj hn h1 h2 h3 h4 h5
    refine ⟨ds, rfl, rfl, h1, ?_⟩
    intro i hi hd
    rcases Nat.eq_zero_or_pos i with rfl | hp
    · rw [h4 hi hd]; omega
    · exact h5 i hp hi hd
  | succ j ih =>
    intro ds hj hn h1 h2 h3 h4 h5
    unfold carry
    by_cases hten : ds[j + 1]? = some 10
    · rw [if_pos hten]
      have hjl : ds[j + 1]?.getD 0 = 10 := by rw [hten]; rfl
      have hprev : ds[j]?.getD 0 ≠ 10 := by
        intro hc'
        have := h3 j rfl hc'
        omega
      have hb : bump (ds.set (j + 1) 0) j = some ((ds.set (j + 1) 0).set j (ds[j]?.getD 0 + 1)) := by
        have e : (ds.set (j + 1) 0)[j]?.getD 0 = ds[j]?.getD 0 := by
          rw [List.getElem?_set_ne (by omega)]
        rw [bump_eq (by rw [List.length_set]; omega) (by rw [e]; exact h1 j (by omega)), e]
      rw [hb, Option.bind_some]
      have g : ∀ i : ℕ, ((ds.set (j + 1) 0).set j (ds[j]?.getD 0 + 1))[i]?.getD 0 =
          if i = j then ds[j]?.getD 0 + 1 else if i = j + 1 then 0 else ds[i]?.getD 0 := by
        intro i
        by_cases e1 : i = j
        · subst e1
          rw [if_pos rfl, List.getElem?_set_self (by rw [List.length_set]; omega)]; rfl
        · rw [if_neg e1, List.getElem?_set_ne (by omega)]
          by_cases e2 : i = j + 1
          · subst e2
            rw [if_pos rfl, List.getElem?_set_self (by omega)]; rfl
          · rw [if_neg e2, List.getElem?_set_ne (by omega)]
      obtain ⟨r, r1, r2, r3⟩ := ih ((ds.set (j + 1) 0).set j (ds[j]?.getD 0 + 1)) (by omega) (by simpa using hn)
        (by
          intro i hi
          rw [g]
          have := h1 i hi
          have := h1 j (by omega)
          split_ifs <;> omega)
        (by
          intro i hi
          rw [g, g, if_neg (by omega), if_neg (by omega), if_neg (by omega), if_neg (by omega)]
          exact h2 i (by omega))
        (by
          intro i hi
          rw [g, g, if_neg (by omega), if_neg (by omega), if_pos hi]
          intro hd
          have := h2 i (by omega) hd
          rw [hi] at this; omega)
        (by
          intro hi hd
          rw [g, if_neg (by omega), if_pos rfl])
        (by
          intro i hi hi2
          rw [g, g, if_neg (by omega), if_neg (show i + 1 ≠ j by omega), if_neg (show i + 1 ≠ j + 1 by omega)]
          by_cases e : i = j + 1
          · rw [if_pos e]; intro h; omega
          · rw [if_neg e]; exact h5 i (by omega) hi2)
      exact ⟨r, r1, by rw [r2]; simp, r3⟩
    · rw [if_neg hten]
      refine ⟨ds, rfl, rfl, h1, ?_⟩
      intro i hi hd
      rcases lt_trichotomy i (j + 1) with h | h | h
      · by_cases e : i + 1 = j + 1
        · exact h3 i e hd
        · have := h2 i (by omega) hd; omega
      · subst h; rw [h4 hi hd]; omega
      · exact h5 i h hi hd

theorem Tame.take {n c : ℕ} {ds : List ℕ} (h : Tame n c ds) (hn : n ≤ ds.length) (m : ℕ) (hm : m ≤ n) :
    Tame (ds.take m).length c (ds.take m) := by
  have hl : (ds.take m).length = m := by rw [List.length_take]; omega
  have g : ∀ i < m, (ds.take m)[i]?.getD 0 = ds[i]?.getD 0 := by
    intro i hi; rw [List.getElem?_take_of_lt hi]
  rw [hl]
  refine ⟨fun i hi => ?_, fun i hi => ?_⟩
  · rw [g i hi]; exact h.1 i (by omega)
  · rw [g i (by omega), g (i + 1) hi]; exact h.2 i (by omega)

theorem Tame.mono {n c c' : ℕ} {ds : List ℕ} (h : Tame n c ds) (hc : c ≤ c') : Tame n c' ds :=
  ⟨h.1, fun i hi hd => (h.2 i hi hd).trans hc⟩

theorem round_tame {ds : List ℕ} {len c : ℕ} (h : Tame ds.length c ds) (hc : c ≤ 4) (h0 : 0 < len) (hl : len < ds.length) :
    ∃ r, roundAndTrunc ds len = some r ∧ r.length = len ∧ Tame r.length (c + 1) r := by
  have eg : ds[len]? = some (ds[len]) := List.getElem?_eq_getElem hl
  simp only [roundAndTrunc, eg]
  by_cases h5 : ds[len] ≥ 5
  · rw [if_pos h5, if_neg (by omega)]
    have hlast : ds[len - 1]?.getD 0 ≠ 10 := by
      intro hc'
      have := h.2 (len - 1) (by omega) hc'
      rw [show len - 1 + 1 = len by omega, eg] at this
      simp only [Option.getD_some] at this
      omega
    have hlb := h.1 (len - 1) (by omega)
    rw [bump_eq (by omega) hlb, Option.bind_some]
    have g : ∀ i : ℕ, (ds.set (len - 1) (ds[len - 1]?.getD 0 + 1))[i]?.getD 0 =
        if i = len - 1 then ds[len - 1]?.getD 0 + 1 else ds[i]?.getD 0 := by
      intro i
      by_cases e1 : i = len - 1
      · subst e1
        rw [if_pos rfl, List.getElem?_set_self (by omega)]; rfl
      · rw [if_neg e1, List.getElem?_set_ne (by omega)]
    obtain ⟨r, r1, r2, r3⟩ := carry_tame c len hc (len - 1) (ds.set (len - 1) (ds[len - 1]?.getD 0 + 1)) (by omega)
      (by rw [List.length_set]; omega)
      (by
        intro i hi
        rw [g]
        have := h.1 i (by omega)
        split_ifs <;> omega)
      (by
        intro i hi
        rw [g, g, if_neg (by omega), if_neg (by omega)]
        exact h.2 i (by omega))
      (by
        intro i hi
        rw [g, g, if_neg (by omega), if_pos hi]
        intro hd
        have := h.2 i (by omega) hd
        rw [hi] at this; omega)
      (by intro hi; omega)
      (by intro i hi hi2; omega)
    rw [r1, Option.map_some]
    have hr : r.length = ds.length := by rw [r2, List.length_set]
    have hle : (r.take len).length = len := by rw [List.length_take]; omega
    exact ⟨_, rfl, hle, r3.take (by omega) len le_rfl⟩
  · rw [if_neg h5]
    have hle : (ds.take len).length = len := by rw [List.length_take]; omega
    exact ⟨_, rfl, hle, (h.take le_rfl len (by omega)).mono (by omega)⟩

theorem Tame.append_zeros {c : ℕ} {ds : List ℕ} (h : Tame ds.length c ds) (k : ℕ) :
    Tame (ds ++ List.replicate k 0).length c (ds ++ List.replicate k 0) := by
  have g : ∀ i : ℕ, (ds ++ List.replicate k 0)[i]?.getD 0 = ds[i]?.getD 0 := by
    intro i
    by_cases hi : i < ds.length
    · rw [List.getElem?_append_left hi]
    · rw [List.getElem?_append_right (by omega), List.getElem?_eq_none (l := ds) (by omega), List.getElem?_replicate]
      split_ifs <;> rfl
  refine ⟨fun i hi => ?_, fun i hi => ?_⟩
  · rw [g]
    by_cases hi : i < ds.length
    · exact h.1 i hi
    · rw [List.getElem?_eq_none (by omega)]; simp
  · rw [g, g]
    intro hd
    by_cases hi : i + 1 < ds.length
    · exact h.2 i hi hd
    · rw [List.getElem?_eq_none (i := i + 1) (by omega)]; simp

theorem Tame.zeros_append {c : ℕ} {ds : List ℕ} (h : Tame ds.length c ds) (k : ℕ) :
    Tame (List.replicate k 0 ++ ds).length c (List.replicate k 0 ++ ds) := by
  have g : ∀ i : ℕ, (List.replicate k 0 ++ ds)[i]?.getD 0 = if i < k then 0 else ds[i - k]?.getD 0 := by
    intro i
    by_cases hi : i < k
    · rw [if_pos hi, List.getElem?_append_left (by simpa using hi), List.getElem?_replicate, if_pos hi]; rfl
    · rw [if_neg hi, List.getElem?_append_right (by simpa using hi)]; simp
  simp only [List.length_append, List.length_replicate]
  refine ⟨fun i hi => ?_, fun i hi => ?_⟩
  · rw [g]
    split_ifs with hk
    · omega
    · exact h.1 _ (by omega)
  · rw [g, g]
    intro hd
    by_cases hk : i < k
    · rw [if_pos hk] at hd; omega
    · rw [if_neg hk] at hd
      rw [if_neg (by omega), show i + 1 - k = i - k + 1 by omega]
      exact h.2 _ (by omega) hd

theorem adjustZeros_tame {ds : List ℕ} {exp : ℤ} {c : ℕ} (h : Tame ds.length c ds) (hne : ds ≠ []) (h1 : -2 ^ 31 < exp)
    (h2 : exp < 2 ^ 31 - 1) : ∃ r, adjustZeros ds exp = some r ∧ r ≠ [] ∧ Tame r.length c r := by
  have hlen : 0 < ds.length := List.length_pos_iff.mpr hne
  unfold adjustZeros
  rw [if_neg (by omega)]
  dsimp only
  obtain ⟨t, et, ht, ht2⟩ : ∃ t, (if (ds.length : ℤ) > exp + 1 then (dropZeros ds exp ds.length).map (fun n => ds.take n) else some ds) = some t ∧
      t ≠ [] ∧ Tame t.length c t := by
    by_cases hc : (ds.length : ℤ) > exp + 1
    · rw [if_pos hc]
      obtain ⟨m, h3, h4, h5, h6, h7⟩ := dropZeros_spec ds exp ds.length hlen le_rfl
      rw [h3]
      refine ⟨ds.take m, rfl, ?_, h.take le_rfl m h5⟩
      intro hc'
      have := congrArg List.length hc'
      rw [List.length_take, List.length_nil] at this; omega
    · rw [if_neg hc]
      exact ⟨ds, rfl, hne, h⟩
  rw [et, Option.map_some]
  by_cases hneg : exp < 0
  · rw [if_pos hneg]
    exact ⟨_, rfl, by simp [ht], ht2.zeros_append _⟩
  · rw [if_neg hneg]
    exact ⟨_, rfl, by simp [ht], ht2.append_zeros _⟩

theorem adjustPrec_tame {ds : List ℕ} {exp : ℤ} {c : ℕ} (p : Option ℕ) (h : Tame ds.length c ds) (hc : c ≤ 4) (hne : ds ≠ []) :
    ∃ r, adjustPrec ds exp p = some r ∧ r ≠ [] ∧ Tame r.length (c + 1) r := by
  unfold adjustPrec
  cases p with
  | none => exact ⟨ds, rfl, hne, h.mono (by omega)⟩
  | some p =>
    dsimp only
    generalize hD : (if exp < 0 then p + 1 else exp.toNat + p + 1) = D
    have hD0 : 0 < D := by rw [← hD]; split_ifs <;> omega
    split_ifs with h1 h2
    · exact ⟨_, rfl, by simp [hne], (h.append_zeros _).mono (by omega)⟩
    · obtain ⟨r, r1, r2, r3⟩ := round_tame h hc hD0 h2
      refine ⟨r, r1, ?_, r3⟩
      rintro rfl; simp at r2; omega
    · exact ⟨_, rfl, hne, h.mono (by omega)⟩

theorem mapM_tame {ds : List ℕ} (h : ∀ d ∈ ds, d ≤ 10) : ∃ t, ds.mapM digitText = some t := by
  induction ds with
  | nil => exact ⟨[], rfl⟩
  | cons d ds ih =>
    obtain ⟨t, ht⟩ := ih fun x hx => h x (List.mem_cons_of_mem _ hx)
    have hd := h d List.mem_cons_self
    obtain ⟨s, hs⟩ : ∃ s, digitText d = some s := by
      unfold digitText fromDigit
      by_cases e : d = 10
      · rw [if_pos e]; exact ⟨_, rfl⟩
      · rw [if_neg e, if_pos (by omega)]; exact ⟨_, rfl⟩
    exact ⟨s :: t, by rw [List.mapM_cons, hs, ht]; rfl⟩

theorem placeDecimal_tame {ds : List ℕ} {exp : ℤ} {c : ℕ} (h : Tame ds.length c ds) (hne : ds ≠ []) :
    ∃ t, placeDecimal ds exp = some t := by
  cases ds with
  | nil => simp at hne
  | cons d ds =>
    simp only [placeDecimal]
    obtain ⟨t, ht⟩ := mapM_tame (ds := d :: ds) (by
      intro x hx
      obtain ⟨i, hi, rfl⟩ := List.mem_iff_getElem.mp hx
      have := h.1 i hi
      rwa [List.getElem?_eq_getElem hi] at this)
    rw [ht]
    exact ⟨_, rfl⟩

theorem text_total {ds : List ℕ} {exp : ℤ} (p : Option ℕ) {c : ℕ} (h : Tame ds.length c ds) (hc : c ≤ 4) (hne : ds ≠ []) (h1 : -2 ^ 31 < exp)
    (h2 : exp < 2 ^ 31 - 1) :
    ∃ t, ((adjustZeros ds exp).bind fun ds => (adjustPrec ds exp p).bind fun ds => placeDecimal ds exp) = some t := by
  obtain ⟨r, r1, r2, r3⟩ := adjustZeros_tame h hne h1 h2
  obtain ⟨s, s1, s2, s3⟩ := adjustPrec_tame (exp := exp) p r3 hc r2
  obtain ⟨t, ht⟩ := placeDecimal_tame (exp := exp) s3 s2
  exact ⟨t, by rw [r1, Option.bind_some, s1, Option.bind_some, ht]⟩

/-! ## The digit loop -/

theorem decVal_cons (e : ℕ) (l : List ℕ) : decVal (e :: l) 0 = e + decVal l 0 / 10 := by
  unfold decVal
  rw [digitsVal_cons]
  simp only [List.length_cons]
  push_cast
  rw [show (1:ℤ) - ((l.length : ℤ) + 1) = -(l.length : ℤ) by ring, show (1:ℤ) - (l.length : ℤ) = -(l.length : ℤ) + 1 by ring,
    zpow_add₀ (by norm_num), zpow_neg, zpow_natCast]
  field_simp

theorem loop_spec : ∀ (n : ℕ) (v : Double), v.Normalized → |v.val| ≤ vmax →
    (extractLoop Double.dispOps n v).length = n ∧ Tame n 0 (extractLoop Double.dispOps n v) ∧
    (v.val ≤ 1 / 2 ^ 20 → (extractLoop Double.dispOps n v)[0]?.getD 0 = 0) ∧
    decVal (extractLoop Double.dispOps n v) 0 ≤ max v.val 0 + 15 / 2 ^ 53 ∧
    max v.val 0 ≤ decVal (extractLoop Double.dispOps n v) 0 + 11 / 10 ^ n + 1 / 2 ^ 97 := by
  intro n
  induction n with
  | zero =>
    intro v hv hb
    have e : extractLoop Double.dispOps 0 v = [] := rfl
    have e2 : decVal [] 0 = 0 := by simp [decVal, digitsVal]
    rw [e, e2]
    refine ⟨rfl, ⟨by intro i hi; omega, by intro i hi; omega⟩, by simp, ?_, ?_⟩
    · have := le_max_right v.val 0
      have : (0:ℚ) ≤ 15 / 2 ^ 53 := by positivity
      linarith
    · have h1 := le_abs_self v.val
      have h2 : vmax ≤ 11 := by unfold vmax; norm_num
      have : max v.val 0 ≤ 11 := max_le (by linarith) (by norm_num)
      have : (0:ℚ) ≤ 1 / 2 ^ 97 := by positivity
      norm_num at *; linarith
  | succ n ih =>
    intro v hv hb
    obtain ⟨e, he, n1, b1, e10, e11, e12, u1, u2⟩ := step_spec hv hb
    obtain ⟨l1, t1, z1, a1, a2⟩ := ih (next v) n1 b1
    have es : extractLoop Double.dispOps (n + 1) v = e :: extractLoop Double.dispOps n (next v) := by
      rw [← he]; rfl
    rw [es, decVal_cons]
    generalize extractLoop Double.dispOps n (next v) = L at *
    refine ⟨by simp [l1], ⟨?_, ?_⟩, ?_, ?_, ?_⟩
    · intro i hi
      cases i with
      | zero => simpa using e10
      | succ i => rw [List.getElem?_cons_succ]; exact t1.1 i (by omega)
    · intro i hi
      cases i with
      | zero =>
        intro h10
        rw [List.getElem?_cons_zero] at h10
        rw [List.getElem?_cons_succ, z1 (e11 h10)]
      | succ i => rw [List.getElem?_cons_succ, List.getElem?_cons_succ]; exact t1.2 i (by omega)
    · intro hs; rw [List.getElem?_cons_zero]; exact e12 hs
    · generalize max (next v).val 0 = N at *
      generalize max v.val 0 = V at *
      norm_num at *; linarith
    · generalize max (next v).val 0 = N at *
      generalize max v.val 0 = V at *
      have e3 : (11:ℚ) / 10 ^ (n + 1) = 11 / 10 ^ n / 10 := by rw [pow_succ]; field_simp
      rw [e3]
      generalize (11:ℚ) / 10 ^ n = t at *
      norm_num at *; linarith

/-! ## The first value of the loop -/

theorem abs_hi (x : Double) : x.abs.hi = x.hi.abs := by
  unfold Double.abs Double.isSignNegative
  obtain ⟨h, l⟩ := x
  cases h with
  | nan s => cases s <;> rfl
  | inf s => cases s <;> rfl
  | fin s m hm => cases s <;> rfl

theorem ten_eq : ten = Double.TEN := by decide +kernel

theorem ten_pow_307 {k : ℕ} (h : k ≤ 307) : (10:ℚ) ^ k ≤ 2 ^ 1020 := by
  have h1 : (10:ℚ) ^ k ≤ 10 ^ 307 := pow_le_pow_right₀ (by norm_num) h
  have h2 : (10:ℕ) ^ 307 ≤ 2 ^ 1020 := by decide +kernel
  exact h1.trans (by exact_mod_cast h2)

theorem ten_powi (k : ℤ) (h1 : -288 ≤ k) (h2 : k ≤ 307) :
    ∃ p, Double.dispOps.tenPowi k = some p ∧ p.Normalized ∧ Rel (1 / 2 ^ 91) p.val ((10:ℚ) ^ k) := by
  change ∃ p, ten.powi k = some p ∧ _
  rw [ten_eq]
  by_cases hk0 : k = 0
  · subst hk0
    refine ⟨Double.ONE, rfl, by decide +kernel, ?_⟩
    have : Double.ONE.val = 1 := by decide +kernel
    rw [this]; unfold Rel; simp
  by_cases hk : |k| ≤ 288
  · obtain ⟨p, p1, p2, p3⟩ := ten_pow k hk0 hk
    refine ⟨p, p1, p2, p3.mono ?_⟩
    rw [div_le_div_iff₀ (by positivity) (by positivity)]
    have : ((|k| + 1 : ℤ) : ℚ) ≤ 289 := by exact_mod_cast (by omega : |k| + 1 ≤ 289)
    norm_num at *; linarith
  · have hp : 288 < k := by
      by_contra hc
      exact hk (abs_le.mpr ⟨h1, by omega⟩)
    obtain ⟨n, rfl⟩ : ∃ n : ℕ, k = (n : ℤ) := ⟨k.natAbs, by omega⟩
    have hn : n ≤ 307 := by exact_mod_cast h2
    obtain ⟨p, p1, p2, p3⟩ := C59_powi_accurate Double.TEN n (by omega) (by omega) Verif.ten_norm.1
      (by
        rw [Verif.ten_norm.2, abs_of_pos (by positivity)]
        exact one_le_mul_of_one_le_of_one_le (one_le_pow₀ (by norm_num)) (one_le_pow₀ (by norm_num)))
      (by rw [Verif.ten_norm.2, abs_of_pos (by positivity)]; exact ten_pow_307 hn)
    refine ⟨p, p1, p2, ?_⟩
    rw [Verif.ten_norm.2] at p3
    unfold Rel
    rw [zpow_natCast]
    have hn' : (n : ℚ) ≤ 307 := by exact_mod_cast hn
    have hT := abs_nonneg ((10:ℚ) ^ n)
    generalize |(10:ℚ) ^ n| = T at *
    generalize |p.val - (10:ℚ) ^ n| = E at *
    have h3 : (n:ℚ) * T ≤ 307 * T := mul_le_mul_of_nonneg_right hn' hT
    norm_num at *; linarith

theorem start_spec {x : Double} (hx : x.Normalized) {k : ℤ} (h1 : -288 ≤ k) (h2 : (10:ℚ) ^ k ≤ |x.val| * (1 + 1 / 2 ^ 40))
    (h3 : |x.val| ≤ (10:ℚ) ^ (k + 1) * (1 + 1 / 2 ^ 40)) (h4 : |x.val| ≤ 2 ^ 1019) :
    ∃ p, Double.dispOps.tenPowi k = some p ∧ k ≤ 307 ∧ (x.abs / p).Normalized ∧ |(x.abs / p).val| ≤ vmax ∧
      |(x.abs / p).val - |x.val| / 10 ^ k| ≤ |x.val| / 10 ^ k / 2 ^ 89 := by
  obtain ⟨an, av⟩ := C41_abs_val x hx
  have hk : k ≤ 307 := by
    by_contra hc
    have e1 : (10:ℚ) ^ (308:ℤ) ≤ 10 ^ k := zpow_le_zpow_right₀ (by norm_num) (by omega)
    have e2 : (2:ℚ) ^ 1021 ≤ 10 ^ (308:ℤ) := by
      have : (2:ℕ) ^ 1021 ≤ 10 ^ 308 := by decide +kernel
      have e : (10:ℚ) ^ (308:ℤ) = 10 ^ (308:ℕ) := by rw [← zpow_natCast]; rfl
      rw [e]; exact_mod_cast this
    have e3 : (2:ℚ) ^ 1021 = 4 * 2 ^ 1019 := by rw [show (1021:ℕ) = 2 + 1019 from rfl, pow_add]; norm_num
    have e4 : (0:ℚ) < 2 ^ 1019 := by positivity
    generalize (2:ℚ) ^ 1019 = T at *
    rw [e3] at e2
    have e5 := abs_nonneg x.val
    clear h3 e3
    generalize (10:ℚ) ^ (308:ℤ) = U at *
    generalize (10:ℚ) ^ k = V at *
    generalize |x.val| = X at *
    have e6 : X * (1 + 1 / 2 ^ 40) ≤ X * 2 := mul_le_mul_of_nonneg_left (by norm_num) e5
    linarith
  obtain ⟨p, p1, p2, p3⟩ := ten_powi k h1 hk
  refine ⟨p, p1, hk, ?_⟩
  have hT : (0:ℚ) < 10 ^ k := zpow_pos (by norm_num) k
  have hlow : 1 / 2 ^ 957 ≤ (10:ℚ) ^ k := by
    have e1 : (10:ℚ) ^ (-288:ℤ) ≤ 10 ^ k := zpow_le_zpow_right₀ (by norm_num) h1
    have e2 : (1:ℚ) / 2 ^ 957 ≤ 10 ^ (-288:ℤ) := by
      have : (10:ℕ) ^ 288 ≤ 2 ^ 957 := by decide +kernel
      have e : (10:ℚ) ^ (-288:ℤ) = 1 / 10 ^ (288:ℕ) := by rw [one_div, ← zpow_natCast, ← zpow_neg]; rfl
      rw [e]
      apply one_div_le_one_div_of_le (by positivity)
      exact_mod_cast this
    exact e2.trans e1
  have h3' : |x.val| ≤ 10 * (10:ℚ) ^ k * (1 + 1 / 2 ^ 40) := by
    rw [zpow_add₀ (by norm_num), zpow_one] at h3; linarith
  clear h3
  have ha := hi_val an
  rw [av, abs_abs] at ha
  have hp := hi_val p2
  have hpv : |p.val - 10 ^ k| ≤ 10 ^ k / 2 ^ 91 := by
    unfold Rel at p3
    rw [abs_of_pos hT] at p3; linarith
  have hpv2 := abs_le.mp hpv
  have hpp : 0 < p.val := by
    have : (10:ℚ) ^ k / 2 ^ 91 < 10 ^ k := div_lt_self hT (by norm_num)
    linarith
  rw [abs_of_pos hpp] at hp
  have hbig : (2:ℚ) ^ 1020 = 2 * 2 ^ 1019 := by rw [show (1020:ℕ) = 1 + 1019 from rfl, pow_add]; norm_num
  have hbig0 : (11:ℚ) ≤ 2 ^ 1019 := by
    have : (2:ℚ) ^ 4 ≤ 2 ^ 1019 := pow_le_pow_right₀ (by norm_num) (by norm_num)
    exact le_trans (by norm_num) this
  have hsm : (2:ℚ) ^ 962 = 2 ^ 5 * 2 ^ 957 := by rw [← pow_add]
  have hsm0 : (1:ℚ) ≤ 2 ^ 957 := one_le_pow₀ (by norm_num)
  have hsm1 : 1 ≤ (10:ℚ) ^ k * 2 ^ 957 := by
    have h9 : (0:ℚ) < 2 ^ 957 := by positivity
    generalize (2:ℚ) ^ 957 = S at *
    rwa [div_le_iff₀ h9] at hlow
  clear hlow
  have hc := C04_div x.abs p an p2
  rw [hbig, hsm, abs_div] at hc
  rw [av] at hc
  generalize (x.abs / p) = q at *
  have hA := abs_nonneg x.abs.hi.toRat
  generalize |x.abs.hi.toRat| = A at *
  have hPne : p.hi.toRat ≠ 0 := by
    intro hz
    rw [hz] at hp; norm_num at hp; linarith
  have hP0 : 0 < |p.hi.toRat| := abs_pos.mpr hPne
  generalize (2:ℚ) ^ 1019 = B at *
  generalize (2:ℚ) ^ 957 = S at *
  generalize (10:ℚ) ^ k = T at *
  generalize |x.val| = X at *
  have hc' := hc hPne
  generalize |p.hi.toRat| = P at *
  clear hc p3 hpv hbig hsm
  have b1 : P ≤ T * (1 + 1 / 2 ^ 30) := by norm_num at *; linarith
  have b2 : T * (1 - 1 / 2 ^ 30) ≤ P := by norm_num at *; linarith
  have b3 : A ≤ 10 * T * (1 + 1 / 2 ^ 30) := by norm_num at *; linarith
  have b4 : T * (1 - 1 / 2 ^ 30) ≤ A := by norm_num at *; linarith
  have d1 : 1 / 2 ≤ A / P := by
    rw [le_div_iff₀ hP0]; norm_num at *; linarith
  have d2 : A / P ≤ 11 := by
    rw [div_le_iff₀ hP0]; norm_num at *; linarith
  obtain ⟨qn, qe⟩ := hc' (by
      have : T * (1 - 1 / 2 ^ 30) * S ≤ A * S := mul_le_mul_of_nonneg_right b4 (by linarith)
      norm_num at *; linarith)
    (by norm_num at *; linarith) (by
      have : 1 / 2 * S ≤ A / P * S := mul_le_mul_of_nonneg_right d1 (by linarith)
      norm_num at *; linarith) (by linarith)
  refine ⟨qn, ?_⟩
  have hX : 0 < X := by norm_num at h2; linarith
  have hXp : 0 < X / p.val := by positivity
  have hXT : 0 < X / T := by positivity
  rw [abs_of_pos hXp] at qe
  have r1 : |X / p.val - X / T| ≤ X / T / 2 ^ 90 := by
    have : X / p.val - X / T = X / T * ((T - p.val) / p.val) := by field_simp
    rw [this, abs_mul, abs_of_pos hXT, div_eq_mul_one_div (X / T)]
    apply mul_le_mul_of_nonneg_left _ hXT.le
    rw [abs_div, abs_of_pos hpp, div_le_iff₀ hpp, abs_le]
    norm_num at *; constructor <;> linarith
  have r2 := abs_le.mp r1
  have r3 : |q.val - X / p.val| ≤ X / p.val / 2 ^ 102 := by
    rw [le_div_iff₀ (by positivity)]; exact qe.le
  have r4 := abs_le.mp r3
  have r5 : X / T ≤ 10 * (1 + 1 / 2 ^ 40) := by
    rw [div_le_iff₀ hT]; linarith
  have fin : |q.val - X / T| ≤ X / T / 2 ^ 89 := by
    rw [abs_le]
    generalize X / T = Y at *
    generalize X / p.val = Z at *
    norm_num at *; constructor <;> linarith
  refine ⟨?_, fin⟩
  have f2 := abs_le.mp fin
  unfold vmax
  rw [abs_le]
  generalize X / T = Y at *
  norm_num at *; constructor <;> linarith

end Verif.Disp
