import Verif.Proofs.Parse
import Mathlib.Data.Char

/-!
# The parsing properties for any number type

The properties C24, C26, C27, C28 for the parser over arbitrary arithmetic, specialised to `Double` and `Quad` elsewhere.
-/

namespace Verif

open Parse

variable {α : Type} (ops : NumOps α)

/-- Powers of ten exist for every exponent the parser can ask for. -/
def TenTotal : Prop := ∀ k : ℤ, -2 ^ 31 < k → k < 2 ^ 31 → ∃ v, ops.powi ops.ten k = some v

theorem numValue_some (ht : TenTotal ops) {m : List Char} {e : ℤ} (h1 : -2 ^ 31 ≤ e - fracDigits m) (h2 : e < 2 ^ 31) :
    ∃ v, numValue ops m e = some v := by
  unfold numValue scaled
  split_ifs with h3 h4 h5
  all_goals first
    | exact ⟨_, rfl⟩
    | (obtain ⟨p, hp⟩ := ht (e - fracDigits m + 307) (by omega) (by omega)
       obtain ⟨q, hq⟩ := ht (-307) (by omega) (by omega)
       rw [hp, hq]; exact ⟨_, rfl⟩)
    | (obtain ⟨p, hp⟩ := ht (e - fracDigits m) (by omega) (by omega)
       rw [hp]; exact ⟨_, rfl⟩)

theorem digits_le (s : List Char) : (digitsOf s).length ≤ s.length := by
  unfold digitsOf; rw [List.length_map]; exact List.length_filter_le _ _

theorem trim_length (s : List Char) : (trim s).length ≤ s.length := by
  unfold trim
  rw [List.length_reverse]
  refine ((List.dropWhile_suffix _).length_le).trans ?_
  rw [List.length_reverse]
  exact (List.dropWhile_suffix _).length_le

theorem cleaned_digits {s : List Char} (h : s.length < 2 ^ 31) : (digitsOf (cleaned s)).length < 2 ^ 31 := by
  have h1 := digits_le (cleaned s)
  have h2 := trim_length s
  unfold cleaned lower at *
  rw [List.length_map] at h1
  omega

theorem NumText.range {s m : List Char} {e : ℤ} (h : NumText s m e) : -2 ^ 31 ≤ e ∧ e < 2 ^ 31 := by
  obtain ⟨_, _, _, h⟩ := h; exact h.range

theorem fromStr_cases (ht : TenTotal ops) {s : List Char} (hl : s.length < 2 ^ 31) :
    (cleaned s = [] ∧ fromStr ops s = some (.error .empty)) ∨
    (cleaned s ∈ specialTexts ∧ ∃ v, fromStr ops s = some (.ok v)) ∨
    (cleaned s ≠ [] ∧ cleaned s ∉ specialTexts ∧ (¬ ∃ m e, NumText (cleaned s) m e) ∧
      fromStr ops s = some (.error .invalid)) ∨
    (cleaned s ≠ [] ∧ cleaned s ∉ specialTexts ∧ ∃ m e, NumText (cleaned s) m e ∧ -2 ^ 31 ≤ e - (fracDigits m : ℤ) ∧
      ∃ v, numValue ops m e = some v ∧ fromStr ops s = some (.ok v)) ∨
    (cleaned s ≠ [] ∧ cleaned s ∉ specialTexts ∧ ∃ m e, NumText (cleaned s) m e ∧ e - (fracDigits m : ℤ) < -2 ^ 31 ∧
      fromStr ops s = none) := by
  by_cases h1 : cleaned s = []
  · exact Or.inl ⟨h1, fromStr_empty ops h1⟩
  · by_cases h2 : cleaned s ∈ specialTexts
    · exact Or.inr (Or.inl ⟨h2, fromStr_special ops h2⟩)
    · by_cases h3 : ∃ m e, NumText (cleaned s) m e
      · obtain ⟨m, e, h3⟩ := h3
        have h4 := fromStr_num ops h3 h1 h2 (cleaned_digits hl)
        by_cases h5 : -2 ^ 31 ≤ e - (fracDigits m : ℤ)
        · rw [if_pos h5] at h4
          obtain ⟨v, hv⟩ := numValue_some ops ht h5 h3.range.2
          rw [hv] at h4
          exact Or.inr (Or.inr (Or.inr (Or.inl ⟨h1, h2, m, e, h3, h5, v, hv, h4⟩)))
        · rw [if_neg h5] at h4
          exact Or.inr (Or.inr (Or.inr (Or.inr ⟨h1, h2, m, e, h3, by omega, h4⟩)))
      · exact Or.inr (Or.inr (Or.inl ⟨h1, h2, h3, fromStr_invalid ops h3 h1 h2 (cleaned_digits hl)⟩))

theorem gen_ok_iff (ht : TenTotal ops) (s : List Char) (hl : s.length < 2 ^ 31) :
    (∃ v, fromStr ops s = some (.ok v)) ↔ cleaned s ∈ specialTexts ∨
      (cleaned s ≠ [] ∧ ∃ m e, NumText (cleaned s) m e ∧ -2 ^ 31 ≤ e - (fracDigits m : ℤ)) := by
  rcases fromStr_cases ops ht hl with ⟨h1, h⟩ | ⟨h1, h⟩ | ⟨h1, h2, h3, h⟩ | ⟨h1, h2, m, e, h3, h4, v, h5, h⟩ |
    ⟨h1, h2, m, e, h3, h4, h⟩
  · rw [h, h1]; simp [specialTexts]
  · exact iff_of_true h (Or.inl h1)
  · rw [h]
    refine iff_of_false (by simp) ?_
    rintro (h' | ⟨_, m, e, h', _⟩)
    exacts [h2 h', h3 ⟨m, e, h'⟩]
  · exact iff_of_true ⟨v, h⟩ (Or.inr ⟨h1, m, e, h3, h4⟩)
  · rw [h]
    refine iff_of_false (by simp) ?_
    rintro (h' | ⟨_, m', e', h', h5⟩)
    · exact h2 h'
    · obtain ⟨rfl, rfl⟩ := h3.unique h'
      omega

theorem gen_err_iff (ht : TenTotal ops) (s : List Char) (hl : s.length < 2 ^ 31) :
    (∃ k, fromStr ops s = some (.error k)) ↔ cleaned s = [] ∨
      (cleaned s ∉ specialTexts ∧ ¬ ∃ m e, NumText (cleaned s) m e) := by
  rcases fromStr_cases ops ht hl with ⟨h1, h⟩ | ⟨h1, v, h⟩ | ⟨h1, h2, h3, h⟩ | ⟨h1, h2, m, e, h3, h4, v, h5, h⟩ |
    ⟨h1, h2, m, e, h3, h4, h⟩
  · exact iff_of_true ⟨_, h⟩ (Or.inl h1)
  · rw [h]
    refine iff_of_false (by simp) ?_
    rintro (h' | ⟨h', _⟩)
    · rw [h'] at h1; simp [specialTexts] at h1
    · exact h' h1
  · exact iff_of_true ⟨_, h⟩ (Or.inr ⟨h2, h3⟩)
  · rw [h]
    refine iff_of_false (by simp) ?_
    rintro (h' | ⟨_, h'⟩)
    exacts [h1 h', h' ⟨m, e, h3⟩]
  · rw [h]
    refine iff_of_false (by simp) ?_
    rintro (h' | ⟨_, h'⟩)
    exacts [h1 h', h' ⟨m, e, h3⟩]

theorem gen_panic_iff (ht : TenTotal ops) (s : List Char) (hl : s.length < 2 ^ 31) :
    fromStr ops s = none ↔ ∃ m e, NumText (cleaned s) m e ∧ e - (fracDigits m : ℤ) < -2 ^ 31 := by
  rcases fromStr_cases ops ht hl with ⟨h1, h⟩ | ⟨h1, v, h⟩ | ⟨h1, h2, h3, h⟩ | ⟨h1, h2, m, e, h3, h4, v, h5, h⟩ |
    ⟨h1, h2, m, e, h3, h4, h⟩
  · rw [h]
    refine iff_of_false (by simp) ?_
    rintro ⟨m, e, ⟨x, h2, h3, h4⟩, h5⟩
    rw [h1] at h2
    obtain ⟨rfl, rfl⟩ := List.append_eq_nil_iff.mp h2.symm
    rcases h4 with ⟨_, rfl⟩ | ⟨t, h, _⟩
    · simp [fracDigits, digitsOf] at h5
    · cases h
  · rw [h]
    refine iff_of_false (by simp) ?_
    rintro ⟨m, e, h2, _⟩
    exact not_num_special h2 h1
  · rw [h]
    refine iff_of_false (by simp) ?_
    rintro ⟨m, e, h', _⟩
    exact h3 ⟨m, e, h'⟩
  · rw [h]
    refine iff_of_false (by simp) ?_
    rintro ⟨m', e', h', h6⟩
    obtain ⟨rfl, rfl⟩ := h3.unique h'
    omega
  · exact iff_of_true h ⟨m, e, h3, h4⟩

theorem cleaned_nil {s : List Char} : cleaned s = [] ↔ trim s = [] := by
  unfold cleaned lower; simp

theorem gen_empty_iff (ht : TenTotal ops) (s : List Char) (hl : s.length < 2 ^ 31) :
    fromStr ops s = some (.error .empty) ↔ trim s = [] := by
  rw [← cleaned_nil]
  rcases fromStr_cases ops ht hl with ⟨h1, h⟩ | ⟨h1, v, h⟩ | ⟨h1, h2, h3, h⟩ | ⟨h1, h2, m, e, h3, h4, v, h5, h⟩ |
    ⟨h1, h2, m, e, h3, h4, h⟩
  · exact iff_of_true h h1
  · rw [h]; refine iff_of_false (by simp) ?_
    intro h'; rw [h'] at h1; simp [specialTexts] at h1
  · rw [h]; exact iff_of_false (by simp) h1
  · rw [h]; exact iff_of_false (by simp) h1
  · rw [h]; exact iff_of_false (by simp) h1

/-! ### White space and case -/

theorem trim_white {w s v : List Char} (hw : ∀ c ∈ w, isWhite c = true) (hv : ∀ c ∈ v, isWhite c = true) :
    trim (w ++ s ++ v) = trim s := by
  unfold trim
  have key : ∀ {w t : List Char}, (∀ c ∈ w, isWhite c = true) → (w ++ t).dropWhile isWhite = t.dropWhile isWhite := by
    intro w t hw
    induction w with
    | nil => rfl
    | cons c w ih =>
      rw [List.cons_append, List.dropWhile_cons_of_pos (hw c List.mem_cons_self)]
      exact ih fun d hd => hw d (List.mem_cons_of_mem _ hd)
  rw [List.append_assoc, key hw, List.dropWhile_append]
  split_ifs with h
  · rw [List.isEmpty_iff] at h
    rw [h]
    have h2 : v.dropWhile isWhite = [] := List.dropWhile_eq_nil_iff.mpr hv
    rw [h2]
  · rw [List.reverse_append, key (by simpa using hv)]

theorem gen_white (w s v : List Char) (hw : ∀ c ∈ w, isWhite c = true) (hv : ∀ c ∈ v, isWhite c = true) :
    fromStr ops (w ++ s ++ v) = fromStr ops s := by
  unfold fromStr; rw [trim_white hw hv]

theorem toLower_nat (c : Char) :
    c.toLower.toNat = if 65 ≤ c.toNat ∧ c.toNat ≤ 90 then c.toNat + 32 else c.toNat := by
  unfold Char.toLower
  split_ifs with h h1 h1
  · rcases c with ⟨v, hv⟩
    simp [Char.toNat] at *
    omega
  · rcases c with ⟨v, hv⟩
    simp only [Char.toNat] at *
    exact absurd h h1
  · rcases c with ⟨v, hv⟩
    simp only [Char.toNat, UInt32.le_iff_toNat_le] at *
    exact absurd h1 h
  · rfl

theorem white_lower (c : Char) : isWhite c.toLower = isWhite c := by
  unfold isWhite
  rw [toLower_nat]
  simp only []
  split_ifs with h
  · have e : ∀ n : ℕ, 65 ≤ n → n ≤ 122 → ((decide (9 ≤ n) && decide (n ≤ 13)) || decide (n = 0x20) || decide (n = 0x85) || decide (n = 0xA0) || decide (n = 0x1680) || (decide (0x2000 ≤ n) && decide (n ≤ 0x200A)) || decide (n = 0x2028) ||
      decide (n = 0x2029) || decide (n = 0x202F) || decide (n = 0x205F) || decide (n = 0x3000)) = false := by
      intro n h1 h2
      simp only [Bool.or_eq_false_iff, Bool.and_eq_false_iff, decide_eq_false_iff_not]
      omega
    rw [e _ (by omega) (by omega), e _ (by omega) (by omega)]
  · rfl

theorem dropWhile_lower (s : List Char) : (s.dropWhile isWhite).map Char.toLower = (s.map Char.toLower).dropWhile isWhite := by
  induction s with
  | nil => rfl
  | cons c s ih =>
    by_cases h : isWhite c = true
    · rw [List.dropWhile_cons_of_pos h, List.map_cons, List.dropWhile_cons_of_pos (by rw [white_lower]; exact h), ih]
    · rw [List.dropWhile_cons_of_neg h, List.map_cons, List.dropWhile_cons_of_neg (by rw [white_lower]; exact h)]

theorem lower_trim (s : List Char) : lower (trim s) = trim (lower s) := by
  unfold lower trim
  rw [List.map_reverse, dropWhile_lower, List.map_reverse, dropWhile_lower]

theorem gen_case (s t : List Char) (h : s.map Char.toLower = t.map Char.toLower) : fromStr ops s = fromStr ops t := by
  have : lower (trim s) = lower (trim t) := by
    rw [lower_trim, lower_trim]; unfold lower; rw [h]
  unfold fromStr; rw [this]

/-! ### Underscores -/

/-- The text without its underscores. -/
def noUnderscores (m : List Char) : List Char := m.filter (· ≠ '_')

theorem digitsOf_us (m : List Char) : digitsOf (noUnderscores m) = digitsOf m := by
  unfold digitsOf noUnderscores
  rw [List.filter_filter]
  congr 1
  apply List.filter_congr
  intro c _
  by_cases h : IsDigit c
  · simp [h, (digit_ne h).2.2.2.2]
  · simp [h]

theorem mem_us {c : Char} {m : List Char} (hc : c ≠ '_') : c ∈ noUnderscores m ↔ c ∈ m := by
  unfold noUnderscores; simp [hc]

theorem drop_us (m : List Char) (p : Char → Bool) (hp : p '_' = true) :
    (noUnderscores m).dropWhile p = noUnderscores (m.dropWhile p) := by
  unfold noUnderscores
  induction m with
  | nil => rfl
  | cons c m ih =>
    by_cases hc : c = '_'
    · subst hc
      rw [List.filter_cons_of_neg (by simp), List.dropWhile_cons_of_pos hp, ih]
    · rw [List.filter_cons_of_pos (by simpa using hc)]
      by_cases h : p c = true
      · rw [List.dropWhile_cons_of_pos h, List.dropWhile_cons_of_pos h, ih]
      · rw [List.dropWhile_cons_of_neg h, List.dropWhile_cons_of_neg h, List.filter_cons_of_pos (by simpa using hc)]

theorem frac_us (m : List Char) : fracDigits (noUnderscores m) = fracDigits m := by
  unfold fracDigits
  rw [drop_us m _ (by decide), digitsOf_us]

theorem Mantissa.us {m : List Char} : Mantissa (noUnderscores m) ↔ Mantissa m := by
  have c1 : (noUnderscores m).count '.' = m.count '.' := by
    unfold noUnderscores; rw [List.count_filter (by decide)]
  have c2 : (noUnderscores m).countP (fun c => decide (IsSign c)) = m.countP (fun c => decide (IsSign c)) := by
    unfold noUnderscores
    rw [List.countP_filter]
    congr 1
    funext c
    by_cases h : IsSign c
    · have : c ≠ '_' := by rintro rfl; revert h; decide
      simp [h, this]
    · simp [h]
  have c3 := drop_us m (fun c => !decide (IsDigit c)) (by decide)
  constructor
  · rintro ⟨h1, h2, h3, h4⟩
    refine ⟨?_, by rwa [c1] at h2, by rwa [c2] at h3, ?_⟩
    · intro c hc
      by_cases h : c = '_'
      · exact Or.inr (Or.inr (Or.inl h))
      · exact h1 c ((mem_us h).mpr hc)
    · intro c hc hs
      have : c ≠ '_' := by rintro rfl; revert hs; decide
      refine h4 c ?_ hs
      rw [c3]; exact (mem_us this).mpr hc
  · rintro ⟨h1, h2, h3, h4⟩
    refine ⟨?_, by rwa [c1], by rwa [c2], ?_⟩
    · intro c hc
      exact h1 c (List.mem_of_mem_filter hc)
    · intro c hc
      rw [c3] at hc
      exact h4 c (List.mem_of_mem_filter hc)

theorem numValue_us (m : List Char) (e : ℤ) : numValue ops (noUnderscores m) e = numValue ops m e := by
  unfold numValue
  rw [digitsOf_us, frac_us]
  have : '-' ∈ noUnderscores m ↔ '-' ∈ m := mem_us (by decide)
  simp only [this]

theorem gen_us (s t m x : List Char) (hs : s.length < 2 ^ 31) (hlt : t.length < 2 ^ 31)
    (es : cleaned s = m ++ x) (et : cleaned t = noUnderscores m ++ x) (hm : 'e' ∉ m)
    (hx : x = [] ∨ x.head? = some 'e') (h0 : cleaned t ≠ []) (h1 : cleaned t ∉ specialTexts) :
    fromStr ops s = fromStr ops t := by
  have h0' : cleaned s ≠ [] := by
    intro h
    rw [es] at h
    obtain ⟨rfl, rfl⟩ := List.append_eq_nil_iff.mp h
    exact h0 et
  have h1' : cleaned s ∉ specialTexts := by
    intro h
    have hu : noUnderscores (cleaned s) = cleaned s := by
      revert h
      generalize cleaned s = c
      unfold specialTexts
      simp only [List.mem_cons, List.not_mem_nil, or_false]
      rintro (h | h | h | h | h) <;> rw [h] <;> decide
    have hmu : noUnderscores m = m := by
      rw [es] at hu
      unfold noUnderscores at *
      rw [List.filter_append] at hu
      rw [List.filter_eq_self]
      intro c hc
      have h5 : ∀ d ∈ m ++ x, (fun c => decide (c ≠ '_')) d = true := by
        rw [← List.filter_eq_self, List.filter_append]; exact hu
      exact h5 c (List.mem_append_left _ hc)
    rw [hmu, ← es] at et
    rw [et] at h1; exact h1 h
  -- the only way to split either text
  have key : ∀ {a b : List Char}, 'e' ∉ a → ∀ {m' : List Char} {e : ℤ}, NumText (a ++ x) m' e → m' = a ∧ ExpText x e := by
    intro a b ha m' e h
    obtain ⟨x', h1, h2, h3⟩ := h
    have e1 : (m' ++ x').takeWhile (· ≠ 'e') = m' := by
      rw [List.takeWhile_append_of_pos (fun c hc => by simpa using h2.no_e c hc)]
      rcases h3 with ⟨rfl, _⟩ | ⟨t, rfl, _⟩ <;> simp
    have e2 : (a ++ x).takeWhile (· ≠ 'e') = a := by
      rw [List.takeWhile_append_of_pos (fun c hc => by
        have : c ≠ 'e' := fun h => ha (h ▸ hc)
        simpa using this)]
      rcases hx with rfl | hx
      · simp
      · cases x with
        | nil => simp
        | cons d x => simp at hx; subst hx; simp
    rw [h1, e1] at e2
    subst e2
    rw [List.append_cancel_left_eq] at h1
    subst h1
    exact ⟨rfl, h3⟩
  have hmu : 'e' ∉ noUnderscores m := fun h => hm ((mem_us (by decide)).mp h)
  by_cases h : ∃ m' e, NumText (cleaned s) m' e
  · obtain ⟨m', e, h⟩ := h
    have h2 := h
    rw [es] at h2
    obtain ⟨rfl, hE⟩ := key (b := []) hm h2
    have hM : Mantissa m' := by
      obtain ⟨x', k1, k2, _⟩ := h2
      exact k2
    have h3 : NumText (cleaned t) (noUnderscores m') e := ⟨x, et, Mantissa.us.mpr hM, hE⟩
    rw [fromStr_num ops h h0' h1' (cleaned_digits hs), fromStr_num ops h3 h0 h1 (cleaned_digits hlt), frac_us, numValue_us]
  · have h3 : ¬ ∃ m' e, NumText (cleaned t) m' e := by
      rintro ⟨m', e, h3⟩
      have h4 := h3
      rw [et] at h4
      obtain ⟨rfl, hE⟩ := key (b := []) hmu h4
      obtain ⟨x', k1, k2, _⟩ := h4
      exact h ⟨m, e, x, es, Mantissa.us.mp k2, hE⟩
    rw [fromStr_invalid ops h h0' h1' (cleaned_digits hs), fromStr_invalid ops h3 h0 h1 (cleaned_digits hlt)]

/-! ### Signs -/

theorem cleaned_cons {c : Char} {s : List Char} (hc : c = '-' ∨ c = '+') (hs : ∀ d, s.head? = some d → isWhite d = false) :
    cleaned (c :: s) = c :: cleaned s := by
  have hw : isWhite c = false := by rcases hc with rfl | rfl <;> decide
  have e1 : s.dropWhile isWhite = s := by
    cases s with
    | nil => rfl
    | cons d s => exact List.dropWhile_cons_of_neg (by rw [hs d rfl]; simp)
  have e2 : (c :: s).dropWhile isWhite = c :: s := List.dropWhile_cons_of_neg (by rw [hw]; simp)
  unfold cleaned lower trim
  rw [e1, e2, List.reverse_cons, List.dropWhile_append]
  have el : c.toLower = c := by rcases hc with rfl | rfl <;> decide
  split_ifs with h
  · rw [List.isEmpty_iff] at h
    rw [h, List.dropWhile_cons_of_neg (by rw [hw]; simp)]
    simp [el]
  · simp [el]

theorem gen_sign (s m : List Char) (e : ℤ) (hl : s.length + 1 < 2 ^ 31)
    (hw : ∀ d, s.head? = some d → isWhite d = false) (h0 : cleaned s ≠ []) (h : NumText (cleaned s) m e)
    (hn : ∀ c ∈ m, ¬ IsSign c) :
    fromStr ops ('+' :: s) = fromStr ops s ∧
      fromStr ops ('-' :: s) = (fromStr ops s).map fun r => r.map ops.neg := by
  have hM : Mantissa m := by obtain ⟨_, _, h, _⟩ := h; exact h
  have c1 := cleaned_cons (c := '+') (Or.inr rfl) hw
  have c2 := cleaned_cons (c := '-') (Or.inl rfl) hw
  have mant : ∀ c, IsSign c → Mantissa (c :: m) := by
    intro c hc
    have nd : ¬ IsDigit c := by rcases hc with rfl | rfl <;> decide
    refine ⟨?_, ?_, ?_, ?_⟩
    · intro d hd
      rcases List.mem_cons.mp hd with rfl | hd
      · exact Or.inr (Or.inr (Or.inr hc))
      · exact hM.chars d hd
    · have : c ≠ '.' := by rintro rfl; revert hc; decide
      rw [List.count_cons_of_ne this]; exact hM.point
    · rw [List.countP_cons_of_pos (by simpa using hc), List.countP_eq_zero.mpr (by simpa using hn)]
    · rw [List.dropWhile_cons_of_pos (by simpa using nd)]
      exact hM.first
  have num : ∀ c, IsSign c → NumText (c :: cleaned s) (c :: m) e := by
    intro c hc
    obtain ⟨x, h1, h2, h3⟩ := h
    exact ⟨x, by rw [h1]; rfl, mant c hc, h3⟩
  have dg : ∀ c, IsSign c → digitsOf (c :: m) = digitsOf m ∧ fracDigits (c :: m) = fracDigits m := by
    intro c hc
    have nd : ¬ IsDigit c := by rcases hc with rfl | rfl <;> decide
    have : c ≠ '.' := by rintro rfl; revert hc; decide
    constructor
    · rw [show c :: m = [c] ++ m from rfl, digitsOf_append, digitsOf_other nd, List.nil_append]
    · unfold fracDigits
      rw [List.dropWhile_cons_of_pos (by simpa using this)]
  have e0 := fromStr_num ops h h0 (not_num_special h) (cleaned_digits (by omega))
  have np := num '+' (Or.inl rfl)
  have nm := num '-' (Or.inr rfl)
  have hsp : ∀ c, IsSign c → cleaned (c :: s) = c :: cleaned s := by
    rintro c (rfl | rfl); exacts [c1, c2]
  have e1 := fromStr_num ops (s := '+' :: s) (by rw [c1]; exact np) (by rw [c1]; simp)
    (not_num_special (by rw [c1]; exact np)) (cleaned_digits (by simpa using hl))
  have e2 := fromStr_num ops (s := '-' :: s) (by rw [c2]; exact nm) (by rw [c2]; simp)
    (not_num_special (by rw [c2]; exact nm)) (cleaned_digits (by simpa using hl))
  have n1 : '-' ∉ m := fun h => hn _ h (Or.inr rfl)
  have n2 : '-' ∉ '+' :: m := by
    intro h
    rcases List.mem_cons.mp h with h | h
    · exact absurd h (by decide)
    · exact n1 h
  rw [e0, e1, e2, (dg '+' (Or.inl rfl)).2, (dg '-' (Or.inr rfl)).2]
  unfold numValue
  rw [(dg '+' (Or.inl rfl)).1, (dg '-' (Or.inr rfl)).1, (dg '+' (Or.inl rfl)).2, (dg '-' (Or.inr rfl)).2]
  simp only [n1, n2, List.mem_cons_self, if_true, if_false]
  constructor
  · trivial
  · split_ifs
    · rw [Option.map_map, Option.map_map, Option.map_map]
      rfl
    · rfl

end Verif
