import Verif.SpecText
import Mathlib.Data.List.Basic
import Mathlib.Data.List.TakeWhile

/-!
# The parser recognises the grammar and computes its meaning
-/

namespace Verif

open Parse

theorem toDigit_eq (c : Char) : toDigit c = if IsDigit c then some (c.toNat - 48) else none := rfl

theorem digitsOf_append (p m : List Char) : digitsOf (p ++ m) = digitsOf p ++ digitsOf m := by
  unfold digitsOf; simp

theorem digitsOf_digit {c : Char} (h : IsDigit c) : digitsOf [c] = [c.toNat - 48] := by
  unfold digitsOf; simp [h]

theorem digitsOf_other {c : Char} (h : ¬ IsDigit c) : digitsOf [c] = [] := by
  unfold digitsOf; simp [h]

theorem digitsOf_eq_nil {m : List Char} : digitsOf m = [] ↔ ∀ c ∈ m, ¬ IsDigit c := by
  unfold digitsOf; simp

theorem digits_mapM {ds : List Char} : ds.mapM toDigit = if (∀ c ∈ ds, IsDigit c) then some (digitsOf ds) else none := by
  induction ds with
  | nil => simp [digitsOf]
  | cons c cs ih =>
    rw [List.mapM_cons, ih, toDigit_eq]
    by_cases hc : IsDigit c
    · by_cases h : ∀ c ∈ cs, IsDigit c
      · have h' : ∀ d ∈ c :: cs, IsDigit d := by simpa [hc] using h
        have e : digitsOf (c :: cs) = (c.toNat - 48) :: digitsOf cs := by unfold digitsOf; simp [hc]
        rw [if_pos h', if_pos h, if_pos hc, e]; rfl
      · have h' : ¬ ∀ d ∈ c :: cs, IsDigit d := by
          intro h'; exact h fun d hd => h' d (List.mem_cons_of_mem _ hd)
        rw [if_neg h', if_neg h, if_pos hc]; rfl
    · have h' : ¬ ∀ d ∈ c :: cs, IsDigit d := fun h' => hc (h' c List.mem_cons_self)
      rw [if_neg h', if_neg hc]; rfl

theorem i32_iff {n e : ℤ} : i32? n = some e ↔ e = n ∧ -2 ^ 31 ≤ e ∧ e < 2 ^ 31 := by
  unfold i32?
  split_ifs with h
  · constructor
    · intro h'; cases h'; exact ⟨rfl, h⟩
    · rintro ⟨rfl, _⟩; rfl
  · constructor
    · intro h'; cases h'
    · rintro ⟨rfl, h'⟩; exact absurd h' h

/-- `parse::<i32>` accepts exactly the texts of the specification. -/
theorem parseI32_iff {t : List Char} {e : ℤ} : parseI32 t = some e ↔ I32Text t e := by
  have key : ∀ (sgn : ℤ) (ds : List Char),
      ((if ds = [] then none else match ds.mapM toDigit with | none => none | some l => i32? (sgn * digitsVal l)) = some e) ↔
        (ds ≠ [] ∧ (∀ c ∈ ds, IsDigit c) ∧ e = sgn * intOf ds ∧ -2 ^ 31 ≤ e ∧ e < 2 ^ 31) := by
    intro sgn ds
    rw [digits_mapM]
    by_cases h1 : ds = []
    · simp [h1]
    · by_cases h2 : ∀ c ∈ ds, IsDigit c
      · rw [if_neg h1, if_pos h2]
        simp only [i32_iff]
        constructor
        · rintro ⟨h, h'⟩; exact ⟨h1, h2, h, h'⟩
        · rintro ⟨_, _, h, h'⟩; exact ⟨h, h'⟩
      · rw [if_neg h1, if_neg h2]
        constructor
        · intro h; cases h
        · rintro ⟨_, h, _⟩; exact absurd h h2
  have nd1 : ¬ IsDigit '-' := by decide
  have nd2 : ¬ IsDigit '+' := by decide
  unfold parseI32 I32Text
  split
  rename_i _ sgn ds' heq
  refine Iff.trans (key sgn ds') ?_
  split at heq
  · rename_i t
    obtain ⟨rfl, rfl⟩ := Prod.mk.inj heq
    constructor
    · rintro ⟨h1, h2, h3, h4⟩
      exact ⟨['-'], t, rfl, by simp, h1, h2, by simp [h3], h4⟩
    · rintro ⟨sg, ds, h0, hs, h1, h2, h3, h4⟩
      rcases hs with rfl | rfl | rfl
      · rw [List.nil_append] at h0; subst h0
        exact absurd (h2 '-' List.mem_cons_self) nd1
      · simp at h0
      · simp at h0; subst h0
        refine ⟨h1, h2, ?_, h4⟩
        simpa using h3
  · rename_i t
    obtain ⟨rfl, rfl⟩ := Prod.mk.inj heq
    constructor
    · rintro ⟨h1, h2, h3, h4⟩
      exact ⟨['+'], t, rfl, by simp, h1, h2, by simp [h3], h4⟩
    · rintro ⟨sg, ds, h0, hs, h1, h2, h3, h4⟩
      rcases hs with rfl | rfl | rfl
      · rw [List.nil_append] at h0; subst h0
        exact absurd (h2 '+' List.mem_cons_self) nd2
      · simp at h0; subst h0
        refine ⟨h1, h2, ?_, h4⟩
        simpa using h3
      · simp at h0
  · rename_i n1 n2
    obtain ⟨rfl, rfl⟩ := Prod.mk.inj heq
    constructor
    · rintro ⟨h1, h2, h3, h4⟩
      exact ⟨[], t, rfl, by simp, h1, h2, by simp [h3], h4⟩
    · rintro ⟨sg, ds, h0, hs, h1, h2, h3, h4⟩
      rcases hs with rfl | rfl | rfl
      · simp at h0; subst h0
        refine ⟨h1, h2, ?_, h4⟩
        simpa using h3
      · exact absurd h0 (n2 ds)
      · exact absurd h0 (n1 ds)

/-! ### The loop -/

section

variable {α : Type} (ops : NumOps α)

/-- Digits accumulated by the arithmetic of the number type. -/
def accum (l : List ℕ) : α := l.foldl (fun r d => ops.add (ops.mul r ops.ten) (ops.ofDigit d)) ops.zero

theorem accum_append (l : List ℕ) (d : ℕ) :
    accum ops (l ++ [d]) = ops.add (ops.mul (accum ops l) ops.ten) (ops.ofDigit d) := by
  unfold accum; simp

/-- Number of digits before the point. -/
def intDigits (m : List Char) : ℕ := (digitsOf (m.takeWhile (· ≠ '.'))).length

/-- What the variables are after reading the text `p`. -/
def Inv (p : List Char) (st : PState α) : Prop :=
  st.result = accum ops (digitsOf p) ∧ st.digits = (digitsOf p).length ∧
    st.point = (if '.' ∈ p then (intDigits p : ℤ) else -1) ∧
    st.sign = (if '-' ∈ p then -1 else if '+' ∈ p then 1 else 0)

theorem sliceFrom_ascii {p cs : List Char} (h : ∀ c ∈ p, c.utf8Size = 1) : sliceFrom (p ++ cs) p.length = some cs := by
  induction p with
  | nil => cases cs <;> rfl
  | cons c p ih =>
    have hc := h c List.mem_cons_self
    have := ih fun d hd => h d (List.mem_cons_of_mem _ hd)
    simp only [List.cons_append, List.length_cons, sliceFrom, hc]
    simpa using this

theorem ascii_size {c : Char} (h : c.toNat < 128) : c.utf8Size = 1 := by
  unfold Char.utf8Size
  rw [if_pos]
  unfold Char.toNat at h
  rw [UInt32.le_iff_toNat_le]
  have : (UInt32.ofNatLT 0x7f (by decide)).toNat = 127 := rfl
  omega

theorem digit_range {c : Char} (h : IsDigit c) : 48 ≤ c.toNat ∧ c.toNat ≤ 57 := by
  unfold IsDigit at h
  rw [Char.le_def, Char.le_def, UInt32.le_iff_toNat_le, UInt32.le_iff_toNat_le] at h
  exact h

theorem mant_size {c : Char} (h : IsDigit c ∨ c = '.' ∨ c = '_' ∨ IsSign c) : c.utf8Size = 1 := by
  apply ascii_size
  rcases h with h | rfl | rfl | rfl | rfl
  · have := digit_range h; omega
  all_goals decide

/-! Extending a mantissa by one character -/

theorem drop_snoc (p : List Char) (c : Char) :
    (p ++ [c]).dropWhile (fun c => !decide (IsDigit c)) =
      if (∀ d ∈ p, ¬ IsDigit d) then (if IsDigit c then [c] else []) else
        p.dropWhile (fun c => !decide (IsDigit c)) ++ [c] := by
  rw [List.dropWhile_append]
  have e : (p.dropWhile (fun c => !decide (IsDigit c))).isEmpty = true ↔ ∀ d ∈ p, ¬ IsDigit d := by
    rw [List.isEmpty_iff, List.dropWhile_eq_nil_iff]; simp
  by_cases h : ∀ d ∈ p, ¬ IsDigit d
  · rw [if_pos (e.mpr h), if_pos h]
    by_cases hc : IsDigit c <;> simp [hc]
  · rw [if_neg (fun h' => h (e.mp h')), if_neg h]

theorem Mantissa.snoc {p : List Char} {c : Char} (h : Mantissa p) (hc : IsDigit c ∨ c = '.' ∨ c = '_' ∨ IsSign c)
    (hp : c = '.' → '.' ∉ p) (hs : IsSign c → (∀ d ∈ p, ¬ IsSign d) ∧ ∀ d ∈ p, ¬ IsDigit d) : Mantissa (p ++ [c]) where
  chars := by
    intro d hd
    rcases List.mem_append.mp hd with hd | hd
    · exact h.chars d hd
    · rw [List.mem_singleton] at hd; subst hd; exact hc
  point := by
    rw [List.count_append]
    by_cases he : c = '.'
    · subst he
      rw [List.count_eq_zero_of_not_mem (hp rfl)]; simp
    · have := h.point
      simp [he]; omega
  sign := by
    rw [List.countP_append]
    by_cases he : IsSign c
    · rw [List.countP_eq_zero.mpr (by simpa using (hs he).1)]; simp [he]
    · have := h.sign
      simpa [he] using this
  first := by
    intro d hd
    rw [drop_snoc] at hd
    split_ifs at hd with h1 h2
    · rw [List.mem_singleton] at hd; subst hd
      intro hs'
      rcases hs' with rfl | rfl <;> revert h2 <;> decide
    · cases hd
    · rcases List.mem_append.mp hd with hd | hd
      · exact h.first d hd
      · rw [List.mem_singleton] at hd; subst hd
        exact fun h' => h1 (hs h').2

theorem Mantissa.nil : Mantissa [] := ⟨by simp, by simp, by simp, by simp⟩

theorem Mantissa.char {p m : List Char} {c : Char} (h : Mantissa (p ++ c :: m)) :
    IsDigit c ∨ c = '.' ∨ c = '_' ∨ IsSign c := h.chars c (by simp)

theorem Mantissa.no_point {p m : List Char} (h : Mantissa (p ++ '.' :: m)) : '.' ∉ p := by
  intro hp
  have h1 := h.point
  rw [List.count_append, List.count_cons_self] at h1
  have := List.count_pos_iff.mpr hp
  omega

theorem Mantissa.no_sign {p m : List Char} {c : Char} (hc : IsSign c) (h : Mantissa (p ++ c :: m)) :
    (∀ d ∈ p, ¬ IsSign d) ∧ ∀ d ∈ p, ¬ IsDigit d := by
  constructor
  · intro d hd hs
    have h1 := h.sign
    rw [List.countP_append, List.countP_cons_of_pos (by simpa using hc)] at h1
    have : 0 < p.countP (fun c => decide (IsSign c)) := List.countP_pos_iff.mpr ⟨d, hd, by simpa using hs⟩
    omega
  · intro d hd hs
    refine h.first c ?_ hc
    rw [List.dropWhile_append]
    have : ¬ (p.dropWhile (fun c => !decide (IsDigit c))).isEmpty = true := by
      rw [List.isEmpty_iff, List.dropWhile_eq_nil_iff]
      intro h'
      have := h' d hd
      simp [hs] at this
    rw [if_neg this]
    simp

theorem digit_ne {c : Char} (h : IsDigit c) : c ≠ '.' ∧ c ≠ '-' ∧ c ≠ '+' ∧ c ≠ 'e' ∧ c ≠ '_' := by
  refine ⟨?_, ?_, ?_, ?_, ?_⟩ <;> rintro rfl <;> revert h <;> decide

theorem takeWhile_snoc (p : List Char) (c : Char) :
    (p ++ [c]).takeWhile (· ≠ '.') =
      if '.' ∈ p then p.takeWhile (· ≠ '.') else p ++ (if c = '.' then [] else [c]) := by
  induction p with
  | nil => by_cases h : c = '.' <;> simp [h]
  | cons d p ih =>
    by_cases hd : d = '.'
    · subst hd; simp
    · rw [List.cons_append, List.takeWhile_cons_of_pos (by simpa using hd), ih,
        List.takeWhile_cons_of_pos (by simpa using hd)]
      have : '.' ∈ d :: p ↔ '.' ∈ p := by simp [Ne.symm hd]
      by_cases h : '.' ∈ p
      · rw [if_pos h, if_pos (this.mpr h)]
      · rw [if_neg h, if_neg (fun h' => h (this.mp h'))]; rfl

theorem intDigits_snoc {p : List Char} {c : Char} (h : '.' ∈ p) : intDigits (p ++ [c]) = intDigits p := by
  unfold intDigits; rw [takeWhile_snoc, if_pos h]

theorem Inv.point_snoc {p : List Char} {st : PState α} {c : Char} (h : Inv ops p st) (hc : c ≠ '.') :
    st.point = (if '.' ∈ p ++ [c] then (intDigits (p ++ [c]) : ℤ) else -1) := by
  rw [h.2.2.1]
  have e : ('.' ∈ p ++ [c]) ↔ '.' ∈ p := by simp [hc.symm]
  by_cases hp : '.' ∈ p
  · rw [if_pos hp, if_pos (e.mpr hp), intDigits_snoc hp]
  · rw [if_neg hp, if_neg (fun h => hp (e.mp h))]

theorem Inv.sign_snoc {p : List Char} {st : PState α} {c : Char} (h : Inv ops p st) (hc : ¬ IsSign c) :
    st.sign = (if '-' ∈ p ++ [c] then -1 else if '+' ∈ p ++ [c] then 1 else 0) := by
  rw [h.2.2.2]
  have h1 : '-' ≠ c := fun h => hc (Or.inr h.symm)
  have h2 : '+' ≠ c := fun h => hc (Or.inl h.symm)
  simp [h1, h2]

theorem Inv.snoc_digit {p : List Char} {st : PState α} {c : Char} (h : Inv ops p st) (hc : IsDigit c) :
    Inv ops (p ++ [c]) { st with result := ops.add (ops.mul st.result ops.ten) (ops.ofDigit (c.toNat - 48)),
                                 digits := st.digits + 1 } := by
  have hn := digit_ne hc
  refine ⟨?_, ?_, h.point_snoc ops hn.1, h.sign_snoc ops ?_⟩
  · simp only []
    rw [digitsOf_append, digitsOf_digit hc, accum_append, h.1]
  · simp only []
    rw [digitsOf_append, digitsOf_digit hc, h.2.1]; simp
  · rintro (h | h)
    · exact hn.2.2.1 h
    · exact hn.2.1 h

theorem Inv.res_snoc {p : List Char} {st : PState α} {c : Char} (h : Inv ops p st) (hc : ¬ IsDigit c) :
    st.result = accum ops (digitsOf (p ++ [c])) ∧ st.digits = (digitsOf (p ++ [c])).length := by
  rw [digitsOf_append, digitsOf_other hc, List.append_nil]
  exact ⟨h.1, h.2.1⟩

theorem Inv.snoc_us {p : List Char} {st : PState α} (h : Inv ops p st) : Inv ops (p ++ ['_']) st := by
  have hd : ¬ IsDigit '_' := by decide
  exact ⟨(h.res_snoc ops hd).1, (h.res_snoc ops hd).2, h.point_snoc ops (by decide), h.sign_snoc ops (by decide)⟩

theorem Inv.snoc_point {p : List Char} {st : PState α} (h : Inv ops p st) (hp : '.' ∉ p) :
    Inv ops (p ++ ['.']) { st with point := st.digits } := by
  have hd : ¬ IsDigit '.' := by decide
  refine ⟨(h.res_snoc ops hd).1, (h.res_snoc ops hd).2, ?_, h.sign_snoc ops (by decide)⟩
  simp only []
  rw [if_pos (by simp), h.2.1]
  unfold intDigits
  rw [takeWhile_snoc, if_neg hp]
  simp

theorem Inv.snoc_minus {p : List Char} {st : PState α} (h : Inv ops p st) :
    Inv ops (p ++ ['-']) { st with sign := -1 } := by
  have hd : ¬ IsDigit '-' := by decide
  refine ⟨(h.res_snoc ops hd).1, (h.res_snoc ops hd).2, h.point_snoc ops (by decide), ?_⟩
  simp

theorem Inv.snoc_plus {p : List Char} {st : PState α} (h : Inv ops p st) (hs : ∀ d ∈ p, ¬ IsSign d) :
    Inv ops (p ++ ['+']) { st with sign := 1 } := by
  have hd : ¬ IsDigit '+' := by decide
  refine ⟨(h.res_snoc ops hd).1, (h.res_snoc ops hd).2, h.point_snoc ops (by decide), ?_⟩
  simp only []
  have : '-' ∉ p ++ ['+'] := by
    intro h
    rcases List.mem_append.mp h with h | h
    · exact hs _ h (Or.inr rfl)
    · simp at h
  rw [if_neg this, if_pos (by simp)]

theorem Inv.sign_zero {p : List Char} {st : PState α} (h : Inv ops p st) :
    st.sign ≠ 0 ∨ st.digits > 0 ↔ ¬ ((∀ d ∈ p, ¬ IsSign d) ∧ ∀ d ∈ p, ¬ IsDigit d) := by
  have e1 : st.sign = 0 ↔ ∀ d ∈ p, ¬ IsSign d := by
    rw [h.2.2.2]
    constructor
    · intro h d hd hs
      rcases hs with rfl | rfl
      · split_ifs at h; omega
      · rw [if_pos hd] at h; omega
    · intro h
      rw [if_neg fun h' => h _ h' (Or.inr rfl), if_neg fun h' => h _ h' (Or.inl rfl)]
  have e2 : ¬ st.digits > 0 ↔ ∀ d ∈ p, ¬ IsDigit d := by
    rw [h.2.1, ← digitsOf_eq_nil, ← List.length_eq_zero_iff]; omega
  rw [← e1, ← e2]; tauto

theorem Inv.point_neg {p : List Char} {st : PState α} (h : Inv ops p st) : st.point ≥ 0 ↔ '.' ∈ p := by
  rw [h.2.2.1]; split_ifs with h' <;> simp [h']

/-- What the loop does with the remaining text. -/
theorem loop_spec (s : List Char) : ∀ (cs p : List Char) (st : PState α), s = p ++ cs → Mantissa p → Inv ops p st →
    (digitsOf s).length < 2 ^ 31 →
    (∃ m x e st', cs = m ++ x ∧ Mantissa (p ++ m) ∧ ExpText x e ∧ Inv ops (p ++ m) st' ∧
      loop ops s cs p.length st = some (.ok (st', e))) ∨
    ((¬ ∃ m x e, cs = m ++ x ∧ Mantissa (p ++ m) ∧ ExpText x e) ∧
      loop ops s cs p.length st = some (.error .invalid)) := by
  intro cs
  induction cs with
  | nil =>
    intro p st hs hm hi hd
    exact Or.inl ⟨[], [], 0, st, rfl, by simpa using hm, Or.inl ⟨rfl, rfl⟩, by simpa using hi, rfl⟩
  | cons c cs ih =>
    intro p st hs hm hi hd
    -- one more character of the mantissa
    have step : ∀ st', Mantissa (p ++ [c]) → Inv ops (p ++ [c]) st' → c ≠ 'e' →
        loop ops s (c :: cs) p.length st = loop ops s cs (p.length + 1) st' →
        (∃ m x e st', c :: cs = m ++ x ∧ Mantissa (p ++ m) ∧ ExpText x e ∧ Inv ops (p ++ m) st' ∧
          loop ops s (c :: cs) p.length st = some (.ok (st', e))) ∨
        ((¬ ∃ m x e, c :: cs = m ++ x ∧ Mantissa (p ++ m) ∧ ExpText x e) ∧
          loop ops s (c :: cs) p.length st = some (.error .invalid)) := by
      intro st' hm' hi' hne hl
      have hlen : (p ++ [c]).length = p.length + 1 := by simp
      rw [hl, ← hlen]
      rcases ih (p ++ [c]) st' (by simp [hs]) hm' hi' hd with ⟨m, x, e, st'', h1, h2, h3, h4, h5⟩ | ⟨h1, h2⟩
      · exact Or.inl ⟨c :: m, x, e, st'', by simp [h1], by simpa using h2, h3, by simpa using h4, h5⟩
      · refine Or.inr ⟨?_, h2⟩
        rintro ⟨m, x, e, h3, h4, h5⟩
        cases m with
        | nil =>
          rw [List.nil_append] at h3
          rcases h5 with ⟨rfl, _⟩ | ⟨t, rfl, _⟩
          · cases h3
          · rw [List.cons.injEq] at h3; exact hne h3.1
        | cons d m =>
          rw [List.cons_append, List.cons.injEq] at h3
          obtain ⟨rfl, h3⟩ := h3
          exact h1 ⟨m, x, e, h3, by simpa using h4, h5⟩
    -- a character that cannot be part of the mantissa, nor start the exponent
    have stop : c ≠ 'e' → (∀ m, ¬ Mantissa (p ++ c :: m)) →
        ¬ ∃ m x e, c :: cs = m ++ x ∧ Mantissa (p ++ m) ∧ ExpText x e := by
      rintro hne hm' ⟨m, x, e, h3, h4, h5⟩
      cases m with
      | nil =>
        rw [List.nil_append] at h3
        rcases h5 with ⟨rfl, _⟩ | ⟨t, rfl, _⟩
        · cases h3
        · rw [List.cons.injEq] at h3; exact hne h3.1
      | cons d m =>
        rw [List.cons_append, List.cons.injEq] at h3
        obtain ⟨rfl, h3⟩ := h3
        exact hm' m h4
    by_cases hc : IsDigit c
    · have hn := digit_ne hc
      refine step _ (hm.snoc (Or.inl hc) (fun h => absurd h hn.1) ?_) (hi.snoc_digit ops hc) hn.2.2.2.1 ?_
      · rintro (h | h)
        · exact absurd h hn.2.2.1
        · exact absurd h hn.2.1
      · have hdig : i32? (st.digits + 1) = some (st.digits + 1) := by
          rw [i32_iff]
          have h1 := hi.2.1
          rw [hs, digitsOf_append, show c :: cs = [c] ++ cs from rfl, digitsOf_append, digitsOf_digit hc] at hd
          simp at hd
          refine ⟨rfl, ?_, ?_⟩ <;> rw [h1] <;> omega
        rw [loop, toDigit_eq, if_pos hc]
        simp only [hdig]
    · have htd : toDigit c = none := by rw [toDigit_eq, if_neg hc]
      by_cases h1 : c = '.'
      · subst h1
        by_cases hp : '.' ∈ p
        · right
          refine ⟨stop (by decide) fun m hm' => hm'.no_point hp, ?_⟩
          rw [loop, htd]
          simp only [if_true]
          rw [if_pos ((hi.point_neg ops).mpr hp)]
        · refine step _ (hm.snoc (by simp) (fun _ => hp) (fun h => absurd h (by decide))) (hi.snoc_point ops hp) (by decide) ?_
          rw [loop, htd]
          simp only [if_true]
          rw [if_neg (fun h => hp ((hi.point_neg ops).mp h))]
      · by_cases h2 : c = '-'
        · subst h2
          by_cases hp : (∀ d ∈ p, ¬ IsSign d) ∧ ∀ d ∈ p, ¬ IsDigit d
          · refine step _ (hm.snoc (Or.inr (Or.inr (Or.inr (Or.inr rfl)))) (fun h => absurd h h1) (fun _ => hp))
              (hi.snoc_minus ops) (by decide) ?_
            rw [loop, htd]
            simp only [h1, if_false, if_true]
            rw [if_neg (fun h => (hi.sign_zero ops).mp h hp)]
          · right
            refine ⟨stop (by decide) fun m hm' => hp (hm'.no_sign (Or.inr rfl)), ?_⟩
            rw [loop, htd]
            simp only [h1, if_false, if_true]
            rw [if_pos ((hi.sign_zero ops).mpr hp)]
        · by_cases h3 : c = '+'
          · subst h3
            by_cases hp : (∀ d ∈ p, ¬ IsSign d) ∧ ∀ d ∈ p, ¬ IsDigit d
            · refine step _ (hm.snoc (Or.inr (Or.inr (Or.inr (Or.inl rfl)))) (fun h => absurd h h1) (fun _ => hp))
                (hi.snoc_plus ops hp.1) (by decide) ?_
              rw [loop, htd]
              simp only [h1, h2, if_false, if_true]
              rw [if_neg (fun h => (hi.sign_zero ops).mp h hp)]
            · right
              refine ⟨stop (by decide) fun m hm' => hp (hm'.no_sign (Or.inl rfl)), ?_⟩
              rw [loop, htd]
              simp only [h1, h2, if_false, if_true]
              rw [if_pos ((hi.sign_zero ops).mpr hp)]
          · have hsign : ¬ IsSign c := by rintro (h | h); exacts [h3 h, h2 h]
            by_cases h4 : c = 'e'
            · subst h4
              have hsl : sliceFrom s (p.length + 1) = some cs := by
                have := sliceFrom_ascii (p := p ++ ['e']) (cs := cs) ?_
                · simpa [hs] using this
                · intro d hd
                  rcases List.mem_append.mp hd with hd | hd
                  · exact mant_size (hm.chars d hd)
                  · rw [List.mem_singleton] at hd; subst hd; decide
              have hl : loop ops s ('e' :: cs) p.length st =
                  match parseI32 cs with
                  | some e => some (.ok (st, e))
                  | none => some (.error .invalid) := by
                rw [loop, htd]
                simp only [h1, h2, h3, if_false, if_true]
                rw [hsl]; rfl
              cases he : parseI32 cs with
              | some e =>
                left
                refine ⟨[], 'e' :: cs, e, st, rfl, by simpa using hm, Or.inr ⟨cs, rfl, parseI32_iff.mp he⟩,
                  by simpa using hi, ?_⟩
                rw [hl, he]
              | none =>
                right
                refine ⟨?_, by rw [hl, he]⟩
                rintro ⟨m, x, e, h3', h4', h5'⟩
                cases m with
                | nil =>
                  rw [List.nil_append] at h3'
                  rcases h5' with ⟨rfl, _⟩ | ⟨t, rfl, ht⟩
                  · cases h3'
                  · rw [List.cons.injEq] at h3'
                    rw [← h3'.2] at ht
                    rw [parseI32_iff.mpr ht] at he; cases he
                | cons d m =>
                  rw [List.cons_append, List.cons.injEq] at h3'
                  obtain ⟨rfl, h3'⟩ := h3'
                  have := h4'.char
                  revert this; decide
            · by_cases h5 : c = '_'
              · subst h5
                refine step _ (hm.snoc (by simp) (fun h => absurd h h1) (fun h => absurd h hsign)) (hi.snoc_us ops)
                  (by decide) ?_
                rw [loop, htd]
                simp only [h1, h2, h3, h4, if_false, if_true]
              · right
                refine ⟨stop h4 fun m hm' => ?_, ?_⟩
                · have := hm'.char
                  tauto
                · rw [loop, htd]
                  simp only [h1, h2, h3, h4, h5, if_false]

/-! ### The whole parser -/

/-- The scaling by a power of ten after the loop. -/
def scaled (r : α) (k : ℤ) : Option α :=
  if k = 0 then some r
  else if k < -307 then
    (ops.powi ops.ten (k + 307)).bind fun p => (ops.powi ops.ten (-307)).map fun q => ops.mul (ops.mul r p) q
  else (ops.powi ops.ten k).map fun p => ops.mul r p

/-- Meaning of a text of the grammar in the arithmetic of the number type. -/
def numValue (m : List Char) (e : ℤ) : Option α :=
  (scaled ops (accum ops (digitsOf m)) (e - fracDigits m)).map fun v => if '-' ∈ m then ops.neg v else v

theorem digits_split (m : List Char) : (digitsOf m).length = intDigits m + fracDigits m := by
  unfold intDigits fracDigits
  rw [← List.length_append, ← digitsOf_append, List.takeWhile_append_dropWhile]

theorem frac_none {m : List Char} (h : '.' ∉ m) : fracDigits m = 0 := by
  unfold fracDigits
  have : m.dropWhile (· ≠ '.') = [] := by
    rw [List.dropWhile_eq_nil_iff]
    intro c hc
    have : c ≠ '.' := fun h' => h (h' ▸ hc)
    simpa using this
  rw [this]; rfl

theorem i32_of {n : ℤ} (h1 : -2 ^ 31 ≤ n) (h2 : n < 2 ^ 31) : i32? n = some n := i32_iff.mpr ⟨rfl, h1, h2⟩

theorem i32_none {n : ℤ} : i32? n = none ↔ ¬ (-2 ^ 31 ≤ n ∧ n < 2 ^ 31) := by
  unfold i32?
  split_ifs with h
  · simpa using h
  · simp only [true_iff]; exact h

theorem finish_spec {m : List Char} {st : PState α} {e : ℤ} (h : Inv ops m st) (hl : (digitsOf m).length < 2 ^ 31)
    (h1 : -2 ^ 31 ≤ e) (h2 : e < 2 ^ 31) :
    finish ops st e =
      if -2 ^ 31 ≤ e - fracDigits m then (numValue ops m e).map Except.ok else none := by
  obtain ⟨hr, hd, hp, hs⟩ := h
  have hsp := digits_split m
  have eexp : (if st.point ≥ 0 then (i32? (st.digits - st.point)).bind (fun d => i32? (e - d)) else some e)
      = if -2 ^ 31 ≤ e - fracDigits m then some (e - fracDigits m) else none := by
    rw [hp, hd]
    by_cases h' : '.' ∈ m
    · rw [if_pos h', if_pos (by omega), i32_of (by omega) (by omega)]
      have : ((digitsOf m).length : ℤ) - intDigits m = fracDigits m := by omega
      rw [this]
      split_ifs with h3
      · exact i32_of h3 (by omega)
      · exact i32_none.mpr (by omega)
    · rw [if_neg h', if_neg (by omega), frac_none h']
      rw [if_pos (by simpa using h1)]; simp
  have esign : (st.sign = -1) ↔ '-' ∈ m := by
    rw [hs]; split_ifs with h1 h2 <;> simp [h1]
  unfold finish
  have e2 : adjust st e = if -2 ^ 31 ≤ e - fracDigits m then some (e - fracDigits m) else none := eexp
  rw [e2]
  by_cases h3 : -2 ^ 31 ≤ e - fracDigits m
  · rw [if_pos h3, if_pos h3, Option.bind_some]
    generalize hk : e - (fracDigits m : ℤ) = k at *
    have hk2 : k < 2 ^ 31 := by omega
    unfold numValue
    rw [hk, ← hr]
    have e4 : scale ops st.result k = scaled ops st.result k := by
      unfold scale scaled
      by_cases h0 : k = 0
      · simp [h0]
      · rw [if_pos h0, if_neg h0]
        by_cases h7 : k < -307
        · rw [if_pos h7, if_pos h7, i32_of (by omega) (by omega), Option.bind_some,
            show k - (k + 307) = -307 by ring, i32_of (by omega) (by omega)]
          congr 1
          funext p
          rw [Option.bind_some]
          cases ops.powi ops.ten (-307) <;> rfl
        · rw [if_neg h7, if_neg h7]
          cases ops.powi ops.ten k <;> rfl
    rw [e4]
    cases scaled ops st.result k with
    | none => rfl
    | some v => simp only [Option.bind_some, Option.map_some, esign]
  · rw [if_neg h3, if_neg h3]; rfl

theorem pre_none {s : List Char} : pre ops s = none ↔ s ≠ [] ∧ s ∉ specialTexts := by
  unfold pre specialTexts
  split_ifs with h1 h2 h3 h4 <;> simp <;> tauto

theorem Inv.start : Inv ops [] ⟨ops.zero, 0, -1, 0⟩ := ⟨rfl, rfl, rfl, rfl⟩

theorem I32Text.range {t : List Char} {e : ℤ} (h : I32Text t e) : -2 ^ 31 ≤ e ∧ e < 2 ^ 31 := by
  obtain ⟨_, _, _, _, _, _, _, h⟩ := h; exact h

theorem ExpText.range {x : List Char} {e : ℤ} (h : ExpText x e) : -2 ^ 31 ≤ e ∧ e < 2 ^ 31 := by
  rcases h with ⟨_, rfl⟩ | ⟨_, _, h⟩
  · norm_num
  · exact h.range

theorem Mantissa.no_e {m : List Char} (h : Mantissa m) : ∀ c ∈ m, c ≠ 'e' := by
  rintro c hc rfl
  have := h.chars _ hc
  revert this; decide

/-- A text splits into mantissa and exponent in only one way. -/
theorem NumText.unique {s m m' : List Char} {e e' : ℤ} (h : NumText s m e) (h' : NumText s m' e') : m = m' ∧ e = e' := by
  obtain ⟨x, h1, h2, h3⟩ := h
  obtain ⟨x', h1', h2', h3'⟩ := h'
  have key : ∀ {m x : List Char} {e : ℤ}, Mantissa m → ExpText x e → (m ++ x).takeWhile (· ≠ 'e') = m := by
    intro m x e hm hx
    rw [List.takeWhile_append_of_pos (fun c hc => by simpa using hm.no_e c hc)]
    rcases hx with ⟨rfl, _⟩ | ⟨t, rfl, _⟩ <;> simp
  have e1 : m = m' := by rw [← key h2 h3, ← key h2' h3', ← h1, ← h1']
  subst e1
  refine ⟨rfl, ?_⟩
  have e2 : x = x' := List.append_cancel_left (h1.symm.trans h1')
  subst e2
  rcases h3 with ⟨rfl, rfl⟩ | ⟨t, rfl, ht⟩
  · rcases h3' with ⟨_, rfl⟩ | ⟨t, h, _⟩
    · rfl
    · cases h
  · rcases h3' with ⟨h, _⟩ | ⟨t', h, ht'⟩
    · cases h
    · rw [List.cons.injEq] at h
      obtain ⟨_, rfl⟩ := h
      exact Option.some.inj ((parseI32_iff.mpr ht).symm.trans (parseI32_iff.mpr ht'))

theorem digitsOf_sub {s m x : List Char} (h : s = m ++ x) : (digitsOf m).length ≤ (digitsOf s).length := by
  rw [h, digitsOf_append, List.length_append]; omega

/-- A text of the grammar is parsed to its meaning, or the exponent underflows. -/
theorem fromStr_num {s m : List Char} {e : ℤ} (h : NumText (cleaned s) m e) (hne : cleaned s ≠ [])
    (hs : cleaned s ∉ specialTexts) (hl : (digitsOf (cleaned s)).length < 2 ^ 31) :
    fromStr ops s = if -2 ^ 31 ≤ e - fracDigits m then (numValue ops m e).map Except.ok else none := by
  have e0 : fromStr ops s = match loop ops (cleaned s) (cleaned s) 0 ⟨ops.zero, 0, -1, 0⟩ with
      | none => none
      | some (.error k) => some (.error k)
      | some (.ok (st, exp)) => finish ops st exp := by
    unfold fromStr
    change (match pre ops (cleaned s) with | some r => some r | none => _) = _
    rw [(pre_none ops).mpr ⟨hne, hs⟩]; rfl
  rw [e0]
  rcases loop_spec ops (cleaned s) (cleaned s) [] ⟨ops.zero, 0, -1, 0⟩ rfl Mantissa.nil (Inv.start ops) hl with
    ⟨m', x, e', st', h1, h2, h3, h4, h5⟩ | ⟨h1, h2⟩
  · simp only [List.nil_append, List.length_nil] at *
    rw [h5]
    obtain ⟨rfl, rfl⟩ := h.unique ⟨x, h1, h2, h3⟩
    exact finish_spec ops h4 (lt_of_le_of_lt (digitsOf_sub h1) hl) h3.range.1 h3.range.2
  · obtain ⟨x, h3, h4, h5⟩ := h
    exact absurd ⟨m, x, e, h3, by simpa using h4, h5⟩ h1

/-- Every other text is rejected. -/
theorem fromStr_invalid {s : List Char} (h : ¬ ∃ m e, NumText (cleaned s) m e) (hne : cleaned s ≠ [])
    (hs : cleaned s ∉ specialTexts) (hl : (digitsOf (cleaned s)).length < 2 ^ 31) :
    fromStr ops s = some (.error .invalid) := by
  have e0 : fromStr ops s = match loop ops (cleaned s) (cleaned s) 0 ⟨ops.zero, 0, -1, 0⟩ with
      | none => none
      | some (.error k) => some (.error k)
      | some (.ok (st, exp)) => finish ops st exp := by
    unfold fromStr
    change (match pre ops (cleaned s) with | some r => some r | none => _) = _
    rw [(pre_none ops).mpr ⟨hne, hs⟩]; rfl
  rw [e0]
  rcases loop_spec ops (cleaned s) (cleaned s) [] ⟨ops.zero, 0, -1, 0⟩ rfl Mantissa.nil (Inv.start ops) hl with
    ⟨m', x, e', st', h1, h2, h3, h4, h5⟩ | ⟨h1, h2⟩
  · exact absurd ⟨m', e', x, h1, by simpa using h2, h3⟩ h
  · simp only [List.length_nil] at h2
    rw [h2]

theorem fromStr_special {s : List Char} (hs : cleaned s ∈ specialTexts) :
    ∃ v, fromStr ops s = some (.ok v) := by
  have key : ∀ v, pre ops (cleaned s) = some (.ok v) → fromStr ops s = some (.ok v) := by
    intro v hv
    unfold fromStr
    change (match pre ops (cleaned s) with | some r => some r | none => _) = _
    rw [hv]
  unfold specialTexts at hs
  simp only [List.mem_cons, List.not_mem_nil, or_false] at hs
  rcases hs with h | h | h | h | h <;> rw [h] at key
  · exact ⟨ops.nan, key _ (by rfl)⟩
  · exact ⟨ops.inf, key _ (by rfl)⟩
  · exact ⟨ops.inf, key _ (by rfl)⟩
  · exact ⟨ops.negInf, key _ (by rfl)⟩
  · exact ⟨ops.negInf, key _ (by rfl)⟩

theorem fromStr_empty {s : List Char} (hs : cleaned s = []) : fromStr ops s = some (.error .empty) := by
  unfold fromStr
  change (match pre ops (cleaned s) with | some r => some r | none => _) = _
  rw [hs]; rfl

theorem not_num_special {s m : List Char} {e : ℤ} (h : NumText s m e) : s ∉ specialTexts := by
  intro hs
  obtain ⟨x, h1, h2, h3⟩ := h
  have hc : ∀ c, s.head? = some c → IsDigit c ∨ c = '.' ∨ c = '_' ∨ IsSign c ∨ c = 'e' := by
    intro c hc
    cases m with
    | nil =>
      rcases h3 with ⟨rfl, _⟩ | ⟨t, rfl, _⟩
      · rw [h1] at hc; simp at hc
      · rw [h1] at hc; simp at hc; subst hc; simp
    | cons d m =>
      rw [h1] at hc; simp at hc; subst hc
      have := h2.chars d (by simp)
      tauto
  have hc2 : ∀ c1 c2 t, s = c1 :: c2 :: t → c1 = '-' → IsDigit c2 ∨ c2 = '.' ∨ c2 = '_' ∨ IsSign c2 ∨ c2 = 'e' := by
    intro c1 c2 t hs h0
    cases m with
    | nil =>
      rcases h3 with ⟨rfl, _⟩ | ⟨t, rfl, _⟩
      · rw [h1] at hs; simp at hs
      · rw [h1] at hs; simp at hs
        rw [h0] at hs; exact absurd hs.1 (by decide)
    | cons d m =>
      cases m with
      | nil =>
        rcases h3 with ⟨rfl, _⟩ | ⟨t, rfl, _⟩
        · rw [h1] at hs; simp at hs
        · rw [h1] at hs; simp at hs
          rw [← hs.2.1]; simp
      | cons d' m =>
        rw [h1] at hs; simp at hs
        have := h2.chars c2 (by rw [← hs.2.1]; simp)
        tauto
  unfold specialTexts at hs
  simp only [List.mem_cons, List.not_mem_nil, or_false] at hs
  rcases hs with h | h | h | h | h
  · have := hc 'n' (by rw [h]; rfl)
    revert this; decide
  · have := hc 'i' (by rw [h]; rfl)
    revert this; decide
  · have := hc 'i' (by rw [h]; rfl)
    revert this; decide
  · have := hc2 '-' 'i' _ h rfl
    revert this; decide
  · have := hc2 '-' 'i' _ h rfl
    revert this; decide

end

end Verif
