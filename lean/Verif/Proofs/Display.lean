import Verif.Model.Display
import Verif.SpecDisplay
import Mathlib.Tactic.Linarith
import Mathlib.Tactic.Ring
import Mathlib.Tactic.FieldSimp
import Mathlib.Tactic.Positivity
import Mathlib.Algebra.Order.Floor.Ring
import Mathlib.Data.Rat.Floor

/-! # Lemmas about the digit manipulation of the formatting code -/

namespace Verif.Disp

open Verif

/-! ## Value of a digit list -/

theorem digitsVal_append (a b : List ℕ) : digitsVal (a ++ b) = digitsVal a * 10 ^ b.length + digitsVal b := by
  unfold digitsVal
  have key : ∀ (b : List ℕ) (v : ℕ), b.foldl (fun v d => 10 * v + d) v = v * 10 ^ b.length + b.foldl (fun v d => 10 * v + d) 0 := by
    intro b
    induction b with
    | nil => intro v; simp
    | cons d b ih =>
      intro v
      rw [List.foldl_cons, ih, List.foldl_cons, ih (10 * 0 + d)]
      simp only [List.length_cons]; ring
  rw [List.foldl_append, key]

theorem digitsVal_nil : digitsVal [] = 0 := rfl

theorem digitsVal_single (d : ℕ) : digitsVal [d] = d := by simp [digitsVal]

theorem digitsVal_cons (d : ℕ) (b : List ℕ) : digitsVal (d :: b) = d * 10 ^ b.length + digitsVal b := by
  have := digitsVal_append [d] b
  rwa [digitsVal_single] at this

theorem digitsVal_zeros (n : ℕ) : digitsVal (List.replicate n 0) = 0 := by
  induction n with
  | zero => rfl
  | succ n ih => rw [List.replicate_succ, digitsVal_cons, ih]; simp

theorem digitsVal_lt {b : List ℕ} (h : ∀ d ∈ b, d ≤ 9) : digitsVal b < 10 ^ b.length := by
  induction b with
  | nil => simp [digitsVal]
  | cons d b ih =>
    rw [digitsVal_cons]
    have h1 := ih fun x hx => h x (List.mem_cons_of_mem _ hx)
    have h2 := h d List.mem_cons_self
    simp only [List.length_cons, pow_succ]
    nlinarith

/-- Decimal digits, except that the list may be a ten followed by zeros. -/
def Dig (ds : List ℕ) : Prop := (∀ d ∈ ds, d ≤ 9) ∨ ∃ k, ds = 10 :: List.replicate k 0

/-! ## Rounding -/

/-- Adding one to the last digit of a list of digits, with carry, as the loop of `round_and_trunc` does. -/
theorem carry_spec (j : ℕ) (a c : List ℕ) (d : ℕ) (ha : a.length = j) (h9 : ∀ x ∈ a, x ≤ 9) (hd : d ≤ 9) :
    ∃ r, carry j (a ++ (d + 1) :: c) = some (r ++ (a ++ (d + 1) :: c).drop r.length) ∧ r.length = j + 1 ∧ Dig r ∧
      digitsVal r = digitsVal (a ++ [d]) + 1 := by
  induction j generalizing a c d with
  | zero =>
    have : a = [] := List.length_eq_zero_iff.mp ha
    subst this
    refine ⟨[d + 1], by simp [carry], rfl, ?_, ?_⟩
    · by_cases h : d = 9
      · right; exact ⟨0, by simp [h]⟩
      · left; intro x hx; simp only [List.mem_singleton] at hx; omega
    · simp [digitsVal]
  | succ j ih =>
    obtain ⟨a', e, rfl⟩ : ∃ a' e, a = a' ++ [e] := by
      rcases List.eq_nil_or_concat a with h | ⟨l, x, h⟩
      · rw [h] at ha; simp at ha
      · exact ⟨l, x, by simpa using h⟩
    have hl : a'.length = j := by simp at ha; omega
    have he : e ≤ 9 := h9 e (by simp)
    have h9' : ∀ x ∈ a', x ≤ 9 := fun x hx => h9 x (by simp [hx])
    have eget : (a' ++ [e] ++ (d + 1) :: c)[j + 1]? = some (d + 1) := by
      rw [List.getElem?_append_right (by simp [hl])]; simp [hl]
    unfold carry
    rw [eget]
    by_cases hd9 : d = 9
    · subst hd9
      rw [if_pos rfl]
      have eset : (a' ++ [e] ++ (9 + 1) :: c).set (j + 1) 0 = a' ++ e :: (0 :: c) := by
        rw [List.set_append_right _ _ (by simp [hl])]; simp [hl]
      rw [eset]
      have eb : bump (a' ++ e :: 0 :: c) j = some (a' ++ (e + 1) :: 0 :: c) := by
        unfold bump
        rw [List.getElem?_append_right (by omega)]
        simp only [hl, Nat.sub_self, List.getElem?_cons_zero]
        rw [if_pos (by omega), List.set_append_right _ _ (by omega)]
        simp [hl]
      rw [eb]
      obtain ⟨r, h1, h2, h3, h4⟩ := ih a' (0 :: c) e hl h9' he
      refine ⟨r ++ [0], ?_, by simp [h2], ?_, ?_⟩
      · simp only [Option.bind_some]
        rw [h1]
        congr 1
        have : (a' ++ (e + 1) :: 0 :: c).drop r.length = 0 :: c := by
          rw [h2, List.drop_append]; simp [hl]
        rw [this]
        have : (a' ++ [e] ++ (9 + 1) :: c).drop (r ++ [0]).length = c := by
          rw [List.drop_append]; simp [h2, hl]
        rw [this]; simp
      · rcases h3 with h3 | ⟨k, h3⟩
        · left; intro x hx
          rw [List.mem_append] at hx
          rcases hx with hx | hx
          · exact h3 x hx
          · simp only [List.mem_singleton] at hx; omega
        · right; refine ⟨k + 1, ?_⟩
          rw [h3, List.replicate_succ']; simp
      · rw [digitsVal_append, h4, digitsVal_append (a' ++ [e])]
        simp [digitsVal]; ring
    · rw [if_neg (by simpa using hd9)]
      refine ⟨a' ++ [e] ++ [d + 1], ?_, by simp [hl], ?_, ?_⟩
      · congr 1
        have : (a' ++ [e] ++ (d + 1) :: c).drop (a' ++ [e] ++ [d + 1]).length = c := by
          rw [List.drop_append]; simp
        rw [this]; simp
      · left; intro x hx
        rw [List.mem_append] at hx
        rcases hx with hx | hx
        · exact h9 x hx
        · simp only [List.mem_singleton] at hx; omega
      · rw [digitsVal_append, digitsVal_append (a' ++ [e])]; simp [digitsVal]; ring

/-- Cutting digits to a positive number of places rounds half up. -/
theorem roundAndTrunc_spec {ds : List ℕ} {len : ℕ} (h9 : Dig ds) (h0 : 0 < len) (hl : len < ds.length) :
    ∃ r, roundAndTrunc ds len = some r ∧ r.length = len ∧ Dig r ∧
      digitsVal r = (digitsVal ds + 5 * 10 ^ (ds.length - len - 1)) / 10 ^ (ds.length - len) := by
  rcases h9 with h9 | ⟨k, rfl⟩
  · obtain ⟨a, e, x, c, rfl, ha⟩ : ∃ a e x c, ds = a ++ [e] ++ x :: c ∧ (a ++ [e]).length = len := by
      obtain ⟨a, e, h⟩ : ∃ a e, ds.take len = a ++ [e] := by
        rcases List.eq_nil_or_concat (ds.take len) with h | ⟨l, x, h⟩
        · have := congrArg List.length h
          rw [List.length_take, List.length_nil] at this; omega
        · exact ⟨l, x, by simpa using h⟩
      obtain ⟨x, c, h'⟩ : ∃ x c, ds.drop len = x :: c := by
        rcases hd : ds.drop len with _ | ⟨x, c⟩
        · have := congrArg List.length hd
          rw [List.length_drop] at this; simp at this; omega
        · exact ⟨x, c, rfl⟩
      refine ⟨a, e, x, c, ?_, ?_⟩
      · rw [← h, ← h', List.take_append_drop]
      · rw [← h, List.length_take]; omega
    have hx : x ≤ 9 := h9 x (by simp)
    have he : e ≤ 9 := h9 e (by simp)
    have h9a : ∀ y ∈ a, y ≤ 9 := fun y hy => h9 y (by simp [hy])
    have h9c : ∀ y ∈ c, y ≤ 9 := fun y hy => h9 y (by simp [hy])
    have hc := digitsVal_lt h9c
    have eget : (a ++ [e] ++ x :: c)[len]? = some x := by
      rw [List.getElem?_append_right (by omega)]; simp [ha]
    have elen : (a ++ [e] ++ x :: c).length - len = c.length + 1 := by
      rw [List.length_append, ha]; simp
    have eval : digitsVal (a ++ [e] ++ x :: c) = digitsVal (a ++ [e]) * 10 ^ (c.length + 1) + (x * 10 ^ c.length + digitsVal c) := by
      rw [digitsVal_append, digitsVal_cons]; simp
    have etake : (a ++ [e] ++ x :: c).take len = a ++ [e] := by
      rw [List.take_append_of_le_length (by omega), List.take_of_length_le (by omega)]
    simp only [roundAndTrunc, eget, elen, eval]
    have e1 : c.length + 1 - 1 = c.length := by omega
    rw [e1]
    have hp : 0 < 10 ^ c.length := by positivity
    by_cases h5 : 5 ≤ x
    · rw [if_pos h5, if_neg (by omega)]
      have hal : a.length = len - 1 := by simp at ha; omega
      have eb : bump (a ++ [e] ++ x :: c) (len - 1) = some (a ++ (e + 1) :: x :: c) := by
        unfold bump
        have : a ++ [e] ++ x :: c = a ++ e :: x :: c := by simp
        rw [this, List.getElem?_append_right (by omega)]
        simp only [hal, Nat.sub_self, List.getElem?_cons_zero]
        rw [if_pos (by omega), List.set_append_right _ _ (by omega)]
        simp [hal]
      rw [eb]
      obtain ⟨r, h1, h2, h3, h4⟩ := carry_spec (len - 1) a (x :: c) e hal h9a he
      refine ⟨r, ?_, by omega, h3, ?_⟩
      · simp only [Option.bind_some]
        rw [h1, Option.map_some]
        congr 1
        rw [List.take_append_of_le_length (by omega), List.take_of_length_le (by omega)]
      · rw [h4]
        symm
        have hxc : x * 10 ^ c.length + digitsVal c + 5 * 10 ^ c.length = 10 ^ (c.length + 1) + ((x - 5) * 10 ^ c.length + digitsVal c) := by
          obtain ⟨y, rfl⟩ := Nat.exists_eq_add_of_le h5
          rw [Nat.add_sub_cancel_left]; ring
        rw [add_assoc, hxc, ← add_assoc]
        rw [show digitsVal (a ++ [e]) * 10 ^ (c.length + 1) + 10 ^ (c.length + 1) = 10 ^ (c.length + 1) * (digitsVal (a ++ [e]) + 1) by ring]
        rw [Nat.mul_add_div (by positivity), Nat.div_eq_of_lt, Nat.add_zero]
        rw [pow_succ]
        have : (x - 5) ≤ 4 := by omega
        nlinarith
    · rw [if_neg (by omega)]
      refine ⟨a ++ [e], by rw [etake], ha, Or.inl fun y hy => h9 y (by rw [List.mem_append]; exact Or.inl hy), ?_⟩
      symm
      rw [add_assoc, show digitsVal (a ++ [e]) * 10 ^ (c.length + 1) = 10 ^ (c.length + 1) * digitsVal (a ++ [e]) by ring]
      rw [Nat.mul_add_div (by positivity), Nat.div_eq_of_lt, Nat.add_zero]
      rw [pow_succ]
      have : x ≤ 4 := by omega
      nlinarith
  · obtain ⟨m, rfl⟩ : ∃ m, len = m + 1 := ⟨len - 1, by omega⟩
    simp only [List.length_cons, List.length_replicate] at hl
    have e1 : (10 :: List.replicate k 0)[m + 1]? = some 0 := by
      rw [List.getElem?_cons_succ, List.getElem?_replicate, if_pos (by omega)]
    simp only [roundAndTrunc, e1]
    rw [if_neg (by omega)]
    have e2 : (10 :: List.replicate k 0).take (m + 1) = 10 :: List.replicate m 0 := by
      rw [List.take_succ_cons, List.take_replicate, min_eq_left (by omega)]
    refine ⟨_, rfl, by rw [e2]; simp, by rw [e2]; exact Or.inr ⟨m, rfl⟩, ?_⟩
    rw [e2, digitsVal_cons, digitsVal_cons, digitsVal_zeros, digitsVal_zeros]
    simp only [List.length_cons, List.length_replicate, add_zero]
    obtain ⟨t, rfl⟩ : ∃ t, k = m + 1 + t := ⟨k - (m + 1), by omega⟩
    have e3 : m + 1 + t + 1 - (m + 1) - 1 = t := by omega
    have e4 : m + 1 + t + 1 - (m + 1) = t + 1 := by omega
    rw [e3, e4]
    symm
    rw [show 10 * 10 ^ (m + 1 + t) = 10 ^ (t + 1) * (10 * 10 ^ m) by ring, Nat.mul_add_div (by positivity), Nat.div_eq_of_lt, Nat.add_zero]
    rw [pow_succ]
    have : 0 < 10 ^ t := by positivity
    omega


/-! ## Adding and removing zeros -/

theorem dropZeros_spec (ds : List ℕ) (exp : ℤ) (n : ℕ) (h0 : 0 < n) (hn : n ≤ ds.length) :
    ∃ m, dropZeros ds exp n = some m ∧ 1 ≤ m ∧ m ≤ n ∧ (m = n ∨ exp + 1 ≤ m) ∧
      ds.take n = ds.take m ++ List.replicate (n - m) 0 := by
  induction n with
  | zero => omega
  | succ n ih =>
    unfold dropZeros
    obtain ⟨d, hd⟩ : ∃ d, ds[n]? = some d := ⟨ds[n], List.getElem?_eq_getElem (by omega)⟩
    rw [hd]
    dsimp only
    by_cases hc : d = 0 ∧ n + 1 > 1 ∧ ((n + 1 : ℕ) : ℤ) > exp + 1
    · rw [if_pos hc]
      obtain ⟨m, h1, h2, h3, h4, h5⟩ := ih (by omega) (by omega)
      refine ⟨m, h1, h2, by omega, Or.inr ?_, ?_⟩
      · rcases h4 with rfl | h4
        · have := hc.2.2; push_cast at this; omega
        · exact h4
      · rw [List.take_add_one, h5, hd, hc.1]
        have : n + 1 - m = (n - m) + 1 := by omega
        rw [this, List.replicate_succ', List.append_assoc]; simp
    · rw [if_neg hc]
      exact ⟨n + 1, rfl, by omega, le_refl _, Or.inl rfl, by simp⟩

theorem decVal_append_zeros (ds : List ℕ) (e : ℤ) (n : ℕ) : decVal (ds ++ List.replicate n 0) e = decVal ds e := by
  unfold decVal
  rw [digitsVal_append, digitsVal_zeros, List.length_append, List.length_replicate]
  push_cast
  rw [show e + 1 - ((ds.length : ℤ) + n) = (e + 1 - ds.length) - n by ring, zpow_sub₀ (by norm_num), zpow_natCast]
  field_simp
  ring

theorem decVal_zeros_append (ds : List ℕ) (e : ℤ) (n : ℕ) : decVal (List.replicate n 0 ++ ds) (e + n) = decVal ds e := by
  unfold decVal
  rw [digitsVal_append, digitsVal_zeros, List.length_append, List.length_replicate]
  push_cast
  rw [show e + n + 1 - ((n : ℤ) + ds.length) = e + 1 - ds.length by ring]
  ring

theorem _root_.Verif.GoodDigits.dig {ds exp} (h : GoodDigits ds exp) : Dig ds := h.imp id fun h => h.2

theorem Dig.good {ds exp} (h : Dig ds) (he : 0 ≤ exp) : GoodDigits ds exp := h.imp id fun h => ⟨he, h⟩

theorem Dig.take {ds} (h : Dig ds) (n : ℕ) : Dig (ds.take n) := by
  rcases h with h | ⟨k, rfl⟩
  · exact Or.inl fun d hd => h d (List.mem_of_mem_take hd)
  · cases n with
    | zero => left; simp
    | succ n => right; exact ⟨min n k, by rw [List.take_succ_cons, List.take_replicate]⟩

theorem Dig.append_zeros {ds} (h : Dig ds) (n : ℕ) : Dig (ds ++ List.replicate n 0) := by
  rcases h with h | ⟨k, rfl⟩
  · left; intro d hd
    rw [List.mem_append] at hd
    rcases hd with hd | hd
    · exact h d hd
    · rw [List.eq_of_mem_replicate hd]; omega
  · right; exact ⟨k + n, by rw [List.cons_append, List.replicate_append_replicate]⟩

/-- `adjust_zeros` keeps the value; afterwards the digits reach the decimal point. -/
theorem adjustZeros_spec {ds : List ℕ} {exp : ℤ} (hg : GoodDigits ds exp) (hne : ds ≠ []) (h1 : -2 ^ 31 < exp) (h2 : exp < 2 ^ 31 - 1) :
    ∃ r, adjustZeros ds exp = some r ∧ Dig r ∧ r ≠ [] ∧ (max 0 exp + 1 ≤ (r.length : ℤ)) ∧ decVal r (max 0 exp) = decVal ds exp := by
  have hlen : 0 < ds.length := List.length_pos_iff.mpr hne
  have hd := hg.dig
  unfold adjustZeros
  rw [if_neg (by omega)]
  dsimp only
  obtain ⟨t, z, et, hz, ht0, htl⟩ : ∃ t z, (if (ds.length : ℤ) > exp + 1 then (dropZeros ds exp ds.length).map (fun n => ds.take n) else some ds) = some t ∧
      ds = t ++ List.replicate z 0 ∧ t ≠ [] ∧ ((ds.length : ℤ) ≤ exp + 1 → t = ds) ∧ (exp + 1 < ds.length → exp + 1 ≤ t.length) := by
    by_cases hc : (ds.length : ℤ) > exp + 1
    · rw [if_pos hc]
      obtain ⟨m, h3, h4, h5, h6, h7⟩ := dropZeros_spec ds exp ds.length hlen le_rfl
      rw [h3]
      refine ⟨ds.take m, ds.length - m, rfl, ?_, ?_, by omega, ?_⟩
      · rw [← h7, List.take_length]
      · intro hc'
        have := congrArg List.length hc'
        rw [List.length_take, List.length_nil] at this; omega
      · intro _
        rw [List.length_take, min_eq_left h5]
        rcases h6 with rfl | h6 <;> omega
    · rw [if_neg hc]
      exact ⟨ds, 0, rfl, by simp, hne, fun _ => rfl, fun h => by omega⟩
  have ev : decVal t exp = decVal ds exp := by rw [hz, decVal_append_zeros]
  have htake : t = ds.take t.length := by
    rw [hz, List.take_append_of_le_length le_rfl, List.take_length]
  rw [et, Option.map_some]
  by_cases hneg : exp < 0
  · rw [if_pos hneg]
    have h9 : ∀ d ∈ t, d ≤ 9 := by
      rcases hg with h | ⟨h, _⟩
      · intro d hd
        rw [htake] at hd
        exact h d (List.mem_of_mem_take hd)
      · omega
    refine ⟨_, rfl, Or.inl ?_, by simp [ht0], ?_, ?_⟩
    · intro d hd
      rw [List.mem_append] at hd
      rcases hd with hd | hd
      · rw [List.eq_of_mem_replicate hd]; omega
      · exact h9 d hd
    · rw [max_eq_left hneg.le, List.length_append, List.length_replicate]
      have := List.length_pos_iff.mpr ht0
      rw [Nat.cast_add]; omega
    · rw [max_eq_left hneg.le]
      have := decVal_zeros_append t exp exp.natAbs
      rw [show exp + (exp.natAbs : ℤ) = 0 by omega] at this
      rw [this, ev]
  · rw [if_neg hneg]
    have hmax : max 0 exp = exp := max_eq_right (by omega)
    rw [hmax]
    refine ⟨_, rfl, ?_, by simp [ht0], ?_, ?_⟩
    · apply Dig.append_zeros; rw [htake]; exact hd.take _
    · rw [List.length_append, List.length_replicate, Nat.cast_add]
      by_cases hc : exp + 1 < ds.length
      · have := htl.2 hc; omega
      · have := htl.1 (by omega); rw [this]; omega
    · rw [decVal_append_zeros, ev]

theorem halfUp_of_int {q : ℚ} {p : ℕ} {n : ℤ} (h : q * 10 ^ p = n) : halfUp q p = q := by
  unfold halfUp
  rw [h]
  have : ⌊(n : ℚ) + 1 / 2⌋ = n := by
    rw [Int.floor_eq_iff]; constructor <;> linarith
  rw [this, ← h]; field_simp

/-- `adjust_prec` rounds half up to the precision and then has exactly that many decimals. -/
theorem adjustPrec_spec {ds : List ℕ} {exp : ℤ} {p : ℕ} (hd : Dig ds) (hne : ds ≠ []) :
    ∃ r, adjustPrec ds exp (some p) = some r ∧ Dig r ∧ r ≠ [] ∧ (r.length : ℤ) = max 0 exp + p + 1 ∧
      decVal r (max 0 exp) = halfUp (decVal ds (max 0 exp)) p := by
  unfold adjustPrec
  dsimp only
  have hlen : 0 < ds.length := List.length_pos_iff.mpr hne
  obtain ⟨E, hE⟩ : ∃ E : ℕ, max 0 exp = E := ⟨(max 0 exp).toNat, by omega⟩
  have eD : (if exp < 0 then p + 1 else exp.toNat + p + 1) = E + p + 1 := by
    split_ifs <;> omega
  rw [eD, hE]
  -- when the digits do not go beyond the precision, the value is a multiple of 10^-p
  have hint : ds.length ≤ E + p + 1 → halfUp (decVal ds E) p = decVal ds E := by
    intro h
    apply halfUp_of_int (n := ((digitsVal ds * 10 ^ (E + p + 1 - ds.length) : ℕ) : ℤ))
    unfold decVal
    push_cast
    rw [mul_assoc, ← zpow_natCast, ← zpow_natCast, ← zpow_add₀ (by norm_num)]
    congr 2
    push_cast [h]; ring
  by_cases h1 : E + p + 1 > ds.length
  · rw [if_pos h1]
    refine ⟨_, rfl, hd.append_zeros _, by simp [hne], ?_, ?_⟩
    · rw [List.length_append, List.length_replicate]; push_cast; omega
    · rw [decVal_append_zeros, hint (by omega)]
  · rw [if_neg h1]
    by_cases h2 : E + p + 1 < ds.length
    · rw [if_pos h2]
      obtain ⟨r, h3, h4, h5, h6⟩ := roundAndTrunc_spec hd (Nat.succ_pos (E + p)) h2
      refine ⟨r, h3, h5, ?_, by rw [h4]; push_cast; ring, ?_⟩
      · rintro rfl; simp at h4
      · unfold decVal halfUp
        rw [h4, h6]
        obtain ⟨t, ht⟩ : ∃ t, ds.length = E + p + 1 + (t + 1) := ⟨ds.length - (E + p + 1) - 1, by omega⟩
        rw [ht]
        have e1 : E + p + 1 + (t + 1) - (E + p + 1) - 1 = t := by omega
        have e2 : E + p + 1 + (t + 1) - (E + p + 1) = t + 1 := by omega
        rw [e1, e2]
        have e3 : ((E:ℤ) + 1 - ((E + p + 1 : ℕ) : ℤ)) = -(p : ℤ) := by push_cast; ring
        have e4 : ((E:ℤ) + 1 - ((E + p + 1 + (t + 1) : ℕ) : ℤ)) = -(p : ℤ) - ((t + 1 : ℕ) : ℤ) := by push_cast; ring
        rw [e3, e4, zpow_neg, zpow_natCast, ← div_eq_mul_inv]
        congr 1
        have e5 : (digitsVal ds : ℚ) * 10 ^ (-(p:ℤ) - ((t + 1 : ℕ) : ℤ)) * 10 ^ p + 1 / 2 =
            ((digitsVal ds + 5 * 10 ^ t : ℕ) : ℚ) / ((10 ^ (t + 1) : ℕ) : ℚ) := by
          rw [zpow_sub₀ (by norm_num), zpow_neg, zpow_natCast, zpow_natCast]
          push_cast
          rw [pow_succ]
          field_simp
          ring
        rw [e5]
        have := Rat.floor_intCast_div_natCast ((digitsVal ds + 5 * 10 ^ t : ℕ) : ℤ) (10 ^ (t + 1))
        rw [Int.cast_natCast] at this
        rw [this]
        norm_cast
    · rw [if_neg h2]
      refine ⟨ds, rfl, hd, hne, by omega, ?_⟩
      rw [hint (by omega)]

/-! ## Characters -/

/-- Character of a digit. -/
def chr (d : ℕ) : Char := Char.ofNat (48 + d)

theorem chr_spec : ∀ d ≤ 9, IsDigit (chr d) ∧ (chr d).toNat - 48 = d ∧ chr d ≠ '.' := by decide +kernel

theorem digitText_le {d : ℕ} (h : d ≤ 9) : digitText d = some [chr d] := by
  unfold digitText fromDigit
  rw [if_neg (by omega), if_pos (by omega)]; rfl

theorem digitsOf_map {l : List ℕ} (h : ∀ d ∈ l, d ≤ 9) : digitsOf (l.map chr) = l := by
  unfold digitsOf
  induction l with
  | nil => rfl
  | cons d l ih =>
    have hd := chr_spec d (h d List.mem_cons_self)
    rw [List.map_cons, List.filter_cons_of_pos (by simpa using hd.1), List.map_cons, hd.2.1,
      ih fun x hx => h x (List.mem_cons_of_mem _ hx)]

theorem mapM_digits {ds : List ℕ} (h : ∀ d ∈ ds, d ≤ 9) : ds.mapM digitText = some (ds.map fun d => [chr d]) := by
  induction ds with
  | nil => rfl
  | cons d l ih =>
    rw [List.mapM_cons, digitText_le (h d List.mem_cons_self), ih fun x hx => h x (List.mem_cons_of_mem _ hx)]
    rfl

theorem flatten_single (l : List ℕ) : (l.map fun d => [chr d]).flatten = l.map chr := by
  induction l with
  | nil => rfl
  | cons d l ih => rw [List.map_cons, List.flatten_cons, ih]; rfl

theorem mapM_dig {ds : List ℕ} (h : Dig ds) (hne : ds ≠ []) :
    ∃ parts l, ds.mapM digitText = some parts ∧ parts.flatten = l.map chr ∧ (∀ d ∈ l, d ≤ 9) ∧ digitsVal l = digitsVal ds ∧
      l.length = ds.length + (if ds.head? = some 10 then 1 else 0) := by
  rcases h with h | ⟨k, rfl⟩
  · refine ⟨_, ds, mapM_digits h, flatten_single ds, h, rfl, ?_⟩
    obtain ⟨d, t, rfl⟩ := List.exists_cons_of_ne_nil hne
    have := h d List.mem_cons_self
    rw [List.head?_cons, if_neg (by simp; omega)]; rfl
  · have h0 : ∀ d ∈ List.replicate k 0, d ≤ 9 := fun d hd => by rw [List.eq_of_mem_replicate hd]; omega
    refine ⟨['1', '0'] :: (List.replicate k 0).map fun d => [chr d], 1 :: 0 :: List.replicate k 0, ?_, ?_, ?_, ?_, ?_⟩
    · rw [List.mapM_cons, mapM_digits h0]; rfl
    · rw [List.flatten_cons, flatten_single]
      have e1 : chr 1 = '1' := by decide +kernel
      have e0 : chr 0 = '0' := by decide +kernel
      rw [List.map_cons, List.map_cons, e1, e0]; rfl
    · intro d hd
      simp only [List.mem_cons] at hd
      rcases hd with rfl | rfl | hd
      · omega
      · omega
      · exact h0 d hd
    · rw [digitsVal_cons, digitsVal_cons, digitsVal_cons]
      simp only [List.length_cons, List.length_replicate, pow_succ]; ring
    · simp

/-- `place_decimal` writes the digits with the point after the digit of weight one. -/
theorem placeDecimal_spec {ds : List ℕ} {exp : ℤ} (hd : Dig ds) (hne : ds ≠ []) (hl : max 0 exp + 1 ≤ (ds.length : ℤ)) :
    ∃ t, placeDecimal ds exp = some t ∧
      PlainText t ((max 0 exp).toNat + 1 + (if ds.head? = some 10 then 1 else 0)) (ds.length - ((max 0 exp).toNat + 1)) (decVal ds (max 0 exp)) := by
  obtain ⟨parts, l, h1, h2, h3, h4, h5⟩ := mapM_dig hd hne
  obtain ⟨E, hE⟩ : ∃ E : ℕ, max 0 exp = E := ⟨(max 0 exp).toNat, by omega⟩
  obtain ⟨d0, tl, rfl⟩ := List.exists_cons_of_ne_nil hne
  unfold placeDecimal
  dsimp only
  rw [h1, Option.map_some, hE, h2]
  rw [hE] at hl
  simp only [Int.toNat_natCast]
  have eo : (if d0 = 10 then 1 else 0) = (if (d0 :: tl).head? = some 10 then 1 else 0) := by simp
  rw [eo]
  generalize (if (d0 :: tl).head? = some 10 then 1 else 0) = o at *
  have hval : decVal (d0 :: tl) E = (digitsVal l : ℚ) / 10 ^ ((d0 :: tl).length - (E + 1)) := by
    unfold decVal
    rw [h4, div_eq_mul_inv, ← zpow_natCast, ← zpow_neg]
    congr 2
    push_cast [show E + 1 ≤ (d0 :: tl).length by omega]
    ring
  refine ⟨_, rfl, (l.map chr).take (E + o + 1), (l.map chr).drop (E + o + 1), ?_, ?_, ?_, ?_, ?_⟩
  · rw [List.length_map]
    by_cases hc : E + o + 1 < l.length
    · rw [if_pos hc, if_neg (by omega)]
    · rw [if_neg hc, if_pos (by omega), List.take_of_length_le (by rw [List.length_map]; omega)]
  · rw [List.length_take, List.length_map]; omega
  · rw [List.length_drop, List.length_map]; omega
  · rw [List.take_append_drop]
    intro c hc
    rw [List.mem_map] at hc
    obtain ⟨d, hd, rfl⟩ := hc
    exact (chr_spec d (h3 d hd)).1
  · rw [List.take_append_drop, hval]
    unfold intOf
    rw [digitsOf_map h3]

end Verif.Disp
