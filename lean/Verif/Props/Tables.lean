import Verif.Props.Consts
import Verif.Proofs.Tables
import Verif.Model.Tables

/-!
# The tables of reciprocal factorials, sines and cosines (C49)

`Near v c n`: `v` is the real number `c` up to a relative error of `2^-n` (`Props/Consts.lean`).
-/

namespace Verif

open Real Consts

namespace Tables

theorem rot_near (k : ℕ) (hk : k ≤ 256) :
    |cos (k * (π / 1024)) - ((mkRat (rot k).1 D : ℚ) : ℝ)| ≤ (er : ℝ) ∧
    |sin (k * (π / 1024)) - ((mkRat (rot k).2 D : ℚ) : ℝ)| ≤ (er : ℝ) := by
  have h := rot_approx k hk
  rw [w_pow] at h
  have hk' : (k : ℝ) ≤ 256 := by exact_mod_cast hk
  have b : (256 : ℚ) * mkRat 3 (10 ^ 74) ≤ er := by decide +kernel
  have b' : (256 : ℝ) * ((mkRat 3 (10 ^ 74) : ℚ) : ℝ) ≤ (er : ℝ) := by exact_mod_cast b
  have p : (0:ℚ) ≤ mkRat 3 (10 ^ 74) := by decide +kernel
  have p' : (0:ℝ) ≤ ((mkRat 3 (10 ^ 74) : ℚ) : ℝ) := by exact_mod_cast p
  have h2 : (k : ℝ) * ((mkRat 3 (10 ^ 74) : ℚ) : ℝ) ≤ (er : ℝ) := by
    generalize ((mkRat 3 (10 ^ 74) : ℚ) : ℝ) = M at *
    nlinarith
  have h := h.trans h2
  constructor
  · have := (Complex.abs_re_le_norm _).trans h
    rw [abs_sub_comm]; exact this
  · have := (Complex.abs_im_le_norm _).trans h
    rw [abs_sub_comm]; exact this

/-- The kernel's check of one entry. -/
def ok (n : ℕ) (v : ℚ) (z : ℤ) : Bool := decide ((|v - mkRat z D| + er) * (2 ^ n : ℕ) ≤ mkRat z D - er)

theorem ok_near {n : ℕ} {v : ℚ} {z : ℤ} {c : ℝ} (h : ok n v z = true) (hc : |c - ((mkRat z D : ℚ) : ℝ)| ≤ (er : ℝ)) : Near v c n := by
  have h := of_decide_eq_true h
  exact (near_of er hc (le_abs_self _) (by rw [abs_sub_comm]; exact le_abs_self _) n h).trans (le_abs_self c)

/-- The kernel's check of a table: entry number `i` belongs to the angle `(k + i * d) π / 1024`. -/
def check (n d : ℕ) : List ℚ → List ℚ → ℤ × ℤ → Bool
  | s :: ss, c :: cs, z => ok n s z.2 && ok n c z.1 && check n d ss cs (step^[d] z)
  | [], [], _ => true
  | _, _, _ => false

theorem step_iter (d k : ℕ) : step^[d] (rot k) = rot (k + d) := by
  induction d with
  | zero => rfl
  | succ d ih => rw [Function.iterate_succ_apply', ih]; rfl

theorem check_spec (n d : ℕ) (ss cs : List ℚ) (k : ℕ) (h : check n d ss cs (rot k) = true) (i : ℕ) (hi : i < ss.length)
    (hk : k + i * d ≤ 256) :
    ∃ s c, ss[i]? = some s ∧ cs[i]? = some c ∧ Near s (sin ((k + i * d : ℕ) * (π / 1024))) n ∧
      Near c (cos ((k + i * d : ℕ) * (π / 1024))) n := by
  induction ss generalizing cs k i with
  | nil => simp at hi
  | cons s ss ih =>
    cases cs with
    | nil => simp [check] at h
    | cons c cs =>
      rw [check, Bool.and_eq_true, Bool.and_eq_true, step_iter] at h
      cases i with
      | zero =>
        have r := rot_near k (by omega)
        refine ⟨s, c, rfl, rfl, ?_, ?_⟩
        · rw [Nat.zero_mul, Nat.add_zero]; exact ok_near h.1.1 r.2
        · rw [Nat.zero_mul, Nat.add_zero]; exact ok_near h.1.2 r.1
      | succ i =>
        have := ih cs (k + d) h.2 i (by simpa using hi) (by rw [Nat.succ_mul] at hk; omega)
        have e : k + d + i * d = k + (i + 1) * d := by ring
        rw [e] at this
        simpa using this

end Tables

/-- **C49.** The reciprocal factorials of `Double`. -/
theorem C49_double_inv_facts : Double.INV_FACTS.length = 15 ∧ ∀ i : ℕ, i < 15 → ∃ x, Double.INV_FACTS[i]? = some x ∧ x.Normalized ∧
    |x.val * ((i + 3).factorial : ℚ) - 1| ≤ mkRat 1 (2 ^ 107) := by
  refine ⟨rfl, fun i hi => ?_⟩
  have h : ∀ i : ℕ, i < 15 → (Double.INV_FACTS.getD i Double.ZERO).Normalized ∧
      |(Double.INV_FACTS.getD i Double.ZERO).val * ((i + 3).factorial : ℚ) - 1| ≤ mkRat 1 (2 ^ 107) := by decide +kernel
  have hl : Double.INV_FACTS.length = 15 := rfl
  refine ⟨Double.INV_FACTS.getD i Double.ZERO, ?_, h i hi⟩
  rw [List.getD_eq_getElem?_getD, List.getElem?_eq_getElem (by omega), Option.getD_some]

/-- **C49.** The reciprocal factorials of `Quad`. -/
theorem C49_quad_inv_facts : Quad.INV_FACTS.length = 15 ∧ ∀ i : ℕ, i < 15 → ∃ x, Quad.INV_FACTS[i]? = some x ∧ x.Normalized ∧
    |x.val * ((i + 3).factorial : ℚ) - 1| ≤ mkRat 1 (2 ^ 213) := by
  refine ⟨rfl, fun i hi => ?_⟩
  have h : ∀ i : ℕ, i < 15 → (Quad.INV_FACTS.getD i Quad.ZERO).Normalized ∧
      |(Quad.INV_FACTS.getD i Quad.ZERO).val * ((i + 3).factorial : ℚ) - 1| ≤ mkRat 1 (2 ^ 213) := by decide +kernel
  have hl : Quad.INV_FACTS.length = 15 := rfl
  refine ⟨Quad.INV_FACTS.getD i Quad.ZERO, ?_, h i hi⟩
  rw [List.getD_eq_getElem?_getD, List.getElem?_eq_getElem (by omega), Option.getD_some]

/-- **C49.** Entry `i` of the tables of `Double` holds the sine and the cosine of `(i+1) π / 16`, accurate to `2^-105`. -/
theorem C49_double_sines : Double.SINES.length = 4 ∧ Double.COSINES.length = 4 ∧ ∀ i : ℕ, i < 4 →
    ∃ s c, Double.SINES[i]? = some s ∧ Double.COSINES[i]? = some c ∧
      Near s.val (sin ((i + 1) * (π / 16))) 105 ∧ Near c.val (cos ((i + 1) * (π / 16))) 105 := by
  refine ⟨rfl, rfl, fun i hi => ?_⟩
  have h : Tables.check 105 64 (Double.SINES.map Double.val) (Double.COSINES.map Double.val) (Tables.rot 64) = true := by
    decide +kernel
  obtain ⟨s, c, h1, h2, h3, h4⟩ := Tables.check_spec 105 64 _ _ 64 h i hi (by omega)
  rw [List.getElem?_map, Option.map_eq_some_iff] at h1 h2
  obtain ⟨s', e1, rfl⟩ := h1
  obtain ⟨c', e2, rfl⟩ := h2
  have e : ((64 + i * 64 : ℕ) : ℝ) * (π / 1024) = (i + 1) * (π / 16) := by push_cast; ring
  rw [e] at h3 h4
  exact ⟨s', c', e1, e2, h3, h4⟩

namespace Tables

/-- 64 entries of a table from number `n` on. -/
def chunk (n : ℕ) (l : List Quad) : List Quad := (l.drop n).take 64

theorem chunk_get (n : ℕ) (l : List Quad) (j : ℕ) (hj : j < 64) : (chunk n l)[j]? = l[n + j]? := by
  unfold chunk
  rw [List.getElem?_take_of_lt hj, List.getElem?_drop]

theorem quad_of_check (SS CS : List Quad) (n : ℕ) (hn : n + 64 ≤ 256) (hl : (chunk n SS).length = 64)
    (h : check 210 1 ((chunk n SS).map Quad.val) ((chunk n CS).map Quad.val) (rot (n + 1)) = true) (j : ℕ) (hj : j < 64) :
    ∃ s c, SS[n + j]? = some s ∧ CS[n + j]? = some c ∧
      Near s.val (sin (((n + j : ℕ) + 1) * (π / 1024))) 210 ∧ Near c.val (cos (((n + j : ℕ) + 1) * (π / 1024))) 210 := by
  obtain ⟨s, c, h1, h2, h3, h4⟩ := check_spec 210 1 _ _ (n + 1) h j (by rw [List.length_map]; omega) (by omega)
  rw [List.getElem?_map, Option.map_eq_some_iff] at h1 h2
  obtain ⟨s', e1, rfl⟩ := h1
  obtain ⟨c', e2, rfl⟩ := h2
  rw [chunk_get n _ j hj] at e1 e2
  have e : ((n + 1 + j * 1 : ℕ) : ℝ) * (π / 1024) = ((n + j : ℕ) + 1) * (π / 1024) := by push_cast; ring
  rw [e] at h3 h4
  exact ⟨s', c', e1, e2, h3, h4⟩

theorem quad_sines_length : Quad.SINES.length = 256 := by decide +kernel
theorem quad_cosines_length : Quad.COSINES.length = 256 := by decide +kernel
theorem quad_check_0 : check 210 1 ((chunk 0 Quad.SINES).map Quad.val) ((chunk 0 Quad.COSINES).map Quad.val) (rot (0 + 1)) = true := by
  decide +kernel
theorem quad_len_0 : (chunk 0 Quad.SINES).length = 64 := by decide +kernel
theorem quad_norm_0 : (∀ x ∈ chunk 0 Quad.SINES, x.Normalized) := by decide +kernel
theorem quad_norm'_0 : (∀ x ∈ chunk 0 Quad.COSINES, x.Normalized) := by decide +kernel
theorem quad_check_64 : check 210 1 ((chunk 64 Quad.SINES).map Quad.val) ((chunk 64 Quad.COSINES).map Quad.val) (rot (64 + 1)) = true := by
  decide +kernel
theorem quad_len_64 : (chunk 64 Quad.SINES).length = 64 := by decide +kernel
theorem quad_norm_64 : (∀ x ∈ chunk 64 Quad.SINES, x.Normalized) := by decide +kernel
theorem quad_norm'_64 : (∀ x ∈ chunk 64 Quad.COSINES, x.Normalized) := by decide +kernel
theorem quad_check_128 : check 210 1 ((chunk 128 Quad.SINES).map Quad.val) ((chunk 128 Quad.COSINES).map Quad.val) (rot (128 + 1)) = true := by
  decide +kernel
theorem quad_len_128 : (chunk 128 Quad.SINES).length = 64 := by decide +kernel
theorem quad_norm_128 : (∀ x ∈ chunk 128 Quad.SINES, x.Normalized) := by decide +kernel
theorem quad_norm'_128 : (∀ x ∈ chunk 128 Quad.COSINES, x.Normalized) := by decide +kernel
theorem quad_check_192 : check 210 1 ((chunk 192 Quad.SINES).map Quad.val) ((chunk 192 Quad.COSINES).map Quad.val) (rot (192 + 1)) = true := by
  decide +kernel
theorem quad_len_192 : (chunk 192 Quad.SINES).length = 64 := by decide +kernel
theorem quad_norm_192 : (∀ x ∈ chunk 192 Quad.SINES, x.Normalized) := by decide +kernel
theorem quad_norm'_192 : (∀ x ∈ chunk 192 Quad.COSINES, x.Normalized) := by decide +kernel

theorem chunks_all {l : List Quad} {p : Quad → Prop} (hl : l.length = 256) (h0 : ∀ x ∈ chunk 0 l, p x) (h1 : ∀ x ∈ chunk 64 l, p x)
    (h2 : ∀ x ∈ chunk 128 l, p x) (h3 : ∀ x ∈ chunk 192 l, p x) : ∀ x ∈ l, p x := by
  intro x hx
  obtain ⟨i, hi, rfl⟩ := List.getElem_of_mem hx
  have key : ∀ n, n ≤ i → i < n + 64 → (∀ x ∈ chunk n l, p x) → p l[i] := by
    intro n h1 h2 h
    apply h
    apply List.mem_of_getElem? (i := i - n)
    rw [chunk_get n l _ (by omega)]
    have : n + (i - n) = i := by omega
    rw [this, List.getElem?_eq_getElem hi]
  have c : (0 ≤ i ∧ i < 0 + 64) ∨ (64 ≤ i ∧ i < 64 + 64) ∨ (128 ≤ i ∧ i < 128 + 64) ∨ (192 ≤ i ∧ i < 192 + 64) := by omega
  rcases c with c | c | c | c
  · exact key _ c.1 c.2 h0
  · exact key _ c.1 c.2 h1
  · exact key _ c.1 c.2 h2
  · exact key _ c.1 c.2 h3

end Tables

/-- **C49.** Entry `i` of the tables of `Quad` holds the sine and the cosine of `(i+1) π / 1024`, accurate to `2^-210`. -/
theorem C49_quad_sines : Quad.SINES.length = 256 ∧ Quad.COSINES.length = 256 ∧ ∀ i : ℕ, i < 256 →
    ∃ s c, Quad.SINES[i]? = some s ∧ Quad.COSINES[i]? = some c ∧
      Near s.val (sin ((i + 1) * (π / 1024))) 210 ∧ Near c.val (cos ((i + 1) * (π / 1024))) 210 := by
  refine ⟨Tables.quad_sines_length, Tables.quad_cosines_length, fun i hi => ?_⟩
  have c : (0 ≤ i ∧ i < 0 + 64) ∨ (64 ≤ i ∧ i < 64 + 64) ∨ (128 ≤ i ∧ i < 128 + 64) ∨ (192 ≤ i ∧ i < 192 + 64) := by omega
  have key : ∀ n, n ≤ i → i < n + 64 → n + 64 ≤ 256 → (Tables.chunk n Quad.SINES).length = 64 →
      Tables.check 210 1 ((Tables.chunk n Quad.SINES).map Quad.val) ((Tables.chunk n Quad.COSINES).map Quad.val) (Tables.rot (n + 1)) = true →
      ∃ s c, Quad.SINES[i]? = some s ∧ Quad.COSINES[i]? = some c ∧
        Near s.val (sin ((i + 1) * (π / 1024))) 210 ∧ Near c.val (cos ((i + 1) * (π / 1024))) 210 := by
    intro n h1 h2 h3 h4 h5
    have := Tables.quad_of_check _ _ n h3 h4 h5 (i - n) (by omega)
    have e : n + (i - n) = i := by omega
    rwa [e] at this
  rcases c with c | c | c | c
  · exact key _ c.1 c.2 (by norm_num) Tables.quad_len_0 Tables.quad_check_0
  · exact key _ c.1 c.2 (by norm_num) Tables.quad_len_64 Tables.quad_check_64
  · exact key _ c.1 c.2 (by norm_num) Tables.quad_len_128 Tables.quad_check_128
  · exact key _ c.1 c.2 (by norm_num) Tables.quad_len_192 Tables.quad_check_192

/-- **C49.** All entries of the sine and cosine tables are normalized. -/
theorem C49_normalized : (∀ x ∈ Double.SINES ++ Double.COSINES, x.Normalized) ∧ (∀ x ∈ Quad.SINES ++ Quad.COSINES, x.Normalized) := by
  constructor
  · decide +kernel
  · intro x hx
    rcases List.mem_append.mp hx with h | h
    · exact Tables.chunks_all Tables.quad_sines_length Tables.quad_norm_0 Tables.quad_norm_64 Tables.quad_norm_128 Tables.quad_norm_192 x h
    · exact Tables.chunks_all Tables.quad_cosines_length Tables.quad_norm'_0 Tables.quad_norm'_64 Tables.quad_norm'_128 Tables.quad_norm'_192 x h

/-- The double angle of entry 128 of the `Quad` table: `sin (π/8)` is the one of the `Double` table. -/
example : (Quad.SINES[127]?).map (·.c0) = (Double.SINES[1]?).map (·.hi) := by decide +kernel

end Verif
