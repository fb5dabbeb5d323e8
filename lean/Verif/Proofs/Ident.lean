import Verif.Proofs.OppDiv

/-!
# Exact identities: `a + 0`, `a - a`, `a * 1`, `a / 1`, `a / a`
-/

namespace Verif

open F64 Prim Util

theorem Is.add_rep {a b : F64} {m n k : ℤ} (ha : Is a m) (hb : Is b n) (hk : m + n = k) (hr : Rep k) (hl : |k| < ovf) :
    Is (F64.add a b) k := by
  have e : rnd ((m + n : ℤ) : ℚ) = k := by rw [hk]; exact rnd_of_rep hr
  have := ha.add' hb (by rw [e]; exact hl)
  rwa [e] at this

theorem Is.sub_rep {a b : F64} {m n k : ℤ} (ha : Is a m) (hb : Is b n) (hk : m - n = k) (hr : Rep k) (hl : |k| < ovf) :
    Is (F64.sub a b) k := ha.add_rep hb.neg (by omega) hr hl

theorem zero_ovf : |(0:ℤ)| < ovf := by simpa using ovf_pos

theorem Is.sub_self' {a b : F64} {m : ℤ} (ha : Is a m) (hb : Is b m) : Is (F64.sub a b) 0 :=
  ha.sub_rep hb (by omega) .zero zero_ovf

theorem Is.add_zero {a z : F64} {m : ℤ} (ha : Is a m) (hz : Is z 0) : Is (F64.add a z) m :=
  ha.add_rep hz (by omega) ha.rep ha.lt
theorem Is.zero_add {a z : F64} {m : ℤ} (ha : Is a m) (hz : Is z 0) : Is (F64.add z a) m :=
  hz.add_rep ha (by omega) ha.rep ha.lt
theorem Is.sub_zero {a z : F64} {m : ℤ} (ha : Is a m) (hz : Is z 0) : Is (F64.sub a z) m :=
  ha.sub_rep hz (by omega) ha.rep ha.lt
theorem Is.zero_sub {a z : F64} {m : ℤ} (ha : Is a m) (hz : Is z 0) : Is (F64.sub z a) (-m) :=
  hz.sub_rep ha (by omega) ha.rep.neg (by rw [abs_neg]; exact ha.lt)

theorem is_twoSum_zero_right {a z : F64} {m : ℤ} (ha : Is a m) (hz : Is z 0) :
    Is (twoSum a z).1 m ∧ Is (twoSum a z).2 0 := by
  have i0 := ha.add_zero hz
  have i1 := i0.sub_self' ha
  have i2 := i0.sub_zero i1
  have i3 := ha.sub_self' i2
  exact ⟨i0, i3.add_zero (hz.sub_self' i1)⟩

theorem is_twoSum_zero_left {a z : F64} {m : ℤ} (ha : Is a m) (hz : Is z 0) :
    Is (twoSum z a).1 m ∧ Is (twoSum z a).2 0 := by
  have i0 := ha.zero_add hz
  have i1 := i0.sub_zero hz
  have i2 := i0.sub_self' i1
  have i3 := hz.sub_self' i2
  exact ⟨i0, i3.add_zero (ha.sub_self' i1)⟩

theorem is_twoDiff_self {a b : F64} {m : ℤ} (ha : Is a m) (hb : Is b m) :
    Is (twoDiff a b).1 0 ∧ Is (twoDiff a b).2 0 := by
  have i0 := ha.sub_self' hb
  have i1 := ha.zero_sub i0
  have i2 : Is (F64.sub (F64.sub a b) (F64.sub (F64.sub a b) a)) m :=
    i0.sub_rep i1 (by omega) ha.rep ha.lt
  have i3 := ha.sub_self' i2
  have i4 := hb.add_rep i1 (k := 0) (by omega) .zero zero_ovf
  exact ⟨i0, i3.sub_self' i4⟩

theorem is_twoDiff_zero_right {a z : F64} {m : ℤ} (ha : Is a m) (hz : Is z 0) :
    Is (twoDiff a z).1 m ∧ Is (twoDiff a z).2 0 := by
  have i0 := ha.sub_zero hz
  have i1 := i0.sub_self' ha
  have i2 := i0.sub_zero i1
  have i3 := ha.sub_self' i2
  exact ⟨i0, i3.sub_self' (hz.add_zero i1)⟩

theorem is_quickTwoSum_norm {a b : F64} {h l : ℤ} (ha : Is a h) (hb : Is b l) (n : Norm2 h l) :
    Is (quickTwoSum a b).1 h ∧ Is (quickTwoSum a b).2 l := by
  have i0 : Is (F64.add a b) h := by
    have := ha.add' hb (by rw [n.rnd_eq]; exact ha.lt)
    rwa [n.rnd_eq] at this
  have i1 := i0.sub_self' ha
  exact ⟨i0, hb.sub_zero i1⟩

theorem Norm2.hi_zero {l : ℤ} (n : Norm2 0 l) : l = 0 := by
  have := n.lo_le
  have h := abs_nonneg l
  norm_num at this
  exact abs_eq_zero.mp (by omega)

theorem norm2_zero_right {h : ℤ} (r : Rep h) : Norm2 h 0 := ⟨r, .zero, by rw [add_zero]; exact rnd_of_rep r⟩

theorem dis_addMain {p q : F64 × F64} {h l : ℤ} (p1 : Is p.1 h) (p2 : Is p.2 0) (q1 : Is q.1 l) (q2 : Is q.2 0)
    (n : Norm2 h l) : DIs (addMain p q) h l := by
  have i1 := is_quickTwoSum_norm p1 (q1.add_zero p2) n
  have i2 := is_quickTwoSum_norm i1.1 (i1.2.zero_add q2) n
  exact ⟨i2.1, i2.2⟩

theorem add_main_of {a b : Double} {m n : ℤ} (ha : Is a.hi m) (hb : Is b.hi n) :
    a + b = addMain (twoSum a.hi b.hi) (twoSum a.lo b.lo) := by
  rw [add_eq, num_of_is ha, num_of_is hb]; rfl
theorem sub_main_of {a b : Double} {m n : ℤ} (ha : Is a.hi m) (hb : Is b.hi n) :
    a - b = addMain (twoDiff a.hi b.hi) (twoDiff a.lo b.lo) := by
  rw [sub_eq, num_of_is ha, num_of_is hb]; rfl

theorem dis_add_zero {a z : Double} {h l : ℤ} (ia : DIs a h l) (n : Norm2 h l) (iz : DIs z 0 0) : DIs (a + z) h l := by
  rw [add_main_of ia.1 iz.1]
  have i := is_twoSum_zero_right ia.1 iz.1
  have j := is_twoSum_zero_right ia.2 iz.2
  exact dis_addMain i.1 i.2 j.1 j.2 n
theorem dis_zero_add {a z : Double} {h l : ℤ} (ia : DIs a h l) (n : Norm2 h l) (iz : DIs z 0 0) : DIs (z + a) h l := by
  rw [add_main_of iz.1 ia.1]
  have i := is_twoSum_zero_left ia.1 iz.1
  have j := is_twoSum_zero_left ia.2 iz.2
  exact dis_addMain i.1 i.2 j.1 j.2 n
theorem dis_sub_zero {a z : Double} {h l : ℤ} (ia : DIs a h l) (n : Norm2 h l) (iz : DIs z 0 0) : DIs (a - z) h l := by
  rw [sub_main_of ia.1 iz.1]
  have i := is_twoDiff_zero_right ia.1 iz.1
  have j := is_twoDiff_zero_right ia.2 iz.2
  exact dis_addMain i.1 i.2 j.1 j.2 n
theorem dis_sub_self {a b : Double} {h l : ℤ} (ia : DIs a h l) (ib : DIs b h l) : DIs (a - b) 0 0 := by
  rw [sub_main_of ia.1 ib.1]
  have i := is_twoDiff_self ia.1 ib.1
  have j := is_twoDiff_self ia.2 ib.2
  exact dis_addMain i.1 i.2 j.1 j.2 (norm2_zero_right .zero)

/-- Same high component, the second operand has no low component: the difference is the low component. -/
theorem dis_sub_hi {a b : Double} {h l : ℤ} (ia : DIs a h l) (ib : DIs b h 0) : DIs (a - b) l 0 := by
  rw [sub_main_of ia.1 ib.1]
  have i := is_twoDiff_self ia.1 ib.1
  have j := is_twoDiff_zero_right ia.2 ib.2
  have c := j.1.add_zero i.2
  have q1 : Is (F64.add (twoDiff a.hi b.hi).1 (F64.add (twoDiff a.lo b.lo).1 (twoDiff a.hi b.hi).2)) l := c.zero_add i.1
  have q2 := q1.sub_zero i.1
  have q3 := c.sub_self' q2
  have i2 := is_quickTwoSum_norm q1 (q3.zero_add j.2) (norm2_zero_right ia.2.rep)
  exact ⟨i2.1, i2.2⟩

/-! ### Multiplication by one and zero -/

theorem Is.mul_rep {a b : F64} {m n k : ℤ} (ha : Is a m) (hb : Is b n) (hk : m * n = k * one') (hr : Rep k)
    (hl : |k| < ovf) : Is (F64.mul a b) k := by
  apply is_of_num
  rw [num_mul, num_of_is ha, num_of_is hb]
  change rndNum _ = _
  have : (m * n : ℚ) / one' = k := by
    rw [div_eq_iff one'_ne]; exact_mod_cast hk
  rw [this]
  unfold rndNum
  rw [rnd_of_rep hr, if_pos hl]

theorem Is.fma_rep {a b c : F64} {m n l k : ℤ} (ha : Is a m) (hb : Is b n) (hc : Is c l) (hk : m * n + l * one' = k * one')
    (hr : Rep k) (hl : |k| < ovf) : Is (F64.fma a b c) k := by
  apply is_of_num
  rw [num_fma, num_of_is ha, num_of_is hb, num_of_is hc]
  change rndNum _ = _
  have : (m * n : ℚ) / one' + l = k := by
    have h1 := one'_ne
    have hk' : (m * n + l * one' : ℚ) = k * one' := by exact_mod_cast hk
    field_simp
    rw [mul_comm _ (l:ℚ), mul_comm _ (k:ℚ)]; exact hk'
  rw [this]
  unfold rndNum
  rw [rnd_of_rep hr, if_pos hl]

theorem Is.div_rep {a b : F64} {m n k : ℤ} (ha : Is a m) (hb : Is b n) (hn : n ≠ 0) (hk : m * one' = k * n)
    (hr : Rep k) (hl : |k| < ovf) : Is (F64.div a b) k := by
  apply is_of_num
  rw [num_div hb hn, num_of_is ha]
  change rndNum _ = _
  have : (m * one' : ℚ) / n = k := by
    rw [div_eq_iff (by exact_mod_cast hn)]; exact_mod_cast hk
  rw [this]
  unfold rndNum
  rw [rnd_of_rep hr, if_pos hl]

theorem is_twoProd_of {a b : F64} {m n k : ℤ} (ha : Is a m) (hb : Is b n) (hk : m * n = k * one') (hr : Rep k)
    (hl : |k| < ovf) : Is (twoProd a b).1 k ∧ Is (twoProd a b).2 0 := by
  have i := ha.mul_rep hb hk hr hl
  refine ⟨i, ha.fma_rep hb i.neg ?_ .zero zero_ovf⟩
  rw [hk]; ring

theorem rep_one' : Rep one' := by unfold one'; exact .two_pow _
theorem one'_lt : |one'| < ovf := by
  unfold one' ovf; rw [abs_of_nonneg (by positivity)]
  exact pow_lt_pow_right₀ (by norm_num) (by norm_num)

theorem is_ofRound_units {A : ℕ} {n : ℤ} (s : Bool) (hA : n = if s then -(A:ℤ) else A) (hr : Rep n) (hl : |n| < ovf) :
    Is (ofRound s A 1) n := by
  have e : rnd (n : ℚ) = n := rnd_of_rep hr
  have h := is_ofRound (s := s) (num := A) (den := 1) (by norm_num) (q := (n : ℚ)) (by
    rw [hA]; cases s <;> simp) (by rw [e]; exact hl)
  rwa [e] at h

theorem is_ofDec_one : Is (ofDec false 1 0) one' := by
  unfold ofDec
  rw [if_pos (le_refl _)]
  refine is_ofRound_units false ?_ rep_one' one'_lt
  rw [if_neg (by decide), Nat.cast_mul, one'_nat]; simp

theorem dis_one : DIs Double.ONE one' 0 := by
  unfold DIs Double.ONE
  exact ⟨is_ofDec_one, is_zero⟩
theorem dis_zero : DIs Double.ZERO 0 0 := ⟨is_zero, is_zero⟩

theorem one'_ne_zero : one' ≠ 0 := one'_pos.ne'

theorem samD_of_dis {a b : Double} {h l : ℤ} (ia : DIs a h l) (ib : DIs b h l) : SamD a b :=
  ⟨(num_of_is ib.1).trans (num_of_is ia.1).symm, (num_of_is ib.2).trans (num_of_is ia.2).symm⟩

theorem samD_mul_main {a b : Double} {m n : ℤ} (ha : Is a.hi m) (hb : Is b.hi n) (hm : m ≠ 0) :
    SamD (a * b) (mulMain a b) := by
  have := samD_mul_getD a b
  rwa [num_of_is ha, num_of_is hb, preMulN_fin_fin hm] at this

theorem SamD.dis {a b : Double} {h l : ℤ} (s : SamD a b) (i : DIs b h l) : DIs a h l :=
  ⟨Sam.is (Eq.symm s.1) i.1, Sam.is (Eq.symm s.2) i.2⟩

theorem dis_mul_zero_left {a b : Double} {n l : ℤ} (ia : DIs a 0 l) (hb : Is b.hi n) : DIs (a * b) 0 0 := by
  have := samD_mul_getD a b
  rw [num_of_is ia.1, num_of_is hb] at this
  exact this.dis dis_zero

/-- A zero second operand: zero product. -/
theorem dis_mul_zero_right {a b : Double} {h l : ℤ} (ia : DIs a h l) (ib : DIs b 0 0) : DIs (a * b) 0 0 := by
  by_cases hh : h = 0
  · subst hh; exact dis_mul_zero_left ia ib.1
  refine (samD_mul_main ia.1 ib.1 hh).dis ?_
  have i := is_twoProd_of ia.1 ib.1 (k := 0) (by ring) .zero zero_ovf
  have j1 := ia.1.mul_rep ib.2 (k := 0) (by ring) .zero zero_ovf
  have j2 := ia.2.mul_rep ib.1 (k := 0) (by ring) .zero zero_ovf
  have := is_quickTwoSum_norm i.1 ((i.2.add_zero j1).add_zero j2) (norm2_zero_right .zero)
  exact ⟨this.1, this.2⟩

theorem dis_mul_one {a o : Double} {h l : ℤ} (ia : DIs a h l) (n : Norm2 h l) (io : DIs o one' 0) :
    DIs (a * o) h l := by
  by_cases hh : h = 0
  · subst hh
    rw [n.hi_zero]
    exact dis_mul_zero_left ia io.1
  refine (samD_mul_main ia.1 io.1 hh).dis ?_
  have i := is_twoProd_of ia.1 io.1 rfl ia.1.rep ia.1.lt
  have j1 := ia.1.mul_rep io.2 (k := 0) (by ring) .zero zero_ovf
  have j2 := ia.2.mul_rep io.1 rfl ia.2.rep ia.2.lt
  have := is_quickTwoSum_norm i.1 (j2.zero_add (i.2.add_zero j1)) n
  exact ⟨this.1, this.2⟩

theorem dis_one_mul {a o : Double} {h l : ℤ} (ia : DIs a h l) (n : Norm2 h l) (io : DIs o one' 0) :
    DIs (o * a) h l := by
  refine (samD_mul_main io.1 ia.1 one'_ne_zero).dis ?_
  have i := is_twoProd_of io.1 ia.1 (mul_comm _ _) ia.1.rep ia.1.lt
  have j1 := io.1.mul_rep ia.2 (mul_comm _ _) ia.2.rep ia.2.lt
  have j2 := io.2.mul_rep ia.1 (k := 0) (by ring) .zero zero_ovf
  have := is_quickTwoSum_norm i.1 ((j1.zero_add i.2).add_zero j2) n
  exact ⟨this.1, this.2⟩

/-! ### Division by one and by itself -/

theorem dis_mulF64_one {a : Double} {o : F64} {h l : ℤ} (ia : DIs a h l) (n : Norm2 h l) (io : Is o one') :
    DIs (Double.mulF64 a o) h l := by
  have i := is_twoProd_of ia.1 io rfl ia.1.rep ia.1.lt
  have j2 := ia.2.mul_rep io rfl ia.2.rep ia.2.lt
  have := is_quickTwoSum_norm i.1 (j2.zero_add i.2) n
  exact ⟨this.1, this.2⟩

theorem dis_one_mulF64 {o : Double} {x : F64} {h : ℤ} (io : DIs o one' 0) (ix : Is x h) :
    DIs (Double.mulF64 o x) h 0 := by
  have i := is_twoProd_of io.1 ix (mul_comm _ _) ix.rep ix.lt
  have j2 := io.2.mul_rep ix (k := 0) (by ring) .zero zero_ovf
  have := is_quickTwoSum_norm i.1 (i.2.add_zero j2) (norm2_zero_right ix.rep)
  exact ⟨this.1, this.2⟩

theorem dis_mulF64_zero {a : Double} {z : F64} {h l : ℤ} (ia : DIs a h l) (iz : Is z 0) :
    DIs (Double.mulF64 a z) 0 0 := by
  have i := is_twoProd_of ia.1 iz (k := 0) (by ring) .zero zero_ovf
  have j2 := ia.2.mul_rep iz (k := 0) (by ring) .zero zero_ovf
  have := is_quickTwoSum_norm i.1 (i.2.add_zero j2) (norm2_zero_right .zero)
  exact ⟨this.1, this.2⟩

theorem Is.zero_div {z b : F64} {n : ℤ} (hz : Is z 0) (hb : Is b n) (hn : n ≠ 0) : Is (F64.div z b) 0 :=
  hz.div_rep hb hn (by ring) .zero zero_ovf

theorem is_renorm3_zero {a b z : F64} {h l : ℤ} (ha : Is a h) (hb : Is b l) (hz : Is z 0) (n : Norm2 h l) :
    Is (renorm3 a b z).1 h ∧ Is (renorm3 a b z).2 l := by
  have i := is_quickTwoSum_norm ha hb n
  have j0 := i.1.zero_add hz
  have j1 := j0.sub_zero hz
  have j2 := i.1.sub_self' j1
  exact is_quickTwoSum_norm j0 (i.2.add_zero j2) n

theorem div_main_of {a b : Double} {m n : ℤ} (ha : Is a.hi m) (hb : Is b.hi n) (hn : n ≠ 0) : a / b = divMain a b := by
  have : Double.preDiv a b = none := by
    unfold Double.preDiv
    have hz : b.isZero = false := by
      unfold Double.isZero
      by_contra hc
      rw [Bool.not_eq_false] at hc
      exact hn ((hb.eq_iff is_zero).mp hc)
    have h1 : a.isNan = false := ha.not_nan
    have h2 : b.isNan = false := hb.not_nan
    have h3 : a.isInfinite = false := ha.not_inf
    have h4 : b.isInfinite = false := hb.not_inf
    rw [h1, h2, h3, h4, hz]; simp
  rw [div_eq, this]; rfl

theorem dis_div_one {a o : Double} {h l : ℤ} (ia : DIs a h l) (n : Norm2 h l) (io : DIs o one' 0) :
    DIs (a / o) h l := by
  rw [div_main_of ia.1 io.1 one'_ne_zero]
  have q1 := ia.1.div_rep io.1 one'_ne_zero rfl ia.1.rep ia.1.lt
  have r1 := dis_sub_hi ia (dis_one_mulF64 io q1)
  have q2 := r1.1.div_rep io.1 one'_ne_zero rfl r1.1.rep r1.1.lt
  have r2 := dis_sub_self r1 (dis_one_mulF64 io q2)
  have q3 := r2.1.zero_div io.1 one'_ne_zero
  have := is_renorm3_zero q1 q2 q3 n
  exact ⟨this.1, this.2⟩

theorem dis_div_self {a b : Double} {h l : ℤ} (ia : DIs a h l) (ib : DIs b h l) (n : Norm2 h l) (hh : h ≠ 0) :
    DIs (a / b) one' 0 := by
  rw [div_main_of ia.1 ib.1 hh]
  have q1 := ia.1.div_rep ib.1 hh (mul_comm _ _) rep_one' one'_lt
  have r1 := dis_sub_self ia (dis_mulF64_one ib n q1)
  have q2 := r1.1.zero_div ib.1 hh
  have r2 := dis_sub_zero r1 (norm2_zero_right .zero) (dis_mulF64_zero ib q2)
  have q3 := r2.1.zero_div ib.1 hh
  have := is_renorm3_zero q1 q2 q3 (norm2_zero_right rep_one')
  exact ⟨this.1, this.2⟩

theorem dis_zero_div {a b : Double} {h l : ℤ} (ia : DIs a 0 0) (ib : DIs b h l) (hh : h ≠ 0) :
    DIs (a / b) 0 0 := by
  rw [div_main_of ia.1 ib.1 hh]
  have q1 := ia.1.zero_div ib.1 hh
  have r1 := dis_sub_zero ia (norm2_zero_right .zero) (dis_mulF64_zero ib q1)
  have q2 := r1.1.zero_div ib.1 hh
  have r2 := dis_sub_zero r1 (norm2_zero_right .zero) (dis_mulF64_zero ib q2)
  have q3 := r2.1.zero_div ib.1 hh
  have := is_renorm3_zero q1 q2 q3 (norm2_zero_right .zero)
  exact ⟨this.1, this.2⟩

end Verif
