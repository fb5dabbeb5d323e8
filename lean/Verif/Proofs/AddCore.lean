import Verif.EFT

/-!
# Error analysis of double-double addition, on integers

`xh, xl, yh, yl` are numbers of units. The algorithm is the one of `src/double/add.rs` ("AccurateDWPlusDW").
-/

namespace Verif

/-- `(h, l)` is a normalized pair: both representable and `h` is the rounding of the exact sum. -/
structure Norm2 (h l : ℤ) : Prop where
  rep_hi : Rep h
  rep_lo : Rep l
  rnd_eq : rnd ((h + l : ℤ) : ℚ) = h

theorem Norm2.swap_sign {h l : ℤ} (n : Norm2 h l) : Norm2 (-h) (-l) where
  rep_hi := n.rep_hi.neg
  rep_lo := n.rep_lo.neg
  rnd_eq := by
    have : (((-h + -l : ℤ)) : ℚ) = -((h + l : ℤ) : ℚ) := by push_cast; ring
    rw [this, rnd_neg, n.rnd_eq]

theorem Norm2.expo_le {h l : ℤ} (n : Norm2 h l) : expo ((h + l : ℤ) : ℚ) ≤ expo (h : ℚ) := by
  by_contra hc
  push Not at hc
  set x : ℚ := ((h + l : ℤ) : ℚ) with hx
  have h1 := Verif.expo_le x (by omega)
  have h2 : (2:ℤ) ^ (52 + expo x) ≤ |rnd x| := le_abs_rnd (Rep.two_pow _) (by push_cast; exact h1)
  rw [n.rnd_eq] at h2
  have h3 : expo x ≤ expo (h:ℚ) := le_expo_of_le (by exact_mod_cast h2)
  omega

/-- The second component is at most half an ulp of the first. -/
theorem Norm2.two_lo {h l : ℤ} (n : Norm2 h l) : 2 * |l| ≤ 2 ^ expo (h : ℚ) := by
  have h1 : 2 * |h + l - rnd ((h + l : ℤ) : ℚ)| ≤ 2 ^ expo ((h + l : ℤ) : ℚ) := two_err_le (expo_int_lt _)
  rw [n.rnd_eq] at h1
  have h2 : (2:ℤ) ^ expo ((h + l : ℤ) : ℚ) ≤ 2 ^ expo (h : ℚ) := pow_le_pow_right₀ (by norm_num) n.expo_le
  have h3 : h + l - h = l := by ring
  rw [h3] at h1
  omega

/-- A weaker condition than `Norm2`: both components representable and the second at most half an ulp of the first (in a tie
the first need not be the rounding of the sum). -/
structure Half2 (h l : ℤ) : Prop where
  rep_hi : Rep h
  rep_lo : Rep l
  two_lo : 2 * |l| ≤ 2 ^ expo (h : ℚ)

theorem Norm2.half {h l : ℤ} (n : Norm2 h l) : Half2 h l := ⟨n.rep_hi, n.rep_lo, n.two_lo⟩

theorem Half2.swap_sign {h l : ℤ} (n : Half2 h l) : Half2 (-h) (-l) where
  rep_hi := n.rep_hi.neg
  rep_lo := n.rep_lo.neg
  two_lo := by
    have := n.two_lo
    rw [abs_neg]
    push_cast
    rw [expo_neg]
    exact this

/-- ... hence at most `2^-53` of the first. -/
theorem Half2.lo_le {h l : ℤ} (n : Half2 h l) : 2 ^ 53 * |l| ≤ |h| := by
  have h1 := n.two_lo
  by_cases he : expo (h:ℚ) = 0
  · rw [he] at h1
    have : |l| = 0 := by have := abs_nonneg l; omega
    rw [this]; simp
  · have h2 : (2:ℤ) ^ (52 + expo (h:ℚ)) ≤ |h| := by
      have := Verif.expo_le (h:ℚ) he
      exact_mod_cast this
    rw [pow_add] at h2
    have : (2:ℤ) ^ 53 * |l| = 2 ^ 52 * (2 * |l|) := by ring
    rw [this]
    calc (2:ℤ) ^ 52 * (2 * |l|) ≤ 2 ^ 52 * 2 ^ expo (h:ℚ) := by
          apply mul_le_mul_of_nonneg_left h1 (by positivity)
      _ ≤ _ := h2

theorem Norm2.lo_le {h l : ℤ} (n : Norm2 h l) : 2 ^ 53 * |l| ≤ |h| := n.half.lo_le

/-- The grid condition of Fast2Sum. -/
def Grid (a b : ℤ) : Prop := ∃ k : ℕ, (2:ℤ) ^ k ∣ a ∧ (2:ℤ) ^ k ∣ b ∧ |b| < 2 ^ (53 + k)

theorem Grid.of_abs_le {a b : ℤ} (ha : Rep a) (hb : Rep b) (h : |b| ≤ |a|) : Grid a b := grid_of_abs_le ha hb h

theorem Grid.zero_left {b : ℤ} (hb : Rep b) : Grid 0 b := grid_of_zero hb

theorem Grid.zero_right {a : ℤ} : Grid a 0 := ⟨0, by simp, by simp, by positivity⟩

section
variable (xh xl yh yl : ℤ)
/-- rounded value and error of a sum -/
def rs (a b : ℤ) : ℤ := rnd ((a + b : ℤ) : ℚ)
def re (a b : ℤ) : ℤ := a + b - rs a b

theorem rs_comm (a b : ℤ) : rs a b = rs b a := by unfold rs; rw [add_comm]
theorem re_comm (a b : ℤ) : re a b = re b a := by unfold re; rw [add_comm, rs_comm]
theorem rs_add_re (a b : ℤ) : rs a b + re a b = a + b := by unfold re; ring
theorem rep_rs (a b : ℤ) : Rep (rs a b) := rep_rnd _
theorem rep_re {a b : ℤ} (ha : Rep a) (hb : Rep b) : Rep (re a b) := rep_err_add ha hb
theorem re_le (a b : ℤ) : 2 ^ 53 * |re a b| ≤ |a + b| := rel_err (a + b)
theorem rs_of_rep {a b : ℤ} (h : Rep (a + b)) : rs a b = a + b := rnd_of_rep h
theorem re_of_rep {a b : ℤ} (h : Rep (a + b)) : re a b = 0 := by unfold re; rw [rs_of_rep h]; ring
theorem norm2_rs_re {a b : ℤ} (ha : Rep a) (hb : Rep b) : Norm2 (rs a b) (re a b) where
  rep_hi := rep_rs a b
  rep_lo := rep_re ha hb
  rnd_eq := by rw [rs_add_re]; rfl

theorem norm2_rs_re' {a b : ℤ} (hr : Rep (re a b)) : Norm2 (rs a b) (re a b) where
  rep_hi := rep_rs a b
  rep_lo := hr
  rnd_eq := by rw [rs_add_re]; rfl

theorem re_of_grid {a b : ℤ} (ha : Rep a) (h : Grid a b) : Rep (re a b) := by
  obtain ⟨k, h1, h2, h3⟩ := h
  exact rep_rnd_sub_of_grid ha h1 h2 h3

/-- Intermediate quantities of the addition. -/
def addC : ℤ := rs (re xh yh) (rs xl yl)
def addVh : ℤ := rs (rs xh yh) (addC xh xl yh yl)
def addVl : ℤ := re (rs xh yh) (addC xh xl yh yl)
def addW : ℤ := rs (re xl yl) (addVl xh xl yh yl)
end

/-- What the analysis of the addition delivers. -/
structure AddOk (xh xl yh yl : ℤ) : Prop where
  grid1 : Grid (rs xh yh) (addC xh xl yh yl)
  grid2 : Grid (addVh xh xl yh yl) (addW xh xl yh yl)
  err : 2 ^ 103 * |addVh xh xl yh yl + addW xh xl yh yl - (xh + xl + (yh + yl))| ≤ |xh + xl + (yh + yl)|

theorem addC_comm (xh xl yh yl : ℤ) : addC xh xl yh yl = addC yh yl xh xl := by
  unfold addC; rw [re_comm, rs_comm xl]

theorem AddOk.symm {xh xl yh yl : ℤ} (h : AddOk xh xl yh yl) : AddOk yh yl xh xl := by
  have e1 := addC_comm xh xl yh yl
  have e2 : addVh xh xl yh yl = addVh yh yl xh xl := by unfold addVh; rw [e1, rs_comm xh]
  have e3 : addW xh xl yh yl = addW yh yl xh xl := by unfold addW addVl; rw [e1, rs_comm xh, re_comm xl]
  obtain ⟨g1, g2, he⟩ := h
  constructor
  · rwa [e1, rs_comm xh] at g1
  · rwa [e2, e3] at g2
  · rw [e2, e3] at he
    rwa [add_comm (yh + yl)]

theorem abs_tri (a b : ℤ) : |a| ≤ |a + b| + |b| := by
  have : a = (a + b) + -b := by ring
  calc |a| = |(a + b) + -b| := by rw [← this]
    _ ≤ |a + b| + |-b| := abs_add_le _ _
    _ = _ := by rw [abs_neg]

theorem addOk_of_le {xh xl yh yl : ℤ} (hx : Half2 xh xl) (hy : Half2 yh yl) (hle : |yh| ≤ |xh|) :
    AddOk xh xl yh yl := by
  set sh := rs xh yh with hsh
  set sl := re xh yh with hsl
  set th := rs xl yl with hth
  set tl := re xl yl with htl
  set c := addC xh xl yh yl with hc
  have hc' : c = rs sl th := rfl
  set vh := addVh xh xl yh yl with hvh
  have hvh' : vh = rs sh c := rfl
  set vl := addVl xh xl yh yl with hvl
  have hvl' : vl = re sh c := rfl
  set w := addW xh xl yh yl with hw
  have hw' : w = rs tl vl := rfl
  have rsh : Rep sh := rep_rs _ _
  have rsl : Rep sl := rep_re hx.rep_hi hy.rep_hi
  have rth : Rep th := rep_rs _ _
  have rtl : Rep tl := rep_re hx.rep_lo hy.rep_lo
  have rc : Rep c := rep_rs _ _
  have rvh : Rep vh := rep_rs _ _
  have rw' : Rep w := rep_rs _ _
  have e1 : sh + sl = xh + yh := rs_add_re _ _
  have e2 : th + tl = xl + yl := rs_add_re _ _
  have e3 : c + re sl th = sl + th := rs_add_re _ _
  have e4 : vh + vl = sh + c := rs_add_re _ _
  have e5 : w + re tl vl = tl + vl := rs_add_re _ _
  have b1 : 2 ^ 53 * |sl| ≤ |xh + yh| := re_le _ _
  have b2 : 2 ^ 53 * |tl| ≤ |xl + yl| := re_le _ _
  have b3 : 2 ^ 53 * |re sl th| ≤ |sl + th| := re_le _ _
  have b4 : 2 ^ 53 * |vl| ≤ |sh + c| := re_le _ _
  have b5 : 2 ^ 53 * |re tl vl| ≤ |tl + vl| := re_le _ _
  have bx := hx.lo_le
  have by' := hy.lo_le
  have t1 := abs_add_le xl yl
  have t2 := abs_add_le sl th
  have t3 := abs_add_le tl vl
  have t4 := abs_add_le sh c
  have hE : vh + w - (xh + xl + (yh + yl)) = -(re sl th + re tl vl) := by linarith
  have tE : |vh + w - (xh + xl + (yh + yl))| ≤ |re sl th| + |re tl vl| := by
    rw [hE, abs_neg]; exact abs_add_le _ _
  -- lower bound for the exact sum
  have hlow : |xh + yh| ≤ |xh + xl + (yh + yl)| + |xl + yl| := by
    have : xh + xl + (yh + yl) = (xh + yh) + (xl + yl) := by ring
    rw [this]; exact abs_tri _ _
  have hths : |th| ≤ |xl + yl| + |tl| := by
    rw [← e2]; exact abs_tri _ _
  have hcs : |c| ≤ |sl + th| + |re sl th| := by
    rw [← e3]; exact abs_tri _ _
  have hshs : |sh| ≤ |xh + yh| + |sl| := by
    rw [← e1]; exact abs_tri _ _
  have hshs' : |xh + yh| ≤ |sh| + |sl| := by rw [← e1]; exact abs_add_le _ _
  have hvhs' : |sh + c| ≤ |vh| + |vl| := by rw [← e4]; exact abs_add_le _ _
  have hshc : |sh| ≤ |sh + c| + |c| := abs_tri _ _
  have hws : |w| ≤ |tl + vl| + |re tl vl| := by rw [← e5]; exact abs_tri _ _
  have n0 := abs_nonneg sl
  have n1 := abs_nonneg tl
  have n2 := abs_nonneg vl
  have n3 := abs_nonneg (re sl th)
  have n4 := abs_nonneg (re tl vl)
  have n5 := abs_nonneg xl
  have n6 := abs_nonneg yl
  have n7 := abs_nonneg (xh + yh)
  have n8 := abs_nonneg c
  have n9 := abs_nonneg (sh + c)
  norm_num at b1 b2 b3 b4 b5 bx by'
  by_cases hsl0 : sl = 0
  · -- the leading sum is exact
    have hcth : c = th := by
      rw [hc', hsl0]; rw [rs_of_rep (by simpa using rth)]; ring
    have hre0 : re sl th = 0 := by rw [hsl0]; exact re_of_rep (by simpa using rth)
    have hshe : sh = xh + yh := by rw [hsl0] at e1; linarith
    rcases le_or_gt (expo (xh:ℚ)) (expo (yh:ℚ) + 53) with hk | hk
    · -- comparable exponents: grid argument
      set ky := expo (yh:ℚ) with hky
      set g := expo ((xl + yl : ℤ):ℚ) with hg
      have hlx := hx.two_lo
      have hly := hy.two_lo
      have hxk : (2:ℤ) ^ expo (xh:ℚ) ≤ 2 ^ (ky + 53) := pow_le_pow_right₀ (by norm_num) hk
      have p1 : (2:ℤ) ^ (ky + 53) = 2 ^ 53 * 2 ^ ky := by rw [pow_add]; ring
      have p2 : (2:ℤ) ^ (53 + ky) = 2 ^ 53 * 2 ^ ky := by rw [pow_add]
      have p3 : (0:ℤ) < 2 ^ ky := by positivity
      norm_num at p1 p2
      have hsum : |xl + yl| < 2 ^ (53 + ky) := by
        rw [← hky] at hly
        linarith
      have hgk : g ≤ ky := expo_le_of_lt (by exact_mod_cast hsum)
      have hdsh : (2:ℤ) ^ g ∣ sh := by
        refine dvd_trans (pow_dvd_pow 2 hgk) ?_
        exact dvd_rnd (dvd_add (hx.rep_hi.dvd_of_abs_le hle) hy.rep_hi.dvd)
      have hdth : (2:ℤ) ^ g ∣ th := expo_dvd_rnd _
      have htlg : 2 * |tl| ≤ 2 ^ g := two_err_le (expo_int_lt (xl + yl))
      have grid1 : Grid sh c := by
        rw [hcth]
        refine ⟨expo (th:ℚ), ?_, rth.dvd, expo_int_lt th⟩
        have hth53 : |th| ≤ 2 ^ (53 + g) := abs_rnd_le_expo _
        rcases lt_or_eq_of_le hth53 with h | h
        · exact dvd_trans (pow_dvd_pow 2 (expo_le_of_lt (by exact_mod_cast h))) hdsh
        · -- |th| is a power of two
          have hgk' : g < ky := by
            by_contra hc2
            have : g = ky := by omega
            rw [this] at h
            have hB : |th| ≤ 2 ^ 52 * 2 ^ ky + 2 ^ ky := by
              have hr : Rep (2 ^ 52 * 2 ^ ky + 2 ^ ky) := ⟨2 ^ 52 + 1, ky, by norm_num, by ring⟩
              apply abs_rnd_le hr
              have hly' := hly
              rw [← hky] at hly'
              have h3 : |xl + yl| ≤ 2 ^ 52 * 2 ^ ky + 2 ^ ky := by linarith
              exact_mod_cast h3
            linarith
          have h4 : expo (th:ℚ) ≤ g + 1 := by
            apply expo_le_of_lt
            have : |th| < 2 ^ (53 + (g + 1)) := by
              rw [h]; exact pow_lt_pow_right₀ (by norm_num) (by omega)
            exact_mod_cast this
          refine dvd_trans (pow_dvd_pow 2 (by omega : expo (th:ℚ) ≤ ky)) ?_
          exact dvd_rnd (dvd_add (hx.rep_hi.dvd_of_abs_le hle) hy.rep_hi.dvd)
      have hdv : (2:ℤ) ^ g ∣ sh + c := by rw [hcth]; exact dvd_add hdsh hdth
      rcases le_or_gt |sh + c| (2 ^ (53 + g)) with hsm | hbig
      · -- second sum is exact as well
        have hr : Rep (sh + c) := Rep.of_dvd_le hdv hsm
        have hvl0 : vl = 0 := re_of_rep hr
        have hre2 : re tl vl = 0 := by rw [hvl0]; exact re_of_rep (by simpa using rtl)
        have hwtl : w = tl := by
          rw [hw', hvl0, rs_of_rep (by simpa using rtl)]; ring
        refine ⟨grid1, ?_, ?_⟩
        · rw [← hw, ← hvh, hwtl]
          by_cases hv0 : vh = 0
          · rw [hv0]; exact Grid.zero_left rtl
          · apply Grid.of_abs_le rvh rtl
            have : (2:ℤ) ^ g ≤ |vh| := by
              apply Int.le_of_dvd (abs_pos.mpr hv0)
              rw [dvd_abs]; exact dvd_rnd hdv
            linarith
        · rw [hre0, hre2] at hE
          rw [hE]; simp
      · have p4 : (2:ℤ) ^ (53 + g) = 2 ^ 53 * 2 ^ g := by rw [pow_add]
        norm_num at p4
        have hshc2 : |sh + c| ≤ |xh + xl + (yh + yl)| + |tl| := by
          have : xh + xl + (yh + yl) = (sh + c) + tl := by rw [hcth]; linarith
          rw [this]; exact abs_tri _ _
        refine ⟨grid1, ?_, ?_⟩
        · apply Grid.of_abs_le rvh rw'
          linarith
        · rw [hre0, abs_zero] at tE
          linarith
    · -- yh is negligible
      have hyb : |yh| * 2 < |xh| := by
        have h1 := expo_int_lt yh
        have h2 : (2:ℤ) ^ (52 + expo (xh:ℚ)) ≤ |xh| := by
          have := expo_le (xh:ℚ) (by omega)
          exact_mod_cast this
        have h3 : (2:ℤ) ^ (53 + expo (yh:ℚ) + 1) ≤ 2 ^ (52 + expo (xh:ℚ)) :=
          pow_le_pow_right₀ (by norm_num) (by omega)
        rw [pow_succ] at h3
        linarith
      have h5 : |xh| ≤ |xh + yh| + |yh| := abs_tri _ _
      have hn := abs_nonneg yh
      refine ⟨?_, ?_, ?_⟩
      · apply Grid.of_abs_le rsh rc
        linarith
      · apply Grid.of_abs_le rvh rw'
        linarith
      · rw [hre0, abs_zero] at tE
        linarith
  · -- inexact leading sum: no cancellation
    have hS : |yh| < |xh + yh| := by
      by_contra hcon
      push Not at hcon
      apply hsl0
      apply re_of_rep
      exact Rep.of_dvd_lt (k := expo (yh:ℚ)) (dvd_add (hx.rep_hi.dvd_of_abs_le hle) hy.rep_hi.dvd)
        (lt_of_le_of_lt hcon (expo_int_lt yh))
    have hX : |xh| ≤ |xh + yh| + |yh| := abs_tri _ _
    refine ⟨?_, ?_, ?_⟩
    · apply Grid.of_abs_le rsh rc
      linarith
    · apply Grid.of_abs_le rvh rw'
      linarith
    · linarith

theorem addOkH {xh xl yh yl : ℤ} (hx : Half2 xh xl) (hy : Half2 yh yl) : AddOk xh xl yh yl := by
  rcases le_total |yh| |xh| with h | h
  · exact addOk_of_le hx hy h
  · exact (addOk_of_le hy hx h).symm

theorem addOk {xh xl yh yl : ℤ} (hx : Norm2 xh xl) (hy : Norm2 yh yl) : AddOk xh xl yh yl := addOkH hx.half hy.half

end Verif
