import Verif.Proofs.Lift

/-!
# C01, C02: addition and subtraction of Doubles
-/

namespace Verif

/-- Example operands: pi and e as published by the crate. -/
example : Double.PI.Normalized ∧ Double.E.Normalized := by decide +kernel

/-- **C01.** For normalized operands whose leading components do not add up to more than `2^1023` in magnitude (no
overflow), `a + b` is normalized and its relative error is at most `2^-103`. In particular an exactly cancelling sum
is exactly zero. -/
theorem C01_add (a b : Double) (ha : a.Normalized) (hb : b.Normalized)
    (hr : |a.hi.toRat| + |b.hi.toRat| ≤ 2 ^ 1023) :
    (a + b).Normalized ∧ |(a + b).val - (a.val + b.val)| * 2 ^ 103 ≤ |a.val + b.val| := by
  obtain ⟨xh, xl, ia, hx⟩ := ha.norm2
  obtain ⟨yh, yl, ib, hy⟩ := hb.norm2
  obtain ⟨zh, zl, iz, hz, he⟩ := add_spec ia ib hx hy (range2 ia.1 ib.1 hr)
  refine ⟨hz.normalized iz, lift_rel 103 iz.val ?_ he⟩
  rw [ia.val, ib.val, ← add_div]; push_cast; rfl

/-- **C02.** The same for subtraction. -/
theorem C02_sub (a b : Double) (ha : a.Normalized) (hb : b.Normalized)
    (hr : |a.hi.toRat| + |b.hi.toRat| ≤ 2 ^ 1023) :
    (a - b).Normalized ∧ |(a - b).val - (a.val - b.val)| * 2 ^ 103 ≤ |a.val - b.val| := by
  obtain ⟨xh, xl, ia, hx⟩ := ha.norm2
  obtain ⟨yh, yl, ib, hy⟩ := hb.norm2
  obtain ⟨zh, zl, iz, hz, he⟩ := sub_spec ia ib hx hy (range2 ia.1 ib.1 hr)
  refine ⟨hz.normalized iz, lift_rel 103 iz.val ?_ he⟩
  rw [ia.val, ib.val, ← sub_div]; push_cast; rfl

end Verif
