import Verif.Model.Ident
/-! Mask arithmetic used by the 32-bit identifier. -/
namespace Verif.Ident

theorem and_low_toNat (v : BitVec 32) : (v &&& 0x7FFFFFFF#32).toNat = v.toNat % 2 ^ 31 := by
  rw [BitVec.toNat_and]
  exact Nat.and_two_pow_sub_one_eq_mod v.toNat 31

theorem mk_and_low (v : BitVec 32) :
    ((v &&& 0x7FFFFFFF#32) ||| 0x80000000#32) &&& 0x7FFFFFFF#32 = v &&& 0x7FFFFFFF#32 := by
  rw [BitVec.and_or_distrib_right, BitVec.and_assoc]
  have h1 : (0x7FFFFFFF#32 &&& 0x7FFFFFFF#32) = 0x7FFFFFFF#32 := by decide
  have h2 : (0x80000000#32 &&& 0x7FFFFFFF#32) = 0#32 := by decide
  rw [h1, h2]; simp

theorem mk_and_high (v : BitVec 32) :
    ((v &&& 0x7FFFFFFF#32) ||| 0x80000000#32) &&& 0x80000000#32 = 0x80000000#32 := by
  rw [BitVec.and_or_distrib_right, BitVec.and_assoc]
  have h1 : (0x7FFFFFFF#32 &&& 0x80000000#32) = 0#32 := by decide
  have h2 : (0x80000000#32 &&& 0x80000000#32) = 0x80000000#32 := by decide
  rw [h1, h2]; simp

theorem invalid_and_high (v : BitVec 32) :
    (v &&& 0x7FFFFFFF#32) &&& 0x80000000#32 = 0#32 := by
  rw [BitVec.and_assoc]
  have h1 : (0x7FFFFFFF#32 &&& 0x80000000#32) = 0#32 := by decide
  rw [h1]; simp

theorem conv_mk' (v : BitVec 32) : (Ident32.mk' v).conv = .ok (v &&& 0x7FFFFFFF#32) := by
  unfold Ident32.conv Ident32.mk'
  simp only [mk_and_high, mk_and_low]
  rw [if_neg (by decide)]

theorem mk'_eq_iff (v w : BitVec 32) :
    Ident32.mk' v = Ident32.mk' w ↔ (v &&& 0x7FFFFFFF#32) = (w &&& 0x7FFFFFFF#32) := by
  constructor
  · intro h
    have := congrArg Ident32.conv h
    rw [conv_mk', conv_mk'] at this
    simpa using this
  · intro h; unfold Ident32.mk'; rw [h]

end Verif.Ident
