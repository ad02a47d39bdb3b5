import Verif.Lemmas.Ident
/-! C01, C02: identifiers. -/
namespace Verif.Ident

/-- C01 (round trip): below 2^31, building an identifier and converting it back is the identity. -/
theorem c01_roundtrip (v : BitVec 32) (h : v.toNat < 2 ^ 31) : (Ident32.mk' v).conv = .ok v := by
  rw [conv_mk']
  congr 1
  apply BitVec.eq_of_toNat_eq
  rw [and_low_toNat, Nat.mod_eq_of_lt h]

example : (5#32).toNat < 2 ^ 31 ∧ (Ident32.mk' 5#32).conv = .ok 5#32 := by decide

/-- C01 (all values): conversion returns the value modulo 2^31, and never throws. -/
theorem c01_conv_all (v : BitVec 32) :
    ∃ w, (Ident32.mk' v).conv = .ok w ∧ w.toNat = v.toNat % 2 ^ 31 :=
  ⟨_, conv_mk' v, and_low_toNat v⟩

/-- C01 (only unset identifiers throw): an identifier built by either constructor throws on
conversion exactly when it was default-constructed. -/
theorem c01_throws_iff (i : Ident32) (d : BitVec 32) (hi : i = Ident32.invalid d ∨ ∃ v, i = Ident32.mk' v) :
    i.conv.Throws ↔ i = Ident32.invalid d := by
  rcases hi with rfl | ⟨v, rfl⟩
  · simp [Ident32.conv, Ident32.invalid, invalid_and_high]
  · rw [conv_mk']
    constructor
    · intro h; exact absurd h (by simp)
    · intro h
      exfalso
      have h1 := congrArg (fun i => i.idVal &&& 0x80000000#32) h
      simp only [Ident32.mk', Ident32.invalid, mk_and_high, invalid_and_high] at h1
      exact absurd h1 (by decide)

example : (Ident32.invalid 0#32).conv.Throws ∧ ¬ (Ident32.mk' 0#32).conv.Throws := by decide

/-- C01 (equality and order agree with the raw values below 2^31). -/
theorem c01_compare (v w : BitVec 32) (hv : v.toNat < 2 ^ 31) (hw : w.toNat < 2 ^ 31) :
    ((Ident32.mk' v).eq (Ident32.mk' w) = true ↔ v = w) ∧
    ((Ident32.mk' v).ne (Ident32.mk' w) = true ↔ v ≠ w) ∧
    ((Ident32.mk' v).lt (Ident32.mk' w) = true ↔ v.toNat < w.toNat) := by
  have key : (Ident32.mk' v).idVal = (Ident32.mk' w).idVal ↔ v = w := by
    constructor
    · intro h
      have h' : Ident32.mk' v = Ident32.mk' w := by
        cases hh : Ident32.mk' v; cases hk : Ident32.mk' w; simp_all
      rw [mk'_eq_iff] at h'
      have h2 := congrArg BitVec.toNat h'
      rw [and_low_toNat, and_low_toNat, Nat.mod_eq_of_lt hv, Nat.mod_eq_of_lt hw] at h2
      exact BitVec.eq_of_toNat_eq h2
    · rintro rfl; rfl
  refine ⟨?_, ?_, ?_⟩
  · simp [Ident32.eq, key]
  · simp [Ident32.ne, key]
  · simp only [Ident32.lt, Ident32.mk', mk_and_low, and_low_toNat, Nat.mod_eq_of_lt hv,
      Nat.mod_eq_of_lt hw, decide_eq_true_eq]

example : (3#32).toNat < 2 ^ 31 ∧ (Ident32.mk' 3#32).lt (Ident32.mk' 4#32) = true := by decide

/-- C01 (what goes wrong from 2^31 on): every raw value at or above 2^31 is merged with a smaller one. -/
theorem c01_collision (v : BitVec 32) (h : 2 ^ 31 ≤ v.toNat) :
    ∃ w : BitVec 32, w ≠ v ∧ (Ident32.mk' v).eq (Ident32.mk' w) = true ∧ (Ident32.mk' v).conv = .ok w ∧
      (Ident32.mk' v).conv ≠ .ok v := by
  have hw : (v &&& 0x7FFFFFFF#32) ≠ v := by
    intro hh
    have := congrArg BitVec.toNat hh
    rw [and_low_toNat] at this
    have := Nat.mod_lt v.toNat (show 0 < 2 ^ 31 by decide)
    omega
  refine ⟨v &&& 0x7FFFFFFF#32, hw, ?_, conv_mk' v, ?_⟩
  · simp only [Ident32.eq, Ident32.mk']
    rw [BitVec.and_assoc]
    have h1 : (0x7FFFFFFF#32 &&& 0x7FFFFFFF#32) = 0x7FFFFFFF#32 := by decide
    simp [h1]
  · rw [conv_mk']; simpa using hw

example : 2 ^ 31 ≤ (0x80000005#32).toNat ∧ (Ident32.mk' 0x80000005#32).eq (Ident32.mk' 5#32) = true := by
  decide

/-- C02 (32-bit): an unset identifier throws on conversion and differs from every set one,
whatever the template default value is. -/
theorem c02_invalid32 (d v : BitVec 32) :
    (Ident32.invalid d).conv.Throws ∧ (Ident32.invalid d).eq (Ident32.mk' v) = false ∧
    (Ident32.mk' v).eq (Ident32.invalid d) = false := by
  have key : (d &&& 0x7FFFFFFF#32) ≠ ((v &&& 0x7FFFFFFF#32) ||| 0x80000000#32) := by
    intro h
    have h1 := congrArg (· &&& 0x80000000#32) h
    simp only [mk_and_high, invalid_and_high] at h1
    exact absurd h1 (by decide)
  refine ⟨?_, ?_, ?_⟩
  · simp [Ident32.conv, Ident32.invalid, invalid_and_high]
  · simpa [Ident32.eq, Ident32.invalid, Ident32.mk'] using key
  · simpa [Ident32.eq, Ident32.invalid, Ident32.mk'] using key.symm

example : (Ident32.invalid 0#32).eq (Ident32.mk' 0#32) = false := by decide

/-- C02 (generic, what holds): an unset identifier throws on conversion; a set one converts to its
value; equality of two set identifiers is equality of the values. Missing from the full property:
an unset identifier differs from every set one (see `c02_generic_violation`). -/
theorem c02_generic_partial {α : Type} [DecidableEq α] (d v w : α) :
    (Ident.invalid d).conv.Throws ∧ (Ident.mk' v).conv = .ok v ∧
    ((Ident.mk' v).eq (Ident.mk' w) = true ↔ v = w) ∧
    ((Ident.invalid d).eq (Ident.mk' v) = true ↔ d = v) := by
  simp [Ident.invalid, Ident.mk', Ident.conv, Ident.eq]

example : (Ident.mk' 7).conv = .ok 7 ∧ (Ident.invalid 0).eq (Ident.mk' 7) = false := by decide

/-- C02 (generic, violation): with the default value used by the mesh, the unset identifier is
equal to the identifier of element 0. -/
theorem c02_generic_violation :
    ¬ ∀ v : Nat, (Ident.invalid 0).eq (Ident.mk' v) = false := by
  intro h; exact absurd (h 0) (by decide)

end Verif.Ident
