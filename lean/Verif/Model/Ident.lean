import Verif.Model.Outcome
/-!
Element identifiers, `mesh/ident.hpp`.
-/
namespace Verif.Ident

/-- Generic identifier, `mesh/ident.hpp:30-77`. `impl` is an arbitrary type here; the mesh uses
`size_t` (`mesh/ident.hpp:129`). -/
structure Ident (α : Type) where
  idVal : α
  valid : Bool
  deriving Repr, DecidableEq

/-- Default constructor, `mesh/ident.hpp:35,37-38`. -/
def Ident.invalid {α : Type} (dflt : α) : Ident α := ⟨dflt, false⟩
/-- Value constructor, `mesh/ident.hpp:42-43`. -/
def Ident.mk' {α : Type} (v : α) : Ident α := ⟨v, true⟩
/-- Conversion, `mesh/ident.hpp:45-51`. -/
def Ident.conv {α : Type} (i : Ident α) : Outcome α :=
  if !i.valid then .throws "Invalid identifier used" else .ok i.idVal
/-- `operator==`, `mesh/ident.hpp:53-56` (ignores the validity flag). -/
def Ident.eq {α : Type} [DecidableEq α] (a b : Ident α) : Bool := a.idVal == b.idVal
/-- `operator!=`, `mesh/ident.hpp:58-61`. -/
def Ident.ne {α : Type} [DecidableEq α] (a b : Ident α) : Bool := a.idVal != b.idVal
/-- `operator<`, `mesh/ident.hpp:63-66`. -/
def Ident.lt {α : Type} [LT α] [DecidableLT α] (a b : Ident α) : Bool :=
  decide (a.idVal < b.idVal)

/-- The 32-bit specialisation, `mesh/ident.hpp:79-119`: one word, validity in the top bit. -/
structure Ident32 where
  idVal : BitVec 32
  deriving Repr, DecidableEq

/-- Default constructor, `mesh/ident.hpp:89-90`. -/
def Ident32.invalid (dflt : BitVec 32) : Ident32 := ⟨dflt &&& 0x7FFFFFFF#32⟩
/-- Value constructor, `mesh/ident.hpp:94-95`. -/
def Ident32.mk' (v : BitVec 32) : Ident32 := ⟨(v &&& 0x7FFFFFFF#32) ||| 0x80000000#32⟩
/-- Conversion, `mesh/ident.hpp:97-103`. -/
def Ident32.conv (i : Ident32) : Outcome (BitVec 32) :=
  if i.idVal &&& 0x80000000#32 = 0#32 then .throws "Invalid identifier used"
  else .ok (i.idVal &&& 0x7FFFFFFF#32)
/-- `operator==`, `mesh/ident.hpp:105-108`. -/
def Ident32.eq (a b : Ident32) : Bool := a.idVal == b.idVal
/-- `operator!=`, `mesh/ident.hpp:110-113`. -/
def Ident32.ne (a b : Ident32) : Bool := a.idVal != b.idVal
/-- `operator<`, `mesh/ident.hpp:115-118`. -/
def Ident32.lt (a b : Ident32) : Bool :=
  decide ((a.idVal &&& 0x7FFFFFFF#32).toNat < (b.idVal &&& 0x7FFFFFFF#32).toNat)

end Verif.Ident
