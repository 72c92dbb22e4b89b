import Verif.Model.Ext
import Verif.Model.Vec
import Mathlib.Analysis.SpecialFunctions.Complex.Arg
import Mathlib.Data.Rat.Floor

/-! # Arithmetic laws and instances used in statements -/

namespace S2P

/-- not a NaN -/
def FP.Ok {α : Type} [FP α] (x : α) : Prop := FP.eq x x = true

/-- What IEEE 754 guarantees about comparisons: on values that are not NaN, `<` is a strict weak order, `==` is its
incomparability and `<=` its reversed negation; comparisons with NaN are false; literals are not NaN. -/
class FPOrd (α : Type) [FP α] : Prop where
  lt_irrefl : ∀ x : α, FP.lt x x = false
  lt_trans : ∀ x y z : α, FP.lt x y = true → FP.lt y z = true → FP.lt x z = true
  lt_cotrans : ∀ x y z : α, FP.Ok y → FP.lt x z = true → FP.lt x y = true ∨ FP.lt y z = true
  eq_iff : ∀ x y : α, FP.Ok x → FP.Ok y → (FP.eq x y = true ↔ FP.lt x y = false ∧ FP.lt y x = false)
  le_iff : ∀ x y : α, FP.Ok x → FP.Ok y → (FP.le x y = true ↔ FP.lt y x = false)
  ok_of_lt : ∀ x y : α, FP.lt x y = true → FP.Ok x ∧ FP.Ok y
  ok_of_le : ∀ x y : α, FP.le x y = true → FP.Ok x ∧ FP.Ok y
  ok_lit : ∀ q : Rat, FP.Ok (FP.lit q : α)

/-- a strict weak order on the values satisfying `P` -/
structure StrictWeak {β : Type} (P : β → Prop) (lt : β → β → Bool) : Prop where
  irrefl : ∀ a, P a → lt a a = false
  trans : ∀ a b c, P a → P b → P c → lt a b = true → lt b c = true → lt a c = true
  incomp : ∀ a b c, P a → P b → P c → lt a b = false → lt b a = false → lt b c = false → lt c b = false →
    lt a c = false ∧ lt c a = false

/-- all three coordinates are not NaN -/
def V3.Ok {α : Type} [FP α] (v : V3 α) : Prop := FP.Ok v.x ∧ FP.Ok v.y ∧ FP.Ok v.z
def V2.Ok {α : Type} [FP α] (v : V2 α) : Prop := FP.Ok v.x ∧ FP.Ok v.y

/-- converting a decimal numeral never gives NaN -/
def ConvOk (α : Type) [FP α] : Prop := ∀ (q : Rat) (x : α), FP.ofDec64 q = some x → FP.Ok x

/-- The functions of <cmath> on the reals. `std::atan2(y, x)` is the argument of `x + iy`. -/
noncomputable instance : Trans ℝ where
  sqrt := Real.sqrt
  sin := Real.sin
  cos := Real.cos
  acos := Real.arccos
  atan2 y x := Complex.arg ⟨x, y⟩

/-- Rational stand-ins, used only to compute concrete examples: `sqrt` is exact on squares of fractions; the others are placeholders
(no example uses them except at 0). -/
instance : Trans ℚ where
  sqrt q := if q < 0 then 0 else (Nat.sqrt q.num.toNat : ℚ) / (Nat.sqrt q.den : ℚ)
  sin _ := 0
  cos _ := 1
  acos _ := 0
  atan2 _ _ := 0

end S2P
