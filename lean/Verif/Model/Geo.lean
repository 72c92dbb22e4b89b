import Verif.Model.Vec

/-! # geo.h, geo.cc and the view lookups of ast.cc -/

namespace S2P
variable {α : Type} [FP α]

/-- geo.h:37 `constexpr double PI = 3.1415926535897932` -/
def piLit : α := FP.lit (31415926535897932 / 10000000000000000)

/-- geo.h:40-44 `geo::Order` -/
def order (l r : V3 α) : Bool :=
  if !FP.eq l.x r.x then FP.lt l.x r.x
  else if !FP.eq l.y r.y then FP.lt l.y r.y
  else FP.lt l.z r.z

/-- geo.h:56-63 `geo::Line` -/
structure Line (α : Type) where
  o : V2 α
  t : V2 α
  deriving DecidableEq

/-- geo.h:60-61: the constructor from 3D points drops the depth -/
def Line.of3 {β : Type} (o t : V3 β) : Line β := ⟨o.xy, t.xy⟩

/-- geo.h:65-76 `geo::Arc` (angles in radians) -/
structure Arc (α : Type) where
  center : V2 α
  r : α
  start : α
  stop : α
  deriving DecidableEq

/-- geo.h:71-74: the constructor from 3D points and directions -/
def Arc.of3 (a : V3 α) (r : α) (s e : V3 α) : Arc α :=
  ⟨a.xy, r, FP.atan2 s.y s.x, FP.atan2 e.y e.x⟩

/-- geo.h:107-111 `operator<` on lines -/
def Line.lt (l r : Line α) : Bool :=
  if !FP.eq l.o.x r.o.x then FP.lt l.o.x r.o.x
  else if !FP.eq l.o.y r.o.y then FP.lt l.o.y r.o.y
  else if !FP.eq l.t.x r.t.x then FP.lt l.t.x r.t.x
  else FP.lt l.t.y r.t.y

/-- geo.h:113-115 `operator==` on lines -/
def Line.eqv (l r : Line α) : Bool := l.o.eqv r.o && l.t.eqv r.t

/-- geo.cc:35-45 `geo::Rotate` -/
def rotate (ang azm : α) : M3 α :=
  let angSin := FP.sin ang
  let angCos := FP.cos ang
  let azmSin := FP.sin (-azm)
  let azmCos := FP.cos (-azm)
  ⟨⟨angCos, angSin * azmCos, angSin * azmSin⟩,
   ⟨-angSin, angCos * azmCos, angCos * azmSin⟩,
   ⟨FP.lit 0, -azmSin, azmCos⟩⟩

/-- geo.h:86-88 the unit vectors -/
def ptX : V3 α := ⟨FP.lit 1, FP.lit 0, FP.lit 0⟩
def ptY : V3 α := ⟨FP.lit 0, FP.lit 1, FP.lit 0⟩
def ptZ : V3 α := ⟨FP.lit 0, FP.lit 0, FP.lit 1⟩

/-- geo.h:96-101 the named view matrices -/
def matXP : M3 α := ⟨ptZ, ptX, ptY⟩
def matXN : M3 α := ⟨-ptZ, -ptX, ptY⟩
def matYP : M3 α := ⟨-ptX, ptZ, ptY⟩
def matYN : M3 α := ⟨ptX, -ptZ, ptY⟩
def matZP : M3 α := ⟨ptX, ptY, ptZ⟩
def matZN : M3 α := ⟨ptX, -ptY, -ptZ⟩

/-- ast.cc:187-198 `GetMatrixByName`; `none` = returns false and leaves the output alone -/
def getMatrixByName (s : Str) : Option (M3 α) :=
  if s = c!"X+" then some matXP
  else if s = c!"X-" then some matXN
  else if s = c!"Y+" then some matYP
  else if s = c!"Y-" then some matYN
  else if s = c!"Z+" then some matZP
  else if s = c!"Z-" then some matZN
  else none

/-- ast.cc:200-202 `GetMatrixByAng` -/
def getMatrixByAng (a : V2 α) : M3 α :=
  rotate (a.x * piLit / FP.lit 180) (a.y * piLit / FP.lit 180)

end S2P
