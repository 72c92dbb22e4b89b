import Verif.Spec.Hole

/-! # Where in space the points of an angle are taken to be -/

namespace S2P

/-- The point in space, in the coordinates of the view `r` (the third is the depth), that an expression stands for: a literal point as it is turned; `near` of a place
where a corner seen is, that place; `near` of another place, the corner that appears nearest, moved to depth 0; `center`, the centre of the circle there, at depth 0. -/
inductive Place (r : M3 ℝ) (file : STLFile (Ext ℝ)) : Pt (Ext ℝ) → V3 ℝ → Prop
  | literal (p : V3 ℝ) (l : Nat) : Place r file (.val p.fin l) (p.mulM r)
  | corner (e : Pt (Ext ℝ)) (l : Nat) (t v : V3 ℝ) : Place r file e t → SeenCorner r file v → v.mulM r = t → Place r file (.func c!"near" e l) t
  | near (e : Pt (Ext ℝ)) (l : Nat) (t v : V3 ℝ) : Place r file e t → (∀ w, SeenCorner r file w → w.mulM r ≠ t) → SeenCorner r file v →
      (∀ w, SeenCorner r file w → w.seenAt r = v.seenAt r ∨ dist (v.seenAt r) t.xy < dist (w.seenAt r) t.xy) →
      Place r file (.func c!"near" e l) ⟨(v.seenAt r).x, (v.seenAt r).y, 0⟩
  | center (e : Pt (Ext ℝ)) (l : Nat) (t : V3 ℝ) (m : V2 ℝ) (R : ℝ) : Place r file e t → RoundAt r file t.xy m R → Place r file (.func c!"center" e l) ⟨m.x, m.y, 0⟩

/-- property `n` stands for the point `p` in space -/
def PlaceOf (r : M3 ℝ) (file : STLFile (Ext ℝ)) (ms : List (Meta (Ext ℝ))) (n : Str) (p : V3 ℝ) : Prop :=
  ∃ m e, look ms n = some m ∧ m.val = .pt e ∧ Place r file e p

/-- a leg from `x` goes along `u`: that is its direction, or it goes through the point given -/
def Heads (r : M3 ℝ) (file : STLFile (Ext ℝ)) (ms : List (Meta (Ext ℝ))) (dir point : Str) (x u : V3 ℝ) : Prop :=
  PlaceOf r file ms dir u ∨ look ms dir = none ∧ ∃ q, PlaceOf r file ms point q ∧ u = q - x

/-- an angle, complete, with its label at `a`, its apex at `x` and its legs along `u` and `w` -/
structure Turns (E : Env (Ext ℝ)) (r : M3 ℝ) (file : STLFile (Ext ℝ)) (d : DimN (Ext ℝ)) (g : Ext ℝ → Str) (a x u w : V3 ℝ) : Prop where
  kind : d.kind = .angle
  good : GoodDim d.kind d.metas
  fmt : formatOf E c!"%.1f" d.metas = some g
  label : PlaceOf r file d.metas c!"at" a
  apex : PlaceOf r file d.metas c!"apex" x
  from_ : Heads r file d.metas c!"from_dir" c!"from_point" x u
  to_ : Heads r file d.metas c!"to_dir" c!"to_point" x w

/-- the legs are parallel on the page -/
def PageAligned (u w : V3 ℝ) : Prop := u.x * w.y - u.y * w.x = 0

end S2P
