import Verif.Spec.Accuracy
import Verif.Spec.Blocks

/-! # How far the numbers at dimensions may be off -/

namespace S2P

variable {R : Rounding}

/-- the view is given by name, or not given -/
def NamedView (ms : List (Meta (Fl R))) : Prop := ∀ m l, look ms c!"view" = some m → m.val ≠ .loc l

/-- How far coordinates of size 1 may be off in the view: views by name are exact but for rounding, for the others sine and cosine of angles in degrees are
needed. -/
def ViewError (ms : List (Meta (Fl R))) (η : ℝ) : Prop := (NamedView ms ∧ η = 1 / 2 ^ 50) ∨ (TameView ms ∧ η = 1 / 2 ^ 40)

/-- `M` is the largest coordinate of `u`, and it is of a size between 10^-12 and 10^60 -/
def Largest (u : V3 ℝ) (M : ℝ) : Prop :=
  |u.x| ≤ M ∧ |u.y| ≤ M ∧ |u.z| ≤ M ∧ (|u.x| = M ∨ |u.y| = M ∨ |u.z| = M) ∧ 1 / 2 ^ 40 ≤ M ∧ M ≤ 2 ^ 200

/-- a linear dimension with literal points: `a`, `u`, `f`, `t` are at, dir, from and to; `g` formats the number.  `M` bounds the coordinates of the points. -/
structure DimSays (E : Env (Fl R)) (d : DimN (Fl R)) (a u f t : V3 ℝ) (g : Fl R → Str) (M : ℝ) : Prop where
  kind : d.kind = .dim
  at_ : Literal (K := ℝ) d.metas c!"at" a
  dir : Literal (K := ℝ) d.metas c!"dir" u
  from_ : Literal (K := ℝ) d.metas c!"from" f
  to_ : Literal (K := ℝ) d.metas c!"to" t
  fmt : formatOf E c!"%.3f" d.metas = some g
  size : 1 / 2 ^ 40 ≤ M ∧ M ≤ 2 ^ 200
  atIn : |a.x| ≤ M ∧ |a.y| ≤ M ∧ |a.z| ≤ M
  fromIn : |f.x| ≤ M ∧ |f.y| ≤ M ∧ |f.z| ≤ M
  toIn : |t.x| ≤ M ∧ |t.y| ≤ M ∧ |t.z| ≤ M

/-- One leg of an angle with apex `x` has direction `u`: given as such, or by a point.  A point has to be away from the apex: its coordinates and those of the
apex are at most `K` times the largest coordinate of the difference. -/
def LegSays (ms : List (Meta (Fl R))) (dirName pointName : Str) (x u : V3 ℝ) (K : ℝ) : Prop :=
  ∃ U, Largest u U ∧ (Literal (K := ℝ) ms dirName u ∨ (look ms dirName = none ∧ ∃ p, Literal (K := ℝ) ms pointName p ∧ u = p - x ∧ K * U ≤ 2 ^ 200 ∧
    |p.x| ≤ K * U ∧ |p.y| ≤ K * U ∧ |p.z| ≤ K * U ∧ |x.x| ≤ K * U ∧ |x.y| ≤ K * U ∧ |x.z| ≤ K * U))

/-- an angle with apex `x` and legs along `u` and `w`, all literal; `g` formats the number -/
structure AngleSays (E : Env (Fl R)) (d : DimN (Fl R)) (x u w : V3 ℝ) (g : Fl R → Str) (K : ℝ) : Prop where
  kind : d.kind = .angle
  apex : Literal (K := ℝ) d.metas c!"apex" x
  from_ : LegSays d.metas c!"from_dir" c!"from_point" x u K
  to_ : LegSays d.metas c!"to_dir" c!"to_point" x w K
  fmt : formatOf E c!"%.1f" d.metas = some g
  size : 1 ≤ K

end S2P
