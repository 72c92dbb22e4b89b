import Verif.Spec.Blocks
import Verif.Model.Page

/-! # What a dimension says: the points and the format it names -/

namespace S2P
variable {α : Type} [FP α]

/-- The point that property `n` denotes in the current view; nothing if it is absent, not a point, or does not evaluate.
(`j` numbers the local variable that receives it; it matters only in the case that C53 is about.) -/
def pointOf (E : Env α) (v : Vis α) (j : Nat) (ms : List (Meta α)) (n : Str) : Option (V3 α) :=
  match look ms n with
  | none => none
  | some m => match m.val with
    | .pt p => if ((p.rot v.rotation).invoke E.junk v.points (E.junk j)).1 then
        some ((p.rot v.rotation).invoke E.junk v.points (E.junk j)).2.1 else none
    | _ => none

/-- The label format: that of `fmt` if it is given and a valid format, otherwise the default. -/
def formatOf (E : Env α) (dflt : Str) (ms : List (Meta α)) : Option (α → Str) :=
  match look ms c!"fmt" with
  | none => some ((E.fmtF dflt).getD (fun _ => []))
  | some m => match m.val with
    | .str f => E.fmtF f
    | _ => none

/-- A leg of an angle: its direction, and the point its line starts from. -/
def legOf (E : Env α) (v : Vis α) (j : Nat) (apex : V3 α) (ms : List (Meta α)) (dir point : Str) : Option (V3 α × V3 α) :=
  match look ms dir with
  | some _ => (pointOf E v j ms dir).map (fun d => (d.normalized, apex))
  | none => (pointOf E v (j + 1) ms point).map (fun p => ((p - apex).normalized, p))

/-- The state after an accepted dimension, from the points it names; nothing if one is missing, or they make no dimension. -/
def dimDraws (E : Env α) (v : Vis α) (kind : DimKind) (ms : List (Meta α)) : Option (Vis α) :=
  match kind with
  | .dim => do
    let a ← pointOf E v 0 ms c!"at"
    let d ← pointOf E v 1 ms c!"dir"
    let f ← pointOf E v 2 ms c!"from"
    let t ← pointOf E v 3 ms c!"to"
    let g ← formatOf E c!"%.3f" ms
    if d.eqv V3.zero then none else some (drawDim g v a d.normalized f t)
  | .dia => circ drawDia
  | .rad => circ drawRad
  | .angle => do
    let a ← pointOf E v 0 ms c!"at"
    let x ← pointOf E v 1 ms c!"apex"
    let f ← legOf E v 2 x ms c!"from_dir" c!"from_point"
    let t ← legOf E v 4 x ms c!"to_dir" c!"to_point"
    let g ← formatOf E c!"%.1f" ms
    if FP.eq (t.1.cross f.1).z (FP.lit 0) then none
    else if FP.lt (FP.lit 0) (t.1.cross f.1).z then some (drawAngle g v a x t.1 t.2 f.1 f.2)
    else some (drawAngle g v a x f.1 f.2 t.1 t.2)
where
  circ (drawIt : (α → Str) → Vis α → Circ α → Vis α) : Option (Vis α) := do
    let a ← pointOf E v 0 ms c!"at"
    let c ← pointOf E v 1 ms c!"center"
    let d ← pointOf E v 2 ms c!"dir"
    let g ← formatOf E c!"%.3f" ms
    if v.points.length < 3 then none
    else
      let k ← locate v.points c.xy
      some (drawIt g v ⟨a.xy, d.xy, k.1, k.2⟩)

/-- A point expression whose evaluation either succeeds or prints: it does not use `center`, and uses `near` only on a non-empty set. -/
def Pt.Loud (some_ : Prop) : Pt α → Prop
  | .val _ _ => True
  | .func n a _ => n ≠ c!"center" ∧ (n = c!"near" → some_) ∧ a.Loud some_

/-- the same list of properties in another order -/
def DimN.Shuffled (d d' : DimN α) : Prop := d.kind = d'.kind ∧ d.line = d'.line ∧ d.metas.Perm d'.metas

inductive Drawable.Shuffled : Drawable α → Drawable α → Prop
  | draw (n : Str) (ms ms' : List (Meta α)) (ds ds' : List (DimN α)) (l : Nat) : ms.Perm ms' → List.Forall₂ DimN.Shuffled ds ds' →
      Shuffled (.draw n ms ds l) (.draw n ms' ds' l)
  | text (s : Str) (ms ms' : List (Meta α)) (l : Nat) : ms.Perm ms' → Shuffled (.text s ms l) (.text s ms' l)

def PageN.Shuffled (p p' : PageN α) : Prop := p.line = p'.line ∧ p.metas.Perm p'.metas ∧ List.Forall₂ Drawable.Shuffled p.draws p'.draws

/-- the same document with the properties of each block in any order -/
def Doc.Shuffled (d d' : Doc α) : Prop := d.models = d'.models ∧ List.Forall₂ PageN.Shuffled d.pages d'.pages

end S2P
