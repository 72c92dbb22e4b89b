import Verif.Model.Lexer

/-! # The productions of parser.y with their actions

One constructor per production, left recursive as in the file; `l` is the line bison records for the symbol the action names.
`G… w v`: the items `w` derive the non-terminal, and its semantic value is `v`. -/

namespace S2P
variable {α : Type} [FP α]

abbrev Items (α : Type) := List (Item α)

/-- parser.y:106 -/
inductive GLocation : Items α → V2 α → Prop
  | mk (l1 l2 l3 l4 l5 : Nat) (a b : α) :
      GLocation [.tok (.p '[') l1, .tok (.num a) l2, .tok (.p ',') l3, .tok (.num b) l4, .tok (.p ']') l5] ⟨a, b⟩

/-- parser.y:109-111 -/
inductive GPoint : Items α → Pt α → Prop
  | val (l l2 l3 l4 l5 l6 l7 : Nat) (a b c : α) :
      GPoint [.tok (.p '[') l, .tok (.num a) l2, .tok (.p ',') l3, .tok (.num b) l4, .tok (.p ',') l5, .tok (.num c) l6,
        .tok (.p ']') l7] (.val ⟨a, b, c⟩ l)
  | func (n : Str) (l l2 l4 : Nat) (w : Items α) (q : Pt α) : GPoint w q →
      GPoint ([.tok (.id n) l, .tok (.p '(') l2] ++ w ++ [.tok (.p ')') l4]) (.func n q l)

/-- parser.y:125-126 -/
inductive GString : Items α → Str → Prop
  | more (w : Items α) (s t : Str) (l : Nat) : GString w s → GString (w ++ [.tok (.str t) l]) (s ++ t)
  | one (s : Str) (l : Nat) : GString [.tok (.str s) l] s

/-- parser.y:128-140 -/
inductive GArg : Items α → Meta α → Prop
  | str (n : Str) (l l2 : Nat) (w : Items α) (s : Str) : GString w s → GArg ([.tok (.id n) l, .tok (.p '=') l2] ++ w) ⟨n, .str s, l⟩
  | pt (n : Str) (l l2 : Nat) (w : Items α) (q : Pt α) : GPoint w q → GArg ([.tok (.id n) l, .tok (.p '=') l2] ++ w) ⟨n, .pt q, l⟩
  | num (n : Str) (l l2 l3 : Nat) (a : α) : GArg [.tok (.id n) l, .tok (.p '=') l2, .tok (.num a) l3] ⟨n, .num a, l⟩
  | loc (n : Str) (l l2 : Nat) (w : Items α) (v : V2 α) : GLocation w v → GArg ([.tok (.id n) l, .tok (.p '=') l2] ++ w) ⟨n, .loc v, l⟩
  | scale (n : Str) (l l2 l3 l4 l5 : Nat) (a b : α) (i j : Int) : FP.toInt a = some i → FP.toInt b = some j →
      GArg [.tok (.id n) l, .tok (.p '=') l2, .tok (.num a) l3, .tok (.p ':') l4, .tok (.num b) l5] ⟨n, .scale i j, l⟩
  | at (l : Nat) (w : Items α) (v : V2 α) : GLocation w v → GArg ([.tok (.p '@') l] ++ w) ⟨['@'], .loc v, l⟩

/-- parser.y:198-202 -/
inductive GTextParts : Items α → List (Meta α) → Prop
  | arg (w a : Items α) (ms : List (Meta α)) (m : Meta α) (l : Nat) : GTextParts w ms → GArg a m →
      GTextParts (w ++ a ++ [.tok (.p ';') l]) (ms ++ [m])
  | empty : GTextParts [] []

/-- parser.y:204-206 -/
inductive GDimParts : Items α → List (Meta α) → Prop
  | more (w a : Items α) (ms : List (Meta α)) (m : Meta α) (l : Nat) : GDimParts w ms → GArg a m →
      GDimParts (w ++ [.tok (.p ',') l] ++ a) (ms ++ [m])
  | one (a : Items α) (m : Meta α) : GArg a m → GDimParts a [m]

/-- parser.y:154-193: which keyword starts which dimension -/
inductive DimKey : Tok α → DimKind → Prop
  | angle : DimKey .kAngle .angle
  | dia : DimKey .kDia .dia
  | dim : DimKey .kDim .dim
  | rad : DimKey .kRad .rad

/-- parser.y:152-196 -/
inductive GDrawParts : Items α → List (Meta α) → List (DimN α) → Prop
  | arg (w a : Items α) (ms : List (Meta α)) (ds : List (DimN α)) (m : Meta α) (l : Nat) : GDrawParts w ms ds → GArg a m →
      GDrawParts (w ++ a ++ [.tok (.p ';') l]) (ms ++ [m]) ds
  | dim0 (w : Items α) (ms : List (Meta α)) (ds : List (DimN α)) (t : Tok α) (k : DimKind) (l l3 l4 l5 : Nat) : GDrawParts w ms ds →
      DimKey t k → GDrawParts (w ++ [.tok t l, .tok (.p '(') l3, .tok (.p ')') l4, .tok (.p ';') l5]) ms (ds ++ [⟨k, [], l⟩])
  | dim (w a : Items α) (ms args : List (Meta α)) (ds : List (DimN α)) (t : Tok α) (k : DimKind) (l l3 l5 l6 : Nat) :
      GDrawParts w ms ds → DimKey t k → GDimParts a args →
      GDrawParts (w ++ [.tok t l, .tok (.p '(') l3] ++ a ++ [.tok (.p ')') l5, .tok (.p ';') l6]) ms (ds ++ [⟨k, args, l⟩])
  | empty : GDrawParts [] [] []

/-- parser.y:142-150 -/
inductive GPageParts : Items α → List (Meta α) → List (Drawable α) → Prop
  | arg (w a : Items α) (ms : List (Meta α)) (ds : List (Drawable α)) (m : Meta α) (l : Nat) : GPageParts w ms ds → GArg a m →
      GPageParts (w ++ a ++ [.tok (.p ';') l]) (ms ++ [m]) ds
  | draw (w a : Items α) (ms ms' : List (Meta α)) (ds : List (Drawable α)) (dims : List (DimN α)) (n : Str) (l2 l l4 l6 : Nat) :
      GPageParts w ms ds → GDrawParts a ms' dims →
      GPageParts (w ++ [.tok .kDraw l2, .tok (.id n) l, .tok (.p '{') l4] ++ a ++ [.tok (.p '}') l6]) ms (ds ++ [.draw n ms' dims l])
  | text (w a b : Items α) (ms ms' : List (Meta α)) (ds : List (Drawable α)) (s : Str) (l l3 l5 l6 l8 : Nat) :
      GPageParts w ms ds → GString a s → GTextParts b ms' →
      GPageParts (w ++ [.tok .kText l, .tok (.p '[') l3] ++ a ++ [.tok (.p ']') l5, .tok (.p '{') l6] ++ b ++ [.tok (.p '}') l8])
        ms (ds ++ [.text s ms' l])
  | empty : GPageParts [] [] []

/-- parser.y:118-119 -/
inductive GModel : Items α → ModelN → Prop
  | mk (n s : Str) (l l2 l3 l4 l5 : Nat) :
      GModel [.tok .kLoad l, .tok (.id n) l2, .tok (.p '=') l3, .tok (.str s) l4, .tok (.p ';') l5] ⟨n, s, l⟩

/-- parser.y:122 -/
inductive GPage : Items α → PageN α → Prop
  | mk (l l2 l4 : Nat) (w : Items α) (ms : List (Meta α)) (ds : List (Drawable α)) : GPageParts w ms ds →
      GPage ([.tok .kPage l, .tok (.p '{') l2] ++ w ++ [.tok (.p '}') l4]) ⟨ms, ds, l⟩

/-- parser.y:113-116 -/
inductive GInput : Items α → Doc α → Prop
  | model (w a : Items α) (ms : List ModelN) (ps : List (PageN α)) (m : ModelN) : GInput w ⟨ms, ps⟩ → GModel a m →
      GInput (w ++ a) ⟨ms ++ [m], ps⟩
  | page (w a : Items α) (ms : List ModelN) (ps : List (PageN α)) (p : PageN α) : GInput w ⟨ms, ps⟩ → GPage a p →
      GInput (w ++ a) ⟨ms, ps ++ [p]⟩
  | empty : GInput [] ⟨[], []⟩

end S2P
