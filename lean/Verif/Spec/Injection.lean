import Verif.Spec.Output
import Verif.Spec.Dims
import Verif.Spec.Run

/-! # Labels and the characters they may contain -/

namespace S2P
namespace PS

/-- formatting with a format free of special characters gives a label free of special characters -/
def FormatsPlain {α : Type} [FP α] (E : Env α) : Prop := ∀ f g, E.fmtF f = some g → Plain f → ∀ x, Plain (g x)

/-- the format given to a dimension, if any, has no special characters -/
def PlainFormat {α : Type} (ms : List (Meta α)) : Prop := ∀ m f, look ms c!"fmt" = some m → m.val = .str f → Plain f

/-- the same of every diameter of a drawing -/
def PlainDia {α : Type} : Drawable α → Prop
  | .draw _ _ dims _ => ∀ d ∈ dims, d.kind = .dia → PlainFormat d.metas
  | .text _ _ _ => True

/-- the same of every diameter of a document -/
def PlainDias {α : Type} (doc : Doc α) : Prop := ∀ pg ∈ doc.pages, ∀ y ∈ pg.draws, PlainDia y

/-- One page of the output as text: it announces itself as page `i` of `n`, and puts out a page once, at its end. -/
def PageBlock (i n : Nat) (toks : List Tok) (block : Str) : Prop :=
  (∃ rest, block = c!"\n%%%%%%%%% Start of page " ++ natStr i ++ c!" of " ++ natStr n ++ c!"\n" ++ rest) ∧
  Reads block toks ∧ toks.count (x c!"showpage") = 1 ∧ toks.getLast? = some (x c!"showpage")

end PS
end S2P
