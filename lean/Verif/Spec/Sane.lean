import Verif.Spec.StlText
import Verif.Spec.Load
import Verif.Lemmas.Ext

/-! # Model files of ordinary content, by their text -/

namespace S2P

/-- If a `facet normal` line stands at the head and the next facet or endfacet line is an `endfacet`: the number of vertices in between. -/
def closedAt {β : Type} : List (StlLine β) → Option Nat
  | .facet _ :: rest =>
    match rest.dropWhile (!isMark ·) with
    | .endfacet :: _ => some ((rest.takeWhile (!isMark ·)).filterMap vertexOf).length
    | _ => none
  | _ => none

/-- the numbers of vertices of the facets closed -/
def vertexCounts {β : Type} (ls : List (StlLine β)) : List Nat := ls.tails.filterMap closedAt

/-- A file as every exporter writes it: no facet closed before the first unrecognised line has fewer than three vertices, and the numbers on
the vertex lines, read exactly, are of size at most 2^n.  (`LineIs` is used at `Ext ℚ`, where each numeral stands for its exact value.) -/
structure SaneFile (n : Nat) (content : Str) : Prop where
  full : ∀ ls, LinesOf content ls → ∀ (pre : List Str) (rs : List (StlLine (Ext ℚ))), pre <+: ls → List.Forall₂ LineIs pre rs →
    ∀ k ∈ vertexCounts rs, 3 ≤ k
  small : ∀ ls, LinesOf content ls → ∀ l ∈ ls, ∀ v : V3 ℚ, LineIs l (.vertex v.fin : StlLine (Ext ℚ)) → |v.x| ≤ 2 ^ n ∧ |v.y| ≤ 2 ^ n ∧ |v.z| ≤ 2 ^ n

/-- every file found for one of the models is such a file -/
def SaneModels (n : Nat) (loadPath : Str) (w : World) (ms : List ModelN) : Prop :=
  ∀ m ∈ ms, ∀ ps content, Places loadPath m.source ps → FoundAt w ps content → SaneFile n content

end S2P
