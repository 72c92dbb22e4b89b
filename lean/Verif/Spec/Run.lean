import Verif.Spec.Load
import Verif.Spec.Pages

/-! # What a complete conversion is -/

namespace S2P
variable {α : Type} [FP α]

/-- The script is well formed, its models have distinct names and all load, every page on its own is accepted, and `out` is the
document made of all its pages. -/
def Converts (E : Env α) (w : World) (src script out : Str) : Prop :=
  ∃ (doc : Doc α) (fs : List (STLFile α)) (outs : List (OutPage α)),
    parse script = .ok (some doc) ∧
    (doc.models.map (fun m => m.name)).Nodup ∧ List.Forall₂ (Loads E.loadPath w) doc.models fs ∧
    List.Forall₂ (fun pg o => ∃ g, onePage E (List.zipWith (fun m f => (m.name, some f)) doc.models fs) pg = .ok g ∧ g.ok = true ∧ g.pages = [o])
      doc.pages outs ∧
    out = renderPages E src outs

/-- The document the script stands for, and the pages made from it with the models it loads, one per page of the script. -/
def MadeOf (E : Env α) (w : World) (script : Str) (doc : Doc α) (fs : List (STLFile α)) (outs : List (OutPage α)) : Prop :=
  parse script = .ok (some doc) ∧ List.Forall₂ (Loads E.loadPath w) doc.models fs ∧
  List.Forall₂ (fun pg o => ∃ g, onePage E (List.zipWith (fun m f => (m.name, some f)) doc.models fs) pg = .ok g ∧ g.ok = true ∧ g.pages = [o])
    doc.pages outs

end S2P
