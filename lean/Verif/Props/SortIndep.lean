import Verif.Lemmas.SortIndep
import Verif.Props.Junk
import Verif.Props.Main
import Verif.Props.Hidden

set_option linter.unusedSectionVars false
set_option linter.unusedVariables false
set_option linter.unusedSimpArgs false

/-! # C66: `std::sort` is not stable, and it does not matter -/

namespace S2P

/-- C66, lines: two sorts that differ in how they order ties give the same lines, in the same order. -/
theorem C66_lines {K : Type} [Field K] [LinearOrder K] [IsStrictOrderedRing K] [FloorRing K] [Trans K]
    (S S' : Sorter) (hS : SortOK S) (hS' : SortOK S') (s : STLFile (Ext K)) (es : List (Edge K))
    (hes : s.edges = es.map Edge.fin) (hun : s.unseen ≤ es.length) : s.toLines S = s.toLines S' :=
  toLines_sorter S S' hS hS' s es hes hun

section
variable (E : Env (Ext ℝ)) (S : Sorter)

/-- C66, pages: verdict, pages, diagnostics and document are the same. -/
theorem C66_pages (hS : SortOK E.sorter) (hS' : SortOK S) (stl : Models (Ext ℝ)) (hM : stl.Made) (s : Str) (doc : Doc (Ext ℝ))
    (h : parse s = .ok (some doc)) (pages : List (OutPage (Ext ℝ))) :
    generatePages { E with sorter := S } stl doc pages = generatePages E stl doc pages :=
  generatePages_sortedBy E S hS hS' stl hM doc (parse_isFin s doc h) pages

theorem renderFrom_sortedBy (n : Nat) : ∀ (k : Nat) (ps : List (OutPage (Ext ℝ))), renderFrom (E.sortedBy S) n k ps = renderFrom E n k ps
  | _, [] => rfl
  | k, p :: ps => by
    unfold renderFrom
    rw [renderFrom_sortedBy n (k + 1) ps, show pageHeader (E.sortedBy S) = pageHeader E from by funext a b; unfold pageHeader Env.sortedBy; rfl]

theorem renderPages_sortedBy (src : Str) (ps : List (OutPage (Ext ℝ))) : renderPages (E.sortedBy S) src ps = renderPages E src ps := by
  unfold renderPages
  rw [renderFrom_sortedBy, show documentHeader (E.sortedBy S) = documentHeader E from by funext a; unfold documentHeader Env.sortedBy; rfl]

theorem loadFiles_sortedBy (w : World) (ms : List ModelN) : loadFiles (E.sortedBy S) w ms = loadFiles E w ms := by
  unfold loadFiles
  rw [show loadStep (E.sortedBy S) w = loadStep E w from by
    funext s m; unfold loadStep
    rw [show openModel (E.sortedBy S) w m.source = openModel E w m.source from by unfold openModel candidates Env.sortedBy; rfl]]

/-- C66, the run: every byte written and every diagnostic is the same. -/
theorem C66_run (hS : SortOK E.sorter) (hS' : SortOK S) (w : World) (src script : Str) :
    scriptToPS { E with sorter := S } w src script = scriptToPS E w src script := by
  change scriptToPS (E.sortedBy S) w src script = _
  cases hp : (parse script : Except Abort (Option (Doc (Ext ℝ)))) with
  | error a => rw [scriptToPS_error E w src script a hp, scriptToPS_error _ w src script a hp]
  | ok o =>
    cases o with
    | none => rw [scriptToPS_none E w src script hp, scriptToPS_none _ w src script hp]
    | some doc =>
      rw [scriptToPS_some E w src script doc hp, scriptToPS_some _ w src script doc hp]
      unfold docToPS
      rw [loadFiles_sortedBy]
      simp only [bind, Except.bind]
      cases hl : loadFiles E w doc.models with
      | error a => rfl
      | ok l =>
        dsimp only
        cases hk : l.ok with
        | false => rfl
        | true =>
          have := C66_pages E S hS hS' l.stl (loaded_made E w _ l hl hk) script doc hp []
          change generatePages (E.sortedBy S) l.stl doc [] = _ at this
          simp only [this, renderPages_sortedBy]

/-- C66, the tool: exit status and the files afterwards are the same. -/
theorem C66_tool (hS : SortOK E.sorter) (hS' : SortOK S) (w : World) (script output : Str) :
    mainRun { E with sorter := S } w script output = mainRun E w script output := by
  unfold mainRun
  simp only [C66_run E S hS hS']

end

/-! ## Two sorts that differ -/

/-- insertion sort of the reversed list: later elements come first among ties -/
def revSorter : Sorter := ⟨fun lt l => insSorter.sort lt l.reverse⟩

theorem revSorter_ok : SortOK revSorter where
  perm := fun lt l => (insSorter_ok.perm lt l.reverse).trans (List.reverse_perm l)
  sorted := fun lt l h => insSorter_ok.sorted lt l.reverse ⟨fun a ha => h.irrefl a (by simpa using ha),
    fun a b c ha hb hc => h.trans a b c (by simpa using ha) (by simpa using hb) (by simpa using hc),
    fun a b c ha hb hc => h.incomp a b c (by simpa using ha) (by simpa using hb) (by simpa using hc)⟩

/-- the two differ on ties -/
example : insSorter.sort (fun a b : Nat × Nat => decide (a.1 < b.1)) [(1, 0), (1, 1)] ≠
    revSorter.sort (fun a b : Nat × Nat => decide (a.1 < b.1)) [(1, 0), (1, 1)] := by decide +kernel

/-- two facets in front of a third: both hide the start of an edge from (1,1,-1) to (9,1,-1), one up to x = 3, the other up to x = 4 -/
def tieTs : List (Tri ℚ) :=
  [⟨⟨0, 0, 1⟩, ⟨0, 0, 0⟩, ⟨4, 0, 0⟩, ⟨0, 4, 0⟩, 0⟩, ⟨⟨0, 0, 2⟩, ⟨0, 0, 1⟩, ⟨5, 0, 1⟩, ⟨0, 5, 1⟩, 2⟩, ⟨⟨0, 0, 1⟩, ⟨1, 1, -1⟩, ⟨9, 1, -1⟩, ⟨1, 9, -1⟩, -1⟩]
def tieS : STLFile (Ext ℚ) := ((index (tieTs.map Tri.fin)).toOption).getD .empty
def tieEs : List (Edge ℚ) := tieTs.flatMap fun t => [(t.a, t.b), (t.c, t.b), (t.a, t.c)]
example : tieS.edges = tieEs.map Edge.fin ∧ tieS.unseen ≤ tieEs.length := by decide +kernel
/-- the hidden spans of that edge come in different orders … -/
example : (edgeCrosses tieS.edges tieS.unseen).toOption.bind (fun cr => (edgeHides insSorter (tieS.facets.zip tieS.faceEdge) ((cr[6]?).getD []) 6 (V3.fin ⟨1, 1, -1⟩, V3.fin ⟨9, 1, -1⟩)).toOption) =
      some [(V3.fin ⟨1, 1, -1⟩, V3.fin ⟨3, 1, -1⟩), (V3.fin ⟨1, 1, -1⟩, V3.fin ⟨4, 1, -1⟩)] ∧
    (edgeCrosses tieS.edges tieS.unseen).toOption.bind (fun cr => (edgeHides revSorter (tieS.facets.zip tieS.faceEdge) ((cr[6]?).getD []) 6 (V3.fin ⟨1, 1, -1⟩, V3.fin ⟨9, 1, -1⟩)).toOption) =
      some [(V3.fin ⟨1, 1, -1⟩, V3.fin ⟨4, 1, -1⟩), (V3.fin ⟨1, 1, -1⟩, V3.fin ⟨3, 1, -1⟩)] := by decide +kernel
/-- … and the drawing is the same -/
example : tieS.toLines insSorter = tieS.toLines revSorter := by decide +kernel
example : (⟨V2.fin ⟨4, 1⟩, V2.fin ⟨9, 1⟩⟩ : Line (Ext ℚ)) ∈ ((tieS.toLines insSorter).toOption).getD [] := by decide +kernel
/-- an environment the theorems apply to -/
example : SortOK rEnv.sorter ∧ SortOK revSorter := ⟨insSorter_ok, revSorter_ok⟩

end S2P
