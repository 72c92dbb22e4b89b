import Verif.Props.HoleRun

set_option linter.unusedSectionVars false
set_option linter.unusedVariables false
set_option linter.unusedSimpArgs false

/-! # A run with an angle at the centre of a circle -/

namespace S2P

/-- a script with that angle -/
def turnScript : Str := c!"load m=\"/x\";page{draw m{angle(at=[1,1,0],apex=center([3,2,7]),from_dir=[1,0,0],to_point=[0,0,0]);}}"


open Lean Meta Elab Tactic in
/-- what is read from it: both sides compute to the same (the tactic offers `rfl` to the kernel directly) -/
theorem turn_doc_lit : parse turnScript = .ok (some ⟨[⟨c!"m", c!"/x", 1⟩], [⟨[], [.draw c!"m" [] [
    ⟨.angle, [⟨c!"at", .pt (litPt 1 1 0), 1⟩, ⟨c!"apex", .pt (.func c!"center" (litPt 3 2 7) 1), 1⟩, ⟨c!"from_dir", .pt (litPt 1 0 0), 1⟩,
      ⟨c!"to_point", .pt (litPt 0 0 0), 1⟩], 1⟩] 1], 1⟩]⟩) := by
  run_tac do
    let g ← getMainGoal
    let some (_, a, _) := (← g.getType).eq? | throwError "not an equation"
    g.assign (← mkEqRefl a)

theorem turn_doc : parse turnScript = .ok (some ⟨[⟨c!"m", c!"/x", 1⟩], [⟨[], [.draw c!"m" [] [turnDim] 1], 1⟩]⟩) := by
  have lit : ∀ x y z : Rat, litPt x y z = .val (V3.fin ⟨(x : ℝ), (y : ℝ), (z : ℝ)⟩) 1 := fun _ _ _ => rfl
  rw [turn_doc_lit]
  simp only [turnDim, lit]
  norm_num

/-- this script meets what is asked of a run in C97, and its dimension what is said of it -/
example : SortOK rEnv.sorter ∧ rEnv.NotAView ∧ ∃ doc r f, parse turnScript = .ok (some doc) ∧ scriptToPS rEnv paperDisk c!"s" turnScript = .ok r ∧ r.ok = true ∧
    (∀ m ∈ doc.models, Loads rEnv.loadPath paperDisk m f) ∧ (∃ pg ∈ doc.pages, Drawable.draw c!"m" [] [turnDim] 1 ∈ pg.draws) ∧
    Turns rEnv idM f turnDim FP.g6 ⟨1, 1, 0⟩ ⟨2, 3 / 2, 0⟩ ⟨1, 0, 0⟩ ((⟨0, 0, 0⟩ : V3 ℝ) - ⟨2, 3 / 2, 0⟩) := by
  obtain ⟨r, f, h1, h2, h3, hs⟩ := disc_run turnScript turnDim (Or.inr rfl) turn_doc
  exact ⟨insSorter_ok, rEnv_notAView, _, r, f, turn_doc, h1, h2, by intro m hm; rw [List.mem_singleton] at hm; subst hm; exact h3, ⟨_, List.mem_singleton.2 rfl, List.mem_singleton.2 rfl⟩, (disc_dims hs).2.2⟩

end S2P
