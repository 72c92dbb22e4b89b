import Verif.Props.Place
import Verif.Props.HoleRun

set_option linter.unusedSectionVars false
set_option linter.unusedVariables false
set_option linter.unusedSimpArgs false

/-! # Two scripts for C98 -/

namespace S2P
open PS

def hereScript : Str := c!"load m=\"/x\";page{draw m{@[1,2];}}"
def awayScript : Str := c!"load m=\"/x\";page{draw m{@[3,1];}}"

noncomputable def litLoc (x y : Rat) : MetaVal (Ext ℝ) := .loc ⟨FP.lit x, FP.lit y⟩

open Lean Meta Elab Tactic in
theorem here_doc_lit : parse hereScript = .ok (some ⟨[⟨c!"m", c!"/x", 1⟩], [⟨[], [.draw c!"m" [⟨c!"@", litLoc 1 2, 1⟩] [] 1], 1⟩]⟩) := by
  run_tac do
    let g ← getMainGoal
    let some (_, a, _) := (← g.getType).eq? | throwError "not an equation"
    g.assign (← mkEqRefl a)

open Lean Meta Elab Tactic in
theorem away_doc_lit : parse awayScript = .ok (some ⟨[⟨c!"m", c!"/x", 1⟩], [⟨[], [.draw c!"m" [⟨c!"@", litLoc 3 1, 1⟩] [] 1], 1⟩]⟩) := by
  run_tac do
    let g ← getMainGoal
    let some (_, a, _) := (← g.getType).eq? | throwError "not an equation"
    g.assign (← mkEqRefl a)

theorem lit_loc (x y : Rat) : litLoc x y = .loc (⟨(x : ℝ), (y : ℝ)⟩ : V2 ℝ).fin := rfl

/-- a script that draws the sample model at some place is converted -/
theorem placed_run (s : Str) (p : V2 ℝ) (hp : parse s = .ok (some ⟨[⟨c!"m", c!"/x", 1⟩], [⟨[], [.draw c!"m" [⟨c!"@", .loc p.fin, 1⟩] [] 1], 1⟩]⟩)) :
    ∃ r, scriptToPS rEnv paperDisk c!"s" s = .ok r ∧ r.ok = true := by
  obtain ⟨f, T, hf, -, -⟩ := disc_read
  have hM : Models.Made (K := ℝ) [(c!"m", some f)] := by
    intro e he
    simp only [List.mem_singleton] at he
    subst he
    exact ⟨f, rfl, make_made _ f hf⟩
  have hfin := parse_isFin s _ hp _ (List.mem_singleton.2 rfl) _ (List.mem_singleton.2 rfl)
  have hat := parse_atLoc s _ hp _ (List.mem_singleton.2 rfl) _ (List.mem_singleton.2 rfl)
  obtain ⟨c, hc⟩ := content_ok rEnv insSorter_ok rEnv_notAView [(c!"m", some f)] hM _ hfin hat
  obtain ⟨proj, ls, hD⟩ := drawn_exists rEnv insSorter_ok [(c!"m", some f)] c!"m" [⟨c!"@", .loc p.fin, 1⟩] hfin.1 (by simp) (1, 1) rfl matZP rfl _ rfl f ⟨_, rfl, rfl⟩ (make_made _ f hf)
  refine one_run s _ [] 1 1 1 hp paperDisk rfl f hf ⟨c, hc, ?_⟩
  rcases draw_sum rEnv _ _ _ _ _ c hc with ⟨-, -, -, h⟩ | ⟨_, _, _, _, _, _, cs, -, h1, -, h2, -⟩
  · exact absurd ⟨_, _, _, _, _, _, hD⟩ h
  · cases h1
    rw [h2]
    simp

/-- they meet what C98 asks of runs -/
example : SortOK rEnv.sorter ∧ rEnv.NotAView ∧ ∃ doc doc' r r', parse hereScript = .ok (some doc) ∧ parse awayScript = .ok (some doc') ∧ doc'.models = doc.models ∧
    List.length [[(⟨2, -1⟩ : V2 ℝ)]] = doc.pages.length ∧
    List.Forall₂ (fun (x : List (V2 ℝ) × PageN (Ext ℝ)) pg' => x.2.Rearranged x.1 pg') ([[(⟨2, -1⟩ : V2 ℝ)]].zip doc.pages) doc'.pages ∧
    scriptToPS rEnv paperDisk c!"s" hereScript = .ok r ∧ scriptToPS rEnv paperDisk c!"s" awayScript = .ok r' ∧ r.ok = true := by
  have h1 := here_doc_lit
  have h2 := away_doc_lit
  rw [lit_loc] at h1 h2
  obtain ⟨r, k1, k2⟩ := placed_run _ _ h1
  obtain ⟨r', k3, k4⟩ := placed_run _ _ h2
  refine ⟨insSorter_ok, rEnv_notAView, _, _, r, r', h1, h2, rfl, rfl, ?_, k1, k3, k2⟩
  refine .cons ⟨rfl, rfl, .cons (Or.inr (.draw _ _ _ _ _ _ (.cons ⟨rfl, fun h => absurd rfl h, fun _ => ⟨_, rfl, ?_⟩⟩ .nil) ⟨_, List.mem_singleton.2 rfl, rfl⟩)) .nil⟩ .nil
  have e : (⟨((3 : Rat) : ℝ), ((1 : Rat) : ℝ)⟩ : V2 ℝ) = (⟨((1 : Rat) : ℝ), ((2 : Rat) : ℝ)⟩ : V2 ℝ) + ⟨2, -1⟩ := by
    show (⟨_, _⟩ : V2 ℝ) = ⟨((1 : Rat) : ℝ) + 2, ((2 : Rat) : ℝ) + -1⟩
    norm_num
  rw [e]

end S2P
