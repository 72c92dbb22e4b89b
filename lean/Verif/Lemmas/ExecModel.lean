import Verif.Lemmas.ExecFit
import Verif.Model.Stl

set_option linter.unusedSectionVars false
set_option linter.unusedVariables false
set_option linter.unusedSimpArgs false

/-! # Model files by computation -/

namespace S2P

theorem V3.fl_sub (v w : V3 X64) : (v - w).fl = v.fl - w.fl := by
  ext <;> exact S2P.x64_sub _ _

theorem V3.fl_smul (v : V3 X64) (s : X64) : (v.smul s).fl = v.fl.smul (X64.fl R64 s) := by
  ext <;> exact S2P.x64_mul _ _

theorem V3.fl_sdiv (v : V3 X64) (s : X64) : (v.sdiv s).fl = v.fl.sdiv (X64.fl R64 s) := by
  ext <;> exact S2P.x64_div _ _

theorem V3.fl_cross (v w : V3 X64) : (v.cross w).fl = v.fl.cross w.fl := by
  simp only [V3.cross, V3.fl, V3.map, S2P.x64_sub, S2P.x64_mul]

theorem V3.fl_norm (v : V3 X64) : X64.fl R64 v.norm = v.fl.norm := by
  unfold V3.norm V3.sqNorm V3.dot
  rw [x64_sqrt_add, S2P.x64_add]
  simp only [S2P.x64_mul]
  rfl

theorem V3.fl_normalized (v : V3 X64) : v.normalized.fl = v.fl.normalized := by
  unfold V3.normalized
  have : v.fl.sqNorm = X64.fl R64 v.sqNorm := (V3.fl_dot v v).symm
  rw [this, ← x64_lit, x64_lt]
  split_ifs
  · rw [V3.fl_sdiv, V3.fl_norm]
  · rfl

/-- a matrix of the format -/
noncomputable def M3.fl (m : M3 X64) : M3 (Fl R64) := ⟨m.r0.fl, m.r1.fl, m.r2.fl⟩

theorem V3.fl_mulM (v : V3 X64) (m : M3 X64) : (v.mulM m).fl = v.fl.mulM m.fl := by
  simp only [V3.mulM, V3.fl, M3.fl, V3.map, S2P.x64_add, S2P.x64_mul]

theorem V3.fl_eqv (v w : V3 X64) : v.fl.eqv w.fl = v.eqv w := by
  simp only [V3.eqv, V3.fl, V3.map, x64_eq]

theorem order_fl (v w : V3 X64) : order v.fl w.fl = order v w := by
  simp only [order, V3.fl, V3.map, x64_eq, x64_lt]

/-- a facet of the format -/
noncomputable def Facet.fl (f : Facet X64) : Facet (Fl R64) := ⟨f.norm.fl, f.e0.fl, f.e1.fl, f.e2.fl, X64.fl R64 f.r⟩

theorem mkFacet_fl (n : V3 X64) (e : List (V3 X64)) : mkFacet n.fl (e.map V3.fl) = (mkFacet n e).map Facet.fl := by
  match e with
  | [] => rfl
  | [_] => rfl
  | [_, _] => rfl
  | a :: b :: c :: _ =>
    simp only [mkFacet, List.map_cons, ← V3.fl_sub, ← V3.fl_cross, ← V3.fl_normalized, ← V3.fl_dot, ← x64_lit, x64_lt, ← V3.fl_smul]
    cases FP.lt (n.dot ((b - a).cross (c - a)).normalized) (FP.lit 0 : X64) <;>
    simp only [Bool.false_eq_true, if_false, if_true, ← V3.fl_dot, ← x64_add, ← x64_div] <;> rfl

theorem rotFacet_fl (m : M3 X64) (f : Facet X64) : rotFacet m.fl f.fl = (rotFacet m f).fl := by
  simp only [rotFacet, Facet.fl, V3.fl_mulM]

theorem swapAt_fl (l : List (Facet X64)) (i j : ℕ) : swapAt (l.map Facet.fl) i j = (swapAt l i j).map Facet.fl := by
  unfold swapAt
  rw [List.getElem?_map, List.getElem?_map]
  cases l[i]? with
  | none => cases l[j]? <;> rfl
  | some a =>
    cases l[j]? with
    | none => rfl
    | some b => simp only [Option.map_some, List.map_set]

theorem cullLoop_fl (fs : List (Facet X64)) (i j : ℕ) : cullLoop (fs.map Facet.fl) i j = (cullLoop fs i j).map Facet.fl := by
  generalize hn : j - i = n
  induction n using Nat.strong_induction_on generalizing fs i j with
  | _ n ih =>
    rw [cullLoop, cullLoop.eq_def fs]
    by_cases hij : i < j
    · rw [if_pos hij, if_pos hij, List.getElem?_map]
      cases h : fs[i]? with
      | none => rfl
      | some f =>
        simp only [Option.map_some]
        have e : FP.le f.fl.norm.z (FP.lit 0) = FP.le f.norm.z (FP.lit 0) := by rw [← x64_lit]; exact x64_le _ _
        rw [e]
        split_ifs
        · rw [swapAt_fl]; exact ih _ (by omega) _ _ _ rfl
        · exact ih _ (by omega) _ _ _ rfl
    · rw [if_neg hij, if_neg hij, List.map_take]

theorem cullFacets_fl (fs : List (Facet X64)) : cullFacets (fs.map Facet.fl) = (cullFacets fs).map Facet.fl := by
  unfold cullFacets
  rw [List.length_map, cullLoop_fl]

theorem setInsert_fl (v : V3 X64) (l : List (V3 X64)) : setInsert order v.fl (l.map V3.fl) = (setInsert order v l).map V3.fl := by
  induction l with
  | nil => rfl
  | cons w l ih =>
    simp only [List.map_cons, setInsert, order_fl]
    split_ifs
    · rfl
    · simp only [List.map_cons, ih]
    · rfl

/-- the corners of facets, as `points` collects them -/
def cornerSet {α : Type} [FP α] (fs : List (Facet α)) : List (V3 α) := (fs.flatMap Facet.corners).foldl (fun ps e => setInsert order e ps) []

theorem cornerSet_fl (fs : List (Facet X64)) : cornerSet (fs.map Facet.fl) = (cornerSet fs).map V3.fl := by
  unfold cornerSet
  have e : (fs.map Facet.fl).flatMap Facet.corners = (fs.flatMap Facet.corners).map V3.fl := by
    induction fs with
    | nil => rfl
    | cons f fs ih => simp only [List.map_cons, List.flatMap_cons, ih, List.map_append]; rfl
  rw [e, List.foldl_map]
  have : ∀ (l acc : List (V3 X64)), l.foldl (fun x y => setInsert order y.fl x) (acc.map V3.fl) = (l.foldl (fun ps e => setInsert order e ps) acc).map V3.fl := by
    intro l
    induction l with
    | nil => intro acc; rfl
    | cons v l ih => intro acc; simp only [List.foldl_cons, setInsert_fl, ih]
  exact this _ []

/-! ## The text of a file -/

theorem ofDec64_fl (q : ℚ) : (FP.ofDec64 q : Option (Fl R64)) = (FP.ofDec64 q : Option X64).map (X64.fl R64) := by
  show (match R64.fix (.fin (q : ℝ)) with
    | .fin x => if R64.range64 q then some (Ext.fin x : Ext ℝ) else none
    | _ => none) = Option.map (X64.fl R64) (match fix64 (.fin q) with
    | .fin x => some (Ext.fin (K := ℚ) x)
    | _ => none)
  have h := fix64_fl (.fin q)
  change Ext.real (fix64 (.fin q)) = R64.fix (.fin (q : ℝ)) at h
  rw [← h]
  generalize fix64 (.fin q) = z
  match z with
  | .fin a => rfl
  | .pinf => rfl
  | .ninf => rfl
  | .nan => rfl

theorem parse3_fl (t : Str × Str × Str) : (parse3 t : Option (V3 (Fl R64))) = (parse3 t : Option (V3 X64)).map V3.fl := by
  have key : ∀ o : Option ℚ, (o.bind FP.ofDec64 : Option (Fl R64)) = (o.bind FP.ofDec64 : Option X64).map (X64.fl R64) := by
    intro o
    cases o with
    | none => rfl
    | some q => exact ofDec64_fl q
  unfold parse3
  rw [key, key, key]
  cases ((strtod t.1).bind FP.ofDec64 : Option X64) with
  | none => rfl
  | some a =>
    cases ((strtod t.2.1).bind FP.ofDec64 : Option X64) with
    | none => rfl
    | some b =>
      cases ((strtod t.2.2).bind FP.ofDec64 : Option X64) with
      | none => rfl
      | some c => rfl

noncomputable def StlLine.fl : StlLine X64 → StlLine (Fl R64)
  | .solid => .solid
  | .loop => .loop
  | .facet n => .facet n.fl
  | .endfacet => .endfacet
  | .vertex v => .vertex v.fl

theorem classify_fl (s : Str) : (classify s : Option (StlLine (Fl R64))) = (classify s : Option (StlLine X64)).map StlLine.fl := by
  have key : ∀ o : Option (Str × Str × Str), (o.bind parse3 : Option (V3 (Fl R64))) = (o.bind parse3 : Option (V3 X64)).map V3.fl := by
    intro o
    cases o with
    | none => rfl
    | some q => exact parse3_fl q
  unfold classify
  rw [key, key]
  split_ifs
  · rfl
  · rfl
  · cases ((matchKw3 c!"facet normal" s).bind parse3 : Option (V3 X64)) with
    | some n => rfl
    | none => rfl
  · cases ((matchKw3 c!"facet normal" s).bind parse3 : Option (V3 X64)) with
    | some n => rfl
    | none =>
      cases ((matchKw3 c!"vertex" s).bind parse3 : Option (V3 X64)) with
      | some n => rfl
      | none => rfl

noncomputable def MakeState.fl (s : MakeState X64) : MakeState (Fl R64) := ⟨s.norm.fl, s.points.map V3.fl, s.facets.map Facet.fl⟩

theorem zero_fl : (V3.zero : V3 X64).fl = V3.zero := by
  simp only [V3.zero, V3.fl, V3.map, x64_lit]

theorem makeStep_fl (s : MakeState X64) (l : StlLine X64) : makeStep s.fl l.fl = (makeStep s l).map MakeState.fl := by
  match l with
  | .solid => rfl
  | .loop => rfl
  | .facet n => rfl
  | .endfacet =>
    simp only [makeStep, StlLine.fl]
    have e : s.fl.norm.eqv V3.zero = s.norm.eqv V3.zero := by rw [← zero_fl]; exact V3.fl_eqv _ _
    rw [e]
    split_ifs
    · rfl
    · have : mkFacet s.fl.norm s.fl.points = (mkFacet s.norm s.points).map Facet.fl := mkFacet_fl _ _
      rw [this]
      cases mkFacet s.norm s.points with
      | error e => rfl
      | ok f =>
        simp only [Except.map, bind, Except.bind, MakeState.fl, zero_fl, List.map_append, List.map_cons, List.map_nil]
  | .vertex v => simp [makeStep, StlLine.fl, MakeState.fl, Except.map]

theorem makeLoop_fl (ls : List Str) (s : MakeState X64) : makeLoop ls s.fl = (makeLoop ls s).map (Option.map MakeState.fl) := by
  induction ls generalizing s with
  | nil => rfl
  | cons l ls ih =>
    simp only [makeLoop, classify_fl]
    cases (classify l : Option (StlLine X64)) with
    | none => rfl
    | some ln =>
      simp only [Option.map_some, makeStep_fl]
      cases makeStep s ln with
      | error e => rfl
      | ok s' => exact ih s'

end S2P
