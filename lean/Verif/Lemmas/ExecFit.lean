import Verif.Lemmas.Exec64
import Verif.Model.Ast

set_option linter.unusedSectionVars false
set_option linter.unusedVariables false
set_option linter.unusedSimpArgs false

/-! # Circle fitting by computation -/

namespace S2P

/-- points of the format among those of `Fl R64` -/
noncomputable def V2.fl (v : V2 X64) : V2 (Fl R64) := v.map (X64.fl R64)
noncomputable def V3.fl (v : V3 X64) : V3 (Fl R64) := v.map (X64.fl R64)

/-- results of rounding are below 2^1024 -/
theorem fix64_lt {x : Ext ℚ} {a : ℚ} (h : fix64 x = (Ext.fin a : Ext ℚ)) (hx : ∀ b, x = .fin b → True) : (∃ b, x = .fin b) → a < 2 ^ 1024 := by
  rintro ⟨b, rfl⟩
  change (if ((2 ^ 1024 : ℕ) : ℚ) ≤ roundQ 53 (-1074) b then Ext.pinf else if roundQ 53 (-1074) b ≤ -((2 ^ 1024 : ℕ) : ℚ) then Ext.ninf else Ext.fin (roundQ 53 (-1074) b)) = Ext.fin a at h
  split_ifs at h with h1 h2
  injection h with h
  rw [← h]
  push_cast at h1
  exact not_le.1 h1

theorem x64_sqrt_add (x y : X64) : X64.fl R64 (FP.sqrt (x + y)) = FP.sqrt (X64.fl R64 x + X64.fl R64 y) := by
  rw [← x64_add]
  apply x64_sqrt
  intro a h
  refine fix64_lt h (fun _ _ => trivial) ?_
  change fix64 (Ext.add (K := ℚ) x y) = _ at h
  generalize Ext.add (K := ℚ) x y = z at h
  match z with
  | .fin b => exact ⟨b, rfl⟩
  | .pinf => cases h
  | .ninf => cases h
  | .nan => cases h

theorem V2.fl_sub (v w : V2 X64) : (v - w).fl = v.fl - w.fl := by
  ext <;> exact S2P.x64_sub _ _

theorem V2.fl_dot (v w : V2 X64) : X64.fl R64 (v.dot w) = v.fl.dot w.fl := by
  simp only [V2.dot, S2P.x64_add, S2P.x64_mul]; rfl

theorem V2.fl_sqNorm (v : V2 X64) : X64.fl R64 v.sqNorm = v.fl.sqNorm := V2.fl_dot v v

theorem V3.fl_dot (v w : V3 X64) : X64.fl R64 (v.dot w) = v.fl.dot w.fl := by
  simp only [V3.dot, S2P.x64_add, S2P.x64_mul]; rfl

theorem sumL_fl (l : List X64) : X64.fl R64 (sumL l) = sumL (l.map (X64.fl R64)) := by
  unfold sumL
  rw [List.foldl_map, ← x64_lit]
  generalize (FP.lit 0 : X64) = z
  induction l generalizing z with
  | nil => rfl
  | cons a l ih => simp only [List.foldl_cons]; rw [ih, x64_add]

theorem inv3_fl (m : M3 X64) : inv3 ⟨m.r0.fl, m.r1.fl, m.r2.fl⟩ = ⟨(inv3 m).r0.fl, (inv3 m).r1.fl, (inv3 m).r2.fl⟩ := by
  simp only [inv3, V3.fl, V3.map, x64_add, x64_sub, x64_mul, x64_div, x64_lit]

theorem fitRow_fl (p : V2 X64) : fitRow p.fl = (fitRow p).fl := by
  simp only [fitRow, V3.fl, V3.map, V2.fl, V2.map, x64_lit]

theorem fitRhs_fl (p : V2 X64) : fitRhs p.fl = X64.fl R64 (fitRhs p) := by
  simp only [fitRhs, x64_div, V2.fl_dot, x64_lit]

theorem fitMat_fl (ps : List (V2 X64)) : fitMat (ps.map V2.fl) = ⟨(fitMat ps).r0.fl, (fitMat ps).r1.fl, (fitMat ps).r2.fl⟩ := by
  have key : ∀ (f g : V3 X64 → X64) (f' g' : V3 (Fl R64) → Fl R64), (∀ v, f' v.fl = X64.fl R64 (f v)) → (∀ v, g' v.fl = X64.fl R64 (g v)) →
      sumL ((ps.map V2.fl).map (fun p => f' (fitRow p) * g' (fitRow p))) = X64.fl R64 (sumL (ps.map (fun p => f (fitRow p) * g (fitRow p)))) := by
    intro f g f' g' hf hg
    rw [sumL_fl, List.map_map, List.map_map]
    congr 1
    apply List.map_congr_left
    intro p _
    simp only [Function.comp_apply, fitRow_fl, hf, hg, x64_mul]
  have hx : ∀ v : V3 X64, v.fl.x = X64.fl R64 v.x := fun _ => rfl
  have hy : ∀ v : V3 X64, v.fl.y = X64.fl R64 v.y := fun _ => rfl
  have hz : ∀ v : V3 X64, v.fl.z = X64.fl R64 v.z := fun _ => rfl
  unfold fitMat
  simp only [V3.fl, V3.map]
  rw [key (·.x) (·.x) (·.x) (·.x) hx hx, key (·.x) (·.y) (·.x) (·.y) hx hy, key (·.x) (·.z) (·.x) (·.z) hx hz,
    key (·.y) (·.x) (·.y) (·.x) hy hx, key (·.y) (·.y) (·.y) (·.y) hy hy, key (·.y) (·.z) (·.y) (·.z) hy hz,
    key (·.z) (·.x) (·.z) (·.x) hz hx, key (·.z) (·.y) (·.z) (·.y) hz hy, key (·.z) (·.z) (·.z) (·.z) hz hz]

theorem fitRes_fl (ps : List (V2 X64)) : fitRes (ps.map V2.fl) = (fitRes ps).fl := by
  unfold fitRes
  rw [fitMat_fl, inv3_fl]
  have key : ∀ r : V3 X64, sumL ((ps.map V2.fl).map (fun p => r.fl.dot (fitRow p) * fitRhs p)) = X64.fl R64 (sumL (ps.map (fun p => r.dot (fitRow p) * fitRhs p))) := by
    intro r
    rw [sumL_fl, List.map_map, List.map_map]
    congr 1
    apply List.map_congr_left
    intro p _
    simp only [Function.comp_apply, fitRow_fl, fitRhs_fl, x64_mul, V3.fl_dot]
  simp only [key]
  rfl

/-- a circle of the format among those of `Fl R64` -/
noncomputable def circFl (p : V2 X64 × X64) : V2 (Fl R64) × Fl R64 := (p.1.fl, X64.fl R64 p.2)

theorem findCircle_fl (ps : List (V2 X64)) : findCircle (ps.map V2.fl) = (findCircle ps).map circFl := by
  unfold findCircle
  rw [List.length_map, fitRes_fl]
  split_ifs
  · rfl
  · simp only [Option.map_some, circFl, x64_sqrt_add, x64_add, x64_mul]
    rfl

theorem between_fl (ps : List (V2 X64)) (a b : X64) (t : V2 X64) :
    between (ps.map V2.fl) (X64.fl R64 a) (X64.fl R64 b) t.fl = (between ps a b t).map V2.fl := by
  unfold between
  rw [← x64_lit, x64_lt, x64_lt]
  split_ifs
  · rfl
  · rw [List.filter_map]
    congr 1
    apply List.filter_congr
    intro p _
    simp only [Function.comp_apply, ← V2.fl_sub, ← V2.fl_sqNorm, ← x64_mul, x64_lt]

/-- an entry of the map from distances -/
noncomputable def entFl (e : X64 × V2 X64) : Fl R64 × V2 (Fl R64) := (X64.fl R64 e.1, e.2.fl)

theorem mmInsert_fl (d : X64) (v : V2 X64) (l : List (X64 × V2 X64)) : mmInsert (X64.fl R64 d) v.fl (l.map entFl) = (mmInsert d v l).map entFl := by
  induction l with
  | nil => rfl
  | cons e l ih =>
    simp only [List.map_cons, mmInsert, entFl, x64_lt]
    split_ifs
    · rfl
    · simp only [List.map_cons, ← ih, entFl]

theorem closestStep_fl (n : ℕ) (t : V2 X64) (c : List (X64 × V2 X64)) (p : V2 X64) :
    closestStep n t.fl (c.map entFl) p.fl = (closestStep n t c p).map entFl := by
  unfold closestStep
  simp only [← V2.fl_sub, ← V2.fl_sqNorm, List.getLast?_map]
  have e2 : ((c.map entFl).filter (fun e => !FP.lt e.1 (X64.fl R64 (p - t).sqNorm) && !FP.lt (X64.fl R64 (p - t).sqNorm) e.1)) =
      (c.filter (fun e => !FP.lt e.1 (p - t).sqNorm && !FP.lt (p - t).sqNorm e.1)).map entFl := by
    rw [List.filter_map]
    congr 1
    apply List.filter_congr
    intro e _
    simp only [Function.comp_apply, entFl, x64_lt]
  rw [e2, List.any_map]
  have e3 : ((fun e : Fl R64 × V2 (Fl R64) => FP.lt (p.fl - e.2).sqNorm (X64.fl R64 (p - t).sqNorm * FP.lit (1 / 100))) ∘ entFl) =
      fun e => FP.lt (p - e.2).sqNorm ((p - t).sqNorm * FP.lit (1 / 100)) := by
    funext e
    simp only [Function.comp_apply, entFl, ← V2.fl_sub, ← V2.fl_sqNorm, ← x64_lit, ← x64_mul, x64_lt]
  rw [e3]
  generalize (c.filter (fun e => !FP.lt e.1 (p - t).sqNorm && !FP.lt (p - t).sqNorm e.1)).any _ = b2
  have last : ∀ b1 : Bool, (if b1 = true then c.map entFl else if b2 = true then c.map entFl else List.take n (mmInsert (X64.fl R64 (p - t).sqNorm) p.fl (c.map entFl))) =
      List.map entFl (if b1 = true then c else if b2 = true then c else List.take n (mmInsert (p - t).sqNorm p c)) := by
    intro b1
    cases b1
    · cases b2
      · simp only [Bool.false_eq_true, if_false, mmInsert_fl, List.map_take]
      · rfl
    · rfl
  cases c.getLast? with
  | none => exact last false
  | some e =>
    simp only [Option.map_some, entFl, x64_lt]
    exact last _

theorem closest_fl (ps : List (V2 X64)) (k : ℤ) (t : V2 X64) : closest (ps.map V2.fl) k t.fl = (closest ps k t).map V2.fl := by
  unfold closest
  split_ifs
  · rfl
  · rw [List.foldl_map]
    have : ∀ (l : List (V2 X64)) (c : List (X64 × V2 X64)),
        l.foldl (fun x y => closestStep k.toNat t.fl x y.fl) (c.map entFl) = (l.foldl (closestStep k.toNat t) c).map entFl := by
      intro l
      induction l with
      | nil => intro c; rfl
      | cons p l ih => intro c; simp only [List.foldl_cons, closestStep_fl, ih]
    have h := this ps []
    rw [List.map_nil] at h
    rw [h, List.map_map, List.map_map]
    rfl

theorem locate_fl (ps : List (V3 X64)) (t : V2 X64) : locate (ps.map V3.fl) t.fl = (locate ps t).map circFl := by
  unfold locate
  have e : (ps.map V3.fl).map V3.xy = (ps.map V3.xy).map V2.fl := by
    rw [List.map_map, List.map_map]; rfl
  simp only [e, closest_fl, findCircle_fl]
  cases findCircle (closest (ps.map V3.xy) 3 t) with
  | none => rfl
  | some p =>
    simp only [Option.map_some, circFl, ← x64_lit, ← x64_sub, ← x64_add, ← x64_mul, between_fl, findCircle_fl]

end S2P
