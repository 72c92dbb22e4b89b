import Verif.Spec.Swap
import Verif.Lemmas.Junk
import Verif.Props.DimLines
import Verif.Props.Snap

set_option linter.unusedSectionVars false
set_option linter.unusedVariables false
set_option linter.unusedSimpArgs false

/-! # Exchanging from and to -/

namespace S2P

section
variable {α : Type} [FP α]

theorem otherEnd_inv (n : Str) : otherEnd (otherEnd n) = n := by
  unfold otherEnd
  by_cases h1 : n = c!"from"
  · subst h1; decide
  by_cases h2 : n = c!"to"
  · subst h2; decide
  by_cases h3 : n = c!"from_dir"
  · subst h3; decide
  by_cases h4 : n = c!"to_dir"
  · subst h4; decide
  by_cases h5 : n = c!"from_point"
  · subst h5; decide
  by_cases h6 : n = c!"to_point"
  · subst h6; decide
  simp only [h1, h2, h3, h4, h5, h6, if_false]

theorem otherEnd_inj : Function.Injective otherEnd := fun a b h => by rw [← otherEnd_inv a, h, otherEnd_inv]

theorem look_swap (d : DimN α) (n : Str) : look d.swapEnds.metas (otherEnd n) = (look d.metas n).map (fun m => { m with name := otherEnd m.name }) := by
  unfold look DimN.swapEnds
  simp only
  induction d.metas with
  | nil => rfl
  | cons m ms ih =>
    rw [List.map_cons]
    by_cases h : m.name = n
    · rw [List.find?_cons_of_pos (by simp [h]), List.find?_cons_of_pos (by simpa using h)]; rfl
    · rw [List.find?_cons_of_neg (by simpa using fun e => h (otherEnd_inj e)), List.find?_cons_of_neg (by simpa using h), ih]

theorem has_swap (d : DimN α) (n : Str) : Has d.swapEnds.metas (otherEnd n) ↔ Has d.metas n := by
  unfold Has DimN.swapEnds
  simp only [List.mem_map]
  constructor
  · rintro ⟨_, ⟨m, hm, rfl⟩, e⟩
    exact ⟨m, hm, otherEnd_inj e⟩
  · rintro ⟨m, hm, rfl⟩
    exact ⟨_, ⟨m, hm, rfl⟩, rfl⟩

theorem exactly_swap {d : DimN α} {req opt req' opt' : List Str} (h : Exactly d.metas req opt) (hr : ∀ n ∈ req', otherEnd n ∈ req)
    (hk : ∀ n ∈ req ++ opt, otherEnd n ∈ req' ++ opt') : Exactly d.swapEnds.metas req' opt' := by
  refine ⟨?_, ?_, ?_⟩
  · have : d.swapEnds.metas.map (fun m => m.name) = (d.metas.map (fun m => m.name)).map otherEnd := by
      simp [DimN.swapEnds, Function.comp_def]
    rw [this]
    exact h.once.map otherEnd_inj
  · intro m hm
    simp only [DimN.swapEnds, List.mem_map] at hm
    obtain ⟨m, hm, rfl⟩ := hm
    exact hk _ (h.known m hm)
  · intro n hn
    have := (has_swap d (otherEnd n)).2 (h.all _ (hr n hn))
    rwa [otherEnd_inv] at this

theorem goodDim_swap {d : DimN α} (h : GoodDim d.kind d.metas) : GoodDim d.swapEnds.kind d.swapEnds.metas := by
  have hk : d.swapEnds.kind = d.kind := rfl
  rw [hk]
  cases hd : d.kind with
  | dim =>
    rw [hd] at h
    exact exactly_swap h (by decide) (by decide)
  | dia =>
    rw [hd] at h
    exact exactly_swap h (by decide) (by decide)
  | rad =>
    rw [hd] at h
    exact exactly_swap h (by decide) (by decide)
  | angle =>
    rw [hd] at h
    obtain ⟨h1, h2, h3⟩ := h
    refine ⟨exactly_swap h1 (by decide) (by decide), ?_, ?_⟩
    · have a := has_swap d c!"to_dir"
      have b := has_swap d c!"to_point"
      rw [show otherEnd c!"to_dir" = c!"from_dir" by decide] at a
      rw [show otherEnd c!"to_point" = c!"from_point" by decide] at b
      rw [a, b]; exact h3
    · have a := has_swap d c!"from_dir"
      have b := has_swap d c!"from_point"
      rw [show otherEnd c!"from_dir" = c!"to_dir" by decide] at a
      rw [show otherEnd c!"from_point" = c!"to_point" by decide] at b
      rw [a, b]; exact h2

theorem formatOf_swap (E : Env α) (s : Str) (d : DimN α) : formatOf E s d.swapEnds.metas = formatOf E s d.metas := by
  have := look_swap d c!"fmt"
  rw [show otherEnd c!"fmt" = c!"fmt" by decide] at this
  unfold formatOf
  rw [this]
  cases look d.metas c!"fmt" <;> rfl

theorem pointOf_swap (E : Env α) (v : Vis α) (j : Nat) (d : DimN α) (n : Str) : pointOf E v j d.swapEnds.metas (otherEnd n) = pointOf E v j d.metas n := by
  unfold pointOf
  rw [look_swap]
  cases look d.metas n <;> rfl

theorem swap_isFin {K : Type} {d : DimN (Ext K)} (h : d.IsFin) : d.swapEnds.IsFin := by
  intro m hm
  simp only [DimN.swapEnds, List.mem_map] at hm
  obtain ⟨m, hm, rfl⟩ := hm
  exact h m hm

end

theorem literal_swap {d : DimN (Ext ℝ)} {n : Str} {p : V3 ℝ} (h : Literal d.metas n p) : Literal d.swapEnds.metas (otherEnd n) p := by
  obtain ⟨m, l, h1, h2⟩ := h
  exact ⟨{ m with name := otherEnd m.name }, l, by rw [look_swap, h1]; rfl, h2⟩

/-- the number of the variable that receives a point does not matter -/
theorem pointOf_slot (E : Env (Ext ℝ)) (v : Vis (Ext ℝ)) (hp : ∃ qs : List (V3 ℝ), v.points = qs.map V3.fin)
    (hr : ∃ r : M3 ℝ, v.rotation = r.fin) (ms : List (Meta (Ext ℝ))) (hf : ∀ m ∈ ms, m.val.IsFin) (i j : Nat) (n : Str) :
    pointOf E v i ms n = pointOf E v j ms n := by
  obtain ⟨qs, hq⟩ := hp
  obtain ⟨r, hr⟩ := hr
  unfold pointOf
  cases hm : look ms n with
  | none => rfl
  | some m =>
    have hfin := look_fin hf n m hm
    cases hv : m.val with
    | pt p =>
      rw [hv] at hfin
      obtain ⟨h1, h2, h3⟩ := invoke_indep qs (p.rot r.fin) (rot_isFin r hfin) E.junk E.junk (E.junk i) (E.junk j)
      simp only [hv, hq, hr, ← h1]
      split_ifs with hb
      · rw [(h3 hb).1]
      · rfl
    | _ => simp only [hv]

theorem pointOf_finite (E : Env (Ext ℝ)) (v : Vis (Ext ℝ)) (hp : ∃ qs : List (V3 ℝ), v.points = qs.map V3.fin)
    (hr : ∃ r : M3 ℝ, v.rotation = r.fin) (ms : List (Meta (Ext ℝ))) (hf : ∀ m ∈ ms, m.val.IsFin) (j : Nat) (n : Str) (p) (h : pointOf E v j ms n = some p) : p.IsFin :=
  (pointOf_indep E E.junk E.junkM v hp hr ms hf j n).2 p h

theorem legOf_slot (E : Env (Ext ℝ)) (v : Vis (Ext ℝ)) (hp : ∃ qs : List (V3 ℝ), v.points = qs.map V3.fin)
    (hr : ∃ r : M3 ℝ, v.rotation = r.fin) (d : DimN (Ext ℝ)) (hf : d.IsFin) (i j : Nat) (x : V3 (Ext ℝ)) (n n' : Str) :
    legOf E v i x d.swapEnds.metas (otherEnd n) (otherEnd n') = legOf E v j x d.metas n n' := by
  unfold legOf
  rw [look_swap, pointOf_swap, pointOf_swap, pointOf_slot E v hp hr d.metas hf i j, pointOf_slot E v hp hr d.metas hf (i + 1) (j + 1)]
  cases look d.metas n <;> rfl

theorem legOf_finite (E : Env (Ext ℝ)) (v : Vis (Ext ℝ)) (hp : ∃ qs : List (V3 ℝ), v.points = qs.map V3.fin)
    (hr : ∃ r : M3 ℝ, v.rotation = r.fin) (ms : List (Meta (Ext ℝ))) (hf : ∀ m ∈ ms, m.val.IsFin) (j : Nat) (x : V3 (Ext ℝ)) (hx : x.IsFin) (n n' : Str) (l)
    (h : legOf E v j x ms n n' = some l) : l.1.IsFin := by
  unfold legOf at h
  cases hl : look ms n with
  | some m =>
    rw [hl] at h
    cases h1 : pointOf E v j ms n with
    | none => rw [h1] at h; cases h
    | some p =>
      rw [h1] at h; cases h
      exact V3.okFin_normalized (pointOf_finite E v hp hr ms hf _ _ _ h1)
  | none =>
    rw [hl] at h
    dsimp only at h
    cases h1 : pointOf E v (j + 1) ms n' with
    | none => rw [h1] at h; cases h
    | some p =>
      rw [h1] at h; cases h
      obtain ⟨p', rfl⟩ := pointOf_finite E v hp hr ms hf _ _ _ h1
      obtain ⟨x', rfl⟩ := hx
      exact V3.okFin_normalized ⟨p' - x', by simp [V3.fin_sub]⟩

/-- an angle is drawn the same -/
theorem angle_swap (E : Env (Ext ℝ)) (v : Vis (Ext ℝ)) (hp : ∃ qs : List (V3 ℝ), v.points = qs.map V3.fin)
    (hr : ∃ r : M3 ℝ, v.rotation = r.fin) (d : DimN (Ext ℝ)) (hf : d.IsFin) (hk : d.kind = .angle) :
    drawnItems E v .angle d.swapEnds.metas = drawnItems E v .angle d.metas := by
  have pa := pointOf_swap E v 0 d c!"at"
  have px := pointOf_swap E v 1 d c!"apex"
  rw [show otherEnd c!"at" = c!"at" by decide] at pa
  rw [show otherEnd c!"apex" = c!"apex" by decide] at px
  simp only [drawnItems, pa, px, formatOf_swap, bind, Option.bind]
  cases h1 : pointOf E v 0 d.metas c!"at" with
  | none => rfl
  | some a =>
  cases h2 : pointOf E v 1 d.metas c!"apex" with
  | none => rfl
  | some x =>
  have hx := pointOf_finite E v hp hr d.metas hf _ _ _ h2
  dsimp only
  have e1 := legOf_slot E v hp hr d hf 2 4 x c!"to_dir" c!"to_point"
  have e2 := legOf_slot E v hp hr d hf 4 2 x c!"from_dir" c!"from_point"
  rw [show otherEnd c!"to_dir" = c!"from_dir" by decide, show otherEnd c!"to_point" = c!"from_point" by decide] at e1
  rw [show otherEnd c!"from_dir" = c!"to_dir" by decide, show otherEnd c!"from_point" = c!"to_point" by decide] at e2
  rw [e1, e2]
  cases h3 : legOf E v 2 x d.metas c!"from_dir" c!"from_point" with
  | none => cases h4 : legOf E v 4 x d.metas c!"to_dir" c!"to_point" <;> rfl
  | some f =>
  cases h4 : legOf E v 4 x d.metas c!"to_dir" c!"to_point" with
  | none => rfl
  | some t =>
  dsimp only
  cases formatOf E c!"%.1f" d.metas with
  | none => rfl
  | some g =>
  dsimp only
  obtain ⟨f', hf'⟩ := legOf_finite E v hp hr d.metas hf _ x hx _ _ _ h3
  obtain ⟨t', ht'⟩ := legOf_finite E v hp hr d.metas hf _ x hx _ _ _ h4
  have z1 : (t.1.cross f.1).z = (Ext.fin (t'.x * f'.y - t'.y * f'.x) : Ext ℝ) := by
    rw [hf', ht']; simp [V3.cross, V3.fin, V3.map]
  have z2 : (f.1.cross t.1).z = (Ext.fin (-(t'.x * f'.y - t'.y * f'.x)) : Ext ℝ) := by
    rw [hf', ht']; simp [V3.cross, V3.fin, V3.map]; ring
  rw [z1, z2]
  generalize t'.x * f'.y - t'.y * f'.x = z
  rcases lt_trichotomy z 0 with h | h | h
  · have a1 : FP.eq (Ext.fin z : Ext ℝ) (FP.lit 0) = false := by simp [h.ne]
    have a2 : FP.eq (Ext.fin (-z) : Ext ℝ) (FP.lit 0) = false := by simp [h.ne]
    have a3 : FP.lt (FP.lit 0) (Ext.fin z : Ext ℝ) = false := by simp [h.le]
    have a4 : FP.lt (FP.lit 0) (Ext.fin (-z) : Ext ℝ) = true := by simp [h]
    simp only [a1, a2, a3, a4, if_true, Bool.false_eq_true, if_false]
  · subst h; simp
  · have a1 : FP.eq (Ext.fin z : Ext ℝ) (FP.lit 0) = false := by simp [h.ne']
    have a2 : FP.eq (Ext.fin (-z) : Ext ℝ) (FP.lit 0) = false := by simp [h.ne']
    have a3 : FP.lt (FP.lit 0) (Ext.fin z : Ext ℝ) = true := by simp [h]
    have a4 : FP.lt (FP.lit 0) (Ext.fin (-z) : Ext ℝ) = false := by simp [h.le]
    simp only [a1, a2, a3, a4, if_true, Bool.false_eq_true, if_false]

/-- diameters and radii have no from and to -/
theorem circ_swap (E : Env (Ext ℝ)) (v : Vis (Ext ℝ)) (d : DimN (Ext ℝ)) (hk : d.kind = .dia ∨ d.kind = .rad) :
    drawnItems E v d.kind d.swapEnds.metas = drawnItems E v d.kind d.metas := by
  have p1 := pointOf_swap E v 0 d c!"at"
  have p2 := pointOf_swap E v 1 d c!"center"
  have p3 := pointOf_swap E v 2 d c!"dir"
  rw [show otherEnd c!"at" = c!"at" by decide] at p1
  rw [show otherEnd c!"center" = c!"center" by decide] at p2
  rw [show otherEnd c!"dir" = c!"dir" by decide] at p3
  rcases hk with h | h <;> rw [h] <;> simp only [drawnItems, drawnItems.circ, p1, p2, p3, formatOf_swap]

/-! ## Linear dimensions -/

theorem sameStrokes_append {α : Type} {a b c d : List (Line α)} (h1 : SameStrokes a b) (h2 : SameStrokes c d) : SameStrokes (a ++ c) (b ++ d) := by
  obtain ⟨k, p, q⟩ := h1
  obtain ⟨l, r, t⟩ := h2
  exact ⟨k ++ l, p.append r, List.rel_append q t⟩

theorem sameStrokes_refl {α : Type} (ls : List (Line α)) : SameStrokes ls ls := by
  refine ⟨ls, .refl _, ?_⟩
  induction ls with
  | nil => exact .nil
  | cons l ls ih => exact .cons (Or.inl rfl) ih

theorem sameStrokes_map {α β : Type} (h : V2 α → V2 β) {ls ms : List (Line α)} (hs : SameStrokes ls ms) :
    SameStrokes (ls.map (fun l => (⟨h l.o, h l.t⟩ : Line β))) (ms.map (fun l => (⟨h l.o, h l.t⟩ : Line β))) := by
  obtain ⟨ks, p, q⟩ := hs
  refine ⟨ks.map (fun l => (⟨h l.o, h l.t⟩ : Line β)), p.map _, ?_⟩
  rw [List.forall₂_map_left_iff, List.forall₂_map_right_iff]
  exact q.imp fun k m hkm => by
    rcases hkm with rfl | rfl
    · exact Or.inl rfl
    · exact Or.inr rfl

theorem swap_pairs {β : Type} (a b c d e f g h : β) : [a, b, c, d, e, f, g, h].Perm [b, a, d, c, h, g, f, e] :=
  List.Perm.append (l₁ := [a, b]) (l₂ := [b, a]) (List.Perm.swap _ _ _)
    (List.Perm.append (l₁ := [c, d]) (l₂ := [d, c]) (List.Perm.swap _ _ _) (List.reverse_perm [e, f, g, h]).symm)

theorem sideOf_neg {a e p : V2 ℝ} (h : (p - a).dot e.left ≠ 0) : sideOf a (-e) p = - sideOf a e p := by
  have e1 : (p - a).dot (-e).left = -((p - a).dot e.left) := by simp [V2.dot, V2.left]; ring
  unfold sideOf
  rw [e1]
  rcases lt_or_gt_of_ne h with h | h
  · rw [if_pos (by linarith), if_neg (by linarith)]; norm_num
  · rw [if_neg (by linarith), if_pos h]

/-- the strokes drawn from the other end -/
theorem strokes_swap (fits : Prop) [Decidable fits] (g : ℝ) (a f t f' t' e : V2 ℝ) (hf : (f - a).dot e.left ≠ 0) (ht : (t - a).dot e.left ≠ 0) :
    SameStrokes (dimStrokes fits g a f t f' t' e) (dimStrokes fits g a t f t' f' (-e)) := by
  unfold dimStrokes
  dsimp only
  rw [sideOf_neg hf, sideOf_neg ht]
  by_cases h : fits
  · simp only [h, if_true, List.cons_append, List.nil_append]
    refine ⟨_, swap_pairs _ _ _ _ _ _ _ _, ?_⟩
    refine .cons (Or.inr ?_) (.cons (Or.inr ?_) (.cons (Or.inl ?_) (.cons (Or.inl ?_) (.cons (Or.inl ?_) (.cons (Or.inl ?_) (.cons (Or.inl ?_) (.cons (Or.inl ?_) .nil)))))))
    all_goals
      simp only [Line.mk.injEq, true_and, and_true]
    all_goals
      first
        | refine ⟨?_, ?_⟩ <;> ext <;> simp [V2.left, V2.smul] <;> ring
        | ext <;> simp [V2.left, V2.smul] <;> ring
  · simp only [h, if_false, List.cons_append, List.nil_append]
    refine ⟨_, swap_pairs _ _ _ _ _ _ _ _, ?_⟩
    refine .cons (Or.inl ?_) (.cons (Or.inl ?_) (.cons (Or.inl ?_) (.cons (Or.inl ?_) (.cons (Or.inl ?_) (.cons (Or.inl ?_) (.cons (Or.inl ?_) (.cons (Or.inl ?_) .nil)))))))
    all_goals
      simp only [Line.mk.injEq, true_and, and_true]
    all_goals
      first
        | refine ⟨?_, ?_⟩ <;> ext <;> simp [V2.left, V2.smul] <;> ring
        | ext <;> simp [V2.left, V2.smul] <;> ring

/-- a dimension line that appears as a point -/
theorem dimItems_dot (gm : Ext ℝ → Str) (s : ℝ) (hs : 0 < s) (a n f t f' t' : V3 ℝ)
    (hf : a + n.smul (n.dot (f - a)) = f') (ht : a + n.smul (n.dot (t - a)) = t') (hx : t'.x = f'.x) (hy : t'.y = f'.y) :
    (dimItems gm (.fin s) a.fin n.fin f.fin t.fin).lines =
      [⟨f'.xy, f'.xy⟩, ⟨f'.xy, f'.xy⟩, ⟨f'.xy, f.xy⟩, ⟨f'.xy, t.xy⟩, ⟨f'.xy, f'.xy⟩, ⟨f'.xy, f'.xy⟩, ⟨f'.xy, f'.xy⟩, ⟨f'.xy, f'.xy⟩].map
        (fun l : Line ℝ => (⟨l.o.fin, l.t.fin⟩ : Line (Ext ℝ))) := by
  have eF : (a.fin + n.fin.smul (n.fin.dot (f.fin - a.fin)) : V3 (Ext ℝ)) = f'.fin := by
    rw [V3.fin_sub, V3.fin_dot, V3.fin_smul, V3.fin_add, hf]
  have eT : (a.fin + n.fin.smul (n.fin.dot (t.fin - a.fin)) : V3 (Ext ℝ)) = t'.fin := by
    rw [V3.fin_sub, V3.fin_dot, V3.fin_smul, V3.fin_add, ht]
  have ha : ((⟨(t'.fin - f'.fin).x, (t'.fin - f'.fin).y, FP.lit 0⟩ : V3 (Ext ℝ)).normalized.sdiv (.fin s)) = V3.fin ⟨0, 0, 0⟩ := by
    have h1 : ((⟨(t'.fin - f'.fin).x, (t'.fin - f'.fin).y, FP.lit 0⟩ : V3 (Ext ℝ))) = V3.fin ⟨0, 0, 0⟩ := by
      rw [V3.fin_sub]; simp [V3.map, hx, hy]
    rw [h1, normalized_zero, V3.fin_sdiv _ _ hs.ne']
    simp [V3.sdiv]
  have hn : ((t'.fin - f'.fin).norm : Ext ℝ) = .fin (len3 (t' - f')) := by rw [V3.fin_sub, norm_real]
  have hi : ∀ w : ℝ, 0 < w → FP.abs (Ext.fin w / Ext.fin 0) = (Ext.pinf : Ext ℝ) := by
    intro w hw
    rw [Ext.fin_div_zero]; simp [Ext.infSign, hw, hw.ne', FP.abs, FP.lt, Ext.lt]
  have hgap : (FP.min (FP.abs ((FP.lit kFontSize * FP.lit (3 / 10) * FP.lit ((gm (.fin (len3 (t' - f')))).length) + FP.lit 1) / Ext.fin 0))
      (FP.abs ((FP.lit kFontSize * FP.lit (333 / 1000) + FP.lit 1) / Ext.fin 0)) / Ext.fin s : Ext ℝ) = .pinf := by
    simp only [kFontSize, Ext.lit_eq, Ext.fin_mul, Ext.fin_add]
    rw [hi _ (by push_cast; positivity), hi _ (by norm_num)]
    simp [FP.min, FP.lt, Ext.lt, hs, hs.le, HDiv.hDiv, Div.div, Ext.div]
  unfold dimItems
  dsimp only
  rw [eF, eT, hn, ha]
  simp only [V3.fin_x, V3.fin_y, hgap]
  have hb : (⟨-Ext.fin 0, Ext.fin 0, FP.lit 0⟩ : V3 (Ext ℝ)) = V3.fin ⟨0, 0, 0⟩ := by simp [V3.map]
  have hc : FP.lt (Ext.pinf * FP.lit 2 : Ext ℝ) (Ext.fin (len3 (t' - f')) * Ext.fin s) = false := by
    rw [Ext.lit_eq, Ext.fin_mul]
    have : (Ext.pinf * Ext.fin ((2 : ℚ) : ℝ) : Ext ℝ) = .pinf := by
      change Ext.infSign ((2 : ℚ) : ℝ) = _
      simp [Ext.infSign]
    rw [this]
    rfl
  simp only [hb, hc]
  have hz : ∀ p : V3 ℝ, FP.lt (FP.lit 0 : Ext ℝ) ((p.fin - a.fin).dot (V3.fin ⟨0, 0, 0⟩)) = false := by
    intro p; rw [V3.fin_sub, V3.fin_dot, Ext.lit_eq, Ext.fin_lt]; simp [V3.dot]
  simp only [hz, Bool.false_eq_true, if_false, List.map_cons, List.map_nil, List.cons_append, List.nil_append, Line.of3,
      V3.fin_smul, V3.fin_add, V3.fin_sub, V3.fin_neg, Ext.lit_eq]
  simp [V3.smul, V3.xy, V2.map, V3.map, hx, hy]

/-- the foot of a point -/
noncomputable def footAt (a u p : V3 ℝ) : V3 ℝ := a + u.smul ((p - a).dot u / u.dot u)

theorem foot_at {u : V3 ℝ} (hne : u ≠ ⟨0, 0, 0⟩) (a p : V3 ℝ) : Foot a u p (footAt a u p) := by
  have hp := len3_pos hne
  have h0 : u.dot u ≠ 0 := by
    have : len3 u * len3 u = u.dot u := by rw [len3_mul_self]; rfl
    rw [← this]; positivity
  refine ⟨⟨_, rfl⟩, ?_⟩
  have : (p - footAt a u p).dot u = (p - a).dot u - (p - a).dot u / u.dot u * u.dot u := by
    simp only [footAt]
    generalize (p - a).dot u / u.dot u = k
    simp [V3.dot, V3.smul]; ring
  rw [this, div_mul_cancel₀ _ h0, sub_self]

theorem dim_accepted {E : Env (Ext ℝ)} {v : Vis (Ext ℝ)} {r : M3 ℝ} (hv : v.rotation = r.fin) {x : DimN (Ext ℝ)} (hk : x.kind = .dim) {a u f t : V3 ℝ}
    (ha : Literal x.metas c!"at" a) (hu : Literal x.metas c!"dir" u) (hf : Literal x.metas c!"from" f) (ht : Literal x.metas c!"to" t) (P)
    (h : drawnItems E v x.kind x.metas = some P) :
    u.mulM r ≠ ⟨0, 0, 0⟩ ∧ ∃ g, formatOf E c!"%.3f" x.metas = some g ∧
      P = dimItems g v.scale (a.mulM r).fin (u.mulM r).fin.normalized (f.mulM r).fin (t.mulM r).fin := by
  rw [hk] at h
  simp only [drawnItems, literal_point hv ha, literal_point hv hu, literal_point hv hf, literal_point hv ht, bind, Option.bind] at h
  cases hg : formatOf E c!"%.3f" x.metas with
  | none => rw [hg] at h; cases h
  | some g =>
    rw [hg] at h
    dsimp only at h
    split_ifs at h with hz
    cases h
    refine ⟨?_, g, rfl, rfl⟩
    intro h0
    rw [h0] at hz
    simp [V3.eqv, V3.zero, V3.map] at hz

/-- a linear dimension looks the same -/
theorem dim_swap {E : Env (Ext ℝ)} (hJ : E.NotAView) {v : Vis (Ext ℝ)} {r : M3 ℝ} (hr : IsRotation r) (hv : v.rotation = r.fin) {s : ℝ} (hs : 0 < s)
    (hsc : v.scale = .fin s) {d : V2 ℝ} (hd : v.d = d.fin) {x : DimN (Ext ℝ)} (hk : x.kind = .dim) (hg : GoodDim x.kind x.metas) (hc : x.Clear r)
    (P L) (h : dimContent E v x = .ok (true, P, L)) : ∃ P' L', dimContent E v x.swapEnds = .ok (true, P', L') ∧ SamePicture P P' := by
  obtain ⟨a, u, f, t, ha, hu, hf, ht, hclear⟩ := hc hk
  have hvj : v.rotation.eqv E.junkM = false := by rw [hv]; exact hJ r hr
  have hk' : x.swapEnds.kind = .dim := hk
  have hg' := goodDim_swap hg
  have ha' := literal_swap ha
  have hu' := literal_swap hu
  have hf' := literal_swap hf
  have ht' := literal_swap ht
  rw [show otherEnd c!"at" = c!"at" by decide] at ha'
  rw [show otherEnd c!"dir" = c!"dir" by decide] at hu'
  rw [show otherEnd c!"from" = c!"to" by decide] at hf'
  rw [show otherEnd c!"to" = c!"from" by decide] at ht'
  obtain ⟨b1, b2⟩ := dimContent_items E v x hvj
  cases hi : drawnItems E v x.kind x.metas with
  | none => obtain ⟨L', e⟩ := b2 (Or.inr hi); rw [h] at e; cases e
  | some Q =>
  obtain ⟨hne', g, hfmt, -⟩ := dim_accepted hv hk ha hu hf ht Q hi
  have hne : u ≠ ⟨0, 0, 0⟩ := by
    rintro rfl
    exact hne' (by ext <;> simp [V3.mulM])
  have hfmt' : formatOf E c!"%.3f" x.swapEnds.metas = some g := by rw [formatOf_swap]; exact hfmt
  have eshown : shown u t f = shown u f t := by
    unfold shown
    rw [← abs_neg]; congr 2; simp [V3.dot]; ring
  obtain ⟨P1, L1, c1, c2⟩ := C40_label E hJ v r hr hv x hk hg a u f t ha hu hf ht g hfmt hne
  obtain ⟨P2, L2, d1, d2⟩ := C40_label E hJ v r hr hv x.swapEnds hk' hg' a u t f ha' hu' ht' hf' g hfmt' hne
  rw [h] at c1; cases c1
  have etext : P2.text = P.text := by
    have e1 : |(f - t).dot u| / len3 u = |(t - f).dot u| / len3 u := eshown
    rw [d2, c2, e1]
  have gF := foot_at hne a f
  have gT := foot_at hne a t
  by_cases hdot : (u.mulM r).xy = ⟨0, 0⟩ ∨ (t - f).dot u = 0
  · -- the line is seen as a point
    have vf := foot_view hr hne gF
    have vt := foot_view hr hne gT
    have hxy : ((footAt a u t).mulM r).x = ((footAt a u f).mulM r).x ∧ ((footAt a u t).mulM r).y = ((footAt a u f).mulM r).y := by
      rcases hdot with h0 | h0
      · have hx : (u.mulM r).x = 0 := congrArg V2.x h0
        have hy : (u.mulM r).y = 0 := congrArg V2.y h0
        have e : ∀ p, ((footAt a u p).mulM r).x = (a.mulM r).x ∧ ((footAt a u p).mulM r).y = (a.mulM r).y := by
          intro p
          simp only [footAt]
          generalize (p - a).dot u / u.dot u = k
          constructor
          · have : ((a + u.smul k).mulM r).x = (a.mulM r).x + k * (u.mulM r).x := by simp [V3.mulM, V3.smul]; ring
            rw [this, hx]; ring
          · have : ((a + u.smul k).mulM r).y = (a.mulM r).y + k * (u.mulM r).y := by simp [V3.mulM, V3.smul]; ring
            rw [this, hy]; ring
        rw [(e t).1, (e t).2, (e f).1, (e f).2]; exact ⟨rfl, rfl⟩
      · have : footAt a u t = footAt a u f := by
          unfold footAt
          have : (t - a).dot u = (f - a).dot u := by
            have e : (t - a).dot u = (f - a).dot u + (t - f).dot u := by simp [V3.dot]; ring
            rw [e, h0, add_zero]
          rw [this]
        rw [this]; exact ⟨rfl, rfl⟩
    have q1 := dimItems_dot g s hs (a.mulM r) ((u.mulM r).sdiv (len3 u)) (f.mulM r) (t.mulM r) _ _ vf vt hxy.1 hxy.2
    have q2 := dimItems_dot g s hs (a.mulM r) ((u.mulM r).sdiv (len3 u)) (t.mulM r) (f.mulM r) _ _ vt vf hxy.1.symm hxy.2.symm
    have hn : ((u.mulM r).fin.normalized : V3 (Ext ℝ)) = ((u.mulM r).sdiv (len3 u)).fin := by rw [normalized_real hne', rot_len hr]
    obtain ⟨-, g1, w1, w2⟩ := dim_accepted hv hk ha hu hf ht Q hi
    rw [hfmt] at w1; cases w1
    obtain ⟨L3, e3⟩ := b1 Q hg hi
    rw [h] at e3
    have hz : (u.mulM r).fin.eqv (V3.zero : V3 (Ext ℝ)) = false := by
      by_contra hc
      rw [Bool.not_eq_false] at hc
      apply hne'
      simp [V3.eqv, V3.zero, V3.map] at hc
      obtain ⟨⟨h1, h2⟩, h3⟩ := hc
      ext <;> assumption
    have hi' : drawnItems E v x.swapEnds.kind x.swapEnds.metas =
        some (dimItems g v.scale (a.mulM r).fin (u.mulM r).fin.normalized (t.mulM r).fin (f.mulM r).fin) := by
      rw [hk']
      simp only [drawnItems, literal_point hv ha', literal_point hv hu', literal_point hv hf', literal_point hv ht', hfmt', bind, Option.bind, hz]
      rfl
    obtain ⟨L4, e4⟩ := (dimContent_items E v x.swapEnds hvj).1 _ hg' hi'
    rw [d1] at e4
    injection e3 with e3; injection e3 with _ e3; injection e3 with e3 _
    injection e4 with e4; injection e4 with _ e4; injection e4 with e4 _
    refine ⟨P2, L2, d1, ⟨?_, ?_, etext⟩⟩
    · rw [e3, e4, w2, hsc, hn]
      simp only [OutPage.moved]
      refine sameStrokes_map (fun p => V2.moved p (Ext.fin s) v.d) ?_
      rw [q1, q2]
      refine sameStrokes_map V2.fin ?_
      have ex : ((footAt a u t).mulM r).xy = ((footAt a u f).mulM r).xy := by
        simp only [V3.xy, hxy.1, hxy.2]
      rw [ex]
      exact ⟨_, List.Perm.cons _ (List.Perm.cons _ (List.Perm.swap _ _ _)), by simp⟩
    · rw [e3, e4, w2]; rfl
  · rw [not_or] at hdot
    obtain ⟨h1, h2⟩ := hdot
    have hpb : PassesBy r a u f ∧ PassesBy r a u t := by
      rcases hclear with h | h | h
      · exact h
      · exact absurd h h1
      · exact absurd h h2
    have huu : 0 < u.dot u := by
      have : len3 u * len3 u = u.dot u := by rw [len3_mul_self]; rfl
      have hp := len3_pos hne
      rw [← this]; positivity
    -- the vector from one foot to the other on the page
    obtain ⟨κ, hκ0, hκ⟩ : ∃ κ : ℝ, κ ≠ 0 ∧ onPage r s d (footAt a u t) = onPage r s d (footAt a u f) + (u.mulM r).xy.smul κ := by
      refine ⟨(t - f).dot u / u.dot u * s, mul_ne_zero (div_ne_zero h2 huu.ne') hs.ne', ?_⟩
      have e : (t - a).dot u / u.dot u = (f - a).dot u / u.dot u + (t - f).dot u / u.dot u := by
        rw [← add_div]; congr 1; simp [V3.dot]; ring
      simp only [footAt, e]
      generalize (f - a).dot u / u.dot u = k
      generalize (t - f).dot u / u.dot u = l
      ext <;> simp [onPage, V3.mulM, V3.smul, V2.smul, V3.xy] <;> ring
    have hN : 0 < (u.mulM r).x ^ 2 + (u.mulM r).y ^ 2 := by
      by_contra hc
      have a1 : (u.mulM r).x = 0 := by nlinarith [sq_nonneg (u.mulM r).x, sq_nonneg (u.mulM r).y]
      have a2 : (u.mulM r).y = 0 := by nlinarith [sq_nonneg (u.mulM r).x, sq_nonneg (u.mulM r).y]
      exact h1 (by ext <;> simp [V3.xy, a1, a2])
    set N := Real.sqrt ((u.mulM r).x ^ 2 + (u.mulM r).y ^ 2) with hNdef
    have hN0 : 0 < N := Real.sqrt_pos.2 hN
    have hNN : N * N = (u.mulM r).x ^ 2 + (u.mulM r).y ^ 2 := Real.mul_self_sqrt hN.le
    obtain ⟨e, μ, hl0, hunit, hle, hD⟩ : ∃ (e : V2 ℝ) (m : ℝ), m ≠ 0 ∧ e.x ^ 2 + e.y ^ 2 = 1 ∧ e = (u.mulM r).xy.smul m ∧
        (u.mulM r).xy.smul κ = e.smul (N * |κ|) := by
      rcases lt_or_gt_of_ne hκ0 with hneg | hpos
      · refine ⟨(u.mulM r).xy.smul (-1 / N), -1 / N, by simp [hN0.ne'], ?_, rfl, ?_⟩
        · simp only [V2.smul, V3.xy]; field_simp; linarith
        · rw [abs_of_neg hneg]
          ext <;> simp only [V2.smul] <;> field_simp
      · refine ⟨(u.mulM r).xy.smul (1 / N), 1 / N, by simp [hN0.ne'], ?_, rfl, ?_⟩
        · simp only [V2.smul, V3.xy]; field_simp; linarith
        · rw [abs_of_pos hpos]
          ext <;> simp only [V2.smul] <;> field_simp
    have hDpos : 0 < N * |κ| := mul_pos hN0 (abs_pos.2 hκ0)
    have C1 : DimCase E v x r s d a u f t (footAt a u f) (footAt a u t) g e := ⟨hJ, hr, hv, hsc, hs, hd, hk, hg, ha, hu, hf, ht, hfmt, gF, gT, hunit, _, hDpos, by rw [hκ, hD]⟩
    have C2 : DimCase E v x.swapEnds r s d a u t f (footAt a u t) (footAt a u f) g (-e) := ⟨hJ, hr, hv, hsc, hs, hd, hk', hg', ha', hu', ht', hf', hfmt', gT, gF,
      by simpa using hunit, _, hDpos, by rw [hκ, hD]; ext <;> simp [V2.smul]⟩
    obtain ⟨G, hG⟩ := leaves_exists (labelW (g (.fin (shown u f t))).length) labelH (by unfold labelW; positivity) (by unfold labelH; norm_num) e hunit
    have hG' : Leaves (labelW (g (.fin (shown u t f))).length) labelH (-e) G := by
      rw [eshown]; simpa [Leaves] using hG
    obtain ⟨Q1, M1, s1, s2, s3⟩ := C63_strokes C1 G hG
    obtain ⟨Q2, M2, t1, t2, t3⟩ := C63_strokes C2 G hG'
    rw [h] at s1; cases s1
    rw [d1] at t1; cases t1
    refine ⟨P2, L2, d1, ⟨?_, by rw [s2, t2], etext⟩⟩
    rw [s3, t3]
    refine sameStrokes_map V2.fin ?_
    have off : ∀ p, PassesBy r a u p → (onPage r s d p - onPage r s d a).dot e.left ≠ 0 := by
      intro p hp
      have : (onPage r s d p - onPage r s d a).dot e.left = s * μ * ((p - a).mulM r).xy.dot (u.mulM r).xy.left := by
        rw [hle, rot_sub]
        simp [onPage, V2.dot, V2.left, V2.smul, V3.xy]; ring
      rw [this]
      exact mul_ne_zero (mul_ne_zero hs.ne' hl0) hp
    simp only [eshown]
    exact strokes_swap _ G _ _ _ _ _ e (off f hpb.1) (off t hpb.2)

/-- the same, wherever the drawing is placed -/
theorem dim_swap' {E : Env (Ext ℝ)} (hJ : E.NotAView) {v : Vis (Ext ℝ)} {r : M3 ℝ} (hr : IsRotation r) (hv : v.rotation = r.fin) {s : ℝ} (hs : 0 < s)
    (hsc : v.scale = .fin s) {x : DimN (Ext ℝ)} (hk : x.kind = .dim) (hg : GoodDim x.kind x.metas) (hc : x.Clear r)
    (P L) (h : dimContent E v x = .ok (true, P, L)) : ∃ P' L', dimContent E v x.swapEnds = .ok (true, P', L') ∧ SamePicture P P' := by
  let v0 : Vis (Ext ℝ) := { v with d := V2.fin ⟨0, 0⟩ }
  have hvj : v.rotation.eqv E.junkM = false := by rw [hv]; exact hJ r hr
  obtain ⟨b1, b2⟩ := dimContent_items E v x hvj
  obtain ⟨c1, c2⟩ := dimContent_items E v0 x hvj
  cases hi : drawnItems E v x.kind x.metas with
  | none => obtain ⟨L', e⟩ := b2 (Or.inr hi); rw [h] at e; cases e
  | some Q =>
  obtain ⟨L1, e1⟩ := b1 Q hg hi
  rw [h] at e1; cases e1
  obtain ⟨L2, e2⟩ := c1 Q hg hi
  obtain ⟨P', L', e3, e4⟩ := dim_swap hJ hr (v := v0) hv hs hsc (d := ⟨0, 0⟩) rfl hk hg hc _ _ e2
  have hg' := goodDim_swap hg
  obtain ⟨d1, d2⟩ := dimContent_items E v x.swapEnds hvj
  obtain ⟨f1, f2⟩ := dimContent_items E v0 x.swapEnds hvj
  cases hi' : drawnItems E v x.swapEnds.kind x.swapEnds.metas with
  | none => obtain ⟨L', e⟩ := f2 (Or.inr hi'); rw [e3] at e; cases e
  | some Q' =>
  obtain ⟨L3, e5⟩ := d1 Q' hg' hi'
  obtain ⟨L4, e6⟩ := f1 Q' hg' hi'
  rw [e3] at e6; cases e6
  refine ⟨_, L3, e5, ?_⟩
  have hm : ∀ p : V2 (Ext ℝ), p.moved v.scale v.d = p.moved v0.scale v0.d + v.d := by
    intro p
    have hz : ∀ a : Ext ℝ, a + Ext.fin 0 = a := by
      intro a
      cases a with
      | fin a => rw [Ext.fin_add, add_zero]
      | _ => rfl
    ext1
    · change p.x * v.scale + v.d.x = p.x * v.scale + Ext.fin 0 + v.d.x
      rw [hz]
    · change p.y * v.scale + v.d.y = p.y * v.scale + Ext.fin 0 + v.d.y
      rw [hz]
  have ha : Q'.arcs = [] ∧ Q.arcs = [] := by
    have : ∀ (d : DimN (Ext ℝ)), d.kind = .dim → ∀ Q, drawnItems E v d.kind d.metas = some Q → Q.arcs = [] := by
      intro d hd Q hQ
      rw [hd] at hQ
      simp only [drawnItems, bind, Option.bind] at hQ
      cases h1 : pointOf E v 0 d.metas c!"at" <;> simp only [h1] at hQ
      · cases hQ
      cases h2 : pointOf E v 1 d.metas c!"dir" <;> simp only [h2] at hQ
      · cases hQ
      cases h3 : pointOf E v 2 d.metas c!"from" <;> simp only [h3] at hQ
      · cases hQ
      cases h4 : pointOf E v 3 d.metas c!"to" <;> simp only [h4] at hQ
      · cases hQ
      cases h5 : formatOf E c!"%.3f" d.metas <;> simp only [h5] at hQ
      · cases hQ
      split_ifs at hQ
      cases hQ
      rfl
    exact ⟨this x.swapEnds hk _ hi', this _ hk _ hi⟩
  refine ⟨?_, by simp only [OutPage.moved, ha.1, ha.2, List.map_nil], ?_⟩
  · have := sameStrokes_map (fun p => p + v.d) e4.lines
    simp only [OutPage.moved, List.map_map, Function.comp_def] at this ⊢
    simp only [hm]
    exact this
  · have := congrArg (List.map (fun t : PsText (Ext ℝ) => { t with at_ := t.at_ + v.d })) e4.text
    simp only [OutPage.moved, List.map_map, Function.comp_def] at this ⊢
    simp only [hm]
    exact this

/-! ## Drawings and pages of which the parts correspond -/

/-- a relation between pages that respects putting them together -/
structure Piecewise {α : Type} (R : OutPage α → OutPage α → Prop) : Prop where
  refl : ∀ P, R P P
  app : ∀ P P' Q Q', R P P' → R Q Q' → R (P.app Q) (P'.app Q')

theorem Piecewise.sum {α : Type} {R : OutPage α → OutPage α → Prop} (hR : Piecewise R) {Ps Qs : List (OutPage α)} (h : List.Forall₂ R Ps Qs) :
    R (OutPage.sum Ps) (OutPage.sum Qs) := by
  induction h with
  | nil => exact hR.refl _
  | cons h _ ih => exact hR.app _ _ _ _ h ih

theorem piecewise_eq {α : Type} : Piecewise (fun P Q : OutPage α => Q = P) := ⟨fun _ => rfl, fun _ _ _ _ h1 h2 => by rw [h1, h2]⟩

theorem piecewise_same {α : Type} : Piecewise (SamePicture (α := α)) :=
  ⟨fun P => ⟨sameStrokes_refl _, rfl, rfl⟩, fun P P' Q Q' h1 h2 => ⟨sameStrokes_append h1.lines h2.lines,
    by simp only [OutPage.app, h1.arcs, h2.arcs], by simp only [OutPage.app, h1.text, h2.text]⟩⟩

/-- an accepted drawing, and one with corresponding dimensions -/
theorem draw_alike {E : Env (Ext ℝ)} (hS : SortOK E.sorter) (hJ : E.NotAView) {stl : Models (Ext ℝ)} (hM : stl.Made) {name : Str} {ms : List (Meta (Ext ℝ))}
    {dims dims' : List (DimN (Ext ℝ))} {line : Nat} (hfin' : (Drawable.draw name ms dims' line).IsFin) (hat : (Drawable.draw name ms dims line).AtLoc) {c}
    (h : content E stl (.draw name ms dims line) = .ok c) (hc : c.1 = true) {R : OutPage (Ext ℝ) → OutPage (Ext ℝ) → Prop} (hR : Piecewise R)
    (hd : ∀ sc r loc file proj ls, Drawn E stl name ms sc (M3.fin r) loc file proj ls → IsRotation r →
      (∃ qs : List (V3 ℝ), proj.cull.points = qs.map V3.fin) →
      List.Forall₂ (fun d d' => ∀ P L, GoodDim d.kind d.metas → dimContent E (drawStart (initVis E) sc r.fin loc proj.cull ls) d = .ok (true, P, L) →
        ∃ P' L', dimContent E (drawStart (initVis E) sc r.fin loc proj.cull ls) d' = .ok (true, P', L') ∧ R P P') dims dims') :
    ∃ c', content E stl (.draw name ms dims' line) = .ok c' ∧ c'.1 = true ∧ R c.2.1 c'.2.1 := by
  rcases draw_sum E stl name ms dims line c h with ⟨h1, -⟩ | ⟨sc, rot, loc, file, proj, ls, cs, hD, hcs, hp, hok, -⟩
  · rw [h1] at hc; cases hc
  obtain ⟨r, rfl, hr⟩ := viewOf_rotation _ (look_fin hfin'.1 _) _ hD.view
  obtain ⟨en, hen, hfile⟩ := hD.model
  obtain ⟨file', hf', hmade⟩ := hM en (List.mem_of_find?_eq_some hen)
  rw [hfile] at hf'; injection hf' with hf'; subst hf'
  obtain ⟨qs, hqs, -⟩ := points_seen E.sorter hS file proj hmade r hr hD.turned ls hD.lines
  have hrel := hd sc r loc file proj ls hD hr ⟨qs, hqs⟩
  obtain ⟨hall, hnames⟩ := hok.1 hc
  obtain ⟨c', hc'⟩ := content_ok E hS hJ stl hM (.draw name ms dims' line) hfin' hat
  refine ⟨c', hc', ?_⟩
  rcases draw_sum E stl name ms dims' line c' hc' with ⟨-, -, -, h1⟩ | ⟨sc', rot', loc', file', proj', ls', cs', hD', hcs', hp', hok', -⟩
  · exact absurd ⟨_, _, _, _, _, _, hD⟩ h1
  obtain ⟨rfl, rfl, rfl, rfl, rfl, rfl⟩ := drawn_unique hD hD'
  have hvj : (drawStart (initVis E) sc r.fin loc proj.cull ls).rotation.eqv E.junkM = false := hJ r hr
  generalize drawStart (initVis E) sc r.fin loc proj.cull ls = v at *
  have gen : ∀ (ds ds' : List (DimN (Ext ℝ))) (cs cs' : List (Bool × OutPage (Ext ℝ) × List Diag)),
      List.Forall₂ (fun d d' => ∀ P L, GoodDim d.kind d.metas → dimContent E v d = .ok (true, P, L) → ∃ P' L', dimContent E v d' = .ok (true, P', L') ∧ R P P') ds ds' →
      List.Forall₂ (fun d k => dimContent E v d = .ok k) ds cs → List.Forall₂ (fun d k => dimContent E v d = .ok k) ds' cs' → (∀ k ∈ cs, k.1 = true) →
      (∀ k ∈ cs', k.1 = true) ∧ List.Forall₂ R (cs.map (fun k => k.2.1)) (cs'.map (fun k => k.2.1)) := by
    intro ds ds' cs cs' h1
    induction h1 generalizing cs cs' with
    | nil => intro h2 h3 _; cases h2; cases h3; exact ⟨by simp, .nil⟩
    | @cons d d' ds ds' hdd _ ih =>
      intro h2 h3 h4
      cases h2 with
      | @cons _ k _ cs k1 k2 =>
      cases h3 with
      | @cons _ k' _ cs' m1 m2 =>
      obtain ⟨i1, i2⟩ := ih cs cs' k2 m2 (fun x hx => h4 x (List.mem_cons_of_mem _ hx))
      have hk := h4 k List.mem_cons_self
      have hg : GoodDim d.kind d.metas := by
        by_contra hg
        obtain ⟨L, e⟩ := (dimContent_items E v d hvj).2 (Or.inl hg)
        rw [k1] at e; cases e; cases hk
      obtain ⟨b, P, L⟩ := k
      dsimp only at hk
      subst hk
      obtain ⟨P', L', e, hRP⟩ := hdd P L hg k1
      rw [m1] at e; cases e
      refine ⟨?_, .cons hRP i2⟩
      intro x hx
      rcases List.mem_cons.1 hx with rfl | hx
      · rfl
      · exact i1 x hx
  obtain ⟨g1, g2⟩ := gen dims dims' cs cs' hrel hcs hcs' hall
  exact ⟨hok'.2 ⟨g1, hnames⟩, by rw [hp', hp]; exact hR.app _ _ _ _ (hR.refl _) (hR.sum g2)⟩

theorem header_app {α : Type} [FP α] (t : Str) : ∃ H : OutPage α, ∀ P, addHeader P t = P.app H := by
  refine ⟨addHeader OutPage.empty t, fun P => ?_⟩
  simp [addHeader, OutPage.app, OutPage.empty]

/-- Two documents of which corresponding drawings are alike give pages that are alike. -/
theorem pages_rel {α : Type} [FP α] {R : OutPage α → OutPage α → Prop} (hR : Piecewise R) (E : Env α) (stl stl' : Models α) (models models' : List ModelN)
    (pgs pgs' : List (PageN α)) (g : GenRes α) (h : generatePages E stl ⟨models, pgs⟩ [] = .ok g) (hok : g.ok = true)
    (hp : List.Forall₂ (fun p p' => p'.metas = p.metas ∧ List.Forall₂ (fun d d' => ∀ c, content E stl d = .ok c → c.1 = true →
      ∃ c', content E stl' d' = .ok c' ∧ c'.1 = true ∧ R c.2.1 c'.2.1) p.draws p'.draws) pgs pgs') :
    ∃ g', generatePages E stl' ⟨models', pgs'⟩ [] = .ok g' ∧ g'.ok = true ∧ List.Forall₂ R g.pages g'.pages := by
  obtain ⟨k1, k2'⟩ := generatePages_each E stl _ g h
  have k2 := k2'.1 hok
  clear k2'
  dsimp only at k1 k2
  have each : List.Forall₂ (fun (p' : PageN α) o => ∃ g o', onePage E stl' p' = .ok g ∧ g.ok = true ∧ g.pages = [o'] ∧ R o o') pgs' g.pages ∧
      ∀ p' ∈ pgs', ∀ d ∈ p'.draws, ∃ c, content E stl' d = .ok c := by
    generalize g.pages = os at k1
    clear h
    induction hp generalizing os with
    | nil => cases k1; exact ⟨.nil, by simp⟩
    | @cons p p' ps ps' hpp _ ih =>
      cases k1 with
      | @cons _ o _ os t1 t2 =>
        obtain ⟨i1, i2⟩ := ih (fun x hx => k2 x (List.mem_cons_of_mem _ hx)) os t2
        obtain ⟨g1, e1, e2⟩ := t1
        obtain ⟨g1', e1', e3⟩ := k2 p List.mem_cons_self
        rw [e1] at e1'; cases e1'
        obtain ⟨cs, c1, ⟨t, ht, c2⟩, c3⟩ := C58_page E stl p g1 e1
        obtain ⟨m1, m2, m3⟩ := c3.1 e3
        obtain ⟨cs', d1, d2⟩ : ∃ cs', List.Forall₂ (fun d c => content E stl' d = .ok c) p'.draws cs' ∧ (∀ c ∈ cs', c.1 = true) ∧
            List.Forall₂ R (cs.map (fun c => c.2.1)) (cs'.map (fun c => c.2.1)) := by
          have hd := hpp.2
          clear * - hd c1 m3
          generalize p.draws = pd at *
          generalize p'.draws = pd' at *
          induction hd generalizing cs with
          | nil => cases c1; exact ⟨[], .nil, by simp, .nil⟩
          | cons a1 _ ih =>
            cases c1 with
            | @cons _ c _ cs b1 b2 =>
              obtain ⟨cs', j1, j2, j3⟩ := ih cs (fun x hx => m3 x (List.mem_cons_of_mem _ hx)) b2
              obtain ⟨c', q1, q2, q3⟩ := a1 c b1 (m3 c List.mem_cons_self)
              refine ⟨c' :: cs', .cons q1 j1, ?_, .cons q3 j3⟩
              intro x hx
              rcases List.mem_cons.1 hx with rfl | hx
              · exact q2
              · exact j2 x hx
        have hcon : ∀ d ∈ p'.draws, ∃ c, content E stl' d = .ok c := fun d hd => by
          obtain ⟨c, -, hc⟩ := forall₂_left_mem d1 hd
          exact ⟨c, hc⟩
        obtain ⟨g2, f1⟩ := generatePages_ok E stl' ⟨[], [p']⟩ [] (by
          intro x hx
          simp only [List.mem_singleton] at hx
          subst hx
          exact hcon)
        obtain ⟨cs2, n1, ⟨t', ht', n2⟩, n3⟩ := C58_page E stl' p' g2 f1
        have ecs : cs2 = cs' := by
          clear * - n1 d1
          generalize p'.draws = pd' at *
          induction d1 generalizing cs2 with
          | nil => cases n1; rfl
          | cons a _ ih =>
            cases n1 with
            | cons b1 b2 => rw [a] at b1; cases b1; rw [ih _ b2]
        subst ecs
        have et : t' = t := by
          rw [hpp.1] at ht'
          clear * - ht ht'
          unfold titled at ht ht'
          cases hl : look p.metas c!"name" with
          | none => rw [hl] at ht ht'; rw [ht, ht']
          | some m =>
            rw [hl] at ht ht'
            dsimp only at ht ht'
            cases hm : m.val <;> rw [hm] at ht ht' <;> dsimp only at ht ht' <;> rw [ht, ht']
        subst et
        rw [e2] at c2
        obtain ⟨rfl⟩ := List.cons.inj c2
        obtain ⟨H, hH⟩ := header_app (α := α) t'
        refine ⟨.cons ⟨g2, _, f1, n3.2 ⟨by rw [hpp.1]; exact m1, by rw [hpp.1]; exact m2, d2.1⟩, n2, ?_⟩ i1, ?_⟩
        · rw [hH, hH]; exact hR.app _ _ _ _ (hR.sum d2.2) (hR.refl _)
        · intro x hx
          rcases List.mem_cons.1 hx with rfl | hx
          · exact hcon
          · exact i2 x hx
  obtain ⟨g', hg'⟩ := generatePages_ok E stl' ⟨models', pgs'⟩ [] each.2
  obtain ⟨j1, j2⟩ := generatePages_each E stl' _ g' hg'
  dsimp only at j1 j2
  refine ⟨g', hg', j2.2 ?_, ?_⟩
  · intro p hp
    obtain ⟨o, -, g, o', a, b, -⟩ := forall₂_left_mem each.1 hp
    exact ⟨g, a, b⟩
  · have e := each.1
    generalize g.pages = os at e
    generalize g'.pages = os' at j1
    clear * - e j1
    induction e generalizing os' with
    | nil => cases j1; exact .nil
    | cons a _ ih =>
      cases j1 with
      | cons b c =>
        obtain ⟨g1, o', a1, -, a2, a3⟩ := a
        obtain ⟨g2, b1, b2⟩ := b
        rw [a1] at b1; cases b1
        rw [a2] at b2
        cases b2
        exact .cons a3 (ih _ c)

/-- two runs, on two disks, of which the drawings are alike -/
theorem run_rel2 {R : OutPage (Ext ℝ) → OutPage (Ext ℝ) → Prop} (hR : Piecewise R) (E : Env (Ext ℝ)) (w w' : World) (src : Str) (models models' : List ModelN)
    (pgs pgs' : List (PageN (Ext ℝ))) (r : RunRes) (h : docToPS E w src ⟨models, pgs⟩ = .ok r) (hok : r.ok = true)
    (l' : LoadSt (Ext ℝ)) (hl' : loadFiles E w' models' = .ok l') (hlk' : l'.ok = true)
    (hp : ∀ l, loadFiles E w models = .ok l → l.ok = true → List.Forall₂ (fun p p' => p'.metas = p.metas ∧ List.Forall₂ (fun d d' => ∀ c, content E l.stl d = .ok c → c.1 = true →
      ∃ c', content E l'.stl d' = .ok c' ∧ c'.1 = true ∧ R c.2.1 c'.2.1) p.draws p'.draws) pgs pgs') :
    ∃ r' os os', docToPS E w' src ⟨models', pgs'⟩ = .ok r' ∧ r'.ok = true ∧ r.out = renderPages E src os ∧ r'.out = renderPages E src os' ∧ List.Forall₂ R os os' := by
  unfold docToPS at h
  simp only [bind, Except.bind] at h
  cases hl : loadFiles E w models with
  | error a => rw [hl] at h; cases h
  | ok l =>
    rw [hl] at h
    dsimp only at h
    cases hk : l.ok with
    | false => rw [hk] at h; cases h; cases hok
    | true =>
      rw [hk] at h
      simp only [Bool.not_true, Bool.false_eq_true, if_false] at h
      cases hg : generatePages E l.stl ⟨models, pgs⟩ [] with
      | error a => rw [hg] at h; cases h
      | ok g =>
        rw [hg] at h
        dsimp only at h
        cases hgk : g.ok with
        | false => rw [hgk] at h; cases h; cases hok
        | true =>
          rw [hgk] at h
          cases h
          obtain ⟨g', c1, c2, c3⟩ := pages_rel hR E l.stl l'.stl models models' pgs pgs' g hg hgk (hp l hl hk)
          refine ⟨⟨true, renderPages E src g'.pages, l'.log ++ g'.log⟩, g.pages, g'.pages, ?_, rfl, rfl, rfl, c3⟩
          unfold docToPS
          simp only [bind, Except.bind, hl', hlk', Bool.not_true, Bool.false_eq_true, if_false, c1, c2]
          rfl

/-- a run, and one of which the drawings are alike -/
theorem run_rel {R : OutPage (Ext ℝ) → OutPage (Ext ℝ) → Prop} (hR : Piecewise R) (E : Env (Ext ℝ)) (w : World) (src : Str) (models : List ModelN)
    (pgs pgs' : List (PageN (Ext ℝ))) (r : RunRes) (h : docToPS E w src ⟨models, pgs⟩ = .ok r) (hok : r.ok = true)
    (hp : ∀ l, loadFiles E w models = .ok l → l.ok = true → List.Forall₂ (fun p p' => p'.metas = p.metas ∧ List.Forall₂ (fun d d' => ∀ c, content E l.stl d = .ok c → c.1 = true →
      ∃ c', content E l.stl d' = .ok c' ∧ c'.1 = true ∧ R c.2.1 c'.2.1) p.draws p'.draws) pgs pgs') :
    ∃ r' os os', docToPS E w src ⟨models, pgs'⟩ = .ok r' ∧ r'.ok = true ∧ r.out = renderPages E src os ∧ r'.out = renderPages E src os' ∧ List.Forall₂ R os os' := by
  unfold docToPS at h
  simp only [bind, Except.bind] at h
  cases hl : loadFiles E w models with
  | error a => rw [hl] at h; cases h
  | ok l =>
    rw [hl] at h
    dsimp only at h
    cases hk : l.ok with
    | false => rw [hk] at h; cases h; cases hok
    | true =>
      rw [hk] at h
      simp only [Bool.not_true, Bool.false_eq_true, if_false] at h
      cases hg : generatePages E l.stl ⟨models, pgs⟩ [] with
      | error a => rw [hg] at h; cases h
      | ok g =>
        rw [hg] at h
        dsimp only at h
        cases hgk : g.ok with
        | false => rw [hgk] at h; cases h; cases hok
        | true =>
          rw [hgk] at h
          cases h
          obtain ⟨g', c1, c2, c3⟩ := pages_rel hR E l.stl l.stl models models pgs pgs' g hg hgk (hp l hl hk)
          refine ⟨⟨true, renderPages E src g'.pages, l.log ++ g'.log⟩, g.pages, g'.pages, ?_, rfl, rfl, rfl, c3⟩
          unfold docToPS
          simp only [bind, Except.bind, hl, hk, Bool.not_true, Bool.false_eq_true, if_false, c1, c2]
          rfl

end S2P
