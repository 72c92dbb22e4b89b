import Verif.Spec.Carried
import Verif.Lemmas.Snap
import Verif.Lemmas.Swap
import Verif.Lemmas.SimilarView
import Verif.Props.Circle
import Verif.Props.Resized

set_option linter.unusedSectionVars false
set_option linter.unusedVariables false
set_option linter.unusedSimpArgs false

/-! # Moving and turning dimensions -/

namespace S2P

/-! ## Turning -/

theorem rot_carried {r m : M3 ℝ} {e e' : Pt (Ext ℝ)} (h : e.Carried (fun p => p.mulM r) e') : e'.rot m.fin = e.rot (r.comp m).fin := by
  induction h with
  | val p l => simp only [Pt.rot, V3.fin_mulM, M3.comp_spec]
  | func n e e' l _ ih => simp only [Pt.rot, ih]

theorem look_rel {α : Type} {R : Meta α → Meta α → Prop} {ms ms' : List (Meta α)} (h : List.Forall₂ (fun m m' => m'.name = m.name ∧ R m m') ms ms') (n : Str) :
    look ms n = none ∧ look ms' n = none ∨ ∃ m m', look ms n = some m ∧ look ms' n = some m' ∧ m ∈ ms ∧ m.name = n ∧ R m m' := by
  unfold look
  induction h with
  | nil => exact Or.inl ⟨rfl, rfl⟩
  | @cons a b as bs hab _ ih =>
    by_cases hn : a.name = n
    · exact Or.inr ⟨a, b, by rw [List.find?_cons_of_pos (by simpa using hn)], by rw [List.find?_cons_of_pos (by simpa [hab.1] using hn)], by simp, hn, hab.2⟩
    · rw [List.find?_cons_of_neg (by simpa using hn), List.find?_cons_of_neg (by simpa [hab.1] using hn)]
      rcases ih with h | ⟨m, m', h1, h2, h3, h4⟩
      · exact Or.inl h
      · exact Or.inr ⟨m, m', h1, h2, List.mem_cons_of_mem _ h3, h4⟩

theorem names_rel {α : Type} {R : Meta α → Meta α → Prop} {ms ms' : List (Meta α)} (h : List.Forall₂ (fun m m' => m'.name = m.name ∧ R m m') ms ms') :
    ms'.map (fun m => m.name) = ms.map (fun m => m.name) := by
  induction h with
  | nil => rfl
  | cons a _ ih => simp only [List.map_cons, a.1, ih]

theorem has_names {ms ms' : List (Meta (Ext ℝ))} (h : ms'.map (fun m => m.name) = ms.map (fun m => m.name)) (n : Str) : Has ms' n ↔ Has ms n := by
  have : ∀ l : List (Meta (Ext ℝ)), Has l n ↔ n ∈ l.map (fun m => m.name) := by intro l; simp [Has]
  rw [this, this, h]

theorem goodDim_names {k : DimKind} {ms ms' : List (Meta (Ext ℝ))} (h : ms'.map (fun m => m.name) = ms.map (fun m => m.name)) (hg : GoodDim k ms) : GoodDim k ms' := by
  cases k with
  | angle => exact ⟨exactly_names h hg.1, by rw [has_names h, has_names h]; exact hg.2.1, by rw [has_names h, has_names h]; exact hg.2.2⟩
  | dim => exact exactly_names h hg
  | dia => exact exactly_names h hg
  | rad => exact exactly_names h hg

theorem goodDim_names_iff {k : DimKind} {ms ms' : List (Meta (Ext ℝ))} (h : ms'.map (fun m => m.name) = ms.map (fun m => m.name)) : GoodDim k ms' ↔ GoodDim k ms :=
  ⟨goodDim_names h.symm, goodDim_names h⟩

theorem formatOf_carried {F : Meta (Ext ℝ) → V3 ℝ → V3 ℝ} {ms ms' : List (Meta (Ext ℝ))}
    (h : List.Forall₂ (fun m m' => m'.name = m.name ∧ m.val.Carried (F m) m'.val) ms ms') (E : Env (Ext ℝ)) (s : Str) : formatOf E s ms' = formatOf E s ms := by
  unfold formatOf
  rcases look_rel h c!"fmt" with ⟨h1, h2⟩ | ⟨m, m', h1, h2, -, -, h3⟩
  · rw [h1, h2]
  · rw [h1, h2]
    cases hv : m.val with
    | pt e =>
      rw [hv] at h3
      obtain ⟨e', h4, -⟩ := h3
      simp only [hv, h4]
    | _ =>
      rw [hv] at h3
      simp only [MetaVal.Carried] at h3
      simp only [hv, h3]

theorem pointOf_turned {r m : M3 ℝ} {ms ms' : List (Meta (Ext ℝ))}
    (h : List.Forall₂ (fun m m' => m'.name = m.name ∧ m.val.Carried (fun p => p.mulM r) m'.val) ms ms') (E : Env (Ext ℝ)) {v v' : Vis (Ext ℝ)}
    (hv : v.rotation = (r.comp m).fin) (hv' : v'.rotation = m.fin) (hp : v'.points = v.points) (j : Nat) (n : Str) :
    pointOf E v' j ms' n = pointOf E v j ms n := by
  unfold pointOf
  rcases look_rel h n with ⟨h1, h2⟩ | ⟨m, m', h1, h2, -, -, h3⟩
  · rw [h1, h2]
  · rw [h1, h2]
    cases hm : m.val with
    | pt e =>
      rw [hm] at h3
      obtain ⟨e', h4, h5⟩ := h3
      simp only [hm, h4, hv, hv', hp, rot_carried h5]
    | _ =>
      rw [hm] at h3
      simp only [MetaVal.Carried] at h3
      simp only [hm, h3]

theorem drawnItems_turned {r m : M3 ℝ} {d d' : DimN (Ext ℝ)} (h : d.TurnedBy r d') (E : Env (Ext ℝ)) {v v' : Vis (Ext ℝ)}
    (hv : v.rotation = (r.comp m).fin) (hv' : v'.rotation = m.fin) (hp : v'.points = v.points) (hs : v'.scale = v.scale) :
    drawnItems E v' d'.kind d'.metas = drawnItems E v d.kind d.metas := by
  rw [h.1]
  have e := fun j n => pointOf_turned h.2 E hv hv' hp j n
  have f := fun s => formatOf_carried h.2 E s
  have l : ∀ j x n n', legOf E v' j x d'.metas n n' = legOf E v j x d.metas n n' := by
    intro j x n n'
    unfold legOf
    rw [e, e]
    rcases look_rel h.2 n with ⟨h1, h2⟩ | ⟨m, m', h1, h2, -⟩ <;> rw [h1, h2]
  unfold drawnItems drawnItems.circ
  cases d.kind <;> simp only [e, f, l, hp, hs]

/-! ## Moving: the items -/

section
variable {K : Type} [Field K] [LinearOrder K] [IsStrictOrderedRing K] [FloorRing K] [Trans K]

theorem Ext.add_mv (x y : Ext K) (t : K) : (x + .fin t) + y = (x + y) + .fin t := by
  cases x <;> cases y <;> first | rfl | (simp only [Ext.fin_add]; congr 1; ring)
theorem Ext.sub_mv (x y : Ext K) (t : K) : (x + .fin t) - y = (x - y) + .fin t := by
  cases x <;> cases y <;> first | rfl | (simp only [Ext.fin_add, Ext.fin_sub]; congr 1; ring)
theorem Ext.back_mv (x y : Ext K) (t : K) : (x - (y + .fin t)) + .fin t = x - y := by
  cases x <;> cases y <;> first | rfl | (simp only [Ext.fin_add, Ext.fin_sub]; congr 1; ring)

theorem V3.add_mv (x y : V3 (Ext K)) (t : V3 K) : (x + t.fin) + y = (x + y) + t.fin := by
  ext <;> exact Ext.add_mv _ _ _
theorem V3.sub_mv (x y : V3 (Ext K)) (t : V3 K) : (x + t.fin) - y = (x - y) + t.fin := by
  ext <;> exact Ext.sub_mv _ _ _
theorem V3.back_mv (x y : V3 (Ext K)) (t : V3 K) : (x - (y + t.fin)) + t.fin = x - y := by
  ext <;> exact Ext.back_mv _ _ _
theorem V2.add_mv (x y : V2 (Ext K)) (t : V2 K) : (x + t.fin) + y = (x + y) + t.fin := by
  ext <;> exact Ext.add_mv _ _ _
theorem V2.sub_mv (x y : V2 (Ext K)) (t : V2 K) : (x + t.fin) - y = (x - y) + t.fin := by
  ext <;> exact Ext.sub_mv _ _ _
theorem V2.back_mv (x y : V2 (Ext K)) (t : V2 K) : (x - (y + t.fin)) + t.fin = x - y := by
  ext <;> exact Ext.back_mv _ _ _
theorem V3.xy_mv (x : V3 (Ext K)) (t : V3 K) : (x + t.fin).xy = x.xy + t.xy.fin := rfl

/-- everything at another place -/
def OutPage.mv (t : V2 K) (P : OutPage (Ext K)) : OutPage (Ext K) where
  lines := P.lines.map (fun l => ⟨l.o + t.fin, l.t + t.fin⟩)
  arcs := P.arcs.map (fun a => ⟨a.center + t.fin, a.r, a.start, a.stop⟩)
  text := P.text.map (fun x => ⟨x.at_ + t.fin, x.str, x.center, x.raw⟩)

theorem of3_mv (p q : V3 (Ext K)) (t : V3 K) : Line.of3 (p + t.fin) (q + t.fin) = ⟨(Line.of3 p q).o + t.xy.fin, (Line.of3 p q).t + t.xy.fin⟩ := rfl

theorem dimItems_mv (g : Ext K → Str) (s : Ext K) (a n f t : V3 (Ext K)) (T : V3 K) :
    dimItems g s (a + T.fin) n (f + T.fin) (t + T.fin) = (dimItems g s a n f t).mv T.xy := by
  unfold dimItems
  simp only [V3.back_mv, V3.add_mv, V3.sub_mv, of3_mv, V3.xy_mv, OutPage.mv, List.map_append, List.map_cons, List.map_nil]
  split <;> rfl

theorem angleItems_mv (g : Ext K → Str) (s : Ext K) (a x fd fp td tp : V3 (Ext K)) (T : V3 K) :
    angleItems g s (a + T.fin) (x + T.fin) fd (fp + T.fin) td (tp + T.fin) = (angleItems g s a x fd fp td tp).mv T.xy := by
  unfold angleItems
  simp only [V3.back_mv, V3.add_mv, V3.sub_mv, of3_mv, V3.xy_mv, OutPage.mv, List.map_append, List.map_cons, List.map_nil]
  rfl

theorem diaItems_mv (g : Ext K → Str) (s : Ext K) (a d c : V2 (Ext K)) (R : Ext K) (T : V2 K) :
    diaItems g s ⟨a + T.fin, d, c + T.fin, R⟩ = (diaItems g s ⟨a, d, c, R⟩).mv T := by
  unfold diaItems
  simp only [V2.back_mv, V2.add_mv, V2.sub_mv, OutPage.mv, List.map_append, List.map_cons, List.map_nil]
  congr 1
  · split <;> rfl
  · simp only [List.cons.injEq, PsText.mk.injEq, and_true]
    ext
    · exact Ext.add_mv _ _ _
    · rfl

theorem radItems_mv (g : Ext K → Str) (s : Ext K) (a d c : V2 (Ext K)) (R : Ext K) (T : V2 K) :
    radItems g s ⟨a + T.fin, d, c + T.fin, R⟩ = (radItems g s ⟨a, d, c, R⟩).mv T := by
  unfold radItems
  simp only [V2.back_mv, V2.add_mv, V2.sub_mv, OutPage.mv, List.map_append, List.map_cons, List.map_nil]
  congr 1
  · split <;> rfl
  · simp only [List.cons.injEq, PsText.mk.injEq, and_true]
    ext
    · exact Ext.add_mv _ _ _
    · rfl

theorem Ext.mv_mul (x : Ext K) (t s d : K) : (x + .fin t) * .fin s + .fin (d - t * s) = x * .fin s + .fin d := by
  cases x with
  | fin x => simp only [Ext.fin_add, Ext.fin_mul]; congr 1; ring
  | nan => rfl
  | pinf => change Ext.add (Ext.infSign s) _ = Ext.add (Ext.infSign s) _; unfold Ext.infSign; split_ifs <;> rfl
  | ninf => change Ext.add (Ext.neg (Ext.infSign s)) _ = Ext.add (Ext.neg (Ext.infSign s)) _; unfold Ext.infSign; split_ifs <;> rfl

theorem moved_mv (P : OutPage (Ext K)) (t d : V2 K) (s : K) :
    (P.mv t).moved (.fin s) (V2.fin ⟨d.x - t.x * s, d.y - t.y * s⟩) = P.moved (.fin s) d.fin := by
  have h : ∀ p : V2 (Ext K), (p + t.fin).moved (.fin s) (V2.fin ⟨d.x - t.x * s, d.y - t.y * s⟩) = p.moved (.fin s) d.fin := by
    intro p
    ext <;> exact Ext.mv_mul _ _ _ _
  simp only [OutPage.mv, OutPage.moved, List.map_map, Function.comp_def, h]
end

/-! ## Moving: the points -/

theorem lt_dblMax (x : ℝ) : FP.lt (Ext.fin x) (FP.dblMax : Ext ℝ) = true := rfl

/-- a point of the page -/
noncomputable def flatPt (u : V2 ℝ) : V3 (Ext ℝ) := ⟨Ext.fin u.x, Ext.fin u.y, FP.lit 0⟩

theorem pageDist2_mv (p q T : V3 ℝ) : pageDist2 (p + T) (q + T) = pageDist2 p q := by
  simp only [pageDist2, V3.add_x, V3.add_y]; ring

theorem nearLoop_mv (p T : V3 ℝ) : ∀ (qs : List (V3 ℝ)) (d : ℝ) (w : V2 ℝ), ∃ u : V2 ℝ, nearLoop (flatPt p.xy) (qs.map V3.fin) (.fin d) (flatPt w) = flatPt u ∧
    nearLoop (flatPt (p + T).xy) ((qs.map (· + T)).map V3.fin) (.fin d) (flatPt (w + T.xy)) = flatPt (u + T.xy)
  | [], d, w => ⟨w, rfl, rfl⟩
  | q :: qs, d, w => by
    have e1 : nearDist (flatPt p.xy) q.fin = .fin (pageDist2 q p) := nearDist_fin p q
    have e2 : nearDist (flatPt (p + T).xy) (q + T).fin = .fin (pageDist2 q p) := by
      rw [← pageDist2_mv q p T]; exact nearDist_fin (p + T) (q + T)
    simp only [List.map_cons, nearLoop_cons, e1, e2, Ext.fin_lt]
    split
    · exact nearLoop_mv p T qs _ q.xy
    · exact nearLoop_mv p T qs _ w

theorem nearLoop_start (p T : V3 ℝ) (qs : List (V3 ℝ)) (hq : qs ≠ []) (ret ret' : V3 (Ext ℝ)) :
    ∃ u : V2 ℝ, nearLoop (flatPt p.xy) (qs.map V3.fin) FP.dblMax ret = flatPt u ∧
      nearLoop (flatPt (p + T).xy) ((qs.map (· + T)).map V3.fin) FP.dblMax ret' = flatPt (u + T.xy) ∧ (∀ q ∈ qs, pageDist2 q p = 0 → u = p.xy) := by
  cases qs with
  | nil => exact absurd rfl hq
  | cons q qs =>
    have e1 : nearDist (flatPt p.xy) q.fin = .fin (pageDist2 q p) := nearDist_fin p q
    have e2 : nearDist (flatPt (p + T).xy) (q + T).fin = .fin (pageDist2 q p) := by
      rw [← pageDist2_mv q p T]; exact nearDist_fin (p + T) (q + T)
    obtain ⟨u, h1, h2⟩ := nearLoop_mv p T qs (pageDist2 q p) q.xy
    have h3 : nearLoop (flatPt p.xy) ((q :: qs).map V3.fin) FP.dblMax ret = flatPt u := by
      simp only [List.map_cons, nearLoop_cons, e1, lt_dblMax, if_true]
      exact h1
    refine ⟨u, h3, ?_, ?_⟩
    · simp only [List.map_cons, nearLoop_cons, e2, lt_dblMax, if_true]
      exact h2
    · intro x hx hx0
      have hok : ∀ y ∈ (q :: qs).map V3.fin, FP.Ok (nearDist (flatPt p.xy) y) := by
        intro y hy
        obtain ⟨y, -, rfl⟩ := List.mem_map.1 hy
        rw [show nearDist (flatPt p.xy) y.fin = .fin (pageDist2 y p) from nearDist_fin p y]
        exact Ext.ok_fin _
      rcases nearLoop_spec (flatPt p.xy) _ FP.dblMax ret hok with ⟨-, k⟩ | ⟨y, hy, k1, -, k2⟩
      · have := k q.fin (by simp)
        rw [e1] at this; cases this
      · obtain ⟨y, hy', rfl⟩ := List.mem_map.1 hy
        have := k2 x.fin (List.mem_map.2 ⟨x, hx, rfl⟩)
        rw [show nearDist (flatPt p.xy) y.fin = .fin (pageDist2 y p) from nearDist_fin p y,
          show nearDist (flatPt p.xy) x.fin = .fin (pageDist2 x p) from nearDist_fin p x, Ext.fin_lt, hx0] at this
        have h0 : pageDist2 y p ≤ 0 := by simpa using this
        have hx : (y.x - p.x) ^ 2 + (y.y - p.y) ^ 2 ≤ 0 := by
          have e : pageDist2 y p = (y.x - p.x) ^ 2 + (y.y - p.y) ^ 2 := by simp only [pageDist2]
          linarith
        have a1 : y.x = p.x := by nlinarith [sq_nonneg (y.x - p.x), sq_nonneg (y.y - p.y)]
        have a2 : y.y = p.y := by nlinarith [sq_nonneg (y.x - p.x), sq_nonneg (y.y - p.y)]
        rw [h3] at k1
        have b1 := congrArg V3.x k1
        have b2 := congrArg V3.y k1
        simp only [flatPt, V3.fin_x, V3.fin_y, Ext.fin_inj] at b1 b2
        ext
        · rw [b1, a1]; rfl
        · rw [b2, a2]; rfl

/-- near(p), in the plane of the page -/
theorem near_xy (p : V3 ℝ) (qs : List (V3 ℝ)) (hq : qs ≠ []) (ret : V3 (Ext ℝ)) (u : V2 ℝ) (hu : nearLoop (flatPt p.xy) (qs.map V3.fin) FP.dblMax ret = flatPt u)
    (hz : ∀ q ∈ qs, pageDist2 q p = 0 → u = p.xy) :
    ∃ w : V3 ℝ, (if setMem (qs.map V3.fin) p.fin then p.fin else nearLoop ⟨p.fin.x, p.fin.y, FP.lit 0⟩ (qs.map V3.fin) FP.dblMax ret) = w.fin ∧ w.xy = u ∧
      (p ∈ qs → w = p) ∧ (p ∉ qs → w.z = 0) := by
  by_cases hm : setMem (qs.map V3.fin) p.fin = true
  · rw [if_pos hm]
    have hmem := (setMem_fin qs p).1 hm
    exact ⟨p, rfl, (hz p hmem (by simp [pageDist2])).symm, fun _ => rfl, fun h => absurd hmem h⟩
  · rw [if_neg hm]
    refine ⟨⟨u.x, u.y, 0⟩, ?_, rfl, fun h => absurd ((setMem_fin qs p).2 h) hm, fun _ => rfl⟩
    rw [show (⟨p.fin.x, p.fin.y, FP.lit 0⟩ : V3 (Ext ℝ)) = flatPt p.xy from rfl, hu]
    ext <;> simp [flatPt, V3.fin, V3.map]

/-! ### circles -/

theorem closestStep_mv (count : Nat) (tgt : V2 (Ext ℝ)) (T : V2 ℝ) (c : List (Ext ℝ × V2 (Ext ℝ))) (p : V2 (Ext ℝ)) :
    closestStep count (tgt + T.fin) (c.map fun e => (e.1, e.2 + T.fin)) (p + T.fin) = (closestStep count tgt c p).map fun e => (e.1, e.2 + T.fin) := by
  have hins : ∀ (d : Ext ℝ) (l : List (Ext ℝ × V2 (Ext ℝ))), mmInsert d (p + T.fin) (l.map fun e => (e.1, e.2 + T.fin)) = (mmInsert d p l).map fun e => (e.1, e.2 + T.fin) := by
    intro d l
    induction l with
    | nil => rfl
    | cons e l ih =>
      simp only [List.map_cons, mmInsert]
      split
      · rfl
      · rw [ih]; rfl
  have hlast : ∀ l : List (Ext ℝ × V2 (Ext ℝ)), (l.map fun e => (e.1, e.2 + T.fin)).getLast? = l.getLast?.map fun e => (e.1, e.2 + T.fin) := by
    intro l; simp
  unfold closestStep
  simp only [V2.sub_mv, V2.back_mv, hlast]
  have hc : ∀ {A : Bool} {B : Bool} {X Y : List (Ext ℝ × V2 (Ext ℝ))} {Z W : List (Ext ℝ × V2 (Ext ℝ))}, A = B → X = Z → Y = W → (if A then X else Y) = if B then Z else W := by
    rintro A B X Y Z W rfl rfl rfl; rfl
  rw [apply_ite (List.map _)]
  refine hc ?_ rfl ?_
  · cases c.getLast? <;> rfl
  · have h2 : (List.filter (fun e : Ext ℝ × V2 (Ext ℝ) => !FP.lt e.1 (p - tgt).sqNorm && !FP.lt (p - tgt).sqNorm e.1) (c.map fun e => (e.1, e.2 + T.fin))).any
          (fun e => FP.lt (p - e.2 + T.fin).sqNorm ((p - tgt).sqNorm * FP.lit (1 / 100))) =
        (List.filter (fun e : Ext ℝ × V2 (Ext ℝ) => !FP.lt e.1 (p - tgt).sqNorm && !FP.lt (p - tgt).sqNorm e.1) c).any
          (fun e => FP.lt (p - e.2).sqNorm ((p - tgt).sqNorm * FP.lit (1 / 100))) := by
      rw [List.filter_map, List.any_map]
      simp only [Function.comp_def, V2.back_mv]
    rw [h2]
    split
    · rfl
    · rw [hins, List.map_take]

theorem closest_mv (ps : List (V2 (Ext ℝ))) (count : Int) (tgt : V2 (Ext ℝ)) (T : V2 ℝ) :
    closest (ps.map (· + T.fin)) count (tgt + T.fin) = (closest ps count tgt).map (· + T.fin) := by
  unfold closest
  split
  · rfl
  · rw [List.foldl_map]
    have gen : ∀ (ps : List (V2 (Ext ℝ))) (c : List (Ext ℝ × V2 (Ext ℝ))),
        ps.foldl (fun c p => closestStep count.toNat (tgt + T.fin) c (p + T.fin)) (c.map fun e => (e.1, e.2 + T.fin)) =
        (ps.foldl (closestStep count.toNat tgt) c).map fun e => (e.1, e.2 + T.fin) := by
      intro ps
      induction ps with
      | nil => intro c; rfl
      | cons p ps ih => intro c; simp only [List.foldl_cons]; rw [closestStep_mv, ih]
    have := gen ps []
    simp only [List.map_nil] at this
    rw [this]
    simp [List.map_map, Function.comp_def]

theorem between_mv (ps : List (V2 (Ext ℝ))) (lo hi : Ext ℝ) (tgt : V2 (Ext ℝ)) (T : V2 ℝ) :
    between (ps.map (· + T.fin)) lo hi (tgt + T.fin) = (between ps lo hi tgt).map (· + T.fin) := by
  unfold between
  split
  · rfl
  · rw [List.filter_map]
    simp only [Function.comp_def, V2.sub_mv, V2.back_mv]

theorem map_mv (ps : List (V2 ℝ)) (T : V2 ℝ) : (ps.map V2.fin).map (· + T.fin) = (ps.map (fun p : V2 ℝ => (⟨p.x + T.x, p.y + T.y⟩ : V2 ℝ))).map V2.fin := by
  simp only [List.map_map]; rfl

theorem locate_mv (qs : List (V3 ℝ)) (t : V2 ℝ) (T : V3 ℝ) :
    locate ((qs.map (· + T)).map V3.fin) (t + T.xy).fin = (locate (qs.map V3.fin) t.fin).map fun c => (c.1 + T.xy.fin, c.2) := by
  have hflat : ((qs.map (· + T)).map V3.fin).map V3.xy = ((qs.map V3.fin).map V3.xy).map (· + T.xy.fin) := by
    simp only [List.map_map]; rfl
  have hflat0 : (qs.map V3.fin).map V3.xy = (flat qs).map V2.fin := by simp [flat, List.map_map, Function.comp_def]
  obtain ⟨near, hnear, -, -⟩ := closest_fin (flat qs) t 3 (by norm_num)
  have hnear' : closest ((flat (qs.map (· + T))).map V2.fin) 3 (t + T.xy).fin = (near.map (fun p : V2 ℝ => (⟨p.x + T.xy.x, p.y + T.xy.y⟩ : V2 ℝ))).map V2.fin := by
    rw [← map_mv, ← hnear, ← closest_mv, ← V2.fin_add]
    congr 1
    simp only [flat, List.map_map]; rfl
  by_cases hl : OnOneLine near
  · have hl' : OnOneLine (near.map (fun p : V2 ℝ => (⟨p.x + T.xy.x, p.y + T.xy.y⟩ : V2 ℝ))) := (onOneLine_move near T.xy).2 hl
    rw [locate_line qs t near hnear hl, locate_line _ _ _ hnear' hl']
    rfl
  · obtain ⟨c, r, hc, -⟩ := C12_least_squares near hl
    have hc' := C12_translate near hl T.xy c r hc
    obtain ⟨⟨c2, r2⟩, hloc⟩ : ∃ x, locate (qs.map V3.fin) t.fin = some x := by
      obtain ⟨c2, r2, h⟩ := (C13_succeeds_iff qs t near hnear).2 hl
      exact ⟨_, h⟩
    obtain ⟨c3, r3, rfl, rfl, hr3, -⟩ := C13_sound qs t c2 r2 hloc
    have hB : locate (qs.map V3.fin) t.fin = findCircle (between ((flat qs).map V2.fin) (.fin r * (FP.lit 1 - FP.lit (1 / 10))) (.fin r * (FP.lit 1 + FP.lit (1 / 10))) c.fin) := by
      unfold locate
      simp only [hflat0, hnear, hc]
    have hB' : locate ((qs.map (· + T)).map V3.fin) (t + T.xy).fin =
        findCircle ((between ((flat qs).map V2.fin) (.fin r * (FP.lit 1 - FP.lit (1 / 10))) (.fin r * (FP.lit 1 + FP.lit (1 / 10))) c.fin).map (· + T.xy.fin)) := by
      rw [← between_mv]
      unfold locate
      have hn : closest (((qs.map V3.fin).map V3.xy).map (· + T.xy.fin)) 3 (t + T.xy).fin = (near.map (fun p : V2 ℝ => (⟨p.x + T.xy.x, p.y + T.xy.y⟩ : V2 ℝ))).map V2.fin := by
        rw [← hnear', ← hflat]; congr 1; simp only [flat, List.map_map]; rfl
      simp only [hflat, hn, hc']
      rw [hflat0]; rfl
    obtain ⟨sel, hsel⟩ : ∃ sel : List (V2 ℝ), between ((flat qs).map V2.fin) (.fin r * (FP.lit 1 - FP.lit (1 / 10))) (.fin r * (FP.lit 1 + FP.lit (1 / 10))) c.fin = sel.map V2.fin := by
      unfold between
      split
      · exact ⟨[], rfl⟩
      · rw [List.filter_map]; exact ⟨_, rfl⟩
    rw [hsel] at hB hB'
    rw [hloc] at hB ⊢
    have hns : ¬ OnOneLine sel := by
      intro hl2
      have h3 : ¬ sel.length < 3 := by
        intro h3
        unfold findCircle at hB
        rw [if_pos (by simpa using h3)] at hB; cases hB
      have := (C12_singular sel (by rintro rfl; simp at h3)).1 hl2
      unfold findCircle at hB
      rw [if_neg (by simpa using h3)] at hB
      simp only [Option.some.injEq, Prod.mk.injEq] at hB
      have hx := congrArg V2.x hB.1
      simp only [V2.fin_x] at hx
      rw [← hx] at this; cases this
    rw [hB', map_mv, C12_translate sel hns T.xy c3 r3 hB.symm]
    rfl

theorem add_mulM (p t : V3 ℝ) (r : M3 ℝ) : (p + t).mulM r = p.mulM r + t.mulM r := by
  ext <;> simp only [V3.mulM, V3.add_x, V3.add_y, V3.add_z] <;> ring

theorem rot_moved {t : V3 ℝ} {r : M3 ℝ} {e e' : Pt (Ext ℝ)} (h : e.Carried (· + t) e') : (e.rot r.fin).Carried (· + t.mulM r) (e'.rot r.fin) := by
  induction h with
  | val p l =>
    simp only [Pt.rot, V3.fin_mulM, add_mulM]
    exact .val (p.mulM r) l
  | func n e e' l _ ih => exact .func n _ _ l ih

theorem rot_lit {e : Pt (Ext ℝ)} (h : e.IsLit) (m : M3 (Ext ℝ)) : (e.rot m).IsLit := by
  obtain ⟨p, l, rfl⟩ := h; exact ⟨_, _, rfl⟩

theorem invoke_mv (T : V3 ℝ) {e e' : Pt (Ext ℝ)} (h : e.Carried (· + T) e') (qs : List (V3 ℝ)) : ∀ (junk junk' : Nat → V3 (Ext ℝ)) (ret ret' : V3 (Ext ℝ)),
    (e'.invoke junk' ((qs.map (· + T)).map V3.fin) ret').1 = (e.invoke junk (qs.map V3.fin) ret).1 ∧
    ((e.invoke junk (qs.map V3.fin) ret).1 = true → ∃ p p' : V3 ℝ, (e.invoke junk (qs.map V3.fin) ret).2.1 = p.fin ∧
      (e'.invoke junk' ((qs.map (· + T)).map V3.fin) ret').2.1 = p'.fin ∧ p'.xy = p.xy + T.xy ∧ (T.z = 0 ∨ e.IsLit → p' = p + T)) := by
  induction h with
  | val p l => exact fun junk junk' ret ret' => ⟨rfl, fun _ => ⟨p, p + T, rfl, rfl, rfl, fun _ => rfl⟩⟩
  | func n e e' l hc ih =>
    intro junk junk' ret ret'
    obtain ⟨i1, i2⟩ := ih (fun n => junk (n + 1)) (fun n => junk' (n + 1)) (junk 0) (junk' 0)
    have hlit : ¬ (Pt.func n e l).IsLit := by rintro ⟨p, l, h⟩; cases h
    rcases hE : e.invoke (fun n => junk (n + 1)) (qs.map V3.fin) (junk 0) with ⟨b, x, ds⟩
    rcases hE' : e'.invoke (fun n => junk' (n + 1)) ((qs.map (· + T)).map V3.fin) (junk' 0) with ⟨b', x', ds'⟩
    rw [hE, hE'] at i1 i2
    dsimp only at i1 i2
    subst i1
    by_cases hn : n = c!"near"
    · subst hn
      by_cases hq : qs = []
      · subst hq
        exact ⟨rfl, fun h => by cases h⟩
      · have hq1 : qs.map V3.fin ≠ [] := by simpa using hq
        have hq2 : (qs.map (· + T)).map V3.fin ≠ [] := by simpa using hq
        cases b' with
        | false =>
          have hb : (qs.map V3.fin).isEmpty = false := by cases qs <;> simp_all
          have hb' : ((qs.map (· + T)).map V3.fin).isEmpty = false := by cases qs <;> simp_all
          simp only [Pt.invoke, if_true, hb, hb', Bool.false_eq_true, if_false, hE, hE', true_and]
          intro h; cases h
        | true =>
          obtain ⟨p, p', rfl, rfl, hxy, hz⟩ := i2 rfl
          rw [near_unfold junk _ e l ret _ ds hq1 hE, near_unfold junk' _ e' l ret' _ ds' hq2 hE']
          refine ⟨rfl, fun _ => ?_⟩
          obtain ⟨u, h1, h2, h3⟩ := nearLoop_start p T qs hq ret ret'
          obtain ⟨w, w1, w2, w3, w4⟩ := near_xy p qs hq ret u h1 h3
          have hpp : (p + T).xy = p'.xy := hxy.symm
          rw [hpp] at h2
          obtain ⟨w', w1', w2', w3', w4'⟩ := near_xy p' (qs.map (· + T)) (by simpa using hq) ret' (u + T.xy) h2 (by
            intro q' hq' h0
            obtain ⟨q, hq, rfl⟩ := List.mem_map.1 hq'
            rw [hxy, ← h3 q hq]
            rw [← h0, ← pageDist2_mv q p T]
            have a1 := congrArg V2.x hxy
            have a2 := congrArg V2.y hxy
            simp only [V3.xy, V2.add_x, V2.add_y] at a1 a2
            simp only [pageDist2, V3.add_x, V3.add_y, a1, a2])
          refine ⟨w, w', w1, w1', by rw [w2', w2], ?_⟩
          rintro (h0 | h0)
          · have hp := hz (Or.inl h0)
            subst hp
            by_cases hm : p ∈ qs
            · rw [w3 hm, w3' (List.mem_map.2 ⟨p, hm, rfl⟩)]
            · have hm' : p + T ∉ qs.map (· + T) := by
                intro h
                obtain ⟨q, hq, e⟩ := List.mem_map.1 h
                have : q = p := by
                  have b1 := congrArg V3.x e
                  have b2 := congrArg V3.y e
                  have b3 := congrArg V3.z e
                  simp only [V3.add_x, V3.add_y, V3.add_z, add_left_inj] at b1 b2 b3
                  ext <;> assumption
                exact hm (this ▸ hq)
              have z1 := w4 hm
              have z2 := w4' hm'
              have e : w'.xy = (w + T).xy := by rw [w2', ← w2]; rfl
              have e1 := congrArg V2.x e
              have e2 := congrArg V2.y e
              ext
              · exact e1
              · exact e2
              · rw [V3.add_z, z1, z2, h0]; ring
          · exact absurd h0 hlit
    · by_cases hn2 : n = c!"center"
      · subst hn2
        have hlen : ((qs.map (· + T)).map V3.fin).length = (qs.map V3.fin).length := by simp
        by_cases hl : (qs.map V3.fin).length < 3
        · have hl' : ((qs.map (· + T)).map V3.fin).length < 3 := hlen ▸ hl
          simp only [Pt.invoke, if_neg hn, if_true, hl, hl', true_and]
          intro h; cases h
        · have hl' : ¬ ((qs.map (· + T)).map V3.fin).length < 3 := hlen ▸ hl
          cases b' with
          | false =>
            simp only [Pt.invoke, if_neg hn, if_true, if_neg hl, if_neg hl', hE, hE', true_and]
            intro h; cases h
          | true =>
            obtain ⟨p, p', rfl, rfl, hxy, hz⟩ := i2 rfl
            have hloc := locate_mv qs p.xy T
            rw [← hxy] at hloc
            simp only [Pt.invoke, if_neg hn, if_true, if_neg hl, if_neg hl', hE, hE']
            have e1 : p.fin.xy = p.xy.fin := rfl
            have e2 : p'.fin.xy = p'.xy.fin := rfl
            rw [e1, e2, hloc]
            cases hL : locate (qs.map V3.fin) p.xy.fin with
            | none => exact ⟨rfl, fun h => by cases h⟩
            | some cr =>
              obtain ⟨c, r⟩ := cr
              obtain ⟨c, r, rfl, rfl, -⟩ := C13_sound qs p.xy c r hL
              refine ⟨rfl, fun _ => ⟨⟨c.x, c.y, 0⟩, ⟨c.x + T.x, c.y + T.y, 0⟩, by ext <;> simp [V3.fin, V3.map], by ext <;> first | rfl | simp [V3.fin, V3.map], rfl, ?_⟩⟩
              rintro (h0 | h0)
              · ext <;> simp [h0]
              · exact absurd h0 hlit
      · simp only [Pt.invoke, if_neg hn, if_neg hn2, true_and]
        intro h; cases h

section
variable {r : M3 ℝ} {t : V3 ℝ} {ms ms' : List (Meta (Ext ℝ))}
  (h : List.Forall₂ (fun m m' => m'.name = m.name ∧ m.val.Carried (fun p => if m.name ∈ directions then p else p + t) m'.val) ms ms')
  (E : Env (Ext ℝ)) {v v' : Vis (Ext ℝ)} {qs : List (V3 ℝ)} (hv : v.rotation = r.fin) (hv' : v'.rotation = r.fin) (hp : v.points = qs.map V3.fin)
  (hp' : v'.points = (qs.map (· + t.mulM r)).map V3.fin)
include h hv hv' hp hp'

theorem pointOf_mv (j : Nat) (n : Str) (hn : n ∉ directions) :
    (pointOf E v j ms n = none ∧ pointOf E v' j ms' n = none) ∨ ∃ p p' : V3 ℝ, pointOf E v j ms n = some p.fin ∧ pointOf E v' j ms' n = some p'.fin ∧
      p'.xy = p.xy + (t.mulM r).xy ∧ ((t.mulM r).z = 0 ∨ (∀ m ∈ ms, ∀ e, m.val = .pt e → e.IsLit) → p' = p + t.mulM r) := by
  unfold pointOf
  rcases look_rel h n with ⟨h1, h2⟩ | ⟨m, m', h1, h2, hm, hmn, h3⟩
  · rw [h1, h2]; exact Or.inl ⟨rfl, rfl⟩
  · rw [h1, h2]
    cases hmv : m.val with
    | pt e =>
      rw [hmv] at h3
      obtain ⟨e', h4, h5⟩ := h3
      simp only [hmn, if_neg hn] at h5
      simp only [hmv, h4, hv, hv', hp, hp']
      obtain ⟨i1, i2⟩ := invoke_mv (t.mulM r) (rot_moved (r := r) h5) qs E.junk E.junk (E.junk j) (E.junk j)
      rw [i1]
      by_cases hb : ((e.rot r.fin).invoke E.junk (qs.map V3.fin) (E.junk j)).1 = true
      · obtain ⟨p, p', k1, k2, k3, k4⟩ := i2 hb
        right
        rw [if_pos hb, if_pos hb, k1, k2]
        refine ⟨p, p', rfl, rfl, k3, ?_⟩
        rintro (h0 | h0)
        · exact k4 (Or.inl h0)
        · exact k4 (Or.inr (rot_lit (h0 m hm e hmv) _))
      · left; rw [if_neg hb, if_neg hb]; exact ⟨rfl, rfl⟩
    | _ =>
      rw [hmv] at h3
      simp only [MetaVal.Carried] at h3
      simp only [hmv, h3, true_and, true_or]

theorem pointOf_dir (hl : ∀ m ∈ ms, m.name ∈ directions → ∀ e, m.val = .pt e → e.IsLit) (j : Nat) (n : Str) (hn : n ∈ directions) :
    (pointOf E v j ms n = none ∧ pointOf E v' j ms' n = none) ∨ ∃ m ∈ ms, m.name = n ∧ ∃ (u : V3 ℝ) (l : Nat), m.val = .pt (.val u.fin l) ∧
      pointOf E v j ms n = some (u.mulM r).fin ∧ pointOf E v' j ms' n = some (u.mulM r).fin := by
  unfold pointOf
  rcases look_rel h n with ⟨h1, h2⟩ | ⟨m, m', h1, h2, hm, hmn, h3⟩
  · rw [h1, h2]; exact Or.inl ⟨rfl, rfl⟩
  · rw [h1, h2]
    cases hmv : m.val with
    | pt e =>
      rw [hmv] at h3
      obtain ⟨e', h4, h5⟩ := h3
      simp only [hmn, if_pos hn] at h5
      obtain ⟨p, l, rfl⟩ := hl m hm (hmn ▸ hn) e hmv
      cases h5 with
      | val u l =>
      simp only [hmv, h4, hv, hv']
      exact Or.inr ⟨m, hm, hmn, u, l, hmv, rfl, rfl⟩
    | _ =>
      rw [hmv] at h3
      simp only [MetaVal.Carried] at h3
      simp only [hmv, h3, true_and, true_or]

end

theorem V3.fin_plus (p q : V3 ℝ) : (p + q).fin = p.fin + q.fin := rfl

theorem drawnItems_mv {r : M3 ℝ} {t : V3 ℝ} {d d' : DimN (Ext ℝ)} (h : d.MovedBy t d') (hM : d.Movable r t) (E : Env (Ext ℝ)) {v v' : Vis (Ext ℝ)} {qs : List (V3 ℝ)}
    (hv : v.rotation = r.fin) (hv' : v'.rotation = r.fin) (hp : v.points = qs.map V3.fin) (hp' : v'.points = (qs.map (· + t.mulM r)).map V3.fin)
    (hs : v'.scale = v.scale) : drawnItems E v' d'.kind d'.metas = (drawnItems E v d.kind d.metas).map (OutPage.mv (t.mulM r).xy) := by
  rw [h.1]
  have e := fun j n => pointOf_mv h.2 E hv hv' hp hp' j n
  have f := fun s => formatOf_carried h.2 E s
  have g := fun j n => pointOf_dir h.2 E hv hv' hp hp' hM.1 j n
  have hlen : v'.points.length = v.points.length := by rw [hp, hp']; simp
  have circ : ∀ items : (Ext ℝ → Str) → Ext ℝ → Circ (Ext ℝ) → OutPage (Ext ℝ),
      (∀ (g : Ext ℝ → Str) (s : Ext ℝ) (a d c : V2 (Ext ℝ)) (R : Ext ℝ) (T : V2 ℝ), items g s ⟨a + T.fin, d, c + T.fin, R⟩ = (items g s ⟨a, d, c, R⟩).mv T) →
      drawnItems.circ E v' d'.metas items = (drawnItems.circ E v d.metas items).map (OutPage.mv (t.mulM r).xy) := by
    intro items hit
    unfold drawnItems.circ
    simp only [bind, f, hlen, hs]
    rcases e 0 c!"at" (by decide) with ⟨a1, a2⟩ | ⟨a, a', a1, a2, a3, -⟩
    · simp only [a1, a2, Option.bind_none, Option.map_none]
    rcases e 1 c!"center" (by decide) with ⟨c1, c2⟩ | ⟨c, c', c1, c2, c3, -⟩
    · simp only [a1, a2, c1, c2, Option.bind_none, Option.bind_some, Option.map_none]
    rcases g 2 c!"dir" (by decide) with ⟨g1, g2⟩ | ⟨m, -, -, u, l, -, g1, g2⟩
    · simp only [a1, a2, c1, c2, g1, g2, Option.bind_none, Option.bind_some, Option.map_none]
    simp only [a1, a2, c1, c2, g1, g2, Option.bind_some]
    cases formatOf E c!"%.3f" d.metas with
    | none => rfl
    | some F =>
      simp only [Option.bind_some]
      split
      · rfl
      · have k := locate_mv qs c.xy (t.mulM r)
        rw [← c3] at k
        have e1 : c.fin.xy = c.xy.fin := rfl
        have e2 : c'.fin.xy = c'.xy.fin := rfl
        rw [hp, hp', e1, e2, k]
        cases locate (qs.map V3.fin) c.xy.fin with
        | none => rfl
        | some z =>
          simp only [Option.map_some, Option.bind_some]
          rw [← hit]
          congr 2
          rw [show a'.fin.xy = a'.xy.fin from rfl, a3]
          rfl
  cases hk : d.kind with
  | dia => exact circ _ diaItems_mv
  | rad => exact circ _ radItems_mv
  | dim =>
    unfold drawnItems
    simp only [bind, f, hs]
    rcases e 0 c!"at" (by decide) with ⟨a1, a2⟩ | ⟨a, a', a1, a2, a3, a4⟩
    · simp only [a1, a2, Option.bind_none, Option.map_none]
    rcases g 1 c!"dir" (by decide) with ⟨g1, g2⟩ | ⟨m, hm, hmn, u, l, hml, g1, g2⟩
    · simp only [a1, a2, g1, g2, Option.bind_none, Option.bind_some, Option.map_none]
    rcases e 2 c!"from" (by decide) with ⟨c1, c2⟩ | ⟨c, c', c1, c2, c3, c4⟩
    · simp only [a1, a2, c1, c2, g1, g2, Option.bind_none, Option.bind_some, Option.map_none]
    rcases e 3 c!"to" (by decide) with ⟨b1, b2⟩ | ⟨b, b', b1, b2, b3, b4⟩
    · simp only [a1, a2, b1, b2, c1, c2, g1, g2, Option.bind_none, Option.bind_some, Option.map_none]
    simp only [a1, a2, b1, b2, c1, c2, g1, g2, Option.bind_some]
    cases formatOf E c!"%.3f" d.metas with
    | none => rfl
    | some F =>
      simp only [Option.bind_some]
      split
      · rfl
      rename_i hz
      simp only [Option.map_some, Option.some.injEq]
      rw [← dimItems_mv, ← V3.fin_plus, ← V3.fin_plus, ← V3.fin_plus]
      rcases hM.2 (Or.inl hk) with h0 | h0 | ⟨-, h0⟩
      · rw [a4 (Or.inl h0), b4 (Or.inl h0), c4 (Or.inl h0)]
      · rw [a4 (Or.inr h0), b4 (Or.inr h0), c4 (Or.inr h0)]
      · obtain ⟨u', l', e1, e2⟩ := h0 m hm hmn
        rw [hml] at e1
        have e3 : u = u' := by
          injection e1 with e1; injection e1 with e1
          have b1 := congrArg V3.x e1
          have b2 := congrArg V3.y e1
          have b3 := congrArg V3.z e1
          simp only [V3.fin_x, V3.fin_y, V3.fin_z, Ext.fin_inj] at b1 b2 b3
          ext <;> assumption
        subst e3
        have hne : u.mulM r ≠ ⟨0, 0, 0⟩ := by
          intro h
          rw [h] at hz
          exact hz (by simp [V3.eqv, V3.zero, V3.fin, V3.map])
        rw [normalized_real hne]
        exact dimItems_flat F v.scale _ (by simp [V3.sdiv, e2]) _ _ _ _ _ _ a3 c3 b3
  | angle =>
    have hcase : (t.mulM r).z = 0 ∨ (∀ m ∈ d.metas, ∀ e, m.val = .pt e → e.IsLit) := by
      rcases hM.2 (Or.inr hk) with h0 | h0 | ⟨h0, -⟩
      · exact Or.inl h0
      · exact Or.inr h0
      · rw [hk] at h0; cases h0
    have leg : ∀ (j : Nat) (x : V3 ℝ) (n n' : Str), n ∈ directions → n' ∉ directions →
        legOf E v' j (x + t.mulM r).fin d'.metas n n' = (legOf E v j x.fin d.metas n n').map (fun l => (l.1, l.2 + (t.mulM r).fin)) := by
      intro j x n n' hn hn'
      unfold legOf
      rcases look_rel h.2 n with ⟨h1, h2⟩ | ⟨m, m', h1, h2, -⟩
      · rw [h1, h2]
        dsimp only
        rcases e (j + 1) n' hn' with ⟨k1, k2⟩ | ⟨p, p', k1, k2, -, k4⟩
        · rw [k1, k2]; rfl
        · rw [k1, k2, k4 hcase]
          simp only [Option.map_some, V3.fin_plus, V3.sub_mv, V3.back_mv]
      · rw [h1, h2]
        dsimp only
        rcases g j n hn with ⟨k1, k2⟩ | ⟨m, -, -, u, l, -, k1, k2⟩
        · rw [k1, k2]; rfl
        · rw [k1, k2]; rfl
    unfold drawnItems
    simp only [bind, f, hs]
    rcases e 0 c!"at" (by decide) with ⟨a1, a2⟩ | ⟨a, a', a1, a2, a3, a4⟩
    · simp only [a1, a2, Option.bind_none, Option.map_none]
    rcases e 1 c!"apex" (by decide) with ⟨x1, x2⟩ | ⟨x, x', x1, x2, x3, x4⟩
    · simp only [a1, a2, x1, x2, Option.bind_none, Option.bind_some, Option.map_none]
    simp only [a1, a2, x1, x2, Option.bind_some, x4 hcase, a4 hcase]
    rw [leg 2 x _ _ (by decide) (by decide)]
    cases legOf E v 2 x.fin d.metas c!"from_dir" c!"from_point" with
    | none => rfl
    | some l1 =>
      simp only [Option.map_some, Option.bind_some]
      rw [leg 4 x _ _ (by decide) (by decide)]
      cases legOf E v 4 x.fin d.metas c!"to_dir" c!"to_point" with
      | none => rfl
      | some l2 =>
        simp only [Option.map_some, Option.bind_some]
        cases formatOf E c!"%.1f" d.metas with
        | none => rfl
        | some F =>
          simp only [Option.bind_some]
          split
          · rfl
          · split
            · simp only [Option.map_some, V3.fin_plus, angleItems_mv]
            · simp only [Option.map_some, V3.fin_plus, angleItems_mv]

/-! ## The drawing -/

theorem setInsert_map {κ : Type} (lt : κ → κ → Bool) (φ : κ → κ) (hφ : ∀ a b, lt (φ a) (φ b) = lt a b) (k : κ) (l : List κ) :
    setInsert lt (φ k) (l.map φ) = (setInsert lt k l).map φ := by
  induction l with
  | nil => rfl
  | cons x xs ih =>
    simp only [List.map_cons, setInsert, hφ]
    split
    · rfl
    · split
      · rw [ih]; rfl
      · rfl

theorem points_mapStl (t : V3 ℝ) (s : STLFile (Ext ℝ)) : (mapStl (aff 1 t) (affF (k := 1) t) s).points = s.points.map (aff 1 t) := by
  unfold STLFile.points
  have e : (mapStl (aff 1 t) (affF (k := 1) t) s).facets.flatMap Facet.corners = (s.facets.flatMap Facet.corners).map (aff 1 t) := by
    simp only [mapStl]
    induction s.facets with
    | nil => rfl
    | cons f fs ih =>
      simp only [List.map_cons, List.flatMap_cons, List.map_append, ih]
      rfl
  rw [e]
  have gen : ∀ (l : List (V3 (Ext ℝ))) (acc : List (V3 (Ext ℝ))), (l.map (aff 1 t)).foldl (fun ps e => setInsert order e ps) (acc.map (aff 1 t)) =
      (l.foldl (fun ps e => setInsert order e ps) acc).map (aff 1 t) := by
    intro l
    induction l with
    | nil => intro acc; rfl
    | cons x l ih =>
      intro acc
      simp only [List.map_cons, List.foldl_cons]
      rw [setInsert_map order (aff 1 t) (aff_order t one_pos), ih]
  exact gen _ []

/-- the corners in view of a moved model -/
theorem points_moved (t : V3 ℝ) (s u : STLFile (Ext ℝ)) (m : M3 ℝ) (hm : IsRotation m) (h : List.Forall₂ (Facet.Resized 1 t) s.facets u.facets)
    {p q : STLFile (Ext ℝ)} (hp : s.rotate m.fin = .ok p) (hq : u.rotate m.fin = .ok q) {qs : List (V3 ℝ)} (hqs : p.cull.points = qs.map V3.fin) :
    q.cull.points = (qs.map (· + t.mulM m)).map V3.fin := by
  have hs : ∀ f ∈ s.facets, f.Made := by
    intro f hf
    obtain ⟨g, -, n, a, b, c, e, -⟩ := forall₂_mem h hf
    exact ⟨n, a, b, c, e⟩
  have hu : ∀ f ∈ u.facets, f.Made := by
    intro f hf
    obtain ⟨g, -, n, a, b, c, -, e⟩ := forall₂_mem h.flip hf
    exact ⟨n, _, _, _, e⟩
  have hrot := rotate_resized t s u m hm one_pos h
  obtain ⟨p', ts, es, r1, r2, -⟩ := C26_after_view s m hm hs
  obtain ⟨q', us, es', t1, t2, -⟩ := C26_after_view u m hm hu
  rw [hp] at r1; cases r1
  rw [hq] at t1; cases t1
  rw [hp, hq] at hrot
  injection hrot with hrot
  rw [t2, hrot, points_mapStl, ← r2, hqs, List.map_map, List.map_map]
  apply List.map_congr_left
  intro x _
  simp only [Function.comp, aff_fin]
  congr 1
  ext <;> simp [V3.resized, V3.smul]

theorem scale_ne {ms : List (Meta (Ext ℝ))} (hb : ∀ m ∈ ms, ∀ a b, m.val = .scale a b → b ≠ 0) {sc : Int × Int} (k1 : scaleOf (look ms c!"scale") = .ok sc) : sc.2 ≠ 0 := by
  unfold scaleOf at k1
  cases hl : look ms c!"scale" with
  | none => rw [hl] at k1; cases k1; decide
  | some m =>
    rw [hl] at k1
    dsimp only at k1
    have hmem := look_mem hl
    cases hv : m.val with
    | scale a b => rw [hv] at k1; cases k1; exact hb m hmem a b hv
    | _ => rw [hv] at k1; cases k1

/-- two drawings of which the outline and every dimension come to the same on paper -/
theorem draw_carried {E : Env (Ext ℝ)} {stl stl' : Models (Ext ℝ)} {name name' : Str} {ms ms' : List (Meta (Ext ℝ))} {dims dims' : List (DimN (Ext ℝ))} {line line' : Nat}
    {sc sc' : Int × Int} {rot rot' : M3 (Ext ℝ)} {loc loc' : V2 (Ext ℝ)} {file file' proj proj' : STLFile (Ext ℝ)} {ls ls' : List (Line (Ext ℝ))}
    (hD : Drawn E stl name ms sc rot loc file proj ls) (hD' : Drawn E stl' name' ms' sc' rot' loc' file' proj' ls')
    (hj : rot.eqv E.junkM = false) (hj' : rot'.eqv E.junkM = false)
    (hn : (∀ m ∈ ms, m.name ∈ [c!"scale", c!"view", c!"@"]) ↔ ∀ m ∈ ms', m.name ∈ [c!"scale", c!"view", c!"@"])
    (hpage : (drawStart (initVis E) sc' rot' loc' proj'.cull ls').page = (drawStart (initVis E) sc rot loc proj.cull ls).page)
    (hd : List.Forall₂ (fun d d' => (GoodDim d'.kind d'.metas ↔ GoodDim d.kind d.metas) ∧
      (drawnItems E (drawStart (initVis E) sc' rot' loc' proj'.cull ls') d'.kind d'.metas).map (OutPage.moved (projScale sc') (projOffset loc' proj'.cull.limits (projScale sc'))) =
      (drawnItems E (drawStart (initVis E) sc rot loc proj.cull ls) d.kind d.metas).map (OutPage.moved (projScale sc) (projOffset loc proj.cull.limits (projScale sc)))) dims dims')
    {c c'} (hc : content E stl (.draw name ms dims line) = .ok c) (hc' : content E stl' (.draw name' ms' dims' line') = .ok c') : c'.1 = c.1 ∧ c'.2.1 = c.2.1 := by
  rcases draw_sum E stl name ms dims line c hc with ⟨-, -, -, h1⟩ | ⟨sc1, rot1, loc1, file1, proj1, ls1, cs, hD1, hcs, hp, hok, -⟩
  · exact absurd ⟨_, _, _, _, _, _, hD⟩ h1
  obtain ⟨rfl, rfl, rfl, rfl, rfl, rfl⟩ := drawn_unique hD hD1
  rcases draw_sum E stl' name' ms' dims' line' c' hc' with ⟨-, -, -, h1⟩ | ⟨sc2, rot2, loc2, file2, proj2, ls2, cs', hD2, hcs', hp', hok', -⟩
  · exact absurd ⟨_, _, _, _, _, _, hD'⟩ h1
  obtain ⟨rfl, rfl, rfl, rfl, rfl, rfl⟩ := drawn_unique hD' hD2
  have gen : (cs'.map (fun k => (k.1, k.2.1))) = cs.map (fun k => (k.1, k.2.1)) := by
    clear hp hp' hok hok' hc hc'
    have hv : (drawStart (initVis E) sc rot loc proj.cull ls).rotation.eqv E.junkM = false := hj
    have hv' : (drawStart (initVis E) sc' rot' loc' proj'.cull ls').rotation.eqv E.junkM = false := hj'
    induction hd generalizing cs cs' with
    | nil => cases hcs; cases hcs'; rfl
    | @cons d d' ds ds' hdd _ ih =>
      cases hcs with
      | @cons _ k _ cs k1 k2 =>
      cases hcs' with
      | @cons _ k' _ cs' m1 m2 =>
      rw [List.map_cons, List.map_cons, ih cs k2 cs' m2]
      congr 1
      obtain ⟨a1, a2⟩ := dimContent_items E _ d hv
      obtain ⟨b1, b2⟩ := dimContent_items E _ d' hv'
      by_cases hg : GoodDim d.kind d.metas
      · cases hI : drawnItems E (drawStart (initVis E) sc rot loc proj.cull ls) d.kind d.metas with
        | none =>
          obtain ⟨L, e⟩ := a2 (Or.inr hI)
          have hI' := hdd.2
          rw [hI] at hI'
          simp only [Option.map_none, Option.map_eq_none_iff] at hI'
          obtain ⟨L', e'⟩ := b2 (Or.inr hI')
          rw [k1] at e; rw [m1] at e'; cases e; cases e'; rfl
        | some P =>
          obtain ⟨L, e⟩ := a1 P hg hI
          have hI' := hdd.2
          rw [hI] at hI'
          simp only [Option.map_some, Option.map_eq_some_iff] at hI'
          obtain ⟨P', hP', hPP⟩ := hI'
          obtain ⟨L', e'⟩ := b1 P' (hdd.1.2 hg) hP'
          rw [k1] at e; rw [m1] at e'; cases e; cases e'
          exact congrArg (Prod.mk true) hPP
      · obtain ⟨L, e⟩ := a2 (Or.inl hg)
        obtain ⟨L', e'⟩ := b2 (Or.inl (fun h => hg (hdd.1.1 h)))
        rw [k1] at e; rw [m1] at e'; cases e; cases e'; rfl
  have g1 : cs'.map (fun k => k.2.1) = cs.map (fun k => k.2.1) := by
    have := congrArg (List.map Prod.snd) gen
    simpa [List.map_map, Function.comp_def] using this
  have g2 : cs'.map (fun k => k.1) = cs.map (fun k => k.1) := by
    have := congrArg (List.map Prod.fst) gen
    simpa [List.map_map, Function.comp_def] using this
  refine ⟨?_, by rw [hp, hp', g1, hpage]⟩
  have hall : ∀ cs : List (Bool × OutPage (Ext ℝ) × List Diag), (∀ k ∈ cs, k.1 = true) ↔ ∀ b ∈ cs.map (fun k => k.1), b = true := by intro cs; simp
  have : c'.1 = true ↔ c.1 = true := by rw [hok, hok', hall, hall, g2, hn]
  exact Bool.eq_iff_iff.2 this

end S2P
