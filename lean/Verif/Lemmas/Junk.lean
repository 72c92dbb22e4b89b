import Verif.Lemmas.Moved
import Verif.Lemmas.Finite
import Verif.Lemmas.Pages
import Verif.Props.Circle
import Verif.Props.Drawing

set_option linter.unusedSectionVars false
set_option linter.unusedVariables false
set_option linter.unusedSimpArgs false

/-! # Uninitialised vectors and matrices have no influence (towards C53) -/

namespace S2P

/-- evaluating a finite point over finite vertices: success and diagnostics never depend on uninitialised memory, and the point found
does not either -/
theorem invoke_indep (qs : List (V3 ℝ)) : ∀ (p : Pt (Ext ℝ)), p.IsFin → ∀ (j j' : Nat → V3 (Ext ℝ)) (ret ret' : V3 (Ext ℝ)),
    (p.invoke j (qs.map V3.fin) ret).1 = (p.invoke j' (qs.map V3.fin) ret').1 ∧
    (p.invoke j (qs.map V3.fin) ret).2.2 = (p.invoke j' (qs.map V3.fin) ret').2.2 ∧
    ((p.invoke j (qs.map V3.fin) ret).1 = true →
      (p.invoke j (qs.map V3.fin) ret).2.1 = (p.invoke j' (qs.map V3.fin) ret').2.1 ∧ (p.invoke j (qs.map V3.fin) ret).2.1.IsFin)
  | .val p l, hp, j, j', ret, ret' => ⟨rfl, rfl, fun _ => ⟨rfl, hp⟩⟩
  | .func n p l, hp, j, j', ret, ret' => by
    obtain ⟨h1, h2, h3⟩ := invoke_indep qs p hp (fun n => j (n + 1)) (fun n => j' (n + 1)) (j 0) (j' 0)
    unfold Pt.invoke
    split_ifs with c1 c2 c3 c4
    · exact ⟨rfl, rfl, by simp⟩
    · cases hi : p.invoke (fun n => j (n + 1)) (qs.map V3.fin) (j 0) with
      | mk b x =>
        cases hi' : p.invoke (fun n => j' (n + 1)) (qs.map V3.fin) (j' 0) with
        | mk b' x' =>
          obtain ⟨t, ds⟩ := x
          obtain ⟨t', ds'⟩ := x'
          rw [hi, hi'] at h1 h2 h3
          simp only at h1 h2 h3
          subst h1 h2
          cases b with
          | false => exact ⟨rfl, rfl, by simp⟩
          | true =>
            obtain ⟨rfl, t, rfl⟩ := h3 rfl
            simp only
            split_ifs
            · exact ⟨rfl, rfl, fun _ => ⟨rfl, _, rfl⟩⟩
            · refine ⟨rfl, rfl, fun _ => ?_⟩
              simp only
              have hok : ∀ q ∈ qs.map V3.fin, ∃ k, nearDist (⟨t.fin.x, t.fin.y, FP.lit 0⟩ : V3 (Ext ℝ)) q = Ext.fin k := by
                intro q hq
                obtain ⟨q, -, rfl⟩ := List.mem_map.1 hq
                simp only [nearDist, Ext.lit_eq, V3.map]
                exact ⟨_, by simp [V3.sqNorm, V3.dot]; rfl⟩
              have hok' : ∀ q ∈ qs.map V3.fin, FP.Ok (nearDist (⟨t.fin.x, t.fin.y, FP.lit 0⟩ : V3 (Ext ℝ)) q) := by
                intro q hq
                obtain ⟨k, e⟩ := hok q hq
                rw [e]; exact Ext.ok_fin _
              cases hq : qs with
              | nil => rw [hq] at c2; simp at c2
              | cons q qs' =>
                rw [hq] at hok
                obtain ⟨k, e⟩ := hok q.fin (by simp)
                have hlt : FP.lt (nearDist (⟨t.fin.x, t.fin.y, FP.lit 0⟩ : V3 (Ext ℝ)) q.fin) FP.dblMax = true := by
                  rw [e]; rfl
                rw [List.map_cons, nearLoop_cons, nearLoop_cons, if_pos hlt, if_pos hlt]
                refine ⟨rfl, ?_⟩
                rcases nearLoop_spec (⟨t.fin.x, t.fin.y, FP.lit 0⟩ : V3 (Ext ℝ)) (qs'.map V3.fin)
                  (nearDist (⟨t.fin.x, t.fin.y, FP.lit 0⟩ : V3 (Ext ℝ)) q.fin) ⟨q.fin.x, q.fin.y, FP.lit 0⟩
                  (fun x hx => hok' x (by rw [hq]; exact List.mem_cons_of_mem _ hx)) with ⟨e1, -⟩ | ⟨x, hx, e1, -⟩
                · rw [e1]; exact ⟨⟨q.x, q.y, 0⟩, by simp [V3.map]⟩
                · obtain ⟨x, -, rfl⟩ := List.mem_map.1 hx
                  rw [e1]; exact ⟨⟨x.x, x.y, 0⟩, by simp [V3.map]⟩
    · exact ⟨rfl, rfl, by simp⟩
    · cases hi : p.invoke (fun n => j (n + 1)) (qs.map V3.fin) (j 0) with
      | mk b x =>
        cases hi' : p.invoke (fun n => j' (n + 1)) (qs.map V3.fin) (j' 0) with
        | mk b' x' =>
          obtain ⟨t, ds⟩ := x
          obtain ⟨t', ds'⟩ := x'
          rw [hi, hi'] at h1 h2 h3
          simp only at h1 h2 h3
          subst h1 h2
          cases b with
          | false => exact ⟨rfl, rfl, by simp⟩
          | true =>
            obtain ⟨rfl, t, rfl⟩ := h3 rfl
            simp only
            cases hl : locate (qs.map V3.fin) t.fin.xy with
            | none => exact ⟨rfl, rfl, by simp⟩
            | some x =>
              obtain ⟨c, r⟩ := x
              obtain ⟨c', r', rfl, rfl, -⟩ := C13_sound qs t.xy c r hl
              refine ⟨rfl, rfl, fun _ => ⟨rfl, ⟨c'.x, c'.y, 0⟩, by simp [V3.map, V2.map]⟩⟩
    · exact ⟨rfl, rfl, by simp⟩

theorem rot_isFin (r : M3 ℝ) : ∀ {p : Pt (Ext ℝ)}, p.IsFin → (p.rot r.fin).IsFin
  | .val p l, ⟨a, h⟩ => ⟨a.mulM r, by rw [h, V3.fin_mulM]⟩
  | .func n p l, h => rot_isFin r (p := p) h

/-- the state of a dimension visit with everything finite -/
structure DimSt.Tame (s : DimSt (Ext ℝ)) : Prop where
  metas : ∀ m ∈ s.metas, m.val.IsFin
  points : ∃ qs : List (V3 ℝ), s.vis.points = qs.map V3.fin
  rotation : ∃ r : M3 ℝ, IsRotation r ∧ s.vis.rotation = r.fin

/-- the same environment with other contents of uninitialised memory -/
def Env.with {α : Type} (E : Env α) (J : Nat → V3 α) (M : M3 α) : Env α := { E with junk := J, junkM := M }

theorem getRotated_pt {α : Type} [FP α] (E : Env α) (s : DimSt α) (i : Nat) (ret : V3 α) (m : Meta α) (p : Pt α) (hr : s.vis.rotation.eqv E.junkM = false)
    (hm : s.metas[i]? = some m) (hv : m.val = .pt p) :
    getRotated E s i ret = .ok (((p.rot s.vis.rotation).invoke E.junk s.vis.points ret).1, ((p.rot s.vis.rotation).invoke E.junk s.vis.points ret).2.1,
      ⟨s.metas.set i { m with val := .pt (p.rot s.vis.rotation) }, s.vis.errs ((p.rot s.vis.rotation).invoke E.junk s.vis.points ret).2.2⟩) := by
  unfold getRotated
  rw [hr, hm]
  simp [hv]

theorem getRotated_other {α : Type} [FP α] (E : Env α) (s : DimSt α) (i : Nat) (ret : V3 α) (m : Meta α) (hr : s.vis.rotation.eqv E.junkM = false)
    (hm : s.metas[i]? = some m) (hv : ∀ p, m.val ≠ .pt p) :
    getRotated E s i ret = .ok (false, ret, ⟨s.metas, s.vis.err m.line (c!"Expected point for '" ++ m.name ++ c!"' got " ++ m.val.typeName)⟩) := by
  unfold getRotated
  rw [hr, hm]
  cases h : m.val with
  | pt p => exact absurd h (hv p)
  | _ => simp [h]

/-- the point is a literal -/
def MetaVal.Lit {α : Type} (v : MetaVal α) : Prop := ∃ p l, v = .pt (.val p l)

theorem getRotated_indep (E : Env (Ext ℝ)) (J M) (hJ : E.NotAView) (hJ' : (E.with J M).NotAView) (s : DimSt (Ext ℝ)) (hs : s.Tame) (i : Nat)
    (ret ret' : V3 (Ext ℝ)) :
    (∃ a, getRotated E s i ret = .error a ∧ getRotated (E.with J M) s i ret' = .error a) ∨
    ∃ b x x' s', getRotated E s i ret = .ok (b, x, s') ∧ getRotated (E.with J M) s i ret' = .ok (b, x', s') ∧
      (b = true → x = x' ∧ x.IsFin) ∧ s'.Tame ∧
      ((∀ m, s.metas[i]? = some m → m.val.Lit) → b = true) ∧
      s'.metas.map (fun m => m.name) = s.metas.map (fun m => m.name) ∧
      ∀ n, (∀ m ∈ s.metas, m.name = n → m.val.Lit) → ∀ m ∈ s'.metas, m.name = n → m.val.Lit := by
  obtain ⟨qs, hq⟩ := hs.points
  obtain ⟨r, hr, hrr⟩ := hs.rotation
  have j1 : s.vis.rotation.eqv E.junkM = false := by rw [hrr]; exact hJ r hr
  have j2 : s.vis.rotation.eqv (E.with J M).junkM = false := by rw [hrr]; exact hJ' r hr
  cases hm : s.metas[i]? with
  | none =>
    left
    unfold getRotated
    rw [j1, j2, hm]
    exact ⟨_, rfl, rfl⟩
  | some m =>
    have hmem : m ∈ s.metas := List.mem_of_getElem? hm
    have hfin := hs.metas m hmem
    right
    by_cases hv : ∃ p, m.val = .pt p
    · obtain ⟨p, hv⟩ := hv
      rw [hv] at hfin
      have hp := rot_isFin r hfin
      obtain ⟨h1, h2, h3⟩ := invoke_indep qs (p.rot r.fin) hp E.junk J ret ret'
      refine ⟨_, _, ((p.rot r.fin).invoke J s.vis.points ret').2.1, _, getRotated_pt E s i ret m p j1 hm hv, ?_, ?_, ?_, ?_, ?_, ?_⟩
      · rw [getRotated_pt _ s i ret' m p j2 hm hv, hq, hrr, h1, h2]; rfl
      · rw [hq, hrr]; exact h3
      · refine ⟨?_, ⟨qs, hq⟩, ⟨r, hr, hrr⟩⟩
        intro m' hm'
        rcases List.mem_or_eq_of_mem_set hm' with h | rfl
        · exact hs.metas m' h
        · rw [hrr]; exact hp
      · intro hl
        obtain ⟨p', l, e⟩ := hl m rfl
        rw [hv] at e; cases e
        rfl
      · simp only
        rw [List.map_set]
        apply List.ext_getElem (by simp)
        intro n h1 h2
        by_cases hn : i = n
        · subst hn
          obtain ⟨_, e⟩ := List.getElem?_eq_some_iff.1 hm
          simp [e]
        · simp [List.getElem_set, hn]
      · intro n hn m' hm' e
        rcases List.mem_or_eq_of_mem_set hm' with h | rfl
        · exact hn m' h e
        · obtain ⟨p', l, e'⟩ := hn m hmem e
          rw [hv] at e'; cases e'
          exact ⟨_, _, rfl⟩
    · rw [not_exists] at hv
      refine ⟨_, _, ret', _, getRotated_other E s i ret m j1 hm hv, getRotated_other _ s i ret' m j2 hm hv, by simp,
        ⟨hs.metas, ⟨qs, hq⟩, ⟨r, hr, hrr⟩⟩, ?_, rfl, fun n hn => hn⟩
      intro hl
      obtain ⟨p, l, e⟩ := hl m rfl
      exact absurd e (hv _)

section
variable (E : Env (Ext ℝ)) (J : Nat → V3 (Ext ℝ)) (M : M3 (Ext ℝ)) (hJ : E.NotAView) (hJ' : (E.with J M).NotAView)
include hJ hJ'

theorem getCenter_indep (s : DimSt (Ext ℝ)) (hs : s.Tame) (line : Nat) (seen : Seen) :
    getCenter E s line seen = getCenter (E.with J M) s line seen := by
  unfold getCenter
  dsimp only
  split
  · rename_i iA iD iC _ _ _
    split
    · rfl
    simp only [bind, Except.bind]
    rcases getRotated_indep E J M hJ hJ' s hs iA (E.junk 0) ((E.with J M).junk 0) with ⟨a, e, e'⟩ | ⟨b1, x1, x1', s1, e, e', k1, t1, -⟩
    · rw [e, e']
    rw [e, e']; dsimp only
    rcases getRotated_indep E J M hJ hJ' s1 t1 iC (E.junk 1) ((E.with J M).junk 1) with ⟨a, e, e'⟩ | ⟨b2, x2, x2', s2, e, e', k2, t2, -⟩
    · rw [e, e']
    rw [e, e']; dsimp only
    rcases getRotated_indep E J M hJ hJ' s2 t2 iD (E.junk 2) ((E.with J M).junk 2) with ⟨a, e, e'⟩ | ⟨b3, x3, x3', s3, e, e', k3, t3, -⟩
    · rw [e, e']
    rw [e, e']; dsimp only
    cases b1 <;> cases b2 <;> cases b3 <;> simp only [Bool.and_true, Bool.and_false, Bool.not_false, Bool.not_true, if_true] <;> try rfl
    rw [(k1 rfl).1, (k2 rfl).1, (k3 rfl).1]
  · rfl

theorem visitCirc_indep (kind : Str) (dr) (s : DimSt (Ext ℝ)) (hs : s.Tame) (line : Nat) :
    visitCirc E kind dr s line = visitCirc (E.with J M) kind dr s line := by
  unfold visitCirc
  dsimp only
  split
  · rfl
  · rw [getCenter_indep E J M hJ hJ' ⟨s.metas, s.vis.errs (flatten kind s.metas).2.2⟩ ⟨hs.metas, hs.points, hs.rotation⟩]
    rfl

theorem angleLeg_indep (s : DimSt (Ext ℝ)) (hs : s.Tame) (b : Bool) (apex apex' : V3 (Ext ℝ)) (hb : b = true → apex = apex') (pDir pPoint : Option Nat) (j : Nat) :
    (∃ a, angleLeg E s apex pDir pPoint j = .error a ∧ angleLeg (E.with J M) s apex' pDir pPoint j = .error a) ∨
    ∃ c x x' y y' s', angleLeg E s apex pDir pPoint j = .ok (c, x, y, s') ∧ angleLeg (E.with J M) s apex' pDir pPoint j = .ok (c, x', y', s') ∧
      (b = true → c = true → x = x' ∧ y = y') ∧ s'.Tame := by
  unfold angleLeg
  split
  · rename_i i
    simp only [bind, Except.bind, pure, Except.pure]
    rcases getRotated_indep E J M hJ hJ' s hs i (E.junk j) ((E.with J M).junk j) with ⟨a, e, e'⟩ | ⟨b1, x1, x1', s1, e, e', k1, t1, -⟩
    · rw [e, e']; exact .inl ⟨_, rfl, rfl⟩
    · rw [e, e']
      exact .inr ⟨_, _, _, _, _, _, rfl, rfl, fun h1 h2 => ⟨by rw [(k1 h2).1], hb h1⟩, t1⟩
  · rename_i i
    simp only [bind, Except.bind, pure, Except.pure]
    rcases getRotated_indep E J M hJ hJ' s hs i (E.junk (j + 1)) ((E.with J M).junk (j + 1)) with ⟨a, e, e'⟩ | ⟨b1, x1, x1', s1, e, e', k1, t1, -⟩
    · rw [e, e']; exact .inl ⟨_, rfl, rfl⟩
    · rw [e, e']
      exact .inr ⟨_, _, _, _, _, _, rfl, rfl, fun h1 h2 => ⟨by rw [(k1 h2).1, hb h1], (k1 h2).1⟩, t1⟩
  · exact .inl ⟨_, rfl, rfl⟩

theorem visitAngle_indep (s : DimSt (Ext ℝ)) (hs : s.Tame) (line : Nat) : visitAngle E s line = visitAngle (E.with J M) s line := by
  unfold visitAngle
  dsimp only
  split
  · rfl
  split
  · rename_i iA iX _ _ _
    split
    · rfl
    simp only [bind, Except.bind]
    generalize hS : (DimSt.mk _ _ : DimSt (Ext ℝ)) = s0
    have t0 : s0.Tame := by rw [← hS]; exact ⟨hs.metas, hs.points, hs.rotation⟩
    rcases getRotated_indep E J M hJ hJ' s0 t0 iA (E.junk 0) ((E.with J M).junk 0) with ⟨a, e, e'⟩ | ⟨b1, x1, x1', s1, e, e', k1, t1, -⟩
    · rw [e, e']
    rw [e, e']; dsimp only
    rcases getRotated_indep E J M hJ hJ' s1 t1 iX (E.junk 1) ((E.with J M).junk 1) with ⟨a, e, e'⟩ | ⟨b2, x2, x2', s2, e, e', k2, t2, -⟩
    · rw [e, e']
    rw [e, e']; dsimp only
    generalize (take c!"from_dir" _).1 = pFD
    generalize (take c!"from_point" _).1 = pFP
    generalize (take c!"to_dir" _).1 = pTD
    generalize (take c!"to_point" _).1 = pTP
    rcases angleLeg_indep E J M hJ hJ' s2 t2 b2 x2 x2' (fun h => (k2 h).1) pFD pFP 2 with ⟨a, e, e'⟩ | ⟨b3, x3, x3', y3, y3', s3, e, e', k3, t3⟩
    · rw [e, e']
    rw [e, e']; dsimp only
    rcases angleLeg_indep E J M hJ hJ' s3 t3 b2 x2 x2' (fun h => (k2 h).1) pTD pTP 4 with ⟨a, e, e'⟩ | ⟨b4, x4, x4', y4, y4', s4, e, e', k4, t4⟩
    · rw [e, e']
    rw [e, e']; dsimp only
    rw [show getFmt (E.with J M) = getFmt E from rfl]
    split
    · rfl
    · cases b1 <;> cases b2 <;> cases b3 <;> cases b4 <;> simp only [Bool.and_true, Bool.and_false, Bool.not_false, Bool.not_true, if_true] <;> try rfl
      rw [(k1 rfl).1, (k2 rfl).1, (k3 rfl rfl).1, (k3 rfl rfl).2, (k4 rfl rfl).1, (k4 rfl rfl).2]
  · rfl

theorem visitDim_indep (s : DimSt (Ext ℝ)) (hs : s.Tame) (hl : ∀ m ∈ s.metas, m.name = c!"dir" → m.val.Lit) (line : Nat) :
    visitDim E s line = visitDim (E.with J M) s line := by
  unfold visitDim
  dsimp only
  split
  · rfl
  obtain ⟨p1, q1⟩ := rep_take (rep_flatten c!"dim" s.metas) c!"at"
  obtain ⟨p2, q2⟩ := rep_take q1 c!"dir"
  rw [if_neg (by decide)] at p2
  generalize (take c!"dir" _).1 = pD at p2 ⊢
  split
  · rename_i iA iD iF iT _ _ _ _
    obtain ⟨mD, g1, g2, -⟩ := ixOf_some p2.symm
    simp only [bind, Except.bind]
    generalize hS : (DimSt.mk _ _ : DimSt (Ext ℝ)) = s0
    have t0 : s0.Tame := by rw [← hS]; exact ⟨hs.metas, hs.points, hs.rotation⟩
    have l0 : ∀ m ∈ s0.metas, m.name = c!"dir" → m.val.Lit := by rw [← hS]; exact hl
    have n0 : s0.metas = s.metas := by rw [← hS]
    rcases getRotated_indep E J M hJ hJ' s0 t0 iA (E.junk 0) ((E.with J M).junk 0) with ⟨a, e, e'⟩ | ⟨b1, x1, x1', s1, e, e', k1, t1, -, n1, l1⟩
    · rw [e, e']
    rw [e, e']; dsimp only
    rcases getRotated_indep E J M hJ hJ' s1 t1 iD (E.junk 1) ((E.with J M).junk 1) with ⟨a, e, e'⟩ | ⟨b2, x2, x2', s2, e, e', k2, t2, m2, -⟩
    · rw [e, e']
    have hb2 : b2 = true := m2 (by
      intro m hm
      apply l1 _ l0 m (List.mem_of_getElem? hm)
      have h1 : (s1.metas.map (fun m => m.name))[iD]? = some m.name := by simp [hm]
      rw [n1, n0] at h1
      simp only [List.getElem?_map, g1, Option.map_some, Option.some.injEq] at h1
      rw [← h1, g2])
    rw [e, e']; dsimp only
    rcases getRotated_indep E J M hJ hJ' s2 t2 iF (E.junk 2) ((E.with J M).junk 2) with ⟨a, e, e'⟩ | ⟨b3, x3, x3', s3, e, e', k3, t3, -⟩
    · rw [e, e']
    rw [e, e']; dsimp only
    rcases getRotated_indep E J M hJ hJ' s3 t3 iT (E.junk 3) ((E.with J M).junk 3) with ⟨a, e, e'⟩ | ⟨b4, x4, x4', s4, e, e', k4, t4, -⟩
    · rw [e, e']
    rw [e, e']; dsimp only
    rw [show getFmt (E.with J M) = getFmt E from rfl, (k2 hb2).1]
    split
    · rfl
    split
    · rfl
    · subst hb2
      cases b1 <;> cases b3 <;> cases b4 <;> simp only [Bool.and_true, Bool.and_false, Bool.not_false, Bool.not_true, if_true] <;> try rfl
      rw [(k1 rfl).1, (k3 rfl).1, (k4 rfl).1]
  · rfl

theorem visitDimN_indep (v : Vis (Ext ℝ)) (d : DimN (Ext ℝ)) (hs : (⟨d.metas, v⟩ : DimSt (Ext ℝ)).Tame)
    (hl : d.kind = .dim → ∀ m ∈ d.metas, m.name = c!"dir" → m.val.Lit) : visitDimN E v d = visitDimN (E.with J M) v d := by
  unfold visitDimN
  cases hk : d.kind with
  | angle => simp only [visitAngle_indep E J M hJ hJ' _ hs]
  | dia => simp only [visitCirc_indep E J M hJ hJ' _ _ _ hs]
  | rad => simp only [visitCirc_indep E J M hJ hJ' _ _ _ hs]
  | dim => simp only [visitDim_indep E J M hJ hJ' _ hs (hl hk)]

end

section
variable (E : Env (Ext ℝ)) (J : Nat → V3 (Ext ℝ)) (M : M3 (Ext ℝ)) (hJ : E.NotAView) (hJ' : (E.with J M).NotAView)
include hJ hJ'

/-- the direction of every linear dimension is a literal point -/
def DimN.DirLit {α : Type} (d : DimN α) : Prop := d.kind = .dim → ∀ m ∈ d.metas, m.name = c!"dir" → m.val.Lit

theorem visitDims_indep : ∀ (ds : List (DimN (Ext ℝ))) (v : Vis (Ext ℝ)), (∀ d ∈ ds, d.IsFin) → (∀ d ∈ ds, d.DirLit) →
    (∃ qs : List (V3 ℝ), v.points = qs.map V3.fin) → (∃ r : M3 ℝ, IsRotation r ∧ v.rotation = r.fin) →
    visitDims E ds v = visitDims (E.with J M) ds v
  | [], v, _, _, _, _ => rfl
  | d :: ds, v, hf, hl, hp, hr => by
    unfold visitDims
    rw [visitDimN_indep E J M hJ hJ' v d ⟨hf d (by simp), hp, hr⟩ (hl d (by simp))]
    simp only [bind, Except.bind]
    cases h : visitDimN (E.with J M) v d with
    | error a => rfl
    | ok x =>
      obtain ⟨c1, c2, c3, c4⟩ := visitDimN_ctx _ v d x h
      dsimp only
      rw [visitDims_indep ds x.2.2 (fun y hy => hf y (by simp [hy])) (fun y hy => hl y (by simp [hy])) (by rw [c1]; exact hp) (by rw [c2]; exact hr)]

/-- the points of a viewed model are finite -/
theorem viewed_points (file proj : STLFile (Ext ℝ)) (hmade : ∀ f ∈ file.facets, f.Made) (r : M3 ℝ) (hr : IsRotation r)
    (ht : file.rotate r.fin = .ok proj) : ∃ qs : List (V3 ℝ), proj.cull.points = qs.map V3.fin := by
  have hcf := viewed_fin file proj hmade r hr ht
  have hok : ∀ f ∈ proj.cull.facets, f.e0.Ok ∧ f.e1.Ok ∧ f.e2.Ok := by
    intro f hf
    have : ∀ p ∈ f.corners, V3.Ok p := by
      intro p hp
      obtain ⟨a, rfl⟩ := hcf p (List.mem_flatMap.mpr ⟨f, hf, hp⟩)
      exact V3.ok_fin a
    exact ⟨this _ (by simp [Facet.corners]), this _ (by simp [Facet.corners]), this _ (by simp [Facet.corners])⟩
  have hall : ∀ p ∈ proj.cull.points, p.IsFin := by
    intro p hp
    obtain ⟨f, hf, h⟩ := (C18_points proj.cull hok).1 p hp
    exact hcf p (List.mem_flatMap.mpr ⟨f, hf, by simpa [Facet.corners] using h⟩)
  revert hall
  generalize proj.cull.points = l
  intro hall
  induction l with
  | nil => exact ⟨[], rfl⟩
  | cons p l ih =>
    obtain ⟨q, rfl⟩ := hall p (by simp)
    obtain ⟨cs, rfl⟩ := ih (fun p hp => hall p (by simp [hp]))
    exact ⟨q :: cs, rfl⟩

def Drawable.DirLit {α : Type} : Drawable α → Prop
  | .draw _ _ ds _ => ∀ d ∈ ds, d.DirLit
  | .text _ _ _ => True

theorem visitDraw_indep (stl : Models (Ext ℝ)) (hM : stl.Made) (v : Vis (Ext ℝ)) (name : Str) (ms : List (Meta (Ext ℝ))) (dims : List (DimN (Ext ℝ)))
    (line : Nat) (hf : (Drawable.draw name ms dims line).IsFin) (hl : (Drawable.draw name ms dims line).DirLit) :
    visitDraw E stl v name ms dims line = visitDraw (E.with J M) stl v name ms dims line := by
  unfold visitDraw
  dsimp only
  split
  · rfl
  obtain ⟨p1, q1⟩ := rep_take (rep_flatten c!"draw" ms) c!"scale"
  obtain ⟨p2, q2⟩ := rep_take q1 c!"view"
  rw [if_neg (by decide)] at p2
  split
  · rfl
  split
  · rfl
  rename_i e he
  split
  · rfl
  rename_i rot hrot
  rw [p2, drawView_look] at hrot
  obtain ⟨r, rfl, hr⟩ := viewOf_rotation _ (look_fin hf.1 _) _ hrot
  simp only [bind, Except.bind]
  split
  · rfl
  split
  · rfl
  rename_i file hfile
  cases ht : file.rotate r.fin with
  | error a => rfl
  | ok proj =>
    dsimp only
    rw [show (E.with J M).sorter = E.sorter from rfl]
    cases hls : proj.cull.toLines E.sorter with
    | error a => rfl
    | ok ls =>
      dsimp only
      obtain ⟨file', hf', hmade⟩ := hM e (List.mem_of_find?_eq_some he)
      rw [hfile] at hf'; injection hf' with hf'; subst hf'
      rw [visitDims_indep E J M hJ hJ' dims _ hf.2 hl (viewed_points E J M hJ hJ' file proj hmade r hr ht) ⟨r, hr, rfl⟩]

theorem visitDrawables_indep (stl : Models (Ext ℝ)) (hM : stl.Made) : ∀ (ds : List (Drawable (Ext ℝ))) (v : Vis (Ext ℝ)), (∀ d ∈ ds, d.IsFin) →
    (∀ d ∈ ds, d.DirLit) → visitDrawables E stl ds v = visitDrawables (E.with J M) stl ds v
  | [], v, _, _ => rfl
  | d :: ds, v, hf, hl => by
    unfold visitDrawables
    have : visitDrawable E stl v d = visitDrawable (E.with J M) stl v d := by
      unfold visitDrawable
      cases d with
      | draw n ms dims l => simp only [visitDraw_indep E J M hJ hJ' stl hM v n ms dims l (hf _ (by simp)) (hl _ (by simp))]
      | text s ms l => rfl
    rw [this]
    simp only [bind, Except.bind]
    cases h : visitDrawable (E.with J M) stl v d with
    | error a => rfl
    | ok x =>
      dsimp only
      rw [visitDrawables_indep stl hM ds x.2.2 (fun y hy => hf y (by simp [hy])) (fun y hy => hl y (by simp [hy]))]

theorem genPages_indep (stl : Models (Ext ℝ)) (hM : stl.Made) : ∀ (pgs : List (PageN (Ext ℝ))) (n : Nat) (v : Vis (Ext ℝ)),
    (∀ p ∈ pgs, ∀ d ∈ p.draws, d.IsFin ∧ d.DirLit) → genPages E stl pgs n v = genPages (E.with J M) stl pgs n v
  | [], n, v, _ => rfl
  | p :: pgs, n, v, h => by
    unfold genPages
    have : ∀ v, genPage E stl v (n + 1) p = genPage (E.with J M) stl v (n + 1) p := by
      intro v
      unfold genPage
      dsimp only
      rw [visitDrawables_indep E J M hJ hJ' stl hM p.draws _ (fun d hd => (h p (by simp) d hd).1) (fun d hd => (h p (by simp) d hd).2)]
    rw [this]
    simp only [bind, Except.bind]
    cases hx : genPage (E.with J M) stl v (n + 1) p with
    | error a => rfl
    | ok x =>
      dsimp only
      rw [genPages_indep stl hM pgs (n + 1) x.2.2 (fun y hy => h y (by simp [hy]))]

/-- everything is the same if the directions of the linear dimensions are literal points -/
theorem generatePages_indep (stl : Models (Ext ℝ)) (hM : stl.Made) (doc : Doc (Ext ℝ)) (hf : doc.IsFin) (hl : ∀ p ∈ doc.pages, ∀ d ∈ p.draws, d.DirLit)
    (pages : List (OutPage (Ext ℝ))) : generatePages E stl doc pages = generatePages (E.with J M) stl doc pages := by
  unfold generatePages
  rw [genPages_indep E J M hJ hJ' stl hM doc.pages _ _ (fun p hp d hd => ⟨hf p hp d hd, hl p hp d hd⟩)]
  have h := genPages_obs (E.with J M) stl doc.pages pages.length (initVis E) (initVis (E.with J M)) [] rfl
  simp only [bind, Except.bind]
  cases h1 : genPages (E.with J M) stl doc.pages pages.length (initVis E) with
  | error a =>
    rw [h1] at h
    cases h2 : genPages (E.with J M) stl doc.pages pages.length (initVis (E.with J M)) with
    | error b => rw [h2] at h; simpa [Except.map] using h
    | ok y => rw [h2] at h; simp [Except.map] at h
  | ok x =>
    rw [h1] at h
    cases h2 : genPages (E.with J M) stl doc.pages pages.length (initVis (E.with J M)) with
    | error b => rw [h2] at h; simp [Except.map] at h
    | ok y =>
      rw [h2] at h
      simp only [Except.map, Except.ok.injEq, Prod.mk.injEq, List.nil_append] at h
      simp only [pure, Except.pure, h.1, h.2.1, h.2.2.1, h.2.2.2]

end

/-! ## Verdict and page content, in general -/

theorem pointOf_indep (E : Env (Ext ℝ)) (J M) (v : Vis (Ext ℝ)) (hp : ∃ qs : List (V3 ℝ), v.points = qs.map V3.fin)
    (hr : ∃ r : M3 ℝ, v.rotation = r.fin) (ms : List (Meta (Ext ℝ))) (hf : ∀ m ∈ ms, m.val.IsFin) (j : Nat) (n : Str) :
    pointOf E v j ms n = pointOf (E.with J M) v j ms n ∧ ∀ p, pointOf E v j ms n = some p → p.IsFin := by
  obtain ⟨qs, hq⟩ := hp
  obtain ⟨r, hr⟩ := hr
  unfold pointOf
  cases hm : look ms n with
  | none => simp
  | some m =>
    have hfin := look_fin hf n m hm
    cases hv : m.val with
    | pt p =>
      rw [hv] at hfin
      obtain ⟨h1, h2, h3⟩ := invoke_indep qs (p.rot r.fin) (rot_isFin r hfin) E.junk J (E.junk j) (J j)
      simp only [hv, hq, hr, show (E.with J M).junk = J from rfl, ← h1]
      split_ifs with hb
      · rw [(h3 hb).1]
        refine ⟨rfl, ?_⟩
        intro p hp
        injection hp with hp
        rw [← hp, ← (h3 hb).1]; exact (h3 hb).2
      · simp
    | _ => simp [hv]

theorem legOf_indep (E : Env (Ext ℝ)) (J M) (v : Vis (Ext ℝ)) (hp : ∃ qs : List (V3 ℝ), v.points = qs.map V3.fin)
    (hr : ∃ r : M3 ℝ, v.rotation = r.fin) (ms : List (Meta (Ext ℝ))) (hf : ∀ m ∈ ms, m.val.IsFin) (j : Nat) (x : V3 (Ext ℝ)) (n n' : Str) :
    legOf E v j x ms n n' = legOf (E.with J M) v j x ms n n' := by
  unfold legOf
  simp only [(pointOf_indep E J M v hp hr ms hf _ _).1]

theorem drawnItems_indep (E : Env (Ext ℝ)) (J M) (v : Vis (Ext ℝ)) (hp : ∃ qs : List (V3 ℝ), v.points = qs.map V3.fin)
    (hr : ∃ r : M3 ℝ, v.rotation = r.fin) (k : DimKind) (ms : List (Meta (Ext ℝ))) (hf : ∀ m ∈ ms, m.val.IsFin) :
    drawnItems E v k ms = drawnItems (E.with J M) v k ms := by
  have hF : ∀ s, formatOf (E.with J M) s ms = formatOf E s ms := fun _ => rfl
  cases k <;> simp only [drawnItems, drawnItems.circ, (pointOf_indep E J M v hp hr ms hf _ _).1, legOf_indep E J M v hp hr ms hf, hF]

theorem dimContent_indep (E : Env (Ext ℝ)) (J M) (hJ : E.NotAView) (hJ' : (E.with J M).NotAView) (v : Vis (Ext ℝ))
    (hp : ∃ qs : List (V3 ℝ), v.points = qs.map V3.fin) (hr : ∃ r : M3 ℝ, IsRotation r ∧ v.rotation = r.fin) (d : DimN (Ext ℝ)) (hf : d.IsFin) :
    (dimContent E v d).map (fun c => (c.1, c.2.1)) = (dimContent (E.with J M) v d).map (fun c => (c.1, c.2.1)) := by
  obtain ⟨r, hr, hrr⟩ := hr
  obtain ⟨a1, a2⟩ := dimContent_items E v d (by rw [hrr]; exact hJ r hr)
  obtain ⟨b1, b2⟩ := dimContent_items (E.with J M) v d (by rw [hrr]; exact hJ' r hr)
  rw [drawnItems_indep E J M v hp ⟨r, hrr⟩ d.kind d.metas hf] at a1 a2
  by_cases hg : GoodDim d.kind d.metas
  · cases hi : drawnItems (E.with J M) v d.kind d.metas with
    | some P =>
      obtain ⟨L, e⟩ := a1 P hg hi
      obtain ⟨L', e'⟩ := b1 P hg hi
      rw [e, e']; rfl
    | none =>
      obtain ⟨L, e⟩ := a2 (.inr hi)
      obtain ⟨L', e'⟩ := b2 (.inr hi)
      rw [e, e']; rfl
  · obtain ⟨L, e⟩ := a2 (.inl hg)
    obtain ⟨L', e'⟩ := b2 (.inl hg)
    rw [e, e']; rfl

end S2P
