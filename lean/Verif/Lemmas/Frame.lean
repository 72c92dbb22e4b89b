import Verif.Lemmas.Block
import Verif.Spec.Pages

/-! # Visitors only append to the page and to the diagnostics -/

set_option linter.unusedSectionVars false
set_option linter.unusedVariables false
set_option linter.unusedSimpArgs false

namespace S2P
variable {α : Type} [FP α]

theorem OutPage.app_assoc (a b c : OutPage α) : (a.app b).app c = a.app (b.app c) := by simp [OutPage.app]
theorem OutPage.app_empty (a : OutPage α) : a.app OutPage.empty = a := by simp [OutPage.app, OutPage.empty]
theorem OutPage.empty_app (a : OutPage α) : OutPage.empty.app a = a := by simp [OutPage.app, OutPage.empty]

/-- a state with earlier page content and diagnostics put in front -/
def Vis.pre (P : OutPage α) (L : List Diag) (v : Vis α) : Vis α := { v with page := P.app v.page, log := L ++ v.log }

section
variable (P : OutPage α) (L : List Diag) (v : Vis α)
@[simp] theorem pre_scale : (v.pre P L).scale = v.scale := rfl
@[simp] theorem pre_d : (v.pre P L).d = v.d := rfl
@[simp] theorem pre_points : (v.pre P L).points = v.points := rfl
@[simp] theorem pre_rotation : (v.pre P L).rotation = v.rotation := rfl
theorem err_pre (l : Nat) (m : Str) : (v.pre P L).err l m = (v.err l m).pre P L := by simp [Vis.pre, Vis.err]
theorem errs_pre (ds : List Diag) : (v.pre P L).errs ds = (v.errs ds).pre P L := by simp [Vis.pre, Vis.errs]
theorem addLines_pre (ls : List (Line α)) : (v.pre P L).addLines ls = (v.addLines ls).pre P L := by
  simp [Vis.pre, Vis.addLines, OutPage.app]; exact fun a _ => ⟨rfl, rfl⟩
theorem addArcs_pre (ls : List (Arc α)) : (v.pre P L).addArcs ls = (v.addArcs ls).pre P L := by
  simp [Vis.pre, Vis.addArcs, OutPage.app]; exact fun a _ => rfl
theorem addText_pre (ls : List (PsText α)) : (v.pre P L).addText ls = (v.addText ls).pre P L := by
  simp [Vis.pre, Vis.addText, OutPage.app]; exact fun a _ => rfl
@[simp] theorem addLines_scale (ls : List (Line α)) : (v.addLines ls).scale = v.scale := rfl
@[simp] theorem addArcs_scale (ls : List (Arc α)) : (v.addArcs ls).scale = v.scale := rfl
@[simp] theorem addText_scale (ls : List (PsText α)) : (v.addText ls).scale = v.scale := rfl

theorem ite_pre (b : Prop) [Decidable b] (x y : Vis α) :
    (if b then x.pre P L else y.pre P L) = (if b then x else y).pre P L := by split_ifs <;> rfl

theorem drawDia_pre (fmt : α → Str) (c : Circ α) : drawDia fmt (v.pre P L) c = (drawDia fmt v c).pre P L := by
  unfold drawDia
  dsimp only
  simp only [addText_pre, pre_scale, addLines_pre, addText_scale, ite_pre]
theorem drawRad_pre (fmt : α → Str) (c : Circ α) : drawRad fmt (v.pre P L) c = (drawRad fmt v c).pre P L := by
  unfold drawRad
  dsimp only
  simp only [addText_pre, pre_scale, addLines_pre, addText_scale, ite_pre]
theorem drawDim_pre (fmt : α → Str) (a b c d : V3 α) : drawDim fmt (v.pre P L) a b c d = (drawDim fmt v a b c d).pre P L := by
  unfold drawDim
  dsimp only
  simp only [addText_pre, pre_scale, addLines_pre, addText_scale, ite_pre]
  rfl
theorem drawAngle_pre (fmt : α → Str) (a b c d e f : V3 α) :
    drawAngle fmt (v.pre P L) a b c d e f = (drawAngle fmt v a b c d e f).pre P L := by
  unfold drawAngle
  dsimp only
  simp only [addText_pre, pre_scale, addLines_pre, addArcs_pre]

/-- the part of the state that a dimension reads -/
def Vis.SameCtx (v w : Vis α) : Prop := v.points = w.points ∧ v.rotation = w.rotation ∧ v.scale = w.scale ∧ v.d = w.d

theorem drawDia_ctx (fmt : α → Str) (c : Circ α) : (drawDia fmt v c).SameCtx v := by
  unfold drawDia; dsimp only; split_ifs <;> exact ⟨rfl, rfl, rfl, rfl⟩
theorem drawRad_ctx (fmt : α → Str) (c : Circ α) : (drawRad fmt v c).SameCtx v := by
  unfold drawRad; dsimp only; split_ifs <;> exact ⟨rfl, rfl, rfl, rfl⟩
theorem drawDim_ctx (fmt : α → Str) (a b c d : V3 α) : (drawDim fmt v a b c d).SameCtx v := by
  unfold drawDim; dsimp only; split_ifs <;> exact ⟨rfl, rfl, rfl, rfl⟩
theorem drawAngle_ctx (fmt : α → Str) (a b c d e f : V3 α) : (drawAngle fmt v a b c d e f).SameCtx v := by
  unfold drawAngle; exact ⟨rfl, rfl, rfl, rfl⟩
end

def DimSt.pre (P : OutPage α) (L : List Diag) (s : DimSt α) : DimSt α := { s with vis := s.vis.pre P L }

theorem getRotated_pre (E : Env α) (P : OutPage α) (L : List Diag) (s : DimSt α) (i : Nat) (ret : V3 α) :
    getRotated E (s.pre P L) i ret = (getRotated E s i ret).map (fun r => (r.1, r.2.1, r.2.2.pre P L)) := by
  unfold getRotated DimSt.pre
  dsimp only
  rw [pre_rotation]
  split_ifs
  · rfl
  · cases s.metas[i]? with
    | none => rfl
    | some m =>
      obtain ⟨n, val, l⟩ := m
      cases val <;> simp only [Except.map, err_pre, errs_pre, pre_rotation, pre_points]

theorem getRotated_ctx (E : Env α) (s : DimSt α) (i : Nat) (ret : V3 α) (x : Bool × V3 α × DimSt α)
    (h : getRotated E s i ret = .ok x) : x.2.2.vis.SameCtx s.vis := by
  unfold getRotated at h
  split_ifs at h
  cases hm : s.metas[i]? with
  | none => rw [hm] at h; cases h
  | some m =>
    rw [hm] at h
    obtain ⟨n, val, l⟩ := m
    cases val <;> cases h <;> exact ⟨rfl, rfl, rfl, rfl⟩

theorem getCenter_pre (E : Env α) (P : OutPage α) (L : List Diag) (s : DimSt α) (line : Nat) (seen : Seen) :
    getCenter E (s.pre P L) line seen = (getCenter E s line seen).map (fun r => (r.1, r.2.1, r.2.2.pre P L)) := by
  unfold getCenter
  dsimp only
  split
  · have e : (s.pre P L).vis.points = s.vis.points := rfl
    rw [e]
    split_ifs
    · simp only [Except.map, DimSt.pre, err_pre]
    · simp only [bind, Except.bind, getRotated_pre]
      cases h1 : getRotated E s _ (E.junk 0) with
      | error a => rfl
      | ok x1 =>
        simp only [Except.map, getRotated_pre]
        cases h2 : getRotated E x1.2.2 _ (E.junk 1) with
        | error a => rfl
        | ok x2 =>
          simp only [Except.map, getRotated_pre]
          cases h3 : getRotated E x2.2.2 _ (E.junk 2) with
          | error a => rfl
          | ok x3 =>
            simp only [Except.map]
            split_ifs
            · rfl
            · have e : (x3.2.2.pre P L).vis.points = x3.2.2.vis.points := rfl
              rw [e]
              cases locate x3.2.2.vis.points x2.2.1.xy with
              | none => simp only [DimSt.pre, err_pre]
              | some cr => rfl
  · simp only [Except.map, DimSt.pre, errs_pre]

theorem SameCtx.trans {a b c : Vis α} (h1 : a.SameCtx b) (h2 : b.SameCtx c) : a.SameCtx c :=
  ⟨h1.1.trans h2.1, h1.2.1.trans h2.2.1, h1.2.2.1.trans h2.2.2.1, h1.2.2.2.trans h2.2.2.2⟩

theorem getCenter_ctx (E : Env α) (s : DimSt α) (line : Nat) (seen : Seen) (x : Option (Circ α) × Seen × DimSt α)
    (h : getCenter E s line seen = .ok x) : x.2.2.vis.SameCtx s.vis := by
  unfold getCenter at h
  dsimp only at h
  split at h
  · split_ifs at h
    · cases h; exact ⟨rfl, rfl, rfl, rfl⟩
    · simp only [bind, Except.bind] at h
      cases h1 : getRotated E s _ (E.junk 0) with
      | error a => rw [h1] at h; cases h
      | ok x1 =>
        rw [h1] at h
        dsimp only at h
        cases h2 : getRotated E x1.2.2 _ (E.junk 1) with
        | error a => rw [h2] at h; cases h
        | ok x2 =>
          rw [h2] at h
          dsimp only at h
          cases h3 : getRotated E x2.2.2 _ (E.junk 2) with
          | error a => rw [h3] at h; cases h
          | ok x3 =>
            rw [h3] at h
            dsimp only at h
            have c := SameCtx.trans (getRotated_ctx _ _ _ _ _ h3) (SameCtx.trans (getRotated_ctx _ _ _ _ _ h2) (getRotated_ctx _ _ _ _ _ h1))
            split_ifs at h
            · cases h; exact c
            · cases hl : locate x3.2.2.vis.points x2.2.1.xy with
              | none => rw [hl] at h; cases h; exact c
              | some cr => rw [hl] at h; cases h; exact c
  · cases h; exact ⟨rfl, rfl, rfl, rfl⟩

theorem renderCirc_pre (E : Env α) (kind : Str) (drawIt : (α → Str) → Vis α → Circ α → Vis α)
    (hd : ∀ P L f v c, drawIt f (Vis.pre P L v) c = (drawIt f v c).pre P L) (P : OutPage α) (L : List Diag) (s : DimSt α) (line : Nat)
    (seen : Seen) (c : Circ α) :
    renderCirc E kind drawIt (s.pre P L) line seen c =
      ((renderCirc E kind drawIt s line seen c).1, (renderCirc E kind drawIt s line seen c).2.pre P L) := by
  unfold renderCirc
  dsimp only
  have em : (s.pre P L).metas = s.metas := rfl
  rw [em]
  split_ifs
  · simp only [DimSt.pre, err_pre, errs_pre]
  · cases getFmt E kind c!"%.3f" s.metas (take c!"fmt" seen).1 with
    | error d => simp only [DimSt.pre, err_pre, errs_pre]
    | ok f => simp only [DimSt.pre, hd]

theorem renderCirc_ctx (E : Env α) (kind : Str) (drawIt : (α → Str) → Vis α → Circ α → Vis α)
    (hd : ∀ f v c, (drawIt f v c).SameCtx v) (s : DimSt α) (line : Nat) (seen : Seen) (c : Circ α) :
    (renderCirc E kind drawIt s line seen c).2.vis.SameCtx s.vis := by
  unfold renderCirc
  dsimp only
  split_ifs
  · exact ⟨rfl, rfl, rfl, rfl⟩
  · cases getFmt E kind c!"%.3f" s.metas (take c!"fmt" seen).1 with
    | error d => exact ⟨rfl, rfl, rfl, rfl⟩
    | ok f => exact hd _ _ _

theorem visitCirc_pre (E : Env α) (kind : Str) (drawIt : (α → Str) → Vis α → Circ α → Vis α)
    (hd : ∀ P L f v c, drawIt f (Vis.pre P L v) c = (drawIt f v c).pre P L) (P : OutPage α) (L : List Diag) (s : DimSt α) (line : Nat) :
    visitCirc E kind drawIt (s.pre P L) line = (visitCirc E kind drawIt s line).map (fun r => (r.1, r.2.pre P L)) := by
  unfold visitCirc
  dsimp only
  have em : (s.pre P L).metas = s.metas := rfl
  have ev : (s.pre P L).vis = s.vis.pre P L := rfl
  rw [em, ev, errs_pre]
  have e : (⟨s.metas, Vis.pre P L (s.vis.errs (flatten kind s.metas).2.2)⟩ : DimSt α) =
    DimSt.pre P L ⟨s.metas, s.vis.errs (flatten kind s.metas).2.2⟩ := rfl
  simp only [e]
  split_ifs
  · rfl
  · simp only [bind, Except.bind, getCenter_pre]
    cases getCenter E ⟨s.metas, s.vis.errs (flatten kind s.metas).2.2⟩ line (flatten kind s.metas).2.1 with
    | error a => rfl
    | ok x =>
      obtain ⟨c, sn, s'⟩ := x
      cases c with
      | none => rfl
      | some c => simp only [Except.map, renderCirc_pre E kind drawIt hd]

theorem visitCirc_ctx (E : Env α) (kind : Str) (drawIt : (α → Str) → Vis α → Circ α → Vis α)
    (hd : ∀ f v c, (drawIt f v c).SameCtx v) (s : DimSt α) (line : Nat) (x : Bool × DimSt α) (h : visitCirc E kind drawIt s line = .ok x) :
    x.2.vis.SameCtx s.vis := by
  unfold visitCirc at h
  dsimp only at h
  split_ifs at h
  · cases h; exact ⟨rfl, rfl, rfl, rfl⟩
  · simp only [bind, Except.bind] at h
    cases hc : getCenter E ⟨s.metas, s.vis.errs (flatten kind s.metas).2.2⟩ line (flatten kind s.metas).2.1 with
    | error a => rw [hc] at h; cases h
    | ok y =>
      rw [hc] at h
      dsimp only at h
      have c := getCenter_ctx _ _ _ _ _ hc
      obtain ⟨o, sn, s'⟩ := y
      cases o with
      | none => cases h; exact SameCtx.trans c ⟨rfl, rfl, rfl, rfl⟩
      | some cc =>
        cases h
        exact SameCtx.trans (renderCirc_ctx E kind drawIt hd _ _ _ _) (SameCtx.trans c ⟨rfl, rfl, rfl, rfl⟩)

theorem visitDim_pre (E : Env α) (P : OutPage α) (L : List Diag) (s : DimSt α) (line : Nat) :
    visitDim E (s.pre P L) line = (visitDim E s line).map (fun r => (r.1, r.2.pre P L)) := by
  unfold visitDim
  dsimp only
  have em : (s.pre P L).metas = s.metas := rfl
  have ev : (s.pre P L).vis = s.vis.pre P L := rfl
  rw [em, ev, errs_pre]
  have e : ∀ v : Vis α, (⟨s.metas, Vis.pre P L v⟩ : DimSt α) = DimSt.pre P L ⟨s.metas, v⟩ := fun _ => rfl
  simp only [e, errs_pre, err_pre]
  split_ifs
  · rfl
  · split
    · simp only [bind, Except.bind, getRotated_pre]
      cases h1 : getRotated E _ _ (E.junk 0) with
      | error a => rfl
      | ok x1 =>
        simp only [Except.map, getRotated_pre]
        cases h2 : getRotated E x1.2.2 _ (E.junk 1) with
        | error a => rfl
        | ok x2 =>
          simp only [Except.map, getRotated_pre]
          cases h3 : getRotated E x2.2.2 _ (E.junk 2) with
          | error a => rfl
          | ok x3 =>
            simp only [Except.map, getRotated_pre]
            cases h4 : getRotated E x3.2.2 _ (E.junk 3) with
            | error a => rfl
            | ok x4 =>
              simp only [Except.map]
              have em : (x4.2.2.pre P L).metas = x4.2.2.metas := rfl
              rw [em]
              split_ifs
              · simp only [DimSt.pre, err_pre]
              · cases getFmt E c!"dim" c!"%.3f" x4.2.2.metas _ with
                | error d => simp only [DimSt.pre, errs_pre]
                | ok f => rfl
              · cases getFmt E c!"dim" c!"%.3f" x4.2.2.metas _ with
                | error d => simp only [DimSt.pre, errs_pre]
                | ok f => simp only [DimSt.pre, drawDim_pre]
    · rfl

theorem visitDim_ctx (E : Env α) (s : DimSt α) (line : Nat) (x : Bool × DimSt α) (h : visitDim E s line = .ok x) :
    x.2.vis.SameCtx s.vis := by
  unfold visitDim at h
  dsimp only at h
  split_ifs at h
  · cases h; exact ⟨rfl, rfl, rfl, rfl⟩
  · split at h
    · simp only [bind, Except.bind] at h
      cases h1 : getRotated E _ _ (E.junk 0) with
      | error a => rw [h1] at h; cases h
      | ok x1 =>
        rw [h1] at h
        dsimp only at h
        cases h2 : getRotated E x1.2.2 _ (E.junk 1) with
        | error a => rw [h2] at h; cases h
        | ok x2 =>
          rw [h2] at h
          dsimp only at h
          cases h3 : getRotated E x2.2.2 _ (E.junk 2) with
          | error a => rw [h3] at h; cases h
          | ok x3 =>
            rw [h3] at h
            dsimp only at h
            cases h4 : getRotated E x3.2.2 _ (E.junk 3) with
            | error a => rw [h4] at h; cases h
            | ok x4 =>
              rw [h4] at h
              dsimp only at h
              have c : x4.2.2.vis.SameCtx s.vis := SameCtx.trans (getRotated_ctx _ _ _ _ _ h4) (SameCtx.trans (getRotated_ctx _ _ _ _ _ h3)
                (SameCtx.trans (getRotated_ctx _ _ _ _ _ h2) (SameCtx.trans (getRotated_ctx _ _ _ _ _ h1) ⟨rfl, rfl, rfl, rfl⟩)))
              split_ifs at h
              · cases h; exact c
              all_goals split at h
              · cases h; exact c
              · cases h; exact c
              · cases h; exact c
              · cases h; exact SameCtx.trans (drawDim_ctx _ _ _ _ _ _) c
    · cases h; exact ⟨rfl, rfl, rfl, rfl⟩

theorem angleLeg_pre (E : Env α) (P : OutPage α) (L : List Diag) (s : DimSt α) (apex : V3 α) (p q : Option Nat) (j : Nat) :
    angleLeg E (s.pre P L) apex p q j = (angleLeg E s apex p q j).map (fun r => (r.1, r.2.1, r.2.2.1, r.2.2.2.pre P L)) := by
  unfold angleLeg
  cases p with
  | some i =>
    simp only [bind, Except.bind, getRotated_pre]
    cases getRotated E s i (E.junk j) <;> rfl
  | none =>
    cases q with
    | some i =>
      simp only [bind, Except.bind, getRotated_pre]
      cases getRotated E s i (E.junk (j + 1)) <;> rfl
    | none => rfl

theorem angleLeg_ctx (E : Env α) (s : DimSt α) (apex : V3 α) (p q : Option Nat) (j : Nat) (x : Bool × V3 α × V3 α × DimSt α)
    (h : angleLeg E s apex p q j = .ok x) : x.2.2.2.vis.SameCtx s.vis := by
  unfold angleLeg at h
  cases p with
  | some i =>
    simp only [bind, Except.bind] at h
    cases h1 : getRotated E s i (E.junk j) with
    | error a => rw [h1] at h; cases h
    | ok y => rw [h1] at h; cases h; exact getRotated_ctx _ _ _ _ _ h1
  | none =>
    cases q with
    | some i =>
      simp only [bind, Except.bind] at h
      cases h1 : getRotated E s i (E.junk (j + 1)) with
      | error a => rw [h1] at h; cases h
      | ok y => rw [h1] at h; cases h; exact getRotated_ctx _ _ _ _ _ h1
    | none => cases h

theorem visitAngle_pre (E : Env α) (P : OutPage α) (L : List Diag) (s : DimSt α) (line : Nat) :
    visitAngle E (s.pre P L) line = (visitAngle E s line).map (fun r => (r.1, r.2.pre P L)) := by
  unfold visitAngle
  dsimp only
  have em : (s.pre P L).metas = s.metas := rfl
  have ev : (s.pre P L).vis = s.vis.pre P L := rfl
  rw [em, ev, errs_pre]
  have e : ∀ v : Vis α, (⟨s.metas, Vis.pre P L v⟩ : DimSt α) = DimSt.pre P L ⟨s.metas, v⟩ := fun _ => rfl
  simp only [e, errs_pre, err_pre]
  split
  · rfl
  · split
    · split
      · simp only [DimSt.pre, errs_pre, Except.map]
      · simp only [bind, Except.bind, getRotated_pre]
        cases h1 : getRotated E _ _ (E.junk 0) with
        | error a => rfl
        | ok x1 =>
          simp only [Except.map, getRotated_pre]
          cases h2 : getRotated E x1.2.2 _ (E.junk 1) with
          | error a => rfl
          | ok x2 =>
            simp only [Except.map, angleLeg_pre]
            cases h3 : angleLeg E x2.2.2 _ _ _ 2 with
            | error a => rfl
            | ok x3 =>
              simp only [Except.map, angleLeg_pre]
              cases h4 : angleLeg E x3.2.2.2 _ _ _ 4 with
              | error a => rfl
              | ok x4 =>
                simp only [Except.map]
                have em : (x4.2.2.2.pre P L).metas = x4.2.2.2.metas := rfl
                rw [em]
                cases getFmt E c!"angle" c!"%.1f" x4.2.2.2.metas _ with
                | error d => simp only [DimSt.pre, errs_pre]
                | ok f =>
                  dsimp only
                  split_ifs
                  · rfl
                  · simp only [DimSt.pre, err_pre]
                  · simp only [DimSt.pre, drawAngle_pre]
                  · simp only [DimSt.pre, drawAngle_pre]
    · rfl

theorem ite_cases {β : Type} {c : Prop} [Decidable c] {a b x : β} (h : (if c then a else b) = x) : (c ∧ a = x) ∨ (¬ c ∧ b = x) := by
  by_cases hc : c
  · exact Or.inl ⟨hc, by rwa [if_pos hc] at h⟩
  · exact Or.inr ⟨hc, by rwa [if_neg hc] at h⟩

theorem visitAngle_ctx (E : Env α) (s : DimSt α) (line : Nat) (x : Bool × DimSt α) (h : visitAngle E s line = .ok x) :
    x.2.vis.SameCtx s.vis := by
  unfold visitAngle at h
  dsimp only at h
  split at h
  · cases h; exact ⟨rfl, rfl, rfl, rfl⟩
  · split at h
    · rcases ite_cases h with ⟨-, h⟩ | ⟨-, h⟩
      · cases h; exact ⟨rfl, rfl, rfl, rfl⟩
      · simp only [bind, Except.bind] at h
        cases h1 : getRotated E _ _ (E.junk 0) with
        | error a => rw [h1] at h; cases h
        | ok x1 =>
          rw [h1] at h
          dsimp only at h
          cases h2 : getRotated E x1.2.2 _ (E.junk 1) with
          | error a => rw [h2] at h; cases h
          | ok x2 =>
            rw [h2] at h
            dsimp only at h
            cases h3 : angleLeg E x2.2.2 _ _ _ 2 with
            | error a => rw [h3] at h; cases h
            | ok x3 =>
              rw [h3] at h
              dsimp only at h
              cases h4 : angleLeg E x3.2.2.2 _ _ _ 4 with
              | error a => rw [h4] at h; cases h
              | ok x4 =>
                rw [h4] at h
                dsimp only at h
                have c : x4.2.2.2.vis.SameCtx s.vis := SameCtx.trans (angleLeg_ctx _ _ _ _ _ _ _ h4)
                  (SameCtx.trans (angleLeg_ctx _ _ _ _ _ _ _ h3)
                  (SameCtx.trans (getRotated_ctx _ _ _ _ _ h2) (SameCtx.trans (getRotated_ctx _ _ _ _ _ h1) ⟨rfl, rfl, rfl, rfl⟩)))
                split at h
                · cases h; exact c
                · split_ifs at h
                  · cases h; exact c
                  · cases h; exact c
                  · cases h; exact SameCtx.trans (drawAngle_ctx _ _ _ _ _ _ _ _) c
                  · cases h; exact SameCtx.trans (drawAngle_ctx _ _ _ _ _ _ _ _) c
    · cases h; exact ⟨rfl, rfl, rfl, rfl⟩

theorem visitDimN_pre (E : Env α) (P : OutPage α) (L : List Diag) (v : Vis α) (d : DimN α) :
    visitDimN E (v.pre P L) d = (visitDimN E v d).map (fun r => (r.1, r.2.1, r.2.2.pre P L)) := by
  unfold visitDimN
  have e : (⟨d.metas, Vis.pre P L v⟩ : DimSt α) = DimSt.pre P L ⟨d.metas, v⟩ := rfl
  simp only [e, bind, Except.bind]
  cases d.kind
  · simp only [visitAngle_pre]; cases visitAngle E ⟨d.metas, v⟩ d.line <;> rfl
  · simp only [visitCirc_pre E _ drawDia (fun P L f v c => drawDia_pre P L v f c)]; cases visitCirc E _ drawDia ⟨d.metas, v⟩ d.line <;> rfl
  · simp only [visitDim_pre]; cases visitDim E ⟨d.metas, v⟩ d.line <;> rfl
  · simp only [visitCirc_pre E _ drawRad (fun P L f v c => drawRad_pre P L v f c)]; cases visitCirc E _ drawRad ⟨d.metas, v⟩ d.line <;> rfl

theorem visitDimN_ctx (E : Env α) (v : Vis α) (d : DimN α) (x : Bool × DimN α × Vis α) (h : visitDimN E v d = .ok x) :
    x.2.2.SameCtx v := by
  unfold visitDimN at h
  simp only [bind, Except.bind] at h
  cases hk : d.kind <;> simp only [hk] at h
  · cases h1 : visitAngle E ⟨d.metas, v⟩ d.line with
    | error a => rw [h1] at h; cases h
    | ok y => rw [h1] at h; cases h; exact visitAngle_ctx _ _ _ _ h1
  · cases h1 : visitCirc E c!"dia" drawDia ⟨d.metas, v⟩ d.line with
    | error a => rw [h1] at h; cases h
    | ok y => rw [h1] at h; cases h; exact visitCirc_ctx _ _ _ (fun f v c => drawDia_ctx v f c) _ _ _ h1
  · cases h1 : visitDim E ⟨d.metas, v⟩ d.line with
    | error a => rw [h1] at h; cases h
    | ok y => rw [h1] at h; cases h; exact visitDim_ctx _ _ _ _ h1
  · cases h1 : visitCirc E c!"rad" drawRad ⟨d.metas, v⟩ d.line with
    | error a => rw [h1] at h; cases h
    | ok y => rw [h1] at h; cases h; exact visitCirc_ctx _ _ _ (fun f v c => drawRad_ctx v f c) _ _ _ h1

theorem visitDims_pre (E : Env α) (P : OutPage α) (L : List Diag) : ∀ (ds : List (DimN α)) (v : Vis α),
    visitDims E ds (v.pre P L) = (visitDims E ds v).map (fun r => (r.1, r.2.1, r.2.2.pre P L))
  | [], v => rfl
  | d :: ds, v => by
    unfold visitDims
    simp only [bind, Except.bind, visitDimN_pre]
    cases visitDimN E v d with
    | error a => rfl
    | ok x =>
      simp only [Except.map, visitDims_pre E P L ds]
      cases visitDims E ds x.2.2 <;> rfl

theorem visitDims_ctx (E : Env α) : ∀ (ds : List (DimN α)) (v : Vis α) (x : Bool × List (DimN α) × Vis α), visitDims E ds v = .ok x →
    x.2.2.SameCtx v
  | [], v, x, h => by cases h; exact ⟨rfl, rfl, rfl, rfl⟩
  | d :: ds, v, x, h => by
    unfold visitDims at h
    simp only [bind, Except.bind] at h
    cases h1 : visitDimN E v d with
    | error a => rw [h1] at h; cases h
    | ok y =>
      rw [h1] at h
      dsimp only at h
      cases h2 : visitDims E ds y.2.2 with
      | error a => rw [h2] at h; cases h
      | ok z =>
        rw [h2] at h
        cases h
        exact SameCtx.trans (visitDims_ctx E ds _ z h2) (visitDimN_ctx _ _ _ _ h1)

/-! ## Drawings: what they contribute does not depend on the state they meet -/

/-- page and diagnostics of a state, the rest forgotten -/
def Vis.obs (v : Vis α) : OutPage α × List Diag := (v.page, v.log)

theorem visitDraw_obs (E : Env α) (stl : Models α) (v w : Vis α) (P : OutPage α) (L : List Diag) (hp : v.page = P.app w.page)
    (hl : v.log = L ++ w.log) (name : Str) (ms : List (Meta α)) (dims : List (DimN α)) (line : Nat) :
    (visitDraw E stl v name ms dims line).map (fun r => (r.1, r.2.1, r.2.2.page, r.2.2.log)) =
      (visitDraw E stl w name ms dims line).map (fun r => (r.1, r.2.1, P.app r.2.2.page, L ++ r.2.2.log)) := by
  unfold visitDraw
  dsimp only
  by_cases hok : (!(flatten c!"draw" ms).1) = true
  · rw [if_pos hok, if_pos hok]
    simp [Except.map, Vis.errs, hp, hl]
  · rw [if_neg hok, if_neg hok]
    cases drawScale ms (take c!"scale" (flatten c!"draw" ms).2.1).1 with
    | error d => simp [Except.map, Vis.errs, hp, hl]
    | ok sc =>
      cases stl.find? (fun e => decide (e.1 = name)) with
      | none => simp [Except.map, Vis.errs, Vis.err, hp, hl]
      | some e =>
        dsimp only
        cases drawView ms (take c!"view" (take c!"scale" (flatten c!"draw" ms).2.1).2).1 with
        | error d => simp [Except.map, Vis.errs, Vis.err, hp, hl]
        | ok rot =>
          dsimp only
          simp only [bind, Except.bind]
          cases drawLoc ms _ with
          | error a => rfl
          | ok loc =>
            dsimp only
            cases e.2 with
            | none => rfl
            | some file =>
              dsimp only
              cases file.rotate rot with
              | error a => rfl
              | ok proj =>
                dsimp only
                cases proj.cull.toLines E.sorter with
                | error a => rfl
                | ok ls =>
                  dsimp only
                  obtain ⟨pv, ptv, rv, sv, dv, lv⟩ := v
                  obtain ⟨pw, ptw, rw', sw, dw, lw⟩ := w
                  simp only at hp hl
                  subst hp hl
                  generalize hX : visitDims E dims _ = RX
                  generalize hY : visitDims E dims _ = RY
                  have key : RX = RY.map (fun r => (r.1, r.2.1, r.2.2.pre P L)) := by
                    rw [← hX, ← hY, ← visitDims_pre]
                    congr 1
                    simp [Vis.pre, Vis.errs, Vis.addLines, OutPage.app, toPage]
                  subst key
                  cases RY with
                  | error a => rfl
                  | ok z =>
                    simp only [Except.map, pure, Except.pure]
                    split_ifs
                    · rfl
                    · simp only [err_pre, errs_pre]; rfl
                    · rfl

theorem visitText_obs (v w : Vis α) (P : OutPage α) (L : List Diag) (hp : v.page = P.app w.page) (hl : v.log = L ++ w.log) (str : Str)
    (ms : List (Meta α)) (line : Nat) :
    (visitText v str ms line).map (fun r => (r.1, r.2.page, r.2.log)) =
      (visitText w str ms line).map (fun r => (r.1, P.app r.2.page, L ++ r.2.log)) := by
  unfold visitText
  dsimp only
  by_cases hok : (!(flatten c!"draw" ms).1) = true
  · rw [if_pos hok, if_pos hok]
    simp [Except.map, Vis.errs, hp, hl]
  · rw [if_neg hok, if_neg hok]
    simp only [bind, Except.bind, pure, Except.pure, throw, throwThe, MonadExceptOf.throw]
    cases (take c!"@" (flatten c!"draw" ms).2.1).1 with
    | none => dsimp only; split_ifs <;> simp [Except.map, Vis.errs, Vis.err, hp, hl, OutPage.app]
    | some i =>
      dsimp only
      cases ms[i]? with
      | none => rfl
      | some m =>
        dsimp only
        cases m.val with
        | loc l => dsimp only; split_ifs <;> simp [Except.map, Vis.errs, Vis.err, hp, hl, OutPage.app]
        | _ => rfl

theorem visitDrawable_obs (E : Env α) (stl : Models α) (v w : Vis α) (P : OutPage α) (L : List Diag) (hp : v.page = P.app w.page)
    (hl : v.log = L ++ w.log) (d : Drawable α) :
    (visitDrawable E stl v d).map (fun r => (r.1, r.2.1, r.2.2.page, r.2.2.log)) =
      (visitDrawable E stl w d).map (fun r => (r.1, r.2.1, P.app r.2.2.page, L ++ r.2.2.log)) := by
  unfold visitDrawable
  cases d with
  | draw n ms dims l =>
    have := visitDraw_obs E stl v w P L hp hl n ms dims l
    simp only [bind, Except.bind]
    revert this
    cases visitDraw E stl v n ms dims l <;> cases visitDraw E stl w n ms dims l <;> intro this <;>
      simp only [Except.map, Except.ok.injEq, Except.error.injEq, reduceCtorEq, Prod.mk.injEq] at this ⊢
    · exact this
    · simp [this, pure, Except.pure]
  | text s ms l =>
    have := visitText_obs v w P L hp hl s ms l
    simp only [bind, Except.bind]
    revert this
    cases visitText v s ms l <;> cases visitText w s ms l <;> intro this <;>
      simp only [Except.map, Except.ok.injEq, Except.error.injEq, reduceCtorEq, Prod.mk.injEq] at this ⊢
    · exact this
    · simp [this, pure, Except.pure]

theorem visitDrawables_obs (E : Env α) (stl : Models α) : ∀ (ds : List (Drawable α)) (v w : Vis α) (P : OutPage α) (L : List Diag)
    (hp : v.page = P.app w.page) (hl : v.log = L ++ w.log),
    (visitDrawables E stl ds v).map (fun r => (r.1, r.2.1, r.2.2.page, r.2.2.log)) =
      (visitDrawables E stl ds w).map (fun r => (r.1, r.2.1, P.app r.2.2.page, L ++ r.2.2.log))
  | [], v, w, P, L, hp, hl => by simp [visitDrawables, Except.map, hp, hl]
  | d :: ds, v, w, P, L, hp, hl => by
    unfold visitDrawables
    have := visitDrawable_obs E stl v w P L hp hl d
    simp only [bind, Except.bind]
    revert this
    cases visitDrawable E stl v d <;> cases visitDrawable E stl w d <;> intro this <;>
      simp only [Except.map, Except.ok.injEq, Except.error.injEq, reduceCtorEq, Prod.mk.injEq] at this ⊢
    · exact this
    · rename_i x y
      have ih := visitDrawables_obs E stl ds x.2.2 y.2.2 P L this.2.2.1 this.2.2.2
      revert ih
      cases visitDrawables E stl ds x.2.2 <;> cases visitDrawables E stl ds y.2.2 <;> intro ih <;>
        simp only [Except.map, Except.ok.injEq, Except.error.injEq, reduceCtorEq, Prod.mk.injEq] at ih ⊢
      · exact ih
      · simp [ih, this, pure, Except.pure]

end S2P
