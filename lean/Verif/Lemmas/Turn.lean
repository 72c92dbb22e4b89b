import Verif.Lemmas.Frame
import Verif.Lemmas.Doc

/-! # What generating pages does to the document -/

set_option linter.unusedSectionVars false
set_option linter.unusedVariables false
set_option linter.unusedSimpArgs false

namespace S2P
variable {α : Type} [FP α]

/-- a statement about properties that survives turning a point by `R` -/
def TurnClosed (R : M3 α) (P : List (Meta α) → Prop) : Prop :=
  ∀ ms i m p, P ms → ms[i]? = some m → m.val = .pt p → P (ms.set i { m with val := .pt (p.rot R) })

section
variable (R : M3 α) (P : List (Meta α) → Prop) (hP : TurnClosed R P)
include hP

theorem getRotated_turn (E : Env α) (s : DimSt α) (i : Nat) (ret : V3 α) (x : Bool × V3 α × DimSt α) (h : getRotated E s i ret = .ok x)
    (h1 : s.vis.rotation = R) (h2 : P s.metas) : x.2.2.vis.rotation = R ∧ P x.2.2.metas := by
  refine ⟨(getRotated_ctx E s i ret x h).2.1.trans h1, ?_⟩
  unfold getRotated at h
  split_ifs at h
  cases hm : s.metas[i]? with
  | none => rw [hm] at h; cases h
  | some m =>
    rw [hm] at h
    obtain ⟨n, val, l⟩ := m
    cases val with
    | pt p => cases h; rw [h1]; exact hP s.metas i _ p h2 hm rfl
    | _ => cases h; exact h2

theorem getCenter_turn (E : Env α) (s : DimSt α) (line : Nat) (seen : Seen) (x : Option (Circ α) × Seen × DimSt α)
    (h : getCenter E s line seen = .ok x) (g1 : s.vis.rotation = R) (g2 : P s.metas) : x.2.2.vis.rotation = R ∧ P x.2.2.metas := by
  unfold getCenter at h
  dsimp only at h
  split at h
  · split_ifs at h
    · cases h; exact ⟨g1, g2⟩
    · simp only [bind, Except.bind] at h
      cases h1 : getRotated E s _ (E.junk 0) with
      | error a => rw [h1] at h; cases h
      | ok x1 =>
        rw [h1] at h
        dsimp only at h
        cases h2 : getRotated E x1.2.2 _ (E.junk 1) with
        | error a => rw [h2] at h; cases h
        | ok x2 =>
          rw [h2] at h
          dsimp only at h
          cases h3 : getRotated E x2.2.2 _ (E.junk 2) with
          | error a => rw [h3] at h; cases h
          | ok x3 =>
            rw [h3] at h
            dsimp only at h
            obtain ⟨g1, g2⟩ := getRotated_turn R P hP _ _ _ _ _ h1 g1 g2
            obtain ⟨g1, g2⟩ := getRotated_turn R P hP _ _ _ _ _ h2 g1 g2
            obtain ⟨g1, g2⟩ := getRotated_turn R P hP _ _ _ _ _ h3 g1 g2
            split_ifs at h
            · cases h; exact ⟨g1, g2⟩
            · cases hl : locate x3.2.2.vis.points x2.2.1.xy with
              | none => rw [hl] at h; cases h; exact ⟨g1, g2⟩
              | some cr => rw [hl] at h; cases h; exact ⟨g1, g2⟩
  · cases h; exact ⟨g1, g2⟩

theorem visitCirc_turn (E : Env α) (kind : Str) (drawIt : (α → Str) → Vis α → Circ α → Vis α) (s : DimSt α) (line : Nat) (x : Bool × DimSt α)
    (h : visitCirc E kind drawIt s line = .ok x) (g1 : s.vis.rotation = R) (g2 : P s.metas) : P x.2.metas := by
  unfold visitCirc at h
  dsimp only at h
  split_ifs at h
  · cases h; exact g2
  · simp only [bind, Except.bind] at h
    cases hc : getCenter E ⟨s.metas, s.vis.errs (flatten kind s.metas).2.2⟩ line (flatten kind s.metas).2.1 with
    | error a => rw [hc] at h; cases h
    | ok y =>
      rw [hc] at h
      dsimp only at h
      obtain ⟨g1, g2⟩ := getCenter_turn R P hP _ _ _ _ _ hc g1 g2
      obtain ⟨o, sn, s'⟩ := y
      cases o with
      | none => cases h; exact g2
      | some cc =>
        cases h
        unfold renderCirc
        dsimp only
        split_ifs
        · exact g2
        · split <;> exact g2

theorem visitDim_turn (E : Env α) (s : DimSt α) (line : Nat) (x : Bool × DimSt α) (h : visitDim E s line = .ok x)
    (g1 : s.vis.rotation = R) (g2 : P s.metas) : P x.2.metas := by
  unfold visitDim at h
  dsimp only at h
  split_ifs at h
  · cases h; exact g2
  · split at h
    · simp only [bind, Except.bind] at h
      cases h1 : getRotated E _ _ (E.junk 0) with
      | error a => rw [h1] at h; cases h
      | ok x1 =>
        rw [h1] at h
        dsimp only at h
        cases h2 : getRotated E x1.2.2 _ (E.junk 1) with
        | error a => rw [h2] at h; cases h
        | ok x2 =>
          rw [h2] at h
          dsimp only at h
          cases h3 : getRotated E x2.2.2 _ (E.junk 2) with
          | error a => rw [h3] at h; cases h
          | ok x3 =>
            rw [h3] at h
            dsimp only at h
            cases h4 : getRotated E x3.2.2 _ (E.junk 3) with
            | error a => rw [h4] at h; cases h
            | ok x4 =>
              rw [h4] at h
              dsimp only at h
              obtain ⟨g1, g2⟩ := getRotated_turn R P hP _ _ _ _ _ h1 g1 g2
              obtain ⟨g1, g2⟩ := getRotated_turn R P hP _ _ _ _ _ h2 g1 g2
              obtain ⟨g1, g2⟩ := getRotated_turn R P hP _ _ _ _ _ h3 g1 g2
              obtain ⟨g1, g2⟩ := getRotated_turn R P hP _ _ _ _ _ h4 g1 g2
              split_ifs at h
              · cases h; exact g2
              all_goals split at h
              all_goals cases h; exact g2
    · cases h; exact g2

theorem angleLeg_turn (E : Env α) (s : DimSt α) (apex : V3 α) (p q : Option Nat) (j : Nat) (x : Bool × V3 α × V3 α × DimSt α)
    (h : angleLeg E s apex p q j = .ok x) (g1 : s.vis.rotation = R) (g2 : P s.metas) : x.2.2.2.vis.rotation = R ∧ P x.2.2.2.metas := by
  unfold angleLeg at h
  cases p with
  | some i =>
    simp only [bind, Except.bind] at h
    cases h1 : getRotated E s i (E.junk j) with
    | error a => rw [h1] at h; cases h
    | ok y => rw [h1] at h; cases h; exact getRotated_turn R P hP _ _ _ _ _ h1 g1 g2
  | none =>
    cases q with
    | some i =>
      simp only [bind, Except.bind] at h
      cases h1 : getRotated E s i (E.junk (j + 1)) with
      | error a => rw [h1] at h; cases h
      | ok y => rw [h1] at h; cases h; exact getRotated_turn R P hP _ _ _ _ _ h1 g1 g2
    | none => cases h

theorem visitAngle_turn (E : Env α) (s : DimSt α) (line : Nat) (x : Bool × DimSt α) (h : visitAngle E s line = .ok x)
    (g1 : s.vis.rotation = R) (g2 : P s.metas) : P x.2.metas := by
  unfold visitAngle at h
  dsimp only at h
  split at h
  · cases h; exact g2
  · split at h
    · rcases ite_cases h with ⟨-, h⟩ | ⟨-, h⟩
      · cases h; exact g2
      · simp only [bind, Except.bind] at h
        cases h1 : getRotated E _ _ (E.junk 0) with
        | error a => rw [h1] at h; cases h
        | ok x1 =>
          rw [h1] at h
          dsimp only at h
          cases h2 : getRotated E x1.2.2 _ (E.junk 1) with
          | error a => rw [h2] at h; cases h
          | ok x2 =>
            rw [h2] at h
            dsimp only at h
            cases h3 : angleLeg E x2.2.2 _ _ _ 2 with
            | error a => rw [h3] at h; cases h
            | ok x3 =>
              rw [h3] at h
              dsimp only at h
              cases h4 : angleLeg E x3.2.2.2 _ _ _ 4 with
              | error a => rw [h4] at h; cases h
              | ok x4 =>
                rw [h4] at h
                dsimp only at h
                obtain ⟨g1, g2⟩ := getRotated_turn R P hP _ _ _ _ _ h1 g1 g2
                obtain ⟨g1, g2⟩ := getRotated_turn R P hP _ _ _ _ _ h2 g1 g2
                obtain ⟨g1, g2⟩ := angleLeg_turn R P hP _ _ _ _ _ _ _ h3 g1 g2
                obtain ⟨g1, g2⟩ := angleLeg_turn R P hP _ _ _ _ _ _ _ h4 g1 g2
                split at h
                · cases h; exact g2
                · split_ifs at h
                  all_goals cases h; exact g2
    · cases h; exact g2

theorem visitDimN_turn (E : Env α) (v : Vis α) (d : DimN α) (x : Bool × DimN α × Vis α) (h : visitDimN E v d = .ok x)
    (g1 : v.rotation = R) (g2 : P d.metas) : x.2.1.kind = d.kind ∧ x.2.1.line = d.line ∧ P x.2.1.metas := by
  unfold visitDimN at h
  simp only [bind, Except.bind] at h
  cases hk : d.kind <;> simp only [hk] at h
  · cases h1 : visitAngle E ⟨d.metas, v⟩ d.line with
    | error a => rw [h1] at h; cases h
    | ok y => rw [h1] at h; cases h; exact ⟨rfl, rfl, visitAngle_turn R P hP _ _ _ _ h1 g1 g2⟩
  · cases h1 : visitCirc E c!"dia" drawDia ⟨d.metas, v⟩ d.line with
    | error a => rw [h1] at h; cases h
    | ok y => rw [h1] at h; cases h; exact ⟨rfl, rfl, visitCirc_turn R P hP _ _ _ _ _ _ h1 g1 g2⟩
  · cases h1 : visitDim E ⟨d.metas, v⟩ d.line with
    | error a => rw [h1] at h; cases h
    | ok y => rw [h1] at h; cases h; exact ⟨rfl, rfl, visitDim_turn R P hP _ _ _ _ h1 g1 g2⟩
  · cases h1 : visitCirc E c!"rad" drawRad ⟨d.metas, v⟩ d.line with
    | error a => rw [h1] at h; cases h
    | ok y => rw [h1] at h; cases h; exact ⟨rfl, rfl, visitCirc_turn R P hP _ _ _ _ _ _ h1 g1 g2⟩
end

/-- the dimensions of a drawing afterwards, for a statement `P ms ms'` about properties before and after -/
theorem visitDims_turn (R : M3 α) (P : List (Meta α) → List (Meta α) → Prop) (hP : ∀ ms, TurnClosed R (P ms)) (E : Env α) :
    ∀ (ds : List (DimN α)) (v : Vis α) (x), visitDims E ds v = .ok x → v.rotation = R → (∀ d ∈ ds, P d.metas d.metas) →
      List.Forall₂ (fun d d' => d'.kind = d.kind ∧ d'.line = d.line ∧ P d.metas d'.metas) ds x.2.1
  | [], v, x, h, _, _ => by cases h; exact .nil
  | d :: ds, v, x, h, hr, h0 => by
    unfold visitDims at h
    simp only [bind, Except.bind] at h
    cases h1 : visitDimN E v d with
    | error a => rw [h1] at h; cases h
    | ok y =>
      rw [h1] at h
      dsimp only at h
      cases h2 : visitDims E ds y.2.2 with
      | error a => rw [h2] at h; cases h
      | ok z =>
        rw [h2] at h; cases h
        exact .cons (visitDimN_turn R (P d.metas) (hP _) E v d y h1 hr (h0 d (by simp)))
          (visitDims_turn R P hP E ds y.2.2 z h2 ((visitDimN_ctx E v d y h1).2.1.trans hr) (fun d hd => h0 d (by simp [hd])))

/-- the drawing as left by a run -/
theorem visitDraw_turn (E : Env α) (stl : Models α) (v : Vis α) (n : Str) (ms : List (Meta α)) (dims : List (DimN α)) (l : Nat) (x)
    (h : visitDraw E stl v n ms dims l = .ok x) (P : List (Meta α) → List (Meta α) → Prop)
    (hP : ∀ rot, viewOf (look ms c!"view") = .ok rot → ∀ ms, TurnClosed rot (P ms)) (h0 : ∀ d ∈ dims, P d.metas d.metas) :
    List.Forall₂ (fun d d' => d'.kind = d.kind ∧ d'.line = d.line ∧ P d.metas d'.metas) dims x.2.1 := by
  have refl : List.Forall₂ (fun d d' : DimN α => d'.kind = d.kind ∧ d'.line = d.line ∧ P d.metas d'.metas) dims dims :=
    List.forall₂_same.mpr (fun d hd => ⟨rfl, rfl, h0 d hd⟩)
  unfold visitDraw at h
  dsimp only at h
  split at h
  · cases h; exact refl
  obtain ⟨p1, q1⟩ := rep_take (rep_flatten c!"draw" ms) c!"scale"
  obtain ⟨p2, q2⟩ := rep_take q1 c!"view"
  rw [if_neg (by decide)] at p2
  split at h
  · cases h; exact refl
  split at h
  · cases h; exact refl
  split at h
  · cases h; exact refl
  rename_i rot hrot
  rw [p2, drawView_look] at hrot
  simp only [bind, Except.bind] at h
  split at h
  · cases h
  split at h
  · cases h
  rename_i file hfile
  cases ht : file.rotate rot with
  | error a => rw [ht] at h; cases h
  | ok proj =>
    rw [ht] at h
    dsimp only at h
    cases hls : proj.cull.toLines E.sorter with
    | error a => rw [hls] at h; cases h
    | ok ls =>
      rw [hls] at h
      dsimp only at h
      split at h
      · cases h
      rename_i y hy
      have := visitDims_turn rot P (hP rot hrot) E dims _ y hy rfl h0
      split at h
      · cases h; exact this
      split at h
      · cases h; exact this
      · cases h; exact this

end S2P
