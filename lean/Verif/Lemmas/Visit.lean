import Verif.Lemmas.Frame
import Verif.Lemmas.Block
import Verif.Spec.Blocks

set_option linter.unusedSectionVars false
set_option linter.unusedVariables false
set_option linter.unusedSimpArgs false

/-! # What each visitor does, as a table over the properties found by name -/

namespace S2P

variable {α : Type} [FP α]

/-- value of a property as a point: verdict, point, diagnostics -/
def metaEval (E : Env α) (v : Vis α) (j : Nat) (m : Meta α) : Bool × V3 α × List Diag :=
  match m.val with
  | .pt p => (p.rot v.rotation).invoke E.junk v.points (E.junk j)
  | w => (false, E.junk j, [(m.line, c!"Expected point for '" ++ m.name ++ c!"' got " ++ w.typeName)])

/-- the property as `GetRotated` leaves it -/
def rotMeta (v : Vis α) (m : Meta α) : Meta α :=
  match m.val with
  | .pt p => { m with val := .pt (p.rot v.rotation) }
  | _ => m

theorem rotMeta_name (v : Vis α) (m : Meta α) : (rotMeta v m).name = m.name := by
  unfold rotMeta; split <;> rfl

theorem invoke_quiet : ∀ (p : Pt α) (junk : Nat → V3 α) (ps : List (V3 α)) (ret : V3 α), (p.invoke junk ps ret).1 = true →
    (p.invoke junk ps ret).2.2 = []
  | .val p l, junk, ps, ret, _ => rfl
  | .func n a l, junk, ps, ret, h => by
    have ih := invoke_quiet a (fun n => junk (n + 1)) ps (junk 0)
    unfold Pt.invoke at h ⊢
    generalize a.invoke (fun n => junk (n + 1)) ps (junk 0) = r at h ih ⊢
    obtain ⟨b, q, ds⟩ := r
    by_cases hn : n = c!"near"
    · rw [if_pos hn] at h ⊢
      by_cases he : ps.isEmpty = true
      · rw [if_pos he] at h; cases h
      · rw [if_neg he] at h ⊢
        cases b with
        | false => cases h
        | true => simp only at ih ⊢; split_ifs <;> simpa using ih
    · rw [if_neg hn] at h ⊢
      by_cases hc : n = c!"center"
      · rw [if_pos hc] at h ⊢
        by_cases he : ps.length < 3
        · rw [if_pos he] at h; cases h
        · rw [if_neg he] at h ⊢
          cases b with
          | false => cases h
          | true =>
            simp only at h ih ⊢
            cases hl : locate ps q.xy with
            | none => rw [hl] at h; cases h
            | some c => simpa using ih
      · rw [if_neg hc] at h; cases h

theorem metaEval_quiet (E : Env α) (v : Vis α) (j : Nat) (m : Meta α) (h : (metaEval E v j m).1 = true) : (metaEval E v j m).2.2 = [] := by
  unfold metaEval at h ⊢
  split at h
  · exact invoke_quiet _ _ _ _ h
  · cases h

theorem getRotated_step (E : Env α) (s : DimSt α) (i j : Nat) (m : Meta α) (hr : s.vis.rotation.eqv E.junkM = false)
    (hi : s.metas[i]? = some m) : getRotated E s i (E.junk j) =
      .ok ((metaEval E s.vis j m).1, (metaEval E s.vis j m).2.1,
        ⟨s.metas.set i (rotMeta s.vis m), s.vis.errs (metaEval E s.vis j m).2.2⟩) := by
  unfold getRotated metaEval rotMeta
  rw [hr]
  simp only [Bool.false_eq_true, if_false, hi]
  have hs : s.metas.set i m = s.metas := by
    rw [List.getElem?_eq_some_iff] at hi
    obtain ⟨h1, h2⟩ := hi
    rw [← h2]
    simp
  cases hv : m.val <;> simp only [hs] <;> rfl

theorem errs_errs (v : Vis α) (a b : List Diag) : (v.errs a).errs b = v.errs (a ++ b) := by
  unfold Vis.errs; simp

theorem err_errs (v : Vis α) (l : Nat) (m : Str) : v.err l m = v.errs [(l, m)] := rfl

theorem errs_nil (v : Vis α) : v.errs [] = v := by unfold Vis.errs; simp

/-- the choice of format, from the property itself -/
def fmtOf (E : Env α) (kind dflt : Str) (m : Option (Meta α)) : Except Diag (α → Str) :=
  match m with
  | none => .ok ((E.fmtF dflt).getD (fun _ => []))
  | some m =>
    match m.val with
    | .str f =>
      match E.fmtF f with
      | some g => .ok g
      | none => .error (m.line, c!"Invalid fmt argument for " ++ kind ++ c!": must be a '%f' type")
    | _ => .error (m.line, c!"fmt argument for " ++ kind ++ c!" is the wrong type")

theorem getFmt_look (E : Env α) (kind dflt : Str) (ms ms' : List (Meta α)) (n : Str)
    (h : ∀ i, ixOf ms n = some i → ms'[i]? = ms[i]?) : getFmt E kind dflt ms' (ixOf ms n) = fmtOf E kind dflt (look ms n) := by
  unfold getFmt fmtOf look
  cases hi : ixOf ms n with
  | none =>
    rw [ixOf_none] at hi
    have : ms.find? (fun m => decide (m.name = n)) = none := by
      rw [List.find?_eq_none]; simpa using hi
    rw [this]
  | some i =>
    obtain ⟨m, h1, h2, h3⟩ := ixOf_some hi
    rw [h3]
    simp only [h i hi, h1]
    rfl

theorem look_some_ix {ms : List (Meta α)} {n : Str} {m : Meta α} (h : look ms n = some m) : ∃ i, ixOf ms n = some i ∧ ms[i]? = some m := by
  cases hi : ixOf ms n with
  | none =>
    rw [ixOf_none] at hi
    have : ms.find? (fun m => decide (m.name = n)) = none := by
      rw [List.find?_eq_none]; simpa using hi
    unfold look at h
    rw [this] at h; cases h
  | some i =>
    obtain ⟨m', h1, h2, h3⟩ := ixOf_some hi
    unfold look at h
    rw [h3] at h
    cases h
    exact ⟨i, rfl, h1⟩

theorem look_none_ix {ms : List (Meta α)} {n : Str} (h : look ms n = none) : ixOf ms n = none := by
  rw [ixOf_none]
  unfold look at h
  rw [List.find?_eq_none] at h
  simpa using h

theorem ixOf_look (ms : List (Meta α)) (n : Str) : (ixOf ms n = none ∧ look ms n = none) ∨
    ∃ i m, ixOf ms n = some i ∧ look ms n = some m ∧ ms[i]? = some m ∧ m.name = n := by
  cases hl : look ms n with
  | none => exact Or.inl ⟨look_none_ix hl, rfl⟩
  | some m =>
    obtain ⟨i, h1, h2⟩ := look_some_ix hl
    obtain ⟨m', h3, h4, h5⟩ := ixOf_some h1
    rw [h2] at h3
    cases h3
    exact Or.inr ⟨i, m, h1, rfl, h2, h4⟩

theorem ixOf_ne {ms : List (Meta α)} {a b : Str} {i j : Nat} (hi : ixOf ms a = some i) (hj : ixOf ms b = some j) (h : a ≠ b) : i ≠ j := by
  rintro rfl
  obtain ⟨m, h1, h2, -⟩ := ixOf_some hi
  obtain ⟨m', h3, h4, -⟩ := ixOf_some hj
  rw [h1] at h3
  cases h3
  exact h (h2.symm.trans h4)

theorem has_iff {ms : List (Meta α)} {n : Str} : Has ms n ↔ (ixOf ms n).isSome = true := ixOf_isSome.symm

theorem missing_nil (line : Nat) (l : List (Bool × Str)) : missing line l = [] ↔ ∀ p ∈ l, p.1 = true := by
  unfold missing
  rw [List.filterMap_eq_nil_iff]
  constructor
  · intro h p hp
    have := h p hp
    by_contra hc
    simp [hc] at this
  · intro h p hp
    simp [h p hp]

/-- `Exactly` in terms of the parts the code checks -/
theorem exactly_iff (ms : List (Meta α)) (blk : Str) (req opt N : List Str) (hN : ∀ n, n ∈ N ↔ n ∈ req ++ opt) :
    Exactly ms req opt ↔ (flatten blk ms).1 = true ∧ (∀ m ∈ ms, m.name ∈ N) ∧ ∀ n ∈ req, (ixOf ms n).isSome = true := by
  rw [flatten_ok]
  constructor
  · rintro ⟨h1, h2, h3⟩
    exact ⟨h1, fun m hm => (hN _).mpr (h2 m hm), fun n hn => ixOf_isSome.mpr (h3 n hn)⟩
  · rintro ⟨h1, h2, h3⟩
    exact ⟨h1, fun m hm => (hN _).mp (h2 m hm), fun n hn => ixOf_isSome.mp (h3 n hn)⟩

theorem flatten_noisy {blk : Str} {ms : List (Meta α)} (h : (flatten blk ms).1 = false) : (flatten blk ms).2.2 ≠ [] := by
  rw [Ne, flatten_diags, h]; simp

theorem flatten_quiet {blk : Str} {ms : List (Meta α)} (h : (flatten blk ms).1 = true) : (flatten blk ms).2.2 = [] := by
  rw [flatten_diags, h]

theorem missing_noisy {line : Nat} {l : List (Bool × Str)} (p : Bool × Str) (hp : p ∈ l) (h : p.1 = false) : missing line l ≠ [] := by
  rw [Ne, missing_nil]
  intro hc
  rw [hc p hp] at h; cases h

theorem errs_left_ne {L : List Diag} (M : List Diag) (h : L ≠ []) : L ++ M ≠ [] := by
  intro hc; exact h (List.append_eq_nil_iff.mp hc).1

theorem errs_right_ne {L : List Diag} (M : List Diag) (h : L ≠ []) : M ++ L ≠ [] := by
  intro hc; exact h (List.append_eq_nil_iff.mp hc).2

theorem metaEval_errs (E : Env α) (v : Vis α) (L : List Diag) (j : Nat) (m : Meta α) : metaEval E (v.errs L) j m = metaEval E v j m := rfl

theorem rotMeta_errs (v : Vis α) (L : List Diag) (m : Meta α) : rotMeta (v.errs L) m = rotMeta v m := rfl

theorem getRotated_next (E : Env α) (ms : List (Meta α)) (v : Vis α) (L : List Diag) (i j : Nat) (m : Meta α)
    (hr : v.rotation.eqv E.junkM = false) (hi : ms[i]? = some m) : getRotated E ⟨ms, v.errs L⟩ i (E.junk j) =
      .ok ((metaEval E v j m).1, (metaEval E v j m).2.1, ⟨ms.set i (rotMeta v m), v.errs (L ++ (metaEval E v j m).2.2)⟩) := by
  rw [getRotated_step E ⟨ms, v.errs L⟩ i j m hr hi, ← errs_errs]
  rfl

theorem getRotated_check (E : Env α) (ms : List (Meta α)) (v : Vis α) (hj : v.rotation.eqv E.junkM = true) (L : List Diag) (i : Nat)
    (r : V3 α) : getRotated E ⟨ms, v.errs L⟩ i r = .error .check := by
  unfold getRotated
  have : (v.errs L).rotation = v.rotation := rfl
  rw [this, hj]; rfl

theorem visitDim_table (E : Env α) (ms : List (Meta α)) (v : Vis α) (line : Nat) :
    (¬ Exactly ms [c!"at", c!"dir", c!"from", c!"to"] [c!"fmt"] →
      ∃ L, L ≠ [] ∧ visitDim E ⟨ms, v⟩ line = .ok (false, ⟨ms, v.errs L⟩)) ∧
    (Exactly ms [c!"at", c!"dir", c!"from", c!"to"] [c!"fmt"] → v.rotation.eqv E.junkM = true →
      visitDim E ⟨ms, v⟩ line = .error .check) ∧
    ∀ mA mD mF mT, Exactly ms [c!"at", c!"dir", c!"from", c!"to"] [c!"fmt"] → v.rotation.eqv E.junkM = false →
      look ms c!"at" = some mA → look ms c!"dir" = some mD → look ms c!"from" = some mF → look ms c!"to" = some mT →
      ∃ ms',
        (((metaEval E v 1 mD).2.1.eqv V3.zero = true ∨ ∃ d, fmtOf E c!"dim" c!"%.3f" (look ms c!"fmt") = .error d) →
          ∃ L, L ≠ [] ∧ visitDim E ⟨ms, v⟩ line = .ok (false, ⟨ms', v.errs L⟩)) ∧
        ∀ f, (metaEval E v 1 mD).2.1.eqv V3.zero = false → fmtOf E c!"dim" c!"%.3f" (look ms c!"fmt") = .ok f →
          visitDim E ⟨ms, v⟩ line =
            if (metaEval E v 0 mA).1 && (metaEval E v 1 mD).1 && (metaEval E v 2 mF).1 && (metaEval E v 3 mT).1 then
              .ok (true, ⟨ms', drawDim f v (metaEval E v 0 mA).2.1 (metaEval E v 1 mD).2.1.normalized (metaEval E v 2 mF).2.1
                (metaEval E v 3 mT).2.1⟩)
            else .ok (false, ⟨ms', v.errs ((metaEval E v 0 mA).2.2 ++ (metaEval E v 1 mD).2.2 ++ (metaEval E v 2 mF).2.2 ++
              (metaEval E v 3 mT).2.2)⟩) := by
  obtain ⟨p1, q1⟩ := rep_take (rep_flatten c!"dim" ms) c!"at"
  obtain ⟨p2, q2⟩ := rep_take q1 c!"dir"
  obtain ⟨p3, q3⟩ := rep_take q2 c!"from"
  obtain ⟨p4, q4⟩ := rep_take q3 c!"to"
  obtain ⟨p5, q5⟩ := rep_take q4 c!"fmt"
  have hnil := rep_nil q5
  rw [if_neg (by decide)] at p1 p2 p3 p4 p5
  have hex := exactly_iff ms c!"dim" [c!"at", c!"dir", c!"from", c!"to"] [c!"fmt"] [c!"fmt", c!"to", c!"from", c!"dir", c!"at"]
    (by intro n; simp only [List.cons_append, List.nil_append, List.mem_cons, List.not_mem_nil, or_false]; tauto)
  rw [← hnil] at hex
  simp only [List.forall_mem_cons, List.not_mem_nil, false_imp_iff, implies_true, and_true] at hex
  unfold visitDim
  dsimp only
  rw [p1, p2, p3, p4, p5]
  generalize (take c!"fmt" _).2 = S at hnil hex ⊢
  have hmiss : ∀ M, missing line [((ixOf ms c!"at").isSome, c!"Missing 'at'"), ((ixOf ms c!"dir").isSome, c!"Missing 'dir'"),
      ((ixOf ms c!"from").isSome, c!"Missing 'from'"), ((ixOf ms c!"to").isSome, c!"Missing 'to'")] = M →
      (M = [] ↔ (ixOf ms c!"at").isSome = true ∧ (ixOf ms c!"dir").isSome = true ∧ (ixOf ms c!"from").isSome = true ∧
        (ixOf ms c!"to").isSome = true) := by
    rintro M rfl
    rw [missing_nil]
    simp
  generalize missing line _ = M at hmiss ⊢
  have hM := hmiss M rfl
  clear hmiss
  refine ⟨?_, ?_, ?_⟩
  · intro hne
    rw [hex] at hne
    by_cases hS : S = []
    · rw [if_neg (by simpa using hS)]
      refine ⟨(flatten c!"dim" ms).2.2 ++ M, ?_, ?_⟩
      · intro hc
        rw [List.append_eq_nil_iff, flatten_diags, hM] at hc
        exact hne ⟨hc.1, hS, hc.2⟩
      · split
        · rename_i h0 h1 h2 h3 h4
          rw [h0, h1, h2, h3, h4] at hne
          simp [hS] at hne
        · rw [errs_errs]
    · rw [if_pos hS]
      rw [err_errs, errs_errs, errs_errs]
      exact ⟨_, by simp, rfl⟩
  · intro hx hj
    rw [hex] at hx
    obtain ⟨h0, hS, h1, h2, h3, h4⟩ := hx
    obtain ⟨i1, e1⟩ := Option.isSome_iff_exists.mp h1
    obtain ⟨i2, e2⟩ := Option.isSome_iff_exists.mp h2
    obtain ⟨i3, e3⟩ := Option.isSome_iff_exists.mp h3
    obtain ⟨i4, e4⟩ := Option.isSome_iff_exists.mp h4
    rw [if_neg (by simpa using hS), h0, e1, e2, e3, e4]
    simp only [bind, Except.bind]
    rw [errs_errs, getRotated_check E ms v hj]
  · intro mA mD mF mT hx hj lA lD lF lT
    rw [hex] at hx
    obtain ⟨h0, hS, h1, h2, h3, h4⟩ := hx
    obtain ⟨i1, e1, g1⟩ := look_some_ix lA
    obtain ⟨i2, e2, g2⟩ := look_some_ix lD
    obtain ⟨i3, e3, g3⟩ := look_some_ix lF
    obtain ⟨i4, e4, g4⟩ := look_some_ix lT
    have n12 := ixOf_ne e1 e2 (by decide)
    have n13 := ixOf_ne e1 e3 (by decide)
    have n14 := ixOf_ne e1 e4 (by decide)
    have n23 := ixOf_ne e2 e3 (by decide)
    have n24 := ixOf_ne e2 e4 (by decide)
    have n34 := ixOf_ne e3 e4 (by decide)
    have hf : getFmt E c!"dim" c!"%.3f" ((((ms.set i1 (rotMeta v mA)).set i2 (rotMeta v mD)).set i3 (rotMeta v mF)).set i4 (rotMeta v mT))
        (ixOf ms c!"fmt") = fmtOf E c!"dim" c!"%.3f" (look ms c!"fmt") := by
      apply getFmt_look
      intro i hi
      have m1 := ixOf_ne e1 hi (by decide)
      have m2 := ixOf_ne e2 hi (by decide)
      have m3 := ixOf_ne e3 hi (by decide)
      have m4 := ixOf_ne e4 hi (by decide)
      rw [List.getElem?_set_ne m4, List.getElem?_set_ne m3, List.getElem?_set_ne m2, List.getElem?_set_ne m1]
    have hM0 : M = [] := hM.mpr ⟨h1, h2, h3, h4⟩
    refine ⟨(((ms.set i1 (rotMeta v mA)).set i2 (rotMeta v mD)).set i3 (rotMeta v mF)).set i4 (rotMeta v mT), ?_⟩
    rw [if_neg (by simpa using hS), h0, e1, e2, e3, e4, flatten_quiet h0, hM0, errs_errs, List.append_nil]
    simp only [bind, Except.bind]
    rw [getRotated_next E _ v _ i1 0 mA hj g1]
    dsimp only
    rw [getRotated_next E _ v _ i2 1 mD hj (by rw [List.getElem?_set_ne n12]; exact g2)]
    dsimp only
    rw [getRotated_next E _ v _ i3 2 mF hj (by rw [List.getElem?_set_ne n23, List.getElem?_set_ne n13]; exact g3)]
    dsimp only
    rw [getRotated_next E _ v _ i4 3 mT hj (by rw [List.getElem?_set_ne n34, List.getElem?_set_ne n24, List.getElem?_set_ne n14]; exact g4)]
    dsimp only
    simp only [errs_errs, err_errs, List.nil_append]
    rw [hf]
    constructor
    · rintro (hz | ⟨d, hd⟩)
      · rw [if_pos hz]
        exact ⟨_, errs_right_ne _ (by simp), rfl⟩
      · by_cases hz : (metaEval E v 1 mD).2.1.eqv V3.zero = true
        · rw [if_pos hz]
          exact ⟨_, errs_right_ne _ (by simp), rfl⟩
        · rw [if_neg hz, hd]
          exact ⟨_, errs_right_ne _ (by simp), rfl⟩
    · intro f hz hd
      rw [hz, hd]
      simp only [Bool.false_eq_true, if_false]
      cases hall : ((metaEval E v 0 mA).1 && (metaEval E v 1 mD).1 && (metaEval E v 2 mF).1 && (metaEval E v 3 mT).1) with
      | false => simp
      | true =>
        simp only [Bool.not_true, Bool.false_eq_true, if_false, if_true]
        simp only [Bool.and_eq_true] at hall
        obtain ⟨⟨⟨b1, b2⟩, b3⟩, b4⟩ := hall
        rw [metaEval_quiet E v 0 mA b1, metaEval_quiet E v 1 mD b2, metaEval_quiet E v 2 mF b3, metaEval_quiet E v 3 mT b4]
        simp only [List.append_nil, errs_nil]

/-- `take` chain of `GetCenter` and `RenderDia`/`RenderRad` -/
theorem visitCirc_table (E : Env α) (kind : Str) (drawIt : (α → Str) → Vis α → Circ α → Vis α) (ms : List (Meta α)) (v : Vis α)
    (line : Nat) :
    (¬ ((ms.map (fun m => m.name)).Nodup ∧ Has ms c!"at" ∧ Has ms c!"dir" ∧ Has ms c!"center") ∨ v.points.length < 3 →
      ∃ L, L ≠ [] ∧ visitCirc E kind drawIt ⟨ms, v⟩ line = .ok (false, ⟨ms, v.errs L⟩)) ∧
    ((ms.map (fun m => m.name)).Nodup → Has ms c!"at" → Has ms c!"dir" → Has ms c!"center" → ¬ v.points.length < 3 →
      v.rotation.eqv E.junkM = true → visitCirc E kind drawIt ⟨ms, v⟩ line = .error .check) ∧
    ∀ mA mD mC, (ms.map (fun m => m.name)).Nodup → ¬ v.points.length < 3 → v.rotation.eqv E.junkM = false →
      look ms c!"at" = some mA → look ms c!"dir" = some mD → look ms c!"center" = some mC →
      ∃ ms',
        (((metaEval E v 0 mA).1 && (metaEval E v 1 mC).1 && (metaEval E v 2 mD).1) = false →
          visitCirc E kind drawIt ⟨ms, v⟩ line =
            .ok (false, ⟨ms', v.errs ((metaEval E v 0 mA).2.2 ++ (metaEval E v 1 mC).2.2 ++ (metaEval E v 2 mD).2.2)⟩)) ∧
        (((metaEval E v 0 mA).1 && (metaEval E v 1 mC).1 && (metaEval E v 2 mD).1) = true →
          ((locate v.points (metaEval E v 1 mC).2.1.xy = none ∨ ¬ (∀ m ∈ ms, m.name ∈ [c!"at", c!"dir", c!"center", c!"fmt"]) ∨
              ∃ d, fmtOf E kind c!"%.3f" (look ms c!"fmt") = .error d) →
            ∃ L, L ≠ [] ∧ visitCirc E kind drawIt ⟨ms, v⟩ line = .ok (false, ⟨ms', v.errs L⟩)) ∧
          ∀ c r f, locate v.points (metaEval E v 1 mC).2.1.xy = some (c, r) → (∀ m ∈ ms, m.name ∈ [c!"at", c!"dir", c!"center", c!"fmt"]) →
            fmtOf E kind c!"%.3f" (look ms c!"fmt") = .ok f →
            visitCirc E kind drawIt ⟨ms, v⟩ line =
              .ok (true, ⟨ms', drawIt f v ⟨(metaEval E v 0 mA).2.1.xy, (metaEval E v 2 mD).2.1.xy, c, r⟩⟩)) := by
  obtain ⟨p1, q1⟩ := rep_take (rep_flatten kind ms) c!"at"
  obtain ⟨p2, q2⟩ := rep_take q1 c!"dir"
  obtain ⟨p3, q3⟩ := rep_take q2 c!"center"
  obtain ⟨p4, q4⟩ := rep_take q3 c!"fmt"
  have hnil := rep_nil q4
  rw [if_neg (by decide)] at p1 p2 p3 p4
  have hkn : (∀ m ∈ ms, m.name ∈ [c!"at", c!"dir", c!"center", c!"fmt"]) ↔ ∀ m ∈ ms, m.name ∈ [c!"fmt", c!"center", c!"dir", c!"at"] := by
    apply forall_congr'; intro m; apply forall_congr'; intro _
    simp only [List.mem_cons, List.not_mem_nil, or_false]; tauto
  rw [← hnil] at hkn
  simp only [has_iff, ← flatten_ok kind]
  unfold visitCirc getCenter
  dsimp only
  rw [p1, p2, p3]
  generalize (take c!"center" (take c!"dir" (take c!"at" (flatten kind ms).2.1).2).2).2 = T at p4 hnil hkn ⊢
  have hmiss : ∀ M, missing line [((ixOf ms c!"at").isSome, c!"Missing 'at'"), ((ixOf ms c!"dir").isSome, c!"Missing 'dir'"),
      ((ixOf ms c!"center").isSome, c!"Missing 'center'")] = M →
      (M = [] ↔ (ixOf ms c!"at").isSome = true ∧ (ixOf ms c!"dir").isSome = true ∧ (ixOf ms c!"center").isSome = true) := by
    rintro M rfl
    rw [missing_nil]
    simp
  generalize missing line _ = M at hmiss ⊢
  have hM := hmiss M rfl
  clear hmiss
  refine ⟨?_, ?_, ?_⟩
  · intro hne
    cases h0 : (flatten kind ms).1 with
    | false =>
      rw [if_pos (by rfl)]
      exact ⟨_, flatten_noisy h0, rfl⟩
    | true =>
      rw [if_neg (by simp), flatten_quiet h0, errs_nil]
      simp only [bind, Except.bind]
      rw [h0] at hne
      simp only [true_and] at hne
      rw [← hM] at hne
      have hpt : v.points.length < 3 ∨ ¬ M = [] := Or.symm hne
      clear hne
      rcases ixOf_look ms c!"at" with ⟨e1, -⟩ | ⟨i1, m1, e1, -, -, -⟩
      · rw [e1] at hM ⊢
        exact ⟨M, by simp [hM], rfl⟩
      rcases ixOf_look ms c!"dir" with ⟨e2, -⟩ | ⟨i2, m2, e2, -, -, -⟩
      · rw [e1, e2] at hM ⊢
        exact ⟨M, by simp [hM], rfl⟩
      rcases ixOf_look ms c!"center" with ⟨e3, -⟩ | ⟨i3, m3, e3, -, -, -⟩
      · rw [e1, e2, e3] at hM ⊢
        exact ⟨M, by simp [hM], rfl⟩
      rw [e1, e2, e3] at hM ⊢
      have hp : v.points.length < 3 := by
        rcases hpt with hc | hc
        · exact hc
        · exact absurd (hM.mpr ⟨rfl, rfl, rfl⟩) hc
      dsimp only
      rw [if_pos hp]
      exact ⟨_, by simp, rfl⟩
  · intro h0 h1 h2 h3 hp hj
    obtain ⟨i1, e1⟩ := Option.isSome_iff_exists.mp h1
    obtain ⟨i2, e2⟩ := Option.isSome_iff_exists.mp h2
    obtain ⟨i3, e3⟩ := Option.isSome_iff_exists.mp h3
    rw [h0, if_neg (by simp), e1, e2, e3]
    simp only [bind, Except.bind]
    have hp' : ¬ (v.errs (flatten kind ms).2.2).points.length < 3 := hp
    rw [if_neg hp']
    rw [getRotated_check E ms v hj]
  · intro mA mD mC h0 hp hj lA lD lC
    obtain ⟨i1, e1, g1⟩ := look_some_ix lA
    obtain ⟨i2, e2, g2⟩ := look_some_ix lD
    obtain ⟨i3, e3, g3⟩ := look_some_ix lC
    have n12 := ixOf_ne e1 e2 (by decide)
    have n13 := ixOf_ne e1 e3 (by decide)
    have n23 := ixOf_ne e2 e3 (by decide)
    have hf : getFmt E kind c!"%.3f" (((ms.set i1 (rotMeta v mA)).set i3 (rotMeta v mC)).set i2 (rotMeta v mD))
        (ixOf ms c!"fmt") = fmtOf E kind c!"%.3f" (look ms c!"fmt") := by
      apply getFmt_look
      intro i hi
      have m1 := ixOf_ne e1 hi (by decide)
      have m2 := ixOf_ne e2 hi (by decide)
      have m3 := ixOf_ne e3 hi (by decide)
      rw [List.getElem?_set_ne m2, List.getElem?_set_ne m3, List.getElem?_set_ne m1]
    refine ⟨((ms.set i1 (rotMeta v mA)).set i3 (rotMeta v mC)).set i2 (rotMeta v mD), ?_⟩
    have hpt : ∀ L, (v.errs L).points = v.points := fun _ => rfl
    rw [h0, if_neg (by simp), e1, e2, e3, flatten_quiet h0]
    simp only [bind, Except.bind]
    rw [hpt, if_neg hp]
    rw [getRotated_next E _ v _ i1 0 mA hj g1]
    dsimp only
    rw [getRotated_next E _ v _ i3 1 mC hj (by rw [List.getElem?_set_ne n13]; exact g3)]
    dsimp only
    rw [getRotated_next E _ v _ i2 2 mD hj (by rw [List.getElem?_set_ne n23.symm, List.getElem?_set_ne n12]; exact g2)]
    dsimp only
    simp only [errs_errs, err_errs, hpt, List.nil_append]
    constructor
    · intro hall
      rw [hall]
      simp
    · intro hall
      rw [hall, if_neg (by simp)]
      simp only [Bool.and_eq_true] at hall
      obtain ⟨⟨b1, b2⟩, b3⟩ := hall
      rw [metaEval_quiet E v 0 mA b1, metaEval_quiet E v 1 mC b2, metaEval_quiet E v 2 mD b3]
      constructor
      · intro hbad
        cases hl : locate v.points (metaEval E v 1 mC).2.1.xy with
        | none => exact ⟨_, by simp, rfl⟩
        | some cr =>
          obtain ⟨c, r⟩ := cr
          rw [hl] at hbad
          simp only [reduceCtorEq, false_or] at hbad
          unfold renderCirc
          dsimp only
          by_cases hS : (take c!"fmt" T).2 = []
          · rw [if_neg (by simpa using hS), p4, hf]
            rcases hbad with hb | ⟨d, hd⟩
            · exact absurd (hkn.mpr hS) hb
            · rw [hd]
              simp only [errs_errs]
              exact ⟨_, by simp, rfl⟩
          · rw [if_pos hS]
            simp only [errs_errs, err_errs]
            exact ⟨_, by simp, rfl⟩
      · intro c r f hl hk hd
        rw [hl]
        unfold renderCirc
        dsimp only
        rw [if_neg (by simpa using hkn.mp hk), p4, hf, hd]
        simp only [List.append_nil, errs_nil]

/-- one leg of an angle: verdict, direction, point, diagnostics -/
def legEval (E : Env α) (v : Vis α) (apex : V3 α) (j : Nat) (mD mP : Option (Meta α)) : Bool × V3 α × V3 α × List Diag :=
  match mD, mP with
  | some m, _ => ((metaEval E v j m).1, (metaEval E v j m).2.1.normalized, apex, (metaEval E v j m).2.2)
  | none, some m => ((metaEval E v (j + 1) m).1, ((metaEval E v (j + 1) m).2.1 - apex).normalized, (metaEval E v (j + 1) m).2.1,
      (metaEval E v (j + 1) m).2.2)
  | none, none => (false, V3.zero, V3.zero, [])

theorem legEval_errs (E : Env α) (v : Vis α) (L : List Diag) (apex : V3 α) (j : Nat) (mD mP : Option (Meta α)) :
    legEval E (v.errs L) apex j mD mP = legEval E v apex j mD mP := rfl

theorem legEval_quiet (E : Env α) (v : Vis α) (apex : V3 α) (j : Nat) (mD mP : Option (Meta α)) (h : (legEval E v apex j mD mP).1 = true) :
    (legEval E v apex j mD mP).2.2.2 = [] := by
  unfold legEval at h ⊢
  cases mD with
  | some m => exact metaEval_quiet _ _ _ _ h
  | none =>
    cases mP with
    | some m => exact metaEval_quiet _ _ _ _ h
    | none => rfl

theorem angleLeg_step (E : Env α) (ms ms' : List (Meta α)) (v : Vis α) (L : List Diag) (apex : V3 α) (j : Nat) (a b : Str)
    (hr : v.rotation.eqv E.junkM = false) (hone : Has ms a ∨ Has ms b)
    (ha : ∀ i, ixOf ms a = some i → ms'[i]? = ms[i]?) (hb : ∀ i, ixOf ms b = some i → ms'[i]? = ms[i]?) :
    ∃ ms'', angleLeg E ⟨ms', v.errs L⟩ apex (ixOf ms a) (ixOf ms b) j =
      .ok ((legEval E v apex j (look ms a) (look ms b)).1, (legEval E v apex j (look ms a) (look ms b)).2.1,
        (legEval E v apex j (look ms a) (look ms b)).2.2.1, ⟨ms'', v.errs (L ++ (legEval E v apex j (look ms a) (look ms b)).2.2.2)⟩) ∧
      ∀ n i, ixOf ms n = some i → n ≠ a → n ≠ b → ms''[i]? = ms'[i]? := by
  unfold angleLeg legEval
  rcases ixOf_look ms a with ⟨a1, a2⟩ | ⟨i, m, a1, a2, a3, a4⟩
  · rcases ixOf_look ms b with ⟨b1, b2⟩ | ⟨k, m, b1, b2, b3, b4⟩
    · rw [has_iff, has_iff, a1, b1] at hone
      simp at hone
    · rw [a1, a2, b1, b2]
      simp only [bind, Except.bind]
      rw [getRotated_next E ms' v L k (j + 1) m hr (by rw [hb k b1]; exact b3)]
      refine ⟨_, rfl, ?_⟩
      intro n i hi h1 h2
      exact List.getElem?_set_ne (ixOf_ne b1 hi (Ne.symm h2))
  · rw [a1, a2]
    simp only [bind, Except.bind]
    rw [getRotated_next E ms' v L i j m hr (by rw [ha i a1]; exact a3)]
    refine ⟨_, rfl, ?_⟩
    intro n k hk h1 h2
    exact List.getElem?_set_ne (ixOf_ne a1 hk (Ne.symm h1))

theorem xor_or {a b : Prop} (h : a ↔ ¬ b) : a ∨ b := by tauto
theorem xor_nand {a b : Prop} (h : a ↔ ¬ b) : ¬ (a ∧ b) := by tauto
theorem xor_mk {a b : Prop} (h : a ∨ b) (h' : ¬ (a ∧ b)) : a ↔ ¬ b := by tauto

theorem bothGiven_nil (ms : List (Meta α)) (p q : Option Nat) (msg : Str) :
    bothGiven ms p q msg = [] ↔ ¬ (p.isSome = true ∧ q.isSome = true) := by
  unfold bothGiven
  cases p <;> cases q <;> simp

theorem visitAngle_table (E : Env α) (ms : List (Meta α)) (v : Vis α) (line : Nat) :
    (¬ GoodDim .angle ms → ∃ L, L ≠ [] ∧ visitAngle E ⟨ms, v⟩ line = .ok (false, ⟨ms, v.errs L⟩)) ∧
    (GoodDim .angle ms → v.rotation.eqv E.junkM = true → visitAngle E ⟨ms, v⟩ line = .error .check) ∧
    ∀ mA mX at_ apex eF eT, GoodDim .angle ms → v.rotation.eqv E.junkM = false →
      look ms c!"at" = some mA → look ms c!"apex" = some mX → metaEval E v 0 mA = at_ → metaEval E v 1 mX = apex →
      legEval E v apex.2.1 2 (look ms c!"from_dir") (look ms c!"from_point") = eF →
      legEval E v apex.2.1 4 (look ms c!"to_dir") (look ms c!"to_point") = eT →
      ∃ ms',
        ((∃ d, fmtOf E c!"angle" c!"%.1f" (look ms c!"fmt") = .error d) →
          ∃ L, L ≠ [] ∧ visitAngle E ⟨ms, v⟩ line = .ok (false, ⟨ms', v.errs L⟩)) ∧
        ∀ f, fmtOf E c!"angle" c!"%.1f" (look ms c!"fmt") = .ok f →
          ((at_.1 && apex.1 && eF.1 && eT.1) = false →
            visitAngle E ⟨ms, v⟩ line = .ok (false, ⟨ms', v.errs (at_.2.2 ++ apex.2.2 ++ eF.2.2.2 ++ eT.2.2.2)⟩)) ∧
          ((at_.1 && apex.1 && eF.1 && eT.1) = true →
            (FP.eq (eT.2.1.cross eF.2.1).z (FP.lit 0) = true →
              ∃ L, L ≠ [] ∧ visitAngle E ⟨ms, v⟩ line = .ok (false, ⟨ms', v.errs L⟩)) ∧
            (FP.eq (eT.2.1.cross eF.2.1).z (FP.lit 0) = false →
              visitAngle E ⟨ms, v⟩ line = .ok (true, ⟨ms',
                if FP.lt (FP.lit 0) (eT.2.1.cross eF.2.1).z then drawAngle f v at_.2.1 apex.2.1 eT.2.1 eT.2.2.1 eF.2.1 eF.2.2.1
                else drawAngle f v at_.2.1 apex.2.1 eF.2.1 eF.2.2.1 eT.2.1 eT.2.2.1⟩))) := by
  obtain ⟨p1, q1⟩ := rep_take (rep_flatten c!"angle" ms) c!"at"
  obtain ⟨p2, q2⟩ := rep_take q1 c!"apex"
  obtain ⟨p3, q3⟩ := rep_take q2 c!"from_dir"
  obtain ⟨p4, q4⟩ := rep_take q3 c!"from_point"
  obtain ⟨p5, q5⟩ := rep_take q4 c!"to_dir"
  obtain ⟨p6, q6⟩ := rep_take q5 c!"to_point"
  obtain ⟨p7, q7⟩ := rep_take q6 c!"fmt"
  have hnil := rep_nil q7
  rw [if_neg (by decide)] at p1 p2 p3 p4 p5 p6 p7
  have hex := exactly_iff ms c!"angle" [c!"at", c!"apex"] [c!"from_dir", c!"from_point", c!"to_dir", c!"to_point", c!"fmt"]
    [c!"fmt", c!"to_point", c!"to_dir", c!"from_point", c!"from_dir", c!"apex", c!"at"]
    (by intro n; exact List.Perm.mem_iff (by decide))
  rw [← hnil] at hex
  simp only [List.forall_mem_cons, List.not_mem_nil, false_imp_iff, implies_true, and_true] at hex
  have hgood : GoodDim .angle ms ↔ ((flatten c!"angle" ms).1 = true ∧ (take c!"fmt" (take c!"to_point" (take c!"to_dir"
      (take c!"from_point" (take c!"from_dir" (take c!"apex" (take c!"at" (flatten c!"angle" ms).2.1).2).2).2).2).2).2).2 = [] ∧
      (ixOf ms c!"at").isSome = true ∧ (ixOf ms c!"apex").isSome = true) ∧
      ((ixOf ms c!"from_dir").isSome = true ↔ ¬ (ixOf ms c!"from_point").isSome = true) ∧
      ((ixOf ms c!"to_dir").isSome = true ↔ ¬ (ixOf ms c!"to_point").isSome = true) := by
    unfold GoodDim
    dsimp only
    rw [hex, has_iff, has_iff, has_iff, has_iff]
  unfold visitAngle
  dsimp only
  rw [p1, p2, p3, p4, p5, p6, p7]
  generalize (take c!"fmt" _).2 = S at hnil hgood ⊢
  have hmiss : ∀ M, missing line [((ixOf ms c!"at").isSome, c!"Missing 'at'"), ((ixOf ms c!"apex").isSome, c!"Missing 'apex'"),
      ((ixOf ms c!"from_dir").isSome || (ixOf ms c!"from_point").isSome, c!"Missing 'from_{dir,point}'"),
      ((ixOf ms c!"to_dir").isSome || (ixOf ms c!"to_point").isSome, c!"Missing 'to_{dir,point}'")] = M →
      (M = [] ↔ (ixOf ms c!"at").isSome = true ∧ (ixOf ms c!"apex").isSome = true ∧
        ((ixOf ms c!"from_dir").isSome || (ixOf ms c!"from_point").isSome) = true ∧
        ((ixOf ms c!"to_dir").isSome || (ixOf ms c!"to_point").isSome) = true) := by
    rintro M rfl
    rw [missing_nil]
    simp
  generalize missing line _ = M at hmiss ⊢
  have hM := hmiss M rfl
  clear hmiss
  refine ⟨?_, ?_, ?_⟩
  · intro hne
    rw [hgood] at hne
    by_cases hS : S = []
    · rw [if_neg (by simpa using hS)]
      split
      · rename_i h0 h1 h2
        have hB : bothGiven ms (ixOf ms c!"from_dir") (ixOf ms c!"from_point") c!"Both 'from_{dir,point}' provided" ++
            bothGiven ms (ixOf ms c!"to_dir") (ixOf ms c!"to_point") c!"Both 'to_{dir,point}' provided" ≠ [] := by
          rw [Ne, List.append_eq_nil_iff, bothGiven_nil, bothGiven_nil]
          rw [Bool.and_eq_true, Bool.and_eq_true, Bool.or_eq_true, Bool.or_eq_true] at h0
          rintro ⟨c1, c2⟩
          apply hne
          refine ⟨⟨h0.1.1, hS, by rw [h1]; rfl, by rw [h2]; rfl⟩, xor_mk h0.1.2 c1, xor_mk h0.2 c2⟩
        rw [if_pos hB, errs_errs, errs_errs]
        exact ⟨_, errs_right_ne _ (errs_right_ne _ hB), rfl⟩
      · rename_i hno
        refine ⟨_, ?_, by rw [errs_errs]⟩
        intro hc
        rw [List.append_eq_nil_iff, flatten_diags, hM] at hc
        obtain ⟨h0, h1, h2, h3, h4⟩ := hc
        obtain ⟨i1, e1⟩ := Option.isSome_iff_exists.mp h1
        obtain ⟨i2, e2⟩ := Option.isSome_iff_exists.mp h2
        exact hno i1 i2 (by rw [h0, h3, h4]; rfl) e1 e2
    · rw [if_pos hS, err_errs, errs_errs, errs_errs]
      exact ⟨_, by simp, rfl⟩
  · intro hx hj
    rw [hgood] at hx
    obtain ⟨⟨h0, hS, h1, h2⟩, h3, h4⟩ := hx
    obtain ⟨i1, e1⟩ := Option.isSome_iff_exists.mp h1
    obtain ⟨i2, e2⟩ := Option.isSome_iff_exists.mp h2
    have hft : ((ixOf ms c!"from_dir").isSome || (ixOf ms c!"from_point").isSome) = true := by
      rw [Bool.or_eq_true]; exact xor_or h3
    have htt : ((ixOf ms c!"to_dir").isSome || (ixOf ms c!"to_point").isSome) = true := by
      rw [Bool.or_eq_true]; exact xor_or h4
    have hB : bothGiven ms (ixOf ms c!"from_dir") (ixOf ms c!"from_point") c!"Both 'from_{dir,point}' provided" ++
        bothGiven ms (ixOf ms c!"to_dir") (ixOf ms c!"to_point") c!"Both 'to_{dir,point}' provided" = [] := by
      rw [List.append_eq_nil_iff, bothGiven_nil, bothGiven_nil]
      exact ⟨xor_nand h3, xor_nand h4⟩
    rw [if_neg (by simpa using hS), h0, hft, htt, e1, e2]
    simp only [Bool.and_true]
    rw [hB, if_neg (by simp)]
    simp only [bind, Except.bind]
    rw [errs_errs, getRotated_check E ms v hj]
  · rintro mA mX at_ apex eF eT hx hj lA lX rfl rfl hF hT
    rw [hgood] at hx
    obtain ⟨⟨h0, hS, h1, h2⟩, h3, h4⟩ := hx
    obtain ⟨i1, e1, g1⟩ := look_some_ix lA
    obtain ⟨i2, e2, g2⟩ := look_some_ix lX
    have n12 := ixOf_ne e1 e2 (by decide)
    have hft : ((ixOf ms c!"from_dir").isSome || (ixOf ms c!"from_point").isSome) = true := by
      rw [Bool.or_eq_true]; exact xor_or h3
    have htt : ((ixOf ms c!"to_dir").isSome || (ixOf ms c!"to_point").isSome) = true := by
      rw [Bool.or_eq_true]; exact xor_or h4
    have hB : bothGiven ms (ixOf ms c!"from_dir") (ixOf ms c!"from_point") c!"Both 'from_{dir,point}' provided" ++
        bothGiven ms (ixOf ms c!"to_dir") (ixOf ms c!"to_point") c!"Both 'to_{dir,point}' provided" = [] := by
      rw [List.append_eq_nil_iff, bothGiven_nil, bothGiven_nil]
      exact ⟨xor_nand h3, xor_nand h4⟩
    have hM0 : M = [] := hM.mpr ⟨h1, h2, hft, htt⟩
    have s2 : ∀ n i, ixOf ms n = some i → n ≠ c!"at" → n ≠ c!"apex" →
        ((ms.set i1 (rotMeta v mA)).set i2 (rotMeta v mX))[i]? = ms[i]? := by
      intro n i hi k1 k2
      rw [List.getElem?_set_ne (ixOf_ne e2 hi (Ne.symm k2)), List.getElem?_set_ne (ixOf_ne e1 hi (Ne.symm k1))]
    obtain ⟨ms3, L3, s3⟩ := angleLeg_step E ms _ v ([] ++ (metaEval E v 0 mA).2.2 ++ (metaEval E v 1 mX).2.2) (metaEval E v 1 mX).2.1 2 c!"from_dir" c!"from_point" hj
      (by rw [has_iff, has_iff, ← Bool.or_eq_true]; exact hft) (fun i hi => s2 _ i hi (by decide) (by decide))
      (fun i hi => s2 _ i hi (by decide) (by decide))
    obtain ⟨ms4, L4, s4⟩ := angleLeg_step E ms ms3 v ([] ++ (metaEval E v 0 mA).2.2 ++ (metaEval E v 1 mX).2.2 ++ eF.2.2.2) (metaEval E v 1 mX).2.1 4 c!"to_dir" c!"to_point" hj
      (by rw [has_iff, has_iff, ← Bool.or_eq_true]; exact htt)
      (fun i hi => (s3 _ i hi (by decide) (by decide)).trans (s2 _ i hi (by decide) (by decide)))
      (fun i hi => (s3 _ i hi (by decide) (by decide)).trans (s2 _ i hi (by decide) (by decide)))
    rw [hF] at L3
    rw [hT] at L4
    have hf : getFmt E c!"angle" c!"%.1f" ms4 (ixOf ms c!"fmt") = fmtOf E c!"angle" c!"%.1f" (look ms c!"fmt") := by
      apply getFmt_look
      intro i hi
      rw [s4 _ i hi (by decide) (by decide), s3 _ i hi (by decide) (by decide), s2 _ i hi (by decide) (by decide)]
    refine ⟨ms4, ?_⟩
    rw [if_neg (by simpa using hS), h0, hft, htt, e1, e2, flatten_quiet h0, hM0, errs_errs, List.append_nil]
    simp only [Bool.and_true]
    rw [hB, if_neg (by simp)]
    simp only [bind, Except.bind]
    rw [getRotated_next E _ v _ i1 0 mA hj g1]
    dsimp only
    rw [getRotated_next E _ v _ i2 1 mX hj (by rw [List.getElem?_set_ne n12]; exact g2)]
    dsimp only
    rw [L3]
    dsimp only
    rw [L4]
    dsimp only
    rw [hf]
    simp only [errs_errs, err_errs, List.nil_append]
    constructor
    · rintro ⟨d, hd⟩
      rw [hd]
      exact ⟨_, errs_right_ne _ (by simp), rfl⟩
    · intro f hd
      rw [hd]
      dsimp only
      constructor
      · intro hall
        rw [hall, if_pos (by rfl)]
      · intro hall
        rw [hall, if_neg (by simp)]
        simp only [Bool.and_eq_true] at hall
        obtain ⟨⟨⟨b1, b2⟩, b3⟩, b4⟩ := hall
        rw [← hF] at b3
        rw [← hT] at b4
        have r3 := legEval_quiet _ _ _ _ _ _ b3
        have r4 := legEval_quiet _ _ _ _ _ _ b4
        rw [hF] at r3
        rw [hT] at r4
        rw [metaEval_quiet E v 0 mA b1, metaEval_quiet E v 1 mX b2, r3, r4]
        simp only [List.append_nil, errs_nil]
        constructor
        · intro hz
          rw [if_pos hz]
          exact ⟨_, by simp, rfl⟩
        · intro hz
          rw [if_neg (by simp [hz])]
          split_ifs <;> rfl

end S2P
