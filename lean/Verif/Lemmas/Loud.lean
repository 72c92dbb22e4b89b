import Verif.Lemmas.DimSum

set_option linter.unusedSectionVars false
set_option linter.unusedVariables false
set_option linter.unusedSimpArgs false

/-! # Diagnostics, aborts and the order of properties -/

namespace S2P
variable {α : Type} [FP α]

/-! ## Diagnostics -/

theorem invoke_loud : ∀ (p : Pt α) (junk : Nat → V3 α) (ps : List (V3 α)) (ret : V3 α), p.Loud (ps ≠ []) →
    (p.invoke junk ps ret).1 = false → (p.invoke junk ps ret).2.2 ≠ []
  | .val p l, junk, ps, ret, _, h => by simp [Pt.invoke] at h
  | .func n a l, junk, ps, ret, hl, h => by
    have ih := invoke_loud a (fun n => junk (n + 1)) ps (junk 0) hl.2.2
    unfold Pt.invoke at h ⊢
    generalize a.invoke (fun n => junk (n + 1)) ps (junk 0) = r at h ih ⊢
    obtain ⟨b, q, ds⟩ := r
    by_cases hn : n = c!"near"
    · rw [if_pos hn] at h ⊢
      have hne := hl.2.1 hn
      rw [if_neg (by simpa using hne)] at h ⊢
      cases b with
      | false => exact ih rfl
      | true =>
        simp only [] at h
        by_cases hm : setMem ps q = true
        · rw [if_pos hm] at h; cases h
        · rw [if_neg hm] at h; cases h
    · rw [if_neg hn, if_neg hl.1] at h ⊢
      simp

theorem rot_loud {P : Prop} (m : M3 α) : ∀ (p : Pt α), p.Loud P → (p.rot m).Loud P
  | .val p l, _ => trivial
  | .func n a l, h => ⟨h.1, h.2.1, rot_loud m a h.2.2⟩

theorem metaEval_loud (E : Env α) (v : Vis α) (j : Nat) (m : Meta α) (hl : ∀ p, m.val = .pt p → p.Loud (v.points ≠ []))
    (h : (metaEval E v j m).1 = false) : (metaEval E v j m).2.2 ≠ [] := by
  unfold metaEval at h ⊢
  cases hv : m.val with
  | pt p =>
    rw [hv] at h
    exact invoke_loud _ _ _ _ (rot_loud _ p (hl p hv)) h
  | _ => simp

theorem drawDia_log (fmt : α → Str) (v : Vis α) (c : Circ α) : (drawDia fmt v c).log = v.log := by
  unfold drawDia; dsimp only; split_ifs <;> rfl
theorem drawRad_log (fmt : α → Str) (v : Vis α) (c : Circ α) : (drawRad fmt v c).log = v.log := by
  unfold drawRad; dsimp only; split_ifs <;> rfl
theorem drawDim_log (fmt : α → Str) (v : Vis α) (a b c d : V3 α) : (drawDim fmt v a b c d).log = v.log := by
  unfold drawDim; dsimp only; split_ifs <;> rfl
theorem drawAngle_log (fmt : α → Str) (v : Vis α) (a b c d e f : V3 α) : (drawAngle fmt v a b c d e f).log = v.log := by
  unfold drawAngle; rfl

theorem look_mem {ms : List (Meta α)} {n : Str} {m : Meta α} (h : look ms n = some m) : m ∈ ms := List.mem_of_find?_eq_some h

theorem not_all4 {a b c d : Bool} (h : ¬ (a && b && c && d) = true) : a = false ∨ b = false ∨ c = false ∨ d = false := by
  cases a <;> cases b <;> cases c <;> cases d <;> simp_all

/-- verdict and diagnostics of a dim block -/
theorem visitDim_log (E : Env α) (ms : List (Meta α)) (v : Vis α) (line : Nat) (x) (h : visitDim E ⟨ms, v⟩ line = .ok x) :
    (x.1 = true → x.2.vis.log = v.log) ∧
    (x.1 = false → (∀ m ∈ ms, ∀ p, m.val = .pt p → p.Loud (v.points ≠ [])) → ∃ L, L ≠ [] ∧ x.2.vis = v.errs L) := by
  obtain ⟨t1, t2, t3⟩ := visitDim_table E ms v line
  by_cases hg : GoodDim .dim ms
  · cases hr : v.rotation.eqv E.junkM with
    | true => rw [t2 hg hr] at h; cases h
    | false =>
      obtain ⟨mA, hA⟩ := exactly_look hg (n := c!"at") (by simp)
      obtain ⟨mD, hD⟩ := exactly_look hg (n := c!"dir") (by simp)
      obtain ⟨mF, hF⟩ := exactly_look hg (n := c!"from") (by simp)
      obtain ⟨mT, hT⟩ := exactly_look hg (n := c!"to") (by simp)
      obtain ⟨ms', k1, k2⟩ := t3 mA mD mF mT hg hr hA hD hF hT
      by_cases hb : (metaEval E v 1 mD).2.1.eqv V3.zero = true ∨ ∃ d, fmtOf E c!"dim" c!"%.3f" (look ms c!"fmt") = .error d
      · obtain ⟨L, hL, e⟩ := k1 hb
        rw [e] at h; cases h
        exact ⟨fun h => (by cases h), fun _ _ => ⟨L, hL, rfl⟩⟩
      · rw [not_or] at hb
        cases hf : fmtOf E c!"dim" c!"%.3f" (look ms c!"fmt") with
        | error d => exact absurd ⟨d, hf⟩ hb.2
        | ok f =>
          have e := k2 f (by simpa using hb.1) hf
          rw [e] at h
          rcases ite_cases h with ⟨hc, h⟩ | ⟨hc, h⟩
          · cases h
            exact ⟨fun _ => drawDim_log _ _ _ _ _ _, fun h => by cases h⟩
          · cases h
            refine ⟨fun h => (by cases h), fun _ hl => ⟨_, ?_, rfl⟩⟩
            have l1 := metaEval_loud E v 0 mA (hl mA (look_mem hA))
            have l2 := metaEval_loud E v 1 mD (hl mD (look_mem hD))
            have l3 := metaEval_loud E v 2 mF (hl mF (look_mem hF))
            have l4 := metaEval_loud E v 3 mT (hl mT (look_mem hT))
            rcases not_all4 hc with q | q | q | q
            · exact errs_left_ne _ (errs_left_ne _ (errs_left_ne _ (l1 q)))
            · exact errs_left_ne _ (errs_left_ne _ (errs_right_ne _ (l2 q)))
            · exact errs_left_ne _ (errs_right_ne _ (l3 q))
            · exact errs_right_ne _ (l4 q)
  · obtain ⟨L, hL, e⟩ := t1 hg
    rw [e] at h; cases h
    exact ⟨fun h => (by cases h), fun _ _ => ⟨L, hL, rfl⟩⟩

theorem visitCirc_log (E : Env α) (kind : Str) (drawIt : (α → Str) → Vis α → Circ α → Vis α) (hd : ∀ f v c, (drawIt f v c).log = v.log)
    (ms : List (Meta α)) (v : Vis α) (line : Nat) (x) (h : visitCirc E kind drawIt ⟨ms, v⟩ line = .ok x) :
    (x.1 = true → x.2.vis.log = v.log) ∧
    (x.1 = false → (∀ m ∈ ms, ∀ p, m.val = .pt p → p.Loud (v.points ≠ [])) → ∃ L, L ≠ [] ∧ x.2.vis = v.errs L) := by
  obtain ⟨t1, t2, t3⟩ := visitCirc_table E kind drawIt ms v line
  by_cases h1 : ¬ ((ms.map (fun m => m.name)).Nodup ∧ Has ms c!"at" ∧ Has ms c!"dir" ∧ Has ms c!"center") ∨ v.points.length < 3
  · obtain ⟨L, hL, e⟩ := t1 h1
    rw [e] at h; cases h
    exact ⟨fun h => (by cases h), fun _ _ => ⟨L, hL, rfl⟩⟩
  · rw [not_or, not_not] at h1
    obtain ⟨⟨hn, ha, hd', hc⟩, hl⟩ := h1
    cases hr : v.rotation.eqv E.junkM with
    | true => rw [t2 hn ha hd' hc hl hr] at h; cases h
    | false =>
      obtain ⟨mA, hA⟩ := has_look ha
      obtain ⟨mD, hD⟩ := has_look hd'
      obtain ⟨mC, hC⟩ := has_look hc
      obtain ⟨ms', k1, k2⟩ := t3 mA mD mC hn hl hr hA hD hC
      cases hb : (metaEval E v 0 mA).1 && (metaEval E v 1 mC).1 && (metaEval E v 2 mD).1 with
      | false =>
        rw [k1 hb] at h; cases h
        refine ⟨fun h => (by cases h), fun _ hl => ⟨_, ?_, rfl⟩⟩
        have l1 := metaEval_loud E v 0 mA (hl mA (look_mem hA))
        have l2 := metaEval_loud E v 1 mC (hl mC (look_mem hC))
        have l3 := metaEval_loud E v 2 mD (hl mD (look_mem hD))
        rcases not_all4 (d := true) (by rw [hb]; simp) with q | q | q | q
        · exact errs_left_ne _ (errs_left_ne _ (l1 q))
        · exact errs_left_ne _ (errs_right_ne _ (l2 q))
        · exact errs_right_ne _ (l3 q)
        · cases q
      | true =>
        obtain ⟨k3, k4⟩ := k2 hb
        by_cases hz : locate v.points (metaEval E v 1 mC).2.1.xy = none ∨ ¬ (∀ m ∈ ms, m.name ∈ [c!"at", c!"dir", c!"center", c!"fmt"]) ∨
              ∃ d, fmtOf E kind c!"%.3f" (look ms c!"fmt") = .error d
        · obtain ⟨L, hL, e⟩ := k3 hz
          rw [e] at h; cases h
          exact ⟨fun h => (by cases h), fun _ _ => ⟨L, hL, rfl⟩⟩
        · rw [not_or, not_or, not_not] at hz
          cases hloc : locate v.points (metaEval E v 1 mC).2.1.xy with
          | none => exact absurd hloc hz.1
          | some k =>
            cases hf : fmtOf E kind c!"%.3f" (look ms c!"fmt") with
            | error d => exact absurd ⟨d, hf⟩ hz.2.2
            | ok f =>
              rw [k4 k.1 k.2 f hloc hz.2.1 hf] at h; cases h
              exact ⟨fun _ => hd _ _ _, fun h => by cases h⟩

theorem legEval_loud (E : Env α) (v : Vis α) (apex : V3 α) (j : Nat) (ms : List (Meta α)) (a b : Str) (hx : Has ms a ↔ ¬ Has ms b)
    (hl : ∀ m ∈ ms, ∀ p, m.val = .pt p → p.Loud (v.points ≠ [])) (h : (legEval E v apex j (look ms a) (look ms b)).1 = false) :
    (legEval E v apex j (look ms a) (look ms b)).2.2.2 ≠ [] := by
  unfold legEval at h ⊢
  cases ha : look ms a with
  | some m =>
    rw [ha] at h
    exact metaEval_loud E v j m (hl m (look_mem ha)) h
  | none =>
    have hb : Has ms b := by
      by_contra hc
      obtain ⟨m, hm⟩ := has_look (hx.mpr hc)
      rw [ha] at hm; cases hm
    obtain ⟨m, hm⟩ := has_look hb
    rw [ha, hm] at h
    rw [hm]
    exact metaEval_loud E v (j + 1) m (hl m (look_mem hm)) h

theorem visitAngle_log (E : Env α) (ms : List (Meta α)) (v : Vis α) (line : Nat) (x) (h : visitAngle E ⟨ms, v⟩ line = .ok x) :
    (x.1 = true → x.2.vis.log = v.log) ∧
    (x.1 = false → (∀ m ∈ ms, ∀ p, m.val = .pt p → p.Loud (v.points ≠ [])) → ∃ L, L ≠ [] ∧ x.2.vis = v.errs L) := by
  obtain ⟨t1, t2, t3⟩ := visitAngle_table E ms v line
  by_cases hg : GoodDim .angle ms
  · cases hr : v.rotation.eqv E.junkM with
    | true => rw [t2 hg hr] at h; cases h
    | false =>
      obtain ⟨mA, hA⟩ := exactly_look hg.1 (n := c!"at") (by simp)
      obtain ⟨mX, hX⟩ := exactly_look hg.1 (n := c!"apex") (by simp)
      obtain ⟨ms', k1, k2⟩ := t3 mA mX _ _ _ _ hg hr hA hX rfl rfl rfl rfl
      cases hf : fmtOf E c!"angle" c!"%.1f" (look ms c!"fmt") with
      | error q =>
        obtain ⟨L, hL, e⟩ := k1 ⟨q, hf⟩
        rw [e] at h; cases h
        exact ⟨fun h => (by cases h), fun _ _ => ⟨L, hL, rfl⟩⟩
      | ok g =>
        obtain ⟨k3, k4⟩ := k2 g hf
        cases hb : ((metaEval E v 0 mA).1 && (metaEval E v 1 mX).1 &&
            (legEval E v (metaEval E v 1 mX).2.1 2 (look ms c!"from_dir") (look ms c!"from_point")).1 &&
            (legEval E v (metaEval E v 1 mX).2.1 4 (look ms c!"to_dir") (look ms c!"to_point")).1) with
        | false =>
          rw [k3 hb] at h; cases h
          refine ⟨fun h => (by cases h), fun _ hl => ⟨_, ?_, rfl⟩⟩
          have l1 := metaEval_loud E v 0 mA (hl mA (look_mem hA))
          have l2 := metaEval_loud E v 1 mX (hl mX (look_mem hX))
          have l3 := legEval_loud E v (metaEval E v 1 mX).2.1 2 ms _ _ hg.2.1 hl
          have l4 := legEval_loud E v (metaEval E v 1 mX).2.1 4 ms _ _ hg.2.2 hl
          rcases not_all4 (by rw [hb]; simp) with q | q | q | q
          · exact errs_left_ne _ (errs_left_ne _ (errs_left_ne _ (l1 q)))
          · exact errs_left_ne _ (errs_left_ne _ (errs_right_ne _ (l2 q)))
          · exact errs_left_ne _ (errs_right_ne _ (l3 q))
          · exact errs_right_ne _ (l4 q)
        | true =>
          obtain ⟨k5, k6⟩ := k4 hb
          cases hz : FP.eq (V3.cross (legEval E v (metaEval E v 1 mX).2.1 4 (look ms c!"to_dir") (look ms c!"to_point")).2.1
              (legEval E v (metaEval E v 1 mX).2.1 2 (look ms c!"from_dir") (look ms c!"from_point")).2.1).z (FP.lit 0) with
          | true =>
            obtain ⟨L, hL, e⟩ := k5 hz
            rw [e] at h; cases h
            exact ⟨fun h => (by cases h), fun _ _ => ⟨L, hL, rfl⟩⟩
          | false =>
            rw [k6 hz] at h; cases h
            refine ⟨fun _ => ?_, fun h => by cases h⟩
            dsimp only
            split_ifs <;> exact drawAngle_log _ _ _ _ _ _ _ _
  · obtain ⟨L, hL, e⟩ := t1 hg
    rw [e] at h; cases h
    exact ⟨fun h => (by cases h), fun _ _ => ⟨L, hL, rfl⟩⟩

theorem visitDimN_log (E : Env α) (v : Vis α) (d : DimN α) (x) (h : visitDimN E v d = .ok x) :
    (x.1 = true → x.2.2.log = v.log) ∧
    (x.1 = false → (∀ m ∈ d.metas, ∀ p, m.val = .pt p → p.Loud (v.points ≠ [])) → ∃ L, L ≠ [] ∧ x.2.2 = v.errs L) := by
  unfold visitDimN at h
  simp only [bind, Except.bind] at h
  cases hk : d.kind <;> rw [hk] at h <;> simp only [] at h
  · cases hx : visitAngle E ⟨d.metas, v⟩ d.line with
    | error a => rw [hx] at h; cases h
    | ok s => rw [hx] at h; cases h; exact visitAngle_log E _ _ _ _ hx
  · cases hx : visitCirc E c!"dia" drawDia ⟨d.metas, v⟩ d.line with
    | error a => rw [hx] at h; cases h
    | ok s => rw [hx] at h; cases h; exact visitCirc_log E _ _ drawDia_log _ _ _ _ hx
  · cases hx : visitDim E ⟨d.metas, v⟩ d.line with
    | error a => rw [hx] at h; cases h
    | ok s => rw [hx] at h; cases h; exact visitDim_log E _ _ _ _ hx
  · cases hx : visitCirc E c!"rad" drawRad ⟨d.metas, v⟩ d.line with
    | error a => rw [hx] at h; cases h
    | ok s => rw [hx] at h; cases h; exact visitCirc_log E _ _ drawRad_log _ _ _ _ hx

theorem dimContent_log (E : Env α) (v : Vis α) (d : DimN α) (k) (h : dimContent E v d = .ok k) :
    (k.1 = true → k.2.2 = []) ∧
    (k.1 = false → (∀ m ∈ d.metas, ∀ p, m.val = .pt p → p.Loud (v.points ≠ [])) → k.2.2 ≠ []) := by
  unfold dimContent at h
  cases hx : visitDimN E v.base d with
  | error a => rw [hx] at h; cases h
  | ok x =>
    rw [hx] at h; cases h
    obtain ⟨h1, h2⟩ := visitDimN_log E v.base d x hx
    refine ⟨fun h => h1 h, fun h hl => ?_⟩
    obtain ⟨L, hL, e⟩ := h2 h hl
    simp only [e]
    simpa [Vis.errs, Vis.base] using hL

theorem content_quiet (E : Env α) (stl : Models α) (d : Drawable α) (c) (h : content E stl d = .ok c) (hc : c.1 = true) : c.2.2 = [] := by
  cases d with
  | draw n ms dims l =>
    rcases draw_sum E stl n ms dims l c h with ⟨h1, -⟩ | ⟨sc, rot, loc, file, proj, ls, cs, D, f, -, hv, extra, hx, hl⟩
    · rw [h1] at hc; cases hc
    · obtain ⟨a1, a2⟩ := hv.mp hc
      rw [hl, hx.mpr (Or.inr a2), List.append_nil, List.flatten_eq_nil_iff]
      intro L hL
      obtain ⟨k, hk, rfl⟩ := List.mem_map.mp hL
      have : ∃ d ∈ dims, dimContent E (drawStart (initVis E) sc rot loc proj.cull ls) d = .ok k := by
        obtain ⟨x, hx, e⟩ := forall₂_mem f.flip hk
        exact ⟨x, hx, e⟩
      obtain ⟨d, -, hd⟩ := this
      exact (dimContent_log E _ d k hd).1 (a1 k hk)
  | text s ms l =>
    unfold content at h
    simp only [visitDrawable, bind, Except.bind] at h
    obtain ⟨ds, extra, e1, e2, e3⟩ := visitText_out (α := α) s ms l
    rw [e3] at h
    unfold textOut at h
    by_cases hd : ds ≠ []
    · rw [if_pos hd] at h; cases h; cases hc
    · rw [if_neg hd] at h
      cases h1 : textLocOf (look ms c!"@") with
      | error a => rw [h1] at h; cases h
      | ok p =>
        rw [h1] at h; cases h
        simp only [List.isEmpty_iff] at hc
        simp [hc, Vis.errs, initVis]

/-- diagnostics of a page -/
theorem genPage_log (E : Env α) (stl : Models α) (pg : PageN α) (n : Nat) (v : Vis α) (r) (h : genPage E stl v n pg = .ok r) :
    ∃ cs L, List.Forall₂ (fun d c => content E stl d = .ok c) pg.draws cs ∧ r.2.2.log = v.log ++ L ∧
      (r.1 = true → L = []) ∧ (∀ c ∈ cs, c.2.2 ≠ [] → L ≠ []) ∧ ((∀ c ∈ cs, c.1 = true) → r.1 = false → L ≠ []) := by
  obtain ⟨ds, xl, hd, hx⟩ := genPage_out E stl pg
  obtain ⟨extra, he, -, hg⟩ := hx n
  rw [hg] at h
  obtain ⟨s1, s2⟩ := drawables_sum E stl pg.draws { v with page := OutPage.empty, log := v.log ++ (ds ++ (titleOf (look pg.metas c!"name")).2) }
  cases hv : visitDrawables E stl pg.draws { v with page := OutPage.empty, log := v.log ++ (ds ++ (titleOf (look pg.metas c!"name")).2) } with
  | error a => rw [hv] at h; cases h
  | ok s =>
    rw [hv] at h
    simp only [Except.map, Except.ok.injEq] at h
    subst h
    obtain ⟨cs, f, g1, g2, g3⟩ := s2 s hv
    refine ⟨cs, ds ++ (titleOf (look pg.metas c!"name")).2 ++ (cs.map (fun c => c.2.2)).flatten ++ extra, f, ?_, ?_, ?_, ?_⟩
    · simp only [g3]; simp
    · intro hr
      simp only [Bool.and_eq_true, List.isEmpty_iff, g1, List.all_eq_true] at hr
      obtain ⟨⟨⟨a1, a2⟩, a3⟩, a4⟩ := hr
      simp only [a1, a2, a4, List.nil_append, List.append_nil, List.flatten_eq_nil_iff]
      intro L hL
      obtain ⟨c, hc, rfl⟩ := List.mem_map.mp hL
      obtain ⟨d, -, hd⟩ := forall₂_mem f.flip hc
      exact content_quiet E stl d c hd (a3 c hc)
    · intro c hc hne
      apply errs_left_ne
      apply errs_right_ne
      intro hz
      rw [List.flatten_eq_nil_iff] at hz
      exact hne (hz _ (List.mem_map.mpr ⟨c, hc, rfl⟩))
    · intro hall hr hz
      simp only [List.append_eq_nil_iff] at hz
      obtain ⟨⟨⟨a1, a2⟩, a3⟩, a4⟩ := hz
      simp only [a1, a2, a4, g1, List.isEmpty_nil, Bool.true_and, Bool.and_true] at hr
      rw [List.all_eq_false] at hr
      obtain ⟨c, hc, e⟩ := hr
      exact e (hall c hc)

theorem genPages_log (E : Env α) (stl : Models α) : ∀ (pgs : List (PageN α)) (n : Nat) (v : Vis α) (r), genPages E stl pgs n v = .ok r →
    ∃ L, r.2.2.2.log = v.log ++ L ∧ (r.1 = true → L = []) ∧
      (r.1 = false → (∀ pg ∈ pgs, ∀ d ∈ pg.draws, ∀ c, content E stl d = .ok c → c.1 = false → c.2.2 ≠ []) → L ≠ [])
  | [], n, v, r, h => by cases h; exact ⟨[], by simp, fun _ => rfl, fun h => by cases h⟩
  | pg :: pgs, n, v, r, h => by
    simp only [genPages, bind, Except.bind] at h
    cases h1 : genPage E stl v (n + 1) pg with
    | error e => rw [h1] at h; cases h
    | ok x =>
      rw [h1] at h
      simp only [] at h
      cases h2 : genPages E stl pgs (n + 1) x.2.2 with
      | error e => rw [h2] at h; cases h
      | ok t =>
        rw [h2] at h
        cases h
        obtain ⟨cs, L1, f, e1, q1, q2, q3⟩ := genPage_log E stl pg _ _ _ h1
        obtain ⟨L2, e2, p1, p2⟩ := genPages_log E stl pgs _ _ _ h2
        refine ⟨L1 ++ L2, by simp [e1, e2], ?_, ?_⟩
        · intro hr
          simp only [Bool.and_eq_true] at hr
          simp [q1 hr.1, p1 hr.2]
        · intro hr hl
          simp only [Bool.and_eq_false_iff] at hr
          rcases hr with hr | hr
          · apply errs_left_ne
            by_cases hall : ∀ c ∈ cs, c.1 = true
            · exact q3 hall hr
            · push Not at hall
              obtain ⟨c, hc, hf⟩ := hall
              obtain ⟨d, hd, e⟩ := forall₂_mem f.flip hc
              exact q2 c hc (hl pg (by simp) d hd c e (by simpa using hf))
          · exact errs_right_ne _ (p2 hr (fun p hp => hl p (by simp [hp])))

end S2P
