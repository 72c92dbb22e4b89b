import Verif.Lemmas.Accept
import Verif.Spec.Dims

set_option linter.unusedSectionVars false
set_option linter.unusedVariables false
set_option linter.unusedSimpArgs false

/-! # The outcome of a dimension, from what it names -/

namespace S2P
variable {α : Type} [FP α]

theorem pointOf_eval (E : Env α) (v : Vis α) (j : Nat) (ms : List (Meta α)) (n : Str) (m : Meta α) (h : look ms n = some m) :
    pointOf E v j ms n = if (metaEval E v j m).1 then some (metaEval E v j m).2.1 else none := by
  unfold pointOf metaEval
  rw [h]
  cases hv : m.val <;> simp [hv]

theorem formatOf_eq (E : Env α) (kind dflt : Str) (ms : List (Meta α)) :
    formatOf E dflt ms = (fmtOf E kind dflt (look ms c!"fmt")).toOption := by
  unfold formatOf fmtOf
  cases look ms c!"fmt" with
  | none => rfl
  | some m =>
    cases hv : m.val with
    | str f => simp only [hv]; cases E.fmtF f <;> rfl
    | _ => simp [hv, Except.toOption]

theorem legOf_eval (E : Env α) (v : Vis α) (j : Nat) (apex : V3 α) (ms : List (Meta α)) (a b : Str) (h : Has ms a ↔ ¬ Has ms b) :
    legOf E v j apex ms a b = if (legEval E v apex j (look ms a) (look ms b)).1 then
      some ((legEval E v apex j (look ms a) (look ms b)).2.1, (legEval E v apex j (look ms a) (look ms b)).2.2.1) else none := by
  unfold legOf legEval
  cases ha : look ms a with
  | some m =>
    simp only [pointOf_eval E v j ms a m ha]
    split_ifs <;> rfl
  | none =>
    have hb : Has ms b := by
      by_contra hc
      obtain ⟨m, hm⟩ := has_look (h.mpr hc)
      rw [ha] at hm; cases hm
    obtain ⟨m, hm⟩ := has_look hb
    simp only [pointOf_eval E v (j + 1) ms b m hm, hm]
    split_ifs <;> rfl

theorem exactly_look {ms : List (Meta α)} {req opt : List Str} (h : Exactly ms req opt) {n : Str} (hn : n ∈ req) : ∃ m, look ms n = some m :=
  has_look (h.all n hn)

/-- the outcome of a dim block -/
theorem visitDim_spec (E : Env α) (ms : List (Meta α)) (v : Vis α) (line : Nat) (hr : v.rotation.eqv E.junkM = false) :
    (GoodDim .dim ms → ∀ w, dimDraws E v .dim ms = some w → ∃ ms', visitDim E ⟨ms, v⟩ line = .ok (true, ⟨ms', w⟩)) ∧
    (¬ GoodDim .dim ms ∨ dimDraws E v .dim ms = none → ∃ ms' L, visitDim E ⟨ms, v⟩ line = .ok (false, ⟨ms', v.errs L⟩)) := by
  obtain ⟨t1, t2, t3⟩ := visitDim_table E ms v line
  by_cases hg : GoodDim .dim ms
  · obtain ⟨mA, hA⟩ := exactly_look hg (n := c!"at") (by simp)
    obtain ⟨mD, hD⟩ := exactly_look hg (n := c!"dir") (by simp)
    obtain ⟨mF, hF⟩ := exactly_look hg (n := c!"from") (by simp)
    obtain ⟨mT, hT⟩ := exactly_look hg (n := c!"to") (by simp)
    obtain ⟨ms', k1, k2⟩ := t3 mA mD mF mT hg hr hA hD hF hT
    have hx : dimDraws E v .dim ms = (do
        let a ← (if (metaEval E v 0 mA).1 then some (metaEval E v 0 mA).2.1 else none)
        let d ← (if (metaEval E v 1 mD).1 then some (metaEval E v 1 mD).2.1 else none)
        let f ← (if (metaEval E v 2 mF).1 then some (metaEval E v 2 mF).2.1 else none)
        let t ← (if (metaEval E v 3 mT).1 then some (metaEval E v 3 mT).2.1 else none)
        let g ← (fmtOf E c!"dim" c!"%.3f" (look ms c!"fmt")).toOption
        if d.eqv V3.zero then none else some (drawDim g v a d.normalized f t)) := by
      simp only [dimDraws, pointOf_eval E v 0 ms _ mA hA, pointOf_eval E v 1 ms _ mD hD, pointOf_eval E v 2 ms _ mF hF,
        pointOf_eval E v 3 ms _ mT hT, formatOf_eq E c!"dim"]
    rw [hx]
    clear hx
    generalize metaEval E v 0 mA = a at *
    generalize metaEval E v 1 mD = d at *
    generalize metaEval E v 2 mF = f at *
    generalize metaEval E v 3 mT = t at *
    cases hz : d.2.1.eqv V3.zero with
    | true =>
      obtain ⟨L, -, e⟩ := k1 (Or.inl hz)
      refine ⟨fun _ w hw => ?_, fun _ => ⟨_, _, e⟩⟩
      exfalso; revert hw
      cases a.1 <;> cases hd : d.1 <;> cases f.1 <;> cases t.1 <;> cases fmtOf E c!"dim" c!"%.3f" (look ms c!"fmt") <;>
        simp [hz, Except.toOption]
    | false =>
      cases hf : fmtOf E c!"dim" c!"%.3f" (look ms c!"fmt") with
      | error q =>
        obtain ⟨L, -, e⟩ := k1 (Or.inr ⟨q, hf⟩)
        refine ⟨fun _ w hw => ?_, fun _ => ⟨_, _, e⟩⟩
        exfalso; revert hw
        cases a.1 <;> cases hd : d.1 <;> cases f.1 <;> cases t.1 <;> simp [Except.toOption]
      | ok g =>
        rw [k2 g hz hf]
        cases ha : a.1 <;> cases hd : d.1 <;> cases hff : f.1 <;> cases ht : t.1 <;>
          simp [Except.toOption, hz, hg] <;> exact ⟨_, _, rfl⟩
  · obtain ⟨L, -, e⟩ := t1 hg
    exact ⟨fun h => absurd h hg, fun _ => ⟨_, _, e⟩⟩

/-- the outcome of a dia or rad block -/
theorem visitCirc_spec (E : Env α) (kind : Str) (drawIt : (α → Str) → Vis α → Circ α → Vis α) (ms : List (Meta α)) (v : Vis α) (line : Nat)
    (hr : v.rotation.eqv E.junkM = false) :
    (GoodDim .dia ms → ∀ w, dimDraws.circ E v ms drawIt = some w → ∃ ms', visitCirc E kind drawIt ⟨ms, v⟩ line = .ok (true, ⟨ms', w⟩)) ∧
    (¬ GoodDim .dia ms ∨ dimDraws.circ E v ms drawIt = none → ∃ ms' L, visitCirc E kind drawIt ⟨ms, v⟩ line = .ok (false, ⟨ms', v.errs L⟩)) := by
  obtain ⟨t1, t2, t3⟩ := visitCirc_table E kind drawIt ms v line
  by_cases h1 : ¬ ((ms.map (fun m => m.name)).Nodup ∧ Has ms c!"at" ∧ Has ms c!"dir" ∧ Has ms c!"center") ∨ v.points.length < 3
  · obtain ⟨L, -, e⟩ := t1 h1
    refine ⟨fun hg w hw => ?_, fun _ => ⟨_, _, e⟩⟩
    exfalso
    rcases h1 with h1 | h1
    · exact h1 ⟨hg.once, hg.all _ (by simp), hg.all _ (by simp), hg.all _ (by simp)⟩
    · revert hw
      simp only [dimDraws.circ, if_pos h1]
      cases pointOf E v 0 ms c!"at" <;> cases pointOf E v 1 ms c!"center" <;> cases pointOf E v 2 ms c!"dir" <;>
        cases formatOf E c!"%.3f" ms <;> simp
  · rw [not_or, not_not] at h1
    obtain ⟨⟨hn, ha, hd, hc⟩, hl⟩ := h1
    obtain ⟨mA, hA⟩ := has_look ha
    obtain ⟨mD, hD⟩ := has_look hd
    obtain ⟨mC, hC⟩ := has_look hc
    obtain ⟨ms', k1, k2⟩ := t3 mA mD mC hn hl hr hA hD hC
    have hgood : GoodDim .dia ms ↔ ∀ m ∈ ms, m.name ∈ [c!"at", c!"dir", c!"center", c!"fmt"] := by
      constructor
      · intro hg; exact hg.known
      · intro hk
        refine ⟨hn, hk, ?_⟩
        intro n hm
        simp only [List.mem_cons, List.not_mem_nil, or_false] at hm
        rcases hm with rfl | rfl | rfl
        · exact ha
        · exact hd
        · exact hc
    have hx : dimDraws.circ E v ms drawIt = (do
        let a ← (if (metaEval E v 0 mA).1 then some (metaEval E v 0 mA).2.1 else none)
        let c ← (if (metaEval E v 1 mC).1 then some (metaEval E v 1 mC).2.1 else none)
        let d ← (if (metaEval E v 2 mD).1 then some (metaEval E v 2 mD).2.1 else none)
        let g ← (fmtOf E kind c!"%.3f" (look ms c!"fmt")).toOption
        let k ← locate v.points c.xy
        some (drawIt g v ⟨a.xy, d.xy, k.1, k.2⟩)) := by
      simp only [dimDraws.circ, pointOf_eval E v 0 ms _ mA hA, pointOf_eval E v 1 ms _ mC hC, pointOf_eval E v 2 ms _ mD hD, formatOf_eq E kind, if_neg hl]
    rw [hx]
    clear hx
    generalize metaEval E v 0 mA = a at *
    generalize metaEval E v 2 mD = d at *
    generalize metaEval E v 1 mC = c at *
    cases hb : (a.1 && c.1 && d.1) with
    | false =>
      refine ⟨fun _ w hw => ?_, fun _ => ⟨_, _, k1 hb⟩⟩
      exfalso; revert hw hb
      cases a.1 <;> cases c.1 <;> cases d.1 <;> simp
    | true =>
      obtain ⟨k3, k4⟩ := k2 hb
      simp only [Bool.and_eq_true] at hb
      simp only [hb, if_true]
      cases hloc : locate v.points c.2.1.xy with
      | none =>
        obtain ⟨L, -, e⟩ := k3 (Or.inl hloc)
        refine ⟨fun _ w hw => ?_, fun _ => ⟨_, _, e⟩⟩
        exfalso; revert hw
        cases fmtOf E kind c!"%.3f" (look ms c!"fmt") <;> simp [Except.toOption, hloc]
      | some k =>
        cases hf : fmtOf E kind c!"%.3f" (look ms c!"fmt") with
        | error q =>
          obtain ⟨L, -, e⟩ := k3 (Or.inr (Or.inr ⟨q, hf⟩))
          refine ⟨fun _ w hw => ?_, fun _ => ⟨_, _, e⟩⟩
          simp [Except.toOption] at hw
        | ok g =>
          by_cases hk : ∀ m ∈ ms, m.name ∈ [c!"at", c!"dir", c!"center", c!"fmt"]
          · have e := k4 k.1 k.2 g hloc hk hf
            refine ⟨fun _ w hw => ?_, fun h => ?_⟩
            · simp [Except.toOption, hloc] at hw
              subst hw
              exact ⟨_, e⟩
            · rcases h with h | h
              · exact absurd (hgood.mpr hk) h
              · simp [Except.toOption, hloc] at h
          · obtain ⟨L, -, e⟩ := k3 (Or.inr (Or.inl hk))
            exact ⟨fun hg => absurd (hgood.mp hg) hk, fun _ => ⟨_, _, e⟩⟩

/-- the outcome of an angle block -/
theorem visitAngle_spec (E : Env α) (ms : List (Meta α)) (v : Vis α) (line : Nat) (hr : v.rotation.eqv E.junkM = false) :
    (GoodDim .angle ms → ∀ w, dimDraws E v .angle ms = some w → ∃ ms', visitAngle E ⟨ms, v⟩ line = .ok (true, ⟨ms', w⟩)) ∧
    (¬ GoodDim .angle ms ∨ dimDraws E v .angle ms = none → ∃ ms' L, visitAngle E ⟨ms, v⟩ line = .ok (false, ⟨ms', v.errs L⟩)) := by
  obtain ⟨t1, t2, t3⟩ := visitAngle_table E ms v line
  by_cases hg : GoodDim .angle ms
  · obtain ⟨mA, hA⟩ := exactly_look hg.1 (n := c!"at") (by simp)
    obtain ⟨mX, hX⟩ := exactly_look hg.1 (n := c!"apex") (by simp)
    obtain ⟨ms', k1, k2⟩ := t3 mA mX _ _ _ _ hg hr hA hX rfl rfl rfl rfl
    have hx : dimDraws E v .angle ms = (do
        let a ← (if (metaEval E v 0 mA).1 then some (metaEval E v 0 mA).2.1 else none)
        let x ← (if (metaEval E v 1 mX).1 then some (metaEval E v 1 mX).2.1 else none)
        let f ← (if (legEval E v x 2 (look ms c!"from_dir") (look ms c!"from_point")).1 then
          some ((legEval E v x 2 (look ms c!"from_dir") (look ms c!"from_point")).2.1,
            (legEval E v x 2 (look ms c!"from_dir") (look ms c!"from_point")).2.2.1) else none)
        let t ← (if (legEval E v x 4 (look ms c!"to_dir") (look ms c!"to_point")).1 then
          some ((legEval E v x 4 (look ms c!"to_dir") (look ms c!"to_point")).2.1,
            (legEval E v x 4 (look ms c!"to_dir") (look ms c!"to_point")).2.2.1) else none)
        let g ← (fmtOf E c!"angle" c!"%.1f" (look ms c!"fmt")).toOption
        if FP.eq (t.1.cross f.1).z (FP.lit 0) then none
        else if FP.lt (FP.lit 0) (t.1.cross f.1).z then some (drawAngle g v a x t.1 t.2 f.1 f.2)
        else some (drawAngle g v a x f.1 f.2 t.1 t.2)) := by
      unfold dimDraws
      simp only [pointOf_eval E v 0 ms _ mA hA, pointOf_eval E v 1 ms _ mX hX, legOf_eval E v _ _ ms _ _ hg.2.1,
        legOf_eval E v _ _ ms _ _ hg.2.2, formatOf_eq E c!"angle"]
    rw [hx]
    clear hx
    cases hf : fmtOf E c!"angle" c!"%.1f" (look ms c!"fmt") with
    | error q =>
      obtain ⟨L, -, e⟩ := k1 ⟨q, hf⟩
      refine ⟨fun _ w hw => ?_, fun _ => ⟨_, _, e⟩⟩
      exfalso; revert hw
      simp [Except.toOption]
    | ok g =>
      obtain ⟨k3, k4⟩ := k2 g hf
      clear k1 k2 t1 t2 t3
      generalize metaEval E v 0 mA = a at *
      generalize metaEval E v 1 mX = x at *
      cases hx1 : x.1 with
      | false =>
        rw [hx1] at k3
        refine ⟨fun _ w hw => ?_, fun _ => ⟨_, _, k3 (by simp)⟩⟩
        exfalso; revert hw
        simp
      | true =>
        simp only [if_true, Option.bind_eq_bind, Option.bind_some]
        rw [hx1] at k3 k4
        generalize legEval E v x.2.1 2 (look ms c!"from_dir") (look ms c!"from_point") = f at *
        generalize legEval E v x.2.1 4 (look ms c!"to_dir") (look ms c!"to_point") = t at *
        cases ha : a.1 with
        | false => exact ⟨by simp, fun _ => ⟨_, _, k3 (by simp [ha])⟩⟩
        | true =>
          cases hff : f.1 with
          | false => exact ⟨by simp, fun _ => ⟨_, _, k3 (by simp [hff])⟩⟩
          | true =>
            cases ht : t.1 with
            | false => exact ⟨by simp, fun _ => ⟨_, _, k3 (by simp [ht])⟩⟩
            | true =>
              obtain ⟨k5, k6⟩ := k4 (by simp [ha, hff, ht])
              simp only [if_true, Option.bind_some, Except.toOption]
              cases hz : FP.eq (t.2.1.cross f.2.1).z (FP.lit 0) with
              | true =>
                obtain ⟨L, -, e⟩ := k5 hz
                exact ⟨by simp, fun _ => ⟨_, _, e⟩⟩
              | false =>
                rw [k6 hz]
                cases FP.lt (FP.lit 0) (t.2.1.cross f.2.1).z <;> simp [hg]
  · obtain ⟨L, -, e⟩ := t1 hg
    exact ⟨fun h => absurd h hg, fun _ => ⟨_, _, e⟩⟩

/-- the outcome of any dimension -/
theorem visitDimN_spec (E : Env α) (v : Vis α) (d : DimN α) (hr : v.rotation.eqv E.junkM = false) :
    (GoodDim d.kind d.metas → ∀ w, dimDraws E v d.kind d.metas = some w → ∃ d', visitDimN E v d = .ok (true, d', w)) ∧
    (¬ GoodDim d.kind d.metas ∨ dimDraws E v d.kind d.metas = none → ∃ d' L, visitDimN E v d = .ok (false, d', v.errs L)) := by
  unfold visitDimN
  simp only [bind, Except.bind]
  cases hk : d.kind
  · obtain ⟨h1, h2⟩ := visitAngle_spec E d.metas v d.line hr
    constructor
    · intro hg w hw; obtain ⟨ms', e⟩ := h1 hg w hw; simp only [e]; exact ⟨_, rfl⟩
    · intro h; obtain ⟨ms', L, e⟩ := h2 h; simp only [e]; exact ⟨_, _, rfl⟩
  · obtain ⟨h1, h2⟩ := visitCirc_spec E c!"dia" drawDia d.metas v d.line hr
    constructor
    · intro hg w hw; obtain ⟨ms', e⟩ := h1 hg w hw; simp only [e]; exact ⟨_, rfl⟩
    · intro h; obtain ⟨ms', L, e⟩ := h2 h; simp only [e]; exact ⟨_, _, rfl⟩
  · obtain ⟨h1, h2⟩ := visitDim_spec E d.metas v d.line hr
    constructor
    · intro hg w hw; obtain ⟨ms', e⟩ := h1 hg w hw; simp only [e]; exact ⟨_, rfl⟩
    · intro h; obtain ⟨ms', L, e⟩ := h2 h; simp only [e]; exact ⟨_, _, rfl⟩
  · obtain ⟨h1, h2⟩ := visitCirc_spec E c!"rad" drawRad d.metas v d.line hr
    constructor
    · intro hg w hw; obtain ⟨ms', e⟩ := h1 hg w hw; simp only [e]; exact ⟨_, rfl⟩
    · intro h; obtain ⟨ms', L, e⟩ := h2 h; simp only [e]; exact ⟨_, _, rfl⟩

end S2P
