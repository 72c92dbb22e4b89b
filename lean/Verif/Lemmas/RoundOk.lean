import Verif.Lemmas.RoundLines
import Verif.Lemmas.Finite

set_option linter.unusedSectionVars false
set_option linter.unusedVariables false
set_option linter.unusedSimpArgs false

/-! # Rendering in rounded arithmetic does not abort -/

namespace S2P
variable {α : Type} [FP α] [FPRound α]

/-! ## Views -/

/-- what is needed of a view matrix -/
def M3.ViewBd (m : M3 α) : Prop :=
  V3.Bd 0 m.r0 ∧ V3.Bd 0 m.r1 ∧ V3.Bd 0 m.r2 ∧ m.eqv ⟨V3.zero, V3.zero, V3.zero⟩ = false

theorem bd_zero : FP.Bd 0 (FP.lit 0 : α) := FP.bd_lit 0 0 (by norm_num) (by norm_num)
theorem bd_one : FP.Bd 0 (FP.lit 1 : α) := FP.bd_lit 0 1 (by norm_num) (by norm_num)

theorem one_ne : FP.eq (FP.lit 1 : α) (FP.lit 0) = false := FP.not_eq_of_gt FPRound.zero_lt_one

theorem neg_ne {x : α} (h : FP.eq x (FP.lit 0) = false) : FP.eq (-x) (FP.lit 0) = false := by
  by_contra hc
  rw [Bool.not_eq_false] at hc
  rw [FPRound.neg_zero _ hc] at h; cases h

theorem V3.Bd.neg {n : Nat} {v : V3 α} (hn : n ≤ 1023) (h : V3.Bd n v) : V3.Bd n (-v) :=
  ⟨FPRound.neg _ _ hn h.1, FPRound.neg _ _ hn h.2.1, FPRound.neg _ _ hn h.2.2⟩

theorem bd_ptX : V3.Bd 0 (ptX : V3 α) := ⟨bd_one, bd_zero, bd_zero⟩
theorem bd_ptY : V3.Bd 0 (ptY : V3 α) := ⟨bd_zero, bd_one, bd_zero⟩
theorem bd_ptZ : V3.Bd 0 (ptZ : V3 α) := ⟨bd_zero, bd_zero, bd_one⟩

theorem named_bd (s : Str) (m : M3 α) (h : getMatrixByName s = some m) : m.ViewBd := by
  have n1 := neg_ne (one_ne (α := α))
  have o := one_ne (α := α)
  have hx : (-ptX : V3 α).x = -(FP.lit 1) := rfl
  have hz : (-ptZ : V3 α).z = -(FP.lit 1) := rfl
  have b1 := (bd_ptX (α := α)).neg (by norm_num)
  have b2 := (bd_ptY (α := α)).neg (by norm_num)
  have b3 := (bd_ptZ (α := α)).neg (by norm_num)
  unfold getMatrixByName at h
  split_ifs at h <;> injection h with h <;> subst h
  · exact ⟨bd_ptZ, bd_ptX, bd_ptY, by simp [M3.eqv, V3.eqv, V3.zero, matXP, ptZ, o]⟩
  · exact ⟨b3, b1, bd_ptY, by simp [M3.eqv, V3.eqv, V3.zero, matXN, hz, n1]⟩
  · exact ⟨b1, bd_ptZ, bd_ptY, by simp [M3.eqv, V3.eqv, V3.zero, matYP, hx, n1]⟩
  · exact ⟨bd_ptX, b3, bd_ptY, by simp [M3.eqv, V3.eqv, V3.zero, matYN, ptX, o]⟩
  · exact ⟨bd_ptX, bd_ptY, bd_ptZ, by simp [M3.eqv, V3.eqv, V3.zero, matZP, ptX, o]⟩
  · exact ⟨bd_ptX, b2, b3, by simp [M3.eqv, V3.eqv, V3.zero, matZN, ptX, o]⟩

theorem rotate_bd {n : Nat} (hn : n ≤ 1023) (ang azm : α) (ha : FP.Bd n ang) (hz : FP.Bd n azm) : (rotate ang azm).ViewBd := by
  have s1 := FPRound.sin_le n ang hn ha
  have c1 := FPRound.cos_le n ang hn ha
  have hz' := FPRound.neg n azm hn hz
  have s2 := FPRound.sin_le n (-azm) hn hz'
  have c2 := FPRound.cos_le n (-azm) hn hz'
  have m : ∀ x y : α, FP.Bd 0 x → FP.Bd 0 y → FP.Bd 0 (x * y) := fun x y hx hy => FPRound.mul 0 0 x y (by norm_num) hx hy
  have ng : ∀ x : α, FP.Bd 0 x → FP.Bd 0 (-x) := fun x hx => FPRound.neg 0 x (by norm_num) hx
  refine ⟨⟨c1, m _ _ s1 c2, m _ _ s1 s2⟩, ⟨ng _ s1, m _ _ c1 c2, m _ _ c1 s2⟩, ⟨bd_zero, ng _ s2, c2⟩, ?_⟩
  rcases FPRound.sin_or_cos n ang hn ha with h | h
  · simp [M3.eqv, V3.eqv, V3.zero, rotate, neg_ne h]
  · simp [M3.eqv, V3.eqv, V3.zero, rotate, h]

theorem angle_bd (l : V2 α) (h : V2.Bd 128 l) : (getMatrixByAng l).ViewBd := by
  have hp : FP.Bd 2 (piLit : α) := FP.bd_lit 2 _ (by norm_num) (by norm_num)
  have k : ∀ x : α, FP.Bd 128 x → FP.Bd 130 (x * piLit / FP.lit 180) := fun x hx =>
    FPRound.div 130 _ 180 (by norm_num) (by norm_num) (le_trans (by norm_num : (180 : Rat) ≤ 2 ^ 8) (pow_le_pow_right₀ (by norm_num) (by norm_num))) (FPRound.mul 128 2 _ _ (by norm_num) hx hp)
  exact rotate_bd (n := 130) (by norm_num) _ _ (k _ h.1) (k _ h.2)

/-- a property of a block holding two angles holds numbers of the size of a `float` -/
def MetaVal.LocBd : MetaVal α → Prop
  | .loc l => V2.Bd 128 l
  | _ => True

theorem viewOf_bd (mV : Option (Meta α)) (hf : ∀ m, mV = some m → m.val.LocBd) (rot : M3 α) (h : viewOf mV = .ok rot) : rot.ViewBd := by
  unfold viewOf at h
  cases mV with
  | none => injection h with h; subst h; exact named_bd c!"Z+" _ rfl
  | some m =>
    have hm := hf m rfl
    cases hv : m.val with
    | loc l => rw [hv] at hm; simp only [hv] at h; injection h with h; subst h; exact angle_bd l hm
    | str n =>
      simp only [hv] at h
      cases hn : getMatrixByName (α := α) n with
      | none => rw [hn] at h; cases h
      | some r => rw [hn] at h; injection h with h; subst h; exact named_bd n _ hn
    | _ => simp only [hv] at h; cases h

/-! ## A model turned -/

/-- every corner of every facet is of size at most 2^n -/
def STLFile.Bd (n : Nat) (s : STLFile α) : Prop := ∀ f ∈ s.facets, ∀ p ∈ f.corners, V3.Bd n p

/-- every model is loaded, with corners of size at most 2^n -/
def Models.Bd (n : Nat) (stl : Models α) : Prop := ∀ e ∈ stl, ∃ file : STLFile α, e.2 = some file ∧ file.Bd n

theorem corners_rot (m : M3 α) (f : Facet α) : (rotFacet m f).corners = f.corners.map (fun p => p.mulM m) := rfl

theorem turned_bd {n : Nat} (hn : n ≤ 505) (S : Sorter) (hS : SortOK S) (s : STLFile α) (hs : s.Bd n) (m : M3 α) (hm : m.ViewBd) :
    ∃ s' ls, s.rotate m = .ok s' ∧ s'.cull = s' ∧ s'.Bd (n + 2) ∧ s'.toLines S = .ok ls ∧ ∀ l ∈ ls, Line.Bd (n + 4) l := by
  have hr : ∀ f ∈ s.facets, ∀ p ∈ (rotFacet m f).corners, V3.Bd (n + 2) p := by
    intro f hf p hp
    rw [corners_rot] at hp
    obtain ⟨q, hq, rfl⟩ := List.mem_map.mp hp
    exact (hs f hf q hq).mulM (by omega) hm.1 hm.2.1 hm.2.2.1
  obtain ⟨s', h1, h2, h3⟩ := C21_rotate s m (by
    intro f hf
    have := hr f hf
    exact ⟨(this _ (by simp [Facet.corners])).ok, (this _ (by simp [Facet.corners])).ok, (this _ (by simp [Facet.corners])).ok⟩)
  have hb : s'.Bd (n + 2) := by
    intro f hf
    obtain ⟨g, hg, rfl⟩ := List.mem_map.1 (List.mem_filter.1 (h3.subset hf)).1
    exact hr g hg
  have he : ∀ e ∈ s'.edges, Edge.Bd (n + 2) e := by
    intro e he
    obtain ⟨f, hf, sd, hsd, hor⟩ := h2.edgeOk e he
    have c := hb f hf
    have c0 := c f.e0 (by simp [Facet.corners])
    have c1 := c f.e1 (by simp [Facet.corners])
    have c2 := c f.e2 (by simp [Facet.corners])
    simp only [sidesOf, List.mem_cons, List.not_mem_nil, or_false] at hsd
    rcases hsd with rfl | rfl | rfl <;> rcases hor with rfl | rfl
    · exact ⟨c0, c1⟩
    · exact ⟨c1, c0⟩
    · exact ⟨c1, c2⟩
    · exact ⟨c2, c1⟩
    · exact ⟨c2, c0⟩
    · exact ⟨c0, c2⟩
  obtain ⟨ls, hls, hl⟩ := toLines_bd S hS (n := n + 2) (by omega) s' he h2.unseenLe
  have hcull : s'.cull = s' := by
    apply C19_cull_front_only
    intro f hf
    have := (List.mem_filter.1 (h3.subset hf)).2
    simpa using this
  exact ⟨s', ls, h1, hcull, hb, hls, hl⟩

/-! ## No abort -/

/-- every pair written as a property is a pair of `float`s -/
def Drawable.LocBd : Drawable α → Prop
  | .draw _ ms _ _ => ∀ m ∈ ms, m.val.LocBd
  | .text _ ms _ => ∀ m ∈ ms, m.val.LocBd

theorem good_locBd {num : α → Str} {int : Int → Str} {v : MetaVal α} (h : v.Good num int) : v.LocBd := by
  cases v with
  | loc l =>
    obtain ⟨⟨-, q, -, hq⟩, -, r, -, hr⟩ := h
    exact ⟨FPRound.read32 _ _ hq, FPRound.read32 _ _ hr⟩
  | _ => trivial

theorem parse_locBd (s : Str) (d : Doc α) (h : parse s = .ok (some d)) : ∀ p ∈ d.pages, ∀ x ∈ p.draws, x.LocBd := by
  obtain ⟨num, int, -, hg⟩ := C04_parsed s d h
  intro p hp x hx
  have := (hg p hp).2 x hx
  cases x with
  | draw n ms ds l => exact fun m hm => good_locBd (this.2.1 m hm).2
  | text s ms l => exact fun m hm => good_locBd (this.2 m hm).2

theorem content_bd (E : Env α) (hS : SortOK E.sorter) (hJ : E.junkM = ⟨V3.zero, V3.zero, V3.zero⟩) (stl : Models α) {k : Nat} (hk : k ≤ 505)
    (hM : stl.Bd k) (d : Drawable α) (hf : d.LocBd) (ha : d.AtLoc) : ∃ c, content E stl d = .ok c := by
  cases d with
  | draw n ms dims l =>
    unfold content
    simp only [visitDrawable, bind, Except.bind]
    obtain ⟨ds, extra, e1, e2, e3⟩ := visitDraw_out E stl n ms l
    rw [e3]
    unfold drawOut
    by_cases hd : ds ≠ []
    · rw [if_pos hd]; exact ⟨_, rfl⟩
    rw [if_neg hd]
    cases h1 : scaleOf (look ms c!"scale") with
    | error d => exact ⟨_, rfl⟩
    | ok sc =>
      dsimp only
      cases h2 : stl.find? (fun e => decide (e.1 = n)) with
      | none => exact ⟨_, rfl⟩
      | some e =>
        dsimp only
        cases h3 : viewOf (look ms c!"view") with
        | error d => exact ⟨_, rfl⟩
        | ok rot =>
          dsimp only
          have hrot := viewOf_bd _ (fun m hm => hf m (look_mem hm)) _ h3
          cases h4 : locOf (look ms c!"@") with
          | error a =>
            exfalso
            unfold locOf at h4
            cases h5 : look ms c!"@" with
            | none => rw [h5] at h4; cases h4
            | some m =>
              obtain ⟨q, hq⟩ := ha m (look_mem h5) (by simpa using List.find?_some h5)
              rw [h5] at h4
              simp [hq] at h4
          | ok loc =>
            dsimp only
            obtain ⟨file, hfile, hmade⟩ := hM e (List.mem_of_find?_eq_some h2)
            rw [hfile]
            dsimp only
            obtain ⟨s', ls, g1, g2, -, g3, -⟩ := turned_bd hk E.sorter hS file hmade rot hrot
            rw [g1]
            dsimp only
            rw [g2, g3]
            dsimp only
            cases h8 : visitDims E dims (drawStart (initVis E) sc rot loc s' ls) with
            | error a =>
              exfalso
              obtain ⟨p, d, q, -, -, hc⟩ := ((dims_sum E dims _).1 a).mp h8
              unfold dimContent at hc
              have hne : ((drawStart (initVis E) sc rot loc s' ls).base).rotation.eqv E.junkM = false := by rw [hJ]; exact hrot.2.2.2
              obtain ⟨k1, k2⟩ := visitDimN_spec E _ d hne
              cases hdd : dimDraws E (drawStart (initVis E) sc rot loc s' ls).base d.kind d.metas with
              | none => obtain ⟨x, L, e⟩ := k2 (Or.inr hdd); rw [e] at hc; cases hc
              | some w =>
                by_cases hg : GoodDim d.kind d.metas
                · obtain ⟨x, e⟩ := k1 hg w hdd; rw [e] at hc; cases hc
                · obtain ⟨x, L, e⟩ := k2 (Or.inl hg); rw [e] at hc; cases hc
            | ok r =>
              dsimp only
              by_cases hb : r.1 = false
              · rw [if_pos hb]; exact ⟨_, rfl⟩
              · rw [if_neg hb]
                by_cases hx : extra ≠ []
                · rw [if_pos hx]; exact ⟨_, rfl⟩
                · rw [if_neg hx]; exact ⟨_, rfl⟩
  | text s ms l =>
    unfold content
    simp only [visitDrawable, bind, Except.bind]
    obtain ⟨ds, extra, e1, e2, e3⟩ := visitText_out (α := α) s ms l
    rw [e3]
    unfold textOut
    by_cases hd : ds ≠ []
    · rw [if_pos hd]; exact ⟨_, rfl⟩
    rw [if_neg hd]
    cases h4 : textLocOf (look ms c!"@") with
    | ok p => exact ⟨_, rfl⟩
    | error a =>
      exfalso
      unfold textLocOf at h4
      cases h5 : look ms c!"@" with
      | none => rw [h5] at h4; cases h4
      | some m =>
        obtain ⟨q, hq⟩ := ha m (look_mem h5) (by simpa using List.find?_some h5)
        rw [h5] at h4
        simp [hq] at h4

end S2P
