import Verif.Lemmas.StlText
import Verif.Spec.Arith

set_option linter.unusedSectionVars false
set_option linter.unusedVariables false

namespace S2P

/-! ## Splitting into lines -/

theorem getLines_noNl (s : Str) : ∀ l ∈ getLines s, '\n' ∉ l := by
  induction s with
  | nil => simp [getLines]
  | cons c s ih =>
    unfold getLines
    split_ifs with hc
    · intro l hl
      rcases List.mem_cons.1 hl with rfl | hl
      · simp
      · exact ih l hl
    · split
      · intro l hl; simp at hl; subst hl; simpa using Ne.symm hc
      · rename_i l ls heq
        intro l' hl'
        rcases List.mem_cons.1 hl' with rfl | hl'
        · have := ih l (by rw [heq]; simp)
          simp [this, Ne.symm hc]
        · exact ih l' (by rw [heq]; simp [hl'])

theorem getLines_append_nl (l s : Str) (h : '\n' ∉ l) : getLines (l ++ '\n' :: s) = l :: getLines s := by
  induction l with
  | nil => simp [getLines]
  | cons c l ih =>
    simp at h
    have := ih h.2
    simp only [List.cons_append]
    rw [getLines, if_neg (Ne.symm h.1), this]

theorem getLines_last (l : Str) (h : '\n' ∉ l) (hne : l ≠ []) : getLines l = [l] := by
  induction l with
  | nil => exact absurd rfl hne
  | cons c l ih =>
    simp at h
    rw [getLines, if_neg (Ne.symm h.1)]
    cases l with
    | nil => simp [getLines]
    | cons d l => rw [ih (by simpa using h.2) (by simp)]

theorem getLines_flatMap (ls : List Str) (s : Str) (h : ∀ l ∈ ls, '\n' ∉ l) :
    getLines (ls.flatMap (· ++ ['\n']) ++ s) = ls ++ getLines s := by
  induction ls with
  | nil => simp
  | cons l ls ih =>
    simp only [List.flatMap_cons, List.append_assoc, List.cons_append, List.nil_append]
    rw [getLines_append_nl l _ (h l (by simp)), ih (fun x hx => h x (by simp [hx]))]

/-- `LinesOf` determines the lines -/
theorem linesOf_unique (content : Str) (ls : List Str) (h : LinesOf content ls) : ls = getLines content := by
  obtain ⟨h1, rfl | ⟨i, l, rfl, hne, rfl⟩⟩ := h
  · have := getLines_flatMap ls [] h1
    simp [getLines] at this
    simp [this]
  · rw [getLines_flatMap i l (fun x hx => h1 x (by simp [hx])), getLines_last l (h1 l (by simp)) hne]

theorem linesOf_getLines (content : Str) : LinesOf content (getLines content) := by
  refine ⟨getLines_noNl content, ?_⟩
  induction content with
  | nil => left; simp [getLines]
  | cons c s ih =>
    unfold getLines
    split_ifs with hc
    · subst hc
      rcases ih with h | ⟨i, l, h1, h2, h3⟩
      · left; simp [← h]
      · right; exact ⟨[] :: i, l, by simp [h1], h2, by simp [← h3]⟩
    · split
      · rename_i heq
        rw [heq] at ih
        rcases ih with h | ⟨i, l, h1, h2, h3⟩
        · simp at h; subst h
          right; exact ⟨[], [c], rfl, by simp, by simp⟩
        · simp at h1
      · rename_i l ls heq
        rw [heq] at ih
        rcases ih with h | ⟨i, l', h1, h2, h3⟩
        · left; simp [h]
        · cases i with
          | nil =>
            simp at h1; obtain ⟨rfl, rfl⟩ := h1
            right; exact ⟨[], c :: l, rfl, by simp, by simp [h3]⟩
          | cons a i =>
            simp at h1; obtain ⟨rfl, rfl⟩ := h1
            right; exact ⟨(c :: l) :: i, l', by simp, h2, by simp [h3]⟩

/-! ## The Make loop -/
variable {α : Type} [FP α]

/-- the facet of a block -/
def mkBlock (b : V3 α × List (V3 α)) : Except Abort (Facet α) := mkFacet b.1 b.2

/-- the block that is open in a loop state, if the coming lines close it -/
def pend (n : V3 α) (pts : List (V3 α)) (rs : List (StlLine α)) : List (V3 α × List (V3 α)) :=
  match rs.dropWhile (!isMark ·) with
  | .endfacet :: _ => if n.eqv V3.zero then [] else [(n, pts ++ (rs.takeWhile (!isMark ·)).filterMap vertexOf)]
  | _ => []

theorem blocks_nil : blocks ([] : List (StlLine α)) = [] := by simp [blocks, blockAt]
theorem blocks_cons (r : StlLine α) (rs : List (StlLine α)) :
    blocks (r :: rs) = (blockAt (r :: rs)).toList ++ blocks rs := by
  simp only [blocks, List.tails_cons, List.filterMap_cons]
  cases blockAt (r :: rs) <;> simp

theorem pend_skip (n : V3 α) (pts : List (V3 α)) (r : StlLine α) (rs : List (StlLine α)) (h : isMark r = false) :
    pend n pts (r :: rs) = pend n (pts ++ (vertexOf r).toList) rs := by
  unfold pend
  simp only [List.dropWhile_cons, List.takeWhile_cons, h, Bool.not_false, if_true, List.filterMap_cons]
  cases vertexOf r <;> simp

theorem zero_eqv [FPOrd α] : (V3.zero : V3 α).eqv V3.zero = true := by
  have : FP.eq (FP.lit 0 : α) (FP.lit 0) = true := FPOrd.ok_lit 0
  simp [V3.eqv, V3.zero, this]

/-- collect results, stopping at the first error -/
theorem foldlM_steps [FPOrd α] (rs : List (StlLine α)) : ∀ s : MakeState α,
    (rs.foldlM makeStep s).map (·.facets) =
      ((pend s.norm s.points rs ++ blocks rs).mapM mkBlock).map (s.facets ++ ·) := by
  induction rs with
  | nil => intro s; simp [pend, blocks_nil, pure, Except.pure, Except.map]
  | cons r rs ih =>
    intro s
    rw [List.foldlM_cons]
    cases r with
    | solid =>
      have h1 : pend s.norm s.points (StlLine.solid :: rs) = pend s.norm s.points rs := by
        rw [pend_skip _ _ _ _ rfl]; simp [vertexOf]
      have h2 : blocks (StlLine.solid :: rs) = blocks rs := by simp [blocks_cons, blockAt]
      simp only [makeStep]
      rw [h1, h2, ← ih]; rfl
    | loop =>
      have h1 : pend s.norm s.points (StlLine.loop :: rs) = pend s.norm s.points rs := by
        rw [pend_skip _ _ _ _ rfl]; simp [vertexOf]
      have h2 : blocks (StlLine.loop :: rs) = blocks rs := by simp [blocks_cons, blockAt]
      simp only [makeStep]
      rw [h1, h2, ← ih]; rfl
    | vertex v =>
      have h1 : pend s.norm s.points (StlLine.vertex v :: rs) = pend s.norm (s.points ++ [v]) rs := by
        rw [pend_skip _ _ _ _ rfl]; simp [vertexOf]
      have h2 : blocks (StlLine.vertex v :: rs) = blocks rs := by simp [blocks_cons, blockAt]
      simp only [makeStep]
      rw [h1, h2, ← ih { s with points := s.points ++ [v] }]; rfl
    | facet n =>
      have h1 : pend s.norm s.points (StlLine.facet n :: rs) = [] := by simp [pend, isMark]
      have h2 : blocks (StlLine.facet n :: rs) = pend n [] rs ++ blocks rs := by
        rw [blocks_cons]
        congr 1
        simp only [blockAt, pend]
        generalize rs.dropWhile (!isMark ·) = d
        split
        · split_ifs <;> simp
        · simp
      simp only [makeStep]
      rw [h1, h2, List.nil_append]
      exact ih { s with norm := n, points := [] }
    | endfacet =>
      have h2 : blocks (StlLine.endfacet :: rs) = blocks rs := by simp [blocks_cons, blockAt]
      rw [h2]
      by_cases hz : s.norm.eqv V3.zero = true
      · have h1 : pend s.norm s.points (StlLine.endfacet :: rs) = [] := by simp [pend, isMark, hz]
        have h3 : pend s.norm s.points rs = [] := by
          unfold pend; split <;> simp [hz]
        simp only [makeStep, hz, if_true]
        have := ih s
        rw [h3] at this
        rw [h1]; exact this
      · have h1 : pend s.norm s.points (StlLine.endfacet :: rs) = [(s.norm, s.points)] := by
          simp [pend, isMark, hz]
        have h3 : pend (V3.zero : V3 α) [] rs = [] := by
          unfold pend; split <;> simp [zero_eqv]
        simp only [makeStep]
        rw [if_neg hz, h1]
        simp only [List.cons_append, List.nil_append, List.mapM_cons, mkBlock]
        cases hm : mkFacet s.norm s.points with
        | error e => rfl
        | ok f =>
          have := ih ⟨V3.zero, [], s.facets ++ [f]⟩
          rw [h3] at this
          simp only [List.nil_append] at this
          refine this.trans ?_
          show _ = Except.map _ (Except.bind (List.mapM mkBlock (blocks rs)) fun x => Except.ok (f :: x))
          cases List.mapM mkBlock (blocks rs) with
          | error e => rfl
          | ok fs => simp [Except.map, Except.bind]

theorem makeLoop_recognised (ls : List Str) (rs : List (StlLine α)) (h : List.Forall₂ (fun l r => classify l = some r) ls rs) :
    ∀ s : MakeState α, makeLoop ls s = (rs.foldlM makeStep s).map some := by
  induction h with
  | nil => intro s; rfl
  | @cons l r ls rs h1 h2 ih =>
    intro s
    rw [makeLoop, h1, List.foldlM_cons]
    simp only
    cases hs : makeStep s r with
    | error e => rfl
    | ok s' => exact ih s'

theorem makeLoop_bad (ls : List Str) (rs : List (StlLine α)) (bad : Str) (post : List Str)
    (h : List.Forall₂ (fun l r => classify l = some r) ls rs) (hb : classify (α := α) bad = none) :
    ∀ s : MakeState α, makeLoop (ls ++ bad :: post) s = (rs.foldlM makeStep s).map (fun _ => none) := by
  induction h with
  | nil => intro s; simp [makeLoop, hb]; rfl
  | @cons l r ls rs h1 h2 ih =>
    intro s
    rw [List.cons_append, makeLoop, h1, List.foldlM_cons]
    simp only
    cases hs : makeStep s r with
    | error e => rfl
    | ok s' => exact ih s'

theorem mapM_except_forall {β γ : Type} (f : β → Except Abort γ) (l : List β) (r : List γ) (h : l.mapM f = .ok r) :
    List.Forall₂ (fun b c => f b = .ok c) l r := by
  induction l generalizing r with
  | nil => simp [pure, Except.pure] at h; subst h; exact .nil
  | cons b l ih =>
    rw [List.mapM_cons] at h
    cases hb : f b with
    | error e => rw [hb] at h; simp [bind, Except.bind] at h
    | ok c =>
      cases hl : l.mapM f with
      | error e => rw [hb, hl] at h; simp [bind, Except.bind] at h
      | ok cs =>
        rw [hb, hl] at h
        simp [bind, Except.bind, pure, Except.pure] at h
        subst h
        exact .cons hb (ih cs hl)

theorem mapM_except_of_forall {β γ : Type} (f : β → Except Abort γ) (l : List β) (r : List γ)
    (h : List.Forall₂ (fun b c => f b = .ok c) l r) : l.mapM f = .ok r := by
  induction h with
  | nil => rfl
  | cons h1 _ ih => rw [List.mapM_cons, h1, ih]; rfl

theorem mapM_except_total {β γ : Type} (f : β → Except Abort γ) (l : List β) (h : ∀ b ∈ l, ∃ c, f b = .ok c) :
    ∃ r, l.mapM f = .ok r := by
  induction l with
  | nil => exact ⟨[], rfl⟩
  | cons b l ih =>
    obtain ⟨c, hc⟩ := h b (by simp)
    obtain ⟨r, hr⟩ := ih (fun x hx => h x (by simp [hx]))
    exact ⟨c :: r, by rw [List.mapM_cons, hc, hr]; rfl⟩

theorem mapM_except_error {β γ : Type} (f : β → Except Abort γ) (e : Abort) (l : List β)
    (he : ∀ b ∈ l, ∀ e', f b = .error e' → e' = e) (h : ∃ b ∈ l, ∀ c, f b ≠ .ok c) : l.mapM f = .error e := by
  induction l with
  | nil => simp at h
  | cons b l ih =>
    rw [List.mapM_cons]
    cases hb : f b with
    | error e' => rw [he b (by simp) e' hb]; rfl
    | ok c =>
      obtain ⟨b', hb', hx⟩ := h
      rcases List.mem_cons.1 hb' with rfl | hb'
      · exact absurd hb (hx c)
      · rw [ih (fun x hx => he x (by simp [hx])) ⟨b', hb', hx⟩]; rfl

theorem mkFacet_ok (n : V3 α) (vs : List (V3 α)) (h : 3 ≤ vs.length) : ∃ f, mkFacet n vs = .ok f := by
  match vs, h with
  | a :: b :: c :: _, _ => exact ⟨_, rfl⟩

theorem mkFacet_short (n : V3 α) (vs : List (V3 α)) (h : vs.length < 3) : mkFacet n vs = .error .ub := by
  match vs, h with
  | [], _ => rfl
  | [a], _ => rfl
  | [a, b], _ => rfl

theorem mkFacet_take (n : V3 α) (vs : List (V3 α)) : mkFacet n (vs.take 3) = mkFacet n vs := by
  match vs with
  | [] => rfl
  | [a] => rfl
  | [a, b] => rfl
  | a :: b :: c :: _ => rfl

end S2P

namespace S2P
variable {α : Type} [FP α]

theorem isTriple_ok (hc : ConvOk α) (t : Str) (v : V3 α) (h : IsTriple t v) : v.Ok := by
  obtain ⟨_, _, _, _, _, _, _, _, _, _, _, _, _, h1, h2, h3⟩ := h
  exact ⟨hc _ _ h1, hc _ _ h2, hc _ _ h3⟩

theorem lineIs_vertex_ok (hc : ConvOk α) (s : Str) (v : V3 α) (h : LineIs s (.vertex v)) : v.Ok := by
  cases h with
  | vertex k m t v h => exact isTriple_ok hc t v h

theorem mkFacet_corners (n : V3 α) (vs : List (V3 α)) (f : Facet α) (h : mkFacet n vs = .ok f) :
    ∃ a b c rest, vs = a :: b :: c :: rest ∧ ((f.e0 = a ∧ f.e1 = b ∧ f.e2 = c) ∨ (f.e0 = c ∧ f.e1 = b ∧ f.e2 = a)) := by
  match vs, h with
  | a :: b :: c :: rest, h =>
    refine ⟨a, b, c, rest, rfl, ?_⟩
    simp only [mkFacet, Except.ok.injEq] at h
    subst h
    simp only
    split_ifs <;> simp

theorem blocks_vertices (rs : List (StlLine α)) (b : V3 α × List (V3 α)) (hb : b ∈ blocks rs) (v : V3 α) (hv : v ∈ b.2) :
    StlLine.vertex v ∈ rs := by
  unfold blocks at hb
  rw [List.mem_filterMap] at hb
  obtain ⟨t, ht, hbt⟩ := hb
  rw [List.mem_tails] at ht
  apply ht.subset
  unfold blockAt at hbt
  split at hbt
  · rename_i n rest
    split at hbt
    · split_ifs at hbt
      injection hbt with hbt; subst hbt
      simp only [List.mem_filterMap] at hv
      obtain ⟨l, hl, hlv⟩ := hv
      have := (List.takeWhile_sublist _).subset hl
      cases l <;> simp [vertexOf] at hlv
      subst hlv
      simp [this]
    · simp at hbt
  · simp at hbt

/-- the facets read from recognised lines have NaN-free corners -/
theorem blocks_ok (hc : ConvOk α) (ls : List Str) (rs : List (StlLine α)) (hr : List.Forall₂ LineIs ls rs)
    (fs : List (Facet α)) (hf : List.Forall₂ (fun b f => mkBlock b = .ok f) (blocks rs) fs) :
    ∀ f ∈ fs, f.e0.Ok ∧ f.e1.Ok ∧ f.e2.Ok := by
  have hv : ∀ v, StlLine.vertex v ∈ rs → v.Ok := by
    intro v hv
    obtain ⟨i, hi⟩ := List.getElem?_of_mem hv
    have hlen := hr.length_eq
    have hi' := (List.getElem?_eq_some_iff.1 hi).1
    have := (List.forall₂_iff_get.1 hr).2 i (by omega) hi'
    rw [List.get_eq_getElem, List.get_eq_getElem, (List.getElem?_eq_some_iff.1 hi).2] at this
    exact lineIs_vertex_ok hc _ v this
  intro f hfm
  obtain ⟨i, hi⟩ := List.getElem?_of_mem hfm
  have hi' := (List.getElem?_eq_some_iff.1 hi).1
  have hlen := hf.length_eq
  have := (List.forall₂_iff_get.1 hf).2 i (by omega) hi'
  rw [List.get_eq_getElem, List.get_eq_getElem, (List.getElem?_eq_some_iff.1 hi).2] at this
  have hbm : (blocks rs)[i] ∈ blocks rs := List.getElem_mem _
  obtain ⟨a, b, c, rest, h1, h2⟩ := mkFacet_corners _ _ _ this
  have ha := hv a (blocks_vertices rs _ hbm a (by rw [h1]; simp))
  have hb := hv b (blocks_vertices rs _ hbm b (by rw [h1]; simp))
  have hcc := hv c (blocks_vertices rs _ hbm c (by rw [h1]; simp))
  rcases h2 with ⟨e0, e1, e2⟩ | ⟨e0, e1, e2⟩ <;> rw [e0, e1, e2]
  · exact ⟨ha, hb, hcc⟩
  · exact ⟨hcc, hb, ha⟩

theorem forall₂_classify (ls : List Str) (rs : List (StlLine α)) (h : List.Forall₂ LineIs ls rs) :
    List.Forall₂ (fun l r => classify l = some r) ls rs :=
  h.imp fun l r h => (classify_iff l r).2 h

/-- either all lines are recognised, or there is a first one that is not -/
theorem split_lines (ls : List Str) :
    (∃ rs : List (StlLine α), List.Forall₂ LineIs ls rs) ∨
    ∃ pre bad post, ∃ rs : List (StlLine α), ls = pre ++ bad :: post ∧ List.Forall₂ LineIs pre rs ∧ ∀ r : StlLine α, ¬ LineIs bad r := by
  induction ls with
  | nil => left; exact ⟨[], .nil⟩
  | cons l ls ih =>
    by_cases hl : ∃ r : StlLine α, LineIs l r
    · obtain ⟨r, hr⟩ := hl
      rcases ih with ⟨rs, h⟩ | ⟨pre, bad, post, rs, h1, h2, h3⟩
      · left; exact ⟨r :: rs, .cons hr h⟩
      · right; exact ⟨l :: pre, bad, post, r :: rs, by rw [h1]; rfl, .cons hr h2, h3⟩
    · right; exact ⟨[], l, ls, [], rfl, .nil, by simpa using hl⟩

theorem classify_none (bad : Str) (h : ∀ r : StlLine α, ¬ LineIs bad r) : classify (α := α) bad = none := by
  cases hc : classify (α := α) bad with
  | none => rfl
  | some r => exact absurd ((classify_iff bad r).1 hc) (h r)

theorem foldlM_ok_of [FPOrd α] (rs : List (StlLine α)) (h3 : ∀ b ∈ blocks rs, 3 ≤ b.2.length) :
    ∃ ms, rs.foldlM makeStep (⟨V3.zero, [], []⟩ : MakeState α) = .ok ms ∧
      List.Forall₂ (fun b f => mkBlock b = .ok f) (blocks rs) ms.facets := by
  have hf := foldlM_steps rs (⟨V3.zero, [], []⟩ : MakeState α)
  have hp : pend (V3.zero : V3 α) [] rs = [] := by unfold pend; split <;> simp [zero_eqv]
  simp only [hp, List.nil_append] at hf
  obtain ⟨fs, hfs⟩ := mapM_except_total mkBlock (blocks rs) (fun b hb => mkFacet_ok b.1 b.2 (h3 b hb))
  rw [hfs] at hf
  cases hs : rs.foldlM makeStep (⟨V3.zero, [], []⟩ : MakeState α) with
  | error e => rw [hs] at hf; simp [Except.map] at hf
  | ok ms =>
    rw [hs] at hf
    simp only [Except.map, Except.ok.injEq] at hf
    exact ⟨ms, rfl, by rw [hf]; exact mapM_except_forall _ _ _ hfs⟩

theorem foldlM_short [FPOrd α] (rs : List (StlLine α)) (h3 : ∃ b ∈ blocks rs, b.2.length < 3) :
    rs.foldlM makeStep (⟨V3.zero, [], []⟩ : MakeState α) = .error .ub := by
  have hf := foldlM_steps rs (⟨V3.zero, [], []⟩ : MakeState α)
  have hp : pend (V3.zero : V3 α) [] rs = [] := by unfold pend; split <;> simp [zero_eqv]
  simp only [hp, List.nil_append] at hf
  obtain ⟨b, hb, hl⟩ := h3
  rw [mapM_except_error mkBlock .ub (blocks rs) ?_ ⟨b, hb, fun c hc => ?_⟩] at hf
  · cases hs : rs.foldlM makeStep (⟨V3.zero, [], []⟩ : MakeState α) with
    | ok ms => rw [hs] at hf; simp [Except.map] at hf
    | error e => rw [hs] at hf; simpa [Except.map] using hf
  · intro b _ e he
    unfold mkBlock mkFacet at he
    split at he <;> simp at he
    exact he.symm
  · rw [mkBlock, mkFacet_short _ _ hl] at hc; cases hc

end S2P
