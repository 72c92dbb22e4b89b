import Verif.Spec.Sane
import Verif.Lemmas.RoundOk
import Verif.Props.StlFile
import Verif.Props.Load

set_option linter.unusedSectionVars false
set_option linter.unusedVariables false
set_option linter.unusedSimpArgs false

/-! # Ordinary model files are read to bounded models -/

namespace S2P

/-- what a line says, without its numbers -/
def StlLine.shape {β : Type} : StlLine β → StlLine Unit
  | .solid => .solid
  | .loop => .loop
  | .facet _ => .facet ⟨(), (), ()⟩
  | .endfacet => .endfacet
  | .vertex _ => .vertex ⟨(), (), ()⟩

theorem isMark_shape {β : Type} (l : StlLine β) : isMark l.shape = isMark l := by cases l <;> rfl
theorem vertexOf_shape {β : Type} (l : StlLine β) : (vertexOf l.shape).isSome = (vertexOf l).isSome := by cases l <;> rfl

theorem length_filterMap_isSome {β γ : Type} (f : β → Option γ) : ∀ l : List β, (l.filterMap f).length = (l.filter (fun x => (f x).isSome)).length
  | [] => rfl
  | x :: l => by
    rw [List.filterMap_cons, List.filter_cons]
    cases h : f x with
    | none => simp [length_filterMap_isSome f l]
    | some y => simp [length_filterMap_isSome f l]

theorem closedAt_shape {β : Type} (ls : List (StlLine β)) : closedAt (ls.map StlLine.shape) = closedAt ls := by
  cases ls with
  | nil => rfl
  | cons l rest =>
    cases l with
    | facet n =>
      have hd : (rest.map StlLine.shape).dropWhile (!isMark ·) = (rest.dropWhile (!isMark ·)).map StlLine.shape := by
        rw [List.dropWhile_map]; congr 2; funext x; simp [isMark_shape]
      have ht : (rest.map StlLine.shape).takeWhile (!isMark ·) = (rest.takeWhile (!isMark ·)).map StlLine.shape := by
        rw [List.takeWhile_map]; congr 2; funext x; simp [isMark_shape]
      have hl : (((rest.takeWhile (!isMark ·)).map StlLine.shape).filterMap vertexOf).length = ((rest.takeWhile (!isMark ·)).filterMap vertexOf).length := by
        rw [length_filterMap_isSome, length_filterMap_isSome, List.filter_map, List.length_map]
        congr 2
        funext x; exact vertexOf_shape x
      rw [List.map_cons, show (StlLine.facet n).shape = .facet ⟨(), (), ()⟩ from rfl]
      unfold closedAt
      simp only [hd, ht, hl]
      cases rest.dropWhile (!isMark ·) with
      | nil => rfl
      | cons x t => cases x <;> rfl
    | _ => rfl

theorem vertexCounts_shape {β : Type} (ls : List (StlLine β)) : vertexCounts (ls.map StlLine.shape) = vertexCounts ls := by
  unfold vertexCounts
  rw [List.map_tails, List.filterMap_map]
  congr 1
  funext x
  exact closedAt_shape x

section
variable {α : Type} [FP α]

theorem block_count (rs : List (StlLine α)) (b : V3 α × List (V3 α)) (h : b ∈ blocks rs) : b.2.length ∈ vertexCounts rs := by
  unfold blocks at h
  obtain ⟨t, ht, hb⟩ := List.mem_filterMap.mp h
  refine List.mem_filterMap.mpr ⟨t, ht, ?_⟩
  unfold blockAt at hb
  unfold closedAt
  split at hb
  · split at hb
    · split_ifs at hb
      injection hb with hb; subst hb
      rename_i e _
      simp only [e]
    · cases hb
  · cases hb

/-- a line read in any arithmetic is read exactly with the same shape -/
theorem line_exact (l : Str) (r : StlLine α) (h : LineIs l r) : ∃ r' : StlLine (Ext ℚ), LineIs l r' ∧ r'.shape = r.shape := by
  have tri : ∀ (t : Str) (v : V3 α), IsTriple t v → ∃ v' : V3 (Ext ℚ), IsTriple t v' := by
    rintro t v ⟨a, b, c, sa, sb, sc, qa, qb, qc, h0, h1, h2, h3, -, -, -⟩
    exact ⟨V3.fin ⟨qa, qb, qc⟩, a, b, c, sa, sb, sc, qa, qb, qc, h0, h1, h2, h3, rfl, rfl, rfl⟩
  cases h with
  | solid k kw rest h1 h2 => exact ⟨_, .solid k kw rest h1 h2, rfl⟩
  | loop k m kw h1 => exact ⟨_, .loop k m kw h1, rfl⟩
  | facet k m t v h1 => obtain ⟨v', hv⟩ := tri t v h1; exact ⟨_, .facet k m t v' hv, rfl⟩
  | endfacet k m => exact ⟨_, .endfacet k m, rfl⟩
  | vertex k m t v h1 => obtain ⟨v', hv⟩ := tri t v h1; exact ⟨_, .vertex k m t v' hv, rfl⟩

theorem lines_exact {ls : List Str} {rs : List (StlLine α)} (h : List.Forall₂ LineIs ls rs) :
    ∃ rs' : List (StlLine (Ext ℚ)), List.Forall₂ LineIs ls rs' ∧ rs'.map StlLine.shape = rs.map StlLine.shape := by
  induction h with
  | nil => exact ⟨[], .nil, rfl⟩
  | cons h1 _ ih =>
    obtain ⟨rs', f, e⟩ := ih
    obtain ⟨r', g1, g2⟩ := line_exact _ _ h1
    exact ⟨r' :: rs', .cons g1 f, by simp [e, g2]⟩

theorem sane_noShort {n : Nat} {content : Str} (h : SaneFile n content) (ls : List Str) (hl : LinesOf content ls) : NoShortFacet α ls := by
  intro pre rs hp hr b hb
  obtain ⟨rs', f, e⟩ := lines_exact hr
  apply h.full ls hl pre rs' hp f
  rw [← vertexCounts_shape, e, vertexCounts_shape]
  exact block_count rs b hb

theorem noShort_make [FPOrd α] (hc : ConvOk α) {content : Str} (h3 : NoShortFacet α (getLines content)) : ∃ r, make (α := α) content = .ok r := by
  have hl := linesOf_getLines content
  rcases split_lines (α := α) (getLines content) with ⟨rs, hr⟩ | ⟨pre, bad, post, rs, h1, h2, hb⟩
  · obtain ⟨s, hs, _⟩ := C14_accept hc content _ hl rs hr (h3 _ rs (List.prefix_refl _) hr)
    exact ⟨_, hs⟩
  · exact ⟨_, (C14_reject_iff hc content _ hl h3).2 ⟨bad, by rw [h1]; simp, hb⟩⟩

theorem sane_make [FPOrd α] (hc : ConvOk α) {n : Nat} {content : Str} (h : SaneFile n content) : ∃ r, make (α := α) content = .ok r :=
  noShort_make hc (sane_noShort (α := α) h _ (linesOf_getLines content))

/-- corners are among the vertices of the file -/
theorem corners_vertices [FPOrd α] (hc : ConvOk α) (content : Str) (s : STLFile α) (h : make content = .ok (some s)) (f : Facet α) (hf : f ∈ s.facets)
    (p : V3 α) (hp : p ∈ f.corners) : ∃ l ∈ getLines content, LineIs l (.vertex p) := by
  have hl := linesOf_getLines content
  by_cases h3 : NoShortFacet α (getLines content)
  · rcases split_lines (α := α) (getLines content) with ⟨rs, hr⟩ | ⟨pre, bad, post, rs, h1, h2, hb⟩
    · obtain ⟨s', hs, hw, hF⟩ := C14_accept hc content _ hl rs hr (h3 _ rs (List.prefix_refl _) hr)
      rw [h] at hs; injection hs with hs; injection hs with hs; subst hs
      obtain ⟨b, hb, hm⟩ : ∃ b ∈ blocks rs, mkFacet b.1 (b.2.take 3) = .ok f := by
        clear h hw
        generalize blocks rs = bs at hF
        generalize s.facets = fs at hF hf
        induction hF with
        | nil => simp at hf
        | cons h1 _ ih =>
          rcases List.mem_cons.mp hf with rfl | hf
          · exact ⟨_, by simp, h1⟩
          · obtain ⟨b, hb, e⟩ := ih hf; exact ⟨b, by simp [hb], e⟩
      obtain ⟨a, b', c, rest, e1, e2⟩ := mkFacet_corners _ _ _ hm
      have hv : p ∈ b.2 := by
        apply (List.take_sublist 3 b.2).subset
        rw [e1]
        simp only [Facet.corners, List.mem_cons, List.not_mem_nil, or_false] at hp
        rcases e2 with ⟨x, y, z⟩ | ⟨x, y, z⟩ <;> rw [x, y, z] at hp <;> rcases hp with rfl | rfl | rfl <;> simp
      have hm := blocks_vertices rs b hb p hv
      obtain ⟨i, hi⟩ := List.getElem?_of_mem hm
      have hlen := hr.length_eq
      have hi' := (List.getElem?_eq_some_iff.1 hi).1
      have := (List.forall₂_iff_get.1 hr).2 i (by omega) hi'
      rw [List.get_eq_getElem, List.get_eq_getElem, (List.getElem?_eq_some_iff.1 hi).2] at this
      exact ⟨_, List.getElem_mem _, this⟩
    · have := (C14_reject_iff hc content _ hl h3).2 ⟨bad, by rw [h1]; simp, hb⟩
      rw [this] at h; simp at h
  · rw [(C15_ub_iff_partial hc content _ hl).2 h3] at h; cases h
end

section
variable {α : Type} [FP α] [FPRound α]

theorem sane_bd {n : Nat} (hn : n ≤ 1023) {content : Str} (h : SaneFile n content) (s : STLFile α) (hs : make content = .ok (some s)) : s.Bd n := by
  intro f hf p hp
  obtain ⟨l, hl, hv⟩ := corners_vertices FPRound.conv content s hs f hf p hp
  cases hv with
  | vertex k m t v ht =>
    obtain ⟨a, b, c, sa, sb, sc, qa, qb, qc, h0, h1, h2, h3, g1, g2, g3⟩ := ht
    obtain ⟨k1, k2, k3⟩ := h.small _ (linesOf_getLines content) _ hl ⟨qa, qb, qc⟩
      (.vertex k m t _ ⟨a, b, c, sa, sb, sc, qa, qb, qc, h0, h1, h2, h3, rfl, rfl, rfl⟩)
    rw [abs_le] at k1 k2 k3
    exact ⟨FPRound.read64 n _ _ hn k1.1 k1.2 g1, FPRound.read64 n _ _ hn k2.1 k2.2 g2, FPRound.read64 n _ _ hn k3.1 k3.2 g3⟩

theorem sane_load {n : Nat} (hn : n ≤ 1023) (E : Env α) (w : World) (ms : List ModelN) (h : SaneModels n E.loadPath w ms) :
    ∃ r, loadFiles E w ms = .ok r ∧ (r.ok = true → r.stl.Bd n) := by
  cases hl : loadFiles E w ms with
  | error a =>
    exfalso
    obtain ⟨m, hm, ps, x, p1, p2, hx⟩ := C47_abort E w ms a hl
    obtain ⟨r, hr⟩ := sane_make (α := α) FPRound.conv (h m hm ps x p1 p2)
    rw [hr] at hx; cases hx
  | ok r =>
    refine ⟨r, rfl, fun hk => ?_⟩
    obtain ⟨fs, hf, e⟩ := (C47_load E w ms r hl).2 hk
    rw [e]
    clear e hk hl
    induction hf with
    | nil => intro e he; simp at he
    | @cons m f ms fs hmf _ ih =>
      intro e he
      simp only [List.zipWith_cons_cons, List.mem_cons] at he
      rcases he with rfl | he
      · obtain ⟨ps, x, p1, p2, hx⟩ := hmf
        exact ⟨f, rfl, sane_bd hn (h m (by simp) ps x p1 p2) f hx⟩
      · exact ih (fun m' hm' => h m' (by simp [hm'])) e he
end

/-! ## A check for concrete files -/

def smallLine (n : Nat) (l : Str) : Bool :=
  match classify (α := Ext ℚ) l with
  | some (.vertex ⟨.fin x, .fin y, .fin z⟩) => decide (|x| ≤ 2 ^ n) && decide (|y| ≤ 2 ^ n) && decide (|z| ≤ 2 ^ n)
  | _ => true

def saneB (n : Nat) (content : Str) : Bool :=
  (getLines content).all (smallLine n) &&
  (List.range ((getLines content).length + 1)).all (fun k =>
    (vertexCounts (((getLines content).take k).filterMap (classify (α := Ext ℚ)))).all (fun c => decide (3 ≤ c)))

theorem saneB_ok (n : Nat) (content : Str) (h : saneB n content = true) : SaneFile n content := by
  unfold saneB at h
  rw [Bool.and_eq_true, List.all_eq_true, List.all_eq_true] at h
  constructor
  · intro ls hl pre rs hp hr k hk
    have hls := linesOf_unique content ls hl
    subst hls
    have e : rs = pre.filterMap classify := by
      clear hk hp
      induction hr with
      | nil => rfl
      | cons h1 _ ih => rw [List.filterMap_cons, (classify_iff _ _).2 h1, ← ih]
    have hp' : pre = (getLines content).take pre.length := List.prefix_iff_eq_take.mp hp
    have hlen := hp.length_le
    have := h.2 pre.length (List.mem_range.mpr (by omega))
    rw [← hp', ← e, List.all_eq_true] at this
    simpa using this k hk
  · intro ls hl l hlm v hv
    have hls := linesOf_unique content ls hl
    subst hls
    have := h.1 l hlm
    unfold smallLine at this
    rw [(classify_iff _ _).2 hv] at this
    simp only [V3.map, Bool.and_eq_true, decide_eq_true_eq] at this
    exact ⟨this.1.1, this.1.2, this.2⟩

end S2P
