import Verif.Lemmas.Solid
import Verif.Lemmas.Sane

set_option linter.unusedSectionVars false
set_option linter.unusedVariables false
set_option linter.unusedSimpArgs false

/-! # The lines of a model file, read in rounded arithmetic and read exactly -/

namespace S2P

section
variable {R : Rounding}

/-- a line as read in rounded arithmetic and as read exactly -/
inductive LineRel : StlLine (Fl R) → StlLine (Ext ℚ) → Prop
  | solid : LineRel .solid .solid
  | loop : LineRel .loop .loop
  | endfacet : LineRel .endfacet .endfacet
  | facet {v q} : ReadAs v q → LineRel (.facet v) (.facet q.fin)
  | vertex {v q} : ReadAs v q → LineRel (.vertex v) (.vertex q.fin)

/-- a vertex as read in rounded arithmetic and as read exactly -/
def VecRel (v : V3 (Fl R)) (w : V3 (Ext ℚ)) : Prop := ∃ q, ReadAs v q ∧ w = V3.fin q

def BlockRel (B : V3 (Fl R) × List (V3 (Fl R))) (C : V3 (Ext ℚ) × List (V3 (Ext ℚ))) : Prop := VecRel B.1 C.1 ∧ List.Forall₂ VecRel B.2 C.2

theorem line_rel (l : Str) (r : StlLine (Fl R)) (r' : StlLine (Ext ℚ)) (h : LineIs l r) (h' : LineIs l r') : LineRel r r' := by
  have tri : ∀ (t : Str) (v : V3 (Fl R)), IsTriple t v → ∃ q : V3 ℚ, IsTriple t (V3.fin q : V3 (Ext ℚ)) ∧ ReadAs v q := by
    rintro t v ⟨a, b, c, sa, sb, sc, qa, qb, qc, h0, h1, h2, h3, g1, g2, g3⟩
    exact ⟨⟨qa, qb, qc⟩, ⟨a, b, c, sa, sb, sc, qa, qb, qc, h0, h1, h2, h3, rfl, rfl, rfl⟩, g1, g2, g3⟩
  obtain ⟨r'', h'', hr⟩ : ∃ r'' : StlLine (Ext ℚ), LineIs l r'' ∧ LineRel r r'' := by
    cases h with
    | solid k kw rest h1 h2 => exact ⟨_, .solid k kw rest h1 h2, .solid⟩
    | loop k m kw h1 => exact ⟨_, .loop k m kw h1, .loop⟩
    | facet k m t v h1 => obtain ⟨q, hv, hq⟩ := tri t v h1; exact ⟨_, .facet k m t _ hv, .facet hq⟩
    | endfacet k m => exact ⟨_, .endfacet k m, .endfacet⟩
    | vertex k m t v h1 => obtain ⟨q, hv, hq⟩ := tri t v h1; exact ⟨_, .vertex k m t _ hv, .vertex hq⟩
  rw [C14_line_unique l r' r'' h' h'']
  exact hr

theorem lines_rel : ∀ (ls : List Str) (rs : List (StlLine (Fl R))) (rs' : List (StlLine (Ext ℚ))), List.Forall₂ LineIs ls rs → List.Forall₂ LineIs ls rs' →
    List.Forall₂ LineRel rs rs'
  | [], _, _, .nil, .nil => .nil
  | l :: ls, _, _, .cons h t, .cons h' t' => .cons (line_rel l _ _ h h') (lines_rel ls _ _ t t')

theorem mark_rel {r : StlLine (Fl R)} {r' : StlLine (Ext ℚ)} (h : LineRel r r') : isMark r = isMark r' := by cases h <;> rfl

theorem while_rel {rs : List (StlLine (Fl R))} {rs' : List (StlLine (Ext ℚ))} (h : List.Forall₂ LineRel rs rs') :
    List.Forall₂ LineRel (rs.dropWhile (!isMark ·)) (rs'.dropWhile (!isMark ·)) ∧
    List.Forall₂ VecRel ((rs.takeWhile (!isMark ·)).filterMap vertexOf) ((rs'.takeWhile (!isMark ·)).filterMap vertexOf) := by
  induction h with
  | nil => exact ⟨.nil, .nil⟩
  | @cons r r' rs rs' h t ih =>
    have e := mark_rel h
    rw [List.dropWhile_cons, List.dropWhile_cons, List.takeWhile_cons, List.takeWhile_cons, e]
    by_cases hm : isMark r' = true
    · simp only [hm, Bool.not_true, Bool.false_eq_true, if_false]
      exact ⟨.cons h t, .nil⟩
    · simp only [Bool.not_eq_true] at hm
      simp only [hm, Bool.not_false, if_true]
      refine ⟨ih.1, ?_⟩
      cases h with
      | solid => rw [List.filterMap_cons, List.filterMap_cons]; exact ih.2
      | loop => rw [List.filterMap_cons, List.filterMap_cons]; exact ih.2
      | endfacet => simp [isMark] at hm
      | facet hq => simp [isMark] at hm
      | vertex hq =>
        rw [List.filterMap_cons, List.filterMap_cons]
        exact .cons ⟨_, hq, rfl⟩ ih.2

/-- the facets read, provided that no normal becomes zero by rounding -/
theorem blocks_rel {rs : List (StlLine (Fl R))} {rs' : List (StlLine (Ext ℚ))} (h : List.Forall₂ LineRel rs rs')
    (hz : ∀ B ∈ blocks rs', ∀ q v, B.1 = V3.fin q → ReadAs (R := R) v q → v.eqv V3.zero = false) : List.Forall₂ BlockRel (blocks rs) (blocks rs') := by
  induction h with
  | nil => exact .nil
  | @cons r r' rs rs' h t ih =>
    rw [blocks_cons, blocks_cons]
    rw [blocks_cons] at hz
    refine List.rel_append ?_ (ih (fun B hB => hz B (List.mem_append_right _ hB)))
    obtain ⟨d, v⟩ := while_rel t
    cases h with
    | solid => exact .nil
    | loop => exact .nil
    | endfacet => exact .nil
    | vertex hq => exact .nil
    | @facet w q hq =>
      simp only [blockAt] at hz ⊢
      generalize rs.dropWhile (!isMark ·) = D at *
      generalize rs'.dropWhile (!isMark ·) = D' at *
      cases d with
      | nil => exact .nil
      | cons h0 _ =>
        cases h0 with
        | solid => exact .nil
        | loop => exact .nil
        | vertex => exact .nil
        | facet => exact .nil
        | endfacet =>
          simp only at hz ⊢
          by_cases h0 : (V3.fin q : V3 (Ext ℚ)).eqv V3.zero = true
          · have hw : w.eqv V3.zero = true := by
              simp only [V3.eqv, Bool.and_eq_true] at h0 ⊢
              have go : ∀ {a : ℚ} {x : Fl R}, FP.eq (Ext.fin a) (FP.lit 0 : Ext ℚ) = true → FP.ofDec64 a = some x → FP.eq x (FP.lit 0) = true := by
                intro a x ha hx
                have ha' : a = 0 := by
                  change Ext.eq (.fin a) (.fin 0) = true at ha
                  simpa [Ext.eq] using ha
                subst ha'
                change (match R.fix (.fin ((0 : ℚ) : ℝ)) with | .fin x => if R.range64 0 then some (.fin x) else none | _ => none) = some x at hx
                rw [Rat.cast_zero, fix_zero] at hx
                simp only at hx
                split_ifs at hx
                cases hx
                show Ext.eq (.fin 0) (R.fix (.fin ((0 : ℚ) : ℝ))) = true
                rw [Rat.cast_zero, fix_zero]
                simp [Ext.eq]
              exact ⟨⟨go h0.1.1 hq.1, go h0.1.2 hq.2.1⟩, go h0.2 hq.2.2⟩
            rw [if_pos h0, if_pos hw]
            exact .nil
          · have hw := hz (V3.fin q, (rs'.takeWhile (!isMark ·)).filterMap vertexOf) (List.mem_append_left _ (by rw [if_neg h0]; simp)) q w rfl hq
            rw [if_neg h0, if_neg (by rw [hw]; simp)]
            exact .cons ⟨⟨q, hq, rfl⟩, v⟩ .nil

theorem fin_inj {p q : V3 ℚ} (h : (V3.fin p : V3 (Ext ℚ)) = V3.fin q) : p = q := by
  ext1
  · exact Ext.fin.inj (congrArg V3.x h)
  · exact Ext.fin.inj (congrArg V3.y h)
  · exact Ext.fin.inj (congrArg V3.z h)

/-- a declared normal that is not all but perpendicular is not read as zero -/
theorem stout_nonzero (hR : R.Accurate) {M : ℝ} (hM : Small M) {n a b c : V3 ℚ} (h : Stout M n.real a.real b.real c.real) {v : V3 (Fl R)} (hv : ReadAs v n) :
    v.eqv V3.zero = false := by
  have uN : (unitNormal a.real b.real c.real).Within 1 := by
    apply within_len
    apply le_of_eq
    apply unit_len
    intro e
    have := h.area
    rw [e] at this
    have h1 := hM.sq.1
    simp only [len3, V3.sqNorm, V3.dot, mul_zero, add_zero, Real.sqrt_zero] at this
    generalize M ^ 2 = Q at *
    norm_num at *
    linarith
  have nn := reads_near hR (M := 2) (by norm_num) (top_of (by norm_num)) h.normal hv
  by_contra hz
  rw [Bool.not_eq_false] at hz
  simp only [V3.eqv, Bool.and_eq_true] at hz
  have go : ∀ {x : Fl R} {a : ℝ}, Fl.Near x a (2 / 2 ^ 51) → FP.eq x (FP.lit 0) = true → |a| ≤ 2 / 2 ^ 51 := by
    rintro x a ⟨b, rfl, hb⟩ he
    have e : (FP.lit 0 : Fl R) = (Ext.fin 0 : Ext ℝ) := by
      show R.fix (.fin ((0 : ℚ) : ℝ)) = _
      rw [Rat.cast_zero, fix_zero]
    rw [e] at he
    change Ext.eq (.fin b) (.fin 0) = true at he
    have : b = 0 := by simpa [Ext.eq] using he
    rw [this, zero_sub, abs_neg] at hb
    exact hb
  have k1 := go nn.1 hz.1.1
  have k2 := go nn.2.1 hz.1.2
  have k3 := go nn.2.2 hz.2
  have hs := h.sense
  have : |n.real.dot (unitNormal a.real b.real c.real)| ≤ 6 / 2 ^ 51 := by
    refine (abs_add_three _ _ _).trans ?_
    rw [abs_mul, abs_mul, abs_mul]
    have := mul_le_mul k1 uN.1 (abs_nonneg _) (by positivity)
    have := mul_le_mul k2 uN.2.1 (abs_nonneg _) (by positivity)
    have := mul_le_mul k3 uN.2.2 (abs_nonneg _) (by positivity)
    norm_num at *
    linarith
  norm_num at *
  linarith

theorem forall₂_comp {α β γ : Type} {P : α → β → Prop} {Q : β → γ → Prop} {T : α → γ → Prop} (hT : ∀ a b c, P a b → Q b c → T a c) {as : List α}
    {bs : List β} {cs : List γ} (h : List.Forall₂ P as bs) (k : List.Forall₂ Q bs cs) : List.Forall₂ T as cs := by
  induction h generalizing cs with
  | nil => cases k; exact .nil
  | cons h _ ih => cases k with | cons k1 k2 => exact .cons (hT _ _ _ h k1) (ih k2)

/-- **the facets of a file are the triangles its text describes**, but for rounding -/
theorem described_stored (hR : R.Accurate) {M : ℝ} (hM : Small M) {content : Str} {ts : List (Tri ℝ)} (h : Describes M content ts) {s : STLFile (Fl R)}
    (hs : make content = .ok (some s)) : List.Forall₂ (Stored M) s.facets ts := by
  obtain ⟨ls, rs', hl, hr', hb⟩ := h
  have hls := linesOf_unique content ls hl
  have hl' := linesOf_getLines content
  obtain ⟨rs, hr⟩ : ∃ rs : List (StlLine (Fl R)), List.Forall₂ LineIs ls rs := by
    by_cases h3 : NoShortFacet (Fl R) ls
    · rcases split_lines (α := Fl R) ls with h | ⟨pre, bad, post, rs, h1, h2, hb⟩
      · exact h
      · have := (C14_reject_iff (α := Fl R) FPRound.conv content _ hl h3).2 ⟨bad, by rw [h1]; simp, hb⟩
        rw [this] at hs; simp at hs
    · rw [(C15_ub_iff_partial (α := Fl R) FPRound.conv content _ hl).2 h3] at hs; cases hs
  have hB := blocks_rel (lines_rel ls rs rs' hr hr') (by
    intro B hB q v e hv
    obtain ⟨t, -, n, a, b, c, rest, e1, e2, -⟩ := forall₂_mem_left hb hB
    rw [e1] at e
    have := fin_inj e
    subst this
    exact stout_nonzero hR hM e2 hv)
  have hC : List.Forall₂ (fun (B : V3 (Fl R) × List (V3 (Fl R))) t => 3 ≤ B.2.length ∧ ∃ f, mkFacet B.1 (B.2.take 3) = .ok f ∧ Stored M f t) (blocks rs) ts := by
    refine forall₂_comp ?_ hB hb
    rintro ⟨n0, vs⟩ C t ⟨⟨q, hq, e⟩, hv⟩ ⟨n, a, b, c, rest, rfl, hS, rfl⟩
    have := fin_inj e
    subst this
    simp only at hv
    cases hv with
    | cons ha hv => cases hv with
      | cons hb hv => cases hv with
        | cons hc hv =>
          obtain ⟨a', ha, ea⟩ := ha
          obtain ⟨b', hb, eb⟩ := hb
          obtain ⟨c', hc, ec⟩ := hc
          have := fin_inj ea; subst this
          have := fin_inj eb; subst this
          have := fin_inj ec; subst this
          obtain ⟨f, h1, h2⟩ := facet_near hR hM (rest := []) hq ha hb hc hS
          exact ⟨by simp, f, by simpa using h1, h2⟩
  obtain ⟨s', hs', -, hF⟩ := C14_accept (α := Fl R) FPRound.conv content ls hl rs hr (fun b hb => by
    obtain ⟨t, -, h, -⟩ := forall₂_mem_left hC hb
    exact h)
  rw [hs] at hs'
  injection hs' with hs'; injection hs' with hs'
  subst hs'
  have hF' : List.Forall₂ (fun (f : Facet (Fl R)) (B : V3 (Fl R) × List (V3 (Fl R))) => mkFacet B.1 (B.2.take 3) = .ok f) s.facets (blocks rs) := hF.flip
  refine forall₂_comp ?_ hF' hC
  rintro f B t h1 ⟨-, f', h2, h3⟩
  rw [h1] at h2
  injection h2 with h2
  rw [h2]
  exact h3

end
end S2P
