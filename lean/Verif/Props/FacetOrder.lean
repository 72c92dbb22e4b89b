import Verif.Lemmas.FacetPages
import Verif.Lemmas.RealSample
import Verif.Props.Junk

set_option linter.unusedSectionVars false
set_option linter.unusedVariables false
set_option linter.unusedSimpArgs false

/-! # C67: the order of the facets in a file, and of the corners of a facet -/

namespace S2P

/-! ## Corners -/

theorem unit_of_mul {N M : V3 ℝ} {k l : ℝ} (hk : 0 < k) (hl : 0 < l) (hN : N.dot N = 1) (hM : M.dot M = 1) (h : N.smul k = M.smul l) : N = M := by
  have hx := congrArg V3.x h; have hy := congrArg V3.y h; have hz := congrArg V3.z h
  simp only [V3.smul] at hx hy hz
  simp only [V3.dot] at hN hM
  have h2 : k * k = l * l := by
    have : k * k * (N.x * N.x + N.y * N.y + N.z * N.z) = l * l * (M.x * M.x + M.y * M.y + M.z * M.z) := by
      linear_combination (N.x * k + M.x * l) * hx + (N.y * k + M.y * l) * hy + (N.z * k + M.z * l) * hz
    rw [hN, hM] at this; simpa using this
  have hkl : k = l := by nlinarith
  subst hkl
  ext
  · exact mul_right_cancel₀ hk.ne' hx
  · exact mul_right_cancel₀ hk.ne' hy
  · exact mul_right_cancel₀ hk.ne' hz

theorem unit_of_neg {N M : V3 ℝ} {k l : ℝ} (hk : 0 < k) (hl : 0 < l) (hN : N.dot N = 1) (hM : M.dot M = 1) (h : N.smul k = -(M.smul l)) : N = -M := by
  apply unit_of_mul hk hl hN (M := -M)
  · simpa [V3.dot] using hM
  · rw [h]; ext <;> simp [V3.smul]

/-- a rearrangement of three things turns them or flips them -/
theorem turn_or_flip {β : Type} (a b c a' b' c' : β) (h : [a', b', c'].Perm [a, b, c]) :
    ((a', b', c') = (a, b, c) ∨ (a', b', c') = (b, c, a) ∨ (a', b', c') = (c, a, b)) ∨
    ((a', b', c') = (c, b, a) ∨ (a', b', c') = (b, a, c) ∨ (a', b', c') = (a, c, b)) := by
  have hm := (List.mem_permutations.2 h)
  simp [List.permutations, List.permutationsAux, List.permutationsAux.rec, List.permutationsAux2] at hm
  rcases hm with ⟨rfl, rfl, rfl⟩ | ⟨rfl, rfl, rfl⟩ | ⟨rfl, rfl, rfl⟩ | ⟨rfl, rfl, rfl⟩ | ⟨rfl, rfl, rfl⟩ | ⟨rfl, rfl, rfl⟩
  · exact Or.inl (Or.inl rfl)
  · exact Or.inr (Or.inr (Or.inl rfl))
  · exact Or.inr (Or.inl rfl)
  · exact Or.inl (Or.inr (Or.inl rfl))
  · exact Or.inl (Or.inr (Or.inr rfl))
  · exact Or.inr (Or.inr (Or.inr rfl))

/-- C67, corners: the facet read does not depend on the order in which the file lists its corners — up to the corner it starts at — provided
the declared normal does not lie in the plane of the facet. -/
theorem C67_corners_partial (n a b c a' b' c' : V3 ℝ) (hp : [a', b', c'].Perm [a, b, c]) (hn : n.dot ((b - a).cross (c - a)) ≠ 0) :
    ∃ f g : Facet (Ext ℝ), mkFacet n.fin [a.fin, b.fin, c.fin] = .ok f ∧ mkFacet n.fin [a'.fin, b'.fin, c'.fin] = .ok g ∧ f.Turned g := by
  have hneg : ∀ u w : V3 ℝ, u.dot (-w) = -u.dot w := by intro u w; simp [V3.dot]; ring
  have hsm : ∀ (u w : V3 ℝ) k, u.dot (w.smul k) = u.dot w * k := by intro u w k; simp [V3.dot, V3.smul]; ring
  have hnn : ∀ u : V3 ℝ, - -u = u := by intro u; ext <;> simp
  -- the cross product of any order
  have hX : (b' - a').cross (c' - a') = (b - a).cross (c - a) ∨ (b' - a').cross (c' - a') = -(b - a).cross (c - a) := by
    rcases turn_or_flip a b c a' b' c' hp with h | h <;> simp only [Prod.mk.injEq] at h <;> rcases h with ⟨rfl, rfl, rfl⟩ | ⟨rfl, rfl, rfl⟩ | ⟨rfl, rfl, rfl⟩
    · exact Or.inl rfl
    · exact Or.inl (by ext <;> simp [V3.cross] <;> ring)
    · exact Or.inl (by ext <;> simp [V3.cross] <;> ring)
    · exact Or.inr (by ext <;> simp [V3.cross] <;> ring)
    · exact Or.inr (by ext <;> simp [V3.cross] <;> ring)
    · exact Or.inr (by ext <;> simp [V3.cross] <;> ring)
  have h0 : (b - a).cross (c - a) ≠ ⟨0, 0, 0⟩ := by intro h; rw [h] at hn; simp [V3.dot] at hn
  have h0' : (b' - a').cross (c' - a') ≠ ⟨0, 0, 0⟩ := by
    rcases hX with h | h <;> rw [h]
    · exact h0
    · intro hc
      apply h0
      rw [← hnn ((b - a).cross (c - a)), hc]; ext <;> simp
  obtain ⟨N, e0, e2, r, m1, m2, -, -, -, ⟨k, hk, m3⟩, m4, m5, m6, m7, m8⟩ := C16_facet n a b c h0
  obtain ⟨M, e0', e2', r', l1, l2, -, -, -, ⟨k', hk', l3⟩, l4, l5, l6, l7, l8⟩ := C16_facet n a' b' c' h0'
  refine ⟨_, _, m1, l1, ?_⟩
  -- the stored corners have the cross product of the listed ones, up to sign
  have hpar : (b - e0).cross (e2 - e0) = (b - a).cross (c - a) ∨ (b - e0).cross (e2 - e0) = -(b - a).cross (c - a) := by
    rcases m8 with ⟨rfl, rfl⟩ | ⟨rfl, rfl⟩
    · exact Or.inl rfl
    · right; ext <;> simp [V3.cross] <;> ring
  have hNn : n.dot N ≠ 0 := by
    intro hz
    apply hn
    have : n.dot ((b - e0).cross (e2 - e0)) = 0 := by rw [m3, hsm, hz, zero_mul]
    rcases hpar with h | h <;> rw [h] at this
    · exact this
    · rw [hneg] at this; linarith
  have even : (e0', b', e2') = (e0, b, e2) ∨ (e0', b', e2') = (b, e2, e0) ∨ (e0', b', e2') = (e2, e0, b) → N = M := by
    intro h
    apply unit_of_mul hk hk' m2 l2
    rw [← m3, ← l3]
    simp only [Prod.mk.injEq] at h
    rcases h with ⟨rfl, rfl, rfl⟩ | ⟨rfl, rfl, rfl⟩ | ⟨rfl, rfl, rfl⟩
    · rfl
    · ext <;> simp [V3.cross] <;> ring
    · ext <;> simp [V3.cross] <;> ring
  have odd : ¬ ((e0', b', e2') = (e2, b, e0) ∨ (e0', b', e2') = (b, e0, e2) ∨ (e0', b', e2') = (e0, e2, b)) := by
    intro h
    have : M = -N := by
      apply unit_of_neg hk' hk l2 m2
      rw [← m3, ← l3]
      simp only [Prod.mk.injEq] at h
      rcases h with ⟨rfl, rfl, rfl⟩ | ⟨rfl, rfl, rfl⟩ | ⟨rfl, rfl, rfl⟩
      · ext <;> simp [V3.cross] <;> ring
      · ext <;> simp [V3.cross] <;> ring
      · ext <;> simp [V3.cross] <;> ring
    rw [this, hneg] at l4
    exact hNn (le_antisymm (by linarith) m4)
  have key := (turn_or_flip e0 b e2 e0' b' e2' (by
    have flip : ∀ x y z : V3 ℝ, [z, y, x].Perm [x, y, z] := fun x y z => List.reverse_perm [x, y, z]
    have k1 : [a, b, c].Perm [e0, b, e2] := by
      rcases m8 with ⟨rfl, rfl⟩ | ⟨rfl, rfl⟩
      · exact .refl _
      · exact flip _ _ _
    have k2 : [e0', b', e2'].Perm [a', b', c'] := by
      rcases l8 with ⟨rfl, rfl⟩ | ⟨rfl, rfl⟩
      · exact .refl _
      · exact flip _ _ _
    exact k2.trans (hp.trans k1))).resolve_right odd
  have hNM := even key
  subst hNM
  simp only [Prod.mk.injEq] at key
  refine ⟨rfl, ?_, ?_⟩
  · rcases key with ⟨rfl, rfl, rfl⟩ | ⟨rfl, rfl, rfl⟩ | ⟨rfl, rfl, rfl⟩
    · rw [m5, l5]
    · rw [m6, l5]
    · rw [m7, l5]
  · simp only [Prod.mk.injEq]
    rcases key with ⟨rfl, rfl, rfl⟩ | ⟨rfl, rfl, rfl⟩ | ⟨rfl, rfl, rfl⟩ <;> simp

/-! ## Drawings and pages -/

/-- C67, views: two files describing the same surface, none of whose edges borders three facets, give the same lines, the same limits and the
same vertices. -/
theorem C67_view_partial (S : Sorter) (hS : SortOK S) (s u : STLFile (Ext ℝ)) (m : M3 ℝ) (hm : IsRotation m) (hs : ∀ f ∈ s.facets, f.Made)
    (hu : ∀ f ∈ u.facets, f.Made) (h2 : TwoSided s.facets) (h : SameShape s.facets u.facets) :
    ∃ p q ls ls', s.rotate m.fin = .ok p ∧ u.rotate m.fin = .ok q ∧ p.cull.toLines S = .ok ls ∧ q.cull.toLines S = .ok ls' ∧ ls.Perm ls' ∧
      p.cull.limits = q.cull.limits ∧ p.cull.points = q.cull.points := by
  obtain ⟨p, q, ls, ls', h1, h2, h3, h4, h5, h6, h7⟩ := view_sameShape S hS s u m hm hs hu h2 h
  exact ⟨p, q, ls, ls', h1, h2, h5, h6, h7, h3, h4⟩

/-- C67, pages: verdict and diagnostics are the same, and every page holds the same strokes, arcs and texts. -/
theorem C67_pages_partial (E : Env (Ext ℝ)) (hS : SortOK E.sorter) (stl stl' : Models (Ext ℝ)) (hM : stl.Made) (hM' : stl'.Made)
    (h2 : ∀ e ∈ stl, ∀ f, e.2 = some f → TwoSided f.facets) (h : SameModels stl stl') (s : Str) (doc : Doc (Ext ℝ)) (hp : parse s = .ok (some doc)) :
    (∀ a, generatePages E stl doc [] = .error a ↔ generatePages E stl' doc [] = .error a) ∧
    ∀ g, generatePages E stl doc [] = .ok g → ∃ g', generatePages E stl' doc [] = .ok g' ∧ g'.ok = g.ok ∧ g'.log = g.log ∧
      List.Forall₂ OutPage.Like g.pages g'.pages := by
  have hf := parse_isFin s doc hp
  obtain ⟨k1, k2⟩ := genPages_like pageRel_like (E := E) (stl := stl) (stl' := stl') doc.pages
    (fun pg hpg d hd => content_sameModels hS hM hM' h h2 d (hf pg hpg d hd)) 0 (initVis E) (initVis E) rfl
  unfold generatePages
  simp only [bind, Except.bind, List.length_nil]
  cases hx : genPages E stl doc.pages 0 (initVis E) with
  | error a =>
    rw [(k1 a).1 hx]
    exact ⟨fun a => Iff.rfl, fun g hg => by cases hg⟩
  | ok x =>
    obtain ⟨y, l1, l2, l3, l4⟩ := k2 x hx
    rw [l1]
    refine ⟨fun a => by simp [pure, Except.pure], fun g hg => ?_⟩
    cases hg
    exact ⟨_, rfl, l2, l4, by simpa using l3⟩

/-! ## A concrete case: a square of two facets, listed in another order, the corners of one of them also listed in another order -/

theorem square_case : ∃ s u : STLFile (Ext ℝ), s.facets ≠ u.facets ∧ (∀ f ∈ s.facets, f.Made) ∧ (∀ f ∈ u.facets, f.Made) ∧ TwoSided s.facets ∧
    SameShape s.facets u.facets ∧ (∃ q, s.rotate matZP = .ok q ∧ q.facets.length = 2) ∧ Models.Made (K := ℝ) [(c!"m", some s)] ∧
    Models.Made (K := ℝ) [(c!"m", some u)] ∧ SameModels [(c!"m", some s)] [(c!"m", some u)] := by
  obtain ⟨f, g, hf, hg, ht⟩ := C67_corners_partial ⟨0, 0, 1⟩ ⟨0, 0, 0⟩ ⟨1, 0, 0⟩ ⟨0, 1, 0⟩ ⟨1, 0, 0⟩ ⟨0, 0, 0⟩ ⟨0, 1, 0⟩ (List.Perm.swap _ _ _)
    (by simp [V3.dot, V3.cross])
  obtain ⟨N, e0, e2, r, m1, m2, -, -, -, ⟨k, hk, m3⟩, m4, -, -, -, m8⟩ := C16_facet ⟨0, 0, 1⟩ ⟨1, 0, 0⟩ ⟨1, 1, 0⟩ ⟨0, 1, 0⟩ (by
    intro h; have := congrArg V3.z h; simp [V3.cross] at this)
  obtain ⟨N', e0', e2', r', n1, n2, -, -, -, ⟨k', hk', n3⟩, n4, -, -, -, n8⟩ := C16_facet ⟨0, 0, 1⟩ ⟨0, 0, 0⟩ ⟨1, 0, 0⟩ ⟨0, 1, 0⟩ (by
    intro h; have := congrArg V3.z h; simp [V3.cross] at this)
  rw [n1] at hf
  injection hf with hf
  subst hf
  have hN : 0 < N.z := by
    have h0 : 0 ≤ N.z := by simpa [V3.dot] using m4
    refine lt_of_le_of_ne h0 ?_
    intro hz
    have := congrArg V3.z m3
    simp only [V3.smul, ← hz, zero_mul] at this
    rcases m8 with ⟨rfl, rfl⟩ | ⟨rfl, rfl⟩ <;> simp [V3.cross] at this
  have hN' : 0 < N'.z := by
    have h0 : 0 ≤ N'.z := by simpa [V3.dot] using n4
    refine lt_of_le_of_ne h0 ?_
    intro hz
    have := congrArg V3.z n3
    simp only [V3.smul, ← hz, zero_mul] at this
    rcases n8 with ⟨rfl, rfl⟩ | ⟨rfl, rfl⟩ <;> simp [V3.cross] at this
  generalize hF : (⟨N'.fin, e0'.fin, V3.fin ⟨1, 0, 0⟩, e2'.fin, Ext.fin r'⟩ : Facet (Ext ℝ)) = F at *
  generalize hH : (⟨N.fin, e0.fin, V3.fin ⟨1, 1, 0⟩, e2.fin, Ext.fin r⟩ : Facet (Ext ℝ)) = H at *
  have hFz : F.norm = N'.fin := by rw [← hF]
  have hHz : H.norm = N.fin := by rw [← hH]
  have mF : F.Made := ⟨_, _, _, _, n1⟩
  have mG : g.Made := ⟨_, _, _, _, hg⟩
  have mH : H.Made := ⟨_, _, _, _, m1⟩
  have M1 : ∀ f ∈ [F, H], f.Made := by simp; exact ⟨mF, mH⟩
  have M2 : ∀ f ∈ [H, g], f.Made := by simp; exact ⟨mH, mG⟩
  have hsame : SameShape [F, H] [H, g] :=
    ⟨[H, F], List.Perm.swap _ _ _, .cons ⟨rfl, rfl, Or.inl rfl⟩ (.cons ht .nil)⟩
  refine ⟨⟨[F, H], [], [], 0⟩, ⟨[H, g], [], [], 0⟩, ?_, M1, M2, ?_, hsame, ?_, ?_, ?_, ?_⟩
  · intro h
    simp only [List.cons.injEq, and_true] at h
    have : F.e1 = H.e1 := by rw [h.1]
    rw [← hF, ← hH] at this
    have := congrArg V3.y this
    simp [V3.map] at this
  · intro f g h hsub
    have := hsub.length_le
    simp at this
  · have := C21_rotate (⟨[F, H], [], [], 0⟩ : STLFile (Ext ℝ)) matZP ?_
    · obtain ⟨q, h1, -, h3⟩ := this
      refine ⟨q, h1, ?_⟩
      rw [h3.length_eq, List.map_cons, List.map_cons, List.map_nil]
      rw [List.filter_cons_of_pos, List.filter_cons_of_pos]
      · rfl
      all_goals simp [rotFacet, hFz, hHz, V3.mulM, matZP, ptX, ptY, ptZ, V3.map, hN, hN']
    · intro f hf
      obtain ⟨m', ax, e, hr, -⟩ := C30_named_views (K := ℝ) c!"Z+" matZP rfl
      rw [e]
      exact (rot_corners (made_corners (M1 f hf)) m').ok
  · intro e he
    simp only [List.mem_singleton] at he
    subst he
    exact ⟨_, rfl, M1⟩
  · intro e he
    simp only [List.mem_singleton] at he
    subst he
    exact ⟨_, rfl, M2⟩
  · exact .cons ⟨rfl, _, _, rfl, rfl, hsame⟩ .nil

example : SortOK rEnv.sorter ∧ ∃ m : M3 ℝ, (matZP : M3 (Ext ℝ)) = m.fin ∧ IsRotation m := by
  obtain ⟨m', ax, e, hr, -⟩ := C30_named_views (K := ℝ) c!"Z+" matZP rfl
  exact ⟨insSorter_ok, m', e, hr⟩

/-! ## The claim is false where three facets meet -/

/-- three facets on the edge from (0,0,0) to (0,1,0): level, tilted by 11°, tilted by 37° -/
def fan : List (V3 ℚ × V3 ℚ × V3 ℚ × V3 ℚ) :=
  [(⟨0, 0, 1⟩, ⟨0, 1, 0⟩, ⟨-1, 0, 0⟩, ⟨0, 0, 0⟩), (⟨20, 0, 99⟩, ⟨0, 0, 0⟩, ⟨99/100, 0, -1/5⟩, ⟨0, 1, 0⟩), (⟨3, 0, 4⟩, ⟨0, 0, 0⟩, ⟨4, 0, -3⟩, ⟨0, 1, 0⟩)]

/-- the file listing those facets in the given order -/
def fanFile (ix : List Nat) : STLFile (Ext ℚ) :=
  ⟨ix.filterMap fun i => fan[i]?.bind fun t => (mkFacet t.1.fin [t.2.1.fin, t.2.2.1.fin, t.2.2.2.fin]).toOption, [], [], 0⟩

def fanLines (ix : List Nat) : List (Line (Ext ℚ)) :=
  (((fanFile ix).rotate matZP).toOption.bind fun p => (p.cull.toLines insSorter).toOption).getD []

/-- C67 without the hypothesis on edges is false: the same three facets in another order, and the edge they share is drawn or not. -/
theorem C67_false : SameShape (fanFile [0, 1, 2]).facets (fanFile [0, 2, 1]).facets ∧
    ¬ (fanLines [0, 1, 2]).Perm (fanLines [0, 2, 1]) ∧
    ⟨V2.fin ⟨0, 0⟩, V2.fin ⟨0, 1⟩⟩ ∈ fanLines [0, 1, 2] ∧ ⟨V2.fin ⟨0, 0⟩, V2.fin ⟨0, 1⟩⟩ ∉ fanLines [0, 2, 1] := by
  have h1 : (⟨V2.fin ⟨0, 0⟩, V2.fin ⟨0, 1⟩⟩ : Line (Ext ℚ)) ∈ fanLines [0, 1, 2] := by decide +kernel
  have h2 : (⟨V2.fin ⟨0, 0⟩, V2.fin ⟨0, 1⟩⟩ : Line (Ext ℚ)) ∉ fanLines [0, 2, 1] := by decide +kernel
  refine ⟨(SameShape.refl _).perm_right ?_, fun h => h2 (h.subset h1), h1, h2⟩
  decide +kernel

end S2P
