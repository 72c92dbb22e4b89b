import Verif.Props.DimPaper
import Verif.Props.HoleAngle

set_option linter.unusedSectionVars false
set_option linter.unusedVariables false
set_option linter.unusedSimpArgs false

/-! # C89: a run of the program from a script that asks for dimensions of a round part

The premises of `C89_program` with all kinds of dimensions that concern round parts. -/

namespace S2P
open PS

/-- radius, diameter, a distance from the centre and an angle at the centre of the plate -/
noncomputable def plateDims (l l' l'' l''' : ℕ → ℕ) : List (DimN F64) := [plateDim .rad l, plateDim .dia l', plateSpan l'', plateTurn l''']

/-- A drawing of the plate with its radius, its diameter, a distance from its centre and an angle at its centre is of the kind in question, and it is accepted. -/
theorem plate_drawing (w : World) (hx : w.read c!"/x" = some plateText) (l l' l'' l''' : ℕ → ℕ) (a b : ℕ) : Drawing flEnv w [⟨c!"m", c!"/x", a⟩] (2 ^ 4) (1 / 2 ^ 50) c!"m" [] (plateDims l l' l'' l''') ∧
    ∃ (f : STLFile F64) (c : _), make plateText = .ok (some f) ∧ Loads flEnv.loadPath w ⟨c!"m", c!"/x", a⟩ f ∧ Models.Bd 4 [(c!"m", some f)] ∧
      content flEnv [(c!"m", some f)] (.draw c!"m" [] (plateDims l l' l'' l''') b) = .ok c ∧ c.1 = true := by
  obtain ⟨f, -, hf, hM, hη, hts, hps, -, -, hr, hde, hm, -⟩ := plate_leader l 1
  refine ⟨⟨hts, hps, hη, ?_⟩, f, ?_⟩
  · intro m hm' hname ps text hps ⟨u, p, v, q1, q2, q3⟩
    simp only [List.mem_singleton] at hm'; subst hm'
    rw [paper_places ps hps] at q1
    have : p = c!"/x" := by
      have : p ∈ u ++ p :: v := by simp
      rw [← q1] at this
      simpa using this
    subst this
    rw [hx] at q3; cases q3
    refine ⟨_, hde, fun r hr' => ?_⟩
    obtain rfl := askedView_unique hr' hr
    refine ⟨fun _ => ⟨_, hm⟩, ?_⟩
    intro d hd
    simp only [plateDims, List.mem_cons, List.not_mem_nil, or_false] at hd
    rcases hd with rfl | rfl | rfl | rfl
    · exact Or.inr (Or.inr (Or.inl ⟨_, _, _, _, _, _, _, _, _, _, plate_measured .rad (Or.inr rfl) l⟩))
    · exact Or.inr (Or.inr (Or.inl ⟨_, _, _, _, _, _, _, _, _, _, plate_measured .dia (Or.inl rfl) l'⟩))
    · exact Or.inr (Or.inr (Or.inr (Or.inl ⟨_, _, _, _, _, _, _, _, plate_span_measured l''⟩)))
    · exact Or.inr (Or.inr (Or.inr (Or.inr ⟨_, _, _, _, _, _, _, plate_turn l'''⟩)))
  · obtain ⟨c, hc⟩ := content_bd flEnv insSorter_ok rfl [(c!"m", some f)] (by norm_num) hM (.draw c!"m" [] (plateDims l l' l'' l''') b) (by simp [Drawable.LocBd]) (by intro m hm; simp at hm)
    have hbd : f.Bd 4 := by
      obtain ⟨f', e, h⟩ := hM _ (List.mem_singleton.2 rfl)
      cases e; exact h
    obtain ⟨proj, ls, g1, g2, -, g3, -⟩ := turned_bd (n := 4) (by norm_num) flEnv.sorter insSorter_ok _ hbd matZP (viewOf_bd (none : Option (Meta F64)) (by simp) matZP rfl)
    have hD : Drawn flEnv [(c!"m", some f)] c!"m" [] ((1, 1) : Int × Int) matZP _ f proj ls := ⟨by simp, rfl, rfl, rfl, ⟨_, rfl, rfl⟩, g1, by rw [g2]; exact g3⟩
    refine ⟨c, hf, ⟨[c!"/x"], _, Or.inl ⟨rfl, rfl⟩, ⟨[], c!"/x", [], rfl, by simp, hx⟩, hf⟩, hM, hc, ?_⟩
    refine C96_accepted _ _ _ flEnv insSorter_ok rfl _ (by norm_num) hM _ [] (by simp) (by simp) (by intro m hm; simp at hm) (1 / 2 ^ 50) hη hts hps _ _ c hc _ _ _ _ _ _ hD _ hr _ _ hf hde ⟨_, hm⟩ ?_
    intro d hd
    simp only [plateDims, List.mem_cons, List.not_mem_nil, or_false] at hd
    rcases hd with rfl | rfl | rfl | rfl
    · have h := plate_measured .rad (Or.inr rfl) l
      exact Or.inr (Or.inr (Or.inr ⟨_, _, _, _, _, _, _, _, _, _, h.asks, h.size, h.seen⟩))
    · have h := plate_measured .dia (Or.inl rfl) l'
      exact Or.inr (Or.inr (Or.inr ⟨_, _, _, _, _, _, _, _, _, _, h.asks, h.size, h.seen⟩))
    · exact Or.inr (Or.inl ⟨_, _, _, _, _, _, _, _, plate_span l''⟩)
    · exact Or.inl ⟨_, _, _, _, _, _, _, plate_turn l'''⟩

/-- an integer written with or without a sign reads as itself -/
theorem spell_int (sg ip : Str) (m : ℤ) (hs : IsSignStr sg) (hd : Digits ip) (hne : ip ≠ []) (hv : (m : ℚ) = (if sg = ['-'] then -1 else 1) * (natVal ip : ℚ)) (hm : |m| < 2 ^ 24) :
    SpellNum (α := F64) (Ext.fin (m : ℝ) : Ext ℝ) (sg ++ ip) := by
  refine ⟨Or.inl ⟨sg, ip, hs, hd, hne, Or.inl rfl⟩, (m : ℚ), ⟨sg, ip, [], hs, hd, by simp [Digits], Or.inl ⟨rfl, rfl⟩, ?_⟩, ?_⟩
  · rw [hv]; simp [natVal]
  · have h := roundTo_int32 .nearest m hm
    have hlt : |(m : ℝ)| < 2 ^ 128 := by
      have : |(m : ℝ)| < 2 ^ 24 := by exact_mod_cast hm
      exact this.trans (by norm_num)
    show (match overflow (2 ^ 128) (roundTo .nearest 24 (-149) (((m : ℚ) : ℝ))) with
      | .fin x => if true = true then some (Ext.fin x : Ext ℝ) else none
      | _ => none) = _
    have e : (((m : ℚ) : ℝ)) = (m : ℝ) := by simp
    rw [e, h, overflow_fin hlt]
    rfl

noncomputable def plateDoc : Doc F64 :=
  ⟨[⟨c!"m", c!"/x", 1⟩], [⟨[], [.draw c!"m" [] (plateDims (fun _ => 1) (fun _ => 1) (fun _ => 1) (fun _ => 1)) 1], 1⟩]⟩

/-- a script that draws the plate with these dimensions -/
theorem plate_script : ∃ (s : Str) (l l' l'' l''' : ℕ → ℕ) (a b c : ℕ),
    parse s = .ok (some (⟨[⟨c!"m", c!"/x", a⟩], [⟨[], [.draw c!"m" [] (plateDims l l' l'' l''') b], c⟩]⟩ : Doc F64)) := by
  classical
  let num : F64 → Str := fun x => if h : ∃ w, SpellNum x w then h.choose else []
  have hnum : ∀ x : ℝ, (∃ w, SpellNum (α := F64) (Ext.fin x : Ext ℝ) w) → SpellNum (α := F64) (Ext.fin x : Ext ℝ) (num (Ext.fin x : Ext ℝ)) := by
    intro x h
    show SpellNum _ (if h : ∃ w, SpellNum (α := F64) (Ext.fin x : Ext ℝ) w then h.choose else [])
    rw [dif_pos h]
    exact h.choose_spec
  have hdig : ∀ m : ℕ, m < 10 → ∀ x : ℝ, x = m → SpellNum (α := F64) (Ext.fin x : Ext ℝ) (num (Ext.fin x : Ext ℝ)) := by
    rintro m hm x rfl
    exact hnum _ ⟨_, spell_digit m hm⟩
  have hint : ∀ (sg ip : Str) (m : ℤ) (x : ℝ), IsSignStr sg → Digits ip → ip ≠ [] → (m : ℚ) = (if sg = ['-'] then -1 else 1) * (natVal ip : ℚ) → |m| < 2 ^ 24 → x = m →
      SpellNum (α := F64) (Ext.fin x : Ext ℝ) (num (Ext.fin x : Ext ℝ)) := by
    rintro sg ip m x h1 h2 h3 h4 h5 rfl
    exact hnum _ ⟨_, spell_int sg ip m h1 h2 h3 h4 h5⟩
  have z := hdig 0 (by norm_num) 0 (by norm_num)
  have n1 := hdig 1 (by norm_num) 1 (by norm_num)
  have n2 := hdig 2 (by norm_num) 2 (by norm_num)
  have n5 := hdig 5 (by norm_num) 5 (by norm_num)
  have n8 := hdig 8 (by norm_num) 8 (by norm_num)
  have n9 := hdig 9 (by norm_num) (((0 : ℤ) : ℝ) + 9) (by norm_num)
  have zz := hdig 0 (by norm_num) ((0 : ℤ) : ℝ) (by norm_num)
  have n1' := hdig 1 (by norm_num) ((1 : ℤ) : ℝ) (by norm_num)
  have n10 := hint [] c!"10" 10 10 (by simp [IsSignStr]) (by unfold Digits Digit; decide) (by decide) (by rw [show natVal c!"10" = 10 from by decide]; norm_num) (by norm_num) (by norm_num)
  have n10' := hint [] c!"10" 10 (((1 : ℤ) : ℝ) + 9) (by simp [IsSignStr]) (by unfold Digits Digit; decide) (by decide) (by rw [show natVal c!"10" = 10 from by decide]; norm_num) (by norm_num) (by norm_num)
  have m4 := hint c!"-" c!"4" (-4) (-4) (by simp [IsSignStr]) (by unfold Digits Digit; decide) (by decide) (by rw [show natVal c!"4" = 4 from by decide]; norm_num) (by norm_num) (by norm_num)
  have m8 := hint c!"-" c!"8" (-8) (-8) (by simp [IsSignStr]) (by unfold Digits Digit; decide) (by decide) (by rw [show natVal c!"8" = 8 from by decide]; norm_num) (by norm_num) (by norm_num)
  have hround : ∀ k, ∀ m ∈ (plateDim k (fun _ => 1)).metas, m.Good num (fun _ => []) := by
    intro k m hm
    simp only [plateDim, ringRad, List.mem_cons, List.not_mem_nil, or_false] at hm
    rcases hm with rfl | rfl | rfl
    · exact ⟨Or.inl (isName_of (by decide) (by decide)), n10', n9, z⟩
    · exact ⟨Or.inl (isName_of (by decide) (by decide)), n1', zz, z⟩
    · exact ⟨Or.inl (isName_of (by decide) (by decide)), n1, n1, z⟩
  have hgood : plateDoc.Good num (fun _ => []) := by
    refine ⟨?_, ?_⟩
    · intro m hm
      simp only [plateDoc, List.mem_singleton] at hm
      subst hm
      exact ⟨isName_of (by decide) (by decide), by decide⟩
    · intro pg hpg
      simp only [plateDoc, List.mem_singleton] at hpg
      subst hpg
      refine ⟨by simp, ?_⟩
      intro d hd
      rw [List.mem_singleton] at hd
      subst hd
      refine ⟨isName_of (by decide) (by decide), by simp, ?_⟩
      intro d hd
      simp only [plateDims, List.mem_cons, List.not_mem_nil, or_false] at hd
      rcases hd with rfl | rfl | rfl | rfl
      · exact hround _
      · exact hround _
      · intro m hm
        simp only [plateSpan, List.mem_cons, List.not_mem_nil, or_false] at hm
        rcases hm with rfl | rfl | rfl | rfl
        · exact ⟨Or.inl (isName_of (by decide) (by decide)), m4, n10, z⟩
        · exact ⟨Or.inl (isName_of (by decide) (by decide)), n2, z, z⟩
        · exact ⟨Or.inl (isName_of (by decide) (by decide)), isName_of (by decide) (by decide), n1, z, z⟩
        · exact ⟨Or.inl (isName_of (by decide) (by decide)), isName_of (by decide) (by decide), m8, n8, z⟩
      · intro m hm
        simp only [plateTurn, List.mem_cons, List.not_mem_nil, or_false] at hm
        rcases hm with rfl | rfl | rfl | rfl
        · exact ⟨Or.inl (isName_of (by decide) (by decide)), n5, n5, z⟩
        · exact ⟨Or.inl (isName_of (by decide) (by decide)), isName_of (by decide) (by decide), n1, z, z⟩
        · exact ⟨Or.inl (isName_of (by decide) (by decide)), n2, z, z⟩
        · exact ⟨Or.inl (isName_of (by decide) (by decide)), z, n8, z⟩
  obtain ⟨-, h⟩ := C04_writable num _ plateDoc hgood
  generalize spaced (plateDoc.print num fun _ => []) = s at h
  refine ⟨s, ?_⟩
  cases hp : (parse s : Except Abort (Option (Doc F64))) with
  | error e => rw [hp] at h; cases h
  | ok d =>
    rw [hp] at h
    cases d with
    | none => cases h
    | some d =>
      have h : d.noLine = plateDoc.noLine := by
        have : (Except.ok (some d.noLine) : Except Abort (Option (Doc F64))) = .ok (some plateDoc.noLine) := h
        injection this with h
        injection h
      clear hp
      obtain ⟨models, pages⟩ := d
      simp only [Doc.noLine, plateDoc, Doc.mk.injEq, List.map_cons, List.map_nil, List.map_eq_singleton_iff] at h
      obtain ⟨⟨⟨n, src, a⟩, rfl, hm⟩, ⟨⟨pm, draws, c⟩, rfl, hpg⟩⟩ := h
      simp only [ModelN.noLine, ModelN.mk.injEq, and_true] at hm
      obtain ⟨rfl, rfl⟩ := hm
      simp only [PageN.noLine, PageN.mk.injEq, List.map_nil, List.map_eq_nil_iff, and_true, List.map_cons, List.map_eq_cons_iff] at hpg
      obtain ⟨rfl, ⟨dr, _, rfl, hd, rfl⟩⟩ := hpg
      have pv : ∀ (v : MetaVal F64) (q : V3 F64), v.noLine = .pt (.val q 0) → ∃ k, v = .pt (.val q k) := by
        intro v q hv
        cases v <;> simp [MetaVal.noLine] at hv
        rename_i p
        cases p <;> simp [Pt.noLine] at hv
        subst hv
        exact ⟨_, rfl⟩
      have pf : ∀ (v : MetaVal F64) (n : Str) (q : V3 F64), v.noLine = .pt (.func n (.val q 0) 0) → ∃ k k', v = .pt (.func n (.val q k) k') := by
        intro v n q hv
        cases v <;> simp [MetaVal.noLine] at hv
        rename_i p
        cases p with
        | val => simp [Pt.noLine] at hv
        | func n' p k' =>
          simp [Pt.noLine] at hv
          obtain ⟨rfl, hv⟩ := hv
          cases p <;> simp [Pt.noLine] at hv
          subst hv
          exact ⟨_, _, rfl⟩
      have round : ∀ (k : DimKind) (d : DimN F64), d.noLine = (plateDim k (fun _ => 1)).noLine → ∃ l, d = plateDim k l := by
        rintro k ⟨kd, metas, ld⟩ hd
        simp only [DimN.noLine, plateDim, ringRad, DimN.mk.injEq, List.map_cons, List.map_nil, and_true, List.map_eq_cons_iff, List.map_eq_nil_iff] at hd
        obtain ⟨rfl, ⟨n1, v1, l1⟩, _, rfl, h1, ⟨n2, v2, l2⟩, _, rfl, h2, ⟨n3, v3, l3⟩, _, rfl, h3, rfl⟩ := hd
        simp only [Meta.noLine, Meta.mk.injEq, and_true] at h1 h2 h3
        obtain ⟨rfl, h1⟩ := h1
        obtain ⟨rfl, h2⟩ := h2
        obtain ⟨rfl, h3⟩ := h3
        obtain ⟨k0, rfl⟩ := pv _ _ h1
        obtain ⟨k2, rfl⟩ := pv _ _ h2
        obtain ⟨k4, rfl⟩ := pv _ _ h3
        exact ⟨fun i => [k0, l1, k2, l2, k4, l3, ld].getD i 0, rfl⟩
      have span : ∀ (d : DimN F64), d.noLine = (plateSpan (fun _ => 1)).noLine → ∃ l, d = plateSpan l := by
        rintro ⟨kd, metas, ld⟩ hd
        simp only [DimN.noLine, plateSpan, DimN.mk.injEq, List.map_cons, List.map_nil, and_true, List.map_eq_cons_iff, List.map_eq_nil_iff] at hd
        obtain ⟨rfl, ⟨n1, v1, l1⟩, _, rfl, h1, ⟨n2, v2, l2⟩, _, rfl, h2, ⟨n3, v3, l3⟩, _, rfl, h3, ⟨n4, v4, l4⟩, _, rfl, h4, rfl⟩ := hd
        simp only [Meta.noLine, Meta.mk.injEq, and_true] at h1 h2 h3 h4
        obtain ⟨rfl, h1⟩ := h1
        obtain ⟨rfl, h2⟩ := h2
        obtain ⟨rfl, h3⟩ := h3
        obtain ⟨rfl, h4⟩ := h4
        obtain ⟨k0, rfl⟩ := pv _ _ h1
        obtain ⟨k2, rfl⟩ := pv _ _ h2
        obtain ⟨k4, k5, rfl⟩ := pf _ _ _ h3
        obtain ⟨k7, k8, rfl⟩ := pf _ _ _ h4
        exact ⟨fun i => [k0, l1, k2, l2, k4, k5, l3, k7, k8, l4, ld].getD i 0, rfl⟩
      have turn : ∀ (d : DimN F64), d.noLine = (plateTurn (fun _ => 1)).noLine → ∃ l, d = plateTurn l := by
        rintro ⟨kd, metas, ld⟩ hd
        simp only [DimN.noLine, plateTurn, DimN.mk.injEq, List.map_cons, List.map_nil, and_true, List.map_eq_cons_iff, List.map_eq_nil_iff] at hd
        obtain ⟨rfl, ⟨n1, v1, l1⟩, _, rfl, h1, ⟨n2, v2, l2⟩, _, rfl, h2, ⟨n3, v3, l3⟩, _, rfl, h3, ⟨n4, v4, l4⟩, _, rfl, h4, rfl⟩ := hd
        simp only [Meta.noLine, Meta.mk.injEq, and_true] at h1 h2 h3 h4
        obtain ⟨rfl, h1⟩ := h1
        obtain ⟨rfl, h2⟩ := h2
        obtain ⟨rfl, h3⟩ := h3
        obtain ⟨rfl, h4⟩ := h4
        obtain ⟨k0, rfl⟩ := pv _ _ h1
        obtain ⟨k2, k3, rfl⟩ := pf _ _ _ h2
        obtain ⟨k5, rfl⟩ := pv _ _ h3
        obtain ⟨k7, rfl⟩ := pv _ _ h4
        exact ⟨fun i => [k0, l1, k2, k3, l2, k5, l3, k7, l4, ld].getD i 0, rfl⟩
      have first : ∃ l l' l'' l''' b, dr = .draw c!"m" [] (plateDims l l' l'' l''') b := by
        cases dr with
        | text s ms l => simp [Drawable.noLine] at hd
        | draw n ms dims b =>
          simp only [Drawable.noLine, plateDims, Drawable.draw.injEq, List.map_nil, List.map_eq_nil_iff, and_true, List.map_cons, List.map_eq_cons_iff] at hd
          obtain ⟨rfl, rfl, d1, _, rfl, h1, d2, _, rfl, h2, d3, _, rfl, h3, d4, _, rfl, h4, rfl⟩ := hd
          obtain ⟨l1, rfl⟩ := round _ _ h1
          obtain ⟨l2, rfl⟩ := round _ _ h2
          obtain ⟨l3, rfl⟩ := span _ h3
          obtain ⟨l4, rfl⟩ := turn _ h4
          exact ⟨l1, l2, l3, l4, b, rfl⟩
      obtain ⟨l, l', l'', l''', b, rfl⟩ := first
      exact ⟨l, l', l'', l''', a, b, c, rfl⟩

/-- the script is file 1, the output file 2, the model file 3 -/
def plateDisk (s : Str) : World where
  ident p := if p = c!"s" then 1 else if p = c!"o" then 2 else if p = c!"/x" then 3 else 0
  data i := if i = 1 then some s else if i = 3 then some plateText else none
  canWrite i := i == 2

theorem plate_sane : SaneFile 4 plateText := saneB_ok _ _ (by decide +kernel)

theorem plate_run (w : World) (hw : w.read c!"/x" = some plateText) {s : Str} {l l' l'' l''' : ℕ → ℕ} {a b c : ℕ}
    (hp : parse s = .ok (some (⟨[⟨c!"m", c!"/x", a⟩], [⟨[], [.draw c!"m" [] (plateDims l l' l'' l''') b], c⟩]⟩ : Doc F64))) :
    ∃ r, scriptToPS flEnv w c!"s" s = .ok r ∧ r.ok = true := by
  obtain ⟨-, f, cc, hf, hload, hM, hc, hc1⟩ := plate_drawing w hw l l' l'' l''' a b
  obtain ⟨r, hr⟩ := C62_run flEnv insSorter_ok rfl w c!"s" s (by intro a h; rw [hp] at h; cases h) (by
    intro doc hd
    rw [hp] at hd; cases hd
    intro m hm ps x h1 h2
    exact (fl_saneModels_of w hw plate_sane a m hm ps x h1 h2).mono (by norm_num))
  refine ⟨r, hr, ?_⟩
  rw [(C48_all_or_nothing flEnv w _ _ r hr).1]
  obtain ⟨g, hg⟩ := generatePages_ok flEnv [(c!"m", some f)] ⟨[], [⟨[], [.draw c!"m" [] (plateDims l l' l'' l''') b], c⟩]⟩ [] (by
    intro pg hpg x hx
    simp only [List.mem_singleton] at hpg; subst hpg
    rw [List.mem_singleton] at hx
    subst hx
    exact ⟨cc, hc⟩)
  obtain ⟨cs, k1, ⟨t, -, k2⟩, k3⟩ := C58_page flEnv [(c!"m", some f)] ⟨[], [.draw c!"m" [] (plateDims l l' l'' l''') b], c⟩ g hg
  have gok : g.ok = true := by
    rw [k3]
    refine ⟨⟨by simp, by simp, by simp⟩, by simp [nameIsString, look], ?_⟩
    intro c' hc''
    obtain ⟨d, hd, e⟩ := forall₂_right k1 c' hc''
    rw [List.mem_singleton] at hd
    subst hd
    rw [hc] at e; cases e; exact hc1
  exact ⟨_, _, [f], _, hp, by simp, .cons hload .nil, .cons ⟨g, hg, gok, k2⟩ .nil, rfl⟩

/-- A run of the program, in double arithmetic with rounding to nearest, that meets the premises of `C89_program`; the script asks for the radius and the diameter of
a plate, a distance from its centre and an angle at its centre. -/
example : ∃ s : Str, SortOK flEnv.sorter ∧ flEnv.junkM = ⟨V3.zero, V3.zero, V3.zero⟩ ∧ (plateDisk s).ident c!"s" ≠ (plateDisk s).ident c!"o" ∧
    (∃ text, ∃ doc : Doc F64, (plateDisk s).read c!"s" = some text ∧ parse text = .ok (some doc) ∧ ∃ pg ∈ doc.pages,
      ∃ name ms d₁ d₂ d₃ d₄ line, Drawable.draw name ms [d₁, d₂, d₃, d₄] line ∈ pg.draws ∧ d₁.kind = .rad ∧ d₂.kind = .dia ∧ d₃.kind = .dim ∧ d₄.kind = .angle) ∧
    (∀ text (doc : Doc F64), (plateDisk s).read c!"s" = some text → parse text = .ok (some doc) →
      (∀ m ∈ doc.models, ∀ ps, Places flEnv.loadPath m.source ps → ∀ p ∈ ps, (plateDisk s).ident p ≠ (plateDisk s).ident c!"o") ∧
      SaneModels 4 flEnv.loadPath (plateDisk s) doc.models ∧ ∀ pg ∈ doc.pages, (∀ t, titled pg.metas t → t.length ≤ 2 ^ 32) ∧
        (∀ s ms line, Drawable.text s ms line ∈ pg.draws → s.length < 2 ^ 32) ∧
        ∀ name ms dims line, Drawable.draw name ms dims line ∈ pg.draws → Drawing flEnv (plateDisk s) doc.models (2 ^ 4) (1 / 2 ^ 50) name ms dims) ∧
    OneLine flEnv.name ∧ OneLine c!"s" ∧ OneLine flEnv.now ∧ (mainRun flEnv (plateDisk s) c!"s" c!"o").1 = .ok 0 := by
  obtain ⟨s, l, l', l'', l''', a, b, c, hp⟩ := plate_script
  have hread : (plateDisk s).read c!"s" = some s := rfl
  refine ⟨s, insSorter_ok, rfl, (by decide : (1 : ℕ) ≠ 2), ⟨s, _, rfl, hp, _, List.mem_singleton.2 rfl,
    _, _, _, _, _, _, _, List.mem_singleton.2 rfl, rfl, rfl, rfl, rfl⟩, ?_,
    by unfold OneLine; decide, by unfold OneLine; decide, by unfold OneLine; decide, ?_⟩
  · intro text doc ht hd
    rw [hread] at ht; cases ht
    rw [hp] at hd; cases hd
    refine ⟨?_, fl_saneModels_of (plateDisk s) rfl plate_sane a, ?_⟩
    · intro m hm ps hps p hpp
      simp only [List.mem_singleton] at hm; subst hm
      rw [paper_places ps hps, List.mem_singleton] at hpp
      subst hpp
      exact (by decide : (3 : ℕ) ≠ 2)
    · intro pg hpg
      simp only [List.mem_singleton] at hpg; subst hpg
      refine ⟨?_, by simp, ?_⟩
      · intro t ht
        simp [titled, look] at ht
        subst ht; simp
      · intro name ms dims line h
        rw [List.mem_singleton] at h
        cases h
        exact (plate_drawing (plateDisk s) rfl l l' l'' l''' a b).1
  · obtain ⟨r, hr, hok⟩ := plate_run ((plateDisk s).write c!"o" []) rfl hp
    have hread : ((plateDisk s).write c!"o" []).read c!"s" = some s := rfl
    have e1 : (plateDisk s).ident c!"s" ≠ (plateDisk s).ident c!"o" := (by decide : (1 : ℕ) ≠ 2)
    unfold mainRun
    rw [if_neg (by decide), if_neg (by decide), if_neg (by simp [plateDisk])]
    simp only [hread, hr, hok, if_true]

end S2P
