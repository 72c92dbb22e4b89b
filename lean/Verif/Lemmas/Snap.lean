import Verif.Spec.Snap
import Verif.Lemmas.Ink
import Verif.Props.Labels
import Verif.Props.Circle

set_option linter.unusedSectionVars false
set_option linter.unusedVariables false
set_option linter.unusedSimpArgs false

/-! # Points picked by `near` -/

namespace S2P

/-- the points of a view are the corners seen -/
theorem points_seen (S : Sorter) (hS : SortOK S) (file proj : STLFile (Ext ℝ)) (hmade : ∀ f ∈ file.facets, f.Made) (r : M3 ℝ) (hr : IsRotation r)
    (ht : file.rotate r.fin = .ok proj) (ls : List (Line (Ext ℝ))) (hls : proj.cull.toLines S = .ok ls) :
    ∃ qs : List (V3 ℝ), proj.cull.points = qs.map V3.fin ∧ ∀ q, q ∈ qs ↔ ∃ v, SeenCorner r file v ∧ q = v.mulM r := by
  obtain ⟨ts, ⟨all, hall, hperm⟩, hts, -⟩ := view_ink S hS file proj hmade r hr ht ls hls
  obtain ⟨qs, hqs⟩ : ∃ qs : List (V3 ℝ), proj.cull.points = qs.map V3.fin := by
    have hall : ∀ p ∈ proj.cull.points, p.IsFin := by
      intro p hp
      obtain ⟨f, hf, h⟩ := (C18_points proj.cull (by
        intro f hf
        rw [hts] at hf
        obtain ⟨T, -, rfl⟩ := List.mem_map.1 hf
        exact ⟨V3.ok_fin _, V3.ok_fin _, V3.ok_fin _⟩)).1 p hp
      rw [hts] at hf
      obtain ⟨T, -, rfl⟩ := List.mem_map.1 hf
      rcases h with rfl | rfl | rfl
      · exact ⟨_, rfl⟩
      · exact ⟨_, rfl⟩
      · exact ⟨_, rfl⟩
    revert hall
    generalize proj.cull.points = l
    intro hall
    induction l with
    | nil => exact ⟨[], rfl⟩
    | cons p l ih =>
      obtain ⟨q, rfl⟩ := hall p (by simp)
      obtain ⟨cs, rfl⟩ := ih (fun p hp => hall p (by simp [hp]))
      exact ⟨q :: cs, rfl⟩
  refine ⟨qs, hqs, fun q => ?_⟩
  have h1 : q ∈ qs ↔ q.fin ∈ proj.cull.points := by
    rw [hqs, List.mem_map]
    constructor
    · intro h; exact ⟨q, h, rfl⟩
    · rintro ⟨p, hp, e⟩
      have : p = q := by simpa [V3.fin, V3.map, V3.ext_iff] using e
      rwa [← this]
  have h2 := (C18_points_finite proj.cull (by
    intro f hf
    rw [hts] at hf
    obtain ⟨T, -, rfl⟩ := List.mem_map.1 hf
    exact ⟨T.a, T.b, T.c, rfl, rfl, rfl⟩) q).1
  rw [h1, h2, hts]
  constructor
  · rintro ⟨f, hf, e⟩
    obtain ⟨T, hT, rfl⟩ := List.mem_map.1 hf
    have hT' := hperm.mem_iff.1 hT
    rw [List.mem_filter] at hT'
    obtain ⟨hT1, hT2⟩ := hT'
    obtain ⟨U, hU, rfl⟩ := List.mem_map.1 hT1
    have hU' : U.fin ∈ file.facets := by rw [hall]; exact List.mem_map_of_mem hU
    have hz : 0 < (U.n.mulM r).z := of_decide_eq_true hT2
    have inj : ∀ a b : V3 ℝ, a.fin = b.fin → a = b := by
      intro a b h; simpa [V3.fin, V3.map, V3.ext_iff] using h
    rcases e with e | e | e
    · exact ⟨U.a, ⟨U, hU', hz, by simp [Tri.corners]⟩, inj _ _ e⟩
    · exact ⟨U.b, ⟨U, hU', hz, by simp [Tri.corners]⟩, inj _ _ e⟩
    · exact ⟨U.c, ⟨U, hU', hz, by simp [Tri.corners]⟩, inj _ _ e⟩
  · rintro ⟨v, ⟨U, hU, hz, hv⟩, rfl⟩
    rw [hall] at hU
    obtain ⟨U', hU', e⟩ := List.mem_map.1 hU
    have e := tri_fin_inj e
    subst e
    refine ⟨(U'.seenIn r).fin, List.mem_map_of_mem (hperm.mem_iff.2 (List.mem_filter.2 ⟨List.mem_map_of_mem hU', decide_eq_true hz⟩)), ?_⟩
    simp only [Tri.corners, List.mem_cons, List.not_mem_nil, or_false] at hv
    rcases hv with rfl | rfl | rfl
    · exact Or.inl rfl
    · exact Or.inr (Or.inl rfl)
    · exact Or.inr (Or.inr rfl)

/-- what an expression without `center` evaluates to: a point that appears where the point it picks does -/
theorem invoke_picks {r : M3 ℝ} {file : STLFile (Ext ℝ)} {qs : List (V3 ℝ)} (hq : ∀ q, q ∈ qs ↔ ∃ v, SeenCorner r file v ∧ q = v.mulM r) :
    ∀ (e : Pt (Ext ℝ)) (junk : Nat → V3 (Ext ℝ)) (ret : V3 (Ext ℝ)), e.NearOnly → e.IsFin → ((e.rot r.fin).invoke junk (qs.map V3.fin) ret).1 = true →
      ∃ (v p : V3 ℝ), Picks r file e v ∧ ((e.rot r.fin).invoke junk (qs.map V3.fin) ret).2.1 = p.fin ∧ p.xy = (v.mulM r).xy
  | .val p l, junk, ret, _, hf, _ => by
    obtain ⟨a, rfl⟩ := hf
    exact ⟨a, a.mulM r, .literal a l, rfl, rfl⟩
  | .func n e l, junk, ret, ⟨hn, he⟩, hf, hok => by
    subst hn
    have hne : qs ≠ [] := by
      rintro rfl
      simp [Pt.rot, Pt.invoke] at hok
    have hsub := (C08_succeeds junk (qs.map V3.fin) (e.rot r.fin) l ret (by simpa using hne)).1
    have hok' : ((e.rot r.fin).invoke (fun n => junk (n + 1)) (qs.map V3.fin) (junk 0)).1 = true := by
      rw [← hsub]; exact hok
    obtain ⟨v, p, h1, h2, h3⟩ := invoke_picks hq e (fun n => junk (n + 1)) (junk 0) he hf hok'
    obtain ⟨q, k1, k2, k3⟩ := C08_near junk qs (e.rot r.fin) l ret p ((e.rot r.fin).invoke (fun n => junk (n + 1)) (qs.map V3.fin) (junk 0)).2.2 hne
      (by rw [← h2, ← hok'])
    have hx := congrArg V2.x h3
    have hy := congrArg V2.y h3
    simp only [V3.xy] at hx hy
    have hd : ∀ w : V3 ℝ, pageDist2 w p = pageDist2 w (v.mulM r) := by intro w; unfold pageDist2; rw [hx, hy]
    by_cases hp : p ∈ qs
    · obtain ⟨w, hw, e'⟩ := (hq p).1 hp
      refine ⟨w, p, .near e l v w h1 ⟨hw, fun u _ => ?_⟩, ?_, by rw [e']⟩
      · unfold seenDist2
        rw [← hd, ← hd, ← e']
        unfold pageDist2
        nlinarith [sq_nonneg ((u.mulM r).x - p.x), sq_nonneg ((u.mulM r).y - p.y)]
      · rw [← k2 hp]
        exact congrArg (fun x => x.2.1) k1
    · obtain ⟨q0, hq0, e, hmin⟩ := k3 hp
      obtain ⟨w, hw, e'⟩ := (hq q0).1 hq0
      refine ⟨w, q, .near _ l v w h1 ⟨hw, fun u hu => ?_⟩, congrArg (fun x => x.2.1) k1, by rw [e, e']; rfl⟩
      unfold seenDist2
      rw [← hd, ← hd, ← e']
      exact hmin _ ((hq _).2 ⟨u, hu, rfl⟩)

/-! ## Depth does not matter -/

/-- Along a direction square to the line of sight, what a linear dimension draws does not depend on how deep its points are. -/
theorem dimItems_flat (g : Ext ℝ → Str) (s : Ext ℝ) (u : V3 ℝ) (hu : u.z = 0) (a a' f f' t t' : V3 ℝ) (ha : a'.xy = a.xy) (hf : f'.xy = f.xy)
    (ht : t'.xy = t.xy) : dimItems g s a'.fin u.fin f'.fin t'.fin = dimItems g s a.fin u.fin f.fin t.fin := by
  obtain ⟨ux, uy, uz⟩ := u
  obtain ⟨ax, ay, az⟩ := a
  obtain ⟨ax', ay', az'⟩ := a'
  obtain ⟨fx, fy, fz⟩ := f
  obtain ⟨fx', fy', fz'⟩ := f'
  obtain ⟨tx, ty, tz⟩ := t
  obtain ⟨tx', ty', tz'⟩ := t'
  simp only [V3.xy, V2.mk.injEq] at ha hf ht hu
  obtain ⟨rfl, rfl⟩ := ha
  obtain ⟨rfl, rfl⟩ := hf
  obtain ⟨rfl, rfl⟩ := ht
  subst hu
  have e1 : (⟨ux, uy, 0⟩ : V3 ℝ).dot (⟨fx', fy', fz'⟩ - ⟨ax', ay', az'⟩) = (⟨ux, uy, 0⟩ : V3 ℝ).dot (⟨fx', fy', fz⟩ - ⟨ax', ay', az⟩) := by
    simp [V3.dot]
  have e2 : (⟨ux, uy, 0⟩ : V3 ℝ).dot (⟨tx', ty', tz'⟩ - ⟨ax', ay', az'⟩) = (⟨ux, uy, 0⟩ : V3 ℝ).dot (⟨tx', ty', tz⟩ - ⟨ax', ay', az⟩) := by
    simp [V3.dot]
  have hb : ∀ (p : V3 ℝ) (b c : Ext ℝ), p.fin.dot (⟨b, c, FP.lit 0⟩ : V3 (Ext ℝ)) = (Ext.fin p.x * b + Ext.fin p.y * c) + Ext.fin 0 := by
    intro p b c
    have : ∀ z : ℝ, (Ext.fin z * FP.lit 0 : Ext ℝ) = Ext.fin 0 := by intro z; simp
    simp only [V3.dot, V3.fin, V3.map]
    rw [this]
  have hl : ∀ (A : V3 ℝ) (k l : ℝ), (A + (⟨ux, uy, 0⟩ : V3 ℝ).smul k) - (A + (⟨ux, uy, 0⟩ : V3 ℝ).smul l) = (⟨ux, uy, 0⟩ : V3 ℝ).smul (k - l) := by
    intro A k l
    ext <;> simp [V3.smul] <;> ring
  unfold dimItems
  simp only [V3.fin_sub, V3.fin_dot, V3.fin_smul, V3.fin_add, e1, e2, hl, hb]
  rfl

/-! ## A dimension written out -/

theorem picks_literal {r : M3 ℝ} {file : STLFile (Ext ℝ)} {e : Pt (Ext ℝ)} {w : V3 ℝ} (h : Picks r file e w) : ∀ (u : V3 ℝ) (l : Nat), e = .val u.fin l → w = u := by
  cases h with
  | literal p l' =>
    intro u l he
    injection he with he
    simpa [V3.fin, V3.map, V3.ext_iff] using he
  | near => intro u l he; cases he

/-- a list of properties with the points they stand for written out -/
theorem metas_written {r : M3 ℝ} {file : STLFile (Ext ℝ)} {qs : List (V3 ℝ)} (hq : ∀ q, q ∈ qs ↔ ∃ v, SeenCorner r file v ∧ q = v.mulM r)
    (E : Env (Ext ℝ)) (v : Vis (Ext ℝ)) (hv : v.rotation = r.fin) (hp : v.points = qs.map V3.fin) (J : Str → Nat) :
    ∀ (ms : List (Meta (Ext ℝ))), (∀ m ∈ ms, m.val.IsFin) → (∀ m ∈ ms, ∀ e, m.val = .pt e → e.NearOnly ∧
      ((e.rot v.rotation).invoke E.junk v.points (E.junk (J m.name))).1 = true) →
      ∃ ms', List.Forall₂ (Meta.WrittenOut r file) ms ms' ∧ (∀ s, formatOf E s ms' = formatOf E s ms) ∧
        ∀ n p, pointOf E v (J n) ms n = some p → ∃ q w : V3 ℝ, p = q.fin ∧ pointOf E v (J n) ms' n = some (w.mulM r).fin ∧ q.xy = (w.mulM r).xy ∧
          ∀ m (u : V3 ℝ) l, look ms n = some m → m.val = .pt (.val u.fin l) → q = w.mulM r ∧ w = u
  | [], _, _ => ⟨[], .nil, fun _ => rfl, by simp [pointOf, look]⟩
  | m :: ms, hf, hi => by
    obtain ⟨ms', h1, h2, h3⟩ := metas_written hq E v hv hp J ms (fun x hx => hf x (List.mem_cons_of_mem _ hx)) (fun x hx => hi x (List.mem_cons_of_mem _ hx))
    have key : ∃ m', Meta.WrittenOut r file m m' ∧ (∀ f, m.val = .str f → m'.val = .str f) ∧ ((∀ f, m.val ≠ .str f) → ∀ f, m'.val ≠ .str f) ∧
        ((∀ e, m.val ≠ .pt e) → ∀ e, m'.val ≠ .pt e) ∧
        ∀ e, m.val = .pt e → ∃ (q w : V3 ℝ) (l : Nat), ((e.rot v.rotation).invoke E.junk v.points (E.junk (J m.name))).2.1 = q.fin ∧
          m'.val = .pt (.val w.fin l) ∧ q.xy = (w.mulM r).xy ∧ ∀ (u : V3 ℝ) l, e = .val u.fin l → q = w.mulM r ∧ w = u := by
      cases hval : m.val with
      | pt e =>
        obtain ⟨n1, n2⟩ := hi m List.mem_cons_self e hval
        have hfin := hf m List.mem_cons_self
        rw [hval] at hfin
        rw [hv, hp] at n2
        obtain ⟨w, q, k1, k2, k3⟩ := invoke_picks hq e E.junk (E.junk (J m.name)) n1 hfin n2
        refine ⟨⟨m.name, .pt (.val w.fin 0), m.line⟩, ⟨rfl, rfl, by rw [hval]; exact ⟨w, 0, k1, rfl⟩⟩, by simp, by simp, by simp, ?_⟩
        intro e' he'
        cases he'
        refine ⟨q, w, 0, by rw [hv, hp]; exact k2, rfl, k3, ?_⟩
        rintro u l rfl
        have e1 : w = u := picks_literal k1 u l rfl
        subst e1
        refine ⟨?_, rfl⟩
        simp only [Pt.rot, Pt.invoke, V3.fin_mulM] at k2
        have : ∀ a b : V3 ℝ, a.fin = b.fin → a = b := by
          intro a b h; simpa [V3.fin, V3.map, V3.ext_iff] using h
        exact (this _ _ k2).symm
      | _ => exact ⟨m, ⟨rfl, rfl, by rw [hval]⟩, by simp [hval], by simp [hval], by simp [hval], by simp⟩
    obtain ⟨m', k1, k2, k2', k2'', k3⟩ := key
    refine ⟨m' :: ms', .cons k1 h1, ?_, ?_⟩
    · intro s
      have hl : ∀ n, look (m' :: ms') n = if m.name = n then some m' else look ms' n := by
        intro n; simp only [look, List.find?_cons, k1.1]; by_cases h : m.name = n <;> simp [h]
      have hl' : ∀ n, look (m :: ms) n = if m.name = n then some m else look ms n := by
        intro n; simp only [look, List.find?_cons]; by_cases h : m.name = n <;> simp [h]
      unfold formatOf
      rw [hl, hl']
      by_cases h : m.name = c!"fmt"
      · rw [if_pos h, if_pos h]
        cases hval : m.val with
        | str f => simp only [k2 f hval, hval]
        | _ =>
          have := k2' (by simp [hval])
          dsimp only
          cases hval' : m'.val with
          | str f => exact absurd hval' (this f)
          | _ => simp only [hval, hval']
      · rw [if_neg h, if_neg h]
        exact h2 s
    · intro n p hpo
      have hl : look (m' :: ms') n = if m.name = n then some m' else look ms' n := by
        simp only [look, List.find?_cons, k1.1]; by_cases h : m.name = n <;> simp [h]
      have hl' : look (m :: ms) n = if m.name = n then some m else look ms n := by
        simp only [look, List.find?_cons]; by_cases h : m.name = n <;> simp [h]
      by_cases h : m.name = n
      · rw [if_pos h] at hl hl'
        subst h
        cases hval : m.val with
        | pt e =>
          obtain ⟨q, w, l, j1, j2, j3, j4⟩ := k3 e hval
          simp only [pointOf, hl', hval] at hpo
          rw [if_pos (hi m List.mem_cons_self e hval).2] at hpo
          injection hpo with hpo
          refine ⟨q, w, hpo.symm.trans j1, literal_point hv ⟨m', l, hl, j2⟩ _, j3, ?_⟩
          intro m0 u l0 hm0 hval0
          rw [hl'] at hm0
          cases hm0
          rw [hval] at hval0
          injection hval0 with hval0
          exact j4 u l0 hval0
        | _ => simp [pointOf, hl', hval] at hpo
      · rw [if_neg h] at hl hl'
        have e1 : pointOf E v (J n) (m :: ms) n = pointOf E v (J n) ms n := by simp only [pointOf, hl']
        have e2 : pointOf E v (J n) (m' :: ms') n = pointOf E v (J n) ms' n := by simp only [pointOf, hl]
        rw [e1] at hpo
        rw [e2, hl']
        exact h3 n p hpo

theorem written_names {r : M3 ℝ} {file : STLFile (Ext ℝ)} {ms ms' : List (Meta (Ext ℝ))} (h : List.Forall₂ (Meta.WrittenOut r file) ms ms') :
    ms'.map (fun m => m.name) = ms.map (fun m => m.name) := by
  induction h with
  | nil => rfl
  | cons h _ ih => simp only [List.map_cons, ih, h.1]

theorem exactly_names {ms ms' : List (Meta (Ext ℝ))} (h : ms'.map (fun m => m.name) = ms.map (fun m => m.name)) {req opt : List Str} (he : Exactly ms req opt) :
    Exactly ms' req opt := by
  have hmem : ∀ n, (∃ m ∈ ms', m.name = n) ↔ ∃ m ∈ ms, m.name = n := by
    intro n
    have : n ∈ ms'.map (fun m => m.name) ↔ n ∈ ms.map (fun m => m.name) := by rw [h]
    simpa using this
  obtain ⟨h1, h2, h3⟩ := he
  refine ⟨by rw [h]; exact h1, ?_, ?_⟩
  · intro m hm
    obtain ⟨m0, hm0, e⟩ := (hmem m.name).1 ⟨m, hm, rfl⟩
    rw [← e]; exact h2 m0 hm0
  · intro n hn
    exact (hmem n).2 (h3 n hn)

/-- An accepted dimension that may be written out, written out, draws the same. -/
theorem drawnItems_written {r : M3 ℝ} (hr : IsRotation r) {file : STLFile (Ext ℝ)} {qs : List (V3 ℝ)} (hq : ∀ q, q ∈ qs ↔ ∃ v, SeenCorner r file v ∧ q = v.mulM r)
    (E : Env (Ext ℝ)) (v : Vis (Ext ℝ)) (hv : v.rotation = r.fin) (hp : v.points = qs.map V3.fin) (d : DimN (Ext ℝ)) (hf : d.IsFin) (hd : d.Flat r)
    (hg : GoodDim d.kind d.metas) (P : OutPage (Ext ℝ)) (hP : drawnItems E v d.kind d.metas = some P) :
    ∃ d', d.WrittenOut r file d' ∧ GoodDim d'.kind d'.metas ∧ drawnItems E v d'.kind d'.metas = some P := by
  obtain ⟨kind, ms, line⟩ := d
  obtain ⟨hk, hn, hdir⟩ := hd
  dsimp only at *
  have hlook : ∀ (m : Meta (Ext ℝ)), m ∈ ms → (ms.map (fun m => m.name)).Nodup → look ms m.name = some m := by
    intro m hm hnd
    unfold look
    clear * - hm hnd
    induction ms with
    | nil => cases hm
    | cons x xs ih =>
      rw [List.map_cons, List.nodup_cons] at hnd
      rw [List.find?_cons]
      by_cases hx : x.name = m.name
      · rcases List.mem_cons.1 hm with rfl | hm
        · simp
        · exact absurd (List.mem_map.2 ⟨m, hm, hx.symm⟩) hnd.1
      · rcases List.mem_cons.1 hm with rfl | hm
        · exact absurd rfl hx
        · simp only [hx, decide_false]
          exact ih hm hnd.2
  have hev : ∀ (m : Meta (Ext ℝ)) (j : Nat) (p e), m ∈ ms → (ms.map (fun m => m.name)).Nodup → pointOf E v j ms m.name = some p → m.val = .pt e →
      ((e.rot v.rotation).invoke E.junk v.points (E.junk j)).1 = true := by
    intro m j p e hm hnd hpo he
    simp only [pointOf, hlook m hm hnd, he] at hpo
    by_contra hc
    rw [if_neg hc] at hpo
    cases hpo
  have hfmt : ∀ (m : Meta (Ext ℝ)) (s g e), m ∈ ms → (ms.map (fun m => m.name)).Nodup → formatOf E s ms = some g → m.name = c!"fmt" → m.val ≠ .pt e := by
    intro m s g e hm hnd hfo hname he
    have := hlook m hm hnd
    rw [hname] at this
    simp [formatOf, this, he] at hfo
  have circ : ∀ items, Exactly ms [c!"at", c!"dir", c!"center"] [c!"fmt"] → drawnItems.circ E v ms items = some P →
      ∃ ms', List.Forall₂ (Meta.WrittenOut r file) ms ms' ∧ drawnItems.circ E v ms' items = some P := by
    intro items hg hP
    simp only [drawnItems.circ, bind, Option.bind_eq_some_iff] at hP
    obtain ⟨a, ha, c, hc, u, hu, g, hgf, hlast⟩ := hP
    have hnd : (ms.map (fun m => m.name)).Nodup := hg.once
    let J : Str → Nat := fun n => if n = c!"at" then 0 else if n = c!"center" then 1 else 2
    obtain ⟨ms', w1, w2, w3⟩ := metas_written hq E v hv hp J ms hf (by
      intro m hm e he
      refine ⟨hn m hm e he, ?_⟩
      have := hg.known m hm
      simp only [List.cons_append, List.nil_append, List.mem_cons, List.not_mem_nil, or_false] at this
      rcases this with h | h | h | h
      · rw [h]; exact hev m 0 a e hm hnd (by rw [h]; exact ha) he
      · rw [h]; exact hev m 2 u e hm hnd (by rw [h]; exact hu) he
      · rw [h]; exact hev m 1 c e hm hnd (by rw [h]; exact hc) he
      · exact absurd he (hfmt m _ g e hm hnd hgf h))
    refine ⟨ms', w1, ?_⟩
    obtain ⟨a1, a2, rfl, a3, a4, -⟩ := w3 c!"at" a ha
    obtain ⟨u1, u2, rfl, u3, u4, -⟩ := w3 c!"dir" u hu
    obtain ⟨c1, c2, rfl, c3, c4, -⟩ := w3 c!"center" c hc
    have a3 : pointOf E v 0 ms' c!"at" = some (a2.mulM r).fin := a3
    have u3 : pointOf E v 2 ms' c!"dir" = some (u2.mulM r).fin := u3
    have c3 : pointOf E v 1 ms' c!"center" = some (c2.mulM r).fin := c3
    have hxy : ∀ p q : V3 ℝ, p.xy = q.xy → (V3.fin q).xy = (V3.fin p).xy := by
      intro p q h
      have hx := congrArg V2.x h
      have hy := congrArg V2.y h
      simp only [V3.xy] at hx hy
      simp only [V3.xy, V3.fin_x, V3.fin_y, hx, hy]
    simp only [drawnItems.circ, bind, a3, u3, c3, w2, hgf, Option.bind_some]
    rw [hxy _ _ a4, hxy _ _ u4, hxy _ _ c4]
    exact hlast
  cases kind with
  | angle => exact absurd rfl hk
  | dim =>
    simp only [drawnItems, bind, Option.bind_eq_some_iff] at hP
    obtain ⟨a, ha, u, hu, f, hfr, t, ht, g, hgf, hlast⟩ := hP
    have hnd : (ms.map (fun m => m.name)).Nodup := hg.once
    let J : Str → Nat := fun n => if n = c!"at" then 0 else if n = c!"dir" then 1 else if n = c!"from" then 2 else 3
    obtain ⟨ms', w1, w2, w3⟩ := metas_written hq E v hv hp J ms hf (by
      intro m hm e he
      refine ⟨hn m hm e he, ?_⟩
      have := hg.known m hm
      simp only [List.cons_append, List.nil_append, List.mem_cons, List.not_mem_nil, or_false] at this
      rcases this with h | h | h | h | h
      · rw [h]; exact hev m 0 a e hm hnd (by rw [h]; exact ha) he
      · rw [h]; exact hev m 1 u e hm hnd (by rw [h]; exact hu) he
      · rw [h]; exact hev m 2 f e hm hnd (by rw [h]; exact hfr) he
      · rw [h]; exact hev m 3 t e hm hnd (by rw [h]; exact ht) he
      · exact absurd he (hfmt m _ g e hm hnd hgf h))
    refine ⟨⟨.dim, ms', line⟩, ⟨rfl, rfl, w1⟩, exactly_names (written_names w1) hg, ?_⟩
    obtain ⟨a1, a2, rfl, a3, a4, -⟩ := w3 c!"at" a ha
    obtain ⟨u1, u2, rfl, u3, u4, u5⟩ := w3 c!"dir" u hu
    obtain ⟨f1, f2, rfl, f3, f4, -⟩ := w3 c!"from" f hfr
    obtain ⟨t1, t2, rfl, t3, t4, -⟩ := w3 c!"to" t ht
    obtain ⟨m, hm, hmn⟩ : ∃ m ∈ ms, m.name = c!"dir" := by
      exact hg.all c!"dir" (by simp)
    obtain ⟨x, l, hx1, hx2⟩ := hdir rfl m hm hmn
    obtain ⟨rfl, rfl⟩ := u5 m x l (by rw [← hmn]; exact hlook m hm hnd) hx1
    have a3 : pointOf E v 0 ms' c!"at" = some (a2.mulM r).fin := a3
    have u3 : pointOf E v 1 ms' c!"dir" = some (u2.mulM r).fin := u3
    have f3 : pointOf E v 2 ms' c!"from" = some (f2.mulM r).fin := f3
    have t3 : pointOf E v 3 ms' c!"to" = some (t2.mulM r).fin := t3
    simp only [drawnItems, bind, a3, u3, f3, t3, w2, hgf, Option.bind_some]
    split at hlast
    · cases hlast
    rename_i hz
    rw [if_neg hz, ← hlast]
    congr 1
    have hne : u2.mulM r ≠ ⟨0, 0, 0⟩ := by
      intro h
      rw [h] at hz
      exact hz (by simp [V3.eqv, V3.zero, V3.fin, V3.map])
    rw [normalized_real hne]
    exact dimItems_flat g v.scale _ (by simp [V3.sdiv, hx2]) _ _ _ _ _ _ a4.symm f4.symm t4.symm
  | dia =>
    obtain ⟨ms', w1, w2⟩ := circ _ hg hP
    exact ⟨⟨.dia, ms', line⟩, ⟨rfl, rfl, w1⟩, exactly_names (written_names w1) hg, w2⟩
  | rad =>
    obtain ⟨ms', w1, w2⟩ := circ _ hg hP
    exact ⟨⟨.rad, ms', line⟩, ⟨rfl, rfl, w1⟩, exactly_names (written_names w1) hg, w2⟩

end S2P
