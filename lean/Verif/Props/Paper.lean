import Verif.Lemmas.Paper
import Verif.Props.StlRoundTrip
import Verif.Props.Round

set_option linter.unusedSectionVars false
set_option linter.unusedVariables false
set_option linter.unusedSimpArgs false

/-! # C72: what is on paper is the model -/

namespace S2P
open PS

/-- **C72.** If a conversion succeeds, what it writes, run as a PostScript program, puts one sheet after the other on paper, one for each page of the
script.  On each, nothing of the models is missing, whatever dimensions there are; and if there are no dimensions, nothing is added. -/
theorem C72_paper (F : Fonts) (E : Env (Ext ℝ)) (hS : SortOK E.sorter) (hE : FormatsPlain E) (hJ : E.NotAView) (w : World) (src script : Str)
    (r : RunRes) (h : scriptToPS E w src script = .ok r) (hok : r.ok = true)
    (hd : ∀ doc : Doc (Ext ℝ), parse script = .ok (some doc) → PlainDias doc)
    (ht : ∀ (doc : Doc (Ext ℝ)) fs, parse script = .ok (some doc) → List.Forall₂ (Loads E.loadPath w) doc.models fs →
      ∀ pg ∈ doc.pages, ∀ y ∈ pg.draws, y.Tame E (List.zipWith (fun m f => (m.name, some f)) doc.models fs))
    (h1 : OneLine E.name) (h2 : OneLine src) (h3 : OneLine E.now) :
    ∃ (doc : Doc (Ext ℝ)) (sheets : List (List Mark)), parse script = .ok (some doc) ∧
      (doc.models.map (fun m => m.name)).Nodup ∧ Paints F r.out sheets.flatten ∧
      List.Forall₂ (fun pg P => NothingMissing E.loadPath w doc.models pg P ∧
        ((∀ y ∈ pg.draws, y.Plain) → NothingAdded E.loadPath w doc.models pg P)) doc.pages sheets := by
  obtain ⟨doc, fs, outs, ms, hm, hp, hpp⟩ := C35_run F E hS hE hJ w src script r h hok hd ht h1 h2 h3
  obtain ⟨sheets, rfl, hsh⟩ := paints_sheets F E _ outs 1 ms hpp
  obtain ⟨doc', -, -, hp', hnd, -⟩ := (C48_all_or_nothing E w src script r h).2.1 hok
  rw [hm.1] at hp'; injection hp' with hp'; injection hp' with hp'; subst hp'
  refine ⟨doc, sheets, hm.1, hnd, hp, ?_⟩
  have hM := zip_made _ w _ _ hm.2.1
  have hfin : ∀ pg ∈ doc.pages, ∀ y ∈ pg.draws, y.IsFin := parse_isFin script doc hm.1
  have htame := ht doc fs hm.1 hm.2.1
  have hl := find_loads _ w _ _ hm.2.1
  have h4 := hm.2.2
  clear hpp hp hd ht hm hnd
  generalize hn : doc.pages.length = n at hsh
  clear hn
  generalize doc.pages = pgs at h4 hfin htame
  generalize (List.zipWith (fun (m : ModelN) f => (m.name, some f)) doc.models fs) = stl at *
  induction h4 generalizing sheets with
  | nil => cases hsh; exact .nil
  | @cons pg o pgs outs ho _ ih =>
    cases hsh with
    | @cons _ P _ sheets hP hsh =>
      refine .cons ?_ (ih sheets hsh (fun pg hpg => hfin pg (List.mem_cons_of_mem _ hpg)) (fun pg hpg => htame pg (List.mem_cons_of_mem _ hpg)))
      obtain ⟨g, hg, gok, gp⟩ := ho
      obtain ⟨cs, t, k1, k2, k3⟩ := C46_title E stl pg g hg
      obtain ⟨cs', k1', -, k3'⟩ := C58_page E stl pg g hg
      have hall : ∀ c ∈ cs, c.1 = true := by
        have : cs' = cs := ok_unique _ _ _ _ k1' k1
        rw [← this]
        exact (k3'.1 gok).2.2
      rw [gp] at k3
      injection k3 with k3 _
      obtain ⟨i, mt, ma, ml, rfl, ft, fa, fl⟩ := hP
      have draw : ∀ c d, d ∈ pg.draws → c ∈ cs → content E stl d = .ok c → c.1 = true := fun c _ _ hc _ => hall c hc
      have hfin' := hfin pg List.mem_cons_self
      have htame' := htame pg List.mem_cons_self
      constructor
      · intro name ms dims line hmem
        obtain ⟨c, hcs, hc⟩ := forall₂_mem k1 hmem
        obtain ⟨file, ts, k, off, ⟨en, e1, e2⟩, d1, d2, -⟩ := draw_ink E hS hJ stl hM name ms dims line (hfin' _ hmem).1 (htame' _ hmem) c hc (hall c hcs)
        obtain ⟨m, m1, m2, m3⟩ := hl name en e1 file e2
        refine ⟨m, m1, file, ts, k, off, m2, m3, d1, ?_⟩
        intro e he t t0 t1
        have inPage : ∀ l, l ∈ c.2.1.lines → ∃ s ∈ ml, PaintsLine l s := by
          intro l hl
          have : l ∈ o.lines := by
            rw [k3]
            exact List.mem_append_left _ ((mem_sum_lines _).2 ⟨c.2.1, List.mem_map.2 ⟨c, hcs, rfl⟩, hl⟩)
          exact forall₂_mem fl this
        rcases d2 e he t t0 t1 with ⟨u0, u1, h1, h2, h3⟩ | h
        · left
          refine ⟨u0, u1, h1, h2, ?_⟩
          rcases h3 with h3 | h3
          · obtain ⟨s, s1, s2⟩ := inPage _ h3
            exact ⟨s, by simp [s1], Or.inl s2⟩
          · obtain ⟨s, s1, s2⟩ := inPage _ h3
            exact ⟨s, by simp [s1], Or.inr s2⟩
        · exact Or.inr h
      · intro hplain
        refine ⟨t, k2, ?_⟩
        intro path hpath
        have noarc : o.arcs = [] := by
          rw [k3]
          simp only [OutPage.app, List.append_nil]
          rw [List.eq_nil_iff_forall_not_mem]
          intro a ha
          obtain ⟨Q, hQ, ha⟩ := (mem_sum_arcs _).1 ha
          obtain ⟨c, hc, rfl⟩ := List.mem_map.1 hQ
          obtain ⟨d, hd, hdc⟩ := forall₂_right k1 c hc
          cases d with
          | text s ms l => rw [(text_ink E stl s ms l (hfin' _ hd) c hdc).2] at ha; cases ha
          | draw n ms dims l =>
            obtain ⟨_, _, _, _, -, -, -, d3⟩ := draw_ink E hS hJ stl hM n ms dims l (hfin' _ hd).1 (htame' _ hd) c hdc (hall c hc)
            rw [(d3 (hplain _ hd).1).1] at ha; cases ha
        have hma : ma = [] := by rw [noarc] at fa; cases fa; rfl
        have hmt : Mark.stroke path ∉ mt := by
          intro hin
          obtain ⟨t, -, _, _, -, -, ht⟩ := forall₂_right ft _ hin
          cases ht
        subst hma
        simp only [List.append_assoc, List.mem_append, List.mem_cons, List.not_mem_nil, or_false, false_or, reduceCtorEq] at hpath
        rcases hpath with h | h | h | h
        · exact Or.inl h
        · cases hcl : cornerLabel E i n <;> rw [hcl] at h <;> simp at h
        · exact absurd h hmt
        · right
          obtain ⟨l, hl', hls⟩ := forall₂_right fl _ h
          rw [k3] at hl'
          simp only [OutPage.app, List.mem_append, List.mem_cons, List.not_mem_nil, or_false] at hl'
          rcases hl' with hl' | rfl | rfl
          · right
            obtain ⟨Q, hQ, ha⟩ := (mem_sum_lines _).1 hl'
            obtain ⟨c, hc, rfl⟩ := List.mem_map.1 hQ
            obtain ⟨d, hd, hdc⟩ := forall₂_right k1 c hc
            cases d with
            | text s ms l => rw [(text_ink E stl s ms l (hfin' _ hd) c hdc).1] at ha; cases ha
            | draw name ms dims line =>
              obtain ⟨file, ts, k, off, ⟨en, e1, e2⟩, d1, -, d3⟩ := draw_ink E hS hJ stl hM name ms dims line (hfin' _ hd).1 (htame' _ hd) c hdc (hall c hc)
              obtain ⟨e, t, u, j1, j2, j3, j4, rfl, j6⟩ := (d3 (hplain _ hd).1).2 l ha
              obtain ⟨m, m1, m2, m3⟩ := hl name en e1 file e2
              exact ⟨name, ms, dims, line, hd, m, m1, file, ts, k, off, m2, m3, d1, e, t, u, j1, j2, j3, j4, hls, j6⟩
          · exact Or.inl (Or.inl hls)
          · exact Or.inl (Or.inr hls)

/-- **C72**, of the program: after exit status 0 the output file holds a PostScript program that puts one sheet on paper for each page of the script, and
if the script has no dimensions, on each sheet nothing is missing and nothing is added.  (The output is neither the script nor a model: C49.) -/
theorem C72_program (F : Fonts) (E : Env (Ext ℝ)) (hS : SortOK E.sorter) (hE : FormatsPlain E) (hJ : E.NotAView) (w : World) (script output : Str)
    (hs : w.ident script ≠ w.ident output)
    (hm : ∀ text (doc : Doc (Ext ℝ)), w.read script = some text → parse text = .ok (some doc) → ∀ m ∈ doc.models, ∀ ps, Places E.loadPath m.source ps →
      ∀ p ∈ ps, w.ident p ≠ w.ident output)
    (hp : ∀ text (doc : Doc (Ext ℝ)), w.read script = some text → parse text = .ok (some doc) → ∀ pg ∈ doc.pages, ∀ y ∈ pg.draws, y.Plain)
    (h1 : OneLine E.name) (h2 : OneLine script) (h3 : OneLine E.now) (h0 : (mainRun E w script output).1 = .ok 0) :
    ∃ (text out : Str) (doc : Doc (Ext ℝ)) (sheets : List (List Mark)), w.read script = some text ∧ parse text = .ok (some doc) ∧
      (doc.models.map (fun m => m.name)).Nodup ∧ (mainRun E w script output).2.read output = some out ∧ Paints F out sheets.flatten ∧
      List.Forall₂ (fun pg P => NothingMissing E.loadPath w doc.models pg P ∧ NothingAdded E.loadPath w doc.models pg P) doc.pages sheets := by
  obtain ⟨-, -, -, text, r, k1, k2, k3, -, k4⟩ := (C49_exit_partial E w script output hs hm).1.1 h0
  obtain ⟨doc, sheets, j1, j2, j3, j4⟩ := C72_paper F E hS hE hJ w script text r k2 k3
    (fun doc hd pg hpg y hy => (plain_tame E [] y (hp text doc k1 hd pg hpg y hy)).2)
    (fun doc fs hd _ pg hpg y hy => (plain_tame E _ y (hp text doc k1 hd pg hpg y hy)).1) h1 h2 h3
  refine ⟨text, r.out, doc, sheets, k1, j1, j2, k4, j3, ?_⟩
  have hall := hp text doc k1 j1
  clear * - j4 hall
  generalize doc.pages = pgs at *
  induction j4 with
  | nil => exact .nil
  | cons h _ ih =>
    exact .cons ⟨h.1, h.2 (hall _ List.mem_cons_self)⟩ (ih fun pg hpg => hall pg (List.mem_cons_of_mem _ hpg))

/-! ## The premises occur -/

def num (m : Nat) : Numeral := decNumeral false m 0

/-- a triangle -/
def paperTri : TriText where
  n := ⟨num 0, num 0, num 1⟩
  a := ⟨num 0, num 0, num 0⟩
  b := ⟨num 4, num 0, num 0⟩
  c := ⟨num 0, num 3, num 0⟩
  ind _ := 0
  gap := 0

/-- the script is file 1, the output file 2, the model file 3 -/
def paperDisk : World where
  ident p := if p = c!"s" then 1 else if p = c!"o" then 2 else if p = c!"/x" then 3 else 0
  data i := if i = 1 then some c!"load m=\"/x\";page{draw m{}}" else if i = 3 then some (stlText c!"p" [paperTri]) else none
  canWrite i := i == 2

theorem num_denotes (a b c : Nat) : (⟨num a, num b, num c⟩ : Num3).Wf ∧ (⟨num a, num b, num c⟩ : Num3).Denotes (V3.fin (⟨a, b, c⟩ : V3 ℝ)) := by
  have key : ∀ m, FP.ofDec64 (α := Ext ℝ) (num m).value = some (Ext.fin (m : ℝ)) := by
    intro m
    rw [num, (C17_decimals false m 0).2]
    simp [FP.ofDec64]
  exact ⟨⟨(C17_decimals _ _ _).1, (C17_decimals _ _ _).1, (C17_decimals _ _ _).1⟩, key a, key b, key c⟩

/-- the shape of a script that loads one model and draws it on its only page, asking for nothing special -/
def oneDraw (o : Except Abort (Option (Doc (Ext ℝ)))) : Bool :=
  match o with
  | .ok (some ⟨[⟨n, s, _⟩], [⟨[], [.draw n' [] [] _], _⟩]⟩) => n = c!"m" && s = c!"/x" && n' = c!"m"
  | _ => false

theorem paper_doc : ∃ (doc : Doc (Ext ℝ)) (a b c : Nat), parse c!"load m=\"/x\";page{draw m{}}" = .ok (some doc) ∧
    doc = ⟨[⟨c!"m", c!"/x", a⟩], [⟨[], [.draw c!"m" [] [] b], c⟩]⟩ := by
  have h : oneDraw (parse c!"load m=\"/x\";page{draw m{}}") = true := by decide +kernel
  unfold oneDraw at h
  split at h
  · rename_i heq
    simp only [Bool.and_eq_true, decide_eq_true_eq] at h
    obtain ⟨⟨rfl, rfl⟩, rfl⟩ := h
    exact ⟨_, _, _, _, heq, rfl⟩
  · cases h

theorem paper_file : ∃ (f : STLFile (Ext ℝ)) (T : Tri ℝ), make (stlText c!"p" [paperTri]) = .ok (some f) ∧ f.facets = [T.fin] ∧ 0 < T.n.z := by
  obtain ⟨N, e0, e2, r, h1, -, -, -, -, ⟨k, hk, hN⟩, hpos, -, -, -, hor⟩ := C16_facet ⟨((0 : Nat) : ℝ), ((0 : Nat) : ℝ), ((1 : Nat) : ℝ)⟩
    ⟨((0 : Nat) : ℝ), ((0 : Nat) : ℝ), ((0 : Nat) : ℝ)⟩ ⟨((4 : Nat) : ℝ), ((0 : Nat) : ℝ), ((0 : Nat) : ℝ)⟩
    ⟨((0 : Nat) : ℝ), ((3 : Nat) : ℝ), ((0 : Nat) : ℝ)⟩ (by simp [V3.cross])
  have hz : 0 < N.z := by
    have hpos' : 0 ≤ N.z := by simpa [V3.dot] using hpos
    rcases hor with ⟨rfl, rfl⟩ | ⟨rfl, rfl⟩
    · have := congrArg V3.z hN
      simp [V3.cross, V3.smul] at this
      nlinarith
    · have := congrArg V3.z hN
      simp [V3.cross, V3.smul] at this
      nlinarith
  obtain ⟨f, hf, hv⟩ := C17_round_trip (α := Ext ℝ) convOk_ext c!"p" (by decide) [paperTri]
    [(V3.fin ⟨((0 : Nat) : ℝ), ((0 : Nat) : ℝ), ((1 : Nat) : ℝ)⟩, V3.fin ⟨((0 : Nat) : ℝ), ((0 : Nat) : ℝ), ((0 : Nat) : ℝ)⟩,
      V3.fin ⟨((4 : Nat) : ℝ), ((0 : Nat) : ℝ), ((0 : Nat) : ℝ)⟩, V3.fin ⟨((0 : Nat) : ℝ), ((3 : Nat) : ℝ), ((0 : Nat) : ℝ)⟩)]
    (.cons ⟨(num_denotes 0 0 1).1, (num_denotes 0 0 0).1, (num_denotes 4 0 0).1, (num_denotes 0 3 0).1, (num_denotes 0 0 1).2, (num_denotes 0 0 0).2,
      (num_denotes 4 0 0).2, (num_denotes 0 3 0).2⟩ .nil) (by simp [V3.eqv, V3.fin, V3.map, V3.zero])
  refine ⟨f, ⟨N, e0, ⟨((4 : Nat) : ℝ), ((0 : Nat) : ℝ), ((0 : Nat) : ℝ)⟩, e2, r⟩, hf, ?_, hz⟩
  generalize f.facets = fs at hv
  cases hv with
  | cons h t =>
    cases t
    rw [h1] at h
    injection h with h
    rw [← h]

theorem paper_places (ps) (h : Places rEnv.loadPath c!"/x" ps) : ps = [c!"/x"] := by
  rcases h with ⟨-, rfl⟩ | ⟨h, -⟩
  · rfl
  · exact absurd rfl h

theorem paper_loads (w : World) (hw : w.read c!"/x" = some (stlText c!"p" [paperTri])) (m : ModelN) (hm : m.source = c!"/x") (f : STLFile (Ext ℝ))
    (hf : make (stlText c!"p" [paperTri]) = .ok (some f)) : Loads rEnv.loadPath w m f := by
  refine ⟨[c!"/x"], _, Or.inl ⟨by rw [hm]; rfl, by rw [hm]⟩, ⟨[], c!"/x", [], rfl, by simp, hw⟩, hf⟩

theorem paper_read : paperDisk.read c!"s" = some c!"load m=\"/x\";page{draw m{}}" := rfl

theorem paper_hyps : paperDisk.ident c!"s" ≠ paperDisk.ident c!"o" ∧
    (∀ text (doc : Doc (Ext ℝ)), paperDisk.read c!"s" = some text → parse text = .ok (some doc) → ∀ m ∈ doc.models, ∀ ps, Places rEnv.loadPath m.source ps →
      ∀ p ∈ ps, paperDisk.ident p ≠ paperDisk.ident c!"o") ∧
    (∀ text (doc : Doc (Ext ℝ)), paperDisk.read c!"s" = some text → parse text = .ok (some doc) → ∀ pg ∈ doc.pages, ∀ y ∈ pg.draws, y.Plain) := by
  obtain ⟨d, a, b, c, hp, rfl⟩ := paper_doc
  refine ⟨by decide, ?_, ?_⟩
  · intro text doc ht hd m hm ps hps p hpp
    rw [paper_read] at ht; cases ht
    rw [hp] at hd; cases hd
    simp only [List.mem_singleton] at hm; subst hm
    rw [paper_places ps hps, List.mem_singleton] at hpp
    subst hpp; decide
  · intro text doc ht hd pg hpg y hy
    rw [paper_read] at ht; cases ht
    rw [hp] at hd; cases hd
    simp only [List.mem_singleton] at hpg; subst hpg
    simp only [List.mem_singleton] at hy; subst hy
    exact ⟨rfl, by simp⟩

theorem paper_content : ∃ (f : STLFile (Ext ℝ)) (T : Tri ℝ), make (stlText c!"p" [paperTri]) = .ok (some f) ∧ f.facets = [T.fin] ∧ 0 < T.n.z ∧
    Models.Made [(c!"m", some f)] ∧ ∀ b, ∃ c, content rEnv [(c!"m", some f)] (.draw c!"m" [] [] b) = .ok c ∧ c.1 = true := by
  obtain ⟨f, T, hf, hT, hz⟩ := paper_file
  have hM : Models.Made [(c!"m", some f)] := by
    intro e he
    simp only [List.mem_singleton] at he
    subst he
    exact ⟨f, rfl, make_made _ f hf⟩
  refine ⟨f, T, hf, hT, hz, hM, fun b => ?_⟩
  obtain ⟨c, hc⟩ := content_ok rEnv insSorter_ok rEnv_notAView [(c!"m", some f)] hM (.draw c!"m" [] [] b) ⟨by simp, by simp⟩ (by
    intro m hm; simp at hm)
  refine ⟨c, hc, ?_⟩
  obtain ⟨proj, ls, hd⟩ := drawn_exists rEnv insSorter_ok [(c!"m", some f)] c!"m" [] (by simp) (by simp) (1, 1) rfl matZP rfl _ rfl f ⟨_, rfl, rfl⟩
    (make_made _ f hf)
  rcases draw_sum _ _ _ _ _ _ c hc with ⟨-, -, -, h⟩ | ⟨_, _, _, _, _, _, cs, -, hcs, -, h, -⟩
  · exact absurd ⟨_, _, _, _, _, _, hd⟩ h
  · cases hcs
    exact h.2 ⟨by simp, by simp⟩

/-- a script that shows the model of one file on one page succeeds if the drawing does -/
theorem one_run (script : Str) (ms : List (Meta (Ext ℝ))) (dims : List (DimN (Ext ℝ))) (a b c : Nat)
    (hp : parse script = .ok (some ⟨[⟨c!"m", c!"/x", a⟩], [⟨[], [.draw c!"m" ms dims b], c⟩]⟩)) (w : World) (hw : w.read c!"/x" = some (stlText c!"p" [paperTri])) (f : STLFile (Ext ℝ))
    (hf : make (stlText c!"p" [paperTri]) = .ok (some f))
    (hcon : ∃ c, content rEnv [(c!"m", some f)] (.draw c!"m" ms dims b) = .ok c ∧ c.1 = true) :
    ∃ r, scriptToPS rEnv w c!"s" script = .ok r ∧ r.ok = true := by
  have hrun : ∃ r, scriptToPS rEnv w c!"s" script = .ok r := by
    apply scriptToPS_ok
    · intro a h; rw [hp] at h; cases h
    · intro doc hd
      have hd' := hd
      rw [hp] at hd; cases hd
      cases hl : loadFiles rEnv w [⟨c!"m", c!"/x", a⟩] with
      | error e =>
        exfalso
        obtain ⟨m, hm, ps, x, p1, ⟨u, p, v, q1, q2, q3⟩, hx⟩ := C47_abort rEnv w _ e hl
        simp only [List.mem_singleton] at hm; subst hm
        rw [paper_places ps p1] at q1
        have : p = c!"/x" := by
          have : p ∈ u ++ p :: v := by simp
          rw [← q1] at this
          simpa using this
        subst this
        have e : x = stlText c!"p" [paperTri] := by
          rw [hw] at q3; cases q3; rfl
        rw [e, hf] at hx; cases hx
      | ok l =>
        refine ⟨l, rfl, fun hk pg hpg x hx => ?_⟩
        exact content_ok rEnv insSorter_ok rEnv_notAView l.stl (loaded_made rEnv w _ l hl hk) x (parse_isFin _ _ hd' pg hpg x hx)
          (parse_atLoc _ _ hd' pg hpg x hx)
  obtain ⟨r, hr⟩ := hrun
  have hload := paper_loads w hw ⟨c!"m", c!"/x", a⟩ rfl f hf
  have hok : r.ok = true := by
    rw [(C48_all_or_nothing rEnv w _ _ r hr).1]
    obtain ⟨cc, hc, hc1⟩ := hcon
    obtain ⟨g, hg⟩ := generatePages_ok rEnv [(c!"m", some f)] ⟨[], [⟨[], [.draw c!"m" ms dims b], c⟩]⟩ [] (by
      intro pg hpg x hx
      simp only [List.mem_singleton] at hpg; subst hpg
      simp only [List.mem_singleton] at hx; subst hx
      exact ⟨cc, hc⟩)
    obtain ⟨cs, k1, ⟨t, -, k2⟩, k3⟩ := C58_page rEnv [(c!"m", some f)] ⟨[], [.draw c!"m" ms dims b], c⟩ g hg
    have gok : g.ok = true := by
      rw [k3]
      refine ⟨⟨by simp, by simp, by simp⟩, by simp [nameIsString, look], ?_⟩
      intro c' hc'
      obtain ⟨d, hd, e⟩ := forall₂_right k1 c' hc'
      simp only [List.mem_singleton] at hd; subst hd
      rw [hc] at e; cases e; exact hc1
    exact ⟨_, _, [f], _, hp, by simp, .cons hload .nil, .cons ⟨g, hg, gok, k2⟩ .nil, rfl⟩
  exact ⟨r, hr, hok⟩

theorem paper_run (w : World) (hw : w.read c!"/x" = some (stlText c!"p" [paperTri])) (f : STLFile (Ext ℝ))
    (hf : make (stlText c!"p" [paperTri]) = .ok (some f))
    (hcon : ∀ b, ∃ c, content rEnv [(c!"m", some f)] (.draw c!"m" [] [] b) = .ok c ∧ c.1 = true) :
    ∃ r, scriptToPS rEnv w c!"s" c!"load m=\"/x\";page{draw m{}}" = .ok r ∧ r.ok = true := by
  obtain ⟨d, a, b, c, hp, rfl⟩ := paper_doc
  exact one_run _ _ _ a b c hp w hw f hf (hcon b)

/-- a run of the program that meets the premises of `C72_program`, and in which there is an edge to be drawn -/
example : SortOK rEnv.sorter ∧ FormatsPlain rEnv ∧ rEnv.NotAView ∧ OneLine rEnv.name ∧ OneLine c!"s" ∧ OneLine rEnv.now ∧
    (mainRun rEnv paperDisk c!"s" c!"o").1 = .ok 0 ∧
    ∃ (f : STLFile (Ext ℝ)) (ts : List (Tri ℝ)) (k : ℝ) (off : V2 ℝ) (e : Edge ℝ), (∀ a, Loads rEnv.loadPath paperDisk ⟨c!"m", c!"/x", a⟩ f) ∧
      Projects f [] ts k off ∧ Sharp ts e := by
  obtain ⟨f, T, hf, hT, hz, hM, hcon⟩ := paper_content
  refine ⟨insSorter_ok, rEnv_plain, rEnv_notAView, by unfold OneLine; decide, by unfold OneLine; decide, by unfold OneLine; decide, ?_, ?_⟩
  · obtain ⟨r, hr, hok⟩ := paper_run (paperDisk.write c!"o" []) rfl f hf hcon
    have hread : (paperDisk.write c!"o" []).read c!"s" = some c!"load m=\"/x\";page{draw m{}}" := rfl
    unfold mainRun
    rw [if_neg (by decide), if_neg (by decide), if_neg (by decide)]
    simp only [hread, hr, hok, if_true]
  · obtain ⟨c, hc, hc1⟩ := hcon 0
    obtain ⟨file, ts, k, off, ⟨e, he, he'⟩, hproj, -⟩ := draw_ink rEnv insSorter_ok rEnv_notAView _ hM c!"m" [] [] 0 (by simp)
      (plain_tame _ _ (.draw c!"m" [] [] 0) ⟨rfl, by simp⟩).1 c hc hc1
    simp at he; subst he
    simp at he'; subst he'
    have hproj' := hproj
    obtain ⟨m, _, _, _, hv, -, -, ⟨all, e1, e2⟩, -⟩ := hproj'
    rw [hT] at e1
    obtain ⟨T', rfl⟩ : ∃ T', all = [T'] := by
      cases all with
      | nil => simp at e1
      | cons a all => cases all <;> simp at e1 <;> exact ⟨a, rfl⟩
    simp only [List.map_cons, List.map_nil, List.cons.injEq, and_true] at e1
    have := tri_fin_inj e1
    subst this
    have hm : m.fin = matZP := by
      simp [look, viewOf] at hv; exact hv.symm
    have hz' : 0 < (T.n.mulM m).z := by
      have e : (T.n.mulM m).fin = T.n.fin := by
        rw [← V3.fin_mulM, hm]
        ext <;> simp [V3.mulM, matZP, ptX, ptY, ptZ, V3.map]
      have := congrArg V3.z e
      simp [V3.map] at this
      rw [this]; exact hz
    have hts : ts = [T.seenIn m] := by
      rw [List.map_singleton, List.filter_cons_of_pos (by rw [decide_eq_true_iff]; exact hz')] at e2
      exact List.perm_singleton.1 e2
    subst hts
    refine ⟨f, _, k, off, ((T.seenIn m).a, (T.seenIn m).b), fun a => paper_loads paperDisk rfl _ rfl f hf, hproj, ⟨T.seenIn m, by simp, ?_⟩, ?_⟩
    · simp [Tri.HasSide]
    · intro f g h
      have := h.length_le
      simp at this

end S2P
