import Verif.Lemmas.Sane
import Verif.Lemmas.Round
import Verif.Props.Blocks
import Verif.Props.Main
import Verif.Lemmas.RealSample

set_option linter.unusedSectionVars false
set_option linter.unusedVariables false
set_option linter.unusedSimpArgs false

/-! # C62: in floating-point arithmetic with rounding and overflow, a run finishes -/

namespace S2P

section
variable {α : Type} [FP α]

theorem generatePages_ok (E : Env α) (stl : Models α) (d : Doc α) (pages : List (OutPage α))
    (h : ∀ pg ∈ d.pages, ∀ x ∈ pg.draws, ∃ c, content E stl x = .ok c) : ∃ r, generatePages E stl d pages = .ok r := by
  cases hc : generatePages E stl d pages with
  | ok r => exact ⟨r, rfl⟩
  | error a =>
    exfalso
    have hg : ∃ a, genPages E stl d.pages pages.length (initVis E) = .error a := by
      unfold generatePages at hc
      simp only [bind, Except.bind] at hc
      cases hx : genPages E stl d.pages pages.length (initVis E) with
      | ok r => rw [hx] at hc; cases hc
      | error a => exact ⟨a, rfl⟩
    obtain ⟨pg, hpg, b, hb⟩ := ((genPages_each E stl d.pages _ _).1).mp hg
    have key : ∃ x ∈ pg.draws, ∃ a, content E stl x = .error a := by
      unfold onePage generatePages at hb
      simp only [genPages, bind, Except.bind, List.length_nil] at hb
      cases hx : genPage E stl (initVis E) (0 + 1) pg with
      | ok r => rw [hx] at hb; cases hb
      | error a =>
        obtain ⟨p, x, q, e, -, hcx⟩ := ((genPage_sum E stl pg _ _).1 a).mp hx
        exact ⟨x, by rw [e]; simp, a, hcx⟩
    obtain ⟨x, hx, a, hcx⟩ := key
    obtain ⟨c, hc'⟩ := h pg hpg x hx
    rw [hc'] at hcx; cases hcx

/-- a run finishes if the script can be read, the models can be loaded, and every block finishes -/
theorem scriptToPS_ok (E : Env α) (w : World) (src script : Str) (hp : ∀ a, parse (α := α) script ≠ .error a)
    (h : ∀ doc : Doc α, parse script = .ok (some doc) → ∃ l, loadFiles E w doc.models = .ok l ∧
      (l.ok = true → ∀ pg ∈ doc.pages, ∀ x ∈ pg.draws, ∃ c, content E l.stl x = .ok c)) : ∃ r, scriptToPS E w src script = .ok r := by
  unfold scriptToPS
  cases h1 : parse (α := α) script with
  | error a => exact absurd h1 (hp a)
  | ok o =>
    cases o with
    | none => exact ⟨_, rfl⟩
    | some doc =>
      simp only [bind, Except.bind]
      obtain ⟨l, hl, hc⟩ := h doc h1
      unfold docToPS
      simp only [bind, Except.bind, hl]
      cases hk : l.ok with
      | false => exact ⟨_, rfl⟩
      | true =>
        obtain ⟨g, hg⟩ := generatePages_ok E l.stl doc [] (hc hk)
        simp only [hg, Bool.not_true, Bool.false_eq_true, if_false]
        split_ifs <;> exact ⟨_, rfl⟩
end

/-! ## Exact arithmetic -/

/-- C59 for a whole run: a script that is read to its end and model files without short facets (C15) give a run that finishes. -/
theorem C59_run (E : Env (Ext ℝ)) (hS : SortOK E.sorter) (hJ : E.NotAView) (w : World) (src script : Str)
    (hp : ∀ a, parse (α := Ext ℝ) script ≠ .error a)
    (hw : ∀ doc : Doc (Ext ℝ), parse script = .ok (some doc) → ∀ m ∈ doc.models, ∀ ps content, Places E.loadPath m.source ps → FoundAt w ps content →
      ∀ ls, LinesOf content ls → NoShortFacet (Ext ℝ) ls) : ∃ r, scriptToPS E w src script = .ok r := by
  apply scriptToPS_ok E w src script hp
  intro doc hd
  cases hl : loadFiles E w doc.models with
  | error a =>
    exfalso
    obtain ⟨m, hm, ps, x, p1, p2, hx⟩ := C47_abort E w doc.models a hl
    have h3 := hw doc hd m hm ps x p1 p2 _ (linesOf_getLines x)
    obtain ⟨r, hr⟩ := noShort_make (α := Ext ℝ) convOk_ext h3
    rw [hr] at hx; cases hx
  | ok l =>
    refine ⟨l, rfl, fun hk pg hpg x hx => ?_⟩
    exact content_ok E hS hJ l.stl (loaded_made E w doc.models l hl hk) x (parse_isFin script doc hd pg hpg x hx) (parse_atLoc script doc hd pg hpg x hx)

/-! ## Rounded arithmetic -/

section
variable {α : Type} [FP α] [FPRound α]

/-- C62, rendering: in any arithmetic that rounds and overflows as IEEE 754 prescribes, a document read from a script is rendered to its end
if the corners of the models are of size at most 2^505 (about 10^152). -/
theorem C62_rendering_finishes (s : Str) (d : Doc α) (h : parse s = .ok (some d)) (E : Env α) (hS : SortOK E.sorter)
    (hJ : E.junkM = ⟨V3.zero, V3.zero, V3.zero⟩) (stl : Models α) (hM : stl.Bd 505) (pages : List (OutPage α)) :
    ∃ r, generatePages E stl d pages = .ok r :=
  generatePages_ok E stl d pages fun pg hpg x hx =>
    content_bd E hS hJ stl (le_refl _) hM x (parse_locBd s d h pg hpg x hx) (parse_atLoc s d h pg hpg x hx)

/-- C62, a whole run: whatever the script, if reading it does not end the program (C06) and the model files have no short facets (C15) and
no number larger than 2^505 on a vertex line, then the run finishes: no assertion fails and nothing undefined happens. -/
theorem C62_run (E : Env α) (hS : SortOK E.sorter) (hJ : E.junkM = ⟨V3.zero, V3.zero, V3.zero⟩) (w : World) (src script : Str)
    (hp : ∀ a, parse (α := α) script ≠ .error a)
    (hw : ∀ doc : Doc α, parse script = .ok (some doc) → SaneModels 505 E.loadPath w doc.models) : ∃ r, scriptToPS E w src script = .ok r := by
  apply scriptToPS_ok E w src script hp
  intro doc hd
  obtain ⟨l, hl, hb⟩ := sane_load (n := 505) (by norm_num) E w doc.models (hw doc hd)
  exact ⟨l, hl, fun hk pg hpg x hx =>
    content_bd E hS hJ l.stl (le_refl _) (hb hk) x (parse_locBd script doc hd pg hpg x hx) (parse_atLoc script doc hd pg hpg x hx)⟩

/-- C62, the program: with both options given, an output that can be written and a script that can be read and is another file, the exit status
is 0 or 1. -/
theorem C62_exit (E : Env α) (hS : SortOK E.sorter) (hJ : E.junkM = ⟨V3.zero, V3.zero, V3.zero⟩) (w : World) (script output text : Str)
    (ho : w.canWrite (w.ident output) = true) (hne : w.ident script ≠ w.ident output) (hr : w.read script = some text)
    (hp : ∀ a, parse (α := α) text ≠ .error a)
    (hw : ∀ doc : Doc α, parse text = .ok (some doc) → SaneModels 505 E.loadPath (w.write output []) doc.models) :
    (mainRun E w script output).1 = .ok 0 ∨ (mainRun E w script output).1 = .ok 1 := by
  unfold mainRun
  by_cases h1 : script = []
  · rw [if_pos h1]; exact Or.inr rfl
  rw [if_neg h1]
  by_cases h2 : output = []
  · rw [if_pos h2]; exact Or.inr rfl
  rw [if_neg h2, ho]
  simp only [Bool.not_true, Bool.false_eq_true, if_false]
  rw [read_write_ne w output script [] hne, hr]
  obtain ⟨r, hr⟩ := C62_run E hS hJ (w.write output []) script text hp hw
  simp only [hr]
  cases r.ok <;> simp
end

/-- C62 for IEEE 754 double precision: with any rounding direction, and whatever the C library reports as out of range. -/
theorem C62_binary64 (I : IntRounding) (range64 range32 : ℚ → Bool) (E : Env (Fl (binary64 I range64 range32))) (hS : SortOK E.sorter)
    (hJ : E.junkM = ⟨V3.zero, V3.zero, V3.zero⟩) (w : World) (src script : Str)
    (hp : ∀ a, parse (α := Fl (binary64 I range64 range32)) script ≠ .error a)
    (hw : ∀ doc : Doc (Fl (binary64 I range64 range32)), parse script = .ok (some doc) → SaneModels 505 E.loadPath w doc.models) :
    ∃ r, scriptToPS E w src script = .ok r := C62_run E hS hJ w src script hp hw

/-! ## Cases -/

theorem sane_exDisk : SaneFile 505 c!"solid\nfacet normal 0 0 1\nouter loop\nvertex 0 0 0\nvertex 4 0 0\nvertex 0 3 0\nendloop\nendfacet\nendsolid\n" :=
  saneB_ok _ _ (by decide +kernel)

/-- a facet with two corners, or one number too many powers of ten, and the file is not sane -/
example : saneB 505 c!"facet normal 0 0 1\nouter loop\nvertex 0 0 0\nvertex 4 0 0\nendloop\nendfacet\n" = false ∧
    saneB 505 c!"facet normal 0 0 1\nouter loop\nvertex 0 0 0\nvertex 4e200 0 0\nvertex 0 1 0\nendloop\nendfacet\n" = false ∧
    saneB 505 c!"facet normal 0 0 1\nouter loop\nvertex 0 0 0\nvertex 4e100 0 0\nvertex 0 1 0\nendloop\nendfacet\n" = true := by decide +kernel

theorem exDisk_place (ms : List ModelN) (h : ms.map (fun m => m.source) = [c!"/x"]) (m : ModelN) (hm : m ∈ ms) (ps : List Str)
    (hps : Places [] m.source ps) : ps = [c!"/x"] := by
  have : m.source = c!"/x" := by
    have := List.mem_map_of_mem (f := fun m : ModelN => m.source) hm
    rw [h] at this
    simpa using this
  rw [this] at hps
  rcases hps with ⟨-, rfl⟩ | ⟨h, -⟩
  · rfl
  · exact absurd rfl h

theorem exDisk_sane (ms : List ModelN) (h : ms.map (fun m => m.source) = [c!"/x"]) : SaneModels 505 [] (exDisk.write c!"o" []) ms := by
  intro m hm ps content hps hf
  have := exDisk_place ms h m hm ps hps
  subst this
  obtain ⟨a, p, b, h1, h2, h3⟩ := hf
  cases a with
  | nil =>
    simp at h1
    rw [← h1.1] at h3
    have e : (exDisk.write c!"o" []).read c!"/x" = some c!"solid\nfacet normal 0 0 1\nouter loop\nvertex 0 0 0\nvertex 4 0 0\nvertex 0 3 0\nendloop\nendfacet\nendsolid\n" := by
      decide +kernel
    rw [e] at h3
    injection h3 with h3
    rw [← h3]; exact sane_exDisk
  | cons x a => simp at h1

noncomputable def flEnv : Env (Fl (binary64 .nearest (fun _ => true) (fun _ => true))) where
  junk _ := V3.zero
  junkM := ⟨V3.zero, V3.zero, V3.zero⟩
  fmtF s := if s = c!"%.1f" ∨ s = c!"%.3f" then some FP.g6 else none
  sorter := insSorter
  name := c!"demo"
  timestamp := false
  numberPages := false
  now := c!"now"
  loadPath := []

/-- the program on the disk of Props/Main, in double precision with rounding to nearest: every premise of `C62_exit` is met -/
example : (mainRun flEnv exDisk c!"s" c!"o").1 = .ok 0 ∨ (mainRun flEnv exDisk c!"s" c!"o").1 = .ok 1 := by
  refine C62_exit flEnv insSorter_ok rfl exDisk c!"s" c!"o" c!"load m=\"/x\";page{draw m{}}" (by decide +kernel) (by decide +kernel) (by decide +kernel) ?_ ?_
  · intro a h
    have e : (match (parse c!"load m=\"/x\";page{draw m{}}" : Except Abort (Option (Doc (Fl (binary64 .nearest (fun _ => true) (fun _ => true)))))) with
        | .ok _ => true | .error _ => false) = true := by decide +kernel
    rw [h] at e; cases e
  · intro doc hp m hm ps content hps hf
    have e : (match (parse c!"load m=\"/x\";page{draw m{}}" : Except Abort (Option (Doc (Fl (binary64 .nearest (fun _ => true) (fun _ => true)))))) with
        | .ok (some d) => d.models.map (fun m => m.source) | _ => []) = [c!"/x"] := by decide +kernel
    rw [hp] at e
    exact exDisk_sane doc.models e m hm ps content hps hf

/-- and the exact counterpart -/
example : ∃ r, scriptToPS rEnv exDisk c!"s" c!"load m=\"/x\";page{draw m{}}" = .ok r := by
  refine C59_run rEnv insSorter_ok rEnv_notAView exDisk c!"s" _ ?_ ?_
  · intro a h
    have e : (match (parse c!"load m=\"/x\";page{draw m{}}" : Except Abort (Option (Doc (Ext ℝ)))) with
        | .ok _ => true | .error _ => false) = true := by decide +kernel
    rw [h] at e; cases e
  · intro doc hp m hm ps content hps hf ls hl
    have e : (match (parse c!"load m=\"/x\";page{draw m{}}" : Except Abort (Option (Doc (Ext ℝ)))) with
        | .ok (some d) => d.models.map (fun m => m.source) | _ => []) = [c!"/x"] := by decide +kernel
    rw [hp] at e
    refine sane_noShort (α := Ext ℝ) (exDisk_sane doc.models e m hm ps content hps ?_) ls hl
    obtain ⟨a, p, b, h1, h2, h3⟩ := hf
    have hps' := exDisk_place doc.models e m hm ps hps
    rw [hps'] at h1
    cases a with
    | nil =>
      simp at h1
      refine ⟨[], p, [], ?_, by simp, ?_⟩
      · rw [hps', h1.1]; rfl
      · rw [← h1.1] at h3 ⊢; rw [← h3]; decide +kernel
    | cons x a => simp at h1

end S2P
