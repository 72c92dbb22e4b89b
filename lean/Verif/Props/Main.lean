import Verif.Spec.Run
import Verif.Props.Load
import Verif.Lemmas.Run
import Verif.Lemmas.Accept
import Verif.Lemmas.Sample

set_option linter.unusedSectionVars false
set_option linter.unusedVariables false
set_option linter.unusedSimpArgs false

/-! # C48, C49: the output stream and the command line -/

namespace S2P
variable {α : Type} [FP α]

theorem renderPages_ne (E : Env α) (src : Str) (ps : List (OutPage α)) : renderPages E src ps ≠ [] := by
  unfold renderPages documentHeader
  simp

theorem forall₂_left {A B : Type} {R : A → B → Prop} {l : List A} {m : List B} (h : List.Forall₂ R l m) : ∀ a ∈ l, ∃ b, R a b := by
  induction h with
  | nil => simp
  | cons a _ ih =>
    intro x hx
    rcases List.mem_cons.mp hx with rfl | hx
    · exact ⟨_, a⟩
    · exact ih x hx

theorem generatePages_each (E : Env α) (stl : Models α) (doc : Doc α) (g : GenRes α) (h : generatePages E stl doc [] = .ok g) :
    List.Forall₂ (fun pg o => ∃ g, onePage E stl pg = .ok g ∧ g.pages = [o]) doc.pages g.pages ∧
    (g.ok = true ↔ ∀ pg ∈ doc.pages, ∃ g, onePage E stl pg = .ok g ∧ g.ok = true) := by
  unfold generatePages at h
  simp only [bind, Except.bind] at h
  cases hx : genPages E stl doc.pages ([] : List (OutPage α)).length (initVis E) with
  | error a => rw [hx] at h; cases h
  | ok r =>
    rw [hx] at h
    obtain ⟨e1, e2⟩ := (genPages_each E stl doc.pages _ _).2 r hx
    cases h
    simpa using ⟨e1, e2⟩

/-- C48: a conversion that ends reports success exactly if everything it needs is in order; then the whole document has been written;
otherwise nothing has. -/
theorem C48_all_or_nothing (E : Env α) (w : World) (src script : Str) (r : RunRes) (h : scriptToPS E w src script = .ok r) :
    (r.ok = true ↔ ∃ out, Converts E w src script out) ∧ (r.ok = true → Converts E w src script r.out) ∧ (r.ok = false → r.out = []) := by
  have key : (r.ok = true → Converts E w src script r.out) ∧ ((∃ out, Converts E w src script out) → r.ok = true) ∧ (r.ok = false → r.out = []) := by
    cases hp : (parse script : Except Abort (Option (Doc α))) with
    | error a => rw [scriptToPS_error E w src script a hp] at h; cases h
    | ok o =>
      cases o with
      | none =>
        rw [scriptToPS_none E w src script hp] at h; cases h
        refine ⟨by simp, ?_, fun _ => rfl⟩
        rintro ⟨out, doc, fs, outs, h1, -⟩
        rw [hp] at h1; cases h1
      | some doc =>
        rw [scriptToPS_some E w src script doc hp] at h
        have conv : ∀ out, Converts E w src script out → ∃ (fs : List (STLFile α)), (doc.models.map (fun m => m.name)).Nodup ∧
            List.Forall₂ (Loads E.loadPath w) doc.models fs ∧
            ∀ pg ∈ doc.pages, ∃ g, onePage E (List.zipWith (fun m f => (m.name, some f)) doc.models fs) pg = .ok g ∧ g.ok = true := by
          rintro out ⟨doc', fs, outs, h1, h2, h3, h4, -⟩
          rw [hp] at h1; cases h1
          refine ⟨fs, h2, h3, ?_⟩
          clear h2 h3 hp h
          revert h4
          generalize doc.pages = ps
          intro h4
          induction h4 with
          | nil => simp
          | cons a _ ih =>
            obtain ⟨g, g1, g2, -⟩ := a
            intro pg hpg
            rcases List.mem_cons.mp hpg with rfl | hpg
            · exact ⟨g, g1, g2⟩
            · exact ih pg hpg
        cases hl : loadFiles E w doc.models with
        | error a => rw [docToPS_error E w src doc a hl] at h; cases h
        | ok l =>
          obtain ⟨L1, L2⟩ := C47_load E w doc.models l hl
          cases hk : l.ok with
          | false =>
            rw [docToPS_unloaded E w src doc l hl hk] at h; cases h
            refine ⟨by simp, ?_, fun _ => rfl⟩
            rintro ⟨out, hc⟩
            obtain ⟨fs, h2, h3, -⟩ := conv out hc
            have : l.ok = true := L1.mpr ⟨h2, by
              intro m hm
              exact forall₂_left h3 m hm⟩
            rw [hk] at this; cases this
          | true =>
            obtain ⟨fs, f1, f2⟩ := L2 hk
            cases hg : generatePages E l.stl doc [] with
            | error a => rw [docToPS_abort E w src doc l hl hk a hg] at h; cases h
            | ok g =>
              obtain ⟨P1, P2⟩ := generatePages_each E l.stl doc g hg
              cases hb : g.ok with
              | false =>
                rw [docToPS_rejected E w src doc l hl hk g hg hb] at h; cases h
                refine ⟨by simp, ?_, fun _ => rfl⟩
                rintro ⟨out, hc⟩
                obtain ⟨fs', h2, h3, h4⟩ := conv out hc
                have hfs : fs' = fs := by
                  clear h4 f2 P1 P2 hg L1 L2 hl conv h2 hc hp
                  revert f1 h3
                  generalize doc.models = ms
                  intro f1 h3
                  induction f1 generalizing fs' with
                  | nil => cases h3; rfl
                  | cons a _ ih =>
                    cases h3 with
                    | cons b hb => rw [C47_unique _ _ _ _ _ b a, ih _ hb]
                rw [hfs, ← f2] at h4
                have := P2.mpr h4
                rw [hb] at this; cases this
              | true =>
                rw [docToPS_done E w src doc l hl hk g hg hb] at h; cases h
                refine ⟨fun _ => ⟨doc, fs, g.pages, hp, (L1.mp hk).1, f1, ?_, rfl⟩, fun _ => rfl, by simp⟩
                rw [← f2]
                have hall := P2.mp hb
                clear P2 hg hp L1 L2 hl conv f1 f2 hb hk
                revert P1 hall
                generalize doc.pages = ps
                generalize g.pages = os
                intro P1 hall
                induction P1 with
                | nil => exact .nil
                | cons a _ ih =>
                  obtain ⟨x, x1, x2⟩ := a
                  obtain ⟨y, y1, y2⟩ := hall _ List.mem_cons_self
                  rw [x1] at y1; cases y1
                  exact .cons ⟨x, x1, y2, x2⟩ (ih (fun pg hpg => hall pg (by simp [hpg])))
  exact ⟨⟨fun h => ⟨_, key.1 h⟩, key.2.1⟩, key.1, key.2.2⟩

/-- C48: something is written exactly if success is reported -/
theorem C48_written_iff (E : Env α) (w : World) (src script : Str) (r : RunRes) (h : scriptToPS E w src script = .ok r) :
    r.out = [] ↔ r.ok = false := by
  obtain ⟨-, h2, h3⟩ := C48_all_or_nothing E w src script r h
  refine ⟨fun he => ?_, h3⟩
  cases hk : r.ok with
  | false => rfl
  | true =>
    obtain ⟨_, _, outs, -, -, -, -, e⟩ := h2 hk
    exact absurd (e.symm.trans he) (renderPages_ne E src outs)

/-! ## The command line -/

theorem read_write (w : World) (p : Str) (s : Str) : (w.write p s).read p = some s := by simp [World.read, World.write]

theorem read_write_ne (w : World) (p q : Str) (s : Str) (h : w.ident q ≠ w.ident p) : (w.write p s).read q = w.read q := by
  simp [World.read, World.write, h]

/-- C49: a run never changes a file other than the output, whatever happens. -/
theorem C49_other_files (E : Env α) (w : World) (script output : Str) :
    ∀ i, i ≠ w.ident output → (mainRun E w script output).2.data i = w.data i := by
  intro i hi
  unfold mainRun
  split
  · rfl
  split
  · rfl
  split
  · rfl
  dsimp only
  split
  · simp [World.write, hi]
  split <;> simp [World.write, hi]

/-- C49: the exact condition for exit status 0, and what the output holds.  The script and the models are read after the output has
been emptied. -/
theorem C49_exit (E : Env α) (w : World) (script output : Str) :
    (mainRun E w script output).1 = .ok 0 ↔
      script ≠ [] ∧ output ≠ [] ∧ w.canWrite (w.ident output) = true ∧
        ∃ text r, (w.write output []).read script = some text ∧ scriptToPS E (w.write output []) script text = .ok r ∧ r.ok = true ∧
          (mainRun E w script output).2.read output = some r.out := by
  unfold mainRun
  by_cases h1 : script = []
  · simp [h1]
  by_cases h2 : output = []
  · simp [h1, h2]
  cases h3 : w.canWrite (w.ident output) with
  | false => simp [h1, h2, h3]
  | true =>
    cases h4 : (w.write output []).read script with
    | none => simp [h1, h2, h3, h4]
    | some text =>
      cases h5 : scriptToPS E (w.write output []) script text with
      | error a => simp [h1, h2, h3, h4, h5]
      | ok r =>
        cases h6 : r.ok <;> simp [h1, h2, h3, h4, h5, h6, read_write]

/-- C49 as claimed: exit status 0 iff both flags are given, both files open and conversion succeeds, then the output holds the complete
document; the script is not altered.  Proved when the output is neither the script nor at one of the places of a model. -/
theorem C49_exit_partial (E : Env α) (w : World) (script output : Str) (hs : w.ident script ≠ w.ident output)
    (hm : ∀ text (doc : Doc α), w.read script = some text → parse text = .ok (some doc) → ∀ m ∈ doc.models, ∀ ps, Places E.loadPath m.source ps →
      ∀ p ∈ ps, w.ident p ≠ w.ident output) :
    ((mainRun E w script output).1 = .ok 0 ↔
      script ≠ [] ∧ output ≠ [] ∧ w.canWrite (w.ident output) = true ∧
        ∃ text r, w.read script = some text ∧ scriptToPS E w script text = .ok r ∧ r.ok = true ∧ Converts E w script text r.out ∧
          (mainRun E w script output).2.read output = some r.out) ∧
    (mainRun E w script output).2.read script = w.read script := by
  constructor
  · rw [C49_exit, read_write_ne w output script [] hs]
    have same : ∀ text, w.read script = some text → scriptToPS E (w.write output []) script text = scriptToPS E w script text := by
      intro text ht
      cases hp : (parse text : Except Abort (Option (Doc α))) with
      | error a => rw [scriptToPS_error E _ _ _ a hp, scriptToPS_error E _ _ _ a hp]
      | ok o =>
        cases o with
        | none => rw [scriptToPS_none E _ _ _ hp, scriptToPS_none E _ _ _ hp]
        | some doc =>
          rw [scriptToPS_some E _ _ _ doc hp, scriptToPS_some E _ _ _ doc hp]
          unfold docToPS
          rw [C47_only_places E (w.write output []) w doc.models (fun m hmm ps hps p hpp =>
            read_write_ne w output p [] (hm text doc ht hp m hmm ps hps p hpp))]
    constructor
    · rintro ⟨a, b, c, text, r, h1, h2, h3, h4⟩
      rw [same text h1] at h2
      exact ⟨a, b, c, text, r, h1, h2, h3, (C48_all_or_nothing E w script text r h2).2.1 h3, h4⟩
    · rintro ⟨a, b, c, text, r, h1, h2, h3, -, h4⟩
      exact ⟨a, b, c, text, r, h1, by rw [same text h1]; exact h2, h3, h4⟩
  · have hid : (mainRun E w script output).2.ident = w.ident := by
      unfold mainRun
      split
      · rfl
      split
      · rfl
      split
      · rfl
      dsimp only
      split
      · rfl
      split <;> rfl
    unfold World.read
    rw [hid]
    exact C49_other_files E w script output _ hs

/-- what a run that does not exit with status 0 leaves behind: everything as it was if a flag is missing or the output cannot be opened,
otherwise an empty output -/
theorem C49_failure (E : Env α) (w : World) (script output : Str) (h : (mainRun E w script output).1 ≠ .ok 0) :
    ((script = [] ∨ output = [] ∨ w.canWrite (w.ident output) = false) ∧ (mainRun E w script output).2 = w) ∨
    (script ≠ [] ∧ output ≠ [] ∧ w.canWrite (w.ident output) = true ∧ (mainRun E w script output).2.read output = some []) := by
  revert h
  unfold mainRun
  by_cases h1 : script = []
  · simp [h1]
  by_cases h2 : output = []
  · simp [h1, h2]
  cases h3 : w.canWrite (w.ident output) with
  | false => simp [h1, h2, h3]
  | true =>
    cases h4 : (w.write output []).read script with
    | none => simp [h1, h2, h3, h4, read_write]
    | some text =>
      cases h5 : scriptToPS E (w.write output []) script text with
      | error a => simp [h1, h2, h3, h4, h5, read_write]
      | ok r =>
        cases h6 : r.ok with
        | true => simp [h1, h2, h3, h4, h5, h6, read_write]
        | false =>
          have := (C48_all_or_nothing E _ script text r h5).2.2 h6
          simp [h1, h2, h3, h4, h5, h6, read_write, this]

/-- a world with one script and nothing else -/
def oneFile (s : Str) : World where
  ident _ := 0
  data _ := some s
  canWrite _ := true

/-- C49 is false when the output is the script: the script is lost, and the run reports success. -/
theorem C49_false : ∃ (E : Env (Ext ℚ)) (w : World) (script output : Str), script ≠ [] ∧ output ≠ [] ∧
    (mainRun E w script output).1 = .ok 0 ∧ (mainRun E w script output).2.read script ≠ w.read script :=
  ⟨exEnv, oneFile c!"page{text a;}", c!"a", c!"a", by decide +kernel⟩

/-! ## The premises occur -/

/-- the script is file 1, the output file 2 (not there yet), the model file 3; a fourth is a script with an error -/
def exDisk : World where
  ident p := if p = c!"s" then 1 else if p = c!"o" then 2 else if p = c!"/x" then 3 else if p = c!"bad" then 4 else 0
  data i := if i = 1 then some c!"load m=\"/x\";page{draw m{}}"
    else if i = 3 then some c!"solid\nfacet normal 0 0 1\nouter loop\nvertex 0 0 0\nvertex 4 0 0\nvertex 0 3 0\nendloop\nendfacet\nendsolid\n"
    else if i = 4 then some c!"page{draw m{}}"
    else none
  canWrite i := i == 2

example : (mainRun exEnv exDisk c!"s" c!"o").1 = .ok 0 ∧ (mainRun exEnv exDisk c!"bad" c!"o").1 = .ok 1 ∧
    (mainRun exEnv exDisk c!"s" c!"q").1 = .error .check ∧ (mainRun exEnv exDisk c!"q" c!"o").1 = .error .check ∧
    (mainRun exEnv exDisk [] c!"o").1 = .ok 1 := by decide +kernel

/-- the condition of `C49_exit_partial` there -/
example : exDisk.ident c!"s" ≠ exDisk.ident c!"o" ∧ ∀ text (doc : Doc (Ext ℚ)), exDisk.read c!"s" = some text → parse text = .ok (some doc) →
    ∀ m ∈ doc.models, ∀ ps, Places exEnv.loadPath m.source ps → ∀ p ∈ ps, exDisk.ident p ≠ exDisk.ident c!"o" := by
  refine ⟨by decide, ?_⟩
  intro text doc ht hp m hm ps hps p hpp
  have e : (match exDisk.read c!"s" with
      | some t => (match (parse t : Except Abort (Option (Doc (Ext ℚ)))) with | .ok (some d) => d.models.map (fun m => m.source) | _ => [])
      | none => []) = [c!"/x"] := by decide +kernel
  rw [ht] at e
  simp only [hp] at e
  have : m.source = c!"/x" := by
    have := List.mem_map_of_mem (f := fun m : ModelN => m.source) hm
    rw [e] at this
    simpa using this
  rw [this] at hps
  rcases hps with ⟨-, rfl⟩ | ⟨h, -⟩
  · rw [List.mem_singleton.mp hpp]; decide
  · exact absurd rfl h

end S2P
