import Verif.Lemmas.Output

set_option linter.unusedSectionVars false
set_option linter.unusedVariables false
set_option linter.unusedSimpArgs false

/-! # Running the output -/

namespace S2P
namespace PS

theorem run_nil (F : Fonts) (n : Nat) (m : Mach) : run F n m [] = some m := rfl
theorem run_cons (F : Fonts) (n : Nat) (m : Mach) (t : Tok) (ts : List Tok) : run F n m (t :: ts) = (exec F n m t).bind (fun m' => run F n m' ts) := by
  simp [run, List.foldlM_cons]
theorem run_append (F : Fonts) (n : Nat) (m : Mach) (a b : List Tok) : run F n m (a ++ b) = (run F n m a).bind (fun m' => run F n m' b) := by
  simp [run, List.foldlM_append]

/-- more depth changes nothing -/
theorem exec_mono (F : Fonts) : ∀ n m t m', exec F n m t = some m' → exec F (n + 1) m t = some m' := by
  intro n
  induction n with
  | zero => intro m t m' h; simp [exec] at h
  | succ n ih =>
    have ihr : ∀ (ts : List Tok) m m', ts.foldlM (exec F n) m = some m' → ts.foldlM (exec F (n + 1)) m = some m' := by
      intro ts
      induction ts with
      | nil => intro m m' h; simpa using h
      | cons t ts iht =>
        intro m m' h
        simp only [List.foldlM_cons, Option.bind_eq_bind, Option.bind_eq_some_iff] at h ⊢
        obtain ⟨m1, h1, h2⟩ := h
        exact ⟨m1, ih _ _ _ h1, iht _ _ h2⟩
    intro m t m' h
    unfold exec at h ⊢
    cases hr : m.reading with
    | some p => rw [hr] at h; exact h
    | none =>
      rw [hr] at h
      cases t with
      | exec s =>
        simp only at h ⊢
        cases hn : readNum s with
        | some q => rw [hn] at h; exact h
        | none =>
          rw [hn] at h
          simp only at h ⊢
          cases hf : m.defs.find? (fun d => d.1 = s) with
          | some d => rw [hf] at h; exact ihr _ _ _ h
          | none => rw [hf] at h; exact h
      | _ => exact h

theorem run_mono (F : Fonts) (n k : Nat) (ts : List Tok) : ∀ m m', run F n m ts = some m' → run F (n + k) m ts = some m' := by
  have one : ∀ n m m', run F n m ts = some m' → run F (n + 1) m ts = some m' := by
    induction ts with
    | nil => intro n m m' h; exact h
    | cons t ts ih =>
      intro n m m' h
      rw [run_cons, Option.bind_eq_some_iff] at h ⊢
      obtain ⟨m1, h1, h2⟩ := h
      exact ⟨m1, exec_mono _ _ _ _ _ h1, ih _ _ _ h2⟩
  induction k with
  | zero => intro m m' h; exact h
  | succ k ih => intro m m' h; exact one _ _ _ (ih _ _ h)

theorem Paints.unique {F : Fonts} {text : Str} {a b : List Mark} (ha : Paints F text a) (hb : Paints F text b) : a = b := by
  obtain ⟨ts, n, m, h1, h2, h3, h4⟩ := ha
  obtain ⟨ts', n', m', h1', h2', h3', h4'⟩ := hb
  obtain rfl : ts = ts' := by rw [h1] at h1'; exact Option.some.inj h1'
  have e1 := run_mono F n n' ts _ _ h2
  have e2 := run_mono F n' n ts _ _ h2'
  rw [Nat.add_comm, e1] at e2
  rw [← h4, ← h4', Option.some.inj e2]

theorem exec_num (F : Fonts) (n : Nat) (m : Mach) (s : Str) (q : ℚ) (hm : m.reading = none) (hs : readNum s = some q) :
    exec F (n + 1) m (.exec s) = some { m with stack := .num q :: m.stack } := by
  rw [exec, hm]; simp only [hs]

theorem exec_builtin (F : Fonts) (n : Nat) (m : Mach) (s : Str) (hm : m.reading = none) (hs : readNum s = none)
    (hd : m.defs.find? (fun d => d.1 = s) = none) : exec F (n + 1) m (.exec s) = builtin F m s := by
  rw [exec, hm]; simp only [hs, hd]

theorem exec_proc (F : Fonts) (n : Nat) (m : Mach) (s : Str) (d : Str × List Tok) (hm : m.reading = none) (hs : readNum s = none)
    (hd : m.defs.find? (fun d => d.1 = s) = some d) : exec F (n + 1) m (.exec s) = run F n m d.2 := by
  rw [exec, hm]; simp only [hs, hd]; rfl

/-- the definitions of the prologue -/
def theDefs : List (Str × List Tok) :=
  [(c!"CenterText",
    [x c!"dup", x c!"stringwidth", x c!"pop", x c!"-2", x c!"div",
     x c!"currentfont", x c!"begin", x c!"FontBBox", x c!"end",
     x c!"4", x c!"1", x c!"roll", x c!"pop", x c!"pop", x c!"pop", x c!"2", x c!"div",
     x c!"-1600", x c!"div", x c!"FontSize", x c!"mul",
     x c!"rmoveto"]),
   (c!"FontSize", [x c!"8"])]

/-- the machine after the prologue -/
abbrev mid (st : List Val) (path : List Elem) (cur : Option (V2 ℚ)) (ms : List Mark) (ds : List Str := []) : Mach :=
  ⟨st, path, cur, theDefs, some (c!"Courier", 8), ds, none, ms⟩

section
variable (F : Fonts) (n : Nat) (st : List Val) (path : List Elem) (cur : Option (V2 ℚ)) (ms : List Mark) (ds : List Str)

theorem mid_op (s : Str) (hs : readNum s = none) (hd : theDefs.find? (fun d => d.1 = s) = none) :
    exec F (n + 1) (mid st path cur ms ds) (.exec s) = builtin F (mid st path cur ms ds) s := exec_builtin F n _ s rfl hs hd

macro "op_tac" : tactic => `(tactic| (rw [mid_op _ _ _ _ _ _ _ _ (by decide +kernel) (by decide +kernel)]; rfl))

theorem mid_num (s : Str) (q : ℚ) (hs : readNum s = some q) :
    exec F (n + 1) (mid st path cur ms ds) (.exec s) = some (mid (.num q :: st) path cur ms ds) := exec_num F n _ s q rfl hs
theorem mid_str (s : Str) : exec F (n + 1) (mid st path cur ms) (.str s) = some (mid (.str s :: st) path cur ms) := rfl
theorem mid_newpath : exec F (n + 1) (mid st path cur ms) (.exec c!"newpath") = some (mid st [] none ms) := by op_tac
theorem mid_moveto (a b : ℚ) : exec F (n + 1) (mid (.num b :: .num a :: st) path cur ms) (.exec c!"moveto") =
    some (mid st (path ++ [.move ⟨a, b⟩]) (some ⟨a, b⟩) ms) := by op_tac
theorem mid_lineto (a b : ℚ) (p : V2 ℚ) : exec F (n + 1) (mid (.num b :: .num a :: st) path (some p) ms) (.exec c!"lineto") =
    some (mid st (path ++ [.line ⟨a, b⟩]) (some ⟨a, b⟩) ms) := by op_tac
theorem mid_arc (a b c d e : ℚ) : exec F (n + 1) (mid (.num e :: .num d :: .num c :: .num b :: .num a :: st) path cur ms) (.exec c!"arc") =
    some (mid st (path ++ [.arc ⟨a, b⟩ c d e]) none ms) := by op_tac
theorem mid_stroke : exec F (n + 1) (mid st path cur ms) (.exec c!"stroke") = some (mid st [] none (ms ++ [.stroke path])) := by op_tac
theorem mid_showpage : exec F (n + 1) (mid st path cur ms) (.exec c!"showpage") = some (mid st [] none (ms ++ [.page])) := by op_tac
theorem mid_show (s : Str) (p : V2 ℚ) : exec F (n + 1) (mid (.str s :: st) path (some p) ms) (.exec c!"show") =
    some (mid st (path ++ [.move (p + F.width c!"Courier" 8 s)]) (some (p + F.width c!"Courier" 8 s)) (ms ++ [.text p s c!"Courier" 8])) := by op_tac
theorem mid_setlinewidth (a : ℚ) : exec F (n + 1) (mid (.num a :: st) path cur ms) (.exec c!"setlinewidth") = some (mid st path cur ms) := by op_tac
theorem mid_setpagedevice : exec F (n + 1) (mid (.dict :: st) path cur ms) (.exec c!"setpagedevice") = some (mid st [] none ms) := by op_tac
theorem mid_dup (v : Val) : exec F (n + 1) (mid (v :: st) path cur ms) (.exec c!"dup") = some (mid (v :: v :: st) path cur ms) := by op_tac
theorem mid_pop (v : Val) : exec F (n + 1) (mid (v :: st) path cur ms) (.exec c!"pop") = some (mid st path cur ms) := by op_tac
theorem mid_stringwidth (s : Str) : exec F (n + 1) (mid (.str s :: st) path cur ms) (.exec c!"stringwidth") =
    some (mid (.num (F.width c!"Courier" 8 s).y :: .num (F.width c!"Courier" 8 s).x :: st) path cur ms) := by op_tac
theorem mid_div (a b : ℚ) (hb : b ≠ 0) : exec F (n + 1) (mid (.num b :: .num a :: st) path cur ms) (.exec c!"div") = some (mid (.num (a / b) :: st) path cur ms) := by
  rw [mid_op _ _ _ _ _ _ _ _ (by decide +kernel) (by decide +kernel)]
  have : builtin F (mid (.num b :: .num a :: st) path cur ms) c!"div" =
    if b = 0 then none else some (mid (.num (a / b) :: st) path cur ms) := rfl
  rw [this, if_neg hb]
theorem mid_mul (a b : ℚ) : exec F (n + 1) (mid (.num b :: .num a :: st) path cur ms) (.exec c!"mul") = some (mid (.num (a * b) :: st) path cur ms) := by op_tac
theorem mid_currentfont : exec F (n + 1) (mid st path cur ms) (.exec c!"currentfont") = some (mid (.font c!"Courier" 8 :: st) path cur ms) := by op_tac
theorem mid_begin (f : Str) (q : ℚ) : exec F (n + 1) (mid (.font f q :: st) path cur ms) (.exec c!"begin") = some (mid st path cur ms [f]) := by op_tac
theorem mid_end (f : Str) : exec F (n + 1) (mid st path cur ms [f]) (.exec c!"end") = some (mid st path cur ms) := by op_tac
theorem mid_bbox (f : Str) : exec F (n + 1) (mid st path cur ms [f]) (.exec c!"FontBBox") =
    some (mid (.num (F.bbox f).2.2.2 :: .num (F.bbox f).2.2.1 :: .num (F.bbox f).2.1 :: .num (F.bbox f).1 :: st) path cur ms [f]) := by op_tac
theorem mid_roll (a b c d : Val) : exec F (n + 1) (mid (.num 1 :: .num 4 :: a :: b :: c :: d :: st) path cur ms) (.exec c!"roll") =
    some (mid (b :: c :: d :: a :: st) path cur ms) := by
  rw [mid_op _ _ _ _ _ _ _ _ (by decide +kernel) (by decide +kernel)]
  have : builtin F (mid (.num 1 :: .num 4 :: a :: b :: c :: d :: st) path cur ms) c!"roll" =
    if (1 : ℚ).den = 1 ∧ (4 : ℚ).den = 1 ∧ (0 : ℚ) ≤ 4 ∧ (4 : ℚ).num.toNat ≤ (a :: b :: c :: d :: st).length then
      some (mid (rollTop (4 : ℚ).num.toNat (1 : ℚ).num (a :: b :: c :: d :: st)) path cur ms) else none := rfl
  rw [this, if_pos ⟨by decide, by decide, by decide, by simp⟩]
  rfl
theorem mid_rmoveto (a b : ℚ) (p : V2 ℚ) : exec F (n + 1) (mid (.num b :: .num a :: st) path (some p) ms) (.exec c!"rmoveto") =
    some (mid st (path ++ [.move ⟨p.x + a, p.y + b⟩]) (some ⟨p.x + a, p.y + b⟩) ms) := by op_tac
theorem mid_fontsize : exec F (n + 2) (mid st path cur ms) (.exec c!"FontSize") = some (mid (.num 8 :: st) path cur ms) := by
  rw [exec_proc F (n + 1) (mid st path cur ms) c!"FontSize" (c!"FontSize", [x c!"8"]) rfl (by decide +kernel) rfl, run_cons,
    mid_num _ _ _ _ _ _ _ _ 8 (by decide +kernel)]
  rfl

macro "go" e:term : tactic => `(tactic| rw [run_cons, $e:term, Option.bind_some])

/-- text is moved by half its width and half its height -/
theorem mid_center (s : Str) (p : V2 ℚ) : exec F (n + 3) (mid (.str s :: st) path (some p) ms) (.exec c!"CenterText") =
    some (mid (.str s :: st) (path ++ [.move ⟨p.x - (F.width c!"Courier" 8 s).x / 2, p.y - (F.bbox c!"Courier").2.2.2 * 8 / 3200⟩])
      (some ⟨p.x - (F.width c!"Courier" 8 s).x / 2, p.y - (F.bbox c!"Courier").2.2.2 * 8 / 3200⟩) ms) := by
  rw [exec_proc F (n + 2) _ c!"CenterText" (theDefs.head (by simp [theDefs])) rfl (by decide +kernel) rfl]
  simp only [theDefs, List.head_cons]
  go mid_dup _ _ _ _ _ _ _
  go mid_stringwidth _ _ _ _ _ _ _
  go mid_pop _ _ _ _ _ _ _
  go mid_num _ _ _ _ _ _ _ _ (-2) (by decide +kernel)
  go mid_div _ _ _ _ _ _ _ _ (by norm_num)
  go mid_currentfont _ _ _ _ _ _
  go mid_begin _ _ _ _ _ _ _ _
  go mid_bbox _ _ _ _ _ _ _
  go mid_end _ _ _ _ _ _ _
  go mid_num _ _ _ _ _ _ _ _ 4 (by decide +kernel)
  go mid_num _ _ _ _ _ _ _ _ 1 (by decide +kernel)
  go mid_roll _ _ _ _ _ _ _ _ _ _
  go mid_pop _ _ _ _ _ _ _
  go mid_pop _ _ _ _ _ _ _
  go mid_pop _ _ _ _ _ _ _
  go mid_num _ _ _ _ _ _ _ _ 2 (by decide +kernel)
  go mid_div _ _ _ _ _ _ _ _ (by norm_num)
  go mid_num _ _ _ _ _ _ _ _ (-1600) (by decide +kernel)
  go mid_div _ _ _ _ _ _ _ _ (by norm_num)
  go mid_fontsize _ _ _ _ _ _
  go mid_mul _ _ _ _ _ _ _ _
  go mid_rmoveto _ _ _ _ _ _ _ _
  rw [run_nil]
  have e1 : p.x + (F.width c!"Courier" 8 s).x / -2 = p.x - (F.width c!"Courier" 8 s).x / 2 := by ring
  have e2 : p.y + (F.bbox c!"Courier").2.2.2 / 2 / -1600 * 8 = p.y - (F.bbox c!"Courier").2.2.2 * 8 / 3200 := by ring
  rw [e1, e2]

theorem run_prologue : run F 3 Mach.init prologue = some (mid [] [] none []) := by
  with_unfolding_all rfl

theorem run_pageStart (hst : st = []) : run F (n + 3) (mid st path cur ms) pageStart = some (mid [] [] none (ms ++ [border])) := by
  subst hst
  unfold pageStart
  rw [run_cons, show exec F (n + 3) (mid [] path cur ms) .ldict = some (mid [.mark] path cur ms) from rfl, Option.bind_some]
  rw [run_cons, show exec F (n + 3) (mid [.mark] path cur ms) (.name c!"PageSize") = some (mid [.name c!"PageSize", .mark] path cur ms) from rfl, Option.bind_some]
  rw [run_cons, show exec F (n + 3) (mid [.name c!"PageSize", .mark] path cur ms) .lbrack = some (mid [.mark, .name c!"PageSize", .mark] path cur ms) from rfl, Option.bind_some]
  go mid_num _ _ _ _ _ _ _ _ 792 (by decide +kernel)
  go mid_num _ _ _ _ _ _ _ _ 612 (by decide +kernel)
  rw [run_cons, show exec F (n + 3) (mid [.num 612, .num 792, .mark, .name c!"PageSize", .mark] path cur ms) .rbrack = some (mid [.array, .name c!"PageSize", .mark] path cur ms) from rfl, Option.bind_some]
  rw [run_cons, show exec F (n + 3) (mid [.array, .name c!"PageSize", .mark] path cur ms) .rdict = some (mid [.dict] path cur ms) from rfl, Option.bind_some]
  go mid_setpagedevice _ _ _ _ _ _
  go mid_num _ _ _ _ _ _ _ _ (1/10) (by decide +kernel)
  go mid_setlinewidth _ _ _ _ _ _ _
  go mid_newpath _ _ _ _ _ _
  go mid_num _ _ _ _ _ _ _ _ 5 (by decide +kernel)
  go mid_num _ _ _ _ _ _ _ _ 5 (by decide +kernel)
  go mid_moveto _ _ _ _ _ _ _ _
  go mid_num _ _ _ _ _ _ _ _ 5 (by decide +kernel)
  go mid_num _ _ _ _ _ _ _ _ 607 (by decide +kernel)
  go mid_lineto _ _ _ _ _ _ _ _
  go mid_num _ _ _ _ _ _ _ _ 787 (by decide +kernel)
  go mid_num _ _ _ _ _ _ _ _ 607 (by decide +kernel)
  go mid_lineto _ _ _ _ _ _ _ _
  go mid_num _ _ _ _ _ _ _ _ 787 (by decide +kernel)
  go mid_num _ _ _ _ _ _ _ _ 5 (by decide +kernel)
  go mid_lineto _ _ _ _ _ _ _ _
  go mid_num _ _ _ _ _ _ _ _ 5 (by decide +kernel)
  go mid_num _ _ _ _ _ _ _ _ 5 (by decide +kernel)
  go mid_lineto _ _ _ _ _ _ _ _
  go mid_stroke _ _ _ _ _ _
  rfl

theorem run_text (a b : Str) (s : Str) (c : Bool) (qx qy : ℚ) (ha : readNum a = some qx) (hb : readNum b = some qy) :
    ∃ path' cur', run F (n + 3) (mid [] path cur ms) ([x c!"newpath", x a, x b, x c!"moveto", .str s] ++ (if c then [x c!"CenterText"] else []) ++ [x c!"show"]) =
      some (mid [] path' cur' (ms ++ [.text (if c then ⟨qx - (F.width c!"Courier" 8 s).x / 2, qy - (F.bbox c!"Courier").2.2.2 * 8 / 3200⟩ else ⟨qx, qy⟩) s c!"Courier" 8])) := by
  rw [run_append, run_append]
  go mid_newpath _ _ _ _ _ _
  go mid_num _ _ _ _ _ _ _ _ qx ha
  go mid_num _ _ _ _ _ _ _ _ qy hb
  go mid_moveto _ _ _ _ _ _ _ _
  go mid_str _ _ _ _ _ _ _
  rw [run_nil, Option.bind_some]
  cases c
  · simp only [Bool.false_eq_true, if_false, run_nil, Option.bind_some]
    go mid_show _ _ _ _ _ _ _
    exact ⟨_, _, rfl⟩
  · simp only [if_true]
    go mid_center _ _ _ _ _ _ _
    rw [run_nil, Option.bind_some]
    go mid_show _ _ _ _ _ _ _
    exact ⟨_, _, rfl⟩

theorem run_arc (a b c d e : Str) (q1 q2 q3 q4 q5 : ℚ) (ha : readNum a = some q1) (hb : readNum b = some q2) (hc : readNum c = some q3)
    (hd : readNum d = some q4) (he : readNum e = some q5) :
    run F (n + 3) (mid [] path cur ms) [x c!"newpath", x a, x b, x c, x d, x e, x c!"arc", x c!"stroke"] =
      some (mid [] [] none (ms ++ [.stroke [.arc ⟨q1, q2⟩ q3 q4 q5]])) := by
  go mid_newpath _ _ _ _ _ _
  go mid_num _ _ _ _ _ _ _ _ _ ha
  go mid_num _ _ _ _ _ _ _ _ _ hb
  go mid_num _ _ _ _ _ _ _ _ _ hc
  go mid_num _ _ _ _ _ _ _ _ _ hd
  go mid_num _ _ _ _ _ _ _ _ _ he
  go mid_arc _ _ _ _ _ _ _ _ _ _ _
  go mid_stroke _ _ _ _ _ _
  rfl

theorem run_line (a b c d : Str) (q1 q2 q3 q4 : ℚ) (ha : readNum a = some q1) (hb : readNum b = some q2) (hc : readNum c = some q3)
    (hd : readNum d = some q4) :
    run F (n + 3) (mid [] path cur ms) [x c!"newpath", x a, x b, x c!"moveto", x c, x d, x c!"lineto", x c!"stroke"] =
      some (mid [] [] none (ms ++ [.stroke [.move ⟨q1, q2⟩, .line ⟨q3, q4⟩]])) := by
  go mid_newpath _ _ _ _ _ _
  go mid_num _ _ _ _ _ _ _ _ _ ha
  go mid_num _ _ _ _ _ _ _ _ _ hb
  go mid_moveto _ _ _ _ _ _ _ _
  go mid_num _ _ _ _ _ _ _ _ _ hc
  go mid_num _ _ _ _ _ _ _ _ _ hd
  go mid_lineto _ _ _ _ _ _ _ _
  go mid_stroke _ _ _ _ _ _
  rfl

end

end PS
end S2P
