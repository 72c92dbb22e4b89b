import Verif.Spec.PostScript
import Verif.Model.Page

set_option linter.unusedSectionVars false
set_option linter.unusedVariables false
set_option linter.unusedSimpArgs false

/-! # The scanner on text put together from pieces -/

namespace S2P
namespace PS

/-- `p` before what has been read -/
def St.after (p : List Tok) (s : St) : St := ⟨p ++ s.out, s.mode⟩

theorem begin_after (p o : List Tok) (c : Char) : St.begin (p ++ o) c = (St.begin o c).after p := by
  unfold St.begin
  simp only [apply_ite (St.after p)]
  simp only [St.after, List.append_assoc]

theorem inStr_after (p o : List Tok) (d : Nat) (acc : Str) (c : Char) : St.inStr (p ++ o) d acc c = (St.inStr o d acc c).after p := by
  unfold St.inStr
  split_ifs <;> simp [St.after]

theorem step_after (p : List Tok) (s : St) (c : Char) : (s.after p).step c = (s.step c).after p := by
  obtain ⟨o, m⟩ := s
  cases m <;> simp only [St.after, St.step]
  · exact begin_after _ _ _
  · split
    · rfl
    split
    · rfl
    rw [List.append_assoc]; exact begin_after _ _ _
  · split <;> rfl
  · exact inStr_after _ _ _ _ _
  · split
    · rfl
    exact inStr_after _ _ _ _ _
  · repeat' (split; · rfl)
    rfl
  · split
    · rfl
    exact inStr_after _ _ _ _ _
  · split
    · rfl
    exact inStr_after _ _ _ _ _
  · split <;> simp
  · split <;> simp

theorem reads_after (p : List Tok) (s : St) (t : Str) : (s.after p).reads t = (s.reads t).after p := by
  induction t generalizing s with
  | nil => rfl
  | cons c t ih =>
    simp only [St.reads, List.foldl_cons] at ih ⊢
    rw [step_after, ih]

theorem reads_append (s : St) (a b : Str) : s.reads (a ++ b) = (s.reads a).reads b := List.foldl_append

theorem reads_nil (s : St) : s.reads [] = s := rfl
theorem reads_cons (s : St) (c : Char) (t : Str) : s.reads (c :: t) = (s.step c).reads t := rfl

theorem reads_of (t : Str) (ts : List Tok) (h : St.reads ⟨[], .gap⟩ t = ⟨ts, .gap⟩) : Reads t ts := by
  intro o
  have := reads_after o ⟨[], .gap⟩ t
  rw [h] at this
  simpa [St.after] using this

theorem Reads.nil : Reads [] [] := fun o => by simp [reads_nil]
theorem Reads.app {a b : Str} {ts us : List Tok} (ha : Reads a ts) (hb : Reads b us) : Reads (a ++ b) (ts ++ us) := by
  intro o
  rw [reads_append, ha, hb, List.append_assoc]
theorem Reads.unique {a : Str} {ts us : List Tok} (h : Reads a ts) (h' : Reads a us) : ts = us := by
  have := (h []).symm.trans (h' [])
  simpa using this
theorem Reads.scan {a : Str} {ts : List Tok} (h : Reads a ts) : PS.scan a = some ts := by
  unfold PS.scan
  rw [h []]
  simp

/-- a run of regular characters -/
theorem reads_run (o : List Tok) (l : Bool) (w : Str) (hw : ∀ c ∈ w, isRegular c = true) (acc : Str) :
    St.reads ⟨o, .run l acc⟩ w = ⟨o, .run l (acc ++ w)⟩ := by
  induction w generalizing acc with
  | nil => simp [reads_nil]
  | cons c w ih =>
    rw [reads_cons]
    simp only [St.step, hw c List.mem_cons_self, if_true]
    rw [ih (fun x hx => hw x (List.mem_cons_of_mem _ hx))]
    simp

theorem begin_regular (o : List Tok) (c : Char) (hc : isRegular c = true) : St.begin o c = ⟨o, .run false [c]⟩ := by
  simp only [isRegular, isDelim, Bool.and_eq_true, Bool.not_eq_true', Bool.or_eq_false_iff, decide_eq_false_iff_not] at hc
  obtain ⟨h1, ⟨⟨⟨⟨⟨⟨⟨⟨⟨h2, h3⟩, h4⟩, h5⟩, h6⟩, h7⟩, h8⟩, h9⟩, h10⟩, h11⟩⟩ := hc
  simp [St.begin, h1, h2, h3, h4, h5, h6, h7, h8, h9, h10, h11]

/-- a number or executable name and a space after it -/
theorem reads_word (w : Str) (hw : ∀ c ∈ w, isRegular c = true) (hne : w ≠ []) (sp : Char) (hsp : isSpace sp = true) : Reads (w ++ [sp]) [.exec w] := by
  intro o
  cases w with
  | nil => exact absurd rfl hne
  | cons c w =>
    rw [List.cons_append, reads_cons, reads_append]
    simp only [St.step]
    rw [begin_regular o c (hw c List.mem_cons_self), reads_run o false w (fun x hx => hw x (List.mem_cons_of_mem _ hx))]
    rw [reads_cons, reads_nil]
    have : isRegular sp = false := by simp [isRegular, hsp]
    simp [St.step, this, St.begin, hsp, ofRun]

theorem reads_comment (o : List Tok) (s : Str) (hs : OneLine s) : St.reads ⟨o, .comment⟩ s = ⟨o, .comment⟩ := by
  induction s with
  | nil => rfl
  | cons c s ih =>
    rw [reads_cons]
    simp only [St.step, hs c List.mem_cons_self]
    exact ih (fun x hx => hs x (List.mem_cons_of_mem _ hx))

/-- one or more characters in an unfinished comment, then a line feed -/
theorem comment_reads (a s b : Str) (ts us : List Tok) (hs : OneLine s) (ha : St.reads ⟨[], .gap⟩ a = ⟨ts, .comment⟩)
    (hb : St.reads ⟨[], .comment⟩ b = ⟨us, .gap⟩) : Reads (a ++ s ++ b) (ts ++ us) := by
  apply reads_of
  rw [reads_append, reads_append, ha, reads_comment ts s hs]
  have := reads_after ts ⟨[], .comment⟩ b
  rw [hb] at this
  simpa [St.after] using this

/-- with `eol`, after a carriage return -/
def eolCr (s : Str) : Str := match s with | '\n' :: s' => eol s' | s => eol s

theorem eol_cons (c : Char) (s : Str) : eol (c :: s) = if c.toNat = 13 then '\n' :: eolCr s else c :: eol s := by
  conv => lhs; unfold eol
  split
  · cases s with
    | nil => rfl
    | cons d s =>
      by_cases hd : d = '\n'
      · subst hd; rfl
      · unfold eolCr
        split
        · rename_i h; cases h; exact absurd rfl hd
        · split
          · rename_i h; cases h; exact absurd rfl hd
          · rfl
  · rfl

theorem escapeText_cons (c : Char) (s : Str) :
    escapeText (c :: s) = (if c = '(' ∨ c = ')' ∨ c = '\\' then ['\\', c] else [c]) ++ escapeText s := by
  simp [escapeText]

theorem reads_escaped (o : List Tok) (s : Str) : ∀ acc,
    St.reads ⟨o, .str 0 acc⟩ (escapeText s ++ [')']) = ⟨o ++ [.str (acc ++ eol s)], .gap⟩ ∧
    St.reads ⟨o, .strCr 0 acc⟩ (escapeText s ++ [')']) = ⟨o ++ [.str (acc ++ eolCr s)], .gap⟩ := by
  induction s with
  | nil =>
    intro acc
    simp [escapeText, reads_cons, reads_nil, St.step, St.inStr, eol, eolCr]
  | cons c s ih =>
    intro acc
    have hstr : St.reads ⟨o, .str 0 acc⟩ (escapeText (c :: s) ++ [')']) = ⟨o ++ [.str (acc ++ eol (c :: s))], .gap⟩ := by
      rw [escapeText_cons, eol_cons]
      by_cases hc : c = '(' ∨ c = ')' ∨ c = '\\'
      · rw [if_pos hc]
        have h13 : ¬ c.toNat = 13 := by rcases hc with rfl | rfl | rfl <;> decide
        rw [if_neg h13]
        simp only [List.cons_append, List.nil_append, reads_cons]
        have : St.step (St.step ⟨o, .str 0 acc⟩ '\\') c = ⟨o, .str 0 (acc ++ [c])⟩ := by
          rcases hc with rfl | rfl | rfl <;> simp [St.step, St.inStr, isOctal]
        rw [this, (ih _).1]
        simp
      · rw [if_neg hc]
        simp only [not_or] at hc
        simp only [List.cons_append, List.nil_append, reads_cons]
        simp only [St.step, St.inStr, hc, if_false]
        split
        · rw [(ih _).2]; simp
        · rw [(ih _).1]; simp
    refine ⟨hstr, ?_⟩
    by_cases hn : c = '\n'
    · subst hn
      rw [escapeText_cons, if_neg (by decide)]
      simp only [List.cons_append, List.nil_append, reads_cons]
      have : St.step ⟨o, .strCr 0 acc⟩ '\n' = ⟨o, .str 0 acc⟩ := by simp [St.step]
      rw [this, (ih _).1]
      rfl
    · have e : eolCr (c :: s) = eol (c :: s) := by
        unfold eolCr
        split
        · rename_i h; cases h; exact absurd rfl hn
        · rfl
      rw [e, ← hstr]
      rw [escapeText_cons]
      split
      · simp only [List.cons_append, List.nil_append, reads_cons]
        have : St.step ⟨o, .strCr 0 acc⟩ '\\' = St.step ⟨o, .str 0 acc⟩ '\\' := by simp [St.step]
        rw [this]
      · simp only [List.cons_append, List.nil_append, reads_cons]
        have : St.step ⟨o, .strCr 0 acc⟩ c = St.step ⟨o, .str 0 acc⟩ c := by simp [St.step, hn]
        rw [this]

/-- an escaped text in parentheses is one string -/
theorem reads_literal (s : Str) : Reads ('(' :: escapeText s ++ [')']) [.str (eol s)] := by
  intro o
  rw [List.cons_append, reads_cons]
  have : St.step ⟨o, .gap⟩ '(' = ⟨o, .str 0 []⟩ := by simp [St.step, St.begin, isSpace]
  rw [this, (reads_escaped o s []).1]
  simp

theorem reads_plain (o : List Tok) (s : Str) (hs : Plain s) : ∀ acc, St.reads ⟨o, .str 0 acc⟩ s = ⟨o, .str 0 (acc ++ s)⟩ := by
  induction s with
  | nil => intro acc; simp [reads_nil]
  | cons c s ih =>
    intro acc
    obtain ⟨h1, h2, h3, h4⟩ := hs c List.mem_cons_self
    rw [reads_cons]
    simp only [St.step, St.inStr, h1, h2, h3, h4, if_false]
    rw [ih (fun x hx => hs x (List.mem_cons_of_mem _ hx))]
    simp

/-- a diameter sign and plain text in parentheses is one string -/
theorem reads_diameter (s : Str) (hs : Plain s) : Reads ('(' :: (c!"\\351" ++ s) ++ [')']) [.str (Char.ofNat 233 :: s)] := by
  intro o
  have e : '(' :: (c!"\\351" ++ s) ++ [')'] = c!"(\\351" ++ (s ++ [')']) := by simp
  rw [e, reads_append]
  have : St.reads ⟨o, .gap⟩ c!"(\\351" = ⟨o, .oct 0 [] 233 0⟩ := by
    have h := reads_after o ⟨[], .gap⟩ c!"(\\351"
    rw [show St.reads ⟨[], .gap⟩ c!"(\\351" = ⟨[], .oct 0 [] 233 0⟩ from by decide +kernel] at h
    simpa [St.after] using h
  rw [this]
  have hstep : ∀ c, St.step ⟨o, .oct 0 [] 233 0⟩ c = St.step ⟨o, .str 0 [Char.ofNat 233]⟩ c := by
    intro c; simp [St.step]
  have key : St.reads ⟨o, .oct 0 [] 233 0⟩ (s ++ [')']) = St.reads ⟨o, .str 0 [Char.ofNat 233]⟩ (s ++ [')']) := by
    cases s with
    | nil => simp only [List.nil_append, reads_cons, hstep]
    | cons c s => simp only [List.cons_append, reads_cons, hstep]
  rw [key, reads_append, reads_plain o s hs]
  simp [reads_cons, reads_nil, St.step, St.inStr]

theorem eol_plain (s : Str) (h : ∀ c ∈ s, c.toNat ≠ 13) : eol s = s := by
  induction s with
  | nil => rfl
  | cons c s ih =>
    rw [eol_cons, if_neg (h c List.mem_cons_self), ih (fun x hx => h x (List.mem_cons_of_mem _ hx))]

end PS
end S2P
