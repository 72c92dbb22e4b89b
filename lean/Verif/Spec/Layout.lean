import Verif.Spec.Lex

/-! # Scripts as lexemes with layout between them

A lexeme is the source text of one token.  A layout of a list of lexemes is a text that has those lexemes, in order, with blanks
and comments before, between and after them. -/

namespace S2P

/-- blanks and comments that end with their line -/
inductive Blanks : Str → Prop
  | nil : Blanks []
  | ws (c : Char) (h : c = ' ' ∨ c = '\t' ∨ c = '\n' ∨ c = '\r') (s : Str) : Blanks s → Blanks (c :: s)
  | comment (t : Str) (h : '\n' ∉ t) (s : Str) : Blanks s → Blanks ('/' :: '/' :: t ++ '\n' :: s)

/-- what may stand after the last lexeme: as above, and a comment may end with the text -/
def BlanksEnd (s : Str) : Prop := Blanks s ∨ ∃ p t, Blanks p ∧ '\n' ∉ t ∧ s = p ++ '/' :: '/' :: t

/-- a punctuation character, a word, a number or a string literal -/
def IsToken (w : Str) : Prop := (∃ c ∈ puncts, w = [c]) ∨ IsWord w ∨ IsNumA w ∨ IsNumB w ∨ IsLiteral w

/-- a token's text, or a character that is no token (a lexical error) -/
def IsLexeme (w : Str) : Prop := IsToken w ∨ ∃ c, w = [c] ∧ ¬ IsBlankStr [c]

/-- no longer piece of text could be read here than `w` -/
def NoGlue (w rest : Str) : Prop := ∀ m, m <+: w ++ rest → IsToken m ∨ IsComment m → m.length ≤ w.length

inductive Layout : List Str → Str → Prop
  | done (s : Str) (h : BlanksEnd s) : Layout [] s
  | step (p w rest : Str) (ws : List Str) (hp : Blanks p) (hw : IsLexeme w) (hg : NoGlue w rest) (hl : Layout ws rest) :
      Layout (w :: ws) (p ++ w ++ rest)

end S2P
