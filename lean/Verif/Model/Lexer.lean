import Verif.Model.Ast

/-! # lexer.l

flex is modelled by its documented rule (longest match, earliest rule on ties) executed with Brzozowski derivatives. -/

namespace S2P

/-- Regular expressions as used in lexer.l.  A character class is a predicate. -/
inductive Re where
  | eps
  | cls (p : Char → Bool)
  | seq (a b : Re)
  | alt (a b : Re)
  | star (a : Re)

namespace Re

/-- the expression that matches nothing -/
def none : Re := cls (fun _ => false)

/-- matches the empty string -/
def nullable : Re → Bool
  | eps => true
  | cls _ => false
  | seq a b => a.nullable && b.nullable
  | alt a b => a.nullable || b.nullable
  | star _ => true

/-- derivative by one character -/
def deriv (c : Char) : Re → Re
  | eps => none
  | cls p => if p c then eps else none
  | seq a b => if a.nullable then alt (seq (a.deriv c) b) (b.deriv c) else seq (a.deriv c) b
  | alt a b => alt (a.deriv c) (b.deriv c)
  | star a => seq (a.deriv c) (star a)

/-- a literal -/
def lit : Str → Re
  | [] => eps
  | [c] => cls (· == c)
  | c :: cs => seq (cls (· == c)) (lit cs)

def plus (a : Re) : Re := seq a (star a)
def opt (a : Re) : Re := alt a eps

end Re

/-- length of the longest prefix matched, starting from `n` characters already read and `best` so far -/
def longestAux (r : Re) (s : Str) (n : Nat) (best : Option Nat) : Option Nat :=
  let best := if r.nullable then some n else best
  match s with
  | [] => best
  | c :: t => longestAux (r.deriv c) t (n + 1) best

/-- length of the longest prefix of `s` matched by `r` -/
def longest (r : Re) (s : Str) : Option Nat := longestAux r s 0 none

/-- tokens (lexer.l:74-98, parser.y:65-66) -/
inductive Tok (α : Type) where
  /-- the single-character tokens -/
  | p (c : Char)
  | kAngle | kDia | kDim | kDraw | kLoad | kPage | kRad | kText
  | num (x : α)
  | id (s : Str)
  | str (s : Str)
  deriving DecidableEq

/-- what the rules do -/
inductive Act where
  | punct (c : Char)
  | kAngle | kDia | kDim | kDraw | kLoad | kPage | kRad | kText
  | ident
  | number
  | string
  | skip
  | error
  deriving DecidableEq

def isAlpha_ (c : Char) : Bool := ('a' ≤ c && c ≤ 'z') || ('A' ≤ c && c ≤ 'Z') || c == '_'
def isAlnum_ (c : Char) : Bool := isAlpha_ c || isDigit c
def isSign (c : Char) : Bool := c == '-' || c == '+'
/-- `[ \t\n\r]` (lexer.l:100) -/
def isBlank (c : Char) : Bool := c == ' ' || c == '\t' || c == '\n' || c == '\r'
/-- `[^"\\\n]` (lexer.l:98) -/
def isPlain (c : Char) : Bool := c != '"' && c != '\\' && c != '\n'
/-- `['"?\\n]` (lexer.l:98) -/
def isEsc (c : Char) : Bool := c == '\'' || c == '"' || c == '?' || c == '\\' || c == 'n'
/-- `.` -/
def notNl (c : Char) : Bool := c != '\n'

/-- lexer.l:95 -/
def reIdent : Re := .seq (.cls isAlpha_) (.star (.cls isAlnum_))
/-- lexer.l:96 -/
def reNum1 : Re :=
  .seq (.opt (.cls isSign)) (.seq (.plus (.cls isDigit)) (.opt (.seq (.cls (· == '.')) (.star (.cls isDigit)))))
/-- lexer.l:97 -/
def reNum2 : Re := .seq (.opt (.cls isSign)) (.seq (.cls (· == '.')) (.plus (.cls isDigit)))
/-- lexer.l:98 -/
def reStr : Re :=
  .seq (.cls (· == '"')) (.seq
    (.star (.alt (.cls isPlain) (.seq (.cls (· == '\\')) (.cls isEsc)))) (.cls (· == '"')))
/-- lexer.l:101 -/
def reComment : Re := .seq (.cls (· == '/')) (.seq (.cls (· == '/')) (.star (.cls notNl)))

/-- the rules in file order (lexer.l:74-103) -/
def rules : List (Re × Act) :=
  [ (.lit ['{'], .punct '{'), (.lit ['}'], .punct '}'), (.lit ['['], .punct '['), (.lit [']'], .punct ']'),
    (.lit ['('], .punct '('), (.lit [')'], .punct ')'), (.lit ['='], .punct '='), (.lit [';'], .punct ';'),
    (.lit [':'], .punct ':'), (.lit [','], .punct ','), (.lit ['@'], .punct '@'),
    (.lit c!"angle", .kAngle), (.lit c!"dia", .kDia), (.lit c!"dim", .kDim), (.lit c!"draw", .kDraw),
    (.lit c!"load", .kLoad), (.lit c!"page", .kPage), (.lit c!"rad", .kRad), (.lit c!"text", .kText),
    (reIdent, .ident), (reNum1, .number), (reNum2, .number), (reStr, .string),
    (.cls isBlank, .skip), (reComment, .skip), (.cls notNl, .error) ]

/-- among the rules, the longest match, the earliest rule on ties; `best` is the choice so far -/
def pick (s : Str) : List (Re × Act) → Option (Nat × Act) → Option (Nat × Act)
  | [], best => best
  | (r, a) :: rs, best =>
    match longest r s, best with
    | none, _ => pick s rs best
    | some n, none => pick s rs (some (n, a))
    | some n, some (m, b) => pick s rs (if m < n then some (n, a) else some (m, b))

/-- the value of a literal matched by lexer.l:96-97, as `strtof` reads it -/
def numVal (s : Str) : Rat :=
  let (neg, s) := match s with
    | '-' :: t => (true, t)
    | '+' :: t => (false, t)
    | t => (false, t)
  let ip := s.takeWhile isDigit
  let fp := (s.dropWhile isDigit).drop 1
  let v : Rat := (digitsVal (ip ++ fp) : Rat) / (10 : Rat) ^ fp.length
  if neg then -v else v

/-- what the lexer hands to the parser -/
inductive Item (α : Type) where
  | tok (t : Tok α) (line : Nat)
  /-- lexer.l:103: error code 256, after a message -/
  | bad
  /-- `std::stof` throws `std::out_of_range` (lexer.l:96-97) -/
  | boom
  deriving DecidableEq

variable {α : Type} [FP α]

/-- the action for matched text `m` on line `line`; `none` = no token.
`yytext` is a C string (lexer.l:95-98), so it ends at the first NUL; only string literals can contain one. -/
def actItem (a : Act) (m : Str) (line : Nat) : Option (Item α) :=
  match a with
  | .punct c => some (.tok (.p c) line)
  | .kAngle => some (.tok .kAngle line)
  | .kDia => some (.tok .kDia line)
  | .kDim => some (.tok .kDim line)
  | .kDraw => some (.tok .kDraw line)
  | .kLoad => some (.tok .kLoad line)
  | .kPage => some (.tok .kPage line)
  | .kRad => some (.tok .kRad line)
  | .kText => some (.tok .kText line)
  | .ident => some (.tok (.id m) line)
  | .number => match FP.ofDec32 (numVal m) with
    | some x => some (.tok (.num x) line)
    | none => some .boom
  | .string => some (.tok (.str (newQuote (m.takeWhile (· != '\x00')))) line)
  | .skip => none
  | .error => some .bad

/-- number of newlines -/
def newlines (s : Str) : Nat := s.count '\n'

/-- The scanner loop, first line number `line`.  flex updates `yylineno` before the action runs, so a token's line counts the
newlines up to and including the token (lexer.l:44-56). -/
def lexFrom (s : Str) (line : Nat) : List (Item α) :=
  match s with
  | [] => []
  | c :: t =>
    match pick (c :: t) rules none with
    | some (n + 1, a) =>
      let m := (c :: t).take (n + 1)
      let line' := line + newlines m
      let rest := lexFrom (t.drop n) line'
      match actItem a m line' with
      | some i => i :: rest
      | none => rest
    | _ => [] -- not reached: some rule matches at least one character (proved in Lemmas/Lexer)
termination_by s.length
decreasing_by simp; omega

/-- parser.cc:55-57: the whole script, starting on line 1 -/
def lex (s : Str) : List (Item α) := lexFrom s 1

end S2P
