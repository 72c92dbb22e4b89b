import Verif.Model.FP

/-! # Reading PostScript

Written from the PostScript Language Reference, third edition, section 3.2, not from ps.cc.  The scanner is a machine that reads one
character at a time.  Not covered, and reported as errors: hexadecimal and base-85 strings, and immediately evaluated names (`//n`). -/

namespace S2P
namespace PS

inductive Tok where
  /-- a run of regular characters: a number or an executable name -/
  | exec (s : Str)
  /-- a literal name `/n` -/
  | name (s : Str)
  /-- a string -/
  | str (s : Str)
  | lbrace | rbrace | lbrack | rbrack | ldict | rdict
  deriving DecidableEq

/-- 3.2.2: null, tab, line feed, form feed, carriage return, space -/
def isSpace (c : Char) : Bool := c.toNat = 0 || c.toNat = 9 || c.toNat = 10 || c.toNat = 12 || c.toNat = 13 || c.toNat = 32

/-- 3.2.2: the self-delimiting characters -/
def isDelim (c : Char) : Bool :=
  c = '(' || c = ')' || c = '<' || c = '>' || c = '[' || c = ']' || c = '{' || c = '}' || c = '/' || c = '%'

def isRegular (c : Char) : Bool := !isSpace c && !isDelim c

def isOctal (c : Char) : Bool := 48 ≤ c.toNat && c.toNat ≤ 55

/-- the newline characters; a comment also ends at a form feed -/
def isNl (c : Char) : Bool := c.toNat = 10 || c.toNat = 13
def endsComment (c : Char) : Bool := isNl c || c.toNat = 12

inductive Mode where
  /-- between tokens -/
  | gap
  /-- in a run of regular characters, after `/` or not -/
  | run (lit : Bool) (acc : Str)
  | comment
  /-- in a string, inside `depth` further parentheses, having read `acc` -/
  | str (depth : Nat) (acc : Str)
  /-- the same, just after a carriage return (already read as a line feed): a line feed belongs to it -/
  | strCr (depth : Nat) (acc : Str)
  /-- the same, after a backslash -/
  | esc (depth : Nat) (acc : Str)
  /-- the same, after a backslash and a carriage return -/
  | escCr (depth : Nat) (acc : Str)
  /-- the same, in a `\ddd` of value `val` of which up to `left` digits may follow -/
  | oct (depth : Nat) (acc : Str) (val left : Nat)
  /-- after a first `<` or `>` -/
  | lt | gt
  | err
  deriving DecidableEq

/-- what has been read, and where the scanner is -/
structure St where
  out : List Tok
  mode : Mode
  deriving DecidableEq

/-- a character between tokens -/
def St.begin (o : List Tok) (c : Char) : St :=
  if isSpace c then ⟨o, .gap⟩
  else if c = '%' then ⟨o, .comment⟩
  else if c = '(' then ⟨o, .str 0 []⟩
  else if c = ')' then ⟨o, .err⟩
  else if c = '<' then ⟨o, .lt⟩
  else if c = '>' then ⟨o, .gt⟩
  else if c = '[' then ⟨o ++ [.lbrack], .gap⟩
  else if c = ']' then ⟨o ++ [.rbrack], .gap⟩
  else if c = '{' then ⟨o ++ [.lbrace], .gap⟩
  else if c = '}' then ⟨o ++ [.rbrace], .gap⟩
  else if c = '/' then ⟨o, .run true []⟩
  else ⟨o, .run false [c]⟩

/-- the token a run of regular characters is -/
def ofRun (lit : Bool) (acc : Str) : Tok := if lit then .name acc else .exec acc

/-- a character in a string -/
def St.inStr (o : List Tok) (d : Nat) (acc : Str) (c : Char) : St :=
  if c = '\\' then ⟨o, .esc d acc⟩
  else if c = '(' then ⟨o, .str (d + 1) (acc ++ [c])⟩
  else if c = ')' then (if d = 0 then ⟨o ++ [.str acc], .gap⟩ else ⟨o, .str (d - 1) (acc ++ [c])⟩)
  else if c.toNat = 13 then ⟨o, .strCr d (acc ++ ['\n'])⟩
  else ⟨o, .str d (acc ++ [c])⟩

/-- one character -/
def St.step (s : St) (c : Char) : St :=
  match s.mode with
  | .gap => St.begin s.out c
  | .run lit acc =>
    if isRegular c then ⟨s.out, .run lit (acc ++ [c])⟩
    else if lit && acc = [] && c = '/' then ⟨s.out, .err⟩
    else St.begin (s.out ++ [ofRun lit acc]) c
  | .comment => if endsComment c then ⟨s.out, .gap⟩ else s
  | .str d acc => St.inStr s.out d acc c
  | .strCr d acc => if c = '\n' then ⟨s.out, .str d acc⟩ else St.inStr s.out d acc c
  | .esc d acc =>
    if isOctal c then ⟨s.out, .oct d acc (c.toNat - 48) 2⟩
    else if c.toNat = 13 then ⟨s.out, .escCr d acc⟩
    else if c = '\n' then ⟨s.out, .str d acc⟩
    else if c = 'n' then ⟨s.out, .str d (acc ++ ['\n'])⟩
    else if c = 'r' then ⟨s.out, .str d (acc ++ [Char.ofNat 13])⟩
    else if c = 't' then ⟨s.out, .str d (acc ++ [Char.ofNat 9])⟩
    else if c = 'b' then ⟨s.out, .str d (acc ++ [Char.ofNat 8])⟩
    else if c = 'f' then ⟨s.out, .str d (acc ++ [Char.ofNat 12])⟩
    else ⟨s.out, .str d (acc ++ [c])⟩
  | .escCr d acc => if c = '\n' then ⟨s.out, .str d acc⟩ else St.inStr s.out d acc c
  | .oct d acc v n =>
    if isOctal c && n ≠ 0 then ⟨s.out, .oct d acc (v * 8 + (c.toNat - 48)) (n - 1)⟩
    else St.inStr s.out d (acc ++ [Char.ofNat (v % 256)]) c
  | .lt => if c = '<' then ⟨s.out ++ [.ldict], .gap⟩ else ⟨s.out, .err⟩
  | .gt => if c = '>' then ⟨s.out ++ [.rdict], .gap⟩ else ⟨s.out, .err⟩
  | .err => s

def St.reads (s : St) (text : Str) : St := text.foldl St.step s

/-- the tokens of a text; nothing if it is not well formed, for instance ends inside a string -/
def scan (text : Str) : Option (List Tok) :=
  let s := St.reads ⟨[], .gap⟩ text
  match s.mode with
  | .gap | .comment => some s.out
  | .run lit acc => some (s.out ++ [ofRun lit acc])
  | _ => none

/-- `text` stands for the tokens `ts` wherever it begins between tokens, and ends between tokens -/
def Reads (text : Str) (ts : List Tok) : Prop := ∀ o, St.reads ⟨o, .gap⟩ text = ⟨o ++ ts, .gap⟩

/-- line ends as the scanner reads them: a carriage return, alone or with a line feed after it, is one line feed -/
def eol : Str → Str
  | [] => []
  | c :: s =>
    if c.toNat = 13 then
      match s with
      | '\n' :: s' => '\n' :: eol s'
      | s => '\n' :: eol s
    else c :: eol s

/-- characters that have no special meaning in a string -/
def Plain (s : Str) : Prop := ∀ c ∈ s, c ≠ '(' ∧ c ≠ ')' ∧ c ≠ '\\' ∧ c.toNat ≠ 13

/-- characters that leave a comment unfinished -/
def OneLine (s : Str) : Prop := ∀ c ∈ s, endsComment c = false

end PS
end S2P
