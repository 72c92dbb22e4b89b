import Verif.Model.Lexer

/-! # What the words of a script are

Independent of the lexer's regular expressions and of the way it runs them. -/

namespace S2P

def Digit (c : Char) : Prop := '0' ≤ c ∧ c ≤ '9'
def Letter (c : Char) : Prop := ('a' ≤ c ∧ c ≤ 'z') ∨ ('A' ≤ c ∧ c ≤ 'Z') ∨ c = '_'

/-- a letter or underscore followed by letters, underscores and digits -/
def IsWord (m : Str) : Prop := ∃ c t, m = c :: t ∧ Letter c ∧ ∀ x ∈ t, Letter x ∨ Digit x

/-- a sign or nothing -/
def IsSignStr (m : Str) : Prop := m = [] ∨ m = ['+'] ∨ m = ['-']

def Digits (m : Str) : Prop := ∀ x ∈ m, Digit x

/-- `m` is an optional sign, then digits, optionally followed by a point and more digits -/
def IsNumA (m : Str) : Prop :=
  ∃ sg ip, IsSignStr sg ∧ Digits ip ∧ ip ≠ [] ∧ (m = sg ++ ip ∨ ∃ fp, Digits fp ∧ m = sg ++ ip ++ '.' :: fp)

/-- `m` is an optional sign, then a point and digits -/
def IsNumB (m : Str) : Prop := ∃ sg fp, IsSignStr sg ∧ Digits fp ∧ fp ≠ [] ∧ m = sg ++ '.' :: fp

/-- the value of a string of digits, most significant first -/
def natVal : Str → Nat
  | [] => 0
  | c :: t => (c.toNat - 48) * 10 ^ t.length + natVal t

/-- the numeral `m` denotes `q` -/
def Denotes (m : Str) (q : Rat) : Prop :=
  ∃ sg ip fp, IsSignStr sg ∧ Digits ip ∧ Digits fp ∧ (m = sg ++ ip ∧ fp = [] ∨ m = sg ++ ip ++ '.' :: fp) ∧
    q = (if sg = ['-'] then -1 else 1) * ((natVal ip : Rat) + (natVal fp : Rat) / (10 : Rat) ^ fp.length)

/-- the inside of a string literal as it stands in the script, and the text it denotes -/
inductive Quoted : Str → Str → Prop
  | nil : Quoted [] []
  | plain (c : Char) (h : c ≠ '"' ∧ c ≠ '\\' ∧ c ≠ '\n') (m v : Str) : Quoted m v → Quoted (c :: m) (c :: v)
  | newline (m v : Str) : Quoted m v → Quoted ('\\' :: 'n' :: m) ('\n' :: v)
  | esc (c : Char) (h : c = '\'' ∨ c = '"' ∨ c = '?' ∨ c = '\\') (m v : Str) : Quoted m v → Quoted ('\\' :: c :: m) (c :: v)

/-- a string literal, quotes included -/
def IsLiteral (m : Str) : Prop := ∃ b v, Quoted b v ∧ m = '"' :: b ++ ['"']

/-- how a character is written between double quotes -/
def escChar (c : Char) : Str :=
  if c = '"' then ['\\', '"'] else if c = '\\' then ['\\', '\\'] else if c = '\n' then ['\\', 'n'] else [c]

/-- a text written as a string literal -/
def quote (s : Str) : Str := '"' :: s.flatMap escChar ++ ['"']

def IsBlankStr (m : Str) : Prop := m = [' '] ∨ m = ['\t'] ∨ m = ['\n'] ∨ m = ['\r']

/-- two slashes and the rest of the line -/
def IsComment (m : Str) : Prop := ∃ t, m = '/' :: '/' :: t ∧ '\n' ∉ t

/-- the punctuation characters -/
def puncts : Str := c!"{}[]()=;:,@"

/-- the reserved words -/
def keywords {α : Type} : List (Str × Tok α) :=
  [(c!"angle", .kAngle), (c!"dia", .kDia), (c!"dim", .kDim), (c!"draw", .kDraw), (c!"load", .kLoad), (c!"page", .kPage),
   (c!"rad", .kRad), (c!"text", .kText)]

variable {α : Type} [FP α]

/-- A lexer rule: what it accepts, and what it hands on for a text that ends on a given line (`none`: nothing). -/
structure Rule (α : Type) where
  accepts : Str → Prop
  makes : Str → Nat → Option (Item α) → Prop

/-- what a numeral becomes -/
def NumItem (m : Str) (l : Nat) (o : Option (Item α)) : Prop :=
  ∃ q, Denotes m q ∧ o = some (match (FP.ofDec32 q : Option α) with | some x => .tok (.num x) l | none => .boom)

/-- what a string literal becomes; with a NUL character inside, some string token -/
def LitItem (m : Str) (l : Nat) (o : Option (Item α)) : Prop :=
  if '\x00' ∈ m then o = some (.tok (.str (newQuote (m.takeWhile (· != '\x00')))) l)
  else ∃ b v, Quoted b v ∧ m = '"' :: b ++ ['"'] ∧ o = some (.tok (.str v) l)

/-- The rules in order of priority. -/
def lexRules : List (Rule α) :=
  puncts.map (fun c => ⟨(· = [c]), fun _ l o => o = some (.tok (.p c) l)⟩) ++
  keywords.map (fun k => ⟨(· = k.1), fun _ l o => o = some (.tok k.2 l)⟩) ++
  [⟨IsWord, fun m l o => o = some (.tok (.id m) l)⟩,
   ⟨IsNumA, NumItem⟩,
   ⟨IsNumB, NumItem⟩,
   ⟨IsLiteral, LitItem⟩,
   ⟨IsBlankStr, fun _ _ o => o = none⟩,
   ⟨IsComment, fun _ _ o => o = none⟩,
   ⟨fun m => ∃ c, m = [c] ∧ c ≠ '\n', fun _ _ o => o = some .bad⟩]

/-- `m` is the longest prefix of `s` accepted by any rule, and `r` is the first rule accepting it -/
def Best (s m : Str) (r : Rule α) : Prop :=
  m ≠ [] ∧ m <+: s ∧ (∀ r' ∈ lexRules (α := α), ∀ m', m' <+: s → r'.accepts m' → m'.length ≤ m.length) ∧
  ∃ i, (lexRules (α := α))[i]? = some r ∧ r.accepts m ∧ ∀ (j : Nat) (r' : Rule α), j < i → (lexRules (α := α))[j]? = some r' → ¬ r'.accepts m

/-- `s`, starting on line `line`, is cut into the items `its` -/
inductive Scans : Str → Nat → List (Item α) → Prop
  | nil (line : Nat) : Scans [] line []
  | emit (m rest : Str) (line : Nat) (r : Rule α) (it : Item α) (its : List (Item α)) : Best (m ++ rest) m r →
      r.makes m (line + m.count '\n') (some it) → Scans rest (line + m.count '\n') its → Scans (m ++ rest) line (it :: its)
  | skip (m rest : Str) (line : Nat) (r : Rule α) (its : List (Item α)) : Best (m ++ rest) m r →
      r.makes m (line + m.count '\n') none → Scans rest (line + m.count '\n') its → Scans (m ++ rest) line its

end S2P
