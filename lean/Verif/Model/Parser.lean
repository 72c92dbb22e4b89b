import Verif.Model.Lexer

/-! # parser.y

A predictive parser for the grammar; Verif/Spec/Grammar.lean has the productions, and C03 proves the two agree.
Results: `.error` = the process stops, `.ok none` = `Parse` returns non-zero, `.ok (some (v, rest))` = `v` was read. -/

namespace S2P
variable {α : Type} [FP α]

abbrev PRes (β α : Type) := Except Abort (Option (β × List (Item α)))

/-- the next item is not what the grammar allows: a syntax error, unless reading the item already stops the process -/
def stop {β : Type} : List (Item α) → Except Abort (Option β)
  | .boom :: _ => .error .exception
  | _ => .ok none

/-- read one punctuation token -/
def expect {β : Type} (c : Char) (k : List (Item α) → Except Abort (Option β)) : List (Item α) → Except Abort (Option β)
  | .tok (.p d) l :: rest => if d = c then k rest else stop (.tok (.p d) l :: rest)
  | its => stop its

/-- read one number -/
def number {β : Type} (k : α → List (Item α) → Except Abort (Option β)) : List (Item α) → Except Abort (Option β)
  | .tok (.num x) _ :: rest => k x rest
  | its => stop its

/-- read one identifier, with its line -/
def ident {β : Type} (k : Str → Nat → List (Item α) → Except Abort (Option β)) : List (Item α) → Except Abort (Option β)
  | .tok (.id n) l :: rest => k n l rest
  | its => stop its

/-- read one string literal -/
def strLit {β : Type} (k : Str → List (Item α) → Except Abort (Option β)) : List (Item α) → Except Abort (Option β)
  | .tok (.str s) _ :: rest => k s rest
  | its => stop its

/-- go on after a success -/
def andThen {β γ : Type} (r : PRes β α) (k : β → List (Item α) → Except Abort (Option γ)) : Except Abort (Option γ) :=
  match r with
  | .ok (some (v, its)) => k v its
  | .ok none => .ok none
  | .error e => .error e

/-- a value has been read -/
def done {β : Type} (v : β) (its : List (Item α)) : PRes β α := .ok (some (v, its))

/-- parser.y:106 `location`, after the `[` -/
def parseLocation : List (Item α) → PRes (V2 α) α :=
  number fun a => expect ',' (number fun b => expect ']' (done ⟨a, b⟩))

/-- parser.y:109 `point`, the first production after the `[` on line `l` -/
def pointTail (l : Nat) : List (Item α) → PRes (Pt α) α :=
  number fun a => expect ',' (number fun b => expect ',' (number fun c => expect ']' (done (.val ⟨a, b, c⟩ l))))

/-- parser.y:109-111 `point` -/
def parsePoint : List (Item α) → PRes (Pt α) α
  | .tok (.p c) l :: its => if c = '[' then pointTail l its else stop (.tok (.p c) l :: its)
  | .tok (.id n) l :: .tok (.p c) l' :: its =>
    if c = '(' then andThen (parsePoint its) (fun p => expect ')' (done (.func n p l))) else stop (.tok (.p c) l' :: its)
  | .tok (.id _) _ :: its => stop its
  | its => stop its

/-- parser.y:125-126 `string_lit`, after the first literal: appends the following ones -/
def parseStrs (acc : Str) : List (Item α) → Str × List (Item α)
  | .tok (.str s) _ :: its => parseStrs (acc ++ s) its
  | its => (acc, its)

/-- the look-ahead token has been read: the process has stopped if that was not possible -/
def lookAhead {β : Type} (v : β) (its : List (Item α)) : PRes β α :=
  match its with
  | .boom :: _ => .error .exception
  | _ => .ok (some (v, its))

/-- parser.y:137 `Scale{$3, $5}`: conversion to int, undefined out of range -/
def mkScale (a b : α) (its : List (Item α)) : PRes (MetaVal α) α :=
  match FP.toInt a, FP.toInt b with
  | some i, some j => .ok (some (.scale i j, its))
  | _, _ => .error .ub

/-- parser.y:132-133,136-137: a number `a`, or a scale starting with `a` -/
def valNum (a : α) : List (Item α) → PRes (MetaVal α) α
  | .tok (.p c) l :: its => if c = ':' then number (mkScale a) its else .ok (some (.num a, .tok (.p c) l :: its))
  | its => lookAhead (.num a) its

/-- parser.y:106,109: after `[ NUM , NUM`, a location or a point -/
def valPair (l : Nat) (a b : α) : List (Item α) → PRes (MetaVal α) α
  | .tok (.p c) l' :: its =>
    if c = ']' then done (.loc ⟨a, b⟩) its
    else if c = ',' then (number fun z => expect ']' (done (.pt (.val ⟨a, b, z⟩ l)))) its
    else stop (.tok (.p c) l' :: its)
  | its => stop its

/-- parser.y:128-137: the value of a property, after `ID '='` -/
def parseVal : List (Item α) → PRes (MetaVal α) α
  | .tok (.str s) _ :: its => lookAhead (.str (parseStrs s its).1) (parseStrs s its).2
  | .tok (.num a) _ :: its => valNum a its
  | .tok (.p c) l :: its =>
    if c = '[' then (number fun a => expect ',' (number fun b => valPair l a b)) its else stop (.tok (.p c) l :: its)
  | .tok (.id n) l :: its => andThen (parsePoint (.tok (.id n) l :: its)) (fun p => done (.pt p))
  | its => stop its

/-- parser.y:128-140 `arg` -/
def parseArg : List (Item α) → PRes (Meta α) α
  | .tok (.id n) l :: its => expect '=' (fun its => andThen (parseVal its) (fun v => done ⟨n, v, l⟩)) its
  | .tok (.p c) l :: its =>
    if c = '@' then expect '[' (fun its => andThen (parseLocation its) (fun v => done ⟨['@'], .loc v, l⟩)) its
    else stop (.tok (.p c) l :: its)
  | its => stop its

/-- can an `arg` start with this item? -/
def startsArg : List (Item α) → Bool
  | .tok (.id _) _ :: _ => true
  | .tok (.p c) _ :: _ => c = '@'
  | _ => false

/-- a bound on recursion: every reader below consumes at least one item per round, so `its.length` rounds suffice (proved: C03) -/
abbrev Fuel := Nat

/-- parser.y:198-202 `text_parts`: arguments each followed by `;`, as long as they start -/
def parseArgs (fuel : Fuel) (acc : List (Meta α)) (its : List (Item α)) : PRes (List (Meta α)) α :=
  match fuel with
  | 0 => .ok none
  | fuel + 1 =>
    if startsArg its then andThen (parseArg its) (fun m => expect ';' (parseArgs fuel (acc ++ [m])))
    else done acc its

/-- parser.y:204-206 `dim_parts`, after the first argument -/
def parseMore (fuel : Fuel) (acc : List (Meta α)) (its : List (Item α)) : PRes (List (Meta α)) α :=
  match fuel with
  | 0 => .ok none
  | fuel + 1 =>
    match its with
    | .tok (.p c) _ :: its' =>
      if c = ',' then andThen (parseArg its') (fun m => parseMore fuel (acc ++ [m])) else done acc its
    | _ => done acc its

/-- the keyword of a dimension (parser.y:154-193) -/
def dimKind : Tok α → Option DimKind
  | .kAngle => some .angle
  | .kDia => some .dia
  | .kDim => some .dim
  | .kRad => some .rad
  | _ => none

/-- parser.y:154-193: a dimension after its keyword: `'(' ')' ';'` or `'(' dim_parts ')' ';'` -/
def parseDim (k : DimKind) (l : Nat) : List (Item α) → PRes (DimN α) α :=
  expect '(' (fun its =>
    if startsArg its then
      andThen (parseArg its) (fun m its =>
        andThen (parseMore (its.length + 1) [m] its) (fun ms => expect ')' (expect ';' (done ⟨k, ms, l⟩))))
    else expect ')' (expect ';' (done ⟨k, [], l⟩)) its)

/-- parser.y:152-196 `draw_parts` -/
def parseDrawParts (fuel : Fuel) (ms : List (Meta α)) (ds : List (DimN α)) (its : List (Item α)) :
    PRes (List (Meta α) × List (DimN α)) α :=
  match fuel with
  | 0 => .ok none
  | fuel + 1 =>
    if startsArg its then andThen (parseArg its) (fun m => expect ';' (parseDrawParts fuel (ms ++ [m]) ds))
    else match its with
      | .tok t l :: its' =>
        match dimKind t with
        | some k => andThen (parseDim k l its') (fun d => parseDrawParts fuel ms (ds ++ [d]))
        | none => done (ms, ds) its
      | its => done (ms, ds) its

/-- parser.y:144-145 after `DRAW` -/
def parseDraw : List (Item α) → PRes (Drawable α) α :=
  ident fun n l => expect '{' (fun its =>
    andThen (parseDrawParts (its.length + 1) [] [] its) (fun r => expect '}' (done (.draw n r.1 r.2 l))))

/-- parser.y:146-147 after `TEXT` on line `l` -/
def parseText (l : Nat) : List (Item α) → PRes (Drawable α) α :=
  expect '[' (strLit fun s its =>
    expect ']' (expect '{' (fun its' =>
      andThen (parseArgs (its'.length + 1) [] its') (fun ms => expect '}' (done (.text (parseStrs s its).1 ms l)))))
      (parseStrs s its).2)

/-- parser.y:142-150 `page_parts` -/
def parsePageParts (fuel : Fuel) (ms : List (Meta α)) (ds : List (Drawable α)) (its : List (Item α)) :
    PRes (List (Meta α) × List (Drawable α)) α :=
  match fuel with
  | 0 => .ok none
  | fuel + 1 =>
    if startsArg its then andThen (parseArg its) (fun m => expect ';' (parsePageParts fuel (ms ++ [m]) ds))
    else match its with
      | .tok .kDraw _ :: its => andThen (parseDraw its) (fun d => parsePageParts fuel ms (ds ++ [d]))
      | .tok .kText l :: its => andThen (parseText l its) (fun d => parsePageParts fuel ms (ds ++ [d]))
      | its => done (ms, ds) its

/-- parser.y:122 `page` after `PAGE` on line `l` -/
def parsePage (l : Nat) : List (Item α) → PRes (PageN α) α :=
  expect '{' (fun its =>
    andThen (parsePageParts (its.length + 1) [] [] its) (fun r => expect '}' (done ⟨r.1, r.2, l⟩)))

/-- parser.y:118-119 `model` after `LOAD` on line `l` -/
def parseModel (l : Nat) : List (Item α) → PRes ModelN α :=
  ident fun n _ => expect '=' (strLit fun s => expect ';' (done ⟨n, s, l⟩))

/-- parser.y:113-116 `input` -/
def parseInput (fuel : Fuel) (ms : List ModelN) (ps : List (PageN α)) (its : List (Item α)) :
    Except Abort (Option (Doc α)) :=
  match fuel with
  | 0 => .ok none
  | fuel + 1 =>
    match its with
    | [] => .ok (some ⟨ms, ps⟩)
    | .tok .kLoad l :: its => andThen (parseModel l its) (fun m => parseInput fuel (ms ++ [m]) ps)
    | .tok .kPage l :: its => andThen (parsePage l its) (fun p => parseInput fuel ms (ps ++ [p]))
    | its => stop its

/-- the parser on a token stream -/
def parseItems (its : List (Item α)) : Except Abort (Option (Doc α)) :=
  parseInput (its.length + 1) [] [] its

/-- parser.cc:49-71 `Parse`; `none` = non-zero return -/
def parse (script : Str) : Except Abort (Option (Doc α)) := parseItems (lex script)

end S2P
