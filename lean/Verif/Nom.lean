import Verif.Basic

/-!
# The nom combinators used by ikal

nom 8 (`Cargo.toml:17`), complete-input string parsers.  A parser takes the input and
returns the unread rest and a value, a recoverable error (`nom::Err::Error`), or panics.
ikal uses neither streaming parsers nor `cut`, so `Incomplete` and `Failure` do not occur;
the payload of errors (`VerboseError`) is not modelled, so `context` is the identity.
-/

namespace Ikal

/-- `NomResult` (`src/parser/mod.rs:34`). -/
inductive NRes (α : Type u) where
  | ok (rest : Str) (a : α)
  | err
  | panic
  deriving DecidableEq, Repr

/-- A nom parser on `&str`. -/
abbrev P (α : Type u) := Str → NRes α

namespace Nom

/-- `nom::bytes::complete::tag`. -/
def tag (t : Str) : P Str := fun i =>
  match stripPrefix t i with
  | some r => .ok r t
  | none => .err

/-- `nom::bytes::complete::take_while`: never fails, may consume nothing. -/
def takeWhile (p : Char → Bool) : P Str := fun i => .ok (i.dropWhile p) (i.takeWhile p)

/-- `nom::bytes::complete::take_till`. -/
def takeTill (p : Char → Bool) : P Str := takeWhile (fun c => !p c)

/-- `nom::character::complete::char`. -/
def char (c : Char) : P Char := fun i =>
  match i with
  | [] => .err
  | d :: r => if d = c then .ok r c else .err

/-- `nom::character::complete::anychar`. -/
def anychar : P Char := fun i =>
  match i with
  | [] => .err
  | d :: r => .ok r d

/-- `nom::character::complete::line_ending`: `"\n"` or `"\r\n"`. -/
def lineEnding : P Str := fun i =>
  match i with
  | '\n' :: r => .ok r ['\n']
  | '\r' :: '\n' :: r => .ok r ['\r', '\n']
  | _ => .err

/-- `nom::combinator::map`. -/
def map (p : P α) (f : α → β) : P β := fun i =>
  match p i with
  | .ok r a => .ok r (f a)
  | .err => .err
  | .panic => .panic

/-- `nom::combinator::map_res`: an error of the function is a recoverable parse error. -/
def mapRes (p : P α) (f : α → Res β) : P β := fun i =>
  match p i with
  | .ok r a => (match f a with
    | .ok b => .ok r b
    | .err _ => .err
    | .panic => .panic)
  | .err => .err
  | .panic => .panic

/-- `nom::combinator::not`: succeeds without consuming when the parser fails. -/
def not (p : P α) : P Unit := fun i =>
  match p i with
  | .ok _ _ => .err
  | .err => .ok i ()
  | .panic => .panic

/-- `nom::combinator::opt`. -/
def opt (p : P α) : P (Option α) := fun i =>
  match p i with
  | .ok r a => .ok r (some a)
  | .err => .ok i none
  | .panic => .panic

/-- Sequencing: tuples of parsers and `nom::sequence::pair`. -/
def pair (p : P α) (q : P β) : P (α × β) := fun i =>
  match p i with
  | .ok r a => (match q r with
    | .ok r' b => .ok r' (a, b)
    | .err => .err
    | .panic => .panic)
  | .err => .err
  | .panic => .panic

/-- `nom::sequence::preceded`. -/
def preceded (p : P α) (q : P β) : P β := map (pair p q) Prod.snd

/-- `nom::sequence::terminated`. -/
def terminated (p : P α) (q : P β) : P α := map (pair p q) Prod.fst

/-- `nom::sequence::delimited`. -/
def delimited (p : P α) (q : P β) (r : P γ) : P β := preceded p (terminated q r)

/-- `nom::sequence::separated_pair`. -/
def separatedPair (p : P α) (s : P γ) (q : P β) : P (α × β) := pair p (preceded s q)

/-- `nom::branch::alt` of two alternatives (nested for more). -/
def alt (p q : P α) : P α := fun i =>
  match p i with
  | .ok r a => .ok r a
  | .err => q i
  | .panic => .panic

/-- `nom::multi::many0` with explicit fuel.  The parser failing ends the list; a success that
consumes nothing is an error (nom's infinite loop check). -/
def many0Go (p : P α) : Nat → P (List α)
  | 0, _ => .err
  | n + 1, i =>
    match p i with
    | .err => .ok i []
    | .panic => .panic
    | .ok r a =>
      if r.length < i.length then
        match many0Go p n r with
        | .ok r' as => .ok r' (a :: as)
        | .err => .err
        | .panic => .panic
      else .err

/-- `nom::multi::many0`.  Every round consumes at least one character, so the fuel given here
is never exhausted (`many0_eq`).  `nom::multi::fold_many0` with a pushing fold is the same. -/
def many0 (p : P α) : P (List α) := fun i => many0Go p (i.length + 1) i

/-- `nom::multi::many1`: the first application must succeed, the rest is as `many0`. -/
def many1 (p : P α) : P (List α) := fun i =>
  match p i with
  | .err => .err
  | .panic => .panic
  | .ok r a =>
    match many0 p r with
    | .ok r' as => .ok r' (a :: as)
    | .err => .err
    | .panic => .panic

end Nom
end Ikal
