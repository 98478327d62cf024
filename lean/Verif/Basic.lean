/-!
# Strings, errors and results

Rust `String`/`&str` are modelled as lists of Unicode scalar values.  `Char` of Lean is
exactly the set of Unicode scalar values, as `char` of Rust.
-/

namespace Ikal

/-- Rust strings, as the list of their `char`s. -/
abbrev Str := List Char

open Lean in
/-- `c!"abc"` is the list literal `['a', 'b', 'c']`. -/
macro:max "c!" s:str : term => do
  let cs : Array (TSyntax `term) := (s.getString.toList.map fun c => (Syntax.mkCharLit c : TSyntax `term)).toArray
  `(([$cs,*] : List Char))

/-- `src/errors.rs:4-31`, `Error`.  The payloads that are only human readable text
(`Parser`, `Date`, `ParseIntError`, `Serialize`, `ParseDuration`) are dropped. -/
inductive Error where
  | alarm (s : Str)
  | date
  | freq (s : Str)
  | key (s : Str)
  | localTime
  | parseDuration
  | parseInt
  | parser
  | priority (n : Nat)
  | serialize
  | status (s : Str)
  | timeTransparency (s : Str)
  | weekday (s : Str)
  deriving DecidableEq, Repr

/-- `crate::Result<T>` (`src/errors.rs:1`), with a panic as a third, explicit outcome. -/
inductive Res (α : Type u) where
  | ok (a : α)
  | err (e : Error)
  | panic
  deriving DecidableEq, Repr

namespace Res

/-- The `?` operator: errors and panics propagate. -/
@[inline] protected def bind {α : Type u} {β : Type v} (x : Res α) (f : α → Res β) : Res β :=
  match x with
  | .ok a => f a
  | .err e => .err e
  | .panic => .panic

instance : Monad Res where
  pure := Res.ok
  bind := Res.bind

/-- `Result::map`. -/
protected def map {α : Type u} {β : Type v} (f : α → β) (x : Res α) : Res β :=
  match x with
  | .ok a => .ok (f a)
  | .err e => .err e
  | .panic => .panic

/-- `Option::unwrap`/`expect` on a chrono result: `None` panics. -/
def unwrap {α : Type u} : Option α → Res α
  | some a => .ok a
  | none => .panic

/-- `ok_or`-style conversion of a chrono/std parse result into an error. -/
def ofOption {α : Type u} (e : Error) : Option α → Res α
  | some a => .ok a
  | none => .err e

/-- `Iterator::collect::<Result<Vec<_>, _>>` over a mapped list: the first error or panic
(in order) is the result. -/
def mapM' {α : Type u} {β : Type v} (f : α → Res β) : List α → Res (List β)
  | [] => .ok []
  | a :: as =>
    match f a with
    | .ok b => (match mapM' f as with
      | .ok bs => .ok (b :: bs)
      | .err e => .err e
      | .panic => .panic)
    | .err e => .err e
    | .panic => .panic

@[simp] theorem bind_ok {α β} (a : α) (f : α → Res β) : (Res.ok a >>= f) = f a := rfl
@[simp] theorem bind_err {α β} (e : Error) (f : α → Res β) : (Res.err e >>= f) = .err e := rfl
@[simp] theorem bind_panic {α β} (f : α → Res β) : (Res.panic >>= f) = .panic := rfl
@[simp] theorem pure_eq {α} (a : α) : (pure a : Res α) = .ok a := rfl
@[simp] theorem map_ok {α β} (f : α → β) (a : α) : Res.map f (.ok a) = .ok (f a) := rfl
@[simp] theorem map_err {α β} (f : α → β) (e : Error) : Res.map f (.err e) = .err e := rfl
@[simp] theorem map_panic {α β} (f : α → β) : Res.map f .panic = .panic := rfl

theorem bind_eq_ok {α β} {x : Res α} {f : α → Res β} {b : β} :
    (x >>= f) = .ok b ↔ ∃ a, x = .ok a ∧ f a = .ok b := by
  cases x <;> simp

end Res

/-- Strip a literal prefix (`str::strip_prefix`). -/
def stripPrefix : Str → Str → Option Str
  | [], s => some s
  | _ :: _, [] => none
  | t :: ts, c :: cs => if t = c then stripPrefix ts cs else none

/-- `str::split(sep)` for a `char` separator: always at least one piece. -/
def splitOn (sep : Char) : Str → List Str
  | [] => [[]]
  | c :: cs =>
    if c = sep then [] :: splitOn sep cs
    else match splitOn sep cs with
      | [] => [[c]]
      | p :: ps => (c :: p) :: ps

/-- `[..].join(sep)`. -/
def join (sep : Str) : List Str → Str
  | [] => []
  | [s] => s
  | s :: t :: r => s ++ sep ++ join sep (t :: r)

/-- Octet length of a string (`str::len`). -/
def byteLen (s : Str) : Nat := (s.map Char.utf8Size).sum

/-- Rust's `char::is_whitespace` (the Unicode `White_Space` property), which chrono uses to
skip leading blanks. -/
def isWhitespace (c : Char) : Bool :=
  let n := c.toNat
  (9 ≤ n && n ≤ 13) || n = 32 || n = 0x85 || n = 0xA0 || n = 0x1680 ||
  (0x2000 ≤ n && n ≤ 0x200A) || n = 0x2028 || n = 0x2029 || n = 0x202F || n = 0x205F || n = 0x3000

end Ikal
