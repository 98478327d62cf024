import Verif.Chrono

/-!
# Serialisation (`src/ser.rs`) and ordered maps

`std::collections::BTreeMap<String, V>` is modelled by the list of its entries in key order.
-/

namespace Ikal

/-! ## `BTreeMap<String, V>` -/

/-- `Ord for str`: lexicographic by UTF-8 octets, which is lexicographic by scalar values. -/
def strLt : Str → Str → Bool
  | [], [] => false
  | [], _ :: _ => true
  | _ :: _, [] => false
  | a :: as, b :: bs => if a.toNat < b.toNat then true else if a = b then strLt as bs else false

/-- A `BTreeMap<String, V>`: its entries, in increasing order of keys. -/
abbrev SMap (V : Type) := List (Str × V)

namespace SMap

/-- `BTreeMap::insert`: an existing value of the key is replaced. -/
def insert {V : Type} (m : SMap V) (k : Str) (v : V) : SMap V :=
  match m with
  | [] => [(k, v)]
  | (k', v') :: r =>
    if k = k' then (k, v) :: r
    else if strLt k k' then (k, v) :: (k', v') :: r
    else (k', v') :: insert r k v

/-- `BTreeMap::get`. -/
def get? {V : Type} (m : SMap V) (k : Str) : Option V :=
  match m with
  | [] => none
  | (k', v) :: r => if k = k' then some v else get? r k

/-- Collecting pairs into a map (`collect`, or repeated `insert`), later pairs winning. -/
def ofPairs {V : Type} (l : List (Str × V)) : SMap V :=
  l.foldl (fun m p => SMap.insert m p.1 p.2) []

/-- What a `BTreeMap` can be: strictly increasing keys. -/
def Wf {V : Type} (m : SMap V) : Prop := m.Pairwise (fun a b => strLt a.1 b.1 = true)

instance {V : Type} (m : SMap V) : Decidable m.Wf := by unfold Wf; infer_instance

end SMap

/-! ## The `Serialize` trait -/

/-- `Serialize` (`src/ser.rs:15-25`). `component()` is only ever tested with `is_some()`, so it
is modelled as a boolean. -/
class Ser (α : Type) where
  isComponent : Bool := false
  attr : α → Option Str := fun _ => none
  ical : α → Res Str

/-- `ser::ical` (`src/ser.rs:27-38`). -/
def ical {α : Type} [Ser α] (v : α) : Res Str :=
  let s : Str := match Ser.attr v with
    | some a => a ++ [':']
    | none => []
  (Ser.ical v).map (s ++ ·)

/-- `str::replace(char, &str)`. -/
def replaceChar (c : Char) (by_ : Str) (s : Str) : Str := s.flatMap fun x => if x = c then by_ else [x]

/-- `escape` (`src/ser.rs:122-126`). -/
def escape (s : Str) : Str :=
  replaceChar '\n' ['\\', 'n'] (replaceChar ',' ['\\', ','] (replaceChar ';' ['\\', ';'] s))

/-- `str::split_at(n)` for `n` octets; `none` when `n` is not a character boundary (or beyond the
end), where Rust panics. -/
def splitAtBytes (n : Nat) : Str → Option (Str × Str)
  | [] => if n = 0 then some ([], []) else none
  | c :: cs =>
    if n = 0 then some ([], c :: cs)
    else if c.utf8Size ≤ n then (splitAtBytes (n - c.utf8Size) cs).map fun (a, b) => (c :: a, b)
    else none

/-- `split` (`src/ser.rs:157-168`): the loop, with the number of characters left as fuel (each round
consumes at least one). -/
def splitGo (size : Nat) : Nat → Str → Res (List Str)
  | _, [] => .ok []
  | 0, _ :: _ => .ok []
  | f + 1, s@(_ :: _) =>
    match splitAtBytes (min size (byteLen s)) s with
    | none => .panic
    | some (chunk, rest) => (splitGo size f rest).map (chunk :: ·)

/-- `split` (`src/ser.rs:157-168`). -/
def split (s : Str) (size : Nat) : Res (List Str) := splitGo size s.length s

/-- The folding part of `field` (`src/ser.rs:148-151`). -/
def fold (s : Str) : Res Str :=
  if byteLen s > 75 then (split s 75).map (join c!"\r\n ") else .ok s

/-- `field` (`src/ser.rs:128-155`). -/
def field {α : Type} [Ser α] (name : Str) (v : α) : Res Str := do
  let s ← Ser.ical v
  if Ser.isComponent α then
    pure s
  else
    let line : Str :=
      if s.isEmpty then []
      else
        name ++ (match Ser.attr v with
          | some a => ';' :: a
          | none => []) ++ ':' :: (s ++ c!"\r\n")
    fold line

/-! ## Instances of `src/ser.rs` -/

/-- `ical_for_tostring!(i8)` (`src/ser.rs:40`). -/
instance : Ser Int where ical n := .ok (intStr n)

/-- `ical_for_tostring!(u8)` and `u32` (`src/ser.rs:41-42`). -/
instance : Ser Nat where ical n := .ok (natStr n)

/-- `ical_for_tostring!(chrono::TimeDelta)` (`src/ser.rs:43`). -/
instance : Ser TimeDelta where ical d := .ok d.toStr

/-- `impl Serialize for FixedOffset` (`src/ser.rs:45-66`). -/
def FixedOffset.toStr (o : FixedOffset) : Str :=
  let a := o.secs.natAbs
  let sign := if o.secs < 0 then '-' else '+'
  let sec := a % 60
  let mins := a / 60
  let min := mins % 60
  let hour := mins / 60
  if sec = 0 then sign :: (pad2 hour ++ pad2 min)
  else sign :: (pad2 hour ++ pad2 min ++ pad2 sec)

instance : Ser FixedOffset where ical o := .ok o.toStr

/-- `impl Serialize for String` (`src/ser.rs:68-72`). -/
instance : Ser Str where ical s := .ok (escape s)

/-- `impl Serialize for Vec<T>` (`src/ser.rs:74-86`): pushing each value and a comma and popping the
last comma is joining with commas. -/
instance {α : Type} [Ser α] : Ser (List α) where
  ical l := (Res.mapM' Ser.ical l).map (join [','])

/-- `impl Serialize for Option<T>` (`src/ser.rs:88-104`); `component()` is not forwarded. -/
instance {α : Type} [Ser α] : Ser (Option α) where
  attr v := match v with
    | some a => Ser.attr a
    | none => none
  ical v := match v with
    | some a => Ser.ical a
    | none => .ok []

/-- `impl Serialize for BTreeMap<K, V>` (`src/ser.rs:106-120`). -/
def SMap.ical {V : Type} [Ser V] (m : SMap V) : Res Str :=
  (Res.mapM' (fun (p : Str × V) => (Ser.ical p.2).map fun s => p.1 ++ '=' :: s) m).map (join [';'])

end Ikal
