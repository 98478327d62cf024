import Verif.Components

/-!
# Recurring components (`src/iter.rs`)
-/

namespace Ikal

section
variable [Platform]

/-- `trait Recurring` (`src/iter.rs:1-24`). -/
class Recurring (α : Type) where
  dtstart : α → Option Date := fun _ => none
  exdate : α → List Date
  setDtstart : α → Date → α := fun x _ => x
  dtend : α → Option Date := fun _ => none
  setDtend : α → Date → α := fun x _ => x
  due : α → Option Date := fun _ => none
  setDue : α → Date → α := fun x _ => x
  rrule : α → Option Recur
  setRrule : α → Recur → α

/-- `impl Recurring for VEvent` (`src/iter.rs:26-54`). -/
instance : Recurring VEvent where
  dtstart v := some v.dtstart
  exdate v := v.exdate
  setDtstart v d := { v with dtstart := d }
  dtend v := v.dtend
  setDtend v d := { v with dtend := some d }
  rrule v := v.rrule
  setRrule v r := { v with rrule := some r }

/-- `impl Recurring for VJournal` (`src/iter.rs:56-76`). -/
instance : Recurring VJournal where
  dtstart v := some v.dtstart
  exdate v := v.exdate
  setDtstart v d := { v with dtstart := d }
  rrule v := v.rrule
  setRrule v r := { v with rrule := some r }

/-- `impl Recurring for VTodo` (`src/iter.rs:78-106`). -/
instance : Recurring VTodo where
  dtstart v := v.dtstart
  exdate v := v.exdate
  setDtstart v d := { v with dtstart := some d }
  due v := v.due
  setDue v d := { v with due := some d }
  rrule v := v.rrule
  setRrule v r := { v with rrule := some r }

/-- What a call can do: return a value, return `None`, panic, or still be running when the fuel is
used up. -/
inductive Outcome (β : Type) where
  | item (b : β)
  | done
  | panic
  | running
  deriving DecidableEq, Repr

variable {α : Type} [Recurring α]

/-- `dtstart.date_naive() > until.date_naive()` (`src/iter.rs:144-148`); `none` is a panic. -/
def pastUntil (r : Recur) (d : Date) : Option Bool :=
  match r.until_ with
  | some u => do
    let a ← d.dateNaive?
    let b ← u.dateNaive?
    pure (NaiveDate.cmp a b = .gt)
  | none => some false

/-- The loop of `next` (`src/iter.rs:140-170`) from the value of the local variable `next`; the value
returned is the one stored in `self.item`.  The fuel bounds the number of rounds. -/
def advance : Nat → α → Outcome α
  | 0, _ => .running
  | fuel + 1, x =>
    match Recurring.dtstart x with
    | none => .done
    | some dtstart =>
      match Recurring.rrule x with
      | none => .done
      | some rrule =>
        match pastUntil rrule dtstart with
        | none => .panic
        | some true => .done
        | some false =>
          match rrule.add dtstart with
          | none => .panic
          | some dtstart =>
            let x := Recurring.setDtstart x dtstart
            match (match Recurring.dtend x with
              | none => some x
              | some dtend => (rrule.add dtend).map (Recurring.setDtend x)) with
            | none => .panic
            | some x =>
              let x := Recurring.setRrule x rrule
              if (Recurring.exdate x).contains dtstart then advance fuel x
              else
                match rrule.count with
                | none => .item x
                | some 0 => .done
                | some (n + 1) => .item (Recurring.setRrule x { rrule with count := some n })

/-- `Iterator::next` for `Recur<T>` (`src/iter.rs:135-175`): what the call returns, and `self.item` after it, which is assigned only
just before `Some(current)` is returned (after a panic the iterator is taken to be left as it was). -/
def next (fuel : Nat) (s : α) : Outcome α × α :=
  match advance fuel s with
  | .item s' => (.item s, s')
  | .done => (.done, s)
  | .panic => (.panic, s)
  | .running => (.running, s)

/-- The iterators returned by `between`, `at` and `after` (`src/iter.rs:117-129`): std's `SkipWhile` over the recurrence iterator,
inside a `TakeWhile` unless `stop` is `none`. -/
structure Range (α : Type) where
  /-- The recurrence iterator. -/
  state : α
  /-- `SkipWhile::flag` is not set yet. -/
  skipping : Bool
  /-- `TakeWhile::flag`. -/
  finished : Bool
  start : Date
  /-- `none` for `after`, which has no `take_while`. -/
  stop : Option Date

/-- `Recur::between` (`src/iter.rs:117-120`). -/
def between (s : α) (start stop : Date) : Range α := ⟨s, true, false, start, some stop⟩

/-- `Recur::after` (`src/iter.rs:127-129`). -/
def after (s : α) (start : Date) : Range α := ⟨s, true, false, start, none⟩

/-- `Recur::at` (`src/iter.rs:122-125`); `none` is a panic. -/
def at_ (s : α) (d : Date) : Option (Range α) := do
  let one ← TimeDelta.days 1
  pure (between s d (← d.addDur one))

/-- `Iterator::next` of std's `SkipWhile` over the recurrence iterator with the predicate `x.dtstart().unwrap() < start`
(`src/iter.rs:118,128`): items are dropped until the first that does not satisfy it.  The fuel bounds the rounds of each inner call and
the number of items dropped. -/
def skipWhile (start : Date) : Nat → Bool → α → Outcome α × Bool × α
  | 0, sk, s => (.running, sk, s)
  | fuel + 1, sk, s =>
    match next (fuel + 1) s with
    | (.item x, s') =>
      if sk then
        match Recurring.dtstart x with
        | none => (.panic, sk, s')
        | some d =>
          match d.lt? start with
          | none => (.panic, sk, s')
          | some true => skipWhile start fuel sk s'
          | some false => (.item x, false, s')
      else (.item x, false, s')
    | (o, s') => (o, sk, s')

/-- `Iterator::next` of the iterators returned by `between`, `at` and `after` (`src/iter.rs:117-129` with std's `SkipWhile` and
`TakeWhile`): what the call returns and the iterator after it. -/
def Range.next (fuel : Nat) (r : Range α) : Outcome α × Range α :=
  if r.finished then (.done, r)
  else
    match skipWhile r.start fuel r.skipping r.state with
    | (.item x, sk, s) =>
      let r := { r with state := s, skipping := sk }
      match r.stop with
      | none => (.item x, r)
      | some e =>
        match Recurring.dtstart x with
        | none => (.panic, r)
        | some d =>
          match d.lt? e with
          | none => (.panic, r)
          | some true => (.item x, r)
          | some false => (.done, { r with finished := true })
    | (o, sk, s) => (o, { r with state := s, skipping := sk })

end

end Ikal
