import Verif.Lemmas.ReasonsMore
import Verif.Props.Convert
import Verif.Props.Debug
import Verif.Spec.Reasons
import Verif.TestPlatform

/-!
# C97: why a text is refused

What the errors say about texts that are not integers, dates, date-times, offsets, durations or triggers, and about times that do not exist.
-/

namespace Ikal
open Spec

/-! ## Integers -/

theorem integer_err {signed : Bool} {lo hi : Int} (h1 : lo ≤ 0) (h2 : 0 ≤ hi) (s m : Str) [Platform] [DebugChars] :
    (Told.int (readInt signed lo hi s)).said = some m ↔ NoInteger signed lo hi s m := by
  rw [← readInt_error h1 h2]
  cases readInt signed lo hi s with
  | ok n => exact ⟨fun h => (by cases h), fun ⟨_, h, _⟩ => (by cases h)⟩
  | error k => exact ⟨fun h => (by cases h; exact ⟨k, rfl, rfl⟩), fun ⟨_, h, e⟩ => (by cases h; cases e; rfl)⟩

section
variable [Platform] [DebugChars]
set_option linter.unusedSectionVars false

/-- **C97**: what is said of a text that is no integer of a type: the first fault from the left counts, an overflow as soon as the digits read so
far are too great. -/
theorem C97_integer (s m : Str) :
    ((Told.int (readU8 s)).said = some m ↔ NoInteger false 0 255 s m) ∧
    ((Told.int (readU32 s)).said = some m ↔ NoInteger false 0 4294967295 s m) ∧
    ((Told.int (readI8 s)).said = some m ↔ NoInteger true (-128) 127 s m) ∧
    ((Told.int (readI64 s)).said = some m ↔ NoInteger true (-9223372036854775808) 9223372036854775807 s m) :=
  ⟨integer_err (by decide) (by decide) s m, integer_err (by decide) (by decide) s m, integer_err (by decide) (by decide) s m,
    integer_err (by decide) (by decide) s m⟩

/-- **C97**: otherwise it is the integer that is read. -/
theorem C97_integer_value (s : Str) :
    ((readU8 s).toOption.map Int.toNat = parseU8 s) ∧ ((readU32 s).toOption.map Int.toNat = parseU32 s) ∧
    ((readI8 s).toOption = parseI8 s) ∧ ((readI64 s).toOption = parseI64 s) :=
  ⟨readUnsigned_eq _ s, readUnsigned_eq _ s, readSigned_eq (by decide) (by decide) s, readSigned_eq (by decide) (by decide) s⟩

/-- **C97**: at most one thing is said about a text, and nothing if it is an integer of the type. -/
theorem C97_integer_once {signed : Bool} {lo hi : Int} (h1 : lo ≤ 0) (h2 : 0 ≤ hi) {s m m' : Str} (h : NoInteger signed lo hi s m) :
    (NoInteger signed lo hi s m' → m = m') ∧ ∀ n, readInt signed lo hi s ≠ .ok n := by
  have h := (integer_err h1 h2 s m).2 h
  refine ⟨fun h' => ?_, fun n e => ?_⟩
  · have h' := (integer_err h1 h2 s m').2 h'
    rw [h] at h'
    exact Option.some.inj h'
  · rw [e] at h; cases h

/-! ## Dates -/

theorem told_map_said {α β : Type} (x : Told α) (f : α → β) : (x.map f).said = x.said := by cases x <;> rfl

/-- **C97**: what is said of a text that is no date-time is what is wrong with it as a date-time that ends with a `Z`. -/
theorem C97_date_time (s m : Str) : (DateTime.tell s).said = some m ↔ (∀ t, ¬ DateTimeThen s t []) ∧ NoZulu s m := by
  unfold DateTime.tell
  cases h0 : readNaiveDateTime [] s with
  | ok t =>
    simp only
    constructor
    · intro h; cases h
    · intro h; exact absurd (readNaiveDateTime_ok.1 h0) (h.1 t)
  | error k0 =>
    simp only
    have hno : ∀ t, ¬ DateTimeThen s t [] := fun t ht => by rw [readNaiveDateTime_ok.2 ht] at h0; cases h0
    rw [← readZulu_err]
    cases h1 : readNaiveDateTime ['Z'] s with
    | ok t =>
      show ((Told.unwrap (localSingle t)).map DateTime.loc).said = some m ↔ _
      rw [told_map_said]
      constructor
      · intro h
        cases hs : localSingle t <;> rw [hs] at h <;> cases h
      · rintro ⟨-, k, h, -⟩; cases h
    | error k =>
      show some k.text = some m ↔ _
      constructor
      · intro h; cases h; exact ⟨hno, k, rfl, rfl⟩
      · rintro ⟨-, k', h, rfl⟩; cases h; rfl

/-- **C97**: the same is said of a text that is neither a date nor a date-time. -/
theorem C97_date (s m : Str) :
    (Date.tell s).said = some m ↔ (∀ d, ¬ DateThen s d []) ∧ (∀ t, ¬ DateTimeThen s t []) ∧ NoZulu s m := by
  unfold Date.tell
  cases h0 : readNaiveDate s with
  | ok d =>
    simp only
    constructor
    · intro h; cases h
    · intro h; exact absurd (readNaiveDate_ok.1 h0) (h.1 d)
  | error k =>
    simp only
    have hno : ∀ d, ¬ DateThen s d [] := fun d hd => by rw [readNaiveDate_ok.2 hd] at h0; cases h0
    rw [told_map_said, C97_date_time]
    exact ⟨fun h => ⟨hno, h⟩, fun h => h.2⟩

/-- The parts of the text are there. -/
def dateParts : List DatePart := [.year, .number 1 12, .number 1 31]
def floatingParts : List DatePart := dateParts ++ [.letter 'T', .number 0 23, .number 0 59, .number 0 60]

/-- **C97**: a floating date-time on a day that does not exist is not called out of range, but is said to end too early, because a `Z` is missing. -/
theorem C97_no_such_day {s : Str} (h : PartsThen floatingParts s []) (hn : ∀ t, ¬ DateTimeThen s t []) :
    (DateTime.tell s).said = some c!"premature end of input" ∧ ((∀ d, ¬ DateThen s d []) → (Date.tell s).said = some c!"premature end of input") := by
  have hz : NoZulu s c!"premature end of input" := .part (ps := floatingParts) (qs := []) rfl h .letterEnd
  exact ⟨(C97_date_time _ _).2 ⟨hn, hz⟩, fun hd => (C97_date _ _).2 ⟨hd, hn, hz⟩⟩

/-- **C97**: a date on a day that does not exist is said to end too early as well, and so is any date where a date-time is read: a `T` is missing. -/
theorem C97_only_a_date {s : Str} (h : PartsThen dateParts s []) (hn : ∀ t, ¬ DateTimeThen s t []) :
    (DateTime.tell s).said = some c!"premature end of input" ∧ ((∀ d, ¬ DateThen s d []) → (Date.tell s).said = some c!"premature end of input") := by
  have hz : NoZulu s c!"premature end of input" := .part (ps := dateParts) (qs := [.number 0 23, .number 0 59, .number 0 60, .letter 'Z']) rfl h .letterEnd
  exact ⟨(C97_date_time _ _).2 ⟨hn, hz⟩, fun hd => (C97_date _ _).2 ⟨hd, hn, hz⟩⟩

/-- **C97**: a date-time with a `Z` on a day that does not exist is out of range. -/
theorem C97_no_such_day_utc {s : Str} (h : PartsThen zuluParts s []) (hn : ∀ t, ¬ DateTimeThen s t ['Z']) (hf : ∀ t, ¬ DateTimeThen s t []) :
    (DateTime.tell s).said = some c!"input is out of range" :=
  (C97_date_time _ _).2 ⟨hf, .noDate h hn⟩

/-- **C97**: after a whole date-time, anything that does not begin with a `Z` is an invalid character, and after the `Z` it is trailing input. -/
theorem C97_after {s r : Str} {c : Char} (hf : ∀ t, ¬ DateTimeThen s t []) :
    (PartsThen floatingParts s (c :: r) → c ≠ 'Z' → (DateTime.tell s).said = some c!"input contains invalid characters") ∧
    (PartsThen zuluParts s (c :: r) → (DateTime.tell s).said = some c!"trailing input") :=
  ⟨fun h hc => (C97_date_time _ _).2 ⟨hf, .part (ps := floatingParts) (qs := []) rfl h (.letterOther hc)⟩,
    fun h => (C97_date_time _ _).2 ⟨hf, .more h⟩⟩

/-! ## Offsets -/

/-- **C97**: what is said of a text that is no offset, and the value of one that is. -/
theorem C97_offset (s m : Str) :
    ((Told.chrono (readOffset s)).said = some m ↔ NoOffset s m) ∧ (readOffset s).toOption = FixedOffset.parse s ∧
    ∀ o, readOffset s = .ok o ↔ OffsetText s o := by
  refine ⟨?_, readOffset_eq s, fun o => ?_⟩
  · rw [← readOffset_err]
    cases readOffset s with
    | ok n => exact ⟨fun h => (by cases h), fun ⟨_, h, _⟩ => (by cases h)⟩
    | error k => exact ⟨fun h => (by cases h; exact ⟨k, rfl, rfl⟩), fun ⟨_, h, e⟩ => (by cases h; cases e; rfl)⟩
  · rw [← toOption_some, readOffset_eq]
    have := C70_offset (ContentLine.ofValue s) o
    unfold offsetProp at this
    have e : (ContentLine.ofValue s).value = s := rfl
    rw [e] at this
    rw [← this]
    cases FixedOffset.parse s <;> simp [Res.ofOption]

/-! ## Durations and triggers -/

/-- **C97**: what is said of a text that is no duration: that it has no `P`; or what the first unit says that cannot be read. -/
theorem C97_duration (s m : Str) : (tellDuration s).said = some m ↔ NoDuration s m := by
  have noP : (∀ body, s ≠ 'P' :: body ∧ s ≠ '-' :: 'P' :: body) →
      ((Told.err (.parseDuration (c!"Invalid duration: " ++ s)) : Told TimeDelta).said = some m ↔ NoDuration s m) := by
    intro h
    constructor
    · intro e; cases e; exact .noP h
    · intro e
      cases e with
      | noP => rfl
      | @unit body _ _ _ _ _ hs => rcases hs with hs | hs; exact absurd hs (h body).1; exact absurd hs (h body).2
  have some_P : ∀ {body : Str} (f : TimeDelta → TimeDelta), s = 'P' :: body ∨ s = '-' :: 'P' :: body →
      (((tellLoop false [] TimeDelta.zero body).map f).said = some m ↔ NoDuration s m) := by
    intro body f hs
    rw [told_map_said]
    have := loop_said body [] 0 m
    rw [← macroUnits_eq] at this
    have e : secondsDelta 0 = TimeDelta.zero := rfl
    rw [e] at this
    refine Iff.trans this ?_
    constructor
    · rintro ⟨us, u, vs, n, h1, h2, h3⟩; exact .unit hs h1 h2 h3
    · intro h
      cases h with
      | noP h => rcases hs with hs | hs; exact absurd hs (h body).1; exact absurd hs (h body).2
      | @unit body' _ us vs u n hs' h1 h2 h3 =>
        have : body' = body := by
          rcases hs with hs | hs <;> rcases hs' with hs' | hs' <;> rw [hs] at hs' <;> simp_all
        subst this
        exact ⟨us, u, vs, n, h1, h2, h3⟩
  unfold tellDuration
  split
  next neg r heq =>
  split at heq
  · next q =>
    cases heq
    split
    · exact some_P _ (.inr rfl)
    · next hne =>
      refine noP fun body => ⟨by simp, ?_⟩
      intro e
      exact hne body (List.cons.inj e).2
  · next hne =>
    cases heq
    split
    · exact some_P _ (.inl rfl)
    · next hne' => exact noP fun body => ⟨hne' body, hne _⟩

/-- **C97**: what is said of a text that is no trigger is what is said of it as a duration. -/
theorem C97_trigger (s m : Str) : (Trigger.tell s).said = some m ↔ (∃ e, DateTime.ofStr s = .err e) ∧ NoDuration s m := by
  unfold Trigger.tell
  rw [← forget_dateTime]
  cases DateTime.tell s with
  | ok t => exact ⟨fun h => (by cases h), fun h => (by obtain ⟨⟨e, h⟩, _⟩ := h; cases h)⟩
  | panic => exact ⟨fun h => (by cases h), fun h => (by obtain ⟨⟨e, h⟩, _⟩ := h; cases h)⟩
  | err r =>
    simp only
    rw [told_map_said, C97_duration]
    exact ⟨fun h => ⟨⟨_, rfl⟩, h⟩, fun h => h.2⟩

/-! ## Local time -/

/-- **C97**: a floating time that has no place in the local time zone is shown in the message. -/
theorem C97_local (hz : FaithfulZone) (t : NaiveDateTime) (ht : ClockTime t) (h : AnySecond t) (m : Str) :
    (DateTime.naive t).tellLocal.said = some m ↔
      ((∀ v, ClockTime v → localOf v ≠ t) ∨ (∃ v, ClockTime v ∧ localOf v = t ∧ ¬ InRange v.date)) ∧
      ∃ d, DebugTime d t ∧ m = c!"Invalid date in local timezone: Naive(" ++ d ++ c!")" := by
  have hm : (Reason.localTime (.naive t)).message = c!"Invalid date in local timezone: Naive(" ++ t.debug ++ c!")" := by
    show c!"Invalid date in local timezone: " ++ debugText (DateTime.naive t) = _
    have : debugText (DateTime.naive t) = c!"Naive(" ++ t.debug ++ c!")" := by
      simp [debugText, dbg, Dbg.dbg, Doc.compact, Doc.moreItems]
    rw [this]
    simp
  have hd : ∀ m, (∃ d, DebugTime d t ∧ m = c!"Invalid date in local timezone: Naive(" ++ d ++ c!")") ↔
      m = c!"Invalid date in local timezone: Naive(" ++ t.debug ++ c!")" := by
    intro m
    constructor
    · rintro ⟨d, h1, rfl⟩; rw [(C96_time t h d).2 h1]
    · rintro rfl; exact ⟨_, (C96_time t h _).1 rfl, rfl⟩
  rw [hd]
  have hf := forget_local (.naive t)
  obtain ⟨h1, h2⟩ := C68_to_local_fails hz t ht
  constructor
  · intro hs
    cases hx : (DateTime.naive t).tellLocal with
    | ok u => rw [hx] at hs; cases hs
    | panic => rw [hx] at hs; cases hs
    | err r =>
      have hr : r = .localTime (.naive t) := by
        have e : (DateTime.naive t).tellLocal = match localEarliest t with | some u => .ok u | none => .err (.localTime (.naive t)) := rfl
        rw [e] at hx
        cases hl : localEarliest t <;> rw [hl] at hx <;> cases hx
        rfl
      rw [hx, hr] at hs
      have hs : some (Reason.localTime (.naive t)).message = some m := hs
      rw [hm] at hs
      refine ⟨Classical.byContradiction fun hno => ?_, (Option.some.inj hs).symm⟩
      have a : ∃ v, ClockTime v ∧ localOf v = t := Classical.byContradiction fun hn => hno (.inl fun v hv e => hn ⟨v, hv, e⟩)
      have b : ∀ v, ClockTime v → localOf v = t → InRange v.date := fun v hv e => Classical.byContradiction fun hn => hno (.inr ⟨v, hv, e, hn⟩)
      obtain ⟨u, hu⟩ := h2 a b
      rw [hu, hx] at hf
      cases hf
  · rintro ⟨hc, rfl⟩
    rw [h1 hc] at hf
    have e : (DateTime.naive t).tellLocal = match localEarliest t with | some u => .ok u | none => .err (.localTime (.naive t)) := rfl
    rw [e] at hf ⊢
    cases hl : localEarliest t with
    | some u => rw [hl] at hf; cases hf
    | none => exact congrArg some hm

/-! ## The readers without reasons -/

/-- **C97**: the results are those of the readers of the other properties; only the errors say more. -/
theorem C97_forget (s : Str) (t : DateTime) :
    (DateTime.tell s).forget = DateTime.ofStr s ∧ (Date.tell s).forget = Date.ofStr s ∧ t.tellLocal.forget = t.toLocal ∧
    (tellDuration s).forget = parseDuration s ∧ (Trigger.tell s).forget = Trigger.ofStr s :=
  ⟨forget_dateTime s, forget_date s, forget_local t, forget_duration s, forget_trigger s⟩

end

/-! ## Examples -/

section
attribute [local instance] utc
local instance reasonChars : DebugChars := ⟨fun _ => true⟩

example : (Told.int (readI8 c!"12a")).said = some c!"invalid digit found in string" ∧ (Told.int (readU8 c!"-1")).said = some c!"invalid digit found in string" ∧
    (Told.int (readU8 c!"1234x")).said = some c!"number too large to fit in target type" ∧ (Told.int (readI8 c!"-129")).said = some c!"number too small to fit in target type" ∧
    (Told.int (readU32 c!"")).said = some c!"cannot parse integer from empty string" := by decide +kernel
example : (DateTime.tell c!"20240231T000000").said = some c!"premature end of input" ∧ (DateTime.tell c!"20240231T000000Z").said = some c!"input is out of range" ∧
    (DateTime.tell c!"20240228T000000X").said = some c!"input contains invalid characters" ∧ (DateTime.tell c!"20240228T000000ZZ").said = some c!"trailing input" ∧
    (DateTime.tell c!"20241328T000000").said = some c!"input is out of range" ∧ (DateTime.tell c!"20240228").said = some c!"premature end of input" ∧
    (Date.tell c!"20240230").said = some c!"premature end of input" ∧ (Date.tell c!"tomorrow").said = some c!"input contains invalid characters" := by decide +kernel
example : (Told.chrono (readOffset c!"+2500")).said = some c!"input is out of range" ∧ (Told.chrono (readOffset c!"0100")).said = some c!"input contains invalid characters" ∧
    (Told.chrono (readOffset c!"+01")).said = some c!"premature end of input" ∧ (Told.chrono (readOffset c!"+01é")).said = some c!"input contains invalid characters" := by decide +kernel
example : (tellDuration c!"P1W").said = some c!"Invalid duration: 1" ∧ (tellDuration c!"1D").said = some c!"Invalid duration: 1D" ∧
    (tellDuration c!"PD").said = some c!"cannot parse integer from empty string" ∧ (Trigger.tell c!"20240231T000000").said = some c!"Invalid duration: 20240231T000000" ∧
    (tellDuration c!"P99999999999999999999D").said = some c!"number too large to fit in target type" := by decide +kernel

/-- A zone whose clocks skip the hour after 2024-03-31T02:00:00. -/
@[reducible] def skippingZone : Platform := { utc with tzLocal := fun s => if (⟨⟨2024, 3, 31⟩, 7200, 0⟩ : NaiveDateTime).toSecs ≤ s ∧ s < (⟨⟨2024, 3, 31⟩, 10800, 0⟩ : NaiveDateTime).toSecs then .none else .single 0 }

example : (@DateTime.tellLocal skippingZone (.naive ⟨⟨2024, 3, 31⟩, 9000, 0⟩)).said = some c!"Invalid date in local timezone: Naive(2024-03-31T02:30:00)" := by decide +kernel

example : PartsThen floatingParts c!"20240231T000000" [] ∧ PartsThen dateParts c!"20240230" [] := by
  have d : ∀ {s r : Str} (ds : Str) (n lo hi : Nat), s = ds ++ r → Digits ds → ds.length ≤ 2 → 2 ≤ ds.length → decimal ds = n → lo ≤ n → n ≤ hi → PartThen (.number lo hi) s r :=
    fun ds n lo hi e h1 h2 h3 h4 h5 h6 => ⟨n, ⟨[], ds, e, by simp, h1, h2, h4, fun h => absurd h (by omega)⟩, h5, h6⟩
  have y : ∀ {r : Str}, PartThen .year (c!"2024" ++ r) r := fun {r} =>
    ⟨2024, .inl ⟨2024, ⟨[], c!"2024", rfl, by simp, by unfold Digits; decide, by decide, by decide, fun h => absurd h (by decide)⟩, rfl⟩, by decide, by decide⟩
  refine ⟨.cons y (.cons (d c!"02" 2 1 12 rfl ?_ ?_ ?_ ?_ ?_ ?_) (.cons (d c!"31" 31 1 31 rfl ?_ ?_ ?_ ?_ ?_ ?_) (.cons rfl
    (.cons (d c!"00" 0 0 23 rfl ?_ ?_ ?_ ?_ ?_ ?_) (.cons (d c!"00" 0 0 59 rfl ?_ ?_ ?_ ?_ ?_ ?_) (.cons (d c!"00" 0 0 60 rfl ?_ ?_ ?_ ?_ ?_ ?_) .nil)))))),
    .cons y (.cons (d c!"02" 2 1 12 rfl ?_ ?_ ?_ ?_ ?_ ?_) (.cons (d c!"30" 30 1 31 rfl ?_ ?_ ?_ ?_ ?_ ?_) .nil))⟩ <;> first | decide | (unfold Digits; decide)

end

end Ikal
