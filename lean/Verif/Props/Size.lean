import Verif.Lemmas.SizeParts
import Verif.Props.Saves
import Verif.TestPlatform

/-!
# C105: saving what was read does not blow up

The text that is written is at most a fixed number of times as long as the text that was read.
-/

namespace Ikal

open Nom Spec Size

set_option linter.unusedSectionVars false

/-- **C105**, an alarm: there is a number, for all platforms that do not write much, such that whatever text is read, the text written for it is at
most that many times as long. -/
theorem C105_VAlarm (K : Nat) : ∃ B : Nat, ∀ [Platform], Modest K → ∀ (s : Str) (v : VAlarm) (t : Str), VAlarm.ofStr s = .ok v → ical v = .ok t →
    t.length ≤ B * s.length :=
  ⟨B1 K, fun hK _ _ _ h ht => read_written (fun _ => rfl) (linP_VAlarm hK) h ht⟩

/-- **C105**, a to-do: there is a number, for all platforms that do not write much, such that whatever text is read, the text written for it is at
most that many times as long. -/
theorem C105_VTodo (K : Nat) : ∃ B : Nat, ∀ [Platform], Modest K → ∀ (s : Str) (v : VTodo) (t : Str), VTodo.ofStr s = .ok v → ical v = .ok t →
    t.length ≤ B * s.length :=
  ⟨B1 K, fun hK _ _ _ h ht => read_written (fun _ => rfl) (linP_VTodo hK) h ht⟩

/-- **C105**, a journal entry: there is a number, for all platforms that do not write much, such that whatever text is read, the text written for it is at
most that many times as long. -/
theorem C105_VJournal (K : Nat) : ∃ B : Nat, ∀ [Platform], Modest K → ∀ (s : Str) (v : VJournal) (t : Str), VJournal.ofStr s = .ok v → ical v = .ok t →
    t.length ≤ B * s.length :=
  ⟨B1 K, fun hK _ _ _ h ht => read_written (fun _ => rfl) (linP_VJournal hK) h ht⟩

/-- **C105**, free and busy times: there is a number, for all platforms that do not write much, such that whatever text is read, the text written for it is at
most that many times as long. -/
theorem C105_VFreebusy (K : Nat) : ∃ B : Nat, ∀ [Platform], Modest K → ∀ (s : Str) (v : VFreebusy) (t : Str), VFreebusy.ofStr s = .ok v → ical v = .ok t →
    t.length ≤ B * s.length :=
  ⟨B1 K, fun hK _ _ _ h ht => read_written (fun _ => rfl) (linP_VFreebusy hK) h ht⟩

/-- **C105**, standard time: there is a number, for all platforms that do not write much, such that whatever text is read, the text written for it is at
most that many times as long. -/
theorem C105_Standard (K : Nat) : ∃ B : Nat, ∀ [Platform], Modest K → ∀ (s : Str) (v : Standard) (t : Str), Standard.ofStr s = .ok v → ical v = .ok t →
    t.length ≤ B * s.length :=
  ⟨B1 K, fun hK _ _ _ h ht => read_written (fun _ => rfl) (linP_Standard hK) h ht⟩

/-- **C105**, daylight saving time: there is a number, for all platforms that do not write much, such that whatever text is read, the text written for it is at
most that many times as long. -/
theorem C105_Daylight (K : Nat) : ∃ B : Nat, ∀ [Platform], Modest K → ∀ (s : Str) (v : Daylight) (t : Str), Daylight.ofStr s = .ok v → ical v = .ok t →
    t.length ≤ B * s.length :=
  ⟨B1 K, fun hK _ _ _ h ht => read_written (fun _ => rfl) (linP_Daylight hK) h ht⟩

/-- **C105**, a time zone: there is a number, for all platforms that do not write much, such that whatever text is read, the text written for it is at
most that many times as long. -/
theorem C105_VTimezone (K : Nat) : ∃ B : Nat, ∀ [Platform], Modest K → ∀ (s : Str) (v : VTimezone) (t : Str), VTimezone.ofStr s = .ok v → ical v = .ok t →
    t.length ≤ B * s.length :=
  ⟨Size.next K (B1 K), fun hK _ _ _ h ht => read_written (fun _ => rfl) (linP_VTimezone hK) h ht⟩

/-- **C105**, an event: there is a number, for all platforms that do not write much, such that whatever text is read, the text written for it is at
most that many times as long. -/
theorem C105_VEvent (K : Nat) : ∃ B : Nat, ∀ [Platform], Modest K → ∀ (s : Str) (v : VEvent) (t : Str), VEvent.ofStr s = .ok v → ical v = .ok t →
    t.length ≤ B * s.length :=
  ⟨Size.next K (B1 K), fun hK _ _ _ h ht => read_written (fun _ => rfl) (linP_VEvent hK) h ht⟩

/-- **C105**, a calendar: there is a number, for all platforms that do not write much, such that whatever text is read, the text written for it is at
most that many times as long. -/
theorem C105_VCalendar (K : Nat) : ∃ B : Nat, ∀ [Platform], Modest K → ∀ (s : Str) (v : VCalendar) (t : Str), VCalendar.ofStr s = .ok v → ical v = .ok t →
    t.length ≤ B * s.length :=
  ⟨Size.next K (Size.next K (B1 K)), fun hK _ _ _ h ht => read_written (fun _ => rfl) (linP_VCalendar hK) h ht⟩

/-- **C105**: `n` saves, one after the other. -/
theorem C105_saves (K : Nat) : ∃ B : Nat, ∀ [Platform], Modest K → ∀ (n : Nat) (s : Str) (v w : VCalendar) (t : Str), VCalendar.ofStr s = .ok v →
    Repeatedly (Saved VCalendar.ofStr) n v w → ical w = .ok t → t.length ≤ B ^ (n + 1) * s.length := by
  obtain ⟨B, h⟩ := C105_VCalendar K
  refine ⟨B, fun hK n s v w t hs hr ht => ?_⟩
  have key : ∀ n v w, Repeatedly (Saved VCalendar.ofStr) n v w → ∀ N : Nat, (∀ t, ical v = .ok t → t.length ≤ N) → ∀ t, ical w = .ok t → t.length ≤ B ^ n * N := by
    intro n v w hr
    induction hr with
    | none => intro N hN t ht; simpa using hN t ht
    | more _ h2 ih =>
      intro N hN t ht
      obtain ⟨u, h3, h4⟩ := h2
      refine Nat.le_trans (h hK u _ t h4 ht) ?_
      rw [Nat.pow_succ, Nat.mul_comm _ B, Nat.mul_assoc]
      exact Nat.mul_le_mul_left _ (ih N hN u h3)
  have := key n v w hr (B * s.length) (fun t ht => h hK s v t hs ht) t ht
  rwa [Nat.pow_succ, Nat.mul_assoc]

theorem bounded (f : Nat → Nat) (n : Nat) : ∃ K, ∀ m, m < n → f m ≤ K := by
  induction n with
  | zero => exact ⟨0, by omega⟩
  | succ n ih =>
    obtain ⟨K, h⟩ := ih
    refine ⟨max K (f n), fun m hm => ?_⟩
    by_cases e : m = n
    · subst e; omega
    · have := h m (by omega); omega

theorem display_bounded (g : F32 → Str) : ∃ K, ∀ x, (g x).length ≤ K := by
  obtain ⟨a, ha⟩ := bounded (fun n => if h : n < f32Inf then (g (.fin true ⟨n, h⟩)).length else 0) f32Inf
  obtain ⟨b, hb⟩ := bounded (fun n => if h : n < f32Inf then (g (.fin false ⟨n, h⟩)).length else 0) f32Inf
  refine ⟨a + b + (g .nan).length + (g (.inf true)).length + (g (.inf false)).length, fun x => ?_⟩
  match x with
  | .nan => omega
  | .inf true => omega
  | .inf false => omega
  | .fin true ⟨n, h⟩ => have := ha n h; simp only [dif_pos h] at this; omega
  | .fin false ⟨n, h⟩ => have := hb n h; simp only [dif_pos h] at this; omega

/-- **C105**: with the floats of the program, all that is asked of the platform is that the upper case of a character has a bounded length (in Unicode
it has at most three characters) and that the clocks of the zone are less than a day from UTC (as all offsets of `chrono` are). -/
theorem C105_platform (U : Nat) : ∃ K, ∀ P : Platform, (∀ c, (P.upperNonAscii c).length ≤ U) → (∀ n, -86400 < P.tzOffset n ∧ P.tzOffset n < 86400) →
    @Modest (ieee P) K := by
  obtain ⟨a, ha⟩ := display_bounded F32.display
  obtain ⟨b, hb⟩ := display_bounded F32.display1
  refine ⟨a + b + U, fun P hU hz => ?_⟩
  have hp : ∀ s x r, F32.parse s = some (x, r) → 1 ≤ s.length := by
    intro s x r h
    cases s with
    | nil => revert h; simp [F32.parse, F32.sign, F32.mantissa, F32.tagNoCase]
    | cons c s => simp
  have hr : ∀ s x r, F32.parse s = some (x, r) → r.length ≤ s.length := by
    intro s x r h
    obtain ⟨t, rfl⟩ := (C94_sane utc).1.1 s x r h
    simp
  exact @Modest.mk (ieee P) _ hr
    (fun s x r h => by
      have h1 : a + b + U ≤ (a + b + U) * s.length := Nat.le_mul_of_pos_right _ (hp s x r h)
      have := ha x
      show (F32.display x).length ≤ _
      omega)
    (fun s x r h => by
      have h1 : a + b + U ≤ (a + b + U) * s.length := Nat.le_mul_of_pos_right _ (hp s x r h)
      have := hb x
      show (F32.display1 x).length ≤ _
      omega)
    (fun c => Nat.le_trans (hU c) (by omega)) hz

/-! ## A case -/

/-- The hypothesis holds of the test platform, also with real floats. -/
example : @Modest utc 1 := by
  have h : ∀ s x r, utc.floatParse s = some (x, r) → (show Str from x).length + r.length = s.length := by
    intro s x r h
    replace h : (if (s.takeWhile fun c => c.isDigit || c = '.').isEmpty then none
      else some (s.takeWhile fun c => c.isDigit || c = '.', s.dropWhile fun c => c.isDigit || c = '.')) = some (x, r) := h
    split at h
    · simp at h
    · simp at h
      rw [← h.1, ← h.2, ← List.length_append, List.takeWhile_append_dropWhile]
  exact @Modest.mk utc 1 (fun s x r hs => by have := h s x r hs; omega) (fun s x r hs => by
      have := h s x r hs
      show (show Str from x).length ≤ _
      omega) (fun s x r hs => by
      have := h s x r hs
      show (show Str from x).length ≤ _
      omega) (fun c => by show ([c] : Str).length ≤ 1; simp) fun n => by show (-86400 : Int) < 0 ∧ (0 : Int) < 86400; omega

example : ∃ K, @Modest (ieee utc) K := by
  obtain ⟨K, h⟩ := C105_platform 1
  exact ⟨K, h utc (fun c => by show ([c] : Str).length ≤ 1; simp) fun n => by show (-86400 : Int) < 0 ∧ (0 : Int) < 86400; omega⟩

section
attribute [local instance] utc

/-- An event that is read and written, longer than it was. -/
def sizeText : Str :=
  c!"BEGIN:VEVENT\r\nDTSTAMP:20240101T000000\r\nUID;A=b:a;b;c\r\nDTSTART:20240101\r\nRRULE:FREQ=DAILY\r\nEXDATE:20240102,20240103\r\nBEGIN:VALARM\r\nACTION:AUDIO\r\nTRIGGER:PT1M\r\nEND:VALARM\r\nEND:VEVENT\r\n"

example : (match VEvent.ofStr sizeText with
    | .ok v => (match ical v with
      | .ok t => decide (sizeText.length < t.length)
      | _ => false)
    | _ => false) = true := by decide +kernel

end

end Ikal
