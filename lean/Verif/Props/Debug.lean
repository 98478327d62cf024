import Verif.Lemmas.DebugTells
import Verif.Lemmas.DebugFloat
import Verif.Lemmas.Output
import Verif.Props.DebugText
import Verif.Props.Sound
import Verif.Props.Float
import Verif.TestPlatform

/-!
# C96: what `Debug` tells

Values that were read are the same if and only if their `Debug` texts are, both plain (`{:?}`) and pretty (`{:#?}`): what a user sees in a log or in a failed assertion
tells the value.
-/

set_option linter.unusedSectionVars false

namespace Ikal

open Spec

/-! ## One line -/

theorem hexDigit_line : ∀ n, n < 16 → hexDigit n ≠ '\n' := by decide

theorem hexStr_line (fuel n : Nat) : '\n' ∉ hexStr fuel n := by
  induction fuel generalizing n with
  | zero => simp only [hexStr, List.mem_singleton]; exact fun h => hexDigit_line _ (Nat.mod_lt _ (by decide)) h.symm
  | succ k ih =>
    rw [hexStr]
    split
    · next h => simp only [List.mem_singleton]; exact fun h' => hexDigit_line _ h h'.symm
    · simp only [List.mem_append, List.mem_singleton, not_or]
      exact ⟨ih _, fun h => hexDigit_line _ (Nat.mod_lt _ (by decide)) h.symm⟩

section
variable [DebugChars]

theorem debugChar_line (c : Char) : '\n' ∉ debugChar c := by
  unfold debugChar
  by_cases h : c = '\n'
  · subst h; rw [if_neg (by decide), if_neg (by decide), if_neg (by decide), if_pos rfl]; decide
  · have h1 : '\n' ∉ [c] := fun h' => h (List.mem_singleton.1 h').symm
    have h2 : '\n' ∉ unicodeEscape c := by simp [unicodeEscape, hexStr_line]
    repeat' split
    all_goals first | exact h1 | exact h2 | decide

theorem debugStr_line (s : Str) : '\n' ∉ debugStr s := by
  unfold debugStr
  simp only [List.cons_append, List.mem_cons, List.mem_append, List.mem_flatMap, List.not_mem_nil, or_false, not_or, not_exists, not_and]
  refine ⟨by decide, fun c _ => ?_, by decide⟩
  split
  · decide
  · exact debugChar_line c

theorem run_line {p : Char → Bool} (hp : p '\n' = false) {s : Str} (h : ∀ c ∈ s, p c = true) : '\n' ∉ s := by
  intro hc; rw [h _ hc] at hp; cases hp

theorem word_line {s : Str} (h : RunOf wordChar s) : '\n' ∉ s := run_line (by decide) h.2
theorem name_line {s : Str} (h : RunOf nameChar s) : '\n' ∉ s := run_line (by decide) h.2

mutual
theorem compact_line : ∀ d : Doc, d.Ok → '\n' ∉ d.compact
  | .word s, h => by rw [Doc.compact]; exact word_line h
  | .str s, _ => by rw [Doc.compact]; exact debugStr_line s
  | .struct n [], h => by rw [Doc.compact]; exact name_line h.1
  | .struct n ((k, d) :: fs), h => by
    have h1 := name_line h.1
    have h2 := name_line h.2.2.1
    have h3 := compact_line d h.2.2.2.1
    have h4 := fields_line fs h.2.2.2.2
    simp [Doc.compact, h1, h2, h3, h4]
  | .tuple n [], h => by rw [Doc.compact]; exact name_line h.1
  | .tuple n (d :: ds), h => by
    have h1 := name_line h.1
    have h3 := compact_line d h.2.2.1
    have h4 := items_line ds h.2.2.2
    simp [Doc.compact, h1, h3, h4]
  | .list [], _ => by simp [Doc.compact]
  | .list (d :: ds), h => by
    have h3 := compact_line d h.1
    have h4 := items_line ds h.2
    simp [Doc.compact, h3, h4]
  | .map [], _ => by simp [Doc.compact]
  | .map ((k, d) :: fs), h => by
    have h2 := debugStr_line k
    have h3 := compact_line d h.1
    have h4 := entries_line fs h.2
    simp [Doc.compact, h2, h3, h4]
theorem fields_line : ∀ fs : List (Str × Doc), Doc.OkFields fs → '\n' ∉ Doc.moreFields fs
  | [], _ => by simp [Doc.moreFields]
  | (k, d) :: fs, h => by
    have h2 := name_line h.1
    have h3 := compact_line d h.2.1
    have h4 := fields_line fs h.2.2
    simp [Doc.moreFields, h2, h3, h4]
theorem items_line : ∀ ds : List Doc, Doc.OkItems ds → '\n' ∉ Doc.moreItems ds
  | [], _ => by simp [Doc.moreItems]
  | d :: ds, h => by
    have h3 := compact_line d h.1
    have h4 := items_line ds h.2
    simp [Doc.moreItems, h3, h4]
theorem entries_line : ∀ fs : List (Str × Doc), Doc.OkEntries fs → '\n' ∉ Doc.moreEntries fs
  | [], _ => by simp [Doc.moreEntries]
  | (k, d) :: fs, h => by
    have h2 := debugStr_line k
    have h3 := compact_line d h.1
    have h4 := entries_line fs h.2
    simp [Doc.moreEntries, h2, h3, h4]
end

theorem debug_tells {α : Type} [Dbg α] [OkDbg α] {Q : α → Prop} (h : Tells Q) {v w : α} (hv : Q v) (hw : Q w) :
    (debugText v = debugText w ↔ v = w) ∧ (debugPretty v = debugPretty w ↔ v = w) :=
  ⟨⟨fun e => h v w hv hw (compact_inj _ (OkDbg.ok v) (OkDbg.ok w) (.inl rfl) (.inl rfl) (congrArg (· ++ []) e)).1, fun e => e ▸ rfl⟩,
   ⟨fun e => h v w hv hw (pretty_inj _ (OkDbg.ok v) (OkDbg.ok w) (.inl rfl) (.inl rfl) (congrArg (· ++ []) e)).1, fun e => e ▸ rfl⟩⟩

/-- **C96**: the texts of content lines are the same if and only if the parameters and the values are; nothing is said of the names. -/
theorem C96_ContentLine (v w : ContentLine) :
    (debugText v = debugText w ↔ v.params = w.params ∧ v.value = w.value) ∧ (debugPretty v = debugPretty w ↔ v.params = w.params ∧ v.value = w.value) := by
  have key : dbg v = dbg w ↔ v.params = w.params ∧ v.value = w.value := by
    constructor
    · intro h
      have h := (Doc.struct.inj h).2
      exact ⟨inj_params _ _ (field_head h), inj_Str _ _ (field_head (List.cons.inj h).2)⟩
    · rintro ⟨h1, h2⟩
      show Doc.struct _ _ = Doc.struct _ _
      rw [h1, h2]
  refine ⟨⟨fun e => key.1 (compact_inj _ (OkDbg.ok v) (OkDbg.ok w) (.inl rfl) (.inl rfl) (congrArg (· ++ []) e)).1, fun h => ?_⟩,
    fun e => key.1 (pretty_inj _ (OkDbg.ok v) (OkDbg.ok w) (.inl rfl) (.inl rfl) (congrArg (· ++ []) e)).1, fun h => ?_⟩
  · rw [debugText, debugText, key.2 h]
  · rw [debugPretty, debugPretty, key.2 h]

/-! ## Values -/

/-- **C96** for texts. -/
theorem C96_Text (v w : Text) : (debugText v = debugText w ↔ v = w) ∧ (debugPretty v = debugPretty w ↔ v = w) :=
  debug_tells (Q := fun _ => True) (fun _ _ _ _ => inj_Text _ _) trivial trivial

/-- **C96** for URIs. -/
theorem C96_Uri (v w : Uri) : (debugText v = debugText w ↔ v = w) ∧ (debugPretty v = debugPretty w ↔ v = w) :=
  debug_tells (Q := fun _ => True) (fun _ _ _ _ => inj_Uri _ _) trivial trivial

/-- **C96** for classifications. -/
theorem C96_Class (v w : Class) : (debugText v = debugText w ↔ v = w) ∧ (debugPretty v = debugPretty w ↔ v = w) :=
  debug_tells (Q := fun _ => True) (fun _ _ _ _ => inj_Class _ _) trivial trivial

/-- **C96** for statuses. -/
theorem C96_Status (v w : Status) : (debugText v = debugText w ↔ v = w) ∧ (debugPretty v = debugPretty w ↔ v = w) :=
  debug_tells (Q := fun _ => True) (fun _ _ _ _ => inj_Status _ _) trivial trivial

/-- **C96** for time transparencies. -/
theorem C96_TimeTransparency (v w : TimeTransparency) : (debugText v = debugText w ↔ v = w) ∧ (debugPretty v = debugPretty w ↔ v = w) :=
  debug_tells (Q := fun _ => True) (fun _ _ _ _ => inj_TimeTransparency _ _) trivial trivial

/-- **C96** for durations. -/
theorem C96_TimeDelta (v w : TimeDelta) : (debugText v = debugText w ↔ v = w) ∧ (debugPretty v = debugPretty w ↔ v = w) :=
  debug_tells (Q := fun _ => True) (fun _ _ _ _ => inj_TimeDelta _ _) trivial trivial

/-- **C96** for days of the week. -/
theorem C96_WeekdayNum (v w : WeekdayNum) : (debugText v = debugText w ↔ v = w) ∧ (debugPretty v = debugPretty w ↔ v = w) :=
  debug_tells (Q := fun _ => True) (fun _ _ _ _ => inj_WeekdayNum _ _) trivial trivial

/-- **C96** for offsets of less than a day. -/
theorem C96_FixedOffset (v w : FixedOffset) (hv : v.Valid) (hw : w.Valid) : (debugText v = debugText w ↔ v = w) ∧ (debugPretty v = debugPretty w ↔ v = w) :=
  debug_tells tells_FixedOffset hv hw

end

theorem yearDebug_eq (y : Int) : yearDebug y = yearStr y := by
  unfold yearDebug yearStr
  split
  · rfl
  · simp only
    congr 1
    generalize y.natAbs = n
    split
    · next h =>
      refine (fixed4_iff (by omega)).1 ⟨padTo_length (by decide) (by omega), Digits_iff.2 ⟨?_, padTo_digits _ _⟩, ?_⟩
      · simp [Format.padTo, natStr_ne]
      · rw [← digitsVal_eq_decimal]; exact digitsVal_zeros_natStr _ _
    · next h =>
      have h1 := digitsVal_lt (natStr n) (natStr_digits n)
      rw [show digitsVal (natStr n) = n from digitsVal_zeros_natStr 0 n] at h1
      have h2 : 4 ≤ (natStr n).length := by
        apply Classical.byContradiction
        intro h3
        have : 10 ^ (natStr n).length ≤ 10 ^ 4 := Nat.pow_le_pow_right (by decide) (by omega)
        omega
      rw [Format.padTo, show 4 - (natStr n).length = 0 by omega]; rfl

/-- **C96**: the text of a date. -/
theorem C96_date (d : NaiveDate) (h : RealDate d) (s : Str) : d.debug = s ↔ DebugDate s d := by
  obtain ⟨hm, hd⟩ := realDate_bounds h
  have e : d.debug = yearStr d.year ++ c!"-" ++ pad2 d.month ++ c!"-" ++ pad2 d.day := by
    rw [← yearDebug_eq]; simp [NaiveDate.debug, yearDebug]
  rw [e]
  constructor
  · rintro rfl; exact ⟨_, _, _, rfl, yearText_iff.2 rfl, (fixed2_iff hm).2 rfl, (fixed2_iff hd).2 rfl⟩
  · rintro ⟨y, m, a, rfl, h1, h2, h3⟩
    rw [yearText_iff.1 h1, (fixed2_iff hm).1 h2, (fixed2_iff hd).1 h3]

theorem fixed_padTo {k m : Nat} {t : Str} (hk : 1 ≤ k) (hm : m < 10 ^ k) : FixedText k t m ↔ t = Format.padTo '0' k (natStr m) :=
  fixedText_iff (padTo_digits _ _) (padTo_length hk hm) hk (digitsVal_zeros_natStr _ _)

theorem fracDebug_text {n : Nat} (hn : n < 1000000000) (s : Str) : fracDebug n = s ↔ DebugFraction s n := by
  unfold fracDebug DebugFraction
  have f3 : ∀ t, FixedText 3 t (n / 10 ^ (9 - 3)) ↔ t = Format.padTo '0' 3 (natStr (n / 1000000)) := fun t => fixed_padTo (by decide) (by omega)
  have f6 : ∀ t, FixedText 6 t (n / 10 ^ (9 - 6)) ↔ t = Format.padTo '0' 6 (natStr (n / 1000)) := fun t => fixed_padTo (by decide) (by omega)
  have f9 : ∀ t, FixedText 9 t (n / 10 ^ (9 - 9)) ↔ t = Format.padTo '0' 9 (natStr n) := by
    intro t; rw [show n / 10 ^ (9 - 9) = n by omega]; exact fixed_padTo (by decide) (by omega)
  constructor
  · rintro rfl
    by_cases h0 : n = 0
    · exact .inl ⟨h0, if_pos h0⟩
    · refine .inr ⟨h0, ?_⟩
      rw [if_neg h0]
      by_cases h1 : n % 1000000 = 0
      · rw [if_pos h1]; exact ⟨3, _, rfl, (f3 _).2 rfl, .inl ⟨rfl, by omega⟩⟩
      · rw [if_neg h1]
        by_cases h2 : n % 1000 = 0
        · rw [if_pos h2]; exact ⟨6, _, rfl, (f6 _).2 rfl, .inr (.inl ⟨rfl, by omega, by omega⟩)⟩
        · rw [if_neg h2]; exact ⟨9, _, rfl, (f9 _).2 rfl, .inr (.inr ⟨rfl, by omega⟩)⟩
  · rintro (⟨h0, rfl⟩ | ⟨h0, k, t, rfl, h, ⟨rfl, h1⟩ | ⟨rfl, h1, h2⟩ | ⟨rfl, h1⟩⟩)
    · exact if_pos h0
    · rw [if_neg h0, if_pos (by omega), (f3 t).1 h]
    · rw [if_neg h0, if_neg (by omega), if_pos (by omega), (f6 t).1 h]
    · rw [if_neg h0, if_neg (by omega), if_neg (by omega), (f9 t).1 h]

/-- **C96**: the text of a date with a time. -/
theorem C96_time (t : NaiveDateTime) (h : AnySecond t) (s : Str) : t.debug = s ↔ DebugTime s t := by
  obtain ⟨hd, hs, hf⟩ := h
  have e : t.debug = t.date.debug ++ c!"T" ++ pad2 (t.secs / 3600) ++ c!":" ++ pad2 (t.secs % 3600 / 60) ++ c!":" ++
      pad2 (if t.frac < 1000000000 then t.secs % 60 else t.secs % 60 + 1) ++ fracDebug (t.frac % 1000000000) := by
    have e1 : t.secs / 60 % 60 = t.secs % 3600 / 60 := by omega
    have e2 : t.frac % 1000000000 = if t.frac < 1000000000 then t.frac else t.frac - 1000000000 := by split <;> omega
    have := time_debug_eq t []
    rw [List.append_nil] at this
    rw [this, e1, e2]; simp
  have hx : ∀ x, (t.frac < 1000000000 ∧ FixedText 2 x (t.secs % 60) ∨ 1000000000 ≤ t.frac ∧ FixedText 2 x (t.secs % 60 + 1)) ↔
      x = pad2 (if t.frac < 1000000000 then t.secs % 60 else t.secs % 60 + 1) := by
    intro x
    split
    · next h =>
      rw [← fixed2_iff (by omega)]
      exact ⟨fun h' => by rcases h' with h' | h'; exact h'.2; omega, fun h' => .inl ⟨h, h'⟩⟩
    · next h =>
      rw [← fixed2_iff (by omega)]
      exact ⟨fun h' => by rcases h' with h' | h'; omega; exact h'.2, fun h' => .inr ⟨by omega, h'⟩⟩
  rw [e]
  constructor
  · rintro rfl
    exact ⟨_, _, _, _, _, rfl, (C96_date _ hd _).1 rfl, (fixed2_iff (by omega)).2 rfl, (fixed2_iff (by omega)).2 rfl, (hx _).2 rfl,
      (fracDebug_text (by omega) _).1 rfl⟩
  · rintro ⟨d, h, m, x, f, rfl, h1, h2, h3, h4, h5⟩
    rw [(C96_date _ hd _).2 h1, (fixed2_iff (by omega)).1 h2, (fixed2_iff (by omega)).1 h3, (hx x).1 h4, (fracDebug_text (by omega) _).2 h5]

/-- **C96**: the text of an offset of less than a day. -/
theorem C96_offset (o : Int) (h : -86400 < o ∧ o < 86400) (s : Str) : offsetDebug o = s ↔ DebugOffset s o := by
  have e : o.natAbs % 3600 / 60 = o.natAbs / 60 % 60 := by omega
  constructor
  · rintro rfl
    refine ⟨if o < 0 then '-' else '+', pad2 (o.natAbs / 3600), pad2 (o.natAbs / 60 % 60), if o.natAbs % 60 = 0 then [] else ':' :: pad2 (o.natAbs % 60),
      by simp [offsetDebug], ?_, (fixed2_iff (by omega)).2 rfl, (fixed2_iff (by omega)).2 (by rw [e]), ?_⟩
    · split
      · exact .inl ⟨by assumption, rfl⟩
      · exact .inr ⟨by omega, rfl⟩
    · split
      · exact .inl ⟨by assumption, rfl⟩
      · exact .inr ⟨by assumption, _, rfl, (fixed2_iff (by omega)).2 rfl⟩
  · rintro ⟨sign, h, m, x, rfl, h1, h2, h3, h4⟩
    rw [(fixed2_iff (by omega)).1 h2, (fixed2_iff (by omega)).1 h3, e]
    rcases h1 with ⟨h1, rfl⟩ | ⟨h1, rfl⟩ <;> rcases h4 with ⟨h4, rfl⟩ | ⟨h4, t, rfl, h5⟩
    · simp [offsetDebug, h1, h4]
    · simp [offsetDebug, h1, h4, (fixed2_iff (by omega)).1 h5]
    · simp [offsetDebug, Int.not_lt.2 h1, h4]
    · simp [offsetDebug, Int.not_lt.2 h1, h4, (fixed2_iff (by omega)).1 h5]

section
variable [Platform] [DebugChars]

/-- **C96** for date-times. -/
theorem C96_DateTime (hz : OffsetsWithinADay) (v w : DateTime) (hv : ReadDateTime v) (hw : ReadDateTime w) (cv : ClearClock v) (cw : ClearClock w) :
    (debugText v = debugText w ↔ v = w) ∧ (debugPretty v = debugPretty w ↔ v = w) := debug_tells (tells_DateTime hz) ⟨hv, cv⟩ ⟨hw, cw⟩

/-- **C96** for dates. -/
theorem C96_Date (hz : OffsetsWithinADay) (v w : Date) (hv : ReadDate v) (hw : ReadDate w) (cv : ClearClock v) (cw : ClearClock w) :
    (debugText v = debugText w ↔ v = w) ∧ (debugPretty v = debugPretty w ↔ v = w) := debug_tells (tells_Date hz) ⟨hv, cv⟩ ⟨hw, cw⟩

/-- **C96** for triggers. -/
theorem C96_Trigger (hz : OffsetsWithinADay) (v w : Trigger) (hv : ReadTrigger v) (hw : ReadTrigger w) (cv : ClearClock v) (cw : ClearClock w) :
    (debugText v = debugText w ↔ v = w) ∧ (debugPretty v = debugPretty w ↔ v = w) := debug_tells (tells_Trigger hz) ⟨hv, cv⟩ ⟨hw, cw⟩

/-- **C96** for periods. -/
theorem C96_Period (hz : OffsetsWithinADay) (v w : Period) (hv : ReadPeriod v) (hw : ReadPeriod w) (cv : ClearClock v) (cw : ClearClock w) :
    (debugText v = debugText w ↔ v = w) ∧ (debugPretty v = debugPretty w ↔ v = w) := debug_tells (tells_Period hz) ⟨hv, cv⟩ ⟨hw, cw⟩

/-- **C96** for recurrence dates. -/
theorem C96_RDate (hz : OffsetsWithinADay) (v w : RDate) (hv : ReadRDate v) (hw : ReadRDate w) (cv : ClearClock v) (cw : ClearClock w) :
    (debugText v = debugText w ↔ v = w) ∧ (debugPretty v = debugPretty w ↔ v = w) := debug_tells (tells_RDate hz) ⟨hv, cv⟩ ⟨hw, cw⟩

/-- **C96** for rules. -/
theorem C96_Recur (hz : OffsetsWithinADay) (v w : Recur) (hv : ReadRule v) (hw : ReadRule w) (cv : ClearClock v) (cw : ClearClock w) :
    (debugText v = debugText w ↔ v = w) ∧ (debugPretty v = debugPretty w ↔ v = w) := debug_tells (tells_Recur hz) ⟨hv, cv⟩ ⟨hw, cw⟩

section
variable [FloatDebug] [LawfulFloatDebug]

/-- **C96** for positions. -/
theorem C96_Geo (v w : Geo) : (debugText v = debugText w ↔ v = w) ∧ (debugPretty v = debugPretty w ↔ v = w) :=
  debug_tells (Q := fun _ => True) (fun _ _ _ _ => inj_Geo _ _) trivial trivial

/-- **C96** for request statuses. -/
theorem C96_RequestStatus (v w : RequestStatus) : (debugText v = debugText w ↔ v = w) ∧ (debugPretty v = debugPretty w ↔ v = w) :=
  debug_tells (Q := fun _ => True) (fun _ _ _ _ => inj_RequestStatus _ _) trivial trivial

/-! ## Components that were read -/

/-- **C96** for alarms that were read. -/
theorem C96_VAlarm (hz : OffsetsWithinADay) {s s' : Str} {v w : VAlarm} (hv : VAlarm.ofStr s = .ok v) (hw : VAlarm.ofStr s' = .ok w) (cv : ClearClock v) (cw : ClearClock w) :
    (debugText v = debugText w ↔ v = w) ∧ (debugPretty v = debugPretty w ↔ v = w) := debug_tells (tells_VAlarm hz) ⟨C80_VAlarm hv, cv⟩ ⟨C80_VAlarm hw, cw⟩

/-- **C96** for events that were read. -/
theorem C96_VEvent (hz : OffsetsWithinADay) {s s' : Str} {v w : VEvent} (hv : VEvent.ofStr s = .ok v) (hw : VEvent.ofStr s' = .ok w) (cv : ClearClock v) (cw : ClearClock w) :
    (debugText v = debugText w ↔ v = w) ∧ (debugPretty v = debugPretty w ↔ v = w) := debug_tells (tells_VEvent hz) ⟨C80_VEvent hv, cv⟩ ⟨C80_VEvent hw, cw⟩

/-- **C96** for to-dos that were read. -/
theorem C96_VTodo (hz : OffsetsWithinADay) {s s' : Str} {v w : VTodo} (hv : VTodo.ofStr s = .ok v) (hw : VTodo.ofStr s' = .ok w) (cv : ClearClock v) (cw : ClearClock w) :
    (debugText v = debugText w ↔ v = w) ∧ (debugPretty v = debugPretty w ↔ v = w) := debug_tells (tells_VTodo hz) ⟨C80_VTodo hv, cv⟩ ⟨C80_VTodo hw, cw⟩

/-- **C96** for journal entries that were read. -/
theorem C96_VJournal (hz : OffsetsWithinADay) {s s' : Str} {v w : VJournal} (hv : VJournal.ofStr s = .ok v) (hw : VJournal.ofStr s' = .ok w) (cv : ClearClock v) (cw : ClearClock w) :
    (debugText v = debugText w ↔ v = w) ∧ (debugPretty v = debugPretty w ↔ v = w) := debug_tells (tells_VJournal hz) ⟨C80_VJournal hv, cv⟩ ⟨C80_VJournal hw, cw⟩

/-- **C96** for free/busy components that were read. -/
theorem C96_VFreebusy (hz : OffsetsWithinADay) {s s' : Str} {v w : VFreebusy} (hv : VFreebusy.ofStr s = .ok v) (hw : VFreebusy.ofStr s' = .ok w) (cv : ClearClock v) (cw : ClearClock w) :
    (debugText v = debugText w ↔ v = w) ∧ (debugPretty v = debugPretty w ↔ v = w) := debug_tells (tells_VFreebusy hz) ⟨C80_VFreebusy hv, cv⟩ ⟨C80_VFreebusy hw, cw⟩

/-- **C96** for standard-time parts that were read. -/
theorem C96_Standard (hz : OffsetsWithinADay) {s s' : Str} {v w : Standard} (hv : Standard.ofStr s = .ok v) (hw : Standard.ofStr s' = .ok w) (cv : ClearClock v) (cw : ClearClock w) :
    (debugText v = debugText w ↔ v = w) ∧ (debugPretty v = debugPretty w ↔ v = w) := debug_tells (tells_Standard hz) ⟨C80_Standard hv, cv⟩ ⟨C80_Standard hw, cw⟩

/-- **C96** for daylight-saving parts that were read. -/
theorem C96_Daylight (hz : OffsetsWithinADay) {s s' : Str} {v w : Daylight} (hv : Daylight.ofStr s = .ok v) (hw : Daylight.ofStr s' = .ok w) (cv : ClearClock v) (cw : ClearClock w) :
    (debugText v = debugText w ↔ v = w) ∧ (debugPretty v = debugPretty w ↔ v = w) := debug_tells (tells_Daylight hz) ⟨C80_Daylight hv, cv⟩ ⟨C80_Daylight hw, cw⟩

/-- **C96** for time zones that were read. -/
theorem C96_VTimezone (hz : OffsetsWithinADay) {s s' : Str} {v w : VTimezone} (hv : VTimezone.ofStr s = .ok v) (hw : VTimezone.ofStr s' = .ok w) (cv : ClearClock v) (cw : ClearClock w) :
    (debugText v = debugText w ↔ v = w) ∧ (debugPretty v = debugPretty w ↔ v = w) := debug_tells (tells_VTimezone hz) ⟨C80_VTimezone hv, cv⟩ ⟨C80_VTimezone hw, cw⟩

/-- **C96** for calendars that were read. -/
theorem C96_VCalendar (hz : OffsetsWithinADay) {s s' : Str} {v w : VCalendar} (hv : VCalendar.ofStr s = .ok v) (hw : VCalendar.ofStr s' = .ok w) (cv : ClearClock v) (cw : ClearClock w) :
    (debugText v = debugText w ↔ v = w) ∧ (debugPretty v = debugPretty w ↔ v = w) := debug_tells (tells_VCalendar hz) ⟨C80_VCalendar hv, cv⟩ ⟨C80_VCalendar hw, cw⟩

/-- **C96**: `{:?}` is one line, whatever the texts in the value. -/
theorem C96_one_line : (∀ v : VCalendar, '\n' ∉ debugText v) ∧ (∀ v : VEvent, '\n' ∉ debugText v) ∧ (∀ v : VTodo, '\n' ∉ debugText v) ∧
    (∀ v : VJournal, '\n' ∉ debugText v) ∧ (∀ v : VFreebusy, '\n' ∉ debugText v) ∧ (∀ v : VTimezone, '\n' ∉ debugText v) ∧
    (∀ v : VAlarm, '\n' ∉ debugText v) ∧ ∀ v : ContentLine, '\n' ∉ debugText v :=
  ⟨fun v => compact_line _ (OkDbg.ok v), fun v => compact_line _ (OkDbg.ok v), fun v => compact_line _ (OkDbg.ok v), fun v => compact_line _ (OkDbg.ok v),
   fun v => compact_line _ (OkDbg.ok v), fun v => compact_line _ (OkDbg.ok v), fun v => compact_line _ (OkDbg.ok v), fun v => compact_line _ (OkDbg.ok v)⟩

end
end

/-! ## Floats -/

theorem units_le {i j : Nat} : units i ≤ units j ↔ i ≤ j := by
  rw [F32.units_eq, F32.units_eq]
  refine ⟨fun h => ?_, F32.scaled_le⟩
  apply Classical.byContradiction
  intro h'
  have := F32.scaled_lt (Nat.not_le.1 h')
  omega

theorem extreme_iff (b : Nat) : Extreme b ↔ F32.nearestDecimal 1 16 ≤ b ∨ b < F32.nearestDecimal 1 (-4) := by
  have key : ∀ (e : Int) (n : Nat), RoundsTo 1 e n ↔ F32.nearestDecimal 1 e = n := fun e n => F32.nearestDecimal_iff.symm
  simp only [Extreme, key, units_le, ← Nat.not_le]
  constructor
  · rintro (⟨n, rfl, h⟩ | ⟨n, rfl, h⟩)
    · exact .inl h
    · exact .inr h
  · rintro (h | h)
    · exact .inl ⟨_, rfl, h⟩
    · exact .inr ⟨_, rfl, h⟩

theorem scientific_text (c : Nat) (e : Int) : ScientificText (F32.scientific c e) c e := by
  cases h : natStr c with
  | nil => exact absurd h (natStr_ne c)
  | cons d ds =>
    refine ⟨d, ds, _, h ▸ numberText_natStr c, signedText_iff.2 rfl, ?_⟩
    cases ds <;> simp [F32.scientific, h]

/-- **C96**: the text of a finite number other than zero has the same digits as `Display` (C94); from `1e16` on and below `1e-4` it is in scientific notation, otherwise there is
at least one decimal. -/
theorem C96_float (P : Platform) (neg : Bool) (b : Fin f32Inf) (h0 : b.val ≠ 0) : ∃ t c e, (ieeeDebug P).text (.fin neg b) = signText neg ++ t ∧ RoundsTo c e b ∧
    (∀ c' e' n, RoundsTo c' e' b → c' < 10 ^ n → c < 10 ^ n) ∧
    (∀ c', RoundsTo c' e b → Off b (c * 2 ^ 149 * 10 ^ e.toNat) (10 ^ (-e).toNat) ≤ Off b (c' * 2 ^ 149 * 10 ^ e.toNat) (10 ^ (-e).toNat)) ∧
    c % 10 ≠ 0 ∧
    (Extreme b → ScientificText t c e) ∧
    (¬ Extreme b → e < 0 ∧ PlainDecimal t c e ∨ 0 ≤ e ∧ ∃ u, t = u ++ c!".0" ∧ PlainDecimal u c e) := by
  have hend := F32.shortest_end b.isLt h0
  have hr := F32.nearestDecimal_iff.1 (F32.shortest_rounds b.val)
  have hd : ∀ c' e' n, RoundsTo c' e' b → c' < 10 ^ n → (F32.shortest b.val).1 < 10 ^ n :=
    fun c' e' n h hn => F32.shortest_digits b.isLt h0 (F32.nearestDecimal_iff.2 h) hn
  have hc : ∀ c', RoundsTo c' (F32.shortest b.val).2 b → _ := fun c' h => F32.shortestAt_closest (F32.shortest_spec b.val).2.1 (F32.nearestDecimal_iff.2 h)
  have ht : (ieeeDebug P).text (.fin neg b) = signText neg ++ if F32.nearestDecimal 1 16 ≤ b.val ∨ b.val < F32.nearestDecimal 1 (-4) then
      F32.scientific (F32.shortest b.val).1 (F32.shortest b.val).2
      else F32.decimalText (F32.shortest b.val).1 (F32.shortest b.val).2 ++ if 0 ≤ (F32.shortest b.val).2 then c!".0" else [] := by
    show F32.debug (.fin neg b) = _
    rw [F32.debug, if_neg h0]; rfl
  refine ⟨_, _, _, ht, hr, hd, hc, hend, fun h => ?_, fun h => ?_⟩
  · rw [if_pos ((extreme_iff _).1 h)]; exact scientific_text _ _
  · rw [if_neg fun h' => h ((extreme_iff _).2 h')]
    have hp := F32.decimalText_plain (c := (F32.shortest b.val).1) (e := (F32.shortest b.val).2) (.inl fun h => hend (by rw [h]))
    generalize F32.shortest b.val = p at hp
    by_cases he : 0 ≤ p.2
    · rw [if_pos he]; exact .inr ⟨he, _, rfl, hp⟩
    · rw [if_neg he, List.append_nil]; exact .inl ⟨by omega, hp⟩

/-- **C96**: zero, infinity and what is not a number. -/
theorem C96_float_special (P : Platform) : (ieeeDebug P).text (.fin false ⟨0, by decide⟩) = c!"0.0" ∧ (ieeeDebug P).text (.fin true ⟨0, by decide⟩) = c!"-0.0" ∧
    (ieeeDebug P).text (.inf false) = c!"inf" ∧ (ieeeDebug P).text (.inf true) = c!"-inf" ∧ (ieeeDebug P).text .nan = c!"NaN" := ⟨rfl, rfl, rfl, rfl, rfl⟩

/-- **C96**: a finite number is read back from its text, and the texts of floats tell them: the hypothesis `LawfulFloatDebug` above holds of 32-bit floats. -/
theorem C96_float_tells (P : Platform) : (∀ neg b, (ieee P).floatParse ((ieeeDebug P).text (.fin neg b)) = some (.fin neg b, [])) ∧ @LawfulFloatDebug (ieee P) (ieeeDebug P) := by
  refine ⟨fun neg b => ?_, F32.ieee_lawful P⟩
  have := F32.parse_debug neg b (r := []) (.inl rfl)
  rwa [List.append_nil] at this

/-! ## Examples -/

section

local instance exampleChars : DebugChars := ⟨fun _ => true⟩

/-- Positions. -/
example : F32.debug (.fin false ⟨0x42436979, by decide⟩) = c!"48.853" ∧ F32.debug (.fin true ⟨0x40000000, by decide⟩) = c!"-2.0" ∧
    F32.debug (.fin false ⟨1, by decide⟩) = c!"1e-45" ∧ F32.debug (.fin false ⟨f32Inf - 1, by decide⟩) = c!"3.4028235e38" := by decide +kernel

/-- An event with a float, a local time and a rule. -/
def exampleShown : Str := c!"BEGIN:VEVENT\r\nUID:a\r\nDTSTAMP:20170209T192358Z\r\nDTSTART:20160704T190000\r\nGEO:48.853;2.35\r\nSUMMARY:a\\nb\r\nRRULE:FREQ=DAILY;COUNT=3\r\nEND:VEVENT\r\n"

section
@[reducible, local instance] def exampleDebugFloats : Platform := ieee utc
local instance : FloatDebug := ieeeDebug utc

/-- Such an event is read, and the hypotheses hold: UTC is within a day of UTC, and there are no leap seconds. -/
example : OffsetsWithinADay ∧ LawfulFloatDebug ∧ ∃ v, VEvent.ofStr exampleShown = .ok v ∧ ClearClock v := by
  refine ⟨fun n => by simp [Platform.tzOffset], F32.ieee_lawful utc, ?_⟩
  have h : (match VEvent.ofStr exampleShown with | .ok v => (localTimes v).all fun u => u.frac = 0 | _ => false) = true := by decide +kernel
  cases hv : VEvent.ofStr exampleShown with
  | ok v =>
    rw [hv] at h
    exact ⟨v, rfl, fun u hu => .inl (by simpa using List.all_eq_true.1 h u hu)⟩
  | err => rw [hv] at h; cases h
  | panic => rw [hv] at h; cases h

/-- The texts of its parts. -/
example : (match VEvent.ofStr exampleShown with
    | .ok v => decide (debugText v.geo = c!"Some(Geo { lat: 48.853, lon: 2.35 })" ∧ debugText v.dtstamp = c!"Local(2017-02-09T19:23:58+00:00)" ∧
        debugText v.dtstart = c!"DateTime(Naive(2016-07-04T19:00:00))" ∧ debugText v.summary = c!"Some(Text { params: {}, text: \"a\\\\nb\" })" ∧
        debugPretty v.geo = c!"Some(\n    Geo {\n        lat: 48.853,\n        lon: 2.35,\n    },\n)")
    | _ => false) = true := by decide +kernel

end

/-- The hypothesis about the clocks is needed: where they are 30 seconds ahead of UTC, a leap second and the second after it have the same text. -/
theorem C96_leap_second : dateTimeProp ⟨c!"DTSTAMP", [], c!"20161231T235960Z"⟩ ≠ dateTimeProp ⟨c!"DTSTAMP", [], c!"20170101T000000Z"⟩ ∧
    ∃ v w, dateTimeProp ⟨c!"DTSTAMP", [], c!"20161231T235960Z"⟩ = .ok v ∧ dateTimeProp ⟨c!"DTSTAMP", [], c!"20170101T000000Z"⟩ = .ok w ∧
      @debugText _ (@instDbgDateTime (fixedZone 30)) _ v = @debugText _ (@instDbgDateTime (fixedZone 30)) _ w := by
  have h1 : dateTimeProp ⟨c!"DTSTAMP", [], c!"20161231T235960Z"⟩ = .ok (.loc ⟨⟨2016, 12, 31⟩, 86399, 1000000000⟩) := by rfl
  have h2 : dateTimeProp ⟨c!"DTSTAMP", [], c!"20170101T000000Z"⟩ = .ok (.loc ⟨⟨2017, 1, 1⟩, 0, 0⟩) := by rfl
  refine ⟨by rw [h1, h2]; simp, _, _, h1, h2, by decide +kernel⟩

end

end Ikal
