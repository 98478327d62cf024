import Verif.Lemmas.DebugTells

/-!
# C96: what `Debug` shows

The forms of the texts; labels and variants are those of the declarations in the source (taken from there by a script).
-/

set_option linter.unusedSectionVars false

namespace Ikal

open Spec

section
variable [DebugChars]

theorem moreFields_text (fs : List (Str × Doc)) (s : Str) :
    s ++ Doc.moreFields fs = joinWith c!", " (s :: fs.map fun f => f.1 ++ c!": " ++ f.2.compact) := by
  induction fs generalizing s with
  | nil => simp [Doc.moreFields, joinWith]
  | cons f fs ih =>
    rw [List.map_cons, joinWith, ← ih]
    simp only [Doc.moreFields, List.append_assoc]

theorem moreItems_text (ds : List Doc) (s : Str) : s ++ Doc.moreItems ds = joinWith c!", " (s :: ds.map Doc.compact) := by
  induction ds generalizing s with
  | nil => simp [Doc.moreItems, joinWith]
  | cons f fs ih =>
    rw [List.map_cons, joinWith, ← ih]
    simp only [Doc.moreItems, List.append_assoc]

theorem moreEntries_text (fs : List (Str × Doc)) (s : Str) :
    s ++ Doc.moreEntries fs = joinWith c!", " (s :: fs.map fun f => debugStr f.1 ++ c!": " ++ f.2.compact) := by
  induction fs generalizing s with
  | nil => simp [Doc.moreEntries, joinWith]
  | cons f fs ih =>
    rw [List.map_cons, joinWith, ← ih]
    simp only [Doc.moreEntries, List.append_assoc]

theorem struct_text (n : Str) (f : Str × Doc) (fs : List (Str × Doc)) :
    (Doc.struct n (f :: fs)).compact = structText n ((f :: fs).map fun f => (f.1, f.2.compact)) := by
  rw [structText, List.map_map]
  rw [show (List.map ((fun f : Str × Str => f.1 ++ c!": " ++ f.2) ∘ fun f : Str × Doc => (f.1, f.2.compact)) (f :: fs)) =
    (f.1 ++ c!": " ++ f.2.compact) :: fs.map fun f => f.1 ++ c!": " ++ f.2.compact from rfl, ← moreFields_text]
  simp only [Doc.compact, List.append_assoc]

theorem tuple_text (n : Str) (d : Doc) : (Doc.tuple n [d]).compact = tupleText n d.compact := by
  simp [Doc.compact, Doc.moreItems, tupleText]

theorem indented_lines (s : Str) :
    (lineEnd false s = true → ∃ (l : Str) (ls : List Str), '\n' ∉ l ∧ (∀ l ∈ ls, '\n' ∉ l) ∧ s = l ++ c!"\n" ++ (ls.map fun l => l ++ c!"\n").flatten ∧
      indent false s = l ++ c!"\n" ++ (ls.map fun l => c!"    " ++ l ++ c!"\n").flatten) ∧
    (lineEnd true s = true → Indented s (indent true s)) := by
  induction s with
  | nil => exact ⟨fun h => absurd h (by decide), fun _ => ⟨[], by simp, rfl, rfl⟩⟩
  | cons c s ih =>
    by_cases hc : c = '\n'
    · subst hc
      have h2 : lineEnd true s = true → Indented s (indent true s) := ih.2
      refine ⟨fun h => ?_, fun h => ?_⟩
      · obtain ⟨ls, h1, h3, h4⟩ := h2 h
        exact ⟨[], ls, by simp, h1, by rw [h3]; rfl, by rw [← h4]; rfl⟩
      · obtain ⟨ls, h1, h3, h4⟩ := h2 h
        refine ⟨[] :: ls, by intro l hl; rcases List.mem_cons.1 hl with rfl | hl; simp; exact h1 l hl, ?_, ?_⟩
        · simp only [List.map_cons, List.flatten_cons]; rw [← h3]; rfl
        · simp only [List.map_cons, List.flatten_cons]; rw [← h4]; rfl
    · have hb : (c == '\n') = false := by simpa using hc
      have hn : '\n' ≠ c := fun h => hc h.symm
      refine ⟨fun h => ?_, fun h => ?_⟩
      · obtain ⟨l, ls, h0, h1, h3, h4⟩ := ih.1 (by simpa [lineEnd, hb] using h)
        refine ⟨c :: l, ls, by simp [hn, h0], h1, by rw [h3]; simp, ?_⟩
        rw [show indent false (c :: s) = c :: indent (c == '\n') s from rfl, hb, h4]; simp
      · obtain ⟨l, ls, h0, h1, h3, h4⟩ := ih.1 (by simpa [lineEnd, hb] using h)
        refine ⟨(c :: l) :: ls, ?_, ?_, ?_⟩
        · intro l' hl; rcases List.mem_cons.1 hl with rfl | hl
          · simp [hn, h0]
          · exact h1 l' hl
        · rw [h3]; simp
        · rw [show indent true (c :: s) = c!"    " ++ c :: indent (c == '\n') s from rfl, hb, h4]; simp

theorem struct_lines (n : Str) (f : Str × Doc) (fs : List (Str × Doc)) {gs : List (Str × Str)} {t : Str}
    (hg : gs = (f :: fs).map fun f => (f.1, f.2.pretty)) (ht : t = (Doc.struct n (f :: fs)).pretty) : StructLines n gs t := by
  subst hg ht
  refine ⟨indent true (fieldsText (f :: fs)), ?_, ?_⟩
  · have := (indented_lines _).2 (fieldLines_eq (f :: fs)).2
    rw [List.map_map]
    simp only [fieldsText, List.flatMap_def] at this ⊢
    exact this
  · rw [Doc.pretty, (fieldLines_eq _).1]

theorem tuple_lines (n : Str) (d : Doc) {t u : Str} (ht : t = (Doc.tuple n [d]).pretty) (hu : u = d.pretty) : TupleLines n u t := by
  subst ht hu
  refine ⟨indent true (docText [d]), ?_, ?_⟩
  · have := (indented_lines _).2 (itemLines_eq [d]).2
    simpa only [docText, List.flatMap_cons, List.flatMap_nil, List.append_nil] using this
  · rw [Doc.pretty, (itemLines_eq _).1]

/-! ## `core` and `alloc` -/

/-- **C96**: no line break in the text of a string. -/
theorem C96_string (s : Str) : debugText s = debugStr s ∧ debugPretty s = debugStr s := ⟨rfl, rfl⟩

/-- **C96**: `None`, or `Some(…)`. -/
theorem C96_option {α : Type} [Dbg α] : debugText (none : Option α) = c!"None" ∧ debugPretty (none : Option α) = c!"None" ∧
    ∀ a : α, debugText (some a) = tupleText c!"Some" (debugText a) ∧ TupleLines c!"Some" (debugPretty a) (debugPretty (some a)) :=
  ⟨rfl, rfl, fun a => ⟨tuple_text _ _, tuple_lines _ _ rfl rfl⟩⟩

/-- **C96**: the items in brackets. -/
theorem C96_list {α : Type} [Dbg α] (l : List α) : debugText l = listText (l.map debugText) ∧ ListLines (l.map debugPretty) (debugPretty l) := by
  cases l with
  | nil => exact ⟨rfl, .inl ⟨rfl, rfl⟩⟩
  | cons a l =>
    refine ⟨?_, .inr ⟨by simp, indent true (docText ((a :: l).map dbg)), ?_, ?_⟩⟩
    · show (Doc.list (dbg a :: l.map dbg)).compact = _
      rw [listText, List.map_cons, show List.map debugText l = (l.map dbg).map Doc.compact by rw [List.map_map]; rfl, ← moreItems_text]
      simp only [Doc.compact, List.append_assoc]; rfl
    · have := (indented_lines _).2 (itemLines_eq ((a :: l).map dbg)).2
      rw [List.map_map]
      simp only [docText, List.flatMap_def, List.map_map] at this ⊢
      exact this
    · show (Doc.list (dbg a :: l.map dbg)).pretty = _
      rw [Doc.pretty, (itemLines_eq _).1]; rfl

/-- **C96**: the entries in braces. -/
theorem C96_map {α : Type} [Dbg α] (m : SMap α) : debugText m = mapText (m.map fun p => (debugStr p.1, debugText p.2)) ∧
    MapLines (m.map fun p => (debugStr p.1, debugPretty p.2)) (debugPretty m) := by
  cases m with
  | nil => exact ⟨rfl, .inl ⟨rfl, rfl⟩⟩
  | cons a l =>
    refine ⟨?_, .inr ⟨by simp, indent true (entriesText ((a :: l).map fun p => (p.1, dbg p.2))), ?_, ?_⟩⟩
    · show (Doc.map ((a.1, dbg a.2) :: l.map fun p => (p.1, dbg p.2))).compact = _
      rw [mapText, List.map_map, List.map_cons,
        show List.map ((fun f : Str × Str => f.1 ++ c!": " ++ f.2) ∘ fun p : Str × α => (debugStr p.1, debugText p.2)) l =
          (l.map fun p => (p.1, dbg p.2)).map fun f => debugStr f.1 ++ c!": " ++ f.2.compact by rw [List.map_map]; rfl, ← moreEntries_text]
      simp only [Doc.compact, Function.comp, debugText, List.append_assoc]
    · have := (indented_lines _).2 (entryLines_eq ((a :: l).map fun p => (p.1, dbg p.2))).2
      rw [List.map_map]
      simp only [entriesText, List.flatMap_def, List.map_map] at this ⊢
      exact this
    · show (Doc.map ((a.1, dbg a.2) :: l.map fun p => (p.1, dbg p.2))).pretty = _
      rw [Doc.pretty, (entryLines_eq _).1]; rfl

/-! ## Values -/

/-- **C96**: the name of a content line is not shown (`src/content_line.rs:14-21`). -/
theorem C96_ContentLine_text (l : ContentLine) :
    debugText l = structText c!"ContentLine" [(c!"params", debugText l.params), (c!"value", debugText l.value)] ∧
    StructLines c!"ContentLine" [(c!"params", debugPretty l.params), (c!"value", debugPretty l.value)] (debugPretty l) :=
  ⟨struct_text _ _ _, struct_lines _ _ _ rfl rfl⟩

/-- **C96**: the fields of a text (`src/properties/text.rs`). -/
theorem C96_Text_text (v : Text) :
    debugText v = structText c!"Text"
      [(c!"params", debugText v.params),
       (c!"text", debugText v.text)] ∧
    StructLines c!"Text"
      [(c!"params", debugPretty v.params),
       (c!"text", debugPretty v.text)] (debugPretty v) :=
  ⟨struct_text _ _ _, struct_lines _ _ _ rfl rfl⟩

/-- **C96**: the fields of an URI (`src/properties/uri.rs`). -/
theorem C96_Uri_text (v : Uri) :
    debugText v = structText c!"Uri"
      [(c!"params", debugText v.params),
       (c!"uri", debugText v.uri)] ∧
    StructLines c!"Uri"
      [(c!"params", debugPretty v.params),
       (c!"uri", debugPretty v.uri)] (debugPretty v) :=
  ⟨struct_text _ _ _, struct_lines _ _ _ rfl rfl⟩

/-- **C96**: the fields of a day of the week with its number (`src/properties/recur.rs`). -/
theorem C96_WeekdayNum_text (v : WeekdayNum) :
    debugText v = structText c!"WeekdayNum"
      [(c!"weekday", debugText v.weekday),
       (c!"ord", debugText v.ord)] ∧
    StructLines c!"WeekdayNum"
      [(c!"weekday", debugPretty v.weekday),
       (c!"ord", debugPretty v.ord)] (debugPretty v) :=
  ⟨struct_text _ _ _, struct_lines _ _ _ rfl rfl⟩

/-- **C96**: the variants of `Status` (`src/properties/status.rs`). -/
theorem C96_Status_text : debugText Status.tentative = c!"Tentative" ∧
    debugText Status.confirmed = c!"Confirmed" ∧
    debugText Status.cancelled = c!"Cancelled" ∧
    debugText Status.needsAction = c!"NeedsAction" ∧
    debugText Status.completed = c!"Completed" ∧
    debugText Status.inProcess = c!"InProcess" ∧
    debugText Status.draft = c!"Draft" ∧
    debugText Status.final = c!"Final" ∧
    ∀ x : Status, debugPretty x = debugText x :=
  ⟨rfl, rfl, rfl, rfl, rfl, rfl, rfl, rfl, fun x => by cases x <;> rfl⟩

/-- **C96**: the variants of `TimeTransparency` (`src/properties/time_transparency.rs`). -/
theorem C96_TimeTransparency_text : debugText TimeTransparency.opaque = c!"Opaque" ∧
    debugText TimeTransparency.transparent = c!"Transparent" ∧
    ∀ x : TimeTransparency, debugPretty x = debugText x :=
  ⟨rfl, rfl, fun x => by cases x <;> rfl⟩

/-- **C96**: the variants of `Freq` (`src/properties/recur.rs`). -/
theorem C96_Freq_text : debugText Freq.secondly = c!"Secondly" ∧
    debugText Freq.minutely = c!"Minutely" ∧
    debugText Freq.hourly = c!"Hourly" ∧
    debugText Freq.daily = c!"Daily" ∧
    debugText Freq.weekly = c!"Weekly" ∧
    debugText Freq.monthly = c!"Monthly" ∧
    debugText Freq.yearly = c!"Yearly" ∧
    ∀ x : Freq, debugPretty x = debugText x :=
  ⟨rfl, rfl, rfl, rfl, rfl, rfl, rfl, fun x => by cases x <;> rfl⟩

/-- **C96**: the variants of `Weekday` (`src/properties/recur.rs`). -/
theorem C96_Weekday_text : debugText Weekday.sunday = c!"Sunday" ∧
    debugText Weekday.monday = c!"Monday" ∧
    debugText Weekday.tuesday = c!"Tuesday" ∧
    debugText Weekday.wednesday = c!"Wenesday" ∧
    debugText Weekday.thursday = c!"Thurday" ∧
    debugText Weekday.friday = c!"Friday" ∧
    debugText Weekday.saturday = c!"Saturday" ∧
    ∀ x : Weekday, debugPretty x = debugText x :=
  ⟨rfl, rfl, rfl, rfl, rfl, rfl, rfl, fun x => by cases x <;> rfl⟩

/-- **C96**: the variants of `Class` (`src/properties/class.rs`). -/
theorem C96_Class_text : debugText Class.pub = c!"Public" ∧ debugText Class.priv = c!"Private" ∧ debugText Class.confidential = c!"Confidential" ∧
    ∀ s, debugText (Class.custom s) = tupleText c!"Custom" (debugStr s) ∧ TupleLines c!"Custom" (debugStr s) (debugPretty (Class.custom s)) :=
  ⟨rfl, rfl, rfl, fun s => ⟨tuple_text _ _, tuple_lines _ _ rfl rfl⟩⟩

/-- **C96**: whole seconds, rounded down, and nanoseconds of a duration (chrono). -/
theorem C96_TimeDelta_text (d : TimeDelta) :
    debugText d = structText c!"TimeDelta" [(c!"secs", debugText (d.nanos / 1000000000)), (c!"nanos", debugText (d.nanos % 1000000000))] ∧
    StructLines c!"TimeDelta" [(c!"secs", debugPretty (d.nanos / 1000000000)), (c!"nanos", debugPretty (d.nanos % 1000000000))] (debugPretty d) :=
  ⟨struct_text _ _ _, struct_lines _ _ _ rfl rfl⟩

section
variable [Platform]

/-- **C96**: the variants of `Date` and `DateTime` (`src/properties/date.rs`). -/
theorem C96_Date_text : (∀ d, debugText (Date.date d) = tupleText c!"Date" d.debug ∧ TupleLines c!"Date" d.debug (debugPretty (Date.date d))) ∧
    (∀ t, debugText (Date.dateTime t) = tupleText c!"DateTime" (debugText t) ∧ TupleLines c!"DateTime" (debugPretty t) (debugPretty (Date.dateTime t))) ∧
    (∀ t, debugText (DateTime.naive t) = tupleText c!"Naive" t.debug ∧ TupleLines c!"Naive" t.debug (debugPretty (DateTime.naive t))) ∧
    ∀ u, debugText (DateTime.loc u) = tupleText c!"Local" ((localOf u).debug ++ offsetDebug (Platform.tzOffset u.toSecs)) ∧
      TupleLines c!"Local" ((localOf u).debug ++ offsetDebug (Platform.tzOffset u.toSecs)) (debugPretty (DateTime.loc u)) :=
  ⟨fun _ => ⟨tuple_text _ _, tuple_lines _ _ rfl rfl⟩, fun _ => ⟨tuple_text _ _, tuple_lines _ _ rfl rfl⟩, fun _ => ⟨tuple_text _ _, tuple_lines _ _ rfl rfl⟩, fun _ => ⟨tuple_text _ _, tuple_lines _ _ rfl rfl⟩⟩

/-- **C96**: the variants of `Trigger` (`src/properties/trigger.rs`). -/
theorem C96_Trigger_text : (∀ t, debugText (Trigger.dateTime t) = tupleText c!"DateTime" (debugText t) ∧
      TupleLines c!"DateTime" (debugPretty t) (debugPretty (Trigger.dateTime t))) ∧
    ∀ d, debugText (Trigger.duration d) = tupleText c!"Duration" (debugText d) ∧ TupleLines c!"Duration" (debugPretty d) (debugPretty (Trigger.duration d)) :=
  ⟨fun _ => ⟨tuple_text _ _, tuple_lines _ _ rfl rfl⟩, fun _ => ⟨tuple_text _ _, tuple_lines _ _ rfl rfl⟩⟩

/-- **C96**: the variants of `RDate` (`src/properties/rdate.rs`). -/
theorem C96_RDate_text : (∀ l, debugText (RDate.date l) = tupleText c!"Date" (debugText l) ∧ TupleLines c!"Date" (debugPretty l) (debugPretty (RDate.date l))) ∧
    ∀ l, debugText (RDate.period l) = tupleText c!"Period" (debugText l) ∧ TupleLines c!"Period" (debugPretty l) (debugPretty (RDate.period l)) :=
  ⟨fun _ => ⟨tuple_text _ _, tuple_lines _ _ rfl rfl⟩, fun _ => ⟨tuple_text _ _, tuple_lines _ _ rfl rfl⟩⟩

/-- **C96**: the variants of `Period` and the fields of `StartEnd` and `StartDur` (`src/properties/period.rs`). -/
theorem C96_Period_text : (∀ a b, debugText (Period.startEnd a b) =
      tupleText c!"StartEnd" (structText c!"StartEnd" [(c!"start", debugText a), (c!"end", debugText b)]) ∧
      ∃ s, StructLines c!"StartEnd" [(c!"start", debugPretty a), (c!"end", debugPretty b)] s ∧ TupleLines c!"StartEnd" s (debugPretty (Period.startEnd a b))) ∧
    ∀ a d, debugText (Period.startDur a d) =
      tupleText c!"StartDur" (structText c!"StartDur" [(c!"start", debugText a), (c!"duration", debugText d)]) ∧
      ∃ s, StructLines c!"StartDur" [(c!"start", debugPretty a), (c!"duration", debugPretty d)] s ∧ TupleLines c!"StartDur" s (debugPretty (Period.startDur a d)) :=
  ⟨fun _ _ => ⟨(tuple_text _ _).trans (congrArg _ (struct_text _ _ _)), _, struct_lines _ _ _ rfl rfl, tuple_lines _ _ rfl rfl⟩,
    fun _ _ => ⟨(tuple_text _ _).trans (congrArg _ (struct_text _ _ _)), _, struct_lines _ _ _ rfl rfl, tuple_lines _ _ rfl rfl⟩⟩

/-- **C96**: the fields of a rule (`src/properties/recur.rs`). -/
theorem C96_Recur_text (v : Recur) :
    debugText v = structText c!"Recur"
      [(c!"freq", debugText v.freq),
       (c!"until", debugText v.until_),
       (c!"count", debugText v.count),
       (c!"interval", debugText v.interval),
       (c!"by_second", debugText v.bySecond),
       (c!"by_minute", debugText v.byMinute),
       (c!"by_hour", debugText v.byHour),
       (c!"by_day", debugText v.byDay),
       (c!"by_monthday", debugText v.byMonthday),
       (c!"by_yearday", debugText v.byYearday),
       (c!"by_weekno", debugText v.byWeekno),
       (c!"by_month", debugText v.byMonth),
       (c!"by_setpos", debugText v.bySetpos),
       (c!"wkst", debugText v.wkst)] ∧
    StructLines c!"Recur"
      [(c!"freq", debugPretty v.freq),
       (c!"until", debugPretty v.until_),
       (c!"count", debugPretty v.count),
       (c!"interval", debugPretty v.interval),
       (c!"by_second", debugPretty v.bySecond),
       (c!"by_minute", debugPretty v.byMinute),
       (c!"by_hour", debugPretty v.byHour),
       (c!"by_day", debugPretty v.byDay),
       (c!"by_monthday", debugPretty v.byMonthday),
       (c!"by_yearday", debugPretty v.byYearday),
       (c!"by_weekno", debugPretty v.byWeekno),
       (c!"by_month", debugPretty v.byMonth),
       (c!"by_setpos", debugPretty v.bySetpos),
       (c!"wkst", debugPretty v.wkst)] (debugPretty v) :=
  ⟨struct_text _ _ _, struct_lines _ _ _ rfl rfl⟩

section
variable [FloatDebug]

/-- **C96**: the fields of a position (`src/properties/geo.rs`). -/
theorem C96_Geo_text (v : Geo) : debugText v = structText c!"Geo" [(c!"lat", FloatDebug.text v.lat), (c!"lon", FloatDebug.text v.lon)] ∧
    StructLines c!"Geo" [(c!"lat", FloatDebug.text v.lat), (c!"lon", FloatDebug.text v.lon)] (debugPretty v) := ⟨struct_text _ _ _, struct_lines _ _ _ rfl rfl⟩

/-- **C96**: the fields of a request status (`src/properties/request_status.rs`). -/
theorem C96_RequestStatus_text (v : RequestStatus) :
    debugText v = structText c!"RequestStatus" [(c!"statcode", FloatDebug.text v.statcode), (c!"statdesc", debugText v.statdesc), (c!"extdata", debugText v.extdata)] ∧
    StructLines c!"RequestStatus" [(c!"statcode", FloatDebug.text v.statcode), (c!"statdesc", debugPretty v.statdesc), (c!"extdata", debugPretty v.extdata)] (debugPretty v) :=
  ⟨struct_text _ _ _, struct_lines _ _ _ rfl rfl⟩

/-! ## Components -/

/-- **C96**: the fields of an audio alarm (`src/components/valarm.rs`). -/
theorem C96_Audio_text (v : Audio) :
    debugText v = structText c!"Audio"
      [(c!"action", debugText v.action),
       (c!"trigger", debugText v.trigger),
       (c!"duration", debugText v.duration),
       (c!"repeat", debugText v.repeat_),
       (c!"attach", debugText v.attach),
       (c!"x_prop", debugText v.xProp),
       (c!"iana_prop", debugText v.ianaProp)] ∧
    StructLines c!"Audio"
      [(c!"action", debugPretty v.action),
       (c!"trigger", debugPretty v.trigger),
       (c!"duration", debugPretty v.duration),
       (c!"repeat", debugPretty v.repeat_),
       (c!"attach", debugPretty v.attach),
       (c!"x_prop", debugPretty v.xProp),
       (c!"iana_prop", debugPretty v.ianaProp)] (debugPretty v) :=
  ⟨struct_text _ _ _, struct_lines _ _ _ rfl rfl⟩

/-- **C96**: the fields of a display alarm (`src/components/valarm.rs`). -/
theorem C96_Display_text (v : Display) :
    debugText v = structText c!"Display"
      [(c!"action", debugText v.action),
       (c!"trigger", debugText v.trigger),
       (c!"description", debugText v.description),
       (c!"duration", debugText v.duration),
       (c!"repeat", debugText v.repeat_),
       (c!"x_prop", debugText v.xProp),
       (c!"iana_prop", debugText v.ianaProp)] ∧
    StructLines c!"Display"
      [(c!"action", debugPretty v.action),
       (c!"trigger", debugPretty v.trigger),
       (c!"description", debugPretty v.description),
       (c!"duration", debugPretty v.duration),
       (c!"repeat", debugPretty v.repeat_),
       (c!"x_prop", debugPretty v.xProp),
       (c!"iana_prop", debugPretty v.ianaProp)] (debugPretty v) :=
  ⟨struct_text _ _ _, struct_lines _ _ _ rfl rfl⟩

/-- **C96**: the fields of an e-mail alarm (`src/components/valarm.rs`). -/
theorem C96_Email_text (v : Email) :
    debugText v = structText c!"Email"
      [(c!"action", debugText v.action),
       (c!"trigger", debugText v.trigger),
       (c!"description", debugText v.description),
       (c!"summary", debugText v.summary),
       (c!"attendee", debugText v.attendee),
       (c!"duration", debugText v.duration),
       (c!"repeat", debugText v.repeat_),
       (c!"attach", debugText v.attach),
       (c!"x_prop", debugText v.xProp),
       (c!"iana_prop", debugText v.ianaProp)] ∧
    StructLines c!"Email"
      [(c!"action", debugPretty v.action),
       (c!"trigger", debugPretty v.trigger),
       (c!"description", debugPretty v.description),
       (c!"summary", debugPretty v.summary),
       (c!"attendee", debugPretty v.attendee),
       (c!"duration", debugPretty v.duration),
       (c!"repeat", debugPretty v.repeat_),
       (c!"attach", debugPretty v.attach),
       (c!"x_prop", debugPretty v.xProp),
       (c!"iana_prop", debugPretty v.ianaProp)] (debugPretty v) :=
  ⟨struct_text _ _ _, struct_lines _ _ _ rfl rfl⟩

/-- **C96**: the fields of an event (`src/components/vevent.rs`). -/
theorem C96_VEvent_text (v : VEvent) :
    debugText v = structText c!"VEvent"
      [(c!"dtstamp", debugText v.dtstamp),
       (c!"uid", debugText v.uid),
       (c!"dtstart", debugText v.dtstart),
       (c!"class", debugText v.class_),
       (c!"created", debugText v.created),
       (c!"description", debugText v.description),
       (c!"geo", debugText v.geo),
       (c!"last_modified", debugText v.lastModified),
       (c!"location", debugText v.location),
       (c!"organizer", debugText v.organizer),
       (c!"priority", debugText v.priority),
       (c!"sequence", debugText v.sequence),
       (c!"status", debugText v.status),
       (c!"summary", debugText v.summary),
       (c!"transp", debugText v.transp),
       (c!"url", debugText v.url),
       (c!"recurid", debugText v.recurid),
       (c!"rrule", debugText v.rrule),
       (c!"dtend", debugText v.dtend),
       (c!"duration", debugText v.duration),
       (c!"attach", debugText v.attach),
       (c!"attendee", debugText v.attendee),
       (c!"categories", debugText v.categories),
       (c!"comment", debugText v.comment),
       (c!"contact", debugText v.contact),
       (c!"exdate", debugText v.exdate),
       (c!"rstatus", debugText v.rstatus),
       (c!"related_to", debugText v.relatedTo),
       (c!"resources", debugText v.resources),
       (c!"rdate", debugText v.rdate),
       (c!"alarms", debugText v.alarms),
       (c!"x_prop", debugText v.xProp),
       (c!"iana_prop", debugText v.ianaProp)] ∧
    StructLines c!"VEvent"
      [(c!"dtstamp", debugPretty v.dtstamp),
       (c!"uid", debugPretty v.uid),
       (c!"dtstart", debugPretty v.dtstart),
       (c!"class", debugPretty v.class_),
       (c!"created", debugPretty v.created),
       (c!"description", debugPretty v.description),
       (c!"geo", debugPretty v.geo),
       (c!"last_modified", debugPretty v.lastModified),
       (c!"location", debugPretty v.location),
       (c!"organizer", debugPretty v.organizer),
       (c!"priority", debugPretty v.priority),
       (c!"sequence", debugPretty v.sequence),
       (c!"status", debugPretty v.status),
       (c!"summary", debugPretty v.summary),
       (c!"transp", debugPretty v.transp),
       (c!"url", debugPretty v.url),
       (c!"recurid", debugPretty v.recurid),
       (c!"rrule", debugPretty v.rrule),
       (c!"dtend", debugPretty v.dtend),
       (c!"duration", debugPretty v.duration),
       (c!"attach", debugPretty v.attach),
       (c!"attendee", debugPretty v.attendee),
       (c!"categories", debugPretty v.categories),
       (c!"comment", debugPretty v.comment),
       (c!"contact", debugPretty v.contact),
       (c!"exdate", debugPretty v.exdate),
       (c!"rstatus", debugPretty v.rstatus),
       (c!"related_to", debugPretty v.relatedTo),
       (c!"resources", debugPretty v.resources),
       (c!"rdate", debugPretty v.rdate),
       (c!"alarms", debugPretty v.alarms),
       (c!"x_prop", debugPretty v.xProp),
       (c!"iana_prop", debugPretty v.ianaProp)] (debugPretty v) :=
  ⟨struct_text _ _ _, struct_lines _ _ _ rfl rfl⟩

/-- **C96**: the fields of a to-do (`src/components/vtodo.rs`). -/
theorem C96_VTodo_text (v : VTodo) :
    debugText v = structText c!"VTodo"
      [(c!"dtstamp", debugText v.dtstamp),
       (c!"uid", debugText v.uid),
       (c!"class", debugText v.class_),
       (c!"completed", debugText v.completed),
       (c!"created", debugText v.created),
       (c!"dtstart", debugText v.dtstart),
       (c!"geo", debugText v.geo),
       (c!"last_modified", debugText v.lastModified),
       (c!"location", debugText v.location),
       (c!"organizer", debugText v.organizer),
       (c!"percent_complete", debugText v.percentComplete),
       (c!"priority", debugText v.priority),
       (c!"recurid", debugText v.recurid),
       (c!"sequence", debugText v.sequence),
       (c!"status", debugText v.status),
       (c!"summary", debugText v.summary),
       (c!"url", debugText v.url),
       (c!"rrule", debugText v.rrule),
       (c!"due", debugText v.due),
       (c!"duration", debugText v.duration),
       (c!"attach", debugText v.attach),
       (c!"attendee", debugText v.attendee),
       (c!"categories", debugText v.categories),
       (c!"comment", debugText v.comment),
       (c!"contact", debugText v.contact),
       (c!"exdate", debugText v.exdate),
       (c!"rstatus", debugText v.rstatus),
       (c!"related_to", debugText v.relatedTo),
       (c!"resources", debugText v.resources),
       (c!"rdate", debugText v.rdate),
       (c!"x_prop", debugText v.xProp),
       (c!"iana_prop", debugText v.ianaProp)] ∧
    StructLines c!"VTodo"
      [(c!"dtstamp", debugPretty v.dtstamp),
       (c!"uid", debugPretty v.uid),
       (c!"class", debugPretty v.class_),
       (c!"completed", debugPretty v.completed),
       (c!"created", debugPretty v.created),
       (c!"dtstart", debugPretty v.dtstart),
       (c!"geo", debugPretty v.geo),
       (c!"last_modified", debugPretty v.lastModified),
       (c!"location", debugPretty v.location),
       (c!"organizer", debugPretty v.organizer),
       (c!"percent_complete", debugPretty v.percentComplete),
       (c!"priority", debugPretty v.priority),
       (c!"recurid", debugPretty v.recurid),
       (c!"sequence", debugPretty v.sequence),
       (c!"status", debugPretty v.status),
       (c!"summary", debugPretty v.summary),
       (c!"url", debugPretty v.url),
       (c!"rrule", debugPretty v.rrule),
       (c!"due", debugPretty v.due),
       (c!"duration", debugPretty v.duration),
       (c!"attach", debugPretty v.attach),
       (c!"attendee", debugPretty v.attendee),
       (c!"categories", debugPretty v.categories),
       (c!"comment", debugPretty v.comment),
       (c!"contact", debugPretty v.contact),
       (c!"exdate", debugPretty v.exdate),
       (c!"rstatus", debugPretty v.rstatus),
       (c!"related_to", debugPretty v.relatedTo),
       (c!"resources", debugPretty v.resources),
       (c!"rdate", debugPretty v.rdate),
       (c!"x_prop", debugPretty v.xProp),
       (c!"iana_prop", debugPretty v.ianaProp)] (debugPretty v) :=
  ⟨struct_text _ _ _, struct_lines _ _ _ rfl rfl⟩

/-- **C96**: the fields of a journal entry (`src/components/vjournal.rs`). -/
theorem C96_VJournal_text (v : VJournal) :
    debugText v = structText c!"VJournal"
      [(c!"dtstamp", debugText v.dtstamp),
       (c!"uid", debugText v.uid),
       (c!"class", debugText v.class_),
       (c!"created", debugText v.created),
       (c!"dtstart", debugText v.dtstart),
       (c!"last_modified", debugText v.lastModified),
       (c!"organizer", debugText v.organizer),
       (c!"recurid", debugText v.recurid),
       (c!"sequence", debugText v.sequence),
       (c!"status", debugText v.status),
       (c!"summary", debugText v.summary),
       (c!"url", debugText v.url),
       (c!"rrule", debugText v.rrule),
       (c!"attach", debugText v.attach),
       (c!"attendee", debugText v.attendee),
       (c!"categories", debugText v.categories),
       (c!"comment", debugText v.comment),
       (c!"contact", debugText v.contact),
       (c!"description", debugText v.description),
       (c!"exdate", debugText v.exdate),
       (c!"related_to", debugText v.relatedTo),
       (c!"rdate", debugText v.rdate),
       (c!"rstatus", debugText v.rstatus),
       (c!"x_prop", debugText v.xProp),
       (c!"iana_prop", debugText v.ianaProp)] ∧
    StructLines c!"VJournal"
      [(c!"dtstamp", debugPretty v.dtstamp),
       (c!"uid", debugPretty v.uid),
       (c!"class", debugPretty v.class_),
       (c!"created", debugPretty v.created),
       (c!"dtstart", debugPretty v.dtstart),
       (c!"last_modified", debugPretty v.lastModified),
       (c!"organizer", debugPretty v.organizer),
       (c!"recurid", debugPretty v.recurid),
       (c!"sequence", debugPretty v.sequence),
       (c!"status", debugPretty v.status),
       (c!"summary", debugPretty v.summary),
       (c!"url", debugPretty v.url),
       (c!"rrule", debugPretty v.rrule),
       (c!"attach", debugPretty v.attach),
       (c!"attendee", debugPretty v.attendee),
       (c!"categories", debugPretty v.categories),
       (c!"comment", debugPretty v.comment),
       (c!"contact", debugPretty v.contact),
       (c!"description", debugPretty v.description),
       (c!"exdate", debugPretty v.exdate),
       (c!"related_to", debugPretty v.relatedTo),
       (c!"rdate", debugPretty v.rdate),
       (c!"rstatus", debugPretty v.rstatus),
       (c!"x_prop", debugPretty v.xProp),
       (c!"iana_prop", debugPretty v.ianaProp)] (debugPretty v) :=
  ⟨struct_text _ _ _, struct_lines _ _ _ rfl rfl⟩

/-- **C96**: the fields of a free/busy component (`src/components/vfreebusy.rs`). -/
theorem C96_VFreebusy_text (v : VFreebusy) :
    debugText v = structText c!"VFreebusy"
      [(c!"dtstamp", debugText v.dtstamp),
       (c!"uid", debugText v.uid),
       (c!"contact", debugText v.contact),
       (c!"dtstart", debugText v.dtstart),
       (c!"dtend", debugText v.dtend),
       (c!"organizer", debugText v.organizer),
       (c!"url", debugText v.url),
       (c!"attendee", debugText v.attendee),
       (c!"comment", debugText v.comment),
       (c!"freebusy", debugText v.freebusy),
       (c!"rstatus", debugText v.rstatus),
       (c!"x_prop", debugText v.xProp),
       (c!"iana_prop", debugText v.ianaProp)] ∧
    StructLines c!"VFreebusy"
      [(c!"dtstamp", debugPretty v.dtstamp),
       (c!"uid", debugPretty v.uid),
       (c!"contact", debugPretty v.contact),
       (c!"dtstart", debugPretty v.dtstart),
       (c!"dtend", debugPretty v.dtend),
       (c!"organizer", debugPretty v.organizer),
       (c!"url", debugPretty v.url),
       (c!"attendee", debugPretty v.attendee),
       (c!"comment", debugPretty v.comment),
       (c!"freebusy", debugPretty v.freebusy),
       (c!"rstatus", debugPretty v.rstatus),
       (c!"x_prop", debugPretty v.xProp),
       (c!"iana_prop", debugPretty v.ianaProp)] (debugPretty v) :=
  ⟨struct_text _ _ _, struct_lines _ _ _ rfl rfl⟩

/-- **C96**: the fields of the standard part of a time zone (`src/components/vtimezone.rs`). -/
theorem C96_Standard_text (v : Standard) :
    debugText v = structText c!"Standard"
      [(c!"dtstart", debugText v.dtstart),
       (c!"tzoffsetto", debugText v.tzoffsetto),
       (c!"tzoffsetfrom", debugText v.tzoffsetfrom),
       (c!"rrule", debugText v.rrule),
       (c!"comment", debugText v.comment),
       (c!"rdate", debugText v.rdate),
       (c!"tzname", debugText v.tzname),
       (c!"x_prop", debugText v.xProp),
       (c!"iana_prop", debugText v.ianaProp)] ∧
    StructLines c!"Standard"
      [(c!"dtstart", debugPretty v.dtstart),
       (c!"tzoffsetto", debugPretty v.tzoffsetto),
       (c!"tzoffsetfrom", debugPretty v.tzoffsetfrom),
       (c!"rrule", debugPretty v.rrule),
       (c!"comment", debugPretty v.comment),
       (c!"rdate", debugPretty v.rdate),
       (c!"tzname", debugPretty v.tzname),
       (c!"x_prop", debugPretty v.xProp),
       (c!"iana_prop", debugPretty v.ianaProp)] (debugPretty v) :=
  ⟨struct_text _ _ _, struct_lines _ _ _ rfl rfl⟩

/-- **C96**: the fields of the daylight part of a time zone (`src/components/vtimezone.rs`). -/
theorem C96_Daylight_text (v : Daylight) :
    debugText v = structText c!"Daylight"
      [(c!"dtstart", debugText v.dtstart),
       (c!"tzoffsetto", debugText v.tzoffsetto),
       (c!"tzoffsetfrom", debugText v.tzoffsetfrom),
       (c!"rrule", debugText v.rrule),
       (c!"comment", debugText v.comment),
       (c!"rdate", debugText v.rdate),
       (c!"tzname", debugText v.tzname),
       (c!"x_prop", debugText v.xProp),
       (c!"iana_prop", debugText v.ianaProp)] ∧
    StructLines c!"Daylight"
      [(c!"dtstart", debugPretty v.dtstart),
       (c!"tzoffsetto", debugPretty v.tzoffsetto),
       (c!"tzoffsetfrom", debugPretty v.tzoffsetfrom),
       (c!"rrule", debugPretty v.rrule),
       (c!"comment", debugPretty v.comment),
       (c!"rdate", debugPretty v.rdate),
       (c!"tzname", debugPretty v.tzname),
       (c!"x_prop", debugPretty v.xProp),
       (c!"iana_prop", debugPretty v.ianaProp)] (debugPretty v) :=
  ⟨struct_text _ _ _, struct_lines _ _ _ rfl rfl⟩

/-- **C96**: the fields of a time zone (`src/components/vtimezone.rs`). -/
theorem C96_VTimezone_text (v : VTimezone) :
    debugText v = structText c!"VTimezone"
      [(c!"tzid", debugText v.tzid),
       (c!"last_modified", debugText v.lastModified),
       (c!"tzurl", debugText v.tzurl),
       (c!"standard", debugText v.standard),
       (c!"daylight", debugText v.daylight),
       (c!"x_prop", debugText v.xProp),
       (c!"iana_prop", debugText v.ianaProp)] ∧
    StructLines c!"VTimezone"
      [(c!"tzid", debugPretty v.tzid),
       (c!"last_modified", debugPretty v.lastModified),
       (c!"tzurl", debugPretty v.tzurl),
       (c!"standard", debugPretty v.standard),
       (c!"daylight", debugPretty v.daylight),
       (c!"x_prop", debugPretty v.xProp),
       (c!"iana_prop", debugPretty v.ianaProp)] (debugPretty v) :=
  ⟨struct_text _ _ _, struct_lines _ _ _ rfl rfl⟩

/-- **C96**: the fields of a calendar (`src/components/vcalendar.rs`). -/
theorem C96_VCalendar_text (v : VCalendar) :
    debugText v = structText c!"VCalendar"
      [(c!"prodid", debugText v.prodid),
       (c!"version", debugText v.version),
       (c!"calscale", debugText v.calscale),
       (c!"method", debugText v.method),
       (c!"alarms", debugText v.alarms),
       (c!"events", debugText v.events),
       (c!"freebusy", debugText v.freebusy),
       (c!"journals", debugText v.journals),
       (c!"todo", debugText v.todo),
       (c!"timezones", debugText v.timezones),
       (c!"x_prop", debugText v.xProp),
       (c!"iana_prop", debugText v.ianaProp)] ∧
    StructLines c!"VCalendar"
      [(c!"prodid", debugPretty v.prodid),
       (c!"version", debugPretty v.version),
       (c!"calscale", debugPretty v.calscale),
       (c!"method", debugPretty v.method),
       (c!"alarms", debugPretty v.alarms),
       (c!"events", debugPretty v.events),
       (c!"freebusy", debugPretty v.freebusy),
       (c!"journals", debugPretty v.journals),
       (c!"todo", debugPretty v.todo),
       (c!"timezones", debugPretty v.timezones),
       (c!"x_prop", debugPretty v.xProp),
       (c!"iana_prop", debugPretty v.ianaProp)] (debugPretty v) :=
  ⟨struct_text _ _ _, struct_lines _ _ _ rfl rfl⟩

/-- **C96**: the variants of `VAlarm` (`src/components/valarm.rs`). -/
theorem C96_VAlarm_text : (∀ a, debugText (VAlarm.audio a) = tupleText c!"Audio" (debugText a) ∧ TupleLines c!"Audio" (debugPretty a) (debugPretty (VAlarm.audio a))) ∧
    (∀ a, debugText (VAlarm.display a) = tupleText c!"Display" (debugText a) ∧ TupleLines c!"Display" (debugPretty a) (debugPretty (VAlarm.display a))) ∧
    ∀ a, debugText (VAlarm.email a) = tupleText c!"Email" (debugText a) ∧ TupleLines c!"Email" (debugPretty a) (debugPretty (VAlarm.email a)) :=
  ⟨fun _ => ⟨tuple_text _ _, tuple_lines _ _ rfl rfl⟩, fun _ => ⟨tuple_text _ _, tuple_lines _ _ rfl rfl⟩, fun _ => ⟨tuple_text _ _, tuple_lines _ _ rfl rfl⟩⟩

end
end
end

end Ikal
