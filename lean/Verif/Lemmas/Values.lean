import Verif.Lemmas.Written
import Verif.Spec.RoundTrip
import Verif.Props.Names
import Verif.Props.Calendar
import Verif.Props.Duration

/-!
# Written values: which texts are written for them and what these are read as
-/

namespace Ikal

open Nom Spec

set_option linter.unusedSectionVars false
set_option linter.unusedSimpArgs false

/-! ## Characters -/

/-- Neither a line break nor a comma. -/
def Free (s : Str) : Prop := ∀ c ∈ s, c ≠ '\n' ∧ c ≠ '\r' ∧ c ≠ ','

theorem Free.nil : Free [] := by simp [Free]
theorem Free.append {a b : Str} (ha : Free a) (hb : Free b) : Free (a ++ b) := by
  intro c hc
  rcases List.mem_append.1 hc with h | h
  · exact ha c h
  · exact hb c h
theorem Free.cons {c : Char} {b : Str} (hc : c ≠ '\n' ∧ c ≠ '\r' ∧ c ≠ ',') (hb : Free b) : Free (c :: b) := by
  intro x hx
  rcases List.mem_cons.1 hx with h | h
  · rw [h]; exact hc
  · exact hb x h
theorem Free.clean {s : Str} (h : Free s) : Clean s := fun c hc => ⟨(h c hc).1, (h c hc).2.1⟩
theorem Free.comma {s : Str} (h : Free s) : ',' ∉ s := fun hx => (h _ hx).2.2 rfl
theorem Free.digits {s : Str} (h : ∀ c ∈ s, c.isDigit = true) : Free s := fun c hc => by
  have := h c hc
  refine ⟨?_, ?_, ?_⟩ <;> (rintro rfl; revert this; decide)

theorem free_pad2 (n : Nat) : Free (pad2 n) := .digits (pad2_digits n)
theorem free_pad4 (n : Nat) : Free (pad4 n) := .digits (pad4_digits n)
theorem free_natStr (n : Nat) : Free (natStr n) := .digits (natStr_digits n)
theorem free_intStr (n : Int) : Free (intStr n) := by
  unfold intStr
  split
  · exact .cons (by decide) (free_natStr _)
  · exact free_natStr _

theorem free_date (d : NaiveDate) : Free d.toStr := by
  unfold NaiveDate.toStr yearStr
  refine (Free.append ?_ (free_pad2 _)).append (free_pad2 _)
  split
  · exact free_pad4 _
  · refine .cons (by split <;> decide) ?_
    split
    · exact free_pad4 _
    · exact free_natStr _

theorem free_naive (t : NaiveDateTime) : Free t.toStr := by
  unfold NaiveDateTime.toStr timeStr
  exact (free_date _).append (.cons (by decide) (((free_pad2 _).append (free_pad2 _)).append (free_pad2 _)))

theorem naive_ne (t : NaiveDateTime) : t.toStr ≠ [] := by simp [NaiveDateTime.toStr]
theorem pad2_ne (n : Nat) : pad2 n ≠ [] := by simp [pad2]
theorem naiveDate_ne (d : NaiveDate) : d.toStr ≠ [] := by
  intro h
  simp only [NaiveDate.toStr, List.append_eq_nil_iff] at h
  exact pad2_ne _ h.2

section
variable [Platform]

theorem free_dateTime (t : DateTime) : Free t.toStr := by
  cases t with
  | naive t => exact free_naive t
  | loc u => exact (free_naive _).append (.cons (by decide) .nil)

theorem dateTime_ne (t : DateTime) : t.toStr ≠ [] := by
  cases t with
  | naive t => exact naive_ne t
  | loc u => simp [DateTime.toStr]

theorem free_dateOrTime (t : Date) : Free t.toStr := by
  cases t with
  | date d => exact free_date d
  | dateTime t => exact free_dateTime t

theorem dateOrTime_ne (t : Date) : t.toStr ≠ [] := by
  cases t with
  | date d => exact naiveDate_ne d
  | dateTime t => exact dateTime_ne t

theorem free_frac (n : Nat) : Free (TimeDelta.fracDigits n) := by
  refine .digits fun c hc => ?_
  unfold TimeDelta.fracDigits at hc
  rw [List.mem_reverse] at hc
  have := List.dropWhile_subset _ hc
  rw [List.mem_reverse] at this
  simp only [List.mem_cons, List.not_mem_nil, or_false] at this
  rcases this with h | h | h | h | h | h | h | h | h <;> rw [h] <;> exact digitChar_isDigit (Nat.mod_lt _ (by decide))

theorem free_delta (d : TimeDelta) : Free d.toStr := by
  unfold TimeDelta.toStr
  simp only
  split
  · exact .cons (by decide) (.cons (by decide) (.cons (by decide) .nil))
  · refine (((Free.append ?_ (.cons (by decide) (.cons (by decide) .nil))).append (free_natStr _)).append ?_).append (.cons (by decide) .nil)
    · split
      · exact .cons (by decide) .nil
      · exact .nil
    · split
      · exact .nil
      · exact .cons (by decide) (free_frac _)

theorem delta_ne (d : TimeDelta) : d.toStr ≠ [] := by
  intro h
  have := toStr_delta_head (d := d)
  rw [h] at this
  split at this <;> cases this

theorem free_offset (o : FixedOffset) : Free o.toStr := by
  unfold FixedOffset.toStr
  simp only
  have hs : ∀ p : Prop, [Decidable p] → (if p then '-' else '+') ≠ '\n' ∧ (if p then '-' else '+') ≠ '\r' ∧ (if p then '-' else '+') ≠ ',' := by
    intro p _; split <;> decide
  split
  · exact .cons (hs _) ((free_pad2 _).append (free_pad2 _))
  · exact .cons (hs _) (((free_pad2 _).append (free_pad2 _)).append (free_pad2 _))

theorem offset_ne (o : FixedOffset) : o.toStr ≠ [] := by
  unfold FixedOffset.toStr
  simp only
  split <;> simp

theorem free_period (p : Period) : Free p.toStr := by
  cases p with
  | startEnd s e => exact (free_dateTime s).append (.cons (by decide) (free_dateTime e))
  | startDur s d => exact (free_dateTime s).append (.cons (by decide) (free_delta d))

theorem period_ne (p : Period) : p.toStr ≠ [] := by cases p <;> simp [Period.toStr]

theorem clean_comma : Clean [','] := by intro c hc; simp at hc; rw [hc]; decide

theorem clean_commas {l : List Str} (h : ∀ s ∈ l, Free s) : Clean (join [','] l) := Clean.join clean_comma fun s hs => (h s hs).clean

theorem clean_rdate (r : RDate) : Clean r.toStr := by
  cases r with
  | date l =>
    refine Clean.append (by unfold Clean; decide) (clean_commas fun s hs => ?_)
    obtain ⟨d, _, rfl⟩ := List.mem_map.1 hs
    exact free_dateOrTime d
  | period l =>
    refine Clean.append (by unfold Clean; decide) (clean_commas fun s hs => ?_)
    obtain ⟨d, _, rfl⟩ := List.mem_map.1 hs
    exact free_period d

theorem rdate_ne (r : RDate) : r.toStr ≠ [] := by cases r <;> simp [RDate.toStr]

theorem clean_status (v : Status) : Clean v.toStr ∧ v.toStr ≠ [] := by cases v <;> exact ⟨by unfold Clean; decide, by decide⟩
theorem clean_transp (v : TimeTransparency) : Clean v.toStr ∧ v.toStr ≠ [] := by cases v <;> exact ⟨by unfold Clean; decide, by decide⟩

/-- The text of a rule. -/
def ruleStr (r : Recur) : Str := (((ruleItems r).filter fun p => !p.2.isEmpty).flatMap itemText).dropLast

theorem clean_rule (r : Recur) : Clean (ruleStr r) := by
  have hl : ∀ l : List Int, Clean (join [','] (l.map intStr)) := by
    intro l
    refine clean_commas fun s hs => ?_
    obtain ⟨n, _, rfl⟩ := List.mem_map.1 hs
    exact free_intStr n
  have hw : ∀ w : Weekday, Free w.toStr := by intro w; cases w <;> (unfold Free; decide)
  have hd : Clean (join [','] (r.byDay.map WeekdayNum.toStr)) := by
    refine clean_commas fun s hs => ?_
    obtain ⟨w, _, rfl⟩ := List.mem_map.1 hs
    unfold WeekdayNum.toStr
    refine Free.append ?_ (hw _)
    split
    · exact free_intStr _
    · exact .nil
  have key : ∀ p ∈ ruleItems r, Clean p.1 ∧ Clean p.2 := by
    intro p hp
    simp only [ruleItems, List.mem_cons, List.not_mem_nil, or_false] at hp
    rcases hp with rfl | rfl | rfl | rfl | rfl | rfl | rfl | rfl | rfl | rfl | rfl | rfl | rfl | rfl <;> refine ⟨by show Clean (_ :: _); unfold Clean; simp, ?_⟩
    · cases r.freq <;> (unfold Clean; decide)
    · cases r.until_ with
      | none => exact .nil
      | some d => exact (free_dateOrTime d).clean
    · cases r.count with
      | none => exact .nil
      | some d => exact (free_natStr d).clean
    · exact (free_natStr _).clean
    · exact hl _
    · exact hl _
    · exact hl _
    · exact hd
    · exact hl _
    · exact hl _
    · exact hl _
    · exact hl _
    · exact hl _
    · cases r.wkst with
      | none => exact .nil
      | some d => exact (hw d).clean
  intro c hc
  have hc := List.dropLast_subset _ hc
  obtain ⟨p, hp, hc⟩ := List.mem_flatMap.1 hc
  obtain ⟨k1, k2⟩ := key p (List.mem_filter.1 hp).1
  exact (k1.append (.cons (by decide) (k2.append (.cons (by decide) .nil)))) c hc

theorem rule_ne (r : Recur) : ruleStr r ≠ [] := by
  unfold ruleStr
  have : ∃ x y z, (((ruleItems r).filter fun p => !p.2.isEmpty).flatMap itemText) = x :: y :: z := by
    have hf : (!(r.freq.toStr).isEmpty) = true := by cases r.freq <;> rfl
    rw [ruleItems, List.filter_cons_of_pos (p := fun p : Str × Str => !p.2.isEmpty) (a := (c!"FREQ", r.freq.toStr)) hf, List.flatMap_cons]
    exact ⟨_, _, _, rfl⟩
  obtain ⟨x, y, z, h⟩ := this
  rw [h, List.dropLast_cons_cons]
  simp

/-! ## What is written -/

theorem value_param : paramsAttr [(c!"VALUE", c!"DATE")] = some c!"VALUE=DATE" := by decide

theorem safe_value (s : Str) (h : s.all (fun c => c != ';' && c != ':' && c != ',' && c != '\n' && c != '"') = true) :
    SafeParams [(c!"VALUE", s)] := by
  refine ⟨by simp [SMap.Wf], ?_⟩
  intro p hp
  simp at hp
  subst hp
  have hx : ∀ c, (c = ';' ∨ c = ':' ∨ c = ',' ∨ c = '\n' ∨ c = '"') → c ∉ s := by
    intro c hc hm
    have := List.all_eq_true.1 h c hm
    rcases hc with rfl | rfl | rfl | rfl | rfl <;> simp at this
  refine ⟨show IsName c!"VALUE" from isName_lit (by decide), hx _ (by simp), hx _ (by simp), hx _ (by simp), hx _ (by simp), ?_⟩
  cases s with
  | nil => simp
  | cons c s => intro e; simp at e; exact hx c (by simp [e]) (by simp)

theorem written_dateTime (t : DateTime) : WrittenAs t [] t.toStr := ⟨rfl, (free_dateTime t).clean, rfl, safeParams_nil⟩

/-- The parameters written for a date. -/
def dateParams : Date → SMap Str
  | .date _ => [(c!"VALUE", c!"DATE")]
  | .dateTime _ => []

theorem written_date (t : Date) : WrittenAs t (dateParams t) t.toStr := by
  cases t with
  | date d => exact ⟨rfl, (free_date d).clean, value_param.symm, safe_value _ (by decide)⟩
  | dateTime t => exact ⟨rfl, (free_dateTime t).clean, rfl, safeParams_nil⟩

theorem written_delta (d : TimeDelta) : WrittenAs d [] d.toStr := ⟨rfl, (free_delta d).clean, rfl, safeParams_nil⟩
theorem written_offset (d : FixedOffset) : WrittenAs d [] d.toStr := ⟨rfl, (free_offset d).clean, rfl, safeParams_nil⟩
theorem written_nat (n : Nat) : WrittenAs n [] (natStr n) := ⟨rfl, (free_natStr n).clean, rfl, safeParams_nil⟩
theorem written_status (v : Status) : WrittenAs v [] v.toStr := ⟨rfl, (clean_status v).1, rfl, safeParams_nil⟩
theorem written_transp (v : TimeTransparency) : WrittenAs v [] v.toStr := ⟨rfl, (clean_transp v).1, rfl, safeParams_nil⟩
theorem written_rule (r : Recur) : WrittenAs r [] (ruleStr r) := ⟨rule_ical r, clean_rule r, rfl, safeParams_nil⟩
theorem written_period (p : Period) : WrittenAs p [] p.toStr := ⟨rfl, (free_period p).clean, rfl, safeParams_nil⟩
theorem written_rdate (r : RDate) : WrittenAs r [] r.toStr := ⟨rfl, clean_rdate r, rfl, safeParams_nil⟩

/-- The parameters written for a trigger. -/
def triggerParams : Trigger → SMap Str
  | .dateTime _ => [(c!"VALUE", c!"DATE-TIME")]
  | .duration _ => [(c!"VALUE", c!"DURATION")]

/-- The text written for a trigger. -/
def triggerStr : Trigger → Str
  | .dateTime t => t.toStr
  | .duration d => d.toStr

theorem written_trigger (t : Trigger) : WrittenAs t (triggerParams t) (triggerStr t) := by
  cases t with
  | dateTime d => exact ⟨rfl, (free_dateTime d).clean, show some c!"VALUE=DATE-TIME" = paramsAttr [(c!"VALUE", c!"DATE-TIME")] by decide, safe_value _ (by decide)⟩
  | duration d => exact ⟨rfl, (free_delta d).clean, show some c!"VALUE=DURATION" = paramsAttr [(c!"VALUE", c!"DURATION")] by decide, safe_value _ (by decide)⟩

omit [Platform] in
theorem clean_escape {s : Str} (h : '\r' ∉ s) : Clean (escape s) := by
  refine .mk (lf_not_mem_escape s) fun hx => ?_
  rcases mem_escape hx with h' | h' | h'
  · exact h h'
  · cases h'
  · cases h'

theorem written_text {t : Text} (h1 : '\r' ∉ t.text) (h2 : SafeParams t.params) : WrittenAs t t.params (escape t.text) :=
  ⟨rfl, clean_escape h1, rfl, h2⟩
theorem written_uri {t : Uri} (h1 : '\r' ∉ t.uri) (h2 : SafeParams t.params) : WrittenAs t t.params (escape t.uri) :=
  ⟨rfl, clean_escape h1, rfl, h2⟩
theorem written_class {c : Class} (h1 : '\n' ∉ c.toStr) (h2 : '\r' ∉ c.toStr) : WrittenAs c [] c.toStr :=
  ⟨rfl, .mk h1 h2, rfl, safeParams_nil⟩
theorem written_geo {g : Geo} (h1 : '\n' ∉ g.toStr) (h2 : '\r' ∉ g.toStr) : WrittenAs g [] g.toStr :=
  ⟨rfl, .mk h1 h2, rfl, safeParams_nil⟩

/-- The text written for a request status. -/
def rstatusStr (r : RequestStatus) : Str :=
  Platform.floatShow1 r.statcode ++ ';' :: (escape r.statdesc ++ (match r.extdata with
    | some e => ';' :: escape e
    | none => []))

theorem written_rstatus {r : RequestStatus} (h : Clean (Platform.floatShow1 r.statcode)) (h1 : '\r' ∉ r.statdesc)
    (h2 : ∀ e ∈ r.extdata, '\r' ∉ e) : WrittenAs r [] (rstatusStr r) := by
  refine ⟨rfl, ?_, rfl, safeParams_nil⟩
  refine h.append (.cons (by decide) ((clean_escape h1).append ?_))
  cases he : r.extdata with
  | none => exact .nil
  | some e => exact .cons (by decide) (clean_escape (h2 e (by rw [he]; rfl)))

/-! ## What survives -/

/-- The value is written, and what is written is read as it. -/
def Survives {α : Type} [Ser α] (p : ContentLine → Res α) (v : α) : Prop :=
  ∃ m s, WrittenAs v m s ∧ s ≠ [] ∧ ∀ n, p ⟨n, m, s⟩ = .ok v

theorem dateTime_survives {t : DateTime} (h : PlainDateTime t) : Survives dateTimeProp t :=
  ⟨_, _, written_dateTime t, dateTime_ne t, fun n => by unfold dateTimeProp; rw [show (⟨n, [], t.toStr⟩ : ContentLine).value = t.toStr from rfl, dateTime_plain h]; rfl⟩

theorem date_survives {t : Date} (h : PlainDate t) : Survives dateProp t := by
  refine ⟨_, _, written_date t, dateOrTime_ne t, fun n => ?_⟩
  exact date_plain h

theorem delta_survives {d : TimeDelta} (h : WholeDuration d) : Survives duration d :=
  ⟨_, _, written_delta d, delta_ne d, fun n => C31_round_trip d h.1 h.2 _ rfl⟩
theorem offset_survives {d : FixedOffset} (h : GoodOffset d) : Survives offsetProp d :=
  ⟨_, _, written_offset d, offset_ne d, fun n => C34_round_trip d h.1 h.2 _ rfl⟩
theorem priority_survives {n : Nat} (h : n ≤ 9) : Survives priority n :=
  ⟨_, _, written_nat n, natStr_ne n, fun _ => (C27_round_trip _).2.1 n h rfl⟩
theorem percent_survives {n : Nat} (h : n ≤ 255) : Survives percentComplete n :=
  ⟨_, _, written_nat n, natStr_ne n, fun _ => (C27_round_trip _).1 n h rfl⟩
theorem u32_survives {n : Nat} (h : n ≤ 4294967295) : Survives u32Prop n :=
  ⟨_, _, written_nat n, natStr_ne n, fun _ => (C27_round_trip _).2.2.1 n h rfl⟩
theorem status_survives (v : Status) : Survives status v :=
  ⟨_, _, written_status v, (clean_status v).2, fun _ => C23_round_trip.1 v⟩
theorem transp_survives (v : TimeTransparency) : Survives transp v :=
  ⟨_, _, written_transp v, (clean_transp v).2, fun _ => C23_round_trip.2.1 v⟩

theorem rule_survives {r : Recur} (h : PlainRule r) : Survives rrule r := by
  refine ⟨_, _, written_rule r, rule_ne r, fun n => ?_⟩
  obtain ⟨s, h1, h2, _⟩ := C29_round_trip r h
  have := rule_ical r
  rw [h1] at this
  exact h2 _ (Res.ok.inj this).symm

theorem durationP_err_head {c : Char} (h1 : c ≠ '-') (h2 : c ≠ 'P') (r : Str) : durationP (c :: r) = .err := by
  have e1 : tag ['-'] (c :: r) = .err := by rw [tag_err]; simpa using fun h => h1 h.symm
  have e2 : tag ['P'] (c :: r) = .err := by rw [tag_err]; simpa using fun h => h2 h.symm
  have e3 : ∀ {β : Type} (q : P β), preceded (tag ['P']) q (c :: r) = .err := by
    intro β q
    unfold preceded map pair
    simp [e2]
  have e4 : ∀ {β : Type} (q : P β), pair (opt (tag ['-'])) (preceded (tag ['P']) q) (c :: r) = .err := by
    intro β q
    unfold pair opt
    simp [e1, e3]
  unfold durationP mapRes
  rw [e4]

theorem trigger_survives {t : Trigger} (h : GoodTrigger t) : Survives trigger t := by
  refine ⟨_, _, written_trigger t, by
    cases t with
    | dateTime t => exact dateTime_ne t
    | duration d => exact delta_ne d
  , fun n => ?_⟩
  cases t with
  | dateTime t =>
    have h1 : durationP t.toStr = .err := by
      obtain ⟨c, r, e, hc⟩ : ∃ c r, t.toStr = c :: r ∧ c.isDigit = true := by
        cases t with
        | naive t => exact toStr_head_digit h.1
        | loc u =>
          obtain ⟨c, r, e, hc⟩ := toStr_head_digit (t := localOf u) (by rw [localOf_plain h.2.1 h.2.2]; exact h.1)
          exact ⟨c, r ++ ['Z'], by rw [DateTime.toStr, e]; rfl, hc⟩
      rw [e]
      refine durationP_err_head ?_ ?_ _
      · rintro rfl; revert hc; decide
      · rintro rfl; revert hc; decide
    have : alt (map durationP Trigger.duration) (map Ikal.dateTime Trigger.dateTime) t.toStr = .ok [] (.dateTime t) := by
      rw [alt_ok]
      exact .inr ⟨map_err.2 h1, map_ok.2 ⟨t, dateTime_plain h, rfl⟩⟩
    show (alt (map durationP Trigger.duration) (map Ikal.dateTime Trigger.dateTime) t.toStr).toRes = _
    rw [this]
    rfl
  | duration d =>
    have h1 := C31_round_trip d h.1 h.2 ⟨n, [], d.toStr⟩ rfl
    unfold duration at h1
    obtain ⟨r, hr⟩ : ∃ r, durationP d.toStr = .ok r d := by
      revert h1
      show (durationP d.toStr).toRes = .ok d → _
      cases durationP d.toStr with
      | ok r a => intro e; cases e; exact ⟨r, rfl⟩
      | err => intro e; cases e
      | panic => intro e; cases e
    have : alt (map durationP Trigger.duration) (map Ikal.dateTime Trigger.dateTime) d.toStr = .ok r (.duration d) := by
      rw [alt_ok]
      exact .inl (map_ok.2 ⟨d, hr, rfl⟩)
    show (alt (map durationP Trigger.duration) (map Ikal.dateTime Trigger.dateTime) d.toStr).toRes = _
    rw [this]
    rfl

theorem text_survives {t : Text} (h : GoodText t) : Survives textProp t := by
  obtain ⟨h1, h2, h3, h4⟩ := h
  refine ⟨_, _, written_text h3 h4, escape_ne_nil h1, fun n => ?_⟩
  rw [escape_plain h2]
  rfl
theorem uri_survives {t : Uri} (h : GoodUri t) : Survives uriProp t := by
  obtain ⟨h1, h2, h3, h4⟩ := h
  refine ⟨_, _, written_uri h3 h4, escape_ne_nil h1, fun n => ?_⟩
  rw [escape_plain h2]
  rfl

theorem class_survives {c : Class} (h : GoodClass c) : Survives classProp c := by
  have key : c.toStr ≠ [] ∧ '\n' ∉ c.toStr ∧ '\r' ∉ c.toStr ∧ Class.ofStr c.toStr = .ok c := by
    cases c with
    | pub =>
      show c!"PUBLIC" ≠ [] ∧ '\n' ∉ c!"PUBLIC" ∧ '\r' ∉ c!"PUBLIC" ∧ _
      exact ⟨by decide, by decide, by decide, rfl⟩
    | priv =>
      show c!"PRIVATE" ≠ [] ∧ '\n' ∉ c!"PRIVATE" ∧ '\r' ∉ c!"PRIVATE" ∧ _
      exact ⟨by decide, by decide, by decide, rfl⟩
    | confidential =>
      show c!"CONFIDENTIAL" ≠ [] ∧ '\n' ∉ c!"CONFIDENTIAL" ∧ '\r' ∉ c!"CONFIDENTIAL" ∧ _
      exact ⟨by decide, by decide, by decide, rfl⟩
    | custom s =>
      obtain ⟨h1, h2, h3, h4, h5, h6, h7⟩ := h s rfl
      show upperStr s ≠ [] ∧ '\n' ∉ upperStr s ∧ '\r' ∉ upperStr s ∧ Class.ofStr (upperStr s) = _
      rw [h2, C25_read, if_neg h3, if_neg h4, if_neg h5]
      exact ⟨h1, h6, h7, rfl⟩
  exact ⟨_, _, written_class key.2.1 key.2.2.1, key.1, fun _ => key.2.2.2⟩

theorem float_ok {i r : Str} {x : Platform.F32} (h : Platform.floatParse i = some (x, r)) : float i = .ok r x := by
  unfold float
  rw [h]

theorem geo_survives {g : Geo} (h : GoodGeo g) : Survives geo g := by
  obtain ⟨⟨_, h2, h3, h4⟩, h5, _, h7, h8⟩ := h
  refine ⟨_, _, written_geo ?_ ?_, by simp [Geo.toStr], fun n => ?_⟩
  · simp [Geo.toStr, h3, h7]
  · simp [Geo.toStr, h4, h8]
  · unfold geo
    show ((map (separatedPair float (char ';') float) (fun (a, b) => (⟨a, b⟩ : Geo)) (Platform.floatShow g.lat ++ ';' :: Platform.floatShow g.lon))).toRes = _
    have : map (separatedPair float (char ';') float) (fun (a, b) => (⟨a, b⟩ : Geo)) (Platform.floatShow g.lat ++ ';' :: Platform.floatShow g.lon) = .ok [] g := by
      rw [map_ok]
      refine ⟨(g.lat, g.lon), separatedPair_ok.2 ⟨_, _, ';', float_ok (h2 _), by simp [char], float_ok h5⟩, rfl⟩
    rw [this]
    rfl

theorem rstatus_survives {r : RequestStatus} (h : GoodRequestStatus r) : Survives rstatus r := by
  obtain ⟨⟨_, h2, h3, h4⟩, h5, h6, h7⟩ := h
  refine ⟨_, _, written_rstatus (.mk h3 h4) h6 fun e he => (h7 e he).2, by simp [rstatusStr], fun n => ?_⟩
  obtain ⟨code, desc, ext⟩ := r
  have : map (pair float (pair (char ';') (pair (takeTill fun c => c = ';')
      (opt (preceded (char ';') (takeWhile fun _ => true))))))
    (fun (c, _, d, e) => (⟨c, d, e⟩ : RequestStatus)) (rstatusStr ⟨code, desc, ext⟩) = .ok [] ⟨code, desc, ext⟩ := by
    unfold rstatusStr
    simp only [escape_plain h5]
    rw [map_ok]
    refine ⟨(code, ';', desc, ext), pair_ok.2 ⟨_, float_ok (h2 _), pair_ok.2 ⟨_, char_ok.2 ⟨rfl, rfl⟩, pair_ok.2 ?_⟩⟩, rfl⟩
    cases ext with
    | none =>
      refine ⟨[], takeTill_ok.2 ⟨by simp, fun c hc => ?_, by simp⟩, ?_⟩
      · simp; rintro rfl; exact h5.1 hc
      · rfl
    | some e =>
      have he := escape_plain (h7 e rfl).1
      refine ⟨';' :: e, takeTill_ok.2 ⟨by simp [he], fun c hc => ?_, by simp⟩, ?_⟩
      · simp; rintro rfl; exact h5.1 hc
      · refine opt_ok.2 (.inl ⟨e, rfl, preceded_ok.2 ⟨e, ';', by simp [char], ?_⟩⟩)
        rw [takeWhile_ok]
        simp
  show (map _ _ (rstatusStr ⟨code, desc, ext⟩)).toRes = _
  rw [this]
  rfl

end

end Ikal
