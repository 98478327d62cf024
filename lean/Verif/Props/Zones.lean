import Verif.Lemmas.Zones
import Verif.Props.Saves

/-!
# C102: the local time zone
-/

namespace Ikal

open Nom Spec.Zones

set_option linter.unusedSectionVars false

namespace Zones

variable {P : Platform} {o : Int → Int} {l : Int → LocalResult}

theorem float_there : @Ikal.float (elsewhere P o l) = @Ikal.float P := by
  funext i
  unfold float
  have e : @Platform.floatParse (elsewhere P o l) i = @Platform.floatParse P i := rfl
  rw [e]
  cases @Platform.floatParse P i <;> rfl

theorem geo_hom (c : ContentLine) : @geo (elsewhere P o l) c = (@geo P c).map Geo.carry := by
  unfold geo map
  rw [float_there]
  generalize separatedPair (@float P) (char ';') (@float P) c.value = q
  cases q <;> rfl

theorem rstatus_hom (c : ContentLine) : @rstatus (elsewhere P o l) c = (@rstatus P c).map RequestStatus.carry := by
  unfold rstatus map
  rw [float_there]
  generalize pair (@float P) (pair (char ';') (pair (takeTill fun c => c = ';') (Nom.opt (preceded (char ';') (takeWhile fun _ => true))))) c.value = q
  cases q <;> rfl

@[reducible] def Audio.homs : Homs (@Audio.fields P) (@Audio.fields (elsewhere P o l)) :=
  .cons same (.cons same (.cons sameOpt (.cons sameOpt (.cons samePush .nil))))

theorem Audio.tryFrom_there (ls : List ContentLine) : @Audio.tryFrom (elsewhere P o l) ls = @Audio.tryFrom P ls := by
  refine Eq.trans ?_ (res_map_id _)
  unfold Audio.tryFrom
  rw [tryFrom_hom Audio.homs, res_map_map, res_map_map]
  rfl

@[reducible] def Display.homs : Homs (@Display.fields P) (@Display.fields (elsewhere P o l)) :=
  .cons same (.cons same (.cons same (.cons sameOpt (.cons sameOpt .nil))))

theorem Display.tryFrom_there (ls : List ContentLine) : @Display.tryFrom (elsewhere P o l) ls = @Display.tryFrom P ls := by
  refine Eq.trans ?_ (res_map_id _)
  unfold Display.tryFrom
  rw [tryFrom_hom Display.homs, res_map_map, res_map_map]
  rfl

@[reducible] def Email.homs : Homs (@Email.fields P) (@Email.fields (elsewhere P o l)) :=
  .cons same (.cons same (.cons same (.cons same (.cons samePush (.cons sameOpt (.cons sameOpt (.cons samePush .nil)))))))

theorem Email.tryFrom_there (ls : List ContentLine) : @Email.tryFrom (elsewhere P o l) ls = @Email.tryFrom P ls := by
  refine Eq.trans ?_ (res_map_id _)
  unfold Email.tryFrom
  rw [tryFrom_hom Email.homs, res_map_map, res_map_map]
  rfl

@[reducible] def VEvent.homs : Homs (@VEvent.fields P) (@VEvent.fields (elsewhere P o l)) :=
  .cons same (.cons same (.cons same (.cons sameOpt (.cons sameOpt (.cons sameOpt (.cons (mapOpt Spec.Zones.Geo.carry geo_hom) (.cons sameOpt (.cons sameOpt (.cons sameOpt (.cons sameOpt (.cons sameOpt (.cons sameOpt (.cons sameOpt (.cons sameOpt (.cons sameOpt (.cons sameOpt (.cons sameOpt (.cons sameOpt (.cons sameOpt (.cons samePush (.cons samePush (.cons sameAppend (.cons samePush (.cons samePush (.cons sameAppend (.cons (mapPush Spec.Zones.RequestStatus.carry rstatus_hom) (.cons samePush (.cons sameAppend (.cons samePush (.cons sameNested .nil))))))))))))))))))))))))))))))

theorem VEvent.tryFrom_there (ls : List ContentLine) : @VEvent.tryFrom (elsewhere P o l) ls = (@VEvent.tryFrom P ls).map Spec.Zones.VEvent.carry := by
  unfold VEvent.tryFrom
  rw [tryFrom_hom VEvent.homs, res_map_map, res_map_map]
  rfl

@[reducible] def VTodo.homs : Homs (@VTodo.fields P) (@VTodo.fields (elsewhere P o l)) :=
  .cons same (.cons same (.cons sameOpt (.cons sameOpt (.cons sameOpt (.cons sameOpt (.cons (mapOpt Spec.Zones.Geo.carry geo_hom) (.cons sameOpt (.cons sameOpt (.cons sameOpt (.cons sameOpt (.cons sameOpt (.cons sameOpt (.cons sameOpt (.cons sameOpt (.cons sameOpt (.cons sameOpt (.cons sameOpt (.cons sameOpt (.cons sameOpt (.cons samePush (.cons samePush (.cons sameAppend (.cons samePush (.cons samePush (.cons sameAppend (.cons (mapPush Spec.Zones.RequestStatus.carry rstatus_hom) (.cons samePush (.cons sameAppend (.cons samePush .nil)))))))))))))))))))))))))))))

theorem VTodo.tryFrom_there (ls : List ContentLine) : @VTodo.tryFrom (elsewhere P o l) ls = (@VTodo.tryFrom P ls).map Spec.Zones.VTodo.carry := by
  unfold VTodo.tryFrom
  rw [tryFrom_hom VTodo.homs, res_map_map, res_map_map]
  rfl

@[reducible] def VJournal.homs : Homs (@VJournal.fields P) (@VJournal.fields (elsewhere P o l)) :=
  .cons same (.cons same (.cons sameOpt (.cons sameOpt (.cons same (.cons sameOpt (.cons sameOpt (.cons sameOpt (.cons sameOpt (.cons sameOpt (.cons sameOpt (.cons sameOpt (.cons sameOpt (.cons samePush (.cons samePush (.cons sameAppend (.cons samePush (.cons samePush (.cons samePush (.cons sameAppend (.cons samePush (.cons samePush (.cons (mapPush Spec.Zones.RequestStatus.carry rstatus_hom) .nil))))))))))))))))))))))

theorem VJournal.tryFrom_there (ls : List ContentLine) : @VJournal.tryFrom (elsewhere P o l) ls = (@VJournal.tryFrom P ls).map Spec.Zones.VJournal.carry := by
  unfold VJournal.tryFrom
  rw [tryFrom_hom VJournal.homs, res_map_map, res_map_map]
  rfl

@[reducible] def VFreebusy.homs : Homs (@VFreebusy.fields P) (@VFreebusy.fields (elsewhere P o l)) :=
  .cons same (.cons same (.cons sameOpt (.cons sameOpt (.cons sameOpt (.cons sameOpt (.cons sameOpt (.cons samePush (.cons samePush (.cons sameAppend (.cons (mapPush Spec.Zones.RequestStatus.carry rstatus_hom) .nil))))))))))

theorem VFreebusy.tryFrom_there (ls : List ContentLine) : @VFreebusy.tryFrom (elsewhere P o l) ls = (@VFreebusy.tryFrom P ls).map Spec.Zones.VFreebusy.carry := by
  unfold VFreebusy.tryFrom
  rw [tryFrom_hom VFreebusy.homs, res_map_map, res_map_map]
  rfl

@[reducible] def Standard.homs : Homs (@Standard.fields P) (@Standard.fields (elsewhere P o l)) :=
  .cons same (.cons same (.cons same (.cons sameOpt (.cons samePush (.cons samePush (.cons samePush .nil))))))

theorem Standard.tryFrom_there (ls : List ContentLine) : @Standard.tryFrom (elsewhere P o l) ls = @Standard.tryFrom P ls := by
  refine Eq.trans ?_ (res_map_id _)
  unfold Standard.tryFrom
  rw [tryFrom_hom Standard.homs, res_map_map, res_map_map]
  rfl

@[reducible] def Daylight.homs : Homs (@Daylight.fields P) (@Daylight.fields (elsewhere P o l)) :=
  .cons same (.cons same (.cons same (.cons sameOpt (.cons samePush (.cons samePush (.cons samePush .nil))))))

theorem Daylight.tryFrom_there (ls : List ContentLine) : @Daylight.tryFrom (elsewhere P o l) ls = @Daylight.tryFrom P ls := by
  refine Eq.trans ?_ (res_map_id _)
  unfold Daylight.tryFrom
  rw [tryFrom_hom Daylight.homs, res_map_map, res_map_map]
  rfl

@[reducible] def VTimezone.homs : Homs (@VTimezone.fields P) (@VTimezone.fields (elsewhere P o l)) :=
  .cons same (.cons sameOpt (.cons sameOpt (.cons sameNested (.cons sameNested .nil))))

theorem VTimezone.tryFrom_there (ls : List ContentLine) : @VTimezone.tryFrom (elsewhere P o l) ls = @VTimezone.tryFrom P ls := by
  refine Eq.trans ?_ (res_map_id _)
  unfold VTimezone.tryFrom
  rw [tryFrom_hom VTimezone.homs, res_map_map, res_map_map]
  rfl

@[reducible] def VCalendar.homs : Homs (@VCalendar.fields P) (@VCalendar.fields (elsewhere P o l)) :=
  .cons same (.cons same (.cons sameOpt (.cons sameOpt (.cons sameNested (.cons (mapNested Spec.Zones.VEvent.carry) (.cons (mapNested Spec.Zones.VFreebusy.carry) (.cons (mapNested Spec.Zones.VJournal.carry) (.cons (mapNested Spec.Zones.VTodo.carry) (.cons sameNested .nil)))))))))

theorem VCalendar.tryFrom_there (ls : List ContentLine) : @VCalendar.tryFrom (elsewhere P o l) ls = (@VCalendar.tryFrom P ls).map Spec.Zones.VCalendar.carry := by
  unfold VCalendar.tryFrom
  rw [tryFrom_hom VCalendar.homs, res_map_map, res_map_map]
  rfl

theorem VAlarm.tryFrom_there (ls : List ContentLine) : @VAlarm.tryFrom (elsewhere P o l) ls = @VAlarm.tryFrom P ls := by
  unfold VAlarm.tryFrom
  simp only [Audio.tryFrom_there, Display.tryFrom_there, Email.tryFrom_there]

theorem valarm_there (i : Str) : @valarm (elsewhere P o l) i = @valarm P i := by
  unfold valarm
  rw [funext (VAlarm.tryFrom_there (P := P) (o := o) (l := l))]

theorem standard_there (i : Str) : @standard (elsewhere P o l) i = @standard P i := by
  unfold standard
  rw [funext (Standard.tryFrom_there (P := P) (o := o) (l := l))]

theorem daylight_there (i : Str) : @daylight (elsewhere P o l) i = @daylight P i := by
  unfold daylight
  rw [funext (Daylight.tryFrom_there (P := P) (o := o) (l := l))]

theorem vtimezone_there (i : Str) : @vtimezone (elsewhere P o l) i = @vtimezone P i := by
  unfold vtimezone
  rw [funext (VTimezone.tryFrom_there (P := P) (o := o) (l := l)), funext (standard_there (P := P) (o := o) (l := l)),
    funext (daylight_there (P := P) (o := o) (l := l))]

theorem vevent_there (i : Str) : @vevent (elsewhere P o l) i = nmap VEvent.carry (@vevent P i) := by
  unfold vevent
  rw [funext (valarm_there (P := P) (o := o) (l := l))]
  refine mapRes_hom (f := fun x => x) (nid _) (fun ⟨ls, as⟩ => ?_) i
  show (@VEvent.tryFrom (elsewhere P o l) ls).map _ = ((@VEvent.tryFrom P ls).map _).map _
  rw [VEvent.tryFrom_there (P := P) (o := o) (l := l), res_map_map, res_map_map]
  rfl

theorem vtodo_there (i : Str) : @vtodo (elsewhere P o l) i = nmap VTodo.carry (@vtodo P i) := componentP_hom VTodo.tryFrom_there i
theorem vjournal_there (i : Str) : @vjournal (elsewhere P o l) i = nmap VJournal.carry (@vjournal P i) := componentP_hom VJournal.tryFrom_there i
theorem vfreebusy_there (i : Str) : @vfreebusy (elsewhere P o l) i = nmap VFreebusy.carry (@vfreebusy P i) := componentP_hom VFreebusy.tryFrom_there i

def part : @Component P → @Component (elsewhere P o l)
  | .alarm c => @Component.alarm (elsewhere P o l) c
  | .event c => @Component.event (elsewhere P o l) (VEvent.carry c)
  | .freebusy c => @Component.freebusy (elsewhere P o l) (VFreebusy.carry c)
  | .journal c => @Component.journal (elsewhere P o l) (VJournal.carry c)
  | .timezone c => @Component.timezone (elsewhere P o l) c
  | .todo c => @Component.todo (elsewhere P o l) (VTodo.carry c)

theorem valarm_nid (i : Str) : @valarm (elsewhere P o l) i = nmap (fun x => x) (@valarm P i) := by rw [valarm_there]; exact nid _ i
theorem vtimezone_nid (i : Str) : @vtimezone (elsewhere P o l) i = nmap (fun x => x) (@vtimezone P i) := by rw [vtimezone_there]; exact nid _ i

theorem component_there (i : Str) : @component (elsewhere P o l) i = nmap part (@component P i) := by
  unfold component
  exact alt_hom (f := part) (map_hom (g := @Component.alarm P) (g' := @Component.alarm (elsewhere P o l)) valarm_nid fun _ => rfl)
    (alt_hom (map_hom (g := @Component.event P) (g' := @Component.event (elsewhere P o l)) vevent_there fun _ => rfl)
    (alt_hom (map_hom (g := @Component.freebusy P) (g' := @Component.freebusy (elsewhere P o l)) vfreebusy_there fun _ => rfl)
    (alt_hom (map_hom (g := @Component.journal P) (g' := @Component.journal (elsewhere P o l)) vjournal_there fun _ => rfl)
    (alt_hom (map_hom (g := @Component.timezone P) (g' := @Component.timezone (elsewhere P o l)) vtimezone_nid fun _ => rfl)
    (map_hom (g := @Component.todo P) (g' := @Component.todo (elsewhere P o l)) vtodo_there fun _ => rfl))))) i

theorem file_there (v : @VCalendar P) (c : @Component P) :
    @VCalendar.file (elsewhere P o l) (VCalendar.carry v) (part c) = VCalendar.carry (VCalendar.file v c) := by
  cases c <;> simp [VCalendar.file, part, VCalendar.carry]

theorem files_there (cs : List (@Component P)) (v : @VCalendar P) :
    (cs.map part).foldl (@VCalendar.file (elsewhere P o l)) (VCalendar.carry v) = VCalendar.carry (cs.foldl VCalendar.file v) := by
  induction cs generalizing v with
  | nil => rfl
  | cons c cs ih => rw [List.map_cons, List.foldl_cons, List.foldl_cons, file_there, ih]

theorem vcalendar_there (i : Str) : @vcalendar (elsewhere P o l) i = nmap VCalendar.carry (@vcalendar P i) := by
  unfold vcalendar
  refine mapRes_hom (f := fun x => (x.1, x.2.map part)) (delimited_hom (pair_hom (f := fun x => x) (nid _) (many0_hom component_there))) (fun ⟨ls, cs⟩ => ?_) i
  show (@VCalendar.tryFrom (elsewhere P o l) ls).map _ = ((@VCalendar.tryFrom P ls).map _).map _
  rw [VCalendar.tryFrom_there (P := P) (o := o) (l := l), res_map_map, res_map_map]
  exact congrArg (Res.map · _) (funext fun v => files_there cs v)

end Zones

section
variable (P : Platform) (o : Int → Int) (l : Int → LocalResult)

/-- **C102**: an alarm is read alike in every time zone. -/
theorem C102_read_VAlarm (s : Str) : @VAlarm.ofStr (elsewhere P o l) s = @VAlarm.ofStr P s := by
  unfold VAlarm.ofStr componentOfStr
  rw [Zones.valarm_there]

/-- **C102**: the standard part of a time zone is read alike in every time zone. -/
theorem C102_read_Standard (s : Str) : @Standard.ofStr (elsewhere P o l) s = @Standard.ofStr P s := by
  unfold Standard.ofStr componentOfStr
  rw [Zones.standard_there]

/-- **C102**: the daylight part of a time zone is read alike in every time zone. -/
theorem C102_read_Daylight (s : Str) : @Daylight.ofStr (elsewhere P o l) s = @Daylight.ofStr P s := by
  unfold Daylight.ofStr componentOfStr
  rw [Zones.daylight_there]

/-- **C102**: a time zone is read alike in every time zone. -/
theorem C102_read_VTimezone (s : Str) : @VTimezone.ofStr (elsewhere P o l) s = @VTimezone.ofStr P s := by
  unfold VTimezone.ofStr componentOfStr
  rw [Zones.vtimezone_there]

/-- **C102**: an event is read alike in every time zone. -/
theorem C102_read_VEvent (s : Str) : @VEvent.ofStr (elsewhere P o l) s = (@VEvent.ofStr P s).map VEvent.carry := Zones.ofStr_hom Zones.vevent_there s

/-- **C102**: a to-do is read alike in every time zone. -/
theorem C102_read_VTodo (s : Str) : @VTodo.ofStr (elsewhere P o l) s = (@VTodo.ofStr P s).map VTodo.carry := Zones.ofStr_hom Zones.vtodo_there s

/-- **C102**: a journal entry is read alike in every time zone. -/
theorem C102_read_VJournal (s : Str) : @VJournal.ofStr (elsewhere P o l) s = (@VJournal.ofStr P s).map VJournal.carry :=
  Zones.ofStr_hom Zones.vjournal_there s

/-- **C102**: a free/busy time is read alike in every time zone. -/
theorem C102_read_VFreebusy (s : Str) : @VFreebusy.ofStr (elsewhere P o l) s = (@VFreebusy.ofStr P s).map VFreebusy.carry :=
  Zones.ofStr_hom Zones.vfreebusy_there s

/-- **C102**: a calendar is read alike in every time zone. -/
theorem C102_read_VCalendar (s : Str) : @VCalendar.ofStr (elsewhere P o l) s = (@VCalendar.ofStr P s).map VCalendar.carry :=
  Zones.ofStr_hom Zones.vcalendar_there s

end

namespace Zones

variable {P : Platform} {o : Int → Int} {l : Int → LocalResult}

theorem agree_append {us vs : List NaiveDateTime} : Agree P o (us ++ vs) ↔ Agree P o us ∧ Agree P o vs := by
  unfold Agree
  constructor
  · intro h
    exact ⟨fun u hu => h u (List.mem_append_left _ hu), fun u hu => h u (List.mem_append_right _ hu)⟩
  · rintro ⟨h1, h2⟩ u hu
    rcases List.mem_append.1 hu with hu | hu
    · exact h1 u hu
    · exact h2 u hu

theorem agree_opt {α : Type} {f : α → List NaiveDateTime} {a : Option α} (h : Agree P o (Spec.Zones.opt f a)) (x : α) (hx : a = some x) : Agree P o (f x) := by
  subst hx
  exact h

theorem agree_mem {α : Type} {f : α → List NaiveDateTime} {a : List α} (h : Agree P o (a.flatMap f)) (x : α) (hx : x ∈ a) : Agree P o (f x) :=
  fun u hu => h u (List.mem_flatMap.2 ⟨x, hx, hu⟩)

theorem opt_same {α : Type} {s t : Ser α} {a : Option α} (h : ∀ x, a = some x → Alike s t x x) :
    Alike (@instSerOption _ s) (@instSerOption _ t) a a := by
  have := opt_alike (f := fun x => x) h
  simpa using this

theorem vec_same {α : Type} {s t : Ser α} (n : Str) {l : List α} (h : ∀ x ∈ l, Alike s t x x) : @Field.serVec _ t n l = @Field.serVec _ s n l := by
  have := vec_alike (f := fun x => x) n h
  simpa using this

theorem shown_alike (t : DateTime) (h : Agree P o (DateTime.instants t)) : @DateTime.toStr (elsewhere P o l) t = @DateTime.toStr P t := by
  cases t with
  | naive t => rfl
  | loc u =>
    have : o u.toSecs = P.tzOffset u.toSecs := h u (by simp [DateTime.instants])
    show (u.shift (o u.toSecs)).toStr ++ ['Z'] = (u.shift (P.tzOffset u.toSecs)).toStr ++ ['Z']
    rw [this]

theorem date_alike (d : Date) (h : Agree P o (Date.instants d)) : @Date.toStr (elsewhere P o l) d = @Date.toStr P d := by
  cases d with
  | date d => rfl
  | dateTime t => exact shown_alike t h

theorem period_alike (p : Period) (h : Agree P o (Period.instants p)) : @Period.toStr (elsewhere P o l) p = @Period.toStr P p := by
  cases p with
  | startEnd a e =>
    have := agree_append.1 h
    show @DateTime.toStr (elsewhere P o l) a ++ '/' :: @DateTime.toStr (elsewhere P o l) e = @DateTime.toStr P a ++ '/' :: @DateTime.toStr P e
    rw [shown_alike a this.1, shown_alike e this.2]
  | startDur a d =>
    show @DateTime.toStr (elsewhere P o l) a ++ '/' :: d.toStr = @DateTime.toStr P a ++ '/' :: d.toStr
    rw [shown_alike a h]

theorem DateTime.alike (t : DateTime) (h : Agree P o (DateTime.instants t)) : Alike (@instSerDateTime P) (@instSerDateTime (elsewhere P o l)) t t :=
  ⟨rfl, rfl, congrArg Res.ok (shown_alike t h)⟩

theorem Date.alike (t : Date) (h : Agree P o (Date.instants t)) : Alike (@instSerDate P) (@instSerDate (elsewhere P o l)) t t :=
  ⟨rfl, rfl, congrArg Res.ok (date_alike t h)⟩

theorem Trigger.alike (t : Trigger) (h : Agree P o (Trigger.instants t)) : Alike (@instSerTrigger P) (@instSerTrigger (elsewhere P o l)) t t := by
  cases t with
  | dateTime t => exact ⟨rfl, rfl, congrArg Res.ok (shown_alike t h)⟩
  | duration d => exact ⟨rfl, rfl, rfl⟩

theorem Period.alike (p : Period) (h : Agree P o (Period.instants p)) : Alike (@instSerPeriod P) (@instSerPeriod (elsewhere P o l)) p p :=
  ⟨rfl, rfl, congrArg Res.ok (period_alike p h)⟩

theorem RDate.alike (r : RDate) (h : Agree P o (RDate.instants r)) : Alike (@instSerRDate P) (@instSerRDate (elsewhere P o l)) r r := by
  refine ⟨rfl, rfl, congrArg Res.ok ?_⟩
  cases r with
  | date ds =>
    show c!"VALUE=DATE:" ++ join [','] (ds.map (@Date.toStr (elsewhere P o l))) = c!"VALUE=DATE:" ++ join [','] (ds.map (@Date.toStr P))
    rw [List.map_congr_left fun d hd => date_alike d (agree_mem h d hd)]
  | period ps =>
    show c!"VALUE=PERIOD:" ++ join [','] (ps.map (@Period.toStr (elsewhere P o l))) = c!"VALUE=PERIOD:" ++ join [','] (ps.map (@Period.toStr P))
    rw [List.map_congr_left fun p hp => period_alike p (agree_mem h p hp)]

theorem Recur.alike (r : Recur) (h : Agree P o (Recur.instants r)) : Alike (@instSerRecur P) (@instSerRecur (elsewhere P o l)) r r := by
  refine ⟨rfl, rfl, ?_⟩
  have hu : @recurItem _ (@instSerOption _ (@instSerDate (elsewhere P o l))) c!"UNTIL" r.until_ = @recurItem _ (@instSerOption _ (@instSerDate P)) c!"UNTIL" r.until_ :=
    congrArg (fun q => Res.map (fun s : Str => if s.isEmpty then [] else c!"UNTIL" ++ '=' :: (s ++ [';'])) q)
      (opt_same (s := @instSerDate P) fun x hx => Date.alike x (agree_opt h x hx)).2.2
  show (recurItem c!"FREQ" r.freq).bind (fun a => (@recurItem _ (@instSerOption _ (@instSerDate (elsewhere P o l))) c!"UNTIL" r.until_).bind _) =
    (recurItem c!"FREQ" r.freq).bind (fun a => (@recurItem _ (@instSerOption _ (@instSerDate P)) c!"UNTIL" r.until_).bind _)
  rw [hu]

theorem Geo.alike (g : @Geo P) : Alike (@instSerGeo P) (@instSerGeo (elsewhere P o l)) g (Geo.carry g) := ⟨rfl, rfl, rfl⟩

theorem RequestStatus.alike (r : @RequestStatus P) : Alike (@instSerRequestStatus P) (@instSerRequestStatus (elsewhere P o l)) r (RequestStatus.carry r) := by
  refine ⟨rfl, rfl, congrArg Res.ok ?_⟩
  cases r with
  | mk a b c => cases c <;> rfl

theorem Class.alike (c : Class) : Alike (@instSerClass P) (@instSerClass (elsewhere P o l)) c c := by
  refine ⟨rfl, rfl, ?_⟩
  cases c <;> rfl

theorem Audio.alike (v : Audio) (h : Agree P o (Audio.instants v)) : Alike (@instSerAudio P) (@instSerAudio (elsewhere P o l)) v v := by
  have h_trigger := h
  refine ⟨rfl, rfl, ical_alike ?_ rfl rfl⟩
  exact (ser_cons rfl
    (ser_cons (field_alike _ (Trigger.alike _ h_trigger))
    (ser_cons rfl
    (ser_cons rfl
    (ser_cons rfl
    rfl)))))

theorem Display.alike (v : Display) (h : Agree P o (Display.instants v)) : Alike (@instSerDisplay P) (@instSerDisplay (elsewhere P o l)) v v := by
  have h_trigger := h
  refine ⟨rfl, rfl, ical_alike ?_ rfl rfl⟩
  exact (ser_cons rfl
    (ser_cons (field_alike _ (Trigger.alike _ h_trigger))
    (ser_cons rfl
    (ser_cons rfl
    (ser_cons rfl
    rfl)))))

theorem Email.alike (v : Email) (h : Agree P o (Email.instants v)) : Alike (@instSerEmail P) (@instSerEmail (elsewhere P o l)) v v := by
  have h_trigger := h
  refine ⟨rfl, rfl, ical_alike ?_ rfl rfl⟩
  exact (ser_cons rfl
    (ser_cons (field_alike _ (Trigger.alike _ h_trigger))
    (ser_cons rfl
    (ser_cons rfl
    (ser_cons rfl
    (ser_cons rfl
    (ser_cons rfl
    (ser_cons rfl
    rfl))))))))

theorem VAlarm.alike (v : VAlarm) (h : Agree P o (VAlarm.instants v)) : Alike (@instSerVAlarm P) (@instSerVAlarm (elsewhere P o l)) v v := by
  refine ⟨rfl, rfl, congrArg (fun r => Res.map VAlarm.reframe r) ?_⟩
  cases v with
  | audio a => exact (Audio.alike a h).2.2
  | display a => exact (Display.alike a h).2.2
  | email a => exact (Email.alike a h).2.2

theorem VEvent.alike (v : @VEvent P) (h : Agree P o (VEvent.instants v)) : Alike (@instSerVEvent P) (@instSerVEvent (elsewhere P o l)) v (VEvent.carry v) := by
  simp only [VEvent.instants, agree_append] at h
  obtain ⟨⟨⟨⟨⟨⟨⟨⟨⟨h_dtstamp, h_dtstart⟩, h_created⟩, h_lastModified⟩, h_recurid⟩, h_rrule⟩, h_dtend⟩, h_exdate⟩, h_rdate⟩, h_alarms⟩ := h
  refine ⟨rfl, rfl, ical_alike ?_ rfl rfl⟩
  exact (ser_cons (field_alike _ (DateTime.alike _ h_dtstamp))
    (ser_cons rfl
    (ser_cons (field_alike _ (Date.alike _ h_dtstart))
    (ser_cons (field_alike _ (opt_same fun x _ => Class.alike x))
    (ser_cons (field_alike _ (opt_same fun x hx => DateTime.alike x (agree_opt h_created x hx)))
    (ser_cons rfl
    (ser_cons (field_alike _ (opt_alike fun x _ => Geo.alike x))
    (ser_cons (field_alike _ (opt_same fun x hx => DateTime.alike x (agree_opt h_lastModified x hx)))
    (ser_cons rfl
    (ser_cons rfl
    (ser_cons rfl
    (ser_cons rfl
    (ser_cons rfl
    (ser_cons rfl
    (ser_cons rfl
    (ser_cons rfl
    (ser_cons (field_alike _ (opt_same fun x hx => Date.alike x (agree_opt h_recurid x hx)))
    (ser_cons (field_alike _ (opt_same fun x hx => Recur.alike x (agree_opt h_rrule x hx)))
    (ser_cons (field_alike _ (opt_same fun x hx => Date.alike x (agree_opt h_dtend x hx)))
    (ser_cons rfl
    (ser_cons rfl
    (ser_cons rfl
    (ser_cons rfl
    (ser_cons rfl
    (ser_cons rfl
    (ser_cons (vec_same _ fun x hx => Date.alike x (agree_mem h_exdate x hx))
    (ser_cons (vec_alike _ fun x _ => RequestStatus.alike x)
    (ser_cons rfl
    (ser_cons rfl
    (ser_cons (vec_same _ fun x hx => RDate.alike x (agree_mem h_rdate x hx))
    (ser_cons (vec_same _ fun x hx => VAlarm.alike x (agree_mem h_alarms x hx))
    rfl)))))))))))))))))))))))))))))))

theorem VTodo.alike (v : @VTodo P) (h : Agree P o (VTodo.instants v)) : Alike (@instSerVTodo P) (@instSerVTodo (elsewhere P o l)) v (VTodo.carry v) := by
  simp only [VTodo.instants, agree_append] at h
  obtain ⟨⟨⟨⟨⟨⟨⟨⟨⟨h_dtstamp, h_completed⟩, h_created⟩, h_dtstart⟩, h_lastModified⟩, h_recurid⟩, h_rrule⟩, h_due⟩, h_exdate⟩, h_rdate⟩ := h
  refine ⟨rfl, rfl, ical_alike ?_ rfl rfl⟩
  exact (ser_cons (field_alike _ (DateTime.alike _ h_dtstamp))
    (ser_cons rfl
    (ser_cons (field_alike _ (opt_same fun x _ => Class.alike x))
    (ser_cons (field_alike _ (opt_same fun x hx => DateTime.alike x (agree_opt h_completed x hx)))
    (ser_cons (field_alike _ (opt_same fun x hx => DateTime.alike x (agree_opt h_created x hx)))
    (ser_cons (field_alike _ (opt_same fun x hx => Date.alike x (agree_opt h_dtstart x hx)))
    (ser_cons (field_alike _ (opt_alike fun x _ => Geo.alike x))
    (ser_cons (field_alike _ (opt_same fun x hx => DateTime.alike x (agree_opt h_lastModified x hx)))
    (ser_cons rfl
    (ser_cons rfl
    (ser_cons rfl
    (ser_cons rfl
    (ser_cons (field_alike _ (opt_same fun x hx => Date.alike x (agree_opt h_recurid x hx)))
    (ser_cons rfl
    (ser_cons rfl
    (ser_cons rfl
    (ser_cons rfl
    (ser_cons (field_alike _ (opt_same fun x hx => Recur.alike x (agree_opt h_rrule x hx)))
    (ser_cons (field_alike _ (opt_same fun x hx => Date.alike x (agree_opt h_due x hx)))
    (ser_cons rfl
    (ser_cons rfl
    (ser_cons rfl
    (ser_cons rfl
    (ser_cons rfl
    (ser_cons rfl
    (ser_cons (vec_same _ fun x hx => Date.alike x (agree_mem h_exdate x hx))
    (ser_cons (vec_alike _ fun x _ => RequestStatus.alike x)
    (ser_cons rfl
    (ser_cons rfl
    (ser_cons (vec_same _ fun x hx => RDate.alike x (agree_mem h_rdate x hx))
    rfl))))))))))))))))))))))))))))))

theorem VJournal.alike (v : @VJournal P) (h : Agree P o (VJournal.instants v)) : Alike (@instSerVJournal P) (@instSerVJournal (elsewhere P o l)) v (VJournal.carry v) := by
  simp only [VJournal.instants, agree_append] at h
  obtain ⟨⟨⟨⟨⟨⟨⟨h_dtstamp, h_created⟩, h_dtstart⟩, h_lastModified⟩, h_recurid⟩, h_rrule⟩, h_exdate⟩, h_rdate⟩ := h
  refine ⟨rfl, rfl, ical_alike ?_ rfl rfl⟩
  exact (ser_cons (field_alike _ (DateTime.alike _ h_dtstamp))
    (ser_cons rfl
    (ser_cons (field_alike _ (opt_same fun x _ => Class.alike x))
    (ser_cons (field_alike _ (opt_same fun x hx => DateTime.alike x (agree_opt h_created x hx)))
    (ser_cons (field_alike _ (Date.alike _ h_dtstart))
    (ser_cons (field_alike _ (opt_same fun x hx => DateTime.alike x (agree_opt h_lastModified x hx)))
    (ser_cons rfl
    (ser_cons (field_alike _ (opt_same fun x hx => Date.alike x (agree_opt h_recurid x hx)))
    (ser_cons rfl
    (ser_cons rfl
    (ser_cons rfl
    (ser_cons rfl
    (ser_cons (field_alike _ (opt_same fun x hx => Recur.alike x (agree_opt h_rrule x hx)))
    (ser_cons rfl
    (ser_cons rfl
    (ser_cons rfl
    (ser_cons rfl
    (ser_cons rfl
    (ser_cons rfl
    (ser_cons (vec_same _ fun x hx => Date.alike x (agree_mem h_exdate x hx))
    (ser_cons rfl
    (ser_cons (vec_same _ fun x hx => RDate.alike x (agree_mem h_rdate x hx))
    (ser_cons (vec_alike _ fun x _ => RequestStatus.alike x)
    rfl)))))))))))))))))))))))

theorem VFreebusy.alike (v : @VFreebusy P) (h : Agree P o (VFreebusy.instants v)) : Alike (@instSerVFreebusy P) (@instSerVFreebusy (elsewhere P o l)) v (VFreebusy.carry v) := by
  simp only [VFreebusy.instants, agree_append] at h
  obtain ⟨⟨⟨h_dtstamp, h_dtstart⟩, h_dtend⟩, h_freebusy⟩ := h
  refine ⟨rfl, rfl, ical_alike ?_ rfl rfl⟩
  exact (ser_cons (field_alike _ (DateTime.alike _ h_dtstamp))
    (ser_cons rfl
    (ser_cons rfl
    (ser_cons (field_alike _ (opt_same fun x hx => Date.alike x (agree_opt h_dtstart x hx)))
    (ser_cons (field_alike _ (opt_same fun x hx => Date.alike x (agree_opt h_dtend x hx)))
    (ser_cons rfl
    (ser_cons rfl
    (ser_cons rfl
    (ser_cons rfl
    (ser_cons (vec_same _ fun x hx => Period.alike x (agree_mem h_freebusy x hx))
    (ser_cons (vec_alike _ fun x _ => RequestStatus.alike x)
    rfl)))))))))))

theorem Standard.alike (v : Standard) (h : Agree P o (Standard.instants v)) : Alike (@instSerStandard P) (@instSerStandard (elsewhere P o l)) v v := by
  simp only [Standard.instants, agree_append] at h
  obtain ⟨⟨h_dtstart, h_rrule⟩, h_rdate⟩ := h
  refine ⟨rfl, rfl, ical_alike ?_ rfl rfl⟩
  exact (ser_cons (field_alike _ (Date.alike _ h_dtstart))
    (ser_cons rfl
    (ser_cons rfl
    (ser_cons (field_alike _ (opt_same fun x hx => Recur.alike x (agree_opt h_rrule x hx)))
    (ser_cons rfl
    (ser_cons (vec_same _ fun x hx => RDate.alike x (agree_mem h_rdate x hx))
    (ser_cons rfl
    rfl)))))))

theorem Daylight.alike (v : Daylight) (h : Agree P o (Daylight.instants v)) : Alike (@instSerDaylight P) (@instSerDaylight (elsewhere P o l)) v v := by
  simp only [Daylight.instants, agree_append] at h
  obtain ⟨⟨h_dtstart, h_rrule⟩, h_rdate⟩ := h
  refine ⟨rfl, rfl, ical_alike ?_ rfl rfl⟩
  exact (ser_cons (field_alike _ (Date.alike _ h_dtstart))
    (ser_cons rfl
    (ser_cons rfl
    (ser_cons (field_alike _ (opt_same fun x hx => Recur.alike x (agree_opt h_rrule x hx)))
    (ser_cons rfl
    (ser_cons (vec_same _ fun x hx => RDate.alike x (agree_mem h_rdate x hx))
    (ser_cons rfl
    rfl)))))))

theorem VTimezone.alike (v : VTimezone) (h : Agree P o (VTimezone.instants v)) : Alike (@instSerVTimezone P) (@instSerVTimezone (elsewhere P o l)) v v := by
  simp only [VTimezone.instants, agree_append] at h
  obtain ⟨⟨h_lastModified, h_standard⟩, h_daylight⟩ := h
  refine ⟨rfl, rfl, ical_alike ?_ rfl rfl⟩
  exact (ser_cons rfl
    (ser_cons (field_alike _ (opt_same fun x hx => DateTime.alike x (agree_opt h_lastModified x hx)))
    (ser_cons rfl
    (ser_cons (vec_same _ fun x hx => Standard.alike x (agree_mem h_standard x hx))
    (ser_cons (vec_same _ fun x hx => Daylight.alike x (agree_mem h_daylight x hx))
    rfl)))))

theorem VCalendar.alike (v : @VCalendar P) (h : Agree P o (VCalendar.instants v)) : Alike (@instSerVCalendar P) (@instSerVCalendar (elsewhere P o l)) v (VCalendar.carry v) := by
  simp only [VCalendar.instants, agree_append] at h
  obtain ⟨⟨⟨⟨⟨h_alarms, h_events⟩, h_freebusy⟩, h_journals⟩, h_todo⟩, h_timezones⟩ := h
  refine ⟨rfl, rfl, ical_alike ?_ rfl rfl⟩
  exact (ser_cons rfl
    (ser_cons rfl
    (ser_cons rfl
    (ser_cons rfl
    (ser_cons (vec_same _ fun x hx => VAlarm.alike x (agree_mem h_alarms x hx))
    (ser_cons (vec_alike _ fun x hx => VEvent.alike x (agree_mem h_events x hx))
    (ser_cons (vec_alike _ fun x hx => VFreebusy.alike x (agree_mem h_freebusy x hx))
    (ser_cons (vec_alike _ fun x hx => VJournal.alike x (agree_mem h_journals x hx))
    (ser_cons (vec_alike _ fun x hx => VTodo.alike x (agree_mem h_todo x hx))
    (ser_cons (vec_same _ fun x hx => VTimezone.alike x (agree_mem h_timezones x hx))
    rfl))))))))))

end Zones

/-! ## Writing -/

section
variable (P : Platform) (o : Int → Int) (l : Int → LocalResult)

private theorem written {α β : Type} {s : Ser α} {t : Ser β} {a : α} {b : β} (h : Zones.Alike s t a b) : @ical _ t b = @ical _ s a := by
  unfold ical
  rw [h.2.1, h.2.2]

/-- **C102**: a date-time is written alike in two zones if they have the same offset at its instant, if it has one. -/
theorem C102_write_DateTime (v : DateTime) (h : Agree P o (DateTime.instants v)) :
    @ical _ (@instSerDateTime (elsewhere P o l)) v = @ical _ (@instSerDateTime P) v := written (Zones.DateTime.alike v h)

/-- **C102**: the same for dates. -/
theorem C102_write_Date (v : Date) (h : Agree P o (Date.instants v)) :
    @ical _ (@instSerDate (elsewhere P o l)) v = @ical _ (@instSerDate P) v := written (Zones.Date.alike v h)

/-- **C102**: the same for triggers. -/
theorem C102_write_Trigger (v : Trigger) (h : Agree P o (Trigger.instants v)) :
    @ical _ (@instSerTrigger (elsewhere P o l)) v = @ical _ (@instSerTrigger P) v := written (Zones.Trigger.alike v h)

/-- **C102**: the same for periods. -/
theorem C102_write_Period (v : Period) (h : Agree P o (Period.instants v)) :
    @ical _ (@instSerPeriod (elsewhere P o l)) v = @ical _ (@instSerPeriod P) v := written (Zones.Period.alike v h)

/-- **C102**: the same for rules. -/
theorem C102_write_Recur (v : Recur) (h : Agree P o (Recur.instants v)) :
    @ical _ (@instSerRecur (elsewhere P o l)) v = @ical _ (@instSerRecur P) v := written (Zones.Recur.alike v h)

/-- **C102**: a component is written alike in two zones if they have the same offset at each instant in it. -/
theorem C102_write_VAlarm (v : VAlarm) (h : Agree P o (VAlarm.instants v)) :
    @ical _ (@instSerVAlarm (elsewhere P o l)) v = @ical _ (@instSerVAlarm P) v := written (Zones.VAlarm.alike v h)

/-- **C102**: a component is written alike in two zones if they have the same offset at each instant in it. -/
theorem C102_write_Standard (v : Standard) (h : Agree P o (Standard.instants v)) :
    @ical _ (@instSerStandard (elsewhere P o l)) v = @ical _ (@instSerStandard P) v := written (Zones.Standard.alike v h)

/-- **C102**: a component is written alike in two zones if they have the same offset at each instant in it. -/
theorem C102_write_Daylight (v : Daylight) (h : Agree P o (Daylight.instants v)) :
    @ical _ (@instSerDaylight (elsewhere P o l)) v = @ical _ (@instSerDaylight P) v := written (Zones.Daylight.alike v h)

/-- **C102**: a component is written alike in two zones if they have the same offset at each instant in it. -/
theorem C102_write_VTimezone (v : VTimezone) (h : Agree P o (VTimezone.instants v)) :
    @ical _ (@instSerVTimezone (elsewhere P o l)) v = @ical _ (@instSerVTimezone P) v := written (Zones.VTimezone.alike v h)

/-- **C102**: a component is written alike in two zones if they have the same offset at each instant in it. -/
theorem C102_write_VEvent (v : @VEvent P) (h : Agree P o (VEvent.instants v)) :
    @ical _ (@instSerVEvent (elsewhere P o l)) (VEvent.carry v) = @ical _ (@instSerVEvent P) v := written (Zones.VEvent.alike v h)

/-- **C102**: a component is written alike in two zones if they have the same offset at each instant in it. -/
theorem C102_write_VTodo (v : @VTodo P) (h : Agree P o (VTodo.instants v)) :
    @ical _ (@instSerVTodo (elsewhere P o l)) (VTodo.carry v) = @ical _ (@instSerVTodo P) v := written (Zones.VTodo.alike v h)

/-- **C102**: a component is written alike in two zones if they have the same offset at each instant in it. -/
theorem C102_write_VJournal (v : @VJournal P) (h : Agree P o (VJournal.instants v)) :
    @ical _ (@instSerVJournal (elsewhere P o l)) (VJournal.carry v) = @ical _ (@instSerVJournal P) v := written (Zones.VJournal.alike v h)

/-- **C102**: a component is written alike in two zones if they have the same offset at each instant in it. -/
theorem C102_write_VFreebusy (v : @VFreebusy P) (h : Agree P o (VFreebusy.instants v)) :
    @ical _ (@instSerVFreebusy (elsewhere P o l)) (VFreebusy.carry v) = @ical _ (@instSerVFreebusy P) v := written (Zones.VFreebusy.alike v h)

/-- **C102**: a component is written alike in two zones if they have the same offset at each instant in it. -/
theorem C102_write_VCalendar (v : @VCalendar P) (h : Agree P o (VCalendar.instants v)) :
    @ical _ (@instSerVCalendar (elsewhere P o l)) (VCalendar.carry v) = @ical _ (@instSerVCalendar P) v := written (Zones.VCalendar.alike v h)

/-- **C102**: and an instant is written alike only then. -/
theorem C102_write_instant_iff (u : NaiveDateTime) (h1 : Spec.FourDigitYear (@localOf P u).date) (h2 : Spec.WholeSecond (@localOf P u))
    (h3 : Spec.FourDigitYear (@localOf (elsewhere P o l) u).date) (h4 : Spec.WholeSecond (@localOf (elsewhere P o l) u)) :
    @ical _ (@instSerDateTime (elsewhere P o l)) (.loc u) = @ical _ (@instSerDateTime P) (.loc u) ↔ o u.toSecs = P.tzOffset u.toSecs := by
  constructor
  · intro h
    have e : @DateTime.toStr (elsewhere P o l) (.loc u) = @DateTime.toStr P (.loc u) := Res.ok.inj h
    obtain ⟨v, hv, -, hs, -⟩ := @C37_shifted P u h1 h2 ⟨[], [], @DateTime.toStr P (.loc u)⟩ rfl
    obtain ⟨w, hw, -, ht, -⟩ := @C37_shifted (elsewhere P o l) u h3 h4 ⟨[], [], @DateTime.toStr P (.loc u)⟩ e.symm
    have hvw : v = w := by
      have : Res.ok (DateTime.loc v) = Res.ok (DateTime.loc w) := hv.symm.trans hw
      simpa using this
    subst hvw
    have : u.toSecs + P.tzOffset u.toSecs = u.toSecs + o u.toSecs := hs.symm.trans ht
    omega
  · intro h
    exact C102_write_DateTime P o l _ (by simpa [Agree, DateTime.instants] using h)

end

/-! ## Comparing -/

namespace Zones

variable {P : Platform} {o : Int → Int} {l : Int → LocalResult}

theorem naive_there (t : DateTime) (h : DateTime.instants t = []) : @DateTime.naive? (elsewhere P o l) t = @DateTime.naive? P t := by
  cases t with
  | naive t => rfl
  | loc u => simp [DateTime.instants] at h

theorem day_there (t : DateTime) (h : DateTime.instants t = []) : @DateTime.dateNaive? (elsewhere P o l) t = @DateTime.dateNaive? P t := by
  cases t with
  | naive t => rfl
  | loc u => simp [DateTime.instants] at h

theorem dday_there (t : Date) (h : Floating t) : @Date.dateNaive? (elsewhere P o l) t = @Date.dateNaive? P t := by
  cases t with
  | date t => rfl
  | dateTime t => exact day_there t h

theorem cmp_there (a b : Date) (ha : Floating a) (hb : Floating b) : @Date.cmp? (elsewhere P o l) a b = @Date.cmp? P a b := by
  cases a with
  | date a =>
    cases b with
    | date b => rfl
    | dateTime b =>
      show (@DateTime.dateNaive? (elsewhere P o l) b).bind _ = (@DateTime.dateNaive? P b).bind _
      rw [day_there b hb]
  | dateTime a =>
    cases b with
    | date b =>
      show (@DateTime.dateNaive? (elsewhere P o l) a).bind _ = (@DateTime.dateNaive? P a).bind _
      rw [day_there a ha]
    | dateTime b =>
      show (@DateTime.naive? (elsewhere P o l) a).bind (fun x => (@DateTime.naive? (elsewhere P o l) b).bind _) =
        (@DateTime.naive? P a).bind (fun x => (@DateTime.naive? P b).bind _)
      rw [naive_there a ha, naive_there b hb]

theorem lt_there (a b : Date) (ha : Floating a) (hb : Floating b) : @Date.lt? (elsewhere P o l) a b = @Date.lt? P a b := by
  unfold Date.lt?
  rw [cmp_there a b ha hb]

end Zones

section
variable (P : Platform) (o : Int → Int) (l : Int → LocalResult)

/-- **C102**: days and floating times compare alike in all zones. -/
theorem C102_cmp (a b : Date) (ha : Floating a) (hb : Floating b) : @Date.cmp? (elsewhere P o l) a b = @Date.cmp? P a b := Zones.cmp_there a b ha hb

/-- **C102**: two instants compare alike if the zones have the same offset at both. -/
theorem C102_cmp_agree (a b : Date) (h : Agree P o (Date.instants a ++ Date.instants b)) : @Date.cmp? (elsewhere P o l) a b = @Date.cmp? P a b := by
  obtain ⟨ha, hb⟩ := Zones.agree_append.1 h
  have key (t : DateTime) (ht : Agree P o (DateTime.instants t)) :
      @DateTime.naive? (elsewhere P o l) t = @DateTime.naive? P t ∧ @DateTime.dateNaive? (elsewhere P o l) t = @DateTime.dateNaive? P t := by
    cases t with
    | naive t => exact ⟨rfl, rfl⟩
    | loc u =>
      have e : @localOf (elsewhere P o l) u = @localOf P u := congrArg u.shift (ht u (by simp [DateTime.instants]))
      constructor
      · show (if (@localOf (elsewhere P o l) u).date.representable then some (@localOf (elsewhere P o l) u) else none) = if (@localOf P u).date.representable then some (@localOf P u) else none
        rw [e]
      · show (if (@localOf (elsewhere P o l) u).date.representable then some (@localOf (elsewhere P o l) u).date else none) = if (@localOf P u).date.representable then some (@localOf P u).date else none
        rw [e]
  cases a with
  | date a =>
    cases b with
    | date b => rfl
    | dateTime b =>
      show (@DateTime.dateNaive? (elsewhere P o l) b).bind _ = (@DateTime.dateNaive? P b).bind _
      rw [(key b hb).2]
  | dateTime a =>
    cases b with
    | date b =>
      show (@DateTime.dateNaive? (elsewhere P o l) a).bind _ = (@DateTime.dateNaive? P a).bind _
      rw [(key a ha).2]
    | dateTime b =>
      show (@DateTime.naive? (elsewhere P o l) a).bind (fun x => (@DateTime.naive? (elsewhere P o l) b).bind _) =
        (@DateTime.naive? P a).bind (fun x => (@DateTime.naive? P b).bind _)
      rw [(key a ha).1, (key b hb).1]

/-! ## Texts of dates -/

/-- The text after a number is a part of its end. -/
private theorem number_suffix {k : Nat} {s r : Str} {n : Nat} (h : Spec.NumberThen k s n r) : ∃ p, s = p ++ r := by
  obtain ⟨ws, ds, hs, -⟩ := h
  exact ⟨ws ++ ds, by rw [hs, List.append_assoc]⟩

private theorem dateTime_suffix {s r : Str} {t : NaiveDateTime} (h : Spec.DateTimeThen s t r) : ∃ p, s = p ++ r := by
  obtain ⟨a, b, c, _, _, _, ⟨-, -, a', b', hy, h1, h2⟩, h3, h4, h5, -⟩ := h
  have h0 : ∃ p, s = p ++ a' := by
    rcases hy with ⟨n, hn, -⟩ | ⟨ws, sign, ds, hs, -⟩
    · exact number_suffix hn
    · exact ⟨ws ++ sign :: ds, by rw [hs]; simp⟩
  obtain ⟨p0, h0⟩ := h0
  obtain ⟨p1, h1⟩ := number_suffix h1
  obtain ⟨p2, h2⟩ := number_suffix h2
  obtain ⟨p3, h3⟩ := number_suffix h3
  obtain ⟨p4, h4⟩ := number_suffix h4
  obtain ⟨p5, h5⟩ := number_suffix h5
  exact ⟨p0 ++ (p1 ++ (p2 ++ ('T' :: (p3 ++ (p4 ++ p5))))), by rw [h0, h1, h2, h3, h4, h5]; simp⟩

/-- **C102**: a date-time read alone (`FromStr`, not in a component) from a text that does not end in `Z` is the same in all zones. -/
theorem C102_text_DateTime (s : Str) (h : s.getLast? ≠ some 'Z') : @DateTime.ofStr (elsewhere P o l) s = @DateTime.ofStr P s := by
  have hz : parseNaiveDateTime ['Z'] s = none := by
    cases hp : parseNaiveDateTime ['Z'] s with
    | none => rfl
    | some t =>
      obtain ⟨p, hp⟩ := dateTime_suffix (parseNaiveDateTime_some.1 hp)
      rw [hp] at h
      simp at h
  unfold DateTime.ofStr
  rw [hz]

/-- **C102**: the same for dates. -/
theorem C102_text_Date (s : Str) (h : s.getLast? ≠ some 'Z') : @Date.ofStr (elsewhere P o l) s = @Date.ofStr P s := by
  unfold Date.ofStr
  rw [C102_text_DateTime P o l s h]

private theorem unit_there (time : Bool) (ty : Char) (i : Str) : @macroUnit (elsewhere P o l) time ty i = @macroUnit P time ty i := rfl

private theorem durLoop_there (s : Str) : ∀ (time : Bool) (i : Str) (acc : TimeDelta),
    @macroDurLoop (elsewhere P o l) time i acc s = @macroDurLoop P time i acc s := by
  induction s with
  | nil => exact fun _ _ _ => rfl
  | cons c r ih =>
    intro time i acc
    simp only [macroDurLoop, unit_there P o l, ih]

/-- **C102**: the durations of the macros and of triggers are the same in all zones. -/
theorem C102_text_duration (s : Str) : @parseDuration (elsewhere P o l) s = @parseDuration P s := by
  unfold parseDuration
  simp only [durLoop_there P o l]

/-- **C102**: the same for triggers. -/
theorem C102_text_Trigger (s : Str) (h : s.getLast? ≠ some 'Z') : @Trigger.ofStr (elsewhere P o l) s = @Trigger.ofStr P s := by
  unfold Trigger.ofStr
  rw [C102_text_DateTime P o l s h]
  cases @DateTime.ofStr P s with
  | ok t => rfl
  | err e => exact congrArg (Res.map Trigger.duration) (C102_text_duration P o l s)
  | panic => rfl

/-- **C102**: a text of a time of day that ends in `Z` is read by the clocks of the zone: the instant at which they show that time, and
a panic if there is none or more than one. -/
theorem C102_text_instant (s : Str) (t : NaiveDateTime) (h : Spec.DateTimeThen s t ['Z']) :
    @DateTime.ofStr (elsewhere P o l) s = match l t.toSecs with
      | .single off => (Res.unwrap (utcOf t off)).map .loc
      | _ => .panic := by
  have hn : parseNaiveDateTime [] s = none := by
    have e := parseNaiveDateTime_some.2 h
    cases hp : parseNaiveDateTime [] s with
    | none => rfl
    | some t' =>
      unfold parseNaiveDateTime at e hp
      split at e
      · next heq =>
        split at e
        · next heq' =>
          simp only [heq, heq'] at hp
          split at e
          · next hs => rw [hs] at hp; simp at hp
          · cases e
        · cases e
      · cases e
  unfold DateTime.ofStr
  rw [hn, parseNaiveDateTime_some.2 h]
  show (Res.unwrap (@localSingle (elsewhere P o l) t)).map DateTime.loc = _
  show (Res.unwrap (match l t.toSecs with
      | .single off => utcOf t off
      | _ => none)).map DateTime.loc = _
  cases l t.toSecs <;> rfl

end

/-! ## Iteration -/

namespace Zones

variable {P : Platform} {o : Int → Int} {l : Int → LocalResult}

theorem add_there (r : Recur) (d : Date) (h : Steady r d) : @Recur.add (elsewhere P o l) r d = @Recur.add P r d := by
  cases d with
  | date d => rfl
  | dateTime t =>
    cases t with
    | naive t => rfl
    | loc u =>
      have hf : r.freq ≠ .monthly ∧ r.freq ≠ .yearly := h.resolve_left (by simp [Floating, Date.instants, DateTime.instants])
      show ((@Recur.addLocal (elsewhere P o l) r u).map DateTime.loc).map Date.dateTime = ((@Recur.addLocal P r u).map DateTime.loc).map Date.dateTime
      have : @Recur.addLocal (elsewhere P o l) r u = @Recur.addLocal P r u := by
        unfold Recur.addLocal
        revert hf
        cases r.freq <;> simp
      rw [this]

theorem add_floating [Platform] {r : Recur} {d e : Date} (h : Floating d) (ha : r.add d = some e) : Floating e := by
  cases d with
  | date d =>
    simp only [Recur.add] at ha
    split at ha
    · cases hx : r.addDate d with
      | none => simp [hx] at ha
      | some x =>
        rw [hx] at ha
        cases ha
        rfl
    · cases hx : r.addNaive (NaiveDateTime.midnight d) with
      | none => simp [hx] at ha
      | some x =>
        rw [hx] at ha
        cases ha
        rfl
  | dateTime t =>
    cases t with
    | naive t =>
      simp only [Recur.add, Recur.addDateTime] at ha
      cases hx : r.addNaive t with
      | none => simp [hx] at ha
      | some x =>
        rw [hx] at ha
        cases ha
        rfl
    | loc u => simp [Floating, Date.instants, DateTime.instants] at h

theorem add_steady [Platform] {r : Recur} {d e : Date} (h : Steady r d) (ha : r.add d = some e) : Steady r e :=
  h.imp (fun h => add_floating h ha) id

theorem past_there (r : Recur) (d : Date) (h : ∀ u, r.until_ = some u → Floating d ∧ Floating u) :
    @pastUntil (elsewhere P o l) r d = @pastUntil P r d := by
  unfold pastUntil
  cases hu : r.until_ with
  | none => rfl
  | some u =>
    simp only []
    rw [dday_there d (h u hu).1, dday_there u (h u hu).2]

/-- A map that keeps what the iterators look at. -/
structure Keeps {α β : Type} [Recurring α] [Recurring β] (f : α → β) : Prop where
  dtstart : ∀ x, Recurring.dtstart (f x) = Recurring.dtstart x
  dtend : ∀ x, Recurring.dtend (f x) = Recurring.dtend x
  rrule : ∀ x, Recurring.rrule (f x) = Recurring.rrule x
  exdate : ∀ x, Recurring.exdate (f x) = Recurring.exdate x
  setDtstart : ∀ x d, Recurring.setDtstart (f x) d = f (Recurring.setDtstart x d)
  setDtend : ∀ x d, Recurring.setDtend (f x) d = f (Recurring.setDtend x d)
  setRrule : ∀ x r, Recurring.setRrule (f x) r = f (Recurring.setRrule x r)

theorem unmoved_place {α : Type} [Recurring α] [LawfulRecurring α] {x : α} {d d' : Date} {e' : Option Date} {r r' : Recur} (hp : @Unmoved α _ x)
    (hd : Recurring.dtstart x = some d) (hr : Recurring.rrule x = some r) (hf : r'.freq = r.freq) (hu : r'.until_ = r.until_)
    (h1 : @Recur.add P r d = some d') (h2 : e'.isSome = (Recurring.dtend x).isSome)
    (h3 : ∀ e, Recurring.dtend x = some e → @Recur.add P r e = e') : @Unmoved α _ (place x (d', e') r') := by
  have hs (z : Date) (h : Steady r z) : Steady r' z := by unfold Steady at h ⊢; rw [hf]; exact h
  refine ⟨fun a b ha hb => ?_, fun a b ha hb => ?_, fun a b u ha hb hub => ?_⟩
  · rw [LawfulRecurring.dtstart_place] at ha
    rw [LawfulRecurring.rrule_place] at hb
    cases ha; cases hb
    exact hs _ (add_steady (hp.start _ _ hd hr) h1)
  · rw [LawfulRecurring.dtend_place _ _ _ h2] at ha
    rw [LawfulRecurring.rrule_place] at hb
    cases hb
    simp only at ha
    subst ha
    obtain ⟨e, he⟩ := Option.isSome_iff_exists.1 h2.symm
    exact hs _ (add_steady (hp.end_ _ _ he hr) (h3 e he))
  · rw [LawfulRecurring.dtstart_place] at ha
    rw [LawfulRecurring.rrule_place] at hb
    cases ha; cases hb
    rw [hu] at hub
    have := hp.until_ _ _ _ hd hr hub
    exact ⟨add_floating this.1 h1, this.2⟩

/-- The start, if the component has one, is a day or a floating time. -/
def Flat {α : Type} [Recurring α] (x : α) : Prop := ∀ d, Recurring.dtstart x = some d → Floating d

theorem flat_place {α : Type} [Recurring α] [LawfulRecurring α] {x : α} {d d' : Date} {e' : Option Date} {r r' : Recur}
    (hd : Recurring.dtstart x = some d) (h1 : @Recur.add P r d = some d') (h : Flat x) : Flat (place x (d', e') r') := by
  intro a ha
  rw [LawfulRecurring.dtstart_place] at ha
  cases ha
  exact add_floating (h _ hd) h1

variable {α β : Type} [Recurring α] [LawfulRecurring α] [Recurring β] {f : α → β}

theorem advance_there (hk : Keeps f) (fuel : Nat) : ∀ (x : α) (_ : Unmoved x),
    @advance (elsewhere P o l) β _ fuel (f x) = Outcome.carry f (@advance P α _ fuel x) ∧
      ∀ y, @advance P α _ fuel x = .item y → Unmoved y ∧ (Flat x → Flat y) := by
  induction fuel with
  | zero => exact fun x _ => ⟨rfl, fun _ h => nomatch h⟩
  | succ fuel ih =>
    intro x hx
    simp only [advance]
    rw [hk.dtstart, hk.rrule]
    cases hd : Recurring.dtstart x with
    | none => exact ⟨rfl, fun _ h => nomatch h⟩
    | some d =>
      cases hr : Recurring.rrule x with
      | none => exact ⟨rfl, fun _ h => nomatch h⟩
      | some r =>
        simp only []
        rw [past_there r d fun u hu => hx.until_ d r u hd hr hu]
        cases @pastUntil P r d with
        | none => exact ⟨rfl, fun _ h => nomatch h⟩
        | some b =>
          cases b with
          | true => exact ⟨rfl, fun _ h => nomatch h⟩
          | false =>
            simp only []
            rw [add_there r d (hx.start d r hd hr)]
            cases h1 : @Recur.add P r d with
            | none => exact ⟨rfl, fun _ h => nomatch h⟩
            | some d' =>
              simp only []
              rw [hk.setDtstart, hk.dtend, LawfulRecurring.dtend_setDtstart]
              have fin (e' : Option Date) (h2 : e'.isSome = (Recurring.dtend x).isSome) (h3 : ∀ e, Recurring.dtend x = some e → @Recur.add P r e = e') :
                  (if ((Recurring.exdate (f (place x (d', e') r))).contains d') = true then @advance (elsewhere P o l) β _ fuel (f (place x (d', e') r))
                   else match r.count with
                    | none => .item (f (place x (d', e') r))
                    | some 0 => .done
                    | some (n + 1) => .item (Recurring.setRrule (f (place x (d', e') r)) { r with count := some n })) =
                  Outcome.carry f (if ((Recurring.exdate (place x (d', e') r)).contains d') = true then @advance P α _ fuel (place x (d', e') r)
                   else match r.count with
                    | none => .item (place x (d', e') r)
                    | some 0 => .done
                    | some (n + 1) => .item (Recurring.setRrule (place x (d', e') r) { r with count := some n })) ∧
                  ∀ y, (if ((Recurring.exdate (place x (d', e') r)).contains d') = true then @advance P α _ fuel (place x (d', e') r)
                   else match r.count with
                    | none => .item (place x (d', e') r)
                    | some 0 => .done
                    | some (n + 1) => .item (Recurring.setRrule (place x (d', e') r) { r with count := some n })) = .item y → Unmoved y ∧ (Flat x → Flat y) := by
                have hu := unmoved_place (P := P) (r' := r) hx hd hr rfl rfl h1 h2 h3
                rw [hk.exdate]
                split
                · exact ⟨(ih _ hu).1, fun y h => ⟨((ih _ hu).2 y h).1, fun hf => ((ih _ hu).2 y h).2 (flat_place (P := P) hd h1 hf)⟩⟩
                · split
                  · exact ⟨rfl, fun y h => by cases h; exact ⟨hu, flat_place (P := P) hd h1⟩⟩
                  · exact ⟨rfl, fun y h => nomatch h⟩
                  · next n _ =>
                    rw [hk.setRrule]
                    refine ⟨rfl, fun y h => ?_⟩
                    cases h
                    have e : Recurring.setRrule (place x (d', e') r) { r with count := some n } = place x (d', e') { r with count := some n } :=
                      LawfulRecurring.setRrule_setRrule _ _ _
                    rw [e]
                    exact ⟨unmoved_place (P := P) hx hd hr rfl rfl h1 h2 h3, flat_place (P := P) hd h1⟩
              cases he : Recurring.dtend x with
              | none =>
                have := fin none (by rw [he]) (by rw [he]; simp)
                simp only []
                rw [hk.setRrule]
                exact this
              | some e =>
                simp only []
                rw [add_there r e (hx.end_ e r he hr)]
                cases h3 : @Recur.add P r e with
                | none => exact ⟨rfl, fun _ h => nomatch h⟩
                | some e' =>
                  have := fin (some e') (by rw [he]; rfl) (by rw [he]; rintro _ ⟨⟩; exact h3)
                  simp only [Option.map_some]
                  rw [hk.setDtend, hk.setRrule]
                  exact this

theorem next_there (hk : Keeps f) (fuel : Nat) (x : α) (hx : Unmoved x) :
    @next (elsewhere P o l) β _ fuel (f x) = (Outcome.carry f (@next P α _ fuel x).1, f (@next P α _ fuel x).2) := by
  have h := advance_there (P := P) (o := o) (l := l) hk fuel x hx
  unfold next
  rw [h.1]
  cases ha : @advance P α _ fuel x <;> rfl

theorem next_unmoved (hk : Keeps f) (fuel : Nat) (x : α) (hx : Unmoved x) :
    Unmoved (@next P α _ fuel x).2 ∧ (Flat x → Flat (@next P α _ fuel x).2) ∧ ∀ y, (@next P α _ fuel x).1 = .item y → y = x := by
  have h := advance_there (P := P) (o := P.tzOffset) (l := P.tzLocal) hk fuel x hx
  unfold next
  cases ha : @advance P α _ fuel x with
  | item y => exact ⟨(h.2 y ha).1, (h.2 y ha).2, fun z hz => by cases hz; rfl⟩
  | done => exact ⟨hx, id, fun _ h => nomatch h⟩
  | panic => exact ⟨hx, id, fun _ h => nomatch h⟩
  | running => exact ⟨hx, id, fun _ h => nomatch h⟩

theorem skip_there (hk : Keeps f) (start : Date) (hs : Floating start) (fuel : Nat) : ∀ (sk : Bool) (x : α) (_ : Unmoved x) (_ : Flat x),
    @skipWhile (elsewhere P o l) β _ start fuel sk (f x) =
      (Outcome.carry f (@skipWhile P α _ start fuel sk x).1, (@skipWhile P α _ start fuel sk x).2.1, f (@skipWhile P α _ start fuel sk x).2.2) ∧
    (∀ y, (@skipWhile P α _ start fuel sk x).1 = .item y → Flat y) ∧ Unmoved (@skipWhile P α _ start fuel sk x).2.2 ∧ Flat (@skipWhile P α _ start fuel sk x).2.2 := by
  induction fuel with
  | zero => exact fun sk x hx hf => ⟨rfl, fun _ h => (nomatch h), hx, hf⟩
  | succ fuel ih =>
    intro sk x hx hf
    simp only [skipWhile]
    rw [next_there (P := P) (o := o) (l := l) hk (fuel + 1) x hx]
    obtain ⟨n1, n2, n3⟩ := next_unmoved (P := P) hk (fuel + 1) x hx
    generalize @next P α _ (fuel + 1) x = q at n1 n2 n3
    obtain ⟨out, s'⟩ := q
    cases out with
    | item y =>
      replace n3 := n3 y rfl
      subst n3
      cases sk with
      | false => exact ⟨rfl, fun z hz => by cases hz; exact hf, n1, n2 hf⟩
      | true =>
        simp only [Outcome.carry, if_true]
        rw [hk.dtstart]
        cases hd : Recurring.dtstart y with
        | none => exact ⟨rfl, fun _ h => (nomatch h), n1, n2 hf⟩
        | some d =>
          simp only []
          rw [lt_there d start (hf d hd) hs]
          cases @Date.lt? P d start with
          | none => exact ⟨rfl, fun _ h => (nomatch h), n1, n2 hf⟩
          | some b =>
            cases b with
            | false => exact ⟨rfl, fun z hz => by cases hz; exact hf, n1, n2 hf⟩
            | true => exact ih true s' n1 (n2 hf)
    | done => exact ⟨rfl, fun _ h => (nomatch h), n1, n2 hf⟩
    | panic => exact ⟨rfl, fun _ h => (nomatch h), n1, n2 hf⟩
    | running => exact ⟨rfl, fun _ h => (nomatch h), n1, n2 hf⟩

theorem range_there (hk : Keeps f) (fuel : Nat) (r : Range α) (h1 : Floating r.start) (h2 : ∀ e, r.stop = some e → Floating e)
    (hx : Unmoved r.state) (hf : Flat r.state) :
    @Range.next (elsewhere P o l) β _ fuel (Range.carry f r) = (Outcome.carry f (@Range.next P α _ fuel r).1, Range.carry f (@Range.next P α _ fuel r).2) ∧
    Floating (@Range.next P α _ fuel r).2.start ∧ (∀ e, (@Range.next P α _ fuel r).2.stop = some e → Floating e) ∧
      Unmoved (@Range.next P α _ fuel r).2.state ∧ Flat (@Range.next P α _ fuel r).2.state := by
  obtain ⟨state, skipping, finished, start, stop⟩ := r
  cases finished with
  | true => exact ⟨rfl, h1, h2, hx, hf⟩
  | false =>
    simp only [Range.next, Range.carry, Bool.false_eq_true, if_false]
    have h := skip_there (P := P) (o := o) (l := l) hk start h1 fuel skipping state hx hf
    rw [h.1]
    have h3 := h.2
    generalize @skipWhile P α _ start fuel skipping state = q at h3
    obtain ⟨out, sk, s⟩ := q
    cases out with
    | item y =>
      simp only [Outcome.carry]
      cases stop with
      | none => exact ⟨rfl, h1, h2, h3.2⟩
      | some e =>
        simp only []
        rw [hk.dtstart]
        cases hd : Recurring.dtstart y with
        | none => exact ⟨rfl, h1, h2, h3.2⟩
        | some d =>
          simp only []
          rw [lt_there d e (h3.1 y rfl d hd) (h2 e rfl)]
          cases @Date.lt? P d e with
          | none => exact ⟨rfl, h1, h2, h3.2⟩
          | some b => cases b <;> exact ⟨rfl, h1, h2, h3.2⟩
    | done => exact ⟨rfl, h1, h2, h3.2⟩
    | panic => exact ⟨rfl, h1, h2, h3.2⟩
    | running => exact ⟨rfl, h1, h2, h3.2⟩

theorem keeps_event : @Keeps (@VEvent P) (@VEvent (elsewhere P o l)) (@instRecurringVEvent P) (@instRecurringVEvent (elsewhere P o l)) VEvent.carry :=
  ⟨fun _ => rfl, fun _ => rfl, fun _ => rfl, fun _ => rfl, fun _ _ => rfl, fun _ _ => rfl, fun _ _ => rfl⟩

theorem keeps_todo : @Keeps (@VTodo P) (@VTodo (elsewhere P o l)) (@instRecurringVTodo P) (@instRecurringVTodo (elsewhere P o l)) VTodo.carry :=
  ⟨fun _ => rfl, fun _ => rfl, fun _ => rfl, fun _ => rfl, fun _ _ => rfl, fun _ _ => rfl, fun _ _ => rfl⟩

theorem keeps_journal : @Keeps (@VJournal P) (@VJournal (elsewhere P o l)) (@instRecurringVJournal P) (@instRecurringVJournal (elsewhere P o l)) VJournal.carry :=
  ⟨fun _ => rfl, fun _ => rfl, fun _ => rfl, fun _ => rfl, fun _ _ => rfl, fun _ _ => rfl, fun _ _ => rfl⟩

end Zones

section
variable (P : Platform) (o : Int → Int) (l : Int → LocalResult)

/-- **C102**: one step of a rule from a day or a floating time, or of a rule of weeks or shorter from an instant, is the same in all zones. -/
theorem C102_step (r : Recur) (d : Date) (h : Steady r d) : @Recur.add (elsewhere P o l) r d = @Recur.add P r d := Zones.add_there r d h

/-- **C102**: each call of the iterator over an event does the same in all zones (and leaves the iterator in the same state), if the start and the
end are days or floating times, or instants with a rule of weeks or shorter and no `UNTIL`. -/
theorem C102_next_VEvent (fuel : Nat) (v : @VEvent P) (h : Unmoved v) :
    @next (elsewhere P o l) (@VEvent (elsewhere P o l)) _ fuel (VEvent.carry v) = (Outcome.carry VEvent.carry (@next P _ _ fuel v).1, VEvent.carry (@next P _ _ fuel v).2) ∧
      Unmoved (@next P _ _ fuel v).2 :=
  ⟨@Zones.next_there P o l _ _ _ _ _ _ Zones.keeps_event fuel v h,
    (@Zones.next_unmoved P _ (@VEvent (elsewhere P o l)) _ _ _ _ Zones.keeps_event fuel v h).1⟩

/-- **C102**: and so does each call of `between`, `at` and `after`, if the bounds and the start are days or floating times; and they stay so. -/
theorem C102_range_VEvent (fuel : Nat) (r : Range (@VEvent P)) (h1 : Floating r.start) (h2 : ∀ e, r.stop = some e → Floating e) (h : Unmoved r.state)
    (hd : ∀ d, Recurring.dtstart r.state = some d → Floating d) :
    @Range.next (elsewhere P o l) (@VEvent (elsewhere P o l)) _ fuel (Range.carry VEvent.carry r) =
      (Outcome.carry VEvent.carry (@Range.next P _ _ fuel r).1, Range.carry VEvent.carry (@Range.next P _ _ fuel r).2) ∧
    Floating (@Range.next P _ _ fuel r).2.start ∧ (∀ e, (@Range.next P _ _ fuel r).2.stop = some e → Floating e) ∧
      Unmoved (@Range.next P _ _ fuel r).2.state ∧ ∀ d, Recurring.dtstart (@Range.next P _ _ fuel r).2.state = some d → Floating d :=
  @Zones.range_there P o l _ _ _ _ _ _ Zones.keeps_event fuel r h1 h2 h hd

/-- **C102**: each call of the iterator over a to-do does the same in all zones (and leaves the iterator in the same state), if the start and the
end are days or floating times, or instants with a rule of weeks or shorter and no `UNTIL`. -/
theorem C102_next_VTodo (fuel : Nat) (v : @VTodo P) (h : Unmoved v) :
    @next (elsewhere P o l) (@VTodo (elsewhere P o l)) _ fuel (VTodo.carry v) = (Outcome.carry VTodo.carry (@next P _ _ fuel v).1, VTodo.carry (@next P _ _ fuel v).2) ∧
      Unmoved (@next P _ _ fuel v).2 :=
  ⟨@Zones.next_there P o l _ _ _ _ _ _ Zones.keeps_todo fuel v h,
    (@Zones.next_unmoved P _ (@VTodo (elsewhere P o l)) _ _ _ _ Zones.keeps_todo fuel v h).1⟩

/-- **C102**: and so does each call of `between`, `at` and `after`, if the bounds and the start are days or floating times; and they stay so. -/
theorem C102_range_VTodo (fuel : Nat) (r : Range (@VTodo P)) (h1 : Floating r.start) (h2 : ∀ e, r.stop = some e → Floating e) (h : Unmoved r.state)
    (hd : ∀ d, Recurring.dtstart r.state = some d → Floating d) :
    @Range.next (elsewhere P o l) (@VTodo (elsewhere P o l)) _ fuel (Range.carry VTodo.carry r) =
      (Outcome.carry VTodo.carry (@Range.next P _ _ fuel r).1, Range.carry VTodo.carry (@Range.next P _ _ fuel r).2) ∧
    Floating (@Range.next P _ _ fuel r).2.start ∧ (∀ e, (@Range.next P _ _ fuel r).2.stop = some e → Floating e) ∧
      Unmoved (@Range.next P _ _ fuel r).2.state ∧ ∀ d, Recurring.dtstart (@Range.next P _ _ fuel r).2.state = some d → Floating d :=
  @Zones.range_there P o l _ _ _ _ _ _ Zones.keeps_todo fuel r h1 h2 h hd

/-- **C102**: each call of the iterator over a journal entry does the same in all zones (and leaves the iterator in the same state), if the start and the
end are days or floating times, or instants with a rule of weeks or shorter and no `UNTIL`. -/
theorem C102_next_VJournal (fuel : Nat) (v : @VJournal P) (h : Unmoved v) :
    @next (elsewhere P o l) (@VJournal (elsewhere P o l)) _ fuel (VJournal.carry v) = (Outcome.carry VJournal.carry (@next P _ _ fuel v).1, VJournal.carry (@next P _ _ fuel v).2) ∧
      Unmoved (@next P _ _ fuel v).2 :=
  ⟨@Zones.next_there P o l _ _ _ _ _ _ Zones.keeps_journal fuel v h,
    (@Zones.next_unmoved P _ (@VJournal (elsewhere P o l)) _ _ _ _ Zones.keeps_journal fuel v h).1⟩

/-- **C102**: and so does each call of `between`, `at` and `after`, if the bounds and the start are days or floating times; and they stay so. -/
theorem C102_range_VJournal (fuel : Nat) (r : Range (@VJournal P)) (h1 : Floating r.start) (h2 : ∀ e, r.stop = some e → Floating e) (h : Unmoved r.state)
    (hd : ∀ d, Recurring.dtstart r.state = some d → Floating d) :
    @Range.next (elsewhere P o l) (@VJournal (elsewhere P o l)) _ fuel (Range.carry VJournal.carry r) =
      (Outcome.carry VJournal.carry (@Range.next P _ _ fuel r).1, Range.carry VJournal.carry (@Range.next P _ _ fuel r).2) ∧
    Floating (@Range.next P _ _ fuel r).2.start ∧ (∀ e, (@Range.next P _ _ fuel r).2.stop = some e → Floating e) ∧
      Unmoved (@Range.next P _ _ fuel r).2.state ∧ ∀ d, Recurring.dtstart (@Range.next P _ _ fuel r).2.state = some d → Floating d :=
  @Zones.range_there P o l _ _ _ _ _ _ Zones.keeps_journal fuel r h1 h2 h hd

end

/-! Examples: the hypotheses are met, and the zone does matter where there are instants. -/

section

/-- One hour east of UTC. -/
@[reducible] private def oneEastZone : Platform := fixedZone 3600

/-- Ten days before the summer of `summerZone`, and one day in it. -/
private def before : NaiveDateTime := ⟨⟨0, 1, 2⟩, 0, 0⟩
private def within : NaiveDateTime := ⟨⟨0, 1, 13⟩, 0, 0⟩

/-- Every month, and every day. -/
private def monthly : Recur := { Recur.default with freq := .monthly, interval := 1 }
private def daily : Recur := { Recur.default with freq := .daily, interval := 1 }

attribute [local instance] oneEastZone in
/-- An event with a stamp before the summer, a floating start and a monthly rule with a last day. -/
private def meeting : @VEvent oneEastZone :=
  { VEvent.default with
    dtstamp := .loc before, dtstart := .dateTime (.naive within), rrule := some { monthly with until_ := some (.date ⟨1, 1, 1⟩) } }

attribute [local instance] oneEastZone in
/-- An event in the summer every day. -/
private def daybreak : @VEvent oneEastZone :=
  { VEvent.default with dtstart := .dateTime (.loc within), rrule := some daily }

example : Agree (fixedZone 3600) summerOffset (VEvent.instants meeting) := by
  intro u hu
  have : u = before := by simpa [VEvent.instants, meeting, VEvent.default, DateTime.instants, Date.instants, Recur.instants, Spec.Zones.opt, monthly] using hu
  subst this
  decide +kernel

example : ¬ Agree (fixedZone 3600) summerOffset (VEvent.instants daybreak) := by
  intro h
  have := h within (by simp [VEvent.instants, daybreak, DateTime.instants, Date.instants])
  exact absurd this (by decide +kernel)

example : @DateTime.toStr (fixedZone 3600) (.loc within) = c!"00000113T010000Z" ∧
    @DateTime.toStr (elsewhere (fixedZone 3600) summerOffset summerRead) (.loc within) = c!"00000113T020000Z" ∧
    @DateTime.toStr (elsewhere (fixedZone 3600) summerOffset summerRead) (.loc before) = @DateTime.toStr (fixedZone 3600) (.loc before) := by decide +kernel

example : Unmoved meeting := by
  refine ⟨fun d r hd hr => ?_, fun d r hd hr => ?_, fun d r u hd hr hu => ?_⟩
  · cases hd; exact .inl rfl
  · cases hd
  · cases hd; cases hr; cases hu; exact ⟨rfl, rfl⟩

example : Unmoved daybreak := by
  refine ⟨fun d r hd hr => ?_, fun d r hd hr => ?_, fun d r u hd hr hu => ?_⟩
  · cases hr; exact .inr ⟨by decide, by decide⟩
  · cases hd
  · cases hr; cases hu

/-- A month after the instant at which the summer clocks show a time is another instant, and a month after the last day before a gap none. -/
example : @Recur.add (fixedZone 3600) monthly (.dateTime (.loc within)) = some (.dateTime (.loc ⟨⟨0, 2, 13⟩, 0, 0⟩)) ∧
    @Recur.add (elsewhere (fixedZone 3600) summerOffset summerRead) monthly (.dateTime (.loc within)) =
      some (.dateTime (.loc ⟨⟨0, 2, 13⟩, 3600, 0⟩)) := by decide +kernel

/-- A text with a `Z` in a component is an instant by UTC, and alone an instant by the local clocks. -/
example : dateTime c!"00000113T000000Z" = .ok [] (.loc within) ∧
    @DateTime.ofStr utc c!"00000113T000000Z" = .ok (.loc within) ∧
    @DateTime.ofStr (elsewhere utc (fun _ => 3600) fun _ => .single 3600) c!"00000113T000000Z" = .ok (.loc ⟨⟨0, 1, 12⟩, 82800, 0⟩) ∧
    @DateTime.ofStr (elsewhere utc (fun _ => 3600) fun _ => .none) c!"00000113T000000Z" = .panic := by decide +kernel

example : Spec.DateTimeThen c!"00000113T000000Z" within ['Z'] := parseNaiveDateTime_some.1 (by decide +kernel)

example : Spec.FourDigitYear (@localOf (fixedZone 3600) within).date ∧ Spec.WholeSecond (@localOf (fixedZone 3600) within) ∧
    Spec.FourDigitYear (@localOf summerZone within).date ∧ Spec.WholeSecond (@localOf summerZone within) := by
  refine ⟨?_, ?_, ?_, ?_⟩ <;> simp only [Spec.FourDigitYear, Spec.WholeSecond, Spec.RealDate] <;> decide +kernel

end

end Ikal
