import Verif.Spec.Kinds
import Verif.Props.Echo

/-!
# C78 for alarms whose action names another kind
-/

namespace Ikal

open Nom Spec

set_option linter.unusedSectionVars false
set_option linter.unusedSimpArgs false

/-! ## Lines in blocks of one name -/

/-- Blocks of lines of different names. -/
structure InBlocks (bs : List (Str × List ContentLine)) : Prop where
  keys : ∀ b ∈ bs, ∀ x ∈ b.2, x.key = b.1
  names : (bs.map (·.1)).Nodup

theorem InBlocks.none {bs : List (Str × List ContentLine)} (h : InBlocks bs) {k : Str} (hk : k ∉ bs.map (·.1)) :
    named k (bs.map (·.2)).flatten = [] := by
  rw [named, List.filter_eq_nil_iff]
  intro x hx
  obtain ⟨l, hl, hxl⟩ := List.mem_flatten.1 hx
  obtain ⟨b, hb, rfl⟩ := List.mem_map.1 hl
  simp only [decide_eq_true_eq]
  intro e
  exact hk (List.mem_map.2 ⟨b, hb, by rw [← h.keys b hb x hxl, e]⟩)

theorem InBlocks.some {bs : List (Str × List ContentLine)} (h : InBlocks bs) {n : Str} {l : List ContentLine} (hb : (n, l) ∈ bs) :
    named n (bs.map (·.2)).flatten = l := by
  induction bs with
  | nil => cases hb
  | cons b bs ih =>
    have hbs : InBlocks bs := ⟨fun b hb => h.keys b (List.mem_cons_of_mem _ hb), (List.nodup_cons.1 h.names).2⟩
    have hnot := (List.nodup_cons.1 h.names).1
    simp only [List.map_cons, List.flatten_cons]
    rw [Slots.named_append]
    rcases List.mem_cons.1 hb with e | hb'
    · subst e
      rw [hbs.none hnot, List.append_nil, named, List.filter_eq_self]
      intro x hx
      simpa using h.keys (n, l) (List.mem_cons_self ..) x hx
    · rw [ih hbs hb', Slots.named_eq_nil, List.nil_append]
      intro x hx e
      rw [h.keys b (List.mem_cons_self ..) x hx] at e
      exact hnot (List.mem_map.2 ⟨_, hb', e.symm⟩)

theorem named_named (n : Str) (ls : List ContentLine) : named n (named n ls) = named n ls := by simp [named]

theorem isReq_named {α : Type} {ls : List ContentLine} {n : Str} {p : ContentLine → Res α} {v : α} :
    IsReq ls n p v ↔ IsReq (named n ls) n p v := by simp only [IsReq, lastNamed, named_named]

theorem isOpt_named {α : Type} {ls : List ContentLine} {n : Str} {p : ContentLine → Res α} {v : Option α} :
    IsOpt ls n p v ↔ IsOpt (named n ls) n p v := by simp only [IsOpt, lastNamed, named_named]

theorem isPush_named {α : Type} {ls : List ContentLine} {n : Str} {p : ContentLine → Res α} {v : List α} :
    IsPush ls n p v ↔ IsPush (named n ls) n p v := by simp only [IsPush, named_named]

/-- The extension properties that are read from blocks. -/
theorem isExt_blocks {bs : List (Str × List ContentLine)} (h : InBlocks bs) {known names : List Str} {sel : Str → Prop} {m : SMap ContentLine}
    (h1 : ∀ n ∈ names, n ∉ known ∧ sel n) (h2 : ∀ n ∈ bs.map (·.1), n ∈ known ∨ ¬ sel n ∨ n ∈ names) :
    IsExt known sel (bs.map (·.2)).flatten m ↔
      m.Wf ∧ (∀ n ∈ names, m.get? n = lastNamed n (bs.map (·.2)).flatten) ∧ ∀ k, k ∉ names → m.get? k = none := by
  have hno : ∀ k, k ∉ known → sel k → k ∉ names → lastNamed k (bs.map (·.2)).flatten = none := by
    intro k hk hs hn
    have : k ∉ bs.map (·.1) := by
      intro hm
      rcases h2 k hm with h | h | h
      · exact hk h
      · exact h hs
      · exact hn h
    rw [lastNamed, h.none this]
    rfl
  constructor
  · rintro ⟨w, a, b⟩
    refine ⟨w, fun n hn => a n (h1 n hn).1 (h1 n hn).2, fun k hk => ?_⟩
    by_cases hkk : k ∈ known ∨ ¬ sel k
    · exact b k hkk
    · have e1 : k ∉ known := fun h => hkk (.inl h)
      have e2 : sel k := Classical.byContradiction fun h => hkk (.inr h)
      rw [a k e1 e2, hno k e1 e2 hk]
  · rintro ⟨w, a, b⟩
    refine ⟨w, fun k hk hs => ?_, fun k hk => b k ?_⟩
    · by_cases hn : k ∈ names
      · exact a k hn
      · rw [b k hn, hno k hk hs hn]
    · intro hn
      rcases hk with h | h
      · exact (h1 k hn).1 h
      · exact h (h1 k hn).2

section
variable [Platform]

/-! ## The line of a value -/

theorem block_one {n : Str} {α : Type} {s : Ser α} {p : ContentLine → Res α} {W : Back.Writing α} {R : ContentLine → α → Prop} {v : α}
    (hr : ReadsAs p R) (hw : WritesLine s W v) : ∃ l, (Field.req n α s p).Written v l ∧ (∀ x ∈ l, x.key = n) ∧
      (∀ w, IsReq l n p w ↔ Back.One n W R v w) ∧ ∀ o, l.getLast? = o ↔ Back.OneLine n W v o := by
  obtain ⟨hf, t, ht⟩ := hw
  refine ⟨lineOf n (W.params v) t, ⟨_, t, ht, rfl⟩, lineOf_key, fun w => ?_, fun o => ?_⟩
  · unfold Back.One
    simp only [writes_eq hf ht, exists_eq_left]
    unfold lineOf
    split
    · next h => simp [IsReq, lastNamed, named, h]
    · next h => simp [IsReq, lastNamed, named, h, hr _ _]
  · unfold Back.OneLine
    simp only [writes_eq hf ht, exists_eq_left]
    unfold lineOf
    split
    · next h => simp [h, eq_comm]
    · next h => simp [h, eq_comm]

theorem block_opt {n : Str} {α : Type} {s : Ser α} {p : ContentLine → Res α} {W : Back.Writing α} {R : ContentLine → α → Prop} {v : Option α}
    (hr : ReadsAs p R) (hw : ∀ a ∈ v, WritesLine s W a) : ∃ l, (Field.opt n α s p).Written v l ∧ (∀ x ∈ l, x.key = n) ∧
      ∀ w, IsOpt l n p w ↔ Back.Opt n W R v w := by
  obtain ⟨l, h1, h2⟩ := Field.echo_opt (n := n) hr hw
  exact ⟨l, h1, fun x hx => h1.keys x hx, h2⟩

theorem block_many {n : Str} {α : Type} {s : Ser α} {p : ContentLine → Res α} {W : Back.Writing α} {R : ContentLine → α → Prop} {v : List α}
    (hr : ReadsAs p R) (hf : IsForm α s W.form) (hw : ∀ a ∈ v, WritesLine s W a) : ∃ l, (Field.push n α s p).Written v l ∧ (∀ x ∈ l, x.key = n) ∧
      (∀ w, IsPush l n p w ↔ Back.Many n W R v w) ∧ ∀ o, l.getLast? = o ↔ Back.ManyLine n W v o := by
  match v, hw with
  | [], _ =>
    refine ⟨[], rfl, by simp, fun w => ?_, fun o => ?_⟩
    · show IsPush _ _ _ _ ↔ w = []
      cases w <;> simp [IsPush, named]
    · simp [Back.ManyLine, eq_comm]
  | [a], hw =>
    obtain ⟨hf, t, ht⟩ := hw a (by simp)
    refine ⟨lineOf n (W.params a) t, ⟨_, t, ht, rfl⟩, lineOf_key, fun w => ?_, fun o => ?_⟩
    · show IsPush _ _ _ _ ↔ ∃ t, _
      rw [Field.isPush_lineOf hr]
      simp only [writes_eq hf ht, exists_eq_left]
    · unfold Back.ManyLine Back.OneLine
      simp only [writes_eq hf ht, exists_eq_left]
      unfold lineOf
      split
      · next h => simp [h, eq_comm]
      · next h => simp [h, eq_comm]
  | a :: b :: v, hw =>
    obtain ⟨ts, h1, h2⟩ := all2_writes hf hw
    refine ⟨lineOf n [] (join [','] ts), ⟨ts, h1, rfl⟩, lineOf_key, fun w => ?_, fun o => ?_⟩
    · show IsPush _ _ _ _ ↔ ∃ ts, _
      simp only [h2, exists_eq_left]
      rw [Field.isPush_lineOf hr, join_eq_joinWith]
      cases h1 with
      | cons _ h1 => cases h1 with
        | cons _ _ => simp [Field.join_ne]
    · unfold Back.ManyLine
      simp only [h2, exists_eq_left]
      rw [join_eq_joinWith]
      cases h1 with
      | cons _ h1 => cases h1 with
        | cons _ _ =>
          rw [lineOf, if_neg Field.join_ne]
          simp only [List.getLast?_singleton]
          exact eq_comm

theorem extLine_iff {n : Str} {m : SMap ContentLine} {s : Str} (h : SMap.ical m = .ok s) (o : Option ContentLine) :
    (lineOf n [] s).getLast? = o ↔ Back.ExtLine n m o := by
  have hle := lineOf_ext h
  have hE := extBack_iff (n := n) (m' := match o with | none => [] | some l => [(n, l)]) h
  unfold Back.ExtLine
  unfold extBack Back.Ext at hE
  by_cases hm : m = []
  · have hs : s = [] := Classical.byContradiction fun hs => hle.1 hs hm
    simp [hm, hs, lineOf, eq_comm]
  · have hs := hle.2 hm
    simp only [hm, if_false, false_and, false_or, not_false_iff, true_and, ne_eq] at hE ⊢
    rw [lineOf, if_neg hs]
    cases o with
    | none => simp
    | some l =>
      simp only [List.cons.injEq, Prod.mk.injEq, true_and, and_true] at hE
      simp only [List.getLast?_singleton, Option.some.injEq]
      rw [eq_comm, hE]

theorem ext_of_line {n : Str} {m m' : SMap ContentLine} {s : Str} (h : SMap.ical m = .ok s) :
    (m'.Wf ∧ m'.get? n = (lineOf n [] s).getLast? ∧ ∀ k, k ≠ n → m'.get? k = none) ↔ Back.Ext n m m' := by
  rw [← extBack_iff h]
  have hle := lineOf_ext h
  have hwf : (extBack n m s).Wf := by
    unfold extBack
    split
    · exact SMap.wf_nil
    · simp [SMap.Wf]
  have hget : ∀ k, (extBack n m s).get? k = if k = n then (lineOf n [] s).getLast? else none := by
    intro k
    unfold extBack lineOf
    by_cases hm : m = []
    · have hs : s = [] := Classical.byContradiction fun hs => hle.1 hs hm
      simp [hm, hs]
    · have hs := hle.2 hm
      by_cases hk : k = n <;> simp [hm, hs, hk, SMap.get?]
  constructor
  · rintro ⟨w, a, b⟩
    refine SMap.ext w hwf fun k => ?_
    rw [hget]
    split
    · next hk => rw [hk, a]
    · next hk => exact b k hk
  · rintro rfl
    exact ⟨hwf, by rw [hget, if_pos rfl], fun k hk => by rw [hget, if_neg hk]⟩

/-! ## The lines of an alarm -/

/-- The text of a display alarm is that of these lines. -/
theorem Display.alarm_blocks {v : Display} (h : TidyDisplay v) {t : Str} (ht : Ser.ical (VAlarm.display v) = .ok t) :
    ∃ la lt ld lu lr sx si, InBlocks [(c!"ACTION", la), (c!"TRIGGER", lt), (c!"DESCRIPTION", ld), (c!"DURATION", lu), (c!"REPEAT", lr),
        (c!"X-PROP", lineOf c!"X-PROP" [] sx), (c!"IANA-PROP", lineOf c!"IANA-PROP" [] si)] ∧
      (∀ w, VAlarm.ofStr t = .ok w ↔ VAlarmFrom [la, lt, ld, lu, lr, lineOf c!"X-PROP" [] sx, lineOf c!"IANA-PROP" [] si].flatten w) ∧
      SMap.ical v.xProp = .ok sx ∧ SMap.ical v.ianaProp = .ok si ∧
      (∀ w, IsReq la c!"ACTION" textProp w ↔ Back.One c!"ACTION" Back.asText Full.TextLine v.action w) ∧
      (∀ w, IsReq lt c!"TRIGGER" Ikal.trigger w ↔ Back.One c!"TRIGGER" Back.asTrigger Full.TriggerLine v.trigger w) ∧
      (∀ o, ld.getLast? = o ↔ Back.OneLine c!"DESCRIPTION" Back.asText v.description o) ∧
      (∀ w, IsOpt lu c!"DURATION" Ikal.duration w ↔ Back.Opt c!"DURATION" (Back.asShown TimeDelta.toStr) Full.DurationLine v.duration w) ∧
      (∀ w, IsOpt lr c!"REPEAT" u32Prop w ↔ Back.Opt c!"REPEAT" Back.asNumber Full.NumberLine v.repeat_ w) ∧
      firstAction [la, lt, ld, lu, lr, lineOf c!"X-PROP" [] sx, lineOf c!"IANA-PROP" [] si].flatten = if v.action.text = [] then none else some (escape v.action.text) := by
  obtain ⟨sx, hx, hcx⟩ := clean_ext h.xProp
  obtain ⟨si, hi, hci⟩ := clean_ext h.ianaProp
  obtain ⟨la, wa, ka, ea, _⟩ := block_one (n := c!"ACTION") reads_text (line_text h.action)
  obtain ⟨lt, wt, kt, et, _⟩ := block_one (n := c!"TRIGGER") reads_trigger (line_trigger v.trigger)
  obtain ⟨ld, wd, kd, _, ed⟩ := block_one (n := c!"DESCRIPTION") reads_text (line_text h.description)
  obtain ⟨lu, wu, ku, eu⟩ := block_opt (n := c!"DURATION") (v := v.duration) reads_duration fun a _ => line_delta a
  obtain ⟨lr, wr, kr, er⟩ := block_opt (n := c!"REPEAT") (v := v.repeat_) reads_number fun a _ => line_nat a
  have hw : Slots.Written Display.fields v.toComp.slots (la ++ (lt ++ (ld ++ (lu ++ (lr ++ []))))) :=
    ⟨la, _, wa, ⟨lt, _, wt, ⟨ld, _, wd, ⟨lu, _, wu, ⟨lr, _, wr, rfl, rfl⟩, rfl⟩, rfl⟩, rfl⟩, rfl⟩
  obtain ⟨u, hu, hr⟩ := Comp.alarm_tidy (c := v.toComp) Display.plain (isName_lit (s := c!"DISPLAY") (by decide)) hx hcx hi hci hw
    (fun s hs => C43_Display v s ((ical_eq rfl).trans hs)) ht
  refine ⟨la, lt, ld, lu, lr, sx, si, ⟨?_, (show ([c!"ACTION", c!"TRIGGER", c!"DESCRIPTION", c!"DURATION", c!"REPEAT", c!"X-PROP", c!"IANA-PROP"] : List Str).Nodup by decide +kernel)⟩, ?_, hx, hi, ea, et, ed, eu, er, ?_⟩
  · simp only [List.mem_cons, List.not_mem_nil, or_false]
    rintro b (rfl | rfl | rfl | rfl | rfl | rfl | rfl)
    · exact ka
    · exact kt
    · exact kd
    · exact ku
    · exact kr
    · exact lineOf_key
    · exact lineOf_key
  · have := alarm_lines hu hr
    simpa using this
  · have := firstAction_tidy (a := v.action) (by simp [Field.name]) hw (named_ext sx si)
    simpa using this

/-- The text of an e-mail alarm is that of these lines. -/
theorem Email.alarm_blocks {v : Email} (h : TidyEmail v) {t : Str} (ht : Ser.ical (VAlarm.email v) = .ok t) :
    ∃ la lt ld ls le lu lr lc sx si, InBlocks [(c!"ACTION", la), (c!"TRIGGER", lt), (c!"DESCRIPTION", ld), (c!"SUMMARY", ls), (c!"ATTENDEE", le),
        (c!"DURATION", lu), (c!"REPEAT", lr), (c!"ATTACH", lc), (c!"X-PROP", lineOf c!"X-PROP" [] sx), (c!"IANA-PROP", lineOf c!"IANA-PROP" [] si)] ∧
      (∀ w, VAlarm.ofStr t = .ok w ↔
        VAlarmFrom [la, lt, ld, ls, le, lu, lr, lc, lineOf c!"X-PROP" [] sx, lineOf c!"IANA-PROP" [] si].flatten w) ∧
      SMap.ical v.xProp = .ok sx ∧ SMap.ical v.ianaProp = .ok si ∧
      (∀ w, IsReq la c!"ACTION" textProp w ↔ Back.One c!"ACTION" Back.asText Full.TextLine v.action w) ∧
      (∀ w, IsReq lt c!"TRIGGER" Ikal.trigger w ↔ Back.One c!"TRIGGER" Back.asTrigger Full.TriggerLine v.trigger w) ∧
      (∀ w, IsReq ld c!"DESCRIPTION" textProp w ↔ Back.One c!"DESCRIPTION" Back.asText Full.TextLine v.description w) ∧
      (∀ o, ld.getLast? = o ↔ Back.OneLine c!"DESCRIPTION" Back.asText v.description o) ∧
      (∀ o, ls.getLast? = o ↔ Back.OneLine c!"SUMMARY" Back.asText v.summary o) ∧
      (∀ o, le.getLast? = o ↔ Back.ManyLine c!"ATTENDEE" Back.asUri v.attendee o) ∧
      (∀ w, IsOpt lu c!"DURATION" Ikal.duration w ↔ Back.Opt c!"DURATION" (Back.asShown TimeDelta.toStr) Full.DurationLine v.duration w) ∧
      (∀ w, IsOpt lr c!"REPEAT" u32Prop w ↔ Back.Opt c!"REPEAT" Back.asNumber Full.NumberLine v.repeat_ w) ∧
      (∀ w, IsPush lc c!"ATTACH" textProp w ↔ Back.Many c!"ATTACH" Back.asText Full.TextLine v.attach w) ∧
      (∀ o, lc.getLast? = o ↔ Back.ManyLine c!"ATTACH" Back.asText v.attach o) ∧
      firstAction [la, lt, ld, ls, le, lu, lr, lc, lineOf c!"X-PROP" [] sx, lineOf c!"IANA-PROP" [] si].flatten = if v.action.text = [] then none else some (escape v.action.text) := by
  obtain ⟨sx, hx, hcx⟩ := clean_ext h.xProp
  obtain ⟨si, hi, hci⟩ := clean_ext h.ianaProp
  obtain ⟨la, wa, ka, ea, _⟩ := block_one (n := c!"ACTION") reads_text (line_text h.action)
  obtain ⟨lt, wt, kt, et, _⟩ := block_one (n := c!"TRIGGER") reads_trigger (line_trigger v.trigger)
  obtain ⟨ld, wd, kd, ed, ed'⟩ := block_one (n := c!"DESCRIPTION") reads_text (line_text h.description)
  obtain ⟨ls, ws, ks, _, es⟩ := block_one (n := c!"SUMMARY") reads_text (line_text h.summary)
  obtain ⟨le, we, ke, _, ee⟩ := block_many (n := c!"ATTENDEE") (v := v.attendee) reads_uri uri_form fun a ha => line_uri (h.attendee a ha)
  obtain ⟨lu, wu, ku, eu⟩ := block_opt (n := c!"DURATION") (v := v.duration) reads_duration fun a _ => line_delta a
  obtain ⟨lr, wr, kr, er⟩ := block_opt (n := c!"REPEAT") (v := v.repeat_) reads_number fun a _ => line_nat a
  obtain ⟨lc, wc, kc, ec, ec'⟩ := block_many (n := c!"ATTACH") (v := v.attach) reads_text text_form fun a ha => line_text (h.attach a ha)
  have hw : Slots.Written Email.fields v.toComp.slots (la ++ (lt ++ (ld ++ (ls ++ (le ++ (lu ++ (lr ++ (lc ++ [])))))))) :=
    ⟨la, _, wa, ⟨lt, _, wt, ⟨ld, _, wd, ⟨ls, _, ws, ⟨le, _, we, ⟨lu, _, wu, ⟨lr, _, wr, ⟨lc, _, wc, rfl, rfl⟩, rfl⟩, rfl⟩, rfl⟩, rfl⟩, rfl⟩, rfl⟩, rfl⟩
  obtain ⟨u, hu, hr⟩ := Comp.alarm_tidy (c := v.toComp) Email.plain (isName_lit (s := c!"EMAIL") (by decide)) hx hcx hi hci hw
    (fun s hs => C43_Email v s ((ical_eq rfl).trans hs)) ht
  refine ⟨la, lt, ld, ls, le, lu, lr, lc, sx, si, ⟨?_, (show ([c!"ACTION", c!"TRIGGER", c!"DESCRIPTION", c!"SUMMARY", c!"ATTENDEE", c!"DURATION",
    c!"REPEAT", c!"ATTACH", c!"X-PROP", c!"IANA-PROP"] : List Str).Nodup by decide +kernel)⟩, ?_, hx, hi, ea, et, ed, ed', es, ee, eu, er, ec, ec', ?_⟩
  · simp only [List.mem_cons, List.not_mem_nil, or_false]
    rintro b (rfl | rfl | rfl | rfl | rfl | rfl | rfl | rfl | rfl | rfl)
    · exact ka
    · exact kt
    · exact kd
    · exact ks
    · exact ke
    · exact ku
    · exact kr
    · exact kc
    · exact lineOf_key
    · exact lineOf_key
  · have := alarm_lines hu hr
    simpa using this
  · have := firstAction_tidy (a := v.action) (by simp [Field.name]) hw (named_ext sx si)
    simpa using this

/-! ## What the blocks are read as -/

theorem InBlocks.req {bs : List (Str × List ContentLine)} (h : InBlocks bs) {n : Str} {l : List ContentLine} (hb : (n, l) ∈ bs)
    {α : Type} {p : ContentLine → Res α} {w : α} : IsReq (bs.map (·.2)).flatten n p w ↔ IsReq l n p w := by
  rw [isReq_named, h.some hb]

theorem InBlocks.opt {bs : List (Str × List ContentLine)} (h : InBlocks bs) {n : Str} {l : List ContentLine} (hb : (n, l) ∈ bs)
    {α : Type} {p : ContentLine → Res α} {w : Option α} : IsOpt (bs.map (·.2)).flatten n p w ↔ IsOpt l n p w := by
  rw [isOpt_named, h.some hb]

theorem InBlocks.push {bs : List (Str × List ContentLine)} (h : InBlocks bs) {n : Str} {l : List ContentLine} (hb : (n, l) ∈ bs)
    {α : Type} {p : ContentLine → Res α} {w : List α} : IsPush (bs.map (·.2)).flatten n p w ↔ IsPush l n p w := by
  rw [isPush_named, h.some hb]

theorem InBlocks.pushNone {bs : List (Str × List ContentLine)} (h : InBlocks bs) {n : Str} (hn : n ∉ bs.map (·.1))
    {α : Type} {p : ContentLine → Res α} {w : List α} : IsPush (bs.map (·.2)).flatten n p w ↔ w = [] := by
  unfold IsPush
  rw [h.none hn]
  cases w <;> simp

theorem InBlocks.last {bs : List (Str × List ContentLine)} (h : InBlocks bs) {n : Str} {l : List ContentLine} (hb : (n, l) ∈ bs) :
    lastNamed n (bs.map (·.2)).flatten = l.getLast? := by rw [lastNamed, h.some hb]

/-- The extension properties of lines of which only `X-PROP` begins with `X-`. -/
theorem InBlocks.xProp {bs : List (Str × List ContentLine)} (h : InBlocks bs) {known : List Str} {sx : Str} {m m' : SMap ContentLine}
    (hx : SMap.ical m = .ok sx) (hb : (c!"X-PROP", lineOf c!"X-PROP" [] sx) ∈ bs) (hk : c!"X-PROP" ∉ known)
    (hn : ∀ n ∈ bs.map (·.1), n ∈ known ∨ ¬ IsX n ∨ n ∈ [c!"X-PROP"]) :
    IsExt known IsX (bs.map (·.2)).flatten m' ↔ Back.Ext c!"X-PROP" m m' := by
  rw [isExt_blocks h (names := [c!"X-PROP"]) (by
    intro n hn
    rw [List.mem_singleton.1 hn]
    exact ⟨hk, by unfold IsX; decide⟩) hn]
  rw [← ext_of_line hx]
  simp only [List.mem_singleton, forall_eq, h.last hb]

theorem Display.as_audio {v : Display} (h : TidyDisplay v) {t : Str} (ht : Ser.ical (VAlarm.display v) = .ok t) :
    ∃ ls, (∀ w, VAlarm.ofStr t = .ok w ↔ VAlarmFrom ls w) ∧
      (firstAction ls = if v.action.text = [] then none else some (escape v.action.text)) ∧ (∀ w, AudioFrom ls w ↔ Back.DisplayAsAudio v w) ∧ ∀ w, ¬ EmailFrom ls w := by
  obtain ⟨la, lt, ld, lu, lr, sx, si, hB, hV, hx, hi, ea, et, ed, eu, er, hfa⟩ := Display.alarm_blocks h ht
  refine ⟨_, hV, hfa, fun w => ?_, fun w hw => ?_⟩
  · have r1 := hB.req (n := c!"ACTION") (l := la) (by simp) (p := textProp) (w := w.action)
    have r2 := hB.req (n := c!"TRIGGER") (l := lt) (by simp) (p := Ikal.trigger) (w := w.trigger)
    have r3 := hB.opt (n := c!"DURATION") (l := lu) (by simp) (p := Ikal.duration) (w := w.duration)
    have r4 := hB.opt (n := c!"REPEAT") (l := lr) (by simp) (p := u32Prop) (w := w.repeat_)
    have r5 := hB.pushNone (n := c!"ATTACH") (show c!"ATTACH" ∉ ([c!"ACTION", c!"TRIGGER", c!"DESCRIPTION", c!"DURATION", c!"REPEAT", c!"X-PROP", c!"IANA-PROP"] : List Str) by decide +kernel) (p := textProp) (w := w.attach)
    have r6 := hB.xProp (known := [c!"ACTION", c!"TRIGGER", c!"DURATION", c!"REPEAT", c!"ATTACH"]) (m' := w.xProp) hx (by simp) (by decide +kernel)
      (show ∀ n ∈ ([c!"ACTION", c!"TRIGGER", c!"DESCRIPTION", c!"DURATION", c!"REPEAT", c!"X-PROP", c!"IANA-PROP"] : List Str), _ by unfold IsX; decide +kernel)
    have r7 := isExt_blocks hB (known := [c!"ACTION", c!"TRIGGER", c!"DURATION", c!"REPEAT", c!"ATTACH"]) (names := [c!"DESCRIPTION", c!"IANA-PROP"]) (sel := fun k => ¬ IsX k) (m := w.ianaProp)
      (by unfold IsX; decide +kernel)
      (show ∀ n ∈ ([c!"ACTION", c!"TRIGGER", c!"DESCRIPTION", c!"DURATION", c!"REPEAT", c!"X-PROP", c!"IANA-PROP"] : List Str), _ by unfold IsX; decide +kernel)
    have l1 := hB.last (n := c!"DESCRIPTION") (l := ld) (by simp)
    have l2 := hB.last (n := c!"IANA-PROP") (l := (lineOf c!"IANA-PROP" [] si)) (by simp)
    simp only [List.mem_cons, List.not_mem_nil, or_false, forall_eq_or_imp, forall_eq, l1, l2] at r7
    rw [@eq_comm _ (SMap.get? w.ianaProp c!"DESCRIPTION"), @eq_comm _ (SMap.get? w.ianaProp c!"IANA-PROP"), ed, extLine_iff hi] at r7
    constructor
    · rintro ⟨h1, h2, h3, h4, h5, h6, h7⟩
      obtain ⟨h7, ⟨h8, h9⟩, h10⟩ := r7.1 h7
      exact ⟨(ea _).1 (r1.1 h1), (et _).1 (r2.1 h2), (eu _).1 (r3.1 h3), (er _).1 (r4.1 h4), r5.1 h5, r6.1 h6, h7, h8, h9, fun k hk => h10 k (by simpa using hk)⟩
    · rintro ⟨h1, h2, h3, h4, h5, h6, h7, h8, h9, h10⟩
      exact ⟨r1.2 ((ea _).2 h1), r2.2 ((et _).2 h2), r3.2 ((eu _).2 h3), r4.2 ((er _).2 h4), r5.2 h5, r6.2 h6,
        r7.2 ⟨h7, ⟨h8, h9⟩, fun k hk => h10 k (by simpa using hk)⟩⟩
  · obtain ⟨l, hl, _⟩ := hw.summary
    have e := hB.none (k := c!"SUMMARY") (show c!"SUMMARY" ∉ ([c!"ACTION", c!"TRIGGER", c!"DESCRIPTION", c!"DURATION", c!"REPEAT", c!"X-PROP", c!"IANA-PROP"] : List Str) by decide +kernel)
    rw [lastNamed] at hl
    have hl := (congrArg List.getLast? e).symm.trans hl
    cases hl

theorem Email.as_others {v : Email} (h : TidyEmail v) {t : Str} (ht : Ser.ical (VAlarm.email v) = .ok t) :
    ∃ ls, (∀ w, VAlarm.ofStr t = .ok w ↔ VAlarmFrom ls w) ∧
      (firstAction ls = if v.action.text = [] then none else some (escape v.action.text)) ∧ (∀ w, AudioFrom ls w ↔ Back.EmailAsAudio v w) ∧
      ∀ w, DisplayFrom ls w ↔ Back.EmailAsDisplay v w := by
  obtain ⟨la, lt, ld, ls, le, lu, lr, lc, sx, si, hB, hV, hx, hi, ea, et, ed, ed', es, ee, eu, er, ec, ec', hfa⟩ := Email.alarm_blocks h ht
  have l1 := hB.last (n := c!"DESCRIPTION") (l := ld) (by simp)
  have l2 := hB.last (n := c!"IANA-PROP") (l := lineOf c!"IANA-PROP" [] si) (by simp)
  have l3 := hB.last (n := c!"SUMMARY") (l := ls) (by simp)
  have l4 := hB.last (n := c!"ATTENDEE") (l := le) (by simp)
  have l5 := hB.last (n := c!"ATTACH") (l := lc) (by simp)
  refine ⟨_, hV, hfa, fun w => ?_, fun w => ?_⟩
  · have r1 := hB.req (n := c!"ACTION") (l := la) (by simp) (p := textProp) (w := w.action)
    have r2 := hB.req (n := c!"TRIGGER") (l := lt) (by simp) (p := Ikal.trigger) (w := w.trigger)
    have r3 := hB.opt (n := c!"DURATION") (l := lu) (by simp) (p := Ikal.duration) (w := w.duration)
    have r4 := hB.opt (n := c!"REPEAT") (l := lr) (by simp) (p := u32Prop) (w := w.repeat_)
    have r5 := hB.push (n := c!"ATTACH") (l := lc) (by simp) (p := textProp) (w := w.attach)
    have r6 := hB.xProp (known := [c!"ACTION", c!"TRIGGER", c!"DURATION", c!"REPEAT", c!"ATTACH"]) (m' := w.xProp) hx (by simp) (by decide +kernel)
      (show ∀ n ∈ ([c!"ACTION", c!"TRIGGER", c!"DESCRIPTION", c!"SUMMARY", c!"ATTENDEE", c!"DURATION", c!"REPEAT", c!"ATTACH", c!"X-PROP", c!"IANA-PROP"] : List Str), _ by unfold IsX; decide +kernel)
    have r7 := isExt_blocks hB (known := [c!"ACTION", c!"TRIGGER", c!"DURATION", c!"REPEAT", c!"ATTACH"]) (names := [c!"DESCRIPTION", c!"SUMMARY", c!"ATTENDEE", c!"IANA-PROP"]) (sel := fun k => ¬ IsX k) (m := w.ianaProp)
      (by unfold IsX; decide +kernel)
      (show ∀ n ∈ ([c!"ACTION", c!"TRIGGER", c!"DESCRIPTION", c!"SUMMARY", c!"ATTENDEE", c!"DURATION", c!"REPEAT", c!"ATTACH", c!"X-PROP", c!"IANA-PROP"] : List Str), _ by unfold IsX; decide +kernel)
    simp only [List.mem_cons, List.not_mem_nil, or_false, forall_eq_or_imp, forall_eq, l1, l2, l3, l4] at r7
    rw [@eq_comm _ (SMap.get? w.ianaProp c!"DESCRIPTION"), @eq_comm _ (SMap.get? w.ianaProp c!"SUMMARY"), @eq_comm _ (SMap.get? w.ianaProp c!"ATTENDEE"),
      @eq_comm _ (SMap.get? w.ianaProp c!"IANA-PROP"), ed', es, ee, extLine_iff hi] at r7
    constructor
    · rintro ⟨h1, h2, h3, h4, h5, h6, h7⟩
      obtain ⟨h7, ⟨h8, h9, h10, h11⟩, h12⟩ := r7.1 h7
      exact ⟨(ea _).1 (r1.1 h1), (et _).1 (r2.1 h2), (eu _).1 (r3.1 h3), (er _).1 (r4.1 h4), (ec _).1 (r5.1 h5), r6.1 h6, h7, h8, h9, h10, h11,
        fun k hk => h12 k (by simpa using hk)⟩
    · rintro ⟨h1, h2, h3, h4, h5, h6, h7, h8, h9, h10, h11, h12⟩
      exact ⟨r1.2 ((ea _).2 h1), r2.2 ((et _).2 h2), r3.2 ((eu _).2 h3), r4.2 ((er _).2 h4), r5.2 ((ec _).2 h5), r6.2 h6,
        r7.2 ⟨h7, ⟨h8, h9, h10, h11⟩, fun k hk => h12 k (by simpa using hk)⟩⟩
  · have r1 := hB.req (n := c!"ACTION") (l := la) (by simp) (p := textProp) (w := w.action)
    have r2 := hB.req (n := c!"TRIGGER") (l := lt) (by simp) (p := Ikal.trigger) (w := w.trigger)
    have r0 := hB.req (n := c!"DESCRIPTION") (l := ld) (by simp) (p := textProp) (w := w.description)
    have r3 := hB.opt (n := c!"DURATION") (l := lu) (by simp) (p := Ikal.duration) (w := w.duration)
    have r4 := hB.opt (n := c!"REPEAT") (l := lr) (by simp) (p := u32Prop) (w := w.repeat_)
    have r6 := hB.xProp (known := [c!"ACTION", c!"TRIGGER", c!"DESCRIPTION", c!"DURATION", c!"REPEAT"]) (m' := w.xProp) hx (by simp) (by decide +kernel)
      (show ∀ n ∈ ([c!"ACTION", c!"TRIGGER", c!"DESCRIPTION", c!"SUMMARY", c!"ATTENDEE", c!"DURATION", c!"REPEAT", c!"ATTACH", c!"X-PROP", c!"IANA-PROP"] : List Str), _ by unfold IsX; decide +kernel)
    have r7 := isExt_blocks hB (known := [c!"ACTION", c!"TRIGGER", c!"DESCRIPTION", c!"DURATION", c!"REPEAT"]) (names := [c!"SUMMARY", c!"ATTENDEE", c!"ATTACH", c!"IANA-PROP"]) (sel := fun k => ¬ IsX k) (m := w.ianaProp)
      (by unfold IsX; decide +kernel)
      (show ∀ n ∈ ([c!"ACTION", c!"TRIGGER", c!"DESCRIPTION", c!"SUMMARY", c!"ATTENDEE", c!"DURATION", c!"REPEAT", c!"ATTACH", c!"X-PROP", c!"IANA-PROP"] : List Str), _ by unfold IsX; decide +kernel)
    simp only [List.mem_cons, List.not_mem_nil, or_false, forall_eq_or_imp, forall_eq, l2, l3, l4, l5] at r7
    rw [@eq_comm _ (SMap.get? w.ianaProp c!"SUMMARY"), @eq_comm _ (SMap.get? w.ianaProp c!"ATTENDEE"), @eq_comm _ (SMap.get? w.ianaProp c!"ATTACH"),
      @eq_comm _ (SMap.get? w.ianaProp c!"IANA-PROP"), ec', es, ee, extLine_iff hi] at r7
    constructor
    · rintro ⟨h1, h2, h0, h3, h4, h6, h7⟩
      obtain ⟨h7, ⟨h8, h9, h10, h11⟩, h12⟩ := r7.1 h7
      exact ⟨(ea _).1 (r1.1 h1), (et _).1 (r2.1 h2), (ed _).1 (r0.1 h0), (eu _).1 (r3.1 h3), (er _).1 (r4.1 h4), r6.1 h6, h7, h8, h9, h10, h11,
        fun k hk => h12 k (by simpa using hk)⟩
    · rintro ⟨h1, h2, h0, h3, h4, h6, h7, h8, h9, h10, h11, h12⟩
      exact ⟨r1.2 ((ea _).2 h1), r2.2 ((et _).2 h2), r0.2 ((ed _).2 h0), r3.2 ((eu _).2 h3), r4.2 ((er _).2 h4), r6.2 h6,
        r7.2 ⟨h7, ⟨h8, h9, h10, h11⟩, fun k hk => h12 k (by simpa using hk)⟩⟩

/-- No line of an audio alarm is a description. -/
theorem Audio.as_none {v : Audio} (h : TidyAudio v) {t : Str} (ht : Ser.ical (VAlarm.audio v) = .ok t) :
    ∃ ls, (∀ w, VAlarm.ofStr t = .ok w ↔ VAlarmFrom ls w) ∧ (∀ w, ¬ DisplayFrom ls w) ∧ ∀ w, ¬ EmailFrom ls w := by
  obtain ⟨sx, hx, hcx⟩ := clean_ext h.xProp
  obtain ⟨si, hi, hci⟩ := clean_ext h.ianaProp
  obtain ⟨la, wa, ka, _⟩ := block_one (n := c!"ACTION") reads_text (line_text h.action)
  obtain ⟨lt, wt, kt, _⟩ := block_one (n := c!"TRIGGER") reads_trigger (line_trigger v.trigger)
  obtain ⟨lu, wu, ku, _⟩ := block_opt (n := c!"DURATION") (v := v.duration) reads_duration fun a _ => line_delta a
  obtain ⟨lr, wr, kr, _⟩ := block_opt (n := c!"REPEAT") (v := v.repeat_) reads_number fun a _ => line_nat a
  obtain ⟨lc, wc, kc, _⟩ := block_many (n := c!"ATTACH") (v := v.attach) reads_text text_form fun a ha => line_text (h.attach a ha)
  have hw : Slots.Written Audio.fields v.toComp.slots (la ++ (lt ++ (lu ++ (lr ++ (lc ++ []))))) :=
    ⟨la, _, wa, ⟨lt, _, wt, ⟨lu, _, wu, ⟨lr, _, wr, ⟨lc, _, wc, rfl, rfl⟩, rfl⟩, rfl⟩, rfl⟩, rfl⟩
  obtain ⟨u, hu, hr⟩ := Comp.alarm_tidy (c := v.toComp) Audio.plain (isName_lit (s := c!"AUDIO") (by decide)) hx hcx hi hci hw
    (fun s hs => C43_Audio v s ((ical_eq rfl).trans hs)) ht
  have hB : InBlocks [(c!"ACTION", la), (c!"TRIGGER", lt), (c!"DURATION", lu), (c!"REPEAT", lr), (c!"ATTACH", lc),
      (c!"X-PROP", lineOf c!"X-PROP" [] sx), (c!"IANA-PROP", lineOf c!"IANA-PROP" [] si)] := by
    refine ⟨?_, show ([c!"ACTION", c!"TRIGGER", c!"DURATION", c!"REPEAT", c!"ATTACH", c!"X-PROP", c!"IANA-PROP"] : List Str).Nodup by decide +kernel⟩
    simp only [List.mem_cons, List.not_mem_nil, or_false]
    rintro b (rfl | rfl | rfl | rfl | rfl | rfl | rfl)
    · exact ka
    · exact kt
    · exact ku
    · exact kr
    · exact kc
    · exact lineOf_key
    · exact lineOf_key
  have e := hB.none (k := c!"DESCRIPTION") (show c!"DESCRIPTION" ∉ ([c!"ACTION", c!"TRIGGER", c!"DURATION", c!"REPEAT", c!"ATTACH", c!"X-PROP", c!"IANA-PROP"] : List Str) by decide +kernel)
  have hn : ∀ l, lastNamed c!"DESCRIPTION" [la, lt, lu, lr, lc, lineOf c!"X-PROP" [] sx, lineOf c!"IANA-PROP" [] si].flatten ≠ some l := by
    intro l hl
    have hl := (congrArg List.getLast? e).symm.trans hl
    cases hl
  refine ⟨[la, lt, lu, lr, lc, lineOf c!"X-PROP" [] sx, lineOf c!"IANA-PROP" [] si].flatten, ?_, fun w hw => ?_, fun w hw => ?_⟩
  · have := alarm_lines hu hr
    simpa using this
  · obtain ⟨l, hl, _⟩ := hw.description
    exact hn l hl
  · obtain ⟨l, hl, _⟩ := hw.description
    exact hn l hl

/-- **C78** for an alarm, whatever its action is: it is only read as an alarm of the kind that its action names, and what that kind has no
property for becomes an extension property. -/
theorem C78_VAlarm_any (v w : VAlarm) (h : TidyVAlarm v) (t : Str) (ht : ical v = .ok t) :
    VAlarm.ofStr t = .ok w ↔ (Back.action v).text = Back.kind w ∧ Back.AnyKind v w := by
  by_cases hk : (Back.action v).text = Back.kind w
  · rw [and_iff_right hk]
    rw [ical_eq rfl] at ht
    obtain ⟨ls, hr, hf, hp⟩ := VAlarm.alarm_echo h ht
    have hk' := (alarm_kind (w := w) hf).2 hk
    cases v with
    | audio a =>
      obtain ⟨ls', hr', h1, h2⟩ := Audio.as_none h ht
      cases w with
      | audio b => exact (hr _).trans ((and_iff_right hk').trans (hp b))
      | display b => exact (hr' _).trans (iff_false_intro fun hw => h1 b hw.2)
      | email b => exact (hr' _).trans (iff_false_intro fun hw => h2 b hw.2)
    | display a =>
      obtain ⟨ls', hr', hf', h1, h2⟩ := Display.as_audio h ht
      have hk2 := (alarm_kind (v := .display a) (w := w) hf').2 hk
      cases w with
      | audio b => exact (hr' _).trans ((and_iff_right hk2).trans (h1 b))
      | display b => exact (hr _).trans ((and_iff_right hk').trans (hp b))
      | email b => exact (hr' _).trans (iff_false_intro fun hw => h2 b hw.2)
    | email a =>
      obtain ⟨ls', hr', hf', h1, h2⟩ := Email.as_others h ht
      have hk2 := (alarm_kind (v := .email a) (w := w) hf').2 hk
      cases w with
      | audio b => exact (hr' _).trans ((and_iff_right hk2).trans (h1 b))
      | display b => exact (hr' _).trans ((and_iff_right hk2).trans (h2 b))
      | email b => exact (hr _).trans ((and_iff_right hk').trans (hp b))
  · exact ⟨fun hw => absurd (C78_VAlarm_kind v w h t ht hw) hk, fun hw => absurd hw.1 hk⟩

end

/-! ### The hypotheses are met -/

section Examples

attribute [local instance] utc

def sampleOddDisplay (action : Str) : Display := {
  action := ⟨[], action⟩
  trigger := .duration ⟨-900000000000⟩
  description := ⟨[], c!"wake up"⟩
  duration := none
  repeat_ := none
  xProp := []
  ianaProp := [] }

theorem sampleOddDisplay_tidy {a : Str} (h : '\r' ∉ a) : TidyVAlarm (.display (sampleOddDisplay a)) where
  action := ⟨h, tidyParams_nil⟩
  description := ⟨(show '\r' ∉ c!"wake up" by decide), tidyParams_nil⟩
  xProp := by intro a ha; cases ha
  ianaProp := by intro a ha; cases ha

/-- A display alarm whose action says that it is an audio alarm is read as one, and its description becomes an extension property. -/
example : ∃ t w, ical (VAlarm.display (sampleOddDisplay c!"AUDIO")) = .ok t ∧ VAlarm.ofStr t = .ok (.audio w) ∧
    w.ianaProp = [(c!"DESCRIPTION", ⟨c!"DESCRIPTION", [], c!"wake up"⟩)] := by
  obtain ⟨t, w, h1, h2⟩ := written_and_read (v := VAlarm.display (sampleOddDisplay c!"AUDIO")) (ofStr := VAlarm.ofStr) (by decide +kernel)
  have h3 := (C78_VAlarm_any _ w (sampleOddDisplay_tidy (by decide)) t h1).1 h2
  cases w with
  | audio w =>
    refine ⟨t, w, h1, h2, ?_⟩
    obtain ⟨_, h⟩ := h3
    have h : Back.DisplayAsAudio _ w := h
    have hd : w.ianaProp.get? c!"DESCRIPTION" = some ⟨c!"DESCRIPTION", [], c!"wake up"⟩ := by
      obtain ⟨s, ⟨ps, hw⟩, ⟨h0, _⟩ | ⟨_, he⟩⟩ := h.description
      · subst h0
        have := hw.2
        cases this
      · rw [he]
        have e : s = c!"wake up" := by
          have := escapedAs_iff.1 hw.2
          rw [this]
          decide +kernel
        subst e
        rfl
    refine SMap.ext h.sorted (by simp [SMap.Wf]) fun k => ?_
    by_cases hk : k = c!"DESCRIPTION"
    · rw [hk, hd]
      rfl
    · by_cases hk' : k = c!"IANA-PROP"
      · rw [hk']
        rcases h.ianaProp with ⟨_, h⟩ | ⟨h, _⟩
        · rw [h]
          rfl
        · exact absurd rfl h
      · rw [h.others k (by simp [hk, hk'])]
        simp [SMap.get?, hk]
  | display w => exact absurd h3.1 (show c!"AUDIO" ≠ c!"DISPLAY" by decide)
  | email w => exact absurd h3.1 (show c!"AUDIO" ≠ c!"EMAIL" by decide)

/-- One whose action says that it is an e-mail alarm is written and not read at all: it has no summary. -/
example : ∃ t, ical (VAlarm.display (sampleOddDisplay c!"EMAIL")) = .ok t ∧ ∀ w, VAlarm.ofStr t ≠ .ok w := by
  cases ht : ical (VAlarm.display (sampleOddDisplay c!"EMAIL")) with
  | ok t =>
    refine ⟨t, rfl, fun w hw => ?_⟩
    obtain ⟨h1, h2⟩ := (C78_VAlarm_any _ w (sampleOddDisplay_tidy (by decide)) t ht).1 hw
    cases w with
    | audio w => exact absurd h1 (show c!"EMAIL" ≠ c!"AUDIO" by decide)
    | display w => exact absurd h1 (show c!"EMAIL" ≠ c!"DISPLAY" by decide)
    | email w => exact h2
  | err e => exact absurd (congrArg Res.isOk ht) (show (ical (VAlarm.display (sampleOddDisplay c!"EMAIL"))).isOk ≠ false by decide +kernel)
  | panic => exact absurd (congrArg Res.isOk ht) (show (ical (VAlarm.display (sampleOddDisplay c!"EMAIL"))).isOk ≠ false by decide +kernel)

end Examples

end Ikal
