import Verif.Lemmas.Rule
import Verif.Props.Names
import Verif.Props.Order

/-! # C30, C29 and part of C22: recurrence rules -/

namespace Ikal

open Nom Spec

set_option linter.unusedSectionVars false
set_option linter.unusedSimpArgs false

section
variable [Platform]

theorem get?_last (items : List (Str × Str)) (k : Str) : SMap.get? (SMap.ofPairs items) k = lastValue items k :=
  SMap.get?_ofPairs items k

theorem optItem_ok {α : Type} {items : List (Str × Str)} {name : Str} {f : Str → Res α} {a : Option α} :
    optItem (SMap.ofPairs items) name f = .ok a ↔ ItemOpt (fun s a => f s = .ok a) (lastValue items name) a := by
  unfold optItem ItemOpt
  rw [get?_last]
  cases lastValue items name with
  | none => cases a <;> simp
  | some v => cases h : f v <;> cases a <;> simp [h]

theorem optItem_panic {α : Type} {items : List (Str × Str)} {name : Str} {f : Str → Res α} (hf : ∀ s, f s ≠ .panic) :
    optItem (SMap.ofPairs items) name f ≠ .panic := by
  unfold optItem
  split
  · next v _ => have := hf v; cases h : f v <;> simp_all
  · simp

theorem itemOr_iff {α : Type} {R : Str → α → Prop} {d : α} {v : Option Str} {a : α} :
    ItemOr R d v a ↔ ∃ o, ItemOpt R v o ∧ o.getD d = a := by
  unfold ItemOr ItemOpt
  cases v with
  | none =>
    constructor
    · rintro rfl; exact ⟨none, trivial, rfl⟩
    · rintro ⟨o, h, rfl⟩; cases o <;> simp_all
  | some s =>
    constructor
    · intro h; exact ⟨some a, h, rfl⟩
    · rintro ⟨o, h, rfl⟩; cases o <;> simp_all

theorem itemOpt_congr {α : Type} {R S : Str → α → Prop} (h : ∀ s a, R s a ↔ S s a) (v : Option Str) (a : Option α) :
    ItemOpt R v a ↔ ItemOpt S v a := by
  unfold ItemOpt; split <;> simp [h]

theorem freq_not_panic (s : Str) : Freq.ofStr s ≠ .panic := by
  unfold Freq.ofStr; repeat' split
  all_goals simp

theorem dateOrDt_not_panic (s : Str) : (dateOrDt s).toRes ≠ .panic := by
  unfold dateOrDt alt Nom.map date dateTime
  cases parseNaiveDate s with
  | some d => simp [NRes.toRes]
  | none =>
    cases parseNaiveDateTime [] (trimEndZ s) with
    | none => simp [NRes.toRes]
    | some t => simp only []; split <;> simp_all [NRes.toRes] <;> (rename_i h; split at h <;> simp at h)

theorem dateTime_not_panic (s : Str) : dateTime s ≠ .panic := by
  unfold dateTime
  split
  · split <;> simp
  · simp

theorem mapM'_not_panic {α β : Type} {f : α → Res β} (h : ∀ a, f a ≠ .panic) (l : List α) : Res.mapM' f l ≠ .panic := by
  induction l with
  | nil => simp [Res.mapM']
  | cons a l ih =>
    unfold Res.mapM'
    have := h a
    cases hf : f a <;> cases hl : Res.mapM' f l <;> simp_all

theorem ofOption_not_panic {α : Type} (e : Error) (o : Option α) : Res.ofOption e o ≠ .panic := by
  cases o <;> simp [Res.ofOption]

theorem byList_not_panic (s : Str) : byList s ≠ .panic := mapM'_not_panic (fun _ => ofOption_not_panic _ _) _

theorem toRes_not_panic {α : Type} {x : NRes α} (h : x ≠ .panic) : x.toRes ≠ .panic := by
  cases x <;> simp_all [NRes.toRes]

theorem weekday_not_panic (s : Str) : weekday s ≠ .panic := by
  unfold weekday mapRes pair anychar
  cases s with
  | nil => simp
  | cons a s => cases s with
    | nil => simp
    | cons b s =>
      simp only
      have := ofChars_not_panic a b
      cases h : Weekday.ofChars a b <;> simp_all

theorem weekdaynum_not_panic (s : Str) : weekdaynum s ≠ .panic := by
  unfold weekdaynum
  intro h
  rw [map_panic] at h
  unfold pair at h
  cases h1 : opt nomI8 s with
  | ok r a =>
    rw [h1] at h
    simp only at h
    have := weekday_not_panic r
    cases h2 : weekday r <;> simp_all
  | err => rw [h1] at h; simp at h
  | panic =>
    rw [opt_panic] at h1
    unfold nomI8 at h1
    repeat' split at h1
    all_goals simp at h1

theorem recurOfItems_ok (items : List (Str × Str)) (r : Recur) : recurOfItems items = .ok r ↔ RuleReads items r := by
  unfold recurOfItems
  have hu : ∀ s n, (Res.ofOption .parseInt (parseU8 s) = .ok n ↔ Unsigned8 s n) := fun s n => C27_u8 (ContentLine.ofValue s) n
  have hb : ∀ s l, (byList s = .ok l ↔ ListOf Signed8 s l) := C27_i8_list
  have hw : ∀ s l, (bywdaylist s = .ok l ↔ ListOf (fun s w => WeekdayNum.ofStr s = .ok w) s l) := fun s l => mapM'_all2.trans listOf_iff.symm
  simp only [get?_last]
  cases hv : lastValue items c!"FREQ" with
  | none =>
    simp only [Res.bind_panic, reduceCtorEq, false_iff]
    intro h; have := h.freq; rw [hv] at this; simp at this
  | some v =>
    simp only [Res.bind_eq_ok, Res.pure_eq, Res.ok.injEq, optItem_ok]
    simp only [itemOpt_congr hu, itemOpt_congr hb, itemOpt_congr hw, itemOpt_congr C24_weekday, (C23_freq v).1]
    constructor
    · rintro ⟨f, hf, u, hu, c, hc, i, hi, a1, h1, a2, h2, a3, h3, a4, h4, a5, h5, a6, h6, a7, h7, a8, h8, a9, h9, w, hw, rfl⟩
      exact ⟨by rw [hv, hf], hu, hc, itemOr_iff.2 ⟨_, hi, rfl⟩, itemOr_iff.2 ⟨_, h1, rfl⟩, itemOr_iff.2 ⟨_, h2, rfl⟩, itemOr_iff.2 ⟨_, h3, rfl⟩,
        itemOr_iff.2 ⟨_, h4, rfl⟩, itemOr_iff.2 ⟨_, h5, rfl⟩, itemOr_iff.2 ⟨_, h6, rfl⟩, itemOr_iff.2 ⟨_, h7, rfl⟩,
        itemOr_iff.2 ⟨_, h8, rfl⟩, itemOr_iff.2 ⟨_, h9, rfl⟩, hw⟩
    · rintro ⟨hf, hu, hc, hi, h1, h2, h3, h4, h5, h6, h7, h8, h9, hw⟩
      rw [itemOr_iff] at hi h1 h2 h3 h4 h5 h6 h7 h8 h9
      obtain ⟨i, hi, ei⟩ := hi
      obtain ⟨a1, h1, e1⟩ := h1
      obtain ⟨a2, h2, e2⟩ := h2
      obtain ⟨a3, h3, e3⟩ := h3
      obtain ⟨a4, h4, e4⟩ := h4
      obtain ⟨a5, h5, e5⟩ := h5
      obtain ⟨a6, h6, e6⟩ := h6
      obtain ⟨a7, h7, e7⟩ := h7
      obtain ⟨a8, h8, e8⟩ := h8
      obtain ⟨a9, h9, e9⟩ := h9
      rw [hv, Option.some.injEq] at hf
      refine ⟨_, hf, _, hu, _, hc, i, hi, a1, h1, a2, h2, a3, h3, a4, h4, a5, h5, a6, h6, a7, h7, a8, h8, a9, h9, _, hw, ?_⟩
      rw [ei, e1, e2, e3, e4, e5, e6, e7, e8, e9]

theorem bind_panic_iff {α β : Type} {x : Res α} {f : α → Res β} : (x >>= f) = .panic ↔ x = .panic ∨ ∃ a, x = .ok a ∧ f a = .panic := by
  cases x <;> simp

theorem recurOfItems_panic (items : List (Str × Str)) : recurOfItems items = .panic ↔ lastValue items c!"FREQ" = none := by
  unfold recurOfItems
  have hu : ∀ s, Res.ofOption .parseInt (parseU8 s) ≠ .panic := fun s => ofOption_not_panic _ _
  have hd : ∀ s, (dateOrDt s).toRes ≠ .panic := dateOrDt_not_panic
  have hw : ∀ s, Weekday.ofStr s ≠ .panic := fun s => toRes_not_panic (weekday_not_panic s)
  have hl : ∀ s, bywdaylist s ≠ .panic := fun s => mapM'_not_panic (fun s => toRes_not_panic (weekdaynum_not_panic s)) _
  simp only [get?_last]
  cases lastValue items c!"FREQ" with
  | none => simp
  | some v =>
    simp only [bind_panic_iff, Res.pure_eq, optItem_panic hu, optItem_panic hd, optItem_panic hw, optItem_panic hl, optItem_panic byList_not_panic,
      freq_not_panic v, reduceCtorEq, and_false, exists_false, or_false, false_or]

theorem rrule_text {l : ContentLine} {items : List (Str × Str)} (h : RuleText l.value items) :
    rrule l = if items = [] then .err .parser else
      match recurOfItems items with
      | .ok r => .ok r
      | .err _ => .err .parser
      | .panic => .panic := by
  unfold rrule mapRes
  obtain ⟨h1, h2⟩ := many1_ruleText h
  by_cases e : items = []
  · rw [if_pos e, h1 e]; rfl
  · rw [if_neg e]
    obtain ⟨r, hr⟩ := h2 e
    rw [hr]
    simp only
    cases recurOfItems items <;> rfl

/-- C30 with the model's readers of dates and days of the week. -/
theorem rule_reads (l : ContentLine) (r : Recur) :
    rrule l = .ok r ↔ ∃ items, items ≠ [] ∧ RuleText l.value items ∧ RuleReads items r := by
  constructor
  · intro h
    obtain ⟨items, hi⟩ := ruleText_exists l.value
    rw [rrule_text hi] at h
    split at h
    · simp at h
    · next hn =>
      refine ⟨items, hn, hi, (recurOfItems_ok _ _).1 ?_⟩
      cases hr : recurOfItems items <;> rw [hr] at h <;> simp_all
  · rintro ⟨items, hn, hi, hm⟩
    rw [rrule_text hi, if_neg hn, (recurOfItems_ok _ _).2 hm]

/-- **C30**: two texts that give the same last value to each known item are read alike (both as the same rule, or both rejected,
or both panic): neither the order of the items nor earlier duplicates nor unknown items matter. -/
theorem C30_last_value (l l' : ContentLine) (items items' : List (Str × Str)) (h : RuleText l.value items) (h' : RuleText l'.value items')
    (hn : items ≠ []) (hn' : items' ≠ []) (he : ∀ n ∈ ruleNames, lastValue items n = lastValue items' n) : rrule l = rrule l' := by
  rw [rrule_text h, rrule_text h', if_neg hn, if_neg hn']
  have e : recurOfItems items = recurOfItems items' := by
    unfold recurOfItems optItem
    simp only [get?_last]
    simp only [ruleNames, List.mem_cons, List.not_mem_nil, or_false, forall_eq_or_imp, forall_eq] at he
    obtain ⟨e1, e2, e3, e4, e5, e6, e7, e8, e9, e10, e11, e12, e13, e14⟩ := he
    rw [e1, e2, e3, e4, e5, e6, e7, e8, e9, e10, e11, e12, e13, e14]
  rw [e]

/-- **C22**: reading a recurrence rule panics exactly when there is at least one item but no `FREQ`. -/
theorem C22_rule_panics (l : ContentLine) :
    rrule l = .panic ↔ ∃ items, items ≠ [] ∧ RuleText l.value items ∧ ∀ v, (c!"FREQ", v) ∉ items := by
  have hlast : ∀ items, lastValue items c!"FREQ" = none ↔ ∀ v, (c!"FREQ", v) ∉ items := by
    intro items
    unfold lastValue
    rw [Option.map_eq_none_iff, List.getLast?_eq_none_iff, List.filter_eq_nil_iff]
    constructor
    · intro h v hv; exact h _ hv (by simp)
    · rintro h ⟨k, v⟩ hp hk; simp at hk; subst hk; exact h v hp
  constructor
  · intro h
    obtain ⟨items, hi⟩ := ruleText_exists l.value
    rw [rrule_text hi] at h
    split at h
    · simp at h
    · next hn =>
      refine ⟨items, hn, hi, (hlast _).1 ((recurOfItems_panic _).1 ?_)⟩
      cases hr : recurOfItems items <;> rw [hr] at h <;> simp_all
  · rintro ⟨items, hn, hi, hm⟩
    rw [rrule_text hi, if_neg hn, (recurOfItems_panic _).2 ((hlast _).2 hm)]

/-! ## C29 -/

/-- The text of an item that is present. -/
def itemText (p : Str × Str) : Str := p.1 ++ '=' :: (p.2 ++ [';'])

theorem recurItem_eq {α : Type} [Ser α] {name s : Str} {v : α} (h : Ser.ical v = .ok s) :
    recurItem name v = .ok (([(name, s)].filter fun p => !p.2.isEmpty).flatMap itemText) := by
  unfold recurItem
  rw [h]
  cases s <;> simp [itemText]

theorem ruleText_items {items : List (Str × Str)} (hn : items ≠ []) (hk : ∀ p ∈ items, IsName p.1 ∧ ';' ∉ p.2) :
    RuleText (items.flatMap itemText).dropLast items := by
  induction items with
  | nil => exact absurd rfl hn
  | cons p items ih =>
    obtain ⟨h1, h2⟩ := hk p (by simp)
    cases items with
    | nil =>
      have e : ([p].flatMap itemText).dropLast = p.1 ++ '=' :: p.2 := by
        rw [List.flatMap_singleton, itemText]
        rw [show p.1 ++ '=' :: (p.2 ++ [';']) = (p.1 ++ '=' :: p.2) ++ [';'] by simp, List.dropLast_concat]
      rw [e]; exact .last h1 h2
    | cons q items =>
      have e : ((p :: q :: items).flatMap itemText).dropLast = p.1 ++ '=' :: p.2 ++ ';' :: ((q :: items).flatMap itemText).dropLast := by
        rw [List.flatMap_cons, List.dropLast_append_of_ne_nil (by simp [itemText])]
        simp [itemText]
      rw [e]
      exact .more h1 h2 (ih (by simp) fun p hp => hk p (by simp [hp]))

theorem lastValue_distinct {items : List (Str × Str)} (hd : items.Pairwise fun p q => p.1 ≠ q.1) {n v : Str} (h : (n, v) ∈ items) :
    lastValue (items.filter fun p => !p.2.isEmpty) n = if v.isEmpty then none else some v := by
  unfold lastValue
  rw [List.filter_filter]
  have key : ∀ items : List (Str × Str), (items.Pairwise fun p q => p.1 ≠ q.1) → (n, v) ∈ items →
      items.filter (fun p => decide (p.1 = n) && !p.2.isEmpty) = if v.isEmpty then [] else [(n, v)] := by
    intro items
    induction items with
    | nil => intro _ h; simp at h
    | cons p items ih =>
      intro hd h
      obtain ⟨h1, h2⟩ := List.pairwise_cons.1 hd
      rcases List.mem_cons.1 h with rfl | h
      · have : items.filter (fun p => decide (p.1 = n) && !p.2.isEmpty) = [] := by
          rw [List.filter_eq_nil_iff]; intro q hq hc
          simp at hc; exact h1 q hq hc.1.symm
        rw [List.filter_cons, this]
        cases v <;> simp
      · have hne := h1 _ h
        simp only at hne
        rw [List.filter_cons, if_neg (by simp [hne]), ih h2 h]
  rw [key items hd h]
  split <;> simp

theorem lastValue_absent {items : List (Str × Str)} {n : Str} (h : ∀ p ∈ items, p.1 ≠ n) : lastValue items n = none := by
  unfold lastValue
  rw [Option.map_eq_none_iff, List.getLast?_eq_none_iff, List.filter_eq_nil_iff]
  intro p hp hc; simp at hc; exact h p hp hc

theorem join_ne {l : List Str} (hn : l ≠ []) (h : ∀ s ∈ l, s ≠ []) : join [','] l ≠ [] := by
  cases l with
  | nil => exact absurd rfl hn
  | cons a l =>
    have := h a (by simp)
    cases l <;> simp [join, this]

theorem mem_join {sep : Str} {l : List Str} {c : Char} (h : c ∈ join sep l) : c ∈ sep ∨ ∃ s ∈ l, c ∈ s := by
  induction l with
  | nil => simp [join] at h
  | cons a l ih =>
    cases l with
    | nil => exact .inr ⟨a, by simp, by simpa [join] using h⟩
    | cons b l =>
      simp only [join, List.mem_append] at h
      rcases h with (h | h) | h
      · exact .inr ⟨a, by simp, h⟩
      · exact .inl h
      · rcases ih h with h | ⟨s, hs, hc⟩
        · exact .inl h
        · exact .inr ⟨s, by simp at hs; simp [hs], hc⟩

/-- The value of a list item. -/
theorem ical_list {α : Type} [Ser α] {f : α → Str} (h : ∀ a : α, Ser.ical a = .ok (f a)) (l : List α) :
    Ser.ical l = .ok (join [','] (l.map f)) := by
  show (Res.mapM' Ser.ical l).map (join [',']) = _
  rw [mapM'_ok (g := f) (fun a _ => h a)]
  rfl

theorem itemOr_list {α : Type} {R : Str → α → Prop} {f : α → Str} {l : List α} (hR : ∀ a ∈ l, R (f a) a) (hc : ∀ a ∈ l, ',' ∉ f a)
    (hne : ∀ a ∈ l, f a ≠ []) :
    ItemOr (ListOf R) [] (if (join [','] (l.map f)).isEmpty then none else some (join [','] (l.map f))) l := by
  cases l with
  | nil => simp [join, ItemOr]
  | cons a l =>
    have h : join [','] ((a :: l).map f) ≠ [] := join_ne (by simp) (by
      intro s hs; rw [List.mem_map] at hs; obtain ⟨b, hb, rfl⟩ := hs; exact hne b hb)
    rw [if_neg (by simpa using h)]
    unfold ItemOr
    simp only [listOf_iff]
    rw [splitOn_join (by simp) (by intro s hs; rw [List.mem_map] at hs; obtain ⟨b, hb, rfl⟩ := hs; exact hc b hb)]
    clear h hne hc
    generalize a :: l = l at *
    induction l with
    | nil => exact .nil
    | cons a l ih => exact .cons (hR a (by simp)) (ih fun b hb => hR b (by simp [hb]))

theorem intStr_chars (n : Int) : ∀ c ∈ intStr n, c.isDigit = true ∨ c = '-' := by
  intro c hc
  unfold intStr at hc
  split at hc
  · simp at hc; rcases hc with h | h
    · exact .inr h
    · exact .inl (natStr_digits _ _ h)
  · exact .inl (natStr_digits _ _ hc)

theorem intStr_ne (n : Int) : intStr n ≠ [] := by
  unfold intStr; split
  · simp
  · exact natStr_ne _

theorem weekdayNum_chars (w : WeekdayNum) : ∀ c ∈ w.toStr, c ≠ ',' ∧ c ≠ ';' := by
  obtain ⟨d, o⟩ := w
  intro c hc
  unfold WeekdayNum.toStr at hc
  simp only [List.mem_append] at hc
  rcases hc with hc | hc
  · cases o with
    | none => simp at hc
    | some n =>
      rcases intStr_chars n c hc with h | rfl
      · constructor <;> (rintro rfl; simp at h)
      · decide
  · cases d <;> simp [Weekday.toStr] at hc <;> rcases hc with rfl | rfl <;> decide

theorem weekdayNum_ne (w : WeekdayNum) : w.toStr ≠ [] := by
  obtain ⟨d, o⟩ := w
  unfold WeekdayNum.toStr
  cases d <;> simp [Weekday.toStr]

theorem date_plain {d : Date} (h : PlainDate d) : (dateOrDt d.toStr).toRes = .ok d := by
  cases d with
  | date d => exact dateOrDt_date.2 (parseNaiveDate_toStr h.1 ((NaiveDate.ok_iff _).2 h.2))
  | dateTime t =>
    have h2 := dateTime_plain h
    have h1 : date t.toStr = .err := by
      cases t with
      | naive t => have := date_dateTime h.1 h.2.any []; rwa [List.append_nil] at this
      | loc u => rw [DateTime.toStr, localOf_plain h.2.1 h.2.2]; exact date_dateTime h.1 h.2.1.any _
    unfold dateOrDt alt Nom.map
    rw [Date.toStr, h1, h2]; rfl

theorem date_chars (d : Date) : ∀ c ∈ d.toStr, c ≠ ';' := by
  have h2 : ∀ n, ∀ c ∈ pad2 n, c ≠ ';' := by
    intro n c hc; have := pad2_digits n c hc; rintro rfl; simp at this
  have h4 : ∀ n, ∀ c ∈ pad4 n, c ≠ ';' := by
    intro n c hc; have := pad4_digits n c hc; rintro rfl; simp at this
  have hn : ∀ n, ∀ c ∈ natStr n, c ≠ ';' := by
    intro n c hc; have := natStr_digits n c hc; rintro rfl; simp at this
  have hd : ∀ d : NaiveDate, ∀ c ∈ d.toStr, c ≠ ';' := by
    intro d c hc
    unfold NaiveDate.toStr yearStr at hc
    simp only [List.mem_append] at hc
    rcases hc with (hc | hc) | hc
    · split at hc
      · exact h4 _ c hc
      · simp only [List.mem_cons] at hc
        rcases hc with hc | hc
        · subst hc; split <;> decide
        · split at hc
          · exact h4 _ c hc
          · exact hn _ c hc
    · exact h2 _ c hc
    · exact h2 _ c hc
  have ht : ∀ t : NaiveDateTime, ∀ c ∈ t.toStr, c ≠ ';' := by
    intro t c hc
    unfold NaiveDateTime.toStr timeStr at hc
    simp only [List.mem_append, List.mem_cons] at hc
    rcases hc with hc | hc | ((hc | hc) | hc)
    · exact hd _ c hc
    · subst hc; decide
    · exact h2 _ c hc
    · exact h2 _ c hc
    · exact h2 _ c hc
  intro c hc
  cases d with
  | date d => exact hd d c hc
  | dateTime t =>
    cases t with
    | naive t => exact ht t c hc
    | loc u =>
      simp only [Date.toStr, DateTime.toStr, List.mem_append, List.mem_singleton] at hc
      rcases hc with hc | rfl
      · exact ht _ c hc
      · decide

theorem date_ne (d : Date) : d.toStr ≠ [] := by
  cases d with
  | date d => simp [Date.toStr, NaiveDate.toStr, pad2]
  | dateTime t => cases t <;> simp [Date.toStr, DateTime.toStr, NaiveDateTime.toStr]

/-- The texts of the items of a rule, empty for those that are not written. -/
def ruleItems (r : Recur) : List (Str × Str) :=
  [(c!"FREQ", r.freq.toStr), (c!"UNTIL", (r.until_.map Date.toStr).getD []), (c!"COUNT", (r.count.map natStr).getD []),
   (c!"INTERVAL", natStr r.interval), (c!"BYSECOND", join [','] (r.bySecond.map intStr)), (c!"BYMINUTE", join [','] (r.byMinute.map intStr)),
   (c!"BYHOUR", join [','] (r.byHour.map intStr)), (c!"BYDAY", join [','] (r.byDay.map WeekdayNum.toStr)),
   (c!"BYMONTHDAY", join [','] (r.byMonthday.map intStr)), (c!"BYYEARDAY", join [','] (r.byYearday.map intStr)),
   (c!"BYWEEKNO", join [','] (r.byWeekno.map intStr)), (c!"BYMONTH", join [','] (r.byMonth.map intStr)),
   (c!"BYSETPOS", join [','] (r.bySetpos.map intStr)), (c!"WKST", (r.wkst.map Weekday.toStr).getD [])]

theorem rule_ical (r : Recur) : Ser.ical r = .ok (((ruleItems r).filter fun p => !p.2.isEmpty).flatMap itemText).dropLast := by
  have hi : ∀ l : List Int, Ser.ical l = .ok (join [','] (l.map intStr)) := ical_list fun _ => rfl
  have hw : ∀ l : List WeekdayNum, Ser.ical l = .ok (join [','] (l.map WeekdayNum.toStr)) := ical_list fun _ => rfl
  have hu : Ser.ical r.until_ = .ok ((r.until_.map Date.toStr).getD []) := by cases r.until_ <;> rfl
  have hc : Ser.ical r.count = .ok ((r.count.map natStr).getD []) := by cases r.count <;> rfl
  have hk : Ser.ical r.wkst = .ok ((r.wkst.map Weekday.toStr).getD []) := by cases r.wkst <;> rfl
  have e1 := recurItem_eq (name := c!"FREQ") (v := r.freq) rfl
  have e2 := recurItem_eq (name := c!"INTERVAL") (v := r.interval) rfl
  show (do
    let a ← recurItem c!"FREQ" r.freq
    let b ← recurItem c!"UNTIL" r.until_
    let c ← recurItem c!"COUNT" r.count
    let d ← recurItem c!"INTERVAL" r.interval
    let e ← recurItem c!"BYSECOND" r.bySecond
    let f ← recurItem c!"BYMINUTE" r.byMinute
    let g ← recurItem c!"BYHOUR" r.byHour
    let h ← recurItem c!"BYDAY" r.byDay
    let i ← recurItem c!"BYMONTHDAY" r.byMonthday
    let j ← recurItem c!"BYYEARDAY" r.byYearday
    let k ← recurItem c!"BYWEEKNO" r.byWeekno
    let l ← recurItem c!"BYMONTH" r.byMonth
    let m ← recurItem c!"BYSETPOS" r.bySetpos
    let n ← recurItem c!"WKST" r.wkst
    pure (a ++ b ++ c ++ d ++ e ++ f ++ g ++ h ++ i ++ j ++ k ++ l ++ m ++ n).dropLast : Res Str) = _
  rw [e1, e2, recurItem_eq hu, recurItem_eq hc, recurItem_eq (hi r.bySecond), recurItem_eq (hi r.byMinute), recurItem_eq (hi r.byHour),
    recurItem_eq (hw r.byDay), recurItem_eq (hi r.byMonthday), recurItem_eq (hi r.byYearday), recurItem_eq (hi r.byWeekno),
    recurItem_eq (hi r.byMonth), recurItem_eq (hi r.bySetpos), recurItem_eq hk]
  simp only [Res.bind_ok, Res.pure_eq]
  unfold ruleItems
  simp only [← List.flatMap_append, ← List.filter_append, List.cons_append, List.nil_append]

theorem freq_ne (f : Freq) : f.toStr ≠ [] := by cases f <;> simp [Freq.toStr]
theorem weekday_ne (w : Weekday) : w.toStr ≠ [] := by cases w <;> simp [Weekday.toStr]

theorem intList_chars (l : List Int) : ';' ∉ join [','] (l.map intStr) := by
  intro hc
  rcases mem_join hc with h | ⟨s, hs, hc⟩
  · simp at h
  · rw [List.mem_map] at hs
    obtain ⟨n, _, rfl⟩ := hs
    rcases intStr_chars n _ hc with h | h
    · simp at h
    · simp at h

theorem ruleNames_ok : ∀ n ∈ ruleNames, IsName n := by unfold IsName NameChar; decide

/-- **C29**: every rule whose numbers fit and whose `UNTIL` is a plain date is written as a text that is read back to it. -/
theorem C29_round_trip (r : Recur) (h : PlainRule r) : ∃ s, Ser.ical r = .ok s ∧ (∀ l : ContentLine, l.value = s → rrule l = .ok r) ∧ Recur.ofStr s = .ok r := by
  refine ⟨_, rule_ical r, ?_⟩
  have key : ∀ l : ContentLine, l.value = (((ruleItems r).filter fun p => !p.2.isEmpty).flatMap itemText).dropLast → rrule l = .ok r := by
    intro l hl
    rw [rule_reads]
    refine ⟨(ruleItems r).filter fun p => !p.2.isEmpty, ?_, ?_, ?_⟩
    · have : (c!"FREQ", r.freq.toStr) ∈ (ruleItems r).filter fun p => !p.2.isEmpty := by
        rw [List.mem_filter]; refine ⟨by simp [ruleItems], by simpa using freq_ne _⟩
      exact List.ne_nil_of_mem this
    · rw [hl]
      refine ruleText_items ?_ ?_
      · have : (c!"FREQ", r.freq.toStr) ∈ (ruleItems r).filter fun p => !p.2.isEmpty := by
          rw [List.mem_filter]; refine ⟨by simp [ruleItems], by simpa using freq_ne _⟩
        exact List.ne_nil_of_mem this
      · intro p hp
        have hp := (List.mem_filter.1 hp).1
        simp only [ruleItems, List.mem_cons, List.not_mem_nil, or_false] at hp
        have hn : ∀ n, ';' ∉ natStr n := by intro n hc; have := natStr_digits _ _ hc; simp at this
        rcases hp with rfl | rfl | rfl | rfl | rfl | rfl | rfl | rfl | rfl | rfl | rfl | rfl | rfl | rfl
        · refine ⟨ruleNames_ok _ (by simp [ruleNames]), ?_⟩; cases r.freq <;> simp [Freq.toStr]
        · refine ⟨ruleNames_ok _ (by simp [ruleNames]), ?_⟩
          cases r.until_ with
          | none => simp
          | some d => exact fun hc => date_chars d _ hc rfl
        · refine ⟨ruleNames_ok _ (by simp [ruleNames]), ?_⟩
          cases r.count with
          | none => simp
          | some n => exact hn n
        · exact ⟨ruleNames_ok _ (by simp [ruleNames]), hn _⟩
        · exact ⟨ruleNames_ok _ (by simp [ruleNames]), intList_chars _⟩
        · exact ⟨ruleNames_ok _ (by simp [ruleNames]), intList_chars _⟩
        · exact ⟨ruleNames_ok _ (by simp [ruleNames]), intList_chars _⟩
        · refine ⟨ruleNames_ok _ (by simp [ruleNames]), ?_⟩
          intro hc
          rcases mem_join hc with h | ⟨s, hs, hc⟩
          · simp at h
          · rw [List.mem_map] at hs
            obtain ⟨w, _, rfl⟩ := hs
            exact (weekdayNum_chars w _ hc).2 rfl
        · exact ⟨ruleNames_ok _ (by simp [ruleNames]), intList_chars _⟩
        · exact ⟨ruleNames_ok _ (by simp [ruleNames]), intList_chars _⟩
        · exact ⟨ruleNames_ok _ (by simp [ruleNames]), intList_chars _⟩
        · exact ⟨ruleNames_ok _ (by simp [ruleNames]), intList_chars _⟩
        · exact ⟨ruleNames_ok _ (by simp [ruleNames]), intList_chars _⟩
        · refine ⟨ruleNames_ok _ (by simp [ruleNames]), ?_⟩
          cases r.wkst with
          | none => simp
          | some w => cases w <;> simp [Weekday.toStr]
    · have hd : (ruleItems r).Pairwise fun p q => p.1 ≠ q.1 := by
        have : ((ruleItems r).map Prod.fst).Pairwise (· ≠ ·) := by
          rw [show (ruleItems r).map Prod.fst = ruleNames from rfl]; decide
        exact List.pairwise_map.1 this
      have lv : ∀ {n v : Str}, (n, v) ∈ ruleItems r → lastValue ((ruleItems r).filter fun p => !p.2.isEmpty) n = if v.isEmpty then none else some v :=
        fun hm => lastValue_distinct hd hm
      have hints : ∀ {n : Str} {l : List Int}, All8 l → (n, join [','] (l.map intStr)) ∈ ruleItems r →
          ItemOr (ListOf Signed8) [] (lastValue ((ruleItems r).filter fun p => !p.2.isEmpty) n) l := by
        intro n l ha hm
        rw [lv hm]
        refine itemOr_list (fun n hn => ⟨isSigned_intStr n, ha n hn⟩) ?_ (fun n _ => intStr_ne n)
        intro n _ hc
        rcases intStr_chars n _ hc with h | h <;> simp at h
      refine ⟨?_, ?_, ?_, ?_, hints h.bySecond (by simp [ruleItems]), hints h.byMinute (by simp [ruleItems]), hints h.byHour (by simp [ruleItems]), ?_,
        hints h.byMonthday (by simp [ruleItems]), hints h.byYearday (by simp [ruleItems]), hints h.byWeekno (by simp [ruleItems]),
        hints h.byMonth (by simp [ruleItems]), hints h.bySetpos (by simp [ruleItems]), ?_⟩
      · rw [lv (v := r.freq.toStr) (by simp [ruleItems]), if_neg (by simpa using freq_ne _)]
        cases r.freq <;> rfl
      · rw [lv (v := (r.until_.map Date.toStr).getD []) (by simp [ruleItems])]
        cases hu : r.until_ with
        | none => simp [ItemOpt]
        | some d =>
          rw [if_neg (by simpa using date_ne d)]
          exact date_plain (h.until_ d hu)
      · rw [lv (v := (r.count.map natStr).getD []) (by simp [ruleItems])]
        cases hu : r.count with
        | none => simp [ItemOpt]
        | some n =>
          rw [if_neg (by simpa using natStr_ne n)]
          exact ⟨isUnsigned_natStr n, h.count n hu⟩
      · rw [lv (v := natStr r.interval) (by simp [ruleItems]), if_neg (by simpa using natStr_ne _)]
        exact ⟨isUnsigned_natStr _, h.interval⟩
      · rw [lv (v := join [','] (r.byDay.map WeekdayNum.toStr)) (by simp [ruleItems])]
        exact itemOr_list (fun w hw => C28_round_trip w (h.byDay w hw)) (fun w _ hc => (weekdayNum_chars w _ hc).1 rfl) (fun w _ => weekdayNum_ne w)
      · rw [lv (v := (r.wkst.map Weekday.toStr).getD []) (by simp [ruleItems])]
        cases hu : r.wkst with
        | none => simp [ItemOpt]
        | some w =>
          rw [if_neg (by simpa using weekday_ne w)]
          exact ⟨[], by cases w <;> rfl⟩
  exact ⟨key, key _ rfl⟩

end

section
attribute [local instance] utc

/-- A rule with an end, an interval, and `BY` lists. -/
def sampleRule : Recur :=
  ⟨.monthly, some (.date ⟨2024, 2, 29⟩), none, 2, [], [], [], [⟨.friday, some (-1)⟩, ⟨.monday, none⟩], [], [], [], [], [-1, 2], some .sunday⟩

theorem sampleRule_plain : PlainRule sampleRule where
  until_ := by
    intro d h; simp [sampleRule] at h; subst h
    exact ⟨⟨by decide, by decide⟩, (valid_iff _).1 (by decide : NaiveDate.Valid ⟨2024, 2, 29⟩) |>.2⟩
  count := by simp [sampleRule, Recur.default]
  interval := by decide
  bySecond := by simp [sampleRule, Recur.default, All8]
  byMinute := by simp [sampleRule, Recur.default, All8]
  byHour := by simp [sampleRule, Recur.default, All8]
  byDay := by simp [sampleRule]
  byMonthday := by simp [sampleRule, Recur.default, All8]
  byYearday := by simp [sampleRule, Recur.default, All8]
  byWeekno := by simp [sampleRule, Recur.default, All8]
  byMonth := by simp [sampleRule, Recur.default, All8]
  bySetpos := by simp [sampleRule, All8]
example : Ser.ical sampleRule = .ok c!"FREQ=MONTHLY;UNTIL=20240229;INTERVAL=2;BYDAY=-1FR,MO;BYSETPOS=-1,2;WKST=SU" := by decide +kernel

example : RuleText c!"FREQ=DAILY;X=1;FREQ=WEEKLY" [(c!"FREQ", c!"DAILY"), (c!"X", c!"1"), (c!"FREQ", c!"WEEKLY")] :=
  .more (k := c!"FREQ") (v := c!"DAILY") (s := c!"X=1;FREQ=WEEKLY") (by unfold IsName NameChar; decide) (by decide)
    (.more (k := c!"X") (v := c!"1") (s := c!"FREQ=WEEKLY") (by unfold IsName NameChar; decide) (by decide)
      (.last (k := c!"FREQ") (v := c!"WEEKLY") (by unfold IsName NameChar; decide) (by decide)))
example : RuleText c!"INTERVAL=2" [(c!"INTERVAL", c!"2")] := .last (k := c!"INTERVAL") (v := c!"2") (by unfold IsName NameChar; decide) (by decide)
end

end Ikal
