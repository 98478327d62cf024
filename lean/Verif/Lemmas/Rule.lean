import Verif.Spec.Rule
import Verif.Lemmas.Nom
import Verif.Lemmas.Line
import Verif.Lemmas.SMap
import Verif.Lemmas.Num
import Verif.Lemmas.Duration
import Verif.Lemmas.Text

/-! # Recurrence rules: items -/

namespace Ikal

open Nom Spec

/-- As `RuleMeans` of the specification, with the model's readers of dates and days of the week: the last value of each name counts, `INTERVAL` is 1 by default. -/
structure RuleReads [Platform] (items : List (Str × Str)) (r : Recur) : Prop where
  freq : lastValue items c!"FREQ" = some (freqName r.freq)
  until_ : ItemOpt (fun s d => dateProp (ContentLine.ofValue s) = .ok d) (lastValue items c!"UNTIL") r.until_
  count : ItemOpt Unsigned8 (lastValue items c!"COUNT") r.count
  interval : ItemOr Unsigned8 1 (lastValue items c!"INTERVAL") r.interval
  bySecond : ItemOr (ListOf Signed8) [] (lastValue items c!"BYSECOND") r.bySecond
  byMinute : ItemOr (ListOf Signed8) [] (lastValue items c!"BYMINUTE") r.byMinute
  byHour : ItemOr (ListOf Signed8) [] (lastValue items c!"BYHOUR") r.byHour
  byDay : ItemOr (ListOf fun s w => WeekdayNum.ofStr s = .ok w) [] (lastValue items c!"BYDAY") r.byDay
  byMonthday : ItemOr (ListOf Signed8) [] (lastValue items c!"BYMONTHDAY") r.byMonthday
  byYearday : ItemOr (ListOf Signed8) [] (lastValue items c!"BYYEARDAY") r.byYearday
  byWeekno : ItemOr (ListOf Signed8) [] (lastValue items c!"BYWEEKNO") r.byWeekno
  byMonth : ItemOr (ListOf Signed8) [] (lastValue items c!"BYMONTH") r.byMonth
  bySetpos : ItemOr (ListOf Signed8) [] (lastValue items c!"BYSETPOS") r.bySetpos
  wkst : ItemOpt (fun s w => ∃ rest, s = weekdayName w ++ rest) (lastValue items c!"WKST") r.wkst

/-- Splitting a joined list gives the list. -/
theorem splitOn_join {sep : Char} {l : List Str} (hn : l ≠ []) (h : ∀ s ∈ l, sep ∉ s) : splitOn sep (join [sep] l) = l := by
  induction l with
  | nil => exact absurd rfl hn
  | cons a l ih =>
    cases l with
    | nil => exact splitOn_none (h a (by simp))
    | cons b l =>
      rw [join, List.append_assoc, List.singleton_append, splitOn_append (h a (by simp)), ih (by simp) fun s hs => h s (by simp [hs])]

theorem nameChar_eq : ¬ NameChar '=' := by unfold NameChar; decide

theorem rruleItem_ok {i r : Str} {k v : Str} : rruleItem i = .ok r (k, v) ↔
    IsName k ∧ ';' ∉ v ∧ (i = k ++ '=' :: v ++ ';' :: r ∨ i = k ++ '=' :: v ∧ r = []) := by
  unfold rruleItem
  simp only [terminated_ok, separatedPair_ok, key_ok, char_ok, takeTill_ok, opt_ok]
  constructor
  · rintro ⟨r1, o, ⟨r2, r3, c, ⟨rfl, hk, _⟩, ⟨rfl, rfl⟩, rfl, hv, hr⟩, ho⟩
    have hv' : ';' ∉ v := fun hc => by have := hv _ hc; simp at this
    rcases ho with ⟨x, rfl, rfl, rfl⟩ | ⟨rfl, rfl, he⟩
    · exact ⟨hk, hv', .inl (by simp)⟩
    · cases r with
      | nil => exact ⟨hk, hv', .inr ⟨by simp, rfl⟩⟩
      | cons c r =>
        have := hr c rfl
        simp at this
        subst this
        rw [char_err] at he
        simp at he
  · rintro ⟨hk, hv, rfl | ⟨rfl, rfl⟩⟩
    · refine ⟨';' :: r, some ';', ⟨'=' :: v ++ ';' :: r, v ++ ';' :: r, '=', ⟨by simp, hk, ?_⟩, ⟨rfl, rfl⟩, rfl, ?_, ?_⟩, .inl ⟨_, rfl, rfl, rfl⟩⟩
      · intro c hc; simp at hc; subst hc; exact nameChar_eq
      · intro c hc; simp; rintro rfl; exact hv hc
      · intro c hc; simp at hc; subst hc; simp
    · refine ⟨[], none, ⟨'=' :: v, v, '=', ⟨rfl, hk, ?_⟩, ⟨rfl, rfl⟩, by simp, ?_, ?_⟩, .inr ⟨rfl, rfl, char_err.2 (by simp)⟩⟩
      · intro c hc; simp at hc; subst hc; exact nameChar_eq
      · intro c hc; simp; rintro rfl; exact hv hc
      · intro c hc; simp at hc

theorem rruleItem_panic {i : Str} : rruleItem i ≠ .panic := by
  unfold rruleItem terminated separatedPair preceded
  simp [Nom.map_panic, pair_panic, key]

theorem rruleItem_err {i : Str} : rruleItem i = .err ↔ ∀ k r, IsName k → i ≠ k ++ '=' :: r := by
  constructor
  · rintro h k r hk rfl
    have hs := List.takeWhile_append_dropWhile (p := fun c => decide (c ≠ ';')) (l := r)
    have hv : ';' ∉ r.takeWhile (fun c => decide (c ≠ ';')) := by
      intro hc
      have := List.all_eq_true.1 (List.all_takeWhile (p := fun c : Char => decide (c ≠ ';')) (l := r)) _ hc
      simp at this
    cases hd : r.dropWhile (fun c => decide (c ≠ ';')) with
    | nil =>
      have : rruleItem (k ++ '=' :: r) = .ok [] (k, r) := by
        rw [hd, List.append_nil] at hs
        rw [hs] at hv
        exact rruleItem_ok.2 ⟨hk, hv, .inr ⟨rfl, rfl⟩⟩
      rw [h] at this; simp at this
    | cons c d =>
      have hc : c = ';' := by
        have := (takeWhile_ok (p := fun c => decide (c ≠ ';')) (i := r)).1 (by unfold takeWhile; rfl)
        have := this.2.2 c (by rw [hd]; rfl)
        simpa using this
      subst hc
      have : rruleItem (k ++ '=' :: r) = .ok d (k, r.takeWhile (fun c => decide (c ≠ ';'))) := by
        refine rruleItem_ok.2 ⟨hk, hv, .inl ?_⟩
        rw [hd] at hs
        rw [List.append_assoc, List.cons_append, hs]
      rw [h] at this; simp at this
  · intro h
    cases hi : rruleItem i with
    | err => rfl
    | panic => exact absurd hi rruleItem_panic
    | ok r a =>
      obtain ⟨k, v⟩ := a
      obtain ⟨hk, _, he | ⟨he, _⟩⟩ := rruleItem_ok.1 hi
      · exact absurd (by rw [he]; simp) (h k (v ++ ';' :: r) hk)
      · exact absurd he (h k v hk)

theorem no_item_nil (k r : Str) : ([] : Str) ≠ k ++ '=' :: r := by simp

theorem many_ruleText {i r : Str} {as : List (Str × Str)} (h : Many rruleItem i as r) : RuleText i as := by
  induction h with
  | nil h => exact .stop (rruleItem_err.1 h)
  | @cons i r r' a as h hl hm ih =>
    obtain ⟨k, v⟩ := a
    obtain ⟨hk, hv, rfl | ⟨rfl, rfl⟩⟩ := rruleItem_ok.1 h
    · exact .more hk hv ih
    · cases hm with
      | nil _ => exact .last hk hv
      | cons h' =>
        rw [rruleItem_err.2 (fun k r _ => no_item_nil k r)] at h'; simp at h'

theorem ruleText_many {i : Str} {as : List (Str × Str)} (h : RuleText i as) : ∃ r, Many rruleItem i as r := by
  induction h with
  | stop h => exact ⟨_, .nil (rruleItem_err.2 h)⟩
  | @more k v s items hk hv _ ih =>
    obtain ⟨r, hr⟩ := ih
    exact ⟨r, .cons (rruleItem_ok.2 ⟨hk, hv, .inl rfl⟩) (by simp; omega) hr⟩
  | last hk hv =>
    exact ⟨[], .cons (rruleItem_ok.2 ⟨hk, hv, .inr ⟨rfl, rfl⟩⟩) (by simp; omega) (.nil (rruleItem_err.2 fun k r _ => no_item_nil k r))⟩

theorem rruleItem_shorter {i r : Str} {a : Str × Str} (h : rruleItem i = .ok r a) : r.length < i.length := by
  obtain ⟨k, v⟩ := a
  obtain ⟨_, _, rfl | ⟨rfl, rfl⟩⟩ := rruleItem_ok.1 h <;> simp <;> omega

/-- Every text has exactly one list of items. -/
theorem ruleText_exists (s : Str) : ∃ items, RuleText s items := by
  cases h : many0 rruleItem s with
  | ok r as => exact ⟨as, many_ruleText (many0_ok.1 h)⟩
  | err => exact absurd h (many0_not_err (fun _ _ _ => rruleItem_shorter) s)
  | panic => exact absurd h (many0_not_panic (fun _ => rruleItem_panic) s)

theorem ruleText_unique {s : Str} {a b : List (Str × Str)} (ha : RuleText s a) (hb : RuleText s b) : a = b := by
  obtain ⟨_, h1⟩ := ruleText_many ha
  obtain ⟨_, h2⟩ := ruleText_many hb
  exact (Many.det h1 h2).1

theorem many1_ruleText {s : Str} {items : List (Str × Str)} (h : RuleText s items) :
    (items = [] → many1 rruleItem s = .err) ∧ (items ≠ [] → ∃ r, many1 rruleItem s = .ok r items) := by
  obtain ⟨r, hm⟩ := ruleText_many h
  cases hm with
  | nil hi => refine ⟨fun _ => ?_, fun h => absurd rfl h⟩; unfold many1; rw [hi]
  | cons hi hl hm =>
    refine ⟨fun e => by simp at e, fun _ => ?_⟩
    unfold many1
    rw [hi]
    simp only
    rw [many0_ok.2 hm]
    exact ⟨_, rfl⟩

end Ikal
