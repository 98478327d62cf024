import Verif.Lemmas.Size
import Verif.Spec.Size
import Verif.Lemmas.DateTime
import Verif.Lemmas.Calendar
import Verif.Lemmas.Format
import Verif.Lemmas.Rule

/-! # How long the values that were read are written -/

namespace Ikal

open Nom Spec

set_option linter.unusedSectionVars false

namespace Size

/-! ## Values of bounded length -/

theorem year_length {y : Int} (h : -999999 ≤ y ∧ y ≤ 999999) : (yearStr y).length ≤ 7 := by
  unfold yearStr
  split
  · simp [pad4]
  · have := natStr_length (n := y.natAbs) (w := 6) (by omega) (by omega)
    dsimp only
    rw [List.length_cons]
    split
    · simp [pad4]
    · omega

theorem date_length {d : NaiveDate} (h : -999999 ≤ d.year ∧ d.year ≤ 999999) : d.toStr.length ≤ 11 := by
  have := year_length h
  simp [NaiveDate.toStr, pad2]; omega

theorem time_length {t : NaiveDateTime} (h : -999999 ≤ t.date.year ∧ t.date.year ≤ 999999) : t.toStr.length ≤ 18 := by
  have := date_length h
  simp [NaiveDateTime.toStr, timeStr, pad2]; omega

theorem valid_year {d : NaiveDate} (h : d.Valid) : -999999 ≤ d.year ∧ d.year ≤ 999999 := by
  have h1 := h.1
  have h2 := h.2.1
  simp [minYear, maxYear] at h1 h2
  omega

theorem delta_length {d : TimeDelta} (h : d.Valid) : d.toStr.length ≤ 40 := by
  unfold TimeDelta.toStr
  have h1 := h.1
  have h2 := h.2
  simp only [TimeDelta.maxNanos, i64Max] at h1 h2
  have h3 := natStr_length (n := d.nanos.natAbs / 1000000000) (w := 18) (by omega) (by omega)
  have h4 : (TimeDelta.fracDigits (d.nanos.natAbs % 1000000000)).length ≤ 9 := by
    unfold TimeDelta.fracDigits
    rw [List.length_reverse]
    exact Nat.le_trans (List.Sublist.length_le (List.dropWhile_sublist _)) (by simp)
  dsimp only
  split
  · simp
  · simp only [List.length_append]
    split <;> split <;> simp <;> omega

theorem mk_valid {n : Int} {d : TimeDelta} (h : TimeDelta.mk? n = some d) : d.Valid := by
  unfold TimeDelta.mk? at h
  split at h
  · simp at h; subst h; assumption
  · simp at h

theorem durSum_valid {neg : Bool} {w d : Int} {t : Option (Int × Int × Int)} {x : TimeDelta} (h : durSum neg w d t = some x) : x.Valid := by
  unfold durSum at h
  have key : ∃ b : TimeDelta, b.Valid ∧ x = if neg then b.neg else b := by
    cases t with
    | none =>
      simp only [Option.bind_eq_bind, Option.bind_eq_some_iff, pure, Option.some.injEq] at h
      obtain ⟨_, -, _, -, a, ha, b, rfl, h⟩ := h
      exact ⟨_, mk_valid ha, h.symm⟩
    | some t =>
      simp only [Option.bind_eq_bind, Option.bind_eq_some_iff, pure, Option.some.injEq] at h
      obtain ⟨_, -, _, -, _, -, _, -, _, -, _, -, _, -, _, -, b, hb, h⟩ := h
      exact ⟨_, mk_valid hb, h.symm⟩
  obtain ⟨b, hv, rfl⟩ := key
  split
  · have := hv.1; have := hv.2
    constructor <;> simp [TimeDelta.neg] <;> omega
  · exact hv

theorem durationP_valid {i r : Str} {x : TimeDelta} (h : durationP i = .ok r x) : x.Valid := by
  unfold durationP at h
  simp only [mapRes_ok] at h
  obtain ⟨⟨a, b, c, d⟩, -, h⟩ := h
  unfold Res.unwrap at h
  split at h
  · rename_i y hy; simp at h; subst h; exact durSum_valid hy
  · simp at h

section
variable [Platform]

theorem local_year {K : Nat} (hK : Modest K) {u : NaiveDateTime} (h : u.date.Valid) (hs : u.secs < 86400) :
    -999999 ≤ (localOf u).date.year ∧ (localOf u).date.year ≤ 999999 := by
  have hok : u.date.Ok := h.2.2
  have hy := h.1
  have hy' := h.2.1
  simp [minYear, maxYear] at hy hy'
  have hz := hK.zone u.toSecs
  have e : (localOf u).date.year = NaiveDate.yearOfDays ((u.toSecs + Platform.tzOffset u.toSecs) / 86400) := rfl
  rw [e]
  have e2 : NaiveDate.yearOfDays u.date.toDays = u.date.year := congrArg NaiveDate.year (NaiveDate.ofDays_toDays hok)
  have h1 := NaiveDate.yearOfDays_spec u.date.toDays
  rw [e2] at h1
  have h2 := NaiveDate.yearOfDays_spec ((u.toSecs + Platform.tzOffset u.toSecs) / 86400)
  generalize hn : (u.toSecs + Platform.tzOffset u.toSecs) / 86400 = n at h2 ⊢
  have h3 : u.date.toDays - 1 ≤ n ∧ n ≤ u.date.toDays + 1 := by
    unfold NaiveDateTime.toSecs at *
    omega
  generalize NaiveDate.yearOfDays n = y at h2 ⊢
  constructor
  · refine Classical.byContradiction fun hc => ?_
    have := NaiveDate.daysBeforeYear_mono (a := y + 1) (b := u.date.year) (by omega)
    omega
  · refine Classical.byContradiction fun hc => ?_
    have := NaiveDate.daysBeforeYear_mono (a := u.date.year + 1) (b := y) (by omega)
    omega

theorem dateTime_length {K : Nat} (hK : Modest K) {i r : Str} {t : DateTime} (h : dateTime i = .ok r t) : t.toStr.length ≤ 19 := by
  unfold dateTime at h
  split at h
  · rename_i u hu
    obtain ⟨h1, h2, h3⟩ := parseNaiveDateTime_valid hu
    split at h
    · simp at h
      rw [← h.2]
      have := time_length (local_year hK h1 h2)
      simp [DateTime.toStr]; omega
    · simp at h
      rw [← h.2]
      have := time_length (valid_year h1)
      simp [DateTime.toStr]; omega
  · simp at h

theorem dateOrDt_length {K : Nat} (hK : Modest K) {i r : Str} {t : Date} (h : dateOrDt i = .ok r t) : t.toStr.length ≤ 19 := by
  unfold dateOrDt at h
  rw [alt_ok] at h
  simp only [map_ok] at h
  rcases h with ⟨d, h, rfl⟩ | ⟨-, d, h, rfl⟩
  · unfold date at h
    split at h
    · rename_i e he
      simp at h
      rw [← h.2]
      have := date_length (valid_year (parseNaiveDate_valid he))
      simp [Date.toStr]; omega
    · simp at h
  · exact dateTime_length hK h

theorem toRes_ok {α : Type} {x : NRes α} {a : α} : x.toRes = .ok a ↔ ∃ r, x = .ok r a := by
  cases x <;> simp [NRes.toRes]

theorem ofOption_ok {α : Type} {e : Error} {x : Option α} {a : α} : Res.ofOption e x = .ok a ↔ x = some a := by
  cases x <;> simp [Res.ofOption]

theorem small_of {α : Type} [Ser α] {v : α} {s : Str} {n : Nat} (h : Ser.ical v = .ok s) (ha : Ser.attr v = none) (hs : s.length ≤ n) : Small v n :=
  ⟨fun t ht => by rw [h] at ht; simp at ht; subst ht; exact hs, fun a h => by rw [ha] at h; simp at h⟩

theorem small_of' {α : Type} [Ser α] {v : α} {s a : Str} {n : Nat} (h : Ser.ical v = .ok s) (ha : Ser.attr v = some a) (hs : s.length ≤ n)
    (hn : a.length ≤ n) : Small v n :=
  ⟨fun t ht => by rw [h] at ht; simp at ht; subst ht; exact hs, fun b h => by rw [ha] at h; simp at h; subst h; exact hn⟩

theorem lin_const {α : Type} [s : Ser α] {p : ContentLine → Res α} {A n : Nat} (h : ∀ l v, p l = .ok v → Small v n) (hn : n ≤ A) : Lin s A p :=
  fun l v hv => (h l v hv).mono (Nat.le_trans hn (by have := lineW_pos l; exact Nat.le_mul_of_pos_right A (by omega)))

theorem small_dateTime {K : Nat} (hK : Modest K) {i r : Str} {t : DateTime} (h : dateTime i = .ok r t) : Small t 40 :=
  small_of (s := t.toStr) rfl rfl (by have := dateTime_length hK h; omega)

theorem small_date {K : Nat} (hK : Modest K) {i r : Str} {t : Date} (h : dateOrDt i = .ok r t) : Small t 40 := by
  have := dateOrDt_length hK h
  cases t with
  | date d => exact small_of' (s := (Date.date d).toStr) (a := c!"VALUE=DATE") rfl rfl (by omega) (by simp)
  | dateTime d => exact small_of (s := (Date.dateTime d).toStr) rfl rfl (by omega)

theorem lin_dateTime {K : Nat} (hK : Modest K) {A : Nat} (hA : 40 ≤ A) : Lin inferInstance A dateTimeProp :=
  lin_const (fun l v h => by obtain ⟨r, h⟩ := toRes_ok.1 h; exact small_dateTime hK h) hA

theorem lin_date {K : Nat} (hK : Modest K) {A : Nat} (hA : 40 ≤ A) : Lin inferInstance A dateProp :=
  lin_const (fun l v h => by obtain ⟨r, h⟩ := toRes_ok.1 h; exact small_date hK h) hA

theorem unsigned_le {hi : Nat} {s : Str} {n : Nat} (h : parseUnsigned hi s = some n) : n ≤ hi := by
  unfold parseUnsigned at h
  dsimp only at h
  split at h
  · split at h
    · simp at h; omega
    · simp at h
  · simp at h

theorem small_nat {n : Nat} (h : n ≤ 4294967295) : Small n 40 :=
  small_of (s := natStr n) rfl rfl (by have := natStr_length (n := n) (w := 10) (by omega) (by omega); omega)

theorem lin_u32 {A : Nat} (hA : 40 ≤ A) : Lin inferInstance A u32Prop :=
  lin_const (fun l v h => small_nat (by have := unsigned_le (ofOption_ok.1 h); simpa [u32Max] using this)) hA

theorem lin_percent {A : Nat} (hA : 40 ≤ A) : Lin inferInstance A percentComplete :=
  lin_const (fun l v h => small_nat (by have := unsigned_le (ofOption_ok.1 h); simp [u8Max] at this; omega)) hA

theorem lin_priority {A : Nat} (hA : 40 ≤ A) : Lin inferInstance A Ikal.priority :=
  lin_const (fun l v h => small_nat (by
    unfold Ikal.priority at h
    split at h
    · simp at h
    · split at h
      · simp at h
      · simp at h; omega)) hA

theorem lin_status {A : Nat} (hA : 40 ≤ A) : Lin inferInstance A Ikal.status :=
  lin_const (fun l v h => small_of (s := v.toStr) rfl rfl (by cases v <;> simp [Status.toStr])) hA

theorem lin_transp {A : Nat} (hA : 40 ≤ A) : Lin inferInstance A Ikal.transp :=
  lin_const (fun l v h => small_of (s := v.toStr) rfl rfl (by cases v <;> simp [TimeTransparency.toStr])) hA

theorem lin_offset {A : Nat} (hA : 40 ≤ A) : Lin inferInstance A offsetProp :=
  lin_const (fun l v h => small_of (s := v.toStr) rfl rfl (by
    unfold FixedOffset.toStr
    dsimp only
    split <;> simp [pad2])) hA

theorem small_delta {d : TimeDelta} (h : d.Valid) : Small d 40 := small_of (s := d.toStr) rfl rfl (delta_length h)

theorem lin_duration {A : Nat} (hA : 40 ≤ A) : Lin inferInstance A Ikal.duration :=
  lin_const (fun l v h => by obtain ⟨r, h⟩ := toRes_ok.1 h; exact small_delta (durationP_valid h)) hA

theorem lin_trigger {K : Nat} (hK : Modest K) {A : Nat} (hA : 40 ≤ A) : Lin inferInstance A Ikal.trigger :=
  lin_const (fun l v h => by
    obtain ⟨r, h'⟩ := toRes_ok.1 h
    clear h
    rw [alt_ok] at h'
    simp only [map_ok] at h'
    rcases h' with ⟨d, h, rfl⟩ | ⟨-, d, h, rfl⟩
    · exact small_of' (s := d.toStr) (a := c!"VALUE=DURATION") rfl rfl (delta_length (durationP_valid h)) (by simp)
    · exact small_of' (s := d.toStr) (a := c!"VALUE=DATE-TIME") rfl rfl (by have := dateTime_length hK h; omega) (by simp)) hA

/-! ## Texts -/

theorem lin_text {A : Nat} (hA : 40 ≤ A) : Lin inferInstance A textProp := fun l v h => by
  cases h
  have h1 := escape_length l.value
  have h2 : 40 * lineW l ≤ A * lineW l := Nat.mul_le_mul_right _ hA
  have h3 : 2 * l.value.length ≤ 40 * lineW l ∧ 2 * pairsW l.params ≤ 40 * lineW l := by unfold lineW; omega
  refine ⟨fun s hs => ?_, fun a ha => ?_⟩
  · cases hs
    show (escape l.value).length ≤ _
    omega
  · have := paramsAttr_length (m := l.params) ha
    omega

theorem lin_uri {A : Nat} (hA : 40 ≤ A) : Lin inferInstance A uriProp := fun l v h => by
  cases h
  have h1 := escape_length l.value
  have h2 : 40 * lineW l ≤ A * lineW l := Nat.mul_le_mul_right _ hA
  have h3 : 2 * l.value.length ≤ 40 * lineW l ∧ 2 * pairsW l.params ≤ 40 * lineW l := by unfold lineW; omega
  refine ⟨fun s hs => ?_, fun a ha => ?_⟩
  · cases hs
    show (escape l.value).length ≤ _
    omega
  · have := paramsAttr_length (m := l.params) ha
    omega

theorem split_sum (c : Char) (s : Str) : ((splitOn c s).map fun p => p.length + 1).sum = s.length + 1 := by
  induction s with
  | nil => simp [splitOn]
  | cons a s ih =>
    simp only [splitOn]
    split
    · simp [ih]; omega
    · split
      · rename_i h; exact absurd h (splitOn_ne _ _)
      · rename_i p ps h; rw [h] at ih; simp at ih ⊢; omega

theorem split_count (c : Char) (s : Str) : (splitOn c s).length ≤ s.length + 1 := by
  rw [← split_sum c s]
  generalize splitOn c s = l
  induction l with
  | nil => simp
  | cons a l ih => simp; omega

theorem smalls_texts (l : List Str) : Smalls (l.map Text.ofStr) (2 * (l.map fun p => p.length + 1).sum) := by
  induction l with
  | nil => trivial
  | cons a l ih =>
    refine ⟨2 * a.length, _, ?_, ih, ?_⟩
    · exact small_of (s := escape a) rfl rfl (escape_length a)
    · simp only [List.map_cons, List.sum_cons]; omega

theorem lins_text {A : Nat} (hA : 40 ≤ A) : Lins inferInstance A textListProp := fun l v h => by
  cases h
  refine (smalls_texts _).mono ?_
  rw [split_sum]
  have h2 : 40 * lineW l ≤ A * lineW l := Nat.mul_le_mul_right _ hA
  have h3 : 2 * (l.value.length + 1) ≤ 40 * lineW l := by unfold lineW; omega
  omega

theorem upper_length {K : Nat} (hK : Modest K) (s : Str) : (upperStr s).length ≤ (K + 1) * s.length := by
  unfold upperStr
  induction s with
  | nil => simp
  | cons c s ih =>
    have : (upperChar c).length ≤ K + 1 := by
      unfold upperChar
      split
      · simp
      · exact Nat.le_trans (hK.upper c) (by omega)
    simp only [List.flatMap_cons, List.length_append, List.length_cons, Nat.mul_add, Nat.mul_one]
    omega

theorem lin_class {K : Nat} (hK : Modest K) {A : Nat} (hA : K + 40 ≤ A) : Lin inferInstance A classProp := fun l v h => by
  have h2 : (K + 40) * lineW l ≤ A * lineW l := Nat.mul_le_mul_right _ hA
  have h3 : (K + 40) * 1 ≤ (K + 40) * lineW l := Nat.mul_le_mul_left _ (lineW_pos l)
  refine small_of (s := v.toStr) rfl rfl ?_
  cases v with
  | custom s =>
    have hs : s = l.value := by
      simp only [classProp, Class.ofStr] at h
      (repeat' split at h) <;> simp at h
      exact h.symm
    have h4 := upper_length hK s
    have h5 : (K + 1) * s.length ≤ (K + 40) * lineW l := Nat.mul_le_mul (by omega) (by subst hs; unfold lineW; omega)
    simp only [Class.toStr]; omega
  | _ => simp [Class.toStr]; omega

/-! ## Numbers with a fraction -/

theorem float_ok {i r : Str} {x : Platform.F32} (h : float i = .ok r x) : Platform.floatParse i = some (x, r) := by
  unfold float at h
  split at h
  · rename_i y r' he; simp at h; rw [he, h.1, h.2]
  · simp at h

theorem lin_geo {K : Nat} (hK : Modest K) {A : Nat} (hA : 2 * K + 40 ≤ A) : Lin inferInstance A Ikal.geo := fun l v h => by
  obtain ⟨r, h⟩ := toRes_ok.1 h
  simp only [map_ok, separatedPair_ok, char_ok] at h
  obtain ⟨⟨x, y⟩, ⟨r1, r2, c, h1, ⟨rfl, -⟩, h2⟩, rfl⟩ := h
  have h1 := float_ok h1
  have h2 := float_ok h2
  have e1 := hK.rest _ _ _ h1
  have e2 := hK.shown _ _ _ h1
  have e3 := hK.shown _ _ _ h2
  have e4 : K * r2.length ≤ K * l.value.length := Nat.mul_le_mul_left _ (by simp at e1; omega)
  have e5 : (2 * K + 40) * lineW l ≤ A * lineW l := Nat.mul_le_mul_right _ hA
  have e6 : K * l.value.length ≤ K * lineW l := Nat.mul_le_mul_left _ (by unfold lineW; omega)
  have := lineW_pos l
  refine small_of (s := Geo.toStr ⟨x, y⟩) rfl rfl ?_
  simp only [Geo.toStr, List.length_append, List.length_cons] at e2 e3 ⊢
  simp only [Nat.add_mul, Nat.mul_assoc] at e5
  omega

theorem lin_rstatus {K : Nat} (hK : Modest K) {A : Nat} (hA : 2 * K + 40 ≤ A) : Lin inferInstance A Ikal.rstatus := fun l v h => by
  obtain ⟨r, h⟩ := toRes_ok.1 h
  simp only [map_ok, pair_ok, char_ok, takeTill_ok] at h
  obtain ⟨⟨x, c, d, e⟩, ⟨r1, h1, r2, ⟨h3, -⟩, r3, ⟨h4, -, -⟩, h5⟩, rfl⟩ := h
  have h1 := float_ok h1
  have e1 := hK.rest _ _ _ h1
  have e2 : (Platform.floatShow1 x).length ≤ _ := hK.tenths _ _ _ h1
  have e5 : (2 * K + 40) * lineW l ≤ A * lineW l := Nat.mul_le_mul_right _ hA
  have e6 : K * l.value.length ≤ K * lineW l := Nat.mul_le_mul_left _ (by unfold lineW; omega)
  have e7 : l.value.length + 1 ≤ lineW l := by unfold lineW; omega
  have e8 : ∀ w, e = some w → d.length + w.length ≤ l.value.length := by
    rintro w rfl
    have : w.length ≤ r3.length := by
      unfold opt at h5
      split at h5 <;> simp at h5
      rename_i a r' hp
      simp only [preceded_ok, char_ok, takeWhile_ok] at hp
      obtain ⟨r4, c', ⟨rfl, -⟩, h6, -, -⟩ := hp
      rw [h5.2] at h6
      rw [h6]; simp; omega
    subst h3 h4
    simp at e1; omega
  have e9 : d.length ≤ l.value.length := by subst h3 h4; simp at e1; omega
  refine small_of rfl rfl ?_
  have h10 := escape_length d
  simp only [List.length_append, List.length_cons]
  simp only [Nat.add_mul, Nat.mul_assoc] at e5
  cases e with
  | none => simp; omega
  | some w => have := e8 w rfl; have := escape_length w; simp; omega

/-! ## Lists of dates and periods -/

theorem smalls_mapM {α β : Type} [Ser β] {f : α → Res β} {K : Nat} (hf : ∀ a b, f a = .ok b → Small b K) {l : List α} {vs : List β}
    (h : Res.mapM' f l = .ok vs) : Smalls vs ((K + 1) * l.length) ∧ vs.length = l.length := by
  induction l generalizing vs with
  | nil => simp [Res.mapM'] at h; subst h; exact ⟨trivial, rfl⟩
  | cons a l ih =>
    simp only [Res.mapM'] at h
    split at h <;> try simp at h
    rename_i b hb
    split at h <;> try simp at h
    rename_i bs hbs
    subst h
    obtain ⟨h1, h2⟩ := ih hbs
    exact ⟨⟨_, _, hf _ _ hb, h1, by simp only [List.length_cons, Nat.mul_add]; omega⟩, by simp [h2]⟩

theorem pieces_le (l : ContentLine) (c : Char) : (splitOn c l.value).length ≤ lineW l :=
  Nat.le_trans (split_count _ _) (by unfold lineW; omega)

theorem lins_exdate {K : Nat} (hK : Modest K) {A : Nat} (hA : 41 ≤ A) : Lins inferInstance A Ikal.exdate := fun l v h => by
  refine (smalls_mapM (K := 40) (fun s d hd => ?_) h).1.mono (Nat.mul_le_mul hA (pieces_le _ _))
  obtain ⟨r, hd⟩ := toRes_ok.1 hd
  exact small_date hK hd

theorem period_length {K : Nat} (hK : Modest K) {s : Str} {p : Period} (h : period s = .ok p) : p.toStr.length ≤ 60 := by
  unfold period at h
  simp only [Res.bind_eq_ok] at h
  obtain ⟨t, h1, h2⟩ := h
  obtain ⟨r, h1⟩ := toRes_ok.1 h1
  have e1 := dateTime_length hK h1
  split at h2
  · simp at h2
  · split at h2
    · simp only [Res.bind_eq_ok] at h2
      obtain ⟨d, h3, h4⟩ := h2
      obtain ⟨r, h3⟩ := toRes_ok.1 h3
      have e2 := delta_length (durationP_valid h3)
      cases h4
      simp [Period.toStr]; omega
    · simp only [Res.bind_eq_ok] at h2
      obtain ⟨d, h3, h4⟩ := h2
      obtain ⟨r, h3⟩ := toRes_ok.1 h3
      have e2 := dateTime_length hK h3
      cases h4
      simp [Period.toStr]; omega

theorem small_period {K : Nat} (hK : Modest K) {s : Str} {p : Period} (h : period s = .ok p) : Small p 60 :=
  small_of (s := p.toStr) rfl rfl (period_length hK h)

theorem lins_freebusy {K : Nat} (hK : Modest K) {A : Nat} (hA : 61 ≤ A) : Lins inferInstance A Ikal.freebusy := fun l v h =>
  (smalls_mapM (K := 60) (fun _ _ hd => small_period hK hd) h).1.mono (Nat.mul_le_mul hA (pieces_le _ _))

theorem join_of_smalls {α : Type} [Ser α] {f : α → Str} (hf : ∀ a, Ser.ical a = .ok (f a)) {l : List α} {n : Nat} (h : Smalls l n) :
    (join [','] (l.map f)).length ≤ n := by
  have e : Res.mapM' Ser.ical l = .ok (l.map f) := by
    clear h
    induction l with
    | nil => rfl
    | cons a l ih => simp [Res.mapM', hf, ih]
  exact Nat.le_trans (join_length _ _) (by simpa using h.texts e)

theorem lin_rdate {K : Nat} (hK : Modest K) {A : Nat} (hA : 80 ≤ A) : Lin inferInstance A Ikal.rdate := fun l v h => by
  have e5 : 80 * lineW l ≤ A * lineW l := Nat.mul_le_mul_right _ hA
  have e6 := pieces_le l ','
  have e7 := lineW_pos l
  refine small_of (s := v.toStr) rfl rfl ?_
  unfold Ikal.rdate at h
  split at h
  · obtain ⟨ps, h1, rfl⟩ := Res.map_ok_iff.1 h
    have := join_of_smalls (f := Period.toStr) (fun _ => rfl) (smalls_mapM (K := 60) (fun _ _ hd => small_period hK hd) h1).1
    simp only [RDate.toStr, List.length_append]; simp only [List.length_cons, List.length_nil]
    omega
  · obtain ⟨ps, h1, rfl⟩ := Res.map_ok_iff.1 h
    have := join_of_smalls (f := Date.toStr) (fun _ => rfl) (smalls_mapM (K := 40) (fun s d hd => by
      obtain ⟨r, hd⟩ := toRes_ok.1 hd
      exact small_date hK hd) h1).1
    simp only [RDate.toStr, List.length_append]; simp only [List.length_cons, List.length_nil]
    omega

/-! ## Recurrence rules -/

theorem items_length {i r : Str} {as : List (Str × Str)} (h : Many rruleItem i as r) : ∀ p ∈ as, p.2.length ≤ i.length := by
  induction h with
  | nil _ => simp
  | @cons i r r' a as h1 h2 _ ih =>
    intro p hp
    rcases List.mem_cons.1 hp with rfl | hp
    · obtain ⟨-, -, h3⟩ := rruleItem_ok.1 h1
      rcases h3 with h3 | ⟨h3, -⟩ <;> rw [h3] <;> simp <;> omega
    · have := ih p hp; omega

theorem optItem_ok {α : Type} {m : SMap Str} {n : Str} {f : Str → Res α} {v : Option α} (h : optItem m n f = .ok v) :
    v = none ∨ ∃ s a, SMap.get? m n = some s ∧ f s = .ok a ∧ v = some a := by
  unfold optItem at h
  split at h
  · rename_i s hs
    obtain ⟨a, h1, rfl⟩ := Res.map_ok_iff.1 h
    exact .inr ⟨s, a, hs, h1, rfl⟩
  · cases h; exact .inl rfl

theorem recurItem_length {α : Type} [Ser α] {name : Str} {v : α} {n : Nat} (h : Small v n) {t : Str} (ht : recurItem name v = .ok t) :
    t.length ≤ name.length + n + 2 := by
  obtain ⟨s, h1, rfl⟩ := Res.map_ok_iff.1 ht
  have := h.1 _ h1
  split <;> simp; omega

theorem small_int {n : Int} (h : -128 ≤ n ∧ n ≤ 127) : Small n 4 :=
  small_of (s := intStr n) rfl rfl (by
    have := natStr_length (n := n.natAbs) (w := 3) (by omega) (by omega)
    unfold intStr
    split <;> simp <;> omega)

theorem signed_le {lo hi : Int} {s : Str} {n : Int} (h : parseSigned lo hi s = some n) : lo ≤ n ∧ n ≤ hi := by
  unfold parseSigned at h
  dsimp only at h
  repeat' split at h
  all_goals first
    | (simp at h; done)
    | (rename_i hh; simp at h; subst h; simpa using hh)

theorem smalls_by {N : Nat} {s : Str} {l : List Int} (h : byList s = .ok l) (hs : s.length ≤ N) : Small l (40 * (N + 1)) := by
  refine ((smalls_mapM (K := 4) (fun a b hb => small_int (signed_le (ofOption_ok.1 hb))) h).1.mono ?_).small
  have := split_count ',' s
  omega

theorem nomI8_le {i r : Str} {n : Int} (h : nomI8 i = .ok r n) : -128 ≤ n ∧ n ≤ 127 := by
  have key : ∀ (neg : Bool) (s : Str) (v : Int), -128 ≤ v ∧ v ≤ 127 → ∀ w r, nomIntLoop (-128) 127 neg v s = some (w, r) → -128 ≤ w ∧ w ≤ 127 := by
    intro neg s
    induction s with
    | nil => intro v hv w r h; simp [nomIntLoop] at h; rw [← h.1]; exact hv
    | cons c s ih =>
      intro v hv w r h
      simp only [nomIntLoop] at h
      by_cases hd : c.isDigit = true
      · rw [if_pos hd] at h
        generalize (if neg = true then v * 10 - (digitVal c : Int) else v * 10 + digitVal c) = z at h
        by_cases h1 : -128 ≤ v * 10 ∧ v * 10 ≤ 127 ∧ -128 ≤ z ∧ z ≤ 127
        · rw [if_pos h1] at h; exact ih _ ⟨h1.2.2.1, h1.2.2.2⟩ _ _ h
        · rw [if_neg h1] at h; simp at h
      · rw [if_neg hd] at h; simp at h; rw [← h.1]; exact hv
  unfold nomI8 at h
  dsimp only at h
  split at h
  · simp at h
  · split at h
    · split at h
      · rename_i v r' hv
        simp at h
        rw [← h.2]
        exact key _ _ 0 (by omega) _ _ hv
      · simp at h
    · simp at h

theorem small_weekday (w : Weekday) : Small w 2 := small_of (s := w.toStr) rfl rfl (by cases w <;> simp [Weekday.toStr])

theorem small_weekdaynum {s : Str} {w : WeekdayNum} (h : WeekdayNum.ofStr s = .ok w) : Small w 8 := by
  obtain ⟨r, h⟩ := toRes_ok.1 h
  unfold weekdaynum at h
  simp only [map_ok, pair_ok] at h
  obtain ⟨⟨o, d⟩, ⟨r1, h1, h2⟩, rfl⟩ := h
  refine small_of (s := WeekdayNum.toStr ⟨d, o⟩) rfl rfl ?_
  have hd : d.toStr.length = 2 := by cases d <;> simp [Weekday.toStr]
  unfold WeekdayNum.toStr
  cases o with
  | none => simp [hd]
  | some n =>
    have hn : -128 ≤ n ∧ n ≤ 127 := by
      unfold opt at h1
      split at h1 <;> simp at h1
      rename_i a r' hp
      rw [h1.2] at hp
      exact nomI8_le hp
    have := (small_int hn).1 _ rfl
    simp [hd]; omega

theorem smalls_byday {N : Nat} {s : Str} {l : List WeekdayNum} (h : bywdaylist s = .ok l) (hs : s.length ≤ N) : Small l (40 * (N + 1)) := by
  refine ((smalls_mapM (K := 8) (fun a b hb => small_weekdaynum hb) h).1.mono ?_).small
  have := split_count ',' s
  omega

theorem small_opt {α : Type} [Ser α] {m : SMap Str} {n : Str} {f : Str → Res α} {v : Option α} {N : Nat} (h : optItem m n f = .ok v)
    (hf : ∀ s a, f s = .ok a → Small a N) : Small v N := by
  rcases optItem_ok h with rfl | ⟨s, a, -, h2, rfl⟩
  · exact small_none _
  · exact small_some (hf s a h2)

theorem small_byOpt {α : Type} [Ser α] {m : SMap Str} {n : Str} {f : Str → Res (List α)} {v : Option (List α)} {N : Nat} (h : optItem m n f = .ok v)
    (hm : ∀ s, SMap.get? m n = some s → s.length ≤ N) (hf : ∀ s a, f s = .ok a → s.length ≤ N → Small a (40 * (N + 1))) : Small (v.getD []) (40 * (N + 1)) := by
  rcases optItem_ok h with rfl | ⟨s, a, h1, h2, rfl⟩
  · exact Smalls.small (l := []) trivial
  · exact hf s a h2 (hm s h1)

theorem small_rule {K : Nat} (hK : Modest K) {items : List (Str × Str)} {N : Nat} (hi : ∀ p ∈ items, p.2.length ≤ N) {r : Recur}
    (h : recurOfItems items = .ok r) : Small r (1000 * (N + 1)) := by
  have hm : ∀ n s, SMap.get? (SMap.ofPairs items) n = some s → s.length ≤ N := by
    intro n s hs
    rw [SMap.get?_ofPairs] at hs
    obtain ⟨p, hp, rfl⟩ := Option.map_eq_some_iff.1 hs
    exact hi p (List.mem_filter.1 (List.mem_of_getLast? hp)).1
  unfold recurOfItems at h
  cases hq : SMap.get? (SMap.ofPairs items) c!"FREQ" with
  | none => simp [hq] at h
  | some q =>
  simp only [hq, Res.bind_eq_ok] at h
  obtain ⟨fr, -, un, hun, co, hco, iv, hiv, s1, h1, s2, h2, s3, h3, s4, h4, s5, h5, s6, h6, s7, h7, s8, h8, s9, h9, wk, hwk, h⟩ := h
  cases h
  have dUn : Small un 40 := small_opt hun fun s a hs => by
    obtain ⟨_, hs⟩ := toRes_ok.1 hs
    exact small_date hK hs
  have dCo : Small co 40 := small_opt hco fun s a hs => small_nat (by have := unsigned_le (ofOption_ok.1 hs); simp [u8Max] at this; omega)
  have dIv : Small (iv.getD 1) 40 := by
    rcases optItem_ok hiv with rfl | ⟨s, a, -, hs, rfl⟩
    · exact small_nat (by simp)
    · exact small_nat (by have := unsigned_le (ofOption_ok.1 hs); simp [u8Max] at this; simp; omega)
  have dWk : Small wk 2 := small_opt hwk fun s a _ => small_weekday a
  have dFr : Small fr 8 := small_of (s := fr.toStr) rfl rfl (by cases fr <;> simp [Freq.toStr])
  have d1 := small_byOpt h1 (hm _) fun _ _ => smalls_by
  have d2 := small_byOpt h2 (hm _) fun _ _ => smalls_by
  have d3 := small_byOpt h3 (hm _) fun _ _ => smalls_by
  have d4 := small_byOpt h4 (hm _) fun _ _ => smalls_byday
  have d5 := small_byOpt h5 (hm _) fun _ _ => smalls_by
  have d6 := small_byOpt h6 (hm _) fun _ _ => smalls_by
  have d7 := small_byOpt h7 (hm _) fun _ _ => smalls_by
  have d8 := small_byOpt h8 (hm _) fun _ _ => smalls_by
  have d9 := small_byOpt h9 (hm _) fun _ _ => smalls_by
  refine ⟨fun t ht => ?_, fun a ha => by simp [Ser.attr] at ha⟩
  simp only [Ser.ical, Res.bind_eq_ok] at ht
  obtain ⟨a, ha, b, hb, c, hc, d, hd, e, he, f, hf, g, hg, o, ho, i, hi, j, hj, k, hk, l, hl, m, hm, n, hn, ht⟩ := ht
  cases ht
  have := recurItem_length dFr ha
  have := recurItem_length dUn hb
  have := recurItem_length dCo hc
  have := recurItem_length dIv hd
  have := recurItem_length d1 he
  have := recurItem_length d2 hf
  have := recurItem_length d3 hg
  have := recurItem_length d4 ho
  have := recurItem_length d5 hi
  have := recurItem_length d6 hj
  have := recurItem_length d7 hk
  have := recurItem_length d8 hl
  have := recurItem_length d9 hm
  have := recurItem_length dWk hn
  simp only [List.length_cons, List.length_nil, List.length_append, List.length_dropLast] at *
  omega

theorem lin_rrule {K : Nat} (hK : Modest K) {A : Nat} (hA : 1000 ≤ A) : Lin inferInstance A Ikal.rrule := fun l v h => by
  obtain ⟨r, h⟩ := toRes_ok.1 h
  simp only [mapRes_ok] at h
  obtain ⟨items, h1, h2⟩ := h
  refine (small_rule hK (N := l.value.length) ?_ h2).mono (Nat.mul_le_mul hA (by unfold lineW; omega))
  unfold many1 at h1
  split at h1 <;> try simp at h1
  rename_i r1 a ha
  split at h1 <;> try simp at h1
  rename_i r2 as has
  obtain ⟨-, rfl⟩ := h1
  exact items_length (.cons ha (rruleItem_shorter ha) (many0_ok.1 has))

end

end Size

end Ikal
