import Verif.Lemmas.ReasonsDate
import Verif.Props.Grammar
import Verif.Props.MacroDuration

/-! # Lemmas: the readers with reasons read what the readers without them read -/

namespace Ikal
open Spec

/-! ## Formats -/

theorem scanItems_letters (suffix : Str) : ∀ (p q : Parsed) (s : Str), scanItems (suffix.map .literal) p s = .ok q ↔ s = suffix ∧ q = p := by
  induction suffix with
  | nil => intro p q s; cases s <;> simp [scanItems, eq_comm]
  | cons c cs ih =>
    intro p q s
    simp only [List.map_cons, scanItems, scanItem]
    cases s with
    | nil => simp [exc_bind_ok]
    | cons d r =>
      by_cases h : d = c
      · simp only [h, if_true]
        rw [exc_bind_ok]
        simp [ih]
      · simp [h, exc_bind_ok]

theorem scanItems_field {f : DateField} {is : List ScanItem} {p q : Parsed} {s : Str} :
    scanItems (.field f :: is) p s = .ok q ↔ ∃ v r, FieldNumber f s v r ∧ (fieldRange f).1 ≤ v ∧ v ≤ (fieldRange f).2 ∧ scanItems is (putField p f v) r = .ok q := by
  simp only [scanItems]
  rw [exc_bind_ok]
  constructor
  · rintro ⟨⟨p', r⟩, h1, h2⟩
    obtain ⟨v, a, b, c, rfl⟩ := scanField_ok.1 h1
    exact ⟨v, r, a, b, c, h2⟩
  · rintro ⟨v, r, a, b, c, h⟩
    exact ⟨(_, r), scanField_ok.2 ⟨v, a, b, c, rfl⟩, h⟩

theorem scanItems_letter {c : Char} {is : List ScanItem} {p q : Parsed} {s : Str} :
    scanItems (.literal c :: is) p s = .ok q ↔ ∃ r, s = c :: r ∧ scanItems is p r = .ok q := by
  simp only [scanItems, scanItem]
  cases s with
  | nil => simp [exc_bind_ok]
  | cons d r =>
    by_cases h : d = c
    · subst h; simp [exc_bind_ok]
    · simp [h, exc_bind_ok]

theorem toDate_ok {p : Parsed} {d : NaiveDate} : p.toDate = .ok d ↔ NaiveDate.fromYmdOpt p.year p.month.toNat p.day.toNat = some d := by
  unfold Parsed.toDate
  split <;> simp_all

theorem toDate_err {p : Parsed} {k : DateReason} : p.toDate = .error k ↔ k = .outOfRange ∧ NaiveDate.fromYmdOpt p.year p.month.toNat p.day.toNat = none := by
  unfold Parsed.toDate
  cases NaiveDate.fromYmdOpt p.year p.month.toNat p.day.toNat <;> simp [eq_comm]

theorem readNaiveDate_ok {s : Str} {d : NaiveDate} : readNaiveDate s = .ok d ↔ DateThen s d [] := by
  unfold readNaiveDate dateItems
  rw [exc_bind_ok]
  have nil : ∀ {p q : Parsed} {s : Str}, scanItems [] p s = .ok q ↔ s = [] ∧ q = p := fun {p q s} => scanItems_letters [] p q s
  simp only [scanItems_field, nil, FieldNumber, fieldRange, toDate_ok]
  constructor
  · rintro ⟨p, ⟨y, a, hy, y1, y2, _, b, ⟨m, hm, rfl⟩, m1, m2, _, c, ⟨x, hx, rfl⟩, x1, x2, rfl, rfl⟩, h⟩
    simp only [putField, Int.toNat_natCast] at h
    obtain ⟨rfl, hv⟩ := fromYmd_iff.1 h
    replace hv := (valid_iff _).1 hv
    exact ⟨hv.2, hv.1, a, b, hy, hm, hx⟩
  · rintro ⟨h1, h2, a, b, hy, hm, hx⟩
    have hv := (valid_iff d).2 ⟨h2, h1⟩
    have h31 := NaiveDate.daysInMonth_le d.year d.month
    unfold NaiveDate.Valid minYear maxYear at hv
    refine ⟨_, ⟨d.year, a, hy, by omega, by omega, _, b, ⟨d.month, hm, rfl⟩, by omega, by omega, _, [], ⟨d.day, hx, rfl⟩, by omega, by omega, rfl, rfl⟩, ?_⟩
    simp only [putField, Int.toNat_natCast]
    exact fromYmd_iff.2 ⟨rfl, (valid_iff _).2 ⟨h2, h1⟩⟩

theorem readNaiveDateTime_ok {s suffix : Str} {t : NaiveDateTime} : readNaiveDateTime suffix s = .ok t ↔ DateTimeThen s t suffix := by
  unfold readNaiveDateTime dateTimeItems dateItems
  rw [exc_bind_ok]
  simp only [List.cons_append, List.nil_append, scanItems_field, scanItems_letter, scanItems_letters, FieldNumber, fieldRange, exc_bind_ok, toDate_ok]
  constructor
  · rintro ⟨p, ⟨y, a, hy, y1, y2, _, b, ⟨m, hm, rfl⟩, m1, m2, _, c, ⟨x, hx, rfl⟩, x1, x2, e, rfl, _, f, ⟨hh, ghh, rfl⟩, h1, h2, _, g, ⟨mm, gmm, rfl⟩, g1, g2, _, i, ⟨ss, gss, rfl⟩, i1, i2, rfl, rfl⟩, d, h, ht⟩
    simp only [putField, Int.toNat_natCast] at h ht
    obtain ⟨rfl, hv⟩ := fromYmd_iff.1 h
    replace hv := (valid_iff _).1 hv
    refine ⟨e, f, g, hh, mm, ss, ?_, ghh, gmm, gss, by omega, by omega, ?_⟩
    · by_cases h60 : (ss : Int) = 60
      · simp only [h60, if_true] at ht; cases ht
        exact ⟨hv.2, hv.1, a, b, hy, hm, hx⟩
      · simp only [h60, if_false] at ht; cases ht
        exact ⟨hv.2, hv.1, a, b, hy, hm, hx⟩
    · by_cases h60 : (ss : Int) = 60
      · simp only [h60, if_true] at ht; cases ht
        exact .inr ⟨by omega, rfl, rfl⟩
      · simp only [h60, if_false] at ht; cases ht
        exact .inl ⟨by omega, rfl, rfl⟩
  · rintro ⟨e, f, g, hh, mm, ss, ⟨h1, h2, a, b, hy, hm, hx⟩, ghh, gmm, gss, lh, lm, hs⟩
    have hv := (valid_iff t.date).2 ⟨h2, h1⟩
    have h31 := NaiveDate.daysInMonth_le t.date.year t.date.month
    unfold NaiveDate.Valid minYear maxYear at hv
    refine ⟨_, ⟨t.date.year, a, hy, by omega, by omega, _, b, ⟨t.date.month, hm, rfl⟩, by omega, by omega, _, _, ⟨t.date.day, hx, rfl⟩, by omega, by omega, e, rfl,
      _, f, ⟨hh, ghh, rfl⟩, by omega, by omega, _, g, ⟨mm, gmm, rfl⟩, by omega, by omega, _, _, ⟨ss, gss, rfl⟩, by omega, by omega, rfl, rfl⟩, t.date, ?_, ?_⟩
    · simp only [putField, Int.toNat_natCast]
      exact fromYmd_iff.2 ⟨rfl, (valid_iff _).2 ⟨h2, h1⟩⟩
    · simp only [putField, Int.toNat_natCast]
      obtain ⟨d, sec, fr⟩ := t
      rcases hs with ⟨hx, e1, e2⟩ | ⟨hx, e1, e2⟩
      · have h60 : ¬ ((ss : Int) = 60) := by omega
        simp only at e1 e2
        simp only [h60, if_false]; rw [e1, e2]; rfl
      · have h60 : (ss : Int) = 60 := by omega
        simp only at e1 e2
        simp only [h60, if_true]; rw [e1, e2]; rfl

theorem toOption_some {ε α : Type} {x : Except ε α} {a : α} : x.toOption = some a ↔ x = .ok a := by
  cases x <;> simp [Except.toOption]

theorem opt_ext {α : Type} {x y : Option α} (h : ∀ a, x = some a ↔ y = some a) : x = y := Option.ext h

theorem readNaiveDate_eq (s : Str) : (readNaiveDate s).toOption = parseNaiveDate s :=
  opt_ext fun d => by rw [toOption_some, readNaiveDate_ok, parseNaiveDate_some]

theorem readNaiveDateTime_eq (suffix s : Str) : (readNaiveDateTime suffix s).toOption = parseNaiveDateTime suffix s :=
  opt_ext fun d => by rw [toOption_some, readNaiveDateTime_ok, parseNaiveDateTime_some]

/-- Why a text is no date-time that ends with a `Z`. -/
theorem readZulu_err {s m : Str} : (∃ k, readNaiveDateTime ['Z'] s = .error k ∧ k.text = m) ↔ NoZulu s m := by
  have hz : (dateTimeItems ++ ['Z'].map ScanItem.literal).map itemPart = zuluParts := rfl
  have herr := scanItems_err (dateTimeItems ++ ['Z'].map ScanItem.literal) {} s
  have hok := scanItems_ok (dateTimeItems ++ ['Z'].map ScanItem.literal) {} s
  rw [hz] at hok
  rw [hz] at herr
  constructor
  · rintro ⟨k, h, rfl⟩
    have hno : ∀ t, ¬ DateTimeThen s t ['Z'] := fun t ht => by rw [readNaiveDateTime_ok.2 ht] at h; cases h
    unfold readNaiveDateTime at h
    rw [exc_bind_err] at h
    rcases h with h | ⟨p, hp, h⟩
    · rcases (herr _).1 ⟨k, h, rfl⟩ with ⟨ps, q, qs, r, e, h1, h2⟩ | ⟨e, c, r, h1⟩
      · exact .part e h1 h2
      · rw [e]; exact .more h1
    · rw [exc_bind_err] at h
      rcases h with h | ⟨d, _, h⟩
      · rw [toDate_err] at h
        rw [h.1]
        exact .noDate (hok.1 ⟨p, hp⟩) hno
      · cases h
  · have first : ∀ {m}, (∃ k, scanItems (dateTimeItems ++ ['Z'].map ScanItem.literal) {} s = .error k ∧ k.text = m) →
        ∃ k, readNaiveDateTime ['Z'] s = .error k ∧ k.text = m := by
      rintro m ⟨k, h, e⟩
      refine ⟨k, ?_, e⟩
      unfold readNaiveDateTime
      rw [exc_bind_err]
      exact .inl h
    intro h
    cases h with
    | part e h1 h2 => exact first ((herr _).2 (.inl ⟨_, _, _, _, e, h1, h2⟩))
    | more h1 => exact first ((herr _).2 (.inr ⟨rfl, _, _, h1⟩))
    | noDate h1 h2 =>
      obtain ⟨p, hp⟩ := hok.2 h1
      cases hr : readNaiveDateTime ['Z'] s with
      | ok t => exact absurd (readNaiveDateTime_ok.1 hr) (h2 t)
      | error k =>
        refine ⟨k, rfl, ?_⟩
        unfold readNaiveDateTime at hr
        rw [hp] at hr
        replace hr := exc_bind_err.1 hr
        rcases hr with hr | ⟨_, _, hr⟩
        · cases hr
        · rcases exc_bind_err.1 hr with hr | ⟨d, _, hr⟩
          · rw [(toDate_err.1 hr).1]; rfl
          · cases hr

/-! ## Forgetting the reasons -/

theorem exc_cases {ε α : Type} {x : Except ε α} : (∃ a, x = .ok a ∧ x.toOption = some a) ∨ (∃ e, x = .error e ∧ x.toOption = none) := by
  cases x <;> simp [Except.toOption]

theorem told_bind_ok {α β : Type} (a : α) (f : α → Told β) : (Told.ok a >>= f) = f a := rfl
theorem told_bind_err {α β : Type} (r : Reason) (f : α → Told β) : (Told.err r >>= f) = .err r := rfl
theorem told_bind_panic {α β : Type} (f : α → Told β) : (Told.panic >>= f) = .panic := rfl

theorem forget_bind {α β : Type} (x : Told α) (f : α → Told β) : (x >>= f).forget = x.forget >>= fun a => (f a).forget := by
  cases x <;> rfl

theorem forget_map {α β : Type} (x : Told α) (f : α → β) : (x.map f).forget = x.forget.map f := by cases x <;> rfl

theorem forget_unwrap {α : Type} (x : Option α) : (Told.unwrap x).forget = Res.unwrap x := by cases x <;> rfl

theorem forget_int {α : Type} (x : Except IntReason α) : (Told.int x).forget = Res.ofOption .parseInt x.toOption := by cases x <;> rfl

theorem forget_chrono {α : Type} (x : Except DateReason α) : (Told.chrono x).forget = Res.ofOption .date x.toOption := by cases x <;> rfl

section
variable [Platform]

theorem forget_dateTime (s : Str) : (DateTime.tell s).forget = DateTime.ofStr s := by
  unfold DateTime.tell DateTime.ofStr
  rw [← readNaiveDateTime_eq [] s, ← readNaiveDateTime_eq ['Z'] s]
  cases readNaiveDateTime [] s with
  | ok t => rfl
  | error k =>
    show (Told.chrono (readNaiveDateTime ['Z'] s) >>= fun t => (Told.unwrap (localSingle t)).map DateTime.loc).forget = _
    cases readNaiveDateTime ['Z'] s with
    | error k' => rfl
    | ok t =>
      show ((Told.unwrap (localSingle t)).map DateTime.loc).forget = _
      rw [forget_map, forget_unwrap]
      rfl

theorem forget_date (s : Str) : (Date.tell s).forget = Date.ofStr s := by
  unfold Date.tell Date.ofStr
  rw [← readNaiveDate_eq s]
  cases readNaiveDate s with
  | ok d => rfl
  | error k =>
    show ((DateTime.tell s).map Date.dateTime).forget = _
    rw [forget_map, forget_dateTime]
    rfl

theorem forget_local (t : DateTime) : t.tellLocal.forget = t.toLocal := by
  cases t with
  | naive x =>
    show (match localEarliest x with | some u => Told.ok u | none => Told.err (.localTime (.naive x))).forget = Res.ofOption Error.localTime (localEarliest x)
    cases localEarliest x <;> rfl
  | loc u => rfl

theorem i64_lo : -i64Max - 1 ≤ 0 := by decide
theorem i64_hi : (0 : Int) ≤ i64Max := by decide

theorem forget_i64 (s : Str) : (Told.int (readI64 s)).forget = Res.ofOption .parseInt (parseI64 s) := by
  rw [forget_int]
  unfold readI64 parseI64
  rw [readSigned_eq i64_lo i64_hi]

theorem forget_mul (k n : Int) : (tellMul k n).forget = mulI64 k n := by
  have h : mulI64 k n = .panic ∨ ∃ v, mulI64 k n = .ok v := by
    unfold mulI64
    split
    · exact .inr ⟨_, rfl⟩
    · split
      · exact .inl rfl
      · exact .inr ⟨_, rfl⟩
  unfold tellMul
  rcases h with h | ⟨v, h⟩ <;> rw [h] <;> rfl

theorem forget_unit (time : Bool) (ty : Char) (q : Str) : (tellUnit time ty q).forget = macroUnit time ty q := by
  unfold tellUnit macroUnit
  simp only [← forget_i64]
  have ite : ∀ {p : Prop} [Decidable p] {a b : Told TimeDelta} {c d : Res TimeDelta}, a.forget = c → b.forget = d → (if p then a else b).forget = if p then c else d := by
    intro p _ a b c d h1 h2
    split
    · exact h1
    · exact h2
  refine ite ?_ (ite ?_ (ite ?_ (ite ?_ (ite ?_ (ite ?_ rfl)))))
  · simp only [forget_bind, forget_mul, forget_unwrap]
  · simp only [forget_bind, forget_mul, forget_unwrap]
  · simp only [forget_bind, forget_unwrap]
  · simp only [forget_bind, forget_unwrap]
  · simp only [forget_bind, forget_unwrap]
  · simp only [forget_bind, forget_unwrap]

theorem forget_loop (s : Str) : ∀ (time : Bool) (q : Str) (a : TimeDelta), (tellLoop time q a s).forget = macroDurLoop time q a s := by
  induction s with
  | nil => intro _ _ _; rfl
  | cons c r ih =>
    intro time q a
    unfold tellLoop macroDurLoop
    by_cases hT : c = 'T'
    · simp only [hT, if_true]; exact ih _ _ _
    · simp only [hT, if_false]
      by_cases hc : c.isDigit = true
      · simp only [hc, if_true]; exact ih _ _ _
      · rw [if_neg hc, if_neg hc, forget_bind, forget_unit]
        congr 1
        funext part
        rw [forget_bind, forget_unwrap]
        congr 1
        funext b
        exact ih _ _ _

theorem forget_duration (s : Str) : (tellDuration s).forget = parseDuration s := by
  unfold tellDuration parseDuration
  have go : ∀ (neg : Bool) (r t : Str), (match r with
      | 'P' :: r => (tellLoop false [] TimeDelta.zero r).map fun (d : TimeDelta) => if neg then d.neg else d
      | _ => Told.err (.parseDuration t)).forget =
      match r with
      | 'P' :: r => (macroDurLoop false [] TimeDelta.zero r).map fun (d : TimeDelta) => if neg then d.neg else d
      | _ => .err .parseDuration := by
    intro neg r t
    split
    · rw [forget_map, forget_loop]
    · rfl
  exact go _ _ _

theorem forget_trigger (s : Str) : (Trigger.tell s).forget = Trigger.ofStr s := by
  unfold Trigger.tell Trigger.ofStr
  rw [← forget_dateTime]
  cases DateTime.tell s with
  | ok t => rfl
  | err r =>
    show ((tellDuration s).map Trigger.duration).forget = _
    rw [forget_map, forget_duration]
    rfl
  | panic => rfl

end

end Ikal
