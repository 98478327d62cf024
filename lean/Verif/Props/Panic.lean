import Verif.Props.Rule
import Verif.Props.Component

/-! # C22: when reading panics -/

namespace Ikal

open Nom Spec

set_option linter.unusedSectionVars false
set_option linter.unusedSimpArgs false

section
variable [Platform]

/-! ## Durations -/

theorem optUnit {u : Char} (hu : u.isDigit = false) {n : Option Str} (hn : DurationFields.NumberOk n) (R : Str) :
    ∃ r a, opt (durUnit u) (unitText n u ++ R) = .ok r a ∧
      ((r = R ∧ a.getD 0 = (amount n : Int)) ∨ (n = none ∧ ∃ ds, Digits ds ∧ R = ds ++ u :: r ∧ 0 ≤ a.getD 0)) := by
  cases n with
  | some ds =>
    have h := (durUnit_ok hu (i := unitText (some ds) u ++ R) (r := R) (n := (decimal ds : Int))).2
      ⟨ds, (hn ds rfl).1, by simp [unitText], rfl, (hn ds rfl).2⟩
    exact ⟨R, some _, opt_of_ok h, .inl ⟨rfl, rfl⟩⟩
  | none =>
    cases e : durUnit u R with
    | panic => exact absurd e durUnit_panic
    | err => exact ⟨R, none, opt_of_err e, .inl ⟨rfl, rfl⟩⟩
    | ok r a =>
      obtain ⟨ds, h1, h2, rfl, _⟩ := (durUnit_ok hu).1 e
      exact ⟨r, some _, opt_of_ok e, .inr ⟨rfl, ds, h1, h2, Int.natCast_nonneg _⟩⟩

/-- A unit that follows is not another unit. -/
theorem unit_skip {u v : Char} (hu : u.isDigit = false) (hv : v.isDigit = false) (hne : u ≠ v) {n : Option Str}
    (hn : DurationFields.NumberOk n) {ds R r : Str} (hd : Digits ds) (e : unitText n v ++ R = ds ++ u :: r) : n = none := by
  cases n with
  | none => rfl
  | some d =>
    simp only [unitText, List.append_assoc, List.cons_append, List.nil_append] at e
    exact absurd (digits_split (Digits_iff.1 (hn d rfl).1).2 (Digits_iff.1 hd).2 hv hu e).2.1.symm hne

theorem opt_unit_total {u : Char} (hu : u.isDigit = false) (R : Str) : ∃ r a, opt (durUnit u) R = .ok r a ∧ 0 ≤ a.getD 0 := by
  obtain ⟨r, a, h, h'⟩ := optUnit hu (n := none) (fun _ e => (by cases e)) R
  refine ⟨r, a, h, ?_⟩
  rcases h' with ⟨_, h'⟩ | ⟨_, _, _, _, h'⟩
  · rw [h']; exact Int.natCast_nonneg _
  · exact h'

theorem durTime_eq {i r1 r2 r3 : Str} {a b c : Option Int} (h1 : opt (durUnit 'H') i = .ok r1 a) (h2 : opt (durUnit 'M') r1 = .ok r2 b)
    (h3 : opt (durUnit 'S') r2 = .ok r3 c) : durTime ('T' :: i) = .ok r3 (a.getD 0, b.getD 0, c.getD 0) := by
  unfold durTime
  simp only [map_ok, preceded_ok, tag_ok, pair_ok]
  exact ⟨(a, b, c), ⟨i, ['T'], ⟨rfl, rfl⟩, r1, h1, r2, h2, h3⟩, rfl⟩

/-- Reading the time part finds at least what is written. -/
theorem durTime_ge {a b c : Option Str} (ha : DurationFields.NumberOk a) (hb : DurationFields.NumberOk b) (hc : DurationFields.NumberOk c)
    (r : Str) : ∃ r' h m s, durTime ('T' :: (unitText a 'H' ++ (unitText b 'M' ++ (unitText c 'S' ++ r)))) = .ok r' (h, m, s) ∧
      (amount a : Int) * 3600 + amount b * 60 + amount c ≤ h * 3600 + m * 60 + s := by
  obtain ⟨r1, x, h1, o1⟩ := optUnit (u := 'H') (by decide) ha (unitText b 'M' ++ (unitText c 'S' ++ r))
  rcases o1 with ⟨rfl, e1⟩ | ⟨rfl, ds, hd, e, p1⟩
  · obtain ⟨r2, y, h2, o2⟩ := optUnit (u := 'M') (by decide) hb (unitText c 'S' ++ r)
    rcases o2 with ⟨rfl, e2⟩ | ⟨rfl, ds, hd, e, p2⟩
    · obtain ⟨r3, z, h3, o3⟩ := optUnit (u := 'S') (by decide) hc r
      refine ⟨_, _, _, _, durTime_eq h1 h2 h3, ?_⟩
      rw [e1, e2]
      rcases o3 with ⟨_, e3⟩ | ⟨rfl, _, _, _, p3⟩
      · rw [e3]; omega
      · simp only [amount]; omega
    · have := unit_skip (by decide) (by decide) (by decide) hc hd e
      subst this
      obtain ⟨r3, z, h3, p3⟩ := opt_unit_total (u := 'S') (by decide) r2
      refine ⟨_, _, _, _, durTime_eq h1 h2 h3, ?_⟩
      rw [e1]; simp only [amount]; omega
  · have := unit_skip (by decide) (by decide) (by decide) hb hd e
    subst this
    have := unit_skip (by decide) (by decide) (by decide) hc hd e
    subst this
    obtain ⟨r2, y, h2, p2⟩ := opt_unit_total (u := 'M') (by decide) r1
    obtain ⟨r3, z, h3, p3⟩ := opt_unit_total (u := 'S') (by decide) r2
    refine ⟨_, _, _, _, durTime_eq h1 h2 h3, ?_⟩
    simp only [amount]; omega

theorem durTime_not_panic (i : Str) : durTime i ≠ .panic := by
  unfold durTime
  simp [preceded, pair_panic, durUnit_panic]

theorem durTime_total (i : Str) : ∃ r t, opt durTime i = .ok r t := by
  cases e : durTime i with
  | panic => exact absurd e (durTime_not_panic i)
  | err => exact ⟨_, _, opt_of_err e⟩
  | ok r a => exact ⟨_, _, opt_of_ok e⟩

/-- The inner part of the duration parser. -/
def durInner : P (Option Str × Option Int × Option Int × Option (Int × Int × Int)) :=
  pair (opt (tag ['-'])) (preceded (tag ['P']) (pair (opt (durUnit 'W')) (pair (opt (durUnit 'D')) (opt durTime))))

theorem durInner_not_panic (i : Str) : durInner i ≠ .panic := by
  unfold durInner
  simp [preceded, pair_panic, durUnit_panic, durTime_not_panic]

/-- Whatever is read was written. -/
theorem durInner_fields {i r : Str} {neg : Option Str} {w d : Option Int} {t : Option (Int × Int × Int)} (h : durInner i = .ok r (neg, w, d, t)) :
    ∃ f, DurationFields.Ok f ∧ i = f.text ++ r ∧ durSum neg.isSome (w.getD 0) (d.getD 0) t =
      durSum f.negative (amount f.weeks) (amount f.days) (f.time.map fun (h, m, s) => ((amount h : Int), (amount m : Int), (amount s : Int))) ∧
      (amount f.weeks : Int) = w.getD 0 ∧ (amount f.days : Int) = d.getD 0 ∧
      (f.time.map fun (h, m, s) => ((amount h : Int), (amount m : Int), (amount s : Int))) = t := by
  have unit : ∀ {u : Char} {i r : Str} {a : Option Int}, u.isDigit = false → opt (durUnit u) i = .ok r a →
      ∃ n, DurationFields.NumberOk n ∧ i = unitText n u ++ r ∧ a.getD 0 = amount n := by
    intro u i r a hu h
    rcases opt_ok.1 h with ⟨x, rfl, hx⟩ | ⟨rfl, rfl, _⟩
    · obtain ⟨ds, h1, rfl, rfl, h4⟩ := (durUnit_ok hu).1 hx
      exact ⟨some ds, fun _ e => by cases e; exact ⟨h1, h4⟩, by simp [unitText], rfl⟩
    · exact ⟨none, fun _ e => (by cases e), rfl, rfl⟩
  unfold durInner at h
  simp only [pair_ok, preceded_ok, tag_ok] at h
  obtain ⟨r1, h3, r2, _, ⟨rfl, _⟩, r3, h4, r4, h5, h6⟩ := h
  obtain ⟨a, ha, rfl, ea⟩ := unit (by decide) h4
  obtain ⟨b, hb, rfl, eb⟩ := unit (by decide) h5
  have hneg : i = (if neg.isSome then ['-'] else []) ++ 'P' :: (unitText a 'W' ++ (unitText b 'D' ++ r4)) := by
    rcases opt_ok.1 h3 with ⟨x, rfl, hx⟩ | ⟨rfl, hx, _⟩
    · rw [tag_ok] at hx; simpa using hx.1
    · simpa using hx.symm
  rcases opt_ok.1 h6 with ⟨y, rfl, hy⟩ | ⟨rfl, rfl, _⟩
  · obtain ⟨c1, c2, c3, k1, k2, k3, rfl, rfl⟩ := durTime_ok_shape hy
    refine ⟨⟨neg.isSome, a, b, some (c1, c2, c3)⟩, ⟨ha, hb, fun h m s e => ?_⟩, ?_, by simp only [ea, eb]; rfl, ea.symm, eb.symm, rfl⟩
    · cases e; exact ⟨k1, k2, k3⟩
    · rw [hneg]; simp [DurationFields.text]
  · refine ⟨⟨neg.isSome, a, b, none⟩, ⟨ha, hb, fun h m s e => (by cases e)⟩, ?_, by simp only [ea, eb]; rfl, ea.symm, eb.symm, rfl⟩
    rw [hneg]; simp [DurationFields.text]

/-- The number of seconds of the time part. -/
def timeSum : Option (Int × Int × Int) → Int
  | none => 0
  | some (h, m, s) => h * 3600 + m * 60 + s

theorem fields_seconds (f : DurationFields) : (f.seconds : Int) = (amount f.weeks : Int) * 604800 + amount f.days * 86400 +
    timeSum (f.time.map fun (h, m, s) => ((amount h : Int), (amount m : Int), (amount s : Int))) := by
  obtain ⟨n, w, d, t⟩ := f
  cases t with
  | none => simp [DurationFields.seconds, timeSum]
  | some t => obtain ⟨h, m, s⟩ := t; simp [DurationFields.seconds, timeSum]

theorem timeSum_fields (f : DurationFields) : 0 ≤ timeSum (f.time.map fun (h, m, s) => ((amount h : Int), (amount m : Int), (amount s : Int))) := by
  obtain ⟨n, w, d, t⟩ := f
  cases t with
  | none => simp [timeSum]
  | some t => obtain ⟨h, m, s⟩ := t; simp [timeSum]; omega

theorem durInner_of {i r2 r3 r4 : Str} {neg : Bool} {w d : Option Int} {t : Option (Int × Int × Int)}
    (h1 : opt (durUnit 'W') i = .ok r2 w) (h2 : opt (durUnit 'D') r2 = .ok r3 d) (h3 : opt durTime r3 = .ok r4 t) :
    durInner ((if neg then ['-'] else []) ++ 'P' :: i) = .ok r4 (if neg then some ['-'] else none, w, d, t) := by
  unfold durInner
  simp only [pair_ok, preceded_ok, tag_ok]
  refine ⟨'P' :: i, ?_, i, ['P'], ⟨rfl, rfl⟩, r2, h1, r3, h2, h3⟩
  cases neg with
  | true => exact opt_of_ok (tag_ok.2 ⟨rfl, rfl⟩)
  | false => exact opt_of_err (tag_err.2 (by simp))

/-- Reading a duration finds at least what is written. -/
theorem durInner_ge (f : DurationFields) (hf : f.Ok) (r : Str) : ∃ r' neg w d t, durInner (f.text ++ r) = .ok r' (neg, w, d, t) ∧
    (f.seconds : Int) ≤ w.getD 0 * 604800 + d.getD 0 * 86400 + timeSum t := by
  have nonneg : ∀ {i r : Str} {t : Option (Int × Int × Int)}, opt durTime i = .ok r t → 0 ≤ timeSum t := by
    intro i r t h
    rcases opt_ok.1 h with ⟨y, rfl, hy⟩ | ⟨rfl, rfl, _⟩
    · obtain ⟨c1, c2, c3, _, _, _, _, rfl⟩ := durTime_ok_shape hy
      simp only [timeSum]; omega
    · simp [timeSum]
  obtain ⟨neg, w, d, t⟩ := f
  obtain ⟨hw, hd, ht⟩ := hf
  simp only at hw hd ht
  have htext : ∃ T, (⟨neg, w, d, t⟩ : DurationFields).text ++ r = (if neg then ['-'] else []) ++ 'P' :: (unitText w 'W' ++ (unitText d 'D' ++ T)) ∧
      ((t = none ∧ T = r) ∨ ∃ a b c, t = some (a, b, c) ∧ T = 'T' :: (unitText a 'H' ++ (unitText b 'M' ++ (unitText c 'S' ++ r)))) := by
    cases t with
    | none => exact ⟨r, by simp [DurationFields.text], .inl ⟨rfl, rfl⟩⟩
    | some t =>
      obtain ⟨a, b, c⟩ := t
      exact ⟨_, by simp [DurationFields.text], .inr ⟨a, b, c, rfl, rfl⟩⟩
  obtain ⟨T, e, hT⟩ := htext
  have hno : ∀ {ds r' : Str} {u : Char}, Digits ds → T = ds ++ u :: r' → t = none := by
    intro ds r' u hds h
    rcases hT with ⟨h, _⟩ | ⟨a, b, c, _, h'⟩
    · exact h
    · rw [h'] at h
      have := Digits_iff.1 hds
      cases ds with
      | nil => simp at this
      | cons x ds => simp at h; exact absurd (this.2 x (by simp)) (by rw [← h.1]; decide)
  have hsecs := fields_seconds ⟨neg, w, d, t⟩
  rw [e, hsecs]
  simp only
  clear e hsecs
  obtain ⟨r1, x, h1, o1⟩ := optUnit (u := 'W') (by decide) hw (unitText d 'D' ++ T)
  rcases o1 with ⟨rfl, e1⟩ | ⟨rfl, ds, hds, e1, p1⟩
  · obtain ⟨r2, y, h2, o2⟩ := optUnit (u := 'D') (by decide) hd T
    rcases o2 with ⟨rfl, e2⟩ | ⟨rfl, ds, hds, e2, p2⟩
    · rcases hT with ⟨rfl, rfl⟩ | ⟨a, b, c, rfl, rfl⟩
      · obtain ⟨r3, z, h3⟩ := durTime_total r2
        refine ⟨_, _, _, _, _, durInner_of h1 h2 h3, ?_⟩
        rw [e1, e2]; have := nonneg h3
        simp only [Option.map_none, timeSum] at this ⊢; omega
      · obtain ⟨r3, hh, mm, ss, h3, hge⟩ := durTime_ge (ht _ _ _ rfl).1 (ht _ _ _ rfl).2.1 (ht _ _ _ rfl).2.2 r
        refine ⟨_, _, _, _, _, durInner_of h1 h2 (opt_of_ok h3), ?_⟩
        rw [e1, e2]
        simp only [Option.map_some, timeSum]; omega
    · have := hno hds e2
      subst this
      obtain ⟨r3, z, h3⟩ := durTime_total r2
      refine ⟨_, _, _, _, _, durInner_of h1 h2 h3, ?_⟩
      rw [e1]; have := nonneg h3
      simp only [Option.map_none, timeSum, amount] at this ⊢; omega
  · have := unit_skip (by decide) (by decide) (by decide) hd hds e1
    subst this
    have := hno hds e1
    subst this
    obtain ⟨r2, y, h2, p2⟩ := opt_unit_total (u := 'D') (by decide) r1
    obtain ⟨r3, z, h3⟩ := durTime_total r2
    refine ⟨_, _, _, _, _, durInner_of h1 h2 h3, ?_⟩
    have := nonneg h3
    simp only [Option.map_none, timeSum, amount] at this ⊢; omega

theorem unwrap_panic {α : Type} {o : Option α} : Res.unwrap o = .panic ↔ o = none := by cases o <;> simp [Res.unwrap]

theorem durationP_panic (i : Str) : durationP i = .panic ↔ ∃ f r, DurationFields.Ok f ∧ i = f.text ++ r ∧ 9223372036854775 < f.seconds := by
  have big : ∀ f : DurationFields, ¬ ((f.seconds : Int) * 1000000000 ≤ TimeDelta.maxNanos) ↔ 9223372036854775 < f.seconds := by
    intro f; rw [maxNanos_eq]; omega
  have e : durationP = mapRes durInner fun (neg, w, d, t) => Res.unwrap (durSum neg.isSome (w.getD 0) (d.getD 0) t) := rfl
  rw [e, mapRes_panic]
  constructor
  · rintro (h | ⟨r, ⟨neg, w, d, t⟩, h1, h2⟩)
    · exact absurd h (durInner_not_panic i)
    · obtain ⟨f, hf, hi, hs, _⟩ := durInner_fields h1
      rw [unwrap_panic, hs, durSum_fields] at h2
      refine ⟨f, r, hf, hi, (big f).1 fun hle => ?_⟩
      rw [if_pos hle] at h2; cases h2
  · rintro ⟨f, r, hf, rfl, hb⟩
    obtain ⟨r', neg, w, d, t, h1, h2⟩ := durInner_ge f hf r
    obtain ⟨g, hg, _, hs, k1, k2, k3⟩ := durInner_fields h1
    refine .inr ⟨r', (neg, w, d, t), h1, ?_⟩
    rw [unwrap_panic, hs, durSum_fields, if_neg]
    rw [big g]
    have := fields_seconds g
    rw [k1, k2, k3] at this
    omega

/-- **C22**: reading a duration panics exactly when it begins with a well-written duration longer than the largest one. -/
theorem C22_duration (l : ContentLine) : duration l = .panic ↔
    ∃ f r, DurationFields.Ok f ∧ l.value = f.text ++ r ∧ 9223372036854775 < f.seconds := by
  rw [← durationP_panic]
  unfold duration
  cases durationP l.value <;> simp [NRes.toRes]

/-- **C22**: reading a trigger panics exactly when reading it as a duration does. -/
theorem C22_trigger (l : ContentLine) : trigger l = .panic ↔ duration l = .panic := by
  have h : ∀ i, Nom.map Ikal.dateTime Trigger.dateTime i ≠ .panic := fun i => by rw [Ne, map_panic]; exact dateTime_not_panic i
  unfold trigger duration alt
  have e : Nom.map durationP Trigger.duration l.value = match durationP l.value with
    | .ok r a => .ok r (.duration a) | .err => .err | .panic => .panic := by
    unfold Nom.map; cases durationP l.value <;> rfl
  rw [e]
  cases durationP l.value with
  | ok r a => simp [NRes.toRes]
  | panic => simp [NRes.toRes]
  | err =>
    have := h l.value
    cases hh : Nom.map Ikal.dateTime Trigger.dateTime l.value <;> simp_all [NRes.toRes]

/-! ## Periods -/

/-- **C22**: reading a period panics exactly when what comes before the first `/` is a date-time and either there is no `/` or the
duration after it panics. -/
theorem C22_period (s : Str) : period s = .panic ↔
    (('/' ∉ s ∧ ∃ t, (dateTime s).toRes = .ok t) ∨
     ∃ a b t, s = a ++ '/' :: b ∧ '/' ∉ a ∧ (dateTime a).toRes = .ok t ∧ b.head? = some 'P' ∧ duration (ContentLine.ofValue b) = .panic) := by
  have nop : ∀ i, (dateTime i).toRes ≠ .panic := fun i => toRes_not_panic (dateTime_not_panic i)
  by_cases hs : '/' ∈ s
  · obtain ⟨a, b, e, ha⟩ := List.eq_append_cons_of_mem hs
    have ha' : ∀ c ∈ a, c ≠ '/' := fun c hc h => ha (h ▸ hc)
    have uniq : ∀ a' b', s = a' ++ '/' :: b' → '/' ∉ a' → a' = a ∧ b' = b := by
      intro a' b' e' h'
      have h1 := splitSlash_append ha' b
      have h2 := splitSlash_append (fun c hc h => h' (h ▸ hc) : ∀ c ∈ a', c ≠ '/') b'
      rw [← e] at h1; rw [← e', h1] at h2
      simp at h2; exact ⟨h2.1.symm, h2.2.symm⟩
    cases hd : (dateTime a).toRes with
    | panic => exact absurd hd (nop a)
    | err x =>
      have : period s = .err x := by
        rw [e]; unfold period; rw [splitSlash_append ha']; simp only [hd, Res.bind_err]
      rw [this]
      simp only [reduceCtorEq, false_iff, not_or, not_and, not_exists]
      refine ⟨fun h => absurd hs h, fun a' b' t e' h' h'' => ?_⟩
      obtain ⟨rfl, rfl⟩ := uniq a' b' e' h'
      rw [hd] at h''; cases h''
    | ok t =>
      have hd' : dateTime a = .ok [] t := by
        unfold dateTime at hd ⊢
        split at hd
        · split at hd <;> simp_all [NRes.toRes]
        · simp [NRes.toRes] at hd
      have hp := period_split (b := b) ha' hd'
      rw [← e] at hp
      rw [hp]
      constructor
      · intro h
        right
        have mp : ∀ {α β : Type} {x : Res α} {f : α → β}, x.map f = .panic → x = .panic := by
          intro α β x f h; cases x <;> simp at h ⊢
        split at h
        · next h1 => exact ⟨a, b, t, e, ha, hd, h1, mp h⟩
        · exact absurd (mp h) (nop b)
      · rintro (⟨h, _⟩ | ⟨a', b', t', e', h1, h2, h3, h4⟩)
        · exact absurd hs h
        · obtain ⟨rfl, rfl⟩ := uniq a' b' e' h1
          rw [if_pos h3, h4]; rfl
  · have hs' : ∀ c ∈ s, c ≠ '/' := fun c hc h => hs (h ▸ hc)
    have hne : ∀ a b, s ≠ a ++ '/' :: b := fun a b h => hs (by rw [h]; simp)
    unfold period
    rw [splitSlash_none hs']
    simp only [hs, not_false_eq_true, true_and, hne, false_and, exists_false, or_false]
    have := nop s
    cases hd : (dateTime s).toRes <;> simp_all

theorem mapM'_panic {α β : Type} {f : α → Res β} {l : List α} :
    Res.mapM' f l = .panic ↔ ∃ a x b, l = a ++ x :: b ∧ (∀ y ∈ a, ∃ v, f y = .ok v) ∧ f x = .panic := by
  induction l with
  | nil => simp [Res.mapM']
  | cons y l ih =>
    unfold Res.mapM'
    constructor
    · intro h
      cases hy : f y with
      | panic => exact ⟨[], y, l, rfl, by simp, hy⟩
      | err e => rw [hy] at h; cases h
      | ok v =>
        rw [hy] at h
        obtain ⟨a, x, b, e, h1, h2⟩ := ih.1 (by cases hx : Res.mapM' f l <;> simp_all)
        exact ⟨y :: a, x, b, by rw [e]; rfl, by simpa [hy] using h1, h2⟩
    · rintro ⟨a, x, b, e, h1, h2⟩
      cases a with
      | nil => cases e; rw [h2]
      | cons z a =>
        cases e
        obtain ⟨v, hv⟩ := h1 y (by simp)
        rw [hv, ih.2 ⟨a, x, b, rfl, fun w hw => h1 w (by simp [hw]), h2⟩]

/-- **C22**: reading free-busy periods panics exactly when one of them panics, all before it being well read; reading recurrence
dates panics exactly when they are declared as periods and the same holds. -/
theorem C22_lists (l : ContentLine) (ps : List Str) (hp : CommaPieces l.value ps) :
    (freebusy l = .panic ↔ ∃ a s b, ps = a ++ s :: b ∧ (∀ y ∈ a, ∃ v, period y = .ok v) ∧ period s = .panic) ∧
    (rdate l = .panic ↔ SMap.get? l.params c!"VALUE" = some c!"PERIOD" ∧
      ∃ a s b, ps = a ++ s :: b ∧ (∀ y ∈ a, ∃ v, period y = .ok v) ∧ period s = .panic) := by
  have e := pieces_iff.1 hp
  subst e
  refine ⟨mapM'_panic, ?_⟩
  unfold rdate
  rw [← mapM'_panic]
  split
  · next hv =>
    simp only [hv, true_and]
    cases Res.mapM' period (splitOn ',' l.value) <;> simp
  · next hv =>
    simp only [hv, false_and, iff_false]
    have := mapM'_not_panic dateOrDt_not_panic (splitOn ',' l.value)
    cases hx : Res.mapM' (fun s => (dateOrDt s).toRes) (splitOn ',' l.value) <;> simp_all

/-! ## The other values -/

theorem float_not_panic (i : Str) : float i ≠ .panic := by unfold float; split <;> simp

/-- **C22**: no other property value panics. -/
theorem C22_others (l : ContentLine) :
    dateTimeProp l ≠ .panic ∧ dateProp l ≠ .panic ∧ u32Prop l ≠ .panic ∧ percentComplete l ≠ .panic ∧ priority l ≠ .panic ∧
    status l ≠ .panic ∧ transp l ≠ .panic ∧ classProp l ≠ .panic ∧ textProp l ≠ .panic ∧ uriProp l ≠ .panic ∧
    textListProp l ≠ .panic ∧ offsetProp l ≠ .panic ∧ exdate l ≠ .panic ∧ geo l ≠ .panic ∧ rstatus l ≠ .panic := by
  refine ⟨toRes_not_panic (dateTime_not_panic _), dateOrDt_not_panic _, ofOption_not_panic _ _, ofOption_not_panic _ _, ?_, ?_, ?_, ?_,
    by simp [textProp], by simp [uriProp], by simp [textListProp], ofOption_not_panic _ _, mapM'_not_panic dateOrDt_not_panic _, ?_, ?_⟩
  · unfold priority; repeat' split
    all_goals simp
  · unfold status Status.ofStr; repeat' split
    all_goals simp
  · unfold transp TimeTransparency.ofStr; repeat' split
    all_goals simp
  · unfold classProp Class.ofStr; repeat' split
    all_goals simp
  · refine toRes_not_panic ?_
    rw [Ne, map_panic]
    simp [separatedPair, preceded, pair_panic, float_not_panic]
  · refine toRes_not_panic ?_
    rw [Ne, map_panic]
    simp [preceded, pair_panic, float_not_panic]

/-! ## Components -/

/-- A property line whose value panics, by its name. -/
def PanicLine (l : ContentLine) : Prop :=
  (l.key = c!"DURATION" ∧ duration l = .panic) ∨ (l.key = c!"TRIGGER" ∧ trigger l = .panic) ∨ (l.key = c!"RRULE" ∧ rrule l = .panic) ∨
  (l.key = c!"RDATE" ∧ rdate l = .panic) ∨ (l.key = c!"FREEBUSY" ∧ freebusy l = .panic)

/-- The value of the line `l` of the field panics. -/
def Field.Panics : Field → ContentLine → Prop
  | .req _ _ _ p, l => p l = .panic
  | .opt _ _ _ p, l => p l = .panic
  | .push _ _ _ p, l => p l = .panic
  | .append _ _ _ p, l => p l = .panic
  | .nested .., _ => False

theorem mem_lastLine {n : Str} {ls : List ContentLine} {l : ContentLine} (h : Field.lastLine n ls = some l) : l ∈ ls ∧ l.key = n := by
  unfold Field.lastLine at h
  have := List.mem_of_getLast? h
  simpa using this

theorem init_panic {fs : List Field} {ls : List ContentLine} (h : Slots.init fs ls = .panic) : ∃ f ∈ fs, ∃ l ∈ ls, l.key = f.name ∧ f.Panics l := by
  induction fs with
  | nil => simp [Slots.init] at h
  | cons f fs ih =>
    unfold Slots.init at h
    cases hi : f.initField ls with
    | panic =>
      cases f with
      | req n α s p =>
        simp only [Field.initField] at hi
        split at hi
        · next l hl =>
          obtain ⟨h1, h2⟩ := mem_lastLine hl
          exact ⟨.req n α s p, by simp, l, h1, h2, hi⟩
        · simp at hi
      | _ => simp [Field.initField] at hi
    | err e => rw [hi] at h; simp at h
    | ok v =>
      rw [hi] at h
      simp only [Res.bind_ok] at h
      obtain ⟨f', h1, h2⟩ := ih (by cases hx : Slots.init fs ls <;> simp_all)
      exact ⟨f', by simp [h1], h2⟩

theorem step_panic {fs : List Field} {l : ContentLine} {s : Slots fs} (h : Slots.step fs l s = .panic) : ∃ f ∈ fs, l.key = f.name ∧ f.Panics l := by
  induction fs with
  | nil => simp [Slots.step] at h
  | cons f fs ih =>
    obtain ⟨v, vs⟩ := s
    simp only [Slots.step] at h
    split at h
    · next hk =>
      refine ⟨f, by simp, hk.2, ?_⟩
      cases f with
      | req n α s p => simp [Field.stepField] at h
      | nested n α s => simp [Field.stepField] at h
      | opt n α s p => simp only [Field.stepField] at h; unfold Field.Panics; cases hx : p l <;> rw [hx] at h <;> simp_all
      | push n α s p => simp only [Field.stepField] at h; unfold Field.Panics; cases hx : p l <;> rw [hx] at h <;> simp_all
      | append n α s p => simp only [Field.stepField] at h; unfold Field.Panics; cases hx : p l <;> rw [hx] at h <;> simp_all
    · obtain ⟨f', h1, h2⟩ := ih (s := vs) (by cases hx : Slots.step fs l vs <;> simp_all)
      exact ⟨f', by simp [h1], h2⟩

theorem loop_panic {fs : List Field} {ls : List ContentLine} {c : Comp fs} (h : Comp.loop c ls = .panic) :
    ∃ f ∈ fs, ∃ l ∈ ls, l.key = f.name ∧ f.Panics l := by
  induction ls generalizing c with
  | nil => simp [Comp.loop] at h
  | cons l ls ih =>
    unfold Comp.loop at h
    cases hs : Comp.step c l with
    | panic =>
      unfold Comp.step at hs
      cases hx : Slots.step fs l c.slots with
      | panic =>
        obtain ⟨f, h1, h2⟩ := step_panic hx
        exact ⟨f, h1, l, by simp, h2⟩
      | err e => rw [hx] at hs; simp at hs
      | ok o =>
        rw [hx] at hs
        simp only [Res.bind_ok] at hs
        split at hs
        · simp at hs
        · split at hs <;> simp at hs
    | err e => rw [hs] at h; simp at h
    | ok c' =>
      rw [hs] at h
      simp only [Res.bind_ok] at h
      obtain ⟨f, h1, l', h2, h3⟩ := ih h
      exact ⟨f, h1, l', by simp [h2], h3⟩

theorem comp_panic {fs : List Field} {ls : List ContentLine} (h : Comp.tryFrom fs ls = .panic) :
    ∃ f ∈ fs, ∃ l ∈ ls, l.key = f.name ∧ f.Panics l := by
  unfold Comp.tryFrom at h
  cases hi : Slots.init fs ls with
  | panic => exact init_panic hi
  | err e => rw [hi] at h; simp at h
  | ok s => rw [hi] at h; simp only [Res.bind_ok] at h; exact loop_panic h

/-- Fields whose values panic are the ones of `PanicLine`. -/
def PanicTable (fs : List Field) : Prop := ∀ f ∈ fs, ∀ l : ContentLine, l.key = f.name → f.Panics l → PanicLine l

theorem table_panic {fs : List Field} (ht : PanicTable fs) {α : Type} {conv : Comp fs → α} {ls : List ContentLine}
    (h : (Comp.tryFrom fs ls).map conv = .panic) : ∃ l ∈ ls, PanicLine l := by
  obtain ⟨f, h1, l, h2, h3, h4⟩ := comp_panic (by cases hx : Comp.tryFrom fs ls <;> simp_all)
  exact ⟨l, h2, ht f h1 l h3 h4⟩

theorem table_Audio : PanicTable Audio.fields := by
  intro f hf l hk hp
  have o := C22_others l
  simp only [Audio.fields, List.mem_cons, List.not_mem_nil, or_false] at hf
  rcases hf with rfl | rfl | rfl | rfl | rfl <;> simp_all [Field.Panics, PanicLine, Field.name]

theorem table_Display : PanicTable Display.fields := by
  intro f hf l hk hp
  have o := C22_others l
  simp only [Display.fields, List.mem_cons, List.not_mem_nil, or_false] at hf
  rcases hf with rfl | rfl | rfl | rfl | rfl <;> simp_all [Field.Panics, PanicLine, Field.name]

theorem table_Email : PanicTable Email.fields := by
  intro f hf l hk hp
  have o := C22_others l
  simp only [Email.fields, List.mem_cons, List.not_mem_nil, or_false] at hf
  rcases hf with rfl | rfl | rfl | rfl | rfl | rfl | rfl | rfl <;> simp_all [Field.Panics, PanicLine, Field.name]

theorem table_VEvent : PanicTable VEvent.fields := by
  intro f hf l hk hp
  have o := C22_others l
  simp only [VEvent.fields, List.mem_cons, List.not_mem_nil, or_false] at hf
  rcases hf with rfl | rfl | rfl | rfl | rfl | rfl | rfl | rfl | rfl | rfl | rfl | rfl | rfl | rfl | rfl | rfl | rfl | rfl | rfl | rfl | rfl | rfl | rfl | rfl | rfl | rfl | rfl | rfl | rfl | rfl | rfl <;> simp_all [Field.Panics, PanicLine, Field.name]

theorem table_VFreebusy : PanicTable VFreebusy.fields := by
  intro f hf l hk hp
  have o := C22_others l
  simp only [VFreebusy.fields, List.mem_cons, List.not_mem_nil, or_false] at hf
  rcases hf with rfl | rfl | rfl | rfl | rfl | rfl | rfl | rfl | rfl | rfl | rfl <;> simp_all [Field.Panics, PanicLine, Field.name]

theorem table_VJournal : PanicTable VJournal.fields := by
  intro f hf l hk hp
  have o := C22_others l
  simp only [VJournal.fields, List.mem_cons, List.not_mem_nil, or_false] at hf
  rcases hf with rfl | rfl | rfl | rfl | rfl | rfl | rfl | rfl | rfl | rfl | rfl | rfl | rfl | rfl | rfl | rfl | rfl | rfl | rfl | rfl | rfl | rfl | rfl <;> simp_all [Field.Panics, PanicLine, Field.name]

theorem table_Standard : PanicTable Standard.fields := by
  intro f hf l hk hp
  have o := C22_others l
  simp only [Standard.fields, List.mem_cons, List.not_mem_nil, or_false] at hf
  rcases hf with rfl | rfl | rfl | rfl | rfl | rfl | rfl <;> simp_all [Field.Panics, PanicLine, Field.name]

theorem table_Daylight : PanicTable Daylight.fields := by
  intro f hf l hk hp
  have o := C22_others l
  simp only [Daylight.fields, List.mem_cons, List.not_mem_nil, or_false] at hf
  rcases hf with rfl | rfl | rfl | rfl | rfl | rfl | rfl <;> simp_all [Field.Panics, PanicLine, Field.name]

theorem table_VTimezone : PanicTable VTimezone.fields := by
  intro f hf l hk hp
  have o := C22_others l
  simp only [VTimezone.fields, List.mem_cons, List.not_mem_nil, or_false] at hf
  rcases hf with rfl | rfl | rfl | rfl | rfl <;> simp_all [Field.Panics, PanicLine, Field.name]

theorem table_VTodo : PanicTable VTodo.fields := by
  intro f hf l hk hp
  have o := C22_others l
  simp only [VTodo.fields, List.mem_cons, List.not_mem_nil, or_false] at hf
  rcases hf with rfl | rfl | rfl | rfl | rfl | rfl | rfl | rfl | rfl | rfl | rfl | rfl | rfl | rfl | rfl | rfl | rfl | rfl | rfl | rfl | rfl | rfl | rfl | rfl | rfl | rfl | rfl | rfl | rfl | rfl <;> simp_all [Field.Panics, PanicLine, Field.name]

theorem table_VCalendar : PanicTable VCalendar.fields := by
  intro f hf l hk hp
  have o := C22_others l
  simp only [VCalendar.fields, List.mem_cons, List.not_mem_nil, or_false] at hf
  rcases hf with rfl | rfl | rfl | rfl | rfl | rfl | rfl | rfl | rfl | rfl <;> simp_all [Field.Panics, PanicLine, Field.name]


theorem alarm_panic {ls : List ContentLine} (h : VAlarm.tryFrom ls = .panic) : (∃ l ∈ ls, PanicLine l) ∨ ∀ l ∈ ls, l.key ≠ c!"ACTION" := by
  have mp : ∀ {α β : Type} {x : Res α} {f : α → β}, x.map f = .panic → x = .panic := by
    intro α β x f h; cases x <;> simp at h ⊢
  unfold VAlarm.tryFrom at h
  split at h
  · next hn => right; simpa using hn
  · left
    split at h
    · exact table_panic table_Audio (mp h)
    split at h
    · exact table_panic table_Display (mp h)
    split at h
    · exact table_panic table_Email (mp h)
    · simp at h

/-- **C22**: an alarm panics when it has no `ACTION`; and `Audio`, `Display` and `Email` cannot be read on their own at all. -/
theorem C22_alarm (ls : List ContentLine) (s : Str) :
    ((∀ l ∈ ls, l.key ≠ c!"ACTION") → VAlarm.tryFrom ls = .panic) ∧ Audio.ofStr s = .panic ∧ Display.ofStr s = .panic ∧ Email.ofStr s = .panic := by
  refine ⟨fun h => ?_, rfl, rfl, rfl⟩
  unfold VAlarm.tryFrom
  have : (ls.find? fun l => l.key = c!"ACTION") = none := by simpa using h
  rw [this]

/-- Somewhere in the text there is a run of property lines one of which panics, or an alarm without `ACTION` begins. -/
def PanicText (i : Str) : Prop := ∃ before t ls r, i = before ++ t ∧ LinesText t ls r ∧
  ((∃ l ∈ ls, PanicLine l) ∨ (c!"BEGIN:VALARM\r\n" <:+ before ∧ ∀ l ∈ ls, l.key ≠ c!"ACTION"))

theorem PanicText.append {i : Str} (h : PanicText i) (c : Str) : PanicText (c ++ i) := by
  obtain ⟨b, t, ls, r, rfl, h1, h2⟩ := h
  refine ⟨c ++ b, t, ls, r, by simp, h1, h2.imp id fun h => ⟨h.1.trans (List.suffix_append _ _), h.2⟩⟩

/-- `p` panics only on such a text. -/
def PanicsOnly {α : Type} (p : P α) : Prop := ∀ i, p i = .panic → PanicText i

theorem contentLines_not_panic (i : Str) : contentLines i ≠ .panic := many0_not_panic contentLine_not_panic i

theorem many0_panicsOnly {α : Type} {p : P α} (hp : PanicsOnly p) (hl : Local p) : PanicsOnly (many0 p) := by
  have : ∀ n i, many0Go p n i = .panic → PanicText i := by
    intro n
    induction n with
    | zero => intro i h; simp [many0Go] at h
    | succ n ih =>
      intro i h
      simp only [many0Go] at h
      cases hx : p i with
      | panic => exact hp i hx
      | err => rw [hx] at h; simp at h
      | ok r a =>
        rw [hx] at h
        simp only at h
        obtain ⟨c, _, _, rfl, _⟩ := hl _ _ _ hx
        split at h
        · cases hy : many0Go p n r with
          | panic => exact (ih r hy).append c
          | err => rw [hy] at h; simp at h
          | ok _ _ => rw [hy] at h; simp at h
        · simp at h
  exact fun i => this _ i

theorem PanicsOnly.map {α β : Type} {p : P α} (h : PanicsOnly p) (f : α → β) : PanicsOnly (Nom.map p f) :=
  fun i hi => h i (map_panic.1 hi)

theorem PanicsOnly.alt {α : Type} {p q : P α} (h : PanicsOnly p) (h' : PanicsOnly q) : PanicsOnly (Nom.alt p q) := by
  intro i hi
  rcases alt_panic.1 hi with hi | ⟨_, hi⟩
  · exact h i hi
  · exact h' i hi

theorem leaf_panicsOnly {α : Type} {name : Str} {conv : List ContentLine → Res α}
    (hc : ∀ ls, conv ls = .panic → (∃ l ∈ ls, PanicLine l) ∨ (name = c!"VALARM" ∧ ∀ l ∈ ls, l.key ≠ c!"ACTION")) :
    PanicsOnly (componentP name conv) := by
  intro i h
  unfold componentP at h
  rcases mapRes_panic.1 h with h | ⟨r, ls, h1, h2⟩
  · simp [delimited, preceded, terminated, pair_panic, contentLines_not_panic] at h
  · simp only [delimited_ok, tag_ok, contentLines_ok] at h1
    obtain ⟨body, _, r2, _, ⟨rfl, -⟩, h3, -, -⟩ := h1
    refine ⟨c!"BEGIN:" ++ name ++ c!"\r\n", body, ls, r2, rfl, h3, (hc ls h2).imp id ?_⟩
    rintro ⟨rfl, h'⟩
    exact ⟨List.suffix_refl _, h'⟩

theorem block_panicsOnly {α γ : Type} {o e : Str} {q : P (List α)} {f : List ContentLine × List α → Res γ} (hq : PanicsOnly q)
    (hf : ∀ ls as, f (ls, as) = .panic → ∃ l ∈ ls, PanicLine l) :
    PanicsOnly (mapRes (delimited (tag o) (pair contentLines q) (tag e)) f) := by
  intro i h
  rcases mapRes_panic.1 h with h | ⟨r, ⟨ls, as⟩, h1, h2⟩
  · simp only [delimited, preceded, terminated, map_panic, pair_panic, contentLines_not_panic, contentLines_ok, tag_ok, map_ok, pair_ok, tag_panic, false_or,
      or_false, exists_false, and_false] at h
    obtain ⟨r1, _, ⟨rfl, -⟩, r2, ls, h2, h3⟩ := h
    obtain ⟨t, rfl, _⟩ := linesBefore_of_linesText h2
    exact ((hq _ h3).append t).append o
  · simp only [delimited_ok, tag_ok, pair_ok, contentLines_ok] at h1
    obtain ⟨body, _, r2, _, ⟨rfl, -⟩, ⟨r3, h3, _⟩, -, -⟩ := h1
    exact ⟨o, body, ls, r3, rfl, h3, .inl (hf ls as h2)⟩

theorem map_panic_of {α β : Type} {x : Res α} {f : α → β} (h : x.map f = .panic) : x = .panic := by
  cases x <;> simp at h ⊢

theorem valarm_panics : PanicsOnly valarm := leaf_panicsOnly fun _ h => (alarm_panic h).imp id fun h => ⟨rfl, h⟩
theorem vtodo_panics : PanicsOnly vtodo := leaf_panicsOnly fun _ h => .inl (table_panic table_VTodo h)
theorem vjournal_panics : PanicsOnly vjournal := leaf_panicsOnly fun _ h => .inl (table_panic table_VJournal h)
theorem vfreebusy_panics : PanicsOnly vfreebusy := leaf_panicsOnly fun _ h => .inl (table_panic table_VFreebusy h)
theorem standard_panics : PanicsOnly standard := leaf_panicsOnly fun _ h => .inl (table_panic table_Standard h)
theorem daylight_panics : PanicsOnly daylight := leaf_panicsOnly fun _ h => .inl (table_panic table_Daylight h)
theorem vevent_panics : PanicsOnly vevent :=
  block_panicsOnly (many0_panicsOnly valarm_panics valarm_local) fun _ _ h => table_panic table_VEvent (map_panic_of h)
theorem vtimezone_panics : PanicsOnly vtimezone :=
  block_panicsOnly (many0_panicsOnly ((standard_panics.map _).alt (daylight_panics.map _)) tzPart_local)
    fun _ _ h => table_panic table_VTimezone (map_panic_of h)
theorem component_panics : PanicsOnly component :=
  (valarm_panics.map _).alt <| (vevent_panics.map _).alt <| (vfreebusy_panics.map _).alt <| (vjournal_panics.map _).alt <|
  (vtimezone_panics.map _).alt (vtodo_panics.map _)
theorem vcalendar_panics : PanicsOnly vcalendar :=
  block_panicsOnly (many0_panicsOnly component_panics component_local) fun _ _ h => table_panic table_VCalendar (map_panic_of h)

theorem ofStr_panics {α : Type} {p : P α} (h : PanicsOnly p) {s : Str} (hs : componentOfStr p s = .panic) : PanicText (unfold s) := by
  unfold componentOfStr at hs
  exact h _ (by cases hx : p (unfold s) <;> rw [hx] at hs <;> simp_all [NRes.toRes])

/-- **C22**: reading a whole text panics only if it contains a property line whose value panics, or an alarm without `ACTION`. -/
theorem C22_texts (s : Str) (h : VCalendar.ofStr s = .panic ∨ VEvent.ofStr s = .panic ∨ VTodo.ofStr s = .panic ∨ VJournal.ofStr s = .panic ∨
      VFreebusy.ofStr s = .panic ∨ VTimezone.ofStr s = .panic ∨ Standard.ofStr s = .panic ∨ Daylight.ofStr s = .panic ∨ VAlarm.ofStr s = .panic) :
    PanicText (unfold s) := by
  rcases h with h | h | h | h | h | h | h | h | h
  · exact ofStr_panics vcalendar_panics h
  · exact ofStr_panics vevent_panics h
  · exact ofStr_panics vtodo_panics h
  · exact ofStr_panics vjournal_panics h
  · exact ofStr_panics vfreebusy_panics h
  · exact ofStr_panics vtimezone_panics h
  · exact ofStr_panics standard_panics h
  · exact ofStr_panics daylight_panics h
  · exact ofStr_panics valarm_panics h

end

section Examples
attribute [local instance] utc

/-- A duration that is too long. -/
example : duration (ContentLine.ofValue c!"P9223372036854775807W") = .panic :=
  (C22_duration _).2 ⟨⟨false, some c!"9223372036854775807", none, none⟩, [],
    ⟨fun _ e => by cases e; exact ⟨Digits_iff.2 (by decide), by decide⟩, fun _ e => (by cases e), fun _ _ _ e => (by cases e)⟩, by decide, by decide⟩

/-- A period without an end. -/
example : period c!"19970101T180000Z" = .panic :=
  (C22_period _).2 (.inl ⟨by decide, ⟨.loc ⟨⟨1997, 1, 1⟩, 64800, 0⟩, by decide +kernel⟩⟩)

/-- An alarm without `ACTION`, in an event. -/
example : VEvent.ofStr c!"BEGIN:VEVENT\r\nBEGIN:VALARM\r\nEND:VALARM\r\nEND:VEVENT\r\n" = .panic := by
  rfl

end Examples

end Ikal
