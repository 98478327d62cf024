import Verif.Values
import Verif.Lemmas.Nom
import Verif.Lemmas.Num
import Verif.Spec.Duration

/-! # Reading durations -/

namespace Ikal

open Nom Spec

theorem Nom.opt_ok {α : Type} {p : P α} {i r : Str} {a : Option α} :
    opt p i = .ok r a ↔ (∃ x, a = some x ∧ p i = .ok r x) ∨ (a = none ∧ r = i ∧ p i = .err) := by
  unfold opt
  cases h : p i with
  | ok r' x =>
    simp only [NRes.ok.injEq]
    constructor
    · rintro ⟨rfl, rfl⟩; exact .inl ⟨x, rfl, rfl, rfl⟩
    · rintro (⟨y, rfl, rfl, rfl⟩ | ⟨_, _, h⟩)
      · exact ⟨rfl, rfl⟩
      · cases h
  | err => simp only [NRes.ok.injEq]; constructor
           · rintro ⟨rfl, rfl⟩; exact .inr ⟨rfl, rfl, trivial⟩
           · rintro (⟨y, _, h⟩ | ⟨rfl, rfl, _⟩)
             · cases h
             · exact ⟨rfl, rfl⟩
  | panic => simp

theorem Nom.opt_err {α : Type} {p : P α} {i : Str} : opt p i ≠ .err := by
  unfold opt; cases p i <;> simp

theorem Nom.opt_of_err {α : Type} {p : P α} {i : Str} (h : p i = .err) : opt p i = .ok i none := Nom.opt_ok.2 (.inr ⟨rfl, rfl, h⟩)
theorem Nom.opt_of_ok {α : Type} {p : P α} {i r : Str} {x : α} (h : p i = .ok r x) : opt p i = .ok r (some x) := Nom.opt_ok.2 (.inl ⟨x, rfl, h⟩)

/-- Digits followed by a character that is not one. -/
theorem digits_split {ds ds' r r' : Str} {u v : Char} (h : ∀ c ∈ ds, c.isDigit = true) (h' : ∀ c ∈ ds', c.isDigit = true)
    (hu : u.isDigit = false) (hv : v.isDigit = false) (e : ds ++ u :: r = ds' ++ v :: r') : ds = ds' ∧ u = v ∧ r = r' := by
  induction ds generalizing ds' with
  | nil =>
    cases ds' with
    | nil => simp at e; exact ⟨rfl, e.1, e.2⟩
    | cons c ds' => simp at e; have := h' c (by simp); rw [← e.1, hu] at this; cases this
  | cons c ds ih =>
    cases ds' with
    | nil => simp at e; have := h c (by simp); rw [e.1, hv] at this; cases this
    | cons c' ds' =>
      simp at e
      obtain ⟨a, b, d⟩ := ih (fun x hx => h x (by simp [hx])) (fun x hx => h' x (by simp [hx])) e.2
      exact ⟨by rw [e.1, a], b, d⟩

theorem parseI64_digits {ds : Str} {n : Int} (h : ∀ c ∈ ds, c.isDigit = true) :
    parseI64 ds = some n ↔ Digits ds ∧ n = decimal ds ∧ decimal ds ≤ 9223372036854775807 := by
  unfold parseI64
  rw [parseSigned_some]
  constructor
  · rintro ⟨⟨ds', hd, (⟨rfl | rfl, h2⟩ | ⟨rfl, h2⟩)⟩, h3, h4⟩
    · exact ⟨hd, h2, by unfold i64Max at h4; omega⟩
    · exact absurd (h '+' (by simp)) (by decide)
    · exact absurd (h '-' (by simp)) (by decide)
  · rintro ⟨h1, rfl, h3⟩
    exact ⟨⟨ds, h1, .inl ⟨.inl rfl, rfl⟩⟩, by unfold i64Max; omega, by unfold i64Max; omega⟩

theorem ofOption_ok {α : Type} {e : Error} {o : Option α} {a : α} : Res.ofOption e o = .ok a ↔ o = some a := by
  cases o <;> simp [Res.ofOption]
theorem ofOption_panic {α : Type} {e : Error} {o : Option α} : Res.ofOption e o ≠ .panic := by
  cases o <;> simp [Res.ofOption]
theorem unwrap_ok {α : Type} {o : Option α} {a : α} : Res.unwrap o = .ok a ↔ o = some a := by
  cases o <;> simp [Res.unwrap]

theorem durUnit_ok {u : Char} (hu : u.isDigit = false) {i r : Str} {n : Int} :
    durUnit u i = .ok r n ↔ ∃ ds, Digits ds ∧ i = ds ++ u :: r ∧ n = decimal ds ∧ decimal ds ≤ 9223372036854775807 := by
  unfold durUnit digits
  simp only [mapRes_ok, terminated_ok, tag_ok, takeWhile_ok, ofOption_ok]
  constructor
  · rintro ⟨ds, ⟨r', s, ⟨e, h1, h2⟩, h3, _⟩, h4⟩
    rw [parseI64_digits h1] at h4
    exact ⟨ds, h4.1, by rw [e, h3]; simp, h4.2⟩
  · rintro ⟨ds, h1, h2, h3⟩
    have hd := (Digits_iff.1 h1).2
    refine ⟨ds, ⟨u :: r, _, ⟨h2, hd, by simpa using hu⟩, by simp, rfl⟩, (parseI64_digits hd).2 ⟨h1, h3⟩⟩

theorem durUnit_panic {u : Char} {i : Str} : durUnit u i ≠ .panic := by
  unfold durUnit digits
  rw [Ne, mapRes_panic]
  rintro (h | ⟨r, a, _, h⟩)
  · simp [terminated, pair_panic] at h
  · exact ofOption_panic h

theorem durUnit_err {u : Char} {i : Str} (h : ∀ r n, durUnit u i ≠ .ok r n) : durUnit u i = .err := by
  cases e : durUnit u i with
  | ok r n => exact absurd e (h r n)
  | err => rfl
  | panic => exact absurd e durUnit_panic

theorem durUnit_err_other {u v : Char} (hu : u.isDigit = false) (hv : v.isDigit = false) (hne : u ≠ v) {ds r : Str}
    (hd : Digits ds) : durUnit u (ds ++ v :: r) = .err := by
  refine durUnit_err fun r' n h => ?_
  obtain ⟨ds', h1, h2, _⟩ := (durUnit_ok hu).1 h
  exact hne (digits_split (Digits_iff.1 hd).2 (Digits_iff.1 h1).2 hv hu h2).2.1.symm

/-- The text does not begin with a digit. -/
def NoDigit (s : Str) : Prop := ∀ c, s.head? = some c → c.isDigit = false

theorem durUnit_err_noDigit {u : Char} (hu : u.isDigit = false) {s : Str} (h : NoDigit s) : durUnit u s = .err := by
  refine durUnit_err fun r' n h' => ?_
  obtain ⟨ds', h1, h2, _⟩ := (durUnit_ok hu).1 h'
  obtain ⟨c, r, rfl, hc⟩ := Digits_head h1
  have := h c (by rw [h2]; rfl)
  rw [isDigit_iff.2 hc] at this; cases this

/-- A text that begins with none of the units in `us`: with no digit, or with a number of another unit. -/
def StartsOther (us : List Char) (s : Str) : Prop :=
  NoDigit s ∨ ∃ ds v r, Digits ds ∧ v.isDigit = false ∧ v ∉ us ∧ s = ds ++ v :: r

theorem durUnit_startsOther {us : List Char} {u : Char} (hu : u.isDigit = false) (hm : u ∈ us) {s : Str} (h : StartsOther us s) : durUnit u s = .err := by
  rcases h with h | ⟨ds, v, r, h1, h2, h3, rfl⟩
  · exact durUnit_err_noDigit hu h
  · exact durUnit_err_other hu h2 (fun e => h3 (e ▸ hm)) h1

/-- One optional unit. -/
theorem opt_durUnit {us : List Char} {u : Char} (hu : u.isDigit = false) (hm : u ∈ us) {n : Option Str} (hn : DurationFields.NumberOk n) {s : Str} (h : StartsOther us s) :
    opt (durUnit u) (unitText n u ++ s) = .ok s (n.map fun ds => (decimal ds : Int)) := by
  cases n with
  | none => exact opt_of_err (durUnit_startsOther hu hm h)
  | some ds =>
    obtain ⟨h1, h2⟩ := hn ds rfl
    exact opt_of_ok ((durUnit_ok hu).2 ⟨ds, h1, by simp [unitText], rfl, h2⟩)

theorem startsOther_unit {us : List Char} {u : Char} (hu : u.isDigit = false) (hm : u ∉ us) {n : Option Str} (hn : DurationFields.NumberOk n) {s : Str} (h : StartsOther us s) :
    StartsOther us (unitText n u ++ s) := by
  cases n with
  | none => exact h
  | some ds => exact .inr ⟨ds, u, s, (hn ds rfl).1, hu, hm, by simp [unitText]⟩

theorem StartsOther.mono {us vs : List Char} (h : ∀ u ∈ us, u ∈ vs) {s : Str} (hs : StartsOther vs s) : StartsOther us s := by
  rcases hs with h' | ⟨ds, v, r, h1, h2, h3, h4⟩
  · exact .inl h'
  · exact .inr ⟨ds, v, r, h1, h2, fun hm => h3 (h _ hm), h4⟩

theorem getD_amount (n : Option Str) : (n.map fun ds => (decimal ds : Int)).getD 0 = amount n := by
  cases n <;> rfl

/-- What ends a duration: neither a digit nor `T`. -/
def Ends (r : Str) : Prop := NoDigit r ∧ r.head? ≠ some 'T'

theorem durTime_text {h m s : Option Str} (hh : DurationFields.NumberOk h) (hm : DurationFields.NumberOk m) (hs : DurationFields.NumberOk s)
    {r : Str} (hr : NoDigit r) :
    durTime ('T' :: (unitText h 'H' ++ unitText m 'M' ++ unitText s 'S') ++ r) = .ok r ((amount h : Int), (amount m : Int), (amount s : Int)) := by
  unfold durTime
  simp only [map_ok, preceded_ok, tag_ok, pair_ok]
  have o3 : StartsOther ['H', 'M', 'S'] r := .inl hr
  have o2 : StartsOther ['H', 'M'] (unitText s 'S' ++ r) := startsOther_unit (by decide) (by decide) hs (o3.mono (by simp))
  have o1 : StartsOther ['H'] (unitText m 'M' ++ (unitText s 'S' ++ r)) := startsOther_unit (by decide) (by decide) hm (o2.mono (by simp))
  have e1 := opt_durUnit (us := ['H']) (u := 'H') (by decide) (by simp) hh o1
  have e2 := opt_durUnit (us := ['H', 'M']) (u := 'M') (by decide) (by simp) hm o2
  have e3 := opt_durUnit (us := ['H', 'M', 'S']) (u := 'S') (by decide) (by simp) hs o3
  exact ⟨(_, _, _), ⟨unitText h 'H' ++ (unitText m 'M' ++ (unitText s 'S' ++ r)), _, ⟨by simp, rfl⟩, ⟨_, e1, ⟨_, e2, e3⟩⟩⟩,
    by cases h <;> cases m <;> cases s <;> rfl⟩

theorem durTime_err {s : Str} (h : s.head? ≠ some 'T') : durTime s = .err := by
  unfold durTime
  rw [map_err, preceded, map_err, pair_err]
  left
  rw [tag_err]
  rintro ⟨r, rfl⟩
  exact h rfl

theorem mk?_eq (n : Int) : TimeDelta.mk? n = if -TimeDelta.maxNanos ≤ n ∧ n ≤ TimeDelta.maxNanos then some ⟨n⟩ else none := rfl

/-- The sum of non-negative parts: a panic exactly when the sum is out of range. -/
theorem durSum_eq {neg : Bool} {w d h m s : Int} (hw : 0 ≤ w) (hd : 0 ≤ d) (hh : 0 ≤ h) (hm : 0 ≤ m) (hs : 0 ≤ s) :
    durSum neg w d (some (h, m, s)) =
      let n := (w * 604800 + d * 86400 + (h * 3600 + m * 60 + s)) * 1000000000
      if n ≤ TimeDelta.maxNanos then some ⟨if neg then -n else n⟩ else none := by
  have hmax : TimeDelta.maxNanos = 9223372036854775807000000 := by decide
  simp only [durSum, TimeDelta.weeks, TimeDelta.days, TimeDelta.hours, TimeDelta.minutes, TimeDelta.seconds, TimeDelta.add, mk?_eq, TimeDelta.nps, hmax, TimeDelta.neg]
  by_cases hn : (w * 604800 + d * 86400 + (h * 3600 + m * 60 + s)) * 1000000000 ≤ 9223372036854775807000000
  · simp only [if_pos hn]
    rw [if_pos (by omega)]
    simp only [Option.bind_eq_bind, Option.bind_some]
    rw [if_pos (by omega)]
    simp only [Option.bind_some]
    rw [if_pos (by omega)]
    simp only [Option.bind_some]
    rw [if_pos (by omega)]
    simp only [Option.bind_some]
    rw [if_pos (by omega)]
    simp only [Option.bind_some]
    rw [if_pos (by omega)]
    simp only [Option.bind_some]
    rw [if_pos (by omega)]
    simp only [Option.bind_some]
    rw [if_pos (by omega)]
    simp only [Option.bind_some]
    rw [if_pos (by omega)]
    simp only [Option.bind_some]
    cases neg <;> simp <;> omega
  · simp only [if_neg hn, Option.bind_eq_bind]
    by_cases h1 : w * 604800 * 1000000000 ≤ 9223372036854775807000000
    · rw [if_pos (by omega), Option.bind_some]; try dsimp only
      by_cases h2 : d * 86400 * 1000000000 ≤ 9223372036854775807000000
      · rw [if_pos (by omega), Option.bind_some]; try dsimp only
        by_cases h3 : w * 604800 * 1000000000 + d * 86400 * 1000000000 ≤ 9223372036854775807000000
        · rw [if_pos (by omega), Option.bind_some]; try dsimp only
          by_cases h4 : h * 3600 * 1000000000 ≤ 9223372036854775807000000
          · rw [if_pos (by omega), Option.bind_some]; try dsimp only
            by_cases h5 : w * 604800 * 1000000000 + d * 86400 * 1000000000 + h * 3600 * 1000000000 ≤ 9223372036854775807000000
            · rw [if_pos (by omega), Option.bind_some]; try dsimp only
              by_cases h6 : m * 60 * 1000000000 ≤ 9223372036854775807000000
              · rw [if_pos (by omega), Option.bind_some]; try dsimp only
                by_cases h7 : w * 604800 * 1000000000 + d * 86400 * 1000000000 + h * 3600 * 1000000000 + m * 60 * 1000000000 ≤ 9223372036854775807000000
                · rw [if_pos (by omega), Option.bind_some]; try dsimp only
                  by_cases h8 : s * 1000000000 ≤ 9223372036854775807000000
                  · rw [if_pos (by omega), Option.bind_some]; try dsimp only
                    rw [if_neg (by omega)]; rfl
                  · rw [if_neg (by omega)]; rfl
                · rw [if_neg (by omega)]; rfl
              · rw [if_neg (by omega)]; rfl
            · rw [if_neg (by omega)]; rfl
          · rw [if_neg (by omega)]; rfl
        · rw [if_neg (by omega)]; rfl
      · rw [if_neg (by omega)]; rfl
    · rw [if_neg (by omega)]; rfl

theorem durSum_none {neg : Bool} {w d : Int} (hw : 0 ≤ w) (hd : 0 ≤ d) :
    durSum neg w d none = durSum neg w d (some (0, 0, 0)) := by
  have hmax : TimeDelta.maxNanos = 9223372036854775807000000 := by decide
  rw [durSum_eq hw hd (by omega) (by omega) (by omega)]
  simp only [durSum, TimeDelta.weeks, TimeDelta.days, TimeDelta.add, mk?_eq, TimeDelta.nps, hmax, TimeDelta.neg, Option.bind_eq_bind]
  by_cases h1 : w * 604800 * 1000000000 ≤ 9223372036854775807000000
  · rw [if_pos (by omega), Option.bind_some]; try dsimp only
    by_cases h2 : d * 86400 * 1000000000 ≤ 9223372036854775807000000
    · rw [if_pos (by omega), Option.bind_some]; try dsimp only
      by_cases h3 : w * 604800 * 1000000000 + d * 86400 * 1000000000 ≤ 9223372036854775807000000
      · rw [if_pos (by omega), Option.bind_some, if_pos (by omega)]
        cases neg <;> simp <;> omega
      · rw [if_neg (by omega), Option.bind_none, if_neg (by omega)]
    · rw [if_neg (by omega), Option.bind_none, if_neg (by omega)]
  · rw [if_neg (by omega), Option.bind_none, if_neg (by omega)]

/-- The parts of a duration text, before the arithmetic. -/
def durParts : P (Option Str × Option Int × Option Int × Option (Int × Int × Int)) :=
  pair (opt (tag ['-'])) (preceded (tag ['P']) (pair (opt (durUnit 'W')) (pair (opt (durUnit 'D')) (opt durTime))))

theorem durationP_ok_of {i r : Str} {neg : Option Str} {w d : Option Int} {t : Option (Int × Int × Int)} {x : TimeDelta}
    (h : durParts i = .ok r (neg, w, d, t)) (hs : durSum neg.isSome (w.getD 0) (d.getD 0) t = some x) : durationP i = .ok r x := by
  unfold durationP
  rw [mapRes_ok]
  exact ⟨_, h, unwrap_ok.2 hs⟩

theorem durationP_panic_of {i r : Str} {neg : Option Str} {w d : Option Int} {t : Option (Int × Int × Int)}
    (h : durParts i = .ok r (neg, w, d, t)) (hs : durSum neg.isSome (w.getD 0) (d.getD 0) t = none) : durationP i = .panic := by
  unfold durationP
  rw [mapRes_panic]
  exact .inr ⟨_, _, h, by simp only [hs, Res.unwrap]⟩

theorem durParts_text {neg : Bool} {w d : Option Str} (hw : DurationFields.NumberOk w) (hd : DurationFields.NumberOk d) {rest r : Str}
    {tt : Option (Int × Int × Int)} (h1 : StartsOther ['W', 'D'] rest) (h2 : opt durTime rest = .ok r tt) :
    durParts ((if neg then ['-'] else []) ++ 'P' :: (unitText w 'W' ++ (unitText d 'D' ++ rest))) =
      .ok r (if neg then some ['-'] else none, w.map (fun ds => (decimal ds : Int)), d.map (fun ds => (decimal ds : Int)), tt) := by
  have o1 : StartsOther ['W'] (unitText d 'D' ++ rest) := startsOther_unit (by decide) (by decide) hd (h1.mono (by simp))
  have e1 := opt_durUnit (us := ['W']) (u := 'W') (by decide) (by simp) hw o1
  have e2 := opt_durUnit (us := ['W', 'D']) (u := 'D') (by decide) (by simp) hd h1
  have e0 : opt (tag ['-']) ((if neg then ['-'] else []) ++ 'P' :: (unitText w 'W' ++ (unitText d 'D' ++ rest))) =
      .ok ('P' :: (unitText w 'W' ++ (unitText d 'D' ++ rest))) (if neg then some ['-'] else none) := by
    cases neg
    · refine opt_of_err ?_
      rw [tag_err]
      rintro ⟨x, hx⟩
      simp at hx
    · refine opt_of_ok ?_
      rw [tag_ok]; exact ⟨rfl, rfl⟩
  unfold durParts
  simp only [pair_ok, preceded_ok, tag_ok]
  exact ⟨_, e0, _, _, ⟨rfl, rfl⟩, _, e1, _, e2, h2⟩

theorem sign_isSome (neg : Bool) : (if neg = true then some ['-'] else none : Option Str).isSome = neg := by cases neg <;> rfl

/-- The time part of a written duration, with nothing for no time part. -/
theorem durSum_fields (f : DurationFields) :
    durSum f.negative (amount f.weeks) (amount f.days) (f.time.map fun (h, m, s) => ((amount h : Int), (amount m : Int), (amount s : Int))) =
      if (f.seconds : Int) * 1000000000 ≤ TimeDelta.maxNanos then some ⟨f.nanos⟩ else none := by
  obtain ⟨neg, w, d, t⟩ := f
  have key : ∀ (x : Int) (secs : Nat), x = secs → (let n := ((amount w : Int) * 604800 + amount d * 86400 + x) * 1000000000
        if n ≤ TimeDelta.maxNanos then some (⟨if neg then -n else n⟩ : TimeDelta) else none) =
      if ((amount w * 604800 + amount d * 86400 + secs : Nat) : Int) * 1000000000 ≤ TimeDelta.maxNanos then
        some ⟨(if neg then -1 else 1) * (((amount w * 604800 + amount d * 86400 + secs : Nat) : Int) * 1000000000)⟩ else none := by
    rintro x secs rfl
    have e : ((amount w * 604800 + amount d * 86400 + secs : Nat) : Int) = (amount w : Int) * 604800 + amount d * 86400 + secs := by omega
    rw [e]
    cases neg
    · simp only [Bool.false_eq_true, if_false, Int.one_mul]
    · simp only [if_true, Int.neg_mul, Int.one_mul]
  cases t with
  | none =>
    simp only [Option.map_none]
    rw [durSum_none (by omega) (by omega), durSum_eq (by omega) (by omega) (by omega) (by omega) (by omega)]
    exact key _ 0 (by omega)
  | some p =>
    obtain ⟨h, m, s⟩ := p
    simp only [Option.map_some]
    rw [durSum_eq (by omega) (by omega) (by omega) (by omega) (by omega)]
    exact key _ (amount h * 3600 + amount m * 60 + amount s) (by omega)

theorem durParts_fields (f : DurationFields) (hf : f.Ok) {r : Str} (hr : Ends r) :
    durParts (f.text ++ r) = .ok r (if f.negative then some ['-'] else none, f.weeks.map (fun ds => (decimal ds : Int)),
      f.days.map (fun ds => (decimal ds : Int)), f.time.map fun (h, m, s) => ((amount h : Int), (amount m : Int), (amount s : Int))) := by
  obtain ⟨neg, w, d, t⟩ := f
  obtain ⟨hw, hd, ht⟩ := hf
  simp only at hw hd ht
  cases t with
  | none =>
    have := durParts_text (neg := neg) hw hd (.inl hr.1) (opt_of_err (durTime_err hr.2))
    simpa [DurationFields.text] using this
  | some p =>
    obtain ⟨h, m, s⟩ := p
    obtain ⟨hh, hm, hs⟩ := ht h m s rfl
    have := durParts_text (neg := neg) hw hd (.inl (by intro c hc; simp at hc; subst hc; decide)) (opt_of_ok (durTime_text hh hm hs hr.1))
    simpa [DurationFields.text] using this

/-- Reading a written duration. -/
theorem durationP_text (f : DurationFields) (hf : f.Ok) {r : Str} (hr : Ends r) :
    ((f.seconds : Int) * 1000000000 ≤ TimeDelta.maxNanos → durationP (f.text ++ r) = .ok r ⟨f.nanos⟩) ∧
    (¬ (f.seconds : Int) * 1000000000 ≤ TimeDelta.maxNanos → durationP (f.text ++ r) = .panic) := by
  have h1 := durParts_fields f hf hr
  have h2 := durSum_fields f
  constructor
  · intro h
    rw [if_pos h] at h2
    refine durationP_ok_of h1 ?_
    rw [getD_amount, getD_amount, sign_isSome]; exact h2
  · intro h
    rw [if_neg h] at h2
    refine durationP_panic_of h1 ?_
    rw [getD_amount, getD_amount, sign_isSome]; exact h2

end Ikal
