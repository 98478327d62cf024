import Verif.Spec.MacroDuration
import Verif.Props.Duration
import Verif.TestPlatform

/-! # C33: what every text means as a duration in the syntax of the macros -/

namespace Ikal
open Spec

set_option linter.unusedSectionVars false

section
variable [Platform]

/-- A number of seconds as a duration. -/
def secondsDelta (n : Int) : TimeDelta := ⟨n * 1000000000⟩

theorem mk?_in {n : Int} (h : DurationRange n) : TimeDelta.mk? (n * 1000000000) = some (secondsDelta n) := by
  unfold DurationRange at h
  rw [mk?_eq, maxNanos_eq, if_pos (by omega)]
  rfl

theorem mk?_out {n : Int} (h : ¬ DurationRange n) : TimeDelta.mk? (n * 1000000000) = none := by
  unfold DurationRange at h
  rw [mk?_eq, maxNanos_eq, if_neg (by omega)]

theorem product_of {k n : Int} {r : Option Int} (h0 : 0 ≤ k * n) (h : Product64 k n r) : mulI64 k n = Res.unwrap r := by
  unfold mulI64 i64Max Res.unwrap
  rcases h with ⟨h1, rfl⟩ | ⟨h1, h2, rfl⟩ | ⟨h1, h2, w, q, rfl, h3, h4, h5⟩
  · rw [if_pos (by omega)]
  · rw [if_neg (by omega), h2]; rfl
  · rw [if_neg (by omega), h2]
    simp only [Bool.false_eq_true, if_false]
    congr 1
    unfold wrapI64 i64Max
    rw [h3]
    omega

theorem product_exists (k n : Int) : ∃ r, Product64 k n r := by
  by_cases h1 : k * n ≤ 9223372036854775807
  · exact ⟨_, .inl ⟨h1, rfl⟩⟩
  · cases h2 : Platform.overflowChecks with
    | true => exact ⟨_, .inr (.inl ⟨by omega, h2, rfl⟩)⟩
    | false =>
      refine ⟨_, .inr (.inr ⟨by omega, h2, (k * n + 9223372036854775808) % 18446744073709551616 - 9223372036854775808, (k * n + 9223372036854775808) / 18446744073709551616, rfl, ?_, ?_, ?_⟩)⟩ <;> omega

theorem number_of {u : MacroUnit} {n : Int} (hd : ∀ c ∈ u.number, c.isDigit = true) (h : UnitNumber u n) : parseI64 u.number = some n :=
  (parseI64_digits hd).2 ⟨h.1, h.2.1, by have := h.2.2; have := h.2.1; omega⟩

theorem number_none {u : MacroUnit} (hd : ∀ c ∈ u.number, c.isDigit = true) (h : ∀ n, ¬ UnitNumber u n) : parseI64 u.number = none := by
  cases hp : parseI64 u.number with
  | none => rfl
  | some n =>
    obtain ⟨h1, h2, h3⟩ := (parseI64_digits hd).1 hp
    exact absurd ⟨h1, h2, by omega⟩ (h n)

/-- The unit of a number of days. -/
theorem macroUnit_days {u : MacroUnit} {k : Int} (h : unitDays u = some k) : 0 ≤ k ∧
    (macroUnit u.time u.letter u.number = (Res.ofOption .parseInt (parseI64 u.number) >>= fun n => mulI64 k n >>= fun n => Res.unwrap (TimeDelta.days n))) := by
  obtain ⟨t, ds, c⟩ := u
  unfold unitDays at h
  cases t
  · simp only [Bool.false_eq_true, if_false] at h
    split at h
    · next e => subst e; cases h; exact ⟨by decide, macroUnit_Y ds⟩
    · split at h
      · next e => subst e; cases h; exact ⟨by decide, macroUnit_Mo ds⟩
      · split at h
        · next e =>
          subst e; cases h
          refine ⟨by decide, (macroUnit_D ds).trans ?_⟩
          simp only
          cases hp : parseI64 ds with
          | none => rfl
          | some n =>
            have hr : -9223372036854775808 ≤ n ∧ n ≤ 9223372036854775807 := by
              unfold parseI64 at hp
              rw [parseSigned_some] at hp
              unfold i64Max at hp
              omega
            show Res.unwrap (TimeDelta.days n) = (mulI64 1 n >>= fun n => Res.unwrap (TimeDelta.days n))
            unfold mulI64 i64Max
            rw [if_pos (by omega), Int.one_mul]
            rfl
        · cases h
  · simp at h

/-- The unit of a number of seconds. -/
theorem macroUnit_seconds {u : MacroUnit} {k : Int} (h : unitSeconds u = some k) :
    macroUnit u.time u.letter u.number = (Res.ofOption .parseInt (parseI64 u.number) >>= fun n => Res.unwrap (TimeDelta.mk? (n * k * 1000000000))) := by
  obtain ⟨t, ds, c⟩ := u
  unfold unitSeconds at h
  cases t
  · simp at h
  · simp only [if_true] at h
    split at h
    · next e => subst e; cases h; exact macroUnit_H ds
    · split at h
      · next e => subst e; cases h; exact macroUnit_Mi ds
      · split at h
        · next e =>
          subst e; cases h
          refine (macroUnit_S ds).trans ?_
          simp only [Int.mul_one]
          rfl
        · cases h

theorem macroUnit_unknown {u : MacroUnit} (h1 : unitDays u = none) (h2 : unitSeconds u = none) : macroUnit u.time u.letter u.number = .err .parseDuration := by
  obtain ⟨t, ds, c⟩ := u
  unfold unitDays at h1
  unfold unitSeconds at h2
  unfold macroUnit
  cases t
  · simp only [Bool.false_eq_true, if_false] at h1
    simp only [true_and, Bool.false_eq_true, false_and, if_false]
    split at h1 <;> try cases h1
    split at h1 <;> try cases h1
    split at h1 <;> try cases h1
    rename_i a b c
    rw [if_neg a, if_neg b, if_neg c]
  · simp only [if_true] at h2
    simp only [true_and, Bool.true_eq_false, false_and, if_false]
    split at h2 <;> try cases h2
    split at h2 <;> try cases h2
    split at h2 <;> try cases h2
    rename_i a b c
    rw [if_neg a, if_neg b, if_neg c]

theorem daysOf_cases {u : MacroUnit} {k : Int} (h : unitSeconds u = some k) : unitDays u = none := by
  unfold unitSeconds at h
  unfold unitDays
  split at h
  · next e => rw [if_pos e]
  · cases h

theorem unit_sound {u : MacroUnit} (hd : ∀ c ∈ u.number, c.isDigit = true) {r : Res Int} (h : UnitWorth u r) :
    macroUnit u.time u.letter u.number = r.map secondsDelta := by
  have nonneg : ∀ {n}, UnitNumber u n → 0 ≤ n := fun h => by have := h.2.1; omega
  cases h with
  | unknown h1 h2 => rw [macroUnit_unknown h1 h2]; rfl
  | noNumber h1 h2 =>
    have hp := number_none hd h2
    cases hk : unitDays u with
    | some k => rw [(macroUnit_days hk).2, hp]; rfl
    | none =>
      cases hs : unitSeconds u with
      | some k => rw [macroUnit_seconds hs, hp]; rfl
      | none => simp [hk, hs] at h1
  | days hk hn hp hr =>
    obtain ⟨h0, h1⟩ := macroUnit_days hk
    rw [h1, number_of hd hn, ofOption_some, Res.bind_ok, product_of (Int.mul_nonneg h0 (nonneg hn)) hp, show ∀ w : Int, Res.unwrap (some w) = .ok w from fun _ => rfl, Res.bind_ok]
    unfold TimeDelta.days TimeDelta.nps
    rw [mk?_in hr]
    rfl
  | tooManyDays hk hn hp hr =>
    obtain ⟨h0, h1⟩ := macroUnit_days hk
    rw [h1, number_of hd hn, ofOption_some, Res.bind_ok, product_of (Int.mul_nonneg h0 (nonneg hn)) hp, show ∀ w : Int, Res.unwrap (some w) = .ok w from fun _ => rfl, Res.bind_ok]
    unfold TimeDelta.days TimeDelta.nps
    rw [mk?_out hr]
    rfl
  | overflow hk hn hp =>
    obtain ⟨h0, h1⟩ := macroUnit_days hk
    rw [h1, number_of hd hn, ofOption_some, Res.bind_ok, product_of (Int.mul_nonneg h0 (nonneg hn)) hp]
    rfl
  | seconds hk hn hr =>
    rw [macroUnit_seconds hk, number_of hd hn, ofOption_some, Res.bind_ok, mk?_in hr]
    rfl
  | tooManySeconds hk hn hr =>
    rw [macroUnit_seconds hk, number_of hd hn, ofOption_some, Res.bind_ok, mk?_out hr]
    rfl

theorem unit_exists (u : MacroUnit) : ∃ r, UnitWorth u r := by
  by_cases hn : ∃ n, UnitNumber u n
  · obtain ⟨n, hn⟩ := hn
    cases hk : unitDays u with
    | some k =>
      obtain ⟨r, hp⟩ := product_exists k n
      cases r with
      | none => exact ⟨_, .overflow hk hn hp⟩
      | some w =>
        by_cases hr : DurationRange (w * 86400)
        · exact ⟨_, .days hk hn hp hr⟩
        · exact ⟨_, .tooManyDays hk hn hp hr⟩
    | none =>
      cases hs : unitSeconds u with
      | some k =>
        by_cases hr : DurationRange (n * k)
        · exact ⟨_, .seconds hs hn hr⟩
        · exact ⟨_, .tooManySeconds hs hn hr⟩
      | none => exact ⟨_, .unknown hk hs⟩
  · have hn : ∀ n, ¬ UnitNumber u n := fun n h => hn ⟨n, h⟩
    cases hk : unitDays u with
    | some k => exact ⟨_, .noNumber (.inl (by simp [hk])) hn⟩
    | none =>
      cases hs : unitSeconds u with
      | some k => exact ⟨_, .noNumber (.inr (by simp [hs])) hn⟩
      | none => exact ⟨_, .unknown hk hs⟩

theorem sum_exists (us : List MacroUnit) : ∀ a, ∃ r, UnitSum a us r := by
  induction us with
  | nil => exact fun a => ⟨_, .done⟩
  | cons u us ih =>
    intro a
    obtain ⟨r, hr⟩ := unit_exists u
    cases r with
    | ok n =>
      by_cases h : DurationRange (a + n)
      · obtain ⟨r', h'⟩ := ih (a + n)
        exact ⟨_, .more hr h h'⟩
      · exact ⟨_, .over hr h⟩
    | err e => exact ⟨_, .bad hr (by intro n h; cases h)⟩
    | panic => exact ⟨_, .bad hr (by intro n h; cases h)⟩

/-- The units of the rest of a text. -/
def unitsFrom : Str → Str → List MacroUnit
  | _, [] => []
  | before, c :: r => (unitAfter before c).toList ++ unitsFrom (before ++ [c]) r

theorem unitsFrom_eq (body : Str) : ∀ before, (List.range body.length).filterMap (fun i => (body[i]?).bind (unitAfter (before ++ body.take i))) = unitsFrom before body := by
  induction body with
  | nil => intro _; rfl
  | cons c r ih =>
    intro before
    rw [List.length_cons, List.range_succ_eq_map, List.filterMap_cons]
    have h1 : ((c :: r)[0]?).bind (unitAfter (before ++ (c :: r).take 0)) = unitAfter before c := by simp
    rw [h1, List.filterMap_map, unitsFrom, ← ih (before ++ [c])]
    have h2 : ((fun i => ((c :: r)[i]?).bind (unitAfter (before ++ (c :: r).take i))) ∘ Nat.succ) = fun i => (r[i]?).bind (unitAfter (before ++ [c] ++ r.take i)) := by
      funext i
      simp
    rw [h2]
    cases unitAfter before c <;> rfl

theorem macroUnits_eq (body : Str) : macroUnits body = unitsFrom [] body := unitsFrom_eq body []

theorem loop_sound (body : Str) : ∀ (before : Str) (a : Int) (r : Res Int), UnitSum a (unitsFrom before body) r →
    macroDurLoop (before.contains 'T') (before.filter Char.isDigit) (secondsDelta a) body = r.map secondsDelta := by
  induction body with
  | nil =>
    intro before a r h
    cases h
    rfl
  | cons c rest ih =>
    intro before a r h
    rw [unitsFrom] at h
    rw [macroDurLoop]
    by_cases hT : c = 'T'
    · subst hT
      rw [if_pos rfl]
      have : (unitAfter before 'T').toList = [] := by simp [unitAfter]
      rw [this, List.nil_append] at h
      have := ih _ _ _ h
      simpa using this
    · rw [if_neg hT]
      by_cases hc : c.isDigit = true
      · rw [if_pos hc]
        have : (unitAfter before c).toList = [] := by simp [unitAfter, hc]
        rw [this, List.nil_append] at h
        have := ih _ _ _ h
        have e1 : (before ++ [c]).contains 'T' = before.contains 'T' := by
          simp
          exact fun e => absurd e.symm hT
        have e2 : (before ++ [c]).filter Char.isDigit = before.filter Char.isDigit ++ [c] := by simp [hc]
        rw [e1, e2] at this
        exact this
      · rw [if_neg hc]
        have hu : unitAfter before c = some ⟨before.contains 'T', before.filter Char.isDigit, c⟩ := by
          unfold unitAfter
          rw [if_neg (by simp [hc, hT])]
        rw [hu] at h
        have hd : ∀ d ∈ before.filter Char.isDigit, d.isDigit = true := fun d hd => (List.mem_filter.1 hd).2
        have e1 : (before ++ [c]).contains 'T' = before.contains 'T' := by
          simp
          exact fun e => absurd e.symm hT
        have e2 : (before ++ [c]).filter Char.isDigit = before.filter Char.isDigit := by simp [hc]
        have hadd : ∀ n, (secondsDelta a).add (secondsDelta n) = TimeDelta.mk? ((a + n) * 1000000000) := by
          intro n
          unfold TimeDelta.add secondsDelta
          simp only
          rw [Int.add_mul]
        cases h with
        | bad hw hne =>
          have := unit_sound (u := ⟨before.contains 'T', before.filter Char.isDigit, c⟩) hd hw
          simp only at this
          rw [this]
          cases r with
          | ok n => exact absurd rfl (hne n)
          | err e => rfl
          | panic => rfl
        | over hw hr =>
          have := unit_sound (u := ⟨before.contains 'T', before.filter Char.isDigit, c⟩) hd hw
          simp only at this
          rw [this, Res.map_ok, Res.bind_ok, hadd, mk?_out hr]
          rfl
        | more hw hr hs =>
          have := unit_sound (u := ⟨before.contains 'T', before.filter Char.isDigit, c⟩) hd hw
          simp only at this
          rw [this, Res.map_ok, Res.bind_ok, hadd, mk?_in hr]
          simp only [Res.unwrap, Res.bind_ok]
          have := ih _ _ _ hs
          rw [e1, e2] at this
          exact this

/-- **C33**: what every text means as a duration in the syntax of the macros, and of `FromStr` for triggers. -/
theorem C33_complete (s : Str) (r : Res TimeDelta) : parseDuration s = r ↔ MacroDuration s r := by
  have sound : ∀ r, MacroDuration s r → parseDuration s = r := by
    intro r h
    cases h with
    | positive hs h =>
      subst hs
      rw [macroUnits_eq] at h
      have := loop_sound _ _ _ _ h
      rw [parseDuration_pos]
      rw [show TimeDelta.zero = secondsDelta 0 from rfl]
      rw [show ([] : Str).contains 'T' = false from rfl, List.filter_nil] at this
      rw [this]
      rename_i x
      cases x <;> rfl
    | negative hs h =>
      subst hs
      rw [macroUnits_eq] at h
      have := loop_sound _ _ _ _ h
      rw [parseDuration_neg]
      rw [show TimeDelta.zero = secondsDelta 0 from rfl]
      rw [show ([] : Str).contains 'T' = false from rfl, List.filter_nil] at this
      rw [this]
      rename_i x
      cases x with
      | ok n =>
        show Res.ok (⟨-(n * 1000000000)⟩ : TimeDelta) = Res.ok ⟨-n * 1000000000⟩
        rw [Int.neg_mul]
      | err e => rfl
      | panic => rfl
    | other h =>
      unfold parseDuration
      split
      rename_i neg t hm
      split
      · rename_i u
        exfalso
        split at hm
        · cases hm; exact (h u).2 rfl
        · cases hm; exact (h u).1 rfl
      · rfl
  constructor
  · rintro rfl
    have ex : ∃ r, MacroDuration s r := by
      by_cases h : ∃ body, s = 'P' :: body
      · obtain ⟨body, h⟩ := h
        obtain ⟨r, hr⟩ := sum_exists (macroUnits body) 0
        exact ⟨_, .positive h hr⟩
      · by_cases h' : ∃ body, s = '-' :: 'P' :: body
        · obtain ⟨body, h'⟩ := h'
          obtain ⟨r, hr⟩ := sum_exists (macroUnits body) 0
          exact ⟨_, .negative h' hr⟩
        · exact ⟨_, .other fun body => ⟨fun e => h ⟨body, e⟩, fun e => h' ⟨body, e⟩⟩⟩
    obtain ⟨r, hr⟩ := ex
    rw [sound r hr]
    exact hr
  · exact sound r

end

/-! ## Examples -/

section

/-- A platform without overflow checks. -/
@[reducible] def exampleRelease : Platform := { utc with overflowChecks := false }

/-- One day and, because of its digit, twelve hours. -/
example : macroUnits c!"1DT2H" = [⟨false, c!"1", 'D'⟩, ⟨true, c!"12", 'H'⟩] := by rfl

example : @parseDuration utc c!"P1DT2H" = .ok ⟨(86400 + 12 * 3600) * 1000000000⟩ := by decide +kernel

/-- More years than fit 64 bits: a panic with overflow checks; without them the product loses 2⁶⁴ days. -/
example : @parseDuration utc c!"P50539024859478223Y" = .panic ∧ @parseDuration exampleRelease c!"P50539024859478223Y" = .ok ⟨-221 * 86400 * 1000000000⟩ := by decide +kernel

/-- So it is a duration of what is left of the product. -/
example : @MacroDuration exampleRelease c!"P50539024859478223Y" (.ok ⟨-221 * 86400 * 1000000000⟩) := (@C33_complete exampleRelease _ _).1 (by decide +kernel)

end

end Ikal
