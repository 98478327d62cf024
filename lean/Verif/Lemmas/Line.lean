import Verif.Lemmas.Nom
import Verif.Lemmas.SMap
import Verif.Spec.Line

/-! # The content line parser and its specification -/

namespace Ikal

open Nom Spec

theorem isNameChar_iff (c : Char) : isNameChar c = true ↔ NameChar c := by
  simp only [isNameChar, NameChar, Bool.or_eq_true, decide_eq_true_eq, Char.isAlpha, Char.isUpper,
    Char.isLower, Char.isDigit, Bool.and_eq_true, Char.le_def]
  simp only [show ('a' : Char).val = 97 from rfl, show ('z' : Char).val = 122 from rfl,
    show ('A' : Char).val = 65 from rfl, show ('Z' : Char).val = 90 from rfl,
    show ('0' : Char).val = 48 from rfl, show ('9' : Char).val = 57 from rfl, ge_iff_le]
  grind

theorem key_ok {i r k : Str} :
    key i = .ok r k ↔ i = k ++ r ∧ IsName k ∧ (∀ c, r.head? = some c → ¬ NameChar c) := by
  unfold key; rw [takeWhile_ok]
  simp only [isNameChar_iff, IsName]
  constructor
  · rintro ⟨a, b, c⟩; exact ⟨a, b, fun x hx => by rw [← isNameChar_iff, c x hx]; simp⟩
  · rintro ⟨a, b, c⟩; refine ⟨a, b, fun x hx => ?_⟩
    have := c x hx; rw [← isNameChar_iff] at this; simpa using this

theorem not_nameChar {c : Char} (h : c = ';' ∨ c = ':' ∨ c = '=' ∨ c = '"' ∨ c = '\r' ∨ c = '\n' ∨ c = ',' ∨ c = ' ') :
    ¬ NameChar c := by
  rw [← isNameChar_iff]
  rcases h with h | h | h | h | h | h | h | h <;> subst h <;> decide

theorem key_append {k r : Str} (hk : IsName k) (hr : ∀ c, r.head? = some c → ¬ NameChar c) :
    key (k ++ r) = .ok r k := key_ok.2 ⟨rfl, hk, hr⟩

/-- `takeTill` stops at the first matching character or at the end. -/
theorem attrTill_ok {i r v : Str} :
    takeTill (fun c => c = ';' || c = ':') i = .ok r v ↔
      i = v ++ r ∧ ';' ∉ v ∧ ':' ∉ v ∧ (∀ c, r.head? = some c → c = ';' ∨ c = ':') := by
  rw [takeTill_ok]
  constructor
  · rintro ⟨a, b, c⟩
    exact ⟨a, fun h => by simpa using b _ h, fun h => by simpa using b _ h, by simpa using c⟩
  · rintro ⟨a, b, b', c⟩
    refine ⟨a, fun x hx => ?_, by simpa using c⟩
    simp only [Bool.or_eq_false_iff, decide_eq_false_iff_not]
    exact ⟨by rintro rfl; exact b hx, by rintro rfl; exact b' hx⟩

theorem attrValue_ok {i r v : Str} :
    attrValue i = .ok r v ↔
      (i = c!"\r\n " ++ v ++ r ∧ ';' ∉ v ∧ ':' ∉ v ∧ (∀ c, r.head? = some c → c = ';' ∨ c = ':')) ∨
      (¬ c!"\r\n " <+: i ∧ i = v ++ r ∧ ';' ∉ v ∧ ':' ∉ v ∧ (∀ c, r.head? = some c → c = ';' ∨ c = ':')) := by
  unfold attrValue
  rw [preceded_ok]
  simp only [attrTill_ok]
  cases h : tag c!"\r\n " i with
  | ok r1 x =>
    obtain ⟨hi, _⟩ := tag_ok.1 h
    simp only [opt, h, NRes.ok.injEq]
    constructor
    · rintro ⟨r', a, ⟨rfl, rfl⟩, rfl, h2⟩; left; exact ⟨by simp [hi], h2⟩
    · rintro (⟨h1, h2⟩ | ⟨h1, h2⟩)
      · refine ⟨r1, _, ⟨rfl, rfl⟩, ?_, h2⟩
        rw [hi, List.append_assoc] at h1
        exact List.append_cancel_left h1
      · exact absurd ⟨r1, hi.symm⟩ h1
  | err =>
    rw [tag_err] at h
    simp only [opt, tag_err.2 h, NRes.ok.injEq]
    constructor
    · rintro ⟨r', a, ⟨rfl, rfl⟩, h2⟩; right; exact ⟨h, h2⟩
    · rintro (⟨rfl, h2⟩ | ⟨h1, h2⟩)
      · exact absurd ⟨v ++ r, by simp⟩ h
      · exact ⟨i, _, ⟨rfl, rfl⟩, h2⟩
  | panic => exact absurd h tag_panic

theorem quoteTill_ok {i r v : Str} :
    takeTill (fun c => c = '"') i = .ok r v ↔ i = v ++ r ∧ '"' ∉ v ∧ (∀ c, r.head? = some c → c = '"') := by
  rw [takeTill_ok]
  constructor
  · rintro ⟨a, b, c⟩; exact ⟨a, fun h => by simpa using b _ h, by simpa using c⟩
  · rintro ⟨a, b, c⟩
    refine ⟨a, fun x hx => ?_, by simpa using c⟩
    simp; rintro rfl; exact b hx

/-- The quoted alternative of `param`. -/
theorem quoted_ok {i r k v : Str} :
    delimited (char ';') quotedParam (char '"') i = .ok r (k, v) ↔
      i = c!";" ++ k ++ c!"=\"" ++ v ++ c!"\"" ++ r ∧ IsName k ∧ '"' ∉ v := by
  simp only [delimited_ok, quotedParam, separatedPair_ok, char_ok, key_ok, tag_ok, quoteTill_ok]
  constructor
  · rintro ⟨r1, a, r2, c, ⟨rfl, -⟩, ⟨r3, r4, x, ⟨rfl, h1, -⟩, ⟨rfl, -⟩, rfl, h2, -⟩, rfl, -⟩
    exact ⟨by simp, h1, h2⟩
  · rintro ⟨rfl, h1, h2⟩
    refine ⟨_, _, _, _, ⟨by simp; rfl, rfl⟩, ⟨c!"=\"" ++ (v ++ '"' :: r), v ++ '"' :: r, _, ⟨?_, h1, ?_⟩, ⟨rfl, rfl⟩, rfl, h2, ?_⟩, rfl, rfl⟩
    · simp
    · intro c hc; simp at hc; subst hc; exact not_nameChar (by simp)
    · intro c hc; simpa using hc.symm

theorem append_name_inj {k k' r r' : Str} (hk : IsName k) (hk' : IsName k')
    (hr : ∀ c, r.head? = some c → ¬ NameChar c) (hr' : ∀ c, r'.head? = some c → ¬ NameChar c)
    (e : k ++ r = k' ++ r') : k = k' ∧ r = r' := by
  have h1 := key_append hk hr
  have h2 := key_append hk' hr'
  rw [e, h2] at h1
  simp at h1
  exact ⟨h1.2.symm, h1.1.symm⟩

theorem delim_not_panic {i : Str} : delimited (char ';') quotedParam (char '"') i ≠ .panic := by
  simp only [delimited, preceded, terminated, quotedParam, separatedPair, ne_eq, map_panic, pair_panic, key]
  simp

theorem quoted_err {i : Str} :
    delimited (char ';') quotedParam (char '"') i = .err ↔
      ¬ ∃ k v r, i = c!";" ++ k ++ c!"=\"" ++ v ++ c!"\"" ++ r ∧ IsName k ∧ '"' ∉ v := by
  cases h : delimited (char ';') quotedParam (char '"') i with
  | ok r a => obtain ⟨k, v⟩ := a; simp only [reduceCtorEq, false_iff]; intro hn; exact hn ⟨k, v, r, quoted_ok.1 h⟩
  | err =>
    simp only [true_iff]; rintro ⟨k, v, r, h'⟩
    have := quoted_ok.2 h'; rw [h] at this; simp at this
  | panic => exact absurd h delim_not_panic

/-- `param` against its specification. -/
theorem param_ok {i r k v : Str} :
    param i = .ok r (k, v) ↔ ∃ t, i = t ++ r ∧ ParamText t k v r := by
  unfold param
  rw [alt_ok, quoted_ok, quoted_err]
  simp only [preceded_ok, separatedPair_ok, char_ok, key_ok, attrValue_ok]
  constructor
  · rintro (⟨h, h1, h2⟩ | ⟨hn, r1, _, ⟨rfl, rfl⟩, r2, r3, _, ⟨rfl, hk, _⟩, ⟨rfl, rfl⟩, hv⟩)
    · exact ⟨_, h, .quoted h1 h2⟩
    · rcases hv with ⟨rfl, hs, hc, hr⟩ | ⟨hf, rfl, hs, hc, hr⟩
      · exact ⟨c!";" ++ k ++ c!"=\r\n " ++ v, by simp, .folded hk hs hc hr⟩
      · refine ⟨c!";" ++ k ++ c!"=" ++ v, by simp, .plain hk hs hc hr ?_ ?_⟩
        · rintro w rfl hq
          apply hn
          obtain ⟨x, y, hxy, hx⟩ : ∃ x y, w ++ r = x ++ '"' :: y ∧ '"' ∉ x := by
            clear hn hf hs hc hr
            generalize w ++ r = z at hq
            induction z with
            | nil => simp at hq
            | cons a z ih =>
              by_cases ha : a = '"'
              · subst ha; exact ⟨[], z, rfl, by simp⟩
              · obtain ⟨x, y, h1, h2⟩ := ih (by simpa [Ne.symm ha] using hq)
                exact ⟨a :: x, y, by simp [h1], by simp [h2, Ne.symm ha]⟩
          exact ⟨k, x, y, by simp [hxy], hk, hx⟩
        · exact fun h => hf (h.trans (List.prefix_append _ _))
  · rintro ⟨t, rfl, hp⟩
    cases hp with
    | quoted hk hq => left; exact ⟨rfl, hk, hq⟩
    | plain hk hs hc hr hq hf =>
      right
      refine ⟨?_, k ++ c!"=" ++ v ++ r, _, ⟨by simp, rfl⟩, c!"=" ++ v ++ r, v ++ r, _, ⟨by simp, hk, ?_⟩, ⟨by simp, rfl⟩, .inr ⟨?_, rfl, hs, hc, hr⟩⟩
      · rintro ⟨k', v', r', e, hk', hq'⟩
        have e' : k ++ (c!"=" ++ v ++ r) = k' ++ (c!"=\"" ++ v' ++ c!"\"" ++ r') := by simpa using e
        have := append_name_inj hk hk' (by intro c hc; simp at hc; subst hc; exact not_nameChar (by simp))
          (by intro c hc; simp at hc; subst hc; exact not_nameChar (by simp)) e'
        have e2 : v ++ r = '"' :: (v' ++ '"' :: r') := by simpa using this.2
        cases v with
        | nil =>
          have := hr '"' (by simp at e2; simp [e2]); simp at this
        | cons a v =>
          simp at e2
          obtain ⟨rfl, e3⟩ := e2
          exact hq v rfl (by rw [e3]; simp)
      · intro c hc; simp at hc; subst hc; exact not_nameChar (by simp)
      · rintro ⟨z, hz⟩
        apply hf
        match v, hz with
        | [], hz => have := hr '\r' (by simp at hz; simp [← hz]); simp at this
        | [a], hz => have := hr '\n' (by simp at hz; simp [← hz.2]); simp at this
        | [a, b], hz => have := hr ' ' (by simp at hz; simp [← hz.2.2]); simp at this
        | a :: b :: c :: v, hz => simp at hz; obtain ⟨rfl, rfl, rfl, _⟩ := hz; exact ⟨v, rfl⟩
    | folded hk hs hc hr =>
      right
      refine ⟨?_, k ++ c!"=\r\n " ++ v ++ r, _, ⟨by simp, rfl⟩, c!"=\r\n " ++ v ++ r, c!"\r\n " ++ v ++ r, _, ⟨by simp, hk, ?_⟩, ⟨by simp, rfl⟩, .inl ⟨rfl, hs, hc, hr⟩⟩
      · rintro ⟨k', v', r', e, hk', hq'⟩
        have e' : k ++ (c!"=\r\n " ++ v ++ r) = k' ++ (c!"=\"" ++ v' ++ c!"\"" ++ r') := by simpa using e
        have := append_name_inj hk hk' (by intro c hc; simp at hc; subst hc; exact not_nameChar (by simp))
          (by intro c hc; simp at hc; subst hc; exact not_nameChar (by simp)) e'
        simp at this
      · intro c hc; simp at hc; subst hc; exact not_nameChar (by simp)

theorem Spec.ParamText.head {t k v r : Str} (h : ParamText t k v r) : ∃ t', t = ';' :: t' := by
  cases h <;> exact ⟨_, by simp; rfl⟩

theorem param_err_of_head {i : Str} (h : i.head? ≠ some ';') : param i = .err := by
  cases e : param i with
  | ok r a =>
    obtain ⟨k, v⟩ := a
    obtain ⟨t, rfl, hp⟩ := param_ok.1 e
    obtain ⟨t', rfl⟩ := hp.head
    simp at h
  | err => rfl
  | panic =>
    exfalso
    unfold param at e
    rw [alt_panic] at e
    rcases e with e | ⟨_, e⟩
    · exact delim_not_panic e
    · simp only [preceded, separatedPair, map_panic, pair_panic, attrValue, key] at e; simp at e

theorem param_not_panic (i : Str) : param i ≠ .panic := by
  intro e
  unfold param at e
  rw [alt_panic] at e
  rcases e with e | ⟨_, e⟩
  · exact delim_not_panic e
  · simp only [preceded, separatedPair, map_panic, pair_panic, attrValue, key] at e; simp at e

/-- `many0 param` up to something that is not a parameter. -/
theorem many_param {i r : Str} {ps : List (Str × Str)} (hr : r.head? ≠ some ';') :
    Many param i ps r ↔ ∃ t, i = t ++ r ∧ ParamsText t ps r := by
  constructor
  · intro h
    induction h with
    | nil _ => exact ⟨[], rfl, .nil⟩
    | @cons i r r' a as h1 _ _ ih =>
      obtain ⟨k, v⟩ := a
      obtain ⟨t, rfl, ht⟩ := param_ok.1 h1
      obtain ⟨ts, rfl, hts⟩ := ih hr
      exact ⟨t ++ ts, by simp, .cons ht hts⟩
  · rintro ⟨t, rfl, h⟩
    induction h with
    | nil => exact .nil (param_err_of_head hr)
    | @cons t ts k v rest ps ht _ ih =>
      refine .cons (r := ts ++ rest) (param_ok.2 ⟨t, by simp, ht⟩) ?_ (ih hr)
      obtain ⟨t', rfl⟩ := ht.head
      simp; omega

theorem value_ok {i r v : Str} :
    value i = .ok r v ↔ i = v ++ r ∧ '\n' ∉ v ∧ '\r' ∉ v ∧ (∀ c, r.head? = some c → c = '\n' ∨ c = '\r') := by
  unfold value
  rw [takeTill_ok]
  constructor
  · rintro ⟨a, b, c⟩
    exact ⟨a, fun h => by simpa [isLineEnding] using b _ h, fun h => by simpa [isLineEnding] using b _ h,
      fun x hx => by simpa [isLineEnding] using c x hx⟩
  · rintro ⟨a, b, b', c⟩
    refine ⟨a, fun x hx => ?_, fun x hx => by simpa [isLineEnding] using c x hx⟩
    simp only [isLineEnding, Bool.or_eq_false_iff, decide_eq_false_iff_not]
    exact ⟨by rintro rfl; exact b hx, by rintro rfl; exact b' hx⟩

theorem not_ok' {α : Type} {p : P α} {i r : Str} {u : Unit} : Nom.not p i = .ok r u ↔ p i = .err ∧ r = i := by
  cases u; exact not_ok

/-- `content_line` against its specification. -/
theorem contentLine_ok {i r : Str} {l : ContentLine} : contentLine i = .ok r l ↔ LineText i r l := by
  unfold contentLine
  simp only [map_ok, pair_ok, not_ok', tag_err, key_ok, params, char_ok, lineEnding_ok, many0_ok]
  constructor
  · rintro ⟨⟨_, _, k, pm, _, ov, e⟩, ⟨_, ⟨hb, rfl⟩, _, ⟨he, rfl⟩, r3, ⟨hi, hk, _⟩, r4, ⟨ps, hps, rfl⟩, r5, ⟨rfl, _⟩, r6, hv, rfl, heol⟩, hl⟩
    simp only [opt] at hv
    cases hv' : value r5 with
    | err => simp [value] at hv'
    | panic => simp [value] at hv'
    | ok r7 v =>
      rw [hv'] at hv
      simp at hv
      obtain ⟨rfl, rfl⟩ := hv
      obtain ⟨rfl, hn, hr, -⟩ := value_ok.1 hv'
      simp at hl
      subst hl
      subst hi
      obtain ⟨pt, rfl, hpt⟩ := (many_param (by simp)).1 hps
      refine ⟨hb, he, pt, ps, e, by simp, hk, by simpa using hpt, hn, hr, heol, SMap.ofPairs_wf _, fun k => ?_⟩
      exact SMap.get?_ofPairs ps k
  · rintro ⟨hb, he, pt, ps, eol, rfl, hk, hpt, hn, hr, heol, hwf, hget⟩
    have hpm : SMap.ofPairs ps = l.params := SMap.ext (SMap.ofPairs_wf _) hwf fun k => by
      rw [hget, SMap.get?_ofPairs]; rfl
    refine ⟨((), (), l.key, l.params, ':', some l.value, eol),
      ⟨_, ⟨hb, rfl⟩, _, ⟨he, rfl⟩, pt ++ c!":" ++ l.value ++ eol ++ r, ⟨by simp, hk, ?_⟩,
        c!":" ++ l.value ++ eol ++ r, ⟨ps, (many_param (by simp)).2 ⟨pt, by simp, by simpa using hpt⟩, hpm⟩,
        l.value ++ eol ++ r, ⟨by simp, rfl⟩, eol ++ r, ?_, rfl, heol⟩, rfl⟩
    · intro c hc
      have : pt = [] ∨ ∃ t, pt = ';' :: t := by
        cases hpt with
        | nil => exact .inl rfl
        | cons ht _ => obtain ⟨t', rfl⟩ := ht.head; exact .inr ⟨_, by simp; rfl⟩
      rcases this with rfl | ⟨t, rfl⟩ <;> simp at hc <;> subst hc <;> exact not_nameChar (by simp)
    · simp only [opt]
      rw [value_ok.2 ⟨by simp; rfl, hn, hr, ?_⟩]
      intro c hc
      rcases heol with rfl | rfl <;> simp at hc <;> simp [← hc]

theorem contentLine_not_panic (i : Str) : contentLine i ≠ .panic := by
  unfold contentLine
  simp only [ne_eq, map_panic, pair_panic, params, key, value, opt_panic, not_panic]
  simp
  intros
  exact many0_not_panic param_not_panic _

theorem Spec.LineText.length_lt {i r : Str} {l : ContentLine} (h : LineText i r l) : r.length < i.length := by
  obtain ⟨_, _, pt, ps, eol, rfl, _, _, _, _, h, _⟩ := h
  rcases h with rfl | rfl <;> simp <;> omega

theorem contentLine_err {i : Str} : contentLine i = .err ↔ ∀ r l, ¬ LineText i r l := by
  cases h : contentLine i with
  | ok r l => simp; exact ⟨r, l, contentLine_ok.1 h⟩
  | err => simp; intro r l hl; have := contentLine_ok.2 hl; rw [h] at this; simp at this
  | panic => exact absurd h (contentLine_not_panic i)

theorem contentLines_ok {i r : Str} {ls : List ContentLine} :
    contentLines i = .ok r ls ↔ LinesText i ls r := by
  unfold contentLines
  rw [many0_ok]
  constructor
  · intro h
    induction h with
    | nil h => exact .nil (contentLine_err.1 h)
    | cons h1 _ _ ih => exact .cons (contentLine_ok.1 h1) ih
  · intro h
    induction h with
    | nil h => exact .nil (contentLine_err.2 h)
    | cons h1 _ ih => exact .cons (contentLine_ok.2 h1) (Spec.LineText.length_lt h1) ih

end Ikal
