import Verif.Lemmas.Text

/-! # C04, C05, C06: escaping of text -/

namespace Ikal

open Nom Spec

theorem escapedAs_escape (s : Str) : EscapedAs s (escape s) := by
  induction s with
  | nil => exact .nil
  | cons c s ih =>
    rw [escape_cons]
    unfold escChar
    split
    · subst_vars; exact .semicolon ih
    · split
      · subst_vars; exact .comma ih
      · split
        · subst_vars; exact .newline ih
        · exact .other (by assumption) (by assumption) (by assumption) ih

theorem Spec.EscapedAs.unique {s o o' : Str} (h : EscapedAs s o) (h' : EscapedAs s o') : o = o' := by
  induction h generalizing o' with
  | nil => cases h'; rfl
  | semicolon _ ih => cases h' with
    | semicolon h => rw [ih h]
    | other h1 => simp at h1
  | comma _ ih => cases h' with
    | comma h => rw [ih h]
    | other _ h1 => simp at h1
  | newline _ ih => cases h' with
    | newline h => rw [ih h]
    | other _ _ h1 => simp at h1
  | other h1 h2 h3 _ ih => cases h' with
    | semicolon h => simp at h1
    | comma h => simp at h2
    | newline h => simp at h3
    | other _ _ _ h => rw [ih h]

/-- **C04.** What is written for a text (a `String`, a `Text` property, a URI, an unknown property)
is the text with exactly `;`, `,` and line feeds escaped and nothing else changed. -/
theorem C04_written_text_is_escaped (s : Str) (t : Text) (u : Uri) (l : ContentLine) :
    (∃ o, Ser.ical s = .ok o ∧ EscapedAs s o) ∧ (∃ o, Ser.ical t = .ok o ∧ EscapedAs t.text o) ∧
    (∃ o, Ser.ical u = .ok o ∧ EscapedAs u.uri o) ∧ (∃ o, Ser.ical l = .ok o ∧ EscapedAs l.value o) :=
  ⟨⟨_, rfl, escapedAs_escape _⟩, ⟨_, rfl, escapedAs_escape _⟩, ⟨_, rfl, escapedAs_escape _⟩, ⟨_, rfl, escapedAs_escape _⟩⟩

/-- **C04.** Every `;` and `,` in written text is immediately preceded by a backslash, and no line
feed remains. -/
theorem C04_no_structural_characters (s o : Str) (h : Ser.ical s = .ok o) :
    '\n' ∉ o ∧ ∀ a b c, o = a ++ c :: b → c = ';' ∨ c = ',' → ∃ a', a = a' ++ ['\\'] := by
  have h' : escape s = o := by simpa [Ser.ical] using h
  clear h
  subst h'
  refine ⟨lf_not_mem_escape s, ?_⟩
  have H := escapedAs_escape s
  generalize escape s = o at H
  suffices H2 : ∀ a b c, o = a ++ c :: b → (c = ';' ∨ c = ',') → ∃ a', a = a' ++ ['\\'] by exact H2
  induction H with
  | nil => intro a b c h; simp at h
  | @semicolon s o _ ih =>
    intro a b c e hc
    match a, e with
    | [], e => simp at e; obtain ⟨rfl, _⟩ := e; simp at hc
    | [x], e => simp at e; exact ⟨[], by simp [← e.1]⟩
    | x :: y :: a, e =>
      simp at e
      obtain ⟨a', rfl⟩ := ih a b c e.2.2 hc
      exact ⟨x :: y :: a', rfl⟩
  | @comma s o _ ih =>
    intro a b c e hc
    match a, e with
    | [], e => simp at e; obtain ⟨rfl, _⟩ := e; simp at hc
    | [x], e => simp at e; exact ⟨[], by simp [← e.1]⟩
    | x :: y :: a, e =>
      simp at e
      obtain ⟨a', rfl⟩ := ih a b c e.2.2 hc
      exact ⟨x :: y :: a', rfl⟩
  | @newline s o _ ih =>
    intro a b c e hc
    match a, e with
    | [], e => simp at e; obtain ⟨rfl, _⟩ := e; simp at hc
    | [x], e => simp at e; exact ⟨[], by simp [← e.1]⟩
    | x :: y :: a, e =>
      simp at e
      obtain ⟨a', rfl⟩ := ih a b c e.2.2 hc
      exact ⟨x :: y :: a', rfl⟩
  | @other d s o h1 h2 h3 _ ih =>
    intro a b c e hc
    match a, e with
    | [], e => simp at e; obtain ⟨rfl, _⟩ := e; rcases hc with rfl | rfl <;> contradiction
    | x :: a, e =>
      simp at e
      obtain ⟨a', rfl⟩ := ih a b c e.2 hc
      exact ⟨x :: a', rfl⟩

example : Ser.ical (c!"a;b,c\nd" : Str) = .ok c!"a\\;b\\,c\\nd" := by decide

theorem unescape_escape {s : Str} (h : '\\' ∉ s) : unescape (escape s) = s := by
  induction s with
  | nil => rfl
  | cons c s ih =>
    simp at h
    rw [escape_cons]
    unfold escChar
    split
    · subst_vars; simp [unescape, ih h.2]
    · split
      · subst_vars; simp [unescape, ih h.2]
      · split
        · subst_vars; simp [unescape, ih h.2]
        · have : unescape (c :: escape s) = c :: unescape (escape s) := by
            rw [unescape] <;> (intros; simp_all)
          simp [this, ih h.2]

/-- **C05.** The RFC 5545 unescaping recovers a written text that contains no backslash. -/
theorem C05_unescape_recovers (s o : Str) (hs : '\\' ∉ s) (h : Ser.ical s = .ok o) : unescape o = s := by
  have h : escape s = o := by simpa [Ser.ical] using h
  subst h; exact unescape_escape hs

/-- **C05.** Two texts without backslash that are written identically are equal. -/
theorem C05_injective (s s' : Str) (hs : '\\' ∉ s) (hs' : '\\' ∉ s')
    (h : Ser.ical s = Ser.ical s') : s = s' := by
  have h : escape s = escape s' := by simpa [Ser.ical] using h
  rw [← unescape_escape hs, h, unescape_escape hs']

/-- **C05, refutation.** With backslashes, escaping is not injective: in any context, a line feed
and the two characters backslash `n` are written identically (so are `;` and backslash `;`
... after a backslash is added, etc.). -/
theorem C05_not_injective (a b : Str) :
    Ser.ical (a ++ c!"\n" ++ b) = Ser.ical (a ++ c!"\\n" ++ b) ∧ a ++ c!"\n" ++ b ≠ a ++ c!"\\n" ++ b := by
  constructor
  · simp only [Ser.ical, escape_append]; congr 2
  · intro h
    have := congrArg List.length h
    simp at this

/-- **C05, refutation.** Nor does the RFC 5545 unescaping recover a text with a backslash before `n`. -/
theorem C05_unescape_fails (b : Str) :
    ∃ o, Ser.ical (c!"\\n" ++ b) = .ok o ∧ unescape o ≠ c!"\\n" ++ b ∧ (unescape o).head? = some '\n' := by
  have h : unescape (escape (c!"\\n" ++ b)) = c!"\n" ++ unescape (escape b) := by
    rw [escape_append]
    rfl
  refine ⟨_, rfl, ?_, ?_⟩
  · rw [h]
    intro e
    exact absurd (List.cons.inj e).1 (by decide)
  · rw [h]
    rfl

theorem field_text_unfold {name : Str} {t : Text} {out : Str} (hn : IsName name) (hp : SafeParams t.params)
    (hne : t.text ≠ []) (h : field name t = .ok out) :
    unfold out = propertyLine name (paramsAttr t.params) (escape t.text) := by
  have hl := no_lf_line (v := escape t.text) hn hp (lf_not_mem_escape _)
  refine C01_unfold_folded (α := Text) rfl name t _ out rfl (escape_ne_nil hne) ?_ h
  change ¬ HasFold (propertyLine name (paramsAttr t.params) (escape t.text))
  rw [propertyLine_safe hp]
  exact not_fold_of_no_lf hl

/-- **C06.** A text written by the serialiser and read by the parser: when it holds no carriage
return the property read has the *escaped* text as value, whatever follows on the next lines. -/
theorem C06_read_back (name : Str) (t : Text) (out rest : Str)
    (hn : SafeName name) (hp : SafeParams t.params) (hne : t.text ≠ []) (hcr : '\r' ∉ t.text)
    (h : field name t = .ok out) :
    ∃ l o, contentLine (unfold out ++ rest) = .ok rest l ∧ EscapedAs t.text o ∧
      textProp l = .ok ⟨t.params, o⟩ := by
  rw [field_text_unfold hn.1 hp hne h]
  refine ⟨_, _, contentLine_ok.2 (lineText_written hn hp (lf_not_mem_escape _) ?_ rest), escapedAs_escape _, rfl⟩
  intro hx
  rcases mem_escape hx with h | h | h
  · exact hcr h
  · simp at h
  · simp at h

theorem value_unique {v w e e' r r' : Str} (hv : '\n' ∉ v ∧ '\r' ∉ v) (hw : '\n' ∉ w ∧ '\r' ∉ w)
    (he : e = c!"\n" ∨ e = c!"\r\n") (he' : (∃ t, e' = '\r' :: t) ∨ e' = c!"\n")
    (h : v ++ e ++ r = w ++ e' ++ r') : v = w ∧ e ++ r = e' ++ r' := by
  have h1 : value (v ++ (e ++ r)) = .ok (e ++ r) v := value_ok.2 ⟨rfl, hv.1, hv.2, by
    intro c hc; rcases he with rfl | rfl <;> simp at hc <;> simp [← hc]⟩
  have h2 : value (w ++ (e' ++ r')) = .ok (e' ++ r') w := value_ok.2 ⟨rfl, hw.1, hw.2, by
    intro c hc; rcases he' with ⟨t, rfl⟩ | rfl <;> simp at hc <;> simp [← hc]⟩
  rw [← List.append_assoc, h, List.append_assoc, h2] at h1
  simp only [NRes.ok.injEq] at h1
  exact ⟨h1.2.symm, h1.1.symm⟩

/-- A written line with a carriage return in its value cannot be read. -/
theorem written_cr_err {name v : Str} {m : SMap Str} (hn : SafeName name) (hm : SafeParams m)
    (h1 : '\n' ∉ v) (h2 : '\r' ∈ v) (rest r : Str) (l : ContentLine) :
    contentLine (propertyLine name (paramsAttr m) v ++ rest) ≠ .ok r l := by
  intro h
  obtain ⟨hb, he, pt, ps, eol, e, hk, hpt, hv1, hv2, heol, _⟩ := contentLine_ok.1 h
  obtain ⟨a, b, hv, ha⟩ : ∃ a b, v = a ++ '\r' :: b ∧ '\r' ∉ a := by
    clear h h1 e hb he
    induction v with
    | nil => simp at h2
    | cons x v ih =>
      by_cases hx : x = '\r'
      · subst hx; exact ⟨[], v, rfl, by simp⟩
      · obtain ⟨a, b, h1, h2⟩ := ih (by simpa [Ne.symm hx] using h2)
        exact ⟨x :: a, b, by simp [h1], by simp [h2, Ne.symm hx]⟩
  rw [propertyLine_safe hm] at e
  -- both sides parse the same way up to the value
  have e1 : name ++ (paramsText m ++ c!":" ++ v ++ c!"\r\n" ++ rest) = l.key ++ (pt ++ c!":" ++ l.value ++ eol ++ r) := by
    simpa using e
  have hx1 : ∀ c, (paramsText m ++ c!":" ++ v ++ c!"\r\n" ++ rest).head? = some c → ¬ NameChar c := by
    intro c hc
    cases m with
    | nil => simp [paramsText] at hc; exact not_nameChar (by simp [← hc])
    | cons p m => simp [paramsText] at hc; exact not_nameChar (by simp [← hc])
  have hx2 : ∀ c, (pt ++ c!":" ++ l.value ++ eol ++ r).head? = some c → ¬ NameChar c := by
    intro c hc
    have : pt = [] ∨ ∃ t, pt = ';' :: t := by
      cases hpt with
      | nil => exact .inl rfl
      | cons ht _ => obtain ⟨t', rfl⟩ := ht.head; exact .inr ⟨_, by simp; rfl⟩
    rcases this with rfl | ⟨t, rfl⟩ <;> simp at hc <;> subst hc <;> exact not_nameChar (by simp)
  have e2 := (append_name_inj hn.1 hk hx1 hx2 e1).2
  have m1 := (many_param (i := paramsText m ++ (c!":" ++ v ++ c!"\r\n" ++ rest)) (r := c!":" ++ v ++ c!"\r\n" ++ rest) (ps := m) (by simp)).2
    ⟨_, rfl, paramsText_spec hm.2 (by simp)⟩
  have m2 := (many_param (i := pt ++ (c!":" ++ l.value ++ eol ++ r)) (r := c!":" ++ l.value ++ eol ++ r) (ps := ps) (by simp)).2
    ⟨_, rfl, hpt⟩
  rw [show paramsText m ++ (c!":" ++ v ++ c!"\r\n" ++ rest) = pt ++ (c!":" ++ l.value ++ eol ++ r) by simpa using e2] at m1
  have e3 := (m1.det m2).2
  have e4 : l.value ++ eol ++ r = a ++ ('\r' :: (b ++ c!"\r\n")) ++ rest := by
    rw [hv] at e3; simpa using e3.symm
  have e5 := value_unique ⟨hv1, hv2⟩ ⟨fun h => h1 (by rw [hv]; simp [h]), ha⟩ heol (.inl ⟨_, rfl⟩) e4
  rcases heol with rfl | rfl
  · simp at e5
  · have e6 := e5.2
    simp at e6
    cases b with
    | nil => simp at e6
    | cons x b => simp at e6; exact h1 (by rw [hv]; simp [← e6.1])

/-- **C06.** A text value survives a write/read cycle if and only if it is not empty and contains none of `;`, `,`,
line feed and carriage return. -/
theorem C06_survives_iff (name : Str) (t : Text) (out rest : Str)
    (hn : SafeName name) (hp : SafeParams t.params)
    (h : field name t = .ok out) :
    (∃ l, contentLine (unfold out ++ rest) = .ok rest l ∧ textProp l = .ok t) ↔
      t.text ≠ [] ∧ (';' ∉ t.text ∧ ',' ∉ t.text ∧ '\n' ∉ t.text) ∧ '\r' ∉ t.text := by
  by_cases hne : t.text = []
  · refine ⟨?_, fun h => absurd hne h.1⟩
    rintro ⟨l, hl, -⟩
    have h0 : field name t = .ok [] := by
      show (Res.ok (escape t.text) >>= fun s => _) = _
      rw [hne]; rfl
    rw [h0] at h
    cases h
    exact absurd (contentLine_ok.1 hl).length_lt (Nat.lt_irrefl _)
  refine Iff.trans ?_ ⟨fun h => ⟨hne, h⟩, And.right⟩
  constructor
  · rintro ⟨l, hl, ht⟩
    by_cases hcr : '\r' ∈ t.text
    · rw [field_text_unfold hn.1 hp hne h] at hl
      exact absurd hl (written_cr_err hn hp (lf_not_mem_escape _) (mem_escape_of hcr (by decide)) _ _ _)
    · refine ⟨?_, hcr⟩
      obtain ⟨l', o, hl', ho, ht'⟩ := C06_read_back name t out rest hn hp hne hcr h
      rw [hl] at hl'
      simp at hl'
      subst hl'
      rw [ht] at ht'
      simp at ht'
      have : o = t.text := by rw [ht']
      have h3 := (escapedAs_escape t.text).unique ho
      rw [this] at h3
      exact escape_eq_self.1 h3
  · rintro ⟨hpl, hcr⟩
    obtain ⟨l, o, hl, ho, ht⟩ := C06_read_back name t out rest hn hp hne hcr h
    have : o = t.text := by
      rw [← (escapedAs_escape t.text).unique ho]; exact escape_plain hpl
    exact ⟨l, hl, by rw [ht, this]⟩

/-- **C06.** A carriage return makes the written property unreadable: no content line is read. -/
theorem C06_carriage_return_unreadable (name : Str) (t : Text) (out rest : Str)
    (hn : SafeName name) (hp : SafeParams t.params) (hcr : '\r' ∈ t.text)
    (h : field name t = .ok out) : contentLine (unfold out ++ rest) = .err := by
  have hne : t.text ≠ [] := by intro h; rw [h] at hcr; simp at hcr
  rw [field_text_unfold hn.1 hp hne h]
  cases e : contentLine (propertyLine name (paramsAttr t.params) (escape t.text) ++ rest) with
  | err => rfl
  | panic => exact absurd e (contentLine_not_panic _)
  | ok r l => exact absurd e (written_cr_err hn hp (lf_not_mem_escape _) (mem_escape_of hcr (by decide)) _ _ _)

/-- **C06.** Escaping accumulates: writing, reading and writing again gives a strictly longer value
whenever the text contains `;` or `,`. -/
theorem C06_escaping_accumulates (s o o' : Str) (h : Ser.ical s = .ok o) (h' : Ser.ical o = .ok o')
    (hs : ';' ∈ s ∨ ',' ∈ s) : o.length < o'.length ∧ o' ≠ o := by
  have h : escape s = o := by simpa [Ser.ical] using h
  have h' : escape o = o' := by simpa [Ser.ical] using h'
  subst h; subst h'
  have hm : ';' ∈ escape s ∨ ',' ∈ escape s := by
    rcases hs with hs | hs
    · exact .inl (mem_escape_of hs (by decide))
    · exact .inr (mem_escape_of hs (by decide))
  have hlt : ∀ x : Str, (';' ∈ x ∨ ',' ∈ x) → x.length < (escape x).length := by
    intro x hx
    induction x with
    | nil => simp at hx
    | cons c x ih =>
      rw [escape_cons]
      have h0 := escape_length_le x
      by_cases hc : c = ';' ∨ c = ','
      · have : (escChar c).length = 2 := by rcases hc with rfl | rfl <;> decide
        simp; omega
      · simp at hc
        have := ih (by simpa [Ne.symm hc.1, Ne.symm hc.2] using hx)
        have h1 : 1 ≤ (escChar c).length := by unfold escChar; split <;> (try split) <;> (try split) <;> simp
        simp; omega
  have := hlt _ hm
  exact ⟨this, fun h => by rw [h] at this; omega⟩

/-- C06: the hypotheses hold and both sides occur. -/
example : SafeName c!"SUMMARY" ∧ SafeParams [(c!"LANGUAGE", c!"fr")] ∧
    field c!"SUMMARY" (⟨[(c!"LANGUAGE", c!"fr")], c!"Réunion: 10h"⟩ : Text) = .ok c!"SUMMARY;LANGUAGE=fr:Réunion: 10h\r\n" ∧
    field c!"SUMMARY" (⟨[], c!"a,b"⟩ : Text) = .ok c!"SUMMARY:a\\,b\r\n" ∧
    contentLine c!"SUMMARY:a\\,b\r\n" = .ok [] ⟨c!"SUMMARY", [], c!"a\\,b"⟩ := by
  refine ⟨⟨isName_lit (by decide), by decide, by decide⟩, ⟨by decide, ?_⟩, by decide +kernel, by decide +kernel, by decide +kernel⟩
  intro p hp
  simp at hp; subst hp
  exact ⟨isName_lit (by decide), by decide, by decide, by decide, by decide, by decide⟩

end Ikal
