import Verif.Lemmas.Text

/-! # C07 – C12: content lines -/

namespace Ikal

open Nom Spec

/-- **C07.** A content line is read exactly when the input begins with one according to the
specification, and name, parameters, value and rest are those of the specification. -/
theorem C07_content_line_grammar (i r : Str) (l : ContentLine) :
    contentLine i = .ok r l ↔ LineText i r l := contentLine_ok

/-- **C07.** Every other input is a recoverable error; reading a content line never panics. -/
theorem C07_otherwise_error (i : Str) : contentLine i = .err ↔ ¬ ∃ r l, LineText i r l := by
  rw [contentLine_err]; simp

/-- **C07.** The decomposition is unique: name, parameters, value and rest are determined by the input. -/
theorem C07_decomposition_unique (i r r' : Str) (l l' : ContentLine) (h : LineText i r l) (h' : LineText i r' l') :
    r = r' ∧ l = l' := by
  have h1 := contentLine_ok.2 h
  rw [contentLine_ok.2 h'] at h1
  simp at h1
  exact ⟨h1.1.symm, h1.2.symm⟩

example : LineText c!"ATTENDEE;CN=\"A;B\";ROLE=CHAIR:mailto:a@b\r\nX:1\n" c!"X:1\n"
    ⟨c!"ATTENDEE", [(c!"CN", c!"A;B"), (c!"ROLE", c!"CHAIR")], c!"mailto:a@b"⟩ :=
  contentLine_ok.1 (by decide +kernel)

/-- **C08.** A quoted parameter is read verbatim, whatever its value contains but double quotes and
whatever follows it. -/
theorem C08_quoted_param (k v rest : Str) (hk : IsName k) (hv : '"' ∉ v) :
    param (c!";" ++ k ++ c!"=\"" ++ v ++ c!"\"" ++ rest) = .ok rest (k, v) :=
  param_ok.2 ⟨_, rfl, .quoted hk hv⟩

/-- **C08**, on a whole content line: with one quoted parameter. -/
theorem C08_quoted_param_line (name k v val rest : Str) (hn : IsName name) (hk : IsName k) (hv : '"' ∉ v)
    (h1 : '\n' ∉ val) (h2 : '\r' ∉ val) :
    contentLine (name ++ c!";" ++ k ++ c!"=\"" ++ v ++ c!"\":" ++ val ++ c!"\r\n" ++ rest) =
      .ok rest ⟨name, [(k, v)], val⟩ := by
  rw [contentLine_ok]
  have hne : ∀ t : Str, IsName t → ¬ t ++ c!":" <+: name ++ c!";" ++ k ++ c!"=\"" ++ v ++ c!"\":" ++ val ++ c!"\r\n" ++ rest := by
    rintro t ht ⟨z, hz⟩
    have e : t ++ (c!":" ++ z) = name ++ (c!";" ++ k ++ c!"=\"" ++ v ++ c!"\":" ++ val ++ c!"\r\n" ++ rest) := by simpa using hz
    have := (append_name_inj ht hn (by intro c hc; simp at hc; subst hc; exact not_nameChar (by simp))
      (by intro c hc; simp at hc; subst hc; exact not_nameChar (by simp)) e).2
    simp at this
  refine ⟨hne c!"BEGIN" (isName_lit (by decide)), hne c!"END" (isName_lit (by decide)),
    c!";" ++ k ++ c!"=\"" ++ v ++ c!"\"" ++ [], [(k, v)], c!"\r\n", by simp, hn, .cons (.quoted hk hv) .nil, h1, h2, .inr rfl,
    by simp [SMap.Wf], fun k' => ?_⟩
  by_cases h : k = k'
  · subst h; simp [SMap.get?, lastValue]
  · simp [SMap.get?, lastValue, h, Ne.symm h]

example : contentLine c!"DTSTART;TZID=\"a;b:c,d e\":20240101T000000\r\nrest" =
    .ok c!"rest" ⟨c!"DTSTART", [(c!"TZID", c!"a;b:c,d e")], c!"20240101T000000"⟩ := by decide +kernel

/-- **C09.** An unquoted parameter value extends to the next `;` or `:` (or the end of input),
wherever that is, line breaks included. -/
theorem C09_unquoted_param (k v rest : Str) (hk : IsName k) (h1 : ';' ∉ v) (h2 : ':' ∉ v)
    (hq : v.head? ≠ some '"') (hf : ¬ c!"\r\n " <+: v)
    (hr : rest = [] ∨ rest.head? = some ';' ∨ rest.head? = some ':') :
    param (c!";" ++ k ++ c!"=" ++ v ++ rest) = .ok rest (k, v) := by
  refine param_ok.2 ⟨_, rfl, .plain hk h1 h2 ?_ ?_ hf⟩
  · intro c hc
    rcases hr with rfl | h | h
    · simp at hc
    · rw [h] at hc; simp at hc; exact .inl hc.symm
    · rw [h] at hc; simp at hc; exact .inr hc.symm
  · rintro w rfl; simp at hq

/-- **C09, consequence.** A property with an unquoted parameter but no `:` on its line swallows the next
line(s): the name and parameter of the first line are given the value after the first `:` of the following lines. -/
theorem C09_swallows_next_line (name k v w val rest : Str) (hn : IsName name) (hk : IsName k)
    (h1 : ';' ∉ v) (h2 : ':' ∉ v) (h3 : ';' ∉ w) (h4 : ':' ∉ w) (hv : v ≠ [])
    (hq : v.head? ≠ some '"') (hcr : v.head? ≠ some '\r')
    (h5 : '\n' ∉ val) (h6 : '\r' ∉ val) :
    contentLine (name ++ c!";" ++ k ++ c!"=" ++ v ++ c!"\r\n" ++ w ++ c!":" ++ val ++ c!"\r\n" ++ rest) =
      .ok rest ⟨name, [(k, v ++ c!"\r\n" ++ w)], val⟩ := by
  rw [contentLine_ok]
  have hne : ∀ t : Str, IsName t → ¬ t ++ c!":" <+: name ++ c!";" ++ k ++ c!"=" ++ v ++ c!"\r\n" ++ w ++ c!":" ++ val ++ c!"\r\n" ++ rest := by
    rintro t ht ⟨z, hz⟩
    have e : t ++ (c!":" ++ z) = name ++ (c!";" ++ k ++ c!"=" ++ v ++ c!"\r\n" ++ w ++ c!":" ++ val ++ c!"\r\n" ++ rest) := by simpa using hz
    have := (append_name_inj ht hn (by intro c hc; simp at hc; subst hc; exact not_nameChar (by simp))
      (by intro c hc; simp at hc; subst hc; exact not_nameChar (by simp)) e).2
    simp at this
  have hhead : (v ++ c!"\r\n" ++ w).head? = v.head? := by cases v <;> simp_all
  refine ⟨hne c!"BEGIN" (isName_lit (by decide)), hne c!"END" (isName_lit (by decide)),
    c!";" ++ k ++ c!"=" ++ (v ++ c!"\r\n" ++ w) ++ [], [(k, v ++ c!"\r\n" ++ w)], c!"\r\n", by simp, hn,
    .cons (.plain hk ?_ ?_ ?_ ?_ ?_) .nil, h5, h6, .inr rfl, by simp [SMap.Wf], fun k' => ?_⟩
  · simp [h1, h3]
  · simp [h2, h4]
  · intro c hc; simp at hc; simp [← hc]
  · intro x hx; rw [hx] at hhead; exact absurd hhead.symm hq
  · rintro ⟨z, hz⟩; rw [← hz] at hhead; exact hcr hhead.symm
  · by_cases h : k = k'
    · subst h; simp [SMap.get?, lastValue]
    · simp [SMap.get?, lastValue, h, Ne.symm h]

example : contentLine c!"SUMMARY;LANGUAGE=fr\r\nDESCRIPTION:text\r\n" =
    .ok [] ⟨c!"SUMMARY", [(c!"LANGUAGE", c!"fr\r\nDESCRIPTION")], c!"text"⟩ := by decide +kernel

/-- **C10.** The parameters of a content line that was read: its text holds a sequence of
parameters, a lookup gives the value of the last one with the name, and exactly the names of the
sequence are present. -/
theorem C10_last_param_wins (i r : Str) (l : ContentLine) (h : contentLine i = .ok r l) :
    ∃ ptext ps tail, i = l.key ++ ptext ++ tail ∧ tail.head? = some ':' ∧ ParamsText ptext ps tail ∧
      (∀ k, l.params.get? k = lastValue ps k) ∧
      (∀ k, (l.params.get? k).isSome ↔ ∃ v, (k, v) ∈ ps) := by
  obtain ⟨_, _, pt, ps, eol, hi, hk, hpt, _, _, _, _, hget⟩ := contentLine_ok.1 h
  refine ⟨pt, ps, _, by rw [hi]; simp; rfl, by simp, by simpa using hpt, hget, fun k => ?_⟩
  rw [hget, lastValue, Option.isSome_map]
  constructor
  · intro hs
    obtain ⟨p, hp⟩ := Option.isSome_iff_exists.1 hs
    have := List.mem_of_getLast? hp
    simp at this
    exact ⟨p.2, by rw [← this.2]; exact this.1⟩
  · rintro ⟨v, hv⟩
    have : (ps.filter fun p => p.1 = k) ≠ [] := List.ne_nil_of_mem (a := (k, v)) (by simp [hv])
    cases hx : (ps.filter fun p => p.1 = k) with
    | nil => contradiction
    | cons a b => simp

/-- **C10**, for lines as one writes them: any list of quoted parameters. -/
theorem C10_quoted_params (name val rest : Str) (ps : List (Str × Str)) (hn : SafeName name)
    (hps : ∀ p ∈ ps, IsName p.1 ∧ '"' ∉ p.2) (h1 : '\n' ∉ val) (h2 : '\r' ∉ val) :
    ∃ m, contentLine (name ++ ps.flatMap (fun p => c!";" ++ p.1 ++ c!"=\"" ++ p.2 ++ c!"\"") ++ c!":" ++ val ++ c!"\r\n" ++ rest) =
      .ok rest ⟨name, m, val⟩ ∧ ∀ k, m.get? k = lastValue ps k := by
  refine ⟨SMap.ofPairs ps, ?_, fun k => SMap.get?_ofPairs ps k⟩
  rw [contentLine_ok]
  have hpt : ParamsText (ps.flatMap (fun p => c!";" ++ p.1 ++ c!"=\"" ++ p.2 ++ c!"\"")) ps (c!":" ++ val ++ c!"\r\n" ++ rest) := by
    induction ps with
    | nil => exact .nil
    | cons p ps ih =>
      exact .cons (.quoted (hps p (by simp)).1 (hps p (by simp)).2) (ih fun q hq => hps q (by simp [hq]))
  have hx : ∀ c, (ps.flatMap (fun p => c!";" ++ p.1 ++ c!"=\"" ++ p.2 ++ c!"\"") ++ c!":" ++ val ++ c!"\r\n" ++ rest).head? = some c → ¬ NameChar c := by
    intro c hc
    cases ps with
    | nil => simp at hc; exact not_nameChar (by simp [← hc])
    | cons p m => simp at hc; exact not_nameChar (by simp [← hc])
  refine ⟨fun h => ?_, fun h => ?_, _, ps, c!"\r\n", by simp, hn.1, hpt, h1, h2, .inr rfl, SMap.ofPairs_wf _, fun k => SMap.get?_ofPairs ps k⟩
  · exact hn.2.1 (begin_prefix (t := c!"BEGIN") hn.1 hx (isName_lit (by decide)) (by simpa using h)).symm
  · exact hn.2.2 (begin_prefix (t := c!"END") hn.1 hx (isName_lit (by decide)) (by simpa using h)).symm

example : contentLine c!"X;A=\"1\";B=\"2\";A=\"3\":v\r\n" =
    .ok [] ⟨c!"X", [(c!"A", c!"3"), (c!"B", c!"2")], c!"v"⟩ := by decide +kernel

/-- **C11.** Reading a block of properties always returns, and what it returns is, line by line, the input up to
the first place where no content line can be read. -/
theorem C11_block_total (i : Str) : ∃ r ls, contentLines i = .ok r ls ∧ LinesText i ls r := by
  cases h : contentLines i with
  | ok r ls => exact ⟨r, ls, rfl, contentLines_ok.1 h⟩
  | err => exact absurd h (many0_not_err (fun i r a h => (contentLine_ok.1 h).length_lt) i)
  | panic => exact absurd h (many0_not_panic contentLine_not_panic i)

/-- **C11.** Nothing is lost: the texts of the lines read, concatenated with the unread rest, are
the input, each text is the content line returned for it, and no content line begins at the rest. -/
theorem C11_nothing_lost (i r : Str) (ls : List ContentLine) (h : contentLines i = .ok r ls) :
    ∃ tls : List (Str × ContentLine), tls.map Prod.snd = ls ∧ i = (tls.map Prod.fst).flatten ++ r ∧
      (∀ p ∈ tls, p.1 ≠ [] ∧ ∃ after, LineText (p.1 ++ after) after p.2) ∧
      ¬ ∃ r' l, LineText r r' l := by
  have H := contentLines_ok.1 h
  clear h
  induction H with
  | nil h => exact ⟨[], rfl, rfl, by simp, by simpa using h⟩
  | @cons i r r' l ls hl _ ih =>
    obtain ⟨tls, rfl, rfl, h1, h2⟩ := ih
    have hlt := hl.length_lt
    have hl' := hl
    obtain ⟨_, _, pt, ps, eol, rfl, _⟩ := hl
    refine ⟨(l.key ++ pt ++ c!":" ++ l.value ++ eol, l) :: tls, by simp, by simp, ?_, h2⟩
    intro p hp
    rcases List.mem_cons.1 hp with rfl | hp
    · exact ⟨by simp, _, hl'⟩
    · exact h1 p hp

example : contentLines c!"A:1\r\nB;X=Y:2\nEND:VEVENT\r\n" =
    .ok c!"END:VEVENT\r\n" [⟨c!"A", [], c!"1"⟩, ⟨c!"B", [(c!"X", c!"Y")], c!"2"⟩] := by decide +kernel

/-- **C12.** Input that begins with a component delimiter is never read as a property. -/
theorem C12_delimiters (i : Str) :
    contentLine (c!"BEGIN:" ++ i) = .err ∧ contentLine (c!"END:" ++ i) = .err ∧
    contentLines (c!"BEGIN:" ++ i) = .ok (c!"BEGIN:" ++ i) [] ∧
    contentLines (c!"END:" ++ i) = .ok (c!"END:" ++ i) [] := by
  have h1 : ∀ r l, ¬ LineText (c!"BEGIN:" ++ i) r l := fun r l h => h.1 ⟨i, rfl⟩
  have h2 : ∀ r l, ¬ LineText (c!"END:" ++ i) r l := fun r l h => h.2.1 ⟨i, rfl⟩
  exact ⟨contentLine_err.2 h1, contentLine_err.2 h2, contentLines_ok.2 (.nil h1), contentLines_ok.2 (.nil h2)⟩

/-- **C12.** A block of properties followed by a delimiter ends exactly there: if each of the texts
`ts` is, before what follows, one content line, then reading the block followed by a delimiter line reads exactly these lines
and leaves the delimiter. -/
theorem C12_block_ends_at_delimiter (d : Str) (hd : c!"BEGIN:" <+: d ∨ c!"END:" <+: d)
    (tls : List (Str × ContentLine)) (h : ∀ p ∈ tls, ∀ after, LineText (p.1 ++ after) after p.2) :
    contentLines ((tls.map Prod.fst).flatten ++ d) = .ok d (tls.map Prod.snd) := by
  rw [contentLines_ok]
  induction tls with
  | nil =>
    refine .nil fun r l hl => ?_
    rcases hd with hd | hd
    · exact hl.1 hd
    · exact hl.2.1 hd
  | cons p tls ih =>
    simp only [List.map_cons, List.flatten_cons, List.append_assoc]
    exact .cons (h p (by simp) _) (ih fun q hq => h q (by simp [hq]))

end Ikal
