import Verif.Props.Trace
import Verif.Props.TraceValues

/-!
# C95, continued: the text of the message
-/

set_option linter.unusedSectionVars false

namespace Ikal

variable [DebugChars]

/-! ## A character -/

/-- The value of a hexadecimal digit. -/
def hexDigitVal (c : Char) : Nat := if c.toNat < 58 then c.toNat - 48 else c.toNat - 87

/-- The value of a hexadecimal numeral. -/
def hexVal (s : Str) : Nat := s.foldl (fun n c => n * 16 + hexDigitVal c) 0

theorem hexDigit_val {n : Nat} (h : n < 16) : hexDigitVal (hexDigit n) = n := by
  have : ∀ n : Fin 16, hexDigitVal (hexDigit n) = n := by decide
  exact this ⟨n, h⟩

theorem hexDigit_ne {n : Nat} (h : n < 16) : hexDigit n ≠ '}' := by
  have : ∀ n : Fin 16, hexDigit n ≠ '}' := by decide
  exact this ⟨n, h⟩

theorem hexStr_val : ∀ (k n : Nat), n < 16 ^ (k + 1) → hexVal (hexStr k n) = n := by
  intro k
  induction k with
  | zero =>
    intro n h
    simp only [Nat.zero_add, Nat.pow_one] at h
    simp [hexStr, hexVal, Nat.mod_eq_of_lt h, hexDigit_val h]
  | succ k ih =>
    intro n h
    unfold hexStr
    split
    · next hn => simp [hexVal, hexDigit_val hn]
    · have h1 : n / 16 < 16 ^ (k + 1) := by
        rw [Nat.pow_succ] at h
        exact Nat.div_lt_of_lt_mul (by rw [Nat.mul_comm]; exact h)
      have h2 := ih (n / 16) h1
      unfold hexVal at h2 ⊢
      rw [List.foldl_append, h2]
      simp only [List.foldl_cons, List.foldl_nil]
      rw [hexDigit_val (Nat.mod_lt _ (by decide))]
      omega

theorem hexStr_ne : ∀ (k n : Nat), '}' ∉ hexStr k n := by
  intro k
  induction k with
  | zero => intro n; simp only [hexStr, List.mem_singleton]; exact fun e => hexDigit_ne (Nat.mod_lt _ (by decide)) e.symm
  | succ k ih =>
    intro n
    unfold hexStr
    split
    · next hn => simp only [List.mem_singleton]; exact fun e => hexDigit_ne hn e.symm
    · simp only [List.mem_append, List.mem_singleton, not_or]
      exact ⟨ih _, fun e => hexDigit_ne (Nat.mod_lt _ (by decide)) e.symm⟩

/-- Reading back one written character. -/
def unescapeChar : Str → Option (Char × Str)
  | '\\' :: 'u' :: '{' :: r => some (Char.ofNat (hexVal (r.takeWhile (· ≠ '}'))), (r.dropWhile (· ≠ '}')).tail)
  | '\\' :: '0' :: r => some ('\x00', r)
  | '\\' :: 't' :: r => some ('\t', r)
  | '\\' :: 'r' :: r => some ('\r', r)
  | '\\' :: 'n' :: r => some ('\n', r)
  | '\\' :: c :: r => some (c, r)
  | c :: r => some (c, r)
  | [] => none

theorem unescape_unicode (c : Char) (r : Str) : unescapeChar (unicodeEscape c ++ r) = some (c, r) := by
  have hs : ∀ (h : Str), '}' ∉ h → (h ++ '}' :: r).takeWhile (fun x => decide (x ≠ '}')) = h ∧ (h ++ '}' :: r).dropWhile (fun x => decide (x ≠ '}')) = '}' :: r := by
    intro h hh
    have hp : ∀ x ∈ h, (decide (x ≠ '}')) = true := by
      intro x hx
      have : x ≠ '}' := fun e => hh (by rw [← e]; exact hx)
      simpa using this
    rw [List.takeWhile_append_of_pos hp, List.dropWhile_append_of_pos hp]
    simp
  obtain ⟨h1, h2⟩ := hs _ (hexStr_ne 5 c.toNat)
  have e : unicodeEscape c ++ r = '\\' :: 'u' :: '{' :: (hexStr 5 c.toNat ++ '}' :: r) := by simp [unicodeEscape]
  rw [e]
  show some (Char.ofNat (hexVal ((hexStr 5 c.toNat ++ '}' :: r).takeWhile fun x => decide (x ≠ '}'))),
    ((hexStr 5 c.toNat ++ '}' :: r).dropWhile fun x => decide (x ≠ '}')).tail) = _
  rw [h1, h2, hexStr_val]
  · simp
  · have := c.valid
    have h : c.toNat < 1114112 := by
      unfold Char.toNat
      rcases this with h | h
      · have : c.val.toNat < 55296 := h
        omega
      · exact h.2
    exact Nat.lt_of_lt_of_le h (by decide)

theorem unescape_debugChar (c : Char) (r : Str) : unescapeChar (debugChar c ++ r) = some (c, r) := by
  unfold debugChar
  split
  · next e => subst e; rfl
  split
  · next e => subst e; rfl
  split
  · next e => subst e; rfl
  split
  · next e => subst e; rfl
  split
  · next e => subst e; rfl
  split
  · next e _ =>
    show unescapeChar (c :: r) = _
    unfold unescapeChar
    split <;> simp_all
  · exact unescape_unicode c r

theorem debugChar_ne_nil (c : Char) : debugChar c ≠ [] := by
  unfold debugChar
  repeat' split
  all_goals simp [unicodeEscape]

/-- A character of a written text. -/
def debugStrChar (c : Char) : Str := if c = '"' then c!"\\\"" else debugChar c

theorem unescape_debugStrChar (c : Char) (r : Str) : unescapeChar (debugStrChar c ++ r) = some (c, r) := by
  unfold debugStrChar
  split
  · next e => subst e; rfl
  · exact unescape_debugChar c r

theorem debugStrChar_head (c : Char) (r : Str) : (debugStrChar c ++ r).head? ≠ some '"' := by
  unfold debugStrChar
  split
  · simp
  · next h =>
    unfold debugChar
    repeat' split
    all_goals simp_all [unicodeEscape]

/-- A text written by `Debug` can be read back, whatever follows it. -/
theorem debugStr_append_inj {s s' r r' : Str} (h : debugStr s ++ r = debugStr s' ++ r') : s = s' ∧ r = r' := by
  have key : ∀ (s s' : Str), s.flatMap debugStrChar ++ '"' :: r = s'.flatMap debugStrChar ++ '"' :: r' → s = s' ∧ r = r' := by
    intro s
    induction s with
    | nil =>
      intro s' h
      cases s' with
      | nil => simpa using h
      | cons c s' =>
        have := debugStrChar_head c (s'.flatMap debugStrChar ++ '"' :: r')
        rw [← List.append_assoc, ← List.flatMap_cons, ← h] at this
        simp at this
    | cons c s ih =>
      intro s' h
      cases s' with
      | nil =>
        have := debugStrChar_head c (s.flatMap debugStrChar ++ '"' :: r)
        rw [← List.append_assoc, ← List.flatMap_cons, h] at this
        simp at this
      | cons c' s' =>
        have h1 := unescape_debugStrChar c (s.flatMap debugStrChar ++ '"' :: r)
        have h2 := unescape_debugStrChar c' (s'.flatMap debugStrChar ++ '"' :: r')
        rw [← List.append_assoc, ← List.flatMap_cons] at h1 h2
        rw [h, h2] at h1
        injection h1 with h1
        injection h1 with h3 h4
        obtain ⟨rfl, rfl⟩ := ih s' h4.symm
        exact ⟨by rw [h3], rfl⟩
  refine key s s' ?_
  have : ∀ x, debugStr x = '"' :: (x.flatMap debugStrChar ++ ['"']) := fun _ => rfl
  rw [this, this] at h
  simpa using h

/-! ## The message -/

theorem lit_append_inj {a r r' : Str} (h : a ++ r = a ++ r') : r = r' := List.append_cancel_left h

theorem NomKind.debug_inj {k k' : NomKind} {r r' : Str} (h : k.debug ++ ',' :: r = k'.debug ++ ',' :: r') : k = k' ∧ r = r' := by
  cases k <;> cases k' <;> simp [NomKind.debug] at h ⊢ <;> exact h

/-- The kind of an entry in the middle of a message. -/
theorem TraceKind.debug_append_inj {k k' : TraceKind} {r r' : Str} (h : k.debug ++ r = k'.debug ++ r') : k = k' ∧ r = r' := by
  cases k with
  | context s =>
    cases k' with
    | context s' =>
      simp only [TraceKind.debug, debugLine, List.append_assoc] at h
      have h := lit_append_inj (lit_append_inj (lit_append_inj (lit_append_inj h)))
      obtain ⟨rfl, h⟩ := debugStr_append_inj h
      exact ⟨rfl, by simpa using h⟩
    | chr c => simp [TraceKind.debug, debugLine, List.replicate] at h
    | nom k => simp [TraceKind.debug, debugLine, List.replicate] at h
  | chr c =>
    cases k' with
    | context s' => simp [TraceKind.debug, debugLine, List.replicate] at h
    | chr c' =>
      have back : ∀ (c : Char) (q : Str), unescapeChar ((if c = '\'' then c!"\\'" else debugChar c) ++ q) = some (c, q) := by
        intro c q
        split
        · next e => subst e; rfl
        · exact unescape_debugChar c q
      simp only [TraceKind.debug, debugLine, List.append_assoc] at h
      have h := lit_append_inj (lit_append_inj (lit_append_inj (lit_append_inj h)))
      simp only [List.cons_append, List.append_assoc] at h
      injection h with _ h
      have h := congrArg unescapeChar h
      rw [back, back] at h
      injection h with h
      injection h with h1 h2
      subst h1
      exact ⟨rfl, by simpa using h2⟩
    | nom k => simp [TraceKind.debug, debugLine, List.replicate] at h
  | nom k =>
    cases k' with
    | context s' => simp [TraceKind.debug, debugLine, List.replicate] at h
    | chr c => simp [TraceKind.debug, debugLine, List.replicate] at h
    | nom k' =>
      simp only [TraceKind.debug, debugLine, List.append_assoc] at h
      have h := lit_append_inj (lit_append_inj (lit_append_inj (lit_append_inj h)))
      obtain ⟨rfl, h⟩ := NomKind.debug_inj h
      exact ⟨rfl, by simpa using h⟩

theorem debugEntry_append_inj {e e' : Str × TraceKind} {r r' : Str} (h : debugEntry e ++ r = debugEntry e' ++ r') : e = e' ∧ r = r' := by
  obtain ⟨s, k⟩ := e
  obtain ⟨s', k'⟩ := e'
  simp only [debugEntry, debugLine, List.append_assoc] at h
  have h := lit_append_inj (lit_append_inj (lit_append_inj (lit_append_inj h)))
  obtain ⟨h1, h2⟩ := debugStr_append_inj h
  obtain ⟨h3, h4⟩ := TraceKind.debug_append_inj (lit_append_inj (lit_append_inj h2))
  exact ⟨by rw [h1, h3], lit_append_inj (lit_append_inj (lit_append_inj h4))⟩

theorem debugEntry_cons (e : Str × TraceKind) : ∃ q, debugEntry e = c!"            (" ++ q := ⟨_, rfl⟩

theorem entries_inj {r : Str} (hr : ∀ q, r ≠ c!"            (" ++ q) : ∀ (t t' : Trace), t.flatMap debugEntry ++ r = t'.flatMap debugEntry ++ r → t = t' := by
  intro t
  induction t with
  | nil =>
    intro t' h
    cases t' with
    | nil => rfl
    | cons e t' =>
      obtain ⟨q, hq⟩ := debugEntry_cons e
      rw [List.flatMap_cons, hq] at h
      exact absurd (by simpa using h) (hr (q ++ (t'.flatMap debugEntry ++ r)))
  | cons e t ih =>
    intro t' h
    cases t' with
    | nil =>
      obtain ⟨q, hq⟩ := debugEntry_cons e
      rw [List.flatMap_cons, hq] at h
      exact absurd (by simpa using h.symm) (hr (q ++ (t.flatMap debugEntry ++ r)))
    | cons e' t' =>
      simp only [List.flatMap_cons, List.append_assoc] at h
      obtain ⟨h1, h2⟩ := debugEntry_append_inj h
      rw [h1, ih t' h2]

/-- **C95.** The entries of an error can be recovered from its message, whatever is in the texts: quotes, backslashes, line breaks, and characters
of any script. -/
theorem C95_message_tells (t t' : Trace) : t.message = t'.message ↔ t = t' := by
  refine ⟨fun h => ?_, fun h => by rw [h]⟩
  unfold Trace.message at h
  cases t with
  | nil =>
    cases t' with
    | nil => rfl
    | cons e t' => simp [debugLine, List.replicate] at h
  | cons e t =>
    cases t' with
    | nil => simp [debugLine, List.replicate] at h
    | cons e' t' =>
      simp only [List.isEmpty_cons, Bool.false_eq_true, if_false, List.append_assoc] at h
      have h := lit_append_inj (lit_append_inj (lit_append_inj h))
      refine entries_inj (fun q => ?_) _ _ h
      simp [debugLine, List.replicate]

theorem kindName_debug {k : NomKind} {n : String} (h : Spec.Full.KindName k n) : k.debug = n.toList := by
  cases h <;> rfl

set_option maxRecDepth 8000 in
/-- **C95**: the message of an error with one entry. -/
theorem C95_message_one (u : Str) (k : NomKind) (n : String) (hn : Spec.Full.KindName k n) : Trace.message [(u, .nom k)] =
    c!"Error(\n    VerboseError {\n        errors: [\n            (\n                " ++ debugStr u ++
    c!",\n                Nom(\n                    " ++ n.toList ++
    c!",\n                ),\n            ),\n        ],\n    },\n)" := by
  simp only [Trace.message, List.isEmpty_cons, Bool.false_eq_true, if_false, List.flatMap_cons, List.flatMap_nil, List.append_nil, debugEntry, TraceKind.debug, debugLine, List.append_assoc]
  rw [kindName_debug hn]
  rfl

set_option maxRecDepth 8000 in
/-- **C95**: the message of an error with an entry and the name of what was read. -/
theorem C95_message_two (u v name : Str) (k : NomKind) (n : String) (hn : Spec.Full.KindName k n) : Trace.message [(u, .nom k), (v, .context name)] =
    c!"Error(\n    VerboseError {\n        errors: [\n            (\n                " ++ debugStr u ++
    c!",\n                Nom(\n                    " ++ n.toList ++
    c!",\n                ),\n            ),\n            (\n                " ++ debugStr v ++
    c!",\n                Context(\n                    " ++ debugStr name ++
    c!",\n                ),\n            ),\n        ],\n    },\n)" := by
  simp only [Trace.message, List.isEmpty_cons, Bool.false_eq_true, if_false, List.flatMap_cons, List.flatMap_nil, List.append_nil, debugEntry, TraceKind.debug, debugLine, List.append_assoc]
  rw [kindName_debug hn]
  rfl

set_option maxRecDepth 8000 in
/-- **C95**: the message of an error with one entry for a missing character, which both `=` and `;` are. -/
theorem C95_message_char (u : Str) (c : Char) (hc : 32 ≤ c.toNat ∧ c.toNat < 127 ∧ c ≠ '\'' ∧ c ≠ '\\') : Trace.message [(u, .chr c)] =
    c!"Error(\n    VerboseError {\n        errors: [\n            (\n                " ++ debugStr u ++
    c!",\n                Char(\n                    '" ++ [c] ++
    c!"',\n                ),\n            ),\n        ],\n    },\n)" := by
  obtain ⟨h1, h2, h3, h4⟩ := hc
  have ne : ∀ d : Char, d.toNat < 32 → c ≠ d := fun d hd e => by subst e; omega
  have hd : (if c = '\'' then c!"\\'" else debugChar c) = [c] := by
    simp only [debugChar, h3, h4, ne '\x00' (by decide), ne '\t' (by decide), ne '\r' (by decide), ne '\n' (by decide), h1, h2, if_false, and_self,
      true_or, if_true]
  simp only [Trace.message, List.isEmpty_cons, Bool.false_eq_true, if_false, List.flatMap_cons, List.flatMap_nil, List.append_nil, debugEntry, TraceKind.debug, debugLine, List.append_assoc, hd]
  rfl

/-- **C95**: the message of an error with more entries has what the messages of the entries have, one after the other. -/
theorem C95_message_entries : ∃ text : Str × TraceKind → Str, ∀ t : Trace, t ≠ [] →
    t.message = c!"Error(\n    VerboseError {\n        errors: [\n" ++ t.flatMap text ++ c!"        ],\n    },\n)" := by
  refine ⟨debugEntry, fun t h => ?_⟩
  have : t.isEmpty = false := by cases t with | nil => exact absurd rfl h | cons => rfl
  unfold Trace.message
  simp only [this, Bool.false_eq_true, if_false, List.append_assoc]
  rfl

/-- **C95**: a text of printable ASCII characters other than the quote and the backslash stands in the message as it is, in quotes. -/
theorem C95_plain (s : Str) (h : ∀ c ∈ s, 32 ≤ c.toNat ∧ c.toNat < 127 ∧ c ≠ '"' ∧ c ≠ '\\') : debugStr s = '"' :: s ++ ['"'] := by
  have : s.flatMap debugStrChar = s := by
    induction s with
    | nil => rfl
    | cons c s ih =>
      obtain ⟨h1, h2, h3, h4⟩ := h c (List.mem_cons_self ..)
      rw [List.flatMap_cons, ih fun x hx => h x (List.mem_cons_of_mem _ hx)]
      have ne : ∀ d : Char, d.toNat < 32 → c ≠ d := fun d hd e => by subst e; omega
      simp only [debugStrChar, debugChar, h3, h4, ne '\x00' (by decide), ne '\t' (by decide), ne '\r' (by decide), ne '\n' (by decide), h1, h2, if_false, and_self,
        true_or, if_true]
      rfl
  show '"' :: (s.flatMap debugStrChar ++ ['"']) = _
  rw [this]; rfl

section
variable [Platform]

/-- **C95.** The error message of a calendar contains its whole (unfolded) text: the messages of calendars with different texts are different. -/
theorem C95_calendar_message (s s' u u' : Str) (hu : Spec.Full.Unfolds s u) (hu' : Spec.Full.Unfolds s' u') (m : Str)
    (h : (Traced.ofStr Traced.vcalendar s).said = some m) (h' : (Traced.ofStr Traced.vcalendar s').said = some m) : u = u' := by
  cases k : Traced.ofStr Traced.vcalendar s with
  | ok r a => rw [k] at h; cases h
  | panic => rw [k] at h; cases h
  | err t =>
    cases k' : Traced.ofStr Traced.vcalendar s' with
    | ok r a => rw [k'] at h'; cases h'
    | panic => rw [k'] at h'; cases h'
    | err t' =>
      rw [k] at h
      rw [k'] at h'
      have e : t = t' := (C95_message_tells t t').1 (Option.some.inj (h.trans h'.symm))
      subst e
      obtain ⟨-, v, hv, x, -, rfl⟩ := (C95_VCalendar s _).1 k
      obtain ⟨-, v', hv', x', -, e⟩ := (C95_VCalendar s' _).1 k'
      have e2 : v = v' := by
        injection e with _ e
        injection e with e _
        exact (Prod.mk.inj e).1
      rw [unfolds_iff] at hu hu' hv hv'
      rw [← hu, ← hu', hv, hv', e2]

/-- **C95.** There is a message exactly if `parse()` returns an error. -/
theorem C95_said (s : Str) : (∃ m, (Traced.ofStr Traced.vcalendar s).said = some m) ↔ VCalendar.ofStr s = .err .parser := by
  rw [← (C95_same s).1]
  cases Traced.ofStr Traced.vcalendar s <;> simp [TRes.said, TRes.forget, NRes.toRes]

end

end Ikal

namespace Ikal

/-! ## Concrete cases -/

/-- The entries of an error. -/
def TRes.trace? {α : Type} : TRes α → Option Trace
  | .err t => some t
  | _ => none

section
attribute [local instance] utc
local instance : DebugChars := ⟨fun c => c = 'é'⟩
local instance : FloatTrace := ⟨fun s => [(s, .nom .float)]⟩

-- A calendar with a to-do whose priority is out of range: the error shows the to-do, not the priority.
example : ((Traced.ofStr Traced.vcalendar
      c!"BEGIN:VCALENDAR\r\nPRODID:a\r\nVERSION:2.0\r\nBEGIN:VTODO\r\nDTSTAMP:20240101T000000\r\nUID:1\r\nPRIORITY:77\r\nEND:VTODO\r\nEND:VCALENDAR\r\n").trace?.map
      (·.head?)) = some (some (c!"BEGIN:VTODO\r\nDTSTAMP:20240101T000000\r\nUID:1\r\nPRIORITY:77\r\nEND:VTODO\r\nEND:VCALENDAR\r\n", .nom .tag)) := by
  decide +kernel

-- An event that is not closed.
example : (Traced.ofStr Traced.vevent c!"BEGIN:VEVENT\r\nUID:1\r\nDTSTAMP:20240101T000000\r\nbroken").trace? = some [(c!"broken", .nom .tag), (c!"BEGIN:VEVENT\r\nUID:1\r\nDTSTAMP:20240101T000000\r\nbroken", .context c!"vevent")] := by decide +kernel

-- Values.
example : (Traced.weekday c!"X").trace? = some [([], .nom .eof), (c!"X", .nom .count), (c!"X", .context c!"weekday")] := by decide +kernel
example : (Traced.weekdaynum c!"-2XX").trace? = some [(c!"XX", .nom .mapRes), (c!"XX", .context c!"weekday"), (c!"-2XX", .context c!"weekdaynum")] := by decide +kernel
example : (Traced.dateOrDt c!"2024").trace? = some [(c!"2024", .nom .fail), (c!"2024", .nom .alt), (c!"2024", .context c!"date_or_dt")] := by decide +kernel
example : (Traced.durationP c!"-15M").trace? = some [(c!"15M", .nom .tag), (c!"-15M", .context c!"duration")] := by decide +kernel
example : (Traced.trigger c!"-15M").trace? = some [(c!"-15M", .nom .fail), (c!"-15M", .nom .alt)] := by decide +kernel
example : (Traced.period c!"20240101T000000/x").trace? = some [(c!"x", .nom .fail)] := by decide +kernel
example : (Traced.rrule c!"FREQ").trace? = some [([], .chr '='), (c!"FREQ", .context c!"item"), (c!"FREQ", .nom .many1), (c!"FREQ", .context c!"rrule")] := by decide +kernel
example : (Traced.rrule c!"FREQ=DAILY;COUNT=x").trace? = some [(c!"FREQ=DAILY;COUNT=x", .nom .mapRes), (c!"FREQ=DAILY;COUNT=x", .context c!"rrule")] := by decide +kernel

-- The text of a message.
example : debugStr (c!"a\"\\\té\r\n" ++ [Char.ofNat 7, Char.ofNat 127, Char.ofNat 8203]) =
    c!"\"a\\\"\\\\\\té\\r\\n\\u{7}\\u{7f}\\u{200b}\"" := by decide +kernel
example : Trace.message [(c!"x", .nom .tag)] =
    c!"Error(\n    VerboseError {\n        errors: [\n            (\n                \"x\",\n                Nom(\n                    Tag,\n                ),\n            ),\n        ],\n    },\n)" := by
  decide +kernel

end

end Ikal
