import Verif.Failure
import Verif.Props.Reasons
import Verif.Spec.Failure
import Verif.Props.TraceMessage

/-!
# C98: errors as values

Errors are compared (`==`), shown (`{}` and `{:?}`) and followed to their source.
-/

set_option linter.unusedSectionVars false

namespace Ikal
open Spec

section
variable [Platform] [DebugChars]

instance : OkDbg DateReason := ⟨fun r => by cases r <;> exact ok_word (by decide)⟩
instance : OkDbg IntReason := ⟨fun r => by cases r <;> exact ok_word (by decide)⟩

instance : OkDbg CrateError := ⟨fun f => match f with
  | .alarm _ => ok_tuple (by decide) (OkDbg.ok (α := Str) _)
  | .date r => ok_tuple (by decide) (ok_tuple (by decide) (OkDbg.ok r))
  | .freq _ => ok_tuple (by decide) (OkDbg.ok (α := Str) _)
  | .key _ => ok_tuple (by decide) (OkDbg.ok (α := Str) _)
  | .localTime t => ok_tuple (by decide) (OkDbg.ok t)
  | .parseDuration _ => ok_tuple (by decide) (OkDbg.ok (α := Str) _)
  | .parseInt r => ok_tuple (by decide) (ok_struct (by decide) (ok_field (by decide) (OkDbg.ok r) trivial))
  | .parser _ => ok_tuple (by decide) (OkDbg.ok (α := Str) _)
  | .priority n => ok_tuple (by decide) (OkDbg.ok n)
  | .serialize _ => ok_tuple (by decide) (OkDbg.ok (α := Str) _)
  | .status _ => ok_tuple (by decide) (OkDbg.ok (α := Str) _)
  | .timeTransparency _ => ok_tuple (by decide) (OkDbg.ok (α := Str) _)
  | .weekday _ => ok_tuple (by decide) (OkDbg.ok (α := Str) _)⟩

theorem inj_DateReason : Injective' DateReason := by
  intro a b h
  cases a <;> cases b <;> first | rfl | exact absurd (Doc.word.inj h) (by decide)

theorem inj_IntReason : Injective' IntReason := by
  intro a b h
  cases a <;> cases b <;> first | rfl | exact absurd (Doc.word.inj h) (by decide)

theorem tells_Failure (hz : OffsetsWithinADay) : Tells Spec.ReadFailure := by
  intro a b ha hb h
  have arg : ∀ {n : Str} {x y : Doc}, Doc.tuple n [x] = Doc.tuple n [y] → x = y := fun h => (List.cons.inj (Doc.tuple.inj h).2).1
  cases a <;> cases b <;> first
    | exact absurd (Doc.tuple.inj h).1 (by decide)
    | exact congrArg _ (inj_Str _ _ (arg h))
    | exact congrArg _ (inj_Nat _ _ (arg h))
    | exact congrArg _ (tells_DateTime hz _ _ ha hb (arg h))
    | exact congrArg _ (inj_DateReason _ _ (arg (arg h)))
    | exact congrArg _ (inj_IntReason _ _ (Prod.mk.inj (List.cons.inj (Doc.struct.inj (arg h)).2).1).2)

/-- **C98**: two errors have the same `{:?}`, or the same `{:#?}`, if and only if they are equal. -/
theorem C98_debug (hz : OffsetsWithinADay) (v w : CrateError) (hv : Spec.ReadFailure v) (hw : Spec.ReadFailure w) :
    (debugText v = debugText w ↔ v = w) ∧ (debugPretty v = debugPretty w ↔ v = w) := debug_tells (tells_Failure hz) hv hw

/-- **C98**: the `{:?}` of an error is one line, even that of a parser error, whose message has many. -/
theorem C98_one_line (v : CrateError) : '\n' ∉ debugText v := compact_line _ (OkDbg.ok v)

/-- **C98**: the `{:?}` of an error names its kind and shows what it carries. -/
theorem C98_shown (v : CrateError) (t : Str) : debugText v = t ↔ Spec.Shown v t := by
  have one : ∀ (n : Str) (d : Doc), (Doc.tuple n [d]).compact = n ++ c!"(" ++ d.compact ++ c!")" := fun n d => by
    simp [Doc.compact, Doc.moreItems]
  have cast : ∀ {v : CrateError} {t : Str}, debugText v = t → Spec.Shown v t → Spec.Shown v (debugText v) := fun h s => h ▸ s
  have all : Spec.Shown v (debugText v) := by
    cases v with
    | alarm s => exact cast (one _ _) <| .alarm s
    | date r => cases r <;> constructor
    | freq s => exact cast (one _ _) <| .freq s
    | key s => exact cast (one _ _) <| .key s
    | localTime t => exact cast (one _ _) <| .localTime t
    | parseDuration s => exact cast (one _ _) <| .parseDuration s
    | parseInt r => cases r <;> constructor
    | parser s => exact cast (one _ _) <| .parser s
    | priority n => exact cast (one _ _) <| .priority n
    | serialize s => exact cast (one _ _) <| .serialize s
    | status s => exact cast (one _ _) <| .status s
    | timeTransparency s => exact cast (one _ _) <| .timeTransparency s
    | weekday s => exact cast (one _ _) <| .weekday s
  refine ⟨fun h => h ▸ all, fun h => ?_⟩
  generalize debugText v = u at all
  cases h <;> cases all <;> rfl

/-- **C98**: of errors of one kind the message tells which it is. -/
theorem C98_message (hz : OffsetsWithinADay) (v w : CrateError) (h : Spec.SameKind v w) (hv : Spec.ReadFailure v) (hw : Spec.ReadFailure w) :
    v.message = w.message ↔ v = w := by
  refine ⟨fun e => ?_, fun e => by rw [e]⟩
  cases h with
  | date a b => have e : a.text = b.text := e; cases a <;> cases b <;> first | rfl | exact absurd e (by decide)
  | parseInt a b => have e : a.text = b.text := e; cases a <;> cases b <;> first | rfl | exact absurd e (by decide)
  | localTime a b => rw [((C96_DateTime hz a b hv.1 hw.1 hv.2 hw.2).1.1 (List.append_cancel_left e))]
  | priority a b => rw [natStr_inj (List.append_cancel_left e)]
  | parseDuration a b => exact congrArg _ e
  | parser a b => exact congrArg _ e
  | serialize a b => exact congrArg _ e
  | _ => exact congrArg _ (List.append_cancel_left e)

/-- **C98**: an error has a source if and only if chrono or the reading of an integer refused a text; its message is then that of the source. -/
theorem C98_source (v : CrateError) : (∀ m, v.source = some m → v.message = m) ∧
    ((∃ m, v.source = some m) ↔ (∃ r, v = .date r) ∨ ∃ r, v = .parseInt r) := by
  constructor
  · cases v <;> simp [CrateError.source, CrateError.message]
  · cases v <;> simp [CrateError.source]

/-- The texts inside an error that `Error` forgets. -/
def CrateError.payloads (v : CrateError) : Payloads where
  date := match v with | .date r => r.text | _ => []
  localTime := match v with | .localTime t => debugText t | _ => []
  parseDuration := match v with | .parseDuration s => s | _ => []
  parseInt := match v with | .parseInt r => r.text | _ => []
  parser := match v with | .parser s => s | _ => []
  serialize := match v with | .serialize s => s | _ => []

/-- **C98**: the messages of C89, with what the payloads say. -/
theorem C98_same (v : CrateError) : v.message = @Error.message v.payloads v.forget := by cases v <;> rfl

/-- **C98**: what readers say (C95, C97) is the message of the error they return, and its kind is that of the main model. -/
theorem C98_readers {α : Type} :
    (∀ x : Told α, x.said = x.failure.map CrateError.message ∧ ∀ e, x.forget = .err e ↔ ∃ v, x.failure = some v ∧ v.forget = e) ∧
    ∀ x : TRes α, x.said = x.failure.map CrateError.message ∧ (x.forget = .err ↔ ∃ v, x.failure = some v ∧ v.forget = .parser) := by
  constructor
  · intro x
    cases x with
    | ok a => exact ⟨rfl, fun e => ⟨fun h => (by cases h), fun ⟨_, h, _⟩ => (by cases h)⟩⟩
    | err r =>
      refine ⟨by cases r <;> rfl, fun e => ⟨fun h => ⟨_, rfl, ?_⟩, ?_⟩⟩
      · cases h; cases r <;> rfl
      · rintro ⟨v, h, rfl⟩; cases h; cases r <;> rfl
    | panic => exact ⟨rfl, fun e => ⟨fun h => (by cases h), fun ⟨_, h, _⟩ => (by cases h)⟩⟩
  · intro x
    cases x with
    | ok r a => exact ⟨rfl, fun h => (by cases h), fun ⟨_, h, _⟩ => (by cases h)⟩
    | err t => exact ⟨rfl, fun _ => ⟨_, rfl, rfl⟩, fun _ => rfl⟩
    | panic => exact ⟨rfl, fun h => (by cases h), fun ⟨_, h, _⟩ => (by cases h)⟩

/-- **C98**: two texts refused by the parser of calendars are refused with equal errors if and only if the parser stopped in the same way at the same rests. -/
theorem C98_parsers {α β : Type} (p : TP α) (q : TP β) (s s' : Str) (t t' : Trace) (h : Traced.ofStr p s = .err t) (h' : Traced.ofStr q s' = .err t') :
    (Traced.ofStr p s).failure = (Traced.ofStr q s').failure ↔ t = t' := by
  rw [h, h']
  show some (CrateError.parser t.message) = some (CrateError.parser t'.message) ↔ _
  constructor
  · intro e; injection e with e; injection e with e; exact (C95_message_tells t t').1 e
  · rintro rfl; rfl

/-! ## The message of a parser error as `{:#?}` of nom's error -/

theorem indent_false {s : Str} (h : '\n' ∉ s) (r : Str) : indent false (s ++ '\n' :: r) = s ++ '\n' :: indent true r := by
  induction s with
  | nil => rfl
  | cons c s ih =>
    have hc : (c == '\n') = false := by simp only [beq_eq_false_iff_ne]; rintro rfl; exact h (by simp)
    rw [List.cons_append, indent, hc, ih fun h' => h (by simp [h'])]; rfl

theorem indent_line (s r : Str) (h : '\n' ∉ s) (hs : s ≠ []) : indent true (s ++ '\n' :: r) = c!"    " ++ (s ++ '\n' :: indent true r) := by
  cases s with
  | nil => exact absurd rfl hs
  | cons c s =>
    have hc : (c == '\n') = false := by simp only [beq_eq_false_iff_ne]; rintro rfl; exact h (by simp)
    rw [List.cons_append, indent, hc, indent_false fun h' => h (by simp [h'])]; rfl

/-- Lines, each with its end. -/
def linesOf (ls : List Str) : Str := (ls.map fun l => l ++ ['\n']).flatten

theorem indent_lines (ls : List Str) (h : ∀ l ∈ ls, l ≠ [] ∧ '\n' ∉ l) : indent true (linesOf ls) = linesOf (ls.map (c!"    " ++ ·)) := by
  induction ls with
  | nil => rfl
  | cons l ls ih =>
    have e : linesOf (l :: ls) = l ++ '\n' :: linesOf ls := by simp [linesOf]
    rw [e, indent_line l _ (h l (by simp)).2 (h l (by simp)).1, ih fun l' hl => h l' (by simp [hl])]
    simp [linesOf]

theorem linesOf_append (a b : List Str) : linesOf (a ++ b) = linesOf a ++ linesOf b := by simp [linesOf]

theorem nomKind_line (k : NomKind) : '\n' ∉ k.debug := by cases k <;> decide

/-- The kind of an entry: its variant and its argument. -/
theorem entry_kind (s : Str) (k : TraceKind) : ∃ (name arg : Str) (d : Doc), '\n' ∉ name ∧ name ≠ [] ∧ '\n' ∉ arg ∧ d.pretty = arg ∧
    Spec.entryDoc (s, k) = .tuple [] [.str s, .tuple name [d]] ∧
    k.debug = debugLine 4 (name ++ c!"(") ++ debugLine 5 (arg ++ c!",") ++ debugLine 4 c!")," := by
  cases k with
  | context c => exact ⟨_, _, _, by decide, by decide, debugStr_line c, rfl, rfl, rfl⟩
  | chr c =>
    refine ⟨c!"Char", '\'' :: (if c = '\'' then c!"\\'" else debugChar c) ++ ['\''], _, by decide, by decide, ?_, rfl, rfl, rfl⟩
    have := debugChar_line c
    split <;> simp_all
  | nom k => exact ⟨_, _, _, by decide, by decide, nomKind_line k, rfl, rfl, rfl⟩

theorem entry_pretty (e : Str × TraceKind) : ∃ ls : List Str, (∀ l ∈ ls, l ≠ [] ∧ '\n' ∉ l) ∧ (Spec.entryDoc e).pretty ++ c!",\n" = linesOf ls ∧
    debugEntry e = linesOf (ls.map (c!"            " ++ ·)) := by
  obtain ⟨s, k⟩ := e
  obtain ⟨name, arg, d, hn, hn0, ha, hd, he, hk⟩ := entry_kind s k
  have hs := debugStr_line s
  have h1 : indent true (debugStr s ++ c!",\n") = linesOf [c!"    " ++ debugStr s ++ c!","] := by
    have := indent_lines [debugStr s ++ c!","] (by simp [hs])
    simpa [linesOf] using this
  have h2 : indent true (arg ++ c!",\n") = linesOf [c!"    " ++ arg ++ c!","] := by
    have := indent_lines [arg ++ c!","] (by simp [ha])
    simpa [linesOf] using this
  have h3 : indent true (name ++ c!"(\n" ++ linesOf [c!"    " ++ arg ++ c!","] ++ c!")" ++ c!",\n") =
      linesOf [c!"    " ++ name ++ c!"(", c!"        " ++ arg ++ c!",", c!"    ),"] := by
    have := indent_lines [name ++ c!"(", c!"    " ++ arg ++ c!",", c!"),"] (by simp [ha, hn])
    simpa [linesOf] using this
  refine ⟨[c!"(", c!"    " ++ debugStr s ++ c!",", c!"    " ++ name ++ c!"(", c!"        " ++ arg ++ c!",", c!"    ),", c!"),"], ?_, ?_, ?_⟩
  · simp [hs, hn, ha]
  · rw [he, Doc.pretty, Doc.itemLines, Doc.itemLines, Doc.itemLines, Doc.pretty, Doc.pretty, Doc.itemLines, Doc.itemLines, hd, List.append_nil, h1, h2, List.append_nil, h3]
    simp [linesOf]
  · rw [debugEntry, hk]
    simp [linesOf, debugLine, List.replicate]

theorem entries_pretty (t : Trace) : ∃ ls : List Str, (∀ l ∈ ls, l ≠ [] ∧ '\n' ∉ l) ∧ Doc.itemLines (t.map Spec.entryDoc) = linesOf (ls.map (c!"    " ++ ·)) ∧
    t.flatMap debugEntry = linesOf (ls.map (c!"            " ++ ·)) := by
  induction t with
  | nil => exact ⟨[], by simp, rfl, rfl⟩
  | cons e t ih =>
    obtain ⟨ls, h1, h2, h3⟩ := ih
    obtain ⟨l, h4, h5, h6⟩ := entry_pretty e
    refine ⟨l ++ ls, ?_, ?_, ?_⟩
    · intro x hx
      rcases List.mem_append.1 hx with hx | hx
      · exact h4 x hx
      · exact h1 x hx
    · rw [List.map_cons, Doc.itemLines, h5, indent_lines l h4, h2, List.map_append, linesOf_append]
    · rw [List.flatMap_cons, h3, h6, List.map_append, linesOf_append]

/-- **C98**: the message of a parser error is `{:#?}` of nom's error, as the builders of `core::fmt` make it. -/
theorem C98_parser_message (t : Trace) : t.failure.message = (Spec.traceDoc t).pretty := by
  show t.message = _
  obtain ⟨ls, h1, h2, h3⟩ := entries_pretty t
  cases t with
  | nil => rfl
  | cons e t =>
    have i1 : indent true (c!"errors" ++ c!": " ++ (c!"[\n" ++ linesOf (ls.map (c!"    " ++ ·)) ++ c!"]") ++ c!",\n") =
        linesOf ([c!"    errors: ["] ++ ls.map (c!"        " ++ ·) ++ [c!"    ],"]) := by
      have := indent_lines ([c!"errors: ["] ++ ls.map (c!"    " ++ ·) ++ [c!"],"]) (by
        intro l hl
        simp only [List.mem_append, List.mem_map, List.mem_singleton] at hl
        rcases hl with (rfl | ⟨l, hl, rfl⟩) | rfl
        · decide
        · simp [(h1 l hl).2]
        · decide)
      rw [linesOf_append, linesOf_append] at this
      simpa [linesOf, Function.comp_def] using this
    have i2 : indent true (c!"VerboseError" ++ c!" {\n" ++ linesOf ([c!"    errors: ["] ++ ls.map (c!"        " ++ ·) ++ [c!"    ],"]) ++ c!"}" ++ c!",\n") =
        linesOf ([c!"    VerboseError {", c!"        errors: ["] ++ ls.map (c!"            " ++ ·) ++ [c!"        ],", c!"    },"]) := by
      have := indent_lines ([c!"VerboseError {", c!"    errors: ["] ++ ls.map (c!"        " ++ ·) ++ [c!"    ],", c!"},"]) (by
        intro l hl
        simp only [List.mem_append, List.mem_map, List.mem_cons, List.not_mem_nil, or_false] at hl
        rcases hl with ((rfl | rfl) | ⟨l, hl, rfl⟩) | (rfl | rfl)
        · decide
        · decide
        · simp [(h1 l hl).2]
        · decide
        · decide)
      rw [linesOf_append, linesOf_append] at this ⊢
      simpa [linesOf, Function.comp_def] using this
    have e1 : (Spec.traceDoc (e :: t)).pretty = c!"Error" ++ c!"(\n" ++ (indent true ((c!"VerboseError" ++ c!" {\n" ++ (indent true (c!"errors" ++ c!": " ++
        (c!"[\n" ++ Doc.itemLines ((e :: t).map Spec.entryDoc) ++ c!"]") ++ c!",\n") ++ []) ++ c!"}") ++ c!",\n") ++ []) ++ c!")" := by
      simp only [Spec.traceDoc, Doc.pretty, Doc.itemLines, Doc.fieldLines, List.map_cons]
    rw [e1, h2, i1, List.append_nil, List.append_nil, i2, Trace.message, h3]
    simp [linesOf, debugLine, List.replicate, Function.comp_def]

end

/-! ## Cases -/

section
attribute [local instance] utc
local instance failureChars : DebugChars := ⟨fun _ => true⟩

/-- Errors of readers, as values. -/
example : (DateTime.tell c!"20240228").failure = some (.date .tooShort) ∧ (tellDuration c!"P1W").failure = some (.parseDuration c!"Invalid duration: 1") ∧
    (Trigger.tell c!"PD").failure = some (.parseInt .empty) ∧ (tellDuration c!"P1D").failure = none := by decide +kernel

/-- Their texts; the argument of a parser error is on one line. -/
example : debugText (CrateError.date .tooShort) = c!"Date(ParseError(TooShort))" ∧
    debugText (CrateError.parseInt .empty) = c!"ParseIntError(ParseIntError { kind: Empty })" ∧
    debugText (CrateError.parser c!"a\nb") = c!"Parser(\"a\\nb\")" ∧
    debugPretty (CrateError.priority 12) = c!"Priority(\n    12,\n)" ∧
    debugText (CrateError.localTime (.naive ⟨⟨2024, 3, 31⟩, 9000, 0⟩)) = c!"Local(Naive(2024-03-31T02:30:00))" := by decide +kernel

/-- Messages of different kinds may be the same though the errors are not equal; the errors have different sources. -/
example : (CrateError.parseDuration c!"invalid digit found in string").message = (CrateError.parseInt .invalidDigit).message ∧
    CrateError.parseDuration c!"invalid digit found in string" ≠ CrateError.parseInt .invalidDigit ∧
    (CrateError.parseDuration c!"invalid digit found in string").source = none ∧ (CrateError.parseInt .invalidDigit).source = some c!"invalid digit found in string" := by
  decide +kernel

/-- The hypotheses of `C98_debug` and `C98_message`. -/
example : OffsetsWithinADay ∧ Spec.ReadFailure (.date .tooLong) ∧ Spec.ReadFailure (.parser c!"x") ∧ Spec.SameKind (.parser c!"x") (.parser c!"y") :=
  ⟨fun n => by simp [Platform.tzOffset], trivial, trivial, .parser _ _⟩

/-- Two texts that are refused, with different errors: the rests differ. -/
example : ∃ t t', Traced.ofStr Traced.vcalendar c!"x" = .err t ∧ Traced.ofStr Traced.vevent c!"y" = .err t' ∧ t ≠ t' :=
  ⟨[(c!"x", .nom .tag), (c!"x", .context c!"vcalendar")], [(c!"y", .nom .tag), (c!"y", .context c!"vevent")], by rfl, by rfl, by decide⟩

end
end Ikal
