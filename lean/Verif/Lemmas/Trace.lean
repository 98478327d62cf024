import Verif.Trace

/-!
# Forgetting the errors: the parsers of `Verif/Trace.lean` are those of the rest of the model
-/

namespace Ikal.Traced

/-- The parser with errors is the other one if the errors are forgotten. -/
def Sim (p : TP α) (q : P α) : Prop := ∀ i, (p i).forget = q i

theorem Sim.cases {p : TP α} {q : P α} (h : Sim p q) (i : Str) :
    (∃ r a, p i = .ok r a ∧ q i = .ok r a) ∨ (∃ t, p i = .err t ∧ q i = .err) ∨ (p i = .panic ∧ q i = .panic) := by
  have := h i
  revert this
  cases p i <;> intro this
  · exact .inl ⟨_, _, rfl, this.symm⟩
  · exact .inr (.inl ⟨_, rfl, this.symm⟩)
  · exact .inr (.inr ⟨rfl, this.symm⟩)

theorem Sim.ok_iff {p : TP α} {q : P α} (h : Sim p q) {i r : Str} {a : α} : p i = .ok r a ↔ q i = .ok r a := by
  rcases h.cases i with ⟨r', a', h1, h2⟩ | ⟨t, h1, h2⟩ | ⟨h1, h2⟩ <;> simp [h1, h2]

theorem Sim.err_iff {p : TP α} {q : P α} (h : Sim p q) {i : Str} : (∃ t, p i = .err t) ↔ q i = .err := by
  rcases h.cases i with ⟨r', a', h1, h2⟩ | ⟨t, h1, h2⟩ | ⟨h1, h2⟩ <;> simp [h1, h2]

theorem Sim.panic_iff {p : TP α} {q : P α} (h : Sim p q) {i : Str} : p i = .panic ↔ q i = .panic := by
  rcases h.cases i with ⟨r', a', h1, h2⟩ | ⟨t, h1, h2⟩ | ⟨h1, h2⟩ <;> simp [h1, h2]

theorem sim_tag (t : Str) : Sim (tag t) (Nom.tag t) := by
  intro i; unfold tag Nom.tag; cases stripPrefix t i <;> rfl

theorem sim_takeWhile (p : Char → Bool) : Sim (takeWhile p) (Nom.takeWhile p) := fun _ => rfl
theorem sim_takeTill (p : Char → Bool) : Sim (takeTill p) (Nom.takeTill p) := fun _ => rfl

theorem sim_char (c : Char) : Sim (char c) (Nom.char c) := by
  intro i; cases i with
  | nil => rfl
  | cons d r => unfold char Nom.char; dsimp only; split <;> rfl

theorem sim_anychar : Sim anychar Nom.anychar := by intro i; cases i <;> rfl

theorem sim_lineEnding : Sim lineEnding Nom.lineEnding := by
  intro i; unfold lineEnding Nom.lineEnding
  split
  · rfl
  · rfl
  · next h1 h2 =>
    split
    · exact absurd rfl (h1 _)
    · exact absurd rfl (h2 _)
    · rfl

theorem sim_map {p : TP α} {q : P α} (h : Sim p q) (f : α → β) : Sim (map p f) (Nom.map q f) := by
  intro i; unfold map Nom.map
  rcases h.cases i with ⟨r', a', h1, h2⟩ | ⟨t, h1, h2⟩ | ⟨h1, h2⟩ <;> simp only [h1, h2] <;> rfl

theorem sim_mapRes {p : TP α} {q : P α} (h : Sim p q) (f : α → Res β) : Sim (mapRes p f) (Nom.mapRes q f) := by
  intro i; unfold mapRes Nom.mapRes
  rcases h.cases i with ⟨r', a', h1, h2⟩ | ⟨t, h1, h2⟩ | ⟨h1, h2⟩ <;> simp only [h1, h2] <;> try rfl
  cases f a' <;> rfl

theorem sim_not {p : TP α} {q : P α} (h : Sim p q) : Sim (not p) (Nom.not q) := by
  intro i; unfold not Nom.not
  rcases h.cases i with ⟨r', a', h1, h2⟩ | ⟨t, h1, h2⟩ | ⟨h1, h2⟩ <;> simp only [h1, h2] <;> rfl

theorem sim_opt {p : TP α} {q : P α} (h : Sim p q) : Sim (opt p) (Nom.opt q) := by
  intro i; unfold opt Nom.opt
  rcases h.cases i with ⟨r', a', h1, h2⟩ | ⟨t, h1, h2⟩ | ⟨h1, h2⟩ <;> simp only [h1, h2] <;> rfl

theorem sim_pair {p : TP α} {q : P α} {p' : TP β} {q' : P β} (h : Sim p q) (h' : Sim p' q') : Sim (pair p p') (Nom.pair q q') := by
  intro i; unfold pair Nom.pair
  rcases h.cases i with ⟨r1, a1, h1, h2⟩ | ⟨t, h1, h2⟩ | ⟨h1, h2⟩ <;> simp only [h1, h2] <;> try rfl
  rcases h'.cases r1 with ⟨r', a', h3, h4⟩ | ⟨t, h3, h4⟩ | ⟨h3, h4⟩ <;> simp only [h3, h4] <;> rfl

theorem sim_preceded {p : TP α} {q : P α} {p' : TP β} {q' : P β} (h : Sim p q) (h' : Sim p' q') :
    Sim (preceded p p') (Nom.preceded q q') := sim_map (sim_pair h h') _

theorem sim_terminated {p : TP α} {q : P α} {p' : TP β} {q' : P β} (h : Sim p q) (h' : Sim p' q') :
    Sim (terminated p p') (Nom.terminated q q') := sim_map (sim_pair h h') _

theorem sim_delimited {p : TP α} {q : P α} {p' : TP β} {q' : P β} {p'' : TP γ} {q'' : P γ} (h : Sim p q) (h' : Sim p' q')
    (h'' : Sim p'' q'') : Sim (delimited p p' p'') (Nom.delimited q q' q'') := sim_preceded h (sim_terminated h' h'')

theorem sim_separatedPair {p : TP α} {q : P α} {p' : TP β} {q' : P β} {p'' : TP γ} {q'' : P γ} (h : Sim p q) (h' : Sim p' q')
    (h'' : Sim p'' q'') : Sim (separatedPair p p' p'') (Nom.separatedPair q q' q'') := sim_pair h (sim_preceded h' h'')

theorem sim_orElse {p q' : TP α} {q p' : P α} (h : Sim p q) (h' : Sim q' p') : Sim (orElse p q') (Nom.alt q p') := by
  intro i; unfold orElse Nom.alt
  rcases h.cases i with ⟨r', a', h1, h2⟩ | ⟨t, h1, h2⟩ | ⟨h1, h2⟩ <;> simp only [h1, h2] <;> try rfl
  exact h' i

theorem sim_adding (k : TraceKind) {p : TP α} {q : P α} (h : Sim p q) : Sim (adding k p) q := by
  intro i; unfold adding
  rcases h.cases i with ⟨r', a', h1, h2⟩ | ⟨t, h1, h2⟩ | ⟨h1, h2⟩ <;> simp only [h1, h2] <;> rfl

theorem sim_context (s : Str) {p : TP α} {q : P α} (h : Sim p q) : Sim (context s p) q := sim_adding _ h

theorem sim_alt {p q' : TP α} {q p' : P α} (h : Sim p q) (h' : Sim q' p') : Sim (alt p q') (Nom.alt q p') := sim_adding _ (sim_orElse h h')

theorem sim_many0Go {p : TP α} {q : P α} (h : Sim p q) (n : Nat) : Sim (many0Go p n) (Nom.many0Go q n) := by
  induction n with
  | zero => intro i; rfl
  | succ n ih =>
    intro i; unfold many0Go Nom.many0Go
    rcases h.cases i with ⟨r', a', h1, h2⟩ | ⟨t, h1, h2⟩ | ⟨h1, h2⟩ <;> simp only [h1, h2] <;> try rfl
    split
    · rcases Sim.cases ih r' with ⟨r1, a1, h3, h4⟩ | ⟨t, h3, h4⟩ | ⟨h3, h4⟩ <;> simp only [h3, h4] <;> rfl
    · rfl

theorem sim_many0 {p : TP α} {q : P α} (h : Sim p q) : Sim (many0 p) (Nom.many0 q) := fun i => sim_many0Go h _ i

theorem sim_many1 {p : TP α} {q : P α} (h : Sim p q) : Sim (many1 p) (Nom.many1 q) := by
  intro i; unfold many1 Nom.many1
  rcases h.cases i with ⟨r1, a', h1, h2⟩ | ⟨t, h1, h2⟩ | ⟨h1, h2⟩ <;> simp only [h1, h2] <;> try rfl
  rcases (sim_many0 h).cases r1 with ⟨r', a', h3, h4⟩ | ⟨t, h3, h4⟩ | ⟨h3, h4⟩ <;> simp only [h3, h4] <;> rfl

/-! ## The parsers -/

theorem sim_digits : Sim digits Ikal.digits := sim_context _ (sim_takeWhile _)
theorem sim_key : Sim key Ikal.key := sim_context _ (sim_takeWhile _)
theorem sim_attrValue : Sim attrValue Ikal.attrValue := sim_context _ (sim_preceded (sim_opt (sim_tag _)) (sim_takeTill _))
theorem sim_value : Sim value Ikal.value := sim_context _ (sim_takeTill _)
theorem sim_quotedParam : Sim quotedParam Ikal.quotedParam := sim_context _ (sim_separatedPair sim_key (sim_tag _) (sim_takeTill _))
theorem sim_param : Sim param Ikal.param :=
  sim_context _ (sim_alt (sim_delimited (sim_char _) sim_quotedParam (sim_char _))
    (sim_preceded (sim_char _) (sim_separatedPair sim_key (sim_char _) sim_attrValue)))
theorem sim_params : Sim params Ikal.params := sim_context _ (sim_map (sim_many0 sim_param) _)
theorem sim_contentLine : Sim contentLine Ikal.contentLine :=
  sim_context _ (sim_map (sim_pair (sim_not (sim_tag _)) (sim_pair (sim_not (sim_tag _)) (sim_pair sim_key (sim_pair sim_params
    (sim_pair (sim_char _) (sim_pair (sim_opt sim_value) sim_lineEnding)))))) _)
theorem sim_contentLines : Sim contentLines Ikal.contentLines := sim_context _ (sim_many0 sim_contentLine)

theorem sim_weekday : Sim weekday Ikal.weekday := sim_context _ (sim_mapRes (sim_adding _ (sim_pair sim_anychar sim_anychar)) _)
theorem sim_nomI8 : Sim nomI8 Ikal.nomI8 := by
  intro i; unfold nomI8; cases Ikal.nomI8 i <;> rfl
theorem sim_weekdaynum : Sim weekdaynum Ikal.weekdaynum := sim_context _ (sim_map (sim_pair (sim_opt sim_nomI8) sim_weekday) _)

section
variable [Platform]

theorem sim_date : Sim date Ikal.date := by
  intro i; unfold date Ikal.date; cases parseNaiveDate i <;> rfl
theorem sim_dateTime : Sim dateTime Ikal.dateTime := by
  intro i; unfold dateTime Ikal.dateTime
  cases parseNaiveDateTime [] (trimEndZ i)
  · rfl
  · dsimp only; split <;> rfl
theorem sim_dateOrDt : Sim dateOrDt Ikal.dateOrDt := sim_context _ (sim_alt (sim_map sim_date _) (sim_map sim_dateTime _))
theorem sim_durUnit (n : Str) (u : Char) : Sim (durUnit n u) (Ikal.durUnit u) :=
  sim_context _ (sim_mapRes (sim_terminated sim_digits (sim_tag _)) _)
theorem sim_durTime : Sim durTime Ikal.durTime :=
  sim_map (sim_context _ (sim_preceded (sim_tag _) (sim_pair (sim_opt (sim_durUnit _ _)) (sim_pair (sim_opt (sim_durUnit _ _))
    (sim_opt (sim_durUnit _ _)))))) _
theorem sim_durationP : Sim durationP Ikal.durationP :=
  sim_context _ (sim_mapRes (sim_pair (sim_opt (sim_tag _)) (sim_preceded (sim_tag _) (sim_pair (sim_opt (sim_durUnit _ _))
    (sim_pair (sim_opt (sim_durUnit _ _)) (sim_opt sim_durTime))))) _)

theorem sim_rruleItem : Sim rruleItem Ikal.rruleItem :=
  sim_context _ (sim_terminated (sim_separatedPair sim_key (sim_char _) (sim_takeTill _)) (sim_opt (sim_char _)))

/-- The result of a value parser without the error, as the functions on content lines return it. -/
theorem toRes_forget {p : TP α} {q : P α} (h : Sim p q) (i : Str) : (p i).forget.toRes = (q i).toRes := by rw [h i]

theorem sim_float [FloatTrace] : Sim float Ikal.float := by
  intro i; unfold float Ikal.float; rcases Platform.floatParse i with _ | ⟨x, r⟩ <;> rfl

theorem sim_componentP {α : Type} (n : Str) (f : List ContentLine → Res α) : Sim (componentP n f) (Ikal.componentP n f) :=
  sim_mapRes (sim_delimited (sim_tag _) sim_contentLines (sim_tag _)) _

theorem sim_valarm : Sim valarm Ikal.valarm := sim_componentP _ _
theorem sim_vfreebusy : Sim vfreebusy Ikal.vfreebusy := sim_componentP _ _
theorem sim_vtodo : Sim vtodo Ikal.vtodo := sim_componentP _ _
theorem sim_vjournal : Sim vjournal Ikal.vjournal := sim_componentP _ _
theorem sim_standard : Sim standard Ikal.standard := sim_componentP _ _
theorem sim_daylight : Sim daylight Ikal.daylight := sim_componentP _ _
theorem sim_vevent : Sim vevent Ikal.vevent :=
  sim_context _ (sim_mapRes (sim_delimited (sim_tag _) (sim_pair sim_contentLines (sim_many0 sim_valarm)) (sim_tag _)) _)
theorem sim_tzPart : Sim (alt (map standard TzPart.standard) (map daylight TzPart.daylight))
    (Nom.alt (Nom.map Ikal.standard TzPart.standard) (Nom.map Ikal.daylight TzPart.daylight)) :=
  sim_alt (sim_map sim_standard _) (sim_map sim_daylight _)
theorem sim_vtimezone : Sim vtimezone Ikal.vtimezone :=
  sim_context _ (sim_mapRes (sim_delimited (sim_tag _) (sim_pair sim_contentLines (sim_many0 sim_tzPart)) (sim_tag _)) _)
theorem sim_component : Sim component Ikal.component :=
  sim_context _ (sim_adding _ (sim_orElse (sim_map sim_valarm _) (sim_orElse (sim_map sim_vevent _) (sim_orElse (sim_map sim_vfreebusy _)
    (sim_orElse (sim_map sim_vjournal _) (sim_orElse (sim_map sim_vtimezone _) (sim_map sim_vtodo _)))))))
theorem sim_components : Sim components Ikal.components := sim_context _ (sim_many0 sim_component)
theorem sim_vcalendar : Sim vcalendar Ikal.vcalendar :=
  sim_context _ (sim_mapRes (sim_delimited (sim_tag _) (sim_pair sim_contentLines sim_components) (sim_tag _)) _)

end

end Ikal.Traced
