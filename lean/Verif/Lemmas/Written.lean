import Verif.Props.Component
import Verif.Props.Text
import Verif.Props.Rule
import Verif.Props.Order

/-!
# Written components: pieces of text, property lines and fields

A written component is a sequence of pieces none of which begins with a space or a line feed, so that unfolding the whole is unfolding
the pieces.
-/

namespace Ikal

open Nom Spec

set_option linter.unusedSectionVars false
set_option linter.unusedSimpArgs false

/-! ## Pieces -/

/-- The text `t`, which unfolds to `u`, begins neither with a space nor with a line feed. -/
structure Piece (t u : Str) : Prop where
  lf : t.head? ≠ some '\n'
  sp : t.head? ≠ some ' '
  un : unfold t = u

theorem Piece.nil : Piece [] [] := ⟨by simp, by simp, rfl⟩

theorem Piece.append {t u t' u' : Str} (h : Piece t u) (h' : Piece t' u') : Piece (t ++ t') (u ++ u') := by
  refine ⟨?_, ?_, by rw [unfold_append _ _ h'.lf h'.sp, h.un, h'.un]⟩
  · cases t with
    | nil => exact h'.lf
    | cons c t => exact h.lf
  · cases t with
    | nil => exact h'.sp
    | cons c t => exact h.sp

theorem Piece.head {t u : Str} (hu : unfold t = u) (h1 : u.head? ≠ some '\n') (h2 : u.head? ≠ some ' ') : Piece t u := by
  refine ⟨fun h => h1 ?_, fun h => h2 ?_, hu⟩
  · cases t with
    | nil => simp at h
    | cons c t => simp at h; subst h; rw [← hu, unfold_cons_ne _ _ (by decide)]; rfl
  · cases t with
    | nil => simp at h
    | cons c t => simp at h; subst h; rw [← hu, unfold_cons_ne _ _ (by decide)]; rfl

theorem Piece.lit {t : Str} (h1 : t.head? ≠ some '\n') (h2 : t.head? ≠ some ' ') (h3 : ¬ HasFold t) : Piece t t :=
  ⟨h1, h2, unfold_eq_self h3⟩

/-! ## Lines -/

/-- The unfolded text `u` is read as the property lines `ls`, whatever follows. -/
def Writes (u : Str) (ls : List ContentLine) : Prop :=
  ∀ rest ls' r, LinesText rest ls' r → LinesText (u ++ rest) (ls ++ ls') r

theorem Writes.nil : Writes [] [] := fun _ _ _ h => h

theorem Writes.append {u u' : Str} {ls ls' : List ContentLine} (h : Writes u ls) (h' : Writes u' ls') : Writes (u ++ u') (ls ++ ls') := by
  intro rest l r hr
  rw [List.append_assoc, List.append_assoc]
  exact h _ _ _ (h' _ _ _ hr)

theorem Writes.line {name v : Str} {m : SMap Str} (hn : SafeName name) (hm : SafeParams m) (h1 : '\n' ∉ v) (h2 : '\r' ∉ v) :
    Writes (propertyLine name (paramsAttr m) v) [⟨name, m, v⟩] :=
  fun rest _ _ hr => .cons (lineText_written hn hm h1 h2 rest) hr

/-- No property line is read where a component begins or ends. -/
theorem lines_stop {i : Str} (h : c!"BEGIN:" <+: i ∨ c!"END:" <+: i) : LinesText i [] i := by
  refine .nil fun r l hl => ?_
  rcases h with h | h
  · exact hl.1 h
  · exact hl.2.1 h

theorem Writes.stop {u : Str} {ls : List ContentLine} (h : Writes u ls) {rest : Str} (hr : c!"BEGIN:" <+: rest ∨ c!"END:" <+: rest) :
    LinesText (u ++ rest) ls rest := by
  have := h rest [] rest (lines_stop hr)
  rwa [List.append_nil] at this

/-! ## Values -/

/-- No line break. -/
def Clean (s : Str) : Prop := ∀ c ∈ s, c ≠ '\n' ∧ c ≠ '\r'

theorem Clean.nil : Clean [] := by simp [Clean]
theorem Clean.append {a b : Str} (ha : Clean a) (hb : Clean b) : Clean (a ++ b) := by
  intro c hc
  rcases List.mem_append.1 hc with h | h
  · exact ha c h
  · exact hb c h
theorem Clean.cons {c : Char} {b : Str} (hc : c ≠ '\n' ∧ c ≠ '\r') (hb : Clean b) : Clean (c :: b) := by
  intro x hx
  rcases List.mem_cons.1 hx with h | h
  · rw [h]; exact hc
  · exact hb x h
theorem Clean.lf {s : Str} (h : Clean s) : '\n' ∉ s := fun hx => (h _ hx).1 rfl
theorem Clean.cr {s : Str} (h : Clean s) : '\r' ∉ s := fun hx => (h _ hx).2 rfl
theorem Clean.mk {s : Str} (h : '\n' ∉ s) (h' : '\r' ∉ s) : Clean s := fun c hc => ⟨fun e => h (e ▸ hc), fun e => h' (e ▸ hc)⟩
theorem Clean.join {sep : Str} (hs : Clean sep) : ∀ {l : List Str} (_ : ∀ s ∈ l, Clean s), Clean (Ikal.join sep l)
  | [], _ => Clean.nil
  | [s], h => h s (by simp)
  | s :: t :: l, h => by
    rw [join_cons _ _ _ (by simp)]
    exact ((h s (by simp)).append hs).append (Clean.join hs fun x hx => h x (by simp [hx]))
theorem Clean.digits {s : Str} (h : ∀ c ∈ s, c.isDigit = true) : Clean s := fun c hc =>
  ⟨by rintro rfl; have := h _ hc; revert this; decide, by rintro rfl; have := h _ hc; revert this; decide⟩

/-- The value `v` is written as the parameters `m` and the text `s`, and they can be read as such. -/
structure WrittenAs {α : Type} [Ser α] (v : α) (m : SMap Str) (s : Str) : Prop where
  ical : Ser.ical v = .ok s
  clean : Clean s
  attr : Ser.attr v = paramsAttr m
  params : SafeParams m

/-- The lines written for a value: none if its text is empty. -/
def lineOf (name : Str) (m : SMap Str) (s : Str) : List ContentLine := if s = [] then [] else [⟨name, m, s⟩]

theorem lineOf_key {name : Str} {m : SMap Str} {s : Str} : ∀ l ∈ lineOf name m s, l.key = name := by
  unfold lineOf
  split <;> simp

/-- A value that serialises to the empty text writes nothing. -/
theorem field_empty {α : Type} [Ser α] (hc : Ser.isComponent α = false) (name : Str) {v : α} (h : Ser.ical v = .ok []) :
    field name v = .ok [] := by
  simp [field, h, hc, fold]

/-- The property lines written for a value. -/
theorem field_written {α : Type} [Ser α] (hc : Ser.isComponent α = false) {name : Str} {v : α} {m : SMap Str} {s t : Str}
    (hn : SafeName name) (hne : name ≠ []) (hw : WrittenAs v m s) (h : field name v = .ok t) :
    ∃ u, Piece t u ∧ Writes u (lineOf name m s) := by
  by_cases hs : s = []
  · subst hs
    rw [field_empty hc name hw.ical] at h
    cases h
    exact ⟨[], .nil, .nil⟩
  have hl := no_lf_line (v := s) hn.1 hw.params hw.clean.lf
  have hu : unfold t = propertyLine name (paramsAttr m) s := by
    rw [← hw.attr]
    refine C01_unfold_folded hc name v _ t hw.ical hs ?_ h
    rw [hw.attr, propertyLine_safe hw.params]
    exact not_fold_of_no_lf hl
  rw [lineOf, if_neg hs]
  refine ⟨_, Piece.head hu ?_ ?_, Writes.line hn hw.params hw.clean.lf hw.clean.cr⟩
  all_goals
    rw [propertyLine_safe hw.params]
    cases hname : name with
    | nil => exact absurd hname hne
    | cons c n =>
      have : NameChar c := hn.1 c (by rw [hname]; simp)
      intro e
      simp at e
      subst e
      exact absurd this (not_nameChar (by simp))

theorem field_some {α : Type} [Ser α] (hc : Ser.isComponent α = false) (name : Str) (v : α) : field name (some v) = field name v := by
  unfold field
  have : Ser.isComponent (Option α) = Ser.isComponent α := by rw [hc]; rfl
  rw [this]
  rfl

theorem field_none {α : Type} [Ser α] (name : Str) : field name (none : Option α) = .ok [] := field_empty rfl name rfl

/-! ## Fields -/

/-- The lines written for a list of values: those of the value if there is one, a single line without parameters if there are
several. -/
def ListWritten {α : Type} [Ser α] (name : Str) : List α → List ContentLine → Prop
  | [], ls => ls = []
  | [x], ls => ∃ m s, WrittenAs x m s ∧ ls = lineOf name m s
  | v@(_ :: _ :: _), ls => ∃ ss : List Str, All2 (fun x s => Ser.ical x = .ok s ∧ Clean s) v ss ∧ ls = lineOf name [] (join [','] ss)

namespace Field

/-- The lines `ls` are written for the field. -/
def Written : (f : Field) → f.T → List ContentLine → Prop
  | req n _ s _, v, ls => ∃ m t, @WrittenAs _ s v m t ∧ ls = lineOf n m t
  | opt n α s _, v, ls => match (show Option α from v) with
    | none => ls = []
    | some a => ∃ m t, @WrittenAs _ s a m t ∧ ls = lineOf n m t
  | push n _ s _, v, ls => @ListWritten _ s n v ls
  | append n _ s _, v, ls => @ListWritten _ s n v ls
  | nested _ α _, v, ls => (show List α from v) = [] ∧ ls = []

/-- The field is written as property lines. -/
def plain : Field → Bool
  | req n _ s _ | opt n _ s _ | push n _ s _ | append n _ s _ =>
    n.all isNameChar && !n.isEmpty && n != c!"BEGIN" && n != c!"END" && !s.isComponent
  | nested .. => true

theorem Written.keys {f : Field} {v : f.T} {ls : List ContentLine} (h : f.Written v ls) : ∀ l ∈ ls, l.key = f.name := by
  have hl : ∀ {α : Type} (s : Ser α) (n : Str) (v : List α), @ListWritten _ s n v ls → ∀ l ∈ ls, l.key = n := by
    intro α s n v hv
    match v, hv with
    | [], hv => have hv : ls = [] := hv; subst hv; simp
    | [x], hv => obtain ⟨m, t, _, e⟩ := hv; rw [e]; exact lineOf_key
    | _ :: _ :: _, hv => obtain ⟨ss, _, e⟩ := hv; rw [e]; exact lineOf_key
  cases f with
  | req n α s p => obtain ⟨m, t, _, rfl⟩ := h; exact lineOf_key
  | opt n α s p =>
    revert v; intro (v : Option α) h
    cases v with
    | none => cases h; simp
    | some a => obtain ⟨m, t, _, rfl⟩ := h; exact lineOf_key
  | push n α s p => exact hl s n v h
  | append n α s p => exact hl s n v h
  | nested n α s => cases h.2; simp

theorem written_list {α : Type} [Ser α] (hc : Ser.isComponent α = false) {n : Str} (hn : SafeName n) (hne : n ≠ [])
    {v : List α} {ls : List ContentLine} {t : Str} (h : ListWritten n v ls) (ht : serVec n v = .ok t) :
    ∃ u, Piece t u ∧ Writes u ls := by
  match v, h, ht with
  | [], h, ht =>
    cases h
    have : serVec n ([] : List α) = .ok [] := field_empty rfl n rfl
    rw [this] at ht; cases ht
    exact ⟨[], .nil, .nil⟩
  | [x], ⟨m, s, hw, e⟩, ht => subst e; exact field_written hc hn hne hw ht
  | x :: y :: v, ⟨ss, hw, e⟩, ht =>
    subst e
    refine field_written (v := x :: y :: v) (m := []) rfl hn hne ⟨?_, ?_, rfl, safeParams_nil⟩ ht
    · show (Res.mapM' Ser.ical (x :: y :: v)).map (join [',']) = _
      rw [mapM'_all2.2 (All2.imp (fun _ _ h => h.1) hw)]
      rfl
    · refine Clean.join (by intro c hc; simp at hc; rw [hc]; decide) ?_
      have : ∀ {as : List α} {bs : List Str}, All2 (fun x s => Ser.ical x = .ok s ∧ Clean s) as bs → ∀ s ∈ bs, Clean s := by
        intro as bs h
        induction h with
        | nil => simp
        | cons h _ ih => 
          intro s hs
          rcases List.mem_cons.1 hs with e | hs
          · rw [e]; exact h.2
          · exact ih s hs
      exact this hw

theorem Written.ser {f : Field} (hf : f.plain = true) {v : f.T} {ls : List ContentLine} {t : Str} (h : f.Written v ls)
    (ht : f.serField v = .ok t) : ∃ u, Piece t u ∧ Writes u ls := by
  have hp : ∀ {n : Str} {b : Bool}, (n.all isNameChar && !n.isEmpty && n != c!"BEGIN" && n != c!"END" && !b) = true →
      SafeName n ∧ n ≠ [] ∧ b = false := by
    intro n b h
    simp at h
    obtain ⟨⟨⟨⟨h1, h2⟩, h3⟩, h4⟩, h5⟩ := h
    exact ⟨⟨isName_lit (by simpa using h1), by simpa using h3, by simpa using h4⟩, h2, h5⟩
  cases f with
  | req n α s p =>
    obtain ⟨m, x, hw, rfl⟩ := h
    obtain ⟨h1, h2, h3⟩ := hp hf
    exact field_written h3 h1 h2 hw ht
  | opt n α s p =>
    obtain ⟨h1, h2, h3⟩ := hp hf
    revert v; intro (v : Option α) h ht
    cases v with
    | none =>
      cases h
      have : @field _ (@instSerOption _ s) n (none : Option α) = .ok [] := field_none n
      have ht : @field _ (@instSerOption _ s) n (none : Option α) = .ok t := ht
      rw [this] at ht; cases ht
      exact ⟨[], .nil, .nil⟩
    | some a =>
      obtain ⟨m, x, hw, rfl⟩ := h
      refine field_written h3 h1 h2 hw ?_
      rw [← field_some h3]
      exact ht
  | push n α s p =>
    obtain ⟨h1, h2, h3⟩ := hp hf
    exact written_list h3 h1 h2 h ht
  | append n α s p =>
    obtain ⟨h1, h2, h3⟩ := hp hf
    exact written_list h3 h1 h2 h ht
  | nested n α s =>
    obtain ⟨h1, rfl⟩ := h
    revert v; intro (v : List α) ht h1
    cases h1
    have : @serVec _ s n ([] : List α) = .ok [] := field_empty rfl n rfl
    have ht : @serVec _ s n ([] : List α) = .ok t := ht
    rw [this] at ht; cases ht
    exact ⟨[], .nil, .nil⟩

/-- What a field holds depends on the lines of its name only. -/
theorem Holds.congr {f : Field} {ls ls' : List ContentLine} {v : f.T} (h : f.parsed = true → named f.name ls = named f.name ls') :
    f.Holds ls v ↔ f.Holds ls' v := by
  cases f with
  | req n α s p => simp only [Holds, IsReq, lastNamed, h rfl]
  | opt n α s p => simp only [Holds, IsOpt, lastNamed, h rfl]
  | push n α s p => simp only [Holds, IsPush, h rfl]
  | append n α s p => simp only [Holds, IsAppend, h rfl]
  | nested n α s => rfl

end Field

/-! ## All fields -/

namespace Slots

/-- The lines `ls` are written for the fields. -/
def Written : (fs : List Field) → Slots fs → List ContentLine → Prop
  | [], _, ls => ls = []
  | f :: fs, (v, vs), ls => ∃ l l', f.Written v l ∧ Written fs vs l' ∧ ls = l ++ l'

theorem Written.ser {fs : List Field} (hf : fs.all Field.plain = true) {v : Slots fs} {ls : List ContentLine} {t : Str}
    (h : Written fs v ls) (ht : Slots.ser fs v = .ok t) : ∃ u, Piece t u ∧ Writes u ls := by
  induction fs generalizing ls t with
  | nil => cases h; cases ht; exact ⟨[], .nil, .nil⟩
  | cons f fs ih =>
    obtain ⟨v, vs⟩ := v
    obtain ⟨l, l', h1, h2, rfl⟩ := h
    simp only [List.all_cons, Bool.and_eq_true] at hf
    simp only [Slots.ser, Res.bind_eq_ok] at ht
    obtain ⟨a, ha, b, hb, hab⟩ := ht
    cases hab
    obtain ⟨u, hu, hw⟩ := h1.ser hf.1 ha
    obtain ⟨u', hu', hw'⟩ := ih hf.2 h2 hb
    exact ⟨_, hu.append hu', hw.append hw'⟩

theorem Written.keys {fs : List Field} {v : Slots fs} {ls : List ContentLine} (h : Written fs v ls) :
    ∀ l ∈ ls, l.key ∈ fs.map Field.name := by
  induction fs generalizing ls with
  | nil => cases h; simp
  | cons f fs ih =>
    obtain ⟨v, vs⟩ := v
    obtain ⟨l, l', h1, h2, rfl⟩ := h
    intro x hx
    rcases List.mem_append.1 hx with hx | hx
    · simp [h1.keys x hx]
    · exact List.mem_cons_of_mem _ (ih h2 x hx)

/-- The values `w` are what the lines written for the values `v` are read as, field by field. -/
def Reads : (fs : List Field) → Slots fs → Slots fs → List ContentLine → Prop
  | [], _, _, ls => ls = []
  | f :: fs, (v, vs), (w, ws), ls => ∃ l l', f.Written v l ∧ f.Holds l w ∧ Reads fs vs ws l' ∧ ls = l ++ l'

theorem Reads.written {fs : List Field} {v w : Slots fs} {ls : List ContentLine} (h : Reads fs v w ls) : Written fs v ls := by
  induction fs generalizing ls with
  | nil => exact h
  | cons f fs ih =>
    obtain ⟨l, l', h1, _, h3, rfl⟩ := h
    exact ⟨l, l', h1, ih h3, rfl⟩

theorem named_append (n : Str) (a b : List ContentLine) : named n (a ++ b) = named n a ++ named n b := by simp [named]

theorem named_eq_nil {n : Str} {a : List ContentLine} (h : ∀ l ∈ a, l.key ≠ n) : named n a = [] := by
  unfold named
  rw [List.filter_eq_nil_iff]
  intro l hl
  simpa using h l hl

theorem holds_mid {fs : List Field} {v : Slots fs} {pre ls : List ContentLine} (hp : ∀ l ∈ pre, l.key ∉ fs.map Field.name) :
    Holds fs (pre ++ ls) v ↔ Holds fs ls v := by
  induction fs with
  | nil => exact Iff.rfl
  | cons f fs ih =>
    obtain ⟨v, vs⟩ := v
    simp only [Holds]
    rw [ih fun l hl hm => hp l hl (List.mem_cons_of_mem _ hm), Field.Holds.congr (ls := pre ++ ls) (ls' := ls)]
    intro _
    rw [named_append, named_eq_nil fun l hl e => hp l hl (by simp [e])]
    rfl

theorem Holds.of_reads {fs : List Field} (hd : (fs.map Field.name).Nodup) {v w : Slots fs} {ls : List ContentLine}
    (h : Reads fs v w ls) : Holds fs ls w := by
  induction fs generalizing ls with
  | nil => trivial
  | cons f fs ih =>
    obtain ⟨v, vs⟩ := v
    obtain ⟨w, ws⟩ := w
    obtain ⟨l, l', h1, h2, h3, rfl⟩ := h
    simp only [List.map_cons, List.nodup_cons] at hd
    refine ⟨?_, ?_⟩
    · rw [Field.Holds.congr (ls' := l)]
      · exact h2
      · intro _
        rw [named_append, named_eq_nil (a := l'), List.append_nil]
        intro x hx e
        exact hd.1 (e ▸ h3.written.keys x hx)
    · refine (holds_mid ?_).2 (ih hd.2 h3)
      intro x hx hm
      rw [h1.keys x hx] at hm
      exact hd.1 hm

end Slots

/-! ## Components -/

theorem piece_frame {p name : Str} (hp : p = c!"BEGIN:" ∨ p = c!"END:") (hn : IsName name) :
    Piece (p ++ name ++ c!"\r\n") (p ++ name ++ c!"\r\n") := by
  have hlf : '\n' ∉ p ++ name := by
    intro h
    rcases List.mem_append.1 h with h | h
    · rcases hp with rfl | rfl <;> simp at h
    · exact absurd (hn _ h) (not_nameChar (by simp))
  refine .lit ?_ ?_ (not_fold_of_no_lf hlf)
  · rcases hp with rfl | rfl <;> simp
  · rcases hp with rfl | rfl <;> simp

theorem field_ext_nil (n : Str) : @field _ Comp.extSer n [] = .ok [] :=
  @field_empty _ Comp.extSer rfl n [] rfl

/-- The text of a component, without extension properties, is its opening, its property lines and its closing. -/
theorem Comp.written {fs : List Field} (hf : fs.all Field.plain = true) {name : Str} (hn : IsName name) {c : Comp fs}
    (hx : c.xProp = []) (hi : c.ianaProp = []) {ls : List ContentLine} (hw : Slots.Written fs c.slots ls) {t : Str}
    (h : c.ical name = .ok t) : ∃ u, Piece t u ∧ ∀ r, LeafText name (u ++ r) ls r := by
  unfold Comp.ical at h
  rw [hx, hi] at h
  simp only [field_ext_nil, Res.bind_eq_ok, Res.pure_eq, Res.ok.injEq] at h
  obtain ⟨body, hb, x, rfl, i, rfl, rfl⟩ := h
  obtain ⟨u, hu, hwr⟩ := hw.ser hf hb
  have hp := ((piece_frame (.inl rfl) hn).append hu).append (piece_frame (.inr rfl) hn)
  refine ⟨_, by simpa [List.append_assoc] using hp, fun r => ?_⟩
  refine ⟨u ++ (c!"END:" ++ name ++ c!"\r\n" ++ r), by simp, ?_⟩
  exact hwr.stop (.inr ⟨name ++ c!"\r\n" ++ r, by simp⟩)

/-- What a leaf component is read back as. -/
theorem Comp.read_back [Platform] {fs : List Field} (hf : fs.all Field.plain = true) {name : Str} (hn : IsName name) {c : Comp fs}
    (hx : c.xProp = []) (hi : c.ianaProp = []) {ls : List ContentLine} (hw : Slots.Written fs c.slots ls) {t : Str}
    (h : c.ical name = .ok t) {α : Type} (conv : List ContentLine → Res α) (v : α) :
    componentOfStr (componentP name conv) t = .ok v ↔ conv ls = .ok v := by
  obtain ⟨u, hu, hl⟩ := Comp.written hf hn hx hi hw h
  rw [componentOfStr_ok, hu.un]
  have hl := hl []
  rw [List.append_nil] at hl
  constructor
  · rintro ⟨r, hr⟩
    have e := (leaf_ok (conv := conv) (From := fun ls v => conv ls = Res.ok v) (fun _ _ => Iff.rfl) u r v).1 hr
    obtain ⟨ls', hl', hv⟩ := e
    have : ls' = ls := by
      obtain ⟨b, e1, h1⟩ := hl
      obtain ⟨b', e1', h1'⟩ := hl'
      rw [e1] at e1'
      have e2 := List.append_cancel_left e1'
      subst e2
      exact by
        have a := contentLines_ok.2 h1
        rw [contentLines_ok.2 h1'] at a
        exact (NRes.ok.inj a).2
    rwa [this] at hv
  · intro hv
    exact ⟨[], (leaf_ok (conv := conv) (From := fun ls v => conv ls = Res.ok v) (fun _ _ => Iff.rfl) u [] v).2 ⟨ls, hl, hv⟩⟩

end Ikal
