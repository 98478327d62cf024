import Verif.Lemmas.Blocks
import Verif.Spec.Reread
import Verif.Props.Broken

/-!
# C47: components with several parts

A component with several parts of a kind, or with an alarm, is written but not read.
-/

namespace Ikal

open Nom Spec

set_option linter.unusedSectionVars false
set_option linter.unusedSimpArgs false

/-! ## Pieces that can be peeled off, and dead ends -/

/-- Things `T` begin with one of the tags, and are followed by the tag `fin`. -/
structure Setting {α : Type} (T : Str → α → Str → Prop) (tags : List Str) (fin : Str) : Prop where
  isTag : ∀ x ∈ tags, IsTag x
  mem : fin ∈ tags
  fin_end : c!"END:" <+: fin
  opens : ∀ i a r, T i a r → c!"BEGIN:" <+: i ∧ ∃ x ∈ tags, x <+: i

/-- The text is some things `T` of which `Q` holds, or nothing. -/
def Peel {α : Type} (T : Str → α → Str → Prop) (fin : Str) (Q : List α → Prop) (u : Str) : Prop :=
  (u = [] ∨ c!"BEGIN:" <+: u) ∧ ∀ r as r', SeqText T (u ++ r) as r' → fin <+: r' →
    ∃ bs cs, as = bs ++ cs ∧ Q bs ∧ (∀ z, SeqText T (u ++ z) bs z) ∧ SeqText T r cs r'

/-- A list made of two parts. -/
def Split {α : Type} (Q Q' : List α → Prop) (l : List α) : Prop := ∃ a b, l = a ++ b ∧ Q a ∧ Q' b

/-- No things `T` are read from the text, whether or not property lines precede. -/
def Dead {α : Type} (T : Str → α → Str → Prop) (fin u : Str) : Prop :=
  (∀ r as r', SeqText T (u ++ r) as r' → ¬ fin <+: r') ∧
  ∀ r ls r1 as r', LinesText (u ++ r) ls r1 → SeqText T r1 as r' → ¬ fin <+: r'

section Pieces

variable {α : Type} {T : Str → α → Str → Prop} {tags : List Str} {fin : Str} {Q Q' : List α → Prop}

theorem _root_.Ikal.Spec.SeqText.trans {i r r' : Str} {as bs : List α} (h : SeqText T i as r) (h' : SeqText T r bs r') : SeqText T i (as ++ bs) r' := by
  induction h with
  | nil => exact h'
  | cons h _ ih => exact .cons h (ih h')


theorem Setting.seq (S : Setting T tags fin) {i r : Str} {as : List α} (h : SeqText T i as r) (hr : fin <+: r) : ∃ x ∈ tags, x <+: i := by
  cases h with
  | nil => exact ⟨fin, S.mem, hr⟩
  | cons h _ => exact (S.opens _ _ _ h).2

theorem not_begin_end {i : Str} (h : c!"BEGIN:" <+: i) (h' : c!"END:" <+: i) : False := by
  obtain ⟨x, rfl⟩ := h
  obtain ⟨y, e⟩ := h'
  simp at e

theorem Setting.seq_begin (S : Setting T tags fin) {i r : Str} {as : List α} (hb : c!"BEGIN:" <+: i) (h : SeqText T i as r) (hr : fin <+: r) :
    ∃ a as' r1, T i a r1 ∧ SeqText T r1 as' r := by
  cases h with
  | nil => exact (not_begin_end hb (S.fin_end.trans hr)).elim
  | cons h1 h2 => exact ⟨_, _, _, h1, h2⟩

theorem Setting.seq_end (S : Setting T tags fin) {i r : Str} {as : List α} (hb : c!"END:" <+: i) (h : SeqText T i as r) : i = r ∧ as = [] := by
  cases h with
  | nil => exact ⟨rfl, rfl⟩
  | cons h1 h2 => exact (not_begin_end (S.opens _ _ _ h1).1 hb).elim

theorem Peel.nil (hq : Q []) : Peel T fin Q [] := ⟨.inl rfl, fun _ as _ h _ => ⟨[], as, rfl, hq, fun _ => .nil, h⟩⟩

theorem Peel.append {u v : Str} (h : Peel T fin Q u) (h' : Peel T fin Q' v) : Peel T fin (Split Q Q') (u ++ v) := by
  refine ⟨?_, fun r as r' hs hr => ?_⟩
  · rcases h.1 with rfl | hb
    · exact h'.1
    · exact .inr (hb.trans ⟨v, rfl⟩)
  · rw [List.append_assoc] at hs
    obtain ⟨bs, cs, rfl, hq, hz, h1⟩ := h.2 _ _ _ hs hr
    obtain ⟨bs', cs', rfl, hq', hz', h2⟩ := h'.2 _ _ _ h1 hr
    refine ⟨bs ++ bs', cs', by simp, ⟨bs, bs', rfl, hq, hq'⟩, fun z => ?_, h2⟩
    rw [List.append_assoc]
    exact (hz _).trans (hz' z)

theorem Dead.append {u : Str} (h : Dead T fin u) (v : Str) : Dead T fin (u ++ v) := by
  refine ⟨fun r as r' hs => ?_, fun r ls r1 as r' hl hs => ?_⟩
  · rw [List.append_assoc] at hs
    exact h.1 _ _ _ hs
  · rw [List.append_assoc] at hl
    exact h.2 _ _ _ _ _ hl hs

theorem lines_at_begin {i r : Str} {ls : List ContentLine} (hb : c!"BEGIN:" <+: i) (h : LinesText i ls r) : r = i :=
  (linesText_unique h (lines_stop (.inl hb))).2

/-- What cannot follow a thing `T`. -/
theorem Peel.off {u v : Str} (h : Peel T fin Q u) (hb : c!"BEGIN:" <+: u) (hv : ∀ r as r', SeqText T (v ++ r) as r' → ¬ fin <+: r') :
    Dead T fin (u ++ v) := by
  have h1 : ∀ r as r', SeqText T (u ++ v ++ r) as r' → ¬ fin <+: r' := by
    intro r as r' hs hr
    rw [List.append_assoc] at hs
    obtain ⟨_, _, _, _, _, h1⟩ := h.2 _ _ _ hs hr
    exact hv _ _ _ h1 hr
  refine ⟨h1, fun r ls r1 as r' hl hs => ?_⟩
  rw [lines_at_begin (hb.trans ⟨v ++ r, by simp⟩) hl] at hs
  exact h1 _ _ _ hs

theorem Peel.dead {u v : Str} (h : Peel T fin Q u) (h' : Dead T fin v) : Dead T fin (u ++ v) := by
  rcases h.1 with rfl | hb
  · exact h'
  · exact h.off hb h'.1

theorem Peel.of_unique (S : Setting T tags fin) {u : Str} (hb : c!"BEGIN:" <+: u) 
    (h : ∀ r a r', T (u ++ r) a r' → r' = r ∧ Q [a] ∧ ∀ z, T (u ++ z) a z) : Peel T fin Q u := by
  refine ⟨.inr hb, fun r as r' hs hr => ?_⟩
  cases hs with
  | nil => exact (not_begin_end (hb.trans ⟨r, rfl⟩) (S.fin_end.trans hr)).elim
  | @cons _ r2 _ a as h1 h2 =>
    obtain ⟨rfl, hq, hz⟩ := h _ _ _ h1
    exact ⟨[a], as, rfl, hq, fun z => .cons (hz z) .nil, h2⟩

theorem Dead.of_never (S : Setting T tags fin) {u : Str} (hb : c!"BEGIN:" <+: u) (h : ∀ r a r', ¬ T (u ++ r) a r') : Dead T fin u := by
  have h1 : ∀ r as r', SeqText T (u ++ r) as r' → ¬ fin <+: r' := by
    intro r as r' hs hr
    obtain ⟨a, as', r1, h1, _⟩ := S.seq_begin (hb.trans ⟨r, rfl⟩) hs hr
    exact h _ _ _ h1
  refine ⟨h1, fun r ls r1 as r' hl hs => ?_⟩
  rw [lines_at_begin (hb.trans ⟨r, rfl⟩) hl] at hs
  exact h1 _ _ _ hs

theorem Dead.of_guard (S : Setting T tags fin) {u : Str} (h : ∀ r, Guard (NoTag tags) (u ++ r)) : Dead T fin u := by
  refine ⟨fun r as r' hs hr => ?_, fun r ls r1 as r' hl hs hr => ?_⟩
  · obtain ⟨x, hx, hp⟩ := S.seq hs hr
    exact (h r).left x hx hp
  · obtain ⟨x, hx, hp⟩ := S.seq hs hr
    exact (h r).lines hl x hx hp

/-- Property lines and a dead end. -/
theorem Dead.after {u0 u : Str} {ls0 : List ContentLine} (hw : Writes u0 ls0) (h : Dead T fin u) {r r1 r' : Str} {ls : List ContentLine}
    {as : List α} (hl : LinesText (u0 ++ (u ++ r)) ls r1) (hs : SeqText T r1 as r') : ¬ fin <+: r' := by
  obtain ⟨ls', r2, h2⟩ := linesText_total (u ++ r)
  have := (linesText_unique hl (hw _ _ _ h2)).2
  subst this
  exact h.2 _ _ _ _ _ h2 hs

/-- Either a dead end, or pieces. -/
def Sorted (T : Str → α → Str → Prop) (fin : Str) (Q : List α → Prop) (bad some : Prop) (u : Str) : Prop :=
  (bad ∧ Dead T fin u) ∨ (¬ bad ∧ Peel T fin Q u ∧ (¬ some → u = []) ∧ (some → c!"BEGIN:" <+: u))

theorem Sorted.append {bad bad' some some' : Prop} {u u' : Str} (h : Sorted T fin Q bad some u) (h' : Sorted T fin Q' bad' some' u') :
    Sorted T fin (Split Q Q') (bad ∨ bad') (some ∨ some') (u ++ u') := by
  rcases h with ⟨hb, hd⟩ | ⟨hb, hp, hn, hs⟩
  · exact .inl ⟨.inl hb, hd.append _⟩
  · rcases h' with ⟨hb', hd'⟩ | ⟨hb', hp', hn', hs'⟩
    · exact .inl ⟨.inr hb', hp.dead hd'⟩
    · refine .inr ⟨fun h => h.elim hb hb', hp.append hp', fun h => ?_, fun h => ?_⟩
      · rw [hn fun x => h (.inl x), hn' fun x => h (.inr x)]
        rfl
      · by_cases hx : some
        · exact (hs hx).trans ⟨u', rfl⟩
        · rw [hn hx]
          exact hs' (h.resolve_left hx)

/-- Several things are a dead end. -/
theorem many_dead {β : Type} [Ser β] (S : Setting T tags fin) {D X name : Str} (hD : IsTag D) (h1 : ∀ x ∈ tags, ¬ x <+: D)
    (h2 : ∀ x ∈ tags, ¬ D <+: x) (hn : SafeName name) (hne : name ≠ []) (hX : IsName X) {x : β} {l : List β}
    (hl : Ser.isComponent β = false ∨ l ≠ []) (ha : Ser.attr x = none) (hk : ∀ t, Ser.ical x = .ok t → Leads D X t) {t : Str}
    (ht : Field.serVec name (x :: l) = .ok t) : ∃ u, Piece t u ∧ Dead T fin u := by
  obtain ⟨W, hW, hf⟩ := many_chain hn hne hX hl ha hk ht
  obtain ⟨_, h3, h4⟩ := chain_fold hD hW hf
  exact ⟨_, h4, Dead.of_guard S fun r => (h3.append r).guard hD S.isTag h1 h2⟩

/-- A list of things of which each is read, or not. -/
theorem vec_sorted [Platform] {β : Type} [Ser β] (hc : Ser.isComponent β = true) (S : Setting T tags fin) {X name : Str}
    (hn : SafeName name) (hne : name ≠ []) (hX : IsName X) {P : β → Prop} {R : β → α → Prop} {l : List β}
    (hm : ∀ x ∈ l, Ser.attr x = none ∧ ∀ t, Ser.ical x = .ok t →
      (∃ D, IsTag D ∧ (∀ x ∈ tags, ¬ x <+: D) ∧ (∀ x ∈ tags, ¬ D <+: x) ∧ Leads D X t) ∧
      ∃ u, Piece t u ∧ c!"BEGIN:" <+: u ∧ ((P x ∧ ∀ r a r', ¬ T (u ++ r) a r') ∨ (¬ P x ∧ ∀ r a r', T (u ++ r) a r' → r' = r ∧ R x a ∧ ∀ z, T (u ++ z) a z)))
    {t : Str} (ht : Field.serVec name l = .ok t) : ∃ u, Piece t u ∧ Sorted T fin (All2 R l) (1 < l.length ∨ ∃ x ∈ l, P x) (l ≠ []) u := by
  match l, hm, ht with
  | [], _, ht =>
    rw [serVec_nil] at ht
    cases ht
    exact ⟨[], .nil, .inr ⟨by simp, .nil .nil, fun _ => rfl, fun h => absurd rfl h⟩⟩
  | [x], hm, ht =>
    have ht : field name x = .ok t := ht
    rw [field_component hc] at ht
    obtain ⟨_, u, hu, hb, h⟩ := (hm x (by simp)).2 t ht
    refine ⟨u, hu, ?_⟩
    rcases h with ⟨hp, h⟩ | ⟨hp, h⟩
    · exact .inl ⟨.inr ⟨x, by simp, hp⟩, Dead.of_never S hb h⟩
    · exact .inr ⟨by simpa using hp, Peel.of_unique S hb (fun r a r' hh => ⟨(h r a r' hh).1, .cons (h r a r' hh).2.1 .nil, (h r a r' hh).2.2⟩), by simp, fun _ => hb⟩
  | x :: y :: l, hm, ht =>
    obtain ⟨ha, hk⟩ := hm x (by simp)
    cases hs : Ser.ical x with
    | ok s =>
      obtain ⟨⟨D, hD, h1, h2, h3⟩, _⟩ := hk s hs
      have hk' : ∀ t, Ser.ical x = .ok t → Leads D X t := by
        intro t' ht'
        rw [hs] at ht'
        cases ht'
        exact h3
      obtain ⟨u, hu, hd⟩ := many_dead S hD h1 h2 hn hne hX (.inr (by simp)) ha hk' ht
      exact ⟨u, hu, .inl ⟨.inl (by simp), hd⟩⟩
    | err e =>
      have : Ser.ical (x :: y :: l) = .err e := by
        show (Res.mapM' Ser.ical (x :: y :: l)).map (join [',']) = _
        simp [Res.mapM', hs]
      have ht : field name (x :: y :: l) = .ok t := ht
      simp [field, this] at ht
    | panic =>
      have : Ser.ical (x :: y :: l) = .panic := by
        show (Res.mapM' Ser.ical (x :: y :: l)).map (join [',']) = _
        simp [Res.mapM', hs]
      have ht : field name (x :: y :: l) = .ok t := ht
      simp [field, this] at ht

end Pieces

/-- The text of a tidy component without parts is that of one component. -/
theorem Comp.leaf_unique {fs : List Field} (hf : fs.all Field.plain = true) {name : Str} (hn : IsName name) {c : Comp fs}
    (hx : TidyExt c.xProp) (hi : TidyExt c.ianaProp) {ls : List ContentLine} (hw : Slots.Written fs c.slots ls) {t : Str}
    (h : c.ical name = .ok t) :
    ∃ u ls0, Piece t u ∧ c!"BEGIN:" ++ name ++ c!"\r\n" <+: u ∧ (∀ r ls' r', LeafText name (u ++ r) ls' r' → r' = r ∧ ls' = ls0) ∧
      ∀ r, LeafText name (u ++ r) ls0 r := by
  obtain ⟨sx, hx, hcx⟩ := clean_ext hx
  obtain ⟨si, hi, hci⟩ := clean_ext hi
  obtain ⟨u, hu, hr⟩ := Comp.written_tidy hf hn hx hcx hi hci hw h
  refine ⟨u, _, hu, ?_, fun r ls' r' hl => ?_, hr⟩
  · obtain ⟨b, e, _⟩ := hr []
    exact ⟨b, by simpa using e.symm⟩
  · obtain ⟨b, e1, h1⟩ := hr r
    obtain ⟨b', e2, h2⟩ := hl
    rw [e1] at e2
    have e3 := List.append_cancel_left e2
    subst e3
    have e4 := linesText_unique h1 h2
    exact ⟨(List.append_cancel_left e4.2).symm, e4.1.symm⟩

theorem ext_starts {n : Str} {m : SMap ContentLine} (h : TidyExt m) (hn : SafeName n) (hne : n ≠ []) (hm : m ≠ []) {t : Str}
    (ht : @field _ Comp.extSer n m = .ok t) : ∃ y, unfold t = n ++ y := by
  obtain ⟨s, hs, hc⟩ := clean_ext h
  have hl := no_lf_line (v := s) hn.1 safeParams_nil hc.lf
  have := @C01_unfold_folded _ Comp.extSer rfl n m s t hs (ext_ne hs hm) (by
    show ¬ HasFold (propertyLine n (paramsAttr []) s)
    rw [propertyLine_safe safeParams_nil]
    exact not_fold_of_no_lf hl) ht
  exact ⟨':' :: (s ++ c!"\r\n"), by rw [this]; show propertyLine n none s = _; simp [propertyLine]⟩

/-- The lines of the extension properties; they cannot follow a part. -/
theorem ext_off {c d : SMap ContentLine} (hx : TidyExt c) (hi : TidyExt d) {x i : Str} (hx' : @field _ Comp.extSer c!"X-PROP" c = .ok x)
    (hi' : @field _ Comp.extSer c!"IANA-PROP" d = .ok i) :
    ∃ sx si, SMap.ical c = .ok sx ∧ SMap.ical d = .ok si ∧
    ∃ u ls, Piece (x ++ i) u ∧ Writes u ls ∧ ls = lineOf c!"X-PROP" [] sx ++ lineOf c!"IANA-PROP" [] si ∧ (c = [] ∧ d = [] → u = [] ∧ ls = []) ∧
      (c ≠ [] ∨ d ≠ [] → ∀ r, ¬ c!"BEGIN:" <+: u ++ r ∧ ¬ c!"END:" <+: u ++ r) := by
  obtain ⟨sx, hsx, hcx⟩ := clean_ext hx
  obtain ⟨si, hsi, hci⟩ := clean_ext hi
  have nx : SafeName c!"X-PROP" := ⟨isName_lit (by decide), by decide, by decide⟩
  have ni : SafeName c!"IANA-PROP" := ⟨isName_lit (by decide), by decide, by decide⟩
  obtain ⟨ux, hux, hwx⟩ := @field_written _ Comp.extSer rfl c!"X-PROP" c [] sx x nx (by decide) (written_ext hsx hcx) hx'
  obtain ⟨ui, hui, hwi⟩ := @field_written _ Comp.extSer rfl c!"IANA-PROP" d [] si i ni (by decide) (written_ext hsi hci) hi'
  refine ⟨sx, si, hsx, hsi, _, _, hux.append hui, hwx.append hwi, rfl, ?_, ?_⟩
  · rintro ⟨rfl, rfl⟩
    rw [field_ext_nil] at hx' hi'
    cases hx'
    cases hi'
    cases hsx
    cases hsi
    rw [← hux.un, ← hui.un]
    exact ⟨rfl, rfl⟩
  · intro h r
    by_cases hc : c = []
    · have hd := h.resolve_left (fun x => x hc)
      subst hc
      rw [field_ext_nil] at hx'
      cases hx'
      obtain ⟨y, hy⟩ := ext_starts hi ni (by decide) hd hi'
      have : ux = [] := by rw [← hux.un]; rfl
      rw [this, ← hui.un, hy]
      exact ⟨fun ⟨z, hz⟩ => by simp at hz, fun ⟨z, hz⟩ => by simp at hz⟩
    · obtain ⟨y, hy⟩ := ext_starts hx nx (by decide) hc hx'
      rw [← hux.un, hy]
      exact ⟨fun ⟨z, hz⟩ => by simp at hz, fun ⟨z, hz⟩ => by simp at hz⟩

/-- One more field before the parts. -/
theorem Slots.ser_step {f : Field} {fs : List Field} {x : f.T} {xs ys : Slots fs} {Q : Str → Prop}
    (h : ∀ t, Slots.ser fs xs = .ok t → ∃ t0 s, Slots.ser fs ys = .ok t0 ∧ Q s ∧ t = t0 ++ s) :
    ∀ t, Slots.ser (f :: fs) (x, xs) = .ok t → ∃ t0 s, Slots.ser (f :: fs) (x, ys) = .ok t0 ∧ Q s ∧ t = t0 ++ s := by
  intro t ht
  simp only [Slots.ser, Res.bind_eq_ok, Res.pure_eq, Res.ok.injEq] at ht ⊢
  obtain ⟨a, h1, b, h2, rfl⟩ := ht
  obtain ⟨t0, s, h3, hq, rfl⟩ := h b h2
  exact ⟨a ++ t0, s, ⟨a, h1, t0, h3, rfl⟩, hq, by simp⟩

section Main

variable [Platform]

/-! ## Leaves -/

theorem VTodo.leaf {v : VTodo} (h : TidyVTodo v) {t : Str} (ht : Ser.ical v = .ok t) :
    (∃ u ls0, Piece t u ∧ c!"BEGIN:VTODO\r\n" <+: u ∧ (∀ r ls r', LeafText c!"VTODO" (u ++ r) ls r' → r' = r ∧ ls = ls0) ∧
      ∀ r, LeafText c!"VTODO" (u ++ r) ls0 r) ∧ Leads c!"END:VTODO" c!"VTODO" t := by
  obtain ⟨ls, hw, hq⟩ := VTodo.tidy h
  refine ⟨Comp.leaf_unique (c := v.toComp) VTodo.plain (isName_lit (by decide)) h.xProp h.ianaProp hw ht, ?_⟩
  obtain ⟨b, hb, e⟩ := Comp.blocks_tidy (c := v.toComp) VTodo.plain h.xProp h.ianaProp hw hq ht
  rw [e]
  exact leads_of_blocks (X := c!"VTODO") hb

theorem VJournal.leaf {v : VJournal} (h : TidyVJournal v) {t : Str} (ht : Ser.ical v = .ok t) :
    (∃ u ls0, Piece t u ∧ c!"BEGIN:VJOURNAL\r\n" <+: u ∧ (∀ r ls r', LeafText c!"VJOURNAL" (u ++ r) ls r' → r' = r ∧ ls = ls0) ∧
      ∀ r, LeafText c!"VJOURNAL" (u ++ r) ls0 r) ∧ Leads c!"END:VJOURNAL" c!"VJOURNAL" t := by
  obtain ⟨ls, hw, hq⟩ := VJournal.tidy h
  refine ⟨Comp.leaf_unique (c := v.toComp) VJournal.plain (isName_lit (by decide)) h.xProp h.ianaProp hw ht, ?_⟩
  obtain ⟨b, hb, e⟩ := Comp.blocks_tidy (c := v.toComp) VJournal.plain h.xProp h.ianaProp hw hq ht
  rw [e]
  exact leads_of_blocks (X := c!"VJOURNAL") hb

theorem VFreebusy.leaf {v : VFreebusy} (h : TidyVFreebusy v) {t : Str} (ht : Ser.ical v = .ok t) :
    (∃ u ls0, Piece t u ∧ c!"BEGIN:VFREEBUSY\r\n" <+: u ∧ (∀ r ls r', LeafText c!"VFREEBUSY" (u ++ r) ls r' → r' = r ∧ ls = ls0) ∧
      ∀ r, LeafText c!"VFREEBUSY" (u ++ r) ls0 r) ∧ Leads c!"END:VFREEBUSY" c!"VFREEBUSY" t := by
  obtain ⟨ls, hw, hq⟩ := VFreebusy.tidy h
  refine ⟨Comp.leaf_unique (c := v.toComp) VFreebusy.plain (isName_lit (by decide)) h.xProp h.ianaProp hw ht, ?_⟩
  obtain ⟨b, hb, e⟩ := Comp.blocks_tidy (c := v.toComp) VFreebusy.plain h.xProp h.ianaProp hw hq ht
  rw [e]
  exact leads_of_blocks (X := c!"VFREEBUSY") hb

theorem Standard.leaf {v : Standard} (h : TidyStandard v) {t : Str} (ht : Ser.ical v = .ok t) :
    (∃ u ls0, Piece t u ∧ c!"BEGIN:STANDARD\r\n" <+: u ∧ (∀ r ls r', LeafText c!"STANDARD" (u ++ r) ls r' → r' = r ∧ ls = ls0) ∧
      ∀ r, LeafText c!"STANDARD" (u ++ r) ls0 r) ∧ Leads c!"END:STANDARD" c!"STANDARD" t := by
  obtain ⟨ls, hw, hq⟩ := Standard.tidy h
  refine ⟨Comp.leaf_unique (c := v.toComp) Standard.plain (isName_lit (by decide)) h.xProp h.ianaProp hw ht, ?_⟩
  obtain ⟨b, hb, e⟩ := Comp.blocks_tidy (c := v.toComp) Standard.plain h.xProp h.ianaProp hw hq ht
  rw [e]
  exact leads_of_blocks (X := c!"STANDARD") hb

theorem Daylight.leaf {v : Daylight} (h : TidyDaylight v) {t : Str} (ht : Ser.ical v = .ok t) :
    (∃ u ls0, Piece t u ∧ c!"BEGIN:DAYLIGHT\r\n" <+: u ∧ (∀ r ls r', LeafText c!"DAYLIGHT" (u ++ r) ls r' → r' = r ∧ ls = ls0) ∧
      ∀ r, LeafText c!"DAYLIGHT" (u ++ r) ls0 r) ∧ Leads c!"END:DAYLIGHT" c!"DAYLIGHT" t := by
  obtain ⟨ls, hw, hq⟩ := Daylight.tidy h
  refine ⟨Comp.leaf_unique (c := v.toComp) Daylight.plain (isName_lit (by decide)) h.xProp h.ianaProp hw ht, ?_⟩
  obtain ⟨b, hb, e⟩ := Comp.blocks_tidy (c := v.toComp) Daylight.plain h.xProp h.ianaProp hw hq ht
  rw [e]
  exact leads_of_blocks (X := c!"DAYLIGHT") hb

theorem Audio.inner {v : Audio} (h : TidyAudio v) {t : Str} (ht : Ser.ical v = .ok t) :
    ∃ b, Blocks b ∧ t = c!"BEGIN:" ++ c!"AUDIO" ++ c!"\r\n" ++ b ++ (c!"END:" ++ c!"AUDIO" ++ c!"\r\n") := by
  obtain ⟨ls, hw, hq⟩ := Audio.tidy h
  exact Comp.blocks_tidy (c := v.toComp) Audio.plain h.xProp h.ianaProp hw hq ht

theorem Display.inner {v : Display} (h : TidyDisplay v) {t : Str} (ht : Ser.ical v = .ok t) :
    ∃ b, Blocks b ∧ t = c!"BEGIN:" ++ c!"DISPLAY" ++ c!"\r\n" ++ b ++ (c!"END:" ++ c!"DISPLAY" ++ c!"\r\n") := by
  obtain ⟨ls, hw, hq⟩ := Display.tidy h
  exact Comp.blocks_tidy (c := v.toComp) Display.plain h.xProp h.ianaProp hw hq ht

theorem Email.inner {v : Email} (h : TidyEmail v) {t : Str} (ht : Ser.ical v = .ok t) :
    ∃ b, Blocks b ∧ t = c!"BEGIN:" ++ c!"EMAIL" ++ c!"\r\n" ++ b ++ (c!"END:" ++ c!"EMAIL" ++ c!"\r\n") := by
  obtain ⟨ls, hw, hq⟩ := Email.tidy h
  exact Comp.blocks_tidy (c := v.toComp) Email.plain h.xProp h.ianaProp hw hq ht

/-- The text of a `VEvent`: its property lines, then its alarms. -/
theorem VEvent.ser_split {v : VEvent} {t : Str} (ht : Slots.ser VEvent.fields v.toComp.slots = .ok t) :
    ∃ t0 s0, Slots.ser VEvent.fields ({ v with alarms := [] } : VEvent).toComp.slots = .ok t0 ∧
      Field.serVec c!"ALARMS" v.alarms = .ok s0 ∧
      t = t0 ++ (s0) := by
  refine Slots.ser_step (fs := _ :: _) (Q := fun s => Field.serVec c!"ALARMS" v.alarms = .ok s) ?_ t ht
  iterate 29 refine Slots.ser_step (fs := _ :: _) ?_
  intro t ht
  simp only [Slots.ser, Field.serField, Res.bind_eq_ok, Res.pure_eq, Res.ok.injEq, serVec_nil] at ht ⊢
  obtain ⟨a, h1, b, h2, rfl⟩ := ht
  exact ⟨[], a, ⟨_, rfl, _, rfl, rfl⟩, h1, by simp [← h2]⟩

theorem VAlarm.leads {v : VAlarm} (h : TidyVAlarm v) {t : Str} (ht : Ser.ical v = .ok t) : Leads c!"END:VALARM" c!"VALARM" t := by
  have key : ∀ {x : Res Str} {k : Str}, '\n' ∉ k → x.map VAlarm.reframe = .ok t →
      (∀ s, x = .ok s → (∃ b, Blocks b ∧ s = c!"BEGIN:" ++ k ++ c!"\r\n" ++ b ++ (c!"END:" ++ k ++ c!"\r\n")) ∧ Framed k s) →
      Leads c!"END:VALARM" c!"VALARM" t := by
    intro x k hk hx hf
    obtain ⟨s, hs, e⟩ := map_eq_ok.1 hx
    obtain ⟨⟨b, hb, e1⟩, ⟨body, hend, e2⟩⟩ := hf s hs
    have e3 : b = body := by
      rw [e1] at e2
      exact List.append_cancel_left (List.append_cancel_right e2)
    subst e3
    rw [← e, e1, reframe_eq hk hend]
    exact leads_of_blocks (X := c!"VALARM") hb
  cases v with
  | audio a => exact key (x := Ser.ical a) (k := c!"AUDIO") (by decide) ht fun s hs => ⟨Audio.inner h hs, C43_Audio a s ((ical_eq rfl).trans hs)⟩
  | display a => exact key (x := Ser.ical a) (k := c!"DISPLAY") (by decide) ht fun s hs => ⟨Display.inner h hs, C43_Display a s ((ical_eq rfl).trans hs)⟩
  | email a => exact key (x := Ser.ical a) (k := c!"EMAIL") (by decide) ht fun s hs => ⟨Email.inner h hs, C43_Email a s ((ical_eq rfl).trans hs)⟩

theorem isTag_begin {n : Str} (h : IsName n) : IsTag (c!"BEGIN:" ++ n) :=
  ⟨⟨n, .inl rfl⟩, by simp [name_no (c := '\r') (not_nameChar (by simp)) h]⟩
theorem isTag_end {n : Str} (h : IsName n) : IsTag (c!"END:" ++ n) :=
  ⟨⟨n, .inr rfl⟩, by simp [name_no (c := '\r') (not_nameChar (by simp)) h]⟩

/-! ## Events -/

/-- What may follow the property lines of an event. -/
def eventTags : List Str := [c!"BEGIN:VALARM", c!"END:VEVENT"]

theorem event_setting : Setting AlarmText eventTags c!"END:VEVENT" where
  isTag := by
    intro x hx
    simp only [eventTags, List.mem_cons, List.not_mem_nil, or_false] at hx
    rcases hx with rfl | rfl
    · exact isTag_begin (n := c!"VALARM") (isName_lit (by decide))
    · exact isTag_end (n := c!"VEVENT") (isName_lit (by decide))
  mem := by decide
  fin_end := ⟨c!"VEVENT", rfl⟩
  opens := by
    rintro i a r ⟨ls, ⟨b, rfl, _⟩, _⟩
    exact ⟨⟨c!"VALARM\r\n" ++ b, by simp⟩, c!"BEGIN:VALARM", by decide, ⟨c!"\r\n" ++ b, by simp⟩⟩

/-- What the text of a component `v`, its parts apart, is read as: `w`, its parts apart. -/
def PropsBack (fs : List Field) (a b : Slots fs) (vx vi wx wi : SMap ContentLine) : Prop :=
  ∃ sx si, SMap.ical vx = .ok sx ∧ SMap.ical vi = .ok si ∧ Slots.LivesAll fs a b ∧
    wx = extBack c!"X-PROP" vx sx ∧ wi = extBack c!"IANA-PROP" vi si

/-- An event with tidy alarms. -/
theorem VEvent.event {v : VEvent} (h : DeepVEvent v) {t : Str} (ht : Ser.ical v = .ok t) :
    (∃ D, (D = c!"END:VEVENT" ∨ D = c!"END:VALARM") ∧ Leads D c!"VEVENT" t) ∧
    ∃ u, Piece t u ∧ c!"BEGIN:VEVENT\r\n" <+: u ∧
      ((v.alarms ≠ [] ∧ ∀ r w r', ¬ EventText (u ++ r) w r') ∨
       (¬ v.alarms ≠ [] ∧ ∀ r w r', EventText (u ++ r) w r' → r' = r ∧ ∀ z, EventText (u ++ z) w z)) := by
  obtain ⟨body, x, i, hb, hx, hi, rfl⟩ := Comp.framed (c := v.toComp) ht
  have hx : @field _ Comp.extSer c!"X-PROP" v.xProp = .ok x := hx
  have hi : @field _ Comp.extSer c!"IANA-PROP" v.ianaProp = .ok i := hi
  obtain ⟨t0, s0, h0, k0, rfl⟩ := VEvent.ser_split hb
  obtain ⟨ls, hw, hq⟩ := VEvent.tidy h.props
  have hb0 := hw.blocks VEvent.plain hq h0
  obtain ⟨u0, hu0, hw0⟩ := hw.ser VEvent.plain h0
  obtain ⟨sx, si, -, -, ue, lse, hue, hwe, -, -, -⟩ := ext_off h.props.xProp h.props.ianaProp hx hi
  have hbx := x_blocks h.props.xProp hx
  have hbi := iana_blocks h.props.ianaProp hi
  cases hal : v.alarms with
  | nil =>
    rw [hal, serVec_nil] at k0
    cases k0
    refine ⟨⟨_, .inl rfl, leads_of_blocks (X := c!"VEVENT") (((hb0.append (b := []) .nil).append hbx).append hbi)⟩, ?_⟩
    have hp := ((piece_begin c!"VEVENT" (isName_lit (by decide))).append (hu0.append hue)).append (piece_end c!"VEVENT" (isName_lit (by decide)))
    refine ⟨_, by simpa [List.append_assoc] using hp, ⟨u0 ++ ue ++ c!"END:VEVENT\r\n", by simp⟩, .inr ⟨by simp, fun r w r' hh => ?_⟩⟩
    obtain ⟨b, ls', r1, e1, h1, h2, h3⟩ := hh
    have e2 : b = (u0 ++ ue) ++ (c!"END:VEVENT\r\n" ++ r) := by
      have e1 : c!"BEGIN:VEVENT\r\n" ++ ((u0 ++ ue) ++ (c!"END:VEVENT\r\n" ++ r)) = c!"BEGIN:VEVENT\r\n" ++ b := by rw [← e1]; simp
      exact (List.append_cancel_left e1).symm
    subst e2
    have hend : ∀ r, c!"END:" <+: c!"END:VEVENT\r\n" ++ r := fun r => ⟨c!"VEVENT\r\n" ++ r, rfl⟩
    have e3 := linesText_unique h1 ((hw0.append hwe).stop (.inr (hend r)))
    obtain ⟨rfl, rfl⟩ := e3
    have e4 := event_setting.seq_end (hend r) h2
    refine ⟨(List.append_cancel_left e4.1).symm, fun z => ?_⟩
    refine ⟨(u0 ++ ue) ++ (c!"END:VEVENT\r\n" ++ z), _, _, by simp, (hw0.append hwe).stop (.inr (hend z)), ?_, h3⟩
    rw [e4.2]
    exact .nil
  | cons a as =>
    rw [hal] at k0
    have hD : IsTag c!"END:VALARM" := isTag_end (n := c!"VALARM") (isName_lit (by decide))
    have hn : SafeName c!"ALARMS" := ⟨isName_lit (by decide), by decide, by decide⟩
    have hl : ∀ t, Ser.ical a = .ok t → Leads c!"END:VALARM" c!"VALARM" t := fun t ht => VAlarm.leads (h.alarms a (by simp [hal])) ht
    constructor
    · obtain ⟨W, hW, hf⟩ := many_chain hn (by decide) (isName_lit (by decide)) (.inl rfl) rfl hl k0
      have hc := (chain_fold hD hW hf).1
      exact ⟨_, .inr rfl, t0 ++ (s0 ++ (x ++ i ++ c!"END:VEVENT\r\n")), by simp, (hc.append _).blocks hb0⟩
    · obtain ⟨u1, hu1, hd⟩ := many_dead event_setting hD (by decide) (by decide) hn (by decide) (isName_lit (by decide)) (.inl rfl) rfl hl k0
      have hp := ((piece_begin c!"VEVENT" (isName_lit (by decide))).append ((hu0.append hu1).append hue)).append (piece_end c!"VEVENT" (isName_lit (by decide)))
      refine ⟨_, by simpa [List.append_assoc] using hp, ⟨u0 ++ u1 ++ ue ++ c!"END:VEVENT\r\n", by simp⟩, .inl ⟨by simp, fun r w r' hh => ?_⟩⟩
      obtain ⟨b, ls', r1, e1, h1, h2, _⟩ := hh
      have e2 : b = u0 ++ (u1 ++ (ue ++ (c!"END:VEVENT\r\n" ++ r))) := by
        have e1 : c!"BEGIN:VEVENT\r\n" ++ (u0 ++ (u1 ++ (ue ++ (c!"END:VEVENT\r\n" ++ r)))) = c!"BEGIN:VEVENT\r\n" ++ b := by rw [← e1]; simp
        exact (List.append_cancel_left e1).symm
      subst e2
      exact hd.after hw0 h1 h2 ⟨c!"\r\n" ++ r', by simp⟩

/-! ## Time zones -/

/-- What may follow the property lines of a time zone. -/
def timezoneTags : List Str := [c!"BEGIN:STANDARD", c!"BEGIN:DAYLIGHT", c!"END:VTIMEZONE"]

theorem timezone_setting : Setting TzPartText timezoneTags c!"END:VTIMEZONE" where
  isTag := by
    intro x hx
    simp only [timezoneTags, List.mem_cons, List.not_mem_nil, or_false] at hx
    rcases hx with rfl | rfl | rfl
    · exact isTag_begin (n := c!"STANDARD") (isName_lit (by decide))
    · exact isTag_begin (n := c!"DAYLIGHT") (isName_lit (by decide))
    · exact isTag_end (n := c!"VTIMEZONE") (isName_lit (by decide))
  mem := by decide
  fin_end := ⟨c!"VTIMEZONE", rfl⟩
  opens := by
    intro i a r h
    cases a with
    | standard a =>
      obtain ⟨ls, ⟨b, rfl, _⟩, _⟩ := h
      exact ⟨⟨c!"STANDARD\r\n" ++ b, by simp⟩, c!"BEGIN:STANDARD", by decide, ⟨c!"\r\n" ++ b, by simp⟩⟩
    | daylight a =>
      obtain ⟨ls, ⟨b, rfl, _⟩, _⟩ := h
      exact ⟨⟨c!"DAYLIGHT\r\n" ++ b, by simp⟩, c!"BEGIN:DAYLIGHT", by decide, ⟨c!"\r\n" ++ b, by simp⟩⟩

/-- A time zone that is written but not read. -/
def BadTimezone (v : VTimezone) : Prop :=
  1 < v.standard.length ∨ 1 < v.daylight.length ∨ (v.standard ≠ [] ∨ v.daylight ≠ []) ∧ (v.xProp ≠ [] ∨ v.ianaProp ≠ [])

/-- What follows the property lines: parts, then extension properties, then the closing line. -/
theorem parts_tail {α : Type} {T : Str → α → Str → Prop} {tags : List Str} {fin : Str} (S : Setting T tags fin) {bad some ext : Prop}
    {Q : List α → Prop} {u0 u1 ue : Str} {ls0 lse : List ContentLine} (hs : Sorted T fin Q bad some u1) (hw0 : Writes u0 ls0)
    (hwe : Writes ue lse) (hn : ¬ ext → ue = [] ∧ lse = []) (he : ext → ∀ r, ¬ c!"BEGIN:" <+: ue ++ r ∧ ¬ c!"END:" <+: ue ++ r) :
    ((bad ∨ some ∧ ext) ∧ ∀ z ls r1 as r', LinesText (u0 ++ (u1 ++ (ue ++ z))) ls r1 → SeqText T r1 as r' → ¬ fin <+: r') ∨
    (¬ (bad ∨ some ∧ ext) ∧ ∀ z ls r1 as r', fin <+: z → LinesText (u0 ++ (u1 ++ (ue ++ z))) ls r1 → SeqText T r1 as r' → fin <+: r' →
      r' = z ∧ ls = ls0 ++ lse ∧ Q as ∧ ∀ z', fin <+: z' → ∃ r2, LinesText (u0 ++ (u1 ++ (ue ++ z'))) ls r2 ∧ SeqText T r2 as z') := by
  rcases hs with ⟨hb, hd⟩ | ⟨hb, hp, hns, hsm⟩
  · exact .inl ⟨.inl hb, fun z ls r1 as r' hl hs => hd.after hw0 hl hs⟩
  · by_cases hx : some ∧ ext
    · refine .inl ⟨.inr hx, fun z ls r1 as r' hl hs => ?_⟩
      have hd : Dead T fin (u1 ++ ue) := hp.off (hsm hx.1) fun r as r' h hr => by
        cases h with
        | nil => exact (he hx.2 r).2 (S.fin_end.trans hr)
        | cons h _ => exact (he hx.2 r).1 (S.opens _ _ _ h).1
      exact hd.after hw0 (by rw [List.append_assoc]; exact hl) hs
    · refine .inr ⟨fun h => h.elim hb hx, fun z ls r1 as r' hz hl hs hr => ?_⟩
      have hend : ∀ z, fin <+: z → c!"END:" <+: z := fun z hz => S.fin_end.trans hz
      by_cases hm : some
      · obtain ⟨rfl, rfl⟩ := hn fun e => hx ⟨hm, e⟩
        have stop : ∀ z, LinesText (u0 ++ (u1 ++ ([] ++ z))) ls0 (u1 ++ ([] ++ z)) := fun z => hw0.stop (.inl ((hsm hm).trans ⟨_, rfl⟩))
        obtain ⟨rfl, rfl⟩ := linesText_unique hl (stop z)
        obtain ⟨bs, cs, rfl, hq, hz', h1⟩ := hp.2 _ _ _ hs hr
        obtain ⟨e1, rfl⟩ := S.seq_end (hend z hz) h1
        exact ⟨e1.symm, by simp, by simpa using hq, fun z' _ => ⟨_, stop z', by simpa using hz' z'⟩⟩
      · have hu1 := hns hm
        subst hu1
        have stop : ∀ z, fin <+: z → LinesText (u0 ++ ([] ++ (ue ++ z))) (ls0 ++ lse) z := fun z hz => by
          have := (hw0.append hwe).stop (.inr (hend z hz))
          rwa [List.append_assoc] at this
        obtain ⟨rfl, rfl⟩ := linesText_unique hl (stop z hz)
        obtain ⟨e1, rfl⟩ := S.seq_end (hend _ hz) hs
        obtain ⟨bs, cs, e, hq, _⟩ := hp.2 r1 [] r1 .nil hz
        obtain ⟨rfl, -⟩ := List.nil_eq_append_iff.1 e
        exact ⟨e1.symm, rfl, hq, fun z' hz' => ⟨_, stop z' hz', .nil⟩⟩

/-- A list of components is written up to a tag. -/
theorem vec_chain {β : Type} [Ser β] (hc : Ser.isComponent β = true) {D X name : Str} (hD : IsTag D) (hn : SafeName name) (hne : name ≠ [])
    (hX : IsName X) {x : β} {l : List β} (ha : Ser.attr x = none) (hk : ∀ t, Ser.ical x = .ok t → Leads D X t) {t : Str}
    (ht : Field.serVec name (x :: l) = .ok t) : Chain D t ∨ Chain (c!"BEGIN:" ++ X) t := by
  match l, ht with
  | [], ht =>
    have ht : field name x = .ok t := ht
    rw [field_component hc] at ht
    obtain ⟨k, rfl, _⟩ := hk t ht
    exact .inr (by rw [List.append_assoc]; exact Chain.mk (b := []) .nil)
  | y :: l, ht =>
    obtain ⟨W, hW, hf⟩ := many_chain hn hne hX (.inr (by simp)) ha hk ht
    exact .inl (chain_fold hD hW hf).1

/-- The tag up to which the text of a time zone is a chain of lines. -/
def zoneStops : List Str := [c!"END:VTIMEZONE", c!"END:STANDARD", c!"BEGIN:STANDARD", c!"END:DAYLIGHT", c!"BEGIN:DAYLIGHT"]

theorem zoneStops_tag : ∀ D ∈ zoneStops, IsTag D := by
  intro x hx
  simp only [zoneStops, List.mem_cons, List.not_mem_nil, or_false] at hx
  rcases hx with rfl | rfl | rfl | rfl | rfl
  · exact isTag_end (n := c!"VTIMEZONE") (isName_lit (by decide))
  · exact isTag_end (n := c!"STANDARD") (isName_lit (by decide))
  · exact isTag_begin (n := c!"STANDARD") (isName_lit (by decide))
  · exact isTag_end (n := c!"DAYLIGHT") (isName_lit (by decide))
  · exact isTag_begin (n := c!"DAYLIGHT") (isName_lit (by decide))

/-- A component without parts is read back as if alone. -/
theorem leaf_back {α β : Type} [Ser β] {T : Str → α → Str → Prop} {X : Str} {From : List ContentLine → β → Prop} {f : β → α}
    {ofStr : Str → Res β} (hc : ∀ x : β, Ser.attr x = none)
    (only : ∀ i a r, c!"BEGIN:" ++ X ++ c!"\r\n" <+: i → T i a r → ∃ b ls, a = f b ∧ LeafText X i ls r ∧ From ls b)
    (back : ∀ i b r ls, LeafText X i ls r → From ls b → T i (f b) r)
    (read : ∀ s b r ls, LeafText X (unfold s) ls r → From ls b → ofStr s = .ok b) {x : β} {t u : Str} {ls0 : List ContentLine}
    (ht : Ser.ical x = .ok t) (hu : Piece t u) (hp : c!"BEGIN:" ++ X ++ c!"\r\n" <+: u)
    (hun : ∀ r ls r', LeafText X (u ++ r) ls r' → r' = r ∧ ls = ls0) (hz : ∀ r, LeafText X (u ++ r) ls0 r) :
    ∀ r a r', T (u ++ r) a r' → r' = r ∧ (∃ b, a = f b ∧ Rereads ofStr x b) ∧ ∀ z, T (u ++ z) a z := by
  intro r a r' h
  obtain ⟨b, ls, rfl, hl, hf⟩ := only _ _ _ (hp.trans ⟨r, rfl⟩) h
  obtain ⟨rfl, rfl⟩ := hun _ _ _ hl
  refine ⟨rfl, ⟨b, rfl, t, (ical_eq (hc x)).trans ht, read t b [] ls ?_ hf⟩, fun z => back _ _ _ _ (hz z) hf⟩
  rw [hu.un]
  simpa using hz []

theorem standard_only {i : Str} {a : TzPart} {r : Str} (hb : c!"BEGIN:STANDARD\r\n" <+: i) (h : TzPartText i a r) :
    ∃ b ls, a = .standard b ∧ LeafText c!"STANDARD" i ls r ∧ StandardFrom ls b := by
  cases a with
  | standard a => obtain ⟨ls, hl⟩ := h; exact ⟨a, ls, rfl, hl⟩
  | daylight a =>
    obtain ⟨ls, ⟨b, rfl, _⟩, _⟩ := h
    obtain ⟨y, e⟩ := hb
    simp at e

theorem daylight_only {i : Str} {a : TzPart} {r : Str} (hb : c!"BEGIN:DAYLIGHT\r\n" <+: i) (h : TzPartText i a r) :
    ∃ b ls, a = .daylight b ∧ LeafText c!"DAYLIGHT" i ls r ∧ DaylightFrom ls b := by
  cases a with
  | daylight a => obtain ⟨ls, hl⟩ := h; exact ⟨a, ls, rfl, hl⟩
  | standard a =>
    obtain ⟨ls, ⟨b, rfl, _⟩, _⟩ := h
    obtain ⟨y, e⟩ := hb
    simp at e

/-- Things that are all of a kind. -/
theorem all2_kind {α β : Type} {f : β → α} {R : β → β → Prop} {l : List β} {as : List α} (h : All2 (fun x a => ∃ b, a = f b ∧ R x b) l as) :
    ∃ bs, as = bs.map f ∧ All2 R l bs := by
  induction h with
  | nil => exact ⟨[], rfl, .nil⟩
  | cons h _ ih =>
    obtain ⟨b, rfl, hb⟩ := h
    obtain ⟨bs, rfl, hbs⟩ := ih
    exact ⟨b :: bs, rfl, .cons hb hbs⟩

theorem filterMap_kind {α β : Type} {f : β → α} {g : α → Option β} (h : ∀ b, g (f b) = some b) (l : List β) : (l.map f).filterMap g = l := by
  induction l with
  | nil => rfl
  | cons a l ih => simp [List.filterMap_cons, h, ih]

theorem filterMap_other {α β γ : Type} {f : β → α} {g : α → Option γ} (h : ∀ b, g (f b) = none) (l : List β) : (l.map f).filterMap g = [] := by
  induction l with
  | nil => rfl
  | cons a l ih => simp [List.filterMap_cons, h, ih]

/-- What the text of a time zone is read as. -/
structure VTimezone.Back (v w : VTimezone) : Prop where
  props : PropsBack VTimezone.fields ({ v with standard := [], daylight := [] } : VTimezone).toComp.slots
    ({ w with standard := [], daylight := [] } : VTimezone).toComp.slots v.xProp v.ianaProp w.xProp w.ianaProp
  standard : All2 (Rereads Standard.ofStr) v.standard w.standard
  daylight : All2 (Rereads Daylight.ofStr) v.daylight w.daylight

/-- A time zone with tidy parts. -/
theorem VTimezone.timezone {v : VTimezone} (h : DeepVTimezone v) {t : Str} (ht : Ser.ical v = .ok t) :
    (∃ D ∈ zoneStops, Leads D c!"VTIMEZONE" t) ∧
    ∃ u, Piece t u ∧ c!"BEGIN:VTIMEZONE\r\n" <+: u ∧
      ((BadTimezone v ∧ ∀ r w r', ¬ TimezoneText (u ++ r) w r') ∨ (¬ BadTimezone v ∧ ∀ r w r', TimezoneText (u ++ r) w r' → r' = r ∧ VTimezone.Back v w ∧ ∀ z, TimezoneText (u ++ z) w z)) := by
  obtain ⟨body, x, i, hb, hx, hi, rfl⟩ := Comp.framed (c := v.toComp) ht
  have hx : @field _ Comp.extSer c!"X-PROP" v.xProp = .ok x := hx
  have hi : @field _ Comp.extSer c!"IANA-PROP" v.ianaProp = .ok i := hi
  obtain ⟨t0, s0, s1, h0, k0, k1, rfl⟩ := VTimezone.ser_split hb
  obtain ⟨ls, hw, hq⟩ := VTimezone.tidy h.props
  have hb0 := hw.blocks VTimezone.plain hq h0
  obtain ⟨u0, hu0, hw0⟩ := hw.ser VTimezone.plain h0
  obtain ⟨sx, si, hsx, hsi, ue, lse, hue, hwe, rfl, hen, hes⟩ := ext_off h.props.xProp h.props.ianaProp hx hi
  have hbx := x_blocks h.props.xProp hx
  have hbi := iana_blocks h.props.ianaProp hi
  have n0 : SafeName c!"STANDARD" := ⟨isName_lit (by decide), by decide, by decide⟩
  have n1 : SafeName c!"DAYLIGHT" := ⟨isName_lit (by decide), by decide, by decide⟩
  constructor
  · cases hs : v.standard with
    | cons a as =>
      rw [hs] at k0
      have hl : ∀ t, Ser.ical a = .ok t → Leads c!"END:STANDARD" c!"STANDARD" t := fun t ht => (Standard.leaf (h.standard a (by simp [hs])) ht).2
      have e : c!"BEGIN:" ++ c!"VTIMEZONE" ++ c!"\r\n" ++ (t0 ++ (s0 ++ s1)) ++ x ++ i ++ (c!"END:" ++ c!"VTIMEZONE" ++ c!"\r\n") =
        c!"BEGIN:" ++ c!"VTIMEZONE" ++ c!"\r\n" ++ (t0 ++ (s0 ++ (s1 ++ x ++ i ++ (c!"END:" ++ c!"VTIMEZONE" ++ c!"\r\n")))) := by simp
      rcases vec_chain rfl (zoneStops_tag c!"END:STANDARD" (by decide)) n0 (by decide) (isName_lit (by decide)) rfl hl k0 with hc | hc
      · exact ⟨_, by decide, _, e, (hc.append _).blocks hb0⟩
      · exact ⟨c!"BEGIN:STANDARD", by decide, _, e, (hc.append _).blocks hb0⟩
    | nil =>
      rw [hs, serVec_nil] at k0
      cases k0
      cases hd : v.daylight with
      | cons a as =>
        rw [hd] at k1
        have hl : ∀ t, Ser.ical a = .ok t → Leads c!"END:DAYLIGHT" c!"DAYLIGHT" t := fun t ht => (Daylight.leaf (h.daylight a (by simp [hd])) ht).2
        have e : c!"BEGIN:" ++ c!"VTIMEZONE" ++ c!"\r\n" ++ (t0 ++ ([] ++ s1)) ++ x ++ i ++ (c!"END:" ++ c!"VTIMEZONE" ++ c!"\r\n") =
          c!"BEGIN:" ++ c!"VTIMEZONE" ++ c!"\r\n" ++ (t0 ++ (s1 ++ (x ++ i ++ (c!"END:" ++ c!"VTIMEZONE" ++ c!"\r\n")))) := by simp
        rcases vec_chain rfl (zoneStops_tag c!"END:DAYLIGHT" (by decide)) n1 (by decide) (isName_lit (by decide)) rfl hl k1 with hc | hc
        · exact ⟨_, by decide, _, e, (hc.append _).blocks hb0⟩
        · exact ⟨c!"BEGIN:DAYLIGHT", by decide, _, e, (hc.append _).blocks hb0⟩
      | nil =>
        rw [hd, serVec_nil] at k1
        cases k1
        exact ⟨_, by decide, leads_of_blocks (X := c!"VTIMEZONE") (((hb0.append (b := []) .nil).append hbx).append hbi)⟩
  · obtain ⟨u1, hu1, hs1⟩ := vec_sorted (T := TzPartText) (P := fun _ => False) (R := fun x a => ∃ b, a = .standard b ∧ Rereads Standard.ofStr x b) rfl timezone_setting n0 (by decide) (X := c!"STANDARD")
      (isName_lit (by decide)) (l := v.standard) (fun a ha => ⟨rfl, fun t ht => by
        obtain ⟨⟨u, ls0, hu, hp, hun, hz⟩, hl⟩ := Standard.leaf (h.standard a ha) ht
        exact ⟨⟨_, zoneStops_tag c!"END:STANDARD" (by decide), by decide, by decide, hl⟩, u, hu, .trans ⟨c!"STANDARD\r\n", rfl⟩ hp, .inr ⟨id,
          leaf_back (From := StandardFrom) (f := TzPart.standard) (ofStr := Standard.ofStr) (fun _ => rfl) (fun i a r hb h => standard_only hb h)
            (fun i b r ls h1 h2 => ⟨ls, h1, h2⟩) (fun s b r ls h1 h2 => (C19_Standard s b).2 ⟨r, ls, h1, h2⟩) ht hu hp hun hz⟩⟩⟩) k0
    obtain ⟨u2, hu2, hs2⟩ := vec_sorted (T := TzPartText) (P := fun _ => False) (R := fun x a => ∃ b, a = .daylight b ∧ Rereads Daylight.ofStr x b) rfl timezone_setting n1 (by decide) (X := c!"DAYLIGHT")
      (isName_lit (by decide)) (l := v.daylight) (fun a ha => ⟨rfl, fun t ht => by
        obtain ⟨⟨u, ls0, hu, hp, hun, hz⟩, hl⟩ := Daylight.leaf (h.daylight a ha) ht
        exact ⟨⟨_, zoneStops_tag c!"END:DAYLIGHT" (by decide), by decide, by decide, hl⟩, u, hu, .trans ⟨c!"DAYLIGHT\r\n", rfl⟩ hp, .inr ⟨id,
          leaf_back (From := DaylightFrom) (f := TzPart.daylight) (ofStr := Daylight.ofStr) (fun _ => rfl) (fun i a r hb h => daylight_only hb h)
            (fun i b r ls h1 h2 => ⟨ls, h1, h2⟩) (fun s b r ls h1 h2 => (C19_Daylight s b).2 ⟨r, ls, h1, h2⟩) ht hu hp hun hz⟩⟩⟩) k1
    have hp := ((piece_begin c!"VTIMEZONE" (isName_lit (by decide))).append ((hu0.append (hu1.append hu2)).append hue)).append (piece_end c!"VTIMEZONE" (isName_lit (by decide)))
    refine ⟨_, by simpa [List.append_assoc] using hp, ⟨u0 ++ u1 ++ u2 ++ ue ++ c!"END:VTIMEZONE\r\n", by simp⟩, ?_⟩
    have hext : ¬ (v.xProp ≠ [] ∨ v.ianaProp ≠ []) → ue = [] ∧ _ = [] := fun hh => hen (by simpa using hh)
    have hbad : BadTimezone v ↔ ((1 < v.standard.length ∨ ∃ x ∈ v.standard, False) ∨ (1 < v.daylight.length ∨ ∃ x ∈ v.daylight, False)) ∨
        (v.standard ≠ [] ∨ v.daylight ≠ []) ∧ (v.xProp ≠ [] ∨ v.ianaProp ≠ []) := by
      unfold BadTimezone
      simp [or_assoc]
    rw [hbad]
    refine (parts_tail timezone_setting (hs1.append hs2) hw0 hwe hext hes).imp (And.imp_right fun hh r w r' hd => ?_) (And.imp_right fun hh r w r' hd => ?_)
    all_goals
      obtain ⟨b, ls', r1, ps, e1, h1, h2, h3, h4, h5⟩ := hd
      have e2 : b = u0 ++ ((u1 ++ u2) ++ (ue ++ (c!"END:VTIMEZONE\r\n" ++ r))) := by
        have e1 : c!"BEGIN:VTIMEZONE\r\n" ++ (u0 ++ ((u1 ++ u2) ++ (ue ++ (c!"END:VTIMEZONE\r\n" ++ r)))) = c!"BEGIN:VTIMEZONE\r\n" ++ b := by rw [← e1]; simp
        exact (List.append_cancel_left e1).symm
      subst e2
    · exact hh _ _ _ _ _ h1 h2 ⟨c!"\r\n" ++ r', by simp⟩
    · obtain ⟨e3, rfl, hsp, hz⟩ := hh _ _ _ _ _ ⟨c!"\r\n" ++ r, by simp⟩ h1 h2 ⟨c!"\r\n" ++ r', by simp⟩
      refine ⟨List.append_cancel_left e3, ?_, fun z => ?_⟩
      · obtain ⟨as, bs, rfl, ha, hb⟩ := hsp
        obtain ⟨as, rfl, qa⟩ := all2_kind (f := TzPart.standard) (R := Rereads Standard.ofStr) ha
        obtain ⟨bs, rfl, qb⟩ := all2_kind (f := TzPart.daylight) (R := Rereads Daylight.ofStr) hb
        have e4 : w.standard = as := by
          rw [h4, standardParts, List.filterMap_append, filterMap_kind (f := TzPart.standard) (fun _ => rfl),
            filterMap_other (f := TzPart.daylight) (fun _ => rfl), List.append_nil]
        have e5 : w.daylight = bs := by
          rw [h5, daylightParts, List.filterMap_append, filterMap_other (f := TzPart.standard) (fun _ => rfl),
            filterMap_kind (f := TzPart.daylight) (fun _ => rfl), List.nil_append]
        refine ⟨⟨sx, si, hsx, hsi, ?_⟩, by rw [e4]; exact qa, by rw [e5]; exact qb⟩
        have h6 := (C14_VTimezone_iff _ _).2 h3
        unfold VTimezone.tryFrom at h6
        obtain ⟨c, hc, hc'⟩ := map_eq_ok.1 h6
        rw [(VTimezone.ofComp_eq c _).1 hc'] at hc
        exact Comp.tryFrom_tidy VTimezone.nodup
          (show c!"X-PROP" ∉ ([c!"TZID", c!"LAST-MODIFIED", c!"TZURL", c!"STANDARD", c!"DAYLIGHT"] : List Str) by decide)
          (show c!"IANA-PROP" ∉ ([c!"TZID", c!"LAST-MODIFIED", c!"TZURL", c!"STANDARD", c!"DAYLIGHT"] : List Str) by decide) hsx hsi hw hc
      · obtain ⟨r2, hl2, hs2⟩ := hz (c!"END:VTIMEZONE\r\n" ++ z) ⟨c!"\r\n" ++ z, by simp⟩
        exact ⟨_, _, r2, ps, by simp, hl2, hs2, h3, h4, h5⟩

/-! ## Calendars -/

/-- What may follow the property lines of a calendar. -/
def calendarTags : List Str :=
  [c!"BEGIN:VALARM", c!"BEGIN:VEVENT", c!"BEGIN:VFREEBUSY", c!"BEGIN:VJOURNAL", c!"BEGIN:VTIMEZONE", c!"BEGIN:VTODO", c!"END:VCALENDAR"]

theorem calendar_setting : Setting ComponentText calendarTags c!"END:VCALENDAR" where
  isTag := by
    intro x hx
    simp only [calendarTags, List.mem_cons, List.not_mem_nil, or_false] at hx
    rcases hx with rfl | rfl | rfl | rfl | rfl | rfl | rfl
    · exact isTag_begin (n := c!"VALARM") (isName_lit (by decide))
    · exact isTag_begin (n := c!"VEVENT") (isName_lit (by decide))
    · exact isTag_begin (n := c!"VFREEBUSY") (isName_lit (by decide))
    · exact isTag_begin (n := c!"VJOURNAL") (isName_lit (by decide))
    · exact isTag_begin (n := c!"VTIMEZONE") (isName_lit (by decide))
    · exact isTag_begin (n := c!"VTODO") (isName_lit (by decide))
    · exact isTag_end (n := c!"VCALENDAR") (isName_lit (by decide))
  mem := by decide
  fin_end := ⟨c!"VCALENDAR", rfl⟩
  opens := by
    intro i a r h
    cases a with
    | alarm a =>
      obtain ⟨ls, ⟨b, rfl, _⟩, _⟩ := h
      exact ⟨⟨c!"VALARM\r\n" ++ b, by simp⟩, c!"BEGIN:VALARM", by decide, ⟨c!"\r\n" ++ b, by simp⟩⟩
    | event a =>
      obtain ⟨b, ls, r1, rfl, _⟩ := h
      exact ⟨⟨c!"VEVENT\r\n" ++ b, by simp⟩, c!"BEGIN:VEVENT", by decide, ⟨c!"\r\n" ++ b, by simp⟩⟩
    | freebusy a =>
      obtain ⟨ls, ⟨b, rfl, _⟩, _⟩ := h
      exact ⟨⟨c!"VFREEBUSY\r\n" ++ b, by simp⟩, c!"BEGIN:VFREEBUSY", by decide, ⟨c!"\r\n" ++ b, by simp⟩⟩
    | journal a =>
      obtain ⟨ls, ⟨b, rfl, _⟩, _⟩ := h
      exact ⟨⟨c!"VJOURNAL\r\n" ++ b, by simp⟩, c!"BEGIN:VJOURNAL", by decide, ⟨c!"\r\n" ++ b, by simp⟩⟩
    | timezone a =>
      obtain ⟨b, ls, r1, ps, rfl, _⟩ := h
      exact ⟨⟨c!"VTIMEZONE\r\n" ++ b, by simp⟩, c!"BEGIN:VTIMEZONE", by decide, ⟨c!"\r\n" ++ b, by simp⟩⟩
    | todo a =>
      obtain ⟨ls, ⟨b, rfl, _⟩, _⟩ := h
      exact ⟨⟨c!"VTODO\r\n" ++ b, by simp⟩, c!"BEGIN:VTODO", by decide, ⟨c!"\r\n" ++ b, by simp⟩⟩

theorem event_only {i : Str} {a : Component} {r : Str} (hb : c!"BEGIN:VEVENT\r\n" <+: i) (h : ComponentText i a r) :
    ∃ b, a = .event b ∧ EventText i b r := by
  cases a with
  | alarm a =>
    obtain ⟨ls, ⟨b, rfl, _⟩, _⟩ := h
    obtain ⟨y, e⟩ := hb
    simp at e
  | event a => exact ⟨a, rfl, h⟩
  | freebusy a =>
    obtain ⟨ls, ⟨b, rfl, _⟩, _⟩ := h
    obtain ⟨y, e⟩ := hb
    simp at e
  | journal a =>
    obtain ⟨ls, ⟨b, rfl, _⟩, _⟩ := h
    obtain ⟨y, e⟩ := hb
    simp at e
  | timezone a =>
    obtain ⟨b, ls, r1, ps, rfl, _⟩ := h
    obtain ⟨y, e⟩ := hb
    simp at e
  | todo a =>
    obtain ⟨ls, ⟨b, rfl, _⟩, _⟩ := h
    obtain ⟨y, e⟩ := hb
    simp at e

theorem freebusy_only {i : Str} {a : Component} {r : Str} (hb : c!"BEGIN:VFREEBUSY\r\n" <+: i) (h : ComponentText i a r) :
    ∃ b ls, a = .freebusy b ∧ LeafText c!"VFREEBUSY" i ls r ∧ VFreebusyFrom ls b := by
  cases a with
  | alarm a =>
    obtain ⟨ls, ⟨b, rfl, _⟩, _⟩ := h
    obtain ⟨y, e⟩ := hb
    simp at e
  | event a =>
    obtain ⟨b, ls, r1, rfl, _⟩ := h
    obtain ⟨y, e⟩ := hb
    simp at e
  | freebusy a => obtain ⟨ls, hl⟩ := h; exact ⟨a, ls, rfl, hl⟩
  | journal a =>
    obtain ⟨ls, ⟨b, rfl, _⟩, _⟩ := h
    obtain ⟨y, e⟩ := hb
    simp at e
  | timezone a =>
    obtain ⟨b, ls, r1, ps, rfl, _⟩ := h
    obtain ⟨y, e⟩ := hb
    simp at e
  | todo a =>
    obtain ⟨ls, ⟨b, rfl, _⟩, _⟩ := h
    obtain ⟨y, e⟩ := hb
    simp at e

theorem journal_only {i : Str} {a : Component} {r : Str} (hb : c!"BEGIN:VJOURNAL\r\n" <+: i) (h : ComponentText i a r) :
    ∃ b ls, a = .journal b ∧ LeafText c!"VJOURNAL" i ls r ∧ VJournalFrom ls b := by
  cases a with
  | alarm a =>
    obtain ⟨ls, ⟨b, rfl, _⟩, _⟩ := h
    obtain ⟨y, e⟩ := hb
    simp at e
  | event a =>
    obtain ⟨b, ls, r1, rfl, _⟩ := h
    obtain ⟨y, e⟩ := hb
    simp at e
  | freebusy a =>
    obtain ⟨ls, ⟨b, rfl, _⟩, _⟩ := h
    obtain ⟨y, e⟩ := hb
    simp at e
  | journal a => obtain ⟨ls, hl⟩ := h; exact ⟨a, ls, rfl, hl⟩
  | timezone a =>
    obtain ⟨b, ls, r1, ps, rfl, _⟩ := h
    obtain ⟨y, e⟩ := hb
    simp at e
  | todo a =>
    obtain ⟨ls, ⟨b, rfl, _⟩, _⟩ := h
    obtain ⟨y, e⟩ := hb
    simp at e

theorem todo_only {i : Str} {a : Component} {r : Str} (hb : c!"BEGIN:VTODO\r\n" <+: i) (h : ComponentText i a r) :
    ∃ b ls, a = .todo b ∧ LeafText c!"VTODO" i ls r ∧ VTodoFrom ls b := by
  cases a with
  | alarm a =>
    obtain ⟨ls, ⟨b, rfl, _⟩, _⟩ := h
    obtain ⟨y, e⟩ := hb
    simp at e
  | event a =>
    obtain ⟨b, ls, r1, rfl, _⟩ := h
    obtain ⟨y, e⟩ := hb
    simp at e
  | freebusy a =>
    obtain ⟨ls, ⟨b, rfl, _⟩, _⟩ := h
    obtain ⟨y, e⟩ := hb
    simp at e
  | journal a =>
    obtain ⟨ls, ⟨b, rfl, _⟩, _⟩ := h
    obtain ⟨y, e⟩ := hb
    simp at e
  | timezone a =>
    obtain ⟨b, ls, r1, ps, rfl, _⟩ := h
    obtain ⟨y, e⟩ := hb
    simp at e
  | todo a => obtain ⟨ls, hl⟩ := h; exact ⟨a, ls, rfl, hl⟩

theorem timezone_only {i : Str} {a : Component} {r : Str} (hb : c!"BEGIN:VTIMEZONE\r\n" <+: i) (h : ComponentText i a r) :
    ∃ b, a = .timezone b ∧ TimezoneText i b r := by
  cases a with
  | alarm a =>
    obtain ⟨ls, ⟨b, rfl, _⟩, _⟩ := h
    obtain ⟨y, e⟩ := hb
    simp at e
  | event a =>
    obtain ⟨b, ls, r1, rfl, _⟩ := h
    obtain ⟨y, e⟩ := hb
    simp at e
  | freebusy a =>
    obtain ⟨ls, ⟨b, rfl, _⟩, _⟩ := h
    obtain ⟨y, e⟩ := hb
    simp at e
  | journal a =>
    obtain ⟨ls, ⟨b, rfl, _⟩, _⟩ := h
    obtain ⟨y, e⟩ := hb
    simp at e
  | timezone a => exact ⟨a, rfl, h⟩
  | todo a =>
    obtain ⟨ls, ⟨b, rfl, _⟩, _⟩ := h
    obtain ⟨y, e⟩ := hb
    simp at e

/-- A calendar that is written but not read. -/
def BadCalendar (v : VCalendar) : Prop :=
  v.alarms ≠ [] ∨ (1 < v.events.length ∨ ∃ e ∈ v.events, e.alarms ≠ []) ∨ 1 < v.freebusy.length ∨ 1 < v.journals.length ∨
  1 < v.todo.length ∨ (1 < v.timezones.length ∨ ∃ z ∈ v.timezones, BadTimezone z) ∨
  (v.events ≠ [] ∨ v.freebusy ≠ [] ∨ v.journals ≠ [] ∨ v.todo ≠ [] ∨ v.timezones ≠ []) ∧ (v.xProp ≠ [] ∨ v.ianaProp ≠ [])

theorem calendar_stops {D : Str} (h : D ∈ c!"END:VEVENT" :: c!"END:VALARM" :: c!"END:VFREEBUSY" :: c!"END:VJOURNAL" :: c!"END:VTODO" :: zoneStops) :
    IsTag D ∧ (∀ x ∈ calendarTags, ¬ x <+: D) ∧ (∀ x ∈ calendarTags, ¬ D <+: x) := by
  refine ⟨?_, ?_⟩
  · simp only [List.mem_cons] at h
    rcases h with rfl | rfl | rfl | rfl | rfl | h
    · exact isTag_end (n := c!"VEVENT") (isName_lit (by decide))
    · exact isTag_end (n := c!"VALARM") (isName_lit (by decide))
    · exact isTag_end (n := c!"VFREEBUSY") (isName_lit (by decide))
    · exact isTag_end (n := c!"VJOURNAL") (isName_lit (by decide))
    · exact isTag_end (n := c!"VTODO") (isName_lit (by decide))
    · exact zoneStops_tag D h
  · revert D
    decide +kernel

theorem bad_assoc {a b c d e f x g h i j k : Prop} :
    (a ∨ b ∨ c ∨ d ∨ e ∨ f ∨ (g ∨ h ∨ i ∨ j ∨ k) ∧ x) ↔
      (a ∨ b ∨ (c ∨ False) ∨ (d ∨ False) ∨ (e ∨ False) ∨ f) ∨ (a ∨ g ∨ h ∨ i ∨ j ∨ k) ∧ x := by
  by_cases ha : a
  · simp [ha]
  · simp [ha, or_assoc]

/-- What the text of a calendar is read as. -/
structure VCalendar.Back (v w : VCalendar) : Prop where
  props : PropsBack VCalendar.fields
    ({ v with alarms := [], events := [], freebusy := [], journals := [], todo := [], timezones := [] } : VCalendar).toComp.slots
    ({ w with alarms := [], events := [], freebusy := [], journals := [], todo := [], timezones := [] } : VCalendar).toComp.slots
    v.xProp v.ianaProp w.xProp w.ianaProp
  alarms : w.alarms = []
  events : All2 (Rereads VEvent.ofStr) v.events w.events
  freebusy : All2 (Rereads VFreebusy.ofStr) v.freebusy w.freebusy
  journals : All2 (Rereads VJournal.ofStr) v.journals w.journals
  todo : All2 (Rereads VTodo.ofStr) v.todo w.todo
  timezones : All2 (Rereads VTimezone.ofStr) v.timezones w.timezones

/-- A calendar with tidy components. -/
theorem VCalendar.calendar {v : VCalendar} (h : DeepVCalendar v) {t : Str} (ht : Ser.ical v = .ok t) :
    ∃ u, Piece t u ∧ c!"BEGIN:VCALENDAR\r\n" <+: u ∧
      ((BadCalendar v ∧ ∀ r w cs r', ¬ CalendarText (u ++ r) w cs r') ∨
       (¬ BadCalendar v ∧ ∀ r w cs r', CalendarText (u ++ r) w cs r' → r' = c!"\r\n" ++ r ∧ VCalendar.Back v w)) := by
  obtain ⟨body, x, i, hb, hx, hi, rfl⟩ := Comp.framed (c := v.toComp) ht
  have hx : @field _ Comp.extSer c!"X-PROP" v.xProp = .ok x := hx
  have hi : @field _ Comp.extSer c!"IANA-PROP" v.ianaProp = .ok i := hi
  obtain ⟨t0, s0, s1, s2, s3, s4, s5, h0, k0, k1, k2, k3, k4, k5, rfl⟩ := VCalendar.ser_split hb
  obtain ⟨ls, hw, -⟩ := VCalendar.tidy h.props
  obtain ⟨u0, hu0, hw0⟩ := hw.ser VCalendar.plain h0
  obtain ⟨sx, si, hsx, hsi, ue, lse, hue, hwe, rfl, hen, hes⟩ := ext_off h.props.xProp h.props.ianaProp hx hi
  have z0 : ∃ u, Piece s0 u ∧ Sorted ComponentText c!"END:VCALENDAR" (fun as => as = []) (v.alarms ≠ []) (v.alarms ≠ []) u := by
    cases hal : v.alarms with
    | nil =>
      rw [hal, serVec_nil] at k0
      cases k0
      exact ⟨[], .nil, .inr ⟨by simp, .nil rfl, fun _ => rfl, fun h => absurd rfl h⟩⟩
    | cons a as =>
      rw [hal] at k0
      obtain ⟨hD, hd1, hd2⟩ := calendar_stops (D := c!"END:VALARM") (by decide)
      obtain ⟨u1, hu1, hd⟩ := many_dead calendar_setting hD hd1 hd2 ⟨isName_lit (by decide), by decide, by decide⟩ (by decide)
        (isName_lit (by decide)) (.inl rfl) rfl (fun t ht => VAlarm.leads (h.alarms a (by simp [hal])) ht) k0
      exact ⟨u1, hu1, .inl ⟨by simp, hd⟩⟩
  obtain ⟨u1, hu1, hs1⟩ := z0
  obtain ⟨u2, hu2, hs2⟩ := vec_sorted (T := ComponentText) (P := fun e : VEvent => e.alarms ≠ [])
    (R := fun x a => ∃ b, a = .event b ∧ Rereads VEvent.ofStr x b) rfl calendar_setting (name := c!"EVENTS")
    ⟨isName_lit (by decide), by decide, by decide⟩ (by decide) (X := c!"VEVENT") (isName_lit (by decide)) (l := v.events) (fun a ha => ⟨rfl, fun t ht => by
      obtain ⟨⟨D, hD, hl⟩, u, hu, hp, hun⟩ := VEvent.event (h.events a ha) ht
      have hD := calendar_stops (D := D) (by rcases hD with rfl | rfl <;> decide)
      refine ⟨⟨_, hD.1, hD.2.1, hD.2.2, hl⟩, u, hu, .trans ⟨c!"VEVENT\r\n", rfl⟩ hp, hun.imp (And.imp_right fun hh r a r' ht => ?_) (And.imp_right fun hh r a r' ht => ?_)⟩
      all_goals obtain ⟨b, rfl, hb⟩ := event_only (hp.trans ⟨r, rfl⟩) ht
      · exact hh _ _ _ hb
      · obtain ⟨e, hz⟩ := hh _ _ _ hb
        exact ⟨e, ⟨b, rfl, t, (ical_eq rfl).trans (by assumption), (C19_VEvent t b).2 ⟨[], by rw [hu.un]; simpa using hz []⟩⟩, hz⟩⟩) k1
  obtain ⟨u3, hu3, hs3⟩ := vec_sorted (T := ComponentText) (P := fun _ => False)
    (R := fun x a => ∃ b, a = .freebusy b ∧ Rereads VFreebusy.ofStr x b) rfl calendar_setting (name := c!"FREEBUSY")
    ⟨isName_lit (by decide), by decide, by decide⟩ (by decide) (X := c!"VFREEBUSY") (isName_lit (by decide)) (l := v.freebusy) (fun a ha => ⟨rfl, fun t ht => by
      obtain ⟨⟨u, ls0, hu, hp, hun, hz⟩, hl⟩ := VFreebusy.leaf (h.freebusy a ha) ht
      have hD := calendar_stops (D := c!"END:VFREEBUSY") (by decide)
      exact ⟨⟨_, hD.1, hD.2.1, hD.2.2, hl⟩, u, hu, .trans ⟨c!"VFREEBUSY\r\n", rfl⟩ hp, .inr ⟨id,
        leaf_back (From := VFreebusyFrom) (f := Component.freebusy) (ofStr := VFreebusy.ofStr) (fun _ => rfl) (fun i a r hb h => freebusy_only hb h)
          (fun i b r ls h1 h2 => ⟨ls, h1, h2⟩) (fun s b r ls h1 h2 => (C19_VFreebusy s b).2 ⟨r, ls, h1, h2⟩) ht hu hp hun hz⟩⟩⟩) k2
  obtain ⟨u4, hu4, hs4⟩ := vec_sorted (T := ComponentText) (P := fun _ => False)
    (R := fun x a => ∃ b, a = .journal b ∧ Rereads VJournal.ofStr x b) rfl calendar_setting (name := c!"JOURNALS")
    ⟨isName_lit (by decide), by decide, by decide⟩ (by decide) (X := c!"VJOURNAL") (isName_lit (by decide)) (l := v.journals) (fun a ha => ⟨rfl, fun t ht => by
      obtain ⟨⟨u, ls0, hu, hp, hun, hz⟩, hl⟩ := VJournal.leaf (h.journals a ha) ht
      have hD := calendar_stops (D := c!"END:VJOURNAL") (by decide)
      exact ⟨⟨_, hD.1, hD.2.1, hD.2.2, hl⟩, u, hu, .trans ⟨c!"VJOURNAL\r\n", rfl⟩ hp, .inr ⟨id,
        leaf_back (From := VJournalFrom) (f := Component.journal) (ofStr := VJournal.ofStr) (fun _ => rfl) (fun i a r hb h => journal_only hb h)
          (fun i b r ls h1 h2 => ⟨ls, h1, h2⟩) (fun s b r ls h1 h2 => (C19_VJournal s b).2 ⟨r, ls, h1, h2⟩) ht hu hp hun hz⟩⟩⟩) k3
  obtain ⟨u5, hu5, hs5⟩ := vec_sorted (T := ComponentText) (P := fun _ => False)
    (R := fun x a => ∃ b, a = .todo b ∧ Rereads VTodo.ofStr x b) rfl calendar_setting (name := c!"TODO")
    ⟨isName_lit (by decide), by decide, by decide⟩ (by decide) (X := c!"VTODO") (isName_lit (by decide)) (l := v.todo) (fun a ha => ⟨rfl, fun t ht => by
      obtain ⟨⟨u, ls0, hu, hp, hun, hz⟩, hl⟩ := VTodo.leaf (h.todo a ha) ht
      have hD := calendar_stops (D := c!"END:VTODO") (by decide)
      exact ⟨⟨_, hD.1, hD.2.1, hD.2.2, hl⟩, u, hu, .trans ⟨c!"VTODO\r\n", rfl⟩ hp, .inr ⟨id,
        leaf_back (From := VTodoFrom) (f := Component.todo) (ofStr := VTodo.ofStr) (fun _ => rfl) (fun i a r hb h => todo_only hb h)
          (fun i b r ls h1 h2 => ⟨ls, h1, h2⟩) (fun s b r ls h1 h2 => (C19_VTodo s b).2 ⟨r, ls, h1, h2⟩) ht hu hp hun hz⟩⟩⟩) k4
  obtain ⟨u6, hu6, hs6⟩ := vec_sorted (T := ComponentText) (P := BadTimezone)
    (R := fun x a => ∃ b, a = .timezone b ∧ Rereads VTimezone.ofStr x b) rfl calendar_setting (name := c!"TIMEZONES")
    ⟨isName_lit (by decide), by decide, by decide⟩ (by decide) (X := c!"VTIMEZONE") (isName_lit (by decide)) (l := v.timezones) (fun a ha => ⟨rfl, fun t ht => by
      obtain ⟨⟨D, hD, hl⟩, u, hu, hp, hun⟩ := VTimezone.timezone (h.timezones a ha) ht
      have hD := calendar_stops (D := D) (by simp only [List.mem_cons]; exact .inr (.inr (.inr (.inr (.inr hD)))))
      refine ⟨⟨_, hD.1, hD.2.1, hD.2.2, hl⟩, u, hu, .trans ⟨c!"VTIMEZONE\r\n", rfl⟩ hp, hun.imp (And.imp_right fun hh r a r' ht => ?_) (And.imp_right fun hh r a r' ht => ?_)⟩
      all_goals obtain ⟨b, rfl, hb⟩ := timezone_only (hp.trans ⟨r, rfl⟩) ht
      · exact hh _ _ _ hb
      · obtain ⟨e, _, hz⟩ := hh _ _ _ hb
        exact ⟨e, ⟨b, rfl, t, (ical_eq rfl).trans (by assumption), (C19_VTimezone t b).2 ⟨[], by rw [hu.un]; simpa using hz []⟩⟩, hz⟩⟩) k5
  have hp := ((piece_begin c!"VCALENDAR" (isName_lit (by decide))).append
    ((hu0.append (hu1.append (hu2.append (hu3.append (hu4.append (hu5.append hu6)))))).append hue)).append (piece_end c!"VCALENDAR" (isName_lit (by decide)))
  refine ⟨_, by simpa [List.append_assoc] using hp, ⟨u0 ++ u1 ++ u2 ++ u3 ++ u4 ++ u5 ++ u6 ++ ue ++ c!"END:VCALENDAR\r\n", by simp⟩, ?_⟩
  have hext : ¬ (v.xProp ≠ [] ∨ v.ianaProp ≠ []) → ue = [] ∧ _ = [] := fun hh => hen (by simpa using hh)
  have hsort := hs1.append (hs2.append (hs3.append (hs4.append (hs5.append hs6))))
  have key := parts_tail calendar_setting hsort hw0 hwe hext hes
  have hbad : BadCalendar v ↔ _ := (show BadCalendar v ↔ ((v.alarms ≠ [] ∨ (1 < v.events.length ∨ ∃ x ∈ v.events, x.alarms ≠ []) ∨
      (1 < v.freebusy.length ∨ ∃ x ∈ v.freebusy, False) ∨ (1 < v.journals.length ∨ ∃ x ∈ v.journals, False) ∨
      (1 < v.todo.length ∨ ∃ x ∈ v.todo, False) ∨ (1 < v.timezones.length ∨ ∃ x ∈ v.timezones, BadTimezone x)) ∨
      (v.alarms ≠ [] ∨ v.events ≠ [] ∨ v.freebusy ≠ [] ∨ v.journals ≠ [] ∨ v.todo ≠ [] ∨ v.timezones ≠ []) ∧ (v.xProp ≠ [] ∨ v.ianaProp ≠ [])) by
    unfold BadCalendar
    have e : ∀ {α : Type} (l : List α), (∃ x ∈ l, False) ↔ False := by simp
    rw [e, e, e]
    exact bad_assoc)
  rw [hbad]
  refine key.imp (And.imp_right fun hh r w cs r' hd => ?_) (And.imp_right fun hh r w cs r' hd => ?_)
  all_goals
    obtain ⟨b, ls', r1, e1, h1, h2, h3, h4⟩ := hd
    have e2 : b = u0 ++ ((u1 ++ (u2 ++ (u3 ++ (u4 ++ (u5 ++ u6))))) ++ (ue ++ (c!"END:VCALENDAR\r\n" ++ r))) := by
      have e1 : c!"BEGIN:VCALENDAR\r\n" ++ (u0 ++ ((u1 ++ (u2 ++ (u3 ++ (u4 ++ (u5 ++ u6))))) ++ (ue ++ (c!"END:VCALENDAR\r\n" ++ r)))) =
          c!"BEGIN:VCALENDAR\r\n" ++ b := by rw [← e1]; simp
      exact (List.append_cancel_left e1).symm
    subst e2
  · exact hh _ _ _ _ _ h1 h2 ⟨r', rfl⟩
  · obtain ⟨e3, rfl, hsp, -⟩ := hh _ _ _ _ _ ⟨c!"\r\n" ++ r, by simp⟩ h1 h2 ⟨r', rfl⟩
    rw [show c!"END:VCALENDAR\r\n" ++ r = c!"END:VCALENDAR" ++ (c!"\r\n" ++ r) by simp] at e3
    refine ⟨List.append_cancel_left e3, ?_⟩
    obtain ⟨_, _, rfl, rfl, hsp⟩ := hsp
    obtain ⟨es, _, rfl, p1, hsp⟩ := hsp
    obtain ⟨fs, _, rfl, p2, hsp⟩ := hsp
    obtain ⟨js, _, rfl, p3, hsp⟩ := hsp
    obtain ⟨ts, zs, rfl, p4, p5⟩ := hsp
    obtain ⟨es, rfl, q1⟩ := all2_kind (f := Component.event) (R := Rereads VEvent.ofStr) p1
    obtain ⟨fs, rfl, q2⟩ := all2_kind (f := Component.freebusy) (R := Rereads VFreebusy.ofStr) p2
    obtain ⟨js, rfl, q3⟩ := all2_kind (f := Component.journal) (R := Rereads VJournal.ofStr) p3
    obtain ⟨ts, rfl, q4⟩ := all2_kind (f := Component.todo) (R := Rereads VTodo.ofStr) p4
    obtain ⟨zs, rfl, q5⟩ := all2_kind (f := Component.timezone) (R := Rereads VTimezone.ofStr) p5
    obtain ⟨f0, f1, f2, f3, f4, f5⟩ := h4
    have k : ∀ {β : Type} (g : Component → Option β), (es.map Component.event ++ (fs.map Component.freebusy ++ (js.map Component.journal ++
        (ts.map Component.todo ++ zs.map Component.timezone)))).filterMap g = es.filterMap (fun b => g (.event b)) ++
        (fs.filterMap (fun b => g (.freebusy b)) ++ (js.filterMap (fun b => g (.journal b)) ++ (ts.filterMap (fun b => g (.todo b)) ++
        zs.filterMap (fun b => g (.timezone b))))) := by
      intro β g
      simp [List.filterMap_append, List.filterMap_map, Function.comp_def]
    have nn : ∀ {β γ : Type} (l : List γ), l.filterMap (fun _ => (none : Option β)) = [] := by
      intro β γ l
      induction l with
      | nil => rfl
      | cons a l ih => simp [List.filterMap_cons, ih]
    have ss : ∀ {γ : Type} (l : List γ), l.filterMap (fun b => some b) = l := by
      intro γ l
      simp
    simp only [List.nil_append, alarmsOf, eventsOf, freebusyOf, journalsOf, todosOf, timezonesOf, k, nn, ss, List.append_nil] at f0 f1 f2 f3 f4 f5
    refine ⟨⟨sx, si, hsx, hsi, ?_⟩, f0, by rw [f1]; exact q1, by rw [f2]; exact q2, by rw [f3]; exact q3, by rw [f4]; exact q4, by rw [f5]; exact q5⟩
    have h6 := (C14_VCalendar_iff _ _).2 h3
    unfold VCalendar.tryFrom at h6
    obtain ⟨c, hc, hc'⟩ := map_eq_ok.1 h6
    rw [(VCalendar.ofComp_eq c _).1 hc'] at hc
    exact Comp.tryFrom_tidy VCalendar.nodup
      (show c!"X-PROP" ∉ ([c!"PRODID", c!"VERSION", c!"CALSCALE", c!"METHOD", c!"ALARMS", c!"EVENTS", c!"FREEBUSY", c!"JOURNALS", c!"TODO", c!"TIMEZONES"] : List Str) by decide)
      (show c!"IANA-PROP" ∉ ([c!"PRODID", c!"VERSION", c!"CALSCALE", c!"METHOD", c!"ALARMS", c!"EVENTS", c!"FREEBUSY", c!"JOURNALS", c!"TODO", c!"TIMEZONES"] : List Str) by decide) hsx hsi hw hc

/-! ## The theorems -/

theorem all2_length {α β : Type} {R : α → β → Prop} {l : List α} {l' : List β} (h : All2 R l l') : l.length = l'.length := by
  induction h with
  | nil => rfl
  | cons _ _ ih => simp [ih]

theorem all2_diag {α : Type} {R : α → α → Prop} {l : List α} (h : All2 R l l) : ∀ a ∈ l, R a a := by
  have key : ∀ {l l' : List α}, All2 R l l' → l = l' → ∀ a ∈ l, R a a := by
    intro l l' h
    induction h with
    | nil => intro _ a ha; cases ha
    | cons h _ ih =>
      intro e a ha
      obtain ⟨rfl, rfl⟩ := List.cons.inj e
      rcases List.mem_cons.1 ha with rfl | ha
      · exact h
      · exact ih rfl a ha
  exact key h rfl

/-- **C47** for an event: one with an alarm is not read. -/
theorem C47_VEvent_alarms (v w : VEvent) (h : DeepVEvent v) (t : Str) (ht : ical v = .ok t) (hw : VEvent.ofStr t = .ok w) : v.alarms = [] := by
  rw [ical_eq rfl] at ht
  obtain ⟨_, u, hu, _, hh⟩ := VEvent.event h ht
  rw [C19_VEvent, hu.un] at hw
  obtain ⟨r, hw⟩ := hw
  rcases hh with ⟨_, hh⟩ | ⟨hh, _⟩
  · exact (hh [] w r (by simpa using hw)).elim
  · exact Classical.not_not.1 hh

theorem VTimezone.read {v w : VTimezone} (h : DeepVTimezone v) {t : Str} (ht : ical v = .ok t) (hw : VTimezone.ofStr t = .ok w) :
    ¬ BadTimezone v ∧ VTimezone.Back v w := by
  rw [ical_eq rfl] at ht
  obtain ⟨_, u, hu, _, hh⟩ := VTimezone.timezone h ht
  rw [C19_VTimezone, hu.un] at hw
  obtain ⟨r, hw⟩ := hw
  rcases hh with ⟨_, hh⟩ | ⟨hh, hb⟩
  · exact (hh [] w r (by simpa using hw)).elim
  · exact ⟨hh, (hb [] w r (by simpa using hw)).2.1⟩

theorem PropsBack.ext {fs : List Field} {a b : Slots fs} {vx vi wx wi : SMap ContentLine} (h : PropsBack fs a b vx vi wx wi) :
    (vx ≠ [] → wx ≠ vx) ∧ (vi ≠ [] → wi ≠ vi) := by
  obtain ⟨sx, si, hx, hi, _, rfl, rfl⟩ := h
  exact ⟨fun hne => extBack_ne hx hne, fun hne => extBack_ne hi hne⟩

theorem not_badTimezone {v : VTimezone} (h : ¬ BadTimezone v) :
    v.standard.length ≤ 1 ∧ v.daylight.length ≤ 1 ∧ (v.standard ≠ [] ∨ v.daylight ≠ [] → v.xProp = [] ∧ v.ianaProp = []) := by
  unfold BadTimezone at h
  refine ⟨by omega, by omega, fun hp => ⟨?_, ?_⟩⟩
  · exact Classical.byContradiction fun hx => h (.inr (.inr ⟨hp, .inl hx⟩))
  · exact Classical.byContradiction fun hx => h (.inr (.inr ⟨hp, .inr hx⟩))

/-- **C47** for a time zone: one with two parts of a kind, or with a part and an extension property, is not read; and extension properties are
read as others. -/
theorem C47_VTimezone (v w : VTimezone) (h : DeepVTimezone v) (t : Str) (ht : ical v = .ok t) (hw : VTimezone.ofStr t = .ok w) :
    v.standard.length ≤ 1 ∧ v.daylight.length ≤ 1 ∧ (v.standard ≠ [] ∨ v.daylight ≠ [] → v.xProp = [] ∧ v.ianaProp = []) ∧
    (v.xProp ≠ [] → w.xProp ≠ v.xProp) ∧ (v.ianaProp ≠ [] → w.ianaProp ≠ v.ianaProp) := by
  obtain ⟨hn, hb⟩ := VTimezone.read h ht hw
  obtain ⟨h1, h2, h3⟩ := not_badTimezone hn
  exact ⟨h1, h2, h3, hb.props.ext⟩

/-- **C47** for a time zone, the other way round. -/
theorem C47_VTimezone_same (v : VTimezone) (h : DeepVTimezone v) (t : Str) (ht : ical v = .ok t) (hw : VTimezone.ofStr t = .ok v) :
    v.standard.length ≤ 1 ∧ v.daylight.length ≤ 1 ∧ v.xProp = [] ∧ v.ianaProp = [] := by
  obtain ⟨h1, h2, _, hx, hi⟩ := C47_VTimezone v v h t ht hw
  exact ⟨h1, h2, Classical.byContradiction fun e => hx e rfl, Classical.byContradiction fun e => hi e rfl⟩

/-- **C67** for a time zone: if its text is read then its parts are read as if each were written and read alone. -/
theorem C67_VTimezone (v w : VTimezone) (h : DeepVTimezone v) (t : Str) (ht : ical v = .ok t) (hw : VTimezone.ofStr t = .ok w) :
    All2 (Rereads Standard.ofStr) v.standard w.standard ∧ All2 (Rereads Daylight.ofStr) v.daylight w.daylight := by
  obtain ⟨_, hb⟩ := VTimezone.read h ht hw
  exact ⟨hb.standard, hb.daylight⟩

/-- **C67** for a time zone that is read back as it was: so is each of its parts. -/
theorem C67_VTimezone_same (v : VTimezone) (h : DeepVTimezone v) (t : Str) (ht : ical v = .ok t) (hw : VTimezone.ofStr t = .ok v) :
    (∀ a ∈ v.standard, Rereads Standard.ofStr a a) ∧ ∀ a ∈ v.daylight, Rereads Daylight.ofStr a a := by
  obtain ⟨h1, h2⟩ := C67_VTimezone v v h t ht hw
  exact ⟨all2_diag h1, all2_diag h2⟩

/-- **C44** for a time zone: if its text is read then its identifier is not empty. -/
theorem C44_VTimezone_read (v w : VTimezone) (h : DeepVTimezone v) (t : Str) (ht : ical v = .ok t) (hw : VTimezone.ofStr t = .ok w) :
    v.tzid.text ≠ [] ∧ (∀ a ∈ v.tzurl, a.uri = [] → w.tzurl = none) := by
  obtain ⟨_, ⟨⟨sx, si, _, _, ⟨k_tzid, k_lastModified, k_tzurl, _⟩, _⟩, _, _⟩⟩ := VTimezone.read h ht hw
  exact ⟨Field.lives_req_text k_tzid, Field.lives_opt_uri k_tzurl⟩

theorem VCalendar.read {v w : VCalendar} (h : DeepVCalendar v) {t : Str} (ht : ical v = .ok t) (hw : VCalendar.ofStr t = .ok w) :
    ¬ BadCalendar v ∧ VCalendar.Back v w := by
  rw [ical_eq rfl] at ht
  obtain ⟨u, hu, _, hh⟩ := VCalendar.calendar h ht
  rw [C19_VCalendar, hu.un] at hw
  obtain ⟨cs, r, hw⟩ := hw
  rcases hh with ⟨_, hh⟩ | ⟨hh, hb⟩
  · exact (hh [] w cs r (by simpa using hw)).elim
  · exact ⟨hh, (hb [] w cs r (by simpa using hw)).2⟩

/-- **C47** for a calendar: it is not read if it has an alarm, two components of a kind, an event with an alarm, a time zone with two parts of
a kind or with a part and an extension property, or a component and an extension property; and extension properties are read as others. -/
theorem C47_VCalendar (v w : VCalendar) (h : DeepVCalendar v) (t : Str) (ht : ical v = .ok t) (hw : VCalendar.ofStr t = .ok w) :
    v.alarms = [] ∧ v.events.length ≤ 1 ∧ v.freebusy.length ≤ 1 ∧ v.journals.length ≤ 1 ∧ v.todo.length ≤ 1 ∧ v.timezones.length ≤ 1 ∧
    (∀ e ∈ v.events, e.alarms = []) ∧
    (∀ z ∈ v.timezones, z.standard.length ≤ 1 ∧ z.daylight.length ≤ 1 ∧ (z.standard ≠ [] ∨ z.daylight ≠ [] → z.xProp = [] ∧ z.ianaProp = [])) ∧
    (v.events ≠ [] ∨ v.freebusy ≠ [] ∨ v.journals ≠ [] ∨ v.todo ≠ [] ∨ v.timezones ≠ [] → v.xProp = [] ∧ v.ianaProp = []) ∧
    (v.xProp ≠ [] → w.xProp ≠ v.xProp) ∧ (v.ianaProp ≠ [] → w.ianaProp ≠ v.ianaProp) := by
  obtain ⟨hn, hb⟩ := VCalendar.read h ht hw
  unfold BadCalendar at hn
  simp only [not_or, not_exists, Classical.not_not, Nat.not_lt] at hn
  obtain ⟨h0, ⟨h1, h1'⟩, h2, h3, h4, ⟨h5, h5'⟩, h6⟩ := hn
  refine ⟨h0, h1, h2, h3, h4, h5, fun e he => ?_, fun z hz => ?_, fun hp => ⟨?_, ?_⟩, hb.props.ext⟩
  · exact Classical.byContradiction fun hx => h1' e ⟨he, hx⟩
  · exact not_badTimezone fun k => h5' z ⟨hz, k⟩
  · exact Classical.byContradiction fun hx => h6 ⟨hp, .inl hx⟩
  · exact Classical.byContradiction fun hx => h6 ⟨hp, .inr hx⟩

/-- **C47** for a calendar, the other way round. -/
theorem C47_VCalendar_same (v : VCalendar) (h : DeepVCalendar v) (t : Str) (ht : ical v = .ok t) (hw : VCalendar.ofStr t = .ok v) :
    v.alarms = [] ∧ v.events.length ≤ 1 ∧ v.freebusy.length ≤ 1 ∧ v.journals.length ≤ 1 ∧ v.todo.length ≤ 1 ∧ v.timezones.length ≤ 1 ∧
    (∀ e ∈ v.events, e.alarms = []) ∧ v.xProp = [] ∧ v.ianaProp = [] := by
  obtain ⟨h0, h1, h2, h3, h4, h5, h6, _, _, hx, hi⟩ := C47_VCalendar v v h t ht hw
  exact ⟨h0, h1, h2, h3, h4, h5, h6, Classical.byContradiction fun e => hx e rfl, Classical.byContradiction fun e => hi e rfl⟩

/-- **C67** for a calendar: if its text is read then its components are read as if each were written and read alone. -/
theorem C67_VCalendar (v w : VCalendar) (h : DeepVCalendar v) (t : Str) (ht : ical v = .ok t) (hw : VCalendar.ofStr t = .ok w) :
    w.alarms = [] ∧ All2 (Rereads VEvent.ofStr) v.events w.events ∧ All2 (Rereads VFreebusy.ofStr) v.freebusy w.freebusy ∧
    All2 (Rereads VJournal.ofStr) v.journals w.journals ∧ All2 (Rereads VTodo.ofStr) v.todo w.todo ∧
    All2 (Rereads VTimezone.ofStr) v.timezones w.timezones := by
  obtain ⟨_, hb⟩ := VCalendar.read h ht hw
  exact ⟨hb.alarms, hb.events, hb.freebusy, hb.journals, hb.todo, hb.timezones⟩

/-- **C67** for a calendar that is read back as it was: so is each of its components. -/
theorem C67_VCalendar_same (v : VCalendar) (h : DeepVCalendar v) (t : Str) (ht : ical v = .ok t) (hw : VCalendar.ofStr t = .ok v) :
    (∀ a ∈ v.events, Rereads VEvent.ofStr a a) ∧ (∀ a ∈ v.freebusy, Rereads VFreebusy.ofStr a a) ∧
    (∀ a ∈ v.journals, Rereads VJournal.ofStr a a) ∧ (∀ a ∈ v.todo, Rereads VTodo.ofStr a a) ∧
    (∀ a ∈ v.timezones, Rereads VTimezone.ofStr a a) := by
  obtain ⟨_, h1, h2, h3, h4, h5⟩ := C67_VCalendar v v h t ht hw
  exact ⟨all2_diag h1, all2_diag h2, all2_diag h3, all2_diag h4, all2_diag h5⟩

/-- **C44** for a calendar: if its text is read then its identifier and version are not empty. -/
theorem C44_VCalendar_read (v w : VCalendar) (h : DeepVCalendar v) (t : Str) (ht : ical v = .ok t) (hw : VCalendar.ofStr t = .ok w) :
    v.prodid.text ≠ [] ∧ v.version.text ≠ [] ∧ (∀ a ∈ v.calscale, a.text = [] → w.calscale = none) ∧
    (∀ a ∈ v.method, a.text = [] → w.method = none) := by
  obtain ⟨_, ⟨⟨sx, si, _, _, ⟨k_prodid, k_version, k_calscale, k_method, _⟩, _⟩, _, _⟩⟩ := VCalendar.read h ht hw
  exact ⟨Field.lives_req_text k_prodid, Field.lives_req_text k_version, Field.lives_opt_text k_calscale, Field.lives_opt_text k_method⟩

end Main

section Examples

attribute [local instance] utc

/-- A to-do with two attachments, an empty summary and an extension property. -/
def sampleTidyTodo : VTodo where
  dtstamp := .naive ⟨⟨2020, 1, 2⟩, 3600, 0⟩
  uid := ⟨[], c!"1@example.com"⟩
  attach := [⟨[], c!"a"⟩, ⟨[], c!"b"⟩]
  summary := some ⟨[], []⟩
  xProp := [(c!"X-COLOR", ⟨c!"X-COLOR", [], c!"red"⟩)]
  class_ := none
  completed := none
  created := none
  dtstart := none
  geo := none
  lastModified := none
  location := none
  organizer := none
  percentComplete := none
  priority := none
  recurid := none
  sequence := none
  status := none
  url := none
  rrule := none
  due := none
  duration := none
  attendee := []
  categories := []
  comment := []
  contact := []
  exdate := []
  rstatus := []
  relatedTo := []
  resources := []
  rdate := []
  ianaProp := []

theorem tidyParams_nil : TidyParams [] := ⟨safeParams_nil, by simp⟩

theorem sampleTidyTodo_tidy : TidyVTodo sampleTidyTodo where
  uid := ⟨by decide, tidyParams_nil⟩
  attach := by
    intro a ha
    simp [sampleTidyTodo] at ha
    rcases ha with rfl | rfl <;> exact ⟨by decide, tidyParams_nil⟩
  summary := by intro a ha; cases ha; exact ⟨by decide, tidyParams_nil⟩
  xProp := by
    intro p hp
    simp [sampleTidyTodo] at hp
    subst hp
    decide
  class_ := by intro a ha; cases ha
  geo := by intro a ha; cases ha
  location := by intro a ha; cases ha
  organizer := by intro a ha; cases ha
  url := by intro a ha; cases ha
  attendee := by intro a ha; cases ha
  categories := by intro a ha; cases ha
  comment := by intro a ha; cases ha
  contact := by intro a ha; cases ha
  rstatus := by intro a ha; cases ha
  relatedTo := by intro a ha; cases ha
  resources := by intro a ha; cases ha
  ianaProp := by intro a ha; cases ha

/-- It is written, and its text is read: with one attachment, without summary, with another extension property. -/
example : (ical sampleTidyTodo).isOk = true := by decide +kernel
example : ((ical sampleTidyTodo).bind VTodo.ofStr).isOk = true := by decide +kernel
example : ((ical sampleTidyTodo).bind VTodo.ofStr).map (fun w => (w.attach.map (·.text), w.summary.isSome, w.xProp.map (·.2.value))) =
    .ok ([c!"a,b"], false, [c!"X-COLOR=red"]) := by decide +kernel

/-- A to-do without extension properties. -/
def sampleBareTodo : VTodo := { sampleTidyTodo with xProp := [], attach := [] }

theorem sampleBareTodo_tidy : TidyVTodo sampleBareTodo :=
  { sampleTidyTodo_tidy with
    xProp := (by intro p hp; cases hp)
    attach := (by intro p hp; cases hp) }

/-- A calendar of one to-do. -/
def sampleTodoCalendar (todo : List VTodo) (x : SMap ContentLine) : VCalendar where
  prodid := ⟨[], c!"-//example//ikal//EN"⟩
  version := ⟨[], c!"2.0"⟩
  calscale := none
  method := none
  alarms := []
  events := []
  freebusy := []
  journals := []
  todo := todo
  timezones := []
  xProp := x
  ianaProp := []

theorem sampleTodoCalendar_deep {todo : List VTodo} {x : SMap ContentLine} (ht : ∀ a ∈ todo, TidyVTodo a) (hx : TidyExt x) :
    DeepVCalendar (sampleTodoCalendar todo x) where
  props := {
    prodid := ⟨show '\r' ∉ c!"-//example//ikal//EN" by decide, tidyParams_nil⟩
    version := ⟨show '\r' ∉ c!"2.0" by decide, tidyParams_nil⟩
    calscale := by intro a ha; cases ha
    method := by intro a ha; cases ha
    xProp := hx
    ianaProp := by intro a ha; cases ha }
  alarms := by intro a ha; cases ha
  events := by intro a ha; cases ha
  freebusy := by intro a ha; cases ha
  journals := by intro a ha; cases ha
  todo := ht
  timezones := by intro a ha; cases ha

/-- One to-do is read; two are written but not read, nor is one to-do with an extension property of the calendar. -/
example : ((ical (sampleTodoCalendar [sampleTidyTodo] [])).bind VCalendar.ofStr).isOk = true := by decide +kernel
example : (ical (sampleTodoCalendar [sampleTidyTodo, sampleBareTodo] [])).isOk = true := by decide +kernel
example : ((ical (sampleTodoCalendar [sampleTidyTodo, sampleBareTodo] [])).bind VCalendar.ofStr).isOk = false := by decide +kernel
example : ((ical (sampleTodoCalendar [sampleTidyTodo] sampleTidyTodo.xProp)).bind VCalendar.ofStr).isOk = false := by decide +kernel
example : ((ical (sampleTodoCalendar [] sampleTidyTodo.xProp)).bind VCalendar.ofStr).isOk = true := by decide +kernel
example : DeepVCalendar (sampleTodoCalendar [sampleTidyTodo, sampleBareTodo] sampleTidyTodo.xProp) :=
  sampleTodoCalendar_deep (by intro a ha; simp at ha; exact ha.elim (fun e => e ▸ sampleTidyTodo_tidy) (fun e => e ▸ sampleBareTodo_tidy)) sampleTidyTodo_tidy.xProp

/-- An event without alarms, and the same with one. -/
def sampleAlarmEvent (alarms : List VAlarm) : VEvent where
  dtstamp := .naive ⟨⟨2020, 1, 2⟩, 3600, 0⟩
  uid := ⟨[], c!"1@example.com"⟩
  dtstart := .date ⟨2024, 2, 29⟩
  alarms := alarms
  class_ := none
  created := none
  description := none
  geo := none
  lastModified := none
  location := none
  organizer := none
  priority := none
  sequence := none
  status := none
  summary := none
  transp := none
  url := none
  recurid := none
  rrule := none
  dtend := none
  duration := none
  attach := []
  attendee := []
  categories := []
  comment := []
  contact := []
  exdate := []
  rstatus := []
  relatedTo := []
  resources := []
  rdate := []
  xProp := []
  ianaProp := []

/-- An alarm. -/
def sampleTidyAlarm : VAlarm := .display {
  action := ⟨[], c!"DISPLAY"⟩
  trigger := .duration ⟨-900000000000⟩
  description := ⟨[], c!"wake up"⟩
  duration := none
  repeat_ := none
  xProp := []
  ianaProp := [] }

theorem sampleTidyAlarm_tidy : TidyVAlarm sampleTidyAlarm where
  action := ⟨by decide, tidyParams_nil⟩
  description := ⟨by decide, tidyParams_nil⟩
  xProp := by intro a ha; cases ha
  ianaProp := by intro a ha; cases ha

theorem sampleAlarmEvent_deep {alarms : List VAlarm} (h : ∀ a ∈ alarms, TidyVAlarm a) : DeepVEvent (sampleAlarmEvent alarms) where
  props := {
    uid := ⟨show '\r' ∉ c!"1@example.com" by decide, tidyParams_nil⟩
    class_ := by intro a ha; cases ha
    description := by intro a ha; cases ha
    geo := by intro a ha; cases ha
    location := by intro a ha; cases ha
    organizer := by intro a ha; cases ha
    summary := by intro a ha; cases ha
    url := by intro a ha; cases ha
    attach := by intro a ha; cases ha
    attendee := by intro a ha; cases ha
    categories := by intro a ha; cases ha
    comment := by intro a ha; cases ha
    contact := by intro a ha; cases ha
    rstatus := by intro a ha; cases ha
    relatedTo := by intro a ha; cases ha
    resources := by intro a ha; cases ha
    xProp := by intro a ha; cases ha
    ianaProp := by intro a ha; cases ha }
  alarms := h

example : DeepVEvent (sampleAlarmEvent [sampleTidyAlarm]) := sampleAlarmEvent_deep (by intro a ha; simp at ha; subst ha; exact sampleTidyAlarm_tidy)
example : ((ical (sampleAlarmEvent [])).bind VEvent.ofStr).isOk = true := by decide +kernel
example : (ical (sampleAlarmEvent [sampleTidyAlarm])).isOk = true := by decide +kernel
example : ((ical (sampleAlarmEvent [sampleTidyAlarm])).bind VEvent.ofStr).isOk = false := by decide +kernel

/-- The standard part of a time zone. -/
def sampleTidyStandard : Standard where
  dtstart := .dateTime (.naive ⟨⟨1996, 10, 27⟩, 10800, 0⟩)
  tzoffsetto := ⟨3600⟩
  tzoffsetfrom := ⟨7200⟩
  rrule := none
  comment := []
  rdate := []
  tzname := [⟨[], c!"CET"⟩]
  xProp := []
  ianaProp := []

theorem sampleTidyStandard_tidy : TidyStandard sampleTidyStandard where
  comment := by intro a ha; cases ha
  tzname := by intro a ha; simp [sampleTidyStandard] at ha; subst ha; exact ⟨by decide, tidyParams_nil⟩
  xProp := by intro a ha; cases ha
  ianaProp := by intro a ha; cases ha

/-- A time zone with any number of parts. -/
def sampleTidyZone (standard : List Standard) (x : SMap ContentLine) : VTimezone where
  tzid := ⟨[], c!"Europe/Paris"⟩
  lastModified := none
  tzurl := none
  standard := standard
  daylight := []
  xProp := x
  ianaProp := []

theorem sampleTidyZone_deep {standard : List Standard} {x : SMap ContentLine} (hs : ∀ a ∈ standard, TidyStandard a) (hx : TidyExt x) :
    DeepVTimezone (sampleTidyZone standard x) where
  props := {
    tzid := ⟨show '\r' ∉ c!"Europe/Paris" by decide, tidyParams_nil⟩
    tzurl := by intro a ha; cases ha
    xProp := hx
    ianaProp := by intro a ha; cases ha }
  standard := hs
  daylight := by intro a ha; cases ha

example : DeepVTimezone (sampleTidyZone [sampleTidyStandard, sampleTidyStandard] sampleTidyTodo.xProp) :=
  sampleTidyZone_deep (by intro a ha; simp at ha; subst ha; exact sampleTidyStandard_tidy) sampleTidyTodo_tidy.xProp
example : ((ical (sampleTidyZone [sampleTidyStandard] [])).bind VTimezone.ofStr).isOk = true := by decide +kernel
example : (ical (sampleTidyZone [sampleTidyStandard, sampleTidyStandard] [])).isOk = true := by decide +kernel
example : ((ical (sampleTidyZone [sampleTidyStandard, sampleTidyStandard] [])).bind VTimezone.ofStr).isOk = false := by decide +kernel
example : ((ical (sampleTidyZone [sampleTidyStandard] sampleTidyTodo.xProp)).bind VTimezone.ofStr).isOk = false := by decide +kernel
example : ((ical (sampleTidyZone [] sampleTidyTodo.xProp)).bind VTimezone.ofStr).isOk = true := by decide +kernel

end Examples

end Ikal
