import Verif.Lemmas.TornText

/-! # RFC 5545 texts that are cut are never read, whether or not the whole text can be -/

set_option linter.unusedSectionVars false

namespace Ikal

open Nom Spec Abnf

namespace Torn

variable [Platform]

/-- No text of a component that is cut is read by `p`. -/
def Never {α : Type} (p : P α) : Prop :=
  ∀ t : Tree, t.Good → ∀ d e, d <+: t.str → d ≠ t.str → Stub e → d ++ e ≠ t.str → ∀ r v, p (d ++ e) ≠ .ok r v

/-- `p` reads the component, all of it and no more, or nothing. -/
def Whole {α : Type} (p : P α) : Prop := ∀ t : Tree, t.Good → ∀ x r a, p (t.str ++ x) = .ok r a → r = x

theorem Never.map {α β : Type} {p : P α} (h : Never p) (f : α → β) : Never (Nom.map p f) := by
  intro t ht d e h1 h2 h3 h4 r v hv
  obtain ⟨a, ha, -⟩ := map_ok.1 hv
  exact h t ht d e h1 h2 h3 h4 r a ha

theorem Never.alt {α : Type} {p q : P α} (hp : Never p) (hq : Never q) : Never (Nom.alt p q) := by
  intro t ht d e h1 h2 h3 h4 r v hv
  rcases alt_ok.1 hv with h | ⟨-, h⟩
  · exact hp t ht d e h1 h2 h3 h4 r v h
  · exact hq t ht d e h1 h2 h3 h4 r v h

theorem steady_tail {n : Str} {lines : List Line} {parts : List Tree} (h : Tree.Good (.mk n lines parts)) {x y : Str} (hxy : x ++ y = c!"END:" ++ n ++ c!"\r\n") :
    SteadyAll ((lines.map Line.str).flatten ++ (Tree.strs parts ++ x)) := by
  have h1 := good_steadyAll h
  have e : (Tree.mk n lines parts).str = (c!"BEGIN:" ++ n ++ c!"\r\n") ++ (((lines.map Line.str).flatten ++ (Tree.strs parts ++ x)) ++ y) := by
    have : (Tree.mk n lines parts).str = (c!"BEGIN:" ++ n ++ c!"\r\n") ++ ((lines.map Line.str).flatten ++ (Tree.strs parts ++ (x ++ y))) := by
      rw [hxy]; simp [Tree.str]
    rw [this]; simp
  rw [e] at h1
  exact (h1.tail (by rw [List.getLast?_append]; rfl)).init

theorem strs_delim (parts : List Tree) {x : Str} (hx : c!"END:" <+: x) : IsDelim (Tree.strs parts ++ x) := by
  cases parts with
  | nil => exact .inr (by simpa [Tree.strs] using hx)
  | cons t ts =>
    obtain ⟨m, ls, us⟩ := t
    exact .inl ⟨_, by simp only [Tree.strs, Tree.str, List.append_assoc]; rfl⟩

/-- The first line of a cut text that is read. -/
theorem open_name {n N Z : Str} (hn : IsToken n) (hN : IsToken N) {d e body r1 : Str} {ls : List ContentLine}
    (hd : d <+: c!"BEGIN:" ++ n ++ c!"\r\n" ++ Z) (he : Stub e)
    (hb : d ++ e = c!"BEGIN:" ++ N ++ c!"\r\n" ++ body) (hl : LinesText body ls r1) (hr : IsDelim r1) :
    n = N ∧ ∃ d1, d = c!"BEGIN:" ++ n ++ c!"\r\n" ++ d1 ∧ body = d1 ++ e ∧ d1 <+: Z := by
  -- the first line is whole
  have hfirst : ∃ d1, d = c!"BEGIN:" ++ N ++ c!"\r\n" ++ d1 := by
    have hp : c!"BEGIN:" ++ N ++ c!"\r\n" <+: d ++ e := ⟨body, hb.symm⟩
    rcases prefix_split (a := d) (b := e) (d := c!"BEGIN:" ++ N ++ c!"\r\n") hp with ⟨h1, -⟩ | ⟨d', h1, h2⟩
    · obtain ⟨d1, h⟩ := h1; exact ⟨d1, h.symm⟩
    · exfalso
      -- the line is completed by the stub: nothing is left for the END line
      have hb' : e = d' ++ body := by
        have : d ++ e = d ++ (d' ++ body) := by rw [hb, h1]; simp
        exact List.append_cancel_left this
      have hbs : body <:+ e := ⟨d', hb'.symm⟩
      obtain ⟨T, hT, -⟩ := linesBefore_of_linesText hl
      have hm : ∀ c ∈ r1, c ∈ e := fun c hc => by rw [hb', hT]; simp [hc]
      have : 'B' ∈ e ∨ 'E' ∈ e := by
        rcases hr with ⟨z, hz⟩ | ⟨z, hz⟩
        · exact .inl (hm _ (by rw [← hz]; simp))
        · exact .inr (hm _ (by rw [← hz]; simp))
      rcases he with rfl | rfl | rfl <;> simp at this
  obtain ⟨d1, rfl⟩ := hfirst
  have hbody : body = d1 ++ e := by
    rw [List.append_assoc] at hb
    exact (List.append_cancel_left hb).symm
  subst hbody
  obtain ⟨y', hy'⟩ := hd
  obtain ⟨rfl, hrest⟩ := name_split (a := N) (b := n) (u := d1 ++ y') (v := Z) hN hn
    (List.append_cancel_left (as := c!"BEGIN:") (by simpa using hy'))
  exact ⟨rfl, d1, rfl, rfl, y', hrest⟩

/-- What is read of a cut text up to the lines. -/
theorem open_cut {n : Str} {lines : List Line} {parts : List Tree} (h : Tree.Good (.mk n lines parts)) {x y : Str}
    (hx : c!"END:" <+: x) (hxy : x ++ y = c!"END:" ++ n ++ c!"\r\n") {d e r1 : Str} {ls : List ContentLine}
    (hd : d <+: (lines.map Line.str).flatten ++ (Tree.strs parts ++ x)) (he : Stub e) (hl : LinesText (d ++ e) ls r1) (hr : IsDelim r1) :
    ∃ d', d = (lines.map Line.str).flatten ++ d' ∧ r1 = d' ++ e ∧ d' <+: Tree.strs parts ++ x := by
  have hg : ∀ l ∈ lines, GoodLine l := by cases h with | mk _ h2 _ => exact h2
  obtain ⟨ms, hms⟩ := exists_block lines
  have hdel := strs_delim parts hx
  obtain ⟨T, hT, hTb⟩ := linesBefore_of_linesText (means_block hms hg hdel)
  rw [← List.append_cancel_right hT] at hTb
  have hcl := contentLines_ok.2 hl
  rcases lines_cut hTb hdel (steady_tail h hxy) hd he with ⟨d', e1, e2, e3⟩ | ⟨rest, ls', e1, e2, e3⟩
  · rw [e3] at hcl
    injection hcl with e4 e5
    exact ⟨d', e1, e4.symm, e2⟩
  · rw [e1] at hcl
    injection hcl with e4 e5
    subst e4
    exact (hr.elim e2 e3).elim

/-- The components inside of a cut text: the line that ends the text is not there. -/
theorem parts_cut {α : Type} {q : P α} (hq : Never q) (hw : Whole q) (ho : Opens c!"BEGIN:" q) {x : Str} (hx : c!"END:" <+: x) (hx' : x.getLast? ≠ some '\r') :
    ∀ {parts : List Tree}, (∀ t ∈ parts, t.Good) → ∀ {d e rest : Str} {as : List α}, d <+: Tree.strs parts ++ x → d ≠ Tree.strs parts ++ x → Stub e →
      d ++ e ≠ Tree.strs parts ++ x → Many q (d ++ e) as rest → ¬ x <+: rest
  | [], _, d, e, rest, as, h1, h2, h3, h4, hm => by
    simp only [Tree.strs, List.nil_append] at h1 h2 h4
    have hnb : ¬ c!"BEGIN:" <+: d ++ e := not_begin_stub h3 h1 (not_begin_end hx)
    cases hm with
    | nil _ => exact fun h => h4 (tag_cut h1 h2 h3 h hx')
    | cons h _ _ => rw [ho _ hnb] at h; cases h
  | t :: ts, hg, d, e, rest, as, h1, h2, h3, h4, hm => by
    have hb : c!"BEGIN:" <+: t.str := by obtain ⟨m, ls, us⟩ := t; exact ⟨_, by simp only [Tree.str, List.append_assoc]; rfl⟩
    simp only [Tree.strs, List.append_assoc] at h1 h2 h4
    rcases prefix_split h1 with ⟨h1', hn⟩ | ⟨d1, rfl, hd1⟩
    · by_cases hde : d ++ e = t.str
      · cases hm with
        | nil _ => rw [hde]; exact fun h => not_begin_end (hx.trans h) hb
        | @cons _ r _ a as h _ h' =>
          have := hw t (hg t (by simp)) [] r a (by rw [List.append_nil, ← hde]; exact h)
          subst this
          cases h' with
          | nil _ => intro h; have := hx.trans h; revert this; decide
          | cons h _ _ => rw [ho [] (by decide)] at h; cases h
      · cases hm with
        | nil _ => exact fun h => not_end_stub h3 h1' (not_end_begin hb) (hx.trans h)
        | cons h _ _ => exact (hq t (hg t (by simp)) d e h1' hn h3 hde _ _ h).elim
    · rw [List.append_assoc] at hm
      cases hm with
      | nil _ => exact fun h => not_begin_end (hx.trans h) (hb.trans (List.prefix_append _ _))
      | @cons _ r _ a as h _ h' =>
        have := hw t (hg t (by simp)) (d1 ++ e) r a h
        subst this
        refine parts_cut hq hw ho hx hx' (fun t ht => hg t (by simp [ht])) hd1 ?_ h3 ?_ h'
        · rintro rfl; exact h2 rfl
        · intro h; exact h4 (by rw [← h]; simp)

theorem end_last {N x : Str} (hN : IsToken N) (hx : x = c!"END:" ++ N ∨ x = c!"END:" ++ N ++ c!"\r\n") :
    c!"END:" <+: x ∧ x.getLast? ≠ some '\r' ∧ ∃ y, x ++ y = c!"END:" ++ N ++ c!"\r\n" := by
  rcases hx with rfl | rfl
  · refine ⟨⟨N, rfl⟩, fun h => ?_, _, rfl⟩
    have : '\r' ∈ c!"END:" ++ N := List.mem_of_getLast? h
    rcases List.mem_append.1 this with h | h
    · revert h; decide
    · exact (token_no hN).1 h
  · exact ⟨⟨N ++ c!"\r\n", by simp⟩, by rw [List.getLast?_append]; simp, [], by simp⟩

/-- A component with components in it: cut, it is not read. -/
theorem block_never {α γ : Type} {N x : Str} {q : P α} {f : List ContentLine × List α → Res γ} (hN : IsToken N) (hx : x = c!"END:" ++ N ∨ x = c!"END:" ++ N ++ c!"\r\n")
    (hq : Never q) (hw : Whole q) (ho : Opens c!"BEGIN:" q) {lines : List Line} {parts : List Tree} (h : Tree.Good (.mk N lines parts)) {d e : Str}
    (hd : d <+: c!"BEGIN:" ++ N ++ c!"\r\n" ++ ((lines.map Line.str).flatten ++ (Tree.strs parts ++ x)))
    (hn : d ≠ c!"BEGIN:" ++ N ++ c!"\r\n" ++ ((lines.map Line.str).flatten ++ (Tree.strs parts ++ x))) (he : Stub e)
    (hne : d ++ e ≠ c!"BEGIN:" ++ N ++ c!"\r\n" ++ ((lines.map Line.str).flatten ++ (Tree.strs parts ++ x))) (r : Str) (v : γ) :
    mapRes (delimited (tag (c!"BEGIN:" ++ N ++ c!"\r\n")) (pair contentLines (many0 q)) (tag x)) f (d ++ e) ≠ .ok r v := by
  intro hv
  obtain ⟨hx1, hx2, y, hx3⟩ := end_last hN hx
  obtain ⟨body, ls, r1, b, hb, h1, h2, -⟩ := block_ok.1 hv
  have hm := many0_ok.1 h2
  have hdel : IsDelim r1 := many_delim (fun i r a h => ho.prefix h) hm (hx1.trans (List.prefix_append _ _))
  obtain ⟨-, d1, rfl, rfl, hd1⟩ := open_name hN hN hd he hb h1 hdel
  obtain ⟨d', rfl, rfl, hd'⟩ := open_cut h hx1 hx3 hd1 he h1 hdel
  refine parts_cut hq hw ho hx1 hx2 (good_parts h) hd' ?_ he ?_ hm (List.prefix_append _ _)
  · rintro rfl; exact hn rfl
  · intro h; apply hne; rw [← h]; simp

theorem mk_str (n : Str) (lines : List Line) (parts : List Tree) :
    (Tree.mk n lines parts).str = c!"BEGIN:" ++ n ++ c!"\r\n" ++ ((lines.map Line.str).flatten ++ (Tree.strs parts ++ (c!"END:" ++ n ++ c!"\r\n"))) := by
  simp [Tree.str]

theorem never_of {α γ : Type} {N : Str} {q : P α} {f : List ContentLine × List α → Res γ} (hN : IsToken N) (hq : Never q) (hw : Whole q) (ho : Opens c!"BEGIN:" q) :
    Never (mapRes (delimited (tag (c!"BEGIN:" ++ N ++ c!"\r\n")) (pair contentLines (many0 q)) (tag (c!"END:" ++ N ++ c!"\r\n"))) f) := by
  intro t ht d e h1 h2 h3 h4 r v hv
  obtain ⟨n, lines, parts⟩ := t
  rw [mk_str] at h1 h2 h4
  have hn : IsToken n := by cases ht with | mk h1 _ _ => exact h1
  obtain ⟨body, ls, r1, b, hb, g1, g2, -⟩ := block_ok.1 hv
  have hdel : IsDelim r1 := many_delim (fun i r a h => ho.prefix h) (many0_ok.1 g2) ((end_last hN (.inr rfl)).1.trans (List.prefix_append _ _))
  obtain ⟨rfl, -⟩ := open_name hn hN h1 h3 hb g1 hdel
  exact block_never hN (.inr rfl) hq hw ho ht h1 h2 h3 h4 r v hv

theorem componentP_never {α : Type} (name : Str) (hN : IsToken name) (conv : List ContentLine → Res α) : Never (componentP name conv) := by
  intro t ht d e h1 h2 h3 h4 r v hv
  obtain ⟨n, lines, parts⟩ := t
  rw [mk_str] at h1 h2 h4
  have hn : IsToken n := by cases ht with | mk h1 _ _ => exact h1
  obtain ⟨hx1, hx2, y, hx3⟩ := end_last hN (.inr rfl)
  obtain ⟨body, ls, hb, g1, -⟩ := componentP_ok.1 hv
  have hdel : IsDelim (c!"END:" ++ name ++ c!"\r\n" ++ r) := .inr (hx1.trans (List.prefix_append _ _))
  obtain ⟨rfl, d1, rfl, rfl, hd1⟩ := open_name hn hN h1 h3 hb g1 hdel
  obtain ⟨d', rfl, e1, hd'⟩ := open_cut ht hx1 hx3 hd1 h3 g1 hdel
  have he : c!"END:" ++ n ++ c!"\r\n" <+: d' ++ e := ⟨r, e1⟩
  cases parts with
  | nil =>
    simp only [Tree.strs, List.nil_append] at hd' h2 h4
    refine h4 ?_
    rw [← tag_cut hd' (by rintro rfl; exact h2 rfl) h3 he hx2]
    simp
  | cons t ts =>
    obtain ⟨m, ms, us⟩ := t
    refine not_end_stub h3 hd' (not_end_begin ⟨_, by simp only [Tree.strs, Tree.str, List.append_assoc]; rfl⟩) (hx1.trans he)

theorem valarm_never : Never valarm := componentP_never _ ⟨by decide, by unfold TokenChar; decide⟩ _
theorem vtodo_never : Never vtodo := componentP_never _ ⟨by decide, by unfold TokenChar; decide⟩ _
theorem vjournal_never : Never vjournal := componentP_never _ ⟨by decide, by unfold TokenChar; decide⟩ _
theorem vfreebusy_never : Never vfreebusy := componentP_never _ ⟨by decide, by unfold TokenChar; decide⟩ _
theorem standard_never : Never standard := componentP_never _ ⟨by decide, by unfold TokenChar; decide⟩ _
theorem daylight_never : Never daylight := componentP_never _ ⟨by decide, by unfold TokenChar; decide⟩ _

theorem valarm_whole : Whole valarm := fun t ht x r a h => by
  rw [valarm_ok, full_alarm, alarm_tree ht] at h; exact h.2

theorem tzPart_whole : Whole (Nom.alt (Nom.map standard TzPart.standard) (Nom.map daylight TzPart.daylight)) := fun t ht x r a h => by
  simp only [alt_ok, map_ok] at h
  rcases h with ⟨b, h, -⟩ | ⟨-, b, h, -⟩
  · rw [standard_ok, full_standard, standard_tree ht] at h; exact h.2
  · rw [daylight_ok, full_daylight, daylight_tree ht] at h; exact h.2

theorem component_whole : Whole component := fun t ht x r a h => by
  rw [component_ok, full_component, component_tree ht] at h; exact h.2

theorem vevent_never : Never vevent := never_of (N := c!"VEVENT") ⟨by decide, by unfold TokenChar; decide⟩ valarm_never valarm_whole valarm_part.opens

theorem vtimezone_never : Never vtimezone :=
  never_of (N := c!"VTIMEZONE") ⟨by decide, by unfold TokenChar; decide⟩ (.alt (standard_never.map _) (daylight_never.map _)) tzPart_whole tzPart_part.opens

theorem component_never : Never component := by
  unfold component
  exact .alt (valarm_never.map _) (.alt (vevent_never.map _) (.alt (vfreebusy_never.map _) (.alt (vjournal_never.map _)
    (.alt (vtimezone_never.map _) (vtodo_never.map _)))))

/-- A calendar: it is read without the last line break. -/
theorem vcalendar_never {t : Tree} (ht : t.Good) {s0 : Str} (hs : t.str = s0 ++ c!"\r\n") {d e : Str} (h1 : d <+: s0) (h2 : d ≠ s0) (h3 : Stub e) (h4 : d ++ e ≠ s0)
    (r : Str) (v : VCalendar) : vcalendar (d ++ e) ≠ .ok r v := by
  obtain ⟨n, lines, parts⟩ := t
  have hN : IsToken c!"VCALENDAR" := ⟨by decide, by unfold TokenChar; decide⟩
  have hn : IsToken n := by cases ht with | mk h1 _ _ => exact h1
  have e0 : s0 = c!"BEGIN:" ++ n ++ c!"\r\n" ++ ((lines.map Line.str).flatten ++ (Tree.strs parts ++ (c!"END:" ++ n))) := by
    refine List.append_cancel_right (bs := c!"\r\n") ?_
    rw [← hs, mk_str]; simp
  subst e0
  intro hv
  have hv' := hv
  unfold vcalendar components at hv
  obtain ⟨body, ls, r1, b, hb, g1, g2, -⟩ := block_ok.1 hv
  have hdel : IsDelim r1 := many_delim (fun i r a h => component_part.opens.prefix h) (many0_ok.1 g2) ⟨c!"VCALENDAR" ++ r, by simp⟩
  obtain ⟨rfl, -⟩ := open_name hn hN h1 h3 hb g1 hdel
  exact block_never hN (.inl rfl) component_never component_whole component_part.opens ht h1 (fun h => h2 h) h3 (fun h => h4 h) r v hv

/-- A text of a component that is cut. -/
theorem never_read {α : Type} {p : P α} (hp : Never p) {t : Tree} (ht : t.Good) {s q s0 : Str} {y : Char} (hs : unfold s = t.str) (hy1 : y ≠ '\r') (hy2 : y ≠ '\n') (hy3 : y ≠ ' ')
    (he : s = s0 ++ [y, '\r', '\n']) (hq : q <+: s) (hne : q ≠ s) (v : α) : componentOfStr p q ≠ .ok v := by
  obtain ⟨d, e, h1, h2, h3, h4, h5⟩ := cut_split hy1 hy2 hy3 (.inr he) hq hne
  rw [hs] at h2 h3 h5
  intro hv
  unfold componentOfStr at hv
  rw [h1] at hv
  cases hr : p (d ++ e) with
  | ok r a => exact hp t ht d e h2 h3 h4 h5 r a hr
  | err => rw [hr] at hv; cases hv
  | panic => rw [hr] at hv; cases hv

end Torn

end Ikal
