import Verif.Lemmas.Component
import Verif.Spec.Torn
import Verif.Props.Component
import Verif.Props.Panic

/-! # Texts cut short: lemmas -/

set_option linter.unusedSectionVars false

namespace Ikal

open Nom Spec

namespace Torn

/-- What can be left of a line fold that was cut. -/
def Stub (e : Str) : Prop := e = [] ∨ e = c!"\r" ∨ e = c!"\r\n"

theorem Stub.quote {e : Str} (h : Stub e) : '"' ∉ e := by rcases h with rfl | rfl | rfl <;> decide

/-- The first line of `j` is read alike in every text that `j` begins with, if a line can be read from that at all. -/
def Steady (j : Str) : Prop := ∀ t x r l, j = t ++ x → contentLine t = .ok r l → contentLine j = .ok (r ++ x) l

/-- That at the beginning of each line. -/
def SteadyAll (u : Str) : Prop := ∀ a j, u = a ++ j → a = [] ∨ a.getLast? = some '\n' → Steady j

theorem SteadyAll.here {u : Str} (h : SteadyAll u) : Steady u := h [] u rfl (.inl rfl)

theorem SteadyAll.tail {a u : Str} (h : SteadyAll (a ++ u)) (ha : a.getLast? = some '\n') : SteadyAll u := by
  intro b j hj hb
  refine h (a ++ b) j (by rw [hj]; simp) (.inr ?_)
  rcases hb with rfl | hb
  · simpa using ha
  · rw [List.getLast?_append, hb]; rfl

theorem quoteLe_stub {d x e : Str} (h : Stub e) (hd : d <+: x) : QuoteLe (d ++ e) x := by
  intro hx
  rcases List.mem_append.1 hx with hx | hx
  · exact hd.subset hx
  · exact absurd hx h.quote

theorem line_last {t r : Str} {l : ContentLine} (h : LineText (t ++ r) r l) : t.getLast? = some '\n' := by
  obtain ⟨_, _, pt, ps, eol, e, _, _, _, _, he, _⟩ := h
  have : t = l.key ++ pt ++ c!":" ++ l.value ++ eol := List.append_cancel_right e
  rw [this]
  rcases he with rfl | rfl <;> rw [List.getLast?_append] <;> rfl

theorem line_shrinks {i r : Str} {l : ContentLine} (h : contentLine i = .ok r l) : r.length < i.length := by
  obtain ⟨t, ht, e, -⟩ := LineText.relocate (contentLine_ok.1 h) (r' := r) id
  rw [e]
  have := List.length_pos_iff.2 ht
  simp; omega

/-- A line read from a text with a stub after it leaves nothing, or could be read without it. -/
theorem line_stub {d e r : Str} {l : ContentLine} (he : Stub e) (h : contentLine (d ++ e) = .ok r l) :
    r = [] ∨ ∃ r', contentLine d = .ok r' l := by
  obtain ⟨t, ht, hi, -⟩ := LineText.relocate (contentLine_ok.1 h) (r' := r) id
  have hl : t.getLast? = some '\n' := line_last (hi ▸ contentLine_ok.1 h)
  rcases List.append_eq_append_iff.1 hi with ⟨a, h1, h2⟩ | ⟨a, h1, h2⟩
  · -- `t = d ++ a`, `e = a ++ r`
    cases a with
    | nil =>
      right
      refine ⟨[], ?_⟩
      simp at h1; subst h1
      obtain ⟨t', _, hi', hh⟩ := LineText.relocate (contentLine_ok.1 h) (r' := []) (fun h => by simp at h)
      have : t' = t := List.append_cancel_right (hi'.symm.trans hi)
      subst this
      exact contentLine_ok.2 (by simpa using hh)
    | cons b a =>
      left
      rcases he with rfl | rfl | rfl
      · simp at h2
      · simp at h2
        rw [h1, ← h2.1, h2.2.1] at hl; simp at hl
      · cases a with
        | nil => simp at h2; rw [h1, ← h2.1] at hl; simp at hl
        | cons c a => simp at h2; exact h2.2.2.2
  · right
    refine ⟨a, ?_⟩
    obtain ⟨t', _, hi', hh⟩ := LineText.relocate (contentLine_ok.1 h) (r' := a) (fun h => by rw [h2]; simp [h])
    have : t' = t := List.append_cancel_right (hi'.symm.trans hi)
    subst this
    rw [h1]
    exact contentLine_ok.2 hh

/-- A line that is cut is not read, or, with a stub for its end, nothing follows it. -/
theorem line_cut {t r d e : Str} {l : ContentLine} (h : contentLine (t ++ r) = .ok r l) (hs : Steady (t ++ r)) (hd : d <+: t) (hn : d ≠ t)
    (he : Stub e) : contentLine (d ++ e) = .err ∨ ∃ l', contentLine (d ++ e) = .ok [] l' := by
  cases hc : contentLine (d ++ e) with
  | err => exact .inl rfl
  | panic => exact absurd hc (contentLine_not_panic _)
  | ok r' l' =>
    right
    rcases line_stub he hc with rfl | ⟨r'', hc'⟩
    · exact ⟨l', rfl⟩
    · exfalso
      obtain ⟨x, rfl⟩ := hd
      have hx : x ≠ [] := by rintro rfl; simp at hn
      have := hs d (x ++ r) r'' l' (by simp) hc'
      rw [h] at this
      injection this with h1 h2
      have h3 := congrArg List.length h1
      have := List.length_pos_iff.2 hx
      simp at h3; omega

theorem not_begin_stub {d e t : Str} (he : Stub e) (hd : d <+: t) (ht : ¬ c!"BEGIN:" <+: t) : ¬ c!"BEGIN:" <+: d ++ e := by
  intro h
  rcases List.prefix_or_prefix_of_prefix h (List.prefix_append d e) with h' | ⟨x, hx⟩
  · exact ht (h'.trans hd)
  · have h2 : x <+: e := by
      rw [← hx] at h
      exact (List.prefix_append_right_inj _).1 h
    cases x with
    | nil => exact ht (by rw [← hx]; simpa using hd)
    | cons c x =>
      have hc : c ∈ c!"BEGIN:" := by rw [← hx]; simp
      have hc' : c ∈ e := h2.subset (by simp)
      rcases he with rfl | rfl | rfl
      · simp at hc'
      · simp at hc'; subst hc'; revert hc; decide
      · simp at hc'; rcases hc' with rfl | rfl <;> revert hc <;> decide

theorem not_end_stub {d e t : Str} (he : Stub e) (hd : d <+: t) (ht : ¬ c!"END:" <+: t) : ¬ c!"END:" <+: d ++ e := by
  intro h
  rcases List.prefix_or_prefix_of_prefix h (List.prefix_append d e) with h' | ⟨x, hx⟩
  · exact ht (h'.trans hd)
  · have h2 : x <+: e := by
      rw [← hx] at h
      exact (List.prefix_append_right_inj _).1 h
    cases x with
    | nil => exact ht (by rw [← hx]; simpa using hd)
    | cons c x =>
      have hc : c ∈ c!"END:" := by rw [← hx]; simp
      have hc' : c ∈ e := h2.subset (by simp)
      rcases he with rfl | rfl | rfl
      · simp at hc'
      · simp at hc'; subst hc'; revert hc; decide
      · simp at hc'; rcases hc' with rfl | rfl <;> revert hc <;> decide

/-- No line is read from what is left of a delimiter. -/
theorem delim_cut {d e R : Str} (hR : IsDelim R) (hd : d <+: R) (he : Stub e) : contentLine (d ++ e) = .err := by
  have short (o : Str) (ho : o <+: R) (hk : ∀ d, d <+: o → d ≠ o → contentLine d = .err ∧ contentLine (d ++ c!"\r") = .err ∧ contentLine (d ++ c!"\r\n") = .err)
      (hb : ∀ i, o <+: i → contentLine i = .err) : contentLine (d ++ e) = .err := by
    rcases List.prefix_or_prefix_of_prefix ho hd with h | h
    · exact hb _ (h.trans (List.prefix_append d e))
    · by_cases hne : d = o
      · exact hb _ (hne ▸ List.prefix_append d e)
      · obtain ⟨h1, h2, h3⟩ := hk d h hne
        rcases he with rfl | rfl | rfl
        · simpa using h1
        · exact h2
        · exact h3
  have nope {i : Str} (h : ∀ r l, ¬ LineText i r l) : contentLine i = .err := by
    cases hc : contentLine i with
    | err => rfl
    | panic => exact absurd hc (contentLine_not_panic _)
    | ok r l => exact absurd (contentLine_ok.1 hc) (h r l)
  rcases hR with hR | hR
  · refine short _ hR ?_ fun i hi => nope fun r l h => h.1 hi
    intro d hd hne
    have key : ∀ n < 6, contentLine ((c!"BEGIN:").take n) = .err ∧ contentLine ((c!"BEGIN:").take n ++ c!"\r") = .err ∧
        contentLine ((c!"BEGIN:").take n ++ c!"\r\n") = .err := by
      decide +kernel
    have hl : d.length < 6 := by
      have h1 := hd.length_le
      refine Nat.lt_of_le_of_ne h1 fun h => hne (hd.eq_of_length h)
    have := key d.length hl
    rwa [← List.prefix_iff_eq_take.1 hd] at this
  · refine short _ hR ?_ fun i hi => nope fun r l h => h.2.1 hi
    intro d hd hne
    have key : ∀ n < 4, contentLine ((c!"END:").take n) = .err ∧ contentLine ((c!"END:").take n ++ c!"\r") = .err ∧
        contentLine ((c!"END:").take n ++ c!"\r\n") = .err := by
      decide +kernel
    have hl : d.length < 4 := by
      have h1 := hd.length_le
      refine Nat.lt_of_le_of_ne h1 fun h => hne (hd.eq_of_length h)
    have := key d.length hl
    rwa [← List.prefix_iff_eq_take.1 hd] at this

theorem prefix_split {d a b : Str} (h : d <+: a ++ b) : (d <+: a ∧ d ≠ a) ∨ ∃ d', d = a ++ d' ∧ d' <+: b := by
  rcases List.prefix_or_prefix_of_prefix h (List.prefix_append a b) with h' | ⟨x, rfl⟩
  · by_cases hn : d = a
    · exact .inr ⟨[], by simp [hn], List.nil_prefix⟩
    · exact .inl ⟨h', hn⟩
  · exact .inr ⟨x, rfl, (List.prefix_append_right_inj _).1 h⟩

theorem line_nil : contentLine [] = .err := by decide +kernel

/-- What reading lines comes to in a text that is cut: the lines were read, or what is left does not begin with a delimiter. -/
theorem lines_cut {T R : Str} {ls : List ContentLine} (h : LinesBefore T ls R) (hR : IsDelim R) (hs : SteadyAll (T ++ R)) {d e : Str} (hd : d <+: T ++ R)
    (he : Stub e) : (∃ d', d = T ++ d' ∧ d' <+: R ∧ contentLines (d ++ e) = .ok (d' ++ e) ls) ∨
      ∃ rest ls', contentLines (d ++ e) = .ok rest ls' ∧ ¬ c!"BEGIN:" <+: rest ∧ ¬ c!"END:" <+: rest := by
  unfold contentLines
  simp only [many0_ok]
  induction h generalizing d with
  | nil => exact .inl ⟨d, rfl, hd, .nil (delim_cut hR hd he)⟩
  | @cons t ts R l ls h1 h2 ih =>
    rw [List.append_assoc] at hd hs
    have hl := line_last h1
    have h1' := contentLine_ok.2 h1
    rcases prefix_split hd with ⟨hd', hn⟩ | ⟨d1, rfl, hd1⟩
    · right
      have hb : ¬ c!"BEGIN:" <+: t := fun h => h1.1 (h.trans (List.prefix_append _ _))
      have hen : ¬ c!"END:" <+: t := fun h => h1.2.1 (h.trans (List.prefix_append _ _))
      rcases line_cut h1' hs.here hd' hn he with hc | ⟨l', hc⟩
      · exact ⟨d ++ e, [], .nil hc, not_begin_stub he hd' hb, not_end_stub he hd' hen⟩
      · refine ⟨[], [l'], .cons hc ?_ (.nil line_nil), by decide, by decide⟩
        have := line_shrinks hc
        simpa using this
    · have hr : contentLine (t ++ d1 ++ e) = .ok (d1 ++ e) l := by
        obtain ⟨t', _, a1, a2⟩ := LineText.relocate h1 (quoteLe_stub he hd1)
        rw [← List.append_cancel_right a1] at a2
        rw [List.append_assoc]
        exact contentLine_ok.2 a2
      rcases ih hR (hs.tail hl) hd1 with ⟨d', e1, e2, e3⟩ | ⟨rest, ls', e1, e2, e3⟩
      · exact .inl ⟨d', by rw [e1]; simp, e2, .cons hr (line_shrinks hr) e3⟩
      · exact .inr ⟨rest, l :: ls', .cons hr (line_shrinks hr) e1, e2, e3⟩

/-! ## Components -/

/-- The component cannot be read from its text cut short. -/
def Cut {α : Type} (p : P α) : Prop :=
  ∀ c r v, p (c ++ r) = .ok r v → SteadyAll (c ++ r) → ∀ d e, d <+: c → d ≠ c → Stub e → d ++ e ≠ c → p (d ++ e) = .err

theorem Cut.map {α β : Type} {p : P α} (h : Cut p) (f : α → β) : Cut (Nom.map p f) := by
  intro c r v hv hs d e h1 h2 h3 h4
  obtain ⟨a, ha, -⟩ := map_ok.1 hv
  exact map_err.2 (h c r a ha hs d e h1 h2 h3 h4)

/-- A tag that is cut is not there, unless a stub completes it. -/
theorem tag_cut {o d e : Str} (hd : d <+: o) (hn : d ≠ o) (he : Stub e) (h : o <+: d ++ e) (ho : o.getLast? ≠ some '\r') : d ++ e = o := by
  obtain ⟨x, rfl⟩ := hd
  have hx : x ≠ [] := by rintro rfl; simp at hn
  have h := (List.prefix_append_right_inj _).1 h
  rcases he with rfl | rfl | rfl
  · simp at h; exact absurd h hx
  · have : x = c!"\r" := by
      cases x with
      | nil => exact absurd rfl hx
      | cons a x => obtain ⟨y, hy⟩ := h; simp at hy; simp [hy.1, hy.2.1]
    subst this; simp at ho
  · have : x = c!"\r\n" := by
      cases x with
      | nil => exact absurd rfl hx
      | cons a x =>
        cases x with
        | nil => obtain ⟨y, hy⟩ := h; simp at hy; rw [hy.1] at ho; simp at ho
        | cons b x => obtain ⟨y, hy⟩ := h; simp at hy; simp [hy.1, hy.2.1, hy.2.2.1]
    rw [this]

/-- The frame of a component: what is not framed to the end is refused. -/
theorem delimited_err {α β γ : Type} {o : Str} {q : P α} {x : Str} {f : α → Res γ} {i : Str}
    (h : ∀ b, i = o ++ b → ∃ r a, q b = .ok r a ∧ ¬ x <+: r) : mapRes (delimited (tag o) q (tag x)) f i = .err := by
  by_cases ho : o <+: i
  · obtain ⟨b, rfl⟩ := ho
    obtain ⟨r, a, h1, h2⟩ := h b rfl
    have e1 : tag o (o ++ b) = .ok b o := tag_ok.2 ⟨rfl, rfl⟩
    have e2 : tag x r = .err := tag_err.2 h2
    simp [mapRes, delimited, preceded, terminated, Nom.map, pair, e1, e2, h1]
  · have h1 : tag o i = .err := tag_err.2 ho
    simp [mapRes, delimited, preceded, Nom.map, pair, h1]

/-- The component ends with a line break. -/
def EndsLine {α : Type} (p : P α) : Prop := ∀ c r a, p (c ++ r) = .ok r a → c.getLast? = some '\n'

theorem EndsLine.map {α β : Type} {p : P α} (h : EndsLine p) (f : α → β) : EndsLine (Nom.map p f) := by
  intro c r v hv
  obtain ⟨a, ha, -⟩ := map_ok.1 hv
  exact h c r a ha

/-- What components inside a component are like. -/
structure Part {α : Type} (q : P α) : Prop where
  isLocal : Local q
  opens : Opens c!"BEGIN:" q
  ends : EndsLine q
  cut : Cut q

theorem Part.map {α β : Type} {p : P α} (h : Part p) (f : α → β) : Part (Nom.map p f) := ⟨h.isLocal.map f, h.opens.map f, h.ends.map f, h.cut.map f⟩

theorem not_begin_end {i : Str} (h : c!"END:" <+: i) : ¬ c!"BEGIN:" <+: i := not_both_prefix (by decide) (by decide) h
theorem not_end_begin {i : Str} (h : c!"BEGIN:" <+: i) : ¬ c!"END:" <+: i := not_both_prefix (by decide) (by decide) h

/-- What reading components comes to in a text that is cut: the closing tag is not there. -/
theorem many_cut {α : Type} {q : P α} (hq : Part q) {x : Str} (hx : c!"END:" <+: x) (hx' : x.getLast? ≠ some '\r') {i r z : Str} {as : List α} (h : Many q i as z)
    (hz : z = x ++ r) {C : Str} (hi : i = C ++ x ++ r) (hs : SteadyAll i) {d e : Str} (hd : d <+: C ++ x) (hn : d ≠ C ++ x) (he : Stub e) (hne : d ++ e ≠ C ++ x) :
    ∃ rest as', Many q (d ++ e) as' rest ∧ ¬ x <+: rest := by
  induction h generalizing C d with
  | @nil i h0 =>
    have : C = [] := by
      rw [hz] at hi
      have := congrArg List.length hi
      cases C with
      | nil => rfl
      | cons => simp at this; omega
    subst this
    simp only [List.nil_append] at hd hn hne
    refine ⟨d ++ e, [], .nil (hq.opens _ (not_begin_stub he hd ?_)), fun h => hne (tag_cut hd hn he h hx')⟩
    exact not_begin_end hx
  | @cons i r1 r' a as h1 h2 h3 ih =>
    obtain ⟨c, hc, _, e1, hl⟩ := hq.isLocal _ _ _ h1
    obtain ⟨c', e2⟩ : ∃ c', r1 = c' ++ r' := by
      have : ∀ {i r as}, Many q i as r → ∃ c', i = c' ++ r := by
        intro i r as h
        induction h with
        | nil _ => exact ⟨[], rfl⟩
        | cons h1 _ _ ih =>
          obtain ⟨c', rfl⟩ := ih
          obtain ⟨c, _, _, e, _⟩ := hq.isLocal _ _ _ h1
          exact ⟨c ++ c', by rw [e]; simp⟩
      exact this h3
    have hC : C = c ++ c' := by
      have : C ++ (x ++ r) = c ++ c' ++ (x ++ r) := by
        rw [← List.append_assoc, ← hi, e1, e2, hz]; simp
      exact List.append_cancel_right this
    subst hC
    have hb : c!"BEGIN:" <+: c ++ r1 := e1 ▸ hq.opens.prefix h1
    rw [e1] at hs h1
    have hs' := hs.tail (hq.ends _ _ _ h1)
    rw [List.append_assoc] at hd hn hne
    rcases prefix_split hd with ⟨hd', hn'⟩ | ⟨d1, rfl, hd1⟩
    · by_cases hde : d ++ e = c
      · rw [hde]
        refine ⟨[], [a], .cons (r := []) ?_ ?_ (.nil (hq.opens _ (by decide))), ?_⟩
        · have := hl [] (fun h => by simp at h)
          simpa using this
        · simpa using List.length_pos_iff.2 hc
        · intro h
          have := hx.trans h
          revert this; decide
      · refine ⟨d ++ e, [], .nil (hq.cut _ _ _ h1 hs d e hd' hn' he hde), fun h => ?_⟩
        exact not_end_stub he (hd'.trans (List.prefix_append c r1)) (not_end_begin hb) (hx.trans h)
    · have hd2 : d1 <+: r1 := by
        rw [e2, hz]
        obtain ⟨y, hy⟩ := hd1
        exact ⟨y ++ r, by rw [← List.append_assoc, hy]; simp⟩
      obtain ⟨rest, as', g1, g2⟩ := ih hz (C := c') (by rw [e2, hz]; simp) hs' hd1 (by rintro rfl; exact hn rfl)
        (by intro h; apply hne; rw [← h]; simp)
      refine ⟨rest, a :: as', ?_, g2⟩
      rw [List.append_assoc]
      refine .cons (hl (d1 ++ e) (quoteLe_stub he hd2)) ?_ g1
      have := List.length_pos_iff.2 hc
      simp; omega

theorem block_cut {α γ : Type} {n e' : Str} {q : P α} {f : List ContentLine × List α → Res γ} (hq : Part q)
    (hn : (c!"BEGIN:" ++ n).getLast? = some '\n') (he' : (c!"END:" ++ e').getLast? ≠ some '\r') :
    Cut (mapRes (delimited (tag (c!"BEGIN:" ++ n)) (pair contentLines (many0 q)) (tag (c!"END:" ++ e'))) f) := by
  intro c r v h hs d e hd hdn he hde
  obtain ⟨body, ls, r1, b, hb, h1, h2, -⟩ := block_ok.1 h
  obtain ⟨T, rfl, ht⟩ := linesBefore_of_linesText h1
  have hm := many0_ok.1 h2
  obtain ⟨C, hC, -⟩ := Many.relocate hq.isLocal (fun i hi => hq.opens i (not_begin_end hi)) hm
  have hc : c = (c!"BEGIN:" ++ n) ++ (T ++ (C ++ (c!"END:" ++ e'))) := by
    refine List.append_cancel_right (bs := r) ?_
    rw [hb, hC]; simp
  have hdel : IsDelim r1 := many_delim (fun i r a h => hq.opens.prefix h) hm ⟨e' ++ r, by simp⟩
  generalize hxx : c!"END:" ++ e' = x at *
  generalize hoo : c!"BEGIN:" ++ n = o at *
  have hx : c!"END:" <+: x := ⟨e', hxx⟩
  subst hc
  have hsT : SteadyAll (T ++ r1) := by
    have e0 : o ++ (T ++ (C ++ x)) ++ r = o ++ (T ++ r1) := by rw [hC]; simp
    rw [e0] at hs
    exact hs.tail hn
  have hsr : SteadyAll r1 := by
    by_cases hT : T = []
    · subst hT; exact hsT
    · refine hsT.tail ?_
      have : ∀ {T ls R}, LinesBefore T ls R → T ≠ [] → T.getLast? = some '\n' := by
        intro T ls R h
        induction h with
        | nil => intro h; exact absurd rfl h
        | @cons t ts R l ls h1 h2 ih =>
          intro _
          rw [List.getLast?_append]
          cases ts with
          | nil => simpa using line_last h1
          | cons a ts => rw [ih (by simp)]; rfl
      exact this ht hT
  refine delimited_err (β := List α) fun b0 hb0 => ?_
  rcases prefix_split hd with ⟨hd', hn'⟩ | ⟨d1, rfl, hd1⟩
  · have : d ++ e = o := tag_cut hd' hn' he (hb0 ▸ List.prefix_append _ _) (by rw [hn]; decide)
    rw [this] at hb0
    have : b0 = [] := by simpa using hb0
    subst this
    have e1 : contentLines [] = .ok [] [] := many0_ok.2 (.nil line_nil)
    have e2 : many0 q [] = .ok [] [] := many0_ok.2 (.nil (hq.opens _ (by decide)))
    refine ⟨[], ([], []), by simp [pair, e1, e2], fun h => ?_⟩
    have := hx.trans h
    revert this; decide
  · have hb1 : b0 = d1 ++ e := by
      rw [List.append_assoc] at hb0
      exact (List.append_cancel_left hb0).symm
    subst hb1
    have hd2 : d1 <+: T ++ r1 := by
      obtain ⟨y, hy⟩ := hd1
      exact ⟨y ++ r, by rw [← List.append_assoc, hy, hC]; simp⟩
    rcases lines_cut ht hdel hsT hd2 he with ⟨d', e1, e2, e3⟩ | ⟨rest, ls', e1, e2, e3⟩
    · subst e1
      have hd3 := (List.prefix_append_right_inj _).1 hd1
      obtain ⟨rest, as', g1, g2⟩ := many_cut hq hx he' hm rfl (C := C) (by rw [hC]; simp) hsr hd3 (by rintro rfl; exact hdn rfl) he
        (by intro h; apply hde; rw [← h]; simp)
      exact ⟨rest, (ls, as'), pair_ok.2 ⟨_, e3, many0_ok.2 g1⟩, g2⟩
    · have e4 : many0 q rest = .ok rest [] := many0_ok.2 (.nil (hq.opens _ e2))
      exact ⟨rest, (ls', []), by simp [pair, e1, e4], fun h => e3 (hx.trans h)⟩

theorem block_endsLine {α γ : Type} {n e' : Str} {q : P α} {f : List ContentLine × List α → Res γ} (hq : Part q) (he' : (c!"END:" ++ e').getLast? = some '\n') :
    EndsLine (mapRes (delimited (tag (c!"BEGIN:" ++ n)) (pair contentLines (many0 q)) (tag (c!"END:" ++ e'))) f) := by
  intro c r v h
  obtain ⟨body, ls, r1, b, hb, h1, h2, -⟩ := block_ok.1 h
  obtain ⟨T, rfl, ht⟩ := linesBefore_of_linesText h1
  obtain ⟨C, hC, -⟩ := Many.relocate hq.isLocal (fun i hi => hq.opens i (not_begin_end hi)) (many0_ok.1 h2)
  have hc : c = ((c!"BEGIN:" ++ n) ++ (T ++ C)) ++ (c!"END:" ++ e') := by
    refine List.append_cancel_right (bs := r) ?_
    rw [hb, hC]; simp
  rw [hc, List.getLast?_append, he']; rfl

theorem componentP_part {α : Type} (name : Str) (conv : List ContentLine → Res α) : Part (componentP name conv) := by
  have last (w : Str) : (w ++ (c!"END:" ++ name ++ c!"\r\n")).getLast? = some '\n' := by
    rw [← List.append_assoc, List.getLast?_append]; rfl
  have form {c r : Str} {v : α} (h : componentP name conv (c ++ r) = .ok r v) :
      ∃ T ls, c = c!"BEGIN:" ++ name ++ c!"\r\n" ++ (T ++ (c!"END:" ++ name ++ c!"\r\n")) ∧ LinesBefore T ls (c!"END:" ++ name ++ c!"\r\n" ++ r) := by
    obtain ⟨body, ls, hb, h1, -⟩ := componentP_ok.1 h
    obtain ⟨T, rfl, ht⟩ := linesBefore_of_linesText h1
    refine ⟨T, ls, ?_, ht⟩
    refine List.append_cancel_right (bs := r) ?_
    rw [hb]; simp
  refine ⟨componentP_local _ _, fun i hi => opens_componentP name conv i fun h => hi ?_, ?_, ?_⟩
  · exact List.IsPrefix.trans ⟨name ++ c!"\r\n", by simp⟩ h
  · intro c r v h
    obtain ⟨T, ls, hc, -⟩ := form h
    rw [hc, ← List.append_assoc]
    exact last _
  · intro c r v h hs d e hd hdn he hde
    obtain ⟨T, ls, rfl, ht⟩ := form h
    have ho : (c!"BEGIN:" ++ name ++ c!"\r\n").getLast? = some '\n' := by rw [List.getLast?_append]; rfl
    have hx' := last []
    simp only [List.nil_append] at hx'
    have hx : c!"END:" <+: c!"END:" ++ name ++ c!"\r\n" := ⟨name ++ c!"\r\n", by simp⟩
    unfold componentP
    generalize c!"END:" ++ name ++ c!"\r\n" = x at *
    generalize c!"BEGIN:" ++ name ++ c!"\r\n" = o at *
    have hsT : SteadyAll (T ++ (x ++ r)) := by
      have e0 : o ++ (T ++ x) ++ r = o ++ (T ++ (x ++ r)) := by simp
      rw [e0] at hs
      exact hs.tail ho
    refine delimited_err (β := α) fun b0 hb0 => ?_
    rcases prefix_split hd with ⟨hd', hn'⟩ | ⟨d1, rfl, hd1⟩
    · have : d ++ e = o := tag_cut hd' hn' he (hb0 ▸ List.prefix_append _ _) (by rw [ho]; decide)
      rw [this] at hb0
      have : b0 = [] := by simpa using hb0
      subst this
      refine ⟨[], [], many0_ok.2 (.nil line_nil), fun h => ?_⟩
      have := hx.trans h
      revert this; decide
    · have hb1 : b0 = d1 ++ e := by
        rw [List.append_assoc] at hb0
        exact (List.append_cancel_left hb0).symm
      subst hb1
      have hd2 : d1 <+: T ++ (x ++ r) := by
        obtain ⟨y, hy⟩ := hd1
        exact ⟨y ++ r, by rw [← List.append_assoc, hy]; simp⟩
      rcases lines_cut ht (.inr (hx.trans (List.prefix_append _ _))) hsT hd2 he with ⟨d', e1, e2, e3⟩ | ⟨rest, ls', e1, e2, e3⟩
      · subst e1
        have hd3 := (List.prefix_append_right_inj _).1 hd1
        refine ⟨d' ++ e, ls, e3, fun h => hde ?_⟩
        have := tag_cut hd3 (by rintro rfl; exact hdn rfl) he h (by rw [hx']; decide)
        rw [← this]; simp
      · exact ⟨rest, ls', e1, fun h => e3 (hx.trans h)⟩

/-- `p` reads nothing when the text does not begin with one of the tags. -/
def OpensAny {α : Type} (os : List Str) (p : P α) : Prop := ∀ i, (∀ o ∈ os, ¬ o <+: i) → p i = .err

theorem OpensAny.of {α : Type} {o : Str} {p : P α} (h : Opens o p) : OpensAny [o] p := fun i hi => h i (hi o (by simp))

theorem OpensAny.prefix {α : Type} {os : List Str} {p : P α} (h : OpensAny os p) {i r : Str} {a : α} (ha : p i = .ok r a) : ∃ o ∈ os, o <+: i :=
  Classical.byContradiction fun hx => by
    rw [h i (fun o ho hi => hx ⟨o, ho, hi⟩)] at ha; cases ha

theorem OpensAny.alt {α : Type} {os os' : List Str} {p q : P α} (hp : OpensAny os p) (hq : OpensAny os' q) : OpensAny (os ++ os') (Nom.alt p q) := by
  intro i hi
  have h1 := hp i fun o ho => hi o (by simp [ho])
  have h2 := hq i fun o ho => hi o (by simp [ho])
  simp [Nom.alt, h1, h2]

/-- No text that begins with `a` begins, cut short, with `b`. -/
def Apart (a b : Str) : Prop :=
  ¬ a <+: b ∧ ∀ n < a.length + 1, ¬ b <+: a.take n ∧ ¬ b <+: a.take n ++ c!"\r" ∧ ¬ b <+: a.take n ++ c!"\r\n"

instance (a b : Str) : Decidable (Apart a b) := by unfold Apart; infer_instance

theorem Apart.cut {a b c d e : Str} (h : Apart a b) (hc : a <+: c) (hd : d <+: c) (he : Stub e) : ¬ b <+: d ++ e := by
  intro hb
  rcases List.prefix_or_prefix_of_prefix hd hc with hda | had
  · obtain ⟨h1, h2, h3⟩ := h.2 d.length (Nat.lt_succ_of_le hda.length_le)
    rw [← List.prefix_iff_eq_take.1 hda] at h1 h2 h3
    rcases he with rfl | rfl | rfl
    · exact h1 (by simpa using hb)
    · exact h2 hb
    · exact h3 hb
  · rcases List.prefix_or_prefix_of_prefix hb (had.trans (List.prefix_append d e)) with hba | hab
    · have := (h.2 a.length (Nat.lt_succ_self _)).1
      rw [List.take_length] at this
      exact this hba
    · exact h.1 hab

/-- One of two kinds of components. -/
theorem Part.alt {α : Type} {p q : P α} {as bs : List Str} (hp : Part p) (hq : Part q) (ha : OpensAny as p) (hb : OpensAny bs q)
    (h : ∀ a ∈ as, ∀ b ∈ bs, Apart a b ∧ Apart b a) : Part (Nom.alt p q) := by
  have excl : ∀ i r a, q i = .ok r a → p i = .err := by
    intro i r v hv
    obtain ⟨b, hbm, hbi⟩ := hb.prefix hv
    refine ha i fun a ham hai => ?_
    have := (h a ham b hbm).2.cut hbi (List.prefix_refl i) (.inl rfl)
    rw [List.append_nil] at this
    exact this hai
  refine ⟨alt_local hp.isLocal hq.isLocal excl, fun i hi => ?_, ?_, ?_⟩
  · simp [Nom.alt, hp.opens i hi, hq.opens i hi]
  · intro c r v hv
    rcases alt_ok.1 hv with hv | ⟨-, hv⟩
    · exact hp.ends _ _ _ hv
    · exact hq.ends _ _ _ hv
  · intro c r v hv hs d e hd hn he hne
    rcases alt_ok.1 hv with hv | ⟨-, hv⟩
    · obtain ⟨a, ham, hac⟩ := ha.prefix hv
      have e1 := hp.cut c r v hv hs d e hd hn he hne
      have e2 := hb (d ++ e) fun b hbm => (h a ham b hbm).1.cut hac (hd.trans (List.prefix_append _ _)) he
      simp [Nom.alt, e1, e2]
    · obtain ⟨b, hbm, hbc⟩ := hb.prefix hv
      have e1 := hq.cut c r v hv hs d e hd hn he hne
      have e2 := ha (d ++ e) fun a ham => (h a ham b hbm).2.cut hbc (hd.trans (List.prefix_append _ _)) he
      simp [Nom.alt, e1, e2]

section
variable [Platform]

theorem valarm_part : Part valarm := componentP_part _ _
theorem vtodo_part : Part vtodo := componentP_part _ _
theorem vjournal_part : Part vjournal := componentP_part _ _
theorem vfreebusy_part : Part vfreebusy := componentP_part _ _
theorem standard_part : Part standard := componentP_part _ _
theorem daylight_part : Part daylight := componentP_part _ _

theorem vevent_part : Part vevent :=
  ⟨vevent_local, fun i hi => vevent_opens i fun h => hi (List.IsPrefix.trans (by decide) h), block_endsLine (n := c!"VEVENT\r\n") (e' := c!"VEVENT\r\n") valarm_part (by decide),
    block_cut (n := c!"VEVENT\r\n") (e' := c!"VEVENT\r\n") valarm_part (by decide) (by decide)⟩

theorem tzPart_part : Part (Nom.alt (Nom.map standard TzPart.standard) (Nom.map daylight TzPart.daylight)) :=
  (standard_part.map _).alt (daylight_part.map _) (.of (standard_opens.map _)) (.of (daylight_opens.map _)) (by decide +kernel)

theorem vtimezone_part : Part vtimezone :=
  ⟨vtimezone_local, fun i hi => vtimezone_opens i fun h => hi (List.IsPrefix.trans (by decide) h),
    block_endsLine (n := c!"VTIMEZONE\r\n") (e' := c!"VTIMEZONE\r\n") tzPart_part (by decide),
    block_cut (n := c!"VTIMEZONE\r\n") (e' := c!"VTIMEZONE\r\n") tzPart_part (by decide) (by decide)⟩

theorem component_part : Part component := by
  have o1 : OpensAny _ (Nom.map valarm Component.alarm) := .of (valarm_opens.map _)
  have o2 : OpensAny _ (Nom.map vevent Component.event) := .of (vevent_opens.map _)
  have o3 : OpensAny _ (Nom.map vfreebusy Component.freebusy) := .of (vfreebusy_opens.map _)
  have o4 : OpensAny _ (Nom.map vjournal Component.journal) := .of (vjournal_opens.map _)
  have o5 : OpensAny _ (Nom.map vtimezone Component.timezone) := .of (vtimezone_opens.map _)
  have o6 : OpensAny _ (Nom.map vtodo Component.todo) := .of (vtodo_opens.map _)
  exact (valarm_part.map _).alt ((vevent_part.map _).alt ((vfreebusy_part.map _).alt ((vjournal_part.map _).alt ((vtimezone_part.map _).alt (vtodo_part.map _)
    o5 o6 (by decide +kernel)) o4 (o5.alt o6) (by decide +kernel)) o3 (o4.alt (o5.alt o6)) (by decide +kernel)) o2 (o3.alt (o4.alt (o5.alt o6))) (by decide +kernel))
    o1 (o2.alt (o3.alt (o4.alt (o5.alt o6)))) (by decide +kernel)

theorem vcalendar_cut : Cut vcalendar := block_cut (n := c!"VCALENDAR\r\n") (e' := c!"VCALENDAR") component_part (by decide) (by decide)

end

end Torn

end Ikal
