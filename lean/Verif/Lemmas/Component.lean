import Verif.Components
import Verif.Lemmas.Derive

/-! # Component texts -/

namespace Ikal

open Nom Spec

/-- `LinesBefore t ls rest`: followed by `rest`, the text `t` is the content lines `ls`. -/
inductive LinesBefore : Str → List ContentLine → Str → Prop
  | nil {rest : Str} : LinesBefore [] [] rest
  | cons {t ts rest : Str} {l : ContentLine} {ls : List ContentLine} :
      LineText (t ++ (ts ++ rest)) (ts ++ rest) l → LinesBefore ts ls rest → LinesBefore (t ++ ts) (l :: ls) rest

/-- `r'` can replace `r` as what follows: it brings no double quote. -/
def QuoteLe (r' r : Str) : Prop := '"' ∈ r' → '"' ∈ r

theorem QuoteLe.append {r' r : Str} (h : QuoteLe r' r) (a : Str) : QuoteLe (a ++ r') (a ++ r) := by
  intro hx
  rcases List.mem_append.1 hx with hx | hx
  · simp [hx]
  · simp [h hx]

theorem prefix_of_lf {p c r : Str} (h : p <+: c ++ r) (hc : '\n' ∈ c) (hp : '\n' ∉ p) : p <+: c := by
  rcases List.prefix_or_prefix_of_prefix h (List.prefix_append c r) with h | h
  · exact h
  · exact absurd (h.subset hc) hp

theorem ParamText.relocate {t k v r r' : Str} (h : ParamText t k v r) (hr : r'.head? = r.head?) (hq : QuoteLe r' r) :
    ParamText t k v r' := by
  cases h with
  | quoted h1 h2 => exact .quoted h1 h2
  | plain h1 h2 h3 h4 h5 h6 =>
    refine .plain h1 h2 h3 (by rw [hr]; exact h4) (fun w hw => ?_) h6
    exact fun hx => h5 w hw (hq.append w hx)
  | folded h1 h2 h3 h4 => exact .folded h1 h2 h3 (by rw [hr]; exact h4)

theorem ParamsText.relocate {t : Str} {ps : List (Str × Str)} {r r' : Str} (h : ParamsText t ps r) (hr : r'.head? = r.head?)
    (hq : QuoteLe r' r) : ParamsText t ps r' := by
  induction h with
  | nil => exact .nil
  | @cons t ts k v rest ps ht _ ih =>
    refine .cons (ParamText.relocate ht ?_ (hq.append ts)) (ih hr hq)
    cases ts with
    | nil => simpa using hr
    | cons => simp

/-- A content line is read the same whatever follows it, as long as that brings no double quote. -/
theorem LineText.relocate {i r r' : Str} {l : ContentLine} (h : LineText i r l) (hq : QuoteLe r' r) :
    ∃ t, t ≠ [] ∧ i = t ++ r ∧ LineText (t ++ r') r' l := by
  obtain ⟨h1, h2, pt, ps, eol, hi, hk, hp, hn, hr, he, hw, hg⟩ := h
  have hlf : '\n' ∈ l.key ++ pt ++ c!":" ++ l.value ++ eol := by rcases he with rfl | rfl <;> simp
  refine ⟨l.key ++ pt ++ c!":" ++ l.value ++ eol, by simp, hi, ?_, ?_, pt, ps, eol, rfl, hk, ?_, hn, hr, he, hw, hg⟩
  · intro h; exact h1 (by rw [hi]; exact (prefix_of_lf h hlf (by decide)).trans (List.prefix_append _ _))
  · intro h; exact h2 (by rw [hi]; exact (prefix_of_lf h hlf (by decide)).trans (List.prefix_append _ _))
  · refine ParamsText.relocate hp ?_ ?_
    · simp
    · exact hq.append _

theorem LinesBefore.relocate {t : Str} {ls : List ContentLine} {r r' : Str} (h : LinesBefore t ls r) (hq : QuoteLe r' r) :
    LinesBefore t ls r' := by
  induction h with
  | nil => exact .nil
  | @cons t ts rest l ls h1 _ ih =>
    obtain ⟨t', _, e, h2⟩ := LineText.relocate h1 (hq.append ts)
    have : t = t' := List.append_cancel_right e
    subst this
    exact .cons h2 (ih hq)

theorem linesBefore_of_linesText {i r : Str} {ls : List ContentLine} (h : LinesText i ls r) :
    ∃ t, i = t ++ r ∧ LinesBefore t ls r := by
  induction h with
  | nil _ => exact ⟨[], rfl, .nil⟩
  | @cons i r r' l ls h1 _ ih =>
    obtain ⟨ts, rfl, hts⟩ := ih
    obtain ⟨t, _, e, h2⟩ := LineText.relocate h1 (r' := ts ++ r') (fun h => h)
    exact ⟨t ++ ts, by rw [e]; simp, .cons h2 hts⟩

/-- What ends a block of lines. -/
def IsDelim (r : Str) : Prop := c!"BEGIN:" <+: r ∨ c!"END:" <+: r

theorem linesText_of_before {t r : Str} {ls : List ContentLine} (h : LinesBefore t ls r) (hr : IsDelim r) :
    LinesText (t ++ r) ls r := by
  induction h with
  | nil =>
    refine .nil fun r' l hl => ?_
    rcases hr with hr | hr
    · exact hl.1 hr
    · exact hl.2.1 hr
  | @cons t ts rest l ls h1 _ ih =>
    rw [List.append_assoc]
    exact .cons h1 (ih hr)

/-! ## Parsers that read the same whatever follows -/

/-- `p` reads the same whatever follows (without new double quotes), always consumes something and never ends
with a carriage return. -/
def Local {α : Type} (p : P α) : Prop :=
  ∀ i r a, p i = .ok r a → ∃ c, c ≠ [] ∧ c.getLast? ≠ some '\r' ∧ i = c ++ r ∧ ∀ r', QuoteLe r' r → p (c ++ r') = .ok r' a

/-- `p` fails at the end of a component. -/
def FailsAtEnd {α : Type} (p : P α) : Prop := ∀ i, c!"END:" <+: i → p i = .err

theorem Local.map {α β : Type} {p : P α} (h : Local p) (f : α → β) : Local (map p f) := by
  intro i r b hb
  obtain ⟨a, ha, rfl⟩ := map_ok.1 hb
  obtain ⟨c, h1, h2, h3, h4⟩ := h _ _ _ ha
  exact ⟨c, h1, h2, h3, fun r' hr => map_ok.2 ⟨a, h4 r' hr, rfl⟩⟩

theorem FailsAtEnd.map {α β : Type} {p : P α} (h : FailsAtEnd p) (f : α → β) : FailsAtEnd (map p f) :=
  fun i hi => map_err.2 (h i hi)

/-- What `many0 p` reads before the end of a component. -/
theorem Many.relocate {α : Type} {p : P α} (hp : Local p) (hf : FailsAtEnd p) {i r : Str} {as : List α} (h : Many p i as r) :
    ∃ c, i = c ++ r ∧ ∀ r', c!"END:" <+: r' → QuoteLe r' r → Many p (c ++ r') as r' := by
  induction h with
  | nil _ => exact ⟨[], rfl, fun r' h _ => .nil (hf _ h)⟩
  | @cons i r r' a as h1 _ _ ih =>
    obtain ⟨c, rfl, hc⟩ := ih
    obtain ⟨d, hd, _, rfl, hd'⟩ := hp _ _ _ h1
    refine ⟨d ++ c, by simp, fun r'' he hq => ?_⟩
    rw [List.append_assoc]
    refine .cons (hd' _ (hq.append c)) ?_ (hc r'' he hq)
    have := List.length_pos_iff.2 hd
    simp; omega

/-- What the block of lines must be followed by in `many0` and the closing tag. -/
theorem many_delim {α : Type} {p : P α} (hb : ∀ i r a, p i = .ok r a → c!"BEGIN:" <+: i) {i r : Str} {as : List α}
    (h : Many p i as r) (hr : c!"END:" <+: r) : IsDelim i := by
  cases h with
  | nil _ => exact .inr hr
  | cons h1 _ _ => exact .inl (hb _ _ _ h1)

/-! ## The shapes of component parsers -/

/-- The parser of a component with a block of lines and a list of parts. -/
theorem block_ok {β γ : Type} {o e : Str} {q : P β} {f : List ContentLine × β → Res γ} {i r : Str} {v : γ} :
    mapRes (delimited (tag o) (pair contentLines q) (tag e)) f i = .ok r v ↔
      ∃ body ls r1 b, i = o ++ body ∧ LinesText body ls r1 ∧ q r1 = .ok (e ++ r) b ∧ f (ls, b) = .ok v := by
  simp only [mapRes_ok, delimited_ok, pair_ok, tag_ok, contentLines_ok]
  constructor
  · rintro ⟨⟨ls, b⟩, ⟨r1, _, r2, _, ⟨rfl, -⟩, ⟨r3, h1, h2⟩, rfl, -⟩, h3⟩
    exact ⟨r1, ls, r3, b, rfl, h1, h2, h3⟩
  · rintro ⟨body, ls, r1, b, rfl, h1, h2, h3⟩
    exact ⟨(ls, b), ⟨body, o, e ++ r, e, ⟨rfl, rfl⟩, ⟨r1, h1, h2⟩, rfl, rfl⟩, h3⟩

theorem componentP_ok {α : Type} {name : Str} {conv : List ContentLine → Res α} {i r : Str} {v : α} :
    componentP name conv i = .ok r v ↔
      ∃ body ls, i = c!"BEGIN:" ++ name ++ c!"\r\n" ++ body ∧
        LinesText body ls (c!"END:" ++ name ++ c!"\r\n" ++ r) ∧ conv ls = .ok v := by
  unfold componentP
  simp only [mapRes_ok, delimited_ok, tag_ok, contentLines_ok]
  constructor
  · rintro ⟨ls, ⟨r1, _, r2, _, ⟨rfl, -⟩, h1, rfl, -⟩, h2⟩
    exact ⟨r1, ls, rfl, h1, h2⟩
  · rintro ⟨body, ls, rfl, h1, h2⟩
    exact ⟨ls, ⟨body, _, _, _, ⟨rfl, rfl⟩, h1, rfl, rfl⟩, h2⟩

theorem componentP_local {α : Type} (name : Str) (conv : List ContentLine → Res α) : Local (componentP name conv) := by
  intro i r v h
  obtain ⟨body, ls, rfl, h1, h2⟩ := componentP_ok.1 h
  obtain ⟨t, rfl, ht⟩ := linesBefore_of_linesText h1
  refine ⟨c!"BEGIN:" ++ name ++ c!"\r\n" ++ t ++ (c!"END:" ++ name ++ c!"\r\n"), by simp, ?_, by simp, fun r' hq => ?_⟩
  · rw [show c!"BEGIN:" ++ name ++ c!"\r\n" ++ t ++ (c!"END:" ++ name ++ c!"\r\n") =
      (c!"BEGIN:" ++ name ++ c!"\r\n" ++ t ++ (c!"END:" ++ name ++ ['\r'])) ++ ['\n'] by simp, List.getLast?_concat]
    decide
  · refine componentP_ok.2 ⟨t ++ (c!"END:" ++ name ++ c!"\r\n" ++ r'), ls, by simp, ?_, h2⟩
    exact linesText_of_before (ht.relocate (hq.append _)) (.inr ⟨name ++ c!"\r\n" ++ r', by simp⟩)

theorem componentP_begin {α : Type} {name : Str} {conv : List ContentLine → Res α} {i r : Str} {v : α}
    (h : componentP name conv i = .ok r v) : c!"BEGIN:" <+: i := by
  obtain ⟨body, ls, rfl, _⟩ := componentP_ok.1 h
  exact ⟨name ++ c!"\r\n" ++ body, by simp⟩

theorem tag_begin_end_err {α : Type} {o : Str} {q : P α} {e : Str} {β : Type} {f : α → Res β} {i : Str}
    (ho : c!"BEGIN:" <+: o) (h : c!"END:" <+: i) : mapRes (delimited (tag o) q (tag e)) f i = .err := by
  have h1 : tag o i = .err := tag_err.2 fun ho' => by
    obtain ⟨x, hx⟩ := ho.trans ho'
    obtain ⟨y, hy⟩ := h
    rw [← hx] at hy; simp at hy
  simp [mapRes, delimited, preceded, Nom.map, pair, h1]

theorem componentP_failsAtEnd {α : Type} (name : Str) (conv : List ContentLine → Res α) : FailsAtEnd (componentP name conv) :=
  fun i h => by unfold componentP; exact tag_begin_end_err ⟨name ++ c!"\r\n", by simp⟩ h

theorem block_local {α γ : Type} {n e' : Str} {q : P α} {f : List ContentLine × List α → Res γ}
    (hq : Local q) (hf : FailsAtEnd q) (hb : ∀ i r a, q i = .ok r a → c!"BEGIN:" <+: i)
    (he : (c!"END:" ++ e').getLast? ≠ some '\r') :
    Local (mapRes (delimited (tag (c!"BEGIN:" ++ n)) (pair contentLines (many0 q)) (tag (c!"END:" ++ e'))) f) := by
  intro i r v h
  obtain ⟨body, ls, r1, b, rfl, h1, h2, h3⟩ := block_ok.1 h
  obtain ⟨t, rfl, ht⟩ := linesBefore_of_linesText h1
  obtain ⟨c, rfl, hc⟩ := Many.relocate hq hf (many0_ok.1 h2)
  refine ⟨c!"BEGIN:" ++ n ++ t ++ c ++ (c!"END:" ++ e'), by simp, ?_, by simp, fun r' hqr => ?_⟩
  · rw [List.getLast?_append]
    cases hx : (c!"END:" ++ e').getLast? with
    | none => simp at hx
    | some x => rw [hx] at he; simpa using he
  · have hm := hc (c!"END:" ++ e' ++ r') ⟨e' ++ r', by simp⟩ (hqr.append _)
    refine block_ok.2 ⟨t ++ (c ++ (c!"END:" ++ e' ++ r')), ls, c ++ (c!"END:" ++ e' ++ r'), b, by simp, ?_, many0_ok.2 hm, h3⟩
    exact linesText_of_before (ht.relocate ((hqr.append _).append _)) (many_delim hb hm ⟨e' ++ r', by simp⟩)

theorem begin_of_block {α β : Type} {n : Str} {e : P β} {q : P α} {γ : Type} {f : α → Res γ} {i r : Str} {v : γ}
    (h : mapRes (delimited (tag (c!"BEGIN:" ++ n)) q e) f i = .ok r v) : c!"BEGIN:" <+: i := by
  simp only [mapRes_ok, delimited_ok, tag_ok] at h
  obtain ⟨_, ⟨r1, _, _, _, ⟨rfl, -⟩, _⟩, _⟩ := h
  exact ⟨n ++ r1, by simp⟩

theorem alt_local {α : Type} {p q : P α} (hp : Local p) (hq : Local q)
    (hpq : ∀ i r a, q i = .ok r a → p i = .err) : Local (alt p q) := by
  intro i r a h
  rcases alt_ok.1 h with h | ⟨h1, h2⟩
  · obtain ⟨c, h1, h2, h3, h4⟩ := hp _ _ _ h
    exact ⟨c, h1, h2, h3, fun r' hr => alt_ok.2 (.inl (h4 r' hr))⟩
  · obtain ⟨c, hc, hc', h3, h4⟩ := hq _ _ _ h2
    exact ⟨c, hc, hc', h3, fun r' hr => alt_ok.2 (.inr ⟨hpq _ _ _ (h4 r' hr), h4 r' hr⟩)⟩

/-- `p` reads nothing (but does not panic) when the text does not begin with `o`. -/
def Opens {α : Type} (o : Str) (p : P α) : Prop := ∀ i, ¬ o <+: i → p i = .err

theorem Opens.prefix {α : Type} {o : Str} {p : P α} (h : Opens o p) {i r : Str} {a : α} (ha : p i = .ok r a) : o <+: i := by
  by_cases hi : o <+: i
  · exact hi
  · rw [h i hi] at ha; cases ha

theorem Opens.map {α β : Type} {o : Str} {p : P α} (h : Opens o p) (f : α → β) : Opens o (Nom.map p f) :=
  fun i hi => map_err.2 (h i hi)

theorem opens_mapRes {α β γ : Type} (o : Str) (q : P α) (e : P β) (f : α → Res γ) :
    Opens o (mapRes (delimited (tag o) q e) f) := by
  intro i hi
  have h1 : tag o i = .err := tag_err.2 hi
  simp [mapRes, delimited, preceded, Nom.map, pair, h1]

theorem opens_componentP {α : Type} (name : Str) (conv : List ContentLine → Res α) :
    Opens (c!"BEGIN:" ++ name ++ c!"\r\n") (componentP name conv) := opens_mapRes _ _ _ _

theorem not_both_prefix {a b i : Str} (h1 : ¬ a <+: b) (h2 : ¬ b <+: a) (h : a <+: i) : ¬ b <+: i := fun h' => by
  rcases List.prefix_or_prefix_of_prefix h h' with h | h
  · exact h1 h
  · exact h2 h

/-- Parsers of differently named components exclude each other. -/
theorem Opens.disjoint {α β : Type} {a b : Str} {p : P α} {q : P β} (hp : Opens a p) (hq : Opens b q) (h1 : ¬ a <+: b)
    (h2 : ¬ b <+: a) {i r : Str} {v : β} (h : q i = .ok r v) : p i = .err :=
  hp i (not_both_prefix h2 h1 (hq.prefix h))

theorem Opens.failsAtEnd {α : Type} {o : Str} {p : P α} (h : Opens o p) (ho : c!"BEGIN:" <+: o) : FailsAtEnd p := by
  intro i hi
  refine h i fun hx => ?_
  obtain ⟨x, hx⟩ := ho.trans hx
  obtain ⟨y, hy⟩ := hi
  rw [← hx] at hy; simp at hy

theorem Opens.begin {α : Type} {o : Str} {p : P α} (h : Opens o p) (ho : c!"BEGIN:" <+: o) {i r : Str} {v : α}
    (hv : p i = .ok r v) : c!"BEGIN:" <+: i := ho.trans (h.prefix hv)

theorem FailsAtEnd.alt {α : Type} {p q : P α} (hp : FailsAtEnd p) (hq : FailsAtEnd q) : FailsAtEnd (Nom.alt p q) := by
  intro i hi
  simp [Nom.alt, hp i hi, hq i hi]

/-! ## Appending to the text -/

theorem mem_unfold {c : Char} (h1 : c ≠ '\r') (h2 : c ≠ '\n') (h3 : c ≠ ' ') (s : Str) : c ∈ unfold s ↔ c ∈ s := by
  fun_induction unfold s with
  | case1 => simp
  | case2 r ih => simp [ih, h1, h2, h3]
  | case3 a r _ ih => simp [ih]

/-- What is appended to a text can only change what follows the last line break, unless it begins with a space. -/
theorem unfold_append_suffix {s c r t : Str} (h : unfold s = c ++ r) (hc : c.getLast? ≠ some '\r') (ht : t.head? ≠ some ' ') :
    ∃ r', unfold (s ++ t) = c ++ r' ∧ ('"' ∈ r' → '"' ∈ r ∨ '"' ∈ t) := by
  have q : ∀ s, '"' ∈ unfold s ↔ '"' ∈ s := mem_unfold (by decide) (by decide) (by decide)
  fun_induction unfold s generalizing c with
  | case1 =>
    simp at h; obtain ⟨rfl, rfl⟩ := h
    exact ⟨unfold t, by simp, fun h => .inr ((q _).1 h)⟩
  | case2 r0 ih => simpa [unfold] using ih h hc
  | case3 a s hn ih =>
    cases c with
    | nil =>
      refine ⟨unfold (a :: s ++ t), rfl, fun hx => ?_⟩
      rw [q] at hx
      rcases List.mem_append.1 hx with hx | hx
      · left; rw [← List.nil_append r, ← h]
        simpa [q] using hx
      · exact .inr hx
    | cons b c =>
      simp at h; obtain ⟨rfl, h⟩ := h
      have hc' : c.getLast? ≠ some '\r' := by
        cases c with
        | nil => simp
        | cons d c => simpa using hc
      obtain ⟨r', h1, h2⟩ := ih h hc'
      refine ⟨r', ?_, h2⟩
      have : unfold (a :: s ++ t) = a :: unfold (s ++ t) := by
        rw [List.cons_append, unfold]
        rintro w rfl hw
        cases s with
        | nil =>
          simp [unfold] at h
          rw [h.1] at hc; simp at hc
        | cons x s =>
          cases s with
          | nil =>
            simp at hw; rw [hw.2] at ht; simp at ht
          | cons y s =>
            simp at hw; obtain ⟨rfl, rfl, _⟩ := hw
            exact hn _ rfl rfl
      rw [this, h1]; rfl

theorem componentOfStr_ok {α : Type} {p : P α} {s : Str} {v : α} : componentOfStr p s = .ok v ↔ ∃ r, p (unfold s) = .ok r v := by
  unfold componentOfStr
  cases h : p (unfold s) <;> simp [NRes.toRes]

theorem componentOfStr_append {α : Type} {p : P α} (hp : Local p) {s t : Str} {v : α} (h : componentOfStr p s = .ok v)
    (h1 : t.head? ≠ some ' ') (h2 : '"' ∉ t) : componentOfStr p (s ++ t) = .ok v := by
  obtain ⟨r, h⟩ := componentOfStr_ok.1 h
  obtain ⟨c, _, hc, e, hl⟩ := hp _ _ _ h
  obtain ⟨r', e', hq⟩ := unfold_append_suffix e hc h1
  refine componentOfStr_ok.2 ⟨r', ?_⟩
  rw [e']
  exact hl r' fun hx => (hq hx).resolve_right h2

end Ikal
