import Verif.Lemmas.Torn
import Verif.Lemmas.Str
import Verif.Props.Abnf

/-! # Texts cut short: unfolding, quotes and RFC 5545 texts -/

set_option linter.unusedSectionVars false

namespace Ikal

open Nom Spec

namespace Torn

/-- Unfolding a text that is cut. -/
theorem unfold_cut (q t : Str) : ∃ d e w, unfold q = d ++ e ∧ unfold (q ++ t) = d ++ w ∧
    (e = [] ∧ w = unfold t ∨ e = c!"\r\n" ∧ (∃ t', t = ' ' :: t' ∧ w = unfold t') ∨ e = c!"\r" ∧ ∃ t', t = '\n' :: ' ' :: t' ∧ w = unfold t') := by
  fun_induction unfold q with
  | case1 => exact ⟨[], [], unfold t, rfl, rfl, .inl ⟨rfl, rfl⟩⟩
  | case2 r ih => simpa [unfold] using ih
  | case3 a r hn ih =>
    by_cases hf : c!"\r\n " <+: a :: (r ++ t)
    · obtain ⟨x, hx⟩ := hf
      simp at hx
      obtain ⟨rfl, hx⟩ := hx
      cases r with
      | nil =>
        simp at hx; subst hx
        exact ⟨[], c!"\r", unfold x, rfl, by simp [unfold], .inr (.inr ⟨rfl, x, rfl, rfl⟩)⟩
      | cons b r =>
        simp at hx
        obtain ⟨rfl, hx⟩ := hx
        cases r with
        | nil =>
          simp at hx; subst hx
          exact ⟨[], c!"\r\n", unfold x, rfl, by simp [unfold], .inr (.inl ⟨rfl, x, rfl, rfl⟩)⟩
        | cons c r =>
          simp at hx
          obtain ⟨rfl, hx⟩ := hx
          exact absurd rfl (hn r rfl)
    · obtain ⟨d, e, w, h1, h2, h3⟩ := ih
      refine ⟨a :: d, e, w, by rw [h1]; rfl, ?_, h3⟩
      rw [List.cons_append, unfold]
      · rw [h2]; rfl
      · rintro y rfl hy
        exact hf ⟨y, by rw [hy]; rfl⟩

section
variable {α : Type} {p : P α}

theorem ofStr_ok {s : Str} {r : Str} {v : α} (h : p (unfold s) = .ok r v) : componentOfStr p s = .ok v := by
  unfold componentOfStr; rw [h]; rfl

theorem ofStr_err {s : Str} (h : p (unfold s) = .err) : componentOfStr p s = .err .parser := by
  unfold componentOfStr; rw [h]; rfl

/-- A text cut short is refused, or read as the whole was. -/
theorem cut_or_same (hl : Local p) (hc : Cut p) {s q : Str} {v : α} (h : componentOfStr p s = .ok v) (hs : SteadyAll (unfold s)) (hq : q <+: s) :
    componentOfStr p q = .err .parser ∨ componentOfStr p q = .ok v := by
  obtain ⟨t, rfl⟩ := hq
  obtain ⟨r, h⟩ := componentOfStr_ok.1 h
  obtain ⟨d, e, w, h1, h2, h3⟩ := unfold_cut q t
  obtain ⟨c, -, -, h4, h5⟩ := hl _ _ _ h
  have he : Stub e := by rcases h3 with ⟨h, -⟩ | ⟨h, -⟩ | ⟨h, -⟩ <;> simp [Stub, h]
  rw [h4] at h hs
  have hd : d <+: c ++ r := ⟨w, by rw [← h4, h2]⟩
  rcases prefix_split hd with ⟨hd', hn⟩ | ⟨d', rfl, hd'⟩
  · by_cases hde : d ++ e = c
    · right
      refine ofStr_ok (r := []) ?_
      rw [h1, hde]
      simpa using h5 [] (fun h => by simp at h)
    · left
      refine ofStr_err ?_
      rw [h1]
      exact hc c r v h hs d e hd' hn he hde
  · right
    refine ofStr_ok (r := d' ++ e) ?_
    rw [h1, List.append_assoc]
    exact h5 _ (quoteLe_stub he hd')

/-- What is read when a text is cut: a part of what the whole is unfolded to, and perhaps what is left of a fold. -/
theorem cut_split {s q s0 : Str} {y : Char} (hy1 : y ≠ '\r') (hy2 : y ≠ '\n')
    (hy3 : y ≠ ' ') (he : s = s0 ++ [y] ∨ s = s0 ++ [y, '\r', '\n']) (hq : q <+: s) (hne : q ≠ s) :
    ∃ d e, unfold q = d ++ e ∧ d <+: unfold s ∧ d ≠ unfold s ∧ Stub e ∧ d ++ e ≠ unfold s := by
  obtain ⟨t, ht⟩ := hq
  have htn : t ≠ [] := by rintro rfl; simp at ht; exact hne ht
  obtain ⟨d, e, w, h1, h2, h3⟩ := unfold_cut q t
  rw [ht] at h2
  have hst : Stub e := by rcases h3 with ⟨h, -⟩ | ⟨h, -⟩ | ⟨h, -⟩ <;> simp [Stub, h]
  have mem := fun x : Str => mem_unfold hy1 hy2 hy3 x
  -- what is missing
  have hw : w ≠ [] ∧ w ≠ e := by
    have two (x : Str) (hx : x <:+ s) (hx' : x ≠ []) : y ∈ x ∨ s = s0 ++ [y, '\r', '\n'] ∧ (x = c!"\r\n" ∨ x = c!"\n") := by
      rcases he with he | he
      · left
        obtain ⟨z, hz⟩ := hx
        rw [he] at hz
        have := congrArg List.getLast? hz
        rw [List.getLast?_append, List.getLast?_concat] at this
        cases hg : x.getLast? with
        | none => simp at hg; exact absurd hg hx'
        | some b => rw [hg] at this; simp at this; subst this; exact List.mem_of_getLast? hg
      · obtain ⟨z, hz⟩ := hx
        rw [he] at hz
        rcases List.append_eq_append_iff.1 hz with ⟨a, e1, e2⟩ | ⟨a, e1, e2⟩
        · -- `x = a ++ [y, CR, LF]`
          left; rw [e2]; simp
        · cases a with
          | nil => left; simp at e2; rw [← e2]; simp
          | cons b a =>
            simp at e2
            obtain ⟨rfl, e2⟩ := e2
            cases a with
            | nil => right; exact ⟨he, .inl e2.symm⟩
            | cons b a =>
              simp at e2
              obtain ⟨rfl, e2⟩ := e2
              cases a with
              | nil => right; exact ⟨he, .inr e2.symm⟩
              | cons b a => simp at e2; exact absurd e2.2.2 hx'
    have ynot : y ∉ e := by rcases hst with rfl | rfl | rfl <;> simp [hy1, hy2]
    have ok (x : Str) (hx : x <:+ s) (hx' : x ≠ []) (hwx : w = unfold x) (hE : e = [] ∨ s ≠ s0 ++ [y, '\r', '\n'] ∨ (x ≠ c!"\r\n" ∧ x ≠ c!"\n")) : w ≠ [] ∧ w ≠ e := by
      rcases two x hx hx' with hyx | ⟨hse, hxx⟩
      · have : y ∈ w := by rw [hwx, mem]; exact hyx
        exact ⟨fun h => by rw [h] at this; simp at this, fun h => ynot (h ▸ this)⟩
      · rcases hE with rfl | hE | hE
        · rcases hxx with rfl | rfl <;> (rw [hwx]; decide)
        · exact absurd hse hE
        · exact absurd hxx (by simp [hE])
    have ts : t <:+ s := ⟨q, ht⟩
    -- the last character of `s` is no space
    have nosp (x : Str) (hx : x ++ [' '] = s) : False := by
      rcases he with he | he
      · rw [he] at hx
        have := congrArg List.getLast? hx
        simp at this; exact hy3 this.symm
      · have := congrArg List.getLast? (hx.trans he)
        simp at this
    rcases h3 with ⟨rfl, h3⟩ | ⟨rfl, t', rfl, h3⟩ | ⟨rfl, t', rfl, h3⟩
    · exact ok t ts htn h3 (.inl rfl)
    · have : t' ≠ [] := by rintro rfl; exact nosp q ht
      by_cases hcr : t' = c!"\n"
      · rw [h3, hcr]; decide
      · refine ok t' ((List.suffix_cons _ _).trans ts) this h3 ?_
        by_cases hz : t' = c!"\r\n"
        · right; left
          intro hs'
          rw [hs', hz] at ht
          have : q ++ [' '] ++ c!"\r\n" = s0 ++ [y] ++ c!"\r\n" := by simpa using ht
          have := congrArg List.getLast? (List.append_cancel_right this)
          simp at this
          exact hy3 this.symm
        · exact .inr (.inr ⟨hz, hcr⟩)
    · have : t' ≠ [] := by rintro rfl; exact nosp (q ++ ['\n']) (by simpa using ht)
      by_cases hcr : t' = c!"\n"
      · rw [h3, hcr]; decide
      · by_cases hz : t' = c!"\r\n"
        · rw [h3, hz]; decide
        · exact ok t' (((List.suffix_cons _ _).trans (List.suffix_cons _ _)).trans ts) this h3 (.inr (.inr ⟨hz, hcr⟩))
  rw [h2]
  exact ⟨d, e, h1, List.prefix_append _ _, fun h => hw.1 (by simpa using h), hst, fun h => hw.2 (List.append_cancel_left h).symm⟩

/-- A text that ends with the component is refused if any of it is missing. -/
theorem cut_refused (hc : Cut p) {s q s0 : Str} {v : α} {y : Char} (h : p (unfold s) = .ok [] v) (hs : SteadyAll (unfold s)) (hy1 : y ≠ '\r') (hy2 : y ≠ '\n')
    (hy3 : y ≠ ' ') (he : s = s0 ++ [y] ∨ s = s0 ++ [y, '\r', '\n']) (hq : q <+: s) (hne : q ≠ s) : componentOfStr p q = .err .parser := by
  obtain ⟨d, e, h1, h2, h3, h4, h5⟩ := cut_split hy1 hy2 hy3 he hq hne
  refine ofStr_err ?_
  rw [h1]
  exact hc (unfold s) [] v (by rw [List.append_nil]; exact h) (by rw [List.append_nil]; exact hs) d e h2 h3 h4 h5

end

theorem Steady.init {j y : Str} (h : Steady (j ++ y)) : Steady j := by
  intro t x r l hj hl
  have h1 := h t (x ++ y) r l (by rw [hj]; simp) hl
  rw [← List.append_assoc] at h1
  obtain ⟨w, -, a1, a2⟩ := LineText.relocate (contentLine_ok.1 h1) (r' := r ++ x) (fun h => List.mem_append_left _ h)
  have : j = w ++ (r ++ x) := List.append_cancel_right (by rw [a1]; simp)
  rw [this]
  exact contentLine_ok.2 a2

theorem SteadyAll.init {u y : Str} (h : SteadyAll (u ++ y)) : SteadyAll u := fun a j hj ha => Steady.init (y := y) (h a (j ++ y) (by rw [hj]; simp) ha)

theorem unfold_lineEnd (s : Str) : unfold (s ++ c!"\r\n") = unfold s ++ c!"\r\n" := by
  obtain ⟨d, e, w, h1, h2, h3⟩ := unfold_cut s c!"\r\n"
  rcases h3 with ⟨rfl, rfl⟩ | ⟨rfl, t, ht, -⟩ | ⟨rfl, t, ht, -⟩
  · rw [h2, h1]; simp [unfold]
  · simp at ht
  · simp at ht

/-! ## Texts whose quotes are closed -/

theorem QuotesClose.tail {a u : Str} (h : QuotesClose (a ++ u)) : QuotesClose u := fun x b c e => h (a ++ x) b c (by rw [e]; simp)

theorem params_more {pt R x : Str} {ps : List (Str × Str)} (h : ParamsText pt ps R) (hR : '\n' ∈ R) (hq : QuotesClose (pt ++ R ++ x)) :
    ParamsText pt ps (R ++ x) := by
  induction h with
  | nil => exact .nil
  | @cons t ts k v R ps ht hts ih =>
    have hq' : QuotesClose (ts ++ R ++ x) := QuotesClose.tail (a := t) (by simpa using hq)
    refine .cons ?_ (ih hR hq')
    have hh : (ts ++ (R ++ x)).head? = (ts ++ R).head? := by
      cases ts with
      | cons => rfl
      | nil => cases R with
        | nil => simp at hR
        | cons => rfl
    cases ht with
    | quoted h1 h2 => exact .quoted h1 h2
    | plain h1 h2 h3 h4 h5 h6 =>
      refine .plain h1 h2 h3 (by rw [hh]; exact h4) (fun w hw => ?_) h6
      have hn := h5 w hw
      subst hw
      have := hq (c!";" ++ k) (w ++ (ts ++ R)) x (by simp) (by simp [hR]) hn
      simp only [List.mem_append, not_or] at hn ⊢
      exact ⟨hn.1, hn.2.1, hn.2.2, this⟩
    | folded h1 h2 h3 h4 => exact .folded h1 h2 h3 (by rw [hh]; exact h4)

theorem QuotesClose.steady {j : Str} (h : QuotesClose j) : Steady j := by
  intro t x r l hj hl
  obtain ⟨h1, h2, pt, ps, eol, hi, hk, hp, hn, hr, he, hw, hg⟩ := contentLine_ok.1 hl
  have hlf : '\n' ∈ l.key ++ pt ++ c!":" ++ l.value ++ eol := by rcases he with rfl | rfl <;> simp
  refine contentLine_ok.2 ?_
  subst hj
  have ht : t ++ x = (l.key ++ pt ++ c!":" ++ l.value ++ eol) ++ (r ++ x) := by rw [hi]; simp
  have ht' : l.key ++ pt ++ c!":" ++ l.value ++ eol <+: t := ⟨r, hi.symm⟩
  refine ⟨?_, ?_, pt, ps, eol, ht, hk, ?_, hn, hr, he, hw, hg⟩
  · intro hb; rw [ht] at hb; exact h1 ((prefix_of_lf hb hlf (by decide)).trans ht')
  · intro hb; rw [ht] at hb; exact h2 ((prefix_of_lf hb hlf (by decide)).trans ht')
  · have := params_more hp (x := x) ?_ ?_
    · simpa using this
    · rcases he with rfl | rfl <;> simp
    · refine QuotesClose.tail (a := l.key) ?_
      have e : l.key ++ (pt ++ (c!":" ++ l.value ++ eol ++ r) ++ x) = t ++ x := by rw [hi]; simp
      rw [e]; exact h

theorem QuotesClose.steadyAll {u : Str} (h : QuotesClose u) : SteadyAll u := fun a j hj _ => by
  subst hj; exact QuotesClose.steady (QuotesClose.tail h)

theorem QuotesClose.of_none {s : Str} (h : '"' ∉ s) : QuotesClose s := fun a b c e _ _ hc => h (by rw [e]; simp)

/-! ## RFC 5545 texts -/

open Abnf

/-- A line of an RFC 5545 text, or of its frame: the line break is at the end. -/
def RfcLine (t : Str) : Prop := (∃ w, t = w ++ ['\n'] ∧ '\n' ∉ w) ∧ ∀ r, Steady (t ++ r)

theorem steady_lines (ts : List Str) (h : ∀ t ∈ ts, RfcLine t) : SteadyAll ts.flatten := by
  induction ts with
  | nil =>
    intro a j hj _ t x r l e hl
    have : j = [] := by
      have := congrArg List.length hj
      simp at this
      exact List.eq_nil_of_length_eq_zero (by omega)
    subst this
    have : t = [] := by
      have := congrArg List.length e
      simp at this
      exact List.eq_nil_of_length_eq_zero (by omega)
    subst this
    rw [line_nil] at hl; cases hl
  | cons t ts ih =>
    obtain ⟨⟨w, hw, hwn⟩, hst⟩ := h t (by simp)
    intro a j hj ha
    rw [List.flatten_cons] at hj
    rcases List.append_eq_append_iff.1 hj with ⟨b, e1, e2⟩ | ⟨b, e1, e2⟩
    · -- `a = t ++ b`
      refine ih (fun t ht => h t (by simp [ht])) b j e2 ?_
      cases b with
      | nil => exact .inl rfl
      | cons c b =>
        right
        rcases ha with ha | ha
        · rw [ha] at e1; simp at e1
        · rw [e1, List.getLast?_append] at ha
          cases hg : (c :: b).getLast? with
          | none => simp at hg
          | some x => rw [hg] at ha; simpa using ha
    · -- `t = a ++ b`
      rcases ha with rfl | ha
      · simp at e1; subst e1
        rw [e2]; exact hst _
      · have hb : b = [] := by
          cases b with
          | nil => rfl
          | cons c b =>
            exfalso
            obtain ⟨a', rfl⟩ : ∃ a', a = a' ++ ['\n'] := by
              rcases List.eq_nil_or_concat a with rfl | ⟨a', x, rfl⟩
              · simp at ha
              · simp at ha; exact ⟨a', by simp [ha]⟩
            rw [hw] at e1
            have hl : (c :: b).getLast? = some '\n' := by
              have := congrArg List.getLast? e1
              rw [List.getLast?_concat, List.getLast?_append] at this
              cases hg : (c :: b).getLast? with
              | none => simp at hg
              | some x => rw [hg] at this; simpa using this.symm
            obtain ⟨b', hb'⟩ : ∃ b', c :: b = b' ++ ['\n'] := by
              rcases List.eq_nil_or_concat (c :: b) with hx | ⟨b', x, hx⟩
              · simp at hx
              · rw [hx] at hl; simp at hl; exact ⟨b', by rw [hx, hl]; simp⟩
            rw [hb', ← List.append_assoc] at e1
            have := List.append_cancel_right e1
            exact hwn (by rw [this]; simp)
        subst hb
        simp at e2
        rw [e2]
        exact (ih fun t ht => h t (by simp [ht])).here

theorem good_rfcLine {l : Line} (h : GoodLine l) : RfcLine l.str := by
  have ctl : Control '\n' := by unfold Control; decide
  have tok : ∀ n, IsToken n → '\n' ∉ n := fun n hn hx => by
    have := hn.2 _ hx; revert this; unfold TokenChar; decide
  have pv : ∀ v : ParamValue, v.Ok → '\n' ∉ v.str := by
    intro v hv hx
    cases v with
    | text s => exact (hv _ hx).1 ctl
    | quoted s =>
      simp [ParamValue.str] at hx
      exact (hv _ hx).1 ctl
  have hn : '\n' ∉ l.name ++ (l.params.map Param.str).flatten ++ c!":" ++ l.value ++ ['\r'] := by
    simp only [List.mem_append, not_or]
    refine ⟨⟨⟨⟨tok _ h.1.1, ?_⟩, by decide⟩, fun hx => h.1.2.2 _ hx ctl⟩, by decide⟩
    intro hx
    simp only [List.mem_flatten, List.mem_map] at hx
    obtain ⟨_, ⟨p, hp, rfl⟩, hx⟩ := hx
    obtain ⟨k1, k2, k3⟩ := h.1.2.1 p hp
    simp only [Param.str, Param.raw, List.mem_append, List.mem_flatten, List.mem_map] at hx
    rcases hx with ((hx | hx) | hx) | hx | hx
    · revert hx; decide
    · exact tok _ k1 hx
    · revert hx; decide
    · exact pv _ k2 hx
    · obtain ⟨_, ⟨v, hv, rfl⟩, hx⟩ := hx
      rcases List.mem_append.1 hx with hx | hx
      · revert hx; decide
      · exact pv v (k3 v hv) hx
  have hstr : l.str = l.name ++ (l.params.map Param.str).flatten ++ c!":" ++ l.value ++ ['\r'] ++ ['\n'] := by simp [Line.str]
  refine ⟨⟨_, hstr, hn⟩, ?_⟩
  intro rest t x r c e hc
  obtain ⟨c0, hc0⟩ := exists_means l
  rcases prefix_split (a := l.str) (b := rest) (d := t) ⟨x, e.symm⟩ with ⟨h1, h2⟩ | ⟨d', rfl, ⟨x', hx'⟩⟩
  · exfalso
    obtain ⟨t', _, a1, a2⟩ := LineText.relocate (contentLine_ok.1 hc) (r' := r) id
    have hl := line_last a2
    have hm : '\n' ∈ t := by rw [a1]; simp [List.mem_of_getLast? hl]
    rw [hstr] at h1 h2
    rcases prefix_split h1 with ⟨h3, -⟩ | ⟨d', e1, e2⟩
    · exact hn (h3.subset hm)
    · obtain ⟨z, hz⟩ := e2
      cases d' with
      | nil => rw [e1] at hm; rw [List.append_nil] at hm; exact hn hm
      | cons b d' =>
        simp at hz
        rw [hz.2.1, hz.1] at e1
        exact h2 e1
  · rw [contentLine_ok.2 (good_line h hc0 d')] at hc
    injection hc with hr hcc
    subst hr hcc
    rw [← hx', contentLine_ok.2 (good_line h hc0 (d' ++ x')), hx']
    have : rest = d' ++ x := by rw [List.append_assoc] at e; exact List.append_cancel_left e
    rw [this]

/-- The lines of a frame. -/
theorem frame_rfcLine {o n : Str} (ho : o = c!"BEGIN:" ∨ o = c!"END:") (hn : IsToken n) : RfcLine (o ++ n ++ c!"\r\n") := by
  have tok : '\n' ∉ n := fun hx => by
    have := hn.2 _ hx; revert this; unfold TokenChar; decide
  have hno : '\n' ∉ o ++ n ++ ['\r'] := by
    rcases ho with rfl | rfl <;> simp [tok]
  refine ⟨⟨o ++ n ++ ['\r'], by simp, hno⟩, ?_⟩
  intro rest t x r c e hc
  exfalso
  have hl := contentLine_ok.1 hc
  have hm : '\n' ∈ t := by
    obtain ⟨t', _, a1, a2⟩ := LineText.relocate hl (r' := r) id
    rw [a1]; simp [List.mem_of_getLast? (line_last a2)]
  have hp : t <+: (o ++ n ++ ['\r']) ++ (['\n'] ++ rest) := ⟨x, by rw [← e]; simp⟩
  rcases prefix_split hp with ⟨h1, -⟩ | ⟨d, rfl, -⟩
  · exact hno (h1.subset hm)
  · rcases ho with rfl | rfl
    · exact hl.1 ⟨n ++ ['\r'] ++ d, by simp⟩
    · exact hl.2.1 ⟨n ++ ['\r'] ++ d, by simp⟩

mutual
/-- The lines of a component. -/
def treeLines : Tree → List Str
  | .mk n ls ts => (c!"BEGIN:" ++ n ++ c!"\r\n") :: (ls.map Line.str ++ (treesLines ts ++ [c!"END:" ++ n ++ c!"\r\n"]))
/-- The lines of components. -/
def treesLines : List Tree → List Str
  | [] => []
  | t :: ts => treeLines t ++ treesLines ts
end

mutual
theorem treeLines_str : ∀ t : Tree, (treeLines t).flatten = t.str
  | .mk n ls ts => by
    have := treesLines_str ts
    simp [treeLines, Tree.str, this]
theorem treesLines_str : ∀ ts : List Tree, (treesLines ts).flatten = Tree.strs ts
  | [] => rfl
  | t :: ts => by
    have h1 := treeLines_str t
    have h2 := treesLines_str ts
    simp [treesLines, Tree.strs, h1, h2]
end

theorem treeLines_good {t : Tree} (h : t.Good) : ∀ x ∈ treeLines t, RfcLine x := by
  induction h with
  | @mk n ls ts hn hl _ ih =>
    have parts : ∀ (us : List Tree), (∀ t ∈ us, ∀ x ∈ treeLines t, RfcLine x) → ∀ x ∈ treesLines us, RfcLine x := by
      intro us
      induction us with
      | nil => intro _ x hx; simp [treesLines] at hx
      | cons u us ihu =>
        intro hu x hx
        rw [treesLines, List.mem_append] at hx
        rcases hx with hx | hx
        · exact hu u (by simp) x hx
        · exact ihu (fun t ht => hu t (by simp [ht])) x hx
    intro x hx
    rw [treeLines] at hx
    simp only [List.mem_cons, List.mem_append, List.mem_map] at hx
    rcases hx with rfl | ⟨l, hl', rfl⟩ | hx | rfl | hx
    · exact frame_rfcLine (.inl rfl) hn
    · exact good_rfcLine (hl l hl')
    · exact parts ts ih x hx
    · exact frame_rfcLine (.inr rfl) hn
    · simp at hx

theorem good_steadyAll {t : Tree} (h : t.Good) : SteadyAll t.str := by
  rw [← treeLines_str]
  exact steady_lines _ (treeLines_good h)

end Torn

end Ikal
