import Verif.Lemmas.Trace
import Verif.Spec.Trace
import Verif.Props.Failing
import Verif.Props.Line

/-!
# Where reading a component stops
-/

set_option linter.unusedSectionVars false

namespace Ikal.Traced

open Ikal.Spec Ikal.Spec.Full

variable [Platform]

theorem seq_det {α : Type} {T : Str → α → Str → Prop} (hT : ∀ i a r a' r', T i a r → T i a' r' → a = a' ∧ r = r')
    {i r r' : Str} {as as' : List α} (h : SeqText T i as r) (hr : ∀ v x, ¬ T r v x) (h' : SeqText T i as' r') (hr' : ∀ v x, ¬ T r' v x) :
    r = r' := by
  induction h generalizing as' with
  | nil =>
    cases h' with
    | nil => rfl
    | cons h1 _ => exact absurd h1 (hr _ _)
  | cons h1 _ ih =>
    cases h' with
    | nil => exact absurd h1 (hr' _ _)
    | cons h2 h3 => obtain ⟨_, rfl⟩ := hT _ _ _ _ _ h1 h2; exact ih hr h3

theorem stops_det {α : Type} {o e : Str} {T : Str → α → Str → Prop} (hT : ∀ i a r a' r', T i a r → T i a' r' → a = a' ∧ r = r')
    (he : ∀ v r x, ¬ T (e ++ r) v x) {u : Str} {x y : Str × TraceKind} (hx : Stops o e T u x) (hy : Stops o e T u y) : x = y := by
  have lines {body body' r1 r1' : Str} {ls ls' : List ContentLine} (h1 : u = o ++ body) (h2 : u = o ++ body')
      (h3 : LinesText body ls r1) (h4 : LinesText body' ls' r1') : r1 = r1' := by
    have : body = body' := List.append_cancel_left (h1.symm.trans h2)
    subst this
    have h3 := contentLines_ok.2 h3
    rw [contentLines_ok.2 h4] at h3
    injection h3 with h _
    exact h.symm
  cases hx with
  | unopened h =>
    cases hy with
    | unopened _ => rfl
    | unclosed h1 => exact absurd ⟨_, h1.symm⟩ h
    | unconverted h1 => exact absurd ⟨_, h1.symm⟩ h
  | unclosed h1 h2 h3 h4 h5 =>
    cases hy with
    | unopened h => exact absurd ⟨_, h1.symm⟩ h
    | unclosed k1 k2 k3 k4 k5 => have := lines h1 k1 h2 k2; subst this; rw [seq_det hT h3 h4 k3 k4]
    | unconverted k1 k2 k3 =>
      have := lines h1 k1 h2 k2; subst this
      rw [seq_det hT h3 h4 k3 (he · _)] at h5
      exact absurd (List.prefix_append _ _) h5
  | unconverted h1 h2 h3 =>
    cases hy with
    | unopened h => exact absurd ⟨_, h1.symm⟩ h
    | unclosed k1 k2 k3 k4 k5 =>
      have := lines h1 k1 h2 k2; subst this
      rw [← seq_det hT h3 (he · _) k3 k4] at k5
      exact absurd (List.prefix_append _ _) k5
    | unconverted _ _ _ => rfl

theorem contentLines_total (i : Str) : ∃ r ls, contentLines i = .ok r ls ∧ LinesText i ls r := by
  obtain ⟨r, ls, h1, h2⟩ := C11_block_total i
  exact ⟨r, ls, sim_contentLines.ok_iff.2 h1, h2⟩

/-- The error of a component without parts. -/
theorem leaf_stops {α : Type} {name : Str} {conv : List ContentLine → Res α} {i : Str} {t : Trace}
    (h : componentP name conv i = .err t) :
    ∃ e, Stops (c!"BEGIN:" ++ name ++ c!"\r\n") (c!"END:" ++ name ++ c!"\r\n") NoParts i e ∧ t = [e] := by
  unfold componentP mapRes delimited preceded terminated map pair tag at h
  rcases h0 : stripPrefix (c!"BEGIN:" ++ name ++ c!"\r\n") i with _ | body <;> simp only [h0] at h
  · rw [Nom.stripPrefix_none] at h0
    injection h with h
    exact ⟨_, .unopened h0, h.symm⟩
  · rw [Nom.stripPrefix_some] at h0
    obtain ⟨r, ls, h1, h2⟩ := contentLines_total body
    simp only [h1] at h
    rcases h3 : stripPrefix (c!"END:" ++ name ++ c!"\r\n") r with _ | rest <;> simp only [h3] at h
    · rw [Nom.stripPrefix_none] at h3
      injection h with h
      exact ⟨_, .unclosed h0 h2 (parts := []) .nil (fun _ _ => id) h3, h.symm⟩
    · rw [Nom.stripPrefix_some] at h3
      rcases h4 : conv ls with v | e | _ <;> simp only [h4] at h
      · cases h
      · injection h with h
        subst h3
        exact ⟨_, .unconverted h0 h2 (parts := []) .nil, h.symm⟩
      · cases h

theorem many_end {α : Type} {q : P α} {i r : Str} {as : List α} (h : Nom.Many q i as r) : q r = .err := by
  induction h with
  | nil h => exact h
  | cons _ _ _ ih => exact ih

/-- The error of a component with parts. -/
theorem block_stops {α γ : Type} {o e : Str} {q : TP α} {q' : P α} {qs : TP (List α)} {T : Str → α → Str → Prop}
    {f : List ContentLine × List α → Res γ} (hq : Sim q q') (hqs : qs = many0 q ∨ ∃ c, qs = context c (many0 q))
    (h : ∀ i r a, q' i = .ok r a ↔ T i a r) (hl : ∀ i r a, q' i = .ok r a → r.length < i.length) {i : Str} {t : Trace}
    (hi : mapRes (delimited (tag o) (pair contentLines qs) (tag e)) f i = .err t) :
    ∃ x, Stops o e T i x ∧ t = [x] := by
  unfold mapRes delimited preceded terminated map pair tag at hi
  rcases h0 : stripPrefix o i with _ | body <;> simp only [h0] at hi
  · rw [Nom.stripPrefix_none] at h0
    injection hi with hi
    exact ⟨_, .unopened h0, hi.symm⟩
  · rw [Nom.stripPrefix_some] at h0
    obtain ⟨r1, ls, h1, h2⟩ := contentLines_total body
    simp only [h1] at hi
    have hsim : Sim qs (Nom.many0 q') := by
      rcases hqs with rfl | ⟨c, rfl⟩
      · exact sim_many0 hq
      · exact sim_context _ (sim_many0 hq)
    rcases hsim.cases r1 with ⟨r, as, h3, h4⟩ | ⟨t', h3, h4⟩ | ⟨h3, h4⟩ <;> simp only [h3] at hi
    · have hm := Nom.many0_ok.1 h4
      have hs : SeqText T r1 as r := seqText_of_many h hm
      have hend : ∀ v x, ¬ T r v x := by
        have := many_end hm
        intro v x hv
        rw [(h _ _ _).2 hv] at this; cases this
      rcases h5 : stripPrefix e r with _ | rest <;> simp only [h5] at hi
      · rw [Nom.stripPrefix_none] at h5
        injection hi with hi
        exact ⟨_, .unclosed h0 h2 hs hend h5, hi.symm⟩
      · rw [Nom.stripPrefix_some] at h5
        subst h5
        rcases h6 : f (ls, as) with v | e' | _ <;> simp only [h6] at hi
        · cases hi
        · injection hi with hi
          exact ⟨_, .unconverted h0 h2 hs, hi.symm⟩
        · cases hi
    · exact absurd h4 (Nom.many0_not_err hl _)
    · cases hi

theorem context_err {α : Type} {s : Str} {p : TP α} {i : Str} {t : Trace} (h : context s p i = .err t) :
    ∃ t', p i = .err t' ∧ t = t' ++ [(i, .context s)] := by
  unfold context adding at h
  cases hp : p i <;> simp only [hp] at h
  · cases h
  · injection h with h; exact ⟨_, rfl, h.symm⟩
  · cases h

end Ikal.Traced
