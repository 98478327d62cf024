import Verif.Spec.Text
import Verif.Lemmas.Line
import Verif.Lemmas.Fold
import Verif.Props.Fold
import Verif.Values

/-! # Escaping, parameters and written property lines -/

namespace Ikal

open Nom Spec

/-- `escape`, character by character. -/
def escChar (c : Char) : Str :=
  if c = ';' then ['\\', ';'] else if c = ',' then ['\\', ','] else if c = '\n' then ['\\', 'n'] else [c]

theorem escape_eq (s : Str) : escape s = s.flatMap escChar := by
  unfold escape replaceChar
  rw [List.flatMap_assoc, List.flatMap_assoc]
  congr 1
  funext c
  unfold escChar
  by_cases h1 : c = ';'
  · subst h1; decide
  by_cases h2 : c = ','
  · subst h2; decide
  by_cases h3 : c = '\n'
  · subst h3; decide
  simp [h1, h2, h3]

@[simp] theorem escape_nil : escape [] = [] := rfl
theorem escape_cons (c : Char) (s : Str) : escape (c :: s) = escChar c ++ escape s := by
  simp [escape_eq]
theorem escape_append (a b : Str) : escape (a ++ b) = escape a ++ escape b := by
  simp [escape_eq]

theorem escape_plain {s : Str} (h : Plain s) : escape s = s := by
  induction s with
  | nil => rfl
  | cons c s ih =>
    obtain ⟨h1, h2, h3⟩ := h
    simp at h1 h2 h3
    rw [escape_cons, ih ⟨h1.2, h2.2, h3.2⟩]
    simp [escChar, Ne.symm h1.1, Ne.symm h2.1, Ne.symm h3.1]

theorem escape_length_le (s : Str) : s.length ≤ (escape s).length := by
  induction s with
  | nil => simp
  | cons c s ih =>
    rw [escape_cons]
    have : 1 ≤ (escChar c).length := by unfold escChar; split <;> (try split) <;> (try split) <;> simp
    simp; omega

theorem escape_eq_self {s : Str} : escape s = s ↔ Plain s := by
  constructor
  · intro h
    induction s with
    | nil => simp [Plain]
    | cons c s ih =>
      rw [escape_cons] at h
      have hl := escape_length_le s
      have h0 : ∀ x y, escChar c ≠ [x, y] := by
        intro x y hx
        have := congrArg List.length h
        rw [hx] at this; simp at this; omega
      have hc : escChar c = [c] ∧ c ≠ ';' ∧ c ≠ ',' ∧ c ≠ '\n' := by
        unfold escChar at h0 ⊢
        split
        · rename_i h1; simp [h1] at h0
        · split
          · rename_i h1 h2; simp [h2] at h0
          · split
            · rename_i h1 h2 h3; simp [h3] at h0
            · exact ⟨rfl, by assumption, by assumption, by assumption⟩
      rw [hc.1] at h
      simp at h
      obtain ⟨a, b, c'⟩ := ih h
      exact ⟨by simp [a, Ne.symm hc.2.1], by simp [b, Ne.symm hc.2.2.1], by simp [c', Ne.symm hc.2.2.2]⟩
  · exact escape_plain

theorem escape_ne_nil {s : Str} (h : s ≠ []) : escape s ≠ [] := by
  intro h'
  have := escape_length_le s
  rw [h'] at this; simp at this; exact h this

theorem mem_escape {s : Str} {x : Char} (h : x ∈ escape s) : x ∈ s ∨ x = '\\' ∨ x = 'n' := by
  rw [escape_eq, List.mem_flatMap] at h
  obtain ⟨c, hc, hx⟩ := h
  unfold escChar at hx
  split at hx
  · simp at hx; subst_vars; rcases hx with rfl | rfl <;> simp [hc]
  · split at hx
    · simp at hx; subst_vars; rcases hx with rfl | rfl <;> simp [hc]
    · split at hx
      · simp at hx; rcases hx with rfl | rfl <;> simp
      · simp at hx; subst hx; simp [hc]

theorem mem_escape_of {s : Str} {x : Char} (h : x ∈ s) (hn : x ≠ '\n') : x ∈ escape s := by
  rw [escape_eq, List.mem_flatMap]
  refine ⟨x, h, ?_⟩
  unfold escChar
  split
  · simp_all
  · split
    · simp_all
    · simp_all

theorem lf_not_mem_escape (s : Str) : '\n' ∉ escape s := by
  rw [escape_eq, List.mem_flatMap]
  rintro ⟨c, -, hx⟩
  unfold escChar at hx
  split at hx
  · simp at hx
  · split at hx
    · simp at hx
    · split at hx
      · simp at hx
      · simp at hx; exact absurd hx.symm (by assumption)

/-! ## Parameters -/

theorem safeParams_nil : SafeParams [] := ⟨SMap.wf_nil, by simp⟩

/-- The text written for the parameters, leading `;` included. -/
def paramsText : SMap Str → Str
  | [] => []
  | p :: m => c!";" ++ p.1 ++ c!"=" ++ p.2 ++ paramsText m

theorem mapM'_ok {α β : Type} {f : α → Res β} {g : α → β} {l : List α} (h : ∀ a ∈ l, f a = .ok (g a)) :
    Res.mapM' f l = .ok (l.map g) := by
  induction l with
  | nil => rfl
  | cons a l ih => simp [Res.mapM', h a (by simp), ih fun b hb => h b (by simp [hb])]

theorem SMap.ical_safe {m : SMap Str} (h : SafeParams m) :
    SMap.ical m = .ok (join [';'] (m.map fun p => p.1 ++ '=' :: p.2)) := by
  unfold SMap.ical
  rw [mapM'_ok (g := fun (p : Str × Str) => p.1 ++ '=' :: p.2)]
  · rfl
  · rintro ⟨k, v⟩ hp
    obtain ⟨_, h1, _, h2, h3, _⟩ := h.2 _ hp
    simp [Ser.ical, escape_plain (s := v) ⟨h1, h2, h3⟩]

theorem paramsText_cons_join (p : Str × Str) (m : SMap Str) :
    paramsText (p :: m) = ';' :: join [';'] ((p :: m).map fun p => p.1 ++ '=' :: p.2) := by
  induction m generalizing p with
  | nil => simp [paramsText]
  | cons q m ih =>
    rw [paramsText, ih q, List.map_cons (l := q :: m), join_cons _ _ ((q :: m).map _) (by simp)]; simp

/-- The property line with safe parameters. -/
theorem propertyLine_safe {m : SMap Str} (h : SafeParams m) (name v : Str) :
    propertyLine name (paramsAttr m) v = name ++ paramsText m ++ c!":" ++ v ++ c!"\r\n" := by
  cases m with
  | nil => simp [paramsAttr, propertyLine, paramsText]
  | cons p m =>
    simp only [paramsAttr, List.isEmpty_cons, Bool.false_eq_true, if_false, SMap.ical_safe h, propertyLine,
      paramsText_cons_join]
    simp

theorem paramsText_spec {m : SMap Str} {rest : Str} (h : ∀ p ∈ m, IsName p.1 ∧ ';' ∉ p.2 ∧ ':' ∉ p.2 ∧ ',' ∉ p.2 ∧ '\n' ∉ p.2 ∧ p.2.head? ≠ some '"')
    (hr : rest.head? = some ':') : ParamsText (paramsText m) m rest := by
  induction m with
  | nil => exact .nil
  | cons p m ih =>
    obtain ⟨k, v⟩ := p
    obtain ⟨h1, h2, h3, _, h4, h5⟩ := h _ (List.mem_cons_self)
    refine .cons (.plain h1 h2 h3 ?_ ?_ ?_) (ih fun p hp => h p (by simp [hp]))
    · intro c hc
      cases m with
      | nil => simp [paramsText, hr] at hc; subst hc; simp
      | cons q m => simp [paramsText] at hc; subst hc; simp
    · intro w hw; exact absurd (by simp_all) h5
    · rintro ⟨t, ht⟩; rw [← ht] at h4; simp at h4

theorem no_lf_params {m : SMap Str} (h : SafeParams m) : '\n' ∉ paramsText m := by
  replace h := h.2
  induction m with
  | nil => simp [paramsText]
  | cons p m ih =>
    obtain ⟨h1, _, _, _, h4, _⟩ := h p (by simp)
    have := ih fun q hq => h q (by simp [hq])
    simp only [paramsText, List.mem_append, not_or]
    exact ⟨⟨⟨⟨by simp, fun hx => absurd (h1 _ hx) (not_nameChar (by simp))⟩, by simp⟩, h4⟩, this⟩

theorem begin_prefix {n x : Str} (hn : IsName n) (hx : ∀ c, x.head? = some c → ¬ NameChar c) {t : Str}
    (ht : IsName t) (h : t ++ c!":" <+: n ++ x) : t = n := by
  obtain ⟨z, hz⟩ := h
  have e : t ++ (c!":" ++ z) = n ++ x := by simpa using hz
  exact (append_name_inj ht hn (by intro c hc; simp at hc; subst hc; exact not_nameChar (by simp)) hx e).1

theorem isName_lit {s : Str} (h : s.all isNameChar = true) : IsName s := fun c hc =>
  (isNameChar_iff c).1 (List.all_eq_true.1 h c hc)

/-- A written property line is a content line, whatever follows. -/
theorem lineText_written {name v : Str} {m : SMap Str} (hn : SafeName name) (hm : SafeParams m)
    (h1 : '\n' ∉ v) (h2 : '\r' ∉ v) (rest : Str) :
    LineText (propertyLine name (paramsAttr m) v ++ rest) rest ⟨name, m, v⟩ := by
  rw [propertyLine_safe hm]
  have hp := paramsText_spec (rest := c!":" ++ v ++ c!"\r\n" ++ rest) hm.2 (by simp)
  have hx : ∀ c, (paramsText m ++ c!":" ++ v ++ c!"\r\n" ++ rest).head? = some c → ¬ NameChar c := by
    intro c hc
    cases m with
    | nil => simp [paramsText] at hc; exact not_nameChar (by simp [← hc])
    | cons p m => simp [paramsText] at hc; exact not_nameChar (by simp [← hc])
  refine ⟨fun h => ?_, fun h => ?_, paramsText m, m, c!"\r\n", by simp, hn.1, by simpa using hp, h1, h2, .inr rfl, hm.1, fun k => ?_⟩
  · exact hn.2.1 (begin_prefix (t := c!"BEGIN") hn.1 hx (isName_lit (by decide)) (by simpa using h)).symm
  · exact hn.2.2 (begin_prefix (t := c!"END") hn.1 hx (isName_lit (by decide)) (by simpa using h)).symm
  · have := SMap.get?_ofPairs m k
    rw [SMap.ofPairs_self hm.1] at this
    exact this

/-- No line feed in a written line before its end. -/
theorem no_lf_line {name v : Str} {m : SMap Str} (hn : IsName name) (hm : SafeParams m) (hv : '\n' ∉ v) :
    '\n' ∉ name ++ paramsText m ++ c!":" ++ v := by
  simp only [List.mem_append, not_or]
  exact ⟨⟨⟨fun hx => absurd (hn _ hx) (not_nameChar (by simp)), no_lf_params hm⟩, by simp⟩, hv⟩

end Ikal
