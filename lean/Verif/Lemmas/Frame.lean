import Verif.Lemmas.Lives

/-!
# Frames: the text of a component, the texts of its parts, and the frame of an alarm
-/

namespace Ikal

open Nom Spec

set_option linter.unusedSectionVars false
set_option linter.unusedSimpArgs false

/-! ## Texts that end a line -/

/-- Empty, or ending in a line feed. -/
def EndsLf (s : Str) : Prop := s = [] ∨ ∃ b, s = b ++ ['\n']

theorem EndsLf.append {a b : Str} (ha : EndsLf a) (hb : EndsLf b) : EndsLf (a ++ b) := by
  rcases hb with rfl | ⟨b, rfl⟩
  · simpa using ha
  · exact .inr ⟨a ++ b, by simp⟩

theorem Chunks.endsLf {n : Nat} {s : Str} {cs : List Str} (h : Chunks n s cs) {u : Str} (e : s = u ++ ['\n']) :
    ∃ b, join crlfsp cs = b ++ ['\n'] := by
  induction h generalizing u with
  | nil => simp at e
  | last _ _ => exact ⟨u, by simpa [join] using e⟩
  | @cons a b cs hr hn h ih =>
    rcases List.eq_nil_or_concat b with rfl | ⟨b', x, rfl⟩
    · exact absurd rfl hn
    · have e' : (a ++ b') ++ [x] = u ++ ['\n'] := by simpa using e
      have hx := (List.append_inj' e' rfl).2
      obtain ⟨y, hy⟩ := ih (u := b') (by simp at hx; simp [hx])
      have hc : cs ≠ [] := by rintro rfl; simp [join] at hy
      rw [join_cons _ _ _ hc, hy]
      exact ⟨a ++ crlfsp ++ y, by simp⟩

theorem fold_endsLf {u t : Str} (h : fold (u ++ c!"\r\n") = .ok t) : EndsLf t := by
  rcases fold_ok h with ⟨_, rfl⟩ | ⟨_, cs, hc, rfl⟩
  · exact .inr ⟨u ++ ['\r'], by simp⟩
  · exact .inr (hc.endsLf (u := u ++ ['\r']) (by simp))

theorem field_endsLf {α : Type} [Ser α] (hc : Ser.isComponent α = false) {name : Str} {v : α} {t : Str} (h : field name v = .ok t) :
    EndsLf t := by
  cases hs : Ser.ical v with
  | err e => simp [field, hs] at h
  | panic => simp [field, hs] at h
  | ok s =>
    by_cases hne : s = []
    · subst hne
      rw [field_empty hc name hs] at h
      cases h
      exact .inl rfl
    · rw [field_eq hc hs hne] at h
      obtain ⟨u, hu, _⟩ := propertyLine_eq name (Ser.attr v) s
      rw [hu] at h
      exact fold_endsLf h

theorem serVec_endsLf {α : Type} [Ser α] (hc : Ser.isComponent α = false) {name : Str} {v : List α} {t : Str}
    (h : Field.serVec name v = .ok t) : EndsLf t := by
  match v, h with
  | [], h => exact field_endsLf (α := List α) rfl h
  | [x], h => exact field_endsLf hc h
  | x :: y :: v, h => exact field_endsLf (α := List α) rfl h

/-- The text of fields that are not components ends a line. -/
theorem Slots.ser_endsLf {fs : List Field} (hf : (fs.all fun f => f.plain && f.parsed) = true) {v : Slots fs} {t : Str}
    (h : Slots.ser fs v = .ok t) : EndsLf t := by
  induction fs generalizing t with
  | nil => cases h; exact .inl rfl
  | cons f fs ih =>
    obtain ⟨v, vs⟩ := v
    simp only [List.all_cons, Bool.and_eq_true] at hf
    simp only [Slots.ser, Res.bind_eq_ok] at h
    obtain ⟨a, ha, b, hb, hab⟩ := h
    cases hab
    refine EndsLf.append ?_ (ih (by simpa using hf.2) hb)
    obtain ⟨⟨hp, hq⟩, _⟩ := hf
    cases f with
    | req n α s p => simp [Field.plain] at hp; exact @field_endsLf _ s hp.2 _ _ _ ha
    | opt n α s p => exact @field_endsLf _ (@instSerOption _ s) rfl _ _ _ ha
    | push n α s p => simp [Field.plain] at hp; exact @serVec_endsLf _ s hp.2 _ _ _ ha
    | append n α s p => simp [Field.plain] at hp; exact @serVec_endsLf _ s hp.2 _ _ _ ha
    | nested n α s => cases hq

/-! ## The frame of a component -/

/-- A component is its properties between two lines. -/
theorem Comp.framed {fs : List Field} {name : Str} {c : Comp fs} {t : Str} (h : c.ical name = .ok t) :
    ∃ body x i, Slots.ser fs c.slots = .ok body ∧ @field _ Comp.extSer c!"X-PROP" c.xProp = .ok x ∧
      @field _ Comp.extSer c!"IANA-PROP" c.ianaProp = .ok i ∧
      t = c!"BEGIN:" ++ name ++ c!"\r\n" ++ (body ++ x ++ i) ++ (c!"END:" ++ name ++ c!"\r\n") := by
  unfold Comp.ical at h
  simp only [Res.bind_eq_ok, Res.pure_eq, Res.ok.injEq] at h
  obtain ⟨body, hb, x, hx, i, hi, rfl⟩ := h
  exact ⟨body, x, i, hb, hx, hi, by simp⟩

/-! ## The frame of an alarm -/

theorem splitOn_app (sep : Char) (a b : Str) : splitOn sep (a ++ sep :: b) = splitOn sep a ++ splitOn sep b := by
  induction a with
  | nil => simp [splitOn]
  | cons c a ih =>
    by_cases hc : c = sep
    · simp [splitOn, hc, ih]
    · simp only [List.cons_append, splitOn, if_neg hc, ih]
      cases h : splitOn sep a with
      | nil =>
        exfalso
        cases a with
        | nil => simp [splitOn] at h
        | cons d a =>
          simp only [splitOn] at h
          split at h
          · cases h
          · split at h <;> cases h
      | cons p ps => simp

theorem splitOn_ne (sep : Char) (a : Str) : splitOn sep a ≠ [] := by
  cases a with
  | nil => simp [splitOn]
  | cons d a =>
    simp only [splitOn]
    split
    · simp
    · split <;> simp

theorem join_splitOn (sep : Char) (a : Str) : join [sep] (splitOn sep a) = a := by
  induction a with
  | nil => rfl
  | cons c a ih =>
    simp only [splitOn]
    split
    · next h => rw [join_cons _ _ _ (splitOn_ne _ _), ih, h]; rfl
    · next h =>
      split
      · next h' => exact absurd h' (splitOn_ne _ _)
      · next p ps h' =>
        rw [h'] at ih
        cases ps with
        | nil => simpa [join] using ih
        | cons q qs =>
          rw [join_cons _ _ _ (by simp)] at ih ⊢
          rw [← ih]
          simp

theorem join_concat (sep : Str) (l : List Str) (h : l ≠ []) (x : Str) : join sep (l ++ [x]) = join sep l ++ sep ++ x := by
  induction l with
  | nil => exact absurd rfl h
  | cons a l ih =>
    cases l with
    | nil => simp [join]
    | cons b l =>
      rw [List.cons_append, join_cons sep a _ (by simp), ih (by simp), join_cons sep a _ (by simp)]
      simp only [List.append_assoc]

/-- Replacing the first and last lines of a component. -/
theorem reframe_eq {name body : Str} (hn : '\n' ∉ name) (hb : EndsLf body) :
    VAlarm.reframe (c!"BEGIN:" ++ name ++ c!"\r\n" ++ body ++ (c!"END:" ++ name ++ c!"\r\n")) =
      c!"BEGIN:VALARM\r\n" ++ body ++ c!"END:VALARM\r\n" := by
  unfold VAlarm.reframe
  have e1 : c!"BEGIN:" ++ name ++ c!"\r\n" ++ body ++ (c!"END:" ++ name ++ c!"\r\n") =
      (c!"BEGIN:" ++ name ++ ['\r']) ++ '\n' :: (body ++ (c!"END:" ++ name ++ ['\r']) ++ '\n' :: []) := by simp
  have h1 : '\n' ∉ c!"BEGIN:" ++ name ++ ['\r'] := by simp [hn]
  have h2 : '\n' ∉ c!"END:" ++ name ++ ['\r'] := by simp [hn]
  rw [e1, splitOn_append h1, List.tail_cons]
  rcases hb with rfl | ⟨b, rfl⟩
  · rw [List.nil_append, splitOn_append h2]
    simp [splitOn, join]
  · have e2 : b ++ ['\n'] ++ (c!"END:" ++ name ++ ['\r']) ++ '\n' :: [] = b ++ '\n' :: ((c!"END:" ++ name ++ ['\r']) ++ '\n' :: []) := by simp
    rw [e2, splitOn_app, splitOn_append h2]
    have e3 : (c!"BEGIN:VALARM\r" :: (splitOn '\n' b ++ (c!"END:" ++ name ++ ['\r']) :: splitOn '\n' [])).dropLast.dropLast =
        c!"BEGIN:VALARM\r" :: splitOn '\n' b := by
      have : c!"BEGIN:VALARM\r" :: (splitOn '\n' b ++ (c!"END:" ++ name ++ ['\r']) :: splitOn '\n' []) =
          (c!"BEGIN:VALARM\r" :: splitOn '\n' b) ++ [c!"END:" ++ name ++ ['\r']] ++ [[]] := by simp [splitOn]
      rw [this, List.dropLast_concat, List.dropLast_concat]
    rw [e3, join_concat _ _ (by simp), join_cons _ _ _ (splitOn_ne _ _), join_splitOn]
    simp

end Ikal
