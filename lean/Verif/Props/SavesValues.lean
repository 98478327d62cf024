import Verif.Spec.SavesValues
import Verif.Props.Saves
import Verif.Props.Float
import Verif.Props.Reading

/-!
# C101: classifications, positions and recurrence dates that are saved again and again
-/

namespace Ikal

set_option linter.unusedSectionVars false

open Nom Spec Spec.After

section
variable [Platform]

theorem classLine_iff {k t : Str} {ps : SMap Str} {c : Class} : Full.ClassLine ⟨k, ps, t⟩ c ↔
    c = if t = c!"PUBLIC" then .pub else if t = c!"PRIVATE" then .priv else if t = c!"CONFIDENTIAL" then .confidential else .custom t := by
  constructor
  · cases c <;> simp only [Full.ClassLine]
    · rintro rfl; rfl
    · rintro rfl; rfl
    · rintro rfl; rfl
    · rintro ⟨rfl, h1, h2, h3⟩; rw [if_neg h1, if_neg h2, if_neg h3]
  · intro h
    split at h
    · subst h; assumption
    split at h
    · subst h; assumption
    split at h
    · subst h; assumption
    · subst h; exact ⟨rfl, by assumption, by assumption, by assumption⟩

theorem upper_standard : upperStr c!"PUBLIC" = c!"PUBLIC" ∧ upperStr c!"PRIVATE" = c!"PRIVATE" ∧ upperStr c!"CONFIDENTIAL" = c!"CONFIDENTIAL" := by
  simp [upperStr, upperChar]

/-- The text that a classification is named after. -/
theorem class_shown (t : Str) : Class.toStr (if t = c!"PUBLIC" then .pub else if t = c!"PRIVATE" then .priv
    else if t = c!"CONFIDENTIAL" then .confidential else .custom t) = upperStr t := by
  split
  · next h => rw [h, upper_standard.1]; rfl
  split
  · next h => rw [h, upper_standard.2.1]; rfl
  split
  · next h => rw [h, upper_standard.2.2]; rfl
  · rfl

theorem class_saved {v w : Option Class} : Back.Opt c!"CLASS" (Back.asShown Class.toStr) Full.ClassLine v w ↔
    match v with
    | none => w = none
    | some a => a.toStr = [] ∧ w = none ∨ a.toStr ≠ [] ∧ w = some (if a.toStr = c!"PUBLIC" then .pub else if a.toStr = c!"PRIVATE" then .priv
        else if a.toStr = c!"CONFIDENTIAL" then .confidential else .custom a.toStr) := by
  cases v with
  | none => rfl
  | some a =>
    simp only [Back.Opt, Back.Writing.Writes, Back.asShown, Spec.shown]
    constructor
    · rintro ⟨t, ⟨_, _, rfl⟩, ⟨h, rfl⟩ | ⟨h, b, hb, rfl⟩⟩
      · exact .inl ⟨h, rfl⟩
      · exact .inr ⟨h, by rw [classLine_iff.1 hb]⟩
    · rintro (⟨h, rfl⟩ | ⟨h, rfl⟩)
      · exact ⟨_, ⟨_, rfl, rfl⟩, .inl ⟨h, rfl⟩⟩
      · exact ⟨_, ⟨_, rfl, rfl⟩, .inr ⟨h, _, classLine_iff.2 rfl, rfl⟩⟩

/-- **C101**: what a classification has become after `n` times. -/
theorem C101_class (n : Nat) (v w : Option Class) (h : Repeatedly (Back.Opt c!"CLASS" (Back.asShown Class.toStr) Full.ClassLine) n v w) :
    ClassAfter n v w := by
  have standard : ∀ a : Class, a = .pub ∨ a = .priv ∨ a = .confidential →
      ∀ x, Back.Opt c!"CLASS" (Back.asShown Class.toStr) Full.ClassLine (some a) x → x = some a := by
    rintro a (rfl | rfl | rfl) x hx
    all_goals
      rcases class_saved.1 hx with ⟨h, -⟩ | ⟨-, rfl⟩
      · exact absurd h (by simp [Class.toStr])
      · rfl
  induction h with
  | @none a =>
    match a with
    | none => exact rfl
    | some .pub => exact rfl
    | some .priv => exact rfl
    | some .confidential => exact rfl
    | some (.custom s) => exact .inl ⟨rfl, rfl⟩
  | @more n v w x hr hb ih =>
    rcases v with _ | _ | _ | _ | s
    · have : w = none := ih
      subst this
      exact class_saved.1 hb
    · have : w = some .pub := ih
      subst this
      exact standard _ (.inl rfl) _ hb
    · have : w = some .priv := ih
      subst this
      exact standard _ (.inr (.inl rfl)) _ hb
    · have : w = some .confidential := ih
      subst this
      exact standard _ (.inr (.inr rfl)) _ hb
    · refine .inr ⟨by omega, ?_⟩
      have step : ∀ t, Capitals n s t → (∃ a : Class, w = some a ∧ a.toStr = upperStr t) →
          ((∃ k, k ≠ 0 ∧ k ≤ n + 1 ∧ Capitals k s []) ∧ x = none ∨
            ∃ t, Capitals (n + 1) s t ∧ t ≠ [] ∧ x = some (if t = c!"PUBLIC" then .pub else if t = c!"PRIVATE" then .priv
              else if t = c!"CONFIDENTIAL" then .confidential else .custom t)) := by
        rintro t ht ⟨a, ha, hs⟩
        subst ha
        rcases class_saved.1 hb with ⟨h, rfl⟩ | ⟨h, rfl⟩
        · exact Or.inl ⟨⟨n + 1, by omega, by omega, by rw [← h, hs]; exact .more ht⟩, rfl⟩
        · exact Or.inr ⟨_, by rw [hs]; exact .more ht, h, rfl⟩
      rcases ih with ⟨rfl, rfl⟩ | ⟨hn, ⟨⟨k, h0, hk, hc⟩, rfl⟩ | ⟨t, ht, hne, rfl⟩⟩
      · exact step s .none ⟨_, rfl, rfl⟩
      · exact .inl ⟨⟨k, h0, by omega, hc⟩, class_saved.1 hb⟩
      · exact step t ht ⟨_, rfl, class_shown t⟩

theorem upper_ascii {s : Str} (h : ∀ c ∈ s, c.toNat < 128) : upperStr s = s.map Char.toUpper := by
  induction s with
  | nil => rfl
  | cons c s ih =>
    have hc : c.toNat < 128 := h c (by simp)
    show upperChar c ++ upperStr s = _
    rw [ih fun c hc => h c (by simp [hc])]
    unfold upperChar
    rw [if_pos hc]
    rfl

theorem char_upper_twice {c : Char} (h : c.toNat < 128) : c.toUpper.toNat < 128 ∧ c.toUpper.toUpper = c.toUpper := by
  have key : ∀ n : Fin 128, (Char.ofNat n).toUpper.toNat < 128 ∧ (Char.ofNat n).toUpper.toUpper = (Char.ofNat n).toUpper := by decide
  have := key ⟨c.toNat, h⟩
  rwa [Char.ofNat_toNat] at this

theorem capitals_ascii {n : Nat} {s t : Str} (hs : ∀ c ∈ s, c.toNat < 128) (h : Capitals n s t) (hn : n ≠ 0) : t = s.map Char.toUpper := by
  induction h with
  | none => exact absurd rfl hn
  | @more n s t h ih =>
    by_cases h0 : n = 0
    · subst h0
      cases h
      exact upper_ascii hs
    · have := ih hs h0
      subst this
      rw [upper_ascii, List.map_map]
      · apply List.map_congr_left
        intro c hc
        exact (char_upper_twice (hs c hc)).2
      · intro c hc
        obtain ⟨d, hd, rfl⟩ := List.mem_map.1 hc
        exact (char_upper_twice (hs d hd)).1

/-- **C101**: an ASCII classification of one's own comes to rest at once: it is in capitals, and a standard one if that is its name. -/
theorem C101_class_ascii (n : Nat) (hn : n ≠ 0) (s : Str) (h0 : s ≠ []) (hs : ∀ c ∈ s, c.toNat < 128) (w : Option Class)
    (h : Repeatedly (Back.Opt c!"CLASS" (Back.asShown Class.toStr) Full.ClassLine) n (some (.custom s)) w) :
    w = some (let t := s.map Char.toUpper
      if t = c!"PUBLIC" then .pub else if t = c!"PRIVATE" then .priv else if t = c!"CONFIDENTIAL" then .confidential else .custom t) := by
  rcases C101_class n _ w h with ⟨h, -⟩ | ⟨-, ⟨⟨k, hk, -, hc⟩, -⟩ | ⟨t, ht, -, rfl⟩⟩
  · exact absurd h hn
  · have := capitals_ascii hs hc hk
    exact absurd (List.map_eq_nil_iff.1 this.symm) h0
  · rw [capitals_ascii hs ht hn]

theorem rdate_written (t : Str) (b : RDate) : ¬ Full.RDateLine ⟨c!"RDATE", [], 'V' :: t⟩ b := by
  intro h
  have hx := (reads_rdate _ _).2 h
  unfold rdate at hx
  rw [if_neg (by simp [SMap.get?])] at hx
  obtain ⟨v, hx⟩ : ∃ v, Res.mapM' (fun s => (dateOrDt s).toRes) (splitOn ',' ('V' :: t)) = .ok v := by
    cases hm : Res.mapM' (fun s => (dateOrDt s).toRes) (splitOn ',' ('V' :: t)) with
    | ok v => exact ⟨v, rfl⟩
    | err e => simp only [hm] at hx; cases hx
    | panic => simp only [hm] at hx; cases hx
  have := mapM'_all2.1 hx
  have hp : CommaPieces ('V' :: t) (splitOn ',' ('V' :: t)) := pieces_iff.2 rfl
  generalize splitOn ',' ('V' :: t) = ps at *
  have : ∃ y q, ps = ('V' :: y) :: q := by
    generalize he : 'V' :: t = z at hp
    cases hp with
    | last h => exact ⟨t, [], by rw [he]⟩
    | @more a r q h hq =>
      cases a with
      | nil => simp at he
      | cons c a => simp at he; exact ⟨a, q, by rw [he.1]⟩
  obtain ⟨y, q, rfl⟩ := this
  cases ‹All2 _ _ v› with
  | cons h _ => exact Field.dateOrDt_v _ _ h

theorem rdate_saved {v w : List RDate} (h : Back.Many c!"RDATE" (Back.asShown RDate.toStr) Full.RDateLine v w) : v = [] ∧ w = [] := by
  have first : ∀ (r : RDate) (t : Str), (Back.asShown RDate.toStr).Writes r t → ∃ s, t = 'V' :: s := by
    rintro r t ⟨_, _, rfl⟩
    cases r <;> exact ⟨_, rfl⟩
  match v, h with
  | [], h => exact ⟨rfl, h⟩
  | [a], ⟨t, ht, h⟩ =>
    obtain ⟨s, rfl⟩ := first a t ht
    rcases h with ⟨h, -⟩ | ⟨-, b, hb, -⟩
    · cases h
    · exact (rdate_written s b hb).elim
  | a :: a' :: v, ⟨ts, hts, b, hb, _⟩ =>
    cases hts with
    | cons h1 h2 =>
      cases h2 with
      | cons h2 h3 =>
        obtain ⟨s, rfl⟩ := first a _ h1
        exact (rdate_written _ b hb).elim

/-- **C101**: a component with recurrence dates cannot be saved and loaded even once. -/
theorem C101_rdate (n : Nat) (v w : List RDate) (h : Repeatedly (Back.Many c!"RDATE" (Back.asShown RDate.toStr) Full.RDateLine) n v w) :
    n = 0 ∧ w = v ∨ v = [] ∧ w = [] := by
  induction h with
  | none => exact .inl ⟨rfl, rfl⟩
  | more hr hb ih =>
    obtain ⟨h1, h2⟩ := rdate_saved hb
    rcases ih with ⟨-, h⟩ | ⟨h, -⟩
    · exact .inr ⟨by rw [← h, h1], h2⟩
    · exact .inr ⟨h, h2⟩


/-- **C101**: the classification and the recurrence dates of an event that is saved `n` times. -/
theorem C101_VEvent_values (P : OneLinePlatform) (n : Nat) (v w : VEvent) (h : DeepVEvent v) (hs : Repeatedly (Saved VEvent.ofStr) n v w) :
    ClassAfter n v.class_ w.class_ ∧ (n = 0 ∧ w.rdate = v.rdate ∨ v.rdate = [] ∧ w.rdate = []) :=
  let h := (C101_VEvent P n v w h hs).props
  ⟨C101_class _ _ _ h.class_, C101_rdate _ _ _ h.rdate⟩

/-- **C101**: the classification and the recurrence dates of a to-do that is saved `n` times. -/
theorem C101_VTodo_values (P : OneLinePlatform) (n : Nat) (v w : VTodo) (h : TidyVTodo v) (hs : Repeatedly (Saved VTodo.ofStr) n v w) :
    ClassAfter n v.class_ w.class_ ∧ (n = 0 ∧ w.rdate = v.rdate ∨ v.rdate = [] ∧ w.rdate = []) :=
  let h := (C101_VTodo P n v w h hs)
  ⟨C101_class _ _ _ h.class_, C101_rdate _ _ _ h.rdate⟩

/-- **C101**: the classification and the recurrence dates of a journal entry that is saved `n` times. -/
theorem C101_VJournal_values (P : OneLinePlatform) (n : Nat) (v w : VJournal) (h : TidyVJournal v) (hs : Repeatedly (Saved VJournal.ofStr) n v w) :
    ClassAfter n v.class_ w.class_ ∧ (n = 0 ∧ w.rdate = v.rdate ∨ v.rdate = [] ∧ w.rdate = []) :=
  let h := (C101_VJournal P n v w h hs)
  ⟨C101_class _ _ _ h.class_, C101_rdate _ _ _ h.rdate⟩

/-- **C101**: the recurrence dates of a standard part that is saved `n` times. -/
theorem C101_Standard_values (P : OneLinePlatform) (n : Nat) (v w : Standard) (h : TidyStandard v) (hs : Repeatedly (Saved Standard.ofStr) n v w) :
    (n = 0 ∧ w.rdate = v.rdate ∨ v.rdate = [] ∧ w.rdate = []) :=
  let h := (C101_Standard P n v w h hs)
  C101_rdate _ _ _ h.rdate

/-- **C101**: the recurrence dates of a daylight part that is saved `n` times. -/
theorem C101_Daylight_values (P : OneLinePlatform) (n : Nat) (v w : Daylight) (h : TidyDaylight v) (hs : Repeatedly (Saved Daylight.ofStr) n v w) :
    (n = 0 ∧ w.rdate = v.rdate ∨ v.rdate = [] ∧ w.rdate = []) :=
  let h := (C101_Daylight P n v w h hs)
  C101_rdate _ _ _ h.rdate

end

/-- **C101**: with the floats of IEEE 754 a position that can be saved and loaded at all stays as it is, and it can exactly if neither of
its coordinates is minus infinity. -/
theorem C101_geo (P : Platform) (n : Nat) (v w : Option (@Geo (ieee P))) :
    Repeatedly (@Back.Opt (@Geo (ieee P)) c!"GEO" (@Back.asShown (@Geo (ieee P)) (@Geo.toStr (ieee P))) (@Full.GeoLine (ieee P))) n v w ↔
      w = v ∧ (n = 0 ∨ ∀ lat lon : F32, v = some (@Geo.mk (ieee P) lat lon) → lat ≠ .inf true ∧ lon ≠ .inf true) := by
  have one : ∀ v w, @Back.Opt (@Geo (ieee P)) c!"GEO" (@Back.asShown (@Geo (ieee P)) (@Geo.toStr (ieee P))) (@Full.GeoLine (ieee P)) v w ↔
      w = v ∧ ∀ lat lon : F32, v = some (@Geo.mk (ieee P) lat lon) → lat ≠ .inf true ∧ lon ≠ .inf true := by
    intro v w
    cases v with
    | none => exact ⟨fun h => ⟨h, fun _ _ h => by cases h⟩, fun h => h.1⟩
    | some g =>
      obtain ⟨lat, lon⟩ := g
      have hp := C94_position P lat lon ⟨c!"GEO", [], _⟩ rfl
      have hne : @Geo.toStr (ieee P) (@Geo.mk (ieee P) lat lon) ≠ [] := by
        intro h
        have := congrArg List.length h
        simp [Geo.toStr] at this
      constructor
      · rintro ⟨t, ⟨_, _, rfl⟩, ⟨h, -⟩ | ⟨-, b, hb, rfl⟩⟩
        · exact absurd h hne
        · replace hb := (@reads_geo (ieee P) _ _).2 hb
          by_cases hi : lat = .inf true ∨ lon = .inf true
          · obtain ⟨e, he⟩ := hp.2 hi
            have := hb.symm.trans he
            cases this
          · have h1 : lat ≠ .inf true := fun h => hi (.inl h)
            have h2 : lon ≠ .inf true := fun h => hi (.inr h)
            have := hb.symm.trans (hp.1 h1 h2)
            cases this
            exact ⟨rfl, fun _ _ h => by cases h; exact ⟨h1, h2⟩⟩
      · rintro ⟨rfl, h⟩
        obtain ⟨h1, h2⟩ := h lat lon rfl
        exact ⟨_, ⟨_, rfl, rfl⟩, .inr ⟨hne, _, (@reads_geo (ieee P) _ _).1 (hp.1 h1 h2), rfl⟩⟩
  constructor
  · intro h
    induction h with
    | none => exact ⟨rfl, .inl rfl⟩
    | more hr hb ih =>
      obtain ⟨rfl, h⟩ := (one _ _).1 hb
      obtain ⟨rfl, -⟩ := ih
      exact ⟨rfl, .inr h⟩
  · rintro ⟨rfl, h⟩
    induction n with
    | zero => exact .none
    | succ n ih =>
      have h := h.resolve_left (by omega)
      exact .more (ih (.inr h)) ((one _ _).2 ⟨rfl, h⟩)

/-- **C101**: so the position of an event stays as it is. -/
theorem C101_VEvent_geo (P : Platform) (hP : @OneLinePlatform (ieee P)) (n : Nat) (v w : @VEvent (ieee P)) (h : @DeepVEvent (ieee P) v)
    (hs : Repeatedly (@Saved _ (@instSerVEvent (ieee P)) (@VEvent.ofStr (ieee P))) n v w) : @VEvent.geo (ieee P) w = @VEvent.geo (ieee P) v :=
  ((C101_geo P n _ _).1 (@VEventProps.geo (ieee P) _ _ _ (@VEventAfter.props (ieee P) _ _ _ (@C101_VEvent (ieee P) hP n v w h hs)))).1

/-- **C101**: so the position of a to-do stays as it is. -/
theorem C101_VTodo_geo (P : Platform) (hP : @OneLinePlatform (ieee P)) (n : Nat) (v w : @VTodo (ieee P)) (h : @TidyVTodo (ieee P) v)
    (hs : Repeatedly (@Saved _ (@instSerVTodo (ieee P)) (@VTodo.ofStr (ieee P))) n v w) : @VTodo.geo (ieee P) w = @VTodo.geo (ieee P) v :=
  ((C101_geo P n _ _).1 (@VTodoProps.geo (ieee P) _ _ _ ((@C101_VTodo (ieee P) hP n v w h hs)))).1

section Examples

attribute [local instance] oneEast

-- `public` is the standard classification after one save, and stays it
example : ∃ w, Repeatedly (Back.Opt c!"CLASS" (Back.asShown Class.toStr) Full.ClassLine) 2 (some (.custom c!"public")) w ∧ w = some .pub :=
  ⟨some .pub, .more (.more .none ((class_saved (v := some (.custom c!"public")) (w := some .pub)).2 (Or.inr ⟨by decide +kernel, by decide +kernel⟩)))
    ((class_saved (v := some .pub)).2 (Or.inr ⟨by decide +kernel, by decide +kernel⟩)), rfl⟩

-- any other one is put in capitals
example : ∃ w, Repeatedly (Back.Opt c!"CLASS" (Back.asShown Class.toStr) Full.ClassLine) 1 (some (.custom c!"team")) (some w) ∧ w = .custom c!"TEAM" :=
  ⟨.custom c!"TEAM", .more .none ((class_saved (v := some (.custom c!"team"))).2 (Or.inr ⟨by decide +kernel, by decide +kernel⟩)), rfl⟩

-- a to-do that is saved three times
example : ∃ w, Repeatedly (Saved VTodo.ofStr) 3 OneEast.sampleTidyTodo w ∧ ClassAfter 3 OneEast.sampleTidyTodo.class_ w.class_ := by
  obtain ⟨w, hw⟩ := saved_some (read := VTodo.ofStr) (n := 3) (v := OneEast.sampleTidyTodo) (by decide +kernel)
  exact ⟨w, hw, (C101_VTodo_values oneEast_lines 3 _ w OneEast.sampleTidyTodo_tidy hw).1⟩

end Examples

-- a position far out in the west cannot be saved, the origin can, seven times
example (P : Platform) :
    (¬ ∃ w, Repeatedly (@Back.Opt (@Geo (ieee P)) c!"GEO" (@Back.asShown (@Geo (ieee P)) (@Geo.toStr (ieee P))) (@Full.GeoLine (ieee P))) 1
      (some (@Geo.mk (ieee P) (.inf true) .nan)) w) ∧
    Repeatedly (@Back.Opt (@Geo (ieee P)) c!"GEO" (@Back.asShown (@Geo (ieee P)) (@Geo.toStr (ieee P))) (@Full.GeoLine (ieee P))) 7
      (some (@Geo.mk (ieee P) (.fin false ⟨0, by decide⟩) .nan)) (some (@Geo.mk (ieee P) (.fin false ⟨0, by decide⟩) .nan)) := by
  constructor
  · rintro ⟨w, h⟩
    exact (((C101_geo P 1 _ w).1 h).2.resolve_left (by decide) _ _ rfl).1 rfl
  · exact (C101_geo P 7 _ _).2 ⟨rfl, .inr fun _ _ h => by cases h; exact ⟨by simp, by simp⟩⟩

end Ikal
