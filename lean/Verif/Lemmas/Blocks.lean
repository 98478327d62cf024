import Verif.Lemmas.Tidy
import Verif.Lemmas.Guard

/-!
# The texts of tidy components are folded lines between tags
-/

namespace Ikal

open Nom Spec

set_option linter.unusedSectionVars false
set_option linter.unusedSimpArgs false

theorem quote_params {m : SMap Str} (h : QuoteFree m) (hs : SafeParams m) : '"' ∉ paramsText m ∧ ':' ∉ paramsText m := by
  replace hs := hs.2
  induction m with
  | nil => simp [paramsText]
  | cons p m ih =>
    obtain ⟨h1, h2, h3, _⟩ := hs p (by simp)
    obtain ⟨i1, i2⟩ := ih (fun q hq => h q (by simp [hq])) fun q hq => hs q (by simp [hq])
    have hq := h p (by simp)
    have n1 : '"' ∉ p.1 := name_no (not_nameChar (by simp)) h1
    have n2 : ':' ∉ p.1 := name_no (not_nameChar (by simp)) h1
    simp [paramsText, i1, i2, hq, h3, n1, n2]

theorem heads_name {n x : Str} (hn : IsName n) (hne : n ≠ []) : Heads (n ++ x) := by
  cases n with
  | nil => exact absurd rfl hne
  | cons c n =>
    have hc := hn c (by simp)
    refine .lit ?_ ?_
    · rintro rfl; exact absurd hc (not_nameChar (by simp))
    · rintro rfl; exact absurd hc (not_nameChar (by simp))

theorem plainLine_written {name v : Str} {m : SMap Str} (hn : SafeName name) (hne : name ≠ []) (hm : SafeParams m) (hq : QuoteFree m)
    (hv : '\n' ∉ v) : PlainLine (propertyLine name (paramsAttr m) v) (name ++ paramsText m) v where
  eq := by rw [propertyLine_safe hm]; simp
  colon := by simp [name_no (c := ':') (not_nameChar (by simp)) hn.1, (quote_params hq hm).2]
  quote := by simp [name_no (c := '"') (not_nameChar (by simp)) hn.1, (quote_params hq hm).1]
  lf := by simp [name_no (c := '\n') (not_nameChar (by simp)) hn.1, no_lf_params hm]
  lf' := hv
  begin_ := fun e => by
    cases m with
    | nil => exact hn.2.1 (by simpa [paramsText] using e)
    | cons p m =>
      have : ';' ∈ c!"BEGIN" := by rw [← e]; simp [paramsText]
      exact absurd this (by decide)
  end_ := fun e => by
    cases m with
    | nil => exact hn.2.2 (by simpa [paramsText] using e)
    | cons p m =>
      have : ';' ∈ c!"END" := by rw [← e]; simp [paramsText]
      exact absurd this (by decide)
  head := heads_name hn.1 hne

theorem field_blocks {α : Type} [Ser α] (hc : Ser.isComponent α = false) {name : Str} {v : α} {m : SMap Str} {s t : Str}
    (hn : SafeName name) (hne : name ≠ []) (hw : WrittenAs v m s) (hq : Quiet (lineOf name m s)) (h : field name v = .ok t) : Blocks t := by
  by_cases hs : s = []
  · subst hs
    rw [field_empty hc name hw.ical] at h
    cases h
    exact .nil
  · rw [field_eq hc hw.ical hs, hw.attr] at h
    have hq : QuoteFree m := hq ⟨name, m, s⟩ (by simp [lineOf, hs])
    have := Blocks.cons (plainLine_written hn hne hw.params hq hw.clean.lf) (Ins.folded h).star .nil
    rwa [List.append_nil] at this

namespace Field

theorem list_blocks {α : Type} [Ser α] (hc : Ser.isComponent α = false) {n : Str} (hn : SafeName n) (hne : n ≠ [])
    {v : List α} {ls : List ContentLine} {t : Str} (h : ListWritten n v ls) (hq : Quiet ls) (ht : serVec n v = .ok t) : Blocks t := by
  match v, h, ht with
  | [], h, ht =>
    have : serVec n ([] : List α) = .ok [] := field_empty rfl n rfl
    rw [this] at ht; cases ht
    exact .nil
  | [x], ⟨m, s, hw, e⟩, ht => subst e; exact field_blocks hc hn hne hw hq ht
  | x :: y :: v, ⟨ss, hw, e⟩, ht =>
    subst e
    refine field_blocks (v := x :: y :: v) (m := []) rfl hn hne ⟨?_, ?_, rfl, safeParams_nil⟩ hq ht
    · show (Res.mapM' Ser.ical (x :: y :: v)).map (join [',']) = _
      rw [mapM'_all2.2 (All2.imp (fun _ _ h => h.1) hw)]
      rfl
    · refine Clean.join (by intro c hc; simp at hc; rw [hc]; decide) ?_
      have : ∀ {as : List α} {bs : List Str}, All2 (fun x s => Ser.ical x = .ok s ∧ Clean s) as bs → ∀ s ∈ bs, Clean s := by
        intro as bs h
        induction h with
        | nil => simp
        | cons h _ ih =>
          intro s hs
          rcases List.mem_cons.1 hs with e | hs
          · rw [e]; exact h.2
          · exact ih s hs
      exact this hw

theorem Written.blocks {f : Field} (hf : f.plain = true) {v : f.T} {ls : List ContentLine} {t : Str} (h : f.Written v ls) (hq : Quiet ls)
    (ht : f.serField v = .ok t) : Blocks t := by
  have hp : ∀ {n : Str} {b : Bool}, (n.all isNameChar && !n.isEmpty && n != c!"BEGIN" && n != c!"END" && !b) = true →
      SafeName n ∧ n ≠ [] ∧ b = false := by
    intro n b h
    simp at h
    obtain ⟨⟨⟨⟨h1, h2⟩, h3⟩, h4⟩, h5⟩ := h
    exact ⟨⟨isName_lit (by simpa using h1), by simpa using h3, by simpa using h4⟩, h2, h5⟩
  cases f with
  | req n α s p =>
    obtain ⟨m, x, hw, rfl⟩ := h
    obtain ⟨h1, h2, h3⟩ := hp hf
    exact field_blocks h3 h1 h2 hw hq ht
  | opt n α s p =>
    obtain ⟨h1, h2, h3⟩ := hp hf
    revert v; intro (v : Option α) h ht
    cases v with
    | none =>
      cases h
      have : @field _ (@instSerOption _ s) n (none : Option α) = .ok [] := field_none n
      have ht : @field _ (@instSerOption _ s) n (none : Option α) = .ok t := ht
      rw [this] at ht; cases ht
      exact .nil
    | some a =>
      obtain ⟨m, x, hw, rfl⟩ := h
      refine field_blocks h3 h1 h2 hw hq ?_
      rw [← field_some h3]
      exact ht
  | push n α s p =>
    obtain ⟨h1, h2, h3⟩ := hp hf
    exact list_blocks h3 h1 h2 h hq ht
  | append n α s p =>
    obtain ⟨h1, h2, h3⟩ := hp hf
    exact list_blocks h3 h1 h2 h hq ht
  | nested n α s =>
    obtain ⟨h1, rfl⟩ := h
    revert v; intro (v : List α) ht h1
    cases h1
    have : @serVec _ s n ([] : List α) = .ok [] := field_empty rfl n rfl
    have ht : @serVec _ s n ([] : List α) = .ok t := ht
    rw [this] at ht; cases ht
    exact .nil

end Field

theorem Slots.Written.blocks {fs : List Field} (hf : fs.all Field.plain = true) {v : Slots fs} {ls : List ContentLine} {t : Str}
    (h : Written fs v ls) (hq : Quiet ls) (ht : Slots.ser fs v = .ok t) : Blocks t := by
  induction fs generalizing ls t with
  | nil => cases ht; exact .nil
  | cons f fs ih =>
    obtain ⟨v, vs⟩ := v
    obtain ⟨l, l', h1, h2, rfl⟩ := h
    simp only [List.all_cons, Bool.and_eq_true] at hf
    simp only [Slots.ser, Res.bind_eq_ok] at ht
    obtain ⟨a, ha, b, hb, hab⟩ := ht
    cases hab
    exact (h1.blocks hf.1 (fun x hx => hq x (by simp [hx])) ha).append (ih hf.2 h2 (fun x hx => hq x (by simp [hx])) hb)

/-- The lines of extension properties. -/
theorem ext_blocks {n : Str} (hn : SafeName n) (hne : n ≠ []) {m : SMap ContentLine} (h : TidyExt m) {t : Str}
    (ht : @field _ Comp.extSer n m = .ok t) : Blocks t := by
  obtain ⟨s, hs, hc⟩ := clean_ext h
  exact @field_blocks _ Comp.extSer rfl n m [] s t hn hne (written_ext hs hc) (quiet_lineOf quoteFree_nil) ht

theorem x_blocks {m : SMap ContentLine} (h : TidyExt m) {t : Str} (ht : @field _ Comp.extSer c!"X-PROP" m = .ok t) : Blocks t :=
  ext_blocks ⟨isName_lit (by decide), by decide, by decide⟩ (by decide) h ht
theorem iana_blocks {m : SMap ContentLine} (h : TidyExt m) {t : Str} (ht : @field _ Comp.extSer c!"IANA-PROP" m = .ok t) : Blocks t :=
  ext_blocks ⟨isName_lit (by decide), by decide, by decide⟩ (by decide) h ht

/-- The text of a component without parts. -/
theorem Comp.blocks_tidy {fs : List Field} (hf : fs.all Field.plain = true) {name : Str} {c : Comp fs} (hx : TidyExt c.xProp)
    (hi : TidyExt c.ianaProp) {ls : List ContentLine} (hw : Slots.Written fs c.slots ls) (hq : Quiet ls) {t : Str} (h : c.ical name = .ok t) :
    ∃ b, Blocks b ∧ t = c!"BEGIN:" ++ name ++ c!"\r\n" ++ b ++ (c!"END:" ++ name ++ c!"\r\n") := by
  obtain ⟨body, x, i, hb, hx', hi', rfl⟩ := Comp.framed h
  exact ⟨_, ((hw.blocks hf hq hb).append (x_blocks hx hx')).append (iana_blocks hi hi'), rfl⟩

/-- The text begins a component, the lines of which go up to the tag `D`. -/
def Leads (D X t : Str) : Prop := ∃ k, t = c!"BEGIN:" ++ X ++ c!"\r\n" ++ k ∧ Chain D k

theorem leads_of_blocks {X b : Str} (h : Blocks b) : Leads (c!"END:" ++ X) X (c!"BEGIN:" ++ X ++ c!"\r\n" ++ b ++ (c!"END:" ++ X ++ c!"\r\n")) :=
  ⟨b ++ (c!"END:" ++ X ++ c!"\r\n"), by simp, Chain.mk h⟩

/-- Several components are written as a line up to the end of the first one. -/
theorem many_chain {α : Type} [Ser α] {D X name : Str} (hn : SafeName name) (hne : name ≠ []) (hX : IsName X) {x : α} {l : List α}
    (hl : Ser.isComponent α = false ∨ l ≠ []) (ha : Ser.attr x = none) (hk : ∀ t, Ser.ical x = .ok t → Leads D X t) {t : Str}
    (ht : Field.serVec name (x :: l) = .ok t) : ∃ W, Chain D W ∧ fold W = .ok t := by
  have key : ∀ s y, Leads D X s → Chain D (propertyLine name none (s ++ y)) := by
    intro s y hs
    obtain ⟨k, rfl, hk⟩ := hs
    have hp : PlainLine (name ++ ':' :: (c!"BEGIN:" ++ X ++ c!"\r\n")) name (c!"BEGIN:" ++ X) :=
      { eq := rfl
        colon := name_no (not_nameChar (by simp)) hn.1
        quote := name_no (not_nameChar (by simp)) hn.1
        lf := name_no (not_nameChar (by simp)) hn.1
        lf' := by simp [name_no (c := '\n') (not_nameChar (by simp)) hX]
        begin_ := hn.2.1
        end_ := hn.2.2
        head := by simpa using heads_name (x := []) hn.1 hne }
    have hb : Blocks (name ++ ':' :: (c!"BEGIN:" ++ X ++ c!"\r\n")) := by
      have := Blocks.cons hp .refl .nil
      rwa [List.append_nil] at this
    have := (hk.append (y ++ c!"\r\n")).blocks hb
    have e : propertyLine name none (c!"BEGIN:" ++ X ++ c!"\r\n" ++ k ++ y) = name ++ ':' :: (c!"BEGIN:" ++ X ++ c!"\r\n") ++ (k ++ (y ++ c!"\r\n")) := by
      simp [propertyLine]
    rw [e]
    exact this
  have opn : ∀ {s}, Leads D X s → s ≠ [] := by rintro s ⟨k, rfl, _⟩; simp
  match l, hl, ht with
  | [], .inl hc, ht =>
    have ht : field name x = .ok t := ht
    cases hs : Ser.ical x with
    | err e => simp [field, hs] at ht
    | panic => simp [field, hs] at ht
    | ok s =>
      have ho := hk s hs
      rw [field_eq hc hs (opn ho), ha] at ht
      exact ⟨_, by simpa using key s [] ho, ht⟩
  | [], .inr h, _ => exact absurd rfl h
  | y :: l, _, ht =>
    have ht : field name (x :: y :: l) = .ok t := ht
    cases hs : Ser.ical (x :: y :: l) with
    | err e => simp [field, hs] at ht
    | panic => simp [field, hs] at ht
    | ok s =>
      have hs' : (Res.mapM' Ser.ical (x :: y :: l)).map (join [',']) = .ok s := hs
      obtain ⟨ss, h1, rfl⟩ : ∃ ss, Res.mapM' Ser.ical (x :: y :: l) = .ok ss ∧ join [','] ss = s := by
        cases hm : Res.mapM' Ser.ical (x :: y :: l) with
        | ok ss => rw [hm] at hs'; exact ⟨ss, rfl, Res.ok.inj hs'⟩
        | err e => rw [hm] at hs'; cases hs'
        | panic => rw [hm] at hs'; cases hs'
      rw [mapM'_all2] at h1
      cases h1 with
      | @cons _ s0 _ ss h0 h1 =>
        have hne' : ss ≠ [] := by rintro rfl; cases h1
        have ho := hk s0 h0
        rw [join_cons _ _ _ hne', List.append_assoc] at hs
        rw [field_eq (α := List α) rfl hs (by simp [opn ho])] at ht
        exact ⟨_, key s0 _ ho, ht⟩

theorem chain_head {D W : Str} (hD : IsTag D) (h : Chain D W) : Heads W := by
  obtain ⟨b, y, d, rfl, h1, h2⟩ := h
  exact h1.heads.append (h2.heads hD.heads)

theorem chain_fold {D W t : Str} (hD : IsTag D) (h : Chain D W) (hf : fold W = .ok t) : Chain D t ∧ Chain D (unfold t) ∧ Piece t (unfold t) := by
  have ht := h.ins (Ins.folded hf)
  have := chain_head hD ht
  exact ⟨ht, h.del hD (Del.folded hf), this.1, this.2, rfl⟩

end Ikal
