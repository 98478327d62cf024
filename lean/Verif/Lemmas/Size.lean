import Verif.Props.Component
import Verif.Props.Fold
import Verif.Lemmas.Text
import Verif.Lemmas.Output

/-!
# How long the written text can be

Bounds on the length of what the serialiser writes, in terms of bounds for the values.
-/

namespace Ikal

open Nom Spec

set_option linter.unusedSectionVars false

namespace Size

/-- The text and the attribute of a value have at most `n` characters. -/
def Small {α : Type} [Ser α] (v : α) (n : Nat) : Prop :=
  (∀ s, Ser.ical v = .ok s → s.length ≤ n) ∧ ∀ a, Ser.attr v = some a → a.length ≤ n

/-- The same for a list, with one more character for each value. -/
def Smalls {α : Type} [Ser α] : List α → Nat → Prop
  | [], _ => True
  | a :: l, n => ∃ i j, Small a i ∧ Smalls l j ∧ i + j + 1 ≤ n

theorem Small.mono {α : Type} [Ser α] {v : α} {n m : Nat} (h : Small v n) (hm : n ≤ m) : Small v m :=
  ⟨fun s hs => Nat.le_trans (h.1 s hs) hm, fun s hs => Nat.le_trans (h.2 s hs) hm⟩

theorem Smalls.mono {α : Type} [Ser α] {l : List α} {n m : Nat} (h : Smalls l n) (hm : n ≤ m) : Smalls l m := by
  cases l with
  | nil => trivial
  | cons a l => obtain ⟨i, j, h1, h2, h3⟩ := h; exact ⟨i, j, h1, h2, by omega⟩

theorem Smalls.append {α : Type} [Ser α] {l l' : List α} {n m : Nat} (h : Smalls l n) (h' : Smalls l' m) : Smalls (l ++ l') (n + m) := by
  induction l generalizing n with
  | nil => exact h'.mono (by omega)
  | cons a l ih => obtain ⟨i, j, h1, h2, h3⟩ := h; exact ⟨i, j + m, h1, ih h2, by omega⟩

theorem Smalls.single {α : Type} [Ser α] {a : α} {n : Nat} (h : Small a n) : Smalls [a] (n + 1) := ⟨n, 0, h, trivial, by omega⟩

theorem Smalls.all {α : Type} [Ser α] {l : List α} {K : Nat} (h : ∀ a ∈ l, Small a K) : Smalls l ((K + 1) * l.length) := by
  induction l with
  | nil => trivial
  | cons a l ih =>
    refine ⟨K, _, h a (by simp), ih fun b hb => h b (by simp [hb]), ?_⟩
    simp only [List.length_cons, Nat.mul_add, Nat.mul_one]; omega

theorem Smalls.one {α : Type} [Ser α] {a : α} {n : Nat} (h : Smalls [a] n) : Small a n := by
  obtain ⟨i, j, h1, -, h3⟩ := h; exact h1.mono (by omega)

theorem join_length (sep : Str) (l : List Str) : (join sep l).length ≤ (l.map fun s => s.length + sep.length).sum := by
  induction l with
  | nil => simp [join]
  | cons a l ih =>
    cases l with
    | nil => simp [join]
    | cons b l => simp only [join, List.length_append, List.map_cons, List.sum_cons] at ih ⊢; omega

theorem Smalls.texts {α : Type} [Ser α] {l : List α} {n : Nat} (h : Smalls l n) {ss : List Str} (hs : Res.mapM' Ser.ical l = .ok ss) :
    (ss.map fun s => s.length + 1).sum ≤ n := by
  induction l generalizing n ss with
  | nil => simp [Res.mapM'] at hs; subst hs; simp
  | cons a l ih =>
    obtain ⟨i, j, h1, h2, h3⟩ := h
    simp only [Res.mapM'] at hs
    split at hs <;> try simp at hs
    rename_i b hb
    split at hs <;> try simp at hs
    rename_i bs hbs
    subst hs
    have := h1.1 _ hb
    have := ih h2 hbs
    simp; omega

theorem Smalls.small {α : Type} [Ser α] {l : List α} {n : Nat} (h : Smalls l n) : Small l n := by
  refine ⟨fun s hs => ?_, fun a ha => by simp [Ser.attr] at ha⟩
  simp only [Ser.ical, Res.map_ok_iff] at hs
  obtain ⟨ss, h1, rfl⟩ := hs
  exact Nat.le_trans (join_length _ _) (by simpa using h.texts h1)

theorem chunks_length {n : Nat} (hn : 0 < n) {s : Str} {cs : List Str} (h : Chunks n s cs) : (cs.map fun c => c.length + 3).sum ≤ 4 * s.length := by
  induction h with
  | nil => simp
  | @last s h1 h2 => have := List.length_pos_iff.2 h1; simp; omega
  | @cons a b cs h1 h2 h3 ih =>
    have : a ≠ [] := by rintro rfl; simp at h1; omega
    have := List.length_pos_iff.2 this
    simp; omega

/-- Folding makes a text at most four times as long. -/
theorem fold_length {s t : Str} (h : fold s = .ok t) : t.length ≤ 4 * s.length := by
  rcases fold_ok h with ⟨-, rfl⟩ | ⟨-, cs, h1, rfl⟩
  · omega
  · exact Nat.le_trans (join_length _ _) (chunks_length (by omega) h1)

theorem field_length {α : Type} [Ser α] {name : Str} {v : α} {n : Nat} (h : Small v n) {t : Str} (ht : field name v = .ok t) :
    t.length ≤ 4 * (name.length + 2 * n + 4) := by
  simp only [field, Res.bind_eq_ok] at ht
  obtain ⟨s, hs, ht⟩ := ht
  have h1 := h.1 _ hs
  split at ht
  · simp [pure] at ht; subst ht; omega
  · have := fold_length ht
    refine Nat.le_trans this (Nat.mul_le_mul_left _ ?_)
    split
    · simp
    · cases ha : Ser.attr v with
      | none => simp; omega
      | some a => have := h.2 _ ha; simp; omega

theorem serVec_length {α : Type} [Ser α] {name : Str} {l : List α} {n : Nat} (h : Smalls l n) {t : Str} (ht : Field.serVec name l = .ok t) :
    t.length ≤ 4 * (name.length + 2 * n + 4) := by
  unfold Field.serVec at ht
  split at ht
  · exact field_length h.one ht
  · rw [if_pos (by simp [Ser.attr])] at ht
    exact field_length h.small ht

/-! ## Content lines -/

/-- The number of characters of pairs of a name and a value. -/
def pairsW (l : List (Str × Str)) : Nat := (l.map fun p => p.1.length + p.2.length + 2).sum

/-- The number of characters of a content line, at least. -/
def lineW (l : ContentLine) : Nat := l.key.length + l.value.length + pairsW l.params + 1

/-- The number of characters of content lines, at least. -/
def linesW (ls : List ContentLine) : Nat := (ls.map lineW).sum

theorem insert_sum {V : Type} (f : Str × V → Nat) (m : SMap V) (k : Str) (v : V) :
    ((SMap.insert m k v).map f).sum ≤ (m.map f).sum + f (k, v) := by
  induction m with
  | nil => simp [SMap.insert]
  | cons p m ih =>
    obtain ⟨k', v'⟩ := p
    simp only [SMap.insert]
    split
    · simp; omega
    · split
      · simp; omega
      · simp only [List.map_cons, List.sum_cons]; omega

theorem foldl_insert_sum {V : Type} (f : Str × V → Nat) (ps : List (Str × V)) (m : SMap V) :
    ((ps.foldl (fun m p => SMap.insert m p.1 p.2) m).map f).sum ≤ (m.map f).sum + (ps.map f).sum := by
  induction ps generalizing m with
  | nil => simp
  | cons p ps ih =>
    have h1 := ih (SMap.insert m p.1 p.2)
    have h2 : _ ≤ _ + f p := insert_sum f m p.1 p.2
    simp only [List.foldl_cons, List.map_cons, List.sum_cons]; omega

theorem ofPairs_sum {V : Type} (f : Str × V → Nat) (ps : List (Str × V)) : ((SMap.ofPairs ps).map f).sum ≤ (ps.map f).sum := by
  simpa [SMap.ofPairs] using foldl_insert_sum f ps []

theorem escape_length (s : Str) : (escape s).length ≤ 2 * s.length := by
  induction s with
  | nil => simp
  | cons c s ih =>
    rw [escape_cons]
    have : (escChar c).length ≤ 2 := by unfold escChar; (repeat' split) <;> simp
    simp; omega

theorem map_ical_length (m : SMap Str) {t : Str} (h : SMap.ical m = .ok t) : t.length ≤ 2 * pairsW m := by
  simp only [SMap.ical, Res.map_ok_iff] at h
  obtain ⟨ss, h1, rfl⟩ := h
  refine Nat.le_trans (join_length _ _) ?_
  induction m generalizing ss with
  | nil => simp [Res.mapM'] at h1; subst h1; simp
  | cons p m ih =>
    simp only [Res.mapM', Ser.ical, Res.map] at h1
    split at h1 <;> try simp at h1
    rename_i bs hbs
    subst h1
    have := ih _ hbs
    have := escape_length p.2
    simp [pairsW] at *; omega

theorem paramsAttr_length {m : SMap Str} {a : Str} (h : paramsAttr m = some a) : a.length ≤ 2 * pairsW m := by
  unfold paramsAttr at h
  split at h
  · simp at h
  · split at h
    · rename_i s hs; simp at h; subst h; exact map_ical_length m hs
    · simp at h

theorem paramText_length {t k v rest : Str} (h : ParamText t k v rest) : k.length + v.length + 2 ≤ t.length := by
  cases h <;> simp <;> omega

theorem paramsText_length {t rest : Str} {ps : List (Str × Str)} (h : ParamsText t ps rest) : pairsW ps ≤ t.length := by
  induction h with
  | nil => simp [pairsW]
  | cons h1 _ ih => have := paramText_length h1; simp [pairsW] at *; omega

theorem params_eq {m : SMap Str} {ps : List (Str × Str)} (h : m.Wf) (hg : ∀ k, m.get? k = lastValue ps k) : m = SMap.ofPairs ps := by
  refine SMap.ext h (SMap.foldl_wf _ _ SMap.wf_nil) fun k => ?_
  rw [hg, SMap.ofPairs, SMap.get?_foldl]
  simp [lastValue]

theorem line_length {i r : Str} {l : ContentLine} (h : LineText i r l) : lineW l + r.length ≤ i.length := by
  obtain ⟨-, -, pt, ps, eol, rfl, -, hp, -, -, -, hw, hg⟩ := h
  have h1 := paramsText_length hp
  have h2 := params_eq hw hg
  have h3 := ofPairs_sum (fun p : Str × Str => p.1.length + p.2.length + 2) ps
  rw [← h2] at h3
  simp [lineW, pairsW] at *; omega

theorem lines_length {i r : Str} {ls : List ContentLine} (h : LinesText i ls r) : linesW ls + r.length ≤ i.length := by
  induction h with
  | nil _ => simp [linesW]
  | cons h1 _ ih => have := line_length h1; simp [linesW] at *; omega

/-! ## Tables of fields -/

/-- A parser of property values gives small values. -/
def Lin {α : Type} (s : Ser α) (A : Nat) (p : ContentLine → Res α) : Prop := ∀ l v, p l = .ok v → Small v (A * lineW l)

/-- A parser of lists of values gives small lists. -/
def Lins {α : Type} (s : Ser α) (A : Nat) (p : ContentLine → Res (List α)) : Prop := ∀ l v, p l = .ok v → Smalls v (A * lineW l)

/-- All parsers of a field give small values. -/
def FieldLin (A : Nat) : Field → Prop
  | .req _ _ s p => Lin s A p
  | .opt _ _ s p => Lin s A p
  | .push _ _ s p => Lin s A p
  | .append _ _ s p => Lins s A p
  | .nested .. => True

/-- The value of a field is small. -/
def SlotSmall : (f : Field) → f.T → Nat → Prop
  | .req _ _ s _, v, n => @Small _ s v n
  | .opt _ _ s _, v, n => @Small _ (@instSerOption _ s) v n
  | .push _ _ s _, v, n => @Smalls _ s v n
  | .append _ _ s _, v, n => @Smalls _ s v n
  | .nested _ _ s, v, n => @Smalls _ s v n

theorem SlotSmall.mono : {f : Field} → {v : f.T} → {n m : Nat} → SlotSmall f v n → n ≤ m → SlotSmall f v m
  | .req _ _ s _, _, _, _, h, hm => @Small.mono _ s _ _ _ h hm
  | .opt _ _ s _, _, _, _, h, hm => @Small.mono _ (@instSerOption _ s) _ _ _ h hm
  | .push _ _ s _, _, _, _, h, hm => @Smalls.mono _ s _ _ _ h hm
  | .append _ _ s _, _, _, _, h, hm => @Smalls.mono _ s _ _ _ h hm
  | .nested _ _ s, _, _, _, h, hm => @Smalls.mono _ s _ _ _ h hm

theorem lineW_le {l : ContentLine} {ls : List ContentLine} (h : l ∈ ls) : lineW l ≤ linesW ls := by
  induction ls with
  | nil => simp at h
  | cons a ls ih =>
    simp only [linesW, List.map_cons, List.sum_cons] at *
    rcases List.mem_cons.1 h with rfl | h
    · omega
    · have := ih h; omega

theorem lineW_pos (l : ContentLine) : 1 ≤ lineW l := by unfold lineW; omega

theorem filter_W (f : ContentLine → Bool) (ls : List ContentLine) : linesW (ls.filter f) ≤ linesW ls := by
  induction ls with
  | nil => simp [linesW]
  | cons a ls ih =>
    simp only [linesW, List.filter_cons, List.map_cons, List.sum_cons] at *
    split
    · simp; omega
    · omega

theorem last_mem {n : Str} {ls : List ContentLine} {l : ContentLine} (h : lastNamed n ls = some l) : l ∈ ls :=
  (List.mem_filter.1 (List.mem_of_getLast? h)).1

theorem push_small {α : Type} {s : Ser α} {A : Nat} {p : ContentLine → Res α} (hp : Lin s A p) {ls : List ContentLine} {vs : List α}
    (h : ls.map p = vs.map .ok) : Smalls vs ((A + 1) * linesW ls) := by
  induction ls generalizing vs with
  | nil => have : vs = [] := by simpa using h.symm
           subst this; trivial
  | cons l ls ih =>
    cases vs with
    | nil => simp at h
    | cons v vs =>
      simp at h
      refine ⟨_, _, hp l v h.1, ih h.2, ?_⟩
      have := lineW_pos l
      simp only [linesW, List.map_cons, List.sum_cons, Nat.add_mul, Nat.mul_add]; omega

theorem append_small {α : Type} {s : Ser α} {A : Nat} {p : ContentLine → Res (List α)} (hp : Lins s A p) {ls : List ContentLine} {vs : List (List α)}
    (h : ls.map p = vs.map .ok) : Smalls vs.flatten (A * linesW ls) := by
  induction ls generalizing vs with
  | nil => have : vs = [] := by simpa using h.symm
           subst this; trivial
  | cons l ls ih =>
    cases vs with
    | nil => simp at h
    | cons v vs =>
      simp at h
      refine ((hp l v h.1).append (ih h.2)).mono ?_
      simp [linesW, Nat.mul_add]

theorem small_none {α : Type} [Ser α] (n : Nat) : Small (none : Option α) n :=
  ⟨fun s hs => by simp [Ser.ical] at hs; subst hs; simp, fun a ha => by simp [Ser.attr] at ha⟩

theorem small_some {α : Type} [Ser α] {a : α} {n : Nat} (h : Small a n) : Small (some a) n := h

theorem slot_small {f : Field} {A : Nat} (hf : FieldLin A f) {ls : List ContentLine} {v : f.T} (h : f.Holds ls v) :
    SlotSmall f v ((A + 1) * linesW ls) := by
  have key : ∀ l, l ∈ ls → A * lineW l ≤ (A + 1) * linesW ls := fun l hl =>
    Nat.le_trans (Nat.mul_le_mul_left A (lineW_le hl)) (Nat.mul_le_mul_right _ (by omega))
  cases f with
  | req n α s p =>
    obtain ⟨l, h1, h2⟩ := h
    exact (hf l v h2).mono (key l (last_mem h1))
  | opt n α s p =>
    obtain ⟨-, h1, h2⟩ := h
    cases hl : lastNamed n ls with
    | none => rw [h1 hl]; exact small_none _
    | some l =>
      obtain ⟨a, h3, h4⟩ := h2 l hl
      rw [h4]
      exact small_some ((hf l a h3).mono (key l (last_mem hl)))
  | push n α s p => exact (push_small hf h).mono (Nat.mul_le_mul_left _ (filter_W _ _))
  | append n α s p =>
    obtain ⟨vss, h1, rfl⟩ := h
    exact (append_small hf h1).mono (Nat.mul_le_mul (by omega) (filter_W _ _))
  | nested n α s => rw [show v = [] from h]; trivial

theorem serField_length : {f : Field} → {v : f.T} → {n : Nat} → SlotSmall f v n → {t : Str} → f.serField v = .ok t →
    t.length ≤ 4 * (f.name.length + 2 * n + 4)
  | .req _ _ s _, _, _, h, _, ht => @field_length _ s _ _ _ h _ ht
  | .opt _ _ s _, _, _, h, _, ht => @field_length _ (@instSerOption _ s) _ _ _ h _ ht
  | .push _ _ s _, _, _, h, _, ht => @serVec_length _ s _ _ _ h _ ht
  | .append _ _ s _, _, _, h, _, ht => @serVec_length _ s _ _ _ h _ ht
  | .nested _ _ s, _, _, h, _, ht => @serVec_length _ s _ _ _ h _ ht

/-- All values of a component are small. -/
def SlotsSmall : (fs : List Field) → Slots fs → Nat → Prop
  | [], _, _ => True
  | f :: fs, (v, vs), n => SlotSmall f v n ∧ SlotsSmall fs vs n

/-- All parsers of a table give small values. -/
def TableLin (A : Nat) : List Field → Prop
  | [] => True
  | f :: fs => FieldLin A f ∧ TableLin A fs

theorem slots_small {fs : List Field} {A : Nat} (hf : TableLin A fs) {ls : List ContentLine} {vs : Slots fs} (h : Slots.Holds fs ls vs) :
    SlotsSmall fs vs ((A + 1) * linesW ls) := by
  induction fs with
  | nil => trivial
  | cons f fs ih => exact ⟨slot_small hf.1 h.1, ih hf.2 h.2⟩

/-- The fixed part of what a table writes. -/
def tableW (fs : List Field) : Nat := (fs.map fun f => 4 * (f.name.length + 4)).sum

theorem ser_length {fs : List Field} {vs : Slots fs} {n : Nat} (h : SlotsSmall fs vs n) {t : Str} (ht : Slots.ser fs vs = .ok t) :
    t.length ≤ tableW fs + 8 * fs.length * n := by
  induction fs generalizing t with
  | nil => simp [Slots.ser] at ht; subst ht; simp
  | cons f fs ih =>
    simp only [Slots.ser, Res.bind_eq_ok] at ht
    obtain ⟨a, ha, b, hb, ht⟩ := ht
    simp [pure] at ht
    subst ht
    have h1 := serField_length h.1 ha
    have h2 := ih h.2 hb
    simp only [tableW, List.map_cons, List.sum_cons, List.length_cons, List.length_append, Nat.mul_add, Nat.add_mul] at *
    omega

/-- The number of characters of extension properties. -/
def extW (m : SMap ContentLine) : Nat := (m.map fun p => p.1.length + 2 * p.2.value.length + 2).sum

theorem ext_small {m : SMap ContentLine} : @Small _ Comp.extSer m (extW m) := by
  refine ⟨fun s hs => ?_, fun a ha => by simp [Ser.attr] at ha⟩
  simp only [Ser.ical, SMap.ical, Res.map_ok_iff] at hs
  obtain ⟨ss, h1, rfl⟩ := hs
  refine Nat.le_trans (join_length _ _) ?_
  induction m generalizing ss with
  | nil => simp [Res.mapM'] at h1; subst h1; simp
  | cons p m ih =>
    simp only [Res.mapM', Ser.ical, Res.map] at h1
    split at h1 <;> try simp at h1
    rename_i bs hbs
    subst h1
    have := ih _ hbs
    have := escape_length p.2.value
    simp [extW] at *; omega

theorem ext_W (fs : List Field) (x : Bool) (ls : List ContentLine) :
    extW ((Comp.extLines fs x ls).foldl (fun m l => SMap.insert m l.key l) []) ≤ 2 * linesW ls := by
  rw [Comp.foldl_insert_pairs]
  have hW : linesW (Comp.extLines fs x ls) ≤ linesW ls := filter_W _ _
  refine Nat.le_trans (foldl_insert_sum _ _ _) (Nat.le_trans ?_ (Nat.mul_le_mul_left 2 hW))
  generalize Comp.extLines fs x ls = l
  induction l with
  | nil => simp
  | cons a l ih => simp [linesW, lineW] at *; omega

/-- All that a component writes. -/
structure CompSmall {fs : List Field} (c : Comp fs) (n : Nat) : Prop where
  slots : SlotsSmall fs c.slots n
  x : extW c.xProp ≤ n
  iana : extW c.ianaProp ≤ n

theorem comp_length {fs : List Field} {c : Comp fs} {n : Nat} (h : CompSmall c n) {name t : Str} (ht : c.ical name = .ok t) :
    t.length ≤ tableW fs + 2 * name.length + 120 + (8 * fs.length + 16) * n := by
  simp only [Comp.ical, Res.bind_eq_ok] at ht
  obtain ⟨b, hb, x, hx, i, hi, ht⟩ := ht
  simp [pure] at ht
  subst ht
  have h1 := ser_length h.slots hb
  have h2 := @field_length _ Comp.extSer _ _ _ (@Small.mono _ Comp.extSer _ _ _ ext_small h.x) _ hx
  have h3 := @field_length _ Comp.extSer _ _ _ (@Small.mono _ Comp.extSer _ _ _ ext_small h.iana) _ hi
  simp only [List.length_cons, List.length_nil, List.length_append, Nat.add_mul] at *
  omega

theorem comp_read {fs : List Field} (hd : (knownNames fs).Nodup) {A : Nat} (hf : TableLin A fs) {ls : List ContentLine} {c : Comp fs}
    (h : Comp.tryFrom fs ls = .ok c) : CompSmall c ((A + 2) * linesW ls) := by
  obtain ⟨h1, h2, h3⟩ := (Comp.tryFrom_ok hd ls c).1 h
  have h4 := (Comp.isExt_iff fs true IsX (fun k => (Comp.stripX k).symm) _ _).1 h2
  have h5 := (Comp.isExt_iff fs false (fun k => ¬ IsX k) (fun k => by rw [← Comp.stripX]; simp) _ _).1 h3
  refine ⟨?_, ?_, ?_⟩
  · have key : ∀ {fs : List Field} {vs : Slots fs} {n m : Nat}, SlotsSmall fs vs n → n ≤ m → SlotsSmall fs vs m := by
      intro fs
      induction fs with
      | nil => intros; trivial
      | cons f fs ih => exact fun h hm => ⟨h.1.mono hm, ih h.2 hm⟩
    exact key (slots_small hf h1) (Nat.mul_le_mul_right _ (by omega))
  · rw [h4]; exact Nat.le_trans (ext_W _ _ _) (Nat.mul_le_mul_right _ (by omega))
  · rw [h5]; exact Nat.le_trans (ext_W _ _ _) (Nat.mul_le_mul_right _ (by omega))

end Size

end Ikal
