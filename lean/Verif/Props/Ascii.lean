import Verif.Spec.Ascii
import Verif.Props.Sound
import Verif.Props.Output
import Verif.TestPlatform

/-!
# C82: ASCII in, ASCII out
-/

set_option linter.unusedSectionVars false

namespace Ikal

open Nom Spec

/-! ## Texts -/

theorem Spec.Ascii.nil : Ascii [] := fun c hc => by cases hc

theorem Spec.Ascii.lit {s : Str} (h : s.all (fun c => decide (c.toNat < 128)) = true) : Ascii s := fun c hc => by
  simpa using List.all_eq_true.1 h c hc

theorem Spec.Ascii.append {a b : Str} (ha : Ascii a) (hb : Ascii b) : Ascii (a ++ b) := fun c hc => by
  rcases List.mem_append.1 hc with h | h
  · exact ha c h
  · exact hb c h

theorem Spec.Ascii.cons {a : Char} {b : Str} (ha : a.toNat < 128) (hb : Ascii b) : Ascii (a :: b) := fun c hc => by
  rcases List.mem_cons.1 hc with rfl | h
  · exact ha
  · exact hb c h

theorem Spec.Ascii.of_subset {a b : Str} (hb : Ascii b) (h : ∀ c ∈ a, c ∈ b) : Ascii a := fun c hc => hb c (h c hc)

theorem Spec.Ascii.join {sep : Str} (hs : Ascii sep) {l : List Str} (h : ∀ t ∈ l, Ascii t) : Ascii (Ikal.join sep l) := by
  induction l with
  | nil => exact .nil
  | cons a l ih =>
    cases l with
    | nil => exact h a List.mem_cons_self
    | cons b l =>
      exact ((h a List.mem_cons_self).append hs).append (ih fun t ht => h t (List.mem_cons_of_mem _ ht))

theorem Spec.Ascii.replace {c : Char} {r s : Str} (hr : Ascii r) (h : Ascii s) : Ascii (replaceChar c r s) := fun x hx => by
  obtain ⟨y, hy, hx⟩ := List.mem_flatMap.1 hx
  split at hx
  · exact hr x hx
  · obtain rfl := List.mem_singleton.1 hx; exact h x hy

theorem Spec.Ascii.escape {s : Str} (h : Ascii s) : Ascii (Ikal.escape s) :=
  Ascii.replace (by decide) (Ascii.replace (by decide) (Ascii.replace (by decide) h))

theorem ascii_digitChar (n : Nat) : (digitChar (n % 10)).toNat < 128 := by
  have : ∀ k : Fin 10, (digitChar k.val).toNat < 128 := by decide
  exact this ⟨n % 10, Nat.mod_lt _ (by decide)⟩

theorem ascii_natStr (n : Nat) : Ascii (natStr n) := by
  unfold natStr
  generalize n + 1 = f
  induction f generalizing n with
  | zero => exact .nil
  | succ f ih =>
    unfold natStrGo
    split
    · rename_i h
      have := ascii_digitChar n
      rw [Nat.mod_eq_of_lt h] at this
      exact .cons this .nil
    · exact (ih _).append (.cons (ascii_digitChar n) .nil)

theorem ascii_intStr (n : Int) : Ascii (intStr n) := by
  unfold intStr; split
  · exact .cons (by decide) (ascii_natStr _)
  · exact ascii_natStr _

theorem ascii_pad2 (n : Nat) : Ascii (pad2 n) := .cons (ascii_digitChar _) (.cons (ascii_digitChar _) .nil)

theorem ascii_pad4 (n : Nat) : Ascii (pad4 n) :=
  .cons (ascii_digitChar _) (.cons (ascii_digitChar _) (.cons (ascii_digitChar _) (.cons (ascii_digitChar _) .nil)))

section
variable [Platform]

/-! ## What is written -/

/-- It is written, in ASCII. -/
def AsciiRes (x : Res Str) : Prop := ∃ t, x = .ok t ∧ Ascii t

/-- The value and its parameters are written in ASCII. -/
def AsciiVal {α : Type} {s : Ser α} (v : α) : Prop := AsciiRes (s.ical v) ∧ ∀ a, s.attr v = some a → Ascii a

theorem AsciiRes.ok {t : Str} (h : Ascii t) : AsciiRes (.ok t) := ⟨t, rfl, h⟩

theorem AsciiRes.map {x : Res Str} (h : AsciiRes x) {f : Str → Str} (hf : ∀ t, Ascii t → Ascii (f t)) : AsciiRes (x.map f) := by
  obtain ⟨t, rfl, h⟩ := h; exact ⟨_, rfl, hf t h⟩

theorem AsciiRes.bind {x : Res Str} (h : AsciiRes x) {f : Str → Res Str} (hf : ∀ t, Ascii t → AsciiRes (f t)) : AsciiRes (x >>= f) := by
  obtain ⟨t, rfl, h⟩ := h; exact hf t h

theorem ascii_mapM' {α : Type} {f : α → Res Str} {l : List α} (h : ∀ a ∈ l, AsciiRes (f a)) :
    ∃ ts, Res.mapM' f l = .ok ts ∧ ∀ t ∈ ts, Ascii t := by
  induction l with
  | nil => exact ⟨[], rfl, by simp⟩
  | cons a l ih =>
    obtain ⟨t, h1, h2⟩ := h a List.mem_cons_self
    obtain ⟨ts, h3, h4⟩ := ih fun a ha => h a (List.mem_cons_of_mem _ ha)
    refine ⟨t :: ts, by simp only [Res.mapM', h1, h3], ?_⟩
    intro x hx
    rcases List.mem_cons.1 hx with rfl | hx
    · exact h2
    · exact h4 x hx

theorem splitAt_ascii {s : Str} (h : Ascii s) {n : Nat} (hn : n ≤ s.length) : splitAtBytes n s = some (s.take n, s.drop n) := by
  induction s generalizing n with
  | nil => obtain rfl : n = 0 := by simpa using hn
           rfl
  | cons c s ih =>
    cases n with
    | zero => rfl
    | succ n =>
      have h1 := utf8Size_ascii (h c List.mem_cons_self)
      simp [splitAtBytes, h1, ih (fun c hc => h c (List.mem_cons_of_mem _ hc)) (Nat.le_of_succ_le_succ hn)]

theorem byteLen_ascii {s : Str} (h : Ascii s) : byteLen s = s.length := by
  induction s with
  | nil => rfl
  | cons c s ih =>
    have h1 := utf8Size_ascii (h c List.mem_cons_self)
    have h2 := ih fun c hc => h c (List.mem_cons_of_mem _ hc)
    unfold byteLen at h2 ⊢
    simp [h1, h2, Nat.add_comm]

theorem ascii_splitGo {s : Str} (h : Ascii s) (f : Nat) : ∃ l, splitGo 75 f s = .ok l ∧ ∀ t ∈ l, Ascii t := by
  induction f generalizing s with
  | zero => cases s <;> exact ⟨[], rfl, by simp⟩
  | succ f ih =>
    cases s with
    | nil => exact ⟨[], rfl, by simp⟩
    | cons c s =>
      have h1 := splitAt_ascii h (n := min 75 (byteLen (c :: s))) (by rw [byteLen_ascii h]; exact Nat.min_le_right _ _)
      obtain ⟨l, h2, h3⟩ := ih (s := (c :: s).drop (min 75 (byteLen (c :: s)))) (h.of_subset fun c hc => List.mem_of_mem_drop hc)
      refine ⟨_ :: l, by rw [splitGo, h1]; simp only; rw [h2]; rfl, ?_⟩
      intro t ht
      rcases List.mem_cons.1 ht with rfl | ht
      · exact h.of_subset fun c hc => List.mem_of_mem_take hc
      · exact h3 t ht

theorem ascii_fold {s : Str} (h : Ascii s) : AsciiRes (fold s) := by
  unfold fold; split
  · obtain ⟨l, h1, h2⟩ := ascii_splitGo h s.length
    unfold split
    rw [h1]
    exact .ok (Ascii.join (by decide) h2)
  · exact .ok h

theorem ascii_field {α : Type} {s : Ser α} {name : Str} (hn : Ascii name) {v : α} (h : AsciiVal (s := s) v) : AsciiRes (@field _ s name v) := by
  unfold field
  refine h.1.bind fun t ht => ?_
  split
  · exact .ok ht
  · apply ascii_fold
    split
    · exact .nil
    · refine (hn.append ?_).append (.cons (by decide) (ht.append (by decide)))
      cases ha : s.attr v with
      | none => exact .nil
      | some a => exact .cons (by decide) (h.2 a ha)

theorem ascii_list {α : Type} {s : Ser α} {l : List α} (h : ∀ a ∈ l, AsciiVal (s := s) a) : AsciiVal (s := @instSerList _ s) l := by
  refine ⟨?_, fun a ha => by cases ha⟩
  obtain ⟨ts, h1, h2⟩ := ascii_mapM' (f := s.ical) fun a ha => (h a ha).1
  exact ⟨_, by simp only [Ser.ical, h1]; rfl, Ascii.join (by decide) h2⟩

theorem ascii_option {α : Type} {s : Ser α} {o : Option α} (h : ∀ a ∈ o, AsciiVal (s := s) a) : AsciiVal (s := @instSerOption _ s) o := by
  cases o with
  | none => exact ⟨.ok .nil, fun a ha => by cases ha⟩
  | some a => exact h a rfl

/-- The values of a field are written in ASCII. -/
def AsciiField : (f : Field) → f.T → Prop
  | .req _ _ s _, v => AsciiVal (s := s) v
  | .opt _ α s _, v => ∀ a ∈ (show Option α from v), AsciiVal (s := s) a
  | .push _ α s _, v => ∀ a ∈ (show List α from v), AsciiVal (s := s) a
  | .append _ α s _, v => ∀ a ∈ (show List α from v), AsciiVal (s := s) a
  | .nested _ α s, v => ∀ a ∈ (show List α from v), AsciiVal (s := s) a

/-- The values of all fields are written in ASCII. -/
def AsciiSlots : (fs : List Field) → Slots fs → Prop
  | [], _ => True
  | f :: fs, (v, vs) => (Ascii f.name ∧ AsciiField f v) ∧ AsciiSlots fs vs

theorem ascii_serVec {α : Type} {s : Ser α} {name : Str} (hn : Ascii name) {l : List α} (h : ∀ a ∈ l, AsciiVal (s := s) a) :
    AsciiRes (@Field.serVec _ s name l) := by
  unfold Field.serVec
  split
  · exact ascii_field hn (h _ List.mem_cons_self)
  · exact ascii_field (s := @instSerList _ s) hn (ascii_list h)

theorem ascii_serField {f : Field} {v : f.T} (hn : Ascii f.name) (h : AsciiField f v) : AsciiRes (f.serField v) := by
  cases f with
  | req n α s p => exact ascii_field hn h
  | opt n α s p => exact ascii_field (s := @instSerOption _ s) hn (ascii_option h)
  | push n α s p => exact ascii_serVec hn h
  | append n α s p => exact ascii_serVec hn h
  | nested n α s => exact ascii_serVec hn h

theorem ascii_slots {fs : List Field} {v : Slots fs} (h : AsciiSlots fs v) : AsciiRes (Slots.ser fs v) := by
  induction fs with
  | nil => exact .ok .nil
  | cons f fs ih =>
    obtain ⟨a, b⟩ := v
    unfold Slots.ser
    exact (ascii_serField h.1.1 h.1.2).bind fun t ht => (ih h.2).bind fun u hu => .ok (ht.append hu)

theorem ascii_smap {V : Type} {s : Ser V} {m : SMap V} (h : ∀ p ∈ m, Ascii p.1 ∧ AsciiRes (s.ical p.2)) : AsciiRes (@SMap.ical V s m) := by
  obtain ⟨ts, h1, h2⟩ := ascii_mapM' (l := m) (f := fun (p : Str × V) => (s.ical p.2).map fun t => p.1 ++ '=' :: t) fun p hp =>
    (h p hp).2.map fun t ht => (h p hp).1.append (.cons (by decide) ht)
  refine ⟨_, by unfold SMap.ical; rw [h1]; rfl, Ascii.join (by decide) h2⟩

theorem ascii_ext {name : Str} (hn : Ascii name) {m : SMap ContentLine} (h : AsciiExt m) : AsciiRes (@field _ Comp.extSer name m) :=
  ascii_field hn ⟨ascii_smap fun p hp => ⟨(h p hp).1, .ok (h p hp).2.escape⟩, fun a ha => by cases ha⟩

theorem ascii_comp {fs : List Field} {c : Comp fs} {name : Str} (hn : Ascii name) (h : AsciiSlots fs c.slots) (hx : AsciiExt c.xProp)
    (hi : AsciiExt c.ianaProp) : AsciiRes (c.ical name) := by
  unfold Comp.ical
  refine (ascii_slots h).bind fun a ha => (ascii_ext (by decide) hx).bind fun b hb => (ascii_ext (by decide) hi).bind fun d hd => .ok ?_
  exact (((((Ascii.append (by decide) hn).append (by decide)).append ((ha.append hb).append hd)).append (by decide)).append hn).append (by decide)

/-! ## Values -/

theorem ascii_attr {m : SMap Str} (h : AsciiParams m) : ∀ a, paramsAttr m = some a → Ascii a := by
  intro a ha
  unfold paramsAttr at ha
  obtain ⟨t, h1, h2⟩ := ascii_smap (s := (inferInstance : Ser Str)) (m := m) fun p hp => ⟨(h p hp).1, .ok (h p hp).2.escape⟩
  split at ha
  · cases ha
  · rw [h1] at ha; cases ha; exact h2

theorem ascii_Text {t : Text} (h : AsciiText t) : AsciiVal (s := inferInstance) t := ⟨.ok h.1.escape, ascii_attr h.2⟩

theorem ascii_Uri {t : Uri} (h : AsciiUri t) : AsciiVal (s := inferInstance) t := ⟨.ok h.1.escape, ascii_attr h.2⟩

theorem ascii_shown {α : Type} {s : Ser α} {v : α} {t : Str} (h : s.ical v = .ok t) (ht : Ascii t) (ha : s.attr v = none) :
    AsciiVal (s := s) v := ⟨⟨t, h, ht⟩, fun a h => by rw [ha] at h; cases h⟩

theorem ascii_upper {s : Str} (h : Ascii s) : Ascii (upperStr s) := fun c hc => by
  obtain ⟨d, hd, hc⟩ := List.mem_flatMap.1 hc
  unfold upperChar at hc
  rw [if_pos (h d hd)] at hc
  obtain rfl := List.mem_singleton.1 hc
  have hd := h d hd
  unfold Char.toUpper
  split
  · rename_i h1
    have h2 : d.val.toNat = d.toNat := rfl
    have h3 := h1.2
    have h4 := h1.1
    rw [UInt32.le_iff_toNat_le] at h3
    have h5 := UInt32.le_iff_toNat_le.1 h4
    simp at h3 h5
    show (d.val + ('A'.val - 'a'.val)).toNat < 128
    rw [UInt32.toNat_add]
    have h6 : ('A'.val - 'a'.val).toNat = 4294967264 := by decide
    rw [h6, h2]
    omega
  · exact hd

theorem ascii_Class {c : Class} (h : AsciiClass c) : AsciiVal (s := inferInstance) c := by
  refine ascii_shown rfl ?_ rfl
  cases c with
  | custom s => exact ascii_upper (h s rfl)
  | _ => exact .lit rfl

theorem ascii_RequestStatus (hf : SaneFloats) {r : RequestStatus} (h : AsciiRequestStatus r) : AsciiVal (s := inferInstance) r := by
  refine ascii_shown rfl ?_ rfl
  refine (hf.2 _).2.append (.cons (by decide) (h.1.escape.append ?_))
  cases he : r.extdata with
  | none => exact .nil
  | some e => exact .cons (by decide) (h.2 e he).escape

theorem ascii_dateStr (d : NaiveDate) : Ascii d.toStr := by
  refine (Ascii.append ?_ (ascii_pad2 _)).append (ascii_pad2 _)
  unfold yearStr
  have h0 : Ascii (if d.year.natAbs ≤ 9999 then pad4 d.year.natAbs else natStr d.year.natAbs) := by
    split
    · exact ascii_pad4 _
    · exact ascii_natStr _
  repeat' first | split | exact ascii_pad4 _ | exact .cons (by decide) h0

theorem ascii_naive (t : NaiveDateTime) : Ascii t.toStr :=
  (ascii_dateStr _).append (.cons (by decide) (((ascii_pad2 _).append (ascii_pad2 _)).append (ascii_pad2 _)))

theorem ascii_dateTime (t : DateTime) : Ascii t.toStr := by
  cases t with
  | naive t => exact ascii_naive t
  | loc t => exact (ascii_naive _).append (by decide)

theorem ascii_date (d : Date) : Ascii d.toStr := by
  cases d with
  | date d => exact ascii_dateStr d
  | dateTime t => exact ascii_dateTime t

theorem ascii_fracDigits (n : Nat) : Ascii (TimeDelta.fracDigits n) := by
  unfold TimeDelta.fracDigits
  intro c hc
  have hc := (List.dropWhile_sublist _).mem (List.mem_reverse.1 hc)
  have : Ascii [digitChar (n / 100000000 % 10), digitChar (n / 10000000 % 10), digitChar (n / 1000000 % 10),
      digitChar (n / 100000 % 10), digitChar (n / 10000 % 10), digitChar (n / 1000 % 10), digitChar (n / 100 % 10),
      digitChar (n / 10 % 10), digitChar (n % 10)] := by
    repeat' first | exact .nil | refine .cons (ascii_digitChar _) ?_
  exact this c (List.mem_reverse.1 hc)

theorem ascii_delta (d : TimeDelta) : Ascii d.toStr := by
  unfold TimeDelta.toStr
  simp only
  split
  · decide
  · refine (((Ascii.append ?_ (by decide)).append (ascii_natStr _)).append ?_).append (by decide)
    · split <;> decide
    · split
      · exact .nil
      · exact .cons (by decide) (ascii_fracDigits _)

theorem ascii_offset (o : FixedOffset) : Ascii o.toStr := by
  unfold FixedOffset.toStr
  simp only
  have : (if o.secs < 0 then '-' else '+').toNat < 128 := by split <;> decide
  split
  · exact .cons this ((ascii_pad2 _).append (ascii_pad2 _))
  · exact .cons this (((ascii_pad2 _).append (ascii_pad2 _)).append (ascii_pad2 _))

theorem ascii_period (p : Period) : Ascii p.toStr := by
  cases p with
  | startEnd a b => exact (ascii_dateTime a).append (.cons (by decide) (ascii_dateTime b))
  | startDur a d => exact (ascii_dateTime a).append (.cons (by decide) (ascii_delta d))

theorem ascii_weekday (w : Weekday) : Ascii w.toStr := by cases w <;> decide

theorem ascii_weekdayNum (w : WeekdayNum) : Ascii w.toStr := by
  unfold WeekdayNum.toStr
  refine Ascii.append ?_ (ascii_weekday _)
  split
  · exact ascii_intStr _
  · exact .nil

theorem val_Nat (n : Nat) : AsciiVal (s := inferInstance) n := ascii_shown rfl (ascii_natStr n) rfl
theorem val_Int (n : Int) : AsciiVal (s := inferInstance) n := ascii_shown rfl (ascii_intStr n) rfl
theorem val_Date (d : Date) : AsciiVal (s := inferInstance) d := by
  refine ⟨.ok (ascii_date d), fun a ha => ?_⟩
  cases d with
  | date d => cases ha; decide
  | dateTime t => cases ha
theorem val_DateTime (d : DateTime) : AsciiVal (s := inferInstance) d := ascii_shown rfl (ascii_dateTime d) rfl
theorem val_Period (p : Period) : AsciiVal (s := inferInstance) p := ascii_shown rfl (ascii_period p) rfl
theorem val_Duration (d : TimeDelta) : AsciiVal (s := inferInstance) d := ascii_shown rfl (ascii_delta d) rfl
theorem val_Offset (d : FixedOffset) : AsciiVal (s := inferInstance) d := ascii_shown rfl (ascii_offset d) rfl
theorem val_Status (v : Status) : AsciiVal (s := inferInstance) v := ascii_shown rfl (by cases v <;> decide) rfl
theorem val_Transp (v : TimeTransparency) : AsciiVal (s := inferInstance) v := ascii_shown rfl (by cases v <;> decide) rfl
theorem val_Freq (v : Freq) : AsciiVal (s := inferInstance) v := ascii_shown rfl (by cases v <;> decide) rfl
theorem val_Weekday (v : Weekday) : AsciiVal (s := inferInstance) v := ascii_shown rfl (ascii_weekday v) rfl
theorem val_WeekdayNum (v : WeekdayNum) : AsciiVal (s := inferInstance) v := ascii_shown rfl (ascii_weekdayNum v) rfl
theorem val_Geo (hf : SaneFloats) (g : Geo) : AsciiVal (s := inferInstance) g :=
  ascii_shown rfl ((hf.2 _).1.append (.cons (by decide) (hf.2 _).1)) rfl
theorem val_Trigger (t : Trigger) : AsciiVal (s := inferInstance) t := by
  cases t with
  | duration d => exact ⟨.ok (ascii_delta d), fun a ha => by cases ha; decide⟩
  | dateTime d => exact ⟨.ok (ascii_dateTime d), fun a ha => by cases ha; decide⟩
theorem val_RDate (r : RDate) : AsciiVal (s := inferInstance) r := by
  refine ascii_shown rfl ?_ rfl
  cases r with
  | date l =>
    refine Ascii.append (by decide) (Ascii.join (by decide) ?_)
    intro t ht
    obtain ⟨d, -, rfl⟩ := List.mem_map.1 ht
    exact ascii_date d
  | period l =>
    refine Ascii.append (by decide) (Ascii.join (by decide) ?_)
    intro t ht
    obtain ⟨d, -, rfl⟩ := List.mem_map.1 ht
    exact ascii_period d

theorem ascii_item {α : Type} {s : Ser α} {name : Str} (hn : Ascii name) {v : α} (h : AsciiVal (s := s) v) : AsciiRes (@recurItem _ s name v) := by
  unfold recurItem
  refine h.1.bind fun t ht => .ok ?_
  show Ascii (if List.isEmpty t = true then [] else name ++ '=' :: (t ++ [';']))
  split
  · exact .nil
  · exact hn.append (.cons (by decide) (ht.append (by decide)))

theorem val_Rule (r : Recur) : AsciiVal (s := inferInstance) r := by
  refine ⟨?_, fun a ha => by cases ha⟩
  have li : ∀ l : List Int, AsciiVal (s := inferInstance) l := fun l => ascii_list fun a _ => val_Int a
  refine (ascii_item (by decide) (val_Freq _)).bind fun a ha => ?_
  refine (ascii_item (by decide) (ascii_option fun d _ => val_Date d)).bind fun b hb => ?_
  refine (ascii_item (by decide) (ascii_option fun d _ => val_Nat d)).bind fun c hc => ?_
  refine (ascii_item (by decide) (val_Nat _)).bind fun d hd => ?_
  refine (ascii_item (by decide) (li _)).bind fun e he => ?_
  refine (ascii_item (by decide) (li _)).bind fun f hf => ?_
  refine (ascii_item (by decide) (li _)).bind fun g hg => ?_
  refine (ascii_item (by decide) (ascii_list fun d _ => val_WeekdayNum d)).bind fun h hh => ?_
  refine (ascii_item (by decide) (li _)).bind fun i hi => ?_
  refine (ascii_item (by decide) (li _)).bind fun j hj => ?_
  refine (ascii_item (by decide) (li _)).bind fun k hk => ?_
  refine (ascii_item (by decide) (li _)).bind fun l hl => ?_
  refine (ascii_item (by decide) (li _)).bind fun m hm => ?_
  refine (ascii_item (by decide) (ascii_option fun d _ => val_Weekday d)).bind fun n hn => ?_
  refine .ok (Ascii.of_subset (b := a ++ b ++ c ++ d ++ e ++ f ++ g ++ h ++ i ++ j ++ k ++ l ++ m ++ n) ?_ fun c hc => List.dropLast_subset _ hc)
  exact ((((((((((((ha.append hb).append hc).append hd).append he).append hf).append hg).append hh).append hi).append hj).append hk).append hl).append hm).append hn

theorem ascii_splitOn {c : Char} {s : Str} (h : Ascii s) : ∀ t ∈ splitOn c s, Ascii t := by
  induction s with
  | nil => intro t ht; obtain rfl := List.mem_singleton.1 ht; exact .nil
  | cons d s ih =>
    have ih := ih fun c hc => h c (List.mem_cons_of_mem _ hc)
    unfold splitOn
    split
    · intro t ht
      rcases List.mem_cons.1 ht with rfl | ht
      · exact .nil
      · exact ih t ht
    · have hd := h d List.mem_cons_self
      split
      · intro t ht; obtain rfl := List.mem_singleton.1 ht; exact .cons hd .nil
      · rename_i p ps hp
        intro t ht
        rcases List.mem_cons.1 ht with rfl | ht
        · exact .cons hd (ih p (by rw [hp]; exact List.mem_cons_self))
        · exact ih t (by rw [hp]; exact List.mem_cons_of_mem _ ht)

theorem ascii_reframe {x : Res Str} (h : AsciiRes x) : AsciiRes (x.map VAlarm.reframe) := by
  refine h.map fun t ht => Ascii.join (by decide) fun u hu => ?_
  rcases List.mem_append.1 hu with hu | hu
  · have := List.dropLast_subset _ (List.dropLast_subset _ hu)
    rcases List.mem_cons.1 this with rfl | hu
    · decide
    · exact ascii_splitOn ht u (List.mem_of_mem_tail hu)
  · obtain rfl := List.mem_singleton.1 hu; decide

/-! ## What is read -/

/-- A line in ASCII. -/
def AsciiLine (l : ContentLine) : Prop := Ascii l.key ∧ Ascii l.value ∧ AsciiParams l.params

theorem ar_paramText {t k v rest : Str} (h : ParamText t k v rest) (ha : Ascii t) : Ascii k ∧ Ascii v := by
  cases h <;> exact ⟨ha.of_subset fun c hc => by simp [hc], ha.of_subset fun c hc => by simp [hc]⟩

theorem ar_paramsText {t rest : Str} {ps : List (Str × Str)} (h : ParamsText t ps rest) (ha : Ascii t) :
    ∀ p ∈ ps, Ascii p.1 ∧ Ascii p.2 := by
  induction h with
  | nil => simp
  | cons h1 _ ih =>
    intro p hp
    rcases List.mem_cons.1 hp with rfl | hp
    · exact ar_paramText h1 (ha.of_subset fun c hc => by simp [hc])
    · exact ih (ha.of_subset fun c hc => by simp [hc]) p hp

theorem ar_line {i r : Str} {l : ContentLine} (h : LineText i r l) (ha : Ascii i) : AsciiLine l ∧ Ascii r := by
  obtain ⟨-, -, pt, ps, eol, rfl, -, hp, -, -, -, hw, hg⟩ := h
  refine ⟨⟨ha.of_subset fun c hc => by simp [hc], ha.of_subset fun c hc => by simp [hc], ?_⟩, ha.of_subset fun c hc => by simp [hc]⟩
  intro p hm
  have h3 := mem_get? hw hm
  rw [hg] at h3
  unfold lastValue at h3
  obtain ⟨q, hq, hq2⟩ := Option.map_eq_some_iff.1 h3
  have h4 := List.mem_filter.1 (List.mem_of_getLast? hq)
  have h5 := ar_paramsText hp (ha.of_subset fun c hc => by simp [hc]) q h4.1
  have h6 : q.1 = p.1 := by simpa using h4.2
  rw [h6, hq2] at h5
  exact h5

theorem ar_lines {i r : Str} {ls : List ContentLine} (h : LinesText i ls r) (ha : Ascii i) : (∀ l ∈ ls, AsciiLine l) ∧ Ascii r := by
  induction h with
  | nil => exact ⟨by simp, ha⟩
  | cons h1 _ ih =>
    obtain ⟨h2, h3⟩ := ar_line h1 ha
    obtain ⟨h4, h5⟩ := ih h3
    refine ⟨fun l hl => ?_, h5⟩
    rcases List.mem_cons.1 hl with rfl | hl
    · exact h2
    · exact h4 l hl

theorem named_ascii {ls : List ContentLine} (hl : ∀ l ∈ ls, AsciiLine l) {n : Str} {l : ContentLine} (h : l ∈ named n ls) : AsciiLine l :=
  hl l (List.mem_filter.1 h).1

theorem last_ascii {α : Type} {ls : List ContentLine} {n : Str} {R : ContentLine → α → Prop} {P : α → Prop} {v : α}
    (hl : ∀ l ∈ ls, AsciiLine l) (h : Full.Last ls n R v) (hP : ∀ l a, AsciiLine l → R l a → P a) : P v := by
  obtain ⟨l, h1, h2⟩ := h
  exact hP l v (named_ascii hl (List.mem_of_getLast? h1)) h2

theorem lastIfAny_ascii {α : Type} {ls : List ContentLine} {n : Str} {R : ContentLine → α → Prop} {P : α → Prop} {v : Option α}
    (hl : ∀ l ∈ ls, AsciiLine l) (h : Full.LastIfAny ls n R v) (hP : ∀ l a, AsciiLine l → R l a → P a) : ∀ a ∈ v, P a := by
  intro a ha
  have h2 := h.2
  cases h1 : lastNamed n ls with
  | none => rw [h1] at h2; simp only at h2; subst h2; simp at ha
  | some l =>
    rw [h1] at h2
    obtain ⟨b, hb, rfl⟩ := h2
    obtain rfl : b = a := by simpa using ha
    exact hP l b (named_ascii hl (List.mem_of_getLast? h1)) hb

theorem each_ascii {α : Type} {ls : List ContentLine} {n : Str} {R : ContentLine → α → Prop} {P : α → Prop} {v : List α}
    (hl : ∀ l ∈ ls, AsciiLine l) (h : Full.Each ls n R v) (hP : ∀ l a, AsciiLine l → R l a → P a) : ∀ a ∈ v, P a := by
  intro a ha
  obtain ⟨l, h1, h2⟩ := All2.right h a ha
  exact hP l a (named_ascii hl h1) h2

theorem all_ascii {α : Type} {ls : List ContentLine} {n : Str} {R : ContentLine → List α → Prop} {P : α → Prop} {v : List α}
    (hl : ∀ l ∈ ls, AsciiLine l) (h : Full.All ls n R v) (hP : ∀ l as, AsciiLine l → R l as → ∀ a ∈ as, P a) : ∀ a ∈ v, P a := by
  obtain ⟨vss, h1, rfl⟩ := h
  intro a ha
  obtain ⟨vs, hvs, ha⟩ := List.mem_flatten.1 ha
  obtain ⟨l, h3, h4⟩ := All2.right h1 vs hvs
  exact hP l vs (named_ascii hl h3) h4 a ha

theorem ext_ascii {ls : List ContentLine} {known : List Str} {sel : Str → Prop} {m : SMap ContentLine}
    (hl : ∀ l ∈ ls, AsciiLine l) (h : IsExt known sel ls m) : AsciiExt m := by
  obtain ⟨hw, h1, h2⟩ := h
  intro p hp
  have h3 := mem_get? hw hp
  have hk : p.1 ∉ known ∧ sel p.1 := by
    apply Classical.byContradiction
    intro hc
    have : p.1 ∈ known ∨ ¬ sel p.1 := by
      rcases Classical.em (p.1 ∈ known) with h | h
      · exact .inl h
      · exact .inr fun hs => hc ⟨h, hs⟩
    rw [h2 p.1 this] at h3
    simp at h3
  rw [h1 p.1 hk.1 hk.2] at h3
  have h4 := List.mem_filter.1 (List.mem_of_getLast? h3)
  have h5 := hl _ h4.1
  have h6 : p.2.key = p.1 := by simpa using h4.2
  exact ⟨h6 ▸ h5.1, h5.2.1⟩

theorem ar_textLine (l : ContentLine) (a : Text) (hl : AsciiLine l) (h : Full.TextLine l a) : AsciiText a := by
  unfold AsciiText; rw [h.1, h.2]; exact hl.2

theorem ar_uriLine (l : ContentLine) (a : Uri) (hl : AsciiLine l) (h : Full.UriLine l a) : AsciiUri a := by
  unfold AsciiUri; rw [h.1, h.2]; exact hl.2

theorem ar_textsLine (l : ContentLine) (as : List Text) (hl : AsciiLine l) (h : Full.TextsLine l as) : ∀ a ∈ as, AsciiText a := by
  refine listOf_read h fun p a _ hm h => ?_
  unfold AsciiText
  rw [h.1, h.2]
  exact ⟨hl.2.1.of_subset hm, fun p hp => by cases hp⟩

theorem ar_classLine (l : ContentLine) (a : Class) (hl : AsciiLine l) (h : Full.ClassLine l a) : AsciiClass a := by
  rintro s rfl
  rw [← h.1]; exact hl.2.1

theorem ar_requestStatusLine (hf : SaneFloats) (l : ContentLine) (a : RequestStatus) (hl : AsciiLine l) (h : Full.RequestStatusLine l a) :
    AsciiRequestStatus a := by
  obtain ⟨-, rest, h1, h2⟩ := h
  obtain ⟨p, hp⟩ := hf.1 _ _ _ h1
  have h3 : Ascii rest := hl.2.1.of_subset fun c hc => by rw [hp]; simp [hc]
  unfold AsciiRequestStatus
  cases he : a.extdata with
  | none => rw [he] at h2; rw [← h2]; exact ⟨h3, by simp⟩
  | some e =>
    rw [he] at h2
    simp only at h2
    rw [h2] at h3
    refine ⟨h3.of_subset fun c hc => by simp [hc], fun e' h' => ?_⟩
    obtain rfl : e = e' := by simpa using h'
    exact h3.of_subset fun c hc => by simp [hc]

/-! ## Components -/

theorem write_Audio (hf : SaneFloats) {v : Audio} (h : AsciiAudio v) : AsciiVal (s := inferInstance) v :=
  ⟨ascii_comp (c := v.toComp) (name := c!"AUDIO") (by decide) ⟨⟨.lit rfl, ascii_Text h.action⟩, ⟨.lit rfl, val_Trigger _⟩, ⟨.lit rfl, fun a _ => val_Duration a⟩, ⟨.lit rfl, fun a _ => val_Nat a⟩, ⟨.lit rfl, fun a ha => ascii_Text (h.attach a ha)⟩, trivial⟩ h.xProp h.ianaProp, fun a ha => by cases ha⟩

theorem write_Display (hf : SaneFloats) {v : Display} (h : AsciiDisplay v) : AsciiVal (s := inferInstance) v :=
  ⟨ascii_comp (c := v.toComp) (name := c!"DISPLAY") (by decide) ⟨⟨.lit rfl, ascii_Text h.action⟩, ⟨.lit rfl, val_Trigger _⟩, ⟨.lit rfl, ascii_Text h.description⟩, ⟨.lit rfl, fun a _ => val_Duration a⟩, ⟨.lit rfl, fun a _ => val_Nat a⟩, trivial⟩ h.xProp h.ianaProp, fun a ha => by cases ha⟩

theorem write_Email (hf : SaneFloats) {v : Email} (h : AsciiEmail v) : AsciiVal (s := inferInstance) v :=
  ⟨ascii_comp (c := v.toComp) (name := c!"EMAIL") (by decide) ⟨⟨.lit rfl, ascii_Text h.action⟩, ⟨.lit rfl, val_Trigger _⟩, ⟨.lit rfl, ascii_Text h.description⟩, ⟨.lit rfl, ascii_Text h.summary⟩, ⟨.lit rfl, fun a ha => ascii_Uri (h.attendee a ha)⟩, ⟨.lit rfl, fun a _ => val_Duration a⟩, ⟨.lit rfl, fun a _ => val_Nat a⟩, ⟨.lit rfl, fun a ha => ascii_Text (h.attach a ha)⟩, trivial⟩ h.xProp h.ianaProp, fun a ha => by cases ha⟩

theorem write_VAlarm (hf : SaneFloats) {v : VAlarm} (h : AsciiVAlarm v) : AsciiVal (s := inferInstance) v := by
  refine ⟨?_, fun a ha => by cases ha⟩
  cases v with
  | audio a => exact ascii_reframe (write_Audio hf h).1
  | display a => exact ascii_reframe (write_Display hf h).1
  | email a => exact ascii_reframe (write_Email hf h).1

theorem write_VEvent (hf : SaneFloats) {v : VEvent} (h : AsciiVEvent v) : AsciiVal (s := inferInstance) v :=
  ⟨ascii_comp (c := v.toComp) (name := c!"VEVENT") (by decide) ⟨⟨.lit rfl, val_DateTime _⟩, ⟨.lit rfl, ascii_Text h.uid⟩, ⟨.lit rfl, val_Date _⟩, ⟨.lit rfl, fun a ha => ascii_Class (h.class_ a ha)⟩, ⟨.lit rfl, fun a _ => val_DateTime a⟩, ⟨.lit rfl, fun a ha => ascii_Text (h.description a ha)⟩, ⟨.lit rfl, fun a _ => val_Geo hf a⟩, ⟨.lit rfl, fun a _ => val_DateTime a⟩, ⟨.lit rfl, fun a ha => ascii_Text (h.location a ha)⟩, ⟨.lit rfl, fun a ha => ascii_Uri (h.organizer a ha)⟩, ⟨.lit rfl, fun a _ => val_Nat a⟩, ⟨.lit rfl, fun a _ => val_Nat a⟩, ⟨.lit rfl, fun a _ => val_Status a⟩, ⟨.lit rfl, fun a ha => ascii_Text (h.summary a ha)⟩, ⟨.lit rfl, fun a _ => val_Transp a⟩, ⟨.lit rfl, fun a ha => ascii_Uri (h.url a ha)⟩, ⟨.lit rfl, fun a _ => val_Date a⟩, ⟨.lit rfl, fun a _ => val_Rule a⟩, ⟨.lit rfl, fun a _ => val_Date a⟩, ⟨.lit rfl, fun a _ => val_Duration a⟩, ⟨.lit rfl, fun a ha => ascii_Text (h.attach a ha)⟩, ⟨.lit rfl, fun a ha => ascii_Uri (h.attendee a ha)⟩, ⟨.lit rfl, fun a ha => ascii_Text (h.categories a ha)⟩, ⟨.lit rfl, fun a ha => ascii_Text (h.comment a ha)⟩, ⟨.lit rfl, fun a ha => ascii_Text (h.contact a ha)⟩, ⟨.lit rfl, fun a _ => val_Date a⟩, ⟨.lit rfl, fun a ha => ascii_RequestStatus hf (h.rstatus a ha)⟩, ⟨.lit rfl, fun a ha => ascii_Text (h.relatedTo a ha)⟩, ⟨.lit rfl, fun a ha => ascii_Text (h.resources a ha)⟩, ⟨.lit rfl, fun a _ => val_RDate a⟩, ⟨.lit rfl, fun a ha => write_VAlarm hf (h.alarms a ha)⟩, trivial⟩ h.xProp h.ianaProp, fun a ha => by cases ha⟩

theorem write_VFreebusy (hf : SaneFloats) {v : VFreebusy} (h : AsciiVFreebusy v) : AsciiVal (s := inferInstance) v :=
  ⟨ascii_comp (c := v.toComp) (name := c!"VFREEBUSY") (by decide) ⟨⟨.lit rfl, val_DateTime _⟩, ⟨.lit rfl, ascii_Text h.uid⟩, ⟨.lit rfl, fun a ha => ascii_Text (h.contact a ha)⟩, ⟨.lit rfl, fun a _ => val_Date a⟩, ⟨.lit rfl, fun a _ => val_Date a⟩, ⟨.lit rfl, fun a ha => ascii_Uri (h.organizer a ha)⟩, ⟨.lit rfl, fun a ha => ascii_Uri (h.url a ha)⟩, ⟨.lit rfl, fun a ha => ascii_Uri (h.attendee a ha)⟩, ⟨.lit rfl, fun a ha => ascii_Text (h.comment a ha)⟩, ⟨.lit rfl, fun a _ => val_Period a⟩, ⟨.lit rfl, fun a ha => ascii_RequestStatus hf (h.rstatus a ha)⟩, trivial⟩ h.xProp h.ianaProp, fun a ha => by cases ha⟩

theorem write_VJournal (hf : SaneFloats) {v : VJournal} (h : AsciiVJournal v) : AsciiVal (s := inferInstance) v :=
  ⟨ascii_comp (c := v.toComp) (name := c!"VJOURNAL") (by decide) ⟨⟨.lit rfl, val_DateTime _⟩, ⟨.lit rfl, ascii_Text h.uid⟩, ⟨.lit rfl, fun a ha => ascii_Class (h.class_ a ha)⟩, ⟨.lit rfl, fun a _ => val_DateTime a⟩, ⟨.lit rfl, val_Date _⟩, ⟨.lit rfl, fun a _ => val_DateTime a⟩, ⟨.lit rfl, fun a ha => ascii_Uri (h.organizer a ha)⟩, ⟨.lit rfl, fun a _ => val_Date a⟩, ⟨.lit rfl, fun a _ => val_Nat a⟩, ⟨.lit rfl, fun a _ => val_Status a⟩, ⟨.lit rfl, fun a ha => ascii_Text (h.summary a ha)⟩, ⟨.lit rfl, fun a ha => ascii_Uri (h.url a ha)⟩, ⟨.lit rfl, fun a _ => val_Rule a⟩, ⟨.lit rfl, fun a ha => ascii_Text (h.attach a ha)⟩, ⟨.lit rfl, fun a ha => ascii_Uri (h.attendee a ha)⟩, ⟨.lit rfl, fun a ha => ascii_Text (h.categories a ha)⟩, ⟨.lit rfl, fun a ha => ascii_Text (h.comment a ha)⟩, ⟨.lit rfl, fun a ha => ascii_Text (h.contact a ha)⟩, ⟨.lit rfl, fun a ha => ascii_Text (h.description a ha)⟩, ⟨.lit rfl, fun a _ => val_Date a⟩, ⟨.lit rfl, fun a ha => ascii_Text (h.relatedTo a ha)⟩, ⟨.lit rfl, fun a _ => val_RDate a⟩, ⟨.lit rfl, fun a ha => ascii_RequestStatus hf (h.rstatus a ha)⟩, trivial⟩ h.xProp h.ianaProp, fun a ha => by cases ha⟩

theorem write_Standard (hf : SaneFloats) {v : Standard} (h : AsciiStandard v) : AsciiVal (s := inferInstance) v :=
  ⟨ascii_comp (c := v.toComp) (name := c!"STANDARD") (by decide) ⟨⟨.lit rfl, val_Date _⟩, ⟨.lit rfl, val_Offset _⟩, ⟨.lit rfl, val_Offset _⟩, ⟨.lit rfl, fun a _ => val_Rule a⟩, ⟨.lit rfl, fun a ha => ascii_Text (h.comment a ha)⟩, ⟨.lit rfl, fun a _ => val_RDate a⟩, ⟨.lit rfl, fun a ha => ascii_Text (h.tzname a ha)⟩, trivial⟩ h.xProp h.ianaProp, fun a ha => by cases ha⟩

theorem write_Daylight (hf : SaneFloats) {v : Daylight} (h : AsciiDaylight v) : AsciiVal (s := inferInstance) v :=
  ⟨ascii_comp (c := v.toComp) (name := c!"DAYLIGHT") (by decide) ⟨⟨.lit rfl, val_Date _⟩, ⟨.lit rfl, val_Offset _⟩, ⟨.lit rfl, val_Offset _⟩, ⟨.lit rfl, fun a _ => val_Rule a⟩, ⟨.lit rfl, fun a ha => ascii_Text (h.comment a ha)⟩, ⟨.lit rfl, fun a _ => val_RDate a⟩, ⟨.lit rfl, fun a ha => ascii_Text (h.tzname a ha)⟩, trivial⟩ h.xProp h.ianaProp, fun a ha => by cases ha⟩

theorem write_VTimezone (hf : SaneFloats) {v : VTimezone} (h : AsciiVTimezone v) : AsciiVal (s := inferInstance) v :=
  ⟨ascii_comp (c := v.toComp) (name := c!"VTIMEZONE") (by decide) ⟨⟨.lit rfl, ascii_Text h.tzid⟩, ⟨.lit rfl, fun a _ => val_DateTime a⟩, ⟨.lit rfl, fun a ha => ascii_Uri (h.tzurl a ha)⟩, ⟨.lit rfl, fun a ha => write_Standard hf (h.standard a ha)⟩, ⟨.lit rfl, fun a ha => write_Daylight hf (h.daylight a ha)⟩, trivial⟩ h.xProp h.ianaProp, fun a ha => by cases ha⟩

theorem write_VTodo (hf : SaneFloats) {v : VTodo} (h : AsciiVTodo v) : AsciiVal (s := inferInstance) v :=
  ⟨ascii_comp (c := v.toComp) (name := c!"VTODO") (by decide) ⟨⟨.lit rfl, val_DateTime _⟩, ⟨.lit rfl, ascii_Text h.uid⟩, ⟨.lit rfl, fun a ha => ascii_Class (h.class_ a ha)⟩, ⟨.lit rfl, fun a _ => val_DateTime a⟩, ⟨.lit rfl, fun a _ => val_DateTime a⟩, ⟨.lit rfl, fun a _ => val_Date a⟩, ⟨.lit rfl, fun a _ => val_Geo hf a⟩, ⟨.lit rfl, fun a _ => val_DateTime a⟩, ⟨.lit rfl, fun a ha => ascii_Text (h.location a ha)⟩, ⟨.lit rfl, fun a ha => ascii_Uri (h.organizer a ha)⟩, ⟨.lit rfl, fun a _ => val_Nat a⟩, ⟨.lit rfl, fun a _ => val_Nat a⟩, ⟨.lit rfl, fun a _ => val_Date a⟩, ⟨.lit rfl, fun a _ => val_Nat a⟩, ⟨.lit rfl, fun a _ => val_Status a⟩, ⟨.lit rfl, fun a ha => ascii_Text (h.summary a ha)⟩, ⟨.lit rfl, fun a ha => ascii_Uri (h.url a ha)⟩, ⟨.lit rfl, fun a _ => val_Rule a⟩, ⟨.lit rfl, fun a _ => val_Date a⟩, ⟨.lit rfl, fun a _ => val_Duration a⟩, ⟨.lit rfl, fun a ha => ascii_Text (h.attach a ha)⟩, ⟨.lit rfl, fun a ha => ascii_Uri (h.attendee a ha)⟩, ⟨.lit rfl, fun a ha => ascii_Text (h.categories a ha)⟩, ⟨.lit rfl, fun a ha => ascii_Text (h.comment a ha)⟩, ⟨.lit rfl, fun a ha => ascii_Text (h.contact a ha)⟩, ⟨.lit rfl, fun a _ => val_Date a⟩, ⟨.lit rfl, fun a ha => ascii_RequestStatus hf (h.rstatus a ha)⟩, ⟨.lit rfl, fun a ha => ascii_Text (h.relatedTo a ha)⟩, ⟨.lit rfl, fun a ha => ascii_Text (h.resources a ha)⟩, ⟨.lit rfl, fun a _ => val_RDate a⟩, trivial⟩ h.xProp h.ianaProp, fun a ha => by cases ha⟩

theorem write_VCalendar (hf : SaneFloats) {v : VCalendar} (h : AsciiVCalendar v) : AsciiVal (s := inferInstance) v :=
  ⟨ascii_comp (c := v.toComp) (name := c!"VCALENDAR") (by decide) ⟨⟨.lit rfl, ascii_Text h.prodid⟩, ⟨.lit rfl, ascii_Text h.version⟩, ⟨.lit rfl, fun a ha => ascii_Text (h.calscale a ha)⟩, ⟨.lit rfl, fun a ha => ascii_Text (h.method a ha)⟩, ⟨.lit rfl, fun a ha => write_VAlarm hf (h.alarms a ha)⟩, ⟨.lit rfl, fun a ha => write_VEvent hf (h.events a ha)⟩, ⟨.lit rfl, fun a ha => write_VFreebusy hf (h.freebusy a ha)⟩, ⟨.lit rfl, fun a ha => write_VJournal hf (h.journals a ha)⟩, ⟨.lit rfl, fun a ha => write_VTodo hf (h.todo a ha)⟩, ⟨.lit rfl, fun a ha => write_VTimezone hf (h.timezones a ha)⟩, trivial⟩ h.xProp h.ianaProp, fun a ha => by cases ha⟩

theorem ar_Audio (hf : SaneFloats) {ls : List ContentLine} {v : Audio} (hl : ∀ l ∈ ls, AsciiLine l) (h : Full.AudioFrom ls v)
     : AsciiAudio v where
  action := last_ascii hl h.action ar_textLine
  attach := each_ascii hl h.attach ar_textLine
  xProp := ext_ascii hl h.xProp
  ianaProp := ext_ascii hl h.ianaProp

theorem ar_Display (hf : SaneFloats) {ls : List ContentLine} {v : Display} (hl : ∀ l ∈ ls, AsciiLine l) (h : Full.DisplayFrom ls v)
     : AsciiDisplay v where
  action := last_ascii hl h.action ar_textLine
  description := last_ascii hl h.description ar_textLine
  xProp := ext_ascii hl h.xProp
  ianaProp := ext_ascii hl h.ianaProp

theorem ar_Email (hf : SaneFloats) {ls : List ContentLine} {v : Email} (hl : ∀ l ∈ ls, AsciiLine l) (h : Full.EmailFrom ls v)
     : AsciiEmail v where
  action := last_ascii hl h.action ar_textLine
  description := last_ascii hl h.description ar_textLine
  summary := last_ascii hl h.summary ar_textLine
  attendee := each_ascii hl h.attendee ar_uriLine
  attach := each_ascii hl h.attach ar_textLine
  xProp := ext_ascii hl h.xProp
  ianaProp := ext_ascii hl h.ianaProp

theorem ar_VEvent (hf : SaneFloats) {ls : List ContentLine} {v : VEvent} (hl : ∀ l ∈ ls, AsciiLine l) (h : Full.VEventFrom ls { v with alarms := [] })
    (h_alarms : ∀ a ∈ v.alarms, AsciiVAlarm a) : AsciiVEvent v where
  uid := last_ascii hl h.uid ar_textLine
  class_ := lastIfAny_ascii hl h.class_ ar_classLine
  description := lastIfAny_ascii hl h.description ar_textLine
  location := lastIfAny_ascii hl h.location ar_textLine
  organizer := lastIfAny_ascii hl h.organizer ar_uriLine
  summary := lastIfAny_ascii hl h.summary ar_textLine
  url := lastIfAny_ascii hl h.url ar_uriLine
  attach := each_ascii hl h.attach ar_textLine
  attendee := each_ascii hl h.attendee ar_uriLine
  categories := all_ascii hl h.categories ar_textsLine
  comment := each_ascii hl h.comment ar_textLine
  contact := each_ascii hl h.contact ar_textLine
  rstatus := each_ascii hl h.rstatus (ar_requestStatusLine hf)
  relatedTo := each_ascii hl h.relatedTo ar_textLine
  resources := all_ascii hl h.resources ar_textsLine
  alarms := h_alarms
  xProp := ext_ascii hl h.xProp
  ianaProp := ext_ascii hl h.ianaProp

theorem ar_VFreebusy (hf : SaneFloats) {ls : List ContentLine} {v : VFreebusy} (hl : ∀ l ∈ ls, AsciiLine l) (h : Full.VFreebusyFrom ls v)
     : AsciiVFreebusy v where
  uid := last_ascii hl h.uid ar_textLine
  contact := lastIfAny_ascii hl h.contact ar_textLine
  organizer := lastIfAny_ascii hl h.organizer ar_uriLine
  url := lastIfAny_ascii hl h.url ar_uriLine
  attendee := each_ascii hl h.attendee ar_uriLine
  comment := each_ascii hl h.comment ar_textLine
  rstatus := each_ascii hl h.rstatus (ar_requestStatusLine hf)
  xProp := ext_ascii hl h.xProp
  ianaProp := ext_ascii hl h.ianaProp

theorem ar_VJournal (hf : SaneFloats) {ls : List ContentLine} {v : VJournal} (hl : ∀ l ∈ ls, AsciiLine l) (h : Full.VJournalFrom ls v)
     : AsciiVJournal v where
  uid := last_ascii hl h.uid ar_textLine
  class_ := lastIfAny_ascii hl h.class_ ar_classLine
  organizer := lastIfAny_ascii hl h.organizer ar_uriLine
  summary := lastIfAny_ascii hl h.summary ar_textLine
  url := lastIfAny_ascii hl h.url ar_uriLine
  attach := each_ascii hl h.attach ar_textLine
  attendee := each_ascii hl h.attendee ar_uriLine
  categories := all_ascii hl h.categories ar_textsLine
  comment := each_ascii hl h.comment ar_textLine
  contact := each_ascii hl h.contact ar_textLine
  description := each_ascii hl h.description ar_textLine
  relatedTo := each_ascii hl h.relatedTo ar_textLine
  rstatus := each_ascii hl h.rstatus (ar_requestStatusLine hf)
  xProp := ext_ascii hl h.xProp
  ianaProp := ext_ascii hl h.ianaProp

theorem ar_Standard (hf : SaneFloats) {ls : List ContentLine} {v : Standard} (hl : ∀ l ∈ ls, AsciiLine l) (h : Full.StandardFrom ls v)
     : AsciiStandard v where
  comment := each_ascii hl h.comment ar_textLine
  tzname := each_ascii hl h.tzname ar_textLine
  xProp := ext_ascii hl h.xProp
  ianaProp := ext_ascii hl h.ianaProp

theorem ar_Daylight (hf : SaneFloats) {ls : List ContentLine} {v : Daylight} (hl : ∀ l ∈ ls, AsciiLine l) (h : Full.DaylightFrom ls v)
     : AsciiDaylight v where
  comment := each_ascii hl h.comment ar_textLine
  tzname := each_ascii hl h.tzname ar_textLine
  xProp := ext_ascii hl h.xProp
  ianaProp := ext_ascii hl h.ianaProp

theorem ar_VTimezone (hf : SaneFloats) {ls : List ContentLine} {v : VTimezone} (hl : ∀ l ∈ ls, AsciiLine l) (h : Full.VTimezoneFrom ls { v with standard := [], daylight := [] })
    (h_standard : ∀ a ∈ v.standard, AsciiStandard a) (h_daylight : ∀ a ∈ v.daylight, AsciiDaylight a) : AsciiVTimezone v where
  tzid := last_ascii hl h.tzid ar_textLine
  tzurl := lastIfAny_ascii hl h.tzurl ar_uriLine
  standard := h_standard
  daylight := h_daylight
  xProp := ext_ascii hl h.xProp
  ianaProp := ext_ascii hl h.ianaProp

theorem ar_VTodo (hf : SaneFloats) {ls : List ContentLine} {v : VTodo} (hl : ∀ l ∈ ls, AsciiLine l) (h : Full.VTodoFrom ls v)
     : AsciiVTodo v where
  uid := last_ascii hl h.uid ar_textLine
  class_ := lastIfAny_ascii hl h.class_ ar_classLine
  location := lastIfAny_ascii hl h.location ar_textLine
  organizer := lastIfAny_ascii hl h.organizer ar_uriLine
  summary := lastIfAny_ascii hl h.summary ar_textLine
  url := lastIfAny_ascii hl h.url ar_uriLine
  attach := each_ascii hl h.attach ar_textLine
  attendee := each_ascii hl h.attendee ar_uriLine
  categories := all_ascii hl h.categories ar_textsLine
  comment := each_ascii hl h.comment ar_textLine
  contact := each_ascii hl h.contact ar_textLine
  rstatus := each_ascii hl h.rstatus (ar_requestStatusLine hf)
  relatedTo := each_ascii hl h.relatedTo ar_textLine
  resources := all_ascii hl h.resources ar_textsLine
  xProp := ext_ascii hl h.xProp
  ianaProp := ext_ascii hl h.ianaProp

theorem ar_VCalendar (hf : SaneFloats) {ls : List ContentLine} {v : VCalendar} (hl : ∀ l ∈ ls, AsciiLine l) (h : Full.VCalendarFrom ls { v with alarms := [], events := [], freebusy := [], journals := [], todo := [], timezones := [] })
    (h_alarms : ∀ a ∈ v.alarms, AsciiVAlarm a) (h_events : ∀ a ∈ v.events, AsciiVEvent a) (h_freebusy : ∀ a ∈ v.freebusy, AsciiVFreebusy a) (h_journals : ∀ a ∈ v.journals, AsciiVJournal a) (h_todo : ∀ a ∈ v.todo, AsciiVTodo a) (h_timezones : ∀ a ∈ v.timezones, AsciiVTimezone a) : AsciiVCalendar v where
  prodid := last_ascii hl h.prodid ar_textLine
  version := last_ascii hl h.version ar_textLine
  calscale := lastIfAny_ascii hl h.calscale ar_textLine
  method := lastIfAny_ascii hl h.method ar_textLine
  alarms := h_alarms
  events := h_events
  freebusy := h_freebusy
  journals := h_journals
  todo := h_todo
  timezones := h_timezones
  xProp := ext_ascii hl h.xProp
  ianaProp := ext_ascii hl h.ianaProp

theorem ar_leaf {name i r : Str} {ls : List ContentLine} (h : LeafText name i ls r) (ha : Ascii i) : (∀ l ∈ ls, AsciiLine l) ∧ Ascii r := by
  obtain ⟨body, rfl, h⟩ := h
  obtain ⟨h1, h2⟩ := ar_lines h (ha.of_subset fun c hc => by simp [hc])
  exact ⟨h1, h2.of_subset fun c hc => by simp [hc]⟩

theorem ar_seq {α : Type} {T : Str → α → Str → Prop} {P : α → Prop} (hT : ∀ i a r, T i a r → Ascii i → P a ∧ Ascii r) {i r : Str} {as : List α}
    (h : SeqText T i as r) (ha : Ascii i) : (∀ a ∈ as, P a) ∧ Ascii r := by
  induction h with
  | nil => exact ⟨by simp, ha⟩
  | cons h1 _ ih =>
    obtain ⟨h2, h3⟩ := hT _ _ _ h1 ha
    obtain ⟨h4, h5⟩ := ih h3
    refine ⟨fun a ha => ?_, h5⟩
    rcases List.mem_cons.1 ha with rfl | ha
    · exact h2
    · exact h4 a ha

variable (hf : SaneFloats)
include hf

theorem ar_alarmText {i r : Str} {v : VAlarm} (h : Full.AlarmText i v r) (ha : Ascii i) : AsciiVAlarm v ∧ Ascii r := by
  obtain ⟨ls, hl, h⟩ := h
  obtain ⟨h1, h2⟩ := ar_leaf hl ha
  refine ⟨?_, h2⟩
  cases v with
  | audio a => exact ar_Audio hf h1 h.2
  | display a => exact ar_Display hf h1 h.2
  | email a => exact ar_Email hf h1 h.2

theorem ar_todoText {i r : Str} {v : VTodo} (h : Full.TodoText i v r) (ha : Ascii i) : AsciiVTodo v ∧ Ascii r := by
  obtain ⟨ls, hl, h⟩ := h
  obtain ⟨h1, h2⟩ := ar_leaf hl ha
  exact ⟨ar_VTodo hf h1 h, h2⟩

theorem ar_journalText {i r : Str} {v : VJournal} (h : Full.JournalText i v r) (ha : Ascii i) : AsciiVJournal v ∧ Ascii r := by
  obtain ⟨ls, hl, h⟩ := h
  obtain ⟨h1, h2⟩ := ar_leaf hl ha
  exact ⟨ar_VJournal hf h1 h, h2⟩

theorem ar_freebusyText {i r : Str} {v : VFreebusy} (h : Full.FreebusyText i v r) (ha : Ascii i) : AsciiVFreebusy v ∧ Ascii r := by
  obtain ⟨ls, hl, h⟩ := h
  obtain ⟨h1, h2⟩ := ar_leaf hl ha
  exact ⟨ar_VFreebusy hf h1 h, h2⟩

theorem ar_standardText {i r : Str} {v : Standard} (h : Full.StandardText i v r) (ha : Ascii i) : AsciiStandard v ∧ Ascii r := by
  obtain ⟨ls, hl, h⟩ := h
  obtain ⟨h1, h2⟩ := ar_leaf hl ha
  exact ⟨ar_Standard hf h1 h, h2⟩

theorem ar_daylightText {i r : Str} {v : Daylight} (h : Full.DaylightText i v r) (ha : Ascii i) : AsciiDaylight v ∧ Ascii r := by
  obtain ⟨ls, hl, h⟩ := h
  obtain ⟨h1, h2⟩ := ar_leaf hl ha
  exact ⟨ar_Daylight hf h1 h, h2⟩

theorem ar_eventText {i r : Str} {v : VEvent} (h : Full.EventText i v r) (ha : Ascii i) : AsciiVEvent v ∧ Ascii r := by
  obtain ⟨body, ls, r1, rfl, hl, hs, h⟩ := h
  obtain ⟨h1, h2⟩ := ar_lines hl (ha.of_subset fun c hc => by simp [hc])
  obtain ⟨h3, h4⟩ := ar_seq (fun _ _ _ h ha => ar_alarmText hf h ha) hs h2
  exact ⟨ar_VEvent hf h1 h h3, h4.of_subset fun c hc => by simp [hc]⟩

theorem ar_timezoneText {i r : Str} {v : VTimezone} (h : Full.TimezoneText i v r) (ha : Ascii i) : AsciiVTimezone v ∧ Ascii r := by
  obtain ⟨body, ls, r1, parts, rfl, hl, hs, h, h1, h2⟩ := h
  obtain ⟨h3, h4⟩ := ar_lines hl (ha.of_subset fun c hc => by simp [hc])
  have hp := ar_seq (P := fun p => (∀ s, p = .standard s → AsciiStandard s) ∧ ∀ d, p = .daylight d → AsciiDaylight d) (fun i p r h ha => by
    cases p with
    | standard s =>
      obtain ⟨h1, h2⟩ := ar_standardText hf h ha
      exact ⟨⟨fun s' e => (by cases e; exact h1), fun _ e => (by cases e)⟩, h2⟩
    | daylight d =>
      obtain ⟨h1, h2⟩ := ar_daylightText hf h ha
      exact ⟨⟨fun _ e => (by cases e), fun s' e => (by cases e; exact h1)⟩, h2⟩) hs h4
  refine ⟨ar_VTimezone hf h3 h ?_ ?_, hp.2.of_subset fun c hc => by simp [hc]⟩
  · intro a ha
    rw [h1, standardParts, List.mem_filterMap] at ha
    obtain ⟨p, hm, he⟩ := ha
    cases p with
    | standard s => exact (hp.1 _ hm).1 a (by simpa using he)
    | daylight d => simp at he
  · intro a ha
    rw [h2, daylightParts, List.mem_filterMap] at ha
    obtain ⟨p, hm, he⟩ := ha
    cases p with
    | standard s => simp at he
    | daylight d => exact (hp.1 _ hm).2 a (by simpa using he)

omit hf in
/-- A component of a calendar in ASCII. -/
def AsciiComponent : Component → Prop
  | .alarm c => AsciiVAlarm c
  | .event c => AsciiVEvent c
  | .freebusy c => AsciiVFreebusy c
  | .journal c => AsciiVJournal c
  | .timezone c => AsciiVTimezone c
  | .todo c => AsciiVTodo c

theorem ar_componentText {i r : Str} {v : Component} (h : Full.ComponentText i v r) (ha : Ascii i) : AsciiComponent v ∧ Ascii r := by
  cases v with
  | alarm c => exact ar_alarmText hf h ha
  | event c => exact ar_eventText hf h ha
  | freebusy c => exact ar_freebusyText hf h ha
  | journal c => exact ar_journalText hf h ha
  | timezone c => exact ar_timezoneText hf h ha
  | todo c => exact ar_todoText hf h ha

theorem ar_calendarText {i r : Str} {v : VCalendar} {cs : List Component} (h : Full.CalendarText i v cs r) (ha : Ascii i) : AsciiVCalendar v := by
  obtain ⟨body, ls, r1, rfl, hl, hs, h, h1, h2, h3, h4, h5, h6⟩ := h
  obtain ⟨h7, h8⟩ := ar_lines hl (ha.of_subset fun c hc => by simp [hc])
  have hp := (ar_seq (fun _ _ _ h ha => ar_componentText hf h ha) hs h8).1
  refine ar_VCalendar hf h7 h ?_ ?_ ?_ ?_ ?_ ?_
  · intro a ha
    rw [h1, alarmsOf, List.mem_filterMap] at ha
    obtain ⟨p, hm, he⟩ := ha
    cases p <;> simp at he
    subst he; exact hp _ hm
  · intro a ha
    rw [h2, eventsOf, List.mem_filterMap] at ha
    obtain ⟨p, hm, he⟩ := ha
    cases p <;> simp at he
    subst he; exact hp _ hm
  · intro a ha
    rw [h3, freebusyOf, List.mem_filterMap] at ha
    obtain ⟨p, hm, he⟩ := ha
    cases p <;> simp at he
    subst he; exact hp _ hm
  · intro a ha
    rw [h4, journalsOf, List.mem_filterMap] at ha
    obtain ⟨p, hm, he⟩ := ha
    cases p <;> simp at he
    subst he; exact hp _ hm
  · intro a ha
    rw [h5, todosOf, List.mem_filterMap] at ha
    obtain ⟨p, hm, he⟩ := ha
    cases p <;> simp at he
    subst he; exact hp _ hm
  · intro a ha
    rw [h6, timezonesOf, List.mem_filterMap] at ha
    obtain ⟨p, hm, he⟩ := ha
    cases p <;> simp at he
    subst he; exact hp _ hm

omit hf in
theorem ar_unfolds {s u : Str} (h : Full.Unfolds s u) (ha : Ascii s) : Ascii u := by
  induction h with
  | nil => exact .nil
  | fold _ ih => exact ih (ha.of_subset fun c hc => by simp [hc])
  | keep _ _ ih => exact .cons (ha _ List.mem_cons_self) (ih fun c hc => ha c (List.mem_cons_of_mem _ hc))

omit hf in
theorem ical_of_val {α : Type} [s : Ser α] {v : α} (h : AsciiVal (s := s) v) : ∃ t, ical v = .ok t ∧ Ascii t := by
  unfold ical
  refine h.1.map fun t ht => Ascii.append ?_ ht
  split
  · rename_i a ha; exact (h.2 a ha).append (by decide)
  · exact .nil

/-- **C82** for an alarm: if its texts are ASCII it is written, in ASCII. -/
theorem C82_VAlarm {v : VAlarm} (h : AsciiVAlarm v) : ∃ t, ical v = .ok t ∧ Ascii t := ical_of_val (write_VAlarm hf h)

/-- **C82** for an alarm: what is read from ASCII is ASCII, and so can be written. -/
theorem C82_VAlarm_read {s : Str} (hs : Ascii s) {v : VAlarm} (h : VAlarm.ofStr s = .ok v) : AsciiVAlarm v ∧ ∃ t, ical v = .ok t ∧ Ascii t := by
  obtain ⟨u, r, hu, h⟩ := (C76_VAlarm s v).1 h
  have h1 := (ar_alarmText hf h (ar_unfolds hu hs)).1
  exact ⟨h1, C82_VAlarm hf h1⟩

/-- **C82** for an event: if its texts are ASCII it is written, in ASCII. -/
theorem C82_VEvent {v : VEvent} (h : AsciiVEvent v) : ∃ t, ical v = .ok t ∧ Ascii t := ical_of_val (write_VEvent hf h)

/-- **C82** for an event: what is read from ASCII is ASCII, and so can be written. -/
theorem C82_VEvent_read {s : Str} (hs : Ascii s) {v : VEvent} (h : VEvent.ofStr s = .ok v) : AsciiVEvent v ∧ ∃ t, ical v = .ok t ∧ Ascii t := by
  obtain ⟨u, r, hu, h⟩ := (C76_VEvent s v).1 h
  have h1 := (ar_eventText hf h (ar_unfolds hu hs)).1
  exact ⟨h1, C82_VEvent hf h1⟩

/-- **C82** for a to-do: if its texts are ASCII it is written, in ASCII. -/
theorem C82_VTodo {v : VTodo} (h : AsciiVTodo v) : ∃ t, ical v = .ok t ∧ Ascii t := ical_of_val (write_VTodo hf h)

/-- **C82** for a to-do: what is read from ASCII is ASCII, and so can be written. -/
theorem C82_VTodo_read {s : Str} (hs : Ascii s) {v : VTodo} (h : VTodo.ofStr s = .ok v) : AsciiVTodo v ∧ ∃ t, ical v = .ok t ∧ Ascii t := by
  obtain ⟨u, r, hu, h⟩ := (C76_VTodo s v).1 h
  have h1 := (ar_todoText hf h (ar_unfolds hu hs)).1
  exact ⟨h1, C82_VTodo hf h1⟩

/-- **C82** for a journal entry: if its texts are ASCII it is written, in ASCII. -/
theorem C82_VJournal {v : VJournal} (h : AsciiVJournal v) : ∃ t, ical v = .ok t ∧ Ascii t := ical_of_val (write_VJournal hf h)

/-- **C82** for a journal entry: what is read from ASCII is ASCII, and so can be written. -/
theorem C82_VJournal_read {s : Str} (hs : Ascii s) {v : VJournal} (h : VJournal.ofStr s = .ok v) : AsciiVJournal v ∧ ∃ t, ical v = .ok t ∧ Ascii t := by
  obtain ⟨u, r, hu, h⟩ := (C76_VJournal s v).1 h
  have h1 := (ar_journalText hf h (ar_unfolds hu hs)).1
  exact ⟨h1, C82_VJournal hf h1⟩

/-- **C82** for a free/busy component: if its texts are ASCII it is written, in ASCII. -/
theorem C82_VFreebusy {v : VFreebusy} (h : AsciiVFreebusy v) : ∃ t, ical v = .ok t ∧ Ascii t := ical_of_val (write_VFreebusy hf h)

/-- **C82** for a free/busy component: what is read from ASCII is ASCII, and so can be written. -/
theorem C82_VFreebusy_read {s : Str} (hs : Ascii s) {v : VFreebusy} (h : VFreebusy.ofStr s = .ok v) : AsciiVFreebusy v ∧ ∃ t, ical v = .ok t ∧ Ascii t := by
  obtain ⟨u, r, hu, h⟩ := (C76_VFreebusy s v).1 h
  have h1 := (ar_freebusyText hf h (ar_unfolds hu hs)).1
  exact ⟨h1, C82_VFreebusy hf h1⟩

/-- **C82** for the standard part of a time zone: if its texts are ASCII it is written, in ASCII. -/
theorem C82_Standard {v : Standard} (h : AsciiStandard v) : ∃ t, ical v = .ok t ∧ Ascii t := ical_of_val (write_Standard hf h)

/-- **C82** for the standard part of a time zone: what is read from ASCII is ASCII, and so can be written. -/
theorem C82_Standard_read {s : Str} (hs : Ascii s) {v : Standard} (h : Standard.ofStr s = .ok v) : AsciiStandard v ∧ ∃ t, ical v = .ok t ∧ Ascii t := by
  obtain ⟨u, r, hu, h⟩ := (C76_Standard s v).1 h
  have h1 := (ar_standardText hf h (ar_unfolds hu hs)).1
  exact ⟨h1, C82_Standard hf h1⟩

/-- **C82** for the daylight part of a time zone: if its texts are ASCII it is written, in ASCII. -/
theorem C82_Daylight {v : Daylight} (h : AsciiDaylight v) : ∃ t, ical v = .ok t ∧ Ascii t := ical_of_val (write_Daylight hf h)

/-- **C82** for the daylight part of a time zone: what is read from ASCII is ASCII, and so can be written. -/
theorem C82_Daylight_read {s : Str} (hs : Ascii s) {v : Daylight} (h : Daylight.ofStr s = .ok v) : AsciiDaylight v ∧ ∃ t, ical v = .ok t ∧ Ascii t := by
  obtain ⟨u, r, hu, h⟩ := (C76_Daylight s v).1 h
  have h1 := (ar_daylightText hf h (ar_unfolds hu hs)).1
  exact ⟨h1, C82_Daylight hf h1⟩

/-- **C82** for a time zone: if its texts are ASCII it is written, in ASCII. -/
theorem C82_VTimezone {v : VTimezone} (h : AsciiVTimezone v) : ∃ t, ical v = .ok t ∧ Ascii t := ical_of_val (write_VTimezone hf h)

/-- **C82** for a time zone: what is read from ASCII is ASCII, and so can be written. -/
theorem C82_VTimezone_read {s : Str} (hs : Ascii s) {v : VTimezone} (h : VTimezone.ofStr s = .ok v) : AsciiVTimezone v ∧ ∃ t, ical v = .ok t ∧ Ascii t := by
  obtain ⟨u, r, hu, h⟩ := (C76_VTimezone s v).1 h
  have h1 := (ar_timezoneText hf h (ar_unfolds hu hs)).1
  exact ⟨h1, C82_VTimezone hf h1⟩

/-- **C82** for a calendar: if its texts are ASCII it is written, in ASCII. -/
theorem C82_VCalendar {v : VCalendar} (h : AsciiVCalendar v) : ∃ t, ical v = .ok t ∧ Ascii t := ical_of_val (write_VCalendar hf h)

/-- **C82** for a calendar: what is read from ASCII is ASCII, and so can be written. -/
theorem C82_VCalendar_read {s : Str} (hs : Ascii s) {v : VCalendar} (h : VCalendar.ofStr s = .ok v) : AsciiVCalendar v ∧ ∃ t, ical v = .ok t ∧ Ascii t := by
  obtain ⟨u, cs, r, hu, h⟩ := (C76_VCalendar s v).1 h
  have h1 := ar_calendarText hf h (ar_unfolds hu hs)
  exact ⟨h1, C82_VCalendar hf h1⟩

end

section
attribute [local instance] utc

/-- A journal entry in ASCII with an emoticon instead of an emoji. -/
def asciiJournal : Str :=
  c!"BEGIN:VJOURNAL\r\nDTSTAMP:20240229T120000Z\r\nUID:1\r\nDTSTART:20240301\r\nSUMMARY:A summary that is longer than seventy-five octets, which has to be folded ;-)\r\nEND:VJOURNAL\r\n"

set_option maxRecDepth 8000 in
example : Ascii asciiJournal := by decide +kernel

set_option maxRecDepth 8000 in
example : ∃ v t, VJournal.ofStr asciiJournal = .ok v ∧ ical v = .ok t ∧ Ascii t := ⟨_, _, rfl, rfl, by decide +kernel⟩

/-- With other characters writing can panic, although the text was read. -/
def umlautJournal : Str :=
  c!"BEGIN:VJOURNAL\r\nDTSTAMP:20240229T120000Z\r\nUID:1\r\nDTSTART:20240301\r\nSUMMARY:A summary that is longer than seventy-five octets, which has an xüüü umlaut\r\nEND:VJOURNAL\r\n"

set_option maxRecDepth 8000 in
/-- **C82**, the limit: a text that is not ASCII can be read as something that cannot be written. -/
theorem C82_umlaut : ∃ v, VJournal.ofStr umlautJournal = .ok v ∧ ical v = .panic := ⟨_, rfl, rfl⟩

end

end Ikal
