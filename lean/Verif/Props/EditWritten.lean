import Verif.Props.Output
import Verif.Macros
import Verif.TestPlatform

/-!
# C106: Editing a component

If one field of a component is changed and it is written again, only the lines of that field change in the text.
-/

set_option linter.unusedSectionVars false

namespace Ikal
open Spec

/-- A predicate of at most one text. -/
def Determined (P : Str → Prop) : Prop := ∀ a b, P a → P b → a = b

section
variable [Platform]

theorem det {P : Str → Prop} {r : Res Str} (h : ∀ o, r = .ok o ↔ P o) : Determined P := fun a b ha hb => by
  have h1 := (h a).2 ha
  rw [(h b).2 hb] at h1
  injection h1 with h1
  exact h1.symm

theorem concat_det : ∀ {Ps : List (Str → Prop)} {s s' : Str}, (∀ P ∈ Ps, Determined P) → Concat Ps s → Concat Ps s' → s = s'
  | [], _, _, _, h, h' => by cases h; cases h'; rfl
  | P :: Ps, _, _, hd, h, h' => by
    cases h with
    | cons h1 h2 =>
      cases h' with
      | cons h1' h2' => rw [hd P (by simp) _ _ h1 h1', concat_det (fun P hP => hd P (by simp [hP])) h2 h2']

theorem concat_set : ∀ {Ps : List (Str → Prop)} {i : Nat} {P' : Str → Prop} {s s' : Str}, (∀ P ∈ Ps, Determined P) → i < Ps.length → Concat Ps s → Concat (Ps.set i P') s' →
    ∃ a p p' b, s = a ++ p ++ b ∧ s' = a ++ p' ++ b ∧ (∀ P, Ps[i]? = some P → P p) ∧ P' p'
  | [], _, _, _, _, _, hi, _, _ => absurd hi (by simp)
  | P :: Ps, 0, P', s, s', hd, _, h, h' => by
    simp only [List.set_cons_zero] at h'
    cases h with
    | @cons _ _ p b h1 h2 =>
      cases h' with
      | @cons _ _ p' b' h1' h2' =>
        have : b = b' := concat_det (fun P hP => hd P (by simp [hP])) h2 h2'
        subst this
        exact ⟨[], p, p', b, rfl, rfl, fun Q hQ => by simp at hQ; exact hQ ▸ h1, h1'⟩
  | P :: Ps, i + 1, P', s, s', hd, hi, h, h' => by
    simp only [List.set_cons_succ] at h'
    cases h with
    | @cons _ _ q b h1 h2 =>
      cases h' with
      | @cons _ _ q' b' h1' h2' =>
        have : q = q' := hd P (by simp) _ _ h1 h1'
        subst this
        obtain ⟨a, p, p', c, rfl, rfl, h3, h4⟩ := concat_set (fun P hP => hd P (by simp [hP])) (by simpa using hi) h2 h2'
        exact ⟨q ++ a, p, p', c, by simp, by simp, fun Q hQ => h3 Q (by simpa using hQ), h4⟩

theorem frame_set {name : Str} {Ps Qs : List (Str → Prop)} {i : Nat} {P' : Str → Prop} {s s' : Str} (hd : ∀ P ∈ Ps, Determined P) (hi : i < Ps.length)
    (hQ : Qs = Ps.set i P') (h : Frame name Ps s) (h' : Frame name Qs s') :
    ∃ a p p' b, s = a ++ p ++ b ∧ s' = a ++ p' ++ b ∧ (∀ P, Ps[i]? = some P → P p) ∧ ∀ P, Qs[i]? = some P → P p' := by
  subst hQ
  obtain ⟨t, h1, rfl⟩ := h
  obtain ⟨t', h1', rfl⟩ := h'
  obtain ⟨a, p, p', b, rfl, rfl, h2, h3⟩ := concat_set hd hi h1 h1'
  refine ⟨c!"BEGIN:" ++ name ++ c!"\r\n" ++ a, p, p', b ++ c!"END:" ++ name ++ c!"\r\n", by simp, by simp, h2, fun P hP => ?_⟩
  rw [List.getElem?_set_self hi] at hP
  injection hP with hP
  exact hP ▸ h3

theorem det_Audio (v : Audio) : ∀ P ∈ AudioLines v, Determined P := by
  simp only [AudioLines, List.forall_mem_cons]
  exact ⟨det (fun _ => field_iff text_form), det (fun _ => field_iff trigger_form), det (fun _ => optional_iff (shown_form TimeDelta.toStr rfl (fun _ => rfl) fun _ => rfl)), det (fun _ => optional_iff number_form), det (fun _ => repeated_iff text_form), det (fun _ => extensions_iff), det (fun _ => extensions_iff), by simp⟩

theorem set_Audio (v : Audio) : ∀ im ∈ Audio.members.zipIdx, ∀ x, ∃ P, AudioLines (im.1.set x v) = (AudioLines v).set im.2 P := by
  simp only [Audio.members, List.zipIdx, List.forall_mem_cons]
  exact ⟨fun _ => ⟨_, rfl⟩, fun _ => ⟨_, rfl⟩, fun _ => ⟨_, rfl⟩, fun _ => ⟨_, rfl⟩, fun _ => ⟨_, rfl⟩, fun _ => ⟨_, rfl⟩, fun _ => ⟨_, rfl⟩, by simp⟩

/-- **C106** for an audio alarm that is not wrapped: if one field is given another value, then of the text that is written only the lines of that field change. -/
theorem C106_Audio_written (v : Audio) (i : Nat) (m : Member Audio) (hm : Audio.members[i]? = some m) (x : m.ty.den) (s s' : Str) (hs : ical v = .ok s)
    (hs' : ical (m.set x v) = .ok s') : ∃ a p p' b, s = a ++ p ++ b ∧ s' = a ++ p' ++ b ∧ (∀ P, (AudioLines v)[i]? = some P → P p) ∧
      ∀ P, (AudioLines (m.set x v))[i]? = some P → P p' := by
  obtain ⟨P, hP⟩ := set_Audio v (m, i) (List.mem_zipIdx_iff_getElem?.2 hm) x
  have hi : i < (AudioLines v).length := (List.getElem?_eq_some_iff.1 hm).1
  exact frame_set (det_Audio v) hi hP ((C75_Audio v).1 s |>.1 hs) ((C75_Audio _).1 s' |>.1 hs')

theorem det_Display (v : Display) : ∀ P ∈ DisplayLines v, Determined P := by
  simp only [DisplayLines, List.forall_mem_cons]
  exact ⟨det (fun _ => field_iff text_form), det (fun _ => field_iff trigger_form), det (fun _ => field_iff text_form), det (fun _ => optional_iff (shown_form TimeDelta.toStr rfl (fun _ => rfl) fun _ => rfl)), det (fun _ => optional_iff number_form), det (fun _ => extensions_iff), det (fun _ => extensions_iff), by simp⟩

theorem set_Display (v : Display) : ∀ im ∈ Display.members.zipIdx, ∀ x, ∃ P, DisplayLines (im.1.set x v) = (DisplayLines v).set im.2 P := by
  simp only [Display.members, List.zipIdx, List.forall_mem_cons]
  exact ⟨fun _ => ⟨_, rfl⟩, fun _ => ⟨_, rfl⟩, fun _ => ⟨_, rfl⟩, fun _ => ⟨_, rfl⟩, fun _ => ⟨_, rfl⟩, fun _ => ⟨_, rfl⟩, fun _ => ⟨_, rfl⟩, by simp⟩

/-- **C106** for a display alarm that is not wrapped: if one field is given another value, then of the text that is written only the lines of that field change. -/
theorem C106_Display_written (v : Display) (i : Nat) (m : Member Display) (hm : Display.members[i]? = some m) (x : m.ty.den) (s s' : Str) (hs : ical v = .ok s)
    (hs' : ical (m.set x v) = .ok s') : ∃ a p p' b, s = a ++ p ++ b ∧ s' = a ++ p' ++ b ∧ (∀ P, (DisplayLines v)[i]? = some P → P p) ∧
      ∀ P, (DisplayLines (m.set x v))[i]? = some P → P p' := by
  obtain ⟨P, hP⟩ := set_Display v (m, i) (List.mem_zipIdx_iff_getElem?.2 hm) x
  have hi : i < (DisplayLines v).length := (List.getElem?_eq_some_iff.1 hm).1
  exact frame_set (det_Display v) hi hP ((C75_Display v).1 s |>.1 hs) ((C75_Display _).1 s' |>.1 hs')

theorem det_Email (v : Email) : ∀ P ∈ EmailLines v, Determined P := by
  simp only [EmailLines, List.forall_mem_cons]
  exact ⟨det (fun _ => field_iff text_form), det (fun _ => field_iff trigger_form), det (fun _ => field_iff text_form), det (fun _ => field_iff text_form), det (fun _ => repeated_iff uri_form), det (fun _ => optional_iff (shown_form TimeDelta.toStr rfl (fun _ => rfl) fun _ => rfl)), det (fun _ => optional_iff number_form), det (fun _ => repeated_iff text_form), det (fun _ => extensions_iff), det (fun _ => extensions_iff), by simp⟩

theorem set_Email (v : Email) : ∀ im ∈ Email.members.zipIdx, ∀ x, ∃ P, EmailLines (im.1.set x v) = (EmailLines v).set im.2 P := by
  simp only [Email.members, List.zipIdx, List.forall_mem_cons]
  exact ⟨fun _ => ⟨_, rfl⟩, fun _ => ⟨_, rfl⟩, fun _ => ⟨_, rfl⟩, fun _ => ⟨_, rfl⟩, fun _ => ⟨_, rfl⟩, fun _ => ⟨_, rfl⟩, fun _ => ⟨_, rfl⟩, fun _ => ⟨_, rfl⟩, fun _ => ⟨_, rfl⟩, fun _ => ⟨_, rfl⟩, by simp⟩

/-- **C106** for an e-mail alarm that is not wrapped: if one field is given another value, then of the text that is written only the lines of that field change. -/
theorem C106_Email_written (v : Email) (i : Nat) (m : Member Email) (hm : Email.members[i]? = some m) (x : m.ty.den) (s s' : Str) (hs : ical v = .ok s)
    (hs' : ical (m.set x v) = .ok s') : ∃ a p p' b, s = a ++ p ++ b ∧ s' = a ++ p' ++ b ∧ (∀ P, (EmailLines v)[i]? = some P → P p) ∧
      ∀ P, (EmailLines (m.set x v))[i]? = some P → P p' := by
  obtain ⟨P, hP⟩ := set_Email v (m, i) (List.mem_zipIdx_iff_getElem?.2 hm) x
  have hi : i < (EmailLines v).length := (List.getElem?_eq_some_iff.1 hm).1
  exact frame_set (det_Email v) hi hP ((C75_Email v).1 s |>.1 hs) ((C75_Email _).1 s' |>.1 hs')

theorem det_VEvent (v : VEvent) : ∀ P ∈ VEventLines v, Determined P := by
  simp only [VEventLines, List.forall_mem_cons]
  exact ⟨det (fun _ => field_iff (shown_form DateTime.toStr rfl (fun _ => rfl) fun _ => rfl)), det (fun _ => field_iff text_form), det (fun _ => field_iff date_form), det (fun _ => optional_iff (shown_form Class.toStr rfl (fun _ => rfl) fun _ => rfl)), det (fun _ => optional_iff (shown_form DateTime.toStr rfl (fun _ => rfl) fun _ => rfl)), det (fun _ => optional_iff text_form), det (fun _ => optional_iff (shown_form Geo.toStr rfl (fun _ => rfl) fun _ => rfl)), det (fun _ => optional_iff (shown_form DateTime.toStr rfl (fun _ => rfl) fun _ => rfl)), det (fun _ => optional_iff text_form), det (fun _ => optional_iff uri_form), det (fun _ => optional_iff number_form), det (fun _ => optional_iff number_form), det (fun _ => optional_iff (shown_form Status.toStr rfl (fun _ => rfl) fun _ => rfl)), det (fun _ => optional_iff text_form), det (fun _ => optional_iff (shown_form TimeTransparency.toStr rfl (fun _ => rfl) fun _ => rfl)), det (fun _ => optional_iff uri_form), det (fun _ => optional_iff date_form), det (fun _ => optional_iff rule_form), det (fun _ => optional_iff date_form), det (fun _ => optional_iff (shown_form TimeDelta.toStr rfl (fun _ => rfl) fun _ => rfl)), det (fun _ => repeated_iff text_form), det (fun _ => repeated_iff uri_form), det (fun _ => repeated_iff text_form), det (fun _ => repeated_iff text_form), det (fun _ => repeated_iff text_form), det (fun _ => repeated_iff date_form), det (fun _ => repeated_iff requestStatus_form), det (fun _ => repeated_iff text_form), det (fun _ => repeated_iff text_form), det (fun _ => repeated_iff (shown_form RDate.toStr rfl (fun _ => rfl) fun _ => rfl)), det (fun _ => repeated_iff alarm_form), det (fun _ => extensions_iff), det (fun _ => extensions_iff), by simp⟩

theorem set_VEvent (v : VEvent) : ∀ im ∈ VEvent.members.zipIdx, ∀ x, ∃ P, VEventLines (im.1.set x v) = (VEventLines v).set im.2 P := by
  simp only [VEvent.members, List.zipIdx, List.forall_mem_cons]
  exact ⟨fun _ => ⟨_, rfl⟩, fun _ => ⟨_, rfl⟩, fun _ => ⟨_, rfl⟩, fun _ => ⟨_, rfl⟩, fun _ => ⟨_, rfl⟩, fun _ => ⟨_, rfl⟩, fun _ => ⟨_, rfl⟩, fun _ => ⟨_, rfl⟩, fun _ => ⟨_, rfl⟩, fun _ => ⟨_, rfl⟩, fun _ => ⟨_, rfl⟩, fun _ => ⟨_, rfl⟩, fun _ => ⟨_, rfl⟩, fun _ => ⟨_, rfl⟩, fun _ => ⟨_, rfl⟩, fun _ => ⟨_, rfl⟩, fun _ => ⟨_, rfl⟩, fun _ => ⟨_, rfl⟩, fun _ => ⟨_, rfl⟩, fun _ => ⟨_, rfl⟩, fun _ => ⟨_, rfl⟩, fun _ => ⟨_, rfl⟩, fun _ => ⟨_, rfl⟩, fun _ => ⟨_, rfl⟩, fun _ => ⟨_, rfl⟩, fun _ => ⟨_, rfl⟩, fun _ => ⟨_, rfl⟩, fun _ => ⟨_, rfl⟩, fun _ => ⟨_, rfl⟩, fun _ => ⟨_, rfl⟩, fun _ => ⟨_, rfl⟩, fun _ => ⟨_, rfl⟩, fun _ => ⟨_, rfl⟩, by simp⟩

/-- **C106** for an event: if one field is given another value, then of the text that is written only the lines of that field change. -/
theorem C106_VEvent_written (v : VEvent) (i : Nat) (m : Member VEvent) (hm : VEvent.members[i]? = some m) (x : m.ty.den) (s s' : Str) (hs : ical v = .ok s)
    (hs' : ical (m.set x v) = .ok s') : ∃ a p p' b, s = a ++ p ++ b ∧ s' = a ++ p' ++ b ∧ (∀ P, (VEventLines v)[i]? = some P → P p) ∧
      ∀ P, (VEventLines (m.set x v))[i]? = some P → P p' := by
  obtain ⟨P, hP⟩ := set_VEvent v (m, i) (List.mem_zipIdx_iff_getElem?.2 hm) x
  have hi : i < (VEventLines v).length := (List.getElem?_eq_some_iff.1 hm).1
  exact frame_set (det_VEvent v) hi hP ((C75_VEvent v).1 s |>.1 hs) ((C75_VEvent _).1 s' |>.1 hs')

theorem det_VFreebusy (v : VFreebusy) : ∀ P ∈ VFreebusyLines v, Determined P := by
  simp only [VFreebusyLines, List.forall_mem_cons]
  exact ⟨det (fun _ => field_iff (shown_form DateTime.toStr rfl (fun _ => rfl) fun _ => rfl)), det (fun _ => field_iff text_form), det (fun _ => optional_iff text_form), det (fun _ => optional_iff date_form), det (fun _ => optional_iff date_form), det (fun _ => optional_iff uri_form), det (fun _ => optional_iff uri_form), det (fun _ => repeated_iff uri_form), det (fun _ => repeated_iff text_form), det (fun _ => repeated_iff (shown_form Period.toStr rfl (fun _ => rfl) fun _ => rfl)), det (fun _ => repeated_iff requestStatus_form), det (fun _ => extensions_iff), det (fun _ => extensions_iff), by simp⟩

theorem set_VFreebusy (v : VFreebusy) : ∀ im ∈ VFreebusy.members.zipIdx, ∀ x, ∃ P, VFreebusyLines (im.1.set x v) = (VFreebusyLines v).set im.2 P := by
  simp only [VFreebusy.members, List.zipIdx, List.forall_mem_cons]
  exact ⟨fun _ => ⟨_, rfl⟩, fun _ => ⟨_, rfl⟩, fun _ => ⟨_, rfl⟩, fun _ => ⟨_, rfl⟩, fun _ => ⟨_, rfl⟩, fun _ => ⟨_, rfl⟩, fun _ => ⟨_, rfl⟩, fun _ => ⟨_, rfl⟩, fun _ => ⟨_, rfl⟩, fun _ => ⟨_, rfl⟩, fun _ => ⟨_, rfl⟩, fun _ => ⟨_, rfl⟩, fun _ => ⟨_, rfl⟩, by simp⟩

/-- **C106** for a free/busy time: if one field is given another value, then of the text that is written only the lines of that field change. -/
theorem C106_VFreebusy_written (v : VFreebusy) (i : Nat) (m : Member VFreebusy) (hm : VFreebusy.members[i]? = some m) (x : m.ty.den) (s s' : Str) (hs : ical v = .ok s)
    (hs' : ical (m.set x v) = .ok s') : ∃ a p p' b, s = a ++ p ++ b ∧ s' = a ++ p' ++ b ∧ (∀ P, (VFreebusyLines v)[i]? = some P → P p) ∧
      ∀ P, (VFreebusyLines (m.set x v))[i]? = some P → P p' := by
  obtain ⟨P, hP⟩ := set_VFreebusy v (m, i) (List.mem_zipIdx_iff_getElem?.2 hm) x
  have hi : i < (VFreebusyLines v).length := (List.getElem?_eq_some_iff.1 hm).1
  exact frame_set (det_VFreebusy v) hi hP ((C75_VFreebusy v).1 s |>.1 hs) ((C75_VFreebusy _).1 s' |>.1 hs')

theorem det_VJournal (v : VJournal) : ∀ P ∈ VJournalLines v, Determined P := by
  simp only [VJournalLines, List.forall_mem_cons]
  exact ⟨det (fun _ => field_iff (shown_form DateTime.toStr rfl (fun _ => rfl) fun _ => rfl)), det (fun _ => field_iff text_form), det (fun _ => optional_iff (shown_form Class.toStr rfl (fun _ => rfl) fun _ => rfl)), det (fun _ => optional_iff (shown_form DateTime.toStr rfl (fun _ => rfl) fun _ => rfl)), det (fun _ => field_iff date_form), det (fun _ => optional_iff (shown_form DateTime.toStr rfl (fun _ => rfl) fun _ => rfl)), det (fun _ => optional_iff uri_form), det (fun _ => optional_iff date_form), det (fun _ => optional_iff number_form), det (fun _ => optional_iff (shown_form Status.toStr rfl (fun _ => rfl) fun _ => rfl)), det (fun _ => optional_iff text_form), det (fun _ => optional_iff uri_form), det (fun _ => optional_iff rule_form), det (fun _ => repeated_iff text_form), det (fun _ => repeated_iff uri_form), det (fun _ => repeated_iff text_form), det (fun _ => repeated_iff text_form), det (fun _ => repeated_iff text_form), det (fun _ => repeated_iff text_form), det (fun _ => repeated_iff date_form), det (fun _ => repeated_iff text_form), det (fun _ => repeated_iff (shown_form RDate.toStr rfl (fun _ => rfl) fun _ => rfl)), det (fun _ => repeated_iff requestStatus_form), det (fun _ => extensions_iff), det (fun _ => extensions_iff), by simp⟩

theorem set_VJournal (v : VJournal) : ∀ im ∈ VJournal.members.zipIdx, ∀ x, ∃ P, VJournalLines (im.1.set x v) = (VJournalLines v).set im.2 P := by
  simp only [VJournal.members, List.zipIdx, List.forall_mem_cons]
  exact ⟨fun _ => ⟨_, rfl⟩, fun _ => ⟨_, rfl⟩, fun _ => ⟨_, rfl⟩, fun _ => ⟨_, rfl⟩, fun _ => ⟨_, rfl⟩, fun _ => ⟨_, rfl⟩, fun _ => ⟨_, rfl⟩, fun _ => ⟨_, rfl⟩, fun _ => ⟨_, rfl⟩, fun _ => ⟨_, rfl⟩, fun _ => ⟨_, rfl⟩, fun _ => ⟨_, rfl⟩, fun _ => ⟨_, rfl⟩, fun _ => ⟨_, rfl⟩, fun _ => ⟨_, rfl⟩, fun _ => ⟨_, rfl⟩, fun _ => ⟨_, rfl⟩, fun _ => ⟨_, rfl⟩, fun _ => ⟨_, rfl⟩, fun _ => ⟨_, rfl⟩, fun _ => ⟨_, rfl⟩, fun _ => ⟨_, rfl⟩, fun _ => ⟨_, rfl⟩, fun _ => ⟨_, rfl⟩, fun _ => ⟨_, rfl⟩, by simp⟩

/-- **C106** for a journal entry: if one field is given another value, then of the text that is written only the lines of that field change. -/
theorem C106_VJournal_written (v : VJournal) (i : Nat) (m : Member VJournal) (hm : VJournal.members[i]? = some m) (x : m.ty.den) (s s' : Str) (hs : ical v = .ok s)
    (hs' : ical (m.set x v) = .ok s') : ∃ a p p' b, s = a ++ p ++ b ∧ s' = a ++ p' ++ b ∧ (∀ P, (VJournalLines v)[i]? = some P → P p) ∧
      ∀ P, (VJournalLines (m.set x v))[i]? = some P → P p' := by
  obtain ⟨P, hP⟩ := set_VJournal v (m, i) (List.mem_zipIdx_iff_getElem?.2 hm) x
  have hi : i < (VJournalLines v).length := (List.getElem?_eq_some_iff.1 hm).1
  exact frame_set (det_VJournal v) hi hP ((C75_VJournal v).1 s |>.1 hs) ((C75_VJournal _).1 s' |>.1 hs')

theorem det_Standard (v : Standard) : ∀ P ∈ StandardLines v, Determined P := by
  simp only [StandardLines, List.forall_mem_cons]
  exact ⟨det (fun _ => field_iff date_form), det (fun _ => field_iff (shown_form FixedOffset.toStr rfl (fun _ => rfl) fun _ => rfl)), det (fun _ => field_iff (shown_form FixedOffset.toStr rfl (fun _ => rfl) fun _ => rfl)), det (fun _ => optional_iff rule_form), det (fun _ => repeated_iff text_form), det (fun _ => repeated_iff (shown_form RDate.toStr rfl (fun _ => rfl) fun _ => rfl)), det (fun _ => repeated_iff text_form), det (fun _ => extensions_iff), det (fun _ => extensions_iff), by simp⟩

theorem set_Standard (v : Standard) : ∀ im ∈ Standard.members.zipIdx, ∀ x, ∃ P, StandardLines (im.1.set x v) = (StandardLines v).set im.2 P := by
  simp only [Standard.members, List.zipIdx, List.forall_mem_cons]
  exact ⟨fun _ => ⟨_, rfl⟩, fun _ => ⟨_, rfl⟩, fun _ => ⟨_, rfl⟩, fun _ => ⟨_, rfl⟩, fun _ => ⟨_, rfl⟩, fun _ => ⟨_, rfl⟩, fun _ => ⟨_, rfl⟩, fun _ => ⟨_, rfl⟩, fun _ => ⟨_, rfl⟩, by simp⟩

/-- **C106** for standard time: if one field is given another value, then of the text that is written only the lines of that field change. -/
theorem C106_Standard_written (v : Standard) (i : Nat) (m : Member Standard) (hm : Standard.members[i]? = some m) (x : m.ty.den) (s s' : Str) (hs : ical v = .ok s)
    (hs' : ical (m.set x v) = .ok s') : ∃ a p p' b, s = a ++ p ++ b ∧ s' = a ++ p' ++ b ∧ (∀ P, (StandardLines v)[i]? = some P → P p) ∧
      ∀ P, (StandardLines (m.set x v))[i]? = some P → P p' := by
  obtain ⟨P, hP⟩ := set_Standard v (m, i) (List.mem_zipIdx_iff_getElem?.2 hm) x
  have hi : i < (StandardLines v).length := (List.getElem?_eq_some_iff.1 hm).1
  exact frame_set (det_Standard v) hi hP ((C75_Standard v).1 s |>.1 hs) ((C75_Standard _).1 s' |>.1 hs')

theorem det_Daylight (v : Daylight) : ∀ P ∈ DaylightLines v, Determined P := by
  simp only [DaylightLines, List.forall_mem_cons]
  exact ⟨det (fun _ => field_iff date_form), det (fun _ => field_iff (shown_form FixedOffset.toStr rfl (fun _ => rfl) fun _ => rfl)), det (fun _ => field_iff (shown_form FixedOffset.toStr rfl (fun _ => rfl) fun _ => rfl)), det (fun _ => optional_iff rule_form), det (fun _ => repeated_iff text_form), det (fun _ => repeated_iff (shown_form RDate.toStr rfl (fun _ => rfl) fun _ => rfl)), det (fun _ => repeated_iff text_form), det (fun _ => extensions_iff), det (fun _ => extensions_iff), by simp⟩

theorem set_Daylight (v : Daylight) : ∀ im ∈ Daylight.members.zipIdx, ∀ x, ∃ P, DaylightLines (im.1.set x v) = (DaylightLines v).set im.2 P := by
  simp only [Daylight.members, List.zipIdx, List.forall_mem_cons]
  exact ⟨fun _ => ⟨_, rfl⟩, fun _ => ⟨_, rfl⟩, fun _ => ⟨_, rfl⟩, fun _ => ⟨_, rfl⟩, fun _ => ⟨_, rfl⟩, fun _ => ⟨_, rfl⟩, fun _ => ⟨_, rfl⟩, fun _ => ⟨_, rfl⟩, fun _ => ⟨_, rfl⟩, by simp⟩

/-- **C106** for daylight saving time: if one field is given another value, then of the text that is written only the lines of that field change. -/
theorem C106_Daylight_written (v : Daylight) (i : Nat) (m : Member Daylight) (hm : Daylight.members[i]? = some m) (x : m.ty.den) (s s' : Str) (hs : ical v = .ok s)
    (hs' : ical (m.set x v) = .ok s') : ∃ a p p' b, s = a ++ p ++ b ∧ s' = a ++ p' ++ b ∧ (∀ P, (DaylightLines v)[i]? = some P → P p) ∧
      ∀ P, (DaylightLines (m.set x v))[i]? = some P → P p' := by
  obtain ⟨P, hP⟩ := set_Daylight v (m, i) (List.mem_zipIdx_iff_getElem?.2 hm) x
  have hi : i < (DaylightLines v).length := (List.getElem?_eq_some_iff.1 hm).1
  exact frame_set (det_Daylight v) hi hP ((C75_Daylight v).1 s |>.1 hs) ((C75_Daylight _).1 s' |>.1 hs')

theorem det_VTimezone (v : VTimezone) : ∀ P ∈ VTimezoneLines v, Determined P := by
  simp only [VTimezoneLines, List.forall_mem_cons]
  exact ⟨det (fun _ => field_iff text_form), det (fun _ => optional_iff (shown_form DateTime.toStr rfl (fun _ => rfl) fun _ => rfl)), det (fun _ => optional_iff uri_form), det (fun _ => inner_iff (s := inferInstance) rfl Standard.output_iff), det (fun _ => inner_iff (s := inferInstance) rfl Daylight.output_iff), det (fun _ => extensions_iff), det (fun _ => extensions_iff), by simp⟩

theorem set_VTimezone (v : VTimezone) : ∀ im ∈ VTimezone.members.zipIdx, ∀ x, ∃ P, VTimezoneLines (im.1.set x v) = (VTimezoneLines v).set im.2 P := by
  simp only [VTimezone.members, List.zipIdx, List.forall_mem_cons]
  exact ⟨fun _ => ⟨_, rfl⟩, fun _ => ⟨_, rfl⟩, fun _ => ⟨_, rfl⟩, fun _ => ⟨_, rfl⟩, fun _ => ⟨_, rfl⟩, fun _ => ⟨_, rfl⟩, fun _ => ⟨_, rfl⟩, by simp⟩

/-- **C106** for a time zone: if one field is given another value, then of the text that is written only the lines of that field change. -/
theorem C106_VTimezone_written (v : VTimezone) (i : Nat) (m : Member VTimezone) (hm : VTimezone.members[i]? = some m) (x : m.ty.den) (s s' : Str) (hs : ical v = .ok s)
    (hs' : ical (m.set x v) = .ok s') : ∃ a p p' b, s = a ++ p ++ b ∧ s' = a ++ p' ++ b ∧ (∀ P, (VTimezoneLines v)[i]? = some P → P p) ∧
      ∀ P, (VTimezoneLines (m.set x v))[i]? = some P → P p' := by
  obtain ⟨P, hP⟩ := set_VTimezone v (m, i) (List.mem_zipIdx_iff_getElem?.2 hm) x
  have hi : i < (VTimezoneLines v).length := (List.getElem?_eq_some_iff.1 hm).1
  exact frame_set (det_VTimezone v) hi hP ((C75_VTimezone v).1 s |>.1 hs) ((C75_VTimezone _).1 s' |>.1 hs')

theorem det_VTodo (v : VTodo) : ∀ P ∈ VTodoLines v, Determined P := by
  simp only [VTodoLines, List.forall_mem_cons]
  exact ⟨det (fun _ => field_iff (shown_form DateTime.toStr rfl (fun _ => rfl) fun _ => rfl)), det (fun _ => field_iff text_form), det (fun _ => optional_iff (shown_form Class.toStr rfl (fun _ => rfl) fun _ => rfl)), det (fun _ => optional_iff (shown_form DateTime.toStr rfl (fun _ => rfl) fun _ => rfl)), det (fun _ => optional_iff (shown_form DateTime.toStr rfl (fun _ => rfl) fun _ => rfl)), det (fun _ => optional_iff date_form), det (fun _ => optional_iff (shown_form Geo.toStr rfl (fun _ => rfl) fun _ => rfl)), det (fun _ => optional_iff (shown_form DateTime.toStr rfl (fun _ => rfl) fun _ => rfl)), det (fun _ => optional_iff text_form), det (fun _ => optional_iff uri_form), det (fun _ => optional_iff number_form), det (fun _ => optional_iff number_form), det (fun _ => optional_iff date_form), det (fun _ => optional_iff number_form), det (fun _ => optional_iff (shown_form Status.toStr rfl (fun _ => rfl) fun _ => rfl)), det (fun _ => optional_iff text_form), det (fun _ => optional_iff uri_form), det (fun _ => optional_iff rule_form), det (fun _ => optional_iff date_form), det (fun _ => optional_iff (shown_form TimeDelta.toStr rfl (fun _ => rfl) fun _ => rfl)), det (fun _ => repeated_iff text_form), det (fun _ => repeated_iff uri_form), det (fun _ => repeated_iff text_form), det (fun _ => repeated_iff text_form), det (fun _ => repeated_iff text_form), det (fun _ => repeated_iff date_form), det (fun _ => repeated_iff requestStatus_form), det (fun _ => repeated_iff text_form), det (fun _ => repeated_iff text_form), det (fun _ => repeated_iff (shown_form RDate.toStr rfl (fun _ => rfl) fun _ => rfl)), det (fun _ => extensions_iff), det (fun _ => extensions_iff), by simp⟩

theorem set_VTodo (v : VTodo) : ∀ im ∈ VTodo.members.zipIdx, ∀ x, ∃ P, VTodoLines (im.1.set x v) = (VTodoLines v).set im.2 P := by
  simp only [VTodo.members, List.zipIdx, List.forall_mem_cons]
  exact ⟨fun _ => ⟨_, rfl⟩, fun _ => ⟨_, rfl⟩, fun _ => ⟨_, rfl⟩, fun _ => ⟨_, rfl⟩, fun _ => ⟨_, rfl⟩, fun _ => ⟨_, rfl⟩, fun _ => ⟨_, rfl⟩, fun _ => ⟨_, rfl⟩, fun _ => ⟨_, rfl⟩, fun _ => ⟨_, rfl⟩, fun _ => ⟨_, rfl⟩, fun _ => ⟨_, rfl⟩, fun _ => ⟨_, rfl⟩, fun _ => ⟨_, rfl⟩, fun _ => ⟨_, rfl⟩, fun _ => ⟨_, rfl⟩, fun _ => ⟨_, rfl⟩, fun _ => ⟨_, rfl⟩, fun _ => ⟨_, rfl⟩, fun _ => ⟨_, rfl⟩, fun _ => ⟨_, rfl⟩, fun _ => ⟨_, rfl⟩, fun _ => ⟨_, rfl⟩, fun _ => ⟨_, rfl⟩, fun _ => ⟨_, rfl⟩, fun _ => ⟨_, rfl⟩, fun _ => ⟨_, rfl⟩, fun _ => ⟨_, rfl⟩, fun _ => ⟨_, rfl⟩, fun _ => ⟨_, rfl⟩, fun _ => ⟨_, rfl⟩, fun _ => ⟨_, rfl⟩, by simp⟩

/-- **C106** for a to-do: if one field is given another value, then of the text that is written only the lines of that field change. -/
theorem C106_VTodo_written (v : VTodo) (i : Nat) (m : Member VTodo) (hm : VTodo.members[i]? = some m) (x : m.ty.den) (s s' : Str) (hs : ical v = .ok s)
    (hs' : ical (m.set x v) = .ok s') : ∃ a p p' b, s = a ++ p ++ b ∧ s' = a ++ p' ++ b ∧ (∀ P, (VTodoLines v)[i]? = some P → P p) ∧
      ∀ P, (VTodoLines (m.set x v))[i]? = some P → P p' := by
  obtain ⟨P, hP⟩ := set_VTodo v (m, i) (List.mem_zipIdx_iff_getElem?.2 hm) x
  have hi : i < (VTodoLines v).length := (List.getElem?_eq_some_iff.1 hm).1
  exact frame_set (det_VTodo v) hi hP ((C75_VTodo v).1 s |>.1 hs) ((C75_VTodo _).1 s' |>.1 hs')

theorem det_VCalendar (v : VCalendar) : ∀ P ∈ VCalendarLines v, Determined P := by
  simp only [VCalendarLines, List.forall_mem_cons]
  exact ⟨det (fun _ => field_iff text_form), det (fun _ => field_iff text_form), det (fun _ => optional_iff text_form), det (fun _ => optional_iff text_form), det (fun _ => repeated_iff alarm_form), det (fun _ => inner_iff (s := inferInstance) rfl VEvent.output_iff), det (fun _ => inner_iff (s := inferInstance) rfl VFreebusy.output_iff), det (fun _ => inner_iff (s := inferInstance) rfl VJournal.output_iff), det (fun _ => inner_iff (s := inferInstance) rfl VTodo.output_iff), det (fun _ => inner_iff (s := inferInstance) rfl VTimezone.output_iff), det (fun _ => extensions_iff), det (fun _ => extensions_iff), by simp⟩

theorem set_VCalendar (v : VCalendar) : ∀ im ∈ VCalendar.members.zipIdx, ∀ x, ∃ P, VCalendarLines (im.1.set x v) = (VCalendarLines v).set im.2 P := by
  simp only [VCalendar.members, List.zipIdx, List.forall_mem_cons]
  exact ⟨fun _ => ⟨_, rfl⟩, fun _ => ⟨_, rfl⟩, fun _ => ⟨_, rfl⟩, fun _ => ⟨_, rfl⟩, fun _ => ⟨_, rfl⟩, fun _ => ⟨_, rfl⟩, fun _ => ⟨_, rfl⟩, fun _ => ⟨_, rfl⟩, fun _ => ⟨_, rfl⟩, fun _ => ⟨_, rfl⟩, fun _ => ⟨_, rfl⟩, fun _ => ⟨_, rfl⟩, by simp⟩

/-- **C106** for a calendar: if one field is given another value, then of the text that is written only the lines of that field change. -/
theorem C106_VCalendar_written (v : VCalendar) (i : Nat) (m : Member VCalendar) (hm : VCalendar.members[i]? = some m) (x : m.ty.den) (s s' : Str) (hs : ical v = .ok s)
    (hs' : ical (m.set x v) = .ok s') : ∃ a p p' b, s = a ++ p ++ b ∧ s' = a ++ p' ++ b ∧ (∀ P, (VCalendarLines v)[i]? = some P → P p) ∧
      ∀ P, (VCalendarLines (m.set x v))[i]? = some P → P p' := by
  obtain ⟨P, hP⟩ := set_VCalendar v (m, i) (List.mem_zipIdx_iff_getElem?.2 hm) x
  have hi : i < (VCalendarLines v).length := (List.getElem?_eq_some_iff.1 hm).1
  exact frame_set (det_VCalendar v) hi hP ((C75_VCalendar v).1 s |>.1 hs) ((C75_VCalendar _).1 s' |>.1 hs')

/-- **C106** for an audio alarm: if one field is given another value, then of the text that is written only the lines of that field change. -/
theorem C106_VAlarm_audio_written (v : Audio) (i : Nat) (m : Member Audio) (hm : Audio.members[i]? = some m) (x : m.ty.den) (s s' : Str)
    (hs : ical (VAlarm.audio v) = .ok s) (hs' : ical (VAlarm.audio (m.set x v)) = .ok s') : ∃ a p p' b, s = a ++ p ++ b ∧ s' = a ++ p' ++ b ∧
      (∀ P, (AudioLines v)[i]? = some P → P p) ∧ ∀ P, (AudioLines (m.set x v))[i]? = some P → P p' := by
  obtain ⟨P, hP⟩ := set_Audio v (m, i) (List.mem_zipIdx_iff_getElem?.2 hm) x
  have hi : i < (AudioLines v).length := (List.getElem?_eq_some_iff.1 hm).1
  exact frame_set (det_Audio v) hi hP ((C75_VAlarm _).1 s |>.1 hs) ((C75_VAlarm _).1 s' |>.1 hs')

/-- **C106** for a display alarm: if one field is given another value, then of the text that is written only the lines of that field change. -/
theorem C106_VAlarm_display_written (v : Display) (i : Nat) (m : Member Display) (hm : Display.members[i]? = some m) (x : m.ty.den) (s s' : Str)
    (hs : ical (VAlarm.display v) = .ok s) (hs' : ical (VAlarm.display (m.set x v)) = .ok s') : ∃ a p p' b, s = a ++ p ++ b ∧ s' = a ++ p' ++ b ∧
      (∀ P, (DisplayLines v)[i]? = some P → P p) ∧ ∀ P, (DisplayLines (m.set x v))[i]? = some P → P p' := by
  obtain ⟨P, hP⟩ := set_Display v (m, i) (List.mem_zipIdx_iff_getElem?.2 hm) x
  have hi : i < (DisplayLines v).length := (List.getElem?_eq_some_iff.1 hm).1
  exact frame_set (det_Display v) hi hP ((C75_VAlarm _).1 s |>.1 hs) ((C75_VAlarm _).1 s' |>.1 hs')

/-- **C106** for an e-mail alarm: if one field is given another value, then of the text that is written only the lines of that field change. -/
theorem C106_VAlarm_email_written (v : Email) (i : Nat) (m : Member Email) (hm : Email.members[i]? = some m) (x : m.ty.den) (s s' : Str)
    (hs : ical (VAlarm.email v) = .ok s) (hs' : ical (VAlarm.email (m.set x v)) = .ok s') : ∃ a p p' b, s = a ++ p ++ b ∧ s' = a ++ p' ++ b ∧
      (∀ P, (EmailLines v)[i]? = some P → P p) ∧ ∀ P, (EmailLines (m.set x v))[i]? = some P → P p' := by
  obtain ⟨P, hP⟩ := set_Email v (m, i) (List.mem_zipIdx_iff_getElem?.2 hm) x
  have hi : i < (EmailLines v).length := (List.getElem?_eq_some_iff.1 hm).1
  exact frame_set (det_Email v) hi hP ((C75_VAlarm _).1 s |>.1 hs) ((C75_VAlarm _).1 s' |>.1 hs')

end

section
attribute [local instance] utc

/-- A to-do. -/
private def todo : VTodo := { VTodo.default with uid := ⟨[], c!"u"⟩, summary := some ⟨[], c!"old"⟩ }

-- another summary: only the line of the summary changes
example : ∃ s s' a b, ical todo = .ok s ∧ ical { todo with summary := some ⟨[], c!"new"⟩ } = .ok s' ∧ s = a ++ c!"SUMMARY:old\r\n" ++ b ∧
    s' = a ++ c!"SUMMARY:new\r\n" ++ b :=
  ⟨_, _, c!"BEGIN:VTODO\r\nDTSTAMP:19700101T000000\r\nUID:u\r\n", c!"END:VTODO\r\n", rfl, rfl, by decide +kernel, by decide +kernel⟩

example : ∃ s s' a p p' b, ical todo = .ok s ∧ ical { todo with summary := some ⟨[], c!"new"⟩ } = .ok s' ∧ s = a ++ p ++ b ∧ s' = a ++ p' ++ b ∧
    Optional c!"SUMMARY" textForm (some ⟨[], c!"old"⟩) p ∧ Optional c!"SUMMARY" textForm (some ⟨[], c!"new"⟩) p' := by
  have h : ∃ s, ical todo = .ok s := ⟨_, rfl⟩
  have h' : ∃ s, ical { todo with summary := some ⟨[], c!"new"⟩ } = .ok s := ⟨_, rfl⟩
  obtain ⟨s, hs⟩ := h
  obtain ⟨s', hs'⟩ := h'
  obtain ⟨a, p, p', b, e, e', h1, h2⟩ := C106_VTodo_written todo 15 ⟨c!"summary", (.option .text), (·.summary), fun x v => { v with summary := x }⟩ rfl
    (some ⟨[], c!"new"⟩) s s' hs hs'
  exact ⟨s, s', a, p, p', b, hs, hs', e, e', h1 _ rfl, h2 _ rfl⟩

end

end Ikal
