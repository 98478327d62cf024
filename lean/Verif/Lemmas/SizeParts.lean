import Verif.Lemmas.SizeValues
import Verif.Props.RoundTrip
import Verif.Lemmas.Lives

/-! # How long components that were read are written -/

namespace Ikal

open Nom Spec

set_option linter.unusedSectionVars false

namespace Size

/-- What a parser reads is bounded by the text that it takes. -/
def LinP {α : Type} (Q : α → Nat → Prop) (B : Nat) (p : P α) : Prop :=
  ∀ i r v, p i = .ok r v → ∃ n, Q v n ∧ n + 1 + B * r.length ≤ B * i.length

/-- A list of values, with one more character for each. -/
def Total {α : Type} (Q : α → Nat → Prop) : List α → Nat → Prop
  | [], _ => True
  | a :: l, n => ∃ i j, Q a i ∧ Total Q l j ∧ i + j + 1 ≤ n

theorem total_smalls {α : Type} [Ser α] {l : List α} {n : Nat} (h : Total Small l n) : Smalls l n := by
  induction l generalizing n with
  | nil => trivial
  | cons a l ih => obtain ⟨i, j, h1, h2, h3⟩ := h; exact ⟨i, j, h1, ih h2, h3⟩

theorem linP_many {α : Type} {Q : α → Nat → Prop} {B : Nat} {p : P α} (h : LinP Q B p) {i r : Str} {as : List α} (hm : Many p i as r) :
    ∃ n, Total Q as n ∧ n + B * r.length ≤ B * i.length := by
  induction hm with
  | nil _ => exact ⟨0, trivial, by omega⟩
  | cons h1 _ _ ih =>
    obtain ⟨n, h2, h3⟩ := ih
    obtain ⟨m, h4, h5⟩ := h _ _ _ h1
    exact ⟨m + n + 1, ⟨m, n, h4, h2, by omega⟩, by omega⟩

theorem arith {T C B W i r n : Nat} (hB : T + 1 + C ≤ B) (hn : n ≤ T + C * W) (hl : W + 1 + r ≤ i) : n + 1 + B * r ≤ B * i := by
  have h1 : B * (W + 1 + r) ≤ B * i := Nat.mul_le_mul_left _ hl
  have h2 : C * W ≤ B * W := Nat.mul_le_mul_right _ (by omega)
  simp only [Nat.mul_add, Nat.mul_one] at h1
  omega

/-- A table that is not too long. -/
def Short (fs : List Field) : Prop := tableW fs ≤ 4000 ∧ fs.length ≤ 40

theorem comp_text {fs : List Field} (hs : Short fs) {c : Comp fs} {n : Nat} (h : CompSmall c n) {name t : Str} (hn : name.length ≤ 20)
    (ht : c.ical name = .ok t) : t.length ≤ 4200 + 336 * n := by
  have h1 := comp_length h ht
  have h2 : (8 * fs.length + 16) * n ≤ 336 * n := Nat.mul_le_mul_right _ (by have := hs.2; omega)
  have := hs.1
  omega

/-- The bound of a component without parts. -/
def B1 (K : Nat) : Nat := 4300 + 336 * (2 * K + 1002)

/-- The bound of a component with parts of bound `B`. -/
def next (K B : Nat) : Nat := 4300 + 336 * (2 * K + 1002 + B)

theorem leaf {α : Type} [Ser α] {fs : List Field} (hs : Short fs) (hd : (knownNames fs).Nodup) {K : Nat} (hf : TableLin (2 * K + 1000) fs)
    {name name' : Str} (hn : name'.length ≤ 20) {conv : List ContentLine → Res α} (ha : ∀ v : α, Ser.attr v = none)
    (hc : ∀ ls v, conv ls = .ok v → ∃ c : Comp fs, Comp.tryFrom fs ls = .ok c ∧ ∀ t, Ser.ical v = .ok t → ∃ t', c.ical name' = .ok t' ∧ t.length ≤ t'.length + 4) :
    LinP Small (B1 K) (componentP name conv) := by
  intro i r v h
  obtain ⟨body, ls, rfl, h1, h2⟩ := componentP_ok.1 h
  obtain ⟨c, h3, h4⟩ := hc ls v h2
  have h5 : CompSmall c ((2 * K + 1002) * linesW ls) := comp_read hd hf h3
  have h6 := lines_length h1
  refine ⟨4204 + 336 * (2 * K + 1002) * linesW ls, ⟨fun t ht => ?_, fun a h => by rw [ha] at h; simp at h⟩, ?_⟩
  · obtain ⟨t', h7, h8⟩ := h4 t ht
    have := comp_text hs h5 hn h7
    rw [Nat.mul_assoc]
    omega
  · refine arith (W := linesW ls) (T := 4204) (C := 336 * (2 * K + 1002)) (by unfold B1; omega) (by omega) ?_
    simp only [List.length_append, List.length_cons] at h6 ⊢
    omega

theorem leaf' {α : Type} [Ser α] {fs : List Field} (hs : Short fs) (hd : (knownNames fs).Nodup) {K : Nat} (hf : TableLin (2 * K + 1000) fs)
    {name : Str} (hn : name.length ≤ 20) (ha : ∀ v : α, Ser.attr v = none) {toC : α → Comp fs} {ofC : Comp fs → α} (hto : ∀ c, toC (ofC c) = c)
    (hi : ∀ v : α, Ser.ical v = (toC v).ical name) :
    LinP Small (B1 K) (componentP name fun ls => (Comp.tryFrom fs ls).map ofC) := by
  refine leaf hs hd hf hn ha fun ls v h => ?_
  obtain ⟨c, h1, rfl⟩ := Res.map_ok_iff.1 h
  refine ⟨c, h1, fun t ht => ⟨t, ?_, by omega⟩⟩
  rw [hi, hto] at ht
  exact ht

section
variable [Platform]

theorem table_Audio {K : Nat} (hK : Modest K) : TableLin (2 * K + 1000) Audio.fields :=
  ⟨lin_text (by omega), lin_trigger hK (by omega), lin_duration (by omega), lin_u32 (by omega), lin_text (by omega), trivial⟩

theorem short_Audio : Short Audio.fields := by constructor <;> simp [tableW]

theorem names_Audio : (knownNames Audio.fields).Nodup := knownNames_nodup Audio.nodup

theorem table_Display {K : Nat} (hK : Modest K) : TableLin (2 * K + 1000) Display.fields :=
  ⟨lin_text (by omega), lin_trigger hK (by omega), lin_text (by omega), lin_duration (by omega), lin_u32 (by omega), trivial⟩

theorem short_Display : Short Display.fields := by constructor <;> simp [tableW]

theorem names_Display : (knownNames Display.fields).Nodup := knownNames_nodup Display.nodup

theorem table_Email {K : Nat} (hK : Modest K) : TableLin (2 * K + 1000) Email.fields :=
  ⟨lin_text (by omega), lin_trigger hK (by omega), lin_text (by omega), lin_text (by omega), lin_uri (by omega), lin_duration (by omega), lin_u32 (by omega), lin_text (by omega), trivial⟩

theorem short_Email : Short Email.fields := by constructor <;> simp [tableW]

theorem names_Email : (knownNames Email.fields).Nodup := knownNames_nodup Email.nodup

theorem table_VEvent {K : Nat} (hK : Modest K) : TableLin (2 * K + 1000) VEvent.fields :=
  ⟨lin_dateTime hK (by omega), lin_text (by omega), lin_date hK (by omega), lin_class hK (by omega), lin_dateTime hK (by omega), lin_text (by omega), lin_geo hK (by omega), lin_dateTime hK (by omega), lin_text (by omega), lin_uri (by omega), lin_priority (by omega), lin_u32 (by omega), lin_status (by omega), lin_text (by omega), lin_transp (by omega), lin_uri (by omega), lin_date hK (by omega), lin_rrule hK (by omega), lin_date hK (by omega), lin_duration (by omega), lin_text (by omega), lin_uri (by omega), lins_text (by omega), lin_text (by omega), lin_text (by omega), lins_exdate hK (by omega), lin_rstatus hK (by omega), lin_text (by omega), lins_text (by omega), lin_rdate hK (by omega), trivial, trivial⟩

theorem short_VEvent : Short VEvent.fields := by constructor <;> simp [tableW]

theorem names_VEvent : (knownNames VEvent.fields).Nodup := knownNames_nodup VEvent.nodup

theorem table_VFreebusy {K : Nat} (hK : Modest K) : TableLin (2 * K + 1000) VFreebusy.fields :=
  ⟨lin_dateTime hK (by omega), lin_text (by omega), lin_text (by omega), lin_date hK (by omega), lin_date hK (by omega), lin_uri (by omega), lin_uri (by omega), lin_uri (by omega), lin_text (by omega), lins_freebusy hK (by omega), lin_rstatus hK (by omega), trivial⟩

theorem short_VFreebusy : Short VFreebusy.fields := by constructor <;> simp [tableW]

theorem names_VFreebusy : (knownNames VFreebusy.fields).Nodup := knownNames_nodup VFreebusy.nodup

theorem table_VJournal {K : Nat} (hK : Modest K) : TableLin (2 * K + 1000) VJournal.fields :=
  ⟨lin_dateTime hK (by omega), lin_text (by omega), lin_class hK (by omega), lin_dateTime hK (by omega), lin_date hK (by omega), lin_dateTime hK (by omega), lin_uri (by omega), lin_date hK (by omega), lin_u32 (by omega), lin_status (by omega), lin_text (by omega), lin_uri (by omega), lin_rrule hK (by omega), lin_text (by omega), lin_uri (by omega), lins_text (by omega), lin_text (by omega), lin_text (by omega), lin_text (by omega), lins_exdate hK (by omega), lin_text (by omega), lin_rdate hK (by omega), lin_rstatus hK (by omega), trivial⟩

theorem short_VJournal : Short VJournal.fields := by constructor <;> simp [tableW]

theorem names_VJournal : (knownNames VJournal.fields).Nodup := knownNames_nodup VJournal.nodup

theorem table_Standard {K : Nat} (hK : Modest K) : TableLin (2 * K + 1000) Standard.fields :=
  ⟨lin_date hK (by omega), lin_offset (by omega), lin_offset (by omega), lin_rrule hK (by omega), lin_text (by omega), lin_rdate hK (by omega), lin_text (by omega), trivial⟩

theorem short_Standard : Short Standard.fields := by constructor <;> simp [tableW]

theorem names_Standard : (knownNames Standard.fields).Nodup := knownNames_nodup Standard.nodup

theorem table_Daylight {K : Nat} (hK : Modest K) : TableLin (2 * K + 1000) Daylight.fields :=
  ⟨lin_date hK (by omega), lin_offset (by omega), lin_offset (by omega), lin_rrule hK (by omega), lin_text (by omega), lin_rdate hK (by omega), lin_text (by omega), trivial⟩

theorem short_Daylight : Short Daylight.fields := by constructor <;> simp [tableW]

theorem names_Daylight : (knownNames Daylight.fields).Nodup := knownNames_nodup Daylight.nodup

theorem table_VTimezone {K : Nat} (hK : Modest K) : TableLin (2 * K + 1000) VTimezone.fields :=
  ⟨lin_text (by omega), lin_dateTime hK (by omega), lin_uri (by omega), trivial, trivial, trivial⟩

theorem short_VTimezone : Short VTimezone.fields := by constructor <;> simp [tableW]

theorem names_VTimezone : (knownNames VTimezone.fields).Nodup := knownNames_nodup VTimezone.nodup

theorem table_VTodo {K : Nat} (hK : Modest K) : TableLin (2 * K + 1000) VTodo.fields :=
  ⟨lin_dateTime hK (by omega), lin_text (by omega), lin_class hK (by omega), lin_dateTime hK (by omega), lin_dateTime hK (by omega), lin_date hK (by omega), lin_geo hK (by omega), lin_dateTime hK (by omega), lin_text (by omega), lin_uri (by omega), lin_percent (by omega), lin_priority (by omega), lin_date hK (by omega), lin_u32 (by omega), lin_status (by omega), lin_text (by omega), lin_uri (by omega), lin_rrule hK (by omega), lin_date hK (by omega), lin_duration (by omega), lin_text (by omega), lin_uri (by omega), lins_text (by omega), lin_text (by omega), lin_text (by omega), lins_exdate hK (by omega), lin_rstatus hK (by omega), lin_text (by omega), lins_text (by omega), lin_rdate hK (by omega), trivial⟩

theorem short_VTodo : Short VTodo.fields := by constructor <;> simp [tableW]

theorem names_VTodo : (knownNames VTodo.fields).Nodup := knownNames_nodup VTodo.nodup

theorem table_VCalendar {K : Nat} (hK : Modest K) : TableLin (2 * K + 1000) VCalendar.fields :=
  ⟨lin_text (by omega), lin_text (by omega), lin_text (by omega), lin_text (by omega), trivial, trivial, trivial, trivial, trivial, trivial, trivial⟩

theorem short_VCalendar : Short VCalendar.fields := by constructor <;> simp [tableW]

theorem names_VCalendar : (knownNames VCalendar.fields).Nodup := knownNames_nodup VCalendar.nodup

/-! ## Components -/

theorem linP_VFreebusy {K : Nat} (hK : Modest K) : LinP Small (B1 K) vfreebusy :=
  leaf' (toC := VFreebusy.toComp) short_VFreebusy names_VFreebusy (table_VFreebusy hK) (by simp) (fun _ => rfl) (fun _ => rfl) fun _ => rfl

theorem linP_VJournal {K : Nat} (hK : Modest K) : LinP Small (B1 K) vjournal :=
  leaf' (toC := VJournal.toComp) short_VJournal names_VJournal (table_VJournal hK) (by simp) (fun _ => rfl) (fun _ => rfl) fun _ => rfl

theorem linP_Standard {K : Nat} (hK : Modest K) : LinP Small (B1 K) standard :=
  leaf' (toC := Standard.toComp) short_Standard names_Standard (table_Standard hK) (by simp) (fun _ => rfl) (fun _ => rfl) fun _ => rfl

theorem linP_Daylight {K : Nat} (hK : Modest K) : LinP Small (B1 K) daylight :=
  leaf' (toC := Daylight.toComp) short_Daylight names_Daylight (table_Daylight hK) (by simp) (fun _ => rfl) (fun _ => rfl) fun _ => rfl

theorem linP_VTodo {K : Nat} (hK : Modest K) : LinP Small (B1 K) vtodo :=
  leaf' (toC := VTodo.toComp) short_VTodo names_VTodo (table_VTodo hK) (by simp) (fun _ => rfl) (fun _ => rfl) fun _ => rfl

theorem linP_VAlarm {K : Nat} (hK : Modest K) : LinP Small (B1 K) valarm := by
  have key : ∀ {fs : List Field} (hs : Short fs) (hd : (knownNames fs).Nodup) (hf : TableLin (2 * K + 1000) fs) (n : Str) (hn : n.length ≤ 20) (mk : Comp fs → VAlarm)
      (hmk : ∀ c t, Ser.ical (mk c) = .ok t → ∃ t', c.ical n = .ok t' ∧ t.length ≤ t'.length + 4),
      LinP Small (B1 K) (componentP c!"VALARM" fun ls => (Comp.tryFrom fs ls).map mk) := by
    intro fs hs hd hf n hn mk hmk
    refine leaf hs hd hf hn (fun _ => rfl) fun ls v h => ?_
    obtain ⟨c, h1, rfl⟩ := Res.map_ok_iff.1 h
    exact ⟨c, h1, hmk c⟩
  have a := key short_Audio names_Audio (table_Audio hK) c!"AUDIO" (by simp) (fun c => .audio (.ofComp c)) fun c t ht => by
    obtain ⟨b, -, h1, rfl⟩ := C43_VAlarm _ t ((ical_eq rfl).trans ht)
    exact ⟨_, (ical_eq (v := Audio.ofComp c) rfl).symm.trans h1, by simp⟩
  have d := key short_Display names_Display (table_Display hK) c!"DISPLAY" (by simp) (fun c => .display (.ofComp c)) fun c t ht => by
    obtain ⟨b, -, h1, rfl⟩ := C43_VAlarm _ t ((ical_eq rfl).trans ht)
    exact ⟨_, (ical_eq (v := Display.ofComp c) rfl).symm.trans h1, by simp⟩
  have e := key short_Email names_Email (table_Email hK) c!"EMAIL" (by simp) (fun c => .email (.ofComp c)) fun c t ht => by
    obtain ⟨b, -, h1, rfl⟩ := C43_VAlarm _ t ((ical_eq rfl).trans ht)
    exact ⟨_, (ical_eq (v := Email.ofComp c) rfl).symm.trans h1, by simp⟩
  intro i r v h
  obtain ⟨body, ls, h1, h2, h3⟩ := componentP_ok.1 h
  unfold VAlarm.tryFrom at h3
  split at h3
  · simp at h3
  · split at h3
    · obtain ⟨x, h4, rfl⟩ := Res.map_ok_iff.1 h3
      obtain ⟨c, h5, rfl⟩ := Res.map_ok_iff.1 h4
      exact a i r _ (componentP_ok.2 ⟨body, ls, h1, h2, by rw [h5]; rfl⟩)
    · split at h3
      · obtain ⟨x, h4, rfl⟩ := Res.map_ok_iff.1 h3
        obtain ⟨c, h5, rfl⟩ := Res.map_ok_iff.1 h4
        exact d i r _ (componentP_ok.2 ⟨body, ls, h1, h2, by rw [h5]; rfl⟩)
      · split at h3
        · obtain ⟨x, h4, rfl⟩ := Res.map_ok_iff.1 h3
          obtain ⟨c, h5, rfl⟩ := Res.map_ok_iff.1 h4
          exact e i r _ (componentP_ok.2 ⟨body, ls, h1, h2, by rw [h5]; rfl⟩)
        · simp at h3

theorem slots_mono {fs : List Field} {vs : Slots fs} {n m : Nat} (h : SlotsSmall fs vs n) (hm : n ≤ m) : SlotsSmall fs vs m := by
  induction fs with
  | nil => trivial
  | cons f fs ih => exact ⟨h.1.mono hm, ih h.2⟩

theorem CompSmall.mono {fs : List Field} {c : Comp fs} {n m : Nat} (h : CompSmall c n) (hm : n ≤ m) : CompSmall c m :=
  ⟨slots_mono h.slots hm, Nat.le_trans h.x hm, Nat.le_trans h.iana hm⟩

/-- A component with parts. -/
theorem block {α β : Type} [Ser α] {fs : List Field} (hs : Short fs) (hd : (knownNames fs).Nodup) {K : Nat} (hf : TableLin (2 * K + 1000) fs)
    {o e name : Str} (ho : o ≠ []) (hn : name.length ≤ 20) (ha : ∀ v : α, Ser.attr v = none) {toC : α → Comp fs} {ofC : Comp fs → α} (hto : ∀ c, toC (ofC c) = c)
    (hi : ∀ v : α, Ser.ical v = (toC v).ical name) {Q : β → Nat → Prop} {B : Nat} {q : P β} (hq : LinP Q B q) {g : α → List β → α}
    (hg : ∀ v n bs m, CompSmall (toC v) n → Total Q bs m → CompSmall (toC (g v bs)) (n + m)) :
    LinP Small (next K B) (mapRes (delimited (tag o) (pair contentLines (many0 q)) (tag e)) fun (ls, bs) =>
      ((Comp.tryFrom fs ls).map ofC).map fun v => g v bs) := by
  intro i r v h
  obtain ⟨body, ls, r1, bs, rfl, h1, h2, h3⟩ := block_ok.1 h
  obtain ⟨w, h4, rfl⟩ := Res.map_ok_iff.1 h3
  obtain ⟨c, h5, rfl⟩ := Res.map_ok_iff.1 h4
  obtain ⟨m, h6, h7⟩ := linP_many hq (many0_ok.1 h2)
  have h8 : CompSmall c ((2 * K + 1002) * linesW ls) := comp_read hd hf h5
  have h9 := lines_length h1
  have h10 := hg (ofC c) _ bs m (by rw [hto]; exact h8) h6
  have hr : (e ++ r).length ≤ r1.length := by
    have key : ∀ {i r : Str} {bs : List β}, Many q i bs r → r.length ≤ i.length := by
      intro i r bs h
      induction h with
      | nil _ => omega
      | cons _ h _ ih => omega
    exact key (many0_ok.1 h2)
  obtain ⟨d, hdd⟩ : ∃ d, r1.length = (e ++ r).length + d := ⟨r1.length - (e ++ r).length, by omega⟩
  have h11 : m ≤ B * d := by
    rw [hdd, Nat.mul_add] at h7
    omega
  have h12 : (2 * K + 1002) * linesW ls + m ≤ (2 * K + 1002 + B) * (linesW ls + d) := by
    simp only [Nat.add_mul, Nat.mul_add] at h11 ⊢
    omega
  refine ⟨4200 + 336 * (2 * K + 1002 + B) * (linesW ls + d), ⟨fun t ht => ?_, fun a h => by rw [ha] at h; simp at h⟩, ?_⟩
  · rw [hi] at ht
    have := comp_text hs (h10.mono h12) hn ht
    rw [Nat.mul_assoc]
    omega
  · refine arith (W := linesW ls + d) (T := 4200) (C := 336 * (2 * K + 1002 + B)) (by unfold next; omega) (by omega) ?_
    have := List.length_pos_iff.2 ho
    simp only [List.length_append] at h9 hdd ⊢
    omega

theorem CompSmall.slots_of {fs : List Field} {c d : Comp fs} {n m : Nat} (h : CompSmall c n) (hm : n ≤ m) (hs : SlotsSmall fs d.slots m)
    (hx : d.xProp = c.xProp) (hi : d.ianaProp = c.ianaProp) : CompSmall d m :=
  ⟨hs, by rw [hx]; exact (h.mono hm).x, by rw [hi]; exact (h.mono hm).iana⟩

theorem foldl_small {α β : Type} {fs : List Field} {toC : α → Comp fs} {Q : β → Nat → Prop} {file : α → β → α}
    (hg : ∀ v n b m, CompSmall (toC v) n → Q b m → CompSmall (toC (file v b)) (n + m + 1)) (v : α) (n : Nat) (bs : List β) (m : Nat)
    (hv : CompSmall (toC v) n) (hb : Total Q bs m) : CompSmall (toC (bs.foldl file v)) (n + m) := by
  induction bs generalizing v n m with
  | nil => exact hv.mono (by omega)
  | cons b bs ih =>
    obtain ⟨i, j, h1, h2, h3⟩ := hb
    exact (ih (file v b) _ j (hg v n b i hv h1) h2).mono (by omega)

theorem linP_VEvent {K : Nat} (hK : Modest K) : LinP Small (next K (B1 K)) vevent :=
  block (toC := VEvent.toComp) (ofC := VEvent.ofComp) (g := fun v as => { v with alarms := as }) short_VEvent names_VEvent (table_VEvent hK) (by simp) (by simp) (fun _ => rfl)
    (fun _ => rfl) (fun _ => rfl) (linP_VAlarm hK) fun v n as m hv has => hv.slots_of (by omega) (by
      have hv := slots_mono hv.slots (show n ≤ n + m by omega)
      obtain ⟨a0, a1, a2, a3, a4, a5, a6, a7, a8, a9, a10, a11, a12, a13, a14, a15, a16, a17, a18, a19, a20, a21, a22, a23, a24, a25, a26, a27, a28, a29, a30, -⟩ := hv
      exact ⟨a0, a1, a2, a3, a4, a5, a6, a7, a8, a9, a10, a11, a12, a13, a14, a15, a16, a17, a18, a19, a20, a21, a22, a23, a24, a25, a26, a27, a28, a29, (total_smalls has).mono (by omega), trivial⟩) rfl rfl

/-- The bound of a part of a time zone. -/
def tzSmall : TzPart → Nat → Prop
  | .standard s, n => Small s n
  | .daylight s, n => Small s n

theorem linP_alt {α : Type} {Q : α → Nat → Prop} {B : Nat} {p q : P α} (h : LinP Q B p) (h' : LinP Q B q) : LinP Q B (alt p q) := fun i r v hv => by
  rcases alt_ok.1 hv with hv | ⟨-, hv⟩
  · exact h i r v hv
  · exact h' i r v hv

theorem linP_map {α β : Type} {Q : α → Nat → Prop} {Q' : β → Nat → Prop} {B : Nat} {p : P α} {f : α → β} (h : LinP Q B p) (hf : ∀ a n, Q a n → Q' (f a) n) :
    LinP Q' B (map p f) := fun i r v hv => by
  simp only [map_ok] at hv
  obtain ⟨a, ha, rfl⟩ := hv
  obtain ⟨n, h1, h2⟩ := h i r a ha
  exact ⟨n, hf a n h1, h2⟩

theorem linP_mono {α : Type} {Q : α → Nat → Prop} {B B' : Nat} {p : P α} (h : LinP Q B p) (hs : ∀ i r v, p i = .ok r v → r.length ≤ i.length) (hB : B ≤ B') : LinP Q B' p :=
  fun i r v hv => by
    obtain ⟨n, h1, h2⟩ := h i r v hv
    refine ⟨n, h1, ?_⟩
    obtain ⟨d, hd⟩ : ∃ d, i.length = r.length + d := ⟨i.length - r.length, by have := hs i r v hv; omega⟩
    obtain ⟨c, hc⟩ : ∃ c, B' = B + c := ⟨B' - B, by omega⟩
    subst hc
    rw [hd] at h2 ⊢
    simp only [Nat.mul_add, Nat.add_mul] at h2 ⊢
    omega

theorem linP_tz {K : Nat} (hK : Modest K) : LinP tzSmall (B1 K) (alt (map standard .standard) (map daylight .daylight)) :=
  linP_alt (linP_map (linP_Standard hK) fun _ _ h => h) (linP_map (linP_Daylight hK) fun _ _ h => h)

theorem file_VTimezone (v : VTimezone) (n : Nat) (b : TzPart) (m : Nat) (hv : CompSmall v.toComp n) (hb : tzSmall b m) : CompSmall (v.file b).toComp (n + m + 1) := by
  have hs := hv.slots
  have ht := slots_mono hv.slots (show n ≤ n + m + 1 by omega)
  obtain ⟨a0, a1, a2, a3, a4, -⟩ := hs
  obtain ⟨b0, b1, b2, b3, b4, -⟩ := ht
  cases b with
  | standard b => exact hv.slots_of (by omega) ⟨b0, b1, b2, (Smalls.append a3 (Smalls.single hb)).mono (by omega), b4, trivial⟩ rfl rfl
  | daylight b => exact hv.slots_of (by omega) ⟨b0, b1, b2, b3, (Smalls.append a4 (Smalls.single hb)).mono (by omega), trivial⟩ rfl rfl

theorem linP_VTimezone {K : Nat} (hK : Modest K) : LinP Small (next K (B1 K)) vtimezone :=
  block (toC := VTimezone.toComp) (ofC := VTimezone.ofComp) (g := fun v as => as.foldl VTimezone.file v) short_VTimezone names_VTimezone (table_VTimezone hK) (by simp) (by simp)
    (fun _ => rfl) (fun _ => rfl) (fun _ => rfl) (linP_tz hK) fun v n as m hv has => foldl_small file_VTimezone v n as m hv has

/-- The bound of a part of a calendar. -/
def calSmall : Component → Nat → Prop
  | .alarm s, n => Small s n
  | .event s, n => Small s n
  | .freebusy s, n => Small s n
  | .journal s, n => Small s n
  | .timezone s, n => Small s n
  | .todo s, n => Small s n

theorem linP_shrinks {α : Type} {Q : α → Nat → Prop} {B : Nat} {p : P α} (h : LinP Q B p) {i r : Str} {v : α} (hv : p i = .ok r v) : r.length ≤ i.length := by
  obtain ⟨n, -, h2⟩ := h i r v hv
  refine Nat.le_of_lt (Classical.byContradiction fun hc => ?_)
  have := Nat.mul_le_mul_left B (Nat.le_of_not_lt hc)
  omega

theorem linP_component {K : Nat} (hK : Modest K) : LinP calSmall (next K (B1 K)) component := by
  have up : ∀ {α : Type} {Q : α → Nat → Prop} {p : P α}, LinP Q (B1 K) p → LinP Q (next K (B1 K)) p := fun h =>
    linP_mono h (fun _ _ _ => linP_shrinks h) (by unfold next B1; omega)
  exact linP_alt (linP_map (up (linP_VAlarm hK)) fun _ _ h => h) <| linP_alt (linP_map (linP_VEvent hK) fun _ _ h => h) <|
    linP_alt (linP_map (up (linP_VFreebusy hK)) fun _ _ h => h) <| linP_alt (linP_map (up (linP_VJournal hK)) fun _ _ h => h) <|
    linP_alt (linP_map (linP_VTimezone hK) fun _ _ h => h) (linP_map (up (linP_VTodo hK)) fun _ _ h => h)

theorem file_VCalendar (v : VCalendar) (n : Nat) (b : Component) (m : Nat) (hv : CompSmall v.toComp n) (hb : calSmall b m) : CompSmall (v.file b).toComp (n + m + 1) := by
  have hs := hv.slots
  have ht := slots_mono hv.slots (show n ≤ n + m + 1 by omega)
  obtain ⟨a0, a1, a2, a3, a4, a5, a6, a7, a8, a9, -⟩ := hs
  obtain ⟨b0, b1, b2, b3, b4, b5, b6, b7, b8, b9, -⟩ := ht
  cases b with
  | alarm b => exact hv.slots_of (by omega) ⟨b0, b1, b2, b3, (Smalls.append a4 (Smalls.single hb)).mono (by omega), b5, b6, b7, b8, b9, trivial⟩ rfl rfl
  | event b => exact hv.slots_of (by omega) ⟨b0, b1, b2, b3, b4, (Smalls.append a5 (Smalls.single hb)).mono (by omega), b6, b7, b8, b9, trivial⟩ rfl rfl
  | freebusy b => exact hv.slots_of (by omega) ⟨b0, b1, b2, b3, b4, b5, (Smalls.append a6 (Smalls.single hb)).mono (by omega), b7, b8, b9, trivial⟩ rfl rfl
  | journal b => exact hv.slots_of (by omega) ⟨b0, b1, b2, b3, b4, b5, b6, (Smalls.append a7 (Smalls.single hb)).mono (by omega), b8, b9, trivial⟩ rfl rfl
  | todo b => exact hv.slots_of (by omega) ⟨b0, b1, b2, b3, b4, b5, b6, b7, (Smalls.append a8 (Smalls.single hb)).mono (by omega), b9, trivial⟩ rfl rfl
  | timezone b => exact hv.slots_of (by omega) ⟨b0, b1, b2, b3, b4, b5, b6, b7, b8, (Smalls.append a9 (Smalls.single hb)).mono (by omega), trivial⟩ rfl rfl

theorem linP_VCalendar {K : Nat} (hK : Modest K) : LinP Small (next K (next K (B1 K))) vcalendar :=
  block (toC := VCalendar.toComp) (ofC := VCalendar.ofComp) (g := fun v as => as.foldl VCalendar.file v) short_VCalendar names_VCalendar (table_VCalendar hK) (by simp) (by simp)
    (fun _ => rfl) (fun _ => rfl) (fun _ => rfl) (linP_component hK) fun v n as m hv has => foldl_small file_VCalendar v n as m hv has

theorem unfold_length (s : Str) : (unfold s).length ≤ s.length := by
  induction s using unfold.induct with
  | case1 => simp [unfold]
  | case2 r ih => rw [unfold]; simp; omega
  | case3 c r h ih => rw [unfold]; simp; omega; exact h

/-- A component that is read and written. -/
theorem read_written {α : Type} [Ser α] (ha : ∀ v : α, Ser.attr v = none) {B : Nat} {p : P α} (hp : LinP Small B p) {s : Str} {v : α}
    (h : componentOfStr p s = .ok v) {t : Str} (ht : ical v = .ok t) : t.length ≤ B * s.length := by
  obtain ⟨r, h⟩ := toRes_ok.1 h
  obtain ⟨n, h1, h2⟩ := hp _ _ _ h
  have h3 := h1.1 t ((ical_eq (ha v)).symm.trans ht)
  have h4 := Nat.mul_le_mul_left B (unfold_length s)
  omega

end

end Size

end Ikal
