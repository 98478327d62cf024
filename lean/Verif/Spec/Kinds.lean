import Verif.Spec.Echo

/-!
# Specification: an alarm that says to be of another kind

The kind of an alarm that is read is that of its action (`src/components/valarm.rs:13-42`), so an alarm of one kind whose action names another
is read, if at all, as one of that other kind: what the other kind has no property for becomes an extension property.
-/

namespace Ikal.Spec.Back

open Full

variable [Platform]

/-- The line that is written for a value: none if its text is empty. -/
def OneLine {α : Type} (n : Str) (W : Writing α) (v : α) (o : Option ContentLine) : Prop :=
  ∃ t, W.Writes v t ∧ (t = [] ∧ o = none ∨ t ≠ [] ∧ o = some ⟨n, W.params v, t⟩)

/-- The line that is written for several values: that of the only one, or all texts in one line without parameters. -/
def ManyLine {α : Type} (n : Str) (W : Writing α) (v : List α) (o : Option ContentLine) : Prop :=
  match v with
  | [] => o = none
  | [a] => OneLine n W a o
  | v => ∃ ts, All2 W.Writes v ts ∧ o = some ⟨n, [], joinWith c!"," ts⟩

/-- The line that is written for extension properties. -/
def ExtLine (n : Str) (m : SMap ContentLine) (o : Option ContentLine) : Prop :=
  m = [] ∧ o = none ∨
  m ≠ [] ∧ ∃ ts, All2 (fun (p : Str × ContentLine) t => ∃ e, EscapedAs p.2.value e ∧ t = p.1 ++ c!"=" ++ e) m ts ∧
    o = some ⟨n, [], joinWith c!";" ts⟩

/-- A `Display` (`src/components/valarm.rs:101-112`) that is read as an `Audio`: the description becomes an extension property. -/
structure DisplayAsAudio (v : Display) (w : Audio) : Prop where
  action : One c!"ACTION" asText TextLine v.action w.action
  trigger : One c!"TRIGGER" asTrigger TriggerLine v.trigger w.trigger
  duration : Opt c!"DURATION" (asShown TimeDelta.toStr) DurationLine v.duration w.duration
  repeat_ : Opt c!"REPEAT" asNumber NumberLine v.repeat_ w.repeat_
  attach : w.attach = []
  xProp : Ext c!"X-PROP" v.xProp w.xProp
  sorted : w.ianaProp.Wf
  description : OneLine c!"DESCRIPTION" asText v.description (w.ianaProp.get? c!"DESCRIPTION")
  ianaProp : ExtLine c!"IANA-PROP" v.ianaProp (w.ianaProp.get? c!"IANA-PROP")
  others : ∀ k, k ∉ [c!"DESCRIPTION", c!"IANA-PROP"] → w.ianaProp.get? k = none

/-- An `Email` (`src/components/valarm.rs:129-143`) that is read as an `Audio`: description, summary and attendees become extension
properties. -/
structure EmailAsAudio (v : Email) (w : Audio) : Prop where
  action : One c!"ACTION" asText TextLine v.action w.action
  trigger : One c!"TRIGGER" asTrigger TriggerLine v.trigger w.trigger
  duration : Opt c!"DURATION" (asShown TimeDelta.toStr) DurationLine v.duration w.duration
  repeat_ : Opt c!"REPEAT" asNumber NumberLine v.repeat_ w.repeat_
  attach : Many c!"ATTACH" asText TextLine v.attach w.attach
  xProp : Ext c!"X-PROP" v.xProp w.xProp
  sorted : w.ianaProp.Wf
  description : OneLine c!"DESCRIPTION" asText v.description (w.ianaProp.get? c!"DESCRIPTION")
  summary : OneLine c!"SUMMARY" asText v.summary (w.ianaProp.get? c!"SUMMARY")
  attendee : ManyLine c!"ATTENDEE" asUri v.attendee (w.ianaProp.get? c!"ATTENDEE")
  ianaProp : ExtLine c!"IANA-PROP" v.ianaProp (w.ianaProp.get? c!"IANA-PROP")
  others : ∀ k, k ∉ [c!"DESCRIPTION", c!"SUMMARY", c!"ATTENDEE", c!"IANA-PROP"] → w.ianaProp.get? k = none

/-- An `Email` that is read as a `Display`: summary, attendees and attachments become extension properties. -/
structure EmailAsDisplay (v : Email) (w : Display) : Prop where
  action : One c!"ACTION" asText TextLine v.action w.action
  trigger : One c!"TRIGGER" asTrigger TriggerLine v.trigger w.trigger
  description : One c!"DESCRIPTION" asText TextLine v.description w.description
  duration : Opt c!"DURATION" (asShown TimeDelta.toStr) DurationLine v.duration w.duration
  repeat_ : Opt c!"REPEAT" asNumber NumberLine v.repeat_ w.repeat_
  xProp : Ext c!"X-PROP" v.xProp w.xProp
  sorted : w.ianaProp.Wf
  summary : OneLine c!"SUMMARY" asText v.summary (w.ianaProp.get? c!"SUMMARY")
  attendee : ManyLine c!"ATTENDEE" asUri v.attendee (w.ianaProp.get? c!"ATTENDEE")
  attach : ManyLine c!"ATTACH" asText v.attach (w.ianaProp.get? c!"ATTACH")
  ianaProp : ExtLine c!"IANA-PROP" v.ianaProp (w.ianaProp.get? c!"IANA-PROP")
  others : ∀ k, k ∉ [c!"SUMMARY", c!"ATTENDEE", c!"ATTACH", c!"IANA-PROP"] → w.ianaProp.get? k = none

/-- What an alarm is read as, whatever its kind is: as one of its own kind, or as one that needs no property it has not. -/
def AnyKind : VAlarm → VAlarm → Prop
  | .audio a, .audio b => AudioProps a b
  | .display a, .display b => DisplayProps a b
  | .email a, .email b => EmailProps a b
  | .display a, .audio b => DisplayAsAudio a b
  | .email a, .audio b => EmailAsAudio a b
  | .email a, .display b => EmailAsDisplay a b
  | .audio _, .display _ => False
  | .audio _, .email _ => False
  | .display _, .email _ => False

end Ikal.Spec.Back
