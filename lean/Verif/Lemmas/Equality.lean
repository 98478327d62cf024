import Verif.Spec.Equality

/-! # Equality of values -/

namespace Ikal
open Spec

/-- Types whose equality is the identity. -/
class LawfulPEq (α : Type) [PEq α] : Prop where
  iff : ∀ a b : α, PEq.eq a b = true ↔ a = b

theorem peq_lawful {α : Type} [PEq α] [LawfulPEq α] {a b : α} : PEq.eq a b = true ↔ a = b := LawfulPEq.iff a b

instance (priority := low) {α : Type} [DecidableEq α] : LawfulPEq α := ⟨fun a b => by simp [PEq.eq]⟩

theorem listEq_iff {α : Type} [PEq α] {as bs : List α} : listEq as bs = true ↔ Each (fun a b => PEq.eq a b = true) as bs := by
  induction as generalizing bs with
  | nil =>
    cases bs with
    | nil => exact ⟨fun _ => .nil, fun _ => rfl⟩
    | cons b bs => exact ⟨fun h => by simp [listEq] at h, fun h => by cases h⟩
  | cons a as ih =>
    cases bs with
    | nil => exact ⟨fun h => by simp [listEq] at h, fun h => by cases h⟩
    | cons b bs =>
      simp only [listEq, Bool.and_eq_true, ih]
      exact ⟨fun h => .cons h.1 h.2, fun h => by cases h with | cons h1 h2 => exact ⟨h1, h2⟩⟩

theorem each_eq {α : Type} {as bs : List α} : Each (fun a b => a = b) as bs ↔ as = bs := by
  constructor
  · intro h
    induction h with
    | nil => rfl
    | cons h _ ih => rw [h, ih]
  · rintro rfl
    induction as with
    | nil => exact .nil
    | cons a as ih => exact .cons rfl ih

theorem Each.mono {α : Type} {R S : α → α → Prop} (h : ∀ a b, R a b → S a b) {as bs : List α} (e : Each R as bs) : Each S as bs := by
  induction e with
  | nil => exact .nil
  | cons h' _ ih => exact .cons (h _ _ h') ih

theorem each_congr {α : Type} {R S : α → α → Prop} (h : ∀ a b, R a b ↔ S a b) {as bs : List α} : Each R as bs ↔ Each S as bs :=
  ⟨Each.mono fun a b => (h a b).1, Each.mono fun a b => (h a b).2⟩

theorem Each.symm {α : Type} {R : α → α → Prop} (h : ∀ a b, R a b → R b a) {as bs : List α} (e : Each R as bs) : Each R bs as := by
  induction e with
  | nil => exact .nil
  | cons h' _ ih => exact .cons (h _ _ h') ih

theorem Each.trans {α : Type} {R : α → α → Prop} (h : ∀ a b c, R a b → R b c → R a c) {as bs cs : List α} (e : Each R as bs) (f : Each R bs cs) : Each R as cs := by
  induction e generalizing cs with
  | nil => cases f; exact .nil
  | cons h' _ ih =>
    cases f with
    | cons f1 f2 => exact .cons (h _ _ _ h' f1) (ih f2)

theorem each_self {α : Type} {R : α → α → Prop} {as : List α} : Each R as as ↔ ∀ a ∈ as, R a a := by
  induction as with
  | nil => exact ⟨fun _ a h => (by cases h), fun _ => .nil⟩
  | cons a as ih =>
    constructor
    · intro h
      cases h with
      | cons h1 h2 =>
        intro x hx
        rcases List.mem_cons.1 hx with rfl | hx
        · exact h1
        · exact ih.1 h2 x hx
    · intro h
      exact .cons (h a (List.mem_cons_self ..)) (ih.2 fun x hx => h x (List.mem_cons_of_mem _ hx))

instance {α : Type} [PEq α] [LawfulPEq α] : LawfulPEq (List α) := ⟨fun as bs => by
  show listEq as bs = true ↔ _
  rw [listEq_iff, each_congr (S := fun a b => a = b) fun a b => peq_lawful, each_eq]⟩

theorem optEq_iff {α : Type} [PEq α] {a b : Option α} : PEq.eq a b = true ↔ Both (fun x y => PEq.eq x y = true) a b := by
  cases a <;> cases b <;> simp [PEq.eq, Both]

instance {α : Type} [PEq α] [LawfulPEq α] : LawfulPEq (Option α) := ⟨fun a b => by
  rw [optEq_iff]
  cases a <;> cases b <;> simp [Both, peq_lawful]⟩

theorem both_congr {α : Type} {R S : α → α → Prop} (h : ∀ a b, R a b ↔ S a b) {a b : Option α} : Both R a b ↔ Both S a b := by simp [Both, h]

theorem Both.symm {α : Type} {R : α → α → Prop} (h : ∀ a b, R a b → R b a) {a b : Option α} (e : Both R a b) : Both R b a := by
  rcases e with ⟨h1, h2⟩ | ⟨x, y, h1, h2, h3⟩
  · exact .inl ⟨h2, h1⟩
  · exact .inr ⟨y, x, h2, h1, h _ _ h3⟩

theorem Both.trans {α : Type} {R : α → α → Prop} (h : ∀ a b c, R a b → R b c → R a c) {a b c : Option α} (e : Both R a b) (f : Both R b c) : Both R a c := by
  rcases e with ⟨h1, h2⟩ | ⟨x, y, h1, h2, h3⟩ <;> rcases f with ⟨g1, g2⟩ | ⟨x', y', g1, g2, g3⟩
  · exact .inl ⟨h1, g2⟩
  · rw [h2] at g1; cases g1
  · rw [h2] at g1; cases g1
  · rw [h2] at g1; cases g1
    exact .inr ⟨x, y', h1, g2, h _ _ _ h3 g3⟩

theorem both_self {α : Type} {R : α → α → Prop} {a : Option α} : Both R a a ↔ ∀ x, a = some x → R x x := by
  cases a with
  | none => simp [Both]
  | some x => simp [Both]

section
variable [Platform] [FloatEq]

theorem geoEq_iff (a b : Geo) : PEq.eq a b = true ↔ SameGeo a b := by
  show (FloatEq.feq a.lat b.lat && FloatEq.feq a.lon b.lon) = true ↔ _
  simp [SameGeo]

theorem statusEq_iff (a b : RequestStatus) : PEq.eq a b = true ↔ SameStatus a b := by
  show (FloatEq.feq a.statcode b.statcode && PEq.eq a.statdesc b.statdesc && PEq.eq a.extdata b.extdata) = true ↔ _
  simp [SameStatus, peq_lawful, and_assoc]

theorem SameGeo.symm {a b : Geo} (h : SameGeo a b) : SameGeo b a := ⟨FloatEq.symm _ _ h.1, FloatEq.symm _ _ h.2⟩
theorem SameGeo.trans {a b c : Geo} (h : SameGeo a b) (g : SameGeo b c) : SameGeo a c := ⟨FloatEq.trans _ _ _ h.1 g.1, FloatEq.trans _ _ _ h.2 g.2⟩
theorem SameStatus.symm {a b : RequestStatus} (h : SameStatus a b) : SameStatus b a := ⟨FloatEq.symm _ _ h.1, h.2.1.symm, h.2.2.symm⟩
theorem SameStatus.trans {a b c : RequestStatus} (h : SameStatus a b) (g : SameStatus b c) : SameStatus a c :=
  ⟨FloatEq.trans _ _ _ h.1 g.1, h.2.1.trans g.2.1, h.2.2.trans g.2.2⟩

theorem geosEq_iff {a b : Option Geo} : PEq.eq a b = true ↔ Both SameGeo a b := optEq_iff.trans (both_congr geoEq_iff)
theorem statusesEq_iff {a b : List RequestStatus} : PEq.eq a b = true ↔ Each SameStatus a b := listEq_iff.trans (each_congr statusEq_iff)

end

/-- Written in the same way. -/
def SerAlike {α : Type} [Ser α] (a b : α) : Prop := Ser.attr a = Ser.attr b ∧ Ser.ical a = Ser.ical b

theorem SerAlike.field {α : Type} [Ser α] {a b : α} (h : SerAlike a b) (n : Str) : Ikal.field n a = Ikal.field n b := by
  simp only [Ikal.field, h.1, h.2]

theorem Both.serAlike {α : Type} [Ser α] {a b : Option α} (h : Both SerAlike a b) : SerAlike a b := by
  rcases h with ⟨rfl, rfl⟩ | ⟨x, y, rfl, rfl, h⟩
  · exact ⟨rfl, rfl⟩
  · exact h

theorem mapM'_congr {α β : Type} {f : α → Res β} {as bs : List α} (h : Each (fun a b => f a = f b) as bs) : Res.mapM' f as = Res.mapM' f bs := by
  induction h with
  | nil => rfl
  | cons h _ ih => simp only [Res.mapM', h, ih]

theorem Each.serVec {α : Type} [Ser α] {as bs : List α} (h : Each SerAlike as bs) (n : Str) : Field.serVec n as = Field.serVec n bs := by
  have hl : SerAlike as bs := ⟨rfl, by
    show (Res.mapM' Ser.ical as).map _ = (Res.mapM' Ser.ical bs).map _
    rw [mapM'_congr (Each.mono (fun a b h => h.2) h)]⟩
  cases h with
  | nil => rfl
  | cons h1 h2 =>
    cases h2 with
    | nil => exact h1.field n
    | cons h2 h3 => exact hl.field n

section
variable [Platform] {α : Type} [Recurring α]

/-- A relation that the operations of `Recurring` respect. -/
structure Respected (R : α → α → Prop) : Prop where
  dtstart : ∀ {a b}, R a b → Recurring.dtstart a = Recurring.dtstart b
  exdate : ∀ {a b}, R a b → Recurring.exdate a = Recurring.exdate b
  dtend : ∀ {a b}, R a b → Recurring.dtend a = Recurring.dtend b
  rrule : ∀ {a b}, R a b → Recurring.rrule a = Recurring.rrule b
  setDtstart : ∀ {a b} (d), R a b → R (Recurring.setDtstart a d) (Recurring.setDtstart b d)
  setDtend : ∀ {a b} (d), R a b → R (Recurring.setDtend a d) (Recurring.setDtend b d)
  setRrule : ∀ {a b} (r), R a b → R (Recurring.setRrule a r) (Recurring.setRrule b r)

/-- Outcomes with related items. -/
def OutcomeRel (R : α → α → Prop) : Outcome α → Outcome α → Prop
  | .item a, .item b => R a b
  | .done, .done => True
  | .panic, .panic => True
  | .running, .running => True
  | _, _ => False

variable {R : α → α → Prop}

theorem Respected.advance (h : Respected R) : ∀ (fuel : Nat) {a b : α}, R a b → OutcomeRel R (Ikal.advance fuel a) (Ikal.advance fuel b)
  | 0, _, _, _ => trivial
  | fuel + 1, a, b, hab => by
    simp only [Ikal.advance]
    rw [h.dtstart hab, h.rrule hab]
    cases Recurring.dtstart b with
    | none => trivial
    | some d =>
      cases Recurring.rrule b with
      | none => trivial
      | some r =>
        simp only
        cases pastUntil r d with
        | none => trivial
        | some u =>
          cases u with
          | true => trivial
          | false =>
            simp only
            cases r.add d with
            | none => trivial
            | some d' =>
              simp only
              have h1 := h.setDtstart d' hab
              rw [h.dtend h1]
              have tail : ∀ {x y : α}, R x y → OutcomeRel R
                  (if (Recurring.exdate (Recurring.setRrule x r)).contains d' then Ikal.advance fuel (Recurring.setRrule x r)
                    else match r.count with
                      | none => .item (Recurring.setRrule x r)
                      | some 0 => .done
                      | some (n + 1) => .item (Recurring.setRrule (Recurring.setRrule x r) { r with count := some n }))
                  (if (Recurring.exdate (Recurring.setRrule y r)).contains d' then Ikal.advance fuel (Recurring.setRrule y r)
                    else match r.count with
                      | none => .item (Recurring.setRrule y r)
                      | some 0 => .done
                      | some (n + 1) => .item (Recurring.setRrule (Recurring.setRrule y r) { r with count := some n })) := by
                intro x y hxy
                have h2 := h.setRrule r hxy
                rw [h.exdate h2]
                split
                · exact h.advance fuel h2
                · cases r.count with
                  | none => exact h2
                  | some n =>
                    cases n with
                    | zero => trivial
                    | succ n => exact h.setRrule _ h2
              cases Recurring.dtend (Recurring.setDtstart b d') with
              | none => exact tail h1
              | some e =>
                simp only
                cases r.add e with
                | none => trivial
                | some e' => exact tail (h.setDtend e' h1)

theorem Respected.next (h : Respected R) (fuel : Nat) {a b : α} (hab : R a b) :
    OutcomeRel R (Ikal.next fuel a).1 (Ikal.next fuel b).1 ∧ R (Ikal.next fuel a).2 (Ikal.next fuel b).2 := by
  have := h.advance fuel hab
  simp only [Ikal.next]
  cases ha : Ikal.advance fuel a <;> cases hb : Ikal.advance fuel b <;> simp only [ha, hb, OutcomeRel] at this ⊢ <;>
    first | exact this.elim | exact ⟨hab, this⟩ | exact ⟨trivial, hab⟩

theorem Respected.skipWhile (h : Respected R) (start : Date) : ∀ (fuel : Nat) (sk : Bool) {a b : α}, R a b →
    OutcomeRel R (Ikal.skipWhile start fuel sk a).1 (Ikal.skipWhile start fuel sk b).1 ∧
      (Ikal.skipWhile start fuel sk a).2.1 = (Ikal.skipWhile start fuel sk b).2.1 ∧
      R (Ikal.skipWhile start fuel sk a).2.2 (Ikal.skipWhile start fuel sk b).2.2
  | 0, _, _, _, hab => ⟨trivial, rfl, hab⟩
  | fuel + 1, sk, a, b, hab => by
    have hn := h.next (fuel + 1) hab
    simp only [Ikal.skipWhile]
    generalize Ikal.next (fuel + 1) a = na at hn
    generalize Ikal.next (fuel + 1) b = nb at hn
    obtain ⟨oa, sa⟩ := na
    obtain ⟨ob, sb⟩ := nb
    obtain ⟨ho, hs⟩ := hn
    cases oa <;> cases ob <;> simp only [OutcomeRel] at ho <;> try exact ho.elim
    · rename_i x y
      cases sk with
      | false => exact ⟨ho, rfl, hs⟩
      | true =>
        simp only [if_true]
        rw [h.dtstart ho]
        cases Recurring.dtstart y with
        | none => exact ⟨trivial, rfl, hs⟩
        | some d =>
          simp only
          cases d.lt? start with
          | none => exact ⟨trivial, rfl, hs⟩
          | some t =>
            cases t with
            | true => exact h.skipWhile start fuel true hs
            | false => exact ⟨ho, rfl, hs⟩
    · exact ⟨trivial, rfl, hs⟩
    · exact ⟨trivial, rfl, hs⟩
    · exact ⟨trivial, rfl, hs⟩

/-- Selections with the same bounds at the same point over related components. -/
structure RangeRel (R : α → α → Prop) (r r' : Range α) : Prop where
  state : R r.state r'.state
  skipping : r.skipping = r'.skipping
  finished : r.finished = r'.finished
  start : r.start = r'.start
  stop : r.stop = r'.stop

theorem Respected.range (h : Respected R) (fuel : Nat) {r r' : Range α} (hr : RangeRel R r r') :
    OutcomeRel R (r.next fuel).1 (r'.next fuel).1 ∧ RangeRel R (r.next fuel).2 (r'.next fuel).2 := by
  obtain ⟨s, sk, fi, a, e⟩ := r
  obtain ⟨s', sk', fi', a', e'⟩ := r'
  obtain ⟨hs, h1, h2, h3, h4⟩ := hr
  simp only at hs h1 h2 h3 h4
  subst h1 h2 h3 h4
  simp only [Range.next]
  cases fi with
  | true => exact ⟨trivial, ⟨hs, rfl, rfl, rfl, rfl⟩⟩
  | false =>
    simp only [Bool.false_eq_true, if_false]
    have hw := h.skipWhile a fuel sk hs
    generalize Ikal.skipWhile a fuel sk s = na at hw
    generalize Ikal.skipWhile a fuel sk s' = nb at hw
    obtain ⟨oa, ka, sa⟩ := na
    obtain ⟨ob, kb, sb⟩ := nb
    obtain ⟨ho, hk, hs'⟩ := hw
    simp only at ho hk hs'
    subst hk
    cases oa <;> cases ob <;> simp only [OutcomeRel] at ho <;> try exact ho.elim
    · rename_i x y
      cases e with
      | none => exact ⟨ho, ⟨hs', rfl, rfl, rfl, rfl⟩⟩
      | some e =>
        simp only
        rw [h.dtstart ho]
        cases Recurring.dtstart y with
        | none => exact ⟨trivial, ⟨hs', rfl, rfl, rfl, rfl⟩⟩
        | some d =>
          simp only
          cases d.lt? e with
          | none => exact ⟨trivial, ⟨hs', rfl, rfl, rfl, rfl⟩⟩
          | some t =>
            cases t with
            | true => exact ⟨ho, ⟨hs', rfl, rfl, rfl, rfl⟩⟩
            | false => exact ⟨trivial, ⟨hs', rfl, rfl, rfl, rfl⟩⟩
    all_goals exact ⟨trivial, ⟨hs', rfl, rfl, rfl, rfl⟩⟩

end

end Ikal
