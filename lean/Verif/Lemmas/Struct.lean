import Verif.Spec.Faults
import Verif.Lemmas.Derive
import Verif.Props.Generate

/-! # A struct with `#[derive(Component)]` against the table of its fields -/

namespace Ikal
open Spec

set_option linter.unusedSectionVars false

section
variable [Platform] {σ : Type}

/-- A field of a table with access to it in the struct. -/
structure Lens (σ : Type) : Type 1 where
  f : Field
  get : σ → f.T
  set : f.T → σ → σ

namespace Lens

/-- The slots of a value. -/
def slots : (as : List (Lens σ)) → σ → Slots (as.map (·.f))
  | [], _ => ()
  | a :: as, v => (a.get v, slots as v)

/-- The arm of a field. -/
def arm (a : Lens σ) : Str × (ContentLine → σ → Res σ) := (a.f.name, fun l v => (a.f.stepField l (a.get v)).map (a.set · v))

/-- The items of the struct literal. -/
def new : Lens σ → List (List ContentLine → σ → Res σ)
  | ⟨.req n α s p, _, set⟩ => [fun ls v => ((Field.req n α s p).initField ls).map (set · v)]
  | _ => []

/-- Setting one field leaves the others. -/
def Apart (a b : Lens σ) : Prop := ∀ x v, b.get (a.set x v) = b.get v

/-- The laws of a list of fields. -/
structure Laws (as : List (Lens σ)) : Prop where
  same : ∀ a ∈ as, ∀ x v, a.get (a.set x v) = x
  apart : as.Pairwise fun a b => Apart a b ∧ Apart b a
  parsed : ∀ a ∈ as, a.f.parsed = true

theorem Laws.tail {a : Lens σ} {as : List (Lens σ)} (h : Laws (a :: as)) : Laws as :=
  ⟨fun b hb => h.same b (List.mem_cons_of_mem _ hb), (List.pairwise_cons.1 h.apart).2, fun b hb => h.parsed b (List.mem_cons_of_mem _ hb)⟩

theorem slots_congr {as : List (Lens σ)} {v w : σ} (h : ∀ a ∈ as, a.get v = a.get w) : slots as v = slots as w := by
  induction as with
  | nil => rfl
  | cons a as ih => simp only [slots, h a (List.mem_cons_self ..), ih fun b hb => h b (List.mem_cons_of_mem _ hb)]

theorem slots_inj {as : List (Lens σ)} {v w : σ} (h : slots as v = slots as w) : ∀ a ∈ as, a.get v = a.get w := by
  induction as with
  | nil => simp
  | cons a as ih =>
    have h : (a.get v, slots as v) = (a.get w, slots as w) := h
    have h1 := congrArg Prod.fst h
    have h2 := congrArg Prod.snd h
    intro b hb
    rcases List.mem_cons.1 hb with rfl | hb
    · exact h1
    · exact ih h2 b hb

/-- A line changes no other field. -/
theorem match_get {β : Type} {as : List (Lens σ)} {g : σ → β} (hg : ∀ a ∈ as, ∀ x v, g (a.set x v) = g v) {l : ContentLine} {v w : σ}
    (h : Program.match_ (as.map arm) l v = .ok (some w)) : g w = g v := by
  induction as with
  | nil => simp [Program.match_] at h
  | cons a as ih =>
    simp only [List.map_cons, Program.match_, arm] at h
    split at h
    · cases hx : a.f.stepField l (a.get v) with
      | ok x =>
        simp only [hx, Res.map, Res.ok.injEq, Option.some.injEq] at h
        rw [← h]
        exact hg a (List.mem_cons_self ..) _ _
      | err => simp [hx, Res.map] at h
      | panic => simp [hx, Res.map] at h
    · exact ih (fun b hb => hg b (List.mem_cons_of_mem _ hb)) h

theorem match_slots {as : List (Lens σ)} (hl : Laws as) (l : ContentLine) (v : σ) :
    (Program.match_ (as.map arm) l v).map (Option.map (slots as)) = Slots.step (as.map (·.f)) l (slots as v) := by
  induction as with
  | nil => rfl
  | cons a as ih =>
    have hp := hl.parsed a (List.mem_cons_self ..)
    have hs := hl.same a (List.mem_cons_self ..)
    have ha := (List.pairwise_cons.1 hl.apart).1
    have hstep : Slots.step ((a :: as).map (·.f)) l (slots (a :: as) v) =
        if a.f.parsed ∧ l.key = a.f.name then (a.f.stepField l (a.get v)).map fun x => some (x, slots as v)
        else (Slots.step (as.map (·.f)) l (slots as v)).map fun o => o.map fun vs => (a.get v, vs) := rfl
    rw [hstep]
    simp only [List.map_cons, Program.match_, arm, hp, true_and]
    split
    · cases a.f.stepField l (a.get v) with
      | ok x =>
        have : slots (a :: as) (a.set x v) = (x, slots as v) := by
          simp only [slots, hs]
          rw [slots_congr fun b hb => (ha b hb).1 x v]
        simp [Res.map, this]
      | err => rfl
      | panic => rfl
    · rw [← ih hl.tail]
      cases hm : Program.match_ (as.map arm) l v with
      | ok o =>
        cases o with
        | none => rfl
        | some w =>
          have : a.get w = a.get v := match_get (fun b hb => (ha b hb).2) hm
          simp only [Res.map, Option.map_some, slots, this]
      | err => rfl
      | panic => rfl

/-- The value of a field that is not required is its default. -/
def Fresh (a : Lens σ) (v : σ) : Prop := a.new = [] → ∀ ls, a.f.initField ls = .ok (a.get v)

theorem init_get {β : Type} {as : List (Lens σ)} {g : σ → β} (hg : ∀ a ∈ as, a.new ≠ [] → ∀ x v, g (a.set x v) = g v) {ls : List ContentLine} {v w : σ}
    (h : Program.init (as.flatMap new) ls v = .ok w) : g w = g v := by
  induction as generalizing v with
  | nil => simp only [List.flatMap_nil, Program.init, Res.ok.injEq] at h; rw [h]
  | cons a as ih =>
    have ih := fun {v} => @ih (fun b hb => hg b (List.mem_cons_of_mem _ hb)) v
    have hga := hg a (List.mem_cons_self ..)
    obtain ⟨f, get, set⟩ := a
    cases f with
    | req n α s p =>
      simp only [List.flatMap_cons, new, List.cons_append, List.nil_append, Program.init] at h
      obtain ⟨u, hu, hw⟩ := Res.bind_eq_ok.1 h
      rw [ih hw]
      cases hx : (Field.req n α s p).initField ls with
      | ok x =>
        simp only [hx, Res.map, Res.ok.injEq] at hu
        rw [← hu]
        exact hga (by simp [new]) _ _
      | err => simp [hx, Res.map] at hu
      | panic => simp [hx, Res.map] at hu
    | opt => exact ih h
    | push => exact ih h
    | append => exact ih h
    | nested => exact ih h

theorem init_slots {as : List (Lens σ)} (hl : Laws as) (ls : List ContentLine) (v : σ) (hf : ∀ a ∈ as, Fresh a v) :
    (Program.init (as.flatMap new) ls v).map (slots as) = Slots.init (as.map (·.f)) ls := by
  induction as generalizing v with
  | nil => rfl
  | cons a as ih =>
    have ih := ih hl.tail
    have hs := hl.same a (List.mem_cons_self ..)
    have ha := (List.pairwise_cons.1 hl.apart).1
    have hini : Slots.init ((a :: as).map (·.f)) ls = (a.f.initField ls >>= fun v => Slots.init (as.map (·.f)) ls >>= fun vs => pure (v, vs)) := rfl
    rw [hini]
    have hfa := hf a (List.mem_cons_self ..)
    by_cases hn : a.new = []
    · rw [hfa hn ls, List.flatMap_cons, hn, List.nil_append, Res.bind_ok, ← ih v fun b hb => hf b (List.mem_cons_of_mem _ hb)]
      cases hm : Program.init (as.flatMap new) ls v with
      | ok w =>
        have : a.get w = a.get v := init_get (fun b hb _ => (ha b hb).2) hm
        simp only [Res.map, slots, this]
        rfl
      | err => rfl
      | panic => rfl
    · obtain ⟨f, get, set⟩ := a
      cases f with
      | req n α s p =>
        simp only [List.flatMap_cons, new, List.cons_append, List.nil_append, Program.init]
        cases hx : (Field.req n α s p).initField ls with
        | ok x =>
          simp only [Res.map, Res.bind_ok]
          have hf' : ∀ b ∈ as, Fresh b (set x v) := by
            intro b hb hbn ls
            rw [(ha b hb).1 x v]
            exact hf b (List.mem_cons_of_mem _ hb) hbn ls
          rw [← ih (set x v) hf']
          change _ = Res.bind _ _
          cases hm : Program.init (as.flatMap new) ls (set x v) with
          | ok w =>
            have h1 : get w = get (set x v) := init_get (g := get) (fun b hb _ => (ha b hb).2) hm
            have h2 : slots (⟨.req n α s p, get, set⟩ :: as) w = (x, slots as w) := by
              simp only [slots, h1]
              have hs : get (set x v) = x := hs x v
              rw [hs]
            simp only [Res.map, Res.bind]
            rw [h2]
            rfl
          | err => rfl
          | panic => rfl
        | err => rfl
        | panic => rfl
      | opt => exact absurd rfl hn
      | push => exact absurd rfl hn
      | append => exact absurd rfl hn
      | nested => exact absurd rfl hn

end Lens

/-- A program with the fields `as` and the maps `x` and `i`. -/
structure Program.Fits (P : Program σ) (as : List (Lens σ)) (gx : σ → SMap ContentLine) (sx : SMap ContentLine → σ → σ) (gi : σ → SMap ContentLine)
    (si : SMap ContentLine → σ → σ) : Prop where
  arms : P.arms = as.map Lens.arm
  new : P.new = as.flatMap Lens.new
  x : P.x = fun l v => sx (SMap.insert (gx v) l.key l) v
  iana : P.iana = fun l v => si (SMap.insert (gi v) l.key l) v
  laws : Lens.Laws as
  fresh : ∀ a ∈ as, Lens.Fresh a P.default
  sameX : ∀ m v, gx (sx m v) = m
  sameI : ∀ m v, gi (si m v) = m
  xI : ∀ m v, gx (si m v) = gx v
  iX : ∀ m v, gi (sx m v) = gi v
  aX : ∀ a ∈ as, ∀ m v, a.get (sx m v) = a.get v
  aI : ∀ a ∈ as, ∀ m v, a.get (si m v) = a.get v
  xA : ∀ a ∈ as, ∀ y v, gx (a.set y v) = gx v
  iA : ∀ a ∈ as, ∀ y v, gi (a.set y v) = gi v
  emptyX : gx P.default = []
  emptyI : gi P.default = []

namespace Program.Fits

variable {P : Program σ} {as : List (Lens σ)} {gx : σ → SMap ContentLine} {sx : SMap ContentLine → σ → σ} {gi : σ → SMap ContentLine} {si : SMap ContentLine → σ → σ}

/-- The struct as a table. -/
def proj (_ : P.Fits as gx sx gi si) (v : σ) : Comp (as.map (·.f)) := ⟨Lens.slots as v, gx v, gi v⟩

theorem step (h : P.Fits as gx sx gi si) (v : σ) (l : ContentLine) : (P.step v l).map h.proj = Comp.step (h.proj v) l := by
  have hm := Lens.match_slots h.laws l v
  unfold Comp.step
  rw [show Slots.step (as.map (·.f)) l (h.proj v).slots = _ from hm.symm]
  unfold Program.step
  rw [h.arms]
  cases hmm : Program.match_ (as.map Lens.arm) l v with
  | err => rfl
  | panic => rfl
  | ok o =>
    cases o with
    | some w =>
      have h1 : gx w = gx v := Lens.match_get h.xA hmm
      have h2 : gi w = gi v := Lens.match_get h.iA hmm
      simp only [Res.map, Option.map_some, Res.bind_ok, pure, proj, h1, h2]
    | none =>
      simp only [Res.map, Option.map_none, Res.bind_ok]
      by_cases hk : (stripPrefix c!"X-" l.key).isSome = true
      · rw [if_pos hk, if_pos hk]
        simp only [pure, h.x, proj, h.sameX, h.iX]
        rw [Lens.slots_congr fun a ha => h.aX a ha _ v]
      · rw [if_neg hk, if_neg hk]
        simp only [pure, h.iana, proj, h.sameI, h.xI]
        rw [Lens.slots_congr fun a ha => h.aI a ha _ v]

theorem loop (h : P.Fits as gx sx gi si) (ls : List ContentLine) (v : σ) : (P.loop v ls).map h.proj = Comp.loop (h.proj v) ls := by
  induction ls generalizing v with
  | nil => rfl
  | cons l ls ih =>
    simp only [Program.loop, Comp.loop, ← h.step v l]
    cases P.step v l with
    | ok w => simpa [Res.map, Res.bind_ok] using ih w
    | err => rfl
    | panic => rfl

/-- The program does to the struct what the table does to its slots. -/
theorem tryFrom (h : P.Fits as gx sx gi si) (ls : List ContentLine) : (P.tryFrom ls).map h.proj = Comp.tryFrom (as.map (·.f)) ls := by
  simp only [Program.tryFrom, Comp.tryFrom, ← Lens.init_slots h.laws ls P.default h.fresh, h.new]
  cases hi : Program.init (as.flatMap Lens.new) ls P.default with
  | ok w =>
    have h1 : gx w = [] := (Lens.init_get (fun a ha _ => h.xA a ha) hi).trans h.emptyX
    have h2 : gi w = [] := (Lens.init_get (fun a ha _ => h.iA a ha) hi).trans h.emptyI
    simp only [Res.map, Res.bind_ok]
    rw [show (⟨Lens.slots as w, [], []⟩ : Comp (as.map (·.f))) = h.proj w by simp [proj, h1, h2]]
    exact h.loop ls w
  | err => rfl
  | panic => rfl

/-- Nothing else changes. -/
theorem keeps {β : Type} {g : σ → β} (h : P.Fits as gx sx gi si) (hg : ∀ a ∈ as, ∀ x v, g (a.set x v) = g v) (hx : ∀ m v, g (sx m v) = g v)
    (hi : ∀ m v, g (si m v) = g v) {ls : List ContentLine} {w : σ} (hw : P.tryFrom ls = .ok w) : g w = g P.default := by
  have hloop : ∀ ls v w, P.loop v ls = .ok w → g w = g v := by
    intro ls
    induction ls with
    | nil => intro v w h; simp only [Program.loop, Res.ok.injEq] at h; rw [h]
    | cons l ls ih =>
      intro v w hv
      simp only [Program.loop] at hv
      obtain ⟨u, hu, hw⟩ := Res.bind_eq_ok.1 hv
      rw [ih u w hw]
      simp only [Program.step, h.arms] at hu
      obtain ⟨o, ho, hu⟩ := Res.bind_eq_ok.1 hu
      cases o with
      | some y =>
        simp only [pure, Res.ok.injEq] at hu
        rw [← hu]
        exact Lens.match_get hg ho
      | none =>
        simp only [h.x, h.iana] at hu
        split at hu
        · simp only [pure, Res.ok.injEq] at hu
          rw [← hu]
          exact hx _ _
        · simp only [pure, Res.ok.injEq] at hu
          rw [← hu]
          exact hi _ _
  simp only [Program.tryFrom, h.new] at hw
  obtain ⟨u, hu, hw⟩ := Res.bind_eq_ok.1 hw
  rw [hloop ls u w hw]
  exact Lens.init_get (fun a ha _ => hg a ha) hu

end Program.Fits

/-! ## From the declaration to the table -/

/-- How the field of a table fails, by its declaration. -/
structure Field.Faults (d : FieldDecl) (a : Field) : Prop where
  init : ∀ ls f, a.initField ls = f.res ↔ kind d = .required ∧ GivenFails d ls f
  given : ∀ ls, (∃ x, a.initField ls = .ok x) ↔ (kind d = .required → Given d ls)
  step : ∀ l x f, a.stepField l x = f.res ↔ kind d ≠ .required ∧ LineFails d l f
  line : ∀ l x, (∃ y, a.stepField l x = .ok y) ↔ (kind d ≠ .required → Readable d l)

theorem fails_iff {d : FieldDecl} {t : RTy} {p : ContentLine → Res t.den} (hp : parserOf d.ident = some ⟨t, p⟩) (l : ContentLine) (f : Failure) :
    LineFails d l f ↔ p l = f.res :=
  ⟨fun ⟨t', p', h, h'⟩ => (by rw [hp] at h; cases h; exact h'), fun h => ⟨t, p, hp, h⟩⟩

theorem readable_iff {d : FieldDecl} {t : RTy} {p : ContentLine → Res t.den} (hp : parserOf d.ident = some ⟨t, p⟩) (l : ContentLine) :
    Readable d l ↔ ∃ a, p l = .ok a :=
  ⟨fun ⟨t', p', h, h'⟩ => (by rw [hp] at h; cases h; exact h'), fun h => ⟨t, p, hp, h⟩⟩

theorem ok_ne_res {α : Type} (a : α) (f : Failure) : ¬ (Res.ok a = f.res) := by cases f <;> simp [Failure.res]

theorem map_res {α β : Type} (x : Res α) (g : α → β) (f : Failure) : x.map g = f.res ↔ x = f.res := by
  cases x <;> cases f <;> simp [Res.map, Failure.res]

theorem map_ok {α β : Type} (x : Res α) (g : α → β) : (∃ b, x.map g = .ok b) ↔ ∃ a, x = .ok a := by
  cases x <;> simp [Res.map]

theorem Field.faults_req {d : FieldDecl} {t : RTy} {p : ContentLine → Res t.den} (hk : kind d = .required) (hp : parserOf d.ident = some ⟨t, p⟩) (s : Ser t.den) :
    (Field.req (kebab d.ident) t.den s p).Faults d := by
  have hl : ∀ ls, Field.lastLine (kebab d.ident) ls = lastNamed (kebab d.ident) ls := fun ls => rfl
  refine ⟨fun ls f => ?_, fun ls => ?_, fun l x f => ?_, fun l x => ?_⟩
  · simp only [Field.initField, hl, GivenFails, hk, true_and]
    cases lastNamed (kebab d.ident) ls with
    | none => cases f <;> simp [Failure.res, eq_comm]
    | some l => simp [fails_iff hp]
  · simp only [Field.initField, hl, Given, hk, true_implies]
    cases lastNamed (kebab d.ident) ls with
    | none => simp
    | some l => simp [readable_iff hp]
  · simp [Field.stepField, ok_ne_res, hk]
  · simp [Field.stepField, hk]

theorem Field.faults_opt {d : FieldDecl} {t : RTy} {p : ContentLine → Res t.den} (hk : kind d ≠ .required) (hp : parserOf d.ident = some ⟨t, p⟩) (s : Ser t.den) (n : Str) :
    (Field.opt n t.den s p).Faults d := by
  refine ⟨fun ls f => ?_, fun ls => ?_, fun l x f => ?_, fun l x => ?_⟩
  · simp [Field.initField, ok_ne_res, hk]
  · simp [Field.initField, hk]
  · simp only [Field.stepField, map_res, fails_iff hp, hk, ne_eq, not_false_eq_true, true_and]
  · simp only [Field.stepField, map_ok, readable_iff hp, hk, ne_eq, not_false_eq_true, true_implies]

theorem Field.faults_push {d : FieldDecl} {t : RTy} {p : ContentLine → Res t.den} (hk : kind d ≠ .required) (hp : parserOf d.ident = some ⟨t, p⟩) (s : Ser t.den) (n : Str) :
    (Field.push n t.den s p).Faults d := by
  refine ⟨fun ls f => ?_, fun ls => ?_, fun l x f => ?_, fun l x => ?_⟩
  · simp [Field.initField, ok_ne_res, hk]
  · simp [Field.initField, hk]
  · simp only [Field.stepField, map_res, fails_iff hp, hk, ne_eq, not_false_eq_true, true_and]
  · simp only [Field.stepField, map_ok, readable_iff hp, hk, ne_eq, not_false_eq_true, true_implies]

theorem Field.faults_append {d : FieldDecl} {t : RTy} {p : ContentLine → Res (RTy.vec t).den} (hk : kind d ≠ .required) (hp : parserOf d.ident = some ⟨.vec t, p⟩) (s : Ser t.den)
    (n : Str) : (Field.append n t.den s p).Faults d := by
  refine ⟨fun ls f => ?_, fun ls => ?_, fun l x f => ?_, fun l x => ?_⟩
  · simp [Field.initField, ok_ne_res, hk]
  · simp [Field.initField, hk]
  · simp only [Field.stepField, map_res, fails_iff hp, hk, ne_eq, not_false_eq_true, true_and]
  · simp only [Field.stepField, map_ok, readable_iff hp, hk, ne_eq, not_false_eq_true, true_implies]

/-- The lens `a` is the field `m` with the declaration `d`. -/
structure Lens.Of (d : FieldDecl) (m : Member σ) (a : Lens σ) : Prop where
  name : a.f.name = kebab d.ident
  parsed : a.f.parsed = true
  parser : parserOf d.ident ≠ none
  same : ∀ x v, a.get (a.set x v) = x
  keep : ∀ {β : Type} (g : σ → β), (∀ x v, g (m.set x v) = g v) → ∀ x v, g (a.set x v) = g v
  get : ∀ v w, a.get v = a.get w ↔ m.get v = m.get w
  fresh : ∀ v, Blank m v → a.Fresh v
  holds : ∀ ls v, a.f.Holds ls (a.get v) ↔ FieldHolds d ls v m
  faults : a.f.Faults d

omit [Platform] in
theorem mapM_some_cons {α β : Type} {f : α → Option β} {a : α} {as : List α} {bs : List β} (h : (a :: as).mapM f = some bs) :
    ∃ b bs', f a = some b ∧ as.mapM f = some bs' ∧ bs = b :: bs' := by
  simp only [List.mapM_cons, Option.bind_eq_bind, Option.bind_eq_some_iff, Option.pure_def, Option.some.injEq] at h
  obtain ⟨b, h1, bs', h2, h3⟩ := h
  exact ⟨b, bs', h1, h2, h3.symm⟩

theorem lens_of {ms : List (Member σ)} {d : FieldDecl} {m : Member σ} (hm : memberOf ms d.ident = some m)
    (hsame : ∀ x v, m.get (m.set x v) = x) (hback : ∀ v, m.set (m.get v) v = v)
    {arm : Str × (ContentLine → σ → Res σ)} (harm : armItem ms (kebab d.ident, d.ident, (kind d).action) = some arm)
    {nw : List (List ContentLine → σ → Res σ)}
    (hnw : if kind d = .required then ∃ f, newItem ms (d.ident, kebab d.ident) = some f ∧ nw = [f] else nw = []) :
    ∃ a : Lens σ, a.Of d m ∧ a.arm = arm ∧ a.new = nw := by
  obtain ⟨nm, ty, get, set⟩ := m
  cases hk : kind d with
  | required =>
    simp only [hk, if_true] at hnw
    obtain ⟨f, hf, rfl⟩ := hnw
    simp only [hk, Kind.action, armItem, hm, Option.bind_eq_bind, Option.bind_some, Option.some.injEq] at harm
    simp only [newItem, hm, Option.bind_eq_bind, Option.bind_some, Option.bind_eq_some_iff] at hf
    obtain ⟨⟨t, p⟩, hp, hf⟩ := hf
    split at hf
    · next h =>
      simp only at h
      subst h
      simp only [Option.some.injEq] at hf
      refine ⟨⟨.req (kebab d.ident) t.den ⟨false, fun _ => none, fun _ => .ok []⟩ p, get, set⟩, ⟨rfl, rfl, by simp [hp], hsame, fun g h => h, fun v w => Iff.rfl, fun v _ h => ?_, ?_, Field.faults_req hk hp _⟩, ?_, ?_⟩
      · simp [Lens.new] at h
      · intro ls v
        simp only [Field.Holds, FieldHolds, hk, hp]
        constructor
        · intro h; exact ⟨p, rfl, h⟩
        · rintro ⟨p', e, h⟩
          cases e
          exact h
      · rw [← harm]
        simp only [Lens.arm, Field.stepField, Res.map, Prod.mk.injEq, true_and]
        funext l v
        exact congrArg Res.ok (hback v)
      · rw [← hf]
        simp only [Lens.new, List.cons.injEq, and_true]
        funext ls v
        simp only [Field.initField]
        cases Field.lastLine (kebab d.ident) ls <;> rfl
    · cases hf
  | optional =>
    simp only [hk, reduceCtorEq, if_false] at hnw
    subst hnw
    simp only [hk, Kind.action, armItem, hm, Option.bind_eq_bind, Option.bind_some] at harm
    split at harm
    · contradiction
    · next t get set _ h =>
      cases h
      simp only [Option.bind_eq_some_iff] at harm
      obtain ⟨⟨t', p⟩, hp, harm⟩ := harm
      split at harm
      · next h =>
        simp only at h
        subst h
        simp only [Option.some.injEq] at harm
        refine ⟨⟨.opt (kebab d.ident) t'.den ⟨false, fun _ => none, fun _ => .ok []⟩ p, get, set⟩, ⟨rfl, rfl, by simp [hp], hsame, fun g h => h, fun v w => Iff.rfl, fun v h _ _ => ?_, ?_, Field.faults_opt (by simp [hk]) hp _ _⟩, ?_, rfl⟩
        · simp only [Blank] at h
          simp only [Field.initField]
          rw [h]
        · intro ls v
          simp only [Field.Holds, FieldHolds, hk, hp]
          constructor
          · intro h; exact ⟨p, rfl, h⟩
          · rintro ⟨p', e, h⟩
            cases e
            exact h
        · rw [← harm]
          simp only [Lens.arm, Field.stepField, Prod.mk.injEq, true_and]
          funext l v
          cases p l <;> rfl
      · cases harm
    · contradiction
    · contradiction
    · cases harm
  | repeated =>
    simp only [hk, reduceCtorEq, if_false] at hnw
    subst hnw
    simp only [hk, Kind.action, armItem, hm, Option.bind_eq_bind, Option.bind_some] at harm
    split at harm
    · contradiction
    · contradiction
    · next t get set _ h =>
      cases h
      simp only [Option.bind_eq_some_iff] at harm
      obtain ⟨⟨t', p⟩, hp, harm⟩ := harm
      split at harm
      · next h =>
        simp only at h
        subst h
        simp only [Option.some.injEq] at harm
        refine ⟨⟨.push (kebab d.ident) t'.den ⟨false, fun _ => none, fun _ => .ok []⟩ p, get, set⟩, ⟨rfl, rfl, by simp [hp], hsame, fun g h => h, fun v w => Iff.rfl, fun v h _ _ => ?_, ?_, Field.faults_push (by simp [hk]) hp _ _⟩, ?_, rfl⟩
        · simp only [Blank] at h
          simp only [Field.initField]
          rw [h]
        · intro ls v
          simp only [Field.Holds, FieldHolds, hk, hp]
          constructor
          · intro h; exact ⟨p, rfl, h⟩
          · rintro ⟨p', e, h⟩
            cases e
            exact h
        · rw [← harm]
          simp only [Lens.arm, Field.stepField, Prod.mk.injEq, true_and]
          funext l v
          cases p l <;> rfl
      · cases harm
    · contradiction
    · cases harm
  | flattened =>
    simp only [hk, reduceCtorEq, if_false] at hnw
    subst hnw
    simp only [hk, Kind.action, armItem, hm, Option.bind_eq_bind, Option.bind_some] at harm
    split at harm
    · contradiction
    · contradiction
    · contradiction
    · next t get set _ h =>
      cases h
      simp only [Option.bind_eq_some_iff] at harm
      obtain ⟨⟨t', p⟩, hp, harm⟩ := harm
      split at harm
      · next h =>
        simp only at h
        subst h
        simp only [Option.some.injEq] at harm
        refine ⟨⟨.append (kebab d.ident) t.den ⟨false, fun _ => none, fun _ => .ok []⟩ p, get, set⟩, ⟨rfl, rfl, by simp [hp], hsame, fun g h => h, fun v w => Iff.rfl, fun v h _ _ => ?_, ?_, Field.faults_append (by simp [hk]) hp _ _⟩, ?_, rfl⟩
        · simp only [Blank] at h
          simp only [Field.initField]
          rw [h]
        · intro ls v
          simp only [Field.Holds, FieldHolds, hk, hp]
          constructor
          · intro h; exact ⟨p, rfl, h⟩
          · rintro ⟨p', e, h⟩
            cases e
            exact h
        · rw [← harm]
          simp only [Lens.arm, Field.stepField, Prod.mk.injEq, true_and]
          funext l v
          cases p l <;> rfl
      · cases harm
    · cases harm

/-- A declared field with its member and its lens. -/
structure Part (σ : Type) : Type 1 where
  d : FieldDecl
  m : Member σ
  a : Lens σ

theorem parts_of {ms : List (Member σ)} (hsame : ∀ m ∈ ms, ∀ x v, m.get (m.set x v) = x) (hback : ∀ m ∈ ms, ∀ v, m.set (m.get v) v = v)
    (ds : List FieldDecl) {arms : List (Str × (ContentLine → σ → Res σ))} {new : List (List ContentLine → σ → Res σ)}
    (harms : (ds.map fun d => (kebab d.ident, d.ident, (kind d).action)).mapM (armItem ms) = some arms)
    (hnew : ((ds.filter fun d => kind d = .required).map fun d => (d.ident, kebab d.ident)).mapM (newItem ms) = some new) :
    ∃ ps : List (Part σ), ps.map (·.d) = ds ∧ (∀ p ∈ ps, memberOf ms p.d.ident = some p.m ∧ p.a.Of p.d p.m) ∧
      arms = (ps.map (·.a)).map Lens.arm ∧ new = (ps.map (·.a)).flatMap Lens.new := by
  induction ds generalizing arms new with
  | nil =>
    simp only [List.map_nil, List.mapM_nil, List.filter_nil, Option.pure_def, Option.some.injEq] at harms hnew
    exact ⟨[], rfl, by simp, by simp [← harms], by simp [← hnew]⟩
  | cons d ds ih =>
    obtain ⟨arm, arms', h1, h2, rfl⟩ := mapM_some_cons harms
    have hmem : ∃ m, memberOf ms d.ident = some m := by
      simp only [armItem, Option.bind_eq_bind, Option.bind_eq_some_iff] at h1
      obtain ⟨m, hm, _⟩ := h1
      exact ⟨m, hm⟩
    obtain ⟨m, hm⟩ := hmem
    have hin : m ∈ ms := List.mem_of_find?_eq_some hm
    by_cases hk : kind d = .required
    · rw [List.filter_cons_of_pos (by simpa using hk), List.map_cons] at hnew
      obtain ⟨f, new', h3, h4, rfl⟩ := mapM_some_cons hnew
      obtain ⟨ps, i1, i2, i3, i4⟩ := ih h2 h4
      obtain ⟨a, ha, ha1, ha2⟩ := lens_of hm (hsame m hin) (hback m hin) h1 (nw := [f]) (by rw [if_pos hk]; exact ⟨f, h3, rfl⟩)
      refine ⟨⟨d, m, a⟩ :: ps, by simp [i1], ?_, by simp [ha1, i3], by simp [ha2, i4]⟩
      intro p hp
      rcases List.mem_cons.1 hp with rfl | hp
      · exact ⟨hm, ha⟩
      · exact i2 p hp
    · rw [List.filter_cons_of_neg (by simpa using hk)] at hnew
      obtain ⟨ps, i1, i2, i3, i4⟩ := ih h2 hnew
      obtain ⟨a, ha, ha1, ha2⟩ := lens_of hm (hsame m hin) (hback m hin) h1 (nw := []) (by rw [if_neg hk])
      refine ⟨⟨d, m, a⟩ :: ps, by simp [i1], ?_, by simp [ha1, i3], by simp [ha2, i4]⟩
      intro p hp
      rcases List.mem_cons.1 hp with rfl | hp
      · exact ⟨hm, ha⟩
      · exact i2 p hp

variable {ds : List FieldDecl} {ms : List (Member σ)} {default : σ}

omit [Platform] in
theorem nodup_map_inj {α β : Type _} {f : α → β} {l : List α} (h : (l.map f).Nodup) {a b : α} (ha : a ∈ l) (hb : b ∈ l) (e : f a = f b) : a = b := by
  induction l with
  | nil => cases ha
  | cons c l ih =>
    rw [List.map_cons, List.nodup_cons] at h
    rcases List.mem_cons.1 ha with rfl | ha' <;> rcases List.mem_cons.1 hb with rfl | hb'
    · rfl
    · exact absurd (e ▸ List.mem_map_of_mem hb') h.1
    · exact absurd (e ▸ List.mem_map_of_mem ha') h.1
    · exact ih h.2 ha' hb'

theorem Spec.StructOf.inj (hd : Declared ds) (h : StructOf ds ms default) {m n : Member σ} (hm : m ∈ ms) (hn : n ∈ ms) (e : m.name = n.name) : m = n :=
  nodup_map_inj (by rw [h.names]; exact hd.nodup) hm hn e

theorem memberOf_some {i : Str} {m : Member σ} (h : memberOf ms i = some m) : m ∈ ms ∧ m.name = i :=
  ⟨List.mem_of_find?_eq_some h, by simpa using List.find?_some h⟩

theorem Spec.StructOf.back (hd : Declared ds) (h : StructOf ds ms default) : ∀ m ∈ ms, ∀ v, m.set (m.get v) v = v := by
  intro m hm v
  refine h.ext _ _ fun n hn => ?_
  by_cases e : m.name = n.name
  · have := h.inj hd hm hn e
    subst this
    exact h.same m hm _ v
  · exact h.other m hm n hn e _ v

theorem insertLine_some {m : Member σ} {f : ContentLine → σ → σ} (h : insertLine m = some f) :
    ∃ n get set, m = ⟨n, .lines, get, set⟩ ∧ f = fun l v => set (SMap.insert (get v) l.key l) v := by
  unfold insertLine at h
  split at h
  · next n get set =>
    simp only [Option.some.injEq] at h
    exact ⟨n, get, set, rfl, h.symm⟩
  · cases h

theorem parserOf_x : parserOf c!"x_prop" = none := by rfl
theorem parserOf_iana : parserOf c!"iana_prop" = none := by rfl

/-- The compiled code of a declaration and the table of its fields. -/
theorem fits (hd : Declared ds) (h : StructOf ds ms default) {P : Program σ} (hc : (generate ds).compile ms default = some P) :
    ∃ (ps : List (Part σ)) (nx ni : Str) (gx gi : σ → SMap ContentLine) (sx si : SMap ContentLine → σ → σ),
      memberOf ms c!"x_prop" = some ⟨nx, .lines, gx, sx⟩ ∧ memberOf ms c!"iana_prop" = some ⟨ni, .lines, gi, si⟩ ∧
      ps.map (·.d) = (ds.filter fun d => !d.ignore) ∧ (∀ p ∈ ps, memberOf ms p.d.ident = some p.m ∧ p.a.Of p.d p.m) ∧
      P.Fits (ps.map (·.a)) gx sx gi si ∧ P.default = default := by
  obtain ⟨c1, c2, c3⟩ := C85_code hd
  simp only [Code.compile, c1, c2, Option.bind_eq_bind, Option.bind_eq_some_iff, Option.some.injEq] at hc
  obtain ⟨new, hnew, arms, harms, fx, ⟨mx, hmx, hfx⟩, fi, ⟨mi, hmi, hfi⟩, sers, _, rfl⟩ := hc
  obtain ⟨nx, gx, sx, rfl, rfl⟩ := insertLine_some hfx
  obtain ⟨ni, gi, si, rfl, rfl⟩ := insertLine_some hfi
  have hnew' : (((ds.filter fun d => !d.ignore).filter fun d => kind d = .required).map fun d => (d.ident, kebab d.ident)).mapM (newItem ms) = some new := by
    rw [List.filter_filter]
    rw [show (fun d : FieldDecl => decide (kind d = .required) && !d.ignore) = fun d => !d.ignore && decide (kind d = .required) by funext d; exact Bool.and_comm ..]
    exact hnew
  obtain ⟨ps, h1, h2, h3, h4⟩ := parts_of h.same (h.back hd) _ harms hnew'
  refine ⟨ps, nx, ni, gx, gi, sx, si, hmx, hmi, h1, h2, ?_, rfl⟩
  obtain ⟨inx, hnx⟩ := memberOf_some hmx
  obtain ⟨ini, hni⟩ := memberOf_some hmi
  simp only at hnx hni
  have hpx : ∀ p ∈ ps, p.d.ident ≠ c!"x_prop" := fun p hp e => (h2 p hp).2.parser (by rw [e]; exact parserOf_x)
  have hpi : ∀ p ∈ ps, p.d.ident ≠ c!"iana_prop" := fun p hp e => (h2 p hp).2.parser (by rw [e]; exact parserOf_iana)
  have hpm : ∀ p ∈ ps, p.m ∈ ms ∧ p.m.name = p.d.ident := fun p hp => memberOf_some (h2 p hp).1
  have hnd : (ps.map fun p => p.d.ident).Nodup := by
    have : (ps.map fun p => p.d.ident) = (ps.map (·.d)).map (·.ident) := by simp
    rw [this, h1]
    exact hd.nodup.sublist (List.filter_sublist.map _)
  have hxi : nx ≠ ni := by rw [hnx, hni]; decide
  have ha : ∀ a ∈ ps.map (·.a), ∃ p ∈ ps, p.a = a := fun a ha => List.mem_map.1 ha
  refine ⟨h3, h4, rfl, rfl, ⟨?_, ?_, ?_⟩, ?_, h.same _ inx, h.same _ ini, h.other _ ini _ inx (Ne.symm hxi), h.other _ inx _ ini hxi, ?_, ?_, ?_, ?_, h.blank _ inx, h.blank _ ini⟩
  · intro a h'
    obtain ⟨p, hp, rfl⟩ := ha a h'
    exact (h2 p hp).2.same
  · rw [List.pairwise_map]
    rw [List.nodup_iff_pairwise_ne, List.pairwise_map] at hnd
    refine hnd.imp_of_mem ?_
    intro p q hp hq hpq
    obtain ⟨ip, np⟩ := hpm p hp
    obtain ⟨iq, nq⟩ := hpm q hq
    have hne : p.m.name ≠ q.m.name := by rw [np, nq]; exact hpq
    constructor
    · intro x v
      rw [(h2 q hq).2.get]
      exact (h2 p hp).2.keep _ (h.other _ ip _ iq hne) x v
    · intro x v
      rw [(h2 p hp).2.get]
      exact (h2 q hq).2.keep _ (h.other _ iq _ ip hne.symm) x v
  · intro a h'
    obtain ⟨p, hp, rfl⟩ := ha a h'
    exact (h2 p hp).2.parsed
  · intro a h'
    obtain ⟨p, hp, rfl⟩ := ha a h'
    exact (h2 p hp).2.fresh _ (h.blank _ (hpm p hp).1)
  · intro a h' m v
    obtain ⟨p, hp, rfl⟩ := ha a h'
    rw [(h2 p hp).2.get]
    exact h.other _ inx _ (hpm p hp).1 (by rw [(hpm p hp).2]; simp only [hnx]; exact (hpx p hp).symm) m v
  · intro a h' m v
    obtain ⟨p, hp, rfl⟩ := ha a h'
    rw [(h2 p hp).2.get]
    exact h.other _ ini _ (hpm p hp).1 (by rw [(hpm p hp).2]; simp only [hni]; exact (hpi p hp).symm) m v
  · intro a h' y v
    obtain ⟨p, hp, rfl⟩ := ha a h'
    exact (h2 p hp).2.keep gx (h.other _ (hpm p hp).1 _ inx (by rw [(hpm p hp).2]; simp only [hnx]; exact hpx p hp)) y v
  · intro a h' y v
    obtain ⟨p, hp, rfl⟩ := ha a h'
    exact (h2 p hp).2.keep gi (h.other _ (hpm p hp).1 _ ini (by rw [(hpm p hp).2]; simp only [hni]; exact hpi p hp)) y v

end

end Ikal
