import Verif.Spec.Zones
import Verif.Lemmas.Recur

/-!
# Lemmas for C102

A component that is derived from two tables of fields that correspond to each other is read and written alike.
-/

namespace Ikal

open Nom

namespace Zones

/-! ## Reading -/

/-- Two fields of the same name that are read alike. -/
structure Hom (f g : Field) where
  map : f.T → g.T
  name : g.name = f.name
  parsed : g.parsed = f.parsed
  init : ∀ ls, g.initField ls = (f.initField ls).map map
  step : ∀ l v, g.stepField l (map v) = (f.stepField l v).map map

theorem res_map_id {α : Type} (r : Res α) : r.map (fun a => a) = r := by cases r <;> rfl
theorem res_map_map {α β γ : Type} (r : Res α) (f : α → β) (g : β → γ) : (r.map f).map g = r.map fun a => g (f a) := by cases r <;> rfl

@[reducible] def same {n : Str} {α : Type} {s t : Ser α} {p : ContentLine → Res α} : Hom (.req n α s p) (.req n α t p) where
  map v := v
  name := rfl
  parsed := rfl
  init _ := (res_map_id _).symm
  step _ _ := rfl

@[reducible] def sameOpt {n : Str} {α : Type} {s t : Ser α} {p : ContentLine → Res α} : Hom (.opt n α s p) (.opt n α t p) where
  map v := v
  name := rfl
  parsed := rfl
  init _ := rfl
  step _ _ := (res_map_id _).symm

@[reducible] def samePush {n : Str} {α : Type} {s t : Ser α} {p : ContentLine → Res α} : Hom (.push n α s p) (.push n α t p) where
  map v := v
  name := rfl
  parsed := rfl
  init _ := rfl
  step _ _ := (res_map_id _).symm

@[reducible] def sameAppend {n : Str} {α : Type} {s t : Ser α} {p : ContentLine → Res (List α)} : Hom (.append n α s p) (.append n α t p) where
  map v := v
  name := rfl
  parsed := rfl
  init _ := rfl
  step _ _ := (res_map_id _).symm

@[reducible] def sameNested {n : Str} {α : Type} {s t : Ser α} : Hom (.nested n α s) (.nested n α t) where
  map v := v
  name := rfl
  parsed := rfl
  init _ := rfl
  step _ _ := rfl

@[reducible] def mapOpt {n : Str} {α β : Type} {s : Ser α} {t : Ser β} {p : ContentLine → Res α} {q : ContentLine → Res β} (f : α → β)
    (h : ∀ l, q l = (p l).map f) : Hom (.opt n α s p) (.opt n β t q) where
  map v := Option.map f v
  name := rfl
  parsed := rfl
  init _ := rfl
  step l _ := by
    show (q l).map some = ((p l).map some).map _
    rw [h, res_map_map, res_map_map]
    rfl

@[reducible] def mapPush {n : Str} {α β : Type} {s : Ser α} {t : Ser β} {p : ContentLine → Res α} {q : ContentLine → Res β} (f : α → β)
    (h : ∀ l, q l = (p l).map f) : Hom (.push n α s p) (.push n β t q) where
  map v := List.map f v
  name := rfl
  parsed := rfl
  init _ := rfl
  step l v := by
    show (q l).map (fun a => List.map f v ++ [a]) = ((p l).map fun a => v ++ [a]).map _
    rw [h, res_map_map, res_map_map]
    congr 1
    funext a
    simp

@[reducible] def mapNested {n : Str} {α β : Type} {s : Ser α} {t : Ser β} (f : α → β) : Hom (.nested n α s) (.nested n β t) where
  map v := List.map f v
  name := rfl
  parsed := rfl
  init _ := rfl
  step _ _ := rfl

/-- Two tables of fields that are read alike. -/
inductive Homs : List Field → List Field → Type 1
  | nil : Homs [] []
  | cons {f g : Field} {fs gs : List Field} : Hom f g → Homs fs gs → Homs (f :: fs) (g :: gs)

@[reducible] def Homs.slots : {fs gs : List Field} → Homs fs gs → Slots fs → Slots gs
  | _, _, .nil, _ => ()
  | _, _, .cons h hs, v => (h.map v.1, hs.slots v.2)

@[reducible] def Homs.comp {fs gs : List Field} (hs : Homs fs gs) (c : Comp fs) : Comp gs := ⟨hs.slots c.slots, c.xProp, c.ianaProp⟩

theorem init_hom {fs gs : List Field} (hs : Homs fs gs) (ls : List ContentLine) : Slots.init gs ls = (Slots.init fs ls).map hs.slots := by
  induction hs with
  | nil => rfl
  | @cons f g fs gs h hs ih =>
    show (do let v ← g.initField ls; let vs ← Slots.init gs ls; pure (v, vs)) = (do let v ← f.initField ls; let vs ← Slots.init fs ls; pure (v, vs) : Res _).map _
    rw [h.init, ih]
    cases f.initField ls <;> cases Slots.init fs ls <;> rfl

theorem step_hom {fs gs : List Field} (hs : Homs fs gs) (l : ContentLine) (v : Slots fs) :
    Slots.step gs l (hs.slots v) = (Slots.step fs l v).map (Option.map hs.slots) := by
  induction hs with
  | nil => rfl
  | @cons f g fs gs h hs ih =>
    obtain ⟨v, vs⟩ := v
    show (if g.parsed ∧ l.key = g.name then (g.stepField l (h.map v)).map fun v => some (v, hs.slots vs)
      else (Slots.step gs l (hs.slots vs)).map fun o => o.map fun vs => (h.map v, vs)) =
      Res.map _ (if f.parsed ∧ l.key = f.name then (f.stepField l v).map fun v => some (v, vs)
      else (Slots.step fs l vs).map fun o => o.map fun vs => (v, vs))
    rw [h.parsed, h.name]
    split
    · rw [h.step, res_map_map, res_map_map]; rfl
    · rw [ih, res_map_map, res_map_map]
      congr 1
      funext o
      cases o <;> rfl

theorem round_hom {fs gs : List Field} (hs : Homs fs gs) (c : Comp fs) (l : ContentLine) : (hs.comp c).step l = (c.step l).map hs.comp := by
  have h := step_hom hs l c.slots
  show (Slots.step gs l (hs.slots c.slots)).bind _ = ((Slots.step fs l c.slots).bind _).map _
  rw [h]
  cases Slots.step fs l c.slots with
  | err e => rfl
  | panic => rfl
  | ok o =>
    cases o with
    | some s => rfl
    | none =>
      simp only [Res.map, Res.bind, Option.map_none]
      by_cases hx : (stripPrefix c!"X-" l.key).isSome = true
      · simp only [hx, if_true]; rfl
      · simp only [hx]; rfl

theorem loop_hom {fs gs : List Field} (hs : Homs fs gs) (ls : List ContentLine) (c : Comp fs) : (hs.comp c).loop ls = (c.loop ls).map hs.comp := by
  induction ls generalizing c with
  | nil => rfl
  | cons l ls ih =>
    show ((hs.comp c).step l).bind (fun c => c.loop ls) = ((c.step l).bind fun c => c.loop ls).map _
    rw [round_hom]
    cases c.step l with
    | ok d => exact ih d
    | err e => rfl
    | panic => rfl

theorem tryFrom_hom {fs gs : List Field} (hs : Homs fs gs) (ls : List ContentLine) : Comp.tryFrom gs ls = (Comp.tryFrom fs ls).map hs.comp := by
  show (Slots.init gs ls).bind (fun s => Comp.loop ⟨s, [], []⟩ ls) = ((Slots.init fs ls).bind fun s => Comp.loop ⟨s, [], []⟩ ls).map _
  rw [init_hom hs]
  cases Slots.init fs ls with
  | ok s => exact loop_hom hs ls ⟨s, [], []⟩
  | err e => rfl
  | panic => rfl

/-! ## Parsers -/

def nmap {α β : Type} (f : α → β) : NRes α → NRes β
  | .ok r a => .ok r (f a)
  | .err => .err
  | .panic => .panic

theorem map_hom {α β α' β' : Type} {p : P α} {q : P β} {f : α → β} {g : α → α'} {g' : β → β'} {f' : α' → β'} (h : ∀ i, q i = nmap f (p i))
    (hg : ∀ a, g' (f a) = f' (g a)) (i : Str) : map q g' i = nmap f' (map p g i) := by
  unfold map
  rw [h]
  cases p i <;> simp [nmap, hg]

theorem mapRes_hom {α β α' β' : Type} {p : P α} {q : P β} {f : α → β} {g : α → Res α'} {g' : β → Res β'} {f' : α' → β'} (h : ∀ i, q i = nmap f (p i))
    (hg : ∀ a, g' (f a) = (g a).map f') (i : Str) : mapRes q g' i = nmap f' (mapRes p g i) := by
  unfold mapRes
  rw [h]
  cases p i with
  | ok r a =>
    simp only [nmap, hg]
    cases g a <;> rfl
  | err => rfl
  | panic => rfl

theorem pair_hom {α β α' β' : Type} {p : P α} {q : P β} {f : α → β} {p' : P α'} {q' : P β'} {f' : α' → β'} (h : ∀ i, q i = nmap f (p i))
    (h' : ∀ i, q' i = nmap f' (p' i)) (i : Str) : pair q q' i = nmap (fun x => (f x.1, f' x.2)) (pair p p' i) := by
  unfold pair
  rw [h]
  cases p i with
  | ok r a =>
    simp only [nmap, h']
    cases p' r <;> rfl
  | err => rfl
  | panic => rfl

theorem delimited_hom {α β γ δ : Type} {a : P γ} {b : P δ} {p : P α} {q : P β} {f : α → β} (h : ∀ i, q i = nmap f (p i)) (i : Str) :
    delimited a q b i = nmap f (delimited a p b i) := by
  have id_hom : ∀ {γ : Type} (a : P γ) i, a i = nmap (fun x => x) (a i) := fun a i => by cases a i <;> rfl
  unfold delimited preceded terminated
  exact map_hom (f' := f) (pair_hom (id_hom a) (map_hom (f' := f) (pair_hom h (id_hom b)) fun _ => rfl)) (fun _ => rfl) i

theorem alt_hom {α β : Type} {p p' : P α} {q q' : P β} {f : α → β} (h : ∀ i, q i = nmap f (p i)) (h' : ∀ i, q' i = nmap f (p' i)) (i : Str) :
    alt q q' i = nmap f (alt p p' i) := by
  unfold alt
  rw [h]
  cases p i with
  | ok r a => rfl
  | err => exact h' i
  | panic => rfl

theorem many0_hom {α β : Type} {p : P α} {q : P β} {f : α → β} (h : ∀ i, q i = nmap f (p i)) (i : Str) : many0 q i = nmap (List.map f) (many0 p i) := by
  unfold many0
  generalize i.length + 1 = n
  induction n generalizing i with
  | zero => rfl
  | succ n ih =>
    unfold many0Go
    rw [h]
    cases p i with
    | ok r a =>
      simp only [nmap]
      split
      · rw [ih]
        cases many0Go p n r <;> rfl
      · rfl
    | err => rfl
    | panic => rfl

theorem nid {α : Type} (p : P α) (i : Str) : p i = nmap (fun x => x) (p i) := by cases p i <;> rfl

theorem componentP_hom {α β : Type} {name : Str} {c : List ContentLine → Res α} {c' : List ContentLine → Res β} {f : α → β}
    (h : ∀ ls, c' ls = (c ls).map f) (i : Str) : componentP name c' i = nmap f (componentP name c i) :=
  mapRes_hom (f := fun x => x) (nid _) h i

theorem ofStr_hom {α β : Type} {p : P α} {q : P β} {f : α → β} (h : ∀ i, q i = nmap f (p i)) (s : Str) :
    componentOfStr q s = (componentOfStr p s).map f := by
  unfold componentOfStr
  rw [h]
  cases p (unfold s) <;> rfl

/-! ## Writing -/

/-- Two values that are written alike. -/
def Alike {α β : Type} (s : Ser α) (t : Ser β) (a : α) (b : β) : Prop :=
  t.isComponent = s.isComponent ∧ t.attr b = s.attr a ∧ t.ical b = s.ical a

theorem alike_refl {α : Type} (s : Ser α) (a : α) : Alike s s a a := ⟨rfl, rfl, rfl⟩

theorem field_alike {α β : Type} {s : Ser α} {t : Ser β} {a : α} {b : β} (n : Str) (h : Alike s t a b) : @field _ t n b = @field _ s n a := by
  unfold field
  rw [h.1, h.2.1, h.2.2]

theorem opt_alike {α β : Type} {s : Ser α} {t : Ser β} {f : α → β} {a : Option α} (h : ∀ x, a = some x → Alike s t x (f x)) :
    Alike (@instSerOption _ s) (@instSerOption _ t) a (a.map f) := by
  cases a with
  | none => exact ⟨rfl, rfl, rfl⟩
  | some x => exact ⟨rfl, (h x rfl).2.1, (h x rfl).2.2⟩

theorem mapM_alike {α β γ : Type} {f : α → β} {p : α → Res γ} {q : β → Res γ} {l : List α} (h : ∀ x ∈ l, q (f x) = p x) :
    Res.mapM' q (l.map f) = Res.mapM' p l := by
  induction l with
  | nil => rfl
  | cons a l ih =>
    have h1 := h a (by simp)
    have h2 := ih fun x hx => h x (by simp [hx])
    simp only [List.map_cons, Res.mapM']
    rw [h1, h2]

theorem vec_alike {α β : Type} {s : Ser α} {t : Ser β} {f : α → β} (n : Str) {l : List α} (h : ∀ x ∈ l, Alike s t x (f x)) :
    @Field.serVec _ t n (l.map f) = @Field.serVec _ s n l := by
  have key : Alike (@instSerList _ s) (@instSerList _ t) l (l.map f) :=
    ⟨rfl, rfl, congrArg (fun r => Res.map (join [',']) r) (mapM_alike fun x hx => (h x hx).2.2)⟩
  match l, h, key with
  | [], _, key => exact field_alike n key
  | [a], h, _ => exact field_alike n (h a (by simp))
  | _ :: _ :: _, _, key => exact field_alike n key

theorem ser_cons {f g : Field} {fs gs : List Field} {v : f.T} {w : g.T} {vs : Slots fs} {ws : Slots gs} (h : g.serField w = f.serField v)
    (hs : Slots.ser gs ws = Slots.ser fs vs) : Slots.ser (g :: gs) (w, ws) = Slots.ser (f :: fs) (v, vs) := by
  show (g.serField w).bind (fun a => (Slots.ser gs ws).bind fun b => pure (a ++ b)) = (f.serField v).bind (fun a => (Slots.ser fs vs).bind fun b => pure (a ++ b))
  rw [h, hs]

theorem ical_alike {fs gs : List Field} {name : Str} {c : Comp fs} {d : Comp gs} (h : Slots.ser gs d.slots = Slots.ser fs c.slots)
    (hx : d.xProp = c.xProp) (hi : d.ianaProp = c.ianaProp) : d.ical name = c.ical name := by
  show (Slots.ser gs d.slots).bind _ = (Slots.ser fs c.slots).bind _
  rw [h, hx, hi]

end Zones

end Ikal
