import Verif.Lemmas.Struct

/-! # Whatever struct the component is derived for (C91) -/

namespace Ikal
open Spec

set_option linter.unusedSectionVars false

section
variable [Platform] {σ : Type} {ds : List FieldDecl} {ms : List (Member σ)} {default : σ} {P : Program σ}

theorem slots_holds {as : List (Lens σ)} {ls : List ContentLine} {v : σ} :
    Slots.Holds (as.map (·.f)) ls (Lens.slots as v) ↔ ∀ a ∈ as, a.f.Holds ls (a.get v) := by
  induction as with
  | nil => exact ⟨fun _ _ h => (by cases h), fun _ => trivial⟩
  | cons a as ih =>
    simp only [List.mem_cons, forall_eq_or_imp, ← ih]
    rfl

theorem known_of {ps : List (Part σ)} (h : ∀ p ∈ ps, p.a.Of p.d p.m) : knownNames ((ps.map (·.a)).map (·.f)) = (ps.map (·.d)).map fun d => kebab d.ident := by
  induction ps with
  | nil => rfl
  | cons p ps ih =>
    have hp := h p (List.mem_cons_self ..)
    have := ih fun q hq => h q (List.mem_cons_of_mem _ hq)
    simp only [knownNames, List.map_cons, List.filter_cons, hp.parsed, if_true, hp.name, List.cons.injEq, true_and] at this ⊢
    exact this

/-- **C91**: whatever struct the component is derived for, the lines are read as its declaration says: the value is the one that has in each field what the kind of the field, by how its
type is written, says; in the two maps the lines that have no field; and in the ignored fields what the default value has; and if there is no such value, there is none. -/
theorem C91_reads (hd : Declared ds) (h : StructOf ds ms default) (hc : (generate ds).compile ms default = some P) (ls : List ContentLine) (v : σ) :
    P.tryFrom ls = .ok v ↔ StructFrom ds ms default ls v := by
  obtain ⟨ps, nx, ni, gx, gi, sx, si, hmx, hmi, hps, hof, hfit, hdef⟩ := fits hd h hc
  have hkn : knownNames ((ps.map (·.a)).map (·.f)) = properties ds := by rw [known_of fun p hp => (hof p hp).2, hps]; rfl
  have hnd : (knownNames ((ps.map (·.a)).map (·.f))).Nodup := by
    have := C85_arms_differ hd
    rw [(C85_code hd).1, List.map_map] at this
    rw [hkn]
    exact this
  obtain ⟨inx, hnx⟩ := memberOf_some hmx
  obtain ⟨ini, hni⟩ := memberOf_some hmi
  have hpm : ∀ p ∈ ps, p.m ∈ ms ∧ p.m.name = p.d.ident := fun p hp => memberOf_some (hof p hp).1
  have hpart : ∀ d ∈ ds, d.ignore = false → ∃ p ∈ ps, p.d = d := by
    intro d hdm hi
    have : d ∈ ps.map (·.d) := by rw [hps]; exact List.mem_filter.2 ⟨hdm, by simp [hi]⟩
    exact List.mem_map.1 this
  have hback : ∀ p ∈ ps, p.d ∈ ds ∧ p.d.ignore = false := by
    intro p hp
    have : p.d ∈ ps.map (·.d) := List.mem_map_of_mem hp
    rw [hps, List.mem_filter] at this
    exact ⟨this.1, by simpa using this.2⟩
  have hnox : ∀ p ∈ ps, p.d.ident ≠ c!"x_prop" := fun p hp e => (hof p hp).2.parser (by rw [e]; exact parserOf_x)
  have hnoi : ∀ p ∈ ps, p.d.ident ≠ c!"iana_prop" := fun p hp e => (hof p hp).2.parser (by rw [e]; exact parserOf_iana)
  -- The fields that have a lens, and the two maps.
  have key : ∀ w, Comp.Holds ls (hfit.proj w) ↔ (∀ p ∈ ps, FieldHolds p.d ls w p.m) ∧ IsExt (properties ds) IsX ls (gx w) ∧
      IsExt (properties ds) (fun k => ¬ IsX k) ls (gi w) := by
    intro w
    have h1 : Slots.Holds ((ps.map (·.a)).map (·.f)) ls (Lens.slots (ps.map (·.a)) w) ↔ ∀ p ∈ ps, FieldHolds p.d ls w p.m := by
      rw [slots_holds]
      constructor
      · intro h p hp
        exact ((hof p hp).2.holds ls w).1 (h p.a (List.mem_map_of_mem hp))
      · intro h a ha
        obtain ⟨p, hp, rfl⟩ := List.mem_map.1 ha
        exact ((hof p hp).2.holds ls w).2 (h p hp)
    unfold Comp.Holds
    rw [hkn]
    exact and_congr h1 Iff.rfl
  -- The rest.
  have hrest : ∀ w, P.tryFrom ls = .ok w → ∀ d ∈ ds, d.ignore = true → d.ident ≠ c!"x_prop" → d.ident ≠ c!"iana_prop" →
      ∀ m ∈ ms, m.name = d.ident → m.get w = m.get default := by
    intro w hw d hdm hi hx' hi' m hm e
    rw [← hdef]
    refine hfit.keeps ?_ ?_ ?_ hw
    · intro a ha x v
      obtain ⟨p, hp, rfl⟩ := List.mem_map.1 ha
      refine (hof p hp).2.keep _ (h.other _ (hpm p hp).1 _ hm ?_) x v
      rw [(hpm p hp).2, e]
      intro e'
      have := nodup_map_inj hd.nodup (hback p hp).1 hdm e'
      have h2 := (hback p hp).2
      rw [this, hi] at h2
      cases h2
    · exact h.other _ inx _ hm (by rw [e, hnx]; exact hx'.symm)
    · exact h.other _ ini _ hm (by rw [e, hni]; exact hi'.symm)
  have hok : ∀ w, P.tryFrom ls = .ok w → Comp.Holds ls (hfit.proj w) := by
    intro w hw
    rw [← Comp.tryFrom_ok hnd, ← hfit.tryFrom, hw]
    rfl
  have hfields : ∀ w, (∀ p ∈ ps, FieldHolds p.d ls w p.m) ↔ ∀ d ∈ ds, d.ignore = false → ∀ m ∈ ms, m.name = d.ident → FieldHolds d ls w m := by
    intro w
    constructor
    · intro h1 d hdm hi m hm e
      obtain ⟨p, hp, rfl⟩ := hpart d hdm hi
      have : m = p.m := h.inj hd hm (hpm p hp).1 (by rw [e, (hpm p hp).2])
      subst this
      exact h1 p hp
    · intro h1 p hp
      exact h1 p.d (hback p hp).1 (hback p hp).2 p.m (hpm p hp).1 (hpm p hp).2
  constructor
  · intro hv
    obtain ⟨k1, k2, k3⟩ := (key v).1 (hok v hv)
    refine ⟨(hfields v).1 k1, ?_, ?_, hrest v hv⟩
    · intro m hm e
      have : m = ⟨nx, .lines, gx, sx⟩ := h.inj hd hm inx (by rw [e, hnx])
      subst this
      exact k2
    · intro m hm e
      have : m = ⟨ni, .lines, gi, si⟩ := h.inj hd hm ini (by rw [e, hni])
      subst this
      exact k3
  · rintro ⟨k1, k2, k3, k4⟩
    have hH : Comp.Holds ls (hfit.proj v) := (key v).2 ⟨(hfields v).2 k1, k2 _ inx hnx, k3 _ ini hni⟩
    rw [← Comp.tryFrom_ok hnd, ← hfit.tryFrom] at hH
    cases hw : P.tryFrom ls with
    | err => rw [hw] at hH; cases hH
    | panic => rw [hw] at hH; cases hH
    | ok w =>
      rw [hw] at hH
      simp only [Res.map, Res.ok.injEq] at hH
      have e1 : Lens.slots (ps.map (·.a)) w = Lens.slots (ps.map (·.a)) v := congrArg Comp.slots hH
      have e2 : gx w = gx v := congrArg Comp.xProp hH
      have e3 : gi w = gi v := congrArg Comp.ianaProp hH
      refine congrArg Res.ok (h.ext _ _ fun m hm => ?_)
      have hmn : m.name ∈ ds.map (·.ident) := by rw [← h.names]; exact List.mem_map_of_mem hm
      obtain ⟨d, hdm, hdn⟩ := List.mem_map.1 hmn
      by_cases hx' : m.name = c!"x_prop"
      · have : m = ⟨nx, .lines, gx, sx⟩ := h.inj hd hm inx (by rw [hx', hnx])
        subst this
        exact e2
      by_cases hi' : m.name = c!"iana_prop"
      · have : m = ⟨ni, .lines, gi, si⟩ := h.inj hd hm ini (by rw [hi', hni])
        subst this
        exact e3
      cases hi : d.ignore with
      | true =>
        rw [hrest w hw d hdm hi (by rw [hdn]; exact hx') (by rw [hdn]; exact hi') m hm hdn.symm,
          k4 d hdm hi (by rw [hdn]; exact hx') (by rw [hdn]; exact hi') m hm hdn.symm]
      | false =>
        obtain ⟨p, hp, rfl⟩ := hpart d hdm hi
        have : m = p.m := h.inj hd hm (hpm p hp).1 (by rw [← hdn, (hpm p hp).2])
        subst this
        exact ((hof p hp).2.get w v).1 (Lens.slots_inj e1 p.a (List.mem_map_of_mem hp))

theorem mapM'_eq {α : Type} {f : α → Res Str} {xs : List α} {ts : List Str} : Res.mapM' f xs = .ok ts ↔ xs.map f = ts.map .ok := by
  induction xs generalizing ts with
  | nil => cases ts <;> simp [Res.mapM']
  | cons x xs ih =>
    cases hx : f x with
    | ok t =>
      cases ts with
      | nil =>
        simp only [Res.mapM', hx]
        cases Res.mapM' f xs <;> simp
      | cons t' ts =>
        simp only [Res.mapM', hx, List.map_cons, List.cons.injEq, Res.ok.injEq, ← ih]
        cases Res.mapM' f xs <;> simp
    | err => cases ts <;> simp [Res.mapM', hx]
    | panic => cases ts <;> simp [Res.mapM', hx]

/-- **C91**: how a list is written. -/
theorem C91_vec {α : Type} (s : Ser α) (n : Str) (xs : List α) (t : Str) : @Field.serVec _ s n xs = .ok t ↔ VecWritten s n xs t := by
  unfold Field.serVec VecWritten
  split
  · next x => simp
  · next hx =>
    have hlen : xs.length ≠ 1 := by
      intro e
      match xs, e with
      | [x], _ => exact hx x rfl
    have h1 : ¬ ∃ x, xs = [x] ∧ @field _ s n x = .ok t := by rintro ⟨x, rfl, _⟩; exact hlen rfl
    split
    · next ha =>
      have ha : @Ser.attr _ (@instSerList _ s) xs = none := by simpa using ha
      simp [h1, hlen, ha]
    · next ha =>
      have ha : @Ser.attr _ (@instSerList _ s) xs ≠ none := by simpa using ha
      simp only [h1, hlen, ha, false_or, ne_eq, not_false_eq_true, true_and, false_and, ← mapM'_eq]
      cases Res.mapM' (@field _ s n) xs <;> simp [Res.map, eq_comm]

theorem serItem_written {d : FieldDecl} {m : Member σ} (hm : memberOf ms d.ident = some m) {f : σ → Res Str}
    (hf : serItem ms (d.ident, kebab d.ident, decide (kind d = .repeated ∨ kind d = .flattened)) = some f) (v : σ) (t : Str) :
    f v = .ok t ↔ FieldWritten d v t m := by
  simp only [serItem, hm, Option.bind_eq_bind, Option.bind_some] at hf
  obtain ⟨nm, ty, get, set⟩ := m
  have hplain : ∀ {f : σ → Res Str}, ((serOf ty).map fun s v => @field _ s (kebab d.ident) (get v)) = some f →
      (f v = .ok t ↔ ∃ s, serOf ty = some s ∧ @field _ s (kebab d.ident) (get v) = .ok t) := by
    intro f hf
    obtain ⟨s, hs, rfl⟩ := Option.map_eq_some_iff.1 hf
    simp [hs]
  have hvec : ∀ {e : RTy} {get : σ → List e.den} {f : σ → Res Str}, ((serOf e).map fun s v => @Field.serVec _ s (kebab d.ident) (get v)) = some f →
      (f v = .ok t ↔ ∃ s, serOf e = some s ∧ VecWritten s (kebab d.ident) (get v) t) := by
    intro e get f hf
    obtain ⟨s, hs, rfl⟩ := Option.map_eq_some_iff.1 hf
    simp [hs, C91_vec]
  cases hk : kind d <;> simp only [hk, reduceCtorEq, or_self, or_true, true_or, decide_true, decide_false, FieldWritten] at hf ⊢
  · exact hplain hf
  · exact hplain hf
  · cases ty <;> first | (cases hf; done) | exact hvec hf
  · cases ty <;> first | (cases hf; done) | exact hvec hf

theorem body_written (l : List FieldDecl) {fs : List (σ → Res Str)}
    (hf : (l.map fun d => (d.ident, kebab d.ident, decide (kind d = .repeated ∨ kind d = .flattened))).mapM (serItem ms) = some fs) (v : σ) (b : Str) :
    Program.body fs v = .ok b ↔ ∃ parts : List (FieldDecl × Str), parts.map (·.1) = l ∧
      (∀ p ∈ parts, ∃ m, memberOf ms p.1.ident = some m ∧ FieldWritten p.1 v p.2 m) ∧ b = (parts.map (·.2)).flatten := by
  induction l generalizing fs b with
  | nil =>
    simp only [List.map_nil, List.mapM_nil, Option.pure_def, Option.some.injEq] at hf
    subst hf
    constructor
    · intro h
      simp only [Program.body, Res.ok.injEq] at h
      exact ⟨[], rfl, by simp, by simp [← h]⟩
    · rintro ⟨parts, p1, _, rfl⟩
      rw [List.map_eq_nil_iff.1 p1]
      rfl
  | cons d l ih =>
    obtain ⟨f, fs', h1, h2, rfl⟩ := mapM_some_cons hf
    have hmem : ∃ m, memberOf ms d.ident = some m := by
      simp only [serItem, Option.bind_eq_bind, Option.bind_eq_some_iff] at h1
      obtain ⟨m, hm, _⟩ := h1
      exact ⟨m, hm⟩
    obtain ⟨m, hm⟩ := hmem
    have hw := serItem_written hm h1 v
    constructor
    · intro hb
      obtain ⟨x, hx, hb⟩ := Res.bind_eq_ok.1 hb
      obtain ⟨y, hy, hb⟩ := Res.bind_eq_ok.1 hb
      obtain ⟨parts, p1, p2, p3⟩ := (ih h2 y).1 hy
      refine ⟨(d, x) :: parts, by simp [p1], ?_, ?_⟩
      · intro p hp
        rcases List.mem_cons.1 hp with rfl | hp
        · exact ⟨m, hm, (hw x).1 hx⟩
        · exact p2 p hp
      · simp only [pure, Res.ok.injEq] at hb
        simp [← hb, p3]
    · rintro ⟨parts, p1, p2, p3⟩
      cases parts with
      | nil => cases p1
      | cons p parts =>
        obtain ⟨d', x⟩ := p
        simp only [List.map_cons, List.cons.injEq] at p1
        obtain ⟨rfl, p1⟩ := p1
        obtain ⟨m', hm', hx⟩ := p2 _ (List.mem_cons_self ..)
        rw [hm] at hm'
        cases hm'
        have hy := (ih h2 _).2 ⟨parts, p1, fun p hp => p2 p (List.mem_cons_of_mem _ hp), rfl⟩
        refine Res.bind_eq_ok.2 ⟨x, (hw x).2 hx, Res.bind_eq_ok.2 ⟨_, hy, ?_⟩⟩
        simp [pure, p3]

/-- **C91**: whatever struct the component is derived for, its text has all its fields, ignored or not, in the order of the declaration, each under the name of its property and as its
kind says, between the lines that open and close the component. -/
theorem C91_writes (hd : Declared ds) (h : StructOf ds ms default) (hc : (generate ds).compile ms default = some P) (name : Str) (v : σ) (t : Str) :
    P.ical name v = .ok t ↔ ∃ parts : List (FieldDecl × Str), parts.map (·.1) = ds ∧
      (∀ p ∈ parts, ∀ m ∈ ms, m.name = p.1.ident → FieldWritten p.1 v p.2 m) ∧
      t = c!"BEGIN:" ++ name ++ c!"\r\n" ++ (parts.map (·.2)).flatten ++ c!"END:" ++ name ++ c!"\r\n" := by
  simp only [Code.compile, (C85_code hd).2.2, Option.bind_eq_bind, Option.bind_eq_some_iff, Option.some.injEq] at hc
  obtain ⟨new, hnew, arms, harms, fx, _, fi, _, sers, hsers, rfl⟩ := hc
  have hbody := body_written ds hsers v
  have hmem : ∀ d ∈ ds, ∃ m, memberOf ms d.ident = some m := by
    intro d hdm
    have : d.ident ∈ ms.map (·.name) := by rw [h.names]; exact List.mem_map_of_mem hdm
    obtain ⟨m, hm, e⟩ := List.mem_map.1 this
    cases hf : memberOf ms d.ident with
    | some m => exact ⟨m, rfl⟩
    | none =>
      have := List.find?_eq_none.1 hf m hm
      simp [e] at this
  have hiff : ∀ parts : List (FieldDecl × Str), parts.map (·.1) = ds →
      ((∀ p ∈ parts, ∃ m, memberOf ms p.1.ident = some m ∧ FieldWritten p.1 v p.2 m) ↔
        ∀ p ∈ parts, ∀ m ∈ ms, m.name = p.1.ident → FieldWritten p.1 v p.2 m) := by
    intro parts hp
    constructor
    · intro h1 p hpm m hm e
      obtain ⟨m', hm', h2⟩ := h1 p hpm
      obtain ⟨i', n'⟩ := memberOf_some hm'
      have : m = m' := h.inj hd hm i' (by rw [e, n'])
      rw [this]
      exact h2
    · intro h1 p hpm
      obtain ⟨m, hm⟩ := hmem p.1 (by rw [← hp]; exact List.mem_map_of_mem hpm)
      exact ⟨m, hm, h1 p hpm m (memberOf_some hm).1 (memberOf_some hm).2⟩
  simp only [Program.ical]
  constructor
  · intro ht
    obtain ⟨b, hb, ht⟩ := Res.bind_eq_ok.1 ht
    obtain ⟨parts, p1, p2, p3⟩ := (hbody b).1 hb
    simp only [pure, Res.ok.injEq] at ht
    exact ⟨parts, p1, (hiff parts p1).1 p2, by rw [← ht, p3]⟩
  · rintro ⟨parts, p1, p2, rfl⟩
    exact Res.bind_eq_ok.2 ⟨_, (hbody _).2 ⟨parts, p1, (hiff parts p1).2 p2, rfl⟩, rfl⟩

end

/-! ## The structs of the crate -/

section
variable [Platform]

theorem Audio.structOf : StructOf Audio.declaration Audio.members Audio.default := by
  refine ⟨rfl, ?_, ?_, ?_, ?_⟩
  · simp only [Audio.members, List.mem_cons, List.not_mem_nil, or_false, forall_eq_or_imp, forall_eq, implies_true, and_self]
  · simp only [Audio.members, List.mem_cons, List.not_mem_nil, or_false, forall_eq_or_imp, forall_eq, implies_true, and_self, ne_eq, not_true_eq_false, false_implies]
  · intro v w h
    simp only [Audio.members, List.mem_cons, List.not_mem_nil, or_false, forall_eq_or_imp, forall_eq] at h
    cases v; cases w
    simp only at h
    obtain ⟨rfl, rfl, rfl, rfl, rfl, rfl, rfl⟩ := h
    rfl
  · simp only [Audio.members, List.mem_cons, List.not_mem_nil, or_false, forall_eq_or_imp, forall_eq, Blank]
    repeat' constructor

/-- **C91** for `Audio`. -/
theorem C91_Audio (ls : List ContentLine) (v : Audio) : Audio.tryFrom ls = .ok v ↔ StructFrom Audio.declaration Audio.members Audio.default ls v := by
  obtain ⟨P, hc, h1, _⟩ := C85_Audio
  rw [← h1]
  exact C91_reads Audio.declared Audio.structOf hc ls v

/-- **C91** for the text of `Audio`. -/
theorem C91_Audio_text (v : Audio) (t : Str) : Ser.ical v = .ok t ↔ ∃ parts : List (FieldDecl × Str), parts.map (·.1) = Audio.declaration ∧
    (∀ p ∈ parts, ∀ m ∈ Audio.members, m.name = p.1.ident → FieldWritten p.1 v p.2 m) ∧
    t = c!"BEGIN:" ++ c!"AUDIO" ++ c!"\r\n" ++ (parts.map (·.2)).flatten ++ c!"END:" ++ c!"AUDIO" ++ c!"\r\n" := by
  obtain ⟨P, hc, _, h2⟩ := C85_Audio
  rw [← h2]
  exact C91_writes Audio.declared Audio.structOf hc c!"AUDIO" v t

theorem Display.structOf : StructOf Display.declaration Display.members Display.default := by
  refine ⟨rfl, ?_, ?_, ?_, ?_⟩
  · simp only [Display.members, List.mem_cons, List.not_mem_nil, or_false, forall_eq_or_imp, forall_eq, implies_true, and_self]
  · simp only [Display.members, List.mem_cons, List.not_mem_nil, or_false, forall_eq_or_imp, forall_eq, implies_true, and_self, ne_eq, not_true_eq_false, false_implies]
  · intro v w h
    simp only [Display.members, List.mem_cons, List.not_mem_nil, or_false, forall_eq_or_imp, forall_eq] at h
    cases v; cases w
    simp only at h
    obtain ⟨rfl, rfl, rfl, rfl, rfl, rfl, rfl⟩ := h
    rfl
  · simp only [Display.members, List.mem_cons, List.not_mem_nil, or_false, forall_eq_or_imp, forall_eq, Blank]
    repeat' constructor

/-- **C91** for `Display`. -/
theorem C91_Display (ls : List ContentLine) (v : Display) : Display.tryFrom ls = .ok v ↔ StructFrom Display.declaration Display.members Display.default ls v := by
  obtain ⟨P, hc, h1, _⟩ := C85_Display
  rw [← h1]
  exact C91_reads Display.declared Display.structOf hc ls v

/-- **C91** for the text of `Display`. -/
theorem C91_Display_text (v : Display) (t : Str) : Ser.ical v = .ok t ↔ ∃ parts : List (FieldDecl × Str), parts.map (·.1) = Display.declaration ∧
    (∀ p ∈ parts, ∀ m ∈ Display.members, m.name = p.1.ident → FieldWritten p.1 v p.2 m) ∧
    t = c!"BEGIN:" ++ c!"DISPLAY" ++ c!"\r\n" ++ (parts.map (·.2)).flatten ++ c!"END:" ++ c!"DISPLAY" ++ c!"\r\n" := by
  obtain ⟨P, hc, _, h2⟩ := C85_Display
  rw [← h2]
  exact C91_writes Display.declared Display.structOf hc c!"DISPLAY" v t

theorem Email.structOf : StructOf Email.declaration Email.members Email.default := by
  refine ⟨rfl, ?_, ?_, ?_, ?_⟩
  · simp only [Email.members, List.mem_cons, List.not_mem_nil, or_false, forall_eq_or_imp, forall_eq, implies_true, and_self]
  · simp only [Email.members, List.mem_cons, List.not_mem_nil, or_false, forall_eq_or_imp, forall_eq, implies_true, and_self, ne_eq, not_true_eq_false, false_implies]
  · intro v w h
    simp only [Email.members, List.mem_cons, List.not_mem_nil, or_false, forall_eq_or_imp, forall_eq] at h
    cases v; cases w
    simp only at h
    obtain ⟨rfl, rfl, rfl, rfl, rfl, rfl, rfl, rfl, rfl, rfl⟩ := h
    rfl
  · simp only [Email.members, List.mem_cons, List.not_mem_nil, or_false, forall_eq_or_imp, forall_eq, Blank]
    repeat' constructor

/-- **C91** for `Email`. -/
theorem C91_Email (ls : List ContentLine) (v : Email) : Email.tryFrom ls = .ok v ↔ StructFrom Email.declaration Email.members Email.default ls v := by
  obtain ⟨P, hc, h1, _⟩ := C85_Email
  rw [← h1]
  exact C91_reads Email.declared Email.structOf hc ls v

/-- **C91** for the text of `Email`. -/
theorem C91_Email_text (v : Email) (t : Str) : Ser.ical v = .ok t ↔ ∃ parts : List (FieldDecl × Str), parts.map (·.1) = Email.declaration ∧
    (∀ p ∈ parts, ∀ m ∈ Email.members, m.name = p.1.ident → FieldWritten p.1 v p.2 m) ∧
    t = c!"BEGIN:" ++ c!"EMAIL" ++ c!"\r\n" ++ (parts.map (·.2)).flatten ++ c!"END:" ++ c!"EMAIL" ++ c!"\r\n" := by
  obtain ⟨P, hc, _, h2⟩ := C85_Email
  rw [← h2]
  exact C91_writes Email.declared Email.structOf hc c!"EMAIL" v t

theorem VEvent.structOf : StructOf VEvent.declaration VEvent.members VEvent.default := by
  refine ⟨rfl, ?_, ?_, ?_, ?_⟩
  · simp only [VEvent.members, List.mem_cons, List.not_mem_nil, or_false, forall_eq_or_imp, forall_eq, implies_true, and_self]
  · simp only [VEvent.members, List.mem_cons, List.not_mem_nil, or_false, forall_eq_or_imp, forall_eq, implies_true, and_self, ne_eq, not_true_eq_false, false_implies]
  · intro v w h
    simp only [VEvent.members, List.mem_cons, List.not_mem_nil, or_false, forall_eq_or_imp, forall_eq] at h
    cases v; cases w
    simp only at h
    obtain ⟨rfl, rfl, rfl, rfl, rfl, rfl, rfl, rfl, rfl, rfl, rfl, rfl, rfl, rfl, rfl, rfl, rfl, rfl, rfl, rfl, rfl, rfl, rfl, rfl, rfl, rfl, rfl, rfl, rfl, rfl, rfl, rfl, rfl⟩ := h
    rfl
  · simp only [VEvent.members, List.mem_cons, List.not_mem_nil, or_false, forall_eq_or_imp, forall_eq, Blank]
    repeat' constructor

/-- **C91** for `VEvent`. -/
theorem C91_VEvent (ls : List ContentLine) (v : VEvent) : VEvent.tryFrom ls = .ok v ↔ StructFrom VEvent.declaration VEvent.members VEvent.default ls v := by
  obtain ⟨P, hc, h1, _⟩ := C85_VEvent
  rw [← h1]
  exact C91_reads VEvent.declared VEvent.structOf hc ls v

/-- **C91** for the text of `VEvent`. -/
theorem C91_VEvent_text (v : VEvent) (t : Str) : Ser.ical v = .ok t ↔ ∃ parts : List (FieldDecl × Str), parts.map (·.1) = VEvent.declaration ∧
    (∀ p ∈ parts, ∀ m ∈ VEvent.members, m.name = p.1.ident → FieldWritten p.1 v p.2 m) ∧
    t = c!"BEGIN:" ++ c!"VEVENT" ++ c!"\r\n" ++ (parts.map (·.2)).flatten ++ c!"END:" ++ c!"VEVENT" ++ c!"\r\n" := by
  obtain ⟨P, hc, _, h2⟩ := C85_VEvent
  rw [← h2]
  exact C91_writes VEvent.declared VEvent.structOf hc c!"VEVENT" v t

theorem VFreebusy.structOf : StructOf VFreebusy.declaration VFreebusy.members VFreebusy.default := by
  refine ⟨rfl, ?_, ?_, ?_, ?_⟩
  · simp only [VFreebusy.members, List.mem_cons, List.not_mem_nil, or_false, forall_eq_or_imp, forall_eq, implies_true, and_self]
  · simp only [VFreebusy.members, List.mem_cons, List.not_mem_nil, or_false, forall_eq_or_imp, forall_eq, implies_true, and_self, ne_eq, not_true_eq_false, false_implies]
  · intro v w h
    simp only [VFreebusy.members, List.mem_cons, List.not_mem_nil, or_false, forall_eq_or_imp, forall_eq] at h
    cases v; cases w
    simp only at h
    obtain ⟨rfl, rfl, rfl, rfl, rfl, rfl, rfl, rfl, rfl, rfl, rfl, rfl, rfl⟩ := h
    rfl
  · simp only [VFreebusy.members, List.mem_cons, List.not_mem_nil, or_false, forall_eq_or_imp, forall_eq, Blank]
    repeat' constructor

/-- **C91** for `VFreebusy`. -/
theorem C91_VFreebusy (ls : List ContentLine) (v : VFreebusy) : VFreebusy.tryFrom ls = .ok v ↔ StructFrom VFreebusy.declaration VFreebusy.members VFreebusy.default ls v := by
  obtain ⟨P, hc, h1, _⟩ := C85_VFreebusy
  rw [← h1]
  exact C91_reads VFreebusy.declared VFreebusy.structOf hc ls v

/-- **C91** for the text of `VFreebusy`. -/
theorem C91_VFreebusy_text (v : VFreebusy) (t : Str) : Ser.ical v = .ok t ↔ ∃ parts : List (FieldDecl × Str), parts.map (·.1) = VFreebusy.declaration ∧
    (∀ p ∈ parts, ∀ m ∈ VFreebusy.members, m.name = p.1.ident → FieldWritten p.1 v p.2 m) ∧
    t = c!"BEGIN:" ++ c!"VFREEBUSY" ++ c!"\r\n" ++ (parts.map (·.2)).flatten ++ c!"END:" ++ c!"VFREEBUSY" ++ c!"\r\n" := by
  obtain ⟨P, hc, _, h2⟩ := C85_VFreebusy
  rw [← h2]
  exact C91_writes VFreebusy.declared VFreebusy.structOf hc c!"VFREEBUSY" v t

theorem VJournal.structOf : StructOf VJournal.declaration VJournal.members VJournal.default := by
  refine ⟨rfl, ?_, ?_, ?_, ?_⟩
  · simp only [VJournal.members, List.mem_cons, List.not_mem_nil, or_false, forall_eq_or_imp, forall_eq, implies_true, and_self]
  · simp only [VJournal.members, List.mem_cons, List.not_mem_nil, or_false, forall_eq_or_imp, forall_eq, implies_true, and_self, ne_eq, not_true_eq_false, false_implies]
  · intro v w h
    simp only [VJournal.members, List.mem_cons, List.not_mem_nil, or_false, forall_eq_or_imp, forall_eq] at h
    cases v; cases w
    simp only at h
    obtain ⟨rfl, rfl, rfl, rfl, rfl, rfl, rfl, rfl, rfl, rfl, rfl, rfl, rfl, rfl, rfl, rfl, rfl, rfl, rfl, rfl, rfl, rfl, rfl, rfl, rfl⟩ := h
    rfl
  · simp only [VJournal.members, List.mem_cons, List.not_mem_nil, or_false, forall_eq_or_imp, forall_eq, Blank]
    repeat' constructor

/-- **C91** for `VJournal`. -/
theorem C91_VJournal (ls : List ContentLine) (v : VJournal) : VJournal.tryFrom ls = .ok v ↔ StructFrom VJournal.declaration VJournal.members VJournal.default ls v := by
  obtain ⟨P, hc, h1, _⟩ := C85_VJournal
  rw [← h1]
  exact C91_reads VJournal.declared VJournal.structOf hc ls v

/-- **C91** for the text of `VJournal`. -/
theorem C91_VJournal_text (v : VJournal) (t : Str) : Ser.ical v = .ok t ↔ ∃ parts : List (FieldDecl × Str), parts.map (·.1) = VJournal.declaration ∧
    (∀ p ∈ parts, ∀ m ∈ VJournal.members, m.name = p.1.ident → FieldWritten p.1 v p.2 m) ∧
    t = c!"BEGIN:" ++ c!"VJOURNAL" ++ c!"\r\n" ++ (parts.map (·.2)).flatten ++ c!"END:" ++ c!"VJOURNAL" ++ c!"\r\n" := by
  obtain ⟨P, hc, _, h2⟩ := C85_VJournal
  rw [← h2]
  exact C91_writes VJournal.declared VJournal.structOf hc c!"VJOURNAL" v t

theorem Standard.structOf : StructOf Standard.declaration Standard.members Standard.default := by
  refine ⟨rfl, ?_, ?_, ?_, ?_⟩
  · simp only [Standard.members, List.mem_cons, List.not_mem_nil, or_false, forall_eq_or_imp, forall_eq, implies_true, and_self]
  · simp only [Standard.members, List.mem_cons, List.not_mem_nil, or_false, forall_eq_or_imp, forall_eq, implies_true, and_self, ne_eq, not_true_eq_false, false_implies]
  · intro v w h
    simp only [Standard.members, List.mem_cons, List.not_mem_nil, or_false, forall_eq_or_imp, forall_eq] at h
    cases v; cases w
    simp only at h
    obtain ⟨rfl, rfl, rfl, rfl, rfl, rfl, rfl, rfl, rfl⟩ := h
    rfl
  · simp only [Standard.members, List.mem_cons, List.not_mem_nil, or_false, forall_eq_or_imp, forall_eq, Blank]
    repeat' constructor

/-- **C91** for `Standard`. -/
theorem C91_Standard (ls : List ContentLine) (v : Standard) : Standard.tryFrom ls = .ok v ↔ StructFrom Standard.declaration Standard.members Standard.default ls v := by
  obtain ⟨P, hc, h1, _⟩ := C85_Standard
  rw [← h1]
  exact C91_reads Standard.declared Standard.structOf hc ls v

/-- **C91** for the text of `Standard`. -/
theorem C91_Standard_text (v : Standard) (t : Str) : Ser.ical v = .ok t ↔ ∃ parts : List (FieldDecl × Str), parts.map (·.1) = Standard.declaration ∧
    (∀ p ∈ parts, ∀ m ∈ Standard.members, m.name = p.1.ident → FieldWritten p.1 v p.2 m) ∧
    t = c!"BEGIN:" ++ c!"STANDARD" ++ c!"\r\n" ++ (parts.map (·.2)).flatten ++ c!"END:" ++ c!"STANDARD" ++ c!"\r\n" := by
  obtain ⟨P, hc, _, h2⟩ := C85_Standard
  rw [← h2]
  exact C91_writes Standard.declared Standard.structOf hc c!"STANDARD" v t

theorem Daylight.structOf : StructOf Daylight.declaration Daylight.members Daylight.default := by
  refine ⟨rfl, ?_, ?_, ?_, ?_⟩
  · simp only [Daylight.members, List.mem_cons, List.not_mem_nil, or_false, forall_eq_or_imp, forall_eq, implies_true, and_self]
  · simp only [Daylight.members, List.mem_cons, List.not_mem_nil, or_false, forall_eq_or_imp, forall_eq, implies_true, and_self, ne_eq, not_true_eq_false, false_implies]
  · intro v w h
    simp only [Daylight.members, List.mem_cons, List.not_mem_nil, or_false, forall_eq_or_imp, forall_eq] at h
    cases v; cases w
    simp only at h
    obtain ⟨rfl, rfl, rfl, rfl, rfl, rfl, rfl, rfl, rfl⟩ := h
    rfl
  · simp only [Daylight.members, List.mem_cons, List.not_mem_nil, or_false, forall_eq_or_imp, forall_eq, Blank]
    repeat' constructor

/-- **C91** for `Daylight`. -/
theorem C91_Daylight (ls : List ContentLine) (v : Daylight) : Daylight.tryFrom ls = .ok v ↔ StructFrom Daylight.declaration Daylight.members Daylight.default ls v := by
  obtain ⟨P, hc, h1, _⟩ := C85_Daylight
  rw [← h1]
  exact C91_reads Daylight.declared Daylight.structOf hc ls v

/-- **C91** for the text of `Daylight`. -/
theorem C91_Daylight_text (v : Daylight) (t : Str) : Ser.ical v = .ok t ↔ ∃ parts : List (FieldDecl × Str), parts.map (·.1) = Daylight.declaration ∧
    (∀ p ∈ parts, ∀ m ∈ Daylight.members, m.name = p.1.ident → FieldWritten p.1 v p.2 m) ∧
    t = c!"BEGIN:" ++ c!"DAYLIGHT" ++ c!"\r\n" ++ (parts.map (·.2)).flatten ++ c!"END:" ++ c!"DAYLIGHT" ++ c!"\r\n" := by
  obtain ⟨P, hc, _, h2⟩ := C85_Daylight
  rw [← h2]
  exact C91_writes Daylight.declared Daylight.structOf hc c!"DAYLIGHT" v t

theorem VTimezone.structOf : StructOf VTimezone.declaration VTimezone.members VTimezone.default := by
  refine ⟨rfl, ?_, ?_, ?_, ?_⟩
  · simp only [VTimezone.members, List.mem_cons, List.not_mem_nil, or_false, forall_eq_or_imp, forall_eq, implies_true, and_self]
  · simp only [VTimezone.members, List.mem_cons, List.not_mem_nil, or_false, forall_eq_or_imp, forall_eq, implies_true, and_self, ne_eq, not_true_eq_false, false_implies]
  · intro v w h
    simp only [VTimezone.members, List.mem_cons, List.not_mem_nil, or_false, forall_eq_or_imp, forall_eq] at h
    cases v; cases w
    simp only at h
    obtain ⟨rfl, rfl, rfl, rfl, rfl, rfl, rfl⟩ := h
    rfl
  · simp only [VTimezone.members, List.mem_cons, List.not_mem_nil, or_false, forall_eq_or_imp, forall_eq, Blank]
    repeat' constructor

/-- **C91** for `VTimezone`. -/
theorem C91_VTimezone (ls : List ContentLine) (v : VTimezone) : VTimezone.tryFrom ls = .ok v ↔ StructFrom VTimezone.declaration VTimezone.members VTimezone.default ls v := by
  obtain ⟨P, hc, h1, _⟩ := C85_VTimezone
  rw [← h1]
  exact C91_reads VTimezone.declared VTimezone.structOf hc ls v

/-- **C91** for the text of `VTimezone`. -/
theorem C91_VTimezone_text (v : VTimezone) (t : Str) : Ser.ical v = .ok t ↔ ∃ parts : List (FieldDecl × Str), parts.map (·.1) = VTimezone.declaration ∧
    (∀ p ∈ parts, ∀ m ∈ VTimezone.members, m.name = p.1.ident → FieldWritten p.1 v p.2 m) ∧
    t = c!"BEGIN:" ++ c!"VTIMEZONE" ++ c!"\r\n" ++ (parts.map (·.2)).flatten ++ c!"END:" ++ c!"VTIMEZONE" ++ c!"\r\n" := by
  obtain ⟨P, hc, _, h2⟩ := C85_VTimezone
  rw [← h2]
  exact C91_writes VTimezone.declared VTimezone.structOf hc c!"VTIMEZONE" v t

theorem VTodo.structOf : StructOf VTodo.declaration VTodo.members VTodo.default := by
  refine ⟨rfl, ?_, ?_, ?_, ?_⟩
  · simp only [VTodo.members, List.mem_cons, List.not_mem_nil, or_false, forall_eq_or_imp, forall_eq, implies_true, and_self]
  · simp only [VTodo.members, List.mem_cons, List.not_mem_nil, or_false, forall_eq_or_imp, forall_eq, implies_true, and_self, ne_eq, not_true_eq_false, false_implies]
  · intro v w h
    simp only [VTodo.members, List.mem_cons, List.not_mem_nil, or_false, forall_eq_or_imp, forall_eq] at h
    cases v; cases w
    simp only at h
    obtain ⟨rfl, rfl, rfl, rfl, rfl, rfl, rfl, rfl, rfl, rfl, rfl, rfl, rfl, rfl, rfl, rfl, rfl, rfl, rfl, rfl, rfl, rfl, rfl, rfl, rfl, rfl, rfl, rfl, rfl, rfl, rfl, rfl⟩ := h
    rfl
  · simp only [VTodo.members, List.mem_cons, List.not_mem_nil, or_false, forall_eq_or_imp, forall_eq, Blank]
    repeat' constructor

/-- **C91** for `VTodo`. -/
theorem C91_VTodo (ls : List ContentLine) (v : VTodo) : VTodo.tryFrom ls = .ok v ↔ StructFrom VTodo.declaration VTodo.members VTodo.default ls v := by
  obtain ⟨P, hc, h1, _⟩ := C85_VTodo
  rw [← h1]
  exact C91_reads VTodo.declared VTodo.structOf hc ls v

/-- **C91** for the text of `VTodo`. -/
theorem C91_VTodo_text (v : VTodo) (t : Str) : Ser.ical v = .ok t ↔ ∃ parts : List (FieldDecl × Str), parts.map (·.1) = VTodo.declaration ∧
    (∀ p ∈ parts, ∀ m ∈ VTodo.members, m.name = p.1.ident → FieldWritten p.1 v p.2 m) ∧
    t = c!"BEGIN:" ++ c!"VTODO" ++ c!"\r\n" ++ (parts.map (·.2)).flatten ++ c!"END:" ++ c!"VTODO" ++ c!"\r\n" := by
  obtain ⟨P, hc, _, h2⟩ := C85_VTodo
  rw [← h2]
  exact C91_writes VTodo.declared VTodo.structOf hc c!"VTODO" v t

theorem VCalendar.structOf : StructOf VCalendar.declaration VCalendar.members VCalendar.default := by
  refine ⟨rfl, ?_, ?_, ?_, ?_⟩
  · simp only [VCalendar.members, List.mem_cons, List.not_mem_nil, or_false, forall_eq_or_imp, forall_eq, implies_true, and_self]
  · simp only [VCalendar.members, List.mem_cons, List.not_mem_nil, or_false, forall_eq_or_imp, forall_eq, implies_true, and_self, ne_eq, not_true_eq_false, false_implies]
  · intro v w h
    simp only [VCalendar.members, List.mem_cons, List.not_mem_nil, or_false, forall_eq_or_imp, forall_eq] at h
    cases v; cases w
    simp only at h
    obtain ⟨rfl, rfl, rfl, rfl, rfl, rfl, rfl, rfl, rfl, rfl, rfl, rfl⟩ := h
    rfl
  · simp only [VCalendar.members, List.mem_cons, List.not_mem_nil, or_false, forall_eq_or_imp, forall_eq, Blank]
    repeat' constructor

/-- **C91** for `VCalendar`. -/
theorem C91_VCalendar (ls : List ContentLine) (v : VCalendar) : VCalendar.tryFrom ls = .ok v ↔ StructFrom VCalendar.declaration VCalendar.members VCalendar.default ls v := by
  obtain ⟨P, hc, h1, _⟩ := C85_VCalendar
  rw [← h1]
  exact C91_reads VCalendar.declared VCalendar.structOf hc ls v

/-- **C91** for the text of `VCalendar`. -/
theorem C91_VCalendar_text (v : VCalendar) (t : Str) : Ser.ical v = .ok t ↔ ∃ parts : List (FieldDecl × Str), parts.map (·.1) = VCalendar.declaration ∧
    (∀ p ∈ parts, ∀ m ∈ VCalendar.members, m.name = p.1.ident → FieldWritten p.1 v p.2 m) ∧
    t = c!"BEGIN:" ++ c!"VCALENDAR" ++ c!"\r\n" ++ (parts.map (·.2)).flatten ++ c!"END:" ++ c!"VCALENDAR" ++ c!"\r\n" := by
  obtain ⟨P, hc, _, h2⟩ := C85_VCalendar
  rw [← h2]
  exact C91_writes VCalendar.declared VCalendar.structOf hc c!"VCALENDAR" v t

/-- A struct with one field and the two maps, which the crate does not have. -/
structure Note where
  categories : List Text
  xProp : SMap ContentLine
  ianaProp : SMap ContentLine

/-- Its declaration. -/
def Note.declaration : List FieldDecl := [
  ⟨c!"categories", .path [c!"Vec"] [.path [c!"crate", c!"Text"] []], true, false⟩,
  ⟨c!"x_prop", .path [c!"BTreeMap"] [.path [c!"String"] [], .path [c!"crate", c!"ContentLine"] []], false, true⟩,
  ⟨c!"iana_prop", .path [c!"BTreeMap"] [.path [c!"String"] [], .path [c!"crate", c!"ContentLine"] []], false, true⟩]

/-- Its fields. -/
def Note.members : List (Member Note) := [
  ⟨c!"categories", .vec .text, (·.categories), fun x v => { v with categories := x }⟩,
  ⟨c!"x_prop", .lines, (·.xProp), fun x v => { v with xProp := x }⟩,
  ⟨c!"iana_prop", .lines, (·.ianaProp), fun x v => { v with ianaProp := x }⟩]

theorem Note.declared : Declared Note.declaration :=
  declared_of (by decide)

theorem Note.structOf : StructOf Note.declaration Note.members ⟨[], [], []⟩ := by
  refine ⟨rfl, ?_, ?_, ?_, ?_⟩
  · simp only [Note.members, List.mem_cons, List.not_mem_nil, or_false, forall_eq_or_imp, forall_eq, implies_true, and_self]
  · simp only [Note.members, List.mem_cons, List.not_mem_nil, or_false, forall_eq_or_imp, forall_eq, implies_true, and_self, ne_eq, not_true_eq_false, false_implies]
  · intro v w h
    simp only [Note.members, List.mem_cons, List.not_mem_nil, or_false, forall_eq_or_imp, forall_eq] at h
    cases v; cases w
    simp only at h
    obtain ⟨rfl, rfl, rfl⟩ := h
    rfl
  · simp only [Note.members, List.mem_cons, List.not_mem_nil, or_false, forall_eq_or_imp, forall_eq, Blank]
    repeat' constructor

/-- The hypotheses of the theorems are met by this struct too. -/
example : ((generate Note.declaration).compile Note.members ⟨[], [], []⟩).isSome = true := by rfl

end

section
attribute [local instance] utc

/-- Two lines of categories and one without a field. -/
example : ((generate Note.declaration).compile Note.members ⟨[], [], []⟩).map (fun P =>
    (P.tryFrom [⟨c!"CATEGORIES", [], c!"a,b"⟩, ⟨c!"X-A", [], c!"1"⟩, ⟨c!"CATEGORIES", [], c!"c"⟩]).map fun v => (v.categories.map (·.text), v.xProp.map (·.1), v.ianaProp.length)) =
    some (.ok ([c!"a", c!"b", c!"c"], [c!"X-A"], 0)) := by decide +kernel

/-- It is written with its fields and the names of its maps. -/
example : ((generate Note.declaration).compile Note.members ⟨[], [], []⟩).map (fun P => P.ical c!"NOTE" ⟨[⟨[], c!"a"⟩], [(c!"X-A", ⟨c!"X-A", [], c!"1"⟩)], []⟩) =
    some (.ok c!"BEGIN:NOTE\r\nCATEGORIES:a\r\nX-PROP:X-A=1\r\nEND:NOTE\r\n") := by decide +kernel

end

end Ikal
