import Verif.Generate

/-!
# The code made by `#[derive(Component)]` and the tables of fields
-/

namespace Ikal

section
variable [Platform] {σ : Type}

/-- The fields that are not required have their default. -/
def Slots.Fresh : (fs : List Field) → Slots fs → Prop
  | [], _ => True
  | .req .. :: fs, s => Fresh fs s.2
  | .opt .. :: fs, s => s.1 = none ∧ Fresh fs s.2
  | .push .. :: fs, s => s.1 = [] ∧ Fresh fs s.2
  | .append .. :: fs, s => s.1 = [] ∧ Fresh fs s.2
  | .nested .. :: fs, s => s.1 = [] ∧ Fresh fs s.2

/-- The code for the declarations `ds` compiles, and it does to a struct what the table does to its slots; `k` puts the slots of the table into the struct and `tail` is what is
written after them. -/
def Good (ms : List (Member σ)) (ds : List FieldDecl) (fs : List Field) {γ : Type} (k : γ → Slots fs → σ) (tail : γ → Res Str) : Prop :=
  ∃ new arms sers, (generate ds).new.mapM (newItem ms) = some new ∧ (generate ds).arms.mapM (armItem ms) = some arms ∧
    (generate ds).sers.mapM (serItem ms) = some sers ∧
    (∀ g s l, Program.match_ arms l (k g s) = (Slots.step fs l s).map (Option.map (k g))) ∧
    (∀ g s ls, Slots.Fresh fs s → Program.init new ls (k g s) = (Slots.init fs ls).map (k g)) ∧
    (∀ g s, Program.body sers (k g s) = (Slots.ser fs s >>= fun a => (tail g).map (a ++ ·)))

variable {ms : List (Member σ)} {ds : List FieldDecl} {fs : List Field} {γ : Type} {tail : γ → Res Str}

omit [Platform] in
theorem mapM_cons_some {α β : Type} {f : α → Option β} {a : α} {as : List α} {b : β} {bs : List β} (h : f a = some b) (hs : as.mapM f = some bs) :
    (a :: as).mapM f = some (b :: bs) := by
  simp [List.mapM_cons, h, hs]

omit [Platform] in
theorem body_cons {f : σ → Res Str} {sers : List (σ → Res Str)} {v : σ} {r a' : Res Str} {t : Res Str} (hf : f v = r)
    (h : Program.body sers v = (a' >>= fun a => t.map (a ++ ·))) :
    Program.body (f :: sers) v = ((do let a ← r; let b ← a'; pure (a ++ b)) >>= fun a => t.map (a ++ ·)) := by
  simp only [Program.body, hf, h]
  cases r <;> cases a' <;> cases t <;> simp [Res.bind_ok, Res.bind_err, Res.bind_panic, List.append_assoc] <;> rfl

theorem Good.opt {d : FieldDecl} {n nm : Str} (t : RTy) {ser : Ser t.den} {p : ContentLine → Res t.den} {get : σ → (RTy.option t).den} {set : (RTy.option t).den → σ → σ}
    {k : γ → Slots (.opt n t.den ser p :: fs) → σ}
    (hn : propertyName d.ident = n) (ht : d.ty.isOption = true) (hv : d.ty.isVec = false) (hi : d.ignore = false)
    (hm : memberOf ms d.ident = some ⟨nm, .option t, get, set⟩) (hp : parserOf d.ident = some ⟨t, p⟩) (hs : serOf t = some ser)
    (hget : ∀ g v s, get (k g (v, s)) = v) (hset : ∀ g v s x, set x (k g (v, s)) = k g (x, s))
    (h : Good ms ds fs (γ := γ × Option t.den) (fun g s => k g.1 (g.2, s)) (fun g => tail g.1)) : Good ms (d :: ds) (.opt n t.den ser p :: fs) k tail := by
  obtain ⟨new, arms, sers, h1, h2, h3, ha, hi', hb⟩ := h
  refine ⟨new, (n, fun l v => (p l).map fun x => set (some x) v) :: arms, (fun v => @field _ (@instSerOption _ ser) n (get v)) :: sers, ?_, ?_, ?_, ?_, ?_, ?_⟩
  · simpa [generate, hi, ht] using h1
  · simp only [generate, hi, Bool.false_eq_true, if_false]
    refine mapM_cons_some ?_ h2
    simp only [FieldDecl.action, ht, if_true, armItem, hm, hp, Option.bind_eq_bind, Option.bind_some, hn]
    simp [RTy.coe]
  · have : (generate (d :: ds)).sers = (d.ident, propertyName d.ident, d.ty.isVec) :: (generate ds).sers := by simp [generate, hi]
    rw [this]
    refine mapM_cons_some ?_ h3
    simp only [serItem, hm, hn, hv, Option.bind_eq_bind, Option.bind_some, serOf, hs, Option.map_some]
  · intro g ⟨v, s⟩ l
    simp only [Program.match_, Slots.step, Field.parsed, Field.name, Field.stepField, true_and]
    split
    · cases p l <;> simp [hset]
    · refine (ha (g, v) s l).trans ?_
      cases Slots.step fs l s <;> simp [Option.map_map]
      rfl
  · intro g ⟨v, s⟩ ls hf
    obtain ⟨rfl, hf⟩ := hf
    refine (hi' (g, none) s ls hf).trans ?_
    simp only [Slots.init, Field.initField, Res.bind_ok]
    cases Slots.init fs ls <;> rfl
  · intro g ⟨v, s⟩
    refine body_cons ?_ (hb (g, v) s)
    show @field _ _ n (get (k g (v, s))) = _
    rw [hget]
    rfl

theorem Good.req {d : FieldDecl} {n nm : Str} (t : RTy) {ser : Ser t.den} {p : ContentLine → Res t.den} {get : σ → t.den} {set : t.den → σ → σ}
    {k : γ → Slots (.req n t.den ser p :: fs) → σ}
    (hn : propertyName d.ident = n) (ht : d.ty.isOption = false) (hv : d.ty.isVec = false) (hi : d.ignore = false)
    (hm : memberOf ms d.ident = some ⟨nm, t, get, set⟩) (hp : parserOf d.ident = some ⟨t, p⟩) (hs : serOf t = some ser)
    (hget : ∀ g v s, get (k g (v, s)) = v) (hset : ∀ g v s x, set x (k g (v, s)) = k g (x, s))
    (h : Good ms ds fs (γ := γ × t.den) (fun g s => k g.1 (g.2, s)) (fun g => tail g.1)) : Good ms (d :: ds) (.req n t.den ser p :: fs) k tail := by
  obtain ⟨new, arms, sers, h1, h2, h3, ha, hi', hb⟩ := h
  refine ⟨(fun ls v => match Field.lastLine n ls with | some l => (p l).map fun x => set x v | none => .err .parser) :: new, (n, fun _ v => .ok v) :: arms,
    (fun v => @field _ ser n (get v)) :: sers, ?_, ?_, ?_, ?_, ?_, ?_⟩
  · simp only [generate, hi, ht, hv, Bool.false_eq_true, if_false, or_self]
    refine mapM_cons_some ?_ h1
    simp only [newItem, hm, hp, hn, Option.bind_eq_bind, Option.bind_some]
    simp [RTy.coe]
    rfl
  · simp only [generate, hi, Bool.false_eq_true, if_false]
    refine mapM_cons_some ?_ h2
    simp [FieldDecl.action, ht, hv, armItem, hm, hn]
  · have : (generate (d :: ds)).sers = (d.ident, propertyName d.ident, d.ty.isVec) :: (generate ds).sers := by simp [generate, hi]
    rw [this]
    refine mapM_cons_some ?_ h3
    simp only [serItem, hm, hn, hv, Option.bind_eq_bind, Option.bind_some, hs, Option.map_some]
  · intro g ⟨v, s⟩ l
    simp only [Program.match_, Slots.step, Field.parsed, Field.name, Field.stepField, true_and]
    split
    · simp
    · refine (ha (g, v) s l).trans ?_
      cases Slots.step fs l s <;> simp [Option.map_map]
      rfl
  · intro g ⟨v, s⟩ ls hf
    simp only [Program.init, Slots.init, Field.initField]
    cases Field.lastLine n ls with
    | none => rfl
    | some l =>
      simp only
      cases p l with
      | err => rfl
      | panic => rfl
      | ok x =>
        simp only [Res.map_ok, Res.bind_ok, hset]
        refine (hi' (g, x) s ls hf).trans ?_
        cases Slots.init fs ls <;> rfl
  · intro g ⟨v, s⟩
    refine body_cons ?_ (hb (g, v) s)
    show @field _ _ n (get (k g (v, s))) = _
    rw [hget]
    rfl

theorem Good.push {d : FieldDecl} {n nm : Str} (t : RTy) {ser : Ser t.den} {p : ContentLine → Res t.den} {get : σ → (RTy.vec t).den} {set : (RTy.vec t).den → σ → σ}
    {k : γ → Slots (.push n t.den ser p :: fs) → σ}
    (hn : propertyName d.ident = n) (ht : d.ty.isOption = false) (hv : d.ty.isVec = true) (happ : d.append = false) (hi : d.ignore = false)
    (hm : memberOf ms d.ident = some ⟨nm, .vec t, get, set⟩) (hp : parserOf d.ident = some ⟨t, p⟩) (hs : serOf t = some ser)
    (hget : ∀ g v s, get (k g (v, s)) = v) (hset : ∀ g v s x, set x (k g (v, s)) = k g (x, s))
    (h : Good ms ds fs (γ := γ × List t.den) (fun g s => k g.1 (g.2, s)) (fun g => tail g.1)) : Good ms (d :: ds) (.push n t.den ser p :: fs) k tail := by
  obtain ⟨new, arms, sers, h1, h2, h3, ha, hi', hb⟩ := h
  refine ⟨new, (n, fun l v => (p l).map fun x => set ((show List t.den from get v) ++ [x]) v) :: arms, (fun v => @Field.serVec _ ser n (get v)) :: sers, ?_, ?_, ?_, ?_, ?_, ?_⟩
  · simpa [generate, hi, hv] using h1
  · simp only [generate, hi, Bool.false_eq_true, if_false]
    refine mapM_cons_some ?_ h2
    simp only [FieldDecl.action, ht, hv, happ, if_true, armItem, hm, hp, Option.bind_eq_bind, Option.bind_some, hn, Bool.false_eq_true, if_false]
    simp [RTy.coe]
  · have : (generate (d :: ds)).sers = (d.ident, propertyName d.ident, d.ty.isVec) :: (generate ds).sers := by simp [generate, hi]
    rw [this]
    refine mapM_cons_some ?_ h3
    simp only [serItem, hm, hn, hv, Option.bind_eq_bind, Option.bind_some, hs, Option.map_some]
  · intro g ⟨v, s⟩ l
    simp only [Program.match_, Slots.step, Field.parsed, Field.name, Field.stepField, true_and]
    split
    · cases p l <;> simp [hset, hget]
    · refine (ha (g, v) s l).trans ?_
      cases Slots.step fs l s <;> simp [Option.map_map]
      rfl
  · intro g ⟨v, s⟩ ls hf
    obtain ⟨rfl, hf⟩ := hf
    refine (hi' (g, []) s ls hf).trans ?_
    simp only [Slots.init, Field.initField, Res.bind_ok]
    cases Slots.init fs ls <;> rfl
  · intro g ⟨v, s⟩
    refine body_cons ?_ (hb (g, v) s)
    show @Field.serVec _ _ n (get (k g (v, s))) = _
    rw [hget]
    rfl

theorem Good.append {d : FieldDecl} {n nm : Str} (t : RTy) {ser : Ser t.den} {p : ContentLine → Res (List t.den)} {get : σ → (RTy.vec t).den}
    {set : (RTy.vec t).den → σ → σ} {k : γ → Slots (.append n t.den ser p :: fs) → σ}
    (hn : propertyName d.ident = n) (ht : d.ty.isOption = false) (hv : d.ty.isVec = true) (happ : d.append = true) (hi : d.ignore = false)
    (hm : memberOf ms d.ident = some ⟨nm, .vec t, get, set⟩) (hp : parserOf d.ident = some ⟨.vec t, p⟩) (hs : serOf t = some ser)
    (hget : ∀ g v s, get (k g (v, s)) = v) (hset : ∀ g v s x, set x (k g (v, s)) = k g (x, s))
    (h : Good ms ds fs (γ := γ × List t.den) (fun g s => k g.1 (g.2, s)) (fun g => tail g.1)) : Good ms (d :: ds) (.append n t.den ser p :: fs) k tail := by
  obtain ⟨new, arms, sers, h1, h2, h3, ha, hi', hb⟩ := h
  refine ⟨new, (n, fun l v => (p l).map fun x => set ((show List t.den from get v) ++ x) v) :: arms, (fun v => @Field.serVec _ ser n (get v)) :: sers, ?_, ?_, ?_, ?_, ?_, ?_⟩
  · simpa [generate, hi, hv] using h1
  · simp only [generate, hi, Bool.false_eq_true, if_false]
    refine mapM_cons_some ?_ h2
    simp only [FieldDecl.action, ht, hv, happ, if_true, armItem, hm, hp, Option.bind_eq_bind, Option.bind_some, hn, Bool.false_eq_true, if_false]
    simp [RTy.coe]
  · have : (generate (d :: ds)).sers = (d.ident, propertyName d.ident, d.ty.isVec) :: (generate ds).sers := by simp [generate, hi]
    rw [this]
    refine mapM_cons_some ?_ h3
    simp only [serItem, hm, hn, hv, Option.bind_eq_bind, Option.bind_some, hs, Option.map_some]
  · intro g ⟨v, s⟩ l
    simp only [Program.match_, Slots.step, Field.parsed, Field.name, Field.stepField, true_and]
    split
    · cases p l <;> simp [hset, hget]
    · refine (ha (g, v) s l).trans ?_
      cases Slots.step fs l s <;> simp [Option.map_map]
      rfl
  · intro g ⟨v, s⟩ ls hf
    obtain ⟨rfl, hf⟩ := hf
    refine (hi' (g, []) s ls hf).trans ?_
    simp only [Slots.init, Field.initField, Res.bind_ok]
    cases Slots.init fs ls <;> rfl
  · intro g ⟨v, s⟩
    refine body_cons ?_ (hb (g, v) s)
    show @Field.serVec _ _ n (get (k g (v, s))) = _
    rw [hget]
    rfl

theorem Good.nested {d : FieldDecl} {n nm : Str} (t : RTy) {ser : Ser t.den} {get : σ → (RTy.vec t).den} {set : (RTy.vec t).den → σ → σ}
    {k : γ → Slots (.nested n t.den ser :: fs) → σ}
    (hn : propertyName d.ident = n) (hv : d.ty.isVec = true) (hi : d.ignore = true)
    (hm : memberOf ms d.ident = some ⟨nm, .vec t, get, set⟩) (hs : serOf t = some ser)
    (hget : ∀ g v s, get (k g (v, s)) = v)
    (h : Good ms ds fs (γ := γ × List t.den) (fun g s => k g.1 (g.2, s)) (fun g => tail g.1)) : Good ms (d :: ds) (.nested n t.den ser :: fs) k tail := by
  obtain ⟨new, arms, sers, h1, h2, h3, ha, hi', hb⟩ := h
  refine ⟨new, arms, (fun v => @Field.serVec _ ser n (get v)) :: sers, ?_, ?_, ?_, ?_, ?_, ?_⟩
  · simpa [generate, hi] using h1
  · simpa [generate, hi] using h2
  · have : (generate (d :: ds)).sers = (d.ident, propertyName d.ident, d.ty.isVec) :: (generate ds).sers := by simp [generate, hi]
    rw [this]
    refine mapM_cons_some ?_ h3
    simp only [serItem, hm, hn, hv, Option.bind_eq_bind, Option.bind_some, hs, Option.map_some]
  · intro g ⟨v, s⟩ l
    simp only [Slots.step, Field.parsed, Bool.false_eq_true, false_and, if_false]
    refine (ha (g, v) s l).trans ?_
    cases Slots.step fs l s <;> simp [Option.map_map]
    rfl
  · intro g ⟨v, s⟩ ls hf
    obtain ⟨rfl, hf⟩ := hf
    refine (hi' (g, []) s ls hf).trans ?_
    simp only [Slots.init, Field.initField, Res.bind_ok]
    cases Slots.init fs ls <;> rfl
  · intro g ⟨v, s⟩
    refine body_cons ?_ (hb (g, v) s)
    show @Field.serVec _ _ n (get (k g (v, s))) = _
    rw [hget]
    rfl

/-- The last two fields, `x_prop` and `iana_prop`. -/
theorem Good.base {d e : FieldDecl} {m m' : Str} {k : γ → Slots [] → σ} {get get' : σ → RTy.lines.den} {set set' : RTy.lines.den → σ → σ}
    (hn : propertyName d.ident = c!"X-PROP") (hn' : propertyName e.ident = c!"IANA-PROP") (hv : d.ty.isVec = false) (hv' : e.ty.isVec = false)
    (hi : d.ignore = true) (hi' : e.ignore = true)
    (hm : memberOf ms d.ident = some ⟨m, .lines, get, set⟩) (hm' : memberOf ms e.ident = some ⟨m', .lines, get', set'⟩) {x i : γ → SMap ContentLine}
    (hget : ∀ g s, get (k g s) = x g) (hget' : ∀ g s, get' (k g s) = i g) :
    Good ms [d, e] [] k (fun g => do
      let a ← @field _ Comp.extSer c!"X-PROP" (x g)
      let b ← @field _ Comp.extSer c!"IANA-PROP" (i g)
      pure (a ++ b)) := by
  refine ⟨[], [], [fun v => @field _ Comp.extSer c!"X-PROP" (get v), fun v => @field _ Comp.extSer c!"IANA-PROP" (get' v)], ?_, ?_, ?_, ?_, ?_, ?_⟩
  · simp [generate, hi, hi']
  · simp [generate, hi, hi']
  · simp [generate, hi, hi', serItem, hm, hm', hv, hv', hn, hn', serOf]
  · intro g s l; rfl
  · intro g s ls _; rfl
  · intro g s
    simp only [Program.body, hget, hget', Slots.ser, Res.bind_ok, List.nil_append]
    cases @field _ Comp.extSer c!"X-PROP" (x g) <;> cases @field _ Comp.extSer c!"IANA-PROP" (i g) <;> simp <;> rfl

/-- The code does what the table says. -/
theorem Good.compile {default : σ} {ofComp : Comp fs → σ} {toComp : σ → Comp fs} {name : Str}
    {m m' : Str} {get get' : σ → RTy.lines.den} {set set' : RTy.lines.den → σ → σ} {s0 : Slots fs}
    (hg : Good ms ds fs (γ := SMap ContentLine × SMap ContentLine) (fun g s => ofComp ⟨s, g.1, g.2⟩) (fun g => do
      let a ← @field _ Comp.extSer c!"X-PROP" g.1
      let b ← @field _ Comp.extSer c!"IANA-PROP" g.2
      pure (a ++ b)))
    (hm : memberOf ms c!"x_prop" = some ⟨m, .lines, get, set⟩) (hm' : memberOf ms c!"iana_prop" = some ⟨m', .lines, get', set'⟩)
    (hx : ∀ c l, set (SMap.insert (get (ofComp c)) l.key l) (ofComp c) = ofComp { c with xProp := SMap.insert c.xProp l.key l })
    (hx' : ∀ c l, set' (SMap.insert (get' (ofComp c)) l.key l) (ofComp c) = ofComp { c with ianaProp := SMap.insert c.ianaProp l.key l })
    (hd : default = ofComp ⟨s0, [], []⟩) (hf : Slots.Fresh fs s0) (ho : ∀ v, ofComp (toComp v) = v) :
    ∃ P, (generate ds).compile ms default = some P ∧ (∀ ls, P.tryFrom ls = (Comp.tryFrom fs ls).map ofComp) ∧
      ∀ v, P.ical name v = (toComp v).ical name := by
  obtain ⟨new, arms, sers, h1, h2, h3, ha, hi, hb⟩ := hg
  refine ⟨⟨default, new, arms, fun l v => set (SMap.insert (get v) l.key l) v, fun l v => set' (SMap.insert (get' v) l.key l) v, sers⟩, ?_, ?_, ?_⟩
  · simp [Code.compile, h1, h2, h3, hm, hm', insertLine]
  · have hstep : ∀ (c : Comp fs) l, Program.step ⟨default, new, arms, fun l v => set (SMap.insert (get v) l.key l) v,
        fun l v => set' (SMap.insert (get' v) l.key l) v, sers⟩ (ofComp c) l = (Comp.step c l).map ofComp := by
      intro c l
      have hm_ : Program.match_ arms l (ofComp c) = _ := ha (c.xProp, c.ianaProp) c.slots l
      simp only [Program.step, Comp.step]
      rw [hm_]
      cases Slots.step fs l c.slots with
      | err => rfl
      | panic => rfl
      | ok o =>
        cases o with
        | some s => rfl
        | none =>
          simp only [Res.map_ok, Res.bind_ok, Option.map_none]
          split
          · exact congrArg Res.ok (hx c l)
          · exact congrArg Res.ok (hx' c l)
    have hloop : ∀ (ls : List ContentLine) (c : Comp fs), Program.loop ⟨default, new, arms, fun l v => set (SMap.insert (get v) l.key l) v,
        fun l v => set' (SMap.insert (get' v) l.key l) v, sers⟩ (ofComp c) ls = (Comp.loop c ls).map ofComp := by
      intro ls
      induction ls with
      | nil => intro c; rfl
      | cons l ls ih =>
        intro c
        simp only [Program.loop, Comp.loop, hstep]
        cases Comp.step c l with
        | err => rfl
        | panic => rfl
        | ok c' => exact ih c'
    intro ls
    simp only [Program.tryFrom, Comp.tryFrom]
    have := hi ([], []) s0 ls hf
    simp only at this
    rw [hd, this]
    cases Slots.init fs ls with
    | err => rfl
    | panic => rfl
    | ok s => rw [← hd]; exact hloop ls ⟨s, [], []⟩
  · intro v
    have := hb ((toComp v).xProp, (toComp v).ianaProp) (toComp v).slots
    simp only at this
    have hv : ofComp ⟨(toComp v).slots, (toComp v).xProp, (toComp v).ianaProp⟩ = v := ho v
    rw [hv] at this
    simp only [Program.ical, Comp.ical, this]
    cases Slots.ser fs (toComp v).slots <;> cases @field _ Comp.extSer c!"X-PROP" (toComp v).xProp <;>
      cases @field _ Comp.extSer c!"IANA-PROP" (toComp v).ianaProp <;> simp [List.append_assoc] <;> rfl

theorem Audio.generated : Good Audio.members Audio.declaration Audio.fields (γ := SMap ContentLine × SMap ContentLine) (fun g s => Audio.ofComp ⟨s, g.1, g.2⟩) (fun g => do
      let a ← @field _ Comp.extSer c!"X-PROP" g.1
      let b ← @field _ Comp.extSer c!"IANA-PROP" g.2
      pure (a ++ b)) := by
  refine Good.req .text rfl rfl rfl rfl rfl rfl rfl (fun _ _ _ => rfl) (fun _ _ _ _ => rfl) ?_
  refine Good.req .trigger rfl rfl rfl rfl rfl rfl rfl (fun _ _ _ => rfl) (fun _ _ _ _ => rfl) ?_
  refine Good.opt .duration rfl rfl rfl rfl rfl rfl rfl (fun _ _ _ => rfl) (fun _ _ _ _ => rfl) ?_
  refine Good.opt .u32 rfl rfl rfl rfl rfl rfl rfl (fun _ _ _ => rfl) (fun _ _ _ _ => rfl) ?_
  refine Good.push .text rfl rfl rfl rfl rfl rfl rfl rfl (fun _ _ _ => rfl) (fun _ _ _ _ => rfl) ?_
  exact Good.base rfl rfl rfl rfl rfl rfl rfl rfl (fun _ _ => rfl) (fun _ _ => rfl)

theorem Display.generated : Good Display.members Display.declaration Display.fields (γ := SMap ContentLine × SMap ContentLine) (fun g s => Display.ofComp ⟨s, g.1, g.2⟩) (fun g => do
      let a ← @field _ Comp.extSer c!"X-PROP" g.1
      let b ← @field _ Comp.extSer c!"IANA-PROP" g.2
      pure (a ++ b)) := by
  refine Good.req .text rfl rfl rfl rfl rfl rfl rfl (fun _ _ _ => rfl) (fun _ _ _ _ => rfl) ?_
  refine Good.req .trigger rfl rfl rfl rfl rfl rfl rfl (fun _ _ _ => rfl) (fun _ _ _ _ => rfl) ?_
  refine Good.req .text rfl rfl rfl rfl rfl rfl rfl (fun _ _ _ => rfl) (fun _ _ _ _ => rfl) ?_
  refine Good.opt .duration rfl rfl rfl rfl rfl rfl rfl (fun _ _ _ => rfl) (fun _ _ _ _ => rfl) ?_
  refine Good.opt .u32 rfl rfl rfl rfl rfl rfl rfl (fun _ _ _ => rfl) (fun _ _ _ _ => rfl) ?_
  exact Good.base rfl rfl rfl rfl rfl rfl rfl rfl (fun _ _ => rfl) (fun _ _ => rfl)

theorem Email.generated : Good Email.members Email.declaration Email.fields (γ := SMap ContentLine × SMap ContentLine) (fun g s => Email.ofComp ⟨s, g.1, g.2⟩) (fun g => do
      let a ← @field _ Comp.extSer c!"X-PROP" g.1
      let b ← @field _ Comp.extSer c!"IANA-PROP" g.2
      pure (a ++ b)) := by
  refine Good.req .text rfl rfl rfl rfl rfl rfl rfl (fun _ _ _ => rfl) (fun _ _ _ _ => rfl) ?_
  refine Good.req .trigger rfl rfl rfl rfl rfl rfl rfl (fun _ _ _ => rfl) (fun _ _ _ _ => rfl) ?_
  refine Good.req .text rfl rfl rfl rfl rfl rfl rfl (fun _ _ _ => rfl) (fun _ _ _ _ => rfl) ?_
  refine Good.req .text rfl rfl rfl rfl rfl rfl rfl (fun _ _ _ => rfl) (fun _ _ _ _ => rfl) ?_
  refine Good.push .uri rfl rfl rfl rfl rfl rfl rfl rfl (fun _ _ _ => rfl) (fun _ _ _ _ => rfl) ?_
  refine Good.opt .duration rfl rfl rfl rfl rfl rfl rfl (fun _ _ _ => rfl) (fun _ _ _ _ => rfl) ?_
  refine Good.opt .u32 rfl rfl rfl rfl rfl rfl rfl (fun _ _ _ => rfl) (fun _ _ _ _ => rfl) ?_
  refine Good.push .text rfl rfl rfl rfl rfl rfl rfl rfl (fun _ _ _ => rfl) (fun _ _ _ _ => rfl) ?_
  exact Good.base rfl rfl rfl rfl rfl rfl rfl rfl (fun _ _ => rfl) (fun _ _ => rfl)

theorem VEvent.generated : Good VEvent.members VEvent.declaration VEvent.fields (γ := SMap ContentLine × SMap ContentLine) (fun g s => VEvent.ofComp ⟨s, g.1, g.2⟩) (fun g => do
      let a ← @field _ Comp.extSer c!"X-PROP" g.1
      let b ← @field _ Comp.extSer c!"IANA-PROP" g.2
      pure (a ++ b)) := by
  refine Good.req .dateTime rfl rfl rfl rfl rfl rfl rfl (fun _ _ _ => rfl) (fun _ _ _ _ => rfl) ?_
  refine Good.req .text rfl rfl rfl rfl rfl rfl rfl (fun _ _ _ => rfl) (fun _ _ _ _ => rfl) ?_
  refine Good.req .date rfl rfl rfl rfl rfl rfl rfl (fun _ _ _ => rfl) (fun _ _ _ _ => rfl) ?_
  refine Good.opt .class_ rfl rfl rfl rfl rfl rfl rfl (fun _ _ _ => rfl) (fun _ _ _ _ => rfl) ?_
  refine Good.opt .dateTime rfl rfl rfl rfl rfl rfl rfl (fun _ _ _ => rfl) (fun _ _ _ _ => rfl) ?_
  refine Good.opt .text rfl rfl rfl rfl rfl rfl rfl (fun _ _ _ => rfl) (fun _ _ _ _ => rfl) ?_
  refine Good.opt .geo rfl rfl rfl rfl rfl rfl rfl (fun _ _ _ => rfl) (fun _ _ _ _ => rfl) ?_
  refine Good.opt .dateTime rfl rfl rfl rfl rfl rfl rfl (fun _ _ _ => rfl) (fun _ _ _ _ => rfl) ?_
  refine Good.opt .text rfl rfl rfl rfl rfl rfl rfl (fun _ _ _ => rfl) (fun _ _ _ _ => rfl) ?_
  refine Good.opt .uri rfl rfl rfl rfl rfl rfl rfl (fun _ _ _ => rfl) (fun _ _ _ _ => rfl) ?_
  refine Good.opt .u8 rfl rfl rfl rfl rfl rfl rfl (fun _ _ _ => rfl) (fun _ _ _ _ => rfl) ?_
  refine Good.opt .u32 rfl rfl rfl rfl rfl rfl rfl (fun _ _ _ => rfl) (fun _ _ _ _ => rfl) ?_
  refine Good.opt .status rfl rfl rfl rfl rfl rfl rfl (fun _ _ _ => rfl) (fun _ _ _ _ => rfl) ?_
  refine Good.opt .text rfl rfl rfl rfl rfl rfl rfl (fun _ _ _ => rfl) (fun _ _ _ _ => rfl) ?_
  refine Good.opt .transp rfl rfl rfl rfl rfl rfl rfl (fun _ _ _ => rfl) (fun _ _ _ _ => rfl) ?_
  refine Good.opt .uri rfl rfl rfl rfl rfl rfl rfl (fun _ _ _ => rfl) (fun _ _ _ _ => rfl) ?_
  refine Good.opt .date rfl rfl rfl rfl rfl rfl rfl (fun _ _ _ => rfl) (fun _ _ _ _ => rfl) ?_
  refine Good.opt .recur rfl rfl rfl rfl rfl rfl rfl (fun _ _ _ => rfl) (fun _ _ _ _ => rfl) ?_
  refine Good.opt .date rfl rfl rfl rfl rfl rfl rfl (fun _ _ _ => rfl) (fun _ _ _ _ => rfl) ?_
  refine Good.opt .duration rfl rfl rfl rfl rfl rfl rfl (fun _ _ _ => rfl) (fun _ _ _ _ => rfl) ?_
  refine Good.push .text rfl rfl rfl rfl rfl rfl rfl rfl (fun _ _ _ => rfl) (fun _ _ _ _ => rfl) ?_
  refine Good.push .uri rfl rfl rfl rfl rfl rfl rfl rfl (fun _ _ _ => rfl) (fun _ _ _ _ => rfl) ?_
  refine Good.append .text rfl rfl rfl rfl rfl rfl rfl rfl (fun _ _ _ => rfl) (fun _ _ _ _ => rfl) ?_
  refine Good.push .text rfl rfl rfl rfl rfl rfl rfl rfl (fun _ _ _ => rfl) (fun _ _ _ _ => rfl) ?_
  refine Good.push .text rfl rfl rfl rfl rfl rfl rfl rfl (fun _ _ _ => rfl) (fun _ _ _ _ => rfl) ?_
  refine Good.append .date rfl rfl rfl rfl rfl rfl rfl rfl (fun _ _ _ => rfl) (fun _ _ _ _ => rfl) ?_
  refine Good.push .rstatus rfl rfl rfl rfl rfl rfl rfl rfl (fun _ _ _ => rfl) (fun _ _ _ _ => rfl) ?_
  refine Good.push .text rfl rfl rfl rfl rfl rfl rfl rfl (fun _ _ _ => rfl) (fun _ _ _ _ => rfl) ?_
  refine Good.append .text rfl rfl rfl rfl rfl rfl rfl rfl (fun _ _ _ => rfl) (fun _ _ _ _ => rfl) ?_
  refine Good.push .rdate rfl rfl rfl rfl rfl rfl rfl rfl (fun _ _ _ => rfl) (fun _ _ _ _ => rfl) ?_
  refine Good.nested .alarm rfl rfl rfl rfl rfl (fun _ _ _ => rfl) ?_
  exact Good.base rfl rfl rfl rfl rfl rfl rfl rfl (fun _ _ => rfl) (fun _ _ => rfl)

theorem VFreebusy.generated : Good VFreebusy.members VFreebusy.declaration VFreebusy.fields (γ := SMap ContentLine × SMap ContentLine) (fun g s => VFreebusy.ofComp ⟨s, g.1, g.2⟩) (fun g => do
      let a ← @field _ Comp.extSer c!"X-PROP" g.1
      let b ← @field _ Comp.extSer c!"IANA-PROP" g.2
      pure (a ++ b)) := by
  refine Good.req .dateTime rfl rfl rfl rfl rfl rfl rfl (fun _ _ _ => rfl) (fun _ _ _ _ => rfl) ?_
  refine Good.req .text rfl rfl rfl rfl rfl rfl rfl (fun _ _ _ => rfl) (fun _ _ _ _ => rfl) ?_
  refine Good.opt .text rfl rfl rfl rfl rfl rfl rfl (fun _ _ _ => rfl) (fun _ _ _ _ => rfl) ?_
  refine Good.opt .date rfl rfl rfl rfl rfl rfl rfl (fun _ _ _ => rfl) (fun _ _ _ _ => rfl) ?_
  refine Good.opt .date rfl rfl rfl rfl rfl rfl rfl (fun _ _ _ => rfl) (fun _ _ _ _ => rfl) ?_
  refine Good.opt .uri rfl rfl rfl rfl rfl rfl rfl (fun _ _ _ => rfl) (fun _ _ _ _ => rfl) ?_
  refine Good.opt .uri rfl rfl rfl rfl rfl rfl rfl (fun _ _ _ => rfl) (fun _ _ _ _ => rfl) ?_
  refine Good.push .uri rfl rfl rfl rfl rfl rfl rfl rfl (fun _ _ _ => rfl) (fun _ _ _ _ => rfl) ?_
  refine Good.push .text rfl rfl rfl rfl rfl rfl rfl rfl (fun _ _ _ => rfl) (fun _ _ _ _ => rfl) ?_
  refine Good.append .period rfl rfl rfl rfl rfl rfl rfl rfl (fun _ _ _ => rfl) (fun _ _ _ _ => rfl) ?_
  refine Good.push .rstatus rfl rfl rfl rfl rfl rfl rfl rfl (fun _ _ _ => rfl) (fun _ _ _ _ => rfl) ?_
  exact Good.base rfl rfl rfl rfl rfl rfl rfl rfl (fun _ _ => rfl) (fun _ _ => rfl)

theorem VJournal.generated : Good VJournal.members VJournal.declaration VJournal.fields (γ := SMap ContentLine × SMap ContentLine) (fun g s => VJournal.ofComp ⟨s, g.1, g.2⟩) (fun g => do
      let a ← @field _ Comp.extSer c!"X-PROP" g.1
      let b ← @field _ Comp.extSer c!"IANA-PROP" g.2
      pure (a ++ b)) := by
  refine Good.req .dateTime rfl rfl rfl rfl rfl rfl rfl (fun _ _ _ => rfl) (fun _ _ _ _ => rfl) ?_
  refine Good.req .text rfl rfl rfl rfl rfl rfl rfl (fun _ _ _ => rfl) (fun _ _ _ _ => rfl) ?_
  refine Good.opt .class_ rfl rfl rfl rfl rfl rfl rfl (fun _ _ _ => rfl) (fun _ _ _ _ => rfl) ?_
  refine Good.opt .dateTime rfl rfl rfl rfl rfl rfl rfl (fun _ _ _ => rfl) (fun _ _ _ _ => rfl) ?_
  refine Good.req .date rfl rfl rfl rfl rfl rfl rfl (fun _ _ _ => rfl) (fun _ _ _ _ => rfl) ?_
  refine Good.opt .dateTime rfl rfl rfl rfl rfl rfl rfl (fun _ _ _ => rfl) (fun _ _ _ _ => rfl) ?_
  refine Good.opt .uri rfl rfl rfl rfl rfl rfl rfl (fun _ _ _ => rfl) (fun _ _ _ _ => rfl) ?_
  refine Good.opt .date rfl rfl rfl rfl rfl rfl rfl (fun _ _ _ => rfl) (fun _ _ _ _ => rfl) ?_
  refine Good.opt .u32 rfl rfl rfl rfl rfl rfl rfl (fun _ _ _ => rfl) (fun _ _ _ _ => rfl) ?_
  refine Good.opt .status rfl rfl rfl rfl rfl rfl rfl (fun _ _ _ => rfl) (fun _ _ _ _ => rfl) ?_
  refine Good.opt .text rfl rfl rfl rfl rfl rfl rfl (fun _ _ _ => rfl) (fun _ _ _ _ => rfl) ?_
  refine Good.opt .uri rfl rfl rfl rfl rfl rfl rfl (fun _ _ _ => rfl) (fun _ _ _ _ => rfl) ?_
  refine Good.opt .recur rfl rfl rfl rfl rfl rfl rfl (fun _ _ _ => rfl) (fun _ _ _ _ => rfl) ?_
  refine Good.push .text rfl rfl rfl rfl rfl rfl rfl rfl (fun _ _ _ => rfl) (fun _ _ _ _ => rfl) ?_
  refine Good.push .uri rfl rfl rfl rfl rfl rfl rfl rfl (fun _ _ _ => rfl) (fun _ _ _ _ => rfl) ?_
  refine Good.append .text rfl rfl rfl rfl rfl rfl rfl rfl (fun _ _ _ => rfl) (fun _ _ _ _ => rfl) ?_
  refine Good.push .text rfl rfl rfl rfl rfl rfl rfl rfl (fun _ _ _ => rfl) (fun _ _ _ _ => rfl) ?_
  refine Good.push .text rfl rfl rfl rfl rfl rfl rfl rfl (fun _ _ _ => rfl) (fun _ _ _ _ => rfl) ?_
  refine Good.push .text rfl rfl rfl rfl rfl rfl rfl rfl (fun _ _ _ => rfl) (fun _ _ _ _ => rfl) ?_
  refine Good.append .date rfl rfl rfl rfl rfl rfl rfl rfl (fun _ _ _ => rfl) (fun _ _ _ _ => rfl) ?_
  refine Good.push .text rfl rfl rfl rfl rfl rfl rfl rfl (fun _ _ _ => rfl) (fun _ _ _ _ => rfl) ?_
  refine Good.push .rdate rfl rfl rfl rfl rfl rfl rfl rfl (fun _ _ _ => rfl) (fun _ _ _ _ => rfl) ?_
  refine Good.push .rstatus rfl rfl rfl rfl rfl rfl rfl rfl (fun _ _ _ => rfl) (fun _ _ _ _ => rfl) ?_
  exact Good.base rfl rfl rfl rfl rfl rfl rfl rfl (fun _ _ => rfl) (fun _ _ => rfl)

theorem Standard.generated : Good Standard.members Standard.declaration Standard.fields (γ := SMap ContentLine × SMap ContentLine) (fun g s => Standard.ofComp ⟨s, g.1, g.2⟩) (fun g => do
      let a ← @field _ Comp.extSer c!"X-PROP" g.1
      let b ← @field _ Comp.extSer c!"IANA-PROP" g.2
      pure (a ++ b)) := by
  refine Good.req .date rfl rfl rfl rfl rfl rfl rfl (fun _ _ _ => rfl) (fun _ _ _ _ => rfl) ?_
  refine Good.req .offset rfl rfl rfl rfl rfl rfl rfl (fun _ _ _ => rfl) (fun _ _ _ _ => rfl) ?_
  refine Good.req .offset rfl rfl rfl rfl rfl rfl rfl (fun _ _ _ => rfl) (fun _ _ _ _ => rfl) ?_
  refine Good.opt .recur rfl rfl rfl rfl rfl rfl rfl (fun _ _ _ => rfl) (fun _ _ _ _ => rfl) ?_
  refine Good.push .text rfl rfl rfl rfl rfl rfl rfl rfl (fun _ _ _ => rfl) (fun _ _ _ _ => rfl) ?_
  refine Good.push .rdate rfl rfl rfl rfl rfl rfl rfl rfl (fun _ _ _ => rfl) (fun _ _ _ _ => rfl) ?_
  refine Good.push .text rfl rfl rfl rfl rfl rfl rfl rfl (fun _ _ _ => rfl) (fun _ _ _ _ => rfl) ?_
  exact Good.base rfl rfl rfl rfl rfl rfl rfl rfl (fun _ _ => rfl) (fun _ _ => rfl)

theorem Daylight.generated : Good Daylight.members Daylight.declaration Daylight.fields (γ := SMap ContentLine × SMap ContentLine) (fun g s => Daylight.ofComp ⟨s, g.1, g.2⟩) (fun g => do
      let a ← @field _ Comp.extSer c!"X-PROP" g.1
      let b ← @field _ Comp.extSer c!"IANA-PROP" g.2
      pure (a ++ b)) := by
  refine Good.req .date rfl rfl rfl rfl rfl rfl rfl (fun _ _ _ => rfl) (fun _ _ _ _ => rfl) ?_
  refine Good.req .offset rfl rfl rfl rfl rfl rfl rfl (fun _ _ _ => rfl) (fun _ _ _ _ => rfl) ?_
  refine Good.req .offset rfl rfl rfl rfl rfl rfl rfl (fun _ _ _ => rfl) (fun _ _ _ _ => rfl) ?_
  refine Good.opt .recur rfl rfl rfl rfl rfl rfl rfl (fun _ _ _ => rfl) (fun _ _ _ _ => rfl) ?_
  refine Good.push .text rfl rfl rfl rfl rfl rfl rfl rfl (fun _ _ _ => rfl) (fun _ _ _ _ => rfl) ?_
  refine Good.push .rdate rfl rfl rfl rfl rfl rfl rfl rfl (fun _ _ _ => rfl) (fun _ _ _ _ => rfl) ?_
  refine Good.push .text rfl rfl rfl rfl rfl rfl rfl rfl (fun _ _ _ => rfl) (fun _ _ _ _ => rfl) ?_
  exact Good.base rfl rfl rfl rfl rfl rfl rfl rfl (fun _ _ => rfl) (fun _ _ => rfl)

theorem VTimezone.generated : Good VTimezone.members VTimezone.declaration VTimezone.fields (γ := SMap ContentLine × SMap ContentLine) (fun g s => VTimezone.ofComp ⟨s, g.1, g.2⟩) (fun g => do
      let a ← @field _ Comp.extSer c!"X-PROP" g.1
      let b ← @field _ Comp.extSer c!"IANA-PROP" g.2
      pure (a ++ b)) := by
  refine Good.req .text rfl rfl rfl rfl rfl rfl rfl (fun _ _ _ => rfl) (fun _ _ _ _ => rfl) ?_
  refine Good.opt .dateTime rfl rfl rfl rfl rfl rfl rfl (fun _ _ _ => rfl) (fun _ _ _ _ => rfl) ?_
  refine Good.opt .uri rfl rfl rfl rfl rfl rfl rfl (fun _ _ _ => rfl) (fun _ _ _ _ => rfl) ?_
  refine Good.nested .standard rfl rfl rfl rfl rfl (fun _ _ _ => rfl) ?_
  refine Good.nested .daylight rfl rfl rfl rfl rfl (fun _ _ _ => rfl) ?_
  exact Good.base rfl rfl rfl rfl rfl rfl rfl rfl (fun _ _ => rfl) (fun _ _ => rfl)

theorem VTodo.generated : Good VTodo.members VTodo.declaration VTodo.fields (γ := SMap ContentLine × SMap ContentLine) (fun g s => VTodo.ofComp ⟨s, g.1, g.2⟩) (fun g => do
      let a ← @field _ Comp.extSer c!"X-PROP" g.1
      let b ← @field _ Comp.extSer c!"IANA-PROP" g.2
      pure (a ++ b)) := by
  refine Good.req .dateTime rfl rfl rfl rfl rfl rfl rfl (fun _ _ _ => rfl) (fun _ _ _ _ => rfl) ?_
  refine Good.req .text rfl rfl rfl rfl rfl rfl rfl (fun _ _ _ => rfl) (fun _ _ _ _ => rfl) ?_
  refine Good.opt .class_ rfl rfl rfl rfl rfl rfl rfl (fun _ _ _ => rfl) (fun _ _ _ _ => rfl) ?_
  refine Good.opt .dateTime rfl rfl rfl rfl rfl rfl rfl (fun _ _ _ => rfl) (fun _ _ _ _ => rfl) ?_
  refine Good.opt .dateTime rfl rfl rfl rfl rfl rfl rfl (fun _ _ _ => rfl) (fun _ _ _ _ => rfl) ?_
  refine Good.opt .date rfl rfl rfl rfl rfl rfl rfl (fun _ _ _ => rfl) (fun _ _ _ _ => rfl) ?_
  refine Good.opt .geo rfl rfl rfl rfl rfl rfl rfl (fun _ _ _ => rfl) (fun _ _ _ _ => rfl) ?_
  refine Good.opt .dateTime rfl rfl rfl rfl rfl rfl rfl (fun _ _ _ => rfl) (fun _ _ _ _ => rfl) ?_
  refine Good.opt .text rfl rfl rfl rfl rfl rfl rfl (fun _ _ _ => rfl) (fun _ _ _ _ => rfl) ?_
  refine Good.opt .uri rfl rfl rfl rfl rfl rfl rfl (fun _ _ _ => rfl) (fun _ _ _ _ => rfl) ?_
  refine Good.opt .u8 rfl rfl rfl rfl rfl rfl rfl (fun _ _ _ => rfl) (fun _ _ _ _ => rfl) ?_
  refine Good.opt .u8 rfl rfl rfl rfl rfl rfl rfl (fun _ _ _ => rfl) (fun _ _ _ _ => rfl) ?_
  refine Good.opt .date rfl rfl rfl rfl rfl rfl rfl (fun _ _ _ => rfl) (fun _ _ _ _ => rfl) ?_
  refine Good.opt .u32 rfl rfl rfl rfl rfl rfl rfl (fun _ _ _ => rfl) (fun _ _ _ _ => rfl) ?_
  refine Good.opt .status rfl rfl rfl rfl rfl rfl rfl (fun _ _ _ => rfl) (fun _ _ _ _ => rfl) ?_
  refine Good.opt .text rfl rfl rfl rfl rfl rfl rfl (fun _ _ _ => rfl) (fun _ _ _ _ => rfl) ?_
  refine Good.opt .uri rfl rfl rfl rfl rfl rfl rfl (fun _ _ _ => rfl) (fun _ _ _ _ => rfl) ?_
  refine Good.opt .recur rfl rfl rfl rfl rfl rfl rfl (fun _ _ _ => rfl) (fun _ _ _ _ => rfl) ?_
  refine Good.opt .date rfl rfl rfl rfl rfl rfl rfl (fun _ _ _ => rfl) (fun _ _ _ _ => rfl) ?_
  refine Good.opt .duration rfl rfl rfl rfl rfl rfl rfl (fun _ _ _ => rfl) (fun _ _ _ _ => rfl) ?_
  refine Good.push .text rfl rfl rfl rfl rfl rfl rfl rfl (fun _ _ _ => rfl) (fun _ _ _ _ => rfl) ?_
  refine Good.push .uri rfl rfl rfl rfl rfl rfl rfl rfl (fun _ _ _ => rfl) (fun _ _ _ _ => rfl) ?_
  refine Good.append .text rfl rfl rfl rfl rfl rfl rfl rfl (fun _ _ _ => rfl) (fun _ _ _ _ => rfl) ?_
  refine Good.push .text rfl rfl rfl rfl rfl rfl rfl rfl (fun _ _ _ => rfl) (fun _ _ _ _ => rfl) ?_
  refine Good.push .text rfl rfl rfl rfl rfl rfl rfl rfl (fun _ _ _ => rfl) (fun _ _ _ _ => rfl) ?_
  refine Good.append .date rfl rfl rfl rfl rfl rfl rfl rfl (fun _ _ _ => rfl) (fun _ _ _ _ => rfl) ?_
  refine Good.push .rstatus rfl rfl rfl rfl rfl rfl rfl rfl (fun _ _ _ => rfl) (fun _ _ _ _ => rfl) ?_
  refine Good.push .text rfl rfl rfl rfl rfl rfl rfl rfl (fun _ _ _ => rfl) (fun _ _ _ _ => rfl) ?_
  refine Good.append .text rfl rfl rfl rfl rfl rfl rfl rfl (fun _ _ _ => rfl) (fun _ _ _ _ => rfl) ?_
  refine Good.push .rdate rfl rfl rfl rfl rfl rfl rfl rfl (fun _ _ _ => rfl) (fun _ _ _ _ => rfl) ?_
  exact Good.base rfl rfl rfl rfl rfl rfl rfl rfl (fun _ _ => rfl) (fun _ _ => rfl)

theorem VCalendar.generated : Good VCalendar.members VCalendar.declaration VCalendar.fields (γ := SMap ContentLine × SMap ContentLine) (fun g s => VCalendar.ofComp ⟨s, g.1, g.2⟩) (fun g => do
      let a ← @field _ Comp.extSer c!"X-PROP" g.1
      let b ← @field _ Comp.extSer c!"IANA-PROP" g.2
      pure (a ++ b)) := by
  refine Good.req .text rfl rfl rfl rfl rfl rfl rfl (fun _ _ _ => rfl) (fun _ _ _ _ => rfl) ?_
  refine Good.req .text rfl rfl rfl rfl rfl rfl rfl (fun _ _ _ => rfl) (fun _ _ _ _ => rfl) ?_
  refine Good.opt .text rfl rfl rfl rfl rfl rfl rfl (fun _ _ _ => rfl) (fun _ _ _ _ => rfl) ?_
  refine Good.opt .text rfl rfl rfl rfl rfl rfl rfl (fun _ _ _ => rfl) (fun _ _ _ _ => rfl) ?_
  refine Good.nested .alarm rfl rfl rfl rfl rfl (fun _ _ _ => rfl) ?_
  refine Good.nested .event rfl rfl rfl rfl rfl (fun _ _ _ => rfl) ?_
  refine Good.nested .freebusy rfl rfl rfl rfl rfl (fun _ _ _ => rfl) ?_
  refine Good.nested .journal rfl rfl rfl rfl rfl (fun _ _ _ => rfl) ?_
  refine Good.nested .todo rfl rfl rfl rfl rfl (fun _ _ _ => rfl) ?_
  refine Good.nested .timezone rfl rfl rfl rfl rfl (fun _ _ _ => rfl) ?_
  exact Good.base rfl rfl rfl rfl rfl rfl rfl rfl (fun _ _ => rfl) (fun _ _ => rfl)

end

end Ikal
