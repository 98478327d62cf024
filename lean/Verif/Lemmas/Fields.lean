import Verif.Lemmas.Values

/-!
# Fields of components whose values survive
-/

namespace Ikal

open Nom Spec

set_option linter.unusedSectionVars false
set_option linter.unusedSimpArgs false

theorem named_self (n : Str) (m : SMap Str) (s : Str) : named n [⟨n, m, s⟩] = [⟨n, m, s⟩] := by simp [named]

theorem isReq_line {α : Type} {n : Str} {m : SMap Str} {s : Str} {p : ContentLine → Res α} {v : α} (h : p ⟨n, m, s⟩ = .ok v) :
    IsReq [⟨n, m, s⟩] n p v := ⟨_, by simp [lastNamed, named_self], h⟩
theorem isOpt_line {α : Type} {n : Str} {m : SMap Str} {s : Str} {p : ContentLine → Res α} {v : α} (h : p ⟨n, m, s⟩ = .ok v) :
    IsOpt [⟨n, m, s⟩] n p (some v) := by
  refine ⟨?_, ?_, ?_⟩
  · rw [named_self]; simp; exact ⟨v, h⟩
  · simp [lastNamed, named_self]
  · simp only [lastNamed, named_self]
    intro l hl
    simp at hl
    subst hl
    exact ⟨v, h, rfl⟩
theorem isOpt_nil {α : Type} {n : Str} {p : ContentLine → Res α} : IsOpt [] n p none := by
  simp [IsOpt, named, lastNamed]

namespace Field

/-- The value `v` is written as property lines that are read as `w`. -/
def Lives (f : Field) (v w : f.T) : Prop := ∃ l, f.Written v l ∧ f.Holds l w

theorem lives_req {n : Str} {α : Type} {s : Ser α} {p : ContentLine → Res α} {v : α} (h : Survives p v) :
    (Field.req n α s p).Lives v v := by
  obtain ⟨m, t, hw, hne, hp⟩ := h
  refine ⟨_, ⟨m, t, hw, rfl⟩, ?_⟩
  rw [lineOf, if_neg hne]
  exact isReq_line (hp n)

theorem lives_opt {n : Str} {α : Type} {s : Ser α} {p : ContentLine → Res α} {v : Option α} (h : ∀ a ∈ v, Survives p a) :
    (Field.opt n α s p).Lives v v := by
  cases v with
  | none => exact ⟨[], rfl, isOpt_nil⟩
  | some a =>
    obtain ⟨m, t, hw, hne, hp⟩ := h a rfl
    refine ⟨_, ⟨m, t, hw, rfl⟩, ?_⟩
    rw [lineOf, if_neg hne]
    exact isOpt_line (hp n)

theorem lives_push {n : Str} {α : Type} {s : Ser α} {p : ContentLine → Res α} {v : List α} (h : v.length ≤ 1)
    (h' : ∀ a ∈ v, Survives p a) : (Field.push n α s p).Lives v v := by
  match v, h, h' with
  | [], _, _ => exact ⟨[], rfl, by simp [Holds, IsPush, named]⟩
  | [a], _, h' =>
    obtain ⟨m, t, hw, hne, hp⟩ := h' a (by simp)
    refine ⟨_, ⟨m, t, hw, rfl⟩, ?_⟩
    rw [lineOf, if_neg hne]
    show IsPush _ _ _ _
    rw [IsPush, named_self]
    simp [hp]

theorem lives_push_nil {n : Str} {α : Type} {s : Ser α} {p : ContentLine → Res α} {v : List α} (h : v = []) :
    (Field.push n α s p).Lives v v := lives_push (by simp [h]) (by simp [h])

theorem lives_nested {n : Str} {α : Type} {s : Ser α} {v : List α} (h : v = []) : (Field.nested n α s).Lives v v :=
  ⟨[], ⟨h, rfl⟩, h⟩

/-- Values on one line, separated by commas. -/
theorem lives_append {n : Str} {α : Type} {s : Ser α} {q : Str → Res α} {p : ContentLine → Res (List α)} {v : List α}
    {str : α → Str} {m : α → SMap Str}
    (hp : ∀ l, p l = Res.mapM' q (splitOn ',' l.value))
    (hw : ∀ a ∈ v, WrittenAs a (m a) (str a)) (hc : ∀ a ∈ v, ',' ∉ str a) (hq : ∀ a ∈ v, q (str a) = .ok a)
    (hne : ∀ a, v = [a] → str a ≠ []) : (Field.append n α s p).Lives v v := by
  have key : v ≠ [] → ∀ m', p ⟨n, m', join [','] (v.map str)⟩ = .ok v := by
    intro hv m'
    rw [hp]
    simp only
    rw [splitOn_join (by simpa using hv), mapM'_all2]
    · clear hw hc hne hv
      induction v with
      | nil => exact .nil
      | cons a v ih => exact .cons (hq a (by simp)) (ih fun b hb => hq b (by simp [hb]))
    · intro x hx
      obtain ⟨a, ha, rfl⟩ := List.mem_map.1 hx
      exact hc a ha
  have key2 : ∀ m', v ≠ [] → join [','] (v.map str) ≠ [] → IsAppend (lineOf n m' (join [','] (v.map str))) n p v := by
    intro m' hv hj
    rw [lineOf, if_neg hj]
    refine ⟨[v], ?_, by simp⟩
    rw [named_self]
    simp [key hv]
  match v, hw, hc, hq, hne, key, key2 with
  | [], _, _, _, _, _, _ => exact ⟨[], rfl, [], by simp [named], by simp⟩
  | [a], hw, _, _, hne, _, key2 =>
    exact ⟨_, ⟨m a, str a, hw a (by simp), rfl⟩, key2 _ (by simp) (by simpa [join] using hne a rfl)⟩
  | a :: b :: v, hw, hc, hq, hne, key, key2 =>
    refine ⟨_, ⟨(a :: b :: v).map str, ?_, rfl⟩, key2 _ (by simp) (by simp [join])⟩
    clear key key2 hne hq hc
    generalize a :: b :: v = v at hw
    induction v with
    | nil => exact .nil
    | cons a v ih => exact .cons ⟨(hw a (by simp)).ical, (hw a (by simp)).clean⟩ (ih fun c hc => hw c (by simp [hc]))

variable [Platform]

theorem lives_exdate {n : Str} {v : List Date} (h : ∀ a ∈ v, PlainDate a) : (Field.append n Date inferInstance exdate).Lives v v :=
  lives_append (str := Date.toStr) (m := dateParams) (fun _ => rfl) (fun a _ => written_date a) (fun a _ => (free_dateOrTime a).comma)
    (fun a ha => date_plain (h a ha)) (fun a _ => dateOrTime_ne a)

theorem period_good {p : Period} (h : GoodPeriod p) : period p.toStr = .ok p := by
  cases p with
  | startEnd s e => exact C38_start_end s e h.1 h.2
  | startDur s d => exact C38_start_duration s h.1 d h.2.1 h.2.2

theorem lives_freebusy {n : Str} {v : List Period} (h : ∀ a ∈ v, GoodPeriod a) :
    (Field.append n Period inferInstance freebusy).Lives v v :=
  lives_append (str := Period.toStr) (m := fun _ => []) (fun _ => rfl) (fun a _ => written_period a) (fun a _ => (free_period a).comma)
    (fun a ha => period_good (h a ha)) (fun a _ => period_ne a)

theorem textListProp_eq (l : ContentLine) : textListProp l = Res.mapM' (fun s => .ok (Text.ofStr s)) (splitOn ',' l.value) := by
  rw [mapM'_ok (g := Text.ofStr) (fun _ _ => rfl)]
  rfl

theorem lives_texts {n : Str} {v : List Text} (h : GoodTexts v) : (Field.append n Text inferInstance textListProp).Lives v v := by
  obtain ⟨h1, h2⟩ := h
  refine lives_append (str := fun t => t.text) (m := fun _ => []) textListProp_eq (fun a ha => ?_) (fun a ha => (h1 a ha).2.1.2.1)
    (fun a ha => ?_) (fun a e he => ?_)
  · obtain ⟨p, q, r⟩ := h1 a ha
    have := written_text (t := a) r (by rw [p]; exact safeParams_nil)
    rwa [p, escape_plain q] at this
  · obtain ⟨p, q, r⟩ := h1 a ha
    show Res.ok (⟨[], a.text⟩ : Text) = _
    rw [← p]
  · obtain ⟨p, q, r⟩ := h1 a (by simp [e])
    apply h2
    rw [e]
    obtain ⟨ps, tx⟩ := a
    simp only at p he
    rw [p, he]

end Field

namespace Slots

/-- The values `v` are written as property lines that are read as `w`. -/
def Lives (fs : List Field) (v w : Slots fs) : Prop := ∃ ls, Reads fs v w ls

theorem Lives.nil (v w : Slots []) : Lives [] v w := ⟨[], rfl⟩

theorem Lives.cons {f : Field} {fs : List Field} {v w : f.T} {vs ws : Slots fs} (h : f.Lives v w) (h' : Lives fs vs ws) :
    Lives (f :: fs) (v, vs) (w, ws) := by
  obtain ⟨l, h1, h2⟩ := h
  obtain ⟨l', h3⟩ := h'
  exact ⟨_, l, l', h1, h2, h3, rfl⟩

end Slots

theorem Field.Written.known {f : Field} {v : f.T} {ls : List ContentLine} (h : f.Written v ls) : ls = [] ∨ f.parsed = true := by
  cases f with
  | nested n α s => exact .inl h.2
  | _ => exact .inr rfl

theorem Slots.Written.known {fs : List Field} {v : Slots fs} {ls : List ContentLine} (h : Slots.Written fs v ls) :
    ∀ l ∈ ls, l.key ∈ knownNames fs := by
  induction fs generalizing ls with
  | nil => cases h; simp
  | cons f fs ih =>
    obtain ⟨v, vs⟩ := v
    obtain ⟨l, l', h1, h2, rfl⟩ := h
    intro x hx
    unfold knownNames
    rw [List.filter_cons]
    rcases List.mem_append.1 hx with hx | hx
    · rcases h1.known with e | e
      · rw [e] at hx; cases hx
      · rw [if_pos e, h1.keys x hx]; simp
    · have := ih h2 x hx
      unfold knownNames at this
      split
      · exact List.mem_cons_of_mem _ this
      · exact this

theorem knownNames_nodup {fs : List Field} (hd : (fs.map Field.name).Nodup) : (knownNames fs).Nodup :=
  hd.sublist (List.filter_sublist.map _)

/-- What the lines written for a component are read as. -/
theorem Comp.tryFrom_of_reads {fs : List Field} (hd : (fs.map Field.name).Nodup) {v w : Slots fs} {ls : List ContentLine}
    (h : Slots.Reads fs v w ls) : Comp.tryFrom fs ls = .ok ⟨w, [], []⟩ := by
  have hx : ∀ sel, IsExt (knownNames fs) sel ls [] := by
    intro sel
    refine ⟨SMap.wf_nil, fun k hk' _ => ?_, fun _ _ => rfl⟩
    rw [lastNamed, Slots.named_eq_nil]
    · rfl
    · intro l hl e
      exact hk' (e ▸ h.written.known l hl)
  exact (Comp.tryFrom_ok (knownNames_nodup hd) ls _).2 ⟨Slots.Holds.of_reads hd h, hx _, hx _⟩

end Ikal
