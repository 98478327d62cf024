import Verif.Lemmas.Text
import Verif.Spec.Parse
import Verif.Derive

/-! # The derived `TryFrom<Vec<ContentLine>>` against its specification -/

namespace Ikal

open Nom Spec

namespace Field

/-- What the specification says of a field. -/
def Holds : (f : Field) → List ContentLine → f.T → Prop
  | req n _ _ p, ls, v => IsReq ls n p v
  | opt n _ _ p, ls, v => IsOpt ls n p v
  | push n _ _ p, ls, v => IsPush ls n p v
  | append n _ _ p, ls, v => IsAppend ls n p v
  | nested .., _, v => v = []

/-- The effect of the loop on a field, from an initial value. -/
def From : (f : Field) → f.T → List ContentLine → f.T → Prop
  | req .., v0, _, v => v = v0
  | opt n α _ p, v0, ls, v => ∃ ws : List α, (Spec.named n ls).map p = ws.map .ok ∧ v = ws.getLast?.or v0
  | push n α _ p, v0, ls, v => ∃ ws : List α, (Spec.named n ls).map p = ws.map .ok ∧ v = (show List α from v0) ++ ws
  | append n α _ p, v0, ls, v => ∃ wss : List (List α), (Spec.named n ls).map p = wss.map .ok ∧ v = (show List α from v0) ++ wss.flatten
  | nested .., v0, _, v => v = v0

theorem From.nil (f : Field) (v0 v : f.T) : f.From v0 [] v ↔ v = v0 := by
  cases f with
  | opt n α _ p => revert v0 v; intro (v0 : Option α) (v : Option α); simp [From, named]
  | push n α _ p => revert v0 v; intro (v0 : List α) (v : List α); simp [From, named]
  | append n α _ p => revert v0 v; intro (v0 : List α) (v : List α); simp [From, named]
  | _ => simp [From]

theorem named_cons_ne {n : Str} {l : ContentLine} {ls : List ContentLine} (h : l.key ≠ n) :
    named n (l :: ls) = named n ls := by simp [named, h]

theorem named_cons_eq {n : Str} {l : ContentLine} {ls : List ContentLine} (h : l.key = n) :
    named n (l :: ls) = l :: named n ls := by simp [named, h]

theorem From.cons_ne (f : Field) (v0 v : f.T) (l : ContentLine) (ls : List ContentLine)
    (h : f.parsed = true → l.key ≠ f.name) : f.From v0 (l :: ls) v ↔ f.From v0 ls v := by
  cases f with
  | nested => rfl
  | req => rfl
  | opt n α _ p => have h : l.key ≠ n := h rfl; simp only [From, named_cons_ne h]
  | push n α _ p => have h : l.key ≠ n := h rfl; simp only [From, named_cons_ne h]
  | append n α _ p => have h : l.key ≠ n := h rfl; simp only [From, named_cons_ne h]

theorem map_eq_cons {α : Type} {r : Res α} {rs : List (Res α)} {ws : List α} :
    r :: rs = ws.map .ok ↔ ∃ a as, r = .ok a ∧ rs = as.map .ok ∧ ws = a :: as := by
  cases ws with
  | nil => simp
  | cons a as => simp

theorem getLast?_or_cons {α : Type} (a : α) (as : List α) (v : Option α) :
    (a :: as).getLast?.or v = as.getLast?.or (some a) := by
  induction as generalizing a with
  | nil => rfl
  | cons b as ih =>
    rw [List.getLast?_cons_cons, ih b]
    cases as with
    | nil => simp
    | cons c as =>
      rw [List.getLast?_cons_cons]
      cases h : (c :: as).getLast? with
      | none => simp at h
      | some x => simp

theorem From.cons_eq (f : Field) (v0 v : f.T) (l : ContentLine) (ls : List ContentLine)
    (hp : f.parsed = true) (h : l.key = f.name) :
    f.From v0 (l :: ls) v ↔ ∃ v1, f.stepField l v0 = .ok v1 ∧ f.From v1 ls v := by
  cases f with
  | nested => simp [parsed] at hp
  | req n α s p => simp [From, stepField]
  | opt n α s p =>
    replace h : l.key = n := h
    revert v0 v; intro (v0 : Option α) (v : Option α)
    simp only [From, stepField, named_cons_eq h, List.map_cons, map_eq_cons]
    constructor
    · rintro ⟨ws, ⟨a, as, h1, h2, rfl⟩, hv⟩
      exact ⟨some a, by simp [h1], as, h2, by rw [hv, getLast?_or_cons]⟩
    · rintro ⟨v1, h1, as, h2, hv⟩
      cases hp : p l with
      | ok a => rw [hp] at h1; simp at h1; subst h1; exact ⟨a :: as, ⟨a, as, rfl, h2, rfl⟩, by rw [hv, getLast?_or_cons]⟩
      | err e => rw [hp] at h1; simp at h1
      | panic => rw [hp] at h1; simp at h1
  | push n α s p =>
    replace h : l.key = n := h
    revert v0 v; intro (v0 : List α) (v : List α)
    simp only [From, stepField, named_cons_eq h, List.map_cons, map_eq_cons]
    constructor
    · rintro ⟨ws, ⟨a, as, h1, h2, rfl⟩, hv⟩
      exact ⟨_, by rw [h1]; rfl, as, h2, by rw [hv]; exact (List.append_cons _ _ _)⟩
    · rintro ⟨v1, h1, as, h2, hv⟩
      cases hp : p l with
      | ok a =>
        rw [hp] at h1; simp at h1; subst h1
        exact ⟨a :: as, ⟨a, as, rfl, h2, rfl⟩, by rw [hv]; exact (List.append_cons _ _ _).symm⟩
      | err e => rw [hp] at h1; simp at h1
      | panic => rw [hp] at h1; simp at h1
  | append n α s p =>
    replace h : l.key = n := h
    revert v0 v; intro (v0 : List α) (v : List α)
    simp only [From, stepField, named_cons_eq h, List.map_cons, map_eq_cons]
    constructor
    · rintro ⟨ws, ⟨a, as, h1, h2, rfl⟩, hv⟩
      refine ⟨_, by rw [h1]; rfl, as, h2, by rw [hv, List.flatten_cons]; exact (List.append_assoc _ _ _).symm⟩
    · rintro ⟨v1, h1, as, h2, hv⟩
      cases hp : p l with
      | ok a =>
        rw [hp] at h1; simp at h1; subst h1
        exact ⟨a :: as, ⟨a, as, rfl, h2, rfl⟩, by rw [hv, List.flatten_cons]; exact (List.append_assoc _ _ _)⟩
      | err e => rw [hp] at h1; simp at h1
      | panic => rw [hp] at h1; simp at h1

theorem map_ok_last {α : Type} {ls : List ContentLine} {p : ContentLine → Res α} {ws : List α}
    (h : ls.map p = ws.map .ok) : (ls.getLast?).map p = (ws.getLast?).map .ok := by
  rw [← List.getLast?_map, ← List.getLast?_map, h]

theorem exists_map_ok {α : Type} {ls : List ContentLine} {p : ContentLine → Res α}
    (h : ∀ l ∈ ls, ∃ a, p l = .ok a) : ∃ ws : List α, ls.map p = ws.map .ok := by
  induction ls with
  | nil => exact ⟨[], rfl⟩
  | cons l ls ih =>
    obtain ⟨a, ha⟩ := h l (by simp)
    obtain ⟨ws, hws⟩ := ih fun x hx => h x (by simp [hx])
    exact ⟨a :: ws, by simp [ha, hws]⟩

/-- Initial value and loop together are the specification. -/
theorem init_from (f : Field) (ls : List ContentLine) (v : f.T) :
    (∃ v0, f.initField ls = .ok v0 ∧ f.From v0 ls v) ↔ f.Holds ls v := by
  cases f with
  | req n α s p =>
    simp only [initField, From, Holds, IsReq, lastLine, lastNamed, named]
    cases h : (List.filter (fun l => decide (l.key = n)) ls).getLast? with
    | none => simp
    | some l => simp
  | opt n α s p =>
    simp only [initField, From, Holds, IsOpt, lastNamed]
    constructor
    · rintro ⟨v0, h0, ws, hws, hv⟩
      simp at h0; subst h0
      have hl := map_ok_last hws
      refine ⟨fun l hl => ?_, fun h => ?_, fun l h => ?_⟩
      · have : p l ∈ (named n ls).map p := List.mem_map_of_mem hl
        rw [hws, List.mem_map] at this
        obtain ⟨a, _, ha⟩ := this
        exact ⟨a, ha.symm⟩
      · rw [h] at hl
        cases hw : ws.getLast? with
        | none => rw [hw] at hv; simpa using hv
        | some a => rw [hw] at hl; simp at hl
      · rw [h] at hl
        cases hw : ws.getLast? with
        | none => rw [hw] at hl; simp at hl
        | some a => rw [hw] at hl hv; simp at hl hv; exact ⟨a, hl, hv⟩
    · rintro ⟨h1, h2, h3⟩
      obtain ⟨ws, hws⟩ := exists_map_ok h1
      refine ⟨_, rfl, ws, hws, ?_⟩
      have hl := map_ok_last hws
      cases h : (named n ls).getLast? with
      | none =>
        rw [h2 h]; rw [h] at hl
        cases hw : ws.getLast? with
        | none => rfl
        | some a => rw [hw] at hl; simp at hl
      | some l =>
        obtain ⟨a, ha, hv⟩ := h3 l h
        rw [h] at hl
        cases hw : ws.getLast? with
        | none => rw [hw] at hl; simp at hl
        | some b => rw [hw] at hl; simp [ha] at hl; subst hl; simpa using hv
  | push n α s p =>
    simp only [initField, From, Holds, IsPush]
    constructor
    · rintro ⟨v0, h0, ws, hws, hv⟩
      simp at h0; subst h0; simp at hv; subst hv; exact hws
    · intro h; exact ⟨_, rfl, v, h, by simp⟩
  | append n α s p =>
    simp only [initField, From, Holds, IsAppend]
    constructor
    · rintro ⟨v0, h0, ws, hws, hv⟩
      simp at h0; subst h0; simp at hv; subst hv; exact ⟨ws, hws, rfl⟩
    · rintro ⟨ws, hws, hv⟩; exact ⟨_, rfl, ws, hws, by simpa using hv⟩
  | nested n α s => simp [initField, From, Holds]

end Field

/-- The names the derived parser knows. -/
def knownNames (fs : List Field) : List Str := (fs.filter fun f => f.parsed).map Field.name

namespace Slots

/-- The specification of all fields. -/
def Holds : (fs : List Field) → List ContentLine → Slots fs → Prop
  | [], _, _ => True
  | f :: fs, ls, (v, vs) => f.Holds ls v ∧ Holds fs ls vs

/-- The effect of the loop on all fields. -/
def From : (fs : List Field) → Slots fs → List ContentLine → Slots fs → Prop
  | [], _, _, _ => True
  | f :: fs, (v0, vs0), ls, (v, vs) => f.From v0 ls v ∧ From fs vs0 ls vs

theorem From.nil (fs : List Field) (s0 s : Slots fs) : From fs s0 [] s ↔ s = s0 := by
  induction fs with
  | nil => cases s; cases s0; simp [From]
  | cons f fs ih =>
    obtain ⟨v0, vs0⟩ := s0
    obtain ⟨v, vs⟩ := s
    simp [From, Field.From.nil, ih, Prod.ext_iff]

theorem From.cons_ne (fs : List Field) (s0 s : Slots fs) (l : ContentLine) (ls : List ContentLine)
    (h : l.key ∉ knownNames fs) : From fs s0 (l :: ls) s ↔ From fs s0 ls s := by
  induction fs with
  | nil => rfl
  | cons f fs ih =>
    obtain ⟨v0, vs0⟩ := s0
    obtain ⟨v, vs⟩ := s
    simp only [From]
    have h1 : f.parsed = true → l.key ≠ f.name := by
      intro hp e; apply h; simp [knownNames, hp, e]
    have h2 : l.key ∉ knownNames fs := by
      intro hm; apply h; unfold knownNames at hm ⊢
      rw [List.filter_cons]; split
      · simp only [List.map_cons]; exact List.mem_cons_of_mem _ hm
      · exact hm
    rw [Field.From.cons_ne f v0 v l ls h1, ih vs0 vs h2]

theorem step_none (fs : List Field) (s0 : Slots fs) (l : ContentLine) (h : l.key ∉ knownNames fs) :
    step fs l s0 = .ok none := by
  induction fs with
  | nil => rfl
  | cons f fs ih =>
    obtain ⟨v0, vs0⟩ := s0
    have h1 : ¬ (f.parsed = true ∧ l.key = f.name) := by
      rintro ⟨hp, e⟩; apply h; simp [knownNames, hp, e]
    have h2 : l.key ∉ knownNames fs := by
      intro hm; apply h; unfold knownNames at hm ⊢
      rw [List.filter_cons]; split
      · simp only [List.map_cons]; exact List.mem_cons_of_mem _ hm
      · exact hm
    simp only [step, if_neg h1, ih vs0 h2]; rfl

theorem From.cons_eq (fs : List Field) (s0 s : Slots fs) (l : ContentLine) (ls : List ContentLine)
    (hd : (knownNames fs).Nodup) (h : l.key ∈ knownNames fs) :
    From fs s0 (l :: ls) s ↔ ∃ s1, step fs l s0 = .ok (some s1) ∧ From fs s1 ls s := by
  induction fs with
  | nil => simp [knownNames] at h
  | cons f fs ih =>
    obtain ⟨v0, vs0⟩ := s0
    obtain ⟨v, vs⟩ := s
    simp only [From, step]
    by_cases hf : f.parsed = true ∧ l.key = f.name
    · rw [if_pos hf, Field.From.cons_eq f v0 v l ls hf.1 hf.2]
      have hn : l.key ∉ knownNames fs := by
        intro hm
        unfold knownNames at hd
        rw [List.filter_cons_of_pos hf.1, List.map_cons, List.nodup_cons] at hd
        exact hd.1 (hf.2 ▸ hm)
      rw [From.cons_ne fs vs0 vs l ls hn]
      constructor
      · rintro ⟨⟨v1, h1, h2⟩, h3⟩; exact ⟨(v1, vs0), by simp [h1], h2, h3⟩
      · rintro ⟨s1, h1, h2⟩
        cases hs : f.stepField l v0 with
        | ok v1 => rw [hs] at h1; simp at h1; subst h1; exact ⟨⟨v1, rfl, h2.1⟩, h2.2⟩
        | err e => rw [hs] at h1; simp at h1
        | panic => rw [hs] at h1; simp at h1
    · rw [if_neg hf]
      have h' : l.key ∈ knownNames fs := by
        unfold knownNames at h ⊢
        rw [List.filter_cons] at h
        split at h
        · rename_i hp
          simp only [List.map_cons, List.mem_cons] at h
          rcases h with h | h
          · exact absurd ⟨hp, h⟩ hf
          · exact h
        · exact h
      have hd' : (knownNames fs).Nodup := by
        unfold knownNames at hd ⊢
        rw [List.filter_cons] at hd
        split at hd
        · simp only [List.map_cons, List.nodup_cons] at hd; exact hd.2
        · exact hd
      rw [Field.From.cons_ne f v0 v l ls (fun hp e => hf ⟨hp, e⟩), ih vs0 vs hd' h']
      constructor
      · rintro ⟨h1, s1, h2, h3⟩; exact ⟨(v0, s1), by simp [h2], h1, h3⟩
      · rintro ⟨s1, h1, h2⟩
        cases hs : step fs l vs0 with
        | ok o =>
          rw [hs] at h1
          cases o with
          | none => simp at h1
          | some t => simp at h1; subst h1; exact ⟨h2.1, t, rfl, h2.2⟩
        | err e => rw [hs] at h1; simp at h1
        | panic => rw [hs] at h1; simp at h1

theorem init_from (fs : List Field) (ls : List ContentLine) (s : Slots fs) :
    (∃ s0, init fs ls = .ok s0 ∧ From fs s0 ls s) ↔ Holds fs ls s := by
  induction fs with
  | nil => simp [init, From, Holds]
  | cons f fs ih =>
    obtain ⟨v, vs⟩ := s
    simp only [init, From, Holds, ← ih, ← Field.init_from, Res.bind_eq_ok]
    constructor
    · rintro ⟨s0, ⟨v0, h1, vs0, h2, h3⟩, h4⟩
      simp at h3; subst h3
      exact ⟨⟨v0, h1, h4.1⟩, vs0, h2, h4.2⟩
    · rintro ⟨⟨v0, h1, h2⟩, vs0, h3, h4⟩
      exact ⟨(v0, vs0), ⟨v0, h1, vs0, h3, rfl⟩, h2, h4⟩

end Slots

namespace Comp

/-- The specification of a whole component. -/
def Holds {fs : List Field} (ls : List ContentLine) (c : Comp fs) : Prop :=
  Slots.Holds fs ls c.slots ∧ IsExt (knownNames fs) IsX ls c.xProp ∧ IsExt (knownNames fs) (fun k => ¬ IsX k) ls c.ianaProp

/-- The lines filed into an extension map. -/
def extLines (fs : List Field) (x : Bool) (ls : List ContentLine) : List ContentLine :=
  ls.filter fun l => decide (l.key ∉ knownNames fs) && ((stripPrefix c!"X-" l.key).isSome == x)

theorem loop_ok {fs : List Field} (hd : (knownNames fs).Nodup) (c0 c : Comp fs) (ls : List ContentLine) :
    loop c0 ls = .ok c ↔ Slots.From fs c0.slots ls c.slots ∧
      c.xProp = (extLines fs true ls).foldl (fun m l => SMap.insert m l.key l) c0.xProp ∧
      c.ianaProp = (extLines fs false ls).foldl (fun m l => SMap.insert m l.key l) c0.ianaProp := by
  induction ls generalizing c0 with
  | nil =>
    simp only [loop, Slots.From.nil, extLines, List.filter_nil, List.foldl_nil, Res.ok.injEq]
    constructor
    · rintro rfl; simp
    · rintro ⟨h1, h2, h3⟩; cases c; cases c0; simp_all
  | cons l ls ih =>
    simp only [loop, Res.bind_eq_ok]
    by_cases h : l.key ∈ knownNames fs
    · rw [Slots.From.cons_eq fs _ _ l ls hd h]
      have he : ∀ x, extLines fs x (l :: ls) = extLines fs x ls := by intro x; simp [extLines, h]
      simp only [he, step, Res.bind_eq_ok]
      constructor
      · rintro ⟨c1, ⟨o, h1, h2⟩, h3⟩
        cases o with
        | some s1 =>
          simp at h2; subst h2
          have := (ih _).1 h3
          exact ⟨⟨s1, h1, this.1⟩, this.2.1, this.2.2⟩
        | none =>
          exfalso
          -- a known key never gives `none`
          clear ih h2 h3
          revert h1
          generalize c0.slots = s0
          induction fs with
          | nil => simp [knownNames] at h
          | cons f fs ihf =>
            obtain ⟨v0, vs0⟩ := s0
            simp only [Slots.step]
            by_cases hf : f.parsed = true ∧ l.key = f.name
            · rw [if_pos hf]; cases f.stepField l v0 <;> simp
            · rw [if_neg hf]
              have h' : l.key ∈ knownNames fs := by
                unfold knownNames at h ⊢
                rw [List.filter_cons] at h
                split at h
                · rename_i hp
                  simp only [List.map_cons, List.mem_cons] at h
                  rcases h with h | h
                  · exact absurd ⟨hp, h⟩ hf
                  · exact h
                · exact h
              have hd' : (knownNames fs).Nodup := by
                unfold knownNames at hd ⊢
                rw [List.filter_cons] at hd
                split at hd
                · simp only [List.map_cons, List.nodup_cons] at hd; exact hd.2
                · exact hd
              intro e
              cases hs : Slots.step fs l vs0 with
              | ok o =>
                cases o with
                | none => exact ihf hd' ⟨vs0, [], []⟩ ⟨vs0, [], []⟩ h' (by intro x; simp [extLines, h']) ⟨vs0, [], []⟩ vs0 hs
                | some t => rw [hs] at e; simp at e
              | err e' => rw [hs] at e; simp at e
              | panic => rw [hs] at e; simp at e
      · rintro ⟨⟨s1, h1, h2⟩, h3, h4⟩
        exact ⟨{ c0 with slots := s1 }, ⟨some s1, h1, rfl⟩, (ih _).2 ⟨h2, h3, h4⟩⟩
    · rw [Slots.From.cons_ne fs _ _ l ls h]
      simp only [step, Slots.step_none fs _ l h, Res.bind_ok]
      by_cases hx : (stripPrefix c!"X-" l.key).isSome = true
      · simp only [hx, if_true, Res.pure_eq, Res.ok.injEq]
        have he1 : extLines fs true (l :: ls) = l :: extLines fs true ls := by simp [extLines, h, hx]
        have he2 : extLines fs false (l :: ls) = extLines fs false ls := by
          unfold extLines; rw [List.filter_cons_of_neg (by simp [h, hx])]
        rw [he1, he2]
        simp [ih]
      · simp only [hx, Bool.false_eq_true, if_false, Res.pure_eq, Res.ok.injEq]
        have he1 : extLines fs false (l :: ls) = l :: extLines fs false ls := by
          simp at hx; simp [extLines, h, hx]
        have he2 : extLines fs true (l :: ls) = extLines fs true ls := by simp at hx; simp [extLines, h, hx]
        rw [he1, he2]
        simp [ih]

theorem stripX (k : Str) : (stripPrefix c!"X-" k).isSome = true ↔ IsX k := by
  unfold IsX
  constructor
  · intro h
    obtain ⟨r, hr⟩ := Option.isSome_iff_exists.1 h
    exact ⟨r, (stripPrefix_some.1 hr).symm⟩
  · rintro ⟨r, hr⟩
    rw [stripPrefix_some.2 hr.symm]; rfl

theorem foldl_insert_pairs (ls : List ContentLine) (m : SMap ContentLine) :
    ls.foldl (fun m l => SMap.insert m l.key l) m =
      (ls.map fun l => (l.key, l)).foldl (fun m p => SMap.insert m p.1 p.2) m := by
  rw [List.foldl_map]

theorem get?_ext (ls : List ContentLine) (k : Str) :
    SMap.get? (ls.foldl (fun m l => SMap.insert m l.key l) []) k = lastNamed k ls := by
  rw [foldl_insert_pairs, SMap.get?_foldl, lastNamed, named]
  rw [List.filter_map, List.getLast?_map]
  simp only [SMap.get?_nil, Option.or_none, Option.map_map]
  exact Option.map_id'

theorem isExt_iff (fs : List Field) (x : Bool) (sel : Str → Prop)
    (hsel : ∀ k, sel k ↔ (stripPrefix c!"X-" k).isSome = x) (ls : List ContentLine) (m : SMap ContentLine) :
    IsExt (knownNames fs) sel ls m ↔ m = (extLines fs x ls).foldl (fun m l => SMap.insert m l.key l) [] := by
  have key : IsExt (knownNames fs) sel ls ((extLines fs x ls).foldl (fun m l => SMap.insert m l.key l) []) := by
    refine ⟨by rw [foldl_insert_pairs]; exact SMap.foldl_wf _ _ SMap.wf_nil, fun k hk hs => ?_, fun k hk => ?_⟩
    · rw [get?_ext, lastNamed, lastNamed, named, named, extLines, List.filter_filter]
      congr 1
      apply List.filter_congr
      intro l _
      have hx := (hsel k).1 hs
      by_cases hl : l.key = k
      · subst hl; simp [hk, hx]
      · simp [hl]
    · rw [get?_ext, lastNamed, named, extLines, List.filter_filter]
      rw [List.getLast?_eq_none_iff, List.filter_eq_nil_iff]
      intro l _
      by_cases hl : l.key = k
      · subst hl
        rcases hk with hk | hk
        · simp [hk]
        · have := mt (hsel _).2 hk
          simp [this]
      · simp [hl]
  constructor
  · rintro ⟨h1, h2, h3⟩
    refine SMap.ext h1 key.1 fun k => ?_
    by_cases hk : k ∈ knownNames fs ∨ ¬ sel k
    · rw [h3 k hk, key.2.2 k hk]
    · simp at hk
      rw [h2 k hk.1 hk.2, key.2.1 k hk.1 hk.2]
  · rintro rfl; exact key

/-- The derived conversion against its specification. -/
theorem tryFrom_ok {fs : List Field} (hd : (knownNames fs).Nodup) (ls : List ContentLine) (c : Comp fs) :
    tryFrom fs ls = .ok c ↔ Holds ls c := by
  simp only [tryFrom, Res.bind_eq_ok, Holds, ← Slots.init_from]
  rw [isExt_iff fs true IsX (fun k => (stripX k).symm), isExt_iff fs false (fun k => ¬ IsX k) (fun k => by
    rw [← stripX]; simp)]
  constructor
  · rintro ⟨s, h1, h2⟩
    have := (loop_ok hd _ _ _).1 h2
    exact ⟨⟨s, h1, this.1⟩, this.2⟩
  · rintro ⟨⟨s, h1, h2⟩, h3⟩
    exact ⟨s, h1, (loop_ok hd _ _ _).2 ⟨h2, h3⟩⟩

end Comp

end Ikal
