import Verif.Spec.Fine
import Verif.Props.Abnf
import Verif.Props.Output
import Verif.Props.Float
import Verif.TestPlatform

/-!
# C100: what is written is RFC 5545 text
-/

set_option linter.unusedSectionVars false

namespace Ikal

open Nom Spec Spec.Abnf

instance (c : Char) : Decidable (Control c) := by unfold Control; infer_instance
instance (c : Char) : Decidable (TokenChar c) := by unfold TokenChar; infer_instance
instance (c : Char) : Decidable (SafeChar c) := by unfold SafeChar; infer_instance
instance (s : Str) : Decidable (NoControl s) := by unfold NoControl; infer_instance

/-! ## Texts -/

theorem Spec.Abnf.NoControl.nil : NoControl [] := fun c hc => by cases hc

theorem Spec.Abnf.NoControl.lit {s : Str} (h : s.all (fun c => decide (¬ Control c)) = true) : NoControl s := fun c hc => by
  simpa using List.all_eq_true.1 h c hc

theorem Spec.Abnf.NoControl.append {a b : Str} (ha : NoControl a) (hb : NoControl b) : NoControl (a ++ b) := fun c hc => by
  rcases List.mem_append.1 hc with h | h
  · exact ha c h
  · exact hb c h

theorem Spec.Abnf.NoControl.cons {a : Char} {b : Str} (ha : ¬ Control a) (hb : NoControl b) : NoControl (a :: b) := fun c hc => by
  rcases List.mem_cons.1 hc with rfl | h
  · exact ha
  · exact hb c h

theorem Spec.Abnf.NoControl.of_subset {a b : Str} (hb : NoControl b) (h : ∀ c ∈ a, c ∈ b) : NoControl a := fun c hc => hb c (h c hc)

theorem Spec.Abnf.NoControl.join {sep : Str} (hs : NoControl sep) {l : List Str} (h : ∀ t ∈ l, NoControl t) : NoControl (Ikal.join sep l) := by
  induction l with
  | nil => exact .nil
  | cons a l ih =>
    cases l with
    | nil => exact h a List.mem_cons_self
    | cons b l =>
      exact ((h a List.mem_cons_self).append hs).append (ih fun t ht => h t (List.mem_cons_of_mem _ ht))

theorem nctl_digitChar (n : Nat) : ¬ Control (digitChar (n % 10)) := by
  have : ∀ k : Fin 10, ¬ Control (digitChar k.val) := by decide
  exact this ⟨n % 10, Nat.mod_lt _ (by decide)⟩

theorem nctl_natStr (n : Nat) : NoControl (natStr n) := by
  unfold natStr
  generalize n + 1 = f
  induction f generalizing n with
  | zero => exact .nil
  | succ f ih =>
    unfold natStrGo
    split
    · rename_i h
      have := nctl_digitChar n
      rw [Nat.mod_eq_of_lt h] at this
      exact .cons this .nil
    · exact (ih _).append (.cons (nctl_digitChar n) .nil)

theorem nctl_intStr (n : Int) : NoControl (intStr n) := by
  unfold intStr; split
  · exact .cons (by decide) (nctl_natStr _)
  · exact nctl_natStr _

theorem nctl_pad2 (n : Nat) : NoControl (pad2 n) := .cons (nctl_digitChar _) (.cons (nctl_digitChar _) .nil)

theorem nctl_pad4 (n : Nat) : NoControl (pad4 n) :=
  .cons (nctl_digitChar _) (.cons (nctl_digitChar _) (.cons (nctl_digitChar _) (.cons (nctl_digitChar _) .nil)))

section
variable [Platform]

/-- It is written, without control characters. -/
def NctlRes (x : Res Str) : Prop := ∃ t, x = .ok t ∧ NoControl t

/-- The value and its parameters are written without control characters. -/
def NctlVal {α : Type} {s : Ser α} (v : α) : Prop := NctlRes (s.ical v) ∧ ∀ a, s.attr v = some a → NoControl a

theorem NctlRes.ok {t : Str} (h : NoControl t) : NctlRes (.ok t) := ⟨t, rfl, h⟩

theorem NctlRes.map {x : Res Str} (h : NctlRes x) {f : Str → Str} (hf : ∀ t, NoControl t → NoControl (f t)) : NctlRes (x.map f) := by
  obtain ⟨t, rfl, h⟩ := h; exact ⟨_, rfl, hf t h⟩

theorem NctlRes.bind {x : Res Str} (h : NctlRes x) {f : Str → Res Str} (hf : ∀ t, NoControl t → NctlRes (f t)) : NctlRes (x >>= f) := by
  obtain ⟨t, rfl, h⟩ := h; exact hf t h

theorem nctl_mapM' {α : Type} {f : α → Res Str} {l : List α} (h : ∀ a ∈ l, NctlRes (f a)) :
    ∃ ts, Res.mapM' f l = .ok ts ∧ ∀ t ∈ ts, NoControl t := by
  induction l with
  | nil => exact ⟨[], rfl, by simp⟩
  | cons a l ih =>
    obtain ⟨t, h1, h2⟩ := h a List.mem_cons_self
    obtain ⟨ts, h3, h4⟩ := ih fun a ha => h a (List.mem_cons_of_mem _ ha)
    refine ⟨t :: ts, by simp only [Res.mapM', h1, h3], ?_⟩
    intro x hx
    rcases List.mem_cons.1 hx with rfl | hx
    · exact h2
    · exact h4 x hx

theorem nctl_list {α : Type} {s : Ser α} {l : List α} (h : ∀ a ∈ l, NctlVal (s := s) a) : NctlVal (s := @instSerList _ s) l := by
  refine ⟨?_, fun a ha => by cases ha⟩
  obtain ⟨ts, h1, h2⟩ := nctl_mapM' (f := s.ical) fun a ha => (h a ha).1
  exact ⟨_, by simp only [Ser.ical, h1]; rfl, NoControl.join (by decide) h2⟩

theorem nctl_option {α : Type} {s : Ser α} {o : Option α} (h : ∀ a ∈ o, NctlVal (s := s) a) : NctlVal (s := @instSerOption _ s) o := by
  cases o with
  | none => exact ⟨.ok .nil, fun a ha => by cases ha⟩
  | some a => exact h a rfl

theorem nctl_shown {α : Type} {s : Ser α} {v : α} {t : Str} (h : s.ical v = .ok t) (ht : NoControl t) (ha : s.attr v = none) :
    NctlVal (s := s) v := ⟨⟨t, h, ht⟩, fun a h => by rw [ha] at h; cases h⟩

theorem nctl_dateStr (d : NaiveDate) : NoControl d.toStr := by
  refine (NoControl.append ?_ (nctl_pad2 _)).append (nctl_pad2 _)
  unfold yearStr
  have h0 : NoControl (if d.year.natAbs ≤ 9999 then pad4 d.year.natAbs else natStr d.year.natAbs) := by
    split
    · exact nctl_pad4 _
    · exact nctl_natStr _
  repeat' first | split | exact nctl_pad4 _ | exact .cons (by decide) h0

theorem nctl_naive (t : NaiveDateTime) : NoControl t.toStr :=
  (nctl_dateStr _).append (.cons (by decide) (((nctl_pad2 _).append (nctl_pad2 _)).append (nctl_pad2 _)))

theorem nctl_dateTime (t : DateTime) : NoControl t.toStr := by
  cases t with
  | naive t => exact nctl_naive t
  | loc t => exact (nctl_naive _).append (by decide)

theorem nctl_date (d : Date) : NoControl d.toStr := by
  cases d with
  | date d => exact nctl_dateStr d
  | dateTime t => exact nctl_dateTime t

theorem nctl_fracDigits (n : Nat) : NoControl (TimeDelta.fracDigits n) := by
  unfold TimeDelta.fracDigits
  intro c hc
  have hc := (List.dropWhile_sublist _).mem (List.mem_reverse.1 hc)
  have : NoControl [digitChar (n / 100000000 % 10), digitChar (n / 10000000 % 10), digitChar (n / 1000000 % 10),
      digitChar (n / 100000 % 10), digitChar (n / 10000 % 10), digitChar (n / 1000 % 10), digitChar (n / 100 % 10),
      digitChar (n / 10 % 10), digitChar (n % 10)] := by
    repeat' first | exact .nil | refine .cons (nctl_digitChar _) ?_
  exact this c (List.mem_reverse.1 hc)

theorem nctl_delta (d : TimeDelta) : NoControl d.toStr := by
  unfold TimeDelta.toStr
  simp only
  split
  · decide
  · refine (((NoControl.append ?_ (by decide)).append (nctl_natStr _)).append ?_).append (by decide)
    · split <;> decide
    · split
      · exact .nil
      · exact .cons (by decide) (nctl_fracDigits _)

theorem nctl_offset (o : FixedOffset) : NoControl o.toStr := by
  unfold FixedOffset.toStr
  simp only
  have : ¬ Control (if o.secs < 0 then '-' else '+') := by split <;> decide
  split
  · exact .cons this ((nctl_pad2 _).append (nctl_pad2 _))
  · exact .cons this (((nctl_pad2 _).append (nctl_pad2 _)).append (nctl_pad2 _))

theorem nctl_period (p : Period) : NoControl p.toStr := by
  cases p with
  | startEnd a b => exact (nctl_dateTime a).append (.cons (by decide) (nctl_dateTime b))
  | startDur a d => exact (nctl_dateTime a).append (.cons (by decide) (nctl_delta d))

theorem nctl_weekday (w : Weekday) : NoControl w.toStr := by cases w <;> decide

theorem nctl_weekdayNum (w : WeekdayNum) : NoControl w.toStr := by
  unfold WeekdayNum.toStr
  refine NoControl.append ?_ (nctl_weekday _)
  split
  · exact nctl_intStr _
  · exact .nil

theorem nval_Nat (n : Nat) : NctlVal (s := inferInstance) n := nctl_shown rfl (nctl_natStr n) rfl
theorem nval_Int (n : Int) : NctlVal (s := inferInstance) n := nctl_shown rfl (nctl_intStr n) rfl
theorem nval_Date (d : Date) : NctlVal (s := inferInstance) d := by
  refine ⟨.ok (nctl_date d), fun a ha => ?_⟩
  cases d with
  | date d => cases ha; decide
  | dateTime t => cases ha
theorem nval_DateTime (d : DateTime) : NctlVal (s := inferInstance) d := nctl_shown rfl (nctl_dateTime d) rfl
theorem nval_Period (p : Period) : NctlVal (s := inferInstance) p := nctl_shown rfl (nctl_period p) rfl
theorem nval_Duration (d : TimeDelta) : NctlVal (s := inferInstance) d := nctl_shown rfl (nctl_delta d) rfl
theorem nval_Offset (d : FixedOffset) : NctlVal (s := inferInstance) d := nctl_shown rfl (nctl_offset d) rfl
theorem nval_Status (v : Status) : NctlVal (s := inferInstance) v := nctl_shown rfl (by cases v <;> decide) rfl
theorem nval_Transp (v : TimeTransparency) : NctlVal (s := inferInstance) v := nctl_shown rfl (by cases v <;> decide) rfl
theorem nval_Freq (v : Freq) : NctlVal (s := inferInstance) v := nctl_shown rfl (by cases v <;> decide) rfl
theorem nval_Weekday (v : Weekday) : NctlVal (s := inferInstance) v := nctl_shown rfl (nctl_weekday v) rfl
theorem nval_WeekdayNum (v : WeekdayNum) : NctlVal (s := inferInstance) v := nctl_shown rfl (nctl_weekdayNum v) rfl
theorem nval_Geo (hf : FineFloats) (g : Geo) : NctlVal (s := inferInstance) g :=
  nctl_shown rfl ((hf _).1.append (.cons (by decide) (hf _).1)) rfl
theorem nval_Trigger (t : Trigger) : NctlVal (s := inferInstance) t := by
  cases t with
  | duration d => exact ⟨.ok (nctl_delta d), fun a ha => by cases ha; decide⟩
  | dateTime d => exact ⟨.ok (nctl_dateTime d), fun a ha => by cases ha; decide⟩
theorem nval_RDate (r : RDate) : NctlVal (s := inferInstance) r := by
  refine nctl_shown rfl ?_ rfl
  cases r with
  | date l =>
    refine NoControl.append (by decide) (NoControl.join (by decide) ?_)
    intro t ht
    obtain ⟨d, -, rfl⟩ := List.mem_map.1 ht
    exact nctl_date d
  | period l =>
    refine NoControl.append (by decide) (NoControl.join (by decide) ?_)
    intro t ht
    obtain ⟨d, -, rfl⟩ := List.mem_map.1 ht
    exact nctl_period d

theorem nctl_item {α : Type} {s : Ser α} {name : Str} (hn : NoControl name) {v : α} (h : NctlVal (s := s) v) : NctlRes (@recurItem _ s name v) := by
  unfold recurItem
  refine h.1.bind fun t ht => .ok ?_
  show NoControl (if List.isEmpty t = true then [] else name ++ '=' :: (t ++ [';']))
  split
  · exact .nil
  · exact hn.append (.cons (by decide) (ht.append (by decide)))

theorem nval_Rule (r : Recur) : NctlVal (s := inferInstance) r := by
  refine ⟨?_, fun a ha => by cases ha⟩
  have li : ∀ l : List Int, NctlVal (s := inferInstance) l := fun l => nctl_list fun a _ => nval_Int a
  refine (nctl_item (by decide) (nval_Freq _)).bind fun a ha => ?_
  refine (nctl_item (by decide) (nctl_option fun d _ => nval_Date d)).bind fun b hb => ?_
  refine (nctl_item (by decide) (nctl_option fun d _ => nval_Nat d)).bind fun c hc => ?_
  refine (nctl_item (by decide) (nval_Nat _)).bind fun d hd => ?_
  refine (nctl_item (by decide) (li _)).bind fun e he => ?_
  refine (nctl_item (by decide) (li _)).bind fun f hf => ?_
  refine (nctl_item (by decide) (li _)).bind fun g hg => ?_
  refine (nctl_item (by decide) (nctl_list fun d _ => nval_WeekdayNum d)).bind fun h hh => ?_
  refine (nctl_item (by decide) (li _)).bind fun i hi => ?_
  refine (nctl_item (by decide) (li _)).bind fun j hj => ?_
  refine (nctl_item (by decide) (li _)).bind fun k hk => ?_
  refine (nctl_item (by decide) (li _)).bind fun l hl => ?_
  refine (nctl_item (by decide) (li _)).bind fun m hm => ?_
  refine (nctl_item (by decide) (nctl_option fun d _ => nval_Weekday d)).bind fun n hn => ?_
  refine .ok (NoControl.of_subset (b := a ++ b ++ c ++ d ++ e ++ f ++ g ++ h ++ i ++ j ++ k ++ l ++ m ++ n) ?_ fun c hc => List.dropLast_subset _ hc)
  exact ((((((((((((ha.append hb).append hc).append hd).append he).append hf).append hg).append hh).append hi).append hj).append hk).append hl).append hm).append hn

/-! ## Folding -/

/-- A carriage return is only at the end of a line. -/
private def Tame (s : Str) : Prop := ∀ a b, s = a ++ '\r' :: b → b = [] ∨ b = ['\n']

private theorem Tame.infix {x p y : Str} (h : Tame (x ++ p ++ y)) : Tame p := by
  rintro a b rfl
  rcases h (x ++ a) (b ++ y) (by simp) with e | e
  · exact .inl (List.append_eq_nil_iff.1 e).1
  · cases b with
    | nil => exact .inl rfl
    | cons c b =>
      simp only [List.cons_append, List.cons.injEq, List.append_eq_nil_iff] at e
      exact .inr (by rw [e.1, e.2.1])

private theorem Tame.tail {c : Char} {s : Str} (h : Tame (c :: s)) : Tame s := by
  have := Tame.infix (x := [c]) (p := s) (y := []) (by simpa using h)
  exact this

private theorem tame_line {s : Str} (h : NoControl s) : Tame (s ++ c!"\r\n") := by
  intro a b e
  have hr : '\r' ∉ s := fun hm => h _ hm (by decide)
  induction s generalizing a with
  | nil =>
    cases a with
    | nil => simp only [List.nil_append, List.cons.injEq, true_and] at e; exact .inr e.symm
    | cons x a =>
      simp only [List.nil_append, List.cons_append, List.cons.injEq] at e
      obtain ⟨-, e⟩ := e
      cases a with
      | nil => simp at e
      | cons y a => simp at e
  | cons x s ih =>
    cases a with
    | nil => simp only [List.nil_append, List.cons_append, List.cons.injEq] at e; exact absurd (e.1 ▸ List.mem_cons_self) hr
    | cons y a =>
      simp only [List.cons_append, List.cons.injEq] at e
      exact ih (fun c hc => h c (List.mem_cons_of_mem _ hc)) a e.2 fun hm => hr (List.mem_cons_of_mem _ hm)

/-- A text that is empty or begins with a letter, a digit or a hyphen. -/
private def HeadOk (s : Str) : Prop := ∀ c, s.head? = some c → c ≠ ' ' ∧ c ≠ '\t' ∧ c ≠ '\n'

private theorem headOk_token {n s : Str} (h : IsToken n) : HeadOk (n ++ s) := by
  intro c hc
  obtain ⟨h1, h2⟩ := h
  cases n with
  | nil => exact absurd rfl h1
  | cons d n =>
    cases hc
    have := h2 c List.mem_cons_self
    refine ⟨?_, ?_, ?_⟩ <;> (rintro rfl; revert this; decide)

private theorem prefix3 {c x y z : Char} {r : Str} : [x, y, z] <+: c :: r ↔ c = x ∧ ∃ s, r = y :: z :: s := by
  constructor
  · rintro ⟨t, h⟩
    simp only [List.cons_append, List.nil_append, List.cons.injEq] at h
    exact ⟨h.1.symm, t, h.2.symm⟩
  · rintro ⟨rfl, s, rfl⟩
    exact ⟨s, rfl⟩

/-- Unfolding, when all folds are with a space. -/
private inductive SpaceUnfolds : Str → Str → Prop
  | nil : SpaceUnfolds [] []
  | fold {r u : Str} : SpaceUnfolds r u → SpaceUnfolds ('\r' :: '\n' :: ' ' :: r) u
  | keep {c : Char} {r u : Str} : ¬ ['\r', '\n', ' '] <+: c :: r → ¬ ['\r', '\n', '\t'] <+: c :: r → SpaceUnfolds r u → SpaceUnfolds (c :: r) (c :: u)

private theorem SpaceUnfolds.rfc {s u : Str} (h : SpaceUnfolds s u) : Abnf.Unfolds s u := by
  induction h with
  | nil => exact .nil
  | fold _ ih => exact .fold (.inl rfl) ih
  | keep h1 h2 _ ih => exact .keep h1 h2 ih

private theorem infix_cons {x : Str} {c : Char} {r : Str} (h : x <:+: c :: r) : x <+: c :: r ∨ x <:+: r := by
  obtain ⟨a, b, e⟩ := h
  cases a with
  | nil => exact .inl ⟨b, e⟩
  | cons d a =>
    simp only [List.cons_append, List.cons.injEq] at e
    exact .inr ⟨a, b, e.2⟩

private theorem SpaceUnfolds.noTab {s u : Str} (h : SpaceUnfolds s u) : ¬ c!"\r\n\t" <:+: s := by
  induction h with
  | nil => rintro ⟨a, b, e⟩; simp at e
  | fold _ ih =>
    intro h
    rcases infix_cons h with ⟨b, e⟩ | h
    · simp at e
    rcases infix_cons h with ⟨b, e⟩ | h
    · simp at e
    rcases infix_cons h with ⟨b, e⟩ | h
    · simp at e
    exact ih h
  | keep _ h2 _ ih =>
    intro h
    rcases infix_cons h with h | h
    · exact h2 h
    · exact ih h

private theorem SpaceUnfolds.of {s u : Str} (h : Abnf.Unfolds s u) (hi : ¬ c!"\r\n\t" <:+: s) : SpaceUnfolds s u := by
  induction h with
  | nil => exact .nil
  | @fold w r u hw _ ih =>
    rcases hw with rfl | rfl
    · exact .fold (ih fun ⟨a, b, e⟩ => hi ⟨'\r' :: '\n' :: ' ' :: a, b, by rw [← e]; simp⟩)
    · exact absurd ⟨[], r, by simp⟩ hi
  | @keep c r u h1 h2 _ ih => exact .keep h1 h2 (ih fun ⟨a, b, e⟩ => hi ⟨c :: a, b, by rw [← e]; simp⟩)

private theorem unfolds_append {a u b w : Str} (h : SpaceUnfolds a u) (hb : SpaceUnfolds b w) (hh : HeadOk b) : SpaceUnfolds (a ++ b) (u ++ w) := by
  induction h with
  | nil => exact hb
  | fold _ ih => exact .fold ih
  | @keep c r u h1 h2 _ ih =>
    have key : ∀ z, z = ' ' ∨ z = '\t' → ¬ ['\r', '\n', z] <+: c :: r → ¬ ['\r', '\n', z] <+: c :: (r ++ b) := by
      intro z hz h hp
      obtain ⟨rfl, s, e⟩ := prefix3.1 hp
      cases r with
      | nil =>
        have e : b = '\n' :: z :: s := e
        exact (hh '\n' (by rw [e]; rfl)).2.2 rfl
      | cons y r =>
        simp only [List.cons_append, List.cons.injEq] at e
        obtain ⟨rfl, e⟩ := e
        cases r with
        | nil =>
          have e : b = z :: s := e
          have := hh z (by rw [e]; rfl)
          exact hz.elim this.1 this.2.1
        | cons y r =>
          simp only [List.cons_append, List.cons.injEq] at e
          exact h (prefix3.2 ⟨rfl, r, by rw [e.1]⟩)
    exact .keep (key ' ' (.inl rfl) h1) (key '\t' (.inr rfl) h2) ih

private theorem tame_keep {z c : Char} (_hz : z = ' ' ∨ z = '\t') {r : Str} (h : Tame (c :: r)) : ¬ ['\r', '\n', z] <+: c :: r := by
  intro hp
  obtain ⟨rfl, s, rfl⟩ := prefix3.1 hp
  rcases h [] _ rfl with e | e <;> simp at e

private theorem unfolds_tame {s : Str} (h : Tame s) : SpaceUnfolds s s := by
  induction s with
  | nil => exact .nil
  | cons c s ih => exact .keep (tame_keep (.inl rfl) h) (tame_keep (.inr rfl) h) (ih h.tail)

private theorem unfolds_piece {p r u : Str} (h : Tame p) (hr : SpaceUnfolds r u) : SpaceUnfolds (p ++ (c!"\r\n " ++ r)) (p ++ u) := by
  induction p with
  | nil => exact .fold hr
  | cons c p ih =>
    have key : ∀ z, z = ' ' ∨ z = '\t' → ¬ ['\r', '\n', z] <+: c :: (p ++ (c!"\r\n " ++ r)) := by
      intro z hz hp
      obtain ⟨rfl, s, e⟩ := prefix3.1 hp
      rcases h [] p rfl with rfl | rfl
      · simp only [List.nil_append, List.cons_append, List.cons.injEq] at e
        exact absurd e.1 (by decide)
      · simp only [List.nil_append, List.cons_append, List.cons.injEq] at e
        rcases hz with rfl | rfl <;> exact absurd e.2.1 (by decide)
    exact .keep (key ' ' (.inl rfl)) (key '\t' (.inr rfl)) (ih h.tail)

private theorem unfolds_pieces {ps : List Str} {last : Str} (h : Tame (ps.flatten ++ last)) :
    SpaceUnfolds (joinWith c!"\r\n " (ps ++ [last])) (ps.flatten ++ last) := by
  induction ps with
  | nil => exact unfolds_tame h
  | cons p ps ih =>
    have h1 : Tame p := Tame.infix (x := []) (p := p) (y := ps.flatten ++ last) (by simpa using h)
    have h2 : Tame (ps.flatten ++ last) := Tame.infix (x := p) (p := ps.flatten ++ last) (y := []) (by simpa using h)
    have e : joinWith c!"\r\n " (p :: ps ++ [last]) = p ++ (c!"\r\n " ++ joinWith c!"\r\n " (ps ++ [last])) := by
      cases ps with
      | nil => simp [joinWith]
      | cons q ps => simp [joinWith]
    rw [e, List.flatten_cons, List.append_assoc]
    exact unfolds_piece h1 (ih h2)

private theorem head_pieces {ps : List Str} {last : Str} (hp : ∀ p ∈ ps, byteLen p = 75) (h : HeadOk (ps.flatten ++ last)) :
    HeadOk (joinWith c!"\r\n " (ps ++ [last])) := by
  cases ps with
  | nil => exact h
  | cons p ps =>
    cases p with
    | nil => exact absurd (hp [] List.mem_cons_self) (by decide)
    | cons c p =>
      have e : (joinWith c!"\r\n " ((c :: p) :: ps ++ [last])).head? = some c := by
        cases ps <;> simp [joinWith]
      intro d hd
      rw [e] at hd
      exact h d hd

private theorem unfolds_folded {s out : Str} (hs : NoControl s) (hh : HeadOk (s ++ c!"\r\n")) (h : FoldedAs (s ++ c!"\r\n") out) :
    SpaceUnfolds out (s ++ c!"\r\n") ∧ HeadOk out := by
  rcases h with ⟨-, rfl⟩ | ⟨-, ps, last, e, h1, -, -, rfl⟩
  · exact ⟨unfolds_tame (tame_line hs), hh⟩
  · rw [e] at hh
    refine ⟨?_, head_pieces h1 hh⟩
    rw [e]
    exact unfolds_pieces (e ▸ tame_line hs)

/-! ## Lines -/

private theorem param_clean {p : Param} (h : p.Ok) : NoControl p.str := by
  obtain ⟨hn, hf, hm⟩ := h
  have tok : NoControl p.name := by
    intro c hc hcc
    have := hn.2 c hc
    unfold TokenChar at this
    unfold Control at hcc
    have nums : 'A'.toNat = 65 ∧ 'Z'.toNat = 90 ∧ 'a'.toNat = 97 ∧ 'z'.toNat = 122 ∧ '0'.toNat = 48 ∧ '9'.toNat = 57 ∧ '-'.toNat = 45 := by decide
    have le : ∀ a b : Char, a ≤ b → a.toNat ≤ b.toNat := fun a b h => h
    rcases this with ⟨h1, h2⟩ | ⟨h1, h2⟩ | ⟨h1, h2⟩ | rfl
    · have := le _ _ h1; have := le _ _ h2; omega
    · have := le _ _ h1; have := le _ _ h2; omega
    · have := le _ _ h1; have := le _ _ h2; omega
    · omega
  have val : ∀ v : ParamValue, v.Ok → NoControl v.str := by
    intro v hv
    cases v with
    | text s => exact fun c hc => (hv c hc).1
    | quoted s => exact (NoControl.append (by decide) fun c hc => (hv c hc).1).append (by decide)
  refine (((NoControl.append (by decide) tok).append (by decide)).append ((val _ hf).append ?_))
  intro c hc
  obtain ⟨t, ht, hc⟩ := List.mem_flatten.1 hc
  obtain ⟨v, hv, rfl⟩ := List.mem_map.1 ht
  exact ((NoControl.append (by decide) (val v (hm v hv))) : NoControl (c!"," ++ v.str)) c hc

private theorem line_clean {l : Line} (h : l.Ok) : ∃ s, l.str = s ++ c!"\r\n" ∧ NoControl s := by
  refine ⟨_, rfl, ((NoControl.append ?_ ?_).append (by decide)).append h.2.2⟩
  · intro c hc
    exact (param_clean (p := ⟨l.name, .text [], []⟩) ⟨h.1, by simp [ParamValue.Ok], by simp⟩) c (by simp [Param.str, hc])
  · intro c hc
    obtain ⟨t, ht, hc⟩ := List.mem_flatten.1 hc
    obtain ⟨p, hp, rfl⟩ := List.mem_map.1 ht
    exact param_clean (h.2.1 p hp) c hc

private theorem line_head {l : Line} (h : l.Ok) : HeadOk l.str := by
  have := headOk_token (s := (l.params.map Param.str).flatten ++ c!":" ++ l.value ++ c!"\r\n") h.1
  simpa [Line.str] using this

private theorem unfolds_line {l : Line} {out : Str} (h : l.Ok) (hf : FoldedAs l.str out) : SpaceUnfolds out l.str ∧ HeadOk out := by
  obtain ⟨s, e, hs⟩ := line_clean h
  have hh := line_head h
  rw [e] at hf hh ⊢
  exact unfolds_folded hs hh hf

/-- Texts that are good lines, folded. -/
private def LinesOut (out : Str) : Prop :=
  ∃ ls : List Line, (∀ l ∈ ls, GoodLine l) ∧ SpaceUnfolds out (ls.map Line.str).flatten ∧ HeadOk out

/-- Texts that are good components, folded. -/
private def TreesOut (ps : List Str) (out : Str) : Prop :=
  ∃ ts : List Tree, (∀ t ∈ ts, t.Good ∧ ∃ n ls us, t = .mk n ls us ∧ n ∈ ps) ∧ SpaceUnfolds out (Tree.strs ts) ∧ HeadOk out

private theorem headOk_append {a b : Str} (ha : HeadOk a) (hb : HeadOk b) : HeadOk (a ++ b) := by
  cases a with
  | nil => exact hb
  | cons c a => exact ha

private theorem LinesOut.nil : LinesOut [] := ⟨[], by simp, .nil, by simp [HeadOk]⟩
private theorem TreesOut.nil {ps : List Str} : TreesOut ps [] := ⟨[], by simp, .nil, by simp [HeadOk]⟩

private theorem LinesOut.append {a b : Str} (ha : LinesOut a) (hb : LinesOut b) : LinesOut (a ++ b) := by
  obtain ⟨l, h1, h2, h3⟩ := ha
  obtain ⟨m, h4, h5, h6⟩ := hb
  refine ⟨l ++ m, fun x hx => (List.mem_append.1 hx).elim (h1 x) (h4 x), ?_, headOk_append h3 h6⟩
  rw [List.map_append, List.flatten_append]
  exact unfolds_append h2 h5 h6

private theorem treeStrs_append (a b : List Tree) : Tree.strs (a ++ b) = Tree.strs a ++ Tree.strs b := by
  induction a with
  | nil => simp [Tree.strs]
  | cons t a ih => simp [Tree.strs, ih]

private theorem TreesOut.append {ps : List Str} {a b : Str} (ha : TreesOut ps a) (hb : TreesOut ps b) : TreesOut ps (a ++ b) := by
  obtain ⟨l, h1, h2, h3⟩ := ha
  obtain ⟨m, h4, h5, h6⟩ := hb
  refine ⟨l ++ m, fun x hx => (List.mem_append.1 hx).elim (h1 x) (h4 x), ?_, headOk_append h3 h6⟩
  rw [treeStrs_append]
  exact unfolds_append h2 h5 h6

/-! ## Forms -/

/-- The parameters are those of RFC lines. -/
private def PsOut (ps : Option Str) : Prop :=
  ∃ l : List Param, (∀ p ∈ l, p.Ok ∧ p.Understood) ∧ match ps with
    | none => l = []
    | some s => (l.map Param.str).flatten = c!";" ++ s

/-- Values that are written without control characters, with parameters of RFC lines. -/
private def FormOut {α : Type} (F : Form α) (v : α) : Prop := ∀ ps t, F v ps t → PsOut ps ∧ NoControl t

private theorem PsOut.none : PsOut none := ⟨[], by simp, rfl⟩

/-- A name under which lines are written. -/
private def NameOk (n : Str) : Prop := IsToken n ∧ n ≠ c!"BEGIN" ∧ n ≠ c!"END"

private theorem lineOut {name : Str} (hn : NameOk name) {ps : Option Str} {t out : Str} (hp : PsOut ps) (ht : NoControl t) (h : LineOut name ps t out) : LinesOut out := by
  rcases h with ⟨-, rfl⟩ | ⟨-, h⟩
  · exact .nil
  · obtain ⟨l, h1, h2⟩ := hp
    have e : propertyLine name ps t = Line.str ⟨name, l, t⟩ := by
      cases ps with
      | none => subst h2; simp [propertyLine, Line.str]
      | some s =>
        have h2 : (l.map Param.str).flatten = c!";" ++ s := h2
        simp only [propertyLine, Line.str, h2, List.append_assoc]
    have hok : (⟨name, l, t⟩ : Line).Ok := ⟨hn.1, fun p hp => (h1 p hp).1, ht⟩
    rw [e] at h
    obtain ⟨h3, h4⟩ := unfolds_line hok h
    refine ⟨[⟨name, l, t⟩], ?_, by simpa using h3, h4⟩
    intro x hx
    obtain rfl := List.mem_singleton.1 hx
    exact ⟨hok, fun hf => hf.2.elim hn.2.1 hn.2.2, fun p hp => (h1 p hp).2⟩

private theorem singleOut {α : Type} {name : Str} (hn : NameOk name) {F : Form α} {v : α} (hF : FormOut F v) : ∀ out, Single name F v out → LinesOut out := by
  rintro out ⟨ps, t, h1, h2⟩
  exact lineOut hn (hF ps t h1).1 (hF ps t h1).2 h2

private theorem optionalOut {α : Type} {name : Str} (hn : NameOk name) {F : Form α} {v : Option α} (hF : ∀ a ∈ v, FormOut F a) :
    ∀ out, Optional name F v out → LinesOut out := by
  intro out h
  cases v with
  | none => subst h; exact .nil
  | some v => exact singleOut hn (hF v rfl) out h

private theorem nctl_joinWith {sep : Str} (hs : NoControl sep) {l : List Str} (h : ∀ t ∈ l, NoControl t) : NoControl (Spec.joinWith sep l) := by
  rw [← join_eq_joinWith]
  exact NoControl.join hs h

private theorem all2_clean {α : Type} {R : α → Str → Prop} {l : List α} {ts : List Str} (h : All2 R l ts) (hR : ∀ a ∈ l, ∀ t, R a t → NoControl t) :
    ∀ t ∈ ts, NoControl t := by
  induction h with
  | nil => simp
  | cons hab _ ih =>
    intro t ht
    rcases List.mem_cons.1 ht with rfl | ht
    · exact hR _ List.mem_cons_self _ hab
    · exact ih (fun a ha => hR a (List.mem_cons_of_mem _ ha)) t ht

private theorem repeatedOut {α : Type} {name : Str} (hn : NameOk name) {F : Form α} {v : List α} (hF : ∀ a ∈ v, FormOut F a) :
    ∀ out, Repeated name F v out → LinesOut out := by
  intro out h
  have many : ∀ l : List α, (∀ a ∈ l, FormOut F a) → (∃ ts, All2 (fun v t => ∃ ps, F v ps t) l ts ∧ LineOut name none (Spec.joinWith c!"," ts) out) → LinesOut out := by
    rintro l hl ⟨ts, h1, h2⟩
    exact lineOut hn .none (nctl_joinWith (by decide) (all2_clean h1 fun a ha t ⟨ps, h⟩ => (hl a ha ps t h).2)) h2
  match v, hF, h with
  | [], hF, h => exact many _ hF h
  | [v], hF, h => exact singleOut hn (hF v List.mem_cons_self) out h
  | _ :: _ :: _, hF, h => exact many _ hF h

private theorem escaped_clean {s e : Str} (h : EscapedAs s e) (hs : Fine s) : NoControl e := by
  induction h with
  | nil => exact .nil
  | semicolon _ ih => exact .cons (by decide) (.cons (by decide) (ih fun c hc => hs c (List.mem_cons_of_mem _ hc)))
  | comma _ ih => exact .cons (by decide) (.cons (by decide) (ih fun c hc => hs c (List.mem_cons_of_mem _ hc)))
  | newline _ ih => exact .cons (by decide) (.cons (by decide) (ih fun c hc => hs c (List.mem_cons_of_mem _ hc)))
  | other _ _ hn _ ih =>
    exact .cons (fun hc => hn (hs _ List.mem_cons_self hc)) (ih fun c hc => hs c (List.mem_cons_of_mem _ hc))

private theorem extensionsOut {name : Str} (hn : NameOk name) {m : SMap ContentLine} (hm : FineExt m) : ∀ out, Extensions name m out → LinesOut out := by
  rintro out ⟨ts, h1, h2⟩
  refine lineOut hn .none (nctl_joinWith (by decide) (all2_clean h1 ?_)) h2
  rintro p hp t ⟨e, he, rfl⟩
  exact ((hm p hp).1.append (by decide)).append (escaped_clean he (hm p hp).2)

/-- Characters of a list of values without quotes. -/
private theorem raw_of {s : Str} (h : ∀ c ∈ s, SafeChar c ∨ c = ',') :
    ∃ (f : Str) (more : List Str), (∀ c ∈ f, SafeChar c) ∧ (∀ v ∈ more, ∀ c ∈ v, SafeChar c) ∧ s = f ++ (more.map fun v => c!"," ++ v).flatten := by
  induction s with
  | nil => exact ⟨[], [], by simp, by simp, rfl⟩
  | cons c s ih =>
    obtain ⟨f, more, h1, h2, rfl⟩ := ih fun d hd => h d (List.mem_cons_of_mem _ hd)
    by_cases hc : c = ','
    · subst hc
      exact ⟨[], f :: more, by simp, by simpa using ⟨h1, h2⟩, by simp⟩
    · have := (h c List.mem_cons_self).resolve_right hc
      exact ⟨c :: f, more, by simpa using ⟨this, h1⟩, h2, by simp⟩

private theorem escaped_raw {s e : Str} (h : EscapedAs s e) (hs : Fine s) (h1 : '"' ∉ s) (h2 : ';' ∉ s) (h3 : ':' ∉ s) : ∀ c ∈ e, SafeChar c ∨ c = ',' := by
  have back : SafeChar '\\' := by unfold SafeChar; exact ⟨by decide, by decide, by decide, by decide, by decide⟩
  induction h with
  | nil => simp
  | semicolon _ _ => exact absurd List.mem_cons_self h2
  | comma _ ih =>
    intro c hc
    rcases List.mem_cons.1 hc with rfl | hc
    · exact .inl back
    rcases List.mem_cons.1 hc with rfl | hc
    · exact .inr rfl
    exact ih (fun c hc => hs c (List.mem_cons_of_mem _ hc)) (fun h => h1 (List.mem_cons_of_mem _ h)) (fun h => h2 (List.mem_cons_of_mem _ h))
      (fun h => h3 (List.mem_cons_of_mem _ h)) c hc
  | newline _ ih =>
    intro c hc
    rcases List.mem_cons.1 hc with rfl | hc
    · exact .inl back
    rcases List.mem_cons.1 hc with rfl | hc
    · exact .inl (by unfold SafeChar; exact ⟨by decide, by decide, by decide, by decide, by decide⟩)
    exact ih (fun c hc => hs c (List.mem_cons_of_mem _ hc)) (fun h => h1 (List.mem_cons_of_mem _ h)) (fun h => h2 (List.mem_cons_of_mem _ h))
      (fun h => h3 (List.mem_cons_of_mem _ h)) c hc
  | @other d s o n1 n2 n3 _ ih =>
    intro c hc
    rcases List.mem_cons.1 hc with rfl | hc
    · exact .inl ⟨fun hc => n3 (hs _ List.mem_cons_self hc), fun e => h1 (e ▸ List.mem_cons_self), n1, fun e => h3 (e ▸ List.mem_cons_self), n2⟩
    exact ih (fun c hc => hs c (List.mem_cons_of_mem _ hc)) (fun h => h1 (List.mem_cons_of_mem _ h)) (fun h => h2 (List.mem_cons_of_mem _ h))
      (fun h => h3 (List.mem_cons_of_mem _ h)) c hc

private theorem param_of {k s e : Str} (hk : IsToken k) (h : EscapedAs s e) (hs : Fine s) (h1 : '"' ∉ s) (h2 : ';' ∉ s) (h3 : ':' ∉ s) :
    ∃ p : Param, p.Ok ∧ p.Understood ∧ p.str = c!";" ++ (k ++ c!"=" ++ e) := by
  obtain ⟨f, more, m1, m2, rfl⟩ := raw_of (escaped_raw h hs h1 h2 h3)
  refine ⟨⟨k, .text f, more.map .text⟩, ⟨hk, m1, ?_⟩, ?_, ?_⟩
  · intro v hv
    obtain ⟨x, hx, rfl⟩ := List.mem_map.1 hv
    exact m2 x hx
  · intro x hx
    obtain ⟨y, -, hy⟩ := List.mem_map.1 hx
    cases hy
  · simp [Param.str, Param.raw, ParamValue.str, Function.comp_def]

private theorem paramsOut {m : SMap Str} (hm : FineParams m) {ps : Option Str} (h : ParamsOut m ps) : PsOut ps := by
  rcases h with ⟨-, rfl⟩ | ⟨hne, ts, h, rfl⟩
  · exact .none
  · have key : ∀ {m : List (Str × Str)} {ts : List Str}, All2 (fun (p : Str × Str) t => ∃ e, EscapedAs p.2 e ∧ t = p.1 ++ c!"=" ++ e) m ts → FineParams m →
        ∃ l : List Param, (∀ p ∈ l, p.Ok ∧ p.Understood) ∧ (l.map Param.str).flatten = (ts.map fun t => c!";" ++ t).flatten := by
      intro m ts h hm
      induction h with
      | nil => exact ⟨[], by simp, rfl⟩
      | @cons a b as bs hab _ ih =>
        obtain ⟨e, he, rfl⟩ := hab
        obtain ⟨l, h1, h2⟩ := ih fun p hp => hm p (List.mem_cons_of_mem _ hp)
        obtain ⟨g1, g2, g3, g4, g5⟩ := hm a List.mem_cons_self
        obtain ⟨p, p1, p2, p3⟩ := param_of g1 he g2 g3 g4 g5
        exact ⟨p :: l, by simpa using ⟨⟨p1, p2⟩, fun q hq => h1 q hq⟩, by rw [List.map_cons, List.flatten_cons, h2, p3, List.map_cons, List.flatten_cons]⟩
    obtain ⟨l, h1, h2⟩ := key h hm
    refine ⟨l, h1, ?_⟩
    show _ = c!";" ++ Spec.joinWith c!";" ts
    rw [h2]
    have hne : ts ≠ [] := by rintro rfl; cases h; exact hne rfl
    clear h h2
    induction ts with
    | nil => exact absurd rfl hne
    | cons t ts ih =>
      cases ts with
      | nil => simp [Spec.joinWith]
      | cons u ts =>
        have := ih (by simp)
        rw [List.map_cons, List.flatten_cons, this]
        simp [Spec.joinWith]

private theorem form_Text {v : Text} (h : FineText v) : FormOut textForm v := fun _ _ hf => ⟨paramsOut h.2 hf.1, escaped_clean hf.2 h.1⟩
private theorem form_Uri {v : Uri} (h : FineUri v) : FormOut uriForm v := fun _ _ hf => ⟨paramsOut h.2 hf.1, escaped_clean hf.2 h.1⟩
private theorem form_shown {α : Type} {f : α → Str} {v : α} (h : NoControl (f v)) : FormOut (shown f) v := by
  rintro ps t ⟨rfl, rfl⟩; exact ⟨.none, h⟩
private theorem form_Nat (n : Nat) : FormOut numberForm n := by
  rintro ps t ⟨rfl, h⟩
  refine ⟨.none, fun c hc hcc => ?_⟩
  have := (Digits_iff.1 h.1).2 c hc
  have := isDigit_iff.1 this
  have e0 : '0'.toNat = 48 := rfl
  have e9 : '9'.toNat = 57 := rfl
  have h1 : '0'.toNat ≤ c.toNat := this.1
  have h2 : c.toNat ≤ '9'.toNat := this.2
  unfold Control at hcc
  omega
private theorem nameTok {n : Str} (h : (!n.isEmpty && n.all (fun c => decide (TokenChar c))) = true) : IsToken n := by
  simp only [Bool.and_eq_true, List.all_eq_true, decide_eq_true_eq, Bool.not_eq_true', List.isEmpty_eq_false_iff] at h
  exact h
private theorem psOut_value {v : Str} (h : ∀ c ∈ v, SafeChar c) : PsOut (some (c!"VALUE=" ++ v)) :=
  ⟨[⟨c!"VALUE", .text v, []⟩], by
    intro p hp
    obtain rfl := List.mem_singleton.1 hp
    exact ⟨⟨(nameTok rfl), h, by simp⟩, by intro s hs; simp at hs⟩, by simp [Param.str, Param.raw, ParamValue.str]⟩
private theorem form_Date (d : Date) : FormOut dateForm d := by
  rintro ps t ⟨rfl, h⟩
  refine ⟨?_, nctl_date d⟩
  cases d with
  | date d => subst h; exact psOut_value (v := c!"DATE") (by unfold SafeChar; decide)
  | dateTime d => subst h; exact .none
private theorem form_Trigger (d : Trigger) : FormOut triggerForm d := by
  intro ps t h
  cases d with
  | duration d => obtain ⟨rfl, rfl⟩ := h; exact ⟨psOut_value (v := c!"DURATION") (by unfold SafeChar; decide), nctl_delta d⟩
  | dateTime d => obtain ⟨rfl, rfl⟩ := h; exact ⟨psOut_value (v := c!"DATE-TIME") (by unfold SafeChar; decide), nctl_dateTime d⟩
private theorem form_Rule (r : Recur) : FormOut ruleForm r := by
  rintro ps t ⟨rfl, h⟩
  obtain ⟨u, h1, h2⟩ := (nval_Rule r).1
  rw [← C74_rule, h1] at h
  cases h
  exact ⟨.none, h2⟩
private theorem form_RequestStatus (hf : FineFloats) {r : RequestStatus} (h : FineRequestStatus r) : FormOut requestStatusForm r := by
  rintro ps t ⟨rfl, d, hd, ht⟩
  refine ⟨.none, ?_⟩
  cases he : r.extdata with
  | none => rw [he] at ht; subst ht; exact ((hf _).2.append (by decide)).append (escaped_clean hd h.1)
  | some e =>
    rw [he] at ht
    obtain ⟨x, hx, rfl⟩ := ht
    exact ((((hf _).2.append (by decide)).append (escaped_clean hd h.1)).append (by decide)).append (escaped_clean hx (h.2 e he))
private theorem form_Class {c : Class} (h : FineClass c) : FormOut (shown Class.toStr) c := form_shown (by
  cases c with
  | custom s => exact h s rfl
  | _ => exact .lit rfl)
private theorem form_Geo (hf : FineFloats) (g : Geo) : FormOut (shown Geo.toStr) g := form_shown ((hf _).1.append (.cons (by decide) (hf _).1))
private theorem form_Status (v : Status) : FormOut (shown Status.toStr) v := form_shown (by cases v <;> exact .lit rfl)
private theorem form_Transp (v : TimeTransparency) : FormOut (shown TimeTransparency.toStr) v := form_shown (by cases v <;> exact .lit rfl)
private theorem form_RDate (v : RDate) : FormOut (shown RDate.toStr) v := form_shown (by
  obtain ⟨t, h1, h2⟩ := (nval_RDate v).1
  cases h1
  exact h2)

/-! ## Frames -/

/-- Every part is written as lines. -/
private def AllLines : List (Str → Prop) → Prop
  | [] => True
  | P :: Ps => (∀ out, P out → LinesOut out) ∧ AllLines Ps

/-- Every part is written as components. -/
private def AllTrees (ps : List Str) : List (Str → Prop) → Prop
  | [] => True
  | P :: Ps => (∀ out, P out → TreesOut ps out) ∧ AllTrees ps Ps

/-- No part is written. -/
private def AllNone : List (Str → Prop) → Prop
  | [] => True
  | P :: Ps => (∀ out, P out → out = []) ∧ AllNone Ps

private theorem concat_lines {Ps : List (Str → Prop)} {b : Str} (h : Concat Ps b) (ha : AllLines Ps) : LinesOut b := by
  induction h with
  | nil => exact .nil
  | cons hp _ ih => exact (ha.1 _ hp).append (ih ha.2)

private theorem concat_trees {ps : List Str} {Ps : List (Str → Prop)} {b : Str} (h : Concat Ps b) (ha : AllTrees ps Ps) : TreesOut ps b := by
  induction h with
  | nil => exact .nil
  | cons hp _ ih => exact (ha.1 _ hp).append (ih ha.2)

private theorem concat_none {Ps : List (Str → Prop)} {b : Str} (h : Concat Ps b) (ha : AllNone Ps) : b = [] := by
  induction h with
  | nil => rfl
  | cons hp _ ih => rw [ha.1 _ hp, ih ha.2]; rfl

private theorem concat_split {As Bs : List (Str → Prop)} {b : Str} (h : Concat (As ++ Bs) b) : ∃ x y, b = x ++ y ∧ Concat As x ∧ Concat Bs y := by
  induction As generalizing b with
  | nil => exact ⟨[], b, rfl, .nil, h⟩
  | cons A As ih =>
    cases h with
    | cons hp h =>
      obtain ⟨x, y, rfl, h1, h2⟩ := ih h
      exact ⟨_ ++ x, y, by simp, .cons hp h1, h2⟩

private theorem frame_text {name : Str} (hn : IsToken name) {ps : List Str} {As Bs Cs : List (Str → Prop)} {out : Str} (hA : AllLines As) (hB : AllTrees ps Bs) (hC : AllLines Cs)
    (hBC : AllNone Bs ∨ AllNone Cs) (h : Frame name (As ++ (Bs ++ Cs)) out) : IsText name ps out ∧ HeadOk out := by
  obtain ⟨b, hb, rfl⟩ := h
  obtain ⟨x, b, rfl, h1, hb⟩ := concat_split hb
  obtain ⟨y, z, rfl, h2, h3⟩ := concat_split hb
  have cl : NoControl name := by
    intro c hc
    exact (param_clean (p := ⟨name, .text [], []⟩) ⟨hn, by simp [ParamValue.Ok], by simp⟩) c (by simp [Param.str, hc])
  have frame : ∀ w : Str, IsToken w → NoControl w → SpaceUnfolds (w ++ c!":" ++ name ++ c!"\r\n") (w ++ c!":" ++ name ++ c!"\r\n") ∧
      HeadOk (w ++ c!":" ++ name ++ c!"\r\n") := by
    intro w hw hw'
    refine ⟨unfolds_tame (tame_line ((hw'.append (by decide)).append cl)), ?_⟩
    have := headOk_token (s := c!":" ++ name ++ c!"\r\n") hw
    simpa using this
  have fb := frame c!"BEGIN" ⟨by decide, by unfold TokenChar; decide⟩ (by decide)
  have fe := frame c!"END" ⟨by decide, by unfold TokenChar; decide⟩ (by decide)
  have body : ∃ (ls : List Line) (ts : List Tree), (∀ l ∈ ls, GoodLine l) ∧ (∀ t ∈ ts, t.Good ∧ ∃ n ls us, t = .mk n ls us ∧ n ∈ ps) ∧
      SpaceUnfolds (x ++ (y ++ z)) ((ls.map Line.str).flatten ++ Tree.strs ts) ∧ HeadOk (x ++ (y ++ z)) := by
    rcases hBC with hN | hN
    · obtain rfl := concat_none h2 hN
      obtain ⟨ls, l1, l2, l3⟩ := (concat_lines h1 hA).append (concat_lines h3 hC)
      exact ⟨ls, [], l1, by simp, by simpa [Tree.strs] using l2, l3⟩
    · obtain rfl := concat_none h3 hN
      obtain ⟨ls, l1, l2, l3⟩ := concat_lines h1 hA
      obtain ⟨ts, t1, t2, t3⟩ := concat_trees h2 hB
      refine ⟨ls, ts, l1, t1, ?_, ?_⟩
      · rw [List.append_nil]; exact unfolds_append l2 t2 t3
      · rw [List.append_nil]; exact headOk_append l3 t3
  obtain ⟨ls, ts, l1, t1, u1, u2⟩ := body
  refine ⟨⟨ls, ts, .mk hn l1 fun t ht => (t1 t ht).1, fun t ht => (t1 t ht).2, ?_⟩, ?_⟩
  · have := unfolds_append fb.1 (unfolds_append u1 fe.1 fe.2) (headOk_append u2 fe.2)
    exact ⟨by simpa [Tree.str] using this.rfc, by simpa using this.noTab⟩
  · have := headOk_append fb.2 (headOk_append u2 fe.2)
    simpa using this

private theorem innerOut {α : Type} {name nm : Str} {qs ps : List Str} {W : α → Str → Prop} {l : List α} (hl : OneOrNone l) (hm : nm ∈ ps)
    (hW : ∀ a ∈ l, ∀ out, W a out → IsText nm qs out ∧ HeadOk out) : ∀ out, Inner name W l out → TreesOut ps out := by
  intro out h
  match l, hl, hW, h with
  | [], _, _, h =>
    obtain ⟨ts, h1, h2⟩ := h
    cases h1
    rcases h2 with ⟨-, rfl⟩ | ⟨h, -⟩
    · exact .nil
    · exact absurd rfl h
  | [v], _, hW, h =>
    obtain ⟨⟨ls, us, hg, -, hu⟩, hh⟩ := hW v List.mem_cons_self out h
    refine ⟨[.mk nm ls us], ?_, by simpa [Tree.strs] using SpaceUnfolds.of hu.1 hu.2, hh⟩
    intro t ht
    obtain rfl := List.mem_singleton.1 ht
    exact ⟨hg, nm, ls, us, rfl, hm⟩
  | _ :: _ :: _, hl, _, _ => simp [OneOrNone] at hl

private theorem innerNone {α : Type} {name : Str} {W : α → Str → Prop} : ∀ out, Inner name W [] out → out = [] := by
  rintro out ⟨ts, h1, h2⟩
  cases h1
  rcases h2 with ⟨-, rfl⟩ | ⟨h, -⟩
  · rfl
  · exact absurd rfl h

private theorem extensionsNone {name : Str} : ∀ out, Extensions name [] out → out = [] := by
  rintro out ⟨ts, h1, h2⟩
  cases h1
  rcases h2 with ⟨-, rfl⟩ | ⟨h, -⟩
  · rfl
  · exact absurd rfl h

private theorem repeatedNone {α : Type} {name : Str} {F : Form α} {l : List α} (hl : l = []) : ∀ out, Repeated name F l out → out = [] := by
  rintro out h
  subst hl
  obtain ⟨ts, h1, h2⟩ := h
  cases h1
  rcases h2 with ⟨-, rfl⟩ | ⟨h, -⟩
  · rfl
  · exact absurd rfl h

private theorem repeatedEmpty {α : Type} {name : Str} {F : Form α} {l : List α} (hl : l = []) : ∀ out, Repeated name F l out → LinesOut out :=
  fun out h => repeatedNone hl out h ▸ .nil

private theorem nameOk {n : Str} (h : (!n.isEmpty && n.all (fun c => decide (TokenChar c)) && n != c!"BEGIN" && n != c!"END") = true) : NameOk n := by
  simp only [Bool.and_eq_true, bne_iff_ne, ne_eq, List.all_eq_true, decide_eq_true_eq, Bool.not_eq_true', List.isEmpty_eq_false_iff] at h
  exact ⟨⟨h.1.1.1, h.1.1.2⟩, h.1.2, h.2⟩

/-! ## Components -/

section
variable (hf : FineFloats)
include hf

private theorem lines_Audio {v : Audio} (h : FineAudio v) : AllLines (AudioLines v) :=
  ⟨singleOut (nameOk rfl) (form_Text h.action),
   singleOut (nameOk rfl) (form_Trigger _),
   optionalOut (nameOk rfl) fun _ _ => form_shown (nctl_delta _),
   optionalOut (nameOk rfl) fun a _ => form_Nat a,
   repeatedOut (nameOk rfl) fun a ha => form_Text (h.attach a ha),
   extensionsOut (nameOk rfl) h.xProp,
   extensionsOut (nameOk rfl) h.ianaProp, trivial⟩

private theorem lines_Display {v : Display} (h : FineDisplay v) : AllLines (DisplayLines v) :=
  ⟨singleOut (nameOk rfl) (form_Text h.action),
   singleOut (nameOk rfl) (form_Trigger _),
   singleOut (nameOk rfl) (form_Text h.description),
   optionalOut (nameOk rfl) fun _ _ => form_shown (nctl_delta _),
   optionalOut (nameOk rfl) fun a _ => form_Nat a,
   extensionsOut (nameOk rfl) h.xProp,
   extensionsOut (nameOk rfl) h.ianaProp, trivial⟩

private theorem lines_Email {v : Email} (h : FineEmail v) : AllLines (EmailLines v) :=
  ⟨singleOut (nameOk rfl) (form_Text h.action),
   singleOut (nameOk rfl) (form_Trigger _),
   singleOut (nameOk rfl) (form_Text h.description),
   singleOut (nameOk rfl) (form_Text h.summary),
   repeatedOut (nameOk rfl) fun a ha => form_Uri (h.attendee a ha),
   optionalOut (nameOk rfl) fun _ _ => form_shown (nctl_delta _),
   optionalOut (nameOk rfl) fun a _ => form_Nat a,
   repeatedOut (nameOk rfl) fun a ha => form_Text (h.attach a ha),
   extensionsOut (nameOk rfl) h.xProp,
   extensionsOut (nameOk rfl) h.ianaProp, trivial⟩

private theorem lines_VEvent {v : VEvent} (h : FineVEvent v) : AllLines (VEventLines v) :=
  ⟨singleOut (nameOk rfl) (form_shown (nctl_dateTime _)),
   singleOut (nameOk rfl) (form_Text h.uid),
   singleOut (nameOk rfl) (form_Date _),
   optionalOut (nameOk rfl) fun a ha => form_Class (h.class_ a ha),
   optionalOut (nameOk rfl) fun _ _ => form_shown (nctl_dateTime _),
   optionalOut (nameOk rfl) fun a ha => form_Text (h.description a ha),
   optionalOut (nameOk rfl) fun a _ => form_Geo hf a,
   optionalOut (nameOk rfl) fun _ _ => form_shown (nctl_dateTime _),
   optionalOut (nameOk rfl) fun a ha => form_Text (h.location a ha),
   optionalOut (nameOk rfl) fun a ha => form_Uri (h.organizer a ha),
   optionalOut (nameOk rfl) fun a _ => form_Nat a,
   optionalOut (nameOk rfl) fun a _ => form_Nat a,
   optionalOut (nameOk rfl) fun a _ => form_Status a,
   optionalOut (nameOk rfl) fun a ha => form_Text (h.summary a ha),
   optionalOut (nameOk rfl) fun a _ => form_Transp a,
   optionalOut (nameOk rfl) fun a ha => form_Uri (h.url a ha),
   optionalOut (nameOk rfl) fun a _ => form_Date a,
   optionalOut (nameOk rfl) fun a _ => form_Rule a,
   optionalOut (nameOk rfl) fun a _ => form_Date a,
   optionalOut (nameOk rfl) fun _ _ => form_shown (nctl_delta _),
   repeatedOut (nameOk rfl) fun a ha => form_Text (h.attach a ha),
   repeatedOut (nameOk rfl) fun a ha => form_Uri (h.attendee a ha),
   repeatedOut (nameOk rfl) fun a ha => form_Text (h.categories a ha),
   repeatedOut (nameOk rfl) fun a ha => form_Text (h.comment a ha),
   repeatedOut (nameOk rfl) fun a ha => form_Text (h.contact a ha),
   repeatedOut (nameOk rfl) fun a _ => form_Date a,
   repeatedOut (nameOk rfl) fun a ha => form_RequestStatus hf (h.rstatus a ha),
   repeatedOut (nameOk rfl) fun a ha => form_Text (h.relatedTo a ha),
   repeatedOut (nameOk rfl) fun a ha => form_Text (h.resources a ha),
   repeatedOut (nameOk rfl) fun a _ => form_RDate a,
   repeatedEmpty h.alarms,
   extensionsOut (nameOk rfl) h.xProp,
   extensionsOut (nameOk rfl) h.ianaProp, trivial⟩

private theorem text_VEvent {v : VEvent} (h : FineVEvent v) (out : Str) (ho : VEventOutput v out) : IsText c!"VEVENT" [] out ∧ HeadOk out :=
  frame_text (Bs := []) (Cs := []) (nameOk rfl).1 (lines_VEvent hf h) trivial trivial (.inl trivial) (by rw [List.append_nil, List.append_nil]; exact ho)

private theorem lines_VFreebusy {v : VFreebusy} (h : FineVFreebusy v) : AllLines (VFreebusyLines v) :=
  ⟨singleOut (nameOk rfl) (form_shown (nctl_dateTime _)),
   singleOut (nameOk rfl) (form_Text h.uid),
   optionalOut (nameOk rfl) fun a ha => form_Text (h.contact a ha),
   optionalOut (nameOk rfl) fun a _ => form_Date a,
   optionalOut (nameOk rfl) fun a _ => form_Date a,
   optionalOut (nameOk rfl) fun a ha => form_Uri (h.organizer a ha),
   optionalOut (nameOk rfl) fun a ha => form_Uri (h.url a ha),
   repeatedOut (nameOk rfl) fun a ha => form_Uri (h.attendee a ha),
   repeatedOut (nameOk rfl) fun a ha => form_Text (h.comment a ha),
   repeatedOut (nameOk rfl) fun _ _ => form_shown (nctl_period _),
   repeatedOut (nameOk rfl) fun a ha => form_RequestStatus hf (h.rstatus a ha),
   extensionsOut (nameOk rfl) h.xProp,
   extensionsOut (nameOk rfl) h.ianaProp, trivial⟩

private theorem text_VFreebusy {v : VFreebusy} (h : FineVFreebusy v) (out : Str) (ho : VFreebusyOutput v out) : IsText c!"VFREEBUSY" [] out ∧ HeadOk out :=
  frame_text (Bs := []) (Cs := []) (nameOk rfl).1 (lines_VFreebusy hf h) trivial trivial (.inl trivial) (by rw [List.append_nil, List.append_nil]; exact ho)

private theorem lines_VJournal {v : VJournal} (h : FineVJournal v) : AllLines (VJournalLines v) :=
  ⟨singleOut (nameOk rfl) (form_shown (nctl_dateTime _)),
   singleOut (nameOk rfl) (form_Text h.uid),
   optionalOut (nameOk rfl) fun a ha => form_Class (h.class_ a ha),
   optionalOut (nameOk rfl) fun _ _ => form_shown (nctl_dateTime _),
   singleOut (nameOk rfl) (form_Date _),
   optionalOut (nameOk rfl) fun _ _ => form_shown (nctl_dateTime _),
   optionalOut (nameOk rfl) fun a ha => form_Uri (h.organizer a ha),
   optionalOut (nameOk rfl) fun a _ => form_Date a,
   optionalOut (nameOk rfl) fun a _ => form_Nat a,
   optionalOut (nameOk rfl) fun a _ => form_Status a,
   optionalOut (nameOk rfl) fun a ha => form_Text (h.summary a ha),
   optionalOut (nameOk rfl) fun a ha => form_Uri (h.url a ha),
   optionalOut (nameOk rfl) fun a _ => form_Rule a,
   repeatedOut (nameOk rfl) fun a ha => form_Text (h.attach a ha),
   repeatedOut (nameOk rfl) fun a ha => form_Uri (h.attendee a ha),
   repeatedOut (nameOk rfl) fun a ha => form_Text (h.categories a ha),
   repeatedOut (nameOk rfl) fun a ha => form_Text (h.comment a ha),
   repeatedOut (nameOk rfl) fun a ha => form_Text (h.contact a ha),
   repeatedOut (nameOk rfl) fun a ha => form_Text (h.description a ha),
   repeatedOut (nameOk rfl) fun a _ => form_Date a,
   repeatedOut (nameOk rfl) fun a ha => form_Text (h.relatedTo a ha),
   repeatedOut (nameOk rfl) fun a _ => form_RDate a,
   repeatedOut (nameOk rfl) fun a ha => form_RequestStatus hf (h.rstatus a ha),
   extensionsOut (nameOk rfl) h.xProp,
   extensionsOut (nameOk rfl) h.ianaProp, trivial⟩

private theorem text_VJournal {v : VJournal} (h : FineVJournal v) (out : Str) (ho : VJournalOutput v out) : IsText c!"VJOURNAL" [] out ∧ HeadOk out :=
  frame_text (Bs := []) (Cs := []) (nameOk rfl).1 (lines_VJournal hf h) trivial trivial (.inl trivial) (by rw [List.append_nil, List.append_nil]; exact ho)

private theorem lines_Standard {v : Standard} (h : FineStandard v) : AllLines (StandardLines v) :=
  ⟨singleOut (nameOk rfl) (form_Date _),
   singleOut (nameOk rfl) (form_shown (nctl_offset _)),
   singleOut (nameOk rfl) (form_shown (nctl_offset _)),
   optionalOut (nameOk rfl) fun a _ => form_Rule a,
   repeatedOut (nameOk rfl) fun a ha => form_Text (h.comment a ha),
   repeatedOut (nameOk rfl) fun a _ => form_RDate a,
   repeatedOut (nameOk rfl) fun a ha => form_Text (h.tzname a ha),
   extensionsOut (nameOk rfl) h.xProp,
   extensionsOut (nameOk rfl) h.ianaProp, trivial⟩

private theorem text_Standard {v : Standard} (h : FineStandard v) (out : Str) (ho : StandardOutput v out) : IsText c!"STANDARD" [] out ∧ HeadOk out :=
  frame_text (Bs := []) (Cs := []) (nameOk rfl).1 (lines_Standard hf h) trivial trivial (.inl trivial) (by rw [List.append_nil, List.append_nil]; exact ho)

private theorem lines_Daylight {v : Daylight} (h : FineDaylight v) : AllLines (DaylightLines v) :=
  ⟨singleOut (nameOk rfl) (form_Date _),
   singleOut (nameOk rfl) (form_shown (nctl_offset _)),
   singleOut (nameOk rfl) (form_shown (nctl_offset _)),
   optionalOut (nameOk rfl) fun a _ => form_Rule a,
   repeatedOut (nameOk rfl) fun a ha => form_Text (h.comment a ha),
   repeatedOut (nameOk rfl) fun a _ => form_RDate a,
   repeatedOut (nameOk rfl) fun a ha => form_Text (h.tzname a ha),
   extensionsOut (nameOk rfl) h.xProp,
   extensionsOut (nameOk rfl) h.ianaProp, trivial⟩

private theorem text_Daylight {v : Daylight} (h : FineDaylight v) (out : Str) (ho : DaylightOutput v out) : IsText c!"DAYLIGHT" [] out ∧ HeadOk out :=
  frame_text (Bs := []) (Cs := []) (nameOk rfl).1 (lines_Daylight hf h) trivial trivial (.inl trivial) (by rw [List.append_nil, List.append_nil]; exact ho)

private theorem lines_VTodo {v : VTodo} (h : FineVTodo v) : AllLines (VTodoLines v) :=
  ⟨singleOut (nameOk rfl) (form_shown (nctl_dateTime _)),
   singleOut (nameOk rfl) (form_Text h.uid),
   optionalOut (nameOk rfl) fun a ha => form_Class (h.class_ a ha),
   optionalOut (nameOk rfl) fun _ _ => form_shown (nctl_dateTime _),
   optionalOut (nameOk rfl) fun _ _ => form_shown (nctl_dateTime _),
   optionalOut (nameOk rfl) fun a _ => form_Date a,
   optionalOut (nameOk rfl) fun a _ => form_Geo hf a,
   optionalOut (nameOk rfl) fun _ _ => form_shown (nctl_dateTime _),
   optionalOut (nameOk rfl) fun a ha => form_Text (h.location a ha),
   optionalOut (nameOk rfl) fun a ha => form_Uri (h.organizer a ha),
   optionalOut (nameOk rfl) fun a _ => form_Nat a,
   optionalOut (nameOk rfl) fun a _ => form_Nat a,
   optionalOut (nameOk rfl) fun a _ => form_Date a,
   optionalOut (nameOk rfl) fun a _ => form_Nat a,
   optionalOut (nameOk rfl) fun a _ => form_Status a,
   optionalOut (nameOk rfl) fun a ha => form_Text (h.summary a ha),
   optionalOut (nameOk rfl) fun a ha => form_Uri (h.url a ha),
   optionalOut (nameOk rfl) fun a _ => form_Rule a,
   optionalOut (nameOk rfl) fun a _ => form_Date a,
   optionalOut (nameOk rfl) fun _ _ => form_shown (nctl_delta _),
   repeatedOut (nameOk rfl) fun a ha => form_Text (h.attach a ha),
   repeatedOut (nameOk rfl) fun a ha => form_Uri (h.attendee a ha),
   repeatedOut (nameOk rfl) fun a ha => form_Text (h.categories a ha),
   repeatedOut (nameOk rfl) fun a ha => form_Text (h.comment a ha),
   repeatedOut (nameOk rfl) fun a ha => form_Text (h.contact a ha),
   repeatedOut (nameOk rfl) fun a _ => form_Date a,
   repeatedOut (nameOk rfl) fun a ha => form_RequestStatus hf (h.rstatus a ha),
   repeatedOut (nameOk rfl) fun a ha => form_Text (h.relatedTo a ha),
   repeatedOut (nameOk rfl) fun a ha => form_Text (h.resources a ha),
   repeatedOut (nameOk rfl) fun a _ => form_RDate a,
   extensionsOut (nameOk rfl) h.xProp,
   extensionsOut (nameOk rfl) h.ianaProp, trivial⟩

private theorem text_VTodo {v : VTodo} (h : FineVTodo v) (out : Str) (ho : VTodoOutput v out) : IsText c!"VTODO" [] out ∧ HeadOk out :=
  frame_text (Bs := []) (Cs := []) (nameOk rfl).1 (lines_VTodo hf h) trivial trivial (.inl trivial) (by rw [List.append_nil, List.append_nil]; exact ho)

private theorem text_VAlarm {v : VAlarm} (h : FineVAlarm v) (out : Str) (ho : VAlarmOutput v out) : IsText c!"VALARM" [] out ∧ HeadOk out := by
  cases v with
  | audio a => exact frame_text (Bs := []) (Cs := []) (nameOk rfl).1 (lines_Audio hf h) trivial trivial (.inl trivial) (by rw [List.append_nil, List.append_nil]; exact ho)
  | display a => exact frame_text (Bs := []) (Cs := []) (nameOk rfl).1 (lines_Display hf h) trivial trivial (.inl trivial) (by rw [List.append_nil, List.append_nil]; exact ho)
  | email a => exact frame_text (Bs := []) (Cs := []) (nameOk rfl).1 (lines_Email hf h) trivial trivial (.inl trivial) (by rw [List.append_nil, List.append_nil]; exact ho)

private theorem text_VTimezone {v : VTimezone} (h : FineVTimezone v) (out : Str) (ho : VTimezoneOutput v out) : IsText c!"VTIMEZONE" [c!"STANDARD", c!"DAYLIGHT"] out ∧ HeadOk out := by
  refine frame_text (As := [Single c!"TZID" textForm v.tzid, Optional c!"LAST-MODIFIED" (shown DateTime.toStr) v.lastModified, Optional c!"TZURL" uriForm v.tzurl])
    (Bs := [Inner c!"STANDARD" StandardOutput v.standard, Inner c!"DAYLIGHT" DaylightOutput v.daylight])
    (Cs := [Extensions c!"X-PROP" v.xProp, Extensions c!"IANA-PROP" v.ianaProp]) (nameOk rfl).1
    ⟨singleOut (nameOk rfl) (form_Text h.tzid),
     optionalOut (nameOk rfl) fun _ _ => form_shown (nctl_dateTime _),
     optionalOut (nameOk rfl) fun a ha => form_Uri (h.tzurl a ha), trivial⟩
    ⟨innerOut h.standard.1 (by decide) fun a ha => text_Standard hf (h.standard.2 a ha),
     innerOut h.daylight.1 (by decide) fun a ha => text_Daylight hf (h.daylight.2 a ha), trivial⟩
    ⟨extensionsOut (nameOk rfl) h.xProp,
     extensionsOut (nameOk rfl) h.ianaProp, trivial⟩ ?_ ho
  rcases h.order with ⟨e0, e1⟩ | ⟨e, e'⟩
  · exact .inl ⟨e0 ▸ innerNone, e1 ▸ innerNone, trivial⟩
  · exact .inr ⟨e ▸ extensionsNone, e' ▸ extensionsNone, trivial⟩

private theorem text_VCalendar {v : VCalendar} (h : FineVCalendar v) (out : Str) (ho : VCalendarOutput v out) : IsText c!"VCALENDAR" [c!"VEVENT", c!"VFREEBUSY", c!"VJOURNAL", c!"VTODO", c!"VTIMEZONE"] out ∧ HeadOk out := by
  refine frame_text (As := [Single c!"PRODID" textForm v.prodid, Single c!"VERSION" textForm v.version, Optional c!"CALSCALE" textForm v.calscale, Optional c!"METHOD" textForm v.method, Repeated c!"ALARMS" alarmForm v.alarms])
    (Bs := [Inner c!"EVENTS" VEventOutput v.events, Inner c!"FREEBUSY" VFreebusyOutput v.freebusy, Inner c!"JOURNALS" VJournalOutput v.journals, Inner c!"TODO" VTodoOutput v.todo, Inner c!"TIMEZONES" VTimezoneOutput v.timezones])
    (Cs := [Extensions c!"X-PROP" v.xProp, Extensions c!"IANA-PROP" v.ianaProp]) (nameOk rfl).1
    ⟨singleOut (nameOk rfl) (form_Text h.prodid),
     singleOut (nameOk rfl) (form_Text h.version),
     optionalOut (nameOk rfl) fun a ha => form_Text (h.calscale a ha),
     optionalOut (nameOk rfl) fun a ha => form_Text (h.method a ha),
     repeatedEmpty h.alarms, trivial⟩
    ⟨innerOut h.events.1 (by decide) fun a ha => text_VEvent hf (h.events.2 a ha),
     innerOut h.freebusy.1 (by decide) fun a ha => text_VFreebusy hf (h.freebusy.2 a ha),
     innerOut h.journals.1 (by decide) fun a ha => text_VJournal hf (h.journals.2 a ha),
     innerOut h.todo.1 (by decide) fun a ha => text_VTodo hf (h.todo.2 a ha),
     innerOut h.timezones.1 (by decide) fun a ha => text_VTimezone hf (h.timezones.2 a ha), trivial⟩
    ⟨extensionsOut (nameOk rfl) h.xProp,
     extensionsOut (nameOk rfl) h.ianaProp, trivial⟩ ?_ ho
  rcases h.order with ⟨e0, e1, e2, e3, e4⟩ | ⟨e, e'⟩
  · exact .inl ⟨e0 ▸ innerNone, e1 ▸ innerNone, e2 ▸ innerNone, e3 ▸ innerNone, e4 ▸ innerNone, trivial⟩
  · exact .inr ⟨e ▸ extensionsNone, e' ▸ extensionsNone, trivial⟩

/-- **C100** for an alarm: what is written is a text of RFC 5545. -/
theorem C100_VAlarm {v : VAlarm} (h : FineVAlarm v) (t : Str) (ht : ical v = .ok t) : IsText c!"VALARM" [] t :=
  (text_VAlarm hf h t ((C75_VAlarm v).1 t |>.1 ht)).1

/-- **C100** for an event: what is written is a text of RFC 5545. -/
theorem C100_VEvent {v : VEvent} (h : FineVEvent v) (t : Str) (ht : ical v = .ok t) : IsText c!"VEVENT" [] t :=
  (text_VEvent hf h t ((C75_VEvent v).1 t |>.1 ht)).1

/-- **C100** for a to-do: what is written is a text of RFC 5545. -/
theorem C100_VTodo {v : VTodo} (h : FineVTodo v) (t : Str) (ht : ical v = .ok t) : IsText c!"VTODO" [] t :=
  (text_VTodo hf h t ((C75_VTodo v).1 t |>.1 ht)).1

/-- **C100** for a journal entry: what is written is a text of RFC 5545. -/
theorem C100_VJournal {v : VJournal} (h : FineVJournal v) (t : Str) (ht : ical v = .ok t) : IsText c!"VJOURNAL" [] t :=
  (text_VJournal hf h t ((C75_VJournal v).1 t |>.1 ht)).1

/-- **C100** for a free/busy time: what is written is a text of RFC 5545. -/
theorem C100_VFreebusy {v : VFreebusy} (h : FineVFreebusy v) (t : Str) (ht : ical v = .ok t) : IsText c!"VFREEBUSY" [] t :=
  (text_VFreebusy hf h t ((C75_VFreebusy v).1 t |>.1 ht)).1

/-- **C100** for the standard part of a time zone: what is written is a text of RFC 5545. -/
theorem C100_Standard {v : Standard} (h : FineStandard v) (t : Str) (ht : ical v = .ok t) : IsText c!"STANDARD" [] t :=
  (text_Standard hf h t ((C75_Standard v).1 t |>.1 ht)).1

/-- **C100** for the daylight part of a time zone: what is written is a text of RFC 5545. -/
theorem C100_Daylight {v : Daylight} (h : FineDaylight v) (t : Str) (ht : ical v = .ok t) : IsText c!"DAYLIGHT" [] t :=
  (text_Daylight hf h t ((C75_Daylight v).1 t |>.1 ht)).1

/-- **C100** for a time zone: what is written is a text of RFC 5545. -/
theorem C100_VTimezone {v : VTimezone} (h : FineVTimezone v) (t : Str) (ht : ical v = .ok t) : IsText c!"VTIMEZONE" [c!"STANDARD", c!"DAYLIGHT"] t :=
  (text_VTimezone hf h t ((C75_VTimezone v).1 t |>.1 ht)).1

/-- **C100** for a calendar: what is written is a text of RFC 5545. -/
theorem C100_VCalendar {v : VCalendar} (h : FineVCalendar v) (t : Str) (ht : ical v = .ok t) : IsText c!"VCALENDAR" [c!"VEVENT", c!"VFREEBUSY", c!"VJOURNAL", c!"VTODO", c!"VTIMEZONE"] t :=
  (text_VCalendar hf h t ((C75_VCalendar v).1 t |>.1 ht)).1

end

/-- **C100**: what `f32` shows has no control characters. -/
theorem C100_floats (P : Platform) : @FineFloats (ieee P) := by
  have key : ∀ c : Char, NumberChar c → ¬ Control c := by
    intro c hc hcc
    rcases hc with h | h
    · have := isDigit_iff.1 h
      have e0 : '0'.toNat = 48 := rfl
      have e9 : '9'.toNat = 57 := rfl
      have h1 : '0'.toNat ≤ c.toNat := this.1
      have h2 : c.toNat ≤ '9'.toNat := this.2
      unfold Control at hcc
      omega
    · simp only [strLit, List.mem_cons, List.not_mem_nil, or_false] at h
      rcases h with rfl | rfl | rfl | rfl | rfl | rfl | rfl | rfl <;> exact absurd hcc (by decide)
  exact fun x => ⟨fun c hc => key c ((shown_chars x).1 c hc), fun c hc => key c ((shown_chars x).2 c hc)⟩

/-! ## What is not RFC 5545 text -/

/-- After a carriage return there is a line feed, and then the text ends or the next line begins with its name. -/
private def CrEnds (s : Str) : Prop := ∀ a b, s = a ++ '\r' :: b → ∃ r, b = '\n' :: r ∧ ∀ c, r.head? = some c → TokenChar c

private def NameFirst (s : Str) : Prop := ∀ c, s.head? = some c → TokenChar c

private theorem NameFirst.append {a b : Str} (ha : NameFirst a) (hb : NameFirst b) : NameFirst (a ++ b) := by
  cases a with
  | nil => exact hb
  | cons c a => exact ha

private theorem CrEnds.append {x y : Str} (hx : CrEnds x) (hy : CrEnds y) (hb : NameFirst y) : CrEnds (x ++ y) := by
  intro a b e
  rcases List.append_eq_append_iff.1 e with ⟨l, rfl, rfl⟩ | ⟨l, rfl, e'⟩
  · exact hy l b rfl
  · cases l with
    | nil => exact hy [] b (by simpa using e'.symm)
    | cons c l =>
      simp only [List.cons_append, List.cons.injEq] at e'
      obtain ⟨rfl, rfl⟩ := e'
      obtain ⟨r, rfl, hr⟩ := hx a l rfl
      refine ⟨r ++ y, rfl, ?_⟩
      cases r with
      | nil => exact hb
      | cons d r => exact hr

private theorem ends_line {s : Str} (h : NoControl s) : CrEnds (s ++ c!"\r\n") := by
  intro a b e
  rcases tame_line h a b e with rfl | rfl
  · have := congrArg List.getLast? e
    rw [List.getLast?_append, List.getLast?_append] at this
    simp at this
  · exact ⟨[], rfl, by simp⟩

private theorem begins_token {n s : Str} (h : IsToken n) : NameFirst (n ++ s) := by
  intro c hc
  cases n with
  | nil => exact absurd rfl h.1
  | cons d n => cases hc; exact h.2 c List.mem_cons_self

private theorem ends_lines {ls : List Line} (h : ∀ l ∈ ls, GoodLine l) : CrEnds (ls.map Line.str).flatten ∧ NameFirst (ls.map Line.str).flatten := by
  induction ls with
  | nil => exact ⟨by intro a b e; simp at e, by simp [NameFirst]⟩
  | cons l ls ih =>
    obtain ⟨i1, i2⟩ := ih fun l hl => h l (List.mem_cons_of_mem _ hl)
    have hl := (h l List.mem_cons_self).1
    obtain ⟨s, e, hs⟩ := line_clean hl
    have b1 : NameFirst l.str := by
      have := begins_token (s := (l.params.map Param.str).flatten ++ c!":" ++ l.value ++ c!"\r\n") hl.1
      simpa [Line.str] using this
    rw [List.map_cons, List.flatten_cons]
    exact ⟨(e ▸ ends_line hs : CrEnds l.str).append i1 i2, b1.append i2⟩

mutual
private theorem ends_tree : (t : Tree) → t.Good → CrEnds t.str ∧ NameFirst t.str
  | .mk n ls ts, h => by
    cases h with
    | mk hn hl ht =>
      obtain ⟨l1, l2⟩ := ends_lines hl
      obtain ⟨t1, t2⟩ := ends_trees ts ht
      have cl : NoControl n := by
        intro c hc
        exact (param_clean (p := ⟨n, .text [], []⟩) ⟨hn, by simp [ParamValue.Ok], by simp⟩) c (by simp [Param.str, hc])
      have frame : ∀ w : Str, IsToken w → NoControl w → CrEnds (w ++ c!":" ++ n ++ c!"\r\n") ∧ NameFirst (w ++ c!":" ++ n ++ c!"\r\n") := by
        intro w hw hw'
        refine ⟨ends_line ((hw'.append (by decide)).append cl), ?_⟩
        have := begins_token (s := c!":" ++ n ++ c!"\r\n") hw
        simpa using this
      have fb := frame c!"BEGIN" ⟨by decide, by unfold TokenChar; decide⟩ (by decide)
      have fe := frame c!"END" ⟨by decide, by unfold TokenChar; decide⟩ (by decide)
      have e : (Tree.mk n ls ts).str = c!"BEGIN" ++ c!":" ++ n ++ c!"\r\n" ++ ((ls.map Line.str).flatten ++ (Tree.strs ts ++ (c!"END" ++ c!":" ++ n ++ c!"\r\n"))) := by
        simp [Tree.str]
      rw [e]
      exact ⟨fb.1.append (l1.append (t1.append fe.1 fe.2) (t2.append fe.2)) (l2.append (t2.append fe.2)), fb.2.append (l2.append (t2.append fe.2))⟩
private theorem ends_trees : (ts : List Tree) → (∀ t ∈ ts, t.Good) → CrEnds (Tree.strs ts) ∧ NameFirst (Tree.strs ts)
  | [], _ => ⟨by intro a b e; simp [Tree.strs] at e, by simp [NameFirst, Tree.strs]⟩
  | t :: ts, h => by
    obtain ⟨h1, h2⟩ := ends_tree t (h t List.mem_cons_self)
    obtain ⟨h3, h4⟩ := ends_trees ts fun t ht => h t (List.mem_cons_of_mem _ ht)
    exact ⟨by rw [Tree.strs]; exact h1.append h3 h4, by rw [Tree.strs]; exact h2.append h4⟩
end

/-- **C100**: in a text of RFC 5545, once it is unfolded, there is no carriage return but in the ends of lines, and no line that does not begin with a name;
in particular no blank line. -/
theorem C100_ends {name : Str} {ps : List Str} {t : Str} (h : IsText name ps t) :
    ∃ u, Abnf.Unfolds t u ∧ ∀ a b, u = a ++ '\r' :: b → ∃ r, b = '\n' :: r ∧ ∀ c, r.head? = some c → TokenChar c := by
  obtain ⟨ls, ts, hg, -, hu⟩ := h
  exact ⟨_, hu.1, (ends_tree _ hg).1⟩


end


/-! ## Cases -/

section
@[reducible] private def machine : Platform := ieee utc
attribute [local instance] machine

private theorem unfolds_once {s u w : Str} (h : Abnf.Unfolds s u) (h' : Abnf.Unfolds s w) : u = w := by
  induction h generalizing w with
  | nil => cases h'; rfl
  | fold hw _ ih =>
    cases h' with
    | fold _ h => exact ih h
    | keep h1 h2 _ =>
      rcases hw with rfl | rfl
      · exact absurd ⟨_, rfl⟩ h1
      · exact absurd ⟨_, rfl⟩ h2
  | keep h1 h2 _ ih =>
    cases h' with
    | fold hw _ =>
      rcases hw with rfl | rfl
      · exact absurd ⟨_, rfl⟩ h1
      · exact absurd ⟨_, rfl⟩ h2
    | keep _ _ h => rw [ih h]

private def stamp : DateTime := .naive ⟨⟨2024, 3, 31⟩, 9000, 0⟩

/-- A journal entry with an attendee with parameters, and a summary of several lines that is folded. -/
private def journal : VJournal where
  dtstamp := stamp
  uid := ⟨[], c!"u"⟩
  dtstart := .dateTime stamp
  class_ := some (.custom c!"x-secret")
  created := none
  lastModified := none
  organizer := none
  recurid := none
  sequence := none
  status := none
  summary := some ⟨[], c!"first line\nsecond line: a long one; with commas, colons and semicolons\nthird line"⟩
  url := none
  rrule := none
  attach := []
  attendee := [⟨[(c!"CN", c!"Ada, Countess"), (c!"ROLE", c!"CHAIR")], c!"mailto:a@example.org"⟩]
  categories := []
  comment := []
  contact := []
  description := []
  exdate := []
  relatedTo := []
  rdate := []
  rstatus := []
  xProp := []
  ianaProp := []

private theorem fine_of {s : Str} (h : s.all (fun c => decide (Control c → c = '\n')) = true) : Fine s := fun c hc =>
  of_decide_eq_true (List.all_eq_true.1 h c hc)

private theorem journal_fine : FineVJournal journal where
  uid := ⟨fine_of rfl, by intro p hp; cases hp⟩
  class_ := by intro a ha; cases ha; intro s hs; cases hs; decide +kernel
  organizer := by intro a ha; cases ha
  summary := by intro a ha; cases ha; exact ⟨fine_of rfl, by intro p hp; cases hp⟩
  url := by intro a ha; cases ha
  attach := by intro a ha; cases ha
  attendee := by
    intro a ha
    simp only [journal, List.mem_singleton] at ha
    subst ha
    refine ⟨fine_of rfl, ?_⟩
    intro p hp
    simp only [List.mem_cons, List.not_mem_nil, or_false] at hp
    rcases hp with rfl | rfl
    · exact ⟨nameTok rfl, fine_of rfl, by decide, by decide, by decide⟩
    · exact ⟨nameTok rfl, fine_of rfl, by decide, by decide, by decide⟩
  categories := by intro a ha; cases ha
  comment := by intro a ha; cases ha
  contact := by intro a ha; cases ha
  description := by intro a ha; cases ha
  relatedTo := by intro a ha; cases ha
  rstatus := by intro a ha; cases ha
  xProp := by intro a ha; cases ha
  ianaProp := by intro a ha; cases ha

private def journalText : Str := c!"BEGIN:VJOURNAL\r\nDTSTAMP:20240331T023000\r\nUID:u\r\nCLASS:X-SECRET\r\nDTSTART:20240331T023000\r\n" ++
  c!"SUMMARY:first line\\nsecond line: a long one\\; with commas\\, colons and semi\r\n colons\\nthird line\r\n" ++
  c!"ATTENDEE;CN=Ada\\, Countess;ROLE=CHAIR:mailto:a@example.org\r\nEND:VJOURNAL\r\n"

set_option maxRecDepth 8000 in
example : ical journal = .ok journalText ∧ IsText c!"VJOURNAL" [] journalText :=
  have h : ical journal = .ok journalText := by rfl
  ⟨h, C100_VJournal (C100_floats utc) journal_fine _ h⟩

private theorem not_text {name : Str} {ps : List Str} {t : Str} (a b : Str) (hi : ¬ c!"\r\n\t" <:+: t) (he : a ++ '\r' :: b = unfold t)
    (hb : ∀ r, b = '\n' :: r → ∃ c, r.head? = some c ∧ ¬ TokenChar c) : ¬ IsText name ps t := by
  intro h
  obtain ⟨u, hu, h⟩ := C100_ends h
  obtain ⟨w, hw1, hw2⟩ := (C99_unfold t).2 hi
  have e1 : u = w := unfolds_once hu hw2
  have e2 : unfold t = w := (unfolds_iff.1 hw1)
  obtain ⟨r, rfl, hr⟩ := h a b (by rw [e1, ← e2, ← he])
  obtain ⟨c, h1, h2⟩ := hb r rfl
  exact h2 (hr c h1)

/-- A summary with a carriage return: it is not escaped. -/
private def windows : VJournal := { journal with summary := some ⟨[], c!"a\r\nb"⟩, attendee := [], class_ := none }

set_option maxRecDepth 8000 in
example : ∃ t, ical windows = .ok t ∧ ∀ ps, ¬ IsText c!"VJOURNAL" ps t := by
  refine ⟨c!"BEGIN:VJOURNAL\r\nDTSTAMP:20240331T023000\r\nUID:u\r\nDTSTART:20240331T023000\r\nSUMMARY:a\r\\nb\r\nEND:VJOURNAL\r\n", by rfl, fun ps => ?_⟩
  exact not_text c!"BEGIN:VJOURNAL\r\nDTSTAMP:20240331T023000\r\nUID:u\r\nDTSTART:20240331T023000\r\nSUMMARY:a" c!"\\nb\r\nEND:VJOURNAL\r\n" (by decide +kernel) (by decide +kernel)
    (by intro r h; simp at h)

/-- A calendar with two journal entries: they are written as one line. -/
private def two : VCalendar where
  prodid := ⟨[], c!"p"⟩
  version := ⟨[], c!"2.0"⟩
  calscale := none
  method := none
  alarms := []
  events := []
  freebusy := []
  journals := [{ windows with summary := none }, { windows with summary := none }]
  todo := []
  timezones := []
  xProp := []
  ianaProp := []

set_option maxRecDepth 8000 in
example : ∃ t, ical two = .ok t ∧ ∀ ps, ¬ IsText c!"VCALENDAR" ps t := by
  refine ⟨c!"BEGIN:VCALENDAR\r\nPRODID:p\r\nVERSION:2.0\r\n" ++
    c!"JOURNALS:BEGIN:VJOURNAL\r\nDTSTAMP:20240331T023000\r\nUID:u\r\nDTSTART:20240331T0\r\n 23000\r\nEND:VJOURNAL\r\n," ++
    c!"BEGIN:VJOURNAL\r\nDTSTAMP:20240331T023000\r\nUID:u\r\nDTSTA\r\n RT:20240331T023000\r\nEND:VJOURNAL\r\n\r\nEND:VCALENDAR\r\n", by rfl, fun ps => ?_⟩
  exact not_text (c!"BEGIN:VCALENDAR\r\nPRODID:p\r\nVERSION:2.0\r\n" ++
    c!"JOURNALS:BEGIN:VJOURNAL\r\nDTSTAMP:20240331T023000\r\nUID:u\r\nDTSTART:20240331T023000\r\nEND:VJOURNAL")
    c!"\n,BEGIN:VJOURNAL\r\nDTSTAMP:20240331T023000\r\nUID:u\r\nDTSTART:20240331T023000\r\nEND:VJOURNAL\r\n\r\nEND:VCALENDAR\r\n"
    (by decide +kernel) (by decide +kernel) (by intro r h; cases h; exact ⟨',', rfl, by decide⟩)

/-- A calendar with one journal entry. -/
private def single : VCalendar := { two with journals := [{ windows with summary := none }] }

private theorem single_fine : FineVCalendar single where
  prodid := ⟨fine_of rfl, by intro p hp; cases hp⟩
  version := ⟨fine_of rfl, by intro p hp; cases hp⟩
  calscale := by intro a ha; cases ha
  method := by intro a ha; cases ha
  alarms := rfl
  events := ⟨Nat.zero_le _, by intro a ha; cases ha⟩
  freebusy := ⟨Nat.zero_le _, by intro a ha; cases ha⟩
  journals := ⟨by show 1 ≤ 1; decide, by
    intro a ha
    simp only [single, List.mem_singleton] at ha
    subst ha
    exact { journal_fine with
      class_ := by intro a ha; cases ha
      summary := by intro a ha; cases ha
      attendee := by intro a ha; cases ha }⟩
  todo := ⟨Nat.zero_le _, by intro a ha; cases ha⟩
  timezones := ⟨Nat.zero_le _, by intro a ha; cases ha⟩
  order := .inr ⟨rfl, rfl⟩
  xProp := by intro a ha; cases ha
  ianaProp := by intro a ha; cases ha

set_option maxRecDepth 8000 in
example : ∃ t, ical single = .ok t ∧ IsText c!"VCALENDAR" [c!"VEVENT", c!"VFREEBUSY", c!"VJOURNAL", c!"VTODO", c!"VTIMEZONE"] t :=
  have h : ical single = .ok (c!"BEGIN:VCALENDAR\r\nPRODID:p\r\nVERSION:2.0\r\n" ++
    c!"BEGIN:VJOURNAL\r\nDTSTAMP:20240331T023000\r\nUID:u\r\nDTSTART:20240331T023000\r\nEND:VJOURNAL\r\nEND:VCALENDAR\r\n") := by rfl
  ⟨_, h, C100_VCalendar (C100_floats utc) single_fine _ h⟩

end

end Ikal
