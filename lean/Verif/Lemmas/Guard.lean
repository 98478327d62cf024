import Verif.Lemmas.Frame

/-!
# Lines folded twice

A list of components is written as one long property line whose value contains the (folded) lines of the components; the whole is folded
again.  Unfolding once does not always undo both.  Here: whatever remains, the property lines that are read from such a text never get past
the end of the first component.
-/

namespace Ikal

open Nom Spec

set_option linter.unusedSectionVars false
set_option linter.unusedSimpArgs false

/-! ## Folds put in and taken out -/

/-- The second text is the first with folds put in. -/
inductive Ins : Str → Str → Prop
  | nil : Ins [] []
  | cons {c : Char} {w x : Str} : Ins w x → Ins (c :: w) (c :: x)
  | fold {w x : Str} : Ins w x → Ins w ('\r' :: '\n' :: ' ' :: x)

/-- The second text is the first with some folds taken out. -/
inductive Del : Str → Str → Prop
  | nil : Del [] []
  | cons {c : Char} {w x : Str} : Del w x → Del (c :: w) (c :: x)
  | drop {w x : Str} : Del w x → Del ('\r' :: '\n' :: ' ' :: w) x

theorem Ins.refl : ∀ s, Ins s s
  | [] => .nil
  | _ :: s => .cons (Ins.refl s)

theorem Ins.append {a a' b b' : Str} (h : Ins a a') (h' : Ins b b') : Ins (a ++ b) (a' ++ b') := by
  induction h with
  | nil => exact h'
  | cons _ ih => exact .cons ih
  | fold _ ih => exact .fold ih

theorem Del.append {a a' b b' : Str} (h : Del a a') (h' : Del b b') : Del (a ++ b) (a' ++ b') := by
  induction h with
  | nil => exact h'
  | cons _ ih => exact .cons ih
  | drop _ ih => exact .drop ih

theorem Del.unfold (s : Str) : Del s (Ikal.unfold s) := by
  fun_induction Ikal.unfold s with
  | case1 => exact .nil
  | case2 r ih => exact .drop ih
  | case3 c r _ ih => exact .cons ih

/-- The first text begins neither with a line feed nor with a space. -/
def Heads (s : Str) : Prop := s.head? ≠ some '\n' ∧ s.head? ≠ some ' '

theorem Heads.append {a b : Str} (ha : Heads a) (hb : Heads b) : Heads (a ++ b) := by
  cases a with
  | nil => exact hb
  | cons c a => exact ha

theorem Heads.ins {w x : Str} (h : Ins w x) (hw : Heads w) : Heads x := by
  cases h with
  | nil => exact hw
  | cons _ => exact hw
  | fold _ => exact ⟨by simp, by simp⟩

theorem Heads.lit {c : Char} {s : Str} (h1 : c ≠ '\n') (h2 : c ≠ ' ') : Heads (c :: s) := ⟨by simpa using h1, by simpa using h2⟩

theorem Del.split {x y u : Str} (hy : Heads y) (h : Del (x ++ y) u) : ∃ ux uy, u = ux ++ uy ∧ Del x ux ∧ Del y uy := by
  generalize hz : x ++ y = z at h
  induction h generalizing x with
  | nil =>
    simp at hz
    obtain ⟨rfl, rfl⟩ := hz
    exact ⟨[], [], rfl, .nil, .nil⟩
  | @cons c w v h ih =>
    cases x with
    | nil => exact ⟨[], _, rfl, .nil, by rw [List.nil_append] at hz; rw [hz]; exact .cons h⟩
    | cons d x =>
      simp at hz
      obtain ⟨rfl, hz⟩ := hz
      obtain ⟨ux, uy, rfl, h1, h2⟩ := ih hz
      exact ⟨d :: ux, uy, rfl, .cons h1, h2⟩
  | @drop w v h ih =>
    match x, hz with
    | [], hz => exact ⟨[], _, rfl, .nil, by rw [List.nil_append] at hz; rw [hz]; exact .drop h⟩
    | [_], hz => simp at hz; exact absurd (by rw [hz.2]; rfl) hy.1
    | [_, _], hz => simp at hz; exact absurd (by rw [hz.2.2]; rfl) hy.2
    | _ :: _ :: _ :: x, hz =>
      simp at hz
      obtain ⟨rfl, rfl, rfl, hz⟩ := hz
      obtain ⟨ux, uy, rfl, h1, h2⟩ := ih hz
      exact ⟨ux, uy, rfl, .drop h1, h2⟩

theorem Del.of_no_cr {p w u : Str} (hp : '\r' ∉ p) (h : Del (p ++ w) u) : ∃ u', u = p ++ u' ∧ Del w u' := by
  induction p generalizing u with
  | nil => exact ⟨u, rfl, h⟩
  | cons c p ih =>
    simp at hp
    rw [List.cons_append] at h
    generalize hz : p ++ w = z at h
    cases h with
    | cons h =>
      rw [← hz] at h
      obtain ⟨u', rfl, h'⟩ := ih (by simpa using hp.2) h
      exact ⟨u', rfl, h'⟩
    | drop h => exact absurd rfl hp.1

theorem Del.line {s u : Str} (hs : Heads s) {p : Str} (hp : '\r' ∉ p) (h : Del (p ++ c!"\r\n" ++ s) u) :
    ∃ u', u = p ++ c!"\r\n" ++ u' ∧ Del s u' := by
  rw [List.append_assoc] at h
  obtain ⟨u1, rfl, h'⟩ := h.of_no_cr hp
  obtain ⟨a, b, rfl, h1, h2⟩ := h'.split (x := c!"\r\n") hs
  refine ⟨b, ?_, h2⟩
  cases h1 with
  | cons h1 =>
    cases h1 with
    | cons h1 => cases h1; simp


/-- Putting in folds and taking out folds. -/
theorem Ins.del_comm {w t u : Str} (h : Ins w t) (h' : Del t u) : ∃ z, Del w z ∧ Ins z u := by
  induction h generalizing u with
  | nil => exact ⟨u, h', Ins.refl u⟩
  | @cons c w x h ih =>
    generalize hz : c :: x = z at h'
    cases h' with
    | nil => cases hz
    | cons h' =>
      cases hz
      obtain ⟨z, h1, h2⟩ := ih h'
      exact ⟨_, .cons h1, .cons h2⟩
    | drop h' =>
      cases hz
      cases h with
      | @cons _ w1 _ h =>
        cases h with
        | @cons _ w2 _ h =>
          obtain ⟨z, h1, h2⟩ := ih (u := '\n' :: ' ' :: u) (.cons (.cons h'))
          cases h1 with
          | cons h1 =>
            cases h1 with
            | cons h1 => 
              cases h2 with
              | cons h2 =>
                cases h2 with
                | cons h2 => exact ⟨_, .drop h1, h2⟩
  | @fold w x h ih =>
    cases h' with
    | cons h' =>
      cases h' with
      | cons h' =>
        cases h' with
        | cons h' =>
          obtain ⟨z, h1, h2⟩ := ih h'
          exact ⟨z, h1, .fold h2⟩
    | drop h' => exact ih h'

/-- The second text is the first with folds put in, one after the other, also into each other. -/
inductive InsStar : Str → Str → Prop
  | refl {w : Str} : InsStar w w
  | tail {w t u : Str} : InsStar w t → Ins t u → InsStar w u

theorem Ins.star {w t : Str} (h : Ins w t) : InsStar w t := .tail .refl h

theorem InsStar.del_comm {w t u : Str} (h : InsStar w t) (h' : Del t u) : ∃ z, Del w z ∧ InsStar z u := by
  induction h generalizing u with
  | refl => exact ⟨u, h', .refl⟩
  | tail _ h ih =>
    obtain ⟨z, h1, h2⟩ := h.del_comm h'
    obtain ⟨z', h3, h4⟩ := ih h1
    exact ⟨z', h3, .tail h4 h2⟩

/-- Only the last character can be a line feed. -/
def LastLf (s : Str) : Prop := ∀ a b, s = a ++ '\n' :: b → b = []

theorem LastLf.tail {c : Char} {s : Str} (h : LastLf (c :: s)) : LastLf s := by
  intro a b e
  exact h (c :: a) b (by rw [e]; rfl)

theorem Del.eq_of_lastLf {w u : Str} (hw : LastLf w) (h : Del w u) : u = w := by
  induction h with
  | nil => rfl
  | cons _ ih => rw [ih hw.tail]
  | drop h _ => exact absurd (hw ['\r'] _ rfl) (by simp)

/-- Taking out folds of a folded line leaves a folded line. -/
theorem InsStar.del {w t u : Str} (hw : LastLf w) (h : InsStar w t) (h' : Del t u) : InsStar w u := by
  obtain ⟨z, h1, h2⟩ := h.del_comm h'
  rwa [h1.eq_of_lastLf hw] at h2

theorem Ins.mem {w u : Str} (h : Ins w u) {c : Char} (hc : c ∈ u) : c ∈ w ∨ c = '\r' ∨ c = '\n' ∨ c = ' ' := by
  induction h with
  | nil => cases hc
  | cons _ ih =>
    rcases List.mem_cons.1 hc with e | hc
    · exact .inl (by simp [e])
    · rcases ih hc with h | h
      · exact .inl (by simp [h])
      · exact .inr h
  | fold _ ih =>
    simp at hc
    rcases hc with h | h | h | h
    · exact .inr (.inl h)
    · exact .inr (.inr (.inl h))
    · exact .inr (.inr (.inr h))
    · exact ih h

theorem Ins.eq_of_no_cr {w u : Str} (h : Ins w u) (hu : '\r' ∉ u) : u = w := by
  induction h with
  | nil => rfl
  | cons _ ih => simp at hu; rw [ih (by simpa using hu.2)]
  | fold _ _ => simp at hu

theorem Ins.split_at {w u a0 y : Str} {c : Char} (h : Ins w u) (hw : w = a0 ++ c :: y) :
    ∃ a b, u = a ++ c :: b ∧ Ins a0 a ∧ Ins y b := by
  induction h generalizing a0 with
  | nil => simp at hw
  | @cons d w x h ih =>
    cases a0 with
    | nil => simp at hw; obtain ⟨rfl, rfl⟩ := hw; exact ⟨[], x, rfl, .nil, h⟩
    | cons e a0 =>
      simp at hw
      obtain ⟨rfl, hw⟩ := hw
      obtain ⟨a, b, rfl, h1, h2⟩ := ih hw
      exact ⟨d :: a, b, rfl, .cons h1, h2⟩
  | fold h ih =>
    obtain ⟨a, b, rfl, h1, h2⟩ := ih hw
    exact ⟨_, b, rfl, .fold h1, h2⟩

/-- Splitting a folded text, with the folds in between going to the second part. -/
theorem Ins.split {x y u : Str} (h : Ins (x ++ y) u) : ∃ ux uy, u = ux ++ uy ∧ Ins x ux ∧ Ins y uy := by
  generalize hz : x ++ y = z at h
  induction h generalizing x with
  | nil =>
    simp at hz
    obtain ⟨rfl, rfl⟩ := hz
    exact ⟨[], [], rfl, .nil, .nil⟩
  | @cons c w v h ih =>
    cases x with
    | nil => exact ⟨[], _, rfl, .nil, by rw [List.nil_append] at hz; rw [hz]; exact .cons h⟩
    | cons d x =>
      simp at hz
      obtain ⟨rfl, hz⟩ := hz
      obtain ⟨ux, uy, rfl, h1, h2⟩ := ih hz
      exact ⟨d :: ux, uy, rfl, .cons h1, h2⟩
  | @fold w v h ih =>
    cases x with
    | nil => exact ⟨[], _, rfl, .nil, by rw [List.nil_append] at hz; rw [hz]; exact .fold h⟩
    | cons d x =>
      obtain ⟨ux, uy, rfl, h1, h2⟩ := ih hz
      exact ⟨_, uy, rfl, .fold h1, h2⟩

theorem InsStar.split_at {w u a0 y : Str} {c : Char} (h : InsStar w u) (hw : w = a0 ++ c :: y) :
    ∃ a b, u = a ++ c :: b ∧ InsStar a0 a ∧ InsStar y b := by
  induction h with
  | refl => exact ⟨a0, y, hw, .refl, .refl⟩
  | tail _ h ih =>
    obtain ⟨a, b, e, h1, h2⟩ := ih
    obtain ⟨a', b', rfl, h3, h4⟩ := h.split_at e
    exact ⟨a', b', rfl, .tail h1 h3, .tail h2 h4⟩

theorem InsStar.mem {w u : Str} (h : InsStar w u) {c : Char} (hc : c ∈ u) : c ∈ w ∨ c = '\r' ∨ c = '\n' ∨ c = ' ' := by
  induction h with
  | refl => exact .inl hc
  | tail _ h ih =>
    rcases h.mem hc with h | h
    · exact ih h
    · exact .inr h

theorem Ins.mono {w u : Str} (h : Ins w u) {c : Char} (hc : c ∈ w) : c ∈ u := by
  induction h with
  | nil => exact hc
  | cons _ ih =>
    rcases List.mem_cons.1 hc with rfl | hc
    · simp
    · exact List.mem_cons_of_mem _ (ih hc)
  | fold _ ih => simp [ih hc]

theorem InsStar.eq_of_no_cr {w u : Str} (h : InsStar w u) (hu : '\r' ∉ u) : u = w := by
  induction h with
  | refl => rfl
  | tail _ h ih =>
    rw [h.eq_of_no_cr hu]
    exact ih fun hm => hu (h.mono hm)

/-- After a line feed comes the end, a space or a carriage return. -/
def Broken (s : Str) : Prop := ∀ a b, s = a ++ '\n' :: b → b = [] ∨ ∃ c b', b = c :: b' ∧ (c = ' ' ∨ c = '\r')

theorem Ins.broken_tail {w u : Str} (h : Ins w u) : u = [] ∧ w = [] ∨ (∃ c w' u', w = c :: w' ∧ u = c :: u' ∧ Ins w' u') ∨ ∃ u', u = '\r' :: u' := by
  cases h with
  | nil => exact .inl ⟨rfl, rfl⟩
  | cons h => exact .inr (.inl ⟨_, _, _, rfl, rfl, h⟩)
  | fold h => exact .inr (.inr ⟨_, rfl⟩)

theorem Ins.broken {w u : Str} (h : Ins w u) (hw : Broken w) : Broken u := by
  induction h with
  | nil => exact hw
  | @cons c w x h ih =>
    intro a b e
    cases a with
    | nil =>
      simp at e
      obtain ⟨rfl, rfl⟩ := e
      rcases h.broken_tail with ⟨h1, _⟩ | ⟨d, w', u', rfl, rfl, _⟩ | ⟨u', rfl⟩
      · exact .inl h1
      · rcases hw [] _ rfl with h | ⟨d', b', h, h'⟩
        · cases h
        · cases h
          exact .inr ⟨d, u', rfl, h'⟩
      · exact .inr ⟨_, _, rfl, .inr rfl⟩
    | cons d a =>
      simp at e
      refine ih (fun a b e => hw (c :: a) b (by rw [e]; rfl)) a b e.2
  | @fold w x h ih =>
    intro a b e
    match a, e with
    | [], e => simp at e
    | [_], e => simp at e; exact .inr ⟨' ', x, e.2.symm, .inl rfl⟩
    | [_, _], e => simp at e
    | _ :: _ :: _ :: a, e => simp at e; exact ih hw a b e.2.2.2

theorem InsStar.broken {w u : Str} (h : InsStar w u) (hw : Broken w) : Broken u := by
  induction h with
  | refl => exact hw
  | tail _ h ih => exact h.broken ih

theorem LastLf.broken {w : Str} (h : LastLf w) : Broken w := fun a b e => .inl (h a b e)

theorem first_lf {s : Str} (h : '\n' ∈ s) : ∃ a b, s = a ++ '\n' :: b ∧ '\n' ∉ a := by
  induction s with
  | nil => cases h
  | cons c s ih =>
    by_cases hc : c = '\n'
    · exact ⟨[], s, by simp [hc], by simp⟩
    · simp [Ne.symm hc] at h
      obtain ⟨a, b, rfl, h'⟩ := ih h
      exact ⟨c :: a, b, rfl, by simp [Ne.symm hc, h']⟩

theorem InsStar.mono {w u : Str} (h : InsStar w u) {c : Char} (hc : c ∈ w) : c ∈ u := by
  induction h with
  | refl => exact hc
  | tail _ h ih => exact h.mono ih

theorem InsStar.heads {w u : Str} (h : InsStar w u) (hw : Heads w) : Heads u := by
  induction h with
  | refl => exact hw
  | tail _ h ih => exact Heads.ins h ih

/-! ## Folding -/

theorem Ins.chunks {n : Nat} {s : Str} {cs : List Str} (h : Chunks n s cs) : Ins s (join crlfsp cs) := by
  induction h with
  | nil => exact .nil
  | last _ _ => exact Ins.refl _
  | @cons a b cs _ hb h ih =>
    have hc : cs ≠ [] := by rintro rfl; cases h; exact hb rfl
    rw [join_cons _ _ _ hc, List.append_assoc]
    exact (Ins.refl a).append (.fold ih)

theorem Ins.folded {s t : Str} (h : Ikal.fold s = .ok t) : Ins s t := by
  rcases fold_ok h with ⟨_, rfl⟩ | ⟨_, cs, hc, rfl⟩
  · exact Ins.refl _
  · exact Ins.chunks hc

theorem Del.chunks {n : Nat} {s : Str} {cs : List Str} (h : Chunks n s cs) : Del s (Ikal.unfold (join crlfsp cs)) := by
  induction h with
  | nil => exact .nil
  | last _ _ => exact Del.unfold _
  | @cons a b cs _ hb h ih =>
    have hc : cs ≠ [] := by rintro rfl; cases h; exact hb rfl
    rw [join_cons _ _ _ hc, List.append_assoc, unfold_append _ _ (by simp [crlfsp]) (by simp [crlfsp])]
    refine (Del.unfold a).append ?_
    have : Ikal.unfold (crlfsp ++ join crlfsp cs) = Ikal.unfold (join crlfsp cs) := unfold_crlfsp _
    rw [this]
    exact ih

/-- Unfolding a folded text. -/
theorem Del.folded {s t : Str} (h : fold s = .ok t) : Del s (Ikal.unfold t) := by
  rcases fold_ok h with ⟨_, rfl⟩ | ⟨_, cs, hc, rfl⟩
  · exact Del.unfold _
  · exact Del.chunks hc

/-! ## Where the property lines end -/

theorem notMem_inj {α : Type} {c : α} {a a' b b' : List α} (h : c ∉ a) (h' : c ∉ a') (e : a ++ c :: b = a' ++ c :: b') :
    a = a' ∧ b = b' := by
  induction a generalizing a' with
  | nil =>
    cases a' with
    | nil => simp at e; exact ⟨rfl, e⟩
    | cons x a' => simp at e; exact absurd (by simp [e.1]) h'
  | cons x a ih =>
    cases a' with
    | nil => simp at e; exact absurd (by simp [e.1]) h
    | cons y a' =>
      simp at e h h'
      obtain ⟨rfl, e⟩ := e
      obtain ⟨rfl, rfl⟩ := ih (by simpa using h.2) (by simpa using h'.2) e
      exact ⟨rfl, rfl⟩

theorem notMem_first {α : Type} {c d : α} {a q x y : List α} (hcd : c ≠ d) (h : d ∉ a) (h' : c ∉ q) (e : a ++ c :: x = q ++ d :: y) : False := by
  induction a generalizing q with
  | nil =>
    cases q with
    | nil => simp at e; exact hcd e.1
    | cons z q => simp at e; exact h' (by simp [e.1])
  | cons z a ih =>
    cases q with
    | nil => simp at e; exact h (by simp [e.1])
    | cons w q =>
      simp at e h h'
      exact ih (by simpa using h.2) (by simpa using h'.2) e.2

theorem name_no {c : Char} (hc : ¬ NameChar c) {k : Str} (h : IsName k) : c ∉ k := fun hm => hc (h c hm)

/-- In parameters, a double quote comes before any colon. -/
theorem params_colon {t rest : Str} {ps : List (Str × Str)} (h : ParamsText t ps rest) :
    ':' ∉ t ∨ ∃ p q, t = p ++ '"' :: q ∧ ':' ∉ p := by
  induction h with
  | nil => exact .inl (by simp)
  | @cons t ts k v rest ps h _ ih =>
    have hk : ∀ {k : Str}, IsName k → ':' ∉ k := fun h => name_no (not_nameChar (by simp)) h
    cases h with
    | quoted h1 h2 =>
      refine .inr ⟨';' :: k ++ ['='], v ++ ['"'] ++ ts, by simp, ?_⟩
      simp [hk h1]
    | plain h1 h2 h3 h4 h5 h6 =>
      rcases ih with ih | ⟨p, q, rfl, hp⟩
      · exact .inl (by simp [hk h1, h3, ih])
      · exact .inr ⟨c!";" ++ k ++ c!"=" ++ v ++ p, q, by simp, by simp [hk h1, h3, hp]⟩
    | folded h1 h2 h3 h4 =>
      rcases ih with ih | ⟨p, q, rfl, hp⟩
      · exact .inl (by simp [hk h1, h3, ih])
      · exact .inr ⟨c!";" ++ k ++ c!"=\r\n " ++ v ++ p, q, by simp, by simp [hk h1, h3, hp]⟩

/-- A property line ends at the first line feed after its first colon, if no quote precedes it. -/
theorem lineText_end {i r a b j : Str} {l : ContentLine} (h : LineText i r l) (e : i = a ++ ':' :: (b ++ '\n' :: j)) (h1 : ':' ∉ a)
    (h2 : '"' ∉ a) (h3 : '\n' ∉ b) : r = j := by
  obtain ⟨_, _, pt, ps, eol, e', hk, hp, hv, hv', heol, _⟩ := h
  have hk : ':' ∉ l.key := name_no (not_nameChar (by simp)) hk
  rw [e] at e'
  rcases params_colon hp with hc | ⟨p, q, rfl, hq⟩
  · have e1 : a ++ ':' :: (b ++ '\n' :: j) = (l.key ++ pt) ++ ':' :: (l.value ++ eol ++ r) := by rw [e']; simp
    obtain ⟨-, e2⟩ := notMem_inj h1 (by simp [hk, hc]) e1
    rcases heol with rfl | rfl
    · have e3 : b ++ '\n' :: j = l.value ++ '\n' :: r := by rw [e2]; simp
      exact (notMem_inj h3 hv e3).2.symm
    · have e3 : b ++ '\n' :: j = (l.value ++ ['\r']) ++ '\n' :: r := by rw [e2]; simp
      exact (notMem_inj h3 (by simp [hv]) e3).2.symm
  · exact (notMem_first (c := ':') (d := '"') (by decide) h2 (q := l.key ++ p) (by simp [hk, hq])
      (y := q ++ (c!":" ++ l.value ++ eol ++ r)) (x := b ++ '\n' :: j) (by rw [e']; simp)).elim

theorem params_head {t rest : Str} {ps : List (Str × Str)} (h : ParamsText t ps rest) : t = [] ∨ t.head? = some ';' := by
  cases h with
  | nil => exact .inl rfl
  | cons h _ => right; cases h <;> simp

theorem lineText_head {i r : Str} {l : ContentLine} (h : LineText i r l) : ∃ c, i.head? = some c ∧ (NameChar c ∨ c = ':' ∨ c = ';') := by
  obtain ⟨_, _, pt, ps, eol, e', hk, hp, _⟩ := h
  rw [e']
  cases hkey : l.key with
  | cons c k => exact ⟨c, by simp, .inl (hk c (by rw [hkey]; simp))⟩
  | nil =>
    rcases params_head hp with rfl | hh
    · exact ⟨':', by simp, .inr (.inl rfl)⟩
    · cases pt with
      | nil => simp at hh
      | cons c pt => simp at hh; subst hh; exact ⟨';', by simp, .inr (.inr rfl)⟩

/-- What is left after the property lines read from the text satisfies `E`. -/
inductive Guard (E : Str → Prop) : Str → Prop
  | stop {i : Str} : (∀ r l, ¬ LineText i r l) → E i → Guard E i
  | line {i a b j : Str} : E i → i = a ++ ':' :: (b ++ '\n' :: j) → ':' ∉ a → '"' ∉ a → '\n' ∉ b → Guard E j → Guard E i

theorem Guard.left {E : Str → Prop} {i : Str} (h : Guard E i) : E i := by cases h <;> assumption

theorem Guard.lines {E : Str → Prop} {i r : Str} {ls : List ContentLine} (h : LinesText i ls r) (hg : Guard E i) : E r := by
  induction h with
  | nil _ => exact hg.left
  | cons hl _ ih =>
    refine ih ?_
    cases hg with
    | stop h _ => exact absurd hl (h _ _)
    | line _ e h1 h2 h3 hj =>
      rw [lineText_end hl e h1 h2 h3]
      exact hj

/-- None of the tags begins the text. -/
def NoTag (tags : List Str) (i : Str) : Prop := ∀ T ∈ tags, ¬ T <+: i

/-- A tag begins or ends a component. -/
def IsTag (T : Str) : Prop := (∃ n, T = c!"BEGIN:" ++ n ∨ T = c!"END:" ++ n) ∧ '\r' ∉ T

/-! ## Blocks of folded lines -/

/-- The line has the name and parameters `a0` and the value `v`, none of which can be mistaken. -/
structure PlainLine (line a0 v : Str) : Prop where
  eq : line = a0 ++ ':' :: (v ++ c!"\r\n")
  colon : ':' ∉ a0
  quote : '"' ∉ a0
  lf : '\n' ∉ a0
  lf' : '\n' ∉ v
  begin_ : a0 ≠ c!"BEGIN"
  end_ : a0 ≠ c!"END"
  head : Heads a0

/-- Folded lines. -/
inductive Blocks : Str → Prop
  | nil : Blocks []
  | cons {line a0 v t w : Str} : PlainLine line a0 v → InsStar line t → Blocks w → Blocks (t ++ w)

theorem Blocks.append {a b : Str} (ha : Blocks a) (hb : Blocks b) : Blocks (a ++ b) := by
  induction ha with
  | nil => exact hb
  | cons h1 h2 _ ih => rw [List.append_assoc]; exact .cons h1 h2 ih

theorem PlainLine.heads {line a0 v : Str} (h : PlainLine line a0 v) : Heads line := by
  rw [h.eq]
  exact h.head.append (.lit (by decide) (by decide))

theorem Blocks.heads {w : Str} (h : Blocks w) : Heads w := by
  induction h with
  | nil => exact ⟨by simp, by simp⟩
  | cons h1 h2 _ ih => exact (h2.heads h1.heads).append ih

theorem PlainLine.lastLf {line a0 v : Str} (h : PlainLine line a0 v) : LastLf line := by
  intro a b e
  have : line = (a0 ++ ':' :: (v ++ ['\r'])) ++ '\n' :: [] := by rw [h.eq]; simp
  rw [this] at e
  have hm : '\n' ∉ a0 ++ ':' :: (v ++ ['\r']) := by simp [h.lf, h.lf']
  have hl := congrArg List.length e
  rcases Nat.lt_trichotomy a.length (a0 ++ ':' :: (v ++ ['\r'])).length with hlt | heq | hgt
  · exfalso
    have := congrArg (fun l => l[a.length]?) e
    simp only [List.getElem?_append_left hlt, List.getElem?_append_right (Nat.le_refl _), Nat.sub_self] at this
    exact hm (List.mem_of_getElem? (this.trans rfl))
  · exact ((List.append_inj e heq.symm).2 |> List.cons.inj).2.symm
  · simp only [List.length_append, List.length_cons, List.length_nil] at hl hgt
    exact List.eq_nil_of_length_eq_zero (by omega)

theorem Blocks.del {w u : Str} (h : Blocks w) (hd : Del w u) : Blocks u := by
  induction h generalizing u with
  | nil => cases hd; exact .nil
  | cons h1 h2 h3 ih =>
    obtain ⟨ux, uy, rfl, d1, d2⟩ := hd.split h3.heads
    exact .cons h1 (h2.del h1.lastLf d1) (ih d2)

/-- Folded lines folded again; what is put in at the end is split off. -/
theorem Blocks.ins {w y u : Str} (h : Blocks w) (hd : Ins (w ++ y) u) : ∃ ux uy, u = ux ++ uy ∧ Blocks ux ∧ Ins y uy := by
  induction h generalizing u with
  | nil => exact ⟨[], u, rfl, .nil, hd⟩
  | cons h1 h2 h3 ih =>
    rw [List.append_assoc] at hd
    obtain ⟨ux, uy, rfl, d1, d2⟩ := hd.split
    obtain ⟨u1, u2, rfl, d3, d4⟩ := ih d2
    exact ⟨_, u2, (List.append_assoc _ _ _).symm, .cons h1 (.tail h2 d1) d3, d4⟩

theorem prefix_colon {p a x : Str} (hp : ':' ∉ p) (ha : ':' ∉ a) (h : p ++ [':'] <+: a ++ ':' :: x) : a = p := by
  obtain ⟨y, e⟩ := h
  have e' : p ++ ':' :: y = a ++ ':' :: x := by rw [← e]; simp
  exact (notMem_inj hp ha e').1.symm

/-- Tags are followed by a component name. -/
theorem noTag_line {tags : List Str} (ht : ∀ T ∈ tags, IsTag T) {a x : Str} (ha : ':' ∉ a) (h1 : a ≠ c!"BEGIN") (h2 : a ≠ c!"END") :
    NoTag tags (a ++ ':' :: x) := by
  intro T hT hp
  obtain ⟨⟨n, e | e⟩, _⟩ := ht T hT
  · subst e
    exact h1 (prefix_colon (p := c!"BEGIN") (by decide) ha (List.IsPrefix.trans ⟨n, rfl⟩ hp))
  · subst e
    exact h2 (prefix_colon (p := c!"END") (by decide) ha (List.IsPrefix.trans ⟨n, rfl⟩ hp))

theorem noTag_head {tags : List Str} (ht : ∀ T ∈ tags, IsTag T) {c : Char} {x : Str} (hc : c ≠ 'B') (hc' : c ≠ 'E') :
    NoTag tags (c :: x) := by
  intro T hT hp
  obtain ⟨⟨n, e | e⟩, _⟩ := ht T hT
  · subst e
    obtain ⟨y, e⟩ := hp
    simp at e
    exact hc e.1.symm
  · subst e
    obtain ⟨y, e⟩ := hp
    simp at e
    exact hc' e.1.symm

theorem no_line {c : Char} {x : Str} (h1 : ¬ NameChar c) (h2 : c ≠ ':') (h3 : c ≠ ';') (r : Str) (l : ContentLine) : ¬ LineText (c :: x) r l := by
  intro h
  obtain ⟨d, hd, h⟩ := lineText_head h
  simp at hd
  subst hd
  rcases h with h | h | h
  · exact h1 h
  · exact h2 h
  · exact h3 h

/-- A folded line with some folds taken out is read at most up to its first line feed. -/
theorem Guard.plainLine {tags : List Str} (ht : ∀ T ∈ tags, IsTag T) {line a0 v u r : Str} (h : PlainLine line a0 v) (hi : InsStar line u)
    (hr : Guard (NoTag tags) r) : Guard (NoTag tags) (u ++ r) := by
  have hbr := hi.broken h.lastLf.broken
  obtain ⟨a, b, rfl, h1, h2⟩ := hi.split_at h.eq
  obtain ⟨b1, b2, rfl, h3⟩ := first_lf (h2.mono (c := '\n') (by simp))
  have hb2 := hbr (a ++ ':' :: b1) b2 (by simp)
  have hc : ':' ∉ a := fun hm => by
    rcases h1.mem hm with h' | h' | h' | h'
    · exact h.colon h'
    all_goals exact absurd h' (by decide)
  have hq : '"' ∉ a := fun hm => by
    rcases h1.mem hm with h' | h' | h' | h'
    · exact h.quote h'
    all_goals exact absurd h' (by decide)
  have e : a ++ ':' :: (b1 ++ '\n' :: b2) ++ r = a ++ ':' :: (b1 ++ '\n' :: (b2 ++ r)) := by simp
  refine .line ?_ e hc hq h3 ?_
  · rw [e]
    refine noTag_line ht hc ?_ ?_
    · rintro rfl; exact h.begin_ (h1.eq_of_no_cr (by decide)).symm
    · rintro rfl; exact h.end_ (h1.eq_of_no_cr (by decide)).symm
  · rcases hb2 with rfl | ⟨c, b3, rfl, hc'⟩
    · exact hr
    · rw [List.cons_append]
      refine .stop (no_line ?_ ?_ ?_) (noTag_head ht ?_ ?_)
      · rcases hc' with rfl | rfl
        · exact not_nameChar (by simp)
        · exact not_nameChar (by simp)
      all_goals rcases hc' with rfl | rfl <;> decide

theorem Guard.blocks {tags : List Str} (ht : ∀ T ∈ tags, IsTag T) {w r : Str} (h : Blocks w) (hr : Guard (NoTag tags) r) :
    Guard (NoTag tags) (w ++ r) := by
  induction h with
  | nil => exact hr
  | cons h1 h2 _ ih => rw [List.append_assoc]; exact Guard.plainLine ht h1 h2 ih

/-! ## Lines up to a tag -/

/-- Folded lines up to the tag `D`, which may have been folded. -/
def Chain (D W : Str) : Prop := ∃ b y d, W = b ++ d ∧ Blocks b ∧ InsStar (D ++ y) d

theorem Chain.mk {D b y : Str} (h : Blocks b) : Chain D (b ++ (D ++ y)) := ⟨b, y, _, rfl, h, .refl⟩

theorem Chain.blocks {D b W : Str} (hb : Blocks b) (h : Chain D W) : Chain D (b ++ W) := by
  obtain ⟨b', y, d, rfl, h1, h2⟩ := h
  exact ⟨b ++ b', y, d, by simp, hb.append h1, h2⟩

theorem InsStar.append {a a' : Str} (h : InsStar a a') (b : Str) : InsStar (a ++ b) (a' ++ b) := by
  induction h with
  | refl => exact .refl
  | tail _ h ih => exact .tail ih (h.append (Ins.refl b))

theorem Chain.append {D W : Str} (h : Chain D W) (y : Str) : Chain D (W ++ y) := by
  obtain ⟨b, y', d, rfl, h1, h2⟩ := h
  refine ⟨b, y' ++ y, d ++ y, by simp, h1, ?_⟩
  rw [← List.append_assoc]
  exact h2.append y

theorem IsTag.heads {D y : Str} (h : IsTag D) : Heads (D ++ y) := by
  obtain ⟨⟨n, rfl | rfl⟩, _⟩ := h
  · exact .lit (by decide) (by decide)
  · exact .lit (by decide) (by decide)

theorem Chain.del {D W u : Str} (hD : IsTag D) (h : Chain D W) (hd : Del W u) : Chain D u := by
  obtain ⟨b, y, d, rfl, h1, h2⟩ := h
  obtain ⟨ux, uy, rfl, d1, d2⟩ := hd.split (h2.heads hD.heads)
  obtain ⟨z, h3, h4⟩ := h2.del_comm d2
  obtain ⟨z', rfl, _⟩ := h3.of_no_cr hD.2
  exact ⟨ux, z', uy, rfl, h1.del d1, h4⟩

theorem Chain.ins {D W u : Str} (h : Chain D W) (hd : Ins W u) : Chain D u := by
  obtain ⟨b, y, d, rfl, h1, h2⟩ := h
  obtain ⟨ux, uy, rfl, d1, d2⟩ := h1.ins hd
  exact ⟨ux, y, uy, rfl, d1, .tail h2 d2⟩

/-- A folded text begins like the text, up to the first fold. -/
theorem Ins.common {w u : Str} (h : Ins w u) : w = u ∨ ∃ p x, p <+: w ∧ u = p ++ '\r' :: x := by
  induction h with
  | nil => exact .inl rfl
  | @cons c w x _ ih =>
    rcases ih with rfl | ⟨p, y, ⟨q, rfl⟩, rfl⟩
    · exact .inl rfl
    · exact .inr ⟨c :: p, y, ⟨q, rfl⟩, rfl⟩
  | fold _ _ => exact .inr ⟨[], _, ⟨_, rfl⟩, rfl⟩

theorem prefix_tag {D w p x y : Str} (hp : p <+: w) (hD : p ++ '\r' :: x = D ++ y) (hr : '\r' ∉ D) : D <+: w := by
  have : D <+: p := by
    have h1 : D <+: p ++ '\r' :: x := ⟨y, hD.symm⟩
    rcases Nat.lt_or_ge p.length D.length with hl | hl
    · exfalso
      have h2 : p ++ ['\r'] <+: p ++ '\r' :: x := ⟨x, by simp⟩
      have h3 := List.prefix_of_prefix_length_le h2 h1 (by simp; omega)
      exact hr (h3.subset (by simp))
    · exact List.prefix_of_prefix_length_le h1 ⟨'\r' :: x, rfl⟩ hl
  exact this.trans hp

theorem InsStar.common {D y u : Str} (hD : '\r' ∉ D) (h : InsStar (D ++ y) u) : D <+: u ∨ ∃ p x, p <+: D ∧ u = p ++ '\r' :: x := by
  generalize hw : D ++ y = w at h
  induction h with
  | refl => exact .inl ⟨y, hw⟩
  | @tail t u _ h ih =>
    rcases ih with ⟨z, rfl⟩ | ⟨p, x, hp, rfl⟩
    · rcases h.common with rfl | ⟨p, x, hp, rfl⟩
      · exact .inl ⟨z, rfl⟩
      · rcases Nat.lt_or_ge p.length D.length with hl | hl
        · exact .inr ⟨p, x, List.prefix_of_prefix_length_le hp ⟨z, rfl⟩ (by omega), rfl⟩
        · exact .inl ((List.prefix_of_prefix_length_le ⟨z, rfl⟩ hp hl).trans ⟨_, rfl⟩)
    · rcases h.common with rfl | ⟨q, x', hq, rfl⟩
      · exact .inr ⟨p, x, hp, rfl⟩
      · rcases Nat.lt_or_ge p.length q.length with hl | hl
        · have h1 : p ++ ['\r'] <+: q := List.prefix_of_prefix_length_le ⟨x, by simp⟩ hq (by simp; omega)
          obtain ⟨z, rfl⟩ := h1
          exact .inr ⟨p, z ++ '\r' :: x', hp, by simp⟩
        · exact .inr ⟨q, x', (List.prefix_of_prefix_length_le hq ⟨_, rfl⟩ hl).trans hp, rfl⟩

theorem no_line_name {p x : Str} (hp : IsName p) (r : Str) (l : ContentLine) : ¬ LineText (p ++ '\r' :: x) r l := by
  intro h
  obtain ⟨_, _, pt, ps, eol, e', hk, hpt, _⟩ := h
  have hn : ∀ c, ('\r' :: x).head? = some c → ¬ NameChar c := by
    intro c hc; simp at hc; subst hc; exact not_nameChar (by simp)
  have hn' : ∀ c, (pt ++ c!":" ++ l.value ++ eol ++ r).head? = some c → ¬ NameChar c ∧ c ≠ '\r' := by
    intro c hc
    rcases params_head hpt with rfl | hh
    · simp at hc; subst hc; exact ⟨not_nameChar (by simp), by decide⟩
    · cases pt with
      | nil => simp at hh
      | cons d pt => simp at hh hc; subst hh; subst hc; exact ⟨not_nameChar (by simp), by decide⟩
  have := (append_name_inj hp hk hn (fun c hc => (hn' c hc).1) (by rw [e']; simp)).2
  exact (hn' '\r' (by rw [← this]; rfl)).2 rfl

theorem Chain.guard {D W : Str} (hD : IsTag D) {tags : List Str} (ht : ∀ T ∈ tags, IsTag T) (h1 : ∀ T ∈ tags, ¬ T <+: D)
    (h2 : ∀ T ∈ tags, ¬ D <+: T) (h : Chain D W) : Guard (NoTag tags) W := by
  obtain ⟨b, y, d, rfl, hb, hd⟩ := h
  refine Guard.blocks ht hb ?_
  refine .stop ?_ ?_
  · rcases hd.common hD.2 with hp | ⟨p, x, hp, rfl⟩
    · intro r l hl
      obtain ⟨⟨n, rfl | rfl⟩, _⟩ := hD
      · exact hl.1 (List.IsPrefix.trans ⟨n, rfl⟩ hp)
      · exact hl.2.1 (List.IsPrefix.trans ⟨n, rfl⟩ hp)
    · intro r l hl
      have key : ∀ k : Str, IsName k → ∀ n, D = k ++ [':'] ++ n → IsName p ∨ k ++ [':'] <+: p := by
        intro k hk n e
        rcases Nat.lt_or_ge p.length (k ++ [':']).length with hlt | hge
        · left
          have : p <+: k := List.prefix_of_prefix_length_le hp ⟨[':'] ++ n, by rw [e]; simp⟩ (by simp at hlt; omega)
          exact fun c hc => hk c (this.subset hc)
        · exact .inr (List.prefix_of_prefix_length_le ⟨n, e.symm⟩ hp hge)
      obtain ⟨⟨n, e | e⟩, _⟩ := hD
      · rcases key c!"BEGIN" (isName_lit (by decide)) n e with h | h
        · exact no_line_name h r l hl
        · exact hl.1 (h.trans ⟨_, rfl⟩)
      · rcases key c!"END" (isName_lit (by decide)) n e with h | h
        · exact no_line_name h r l hl
        · exact hl.2.1 (h.trans ⟨_, rfl⟩)
  · intro T hT hp
    rcases hd.common hD.2 with hp' | ⟨p, x, hp', rfl⟩
    · rcases Nat.le_total T.length D.length with hl | hl
      · exact h1 T hT (List.prefix_of_prefix_length_le hp hp' hl)
      · exact h2 T hT (List.prefix_of_prefix_length_le hp' hp hl)
    · obtain ⟨z, hz⟩ := hp
      exact h1 T hT (prefix_tag hp' hz.symm (ht T hT).2)

/-- All the property lines of a text. -/
theorem linesText_total (i : Str) : ∃ ls r, LinesText i ls r := by
  induction hn : i.length using Nat.strongRecOn generalizing i with
  | ind n ih =>
    by_cases h : ∃ r l, LineText i r l
    · obtain ⟨r, l, h⟩ := h
      have hlt : r.length < n := by
        obtain ⟨_, _, pt, ps, eol, e, _⟩ := h
        have := congrArg List.length e
        simp at this
        omega
      obtain ⟨ls, r', h'⟩ := ih _ hlt r rfl
      exact ⟨l :: ls, r', .cons h h'⟩
    · exact ⟨[], i, .nil fun r l hl => h ⟨r, l, hl⟩⟩

end Ikal
