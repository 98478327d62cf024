import Verif.Spec.Saves
import Verif.Lemmas.Echo
import Verif.Lemmas.Frame
import Verif.Props.Calendar
import Verif.Props.Duration
import Verif.Props.Grammar
import Verif.Props.Sound

/-!
# Lemmas for C101: one more save, property by property
-/

namespace Ikal

open Nom Spec Spec.After

set_option linter.unusedSectionVars false

/-! ## Texts -/

/-- The character that a character becomes. -/
def markChar (n : Nat) (c : Char) : Str :=
  if c = ';' ∨ c = ',' then List.replicate n '\\' ++ [c] else if c = '\n' ∧ n ≠ 0 then ['\\', 'n'] else [c]

/-- The text that a text becomes. -/
def mark (n : Nat) (s : Str) : Str := s.flatMap (markChar n)

theorem marked_iff {n : Nat} {s t : Str} : Marked n s t ↔ t = mark n s := by
  constructor
  · intro h
    induction h with
    | nil => rfl
    | mark hc _ ih => simp [mark, markChar, hc, ih]
    | newline hn _ ih => subst ih; simp [mark, markChar, hn]
    | same hn _ ih => subst ih; simp [mark, markChar, hn]
    | other h1 h2 h3 _ ih => simp [mark, markChar, h1, h2, h3, ih]
  · rintro rfl
    induction s with
    | nil => exact .nil
    | cons c s ih =>
      have e : mark n (c :: s) = markChar n c ++ mark n s := rfl
      rw [e]
      unfold markChar
      by_cases h : c = ';' ∨ c = ','
      · rw [if_pos h, List.append_assoc]
        exact .mark h ih
      · rw [if_neg h]
        by_cases h2 : c = '\n'
        · subst h2
          by_cases hn : n = 0
          · rw [if_neg (fun h => h.2 hn)]; exact .same hn ih
          · rw [if_pos ⟨rfl, hn⟩]; exact .newline hn ih
        · rw [if_neg (fun h => h2 h.1)]
          exact .other (fun e => h (.inl e)) (fun e => h (.inr e)) h2 ih

theorem mark_zero (s : Str) : mark 0 s = s := by
  induction s with
  | nil => rfl
  | cons c s ih =>
    have e : mark 0 (c :: s) = markChar 0 c ++ mark 0 s := rfl
    rw [e, ih]
    unfold markChar
    by_cases h : c = ';' ∨ c = ','
    · rw [if_pos h]; rfl
    · rw [if_neg h, if_neg (fun h => h.2 rfl)]; rfl

theorem mark_append (n : Nat) (a b : Str) : mark n (a ++ b) = mark n a ++ mark n b := by simp [mark]

theorem escape_backslashes (n : Nat) : escape (List.replicate n '\\') = List.replicate n '\\' := by
  induction n with
  | zero => rfl
  | succ n ih => rw [List.replicate_succ, escape_cons, ih]; rfl

theorem escape_markChar (n : Nat) (c : Char) : escape (markChar n c) = markChar (n + 1) c := by
  unfold markChar
  by_cases h : c = ';' ∨ c = ','
  · rw [if_pos h, if_pos h, escape_append, escape_backslashes, List.replicate_succ']
    rcases h with rfl | rfl <;> simp [escape_cons, escChar]
  · rw [if_neg h, if_neg h]
    by_cases h2 : c = '\n'
    · subst h2
      rw [if_pos (show '\n' = '\n' ∧ n + 1 ≠ 0 from ⟨rfl, Nat.succ_ne_zero _⟩)]
      by_cases hn : n = 0
      · rw [if_neg (fun h => h.2 hn)]; rfl
      · rw [if_pos ⟨rfl, hn⟩]; rfl
    · rw [if_neg (fun h => h2 h.1), if_neg (fun h => h2 h.1)]
      simp only [not_or] at h
      simp [escape_cons, escChar, h.1, h.2, h2]

theorem escape_mark (n : Nat) (s : Str) : escape (mark n s) = mark (n + 1) s := by
  induction s with
  | nil => rfl
  | cons c s ih =>
    show escape (markChar n c ++ mark n s) = markChar (n + 1) c ++ mark (n + 1) s
    rw [escape_append, ih, escape_markChar]

theorem mark_one (s : Str) : mark 1 s = escape s := by rw [← escape_mark, mark_zero]

theorem mark_eq_nil {n : Nat} {s : Str} : mark n s = [] ↔ s = [] := by
  cases s with
  | nil => simp [mark]
  | cons c s =>
    have : markChar n c ≠ [] := by
      unfold markChar
      split
      · simp
      · split <;> simp
    simp [mark, this]

theorem marked_zero {s t : Str} : Marked 0 s t ↔ t = s := by rw [marked_iff, mark_zero]

theorem marked_escape {n : Nat} {s t u : Str} (h : Marked n s t) (h2 : EscapedAs t u) : Marked (n + 1) s u := by
  rw [marked_iff] at *
  rw [escapedAs_iff] at h2
  rw [h2, h, escape_mark]

theorem marked_nil {n : Nat} {s t : Str} (h : Marked n s t) : t = [] ↔ s = [] := by
  rw [marked_iff.1 h, mark_eq_nil]

theorem escaped_nil {s t : Str} (h : EscapedAs s t) : t = [] ↔ s = [] := by
  rw [escapedAs_iff] at h
  subst h
  constructor
  · intro h; exact Classical.byContradiction fun hn => escape_ne_nil hn h
  · rintro rfl; rfl

/-- The text of a value is written with escapes, and read as it is. -/
structure Linked {α : Type} (T : Words α) (W : Back.Writing α) (R : ContentLine → α → Prop) : Prop where
  writes : ∀ {a t}, W.Writes a t → EscapedAs (T.text a) t
  params : ∀ a, W.params a = T.params a
  reads : ∀ {l b}, R l b → T.text b = l.value ∧ T.params b = l.params

section
variable [Platform]

theorem linked_text : Linked texts Back.asText Full.TextLine :=
  ⟨fun ⟨_, _, h⟩ => h, fun _ => rfl, fun h => h⟩

theorem linked_uri : Linked uris Back.asUri Full.UriLine :=
  ⟨fun ⟨_, _, h⟩ => h, fun _ => rfl, fun h => h⟩

end

section
variable {α : Type} {T : Words α} {W : Back.Writing α} {R : ContentLine → α → Prop} {name : Str} {n : Nat}

theorem kept_zero (T : Words α) (a : α) : Kept T 0 a a := ⟨marked_zero.2 rfl, rfl⟩

theorem kept_step (L : Linked T W R) {a b c : α} {t : Str} (h : Kept T n a b) (ht : W.Writes b t) (hr : R ⟨name, W.params b, t⟩ c) :
    Kept T (n + 1) a c := by
  obtain ⟨e1, e2⟩ := L.reads hr
  refine ⟨?_, ?_⟩
  · rw [e1]; exact marked_escape h.1 (L.writes ht)
  · rw [e2]; show W.params b = _; rw [L.params, h.2]

theorem required_zero (T : Words α) (a : α) : Required T 0 a a := ⟨fun h => absurd rfl h, kept_zero T a⟩

theorem required_step (L : Linked T W R) {a b c : α} (h : Required T n a b) (hb : Back.One name W R b c) : Required T (n + 1) a c := by
  obtain ⟨t, ht, hne, hr⟩ := hb
  refine ⟨fun _ e => hne ?_, kept_step L h.2 ht hr⟩
  rw [escaped_nil (L.writes ht), marked_nil h.2.1]
  exact e

theorem maybe_zero (T : Words α) (v : Option α) : Maybe T 0 v v := by
  cases v with
  | none => rfl
  | some a => exact .inr ⟨.inl rfl, a, kept_zero T a, rfl⟩

theorem maybe_step (L : Linked T W R) {v w x : Option α} (h : Maybe T n v w) (hb : Back.Opt name W R w x) : Maybe T (n + 1) v x := by
  cases v with
  | none =>
    have : w = none := h
    subst this
    exact hb
  | some a =>
    rcases h with ⟨_, h2, rfl⟩ | ⟨_, b, hk, rfl⟩
    · exact .inl ⟨Nat.succ_ne_zero _, h2, hb⟩
    · obtain ⟨t, ht, ⟨rfl, rfl⟩ | ⟨hne, c, hr, rfl⟩⟩ := hb
      · exact .inl ⟨Nat.succ_ne_zero _, (marked_nil hk.1).1 ((escaped_nil (L.writes ht)).1 rfl), rfl⟩
      · exact .inr ⟨.inr fun e => hne ((escaped_nil (L.writes ht)).2 ((marked_nil hk.1).2 e)), c, kept_step L hk ht hr, rfl⟩

theorem listed_zero (T : Words α) (v : List α) : Listed T 0 v v := by
  match v with
  | [] => rfl
  | [a] => exact .inr ⟨.inl rfl, a, kept_zero T a, rfl⟩
  | a :: b :: r => exact .inl ⟨rfl, rfl⟩

theorem Spec.All2.mono {α β : Type} {R S : α → β → Prop} {as : List α} {bs : List β} (h : All2 R as bs) (hm : ∀ a b, R a b → S a b) : All2 S as bs := by
  induction h with
  | nil => exact .nil
  | cons h1 _ ih => exact .cons (hm _ _ h1) ih

theorem joinWith_two_ne {a b : Str} {r : List Str} : joinWith c!"," (a :: b :: r) ≠ [] := by simp [joinWith]

theorem listed_step (L : Linked T W R) {v w x : List α} (h : Listed T n v w) (hb : Back.Many name W R w x) : Listed T (n + 1) v x := by
  match v with
  | [] =>
    have : w = [] := h
    subst this
    exact hb
  | [a] =>
    rcases h with ⟨_, h2, rfl⟩ | ⟨_, b, hk, rfl⟩
    · exact .inl ⟨Nat.succ_ne_zero _, h2, hb⟩
    · obtain ⟨t, ht, ⟨rfl, rfl⟩ | ⟨hne, c, hr, rfl⟩⟩ := hb
      · exact .inl ⟨Nat.succ_ne_zero _, (marked_nil hk.1).1 ((escaped_nil (L.writes ht)).1 rfl), rfl⟩
      · exact .inr ⟨.inr fun e => hne ((escaped_nil (L.writes ht)).2 ((marked_nil hk.1).2 e)), c, kept_step L hk ht hr, rfl⟩
  | a1 :: a2 :: r =>
    rcases h with ⟨rfl, rfl⟩ | ⟨k, ts, b, rfl, hts, hm, hp, rfl⟩
    · obtain ⟨ts, hts, b, hr, rfl⟩ := hb
      obtain ⟨e1, e2⟩ := L.reads hr
      refine .inr ⟨0, ts, b, rfl, hts.mono fun a t ht => ?_, ?_, e2, rfl⟩
      · exact marked_escape (marked_zero.2 rfl) (L.writes ht)
      · rw [marked_zero, e1]
    · obtain ⟨t, ht, ⟨rfl, rfl⟩ | ⟨hne, c, hr, rfl⟩⟩ := hb
      · have e1 := (marked_nil hm).1 ((escaped_nil (L.writes ht)).1 rfl)
        match ts, hts with
        | t1 :: t2 :: tr, _ => exact absurd e1 joinWith_two_ne
        | [t1], h => cases h with | cons _ h => cases h
      · obtain ⟨e1, e2⟩ := L.reads hr
        refine .inr ⟨k + 1, ts, c, rfl, hts, ?_, ?_, rfl⟩
        · rw [e1]; exact marked_escape hm (L.writes ht)
        · rw [e2]; show W.params b = _; rw [L.params, hp]

end

/-! ## Lists of texts in one line -/

theorem joinWith_cons {sep a : Str} {r : List Str} (h : r ≠ []) : joinWith sep (a :: r) = a ++ sep ++ joinWith sep r := by
  cases r with
  | nil => exact absurd rfl h
  | cons => rfl

theorem splitOn_joinWith {ts : List Str} (h : ts ≠ []) : splitOn ',' (joinWith c!"," ts) = (ts.map (splitOn ',')).flatten := by
  induction ts with
  | nil => exact absurd rfl h
  | cons t r ih =>
    by_cases hr : r = []
    · subst hr; simp [joinWith]
    · rw [joinWith_cons hr]
      have e : t ++ c!"," ++ joinWith c!"," r = t ++ ',' :: joinWith c!"," r := by simp
      rw [e, splitOn_app, ih hr]
      simp

/-- The pieces after `n` times. -/
def pieces (n : Nat) : List Str → List Str
  | [] => []
  | [p] => [mark n p]
  | p :: q :: r => (mark n p ++ c!"\\") :: pieces n (q :: r)

theorem pieces_iff' {n : Nat} {ps qs : List Str} (h : ps ≠ []) : Pieces n ps qs ↔ qs = pieces n ps := by
  constructor
  · intro hp
    induction hp with
    | last hm => rw [marked_iff.1 hm]; rfl
    | @more p q ps qs hm hp ih =>
      cases ps with
      | nil => cases hp
      | cons p2 r => rw [marked_iff.1 hm, ih (by simp)]; rfl
  · rintro rfl
    induction ps with
    | nil => exact absurd rfl h
    | cons p r ih =>
      cases r with
      | nil => exact .last (marked_iff.2 rfl)
      | cons q r => exact .more (marked_iff.2 rfl) (ih (by simp))

theorem mark_no_comma {n : Nat} {s : Str} (h : ',' ∉ s) : ',' ∉ mark n s := by
  induction s with
  | nil => exact h
  | cons c s ih =>
    simp only [List.mem_cons, not_or] at h
    have e : mark n (c :: s) = markChar n c ++ mark n s := rfl
    rw [e, List.mem_append]
    rintro (h1 | h1)
    · unfold markChar at h1
      split at h1
      · simp only [List.mem_append, List.mem_replicate, List.mem_singleton] at h1
        rcases h1 with ⟨_, h1⟩ | h1
        · exact absurd h1 (by decide)
        · exact h.1 h1
      · split at h1
        · simp at h1
        · exact h.1 (by simpa using h1)
    · exact ih h.2 h1

theorem split_escape (s : Str) : splitOn ',' (escape s) = pieces 1 (splitOn ',' s) := by
  have key : ∀ ps, CommaPieces s ps → CommaPieces (escape s) (pieces 1 ps) := by
    intro ps h
    induction h with
    | last h =>
      show CommaPieces _ [mark 1 _]
      rw [mark_one]
      refine .last ?_
      rw [← mark_one]; exact mark_no_comma h
    | @more a r ps h hp ih =>
      rw [escape_append, escape_cons]
      have e : escape a ++ (escChar ',' ++ escape r) = (mark 1 a ++ c!"\\") ++ ',' :: escape r := by
        rw [mark_one]; simp [escChar]
      rw [e]
      cases ps with
      | nil => cases hp
      | cons p q =>
        refine .more ?_ ih
        simp only [List.mem_append, not_or]
        exact ⟨mark_no_comma h, by decide⟩
  exact (pieces_iff.1 (key _ (pieces_splitOn s))).symm

theorem escape_pieces (n : Nat) (ps : List Str) : (pieces n ps).map escape = pieces (n + 1) ps := by
  induction ps with
  | nil => rfl
  | cons p r ih =>
    cases r with
    | nil => simp [pieces, escape_mark]
    | cons q r =>
      simp only [pieces, List.map_cons] at ih ⊢
      rw [escape_append, escape_mark, ih]
      rfl

theorem pieces_no_comma {n : Nat} {ps : List Str} (h : ∀ p ∈ ps, ',' ∉ p) : ∀ q ∈ pieces n ps, ',' ∉ q := by
  induction ps with
  | nil => simp [pieces]
  | cons p r ih =>
    have h1 := mark_no_comma (n := n) (h p (by simp))
    cases r with
    | nil => simpa [pieces] using h1
    | cons q r =>
      have h2 := ih (fun x hx => h x (List.mem_cons_of_mem _ hx))
      intro x hx
      rcases List.mem_cons.1 hx with rfl | hx
      · simp only [List.mem_append, not_or]; exact ⟨h1, by decide⟩
      · exact h2 x hx

theorem pieces_ne_nil {n : Nat} {ps : List Str} (h : ps ≠ []) : pieces n ps ≠ [] := by
  match ps with
  | [] => exact absurd rfl h
  | [p] => simp [pieces]
  | p :: q :: r => simp [pieces]

/-- The texts after `n` times. -/
def splits (n : Nat) (v : List Text) : List Str := (v.map fun a => pieces n (splitOn ',' a.text)).flatten

theorem all2_map {α β : Type} {R : α → β → Prop} {as : List α} {bs : List β} {f : α → β} (hf : ∀ a b, R a b ↔ b = f a) :
    All2 R as bs ↔ bs = as.map f := by
  constructor
  · intro h
    induction h with
    | nil => rfl
    | cons h1 _ ih => rw [(hf _ _).1 h1, ih]; rfl
  · rintro rfl
    induction as with
    | nil => exact .nil
    | cons a r ih => exact .cons ((hf _ _).2 rfl) ih

theorem split_iff {n : Nat} {v w : List Text} : Split n v w ↔
    n = 0 ∧ w = v ∨ n ≠ 0 ∧ (v = [] ∨ ∃ a, v = [a] ∧ a.text = []) ∧ w = [] ∨
    n ≠ 0 ∧ v ≠ [] ∧ (∀ a, v = [a] → a.text ≠ []) ∧ w = (splits n v).map fun q => (⟨[], q⟩ : Text) := by
  unfold Split splits
  have key : ∀ qss, All2 (fun (a : Text) qs => ∃ ps, CommaPieces a.text ps ∧ Pieces n ps qs) v qss ↔ qss = v.map fun a => pieces n (splitOn ',' a.text) := by
    intro qss
    refine all2_map fun a qs => ?_
    constructor
    · rintro ⟨ps, h1, h2⟩
      rw [pieces_iff.1 h1] at h2
      exact (pieces_iff' (splitOn_ne _ _)).1 h2
    · rintro rfl
      exact ⟨_, pieces_splitOn _, (pieces_iff' (splitOn_ne _ _)).2 rfl⟩
  constructor
  · rintro (h | h | ⟨h1, h2, h3, qss, h4, rfl⟩)
    · exact .inl h
    · exact .inr (.inl h)
    · rw [key] at h4; subst h4; exact .inr (.inr ⟨h1, h2, h3, rfl⟩)
  · rintro (h | h | ⟨h1, h2, h3, rfl⟩)
    · exact .inl h
    · exact .inr (.inl h)
    · exact .inr (.inr ⟨h1, h2, h3, _, (key _).2 rfl, rfl⟩)

section
variable [Platform]

theorem texts_read {name : Str} {ps : SMap Str} {s : Str} {w : List Text} :
    Full.TextsLine ⟨name, ps, s⟩ w ↔ w = (splitOn ',' s).map fun q => (⟨[], q⟩ : Text) := by
  unfold Full.TextsLine ListOf
  constructor
  · rintro ⟨qs, h1, h2⟩
    rw [pieces_iff] at h1
    subst h1
    exact (all2_map fun a b => by cases b; simp; exact ⟨fun h => ⟨h.2, h.1⟩, fun h => ⟨h.2, h.1⟩⟩).1 h2
  · rintro rfl
    exact ⟨_, pieces_splitOn _, (all2_map fun a b => by cases b; simp; exact ⟨fun h => ⟨h.2, h.1⟩, fun h => ⟨h.2, h.1⟩⟩).2 rfl⟩

/-- Both cases of a list that is not empty and not a single empty text. -/
theorem parts_texts {name : Str} {v w : List Text} (h : Back.Parts name Back.asText Full.TextsLine v w) :
    (v = [] ∨ ∃ a, v = [a] ∧ a.text = []) ∧ w = [] ∨
    v ≠ [] ∧ (∀ a, v = [a] → a.text ≠ []) ∧ w = (splitOn ',' (joinWith c!"," (v.map fun a => escape a.text))).map fun q => (⟨[], q⟩ : Text) := by
  match v with
  | [] => exact .inl ⟨.inl rfl, h⟩
  | [a] =>
    obtain ⟨t, ⟨_, _, ht⟩, ⟨rfl, rfl⟩ | ⟨hne, hr⟩⟩ := h
    · exact .inl ⟨.inr ⟨a, rfl, (escaped_nil ht).1 rfl⟩, rfl⟩
    · refine .inr ⟨by simp, ?_, ?_⟩
      · rintro b hb he
        simp only [List.cons.injEq, and_true] at hb
        subst hb
        exact hne ((escaped_nil ht).2 he)
      · rw [texts_read] at hr
        rw [hr, escapedAs_iff.1 ht]
        rfl
  | a :: b :: r =>
    obtain ⟨ts, hts, hr⟩ := h
    refine .inr ⟨by simp, by simp, ?_⟩
    rw [texts_read] at hr
    have : ts = (a :: b :: r).map fun a => escape a.text := by
      refine (all2_map fun a t => ?_).1 (hts.mono (S := fun (a : Text) t => EscapedAs a.text t) fun a t h => h.choose_spec.2)
      exact escapedAs_iff
    rw [hr, this]

theorem split_zero (v : List Text) : Split 0 v v := .inl ⟨rfl, rfl⟩

theorem split_step {name : Str} {n : Nat} {v w x : List Text} (h : Split n v w) (hb : Back.Parts name Back.asText Full.TextsLine w x) :
    Split (n + 1) v x := by
  rw [split_iff] at *
  have hn := Nat.succ_ne_zero n
  rcases h with ⟨rfl, rfl⟩ | ⟨_, h1, rfl⟩ | ⟨h0, h1, h2, rfl⟩
  · rcases parts_texts hb with ⟨h1, h2⟩ | ⟨h1, h2, rfl⟩
    · exact .inr (.inl ⟨hn, h1, h2⟩)
    · refine .inr (.inr ⟨hn, h1, h2, ?_⟩)
      rw [splitOn_joinWith (by simpa using h1)]
      unfold splits
      simp only [List.map_map, Function.comp_def, split_escape]
  · exact .inr (.inl ⟨hn, h1, hb⟩)
  · have hc : ∀ q ∈ splits n v, ',' ∉ q := by
      intro q hq
      unfold splits at hq
      simp only [List.mem_flatten, List.mem_map] at hq
      obtain ⟨_, ⟨a, _, rfl⟩, hq⟩ := hq
      exact pieces_no_comma (fun p hp => (comma_piece (pieces_splitOn a.text) p hp).1) q hq
    have hne : splits n v ≠ [] := by
      cases v with
      | nil => exact absurd rfl h1
      | cons a r =>
        have := pieces_ne_nil (n := n) (splitOn_ne ',' a.text)
        simp [splits, this]
    refine .inr (.inr ⟨hn, h1, h2, ?_⟩)
    rcases parts_texts hb with ⟨h3 | ⟨a, h3, h4⟩, _⟩ | ⟨_, _, rfl⟩
    · exact absurd (by simpa using h3) hne
    · exfalso
      have h5 : splits n v = [[]] := by
        cases hs : splits n v with
        | nil => exact absurd hs hne
        | cons q r =>
          rw [hs] at h3
          simp only [List.map_cons, List.cons.injEq, List.map_eq_nil_iff] at h3
          obtain ⟨rfl, rfl⟩ := h3
          simp only at h4
          rw [h4]
      match v with
      | [] => exact h1 rfl
      | [a] =>
        have h6 : pieces n (splitOn ',' a.text) = [[]] := by simpa [splits] using h5
        have h7 := pieces_splitOn a.text
        cases hp : splitOn ',' a.text with
        | nil => exact splitOn_ne _ _ hp
        | cons p r =>
          rw [hp] at h6 h7
          cases r with
          | nil =>
            simp only [pieces, List.cons.injEq, and_true] at h6
            rw [mark_eq_nil] at h6
            subst h6
            have h8 := h2 a rfl
            generalize a.text = s at h7 h8
            generalize hq : ([[]] : List Str) = q at h7
            cases h7 with
            | last h => simp only [List.cons.injEq, and_true] at hq; exact h8 hq.symm
            | more _ hr => simp only [List.cons.injEq] at hq; obtain ⟨_, rfl⟩ := hq; cases hr
          | cons => simp [pieces] at h6
      | a :: b :: r =>
        have ha := List.length_pos_iff.2 (pieces_ne_nil (n := n) (splitOn_ne ',' a.text))
        have hb := List.length_pos_iff.2 (pieces_ne_nil (n := n) (splitOn_ne ',' b.text))
        have := congrArg List.length h5
        simp [splits] at this
        omega
    · congr 1
      have e1 : (((splits n v).map fun q => (⟨[], q⟩ : Text)).map fun a => escape a.text) = splits (n + 1) v := by
        simp only [List.map_map, Function.comp_def]
        unfold splits
        rw [List.map_flatten]
        simp only [List.map_map, Function.comp_def, escape_pieces]
      rw [e1]
      have hc' : ∀ q ∈ splits (n + 1) v, ',' ∉ q := by
        intro q hq
        unfold splits at hq
        simp only [List.mem_flatten, List.mem_map] at hq
        obtain ⟨_, ⟨a, _, rfl⟩, hq⟩ := hq
        exact pieces_no_comma (fun p hp => (comma_piece (pieces_splitOn a.text) p hp).1) q hq
      rw [splitOn_joinWith (by
        intro e; apply hne
        have := e1
        rw [e] at this
        simpa using this)]
      have : (splits (n + 1) v).map (splitOn ',') = (splits (n + 1) v).map fun q => [q] :=
        List.map_congr_left fun q hq => splitOn_none (hc' q hq)
      rw [this]
      generalize splits (n + 1) v = l
      induction l with
      | nil => rfl
      | cons a r ih => simp [ih]

end

/-! ## Extension properties -/

theorem ext_zero (name : Str) (m : SMap ContentLine) : ExtAfter name 0 m m := .inl ⟨rfl, rfl⟩

theorem escape_reps {name : Str} (h : escape name = name) (k : Nat) :
    escape (List.replicate k (name ++ c!"=")).flatten = (List.replicate k (name ++ c!"=")).flatten := by
  induction k with
  | zero => rfl
  | succ k ih => rw [List.replicate_succ, List.flatten_cons, escape_append, ih, escape_append, h]; rfl

theorem ext_step {name : Str} {n : Nat} {v w x : SMap ContentLine} (hn : escape name = name) (h : ExtAfter name n v w) (hb : Back.Ext name w x) :
    ExtAfter name (n + 1) v x := by
  rcases h with ⟨rfl, rfl⟩ | ⟨rfl, rfl⟩ | ⟨h0, k, ts, t, rfl, hts, hm, rfl⟩
  · rcases hb with ⟨h1, h2⟩ | ⟨h1, ts, hts, rfl⟩
    · exact .inr (.inl ⟨h1, h2⟩)
    · refine .inr (.inr ⟨h1, 0, ts, _, rfl, hts.mono ?_, marked_zero.2 rfl, rfl⟩)
      rintro p t ⟨e, he, rfl⟩
      exact ⟨e, marked_escape (marked_zero.2 rfl) he, rfl⟩
  · rcases hb with h | ⟨h, _⟩
    · exact .inr (.inl h)
    · exact absurd rfl h
  · rcases hb with ⟨h, _⟩ | ⟨_, us, hus, rfl⟩
    · cases h
    · refine .inr (.inr ⟨h0, k + 1, ts, escape t, rfl, hts, marked_escape hm (escapedAs_iff.2 rfl), ?_⟩)
      obtain ⟨u, rfl⟩ : ∃ u, us = [u] := by
        cases hus with | cons h1 h2 => cases h2; exact ⟨_, rfl⟩
      have hu : u = name ++ c!"=" ++ escape ((List.replicate k (name ++ c!"=")).flatten ++ t) := by
        cases hus with
        | cons h1 _ =>
          obtain ⟨e, he, rfl⟩ := h1
          rw [escapedAs_iff.1 he]
      subst hu
      simp only [joinWith, escape_append, escape_reps hn, List.replicate_succ, List.flatten_cons, List.append_assoc]

/-! ## Values that are always written -/

section
variable [Platform]

/-- How a value changes with one more save. -/
structure Stepped {α : Type} (A : Nat → α → α → Prop) (W : Back.Writing α) (R : ContentLine → α → Prop) : Prop where
  zero : ∀ v, A 0 v v
  step : ∀ {name n v w x t}, A n v w → W.Writes w t → R ⟨name, W.params w, t⟩ x → A (n + 1) v x
  ne : ∀ {w t}, W.Writes w t → t ≠ []

section
variable {α : Type} {A : Nat → α → α → Prop} {W : Back.Writing α} {R : ContentLine → α → Prop} {name : Str} {n : Nat}

theorem one_step (S : Stepped A W R) {v w x : α} (h : A n v w) (hb : Back.One name W R w x) : A (n + 1) v x := by
  obtain ⟨t, ht, _, hr⟩ := hb
  exact S.step h ht hr

theorem opt_zero (S : Stepped A W R) (v : Option α) : OptAfter A 0 v v := by
  cases v with
  | none => rfl
  | some a => exact ⟨a, rfl, S.zero a⟩

theorem opt_step (S : Stepped A W R) {v w x : Option α} (h : OptAfter A n v w) (hb : Back.Opt name W R w x) : OptAfter A (n + 1) v x := by
  cases v with
  | none =>
    have : w = none := h
    subst this
    exact hb
  | some a =>
    obtain ⟨b, rfl, hk⟩ := h
    obtain ⟨t, ht, ⟨rfl, _⟩ | ⟨_, c, hr, rfl⟩⟩ := hb
    · exact absurd rfl (S.ne ht)
    · exact ⟨c, rfl, S.step hk ht hr⟩

theorem same_step (hs : ∀ {a b t}, W.Writes a t → R ⟨name, W.params a, t⟩ b → b = a) (hne : ∀ {w t}, W.Writes w t → t ≠ [])
    {v w x : Option α} (h : w = v) (hb : Back.Opt name W R w x) : x = v := by
  subst h
  cases w with
  | none => exact hb
  | some a =>
    obtain ⟨t, ht, ⟨rfl, _⟩ | ⟨_, c, hr, rfl⟩⟩ := hb
    · exact absurd rfl (hne ht)
    · rw [hs ht hr]

end

theorem number_unique {t : Str} {a b : Nat} (ha : NumberText t a) (hb : IsUnsigned t b) : b = a := by
  obtain ⟨h1, h2, h3⟩ := ha
  obtain ⟨ds, hd, h4, rfl | rfl⟩ := hb
  · omega
  · have := h1.2 '+' (by simp)
    exact absurd this (by decide)

theorem number_writes {w : Nat} {t : Str} (h : Back.asNumber.Writes w t) : NumberText t w := h.choose_spec.2

theorem number_writes_ne {w : Nat} {t : Str} (h : Back.asNumber.Writes w t) : t ≠ [] := (number_writes h).1.1

theorem number_step {name : Str} {v w x : Option Nat} (h : w = v) (hb : Back.Opt name Back.asNumber Full.NumberLine w x) : x = v :=
  same_step (fun ht hr => number_unique (number_writes ht) hr.1) number_writes_ne h hb

theorem priority_step {name : Str} {v w x : Option Nat} (h : w = v) (hb : Back.Opt name Back.asNumber Full.PriorityLine w x) : x = v :=
  same_step (fun ht hr => number_unique (number_writes ht) hr.1) number_writes_ne h hb

theorem percent_step {name : Str} {v w x : Option Nat} (h : w = v) (hb : Back.Opt name Back.asNumber Full.PercentLine w x) : x = v :=
  same_step (fun ht hr => number_unique (number_writes ht) hr.1) number_writes_ne h hb

theorem status_step {name : Str} {v w x : Option Status} (h : w = v) (hb : Back.Opt name (Back.asShown Status.toStr) Full.StatusLine w x) : x = v := by
  refine same_step (fun {a b t} ht hr => ?_) (fun {w t} ht => ?_) h hb
  · obtain ⟨_, _, rfl⟩ := ht
    have hr : a.toStr = statusName b := hr
    revert hr; cases a <;> cases b <;> decide
  · obtain ⟨_, _, rfl⟩ := ht
    cases w <;> decide

theorem transp_step {name : Str} {v w x : Option TimeTransparency} (h : w = v)
    (hb : Back.Opt name (Back.asShown TimeTransparency.toStr) Full.TransparencyLine w x) : x = v := by
  refine same_step (fun {a b t} ht hr => ?_) (fun {w t} ht => ?_) h hb
  · obtain ⟨_, _, rfl⟩ := ht
    have hr : a.toStr = transparencyName b := hr
    revert hr; cases a <;> cases b <;> decide
  · obtain ⟨_, _, rfl⟩ := ht
    cases w <;> decide

/-! ## Dates and times -/

theorem frac_trunc {t : NaiveDateTime} (h : AnySecond t) :
    truncated t = { t with frac := if t.frac < 1000000000 then 0 else 1000000000 } := by
  unfold truncated
  obtain ⟨_, _, h3⟩ := h
  congr 1
  split <;> omega

theorem parse_other_years {t : NaiveDateTime} (h : ¬ FourDigitYear t.date) : parseNaiveDateTime [] t.toStr = none := by
  have hs := scanYmd_signed (d := t.date) (r := 'T' :: timeStr t.secs t.frac) h (by intro c hc; simp at hc; subst hc; decide)
  unfold parseNaiveDateTime NaiveDateTime.toStr
  rw [hs]

theorem date_time_other_years {t : NaiveDateTime} (h : ¬ FourDigitYear t.date) :
    dateTime t.toStr = .err ∧ dateTime (t.toStr ++ ['Z']) = .err := by
  constructor
  · unfold dateTime; rw [trimEndZ_toStr, parse_other_years h]
  · unfold dateTime; rw [trimEndZ_toStrZ, parse_other_years h]

theorem anySecond_local {u : NaiveDateTime} (hu : u.frac < 1000000000) : AnySecond (localOf u) := by
  obtain ⟨h1, h2⟩ := NaiveDateTime.shift_ok u (Platform.tzOffset u.toSecs)
  exact ⟨(NaiveDate.ok_iff _).1 h1, h2, .inl hu⟩

theorem trunc_frac_zero {t : NaiveDateTime} (h : t.frac < 1000000000) : (truncated t).frac = 0 := by
  unfold truncated; simp only; omega

/-- What is read from the text of a date-time. -/
def Again (x : DateTime) : DateTime → Prop
  | .naive t => x = .naive { t with frac := if t.frac < 1000000000 then 0 else 1000000000 }
  | .loc u => ∃ u', x = .loc u' ∧ Moved u u'

theorem date_time_again {name : Str} {ps : SMap Str} {w x : DateTime} (ho : Ordinary w) (h : Full.DateTimeLine ⟨name, ps, w.toStr⟩ x) :
    Again x w := by
  replace h := (C70_date_time_value _ x).2 h
  unfold dateTimeProp at h
  cases w with
  | naive t =>
    simp only [DateTime.toStr] at h
    by_cases hy : FourDigitYear t.date
    · rw [dateTime_toStr hy ho] at h
      simp only [NRes.toRes, Res.ok.injEq] at h
      show x = _
      rw [← h, frac_trunc ho]
    · rw [(date_time_other_years hy).1] at h; cases h
  | loc u =>
    obtain ⟨ho, hf⟩ := ho
    simp only [DateTime.toStr] at h
    have ha := anySecond_local hf
    by_cases hy : FourDigitYear (localOf u).date
    · rw [dateTime_toStrZ hy ha] at h
      simp only [NRes.toRes, Res.ok.injEq] at h
      refine ⟨_, h.symm, ⟨ha.1, ha.2.1, .inl ?_⟩, ?_, trunc_frac_zero (t := localOf u) hf⟩
      · rw [trunc_frac_zero (t := localOf u) hf]; decide
      · exact NaiveDateTime.toSecs_shift u _
    · rw [(date_time_other_years hy).2] at h; cases h

theorem moved_frac {n : Nat} {u u' : NaiveDateTime} (h : Repeatedly Moved n u u') (hu : AnySecond u ∧ u.frac < 1000000000) :
    AnySecond u' ∧ u'.frac < 1000000000 := by
  cases h with
  | none => exact hu
  | more _ h => exact ⟨h.1, by rw [h.2.2]; decide⟩

theorem ordinary_after {n : Nat} {v w : DateTime} (h : DateTimeAfter n v w) (ho : Ordinary v) : Ordinary w := by
  replace h := h ho
  cases v with
  | naive t =>
    rcases h with ⟨_, rfl⟩ | ⟨_, rfl⟩
    · exact ho
    · obtain ⟨h1, h2, h3⟩ := ho
      refine ⟨h1, h2, ?_⟩
      simp only
      split
      · left; decide
      · right; exact ⟨by decide, by omega⟩
  | loc u =>
    obtain ⟨u', rfl, h⟩ := h
    exact moved_frac h ho

theorem date_time_zero (v : DateTime) : DateTimeAfter 0 v v := by
  intro _
  cases v with
  | naive t => exact .inl ⟨rfl, rfl⟩
  | loc u => exact ⟨u, rfl, .none⟩

theorem date_time_step {name : Str} {ps : SMap Str} {n : Nat} {v w x : DateTime} (h : DateTimeAfter n v w)
    (hr : Full.DateTimeLine ⟨name, ps, w.toStr⟩ x) : DateTimeAfter (n + 1) v x := by
  intro ho
  have hx := date_time_again (ordinary_after h ho) hr
  replace h := h ho
  cases v with
  | naive t =>
    refine .inr ⟨Nat.succ_ne_zero _, ?_⟩
    rcases h with ⟨_, rfl⟩ | ⟨_, rfl⟩
    · exact hx
    · simp only [Again] at hx
      rw [hx]
      congr 2
      split <;> split <;> omega
  | loc u =>
    obtain ⟨u', rfl, h⟩ := h
    obtain ⟨x', rfl, hm⟩ := hx
    exact ⟨x', rfl, .more h hm⟩

theorem shown_ne {t : DateTime} : t.toStr ≠ [] := dateTime_ne t

theorem stepped_dateTime : Stepped DateTimeAfter (Back.asShown DateTime.toStr) Full.DateTimeLine where
  zero := date_time_zero
  step := by
    rintro name n v w x t h ⟨_, _, rfl⟩ hr
    exact date_time_step h hr
  ne := by
    rintro w t ⟨_, _, rfl⟩
    exact dateTime_ne w

/-- What is read from the text of a date. -/
theorem date_again {name : Str} {ps : SMap Str} {d : NaiveDate} {x : Date} (hd : RealDate d) (h : Full.DateLine ⟨name, ps, d.toStr⟩ x) : x = .date d := by
  replace h := (C70_date_value _ x).2 h
  by_cases hy : FourDigitYear d
  · have := (C35_round_trip d hy hd ⟨name, ps, d.toStr⟩ rfl).2.1
    rw [this] at h
    exact (Res.ok.inj h).symm
  · exfalso
    have hs := scanYmd_signed (d := d) (r := []) hy (by simp)
    rw [List.append_nil] at hs
    unfold dateProp dateOrDt alt Nom.map date at h
    have hp : parseNaiveDate d.toStr = none := by unfold parseNaiveDate; rw [hs]
    simp only [hp] at h
    have ht : trimEndZ d.toStr = d.toStr := by
      have e : d.toStr = (yearStr d.year ++ pad2 d.month) ++ pad2 d.day := rfl
      have hl : ∃ a c, d.toStr = a ++ [c] ∧ c.isDigit = true := by
        have h2 := pad2_digits d.day
        rw [e]
        unfold pad2 at h2 ⊢
        exact ⟨(yearStr d.year ++ pad2 d.month) ++ [digitChar (d.day / 10 % 10)], digitChar (d.day % 10), by simp [pad2], h2 _ (by simp)⟩
      obtain ⟨a, c, e, hc⟩ := hl
      rw [e]
      have := trimEndZ_digit (a := a) hc 0
      simpa only [List.replicate_zero, List.append_nil] using this
    unfold dateTime at h
    rw [ht] at h
    have hq : parseNaiveDateTime [] d.toStr = none := by unfold parseNaiveDateTime; rw [hs]
    rw [hq] at h
    cases h

theorem date_value_step {name : Str} {ps : SMap Str} {n : Nat} {v w x : Date} (h : DateAfter n v w)
    (hr : Full.DateLine ⟨name, ps, w.toStr⟩ x) : DateAfter (n + 1) v x := by
  cases v with
  | date d =>
    intro hd
    have := h hd
    subst this
    exact date_again hd hr
  | dateTime t =>
    intro ho
    obtain ⟨t', rfl, h'⟩ := h ho
    have ho' := ordinary_after h' ho
    cases x with
    | dateTime y => exact ⟨y, rfl, date_time_step h' hr⟩
    | date d =>
      exfalso
      have h1 := (C70_date_value _ _).2 hr
      unfold dateProp at h1
      rw [dateOrDt_date] at h1
      have key : ∀ (s : NaiveDateTime) (r : Str), AnySecond s → parseNaiveDate (s.toStr ++ r) = none := by
        intro s r hs
        by_cases hy : FourDigitYear s.date
        · exact parseNaiveDate_dateTime hy ((anySecond_iff s).1 hs).1 r
        · have hq := scanYmd_signed (d := s.date) (r := 'T' :: timeStr s.secs s.frac ++ r) hy (by intro c hc; simp at hc; subst hc; decide)
          unfold parseNaiveDate NaiveDateTime.toStr
          rw [List.append_assoc, hq]
      cases t' with
      | naive s =>
        have := key s [] ho'
        rw [List.append_nil] at this
        simp only [Date.toStr, DateTime.toStr] at h1
        rw [this] at h1; cases h1
      | loc u =>
        have := key (localOf u) ['Z'] (anySecond_local ho'.2)
        simp only [Date.toStr, DateTime.toStr] at h1
        rw [this] at h1; cases h1

theorem stepped_date : Stepped DateAfter Back.asDate Full.DateLine where
  zero v := by
    cases v with
    | date d => exact fun _ => rfl
    | dateTime t => exact fun _ => ⟨t, rfl, date_time_zero t⟩
  step := by
    rintro name n v w x t h ⟨_, rfl, _⟩ hr
    exact date_value_step h hr
  ne := by
    rintro w t ⟨_, rfl, _⟩
    cases w with
    | date d =>
      intro e
      have e : d.toStr = [] := e
      simp [NaiveDate.toStr, pad2] at e
    | dateTime t => exact dateTime_ne t

/-! ## Durations and offsets -/

theorem duration_step {name : Str} {ps : SMap Str} {n : Nat} {v w x : TimeDelta} (h : DurationAfter n v w)
    (hr : Full.DurationLine ⟨name, ps, w.toStr⟩ x) : DurationAfter (n + 1) v x := by
  intro hv
  refine .inr ⟨Nat.succ_ne_zero _, ?_⟩
  have hx := (C70_duration ⟨name, ps, w.toStr⟩ x).2 hr
  have again : ∀ d : TimeDelta, d.Valid → d = w → x = if d.nanos % 1000000000 = 0 then d else ⟨0⟩ := by
    rintro d hd rfl
    by_cases hw : d.nanos % 1000000000 = 0
    · rw [if_pos hw]; rw [C31_round_trip d hd hw _ rfl] at hx; exact (Res.ok.inj hx).symm
    · rw [if_neg hw]; rw [C31_fraction_lost d hw _ rfl] at hx; exact (Res.ok.inj hx).symm
  rcases h hv with ⟨_, h⟩ | ⟨_, h⟩
  · exact again v hv h.symm
  · by_cases hw : v.nanos % 1000000000 = 0
    · rw [if_pos hw] at h
      exact again v hv h.symm
    · rw [if_neg hw] at h ⊢
      have := again ⟨0⟩ (by decide) h.symm
      rw [this]; rfl

theorem stepped_duration : Stepped DurationAfter (Back.asShown TimeDelta.toStr) Full.DurationLine where
  zero v := fun _ => .inl ⟨rfl, rfl⟩
  step := by
    rintro name n v w x t h ⟨_, _, rfl⟩ hr
    exact duration_step h hr
  ne := by
    rintro w t ⟨_, _, rfl⟩
    exact delta_ne w

theorem stepped_offset : Stepped OffsetAfter (Back.asShown FixedOffset.toStr) Full.OffsetLine where
  zero v := fun _ => .inl ⟨rfl, rfl⟩
  step := by
    rintro name n v w x t h ⟨_, _, rfl⟩ hr hv
    refine .inr ⟨Nat.succ_ne_zero _, ?_⟩
    have hx := (C70_offset _ x).2 hr
    have again : ∀ d : FixedOffset, d.Valid → d = w → x.secs = (if d.secs < 0 then -1 else 1) * ((d.secs.natAbs / 60 * 60 : Nat) : Int) := by
      rintro d hd rfl
      rw [C34_seconds_dropped d hd _ rfl] at hx
      rw [← Res.ok.inj hx]
    rcases h hv with ⟨_, h⟩ | ⟨_, h⟩
    · exact again v hv h.symm
    · have hw : w.Valid := by
        obtain ⟨h1, h2⟩ := hv
        unfold FixedOffset.Valid
        rw [h]
        split <;> omega
      rw [again w hw rfl, h]
      obtain ⟨h1, h2⟩ := hv
      split <;> split <;> omega
  ne := by
    rintro w t ⟨_, _, rfl⟩
    exact offset_ne w

/-! ## Triggers and periods -/

theorem noP_date (d : NaiveDate) : 'P' ∉ d.toStr := by
  intro hc
  have key : ∀ {s : Str}, (∀ c ∈ s, c.isDigit = true) → 'P' ∉ s := fun h hp => absurd (h _ hp) (by decide)
  unfold NaiveDate.toStr yearStr at hc
  simp only [List.mem_append] at hc
  rcases hc with (hc | hc) | hc
  · split at hc
    · exact key (pad4_digits _) hc
    · simp only [List.mem_cons] at hc
      rcases hc with hc | hc
      · split at hc <;> exact absurd hc (by decide)
      · split at hc
        · exact key (pad4_digits _) hc
        · exact key (natStr_digits _) hc
  · exact key (pad2_digits _) hc
  · exact key (pad2_digits _) hc

theorem noP_naive (t : NaiveDateTime) : 'P' ∉ t.toStr := by
  intro hc
  have key : ∀ {s : Str}, (∀ c ∈ s, c.isDigit = true) → 'P' ∉ s := fun h hp => absurd (h _ hp) (by decide)
  unfold NaiveDateTime.toStr timeStr at hc
  simp only [List.mem_append, List.mem_cons] at hc
  rcases hc with hc | hc | ((hc | hc) | hc)
  · exact noP_date _ hc
  · exact absurd hc (by decide)
  · exact key (pad2_digits _) hc
  · exact key (pad2_digits _) hc
  · exact key (pad2_digits _) hc

theorem noP_dateTime (t : DateTime) : 'P' ∉ t.toStr := by
  intro hc
  cases t with
  | naive t => exact noP_naive t hc
  | loc u =>
    simp only [DateTime.toStr, List.mem_append, List.mem_singleton] at hc
    rcases hc with hc | hc
    · exact noP_naive _ hc
    · exact absurd hc (by decide)

theorem duration_has_P {s : Str} {d : TimeDelta} (h : DurationValue s d) : 'P' ∈ s := by
  obtain ⟨f, r, _, rfl, _⟩ := h
  unfold DurationFields.text
  simp

/-- The text of a duration is read as a duration. -/
theorem delta_reads (d : TimeDelta) (hd : d.Valid) (l : ContentLine) (hl : l.value = d.toStr) : ∃ x, duration l = .ok x := by
  by_cases hw : d.nanos % 1000000000 = 0
  · exact ⟨_, C31_round_trip d hd hw l hl⟩
  · exact ⟨_, C31_fraction_lost d hw l hl⟩

theorem valid_after {n : Nat} {v w : TimeDelta} (h : DurationAfter n v w) (hv : v.Valid) : w.Valid := by
  rcases h hv with ⟨_, rfl⟩ | ⟨_, rfl⟩
  · exact hv
  · split
    · exact hv
    · decide

theorem stepped_trigger : Stepped TriggerAfter Back.asTrigger Full.TriggerLine where
  zero v := by
    cases v with
    | duration d => exact fun _ => ⟨d, rfl, fun _ => .inl ⟨rfl, rfl⟩⟩
    | dateTime t => exact fun _ => ⟨t, rfl, date_time_zero t⟩
  step := by
    rintro name n v w x t h ⟨_, ht⟩ hr
    cases v with
    | duration d =>
      intro hv
      obtain ⟨d', rfl, hd⟩ := h hv
      obtain ⟨_, rfl⟩ := ht
      cases x with
      | duration y => exact ⟨y, rfl, duration_step hd hr⟩
      | dateTime y =>
        exfalso
        have h1 := ((C70_trigger _).2 y).2 ((C70_date_time_value _ y).2 hr)
        obtain ⟨z, hz⟩ := delta_reads d' (valid_after hd hv) ⟨name, Back.asTrigger.params (.duration d'), d'.toStr⟩ rfl
        rw [((C70_trigger _).1 z).2 hz] at h1
        cases h1
    | dateTime t =>
      intro ho
      obtain ⟨t', rfl, hd⟩ := h ho
      obtain ⟨_, rfl⟩ := ht
      cases x with
      | dateTime y => exact ⟨y, rfl, date_time_step hd hr⟩
      | duration y => exact absurd (duration_has_P hr) (noP_dateTime t')
  ne := by
    rintro w t ⟨_, ht⟩
    cases w with
    | duration d => obtain ⟨_, rfl⟩ := ht; exact delta_ne d
    | dateTime d => obtain ⟨_, rfl⟩ := ht; exact dateTime_ne d

theorem slash_unique {a b x y : Str} (ha : '/' ∉ a) (hx : '/' ∉ x) (h : a ++ '/' :: b = x ++ '/' :: y) : a = x ∧ b = y := by
  induction a generalizing x with
  | nil =>
    cases x with
    | nil => simpa using h
    | cons c r => simp only [List.nil_append, List.cons_append, List.cons.injEq] at h; exact absurd (by rw [h.1]; simp) hx
  | cons c a ih =>
    cases x with
    | nil => simp only [List.nil_append, List.cons_append, List.cons.injEq] at h; exact absurd (by simp [h.1]) ha
    | cons e r =>
      simp only [List.cons_append, List.cons.injEq] at h
      simp only [List.mem_cons, not_or] at ha hx
      obtain ⟨h1, h2⟩ := ih ha.2 hx.2 h.2
      exact ⟨by rw [h.1, h1], h2⟩

/-- A duration is not read as a date-time. -/
theorem delta_no_date_time {d : TimeDelta} (hd : d.Valid) {y : DateTime} (h : DateTimeValue d.toStr y) : False := by
  obtain ⟨z, hz⟩ := delta_reads d hd ⟨[], [], d.toStr⟩ rfl
  have h1 := ((C70_trigger ⟨[], [], d.toStr⟩).2 y).2 ((C70_date_time_value _ y).2 h)
  rw [((C70_trigger _).1 z).2 hz] at h1
  cases h1

theorem period_step {n : Nat} {v w x : Period} (h : PeriodAfter n v w) (hr : PeriodText w.toStr x) : PeriodAfter (n + 1) v x := by
  cases v with
  | startEnd a e =>
    intro ha he
    obtain ⟨a', e', rfl, h1, h2⟩ := h ha he
    have hs : '/' ∉ a'.toStr := fun hc => (noSlash_dateTime a' _ hc).1 rfl
    cases x with
    | startEnd p q =>
      obtain ⟨y, z, hyz, hy, _, r1, r2⟩ := hr
      obtain ⟨rfl, rfl⟩ := slash_unique hs hy hyz
      exact ⟨p, q, rfl, date_time_step (name := []) (ps := []) h1 r1, date_time_step (name := []) (ps := []) h2 r2⟩
    | startDur p q =>
      obtain ⟨y, z, hyz, hy, hP, r1, r2⟩ := hr
      obtain ⟨rfl, rfl⟩ := slash_unique hs hy hyz
      exact absurd (duration_has_P r2) (noP_dateTime e')
  | startDur a d =>
    intro ha hd
    obtain ⟨a', d', rfl, h1, h2⟩ := h ha hd
    have hs : '/' ∉ a'.toStr := fun hc => (noSlash_dateTime a' _ hc).1 rfl
    cases x with
    | startDur p q =>
      obtain ⟨y, z, hyz, hy, _, r1, r2⟩ := hr
      obtain ⟨rfl, rfl⟩ := slash_unique hs hy hyz
      exact ⟨p, q, rfl, date_time_step (name := []) (ps := []) h1 r1, duration_step (name := []) (ps := []) h2 r2⟩
    | startEnd p q =>
      obtain ⟨y, z, hyz, hy, _, r1, r2⟩ := hr
      obtain ⟨rfl, rfl⟩ := slash_unique hs hy hyz
      exact absurd r2 (delta_no_date_time (valid_after h2 hd))

theorem period_zero (v : Period) : PeriodAfter 0 v v := by
  cases v with
  | startEnd a e => exact fun _ _ => ⟨a, e, rfl, date_time_zero a, date_time_zero e⟩
  | startDur a d => exact fun _ _ => ⟨a, d, rfl, date_time_zero a, fun _ => .inl ⟨rfl, rfl⟩⟩

/-! ## Lists of values in one line -/

section
variable {α : Type}

theorem each_zero {A : Nat → α → α → Prop} (h : ∀ v, A 0 v v) (v : List α) : All2 (A 0) v v := by
  induction v with
  | nil => exact .nil
  | cons a r ih => exact .cons (h a) ih

theorem all2_trans {β γ : Type} {P : α → β → Prop} {Q : β → γ → Prop} {S : α → γ → Prop} (hS : ∀ a b c, P a b → Q b c → S a c)
    {as : List α} {bs : List β} {cs : List γ} (h1 : All2 P as bs) (h2 : All2 Q bs cs) : All2 S as cs := by
  induction h1 generalizing cs with
  | nil => cases h2; exact .nil
  | cons p _ ih => cases h2 with | cons q h2 => exact .cons (hS _ _ _ p q) (ih h2)

theorem each_step {A : Nat → α → α → Prop} {W : Back.Writing α} {V : Str → α → Prop} {name : Str} {n : Nat} {v w x : List α}
    {R : ContentLine → List α → Prop} (hR : ∀ l as, R l as → ListOf V l.value as)
    (hs : ∀ {v w x t}, A n v w → W.Writes w t → V t x → A (n + 1) v x) (hf : ∀ {w t}, W.Writes w t → t ≠ [] ∧ ',' ∉ t)
    (h : All2 (A n) v w) (hb : Back.Parts name W R w x) : All2 (A (n + 1)) v x := by
  have key : ∀ ts, ts ≠ [] → All2 W.Writes w ts → ListOf V (joinWith c!"," ts) x → All2 (A (n + 1)) v x := by
    intro ts hne hts ⟨ps, hp, hx⟩
    rw [pieces_iff, splitOn_joinWith hne] at hp
    have : ts.map (splitOn ',') = ts.map fun q => [q] := by
      refine List.map_congr_left fun q hq => splitOn_none ?_
      obtain ⟨a, _, ha⟩ := All2.right hts q hq
      exact (hf ha).2
    rw [this] at hp
    have hp : ps = ts := by
      rw [hp]
      generalize ts = l
      induction l with
      | nil => rfl
      | cons a r ih => simp [ih]
    subst hp
    exact all2_trans (fun a b c p q => q.elim fun t ⟨q1, q2⟩ => hs p q1 q2) h
      (all2_trans (S := fun b c => ∃ t, W.Writes b t ∧ V t c) (fun a b c p q => ⟨b, p, q⟩) hts hx)
  match w with
  | [] =>
    have : x = [] := hb
    subst this
    cases h; exact .nil
  | [a] =>
    obtain ⟨t, ht, ⟨rfl, _⟩ | ⟨_, hr⟩⟩ := hb
    · exact absurd rfl (hf ht).1
    · exact key [t] (by simp) (.cons ht .nil) (hR _ _ hr)
  | a :: b :: r =>
    obtain ⟨ts, hts, hr⟩ := hb
    refine key ts ?_ hts (hR _ _ hr)
    cases hts; simp

theorem dates_step {name : Str} {n : Nat} {v w x : List Date} (h : All2 (DateAfter n) v w) (hb : Back.Parts name Back.asDate Full.DatesLine w x) :
    All2 (DateAfter (n + 1)) v x :=
  each_step (V := DateValue) (fun _ _ h => h) (fun {v w x t} h ht hr => stepped_date.step (name := []) h ht hr)
    (fun {w t} ht => ⟨stepped_date.ne ht, by obtain ⟨_, rfl, _⟩ := ht; exact (free_dateOrTime w).comma⟩) h hb

theorem periods_step {name : Str} {n : Nat} {v w x : List Period} (h : All2 (PeriodAfter n) v w)
    (hb : Back.Parts name (Back.asShown Period.toStr) Full.PeriodsLine w x) : All2 (PeriodAfter (n + 1)) v x :=
  each_step (V := PeriodText) (fun _ _ h => h) (fun {v w x t} h ht hr => by obtain ⟨_, _, rfl⟩ := ht; exact period_step h hr)
    (fun {w t} ht => by
      obtain ⟨_, _, rfl⟩ := ht
      exact ⟨by cases w <;> simp [Period.toStr], (free_period w).comma⟩) h hb

end

/-! ## Tidy values -/

theorem escaped_cr {s t : Str} (h : EscapedAs s t) (hs : '\r' ∉ s) : '\r' ∉ t := by
  induction h with
  | nil => exact hs
  | semicolon _ ih | comma _ ih | newline _ ih =>
    simp only [List.mem_cons, not_or] at hs ⊢
    exact ⟨by decide, by decide, ih hs.2⟩
  | other _ _ _ _ ih =>
    simp only [List.mem_cons, not_or] at hs ⊢
    exact ⟨hs.1, ih hs.2⟩

theorem noParams_tidy : TidyParams [] := ⟨safeParams_nil, by simp⟩

/-- A text with its parameters is tidy. -/
def TidyWords {α : Type} (T : Words α) (a : α) : Prop := '\r' ∉ T.text a ∧ TidyParams (T.params a)

section
variable {α : Type} {T : Words α} {W : Back.Writing α} {R : ContentLine → α → Prop} {name : Str}

theorem tidy_line (L : Linked T W R) {a b : α} {t : Str} (h : TidyWords T a) (ht : W.Writes a t) (hr : R ⟨name, W.params a, t⟩ b) : TidyWords T b := by
  obtain ⟨e1, e2⟩ := L.reads hr
  refine ⟨?_, ?_⟩
  · rw [e1]; exact escaped_cr (L.writes ht) h.1
  · rw [e2]; show TidyParams (W.params a); rw [L.params]; exact h.2

theorem tidy_one (L : Linked T W R) {a b : α} (h : TidyWords T a) (hb : Back.One name W R a b) : TidyWords T b := by
  obtain ⟨t, ht, _, hr⟩ := hb
  exact tidy_line L h ht hr

theorem tidy_opt (L : Linked T W R) {v w : Option α} (h : ∀ a ∈ v, TidyWords T a) (hb : Back.Opt name W R v w) : ∀ a ∈ w, TidyWords T a := by
  cases v with
  | none => have : w = none := hb; subst this; simp
  | some a =>
    obtain ⟨t, ht, ⟨_, rfl⟩ | ⟨_, b, hr, rfl⟩⟩ := hb
    · simp
    · intro c hc
      cases hc
      exact tidy_line L (h a rfl) ht hr

theorem joinWith_mem {sep : Str} {ts : List Str} {c : Char} (h : c ∈ joinWith sep ts) : c ∈ sep ∨ ∃ t ∈ ts, c ∈ t := by
  induction ts with
  | nil => cases h
  | cons t r ih =>
    cases r with
    | nil => exact .inr ⟨t, by simp, h⟩
    | cons u r =>
      simp only [joinWith, List.mem_append] at h
      rcases h with (h | h) | h
      · exact .inr ⟨t, by simp, h⟩
      · exact .inl h
      · rcases ih h with h | ⟨x, hx, h⟩
        · exact .inl h
        · exact .inr ⟨x, List.mem_cons_of_mem _ hx, h⟩

theorem tidy_many (L : Linked T W R) {v w : List α} (h : ∀ a ∈ v, TidyWords T a) (hb : Back.Many name W R v w) : ∀ a ∈ w, TidyWords T a := by
  match v with
  | [] => have : w = [] := hb; subst this; simp
  | [a] =>
    obtain ⟨t, ht, ⟨_, rfl⟩ | ⟨_, b, hr, rfl⟩⟩ := hb
    · simp
    · intro c hc
      rw [List.mem_singleton.1 hc]
      exact tidy_line L (h a (by simp)) ht hr
  | a :: b :: r =>
    obtain ⟨ts, hts, b, hr, rfl⟩ := hb
    obtain ⟨e1, e2⟩ := L.reads hr
    intro c hc
    rw [List.mem_singleton.1 hc]
    refine ⟨?_, ?_⟩
    · rw [e1]
      intro hm
      rcases joinWith_mem hm with hm | ⟨t, ht, hm⟩
      · exact absurd hm (by decide)
      · obtain ⟨x, hx, hw⟩ := All2.right hts t ht
        exact escaped_cr (L.writes hw) (h x hx).1 hm
    · rw [e2]; exact noParams_tidy

end

theorem tidy_parts {name : Str} {v w : List Text} (h : ∀ a ∈ v, TidyText a) (hb : Back.Parts name Back.asText Full.TextsLine v w) :
    ∀ a ∈ w, TidyText a := by
  rcases parts_texts hb with ⟨_, rfl⟩ | ⟨_, _, rfl⟩
  · simp
  · intro a ha
    simp only [List.mem_map] at ha
    obtain ⟨q, hq, rfl⟩ := ha
    refine ⟨fun hm => ?_, noParams_tidy⟩
    have hm := (comma_piece (pieces_splitOn _) q hq).2 _ hm
    rcases joinWith_mem hm with hm | ⟨t, ht, hm⟩
    · exact absurd hm (by decide)
    · simp only [List.mem_map] at ht
      obtain ⟨x, hx, rfl⟩ := ht
      exact escaped_cr (escapedAs_iff.2 rfl) (h x hx).1 hm

theorem tidy_ext {name : Str} {v w : SMap ContentLine} (hn : '\n' ∉ name ∧ '\r' ∉ name) (h : TidyExt v) (hb : Back.Ext name v w) : TidyExt w := by
  rcases hb with ⟨_, rfl⟩ | ⟨_, ts, hts, rfl⟩
  · intro p hp; cases hp
  · intro p hp
    rw [List.mem_singleton.1 hp]
    refine ⟨hn.1, hn.2, fun hm => ?_⟩
    rcases joinWith_mem hm with hm | ⟨t, ht, hm⟩
    · exact absurd hm (by decide)
    · obtain ⟨q, hq, e, he, rfl⟩ := All2.right hts t ht
      simp only [List.mem_append] at hm
      rcases hm with (hm | hm) | hm
      · exact (h q hq).2.1 hm
      · exact absurd hm (by decide)
      · exact escaped_cr he (h q hq).2.2 hm

theorem class_stays {name : Str} (P : OneLinePlatform) {v w : Option Class} (h : ∀ a ∈ v, TidyClass a)
    (hb : Back.Opt name (Back.asShown Class.toStr) Full.ClassLine v w) : ∀ a ∈ w, TidyClass a := by
  cases v with
  | none => have : w = none := hb; subst this; simp
  | some a =>
    obtain ⟨t, ⟨_, _, rfl⟩, ⟨_, rfl⟩ | ⟨_, b, hr, rfl⟩⟩ := hb
    · simp
    · intro c hc s hs
      cases hc
      subst hs
      obtain ⟨e, _⟩ := hr
      have ht : '\n' ∉ s ∧ '\r' ∉ s := by
        rw [← e]
        have ha := h a rfl
        cases a with
        | custom x => exact ha x rfl
        | pub => exact (show '\n' ∉ c!"PUBLIC" ∧ '\r' ∉ c!"PUBLIC" by decide)
        | priv => exact (show '\n' ∉ c!"PRIVATE" ∧ '\r' ∉ c!"PRIVATE" by decide)
        | confidential => exact (show '\n' ∉ c!"CONFIDENTIAL" ∧ '\r' ∉ c!"CONFIDENTIAL" by decide)
      have key : ∀ x : Str, '\n' ∉ x ∧ '\r' ∉ x → '\n' ∉ upperStr x ∧ '\r' ∉ upperStr x := by
        intro x
        induction x with
        | nil => exact id
        | cons c r ih =>
          intro hx
          simp only [List.mem_cons, not_or] at hx
          obtain ⟨i1, i2⟩ := ih ⟨hx.1.2, hx.2.2⟩
          obtain ⟨u1, u2⟩ := P.upper c (fun e => hx.1.1 e.symm) (fun e => hx.2.1 e.symm)
          have e : upperStr (c :: r) = upperStr [c] ++ upperStr r := by simp [upperStr]
          rw [e]
          simp only [List.mem_append, not_or]
          exact ⟨⟨u1, i1⟩, u2, i2⟩
      exact key s ht

theorem geo_stays (P : OneLinePlatform) (g : Geo) : TidyGeo g := ⟨(P.floats _).1, (P.floats _).1⟩

theorem rstatus_stays (P : OneLinePlatform) {name : Str} {v w : List RequestStatus} (h : ∀ a ∈ v, TidyRequestStatus a)
    (hb : Back.Many name Back.asRequestStatus Full.RequestStatusLine v w) : ∀ a ∈ w, TidyRequestStatus a := by
  have read : ∀ {s : Str} {r : RequestStatus}, RequestStatusText s r → '\r' ∉ s → TidyRequestStatus r := by
    intro s r ⟨_, rest, hp, hr⟩ hs
    obtain ⟨a, rfl⟩ := P.rest _ _ _ hp
    simp only [List.mem_append, List.mem_cons, not_or] at hs
    refine ⟨(P.floats _).2, fun hm => ?_, fun e he hm => ?_⟩
    · cases hx : r.extdata with
      | none => rw [hx] at hr; simp only at hr; rw [← hr] at hm; exact hs.2.2 hm
      | some e => rw [hx] at hr; simp only at hr; rw [hr] at hs; simp only [List.mem_append, not_or] at hs; exact hs.2.2.1 hm
    · rw [he] at hr; simp only at hr; rw [hr] at hs; simp only [List.mem_append, List.mem_cons, not_or] at hs; exact hs.2.2.2.2 hm
  have wrote : ∀ {a : RequestStatus} {t : Str}, TidyRequestStatus a → Back.asRequestStatus.Writes a t → '\r' ∉ t := by
    intro a t ha ⟨_, _, d, hd, ht⟩ hm
    have h1 := ha.1.2
    have h2 := escaped_cr hd ha.2.1
    cases hx : a.extdata with
    | none =>
      rw [hx] at ht; simp only at ht
      subst ht
      simp only [List.mem_append] at hm
      rcases hm with (hm | hm) | hm
      · exact h1 hm
      · exact absurd hm (by decide)
      · exact h2 hm
    | some x =>
      rw [hx] at ht
      obtain ⟨e, he, rfl⟩ := ht
      have h3 := escaped_cr he (ha.2.2 x hx)
      simp only [List.mem_append] at hm
      rcases hm with (((hm | hm) | hm) | hm) | hm
      · exact h1 hm
      · exact absurd hm (by decide)
      · exact h2 hm
      · exact absurd hm (by decide)
      · exact h3 hm
  match v with
  | [] => have : w = [] := hb; subst this; simp
  | [a] =>
    obtain ⟨t, ht, ⟨_, rfl⟩ | ⟨_, b, hr, rfl⟩⟩ := hb
    · simp
    · intro c hc
      rw [List.mem_singleton.1 hc]
      exact read hr (wrote (h a (by simp)) ht)
  | a :: b :: r =>
    obtain ⟨ts, hts, b, hr, rfl⟩ := hb
    intro c hc
    rw [List.mem_singleton.1 hc]
    refine read hr fun hm => ?_
    rcases joinWith_mem hm with hm | ⟨t, ht, hm⟩
    · exact absurd hm (by decide)
    · obtain ⟨x, hx, hw⟩ := All2.right hts t ht
      exact wrote (h x hx) hw hm

end

end Ikal
