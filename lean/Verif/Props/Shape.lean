import Verif.Props.Fine
import Verif.Lemmas.Guard

/-!
# C100: what is not written as RFC 5545 text

Components in a component are written as RFC 5545 has them only if there is at most one of each kind, no alarms, and no extension properties after them.
-/

set_option linter.unusedSectionVars false

namespace Ikal

open Nom Spec Spec.Abnf

namespace Shape

/-! ## Lines -/

/-- The text of lines. -/
def unlines : List Str → Str
  | [] => []
  | l :: ls => l ++ c!"\r\n" ++ unlines ls

theorem unlines_append (a b : List Str) : unlines (a ++ b) = unlines a ++ unlines b := by
  induction a with
  | nil => rfl
  | cons l a ih => simp [unlines, ih]

theorem lines_ne (s : Str) : physicalLines s ≠ [] := by
  fun_induction physicalLines s <;> simp

theorem lines_cons {c : Char} {s l : Str} {ls : List Str} (h : ¬ c!"\r\n" <+: c :: s) (hs : physicalLines s = l :: ls) :
    physicalLines (c :: s) = (c :: l) :: ls := by
  rw [physicalLines.eq_3]
  · rw [hs]
  · rintro r rfl rfl; exact h ⟨r, rfl⟩

theorem lines_split (a b : Str) : physicalLines (a ++ c!"\r\n" ++ b) = physicalLines a ++ physicalLines b := by
  fun_induction physicalLines a with
  | case1 => rfl
  | case2 r ih => simp only [List.cons_append]; rw [physicalLines]; rw [ih]
  | case3 c r hcr hn => exact absurd hn (lines_ne _)
  | case4 c r hcr l ls hn ih =>
    rw [hn] at ih
    have : ¬ c!"\r\n" <+: c :: (r ++ c!"\r\n" ++ b) := by
      rintro ⟨x, hx⟩
      simp only [List.cons_append, List.nil_append, List.cons.injEq] at hx
      obtain ⟨rfl, hx⟩ := hx
      cases r with
      | nil => simp at hx
      | cons d r =>
        simp only [List.cons_append, List.cons.injEq] at hx
        exact hcr r rfl (by rw [← hx.1])
    rw [List.cons_append, List.cons_append, lines_cons this ih]
    rfl

theorem lines_one {s : Str} (h : '\r' ∉ s) : physicalLines s = [s] := by
  induction s with
  | nil => rfl
  | cons c s ih =>
    rw [lines_cons _ (ih fun hm => h (List.mem_cons_of_mem _ hm))]
    rintro ⟨x, hx⟩
    simp only [List.cons_append, List.cons.injEq] at hx
    exact h (hx.1 ▸ List.mem_cons_self)

theorem lines_unlines {L : List Str} (h : ∀ l ∈ L, '\r' ∉ l) : physicalLines (unlines L) = L ++ [[]] := by
  induction L with
  | nil => rfl
  | cons l L ih =>
    rw [unlines, lines_split, lines_one (h l List.mem_cons_self), ih fun l hl => h l (List.mem_cons_of_mem _ hl)]
    rfl

/-! ## The lines of a text of the RFC -/

/-- After `END` comes another `BEGIN` or `END`. -/
def Next (x y : Str) : Prop := c!"END:" <+: x → c!"BEGIN:" <+: y ∨ c!"END:" <+: y

def Chain : List Str → Prop
  | [] => True
  | [_] => True
  | x :: y :: r => Next x y ∧ Chain (y :: r)

theorem Chain.tail {x : Str} {r : List Str} (h : Chain (x :: r)) : Chain r := by
  cases r with
  | nil => trivial
  | cons y r => exact h.2

theorem Chain.append {a b : List Str} (ha : Chain a) (hb : Chain b) (h : ∀ x y, a.getLast? = some x → b.head? = some y → Next x y) : Chain (a ++ b) := by
  induction a with
  | nil => exact hb
  | cons x a ih =>
    cases a with
    | nil =>
      cases b with
      | nil => trivial
      | cons y b => exact ⟨h x y rfl rfl, hb⟩
    | cons z a => exact ⟨ha.1, ih ha.2 fun x y hx hy => h x y (by simpa using hx) hy⟩

theorem Chain.mid {a b : List Str} {x y : Str} (h : Chain (a ++ x :: y :: b)) : Next x y := by
  induction a with
  | nil => exact h.1
  | cons z a ih => exact ih h.tail

def body (l : Line) : Str := l.name ++ (l.params.map Param.str).flatten ++ c!":" ++ l.value

mutual
def linesOf : Tree → List Str
  | .mk n ls ts => (c!"BEGIN:" ++ n) :: (ls.map body ++ (linesOfAll ts ++ [c!"END:" ++ n]))
def linesOfAll : List Tree → List Str
  | [] => []
  | t :: ts => linesOf t ++ linesOfAll ts
end

theorem unlines_body (ls : List Line) : unlines (ls.map body) = (ls.map Line.str).flatten := by
  induction ls with
  | nil => rfl
  | cons l ls ih => rw [List.map_cons, unlines, ih]; simp [body, Line.str]

mutual
theorem str_lines : (t : Tree) → t.str = unlines (linesOf t)
  | .mk n ls ts => by
    rw [Tree.str, linesOf, unlines, unlines_append, unlines_append, unlines_body, strs_lines ts]
    simp [unlines]
theorem strs_lines : (ts : List Tree) → Tree.strs ts = unlines (linesOfAll ts)
  | [] => rfl
  | t :: ts => by rw [Tree.strs, linesOfAll, unlines_append, str_lines t, strs_lines ts]
end

theorem control_cr : Control '\r' := by decide

theorem token_cr {n : Str} (h : IsToken n) : '\r' ∉ n := fun hm => by
  have := h.2 _ hm
  revert this
  decide

theorem value_cr {v : ParamValue} (h : v.Ok) : '\r' ∉ v.str := by
  cases v with
  | text s => exact fun hm => (h _ hm).1 control_cr
  | quoted s =>
    intro hm
    simp only [ParamValue.str, List.mem_append, List.mem_singleton] at hm
    rcases hm with (hm | hm) | hm
    · exact absurd hm (by decide)
    · exact (h _ hm).1 control_cr
    · exact absurd hm (by decide)

theorem param_cr {p : Param} (h : p.Ok) : '\r' ∉ p.str := by
  intro hm
  simp only [Param.str, Param.raw, List.mem_append, List.mem_flatten, List.mem_map, List.mem_singleton] at hm
  rcases hm with ((hm | hm) | hm) | hm | ⟨s, ⟨v, hv, rfl⟩, hm⟩
  · exact absurd hm (by decide)
  · exact token_cr h.1 hm
  · exact absurd hm (by decide)
  · exact value_cr h.2.1 hm
  · rcases List.mem_append.1 hm with hm | hm
    · exact absurd hm (by decide)
    · exact value_cr (h.2.2 v hv) hm

theorem body_cr {l : Line} (h : l.Ok) : '\r' ∉ body l := by
  intro hm
  simp only [body, List.mem_append, List.mem_flatten, List.mem_map, List.mem_singleton] at hm
  rcases hm with ((hm | ⟨s, ⟨p, hp, rfl⟩, hm⟩) | hm) | hm
  · exact token_cr h.1 hm
  · exact param_cr (h.2.1 p hp) hm
  · exact absurd hm (by decide)
  · exact h.2.2 _ hm control_cr

/-- The lines are not empty and have no carriage return, they follow one another as they should, and the first is a `BEGIN`. -/
def Fits (L : List Str) : Prop :=
  (∀ l ∈ L, l ≠ [] ∧ '\r' ∉ l) ∧ Chain L ∧ (∀ y, L.head? = some y → c!"BEGIN:" <+: y)

theorem Chain.bodies {ls : List Line} (h : ∀ l ∈ ls, l.Ok ∧ ¬ l.Frame) {r : List Str} (hr : Chain r) : Chain (ls.map body ++ r) := by
  induction ls with
  | nil => exact hr
  | cons l ls ih =>
    have := ih fun l hl => h l (List.mem_cons_of_mem _ hl)
    have hl := h l List.mem_cons_self
    have hn : ¬ c!"END:" <+: body l := by
      intro hp
      refine (line_no_frame hl.1 hl.2 []).2 (hp.trans ⟨c!"\r\n", ?_⟩)
      simp [body, Line.str]
    refine Chain.append (a := [body l]) trivial this ?_
    intro x y hx _
    cases hx
    exact fun hp => absurd hp hn

mutual
theorem fits : (t : Tree) → t.Lawful → Fits (linesOf t)
  | .mk n ls ts, h => by
    cases h with
    | mk hn hl ht =>
      obtain ⟨h1, h2, h3⟩ := fits_all ts ht
      refine ⟨?_, ?_, ?_⟩
      · intro l hm
        rw [linesOf, List.mem_cons, List.mem_append, List.mem_append, List.mem_singleton, List.mem_map] at hm
        rcases hm with rfl | ⟨l, hm, rfl⟩ | hm | rfl
        · refine ⟨by simp, ?_⟩
          rw [List.mem_append]
          exact fun hc => hc.elim (by decide) (token_cr hn)
        · refine ⟨?_, body_cr (hl l hm).1⟩
          intro he
          have : l.name = [] := by
            unfold body at he
            simp at he
          exact (hl l hm).1.1.1 this
        · exact h1 l hm
        · refine ⟨by simp, ?_⟩
          rw [List.mem_append]
          exact fun hc => hc.elim (by decide) (token_cr hn)
      · refine Chain.append (a := [c!"BEGIN:" ++ n]) trivial (Chain.bodies hl (h2.append trivial ?_)) ?_
        · intro x y _ hy _
          cases hy
          exact .inr ⟨n, rfl⟩
        · intro x y hx _ hp
          cases hx
          obtain ⟨r, hr⟩ := hp
          cases hr
      · intro y hy
        cases hy
        exact ⟨n, rfl⟩
theorem fits_all : (ts : List Tree) → (∀ t ∈ ts, t.Lawful) → Fits (linesOfAll ts)
  | [], _ => ⟨by simp [linesOfAll], trivial, by simp [linesOfAll]⟩
  | t :: ts, h => by
    obtain ⟨h1, h2, h3⟩ := fits t (h t List.mem_cons_self)
    obtain ⟨k1, k2, k3⟩ := fits_all ts fun t ht => h t (List.mem_cons_of_mem _ ht)
    rw [linesOfAll]
    refine ⟨?_, h2.append k2 fun x y _ hy _ => .inl (k3 y hy), ?_⟩
    · intro l hm
      rcases List.mem_append.1 hm with hm | hm
      · exact h1 l hm
      · exact k1 l hm
    · intro y hy
      cases t with
      | mk n ls us => rw [linesOf] at hy; cases hy; exact ⟨n, rfl⟩
end

/-- In a text of the RFC no line is empty. -/
theorem no_blank {x : Tree} (hx : x.Lawful) (a b : Str) (h : x.str = a ++ c!"\r\n\r\n" ++ b) : False := by
  obtain ⟨h1, -, -⟩ := fits x hx
  have e := lines_unlines fun l hl => (h1 l hl).2
  rw [← str_lines, h, show a ++ c!"\r\n\r\n" ++ b = a ++ c!"\r\n" ++ ([] ++ c!"\r\n" ++ b) by simp, lines_split, lines_split] at e
  have hb : ∃ L m, physicalLines b = L ++ [m] := by
    rcases List.eq_nil_or_concat (physicalLines b) with h | ⟨L, m, h⟩
    · exact absurd h (lines_ne b)
    · exact ⟨L, m, by simpa using h⟩
  obtain ⟨L, m, hb⟩ := hb
  rw [hb, ← List.append_assoc, ← List.append_assoc] at e
  have := (List.append_inj' e rfl).1
  exact (h1 [] (by rw [← this]; simp [physicalLines])).1 rfl

/-- In a text of the RFC there is no content line after `END`. -/
theorem no_line_after {x : Tree} (hx : x.Lawful) (a n b : Str) (hn : '\r' ∉ n) (h : x.str = a ++ c!"\r\n" ++ c!"END:" ++ n ++ c!"\r\n" ++ b)
    (hb : b ≠ [] ∧ ¬ c!"BEGIN:" <+: b ∧ ¬ c!"END:" <+: b) : False := by
  obtain ⟨h1, h2, -⟩ := fits x hx
  have e := lines_unlines fun l hl => (h1 l hl).2
  have hn' : '\r' ∉ c!"END:" ++ n := by
    rw [List.mem_append]
    exact fun hc => hc.elim (by decide) hn
  rw [← str_lines, h, show a ++ c!"\r\n" ++ c!"END:" ++ n ++ c!"\r\n" ++ b = a ++ c!"\r\n" ++ (c!"END:" ++ n ++ c!"\r\n" ++ b) by simp, lines_split, lines_split,
    lines_one hn'] at e
  have pre : ∀ (s l : Str) (L : List Str), physicalLines s = l :: L → ∃ r, s = l ++ r := by
    intro s
    fun_induction physicalLines s with
    | case1 => intro l L hl; cases hl; exact ⟨[], rfl⟩
    | case2 r ih => intro l L hl; cases hl; exact ⟨_, rfl⟩
    | case3 c r _ hn => exact absurd hn (lines_ne _)
    | case4 c r _ l' ls hl' ih =>
      intro l L hl
      cases hl
      obtain ⟨r', rfl⟩ := ih _ _ hl'
      exact ⟨r', rfl⟩
  cases hp : physicalLines b with
  | nil => exact lines_ne b hp
  | cons y L =>
    obtain ⟨r, rfl⟩ := pre b y L hp
    have key : Next (c!"END:" ++ n) y ∨ y = [] ∧ L = [] := by
      rcases List.eq_nil_or_concat L with rfl | ⟨L', m, rfl⟩
      · rw [hp] at e
        have e' : (physicalLines a ++ [c!"END:" ++ n]) ++ [y] = linesOf x ++ [[]] := by simpa using e
        have := (List.append_inj' e' rfl).2
        exact .inr ⟨by simpa using this, rfl⟩
      · rw [hp] at e
        have e' : (physicalLines a ++ (c!"END:" ++ n) :: y :: L') ++ [m] = linesOf x ++ [[]] := by simpa using e
        have := (List.append_inj' e' rfl).1
        exact .inl (Chain.mid (a := physicalLines a) (b := L') (this ▸ h2))
    rcases key with key | ⟨rfl, rfl⟩
    · rcases key ⟨n, rfl⟩ with h | h
      · exact hb.2.1 (h.trans ⟨r, rfl⟩)
      · exact hb.2.2 (h.trans ⟨r, rfl⟩)
    · have : ∀ s : Str, physicalLines s = [[]] → s = [] := by
        intro s
        fun_induction physicalLines s with
        | case1 => simp
        | case2 r ih => intro h; exact absurd (by simpa using h) (lines_ne r)
        | case3 c r _ hn => simp
        | case4 => simp
      exact hb.1 (this _ hp)

/-! ## Unfolding -/

/-- The text does not begin with white space or a line feed. -/
def Firm (s : Str) : Prop := s.head? ≠ some '\n' ∧ s.head? ≠ some ' ' ∧ s.head? ≠ some '\t'

theorem Firm.append {a b : Str} (ha : Firm a) (hb : Firm b) : Firm (a ++ b) := by
  cases a with
  | nil => exact hb
  | cons c a => exact ha

theorem Firm.nil : Firm [] := ⟨by simp, by simp, by simp⟩

theorem Firm.lit {c : Char} {s : Str} (h1 : c ≠ '\n') (h2 : c ≠ ' ') (h3 : c ≠ '\t') : Firm (c :: s) :=
  ⟨by simpa using h1, by simpa using h2, by simpa using h3⟩

theorem Firm.ins {w x : Str} (h : Ins w x) (hw : Firm w) : Firm x := by
  cases h with
  | nil => exact hw
  | cons _ => exact hw
  | fold _ => exact .lit (by decide) (by decide) (by decide)

/-- Unfolding does not cross the beginning of a text that is firm. -/
theorem unfolds_split {y : Str} (hy : Firm y) : ∀ {x u : Str}, Abnf.Unfolds (x ++ y) u → ∃ ux uy, u = ux ++ uy ∧ Abnf.Unfolds y uy := by
  intro x u h
  generalize hz : x ++ y = z at h
  induction h generalizing x with
  | nil =>
    obtain ⟨rfl, rfl⟩ := List.append_eq_nil_iff.1 hz
    exact ⟨[], [], rfl, .nil⟩
  | @fold w r u hw hr ih =>
    match x with
    | [] => exact ⟨[], u, rfl, by rw [show y = _ from hz]; exact .fold hw hr⟩
    | [c] =>
      have : y = '\n' :: w :: r := by simpa using (List.cons.inj hz).2
      exact absurd (by rw [this]; rfl) hy.1
    | [c, d] =>
      have : y = w :: r := by simpa using (List.cons.inj (List.cons.inj hz).2).2
      rcases hw with rfl | rfl
      · exact absurd (by rw [this]; rfl) hy.2.1
      · exact absurd (by rw [this]; rfl) hy.2.2
    | c :: d :: e :: x => exact ih (List.cons.inj (List.cons.inj (List.cons.inj hz).2).2).2
  | @keep c r u h1 h2 hr ih =>
    cases x with
    | nil => exact ⟨[], _, rfl, by rw [show y = _ from hz]; exact .keep h1 h2 hr⟩
    | cons d x =>
      obtain ⟨ux, uy, rfl, h⟩ := ih (List.cons.inj hz).2
      exact ⟨c :: ux, uy, rfl, h⟩

theorem unfolds_char {c : Char} (hc : c ≠ '\r') {s u : Str} (h : Abnf.Unfolds (c :: s) u) : ∃ u', u = c :: u' ∧ Abnf.Unfolds s u' := by
  cases h with
  | fold _ _ => exact absurd rfl hc
  | keep _ _ h => exact ⟨_, rfl, h⟩

theorem unfolds_word {p : Str} (hp : '\r' ∉ p) {s u : Str} (h : Abnf.Unfolds (p ++ s) u) : ∃ u', u = p ++ u' ∧ Abnf.Unfolds s u' := by
  induction p generalizing u with
  | nil => exact ⟨u, rfl, h⟩
  | cons c p ih =>
    obtain ⟨u', e', k⟩ := unfolds_char (fun e => hp (e ▸ List.mem_cons_self)) h
    obtain ⟨u'', e'', k⟩ := ih (fun hm => hp (List.mem_cons_of_mem _ hm)) k
    exact ⟨u'', by rw [e', e'']; rfl, k⟩

theorem ins_lf {w x b u : Str} (h : Ins ('\n' :: w) x) (hu : Abnf.Unfolds (x ++ b) u) : ∃ x' u', u = '\n' :: u' ∧ Ins w x' ∧ Abnf.Unfolds (x' ++ b) u' := by
  generalize hv : '\n' :: w = v at h
  induction h with
  | nil => cases hv
  | @cons c w' x' h _ =>
    cases hv
    obtain ⟨u', e, k⟩ := unfolds_char (by decide) hu
    exact ⟨x', u', e, h, k⟩
  | fold h ih =>
    cases hu with
    | fold _ hu => exact ih hu hv
    | keep hk _ _ => exact absurd ⟨_, rfl⟩ hk

theorem ins_cr {w x b u : Str} (h : Ins ('\r' :: '\n' :: w) x) (hw : Firm (w ++ b)) (hu : Abnf.Unfolds (x ++ b) u) :
    ∃ x' u', u = '\r' :: u' ∧ Ins ('\n' :: w) x' ∧ Abnf.Unfolds (x' ++ b) u' := by
  generalize hv : '\r' :: '\n' :: w = v at h
  induction h with
  | nil => cases hv
  | @cons c w' x' h _ =>
    cases hv
    have hu' : Abnf.Unfolds ('\r' :: (x' ++ b)) u := hu
    generalize hz : x' ++ b = z at hu'
    cases hu' with
    | @fold c r _ hc _ =>
      exfalso
      cases h with
      | @cons _ _ x'' h =>
        have hf : Firm (x'' ++ b) := by
          cases h with
          | nil => exact hw
          | cons _ => exact hw
          | fold _ => exact .lit (by decide) (by decide) (by decide)
        have : x'' ++ b = c :: r := (List.cons.inj hz).2
        rw [this] at hf
        rcases hc with rfl | rfl
        · exact hf.2.1 rfl
        · exact hf.2.2 rfl
      | fold _ => cases hz
    | keep _ _ k => exact ⟨x', _, rfl, h, hz ▸ k⟩
  | fold h ih =>
    cases hu with
    | fold _ hu => exact ih hu hv
    | keep hk _ _ => exact absurd ⟨_, rfl⟩ hk

theorem ins_nil {x b u : Str} (h : Ins [] x) (hu : Abnf.Unfolds (x ++ b) u) : Abnf.Unfolds b u := by
  generalize hv : ([] : Str) = v at h
  induction h with
  | nil => exact hu
  | cons _ => cases hv
  | fold h ih =>
    cases hu with
    | fold _ hu => exact ih hu hv
    | keep hk _ _ => exact absurd ⟨_, rfl⟩ hk

theorem ins_split {p q x : Str} (h : Ins (p ++ q) x) : ∃ xp xq, x = xp ++ xq ∧ Ins p xp ∧ Ins q xq := by
  generalize hv : p ++ q = v at h
  induction h generalizing p with
  | nil =>
    obtain ⟨rfl, rfl⟩ := List.append_eq_nil_iff.1 hv
    exact ⟨[], [], rfl, .nil, .nil⟩
  | @cons c w x h ih =>
    cases p with
    | nil => exact ⟨[], c :: x, rfl, .nil, by rw [show q = _ from hv]; exact .cons h⟩
    | cons d p =>
      cases hv
      obtain ⟨xp, xq, rfl, h1, h2⟩ := ih rfl
      exact ⟨c :: xp, xq, rfl, .cons h1, h2⟩
  | @fold w x h ih =>
    obtain ⟨xp, xq, rfl, h1, h2⟩ := ih hv
    exact ⟨_, xq, rfl, .fold h1, h2⟩

theorem ins_folded {s out : Str} (h : FoldedAs s out) : Ins s out := by
  rcases h with ⟨-, rfl⟩ | ⟨-, ps, last, rfl, -, -, -, rfl⟩
  · exact .refl _
  · induction ps with
    | nil => exact .refl _
    | cons p ps ih =>
      have e : joinWith c!"\r\n " (p :: ps ++ [last]) = p ++ (c!"\r\n " ++ joinWith c!"\r\n " (ps ++ [last])) := by
        cases ps <;> simp [joinWith]
      rw [e, List.flatten_cons, List.append_assoc]
      exact (Ins.refl p).append (.fold ih)

/-! ## What spoils a text -/

/-- There is an empty line, even after unfolding. -/
def Gap (s : Str) : Prop := ∃ a z b, s = a ++ (z ++ b) ∧ Ins c!"\r\n\r\n" z ∧ Firm b

theorem Gap.left {a s : Str} (h : Gap s) : Gap (a ++ s) := by
  obtain ⟨x, z, b, rfl, h⟩ := h
  exact ⟨a ++ x, z, b, by simp, h⟩

theorem Gap.right {s b : Str} (h : Gap s) (hb : Firm b) : Gap (s ++ b) := by
  obtain ⟨x, z, c, rfl, h, hc⟩ := h
  exact ⟨x, z, c ++ b, by simp, h, hc.append hb⟩

theorem Gap.not_rfc {s : Str} (h : Gap s) : ¬ IsRfc s := by
  rintro ⟨x, hx, hu⟩
  obtain ⟨a, z, b, rfl, hz, hb⟩ := h
  obtain ⟨ua, uz, e, hu⟩ := unfolds_split ((Firm.ins hz (.lit (by decide) (by decide) (by decide))).append hb) hu
  obtain ⟨z1, u1, rfl, hz, hu⟩ := ins_cr hz (.lit (by decide) (by decide) (by decide)) hu
  obtain ⟨z2, u2, rfl, hz, hu⟩ := ins_lf hz hu
  obtain ⟨z3, u3, rfl, hz, hu⟩ := ins_cr hz hb hu
  obtain ⟨z4, u4, rfl, hz, hu⟩ := ins_lf hz hu
  exact no_blank hx ua u4 (by rw [e]; simp)

/-- The text ends a line: the last line feed and carriage return may be torn apart by a fold. -/
def EndsLine (s : Str) : Prop := ∃ a z, s = a ++ z ∧ Ins c!"\r\n" z

theorem EndsLine.left {a s : Str} (h : EndsLine s) : EndsLine (a ++ s) := by
  obtain ⟨x, z, rfl, h⟩ := h
  exact ⟨a ++ x, z, by simp, h⟩

/-- The last line is `END`. -/
def EndsEnd (s : Str) : Prop := ∃ a n, s = a ++ (c!"END:" ++ n ++ c!"\r\n") ∧ EndsLine a ∧ '\r' ∉ n

theorem EndsEnd.left {a s : Str} (h : EndsEnd s) : EndsEnd (a ++ s) := by
  obtain ⟨x, n, rfl, h, hn⟩ := h
  exact ⟨a ++ x, n, by simp, h.left, hn⟩

/-- A line after `END` that begins with a letter other than `B` and `E`. -/
theorem EndsEnd.not_rfc {s b : Str} (h : EndsEnd s) (hb : Firm b) (hB : b.head? ≠ some 'B' ∧ b.head? ≠ some 'E' ∧ b.head? ≠ some '\r' ∧ b ≠ []) : ¬ IsRfc (s ++ b) := by
  rintro ⟨x, hx, hu⟩
  obtain ⟨a, n, rfl, ⟨a', z, rfl, hz⟩, hn⟩ := h
  rw [show (a' ++ z ++ (c!"END:" ++ n ++ c!"\r\n")) ++ b = a' ++ (z ++ (c!"END:" ++ n ++ (c!"\r\n" ++ b))) by simp] at hu
  have hf : Firm (c!"END:" ++ n ++ (c!"\r\n" ++ b)) := .lit (by decide) (by decide) (by decide)
  obtain ⟨ua, uz, e, hu⟩ := unfolds_split ((Firm.ins hz (.lit (by decide) (by decide) (by decide))).append hf) hu
  obtain ⟨z1, u1, rfl, hz, hu⟩ := ins_cr hz hf hu
  obtain ⟨z2, u2, rfl, hz, hu⟩ := ins_lf hz hu
  have hu := ins_nil hz hu
  have hn' : '\r' ∉ c!"END:" ++ n := by
    rw [List.mem_append]
    exact fun hc => hc.elim (by decide) hn
  obtain ⟨u3, e3, k⟩ := unfolds_word hn' hu
  subst e3
  obtain ⟨z5, u5, rfl, hz, hu⟩ := ins_cr (Ins.refl c!"\r\n") hb k
  obtain ⟨z6, u6, rfl, hz, hu⟩ := ins_lf hz hu
  have hu := ins_nil hz hu
  cases b with
  | nil => exact hB.2.2.2 rfl
  | cons c b =>
    obtain ⟨u7, rfl, hu⟩ := unfolds_char (by simpa using hB.2.2.1) hu
    refine no_line_after hx ua n (c :: u7) hn (by rw [e]; simp) ⟨by simp, ?_, ?_⟩
    · rintro ⟨r, hr⟩
      exact hB.1 (by rw [show c = 'B' from (List.cons.inj hr).1.symm]; rfl)
    · rintro ⟨r, hr⟩
      exact hB.2.1 (by rw [show c = 'E' from (List.cons.inj hr).1.symm]; rfl)

/-- Spoilt in either way. -/
def Bad (s : Str) : Prop :=
  Gap s ∨ ∃ a b, s = a ++ b ∧ EndsEnd a ∧ Firm b ∧ b.head? ≠ some 'B' ∧ b.head? ≠ some 'E' ∧ b.head? ≠ some '\r' ∧ b ≠ []

theorem Bad.not_rfc {s : Str} (h : Bad s) : ¬ IsRfc s := by
  rcases h with h | ⟨a, b, rfl, h, hb, hB⟩
  · exact h.not_rfc
  · exact h.not_rfc hb hB

theorem Bad.left {a s : Str} (h : Bad s) : Bad (a ++ s) := by
  rcases h with h | ⟨x, b, rfl, h, hb⟩
  · exact .inl h.left
  · exact .inr ⟨a ++ x, b, by simp, h.left, hb⟩

theorem Bad.right {s b : Str} (h : Bad s) (hb : Firm b) : Bad (s ++ b) := by
  rcases h with h | ⟨x, c, rfl, h, hc, h1, h2, h3, h4⟩
  · exact .inl (h.right hb)
  · refine .inr ⟨x, c ++ b, by simp, h, hc.append hb, ?_⟩
    cases c with
    | nil => exact absurd rfl h4
    | cons d c => exact ⟨h1, h2, h3, by simp⟩

/-! ## The parts of a component -/

/-- What is written for the part begins firmly, and is nothing or ends a line. -/
def Orderly (P : Str → Prop) : Prop := ∀ o, P o → Firm o ∧ (o = [] ∨ EndsLine o)

instance (s : Str) : Decidable (Firm s) := by unfold Firm; infer_instance

/-- A name of a property. -/
def Named (n : Str) : Prop := Firm n ∧ n ≠ []

instance (s : Str) : Decidable (Named s) := by unfold Named; infer_instance

theorem line_end (n : Str) (ps : Option Str) (t : Str) : ∃ m, propertyLine n ps t = (n ++ m) ++ c!"\r\n" := by
  cases ps with
  | none => exact ⟨c!":" ++ t, by simp [propertyLine]⟩
  | some ps => exact ⟨c!";" ++ ps ++ c!":" ++ t, by simp [propertyLine]⟩

theorem orderly_out {n : Str} (hn : Named n) {ps : Option Str} {t : Str} : Orderly (LineOut n ps t) := by
  rintro o (⟨-, rfl⟩ | ⟨-, h⟩)
  · exact ⟨.nil, .inl rfl⟩
  · have h := ins_folded h
    obtain ⟨m, e⟩ := line_end n ps t
    rw [e] at h
    refine ⟨Firm.ins h ?_, .inr ?_⟩
    · cases n with
      | nil => exact absurd rfl hn.2
      | cons c n => exact hn.1
    · obtain ⟨a, z, rfl, -, hz⟩ := ins_split h
      exact ⟨a, z, rfl, hz⟩

theorem orderly_single {α : Type} {n : Str} (hn : Named n) (F : Form α) (v : α) : Orderly (Single n F v) := fun o ⟨_, _, _, h⟩ => orderly_out hn o h

theorem orderly_optional {α : Type} {n : Str} (hn : Named n) (F : Form α) (v : Option α) : Orderly (Optional n F v) := by
  cases v with
  | none => rintro o rfl; exact ⟨.nil, .inl rfl⟩
  | some v => exact orderly_single hn F v

theorem orderly_repeated {α : Type} {n : Str} (hn : Named n) (F : Form α) (l : List α) : Orderly (Repeated n F l) := by
  match l with
  | [v] => exact orderly_single hn F v
  | [] => exact fun o ⟨_, _, h⟩ => orderly_out hn o h
  | _ :: _ :: _ => exact fun o ⟨_, _, h⟩ => orderly_out hn o h

theorem orderly_ext {n : Str} (hn : Named n) (m : SMap ContentLine) : Orderly (Extensions n m) := fun o ⟨_, _, h⟩ => orderly_out hn o h

theorem concat_orderly {Ps : List (Str → Prop)} {b : Str} (h : Concat Ps b) (hP : ∀ P ∈ Ps, Orderly P) : Firm b ∧ (b = [] ∨ EndsLine b) := by
  induction h with
  | nil => exact ⟨.nil, .inl rfl⟩
  | @cons P Ps a b ha _ ih =>
    obtain ⟨h1, h2⟩ := hP P List.mem_cons_self a ha
    obtain ⟨h3, h4⟩ := ih fun P hm => hP P (List.mem_cons_of_mem _ hm)
    refine ⟨h1.append h3, ?_⟩
    rcases h4 with rfl | h4
    · simpa using h2
    · exact .inr h4.left

theorem frame_end {n : Str} (hn : '\r' ∉ n) {Ps : List (Str → Prop)} (hP : ∀ P ∈ Ps, Orderly P) {o : Str} (h : Frame n Ps o) : EndsEnd o := by
  obtain ⟨b, hb, rfl⟩ := h
  refine ⟨c!"BEGIN:" ++ n ++ c!"\r\n" ++ b, n, by simp, ?_, hn⟩
  rcases (concat_orderly hb hP).2 with rfl | h
  · exact ⟨c!"BEGIN:" ++ n, c!"\r\n", by simp, .refl _⟩
  · exact h.left

theorem frame_firm {n : Str} {Ps : List (Str → Prop)} {o : Str} (h : Frame n Ps o) : Firm o ∧ ∃ y, o = y ++ c!"\r\n" := by
  obtain ⟨b, -, rfl⟩ := h
  exact ⟨.lit (by decide) (by decide) (by decide), _, rfl⟩

theorem frame_orderly {n : Str} {Ps : List (Str → Prop)} : Orderly (Frame n Ps) := fun _ h =>
  ⟨(frame_firm h).1, let ⟨y, e⟩ := (frame_firm h).2; .inr ⟨y, _, e, .refl _⟩⟩

theorem orderly_inner {α : Type} {n : Str} (hn : Named n) {W : α → Str → Prop} (hW : ∀ v, Orderly (W v)) (l : List α) : Orderly (Inner n W l) := by
  match l with
  | [v] => exact hW v
  | [] => exact fun o ⟨_, _, h⟩ => orderly_out hn o h
  | _ :: _ :: _ => exact fun o ⟨_, _, h⟩ => orderly_out hn o h

theorem concat_bad {Ps : List (Str → Prop)} {b : Str} (h : Concat Ps b) (hP : ∀ P ∈ Ps, Orderly P) {P : Str → Prop} (hm : P ∈ Ps) (hb : ∀ o, P o → Bad o) :
    Bad b := by
  induction h with
  | nil => cases hm
  | @cons Q Ps a b ha hc ih =>
    rcases List.mem_cons.1 hm with rfl | hm
    · exact (hb a ha).right (concat_orderly hc fun P hm => hP P (List.mem_cons_of_mem _ hm)).1
    · exact (ih (fun P hm => hP P (List.mem_cons_of_mem _ hm)) hm).left

theorem frame_bad {n : Str} {Ps : List (Str → Prop)} (hP : ∀ P ∈ Ps, Orderly P) {P : Str → Prop} (hm : P ∈ Ps) (hb : ∀ o, P o → Bad o) {o : Str} (h : Frame n Ps o) : Bad o := by
  obtain ⟨b, hc, rfl⟩ := h
  have := ((concat_bad hc hP hm hb).left (a := c!"BEGIN:" ++ n ++ c!"\r\n")).right (b := c!"END:" ++ n ++ c!"\r\n") (.lit (by decide) (by decide) (by decide))
  simpa using this

theorem join_ends {ts : List Str} (hn : ts ≠ []) (h : ∀ t ∈ ts, ∃ y, t = y ++ c!"\r\n") : ∃ y, joinWith c!"," ts = y ++ c!"\r\n" := by
  induction ts with
  | nil => exact absurd rfl hn
  | cons t ts ih =>
    cases ts with
    | nil => exact h t List.mem_cons_self
    | cons u ts =>
      obtain ⟨y, e⟩ := ih (by simp) fun t ht => h t (List.mem_cons_of_mem _ ht)
      exact ⟨t ++ c!"," ++ y, by rw [joinWith, e]; simp⟩

theorem all2_ends {α : Type} {R : α → Str → Prop} {l : List α} {ts : List Str} (h : All2 R l ts) (hR : ∀ v t, R v t → ∃ y, t = y ++ c!"\r\n") :
    (∀ t ∈ ts, ∃ y, t = y ++ c!"\r\n") ∧ (l ≠ [] → ts ≠ []) := by
  induction h with
  | nil => exact ⟨by simp, fun h => absurd rfl h⟩
  | cons hr _ ih =>
    refine ⟨?_, by simp⟩
    intro t ht
    rcases List.mem_cons.1 ht with rfl | ht
    · exact hR _ _ hr
    · exact ih.1 t ht

theorem line_gap {n t y o : Str} {ps : Option Str} (e : t = y ++ c!"\r\n") (h : LineOut n ps t o) : Gap o := by
  rcases h with ⟨rfl, -⟩ | ⟨-, h⟩
  · simp at e
  · have h := ins_folded h
    obtain ⟨m, hm⟩ : ∃ m, propertyLine n ps t = m ++ c!"\r\n\r\n" := by
      cases ps with
      | none => exact ⟨n ++ c!":" ++ y, by simp [propertyLine, e]⟩
      | some ps => exact ⟨n ++ c!";" ++ ps ++ c!":" ++ y, by simp [propertyLine, e]⟩
    rw [hm] at h
    obtain ⟨a, z, rfl, -, hz⟩ := ins_split h
    exact ⟨a, z, [], by simp, hz, .nil⟩

theorem repeated_bad {α : Type} {n : Str} {F : Form α} (hF : ∀ v ps t, F v ps t → ∃ y, t = y ++ c!"\r\n") {l : List α} (hl : l ≠ []) {o : Str} (h : Repeated n F l o) : Bad o := by
  have key : (∃ ts, All2 (fun v t => ∃ ps, F v ps t) l ts ∧ LineOut n none (joinWith c!"," ts) o) → Bad o := by
    rintro ⟨ts, h1, h2⟩
    obtain ⟨k1, k2⟩ := all2_ends h1 fun v t ⟨ps, h⟩ => hF v ps t h
    obtain ⟨y, e⟩ := join_ends (k2 hl) k1
    exact .inl (line_gap e h2)
  match l with
  | [] => exact absurd rfl hl
  | [v] =>
    obtain ⟨ps, t, h1, h2⟩ := h
    obtain ⟨y, e⟩ := hF v ps t h1
    exact .inl (line_gap e h2)
  | _ :: _ :: _ => exact key h

theorem inner_bad {α : Type} {n : Str} {W : α → Str → Prop} (hW : ∀ v t, W v t → ∃ y, t = y ++ c!"\r\n") {l : List α} (hl : 2 ≤ l.length) {o : Str} (h : Inner n W l o) : Bad o := by
  match l with
  | [] => simp at hl
  | [v] => simp at hl
  | a :: b :: l =>
    obtain ⟨ts, h1, h2⟩ := h
    obtain ⟨k1, k2⟩ := all2_ends h1 hW
    obtain ⟨y, e⟩ := join_ends (k2 (by simp)) k1
    exact .inl (line_gap e h2)

theorem inner_member {α : Type} {n : Str} {W : α → Str → Prop} {l : List α} {v : α} (hl : l.length ≤ 1) (hv : v ∈ l) {o : Str} (h : Inner n W l o) : W v o := by
  match l with
  | [] => cases hv
  | [w] => rw [List.mem_singleton.1 hv]; exact h
  | _ :: _ :: _ => simp at hl

/-! ## Extension properties after components -/

theorem concat_split {Ps Qs : List (Str → Prop)} {b : Str} (h : Concat (Ps ++ Qs) b) : ∃ x y, b = x ++ y ∧ Concat Ps x ∧ Concat Qs y := by
  induction Ps generalizing b with
  | nil => exact ⟨[], b, rfl, .nil, h⟩
  | cons P Ps ih =>
    cases h with
    | cons ha hb =>
      obtain ⟨x, y, rfl, h1, h2⟩ := ih hb
      exact ⟨_, y, by rw [List.append_assoc], .cons ha h1, h2⟩

theorem concat_two {P Q : Str → Prop} {b : Str} (h : Concat [P, Q] b) : ∃ x y, b = x ++ (y ++ []) ∧ P x ∧ Q y := by
  cases h with
  | cons hx h =>
    cases h with
    | cons hy h => cases h; exact ⟨_, _, rfl, hx, hy⟩

/-- Components, at least one. -/
theorem concat_end {Ps : List (Str → Prop)} {b : Str} (h : Concat Ps b) (hP : ∀ P ∈ Ps, ∀ o, P o → o = [] ∨ EndsEnd o) :
    (b = [] ∨ EndsEnd b) ∧ (∀ P ∈ Ps, (∀ o, P o → o ≠ []) → b ≠ []) := by
  induction h with
  | nil => exact ⟨.inl rfl, by simp⟩
  | @cons Q Ps a b ha _ ih =>
    obtain ⟨h1, h2⟩ := ih fun P hm => hP P (List.mem_cons_of_mem _ hm)
    refine ⟨?_, ?_⟩
    · rcases h1 with rfl | h1
      · simpa using hP Q List.mem_cons_self a ha
      · exact .inr h1.left
    · intro P hm hne
      rcases List.mem_cons.1 hm with rfl | hm
      · have := hne a ha
        simp [this]
      · have := h2 P hm hne
        simp [this]

theorem inner_end {α : Type} {n : Str} {W : α → Str → Prop} (hW : ∀ v o, W v o → EndsEnd o) {l : List α} (hl : l.length ≤ 1) (o : Str) (h : Inner n W l o) :
    o = [] ∨ EndsEnd o := by
  match l with
  | [] =>
    obtain ⟨ts, h1, h2⟩ := h
    cases h1
    rcases h2 with ⟨-, rfl⟩ | ⟨h, -⟩
    · exact .inl rfl
    · exact absurd rfl h
  | [v] => exact .inr (hW v o h)
  | _ :: _ :: _ => simp at hl

theorem EndsEnd.ne {o : Str} (h : EndsEnd o) : o ≠ [] := by
  obtain ⟨a, n, rfl, -⟩ := h
  simp

theorem inner_ne {α : Type} {n : Str} {W : α → Str → Prop} (hW : ∀ v o, W v o → EndsEnd o) {l : List α} (hl : l.length ≤ 1) (hn : l ≠ []) (o : Str) (h : Inner n W l o) :
    o ≠ [] := by
  match l with
  | [] => exact absurd rfl hn
  | [v] => exact (hW v o h).ne
  | _ :: _ :: _ => simp at hl

/-- What the line of extension properties begins with. -/
def HeadIn (cs : List Char) (o : Str) : Prop := ∀ c, o.head? = some c → c ∈ cs

theorem folded_head {s o : Str} (h : FoldedAs s o) : o.head? = s.head? := by
  rcases h with ⟨-, rfl⟩ | ⟨-, ps, last, rfl, hp, -, -, rfl⟩
  · rfl
  · cases ps with
    | nil => rfl
    | cons p ps =>
      cases p with
      | nil => have := hp [] List.mem_cons_self; simp [byteLen] at this
      | cons c p => cases ps <;> rfl

theorem ext_out {n : Str} (hn : n ≠ []) {m : SMap ContentLine} {o : Str} (h : Extensions n m o) :
    (o = [] ∨ o.head? = n.head?) ∧ (m ≠ [] → o ≠ []) := by
  obtain ⟨ts, h1, h2⟩ := h
  rcases h2 with ⟨e, rfl⟩ | ⟨-, h2⟩
  · refine ⟨.inl rfl, fun hm => ?_⟩
    exfalso
    cases h1 with
    | nil => exact hm rfl
    | @cons p t m ts hp _ =>
      obtain ⟨x, -, rfl⟩ := hp
      cases ts <;> simp [joinWith] at e
  · have e := folded_head h2
    obtain ⟨k, hk⟩ := line_end n none (joinWith c!";" ts)
    rw [hk] at e
    cases n with
    | nil => exact absurd rfl hn
    | cons c n =>
      refine ⟨.inr e, fun _ ho => ?_⟩
      rw [ho] at e
      cases e

theorem ends_bad {n a x y i : Str} (hi : EndsEnd i) (hx : x = [] ∨ x.head? = some 'X') (hy : y = [] ∨ y.head? = some 'I') (hne : x ≠ [] ∨ y ≠ []) :
    Bad (c!"BEGIN:" ++ n ++ c!"\r\n" ++ (a ++ (i ++ (x ++ (y ++ [])))) ++ c!"END:" ++ n ++ c!"\r\n") := by
  refine .inr ⟨c!"BEGIN:" ++ n ++ c!"\r\n" ++ (a ++ i), x ++ (y ++ (c!"END:" ++ n ++ c!"\r\n")), by simp, hi.left.left, ?_⟩
  have key : ∀ (c : Char) (s z : Str), s.head? = some c → (s ++ z).head? = some c := by
    intro c s z h
    cases s with
    | nil => cases h
    | cons d s => exact h
  have fin : ∀ (c : Char) (s : Str), s.head? = some c → c = 'X' ∨ c = 'I' → Firm s ∧ s.head? ≠ some 'B' ∧ s.head? ≠ some 'E' ∧ s.head? ≠ some '\r' ∧ s ≠ [] := by
    intro c s h hc
    unfold Firm
    rw [h]
    refine ⟨?_, ?_, ?_, ?_, ?_⟩
    · rcases hc with rfl | rfl <;> decide
    · rcases hc with rfl | rfl <;> decide
    · rcases hc with rfl | rfl <;> decide
    · rcases hc with rfl | rfl <;> decide
    · rintro rfl; cases h
  rcases hx with rfl | hx
  · rcases hy with rfl | hy
    · rcases hne with h | h <;> exact absurd rfl h
    · rw [List.nil_append]; exact fin 'I' _ (key _ _ _ hy) (.inr rfl)
  · exact fin 'X' _ (key _ _ _ hx) (.inl rfl)

section
variable [Platform]

theorem alarm_ends (v : VAlarm) (ps : Option Str) (t : Str) (h : alarmForm v ps t) : ∃ y, t = y ++ c!"\r\n" := by
  cases v with
  | audio a => exact (frame_firm h.2).2
  | display a => exact (frame_firm h.2).2
  | email a => exact (frame_firm h.2).2

macro "orderly" : tactic => `(tactic| (
  repeat' (first
    | exact orderly_single (by decide) _ _
    | exact orderly_optional (by decide) _ _
    | exact orderly_repeated (by decide) _ _
    | exact orderly_ext (by decide) _
    | exact orderly_inner (by decide) (fun _ => frame_orderly) _
    | exact fun _ h => absurd h List.not_mem_nil
    | refine List.forall_mem_cons.2 ⟨?_, ?_⟩)))

theorem event_orderly (v : VEvent) : ∀ P ∈ VEventLines v, Orderly P := by unfold VEventLines; orderly
theorem freebusy_orderly (v : VFreebusy) : ∀ P ∈ VFreebusyLines v, Orderly P := by unfold VFreebusyLines; orderly
theorem journal_orderly (v : VJournal) : ∀ P ∈ VJournalLines v, Orderly P := by unfold VJournalLines; orderly
theorem todo_orderly (v : VTodo) : ∀ P ∈ VTodoLines v, Orderly P := by unfold VTodoLines; orderly
theorem standard_orderly (v : Standard) : ∀ P ∈ StandardLines v, Orderly P := by unfold StandardLines; orderly
theorem daylight_orderly (v : Daylight) : ∀ P ∈ DaylightLines v, Orderly P := by unfold DaylightLines; orderly
theorem timezone_orderly (v : VTimezone) : ∀ P ∈ VTimezoneLines v, Orderly P := by unfold VTimezoneLines; orderly
theorem calendar_orderly (v : VCalendar) : ∀ P ∈ VCalendarLines v, Orderly P := by unfold VCalendarLines; orderly

theorem event_bad {v : VEvent} (hv : v.alarms ≠ []) {o : Str} (h : VEventOutput v o) : Bad o :=
  frame_bad (event_orderly v) (P := Repeated c!"ALARMS" alarmForm v.alarms) (by unfold VEventLines; simp) (fun _ h => repeated_bad alarm_ends hv h) h

theorem timezone_shape {v : VTimezone} {o : Str} (h : VTimezoneOutput v o) (hb : ¬ Bad o) : ShapeVTimezone v := by
  have he : ∀ (w : Standard) (t : Str), StandardOutput w t → EndsEnd t := fun w t h => frame_end (by decide) (standard_orderly w) h
  have hd : ∀ (w : Daylight) (t : Str), DaylightOutput w t → EndsEnd t := fun w t h => frame_end (by decide) (daylight_orderly w) h
  have s1 : v.standard.length ≤ 1 := by
    refine Nat.le_of_lt_succ (Nat.lt_of_not_le fun hl => hb ?_)
    exact frame_bad (timezone_orderly v) (P := Inner c!"STANDARD" StandardOutput v.standard) (by unfold VTimezoneLines; simp)
      (fun _ h => inner_bad (fun _ _ h => (frame_firm h).2) hl h) h
  have s2 : v.daylight.length ≤ 1 := by
    refine Nat.le_of_lt_succ (Nat.lt_of_not_le fun hl => hb ?_)
    exact frame_bad (timezone_orderly v) (P := Inner c!"DAYLIGHT" DaylightOutput v.daylight) (by unfold VTimezoneLines; simp)
      (fun _ h => inner_bad (fun _ _ h => (frame_firm h).2) hl h) h
  refine ⟨s1, s2, Classical.byContradiction fun ho => hb ?_⟩
  obtain ⟨b, hc, rfl⟩ := h
  obtain ⟨a, b, rfl, -, hc⟩ := concat_split (Ps := [Single c!"TZID" textForm v.tzid, Optional c!"LAST-MODIFIED" (shown DateTime.toStr) v.lastModified,
    Optional c!"TZURL" uriForm v.tzurl]) hc
  obtain ⟨i, b, rfl, hi, hc⟩ := concat_split (Ps := [Inner c!"STANDARD" StandardOutput v.standard, Inner c!"DAYLIGHT" DaylightOutput v.daylight]) hc
  obtain ⟨x, y, rfl, hx, hy⟩ := concat_two hc
  obtain ⟨i1, i2⟩ := concat_end hi (by
    intro P hP o h
    simp only [List.mem_cons, List.not_mem_nil, or_false] at hP
    rcases hP with rfl | rfl
    · exact inner_end he s1 o h
    · exact inner_end hd s2 o h)
  obtain ⟨x1, x2⟩ := ext_out (by decide) hx
  obtain ⟨y1, y2⟩ := ext_out (by decide) hy
  have hi : EndsEnd i := by
    refine i1.resolve_left ?_
    by_cases e1 : v.standard = []
    · by_cases e2 : v.daylight = []
      · exact absurd (.inl ⟨e1, e2⟩) ho
      · exact i2 _ (.tail _ (.head _)) (inner_ne hd s2 e2)
    · exact i2 _ (.head _) (inner_ne he s1 e1)
  refine ends_bad hi x1 y1 ?_
  by_cases e1 : v.xProp = []
  · by_cases e2 : v.ianaProp = []
    · exact absurd (.inr ⟨e1, e2⟩) ho
    · exact .inr (y2 e2)
  · exact .inl (x2 e1)

theorem calendar_shape {v : VCalendar} {o : Str} (h : VCalendarOutput v o) (hb : ¬ Bad o) : ShapeVCalendar v := by
  have inner : ∀ {α : Type} {n : Str} {W : α → Str → Prop} {l : List α}, Inner n W l ∈ VCalendarLines v → (∀ v t, W v t → ∃ y, t = y ++ c!"\r\n") → l.length ≤ 1 := by
    intro α n W l hm hW
    refine Nat.le_of_lt_succ (Nat.lt_of_not_le fun hl => hb ?_)
    exact frame_bad (calendar_orderly v) hm (fun _ h => inner_bad hW hl h) h
  have m1 : Inner c!"EVENTS" VEventOutput v.events ∈ VCalendarLines v := by unfold VCalendarLines; simp
  have m2 : Inner c!"FREEBUSY" VFreebusyOutput v.freebusy ∈ VCalendarLines v := by unfold VCalendarLines; simp
  have m3 : Inner c!"JOURNALS" VJournalOutput v.journals ∈ VCalendarLines v := by unfold VCalendarLines; simp
  have m4 : Inner c!"TODO" VTodoOutput v.todo ∈ VCalendarLines v := by unfold VCalendarLines; simp
  have m5 : Inner c!"TIMEZONES" VTimezoneOutput v.timezones ∈ VCalendarLines v := by unfold VCalendarLines; simp
  have s1 := inner m1 fun _ _ h => (frame_firm h).2
  have s2 := inner m2 fun _ _ h => (frame_firm h).2
  have s3 := inner m3 fun _ _ h => (frame_firm h).2
  have s4 := inner m4 fun _ _ h => (frame_firm h).2
  have s5 := inner m5 fun _ _ h => (frame_firm h).2
  have e1 : ∀ (w : VEvent) (t : Str), VEventOutput w t → EndsEnd t := fun w t h => frame_end (by decide) (event_orderly w) h
  have e2 : ∀ (w : VFreebusy) (t : Str), VFreebusyOutput w t → EndsEnd t := fun w t h => frame_end (by decide) (freebusy_orderly w) h
  have e3 : ∀ (w : VJournal) (t : Str), VJournalOutput w t → EndsEnd t := fun w t h => frame_end (by decide) (journal_orderly w) h
  have e4 : ∀ (w : VTodo) (t : Str), VTodoOutput w t → EndsEnd t := fun w t h => frame_end (by decide) (todo_orderly w) h
  have e5 : ∀ (w : VTimezone) (t : Str), VTimezoneOutput w t → EndsEnd t := fun w t h => frame_end (by decide) (timezone_orderly w) h
  refine ⟨?_, ⟨s1, ?_⟩, s2, s3, s4, ⟨s5, ?_⟩, ?_⟩
  · refine Classical.byContradiction fun ha => hb ?_
    exact frame_bad (calendar_orderly v) (P := Repeated c!"ALARMS" alarmForm v.alarms) (by unfold VCalendarLines; simp) (fun _ h => repeated_bad alarm_ends ha h) h
  · intro e he
    refine Classical.byContradiction fun ha => hb ?_
    exact frame_bad (calendar_orderly v) m1 (fun _ h => event_bad ha (inner_member s1 he h)) h
  · intro z hz
    refine Classical.byContradiction fun ha => hb ?_
    exact frame_bad (calendar_orderly v) m5 (fun _ h => Classical.byContradiction fun hn => ha (timezone_shape (inner_member s5 hz h) hn)) h
  refine Classical.byContradiction fun ho => hb ?_
  obtain ⟨b, hc, rfl⟩ := h
  obtain ⟨a, b, rfl, -, hc⟩ := concat_split (Ps := [Single c!"PRODID" textForm v.prodid, Single c!"VERSION" textForm v.version,
    Optional c!"CALSCALE" textForm v.calscale, Optional c!"METHOD" textForm v.method, Repeated c!"ALARMS" alarmForm v.alarms]) hc
  obtain ⟨i, b, rfl, hi, hc⟩ := concat_split (Ps := [Inner c!"EVENTS" VEventOutput v.events, Inner c!"FREEBUSY" VFreebusyOutput v.freebusy,
    Inner c!"JOURNALS" VJournalOutput v.journals, Inner c!"TODO" VTodoOutput v.todo, Inner c!"TIMEZONES" VTimezoneOutput v.timezones]) hc
  obtain ⟨x, y, rfl, hx, hy⟩ := concat_two hc
  obtain ⟨i1, i2⟩ := concat_end hi (by
    intro P hP o h
    simp only [List.mem_cons, List.not_mem_nil, or_false] at hP
    rcases hP with rfl | rfl | rfl | rfl | rfl
    · exact inner_end e1 s1 o h
    · exact inner_end e2 s2 o h
    · exact inner_end e3 s3 o h
    · exact inner_end e4 s4 o h
    · exact inner_end e5 s5 o h)
  obtain ⟨x1, x2⟩ := ext_out (by decide) hx
  obtain ⟨y1, y2⟩ := ext_out (by decide) hy
  have hi : EndsEnd i := by
    refine i1.resolve_left ?_
    by_cases h1 : v.events = []
    · by_cases h2 : v.freebusy = []
      · by_cases h3 : v.journals = []
        · by_cases h4 : v.todo = []
          · by_cases h5 : v.timezones = []
            · exact absurd (.inl ⟨h1, h2, h3, h4, h5⟩) ho
            · exact i2 _ (.tail _ (.tail _ (.tail _ (.tail _ (.head _))))) (inner_ne e5 s5 h5)
          · exact i2 _ (.tail _ (.tail _ (.tail _ (.head _)))) (inner_ne e4 s4 h4)
        · exact i2 _ (.tail _ (.tail _ (.head _))) (inner_ne e3 s3 h3)
      · exact i2 _ (.tail _ (.head _)) (inner_ne e2 s2 h2)
    · exact i2 _ (.head _) (inner_ne e1 s1 h1)
  refine ends_bad hi x1 y1 ?_
  by_cases h1 : v.xProp = []
  · by_cases h2 : v.ianaProp = []
    · exact absurd (.inr ⟨h1, h2⟩) ho
    · exact .inr (y2 h2)
  · exact .inl (x2 h1)

end

end Shape

open Shape

/-- **C100**: what the other theorems call a text of RFC 5545 is one. -/
theorem C100_is_rfc {name : Str} {ps : List Str} {t : Str} (h : IsText name ps t) : IsRfc t := by
  obtain ⟨ls, ts, hg, -, hu⟩ := h
  refine ⟨_, ?_, hu.1⟩
  generalize Tree.mk name ls ts = x at hg
  induction hg with
  | mk hn hl _ ih => exact .mk hn (fun l h => ⟨(hl l h).1, (hl l h).2.1⟩) ih

section
variable [Platform]

/-- **C100** for an event: with alarms it is never written as a text of RFC 5545. -/
theorem C100_VEvent_only {v : VEvent} {t : Str} (ht : ical v = .ok t) (hr : IsRfc t) : v.alarms = [] :=
  Classical.byContradiction fun ha => (event_bad ha ((C75_VEvent v).1 t |>.1 ht)).not_rfc hr

/-- **C100** for a time zone: with two parts of a kind, or with parts as well as extension properties, it is never written as a text of RFC 5545. -/
theorem C100_VTimezone_only {v : VTimezone} {t : Str} (ht : ical v = .ok t) (hr : IsRfc t) : ShapeVTimezone v :=
  timezone_shape ((C75_VTimezone v).1 t |>.1 ht) fun hb => hb.not_rfc hr

/-- **C100** for a calendar: with alarms, two components of a kind, an event with alarms, a time zone that cannot be written so, or components as well as
extension properties, it is never written as a text of RFC 5545. -/
theorem C100_VCalendar_only {v : VCalendar} {t : Str} (ht : ical v = .ok t) (hr : IsRfc t) : ShapeVCalendar v :=
  calendar_shape ((C75_VCalendar v).1 t |>.1 ht) fun hb => hb.not_rfc hr

end

/-! ## Cases -/

section
@[reducible] private def machine : Platform := ieee utc
attribute [local instance] machine

/-- A to-do, in a calendar with an extension property. -/
private def task : VTodo where
  dtstamp := .naive ⟨⟨2024, 3, 31⟩, 9000, 0⟩
  uid := ⟨[], c!"u"⟩
  class_ := none
  completed := none
  created := none
  dtstart := none
  geo := none
  lastModified := none
  location := none
  organizer := none
  percentComplete := none
  priority := none
  recurid := none
  sequence := none
  status := none
  summary := none
  url := none
  rrule := none
  due := none
  duration := none
  attach := []
  attendee := []
  categories := []
  comment := []
  contact := []
  exdate := []
  rstatus := []
  relatedTo := []
  resources := []
  rdate := []
  xProp := []
  ianaProp := []

private def named : VCalendar where
  prodid := ⟨[], c!"p"⟩
  version := ⟨[], c!"2.0"⟩
  calscale := none
  method := none
  alarms := []
  events := []
  freebusy := []
  journals := []
  todo := [task]
  timezones := []
  xProp := [(c!"X-WR-CALNAME", ⟨c!"X-WR-CALNAME", [], c!"Home"⟩)]
  ianaProp := []

set_option maxRecDepth 8000 in
/-- Such a calendar is written, but not as RFC 5545 has it. -/
example : ∃ t, ical named = .ok t ∧ ¬ IsRfc t := by
  refine ⟨c!"BEGIN:VCALENDAR\r\nPRODID:p\r\nVERSION:2.0\r\nBEGIN:VTODO\r\nDTSTAMP:20240331T023000\r\nUID:u\r\nEND:VTODO\r\n" ++
    c!"X-PROP:X-WR-CALNAME=Home\r\nEND:VCALENDAR\r\n", by rfl, fun hr => ?_⟩
  rcases (C100_VCalendar_only (v := named) (by rfl) hr).order with ⟨-, -, -, h, -⟩ | ⟨h, -⟩ <;> cases h

set_option maxRecDepth 8000 in
/-- Without the extension property it is. -/
example : ∃ t, ical { named with xProp := [] } = .ok t ∧ IsRfc t ∧ ShapeVCalendar { named with xProp := [] } := by
  have h : ical { named with xProp := [] } = .ok (c!"BEGIN:VCALENDAR\r\nPRODID:p\r\nVERSION:2.0\r\nBEGIN:VTODO\r\nDTSTAMP:20240331T023000\r\nUID:u\r\nEND:VTODO\r\n" ++
    c!"END:VCALENDAR\r\n") := by rfl
  have tx : ∀ {s : Str}, s.all (fun c => decide (Control c → c = '\n')) = true → FineText ⟨[], s⟩ := fun h =>
    ⟨fun c hc => of_decide_eq_true (List.all_eq_true.1 h c hc), by intro p hp; cases hp⟩
  have none_ : ∀ {α : Type} {P : α → Prop}, ∀ a ∈ ([] : List α), P a := fun a ha => nomatch ha
  have ft : FineVTodo task := by
    constructor <;> first | exact tx rfl | (intro a ha; cases ha)
  have hf : FineVCalendar { named with xProp := [] } := by
    constructor <;> first
      | exact tx rfl
      | rfl
      | exact .inr ⟨rfl, rfl⟩
      | exact ⟨Nat.le_refl _, fun a ha => by rw [List.mem_singleton.1 ha]; exact ft⟩
      | exact ⟨Nat.zero_le _, fun a ha => nomatch ha⟩
      | (intro a ha; cases ha)
  have hr := C100_is_rfc (C100_VCalendar (C100_floats utc) hf _ h)
  exact ⟨_, h, hr, C100_VCalendar_only h hr⟩

end

end Ikal
